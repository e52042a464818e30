import Verif.Lemmas.ShellK
import Verif.Lemmas.Line
import Verif.Spec.Shell
import Mathlib.Analysis.Calculus.Deriv.Pow
import Mathlib.Analysis.Calculus.Deriv.Add
import Mathlib.Analysis.Calculus.Deriv.Mul
import Mathlib.Tactic.FieldSimp
import Mathlib.Tactic.LinearCombination

/-
Strains of the shell elements for the nodal displacements of simple fields.
-/

namespace Hyperstatic
open Matrix Spec

theorem deriv_of_cubic (f : ℝ → ℝ) (c0 c1 c2 c3 x : ℝ) (h : ∀ x, f x = c0 + c1 * x + c2 * x ^ 2 + c3 * x ^ 3) :
    deriv f x = c1 + 2 * c2 * x + 3 * c3 * x ^ 2 := by
  have : f = fun x => c0 + c1 * x + c2 * x ^ 2 + c3 * x ^ 3 := funext h
  rw [this]
  have h1 := (((hasDerivAt_const x c0).add ((hasDerivAt_id x).const_mul c1)).add ((hasDerivAt_pow 2 x).const_mul c2)).add
    ((hasDerivAt_pow 3 x).const_mul c3)
  have h2 := h1.deriv
  simp only [id] at h2
  refine Eq.trans ?_ (h2.trans ?_)
  · congr 1
  · norm_num
    ring

section gq
open GQ12

theorem N0_dXi (i : Fin 4) (ξ η : ℝ) : dXi (N0 i) ξ η = 1 / 4 * xi0 i * (1 + eta0 i * η) := by
  unfold dXi
  rw [deriv_of_cubic _ (1 / 4 * (1 + eta0 i * η)) (1 / 4 * xi0 i * (1 + eta0 i * η)) 0 0]
  · ring
  · intro x; unfold N0; ring

theorem N0_dEta (i : Fin 4) (ξ η : ℝ) : dEta (N0 i) ξ η = 1 / 4 * eta0 i * (1 + xi0 i * ξ) := by
  unfold dEta
  rw [deriv_of_cubic _ (1 / 4 * (1 + xi0 i * ξ)) (1 / 4 * eta0 i * (1 + xi0 i * ξ)) 0 0]
  · ring
  · intro x; unfold N0; ring

theorem zero_dXi (ξ η : ℝ) : dXi (fun _ _ => 0) ξ η = 0 := by simp [dXi]
theorem zero_dEta (ξ η : ℝ) : dEta (fun _ _ => 0) ξ η = 0 := by simp [dEta]

/-- derivatives of a bilinear interpolation -/
noncomputable def gXi (f : Fin 4 → ℝ) (η : ℝ) : ℝ := ((f 0 + f 1 - f 2 - f 3) + η * (-f 0 + f 1 - f 2 + f 3)) / 4
noncomputable def gEta (f : Fin 4 → ℝ) (ξ : ℝ) : ℝ := ((-f 0 + f 1 + f 2 - f 3) + ξ * (-f 0 + f 1 - f 2 + f 3)) / 4

theorem sum_N0_dXi (f : Fin 4 → ℝ) (ξ η : ℝ) : ∑ i, dXi (N0 i) ξ η * f i = gXi f η := by
  simp only [N0_dXi, Fin.sum_univ_four, xi0, eta0, gXi]
  simp
  ring

theorem sum_N0_dEta (f : Fin 4 → ℝ) (ξ η : ℝ) : ∑ i, dEta (N0 i) ξ η * f i = gEta f ξ := by
  simp only [N0_dEta, Fin.sum_univ_four, xi0, eta0, gEta]
  simp
  ring

theorem gqJ_eq (x y : Fin 4 → ℝ) (ξ η : ℝ) : J x y ξ η = !![gXi x η, gXi y η; gEta x ξ, gEta y ξ] := by
  unfold J
  simp only [sum_N0_dXi, sum_N0_dEta]

theorem gqJ_det (x y : Fin 4 → ℝ) (ξ η : ℝ) : (J x y ξ η).det = gXi x η * gEta y ξ - gXi y η * gEta x ξ := by
  rw [gqJ_eq, Matrix.det_fin_two_of]

theorem inv_two (A : Matrix (Fin 2) (Fin 2) ℝ) (a b : ℝ) :
    A⁻¹ *ᵥ ![a, b] = ![(A 1 1 * a - A 0 1 * b) / A.det, (A 0 0 * b - A 1 0 * a) / A.det] := by
  rw [Matrix.inv_def, Matrix.adjugate_fin_two, Ring.inverse_eq_inv', Matrix.smul_mulVec]
  ext i
  fin_cases i <;> simp [Matrix.mulVec, dotProduct, Fin.sum_univ_two] <;> ring

/-- strains of a nodal state without rotations about the normal -/
theorem gqB_flat (x y : Fin 4 → ℝ) (ξ η : ℝ) (m : Fin 4 × Fin 3 → ℝ) (hm : ∀ i, m (i, 2) = 0) :
    B x y ξ η *ᵥ m =
      ![(gEta y ξ * gXi (fun i => m (i, 0)) η - gXi y η * gEta (fun i => m (i, 0)) ξ) / (J x y ξ η).det,
        (gXi x η * gEta (fun i => m (i, 1)) ξ - gEta x ξ * gXi (fun i => m (i, 1)) η) / (J x y ξ η).det,
        (gXi x η * gEta (fun i => m (i, 0)) ξ - gEta x ξ * gXi (fun i => m (i, 0)) η) / (J x y ξ η).det +
        (gEta y ξ * gXi (fun i => m (i, 1)) η - gXi y η * gEta (fun i => m (i, 1)) ξ) / (J x y ξ η).det] := by
  have hu0 : ∀ i, Nu y (i, 0) = N0 i := fun i => rfl
  have hu1 : ∀ i, Nu y (i, 1) = fun _ _ => 0 := fun i => rfl
  have hv0 : ∀ i, Nv x (i, 0) = fun _ _ => 0 := fun i => rfl
  have hv1 : ∀ i, Nv x (i, 1) = N0 i := fun i => rfl
  have e1 := fun f : Fin 4 → ℝ => sum_N0_dXi f ξ η
  have e2 := fun f : Fin 4 → ℝ => sum_N0_dEta f ξ η
  have a1 := e1 fun i => m (i, 0)
  have a2 := e2 fun i => m (i, 0)
  have b1 := e1 fun i => m (i, 1)
  have b2 := e2 fun i => m (i, 1)
  simp only [Fin.sum_univ_four] at a1 a2 b1 b2
  ext r
  unfold mulVec dotProduct
  rw [Fintype.sum_prod_type]
  simp only [Fin.sum_univ_four, Fin.sum_univ_three, hm, mul_zero, add_zero]
  fin_cases r
  · simp only [B, dnat, inv_two, hu0, hu1, zero_dXi, zero_dEta]
    simp only [gqJ_eq, Fin.zero_eta, cons_val_zero, of_apply, cons_val_one, cons_val_fin_one, ← a1, ← a2]
    simp
    ring
  · simp only [B, dnat, inv_two, hv0, hv1, zero_dXi, zero_dEta]
    simp only [gqJ_eq, Fin.mk_one, cons_val_zero, of_apply, cons_val_one, cons_val_fin_one, ← b1, ← b2]
    simp
    ring
  · simp only [B, dnat, inv_two, hv0, hv1, hu0, hu1, zero_dXi, zero_dEta]
    simp only [gqJ_eq, Fin.reduceFinMk, cons_val_zero, of_apply, cons_val_one, cons_val, cons_val_fin_one, ← b1, ← b2, ← a1, ← a2]
    simp
    ring

theorem Nt_dXi (p : Fin 4 → ℝ) (i : Fin 4) (ξ η : ℝ) : dXi (Nt p i) ξ η =
    ((1 - 3 * ξ ^ 2) * (c1 p + c3 p * eta0 i) * (1 + eta0 i * η) + eta0 i * (1 - η ^ 2) * (c2 p + c3 p * xi0 i) * xi0 i) / 8 := by
  unfold dXi
  rw [deriv_of_cubic _ (eta0 i * (1 - η ^ 2) * (c2 p + c3 p * xi0 i) / 8)
    (((c1 p + c3 p * eta0 i) * (1 + eta0 i * η) + eta0 i * (1 - η ^ 2) * (c2 p + c3 p * xi0 i) * xi0 i) / 8) 0
    (-(c1 p + c3 p * eta0 i) * (1 + eta0 i * η) / 8)]
  · ring
  · intro x; unfold Nt; ring

theorem Nt_dEta (p : Fin 4 → ℝ) (i : Fin 4) (ξ η : ℝ) : dEta (Nt p i) ξ η =
    (ξ * (1 - ξ ^ 2) * (c1 p + c3 p * eta0 i) * eta0 i - 2 * η * eta0 i * (c2 p + c3 p * xi0 i) * (1 + xi0 i * ξ)) / 8 := by
  unfold dEta
  rw [deriv_of_cubic _ ((ξ * (1 - ξ ^ 2) * (c1 p + c3 p * eta0 i) + eta0 i * (c2 p + c3 p * xi0 i) * (1 + xi0 i * ξ)) / 8)
    (ξ * (1 - ξ ^ 2) * (c1 p + c3 p * eta0 i) * eta0 i / 8) (-eta0 i * (c2 p + c3 p * xi0 i) * (1 + xi0 i * ξ) / 8) 0]
  · ring
  · intro x; unfold Nt; ring

theorem sum_Nt_dXi (p : Fin 4 → ℝ) (ξ η : ℝ) : ∑ i, dXi (Nt p i) ξ η = (1 - 3 * ξ ^ 2) * (c1 p + c3 p * η) / 2 := by
  simp only [Nt_dXi, Fin.sum_univ_four, xi0, eta0]
  simp
  ring

theorem sum_Nt_dEta (p : Fin 4 → ℝ) (ξ η : ℝ) : ∑ i, dEta (Nt p i) ξ η = ξ * (1 - ξ ^ 2) * c3 p / 2 := by
  simp only [Nt_dEta, Fin.sum_univ_four, xi0, eta0]
  simp
  ring

/-- strains when all nodes rotate about the normal by the same angle, without displacements -/
theorem gqB_spin (x y : Fin 4 → ℝ) (ξ η r : ℝ) :
    B x y ξ η *ᵥ (fun k => if k.2 = 2 then r else 0) =
      ![r * (gEta y ξ * ((1 - 3 * ξ ^ 2) * (c1 y + c3 y * η) / 2) - gXi y η * (ξ * (1 - ξ ^ 2) * c3 y / 2)) / (J x y ξ η).det,
        -r * (gXi x η * (ξ * (1 - ξ ^ 2) * c3 x / 2) - gEta x ξ * ((1 - 3 * ξ ^ 2) * (c1 x + c3 x * η) / 2)) / (J x y ξ η).det,
        r * (gXi x η * (ξ * (1 - ξ ^ 2) * c3 y / 2) - gEta x ξ * ((1 - 3 * ξ ^ 2) * (c1 y + c3 y * η) / 2) -
        gEta y ξ * ((1 - 3 * ξ ^ 2) * (c1 x + c3 x * η) / 2) + gXi y η * (ξ * (1 - ξ ^ 2) * c3 x / 2)) / (J x y ξ η).det] := by
  have hu2 : ∀ i, Nu y (i, 2) = Nt y i := fun i => rfl
  have hv2 : ∀ i, Nv x (i, 2) = fun s t => -Nt x i s t := fun i => rfl
  have hn1 : ∀ f : ℝ → ℝ → ℝ, dXi (fun s t => -f s t) ξ η = -dXi f ξ η := fun f => by unfold dXi; exact deriv.fun_neg
  have hn2 : ∀ f : ℝ → ℝ → ℝ, dEta (fun s t => -f s t) ξ η = -dEta f ξ η := fun f => by unfold dEta; exact deriv.fun_neg
  have a1 := sum_Nt_dXi x ξ η
  have a2 := sum_Nt_dEta x ξ η
  have b1 := sum_Nt_dXi y ξ η
  have b2 := sum_Nt_dEta y ξ η
  simp only [Fin.sum_univ_four] at a1 a2 b1 b2
  ext k
  unfold mulVec dotProduct
  rw [Fintype.sum_prod_type]
  have z0 : ((0 : Fin 3) = 2) = False := by simp
  have z1 : ((1 : Fin 3) = 2) = False := by simp
  simp only [Fin.sum_univ_four, Fin.sum_univ_three, z0, z1, if_false, if_true, mul_zero, zero_add]
  fin_cases k
  · simp only [B, dnat, inv_two, hu2]
    simp only [gqJ_eq, Fin.zero_eta, cons_val_zero, of_apply, cons_val_one, cons_val_fin_one, ← b1, ← b2]
    ring
  · simp only [B, dnat, inv_two, hv2, hn1, hn2]
    simp only [gqJ_eq, Fin.mk_one, cons_val_zero, of_apply, cons_val_one, cons_val_fin_one, ← a1, ← a2]
    ring
  · simp only [B, dnat, inv_two, hv2, hu2, hn1, hn2]
    simp only [gqJ_eq, Fin.reduceFinMk, cons_val_zero, of_apply, cons_val_one, cons_val, cons_val_fin_one, ← b1, ← b2, ← a1, ← a2]
    ring

end gq

section dkq
open DKQ

theorem N_dXi (ξ η : ℝ) : (dXi (N 0) ξ η = -1 / 4 * (1 - η) * (-2 * ξ - η)) ∧ (dXi (N 1) ξ η = -1 / 4 * (1 - η) * (-2 * ξ + η)) ∧
    (dXi (N 2) ξ η = -1 / 4 * (1 + η) * (-2 * ξ - η)) ∧ (dXi (N 3) ξ η = -1 / 4 * (1 + η) * (-2 * ξ + η)) := by
  refine ⟨?_, ?_, ?_, ?_⟩ <;> unfold dXi
  · rw [deriv_of_cubic _ (-1 / 4 * (1 - η) * (1 + η)) (-1 / 4 * (1 - η) * (-η)) (-1 / 4 * (1 - η) * (-1)) 0]
    · ring
    · intro x; simp only [N]; ring
  · rw [deriv_of_cubic _ (-1 / 4 * (1 - η) * (1 + η)) (-1 / 4 * (1 - η) * η) (-1 / 4 * (1 - η) * (-1)) 0]
    · ring
    · intro x; simp only [N]; ring
  · rw [deriv_of_cubic _ (-1 / 4 * (1 + η) * (1 - η)) (-1 / 4 * (1 + η) * (-η)) (-1 / 4 * (1 + η) * (-1)) 0]
    · ring
    · intro x; simp only [N]; ring
  · rw [deriv_of_cubic _ (-1 / 4 * (1 + η) * (1 - η)) (-1 / 4 * (1 + η) * η) (-1 / 4 * (1 + η) * (-1)) 0]
    · ring
    · intro x; simp only [N]; ring

theorem N_dEta (ξ η : ℝ) : (dEta (N 0) ξ η = -1 / 4 * (1 - ξ) * (-2 * η - ξ)) ∧ (dEta (N 1) ξ η = -1 / 4 * (1 + ξ) * (-2 * η + ξ)) ∧
    (dEta (N 2) ξ η = -1 / 4 * (1 + ξ) * (-2 * η - ξ)) ∧ (dEta (N 3) ξ η = -1 / 4 * (1 - ξ) * (-2 * η + ξ)) := by
  refine ⟨?_, ?_, ?_, ?_⟩ <;> unfold dEta
  · rw [deriv_of_cubic _ (-1 / 4 * (1 - ξ) * (1 + ξ)) (-1 / 4 * (1 - ξ) * (-ξ)) (-1 / 4 * (1 - ξ) * (-1)) 0]
    · ring
    · intro x; simp only [N]; ring
  · rw [deriv_of_cubic _ (-1 / 4 * (1 + ξ) * (1 - ξ)) (-1 / 4 * (1 + ξ) * ξ) (-1 / 4 * (1 + ξ) * (-1)) 0]
    · ring
    · intro x; simp only [N]; ring
  · rw [deriv_of_cubic _ (-1 / 4 * (1 + ξ) * (1 - ξ)) (-1 / 4 * (1 + ξ) * (-ξ)) (-1 / 4 * (1 + ξ) * (-1)) 0]
    · ring
    · intro x; simp only [N]; ring
  · rw [deriv_of_cubic _ (-1 / 4 * (1 - ξ) * (1 + ξ)) (-1 / 4 * (1 - ξ) * ξ) (-1 / 4 * (1 - ξ) * (-1)) 0]
    · ring
    · intro x; simp only [N]; ring

theorem M_dXi (ξ η : ℝ) : (dXi (M 0) ξ η = -ξ * (1 - η)) ∧ (dXi (M 1) ξ η = 1 / 2 * (1 - η ^ 2)) ∧
    (dXi (M 2) ξ η = -ξ * (1 + η)) ∧ (dXi (M 3) ξ η = -1 / 2 * (1 - η ^ 2)) := by
  refine ⟨?_, ?_, ?_, ?_⟩ <;> unfold dXi
  · rw [deriv_of_cubic _ (1 / 2 * (1 - η)) 0 (-1 / 2 * (1 - η)) 0]
    · ring
    · intro x; simp only [M]; ring
  · rw [deriv_of_cubic _ (1 / 2 * (1 - η ^ 2)) (1 / 2 * (1 - η ^ 2)) 0 0]
    · ring
    · intro x; simp only [M]; ring
  · rw [deriv_of_cubic _ (1 / 2 * (1 + η)) 0 (-1 / 2 * (1 + η)) 0]
    · ring
    · intro x; simp only [M]; ring
  · rw [deriv_of_cubic _ (1 / 2 * (1 - η ^ 2)) (-1 / 2 * (1 - η ^ 2)) 0 0]
    · ring
    · intro x; simp only [M]; ring

theorem M_dEta (ξ η : ℝ) : (dEta (M 0) ξ η = -1 / 2 * (1 - ξ ^ 2)) ∧ (dEta (M 1) ξ η = -η * (1 + ξ)) ∧
    (dEta (M 2) ξ η = 1 / 2 * (1 - ξ ^ 2)) ∧ (dEta (M 3) ξ η = -η * (1 - ξ)) := by
  refine ⟨?_, ?_, ?_, ?_⟩ <;> unfold dEta
  · rw [deriv_of_cubic _ (1 / 2 * (1 - ξ ^ 2)) (-1 / 2 * (1 - ξ ^ 2)) 0 0]
    · ring
    · intro x; simp only [M]; ring
  · rw [deriv_of_cubic _ (1 / 2 * (1 + ξ)) 0 (-1 / 2 * (1 + ξ)) 0]
    · ring
    · intro x; simp only [M]; ring
  · rw [deriv_of_cubic _ (1 / 2 * (1 - ξ ^ 2)) (1 / 2 * (1 - ξ ^ 2)) 0 0]
    · ring
    · intro x; simp only [M]; ring
  · rw [deriv_of_cubic _ (1 / 2 * (1 - ξ)) 0 (-1 / 2 * (1 - ξ)) 0]
    · ring
    · intro x; simp only [M]; ring

theorem N_diff (i : Fin 4) (η : ℝ) : Differentiable ℝ fun x => N i x η := by
  fin_cases i <;> simp only [N] <;> fun_prop
theorem N_diff' (i : Fin 4) (ξ : ℝ) : Differentiable ℝ fun y => N i ξ y := by
  fin_cases i <;> simp only [N] <;> fun_prop
theorem M_diff (i : Fin 4) (η : ℝ) : Differentiable ℝ fun x => M i x η := by
  fin_cases i <;> simp only [M] <;> fun_prop
theorem M_diff' (i : Fin 4) (ξ : ℝ) : Differentiable ℝ fun y => M i ξ y := by
  fin_cases i <;> simp only [M] <;> fun_prop

/-- derivative of a combination of three functions -/
theorem dXi_comb (f g h : ℝ → ℝ → ℝ) (F : ℝ → ℝ → ℝ) (a b c ξ η : ℝ) (hF : ∀ x y, F x y = a * f x y + b * g x y + c * h x y)
    (hf : Differentiable ℝ fun x => f x η) (hg : Differentiable ℝ fun x => g x η) (hh : Differentiable ℝ fun x => h x η) :
    dXi F ξ η = a * dXi f ξ η + b * dXi g ξ η + c * dXi h ξ η := by
  have h1 := (((hf ξ).hasDerivAt.const_mul a).add ((hg ξ).hasDerivAt.const_mul b)).add ((hh ξ).hasDerivAt.const_mul c)
  have : (fun x => F x η) = fun x => a * f x η + b * g x η + c * h x η := funext fun x => hF x η
  unfold dXi
  rw [this]
  exact h1.deriv
theorem dEta_comb (f g h : ℝ → ℝ → ℝ) (F : ℝ → ℝ → ℝ) (a b c ξ η : ℝ) (hF : ∀ x y, F x y = a * f x y + b * g x y + c * h x y)
    (hf : Differentiable ℝ fun y => f ξ y) (hg : Differentiable ℝ fun y => g ξ y) (hh : Differentiable ℝ fun y => h ξ y) :
    dEta F ξ η = a * dEta f ξ η + b * dEta g ξ η + c * dEta h ξ η := by
  have h1 := (((hf η).hasDerivAt.const_mul a).add ((hg η).hasDerivAt.const_mul b)).add ((hh η).hasDerivAt.const_mul c)
  have : (fun y => F ξ y) = fun y => a * f ξ y + b * g ξ y + c * h ξ y := funext fun y => hF ξ y
  unfold dEta
  rw [this]
  exact h1.deriv

theorem Hx_dXi (x y : Fin 4 → ℝ) (i : Fin 4) (ξ η : ℝ) :
    dXi (Hx x y (i, 0)) ξ η = 3 / 2 * (a x y i * dXi (M i) ξ η - a x y (pv i) * dXi (M (pv i)) ξ η) ∧
    dXi (Hx x y (i, 1)) ξ η = b x y i * dXi (M i) ξ η + b x y (pv i) * dXi (M (pv i)) ξ η ∧
    dXi (Hx x y (i, 2)) ξ η = dXi (N i) ξ η - c x y i * dXi (M i) ξ η - c x y (pv i) * dXi (M (pv i)) ξ η := by
  refine ⟨?_, ?_, ?_⟩
  · rw [dXi_comb (N i) (M i) (M (pv i)) _ 0 (3 / 2 * a x y i) (-(3 / 2 * a x y (pv i))) ξ η (by intro s t; simp only [Hx]; ring)
      (N_diff i η) (M_diff i η) (M_diff _ η)]
    ring
  · rw [dXi_comb (N i) (M i) (M (pv i)) _ 0 (b x y i) (b x y (pv i)) ξ η (by intro s t; simp only [Hx]; ring)
      (N_diff i η) (M_diff i η) (M_diff _ η)]
    ring
  · rw [dXi_comb (N i) (M i) (M (pv i)) _ 1 (-c x y i) (-c x y (pv i)) ξ η (by intro s t; simp only [Hx]; ring)
      (N_diff i η) (M_diff i η) (M_diff _ η)]
    ring

theorem Hx_dEta (x y : Fin 4 → ℝ) (i : Fin 4) (ξ η : ℝ) :
    dEta (Hx x y (i, 0)) ξ η = 3 / 2 * (a x y i * dEta (M i) ξ η - a x y (pv i) * dEta (M (pv i)) ξ η) ∧
    dEta (Hx x y (i, 1)) ξ η = b x y i * dEta (M i) ξ η + b x y (pv i) * dEta (M (pv i)) ξ η ∧
    dEta (Hx x y (i, 2)) ξ η = dEta (N i) ξ η - c x y i * dEta (M i) ξ η - c x y (pv i) * dEta (M (pv i)) ξ η := by
  refine ⟨?_, ?_, ?_⟩
  · rw [dEta_comb (N i) (M i) (M (pv i)) _ 0 (3 / 2 * a x y i) (-(3 / 2 * a x y (pv i))) ξ η (by intro s t; simp only [Hx]; ring)
      (N_diff' i ξ) (M_diff' i ξ) (M_diff' _ ξ)]
    ring
  · rw [dEta_comb (N i) (M i) (M (pv i)) _ 0 (b x y i) (b x y (pv i)) ξ η (by intro s t; simp only [Hx]; ring)
      (N_diff' i ξ) (M_diff' i ξ) (M_diff' _ ξ)]
    ring
  · rw [dEta_comb (N i) (M i) (M (pv i)) _ 1 (-c x y i) (-c x y (pv i)) ξ η (by intro s t; simp only [Hx]; ring)
      (N_diff' i ξ) (M_diff' i ξ) (M_diff' _ ξ)]
    ring

theorem Hy_dXi (x y : Fin 4 → ℝ) (i : Fin 4) (ξ η : ℝ) :
    dXi (Hy x y (i, 0)) ξ η = 3 / 2 * (d x y i * dXi (M i) ξ η - d x y (pv i) * dXi (M (pv i)) ξ η) ∧
    dXi (Hy x y (i, 1)) ξ η = -dXi (N i) ξ η + e x y i * dXi (M i) ξ η + e x y (pv i) * dXi (M (pv i)) ξ η ∧
    dXi (Hy x y (i, 2)) ξ η = -b x y i * dXi (M i) ξ η - b x y (pv i) * dXi (M (pv i)) ξ η := by
  refine ⟨?_, ?_, ?_⟩
  · rw [dXi_comb (N i) (M i) (M (pv i)) _ 0 (3 / 2 * d x y i) (-(3 / 2 * d x y (pv i))) ξ η (by intro s t; simp only [Hy]; ring)
      (N_diff i η) (M_diff i η) (M_diff _ η)]
    ring
  · rw [dXi_comb (N i) (M i) (M (pv i)) _ (-1) (e x y i) (e x y (pv i)) ξ η (by intro s t; simp only [Hy]; ring)
      (N_diff i η) (M_diff i η) (M_diff _ η)]
    ring
  · rw [dXi_comb (N i) (M i) (M (pv i)) _ 0 (-b x y i) (-b x y (pv i)) ξ η (by intro s t; simp only [Hy]; ring)
      (N_diff i η) (M_diff i η) (M_diff _ η)]
    ring

theorem Hy_dEta (x y : Fin 4 → ℝ) (i : Fin 4) (ξ η : ℝ) :
    dEta (Hy x y (i, 0)) ξ η = 3 / 2 * (d x y i * dEta (M i) ξ η - d x y (pv i) * dEta (M (pv i)) ξ η) ∧
    dEta (Hy x y (i, 1)) ξ η = -dEta (N i) ξ η + e x y i * dEta (M i) ξ η + e x y (pv i) * dEta (M (pv i)) ξ η ∧
    dEta (Hy x y (i, 2)) ξ η = -b x y i * dEta (M i) ξ η - b x y (pv i) * dEta (M (pv i)) ξ η := by
  refine ⟨?_, ?_, ?_⟩
  · rw [dEta_comb (N i) (M i) (M (pv i)) _ 0 (3 / 2 * d x y i) (-(3 / 2 * d x y (pv i))) ξ η (by intro s t; simp only [Hy]; ring)
      (N_diff' i ξ) (M_diff' i ξ) (M_diff' _ ξ)]
    ring
  · rw [dEta_comb (N i) (M i) (M (pv i)) _ (-1) (e x y i) (e x y (pv i)) ξ η (by intro s t; simp only [Hy]; ring)
      (N_diff' i ξ) (M_diff' i ξ) (M_diff' _ ξ)]
    ring
  · rw [dEta_comb (N i) (M i) (M (pv i)) _ 0 (-b x y i) (-b x y (pv i)) ξ η (by intro s t; simp only [Hy]; ring)
      (N_diff' i ξ) (M_diff' i ξ) (M_diff' _ ξ)]
    ring

/-- along every side the deflection is the integral of the mean slope -/
def SidesOk (x y : Fin 4 → ℝ) (p : Fin 4 × Fin 3 → ℝ) : Prop :=
  ∀ k, p (k, 0) - p (nx k, 0) = ((p (k, 1) + p (nx k, 1)) * side y k - (p (k, 2) + p (nx k, 2)) * side x k) / 2

/-- derivatives of an interpolation by corner and midside values, the midside values being means -/
noncomputable def sXi (f : Fin 4 → ℝ) (η : ℝ) : ℝ := ((-f 0 + f 1 + f 2 - f 3) + η * (f 0 - f 1 + f 2 - f 3)) / 4
noncomputable def sEta (f : Fin 4 → ℝ) (ξ : ℝ) : ℝ := ((-f 0 - f 1 + f 2 + f 3) + ξ * (f 0 - f 1 + f 2 - f 3)) / 4

theorem side_x {x y : Fin 4 → ℝ} {p : Fin 4 × Fin 3 → ℝ} (hs : SidesOk x y p) (k : Fin 4) (hl : l2 x y k ≠ 0) :
    3 / 2 * a x y k * (p (k, 0) - p (nx k, 0)) + b x y k * (p (k, 1) + p (nx k, 1)) - c x y k * (p (k, 2) + p (nx k, 2)) =
      (p (k, 2) + p (nx k, 2)) / 2 := by
  rw [hs k]
  unfold a b c
  field_simp
  unfold l2
  ring

theorem side_y {x y : Fin 4 → ℝ} {p : Fin 4 × Fin 3 → ℝ} (hs : SidesOk x y p) (k : Fin 4) (hl : l2 x y k ≠ 0) :
    3 / 2 * d x y k * (p (k, 0) - p (nx k, 0)) + e x y k * (p (k, 1) + p (nx k, 1)) - b x y k * (p (k, 2) + p (nx k, 2)) =
      -(p (k, 1) + p (nx k, 1)) / 2 := by
  rw [hs k]
  unfold d e b
  field_simp
  unfold l2
  ring

theorem sum_Hx {x y : Fin 4 → ℝ} {p : Fin 4 × Fin 3 → ℝ} (hs : SidesOk x y p) (hl : ∀ k, l2 x y k ≠ 0) (ξ η : ℝ) :
    ∑ k, dXi (Hx x y k) ξ η * p k = sXi (fun i => p (i, 2)) η ∧ ∑ k, dEta (Hx x y k) ξ η * p k = sEta (fun i => p (i, 2)) ξ := by
  obtain ⟨n0, n1, n2, n3⟩ := N_dXi ξ η
  obtain ⟨m0, m1, m2, m3⟩ := M_dXi ξ η
  obtain ⟨n0', n1', n2', n3'⟩ := N_dEta ξ η
  obtain ⟨m0', m1', m2', m3'⟩ := M_dEta ξ η
  have s0 := side_x hs 0 (hl 0)
  have s1 := side_x hs 1 (hl 1)
  have s2 := side_x hs 2 (hl 2)
  have s3 := side_x hs 3 (hl 3)
  have q0 : nx 0 = 1 := rfl
  have q1 : nx 1 = 2 := rfl
  have q2 : nx 2 = 3 := rfl
  have q3 : nx 3 = 0 := rfl
  have r0 : pv 0 = 3 := rfl
  have r1 : pv 1 = 0 := rfl
  have r2 : pv 2 = 1 := rfl
  have r3 : pv 3 = 2 := rfl
  simp only [q0, q1, q2, q3] at s0 s1 s2 s3
  constructor
  · rw [Fintype.sum_prod_type]
    simp only [Fin.sum_univ_four, Fin.sum_univ_three, (Hx_dXi x y _ ξ η).1, (Hx_dXi x y _ ξ η).2.1, (Hx_dXi x y _ ξ η).2.2,
      r0, r1, r2, r3, n0, n1, n2, n3, m0, m1, m2, m3, sXi]
    linear_combination (-ξ * (1 - η)) * s0 + (1 / 2 * (1 - η ^ 2)) * s1 + (-ξ * (1 + η)) * s2 + (-1 / 2 * (1 - η ^ 2)) * s3
  · rw [Fintype.sum_prod_type]
    simp only [Fin.sum_univ_four, Fin.sum_univ_three, (Hx_dEta x y _ ξ η).1, (Hx_dEta x y _ ξ η).2.1, (Hx_dEta x y _ ξ η).2.2,
      r0, r1, r2, r3, n0', n1', n2', n3', m0', m1', m2', m3', sEta]
    linear_combination (-1 / 2 * (1 - ξ ^ 2)) * s0 + (-η * (1 + ξ)) * s1 + (1 / 2 * (1 - ξ ^ 2)) * s2 + (-η * (1 - ξ)) * s3

theorem sum_Hy {x y : Fin 4 → ℝ} {p : Fin 4 × Fin 3 → ℝ} (hs : SidesOk x y p) (hl : ∀ k, l2 x y k ≠ 0) (ξ η : ℝ) :
    ∑ k, dXi (Hy x y k) ξ η * p k = -sXi (fun i => p (i, 1)) η ∧ ∑ k, dEta (Hy x y k) ξ η * p k = -sEta (fun i => p (i, 1)) ξ := by
  obtain ⟨n0, n1, n2, n3⟩ := N_dXi ξ η
  obtain ⟨m0, m1, m2, m3⟩ := M_dXi ξ η
  obtain ⟨n0', n1', n2', n3'⟩ := N_dEta ξ η
  obtain ⟨m0', m1', m2', m3'⟩ := M_dEta ξ η
  have s0 := side_y hs 0 (hl 0)
  have s1 := side_y hs 1 (hl 1)
  have s2 := side_y hs 2 (hl 2)
  have s3 := side_y hs 3 (hl 3)
  have q0 : nx 0 = 1 := rfl
  have q1 : nx 1 = 2 := rfl
  have q2 : nx 2 = 3 := rfl
  have q3 : nx 3 = 0 := rfl
  have r0 : pv 0 = 3 := rfl
  have r1 : pv 1 = 0 := rfl
  have r2 : pv 2 = 1 := rfl
  have r3 : pv 3 = 2 := rfl
  simp only [q0, q1, q2, q3] at s0 s1 s2 s3
  constructor
  · rw [Fintype.sum_prod_type]
    simp only [Fin.sum_univ_four, Fin.sum_univ_three, (Hy_dXi x y _ ξ η).1, (Hy_dXi x y _ ξ η).2.1, (Hy_dXi x y _ ξ η).2.2,
      r0, r1, r2, r3, n0, n1, n2, n3, m0, m1, m2, m3, sXi]
    linear_combination (-ξ * (1 - η)) * s0 + (1 / 2 * (1 - η ^ 2)) * s1 + (-ξ * (1 + η)) * s2 + (-1 / 2 * (1 - η ^ 2)) * s3
  · rw [Fintype.sum_prod_type]
    simp only [Fin.sum_univ_four, Fin.sum_univ_three, (Hy_dEta x y _ ξ η).1, (Hy_dEta x y _ ξ η).2.1, (Hy_dEta x y _ ξ η).2.2,
      r0, r1, r2, r3, n0', n1', n2', n3', m0', m1', m2', m3', sEta]
    linear_combination (-1 / 2 * (1 - ξ ^ 2)) * s0 + (-η * (1 + ξ)) * s1 + (1 / 2 * (1 - ξ ^ 2)) * s2 + (-η * (1 - ξ)) * s3

/-- curvatures of a nodal state that is consistent along the sides -/
theorem dkqB_sides {x y : Fin 4 → ℝ} {p : Fin 4 × Fin 3 → ℝ} (hs : SidesOk x y p) (hl : ∀ k, l2 x y k ≠ 0) (ξ η : ℝ) :
    B x y ξ η *ᵥ p =
      ![(J1 x η * sXi (fun i => p (i, 2)) η - J1 y η * sEta (fun i => p (i, 2)) ξ) / detJ x y ξ η,
        (J2 x ξ * sXi (fun i => p (i, 1)) η - J2 y ξ * sEta (fun i => p (i, 1)) ξ) / detJ x y ξ η,
        (-J1 x η * sXi (fun i => p (i, 1)) η + J1 y η * sEta (fun i => p (i, 1)) ξ -
          J2 x ξ * sXi (fun i => p (i, 2)) η + J2 y ξ * sEta (fun i => p (i, 2)) ξ) / detJ x y ξ η] := by
  obtain ⟨h1, h2⟩ := sum_Hx hs hl ξ η
  obtain ⟨h3, h4⟩ := sum_Hy hs hl ξ η
  ext r
  unfold mulVec dotProduct
  fin_cases r
  · simp only [B, Fin.zero_eta, cons_val_zero, add_mul, Finset.sum_add_distrib, mul_assoc, ← Finset.mul_sum, h1, h2]
    ring
  · simp only [B, Fin.mk_one, cons_val_one, cons_val_zero, add_mul, Finset.sum_add_distrib, mul_assoc, ← Finset.mul_sum, h3, h4]
    ring
  · simp only [B, Fin.reduceFinMk, cons_val, add_mul, Finset.sum_add_distrib, mul_assoc, ← Finset.mul_sum, h1, h2, h3, h4]
    ring

end dkq

section dkt
open DKT

theorem dkt_l2 (x y : Fin 3 → ℝ) (k : Fin 3) : l2 x y k = side x k ^ 2 + side y k ^ 2 := by
  unfold l2
  rw [Real.sq_sqrt (by positivity)]

/-- along every side the deflection is the integral of the mean slope; `A`, `B` are the ends of side `k` -/
def TriaSidesOk (x y : Fin 3 → ℝ) (p : Fin 3 × Fin 3 → ℝ) : Prop :=
  (p (1, 0) - p (2, 0) = ((p (1, 1) + p (2, 1)) * side y 0 - (p (1, 2) + p (2, 2)) * side x 0) / 2) ∧
  (p (2, 0) - p (0, 0) = ((p (2, 1) + p (0, 1)) * side y 1 - (p (2, 2) + p (0, 2)) * side x 1) / 2) ∧
  (p (0, 0) - p (1, 0) = ((p (0, 1) + p (1, 1)) * side y 2 - (p (0, 2) + p (1, 2)) * side x 2) / 2)

theorem tria_side (x y : Fin 3 → ℝ) (k : Fin 3) (hl : l2 x y k ≠ 0) (dw sx sy : ℝ) (h : dw = (sx * side y k - sy * side x k) / 2) :
    P x y k * dw + q x y k * sx + r x y k * sy = 3 * sy ∧ tt x y k * dw + r x y k * sx - q x y k * sy = 0 := by
  subst h
  unfold P q r tt
  constructor
  · field_simp
    rw [dkt_l2]
    ring
  · field_simp
    ring

theorem dktB_sides {x y : Fin 3 → ℝ} {p : Fin 3 × Fin 3 → ℝ} (hs : TriaSidesOk x y p) (hl : ∀ k, l2 x y k ≠ 0) (ξ η : ℝ) :
    B x y ξ η *ᵥ p =
      ![(side y 1 * (p (1, 2) - p (0, 2)) + side y 2 * (p (2, 2) - p (0, 2))) / (side x 1 * side y 2 - side x 2 * side y 1),
        (side x 1 * (p (1, 1) - p (0, 1)) + side x 2 * (p (2, 1) - p (0, 1))) / (side x 1 * side y 2 - side x 2 * side y 1),
        (-side x 1 * (p (1, 2) - p (0, 2)) - side x 2 * (p (2, 2) - p (0, 2)) - side y 1 * (p (1, 1) - p (0, 1)) -
          side y 2 * (p (2, 1) - p (0, 1))) / (side x 1 * side y 2 - side x 2 * side y 1)] := by
  obtain ⟨h0, h1, h2⟩ := hs
  obtain ⟨a0, b0⟩ := tria_side x y 0 (hl 0) _ _ _ h0
  obtain ⟨a1, b1⟩ := tria_side x y 1 (hl 1) _ _ _ h1
  obtain ⟨a2, b2⟩ := tria_side x y 2 (hl 2) _ _ _ h2
  have e1 : ∑ k, Hxxi (P x y) (q x y) (r x y) ξ η k * p k = p (1, 2) - p (0, 2) := by
    rw [Fintype.sum_prod_type]
    simp only [Fin.sum_univ_three, Hxxi]
    linear_combination η * a0 - η * a1 + (1 - 2 * ξ - η) * a2
  have e2 : ∑ k, Hyxi (tt x y) (q x y) (r x y) ξ η k * p k = p (0, 1) - p (1, 1) := by
    rw [Fintype.sum_prod_type]
    simp only [Fin.sum_univ_three, Hyxi]
    linear_combination η * b0 - η * b1 + (1 - 2 * ξ - η) * b2
  have e3 : ∑ k, Hxeta (P x y) (q x y) (r x y) ξ η k * p k = p (2, 2) - p (0, 2) := by
    rw [Fintype.sum_prod_type]
    simp only [Fin.sum_univ_three, Hxeta]
    linear_combination ξ * a0 - ξ * a2 + (1 - 2 * η - ξ) * a1
  have e4 : ∑ k, Hyeta (tt x y) (q x y) (r x y) ξ η k * p k = p (0, 1) - p (2, 1) := by
    rw [Fintype.sum_prod_type]
    simp only [Fin.sum_univ_three, Hyeta]
    linear_combination ξ * b0 - ξ * b2 + (1 - 2 * η - ξ) * b1
  ext i
  unfold mulVec dotProduct
  fin_cases i
  · simp only [B, Fin.zero_eta, cons_val_zero, div_mul_eq_mul_div, add_mul, sub_mul, ← Finset.sum_div, Finset.sum_add_distrib,
      Finset.sum_sub_distrib, mul_assoc, ← Finset.mul_sum, e1, e2, e3, e4]
  · simp only [B, Fin.mk_one, cons_val_one, cons_val_zero, div_mul_eq_mul_div, add_mul, sub_mul, ← Finset.sum_div, Finset.sum_add_distrib,
      Finset.sum_sub_distrib, mul_assoc, ← Finset.mul_sum, e1, e2, e3, e4]
    ring
  · simp only [B, Fin.reduceFinMk, cons_val, div_mul_eq_mul_div, add_mul, sub_mul, ← Finset.sum_div, Finset.sum_add_distrib,
      Finset.sum_sub_distrib, mul_assoc, ← Finset.mul_sum, e1, e2, e3, e4]
    ring

end dkt

section t9
open T9

theorem t9_N (x y : Fin 3 → ℝ) (i : Fin 3) (ξ η : ℝ) :
    dXi (N x y i) ξ η = 1 / 2 / A x y * b y i ∧ dEta (N x y i) ξ η = 1 / 2 / A x y * b y i := by
  constructor
  · unfold dXi
    rw [deriv_of_cubic _ (1 / 2 / A x y * (a x y i + b y i * η)) (1 / 2 / A x y * b y i) 0 0]
    · ring
    · intro z; unfold N; ring
  · unfold dEta
    rw [deriv_of_cubic _ (1 / 2 / A x y * (a x y i + b y i * ξ)) (1 / 2 / A x y * b y i) 0 0]
    · ring
    · intro z; unfold N; ring

theorem t9_A (x y : Fin 3 → ℝ) : A x y = ((x 1 - x 0) * (y 2 - y 0) - (x 2 - x 0) * (y 1 - y 0)) / 2 := by
  unfold A
  rw [Matrix.det_fin_three]
  simp
  ring

/-- what the three-node membrane reports as strains -/
theorem t9B (x y : Fin 3 → ℝ) (m : Fin 3 × Fin 2 → ℝ) :
    B x y 0 0 *ᵥ m = ![(∑ i, b y i * m (i, 0)) / (2 * A x y), (∑ i, b y i * m (i, 1)) / (2 * A x y),
      (∑ i, b y i * (m (i, 0) + m (i, 1))) / (2 * A x y)] := by
  ext r
  unfold mulVec dotProduct
  rw [Fintype.sum_prod_type]
  fin_cases r <;>
    simp [B, Fin.sum_univ_three, Fin.sum_univ_two, (t9_N x y _ 0 0).1, (t9_N x y _ 0 0).2] <;>
    ring

end t9

end Hyperstatic
