import Verif.Model.ThickPlate
import Verif.Lemmas.ShellStrain
import Verif.Lemmas.ShellFields

/-
Strains of the thick plate element.
-/

namespace Hyperstatic
open Matrix Spec

namespace TMQ

/-- the node where a side starts -/
def st : Fin 4 → Fin 4 := ![1, 2, 3, 0]
/-- the node where a side ends -/
def en : Fin 4 → Fin 4 := ![2, 3, 0, 1]

/-- twice the deflection along a side minus what the mean slopes give -/
def res (x y : Fin 4 → ℝ) (q : Fin 4 × Fin 3 → ℝ) (k : Fin 4) : ℝ :=
  2 * (q (en k, 0) - q (st k, 0)) - c x k * (q (st k, 1) + q (en k, 1)) + b y k * (q (st k, 2) + q (en k, 2))

theorem d_sq (x y : Fin 4 → ℝ) (k : Fin 4) : d x y k ^ 2 = c x k ^ 2 + b y k ^ 2 := by
  fin_cases k <;> simp [d, c, b, Real.sq_sqrt, add_nonneg, sq_nonneg] <;> ring

theorem Gamma_mulVec (mu t : ℝ) (x y : Fin 4 → ℝ) (q : Fin 4 × Fin 3 → ℝ) (k : Fin 4) :
    (Gamma mu t x y *ᵥ q) k = delta mu t x y k * res x y q k := by
  unfold mulVec dotProduct
  rw [Fintype.sum_prod_type]
  simp only [Fin.sum_univ_four, Fin.sum_univ_three]
  fin_cases k <;> simp [Gamma, res, st, en] <;> ring

theorem alpha_mulVec (mu t : ℝ) (x y : Fin 4 → ℝ) (q : Fin 4 × Fin 3 → ℝ) (k : Fin 4) (hd : d x y k ^ 2 ≠ 0) :
    (alpha mu t x y *ᵥ q) k = (q (st k, 1) + q (en k, 1)) / 2 +
      3 * c x k / 4 / d x y k ^ 2 * (1 - 2 * delta mu t x y k) * res x y q k := by
  have e : ∀ w s1 s2 : ℝ, 3 * c x k / 2 / d x y k ^ 2 * (1 - 2 * delta mu t x y k) * w +
      (b y k ^ 2 - c x k ^ 2 / 2 * (1 - 6 * delta mu t x y k)) / 2 / d x y k ^ 2 * s1 +
      3 * b y k * c x k / 4 / d x y k ^ 2 * (1 - 2 * delta mu t x y k) * s2 =
      s1 / 2 + 3 * c x k / 4 / d x y k ^ 2 * (1 - 2 * delta mu t x y k) * (2 * w - c x k * s1 + b y k * s2) := by
    intro w s1 s2
    have h := d_sq x y k
    generalize d x y k ^ 2 = D at *
    field_simp
    rw [h]
    ring
  unfold res
  rw [← e]
  unfold mulVec dotProduct
  rw [Fintype.sum_prod_type]
  simp only [Fin.sum_univ_four, Fin.sum_univ_three]
  fin_cases k <;> simp [alpha, st, en] <;> ring

theorem beta_mulVec (mu t : ℝ) (x y : Fin 4 → ℝ) (q : Fin 4 × Fin 3 → ℝ) (k : Fin 4) (hd : d x y k ^ 2 ≠ 0) :
    (beta mu t x y *ᵥ q) k = (q (st k, 2) + q (en k, 2)) / 2 -
      3 * b y k / 4 / d x y k ^ 2 * (1 - 2 * delta mu t x y k) * res x y q k := by
  have e : ∀ w s1 s2 : ℝ, -(3 * b y k / 2 / d x y k ^ 2 * (1 - 2 * delta mu t x y k)) * w +
      3 * b y k * c x k / 4 / d x y k ^ 2 * (1 - 2 * delta mu t x y k) * s1 +
      (c x k ^ 2 - b y k ^ 2 / 2 * (1 - 6 * delta mu t x y k)) / 2 / d x y k ^ 2 * s2 =
      s2 / 2 - 3 * b y k / 4 / d x y k ^ 2 * (1 - 2 * delta mu t x y k) * (2 * w - c x k * s1 + b y k * s2) := by
    intro w s1 s2
    have h := d_sq x y k
    generalize d x y k ^ 2 = D at *
    field_simp
    rw [h]
    ring
  unfold res
  rw [← e]
  unfold mulVec dotProduct
  rw [Fintype.sum_prod_type]
  simp only [Fin.sum_univ_four, Fin.sum_univ_three]
  fin_cases k <;> simp [beta, st, en] <;> ring

theorem N_eq (i : Fin 4) : N i = DKQ.N i := by
  funext ξ η
  fin_cases i <;> norm_num [N, DKQ.N]

theorem M_eq : M 0 = DKQ.M 1 ∧ M 1 = DKQ.M 2 ∧ M 2 = DKQ.M 3 ∧ M 3 = DKQ.M 0 := by
  refine ⟨?_, ?_, ?_, ?_⟩ <;> funext ξ η <;> norm_num [M, DKQ.M]

theorem N0_dXi (ξ η : ℝ) : dXi (N0 0) ξ η = -1 / 4 * (1 - η) ∧ dXi (N0 1) ξ η = 1 / 4 * (1 - η) ∧
    dXi (N0 2) ξ η = 1 / 4 * (1 + η) ∧ dXi (N0 3) ξ η = -1 / 4 * (1 + η) := by
  refine ⟨?_, ?_, ?_, ?_⟩ <;> unfold dXi
  · rw [deriv_of_cubic _ (1 / 4 * (1 - η)) (-1 / 4 * (1 - η)) 0 0]
    · ring
    · intro x; simp only [N0]; ring
  · rw [deriv_of_cubic _ (1 / 4 * (1 - η)) (1 / 4 * (1 - η)) 0 0]
    · ring
    · intro x; simp only [N0]; ring
  · rw [deriv_of_cubic _ (1 / 4 * (1 + η)) (1 / 4 * (1 + η)) 0 0]
    · ring
    · intro x; simp only [N0]; ring
  · rw [deriv_of_cubic _ (1 / 4 * (1 + η)) (-1 / 4 * (1 + η)) 0 0]
    · ring
    · intro x; simp only [N0]; ring

theorem N0_dEta (ξ η : ℝ) : dEta (N0 0) ξ η = -1 / 4 * (1 - ξ) ∧ dEta (N0 1) ξ η = -1 / 4 * (1 + ξ) ∧
    dEta (N0 2) ξ η = 1 / 4 * (1 + ξ) ∧ dEta (N0 3) ξ η = 1 / 4 * (1 - ξ) := by
  refine ⟨?_, ?_, ?_, ?_⟩ <;> unfold dEta
  · rw [deriv_of_cubic _ (1 / 4 * (1 - ξ)) (-1 / 4 * (1 - ξ)) 0 0]
    · ring
    · intro x; simp only [N0]; ring
  · rw [deriv_of_cubic _ (1 / 4 * (1 + ξ)) (-1 / 4 * (1 + ξ)) 0 0]
    · ring
    · intro x; simp only [N0]; ring
  · rw [deriv_of_cubic _ (1 / 4 * (1 + ξ)) (1 / 4 * (1 + ξ)) 0 0]
    · ring
    · intro x; simp only [N0]; ring
  · rw [deriv_of_cubic _ (1 / 4 * (1 - ξ)) (1 / 4 * (1 - ξ)) 0 0]
    · ring
    · intro x; simp only [N0]; ring

theorem J_eq (x y : Fin 4 → ℝ) (ξ η : ℝ) : J x y ξ η = !![DKQ.J1 x η, DKQ.J1 y η; DKQ.J2 x ξ, DKQ.J2 y ξ] := by
  obtain ⟨n0, n1, n2, n3⟩ := N0_dXi ξ η
  obtain ⟨m0, m1, m2, m3⟩ := N0_dEta ξ η
  ext i j
  fin_cases i <;> fin_cases j <;>
    simp [J, Fin.sum_univ_four, n0, n1, n2, n3, m0, m1, m2, m3, DKQ.J1, DKQ.J2] <;> ring

theorem J_det (x y : Fin 4 → ℝ) (ξ η : ℝ) : (J x y ξ η).det = DKQ.det x y ξ η := by
  rw [J_eq, Matrix.det_fin_two_of, DKQ.det]

/-- derivatives of a combination of the corner and midside functions, in the plane -/
noncomputable def fX (ξ η : ℝ) (f m : Fin 4 → ℝ) : ℝ := ∑ i, dXi (N i) ξ η * f i + ∑ k, dXi (M k) ξ η * m k
noncomputable def fE (ξ η : ℝ) (f m : Fin 4 → ℝ) : ℝ := ∑ i, dEta (N i) ξ η * f i + ∑ k, dEta (M k) ξ η * m k

theorem fX_eq (ξ η : ℝ) (f m : Fin 4 → ℝ) : fX ξ η f m = DKQ.J1 f η + 1 / 2 * (1 - η ^ 2) * (m 0 - (f 1 + f 2) / 2)
    - ξ * (1 + η) * (m 1 - (f 2 + f 3) / 2) - 1 / 2 * (1 - η ^ 2) * (m 2 - (f 3 + f 0) / 2) - ξ * (1 - η) * (m 3 - (f 0 + f 1) / 2) := by
  obtain ⟨n0, n1, n2, n3⟩ := Hyperstatic.N_dXi ξ η
  obtain ⟨m0, m1, m2, m3⟩ := Hyperstatic.M_dXi ξ η
  simp only [fX, Fin.sum_univ_four, N_eq, M_eq.1, M_eq.2.1, M_eq.2.2.1, M_eq.2.2.2, n0, n1, n2, n3, m0, m1, m2, m3, DKQ.J1]
  ring

theorem fE_eq (ξ η : ℝ) (f m : Fin 4 → ℝ) : fE ξ η f m = DKQ.J2 f ξ - η * (1 + ξ) * (m 0 - (f 1 + f 2) / 2)
    + 1 / 2 * (1 - ξ ^ 2) * (m 1 - (f 2 + f 3) / 2) - η * (1 - ξ) * (m 2 - (f 3 + f 0) / 2) -
    1 / 2 * (1 - ξ ^ 2) * (m 3 - (f 0 + f 1) / 2) := by
  obtain ⟨n0, n1, n2, n3⟩ := Hyperstatic.N_dEta ξ η
  obtain ⟨m0, m1, m2, m3⟩ := Hyperstatic.M_dEta ξ η
  simp only [fE, Fin.sum_univ_four, N_eq, M_eq.1, M_eq.2.1, M_eq.2.2.1, M_eq.2.2.2, n0, n1, n2, n3, m0, m1, m2, m3, DKQ.J2]
  ring

/-- the gradient of a function with the given derivatives -/
noncomputable def gradX (x y : Fin 4 → ℝ) (ξ η a e : ℝ) : ℝ := (DKQ.J2 y ξ * a - DKQ.J1 y η * e) / DKQ.det x y ξ η
noncomputable def gradY (x y : Fin 4 → ℝ) (ξ η a e : ℝ) : ℝ := (DKQ.J1 x η * e - DKQ.J2 x ξ * a) / DKQ.det x y ξ η

theorem dnat_eq (x y : Fin 4 → ℝ) (f : ℝ → ℝ → ℝ) (ξ η : ℝ) :
    dnat x y f ξ η = ![gradX x y ξ η (dXi f ξ η) (dEta f ξ η), gradY x y ξ η (dXi f ξ η) (dEta f ξ η)] := by
  rw [dnat, inv_two, J_det, J_eq]
  simp [gradX, gradY]

theorem gradX_sum (x y : Fin 4 → ℝ) (ξ η : ℝ) (f m : Fin 4 → ℝ) :
    ∑ i, gradX x y ξ η (dXi (N i) ξ η) (dEta (N i) ξ η) * f i + ∑ k, gradX x y ξ η (dXi (M k) ξ η) (dEta (M k) ξ η) * m k =
      gradX x y ξ η (fX ξ η f m) (fE ξ η f m) := by
  simp only [gradX, fX, fE, Fin.sum_univ_four]
  ring

theorem gradY_sum (x y : Fin 4 → ℝ) (ξ η : ℝ) (f m : Fin 4 → ℝ) :
    ∑ i, gradY x y ξ η (dXi (N i) ξ η) (dEta (N i) ξ η) * f i + ∑ k, gradY x y ξ η (dXi (M k) ξ η) (dEta (M k) ξ η) * m k =
      gradY x y ξ η (fX ξ η f m) (fE ξ η f m) := by
  simp only [gradY, fX, fE, Fin.sum_univ_four]
  ring

/-- curvatures: minus the gradients of the two slopes, interpolated from the corners and the middles of the sides -/
theorem Bb_mulVec (mu t : ℝ) (x y : Fin 4 → ℝ) (ξ η : ℝ) (q : Fin 4 × Fin 3 → ℝ) :
    let p := fun i => q (i, 1)
    let r := fun i => q (i, 2)
    let a := alpha mu t x y *ᵥ q
    let b := beta mu t x y *ᵥ q
    Bb mu t x y ξ η *ᵥ q =
      -![gradX x y ξ η (fX ξ η p a) (fE ξ η p a), gradY x y ξ η (fX ξ η r b) (fE ξ η r b),
         gradY x y ξ η (fX ξ η p a) (fE ξ η p a) + gradX x y ξ η (fX ξ η r b) (fE ξ η r b)] := by
  intro p r a b
  rw [Bb, Matrix.neg_mulVec, Matrix.add_mulVec, Matrix.add_mulVec, ← Matrix.mulVec_mulVec, ← Matrix.mulVec_mulVec]
  rw [← gradX_sum, ← gradY_sum, ← gradX_sum, ← gradY_sum, show alpha mu t x y *ᵥ q = a from rfl, show beta mu t x y *ᵥ q = b from rfl]
  clear_value a b
  congr 1
  ext i
  simp only [Pi.add_apply]
  unfold mulVec dotProduct
  rw [Fintype.sum_prod_type]
  simp only [Fin.sum_univ_four, Fin.sum_univ_three]
  fin_cases i <;> simp [H0, H1, H2, dnat_eq, p, r] <;> ring

/-- shear strains: each corner has the strains of its two sides -/
theorem Bs_mulVec (mu t : ℝ) (x y : Fin 4 → ℝ) (ξ η : ℝ) (q : Fin 4 × Fin 3 → ℝ) :
    Bs mu t x y ξ η *ᵥ q = ![∑ i, N0 i ξ η * ∑ k, Xs x y i k * (delta mu t x y k * res x y q k),
      ∑ i, N0 i ξ η * ∑ k, Ys x y i k * (delta mu t x y k * res x y q k)] := by
  ext r
  fin_cases r
  · change (fun i => N0 i ξ η) ᵥ* (Xs x y * Gamma mu t x y) ⬝ᵥ q = _
    rw [← dotProduct_mulVec, ← mulVec_mulVec]
    simp [dotProduct, mulVec, ← Gamma_mulVec]
  · change (fun i => N0 i ξ η) ᵥ* (Ys x y * Gamma mu t x y) ⬝ᵥ q = _
    rw [← dotProduct_mulVec, ← mulVec_mulVec]
    simp [dotProduct, mulVec, ← Gamma_mulVec]

/-- where the deflection along all sides is what the mean slopes give, there is no shear and the slopes are interpolated from the corners -/
theorem Bs_zero {mu t : ℝ} {x y : Fin 4 → ℝ} {q : Fin 4 × Fin 3 → ℝ} (h : ∀ k, res x y q k = 0) (ξ η : ℝ) :
    Bs mu t x y ξ η *ᵥ q = 0 := by
  rw [Bs_mulVec]
  simp [h]

theorem Bb_sides {mu t : ℝ} {x y : Fin 4 → ℝ} {q : Fin 4 × Fin 3 → ℝ} (hd : ∀ k, d x y k ^ 2 ≠ 0) (h : ∀ k, res x y q k = 0) (ξ η : ℝ) :
    let p := fun i => q (i, 1)
    let r := fun i => q (i, 2)
    Bb mu t x y ξ η *ᵥ q =
      -![gradX x y ξ η (DKQ.J1 p η) (DKQ.J2 p ξ), gradY x y ξ η (DKQ.J1 r η) (DKQ.J2 r ξ),
         gradY x y ξ η (DKQ.J1 p η) (DKQ.J2 p ξ) + gradX x y ξ η (DKQ.J1 r η) (DKQ.J2 r ξ)] := by
  intro p r
  have ha : ∀ k, (alpha mu t x y *ᵥ q) k = (q (st k, 1) + q (en k, 1)) / 2 := fun k => by
    rw [alpha_mulVec _ _ _ _ _ _ (hd k), h k]; ring
  have hb : ∀ k, (beta mu t x y *ᵥ q) k = (q (st k, 2) + q (en k, 2)) / 2 := fun k => by
    rw [beta_mulVec _ _ _ _ _ _ (hd k), h k]; ring
  rw [Bb_mulVec]
  simp only [fX_eq, fE_eq, ha, hb, st, en]
  simp [p, r]

theorem tmq_work_b (E mu t : ℝ) (x y : Fin 4 → ℝ) (ξ η : ℝ) (a b : Fin 4 × Fin 3 → ℝ) :
    a ⬝ᵥ (BDBb E mu t x y ξ η *ᵥ b) =
      DKQ.det x y ξ η * ((Bb mu t x y ξ η *ᵥ a) ⬝ᵥ (bendingD E mu t *ᵥ (Bb mu t x y ξ η *ᵥ b))) := by
  unfold BDBb
  rw [Matrix.smul_mulVec, dotProduct_smul, congr_work, smul_eq_mul, J_det]

theorem tmq_work_s (E mu t : ℝ) (x y : Fin 4 → ℝ) (ξ η : ℝ) (a b : Fin 4 × Fin 3 → ℝ) :
    a ⬝ᵥ (BCBs E mu t x y ξ η *ᵥ b) =
      DKQ.det x y ξ η * ((E / 2 / (1 + mu) * t / (6 / 5)) * ((Bs mu t x y ξ η *ᵥ a) ⬝ᵥ (Bs mu t x y ξ η *ᵥ b))) := by
  unfold BCBs C
  rw [Matrix.smul_mulVec, dotProduct_smul, congr_work, smul_eq_mul, J_det, Matrix.smul_mulVec, Matrix.one_mulVec, dotProduct_smul, smul_eq_mul]

end TMQ

theorem tmq_work (q : Scheme) (s : ShellSection) (x y : Fin 4 → ℝ) (a b : Fin 4 × Fin 3 → ℝ) :
    a ⬝ᵥ (tmqK q s x y *ᵥ b) = (q.map fun p => p.1 * (DKQ.det x y p.2.1 p.2.2 * ((s.material.E / 2 / (1 + s.material.mu) * s.t / (6 / 5)) *
        ((TMQ.Bs s.material.mu s.t x y p.2.1 p.2.2 *ᵥ a) ⬝ᵥ (TMQ.Bs s.material.mu s.t x y p.2.1 p.2.2 *ᵥ b))))).sum +
      (q.map fun p => p.1 * (DKQ.det x y p.2.1 p.2.2 * ((TMQ.Bb s.material.mu s.t x y p.2.1 p.2.2 *ᵥ a) ⬝ᵥ
        (bendingD s.material.E s.material.mu s.t *ᵥ (TMQ.Bb s.material.mu s.t x y p.2.1 p.2.2 *ᵥ b))))).sum := by
  unfold tmqK
  rw [Matrix.add_mulVec, dotProduct_add, integrate_work, integrate_work]
  simp only [TMQ.tmq_work_b, TMQ.tmq_work_s]

end Hyperstatic
