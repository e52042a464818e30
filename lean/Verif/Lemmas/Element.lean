import Verif.Spec.Beam
import Verif.Model.Load
import Mathlib.Analysis.SpecialFunctions.Integrals.Basic
import Mathlib.Analysis.Calculus.Deriv.Pow
import Mathlib.Analysis.Calculus.Deriv.Mul
import Mathlib.Analysis.Calculus.Deriv.Add
import Mathlib.Tactic.Linarith
import Mathlib.Tactic.FieldSimp
import Mathlib.Tactic.Ring
import Mathlib.Tactic.FinCases
import Mathlib.Tactic.LinearCombination

namespace Hyperstatic
open Spec Matrix

/-- bilinear form of a matrix given by triplets -/
theorem ofTriplets_bilin {m n : ℕ} (es : List (ℝ × Fin m × Fin n)) (v : Vec m) (u : Vec n) :
    v ⬝ᵥ (ofTriplets es *ᵥ u) = (es.map fun e => v e.2.1 * e.1 * u e.2.2).sum := by
  induction es with
  | nil => simp [ofTriplets, Matrix.mulVec, dotProduct]
  | cons e es ih =>
    rw [List.map_cons, List.sum_cons, ← ih]
    simp only [dotProduct, Matrix.mulVec, ofTriplets, List.map_cons, List.sum_cons, add_mul, Finset.sum_add_distrib, mul_add]
    congr 1
    rw [Finset.sum_eq_single_of_mem e.2.1 (Finset.mem_univ _)]
    · rw [Finset.sum_eq_single_of_mem e.2.2 (Finset.mem_univ _)]
      · simp [mul_assoc]
      · intro b _ hb; simp [Ne.symm hb]
    · intro b _ hb; simp [Ne.symm hb]

theorem beamK_bilin (c : BeamConsts) {l : ℝ} (hl : l ≠ 0) (v u : Vec 12) :
    v ⬝ᵥ (beamK c l *ᵥ u) = beamWork c l v u := by
  unfold beamK
  rw [ofTriplets_bilin]
  simp only [beamKData, beamWork, bendWork, List.map_cons, List.map_nil, List.sum_cons, List.sum_nil]
  field_simp
  ring

theorem beamWork_comm (c : BeamConsts) (l : ℝ) (v u : Vec 12) : beamWork c l v u = beamWork c l u v := by
  unfold beamWork bendWork; ring

theorem entry_eq_bilin {n : ℕ} (A : Matrix (Fin n) (Fin n) ℝ) (i j : Fin n) :
    A i j = (Pi.single i 1 : Vec n) ⬝ᵥ (A *ᵥ (Pi.single j 1)) := by
  simp

theorem beamK_symm (c : BeamConsts) {l : ℝ} (hl : l ≠ 0) : (beamK c l)ᵀ = beamK c l := by
  ext i j
  rw [Matrix.transpose_apply, entry_eq_bilin (beamK c l) j i, entry_eq_bilin (beamK c l) i j, beamK_bilin c hl, beamK_bilin c hl,
    beamWork_comm]

theorem bendWork_self (EI l a b : ℝ) : bendWork EI l a b a b = EI / l * (3 * (a + b) ^ 2 + (a - b) ^ 2) := by
  unfold bendWork; ring

/-! calculus of polynomials -/

theorem integral_cubic (a b c e l : ℝ) :
    ∫ x in (0:ℝ)..l, (a + b * x + c * x ^ 2 + e * x ^ 3) = a * l + b * l ^ 2 / 2 + c * l ^ 3 / 3 + e * l ^ 4 / 4 := by
  have key : ∀ x ∈ Set.uIcc 0 l, HasDerivAt (fun x : ℝ => a * x + b * x ^ 2 / 2 + c * x ^ 3 / 3 + e * x ^ 4 / 4)
      (a + b * x + c * x ^ 2 + e * x ^ 3) x := by
    intro x _
    have h := ((((hasDerivAt_id x).const_mul a).add (((hasDerivAt_pow 2 x).const_mul b).div_const 2)).add
      (((hasDerivAt_pow 3 x).const_mul c).div_const 3)).add (((hasDerivAt_pow 4 x).const_mul e).div_const 4)
    refine (h.congr_deriv ?_)
    norm_num; ring
  rw [intervalIntegral.integral_eq_sub_of_hasDerivAt key]
  · ring
  · apply Continuous.intervalIntegrable
    fun_prop

theorem integral_quintic (a b c e f l : ℝ) :
    ∫ x in (0:ℝ)..l, (a + b * x + c * x ^ 2 + e * x ^ 3 + f * x ^ 4) =
      a * l + b * l ^ 2 / 2 + c * l ^ 3 / 3 + e * l ^ 4 / 4 + f * l ^ 5 / 5 := by
  have key : ∀ x ∈ Set.uIcc 0 l, HasDerivAt (fun x : ℝ => a * x + b * x ^ 2 / 2 + c * x ^ 3 / 3 + e * x ^ 4 / 4 + f * x ^ 5 / 5)
      (a + b * x + c * x ^ 2 + e * x ^ 3 + f * x ^ 4) x := by
    intro x _
    have h := (((((hasDerivAt_id x).const_mul a).add (((hasDerivAt_pow 2 x).const_mul b).div_const 2)).add
      (((hasDerivAt_pow 3 x).const_mul c).div_const 3)).add (((hasDerivAt_pow 4 x).const_mul e).div_const 4)).add
      (((hasDerivAt_pow 5 x).const_mul f).div_const 5)
    refine (h.congr_deriv ?_)
    norm_num; ring
  rw [intervalIntegral.integral_eq_sub_of_hasDerivAt key]
  · ring
  · apply Continuous.intervalIntegrable
    fun_prop

theorem deriv_cubic (a b c e : ℝ) : deriv (fun x : ℝ => a + b * x + c * x ^ 2 + e * x ^ 3) =
    fun x => b + 2 * c * x + 3 * e * x ^ 2 := by
  funext x
  have h := ((((hasDerivAt_const x a).add ((hasDerivAt_id x).const_mul b)).add ((hasDerivAt_pow 2 x).const_mul c)).add
      ((hasDerivAt_pow 3 x).const_mul e))
  rw [HasDerivAt.deriv (f := fun x : ℝ => a + b * x + c * x ^ 2 + e * x ^ 3) h]
  norm_num; ring

theorem deriv_quad (b c e : ℝ) : deriv (fun x : ℝ => b + 2 * c * x + 3 * e * x ^ 2) = fun x => 2 * c + 6 * e * x := by
  have := deriv_cubic b (2 * c) (3 * e) 0
  have e1 : (fun x : ℝ => b + 2 * c * x + 3 * e * x ^ 2) = fun x => b + 2 * c * x + 3 * e * x ^ 2 + 0 * x ^ 3 := by
    funext x; ring
  rw [e1, this]; funext x; ring

theorem deriv_lin (a b : ℝ) : deriv (fun x : ℝ => a + b * x) = fun _ => b := by
  have := deriv_cubic a b 0 0
  have e1 : (fun x : ℝ => a + b * x) = fun x => a + b * x + 0 * x ^ 2 + 0 * x ^ 3 := by
    funext x; ring
  rw [e1, this]; funext x; ring

/-- Fields in terms of polynomial coefficients. -/
theorem Fields.coeffs {l : ℝ} {d : Vec 12} {u w2 w3 θ : ℝ → ℝ} (h : Fields l d u w2 w3 θ) :
    ∃ u0 u1 a0 a1 a2 a3 b0 b1 b2 b3 t0 t1 : ℝ,
      u = (fun x => u0 + u1 * x) ∧ w2 = (fun x => a0 + a1 * x + a2 * x ^ 2 + a3 * x ^ 3) ∧
      w3 = (fun x => b0 + b1 * x + b2 * x ^ 2 + b3 * x ^ 3) ∧ θ = (fun x => t0 + t1 * x) ∧
      d 0 = u0 ∧ d 6 = u0 + u1 * l ∧ d 3 = t0 ∧ d 9 = t0 + t1 * l ∧
      d 1 = a0 ∧ d 5 = a1 ∧ d 7 = a0 + a1 * l + a2 * l ^ 2 + a3 * l ^ 3 ∧ d 11 = a1 + 2 * a2 * l + 3 * a3 * l ^ 2 ∧
      d 2 = b0 ∧ d 4 = - b1 ∧ d 8 = b0 + b1 * l + b2 * l ^ 2 + b3 * l ^ 3 ∧
      d 10 = - (b1 + 2 * b2 * l + 3 * b3 * l ^ 2) := by
  obtain ⟨u0, u1, hu⟩ := h.u_lin
  obtain ⟨t0, t1, ht⟩ := h.θ_lin
  obtain ⟨a0, a1, a2, a3, ha⟩ := h.w2_cub
  obtain ⟨b0, b1, b2, b3, hb⟩ := h.w3_cub
  have eu : u = _ := funext hu
  have et : θ = _ := funext ht
  have ea : w2 = _ := funext ha
  have eb : w3 = _ := funext hb
  have da : deriv w2 = fun x => a1 + 2 * a2 * x + 3 * a3 * x ^ 2 := by rw [ea]; exact deriv_cubic a0 a1 a2 a3
  have db : deriv w3 = fun x => b1 + 2 * b2 * x + 3 * b3 * x ^ 2 := by rw [eb]; exact deriv_cubic b0 b1 b2 b3
  refine ⟨u0, u1, a0, a1, a2, a3, b0, b1, b2, b3, t0, t1, eu, ea, eb, et, ?_⟩
  have h1 := h.u0; have h2 := h.ul; have h3 := h.θ0; have h4 := h.θl
  have h5 := h.w20; have h6 := h.dw20; have h7 := h.w2l; have h8 := h.dw2l
  have h9 := h.w30; have h10 := h.dw30; have h11 := h.w3l; have h12 := h.dw3l
  rw [hu] at h1 h2
  rw [ht] at h3 h4
  rw [ha] at h5 h7
  rw [hb] at h9 h11
  rw [da] at h6 h8
  rw [db] at h10 h12
  norm_num at *
  refine ⟨?_, ?_, ?_, ?_, ?_, ?_, ?_, ?_, ?_, ?_, ?_, ?_⟩ <;> linarith

end Hyperstatic
