import Verif.Model.Meta
import Verif.Props.Interp
import Verif.Lemmas.Element

/-
C88: stiffness of the symbolic Euler beam; C89: its mass; C90: the elasticity tensor.
-/

namespace Hyperstatic
open Spec Matrix

theorem H01_cubic : H01 = cubic ![1, 0, -3, 2] := by funext x; simp [H01, cubic]; ring
theorem H02_cubic (l : ℝ) : H02 l = cubic ![0, l, -2 * l, l] := by funext x; simp [H02, cubic]; ring
theorem H11_cubic : H11 = cubic ![0, 0, 3, -2] := by funext x; simp [H11, cubic]; ring
theorem H12_cubic (l : ℝ) : H12 l = cubic ![0, 0, -l, l] := by funext x; simp [H12, cubic]; ring

theorem cubic_deriv_eq (a : Fin 4 → ℝ) : deriv (cubic a) = cubic (slopeCoef a) := funext fun x => (cubic_deriv a x).deriv

/-- coefficients of the bending shape functions -/
def bendCoef (l s : ℝ) : Fin 4 → Fin 4 → ℝ := ![![s, 0, -3 * s, 2 * s], ![0, l, -2 * l, l], ![0, 0, 3 * s, -2 * s], ![0, 0, -l, l]]

theorem eulerN2_cubic (l : ℝ) (i : Fin 4) : eulerN2 l i = cubic (bendCoef l 1 i) := by
  fin_cases i <;> funext x <;> simp [eulerN2, bendCoef, H01, H02, H11, H12, cubic] <;> ring

theorem eulerN3_cubic (l : ℝ) (i : Fin 4) : eulerN3 l i = cubic (bendCoef l (-1) i) := by
  fin_cases i <;> funext x <;> simp [eulerN3, bendCoef, H01, H02, H11, H12, cubic] <;> ring

theorem bend_integral (a b : Fin 4 → ℝ) : ∫ x in (0 : ℝ)..1, deriv (deriv (cubic a)) x * deriv (deriv (cubic b)) x =
    4 * a 2 * b 2 + 6 * (a 2 * b 3 + a 3 * b 2) + 12 * a 3 * b 3 := by
  simp only [cubic_deriv_eq]
  have : (fun x => cubic (slopeCoef (slopeCoef a)) x * cubic (slopeCoef (slopeCoef b)) x) = fun x =>
      4 * a 2 * b 2 + (12 * (a 2 * b 3 + a 3 * b 2)) * x + 36 * a 3 * b 3 * x ^ 2 + 0 * x ^ 3 := by
    funext x; simp [cubic, slopeCoef]; ring
  rw [this, integral_cubic]
  ring

theorem axial_integral (i j : Fin 2) : ∫ x in (-1 : ℝ)..1, deriv (eulerN1 i) x * deriv (eulerN1 j) x = if i = j then 1 / 2 else -1 / 2 := by
  have d : ∀ i x, deriv (eulerN1 i) x = ![-(1 / 2), 1 / 2] i := by
    intro i x
    have h1 : HasDerivAt (fun s : ℝ => s) 1 x := hasDerivAt_id x
    fin_cases i
    · refine HasDerivAt.deriv (((h1.const_sub 1).const_mul (1 / 2 : ℝ)).congr_deriv ?_); norm_num
    · refine HasDerivAt.deriv (((h1.const_add 1).const_mul (1 / 2 : ℝ)).congr_deriv ?_); norm_num
  simp only [d, intervalIntegral.integral_const]
  fin_cases i <;> fin_cases j <;> norm_num

theorem entries_bilin (B1 : Fin 2 → Fin 2 → ℝ) (B22 B23 : Fin 4 → Fin 4 → ℝ) (B3 : Fin 2 → Fin 2 → ℝ) (v u : Vec 12) :
    v ⬝ᵥ (ofTriplets (eulerEntries B1 B22 B23 B3) *ᵥ u) =
      (∑ i, ∑ j, v (![0, 6] i) * B1 i j * u (![0, 6] j)) + (∑ i, ∑ j, v (![1, 5, 7, 11] i) * B22 i j * u (![1, 5, 7, 11] j)) +
      (∑ i, ∑ j, v (![2, 4, 8, 10] i) * B23 i j * u (![2, 4, 8, 10] j)) + ∑ i, ∑ j, v (![3, 9] i) * B3 i j * u (![3, 9] j) := by
  rw [ofTriplets_bilin]
  simp [eulerEntries, blockEntries, List.finRange_succ, Fin.sum_univ_succ]
  ring

/-- C88, the property: the symbolic element has the stiffness of the beam element with the same constants. -/
def C88_claim : Prop := ∀ E G A I2 I3 J rho l : ℝ, 0 < l → eulerK E G A I2 I3 J l = beamK ⟨E, G, A, I2, I3, J, rho⟩ l

/-- C88 with the two second moments exchanged.  Missing: the order of the program (`C88_false`). -/
theorem C88_exchanged_partial (E G A I2 I3 J rho : ℝ) {l : ℝ} (hl : l ≠ 0) :
    eulerK E G A I2 I3 J l = beamK ⟨E, G, A, I3, I2, J, rho⟩ l := by
  ext i j
  rw [entry_eq_bilin (eulerK E G A I2 I3 J l), entry_eq_bilin (beamK _ l), beamK_bilin _ hl, eulerK, entries_bilin]
  generalize (Pi.single i 1 : Vec 12) = v
  generalize (Pi.single j 1 : Vec 12) = u
  simp only [eulerK1, axial_integral, eulerKb, eulerN2_cubic, eulerN3_cubic, bend_integral]
  simp [Fin.sum_univ_succ, bendCoef, beamWork, bendWork]
  field_simp
  ring

/-- C88 is false. -/
theorem C88_false : ¬ C88_claim := by
  intro h
  have h1 := h 1 1 1 1 2 1 1 1 one_pos
  rw [C88_exchanged_partial 1 1 1 1 2 1 1 one_ne_zero] at h1
  have h2 := congrFun (congrFun h1 1) 1
  simp [beamK, ofTriplets, beamKData] at h2

example : eulerK 2 1 3 4 5 6 7 = beamK ⟨2, 1, 3, 5, 4, 6, 8⟩ 7 := C88_exchanged_partial _ _ _ _ _ _ _ (by norm_num)

/-- motion of all points by one in direction `d` -/
def shiftBy (d : Fin 3) : Vec 12 := fun k => if k.val % 6 = d.val then 1 else 0

/-- C89, the property: a rigid translation in any direction moves the mass `rho A l`. -/
def C89_claim : Prop := ∀ (rho A I2 I3 J l : ℝ) (d : Fin 3), 0 < l → shiftBy d ⬝ᵥ (eulerM rho A I2 I3 J l *ᵥ shiftBy d) = rho * A * l

/-- What the mass matrix gives.  Missing: the masses are not `rho A l` (`C89_false`). -/
theorem C89_actual_partial (rho A I2 I3 J l : ℝ) (d : Fin 3) :
    shiftBy d ⬝ᵥ (eulerM rho A I2 I3 J l *ᵥ shiftBy d) = ![4 * rho * A / l, rho * I2 / l ^ 3, rho * I3 / l ^ 3] d := by
  have one : ∀ (f g : ℝ → ℝ) (a b : ℝ), Continuous f → Continuous g → (∀ x, (f x + g x) ^ 2 = 1) →
      (∫ x in a..b, f x * f x) + (∫ x in a..b, f x * g x) + ((∫ x in a..b, g x * f x) + ∫ x in a..b, g x * g x) = b - a := by
    intro f g a b hf hg h
    rw [← intervalIntegral.integral_add, ← intervalIntegral.integral_add, ← intervalIntegral.integral_add]
    · have : (fun x => f x * f x + f x * g x + (g x * f x + g x * g x)) = fun _ => (1 : ℝ) := funext fun x => by
        rw [← h x]; ring
      rw [this, intervalIntegral.integral_const]; simp
    all_goals exact Continuous.intervalIntegrable (by fun_prop) _ _
  have c : ∀ a, Continuous (cubic a) := fun a => by unfold cubic; fun_prop
  rw [eulerM, entries_bilin]
  fin_cases d
  · have k := one (eulerN1 0) (eulerN1 1) (-1) 1 (show Continuous fun x : ℝ => 1 / 2 * (1 - x) by fun_prop)
      (show Continuous fun x : ℝ => 1 / 2 * (1 + x) by fun_prop)
      (fun x => show (1 / 2 * (1 - x) + 1 / 2 * (1 + x)) ^ 2 = 1 by ring)
    simp [Fin.sum_univ_succ, shiftBy, eulerM1]
    simp at k
    linear_combination (2 * rho * A / l) * k
  · have k := one (eulerN2 l 0) (eulerN2 l 2) 0 1 (by rw [eulerN2_cubic]; exact c _) (by rw [eulerN2_cubic]; exact c _)
      (by intro x; simp [eulerN2, H01, H11])
    simp [Fin.sum_univ_succ, shiftBy, eulerMb]
    simp at k
    linear_combination (rho * I2 / l ^ 3) * k
  · have k := one (eulerN3 l 0) (eulerN3 l 2) 0 1 (by rw [eulerN3_cubic]; exact c _) (by rw [eulerN3_cubic]; exact c _)
      (fun x => show (-H01 x + -H11 x) ^ 2 = 1 by simp only [H01, H11]; ring)
    simp [Fin.sum_univ_succ, shiftBy, eulerMb]
    simp at k
    linear_combination (rho * I3 / l ^ 3) * k

/-- C89 is false. -/
theorem C89_false : ¬ C89_claim := by
  intro h
  have h1 := h 1 1 1 1 1 1 0 one_pos
  rw [C89_actual_partial] at h1
  norm_num at h1

example : shiftBy 0 ⬝ᵥ (eulerM 3 2 5 6 7 4 *ᵥ shiftBy 0) = 4 * 3 * 2 / 4 := C89_actual_partial 3 2 5 6 7 4 0

/-- C90.  The stresses obey Hooke's law: each normal strain is the normal stress minus `nu` times the others over `E`, each shear
strain is the shear stress over `G`. -/
theorem C90_hooke {E nu : ℝ} (hE : E ≠ 0) (h1 : 1 + nu ≠ 0) (h2 : 1 - 2 * nu ≠ 0) (exx eyy ezz gxy gyz gzx : ℝ) (s : Fin 3 → Fin 3 → ℝ)
    (hs : s = stressTensor E nu (strainTensor exx eyy ezz gxy gyz gzx)) :
    exx = (s 0 0 - nu * (s 1 1 + s 2 2)) / E ∧ eyy = (s 1 1 - nu * (s 0 0 + s 2 2)) / E ∧ ezz = (s 2 2 - nu * (s 0 0 + s 1 1)) / E ∧
    gxy = s 0 1 / (E / (2 * (1 + nu))) ∧ gyz = s 1 2 / (E / (2 * (1 + nu))) ∧ gzx = s 2 0 / (E / (2 * (1 + nu))) ∧
    ∀ i j, s i j = s j i := by
  subst hs
  have h3 : 1 - nu * 2 ≠ 0 := by rwa [mul_comm]
  refine ⟨?_, ?_, ?_, ?_, ?_, ?_, ?_⟩
  iterate 6
    simp [stressTensor, elasticity, strainTensor, Fin.sum_univ_succ]
    field_simp
    try ring
  intro i j
  fin_cases i <;> fin_cases j <;> simp [stressTensor, elasticity, strainTensor, Fin.sum_univ_succ]

/-- C90.  The strain energy is positive for every strain that is not zero, if `E > 0` and `-1 < nu < 1/2`. -/
theorem C90_positive {E nu : ℝ} (hE : 0 < E) (h1 : -1 < nu) (h2 : nu < 1 / 2) (exx eyy ezz gxy gyz gzx : ℝ)
    (h : ¬(exx = 0 ∧ eyy = 0 ∧ ezz = 0 ∧ gxy = 0 ∧ gyz = 0 ∧ gzx = 0)) :
    0 < ∑ i, ∑ j, strainTensor exx eyy ezz gxy gyz gzx i j * stressTensor E nu (strainTensor exx eyy ezz gxy gyz gzx) i j := by
  have p1 : 0 < 1 + nu := by linarith
  have p2 : 0 < 1 - 2 * nu := by linarith
  have e : ∑ i, ∑ j, strainTensor exx eyy ezz gxy gyz gzx i j * stressTensor E nu (strainTensor exx eyy ezz gxy gyz gzx) i j =
      E / (1 + nu) * (((exx - eyy) ^ 2 + (eyy - ezz) ^ 2 + (ezz - exx) ^ 2) / 3 + (gxy ^ 2 + gyz ^ 2 + gzx ^ 2) / 2) +
        E / (1 - 2 * nu) * (exx + eyy + ezz) ^ 2 / 3 := by
    simp [stressTensor, elasticity, strainTensor, Fin.sum_univ_succ]
    field_simp
    ring
  rw [e]
  have q1 : 0 < E / (1 + nu) := div_pos hE p1
  have q2 : 0 < E / (1 - 2 * nu) := div_pos hE p2
  by_contra hc
  have hc := not_lt.mp hc
  have n1 : 0 ≤ ((exx - eyy) ^ 2 + (eyy - ezz) ^ 2 + (ezz - exx) ^ 2) / 3 + (gxy ^ 2 + gyz ^ 2 + gzx ^ 2) / 2 := by positivity
  have n2 : 0 ≤ E / (1 - 2 * nu) * (exx + eyy + ezz) ^ 2 / 3 := by positivity
  have m1 : ((exx - eyy) ^ 2 + (eyy - ezz) ^ 2 + (ezz - exx) ^ 2) / 3 + (gxy ^ 2 + gyz ^ 2 + gzx ^ 2) / 2 = 0 := by
    refine le_antisymm ?_ n1
    by_contra hn
    have := mul_pos q1 (not_le.mp hn)
    linarith
  have m2 : (exx + eyy + ezz) ^ 2 = 0 := by
    refine le_antisymm ?_ (sq_nonneg _)
    by_contra hn
    have := mul_pos q2 (not_le.mp hn)
    have := mul_nonneg q1.le n1
    linarith
  have z : ∀ x : ℝ, x ^ 2 ≤ 0 → x = 0 := fun x hx => pow_eq_zero_iff two_ne_zero |>.mp (le_antisymm hx (sq_nonneg x))
  have a1 := sq_nonneg (exx - eyy)
  have a2 := sq_nonneg (eyy - ezz)
  have a3 := sq_nonneg (ezz - exx)
  have b1 := sq_nonneg gxy
  have b2 := sq_nonneg gyz
  have b3 := sq_nonneg gzx
  have c1 := z _ (by linarith : (exx - eyy) ^ 2 ≤ 0)
  have c2 := z _ (by linarith : (eyy - ezz) ^ 2 ≤ 0)
  have c3 := z _ m2.le
  exact h ⟨by linarith, by linarith, by linarith, z _ (by linarith), z _ (by linarith), z _ (by linarith)⟩

/-- C90.  The tensor is the same in every rotated system. -/
theorem C90_isotropic (E nu : ℝ) (R : Matrix (Fin 3) (Fin 3) ℝ) (hR : R * Rᵀ = 1) (i j k l : Fin 3) :
    ∑ p, ∑ q, ∑ r, ∑ s, R i p * R j q * R k r * R l s * elasticity E nu p q r s = elasticity E nu i j k l := by
  have o : ∀ i k, ∑ p, R i p * R k p = if i = k then 1 else 0 := by
    intro i k
    have := congrFun (congrFun hR i) k
    simpa [Matrix.mul_apply, Matrix.one_apply] using this
  have e : ∀ p q r s, R i p * R j q * R k r * R l s * elasticity E nu p q r s =
      2 * (E / 2 / (1 + nu)) * ((if p = r then R i p * R k r else 0) * (if q = s then R j q * R l s else 0)) +
      E * nu / (1 + nu) / (1 - 2 * nu) * ((if p = q then R i p * R j q else 0) * (if r = s then R k r * R l s else 0)) := by
    intro p q r s
    unfold elasticity
    split_ifs <;> ring
  simp only [e, Finset.sum_add_distrib]
  have s1 : ∑ p, ∑ q, ∑ r, ∑ s, (if p = r then R i p * R k r else 0) * (if q = s then R j q * R l s else 0) =
      (∑ p, R i p * R k p) * ∑ q, R j q * R l q := by
    simp only [← Finset.mul_sum, Finset.sum_ite_eq, Finset.mem_univ, if_true, ← Finset.sum_mul]
  have s2 : ∑ p, ∑ q, ∑ r, ∑ s, (if p = q then R i p * R j q else 0) * (if r = s then R k r * R l s else 0) =
      (∑ p, R i p * R j p) * ∑ r, R k r * R l r := by
    simp only [← Finset.mul_sum, Finset.sum_ite_eq, Finset.mem_univ, if_true, ← Finset.sum_mul]
  have m : ∀ (c : ℝ) (f : Fin 3 → Fin 3 → Fin 3 → Fin 3 → ℝ), ∑ p, ∑ q, ∑ r, ∑ s, c * f p q r s = c * ∑ p, ∑ q, ∑ r, ∑ s, f p q r s := by
    intro c f; simp only [← Finset.mul_sum]
  rw [m _ fun p q r s => _, m _ fun p q r s => _, s1, s2, o, o, o, o]
  unfold elasticity
  ring

example : 0 < ∑ i, ∑ j, strainTensor 1 0 0 2 0 0 i j * stressTensor 200 0.3 (strainTensor 1 0 0 2 0 0) i j :=
  C90_positive (by norm_num) (by norm_num) (by norm_num) _ _ _ _ _ _ (by norm_num)

example : (1 : ℝ) = (stressTensor 200 0.3 (strainTensor 1 0 0 2 0 0) 0 0 - 0.3 * (stressTensor 200 0.3 (strainTensor 1 0 0 2 0 0) 1 1 +
    stressTensor 200 0.3 (strainTensor 1 0 0 2 0 0) 2 2)) / 200 := (C90_hooke (by norm_num) (by norm_num) (by norm_num) 1 0 0 2 0 0 _ rfl).1

/-- a turn about the third axis by the angle with sine 3/5 -/
example (i j k l : Fin 3) : ∑ p, ∑ q, ∑ r, ∑ s, !![4/5, 3/5, 0; -3/5, 4/5, 0; 0, 0, (1 : ℝ)] i p * !![4/5, 3/5, 0; -3/5, 4/5, 0; 0, 0, (1 : ℝ)] j q *
    !![4/5, 3/5, 0; -3/5, 4/5, 0; 0, 0, (1 : ℝ)] k r * !![4/5, 3/5, 0; -3/5, 4/5, 0; 0, 0, (1 : ℝ)] l s * elasticity 200 0.3 p q r s =
    elasticity 200 0.3 i j k l :=
  C90_isotropic _ _ _ (by ext a b; fin_cases a <;> fin_cases b <;> simp [Matrix.mul_apply, Fin.sum_univ_succ] <;> norm_num) i j k l

end Hyperstatic
