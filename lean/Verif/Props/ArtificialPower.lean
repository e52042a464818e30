import Verif.Model.Artificial
import Mathlib.Analysis.SpecialFunctions.Integrals.Basic

/-
C154: the power of the components of an artificial motion.
-/

namespace Hyperstatic

/-- **C154, power.** A component with a density that is a number and not negative has an amplitude, and whatever its phase its mean square
over a period, before the envelope, is twice the density times the distance of the frequencies.  A negative density has no amplitude. -/
theorem C154_power (P : ArtData) (hP : 0 ≤ P.step) (s w phi : ℝ) (hw : 0 < w) :
    (0 ≤ s → ∃ c, artAmplitude P (some s) = some c ∧ 0 ≤ c ∧
      (∫ t in (0 : ℝ)..(2 * Real.pi / w), (c * Real.cos (w * t + phi)) ^ 2) / (2 * Real.pi / w) = 2 * s * P.step) ∧
    (s < 0 → 0 < P.step → artAmplitude P (some s) = none) := by
  have hpi := Real.pi_pos
  constructor
  · intro hs
    have h0 : 0 ≤ 4 * s * P.step := by positivity
    refine ⟨Real.sqrt (4 * s * P.step), if_neg (not_lt.mpr h0), Real.sqrt_nonneg _, ?_⟩
    simp only [mul_pow, Real.sq_sqrt h0]
    rw [intervalIntegral.integral_const_mul, intervalIntegral.integral_comp_mul_add (fun u => Real.cos u ^ 2) hw.ne' phi, integral_cos_sq]
    have e : w * (2 * Real.pi / w) + phi = phi + 2 * Real.pi := by field_simp; ring
    rw [e, Real.cos_add_two_pi, Real.sin_add_two_pi, mul_zero, zero_add, smul_eq_mul]
    field_simp
    ring
  · intro hs hp
    exact if_pos (by nlinarith)

/-- the data of the script -/
example : 0 ≤ (ArtData.script []).step ∧ (0 : ℝ) < 2 * Real.pi / 6 := by
  have := Real.pi_pos
  constructor
  · unfold ArtData.script
    positivity
  · positivity

end Hyperstatic
