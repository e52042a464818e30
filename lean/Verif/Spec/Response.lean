import Mathlib.Analysis.SpecialFunctions.Pow.Real
import Mathlib.Analysis.Real.Sqrt

/-
The combination of modal responses in the literature.
-/

namespace Hyperstatic.Spec

/-- Correlation coefficient of two modes (A. Der Kiureghian) with damping ratios `z1`, `z2` and circular frequencies `w1`, `w2`. -/
noncomputable def correlation (z1 z2 w1 w2 : ℝ) : ℝ :=
  let r := w2 / w1
  8 * Real.sqrt (z1 * z2) * (z1 + r * z2) * r ^ (3 / 2 : ℝ) /
    ((1 - r ^ 2) ^ 2 + 4 * z1 * z2 * r * (1 + r ^ 2) + 4 * (z1 ^ 2 + z2 ^ 2) * r ^ 2)

/-- complete quadratic combination of the responses `S` of modes with damping ratios `z` and circular frequencies `w` -/
noncomputable def quadraticCombination {n : ℕ} (z w S : Fin n → ℝ) : ℝ :=
  Real.sqrt (∑ i, ∑ j, correlation (z i) (z j) (w i) (w j) * S i * S j)

end Hyperstatic.Spec
