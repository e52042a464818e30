import Mathlib.Analysis.SpecialFunctions.Log.Basic
import Mathlib.Analysis.SpecialFunctions.Trigonometric.Basic

/-
Vocabulary for artificial ground motions.  Nothing here refers to tables of circular frequencies or to iterations.
-/

namespace Hyperstatic.Spec

/-- `g` reads a table of periods and ordinates by circular frequencies: at the frequency of a tabulated period it gives its ordinate. -/
def ReadsByFrequency (table : List (ℝ × ℝ)) (g : ℝ → Option ℝ) : Prop :=
  ∀ q ∈ table, 0 < q.1 → g (2 * Real.pi / q.1) = some q.2

/-- Spectral density of a stationary motion of duration `td` whose response spectrum, for the damping ratio `zeta`, exceeds `sa` at the
circular frequency `w` with probability `r`: `ζ/(π ω) sa² / (-ln (-π/(ω td) ln (1-r)))`. -/
noncomputable def densityFor (zeta r td w sa : ℝ) : ℝ :=
  zeta / (Real.pi * w) * sa ^ 2 / -Real.log (-Real.pi / (w * td) * Real.log (1 - r))

end Hyperstatic.Spec
