import Mathlib.Analysis.SpecialFunctions.Pow.Real
import Mathlib.Analysis.SpecialFunctions.Trigonometric.Basic
import Mathlib.Analysis.Calculus.Deriv.Basic

/-
What the seismic functions are meant to compute, stated without reference to the program.
-/

namespace Hyperstatic.Spec

/-- exponent of the falling branch for damping ratio `xi` -/
noncomputable def fallExponent (xi : ℝ) : ℝ := 0.9 + (0.05 - xi) / (0.3 + 6 * xi)

/-- slope of the last branch -/
noncomputable def lastSlope (xi : ℝ) : ℝ := max 0 (0.02 + (0.05 - xi) / (4 + 32 * xi))

/-- damping factor of the plateau -/
noncomputable def plateau (xi : ℝ) : ℝ := max 0.55 (1 + (0.05 - xi) / (0.08 + 1.6 * xi))

/-- The design spectrum of the code: a continuous curve that starts at 0.45 of the maximum, rises linearly to the plateau
at period 0.1, stays there until `Tg`, falls like a power of the period until `5 Tg` and then linearly. -/
structure DesignCurve (amax Tg xi : ℝ) (f : ℝ → ℝ) : Prop where
  start : f 0 = 0.45 * amax
  continuous : ContinuousOn f (Set.Ici 0)
  rise : ∃ s, ∀ t, 0 ≤ t → t < 0.1 → f t = 0.45 * amax + s * t
  flat : ∀ t, 0.1 ≤ t → t ≤ Tg → f t = plateau xi * amax
  fall : ∀ t, Tg ≤ t → t ≤ 5 * Tg → f t * t ^ fallExponent xi = plateau xi * amax * Tg ^ fallExponent xi
  last : ∀ t, 5 * Tg ≤ t → f t = f (5 * Tg) - lastSlope xi * amax * (t - 5 * Tg)

/-- `h` is the response of the oscillator `h'' + 2 ζ ω h' + ω² h = 0` to a unit impulse at time zero -/
def IsImpulseResponse (ω ζ : ℝ) (h : ℝ → ℝ) : Prop :=
  h 0 = 0 ∧ deriv h 0 = 1 ∧ Differentiable ℝ h ∧ Differentiable ℝ (deriv h) ∧
    ∀ t, deriv (deriv h) t + 2 * ζ * ω * deriv h t + ω ^ 2 * h t = 0

/-- the response at step `k` as the sum of the responses `h` to the impulses `p i * dt` -/
noncomputable def superposed (h : ℝ → ℝ) (p : List ℝ) (dt : ℝ) (k : ℕ) : ℝ :=
  ((List.range (k + 1)).map fun i => p.getD i 0 * dt * h (((k - i : ℕ) : ℝ) * dt)).sum

/-- largest absolute value of a record -/
def IsPeak (l : List ℝ) (m : ℝ) : Prop := (∃ x ∈ l, |x| = m) ∧ ∀ x ∈ l, |x| ≤ m

end Hyperstatic.Spec
