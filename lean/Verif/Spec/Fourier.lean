import Mathlib.Analysis.SpecialFunctions.Trigonometric.Basic
import Mathlib.Analysis.Calculus.Deriv.Basic

/-
What a response spectrum is, stated without reference to the program.
-/

namespace Hyperstatic.Spec

open scoped BigOperators

/-- `p` has period `2 M h` and is made of the oscillations that samples at distance `h` can tell apart: `M` full ones and the fastest cosine -/
def BandLimited (M : ℕ) (h : ℝ) (p : ℝ → ℝ) : Prop := ∃ (a b : ℕ → ℝ) (c : ℝ), ∀ t,
  p t = ∑ k ∈ Finset.range M, (a k * Real.cos (k * (Real.pi / (M * h) * t)) + b k * Real.sin (k * (Real.pi / (M * h) * t))) + c * Real.cos (M * (Real.pi / (M * h) * t))

/-- `u` is `ω²` times the displacement `x` of an oscillator `x'' + 2 ξ ω x' + ω² x = p` -/
def IsResponse (ω ξ : ℝ) (p u : ℝ → ℝ) : Prop := ∃ v : ℝ → ℝ, ∀ t,
  HasDerivAt u (v t) t ∧ HasDerivAt v (ω ^ 2 * p t - 2 * ξ * ω * v t - ω ^ 2 * u t) t

/-- steady response: the motion repeats after the time `P` -/
def Repeats (P : ℝ) (u : ℝ → ℝ) : Prop := ∀ t, u (t + P) = u t

/-- the largest of the values at `0, h, ..., (n-1) h` -/
def IsLargestSample (n : ℕ) (h : ℝ) (u : ℝ → ℝ) (m : ℝ) : Prop := (∃ j < n, u (j * h) = m) ∧ ∀ j < n, u (j * h) ≤ m

/-- the largest number of a list -/
def IsLargest (l : List ℝ) (m : ℝ) : Prop := m ∈ l ∧ ∀ x ∈ l, x ≤ m

/-- `s` is the ordinate, in g, for an oscillator of frequency `ω` and damping ratio `ξ` under the record `x` at distance `h`, repeated every
`2 M` samples: `9.8 s` is the largest sample of `ω²` times its displacement in steady state.  Such a state exists and no other has another
largest sample. -/
def IsOrdinate (M : ℕ) (h : ℝ) (x : ℕ → ℝ) (ω ξ s : ℝ) : Prop :=
  (∃ p u, BandLimited M h p ∧ (∀ j < 2 * M, p (j * h) = x j) ∧ IsResponse ω ξ p u ∧ Repeats (2 * M * h) u) ∧
  ∀ p u, BandLimited M h p → (∀ j < 2 * M, p (j * h) = x j) → IsResponse ω ξ p u → Repeats (2 * M * h) u → IsLargestSample (2 * M) h u (9.8 * s)

end Hyperstatic.Spec
