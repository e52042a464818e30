import Verif.Model.Section
import Mathlib.Algebra.Order.Floor.Ring

/-
Model of hyperstatic/core/fe_model/meta/interpolate/{Hermite,Lagrange}.py (the symbolic expressions as functions of the values of
their symbols) and of hyperstatic/common/curve.py.
-/

namespace Hyperstatic

/-- `H01`, `H02`, `H11`, `H12`: Hermite.py 7-10; `l` is the value of the symbol `l`. -/
noncomputable def H01 (x : ℝ) : ℝ := 1 - 3 * x ^ 2 + 2 * x ^ 3
/-- Hermite.py 8 -/
noncomputable def H02 (l x : ℝ) : ℝ := (x - 2 * x ^ 2 + x ^ 3) * l
/-- Hermite.py 9 -/
noncomputable def H11 (x : ℝ) : ℝ := 3 * x ^ 2 - 2 * x ^ 3
/-- Hermite.py 10 -/
noncomputable def H12 (l x : ℝ) : ℝ := (x ^ 3 - x ^ 2) * l

/-- `Hermite.N1D`: Hermite.py 13-18. -/
noncomputable def hermite1 (l xi : ℝ) : List ℝ := [H01 xi, H02 l xi, H11 xi, H12 l xi]

/-- `Hermite.N2D`: Hermite.py 21-41. -/
noncomputable def hermite2 (l xi eta : ℝ) : List ℝ :=
  [H01 xi * H01 eta, H11 xi * H01 eta, H01 xi * H11 eta, H11 xi * H11 eta,
   H02 l xi * H01 eta, H12 l xi * H01 eta, H02 l xi * H11 eta, H12 l xi * H11 eta,
   H01 xi * H02 l eta, H11 xi * H02 l eta, H01 xi * H12 l eta, H11 xi * H12 l eta,
   H02 l xi * H02 l eta, H12 l xi * H02 l eta, H02 l xi * H12 l eta, H12 l xi * H12 l eta]

/-- `l1`: Lagrange.py 6. -/
noncomputable def lag1 (x : ℝ) : ℝ := 1 / 2 * (1 - x)
/-- `l2`: Lagrange.py 7. -/
noncomputable def lag2 (x : ℝ) : ℝ := 1 / 2 * (1 + x)

/-- `Lagrange.N1D`: Lagrange.py 10-13. -/
noncomputable def lagrange1 (xi : ℝ) : List ℝ := [lag1 xi, lag2 xi]

/-- `Lagrange.N2D`: Lagrange.py 15-21. -/
noncomputable def lagrange2 (xi eta : ℝ) : List ℝ :=
  [lag1 xi * lag1 eta, lag1 xi * lag2 eta, lag2 xi * lag1 eta, lag2 xi * lag2 eta]

/-- `Curve`: curve.py 4-23 (`to_array` stacks the two rows). -/
structure SampledCurve where
  name : String
  x : List ℝ
  y : List ℝ

/-- `np.arange(0, stop, step)`: raises for step zero.  In exact arithmetic; with floats the number of entries can be one more. -/
noncomputable def arange0 (stop step : ℝ) : Except PyErr (List ℝ) := do
  let q ← pyDiv stop step
  return (List.range ⌈q⌉₊).map fun k : ℕ => (k : ℝ) * step

/-- `Curve.sin`: curve.py 25-29. -/
noncomputable def SampledCurve.sin (name : String) (A w phi dt : ℝ) (n : ℕ) : Except PyErr SampledCurve := do
  let x ← arange0 (n * dt) dt
  return ⟨name, x, x.map fun s => A * Real.sin (w * s + phi)⟩

/-- `Curve.cos`: curve.py 31-35. -/
noncomputable def SampledCurve.cos (name : String) (A w phi dt : ℝ) (n : ℕ) : Except PyErr SampledCurve := do
  let x ← arange0 (n * dt) dt
  return ⟨name, x, x.map fun s => A * Real.cos (w * s + phi)⟩

end Hyperstatic
