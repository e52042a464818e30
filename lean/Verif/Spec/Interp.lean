import Mathlib.Analysis.Calculus.Deriv.Basic
import Mathlib.Analysis.Real.Sqrt

/-
Interpolation: the value of a combination of shape functions, cubics and bicubics.
-/

namespace Hyperstatic.Spec

/-- nodal values times shape functions -/
noncomputable def combine (values shape : List ℝ) : ℝ := (List.zipWith (· * ·) values shape).sum

/-- a cubic polynomial -/
noncomputable def cubic (a : Fin 4 → ℝ) (x : ℝ) : ℝ := a 0 + a 1 * x + a 2 * x ^ 2 + a 3 * x ^ 3

/-- a polynomial that is cubic in each of two variables -/
noncomputable def bicubic (a : Fin 4 → Fin 4 → ℝ) (x y : ℝ) : ℝ := cubic (fun i => cubic (a i) y) x

/-- partial derivatives -/
noncomputable def dx (f : ℝ → ℝ → ℝ) (x y : ℝ) : ℝ := deriv (fun s => f s y) x
/-- partial derivative in the second variable -/
noncomputable def dy (f : ℝ → ℝ → ℝ) (x y : ℝ) : ℝ := deriv (fun s => f x s) y

/-- values of a function at the corners of the square with side `l`, the first variable running first -/
def corners (f : ℝ → ℝ → ℝ) (l : ℝ) : List ℝ := [f 0 0, f l 0, f 0 l, f l l]

end Hyperstatic.Spec
