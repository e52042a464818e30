import Verif.Spec.Shell
import Mathlib.Analysis.Calculus.Deriv.Basic

/-
Vocabulary for a plate over a quadrilateral in its plane.  Nothing here refers to shape functions, sides or element matrices.
-/

namespace Hyperstatic.Spec
open Matrix

/-- Four points, taken in turn, turn strictly to the left at each of them: a convex quadrilateral, counterclockwise. -/
def TurnsLeft (x y : Fin 4 → ℝ) : Prop :=
  ∀ i, 0 < (x (i + 1) - x i) * (y (i + 2) - y (i + 1)) - (x (i + 2) - x (i + 1)) * (y (i + 1) - y i)

/-- The value and the two slopes of a deflection at the four points. -/
noncomputable def sampled (w : ℝ → ℝ → ℝ) (x y : Fin 4 → ℝ) : Fin 4 × Fin 3 → ℝ := fun j =>
  ![w (x j.1) (y j.1), deriv (fun s => w s (y j.1)) (x j.1), deriv (fun s => w (x j.1) s) (y j.1)] j.2

/-- The deflection of a plate that moves as a rigid body: a plane. -/
def tilt (a : Vec 3) (x y : ℝ) : ℝ := a 0 + a 1 * x + a 2 * y

/-- A deflection with constant curvatures `k = (w_xx, w_yy, 2 w_xy)`. -/
noncomputable def bowl (a k : Vec 3) (x y : ℝ) : ℝ := tilt a x y + k 0 / 2 * x ^ 2 + k 1 / 2 * y ^ 2 + k 2 / 2 * (x * y)

/-- Deflection and slopes of a plate along the side from corner `i` to the next: the part of the deflection that the mean slopes do not
explain.  It vanishes without transverse shear. -/
noncomputable def slip (x y : Fin 4 → ℝ) (q : Fin 4 × Fin 3 → ℝ) (i : Fin 4) : ℝ :=
  (q (i + 1, 0) - q (i, 0)) - (x (i + 1) - x i) * ((q (i, 1) + q (i + 1, 1)) / 2) - (y (i + 1) - y i) * ((q (i, 2) + q (i + 1, 2)) / 2)

/-- Ratio of the flexibilities in shear and in bending of a strip of plate of thickness `t` and length `L` (Timoshenko's beam theory with
the bending stiffness `E t³ / 12 (1 - μ²)` and the shear stiffness `5/6 G t`). -/
noncomputable def stripRatio (mu t L : ℝ) : ℝ := 12 * (t ^ 3 / 12 / (1 - mu ^ 2)) / ((5 / 6 * (1 / 2 / (1 + mu)) * t) * L ^ 2)

/-- The rule gives positive weights to the four points `(±g, ±g)`, as the rule of Gauss with two points in each direction does. -/
def FourPoints (q : List (ℝ × ℝ × ℝ)) (g : ℝ) : Prop :=
  ∀ a b, (a = g ∨ a = -g) → (b = g ∨ b = -g) → ∃ w, 0 < w ∧ (w, a, b) ∈ q

/-- Area of a quadrilateral: half the cross product of the diagonals. -/
noncomputable def flatArea (x y : Fin 4 → ℝ) : ℝ := ((x 2 - x 0) * (y 3 - y 1) - (x 3 - x 1) * (y 2 - y 0)) / 2

/-- Deflection and slopes written as deflection and rotation vector, `(w, ∂w/∂y, -∂w/∂x)`. -/
def turned (q : Fin 4 × Fin 3 → ℝ) : Fin 4 × Fin 3 → ℝ := fun j => ![q (j.1, 0), q (j.1, 2), -q (j.1, 1)] j.2

/-- Components of four nodes that move as one rigid body: displacements and rotation vectors. -/
noncomputable def rigidAt (p : Fin 4 → V3) (t ω : V3) : Fin 4 × Fin 6 → ℝ := fun j =>
  ![(t + ω.cross (p j.1)).x, (t + ω.cross (p j.1)).y, (t + ω.cross (p j.1)).z, ω.x, ω.y, ω.z] j.2

end Hyperstatic.Spec
