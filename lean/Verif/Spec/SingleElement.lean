import Verif.Spec.ThickPlate

/-
Vocabulary for single plates and membranes in a level plane, in the global axes.
-/

namespace Hyperstatic.Spec

/-- The four points, taken in turn, turn strictly to the right at each of them: a convex quadrilateral, clockwise. -/
def TurnsRight (x y : Fin 4 → ℝ) : Prop :=
  ∀ i, (x (i + 1) - x i) * (y (i + 2) - y (i + 1)) - (x (i + 2) - x (i + 1)) * (y (i + 1) - y i) < 0

/-- Displacements along the two axes with constant strains `e = (ε₁, ε₂, γ₁₂)` after a shift `b`, and no rotation of the nodes. -/
noncomputable def pulled (b : Vec 2) (e : Vec 3) (x y : Fin 4 → ℝ) : Fin 4 × Fin 3 → ℝ := fun j =>
  ![b 0 + e 0 * x j.1 + e 2 / 2 * y j.1, b 1 + e 2 / 2 * x j.1 + e 1 * y j.1, 0] j.2

end Hyperstatic.Spec
