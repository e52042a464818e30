import Verif.Spec.Structure
import Verif.Spec.Geometry

/-
Vocabulary for the mechanics of flat shell elements: displacement fields on the plane of an element, the elastic energy of an
isotropic plate, areas and edge tractions.  Nothing here refers to shape functions, quadrature or element matrices.
-/

namespace Hyperstatic.Spec
open Matrix

/-- `loc` gives the position of every node of the shell. -/
def LocatesShell (loc : String → Option V3) (s : ShellElm) : Prop := ∀ p ∈ s.nodes, loc p.1 = some p.2

/-- All nodes are displaced and rotated according to given fields of displacement and rotation vectors. -/
noncomputable def fieldState (loc : String → Option V3) (disp rotn : V3 → V3) : State := fun n =>
  match loc n with
  | some p => ![(disp p).x, (disp p).y, (disp p).z, (rotn p).x, (rotn p).y, (rotn p).z]
  | none => 0

/-- coordinate of a point along the first axis of a system -/
noncomputable def along1 (c : Csys) (p : V3) : ℝ := c.x.dot (p - c.O)
/-- coordinate of a point along the second axis of a system -/
noncomputable def along2 (c : Csys) (p : V3) : ℝ := c.y.dot (p - c.O)

/-- In-plane displacement field with constant strains `e = (ε₁, ε₂, γ₁₂)` and no rotation. -/
noncomputable def stretch (c : Csys) (e : Vec 3) (p : V3) : V3 :=
  (e 0 * along1 c p + e 2 / 2 * along2 c p) • c.x + (e 2 / 2 * along1 c p + e 1 * along2 c p) • c.y

/-- Deflection with constant curvatures `k = (w₁₁, w₂₂, 2 w₁₂)`. -/
noncomputable def deflection (c : Csys) (k : Vec 3) (p : V3) : ℝ :=
  k 0 / 2 * along1 c p ^ 2 + k 1 / 2 * along2 c p ^ 2 + k 2 / 2 * (along1 c p * along2 c p)

/-- Displacement field of that deflection. -/
noncomputable def bend (c : Csys) (k : Vec 3) (p : V3) : V3 := deflection c k p • c.z

/-- Rotation vector of the normal of a plate with that deflection: `(∂w/∂₂, -∂w/∂₁)`. -/
noncomputable def bendRot (c : Csys) (k : Vec 3) (p : V3) : V3 :=
  (k 1 * along2 c p + k 2 / 2 * along1 c p) • c.x + (-(k 0 * along1 c p + k 2 / 2 * along2 c p)) • c.y

/-- Stresses of an isotropic material in plane stress. -/
noncomputable def planeStress (E mu : ℝ) (e : Vec 3) : Vec 3 :=
  (E / (1 - mu ^ 2)) • ![e 0 + mu * e 1, mu * e 0 + e 1, (1 - mu) / 2 * e 2]

/-- Work of a membrane state of constant strain `e` on constant strain `e'`: area × thickness × stress · strain. -/
noncomputable def membraneWork (s : ShellSection) (area : ℝ) (e' e : Vec 3) : ℝ :=
  area * s.t * (e' ⬝ᵥ planeStress s.material.E s.material.mu e)

/-- Work of a plate state of constant curvature `k` on constant curvature `k'`, with bending stiffness `E t³ / 12 / (1 - μ²)`. -/
noncomputable def plateWork (s : ShellSection) (area : ℝ) (k' k : Vec 3) : ℝ :=
  area * (s.t ^ 3 / 12) * (k' ⬝ᵥ planeStress s.material.E s.material.mu k)

/-- Area of a plane triangle or quadrilateral with a unit normal, counterclockwise about the normal. -/
noncomputable def triangleArea (n a b c : V3) : ℝ := n.dot ((b - a).cross (c - a)) / 2
/-- Area of a quadrilateral: half the cross product of the diagonals. -/
noncomputable def quadArea (n a b c d : V3) : ℝ := n.dot ((c - a).cross (d - b)) / 2

/-- The four corners of a quadrilateral turn counterclockwise about the normal. -/
def Convex (n a b c d : V3) : Prop :=
  0 ≤ n.dot ((b - a).cross (d - a)) ∧ 0 ≤ n.dot ((c - b).cross (a - b)) ∧ 0 ≤ n.dot ((d - c).cross (b - c)) ∧
  0 ≤ n.dot ((a - d).cross (c - d))

/-- The four corners of a quadrilateral turn strictly counterclockwise about the normal. -/
def StrictConvex (n a b c d : V3) : Prop :=
  0 < n.dot ((b - a).cross (d - a)) ∧ 0 < n.dot ((c - b).cross (a - b)) ∧ 0 < n.dot ((d - c).cross (b - c)) ∧
  0 < n.dot ((a - d).cross (c - d))

/-- The nodes of the shell lie in a plane normal to the third axis. -/
def Planar (c : Csys) (s : ShellElm) : Prop := ∀ p ∈ s.nodes, ∀ p' ∈ s.nodes, c.z.dot (p.2 - p'.2) = 0

/-- Work of the uniform traction of stresses `σ` on the edge from `a` to `b` (interior on the left), on in-plane displacements that vary
linearly from `va` to `vb`: mean displacement · traction × length, outward normal × length `= (Δ₂, -Δ₁)`. -/
noncomputable def edgeWork (c : Csys) (σ : Vec 3) (a b : V3) (va vb : V3) : ℝ :=
  let n1 := c.y.dot (b - a)
  let n2 := -c.x.dot (b - a)
  (c.x.dot va + c.x.dot vb) / 2 * (σ 0 * n1 + σ 2 * n2) + (c.y.dot va + c.y.dot vb) / 2 * (σ 2 * n1 + σ 1 * n2)

/-- A quadrature rule on the square `[-1,1]²` (weights and points) has positive weights and points in the square. -/
def ProperRule (s : List (ℝ × ℝ × ℝ)) : Prop :=
  ∀ p ∈ s, 0 ≤ p.1 ∧ |p.2.1| ≤ 1 ∧ |p.2.2| ≤ 1

/-- A quadrature rule on the square integrates `1`, `ξ` and `η` exactly. -/
def LinearRule (s : List (ℝ × ℝ × ℝ)) : Prop :=
  (s.map fun p => p.1).sum = 4 ∧ (s.map fun p => p.1 * p.2.1).sum = 0 ∧ (s.map fun p => p.1 * p.2.2).sum = 0

/-- The weights of a rule on the reference triangle are non-negative and add up to its area. -/
def TriangleRule (s : List (ℝ × ℝ × ℝ)) : Prop := (∀ p ∈ s, 0 ≤ p.1) ∧ (s.map fun p => p.1).sum = 1 / 2

end Hyperstatic.Spec
