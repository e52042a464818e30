import Verif.Model.Tolerance
import Verif.Spec.Geometry

/-
Vocabulary for statements about the tolerance.
-/

namespace Hyperstatic.Spec

/-- The value last given to `set_abs_tol`. -/
def lastAbs : List TolCall → Option ℝ
  | [] => none
  | c :: cs => match lastAbs cs with
    | some v => some v
    | none => match c with
      | .setAbs v => some v
      | .setRel _ => none

/-- The element is made, and its axes are numbers. -/
def Made (r : Except PyErr (Option Csys)) : Prop := ∃ c, r = .ok (some c)

/-- The horizontal distance of two points, in the larger of the two coordinates. -/
noncomputable def sideways (p q : V3) : ℝ := max |q.x - p.x| |q.y - p.y|

end Hyperstatic.Spec
