import Verif.Spec.Observe

/-
Vocabulary for statements about reported results.
-/

namespace Hyperstatic.Spec

/-- The static solutions among the calls. -/
def isSolve : Call → Bool
  | .solveStatic _ => true
  | _ => false

/-- The truth values returned by the `solve_static` calls of a history. -/
noncomputable def solveReturns (env : Env) : World → List Call → List Bool
  | _, [] => []
  | w, c :: cs => if isSolve c then (w.step env c).2 :: solveReturns env (w.step env c).1 cs else solveReturns env (w.step env c).1 cs

/-- The same displacements and deformations are reported for a case. -/
def SameResults (w w' : World) (c : String) : Prop :=
  (∀ n, w.resultGetNodalDisplacement n c = w'.resultGetNodalDisplacement n c) ∧
  ∀ b l, w.resultGetBeamDeformation b l c = w'.resultGetBeamDeformation b l c

end Hyperstatic.Spec
