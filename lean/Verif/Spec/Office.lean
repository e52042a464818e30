import Verif.Model.Office
import Verif.Spec.Observe

/-
Vocabulary for statements about several sessions on one disk.
-/

namespace Hyperstatic.Spec

/-- The event is about the variable `s`. -/
def Event.about (s : String) : Event → Prop
  | .start t _ => t = s
  | .call t _ => t = s
  | .load t _ _ => t = s
  | .kill t => t = s
  | .killDuring t _ _ => t = s
  | .copy _ _ => False

/-- The event names the folder `p`. -/
def Event.names (p : String) : Event → Prop
  | .start _ q => q = p
  | .load _ q _ => q = p
  | .copy q r => q = p ∨ r = p
  | _ => False

/-- The methods called on `s`, in order. -/
def callsOf (s : String) : List Event → List Call
  | [] => []
  | .call t c :: es => if t = s then c :: callsOf s es else callsOf s es
  | _ :: es => callsOf s es

/-- The truth values returned by the methods called on `s`. -/
noncomputable def returnsOf (env : Env) (s : String) : Office → List Event → List Bool
  | _, [] => []
  | o, .call t c :: es =>
      if t = s then (o.step env (.call t c)).2 :: returnsOf env s (o.step env (.call t c)).1 es
      else returnsOf env s (o.step env (.call t c)).1 es
  | o, e :: es => returnsOf env s (o.step env e).1 es

/-- The folder in which an event may change files. -/
def place (o : Office) : Event → Option String
  | .call t _ => (o.sessions.get? t).map (·.workpath)
  | .killDuring t _ _ => (o.sessions.get? t).map (·.workpath)
  | .copy _ q => some q
  | _ => none

/-- `s = Api.load(...)` -/
def Call.isLoad : Call → Prop
  | .load _ => True
  | _ => False

/-- While these events happen nothing but the methods of `s` changes `s` or the files of folder `p`. -/
def Undisturbed (env : Env) (s p : String) : Office → List Event → Prop
  | _, [] => True
  | o, e :: es =>
      ((∃ c, e = .call s c) ∨ (¬ Event.about s e ∧ place o e ≠ some p)) ∧ Undisturbed env s p (o.step env e).1 es

/-- The event writes a file of saved model data under the name `f`, or begins to. -/
def Event.saves (f : String) : Event → Prop
  | .call _ c => c = .save f
  | .killDuring _ c _ => c = .save f
  | _ => False

/-- Nobody saves in folder `p` under the name `f` and the folder is not replaced. -/
def NotOverwritten (env : Env) (p f : String) : Office → List Event → Prop
  | _, [] => True
  | o, e :: es => (place o e = some p → ¬ Event.saves f e ∧ ∀ q, e ≠ .copy q p) ∧ NotOverwritten env p f (o.step env e).1 es

/-- `w'` knows the same model as `w`, and reports every result `w` reports. -/
structure Confirms (w w' : World) : Prop where
  nodeNames : w.getNodeNames = w'.getNodeNames
  nodeLocation : ∀ n, w.getNodeLocation n = w'.getNodeLocation n
  nodeRestraints : ∀ c, w.getNodeRestraints c = w'.getNodeRestraints c
  beamNames : w.getBeamNames = w'.getBeamNames
  beamNodeNames : ∀ b, w.getBeamNodeNames b = w'.getBeamNodeNames b
  beamLocation : ∀ b, w.getBeamLocation b = w'.getBeamLocation b
  shellNames : w.getShellNames = w'.getShellNames
  shellNodeNames : ∀ s, w.getShellNodeNames s = w'.getShellNodeNames s
  shellLocation : ∀ s, w.getShellLocation s = w'.getShellLocation s
  nodalLoad : ∀ p n, w.getNodalLoad p n = w'.getNodalLoad p n
  allNodalLoad : ∀ p, w.getAllNodalLoad p = w'.getAllNodalLoad p
  displacement : ∀ n c d, w.resultGetNodalDisplacement n c = some d → w'.resultGetNodalDisplacement n c = some d
  allDisplacement : ∀ c d, w.resultGetAllNodalDisplacement c = some d → w'.resultGetAllNodalDisplacement c = some d
  deformation : ∀ b l c d, w.resultGetBeamDeformation b l c = some d → w'.resultGetBeamDeformation b l c = some d

end Hyperstatic.Spec
