import Verif.Model.Alias
import Verif.Spec.Observe

/-
Vocabulary for scripts that change the answers they were given.
-/

namespace Hyperstatic.Spec

/-- The API calls of a script, without its queries and writes. -/
def callsIn : List ScriptStep → List Call
  | [] => []
  | .call c :: t => c :: callsIn t
  | _ :: t => callsIn t

/-- The script writes into no array that came from `get_node_location` or `get_all_nodal_load`. -/
def KeepsOff : List ScriptStep → Prop
  | [] => True
  | .writeLocation _ _ :: _ => False
  | .writeLoads _ _ :: _ => False
  | _ :: t => KeepsOff t

/-- No node name that exists at that moment is added again. -/
def ScriptNoReadd (env : Env) : Shared → List ScriptStep → Prop
  | _, [] => True
  | s, a :: t => (∀ n x y z, a = .call (.addNode n x y z) → n ∉ s.world.getNodeNames) ∧ ScriptNoReadd env (s.step env a) t

end Hyperstatic.Spec
