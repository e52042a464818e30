import Verif.Model.Api

namespace Hyperstatic.Spec

/-- The call of `add_shell` for this shell name, with any further arguments. -/
def AddsShell (s : String) (c : Call) : Prop := ∃ n1 n2 n3 n4 sec, c = .addShell s n1 n2 n3 n4 sec

end Hyperstatic.Spec
