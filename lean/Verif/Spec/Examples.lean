import Verif.Model.Examples

/-
Numbers for which the shipped scripts make sense (C168).
-/

namespace Hyperstatic.Spec

/-- A span of at least a millimetre and positive stiffness. -/
def Sensible (s : ScriptData) : Prop := 1 / 1000 ≤ s.L ∧ 0 < s.E ∧ -1 < s.mu ∧ 0 < s.A ∧ 0 < s.I2 ∧ 0 < s.I3 ∧ 0 < s.J

end Hyperstatic.Spec
