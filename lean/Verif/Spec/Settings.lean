import Verif.Spec.General

/-
Vocabulary of C147 (settings of a project) and C148 (results of a project).
-/

namespace Hyperstatic

/-- the settings that are texts -/
inductive Setting
  | name | author | unit | description

/-- the call that sets a setting -/
def Setting.set : Setting → String → GCall
  | .name => .setProjectName | .author => .setAuthor | .unit => .setUnit | .description => .setDescription

/-- the call that reads a setting -/
def Setting.get : Setting → GCall
  | .name => .getProjectName | .author => .getAuthor | .unit => .getUnit | .description => .getDescription

/-- the documented values: names have less than 32 characters, a unit is one of four, a description is any text -/
def Setting.allows : Setting → String → Prop
  | .name, v | .author, v => v.length < 32
  | .unit, v => v ∈ ["N_m_C", "N_mm_C", "kN_m_C", "kN_mm_C"]
  | .description, _ => True

end Hyperstatic
