import Verif.Model.Section
import Mathlib.MeasureTheory.Integral.Prod
import Mathlib.MeasureTheory.Measure.Lebesgue.Basic

/-
Geometry of cross-sections.  A cross-section is a set of points `(y, z)`: `y` along local axis 2 (depth), `z` along local
axis 3 (width), origin at the centre.
-/

namespace Hyperstatic.Spec
open MeasureTheory Set

/-- area -/
noncomputable def area (S : Set (ℝ × ℝ)) : ℝ := ∫ _ in S, 1
/-- second moment about axis 3 -/
noncomputable def moment33 (S : Set (ℝ × ℝ)) : ℝ := ∫ p in S, p.1 ^ 2
/-- second moment about axis 2 -/
noncomputable def moment22 (S : Set (ℝ × ℝ)) : ℝ := ∫ p in S, p.2 ^ 2

/-- rectangle of depth `h` and width `b` -/
def rectShape (h b : ℝ) : Set (ℝ × ℝ) := {p | |p.1| ≤ h / 2 ∧ |p.2| ≤ b / 2}
/-- hollow rectangle with webs of thickness `tw` and flanges of thickness `tf` -/
def boxShape (h b tw tf : ℝ) : Set (ℝ × ℝ) := rectShape h b \ rectShape (h - 2 * tf) (b - 2 * tw)
/-- two flanges `b` by `tf` and a web of thickness `tw`, total depth `h` -/
def iShape (h b tw tf : ℝ) : Set (ℝ × ℝ) :=
  {p | (h / 2 - tf ≤ |p.1| ∧ |p.1| ≤ h / 2 ∧ |p.2| ≤ b / 2) ∨ (|p.1| < h / 2 - tf ∧ |p.2| ≤ tw / 2)}
/-- disc of diameter `d` -/
def discShape (d : ℝ) : Set (ℝ × ℝ) := {p | p.1 ^ 2 + p.2 ^ 2 ≤ (d / 2) ^ 2}
/-- ring of outer diameter `d` and wall thickness `t` -/
def pipeShape (d t : ℝ) : Set (ℝ × ℝ) := discShape d \ discShape (d - 2 * t)

/-- The numbers of a section describe the shape `S` of depth `h` and width `b` up to the relative error `ε`: area, second
moments and elastic moduli (second moment over half depth); they are positive. -/
structure Describes (s : BeamSection) (S : Set (ℝ × ℝ)) (h b ε : ℝ) : Prop where
  area : |s.A - area S| ≤ ε * area S
  i33 : |s.I33 - moment33 S| ≤ ε * moment33 S
  i22 : |s.I22 - moment22 S| ≤ ε * moment22 S
  w33 : s.W33 = s.I33 / (h / 2)
  w22 : s.W22 = s.I22 / (b / 2)
  pos : 0 < s.A ∧ 0 < s.I22 ∧ 0 < s.I33

end Hyperstatic.Spec
