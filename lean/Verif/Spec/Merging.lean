import Verif.Model.FeModel

/-
Models built with the check for duplicates (`check_dup=True`).
-/

namespace Hyperstatic.Spec

/-- two places count as the same -/
def SameSpot (p q : V3) : Prop := Real.sqrt ((p.x - q.x) ^ 2 + (p.y - q.y) ^ 2 + (p.z - q.z) ^ 2) < 1 / 10 ^ 9

/-- two beams lie on the same track: they join the same places, in the same or in the opposite order -/
def SameTrack (p q r s : V3) : Prop := (SameSpot p r ∧ SameSpot q s) ∨ (SameSpot q r ∧ SameSpot p s)

/-- the models that come about when all nodes and beams are added with the check -/
inductive Checked : FeModel → Prop
  | empty : Checked FeModel.empty
  | node {m m' : FeModel} {name : String} {x y z : ℝ} {k : ℕ} : Checked m → m.addNode name x y z true = .ok (m', k) → Checked m'
  | beam {m m' : FeModel} {name i j sec : String} {k : ℕ} : Checked m → m.addBeam name i j sec true = .ok (m', k) → Checked m'
  | simple {m m' : FeModel} {name i j : String} {E mu A I2 I3 J rho : ℝ} {k : ℕ} :
      Checked m → m.addSimpleBeam name i j E mu A I2 I3 J rho true = .ok (m', k) → Checked m'
  | mass {m m' : FeModel} {name : String} {mass : Vec 6} : Checked m → m.setNodalMass name mass = .ok m' → Checked m'
  | other {m m' : FeModel} : Checked m → m'.nodes = m.nodes → m'.beams = m.beams → m'.hidNode = m.hidNode → m'.hidBeam = m.hidBeam →
      Checked m'

end Hyperstatic.Spec
