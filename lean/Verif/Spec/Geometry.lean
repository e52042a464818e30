import Verif.Model.Csys

/-
Vocabulary for coordinate systems.
-/

namespace Hyperstatic.Spec

/-- Unit, mutually orthogonal, right-handed axes. -/
structure RightHanded (c : Csys) : Prop where
  xx : c.x.dot c.x = 1
  yy : c.y.dot c.y = 1
  zz : c.z.dot c.z = 1
  xy : c.x.dot c.y = 0
  yz : c.y.dot c.z = 0
  zx : c.z.dot c.x = 0
  hand : c.x.cross c.y = c.z

/-- Rotation of a vector about a unit axis by an angle, in the right-hand sense (Rodrigues' formula). -/
noncomputable def rotate (axis : V3) (θ : ℝ) (v : V3) : V3 :=
  Real.cos θ • v + Real.sin θ • V3.cross axis v + ((1 - Real.cos θ) * V3.dot axis v) • axis

/-- Rotation of a coordinate system about its origin. -/
noncomputable def rotateSys (axis : V3) (θ : ℝ) (c : Csys) : Csys :=
  ⟨c.O, rotate axis θ c.x, rotate axis θ c.y, rotate axis θ c.z⟩

/-- The rotations offered by a coordinate system object. -/
inductive Rot
  | externalX (θ : ℝ) | externalY (θ : ℝ) | externalZ (θ : ℝ)
  | ownX (θ : ℝ) | ownY (θ : ℝ) | ownZ (θ : ℝ)
  | vec (v : V3) (θ : ℝ)

/-- The method call for each of them. -/
noncomputable def Rot.call (c : Csys) : Rot → Csys
  | .externalX θ => c.rotateExternalX θ
  | .externalY θ => c.rotateExternalY θ
  | .externalZ θ => c.rotateExternalZ θ
  | .ownX θ => c.rotateX θ
  | .ownY θ => c.rotateY θ
  | .ownZ θ => c.rotateZ θ
  | .vec v θ => c.rotateVec v θ

/-- A rotation about a vector needs a non-zero vector. -/
def Rot.proper : Rot → Prop
  | .vec v _ => v ≠ 0
  | _ => True

end Hyperstatic.Spec
