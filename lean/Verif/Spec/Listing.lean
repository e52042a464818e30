import Verif.Spec.General

/-
What calls add to and remove from the listed names.  Nothing here refers to tables, flushes or pending objects.
-/

namespace Hyperstatic

/-- the objects a call has added, according to its answer -/
def GCall.added : GCall → GRet → GKind → String → Prop
  | .addMaterial n _ _ _ _, .bool true, .material, m => m = n
  | .addFrameSection n _ _ _, .bool true, .frameSection, m => m = n
  | .addAreaSection n _ _ _, .bool true, .areaSection, m => m = n
  | .addLoadcase n _ _, .str _, .loadcase, m => m = n
  | .addJoint _ _ _, .str a, .joint, m => m = a
  | .addFrame _ _ _ _, .str a, .frame, m => m = a
  | .addFrameBatch _ _, .batch l, .frame, m => m ∈ l
  | _, _, _, _ => False

/-- the calls that may remove an object: materials are deleted by name, joints are removed when joints are merged -/
def GCall.removes : GCall → GKind → String → Prop
  | .deleteMaterial n, .material, m => m = n
  | .mergeJoints _, .joint, _ => True
  | .addFrameBatch _ _, .joint, _ => True
  | _, _, _ => False

/-- the names a call may bring in: those it is given, and drawn ones (`uuid`) for joints and for frames without a name -/
def GCall.brings (V : GEnv) : GCall → GKind → String → Prop
  | .addMaterial n _ _ _ _, .material, m => m = n
  | .addMaterialQuick _, .material, m => m = "Q345"
  | .addFrameSection n _ _ _, .frameSection, m => m = n
  | .addAreaSection n _ _ _, .areaSection, m => m = n
  | .addLoadcase n _ _, .loadcase, m => m = n
  | .addJoint _ _ _, .joint, m => ∃ i, m = V.uuid i
  | .addFrame _ _ _ _, .joint, m => ∃ i, m = V.uuid i
  | .addFrame _ _ _ name, .frame, m => name = some m ∨ ∃ i, m = V.uuid i
  | .addFrameBatch _ _, .joint, m => ∃ i, m = V.uuid i
  | .addFrameBatch _ _, .frame, m => ∃ i, m = V.uuid i
  | _, _, _ => False

end Hyperstatic
