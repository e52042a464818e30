import Verif.Model.Py
import Mathlib.Analysis.Real.Sqrt
import Mathlib.Analysis.SpecialFunctions.Trigonometric.Basic

/-
Model of hyperstatic/common/csys.py (class `Cartesian`) and hyperstatic/common/tolerance.py.
Floats are real numbers.
-/

namespace Hyperstatic

/-- A numpy array of three floats. -/
@[ext] structure V3 where
  x : ℝ
  y : ℝ
  z : ℝ

namespace V3

noncomputable instance : Add V3 := ⟨fun a b => ⟨a.x + b.x, a.y + b.y, a.z + b.z⟩⟩
noncomputable instance : Sub V3 := ⟨fun a b => ⟨a.x - b.x, a.y - b.y, a.z - b.z⟩⟩
noncomputable instance : Neg V3 := ⟨fun a => ⟨-a.x, -a.y, -a.z⟩⟩
noncomputable instance : SMul ℝ V3 := ⟨fun c a => ⟨c * a.x, c * a.y, c * a.z⟩⟩
instance : Zero V3 := ⟨⟨0, 0, 0⟩⟩

/-- `np.dot` -/
noncomputable def dot (a b : V3) : ℝ := a.x * b.x + a.y * b.y + a.z * b.z

/-- `np.cross` -/
noncomputable def cross (a b : V3) : V3 :=
  ⟨a.y * b.z - a.z * b.y, a.z * b.x - a.x * b.z, a.x * b.y - a.y * b.x⟩

/-- `np.linalg.norm` -/
noncomputable def norm (a : V3) : ℝ := Real.sqrt (a.x * a.x + a.y * a.y + a.z * a.z)

/-- `a / np.linalg.norm(a)`.  numpy yields NaN for the zero vector; the model only uses this
on vectors already known to be non-zero. -/
noncomputable def unit (a : V3) : V3 := ⟨a.x / a.norm, a.y / a.norm, a.z / a.norm⟩

/-- `np.max(np.abs(a))` -/
noncomputable def maxAbs (a : V3) : ℝ := max (max |a.x| |a.y|) |a.z|

end V3

/-- `Tolerance.abs_tol()`: tolerance.py 3-8, default value 1e-9.  (`set_abs_tol` is never
called by the library; see `Model/Tolerance` for other values.) -/
noncomputable def absTol : ℝ := 1 / 10 ^ 9

/-- An object of class `Cartesian` (csys.py 9-33): origin and the three rows of `__T`.
The `name`/uuid is not modelled. -/
@[ext] structure Csys where
  O : V3
  x : V3
  y : V3
  z : V3

namespace Csys

/-- `Cartesian.__init__` csys.py 10-33. -/
noncomputable def mk? (O A B : V3) : Except PyErr Csys :=
  let OA := A - O
  let OB := B - O
  if (V3.cross OA OB).maxAbs < absTol then
    .error .exception
  else
    let x := V3.unit OA
    let z := V3.unit (V3.cross OA OB)
    let y := V3.cross z x
    .ok ⟨O, x, y, z⟩

/-- `Cartesian.create_by_normal` csys.py 35-58.  For a zero normal or guide numpy produces NaN
axes without raising; the model returns the separate outcome `none` there. -/
noncomputable def createByNormal (O normal guide : V3) : Except PyErr (Option Csys) :=
  if normal.norm = 0 ∨ guide.norm = 0 then .ok none
  else
    let w := V3.unit normal
    let g := V3.unit guide
    if V3.norm (w - g) < absTol ∨ V3.norm (w + g) < absTol then .error .exception
    else
      let u := V3.unit (V3.cross g w)
      let v := V3.cross w u
      match mk? O (O + u) (O + v) with
      | .ok c => .ok (some c)
      | .error e => .error e

/-- A quaternion in scipy's scalar-last order, `[x, y, z, w]`. -/
structure Quat where
  x : ℝ
  y : ℝ
  z : ℝ
  w : ℝ

/-- `R.from_quat(q).apply(v)` for one vector (scipy.spatial.transform.Rotation): the quaternion
is normalised, then `v` is rotated by the usual rotation matrix of a unit quaternion. -/
noncomputable def Quat.apply (q : Quat) (v : V3) : V3 :=
  let n := Real.sqrt (q.x * q.x + q.y * q.y + q.z * q.z + q.w * q.w)
  let x := q.x / n
  let y := q.y / n
  let z := q.z / n
  let w := q.w / n
  ⟨(x * x - y * y - z * z + w * w) * v.x + 2 * (x * y - z * w) * v.y + 2 * (x * z + y * w) * v.z,
   2 * (x * y + z * w) * v.x + (-(x * x) + y * y - z * z + w * w) * v.y + 2 * (y * z - x * w) * v.z,
   2 * (x * z - y * w) * v.x + 2 * (y * z + x * w) * v.y + (-(x * x) - y * y + z * z + w * w) * v.z⟩

/-- `self.__T = r.apply(self.__T)`: every row of `T` is rotated. -/
noncomputable def applyQuat (c : Csys) (q : Quat) : Csys :=
  ⟨c.O, q.apply c.x, q.apply c.y, q.apply c.z⟩

/-- The quaternion built by the `rotate_about_*` methods from an axis. -/
noncomputable def axisQuat (a : V3) (θ : ℝ) : Quat :=
  ⟨a.x * Real.sin (θ / 2), a.y * Real.sin (θ / 2), a.z * Real.sin (θ / 2), Real.cos (θ / 2)⟩

/-- `rotate_about_external_x` csys.py 84-86. -/
noncomputable def rotateExternalX (c : Csys) (θ : ℝ) : Csys := c.applyQuat (axisQuat ⟨1, 0, 0⟩ θ)
/-- `rotate_about_external_y` csys.py 88-90. -/
noncomputable def rotateExternalY (c : Csys) (θ : ℝ) : Csys := c.applyQuat (axisQuat ⟨0, 1, 0⟩ θ)
/-- `rotate_about_external_z` csys.py 92-94. -/
noncomputable def rotateExternalZ (c : Csys) (θ : ℝ) : Csys := c.applyQuat (axisQuat ⟨0, 0, 1⟩ θ)
/-- `rotate_about_x` csys.py 96-99. -/
noncomputable def rotateX (c : Csys) (θ : ℝ) : Csys := c.applyQuat (axisQuat c.x θ)
/-- `rotate_about_y` csys.py 101-104. -/
noncomputable def rotateY (c : Csys) (θ : ℝ) : Csys := c.applyQuat (axisQuat c.y θ)
/-- `rotate_about_z` csys.py 106-109. -/
noncomputable def rotateZ (c : Csys) (θ : ℝ) : Csys := c.applyQuat (axisQuat c.z θ)
/-- `rotate_about_vec` csys.py 111-122.  For a zero vector numpy gives NaN; callers of the model
must exclude it. -/
noncomputable def rotateVec (c : Csys) (v : V3) (θ : ℝ) : Csys := c.applyQuat (axisQuat v.unit θ)

/-- `align_with_global` csys.py 152-155. -/
noncomputable def alignWithGlobal (c : Csys) : Csys := ⟨c.O, ⟨1, 0, 0⟩, ⟨0, 1, 0⟩, ⟨0, 0, 1⟩⟩

/-- `set_by_3pts` csys.py 124-146.  The method stores the new axes in the attributes `__x`,
`__y`, `__z`, which nothing reads: the `x`, `y`, `z` and `transform_matrix` properties read `__T`,
which stays as it was; only the origin changes.  The method raises when
`||cos| - 1| < 1e-8`; for coincident points numpy divides by zero (NaN, comparison false), so
no exception is raised there.  `__O` has already been assigned when the exception is raised. -/
noncomputable def setBy3pts (c : Csys) (O A B : V3) : Csys × Except PyErr Unit :=
  let c' : Csys := ⟨O, c.x, c.y, c.z⟩
  let OA := A - O
  let OB := B - O
  if OA.norm = 0 ∨ OB.norm = 0 then (c', .ok ())
  else
    let cos := V3.dot OA OB / OA.norm / OB.norm
    if |(|cos| - 1)| < 1 / 10 ^ 8 then (c', .error .exception) else (c', .ok ())

end Csys
end Hyperstatic
