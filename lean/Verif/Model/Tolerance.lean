import Verif.Model.Shell

/-
Model of hyperstatic/common/tolerance.py with its setters, and of the constructors that ask for the tolerance each time they run:
`Cartesian` csys.py 10-58, `Line` line/__init__.py 11-20, `Tria` and `Quad`.  The other models have the default tolerance in them.
Numbers are real numbers; axes of nan are `none`.
-/

namespace Hyperstatic

/-- The class attributes of `Tolerance`, tolerance.py 3-4. -/
structure Tolerances where
  abs : ℝ
  rel : ℝ

/-- tolerance.py 3-4 -/
noncomputable def Tolerances.default : Tolerances := ⟨1 / 10 ^ 9, 1 / 10 ^ 6⟩

/-- `Tolerance.set_abs_tol(val)` tolerance.py 14-16, `Tolerance.set_rel_tol(val)` 18-20 -/
inductive TolCall
  | setAbs (val : ℝ)
  | setRel (val : ℝ)

/-- tolerance.py 14-20 -/
def Tolerances.step (s : Tolerances) : TolCall → Tolerances
  | .setAbs v => { s with abs := v }
  | .setRel v => { s with rel := v }

/-- calls one after the other -/
def Tolerances.run (s : Tolerances) (cs : List TolCall) : Tolerances := cs.foldl Tolerances.step s

/-- `Cartesian.__init__` csys.py 10-33 with the tolerance `t`.  Points in a line pass the test when `t` is not positive; then numpy divides
by zero and the axes are nan. -/
noncomputable def cartesianAt (t : ℝ) (O A B : V3) : Except PyErr (Option Csys) :=
  let OA := A - O
  let OB := B - O
  if (V3.cross OA OB).maxAbs < t then .error .exception
  else if (V3.cross OA OB).norm = 0 then .ok none
  else
    let x := V3.unit OA
    let z := V3.unit (V3.cross OA OB)
    .ok (some ⟨O, x, V3.cross z x, z⟩)

/-- `Cartesian.create_by_normal` csys.py 35-58 with the tolerance `t`.  A normal along the guide passes the test when `t` is not positive;
then `u` is nan, and so are the points given to the constructor, whose test nan passes. -/
noncomputable def byNormalAt (t : ℝ) (O normal guide : V3) : Except PyErr (Option Csys) :=
  if normal.norm = 0 ∨ guide.norm = 0 then .ok none
  else
    let w := V3.unit normal
    let g := V3.unit guide
    if V3.norm (w - g) < t ∨ V3.norm (w + g) < t then .error .exception
    else if (V3.cross g w).norm = 0 then .ok none
    else
      let u := V3.unit (V3.cross g w)
      let v := V3.cross w u
      cartesianAt t O (O + u) (O + v)

/-- `Line.__init__` line/__init__.py 11-20 with the tolerance `t`. -/
noncomputable def lineAt (t : ℝ) (start stop : V3) : Except PyErr (Option Csys) :=
  let o : V3 := ⟨(start.x + stop.x) / 2, (start.y + stop.y) / 2, (start.z + stop.z) / 2⟩
  let d := start - stop
  let pt2 : V3 := if max |d.x| |d.y| < t then o + ⟨1, 0, 0⟩ else o + ⟨0, 0, 1⟩
  cartesianAt t o stop pt2

/-- `Tria.__init__` tria/__init__.py 8-23 with the tolerance `t`. -/
noncomputable def triaAt (t : ℝ) (pi pj pk : V3) : Except PyErr (Option Csys) :=
  let o : V3 := ⟨(pi.x + pj.x + pk.x) / 3, (pi.y + pj.y + pk.y) / 3, (pi.z + pj.z + pk.z) / 3⟩
  let n := V3.cross (pi - pj) (pj - pk)
  if n.norm = 0 then .ok none
  else
    let n := n.unit
    if V3.norm (n - ez) < t then byNormalAt t o n ey else byNormalAt t o n ez

/-- `Quad.__init__` quad/__init__.py 8-20 with the tolerance `t`. -/
noncomputable def quadAt (t : ℝ) (pi pj pk pl : V3) : Except PyErr (Option Csys) :=
  let o : V3 := ⟨(pi.x + pj.x + pk.x + pl.x) / 4, (pi.y + pj.y + pk.y + pl.y) / 4, (pi.z + pj.z + pk.z + pl.z) / 4⟩
  let n := V3.cross (pi - pj) (pj - pk)
  if n.norm = 0 then .ok none
  else
    let n := n.unit
    if V3.norm (n - ez) < t ∨ V3.norm (n + ez) < t then byNormalAt t o n ey else byNormalAt t o n ez

end Hyperstatic
