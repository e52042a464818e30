import Verif.Model.Beam
import Mathlib.LinearAlgebra.Matrix.Determinant.Basic

/-
Model of the constructors in hyperstatic/core/fe_model/element/tria/__init__.py and
hyperstatic/core/fe_model/element/quad/__init__.py.
-/

namespace Hyperstatic

open Matrix

/-- the default guide `(0,0,1)` of `create_by_normal` (csys.py 36) -/
noncomputable def ez : V3 := ⟨0, 0, 1⟩
/-- the alternative guide `[0,1,0]` -/
noncomputable def ey : V3 := ⟨0, 1, 0⟩

/-- Local system of `Tria.__init__` tria/__init__.py 8-23.  `none`: the three nodes are collinear and numpy
produces a NaN system without raising. -/
noncomputable def triaCsys (pi pj pk : V3) : Except PyErr (Option Csys) :=
  let o : V3 := ⟨(pi.x + pj.x + pk.x) / 3, (pi.y + pj.y + pk.y) / 3, (pi.z + pj.z + pk.z) / 3⟩
  let n := V3.cross (pi - pj) (pj - pk)
  if n.norm = 0 then .ok none
  else
    let n := n.unit
    if V3.norm (n - ez) < absTol then Csys.createByNormal o n ey
    else Csys.createByNormal o n ez

/-- `Tria.area` tria/__init__.py 24-26: `0.5*det([[1,1,1],vj-vi,vk-vi])`. -/
noncomputable def triaArea (pi pj pk : V3) : ℝ :=
  let a := pj - pi
  let b := pk - pi
  0.5 * (!![1, 1, 1; a.x, a.y, a.z; b.x, b.y, b.z] : Matrix (Fin 3) (Fin 3) ℝ).det

/-- `Quad.area` quad/__init__.py 22-34: a quarter of the sum of four half determinants with a row of ones: `(j, k)`, `(l, k)`
and twice `(l, j)`, each pair seen from node `i`. -/
noncomputable def quadDet (pi pj pk pl : V3) : ℝ :=
  let half := fun u v : V3 => 0.5 * (!![1, 1, 1; u.x, u.y, u.z; v.x, v.y, v.z] : Matrix (Fin 3) (Fin 3) ℝ).det
  (half (pj - pi) (pk - pi) + half (pl - pi) (pk - pi) + half (pl - pi) (pj - pi) + half (pl - pi) (pj - pi)) / 4

/-- Local system of `Quad.__init__` quad/__init__.py 8-20. -/
noncomputable def quadCsys (pi pj pk pl : V3) : Except PyErr (Option Csys) :=
  let o : V3 := ⟨(pi.x + pj.x + pk.x + pl.x) / 4, (pi.y + pj.y + pk.y + pl.y) / 4,
    (pi.z + pj.z + pk.z + pl.z) / 4⟩
  let n := V3.cross (pi - pj) (pj - pk)
  if n.norm = 0 then .ok none
  else
    let n := n.unit
    if V3.norm (n - ez) < absTol ∨ V3.norm (n + ez) < absTol then Csys.createByNormal o n ey
    else Csys.createByNormal o n ez

/-- A `DKT` (3 nodes) or `DKGQ` (4 nodes) object: names and locations of its nodes, local system, section
(DKT.py 13-15, DKGQ.py 11-13). -/
structure ShellElm where
  name : String
  section_ : ShellSection
  nodes : List (String × V3)
  csys : Option Csys

/-- `DKT.__init__` DKT.py 13-15. -/
noncomputable def ShellElm.dkt? (name : String) (s : ShellSection) (a b c : Node) :
    Except PyErr ShellElm := do
  let cs ← triaCsys a.loc b.loc c.loc
  return ⟨name, s, [(a.name, a.loc), (b.name, b.loc), (c.name, c.loc)], cs⟩

/-- `DKGQ.__init__` DKGQ.py 11-13. -/
noncomputable def ShellElm.dkgq? (name : String) (s : ShellSection) (a b c d : Node) :
    Except PyErr ShellElm := do
  let cs ← quadCsys a.loc b.loc c.loc d.loc
  return ⟨name, s, [(a.name, a.loc), (b.name, b.loc), (c.name, c.loc), (d.name, d.loc)], cs⟩

end Hyperstatic
