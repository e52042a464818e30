import Verif.Model.Csys

/-
Model of `Model.find`, core/fe_model/model.py 331-350.  Nothing in the program calls it; it is a public method of the finite element model.
-/

namespace Hyperstatic

/-- What `find` reads of an object of the list: its coordinates and its attribute `hid`.  Objects of class `Node` have no such attribute
(its property is commented out, node.py 23-30): `none`. -/
structure SearchedNode where
  loc : V3
  hid : Option ℤ

/-- `dist=abs(nodes[0].x-target.x)+abs(nodes[0].y-target.y)+abs(nodes[0].z-target.z)` model.py 342 -/
noncomputable def gridDist (p q : V3) : ℝ := |p.x - q.x| + |p.y - q.y| + |p.z - q.z|

/-- `find(self,nodes,target,tol=1e-6)` model.py 331-350.  The answer `False` is `none`.  The recursive calls (350) do not pass `tol` on, and
`or` goes on to the second half when the first one answers `False` or 0. -/
noncomputable def findNode (nodes : List SearchedNode) (target : V3) (tol : ℝ) : Except PyErr (Option ℤ) :=
  match nodes with
  | [] => .ok none
  | [n] =>
    if gridDist n.loc target < tol then
      match n.hid with
      | some i => .ok (some i)
      | none => .error .attributeError
    else .ok none
  | a :: b :: rest =>
    let nodes := a :: b :: rest
    let mid := nodes.length / 2
    match findNode (nodes.take mid) target (1 / 10 ^ 6) with
    | .error e => .error e
    | .ok (some i) => if i = 0 then findNode (nodes.drop mid) target (1 / 10 ^ 6) else .ok (some i)
    | .ok none => findNode (nodes.drop mid) target (1 / 10 ^ 6)
termination_by nodes.length
decreasing_by all_goals (simp only [List.length_take, List.length_drop, List.length_cons]; omega)

end Hyperstatic
