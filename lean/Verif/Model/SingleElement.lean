import Verif.Model.ThickPlate

/-
Model of the elements `GQ12` (membrane) and `TMQ` (thick plate) used on their own: element/quad/GQ12.py and TMQ.py.  They have three
components at a node and no call of the Api makes them; a script takes `integrate_K()` and `transform_matrix` from the object and forms
`T.T*K*T` as assembly.py 135-137 does for the elements of a model.  Axes of nan are `none`.  (`T9` in element/tria/T9.py gives the
routine of `GQ12` too few arguments and `GT9` gives the constructor of `Tria` too many, so these two always raise `TypeError`.)
-/

namespace Hyperstatic
open Matrix

/-- `transform_matrix` GQ12.py 43-47, TMQ.py 56-60: the three components of each node are multiplied by the matrix of the local system -/
def nodeT (c : Csys) : Matrix (Fin 4 × Fin 3) (Fin 4 × Fin 3) ℝ := fun p q => if p.1 = q.1 then c.T p.2 q.2 else 0

/-- `T.T*K*T` of a `GQ12` made with these four points: GQ12.py 10-47; coordinates from the origin of the local system (21-22) -/
noncomputable def gq12Alone (q : Scheme) (s : ShellSection) (p : Fin 4 → V3) :
    Except PyErr (Option (Matrix (Fin 4 × Fin 3) (Fin 4 × Fin 3) ℝ)) :=
  (quadCsys (p 0) (p 1) (p 2) (p 3)).map (Option.map fun c =>
    (nodeT c)ᵀ * q.integrate (GQ12.BDB s.material.E s.material.mu s.t (planeX c p) (planeY c p)) * nodeT c)

/-- `T.T*K*T` of a `TMQ` made with these four points: TMQ.py 11-60; coordinates without subtraction of the origin (30) -/
noncomputable def tmqAlone (q : Scheme) (s : ShellSection) (p : Fin 4 → V3) :
    Except PyErr (Option (Matrix (Fin 4 × Fin 3) (Fin 4 × Fin 3) ℝ)) :=
  (quadCsys (p 0) (p 1) (p 2) (p 3)).map (Option.map fun c =>
    (nodeT c)ᵀ * tmqK q s (fun i => c.x.dot (p i)) (fun i => c.y.dot (p i)) * nodeT c)

end Hyperstatic
