import Verif.Model.Csys
import Verif.Model.Section
import Mathlib.Data.Matrix.Basic
import Mathlib.Data.Matrix.Mul
import Mathlib.LinearAlgebra.Matrix.Notation

/-
Model of hyperstatic/core/fe_model/node.py and of
hyperstatic/core/fe_model/element/line/{__init__,beam,simple_beam}.py.
-/

namespace Hyperstatic

open Matrix

/-- numpy vectors of fixed length. -/
abbrev Vec (n : ℕ) := Fin n → ℝ
/-- six boolean flags in the order u1,u2,u3,r1,r2,r3 -/
abbrev Flags := Fin 6 → Bool

/-- `Node` node.py 7-14.  The local system is built by the `Cartesian` constructor. -/
structure Node where
  name : String
  csys : Csys
  mass : Vec 6

namespace Node
/-- `Node.__init__` node.py 8-14. -/
noncomputable def mk? (name : String) (x y z : ℝ) : Except PyErr Node := do
  let c ← Csys.mk? ⟨x, y, z⟩ ⟨x + 1, y, z⟩ ⟨x, y + 1, z⟩
  return ⟨name, c, fun _ => 0⟩

/-- `Node.loc` node.py 32-34. -/
def loc (n : Node) : V3 := n.csys.O
end Node

/-- `Cartesian.transform_matrix` csys.py 80-82: the rows are the axes. -/
def Csys.T (c : Csys) : Matrix (Fin 3) (Fin 3) ℝ :=
  !![c.x.x, c.x.y, c.x.z; c.y.x, c.y.y, c.y.z; c.z.x, c.z.y, c.z.z]

/-- Block diagonal matrix with `k` copies of a 3x3 block: `T[3*i:3*i+3,3*i:3*i+3]=V`
(node.py 60-70 with k = 2, line/__init__.py 37-41 with k = 4, DKT.py 58-62 with k = 6,
DKGQ.py 66-71 with k = 8). -/
def blockDiag (k : ℕ) (V : Matrix (Fin 3) (Fin 3) ℝ) : Matrix (Fin (3 * k)) (Fin (3 * k)) ℝ :=
  fun i j => if i.val / 3 = j.val / 3 then
      V ⟨i.val % 3, Nat.mod_lt _ (by decide)⟩ ⟨j.val % 3, Nat.mod_lt _ (by decide)⟩
    else 0

/-- `Node.transform_matrix` node.py 60-70. -/
def Node.T (n : Node) : Matrix (Fin 6) (Fin 6) ℝ := blockDiag 2 n.csys.T

/-- `Line.__init__` line/__init__.py 11-20: local system of a line element. -/
noncomputable def lineCsys (start stop : V3) : Except PyErr Csys :=
  let o : V3 := ⟨(start.x + stop.x) / 2, (start.y + stop.y) / 2, (start.z + stop.z) / 2⟩
  let d := start - stop
  let pt2 : V3 := if max |d.x| |d.y| < absTol then o + ⟨1, 0, 0⟩ else o + ⟨0, 0, 1⟩
  Csys.mk? o stop pt2

/-- `Line.length` line/__init__.py 30-34. -/
noncomputable def lineLength (start stop : V3) : ℝ := V3.norm (start - stop)

/-- `Line.transform_matrix` line/__init__.py 36-41. -/
def lineT (c : Csys) : Matrix (Fin 12) (Fin 12) ℝ := blockDiag 4 c.T

/-- Mechanical constants read by `integrate_K`/`integrate_M`. -/
structure BeamConsts where
  E : ℝ
  G : ℝ
  A : ℝ
  I2 : ℝ
  I3 : ℝ
  J : ℝ
  rho : ℝ

/-- Where a beam takes its constants from: a section object (`Beam`, beam.py 13-19) or its own numbers
(`SimpleBeam`, simple_beam.py 11-35). -/
inductive BeamProp
  | sec (s : BeamSection)
  | simple (E mu A I2 I3 J rho : ℝ)

/-- beam.py 39-44 / simple_beam.py 57-65.  Evaluating the shear modulus can raise. -/
noncomputable def BeamProp.consts : BeamProp → Except PyErr BeamConsts
  | .sec s => do
      let G ← s.material.G
      return ⟨s.material.E, G, s.A, s.I22, s.I33, s.J, s.material.rho⟩
  | .simple E mu A I2 I3 J rho => do
      let G ← shearModulus E mu
      return ⟨E, G, A, I2, I3, J, rho⟩

/-- `spr.csr_matrix((data,(row,col)),shape=(m,n))`: entries with the same position are added. -/
noncomputable def ofTriplets {m n : ℕ} (es : List (ℝ × Fin m × Fin n)) : Matrix (Fin m) (Fin n) ℝ :=
  fun i j => (es.map fun e => if e.2.1 = i ∧ e.2.2 = j then e.1 else 0).sum

/-- The list `K_data` of beam.py 47-99 (identical in simple_beam.py 67-119). -/
noncomputable def beamKData (c : BeamConsts) (l : ℝ) : List (ℝ × Fin 12 × Fin 12) :=
  let E := c.E; let A := c.A; let I2 := c.I2; let I3 := c.I3; let G := c.G; let J := c.J
  [ (E*A / l, 0, 0),
    (-E*A / l, 0, 6),
    (-E*A / l, 6, 0),

    (12 * E*I3 / l / l / l, 1, 1),
    (6 * E*I3 / l / l, 1, 5),
    (6 * E*I3 / l / l, 5, 1),
    (-12 * E*I3 / l / l / l, 1, 7),
    (-12 * E*I3 / l / l / l, 7, 1),
    (6 * E*I3 / l / l, 1, 11),
    (6 * E*I3 / l / l, 11, 1),

    (12 * E*I2 / l / l / l, 2, 2),
    (-6 * E*I2 / l / l, 2, 4),
    (-6 * E*I2 / l / l, 4, 2),
    (-12 * E*I2 / l / l / l, 2, 8),
    (-12 * E*I2 / l / l / l, 8, 2),
    (-6 * E*I2 / l / l, 2, 10),
    (-6 * E*I2 / l / l, 10, 2),

    (G*J / l, 3, 3),
    (-G*J / l, 3, 9),
    (-G*J / l, 9, 3),

    (4 * E*I2 / l, 4, 4),
    (6 * E*I2 / l / l, 4, 8),
    (6 * E*I2 / l / l, 8, 4),
    (2 * E*I2 / l, 4, 10),
    (2 * E*I2 / l, 10, 4),

    (4 * E*I3 / l, 5, 5),
    (-6 * E*I3 / l / l, 5, 7),
    (-6 * E*I3 / l / l, 7, 5),
    (2 * E*I3 / l, 5, 11),
    (2 * E*I3 / l, 11, 5),

    (E*A / l, 6, 6),

    (12 * E*I3 / l / l / l, 7, 7),
    (-6 * E*I3 / l / l, 7, 11),
    (-6 * E*I3 / l / l, 11, 7),

    (12 * E*I2 / l / l / l, 8, 8),
    (6 * E*I2 / l / l, 8, 10),
    (6 * E*I2 / l / l, 10, 8),

    (G*J / l, 9, 9),

    (4 * E*I2 / l, 10, 10),

    (4 * E*I3 / l, 11, 11) ]

/-- `Beam.integrate_K` beam.py 38-105 / `SimpleBeam.integrate_K` simple_beam.py 54-125, for given constants. -/
noncomputable def beamK (c : BeamConsts) (l : ℝ) : Matrix (Fin 12) (Fin 12) ℝ :=
  ofTriplets (beamKData c l)

/-- The assignments of the consistent branch of `integrate_M` beam.py 112-152 / simple_beam.py 133-173,
before scaling.  Note that `_Me[6, 0]` is never assigned. -/
noncomputable def beamMConsistentData (c : BeamConsts) (l : ℝ) : List (ℝ × Fin 12 × Fin 12) :=
  let A := c.A; let J := c.J
  [ (140, 0, 0),
    (70, 0, 6),
    (156, 1, 1),
    (22 * l, 1, 5), (22 * l, 5, 1),
    (54, 1, 7), (54, 7, 1),
    (-13 * l, 1, 11), (-13 * l, 11, 1),
    (156, 2, 2),
    (-22 * l, 2, 4), (-22 * l, 4, 2),
    (54, 2, 8), (54, 8, 2),
    (13 * l, 2, 10), (13 * l, 10, 2),
    (140 * J / A, 3, 3),
    (70 * J / A, 3, 9), (70 * J / A, 9, 3),
    (4 * l * l, 4, 4),
    (-13 * l, 4, 8), (-13 * l, 8, 4),
    (-3 * l * l, 4, 10), (-3 * l * l, 10, 4),
    (4 * l * l, 5, 5),
    (13 * l, 5, 7), (13 * l, 7, 5),
    (-3 * l * l, 5, 11), (-3 * l * l, 11, 5),
    (140, 6, 6),
    (156, 7, 7),
    (-22 * l, 7, 11), (-22 * l, 11, 7),
    (156, 8, 8),
    (22 * l, 8, 10), (22 * l, 10, 8),
    (140 * J / A, 9, 9),
    (4 * l * l, 10, 10),
    (4 * l * l, 11, 11) ]

/-- `integrate_M(consistent=True)` beam.py 112-153. -/
noncomputable def beamMConsistent (c : BeamConsts) (l : ℝ) : Matrix (Fin 12) (Fin 12) ℝ :=
  (c.rho * c.A * l / 420) • ofTriplets (beamMConsistentData c l)

/-- `integrate_M()` (lumped, the default) beam.py 155-159: `eye(12)*rho*A*l/2`, then the rotational
diagonal entries 3,4,5,9,10,11 are overwritten with 1e-12. -/
noncomputable def beamMLumped (c : BeamConsts) (l : ℝ) : Matrix (Fin 12) (Fin 12) ℝ :=
  fun i j => if i = j then
      (if i ∈ ([3, 4, 5, 9, 10, 11] : List (Fin 12)) then 1 / 10 ^ 12 else c.rho * c.A * l / 2)
    else 0

/-- `static_condensate` beam.py 199-205 / simple_beam.py 218-224.  Every iteration starts again from the
original matrix `k`.  (`k[n,n] = 0` gives NaN/inf in numpy; the theorems about it assume non-zero pivots.) -/
noncomputable def staticCondensate (rel : Fin 12 → Bool) (k : Matrix (Fin 12) (Fin 12) ℝ) :
    Matrix (Fin 12) (Fin 12) ℝ :=
  (List.finRange 12).foldl
    (fun k_ n => if rel n then (fun i j => k i j - k i n * k n j / k n n) else k_) k

/-- `static_condensate_f` beam.py 207-214 / simple_beam.py 226-233. -/
noncomputable def staticCondensateF (rel : Fin 12 → Bool) (r : Vec 12)
    (k : Matrix (Fin 12) (Fin 12) ℝ) : Vec 12 :=
  (List.finRange 12).foldl
    (fun r_ n => if rel n then (fun j => r j - r n * k n j / k n n) else r_) r

/-- `interpolate` beam.py 175-185 / simple_beam.py 194-204. -/
noncomputable def beamInterpolate (l xi : ℝ) : Vec 12 :=
  let Na1 := 0.5 * (1 - xi)
  let Na2 := 0.5 * (1 + xi)
  let Nb1 := 1 - 3 * xi ^ 2 + 2 * xi ^ 3
  let Nb2 := (xi - 2 * xi ^ 2 + xi ^ 3) * l
  let Nb3 := 3 * xi ^ 2 - 2 * xi ^ 3
  let Nb4 := (xi ^ 3 - xi ^ 2) * l
  let Nt1 := 0.5 * (1 - xi)
  let Nt2 := 0.5 * (1 + xi)
  ![Na1, Na2, Nb1, Nb2, Nb3, Nb4, -Nb1, Nb2, -Nb3, Nb4, Nt1, Nt2]

/-- `interpolate1` beam.py 187-197 / simple_beam.py 206-216. -/
noncomputable def beamInterpolate1 (l xi : ℝ) : Vec 12 :=
  let Na1 := -0.5
  let Na2 := 0.5
  let Nb1 := -6 * xi + 6 * xi ^ 2
  let Nb2 := (1 - 4 * xi + 3 * xi ^ 2) * l
  let Nb3 := 6 * xi - 6 * xi ^ 2
  let Nb4 := (3 * xi ^ 2 - 2 * xi) * l
  let Nt1 := -0.5 * xi
  let Nt2 := 0.5 * xi
  fun i => ![Na1, Na2, Nb1, Nb2, Nb3, Nb4, -Nb1, Nb2, -Nb3, Nb4, Nt1, Nt2] i * (1 / l)

/-- A `Beam` or `SimpleBeam` object.  It keeps references to the two `Node` objects it was created with;
only their names and locations are ever read through it, and these never change, so they are stored
by value.  `rotation` and `offset` are never set through the API. -/
structure BeamElm where
  name : String
  startName : String
  startLoc : V3
  endName : String
  endLoc : V3
  csys : Csys
  releases : Fin 12 → Bool
  prop : BeamProp

namespace BeamElm

/-- `Beam.__init__` beam.py 13-19 / `SimpleBeam.__init__` simple_beam.py 11-35. -/
noncomputable def mk? (name : String) (n0 n1 : Node) (p : BeamProp) : Except PyErr BeamElm := do
  let c ← lineCsys n0.loc n1.loc
  return ⟨name, n0.name, n0.loc, n1.name, n1.loc, c, fun _ => false, p⟩

/-- `Line.length` -/
noncomputable def length (b : BeamElm) : ℝ := lineLength b.startLoc b.endLoc

/-- `Line.transform_matrix` -/
def T (b : BeamElm) : Matrix (Fin 12) (Fin 12) ℝ := lineT b.csys

/-- `integrate_K` beam.py 38-105, simple_beam.py 54-125 -/
noncomputable def K (b : BeamElm) : Except PyErr (Matrix (Fin 12) (Fin 12) ℝ) := do
  let c ← b.prop.consts
  return beamK c b.length

/-- `integrate_M()` beam.py 107-159, simple_beam.py 127-180; the mass branch does not read `G`. -/
noncomputable def M (b : BeamElm) : Matrix (Fin 12) (Fin 12) ℝ :=
  match b.prop with
  | .sec s => beamMLumped ⟨s.material.E, 0, s.A, s.I22, s.I33, s.J, s.material.rho⟩ b.length
  | .simple E _ A I2 I3 J rho => beamMLumped ⟨E, 0, A, I2, I3, J, rho⟩ b.length

end BeamElm
end Hyperstatic
