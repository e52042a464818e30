import Verif.Model.FeModel

/-
Model of hyperstatic/core/fe_model/assembly.py (class `Assembly`).
-/

namespace Hyperstatic

open Matrix

/-- Everything the modelled code obtains from numerical libraries or from sympy-generated element code.
Theorems are stated for every `Env`; what they assume of it is explicit (`Env.SolverSound` below). -/
structure Env where
  /-- `T.T*Ke*T` of a 3-node shell (DKT.py 17-55, quadpy integration of generated code) -/
  triaK : ShellElm → Matrix (Fin 18) (Fin 18) ℝ
  /-- `T.T*Ke*T` of a 4-node shell (DKGQ.py 15-64) -/
  quadK : ShellElm → Matrix (Fin 24) (Fin 24) ℝ
  /-- `scipy.sparse.linalg.spsolve(A, f)` for a square matrix of order `n` -/
  spsolve : (n : ℕ) → Matrix (Fin n) (Fin n) ℝ → Vec n → Except PyErr (Vec n)

/-- The only assumption made about `spsolve`: for a non-singular matrix of positive order it returns a
solution.  Nothing is assumed for singular matrices (scipy returns NaN with a warning). -/
def Env.SolverSound (env : Env) : Prop :=
  ∀ (n : ℕ) (A : Matrix (Fin n) (Fin n) ℝ) (b : Vec n), 0 < n →
    (∀ v : Vec n, A *ᵥ v = 0 → v = 0) → ∃ x, env.spsolve n A b = .ok x ∧ A *ᵥ x = b

/-- `scipy.sparse.coo_matrix`: a shape and a list of (row, col, value) triplets. -/
structure Coo where
  nrow : ℕ
  ncol : ℕ
  ents : List (ℕ × ℕ × ℝ)

namespace Coo

/-- `spr.coo_matrix((data,(row,col)),shape=(m,n))`: raises `ValueError` when an index exceeds the shape. -/
noncomputable def mk? (m n : ℕ) (ents : List (ℕ × ℕ × ℝ)) : Except PyErr Coo :=
  if ents.all (fun e => decide (e.1 < m) && decide (e.2.1 < n)) then .ok ⟨m, n, ents⟩
  else .error .valueError

/-- The value of the matrix at a position: triplets with equal position add up. -/
noncomputable def get (A : Coo) (r c : ℕ) : ℝ :=
  (A.ents.map fun e => if e.1 = r ∧ e.2.1 = c then e.2.2 else 0).sum

end Coo

/-- `M.tocoo()` of a product of csr matrices: the non-zero entries (scipy's csr product does not store
zeros), row by row. -/
noncomputable def denseEntries {n : ℕ} (A : Matrix (Fin n) (Fin n) ℝ) : List (Fin n × Fin n × ℝ) :=
  (List.finRange n).flatMap fun r => (List.finRange n).filterMap fun c =>
    if A r c ≠ 0 then some (r, c, A r c) else none

/-- `i*6+r if r<6 else j*6+r-6` assembly.py 131-132, 214-215, 254. -/
def beamDof (i j r : ℕ) : ℕ := if r < 6 then i * 6 + r else j * 6 + r - 6

/-- The branches on `r` for a 4-node shell, assembly.py 142-159. -/
def quadDof (i j k l r : ℕ) : ℕ :=
  if r < 6 then i * 6 + r % 6
  else if r < 12 then j * 6 + r % 6
  else if r < 18 then k * 6 + r % 6
  else l * 6 + r % 6

/-- The branches on `r` for a 3-node shell, assembly.py 162-175. -/
def triaDof (i j k r : ℕ) : ℕ :=
  if r < 6 then i * 6 + r % 6
  else if r < 12 then j * 6 + r % 6
  else k * 6 + r % 6

/-- Renumber the triplets of an element matrix to global rows and columns. -/
noncomputable def scatter {n : ℕ} (dof : ℕ → ℕ) (A : Matrix (Fin n) (Fin n) ℝ) :
    List (ℕ × ℕ × ℝ) :=
  (denseEntries A).map fun e => (dof e.1.val, dof e.2.1.val, e.2.2)

/-- `fixed.append(i*6+j)` for the true flags of one node: assembly.py 23-25, 269-271, 305-307. -/
def flagDofs (hid : ℕ) (f : Flags) : List ℕ :=
  ((List.finRange 6).filter (fun j => f j)).map (fun j => hid * 6 + j.val)

/-- Loop over a restraint dictionary: assembly.py 21-26, 267-271, 303-307. -/
def restraintDofs (m : FeModel) (rest : Dict Flags) : Except PyErr (List ℕ) := do
  let ls ← rest.mapM (fun it => do
    let i ← m.getNodeHid it.1
    pure (flagDofs i it.2))
  return ls.flatten

/-- An `Assembly` object, assembly.py 13-26.  `heap` holds the pattern objects its load cases refer to. -/
structure Assembly where
  model : FeModel
  cases : Dict LoadCase
  heap : PatHeap
  dof : ℤ
  fixedDof : List ℕ

namespace Assembly

/-- `Assembly.__init__` assembly.py 13-26. -/
def mk? (model : FeModel) (loadcases : List LoadCase) (heap : PatHeap) : Except PyErr Assembly := do
  let cases : Dict LoadCase := loadcases.foldl (fun d lc => Dict.set d lc.name lc) []
  let fixed ← restraintDofs model model.restraints
  return ⟨model, cases, heap, (model.nodeCount * 6 : ℕ) - (fixed.length : ℕ), fixed⟩

/-- Triplets of one beam in `assemble_K`, assembly.py 124-132. -/
noncomputable def beamKTriplets (m : FeModel) (elm : String) : Except PyErr (List (ℕ × ℕ × ℝ)) := do
  let (i, j) ← m.getBeamNodeHids elm
  let b ← m.beams.getItem elm
  let T := b.T
  let Ke ← b.K
  let Ke := staticCondensate b.releases Ke
  let Ke_ := Tᵀ * Ke * T
  return scatter (beamDof i j) Ke_

/-- Triplets of one shell in `assemble_K`, assembly.py 133-178. -/
noncomputable def shellKTriplets (env : Env) (m : FeModel) (elm : String) :
    Except PyErr (List (ℕ × ℕ × ℝ)) := do
  let hids ← m.getShellNodeHids elm
  let s ← m.shells.getItem elm
  match hids with
  | [i, j, k, l] => return scatter (quadDof i j k l) (env.quadK s)
  | [i, j, k] => return scatter (triaDof i j k) (env.triaK s)
  | _ => return []

/-- `assemble_K` assembly.py 87-180. -/
noncomputable def assembleK (env : Env) (a : Assembly) : Except PyErr Coo := do
  let n := a.model.nodeCount
  let bs ← a.model.beams.keys.mapM (beamKTriplets a.model)
  let ss ← a.model.shells.keys.mapM (shellKTriplets env a.model)
  Coo.mk? (n * 6) (n * 6) (bs.flatten ++ ss.flatten)

/-- Triplets of the nodal masses, assembly.py 193-201: `spr.diags(self.mass, format="coo")` (node.py 84-85);
zeros on the diagonal do not contribute.  (`Tt=T.transpose` is unused.) -/
noncomputable def nodeMTriplets (m : FeModel) (node : String) : Except PyErr (List (ℕ × ℕ × ℝ)) := do
  let i ← m.getNodeHid node
  let n ← m.nodes.getItem node
  return ((List.finRange 6).filter (fun r => n.mass r ≠ 0)).map
    (fun r => (i * 6 + r.val, i * 6 + r.val, n.mass r))

/-- Triplets of one beam in `assemble_M`, assembly.py 203-215. -/
noncomputable def beamMTriplets (m : FeModel) (elm : String) : Except PyErr (List (ℕ × ℕ × ℝ)) := do
  let (i, j) ← m.getBeamNodeHids elm
  let b ← m.beams.getItem elm
  let T := b.T
  let Me := staticCondensate b.releases b.M
  let Me_ := Tᵀ * Me * T
  return scatter (beamDof i j) Me_

/-- `assemble_M()` (casename = None) assembly.py 182-218. -/
noncomputable def assembleM (a : Assembly) : Except PyErr Coo := do
  let n := a.model.nodeCount
  let ns ← a.model.nodes.keys.mapM (nodeMTriplets a.model)
  let bs ← a.model.beams.keys.mapM (beamMTriplets a.model)
  Coo.mk? (n * 6) (n * 6) (ns.flatten ++ bs.flatten)

/-- Triplets of one node in `assemble_f`, assembly.py 226-239; only non-zero components are stored. -/
noncomputable def nodeFTriplets (a : Assembly) (lc : LoadCase) (timeStep : ℕ) (node : String) :
    Except PyErr (List (ℕ × ℕ × ℝ)) := do
  let n ← a.model.nodes.getItem node
  let fn ← lc.getNodalF a.heap node timeStep
  let fn_ : Vec 6 := n.Tᵀ *ᵥ fn
  let hid ← a.model.getNodeHid node
  return ((List.finRange 6).filter (fun k => fn_ k ≠ 0)).map (fun k => (hid * 6 + k.val, 0, fn_ k))

/-- Triplets of one beam in `assemble_f`, assembly.py 241-256. -/
noncomputable def beamFTriplets (a : Assembly) (lc : LoadCase) (beam : String) :
    Except PyErr (List (ℕ × ℕ × ℝ)) := do
  let (i, j) ← a.model.getBeamNodeHids beam
  let b ← a.model.beams.getItem beam
  let re ← lc.getBeamF a.heap beam b.length
  let K ← b.K
  let re := staticCondensateF b.releases re K
  let re_ : Vec 12 := b.Tᵀ *ᵥ re
  return ((List.finRange 12).filter (fun k => re_ k ≠ 0)).map
    (fun k => (beamDof i j k.val, 0, re_ k))

/-- `assemble_f` assembly.py 220-258. -/
noncomputable def assembleF (a : Assembly) (casename : String) (timeStep : ℕ := 0) :
    Except PyErr Coo := do
  let lc ← a.cases.getItem casename
  let ns ← a.model.nodes.keys.mapM (nodeFTriplets a lc timeStep)
  let bs ← a.model.beams.keys.mapM (beamFTriplets a lc)
  Coo.mk? (a.model.nodeCount * 6) 1 (ns.flatten ++ bs.flatten)

/-- The list `fixed` computed in `assemble_boundary`, assembly.py 261-271. -/
def boundaryDofs (a : Assembly) (casename : String) : Except PyErr (List ℕ) := do
  let lc ← a.cases.getItem casename
  match lc.restraint with
  | [] => return a.fixedDof
  | rest => restraintDofs a.model rest

/-- One pass of the renumbering loop: `row[row>i]-=1`. -/
def shiftDown (i r : ℕ) : ℕ := if i < r then r - 1 else r

/-- `for i in reversed(sorted(indices)): row[row>i]-=1` applied to one index, assembly.py 284-286. -/
def renumber (indices : List ℕ) (r : ℕ) : ℕ :=
  (indices.mergeSort (· ≤ ·)).reverse.foldl (fun r i => shiftDown i r) r

/-- `__drop_matrix_dof` assembly.py 279-288.  A negative shape raises `ValueError`. -/
noncomputable def dropMatrixDof (M : Coo) (indices : List ℕ) : Except PyErr Coo :=
  let kept := M.ents.filter (fun e => decide (e.1 ∉ indices) && decide (e.2.1 ∉ indices))
  let ents := kept.map (fun e => (renumber indices e.1, renumber indices e.2.1, e.2.2))
  if indices.length ≤ M.nrow ∧ indices.length ≤ M.ncol then
    Coo.mk? (M.nrow - indices.length) (M.ncol - indices.length) ents
  else .error .valueError

/-- `__drop_vector_dof(V, indices).toarray()` assembly.py 290-292, 274: the kept entries of a column, as a
dense list. -/
noncomputable def dropVectorDof (V : Coo) (indices : List ℕ) : List ℝ :=
  ((List.range V.nrow).filter (fun i => decide (i ∉ indices))).map (fun i => V.get i 0)

/-- `assemble_boundary(casename, K)` for a matrix, assembly.py 260-277.  (The vector branch is taken iff a
dimension is 1; the order of a stiffness or mass matrix is a multiple of 6.) -/
noncomputable def boundaryMatrix (a : Assembly) (casename : String) (M : Coo) : Except PyErr Coo := do
  let fixed ← a.boundaryDofs casename
  dropMatrixDof M fixed

/-- `assemble_boundary(casename, f)` for a column vector, assembly.py 260-277. -/
noncomputable def boundaryVector (a : Assembly) (casename : String) (V : Coo) :
    Except PyErr (List ℝ) := do
  let fixed ← a.boundaryDofs casename
  return dropVectorDof V fixed

/-- `restraintDOF(casename)` assembly.py 294-308. -/
def restraintDOF (a : Assembly) (casename : Option String) : Except PyErr (List ℕ) :=
  match casename with
  | none => restraintDofs a.model a.model.restraints
  | some c => do
      let lc ← a.cases.getItem c
      restraintDofs a.model lc.restraint

end Assembly
end Hyperstatic
