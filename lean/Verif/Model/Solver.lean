import Verif.Model.Assembly

/-
Model of hyperstatic/core/fe_solver/{__init__,static}.py and of the files in the work path.
-/

namespace Hyperstatic

open Matrix

/-- Contents of a file of the work path.  `A` is the type of saved `Api` objects. -/
inductive File (A : Type)
  /-- a pickled `Assembly` (assembly.py 310-314) -/
  | asb (a : Assembly)
  /-- row 0 of the array written by `np.save(casename+'.d', d_)`, static.py 132-135 -/
  | disp (d : List ℝ)
  /-- the pickled stiffness written by `np.save('0.k', K)`, static.py 43 -/
  | stiff (K : Coo)
  /-- the pickled mass matrix written by `np.save('0.m', M)`, dynamic.py 56, 194 -/
  | mass (M : Coo)
  /-- a numeric array written row by row: mode shapes dynamic.py 69-70, eigenvalues (one row) 71-72, time history 235-236 -/
  | rows (r : List (List ℝ))
  /-- a pickled `Api` (core/__init__.py 53-54) -/
  | sep (a : A)
  /-- a file opened for writing (`'wb+'`, `np.save`) whose writer died before it was complete: neither `pickle.load` nor `np.load`
  can read it, both raise -/
  | broken

/-- The loop of static.py 125-130 over the indices `is`, with the remaining restraints and solver values;
`delta.pop(0)` on an empty list raises `IndexError`. -/
noncomputable def expandLoop : List ℕ → List ℕ → List ℝ → Except PyErr (List ℝ)
  | [], _, _ => .ok []
  | i :: is, r :: rs, delta =>
      if i = r then do
        let d ← expandLoop is rs delta
        return 0 :: d
      else match delta with
        | [] => .error .indexError
        | x :: xs => do
            let d ← expandLoop is (r :: rs) xs
            return x :: d
  | _ :: is, [], delta =>
      match delta with
      | [] => .error .indexError
      | x :: xs => do
          let d ← expandLoop is [] xs
          return x :: d

/-- static.py 122-132: sort the restraints and expand to all `n*6` degrees of freedom. -/
noncomputable def expandDisp (nodeCount : ℕ) (restraint : List ℕ) (delta : List ℝ) :
    Except PyErr (List ℝ) :=
  expandLoop (List.range (nodeCount * 6)) (restraint.mergeSort (· ≤ ·)) delta

/-- The restraints used for the expansion, static.py 118-120. -/
def solverRestraints (a : Assembly) (casename : String) : Except PyErr (List ℕ) := do
  let r ← a.restraintDOF (some casename)
  if r.length = 0 then a.restraintDOF none else return r

/-- `A=(K_+K_.T)/2` static.py 89, as a dense square matrix of order `K_.shape[0]`. -/
noncomputable def symmetrised (K : Coo) : Matrix (Fin K.nrow) (Fin K.nrow) ℝ :=
  fun i j => (K.get i.val j.val + K.get j.val i.val) / 2

/-- The numerical part of `solve_linear`, static.py 45-132, for a given stiffness.  `spsolve` raises when the
dimensions of matrix and right-hand side differ. -/
noncomputable def solveCase (env : Env) (a : Assembly) (casename : String) (K : Coo) :
    Except PyErr (List ℝ) := do
  let f ← a.assembleF casename
  let K_ ← a.boundaryMatrix casename K
  let f_ ← a.boundaryVector casename f
  if h : f_.length = K_.nrow then do
    let delta ← env.spsolve K_.nrow (symmetrised K_) (fun i => f_[i.val]'(by rw [h]; exact i.isLt))
    let rest ← solverRestraints a casename
    expandDisp a.model.nodeCount rest (List.ofFn delta)
  else .error .valueError

variable {A : Type}

/-- `Solver.__init__` fe_solver/__init__.py 11-15: read the pickled assembly. -/
def openAssembly (fs : Dict (File A)) (filename : String) : Except PyErr Assembly :=
  match fs.get? filename with
  | some (.asb a) => .ok a
  | some _ => .error .exception
  | none => .error .fileNotFound

/-- `StaticSolver(workpath,filename).solve_linear(casename)` static.py 32-136 with the default direct solver.
The stiffness is looked for under the name `0.k` but `np.save` writes it to `0.k.npy`; were a file `0.k`
present, `np.load` would raise (it is not an npy file written by this code).  The result pairs the new files with
success or the exception: files written before an exception stay. -/
noncomputable def solveLinear (env : Env) (fs : Dict (File A)) (filename casename : String) :
    Dict (File A) × Except PyErr Unit :=
  match openAssembly fs filename with
  | .error e => (fs, .error e)
  | .ok a =>
      if fs.contains "0.k" then (fs, .error .valueError)
      else match a.assembleK env with
        | .error e => (fs, .error e)
        | .ok K =>
            let fs := Dict.set fs "0.k.npy" (.stiff K)
            match solveCase env a casename K with
            | .error e => (fs, .error e)
            | .ok d => (Dict.set fs (casename ++ ".d" ++ ".npy") (.disp d), .ok ())

/-- `np.insert(delta, i, 0, 0)`: insert a zero before position `i`; raises when `i` is beyond the end. -/
noncomputable def npInsertZero (delta : List ℝ) (i : ℕ) : Except PyErr (List ℝ) :=
  if i ≤ delta.length then .ok (delta.take i ++ 0 :: delta.drop i) else .error .indexError

/-- static.py 161-167 (`solve_2nd_order`): zeros are inserted in the order of the restraint table, then
`reshape` to `6n` entries (raises when the size differs). -/
noncomputable def expandInsert (nodeCount : ℕ) (restraint : List ℕ) (delta : List ℝ) :
    Except PyErr (List ℝ) := do
  let d ← restraint.foldlM npInsertZero delta
  if d.length = nodeCount * 6 then return d else .error .valueError

end Hyperstatic
