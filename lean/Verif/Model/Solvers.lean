import Verif.Model.Dynamic

/-
Model of `StaticSolver.solve_linear` with all its arguments, hyperstatic/core/fe_solver/static.py 32-136.
-/

namespace Hyperstatic

open Matrix

/-- The other libraries `solve_linear` can use.  `none`: the library is not installed. -/
structure LinEnv where
  /-- `pypardiso.spsolve(A,b)`, static.py 96 -/
  pardiso : Option (∀ n : ℕ, Matrix (Fin n) (Fin n) ℝ → Vec n → Except PyErr (Vec n))
  /-- `cholmod.cholesky(A,beta,...).solve_A(b)`, static.py 102-103 -/
  cholmod : Option (∀ n : ℕ, Matrix (Fin n) (Fin n) ℝ → ℝ → Vec n → Except PyErr (Vec n))
  /-- `cholesky_precon(A)`, static.py 72-86, which also uses `f_`; every exception in it becomes an `Exception` -/
  precon : ∀ n : ℕ, Matrix (Fin n) (Fin n) ℝ → Vec n → Except PyErr (Matrix (Fin n) (Fin n) ℝ)
  /-- `sl.bicgstab(A,b,tol=1e-5,M=M,maxiter=30)`, static.py 109, with `M` from the given matrix: the last iterate and `info` -/
  bicgstab : ∀ n : ℕ, Matrix (Fin n) (Fin n) ℝ → Vec n → Matrix (Fin n) (Fin n) ℝ → Except PyErr (Vec n × ℤ)

/-- `np.max(np.abs(A.data))`, static.py 101.  scipy stores no entry that is zero in a sum of sparse matrices; for a matrix without
entries `np.max` raises `ValueError`. -/
noncomputable def maxStored {n : ℕ} (A : Matrix (Fin n) (Fin n) ℝ) : Except PyErr ℝ :=
  match (List.finRange n).flatMap (fun i => (List.finRange n).filterMap fun j => if A i j ≠ 0 then some |A i j| else none) with
  | [] => .error .valueError
  | x :: xs => .ok (xs.foldl max x)

/-- The branches on `use_solver`, static.py 91-115: `K` is `K_` and `A` its symmetric part.  An `ImportError` is an `exception`
here.  That `info` is not zero is only written to the log (110-113). -/
noncomputable def linSolve (env : Env) (lin : LinEnv) (useSolver : String) (n : ℕ) (K A : Matrix (Fin n) (Fin n) ℝ) (b : Vec n) :
    Except PyErr (Vec n) :=
  if useSolver = "direct" then env.spsolve n A b
  else if useSolver = "pardiso" then
    match lin.pardiso with
    | none => .error .exception
    | some s => match s n K b with
      | .ok x => .ok x
      | .error _ => .error .exception
  else if useSolver = "cholmod" then
    match lin.cholmod with
    | none => .error .exception
    | some s => do
      let m ← maxStored A
      s n A (-m * (1 / 10 ^ 20)) b
  else if useSolver = "pcg" then do
    let P ← lin.precon n K b
    let r ← lin.bicgstab n K b P
    return r.1
  else .error .exception

/-- static.py 45-132 for a given stiffness and solver. -/
noncomputable def solveCaseBy (env : Env) (lin : LinEnv) (useSolver : String) (a : Assembly) (casename : String) (K : Coo) :
    Except PyErr (List ℝ) := do
  let f ← a.assembleF casename
  let K_ ← a.boundaryMatrix casename K
  let f_ ← a.boundaryVector casename f
  if h : f_.length = K_.nrow then do
    let delta ← linSolve env lin useSolver K_.nrow (K_.dense K_.nrow) (symmetrised K_) (fun i => f_[i.val]'(by rw [h]; exact i.isLt))
    let rest ← solverRestraints a casename
    expandDisp a.model.nodeCount rest (List.ofFn delta)
  else .error .valueError

variable {A : Type}

/-- `StaticSolver(workpath,filename).solve_linear(casename,precase,use_solver)`, static.py 32-136.  With a `precase` the variable `K` is
not assigned (36-43) and its use in line 46 raises `UnboundLocalError`, unless line 45 raises before. -/
noncomputable def solveLinearBy (env : Env) (lin : LinEnv) (fs : Dict (File A)) (filename casename : String) (precase : Option String)
    (useSolver : String) : Dict (File A) × Except PyErr Unit :=
  match openAssembly fs filename with
  | .error e => (fs, .error e)
  | .ok a =>
    match precase with
    | some _ => (fs, do let _ ← a.assembleF casename; .error .nameError)
    | none =>
      if fs.contains "0.k" then (fs, .error .valueError)
      else match a.assembleK env with
        | .error e => (fs, .error e)
        | .ok K =>
            let fs := Dict.set fs "0.k.npy" (.stiff K)
            match solveCaseBy env lin useSolver a casename K with
            | .error e => (fs, .error e)
            | .ok d => (Dict.set fs (casename ++ ".d" ++ ".npy") (.disp d), .ok ())

end Hyperstatic
