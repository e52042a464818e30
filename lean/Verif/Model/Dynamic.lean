import Verif.Model.Post
import Mathlib.Analysis.SpecialFunctions.Trigonometric.Basic

/-
Model of hyperstatic/core/fe_solver/dynamic.py and of hyperstatic/core/fe_post/structure.py.
-/

namespace Hyperstatic

open Matrix

/-- What dynamic.py obtains from scipy and numpy.  Theorems are stated for every `DynEnv`; what they assume of it is explicit. -/
structure DynEnv where
  /-- `sl.eigsh(K, k, M, sigma=0, which='LM')` dynamic.py 64: `k` pairs of eigenvalue and mode shape -/
  eigsh : (n : ℕ) → Matrix (Fin n) (Fin n) ℝ → ℕ → Matrix (Fin n) (Fin n) ℝ → Except PyErr (List (ℝ × Vec n))
  /-- first component of `sl.cg(A, b)` dynamic.py 231 -/
  cg : (n : ℕ) → Matrix (Fin n) (Fin n) ℝ → Vec n → Vec n
  /-- `np.linalg.solve(A, b)` dynamic.py 328, 365 -/
  solve : (n : ℕ) → Matrix (Fin n) (Fin n) ℝ → Vec n → Except PyErr (Vec n)

/-- `eigsh` returns as many pairs as asked for, each an eigenvalue of the pencil with a non-zero mode shape. -/
def DynEnv.EigSound (d : DynEnv) : Prop :=
  ∀ n K k M l, d.eigsh n K k M = .ok l → l.length = k ∧ ∀ p ∈ l, p.2 ≠ 0 ∧ K *ᵥ p.2 = p.1 • (M *ᵥ p.2)

/-- `cg` solves every system that has a solution. -/
def DynEnv.CgSound (d : DynEnv) : Prop :=
  ∀ n A b, (∃ x, A *ᵥ x = b) → A *ᵥ d.cg n A b = b

/-- What `np.linalg.solve` returns is a solution. -/
def DynEnv.SolveSound (d : DynEnv) : Prop :=
  ∀ n A b x, d.solve n A b = .ok x → A *ᵥ x = b

/-- A sparse matrix as a dense square matrix of order `n`. -/
noncomputable def Coo.dense (A : Coo) (n : ℕ) : Matrix (Fin n) (Fin n) ℝ := fun i j => A.get i.val j.val

/-- `base_case` as used in the file names: dynamic.py 41-45, 180-183.  The variable is assigned only when the setting is
`None`, otherwise its first use raises `UnboundLocalError`. -/
def baseCaseName (setting : Option String) : Except PyErr String :=
  match setting with
  | none => .ok "0"
  | some _ => .error .nameError

/-- `if os.path.exists(base+ext): np.load(...) else: assemble and np.save(...)` dynamic.py 45-56, 183-194.  `np.save` appends
`.npy`, so the name looked for is never written; were it present, `np.load` would raise. -/
def cacheMatrix {A : Type} (fs : Dict (File A)) (name : String) (mk : Except PyErr Coo) (file : Coo → File A) :
    Dict (File A) × Except PyErr Coo :=
  if fs.contains name then (fs, .error .valueError)
  else match mk with
    | .error e => (fs, .error e)
    | .ok K => (Dict.set fs (name ++ ".npy") (file K), .ok K)

/-- `assembly.get_loadcase_setting(casename)` followed by the look-up of a key that only cases of one kind have: assembly.py 63-65,
loadcase.py 49-53, 89-96, 112-118, 176-181. -/
def caseOfKind (a : Assembly) (casename : String) (k : CaseKind) : Except PyErr LoadCase := do
  let lc ← a.cases.getItem casename
  if lc.kind = k then return lc else .error .keyError

/-- Settings of a `ModalCase` read by the solver, loadcase.py 89-96. -/
structure ModalSetting where
  nModes : ℕ
  baseCase : Option String

/-- The numerical part of `solve_eigen` dynamic.py 58-67: eigenvalues and mode shapes of the reduced system.  (`assembly.DOF`
is taken as 0 when negative.) -/
noncomputable def eigenPairs (dyn : DynEnv) (a : Assembly) (casename : String) (nModes : ℕ) (K M : Coo) :
    Except PyErr (List (ℝ × List ℝ)) := do
  let K_ ← a.boundaryMatrix casename K
  let M_ ← a.boundaryMatrix casename M
  let k := if a.dof < (nModes : ℤ) then a.dof.toNat else nModes
  if M_.nrow = K_.nrow then do
    let l ← dyn.eigsh K_.nrow (K_.dense K_.nrow) k (M_.dense K_.nrow)
    return l.map (fun p => (p.1, List.ofFn p.2))
  else .error .valueError

/-- `ModalSolver(workpath,filename).solve_eigen(casename)` dynamic.py 36-73.  Mode shapes go to `casename.d.npy`, one per row,
without expansion to the restrained degrees of freedom; the eigenvalues go to `casename.o.npy`. -/
noncomputable def solveEigen {A : Type} (env : Env) (dyn : DynEnv) (fs : Dict (File A)) (filename casename : String) (s : ModalSetting) :
    Dict (File A) × Except PyErr Unit :=
  match openAssembly fs filename with
  | .error e => (fs, .error e)
  | .ok a =>
    match (do let _ ← caseOfKind a casename .modal; baseCaseName s.baseCase) with
    | .error e => (fs, .error e)
    | .ok base =>
      match cacheMatrix fs (base ++ ".k") (a.assembleK env) .stiff with
      | (fs, .error e) => (fs, .error e)
      | (fs, .ok K) =>
        match cacheMatrix fs (base ++ ".m") a.assembleM .mass with
        | (fs, .error e) => (fs, .error e)
        | (fs, .ok M) =>
          match eigenPairs dyn a casename s.nModes K M with
          | .error e => (fs, .error e)
          | .ok l =>
            (Dict.set (Dict.set fs (casename ++ ".d" ++ ".npy") (.rows (l.map Prod.snd))) (casename ++ ".o" ++ ".npy")
              (.rows [l.map Prod.fst]), .ok ())

/-- Result of `resolve_modal_frequency`, fe_post/structure.py 20-24. -/
structure ModalFrequency where
  omega : List ℝ
  f : List ℝ
  T : List ℝ

/-- `StructureResultResolver(workpath,filename).resolve_modal_frequency(casename)` fe_post/structure.py 15-24.  (`2*np.pi/0` is
`inf` in numpy and 0 here.) -/
noncomputable def resolveModalFrequency {A : Type} (fs : Dict (File A)) (filename casename : String) :
    Except PyErr ModalFrequency := do
  let _ ← openAssembly fs filename
  match fs.get? (casename ++ ".o.npy") with
  | some (.rows r) =>
      let omega := r.flatten
      let T := omega.map (fun w => 2 * Real.pi / w)
      let f := T.map (fun t => 1 / t)
      return ⟨omega, f, T⟩
  | some _ => .error .exception
  | none => .error .fileNotFound

/-- The factor of the mass matrix, dynamic.py 203-205. -/
noncomputable def rayleighA0 (xi_i xi_j T_i T_j : ℝ) : ℝ :=
  let omega_i := 2 * Real.pi / T_i
  let omega_j := 2 * Real.pi / T_j
  2 * omega_i * omega_j / (omega_j ^ 2 - omega_i ^ 2) * (xi_i * omega_j - xi_j * omega_i)

/-- The factor of the stiffness matrix, dynamic.py 203-206. -/
noncomputable def rayleighA1 (xi_i xi_j T_i T_j : ℝ) : ℝ :=
  let omega_i := 2 * Real.pi / T_i
  let omega_j := 2 * Real.pi / T_j
  2 * omega_i * omega_j / (omega_j ^ 2 - omega_i ^ 2) * (-xi_i / omega_j + xi_j / omega_i)

/-- `C=(a0*M+a1*K).tocoo()` dynamic.py 199-207, with the ratios and periods written in the code. -/
noncomputable def rayleighC (K M : Coo) : Coo :=
  let a0 := rayleighA0 0.05 0.02 2 1
  let a1 := rayleighA1 0.05 0.02 2 1
  ⟨M.nrow, M.ncol, M.ents.map (fun e => (e.1, e.2.1, a0 * e.2.2)) ++ K.ents.map (fun e => (e.1, e.2.1, a1 * e.2.2))⟩

/-- Settings of a `TimeHistoryCase` after `use_direct_time_integration`, loadcase.py 133-138, 176-181. -/
structure DirectSetting where
  stepSize : ℝ
  dampingRatio : ℝ
  baseCase : Option String

/-- `u[i,:]` with Python's wrap-around for `i = -1`, dynamic.py 230: `u[t-1,:]` is the last row when `t` is 0. -/
def prevRow {n : ℕ} (u : List (Vec n)) (t : ℕ) : Vec n :=
  if t = 0 then u.getLastD 0 else u.getD (t - 1) 0

/-- One pass of the loop dynamic.py 227-232.  `f_.reshape(1,6)` raises unless there are exactly six free degrees of freedom. -/
noncomputable def centralStep (dyn : DynEnv) (a : Assembly) (casename : String) (n : ℕ) (K M C : Matrix (Fin n) (Fin n) ℝ) (dt : ℝ)
    (u : List (Vec n)) (t : ℕ) : Except PyErr (List (Vec n)) := do
  let c0 := 1 / dt / dt
  let c1 := 1 / 2 / dt
  let c2 := 2 * c0
  let Mhat := c0 • M + c1 • C
  let f ← a.assembleF casename t
  let f_ ← a.boundaryVector casename f
  if h : f_.length = 6 ∧ n = 6 then do
    let fv : Vec n := fun i => f_[i.val]'(by have := i.isLt; omega)
    let fhat := fv - (K - c2 • M) *ᵥ u.getD t 0 - (c0 • M - c1 • C) *ᵥ prevRow u t
    return u ++ [dyn.cg n Mhat fhat]
  else .error .valueError

/-- dynamic.py 216-237: start from two zero rows (times `-dt` and 0), `range(tmin)` passes, drop the first row.  A zero step
size divides by zero; without load curves `tmin` is the float 1e20, which `range` refuses. -/
noncomputable def centralDifference (dyn : DynEnv) (a : Assembly) (casename : String) (n : ℕ) (K M C : Matrix (Fin n) (Fin n) ℝ)
    (dt : ℝ) : Except PyErr (List (Vec n)) := do
  if dt = 0 then .error .zeroDivision
  else do
    let lc ← a.cases.getItem casename
    match lc.getMaxMinStep.2 with
    | none => .error .typeError
    | some tmin =>
        let u ← (List.range tmin).foldlM (centralStep dyn a casename n K M C dt) [0, 0]
        return u.tail

/-- `TimeHistorySolver(workpath,filename).solve_direct_time_integration(casename)` dynamic.py 173-237.  The damping ratio of the
setting is read (line 178) and not used. -/
noncomputable def solveDirect {A : Type} (env : Env) (dyn : DynEnv) (fs : Dict (File A)) (filename casename : String) (s : DirectSetting) :
    Dict (File A) × Except PyErr Unit :=
  match openAssembly fs filename with
  | .error e => (fs, .error e)
  | .ok a =>
    match (do let _ ← caseOfKind a casename .timeHistory; baseCaseName s.baseCase) with
    | .error e => (fs, .error e)
    | .ok base =>
      match cacheMatrix fs (base ++ ".k") (a.assembleK env) .stiff with
      | (fs, .error e) => (fs, .error e)
      | (fs, .ok K) =>
        match cacheMatrix fs (base ++ ".m") a.assembleM .mass with
        | (fs, .error e) => (fs, .error e)
        | (fs, .ok M) =>
          match (do
            let K_ ← a.boundaryMatrix casename K
            let M_ ← a.boundaryMatrix casename M
            let C_ ← a.boundaryMatrix casename (rayleighC K M)
            let u ← centralDifference dyn a casename K_.nrow (K_.dense _) (M_.dense _) (C_.dense _) s.stepSize
            pure (u.map List.ofFn)) with
          | .error e => (fs, .error e)
          | .ok u => (Dict.set fs (casename ++ ".d" ++ ".npy") (.rows u), .ok ())

/-- Displacement, velocity and acceleration at one time. -/
structure Motion (n : ℕ) where
  u : Vec n
  v : Vec n
  a : Vec n

/-- The integration constants, dynamic.py 315-320 (Newmark) and 347-352 (Wilson, there with `theta*dt` for `dt`;
`(1/2-beta)/beta` and `1/2/beta-1` are equal). -/
structure StepConsts where
  b1 : ℝ
  b2 : ℝ
  b3 : ℝ
  b4 : ℝ
  b5 : ℝ
  b6 : ℝ

/-- dynamic.py 315-320; division by zero when `beta` or `dt` is 0. -/
noncomputable def newmarkConsts (beta gamma dt : ℝ) : Except PyErr StepConsts :=
  if beta * dt = 0 then .error .zeroDivision
  else
    let b1 := 1 / (beta * dt * dt)
    let b2 := -1 / (beta * dt)
    let b3 := 1 / 2 / beta - 1
    let b4 := gamma * dt * b1
    let b5 := 1 + gamma * dt * b2
    let b6 := dt * (1 + gamma * b3 - gamma)
    .ok ⟨b1, b2, b3, b4, b5, b6⟩

/-- The state at the end of the (extended) step: dynamic.py 327-330 and 364-367. -/
noncomputable def implicitStep (dyn : DynEnv) {n : ℕ} (K C M : Matrix (Fin n) (Fin n) ℝ) (b : StepConsts) (s : Motion n) (ft : Vec n) :
    Except PyErr (Motion n) := do
  let K_ := K + b.b4 • C + b.b1 • M
  let ft_ := ft + M *ᵥ (b.b1 • s.u - b.b2 • s.v - b.b3 • s.a) + C *ᵥ (b.b4 • s.u - b.b5 • s.v - b.b6 • s.a)
  let ut ← dyn.solve n K_ ft_
  let vt := b.b4 • (ut - s.u) + b.b5 • s.v + b.b6 • s.a
  let at_ := b.b1 • (ut - s.u) + b.b2 • s.v + b.b3 • s.a
  return ⟨ut, vt, at_⟩

/-- `T[1]-T[0]` -/
def uniformStep (T : List ℝ) : Except PyErr ℝ :=
  match T with
  | t0 :: t1 :: _ => .ok (t1 - t0)
  | _ => .error .indexError

/-- The loop over `zip(T,F)`: every new state is appended to the ones before, dynamic.py 326-334, 363-376. -/
def marchFrom {n : ℕ} (step : Motion n → Vec n → Except PyErr (Motion n)) (s : Motion n) :
    List (ℝ × Vec n) → Except PyErr (List (ℝ × Motion n))
  | [] => .ok []
  | (t, ft) :: rest => do
      let s' ← step s ft
      let l ← marchFrom step s' rest
      return (t, s') :: l

/-- The body of `solve_Newmark_beta` dynamic.py 314-336: rows `(t, u, v, a)` of the table.  As written the function cannot run:
it has no parameter `self`, so `self.K` in line 321 raises `NameError`; the three matrices are parameters here. -/
noncomputable def newmarkBeta (dyn : DynEnv) {n : ℕ} (K C M : Matrix (Fin n) (Fin n) ℝ) (T : List ℝ) (F : List (Vec n)) (s0 : Motion n)
    (beta gamma : ℝ) : Except PyErr (List (ℝ × Motion n)) := do
  let dt ← uniformStep T
  let b ← newmarkConsts beta gamma dt
  let l ← marchFrom (implicitStep dyn K C M b) s0 (T.zip F)
  return (0, s0) :: l

/-- One step of Wilson's method, dynamic.py 364-371. -/
noncomputable def wilsonStep (dyn : DynEnv) {n : ℕ} (K C M : Matrix (Fin n) (Fin n) ℝ) (b : StepConsts) (dt beta gamma theta : ℝ)
    (s : Motion n) (ft : Vec n) : Except PyErr (Motion n) := do
  let e ← implicitStep dyn K C M b s ft
  let at_ := s.a + (1 / theta) • (e.a - s.a)
  let vt := s.v + dt • ((1 - gamma) • s.a + gamma • at_)
  let ut := s.u + dt • s.v + ((1 / 2 - beta) * dt ^ 2) • s.a + (beta * dt ^ 2) • at_
  return ⟨ut, vt, at_⟩

/-- The extrapolated loads, dynamic.py 359-361: `R_[0] = F[0]`, `R_[i+1] = F[i]+theta*(F[i+1]-F[i])`. -/
def wilsonLoads {n : ℕ} (theta : ℝ) : List (Vec n) → Except PyErr (List (Vec n))
  | [] => .error .indexError
  | f0 :: rest => .ok (f0 :: List.zipWith (fun f f' => f + theta • (f' - f)) (f0 :: rest) rest)

/-- The body of `solve_Wilson_theta` dynamic.py 345-378; like `solve_Newmark_beta` it refers to an undefined `self`, so it cannot
run as written; the three matrices are parameters here. -/
noncomputable def wilsonTheta (dyn : DynEnv) {n : ℕ} (K C M : Matrix (Fin n) (Fin n) ℝ) (T : List ℝ) (F : List (Vec n)) (s0 : Motion n)
    (beta gamma theta : ℝ) : Except PyErr (List (ℝ × Motion n)) := do
  let dt ← uniformStep T
  let b ← newmarkConsts beta gamma (theta * dt)
  let R ← wilsonLoads theta F
  let l ← marchFrom (wilsonStep dyn K C M b dt beta gamma theta) s0 (T.zip R)
  return (0, s0) :: l

end Hyperstatic
