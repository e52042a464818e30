import Verif.Model.Response

/-
Settings of analysis cases (hyperstatic/core/fe_model/load/loadcase.py), the methods `solve` of the solvers and
`solve_2nd_order` (fe_solver/static.py, fe_solver/dynamic.py), the branch of `assemble_M` for a case (assembly.py) and
`resolve_structural_reaction` (fe_post/structure.py).
-/

namespace Hyperstatic

open Matrix

/-- The settings of a `StaticCase`, loadcase.py 7-20, 49-53. -/
structure StaticSettings where
  order : ℕ
  baseCase : Option String

/-- `StaticCase(name,order,base_case)` loadcase.py 8-11: `self.__order=1`, the argument is not used. -/
def StaticSettings.new (_order : ℕ) (baseCase : Option String) : StaticSettings := ⟨1, baseCase⟩

/-- the setter of `order`, loadcase.py 17-20; the assertion raises -/
def StaticSettings.setOrder (s : StaticSettings) (val : ℕ) : Except PyErr StaticSettings :=
  if val ∈ [1, 2, 3] then .ok { s with order := val } else .error .exception

/-- The settings of a `ModalCase`, loadcase.py 55-75, 89-96. -/
structure ModalSettings where
  massSource : String
  useLoadAsMass : Bool
  nModes : ℕ
  baseCase : Option String
  algorithm : String

/-- `ModalCase(name,n_modes,base_case)` loadcase.py 56-63. -/
def ModalSettings.new (nModes : ℕ) (baseCase : Option String) : ModalSettings := ⟨"mass", false, nModes, baseCase, "eigen"⟩

/-- the setter of `use_load_as_mass`, loadcase.py 73-75 -/
def ModalSettings.setUseLoadAsMass (s : ModalSettings) (val : Bool) : ModalSettings := { s with useLoadAsMass := val }

/-- `algorithm` and `params` of a `TimeHistoryCase`, loadcase.py 124-138 -/
inductive TimeAlgorithm
  | unset
  | modalDecomposition (modalCase : String)
  | direct (stepSize dampingRatio : ℝ)

/-- The settings of a `TimeHistoryCase`, loadcase.py 120-138, 176-181. -/
structure TimeSettings where
  baseCase : Option String
  algorithm : TimeAlgorithm

/-- `TimeHistoryCase(name,base_case)` loadcase.py 121-125. -/
def TimeSettings.new (baseCase : Option String) : TimeSettings := ⟨baseCase, .unset⟩

/-- loadcase.py 127-131 -/
def TimeSettings.useModalDecomposition (s : TimeSettings) (modalCase : String) : TimeSettings :=
  { s with algorithm := .modalDecomposition modalCase }

/-- loadcase.py 133-138 -/
def TimeSettings.useDirect (s : TimeSettings) (stepSize dampingRatio : ℝ) : TimeSettings :=
  { s with algorithm := .direct stepSize dampingRatio }

/-- `assemble_M(casename)` assembly.py 182-218, `use` being the setting `use_load_as_mass` of the case.  Only a `ModalCase` has that
attribute.  `spr.diags` of the sparse column that `assemble_f` returns asks for its `len`, which raises `TypeError`. -/
noncomputable def Assembly.assembleMFor (a : Assembly) (use : Bool) (casename : Option String) : Except PyErr Coo :=
  match casename with
  | none => a.assembleM
  | some c => do
      let lc ← a.cases.getItem c
      if lc.kind = .modal then
        if use then do
          let _ ← a.assembleF c
          .error .typeError
        else a.assembleM
      else .error .attributeError

/-- `ModalSolver(workpath,filename).solve(casename)` dynamic.py 27-34; `s` are the settings of the case if it is a modal case.  The
returned value is `True` (`some true`) or `None`.  A time history case also has the setting `algorithm`, which is neither `'eigen'` nor
`'ritz'`. -/
noncomputable def solveModal {A : Type} (env : Env) (dyn : DynEnv) (fs : Dict (File A)) (filename casename : String) (s : ModalSettings) :
    Dict (File A) × Except PyErr (Option Bool) :=
  match openAssembly fs filename with
  | .error e => (fs, .error e)
  | .ok a =>
    match (do lookSetting a casename "algorithm"; a.cases.getItem casename) with
    | .error e => (fs, .error e)
    | .ok lc =>
      if lc.kind = .modal ∧ s.algorithm = "eigen" then
        match solveEigen env dyn fs filename casename ⟨s.nModes, s.baseCase⟩ with
        | (fs, .error e) => (fs, .error e)
        | (fs, .ok ()) => (fs, .ok (some true))
      else (fs, .ok none)

/-- `TimeHistorySolver(workpath,filename).solve(casename)` dynamic.py 165-171; `s` are the settings of the case if it is a time history
case.  `solve_modal_decomposition` has eight parameters and is given one. -/
noncomputable def solveTime {A : Type} (env : Env) (dyn : DynEnv) (fs : Dict (File A)) (filename casename : String) (s : TimeSettings) :
    Dict (File A) × Except PyErr Unit :=
  match openAssembly fs filename with
  | .error e => (fs, .error e)
  | .ok a =>
    match (do lookSetting a casename "algorithm"; a.cases.getItem casename) with
    | .error e => (fs, .error e)
    | .ok lc =>
      if lc.kind = .timeHistory then
        match s.algorithm with
        | .direct dt xi => solveDirect env dyn fs filename casename ⟨dt, xi, s.baseCase⟩
        | .modalDecomposition _ => (fs, checkArity 8 1)
        | .unset => (fs, .ok ())
      else (fs, .ok ())

/-- The numerical part of `solve_2nd_order` static.py 151-167, for a given stiffness. -/
noncomputable def solveCase2nd (dyn : DynEnv) (a : Assembly) (casename : String) (K : Coo) : Except PyErr (List ℝ) := do
  let f ← a.assembleF casename
  let K_ ← a.boundaryMatrix casename K
  let f_ ← a.boundaryVector casename f
  if h : f_.length = K_.nrow then do
    let delta := dyn.cg K_.nrow (K_.dense K_.nrow) (fun i => f_[i.val]'(by rw [h]; exact i.isLt))
    let rest ← solverRestraints a casename
    expandInsert a.model.nodeCount rest (List.ofFn delta)
  else .error .valueError

/-- `StaticSolver(workpath,filename).solve_2nd_order(casename,precase)` static.py 138-171.  With a `precase` the variable `K` is not
assigned, and its first use raises after `assemble_f`. -/
noncomputable def solve2nd {A : Type} (env : Env) (dyn : DynEnv) (fs : Dict (File A)) (filename casename : String) (precase : Option String) :
    Dict (File A) × Except PyErr Unit :=
  match openAssembly fs filename with
  | .error e => (fs, .error e)
  | .ok a =>
    match precase with
    | some _ => (fs, do let _ ← a.assembleF casename; .error .nameError)
    | none =>
      match cacheMatrix fs "0.k" (a.assembleK env) .stiff with
      | (fs, .error e) => (fs, .error e)
      | (fs, .ok K) =>
        match solveCase2nd dyn a casename K with
        | .error e => (fs, .error e)
        | .ok d => (Dict.set fs (casename ++ ".d" ++ ".npy") (.disp d), .ok ())

/-- `StructureResultResolver(workpath,filename).resolve_structural_reaction(casename)` fe_post/structure.py 26-35.  `np.load` refuses
files that hold pickled objects; what follows once it has read a numeric array is an arbitrary program here. -/
def resolveStructuralReaction {A : Type} (rest : Assembly → File A → Except PyErr ℝ) (fs : Dict (File A)) (filename casename : String) :
    Except PyErr ℝ := do
  let a ← openAssembly fs filename
  match fs.get? (casename ++ ".k.npy") with
  | none => .error .fileNotFound
  | some (.disp d) => rest a (.disp d)
  | some (.rows r) => rest a (.rows r)
  | some _ => .error .valueError

/-- One run of a solver on the work path of a session. -/
inductive SolverRun
  | linear (casename : String)
  | second (casename : String) (precase : Option String)
  | modal (casename : String) (s : ModalSettings)
  | time (casename : String) (s : TimeSettings)
  | spectrum (casename : String)

/-- The files after a run, whether it succeeds or raises.  (Nothing of the response spectrum solver is reached that writes, see
`solveSpectrum`.) -/
noncomputable def SolverRun.files {A : Type} (env : Env) (dyn : DynEnv) (filename : String) (fs : Dict (File A)) : SolverRun → Dict (File A)
  | .linear c => (solveLinear env fs filename c).1
  | .second c p => (solve2nd env dyn fs filename c p).1
  | .modal c s => (solveModal env dyn fs filename c s).1
  | .time c s => (solveTime env dyn fs filename c s).1
  | .spectrum c => (solveSpectrum (fun _ fs => (fs, .ok ())) fs filename c).1

end Hyperstatic
