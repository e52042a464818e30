import Verif.Spec.Modes
import Verif.Spec.Frame
import Verif.Spec.Structure
import Verif.Model.Cases

/-
Vocabulary for the settings of analysis cases.
-/

namespace Hyperstatic.Spec
open Matrix

/-- A modal analysis as in `ModalReport`, but run by `ModalSolver.solve`, which reads the settings `s` of the case and returns True. -/
structure ModalRun (env : Env) (dyn : DynEnv) (pre : List Call) (lc : LoadCase) (s : ModalSettings) (omega : List ℝ)
    (shapes : List (List ℝ)) : Prop where
  readd : NoReadd env World.init pre
  shells : (World.init.run env pre).getShellNames = []
  wf : lc.restraint.WF
  run : ∃ (cases : List LoadCase) (heap : PatHeap) (x : Assembly) (A : Type) (fs fs' : Dict (File A)) (filename : String) (r : ModalFrequency),
    Assembly.mk? (World.init.run env pre).api.model cases heap = .ok x ∧ x.cases.get? lc.name = some lc ∧
    openAssembly fs filename = .ok x ∧
    filename ∉ ["0.k.npy", "0.m.npy", lc.name ++ ".d" ++ ".npy", lc.name ++ ".o" ++ ".npy"] ∧
    solveModal env dyn fs filename lc.name s = (fs', .ok (some true)) ∧
    resolveModalFrequency fs' filename lc.name = .ok r ∧ r.omega = omega ∧
    fs'.get? (lc.name ++ ".d" ++ ".npy") = some (.rows shapes)

/-- Inertial work when the nodal loads `F`, divided by the acceleration of gravity, are the only masses. -/
noncomputable def loadInertia (nodes : List String) (F : String → Vec 6) (v u : State) : ℝ :=
  (nodes.map fun n => ∑ r, F n r / 9.81 * (v n r * u n r)).sum

/-- As `Reports`, with `solve_2nd_order(c)` in place of `solve_static(c)`: after the history `pre`, `assemble()` and then any calls `mid`
other than `assemble()`, it returns, and then `result_get_nodal_displacement(n, c)` is `u n` for every node `n`. -/
structure SecondReports (env : Env) (dyn : DynEnv) (pre mid : List Call) (c : String) (u : State) : Prop where
  later : ∀ k ∈ mid, k ≠ .assemble
  ret : (solve2nd env dyn ((World.init.run env pre).run env (.assemble :: mid)).fs Api.filename c none).2 = .ok ()
  disp : ∀ n ∈ (nodeReg.run pre).cur.names,
    World.resultGetNodalDisplacement { (World.init.run env pre).run env (.assemble :: mid) with
      fs := (solve2nd env dyn ((World.init.run env pre).run env (.assemble :: mid)).fs Api.filename c none).1 } n c =
      some (List.ofFn (u n))

/-- The restraint table in force in the case `c` lists its nodes in the order in which the nodes were created. -/
def RestrainedInOrder (env : Env) (pre : List Call) (c : String) : Prop :=
  ∀ lc, (World.init.run env pre).api.loadcases.get? c = some lc →
    (governing (World.init.run env pre).api.model lc).keys.Sublist (World.init.run env pre).getNodeNames

/-- A history in which calls of the session and runs of the solvers on its work path alternate in any way. -/
noncomputable def runAll (env : Env) (dyn : DynEnv) (w : World) (h : List (Call ⊕ SolverRun)) : World :=
  h.foldl (fun w s => match s with
    | .inl c => (w.step env c).1
    | .inr r => { w with fs := r.files env dyn Api.filename w.fs }) w

end Hyperstatic.Spec
