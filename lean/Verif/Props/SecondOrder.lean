import Verif.Lemmas.SecondOrder
import Verif.Props.Cases
import Verif.Props.Frame

/-
C151: second-order analysis; C152: the reaction of the whole structure.
-/

namespace Hyperstatic
open Matrix Spec

/-! ### C151 Second-order analysis reports an equilibrium configuration -/

/-- C151: wherever the linear analysis of a stable frame answers, `solve_2nd_order` answers too, with displacements in equilibrium with the
loads (the least one can ask: no change of geometry is asked for). -/
def C151_claim : Prop :=
  ∀ (env : Env), env.SolverSound → ∀ dyn : DynEnv, dyn.CgSound → ∀ (pre mid : List Call), PlainFrame env pre →
    ∀ (c : String) (P : Problem), Poses pre c P → P.frame.Stable P.nodes P.fix → ∀ u, Reports env pre mid c u →
    ∃ u', SecondReports env dyn pre mid c u' ∧ Obeys P.fix u' ∧ ∀ v, Obeys P.fix v → P.frame.internal v u' = P.load v

/-- A second-order analysis that is to start from another case always raises, and leaves the files as they are. -/
theorem C151_precase_stops {A : Type} (env : Env) (dyn : DynEnv) (fs : Dict (File A)) (filename c p : String) :
    ∃ e, solve2nd env dyn fs filename c (some p) = (fs, .error e) := by
  unfold solve2nd
  cases ho : openAssembly fs filename with
  | error e => exact ⟨e, rfl⟩
  | ok a =>
    simp only
    cases hf : a.assembleF c with
    | error e => exact ⟨e, by rw [Except.bind_error]⟩
    | ok f => exact ⟨.nameError, by rw [Except.bind_ok]⟩

/-- C151 for cases whose restraints were set in the order of the nodes: `solve_2nd_order` reports the displacements of the linear analysis.
They balance the loads on the undeformed structure: there is no second-order effect. -/
theorem C151_same_partial (env : Env) (henv : env.SolverSound) (dyn : DynEnv) (hdyn : dyn.CgSound) (pre mid : List Call)
    (hF : PlainFrame env pre) (c : String) (P : Problem) (hD : Poses pre c P) (hst : P.frame.Stable P.nodes P.fix)
    (hord : RestrainedInOrder env pre c) (u : State) (hu : Reports env pre mid c u) :
    SecondReports env dyn pre mid c u ∧
    ∃ u', (∀ n ∈ P.nodes, u n = u' n) ∧ Obeys P.fix u' ∧ ∀ v, Obeys P.fix v → P.frame.internal v u' = P.load v := by
  refine ⟨?_, reports_equilibrium henv hF hD hst hu⟩
  set w₀ := World.init.run env pre with hw₀
  set w₁ := w₀.run env (.assemble :: mid) with hw₁
  have hbp := blueprint_refined env pre
  have hrest := restReg_refined env pre
  have hnode := (C02_node_registry env pre).1
  have hA := (ApiInv_run env pre).1
  have h := (FreshInv_run env pre hF.readd).1
  rw [← hw₀] at hbp hrest hnode hA h
  obtain ⟨g, names, hc, hl, -⟩ := hD.load
  rw [← caseReg_refined env pre hF.recreate, ← hw₀] at hc
  simp only [absReg, Option.map_eq_some_iff] at hc
  obtain ⟨lc, hlc, -⟩ := hc
  have hshells : w₀.api.model.shells = [] := by
    have : w₀.api.model.shells.keys = [] := hF.shells
    simpa [Dict.keys] using this
  have hin := inForce_governing hlc _ hrest
  have hst' : Stable env w₀.api.model (governing w₀.api.model lc) := by
    intro v hv h0 n hn
    have hs := hst v (by
      intro n f hf
      rw [hD.fix] at hf
      exact hv n f ((hin n).symm.trans hf)) (by
      rw [hD.frame, ← hbp]
      exact (blueprint_internal hA env hshells v v).trans h0)
    apply hs
    rw [hD.nodes, ← hnode]
    exact hn
  have hnone : ∀ s se, w₀.api.model.shells.get? s ≠ some se := by rw [hshells]; intro s se h; cases h
  obtain ⟨x, hx⟩ := hA.assembly_ok
  have hasb : w₁.fs.get? Api.filename = some (.asb x) := by
    rw [hw₁, run_cons, asb_run env _ mid hu.later, step_assemble env w₀ x hx]
    exact Dict.get?_set_same _ _ _
  have h0 : w₁.fs.get? "0.k" = none := by
    rw [hw₁, hw₀, ← run_append]; exact no0k_init env _
  have hret : (solveLinear env w₁.fs Api.filename c).2 = .ok () := by
    have hr := hu.ret
    rw [← hw₀, ← hw₁] at hr
    simp only [World.step] at hr
    revert hr
    cases (solveLinear env w₁.fs Api.filename c).2 with
    | error e => intro hr; cases hr
    | ok v => intro _; rfl
  have heq := solve2nd_eq env henv dyn hdyn pre hF.readd w₀ hw₀ (fun s se h => absurd h (hnone s se)) hlc
    (stable_unambiguous h (fun s se h => absurd h (hnone s se)) hst') hst' (hord lc hlc) hx w₁.fs hasb h0 hret
  refine ⟨hu.later, ?_, ?_⟩
  · rw [← hw₀, ← hw₁, heq]; exact hret
  · intro n hn
    rw [← hw₀, ← hw₁, heq]
    exact hu.disp n hn

end Hyperstatic
