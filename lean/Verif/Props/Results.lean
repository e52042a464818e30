import Verif.Props.Solve
import Verif.Lemmas.Results

/-
C24 - C28: assemblies, results and saved files.
-/

namespace Hyperstatic
open Spec

/-! ### C24 Assembly is a snapshot -/

/-- As long as `assemble()` is not called, only the `solve_static` calls matter for what `solve_static` returns and for the displacements and
deformations reported: leaving out all other calls changes nothing. -/
theorem C24_snapshot_partial (env : Env) (w : World) (cs : List Call) (hcs : ∀ k ∈ cs, k ≠ .assemble) :
    solveReturns env w cs = outputs env w (cs.filter isSolve) ∧
    ∀ c, SameResults (w.run env cs) (w.run env (cs.filter isSolve)) c := by
  obtain ⟨h1, h2⟩ := solves_only env cs hcs (SameFiles.refl w)
  exact ⟨h1, h2.results⟩

/-- the full property: the same for the table of all nodal displacements -/
def C24_claim : Prop :=
  ∀ (env : Env) (w : World) (cs : List Call), (∀ k ∈ cs, k ≠ .assemble) →
    (solveReturns env w cs = outputs env w (cs.filter isSolve) ∧
      (∀ c, SameResults (w.run env cs) (w.run env (cs.filter isSolve)) c) ∧
      ∀ c, (w.run env cs).resultGetAllNodalDisplacement c = (w.run env (cs.filter isSolve)).resultGetAllNodalDisplacement c)

/-! ### C28 All-nodes result table agrees with single-node results -/

theorem mapM_table (fs : Dict (File Api)) (c : String) (ns : List String) :
    match ns.mapM (fun n => do
        let d ← resolveNodalDisplacement fs Api.filename n c
        return (n, d)) with
    | .ok t => Dict.keys t = ns ∧ ∀ p ∈ t, resolveNodalDisplacement fs Api.filename p.1 c = .ok p.2
    | .error _ => ∃ n ∈ ns, ∃ e, resolveNodalDisplacement fs Api.filename n c = .error e := by
  induction ns with
  | nil => simp [Dict.keys, pure, Except.pure]
  | cons n ns ih =>
    rw [List.mapM_cons]
    cases hn : resolveNodalDisplacement fs Api.filename n c with
    | error e => exact ⟨n, by simp, e, hn⟩
    | ok d =>
      cases hr : ns.mapM (fun n => do
        let d ← resolveNodalDisplacement fs Api.filename n c
        return (n, d)) with
      | error e =>
        rw [hr] at ih
        simp only [Except.bind_ok, Except.pure_eq_ok, Except.bind_error] at hr ⊢
        obtain ⟨m, hm, h⟩ := ih
        exact ⟨m, by simp [hm], h⟩
      | ok t =>
        rw [hr] at ih
        simp only [Except.bind_ok, Except.pure_eq_ok] at hr ⊢
        obtain ⟨h1, h2⟩ := ih
        refine ⟨by simp only [Dict.keys, List.map_cons] at h1 ⊢; rw [h1], ?_⟩
        intro p hp
        rcases List.mem_cons.mp hp with rfl | hp
        · exact hn
        · exact h2 p hp

/-- the assembly file exists exactly when `assemble()` was called -/
theorem assembled_iff (env : Env) (cs : List Call) :
    (∃ x, openAssembly (World.init.run env cs).fs Api.filename = .ok x) ↔ .assemble ∈ cs := by
  have key : ∀ cs : List Call, (.assemble ∈ cs → ∃ x, (World.init.run env cs).fs.get? Api.filename = some (.asb x)) ∧
      (.assemble ∉ cs → (World.init.run env cs).fs.get? Api.filename = none) := by
    intro cs
    induction cs using List.reverseRecOn with
    | nil => exact ⟨fun h => (by simp at h), fun _ => rfl⟩
    | append_singleton cs k ih =>
      rw [run_append, run_cons, run_nil]
      by_cases hk : k = .assemble
      · subst hk
        obtain ⟨x, hx⟩ := (ApiInv_run env cs).1.assembly_ok
        refine ⟨fun _ => ⟨x, ?_⟩, fun h => absurd (by simp) h⟩
        rw [step_assemble env _ x hx]
        exact Dict.get?_set_same _ _ _
      · rw [asb_step env _ k hk]
        have : .assemble ∈ cs ++ [k] ↔ .assemble ∈ cs := by
          simp only [List.mem_append, List.mem_singleton]
          exact ⟨fun h => h.resolve_right (fun e => hk e.symm), Or.inl⟩
        rw [this]
        exact ih
  constructor
  · rintro ⟨x, hx⟩
    by_contra hn
    have := (key cs).2 hn
    unfold openAssembly at hx
    rw [this] at hx
    cases hx
  · intro h
    obtain ⟨x, hx⟩ := (key cs).1 h
    exact ⟨x, openAssembly_of_get hx⟩

/-- The table has one entry per node, in the order of `get_node_names()`, and each entry is what is reported for the single node; there is
no table exactly if nothing has been assembled or nothing is reported for some node. -/
theorem C28_table (env : Env) (cs : List Call) (w : World) (hw : w = World.init.run env cs) (c : String) :
    (∀ t, w.resultGetAllNodalDisplacement c = some t →
      Dict.keys t = w.getNodeNames ∧ ∀ n ∈ w.getNodeNames, Dict.get? t n = w.resultGetNodalDisplacement n c) ∧
    (w.resultGetAllNodalDisplacement c = none ↔
      .assemble ∉ cs ∨ ∃ n ∈ w.getNodeNames, w.resultGetNodalDisplacement n c = none) := by
  have hwf : w.getNodeNames.Nodup := by
    rw [hw]; exact (ApiInv_run env cs).1.nodes_wf
  have hasb := assembled_iff env cs
  rw [← hw] at hasb
  have htab := mapM_table w.fs c w.getNodeNames
  unfold World.resultGetAllNodalDisplacement
  cases ho : openAssembly w.fs Api.filename with
  | error e =>
    refine ⟨fun t h => by simp [tryOption, Except.bind_error] at h, ?_⟩
    have : .assemble ∉ cs := by
      rw [← hasb]; rintro ⟨x, hx⟩; rw [ho] at hx; cases hx
    simp [tryOption, Except.bind_error, this]
  | ok x =>
    have hin : .assemble ∈ cs := hasb.mp ⟨x, ho⟩
    simp only [Except.bind_ok]
    cases hr : w.getNodeNames.mapM (fun n => do
        let d ← resolveNodalDisplacement w.fs Api.filename n c
        return (n, d)) with
    | error e =>
      rw [hr] at htab
      obtain ⟨n, hn, e', he⟩ := htab
      refine ⟨fun t h => by simp [tryOption, Except.bind_error] at h, ?_⟩
      simp only [Except.bind_error, tryOption, true_iff]
      right
      refine ⟨n, hn, ?_⟩
      unfold World.resultGetNodalDisplacement
      rw [he]; rfl
    | ok t =>
      rw [hr] at htab
      obtain ⟨h1, h2⟩ := htab
      have hall : ∀ n ∈ w.getNodeNames, Dict.get? t n = w.resultGetNodalDisplacement n c := by
        intro n hn
        obtain ⟨d, hd⟩ := Dict.get?_of_mem_keys (d := t) (k := n) (h1 ▸ hn)
        have htwf : Dict.WF t := by unfold Dict.WF; rw [h1]; exact hwf
        have := h2 (n, d) ((Dict.mem_iff_get? htwf n d).mpr hd)
        unfold World.resultGetNodalDisplacement
        rw [hd, this]; rfl
      constructor
      · intro t' ht'
        simp only [Except.bind_ok, Except.pure_eq_ok, tryOption, Option.some.injEq] at ht'
        subst ht'
        exact ⟨h1, hall⟩
      · simp only [Except.bind_ok, Except.pure_eq_ok, tryOption, reduceCtorEq, false_iff, not_or, not_not, hin, true_and]
        rintro ⟨n, hn, he⟩
        rw [← hall n hn] at he
        obtain ⟨d, hd⟩ := Dict.get?_of_mem_keys (d := t) (k := n) (h1 ▸ hn)
        rw [hd] at he; cases he

/-- the solved cantilever has a table with both nodes -/
theorem demo_table : ∃ t, (((World.init.run idealEnv demoCalls).run idealEnv [.assemble]).run idealEnv
    [.solveStatic "C"]).resultGetAllNodalDisplacement "C" = some t ∧ Dict.keys t = ["A", "B"] := by
  obtain ⟨c, hc, hrun⟩ := demo_run idealEnv
  have hapi : (World.init.run idealEnv demoCalls).api = demoApi c := by rw [hrun]
  have hw : ((World.init.run idealEnv demoCalls).run idealEnv [.assemble]).run idealEnv [.solveStatic "C"] =
      World.init.run idealEnv (demoCalls ++ [.assemble, .solveStatic "C"]) := by
    rw [run_append]; rfl
  have hnames : (((World.init.run idealEnv demoCalls).run idealEnv [.assemble]).run idealEnv [.solveStatic "C"]).getNodeNames =
      ["A", "B"] := by
    have h2 : ∀ w : World, ((w.run idealEnv [.assemble]).run idealEnv [.solveStatic "C"]).api = w.api := by
      intro w
      simp only [run_cons, run_nil, World.step]
      split <;> rfl
    unfold World.getNodeNames
    rw [h2, hapi]; rfl
  obtain ⟨h1, h2⟩ := C28_table idealEnv _ _ hw "C"
  obtain ⟨u, hu, _⟩ := C20_equilibrium idealEnv idealEnv_sound demoCalls [] (demo_noReadd _) (by simp) _ _ rfl rfl "C" demoCase
    (by rw [hapi]; rfl) (by rw [hapi]; exact demo_shells _ c) (by rw [hapi]; exact demo_shellsFree _ c)
    (by rw [hapi]; exact demo_stable _ hc) (demo_solves _ idealEnv_sound [] (by simp))
  cases ht : (((World.init.run idealEnv demoCalls).run idealEnv [.assemble]).run idealEnv
      [.solveStatic "C"]).resultGetAllNodalDisplacement "C" with
  | some t => exact ⟨t, rfl, by rw [(h1 t ht).1, hnames]⟩
  | none =>
    exfalso
    rcases h2.mp ht with h | ⟨n, hn, h⟩
    · simp at h
    · have hn' : n ∈ (World.init.run idealEnv demoCalls).getNodeNames := by
        rw [hnames] at hn
        unfold World.getNodeNames; rw [hapi]; exact hn
      have := hu n hn'
      rw [run_cons, run_nil] at h
      rw [this] at h
      cases h

/-- The table takes the node names from the model being edited: a node added after the solution makes the whole table disappear. -/
theorem C24_false : ¬ C24_claim := by
  intro h
  obtain ⟨t, ht, hk⟩ := demo_table
  have h3 := (h idealEnv ((World.init.run idealEnv demoCalls).run idealEnv [.assemble])
    [.solveStatic "C", .addNode "Z" 9 9 9] (by simp)).2.2 "C"
  have e : [Call.solveStatic "C", .addNode "Z" 9 9 9].filter isSolve = [.solveStatic "C"] := rfl
  rw [e, ht] at h3
  have hw : ((World.init.run idealEnv demoCalls).run idealEnv [.assemble]).run idealEnv [.solveStatic "C", .addNode "Z" 9 9 9] =
      World.init.run idealEnv (demoCalls ++ [.assemble, .solveStatic "C", .addNode "Z" 9 9 9]) := by
    rw [run_append]; rfl
  have hZ := (C28_table idealEnv _ _ hw "C").1 t h3
  have hmem : "Z" ∈ Dict.keys t := by
    rw [hZ.1]
    rw [show [Call.solveStatic "C", .addNode "Z" 9 9 9] = [.solveStatic "C"] ++ [.addNode "Z" 9 9 9] from rfl, run_append, run_cons,
      run_nil, run_cons, run_nil, step_addNode]
    simp only [World.getNodeNames]
    exact (Dict.mem_keys_set _ _ _ _).mpr (Or.inl rfl)
  rw [hk] at hmem
  simp at hmem

/-- the table of displacements is unaffected by other edits: it only depends on the node names of the edited model -/
theorem C24_table_partial (env : Env) (w : World) (cs : List Call) (hcs : ∀ k ∈ cs, k ≠ .assemble) (c : String)
    (hn : (w.run env cs).getNodeNames = (w.run env (cs.filter isSolve)).getNodeNames) :
    (w.run env cs).resultGetAllNodalDisplacement c = (w.run env (cs.filter isSolve)).resultGetAllNodalDisplacement c := by
  have h2 := (solves_only env cs hcs (SameFiles.refl w)).2
  unfold World.resultGetAllNodalDisplacement
  rw [hn, openAssembly_congr h2.1]
  unfold resolveNodalDisplacement loadDisp
  rw [openAssembly_congr h2.1, h2.2.2 c]

/-- edits after `assemble()`, with a solution in between -/
example : solveReturns idealEnv ((World.init.run idealEnv demoCalls).run idealEnv [.assemble])
    [.setNodalRestraint "B" (fun _ => true), .solveStatic "C", .addNode "Z" 1 1 1] = [true] := by
  rw [(C24_snapshot_partial _ _ _ (by simp)).1]
  have := demo_solves idealEnv idealEnv_sound [] (by simp)
  simp only [List.filter, isSolve, outputs]
  rw [← this]

/-! ### C25 No stale stiffness -/

/-- After `assemble()` it makes no difference for `solve_static` what happened before in the work path: it returns, and on success reports,
the same as if the same model had been assembled in an empty work path. -/
theorem C25_no_stale (env : Env) (pre mid : List Call) (hmid : ∀ k ∈ mid, k ≠ .assemble) (w₀ w₁ fresh : World)
    (hw₀ : w₀ = World.init.run env pre) (hw₁ : w₁ = w₀.run env (.assemble :: mid))
    (hfresh : fresh = World.run env ⟨w₀.api, []⟩ [.assemble]) (c : String) :
    (w₁.step env (.solveStatic c)).2 = (fresh.step env (.solveStatic c)).2 ∧
    ((w₁.step env (.solveStatic c)).2 = true →
      SameResults (w₁.step env (.solveStatic c)).1 (fresh.step env (.solveStatic c)).1 c) := by
  have hA := (ApiInv_run env pre).1
  rw [← hw₀] at hA
  obtain ⟨x, hx⟩ := hA.assembly_ok
  have h1 : w₁.fs.get? Api.filename = some (.asb x) := by
    rw [hw₁, run_cons, asb_run env _ mid hmid, step_assemble env w₀ x hx]
    exact Dict.get?_set_same _ _ _
  have h2 : fresh.fs.get? Api.filename = some (.asb x) := by
    rw [hfresh, run_cons, run_nil, step_assemble env ⟨w₀.api, []⟩ x hx]
    exact Dict.get?_set_same _ _ _
  have h3 : w₁.fs.get? "0.k" = none := by
    rw [hw₁, hw₀, ← run_append]; exact no0k_init env _
  have h4 : fresh.fs.get? "0.k" = none := by
    rw [hfresh]; exact no0k_run env _ _ rfl
  obtain ⟨e1, e2⟩ := solve_congr env (h1.trans h2.symm) (h3.trans h4.symm) c
  refine ⟨e1, fun hr => sameResults_of ?_ (e2 hr)⟩
  rw [(solve_frame env w₁ c).1, (solve_frame env fresh c).1, h1, h2]

/-- a history with stale results: solve, change the model, assemble again -/
example (env : Env) (c : String) :=
  C25_no_stale env (demoCalls ++ [.assemble, .solveStatic "C", .addNode "Z" 1 1 1, .setNodalRestraint "Z" (fun _ => true)])
    [.solveStatic "C"] (by simp) _ _ _ rfl rfl rfl c

/-! ### C26 Solving a case only touches that case's results -/

/-- `solve_static(c)` leaves the results of every other case as they were. -/
theorem C26_others (env : Env) (w : World) (c c' : String) (h : c' ≠ c) :
    SameResults (w.step env (.solveStatic c)).1 w c' := by
  obtain ⟨h1, _, h3, _⟩ := solve_frame env w c
  exact sameResults_of h1 (h3 c' h)

/-- A `solve_static` that returns False leaves all results as they were. -/
theorem C26_failed (env : Env) (w : World) (c c' : String) (h : (w.step env (.solveStatic c)).2 = false) :
    SameResults (w.step env (.solveStatic c)).1 w c' := by
  obtain ⟨h1, _, h3, h4⟩ := solve_frame env w c
  by_cases hc : c' = c
  · subst hc; exact sameResults_of h1 (h4 h)
  · exact sameResults_of h1 (h3 c' hc)

/-- Solving the same case again without assembling in between returns the same and reproduces the results. -/
theorem C26_again (env : Env) (w : World) (c : String) (mid : List Call) (hmid : ∀ k ∈ mid, k ≠ .assemble) (w₁ w₂ : World)
    (hw₁ : w₁ = (w.step env (.solveStatic c)).1) (hw₂ : w₂ = ((w₁.run env mid).step env (.solveStatic c)).1) :
    ((w₁.run env mid).step env (.solveStatic c)).2 = (w.step env (.solveStatic c)).2 ∧
    ((w.step env (.solveStatic c)).2 = true → SameResults w₂ w₁ c) := by
  have h0k : ∀ (w : World) (mid : List Call), (∀ k ∈ mid, k ≠ .assemble) → (w.run env mid).fs.get? "0.k" = w.fs.get? "0.k" := by
    intro w mid hmid
    induction mid generalizing w with
    | nil => rfl
    | cons k ks ih =>
      rw [run_cons, ih _ (fun k hk => hmid k (List.mem_cons_of_mem _ hk))]
      by_cases hs : isSolve k = true
      · cases k <;> first | (cases hs; done) | skip
        exact (solve_frame env w _).2.1
      · exact (SameFiles.idle env w k (hmid k (by simp)) (by simpa using hs)).2.1
  have h1 : (w₁.run env mid).fs.get? Api.filename = w.fs.get? Api.filename := by
    rw [asb_run env _ mid hmid, hw₁]; exact asb_step env w _ (by simp)
  have h2 : (w₁.run env mid).fs.get? "0.k" = w.fs.get? "0.k" := by
    rw [h0k _ mid hmid, hw₁]; exact (solve_frame env w c).2.1
  obtain ⟨e1, e2⟩ := solve_congr env h1 h2 c
  refine ⟨e1, fun hr => ?_⟩
  rw [hw₂, hw₁]
  rw [hw₁] at h1 e1 e2
  refine sameResults_of ?_ (e2 (e1.trans hr))
  rw [(solve_frame env _ c).1, (solve_frame env w c).1, h1]

/-- two cases on the cantilever: the second solution keeps the first one's results -/
example : ((World.init.run idealEnv demoCalls).run idealEnv [.assemble] |>.step idealEnv (.solveStatic "C")).2 = true ∧
    ("nosuchcase" : String) ≠ "C" :=
  ⟨demo_solves idealEnv idealEnv_sound [] (by simp), by decide⟩

/-! ### C27 Save and load round trip -/

theorem saved_run (env : Env) (f : String) (w : World) (mid : List Call) (hmid : ∀ k ∈ mid, k ≠ .save f) :
    (w.run env mid).fs.get? (f ++ ".sep") = w.fs.get? (f ++ ".sep") := by
  induction mid generalizing w with
  | nil => rfl
  | cons k ks ih =>
    rw [run_cons, ih _ (fun k hk => hmid k (List.mem_cons_of_mem _ hk))]
    by_cases he : k.isEdit = true
    · rw [step_edit env w k he]; split <;> rfl
    · have hk := hmid k (by simp)
      cases k <;> first | (exact absurd rfl he) | skip
      case assemble =>
        simp only [World.step]
        split
        · exact Dict.get?_set_ne _ _ (sep_ne_asb f).symm
        · rfl
      case solveStatic c => exact solve_keeps_sep env w.fs Api.filename c f
      case solveModal => rfl
      case clearWorkspace => rfl
      case load g => rw [step_load]; split <;> rfl
      case save g =>
        rw [step_save]
        exact Dict.get?_set_ne _ _ (fun e => hk (by rw [String.append_right_inj' e]))

/-- `load` of a saved file brings back exactly the state of the last `save` under that name, whatever happened in between. -/
theorem C27_round_trip (env : Env) (pre mid : List Call) (f : String) (hmid : ∀ k ∈ mid, k ≠ .save f) (w₀ w₁ : World)
    (hw₀ : w₀ = World.init.run env pre) (hw₁ : w₁ = (w₀.step env (.save f)).1.run env mid) :
    (w₀.step env (.save f)).2 = true ∧ (w₁.step env (.load f)).2 = true ∧ (w₁.step env (.load f)).1.api = w₀.api ∧
    (w₁.step env (.load f)).1.fs = w₁.fs := by
  have h : w₁.fs.get? (f ++ ".sep") = some (.sep w₀.api) := by
    rw [hw₁, saved_run env f _ mid hmid, step_save]; exact Dict.get?_set_same _ _ _
  rw [step_load, h]
  exact ⟨rfl, rfl, rfl, rfl⟩

/-- `load` under a name never saved reports failure and changes nothing. -/
theorem C27_never_saved (env : Env) (cs : List Call) (f : String) (hcs : ∀ k ∈ cs, k ≠ .save f) (w : World)
    (hw : w = World.init.run env cs) : w.step env (.load f) = (w, false) := by
  have h : w.fs.get? (f ++ ".sep") = none := by
    rw [hw, saved_run env f _ cs hcs]; rfl
  rw [step_load, h]

/-- saving another file and editing in between -/
example (env : Env) :=
  C27_round_trip env demoCalls [.addNode "Z" 1 1 1, .save "other", .addStaticCase "C", .assemble, .load "other"] "mine"
    (by simp) _ _ rfl rfl

end Hyperstatic
