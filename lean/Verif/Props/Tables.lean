import Verif.Lemmas.Fresh
import Verif.Lemmas.Observe

/-
Properties C03, C04, C06, C07, C09: failure atomicity, restraint and load tables, attachment of beams.
-/

namespace Hyperstatic

open Spec

/-! ## C03 A call that reports failure changes nothing -/

/-- Whatever the state and whatever the call (editing, assembling, solving, saving, loading ...): if it returns `False`,
no later sequence of calls and queries can tell that it was made. -/
theorem C03_failure_unobservable (env : Env) (w : World) (c : Call) (hf : (w.step env c).2 = false) :
    Indistinguishable env (w.step env c).1 w := by
  apply SameButStiff.indist
  by_cases hc : c.isEdit = true
  · rw [step_edit _ _ _ hc] at hf ⊢
    split at hf
    · simp at hf
    · rename_i h; simp only [h]; exact ⟨rfl, fun _ _ => rfl⟩
  · cases c <;> first | (exact absurd rfl hc) | skip
    · simp only [World.step] at hf ⊢
      split at hf
      · simp at hf
      · rename_i h; simp only [h]; exact ⟨rfl, fun _ _ => rfl⟩
    · rename_i case
      refine ⟨rfl, fun k hk => ?_⟩
      change tryBool (solveLinear env w.fs Api.filename case).2 = false at hf
      change (solveLinear env w.fs Api.filename case).1.get? k = _
      unfold solveLinear at hf ⊢
      split
      · rfl
      · rename_i a ha
        simp only [ha] at hf
        split
        · rfl
        · rename_i h0
          rw [if_neg h0] at hf
          split
          · rfl
          · rename_i K hK
            simp only [hK] at hf
            split
            · exact Dict.get?_set_ne _ _ (Ne.symm hk)
            · rename_i d hd
              simp only [hd] at hf
              simp [tryBool] at hf
    · exact ⟨rfl, fun _ _ => rfl⟩
    · simp [World.step] at hf
    · simp only [World.step] at hf ⊢
      split at hf
      · simp at hf
      · exact ⟨rfl, fun _ _ => rfl⟩
    · exact ⟨rfl, fun _ _ => rfl⟩

/-- For all calls but `solve_static` the failing call leaves the object and the work path literally unchanged. -/
theorem C03_failure_no_change (env : Env) (w : World) (c : Call) (hc : ∀ case, c ≠ .solveStatic case)
    (hf : (w.step env c).2 = false) : (w.step env c).1 = w := by
  by_cases he : c.isEdit = true
  · rw [step_edit _ _ _ he] at hf ⊢
    split at hf
    · simp at hf
    · rename_i h; simp only [h]
  · cases c <;> first | (exact absurd rfl he) | skip
    · simp only [World.step] at hf ⊢
      split at hf
      · simp at hf
      · rename_i h; simp only [h]
    · exact absurd rfl (hc _)
    · rfl
    · simp [World.step] at hf
    · simp only [World.step] at hf ⊢
      split at hf
      · simp at hf
      · rfl
    · rfl

/-- failing calls exist in non-trivial states: a beam between a node and an unknown node -/
example (env : Env) :
    ((World.init.run env [.addNode "A" 0 0 0]).step env (.addSimpleBeam "b" "A" "Z" 1 0 1 1 1 1 1)).2 = false := by
  rw [run_cons, run_nil, step_addNode]
  rfl

/-! ## C07 Restraint tables are last-write-wins and isolated per node and per case -/

theorem restReg_refined (env : Env) (cs : List Call) :
    (⟨fun n => n ∈ (World.init.run env cs).getNodeNames, fun n => (World.init.run env cs).api.model.restraints.get? n,
      fun c => ((World.init.run env cs).api.loadcases.get? c).map (fun lc n => lc.restraint.get? n)⟩ : RestReg)
    = (restReg.run cs).cur := by
  let abs : Api → RestReg := fun a => ⟨fun n => n ∈ a.model.nodes.keys, fun n => a.model.restraints.get? n,
    fun c => (a.loadcases.get? c).map (fun lc n => lc.restraint.get? n)⟩
  show abs (World.init.run env cs).api = _
  apply refines env restReg abs ApiInv
  · simp [abs, restReg, Api.init, FeModel.empty, Dict.keys]
  · exact ApiInv_init
  · exact fun a c a' h he => ApiInv_edit h he
  · intro a c a' h he
    rw [edit_ok_iff] at he
    cases c <;> simp only [EditEff] at he
    case addNode name x y z =>
      subst he
      simp only [abs, restReg, RestReg.mk.injEq, and_true]
      funext m
      simp only [Dict.mem_keys_set]
    case setNodalMass name mass =>
      obtain ⟨nd, hnd, rfl⟩ := he
      simp only [abs, restReg, Dict.keys_set_of_mem hnd]
    case setNodalRestraint n f =>
      subst he
      by_cases hn : a.model.nodes.contains n = true
      · rw [if_pos hn]
        rw [Dict.contains_iff] at hn
        simp only [abs, restReg, hn, and_true, Dict.get?_set, eq_comm]
      · rw [if_neg hn]
        rw [Dict.contains_iff] at hn
        simp only [abs, restReg, hn, and_false, if_false]
    case addStaticCase c =>
      subst he
      simp only [abs, restReg, Dict.get?_set, RestReg.mk.injEq, true_and]
      funext c'
      by_cases hc : c = c'
      · subst hc; simp [LoadCase.new]
      · simp [hc, Ne.symm hc]
    case addModalCase c =>
      subst he
      simp only [abs, restReg, Dict.get?_set, RestReg.mk.injEq, true_and]
      funext c'
      by_cases hc : c = c'
      · subst hc; simp [LoadCase.new]
      · simp [hc, Ne.symm hc]
    case setLoadcaseNodalRestraint c n f =>
      obtain ⟨lc, hlc, rfl⟩ := he
      simp only [abs, restReg, Dict.get?_set, RestReg.mk.injEq, true_and]
      funext c'
      by_cases hc : c = c'
      · subst hc
        simp only [if_true, hlc, Option.map_some, LoadCase.setNodalRestraint, Dict.get?_set, Option.some.injEq]
        funext m
        by_cases hm : n = m
        · subst hm; simp
        · simp [hm, Ne.symm hm]
      · simp [hc, Ne.symm hc]
    case addCasePattern c p fac =>
      obtain ⟨lc, r, pat, hlc, h2, h3, rfl⟩ := he
      simp only [abs, restReg, Dict.get?_set, RestReg.mk.injEq, true_and]
      funext c'
      by_cases hc : c = c'
      · subst hc; simp [hlc, LoadCase.addPattern]
      · simp [hc]
    all_goals first
      | (subst he; rfl)
      | (obtain ⟨_, _, rfl⟩ := he; rfl)
      | (obtain ⟨_, _, _, _, rfl⟩ := he; rfl)
      | (obtain ⟨_, _, _, _, _, _, rfl⟩ := he; rfl)
      | (obtain ⟨_, _, _, _, _, _, _, _, rfl⟩ := he; rfl)
  · intro a c e h he
    cases c
    case addNode => rw [edit_addNode] at he; simp at he
    case setNodalRestraint n f => simp [Api.edit, pure, Except.pure] at he
    case addStaticCase => simp [Api.edit, pure, Except.pure] at he
    case addModalCase => simp [Api.edit, pure, Except.pure] at he
    case setLoadcaseNodalRestraint c n f =>
      have hn : a.loadcases.get? c = none := by
        cases hg : a.loadcases.get? c with
        | none => rfl
        | some lc =>
          have := (edit_ok_iff a (.setLoadcaseNodalRestraint c n f) _).mpr ⟨lc, hg, rfl⟩
          rw [this] at he; simp at he
      simp only [abs, restReg, RestReg.mk.injEq, true_and]
      funext c'
      by_cases hc : c' = c
      · subst hc; simp [hn]
      · simp [hc]
    all_goals rfl

/-- After every history of API calls `get_node_restraints()` and `get_node_restraints(case)` answer as the abstract
register `Spec.restReg` says: for each node the flags of the latest setting made for that node (in that case), no
interference between nodes, cases and the global table. -/
theorem C07_restraint_tables (env : Env) (cs : List Call) :
    (∃ d, (World.init.run env cs).getNodeRestraints none = some d ∧
      ∀ n, d.get? n = (restReg.run cs).cur.global n) ∧
    ∀ c, ((World.init.run env cs).getNodeRestraints (some c)).map (fun d n => d.get? n)
      = (restReg.run cs).cur.cases c := by
  rw [← restReg_refined env cs]
  refine ⟨⟨_, rfl, fun n => rfl⟩, fun c => ?_⟩
  simp only [World.getNodeRestraints, Dict.getItem]
  cases (World.init.run env cs).api.loadcases.get? c <;> rfl

/-- Read-back of a case restraint: after setting it, only a re-creation of the case, another setting for the same node in
the same case, or loading an older state can change it. -/
theorem C07_case_readback (env : Env) (cs cs' : List Call) (c n : String) (f : Flags)
    (hc : (World.init.run env cs).getNodeRestraints (some c) ≠ none)
    (h : ∀ k ∈ cs', (∀ f, k ≠ .setLoadcaseNodalRestraint c n f) ∧ k ≠ .addStaticCase c ∧ k ≠ .addModalCase c ∧
      (∀ f, k ≠ .load f)) :
    ∃ d, (World.init.run env (cs ++ .setLoadcaseNodalRestraint c n f :: cs')).getNodeRestraints (some c) = some d ∧
      d.get? n = some f := by
  have hc' : ((restReg.run cs).cur.cases c).isSome := by
    rw [← (C07_restraint_tables env cs).2 c]
    simpa [Option.isSome_iff_ne_none] using hc
  have goal : ∃ g, (restReg.run (cs ++ .setLoadcaseNodalRestraint c n f :: cs')).cur.cases c = some g ∧ g n = some f := by
    simp only [Machine.run, List.foldl_append, List.foldl_cons]
    change ((List.foldl restReg.step _ cs).cur.cases c).isSome at hc'
    generalize List.foldl restReg.step _ cs = s at hc'
    obtain ⟨g0, hg0⟩ := Option.isSome_iff_exists.mp hc'
    have h0 : ∃ g, (restReg.step s (.setLoadcaseNodalRestraint c n f)).cur.cases c = some g ∧ g n = some f := by
      simp [Machine.step, restReg, hg0]
    generalize restReg.step s (.setLoadcaseNodalRestraint c n f) = t at h0
    clear hc' hg0
    induction cs' generalizing t with
    | nil => exact h0
    | cons k cs' ih =>
      rw [List.foldl_cons]
      apply ih (fun c hc => h c (List.mem_cons_of_mem _ hc))
      obtain ⟨h1, h2, h3, h4⟩ := h k List.mem_cons_self
      obtain ⟨g, hg, hgn⟩ := h0
      cases k
      case load f => exact absurd rfl (h4 f)
      case addStaticCase c' =>
        have : c ≠ c' := fun e => h2 (by rw [e])
        exact ⟨g, by simpa [Machine.step, restReg, this] using hg, hgn⟩
      case addModalCase c' =>
        have : c ≠ c' := fun e => h3 (by rw [e])
        exact ⟨g, by simpa [Machine.step, restReg, this] using hg, hgn⟩
      case setLoadcaseNodalRestraint c' n' f' =>
        by_cases e : c = c'
        · subst e
          have : n ≠ n' := fun e => h1 f' (by rw [e])
          refine ⟨fun m => if m = n' then some f' else g m, ?_, by simp [this, hgn]⟩
          simp [Machine.step, restReg, hg]
        · exact ⟨g, by simpa [Machine.step, restReg, e] using hg, hgn⟩
      all_goals exact ⟨g, hg, hgn⟩
  obtain ⟨g, hg, hgn⟩ := goal
  rw [← (C07_restraint_tables env _).2 c] at hg
  obtain ⟨d, hd, rfl⟩ := Option.map_eq_some_iff.mp hg
  exact ⟨d, hd, hgn⟩

/-- two cases and the global table with different flags for the same node -/
example (env : Env) : ∃ d, (World.init.run env ([.addNode "A" 0 0 0, .addStaticCase "c", .addStaticCase "d"] ++
      .setLoadcaseNodalRestraint "c" "A" (fun _ => true) ::
      [.setLoadcaseNodalRestraint "d" "A" (fun _ => false), .setNodalRestraint "A" (fun _ => false)])).getNodeRestraints
        (some "c") = some d ∧ d.get? "A" = some (fun _ => true) := by
  apply C07_case_readback
  · simp [run_cons, run_nil, step_addNode, step_addStaticCase, World.init, Api.init, Dict.set, World.getNodeRestraints,
      Dict.getItem, Dict.get?, tryOption, bind, Except.bind, pure, Except.pure]
  · intro k hk; simp at hk; rcases hk with rfl | rfl <;> simp

/-! ## C04 A restraint call that reports success took effect -/

/-- C04 is false: for a node that does not exist the call returns `True` and nothing is stored. -/
theorem C04_false (env : Env) : ∃ (w : World) (n : String) (f : Flags), (∃ cs, w = World.init.run env cs) ∧
    (w.step env (.setNodalRestraint n f)).2 = true ∧
    ∀ d, (w.step env (.setNodalRestraint n f)).1.getNodeRestraints none = some d → d.get? n ≠ some f := by
  refine ⟨World.init.run env [.addNode "A" 0 0 0], "B", fun _ => true, ⟨_, rfl⟩, ?_, ?_⟩
  · rw [step_setNodalRestraint]
  · intro d hd
    simp only [run_cons, run_nil, step_addNode, step_setNodalRestraint, World.init, Api.init, FeModel.empty,
      World.getNodeRestraints, Dict.contains, Dict.get?, Dict.set] at hd
    simp at hd
    subst hd
    simp

/-- C04 for nodes that exist (in any state, reachable or not): the call returns `True`, the node has exactly the given
flags, all other entries and all case tables are unchanged.  Missing from the full statement: unknown nodes. -/
theorem C04_restraint_effect_partial (env : Env) (w : World) (n : String) (f : Flags) (hn : n ∈ w.getNodeNames) :
    (w.step env (.setNodalRestraint n f)).2 = true ∧
    ∃ d d', w.getNodeRestraints none = some d ∧
      (w.step env (.setNodalRestraint n f)).1.getNodeRestraints none = some d' ∧
      d'.get? n = some f ∧ (∀ m, m ≠ n → d'.get? m = d.get? m) ∧
      (∀ c, (w.step env (.setNodalRestraint n f)).1.getNodeRestraints (some c) = w.getNodeRestraints (some c)) := by
  have hc : w.api.model.nodes.contains n = true := (Dict.contains_iff _ _).mpr hn
  rw [step_setNodalRestraint, if_pos hc]
  refine ⟨rfl, _, _, rfl, rfl, Dict.get?_set_same _ _ _, ?_, fun c => rfl⟩
  intro m hm
  exact Dict.get?_set_ne _ _ (Ne.symm hm)

/-- and conversely: the call never fails, and without effect exactly when the node is unknown -/
theorem C04_restraint_success_iff (env : Env) (w : World) (n : String) (f : Flags) :
    (w.step env (.setNodalRestraint n f)).2 = true ∧
    (n ∉ w.getNodeNames → (w.step env (.setNodalRestraint n f)).1 = w) := by
  rw [step_setNodalRestraint]
  refine ⟨rfl, fun hn => ?_⟩
  have hc : ¬ w.api.model.nodes.contains n = true := fun h => hn ((Dict.contains_iff _ _).mp h)
  rw [if_neg hc]

example (env : Env) : "A" ∈ (World.init.run env [.addNode "A" 0 0 0, .addNode "B" 1 0 0]).getNodeNames := by
  simp [run_cons, run_nil, step_addNode, World.init, Api.init, FeModel.empty, World.getNodeNames, Dict.set, Dict.keys]

/-! ## C06 A beam stays attached to its end nodes -/

/-- Full statement of C06 for one world. -/
def BeamsAttached (w : World) : Prop :=
  ∀ b i j p q, w.getBeamNodeNames b = some (i, j) → w.getBeamLocation b = some (p, q) →
    w.getNodeLocation i = some p ∧ w.getNodeLocation j = some q

theorem lineCsys_x {s t : V3} (h : ¬ max |s.x - t.x| |s.y - t.y| < absTol) :
    lineCsys s t = Csys.mk? ⟨(s.x + t.x) / 2, (s.y + t.y) / 2, (s.z + t.z) / 2⟩ t
      ⟨(s.x + t.x) / 2, (s.y + t.y) / 2, (s.z + t.z) / 2 + 1⟩ := by
  unfold lineCsys
  simp only [V3.sub_def, V3.add_def, if_neg h, add_zero]

/-- C06 is false: moving a node by adding it again leaves its beams where they were. -/
theorem C06_false (env : Env) : ∃ cs, ¬ BeamsAttached (World.init.run env cs) := by
  have hl : ∃ c, lineCsys ⟨0, 0, 0⟩ ⟨2, 0, 0⟩ = .ok c := by
    rw [lineCsys_x (by norm_num [absTol])]
    unfold Csys.mk?
    rw [if_neg]
    · exact ⟨_, rfl⟩
    · norm_num [V3.cross, V3.maxAbs, absTol]
  obtain ⟨c, hc⟩ := hl
  refine ⟨[.addNode "A" 0 0 0, .addNode "B" 2 0 0, .addSimpleBeam "b" "A" "B" 1 0 1 1 1 1 1, .addNode "B" 5 0 0], ?_⟩
  intro h
  set w0 := World.init.run env [.addNode "A" 0 0 0, .addNode "B" 2 0 0] with hw0
  have e0 : w0.api = { Api.init with model := { FeModel.empty with
            nodes := [("A", stdNode "A" 0 0 0), ("B", stdNode "B" 2 0 0)]
            hidNode := [("A", 0), ("B", 1)] } } := by
    simp [hw0, run_cons, run_nil, step_addNode, World.init, Api.init, FeModel.empty, Dict.set]
  have e1 := step_of_edit env w0 (.addSimpleBeam "b" "A" "B" 1 0 1 1 1 1 1)
    (withBeam w0.api "b" ⟨"b", "A", ⟨0, 0, 0⟩, "B", ⟨2, 0, 0⟩, c, fun _ => false, .simple 1 0 1 1 1 1 1⟩) rfl
    ⟨stdNode "A" 0 0 0, stdNode "B" 2 0 0, _, by rw [e0]; rfl, by rw [e0]; rfl, by
      simp only [BeamElm.mk?]
      show (lineCsys ⟨0, 0, 0⟩ ⟨2, 0, 0⟩ >>= _) = _
      rw [hc]; rfl, rfl⟩
  have hrun : World.init.run env [.addNode "A" 0 0 0, .addNode "B" 2 0 0, .addSimpleBeam "b" "A" "B" 1 0 1 1 1 1 1,
      .addNode "B" 5 0 0] = ((w0.step env (.addSimpleBeam "b" "A" "B" 1 0 1 1 1 1 1)).1.step env
        (.addNode "B" 5 0 0)).1 := rfl
  rw [hrun, e1, step_addNode, e0] at h
  have := (h "b" "A" "B" ⟨0, 0, 0⟩ ⟨2, 0, 0⟩ (by rfl) (by rfl)).2
  simp [World.getNodeLocation, FeModel.getNodeLocation, withBeam, FeModel.empty, Api.init, Dict.set, Dict.getItem, Dict.get?,
    tryOption, bind, Except.bind, pure, Except.pure, stdNode, Node.loc] at this

/-- C06 for histories that do not add an existing node name again. -/
theorem C06_attached_partial (env : Env) (cs : List Call) (hP : NoReadd env World.init cs) :
    BeamsAttached (World.init.run env cs) := by
  have hI := (FreshInv_run env cs hP).1
  intro b i j p q h1 h2
  simp only [World.getBeamNodeNames, World.getBeamLocation, FeModel.getBeamConnection, FeModel.getBeamLocation,
    Dict.getItem] at h1 h2
  cases hb : (World.init.run env cs).api.model.beams.get? b with
  | none => rw [hb] at h1; simp [tryOption, bind, Except.bind] at h1
  | some be =>
    rw [hb] at h1 h2
    simp only [tryOption, bind, Except.bind, pure, Except.pure, Option.some.injEq, Prod.mk.injEq] at h1 h2
    obtain ⟨rfl, rfl⟩ := h1
    obtain ⟨rfl, rfl⟩ := h2
    obtain ⟨⟨n0, g0, l0⟩, ⟨n1, g1, l1⟩⟩ := hI.beam_loc b be hb
    simp only [World.getNodeLocation, FeModel.getNodeLocation, Dict.getItem, g0, g1]
    exact ⟨congrArg some l0, congrArg some l1⟩

/-- the hypothesis holds for a history that builds two beams -/
example (env : Env) : NoReadd env World.init
    [.addNode "A" 0 0 0, .addNode "B" 2 0 0, .addNode "C" 4 0 0, .addSimpleBeam "b" "A" "B" 1 0 1 1 1 1 1,
     .addSimpleBeam "c" "B" "C" 1 0 1 1 1 1 1] := by
  simp [NoReadd, AllCalls, step_addNode, World.getNodeNames, World.init, Api.init, FeModel.empty, Dict.set, Dict.keys]
  constructor <;> (rintro n - - - rfl - - -; decide)

/-! ## C09 Nodal loads are last-write-wins and isolated -/

/-- the nodal loads of the pattern stored under a name -/
def patLoads (a : Api) (p : String) : Option (Dict (Vec 6)) :=
  (a.loadpatterns.get? p).bind (fun r => (a.heap[r]?).map (fun pat => pat.nodalLoad))

theorem loadReg_refined (env : Env) (cs : List Call) :
    (fun p => (patLoads (World.init.run env cs).api p).map (fun d n => d.get? n)) = (loadReg.run cs).cur := by
  let abs : Api → String → Option (String → Option (Vec 6)) := fun a p => (patLoads a p).map (fun d n => d.get? n)
  show abs (World.init.run env cs).api = _
  have upd : ∀ (a a' : Api) (pattern : String) (g : LoadPattern → LoadPattern), ApiInv a → PatUpd a pattern g a' →
      (∀ q, (g q).nodalLoad = q.nodalLoad) → abs a' = abs a := by
    rintro a a' pattern g h ⟨r, pat, h1, h2, rfl⟩ hg
    funext q
    simp only [abs, patLoads]
    cases hq : a.loadpatterns.get? q with
    | none => rfl
    | some r' =>
      simp only [Option.bind_some, List.getElem?_set]
      by_cases e : r = r'
      · subst e
        have hlt : r < a.heap.length := (List.getElem?_eq_some_iff.mp h2).1
        have hp : a.heap[r] = pat := (List.getElem?_eq_some_iff.mp h2).2
        simp [hlt, hg, hp]
      · simp [e]
  apply refines env loadReg abs ApiInv
  · simp [abs, patLoads, loadReg, Api.init]
  · exact ApiInv_init
  · exact fun a c a' h he => ApiInv_edit h he
  · intro a c a' h he
    rw [edit_ok_iff] at he
    cases c <;> simp only [EditEff] at he
    case addLoadpattern p =>
      subst he
      funext q
      simp only [abs, patLoads, loadReg, Dict.get?_set]
      by_cases e : p = q
      · subst e; simp [LoadPattern.new]
      · simp only [e, Ne.symm e, if_false]
        cases hq : a.loadpatterns.get? q with
        | none => rfl
        | some r =>
          obtain ⟨pat, hp, _⟩ := h.pat_refs q r hq
          have hlt : r < a.heap.length := (List.getElem?_eq_some_iff.mp hp).1
          simp [List.getElem?_append_left hlt]
    case setNodalLoad p n f =>
      obtain ⟨r, pat, h1, h2, rfl⟩ := he
      funext q
      simp only [abs, patLoads, loadReg]
      have hlt : r < a.heap.length := (List.getElem?_eq_some_iff.mp h2).1
      by_cases e : q = p
      · subst e
        simp only [h1, Option.bind_some, List.getElem?_set, hlt, if_true, if_pos, Option.map_some, h2,
          LoadPattern.setNodalLoad, Option.some.injEq]
        funext m
        rw [Dict.get?_set]
        simp [eq_comm]
      · simp only [e, if_false]
        cases hq : a.loadpatterns.get? q with
        | none => rfl
        | some r' =>
          obtain ⟨pat', hp', hn'⟩ := h.pat_refs q r' hq
          obtain ⟨pat'', hp'', hn''⟩ := h.pat_refs p r h1
          have : r ≠ r' := by
            rintro rfl
            rw [hp'] at hp''
            injection hp'' with hp''
            exact e (by rw [← hn', ← hn'', hp''])
          simp [List.getElem?_set, this]
    case setBeamLoadDistributed => exact upd _ _ _ _ h he (fun _ => rfl)
    case setBeamLoadConcentrated => exact upd _ _ _ _ h he (fun _ => rfl)
    case setNodalRestraint => subst he; split <;> rfl
    all_goals first
      | (subst he; rfl)
      | (obtain ⟨_, _, rfl⟩ := he; rfl)
      | (obtain ⟨_, _, _, _, rfl⟩ := he; rfl)
      | (obtain ⟨_, _, _, _, _, _, rfl⟩ := he; rfl)
      | (obtain ⟨_, _, _, _, _, _, _, _, rfl⟩ := he; rfl)
  · intro a c e h he
    cases c
    case addLoadpattern => simp [Api.edit, pure, Except.pure] at he
    case setNodalLoad p n f =>
      have hn : a.loadpatterns.get? p = none := by
        cases hg : a.loadpatterns.get? p with
        | none => rfl
        | some r =>
          obtain ⟨pat, hp, _⟩ := h.pat_refs p r hg
          have := (edit_ok_iff a (.setNodalLoad p n f) _).mpr ⟨r, pat, hg, hp, rfl⟩
          rw [this] at he; simp at he
      funext q
      simp only [abs, loadReg]
      by_cases hq : q = p
      · subst hq; simp [patLoads, hn]
      · simp [hq]
    all_goals rfl

theorem getAllNodalLoad_eq (w : World) (h : ApiInv w.api) (p : String) :
    w.getAllNodalLoad p = patLoads w.api p := by
  simp only [World.getAllNodalLoad, patLoads, Dict.getItem]
  cases hg : w.api.loadpatterns.get? p with
  | none => rfl
  | some r =>
    obtain ⟨pat, hp, _⟩ := h.pat_refs p r hg
    simp [PatHeap.deref, hp, tryOption, bind, Except.bind, pure, Except.pure, LoadPattern.getNodalFDict]

/-- After every history of API calls `get_all_nodal_load(p)` answers as the abstract register `Spec.loadReg` says: `None`
for a pattern that was never created, otherwise for each node the load of the latest `set_nodal_load(p,n,...)` since the
pattern was last created; and `get_nodal_load(p,n)` is the entry of that table (`None` when there is none). -/
theorem C09_nodal_loads (env : Env) (cs : List Call) (p : String) :
    ((World.init.run env cs).getAllNodalLoad p).map (fun d n => d.get? n) = (loadReg.run cs).cur p ∧
    ∀ n, (World.init.run env cs).getNodalLoad p n = ((loadReg.run cs).cur p).bind (fun g => g n) := by
  have hI := (ApiInv_run env cs).1
  rw [← loadReg_refined env cs, getAllNodalLoad_eq _ hI]
  refine ⟨rfl, fun n => ?_⟩
  simp only [World.getNodalLoad, patLoads, Dict.getItem]
  cases hg : (World.init.run env cs).api.loadpatterns.get? p with
  | none => rfl
  | some r =>
    obtain ⟨pat, hp, _⟩ := hI.pat_refs p r hg
    simp only [PatHeap.deref, hp, bind, Except.bind, pure, Except.pure, LoadPattern.getNodalF, Option.bind_some,
      Option.map_some]
    cases pat.nodalLoad.get? n <;> rfl

/-- Read-back: the load last set for a node is returned until it is set again, the pattern is re-created or an older
state is loaded. -/
theorem C09_readback (env : Env) (cs cs' : List Call) (p n : String) (f : Vec 6)
    (hp : (World.init.run env cs).getAllNodalLoad p ≠ none)
    (h : ∀ k ∈ cs', (∀ f, k ≠ .setNodalLoad p n f) ∧ k ≠ .addLoadpattern p ∧ (∀ f, k ≠ .load f)) :
    (World.init.run env (cs ++ .setNodalLoad p n f :: cs')).getNodalLoad p n = some f := by
  rw [(C09_nodal_loads env _ p).2]
  have hp' : ((loadReg.run cs).cur p).isSome := by
    rw [← (C09_nodal_loads env cs p).1]
    simpa [Option.isSome_iff_ne_none] using hp
  simp only [Machine.run, List.foldl_append, List.foldl_cons]
  change ((List.foldl loadReg.step _ cs).cur p).isSome at hp'
  generalize List.foldl loadReg.step _ cs = s at hp'
  obtain ⟨g0, hg0⟩ := Option.isSome_iff_exists.mp hp'
  have h0 : ((loadReg.step s (.setNodalLoad p n f)).cur p).bind (fun g => g n) = some f := by
    simp [Machine.step, loadReg, hg0]
  generalize loadReg.step s (.setNodalLoad p n f) = t at h0
  clear hp' hg0
  induction cs' generalizing t with
  | nil => exact h0
  | cons k cs' ih =>
    rw [List.foldl_cons]
    apply ih (fun c hc => h c (List.mem_cons_of_mem _ hc))
    obtain ⟨h1, h2, h3⟩ := h k List.mem_cons_self
    cases k
    case load f => exact absurd rfl (h3 f)
    case addLoadpattern q =>
      have : p ≠ q := fun e => h2 (by rw [e])
      simpa [Machine.step, loadReg, this] using h0
    case setNodalLoad q m f' =>
      by_cases e : p = q
      · subst e
        have hm : n ≠ m := fun e => h1 f' (by rw [e])
        obtain ⟨g, hg, hgn⟩ := Option.bind_eq_some_iff.mp h0
        simp [Machine.step, loadReg, hg, hm, hgn]
      · simpa [Machine.step, loadReg, e] using h0
    all_goals exact h0

/-- two patterns and two nodes with different loads -/
example (env : Env) (f g : Vec 6) : (World.init.run env ([.addLoadpattern "p", .addLoadpattern "q"] ++
    .setNodalLoad "p" "A" f :: [.setNodalLoad "q" "A" g, .setNodalLoad "p" "B" g])).getNodalLoad "p" "A" = some f := by
  apply C09_readback
  · rw [getAllNodalLoad_eq _ (ApiInv_run env _).1]
    simp [run_cons, run_nil, step_addLoadpattern, World.init, Api.init, Dict.set, patLoads, Dict.get?]
  · intro k hk; simp at hk; rcases hk with rfl | rfl <;> simp

end Hyperstatic
