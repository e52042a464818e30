import Verif.Lemmas.World
import Verif.Lemmas.Demo
import Verif.Lemmas.Structure
import Verif.Spec.Registry

/-
C10, C11, C12: load cases.
-/

namespace Hyperstatic
open Matrix Spec

/-! ### C10 A load case sees later edits of its patterns -/

/-- the pattern object of the table -/
def patObj (a : Api) (p : String) : Option LoadPattern := (a.loadpatterns.get? p).bind fun r => a.heap[r]?

/-- what is registered of a pattern object -/
def toReg (p : LoadPattern) : PatReg :=
  ⟨fun n => p.nodalLoad.get? n, fun b => (p.beamDist.get? b).map fun v => ![v 0, v 6, v 1, v 7, v 2, v 8, v 3, v 9],
    fun b => p.beamConc.get? b⟩

/-- the cases of an api refer to the patterns of its table -/
def Linked (a : Api) : Prop :=
  ∀ c lc, a.loadcases.get? c = some lc → ∀ p r, lc.pattern.get? p = some r → a.loadpatterns.get? p = some r

theorem ApiInv.patObj_eq {a : Api} (h : ApiInv a) {p : String} {r : ℕ} (hp : a.loadpatterns.get? p = some r) :
    ∃ pat, a.heap[r]? = some pat ∧ patObj a p = some pat := by
  obtain ⟨pat, h1, _⟩ := h.pat_refs p r hp
  exact ⟨pat, h1, by unfold patObj; rw [hp]; exact h1⟩

theorem patObj_upd {a a' : Api} (h : ApiInv a) {p : String} {g : LoadPattern → LoadPattern} (e : PatUpd a p g a') (q : String) :
    patObj a' q = if q = p then (patObj a p).map g else patObj a q := by
  obtain ⟨r, pat, h1, h2, rfl⟩ := e
  have hlt : r < a.heap.length := (List.getElem?_eq_some_iff.mp h2).1
  unfold patObj
  by_cases e : q = p
  · subst e
    rw [show a.heap[r]? = some a.heap[r] from List.getElem?_eq_getElem hlt] at h2
    injection h2 with h2
    simp [h1, hlt, h2]
  · simp only [e, if_false]
    cases hq : a.loadpatterns.get? q with
    | none => rfl
    | some r' =>
      obtain ⟨pat', hp', hn'⟩ := h.pat_refs q r' hq
      obtain ⟨pat'', hp'', hn''⟩ := h.pat_refs p r h1
      have : r ≠ r' := by
        rintro rfl
        rw [hp'] at hp''
        injection hp'' with hp''
        exact e (by rw [← hn', ← hn'', hp''])
      simp [List.getElem?_set, this]

/-- the register of an api -/
def absReg (a : Api) : CaseReg :=
  ⟨fun p => (patObj a p).map toReg, fun c => (a.loadcases.get? c).map fun lc p => lc.loadFactor.get? p⟩

theorem Linked_upd {a a' : Api} (h : Linked a) {p : String} {g : LoadPattern → LoadPattern} (e : PatUpd a p g a') : Linked a' := by
  obtain ⟨r, pat, _, _, rfl⟩ := e
  exact h

/-- invariant of C10 -/
structure LoadInv (a : Api) : Prop extends ApiInv a where
  linked : Linked a

theorem LoadInv_edit {w : World} {c : Call} {a' : Api} (hP : ∀ p, c = .addLoadpattern p → w.api.loadpatterns.get? p = none)
    (h : LoadInv w.api) (he : w.api.edit c = .ok a') : LoadInv a' := by
  refine ⟨ApiInv_edit h.toApiInv he, ?_⟩
  have hl := h.linked
  rw [edit_ok_iff] at he
  cases c <;> simp only [EditEff] at he
  case setNodalRestraint => subst he; split <;> exact hl
  case setNodalLoad => exact Linked_upd hl he
  case setBeamLoadDistributed => exact Linked_upd hl he
  case setBeamLoadConcentrated => exact Linked_upd hl he
  case addLoadpattern p =>
    subst he
    intro c lc hc q r hq
    have := hl c lc hc q r hq
    show (w.api.loadpatterns.set p _).get? q = _
    rw [Dict.get?_set_ne _ _ ?_]
    · exact this
    · rintro rfl
      rw [hP p rfl] at this
      cases this
  case addStaticCase n =>
    subst he
    intro c lc hc q r hq
    simp only [Dict.get?_set] at hc
    split at hc
    · cases hc; cases hq
    · exact hl c lc hc q r hq
  case addModalCase n =>
    subst he
    intro c lc hc q r hq
    simp only [Dict.get?_set] at hc
    split at hc
    · cases hc; cases hq
    · exact hl c lc hc q r hq
  case setLoadcaseNodalRestraint c0 n f =>
    obtain ⟨lc0, h0, rfl⟩ := he
    intro c lc hc q r hq
    simp only [Dict.get?_set] at hc
    split at hc
    · cases hc; exact hl c0 lc0 h0 q r hq
    · exact hl c lc hc q r hq
  case addCasePattern c0 p fac =>
    obtain ⟨lc0, r0, pat, h0, h1, h2, rfl⟩ := he
    have hn : pat.name = p := by
      obtain ⟨pat', h3, h4⟩ := h.pat_refs p r0 h1
      rw [h2] at h3; cases h3; exact h4
    intro c lc hc q r hq
    simp only [Dict.get?_set] at hc
    split at hc
    · cases hc
      simp only [LoadCase.addPattern, Dict.get?_set] at hq
      split at hq
      · rename_i e
        cases hq
        show w.api.loadpatterns.get? q = some r0
        rw [← e, hn]; exact h1
      · exact hl c0 lc0 h0 q r hq
    · exact hl c lc hc q r hq
  all_goals first
    | (exact he.elim)
    | (subst he; exact hl)
    | (obtain ⟨_, _, rfl⟩ := he; exact hl)
    | (obtain ⟨_, _, _, _, rfl⟩ := he; exact hl)
    | (obtain ⟨_, _, _, _, _, _, rfl⟩ := he; exact hl)
    | (obtain ⟨_, _, _, _, _, _, _, _, rfl⟩ := he; exact hl)

theorem absReg_upd {a a' : Api} (h : ApiInv a) {p : String} {g : LoadPattern → LoadPattern} (e : PatUpd a p g a')
    {k : PatReg → PatReg} (hk : ∀ q, toReg (g q) = k (toReg q)) : absReg a' = (absReg a).upd p k := by
  have hc : a'.loadcases = a.loadcases := by obtain ⟨r, pat, _, _, rfl⟩ := e; rfl
  unfold absReg CaseReg.upd
  rw [hc]
  congr 1
  funext q
  rw [patObj_upd h e]
  by_cases hq : q = p
  · subst hq
    simp only [if_true, Option.map_map]
    congr 1
    funext x
    exact hk x
  · simp only [hq, if_false]

theorem patUpd_error {a : Api} (h : ApiInv a) {p : String} {g : LoadPattern → LoadPattern} {e : PyErr} (he : a.updPattern p g = .error e) :
    a.loadpatterns.get? p = none := by
  cases hg : a.loadpatterns.get? p with
  | none => rfl
  | some r =>
    obtain ⟨pat, hp, _⟩ := h.pat_refs p r hg
    rw [(patUpd_ok_iff a p g _).mpr ⟨r, pat, hg, hp, rfl⟩] at he
    cases he

theorem absReg_upd_none {a : Api} {p : String} (h : a.loadpatterns.get? p = none) (k : PatReg → PatReg) :
    (absReg a).upd p k = absReg a := by
  unfold absReg CaseReg.upd
  congr 1
  funext q
  by_cases hq : q = p
  · subst hq; simp [patObj, h]
  · simp [hq]

theorem caseReg_refined (env : Env) (cs : List Call) (hP : NoRecreate env World.init cs) :
    absReg (World.init.run env cs).api = (caseReg.run cs).cur := by
  apply refinesG env caseReg absReg LoadInv (fun w c => ∀ p, c = .addLoadpattern p → w.api.loadpatterns.get? p = none) _ _ _ _ _ _ hP
  · simp [absReg, patObj, caseReg, Api.init]
  · exact ⟨ApiInv_init, by intro c lc hc; simp [Api.init] at hc⟩
  · exact fun w c a' hP h he => LoadInv_edit hP h he
  · intro w c a' hP hI he
    have h := hI.toApiInv
    rw [edit_ok_iff] at he
    cases c <;> simp only [EditEff] at he
    case addLoadpattern p =>
      subst he
      unfold absReg caseReg
      simp only
      congr 1
      funext q
      unfold patObj
      simp only [Dict.get?_set]
      by_cases e : p = q
      · subst e; simp [LoadPattern.new, toReg, PatReg.empty]
      · simp only [e, Ne.symm e, if_false]
        cases hq : w.api.loadpatterns.get? q with
        | none => rfl
        | some r =>
          obtain ⟨pat, hp, _⟩ := h.pat_refs q r hq
          have hlt : r < w.api.heap.length := (List.getElem?_eq_some_iff.mp hp).1
          simp [List.getElem?_append_left hlt]
    case setNodalLoad p n f =>
      apply absReg_upd h he
      intro q
      simp only [toReg, LoadPattern.setNodalLoad, PatReg.mk.injEq, and_true]
      funext m
      rw [Dict.get?_set]
      simp [eq_comm]
    case setBeamLoadDistributed p b pi pj qi2 qj2 qi3 qj3 ti tj =>
      apply absReg_upd h he
      intro q
      simp only [toReg, LoadPattern.setBeamLoadDist, PatReg.mk.injEq, and_true, true_and]
      funext m
      rw [Dict.get?_set]
      by_cases e : b = m
      · subst e; simp
      · simp [e, Ne.symm e]
    case setBeamLoadConcentrated p b F1 F2 F3 M1 M2 M3 r =>
      apply absReg_upd h he
      intro q
      simp only [toReg, LoadPattern.setBeamLoadConc, PatReg.mk.injEq, true_and]
      funext m
      rw [Dict.get?_set]
      simp [eq_comm]
    case addStaticCase n =>
      subst he
      unfold absReg caseReg
      simp only
      congr 1
      funext q
      rw [Dict.get?_set]
      by_cases e : n = q
      · subst e; simp [LoadCase.new]
      · simp [e, Ne.symm e]
    case addModalCase n =>
      subst he
      unfold absReg caseReg
      simp only
      congr 1
      funext q
      rw [Dict.get?_set]
      by_cases e : n = q
      · subst e; simp [LoadCase.new]
      · simp [e, Ne.symm e]
    case setLoadcaseNodalRestraint c0 n f =>
      obtain ⟨lc0, h0, rfl⟩ := he
      unfold absReg caseReg
      simp only
      congr 1
      funext q
      rw [Dict.get?_set]
      by_cases e : c0 = q
      · subst e; simp [h0, LoadCase.setNodalRestraint]
      · simp [e]
    case addCasePattern c0 p fac =>
      obtain ⟨lc0, r0, pat, h0, h1, h2, rfl⟩ := he
      have hn : pat.name = p := by
        obtain ⟨pat', h3, h4⟩ := h.pat_refs p r0 h1
        rw [h2] at h3; cases h3; exact h4
      have hs : ((patObj w.api p).map toReg).isSome := by simp [patObj, h1, h2]
      unfold absReg caseReg
      simp only
      congr 1
      funext q
      rw [Dict.get?_set]
      by_cases e : c0 = q
      · subst e
        simp only [if_true, h0, Option.map_some, hs, and_true, LoadCase.addPattern, hn, Option.some.injEq]
        funext m
        rw [Dict.get?_set]
        simp [eq_comm]
      · simp [e, Ne.symm e]
    case setNodalRestraint => subst he; split <;> rfl
    all_goals first
      | (exact he.elim)
      | (subst he; rfl)
      | (obtain ⟨_, _, rfl⟩ := he; rfl)
      | (obtain ⟨_, _, _, _, rfl⟩ := he; rfl)
      | (obtain ⟨_, _, _, _, _, _, rfl⟩ := he; rfl)
      | (obtain ⟨_, _, _, _, _, _, _, _, rfl⟩ := he; rfl)
  · intro w c e hP hI he
    have h := hI.toApiInv
    cases c
    case addLoadpattern => simp [Api.edit, pure, Except.pure] at he
    case addStaticCase => simp [Api.edit, pure, Except.pure] at he
    case addModalCase => simp [Api.edit, pure, Except.pure] at he
    case setNodalLoad p n f => exact absReg_upd_none (patUpd_error h he) _
    case setBeamLoadDistributed => exact absReg_upd_none (patUpd_error h he) _
    case setBeamLoadConcentrated => exact absReg_upd_none (patUpd_error h he) _
    case addCasePattern c0 p fac =>
      unfold absReg caseReg
      simp only
      congr 1
      funext q
      by_cases e : q = c0
      · subst e
        simp only [if_true]
        cases h0 : w.api.loadcases.get? q with
        | none => rfl
        | some lc =>
          cases h1 : w.api.loadpatterns.get? p with
          | none => simp [patObj, h1]
          | some r =>
            obtain ⟨pat, h2, h3⟩ := h.pat_refs p r h1
            rw [(edit_ok_iff _ (.addCasePattern q p fac) _).mpr ⟨lc, r, pat, h0, h1, h2, rfl⟩] at he
            cases he
      · simp [e]
    all_goals rfl

theorem toReg_beamF (p : LoadPattern) (b : String) (l : ℝ) : p.getBeamF b l = (toReg p).beamF b l := by
  unfold LoadPattern.getBeamF PatReg.beamF toReg
  simp only
  have h0 : (fun _ => 0 : Vec 12) = 0 := rfl
  cases h1 : p.beamDist.get? b <;> cases h2 : p.beamConc.get? b <;> simp [h0, distF]

/-- The property for one history: the cases that exist are the registered ones, and the loads a case applies at every node and
beam are the registered loads of its patterns, each pattern name counted once with its registered factor. -/
def C10_holds (env : Env) (cs : List Call) : Prop :=
  ∀ c, ((World.init.run env cs).api.loadcases.get? c).isSome = ((caseReg.run cs).cur.cases c).isSome ∧
    ∀ lc g, (World.init.run env cs).api.loadcases.get? c = some lc → (caseReg.run cs).cur.cases c = some g →
      ∃ names : List String, names.Nodup ∧ (∀ p, p ∈ names ↔ (g p).isSome) ∧
        (∀ n t, t < 2 → lc.getNodalF (World.init.run env cs).api.heap n t = .ok ((caseReg.run cs).cur.nodeLoad g names n)) ∧
        (∀ b l, lc.getBeamF (World.init.run env cs).api.heap b l = .ok ((caseReg.run cs).cur.beamLoad g names b l))

/-- the property -/
def C10_claim : Prop := ∀ env cs, C10_holds env cs

/-- C10 for all histories that do not create an existing pattern again: whatever the order of `add_case_pattern` and of the
load-setting calls, the case applies the latest loads of its patterns with the latest factors. -/
theorem C10_live_partial (env : Env) (cs : List Call) (hP : NoRecreate env World.init cs) : C10_holds env cs := by
  have hreg := caseReg_refined env cs hP
  have hI : LoadInv (World.init.run env cs).api :=
    (WInv_run env (fun w c => ∀ p, c = .addLoadpattern p → w.api.loadpatterns.get? p = none) (fun w c a' hP h he => LoadInv_edit hP h he)
      World.init cs hP (WInv_init ⟨ApiInv_init, by intro c lc hc; simp [Api.init] at hc⟩)).1
  unfold C10_holds
  rw [← hreg]
  generalize (World.init.run env cs).api = a at hI
  intro c
  refine ⟨by simp [absReg], ?_⟩
  intro lc g hlc hg
  have hC := hI.case_ok c lc hlc
  simp only [absReg, hlc, Option.map_some, Option.some.injEq] at hg
  subst hg
  have hpat : ∀ p ∈ lc.loadFactor.keys, ∃ pat, Hyperstatic.patOf a.heap lc p = some pat ∧ patObj a p = some pat := by
    intro p hp
    rw [← hC.pattern_keys] at hp
    obtain ⟨r, hr⟩ := dict_mem_keys hp
    have h1 := hI.linked c lc hlc p r hr
    obtain ⟨pat, h2, h3⟩ := hI.toApiInv.patObj_eq h1
    exact ⟨pat, by unfold Hyperstatic.patOf; rw [hr]; exact h2, h3⟩
  refine ⟨lc.loadFactor.keys, hC.factor_wf, fun p => (Dict.get?_isSome_iff _ _).symm, ?_, ?_⟩
  · intro n t ht
    rw [hC.getNodalF_eq n ht, hC.sum_patterns]
    unfold CaseReg.nodeLoad
    congr 2
    symm
    apply map_keys_eq _ hC.factor_wf
    intro p φ hp
    obtain ⟨pat, h1, h2⟩ := hpat p (Dict.mem_keys_of_get? hp)
    simp [h1, hp, absReg, h2, toReg]
  · intro b l
    rw [hC.getBeamF_eq, hC.sum_patterns]
    unfold CaseReg.beamLoad
    congr 2
    symm
    apply map_keys_eq _ hC.factor_wf
    intro p φ hp
    obtain ⟨pat, h1, h2⟩ := hpat p (Dict.mem_keys_of_get? hp)
    simp [h1, hp, absReg, h2, toReg_beamF]

/-- a pattern added to a case twice and loaded afterwards -/
def laterCalls : List Call :=
  [.addLoadpattern "P", .addStaticCase "C", .addCasePattern "C" "P" 1, .setNodalLoad "P" "n" ![1, 0, 0, 0, 0, 0], .addCasePattern "C" "P" 3]

theorem later_noRecreate (env : Env) : NoRecreate env World.init laterCalls := by
  unfold laterCalls NoRecreate
  simp only [AllCalls, and_true]
  refine ⟨?_, ?_, ?_, ?_, ?_⟩
  · intro p _; simp [World.init, Api.init]
  all_goals (intro p h; cases h)

/-- the load counts once, with factor three -/
example (env : Env) : ∃ lc, (World.init.run env laterCalls).api.loadcases.get? "C" = some lc ∧
    lc.getNodalF (World.init.run env laterCalls).api.heap "n" 0 = .ok ![3, 0, 0, 0, 0, 0] := by
  obtain ⟨h1, h2⟩ := C10_live_partial env laterCalls (later_noRecreate env) "C"
  have hg : (caseReg.run laterCalls).cur.cases "C" = some fun q => if q = "P" then some 3 else none := by
    simp [laterCalls, Machine.run, Machine.step, caseReg, CaseReg.upd]
    funext q
    by_cases h : q = "P" <;> simp [h]
  rw [hg] at h1
  obtain ⟨lc, hlc⟩ := Option.isSome_iff_exists.mp (h1.trans rfl)
  refine ⟨lc, hlc, ?_⟩
  obtain ⟨names, h3, h4, h5, _⟩ := h2 lc _ hlc hg
  rw [h5 "n" 0 (by norm_num)]
  have : names = ["P"] := by
    have hp : names.Perm ["P"] := by
      rw [List.perm_ext_iff_of_nodup h3 (by simp)]
      intro q
      rw [h4]
      by_cases h : q = "P" <;> simp [h]
    exact List.perm_singleton.mp hp
  subst this
  simp [CaseReg.nodeLoad, laterCalls, Machine.run, Machine.step, caseReg, CaseReg.upd, PatReg.empty]

/-- a pattern created again after it was added to a case -/
def recreateCalls : List Call :=
  [.addLoadpattern "P", .addStaticCase "C", .addCasePattern "C" "P" 1, .addLoadpattern "P", .setNodalLoad "P" "n" ![1, 0, 0, 0, 0, 0]]

theorem recreate_run (env : Env) : World.init.run env recreateCalls = ⟨⟨FeModel.empty,
    [("C", ⟨"C", .static, [("P", 0)], [("P", 1)], [("P", [1, 1])], []⟩)], [("P", 1)],
    [LoadPattern.new "P", ⟨"P", [("n", ![1, 0, 0, 0, 0, 0])], [], [], []⟩]⟩, []⟩ := by
  unfold recreateCalls
  rw [run_cons, step_addLoadpattern, run_cons, step_addStaticCase, run_cons,
    step_addCasePattern_of env _ _ _ _ (LoadCase.new "C" .static) 0 _ rfl rfl rfl, run_cons, step_addLoadpattern, run_cons,
    step_setNodalLoad_of env _ _ _ _ 1 (LoadPattern.new "P") rfl rfl, run_nil]
  rfl

/-- Creating a pattern again cuts the link: the case keeps the old object and ignores all later loads. -/
theorem C10_false : ¬ C10_claim := by
  intro h
  obtain ⟨h1, h2⟩ := h idealEnv recreateCalls "C"
  have hg : (caseReg.run recreateCalls).cur.cases "C" = some fun q => if q = "P" then some 1 else none := by
    simp [recreateCalls, Machine.run, Machine.step, caseReg, CaseReg.upd]
  obtain ⟨names, h3, h4, h5, _⟩ := h2 _ _ (by rw [recreate_run]; rfl) hg
  have := h5 "n" 0 (by norm_num)
  have hn : names = ["P"] := by
    have hp : names.Perm ["P"] := by
      rw [List.perm_ext_iff_of_nodup h3 (by simp)]
      intro q
      rw [h4]
      by_cases h : q = "P" <;> simp [h]
    exact List.perm_singleton.mp hp
  subst hn
  rw [recreate_run] at this
  have e : (caseReg.run recreateCalls).cur.nodeLoad (fun q => if q = "P" then some 1 else none) ["P"] "n" = ![1, 0, 0, 0, 0, 0] := by
    simp [CaseReg.nodeLoad, recreateCalls, Machine.run, Machine.step, caseReg, CaseReg.upd, PatReg.empty]
  rw [e] at this
  have e2 : (LoadCase.mk "C" .static [("P", 0)] [("P", 1)] [("P", [1, 1])] []).getNodalF
      [LoadPattern.new "P", ⟨"P", [("n", ![1, 0, 0, 0, 0, 0])], [], [], []⟩] "n" 0 = .ok (fun _ => 0) := rfl
  rw [e2] at this
  have := congrFun (Except.ok.inj this) 0
  norm_num at this

/-! ### C11 Case load is the factored sum of its patterns -/

theorem FreshInv.entryF {a : Api} (h : FreshInv a) {x : Assembly} (hx : x.model = a.model) {c : String} {lc : LoadCase}
    (hc : x.cases.get? c = some lc) (hlc : CaseInv x.heap c lc) {t : ℕ} (ht : t < 2) {f : Coo} (hf : x.assembleF c t = .ok f)
    {i : ℕ} {n : String} (hi : a.model.nodes.keys[i]? = some n) (r : Fin 6) :
    f.get (6 * i + r.val) 0 = externalWork a.model x.heap lc (unitAt n r) := by
  have hn : n ∈ a.model.nodes.keys := List.mem_of_getElem? hi
  have e : f.get (6 * i + r.val) 0 = bil f.ents (fun k => if k = 6 * i + r.val then 1 else 0) (fun _ => 1) := by
    rw [Coo.get_eq_bil]
    unfold bil
    congr 1
    apply List.map_congr_left
    intro e he
    obtain ⟨_, h2, h3⟩ := assembleF_shape hf
    have := (h3 e he).2
    rw [h2] at this
    have : e.2.1 = 0 := by omega
    simp [this]
  rw [e, assembleF_bil h.toApiInv hx hc hlc ht hf]
  have hg := h.gat_unit hi r
  rw [externalWork_eq, externalWork_eq]
  congr 2
  · apply List.map_congr_left
    intro q hq
    rw [hg q.1 (List.mem_map.mpr ⟨q, hq, rfl⟩)]
  · apply List.map_congr_left
    rintro ⟨b, be⟩ hq
    obtain ⟨_, h1, h2, _⟩ := h.beam_ok b be ((Dict.mem_iff_get? h.beams_wf b be).mp hq)
    unfold beamEnds
    rw [hg _ h1, hg _ h2]

theorem patternWork_unit {m : FeModel} (hwf : m.nodes.WF) (P : LoadPattern) {n : String} (hn : n ∈ m.nodes.keys) (r : Fin 6) :
    patternWork m P (unitAt n r) = ((P.nodalLoad.get? n).getD 0) r +
      (m.beams.map fun q => ∑ k, if beamSlot q.2 k = (n, r) then (q.2.Tᵀ *ᵥ P.getBeamF q.1 q.2.length) k else 0).sum := by
  unfold patternWork
  congr 1
  · have : ∀ l : Dict Node, l.WF → n ∈ l.keys → (l.map fun q => ((P.nodalLoad.get? q.1).getD 0) ⬝ᵥ unitAt n r q.1).sum
        = ((P.nodalLoad.get? n).getD 0) r := by
      have hz : ∀ l : Dict Node, n ∉ l.keys → (l.map fun q => ((P.nodalLoad.get? q.1).getD 0) ⬝ᵥ unitAt n r q.1).sum = 0 := by
        intro l hl
        apply list_sum_const_zero
        intro q hq
        have : q.1 ≠ n := fun e => hl (List.mem_map.mpr ⟨q, hq, e⟩)
        simp [unitAt, this, dotProduct]
      intro l
      induction l with
      | nil => intro _ h; simp [Dict.keys] at h
      | cons q l ih =>
        intro hw hm
        have hw' : (q.1 :: Dict.keys l).Nodup := hw
        rw [List.nodup_cons] at hw'
        rw [List.map_cons, List.sum_cons]
        by_cases e : q.1 = n
        · rw [hz l (e ▸ hw'.1), add_zero, e]
          simp [unitAt, dotProduct]
        · rw [ih hw'.2 (by
            have : n ∈ q.1 :: Dict.keys l := hm
            exact (List.mem_cons.mp this).resolve_left (Ne.symm e))]
          simp [unitAt, e, dotProduct]
    exact this m.nodes hwf hn
  · congr 1
    apply List.map_congr_left
    intro q _
    rw [beamEnds_eq, Matrix.dotProduct_mulVec, ← Matrix.mulVec_transpose]
    unfold dotProduct
    apply Finset.sum_congr rfl
    intro k _
    unfold unitAt
    simp [Prod.ext_iff]

/-- Row (node `n`, component `r`) of the load vector of a case: the sum over the patterns of the case of factor times (the
pattern's load on the node, plus the components at this node of the pattern's equivalent end forces, turned into global
axes, of the beams that touch the node). -/
theorem C11_entries (env : Env) (cs : List Call) (hcs : NoReadd env World.init cs) (w : World) (hw : w = World.init.run env cs)
    (x : Assembly) (hx : w.api.assembly = .ok x) (c : String) (lc : LoadCase) (hc : w.api.loadcases.get? c = some lc)
    (t : ℕ) (ht : t < 2) (f : Coo) (hf : x.assembleF c t = .ok f) :
    f.nrow = 6 * w.getNodeNames.length ∧
    ∀ (i : ℕ) (n : String), w.getNodeNames[i]? = some n → ∀ r : Fin 6,
      f.get (6 * i + r.val) 0 = ((patternsOf w.api.heap lc).map fun q => q.2 * (((q.1.nodalLoad.get? n).getD 0) r +
        (w.api.model.beams.map fun p => ∑ k, if beamSlot p.2 k = (n, r) then
          (p.2.Tᵀ *ᵥ q.1.getBeamF p.1 p.2.length) k else 0).sum)).sum := by
  have h := (FreshInv_run env cs hcs).1
  rw [← hw] at h
  obtain ⟨h1, h2, h3, _⟩ := h.toApiInv.assembly_eq hx
  have hC := h.case_ok c lc hc
  constructor
  · rw [(assembleF_shape hf).1, h1]
    unfold World.getNodeNames Dict.keys FeModel.nodeCount; rw [List.length_map]; ring
  intro i n hi r
  rw [h.entryF h1 (by rw [h3]; exact hc) (by rw [h2]; exact hC) ht hf hi r, h2]
  unfold externalWork
  congr 1
  apply List.map_congr_left
  intro q _
  rw [patternWork_unit h.nodes_wf q.1 (List.mem_of_getElem? hi)]

/-- In terms of load vectors only: if every pattern of case `c` is the single pattern, with factor one, of a case
`unit p`, then the load vector of `c` is the sum over its patterns of factor times the load vector of `unit p`. -/
theorem C11_sum (env : Env) (cs : List Call) (hcs : NoReadd env World.init cs) (w : World) (hw : w = World.init.run env cs)
    (x : Assembly) (hx : w.api.assembly = .ok x) (c : String) (lc : LoadCase) (hc : w.api.loadcases.get? c = some lc)
    (unit : LoadPattern → String) (F : LoadPattern → Coo)
    (hu : ∀ q ∈ patternsOf w.api.heap lc, ∃ lu, w.api.loadcases.get? (unit q.1) = some lu ∧ patternsOf w.api.heap lu = [(q.1, 1)])
    (hF : ∀ q ∈ patternsOf w.api.heap lc, x.assembleF (unit q.1) 0 = .ok (F q.1)) (f : Coo) (hf : x.assembleF c 0 = .ok f)
    (i : ℕ) (hi : i < w.getNodeNames.length) (r : Fin 6) :
    f.get (6 * i + r.val) 0 = ((patternsOf w.api.heap lc).map fun q => q.2 * (F q.1).get (6 * i + r.val) 0).sum := by
  have hn := List.getElem?_eq_getElem hi
  rw [(C11_entries env cs hcs w hw x hx c lc hc 0 (by norm_num) f hf).2 i _ hn r]
  congr 1
  apply List.map_congr_left
  intro q hq
  obtain ⟨lu, h1, h2⟩ := hu q hq
  rw [(C11_entries env cs hcs w hw x hx _ lu h1 0 (by norm_num) _ (hF q hq)).2 i _ hn r, h2]
  simp

/-- Two cases with the same patterns, the factors of the second `s` times those of the first: the load vector is `s` times as
large. -/
theorem C11_scaling (env : Env) (cs : List Call) (hcs : NoReadd env World.init cs) (w : World) (hw : w = World.init.run env cs)
    (x : Assembly) (hx : w.api.assembly = .ok x) (c c' : String) (lc lc' : LoadCase) (hc : w.api.loadcases.get? c = some lc)
    (hc' : w.api.loadcases.get? c' = some lc') (s : ℝ)
    (hs : patternsOf w.api.heap lc' = (patternsOf w.api.heap lc).map fun q => (q.1, s * q.2))
    (t : ℕ) (ht : t < 2) (f f' : Coo) (hf : x.assembleF c t = .ok f) (hf' : x.assembleF c' t = .ok f')
    (i : ℕ) (hi : i < w.getNodeNames.length) (r : Fin 6) :
    f'.get (6 * i + r.val) 0 = s * f.get (6 * i + r.val) 0 := by
  have hn := List.getElem?_eq_getElem hi
  rw [(C11_entries env cs hcs w hw x hx c lc hc t ht f hf).2 i _ hn r,
    (C11_entries env cs hcs w hw x hx c' lc' hc' t ht f' hf').2 i _ hn r, hs, List.map_map, ← List.sum_map_mul_left]
  congr 1
  apply List.map_congr_left
  intro q _
  simp only [Function.comp]
  ring

/-- the loaded end of the example cantilever: load (1..6), factor two -/
example (env : Env) : ∃ x f, (World.init.run env demoCalls).api.assembly = .ok x ∧ x.assembleF "C" 0 = .ok f ∧
    ∀ r : Fin 6, f.get (6 * 1 + r.val) 0 = 2 * (r.val + 1) := by
  obtain ⟨c, hc, hr⟩ := demo_run env
  have h := (FreshInv_run env demoCalls (demo_noReadd env)).1
  obtain ⟨x, hx⟩ := h.toApiInv.assembly_ok
  obtain ⟨h1, h2, h3, _⟩ := h.toApiInv.assembly_eq hx
  have hlc : (World.init.run env demoCalls).api.loadcases.get? "C" = some demoCase := by rw [hr]; rfl
  obtain ⟨f, hf⟩ := assembleF_ok h h1 (c := "C") (lc := demoCase) (by rw [h3]; exact hlc) (by rw [h2]; exact h.case_ok _ _ hlc)
    (t := 0) (by norm_num) (by
      rw [hr]
      intro b be hb
      simp only [demoApi, demoModel, Dict.get?] at hb
      split at hb
      · cases hb; simp [demoBeam, muOf]
      · cases hb)
  refine ⟨x, f, hx, hf, fun r => ?_⟩
  rw [(C11_entries env demoCalls (demo_noReadd env) _ rfl x hx "C" demoCase hlc 0 (by norm_num) f hf).2 1 "B" (by rw [hr]; rfl) r, hr]
  have hz : ∀ l, (LoadPattern.mk "P" [("B", ![1, 2, 3, 4, 5, 6])] [] [] []).getBeamF "b" l = 0 := fun l => rfl
  simp only [demoApi, demoModel, patternsOf, demoCase, Dict.get?, List.filterMap_cons, List.filterMap_nil, List.map_cons, List.map_nil,
    if_true, List.getElem?_cons_zero, hz, Matrix.mulVec_zero, List.sum_cons, List.sum_nil, add_zero]
  fin_cases r <;> simp <;> norm_num

/-! ### C12 Case load table agrees with per-node case loads -/

/-- the contributions of the patterns of a case at a node: factor times load, in the order of the case, for the patterns that
load the node -/
noncomputable def contributions (heap : PatHeap) (lc : LoadCase) (n : String) : List (Vec 6) :=
  (patternsOf heap lc).filterMap fun q => (q.1.nodalLoad.get? n).map fun f => q.2 • f

/-- the property -/
def C12_claim : Prop :=
  ∀ (env : Env) (cs : List Call) (w : World), w = World.init.run env cs → ∀ c lc, w.api.loadcases.get? c = some lc →
    ∃ d, lc.getNodalFDict w.api.heap = .ok d ∧ ∀ n, lc.getNodalF w.api.heap n = .ok ((d.get? n).getD 0)

/-- what one load does to the entry of a node -/
noncomputable def fdStep (o : Option (Vec 6)) (f : Vec 6) : Option (Vec 6) :=
  match o with
  | some cur => some (cur + f)
  | none => some 0

theorem nodalFDict_inner (φ : ℝ) (nl : Dict (Vec 6)) (hwf : nl.WF) (res : Dict (Vec 6)) (n : String) :
    (nl.foldl (LoadCase.nodalFDictStep φ) res).get? n = match nl.get? n with
      | some f => fdStep (res.get? n) (φ • f)
      | none => res.get? n := by
  induction nl generalizing res with
  | nil => rfl
  | cons q nl ih =>
    obtain ⟨k, f⟩ := q
    have hw' : (k :: Dict.keys nl).Nodup := hwf
    rw [List.nodup_cons] at hw'
    rw [List.foldl_cons, ih hw'.2, Dict.get?_cons]
    by_cases e : k = n
    · subst e
      rw [if_pos rfl, (Dict.get?_eq_none_iff nl k).mpr hw'.1]
      simp only
      unfold LoadCase.nodalFDictStep fdStep
      cases h : res.get? k with
      | none => simp only [h, Dict.get?_set_same]; rfl
      | some cur =>
        simp only [h, Dict.get?_set_same]
        congr 2
        funext i
        simp [mul_comm]
    · rw [if_neg e]
      have : (LoadCase.nodalFDictStep φ res (k, f)).get? n = res.get? n := by
        unfold LoadCase.nodalFDictStep
        cases res.get? (k, f).1 <;> exact Dict.get?_set_ne _ _ e
      rw [this]

theorem dict_eq_map {α : Type} {d : Dict α} (h : d.WF) (dflt : α) : d = d.keys.map fun k => (k, (d.get? k).getD dflt) := by
  have := map_keys_eq d h (fun k => (k, (d.get? k).getD dflt)) (fun q => q) (by intro k v hk; simp [hk])
  rw [this]; simp

theorem CaseInv.nodalFDict {a : Api} (hA : ApiInv a) {c : String} {lc : LoadCase} (h : CaseInv a.heap c lc) :
    ∃ d, lc.getNodalFDict a.heap = .ok d ∧ ∀ n, d.get? n = (contributions a.heap lc n).foldl fdStep none := by
  have hpwf : lc.pattern.WF := by
    have := h.factor_wf
    unfold Dict.WF at this ⊢
    rw [h.pattern_keys]; exact this
  have key : ∀ (ks : List String) (res : Dict (Vec 6)), (∀ p ∈ ks, p ∈ lc.loadFactor.keys) →
      ∃ d, (ks.map fun k => (k, (lc.pattern.get? k).getD 0)).foldlM (fun res (it : String × PatRef) => do
        let pat ← a.heap.deref it.2
        pat.getNodalFDict.foldlM (fun res (nl : String × Vec 6) =>
          match res.get? nl.1 with
          | some _ => do
              let fac ← lc.loadFactor.getItem it.1
              pure (LoadCase.nodalFDictStep fac res nl)
          | none => pure (LoadCase.nodalFDictStep 0 res nl)) res) res = (.ok d : Except PyErr _) ∧
        ∀ n, d.get? n = ((ks.map fun k => (k, (lc.loadFactor.get? k).getD 0)).filterMap (fun q =>
          ((Hyperstatic.patOf a.heap lc q.1).map fun p => (p, q.2)).bind fun q =>
            (q.1.nodalLoad.get? n).map fun f => q.2 • f)).foldl fdStep (res.get? n) := by
    intro ks
    induction ks with
    | nil => intro res _; exact ⟨res, rfl, fun n => rfl⟩
    | cons k ks ih =>
      intro res hks
      obtain ⟨φ, hφ⟩ := dict_mem_keys (hks k List.mem_cons_self)
      obtain ⟨r, pat, h1, h2, h3⟩ := h.patOf ((Dict.mem_iff_get? h.factor_wf k φ).mpr hφ)
      have hinner : ∀ (nl : Dict (Vec 6)) (res : Dict (Vec 6)), nl.foldlM (fun res (nl : String × Vec 6) =>
          match res.get? nl.1 with
          | some _ => do
              let fac ← lc.loadFactor.getItem k
              pure (LoadCase.nodalFDictStep fac res nl)
          | none => pure (LoadCase.nodalFDictStep 0 res nl)) res
          = (.ok (nl.foldl (LoadCase.nodalFDictStep φ) res) : Except PyErr _) := by
        intro nl
        induction nl with
        | nil => intro res; rfl
        | cons q nl ih2 =>
          intro res
          rw [List.foldlM_cons, List.foldl_cons, ← ih2]
          cases hg : res.get? q.1 with
          | none =>
            simp only [Except.pure_eq_ok, Except.bind_ok]
            congr 1
            unfold LoadCase.nodalFDictStep
            simp only [hg]
          | some cur => simp only [Dict.getItem_of_some hφ, Except.bind_ok, Except.pure_eq_ok]
      obtain ⟨d, hd, hd2⟩ := ih (pat.nodalLoad.foldl (LoadCase.nodalFDictStep φ) res) (fun p hp => hks p (List.mem_cons_of_mem _ hp))
      refine ⟨d, ?_, ?_⟩
      · rw [List.map_cons, List.foldlM_cons]
        simp only [h1, Option.getD_some, (deref_ok_iff a.heap r pat).mpr h2, Except.bind_ok, hinner, LoadPattern.getNodalFDict]
        exact hd
      · intro n
        rw [hd2, nodalFDict_inner φ _ (hA.pat_wf pat (List.mem_of_getElem? h2)).1, List.map_cons, List.filterMap_cons]
        simp only [h3, hφ, Option.getD_some, Option.map_some, Option.bind_some]
        cases pat.nodalLoad.get? n <;> rfl
  obtain ⟨d, hd, hd2⟩ := key lc.loadFactor.keys [] (fun p hp => hp)
  refine ⟨d, ?_, ?_⟩
  · unfold LoadCase.getNodalFDict
    rw [dict_eq_map hpwf 0, h.pattern_keys]
    exact hd
  · intro n
    rw [hd2, ← dict_eq_map h.factor_wf 0]
    unfold contributions
    rw [patternsOf_eq, List.filterMap_filterMap]
    rfl

theorem fdStep_foldl (L : List (Vec 6)) : L.foldl fdStep none = match L with
    | [] => none
    | _ :: t => some t.sum := by
  cases L with
  | nil => rfl
  | cons f t =>
    rw [List.foldl_cons]
    have : ∀ (l : List (Vec 6)) (o : Vec 6), l.foldl fdStep (some o) = some (o + l.sum) := by
      intro l
      induction l with
      | nil => intro o; simp
      | cons f l ih => intro o; rw [List.foldl_cons]; show l.foldl fdStep (some (o + f)) = _; rw [ih]; simp [add_assoc]
    show t.foldl fdStep (some 0) = _
    rw [this, zero_add]

theorem contributions_sum (heap : PatHeap) (lc : LoadCase) (n : String) :
    (contributions heap lc n).sum = ((patternsOf heap lc).map fun q => q.2 • (q.1.nodalLoad.get? n).getD 0).sum := by
  unfold contributions
  have := sum_filterMap_eq (patternsOf heap lc) (fun q => (q.1.nodalLoad.get? n).map fun f => q.2 • f) (fun f => f)
    (fun q => q.2 • (q.1.nodalLoad.get? n).getD 0) (by
      intro q _
      cases q.1.nodalLoad.get? n <;> simp)
  rw [← this, List.map_id']

/-- What the table contains, after any history: a node has an entry exactly if some pattern of the case loads it; the
per-node load is the sum of all contributions, the entry of the table is the same sum without the first contribution. -/
theorem C12_exact_partial (env : Env) (cs : List Call) (w : World) (hw : w = World.init.run env cs) (c : String) (lc : LoadCase)
    (hc : w.api.loadcases.get? c = some lc) :
    ∃ d, lc.getNodalFDict w.api.heap = .ok d ∧
      (∀ n, lc.getNodalF w.api.heap n = .ok (contributions w.api.heap lc n).sum) ∧
      (∀ n, d.get? n = none ↔ ∀ q ∈ patternsOf w.api.heap lc, q.1.nodalLoad.get? n = none) ∧
      (∀ n first rest, contributions w.api.heap lc n = first :: rest → d.get? n = some rest.sum) ∧
      (∀ n, lc.getNodalF w.api.heap n = .ok ((d.get? n).getD 0) ↔ (contributions w.api.heap lc n).headD 0 = 0) := by
  have hI := (ApiInv_run env cs).1
  rw [← hw] at hI
  have hC := hI.case_ok c lc hc
  obtain ⟨d, h1, h2⟩ := hC.nodalFDict hI
  refine ⟨d, h1, ?_, ?_, ?_, ?_⟩
  · intro n
    rw [hC.getNodalF_eq n (by norm_num), contributions_sum]
  · intro n
    rw [h2, fdStep_foldl]
    constructor
    · intro h q hq
      cases hl : contributions w.api.heap lc n with
      | nil =>
        unfold contributions at hl
        rw [List.filterMap_eq_nil_iff] at hl
        simpa using hl q hq
      | cons f t => rw [hl] at h; cases h
    · intro h
      have : contributions w.api.heap lc n = [] := by
        unfold contributions
        rw [List.filterMap_eq_nil_iff]
        intro q hq
        rw [h q hq]; rfl
      rw [this]
  · intro n f t hl
    rw [h2, fdStep_foldl, hl]
  · intro n
    rw [hC.getNodalF_eq n (by norm_num), ← contributions_sum, h2, fdStep_foldl]
    cases contributions w.api.heap lc n with
    | nil => simp
    | cons f t => simp

/-- The single load of the example is missing from the table. -/
theorem C12_false : ¬ C12_claim := by
  intro h
  obtain ⟨c, hc, hr⟩ := demo_run idealEnv
  obtain ⟨d, h1, h2⟩ := h idealEnv demoCalls _ rfl "C" demoCase (by rw [hr]; rfl)
  obtain ⟨d', h3, _, _, _, h4⟩ := C12_exact_partial idealEnv demoCalls _ rfl "C" demoCase (by rw [hr]; rfl)
  rw [h1] at h3
  cases h3
  have := (h4 "B").mp (h2 "B")
  rw [hr] at this
  have h0 := congrFun this 0
  simp [contributions, patternsOf, demoCase, demoApi, Dict.get?] at h0

end Hyperstatic
