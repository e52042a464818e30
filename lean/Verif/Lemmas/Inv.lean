import Verif.Lemmas.Edit

namespace Hyperstatic

/-- Invariant of load cases w.r.t. a pattern heap. -/
structure CaseInv (h : PatHeap) (name : String) (lc : LoadCase) : Prop where
  name_eq : lc.name = name
  factor_wf : lc.loadFactor.WF
  pattern_keys : lc.pattern.keys = lc.loadFactor.keys
  curve_keys : lc.loadCurve.keys = lc.loadFactor.keys
  curve_eq : ∀ p cv, lc.loadCurve.get? p = some cv → cv = [1, 1]
  refs : ∀ p r, lc.pattern.get? p = some r → ∃ pat : LoadPattern, h[r]? = some pat ∧ pat.name = p
  rest_wf : lc.restraint.WF

/-- Invariant of all reachable `Api` states. -/
structure ApiInv (a : Api) : Prop where
  nodes_wf : a.model.nodes.WF
  rest_wf : a.model.restraints.WF
  beams_wf : a.model.beams.WF
  shells_wf : a.model.shells.WF
  cases_wf : a.loadcases.WF
  pats_wf : a.loadpatterns.WF
  hid_keys : a.model.hidNode.keys = a.model.nodes.keys
  node_std : ∀ n nd, a.model.nodes.get? n = some nd →
    ∃ m, nd = { stdNode n nd.loc.x nd.loc.y nd.loc.z with mass := m }
  rest_keys : ∀ n, n ∈ a.model.restraints.keys → n ∈ a.model.nodes.keys
  beam_ok : ∀ b be, a.model.beams.get? b = some be → be.name = b ∧
    be.startName ∈ a.model.nodes.keys ∧ be.endName ∈ a.model.nodes.keys ∧
    lineCsys be.startLoc be.endLoc = .ok be.csys ∧ be.releases = fun _ => false
  shell_ok : ∀ s se, a.model.shells.get? s = some se → (se.nodes.length = 4 ∨ se.nodes.length = 3) ∧
    ∀ p ∈ se.nodes, p.1 ∈ a.model.nodes.keys
  shell_built : ∀ s se, a.model.shells.get? s = some se →
    (∃ name sec n0 n1 n2 n3, ShellElm.dkgq? name sec n0 n1 n2 n3 = .ok se) ∨ ∃ name sec n0 n1 n2, ShellElm.dkt? name sec n0 n1 n2 = .ok se
  pat_refs : ∀ p r, a.loadpatterns.get? p = some r → ∃ pat : LoadPattern, a.heap[r]? = some pat ∧ pat.name = p
  pat_wf : ∀ p ∈ a.heap, p.nodalLoad.WF ∧ p.beamDist.WF ∧ p.beamConc.WF
  case_ok : ∀ c lc, a.loadcases.get? c = some lc → CaseInv a.heap c lc

theorem Dict.mem_keys_set {α : Type _} (d : Dict α) (k : String) (v : α) (n : String) :
    n ∈ (d.set k v).keys ↔ n = k ∨ n ∈ d.keys := by
  rw [Dict.keys_set]
  split
  · constructor
    · exact Or.inr
    · rintro (rfl | h) <;> assumption
  · simp [or_comm]

theorem Dict.keys_set_congr {α β : Type _} {d : Dict α} {e : Dict β} (h : d.keys = e.keys) (k : String)
    (v : α) (u : β) : (d.set k v).keys = (e.set k u).keys := by
  rw [Dict.keys_set, Dict.keys_set, h]

theorem Dict.keys_set_of_mem {α : Type _} {d : Dict α} {k : String} {v u : α} (h : d.get? k = some u) :
    (d.set k v).keys = d.keys := by
  rw [Dict.keys_set, if_pos]
  rw [← Dict.get?_isSome_iff, h]; rfl

theorem Dict.mem_keys_of_get? {α : Type _} {d : Dict α} {k : String} {u : α} (h : d.get? k = some u) :
    k ∈ d.keys := by
  rw [← Dict.get?_isSome_iff, h]; rfl

theorem Dict.get?_of_mem_keys {α : Type _} {d : Dict α} {k : String} (h : k ∈ d.keys) :
    ∃ u, d.get? k = some u := by
  rw [← Dict.get?_isSome_iff] at h
  exact Option.isSome_iff_exists.mp h

theorem ApiInv_init : ApiInv Api.init := by
  constructor <;> simp [Api.init, FeModel.empty, Dict.nil_wf, Dict.keys]

theorem CaseInv.mono {h h' : PatHeap} {c : String} {lc : LoadCase} (hc : CaseInv h c lc)
    (hh : ∀ (r : ℕ) (pat : LoadPattern), h[r]? = some pat →
      ∃ pat', h'[r]? = some pat' ∧ pat'.name = pat.name) : CaseInv h' c lc where
  name_eq := hc.name_eq
  factor_wf := hc.factor_wf
  pattern_keys := hc.pattern_keys
  curve_keys := hc.curve_keys
  curve_eq := hc.curve_eq
  refs := by
    intro p r hp
    obtain ⟨pat, h1, h2⟩ := hc.refs p r hp
    obtain ⟨pat', h3, h4⟩ := hh r pat h1
    exact ⟨pat', h3, h4.trans h2⟩
  rest_wf := hc.rest_wf

theorem CaseInv.new (h : PatHeap) (c : String) (k : CaseKind) : CaseInv h c (LoadCase.new c k) := by
  constructor <;> simp [LoadCase.new, Dict.nil_wf, Dict.keys]

theorem CaseInv.restrain {h : PatHeap} {c : String} {lc : LoadCase} (hc : CaseInv h c lc) (n : String)
    (f : Flags) : CaseInv h c (lc.setNodalRestraint n f) :=
  { hc with rest_wf := Dict.set_wf hc.rest_wf _ _ }

theorem CaseInv.addPattern {h : PatHeap} {c : String} {lc : LoadCase} (hc : CaseInv h c lc)
    {r : ℕ} {p : LoadPattern} (hr : h[r]? = some p) (fac : ℝ) :
    CaseInv h c (lc.addPattern p.name r fac) where
  name_eq := hc.name_eq
  factor_wf := Dict.set_wf hc.factor_wf _ _
  pattern_keys := Dict.keys_set_congr hc.pattern_keys _ _ _
  curve_keys := Dict.keys_set_congr hc.curve_keys _ _ _
  curve_eq := by
    intro q cv hq
    simp only [LoadCase.addPattern, Dict.get?_set] at hq
    split at hq
    · simpa using hq.symm
    · exact hc.curve_eq q cv hq
  refs := by
    intro q s hq
    simp only [LoadCase.addPattern, Dict.get?_set] at hq
    split at hq
    · rename_i e
      simp at hq; subst hq
      exact ⟨p, hr, e⟩
    · exact hc.refs q s hq
  rest_wf := hc.rest_wf

theorem ApiInv.patUpd {a a' : Api} (h : ApiInv a) {pattern : String} {g : LoadPattern → LoadPattern}
    (hg : ∀ p, (g p).name = p.name)
    (hwf : ∀ p : LoadPattern, p.nodalLoad.WF ∧ p.beamDist.WF ∧ p.beamConc.WF →
      (g p).nodalLoad.WF ∧ (g p).beamDist.WF ∧ (g p).beamConc.WF)
    (e : PatUpd a pattern g a') : ApiInv a' := by
  obtain ⟨ref, p, h1, h2, rfl⟩ := e
  have hh : ∀ (r : ℕ) (pat : LoadPattern), a.heap[r]? = some pat →
      ∃ pat', (a.heap.set ref (g p))[r]? = some pat' ∧ pat'.name = pat.name := by
    intro r pat hr
    rw [List.getElem?_set]
    by_cases hrr : ref = r
    · subst hrr
      rw [h2] at hr
      simp at hr; subst hr
      have : ref < a.heap.length := (List.getElem?_eq_some_iff.mp h2).1
      simp [this, hg]
    · simp [hrr, hr]
  refine { h with pat_refs := ?_, case_ok := ?_, pat_wf := ?_ }
  · intro q r hq
    obtain ⟨pat, h3, h4⟩ := h.pat_refs q r hq
    obtain ⟨pat', h5, h6⟩ := hh r pat h3
    exact ⟨pat', h5, h6.trans h4⟩
  · intro q hq
    rcases List.mem_or_eq_of_mem_set hq with hq | rfl
    · exact h.pat_wf q hq
    · exact hwf p (h.pat_wf p (List.mem_of_getElem? h2))
  · intro c lc hc
    exact (h.case_ok c lc hc).mono hh

theorem ApiInv.withBeam {a : Api} (h : ApiInv a) {name start stop : String} {n0 n1 : Node} {p : BeamProp}
    {b : BeamElm} (h0 : a.model.nodes.get? start = some n0) (h1 : a.model.nodes.get? stop = some n1)
    (hb : BeamElm.mk? name n0 n1 p = .ok b) : ApiInv (withBeam a name b) := by
  refine { h with beams_wf := Dict.set_wf h.beams_wf _ _, beam_ok := ?_ }
  intro q be hq
  simp only [Hyperstatic.withBeam, Dict.get?_set] at hq
  split at hq
  · rename_i e
    subst e
    simp at hq; subst hq
    simp only [BeamElm.mk?, Except.bind_ok_iff, Except.pure_eq_ok, Except.ok.injEq] at hb
    obtain ⟨c, hc, rfl⟩ := hb
    obtain ⟨m0, e0⟩ := h.node_std _ _ h0
    obtain ⟨m1, e1⟩ := h.node_std _ _ h1
    have hn0 : n0.name = start := by rw [e0]; rfl
    have hn1 : n1.name = stop := by rw [e1]; rfl
    refine ⟨rfl, ?_, ?_, hc, rfl⟩
    · show n0.name ∈ _
      rw [hn0]; exact Dict.mem_keys_of_get? h0
    · show n1.name ∈ _
      rw [hn1]; exact Dict.mem_keys_of_get? h1
  · exact h.beam_ok q be hq

theorem ApiInv.withSec {a a' : Api} (h : ApiInv a) {name mat : String}
    {bld : Material → Except PyErr BeamSection} (e : SecBuild a name mat bld a') : ApiInv a' := by
  obtain ⟨_, _, _, _, rfl⟩ := e
  exact { h with }

theorem ApiInv_edit {a : Api} {c : Call} {a' : Api} (h : ApiInv a) (he : a.edit c = .ok a') : ApiInv a' := by
  rw [edit_ok_iff] at he
  cases c <;> simp only [EditEff] at he
  case addNode name x y z =>
    subst he
    refine { h with nodes_wf := Dict.set_wf h.nodes_wf _ _, hid_keys := ?_, node_std := ?_, rest_keys := ?_, beam_ok := ?_, shell_ok := ?_ }
    · exact Dict.keys_set_congr h.hid_keys _ _ _
    · intro n nd hn
      rw [Dict.get?_set] at hn
      split at hn
      · rename_i e; subst e
        simp at hn; subst hn
        exact ⟨_, rfl⟩
      · exact h.node_std n nd hn
    · intro n hn
      rw [Dict.mem_keys_set]; exact Or.inr (h.rest_keys n hn)
    · intro b be hb
      obtain ⟨h1, h2, h3, h4⟩ := h.beam_ok b be hb
      refine ⟨h1, ?_, ?_, h4⟩ <;> rw [Dict.mem_keys_set]
      · exact Or.inr h2
      · exact Or.inr h3
    · intro s se hs
      obtain ⟨h1, h2⟩ := h.shell_ok s se hs
      refine ⟨h1, ?_⟩
      intro p hp
      rw [Dict.mem_keys_set]; exact Or.inr (h2 p hp)
  case setNodalMass name mass =>
    obtain ⟨nd, hnd, rfl⟩ := he
    have hk : ∀ v, (a.model.nodes.set name v).keys = a.model.nodes.keys := fun v => Dict.keys_set_of_mem hnd
    refine { h with nodes_wf := Dict.set_wf h.nodes_wf _ _, hid_keys := ?_, node_std := ?_, rest_keys := ?_, beam_ok := ?_, shell_ok := ?_ }
    · exact h.hid_keys.trans (hk _).symm
    · intro n nd' hn
      rw [Dict.get?_set] at hn
      split at hn
      · rename_i e; subst e
        simp at hn; subst hn
        obtain ⟨m, e⟩ := h.node_std _ _ hnd
        refine ⟨mass, ?_⟩
        rw [e]; rfl
      · exact h.node_std n nd' hn
    · intro n hn
      rw [hk]; exact h.rest_keys n hn
    · intro b be hb
      obtain ⟨h1, h2, h3, h4⟩ := h.beam_ok b be hb
      refine ⟨h1, ?_, ?_, h4⟩ <;> rw [hk] <;> assumption
    · intro s se hs
      obtain ⟨h1, h2⟩ := h.shell_ok s se hs
      refine ⟨h1, ?_⟩
      intro p hp
      rw [hk]; exact h2 p hp
  case addIsotropicMaterial => subst he; exact { h with }
  case addBeamSectionGeneral => exact h.withSec he
  case addBeamSectionRectangle => exact h.withSec he
  case addBeamSectionI => exact h.withSec he
  case addBeamSectionBox => exact h.withSec he
  case addBeamSectionCircle => exact h.withSec he
  case addBeamSectionPipe => exact h.withSec he
  case addShellSection => obtain ⟨_, _, rfl⟩ := he; exact { h with }
  case addBeam =>
    obtain ⟨n0, n1, s, b, h0, h1, h2, h3, rfl⟩ := he
    exact h.withBeam h0 h1 h3
  case addSimpleBeam =>
    obtain ⟨n0, n1, b, h0, h1, h3, rfl⟩ := he
    exact h.withBeam h0 h1 h3
  case addShell name node1 node2 node3 node4 sec =>
    have key : ∀ {k : String} {nd : Node}, a.model.nodes.get? k = some nd → nd.name ∈ a.model.nodes.keys := by
      intro k nd hk
      obtain ⟨m, e⟩ := h.node_std _ _ hk
      rw [e]; exact Dict.mem_keys_of_get? hk
    cases sec with
    | some sec =>
      obtain ⟨e, ⟨s, n0, n1, n2, n3, h0, h1, h2, h3, h4, h5⟩, rfl⟩ := he
      refine { h with shells_wf := Dict.set_wf h.shells_wf _ _, shell_ok := ?_, shell_built := ?_ }
      rotate_left
      · intro q se hq
        simp only [withShell, Dict.get?_set] at hq
        split at hq
        · simp at hq; subst hq
          exact Or.inl ⟨_, _, _, _, _, _, h5⟩
        · exact h.shell_built q se hq
      intro q se hq
      simp only [withShell, Dict.get?_set] at hq
      split at hq
      · simp at hq; subst hq
        simp only [ShellElm.dkgq?, Except.bind_ok_iff, Except.pure_eq_ok, Except.ok.injEq] at h5
        obtain ⟨c, hc, rfl⟩ := h5
        refine ⟨Or.inl rfl, ?_⟩
        intro p hp
        simp at hp
        rcases hp with rfl | rfl | rfl | rfl
        · exact key h1
        · exact key h2
        · exact key h3
        · exact key h4
      · exact h.shell_ok q se hq
    | none =>
      obtain ⟨e, ⟨s, n0, n1, n2, h0, h1, h2, h3, h5⟩, rfl⟩ := he
      refine { h with shells_wf := Dict.set_wf h.shells_wf _ _, shell_ok := ?_, shell_built := ?_ }
      rotate_left
      · intro q se hq
        simp only [withShell, Dict.get?_set] at hq
        split at hq
        · simp at hq; subst hq
          exact Or.inr ⟨_, _, _, _, _, h5⟩
        · exact h.shell_built q se hq
      intro q se hq
      simp only [withShell, Dict.get?_set] at hq
      split at hq
      · simp at hq; subst hq
        simp only [ShellElm.dkt?, Except.bind_ok_iff, Except.pure_eq_ok, Except.ok.injEq] at h5
        obtain ⟨c, hc, rfl⟩ := h5
        refine ⟨Or.inr rfl, ?_⟩
        intro p hp
        simp at hp
        rcases hp with rfl | rfl | rfl
        · exact key h1
        · exact key h2
        · exact key h3
      · exact h.shell_ok q se hq
  case addLoadpattern name =>
    subst he
    have hh : ∀ (r : ℕ) (pat : LoadPattern), a.heap[r]? = some pat →
      ∃ pat', (a.heap ++ [LoadPattern.new name])[r]? = some pat' ∧ pat'.name = pat.name := by
      intro r pat hr
      have : r < a.heap.length := (List.getElem?_eq_some_iff.mp hr).1
      exact ⟨pat, by rw [List.getElem?_append_left this, hr], rfl⟩
    refine { h with pats_wf := Dict.set_wf h.pats_wf _ _, pat_refs := ?_, pat_wf := ?_, case_ok := ?_ }
    · intro p r hp
      rw [Dict.get?_set] at hp
      split at hp
      · rename_i e; subst e
        simp at hp; subst hp
        exact ⟨LoadPattern.new name, by simp, rfl⟩
      · obtain ⟨pat, h1, h2⟩ := h.pat_refs p r hp
        obtain ⟨pat', h3, h4⟩ := hh r pat h1
        exact ⟨pat', h3, h4.trans h2⟩
    · intro p hp
      simp at hp
      rcases hp with hp | rfl
      · exact h.pat_wf p hp
      · exact ⟨Dict.nil_wf, Dict.nil_wf, Dict.nil_wf⟩
    · intro c lc hc
      exact (h.case_ok c lc hc).mono hh
  case setNodalRestraint node flags =>
    subst he
    split
    · rename_i hc
      refine { h with rest_wf := Dict.set_wf h.rest_wf _ _, rest_keys := ?_ }
      intro n hn
      rw [Dict.mem_keys_set] at hn
      rcases hn with rfl | hn
      · exact (Dict.contains_iff _ _).mp hc
      · exact h.rest_keys n hn
    · exact h
  case setLoadcaseNodalRestraint case node flags =>
    obtain ⟨lc, hlc, rfl⟩ := he
    refine { h with cases_wf := Dict.set_wf h.cases_wf _ _, case_ok := ?_ }
    intro c lc' hc
    rw [Dict.get?_set] at hc
    split at hc
    · rename_i e; subst e
      simp at hc; subst hc
      exact (h.case_ok _ _ hlc).restrain _ _
    · exact h.case_ok c lc' hc
  case setNodalLoad => exact h.patUpd (by intro p; rfl) (by intro p hp; exact ⟨Dict.set_wf hp.1 _ _, hp.2⟩) he
  case setBeamLoadDistributed => exact h.patUpd (by intro p; rfl) (by intro p hp; exact ⟨hp.1, Dict.set_wf hp.2.1 _ _, hp.2.2⟩) he
  case setBeamLoadConcentrated => exact h.patUpd (by intro p; rfl) (by intro p hp; exact ⟨hp.1, hp.2.1, Dict.set_wf hp.2.2 _ _⟩) he
  case addStaticCase name =>
    subst he
    refine { h with cases_wf := Dict.set_wf h.cases_wf _ _, case_ok := ?_ }
    intro c lc' hc
    rw [Dict.get?_set] at hc
    split at hc
    · rename_i e; subst e
      simp at hc; subst hc
      exact CaseInv.new _ _ _
    · exact h.case_ok c lc' hc
  case addModalCase name =>
    subst he
    refine { h with cases_wf := Dict.set_wf h.cases_wf _ _, case_ok := ?_ }
    intro c lc' hc
    rw [Dict.get?_set] at hc
    split at hc
    · rename_i e; subst e
      simp at hc; subst hc
      exact CaseInv.new _ _ _
    · exact h.case_ok c lc' hc
  case addCasePattern case pattern factor =>
    obtain ⟨lc, ref, p, hlc, hpt, hp, rfl⟩ := he
    refine { h with cases_wf := Dict.set_wf h.cases_wf _ _, case_ok := ?_ }
    intro c lc' hc
    rw [Dict.get?_set] at hc
    split at hc
    · rename_i e; subst e
      simp at hc; subst hc
      exact (h.case_ok _ _ hlc).addPattern hp factor
    · exact h.case_ok c lc' hc
  all_goals (subst he; exact h)

/-- The invariant holds in every reachable world, its saved files and assemblies. -/
theorem ApiInv_run (env : Env) (cs : List Call) : WInv ApiInv (World.init.run env cs) :=
  WInv_run_all env (fun _ _ _ h he => ApiInv_edit h he) ApiInv_init cs

end Hyperstatic
