import Verif.Lemmas.Inv
import Verif.Spec.Registry

namespace Hyperstatic

open Spec

/-- Invariant of histories that never re-add an existing node name. -/
structure FreshInv (a : Api) : Prop extends ApiInv a where
  hid_eq : a.model.hidNode = a.model.nodes.keys.zipIdx
  beam_loc : ∀ b be, a.model.beams.get? b = some be →
    (∃ nd, a.model.nodes.get? be.startName = some nd ∧ nd.loc = be.startLoc) ∧
    (∃ nd, a.model.nodes.get? be.endName = some nd ∧ nd.loc = be.endLoc)
  shell_loc : ∀ s se, a.model.shells.get? s = some se → ∀ p ∈ se.nodes,
    ∃ nd, a.model.nodes.get? p.1 = some nd ∧ nd.loc = p.2

theorem FreshInv_init : FreshInv Api.init :=
  { ApiInv_init with
    hid_eq := rfl
    beam_loc := by intro b be h; simp [Api.init, FeModel.empty] at h
    shell_loc := by intro b be h; simp [Api.init, FeModel.empty] at h }

theorem FreshInv_edit {a : Api} {c : Call} {a' : Api}
    (hP : ∀ n x y z, c = .addNode n x y z → n ∉ a.model.nodes.keys)
    (h : FreshInv a) (he : a.edit c = .ok a') : FreshInv a' := by
  have hI := ApiInv_edit h.toApiInv he
  rw [edit_ok_iff] at he
  cases c <;> simp only [EditEff] at he
  case addNode name x y z =>
    have hn := hP name x y z rfl
    subst he
    have key : ∀ {k : String} {nd : Node} (v : Node), a.model.nodes.get? k = some nd →
        (a.model.nodes.set name v).get? k = some nd := by
      intro k nd v hk
      rw [Dict.get?_set_ne _ _ ?_, hk]
      rintro rfl
      exact hn (Dict.mem_keys_of_get? hk)
    refine { hI with hid_eq := ?_, beam_loc := ?_, shell_loc := ?_ }
    · show Dict.set a.model.hidNode name a.model.nodes.length = (Dict.set a.model.nodes name _).keys.zipIdx
      have hn' : name ∉ a.model.hidNode.keys := by rw [h.hid_keys]; exact hn
      rw [Dict.set_of_not_mem hn', Dict.keys_set, if_neg hn, List.zipIdx_append, h.hid_eq]
      simp [Dict.keys]
    · intro b be hb
      obtain ⟨⟨n0, h0, e0⟩, ⟨n1, h1, e1⟩⟩ := h.beam_loc b be hb
      exact ⟨⟨n0, key _ h0, e0⟩, ⟨n1, key _ h1, e1⟩⟩
    · intro s se hs p hp
      obtain ⟨n0, h0, e0⟩ := h.shell_loc s se hs p hp
      exact ⟨n0, key _ h0, e0⟩
  case setNodalMass name mass =>
    obtain ⟨nd, hnd, rfl⟩ := he
    have key : ∀ {k : String} {l : V3}, (∃ nd', a.model.nodes.get? k = some nd' ∧ nd'.loc = l) →
        ∃ nd', (a.model.nodes.set name { nd with mass := mass }).get? k = some nd' ∧ nd'.loc = l := by
      rintro k l ⟨nd', h1, h2⟩
      by_cases hk : name = k
      · subst hk
        rw [hnd] at h1; simp at h1; subst h1
        exact ⟨_, Dict.get?_set_same _ _ _, h2⟩
      · exact ⟨nd', by rw [Dict.get?_set_ne _ _ hk, h1], h2⟩
    refine { hI with hid_eq := ?_, beam_loc := ?_, shell_loc := ?_ }
    · show a.model.hidNode = (a.model.nodes.set name _).keys.zipIdx
      rw [Dict.keys_set_of_mem hnd, h.hid_eq]
    · intro b be hb
      obtain ⟨h0, h1⟩ := h.beam_loc b be hb
      exact ⟨key h0, key h1⟩
    · intro s se hs p hp
      exact key (h.shell_loc s se hs p hp)
  case addIsotropicMaterial => subst he; exact { hI, h with }
  case addBeamSectionGeneral => obtain ⟨_, _, _, _, rfl⟩ := he; exact { hI, h with }
  case addBeamSectionRectangle => obtain ⟨_, _, _, _, rfl⟩ := he; exact { hI, h with }
  case addBeamSectionI => obtain ⟨_, _, _, _, rfl⟩ := he; exact { hI, h with }
  case addBeamSectionBox => obtain ⟨_, _, _, _, rfl⟩ := he; exact { hI, h with }
  case addBeamSectionCircle => obtain ⟨_, _, _, _, rfl⟩ := he; exact { hI, h with }
  case addBeamSectionPipe => obtain ⟨_, _, _, _, rfl⟩ := he; exact { hI, h with }
  case addShellSection => obtain ⟨_, _, rfl⟩ := he; exact { hI, h with }
  case addBeam name start stop sec =>
    obtain ⟨n0, n1, s, b, h0, h1, h2, h3, rfl⟩ := he
    refine { hI, h with beam_loc := ?_ }
    intro q be hq
    simp only [withBeam, Dict.get?_set] at hq
    split at hq
    · simp at hq; subst hq
      simp only [BeamElm.mk?, Except.bind_ok_iff, Except.pure_eq_ok, Except.ok.injEq] at h3
      obtain ⟨c, hc, rfl⟩ := h3
      obtain ⟨m0, e0⟩ := h.node_std _ _ h0
      obtain ⟨m1, e1⟩ := h.node_std _ _ h1
      have hn0 : n0.name = start := by rw [e0]; rfl
      have hn1 : n1.name = stop := by rw [e1]; rfl
      exact ⟨⟨n0, by show a.model.nodes.get? n0.name = _; rw [hn0, h0], rfl⟩,
        ⟨n1, by show a.model.nodes.get? n1.name = _; rw [hn1, h1], rfl⟩⟩
    · exact h.beam_loc q be hq
  case addSimpleBeam name start stop _ _ _ _ _ _ _ =>
    obtain ⟨n0, n1, b, h0, h1, h3, rfl⟩ := he
    refine { hI, h with beam_loc := ?_ }
    intro q be hq
    simp only [withBeam, Dict.get?_set] at hq
    split at hq
    · simp at hq; subst hq
      simp only [BeamElm.mk?, Except.bind_ok_iff, Except.pure_eq_ok, Except.ok.injEq] at h3
      obtain ⟨c, hc, rfl⟩ := h3
      obtain ⟨m0, e0⟩ := h.node_std _ _ h0
      obtain ⟨m1, e1⟩ := h.node_std _ _ h1
      have hn0 : n0.name = start := by rw [e0]; rfl
      have hn1 : n1.name = stop := by rw [e1]; rfl
      exact ⟨⟨n0, by show a.model.nodes.get? n0.name = _; rw [hn0, h0], rfl⟩,
        ⟨n1, by show a.model.nodes.get? n1.name = _; rw [hn1, h1], rfl⟩⟩
    · exact h.beam_loc q be hq
  case addShell name node1 node2 node3 node4 sec =>
    have key : ∀ {k : String} {nd : Node}, a.model.nodes.get? k = some nd →
        ∃ nd', a.model.nodes.get? nd.name = some nd' ∧ nd'.loc = nd.loc := by
      intro k nd hk
      obtain ⟨m, e⟩ := h.node_std _ _ hk
      have : nd.name = k := by rw [e]; rfl
      exact ⟨nd, by rw [this, hk], rfl⟩
    cases sec with
    | some sec =>
      obtain ⟨e, ⟨s, n0, n1, n2, n3, h0, h1, h2, h3, h4, h5⟩, rfl⟩ := he
      refine { hI, h with shell_loc := ?_ }
      intro q se hq
      simp only [withShell, Dict.get?_set] at hq
      split at hq
      · simp at hq; subst hq
        simp only [ShellElm.dkgq?, Except.bind_ok_iff, Except.pure_eq_ok, Except.ok.injEq] at h5
        obtain ⟨c, hc, rfl⟩ := h5
        intro p hp
        simp at hp
        rcases hp with rfl | rfl | rfl | rfl
        · exact key h1
        · exact key h2
        · exact key h3
        · exact key h4
      · exact h.shell_loc q se hq
    | none =>
      obtain ⟨e, ⟨s, n0, n1, n2, h0, h1, h2, h3, h5⟩, rfl⟩ := he
      refine { hI, h with shell_loc := ?_ }
      intro q se hq
      simp only [withShell, Dict.get?_set] at hq
      split at hq
      · simp at hq; subst hq
        simp only [ShellElm.dkt?, Except.bind_ok_iff, Except.pure_eq_ok, Except.ok.injEq] at h5
        obtain ⟨c, hc, rfl⟩ := h5
        intro p hp
        simp at hp
        rcases hp with rfl | rfl | rfl
        · exact key h1
        · exact key h2
        · exact key h3
      · exact h.shell_loc q se hq
  case addLoadpattern => subst he; exact { hI, h with }
  case setNodalRestraint =>
    subst he
    split at hI
    · rename_i hc; rw [if_pos hc]; exact { hI, h with }
    · rename_i hc; rw [if_neg hc]; exact h
  case setLoadcaseNodalRestraint => obtain ⟨_, _, rfl⟩ := he; exact { hI, h with }
  case setNodalLoad => obtain ⟨_, _, _, _, rfl⟩ := he; exact { hI, h with }
  case setBeamLoadDistributed => obtain ⟨_, _, _, _, rfl⟩ := he; exact { hI, h with }
  case setBeamLoadConcentrated => obtain ⟨_, _, _, _, rfl⟩ := he; exact { hI, h with }
  case addStaticCase => subst he; exact { hI, h with }
  case addModalCase => subst he; exact { hI, h with }
  case addCasePattern => obtain ⟨_, _, _, _, _, _, rfl⟩ := he; exact { hI, h with }
  all_goals (subst he; exact h)

theorem FreshInv_run (env : Env) (cs : List Call) (hP : NoReadd env World.init cs) :
    WInv FreshInv (World.init.run env cs) :=
  WInv_run env _ (fun w _ _ hP h he => FreshInv_edit (a := w.api) hP h he) _ cs hP (WInv_init FreshInv_init)

/-- Numbers of the nodes along such histories: positions in the list of names. -/
theorem FreshInv.hid_get {a : Api} (h : FreshInv a) (n : String) (i : ℕ) :
    a.model.hidNode.get? n = some i ↔ a.model.nodes.keys[i]? = some n := by
  have hwf : a.model.hidNode.WF := by
    have := h.nodes_wf
    unfold Dict.WF at *
    rw [h.hid_keys]; exact this
  rw [← Dict.mem_iff_get? hwf, h.hid_eq, List.mem_zipIdx_iff_getElem?]

end Hyperstatic
