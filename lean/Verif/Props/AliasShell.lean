import Verif.Props.Alias
import Verif.Lemmas.ShellFields
import Verif.Props.ShellSolve

/-
C153 for shells: the corners of a shell follow the nodes when a script writes into locations.
-/

namespace Hyperstatic
open Spec

/-- shells refer to the node objects of the table -/
structure CorInv (x : Api) (i : Ids) : Prop extends IdInv x i where
  cor : ∀ s se, x.model.shells.get? s = some se → i.shell.get? s = some (se.nodes.map fun p => i.node.get? p.1) ∧
    ∀ p ∈ se.nodes, ∃ nd, x.model.nodes.get? p.1 = some nd ∧ nd.loc = p.2

theorem CorInv_init : CorInv Api.init Ids.empty := ⟨IdInv_init, fun b be h => by cases h⟩

theorem CorInv.shift {x : Api} {i : Ids} (h : CorInv x i) (k : ℕ) : CorInv x (i.shift k) := by
  refine ⟨h.toIdInv.shift k, fun s se hs => ?_⟩
  obtain ⟨h1, h2⟩ := h.cor s se hs
  refine ⟨?_, h2⟩
  have := Dict.map_get? i.shell (fun q : List (Option ℕ) => q.map (Option.map (k + ·))) s
  rw [h1] at this
  refine this.trans ?_
  simp only [Option.map_some, List.map_map]
  congr 1
  apply List.map_congr_left
  intro p _
  exact (Dict.map_get? i.node (k + ·) p.1).symm

theorem CorInv.store {x : Api} {i : Ids} (h : CorInv x i) (a : ℕ) (ch : Change) : CorInv (x.store i a ch) i := by
  refine ⟨h.toIdInv.store a ch, fun s se hs => ?_⟩
  simp only [Api.store, FeModel.store, Dict.mapKV_get?] at hs
  obtain ⟨se', h0, rfl⟩ := Option.map_eq_some_iff.mp hs
  obtain ⟨h1, h2⟩ := h.cor s se' h0
  have key : (se'.nodes.mapIdx fun j p => (p.1, if ((i.shell.get? s).getD [])[j]? = some (some a) then ch.loc p.2 else p.2)) =
      se'.nodes.map fun p => (p.1, if i.node.get? p.1 = some a then ch.loc p.2 else p.2) := by
    apply List.ext_getElem?
    intro j
    rw [List.getElem?_mapIdx, List.getElem?_map]
    cases hj : se'.nodes[j]? with
    | none => rfl
    | some p => simp [h1, hj]
  simp only [key]
  refine ⟨?_, ?_⟩
  · rw [h1, List.map_map]; rfl
  · intro p hp
    obtain ⟨q, hq, rfl⟩ := List.mem_map.mp hp
    obtain ⟨nd, hn, hl⟩ := h2 q hq
    refine ⟨_, by rw [store_node, hn]; rfl, ?_⟩
    simp only
    split
    · show ch.loc nd.loc = _
      rw [hl]
    · exact hl

theorem CorInv.same {x y : Api} {i j : Ids} (h : CorInv x i) (hI : IdInv y j) (h1 : y.model.nodes = x.model.nodes) (h2 : j.node = i.node)
    (h3 : y.model.shells = x.model.shells) (h4 : j.shell = i.shell) : CorInv y j := by
  refine ⟨hI, ?_⟩
  rw [h1, h2, h3, h4]
  exact h.cor

theorem CorInv.shell {x : Api} {i : Ids} (h : CorInv x i) {s : String} {e : ShellElm} {l : List (Option ℕ)} {ns : List (String × Node)}
    (hns : ∀ p ∈ ns, x.model.nodes.get? p.1 = some p.2) (he : e.nodes = ns.map fun p => (p.2.name, p.2.loc)) (hl : l = ns.map fun p => i.node.get? p.1)
    (hI : IdInv (withShell x s e) { i with shell := i.shell.set s l }) : CorInv (withShell x s e) { i with shell := i.shell.set s l } := by
  refine ⟨hI, fun c se hc => ?_⟩
  change (x.model.shells.set s e).get? c = some se at hc
  show (i.shell.set s l).get? c = _ ∧ _
  rw [Dict.get?_set] at hc ⊢
  split at hc
  · rename_i ec
    rw [if_pos ec]
    cases hc
    refine ⟨?_, ?_⟩
    · rw [hl, he, List.map_map]
      congr 1
      apply List.map_congr_left
      intro p hp
      show i.node.get? p.1 = i.node.get? p.2.name
      rw [h.name _ _ (hns p hp)]
    · intro q hq
      rw [he] at hq
      obtain ⟨p, hp, rfl⟩ := List.mem_map.mp hq
      refine ⟨p.2, ?_, rfl⟩
      show x.model.nodes.get? p.2.name = _
      rw [h.name _ _ (hns p hp)]
      exact hns p hp
  · rename_i ec
    rw [if_neg ec]
    exact h.cor c se hc

theorem CorInv.edit {w : World} {i : Ids} {k : ℕ} {saved : Dict Ids} {c : Call} {y : Api}
    (hG : ∀ n x1 x2 x3, c = .addNode n x1 x2 x3 → n ∉ w.getNodeNames) (h : CorInv w.api i) (hk : ∀ a, i.Uses a → a < k)
    (hc : c.isEdit = true) (he : w.api.edit c = .ok y) : CorInv y (i.after w k saved c).1 := by
  have hI := h.toIdInv.edit (saved := saved) hk hc he
  rw [edit_ok_iff] at he
  cases c <;> simp only [EditEff] at he <;> simp only [Ids.after] at hI ⊢
  case addNode n x1 x2 x3 =>
    subst he
    have hn := hG n x1 x2 x3 rfl
    refine ⟨hI, fun s se hs => ?_⟩
    obtain ⟨h1, h2⟩ := h.cor s se hs
    have key : ∀ p ∈ se.nodes, n ≠ p.1 := by
      intro p hp e
      obtain ⟨nd, hnd, -⟩ := h2 p hp
      exact hn (e ▸ Dict.mem_keys_of_get? hnd)
    refine ⟨h1.trans ?_, fun p hp => ?_⟩
    · congr 1
      apply List.map_congr_left
      intro p hp
      exact (Dict.get?_set_ne _ _ (key p hp)).symm
    · obtain ⟨nd, hnd, hl⟩ := h2 p hp
      exact ⟨nd, (Dict.get?_set_ne _ _ (key p hp)).trans hnd, hl⟩
  case setNodalMass n mass =>
    obtain ⟨nd, hnd, rfl⟩ := he
    refine ⟨hI, fun s se hs => ?_⟩
    obtain ⟨h1, h2⟩ := h.cor s se hs
    refine ⟨h1, fun p hp => ?_⟩
    obtain ⟨q, hq, hl⟩ := h2 p hp
    show ∃ q', (w.api.model.nodes.set n { nd with mass := mass }).get? p.1 = some q' ∧ q'.loc = p.2
    rw [Dict.get?_set]
    split
    · rename_i e
      rw [← e, hnd] at hq
      cases hq
      exact ⟨_, rfl, hl⟩
    · exact ⟨q, hq, hl⟩
  case addBeam => obtain ⟨n0, n1, s, b, e0, e1, _, e3, rfl⟩ := he; exact h.same hI rfl rfl rfl rfl
  case addSimpleBeam => obtain ⟨n0, n1, b, e0, e1, e3, rfl⟩ := he; exact h.same hI rfl rfl rfl rfl
  case addShell s m0 m1 m2 m3 m4 =>
    obtain ⟨e, hb, rfl⟩ := he
    cases m4 with
    | none =>
      obtain ⟨sec, n0, n1, n2, -, e0, e1, e2, e3⟩ := hb
      refine h.shell (ns := [(m1, n0), (m2, n1), (m3, n2)]) ?_ (dkt_shape e3).2.1 rfl hI
      simp [e0, e1, e2]
    | some m4 =>
      obtain ⟨sec, n0, n1, n2, n3, -, e0, e1, e2, e3, e4⟩ := hb
      refine h.shell (ns := [(m1, n0), (m2, n1), (m3, n2), (m4, n3)]) ?_ (dkgq_shape e4).2.1 rfl hI
      simp [e0, e1, e2, e3]
  case addIsotropicMaterial => subst he; exact h.same hI rfl rfl rfl rfl
  case addBeamSectionGeneral => obtain ⟨mat, sec, _, _, rfl⟩ := he; exact h.same hI rfl rfl rfl rfl
  case addBeamSectionRectangle => obtain ⟨mat, sec, _, _, rfl⟩ := he; exact h.same hI rfl rfl rfl rfl
  case addBeamSectionI => obtain ⟨mat, sec, _, _, rfl⟩ := he; exact h.same hI rfl rfl rfl rfl
  case addBeamSectionBox => obtain ⟨mat, sec, _, _, rfl⟩ := he; exact h.same hI rfl rfl rfl rfl
  case addBeamSectionCircle => obtain ⟨mat, sec, _, _, rfl⟩ := he; exact h.same hI rfl rfl rfl rfl
  case addBeamSectionPipe => obtain ⟨mat, sec, _, _, rfl⟩ := he; exact h.same hI rfl rfl rfl rfl
  case addShellSection => obtain ⟨mat, _, rfl⟩ := he; exact h.same hI rfl rfl rfl rfl
  case addLoadpattern name => subst he; exact h.same hI rfl rfl rfl rfl
  case setNodalRestraint n f =>
    have h1 : y.model.nodes = w.api.model.nodes ∧ y.model.shells = w.api.model.shells := by
      rw [he]
      split <;> exact ⟨rfl, rfl⟩
    refine h.same hI h1.1 ?_ h1.2 ?_
    · split <;> rfl
    · split <;> rfl
  case setLoadcaseNodalRestraint => obtain ⟨lc, _, rfl⟩ := he; exact h.same hI rfl rfl rfl rfl
  case addStaticCase => subst he; exact h.same hI rfl rfl rfl rfl
  case addModalCase => subst he; exact h.same hI rfl rfl rfl rfl
  case addCasePattern => obtain ⟨lc, ref, p, _, _, _, rfl⟩ := he; exact h.same hI rfl rfl rfl rfl
  case setNodalLoad pattern n f =>
    obtain ⟨ref, p, href, hp, rfl⟩ := he
    refine h.same hI rfl ?_ rfl ?_
    · split <;> rfl
    · split <;> rfl
  case setBeamLoadDistributed => obtain ⟨ref, p, _, _, rfl⟩ := he; exact h.same hI rfl rfl rfl rfl
  case setBeamLoadConcentrated => obtain ⟨ref, p, _, _, rfl⟩ := he; exact h.same hI rfl rfl rfl rfl
  all_goals exact absurd hc (by simp [Call.isEdit])

theorem CorInv_run (env : Env) (acts : List ScriptStep) (h : ScriptNoReadd env Shared.init acts) : SInv CorInv (Shared.init.run env acts) := by
  have : ∀ s, ScriptNoReadd env s acts → SInv CorInv s → SInv CorInv (s.run env acts) := by
    clear h
    induction acts with
    | nil => exact fun s _ h => h
    | cons a t ih =>
      intro s hG h
      refine ih _ hG.2 (SInv_step (fun w c => ∀ n x y z, c = .addNode n x y z → n ∉ w.getNodeNames) env
        (fun w i k saved c y hG h hk hc he => CorInv.edit hG h hk hc he) (fun x i k h => h.shift k) (fun x i a ch h => h.store a ch) h a ?_)
      rintro c rfl n x y z rfl
      exact hG.1 n x y z rfl
  exact this _ h (SInv_init CorInv_init)

/-- A shell follows its nodes as beams do (`C153_attached`): at any time each of its corners, which are what the stiffness of the shell is
computed from, is where the node of that corner is. -/
theorem C153_corners (env : Env) (acts : List ScriptStep) (h : ScriptNoReadd env Shared.init acts) (w : World)
    (hw : w = (Shared.init.run env acts).world) (s : String) (se : ShellElm) (hs : w.api.model.shells.get? s = some se) (n : String) (p : V3)
    (hp : (n, p) ∈ se.nodes) : w.getNodeLocation n = some p := by
  subst hw
  obtain ⟨nd, hnd, hl⟩ := ((CorInv_run env acts h).cur.cor s se hs).2 (n, p) hp
  rw [getNodeLocation_eq, hnd]
  exact congrArg some hl

/-- the calls of a script that only makes calls -/
theorem scriptNoReadd_calls (env : Env) (t : List ScriptStep) (ht : ∀ s, ScriptNoReadd env s t) (cs : List Call) (s : Shared)
    (h : NoReadd env s.world cs) : ScriptNoReadd env s (cs.map .call ++ t) := by
  induction cs generalizing s with
  | nil => exact ht s
  | cons c cs ih =>
    refine ⟨fun n x y z e => h.1 n x y z (by cases e; rfl), ih _ ?_⟩
    have : (s.step env (.call c)).world = (s.world.step env c).1 := by
      simp only [Shared.step]
      split <;> rfl
    rw [this]
    exact h.2

theorem calls_world (env : Env) (cs : List Call) (s : Shared) : (s.run env (cs.map .call)).world = s.world.run env cs := by
  induction cs generalizing s with
  | nil => rfl
  | cons c cs ih =>
    rw [run_cons]
    have : (s.step env (.call c)).world = (s.world.step env c).1 := by
      simp only [Shared.step]
      split <;> rfl
    rw [← this]
    exact ih _

/-- The hypotheses of `C153_corners` are met by a script that builds the square shell of `sheetCalls`, asks where node B is and writes
anything into the answer: the shell is there afterwards. -/
example (env : Env) (g : V3 → V3) (acts : List ScriptStep) (ha : acts = sheetCalls.map .call ++ [.askLocation "B", .writeLocation 0 g]) :
    ScriptNoReadd env Shared.init acts ∧ ∃ se, (Shared.init.run env acts).world.api.model.shells.get? "e" = some se ∧ se.nodes.length = 4 := by
  subst ha
  refine ⟨scriptNoReadd_calls env [.askLocation "B", .writeLocation 0 g] (fun s => ⟨(by intro n x y z e; cases e), (by intro n x y z e; cases e), trivial⟩) _ _ (sheet_noReadd env), ?_⟩
  simp only [Shared.run, List.foldl_append, List.foldl_cons, List.foldl_nil]
  have hw : (List.foldl (fun s a => s.step env a) Shared.init (sheetCalls.map .call)).world = ⟨sheetApi, []⟩ :=
    (calls_world env sheetCalls Shared.init).trans (sheet_run env)
  generalize List.foldl (fun s a => s.step env a) Shared.init (sheetCalls.map .call) = s at hw
  have h1 : (s.step env (.askLocation "B")).world = ⟨sheetApi, []⟩ := by
    simp only [Shared.step]
    split <;> exact hw
  generalize s.step env (.askLocation "B") = s' at h1
  simp only [Shared.step, Shared.write]
  split
  · simp only [h1, Api.store, FeModel.store, Dict.mapKV_get?]
    refine ⟨_, rfl, ?_⟩
    simp [flatQuad]
  · rw [h1]
    exact ⟨_, rfl, rfl⟩

end Hyperstatic
