import Verif.Lemmas.Viewer

/-
C127, C128: the viewers.
-/

namespace Hyperstatic
open Spec

/-! ### C127 The result viewer draws the reported displacements -/

/-- A model can be viewed exactly if it has a node and no triangles: the nodes of every shell can be queried. -/
theorem C127_opens (env : Env) (cs : List Call) (w : World) (hw : w = World.init.run env cs) :
    (∃ v, Viewer.open? w = .ok v) ↔ w.getNodeNames ≠ [] ∧ ∀ s ∈ w.getShellNames, w.getShellNodeNames s ≠ none := by
  constructor
  · rintro ⟨v, hv⟩
    exact (view_run env cs w hw v hv []).1
  · rintro ⟨h, hq⟩
    obtain ⟨v, hv, _⟩ := open_inv (w := w) (by rw [hw]; exact Drawable_run env cs) h hq
    exact ⟨v, hv⟩

/-- Whatever buttons are pressed and however the slider is moved, the beams drawn are those of the picture: every beam once, from the place
of its start node to that of its end node, moved by the reported displacements times the scale the slider had, and nothing else is drawn
as beams. -/
theorem C127_beams (env : Env) (cs : List Call) (w : World) (hw : w = World.init.run env cs) (v : Viewer)
    (hv : Viewer.open? w = .ok v) (clicks : List Click) (ls : List (V3 × V3)) :
    (v.run clicks).Sees (.lines ls) ↔ ls = w.getBeamNames.map (beamAt w (Picture.after w clicks).shape) := by
  obtain ⟨_, h, _⟩ := view_run env cs w hw v hv clicks
  constructor
  · rintro ⟨i, hi, hs⟩
    obtain ⟨o, hn⟩ := h.node
    obtain ⟨o', hz⟩ := h.zero
    rcases h.sub i hi with rfl | rfl | rfl | hsh
    · rw [hz] at hs; simp at hs
    · rw [hn] at hs; simp at hs
    rotate_left
    · rcases h.shell with ⟨hno, _⟩ | ⟨j, hj, _, hm⟩
      · rw [hno] at hsh; cases hsh
      · rw [hj] at hsh; cases hsh
        rw [hm] at hs; simp at hs
    · have hb := h.beam
      rw [hs] at hb
      simp only [Option.some.injEq, Actor.mk.injEq, Sketch.lines.injEq, and_true] at hb
      exact hb
  · rintro rfl
    exact ⟨_, h.sb, h.beam⟩

/-- The buttons tell the truth about the deformation: the button of a direction reads "reset" exactly if it is the one whose
deformation is drawn. -/
theorem C127_buttons (env : Env) (cs : List Call) (w : World) (hw : w = World.init.run env cs) (v : Viewer)
    (hv : Viewer.open? w = .ok v) (clicks : List Click) :
    (∀ a, (v.run clicks).btn a = true ↔ (Picture.after w clicks).shape.map Prod.fst = some a) ∧
    (v.run clicks).btnNode = (Picture.after w clicks).nodes := by
  obtain ⟨_, h, _⟩ := view_run env cs w hw v hv clicks
  exact ⟨h.btn, h.btnNode⟩

/-- the full property for the nodes: they are drawn when the button says so, each at the place where the beams end, and nowhere else -/
def C127_claim : Prop :=
  ∀ (env : Env) (cs : List Call) (w : World), w = World.init.run env cs → ∀ v, Viewer.open? w = .ok v → ∀ (clicks : List Click) (ps : List V3),
    (v.run clicks).Sees (.points ps) ↔
      (Picture.after w clicks).nodes = true ∧ ps = w.getNodeNames.map (nodeAt w (Picture.after w clicks).shape)

/-- The nodes are drawn as they should be as long as no button for a deformation is pressed while they are drawn. -/
theorem C127_nodes_partial (env : Env) (cs : List Call) (w : World) (hw : w = World.init.run env cs) (v : Viewer)
    (hv : Viewer.open? w = .ok v) (clicks : List Click) (hh : NodesHidden w clicks) (ps : List V3) :
    (v.run clicks).Sees (.points ps) ↔
      (Picture.after w clicks).nodes = true ∧ ps = w.getNodeNames.map (nodeAt w (Picture.after w clicks).shape) := by
  obtain ⟨_, h, ht⟩ := view_run env cs w hw v hv clicks
  obtain ⟨⟨d, hd⟩, hz⟩ := ht hh
  obtain ⟨o, hn⟩ := h.node
  rw [hd] at hn
  simp only [Option.some.injEq, Actor.mk.injEq] at hn
  obtain ⟨rfl, rfl⟩ := hn
  constructor
  · rintro ⟨i, hi, hs⟩
    have cur : (v.run clicks).heap[(v.run clicks).vnodes]? = some ⟨.points ps, true⟩ →
        (Picture.after w clicks).nodes = true ∧ ps = w.getNodeNames.map (nodeAt w (Picture.after w clicks).shape) := by
      intro e
      rw [hd] at e
      simp only [Option.some.injEq, Actor.mk.injEq, Sketch.points.injEq] at e
      exact ⟨e.2, e.1.symm⟩
    rcases h.sub i hi with rfl | rfl | rfl | hsh
    · rcases hz with hz | ⟨d, hz⟩
      · rw [← hz] at hs; exact cur hs
      · rw [hz] at hs; simp at hs
    · exact cur hs
    · rw [h.beam] at hs; simp at hs
    · rcases h.shell with ⟨hno, _⟩ | ⟨j, hj, _, hm⟩
      · rw [hno] at hsh; cases hsh
      · rw [hj] at hsh; cases hsh
        rw [hm] at hs; simp at hs
  · rintro ⟨hn, rfl⟩
    refine ⟨_, h.sn, ?_⟩
    rw [hd, hn]

/-! A model with a result for the case the viewer shows: the cantilever with one more case. -/

def viewCalls : List Call := demoCalls ++ [.addStaticCase "case1"] ++ [.assemble, .solveStatic "case1"]

theorem viewDemo (env : Env) (henv : env.SolverSound) :
    Displayable (World.init.run env viewCalls) ∧ (World.init.run env viewCalls).getNodeNames = ["A", "B"] ∧
    (World.init.run env viewCalls).getBeamNames = ["b"] ∧ (World.init.run env viewCalls).getShellNames = [] := by
  obtain ⟨c, hc, hrun⟩ := demo_run env
  have hapi : (World.init.run env (demoCalls ++ [.addStaticCase "case1"])).api =
      { demoApi c with loadcases := (demoApi c).loadcases.set "case1" (LoadCase.new "case1" .static) } := by
    rw [run_append, run_cons, run_nil, step_addStaticCase, hrun]
  have hno : NoReadd env World.init (demoCalls ++ [.addStaticCase "case1"]) := by
    have := demo_noReadd env
    unfold NoReadd at this ⊢
    rw [allCalls_append]
    exact ⟨this, fun n x y z h => (by cases h), trivial⟩
  have hcase : (World.init.run env (demoCalls ++ [.addStaticCase "case1"])).api.loadcases.get? "case1" =
      some (LoadCase.new "case1" .static) := by
    rw [hapi]; rfl
  generalize hpre : demoCalls ++ [Call.addStaticCase "case1"] = pre at hapi hno hcase
  have hsolve := C20_succeeds env henv pre [] hno (by simp) _ _ rfl rfl "case1" _ hcase
    (by rw [hapi]; exact demo_shellsFree env c) (by rw [hapi]; exact demo_stable env hc) (by rw [hapi]; exact demo_mu c)
    (by intro n hn; simp [LoadCase.new, Dict.keys] at hn)
    (by
      refine ⟨"B", ?_, 0, ?_⟩
      · unfold World.getNodeNames; rw [hapi]; simp [demoApi, demoModel, Dict.keys]
      · rw [hapi]
        intro f hf
        have : (Dict.get? [("A", fun _ => true)] "B" : Option Flags) = some f := hf
        simp [Dict.get?] at this)
  obtain ⟨u, hu, _⟩ := C20_equilibrium env henv pre [] hno (by simp) _ _ rfl rfl "case1" _ hcase
    (by rw [hapi]; exact demo_shells _ c) (by rw [hapi]; exact demo_shellsFree env c) (by rw [hapi]; exact demo_stable env hc) hsolve
  have hw : World.init.run env viewCalls =
      (((World.init.run env pre).run env [.assemble]).step env (.solveStatic "case1")).1 := by
    unfold viewCalls
    rw [hpre, run_append, run_cons, run_cons, run_nil, run_cons, run_nil]
  have happ : (World.init.run env viewCalls).api.model = demoModel c := by
    have h2 : ∀ w : World, ((w.run env [.assemble]).step env (.solveStatic "case1")).1.api = w.api := by
      intro w
      simp only [run_cons, run_nil, World.step]
      split <;> rfl
    rw [hw, h2, hapi]; rfl
  have hN : (World.init.run env viewCalls).getNodeNames = ["A", "B"] := by
    unfold World.getNodeNames; rw [happ]; rfl
  refine ⟨?_, hN, by unfold World.getBeamNames; rw [happ]; rfl, by unfold World.getShellNames; rw [happ]; rfl⟩
  intro n hn
  refine ⟨List.ofFn (u n), ?_, by simp⟩
  rw [hw]
  apply hu
  rw [hN] at hn
  unfold World.getNodeNames; rw [hapi]; exact hn

/-- Showing the nodes, then the deformation, then hiding the nodes leaves the nodes at their first places in the picture: the first actor of
the nodes stays under the key `"node"` and is put back, switched on, by every redraw, while later ones are kept under `"nodes"`. -/
theorem C127_false : ¬ C127_claim := by
  intro hc
  obtain ⟨hD, hN, _, hS⟩ := viewDemo idealEnv idealEnv_sound
  generalize hw : World.init.run idealEnv viewCalls = w at hD hN hS
  have hq : AllQuads w := by intro s hs; rw [hS] at hs; cases hs
  obtain ⟨v, hv⟩ := (C127_opens idealEnv viewCalls w hw.symm).mpr ⟨by rw [hN]; simp, hq⟩
  have h0 := (open_inv (w := w) (by rw [← hw]; exact Drawable_run _ _) (by rw [hN]; simp) hq)
  obtain ⟨v', hv', hi, ht, e1, _⟩ := h0
  rw [hv] at hv'
  cases hv'
  have htab := (displacement_table idealEnv viewCalls w hw.symm (by rw [hN]; simp)).resolve_left (fun h => h.2 hD)
  have hd : Drawable w := by rw [← hw]; exact Drawable_run _ _
  have h1 := view_run idealEnv viewCalls w hw.symm v hv [.node]
  obtain ⟨_, i1, t1⟩ := h1
  have t1 := t1 (by
    intro pre a post e
    cases pre with
    | nil => cases e
    | cons x pre => simp at e)
  have hP : Picture.after w [.node] = ⟨true, none, 0⟩ := rfl
  rw [hP] at i1 t1
  -- the first actor of the nodes is on
  have hz : ∃ ps, (v.run [.node]).heap[0]? = some ⟨.points ps, true⟩ := by
    obtain ⟨d, hd1⟩ := t1.node
    have e : (v.run [.node]).vnodes = 0 := by
      have e2 : (v.run [.node]).vnodes = v.vnodes := by
        simp only [Viewer.run, List.foldl_cons, List.foldl_nil, Viewer.step, Viewer.toggleNode, Viewer.switch]
        split <;> rfl
      rw [e2, e1]
    rw [e] at hd1
    obtain ⟨o, hz⟩ := i1.zero
    rw [hd1] at hz
    simp only [Option.some.injEq, Actor.mk.injEq] at hz
    exact ⟨_, by rw [hd1, hz.1]⟩
  obtain ⟨ps, hz⟩ := hz
  -- the deformation is shown
  have hb : (v.run [.node]).btn .x = false := by
    cases hx : (v.run [.node]).btn .x with
    | false => rfl
    | true => exact absurd ((i1.btn .x).mp hx) (by simp)
  have hst : v.run [.node, .deform .x] = ({ (v.run [.node]).redraw (w.getNodeNames.map (nodeAt w (some (.x, 0))))
      (w.getBeamNames.map (beamAt w (some (.x, 0)))) (v.run [.node]).btnNode
      with btn := fun b => if b = .x then !(v.run [.node]).btn .x else false } : Viewer).reset := by
    show (v.run [.node]).step (.deform .x) = _
    simp only [Viewer.step, Viewer.deform, hb, if_false, Bool.false_eq_true, showDeformation_eq i1 hd htab.1 hD .x]
    simp only [pure, Except.pure, bind, Except.bind, Viewer.redraw, hb]
  have hzlt : 0 < (v.run [.node]).heap.length := (List.getElem?_eq_some_iff.mp hz).1
  have hz2 : (v.run [.node, .deform .x]).heap[0]? = some ⟨.points ps, true⟩ := by
    rw [hst]
    simp only [Viewer.reset, Viewer.redraw]
    rw [List.getElem?_append_left hzlt, hz]
  have hv2 : (v.run [.node, .deform .x]).vnodes = (v.run [.node]).heap.length := by rw [hst]; rfl
  have hs2 : 0 ∈ (v.run [.node, .deform .x]).shown := by
    rw [hst]
    simp only [Viewer.reset, List.mem_append, List.mem_filter]
    by_cases hm : 0 ∈ ((v.run [.node]).redraw (w.getNodeNames.map (nodeAt w (some (.x, 0))))
      (w.getBeamNames.map (beamAt w (some (.x, 0)))) (v.run [.node]).btnNode).shown
    · exact Or.inl hm
    · refine Or.inr ⟨?_, by simpa using hm⟩
      rcases i1.redraw_actors (w.getNodeNames.map (nodeAt w (some (.x, 0)))) (w.getBeamNames.map (beamAt w (some (.x, 0))))
        (v.run [.node]).btnNode with e | e <;> rw [e] <;> simp [Dict.values]
  have hsee : (v.run [.node, .deform .x, .node]).Sees (.points ps) := by
    have e : v.run [.node, .deform .x, .node] = (v.run [.node, .deform .x]).toggleNode := rfl
    have hne : (v.run [.node, .deform .x]).vnodes ≠ 0 := by rw [hv2]; omega
    rw [e]
    generalize v.run [.node, .deform .x] = x at hz2 hs2 hne
    refine ⟨0, ?_, ?_⟩
    · unfold Viewer.toggleNode; cases x.btnNode <;> exact hs2
    · unfold Viewer.toggleNode
      cases x.btnNode <;> simp only [Viewer.switch, if_true, Bool.false_eq_true, if_false] <;>
      · rw [List.getElem?_modify]
        simp [hne, hz2]
  have := ((hc idealEnv viewCalls w hw.symm v hv [.node, .deform .x, .node] ps).mp hsee).1
  have hP3 : (Picture.after w [.node, .deform .x, .node]).nodes = false := by
    simp only [Picture.after, List.foldl_cons, List.foldl_nil, Picture.step, Picture.start]
    rw [if_pos hD]
    split <;> rfl
  rw [hP3] at this
  cases this

/-- a run of the viewer with a deformation, the nodes shown afterwards -/
example : ∃ w v, w = World.init.run idealEnv viewCalls ∧ Viewer.open? w = .ok v ∧
    NodesHidden w [.slide 20, .deform .x, .node] ∧ (Picture.after w [.slide 20, .deform .x, .node]).shape = some (.x, 20) ∧
    (Picture.after w [.slide 20, .deform .x, .node]).nodes = true := by
  obtain ⟨hD, hN, _, hS⟩ := viewDemo idealEnv idealEnv_sound
  obtain ⟨v, hv⟩ := (C127_opens idealEnv viewCalls _ rfl).mpr ⟨by rw [hN]; simp, by rw [hS]; simp⟩
  refine ⟨_, v, rfl, hv, ?_, ?_, ?_⟩
  · intro pre a post e
    match pre with
    | [] => cases e
    | [x] => cases e; rfl
    | [x, y] => cases e
    | x :: y :: z :: r => simp at e
  · simp [Picture.after, Picture.step, Picture.start, hD]
  · simp [Picture.after, Picture.step, Picture.start, hD]

/-! #### The file that is read -/

/-- the full property: the viewer reads the file `save` wrote in the same work path under the same name -/
def C127_file_claim : Prop := ∀ workpath filename : String, viewerPath workpath filename = savePath workpath filename

theorem pathJoin_rel (a : String) : ∃ sep : String, ∀ b : String, b.toList.head? ≠ some '/' → pathJoin a b = a ++ sep ++ b := by
  by_cases h : a = "" ∨ a.toList.getLast? = some '/'
  · refine ⟨"", fun b hb => ?_⟩
    unfold pathJoin
    rw [if_neg hb, if_pos h]
    simp
  · refine ⟨"/", fun b hb => ?_⟩
    unfold pathJoin
    rw [if_neg hb, if_neg h]

theorem pathJoin_abs (a b : String) (h : b.toList.head? = some '/') : pathJoin a b = b := if_pos h

/-- It reads that file exactly if the work path is absolute or empty, or the file name is absolute. -/
theorem C127_file_partial (workpath filename : String) :
    viewerPath workpath filename = savePath workpath filename ↔
      workpath = "" ∨ workpath.toList.head? = some '/' ∨ filename.toList.head? = some '/' := by
  have hsep : (filename ++ ".sep").toList.head? = some '/' ↔ filename.toList.head? = some '/' := by
    rw [String.toList_append]
    cases h : filename.toList with
    | nil => simp
    | cons a l => simp
  by_cases hf : filename.toList.head? = some '/'
  · simp only [hf, or_true, iff_true]
    unfold viewerPath savePath
    have e : pathJoin workpath filename = filename := by unfold pathJoin; rw [if_pos hf]
    rw [e]
  · have hf' : (filename ++ ".sep").toList.head? ≠ some '/' := fun h => hf (hsep.mp h)
    by_cases hw : workpath = ""
    · subst hw
      simp only [true_or, iff_true]
      have e : ∀ b : String, b.toList.head? ≠ some '/' → pathJoin "" b = b := by
        intro b hb
        unfold pathJoin
        rw [if_neg hb, if_pos (Or.inl rfl)]
        simp
      unfold viewerPath savePath
      rw [e filename hf]
    · by_cases ha : workpath.toList.head? = some '/'
      · simp only [ha, true_or, or_true, iff_true]
        have hhead : ∀ b : String, (workpath ++ b).toList.head? = some '/' := by
          intro b
          rw [String.toList_append]
          cases h : workpath.toList with
          | nil => rw [h] at ha; cases ha
          | cons x l => rw [h] at ha; simpa using ha
        have e : (pathJoin workpath filename ++ ".sep") = pathJoin workpath (filename ++ ".sep") := by
          unfold pathJoin
          rw [if_neg hf, if_neg hf']
          split <;> simp [String.append_assoc]
        have h2 : (pathJoin workpath (filename ++ ".sep")).toList.head? = some '/' := by
          unfold pathJoin
          rw [if_neg hf']
          split
          · exact hhead _
          · rw [String.append_assoc]; exact hhead _
        unfold viewerPath savePath
        rw [e]
        exact pathJoin_abs _ _ h2
      · simp only [hw, ha, hf, or_self, iff_false]
        intro h
        have h1 := congrArg String.length h
        unfold viewerPath savePath at h1
        have hn : ¬ (pathJoin workpath filename ++ ".sep").toList.head? = some '/' := by
          unfold pathJoin
          rw [if_neg hf]
          have hx : ∀ b : String, (workpath ++ b).toList.head? ≠ some '/' := by
            intro b
            rw [String.toList_append]
            cases h : workpath.toList with
            | nil => exact absurd (String.toList_inj.mp (by rw [h]; rfl)) hw
            | cons x l => rw [h] at ha; simpa using ha
          split
          · rw [String.append_assoc]; exact hx _
          · rw [String.append_assoc, String.append_assoc]; exact hx _
        obtain ⟨sep, hj⟩ := pathJoin_rel workpath
        have hpos : 0 < workpath.length := by
          rcases Nat.eq_zero_or_pos workpath.length with h0 | h0
          · rw [← String.length_toList, List.length_eq_zero_iff] at h0
            exact absurd (String.toList_inj.mp (by rw [h0]; rfl)) hw
          · exact h0
        -- the two joins put the work path in front twice
        rw [hj _ hn, hj _ hf', hj _ hf] at h1
        simp only [String.length_append] at h1
        omega

/-- With a relative work path the viewer looks in a folder of that name inside the folder of that name. -/
theorem C127_file_false : ¬ C127_file_claim := by
  intro h
  have := (C127_file_partial "models" "tower").mp (h _ _)
  simp at this

example : viewerPath "/models" "tower" = "/models/tower.sep" ∧ viewerPath "models" "tower" = "models/models/tower.sep" := by
  decide

/-! ### C128 The viewers of models and loads -/

/-- In the viewer of models, whatever buttons are pressed, a button offers to hide its part exactly if the part is drawn, and a part is
drawn exactly if it was at first and its button was pressed an even number of times, or it was not and it was pressed an odd number of
times. -/
theorem C128_basic (presses : List Part) (k : Part) :
    (presses.foldl Panel.toggleBasic Panel.init).offersHide k = (presses.foldl Panel.toggleBasic Panel.init).on k ∧
    ((presses.foldl Panel.toggleBasic Panel.init).on k = true ↔
      if k = .beam ∨ k = .shell then Even (presses.count k) else Odd (presses.count k)) := by
  induction presses using List.reverseRecOn with
  | nil => cases k <;> simp [Panel.init, Panel.offersHide]
  | append_singleton l j ih =>
    rw [List.foldl_append, List.foldl_cons, List.foldl_nil, List.count_append]
    generalize l.foldl Panel.toggleBasic Panel.init = p at ih
    by_cases hk : k = j
    · subst hk
      obtain ⟨h1, h2⟩ := ih
      constructor
      · simp only [Panel.toggleBasic, Panel.offersHide, if_true]
        by_cases hb : k = .beam ∨ k = .shell <;> simp [hb]
      · simp only [Panel.toggleBasic, if_true, List.count_singleton_self, Nat.even_add_one, Nat.odd_add_one]
        rw [h1]
        by_cases hb : k = .beam ∨ k = .shell
        · simp only [hb, if_true] at h2 ⊢
          rw [← h2]; simp
        · simp only [hb, if_false] at h2 ⊢
          rw [← h2]; simp
    · have hc : List.count k [j] = 0 := by
        rw [List.count_eq_zero]; simpa using hk
      rw [hc, Nat.add_zero]
      obtain ⟨h1, h2⟩ := ih
      refine ⟨?_, ?_⟩
      · have e : (p.toggleBasic j).offersHide k = p.offersHide k := by
          simp [Panel.toggleBasic, Panel.offersHide, hk]
        rw [e, h1]
        simp [Panel.toggleBasic, hk]
      · rw [← h2]
        simp [Panel.toggleBasic, hk]

/-- the full property, for the viewer of loads, of a model with or without shells: a button offers to hide its part exactly if the part is
drawn -/
def C128_claim : Prop :=
  ∀ (shells : Bool) (presses : List Part) (k : Part),
    (presses.foldl (Panel.toggleLoad shells) Panel.init).offersHide k = (presses.foldl (Panel.toggleLoad shells) Panel.init).on k

/-- Hiding the beams and showing them again leaves them hidden under a button that offers to hide them: the second press switches on the
shells. -/
theorem C128_false : ¬ C128_claim := by
  intro h
  have := h true [.beam, .beam] .beam
  revert this
  decide

/-- Beams that were hidden once never come back, whatever is pressed, with or without shells. -/
theorem C128_hidden_beams (shells : Bool) (presses : List Part) :
    (presses.foldl (Panel.toggleLoad shells) Panel.init).on .beam = true ↔ Part.beam ∉ presses := by
  have key : ((presses.foldl (Panel.toggleLoad shells) Panel.init).on .beam = true ↔ Part.beam ∉ presses) ∧
      (Part.beam ∉ presses → (presses.foldl (Panel.toggleLoad shells) Panel.init).btn .beam = false) := by
    induction presses using List.reverseRecOn with
    | nil => simp [Panel.init]
    | append_singleton l j ih =>
      rw [List.foldl_append, List.foldl_cons, List.foldl_nil]
      generalize l.foldl (Panel.toggleLoad shells) Panel.init = p at ih
      obtain ⟨h1, h2⟩ := ih
      by_cases hj : j = .beam
      · subst hj
        refine ⟨?_, fun h => absurd (by simp) h⟩
        simp only [List.mem_append, List.mem_singleton, or_true, not_true_eq_false, iff_false]
        unfold Panel.toggleLoad
        by_cases hm : Part.beam ∈ l
        · have hp : p.on .beam = false := by
            cases hx : p.on .beam with
            | false => rfl
            | true => exact absurd hm (h1.mp hx)
          by_cases ho : p.offersHide .beam = false
          · cases shells <;> simp [ho, hp]
          · simp at ho; simp [ho]
        · have ho : p.offersHide .beam = true := by
            simp [Panel.offersHide, h2 hm]
          simp [ho]
      · have hb : Part.beam ∉ l ++ [j] ↔ Part.beam ∉ l := by
          rw [List.mem_append, List.mem_singleton, not_or]
          exact and_iff_left (fun e => hj e.symm)
        rw [hb]
        have ht : ¬ (j = .beam ∧ p.offersHide j = false) := fun h => hj h.1
        have e : ((p.toggleLoad shells j).on .beam = p.on .beam) ∧ ((p.toggleLoad shells j).btn .beam = p.btn .beam) := by
          unfold Panel.toggleLoad
          rw [if_neg ht]
          by_cases hs : j = .shell ∧ shells = false
          · simp [hs]
          · simp only [hs, if_false, if_neg (fun e : Part.beam = j => hj e.symm), and_self]
        rw [e.1, e.2]
        exact ⟨h1, h2⟩
  exact key.1

/-- If the button of the beams is pressed at most once, the buttons of the viewer of loads are right. -/
theorem C128_load_partial (shells : Bool) (presses : List Part) (hp : presses.count .beam ≤ 1) (k : Part) :
    (presses.foldl (Panel.toggleLoad shells) Panel.init).offersHide k = (presses.foldl (Panel.toggleLoad shells) Panel.init).on k := by
  have key : ∀ l : List Part, l.count .beam ≤ 1 →
      l.foldl (Panel.toggleLoad shells) Panel.init = (l.filter (fun k => k ≠ .shell ∨ shells = true)).foldl Panel.toggleBasic Panel.init ∧
      (l.count .beam = 0 → (l.foldl (Panel.toggleLoad shells) Panel.init).offersHide .beam = true) := by
    intro l
    induction l using List.reverseRecOn with
    | nil => intro _; exact ⟨rfl, fun _ => rfl⟩
    | append_singleton l j ih =>
      intro hc
      rw [List.count_append] at hc
      obtain ⟨h1, h2⟩ := ih (by omega)
      rw [List.foldl_append, List.foldl_cons, List.foldl_nil, List.filter_append, List.foldl_append, ← h1]
      generalize l.foldl (Panel.toggleLoad shells) Panel.init = p at h1 h2
      have hno : ¬ (j = .beam ∧ p.offersHide j = false) := by
        rintro ⟨rfl, hf⟩
        rw [List.count_singleton_self] at hc
        rw [h2 (by omega)] at hf
        cases hf
      constructor
      · unfold Panel.toggleLoad
        rw [if_neg hno]
        by_cases hs : j = .shell ∧ shells = false
        · simp [hs]
        · have : decide (j ≠ .shell ∨ shells = true) = true := by
            rw [decide_eq_true_eq]
            by_contra hcon
            push Not at hcon
            exact hs ⟨hcon.1, by simpa using hcon.2⟩
          simp only [hs, if_false, List.filter_cons, this, if_true, List.filter_nil, List.foldl_cons, List.foldl_nil]
          rfl
      · intro h0
        have hj : j ≠ .beam := by
          rintro rfl
          rw [List.count_append, List.count_singleton_self] at h0
          omega
        have hl : l.count .beam = 0 := by rw [List.count_append] at h0; omega
        have := h2 hl
        unfold Panel.toggleLoad
        rw [if_neg hno]
        by_cases hs : j = .shell ∧ shells = false
        · simp only [hs, and_self, if_true]; exact this
        · simp only [hs, if_false]
          simp only [Panel.offersHide] at this ⊢
          simpa [hj.symm] using this
  rw [(key presses hp).1]
  exact (C128_basic _ k).1

example : ([Part.node, .beam, .load, .shell, .load].count .beam ≤ 1) ∧
    ([Part.node, .beam, .load, .shell, .load].foldl (Panel.toggleLoad true) Panel.init).on .beam = false ∧
    ([Part.node, .beam, .load, .shell, .load].foldl (Panel.toggleLoad true) Panel.init).on .node = true ∧
    ([Part.node, .beam, .load, .shell, .load].foldl (Panel.toggleLoad false) Panel.init).btn .shell = false := by decide

theorem mapM_all_ok {α β : Type} (f : α → Except PyErr β) (g : α → β) (l : List α) (h : ∀ a ∈ l, f a = .ok (g a)) :
    l.mapM f = .ok (l.map g) := by
  induction l with
  | nil => rfl
  | cons a l ih =>
    rw [List.mapM_cons, h a (by simp), ih (fun x hx => h x (by simp [hx]))]
    rfl

/-- the size of a force -/
noncomputable def forceSize (f : Vec 6) : ℝ := Real.sqrt (f 0 ^ 2 + f 1 ^ 2 + f 2 ^ 2)

/-- Each node with a load has one arrow, in the order of the nodes; it ends at the node and is the force times one factor for all nodes,
not negative; if some force is not zero the longest arrow is a fifth of the size of the scene. -/
theorem C128_arrows (w : World) (loads : Dict (Vec 6))
    (hl : w.getAllNodalLoad "pat1" = some loads) (loaded : List String)
    (hn : loaded = w.getNodeNames.filter (fun n => Dict.contains loads n)) (hne : loaded ≠ []) (radius : ℝ) (loc : String → V3)
    (force : String → Vec 6) (hloc : ∀ n ∈ loaded, w.getNodeLocation n = some (loc n)) (hf : ∀ n ∈ loaded, loads.get? n = some (force n)) :
    ∃ s : ℝ, 0 ≤ s ∧ loadArrows w radius = .ok (loaded.map fun n =>
        (⟨(loc n).x - force n 0 * s, (loc n).y - force n 1 * s, (loc n).z - force n 2 * s⟩, loc n)) ∧
      ((∃ n ∈ loaded, forceSize (force n) ≠ 0) →
        (∀ n ∈ loaded, forceSize (force n) * s ≤ |radius| / 5) ∧ ∃ n ∈ loaded, forceSize (force n) * s = |radius| / 5) := by
  unfold loadArrows
  rw [hl]
  simp only []
  rw [← hn, mapM_all_ok _ (fun n => (loc n, force n)) loaded (by
    intro n hn'
    simp [hloc n hn', Dict.getItem, hf n hn', pure, Except.pure, bind, Except.bind])]
  simp only [Except.bind_ok, List.map_map, Function.comp_def]
  have hsz : ∀ n, Real.sqrt (force n 0 ^ 2 + force n 1 ^ 2 + force n 2 ^ 2) = forceSize (force n) := fun n => rfl
  simp only [hsz]
  have hpos : ∀ n, 0 ≤ forceSize (force n) := fun n => Real.sqrt_nonneg _
  cases hm : (loaded.map fun n => forceSize (force n)).maximum with
  | bot => exact absurd (List.maximum_eq_bot.mp hm) (by simpa using hne)
  | coe m =>
    have hmem : m ∈ loaded.map fun n => forceSize (force n) := List.maximum_mem hm
    have hle : ∀ x ∈ loaded.map fun n => forceSize (force n), x ≤ m := fun x hx => List.le_maximum_of_mem hx hm
    obtain ⟨n₀, hn₀, e₀⟩ := List.mem_map.mp hmem
    have hm0 : 0 ≤ m := by rw [← e₀]; exact hpos n₀
    refine ⟨if m = 0 then 1 else |radius / m * 0.2|, by split <;> positivity, rfl, ?_⟩
    rintro ⟨n₁, hn₁, h₁⟩
    have hmp : 0 < m := lt_of_lt_of_le (lt_of_le_of_ne (hpos n₁) (Ne.symm h₁)) (hle _ (List.mem_map_of_mem hn₁))
    rw [if_neg hmp.ne', abs_mul, abs_div, abs_of_pos hmp]
    have e5 : |(0.2 : ℝ)| = 1 / 5 := by rw [abs_of_pos] <;> norm_num
    rw [e5]
    have full : m * (|radius| / m * (1 / 5)) = |radius| / 5 := by field_simp
    constructor
    · intro n hn'
      rw [← full]
      exact mul_le_mul_of_nonneg_right (hle _ (List.mem_map_of_mem hn')) (by positivity)
    · exact ⟨n₀, hn₀, by rw [e₀, full]⟩

/-- a loaded node -/
example : ∃ (w : World) (loads : Dict (Vec 6)), w = World.init.run idealEnv
      [.addNode "A" 1 2 3, .addNode "B" 0 0 0, .addLoadpattern "pat1", .setNodalLoad "pat1" "A" ![3, 0, 4, 0, 0, 0]] ∧
    w.getAllNodalLoad "pat1" = some loads ∧ w.getNodeNames.filter (fun n => Dict.contains loads n) = ["A"] ∧
    w.getNodeLocation "A" = some ⟨1, 2, 3⟩ ∧ loads.get? "A" = some ![3, 0, 4, 0, 0, 0] ∧ forceSize ![3, 0, 4, 0, 0, 0] = 5 := by
  refine ⟨_, [("A", ![3, 0, 4, 0, 0, 0])], rfl, ?_, ?_, ?_, rfl, ?_⟩
  · rw [run_cons, step_addNode, run_cons, step_addNode, run_cons, step_addLoadpattern, run_cons,
      step_setNodalLoad_of idealEnv _ _ _ _ 0 (LoadPattern.new "pat1") rfl rfl, run_nil]
    rfl
  · rw [run_cons, step_addNode, run_cons, step_addNode, run_cons, step_addLoadpattern, run_cons,
      step_setNodalLoad_of idealEnv _ _ _ _ 0 (LoadPattern.new "pat1") rfl rfl, run_nil]
    rfl
  · rw [run_cons, step_addNode, run_cons, step_addNode, run_cons, step_addLoadpattern, run_cons,
      step_setNodalLoad_of idealEnv _ _ _ _ 0 (LoadPattern.new "pat1") rfl rfl, run_nil]
    rfl
  · unfold forceSize
    have : ((![3, 0, 4, 0, 0, 0] : Vec 6) 0) ^ 2 + ((![3, 0, 4, 0, 0, 0] : Vec 6) 1) ^ 2 + ((![3, 0, 4, 0, 0, 0] : Vec 6) 2) ^ 2 = 5 ^ 2 := by
      simp; norm_num
    rw [this, Real.sqrt_sq (by norm_num)]

/-- There are no arrows, and no viewer of loads, without the pattern "pat1" or when it has no load on a node of the model. -/
theorem C128_no_arrows (env : Env) (cs : List Call) (w : World) (hw : w = World.init.run env cs) (radius : ℝ) :
    (∃ e, loadArrows w radius = .error e) ↔
      w.getAllNodalLoad "pat1" = none ∨
      ∃ loads, w.getAllNodalLoad "pat1" = some loads ∧ ∀ n ∈ w.getNodeNames, loads.get? n = none := by
  have hd : Drawable w := by rw [hw]; exact Drawable_run env cs
  cases hl : w.getAllNodalLoad "pat1" with
  | none =>
    simp only [true_or, iff_true]
    unfold loadArrows
    rw [hl]
    exact ⟨_, rfl⟩
  | some loads =>
    simp only [false_or, reduceCtorEq, Option.some.injEq, exists_eq_left']
    constructor
    · rintro ⟨e, he⟩ n hn
      by_contra hne
      obtain ⟨f, hf⟩ := Option.ne_none_iff_exists'.mp hne
      have hin : n ∈ w.getNodeNames.filter (fun n => Dict.contains loads n) := by
        simp [hn, Dict.contains, hf]
      obtain ⟨s, _, h, _⟩ := C128_arrows w loads hl _ rfl (List.ne_nil_of_mem hin) radius
        (fun n => (w.getNodeLocation n).getD ⟨0, 0, 0⟩) (fun n => (loads.get? n).getD 0)
        (by
          intro m hm
          obtain ⟨p, hp⟩ := hd.locs m (List.mem_filter.mp hm).1
          rw [hp]; rfl)
        (by
          intro m hm
          have := (List.mem_filter.mp hm).2
          simp only [Dict.contains, Option.isSome_iff_exists] at this
          obtain ⟨x, hx⟩ := this
          rw [hx]; rfl)
      rw [h] at he
      cases he
    · intro h
      have hnil : w.getNodeNames.filter (fun n => Dict.contains loads n) = [] := by
        rw [List.filter_eq_nil_iff]
        intro n hn
        simp [Dict.contains, h n hn]
      unfold loadArrows
      rw [hl]
      simp only []
      rw [hnil]
      exact ⟨_, rfl⟩

theorem halfSpan_spec (xs : List ℝ) (hne : xs ≠ []) :
    (∀ a ∈ xs, ∀ b ∈ xs, a - b ≤ 2 * halfSpan xs) ∧ ∃ a ∈ xs, ∃ b ∈ xs, a - b = 2 * halfSpan xs := by
  cases hM : xs.maximum with
  | bot => exact absurd (List.maximum_eq_bot.mp hM) hne
  | coe M =>
    cases hm : xs.minimum with
    | top => exact absurd (List.minimum_eq_top.mp hm) hne
    | coe m =>
      have e : 2 * halfSpan xs = M - m := by
        unfold halfSpan
        rw [hM, hm]
        simp only [WithBot.unbotD_coe, WithTop.untopD_coe]
        ring
      rw [e]
      refine ⟨fun a ha b hb => ?_, M, List.maximum_mem hM, m, List.minimum_mem hm, rfl⟩
      have h1 := List.le_maximum_of_mem ha hM
      have h2 := List.minimum_le_of_mem hb hm
      linarith

/-- The size of the scene is half the largest extent of the model in the three directions. -/
theorem C128_radius (ps : List V3) (hne : ps ≠ []) :
    (∀ p ∈ ps, ∀ q ∈ ps, |p.x - q.x| ≤ 2 * sceneRadius ps ∧ |p.y - q.y| ≤ 2 * sceneRadius ps ∧ |p.z - q.z| ≤ 2 * sceneRadius ps) ∧
    ∃ p ∈ ps, ∃ q ∈ ps, |p.x - q.x| = 2 * sceneRadius ps ∨ |p.y - q.y| = 2 * sceneRadius ps ∨ |p.z - q.z| = 2 * sceneRadius ps := by
  obtain ⟨hx, px, hpx, qx, hqx, ex⟩ := halfSpan_spec (ps.map (·.x)) (by simpa using hne)
  obtain ⟨hy, py, hpy, qy, hqy, ey⟩ := halfSpan_spec (ps.map (·.y)) (by simpa using hne)
  obtain ⟨hz, pz, hpz, qz, hqz, ez⟩ := halfSpan_spec (ps.map (·.z)) (by simpa using hne)
  have lx : halfSpan (ps.map (·.x)) ≤ sceneRadius ps := le_trans (le_max_left _ _) (le_max_left _ _)
  have ly : halfSpan (ps.map (·.y)) ≤ sceneRadius ps := le_trans (le_max_right _ _) (le_max_left _ _)
  have lz : halfSpan (ps.map (·.z)) ≤ sceneRadius ps := le_max_right _ _
  have bound : ∀ (f : V3 → ℝ) (s : ℝ), (∀ a ∈ ps.map f, ∀ b ∈ ps.map f, a - b ≤ 2 * s) → s ≤ sceneRadius ps →
      ∀ p ∈ ps, ∀ q ∈ ps, |f p - f q| ≤ 2 * sceneRadius ps := by
    intro f s h hs p hp q hq
    have h1 := h _ (List.mem_map_of_mem hp) _ (List.mem_map_of_mem hq)
    have h2 := h _ (List.mem_map_of_mem hq) _ (List.mem_map_of_mem hp)
    rw [abs_le]
    constructor <;> linarith
  have attain : ∀ (f : V3 → ℝ) (s : ℝ), sceneRadius ps = s → (∀ a ∈ ps.map f, ∀ b ∈ ps.map f, a - b ≤ 2 * s) →
      (∃ a ∈ ps.map f, ∃ b ∈ ps.map f, a - b = 2 * s) → ∃ p ∈ ps, ∃ q ∈ ps, |f p - f q| = 2 * sceneRadius ps := by
    rintro f s hs h ⟨a, ha, b, hb, e⟩
    obtain ⟨p, hp, rfl⟩ := List.mem_map.mp ha
    obtain ⟨q, hq, rfl⟩ := List.mem_map.mp hb
    have h0 := h _ ha _ ha
    refine ⟨p, hp, q, hq, ?_⟩
    rw [hs, e, abs_of_nonneg (by linarith)]
  refine ⟨fun p hp q hq => ⟨bound _ _ hx lx p hp q hq, bound _ _ hy ly p hp q hq, bound _ _ hz lz p hp q hq⟩, ?_⟩
  rcases max_choice (max (halfSpan (ps.map (·.x))) (halfSpan (ps.map (·.y)))) (halfSpan (ps.map (·.z))) with h | h
  · rcases max_choice (halfSpan (ps.map (·.x))) (halfSpan (ps.map (·.y))) with h' | h'
    · obtain ⟨p, hp, q, hq, e⟩ := attain (·.x) _ (h.trans h') hx ⟨px, hpx, qx, hqx, ex⟩
      exact ⟨p, hp, q, hq, Or.inl e⟩
    · obtain ⟨p, hp, q, hq, e⟩ := attain (·.y) _ (h.trans h') hy ⟨py, hpy, qy, hqy, ey⟩
      exact ⟨p, hp, q, hq, Or.inr (Or.inl e)⟩
  · obtain ⟨p, hp, q, hq, e⟩ := attain (·.z) _ h hz ⟨pz, hpz, qz, hqz, ez⟩
    exact ⟨p, hp, q, hq, Or.inr (Or.inr e)⟩

example : sceneRadius [⟨0, 0, 0⟩, ⟨6, 2, 1⟩] = 3 := by
  unfold sceneRadius halfSpan
  simp [List.maximum_cons, List.minimum_cons]
  norm_num

end Hyperstatic
