import Verif.Lemmas.GhViewer
import Verif.Props.Viewer
import Verif.Props.GrasshopperUnits
import Verif.Lemmas.Frame
import Verif.Props.Shell

/-
C161: the viewers started from Grasshopper.
-/

namespace Hyperstatic
open Spec

/-! ### the viewer of results -/

/-- The viewer of results opens exactly if the model has a node, there is a case "case1" and this case holds nodes of the model only. -/
theorem C161_opens (env : Env) (cs : List Call) (w : World) (hw : w = World.init.run env cs) :
    (∃ v, GhView.open? w = .ok v) ↔ w.getNodeNames ≠ [] ∧ ∃ rest, w.getNodeRestraints (some "case1") = some rest ∧
      ∀ kv ∈ rest, kv.1 ∈ w.getNodeNames := by
  have hd : Drawable w := by rw [hw]; exact Drawable_run env cs
  constructor
  · rintro ⟨v, hv⟩
    obtain ⟨h1, rest, h2, h3, _⟩ := (gh_open hd v).mp hv
    exact ⟨h1, rest, h2, h3⟩
  · rintro ⟨h1, rest, h2, h3⟩
    exact ⟨_, (gh_open hd _).mpr ⟨h1, rest, h2, h3, rfl⟩⟩

/-- Whatever is clicked, the beams drawn are those of the picture: each from the place of its start node to that of its end node, moved by
the reported displacements times the scale. -/
theorem C161_beams (env : Env) (cs : List Call) (w : World) (hw : w = World.init.run env cs) (v : GhView)
    (hv : GhView.open? w = .ok v) (clicks : List Click) (ls : List (V3 × V3)) :
    (v.run clicks).Sees (.lines ls) ↔ ls = w.getBeamNames.map (beamAt w (ghPicture w clicks).shape) := by
  have hd : Drawable w := by rw [hw]; exact Drawable_run env cs
  obtain ⟨hne, h0, ht⟩ := gh_open_inv hd hv
  obtain ⟨h, _, _⟩ := GhView.Inv_run env cs w hw hne h0 ht clicks
  constructor
  · rintro ⟨i, hi, hs⟩
    obtain ⟨o, hn⟩ := h.node
    rcases h.sub i hi with rfl | rfl
    · rw [hn] at hs; simp at hs
    · have hb := h.beam
      rw [hs] at hb
      simp only [Option.some.injEq, Actor.mk.injEq, Sketch.lines.injEq, and_true] at hb
      exact hb
  · rintro rfl
    exact ⟨_, h.sb, h.beam⟩

/-- The buttons say what is drawn deformed. -/
theorem C161_buttons (env : Env) (cs : List Call) (w : World) (hw : w = World.init.run env cs) (v : GhView)
    (hv : GhView.open? w = .ok v) (clicks : List Click) :
    (∀ a, (v.run clicks).btn a = true ↔ (ghPicture w clicks).shape.map Prod.fst = some a) ∧
    (v.run clicks).btnNode = (ghPicture w clicks).nodes := by
  have hd : Drawable w := by rw [hw]; exact Drawable_run env cs
  obtain ⟨hne, h0, ht⟩ := gh_open_inv hd hv
  obtain ⟨h, _, _⟩ := GhView.Inv_run env cs w hw hne h0 ht clicks
  exact ⟨h.btn, h.btnNode⟩

/-- the full property for the nodes -/
def C161_nodes_claim : Prop :=
  ∀ (env : Env) (cs : List Call) (w : World), w = World.init.run env cs → ∀ v, GhView.open? w = .ok v → ∀ (clicks : List Click) (ps : List V3),
    (v.run clicks).Sees (.points ps) ↔
      (ghPicture w clicks).nodes = true ∧ ps = w.getNodeNames.map (nodeAt w (ghPicture w clicks).shape)

/-- The nodes are drawn when the button says so, unless a deformation was taken back while they were drawn. -/
theorem C161_nodes_partial (env : Env) (cs : List Call) (w : World) (hw : w = World.init.run env cs) (v : GhView)
    (hv : GhView.open? w = .ok v) (clicks : List Click) (hno : NoResetWithNodes w clicks) (ps : List V3) :
    (v.run clicks).Sees (.points ps) ↔
      (ghPicture w clicks).nodes = true ∧ ps = w.getNodeNames.map (nodeAt w (ghPicture w clicks).shape) := by
  have hd : Drawable w := by rw [hw]; exact Drawable_run env cs
  obtain ⟨hne, h0, ht0⟩ := gh_open_inv hd hv
  obtain ⟨h, _, ht⟩ := GhView.Inv_run env cs w hw hne h0 ht0 clicks
  obtain ⟨d, hd'⟩ := ht hno
  obtain ⟨o, hn⟩ := h.node
  rw [hd'] at hn
  simp only [Option.some.injEq, Actor.mk.injEq] at hn
  obtain ⟨rfl, rfl⟩ := hn
  constructor
  · rintro ⟨i, hi, hs⟩
    rcases h.sub i hi with rfl | rfl
    · rw [hd'] at hs
      simp only [Option.some.injEq, Actor.mk.injEq, Sketch.points.injEq] at hs
      exact ⟨hs.2, hs.1.symm⟩
    · rw [h.beam] at hs; simp at hs
  · rintro ⟨hn, rfl⟩
    refine ⟨_, h.sn, ?_⟩
    rw [hd', hn]

/-- The supports drawn are those of the case: one cone with its tip at the node for each translation held, two for each rotation; no click
changes them. -/
theorem C161_supports_partial (env : Env) (cs : List Call) (w : World) (hw : w = World.init.run env cs) (v : GhView)
    (hv : GhView.open? w = .ok v) (clicks : List Click) (rest : Dict Flags) (hr : w.getNodeRestraints (some "case1") = some rest) :
    (v.run clicks).cones.map (fun c => (coneTip c, c.axis, c.turn)) = rest.flatMap fun kv => tips (nodeAt w none kv.1) kv.2 := by
  have hd : Drawable w := by rw [hw]; exact Drawable_run env cs
  have hrun : (v.run clicks).cones = v.cones := by
    induction clicks using List.reverseRecOn with
    | nil => rfl
    | append_singleton l c ih =>
      have e : v.run (l ++ [c]) = (v.run l).step c := by simp [GhView.run]
      rw [e, GhView.step_cones, ih]
  obtain ⟨_, rest', h2, _, rfl⟩ := (gh_open hd v).mp hv
  rw [hr] at h2
  cases h2
  rw [hrun, List.map_flatMap]
  congr 1
  funext kv
  unfold ghConesAt tips
  rw [List.map_flatMap]
  congr 1
  funext i
  by_cases hi : i.val < 3
  · rw [if_pos hi, if_pos hi]
    simp [coneTip]
  · rw [if_neg hi, if_neg hi]
    simp only [List.map_cons, List.map_nil, coneTip]
    have e : ∀ a b : ℝ, a - 2 * 0.1 * b + 0.1 * b = a - 1 / 10 * b := by intro a b; ring
    simp [e]

/-- the full property: every support that holds in the case shown is drawn -/
def C161_supports_claim : Prop :=
  ∀ (env : Env) (cs : List Call) (w : World), w = World.init.run env cs → ∀ v, GhView.open? w = .ok v →
    ∀ n f r, (restReg.run cs).cur.inForce "case1" n = some f → f r = true → ∃ c ∈ v.cones, coneTip c = nodeAt w none n ∧ c.axis = supportDir r

/-- the cones are those of the case, so there are none if the case has no supports of its own -/
theorem gh_no_cones (env : Env) (cs : List Call) (w : World) (hw : w = World.init.run env cs) (v : GhView) (hv : GhView.open? w = .ok v)
    (hno : ∀ g, (restReg.run cs).cur.cases "case1" = some g → ∀ n, g n = none) : v.cones = [] := by
  have hd : Drawable w := by rw [hw]; exact Drawable_run env cs
  obtain ⟨_, rest, h2, _, rfl⟩ := (gh_open hd v).mp hv
  have hr := restReg_refined env cs
  rw [← hw] at hr
  unfold World.getNodeRestraints at h2
  simp only [Dict.getItem] at h2
  cases hl : w.api.loadcases.get? "case1" with
  | none => rw [hl] at h2; simp [tryOption, bind, Except.bind] at h2
  | some lc =>
    rw [hl] at h2
    simp only [tryOption, bind, Except.bind, pure, Except.pure, Option.some.injEq] at h2
    have hg := hno (fun n => lc.restraint.get? n) (by rw [← hr]; simp only [hl, Option.map_some])
    have : rest = [] := by
      cases rest with
      | nil => rfl
      | cons kv rest =>
        have := hg kv.1
        rw [h2] at this
        simp [Dict.get?] at this
    rw [this]
    rfl

/-- Supports that hold in all cases are not drawn. -/
theorem C161_supports_false : ¬ C161_supports_claim := by
  intro h
  let cs : List Call := [.addNode "A" 0 0 0, .setNodalRestraint "A" fun _ => true, .addStaticCase "case1"]
  have hrun : (restReg.run cs).cur.inForce "case1" "A" = some (fun _ => true) ∧
      (restReg.run cs).cur.cases "case1" = some (fun _ => none) := by
    simp [cs, Machine.run, Machine.step, restReg, RestReg.inForce]
  have hn : (World.init.run idealEnv cs).getNodeNames = ["A"] := by
    rw [(C02_node_registry idealEnv cs).1]
    simp [cs, Machine.run, Machine.step, nodeReg]
  have hr := restReg_refined idealEnv cs
  have hrest : (World.init.run idealEnv cs).getNodeRestraints (some "case1") = some [] := by
    have h2 := hrun.2
    rw [← hr] at h2
    simp only [Option.map_eq_some_iff] at h2
    obtain ⟨lc, h3, h4⟩ := h2
    have : lc.restraint = [] := by
      cases hk : lc.restraint with
      | nil => rfl
      | cons kv rest =>
        have := congrFun h4 kv.1
        rw [hk] at this
        simp [Dict.get?] at this
    simp [World.getNodeRestraints, Dict.getItem, h3, tryOption, bind, Except.bind, pure, Except.pure, this]
  obtain ⟨v, hv⟩ := (C161_opens idealEnv cs _ rfl).mpr ⟨by rw [hn]; simp, [], hrest, by simp⟩
  obtain ⟨c, hc, _⟩ := h idealEnv cs _ rfl v hv "A" _ 0 hrun.1 rfl
  rw [gh_no_cones idealEnv cs _ rfl v hv (by intro g hg n; rw [hrun.2] at hg; cases hg; rfl)] at hc
  cases hc

/-! ### models drawn in Grasshopper -/

theorem runLines_prefix (env : Env) (lines : List ScriptLine) (w : World) :
    ∃ cs, runLines env w lines = w.run env cs ∧ ∀ c ∈ cs, ScriptLine.call c ∈ lines := by
  induction lines generalizing w with
  | nil => exact ⟨[], rfl, by simp⟩
  | cons x lines ih =>
    cases x with
    | illTyped => exact ⟨[], rfl, by simp⟩
    | call c =>
      obtain ⟨cs, h1, h2⟩ := ih (w.step env c).1
      refine ⟨c :: cs, h1, ?_⟩
      intro c' hc'
      rcases List.mem_cons.mp hc' with rfl | hc'
      · exact List.mem_cons_self
      · exact List.mem_cons_of_mem _ (h2 c' hc')

/-- the script adds no shells and sets no supports of a case -/
theorem script_calls {d : Drawing} {lines : List ScriptLine} (h : generate d = .ok lines) (c : Call) (hc : ScriptLine.call c ∈ lines) :
    (∀ b n1 n2 n3 n4 s, c ≠ .addShell b n1 n2 n3 n4 s) ∧ ∀ k n f, c ≠ .setLoadcaseNodalRestraint k n f := by
  obtain ⟨scale, fscale, ms, ss, bs, h1, h2, h3, h4, h5, rfl⟩ := generateWith_ok.mp h
  have key : propLine (.call c) → (∀ b n1 n2 n3 n4 s, c ≠ .addShell b n1 n2 n3 n4 s) ∧ ∀ k n f, c ≠ .setLoadcaseNodalRestraint k n f := by
    intro hp
    constructor
    · rintro b n1 n2 n3 n4 s rfl
      simp [propLine, sectionCall] at hp
    · rintro k n f rfl
      simp [propLine, sectionCall] at hp
  simp only [List.mem_append] at hc
  rcases hc with (((hc | hc) | hc) | hc) | hc
  · obtain ⟨m, _, e⟩ := (mapM_mem h3).1 _ hc
    apply key
    rw [(materialLine_ok e).1]
    exact trivial
  · obtain ⟨s, _, e⟩ := (mapM_mem h4).1 _ hc
    exact key (sectionLine_prop e).1
  · obtain ⟨n, _, e⟩ := List.mem_map.mp hc
    simp only [nodeLine, ScriptLine.call.injEq] at e
    subst e
    simp
  · obtain ⟨b, _, e⟩ := (mapM_mem h5).1 _ hc
    unfold beamLine at e
    simp only [Except.bind_ok_iff] at e
    obtain ⟨x, _, e⟩ := e
    split at e
    · simp only [pure, Except.pure, Except.ok.injEq, ScriptLine.call.injEq] at e
      subst e
      simp
    · cases e
  · simp only [List.mem_map, ScriptLine.call.injEq, exists_eq_right] at hc
    simp only [tailCalls, List.mem_append, List.mem_map, List.mem_cons, List.not_mem_nil, or_false] at hc
    rcases hc with ((((rfl | rfl | rfl) | ⟨_, _, rfl⟩) | ⟨_, _, rfl⟩) | (rfl | rfl)) <;> simp [loadCall, restCall]

theorem cases_bare {cs : List Call} (h : ∀ c ∈ cs, ∀ k n f, c ≠ .setLoadcaseNodalRestraint k n f) :
    (∀ k g, (restReg.run cs).cur.cases k = some g → ∀ n, g n = none) ∧
    ∀ file s, (restReg.run cs).saved file = some s → ∀ k g, s.cases k = some g → ∀ n, g n = none := by
  induction cs using List.reverseRecOn with
  | nil =>
    constructor
    · intro k g hg
      simp [Machine.run, restReg] at hg
    · intro file s hs
      simp [Machine.run] at hs
  | append_singleton l c ih =>
    obtain ⟨i1, i2⟩ := ih fun c hc => h c (List.mem_append_left _ hc)
    have hc := h c (by simp)
    have e : restReg.run (l ++ [c]) = restReg.step (restReg.run l) c := by simp [Machine.run]
    rw [e]
    generalize restReg.run l = s at i1 i2
    cases c with
    | save file =>
      refine ⟨i1, ?_⟩
      intro g t ht
      simp only [Machine.step] at ht
      split at ht
      · cases ht; exact i1
      · exact i2 g t ht
    | load file =>
      simp only [Machine.step]
      cases hs : s.saved file with
      | none => exact ⟨i1, i2⟩
      | some t => exact ⟨i2 file t hs, i2⟩
    | setLoadcaseNodalRestraint k n f => exact absurd rfl (hc k n f)
    | addStaticCase k =>
      refine ⟨?_, i2⟩
      intro k' g hg
      simp only [Machine.step, restReg] at hg
      split at hg
      · cases hg; intro n; rfl
      · exact i1 k' g hg
    | addModalCase k =>
      refine ⟨?_, i2⟩
      intro k' g hg
      simp only [Machine.step, restReg] at hg
      split at hg
      · cases hg; intro n; rfl
      · exact i1 k' g hg
    | _ => exact ⟨i1, i2⟩

/-- No support of a model drawn in Grasshopper is ever drawn by the viewer of results: the script sets supports for all cases and the
viewer asks for those of "case1".  `more` are calls made after the script, the analysis for instance. -/
theorem C161_grasshopper_supports (env : Env) (d : Drawing) (lines : List ScriptLine) (h : generate d = .ok lines) (more : List Call)
    (hmore : ∀ c ∈ more, ∀ k n f, c ≠ .setLoadcaseNodalRestraint k n f) (v : GhView)
    (hv : GhView.open? ((runScript env lines).run env more) = .ok v) : v.cones = [] := by
  obtain ⟨cs, e, hcs⟩ := runLines_prefix env lines World.init
  unfold runScript at hv
  rw [e, ← run_append] at hv
  refine gh_no_cones env (cs ++ more) _ rfl v hv ?_
  intro g hg
  refine (cases_bare ?_).1 _ g hg
  intro c hc
  rcases List.mem_append.mp hc with hc | hc
  · exact (script_calls h c (hcs c hc)).2
  · exact hmore c hc

/-! ### the viewer of models -/

theorem ghArrows_error (w : World) (r r' : ℝ) : (∃ e, ghArrows w r = .error e) ↔ ∃ e, loadArrows w r' = .error e := by
  unfold ghArrows loadArrows
  cases w.getAllNodalLoad "pat1" with
  | none => simp
  | some loads =>
    simp only []
    generalize ((w.getNodeNames.filter (fun n => Dict.contains loads n)).mapM _ : Except PyErr (List (V3 × Vec 6))) = m
    cases m with
    | error e => simp [bind, Except.bind]
    | ok hit =>
      simp only [Except.bind_ok]
      cases (hit.map (fun h => Real.sqrt (h.2 0 ^ 2 + h.2 1 ^ 2 + h.2 2 ^ 2))).maximum with
      | bot => simp
      | coe m => simp [pure, Except.pure]

/-- The viewer of models opens exactly if there are nodes, a load of the pattern "pat1" at one of them, and shells, none of them a triangle;
then it shows all nodes, all beams between their end nodes and all shells between their corners. -/
theorem C161_model_opens (env : Env) (cs : List Call) (w : World) (hw : w = World.init.run env cs) :
    ((∃ v, openGhModel w = .ok v) ↔ w.getNodeNames ≠ [] ∧ (∃ loads, w.getAllNodalLoad "pat1" = some loads ∧ ∃ n ∈ w.getNodeNames, loads.get? n ≠ none) ∧
      w.getShellNames ≠ [] ∧ ∀ s ∈ w.getShellNames, w.getShellNodeNames s ≠ none) ∧
    ∀ v, openGhModel w = .ok v → v.nodes = w.getNodeNames.map (nodeAt w none) ∧ v.beams = w.getBeamNames.map (beamAt w none) ∧
      meshCorners v.vertices v.faces = w.getShellNames.map (shellAt w none) ∧
      ghArrows w (sceneRadius v.nodes) = .ok v.arrows := by
  have hd : Drawable w := by rw [hw]; exact Drawable_run env cs
  have hlen : (tabulate w.getNodeNames (nodeAt w none)).length = 0 ↔ w.getNodeNames = [] := by simp [tabulate]
  have hsh : w.getShellNames.length = 0 ↔ w.getShellNames = [] := by simp
  have harr : (∃ e, ghArrows w (sceneRadius (w.getNodeNames.map (nodeAt w none))) = .error e) ↔
      ¬ ∃ loads, w.getAllNodalLoad "pat1" = some loads ∧ ∃ n ∈ w.getNodeNames, loads.get? n ≠ none := by
    rw [ghArrows_error w _ 0, C128_no_arrows env cs w hw]
    constructor
    · rintro (h | ⟨loads, h1, h2⟩) ⟨l, h3, n, hn, h4⟩
      · rw [h] at h3; cases h3
      · rw [h1] at h3; cases h3; exact h4 (h2 n hn)
    · intro h
      cases hl : w.getAllNodalLoad "pat1" with
      | none => exact Or.inl rfl
      | some loads =>
        refine Or.inr ⟨loads, rfl, ?_⟩
        intro n hn
        by_contra hne
        exact h ⟨loads, hl, n, hn, hne⟩
  have hopen : openGhModel w = (if w.getNodeNames = [] then .error .valueError else do
      let arrows ← ghArrows w (sceneRadius (w.getNodeNames.map (nodeAt w none)))
      let faces ← viewFaces w (viewIds w.getNodeNames)
      if w.getShellNames = [] then .error .nameError else
      return ⟨w.getNodeNames.map (nodeAt w none), arrows, w.getBeamNames.map (beamAt w none), w.getNodeNames.map (nodeAt w none), faces.values⟩) := by
    unfold openGhModel
    rw [viewPts_eq hd]
    simp only [Except.bind_ok, hlen, hsh, viewLines_new hd, values_tabulate]
  rw [hopen]
  by_cases hne : w.getNodeNames = []
  · rw [if_pos hne]
    exact ⟨by simp [hne], by intro v hv; cases hv⟩
  rw [if_neg hne]
  cases ha : ghArrows w (sceneRadius (w.getNodeNames.map (nodeAt w none))) with
  | error e =>
    have := harr.mp ⟨e, ha⟩
    refine ⟨⟨?_, fun h => absurd h.2.1 this⟩, ?_⟩
    · rintro ⟨v, hv⟩; cases hv
    · intro v hv; cases hv
  | ok arrows =>
    have hl : ∃ loads, w.getAllNodalLoad "pat1" = some loads ∧ ∃ n ∈ w.getNodeNames, loads.get? n ≠ none := by
      by_contra hno
      obtain ⟨e, he⟩ := harr.mpr hno
      rw [ha] at he; cases he
    simp only [Except.bind_ok]
    by_cases hq : AllQuads w
    · rw [viewFaces_eq hd hq]
      simp only [Except.bind_ok, values_tabulate]
      by_cases hs : w.getShellNames = []
      · rw [if_pos hs]
        exact ⟨by simp [hs], by intro v hv; cases hv⟩
      · rw [if_neg hs]
        refine ⟨⟨fun _ => ⟨hne, hl, hs, hq⟩, fun _ => ⟨_, rfl⟩⟩, ?_⟩
        intro v hv
        simp only [pure, Except.pure, Except.ok.injEq] at hv
        subst hv
        exact ⟨rfl, rfl, meshCorners_eq hd hq none, ha⟩
    · obtain ⟨e, he⟩ := viewFaces_error hq
      rw [he]
      refine ⟨⟨?_, fun h => absurd h.2.2.2 hq⟩, ?_⟩
      · rintro ⟨v, hv⟩; cases hv
      · intro v hv; cases hv

/-- the full property: a model drawn in Grasshopper with a node and a load can be viewed -/
def C161_model_claim : Prop :=
  ∀ (env : Env) (d : Drawing) (lines : List ScriptLine), generate d = .ok lines → (runScript env lines).getNodeNames ≠ [] → d.loads ≠ [] →
    ∃ v, openGhModel (runScript env lines) = .ok v

/-- No model drawn in Grasshopper can be viewed: it has no shells. -/
theorem C161_model_never (env : Env) (d : Drawing) (lines : List ScriptLine) (h : generate d = .ok lines) (more : List Call)
    (hmore : ∀ c ∈ more, ∀ b n1 n2 n3 n4 s, c ≠ .addShell b n1 n2 n3 n4 s) :
    ∃ e, openGhModel ((runScript env lines).run env more) = .error e := by
  obtain ⟨cs, e, hcs⟩ := runLines_prefix env lines World.init
  unfold runScript
  rw [e, ← run_append]
  cases ho : openGhModel (World.init.run env (cs ++ more)) with
  | error e => exact ⟨e, rfl⟩
  | ok v =>
    have := ((C161_model_opens env (cs ++ more) _ rfl).1.mp ⟨v, ho⟩).2.2.1
    exfalso
    apply this
    have hw := within_run env (cs ++ more) (by
      intro b n1 n2 n3 n4 s hm
      rcases List.mem_append.mp hm with hm | hm
      · exact (script_calls h _ (hcs _ hm)).1 b n1 n2 n3 n4 s rfl
      · exact hmore _ hm b n1 n2 n3 n4 s rfl)
    unfold World.getShellNames
    rw [hw.shells]; rfl

theorem C161_model_false : ¬ C161_model_claim := by
  intro h
  have hl : ghTwice.loads ≠ [] := by simp [ghTwice]
  obtain ⟨v, hv⟩ := h idealEnv ghTwice _ ghTwice_generate (by
    unfold runScript
    rw [runLines_calls, (C02_node_registry idealEnv _).1, (nodeReg_script fmt6 1 1 ghTwice (mergeDrawing_names ghTwice (by norm_num [ghTwice]) ghTwice_points)).1,
      ghTwice_merge.1]
    simp) hl
  obtain ⟨e, he⟩ := C161_model_never idealEnv ghTwice _ ghTwice_generate [] (by simp)
  rw [run_nil, hv] at he
  cases he

/-! ### taking a deformation back -/

theorem viewDemo_case (env : Env) : (World.init.run env viewCalls).getNodeRestraints (some "case1") = some [] := by
  have hb : ∀ g, (restReg.run viewCalls).cur.cases "case1" = some g → ∀ n, g n = none := fun g hg =>
    (cases_bare (cs := viewCalls) (by
      intro c hc k n f e
      subst e
      simp [viewCalls, demoCalls] at hc)).1 "case1" g hg
  have hc : (restReg.run viewCalls).cur.cases "case1" = some (fun _ => none) := by
    simp [viewCalls, demoCalls, Machine.run, Machine.step, restReg]
  have hr := restReg_refined env viewCalls
  rw [← hr] at hc
  simp only [Option.map_eq_some_iff] at hc
  obtain ⟨lc, h3, h4⟩ := hc
  have : lc.restraint = [] := by
    cases hk : lc.restraint with
    | nil => rfl
    | cons kv rest =>
      have := congrFun h4 kv.1
      rw [hk] at this
      simp [Dict.get?] at this
  simp [World.getNodeRestraints, Dict.getItem, h3, tryOption, bind, Except.bind, pure, Except.pure, this]

/-- Showing the nodes, then a deformation, then taking it back hides the nodes while the button reads "hide nodes". -/
theorem C161_nodes_false : ¬ C161_nodes_claim := by
  intro hc
  obtain ⟨hD, hN, _, _⟩ := viewDemo idealEnv idealEnv_sound
  have hrest := viewDemo_case idealEnv
  generalize hw : World.init.run idealEnv viewCalls = w at hD hN hrest
  obtain ⟨v, hv⟩ := (C161_opens idealEnv viewCalls w hw.symm).mpr ⟨by rw [hN]; simp, [], hrest, by simp⟩
  have hd : Drawable w := by rw [← hw]; exact Drawable_run _ _
  obtain ⟨hne, h0, ht⟩ := gh_open_inv hd hv
  obtain ⟨i2, _, _⟩ := GhView.Inv_run idealEnv viewCalls w hw.symm hne h0 ht [.node, .deform .x]
  have hP2 : ghPicture w [.node, .deform .x] = ⟨true, some (.x, 1), 1⟩ := by
    simp [ghPicture, ghStart, Picture.step, hD]
  have hP3 : ghPicture w [.node, .deform .x, .deform .x] = ⟨true, none, 1⟩ := by
    simp [ghPicture, ghStart, Picture.step, hD]
  have hb : (v.run [.node, .deform .x]).btn .x = true := (i2.btn .x).mpr (by rw [hP2]; rfl)
  have hst : v.run [.node, .deform .x, .deform .x] = ({ (v.run [.node, .deform .x]).redraw (w.getNodeNames.map (nodeAt w none))
      (w.getBeamNames.map (beamAt w none)) false
      with btn := fun b => if b = .x then !(v.run [.node, .deform .x]).btn .x else false } : GhView).reset := by
    show (v.run [.node, .deform .x]).step (.deform .x) = _
    simp only [GhView.step, GhView.deform, hb, if_true, GhView.resetDeformation_eq i2]
    simp only [pure, Except.pure, bind, Except.bind, GhView.redraw, hb]
  obtain ⟨i3, _, _⟩ := GhView.Inv_run idealEnv viewCalls w hw.symm hne h0 ht [.node, .deform .x, .deform .x]
  obtain ⟨i, hi, hs⟩ := (hc idealEnv viewCalls w hw.symm v hv [.node, .deform .x, .deform .x] _).mpr ⟨by rw [hP3], rfl⟩
  rcases i3.sub i hi with rfl | rfl
  · rw [hst] at hs
    simp [GhView.reset, GhView.redraw] at hs
  · rw [i3.beam] at hs
    simp at hs

/-- a run of the viewer with a deformation to another scale, the nodes shown afterwards -/
example : ∃ w v, w = World.init.run idealEnv viewCalls ∧ GhView.open? w = .ok v ∧
    NoResetWithNodes w [.slide 20, .deform .x, .node] ∧ (ghPicture w [.slide 20, .deform .x, .node]).shape = some (.x, 20) ∧
    (ghPicture w [.slide 20, .deform .x, .node]).nodes = true := by
  obtain ⟨hD, hN, _, _⟩ := viewDemo idealEnv idealEnv_sound
  obtain ⟨v, hv⟩ := (C161_opens idealEnv viewCalls _ rfl).mpr ⟨by rw [hN]; simp, [], viewDemo_case _, by simp⟩
  refine ⟨_, v, rfl, hv, ?_, ?_, ?_⟩
  · intro pre a post e
    match pre with
    | [] => cases e
    | [b] => cases e; intro _; rfl
    | [b, c] => cases e
    | b :: c :: d :: r => simp at e
  · simp [ghPicture, Picture.step, ghStart, hD]
  · simp [ghPicture, Picture.step, ghStart, hD]

/-- a drawing whose script is written -/
example : ∃ lines, generate ghTwice = .ok lines := ⟨_, ghTwice_generate⟩

/-! ### the arrows -/

/-- Each node with a load has one arrow, in the order of the nodes; it ends at the node and is the force times one factor for all nodes; if
some force is not zero the longest arrow is a tenth of the size of the scene, otherwise no arrow has a start. -/
theorem C161_arrows (w : World) (loads : Dict (Vec 6))
    (hl : w.getAllNodalLoad "pat1" = some loads) (loaded : List String)
    (hn : loaded = w.getNodeNames.filter (fun n => Dict.contains loads n)) (hne : loaded ≠ []) (radius : ℝ) (hr : 0 ≤ radius)
    (loc : String → V3) (force : String → Vec 6) (hloc : ∀ n ∈ loaded, w.getNodeLocation n = some (loc n))
    (hf : ∀ n ∈ loaded, loads.get? n = some (force n)) :
    ((∀ n ∈ loaded, forceSize (force n) = 0) → ghArrows w radius = .ok (loaded.map fun n => (none, loc n))) ∧
    ((∃ n ∈ loaded, forceSize (force n) ≠ 0) → ∃ s : ℝ, 0 ≤ s ∧ ghArrows w radius = .ok (loaded.map fun n =>
        (some ⟨(loc n).x - force n 0 * s, (loc n).y - force n 1 * s, (loc n).z - force n 2 * s⟩, loc n)) ∧
      (∀ n ∈ loaded, forceSize (force n) * s ≤ radius / 10) ∧ ∃ n ∈ loaded, forceSize (force n) * s = radius / 10) := by
  unfold ghArrows
  rw [hl]
  simp only []
  rw [← hn, mapM_all_ok _ (fun n => (loc n, force n)) loaded (by
    intro n hn'
    simp [hloc n hn', Dict.getItem, hf n hn', pure, Except.pure, bind, Except.bind])]
  simp only [Except.bind_ok, List.map_map, Function.comp_def]
  have hsz : ∀ n, Real.sqrt (force n 0 ^ 2 + force n 1 ^ 2 + force n 2 ^ 2) = forceSize (force n) := fun n => rfl
  simp only [hsz]
  have hpos : ∀ n, 0 ≤ forceSize (force n) := fun n => Real.sqrt_nonneg _
  cases hm : (loaded.map fun n => forceSize (force n)).maximum with
  | bot => exact absurd (List.maximum_eq_bot.mp hm) (by simpa using hne)
  | coe m =>
    have hmem : m ∈ loaded.map fun n => forceSize (force n) := List.maximum_mem hm
    have hle : ∀ x ∈ loaded.map fun n => forceSize (force n), x ≤ m := fun x hx => List.le_maximum_of_mem hx hm
    obtain ⟨n₀, hn₀, e₀⟩ := List.mem_map.mp hmem
    constructor
    · intro h0
      have : m = 0 := by rw [← e₀]; exact h0 n₀ hn₀
      simp [this, pure, Except.pure]
    · rintro ⟨n₁, hn₁, h₁⟩
      have hmp : 0 < m := lt_of_lt_of_le (lt_of_le_of_ne (hpos n₁) (Ne.symm h₁)) (hle _ (List.mem_map_of_mem hn₁))
      have full : m * (radius / m * 0.1) = radius / 10 := by field_simp; ring
      refine ⟨radius / m * 0.1, by positivity, by simp [hmp.ne', pure, Except.pure], ?_, n₀, hn₀, by rw [e₀, full]⟩
      intro n hn'
      rw [← full]
      exact mul_le_mul_of_nonneg_right (hle _ (List.mem_map_of_mem hn')) (by positivity)

/-- a square shell with a load, held at one node in the case: both viewers open, and there are three cones -/
example : ∃ w v v', w = World.init.run idealEnv (squareCalls ++ [.addLoadpattern "pat1", .setNodalLoad "pat1" "B" ![3, 0, 4, 0, 0, 0],
      .addStaticCase "case1", .setLoadcaseNodalRestraint "case1" "B" (fun i => i.val < 3)] ++ [.addShell "s" "S" "A" "B" "C" (some "D")]) ∧
    openGhModel w = .ok v ∧ GhView.open? w = .ok v' ∧ v'.cones.map (fun c => (coneTip c, c.axis, c.turn)) =
      [(⟨1, 0, 0⟩, ⟨1, 0, 0⟩, false), (⟨1, 0, 0⟩, ⟨0, 1, 0⟩, false), (⟨1, 0, 0⟩, ⟨0, 0, 1⟩, false)] := by
  have hpre : World.init.run idealEnv (squareCalls ++ [.addLoadpattern "pat1", .setNodalLoad "pat1" "B" ![3, 0, 4, 0, 0, 0],
      .addStaticCase "case1", .setLoadcaseNodalRestraint "case1" "B" (fun i => i.val < 3)]) =
      ⟨⟨{ FeModel.empty with
        nodes := [("A", stdNode "A" 0 0 0), ("B", stdNode "B" 1 0 0), ("C", stdNode "C" 1 1 0), ("D", stdNode "D" 0 1 0)]
        hidNode := [("A", 0), ("B", 1), ("C", 2), ("D", 3)]
        material := [("m", ⟨"m", 1, 1, 0, 0⟩)]
        shellSection := [("S", ⟨"S", ⟨"m", 1, 1, 0, 0⟩, 1, ""⟩)] },
        [("case1", { LoadCase.new "case1" .static with restraint := [("B", fun i => i.val < 3)] })], [("pat1", 0)],
        [(LoadPattern.new "pat1").setNodalLoad "B" ![3, 0, 4, 0, 0, 0]]⟩, []⟩ := by
    rw [run_append, square_run, run_cons, step_addLoadpattern, run_cons,
      step_setNodalLoad_of idealEnv _ _ _ _ 0 (LoadPattern.new "pat1") rfl rfl, run_cons, step_addStaticCase, run_cons,
      step_of_edit idealEnv _ (.setLoadcaseNodalRestraint "case1" "B" _) _ rfl (by exact ⟨_, rfl, rfl⟩), run_nil]
    rfl
  generalize hw0 : World.init.run idealEnv (squareCalls ++ [.addLoadpattern "pat1", .setNodalLoad "pat1" "B" ![3, 0, 4, 0, 0, 0],
      .addStaticCase "case1", .setLoadcaseNodalRestraint "case1" "B" (fun i => i.val < 3)]) = w0 at hpre
  have h49 := C49_actual_partial idealEnv _ w0 hw0.symm "s" "S" "A" "B" "C" "D"
  have hok := h49.1.mpr (by rw [hpre]; refine ⟨by decide, ?_, ?_, ?_, ?_⟩ <;> simp [World.getNodeNames, Dict.keys])
  have hget := h49.2 hok
  have hrun : World.init.run idealEnv (squareCalls ++ [.addLoadpattern "pat1", .setNodalLoad "pat1" "B" ![3, 0, 4, 0, 0, 0],
      .addStaticCase "case1", .setLoadcaseNodalRestraint "case1" "B" (fun i => i.val < 3)] ++
      [.addShell "s" "S" "A" "B" "C" (some "D")]) = (w0.step idealEnv (.addShell "s" "S" "A" "B" "C" (some "D"))).1 := by
    rw [run_append, hw0, run_cons, run_nil]
  generalize hw : World.init.run idealEnv (squareCalls ++ [.addLoadpattern "pat1", .setNodalLoad "pat1" "B" ![3, 0, 4, 0, 0, 0],
      .addStaticCase "case1", .setLoadcaseNodalRestraint "case1" "B" (fun i => i.val < 3)] ++
      [.addShell "s" "S" "A" "B" "C" (some "D")]) = w at hrun
  rw [← hrun] at hget
  rw [step_edit idealEnv _ _ rfl] at hok hrun
  cases he : w0.api.edit (.addShell "s" "S" "A" "B" "C" (some "D")) with
  | error e => rw [he] at hok; cases hok
  | ok a' =>
    rw [he] at hrun
    rw [edit_ok_iff] at he
    obtain ⟨e, _, rfl⟩ := he
    simp only [hpre] at hrun
    have hN : w.getNodeNames = ["A", "B", "C", "D"] := by rw [hrun]; rfl
    have hS : w.getShellNames = ["s"] := by rw [hrun]; rfl
    have hR : w.getNodeRestraints (some "case1") = some [("B", fun i : Fin 6 => decide (i.val < 3))] := by rw [hrun]; rfl
    have hP : w.getAllNodalLoad "pat1" = some [("B", ![3, 0, 4, 0, 0, 0])] := by rw [hrun]; rfl
    have hL : nodeAt w none "B" = ⟨1, 0, 0⟩ := by rw [hrun]; rfl
    obtain ⟨v, hv⟩ := (C161_model_opens idealEnv _ w hw.symm).1.mpr ⟨by rw [hN]; simp, ⟨_, hP, "B", by rw [hN]; simp, by simp [Dict.get?]⟩,
      by rw [hS]; simp, by rw [hS]; simp [hget]⟩
    obtain ⟨v', hv'⟩ := (C161_opens idealEnv _ w hw.symm).mpr ⟨by rw [hN]; simp, _, hR, by rw [hN]; simp⟩
    refine ⟨w, v, v', rfl, hv, hv', ?_⟩
    have := C161_supports_partial idealEnv _ w hw.symm v' hv' [] _ hR
    rw [show v'.run [] = v' from rfl] at this
    rw [this]
    have hff : ((List.finRange 6).filter fun i => decide (i.val < 3)) = [0, 1, 2] := by decide
    simp [tips, hff, hL, supportDir]

end Hyperstatic
