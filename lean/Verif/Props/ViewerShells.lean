import Verif.Props.Viewer
import Verif.Props.Shell
import Verif.Props.Registry

/-
C149: shells and supports in the pictures.
-/

namespace Hyperstatic
open Spec

/-! ### C149 Shells and supports are drawn where they are -/

/-- Whatever buttons are pressed, what is drawn of the shells is every shell once, in the order of their names, between the places of its four
nodes, which are moved with the deformation that is drawn; a model with shells always shows them. -/
theorem C149_shells (env : Env) (cs : List Call) (w : World) (hw : w = World.init.run env cs) (v : Viewer)
    (hv : Viewer.open? w = .ok v) (clicks : List Click) :
    (∀ vs fs, (v.run clicks).Sees (.mesh vs fs) →
      meshCorners vs fs = w.getShellNames.map (shellAt w (Picture.after w clicks).shape)) ∧
    (w.getShellNames ≠ [] → ∃ vs fs, (v.run clicks).Sees (.mesh vs fs)) := by
  obtain ⟨⟨_, hq⟩, h, _⟩ := view_run env cs w hw v hv clicks
  have hd : Drawable w := by rw [hw]; exact Drawable_run env cs
  constructor
  · rintro vs fs ⟨i, hi, hs⟩
    obtain ⟨o, hn⟩ := h.node
    obtain ⟨o', hz⟩ := h.zero
    rcases h.sub i hi with rfl | rfl | rfl | hsh
    · rw [hz] at hs; simp at hs
    · rw [hn] at hs; simp at hs
    · rw [h.beam] at hs; simp at hs
    · rcases h.shell with ⟨hno, _⟩ | ⟨j, hj, _, hm⟩
      · rw [hno] at hsh; cases hsh
      · rw [hj] at hsh; cases hsh
        rw [hm] at hs
        simp only [Option.some.injEq, Actor.mk.injEq, Sketch.mesh.injEq, and_true] at hs
        rw [← hs.1, ← hs.2]
        exact meshCorners_eq hd hq _
  · intro hne
    rcases h.shell with ⟨_, hno⟩ | ⟨j, hj, hin, hm⟩
    · exact absurd hno hne
    · exact ⟨_, _, j, hin, hm⟩

/-- The symbols of the supports: for every node with a support, in the order of the supports, one cone for each component that is held, with
its tip at the node, along the axis for a translation and against it for a rotation, all of one size: the hundredth part of the size of the
scene.  No button changes them. -/
theorem C149_supports (env : Env) (cs : List Call) (w : World) (hw : w = World.init.run env cs) (v : Viewer)
    (hv : Viewer.open? w = .ok v) (clicks : List Click) (restraints : Dict Flags) (hr : w.getNodeRestraints none = some restraints) :
    (v.run clicks).cones.map (fun c => (coneTip c, c.axis, c.turn)) =
      restraints.flatMap (fun kv => ((List.finRange 6).filter (fun i => kv.2 i)).map
        fun i => (nodeAt w none kv.1, supportDir i, decide (3 ≤ i.val))) ∧
    ∀ c ∈ (v.run clicks).cones, c.half = sceneRadius (w.getNodeNames.map (nodeAt w none)) / 100 := by
  obtain ⟨⟨hne, hq⟩, _, _⟩ := view_run env cs w hw v hv []
  have hd : Drawable w := by rw [hw]; exact Drawable_run env cs
  obtain ⟨v', hv', _, _, _, hc⟩ := open_inv hd hne hq
  rw [hv] at hv'
  cases hv'
  have hrun : (v.run clicks).cones = v.cones := by
    induction clicks using List.reverseRecOn with
    | nil => rfl
    | append_singleton l c ih =>
      have e : v.run (l ++ [c]) = (v.run l).step c := by simp [Viewer.run]
      rw [e, Viewer.step_cones, ih]
  simp only [World.getNodeRestraints, Option.some.injEq] at hr
  rw [hrun, hc, hr]
  constructor
  · rw [List.map_flatMap]
    congr 1
    funext kv
    simp only [conesAt, List.map_map]
    apply List.map_congr_left
    intro i _
    simp [coneTip]
  · intro c hc
    obtain ⟨kv, _, hc⟩ := List.mem_flatMap.mp hc
    simp only [conesAt, List.mem_map] at hc
    obtain ⟨i, _, rfl⟩ := hc
    rfl

/-- the full property: every model with a node can be viewed -/
def C149_claim : Prop :=
  ∀ (env : Env) (cs : List Call) (w : World), w = World.init.run env cs → w.getNodeNames ≠ [] → ∃ v, Viewer.open? w = .ok v

/-- and each support that holds in the case the viewer shows has its symbol -/
def C149_case_claim : Prop :=
  ∀ (env : Env) (cs : List Call) (w : World), w = World.init.run env cs → ∀ v, Viewer.open? w = .ok v →
    ∀ restraints, w.getNodeRestraints (some "case1") = some restraints → ∀ kv ∈ restraints, ∀ i, kv.2 i = true →
      ∃ c ∈ v.cones, coneTip c = nodeAt w none kv.1

theorem square_tria (env : Env) : "s" ∈ (World.init.run env (squareCalls ++ [.addShell "s" "S" "A" "B" "C" none])).getShellNames ∧
    (World.init.run env (squareCalls ++ [.addShell "s" "S" "A" "B" "C" none])).getShellNodeNames "s" = none := by
  rw [run_append, run_cons, run_nil]
  have hn : cornerNormal ⟨0, 0, 0⟩ ⟨1, 0, 0⟩ ⟨1, 1, 0⟩ = ez := by norm_num [cornerNormal, V3.cross, ez]
  have h := C49_tria_partial env squareCalls _ rfl "s" "S" "A" "B" "C" ⟨0, 0, 0⟩ ⟨1, 0, 0⟩ ⟨1, 1, 0⟩ (by rw [square_run]; rfl)
    (by rw [square_run]; rfl) (by rw [square_run]; rfl) (by rw [hn]; exact V3.ez_ne)
  apply h.2
  rw [h.1, square_run, hn, V3.ez_unit]
  refine ⟨by decide, ?_⟩
  have h2 : V3.norm (ez + ez) = 2 := by
    rw [show ez + ez = (⟨0, 0, 2⟩ : V3) by norm_num [ez]]
    unfold V3.norm
    rw [show (0 : ℝ) * 0 + 0 * 0 + 2 * 2 = 2 ^ 2 by norm_num]
    exact Real.sqrt_sq (by norm_num)
  rw [h2]
  norm_num [absTol]

/-- A model with a triangle cannot be viewed at all. -/
theorem C149_false : ¬ C149_claim := by
  intro h
  obtain ⟨hs, hn⟩ := square_tria idealEnv
  obtain ⟨v, hv⟩ := h idealEnv (squareCalls ++ [.addShell "s" "S" "A" "B" "C" none]) _ rfl (by
    rw [(C02_node_registry idealEnv _).1]
    simp [squareCalls, Machine.run, Machine.step, nodeReg])
  exact ((C127_opens idealEnv _ _ rfl).mp ⟨v, hv⟩).2 "s" hs hn

/-- Supports that a case sets for itself have no symbol, also when that case is the one shown. -/
theorem C149_case_false : ¬ C149_case_claim := by
  intro h
  have hw : World.init.run idealEnv [.addNode "A" 1 2 3, .addStaticCase "case1", .setLoadcaseNodalRestraint "case1" "A" (fun _ => true)] =
      ⟨⟨{ FeModel.empty with nodes := [("A", stdNode "A" 1 2 3)], hidNode := [("A", 0)] },
        [("case1", ⟨"case1", .static, [], [], [], [("A", fun _ => true)]⟩)], [], []⟩, []⟩ := by
    rw [run_cons, step_addNode, run_cons, step_addStaticCase, run_cons,
      step_of_edit idealEnv _ (.setLoadcaseNodalRestraint "case1" "A" (fun _ => true)) _ rfl
        (by exact ⟨LoadCase.new "case1" .static, rfl, rfl⟩), run_nil]
    rfl
  obtain ⟨v, hv⟩ := (C127_opens idealEnv _ _ rfl).mpr (by
    rw [hw]
    exact ⟨by simp [World.getNodeNames, Dict.keys], by simp [World.getShellNames, Dict.keys, FeModel.empty]⟩)
  obtain ⟨c, hc, _⟩ := h idealEnv _ _ rfl v hv [("A", fun _ => true)] (by rw [hw]; rfl) ("A", fun _ => true) (by simp) 0 rfl
  have := (C149_supports idealEnv _ _ rfl v hv [] [] (by rw [hw]; rfl)).1
  simp only [List.flatMap_nil, List.map_eq_nil_iff] at this
  rw [show v.run [] = v from rfl] at this
  rw [this] at hc
  cases hc

/-- a model with a shell of four nodes, one of them held in three components, opens: its shell is drawn, and three cones -/
example : ∃ w v, w = World.init.run idealEnv (squareCalls ++ [.setNodalRestraint "B" (fun i => i.val < 3)] ++
      [.addShell "s" "S" "A" "B" "C" (some "D")]) ∧ Viewer.open? w = .ok v ∧
    (∃ vs fs, (v.run [.slide 5, .node]).Sees (.mesh vs fs) ∧
      meshCorners vs fs = [(some ⟨0, 0, 0⟩, some ⟨1, 0, 0⟩, some ⟨1, 1, 0⟩, some ⟨0, 1, 0⟩)]) ∧
    v.cones.map (fun c => (coneTip c, c.axis, c.turn)) =
      [(⟨1, 0, 0⟩, ⟨1, 0, 0⟩, false), (⟨1, 0, 0⟩, ⟨0, 1, 0⟩, false), (⟨1, 0, 0⟩, ⟨0, 0, 1⟩, false)] := by
  have hpre : World.init.run idealEnv (squareCalls ++ [.setNodalRestraint "B" (fun i => i.val < 3)]) =
      ⟨⟨{ FeModel.empty with
        nodes := [("A", stdNode "A" 0 0 0), ("B", stdNode "B" 1 0 0), ("C", stdNode "C" 1 1 0), ("D", stdNode "D" 0 1 0)]
        restraints := [("B", fun i => i.val < 3)]
        hidNode := [("A", 0), ("B", 1), ("C", 2), ("D", 3)]
        material := [("m", ⟨"m", 1, 1, 0, 0⟩)]
        shellSection := [("S", ⟨"S", ⟨"m", 1, 1, 0, 0⟩, 1, ""⟩)] }, [], [], []⟩, []⟩ := by
    rw [run_append, square_run, run_cons, step_setNodalRestraint, run_nil]
    rfl
  generalize hw0 : World.init.run idealEnv (squareCalls ++ [.setNodalRestraint "B" (fun i => i.val < 3)]) = w0 at hpre
  have h49 := C49_actual_partial idealEnv _ w0 hw0.symm "s" "S" "A" "B" "C" "D"
  have hok := h49.1.mpr (by rw [hpre]; refine ⟨by decide, ?_, ?_, ?_, ?_⟩ <;> simp [World.getNodeNames, Dict.keys])
  have hget := h49.2 hok
  have hrun : World.init.run idealEnv (squareCalls ++ [.setNodalRestraint "B" (fun i => i.val < 3)] ++
      [.addShell "s" "S" "A" "B" "C" (some "D")]) = (w0.step idealEnv (.addShell "s" "S" "A" "B" "C" (some "D"))).1 := by
    rw [run_append, hw0, run_cons, run_nil]
  generalize hw : World.init.run idealEnv (squareCalls ++ [.setNodalRestraint "B" (fun i => i.val < 3)] ++
      [.addShell "s" "S" "A" "B" "C" (some "D")]) = w at hrun
  rw [← hrun] at hget
  rw [step_edit idealEnv _ _ rfl] at hok hrun
  cases he : w0.api.edit (.addShell "s" "S" "A" "B" "C" (some "D")) with
  | error e => rw [he] at hok; cases hok
  | ok a' =>
    rw [he] at hrun
    rw [edit_ok_iff] at he
    obtain ⟨e, _, rfl⟩ := he
    simp only [hpre] at hrun
    have hN : w.getNodeNames = ["A", "B", "C", "D"] := by rw [hrun]; rfl
    have hS : w.getShellNames = ["s"] := by rw [hrun]; rfl
    have hR : w.getNodeRestraints none = some [("B", fun i : Fin 6 => decide (i.val < 3))] := by rw [hrun]; rfl
    have hL : nodeAt w none "A" = ⟨0, 0, 0⟩ ∧ nodeAt w none "B" = ⟨1, 0, 0⟩ ∧ nodeAt w none "C" = ⟨1, 1, 0⟩ ∧
        nodeAt w none "D" = ⟨0, 1, 0⟩ := by rw [hrun]; exact ⟨rfl, rfl, rfl, rfl⟩
    obtain ⟨v, hv⟩ := (C127_opens idealEnv _ w hw.symm).mpr ⟨by rw [hN]; simp, by rw [hS]; simp [hget]⟩
    refine ⟨w, v, rfl, hv, ?_, ?_⟩
    · obtain ⟨h1, h2⟩ := C149_shells idealEnv _ w hw.symm v hv [.slide 5, .node]
      obtain ⟨vs, fs, hs⟩ := h2 (by rw [hS]; simp)
      refine ⟨vs, fs, hs, ?_⟩
      rw [h1 vs fs hs, hS]
      simp [Picture.after, Picture.step, Picture.start, shellAt, hget, hL]
    · rw [show v = v.run [] from rfl, (C149_supports idealEnv _ w hw.symm v hv [] _ hR).1]
      have hf : List.finRange 6 = [0, 1, 2, 3, 4, 5] := by decide
      simp [hf, hL, supportDir]

end Hyperstatic
