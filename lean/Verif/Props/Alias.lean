import Verif.Lemmas.Alias
import Verif.Lemmas.TwoSupports
import Verif.Props.Tables

/-
C153: what a query returns belongs to the caller.
-/

namespace Hyperstatic
open Spec

/-- C153: whatever a script writes into the arrays that queries gave it, every query goes on to answer as if it had not. -/
def C153_claim : Prop :=
  ∀ (env : Env) (acts : List ScriptStep), SameAnswers (Shared.init.run env acts).world (World.init.run env (callsIn acts))

theorem SameAnswers.refl (w : World) : SameAnswers w w := by
  constructor <;> intros <;> rfl

/-- C153 for scripts that write into no array got from `get_node_location` or `get_all_nodal_load`: what they do to the restraints they
were given is their own business. -/
theorem C153_restraints_partial (env : Env) (acts : List ScriptStep) (h : KeepsOff acts) :
    SameAnswers (Shared.init.run env acts).world (World.init.run env (callsIn acts)) := by
  have e := keepsOff_world env acts h SBound_init
  rw [e]
  exact SameAnswers.refl _

example : KeepsOff [.call (.addNode "A" 0 0 0), .call (.setNodalRestraint "A" fun _ => true), .askRestraints none,
    .writeRestraints 0 fun _ _ => false, .askLocation "A", .call (.save "m"), .call (.load "m")] := trivial

theorem askLocation_eq (env : Env) {s : Shared} {name : String} {a : ℕ} (h : s.ids.node.get? name = some a) (g : V3 → V3) :
    s.run env [.askLocation name, .writeLocation s.locs.length g] =
      { s with locs := s.locs ++ [a], world := { s.world with api := s.world.api.store s.ids a ⟨g, id, id⟩ } } := by
  show (s.step env (.askLocation name)).step env (.writeLocation s.locs.length g) = _
  have e : s.step env (.askLocation name) = { s with locs := s.locs ++ [a] } := by
    simp only [Shared.step, h]
  rw [e]
  show Shared.write _ ((s.locs ++ [a])[s.locs.length]?) _ = _
  rw [List.getElem?_append_right (le_refl _), Nat.sub_self]
  rfl

theorem getNodeLocation_eq (w : World) (n : String) : w.getNodeLocation n = (w.api.model.nodes.get? n).map Node.loc := by
  unfold World.getNodeLocation FeModel.getNodeLocation Dict.getItem
  cases w.api.model.nodes.get? n <;> rfl

/-- What a write into the answer of `get_node_location` does, after any script: it moves the node, and no other; names, supports, loads
and files stay. -/
theorem C153_location (env : Env) (acts : List ScriptStep) (s : Shared) (hs : s = Shared.init.run env acts) (name : String) (p : V3)
    (hp : s.world.getNodeLocation name = some p) (g : V3 → V3) (w : World)
    (hw : w = (s.run env [.askLocation name, .writeLocation s.locs.length g]).world) :
    w.getNodeLocation name = some (g p) ∧ (∀ m, m ≠ name → w.getNodeLocation m = s.world.getNodeLocation m) ∧
    w.getNodeNames = s.world.getNodeNames ∧ w.getBeamNames = s.world.getBeamNames ∧
    (∀ b, w.getBeamNodeNames b = s.world.getBeamNodeNames b) ∧ (∀ c, w.getNodeRestraints c = s.world.getNodeRestraints c) ∧
    (∀ q, w.getAllNodalLoad q = s.world.getAllNodalLoad q) ∧ w.fs = s.world.fs := by
  have hI := (IdInv_run env acts).cur
  rw [← hs] at hI
  rw [getNodeLocation_eq] at hp
  obtain ⟨nd, hnd, rfl⟩ := Option.map_eq_some_iff.mp hp
  obtain ⟨a, ha⟩ : ∃ a, s.ids.node.get? name = some a :=
    Dict.get?_of_mem_keys (by rw [hI.keys]; exact Dict.mem_keys_of_get? hnd)
  rw [askLocation_eq env ha] at hw
  subst hw
  have hheap : (s.world.api.store s.ids a ⟨g, id, id⟩).heap = s.world.api.heap := by
    show List.mapIdx _ _ = _
    refine List.mapIdx_eq_iff.mpr fun j => ?_
    cases s.world.api.heap[j]? with
    | none => rfl
    | some q =>
      simp only [Option.map_some, id, ite_self, Option.some.injEq]
      rw [Dict.mapKV_id (fun _ _ => rfl)]
  refine ⟨?_, ?_, ?_, ?_, ?_, ?_, ?_, rfl⟩
  · rw [getNodeLocation_eq]
    show ((s.world.api.store s.ids a ⟨g, id, id⟩).model.nodes.get? name).map Node.loc = _
    rw [store_node, hnd]
    simp only [Option.map_some, ha, if_true]
    rfl
  · intro m hm
    rw [getNodeLocation_eq, getNodeLocation_eq]
    show ((s.world.api.store s.ids a ⟨g, id, id⟩).model.nodes.get? m).map Node.loc = _
    rw [store_node, Option.map_map]
    congr 1
    funext q
    show Node.loc (if _ then _ else _) = _
    rw [if_neg fun e => hm (hI.inj m name a e ha)]
  · simp only [World.getNodeNames, Api.store, FeModel.store, Dict.mapKV_keys]
  · simp only [World.getBeamNames, Api.store, FeModel.store, Dict.mapKV_keys]
  · intro b
    show tryOption ((s.world.api.store s.ids a ⟨g, id, id⟩).model.getBeamConnection b) = tryOption (s.world.api.model.getBeamConnection b)
    unfold FeModel.getBeamConnection Dict.getItem
    simp only [Api.store, FeModel.store, Dict.mapKV_get?]
    cases s.world.api.model.beams.get? b <;> rfl
  · intro c
    cases c with
    | none =>
      simp only [World.getNodeRestraints, Api.store, FeModel.store]
      rw [Dict.mapKV_id]
      intro n f
      simp only [id, ite_self]
    | some c =>
      show tryOption ((s.world.api.store s.ids a ⟨g, id, id⟩).loadcases.getItem c >>= fun lc => pure lc.restraint) =
        tryOption (s.world.api.loadcases.getItem c >>= fun lc => pure lc.restraint)
      unfold Dict.getItem
      simp only [Api.store, Dict.mapKV_get?]
      cases s.world.api.loadcases.get? c with
      | none => rfl
      | some lc =>
        show some _ = some lc.restraint
        simp only [id, ite_self]
        rw [Dict.mapKV_id fun _ _ => rfl]
  · intro q
    unfold World.getAllNodalLoad
    simp only [hheap]
    rfl

/-- What a write into an array of the answer of `get_all_nodal_load` does, after any script: each load of the pattern is in one of the
arrays, and writing there changes this load, and no load of another node in any pattern. -/
theorem C153_loads (env : Env) (acts : List ScriptStep) (s : Shared) (hs : s = Shared.init.run env acts) (pat n : String) (f : Vec 6)
    (hf : s.world.getNodalLoad pat n = some f) :
    ∃ k, ∀ (g : Vec 6 → Vec 6) (w : World), w = (s.run env [.askLoads pat, .writeLoads k g]).world →
      w.getNodalLoad pat n = some (g f) ∧ (∀ q m, m ≠ n → w.getNodalLoad q m = s.world.getNodalLoad q m) ∧
      (∀ m, w.getNodeLocation m = s.world.getNodeLocation m) ∧ w.fs = s.world.fs := by
  have hI := (IdInv_run env acts).cur
  rw [← hs] at hI
  have load_eq : ∀ (w : World) (pat n : String), w.getNodalLoad pat n =
      (w.api.loadpatterns.get? pat).bind fun r => (w.api.heap[r]?).bind fun p => p.nodalLoad.get? n := by
    intro w pat n
    unfold World.getNodalLoad Dict.getItem PatHeap.deref LoadPattern.getNodalF
    cases w.api.loadpatterns.get? pat with
    | none => rfl
    | some r =>
      simp only [bind, Except.bind, Option.bind]
      cases w.api.heap[r]? with
      | none => rfl
      | some p =>
        simp only
        cases p.nodalLoad.get? n <;> rfl
  rw [load_eq] at hf
  obtain ⟨r, hr, hf⟩ := Option.bind_eq_some_iff.mp hf
  obtain ⟨p, hp, hf⟩ := Option.bind_eq_some_iff.mp hf
  obtain ⟨a, ha⟩ : ∃ a, (s.ids.load r).get? n = some a :=
    Dict.get?_of_mem_keys (by rw [hI.load_keys r p hp]; exact Dict.mem_keys_of_get? hf)
  obtain ⟨j, hj⟩ := List.getElem?_of_mem (Dict.mem_values_of_get? ha)
  refine ⟨s.loads.length + j, ?_⟩
  intro g w hw
  have e : (s.run env [.askLoads pat, .writeLoads (s.loads.length + j) g]).world =
      { s.world with api := s.world.api.store s.ids a ⟨id, id, g⟩ } := by
    show ((s.step env (.askLoads pat)).step env (.writeLoads (s.loads.length + j) g)).world = _
    have e : s.step env (.askLoads pat) = { s with loads := s.loads ++ (s.ids.load r).values } := by
      simp only [Shared.step, hr]
    rw [e]
    show (Shared.write _ ((s.loads ++ (s.ids.load r).values)[s.loads.length + j]?) _).world = _
    rw [List.getElem?_append_right (Nat.le_add_right _ _), Nat.add_sub_cancel_left, hj]
    rfl
  rw [e] at hw
  have hload : ∀ m, w.getNodalLoad pat m = (p.nodalLoad.get? m).map fun f => if m = n then g f else f := by
    intro m
    rw [load_eq, hw]
    simp only
    show (s.world.api.loadpatterns.get? pat).bind _ = _
    rw [hr]
    show ((s.world.api.heap.mapIdx _)[r]?).bind _ = _
    rw [List.getElem?_mapIdx, hp]
    simp only [Option.map_some, Option.bind_some, Dict.mapKV_get?]
    congr 1
    funext f
    by_cases hm : m = n
    · subst hm
      simp only [ha, if_true]
    · rw [if_neg hm, if_neg fun e => hm (hI.load_inj r r m n a e ha).2]
  refine ⟨?_, ?_, ?_, ?_⟩
  · rw [hload, hf]
    simp only [Option.map_some, if_true]
  · intro q m hm
    rw [load_eq, load_eq, hw]
    show (s.world.api.loadpatterns.get? q).bind _ = (s.world.api.loadpatterns.get? q).bind _
    congr 1
    funext r'
    show ((s.world.api.heap.mapIdx _)[r']?).bind _ = _
    rw [List.getElem?_mapIdx]
    cases s.world.api.heap[r']? with
    | none => rfl
    | some p' =>
      simp only [Option.map_some, Option.bind_some, Dict.mapKV_get?]
      simp only [if_neg fun e => hm (hI.load_inj r' r m n a e ha).2]
      exact Option.map_id'
  · intro m
    rw [getNodeLocation_eq, getNodeLocation_eq, hw]
    show ((s.world.api.store s.ids a ⟨id, id, g⟩).model.nodes.get? m).map Node.loc = _
    rw [store_node, Option.map_map]
    congr 1
    funext q
    show Node.loc (if _ then _ else _) = _
    split <;> rfl
  · rw [hw]

example (f g : Vec 6) : (Shared.init.run idealEnv [.call (.addLoadpattern "p"), .call (.setNodalLoad "p" "A" f), .askLoads "p",
    .call (.setNodalLoad "p" "B" g)]).world.getNodalLoad "p" "A" = some f := by
  rw [keepsOff_world idealEnv [.call (.addLoadpattern "p"), .call (.setNodalLoad "p" "A" f), .askLoads "p",
    .call (.setNodalLoad "p" "B" g)] trivial SBound_init]
  refine C09_readback idealEnv [.addLoadpattern "p"] [.setNodalLoad "p" "B" g] "p" "A" f ?_ ?_
  · rw [getAllNodalLoad_eq _ (ApiInv_run idealEnv _).1]
    simp [run_cons, run_nil, step_addLoadpattern, World.init, Api.init, Dict.set, patLoads, Dict.get?]
  · intro k hk; simp at hk; rcases hk with rfl; simp

/-- One node, asked for its location, and moved by writing into the answer. -/
def nudge : List ScriptStep := [.call (.addNode "A" 0 0 0)]

theorem nudge_world (env : Env) : (Shared.init.run env nudge).world = World.init.run env [.addNode "A" 0 0 0] :=
  keepsOff_world env nudge trivial SBound_init

theorem nudge_location (env : Env) : (Shared.init.run env nudge).world.getNodeLocation "A" = some ⟨0, 0, 0⟩ := by
  rw [nudge_world, run_cons, run_nil, step_addNode]
  rfl

/-- C153 is false: the answer of `get_node_location` is the array that the model itself uses. -/
theorem C153_false : ¬ C153_claim := by
  intro h
  have h1 := (h idealEnv (nudge ++ [.askLocation "A", .writeLocation (Shared.init.run idealEnv nudge).locs.length fun _ => ⟨1, 0, 0⟩])).nodeLocation "A"
  have h2 := (C153_location idealEnv nudge _ rfl "A" _ (nudge_location idealEnv) (fun _ => ⟨1, 0, 0⟩) _ rfl).1
  have e : Shared.init.run idealEnv (nudge ++ [.askLocation "A", .writeLocation (Shared.init.run idealEnv nudge).locs.length fun _ => ⟨1, 0, 0⟩]) =
      (Shared.init.run idealEnv nudge).run idealEnv [.askLocation "A", .writeLocation (Shared.init.run idealEnv nudge).locs.length fun _ => ⟨1, 0, 0⟩] :=
    List.foldl_append
  rw [e, h2] at h1
  have h3 := nudge_location idealEnv
  rw [nudge_world] at h3
  have h4 : World.getNodeLocation (World.init.run idealEnv [.addNode "A" 0 0 0]) "A" = some ⟨1, 0, 0⟩ := h1.symm
  rw [h3] at h4
  simp at h4

/-- A beam follows its nodes even when a script moves them by writing into locations, provided no node name is added twice: at any time
its ends are where its nodes are. -/
theorem C153_attached (env : Env) (acts : List ScriptStep) (h : ScriptNoReadd env Shared.init acts) (w : World)
    (hw : w = (Shared.init.run env acts).world) (b i j : String) (p q : V3) (h1 : w.getBeamNodeNames b = some (i, j))
    (h2 : w.getBeamLocation b = some (p, q)) : w.getNodeLocation i = some p ∧ w.getNodeLocation j = some q := by
  subst hw
  have hA := (AttInv_run env acts h).cur
  rw [getNodeLocation_eq, getNodeLocation_eq]
  unfold World.getBeamNodeNames FeModel.getBeamConnection Dict.getItem at h1
  unfold World.getBeamLocation FeModel.getBeamLocation Dict.getItem at h2
  cases hb : (Shared.init.run env acts).world.api.model.beams.get? b with
  | none => rw [hb] at h1; cases h1
  | some be =>
    rw [hb] at h1 h2
    cases h1
    cases h2
    obtain ⟨a1, a2, n1, n2, -, -, -, h4, h5, h6, h7⟩ := hA.att b be hb
    rw [h4, h6]
    exact ⟨congrArg some h5, congrArg some h7⟩

example : ScriptNoReadd idealEnv Shared.init [.call (.addNode "A" 0 0 0), .askLocation "A", .writeLocation 0 fun p => ⟨p.x + 1, p.y, p.z⟩] := by
  refine ⟨?_, ?_, ?_, trivial⟩
  · intro n x y z e
    cases e
    simp [Shared.init, World.init, World.getNodeNames, Api.init, FeModel.empty, Dict.keys]
  · intro n x y z e; cases e
  · intro n x y z e; cases e

/-- The axes of the beams: in every state each beam is solved with the axes of the line between its ends. -/
def C153_axes_claim : Prop :=
  ∀ (env : Env) (acts : List ScriptStep), ScriptNoReadd env Shared.init acts →
    ∀ b be, (Shared.init.run env acts).world.api.model.beams.get? b = some be → be.csys = beamFrame be.startLoc be.endLoc

/-- So it is in scripts that do not write into locations (or loads). -/
theorem C153_axes_partial (env : Env) (acts : List ScriptStep) (h : KeepsOff acts) (b : String) (be : BeamElm)
    (hb : (Shared.init.run env acts).world.api.model.beams.get? b = some be) : be.csys = beamFrame be.startLoc be.endLoc := by
  rw [keepsOff_world env acts h SBound_init] at hb
  exact beamFrame_eq ((ApiInv_run env (callsIn acts)).1.beam_ok b be hb).2.2.2.1

/-- Two nodes, a beam between them along the first axis, and the location of the second node. -/
def swing : List ScriptStep :=
  [.call (.addNode "A" 0 0 0), .call (.addNode "B" 2 0 0), .call (.addSimpleBeam "b" "A" "B" 1 0 1 1 1 1 1)]

theorem swing_noReadd (env : Env) (g : V3 → V3) (k : ℕ) : ScriptNoReadd env Shared.init (swing ++ [.askLocation "B", .writeLocation k g]) := by
  refine ⟨?_, ?_, ?_, ?_, ?_, trivial⟩
  · intro n x y z e
    cases e
    simp [Shared.init, World.init, World.getNodeNames, Api.init, FeModel.empty, Dict.keys]
  · intro n x y z e
    cases e
    have : (Shared.init.step env (.call (.addNode "A" 0 0 0))).world.getNodeNames = ["A"] := by
      simp only [Shared.step, step_addNode, if_true]
      rfl
    rw [this]
    decide
  · intro n x y z e; cases e
  · intro n x y z e; cases e
  · intro n x y z e; cases e

theorem swing_beam (env : Env) : ∃ be, (Shared.init.run env swing).world.api.model.beams.get? "b" = some be ∧
    be.csys = beamFrame ⟨0, 0, 0⟩ ⟨2, 0, 0⟩ ∧ be.csys.x = ⟨1, 0, 0⟩ ∧ be.endName = "B" ∧ be.startName = "A" ∧ be.startLoc = ⟨0, 0, 0⟩ := by
  have hl : ∃ c, lineCsys ⟨0, 0, 0⟩ ⟨2, 0, 0⟩ = .ok c := by
    rw [lineCsys_x (by norm_num [absTol])]
    unfold Csys.mk?
    rw [if_neg]
    · exact ⟨_, rfl⟩
    · norm_num [V3.cross, V3.maxAbs, absTol]
  obtain ⟨c, hc⟩ := hl
  set w0 := World.init.run env [.addNode "A" 0 0 0, .addNode "B" 2 0 0] with hw0
  have e0 : w0.api = { Api.init with model := { FeModel.empty with
            nodes := [("A", stdNode "A" 0 0 0), ("B", stdNode "B" 2 0 0)]
            hidNode := [("A", 0), ("B", 1)] } } := by
    simp [hw0, run_cons, run_nil, step_addNode, World.init, Api.init, FeModel.empty, Dict.set]
  have e1 := step_of_edit env w0 (.addSimpleBeam "b" "A" "B" 1 0 1 1 1 1 1)
    (withBeam w0.api "b" ⟨"b", "A", ⟨0, 0, 0⟩, "B", ⟨2, 0, 0⟩, c, fun _ => false, .simple 1 0 1 1 1 1 1⟩) rfl
    ⟨stdNode "A" 0 0 0, stdNode "B" 2 0 0, _, by rw [e0]; rfl, by rw [e0]; rfl, by
      simp only [BeamElm.mk?]
      show (lineCsys ⟨0, 0, 0⟩ ⟨2, 0, 0⟩ >>= _) = _
      rw [hc]; rfl, rfl⟩
  have hrun : (Shared.init.run env swing).world = (w0.step env (.addSimpleBeam "b" "A" "B" 1 0 1 1 1 1 1)).1 :=
    keepsOff_world env swing trivial SBound_init
  have hx := (flat_frame hc (l := 2) (by norm_num) (by ext <;> simp)).1
  refine ⟨⟨"b", "A", ⟨0, 0, 0⟩, "B", ⟨2, 0, 0⟩, c, fun _ => false, .simple 1 0 1 1 1 1 1⟩, ?_, beamFrame_eq hc, (congrArg Csys.x (beamFrame_eq hc)).trans hx, rfl, rfl, rfl⟩
  rw [hrun, e1, e0]
  rfl

/-- A beam whose node was moved by writing into its location has the old axes and the new length. -/
theorem C153_axes_false : ¬ C153_axes_claim := by
  intro h
  obtain ⟨be, hb, hc, hx, hn, hn', hstart⟩ := swing_beam idealEnv
  set s := Shared.init.run idealEnv swing with hs
  have hA := AttInv_run idealEnv swing (by
    have := swing_noReadd idealEnv id 0
    exact ⟨this.1, this.2.1, this.2.2.1, trivial⟩)
  rw [← hs] at hA
  obtain ⟨a1, a2, n1, n2, k1, k2, k3, k4, k5, k6, k7⟩ := hA.cur.att "b" be hb
  rw [hn] at k3 k6
  rw [hn'] at k2 k4
  have ha : a1 ≠ a2 := fun e => absurd (hA.cur.inj "A" "B" a1 k2 (e ▸ k3)) (by decide)
  have h1 := h idealEnv _ (swing_noReadd idealEnv (fun _ => ⟨0, 2, 0⟩) s.locs.length) "b"
    { be with endLoc := ⟨0, 2, 0⟩ } (by
      have e : Shared.init.run idealEnv (swing ++ [.askLocation "B", .writeLocation s.locs.length fun _ => ⟨0, 2, 0⟩]) =
          s.run idealEnv [.askLocation "B", .writeLocation s.locs.length fun _ => ⟨0, 2, 0⟩] := List.foldl_append
      rw [e, askLocation_eq idealEnv k3]
      simp only [Api.store, FeModel.store, Dict.mapKV_get?, hb, Option.map_some, k1, Option.bind_some, if_true, Option.some.injEq]
      rw [if_neg ha])
  have h2 := congrArg Csys.x h1
  rw [show ({ be with endLoc := ⟨0, 2, 0⟩ } : BeamElm).csys.x = be.csys.x from rfl, hx] at h2
  have h3 := congrArg V3.x h2
  simp only [beamFrame, hstart, V3.unit, V3.sub_def] at h3
  norm_num at h3

end Hyperstatic
