import Verif.Spec.Examples
import Verif.Props.TwoSupports
import Verif.Props.Cantilever

/-
C168: the scripts shipped with the library.
-/

namespace Hyperstatic
open Matrix Spec

/-- the scripts print the deflections of beam theory -/
def C168_claim : Prop :=
  ∀ env : Env, env.SolverSound → ∀ s : ScriptData, Sensible s →
    s.quickstart env "set_nodal_force" = .ok (s.F * s.L ^ 3 / (3 * (s.E * s.I3))) ∧ (∃ x, s.modal env "set_nodal_force" = .ok x) ∧
    s.supported env "set_nodal_force" = .ok (s.F * s.L ^ 3 / (48 * (s.E * s.I3))) ∧
    s.released env "set_nodal_force" = .ok (s.F * s.L ^ 3 / (48 * (s.E * s.I3)))

/-- As they are written all scripts stop with an `AttributeError`, whatever their numbers: there is no method `set_nodal_force`. -/
theorem C168_as_written_partial (env : Env) (s : ScriptData) :
    s.quickstart env "set_nodal_force" = .error .attributeError ∧ s.modal env "set_nodal_force" = .error .attributeError ∧
    s.supported env "set_nodal_force" = .error .attributeError ∧ s.released env "set_nodal_force" = .error .attributeError := by
  have h : checkAttr apiMethods "set_nodal_force" = .error .attributeError := by
    unfold checkAttr
    rw [if_neg]
    simp [apiMethods]
  refine ⟨?_, ?_, ?_, ?_⟩
  · unfold ScriptData.quickstart; rw [h]; rfl
  · unfold ScriptData.modal; rw [h]; rfl
  · unfold ScriptData.supported; rw [h]; rfl
  · unfold ScriptData.released; rw [h]; rfl

theorem has_load : checkAttr apiMethods "set_nodal_load" = .ok () := by
  unfold checkAttr
  rw [if_pos]
  simp [apiMethods]

theorem bind_unit {α : Type} (f : Unit → Except PyErr α) : ((Except.ok () : Except PyErr Unit) >>= f) = f () := rfl

/-- a script that solves prints what is reported -/
theorem printed_reports {env : Env} {pre : List Call} {u : State} (hu : Reports env pre [] "case1" u) (hn : "B" ∈ (nodeReg.run pre).cur.names) :
    ScriptData.printed (((((World.init.run env pre).step env .assemble).1).step env (.solveStatic "case1")).1.resultGetNodalDisplacement "B" "case1") =
      .ok (u "B" 2) := by
  have h := hu.disp "B" hn
  rw [run_cons] at h
  rw [show ((World.init.run env pre).step env .assemble).1 = World.run env ((World.init.run env pre).step env .assemble).1 [] from rfl, h]
  simp [ScriptData.printed]

section cantilever
variable (s : ScriptData)

/-- the beam of the quickstart -/
def ScriptData.sec : GivenSec := ⟨⟨s.rho, s.E, s.mu⟩, s.A, s.I2, s.I3, s.J⟩

theorem sensible_positive {s : ScriptData} (h : Sensible s) : s.sec.Positive := by
  obtain ⟨-, h1, h2, h3, h4, h5, h6⟩ := h
  exact ⟨h1, h2, h3, h4, h5, h6⟩

theorem sensible_acceptable {x y : ℝ} (h : 1 / 2000 ≤ y - x) : Acceptable ⟨x, 0, 0⟩ ⟨y, 0, 0⟩ := by
  right
  refine le_trans ?_ (le_max_left _ _)
  show 2 * absTol ≤ |y - x|
  rw [abs_of_nonneg (by linarith)]
  unfold absTol
  norm_num
  linarith

/-- the problem of the quickstart -/
noncomputable def ScriptData.cantileverProblem : Problem :=
  ⟨(blueprint.run s.cantilever).cur, (nodeReg.run s.cantilever).cur.names, (fun n => if n = "A" then some (fun _ => true) else none),
    (blueprint.run s.cantilever).cur.caseWork (nodeReg.run s.cantilever).cur.names (caseReg.run s.cantilever).cur
      (fun k => if k = "pat1" then some 1 else none) ["pat1"]⟩

theorem script_nodes : (nodeReg.run s.cantilever).cur.names = ["A", "B"] := by
  simp [ScriptData.cantilever, Machine.run, Machine.step, nodeReg]

theorem script_blueprint {s : ScriptData} (h : Sensible s) : (blueprint.run s.cantilever).cur.beams = ["b"] ∧
    (blueprint.run s.cantilever).cur.beam "b" = some ⟨"A", "B", ⟨0, 0, 0⟩, ⟨s.L, 0, 0⟩, s.sec⟩ := by
  have ha := sensible_acceptable (x := 0) (y := s.L) (by have := h.1; linarith)
  constructor <;> simp [ScriptData.cantilever, Machine.run, Machine.step, blueprint, Blueprint.addBeam, sectionCall, ha, ScriptData.sec]

theorem script_rest : (restReg.run s.cantilever).cur.inForce "case1" = fun n => if n = "A" then some (fun _ => true) else none := by
  simp only [ScriptData.cantilever, Machine.run, Machine.step, restReg, RestReg.inForce, List.foldl_cons, List.foldl_nil]
  simp

theorem script_poses : Poses s.cantilever "case1" s.cantileverProblem :=
  ⟨rfl, rfl, (script_rest s).symm, _, _, by simp [ScriptData.cantilever, Machine.run, Machine.step, caseReg, CaseReg.upd],
    ⟨by simp, by intro k; by_cases h : k = "pat1" <;> simp [h]⟩, rfl⟩

theorem script_load (v : State) : s.cantileverProblem.load v = ![0, 0, s.F, 0, 0, 0] ⬝ᵥ v "B" := by
  have hp : (caseReg.run s.cantilever).cur.pats "pat1" =
      some ⟨fun n => if n = "B" then some ![0, 0, s.F, 0, 0, 0] else none, fun _ => none, fun _ => none⟩ := by
    simp [ScriptData.cantilever, Machine.run, Machine.step, caseReg, CaseReg.upd, PatReg.empty]
  have z : ∀ o : Option GivenBeam, (o.elim 0 fun _ => (0:ℝ)) = 0 := by intro o; cases o <;> rfl
  simp only [ScriptData.cantileverProblem, Blueprint.caseWork, Blueprint.patternWork, script_nodes, List.map_cons, List.map_nil, hp, Option.elim_some]
  simp [z]

theorem script_plain : PlainCalls s.cantilever := by
  simp [PlainCalls, ScriptData.cantilever, addedNode, addedPattern, List.filterMap_cons]

theorem script_is {s : ScriptData} (h : Sensible s) : Cantilever s.cantileverProblem ⟨"A", "B", ⟨0, 0, 0⟩, ⟨s.L, 0, 0⟩, s.sec⟩ where
  nodes := by
    intro n
    show n ∈ (nodeReg.run s.cantilever).cur.names ↔ _
    rw [script_nodes]
    simp
  ne := by simp
  beam := ⟨"b", script_blueprint h⟩
  clamped := ⟨fun _ => true, by simp [ScriptData.cantileverProblem], fun _ => rfl⟩
  others := by
    intro n f hf
    simp only [ScriptData.cantileverProblem] at hf
    split at hf
    · next hn => exact Or.inl hn
    · cases hf

theorem quickstart_eq (env : Env) : s.quickstart env "set_nodal_load" = ScriptData.printed
    (((((World.init.run env s.cantilever).step env .assemble).1).step env (.solveStatic "case1")).1.resultGetNodalDisplacement "B" "case1") := by
  unfold ScriptData.quickstart
  rw [has_load, bind_unit]

theorem script_tip {env : Env} (henv : env.SolverSound) {s : ScriptData} (h : Sensible s) {u : State} (hu : Reports env s.cantilever [] "case1" u) :
    u "B" 2 = s.F * s.L ^ 3 / (3 * (s.E * s.I3)) := by
  have hD := script_poses s
  have hF := plainFrame_of_calls env (script_plain s)
  obtain ⟨h1, h2⟩ := script_blueprint h
  have hL : 0 < s.L := by have := h.1; linarith
  obtain ⟨c, hc⟩ := (hD.sane env).ok "b" _ h2
  obtain ⟨ex, ey, ez⟩ := flat_frame hc hL (show (⟨s.L, 0, 0⟩ - ⟨0, 0, 0⟩ : V3) = ⟨s.L, 0, 0⟩ by ext <;> simp)
  have hlen : V3.norm (⟨s.L, 0, 0⟩ - ⟨0, 0, 0⟩ : V3) = s.L :=
    flat_len (g := ⟨"A", "B", ⟨0, 0, 0⟩, ⟨s.L, 0, 0⟩, s.sec⟩) hL (by ext <;> simp)
  have key := (C74_tip_load env henv s.cantilever [] hF "case1" s.cantileverProblem hD ⟨"A", "B", ⟨0, 0, 0⟩, ⟨s.L, 0, 0⟩, s.sec⟩ (script_is h)
    (sensible_positive h) u hu ![0, 0, s.F, 0, 0, 0] (script_load s)
    _ rfl s.L s.E s.A s.I2 s.I3 _ hlen.symm rfl rfl rfl rfl rfl _ _ _ _ rfl rfl rfl rfl).2.1
  have hy := congrArg V3.y key
  simp only [ey, ez, V3.dot, Spec.trans, Spec.rot] at hy
  simpa using hy

/-- With `set_nodal_load` in its place, the script of the README prints `F L³ / (3 E I3)`. -/
theorem C168_quickstart_partial (env : Env) (henv : env.SolverSound) (s : ScriptData) (h : Sensible s) :
    s.quickstart env "set_nodal_load" = .ok (s.F * s.L ^ 3 / (3 * (s.E * s.I3))) := by
  have hD := script_poses s
  have hC := script_is h
  have hF := plainFrame_of_calls env (script_plain s)
  obtain ⟨h1, h2⟩ := script_blueprint h
  have hS := hD.sane env
  have hpos : s.cantileverProblem.frame.Positive := by
    intro b' g' h'
    have : b' ∈ s.cantileverProblem.frame.beams := (hS.mem b').mpr (by rw [h']; rfl)
    rw [show s.cantileverProblem.frame.beams = ["b"] from h1, List.mem_singleton] at this
    subst this
    rw [show s.cantileverProblem.frame.beam "b" = _ from h2] at h'
    cases h'
    exact sensible_positive h
  obtain ⟨u, hu, _⟩ := C69_grounded_solved env henv _ [] hF (by simp) "case1" _ hD hpos (by
      intro n hn
      refine ⟨"A", hC.clamped, ?_⟩
      rcases (hC.nodes n).mp hn with rfl | rfl
      · exact Relation.ReflTransGen.refl
      · exact Relation.ReflTransGen.single ⟨"b", _, h2, Or.inr ⟨rfl, rfl⟩⟩)
    (by
      intro own ho n f hn
      have := script_rest s
      simp only [ScriptData.cantilever, Machine.run, Machine.step, restReg, List.foldl_cons, List.foldl_nil] at ho
      simp at ho
      subst ho
      by_cases hA : n = "A"
      · rw [hA]; exact (hC.nodes "A").mpr (Or.inl rfl)
      · simp [hA] at hn)
    ⟨"B", (hC.nodes "B").mpr (Or.inr rfl), 0, by intro f hf; simp [ScriptData.cantileverProblem] at hf⟩
  rw [quickstart_eq, ← script_tip henv h hu]
  exact printed_reports hu (by rw [script_nodes]; simp)

end cantilever

/-- Even so the script for modes stops with a `TypeError`: `solve_modal` is called without the number of modes. -/
theorem C168_modal_partial (env : Env) (s : ScriptData) : s.modal env "set_nodal_load" = .error .typeError := by
  unfold ScriptData.modal
  rw [has_load, bind_unit]
  rfl

section spans
variable (s : ScriptData)

/-- the calls of the first part of the script for the span -/
noncomputable def ScriptData.supportedCalls : List Call :=
  s.spans ++ s.spanLoad ++ [.setLoadcaseNodalRestraint "case1" "A" (fun r => decide (r < 3)), .setLoadcaseNodalRestraint "case1" "C" (fun r => decide (r < 3))]

/-- no file is written by editing calls -/
theorem edits_keep_fs (env : Env) (cs : List Call) (h : ∀ c ∈ cs, c.isEdit = true) (w : World) : (w.run env cs).fs = w.fs := by
  induction cs generalizing w with
  | nil => rfl
  | cons c cs ih =>
    rw [run_cons, ih (fun c hc => h c (List.mem_cons_of_mem _ hc)), step_edit env w c (h c List.mem_cons_self)]
    split <;> rfl

/-- The first part of the script for the span stops with a `TypeError` as well: nothing has been assembled, so there are no results to print. -/
theorem C168_supported_partial (env : Env) (s : ScriptData) : s.supported env "set_nodal_load" = .error .typeError := by
  have hfs : (World.init.run env s.supportedCalls).fs = [] := by
    rw [edits_keep_fs]
    · rfl
    · intro c hc
      simp only [ScriptData.supportedCalls, ScriptData.spans, ScriptData.spanLoad, List.cons_append, List.nil_append, List.mem_cons,
        List.not_mem_nil, or_false] at hc
      rcases hc with rfl | rfl | rfl | rfl | rfl | rfl | rfl | rfl | rfl | rfl | rfl <;> rfl
  have hstep : ((World.init.run env s.supportedCalls).step env (.solveStatic "case1")).1.fs = [] := by
    simp only [World.step, hfs, solveLinear, openAssembly]
    rfl
  unfold ScriptData.supported
  rw [has_load, bind_unit]
  show ScriptData.printed (World.resultGetNodalDisplacement ((World.init.run env s.supportedCalls).step env (.solveStatic "case1")).1 "case1" "B") = _
  have : World.resultGetNodalDisplacement ((World.init.run env s.supportedCalls).step env (.solveStatic "case1")).1 "case1" "B" = none := by
    unfold World.resultGetNodalDisplacement resolveNodalDisplacement
    rw [hstep]
    rfl
  rw [this]
  rfl

/-- the problem of the second part -/
noncomputable def ScriptData.releasedProblem : Problem :=
  ⟨(blueprint.run s.releasedCalls).cur, (nodeReg.run s.releasedCalls).cur.names,
    (fun n => if n = "A" ∨ n = "C" then some (fun _ => true) else none),
    (blueprint.run s.releasedCalls).cur.caseWork (nodeReg.run s.releasedCalls).cur.names (caseReg.run s.releasedCalls).cur
      (fun k => if k = "pat1" then some 1 else none) ["pat1"]⟩

theorem released_nodes : (nodeReg.run s.releasedCalls).cur.names = ["A", "B", "C"] := by
  simp [ScriptData.releasedCalls, ScriptData.spans, ScriptData.releases, ScriptData.spanLoad, Machine.run, Machine.step, nodeReg]

theorem released_blueprint {s : ScriptData} (h : Sensible s) : (blueprint.run s.releasedCalls).cur.beams = ["b1", "b2"] ∧
    (blueprint.run s.releasedCalls).cur.beam "b1" = some ⟨"A", "B", ⟨0, 0, 0⟩, ⟨s.L / 2, 0, 0⟩, s.sec⟩ ∧
    (blueprint.run s.releasedCalls).cur.beam "b2" = some ⟨"B", "C", ⟨s.L / 2, 0, 0⟩, ⟨s.L, 0, 0⟩, s.sec⟩ := by
  have ha := sensible_acceptable (x := 0) (y := s.L / 2) (by have := h.1; linarith)
  have hb := sensible_acceptable (x := s.L / 2) (y := s.L) (by have := h.1; linarith)
  refine ⟨?_, ?_, ?_⟩ <;> simp [ScriptData.releasedCalls, ScriptData.spans, ScriptData.releases, ScriptData.spanLoad, Machine.run, Machine.step, blueprint,
    Blueprint.addBeam, sectionCall, ha, hb, ScriptData.sec]

theorem released_rest : (restReg.run s.releasedCalls).cur.inForce "case1" = fun n => if n = "A" ∨ n = "C" then some (fun _ => true) else none := by
  simp only [ScriptData.releasedCalls, ScriptData.spans, ScriptData.releases, ScriptData.spanLoad, List.cons_append, List.nil_append, Machine.run,
    Machine.step, restReg, RestReg.inForce, List.foldl_cons, List.foldl_nil]
  simp
  funext n
  rw [if_neg (fun h => by simpa using h "C")]
  by_cases h1 : n = "C" <;> by_cases h2 : n = "A" <;> simp [h1, h2]

theorem released_poses : Poses s.releasedCalls "case1" s.releasedProblem :=
  ⟨rfl, rfl, (released_rest s).symm, _, _, by
    simp [ScriptData.releasedCalls, ScriptData.spans, ScriptData.releases, ScriptData.spanLoad, Machine.run, Machine.step, caseReg, CaseReg.upd],
    ⟨by simp, by intro k; by_cases h : k = "pat1" <;> simp [h]⟩, rfl⟩

theorem released_load (v : State) : s.releasedProblem.load v = s.F * v "B" 2 := by
  have hp : (caseReg.run s.releasedCalls).cur.pats "pat1" =
      some ⟨fun n => if n = "B" then some ![0, 0, s.F, 0, 0, 0] else none, fun _ => none, fun _ => none⟩ := by
    simp [ScriptData.releasedCalls, ScriptData.spans, ScriptData.releases, ScriptData.spanLoad, Machine.run, Machine.step, caseReg, CaseReg.upd, PatReg.empty]
  have z : ∀ o : Option GivenBeam, (o.elim 0 fun _ => (0:ℝ)) = 0 := by intro o; cases o <;> rfl
  simp only [ScriptData.releasedProblem, Blueprint.caseWork, Blueprint.patternWork, released_nodes, List.map_cons, List.map_nil, hp, Option.elim_some]
  simp [z, dotProduct, Fin.sum_univ_six]

theorem released_plain : PlainCalls s.releasedCalls := by
  simp [PlainCalls, ScriptData.releasedCalls, ScriptData.spans, ScriptData.releases, ScriptData.spanLoad, addedNode, addedPattern, List.filterMap_cons]

theorem released_rests {s : ScriptData} (own : String → Option (Fin 6 → Bool)) (ho : (restReg.run s.releasedCalls).cur.cases "case1" = some own) :
    own = fun n => if n = "C" then some (fun _ => true) else if n = "A" then some (fun _ => true) else none := by
  simp only [ScriptData.releasedCalls, ScriptData.spans, ScriptData.releases, ScriptData.spanLoad, List.cons_append, List.nil_append, Machine.run,
    Machine.step, restReg, List.foldl_cons, List.foldl_nil] at ho
  simp at ho
  exact ho.symm

/-- the work of two halves of a span whose ends do not move, when its middle has moved by `w` -/
theorem clamped_work {c : BeamConsts} {e f : Csys} {l : ℝ} (hl : 0 < l)
    (he : e.x = ⟨1, 0, 0⟩ ∧ e.y = ⟨0, 0, 1⟩ ∧ e.z = ⟨0, -1, 0⟩) (hf : f.x = ⟨1, 0, 0⟩ ∧ f.y = ⟨0, 0, 1⟩ ∧ f.z = ⟨0, -1, 0⟩) (w : ℝ) (x : Vec 6) :
    beamWork c l (localEnds e 0 x) (localEnds e 0 ![0, 0, w, 0, 0, 0]) + beamWork c l (localEnds f x 0) (localEnds f ![0, 0, w, 0, 0, 0] 0) =
      24 * (c.E * c.I3) / l ^ 3 * w * x 2 := by
  rw [flat_ends he, flat_ends he, flat_ends hf, flat_ends hf]
  unfold beamWork bendWork
  simp only [cons_val_zero, cons_val_one, cons_val, Pi.zero_apply]
  field_simp
  ring

/-- With `set_nodal_load` the second part prints a quarter of what it should: the releases have not been set (C36), and what is solved is the clamped span. -/
theorem C168_released_partial (env : Env) (henv : env.SolverSound) (s : ScriptData) (h : Sensible s) :
    s.released env "set_nodal_load" = .ok (s.F * s.L ^ 3 / (192 * (s.E * s.I3))) := by
  have hD := released_poses s
  have hF := plainFrame_of_calls env (released_plain s)
  obtain ⟨h1, h2, h3⟩ := released_blueprint h
  have hS := hD.sane env
  have hL : 0 < s.L := by have := h.1; linarith
  have hN : s.releasedProblem.nodes = ["A", "B", "C"] := released_nodes s
  have hpos : s.releasedProblem.frame.Positive := by
    intro b' g' h'
    have : b' ∈ s.releasedProblem.frame.beams := (hS.mem b').mpr (by rw [h']; rfl)
    rw [show s.releasedProblem.frame.beams = ["b1", "b2"] from h1] at this
    simp only [List.mem_cons, List.not_mem_nil, or_false] at this
    rcases this with rfl | rfl
    · rw [show s.releasedProblem.frame.beam "b1" = _ from h2] at h'
      cases h'
      exact sensible_positive h
    · rw [show s.releasedProblem.frame.beam "b2" = _ from h3] at h'
      cases h'
      exact sensible_positive h
  have e1 : s.releasedProblem.frame.Joined "B" "A" := ⟨"b1", _, h2, Or.inr ⟨rfl, rfl⟩⟩
  have e2 : s.releasedProblem.frame.Joined "C" "B" := ⟨"b2", _, h3, Or.inr ⟨rfl, rfl⟩⟩
  have hA : Clamped s.releasedProblem.fix "A" := ⟨fun _ => true, by simp [ScriptData.releasedProblem], fun _ => rfl⟩
  have hC : Clamped s.releasedProblem.fix "C" := ⟨fun _ => true, by simp [ScriptData.releasedProblem], fun _ => rfl⟩
  have hg : s.releasedProblem.frame.Grounded s.releasedProblem.nodes s.releasedProblem.fix := by
    intro n hn
    refine ⟨"A", hA, ?_⟩
    rw [hN] at hn
    simp only [List.mem_cons, List.not_mem_nil, or_false] at hn
    rcases hn with rfl | rfl | rfl
    · exact Relation.ReflTransGen.refl
    · exact Relation.ReflTransGen.single e1
    · exact (Relation.ReflTransGen.single e2).tail e1
  have hst := C69_grounded_stable _ "case1" _ hD hpos hg
  obtain ⟨u, hu, ou, eu⟩ := C69_grounded_solved env henv _ [] hF (by simp) "case1" _ hD hpos hg
    (by
      intro own ho n f hn
      rw [released_rests own ho] at hn
      show n ∈ (nodeReg.run s.releasedCalls).cur.names
      rw [released_nodes]
      by_cases hC : n = "C"
      · simp [hC]
      · by_cases hA : n = "A"
        · simp [hA]
        · simp [hA, hC] at hn)
    ⟨"B", by rw [hN]; simp, 0, by intro f hf; simp [ScriptData.releasedProblem] at hf⟩
  have still : ∀ v : State, Obeys s.releasedProblem.fix v → v "A" = 0 ∧ v "C" = 0 := by
    intro v hv
    have := (obeys_iff _ _).mp hv
    exact ⟨funext fun r => this "A" r ⟨_, hA.choose_spec.1, hA.choose_spec.2 r⟩, funext fun r => this "C" r ⟨_, hC.choose_spec.1, hC.choose_spec.2 r⟩⟩
  obtain ⟨c1, hc1⟩ := hS.ok "b1" _ h2
  obtain ⟨c2, hc2⟩ := hS.ok "b2" _ h3
  have d1 : (⟨s.L / 2, 0, 0⟩ - ⟨0, 0, 0⟩ : V3) = ⟨s.L / 2, 0, 0⟩ := by ext <;> simp
  have d2 : (⟨s.L, 0, 0⟩ - ⟨s.L / 2, 0, 0⟩ : V3) = ⟨s.L / 2, 0, 0⟩ := by ext <;> simp <;> ring
  have hl : 0 < s.L / 2 := by linarith
  have f1 := flat_frame hc1 hl d1
  have f2 := flat_frame hc2 hl d2
  let w := s.F * s.L ^ 3 / (192 * (s.E * s.I3))
  let y : State := fun n => if n = "B" then ![0, 0, w, 0, 0, 0] else 0
  have oy : Obeys s.releasedProblem.fix y := by
    rw [obeys_iff]
    rintro n r ⟨f, hf, -⟩
    show (if n = "B" then _ else _ : Vec 6) r = 0
    rw [if_neg]
    · rfl
    · rintro rfl
      simp [ScriptData.releasedProblem] at hf
  have hxy := same_answer hS hst ou oy eu (fun v hv => by
    obtain ⟨va, vc⟩ := still v hv
    rw [released_load]
    show Blueprint.internal (blueprint.run s.releasedCalls).cur v y = _
    unfold Blueprint.internal
    rw [h1]
    simp only [List.map_cons, List.map_nil, List.sum_cons, List.sum_nil, add_zero, h2, h3, Option.elim_some]
    rw [internal_eq hc1, internal_eq hc2, flat_len hl d1, flat_len hl d2]
    have := clamped_work (c := gconsts s.sec) hl f1 f2 w (v "B")
    show beamWork (gconsts s.sec) (s.L / 2) (localEnds _ (v "A") (v "B")) (localEnds _ 0 ![0, 0, w, 0, 0, 0]) +
      beamWork (gconsts s.sec) (s.L / 2) (localEnds _ (v "B") (v "C")) (localEnds _ ![0, 0, w, 0, 0, 0] 0) = _
    rw [va, vc, this]
    have hE : s.E ≠ 0 := h.2.1.ne'
    have hI : s.I3 ≠ 0 := h.2.2.2.2.2.1.ne'
    show 24 * (s.E * s.I3) / (s.L / 2) ^ 3 * (s.F * s.L ^ 3 / (192 * (s.E * s.I3))) * v "B" 2 = _
    field_simp
    ring)
  have mB : "B" ∈ s.releasedProblem.nodes := by rw [hN]; simp
  have hB : u "B" 2 = w := by rw [hxy "B" mB]; rfl
  unfold ScriptData.released
  rw [has_load, bind_unit]
  show _ = Except.ok w
  rw [← hB]
  exact printed_reports hu (by rw [released_nodes]; simp)

theorem supported_blueprint {s : ScriptData} (h : Sensible s) : (blueprint.run s.supportedCalls).cur.beams = ["b1", "b2"] ∧
    (blueprint.run s.supportedCalls).cur.beam "b1" = some ⟨"A", "B", ⟨0, 0, 0⟩, ⟨s.L / 2, 0, 0⟩, s.sec⟩ ∧
    (blueprint.run s.supportedCalls).cur.beam "b2" = some ⟨"B", "C", ⟨s.L / 2, 0, 0⟩, ⟨s.L, 0, 0⟩, s.sec⟩ := by
  have ha := sensible_acceptable (x := 0) (y := s.L / 2) (by have := h.1; linarith)
  have hb := sensible_acceptable (x := s.L / 2) (y := s.L) (by have := h.1; linarith)
  refine ⟨?_, ?_, ?_⟩ <;> simp [ScriptData.supportedCalls, ScriptData.spans, ScriptData.spanLoad, Machine.run, Machine.step, blueprint,
    Blueprint.addBeam, sectionCall, ha, hb, ScriptData.sec]

theorem supported_rest (s : ScriptData) : (restReg.run s.supportedCalls).cur.inForce "case1" =
    fun n => if n = "A" ∨ n = "C" then some (fun r => decide (r < 3)) else none := by
  simp only [ScriptData.supportedCalls, ScriptData.spans, ScriptData.spanLoad, List.cons_append, List.nil_append, Machine.run,
    Machine.step, restReg, RestReg.inForce, List.foldl_cons, List.foldl_nil]
  simp
  funext n
  rw [if_neg (fun h => by simpa using h "C")]
  by_cases h1 : n = "C" <;> by_cases h2 : n = "A" <;> simp [h1, h2]

/-- With the missing `assemble` supplied the first part would have no answer to report: held in translation only, the beam spins about its own axis. -/
theorem C168_spin_partial (s : ScriptData) (hs : Sensible s) (P : Problem) (h : Poses s.supportedCalls "case1" P) : ¬ P.frame.Stable P.nodes P.fix := by
  intro hst
  have hn : P.nodes = ["A", "B", "C"] := by
    rw [h.nodes]
    simp [ScriptData.supportedCalls, ScriptData.spans, ScriptData.spanLoad, Machine.run, Machine.step, nodeReg]
  have := hst (fun _ => ![0, 0, 0, 1, 0, 0]) ?_ ?_ "A" (by rw [hn]; simp)
  · simpa using congrFun this 3
  · rw [h.fix, obeys_iff]
    rintro n r ⟨f, hf, hr⟩
    rw [supported_rest] at hf
    simp only at hf
    split at hf
    · cases hf
      have : r < 3 := by simpa using hr
      have : r = 0 ∨ r = 1 ∨ r = 2 := by omega
      rcases this with rfl | rfl | rfl <;> rfl
    · cases hf
  · obtain ⟨h1, h2, h3⟩ := supported_blueprint hs
    have hS := h.sane idealEnv
    rw [h.frame] at hS ⊢
    obtain ⟨c1, hc1⟩ := hS.ok "b1" _ h2
    obtain ⟨c2, hc2⟩ := hS.ok "b2" _ h3
    have hl : 0 < s.L / 2 := by have := hs.1; linarith
    have f1 := flat_frame hc1 hl (by ext <;> simp)
    have f2 := flat_frame hc2 hl (by ext <;> simp <;> ring)
    unfold Blueprint.internal
    rw [h1]
    simp only [List.map_cons, List.map_nil, List.sum_cons, List.sum_nil, add_zero, h2, h3, Option.elim_some]
    rw [internal_eq hc1, internal_eq hc2]
    show beamWork (gconsts s.sec) _ (localEnds _ ![0, 0, 0, 1, 0, 0] ![0, 0, 0, 1, 0, 0]) (localEnds _ ![0, 0, 0, 1, 0, 0] ![0, 0, 0, 1, 0, 0]) +
      beamWork (gconsts s.sec) _ (localEnds _ ![0, 0, 0, 1, 0, 0] ![0, 0, 0, 1, 0, 0]) (localEnds _ ![0, 0, 0, 1, 0, 0] ![0, 0, 0, 1, 0, 0]) = 0
    rw [flat_ends f1, flat_ends f2]
    simp [beamWork, bendWork]

end spans

/-- the numbers of the README -/
noncomputable def readme : ScriptData := ⟨10, 2e11, 0.3, 0.0188, 4.023e-5, 4.771e-4, 4.133e-6, 7.85e10, -1e4⟩

example : Sensible readme := by
  unfold Sensible readme
  norm_num

/-- `C168` fails. -/
theorem C168_false : ¬ C168_claim := by
  intro h
  have h1 := (h idealEnv idealEnv_sound readme (by unfold Sensible readme; norm_num)).1
  rw [(C168_as_written_partial idealEnv readme).1] at h1
  cases h1

end Hyperstatic
