import Verif.Lemmas.Blueprint
import Verif.Props.Solve
import Verif.Props.Loads
import Verif.Props.Tables
import Verif.Props.Registry

/-
C61, C62: the calls describe a structure, and what is reported is the behaviour of that structure.
-/

namespace Hyperstatic
open Matrix Spec

/-! ### C61 The model holds the structure the calls describe -/

/-- After every history the beams, their ends and coordinates, and the numbers of every beam, section and material are those the
calls gave (`Spec.blueprint`), and the local axes of every beam follow from its coordinates. -/
theorem C61_blueprint (env : Env) (cs : List Call) (w : World) (hw : w = World.init.run env cs) (s : Blueprint)
    (hs : s = (blueprint.run cs).cur) :
    w.getBeamNames = s.beams ∧
    (∀ b, w.getBeamNodeNames b = (s.beam b).map fun g => (g.start, g.stop)) ∧
    (∀ b, w.getBeamLocation b = (s.beam b).map fun g => (g.p, g.q)) ∧
    (∀ m, (w.api.model.material.get? m).map (fun mat => (⟨mat.rho, mat.E, mat.mu⟩ : GivenMat)) = s.mat m) ∧
    (∀ n, (w.api.model.beamSection.get? n).map (fun sec =>
      (⟨⟨sec.material.rho, sec.material.E, sec.material.mu⟩, sec.A, sec.I22, sec.I33, sec.J⟩ : GivenSec)) = s.sec n) ∧
    ∀ b be, w.api.model.beams.get? b = some be → ∃ g, s.beam b = some g ∧
      constsOf be.prop = ⟨g.sec.mat.E, g.sec.mat.E / (2 * (1 + g.sec.mat.mu)), g.sec.A, g.sec.I2, g.sec.I3, g.sec.J, g.sec.mat.rho⟩ ∧
      be.csys = beamFrame g.p g.q := by
  have h := blueprint_refined env cs
  rw [← hw, ← hs] at h
  subst h
  have hA := (ApiInv_run env cs).1
  rw [← hw] at hA
  refine ⟨rfl, ?_, ?_, ?_, ?_, ?_⟩
  · intro b
    simp only [World.getBeamNodeNames, FeModel.getBeamConnection, blueprintOf, Dict.getItem]
    cases w.api.model.beams.get? b <;> rfl
  · intro b
    simp only [World.getBeamLocation, FeModel.getBeamLocation, blueprintOf, Dict.getItem]
    cases w.api.model.beams.get? b <;> rfl
  · intro m
    rfl
  · intro n
    rfl
  · intro b be hb
    obtain ⟨_, _, _, hc, _⟩ := hA.beam_ok b be hb
    refine ⟨givenBeam be, by simp [blueprintOf, hb], ?_, beamFrame_eq hc⟩
    have hG : ∀ E mu : ℝ, E / (2 * (1 + mu)) = E / 2 / (1 + mu) := by intro E mu; rw [div_div]
    rw [hG]
    cases hp : be.prop <;> simp only [constsOf, givenBeam, givenProp, givenSec, givenMat, hp]

/-- Reading back: right after `add_beam_section_general` the section has the given area, second moments and torsion constant, and the
numbers its material had. -/
theorem C61_general_section (env : Env) (cs : List Call) (n m : String) (A As2 As3 I22 I33 J W22 W33 : ℝ) (mat : Material)
    (hm : (World.init.run env cs).api.model.material.get? m = some mat) :
    ∃ sec, ((World.init.run env cs).step env (.addBeamSectionGeneral n m A As2 As3 I22 I33 J W22 W33)).1.api.model.beamSection.get? n
        = some sec ∧ sec.material = mat ∧ sec.A = A ∧ sec.As2 = As2 ∧ sec.As3 = As3 ∧ sec.I22 = I22 ∧ sec.I33 = I33 ∧ sec.J = J ∧
        sec.W22 = W22 ∧ sec.W33 = W33 := by
  have h := step_of_edit env (World.init.run env cs) (.addBeamSectionGeneral n m A As2 As3 I22 I33 J W22 W33) _ rfl
    (by exact ⟨mat, _, hm, rfl, rfl⟩)
  rw [h]
  exact ⟨_, Dict.get?_set_same _ _ _, rfl, rfl, rfl, rfl, rfl, rfl, rfl, rfl, rfl⟩

/-- a beam with a rectangular section of a material defined before -/
noncomputable def rectCalls : List Call :=
  [.addNode "A" 0 0 0, .addNode "B" 1 2 3, .addIsotropicMaterial "m" 7 200 (1 / 4) 0, .addBeamSectionRectangle "s" "m" 2 3,
    .addBeam "b" "A" "B" "s"]

/-- what it describes -/
example : (blueprint.run rectCalls).cur.beams = ["b"] ∧
    (blueprint.run rectCalls).cur.beam "b" = some ⟨"A", "B", ⟨0, 0, 0⟩, ⟨1, 2, 3⟩, ⟨⟨7, 200, 1 / 4⟩, 6, 9 / 2, 2, rectTorsion 30 2 3⟩⟩ := by
  have hacc : Acceptable ⟨0, 0, 0⟩ ⟨1, 2, 3⟩ := by right; norm_num [absTol]
  constructor
  · simp [rectCalls, Machine.run, Machine.step, blueprint, Blueprint.addBeam, sectionCall, shapeConsts, shapeConsts.rect, hacc]
  · simp [rectCalls, Machine.run, Machine.step, blueprint, Blueprint.addBeam, sectionCall, shapeConsts, shapeConsts.rect, hacc]
    norm_num

/-! ### C62 Reported displacements are the equilibrium of the described structure -/

theorem blueprint_internal {a : Api} (h : ApiInv a) (env : Env) (hsh : a.model.shells = []) (v u : State) :
    (blueprintOf a).internal v u = internalWork env a.model v u := by
  unfold Blueprint.internal internalWork
  rw [hsh, List.map_nil, List.sum_nil, add_zero]
  congr 1
  apply map_keys_eq _ h.beams_wf
  intro b be hb
  obtain ⟨_, _, _, hc, _⟩ := h.beam_ok b be hb
  simp only [blueprintOf, hb, Option.map_some, Option.elim_some]
  exact givenBeam_internal (lineCsys_ok hc).2.1 hc v u

theorem blueprint_pattern {a : Api} (h : ApiInv a) (p : LoadPattern) (v : State) :
    (blueprintOf a).patternWork a.model.nodes.keys (toReg p) v = patternWork a.model p v := by
  unfold Blueprint.patternWork patternWork
  congr 2
  · apply map_keys_eq _ h.nodes_wf
    intro n nd _
    rfl
  · apply map_keys_eq _ h.beams_wf
    intro b be hb
    obtain ⟨_, _, _, hc, _⟩ := h.beam_ok b be hb
    simp only [toReg_beamF, givenBeam_load (lineCsys_ok hc).2.1 hc]
    simp only [blueprintOf, hb, Option.map_some, Option.elim_some]

theorem blueprint_case {a : Api} (h : LoadInv a) {c : String} {lc : LoadCase} (hc : a.loadcases.get? c = some lc)
    {names : List String} (hn : names.Nodup) (hm : ∀ p, p ∈ names ↔ (lc.loadFactor.get? p).isSome) (v : State) :
    (blueprintOf a).caseWork a.model.nodes.keys (absReg a) (fun p => lc.loadFactor.get? p) names v =
      externalWork a.model a.heap lc v := by
  have hC := h.case_ok c lc hc
  have hperm : names.Perm lc.loadFactor.keys := by
    rw [List.perm_ext_iff_of_nodup hn hC.factor_wf]
    intro p
    rw [hm, Dict.get?_isSome_iff]
  unfold Blueprint.caseWork externalWork
  rw [(hperm.map _).sum_eq, hC.sum_patterns]
  congr 1
  apply map_keys_eq _ hC.factor_wf
  intro p φ hp
  have hk : p ∈ lc.pattern.keys := by rw [hC.pattern_keys]; exact Dict.mem_keys_of_get? hp
  obtain ⟨r, hr⟩ := dict_mem_keys hk
  obtain ⟨pat, h2, h3⟩ := h.toApiInv.patObj_eq (h.linked c lc hc p r hr)
  have h4 : Hyperstatic.patOf a.heap lc p = some pat := by unfold Hyperstatic.patOf; rw [hr]; exact h2
  simp only [hp, Option.getD_some, absReg, h3, Option.map_some, Option.elim_some, h4, blueprint_pattern h.toApiInv]

theorem inForce_governing {a : Api} {c : String} {lc : LoadCase} (hc : a.loadcases.get? c = some lc) (s : RestReg)
    (hs : (⟨fun n => n ∈ a.model.nodes.keys, fun n => a.model.restraints.get? n,
      fun c => (a.loadcases.get? c).map (fun lc n => lc.restraint.get? n)⟩ : RestReg) = s) (n : String) :
    s.inForce c n = (governing a.model lc).get? n := by
  subst hs
  unfold RestReg.inForce governing
  simp only [hc, Option.map_some]
  cases hr : lc.restraint with
  | nil => simp [Dict.get?]
  | cons q qs =>
    rw [if_neg]
    intro h
    have := h q.1
    simp [Dict.get?] at this

/-- Beams only, no node re-added and no pattern re-created; structure stable under the restraints in force.  If `solve_static(c)` returns
True after `assemble()` and any calls other than `assemble()`, the reported displacements obey the restraints, and for every virtual
displacement the work of the stresses in the described beams equals the work of the described loads of the case. -/
theorem C62_end_to_end (env : Env) (henv : env.SolverSound) (pre mid : List Call) (hpre : NoReadd env World.init pre)
    (hrec : NoRecreate env World.init pre) (hmid : ∀ k ∈ mid, k ≠ .assemble)
    (w₀ w₁ : World) (hw₀ : w₀ = World.init.run env pre) (hw₁ : w₁ = w₀.run env (.assemble :: mid))
    (hsh : w₀.getShellNames = []) (c : String) (g : String → Option ℝ) (hc : (caseReg.run pre).cur.cases c = some g)
    (s : Blueprint) (hs : s = (blueprint.run pre).cur) (nodes : List String) (hn : nodes = (nodeReg.run pre).cur.names)
    (t : String → Option Flags) (ht : t = (restReg.run pre).cur.inForce c)
    (hst : s.Stable nodes t) (hret : (w₁.step env (.solveStatic c)).2 = true) :
    ∃ u : State,
      (∀ n ∈ nodes, (w₁.step env (.solveStatic c)).1.resultGetNodalDisplacement n c = some (List.ofFn (u n))) ∧
      Obeys t u ∧
      (∃ names : List String, names.Nodup ∧ ∀ p, p ∈ names ↔ (g p).isSome) ∧
      ∀ names : List String, names.Nodup → (∀ p, p ∈ names ↔ (g p).isSome) →
        ∀ v, Obeys t v → s.internal v u = s.caseWork nodes (caseReg.run pre).cur g names v := by
  have hbp := blueprint_refined env pre
  have hrest := restReg_refined env pre
  have hreg := caseReg_refined env pre hrec
  have hnode := (C02_node_registry env pre).1
  have hL : LoadInv (World.init.run env pre).api :=
    (WInv_run env (fun w c => ∀ p, c = .addLoadpattern p → w.api.loadpatterns.get? p = none) (fun w c a' hP h he => LoadInv_edit hP h he)
      World.init pre hrec (WInv_init ⟨ApiInv_init, by intro c lc hc; simp [Api.init] at hc⟩)).1
  rw [← hw₀] at hbp hrest hreg hnode hL
  rw [← hreg] at hc ⊢
  rw [← hbp] at hs
  rw [← hnode] at hn
  subst hs hn
  have hA := hL.toApiInv
  simp only [absReg, Option.map_eq_some_iff] at hc
  obtain ⟨lc, hlc, rfl⟩ := hc
  have hshells : w₀.api.model.shells = [] := by
    have : w₀.api.model.shells.keys = [] := hsh
    simpa [Dict.keys] using this
  have hresp : ∀ u, Obeys t u ↔ Respects (governing w₀.api.model lc) u := by
    intro u
    unfold Obeys Respects
    rw [ht]
    simp only [inForce_governing hlc _ hrest]
  have hst' : Stable env w₀.api.model (governing w₀.api.model lc) := by
    intro u hu h0
    exact hst u ((hresp u).mpr hu) ((blueprint_internal hA env hshells u u).trans h0)
  have hnone : ∀ s se, w₀.api.model.shells.get? s ≠ some se := by rw [hshells]; intro s se h; cases h
  obtain ⟨u, h1, h2, h3⟩ := C20_equilibrium env henv pre mid hpre hmid w₀ w₁ hw₀ hw₁ c lc hlc
    (fun s se h => absurd h (hnone s se)) (fun s se h => absurd h (hnone s se)) hst' hret
  refine ⟨u, h1, (hresp u).mpr h2, ⟨lc.loadFactor.keys, (hA.case_ok c lc hlc).factor_wf, fun p => (Dict.get?_isSome_iff _ _).symm⟩, ?_⟩
  intro names hnd hmem v hv
  rw [blueprint_internal hA env hshells, h3 v ((hresp v).mp hv)]
  exact (blueprint_case hL hlc hnd hmem v).symm

/-- And the call does return True if no beam has μ = -1, the case restrains existing nodes only and some component is free. -/
theorem C62_succeeds (env : Env) (henv : env.SolverSound) (pre mid : List Call) (hpre : NoReadd env World.init pre)
    (hmid : ∀ k ∈ mid, k ≠ .assemble) (w₀ w₁ : World) (hw₀ : w₀ = World.init.run env pre)
    (hw₁ : w₁ = w₀.run env (.assemble :: mid)) (hsh : w₀.getShellNames = []) (c : String) (own : String → Option Flags)
    (hc : (restReg.run pre).cur.cases c = some own)
    (s : Blueprint) (hs : s = (blueprint.run pre).cur) (nodes : List String) (hn : nodes = (nodeReg.run pre).cur.names)
    (t : String → Option Flags) (ht : t = (restReg.run pre).cur.inForce c) (hst : s.Stable nodes t)
    (hmu : ∀ b g, s.beam b = some g → g.sec.mat.mu ≠ -1) (hown : ∀ n f, own n = some f → n ∈ nodes)
    (hfree : ∃ n ∈ nodes, ∃ r, ∀ f, t n = some f → f r = false) :
    (w₁.step env (.solveStatic c)).2 = true := by
  have hbp := blueprint_refined env pre
  have hrest := restReg_refined env pre
  have hnode := (C02_node_registry env pre).1
  have hA := (ApiInv_run env pre).1
  rw [← hw₀] at hbp hrest hnode hA
  rw [← hbp] at hs
  rw [← hnode] at hn
  subst hs hn
  have hc' := hc
  rw [← hrest] at hc'
  simp only [Option.map_eq_some_iff] at hc'
  obtain ⟨lc, hlc, rfl⟩ := hc'
  have hshells : w₀.api.model.shells = [] := by
    have : w₀.api.model.shells.keys = [] := hsh
    simpa [Dict.keys] using this
  have hin := inForce_governing hlc _ hrest
  rw [← ht] at hin
  have hnone : ∀ s se, w₀.api.model.shells.get? s ≠ some se := by rw [hshells]; intro s se h; cases h
  apply C20_succeeds env henv pre mid hpre hmid w₀ w₁ hw₀ hw₁ c lc hlc (fun s se h => absurd h (hnone s se))
  · intro u hu h0
    refine hst u ?_ ((blueprint_internal hA env hshells u u).trans h0)
    intro n f hf
    rw [hin] at hf
    exact hu n f hf
  · intro b be hb
    have := hmu b (givenBeam be) (by simp [blueprintOf, hb])
    cases hp : be.prop <;> simpa [muOf, givenBeam, givenProp, givenSec, givenMat, hp] using this
  · intro n hk
    obtain ⟨f, hf⟩ := dict_mem_keys hk
    exact hown n f hf
  · obtain ⟨n, h1, r, h2⟩ := hfree
    exact ⟨n, h1, r, fun f hf => h2 f (by rw [hin]; exact hf)⟩

theorem demo_noRecreate (env : Env) : NoRecreate env World.init demoCalls := by
  unfold demoCalls NoRecreate
  simp only [AllCalls, and_true]
  refine ⟨?_, ?_, ?_, ?_, ?_, ?_, ?_, ?_⟩
  case refine_5 =>
    intro p _
    obtain ⟨c, hc⟩ := demo_csys
    rw [step_addNode, step_addNode, step_addSimpleBeam_of env _ "b" "A" "B" 1 0 1 1 1 1 1 (stdNode "A" 0 0 0) (stdNode "B" 1 2 3) _
      rfl rfl (demo_mk hc), step_setNodalRestraint]
    rfl
  all_goals (intro p h; cases h)

/-- the demo structure: its description is stable, and the solver answers -/
example : ∃ env : Env, env.SolverSound ∧ NoReadd env World.init demoCalls ∧ NoRecreate env World.init demoCalls ∧
    (World.init.run env demoCalls).getShellNames = [] ∧
    (∃ g, (caseReg.run demoCalls).cur.cases "C" = some g ∧ g "P" = some 2) ∧
    (blueprint.run demoCalls).cur.Stable (nodeReg.run demoCalls).cur.names ((restReg.run demoCalls).cur.inForce "C") ∧
    (((World.init.run env demoCalls).run env [.assemble]).step env (.solveStatic "C")).2 = true := by
  refine ⟨idealEnv, idealEnv_sound, demo_noReadd _, demo_noRecreate _, ?_, ?_, ?_, demo_solves _ idealEnv_sound [] (by simp)⟩
  all_goals obtain ⟨c, hc, hrun⟩ := demo_run idealEnv
  all_goals have hapi : (World.init.run idealEnv demoCalls).api = demoApi c := by rw [hrun]
  · unfold World.getShellNames; rw [hapi]; rfl
  · rw [← caseReg_refined idealEnv demoCalls (demo_noRecreate _), hapi]
    exact ⟨_, rfl, rfl⟩
  · have hA := (ApiInv_run idealEnv demoCalls).1
    have hrest := restReg_refined idealEnv demoCalls
    rw [← blueprint_refined idealEnv demoCalls, ← (C02_node_registry idealEnv demoCalls).1]
    unfold World.getNodeNames at *
    rw [hapi] at hA hrest ⊢
    have hin := inForce_governing (a := demoApi c) (c := "C") (lc := demoCase) rfl _ hrest
    intro u hu h0
    refine demo_stable idealEnv hc u ?_ ?_
    · intro n f hf
      exact hu n f ((hin n).trans hf)
    · rw [← h0, blueprint_internal hA idealEnv rfl]
      rfl

end Hyperstatic
