import Verif.Props.MixedDemo

/-
C139: moments of the loads and of the supports of models with shells.
-/

namespace Hyperstatic
open Matrix Spec

variable (q : Schemes) (nan4 : ShellElm → Matrix (Fin 24) (Fin 24) ℝ) (nan3 : ShellElm → Matrix (Fin 18) (Fin 18) ℝ)
  (solve : (n : ℕ) → Matrix (Fin n) (Fin n) ℝ → Vec n → Except PyErr (Vec n))

/-- The property: the moments of all loads and of the support forces of a solved stable model about any point add up to zero. -/
def C139_claim (q : Schemes) : Prop :=
  ∀ (nan4 : ShellElm → Matrix (Fin 24) (Fin 24) ℝ) (nan3 : ShellElm → Matrix (Fin 18) (Fin 18) ℝ)
    (solve : (n : ℕ) → Matrix (Fin n) (Fin n) ℝ → Vec n → Except PyErr (Vec n)), (shellEnv q nan4 nan3 solve).SolverSound →
  ∀ (pre mid : List Call), PlainModel (shellEnv q nan4 nan3 solve) pre →
    ShellsRegular q (World.init.run (shellEnv q nan4 nan3 solve) pre).api.model →
  ∀ (c : String) (P : Problem), Poses pre c P → MixedStable (shellEnv q nan4 nan3 solve) pre P →
  ∀ (u : State), Reports (shellEnv q nan4 nan3 solve) pre mid c u →
  ∀ (R : String → Vec 6), MixedForces (shellEnv q nan4 nan3 solve) pre P u R →
  ∀ (g : String → Option ℝ) (names : List String), (caseReg.run pre).cur.cases c = some g → Lists names g → ∀ o : V3,
    P.frame.caseMoment P.nodes (caseReg.run pre).cur g names o + momentSum P.frame P.nodes o R = 0

/-- All shells have admissible sections and are parallel to the direction `ω`; those with four nodes are plane and strictly convex. -/
def ShellsAlong (m : FeModel) (ω : V3) : Prop :=
  ∀ s se, m.shells.get? s = some se → AdmissibleShell se.section_ ∧ ∃ cs, se.csys = some cs ∧ cs.z.dot ω = 0 ∧
    ∀ p0 p1 p2 p3, se.nodes = [p0, p1, p2, p3] → StrictConvex cs.z p0.2 p1.2 p2.2 p3.2 ∧ Planar cs se

theorem quad_built {a : Api} (hA : ApiInv a) {s : String} {se : ShellElm} (hs : a.model.shells.get? s = some se) (h4 : se.nodes.length = 4) :
    ∃ name n0 n1 n2 n3, ShellElm.dkgq? name se.section_ n0 n1 n2 n3 = .ok se ∧
      se.nodes = [(n0.name, n0.loc), (n1.name, n1.loc), (n2.name, n2.loc), (n3.name, n3.loc)] := by
  rcases hA.shell_built s se hs with ⟨name, sec, n0, n1, n2, n3, h⟩ | ⟨name, sec, n0, n1, n2, h⟩
  · obtain ⟨hs, hn, _⟩ := dkgq_shape h
    exact ⟨name, n0, n1, n2, n3, by rw [hs]; exact h, hn⟩
  · obtain ⟨_, hn, _⟩ := dkt_shape h
    rw [hn] at h4
    simp at h4

theorem shellsAlong_regular (hq : ProperRule q.quad) {a : Api} (hA : ApiInv a) {ω : V3} (h : ShellsAlong a.model ω) : ShellsRegular q a.model := by
  intro s se hs
  obtain ⟨hadm, cs, hcs, _, h4⟩ := h s se hs
  rcases (hA.shell_ok s se hs).1 with hn | hn
  · obtain ⟨name, n0, n1, n2, n3, hb, hnn⟩ := quad_built hA hs hn
    exact quad_regular hq hcs (dkgq_axes hb hcs).1 hnn (h4 _ _ _ _ hnn).1 (mu_ne hadm.mu_gt hadm.mu_lt)
  · obtain ⟨name, n0, n1, n2, hb, _⟩ := tria_built hA hs hn
    exact tria_regular hb hcs (mu_ne hadm.mu_gt hadm.mu_lt)

theorem shells_rigid (hq : ProperRule q.quad) {a : Api} (hA : FreshInv a) {t ω : V3} (h : ShellsAlong a.model ω) (u : State) :
    (a.model.shells.map fun p => shellInternal (shellEnv q nan4 nan3 solve) p.2 u (rigidState (blueprintOf a).loc t ω)).sum = 0 := by
  apply List.sum_eq_zero
  intro z hz
  obtain ⟨⟨s, se⟩, hm, rfl⟩ := List.mem_map.mp hz
  have hs := (Dict.mem_iff_get? hA.shells_wf s se).mp hm
  obtain ⟨hadm, cs, hcs, hω, h4⟩ := h s se hs
  have hloc : LocatesShell (blueprintOf a).loc se := by
    intro p hp
    obtain ⟨nd, h1, h2⟩ := hA.shell_loc s se hs p hp
    simp [blueprintOf, h1, h2]
  simp only
  rcases (hA.shell_ok s se hs).1 with hn | hn
  · obtain ⟨name, n0, n1, n2, n3, hb, hnn⟩ := quad_built hA.toApiInv hs hn
    obtain ⟨h5, h6⟩ := h4 _ _ _ _ hnn
    exact C65_quad_partial q nan4 nan3 solve hq name _ n0 n1 n2 n3 se cs hb hcs hadm h5 h6 _ hloc t ω hω u
  · obtain ⟨name, n0, n1, n2, hb, _⟩ := tria_built hA.toApiInv hs hn
    exact C65_tria_partial q nan4 nan3 solve name _ n0 n1 n2 se cs hb hcs hadm _ hloc t ω hω u

/-- work of a rigid motion on the loads and on the support forces -/
theorem mixed_moment (pre : List Call) (hM : PlainModel (shellEnv q nan4 nan3 solve) pre) (c : String) (P : Problem) (hD : Poses pre c P)
    (u : State) (R : String → Vec 6) (hR : MixedForces (shellEnv q nan4 nan3 solve) pre P u R) (g : String → Option ℝ) (names : List String)
    (hc : (caseReg.run pre).cur.cases c = some g) (hl : Lists names g) (ω o : V3) :
    ω.dot (P.frame.caseMoment P.nodes (caseReg.run pre).cur g names o + momentSum P.frame P.nodes o R) =
      shellWork (shellEnv q nan4 nan3 solve) pre (rigidState P.frame.loc (0 - ω.cross o) ω) u := by
  have hloc : ∀ n ∈ P.nodes, P.frame.loc n = some (P.frame.at n) := by
    intro n hn
    rw [hD.nodes] at hn
    rw [hD.frame]
    exact located (env := shellEnv q nan4 nan3 solve) hn
  have hE : EndsLocated P.frame := by rw [hD.frame]; exact ends_located hM.readd
  obtain ⟨g', names', hc', hl', e⟩ := hD.load
  rw [hc] at hc'
  cases hc'
  have hw : ∀ v, P.load v = P.frame.caseWork P.nodes (caseReg.run pre).cur g names v := by
    intro v
    rw [e]
    unfold Blueprint.caseWork
    have hperm : names'.Perm names := (List.perm_ext_iff_of_nodup hl'.1 hl.1).mpr fun p => (hl'.2 p).trans (hl.2 p).symm
    exact (hperm.map _).sum_eq
  have h1 := hR.work (rigidState P.frame.loc (0 - ω.cross o) ω)
  rw [hw, case_rigid hE P.nodes hloc, rigid_work_nodal P.frame P.nodes hloc] at h1
  have z : ∀ a : V3, (0 : V3).dot a = 0 := fun a => by simp [V3.dot]
  have hb := part_rigid hM.readd (fun _ => True) (fun _ _ _ => Iff.rfl) (0 - ω.cross o) ω u
  have e' : ∀ v, within (fun _ => True) v = v := fun v => funext fun n => if_pos trivial
  rw [e', ← hD.frame] at hb
  unfold mixedWork at h1
  rw [hb, z, z] at h1
  rw [dot_add']
  linarith

/-- True about axes to which all shells are parallel: the total moment has no component along them.  Missing: axes that are not parallel to
some shell. -/
theorem C139_partial (hq : ProperRule q.quad) (pre : List Call) (hM : PlainModel (shellEnv q nan4 nan3 solve) pre) (c : String) (P : Problem)
    (hD : Poses pre c P) (u : State) (R : String → Vec 6) (hR : MixedForces (shellEnv q nan4 nan3 solve) pre P u R) (g : String → Option ℝ)
    (names : List String) (hc : (caseReg.run pre).cur.cases c = some g) (hl : Lists names g) (ω : V3)
    (hω : ShellsAlong (World.init.run (shellEnv q nan4 nan3 solve) pre).api.model ω) (o : V3) :
    ω.dot (P.frame.caseMoment P.nodes (caseReg.run pre).cur g names o + momentSum P.frame P.nodes o R) = 0 := by
  rw [mixed_moment q nan4 nan3 solve pre hM c P hD u R hR g names hc hl]
  have hF := (FreshInv_run (shellEnv q nan4 nan3 solve) pre hM.readd).1
  have hreg := shellsAlong_regular q hq hF.toApiInv hω
  rw [← shells_rigid q nan4 nan3 solve hq hF (t := 0 - ω.cross o) hω u]
  unfold shellWork
  congr 1
  apply List.map_congr_left
  rintro ⟨s, se⟩ hm
  have hs := (Dict.mem_iff_get? hF.shells_wf s se).mp hm
  rw [hD.frame, ← blueprint_refined (shellEnv q nan4 nan3 solve) pre]
  have hsy := shells_symm q nan4 nan3 solve hreg s se hs
  simp only
  unfold shellInternal
  rcases (hF.shell_ok s se hs).1 with h4 | h3
  · rw [if_pos h4, if_pos h4, Matrix.dotProduct_mulVec, ← Matrix.mulVec_transpose, hsy.1 h4, dotProduct_comm]
  · have : ¬ se.nodes.length = 4 := by omega
    rw [if_neg this, if_neg this, Matrix.dotProduct_mulVec, ← Matrix.mulVec_transpose, hsy.2 h3, dotProduct_comm]

/-! the stiffened sheet of `MixedDemo` lies in the plane of x and y -/

theorem rib_along (env : Env) (a b : ℝ) : ShellsAlong (World.init.run env ribCalls).api.model ⟨a, b, 0⟩ := by
  intro s se hs
  rw [rib_shells] at hs
  have : se = flatQuad 0 0 1 0 1 1 0 1 := by
    simp only [Dict.get?_cons] at hs
    split at hs
    · simpa [eq_comm] using hs
    · simp [Dict.get?] at hs
  subst this
  refine ⟨unitSection_ok, _, rfl, by simp [flat, V3.dot], ?_⟩
  rintro p0 p1 p2 p3 h
  cases h
  refine ⟨?_, flatQuad_planar _ _ _ _ _ _ _ _ _⟩
  norm_num [Spec.StrictConvex, flat, V3.dot, V3.cross, V3.sub_def]

/-- the moments about the x and y axes vanish for the stiffened sheet -/
example : ∃ u R, Reports (shellEnv onePoint nan4 nan3 idealEnv.spsolve) ribCalls [] "L" u ∧
    MixedForces (shellEnv onePoint nan4 nan3 idealEnv.spsolve) ribCalls ribL u R ∧
    ∀ a b, (⟨a, b, 0⟩ : V3).dot (ribL.frame.caseMoment ribL.nodes (caseReg.run ribCalls).cur (fun q => if q = "P" then some 2 else none) ["P"] 0 +
      momentSum ribL.frame ribL.nodes 0 R) = 0 := by
  have henv : (shellEnv onePoint nan4 nan3 idealEnv.spsolve).SolverSound := idealEnv_sound
  obtain ⟨⟨u, hu⟩, _⟩ := rib_reports nan4 nan3
  have hreg := (rib_proper (shellEnv onePoint nan4 nan3 idealEnv.spsolve)).regular onePoint_proper (ApiInv_run _ ribCalls).1
  obtain ⟨R, hR, _⟩ := C138_supports onePoint nan4 nan3 _ henv ribCalls [] (rib_plain _) hreg "L" ribL ribL_poses (rib_stable nan4 nan3 _) u hu
  exact ⟨u, R, hu, hR, fun a b => C139_partial onePoint nan4 nan3 _ onePoint_proper ribCalls (rib_plain _) "L" ribL ribL_poses u R hR _ _ rib_case.1
    ⟨by simp, by intro p; by_cases h : p = "P" <;> simp [h]⟩ ⟨a, b, 0⟩ (rib_along _ a b) 0⟩

/-! ### a triangle that resists turning -/

def finCalls : List Call :=
  [.addNode "A" 0 0 0, .addNode "B" 1 0 0, .addNode "C" 0 1 0, .addIsotropicMaterial "m" 0 1 0 0,
    .addShellSection "s" "m" 1 "shell", .addShell "e" "s" "A" "B" "C" none,
    .setNodalRestraint "A" (fun _ => true), .setNodalRestraint "C" (fun _ => true), .setNodalRestraint "B" (fun r => decide (r ≠ 1)),
    .addLoadpattern "P", .setNodalLoad "P" "B" ![0, 1, 0, 0, 0, 0], .addStaticCase "L", .addCasePattern "L" "P" 2]

theorem fin_shells (env : Env) : (World.init.run env finCalls).api.model.shells = [("e", flatTria 0 0 1 0 0 1)] := by
  unfold finCalls
  rw [run_cons, step_addNode, run_cons, step_addNode, run_cons, step_addNode, run_cons, step_addMaterial,
    run_cons, step_of_edit env _ (.addShellSection "s" "m" 1 "shell") _ rfl (by exact ⟨_, rfl, rfl⟩), run_cons,
    step_of_edit env _ (.addShell "e" "s" "A" "B" "C" none) _ rfl
      (by exact ⟨_, ⟨unitSection, _, _, _, rfl, rfl, rfl, rfl, flatTria_ok (by norm_num)⟩, rfl⟩), run_cons,
    step_setNodalRestraint, run_cons, step_setNodalRestraint, run_cons, step_setNodalRestraint,
    run_cons, step_addLoadpattern, run_cons,
    step_setNodalLoad_of env _ _ _ _ 0 (LoadPattern.new "P") rfl rfl, run_cons, step_addStaticCase, run_cons,
    step_addCasePattern_of env _ _ _ _ (LoadCase.new "L" .static) 0 _ rfl rfl rfl, run_nil]
  rfl

theorem fin_plain (env : Env) : PlainModel env finCalls := by
  apply plainModel_of_calls <;> simp [finCalls, addedNode, addedPattern, List.filterMap_cons]

theorem fin_frame : (blueprint.run finCalls).cur.beams = [] ∧ (blueprint.run finCalls).cur.beam = (fun _ => none) ∧
    (blueprint.run finCalls).cur.loc "A" = some ⟨0, 0, 0⟩ ∧ (blueprint.run finCalls).cur.loc "B" = some ⟨1, 0, 0⟩ ∧
    (blueprint.run finCalls).cur.loc "C" = some ⟨0, 1, 0⟩ := by
  refine ⟨?_, ?_, ?_, ?_, ?_⟩
  all_goals simp [finCalls, Machine.run, Machine.step, blueprint, sectionCall]

theorem fin_nodes : (nodeReg.run finCalls).cur.names = ["A", "B", "C"] := by
  simp [finCalls, Machine.run, Machine.step, nodeReg]

theorem fin_rest : ((restReg.run finCalls).cur.inForce "L") = (fun n => if n = "B" then some (fun r => decide (r ≠ 1)) else
      if n = "C" ∨ n = "A" then some (fun _ => true) else none) := by
  have h : (restReg.run finCalls).cur.cases "L" = some (fun _ => none) := by
    simp [finCalls, Machine.run, Machine.step, restReg]
  funext n
  unfold RestReg.inForce
  rw [h]
  simp [finCalls, Machine.run, Machine.step, restReg]
  by_cases h1 : n = "B" <;> by_cases h2 : n = "C" <;> by_cases h3 : n = "A" <;> simp [h1, h2, h3]

theorem fin_case : (caseReg.run finCalls).cur.cases "L" = some (fun q => if q = "P" then some 2 else none) := by
  simp [finCalls, Machine.run, Machine.step, caseReg, CaseReg.upd]

noncomputable def finL : Problem :=
  ⟨(blueprint.run finCalls).cur, (nodeReg.run finCalls).cur.names, (restReg.run finCalls).cur.inForce "L",
    (blueprint.run finCalls).cur.caseWork (nodeReg.run finCalls).cur.names (caseReg.run finCalls).cur
      (fun q => if q = "P" then some 2 else none) ["P"]⟩

theorem finL_lists : Lists ["P"] (fun q => if q = "P" then some (2 : ℝ) else none) :=
  ⟨by simp, by intro p; by_cases h : p = "P" <;> simp [h]⟩

theorem finL_poses : Poses finCalls "L" finL := ⟨rfl, rfl, rfl, _, _, fin_case, finL_lists, rfl⟩

theorem fin_load (v : State) : finL.load v = 2 * v "B" 1 := by
  have h1 : (caseReg.run finCalls).cur.pats "P" = some { PatReg.empty with node := fun m => if m = "B" then some ![0, 1, 0, 0, 0, 0] else none } := by
    simp [finCalls, Machine.run, Machine.step, caseReg, CaseReg.upd, PatReg.empty]
  simp [finL, Blueprint.caseWork, h1, fin_nodes, fin_frame.1, Blueprint.patternWork, PatReg.empty, dotProduct, Fin.sum_univ_six]

theorem fin_regular (env : Env) : ShellsRegular q (World.init.run env finCalls).api.model := by
  intro s se hs
  rw [fin_shells] at hs
  have : se = flatTria 0 0 1 0 0 1 := by
    simp only [Dict.get?_cons] at hs
    split at hs
    · simpa [eq_comm] using hs
    · simp [Dict.get?] at hs
  subst this
  exact tria_regular (flatTria_ok (by norm_num)) rfl (by norm_num [unitSection])

/-- the triangle, moved at "B" along y and without bending -/
theorem fin_work (v u : State) (hv0 : v "A" 0 = 0) (hv1 : v "A" 1 = 0) (hvB : v "B" 0 = 0) (hu0 : u "A" 0 = 0) (hu1 : u "A" 1 = 0) (huB : u "B" 0 = 0)
    (hp : ∀ n ∈ ["A", "B", "C"], u n 2 = 0 ∧ u n 3 = 0 ∧ u n 4 = 0) :
    shellWork (shellEnv q nan4 nan3 solve) finCalls v u = 3 / 2 * (v "B" 1 * u "B" 1) := by
  unfold shellWork
  rw [fin_shells]
  simp only [List.map_cons, List.map_nil, List.sum_cons, List.sum_nil, add_zero]
  have hok := flatTria_ok (x0 := 0) (y0 := 0) (x1 := 1) (y1 := 0) (x2 := 0) (y2 := 1) (by norm_num)
  have hreg : (flatTria 0 0 1 0 0 1).regular q := tria_regular hok rfl (by norm_num [unitSection])
  rw [tria_internal q _ _ _ _ hreg _ rfl _ _ _ rfl, tria_work _ _ _ _ _ _ _ _ rfl rfl]
  have hpl : pick plateIdx (localOf (flat ⟨(0 + 1 + 0) / 3, (0 + 0 + 1) / 3, 0⟩) (nodal ![("A" : String), "B", "C"] u)) = 0 := by
    funext ⟨i, r⟩
    obtain ⟨a, b, d⟩ := pick_plate (n := 3) (flat ⟨(0 + 1 + 0) / 3, (0 + 0 + 1) / 3, 0⟩) ![("A" : String), "B", "C"] u i
    have hz : u (![("A" : String), "B", "C"] i) 2 = 0 ∧ u (![("A" : String), "B", "C"] i) 3 = 0 ∧ u (![("A" : String), "B", "C"] i) 4 = 0 :=
      hp _ (by fin_cases i <;> simp)
    fin_cases r
    · refine a.trans ?_
      simp [flat, Spec.trans, V3.dot, hz.1]
    · refine b.trans ?_
      simp [flat, Spec.rot, V3.dot, hz.2.1]
    · refine d.trans ?_
      simp [flat, Spec.rot, V3.dot, hz.2.2]
  have hB : ∀ v : State, v "A" 0 = 0 → v "A" 1 = 0 → v "B" 0 = 0 →
      T9.B (fun i => (flat ⟨(0 + 1 + 0) / 3, (0 + 0 + 1) / 3, 0⟩).x.dot (![(⟨0, 0, 0⟩ : V3), ⟨1, 0, 0⟩, ⟨0, 1, 0⟩] i))
        (fun i => (flat ⟨(0 + 1 + 0) / 3, (0 + 0 + 1) / 3, 0⟩).y.dot (![(⟨0, 0, 0⟩ : V3), ⟨1, 0, 0⟩, ⟨0, 1, 0⟩] i)) 0 0 *ᵥ
        pick triaIdx (localOf (flat ⟨(0 + 1 + 0) / 3, (0 + 0 + 1) / 3, 0⟩) (nodal ![("A" : String), "B", "C"] v)) = ![0, v "B" 1, v "B" 1] := by
    intro v h0 h1 h2
    have hm := fun i => pick_tria (n := 3) (flat ⟨(0 + 1 + 0) / 3, (0 + 0 + 1) / 3, 0⟩) ![("A" : String), "B", "C"] v i
    have e00 := (hm 0).1.trans (show _ = (0 : ℝ) by simp [flat, Spec.trans, V3.dot, h0])
    have e01 := (hm 0).2.trans (show _ = (0 : ℝ) by simp [flat, Spec.trans, V3.dot, h1])
    have e10 := (hm 1).1.trans (show _ = (0 : ℝ) by simp [flat, Spec.trans, V3.dot, h2])
    have e11 := (hm 1).2.trans (show _ = v "B" 1 by simp [flat, Spec.trans, V3.dot])
    generalize pick triaIdx _ = m at e00 e01 e10 e11
    exact t9_zero _ _ m 0 (v "B" 1) (v "B" 1) (by simp [e00, e10, Fin.sum_univ_three, T9.b, t9_A, V3.dot, flat])
      (by simp [e01, e11, Fin.sum_univ_three, T9.b, t9_A, V3.dot, flat])
      (by simp [e00, e10, e01, e11, Fin.sum_univ_three, T9.b, t9_A, V3.dot, flat])
  simp only [hpl, Matrix.mulVec_zero, dotProduct_zero, mul_zero]
  erw [hB v hv0 hv1 hvB, hB u hu0 hu1 huB, membraneD_work, isoD_work, triaArea_eq]
  simp [unitSection, flatTria, V3.cross, V3.sub_def]
  ring

theorem fin_state {u : State} (hu : Obeys finL.fix u) : u "A" = 0 ∧ u "C" = 0 ∧ ∀ r, r ≠ 1 → u "B" r = 0 := by
  rw [show finL.fix = _ from fin_rest] at hu
  refine ⟨?_, ?_, ?_⟩
  · funext r; exact hu "A" (fun _ => true) (by simp) r rfl
  · funext r; exact hu "C" (fun _ => true) (by simp) r rfl
  · intro r hr; exact hu "B" (fun r => decide (r ≠ 1)) (by simp) r (by simpa using hr)

theorem fin_mixed (v u : State) : mixedWork (shellEnv q nan4 nan3 solve) finCalls finL v u = shellWork (shellEnv q nan4 nan3 solve) finCalls v u := by
  unfold mixedWork
  have : finL.frame.internal v u = 0 := by
    unfold Blueprint.internal
    rw [show finL.frame.beams = _ from fin_frame.1]
    rfl
  rw [this, zero_add]

theorem fin_flat {u : State} (hu : Obeys finL.fix u) : u "A" 0 = 0 ∧ u "A" 1 = 0 ∧ u "B" 0 = 0 ∧
    ∀ n ∈ ["A", "B", "C"], u n 2 = 0 ∧ u n 3 = 0 ∧ u n 4 = 0 := by
  obtain ⟨hA, hC, hB⟩ := fin_state hu
  refine ⟨by rw [hA]; rfl, by rw [hA]; rfl, hB 0 (by decide), ?_⟩
  intro n hn
  have hn : n = "A" ∨ n = "B" ∨ n = "C" := by simpa using hn
  rcases hn with rfl | rfl | rfl
  · rw [hA]; exact ⟨rfl, rfl, rfl⟩
  · exact ⟨hB 2 (by decide), hB 3 (by decide), hB 4 (by decide)⟩
  · rw [hC]; exact ⟨rfl, rfl, rfl⟩

theorem fin_stable : MixedStable (shellEnv q nan4 nan3 solve) finCalls finL := by
  intro u hu h0
  obtain ⟨a0, a1, b0, hp⟩ := fin_flat hu
  rw [fin_mixed, fin_work q nan4 nan3 solve u u a0 a1 b0 a0 a1 b0 hp] at h0
  have hz : u "B" 1 = 0 := by
    have : u "B" 1 * u "B" 1 = 0 := by linarith
    exact mul_self_eq_zero.mp this
  obtain ⟨hA, hC, hB⟩ := fin_state hu
  intro n hn
  rw [show finL.nodes = _ from fin_nodes] at hn
  have hn : n = "A" ∨ n = "B" ∨ n = "C" := by simpa using hn
  rcases hn with rfl | rfl | rfl
  · exact hA
  · funext r
    by_cases h : r = 1
    · subst h; exact hz
    · exact hB r h
  · exact hC

/-- The property fails whatever quadrature is used: a triangle with one free component turns its load into a moment that the supports do
not take. -/
theorem C139_false : ¬ C139_claim q := by
  intro h
  have henv : (shellEnv q (fun _ => 0) (fun _ => 0) idealEnv.spsolve).SolverSound := idealEnv_sound
  have hst := fin_stable q (fun _ => 0) (fun _ => 0) idealEnv.spsolve
  have hreg := fin_regular q (shellEnv q (fun _ => 0) (fun _ => 0) idealEnv.spsolve)
  obtain ⟨u, hu⟩ := C138_solved q _ _ _ henv finCalls [] (fin_plain _) (by simp) hreg "L" finL finL_poses hst
    (by intro b g hg; rw [show finL.frame.beam = _ from fin_frame.2.1] at hg; cases hg)
    (by
      intro own hc n f hn
      simp [finCalls, Machine.run, Machine.step, restReg] at hc
      cases hc; simp at hn)
    ⟨"B", by rw [show finL.nodes = _ from fin_nodes]; simp, 1, by
      unfold Restrained
      rw [show finL.fix = _ from fin_rest]
      simp⟩
  obtain ⟨R, hR, _⟩ := C138_supports q _ _ _ henv finCalls [] (fin_plain _) hreg "L" finL finL_poses hst u hu
  have h0 := h _ _ _ henv finCalls [] (fin_plain _) hreg "L" finL finL_poses hst u hu R hR _ _ fin_case finL_lists 0
  obtain ⟨x, h1, h2, h3⟩ := mixed_equilibrium henv (fin_plain _) finL_poses (shells_symm q _ _ _ hreg) (shells_free q _ _ _ hreg) hst hu
  obtain ⟨a0, a1, b0, hp⟩ := fin_flat h2
  have hv : Obeys finL.fix (unitAt "B" 1) := by
    rw [show finL.fix = _ from fin_rest]
    intro n f hf r hr
    show (if n = "B" ∧ r = 1 then (1:ℝ) else 0) = 0
    apply if_neg
    rintro ⟨rfl, rfl⟩
    simp at hf
    subst hf
    simp at hr
  have h4 := h3 _ hv
  rw [fin_mixed, fin_load, fin_work q _ _ _ _ _ (by simp [unitAt]) (by simp [unitAt]) (by simp [unitAt]) a0 a1 b0 hp] at h4
  have h5 := mixed_moment q _ _ _ finCalls (fin_plain _) "L" finL finL_poses u R hR _ _ fin_case finL_lists ⟨0, 0, 1⟩ 0
  rw [h0, ← fin_mixed, mixed_congr finL_poses (fun _ _ => rfl) h1, fin_mixed] at h5
  have hloc := fin_frame.2.2
  have e : finL.frame.loc = (blueprint.run finCalls).cur.loc := rfl
  rw [fin_work q _ _ _ _ _ (by simp [rigidState, e, hloc, V3.cross, V3.add_def, V3.sub_def, V3.zero_def])
    (by simp [rigidState, e, hloc, V3.cross, V3.add_def, V3.sub_def, V3.zero_def])
    (by simp [rigidState, e, hloc, V3.cross, V3.add_def, V3.sub_def, V3.zero_def]) a0 a1 b0 hp] at h5
  simp [rigidState, e, hloc, V3.cross, V3.add_def, V3.sub_def, V3.zero_def, V3.dot] at h5
  simp [unitAt, h5] at h4

end Hyperstatic
