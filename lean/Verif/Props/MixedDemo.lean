import Verif.Props.Mixed

/-
Concrete cases for C138: the sheet with a beam along its diagonal, in two load cases.
-/

namespace Hyperstatic
open Matrix Spec

/-! ### histories that only use names once -/

/-- an api all of whose nodes and patterns have been added -/
structure NodesNamed (L L' : List String) (a : Api) : Prop where
  nodes : ∀ n ∈ a.model.nodes.keys, n ∈ L
  pats : ∀ p ∈ a.loadpatterns.keys, p ∈ L'

def MayAdd (L L' : List String) (_ : World) (c : Call) : Prop :=
  (∀ n, addedNode c = some n → n ∈ L) ∧ (∀ p, addedPattern c = some p → p ∈ L')

theorem NodesNamed.edit {L L' : List String} {w : World} {c : Call} {a' : Api} (hP : MayAdd L L' w c) (h : NodesNamed L L' w.api)
    (he : w.api.edit c = .ok a') : NodesNamed L L' a' := by
  obtain ⟨p1, p2⟩ := hP
  have hsec : ∀ {name mat : String} {b : Material → Except PyErr BeamSection}, SecBuild w.api name mat b a' → NodesNamed L L' a' := by
    rintro name mat b ⟨_, _, _, _, rfl⟩
    exact { h with }
  have hpat : ∀ {p : String} {g : LoadPattern → LoadPattern}, PatUpd w.api p g a' → NodesNamed L L' a' := by
    rintro p g ⟨_, _, _, _, rfl⟩
    exact { h with }
  rw [edit_ok_iff] at he
  cases c <;> simp only [EditEff] at he
  case addNode n x y z =>
    subst he
    refine { h with nodes := ?_ }
    intro m hm
    simp only [Dict.mem_keys_set] at hm
    rcases hm with rfl | hm
    · exact p1 _ rfl
    · exact h.nodes m hm
  case setNodalMass n mass =>
    obtain ⟨nd, hnd, rfl⟩ := he
    refine { h with nodes := ?_ }
    intro m hm
    simp only [Dict.mem_keys_set] at hm
    rcases hm with rfl | hm
    · exact h.nodes _ (Dict.mem_keys_of_get? hnd)
    · exact h.nodes m hm
  case addLoadpattern p =>
    subst he
    refine { h with pats := ?_ }
    intro q hq
    simp only [Dict.mem_keys_set] at hq
    rcases hq with rfl | hq
    · exact p2 _ rfl
    · exact h.pats q hq
  case addShell => obtain ⟨_, _, rfl⟩ := he; exact { h with }
  case setNodalRestraint =>
    subst he
    split
    · exact { h with }
    · exact h
  case addBeam => obtain ⟨_, _, _, _, _, _, _, _, rfl⟩ := he; exact { h with }
  case addSimpleBeam => obtain ⟨_, _, _, _, _, _, rfl⟩ := he; exact { h with }
  case addShellSection => obtain ⟨_, _, rfl⟩ := he; exact { h with }
  case setLoadcaseNodalRestraint => obtain ⟨_, _, rfl⟩ := he; exact { h with }
  case addCasePattern => obtain ⟨_, _, _, _, _, _, rfl⟩ := he; exact { h with }
  case setNodalLoad => exact hpat he
  case setBeamLoadDistributed => exact hpat he
  case setBeamLoadConcentrated => exact hpat he
  all_goals first | exact hsec he | (subst he; exact { h with })

theorem mayAdd_all (env : Env) (L L' : List String) (w : World) (cs : List Call) (h1 : ∀ n ∈ cs.filterMap addedNode, n ∈ L)
    (h2 : ∀ p ∈ cs.filterMap addedPattern, p ∈ L') : AllCalls env (MayAdd L L') w cs := by
  induction cs generalizing w with
  | nil => trivial
  | cons c cs ih =>
    refine ⟨⟨?_, ?_⟩, ih _ ?_ ?_⟩
    · intro n hn; exact h1 n (List.mem_filterMap.mpr ⟨c, List.mem_cons_self, hn⟩)
    · intro n hn; exact h2 n (List.mem_filterMap.mpr ⟨c, List.mem_cons_self, hn⟩)
    · intro n hn
      obtain ⟨k, hk, e⟩ := List.mem_filterMap.mp hn
      exact h1 n (List.mem_filterMap.mpr ⟨k, List.mem_cons_of_mem _ hk, e⟩)
    · intro n hn
      obtain ⟨k, hk, e⟩ := List.mem_filterMap.mp hn
      exact h2 n (List.mem_filterMap.mpr ⟨k, List.mem_cons_of_mem _ hk, e⟩)

theorem named_run (env : Env) (cs : List Call) : NodesNamed (cs.filterMap addedNode) (cs.filterMap addedPattern) (World.init.run env cs).api :=
  (WInv_run env (MayAdd _ _) (fun _ _ _ hP h he => NodesNamed.edit hP h he) World.init cs
    (mayAdd_all env _ _ _ cs (fun _ h => h) (fun _ h => h))
    (WInv_init ⟨by simp [Api.init, FeModel.empty, Dict.keys], by simp [Api.init, Dict.keys]⟩)).1

theorem plainModel_of_calls (env : Env) {pre : List Call} (h1 : (pre.filterMap addedNode).Nodup) (h2 : (pre.filterMap addedPattern).Nodup) :
    PlainModel env pre := by
  constructor
  · refine allCalls_iff.mpr ?_
    rintro a c b rfl n x y z rfl hn
    have := (named_run env a).nodes n hn
    rw [List.filterMap_append, List.filterMap_cons_some (show addedNode (.addNode n x y z) = some n from rfl)] at h1
    exact (List.disjoint_of_nodup_append h1) this List.mem_cons_self
  · refine allCalls_iff.mpr ?_
    rintro a c b rfl p rfl
    rw [List.filterMap_append, List.filterMap_cons_some (show addedPattern (.addLoadpattern p) = some p from rfl)] at h2
    cases hg : (World.init.run env a).api.loadpatterns.get? p with
    | none => rfl
    | some r => exact absurd ((named_run env a).pats p (Dict.mem_keys_of_get? hg)) (fun hm => (List.disjoint_of_nodup_append h2) hm List.mem_cons_self)

/-! ### the sheet with a beam along its diagonal -/

def ribCalls : List Call :=
  sheetCalls ++ [.addSimpleBeam "rib" "A" "C" 2 0 1 2 3 1 0, .addLoadpattern "Q", .setNodalLoad "Q" "C" ![3, 1, 0, 0, 0, 0],
    .addStaticCase "M", .addCasePattern "M" "Q" 5]

theorem acc_rib : Acceptable ⟨0, 0, 0⟩ ⟨1, 1, 0⟩ := by right; norm_num [absTol]

theorem rib_plain (env : Env) : PlainModel env ribCalls := by
  apply plainModel_of_calls <;> simp [ribCalls, sheetCalls, addedNode, addedPattern, List.filterMap_cons]

theorem rib_shells (env : Env) : (World.init.run env ribCalls).api.model.shells = [("e", flatQuad 0 0 1 0 1 1 0 1)] := by
  unfold ribCalls
  obtain ⟨c, hc⟩ := (lineCsys_accept ⟨0, 0, 0⟩ ⟨1, 1, 0⟩).mpr acc_rib
  have hb : BeamElm.mk? "rib" (stdNode "A" 0 0 0) (stdNode "C" 1 1 0) (.simple 2 0 1 2 3 1 0) =
      .ok ⟨"rib", "A", ⟨0, 0, 0⟩, "C", ⟨1, 1, 0⟩, c, fun _ => false, .simple 2 0 1 2 3 1 0⟩ := by
    unfold BeamElm.mk?
    have e1 : (stdNode "A" 0 0 0).loc = ⟨0, 0, 0⟩ := rfl
    have e2 : (stdNode "C" 1 1 0).loc = ⟨1, 1, 0⟩ := rfl
    rw [e1, e2, hc]
    rfl
  rw [run_append, sheet_run, run_cons, step_addSimpleBeam_of env _ _ _ _ _ _ _ _ _ _ _ _ _ _ rfl rfl hb, run_cons, step_addLoadpattern,
    run_cons, step_setNodalLoad_of env _ _ _ _ 1 (LoadPattern.new "Q") rfl rfl, run_cons, step_addStaticCase, run_cons,
    step_addCasePattern_of env _ _ _ _ (LoadCase.new "M" .static) 1 _ rfl rfl rfl, run_nil]
  rfl

theorem rib_frame : (blueprint.run ribCalls).cur.beams = ["rib"] ∧
    (∀ b, (blueprint.run ribCalls).cur.beam b = if b = "rib" then some ⟨"A", "C", ⟨0, 0, 0⟩, ⟨1, 1, 0⟩, demoSec⟩ else none) := by
  refine ⟨?_, ?_⟩
  all_goals simp [ribCalls, sheetCalls, Machine.run, Machine.step, blueprint, Blueprint.addBeam, sectionCall, acc_rib, demoSec]

theorem rib_nodes : (nodeReg.run ribCalls).cur.names = ["A", "B", "C", "D"] := by
  simp [ribCalls, sheetCalls, Machine.run, Machine.step, nodeReg]

theorem rib_rest : ((restReg.run ribCalls).cur.inForce "L") = (fun n => if n = "C" then some (fun r => decide (r ≠ 0)) else
      if n = "D" ∨ n = "B" ∨ n = "A" then some (fun _ => true) else none) ∧
    (restReg.run ribCalls).cur.inForce "M" = (restReg.run ribCalls).cur.inForce "L" := by
  have h : (restReg.run ribCalls).cur.cases "L" = some (fun _ => none) ∧ (restReg.run ribCalls).cur.cases "M" = some (fun _ => none) := by
    constructor <;> simp [ribCalls, sheetCalls, Machine.run, Machine.step, restReg]
  constructor
  · funext n
    unfold RestReg.inForce
    rw [h.1]
    simp [ribCalls, sheetCalls, Machine.run, Machine.step, restReg]
    by_cases h1 : n = "C" <;> by_cases h2 : n = "D" <;> by_cases h3 : n = "B" <;> by_cases h4 : n = "A" <;> simp [h1, h2, h3, h4]
  · funext n
    unfold RestReg.inForce
    rw [h.1, h.2]

theorem rib_case : (caseReg.run ribCalls).cur.cases "L" = some (fun q => if q = "P" then some 2 else none) ∧
    (caseReg.run ribCalls).cur.cases "M" = some (fun q => if q = "Q" then some 5 else none) := by
  constructor <;> simp [ribCalls, sheetCalls, Machine.run, Machine.step, caseReg, CaseReg.upd]

/-- the problems of the cases "L" and "M" -/
noncomputable def ribL : Problem :=
  ⟨(blueprint.run ribCalls).cur, (nodeReg.run ribCalls).cur.names, (restReg.run ribCalls).cur.inForce "L",
    (blueprint.run ribCalls).cur.caseWork (nodeReg.run ribCalls).cur.names (caseReg.run ribCalls).cur
      (fun q => if q = "P" then some 2 else none) ["P"]⟩
noncomputable def ribM : Problem :=
  ⟨(blueprint.run ribCalls).cur, (nodeReg.run ribCalls).cur.names, (restReg.run ribCalls).cur.inForce "M",
    (blueprint.run ribCalls).cur.caseWork (nodeReg.run ribCalls).cur.names (caseReg.run ribCalls).cur
      (fun q => if q = "Q" then some 5 else none) ["Q"]⟩

theorem ribL_poses : Poses ribCalls "L" ribL :=
  ⟨rfl, rfl, rfl, _, _, rib_case.1, ⟨by simp, by intro p; by_cases h : p = "P" <;> simp [h]⟩, rfl⟩
theorem ribM_poses : Poses ribCalls "M" ribM :=
  ⟨rfl, rfl, rfl, _, _, rib_case.2, ⟨by simp, by intro p; by_cases h : p = "Q" <;> simp [h]⟩, rfl⟩

theorem rib_positive : (blueprint.run ribCalls).cur.Positive := by
  intro b g hg
  rw [rib_frame.2] at hg
  split at hg
  · cases hg; norm_num [GivenSec.Positive, demoSec]
  · cases hg

variable (nan4 : ShellElm → Matrix (Fin 24) (Fin 24) ℝ) (nan3 : ShellElm → Matrix (Fin 18) (Fin 18) ℝ)
  (solve : (n : ℕ) → Matrix (Fin n) (Fin n) ℝ → Vec n → Except PyErr (Vec n))

theorem rib_obeys {u : State} (hu : Obeys ribL.fix u) : Respects sheetModel.restraints u := by
  rw [show ribL.fix = _ from rib_rest.1] at hu
  intro n f hf r hr
  have hf : (if n = "A" then some (fun _ => true) else if n = "B" then some (fun _ => true) else if n = "D" then some (fun _ => true) else
      if n = "C" then some (fun r => decide (r ≠ 0)) else none : Option Flags) = some f := by
    simpa [sheetModel, Dict.get?_cons, Dict.get?, eq_comm] using hf
  refine hu n f ?_ r hr
  by_cases h1 : n = "A"
  · subst h1; simpa using hf
  · by_cases h2 : n = "B"
    · subst h2; simpa using hf
    · by_cases h3 : n = "D"
      · subst h3; simpa using hf
      · by_cases h4 : n = "C"
        · subst h4; simpa using hf
        · simp [h1, h2, h3, h4] at hf

theorem rib_stable : MixedStable (shellEnv onePoint nan4 nan3 solve) ribCalls ribL := by
  intro u hu h0
  have hR := rib_obeys hu
  have h1 : shellWork (shellEnv onePoint nan4 nan3 solve) ribCalls u u = 3 / 8 * u "C" 0 ^ 2 := by
    rw [← sheet_work nan4 nan3 solve hR]
    unfold shellWork internalWork
    rw [rib_shells]
    simp [sheetModel, FeModel.empty]
  have h2 := internal_nonneg (ribL_poses.sane (shellEnv onePoint nan4 nan3 solve)) rib_positive u
  unfold mixedWork at h0
  rw [h1] at h0
  have hz : u "C" 0 = 0 := by
    have : 0 ≤ u "C" 0 ^ 2 := sq_nonneg _
    have : u "C" 0 ^ 2 = 0 := by linarith
    exact pow_eq_zero_iff (two_ne_zero) |>.mp this
  obtain ⟨hA, hB, hD, hC⟩ := sheet_state hR
  have hC0 : u "C" = 0 := by
    rw [hC, hz]
    funext r
    fin_cases r <;> rfl
  intro n hn
  rw [show ribL.nodes = _ from rib_nodes] at hn
  have hn : n = "A" ∨ n = "B" ∨ n = "C" ∨ n = "D" := by simpa using hn
  rcases hn with rfl | rfl | rfl | rfl <;> assumption

theorem rib_proper (env : Env) : ShellsProper (World.init.run env ribCalls).api.model := by
  intro s se hs
  rw [rib_shells] at hs
  exact sheet_proper s se hs

theorem rib_own : ∀ c own, (restReg.run ribCalls).cur.cases c = some own → ∀ n f, own n = some f → n ∈ ribL.nodes := by
  intro c own hc n f hn
  simp [ribCalls, sheetCalls, Machine.run, Machine.step, restReg] at hc
  split at hc
  · cases hc; simp at hn
  · split at hc
    · cases hc; simp at hn
    · cases hc

theorem rib_free : ∃ n ∈ ribL.nodes, ∃ r, ¬ Restrained ribL.fix n r := by
  refine ⟨"C", by rw [show ribL.nodes = _ from rib_nodes]; simp, 0, ?_⟩
  unfold Restrained
  rw [show ribL.fix = _ from rib_rest.1]
  simp

theorem rib_reports : (∃ u, Reports (shellEnv onePoint nan4 nan3 idealEnv.spsolve) ribCalls [] "L" u) ∧
    (∃ u, Reports (shellEnv onePoint nan4 nan3 idealEnv.spsolve) ribCalls [] "M" u) := by
  have henv : (shellEnv onePoint nan4 nan3 idealEnv.spsolve).SolverSound := idealEnv_sound
  have hfix : ribM.fix = ribL.fix := rib_rest.2
  have hmu : ∀ b g, (blueprint.run ribCalls).cur.beam b = some g → g.sec.mat.mu ≠ -1 := by
    intro b g hg
    rw [rib_frame.2] at hg
    split at hg
    · cases hg; norm_num [demoSec]
    · cases hg
  have hreg := (rib_proper (shellEnv onePoint nan4 nan3 idealEnv.spsolve)).regular onePoint_proper (ApiInv_run _ ribCalls).1
  constructor
  · exact C138_solved onePoint nan4 nan3 _ henv ribCalls [] (rib_plain _) (by simp) hreg "L" ribL ribL_poses (rib_stable nan4 nan3 _) hmu
      (rib_own "L") rib_free
  · refine C138_solved onePoint nan4 nan3 _ henv ribCalls [] (rib_plain _) (by simp) hreg "M" ribM ribM_poses ?_ hmu
      (rib_own "M") ?_
    · intro u; rw [hfix]; exact rib_stable nan4 nan3 _ u
    · rw [hfix]; exact rib_free

theorem rib_load (v : State) : ribL.load v = 2 * v "C" 0 ∧ ribM.load v = 15 * v "C" 0 + 5 * v "C" 1 := by
  have hb : (blueprint.run ribCalls).cur.beams = ["rib"] := rib_frame.1
  have h1 : (caseReg.run ribCalls).cur.pats "P" = some { PatReg.empty with node := fun m => if m = "C" then some ![1, 0, 0, 0, 0, 0] else none } := by
    simp [ribCalls, sheetCalls, Machine.run, Machine.step, caseReg, CaseReg.upd, PatReg.empty]
  have h2 : (caseReg.run ribCalls).cur.pats "Q" = some { PatReg.empty with node := fun m => if m = "C" then some ![3, 1, 0, 0, 0, 0] else none } := by
    simp [ribCalls, sheetCalls, Machine.run, Machine.step, caseReg, CaseReg.upd, PatReg.empty]
  have z : ∀ o : Option GivenBeam, (o.elim 0 fun _ => (0:ℝ)) = 0 := by intro o; cases o <;> rfl
  constructor
  · simp [ribL, Blueprint.caseWork, h1, rib_nodes, hb, Blueprint.patternWork, PatReg.empty, dotProduct, Fin.sum_univ_six, z]
  · simp [ribM, Blueprint.caseWork, h2, rib_nodes, hb, Blueprint.patternWork, PatReg.empty, dotProduct, Fin.sum_univ_six, z]
    ring

/-- both cases of the stiffened sheet are answered: the corner moves under "M" as far as under "L" times 15 / 2 (it cannot move along y), it
moves with the load, and the supports have the forces of C138 -/
example : ∃ u u' R, Reports (shellEnv onePoint nan4 nan3 idealEnv.spsolve) ribCalls [] "L" u ∧
    Reports (shellEnv onePoint nan4 nan3 idealEnv.spsolve) ribCalls [] "M" u' ∧ ribL.load u' = ribM.load u ∧
    2 * u' "C" 0 = 15 * u "C" 0 + 5 * u "C" 1 ∧ 0 ≤ u "C" 0 ∧
    MixedForces (shellEnv onePoint nan4 nan3 idealEnv.spsolve) ribCalls ribL u R := by
  have henv : (shellEnv onePoint nan4 nan3 idealEnv.spsolve).SolverSound := idealEnv_sound
  obtain ⟨⟨u, hu⟩, u', hu'⟩ := rib_reports nan4 nan3
  have hreg := (rib_proper (shellEnv onePoint nan4 nan3 idealEnv.spsolve)).regular onePoint_proper (ApiInv_run _ ribCalls).1
  obtain ⟨R, hR, _⟩ := C138_supports onePoint nan4 nan3 _ henv ribCalls [] (rib_plain _) hreg "L" ribL ribL_poses (rib_stable nan4 nan3 _) u hu
  have h1 := C138_reciprocal onePoint nan4 nan3 _ henv ribCalls [] [] (rib_plain _) hreg "L" "M" ribL ribM ribL_poses ribM_poses
    (fun n => congrFun rib_rest.2.symm n) (rib_stable nan4 nan3 _) u u' hu hu'
  have h2 := (C138_minimum onePoint nan4 nan3 _ onePoint_proper (by norm_num [onePoint]) henv ribCalls [] (rib_plain _) (rib_proper _) "L" ribL
    ribL_poses rib_positive (rib_stable nan4 nan3 _) u hu).2.2
  refine ⟨u, u', R, hu, hu', h1, ?_, ?_, hR⟩
  · rw [(rib_load u').1, (rib_load u).2] at h1
    exact h1
  · rw [(rib_load u).1] at h2
    linarith

end Hyperstatic
