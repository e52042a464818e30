import Verif.Props.Statics
import Verif.Props.FrameLawsDemo

/-
Concrete cases for C133–C135: the portal with an additional load at "D" and the portal with an additional support there.
-/

namespace Hyperstatic
open Matrix Spec

/-- the portal with a further vertical load `h` at "D" -/
def pushedCalls (h : ℝ) : List Call :=
  portalCalls ++ [.addLoadpattern "U", .setNodalLoad "U" "D" ![0, 0, 1, 0, 0, 0], .addCasePattern "X" "U" h]

/-- the portal with a vertical support at "D" -/
def proppedCalls : List Call := portalCalls ++ [.setNodalRestraint "D" (fun r => decide (r = 2))]

theorem added_plain (h : ℝ) : PlainCalls (pushedCalls h) ∧ PlainCalls proppedCalls := by
  constructor <;> simp [PlainCalls, portalCalls, pushedCalls, proppedCalls, addedNode, addedPattern, List.filterMap_cons]

theorem pushed_same (h : ℝ) : (blueprint.run (pushedCalls h)).cur = (blueprint.run portalCalls).cur ∧
    (nodeReg.run (pushedCalls h)).cur = (nodeReg.run portalCalls).cur ∧
    (restReg.run (pushedCalls h)).cur = (restReg.run portalCalls).cur := by
  unfold pushedCalls Machine.run
  simp only [List.foldl_append, List.foldl_cons, List.foldl_nil]
  refine ⟨rfl, rfl, rfl⟩

theorem propped_same : (blueprint.run proppedCalls).cur = (blueprint.run portalCalls).cur ∧
    (nodeReg.run proppedCalls).cur = (nodeReg.run portalCalls).cur ∧ (caseReg.run proppedCalls).cur = (caseReg.run portalCalls).cur := by
  unfold proppedCalls Machine.run
  simp only [List.foldl_append, List.foldl_cons, List.foldl_nil]
  refine ⟨rfl, rfl, rfl⟩

theorem pushed_case (h : ℝ) : (caseReg.run (pushedCalls h)).cur.cases "X" = some (fun q => if q = "U" then some h else if q = "P" then some 2 else none) ∧
    (caseReg.run (pushedCalls h)).cur.pats "U" = some { PatReg.empty with node := fun m => if m = "D" then some ![0, 0, 1, 0, 0, 0] else none } ∧
    (caseReg.run (pushedCalls h)).cur.pats "P" = some { PatReg.empty with node := fun m => if m = "D" then some ![0, 0, -1, 0, 0, 0] else none } := by
  refine ⟨?_, ?_, ?_⟩ <;> simp [pushedCalls, portalCalls, Machine.run, Machine.step, caseReg, CaseReg.upd, PatReg.empty]

/-- the problem of the pushed portal -/
noncomputable def pushedX (h : ℝ) : Problem :=
  ⟨(blueprint.run (pushedCalls h)).cur, (nodeReg.run (pushedCalls h)).cur.names, (restReg.run (pushedCalls h)).cur.inForce "X",
    (blueprint.run (pushedCalls h)).cur.caseWork (nodeReg.run (pushedCalls h)).cur.names (caseReg.run (pushedCalls h)).cur
      (fun q => if q = "U" then some h else if q = "P" then some 2 else none) ["U", "P"]⟩

theorem pushed_poses (h : ℝ) : Poses (pushedCalls h) "X" (pushedX h) :=
  ⟨rfl, rfl, rfl, _, _, (pushed_case h).1, ⟨by simp, by
    intro p
    by_cases h1 : p = "U" <;> by_cases h2 : p = "P" <;> simp [h1, h2]⟩, rfl⟩

theorem pushed_load (h : ℝ) (v : State) : (pushedX h).load v = (h - 2) * v "D" 2 := by
  obtain ⟨_, h1, h2⟩ := pushed_case h
  have hn : (nodeReg.run (pushedCalls h)).cur.names = ["A", "B", "D"] := by rw [(pushed_same h).2.1]; exact portal_nodes
  have hb : (blueprint.run (pushedCalls h)).cur.beams = ["col", "bm"] := by rw [(pushed_same h).1]; exact portal_frame.1
  have z : ∀ o : Option GivenBeam, (o.elim 0 fun _ => (0:ℝ)) = 0 := by intro o; cases o <;> rfl
  simp [pushedX, Blueprint.caseWork, h1, h2, hn, hb, Blueprint.patternWork, PatReg.empty, dotProduct, Fin.sum_univ_six, z]
  ring

/-- the problem of the propped portal -/
noncomputable def proppedX : Problem := { portalX with fix := (restReg.run proppedCalls).cur.inForce "X" }

theorem propped_rest : (restReg.run proppedCalls).cur.inForce "X" =
    fun n => if n = "D" then some (fun r => decide (r = 2)) else if n = "A" then some (fun _ => true) else none := by
  simp [proppedCalls, portalCalls, Machine.run, Machine.step, restReg, RestReg.inForce]

theorem propped_poses : Poses proppedCalls "X" proppedX := by
  obtain ⟨g, names, h1, h2, h3⟩ := portalX_describes.load
  refine ⟨?_, ?_, rfl, g, names, ?_, h2, ?_⟩
  · rw [propped_same.1]; rfl
  · rw [propped_same.2.1]; rfl
  · rw [propped_same.2.2]; exact h1
  · rw [propped_same.2.2]; exact h3

theorem propped_fix (m : String) (q : Fin 6) : Restrained proppedX.fix m q ↔ Restrained portalX.fix m q ∨ (m = "D" ∧ q = 2) := by
  unfold Restrained
  rw [show proppedX.fix = _ from propped_rest, show portalX.fix = _ from portal_rest.1]
  by_cases h1 : m = "D"
  · subst h1; simp
  · by_cases h2 : m = "A" <;> simp [h1, h2]

theorem portal_stable : portalX.frame.Stable portalX.nodes portalX.fix :=
  C69_grounded_stable _ _ _ portalX_describes portal_positive portal_grounded

theorem pushed_same_problem (h : ℝ) : (pushedX h).frame = portalX.frame ∧ (pushedX h).nodes = portalX.nodes ∧ (pushedX h).fix = portalX.fix := by
  refine ⟨(pushed_same h).1, ?_, ?_⟩
  · show (nodeReg.run (pushedCalls h)).cur.names = _
    rw [(pushed_same h).2.1]; rfl
  · show (restReg.run (pushedCalls h)).cur.inForce "X" = _
    rw [(pushed_same h).2.2]; rfl

theorem portal_own (cs : List Call) (h : (restReg.run cs).cur.cases = (restReg.run portalCalls).cur.cases) :
    ∀ own, (restReg.run cs).cur.cases "X" = some own → ∀ n f, own n = some f → n ∈ portalX.nodes := by
  have e : (restReg.run portalCalls).cur.cases "X" = some (fun _ => none) := by
    simp [portalCalls, Machine.run, Machine.step, restReg]
  intro own ho n f hf
  rw [h, e] at ho
  cases ho
  cases hf

theorem pushed_reports (h : ℝ) : ∃ u, Reports idealEnv (pushedCalls h) [] "X" u := by
  obtain ⟨e1, e2, e3⟩ := pushed_same_problem h
  refine stable_solved idealEnv idealEnv_sound _ (plainFrame_of_calls _ (added_plain h).1) "X" _ (pushed_poses h) (by rw [e1]; exact portal_positive)
    (by rw [e1, e2, e3]; exact portal_stable) (by rw [e2]; exact portal_own _ (by rw [(pushed_same h).2.2])) ?_
  rw [e2, e3]
  refine ⟨"B", by rw [show portalX.nodes = _ from portal_nodes]; simp, 0, ?_⟩
  rw [show portalX.fix = _ from portal_rest.1]
  simp

theorem propped_reports : ∃ u, Reports idealEnv proppedCalls [] "X" u := by
  refine stable_solved idealEnv idealEnv_sound _ (plainFrame_of_calls _ (added_plain 0).2) "X" _ propped_poses portal_positive ?_
    (portal_own _ ?_) ?_
  · intro v hv h0
    refine portal_stable v ?_ h0
    rw [obeys_iff] at hv ⊢
    exact fun n r h => hv n r ((propped_fix n r).mpr (Or.inl h))
  · simp [proppedCalls, portalCalls, Machine.run, Machine.step, restReg]
  · refine ⟨"B", by rw [show proppedX.nodes = _ from portal_nodes]; simp, 0, ?_⟩
    rw [show proppedX.fix = _ from propped_rest]
    simp

theorem portal_free : ¬ Restrained portalX.fix "D" 2 := by
  unfold Restrained
  rw [show portalX.fix = _ from portal_rest.1]
  simp

theorem D_mem : "D" ∈ portalX.nodes := by rw [show portalX.nodes = _ from portal_nodes]; simp

theorem pushed_other (h : ℝ) : OtherLoads portalX (pushedX h) := by
  obtain ⟨e1, e2, e3⟩ := pushed_same_problem h
  exact ⟨e1, e2, e3⟩

/-- the support of the portal at "D": the three models are answered, so the answer of the propped one is that of C134 -/
example : ∃ u u1 u', Reports idealEnv portalCalls [] "X" u ∧ Reports idealEnv (pushedCalls 3) [] "X" u1 ∧ Reports idealEnv proppedCalls [] "X" u' ∧
    0 < u1 "D" 2 ∧ ∀ m ∈ portalX.nodes, u' m = u m - (u "D" 2 / u1 "D" 2) • u1 m := by
  obtain ⟨u, hu⟩ := portal_reports.1
  obtain ⟨u1, hu1⟩ := pushed_reports 3
  obtain ⟨u', hu'⟩ := propped_reports
  have hone : ∀ v, (pushedX 3).load v = v "D" 2 := fun v => by rw [pushed_load]; ring
  obtain ⟨e1, e2, e3⟩ := pushed_same_problem 3
  refine ⟨u, u1, u', hu, hu1, hu', ?_, ?_⟩
  · exact C134_direction idealEnv idealEnv_sound _ _ (plainFrame_of_calls _ (added_plain 3).1) "X" _ (pushed_poses 3)
      (by rw [e1]; exact portal_positive) (by rw [e1, e2, e3]; exact portal_stable) "D" (by rw [e2]; exact D_mem) 2
      (by rw [e3]; exact portal_free) hone u1 hu1
  · exact (C134_prop idealEnv idealEnv_sound _ _ _ _ _ _ (plainFrame_of_calls _ portal_plain.1) (plainFrame_of_calls _ (added_plain 3).1)
      (plainFrame_of_calls _ (added_plain 0).2) "X" "X" "X" _ _ _ portalX_describes (pushed_poses 3) propped_poses portal_stable "D" D_mem 2
      portal_free (pushed_other 3) hone ⟨rfl, rfl, propped_fix, rfl⟩ u u1 u' hu hu1 hu').2.1

/-- the support at "D" and its force in its place -/
example : ∃ u R, Reports idealEnv proppedCalls [] "X" u ∧ SupportForces proppedX u R ∧
    Replaced proppedX (pushedX (R "D" 2)) R (fun n => if n = "D" then ![0, 0, R "D" 2, 0, 0, 0] else 0) ∧
    ∀ u', Reports idealEnv (pushedCalls (R "D" 2)) [] "X" u' → ∀ n ∈ proppedX.nodes, u' n = u n := by
  obtain ⟨u, hu⟩ := propped_reports
  have hst : proppedX.frame.Stable proppedX.nodes proppedX.fix := by
    intro v hv h0
    refine portal_stable v ?_ h0
    rw [obeys_iff] at hv ⊢
    exact fun n r h => hv n r ((propped_fix n r).mpr (Or.inl h))
  obtain ⟨R, hR, _⟩ := C133_supports idealEnv idealEnv_sound _ _ (plainFrame_of_calls _ (added_plain 0).2) "X" _ propped_poses hst u hu
  obtain ⟨e1, e2, e3⟩ := pushed_same_problem (R "D" 2)
  have hrep : Replaced proppedX (pushedX (R "D" 2)) R (fun n => if n = "D" then ![0, 0, R "D" 2, 0, 0, 0] else 0) := by
    refine ⟨e1, e2, ?_, ?_, ?_⟩
    · rw [e3]
      exact fun n r h => (propped_fix n r).mpr (Or.inl h)
    · rw [e3]
      intro n hn r hr
      by_cases h : n = "D" ∧ r = 2
      · obtain ⟨rfl, rfl⟩ := h; rfl
      · have hz : R n r = 0 := by
          by_contra hne
          rcases (propped_fix n r).mp (hR.only n hn r hne) with h' | h'
          · exact hr h'
          · exact h h'
        rw [hz]
        by_cases hd : n = "D"
        · have : r ≠ 2 := fun h' => h ⟨hd, h'⟩
          rw [if_pos hd]
          fin_cases r <;> simp at this ⊢
        · rw [if_neg hd]; rfl
    · intro v
      rw [pushed_load, show proppedX.load v = portalX.load v from rfl, portal_load, show proppedX.nodes = ["A", "B", "D"] from portal_nodes]
      simp [nodalWork, dotProduct, Fin.sum_univ_six]
      ring
  refine ⟨u, R, hu, hR, hrep, ?_⟩
  intro u' hu'
  exact C133_replaced idealEnv idealEnv_sound _ _ _ _ (plainFrame_of_calls _ (added_plain 0).2) (plainFrame_of_calls _ (added_plain _).1) "X" "X" _ _
    propped_poses (pushed_poses _) (by rw [e1, e2, e3]; exact portal_stable) u u' hu hu' R _ hR hrep

/-- the load at "D" growing -/
example : ∃ u : ℝ → State, ∀ F, HasDerivAt (fun h => (pushedX 0).frame.internal (u h) (u h) / 2) (u F "D" 2) F := by
  choose u hu using pushed_reports
  obtain ⟨e1, e2, e3⟩ := pushed_same_problem 0
  refine ⟨u, fun F => C135_castigliano idealEnv idealEnv_sound pushedCalls (fun _ => []) (fun h => plainFrame_of_calls _ (added_plain h).1)
    (fun _ => "X") pushedX pushed_poses (by rw [e1, e2, e3]; exact portal_stable) "D" (by rw [e2]; exact D_mem) 2 ?_ ?_ u hu F⟩
  · intro h
    obtain ⟨a1, a2, a3⟩ := pushed_same_problem h
    exact ⟨a1.trans e1.symm, a2.trans e2.symm, a3.trans e3.symm⟩
  · intro h v
    rw [pushed_load, pushed_load]; ring

end Hyperstatic
