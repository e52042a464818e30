import Verif.Lemmas.Shift

/-
A frame for the examples: a column "A"-"B" and a beam "B"-"D" with a load at "D" (case "X") and a line load on the beam (case "Y").
-/

namespace Hyperstatic
open Matrix Spec

def portalCalls : List Call :=
  [.addNode "A" 0 0 0, .addNode "B" 0 0 3, .addNode "D" 4 0 3, .addSimpleBeam "col" "A" "B" 2 0 1 2 3 1 0,
    .addSimpleBeam "bm" "B" "D" 2 0 1 2 3 1 0, .setNodalRestraint "A" (fun _ => true),
    .addLoadpattern "P", .setNodalLoad "P" "D" ![0, 0, -1, 0, 0, 0], .addLoadpattern "Q", .setBeamLoadDistributed "Q" "bm" 0 0 1 2 0 0 0 0,
    .addStaticCase "X", .addCasePattern "X" "P" 2, .addStaticCase "Y", .addCasePattern "Y" "Q" 3]

/-- the same with a brace -/
def bracedCalls : List Call := portalCalls ++ [.addSimpleBeam "br" "A" "D" 5 0 1 1 1 1 0]

theorem acc_col : Acceptable ⟨0, 0, 0⟩ ⟨0, 0, 3⟩ := by left; norm_num [absTol]
theorem acc_bm : Acceptable ⟨0, 0, 3⟩ ⟨4, 0, 3⟩ := by right; norm_num [absTol]
theorem acc_br : Acceptable ⟨0, 0, 0⟩ ⟨4, 0, 3⟩ := by right; norm_num [absTol]

def demoSec : GivenSec := ⟨⟨0, 2, 0⟩, 1, 2, 3, 1⟩

theorem portal_frame : (blueprint.run portalCalls).cur.beams = ["col", "bm"] ∧
    (∀ b, (blueprint.run portalCalls).cur.beam b = if b = "bm" then some ⟨"B", "D", ⟨0, 0, 3⟩, ⟨4, 0, 3⟩, demoSec⟩ else
      if b = "col" then some ⟨"A", "B", ⟨0, 0, 0⟩, ⟨0, 0, 3⟩, demoSec⟩ else none) ∧
    (∀ n, (blueprint.run portalCalls).cur.loc n = if n = "D" then some ⟨4, 0, 3⟩ else if n = "B" then some ⟨0, 0, 3⟩ else
      if n = "A" then some ⟨0, 0, 0⟩ else none) := by
  refine ⟨?_, ?_, ?_⟩
  all_goals simp [portalCalls, Machine.run, Machine.step, blueprint, Blueprint.addBeam, sectionCall, acc_col, acc_bm, demoSec]

theorem portal_rest : ((restReg.run portalCalls).cur.inForce "X") = (fun n => if n = "A" then some (fun _ => true) else none) ∧
    ((restReg.run portalCalls).cur.inForce "Y") = (fun n => if n = "A" then some (fun _ => true) else none) := by
  constructor <;> simp [portalCalls, Machine.run, Machine.step, restReg, RestReg.inForce]

theorem portal_nodes : (nodeReg.run portalCalls).cur.names = ["A", "B", "D"] := by
  simp [portalCalls, Machine.run, Machine.step, nodeReg]

theorem portal_case : (caseReg.run portalCalls).cur.cases "X" = some (fun q => if q = "P" then some 2 else none) ∧
    (caseReg.run portalCalls).cur.cases "Y" = some (fun q => if q = "Q" then some 3 else none) := by
  constructor <;> simp [portalCalls, Machine.run, Machine.step, caseReg, CaseReg.upd]

theorem portal_plain : PlainCalls portalCalls ∧ PlainCalls bracedCalls := by
  constructor <;> simp [PlainCalls, portalCalls, bracedCalls, addedNode, addedPattern, List.filterMap_cons]

/-- the problem of case "X" -/
noncomputable def portalX : Problem :=
  ⟨(blueprint.run portalCalls).cur, (nodeReg.run portalCalls).cur.names, (restReg.run portalCalls).cur.inForce "X",
    (blueprint.run portalCalls).cur.caseWork (nodeReg.run portalCalls).cur.names (caseReg.run portalCalls).cur
      (fun q => if q = "P" then some 2 else none) ["P"]⟩

/-- the problem of case "Y" -/
noncomputable def portalY : Problem :=
  ⟨(blueprint.run portalCalls).cur, (nodeReg.run portalCalls).cur.names, (restReg.run portalCalls).cur.inForce "Y",
    (blueprint.run portalCalls).cur.caseWork (nodeReg.run portalCalls).cur.names (caseReg.run portalCalls).cur
      (fun q => if q = "Q" then some 3 else none) ["Q"]⟩

theorem portalX_describes : Poses portalCalls "X" portalX :=
  ⟨rfl, rfl, rfl, _, _, portal_case.1, ⟨by simp, by intro p; by_cases h : p = "P" <;> simp [h]⟩, rfl⟩
theorem portalY_describes : Poses portalCalls "Y" portalY :=
  ⟨rfl, rfl, rfl, _, _, portal_case.2, ⟨by simp, by intro p; by_cases h : p = "Q" <;> simp [h]⟩, rfl⟩

theorem portal_positive : (blueprint.run portalCalls).cur.Positive := by
  intro b g hb
  rw [portal_frame.2.1] at hb
  split at hb
  · cases hb; norm_num [GivenSec.Positive, demoSec]
  · split at hb
    · cases hb; norm_num [GivenSec.Positive, demoSec]
    · cases hb

theorem portal_grounded : portalX.frame.Grounded portalX.nodes portalX.fix := by
  have hA : Clamped portalX.fix "A" := ⟨fun _ => true, by show ((restReg.run portalCalls).cur.inForce "X") "A" = _; rw [portal_rest.1]; rfl, fun _ => rfl⟩
  have j1 : portalX.frame.Joined "B" "A" := ⟨"col", _, portal_frame.2.1 "col", Or.inr ⟨rfl, rfl⟩⟩
  have j2 : portalX.frame.Joined "D" "B" := ⟨"bm", _, portal_frame.2.1 "bm", Or.inr ⟨rfl, rfl⟩⟩
  intro n hn
  have hn : n ∈ ["A", "B", "D"] := by rw [← portal_nodes]; exact hn
  refine ⟨"A", hA, ?_⟩
  simp only [List.mem_cons, List.not_mem_nil, or_false] at hn
  rcases hn with rfl | rfl | rfl
  · exact .refl
  · exact .single j1
  · exact .head j2 (.single j1)

theorem braced_frame : (blueprint.run bracedCalls).cur.beams = ["col", "bm", "br"] ∧
    (∀ b, (blueprint.run bracedCalls).cur.beam b = if b = "br" then some ⟨"A", "D", ⟨0, 0, 0⟩, ⟨4, 0, 3⟩, ⟨⟨0, 5, 0⟩, 1, 1, 1, 1⟩⟩ else
      (blueprint.run portalCalls).cur.beam b) := by
  constructor
  all_goals simp [bracedCalls, portalCalls, Machine.run, Machine.step, blueprint, Blueprint.addBeam, sectionCall, acc_col, acc_bm, acc_br]

theorem braced_same : (restReg.run bracedCalls).cur = (restReg.run portalCalls).cur ∧ (caseReg.run bracedCalls).cur = (caseReg.run portalCalls).cur ∧
    (nodeReg.run bracedCalls).cur = (nodeReg.run portalCalls).cur := by
  refine ⟨?_, ?_, ?_⟩ <;> (unfold bracedCalls Machine.run; rw [List.foldl_append]; rfl)

/-- case "X" of the braced frame -/
noncomputable def bracedX : Problem :=
  ⟨(blueprint.run bracedCalls).cur, portalX.nodes, portalX.fix,
    (blueprint.run bracedCalls).cur.caseWork portalX.nodes (caseReg.run bracedCalls).cur (fun q => if q = "P" then some 2 else none) ["P"]⟩

theorem bracedX_describes : Poses bracedCalls "X" bracedX := by
  refine ⟨rfl, ?_, ?_, _, _, ?_, ⟨by simp, by intro p; by_cases h : p = "P" <;> simp [h]⟩, rfl⟩
  · rw [braced_same.2.2]; rfl
  · rw [braced_same.1]; rfl
  · rw [braced_same.2.1]; exact portal_case.1

theorem braced_positive : bracedX.frame.Positive := by
  intro b g hb
  have hb : (blueprint.run bracedCalls).cur.beam b = some g := hb
  rw [braced_frame.2] at hb
  split at hb
  · cases hb; norm_num [GivenSec.Positive]
  · exact portal_positive b g hb

theorem braced_stiffer : Stiffer portalX.frame bracedX.frame := by
  intro b g hb
  refine ⟨g, ?_, rfl, rfl, rfl, rfl, le_rfl, le_rfl, le_rfl, le_rfl⟩
  show (blueprint.run bracedCalls).cur.beam b = some g
  rw [braced_frame.2, if_neg, ← hb]
  · rfl
  · rintro rfl
    have : (blueprint.run portalCalls).cur.beam "br" = some g := hb
    rw [portal_frame.2.1] at this
    simp at this

theorem portal_pats : (caseReg.run portalCalls).cur.pats "P" =
    some ⟨fun m => if m = "D" then some ![0, 0, -1, 0, 0, 0] else none, fun _ => none, fun _ => none⟩ := by
  simp [portalCalls, Machine.run, Machine.step, caseReg, CaseReg.upd, PatReg.empty]

theorem portal_load (v : State) : portalX.load v = -2 * v "D" 2 := by
  show (blueprint.run portalCalls).cur.caseWork (nodeReg.run portalCalls).cur.names (caseReg.run portalCalls).cur
      (fun q => if q = "P" then some 2 else none) ["P"] v = _
  unfold Blueprint.caseWork Blueprint.patternWork
  rw [List.map_cons, List.map_nil, portal_pats, portal_nodes, portal_frame.1]
  simp [portal_frame.2.1, dotProduct, Fin.sum_univ_succ]

theorem braced_load (v : State) : bracedX.load v = -2 * v "D" 2 := by
  show (blueprint.run bracedCalls).cur.caseWork (nodeReg.run portalCalls).cur.names (caseReg.run bracedCalls).cur
      (fun q => if q = "P" then some 2 else none) ["P"] v = _
  unfold Blueprint.caseWork Blueprint.patternWork
  rw [List.map_cons, List.map_nil, braced_same.2.1, portal_pats, portal_nodes, braced_frame.1]
  simp [braced_frame.2, portal_frame.2.1, dotProduct, Fin.sum_univ_succ]

end Hyperstatic
