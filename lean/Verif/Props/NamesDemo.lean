import Verif.Props.Names

/-
Concrete cases for C136 and C137: the portal with longer names, and a gate whose two halves are mirror images.
-/

namespace Hyperstatic
open Matrix Spec

/-- every name with an appended "1" -/
def longer : Naming := ⟨(· ++ "1"), (· ++ "1"), (· ++ "1"), (· ++ "1"), (· ++ "1"), (· ++ "1")⟩

theorem append_inj (t : String) : Function.Injective (fun s : String => s ++ t) := by
  intro a b h
  exact String.append_left_inj t |>.mp h

theorem longer_distinct : longer.Distinct :=
  ⟨append_inj _, append_inj _, append_inj _, append_inj _, append_inj _, append_inj _⟩

theorem renamed_positive {ν : Naming} {s s' : Blueprint} (h : FrameRenamed ν s s') (hp : s.Positive) : s'.Positive := by
  intro b g hb
  by_cases hm : ∃ k, ν.beam k = b
  · obtain ⟨k, rfl⟩ := hm
    rw [h.beam.fwd k, Option.map_eq_some_iff] at hb
    obtain ⟨g', hg', rfl⟩ := hb
    exact hp k g' hg'
  · rw [h.beam.off b (fun k hk => hm ⟨k, hk⟩)] at hb
    cases hb

/-- the portal is answered under the longer names -/
theorem longer_reports : ∃ u, Reports idealEnv (portalCalls.map (renameCall longer)) [] "X1" u := by
  obtain ⟨P', hD', hR⟩ := renamed_problem longer_distinct portalX_describes
  refine stable_solved idealEnv idealEnv_sound _ (plainFrame_of_calls _ (rename_plain longer_distinct portal_plain.1)) "X1" P' hD'
    (renamed_positive hR.frame portal_positive) (hR.stable portal_stable) ?_ ?_
  · intro own ho n f hf
    have hr := restReg_rename longer_distinct portalCalls
    have e : (restReg.run portalCalls).cur.cases "X" = some (fun _ => none) := by
      simp [portalCalls, Machine.run, Machine.step, restReg]
    obtain ⟨g', hg', hc⟩ := hr.cases.some "X" _ e
    have hx : longer.case "X" = "X1" := rfl
    rw [hx, ho] at hg'
    cases hg'
    exfalso
    by_cases hm : ∃ k, longer.node k = n
    · obtain ⟨k, rfl⟩ := hm
      rw [hc.fwd k] at hf
      cases hf
    · rw [hc.off n (fun k hk => hm ⟨k, hk⟩)] at hf
      cases hf
  · refine ⟨longer.node "B", ?_, 0, ?_⟩
    · rw [hR.nodes, show portalX.nodes = _ from portal_nodes]
      exact List.mem_map_of_mem (by simp)
    · rw [hR.fix.fwd "B", show portalX.fix = _ from portal_rest.1]
      simp

/-- both are answered, and D1 moves as D does -/
example : ∃ u u', Reports idealEnv portalCalls [] "X" u ∧ Reports idealEnv (portalCalls.map (renameCall longer)) [] "X1" u' ∧ u' "D1" = u "D" := by
  obtain ⟨u, hu⟩ := portal_reports.1
  obtain ⟨u', hu'⟩ := longer_reports
  exact ⟨u, u', hu, hu', C136_names idealEnv idealEnv_sound longer longer_distinct _ _ _ (plainFrame_of_calls _ portal_plain.1)
    (plainFrame_of_calls _ (rename_plain longer_distinct portal_plain.1)) "X" _ portalX_describes portal_stable u u' hu hu' "D" D_mem⟩

/-- a gate: two clamped columns and a beam, with loads at both ends of the beam -/
def gateCalls : List Call :=
  [.addNode "A" (-2) 0 0, .addNode "B" (-2) 0 3, .addNode "C" 2 0 3, .addNode "D" 2 0 0, .addSimpleBeam "l" "A" "B" 2 0 1 2 3 1 0,
    .addSimpleBeam "r" "D" "C" 2 0 1 2 3 1 0, .addSimpleBeam "t" "B" "C" 2 0 1 2 3 1 0, .setNodalRestraint "A" (fun _ => true),
    .setNodalRestraint "D" (fun _ => true), .addLoadpattern "P", .setNodalLoad "P" "B" ![-1, 0, -5, 0, 2, 0],
    .setNodalLoad "P" "C" ![1, 0, -5, 0, -2, 0], .addStaticCase "X", .addCasePattern "X" "P" 1]

theorem gate_accept : Acceptable ⟨-2, 0, 0⟩ ⟨-2, 0, 3⟩ ∧ Acceptable ⟨2, 0, 0⟩ ⟨2, 0, 3⟩ ∧ Acceptable ⟨-2, 0, 3⟩ ⟨2, 0, 3⟩ := by
  refine ⟨?_, ?_, ?_⟩
  · left; norm_num [absTol]
  · left; norm_num [absTol]
  · right; norm_num [absTol]

theorem gate_frame (b : String) : (blueprint.run gateCalls).cur.beam b = if b = "t" then some ⟨"B", "C", ⟨-2, 0, 3⟩, ⟨2, 0, 3⟩, demoSec⟩ else
    if b = "r" then some ⟨"D", "C", ⟨2, 0, 0⟩, ⟨2, 0, 3⟩, demoSec⟩ else
    if b = "l" then some ⟨"A", "B", ⟨-2, 0, 0⟩, ⟨-2, 0, 3⟩, demoSec⟩ else none := by
  obtain ⟨h1, h2, h3⟩ := gate_accept
  simp [gateCalls, Machine.run, Machine.step, blueprint, Blueprint.addBeam, sectionCall, h1, h2, h3, demoSec]

theorem gate_nodes : (nodeReg.run gateCalls).cur.names = ["A", "B", "C", "D"] := by
  simp [gateCalls, Machine.run, Machine.step, nodeReg]

theorem gate_beams : (blueprint.run gateCalls).cur.beams = ["l", "r", "t"] := by
  obtain ⟨h1, h2, h3⟩ := gate_accept
  simp [gateCalls, Machine.run, Machine.step, blueprint, Blueprint.addBeam, sectionCall, h1, h2, h3]

theorem gate_rest : (restReg.run gateCalls).cur.inForce "X" =
    fun n => if n = "D" then some (fun _ => true) else if n = "A" then some (fun _ => true) else none := by
  simp [gateCalls, Machine.run, Machine.step, restReg, RestReg.inForce]

theorem gate_case : (caseReg.run gateCalls).cur.cases "X" = some (fun q => if q = "P" then some 1 else none) ∧
    (caseReg.run gateCalls).cur.pats "P" = some { PatReg.empty with
      node := fun m => if m = "C" then some ![1, 0, -5, 0, -2, 0] else if m = "B" then some ![-1, 0, -5, 0, 2, 0] else none } := by
  constructor <;> simp [gateCalls, Machine.run, Machine.step, caseReg, CaseReg.upd, PatReg.empty]

noncomputable def gateX : Problem :=
  ⟨(blueprint.run gateCalls).cur, (nodeReg.run gateCalls).cur.names, (restReg.run gateCalls).cur.inForce "X",
    (blueprint.run gateCalls).cur.caseWork (nodeReg.run gateCalls).cur.names (caseReg.run gateCalls).cur
      (fun q => if q = "P" then some 1 else none) ["P"]⟩

theorem gate_poses : Poses gateCalls "X" gateX :=
  ⟨rfl, rfl, rfl, _, _, gate_case.1, ⟨by simp, by intro p; by_cases h : p = "P" <;> simp [h]⟩, rfl⟩

theorem gate_load (v : State) : gateX.load v = -v "B" 0 - 5 * v "B" 2 + 2 * v "B" 4 + (v "C" 0 - 5 * v "C" 2 - 2 * v "C" 4) := by
  have z : ∀ o : Option GivenBeam, (o.elim 0 fun _ => (0:ℝ)) = 0 := by intro o; cases o <;> rfl
  simp [gateX, Blueprint.caseWork, gate_case.2, gate_nodes, gate_beams, Blueprint.patternWork, PatReg.empty, dotProduct, Fin.sum_univ_six, z]
  ring

/-- the other node of each pair -/
def gatePair (n : String) : String :=
  if n = "A" then "D" else if n = "D" then "A" else if n = "B" then "C" else if n = "C" then "B" else n

/-- the other beam of each pair -/
def gateBeam (b : String) : String := if b = "l" then "r" else if b = "r" then "l" else b

theorem gatePair_inv (n : String) : gatePair (gatePair n) = n := by
  unfold gatePair
  by_cases h1 : n = "A"
  · simp [h1]
  · by_cases h2 : n = "D"
    · simp [h2]
    · by_cases h3 : n = "B"
      · simp [h3]
      · by_cases h4 : n = "C" <;> simp [h1, h2, h3, h4]

theorem gate_symmetric : Symmetric ⟨-1, 1, 1⟩ gatePair gateBeam gateX := by
  refine ⟨gatePair_inv, ?_, ?_, ?_, ?_, ?_⟩
  · intro b
    unfold gateBeam
    by_cases h1 : b = "l"
    · simp [h1]
    · by_cases h2 : b = "r" <;> simp [h1, h2]
  · intro n hn
    rw [show gateX.nodes = _ from gate_nodes] at hn ⊢
    simp only [List.mem_cons, List.not_mem_nil, or_false] at hn
    rcases hn with rfl | rfl | rfl | rfl <;> simp [gatePair]
  · intro b g hb
    rw [show gateX.frame = (blueprint.run gateCalls).cur from rfl, gate_frame] at hb
    rw [show gateX.frame = (blueprint.run gateCalls).cur from rfl, gate_frame]
    split at hb
    · next e =>
      subst e
      cases hb
      right
      simp [gateBeam, gatePair, reflect]
    · split at hb
      · next e =>
        subst e
        cases hb
        left
        simp [gateBeam, gatePair, reflect]
      · split at hb
        · next e =>
          subst e
          cases hb
          left
          simp [gateBeam, gatePair, reflect]
        · cases hb
  · intro n r
    unfold Restrained
    rw [show gateX.fix = _ from gate_rest]
    unfold gatePair
    by_cases h1 : n = "A"
    · simp [h1]
    · by_cases h2 : n = "D"
      · simp [h2]
      · by_cases h3 : n = "B"
        · simp [h3]
        · by_cases h4 : n = "C" <;> simp [h1, h2, h3, h4]
  · intro v
    rw [gate_load, gate_load]
    simp [gatePair, flipSix, flipAxial, reflect, six, Spec.trans, Spec.rot]
    ring

theorem gate_positive : gateX.frame.Positive := by
  intro b g hb
  rw [show gateX.frame = (blueprint.run gateCalls).cur from rfl, gate_frame] at hb
  split at hb
  · cases hb; norm_num [GivenSec.Positive, demoSec]
  · split at hb
    · cases hb; norm_num [GivenSec.Positive, demoSec]
    · split at hb
      · cases hb; norm_num [GivenSec.Positive, demoSec]
      · cases hb

theorem gate_grounded : gateX.frame.Grounded gateX.nodes gateX.fix := by
  have hA : Clamped gateX.fix "A" := ⟨fun _ => true, by rw [show gateX.fix = _ from gate_rest]; rfl, fun _ => rfl⟩
  have hD : Clamped gateX.fix "D" := ⟨fun _ => true, by rw [show gateX.fix = _ from gate_rest]; rfl, fun _ => rfl⟩
  have j1 : gateX.frame.Joined "B" "A" := ⟨"l", _, gate_frame "l", Or.inr ⟨rfl, rfl⟩⟩
  have j2 : gateX.frame.Joined "C" "D" := ⟨"r", _, gate_frame "r", Or.inr ⟨rfl, rfl⟩⟩
  intro n hn
  rw [show gateX.nodes = _ from gate_nodes] at hn
  simp only [List.mem_cons, List.not_mem_nil, or_false] at hn
  rcases hn with rfl | rfl | rfl | rfl
  · exact ⟨"A", hA, .refl⟩
  · exact ⟨"A", hA, .single j1⟩
  · exact ⟨"D", hD, .single j2⟩
  · exact ⟨"D", hD, .refl⟩

theorem gate_stable : gateX.frame.Stable gateX.nodes gateX.fix := C69_grounded_stable _ _ _ gate_poses gate_positive gate_grounded

theorem gate_plain : PlainCalls gateCalls := by
  simp [PlainCalls, gateCalls, addedNode, addedPattern, List.filterMap_cons]

theorem gate_reports : ∃ u, Reports idealEnv gateCalls [] "X" u := by
  refine stable_solved idealEnv idealEnv_sound _ (plainFrame_of_calls _ gate_plain) "X" _ gate_poses gate_positive gate_stable ?_ ?_
  · have e : (restReg.run gateCalls).cur.cases "X" = some (fun _ => none) := by
      simp [gateCalls, Machine.run, Machine.step, restReg]
    intro own ho n f hf
    rw [e] at ho
    cases ho
    cases hf
  · refine ⟨"B", by rw [show gateX.nodes = _ from gate_nodes]; simp, 0, ?_⟩
    rw [show gateX.fix = _ from gate_rest]
    simp

/-- the gate is answered; its corners settle by the same amount and move apart by the same amount -/
example : ∃ u, Reports idealEnv gateCalls [] "X" u ∧ u "C" 2 = u "B" 2 ∧ u "C" 0 = - u "B" 0 := by
  obtain ⟨u, hu⟩ := gate_reports
  have h := C137_symmetric idealEnv idealEnv_sound _ _ (plainFrame_of_calls _ gate_plain) "X" _ gate_poses gate_stable ⟨-1, 1, 1⟩
    (by simp [Signs]) gatePair gateBeam gate_symmetric u hu "B" (by rw [show gateX.nodes = _ from gate_nodes]; simp)
  rw [show gatePair "B" = "C" by decide] at h
  refine ⟨u, hu, ?_, ?_⟩
  · rw [h]; simp [flipSix, reflect, six, Spec.trans]
  · rw [h]; simp [flipSix, reflect, six, Spec.trans]

end Hyperstatic
