import Verif.Lemmas.World
import Verif.Props.Element
import Mathlib.LinearAlgebra.FiniteDimensional.Basic

/-
A concrete structure for the examples beside the theorems: a cantilever from "A" (clamped) to "B" with a load at "B".
-/

namespace Hyperstatic
open Matrix Spec

/-- an environment with an exact linear solver -/
noncomputable def idealEnv : Env where
  triaK := fun _ => 0
  quadK := fun _ => 0
  spsolve := fun _ A b => open Classical in if h : ∃ x, A *ᵥ x = b then .ok h.choose else .error .exception

theorem idealEnv_sound : idealEnv.SolverSound := by
  intro n A b _ hinj
  have hi : Function.Injective (Matrix.mulVecLin A) := by
    rw [← LinearMap.ker_eq_bot, LinearMap.ker_eq_bot']
    intro v hv
    exact hinj v (by simpa using hv)
  have hs := LinearMap.injective_iff_surjective.mp hi
  obtain ⟨x, hx⟩ := hs b
  have hex : ∃ x, A *ᵥ x = b := ⟨x, by simpa using hx⟩
  refine ⟨hex.choose, ?_, hex.choose_spec⟩
  unfold idealEnv
  simp only [dif_pos hex]

def demoCalls : List Call :=
  [.addNode "A" 0 0 0, .addNode "B" 1 2 3, .addSimpleBeam "b" "A" "B" 1 0 1 1 1 1 1, .setNodalRestraint "A" (fun _ => true),
    .addLoadpattern "P", .setNodalLoad "P" "B" ![1, 2, 3, 4, 5, 6], .addStaticCase "C", .addCasePattern "C" "P" 2]

def demoBeam (c : Csys) : BeamElm :=
  ⟨"b", "A", ⟨0, 0, 0⟩, "B", ⟨1, 2, 3⟩, c, fun _ => false, .simple 1 0 1 1 1 1 1⟩

def demoModel (c : Csys) : FeModel :=
  { FeModel.empty with
    nodes := [("A", stdNode "A" 0 0 0), ("B", stdNode "B" 1 2 3)]
    restraints := [("A", fun _ => true)]
    beams := [("b", demoBeam c)]
    hidNode := [("A", 0), ("B", 1)]
    hidBeam := [("b", 0)] }

def demoCase : LoadCase := ⟨"C", .static, [("P", 0)], [("P", 2)], [("P", [1, 1])], []⟩

def demoApi (c : Csys) : Api where
  model := demoModel c
  loadcases := [("C", demoCase)]
  loadpatterns := [("P", 0)]
  heap := [⟨"P", [("B", ![1, 2, 3, 4, 5, 6])], [], [], []⟩]

theorem step_addSimpleBeam_of (env : Env) (w : World) (name start stop : String) (E mu A I2 I3 J rho : ℝ) (n0 n1 : Node)
    (b : BeamElm) (h0 : w.api.model.nodes.get? start = some n0) (h1 : w.api.model.nodes.get? stop = some n1)
    (hb : BeamElm.mk? name n0 n1 (.simple E mu A I2 I3 J rho) = .ok b) :
    w.step env (.addSimpleBeam name start stop E mu A I2 I3 J rho) = ({ w with api := withBeam w.api name b }, true) :=
  step_of_edit env _ _ _ rfl (by exact ⟨n0, n1, b, h0, h1, hb, rfl⟩)

theorem step_setNodalLoad_of (env : Env) (w : World) (pattern node : String) (f : Vec 6) (r : PatRef) (p : LoadPattern)
    (h1 : w.api.loadpatterns.get? pattern = some r) (h2 : w.api.heap[r]? = some p) :
    w.step env (.setNodalLoad pattern node f) =
      ({ w with api := { w.api with heap := w.api.heap.set r (p.setNodalLoad node f) } }, true) :=
  step_of_edit env _ _ _ rfl (by exact ⟨r, p, h1, h2, rfl⟩)

theorem step_addCasePattern_of (env : Env) (w : World) (case pattern : String) (factor : ℝ) (lc : LoadCase) (r : PatRef)
    (p : LoadPattern) (h0 : w.api.loadcases.get? case = some lc) (h1 : w.api.loadpatterns.get? pattern = some r)
    (h2 : w.api.heap[r]? = some p) :
    w.step env (.addCasePattern case pattern factor) =
      ({ w with api := { w.api with loadcases := w.api.loadcases.set case (lc.addPattern p.name r factor) } }, true) :=
  step_of_edit env _ _ _ rfl (by exact ⟨lc, r, p, h0, h1, h2, rfl⟩)

theorem demo_csys : ∃ c, lineCsys ⟨0, 0, 0⟩ ⟨1, 2, 3⟩ = .ok c := by
  cases h : lineCsys ⟨0, 0, 0⟩ ⟨1, 2, 3⟩ with
  | ok c => exact ⟨c, rfl⟩
  | error e =>
    have h2 := (lineCsys_error_iff ⟨0, 0, 0⟩ ⟨1, 2, 3⟩).mp ⟨e, h⟩
    norm_num [absTol] at h2

theorem demo_run (env : Env) : ∃ c, lineCsys ⟨0, 0, 0⟩ ⟨1, 2, 3⟩ = .ok c ∧
    World.init.run env demoCalls = ⟨demoApi c, []⟩ := by
  obtain ⟨c, hc⟩ := demo_csys
  refine ⟨c, hc, ?_⟩
  unfold demoCalls
  have hb : BeamElm.mk? "b" (stdNode "A" 0 0 0) (stdNode "B" 1 2 3) (.simple 1 0 1 1 1 1 1) = .ok (demoBeam c) := by
    unfold BeamElm.mk?
    have e1 : (stdNode "A" 0 0 0).loc = ⟨0, 0, 0⟩ := rfl
    have e2 : (stdNode "B" 1 2 3).loc = ⟨1, 2, 3⟩ := rfl
    rw [e1, e2, hc]
    rfl
  rw [run_cons, step_addNode, run_cons, step_addNode, run_cons, step_addSimpleBeam_of env _ _ _ _ _ _ _ _ _ _ _ _ _ _ rfl rfl hb,
    run_cons, step_setNodalRestraint, run_cons, step_addLoadpattern, run_cons,
    step_setNodalLoad_of env _ _ _ _ 0 (LoadPattern.new "P") rfl rfl, run_cons, step_addStaticCase, run_cons,
    step_addCasePattern_of env _ _ _ _ (LoadCase.new "C" .static) 0 _ rfl rfl rfl, run_nil]
  rfl

theorem demo_noReadd (env : Env) : NoReadd env World.init demoCalls := by
  unfold demoCalls NoReadd
  simp only [AllCalls, and_true]
  refine ⟨?_, ?_, ?_, ?_, ?_, ?_, ?_, ?_⟩
  · intro n x y z _; simp [World.getNodeNames, World.init, Api.init, FeModel.empty, Dict.keys]
  · intro n x y z h
    cases h
    rw [step_addNode]
    simp [World.getNodeNames, World.init, Api.init, FeModel.empty, Dict.keys, Dict.set]
  all_goals (intro n x y z h; cases h)

/-- rigidity of a clamped beam -/
theorem ends_zero {c : Csys} (hc : RightHanded c) {ui uj : Vec 6} (h : localEnds c ui uj = 0) : ui = 0 ∧ uj = 0 := by
  have key : lineT c *ᵥ (Fin.append ui uj : Vec 12) = localEnds c ui uj := by
    rw [lineT_mulVec]
    unfold localEnds
    simp [part3, Spec.trans, Spec.rot, Fin.append, Fin.addCases]
  have h0 : (Fin.append ui uj : Vec 12) = 0 := by
    have : (lineT c)ᵀ *ᵥ (lineT c *ᵥ (Fin.append ui uj : Vec 12)) = 0 := by rw [key, h, Matrix.mulVec_zero]
    rwa [Matrix.mulVec_mulVec, lineT_orth' hc, Matrix.one_mulVec] at this
  constructor
  · funext k
    have := congrFun h0 (Fin.castAdd 6 k)
    simpa using this
  · funext k
    have := congrFun h0 (Fin.natAdd 6 k)
    rwa [Fin.append_right] at this

theorem demo_stable (env : Env) {c : Csys} (hc : lineCsys ⟨0, 0, 0⟩ ⟨1, 2, 3⟩ = .ok c) :
    Stable env (demoModel c) (demoModel c).restraints := by
  intro u hu h0 n hn
  have hA : u "A" = 0 := by
    funext r
    exact hu "A" (fun _ => true) rfl r rfl
  obtain ⟨hr, hl, _⟩ := lineCsys_ok hc
  have hw : beamWork (constsOf (demoBeam c).prop) (demoBeam c).length (beamEnds (demoBeam c) u) (beamEnds (demoBeam c) u) = 0 := by
    have : internalWork env (demoModel c) u u = beamInternal (demoBeam c) u u := by
      simp [internalWork, demoModel, FeModel.empty]
    rw [← h0, this]; rfl
  have hlen : 0 < (demoBeam c).length := hl
  rw [← beamK_bilin _ hlen.ne'] at hw
  have hrig := ((C30_rigid_modes (constsOf (demoBeam c).prop) _ hlen (by norm_num [demoBeam, constsOf])
    (by norm_num [demoBeam, constsOf]) (by norm_num [demoBeam, constsOf]) (by norm_num [demoBeam, constsOf])
    (beamEnds (demoBeam c) u)).1).mp hw
  have hz : ∀ k : Fin 12, k.val < 6 → beamEnds (demoBeam c) u k = 0 := by
    intro k hk
    have e : u (demoBeam c).startName = 0 := hA
    unfold beamEnds localEnds
    rw [e]
    fin_cases k <;> first | (exact absurd hk (by decide)) | simp [Spec.trans, Spec.rot, V3.dot]
  obtain ⟨t, ω, h0, h1, h2, h3, h4, h5, h6, h7, h8, h9, h10, h11⟩ := hrig
  rw [hz 0 (by decide)] at h0
  rw [hz 1 (by decide)] at h1
  rw [hz 2 (by decide)] at h2
  rw [hz 3 (by decide)] at h3
  rw [hz 4 (by decide)] at h4
  rw [hz 5 (by decide)] at h5
  have hends : beamEnds (demoBeam c) u = 0 := by
    funext k
    by_cases hk : k.val < 6
    · exact hz k hk
    · simp only [V3.add_def, V3.cross, ← h0, ← h1, ← h2, ← h3, ← h4, ← h5, zero_mul, sub_zero, add_zero, zero_add, mul_zero] at h6 h7 h8 h9 h10 h11
      fin_cases k <;> first | (exact absurd (by decide) hk) | (simp only [Pi.zero_apply]; assumption)
  have hB := (ends_zero hr hends).2
  have hn : n = "A" ∨ n = "B" := by simpa [demoModel, Dict.keys] using hn
  rcases hn with rfl | rfl
  · exact hA
  · exact hB

theorem demo_unambiguous (c : Csys) : Unambiguous (demoModel c) demoCase := Or.inl rfl
theorem demo_shells (env : Env) (c : Csys) : ShellsSymm env (demoModel c) := by
  intro s se h; simp [demoModel, FeModel.empty] at h

/-! the same structure defined in another order -/

def demoCalls' : List Call :=
  [.addNode "B" 1 2 3, .addLoadpattern "P", .addStaticCase "C", .addCasePattern "C" "P" 2, .addNode "A" 0 0 0,
    .setNodalRestraint "A" (fun _ => true), .setNodalLoad "P" "B" ![1, 2, 3, 4, 5, 6], .addSimpleBeam "b" "A" "B" 1 0 1 1 1 1 1]

def demoApi' (c : Csys) : Api where
  model := { demoModel c with
    nodes := [("B", stdNode "B" 1 2 3), ("A", stdNode "A" 0 0 0)]
    hidNode := [("B", 0), ("A", 1)] }
  loadcases := [("C", demoCase)]
  loadpatterns := [("P", 0)]
  heap := [⟨"P", [("B", ![1, 2, 3, 4, 5, 6])], [], [], []⟩]

theorem demo_mk {c : Csys} (hc : lineCsys ⟨0, 0, 0⟩ ⟨1, 2, 3⟩ = .ok c) :
    BeamElm.mk? "b" (stdNode "A" 0 0 0) (stdNode "B" 1 2 3) (.simple 1 0 1 1 1 1 1) = .ok (demoBeam c) := by
  unfold BeamElm.mk?
  have e1 : (stdNode "A" 0 0 0).loc = ⟨0, 0, 0⟩ := rfl
  have e2 : (stdNode "B" 1 2 3).loc = ⟨1, 2, 3⟩ := rfl
  rw [e1, e2, hc]
  rfl

theorem demo_run' (env : Env) {c : Csys} (hc : lineCsys ⟨0, 0, 0⟩ ⟨1, 2, 3⟩ = .ok c) :
    World.init.run env demoCalls' = ⟨demoApi' c, []⟩ := by
  unfold demoCalls'
  rw [run_cons, step_addNode, run_cons, step_addLoadpattern, run_cons, step_addStaticCase, run_cons,
    step_addCasePattern_of env _ _ _ _ (LoadCase.new "C" .static) 0 _ rfl rfl rfl, run_cons, step_addNode, run_cons,
    step_setNodalRestraint, run_cons, step_setNodalLoad_of env _ _ _ _ 0 (LoadPattern.new "P") rfl rfl, run_cons,
    step_addSimpleBeam_of env _ _ _ _ _ _ _ _ _ _ _ _ _ _ rfl rfl (demo_mk hc), run_nil]
  rfl

theorem demo_noReadd' (env : Env) : NoReadd env World.init demoCalls' := by
  obtain ⟨c, hc⟩ := demo_csys
  unfold demoCalls' NoReadd
  simp only [AllCalls, and_true]
  refine ⟨?_, ?_, ?_, ?_, ?_, ?_, ?_, ?_⟩
  · intro n x y z _; simp [World.getNodeNames, World.init, Api.init, FeModel.empty, Dict.keys]
  all_goals try (intro n x y z h; cases h; done)
  intro n x y z h
  cases h
  rw [step_addNode, step_addLoadpattern, step_addStaticCase,
    step_addCasePattern_of env _ _ _ _ (LoadCase.new "C" .static) 0 _ rfl rfl rfl]
  simp [World.getNodeNames, World.init, Api.init, FeModel.empty, Dict.keys, Dict.set]

theorem demo_same (c : Csys) : SameStructure (demoApi c) (demoApi' c) "C" demoCase demoCase where
  nodes := by
    intro n
    simp only [demoApi, demoApi', demoModel, Dict.keys, List.map_cons, List.map_nil, List.mem_cons, List.not_mem_nil, or_false]
    exact or_comm
  beams := fun _ => rfl
  shells := fun _ => rfl
  restraints := fun _ _ => rfl
  case := rfl
  case' := rfl
  caseRestraints := fun _ => rfl
  factors := fun _ _ q h => ⟨q, h, fun _ => rfl, fun _ => rfl, fun _ => rfl⟩
  factors' := fun _ _ q h => ⟨q, h, fun _ => rfl, fun _ => rfl, fun _ => rfl⟩

/-! a case with two patterns, and a case for each of them -/

def demo2Calls : List Call := demoCalls ++
  [.addLoadpattern "Q", .setBeamLoadDistributed "Q" "b" 1 1 2 3 0 0 0 0, .addCasePattern "C" "Q" 3,
    .addStaticCase "CP", .addCasePattern "CP" "P" 1, .addStaticCase "CQ", .addCasePattern "CQ" "Q" 1]

def demo2Case : LoadCase := ⟨"C", .static, [("P", 0), ("Q", 1)], [("P", 2), ("Q", 3)], [("P", [1, 1]), ("Q", [1, 1])], []⟩
def demo2CaseP : LoadCase := ⟨"CP", .static, [("P", 0)], [("P", 1)], [("P", [1, 1])], []⟩
def demo2CaseQ : LoadCase := ⟨"CQ", .static, [("Q", 1)], [("Q", 1)], [("Q", [1, 1])], []⟩

def demo2Api (c : Csys) : Api where
  model := demoModel c
  loadcases := [("C", demo2Case), ("CP", demo2CaseP), ("CQ", demo2CaseQ)]
  loadpatterns := [("P", 0), ("Q", 1)]
  heap := [⟨"P", [("B", ![1, 2, 3, 4, 5, 6])], [], [], []⟩,
    (LoadPattern.new "Q").setBeamLoadDist "b" 1 1 2 3 0 0 0 0]

theorem step_setBeamLoadDistributed_of (env : Env) (w : World) (pattern beam : String) (pi pj qi2 qj2 qi3 qj3 ti tj : ℝ)
    (r : PatRef) (p : LoadPattern)
    (h1 : w.api.loadpatterns.get? pattern = some r) (h2 : w.api.heap[r]? = some p) :
    w.step env (.setBeamLoadDistributed pattern beam pi pj qi2 qj2 qi3 qj3 ti tj) =
      ({ w with api := { w.api with heap := w.api.heap.set r (p.setBeamLoadDist beam pi pj qi2 qj2 qi3 qj3 ti tj) } }, true) :=
  step_of_edit env _ _ _ rfl (by exact ⟨r, p, h1, h2, rfl⟩)

theorem demo2_run (env : Env) : ∃ c, lineCsys ⟨0, 0, 0⟩ ⟨1, 2, 3⟩ = .ok c ∧
    World.init.run env demo2Calls = ⟨demo2Api c, []⟩ := by
  obtain ⟨c, hc, h⟩ := demo_run env
  refine ⟨c, hc, ?_⟩
  unfold demo2Calls
  rw [run_append, h, run_cons, step_addLoadpattern, run_cons,
    step_setBeamLoadDistributed_of env _ _ _ _ _ _ _ _ _ _ _ 1 (LoadPattern.new "Q") rfl rfl, run_cons,
    step_addCasePattern_of env _ _ _ _ demoCase 1 _ rfl rfl rfl, run_cons, step_addStaticCase, run_cons,
    step_addCasePattern_of env _ _ _ _ (LoadCase.new "CP" .static) 0 _ rfl rfl rfl, run_cons, step_addStaticCase, run_cons,
    step_addCasePattern_of env _ _ _ _ (LoadCase.new "CQ" .static) 1 _ rfl rfl rfl, run_nil]
  rfl

theorem allCalls_append {env : Env} {P : World → Call → Prop} {w : World} {cs cs' : List Call} :
    AllCalls env P w (cs ++ cs') ↔ AllCalls env P w cs ∧ AllCalls env P (w.run env cs) cs' := by
  induction cs generalizing w with
  | nil => simp [AllCalls, run_nil]
  | cons c cs ih => simp only [List.cons_append, AllCalls, ih, run_cons, and_assoc]

/-- calls that are not `add_node` can be made freely -/
theorem noReadd_of_no_addNode {env : Env} {w : World} {cs : List Call} (h : ∀ n x y z, Call.addNode n x y z ∉ cs) :
    NoReadd env w cs := by
  unfold NoReadd
  induction cs generalizing w with
  | nil => trivial
  | cons c cs ih =>
    refine ⟨?_, ih (fun n x y z hm => h n x y z (List.mem_cons_of_mem _ hm))⟩
    intro n x y z hc
    subst hc
    exact absurd List.mem_cons_self (h n x y z)

theorem demo2_noReadd (env : Env) : NoReadd env World.init demo2Calls := by
  unfold demo2Calls NoReadd
  rw [allCalls_append]
  refine ⟨demo_noReadd env, noReadd_of_no_addNode ?_⟩
  intro n x y z hm
  simp at hm

end Hyperstatic
