import Verif.Props.SplitDemo
import Verif.Props.TwoSupports

/-
Concrete cases for C104–C108, and the failure of C104 in general.
-/

namespace Hyperstatic
open Matrix Spec

/-- a stable case is answered -/
theorem stable_solved (env : Env) (henv : env.SolverSound) (pre : List Call) (hF : PlainFrame env pre) (c : String) (P : Problem)
    (hD : Poses pre c P) (hpos : P.frame.Positive) (hst : P.frame.Stable P.nodes P.fix)
    (hown : ∀ own, (restReg.run pre).cur.cases c = some own → ∀ n f, own n = some f → n ∈ P.nodes)
    (hfree : ∃ n ∈ P.nodes, ∃ r, ∀ f, P.fix n = some f → f r = false) : ∃ u, Reports env pre [] c u := by
  obtain ⟨g, names, hc, hl, e⟩ := hD.load
  have hmid : ∀ k ∈ ([] : List Call), k ≠ .assemble := by simp
  have hcase : ∃ own, (restReg.run pre).cur.cases c = some own := by
    rw [← restReg_refined env pre]
    rw [← caseReg_refined env pre hF.recreate] at hc
    simp only [absReg, Option.map_eq_some_iff] at hc
    obtain ⟨lc, hlc, _⟩ := hc
    exact ⟨_, by simp only [hlc, Option.map_some]; rfl⟩
  obtain ⟨own, hc'⟩ := hcase
  have hret := C62_succeeds env henv pre [] hF.readd hmid _ _ rfl rfl hF.shells c own hc' P.frame hD.frame P.nodes hD.nodes P.fix hD.fix
    hst (fun b k hk => by have := (hpos b k hk).2.1; linarith) (hown own hc') hfree
  obtain ⟨u, h1, h2, _, h4⟩ := C62_end_to_end env henv pre [] hF.readd hF.recreate hmid _ _ rfl rfl hF.shells c g hc P.frame hD.frame
    P.nodes hD.nodes P.fix hD.fix hst hret
  exact ⟨u, ⟨hmid, hret, fun n hn => h1 n (by rw [hD.nodes]; exact hn)⟩⟩

/-! ### C104 -/

theorem cantilever_units (l f : ℝ) (p q : V3) (E mu A I2 I3 J : ℝ) (F : Vec 6) :
    (cantileverCalls p q E mu A I2 I3 J F 0 0).map (unitCall l f) =
      cantileverCalls (l • p) (l • q) (f / l ^ 2 * E) mu (l ^ 2 * A) (l ^ 4 * I2) (l ^ 4 * I3) (l ^ 4 * J) (unitForce l f F) 0 0 := by
  simp [cantileverCalls, unitCall]

/-- the given points of a cantilever -/
theorem cantilever_given (p q : V3) (E mu A I2 I3 J : ℝ) (F : Vec 6) (r : V3) (h : r ∈ givenPoints (cantileverCalls p q E mu A I2 I3 J F 0 0)) :
    r = p ∨ r = q := by
  obtain ⟨n, hn⟩ := h
  simp [cantileverCalls] at hn
  rcases hn with ⟨_, h1, h2, h3⟩ | ⟨_, h1, h2, h3⟩
  · left; ext <;> assumption
  · right; ext <;> assumption

/-- a beam in metres and newtons, and the same beam in millimetres and kilonewtons: the tolerance does not matter and both are answered -/
example : ClassifiedAlike 1000 (cantileverCalls ⟨0, 0, 0⟩ ⟨4, 0, 3⟩ 200 (3 / 10) 1 2 3 4 ![0, 6, 1, 0, 0, 0] 0 0) ∧
    (∃ u, Reports idealEnv (cantileverCalls ⟨0, 0, 0⟩ ⟨4, 0, 3⟩ 200 (3 / 10) 1 2 3 4 ![0, 6, 1, 0, 0, 0] 0 0) [] "X" u) ∧
    ∃ u, Reports idealEnv ((cantileverCalls ⟨0, 0, 0⟩ ⟨4, 0, 3⟩ 200 (3 / 10) 1 2 3 4 ![0, 6, 1, 0, 0, 0] 0 0).map (unitCall 1000 (1 / 1000))) [] "X" u := by
  have a1 : Acceptable ⟨0, 0, 0⟩ ⟨4, 0, 3⟩ := by right; norm_num [absTol]
  have a2 : Acceptable ((1000:ℝ) • ⟨0, 0, 0⟩) ((1000:ℝ) • ⟨4, 0, 3⟩) := by right; norm_num [absTol]
  refine ⟨?_, cantilever_demo _ _ _ _ _ _ _ _ _ _ _ a1 (by norm_num [GivenSec.Positive, cantileverBeam]) (cantilever_cases _ _ _ _ _ _ _ _ _ _ _).1, ?_⟩
  · intro r hr r' hr'
    rcases cantilever_given _ _ _ _ _ _ _ _ _ _ hr with rfl | rfl <;> rcases cantilever_given _ _ _ _ _ _ _ _ _ _ hr' with rfl | rfl <;>
      constructor <;> norm_num [Acceptable, Upright, absTol]
  · rw [cantilever_units]
    exact cantilever_demo _ _ _ _ _ _ _ _ _ _ _ a2 (by norm_num [GivenSec.Positive, cantileverBeam]) (cantilever_cases _ _ _ _ _ _ _ _ _ _ _).1

/-- the displacement of the top of a cantilever that leans by less than the tolerance -/
theorem lean_upright_whole {q : V3} {a b L E mu A I2 I3 J F : ℝ} (hL : 0 < L) (h : a ^ 2 + b ^ 2 = 1) (hq : q = L • ⟨0, a, b⟩)
    (hacc : Acceptable ⟨0, 0, 0⟩ q) (hu : Upright ⟨0, 0, 0⟩ q) (hp : (cantileverBeam ⟨0, 0, 0⟩ q E mu A I2 I3 J).sec.Positive) (u : State)
    (hr : Reports idealEnv (cantileverCalls ⟨0, 0, 0⟩ q E mu A I2 I3 J ![F, 0, 0, 0, 0, 0] 0 0) [] "X" u) :
    u "B" 0 = F * L ^ 3 / (3 * (E * I3)) := by
  have hd : q - ⟨0, 0, 0⟩ = L • ⟨0, a, b⟩ := by rw [hq]; ext <;> simp
  have hn : V3.norm (q - ⟨0, 0, 0⟩) = L := by
    rw [hd, V3.norm_smul_pos hL]
    have : V3.norm ⟨0, a, b⟩ = 1 := by
      unfold V3.norm
      simp only
      rw [show (0:ℝ) * 0 + a * a + b * b = 1 by linarith, Real.sqrt_one]
    rw [this, mul_one]
  obtain ⟨_, hc, _⟩ := C74_tip_load idealEnv idealEnv_sound _ [] (plainFrame_of_calls _ (cantilever_plain _ _ _ _ _ _ _ _ _ _ _)) "X" _
    (cantilever_poses _ _ _ _ _ _ _ _ _ _ _ (cantilever_cases _ _ _ _ _ _ _ _ _ _ _).1) _
    (cantilever_is _ _ _ _ _ _ _ _ _ _ _ hacc "P") hp u hr _
    (fun v => (cantilever_load _ _ _ _ _ _ _ _ _ _ _ hacc v).1) _ rfl _ _ _ _ _ _ rfl rfl rfl rfl rfl rfl _ _ _ _ rfl rfl rfl rfl
  have hz := congrArg V3.y hc
  obtain ⟨_, f2, f3⟩ := frame_upright hL h hd hu
  simp only [cantileverBeam, f2, f3, hn] at hz
  simpa [V3.dot, Spec.trans, Spec.rot] using hz

/-- A post of length 3 m that leans by 0.6 nm is vertical for the tolerance in metres and not in millimetres: the axes of its section change
direction with the units. -/
theorem C104_false : ¬ C104_claim := by
  intro hall
  let k : ℝ := 1 / 10 ^ 10
  let a : ℝ := 2 * k / (1 + k ^ 2)
  let b : ℝ := (1 - k ^ 2) / (1 + k ^ 2)
  let L : ℝ := 3 * (1 + k ^ 2)
  have hab : a ^ 2 + b ^ 2 = 1 := by norm_num [a, b, k]
  have ha : 0 < a := by norm_num [a, k]
  have hL : 0 < L := by norm_num [L, k]
  let q : V3 := L • ⟨0, a, b⟩
  have hq1 : (1000:ℝ) • q = (1000 * L) • ⟨0, a, b⟩ := by ext <;> simp [q] <;> ring
  have a1 : Acceptable ⟨0, 0, 0⟩ q := by left; norm_num [absTol, q, L, a, b, k]
  have a2 : Acceptable ⟨0, 0, 0⟩ ((1000:ℝ) • q) := by right; norm_num [absTol, q, L, a, b, k]
  have u1 : Upright ⟨0, 0, 0⟩ q := by norm_num [Upright, absTol, q, L, a, b, k]
  have u2 : ¬ Upright ⟨0, 0, 0⟩ ((1000:ℝ) • q) := by norm_num [Upright, absTol, q, L, a, b, k]
  have hp : (cantileverBeam ⟨0, 0, 0⟩ q 200 (3 / 10) 1 2 3 4).sec.Positive := by norm_num [GivenSec.Positive, cantileverBeam]
  have z0 : (1000:ℝ) • (⟨0, 0, 0⟩ : V3) = ⟨0, 0, 0⟩ := by ext <;> simp
  have hF : unitForce 1000 1 ![6, 0, 0, 0, 0, 0] = ![6, 0, 0, 0, 0, 0] := by
    funext i; fin_cases i <;> simp [unitForce]
  have hm := cantilever_units 1000 1 ⟨0, 0, 0⟩ q 200 (3 / 10) 1 2 3 4 ![6, 0, 0, 0, 0, 0]
  rw [z0, hF] at hm
  have hp' : (cantileverBeam ⟨0, 0, 0⟩ ((1000:ℝ) • q) (1 / 1000 ^ 2 * 200) (3 / 10) (1000 ^ 2 * 1) (1000 ^ 4 * 2) (1000 ^ 4 * 3) (1000 ^ 4 * 4)).sec.Positive := by
    norm_num [GivenSec.Positive, cantileverBeam]
  obtain ⟨u, hu⟩ := cantilever_demo ⟨0, 0, 0⟩ q 200 (3 / 10) 1 2 3 4 ![6, 0, 0, 0, 0, 0] 0 0 a1 hp (cantilever_cases _ _ _ _ _ _ _ _ _ _ _).1
  obtain ⟨u', hu'⟩ := cantilever_demo ⟨0, 0, 0⟩ ((1000:ℝ) • q) (1 / 1000 ^ 2 * 200) (3 / 10) (1000 ^ 2 * 1) (1000 ^ 4 * 2) (1000 ^ 4 * 3) (1000 ^ 4 * 4)
    ![6, 0, 0, 0, 0, 0] 0 0 a2 hp' (cantilever_cases _ _ _ _ _ _ _ _ _ _ _).1
  have h := hall idealEnv idealEnv_sound _ [] [] 1000 1 (by norm_num) (by norm_num)
    (plainFrame_of_calls _ (cantilever_plain _ _ _ _ _ _ _ _ _ _ _))
    (by rw [hm]; exact plainFrame_of_calls _ (cantilever_plain _ _ _ _ _ _ _ _ _ _ _)) "X" _
    (cantilever_poses _ _ _ _ _ _ _ _ _ _ _ (cantilever_cases _ _ _ _ _ _ _ _ _ _ _).1)
    (cantilever_positive _ _ _ _ _ _ _ _ _ a1 hp) (cantilever_stable _ _ _ _ _ _ _ _ _ a1 hp) u u' hu (by rw [hm]; exact hu') "B"
    (((cantilever_is _ _ _ _ _ _ _ _ _ _ _ a1 "P").nodes "B").mpr (Or.inr rfl))
  have h0 := congrFun h 0
  have e1 := lean_upright_whole hL hab rfl a1 u1 hp u hu
  have e2 := lean_whole (by positivity) ha hab hq1 a2 u2 hp' u' hu'
  have e : unitDisp 1000 (u "B") 0 = 1000 * u "B" 0 := rfl
  rw [e, e1, e2] at h0
  norm_num at h0

/-! ### C105 -/

section
variable (p q : V3) (E mu A I2 I3 J : ℝ) (F : Vec 6)

/-- a cantilever and its reflection -/
theorem cantilever_mirrored (m : V3) (hm : Signs m) (h : Acceptable p q) (h' : Acceptable (reflect m p) (reflect m q)) :
    Mirrored m (cantileverProblem p q E mu A I2 I3 J F 0 0 "P")
      (cantileverProblem (reflect m p) (reflect m q) E mu A I2 I3 J (flipSix m F) 0 0 "P") where
  nodes := by rw [cantilever_names, cantilever_names]
  beam := by
    intro b
    rw [cantilever_beam_of _ _ _ _ _ _ _ _ _ h', cantilever_beam_of _ _ _ _ _ _ _ _ _ h]
    by_cases hb : b = "b" <;> simp [hb, flipBeam, cantileverBeam]
  fix := rfl
  load := by
    intro v
    rw [(cantilever_load _ _ _ _ _ _ _ _ _ _ _ h' _).1, (cantilever_load _ _ _ _ _ _ _ _ _ _ _ h _).1]
    exact (C105_loads m hm).1 _ _

end

/-- an inclined beam reflected in the plane x = 0 -/
example : Signs ⟨-1, 1, 1⟩ ∧ Mirrored ⟨-1, 1, 1⟩ (cantileverProblem ⟨0, 0, 0⟩ ⟨4, 1, 3⟩ 200 (3 / 10) 1 2 3 4 ![0, 6, 1, 5, 0, 0] 0 0 "P")
      (cantileverProblem (reflect ⟨-1, 1, 1⟩ ⟨0, 0, 0⟩) (reflect ⟨-1, 1, 1⟩ ⟨4, 1, 3⟩) 200 (3 / 10) 1 2 3 4 (flipSix ⟨-1, 1, 1⟩ ![0, 6, 1, 5, 0, 0]) 0 0 "P") ∧
    (∃ u, Reports idealEnv (cantileverCalls ⟨0, 0, 0⟩ ⟨4, 1, 3⟩ 200 (3 / 10) 1 2 3 4 ![0, 6, 1, 5, 0, 0] 0 0) [] "X" u) ∧
    ∃ u, Reports idealEnv (cantileverCalls (reflect ⟨-1, 1, 1⟩ ⟨0, 0, 0⟩) (reflect ⟨-1, 1, 1⟩ ⟨4, 1, 3⟩) 200 (3 / 10) 1 2 3 4
        (flipSix ⟨-1, 1, 1⟩ ![0, 6, 1, 5, 0, 0]) 0 0) [] "X" u := by
  have hm : Signs ⟨-1, 1, 1⟩ := by norm_num [Signs]
  have h : Acceptable ⟨0, 0, 0⟩ ⟨4, 1, 3⟩ := by right; norm_num [absTol]
  have h' : Acceptable (reflect ⟨-1, 1, 1⟩ ⟨0, 0, 0⟩) (reflect ⟨-1, 1, 1⟩ ⟨4, 1, 3⟩) := by right; norm_num [absTol, reflect]
  exact ⟨hm, cantilever_mirrored _ _ _ _ _ _ _ _ _ _ hm h h',
    cantilever_demo _ _ _ _ _ _ _ _ _ _ _ h (by norm_num [GivenSec.Positive, cantileverBeam]) (cantilever_cases _ _ _ _ _ _ _ _ _ _ _).1,
    cantilever_demo _ _ _ _ _ _ _ _ _ _ _ h' (by norm_num [GivenSec.Positive, cantileverBeam]) (cantilever_cases _ _ _ _ _ _ _ _ _ _ _).1⟩

/-- a post and a beam reflected in three planes: both cases of the load rule occur -/
example : Upright ⟨0, 0, 0⟩ ⟨0, 0, 3⟩ ∧ ¬ Upright ⟨0, 0, 0⟩ ⟨4, 1, 3⟩ ∧ Signs ⟨-1, -1, -1⟩ := by
  refine ⟨?_, ?_, ?_⟩ <;> norm_num [Upright, Signs, absTol]

/-! ### C106 -/

/-- two posts that are not connected -/
noncomputable def twoPosts : List Call :=
  [.addNode "A" 0 0 0, .addNode "B" 0 0 3, .addSimpleBeam "b" "A" "B" 200 (3 / 10) 1 2 3 4 0, .setNodalRestraint "A" (fun _ => true),
    .addNode "C" 5 0 0, .addNode "D" 5 0 4, .addSimpleBeam "d" "C" "D" 100 (1 / 5) 2 2 2 2 0, .setNodalRestraint "C" (fun _ => true),
    .addLoadpattern "P", .setNodalLoad "P" "B" ![0, 6, 0, 0, 0, 0], .setNodalLoad "P" "D" ![7, 0, 0, 0, 0, 0],
    .addStaticCase "X", .addCasePattern "X" "P" 1]

/-- the fixed nodes -/
def twoFix : String → Option Flags := fun n => if n = "C" then some (fun _ => true) else if n = "A" then some (fun _ => true) else none

noncomputable def twoProblem : Problem :=
  ⟨(blueprint.run twoPosts).cur, (nodeReg.run twoPosts).cur.names, twoFix,
    (blueprint.run twoPosts).cur.caseWork (nodeReg.run twoPosts).cur.names (caseReg.run twoPosts).cur (fun k => if k = "P" then some 1 else none) ["P"]⟩

theorem acc_col2 : Acceptable ⟨5, 0, 0⟩ ⟨5, 0, 4⟩ := by left; norm_num [absTol]

theorem two_poses : Poses twoPosts "X" twoProblem := by
  refine ⟨rfl, rfl, ?_, _, _, ?_, ⟨by simp, by intro k; by_cases h : k = "P" <;> simp [h]⟩, rfl⟩
  · simp only [twoProblem, twoPosts, Machine.run, Machine.step, restReg, RestReg.inForce, List.foldl_cons, List.foldl_nil]
    simp
    rfl
  · simp [twoPosts, Machine.run, Machine.step, caseReg, CaseReg.upd]

theorem two_nodes : twoProblem.nodes = ["A", "B", "C", "D"] := by
  simp [twoProblem, twoPosts, Machine.run, Machine.step, nodeReg]

theorem two_beams : twoProblem.frame.beams = ["b", "d"] ∧ ∀ k, twoProblem.frame.beam k =
    if k = "d" then some ⟨"C", "D", ⟨5, 0, 0⟩, ⟨5, 0, 4⟩, ⟨⟨0, 100, 1 / 5⟩, 2, 2, 2, 2⟩⟩ else
    if k = "b" then some (cantileverBeam ⟨0, 0, 0⟩ ⟨0, 0, 3⟩ 200 (3 / 10) 1 2 3 4) else none := by
  constructor
  · simp [twoProblem, twoPosts, Machine.run, Machine.step, blueprint, Blueprint.addBeam, sectionCall, acc_col, acc_col2]
  · intro k
    simp [twoProblem, twoPosts, Machine.run, Machine.step, blueprint, Blueprint.addBeam, sectionCall, acc_col, acc_col2, cantileverBeam]

theorem two_load (v : State) : twoProblem.load v = ![0, 6, 0, 0, 0, 0] ⬝ᵥ v "B" + ![7, 0, 0, 0, 0, 0] ⬝ᵥ v "D" := by
  have hp : (caseReg.run twoPosts).cur.pats "P" = some ⟨fun n => if n = "D" then some ![7, 0, 0, 0, 0, 0] else
      if n = "B" then some ![0, 6, 0, 0, 0, 0] else none, fun _ => none, fun _ => none⟩ := by
    simp [twoPosts, Machine.run, Machine.step, caseReg, CaseReg.upd, PatReg.empty]
  have hb := two_beams
  have hn := two_nodes
  simp only [twoProblem] at hb hn
  simp only [twoProblem, Blueprint.caseWork, Blueprint.patternWork, hn, List.map_cons, List.map_nil, hp, hb.1, hb.2,
    Option.elim_some]
  simp

theorem two_positive : twoProblem.frame.Positive := by
  intro k g hg
  rw [two_beams.2] at hg
  by_cases hd : k = "d"
  · rw [if_pos hd] at hg; cases hg; norm_num [GivenSec.Positive]
  · rw [if_neg hd] at hg
    by_cases hb : k = "b"
    · rw [if_pos hb] at hg; cases hg; norm_num [GivenSec.Positive, cantileverBeam]
    · rw [if_neg hb] at hg; cases hg

theorem two_grounded : twoProblem.frame.Grounded twoProblem.nodes twoProblem.fix := by
  have hA : Clamped twoProblem.fix "A" := ⟨fun _ => true, by simp [twoProblem, twoFix], fun _ => rfl⟩
  have hC : Clamped twoProblem.fix "C" := ⟨fun _ => true, by simp [twoProblem, twoFix], fun _ => rfl⟩
  intro n hn
  rw [two_nodes] at hn
  simp only [List.mem_cons, List.not_mem_nil, or_false] at hn
  rcases hn with rfl | rfl | rfl | rfl
  · exact ⟨"A", hA, Relation.ReflTransGen.refl⟩
  · exact ⟨"A", hA, Relation.ReflTransGen.single ⟨"b", _, (two_beams.2 "b").trans rfl, Or.inr ⟨rfl, rfl⟩⟩⟩
  · exact ⟨"C", hC, Relation.ReflTransGen.refl⟩
  · exact ⟨"C", hC, Relation.ReflTransGen.single ⟨"d", _, (two_beams.2 "d").trans rfl, Or.inr ⟨rfl, rfl⟩⟩⟩

/-- The hypotheses of C106 hold for one post and for two posts. -/
example : Poses twoPosts "X" twoProblem ∧ PlainFrame idealEnv twoPosts ∧ twoProblem.frame.Stable twoProblem.nodes twoProblem.fix ∧
    Beside (cantileverProblem ⟨0, 0, 0⟩ ⟨0, 0, 3⟩ 200 (3 / 10) 1 2 3 4 ![0, 6, 0, 0, 0, 0] 0 0 "P") twoProblem ∧
    ∃ u, Reports idealEnv twoPosts [] "X" u := by
  have hpl : PlainFrame idealEnv twoPosts :=
    plainFrame_of_calls _ (by simp [PlainCalls, twoPosts, addedNode, addedPattern, List.filterMap_cons])
  have hst := grounded_stable (two_poses.sane idealEnv) two_positive two_grounded
  refine ⟨two_poses, hpl, hst, ?_, ?_⟩
  · constructor
    · intro n hn
      rw [cantilever_names] at hn
      rw [two_nodes]
      simp only [List.mem_cons, List.not_mem_nil, or_false] at hn ⊢
      rcases hn with h | h
      · exact Or.inl h
      · exact Or.inr (Or.inl h)
    · intro b g hg
      rw [cantilever_beam_of _ _ _ _ _ _ _ _ _ acc_col] at hg
      by_cases hb : b = "b"
      · rw [if_pos hb] at hg
        rw [two_beams.2, hb]
        exact hg
      · rw [if_neg hb] at hg; cases hg
    · intro b g hg hg'
      rw [cantilever_beam_of _ _ _ _ _ _ _ _ _ acc_col] at hg
      rw [two_beams.2] at hg'
      by_cases hb : b = "b"
      · rw [if_pos hb] at hg; cases hg
      · rw [if_neg hb] at hg'
        by_cases hd : b = "d"
        · rw [if_pos hd] at hg'
          cases hg'
          rw [cantilever_names]
          simp
        · rw [if_neg hd] at hg'; cases hg'
    · intro n hn
      rw [cantilever_names] at hn
      simp only [List.mem_cons, List.not_mem_nil, or_false] at hn
      rcases hn with rfl | rfl <;> simp [twoProblem, twoFix, cantileverProblem]
    · intro v hv
      rw [two_load, (cantilever_load _ _ _ _ _ _ _ _ _ _ _ acc_col _).1, hv "D" (by rw [cantilever_names]; simp)]
      simp
  · refine stable_solved idealEnv idealEnv_sound _ hpl "X" _ two_poses two_positive hst ?_ ⟨"B", by rw [two_nodes]; simp, 0, ?_⟩
    · intro own ho n f hn
      simp only [twoPosts, Machine.run, Machine.step, restReg, List.foldl_cons, List.foldl_nil] at ho
      simp at ho
      subst ho
      cases hn
    · intro f hf
      simp [twoProblem, twoFix] at hf

/-! ### C107 -/

/-- a post with a load at its top and one at its foot -/
noncomputable def footCalls : List Call :=
  [.addNode "A" 0 0 0, .addNode "B" 0 0 3, .addSimpleBeam "b" "A" "B" 200 (3 / 10) 1 2 3 4 0, .setNodalRestraint "A" (fun _ => true),
    .addLoadpattern "P", .setNodalLoad "P" "B" ![0, 6, 0, 0, 0, 0], .setNodalLoad "P" "A" ![5, 0, 0, 0, 0, 1],
    .addStaticCase "X", .addCasePattern "X" "P" 1]

/-- a post loaded in y and guided in x at its top -/
noncomputable def guidedCalls : List Call :=
  [.addNode "A" 0 0 0, .addNode "B" 0 0 3, .addSimpleBeam "b" "A" "B" 200 (3 / 10) 1 2 3 4 0, .setNodalRestraint "A" (fun _ => true),
    .setNodalRestraint "B" (fun r => r == 0), .addLoadpattern "P", .setNodalLoad "P" "B" ![0, 6, 0, 0, 0, 0],
    .addStaticCase "X", .addCasePattern "X" "P" 1]

/-- the problem of case "X" of calls that describe the post, with restraints `t` -/
noncomputable def postProblem (pre : List Call) (t : String → Option Flags) : Problem :=
  ⟨(blueprint.run pre).cur, (nodeReg.run pre).cur.names, t,
    (blueprint.run pre).cur.caseWork (nodeReg.run pre).cur.names (caseReg.run pre).cur (fun k => if k = "P" then some 1 else none) ["P"]⟩

def footFix : String → Option Flags := fun n => if n = "A" then some (fun _ => true) else none
def guidedFix : String → Option Flags := fun n => if n = "B" then some (fun r => r == 0) else if n = "A" then some (fun _ => true) else none

theorem foot_poses : Poses footCalls "X" (postProblem footCalls footFix) ∧ PlainFrame idealEnv footCalls := by
  refine ⟨⟨rfl, rfl, ?_, _, _, ?_, ⟨by simp, by intro k; by_cases h : k = "P" <;> simp [h]⟩, rfl⟩, ?_⟩
  · simp only [postProblem, footCalls, Machine.run, Machine.step, restReg, RestReg.inForce, List.foldl_cons, List.foldl_nil]
    simp
    rfl
  · simp [footCalls, Machine.run, Machine.step, caseReg, CaseReg.upd]
  · exact plainFrame_of_calls _ (by simp [PlainCalls, footCalls, addedNode, addedPattern, List.filterMap_cons])

theorem guided_poses : Poses guidedCalls "X" (postProblem guidedCalls guidedFix) ∧ PlainFrame idealEnv guidedCalls := by
  refine ⟨⟨rfl, rfl, ?_, _, _, ?_, ⟨by simp, by intro k; by_cases h : k = "P" <;> simp [h]⟩, rfl⟩, ?_⟩
  · simp only [postProblem, guidedCalls, Machine.run, Machine.step, restReg, RestReg.inForce, List.foldl_cons, List.foldl_nil]
    simp
    rfl
  · simp [guidedCalls, Machine.run, Machine.step, caseReg, CaseReg.upd]
  · exact plainFrame_of_calls _ (by simp [PlainCalls, guidedCalls, addedNode, addedPattern, List.filterMap_cons])

/-- all of these calls describe the same structure -/
theorem post_same : (blueprint.run footCalls).cur = (cantileverProblem ⟨0, 0, 0⟩ ⟨0, 0, 3⟩ 200 (3 / 10) 1 2 3 4 ![0, 6, 0, 0, 0, 0] 0 0 "P").frame ∧
    (blueprint.run guidedCalls).cur = (cantileverProblem ⟨0, 0, 0⟩ ⟨0, 0, 3⟩ 200 (3 / 10) 1 2 3 4 ![0, 6, 0, 0, 0, 0] 0 0 "P").frame ∧
    (nodeReg.run footCalls).cur.names = ["A", "B"] ∧ (nodeReg.run guidedCalls).cur.names = ["A", "B"] := by
  refine ⟨?_, ?_, ?_, ?_⟩
  · simp [footCalls, cantileverProblem, cantileverCalls, Machine.run, Machine.step, blueprint, sectionCall]
  · simp [guidedCalls, cantileverProblem, cantileverCalls, Machine.run, Machine.step, blueprint, sectionCall]
  · simp [footCalls, Machine.run, Machine.step, nodeReg]
  · simp [guidedCalls, Machine.run, Machine.step, nodeReg]

/-- The hypotheses of both theorems hold for these posts, and both are answered. -/
example : (∃ u, Reports idealEnv (cantileverCalls ⟨0, 0, 0⟩ ⟨0, 0, 3⟩ 200 (3 / 10) 1 2 3 4 ![0, 6, 0, 0, 0, 0] 0 0) [] "X" u ∧
      HeldWhereStill (cantileverProblem ⟨0, 0, 0⟩ ⟨0, 0, 3⟩ 200 (3 / 10) 1 2 3 4 ![0, 6, 0, 0, 0, 0] 0 0 "P") (postProblem guidedCalls guidedFix) u) ∧
    SupportLoaded (cantileverProblem ⟨0, 0, 0⟩ ⟨0, 0, 3⟩ 200 (3 / 10) 1 2 3 4 ![0, 6, 0, 0, 0, 0] 0 0 "P") (postProblem footCalls footFix)
      (fun n => if n = "A" then ![5, 0, 0, 0, 0, 1] else 0) ∧
    (∃ u, Reports idealEnv footCalls [] "X" u) ∧ ∃ u, Reports idealEnv guidedCalls [] "X" u := by
  have hp : (cantileverBeam ⟨0, 0, 0⟩ ⟨0, 0, 3⟩ 200 (3 / 10) 1 2 3 4).sec.Positive := by norm_num [GivenSec.Positive, cantileverBeam]
  have hpos := cantilever_positive ⟨0, 0, 0⟩ ⟨0, 0, 3⟩ 200 (3 / 10) 1 2 3 4 ![0, 6, 0, 0, 0, 0] acc_col hp
  have hst := cantilever_stable ⟨0, 0, 0⟩ ⟨0, 0, 3⟩ 200 (3 / 10) 1 2 3 4 ![0, 6, 0, 0, 0, 0] acc_col hp
  have hl := fun v => (cantilever_load ⟨0, 0, 0⟩ ⟨0, 0, 3⟩ 200 (3 / 10) 1 2 3 4 ![0, 6, 0, 0, 0, 0] 0 0 acc_col v).1
  have hn := cantilever_names ⟨0, 0, 0⟩ ⟨0, 0, 3⟩ 200 (3 / 10) 1 2 3 4 ![0, 6, 0, 0, 0, 0] 0 0 "P"
  have hb := cantilever_beam_of ⟨0, 0, 0⟩ ⟨0, 0, 3⟩ 200 (3 / 10) 1 2 3 4 ![0, 6, 0, 0, 0, 0] acc_col 0 0 "P"
  have hbs := (cantilever_blueprint ⟨0, 0, 0⟩ ⟨0, 0, 3⟩ 200 (3 / 10) 1 2 3 4 ![0, 6, 0, 0, 0, 0] 0 0 acc_col).1
  obtain ⟨s1, s2, s3, s4⟩ := post_same
  have fr1 : (postProblem footCalls footFix).frame = _ := s1
  have fr2 : (postProblem guidedCalls guidedFix).frame = _ := s2
  have n1 : (postProblem footCalls footFix).nodes = _ := s3.trans hn.symm
  have n2 : (postProblem guidedCalls guidedFix).nodes = _ := s4.trans hn.symm
  have hfx : (cantileverProblem ⟨0, 0, 0⟩ ⟨0, 0, 3⟩ 200 (3 / 10) 1 2 3 4 ![0, 6, 0, 0, 0, 0] 0 0 "P").fix = footFix := rfl
  have pat1 : (caseReg.run footCalls).cur.pats "P" = some ⟨fun n => if n = "A" then some ![5, 0, 0, 0, 0, 1] else
      if n = "B" then some ![0, 6, 0, 0, 0, 0] else none, fun _ => none, fun _ => none⟩ := by
    simp [footCalls, Machine.run, Machine.step, caseReg, CaseReg.upd, PatReg.empty]
  have pat2 : (caseReg.run guidedCalls).cur.pats "P" = some ⟨fun n => if n = "B" then some ![0, 6, 0, 0, 0, 0] else none,
      fun _ => none, fun _ => none⟩ := by
    simp [guidedCalls, Machine.run, Machine.step, caseReg, CaseReg.upd, PatReg.empty]
  have l1 : ∀ v, (postProblem footCalls footFix).load v = ![5, 0, 0, 0, 0, 1] ⬝ᵥ v "A" + ![0, 6, 0, 0, 0, 0] ⬝ᵥ v "B" := by
    intro v
    have hbb : (cantileverProblem ⟨0, 0, 0⟩ ⟨0, 0, 3⟩ 200 (3 / 10) 1 2 3 4 ![0, 6, 0, 0, 0, 0] 0 0 "P").frame.beams = ["b"] := hbs
    simp only [postProblem, Blueprint.caseWork, Blueprint.patternWork, s1, s3, List.map_cons, List.map_nil, pat1, Option.elim_some, hb, hbb]
    simp
  have l2 : ∀ v, (postProblem guidedCalls guidedFix).load v = ![0, 6, 0, 0, 0, 0] ⬝ᵥ v "B" := by
    intro v
    have hbb : (cantileverProblem ⟨0, 0, 0⟩ ⟨0, 0, 3⟩ 200 (3 / 10) 1 2 3 4 ![0, 6, 0, 0, 0, 0] 0 0 "P").frame.beams = ["b"] := hbs
    simp only [postProblem, Blueprint.caseWork, Blueprint.patternWork, s2, s4, List.map_cons, List.map_nil, pat2, Option.elim_some, hb, hbb]
    simp
  have keep : ∀ n r, Restrained footFix n r → Restrained guidedFix n r := by
    rintro n r ⟨f, h1, h2⟩
    unfold footFix at h1
    split at h1
    · next h => subst h; exact ⟨fun _ => true, by simp [guidedFix], rfl⟩
    · cases h1
  have weak : ∀ v, Obeys guidedFix v → Obeys footFix v := by
    intro v hv
    rw [obeys_iff] at hv ⊢
    exact fun n r h => hv n r (keep n r h)
  refine ⟨?_, ?_, ?_, ?_⟩
  · obtain ⟨u, hu⟩ := cantilever_demo ⟨0, 0, 0⟩ ⟨0, 0, 3⟩ 200 (3 / 10) 1 2 3 4 ![0, 6, 0, 0, 0, 0] 0 0 acc_col hp (cantilever_cases _ _ _ _ _ _ _ _ _ _ _).1
    refine ⟨u, hu, fr2, n2, keep, ?_, ?_⟩
    · intro n hm r hr
      obtain ⟨f, h1, h2⟩ := hr
      simp only [postProblem, guidedFix] at h1
      split at h1
      · next h =>
        subst h
        cases h1
        have : r = 0 := by simpa using h2
        right
        rw [this, (post_moves _ (by simp) u hu).1]
        simp
      · split at h1
        · next h => left; subst h; exact ⟨fun _ => true, rfl, rfl⟩
        · cases h1
    · funext v; rw [l2, hl]
  · refine ⟨fr1, n1, rfl, ?_, ?_⟩
    · intro n r h
      by_cases hn' : n = "A"
      · subst hn'; exact ⟨fun _ => true, rfl, rfl⟩
      · simp [hn'] at h
    · intro v
      rw [l1, hl, hn]
      simp
      ring
  · refine stable_solved idealEnv idealEnv_sound _ foot_poses.2 "X" _ foot_poses.1 (by rw [fr1]; exact hpos) (by rw [fr1, n1]; exact hst) ?_
      ⟨"B", by rw [n1, hn]; simp, 0, ?_⟩
    · intro own ho n f hn
      simp only [footCalls, Machine.run, Machine.step, restReg, List.foldl_cons, List.foldl_nil] at ho
      simp at ho
      subst ho
      cases hn
    · intro f hf
      simp [postProblem, footFix] at hf
  · refine stable_solved idealEnv idealEnv_sound _ guided_poses.2 "X" _ guided_poses.1 (by rw [fr2]; exact hpos)
      (by rw [fr2, n2]; exact fun v hv h0 => hst v (weak v hv) h0) ?_ ⟨"B", by rw [n2, hn]; simp, 1, ?_⟩
    · intro own ho n f hn
      simp only [guidedCalls, Machine.run, Machine.step, restReg, List.foldl_cons, List.foldl_nil] at ho
      simp at ho
      subst ho
      cases hn
    · intro f hf
      simp [postProblem, guidedFix] at hf
      rw [← hf]
      rfl

/-! ### C108 -/

/-- a beam of 4 m on two supports with a load at 1 m -/
noncomputable def spanCalls : List Call :=
  [.addNode "A" 0 0 0, .addNode "K" 1 0 0, .addNode "B" 4 0 0, .addSimpleBeam "b" "A" "K" 200 (3 / 10) 1 2 3 4 0,
    .addSimpleBeam "d" "K" "B" 200 (3 / 10) 1 2 3 4 0, .setNodalRestraint "A" ![true, true, true, true, false, false],
    .setNodalRestraint "B" ![false, true, true, false, false, false], .addLoadpattern "P", .setNodalLoad "P" "K" ![1, 2, -10, 3, 0, 0],
    .addStaticCase "X", .addCasePattern "X" "P" 1]

def spanFix : String → Option Flags := fun n => if n = "B" then some ![false, true, true, false, false, false] else
  if n = "A" then some ![true, true, true, true, false, false] else none

theorem acc_span : Acceptable ⟨0, 0, 0⟩ ⟨1, 0, 0⟩ ∧ Acceptable ⟨1, 0, 0⟩ ⟨4, 0, 0⟩ := by
  constructor <;> right <;> norm_num [absTol]

theorem span_two : TwoSupports (postProblem spanCalls spanFix) "A" "K" "B" ⟨0, 0, 0⟩ 1 3 ⟨⟨0, 200, 3 / 10⟩, 1, 2, 3, 4⟩ where
  nodes := by simp [postProblem, spanCalls, Machine.run, Machine.step, nodeReg]
  distinct := by simp
  beams := by
    have e1 : (⟨0, 0, 0⟩ : V3) + ⟨1, 0, 0⟩ = ⟨1, 0, 0⟩ := by ext <;> simp
    have e2 : (⟨0, 0, 0⟩ : V3) + ⟨1 + 3, 0, 0⟩ = ⟨4, 0, 0⟩ := by ext <;> norm_num
    refine ⟨"b", "d", ?_, ?_, ?_⟩
    · simp [postProblem, spanCalls, Machine.run, Machine.step, blueprint, Blueprint.addBeam, sectionCall, acc_span]
    · rw [e1]
      simp [postProblem, spanCalls, Machine.run, Machine.step, blueprint, Blueprint.addBeam, sectionCall, acc_span]
    · rw [e1, e2]
      simp [postProblem, spanCalls, Machine.run, Machine.step, blueprint, Blueprint.addBeam, sectionCall, acc_span]
  fix := by
    intro n r
    simp only [Restrained, postProblem, spanFix]
    by_cases hB : n = "B"
    · subst hB
      simp only [if_true]
      fin_cases r <;> simp
    · by_cases hA : n = "A"
      · subst hA
        simp only [if_true]
        fin_cases r <;> simp
      · simp [hA, hB]

/-- The hypotheses of C108 hold for these calls, the case is answered and the deflection under the load is the one of the tables. -/
example : ∃ u, Reports idealEnv spanCalls [] "X" u ∧ u "K" 2 = -10 * 1 ^ 2 * 3 ^ 2 / (3 * (200 * 3) * 4) := by
  have hg : (⟨⟨0, 200, 3 / 10⟩, 1, 2, 3, 4⟩ : GivenSec).Positive := by norm_num [GivenSec.Positive]
  have hD : Poses spanCalls "X" (postProblem spanCalls spanFix) := by
    refine ⟨rfl, rfl, ?_, _, _, ?_, ⟨by simp, by intro k; by_cases h : k = "P" <;> simp [h]⟩, rfl⟩
    · simp only [postProblem, spanCalls, Machine.run, Machine.step, restReg, RestReg.inForce, List.foldl_cons, List.foldl_nil]
      simp
      rfl
    · simp [spanCalls, Machine.run, Machine.step, caseReg, CaseReg.upd]
  have hpl : PlainFrame idealEnv spanCalls :=
    plainFrame_of_calls _ (by simp [PlainCalls, spanCalls, addedNode, addedPattern, List.filterMap_cons])
  have hS := hD.sane idealEnv
  have hst := span_two.stable hS (by norm_num) (by norm_num) hg
  have hn : (postProblem spanCalls spanFix).nodes = ["A", "K", "B"] := span_two.nodes
  have hbm : ∀ b, (postProblem spanCalls spanFix).frame.beam b = if b = "d" then some ⟨"K", "B", ⟨1, 0, 0⟩, ⟨4, 0, 0⟩, ⟨⟨0, 200, 3 / 10⟩, 1, 2, 3, 4⟩⟩ else
      if b = "b" then some ⟨"A", "K", ⟨0, 0, 0⟩, ⟨1, 0, 0⟩, ⟨⟨0, 200, 3 / 10⟩, 1, 2, 3, 4⟩⟩ else none := by
    intro b
    simp [postProblem, spanCalls, Machine.run, Machine.step, blueprint, Blueprint.addBeam, sectionCall, acc_span]
  have hpos : (postProblem spanCalls spanFix).frame.Positive := by
    intro k g h
    rw [hbm] at h
    by_cases hd : k = "d"
    · rw [if_pos hd] at h; cases h; exact hg
    · rw [if_neg hd] at h
      by_cases hb : k = "b"
      · rw [if_pos hb] at h; cases h; exact hg
      · rw [if_neg hb] at h; cases h
  obtain ⟨u, hu⟩ := stable_solved idealEnv idealEnv_sound _ hpl "X" _ hD hpos hst (by
      intro own ho n f hn
      simp only [spanCalls, Machine.run, Machine.step, restReg, List.foldl_cons, List.foldl_nil] at ho
      simp at ho
      subst ho
      cases hn) ⟨"K", by rw [hn]; simp, 0, by intro f hf; simp [postProblem, spanFix] at hf⟩
  refine ⟨u, hu, ?_⟩
  have hload : ∀ v, (postProblem spanCalls spanFix).load v = 1 * v "K" 0 + 2 * v "K" 1 + -10 * v "K" 2 + 3 * v "K" 3 := by
    intro v
    have pat : (caseReg.run spanCalls).cur.pats "P" = some ⟨fun n => if n = "K" then some ![1, 2, -10, 3, 0, 0] else none,
        fun _ => none, fun _ => none⟩ := by
      simp [spanCalls, Machine.run, Machine.step, caseReg, CaseReg.upd, PatReg.empty]
    have hbs : (blueprint.run spanCalls).cur.beams = ["b", "d"] := by
      simp [spanCalls, Machine.run, Machine.step, blueprint, Blueprint.addBeam, sectionCall, acc_span]
    simp only [postProblem] at hn hbm
    simp only [postProblem, Blueprint.caseWork, Blueprint.patternWork, hn, hbs, List.map_cons, List.map_nil, pat, Option.elim_some, hbm]
    simp [dotProduct, Fin.sum_univ_six]
  obtain ⟨_, h, _⟩ := C108_span idealEnv idealEnv_sound spanCalls [] hpl "X" _ hD "A" "K" "B" _ 1 3 _ span_two (by norm_num) (by norm_num) hg u hu 1 2 (-10) 3
    hload _ _ _ _ _ rfl rfl rfl rfl rfl
  rw [h]
  show -10 * (1:ℝ) ^ 2 * 3 ^ 2 / (3 * (200 * 3) * (1 + 3)) = _
  norm_num

end Hyperstatic
