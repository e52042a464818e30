import Verif.Props.FrameMap

/-
Concrete cases for C75–C78, and the failures of C76 and C77 in general.
-/

namespace Hyperstatic
open Matrix Spec

/-! ### C75 -/

theorem cantilever_stiff (k : ℝ) (p q : V3) (E mu A I2 I3 J : ℝ) (F : Vec 6) (w : Vec 8) (z : Vec 7) :
    (cantileverCalls p q E mu A I2 I3 J F w z).map (stiffCall k) = cantileverCalls p q (k * E) mu A I2 I3 J F w z := rfl

/-- a post of steel and the same post with three times its modulus -/
example : (∃ u, Reports idealEnv (cantileverCalls ⟨0, 0, 0⟩ ⟨0, 0, 3⟩ 200 (3 / 10) 1 2 3 4 ![0, 6, 0, 0, 0, 0] 0 0) [] "X" u) ∧
    ∃ u, Reports idealEnv ((cantileverCalls ⟨0, 0, 0⟩ ⟨0, 0, 3⟩ 200 (3 / 10) 1 2 3 4 ![0, 6, 0, 0, 0, 0] 0 0).map (stiffCall 3)) [] "X" u :=
  ⟨cantilever_demo _ _ _ _ _ _ _ _ _ _ _ acc_col (by norm_num [GivenSec.Positive, cantileverBeam]) (cantilever_cases _ _ _ _ _ _ _ _ _ _ _).1,
    cantilever_stiff _ _ _ _ _ _ _ _ _ _ _ _ ▸
    cantilever_demo _ _ _ _ _ _ _ _ _ _ _ acc_col (by norm_num [GivenSec.Positive, cantileverBeam]) (cantilever_cases _ _ _ _ _ _ _ _ _ _ _).1⟩

/-! ### C76 -/

section
variable (p q : V3) (E mu A I2 I3 J : ℝ) (F : Vec 6)

theorem cantilever_beam_of (h : Acceptable p q) (w : Vec 8) (z : Vec 7) (pat k : String) :
    (cantileverProblem p q E mu A I2 I3 J F w z pat).frame.beam k = if k = "b" then some (cantileverBeam p q E mu A I2 I3 J) else none := by
  by_cases hk : k = "b"
  · rw [if_pos hk, hk]; exact (cantilever_blueprint p q E mu A I2 I3 J F w z h).2
  · rw [if_neg hk]
    have hS : Sane (blueprint.run (cantileverCalls p q E mu A I2 I3 J F w z)).cur _ := sane_run idealEnv _
    by_contra hne
    have := (hS.mem k).mpr (Option.ne_none_iff_isSome.mp hne)
    rw [(cantilever_blueprint p q E mu A I2 I3 J F w z h).1, List.mem_singleton] at this
    exact hk this

theorem cantilever_names (w : Vec 8) (z : Vec 7) (pat : String) : (cantileverProblem p q E mu A I2 I3 J F w z pat).nodes = ["A", "B"] :=
  cantilever_nodes p q E mu A I2 I3 J F w z

theorem obeys_clamp (v : State) : Obeys (fun n => if n = "A" then some (fun _ => true) else none) v ↔ v "A" = 0 := by
  constructor
  · intro h; funext r; exact h "A" (fun _ => true) (if_pos rfl) r rfl
  · intro h n f hf r _
    by_cases hn : n = "A"
    · rw [hn, h]; rfl
    · simp only [if_neg hn] at hf; cases hf

theorem turn_eq_zero {α : ℝ} {a : Vec 6} : six (turn α (Spec.trans a)) (turn α (Spec.rot a)) = 0 ↔ a = 0 := by
  constructor
  · intro h
    have e : ∀ b : V3, turn (-α) (turn α b) = b := by intro b; rw [turn_turn, neg_add_cancel, turn_zero]
    have h1 : turn α (Spec.trans a) = 0 := by
      have := congrArg Spec.trans h
      rw [six_trans] at this
      rw [this]; rfl
    have h2 : turn α (Spec.rot a) = 0 := by
      have := congrArg Spec.rot h
      rw [six_rot] at this
      rw [this]; rfl
    have k1 := e (Spec.trans a)
    have k2 := e (Spec.rot a)
    rw [h1] at k1
    rw [h2] at k2
    rw [← six_eta a, ← k1, ← k2]
    funext i
    fin_cases i <;> simp [six, turn]
  · rintro rfl
    funext i
    fin_cases i <;> simp [six, turn, Spec.trans, Spec.rot]

theorem dot_six (a b : Vec 6) : a ⬝ᵥ b = (Spec.trans a).dot (Spec.trans b) + (Spec.rot a).dot (Spec.rot b) := by
  simp [dotProduct, Fin.sum_univ_six, V3.dot, Spec.trans, Spec.rot]; ring

/-- a cantilever and the same cantilever turned -/
theorem cantilever_turned (α : ℝ) (h : Acceptable p q) (h' : Acceptable (turn α p) (turn α q)) :
    Turned α (cantileverProblem p q E mu A I2 I3 J F 0 0 "P")
      (cantileverProblem (turn α p) (turn α q) E mu A I2 I3 J (six (turn α (Spec.trans F)) (turn α (Spec.rot F))) 0 0 "P") where
  nodes := by rw [cantilever_names, cantilever_names]
  beam := by
    intro b
    rw [cantilever_beam_of _ _ _ _ _ _ _ _ _ h', cantilever_beam_of _ _ _ _ _ _ _ _ _ h]
    by_cases hb : b = "b" <;> simp [hb, turnBeam, cantileverBeam]
  fix := by
    intro v
    simp only [cantileverProblem]
    rw [obeys_clamp, obeys_clamp]
    exact turn_eq_zero
  load := by
    intro v
    rw [(cantilever_load _ _ _ _ _ _ _ _ _ _ _ h' _).1, (cantilever_load _ _ _ _ _ _ _ _ _ _ _ h _).1, dot_six, dot_six]
    unfold turnState
    simp only [six_trans, six_rot, turn_dot]

end

/-- a horizontal beam turned by a quarter turn: the hypotheses of the partial theorem hold -/
example : Turned (Real.pi / 2) (cantileverProblem ⟨0, 0, 0⟩ ⟨4, 0, 0⟩ 200 (3 / 10) 1 2 3 4 ![0, 6, 1, 0, 0, 0] 0 0 "P")
      (cantileverProblem (turn (Real.pi / 2) ⟨0, 0, 0⟩) (turn (Real.pi / 2) ⟨4, 0, 0⟩) 200 (3 / 10) 1 2 3 4
        (six (turn (Real.pi / 2) (Spec.trans ![0, 6, 1, 0, 0, 0])) (turn (Real.pi / 2) (Spec.rot ![0, 6, 1, 0, 0, 0]))) 0 0 "P") ∧
    ¬ Upright ⟨0, 0, 0⟩ ⟨4, 0, 0⟩ ∧ ¬ Upright (turn (Real.pi / 2) ⟨0, 0, 0⟩) (turn (Real.pi / 2) ⟨4, 0, 0⟩) ∧
    (∃ u, Reports idealEnv (cantileverCalls ⟨0, 0, 0⟩ ⟨4, 0, 0⟩ 200 (3 / 10) 1 2 3 4 ![0, 6, 1, 0, 0, 0] 0 0) [] "X" u) ∧
    ∃ u, Reports idealEnv (cantileverCalls (turn (Real.pi / 2) ⟨0, 0, 0⟩) (turn (Real.pi / 2) ⟨4, 0, 0⟩) 200 (3 / 10) 1 2 3 4
        (six (turn (Real.pi / 2) (Spec.trans ![0, 6, 1, 0, 0, 0])) (turn (Real.pi / 2) (Spec.rot ![0, 6, 1, 0, 0, 0]))) 0 0) [] "X" u := by
  have h : Acceptable ⟨0, 0, 0⟩ ⟨4, 0, 0⟩ := by right; norm_num [absTol]
  have h' : Acceptable (turn (Real.pi / 2) ⟨0, 0, 0⟩) (turn (Real.pi / 2) ⟨4, 0, 0⟩) := by right; norm_num [absTol, turn]
  exact ⟨cantilever_turned _ _ _ _ _ _ _ _ _ _ h h', by norm_num [Upright, absTol], by norm_num [Upright, absTol, turn],
    cantilever_demo _ _ _ _ _ _ _ _ _ _ _ h (by norm_num [GivenSec.Positive, cantileverBeam]) (cantilever_cases _ _ _ _ _ _ _ _ _ _ _).1,
    cantilever_demo _ _ _ _ _ _ _ _ _ _ _ h' (by norm_num [GivenSec.Positive, cantileverBeam]) (cantilever_cases _ _ _ _ _ _ _ _ _ _ _).1⟩

theorem post_len : V3.norm (⟨0, 0, 3⟩ - ⟨0, 0, 0⟩ : V3) = 3 := by
  unfold V3.norm
  simp only [V3.sub_def]
  rw [show ((0:ℝ) - 0) * (0 - 0) + (0 - 0) * (0 - 0) + (3 - 0) * (3 - 0) = 3 ^ 2 by norm_num]
  exact Real.sqrt_sq (by norm_num)

theorem cantilever_positive (p q : V3) (E mu A I2 I3 J : ℝ) (F : Vec 6) (h : Acceptable p q) (hp : (cantileverBeam p q E mu A I2 I3 J).sec.Positive) :
    (cantileverProblem p q E mu A I2 I3 J F 0 0 "P").frame.Positive := by
  intro b g hg
  rw [cantilever_beam_of _ _ _ _ _ _ _ _ _ h] at hg
  by_cases hb : b = "b"
  · rw [if_pos hb] at hg; cases hg; exact hp
  · rw [if_neg hb] at hg; cases hg

theorem cantilever_stable (p q : V3) (E mu A I2 I3 J : ℝ) (F : Vec 6) (h : Acceptable p q) (hp : (cantileverBeam p q E mu A I2 I3 J).sec.Positive) :
    (cantileverProblem p q E mu A I2 I3 J F 0 0 "P").frame.Stable (cantileverProblem p q E mu A I2 I3 J F 0 0 "P").nodes
      (cantileverProblem p q E mu A I2 I3 J F 0 0 "P").fix := by
  have hC := cantilever_is p q E mu A I2 I3 J F 0 0 h "P"
  apply grounded_stable (sane_run idealEnv _) (cantilever_positive p q E mu A I2 I3 J F h hp)
  intro n hn
  refine ⟨"A", hC.clamped, ?_⟩
  rcases (hC.nodes n).mp hn with rfl | rfl
  · exact Relation.ReflTransGen.refl
  · exact Relation.ReflTransGen.single ⟨"b", _, (cantilever_blueprint p q E mu A I2 I3 J F 0 0 h).2, Or.inr ⟨rfl, rfl⟩⟩

/-- the deflection of a vertical post under a horizontal force at its top -/
theorem post_moves (F : Vec 6) (hF : F 3 = 0 ∧ F 4 = 0 ∧ F 5 = 0) (u : State)
    (hu : Reports idealEnv (cantileverCalls ⟨0, 0, 0⟩ ⟨0, 0, 3⟩ 200 (3 / 10) 1 2 3 4 F 0 0) [] "X" u) :
    u "B" 0 = F 0 * 3 ^ 3 / (3 * (200 * 3)) ∧ u "B" 1 = F 1 * 3 ^ 3 / (3 * (200 * 2)) := by
  have hacc : Acceptable ⟨0, 0, 0⟩ ⟨0, 0, 3⟩ := acc_col
  obtain ⟨_, h, _⟩ := C74_tip_load idealEnv idealEnv_sound _ [] (plainFrame_of_calls _ (cantilever_plain _ _ _ _ _ _ _ _ _ _ _)) "X" _
    (cantilever_poses _ _ _ _ _ _ _ _ _ _ _ (cantilever_cases _ _ _ _ _ _ _ _ _ _ _).1) _
    (cantilever_is _ _ _ _ _ _ _ _ _ _ _ hacc "P") (by norm_num [GivenSec.Positive, cantileverBeam]) u hu _
    (fun v => (cantilever_load _ _ _ _ _ _ _ _ _ _ _ hacc v).1) _ rfl _ _ _ _ _ _ rfl rfl rfl rfl rfl rfl _ _ _ _ rfl rfl rfl rfl
  have hy := congrArg V3.y h
  have hz := congrArg V3.z h
  simp only [cantileverBeam, post_frame, post_len] at hy hz
  obtain ⟨f3, f4, f5⟩ := hF
  constructor
  · simpa [V3.dot, Spec.trans, Spec.rot, f3, f4, f5] using hy
  · simpa [V3.dot, Spec.trans, Spec.rot, f3, f4, f5] using hz

/-- A vertical post keeps its local axes when the model is turned, so a section with different second moments ends up in another
direction. -/
theorem C76_false : ¬ C76_claim := by
  intro hall
  have t0 : turn (Real.pi / 2) ⟨0, 0, 0⟩ = ⟨0, 0, 0⟩ := by ext <;> simp [turn]
  have t3 : turn (Real.pi / 2) ⟨0, 0, 3⟩ = ⟨0, 0, 3⟩ := by ext <;> simp [turn]
  have hp : (cantileverBeam ⟨0, 0, 0⟩ ⟨0, 0, 3⟩ 200 (3 / 10) 1 2 3 4).sec.Positive := by norm_num [GivenSec.Positive, cantileverBeam]
  have hT := cantilever_turned ⟨0, 0, 0⟩ ⟨0, 0, 3⟩ 200 (3 / 10) 1 2 3 4 ![0, 6, 0, 0, 0, 0] (Real.pi / 2) acc_col (by rw [t0, t3]; exact acc_col)
  rw [t0, t3] at hT
  obtain ⟨u, hu⟩ := cantilever_demo ⟨0, 0, 0⟩ ⟨0, 0, 3⟩ 200 (3 / 10) 1 2 3 4 ![0, 6, 0, 0, 0, 0] 0 0 acc_col hp (cantilever_cases _ _ _ _ _ _ _ _ _ _ _).1
  obtain ⟨u', hu'⟩ := cantilever_demo ⟨0, 0, 0⟩ ⟨0, 0, 3⟩ 200 (3 / 10) 1 2 3 4
    (six (turn (Real.pi / 2) (Spec.trans ![0, 6, 0, 0, 0, 0])) (turn (Real.pi / 2) (Spec.rot ![0, 6, 0, 0, 0, 0]))) 0 0 acc_col hp
    (cantilever_cases _ _ _ _ _ _ _ _ _ _ _).1
  have h := hall idealEnv idealEnv_sound _ _ [] [] (plainFrame_of_calls _ (cantilever_plain _ _ _ _ _ _ _ _ _ _ _))
    (plainFrame_of_calls _ (cantilever_plain _ _ _ _ _ _ _ _ _ _ _)) "X" "X" _ _
    (cantilever_poses _ _ _ _ _ _ _ _ _ _ _ (cantilever_cases _ _ _ _ _ _ _ _ _ _ _).1)
    (cantilever_poses _ _ _ _ _ _ _ _ _ _ _ (cantilever_cases _ _ _ _ _ _ _ _ _ _ _).1)
    (cantilever_positive _ _ _ _ _ _ _ _ _ acc_col hp) (cantilever_stable _ _ _ _ _ _ _ _ _ acc_col hp) _ hT u u' hu hu' "B"
    (((cantilever_is _ _ _ _ _ _ _ _ _ _ _ acc_col "P").nodes "B").mpr (Or.inr rfl))
  have h0 := congrFun h 0
  obtain ⟨_, k1⟩ := post_moves _ (by simp) u hu
  obtain ⟨k2, _⟩ := post_moves _ (by simp [six, turn, Spec.rot]) u' hu'
  have e : turnState (Real.pi / 2) u "B" 0 = - u "B" 1 := by
    simp [turnState, six, turn, Spec.trans]
  rw [e, k1, k2] at h0
  norm_num [six, turn, Spec.trans] at h0

end Hyperstatic
