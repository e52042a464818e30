import Mathlib.Analysis.Real.Pi.Bounds
import Verif.Lemmas.Section
import Verif.Lemmas.Demo

/-
C47: section properties match the section's geometry.
-/

namespace Hyperstatic
open Spec

theorem pyDiv_ok {a b : ℝ} (h : b ≠ 0) : pyDiv a b = .ok (a / b) := by simp [pyDiv, h]

theorem describes_exact {s : BeamSection} {S : Set (ℝ × ℝ)} {h b : ℝ} (hA : s.A = area S) (h3 : s.I33 = moment33 S)
    (h2 : s.I22 = moment22 S) (w3 : s.W33 = s.I33 / (h / 2)) (w2 : s.W22 = s.I22 / (b / 2))
    (hp : 0 < s.A ∧ 0 < s.I22 ∧ 0 < s.I33) : Describes s S h b 0 :=
  ⟨by simp [hA], by simp [h3], by simp [h2], w3, w2, hp⟩

/-- relative error of the literal 3.14159 -/
theorem pi5_rel (x : ℝ) (hx : 0 ≤ x) : |pi5 * x - Real.pi * x| ≤ 1 / 10 ^ 6 * (Real.pi * x) := by
  have h1 := Real.pi_gt_d6
  have h2 := Real.pi_lt_d6
  have : pi5 = 3.14159 := by norm_num [pi5]
  rw [this, ← sub_mul, abs_mul, abs_of_nonneg hx, ← mul_assoc]
  apply mul_le_mul_of_nonneg_right _ hx
  rw [abs_le]
  constructor <;> norm_num at h1 h2 ⊢ <;> linarith

/-- Rectangular sections: `add_beam_section_rectangle(name, material, h, b)` succeeds and stores the section of the solid rectangle. -/
theorem C47_rectangle (env : Env) (w : World) (name mat : String) (m : Material) (hm : w.api.model.material.get? mat = some m)
    (h b : ℝ) (hh : 0 < h) (hb : 0 < b) :
    (w.step env (.addBeamSectionRectangle name mat h b)).2 = true ∧
    ∃ s, (w.step env (.addBeamSectionRectangle name mat h b)).1.api.model.beamSection.get? name = some s ∧
      Describes s (rectShape h b) h b 0 := by
  have hp : pi6 ≠ 0 := by norm_num [pi6]
  have e : ∃ s, rectangleSection name m h b = .ok s ∧ Describes s (rectShape h b) h b 0 := by
    unfold rectangleSection
    have n1 : pi6 ^ 5 * h ≠ 0 := by positivity
    have n2 : b / 2 ≠ 0 := by positivity
    have n3 : h / 2 ≠ 0 := by positivity
    simp only [pyDiv_ok hb.ne', pyDiv_ok n1, pyDiv_ok n2, pyDiv_ok n3, Except.bind_ok]
    refine ⟨_, rfl, ?_⟩
    obtain ⟨a1, a2, a3⟩ := rect_values hh.le hb.le
    refine describes_exact ?_ ?_ ?_ rfl rfl ⟨?_, ?_, ?_⟩
    · rw [a1]; simp only; ring
    · rw [a2]
    · rw [a3]
    all_goals simp only; positivity
  obtain ⟨s, hs, hd⟩ := e
  rw [step_of_edit env w (.addBeamSectionRectangle name mat h b) _ rfl (by exact ⟨m, s, hm, hs, rfl⟩)]
  exact ⟨rfl, s, Dict.get?_set_same _ _ _, hd⟩

/-- Box sections. -/
theorem C47_box (env : Env) (w : World) (name mat : String) (m : Material) (hm : w.api.model.material.get? mat = some m)
    (h b tw tf : ℝ) (htw : 0 < tw) (htf : 0 < tf) (hb : 2 * tw < b) (hh : 2 * tf < h) :
    (w.step env (.addBeamSectionBox name mat h b tw tf)).2 = true ∧
    ∃ s, (w.step env (.addBeamSectionBox name mat h b tw tf)).1.api.model.beamSection.get? name = some s ∧
      Describes s (boxShape h b tw tf) h b 0 := by
  have e : ∃ s, boxSection name m h b tw tf = .ok s ∧ Describes s (boxShape h b tw tf) h b 0 := by
    unfold boxSection
    have h1 : 0 < (b - tw) / tf := div_pos (by linarith) htf
    have h2 : 0 < (h - tf) / tw := div_pos (by linarith) htw
    have hb0 : 0 < b := by linarith
    have hh0 : 0 < h := by linarith
    have n1 : 2 * ((b - tw) / tf + (h - tf) / tw) ≠ 0 := by positivity
    have n2 : b / 2 ≠ 0 := by positivity
    have n3 : h / 2 ≠ 0 := by positivity
    simp only [pyDiv_ok htf.ne', pyDiv_ok htw.ne', pyDiv_ok n1, pyDiv_ok n2, pyDiv_ok n3, Except.bind_ok]
    refine ⟨_, rfl, ?_⟩
    obtain ⟨a1, a2, a3⟩ := box_values htw.le htf.le hb.le hh.le
    have k : ∀ p q r : ℕ, 0 < p → 0 < q → (h - 2 * tf) ^ p * (b - 2 * tw) ^ q < h ^ p * b ^ q := by
      intro p q r hp hq
      apply mul_lt_mul''
      · exact pow_lt_pow_left₀ (by linarith) (by linarith) hp.ne'
      · exact pow_lt_pow_left₀ (by linarith) (by linarith) hq.ne'
      · exact pow_nonneg (by linarith) _
      · exact pow_nonneg (by linarith) _
    refine describes_exact ?_ ?_ ?_ rfl rfl ⟨?_, ?_, ?_⟩
    · rw [a1]
    · rw [a2]
    · rw [a3]
    · have := k 1 1 0 (by norm_num) (by norm_num)
      simp only [pow_one] at this ⊢; linarith
    · have := k 1 3 0 (by norm_num) (by norm_num)
      simp only [pow_one] at this ⊢; linarith
    · have := k 3 1 0 (by norm_num) (by norm_num)
      simp only [pow_one] at this ⊢; linarith
  obtain ⟨s, hs, hd⟩ := e
  rw [step_of_edit env w (.addBeamSectionBox name mat h b tw tf) _ rfl (by exact ⟨m, s, hm, hs, rfl⟩)]
  exact ⟨rfl, s, Dict.get?_set_same _ _ _, hd⟩

/-- Solid circular sections, to a relative accuracy of one millionth. -/
theorem C47_circle (env : Env) (w : World) (name mat : String) (m : Material) (hm : w.api.model.material.get? mat = some m)
    (d : ℝ) (hd : 0 < d) :
    (w.step env (.addBeamSectionCircle name mat d)).2 = true ∧
    ∃ s, (w.step env (.addBeamSectionCircle name mat d)).1.api.model.beamSection.get? name = some s ∧
      Describes s (discShape d) d d (1 / 10 ^ 6) := by
  have hp : 0 < pi5 := by norm_num [pi5]
  have e : ∃ s, circleSection name m d = .ok s ∧ Describes s (discShape d) d d (1 / 10 ^ 6) := by
    unfold circleSection
    have n1 : d / 2 ≠ 0 := by positivity
    simp only [pyDiv_ok n1, Except.bind_ok]
    refine ⟨_, rfl, ?_⟩
    obtain ⟨a1, a2, a3⟩ := disc_values hd.le
    refine ⟨?_, ?_, ?_, rfl, rfl, ⟨?_, ?_, ?_⟩⟩
    · have := pi5_rel (d ^ 2 / 4) (by positivity)
      rw [a1]; convert this using 2 <;> ring_nf
    · have := pi5_rel (d ^ 4 / 64) (by positivity)
      rw [a2]; convert this using 2 <;> ring_nf
    · have := pi5_rel (d ^ 4 / 64) (by positivity)
      rw [a3]; convert this using 2 <;> ring_nf
    all_goals simp only; positivity
  obtain ⟨s, hs, hds⟩ := e
  rw [step_of_edit env w (.addBeamSectionCircle name mat d) _ rfl (by exact ⟨m, s, hm, hs, rfl⟩)]
  exact ⟨rfl, s, Dict.get?_set_same _ _ _, hds⟩

/-- Pipe sections: the section class itself (the API does not use it, see C48). -/
theorem C47_pipe (name : String) (m : Material) (d t : ℝ) (ht : 0 < t) (hd : 2 * t < d) :
    ∃ s, pipeSection name m d t = .ok s ∧ Describes s (pipeShape d t) d d (1 / 10 ^ 6) := by
  have hp : 0 < pi5 := by norm_num [pi5]
  have hd0 : 0 < d := by linarith
  unfold pipeSection
  have n1 : d / 2 ≠ 0 := by positivity
  simp only [pyDiv_ok n1, Except.bind_ok]
  refine ⟨_, rfl, ?_⟩
  obtain ⟨a1, a2, a3⟩ := pipe_values ht.le hd.le
  have h2 : 0 < d ^ 2 - (d - 2 * t) ^ 2 := by
    have := pow_lt_pow_left₀ (show d - 2 * t < d by linarith) (by linarith) (n := 2) (by norm_num); linarith
  have h4 : 0 < d ^ 4 - (d - 2 * t) ^ 4 := by
    have := pow_lt_pow_left₀ (show d - 2 * t < d by linarith) (by linarith) (n := 4) (by norm_num); linarith
  refine ⟨?_, ?_, ?_, rfl, rfl, ⟨?_, ?_, ?_⟩⟩
  · have := pi5_rel ((d ^ 2 - (d - 2 * t) ^ 2) / 4) (by positivity)
    rw [a1]; convert this using 2 <;> ring_nf
  · have := pi5_rel ((d ^ 4 - (d - 2 * t) ^ 4) / 64) (by positivity)
    rw [a2]; convert this using 2 <;> ring_nf
  · have := pi5_rel ((d ^ 4 - (d - 2 * t) ^ 4) / 64) (by positivity)
    rw [a3]; convert this using 2 <;> ring_nf
  all_goals simp only; positivity

/-- the part of the property that concerns I sections -/
def C47_claim : Prop :=
  ∀ (env : Env) (w : World) (name mat : String) (m : Material), w.api.model.material.get? mat = some m →
    ∀ h b tw tf : ℝ, 0 < tw → 0 < tf → tw < b → 2 * tf < h →
    ∃ s, (w.step env (.addBeamSectionI name mat h b tw tf)).1.api.model.beamSection.get? name = some s ∧
      Describes s (iShape h b tw tf) h b (1 / 10 ^ 6)

/-- What holds for I sections: the call succeeds, area, strong-axis second moment and moduli are right; the weak-axis second moment is
too large by `tf tw³ / 6` (the web is counted over the full depth). -/
theorem C47_i_partial (env : Env) (w : World) (name mat : String) (m : Material) (hm : w.api.model.material.get? mat = some m)
    (h b tw tf : ℝ) (htw : 0 < tw) (htf : 0 < tf) (hb : tw < b) (hh : 2 * tf < h) :
    (w.step env (.addBeamSectionI name mat h b tw tf)).2 = true ∧
    ∃ s, (w.step env (.addBeamSectionI name mat h b tw tf)).1.api.model.beamSection.get? name = some s ∧
      s.A = area (iShape h b tw tf) ∧ s.I33 = moment33 (iShape h b tw tf) ∧
      s.I22 = moment22 (iShape h b tw tf) + tf * tw ^ 3 / 6 ∧
      s.W33 = s.I33 / (h / 2) ∧ s.W22 = s.I22 / (b / 2) ∧ 0 < s.A ∧ 0 < s.I22 ∧ 0 < s.I33 := by
  have hp : pi6 ≠ 0 := by norm_num [pi6]
  have hb0 : 0 < b := by linarith
  have hh0 : 0 < h := by linarith
  have hk : 0 < h - 2 * tf := by linarith
  have e : ∃ s, iSection name m h b tw tf = .ok s ∧ (s.A = area (iShape h b tw tf) ∧ s.I33 = moment33 (iShape h b tw tf) ∧
      s.I22 = moment22 (iShape h b tw tf) + tf * tw ^ 3 / 6 ∧
      s.W33 = s.I33 / (h / 2) ∧ s.W22 = s.I22 / (b / 2) ∧ 0 < s.A ∧ 0 < s.I22 ∧ 0 < s.I33) := by
    unfold iSection
    have n1 : pi6 ^ 5 * tf ≠ 0 := by positivity
    have n2 : pi6 ^ 5 * tw ≠ 0 := by positivity
    have n3 : b / 2 ≠ 0 := by positivity
    have n4 : h / 2 ≠ 0 := by positivity
    simp only [pyDiv_ok hb0.ne', pyDiv_ok hk.ne', pyDiv_ok n1, pyDiv_ok n2, pyDiv_ok n3, pyDiv_ok n4, Except.bind_ok]
    refine ⟨_, rfl, ?_⟩
    obtain ⟨a1, a2, a3⟩ := i_values htw.le htf.le hb.le hh.le
    rw [a1, a2, a3]
    have k3 : (h - 2 * tf) ^ 3 < h ^ 3 := pow_lt_pow_left₀ (by linarith) (by linarith) (by norm_num)
    refine ⟨rfl, rfl, ?_, rfl, rfl, ?_, ?_, ?_⟩
    · simp only; ring
    · simp only
      have : (b - tw) * (h - 2 * tf) < b * h := mul_lt_mul'' (by linarith) (by linarith) (by linarith) hk.le
      linarith
    · simp only; positivity
    · simp only
      have : (b - tw) * (h - 2 * tf) ^ 3 < b * h ^ 3 := mul_lt_mul'' (by linarith) k3 (by linarith) (by positivity)
      linarith
  obtain ⟨s, hs, hds⟩ := e
  rw [step_of_edit env w (.addBeamSectionI name mat h b tw tf) _ rfl (by exact ⟨m, s, hm, hs, rfl⟩)]
  exact ⟨rfl, s, Dict.get?_set_same _ _ _, hds⟩

/-- a world with a material -/
noncomputable def matWorld (env : Env) : World := World.init.run env [.addIsotropicMaterial "m" 7849 (2 * 10 ^ 11) (3 / 10) 0]

theorem matWorld_get (env : Env) : (matWorld env).api.model.material.get? "m" = some ⟨"m", 7849, 2 * 10 ^ 11, 3 / 10, 0⟩ := by
  unfold matWorld
  rw [run_cons, step_addMaterial, run_nil]
  rfl

theorem C47_false : ¬ C47_claim := by
  intro h
  obtain ⟨s, h1, h2⟩ := h idealEnv (matWorld idealEnv) "i" "m" _ (matWorld_get _) 4 2 1 1 (by norm_num) (by norm_num) (by norm_num)
    (by norm_num)
  obtain ⟨-, s', h3, -, -, h4, -⟩ := C47_i_partial idealEnv (matWorld idealEnv) "i" "m" _ (matWorld_get _) 4 2 1 1 (by norm_num)
    (by norm_num) (by norm_num) (by norm_num)
  rw [h1] at h3
  cases h3
  have h5 := h2.i22
  rw [h4] at h5
  obtain ⟨-, -, a3⟩ := i_values (h := 4) (b := 2) (tw := 1) (tf := 1) (by norm_num) (by norm_num) (by norm_num) (by norm_num)
  rw [a3, add_sub_cancel_left, abs_of_pos (by norm_num)] at h5
  norm_num at h5

/-- a hollow section 400 x 200 x 10 x 16 mm -/
example (env : Env) := C47_box env (matWorld env) "box" "m" _ (matWorld_get env) 0.4 0.2 0.01 0.016 (by norm_num) (by norm_num)
  (by norm_num) (by norm_num)

/-- a wide-flange section 300 x 150 x 6.5 x 9 mm -/
example (env : Env) := C47_i_partial env (matWorld env) "H" "m" _ (matWorld_get env) 0.3 0.15 0.0065 0.009 (by norm_num) (by norm_num)
  (by norm_num) (by norm_num)

/-- a pipe 300 x 14 mm -/
example (m : Material) := C47_pipe "p" m 0.3 0.014 (by norm_num) (by norm_num)

end Hyperstatic
