import Verif.Model.Seismic
import Verif.Spec.Seismic
import Mathlib.Analysis.SpecialFunctions.Pow.Continuity
import Mathlib.Tactic.Positivity
import Mathlib.Tactic.Linarith
import Mathlib.Tactic.FieldSimp
import Mathlib.Tactic.Ring
import Mathlib.Tactic.NormNum

namespace Hyperstatic
open Spec

theorem specGamma_ok {xi : ℝ} (h : 0 ≤ xi) : specGamma xi = .ok (fallExponent xi) := by
  have : (3 / 10 + 6 * xi : ℝ) ≠ 0 := by positivity
  simp only [specGamma, pyDiv, if_neg this, fallExponent]
  norm_num [bind, Except.bind, pure, Except.pure]

theorem specEta1_ok {xi : ℝ} (h : 0 ≤ xi) : specEta1 xi = .ok (lastSlope xi) := by
  have : (4 + 32 * xi : ℝ) ≠ 0 := by positivity
  simp only [specEta1, pyDiv, if_neg this, lastSlope]
  norm_num [bind, Except.bind, pure, Except.pure]
  split_ifs with h1
  · rw [max_eq_right h1.le]
  · rw [max_eq_left (not_lt.mp h1)]

theorem specEta2_ok {xi : ℝ} (h : 0 ≤ xi) : specEta2 xi = .ok (plateau xi) := by
  have : (8 / 100 + 16 / 10 * xi : ℝ) ≠ 0 := by positivity
  simp only [specEta2, pyDiv, if_neg this, plateau]
  norm_num [bind, Except.bind, pure, Except.pure] at *
  split_ifs with h1
  · rw [max_eq_right h1.le]
  · rw [max_eq_left (not_lt.mp h1)]

/-- the two programs compute the same ordinate -/
theorem gbAt_agree (a Tg g e1 e2 : ℝ) {t : ℝ} (ht : 0 ≤ t) :
    gb50010At a Tg g e1 e2 t = gb50011At a Tg g e1 e2 t := by
  unfold gb50010At gb50011At
  split_ifs with h1 h2 h3
  · unfold interp2
    rcases eq_or_lt_of_le ht with h | h
    · simp [← h]
    · rw [if_neg (not_le.mpr h), if_neg (not_le.mpr h1)]; ring
  all_goals rfl

/-- closed form of the curve -/
noncomputable def gbClosed (a Tg g e1 e2 t : ℝ) : ℝ :=
  (9 / 20 * a + (e2 - 9 / 20) * a * 10 * min t (1 / 10)) - e2 * a
    + e2 * a * (Tg / max Tg (min t (5 * Tg))) ^ g - e1 * a * max 0 (t - 5 * Tg)

theorem gbAt_closed (a g e1 e2 : ℝ) {Tg t : ℝ} (hT : 1 / 10 ≤ Tg) :
    gb50011At a Tg g e1 e2 t = gbClosed a Tg g e1 e2 t := by
  have h0 : 0 < Tg := by linarith
  unfold gb50011At gbClosed
  split_ifs with h1 h2 h3
  · rw [min_eq_left h1.le, min_eq_left (by linarith : t ≤ 5 * Tg), max_eq_left (by linarith : t ≤ Tg),
      max_eq_left (by linarith : t - 5 * Tg ≤ 0), div_self h0.ne', Real.one_rpow]
    ring
  · rw [min_eq_right (not_lt.mp h1), min_eq_left (by linarith : t ≤ 5 * Tg), max_eq_left h2.le,
      max_eq_left (by linarith : t - 5 * Tg ≤ 0), div_self h0.ne', Real.one_rpow]
    ring
  · rw [min_eq_right (not_lt.mp h1), min_eq_left h3.le, max_eq_right (not_lt.mp h2),
      max_eq_left (by linarith : t - 5 * Tg ≤ 0)]
    ring
  · have h3' := not_lt.mp h3
    rw [min_eq_right (not_lt.mp h1), min_eq_right h3', max_eq_right (by linarith : Tg ≤ 5 * Tg),
      max_eq_right (by linarith : 0 ≤ t - 5 * Tg)]
    have : Tg / (5 * Tg) = 2 / 10 := by field_simp; norm_num
    rw [this]; ring

theorem gbClosed_continuous (a g e1 e2 : ℝ) {Tg : ℝ} (h0 : 0 < Tg) : Continuous (gbClosed a Tg g e1 e2) := by
  unfold gbClosed
  have hm : ∀ t, 0 < max Tg (min t (5 * Tg)) := fun t => lt_max_of_lt_left h0
  have c : Continuous fun t => (Tg / max Tg (min t (5 * Tg))) ^ g := by
    refine Continuous.rpow_const (Continuous.div (by fun_prop) (by fun_prop) fun t => (hm t).ne') ?_
    intro t; exact Or.inl (div_pos h0 (hm t)).ne'
  fun_prop

theorem design_of_closed (a : ℝ) {xi Tg : ℝ} (hT : 1 / 10 ≤ Tg) :
    DesignCurve a Tg xi (gbClosed a Tg (fallExponent xi) (lastSlope xi) (plateau xi)) := by
  have h0 : 0 < Tg := by linarith
  set g := fallExponent xi
  set e1 := lastSlope xi
  set e2 := plateau xi
  refine ⟨?_, (gbClosed_continuous _ _ _ _ h0).continuousOn, ⟨(e2 - 9 / 20) * a * 10, ?_⟩, ?_, ?_, ?_⟩
  · rw [← gbAt_closed _ _ _ _ hT]; norm_num [gb50011At]
  · intro t _ ht
    norm_num at ht
    rw [← gbAt_closed _ _ _ _ hT, gb50011At, if_pos (by linarith)]; ring
  · intro t h1 h2
    norm_num at h1
    unfold gbClosed
    rw [min_eq_right (by linarith), min_eq_left (by linarith : t ≤ 5 * Tg), max_eq_left h2,
      max_eq_left (by linarith : t - 5 * Tg ≤ 0), div_self h0.ne', Real.one_rpow]
    ring
  · intro t h1 h2
    have ht : 0 < t := by linarith
    unfold gbClosed
    rw [min_eq_right (by linarith : 1 / 10 ≤ t), min_eq_left h2, max_eq_right h1,
      max_eq_left (by linarith : t - 5 * Tg ≤ 0), Real.div_rpow h0.le ht.le]
    have : t ^ g ≠ 0 := (Real.rpow_pos_of_pos ht g).ne'
    field_simp
    ring
  · intro t h1
    unfold gbClosed
    rw [min_eq_right (by linarith : 1 / 10 ≤ t), min_eq_right h1, min_eq_right (by linarith : 1 / 10 ≤ 5 * Tg),
      min_self, max_eq_right (by linarith : Tg ≤ 5 * Tg), max_eq_right (by linarith : 0 ≤ t - 5 * Tg), sub_self, max_self]
    ring

theorem plateau_ge (xi : ℝ) : 55 / 100 ≤ plateau xi := by
  unfold plateau; exact le_trans (by norm_num) (le_max_left _ _)

theorem lastSlope_nonneg (xi : ℝ) : 0 ≤ lastSlope xi := le_max_left _ _

theorem fallExponent_pos {xi : ℝ} (h : 0 ≤ xi) : 0 < fallExponent xi := by
  unfold fallExponent
  have hd : (0 : ℝ) < 0.3 + 6 * xi := by positivity
  have : -(1 / 6) ≤ (0.05 - xi) / (0.3 + 6 * xi) := by
    rw [le_div_iff₀ hd]; norm_num; linarith
  norm_num at this ⊢; linarith

end Hyperstatic
