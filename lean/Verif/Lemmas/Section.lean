import Verif.Spec.Section
import Mathlib.Analysis.SpecialFunctions.PolarCoord
import Mathlib.Analysis.SpecialFunctions.Integrals.Basic
import Mathlib.MeasureTheory.Integral.Prod

/-
Areas and second moments of the shapes.
-/

namespace Hyperstatic
open Spec MeasureTheory Set

theorem rect_eq (h b : ℝ) : rectShape h b = Icc (-(h / 2)) (h / 2) ×ˢ Icc (-(b / 2)) (b / 2) := by
  ext p
  simp only [rectShape, mem_ofPred_eq, mem_prod, mem_Icc, abs_le]

theorem measurable_rect (h b : ℝ) : MeasurableSet (rectShape h b) := by
  rw [rect_eq]; exact measurableSet_Icc.prod measurableSet_Icc

theorem measurable_disc (d : ℝ) : MeasurableSet (discShape d) := by
  unfold discShape
  exact measurableSet_le (by fun_prop) (by fun_prop)

theorem integrableOn_rect {f : ℝ × ℝ → ℝ} (hf : Continuous f) (h b : ℝ) : IntegrableOn f (rectShape h b) := by
  rw [rect_eq]
  exact hf.continuousOn.integrableOn_compact (isCompact_Icc.prod isCompact_Icc)

theorem disc_subset {d : ℝ} (hd : 0 ≤ d) : discShape d ⊆ rectShape d d := by
  intro p hp
  simp only [discShape, mem_ofPred_eq] at hp
  simp only [rectShape, mem_ofPred_eq]
  constructor
  · apply abs_le_of_sq_le_sq _ (by linarith); nlinarith [sq_nonneg p.2]
  · apply abs_le_of_sq_le_sq _ (by linarith); nlinarith [sq_nonneg p.1]

theorem integrableOn_disc {f : ℝ × ℝ → ℝ} (hf : Continuous f) {d : ℝ} (hd : 0 ≤ d) : IntegrableOn f (discShape d) :=
  (integrableOn_rect hf d d).mono_set (disc_subset hd)

theorem int_one_Icc {a : ℝ} (ha : 0 ≤ a) : ∫ _ in Icc (-a) a, (1 : ℝ) = 2 * a := by
  rw [integral_Icc_eq_integral_Ioc, ← intervalIntegral.integral_of_le (by linarith)]
  simp; ring

theorem int_sq_Icc {a : ℝ} (ha : 0 ≤ a) : ∫ x in Icc (-a) a, x ^ 2 = 2 * a ^ 3 / 3 := by
  rw [integral_Icc_eq_integral_Ioc, ← intervalIntegral.integral_of_le (by linarith), integral_pow]
  norm_num; ring

theorem rect_mul (f g : ℝ → ℝ) (h b : ℝ) : ∫ p in rectShape h b, f p.1 * g p.2 =
    (∫ y in Icc (-(h / 2)) (h / 2), f y) * ∫ z in Icc (-(b / 2)) (b / 2), g z := by
  rw [rect_eq]
  exact setIntegral_prod_mul f g _ _

theorem rect_values {h b : ℝ} (hh : 0 ≤ h) (hb : 0 ≤ b) :
    area (rectShape h b) = h * b ∧ moment33 (rectShape h b) = b * h ^ 3 / 12 ∧ moment22 (rectShape h b) = h * b ^ 3 / 12 := by
  have h1 := rect_mul (fun _ => 1) (fun _ => 1) h b
  have h2 := rect_mul (fun y => y ^ 2) (fun _ => 1) h b
  have h3 := rect_mul (fun _ => 1) (fun z => z ^ 2) h b
  rw [int_one_Icc (by linarith), int_one_Icc (by linarith)] at h1
  rw [int_sq_Icc (by linarith), int_one_Icc (by linarith)] at h2
  rw [int_one_Icc (by linarith), int_sq_Icc (by linarith)] at h3
  simp only [mul_one, one_mul] at h1 h2 h3
  unfold area moment33 moment22
  rw [h1, h2, h3]
  refine ⟨by ring, by ring, by ring⟩

theorem rect_mono {h b h' b' : ℝ} (hh : h' ≤ h) (hb : b' ≤ b) : rectShape h' b' ⊆ rectShape h b := by
  intro p hp
  simp only [rectShape, mem_ofPred_eq] at hp ⊢
  exact ⟨by linarith [hp.1], by linarith [hp.2]⟩

theorem box_values {h b tw tf : ℝ} (h1 : 0 ≤ tw) (h2 : 0 ≤ tf) (h3 : 2 * tw ≤ b) (h4 : 2 * tf ≤ h) :
    area (boxShape h b tw tf) = h * b - (h - 2 * tf) * (b - 2 * tw) ∧
    moment33 (boxShape h b tw tf) = b * h ^ 3 / 12 - (b - 2 * tw) * (h - 2 * tf) ^ 3 / 12 ∧
    moment22 (boxShape h b tw tf) = h * b ^ 3 / 12 - (h - 2 * tf) * (b - 2 * tw) ^ 3 / 12 := by
  have hs : rectShape (h - 2 * tf) (b - 2 * tw) ⊆ rectShape h b := rect_mono (by linarith) (by linarith)
  obtain ⟨a1, a2, a3⟩ := rect_values (h := h) (b := b) (by linarith) (by linarith)
  obtain ⟨b1, b2, b3⟩ := rect_values (h := h - 2 * tf) (b := b - 2 * tw) (by linarith) (by linarith)
  unfold area moment33 moment22 at *
  unfold boxShape
  refine ⟨?_, ?_, ?_⟩
  · rw [setIntegral_sdiff (measurable_rect _ _) (integrableOn_rect continuous_const _ _) hs, a1, b1]
  · rw [setIntegral_sdiff (measurable_rect _ _) (integrableOn_rect (by fun_prop) _ _) hs, a2, b2]
  · rw [setIntegral_sdiff (measurable_rect _ _) (integrableOn_rect (by fun_prop) _ _) hs, a3, b3]

/-- the open strip used to describe the I shape -/
theorem strip_integral {f : ℝ × ℝ → ℝ} (k b : ℝ) :
    ∫ p in {p : ℝ × ℝ | |p.1| < k / 2 ∧ |p.2| ≤ b / 2}, f p = ∫ p in rectShape k b, f p := by
  apply setIntegral_congr_set
  have e1 : {p : ℝ × ℝ | |p.1| < k / 2 ∧ |p.2| ≤ b / 2} = Ioo (-(k / 2)) (k / 2) ×ˢ Icc (-(b / 2)) (b / 2) := by
    ext p; simp [abs_lt, abs_le]
  rw [e1, rect_eq]
  exact Measure.set_prod_ae_eq Ioo_ae_eq_Icc (ae_eq_refl _)

theorem i_integral {f : ℝ × ℝ → ℝ} (hf : Continuous f) {h b tw tf : ℝ} (h1 : 0 ≤ tw) (h2 : 0 ≤ tf) (h3 : tw ≤ b)
    (h4 : 2 * tf ≤ h) : ∫ p in iShape h b tw tf, f p =
    (∫ p in rectShape h b, f p) - (∫ p in rectShape (h - 2 * tf) b, f p) + ∫ p in rectShape (h - 2 * tf) tw, f p := by
  let S := fun c : ℝ => {p : ℝ × ℝ | |p.1| < (h - 2 * tf) / 2 ∧ |p.2| ≤ c / 2}
  have hm : ∀ c, MeasurableSet (S c) := by
    intro c
    have e : S c = Ioo (-((h - 2 * tf) / 2)) ((h - 2 * tf) / 2) ×ˢ Icc (-(c / 2)) (c / 2) := by
      ext p; simp only [S, mem_ofPred_eq, mem_prod, mem_Icc, mem_Ioo, abs_le, abs_lt]
    rw [e]
    exact measurableSet_Ioo.prod measurableSet_Icc
  have hsub : ∀ {c}, c ≤ b → S c ⊆ rectShape h b := by
    intro c hc p hp
    simp only [S, rectShape, mem_ofPred_eq] at hp ⊢
    exact ⟨by linarith [hp.1], by linarith [hp.2]⟩
  have hI : iShape h b tw tf = (rectShape h b \ S b) ∪ S tw := by
    ext p
    simp only [iShape, S, rectShape, mem_ofPred_eq, mem_union, mem_sdiff, not_and_or, not_lt, not_le]
    constructor
    · rintro (⟨a, b', c⟩ | ⟨a, b'⟩)
      · exact Or.inl ⟨⟨b', c⟩, Or.inl (by linarith)⟩
      · exact Or.inr ⟨by linarith, b'⟩
    · rintro (⟨⟨a, b'⟩, c | c⟩ | ⟨a, b'⟩)
      · exact Or.inl ⟨by linarith, a, b'⟩
      · linarith
      · exact Or.inr ⟨by linarith, b'⟩
  have hdis : Disjoint (rectShape h b \ S b) (S tw) := by
    rw [Set.disjoint_left]
    intro p hp hq
    apply hp.2
    simp only [S, mem_ofPred_eq] at hq ⊢
    exact ⟨hq.1, by linarith [hq.2]⟩
  have i1 := integrableOn_rect hf h b
  rw [hI, setIntegral_union hdis (hm tw) (i1.mono_set sdiff_subset) (i1.mono_set (hsub h3)),
    setIntegral_sdiff (hm b) i1 (hsub le_rfl), strip_integral, strip_integral]

theorem i_values {h b tw tf : ℝ} (h1 : 0 ≤ tw) (h2 : 0 ≤ tf) (h3 : tw ≤ b) (h4 : 2 * tf ≤ h) :
    area (iShape h b tw tf) = b * h - (b - tw) * (h - 2 * tf) ∧
    moment33 (iShape h b tw tf) = (b * h ^ 3 - (b - tw) * (h - 2 * tf) ^ 3) / 12 ∧
    moment22 (iShape h b tw tf) = 2 * tf * b ^ 3 / 12 + (h - 2 * tf) * tw ^ 3 / 12 := by
  obtain ⟨a1, a2, a3⟩ := rect_values (h := h) (b := b) (by linarith) (by linarith)
  obtain ⟨b1, b2, b3⟩ := rect_values (h := h - 2 * tf) (b := b) (by linarith) (by linarith)
  obtain ⟨c1, c2, c3⟩ := rect_values (h := h - 2 * tf) (b := tw) (by linarith) (by linarith)
  unfold area moment33 moment22 at *
  refine ⟨?_, ?_, ?_⟩
  · rw [i_integral continuous_const h1 h2 h3 h4, a1, b1, c1]; ring
  · rw [i_integral (by fun_prop) h1 h2 h3 h4, a2, b2, c2]; ring
  · rw [i_integral (by fun_prop) h1 h2 h3 h4, a3, b3, c3]; ring

/-- a polar integral over the disc -/
theorem disc_polar (g : ℝ → ℝ) (n : ℕ) (f : ℝ × ℝ → ℝ) {d : ℝ} (hd : 0 ≤ d)
    (hf : ∀ r θ, f (r * Real.cos θ, r * Real.sin θ) = r ^ n * g θ) :
    ∫ p in discShape d, f p = (d / 2) ^ (n + 2) / (n + 2) * ∫ θ in (-Real.pi)..Real.pi, g θ := by
  rw [← integral_indicator (measurable_disc d), ← integral_comp_polarCoord_symm]
  have htgt : polarCoord.target = Ioi (0 : ℝ) ×ˢ Ioo (-Real.pi) Real.pi := rfl
  have hpt : ∀ p ∈ polarCoord.target, p.1 • (discShape d).indicator f (polarCoord.symm p) =
      (Ioc 0 (d / 2)).indicator (fun r => r ^ (n + 1)) p.1 * g p.2 := by
    rintro ⟨r, θ⟩ hp
    rw [htgt] at hp
    have hr : 0 < r := hp.1
    have e : polarCoord.symm (r, θ) = (r * Real.cos θ, r * Real.sin θ) := rfl
    rw [e]
    by_cases hle : r ≤ d / 2
    · have hin : (r * Real.cos θ, r * Real.sin θ) ∈ discShape d := by
        simp only [discShape, mem_ofPred_eq]
        have := Real.sin_sq_add_cos_sq θ
        have : (r * Real.cos θ) ^ 2 + (r * Real.sin θ) ^ 2 = r ^ 2 := by
          rw [mul_pow, mul_pow, ← mul_add, add_comm, this, mul_one]
        rw [this]
        exact pow_le_pow_left₀ hr.le hle 2
      rw [indicator_of_mem hin, hf, indicator_of_mem (show r ∈ Ioc 0 (d / 2) from ⟨hr, hle⟩)]
      simp only [smul_eq_mul]; ring
    · have hout : (r * Real.cos θ, r * Real.sin θ) ∉ discShape d := by
        simp only [discShape, mem_ofPred_eq, not_le]
        have := Real.sin_sq_add_cos_sq θ
        have : (r * Real.cos θ) ^ 2 + (r * Real.sin θ) ^ 2 = r ^ 2 := by
          rw [mul_pow, mul_pow, ← mul_add, add_comm, this, mul_one]
        rw [this]
        push Not at hle
        exact pow_lt_pow_left₀ hle (by linarith) (by norm_num)
      rw [indicator_of_notMem hout, indicator_of_notMem (fun h => hle h.2)]
      simp
  rw [setIntegral_congr_fun (by rw [htgt]; exact measurableSet_Ioi.prod measurableSet_Ioo) hpt, htgt]
  refine (setIntegral_prod_mul ((Ioc 0 (d / 2)).indicator fun r => r ^ (n + 1)) g (Ioi 0) (Ioo (-Real.pi) Real.pi)).trans ?_
  rw [setIntegral_indicator measurableSet_Ioc]
  congr 1
  · have : Ioi (0 : ℝ) ∩ Ioc 0 (d / 2) = Ioc 0 (d / 2) := by
      apply inter_eq_right.mpr; intro x hx; exact hx.1
    rw [this, ← intervalIntegral.integral_of_le (by linarith), integral_pow]
    push_cast
    rw [zero_pow (by omega), sub_zero]
    congr 1
    ring
  · rw [intervalIntegral.integral_of_le (by linarith [Real.pi_pos]), integral_Ioc_eq_integral_Ioo]

theorem disc_values {d : ℝ} (hd : 0 ≤ d) :
    area (discShape d) = Real.pi / 4 * d ^ 2 ∧ moment33 (discShape d) = Real.pi / 64 * d ^ 4 ∧
    moment22 (discShape d) = Real.pi / 64 * d ^ 4 := by
  unfold area moment33 moment22
  rw [disc_polar (fun _ => 1) 0 _ hd (fun r θ => by ring), disc_polar (fun θ => Real.cos θ ^ 2) 2 _ hd (fun r θ => by ring),
    disc_polar (fun θ => Real.sin θ ^ 2) 2 _ hd (fun r θ => by ring), integral_cos_sq, integral_sin_sq]
  simp only [Real.sin_neg, Real.cos_neg, Real.sin_pi, intervalIntegral.integral_const, smul_eq_mul]
  push_cast
  refine ⟨by ring, by ring, by ring⟩

theorem disc_mono {d e : ℝ} (he : 0 ≤ e) (h : e ≤ d) : discShape e ⊆ discShape d := by
  intro p hp
  simp only [discShape, mem_ofPred_eq] at hp ⊢
  refine hp.trans ?_
  exact pow_le_pow_left₀ (by linarith) (by linarith) 2

theorem pipe_values {d t : ℝ} (ht : 0 ≤ t) (hd : 2 * t ≤ d) :
    area (pipeShape d t) = Real.pi / 4 * (d ^ 2 - (d - 2 * t) ^ 2) ∧
    moment33 (pipeShape d t) = Real.pi / 64 * (d ^ 4 - (d - 2 * t) ^ 4) ∧
    moment22 (pipeShape d t) = Real.pi / 64 * (d ^ 4 - (d - 2 * t) ^ 4) := by
  have hd0 : 0 ≤ d := by linarith
  have hs := disc_mono (d := d) (e := d - 2 * t) (by linarith) (by linarith)
  obtain ⟨a1, a2, a3⟩ := disc_values hd0
  obtain ⟨b1, b2, b3⟩ := disc_values (d := d - 2 * t) (by linarith)
  unfold area moment33 moment22 at *
  unfold pipeShape
  refine ⟨?_, ?_, ?_⟩
  · rw [setIntegral_sdiff (measurable_disc _) (integrableOn_disc continuous_const hd0) hs, a1, b1]; ring
  · rw [setIntegral_sdiff (measurable_disc _) (integrableOn_disc (by fun_prop) hd0) hs, a2, b2]; ring
  · rw [setIntegral_sdiff (measurable_disc _) (integrableOn_disc (by fun_prop) hd0) hs, a3, b3]; ring

end Hyperstatic
