import Verif.Model.Response
import Mathlib.Analysis.SpecialFunctions.Trigonometric.Deriv
import Mathlib.Analysis.SpecialFunctions.ExpDeriv
import Mathlib.Analysis.SpecialFunctions.Exp
import Mathlib.Analysis.Calculus.Deriv.MeanValue
import Mathlib.Analysis.SpecialFunctions.Sqrt

/-
The correlation coefficients of modal responses are a Gram matrix: that of the motions of damped oscillators after an impulse.
-/

namespace Hyperstatic

open Filter Topology

/-- motion of a damped oscillator of frequency 1 after an impulse, and its velocity -/
structure Impulse (xi : ℝ) (h h' : ℝ → ℝ) : Prop where
  d0 : ∀ t, HasDerivAt h (h' t) t
  d1 : ∀ t, HasDerivAt h' (-2 * xi * h' t - h t) t
  h0 : h 0 = 0
  h1 : h' 0 = 1
  lim0 : Tendsto h atTop (𝓝 0)
  lim1 : Tendsto h' atTop (𝓝 0)

theorem exp_neg_lim {p : ℝ} (hp : 0 < p) : Tendsto (fun t : ℝ => Real.exp (-p * t)) atTop (𝓝 0) := by
  have : Tendsto (fun t : ℝ => p * t) atTop atTop := tendsto_id.const_mul_atTop hp
  have := Real.tendsto_exp_neg_atTop_nhds_zero.comp this
  refine this.congr fun t => ?_
  simp [Function.comp]

theorem exp_deriv (p t : ℝ) : HasDerivAt (fun t : ℝ => Real.exp (-p * t)) (-p * Real.exp (-p * t)) t := by
  have := ((hasDerivAt_id t).const_mul (-p)).exp
  simp only [id, mul_one] at this
  convert this using 1
  ring

theorem exists_impulse {xi : ℝ} (hxi : 0 < xi) : ∃ h h', Impulse xi h h' := by
  rcases lt_trichotomy xi 1 with h1 | h1 | h1
  · set nu := Real.sqrt (1 - xi ^ 2) with hnu
    have hq : 0 < 1 - xi ^ 2 := by nlinarith
    have hn : 0 < nu := Real.sqrt_pos.mpr hq
    have hn2 : nu ^ 2 = 1 - xi ^ 2 := Real.sq_sqrt hq.le
    have ds : ∀ t, HasDerivAt (fun t : ℝ => Real.sin (nu * t)) (nu * Real.cos (nu * t)) t := by
      intro t
      have := ((hasDerivAt_id t).const_mul nu).sin
      simp only [id, mul_one] at this
      convert this using 1; ring
    have dc : ∀ t, HasDerivAt (fun t : ℝ => Real.cos (nu * t)) (-(nu * Real.sin (nu * t))) t := by
      intro t
      have := ((hasDerivAt_id t).const_mul nu).cos
      simp only [id, mul_one] at this
      convert this using 1; ring
    have bnd : ∀ g : ℝ → ℝ, (∃ B, ∀ t, |g t| ≤ B) → Tendsto (fun t => Real.exp (-xi * t) * g t) atTop (𝓝 0) := by
      rintro g ⟨B, hB⟩
      have hz : Tendsto (fun t : ℝ => Real.exp (-xi * t) * B) atTop (𝓝 0) := by simpa using (exp_neg_lim hxi).mul_const B
      refine squeeze_zero_norm (fun t => ?_) hz
      rw [Real.norm_eq_abs, abs_mul, abs_of_pos (Real.exp_pos _)]
      exact mul_le_mul_of_nonneg_left (hB t) (Real.exp_pos _).le
    refine ⟨fun t => Real.exp (-xi * t) * (Real.sin (nu * t) / nu),
      fun t => Real.exp (-xi * t) * (Real.cos (nu * t) - xi * (Real.sin (nu * t) / nu)), ?_, ?_, by simp, by simp, ?_, ?_⟩
    · intro t
      refine ((exp_deriv xi t).fun_mul ((ds t).div_const nu)).congr_deriv ?_
      field_simp; ring
    · intro t
      refine ((exp_deriv xi t).fun_mul ((dc t).fun_sub (((ds t).div_const nu).const_mul xi))).congr_deriv ?_
      have : Real.exp (-xi * t) * (Real.sin (nu * t) / nu) = Real.exp (-xi * t) * (Real.sin (nu * t) / nu) * (nu ^ 2 + xi ^ 2) := by
        rw [hn2]; ring
      rw [this]
      field_simp; ring
    · refine bnd _ ⟨1 / nu, fun t => ?_⟩
      rw [abs_div, abs_of_pos hn]
      exact div_le_div_of_nonneg_right (Real.abs_sin_le_one _) hn.le
    · refine bnd _ ⟨1 + xi * (1 / nu), fun t => ?_⟩
      refine (abs_sub _ _).trans (add_le_add (Real.abs_cos_le_one _) ?_)
      rw [abs_mul, abs_of_pos hxi, abs_div, abs_of_pos hn]
      exact mul_le_mul_of_nonneg_left (div_le_div_of_nonneg_right (Real.abs_sin_le_one _) hn.le) hxi.le
  · subst h1
    have lt : Tendsto (fun t : ℝ => t * Real.exp (-1 * t)) atTop (𝓝 0) := by
      have := Real.tendsto_pow_mul_exp_neg_atTop_nhds_zero 1
      refine this.congr fun t => ?_
      simp
    refine ⟨fun t => t * Real.exp (-1 * t), fun t => Real.exp (-1 * t) - t * Real.exp (-1 * t), ?_, ?_, by simp, by simp, lt, ?_⟩
    · intro t
      refine ((hasDerivAt_id' t).fun_mul (exp_deriv 1 t)).congr_deriv ?_
      ring
    · intro t
      refine ((exp_deriv 1 t).fun_sub ((hasDerivAt_id' t).fun_mul (exp_deriv 1 t))).congr_deriv ?_
      ring
    · simpa using (exp_neg_lim one_pos).sub lt
  · set s := Real.sqrt (xi ^ 2 - 1) with hs
    have hq : 0 < xi ^ 2 - 1 := by nlinarith
    have hs0 : 0 < s := Real.sqrt_pos.mpr hq
    have hs2 : s ^ 2 = xi ^ 2 - 1 := Real.sq_sqrt hq.le
    have hp : 0 < xi - s := by nlinarith
    have hq' : 0 < xi + s := by linarith
    refine ⟨fun t => (Real.exp (-(xi - s) * t) - Real.exp (-(xi + s) * t)) / (2 * s),
      fun t => (-(xi - s) * Real.exp (-(xi - s) * t) - -(xi + s) * Real.exp (-(xi + s) * t)) / (2 * s), ?_, ?_, by simp, ?_, ?_, ?_⟩
    · intro t
      exact ((exp_deriv (xi - s) t).sub (exp_deriv (xi + s) t)).div_const (2 * s)
    · intro t
      refine ((((exp_deriv (xi - s) t).const_mul (-(xi - s))).fun_sub ((exp_deriv (xi + s) t).const_mul (-(xi + s)))).div_const
        (2 * s)).congr_deriv ?_
      have e1 : (xi - s) * (xi - s) = 2 * xi * (xi - s) - 1 := by nlinarith
      have e2 : (xi + s) * (xi + s) = 2 * xi * (xi + s) - 1 := by nlinarith
      generalize Real.exp (-(xi - s) * t) = u
      generalize Real.exp (-(xi + s) * t) = v
      field_simp
      linear_combination u * e1 - v * e2
    · simp; field_simp; ring
    · simpa using ((exp_neg_lim hp).sub (exp_neg_lim hq')).div_const (2 * s)
    · simpa using (((exp_neg_lim hp).const_mul (-(xi - s))).sub ((exp_neg_lim hq').const_mul (-(xi + s)))).div_const (2 * s)

/-- integral over all times of the product of the motions with frequencies `a` and `b` -/
noncomputable def gram (xi a b : ℝ) : ℝ := 2 * xi * a * b / ((a + b) * ((a - b) ^ 2 + 4 * xi ^ 2 * a * b))

theorem gram_den {xi a b : ℝ} (hxi : 0 < xi) (ha : 0 < a) (hb : 0 < b) : 0 < (a - b) ^ 2 + 4 * xi ^ 2 * a * b := by positivity

/-- an antiderivative of the product of two motions that vanishes at infinity and is `-gram` at 0 -/
theorem gram_anti {xi : ℝ} {h h' : ℝ → ℝ} (H : Impulse xi h h') (hxi : 0 < xi) {a b : ℝ} (ha : 0 < a) (hb : 0 < b) :
    ∃ F : ℝ → ℝ, (∀ t, HasDerivAt F (h (a * t) * h (b * t)) t) ∧ F 0 = -gram xi a b ∧ Tendsto F atTop (𝓝 0) := by
  have hden := gram_den hxi ha hb
  set D := (a - b) ^ 2 + 4 * xi ^ 2 * a * b with hD
  have hab : 0 < a + b := by linarith
  obtain ⟨del, hdel⟩ : ∃ x, x = -gram xi a b := ⟨_, rfl⟩
  have hdel' : del * ((a + b) * D) = -(2 * xi * a * b) := by
    rw [hdel, gram, ← hD]; field_simp
  -- coefficients of the bilinear form
  obtain ⟨be, hbe⟩ : ∃ be, be * (a + b) = -1 - a * ((a ^ 2 - b ^ 2) * del / (2 * xi * a * b)) := ⟨_, div_mul_cancel₀ _ hab.ne'⟩
  obtain ⟨gm, hgm⟩ : ∃ gm, gm = be + (a ^ 2 - b ^ 2) * del / (2 * xi * a * b) := ⟨_, rfl⟩
  obtain ⟨al, hal⟩ : ∃ al, al * b = 2 * xi * b * be + a * del := ⟨_, div_mul_cancel₀ _ hb.ne'⟩
  have hg' : (gm - be) * (2 * xi * a * b) = (a ^ 2 - b ^ 2) * del := by rw [hgm]; field_simp; ring
  have q1 : -be * b - gm * a = 1 := by rw [hgm]; linear_combination -hbe
  have q3 : al * a - 2 * xi * a * gm - b * del = 0 := by
    have : (al * a - 2 * xi * a * gm - b * del) * b = 0 := by linear_combination a * hal - hg'
    exact (mul_eq_zero.mp this).resolve_right hb.ne'
  have q4 : a * be + b * gm - 2 * xi * (a + b) * del = 0 := by
    have : (a * be + b * gm - 2 * xi * (a + b) * del) * (2 * xi * a * b) = 0 := by
      rw [hD] at hdel'
      linear_combination (-(a - b)) * hg' - (2 * xi * a * b) * q1 - hdel'
    exact (mul_eq_zero.mp this).resolve_right (by positivity)
  have dx : ∀ c t, HasDerivAt (fun t => h (c * t)) (c * h' (c * t)) t := by
    intro c t
    refine ((H.d0 (c * t)).comp t ((hasDerivAt_id' t).const_mul c)).congr_deriv ?_
    ring
  have dy : ∀ c t, HasDerivAt (fun t => h' (c * t)) (c * (-2 * xi * h' (c * t) - h (c * t))) t := by
    intro c t
    refine ((H.d1 (c * t)).comp t ((hasDerivAt_id' t).const_mul c)).congr_deriv ?_
    ring
  have lx : ∀ c, 0 < c → Tendsto (fun t => h (c * t)) atTop (𝓝 0) := fun c hc => H.lim0.comp (tendsto_id.const_mul_atTop hc)
  have ly : ∀ c, 0 < c → Tendsto (fun t => h' (c * t)) atTop (𝓝 0) := fun c hc => H.lim1.comp (tendsto_id.const_mul_atTop hc)
  refine ⟨fun t => al * (h (a * t) * h (b * t)) + be * (h (a * t) * h' (b * t)) + gm * (h' (a * t) * h (b * t)) +
    del * (h' (a * t) * h' (b * t)), fun t => ?_, ?_, ?_⟩
  · refine ((((((dx a t).fun_mul (dx b t)).const_mul al).fun_add (((dx a t).fun_mul (dy b t)).const_mul be)).fun_add
      (((dy a t).fun_mul (dx b t)).const_mul gm)).fun_add (((dy a t).fun_mul (dy b t)).const_mul del)).congr_deriv ?_
    linear_combination (h (a * t) * h (b * t)) * q1 + (h (a * t) * h' (b * t)) * hal + (h' (a * t) * h (b * t)) * q3 +
      (h' (a * t) * h' (b * t)) * q4
  · simp only [mul_zero, H.h0, H.h1, hdel]; ring
  · simpa using (((((lx a ha).mul (lx b hb)).const_mul al).add (((lx a ha).mul (ly b hb)).const_mul be)).add
      (((ly a ha).mul (lx b hb)).const_mul gm)).add (((ly a ha).mul (ly b hb)).const_mul del)

/-- the matrix of the integrals is positive semidefinite -/
theorem gram_psd {n : ℕ} {xi : ℝ} (hxi : 0 < xi) (a : Fin n → ℝ) (ha : ∀ i, 0 < a i) (c : Fin n → ℝ) :
    0 ≤ ∑ i, ∑ j, c i * c j * gram xi (a i) (a j) := by
  obtain ⟨h, h', H⟩ := exists_impulse hxi
  choose F hF1 hF2 hF3 using fun i j => gram_anti H hxi (ha i) (ha j)
  let Q : ℝ → ℝ := fun t => ∑ i, ∑ j, c i * c j * F i j t
  have hQ : ∀ t, HasDerivAt Q ((∑ i, c i * h (a i * t)) ^ 2) t := by
    intro t
    have : HasDerivAt Q (∑ i, ∑ j, c i * c j * (h (a i * t) * h (a j * t))) t := by
      refine HasDerivAt.fun_sum fun i _ => HasDerivAt.fun_sum fun j _ => (hF1 i j t).const_mul _
    convert this using 1
    rw [sq, Finset.sum_mul_sum]
    exact Finset.sum_congr rfl fun i _ => Finset.sum_congr rfl fun j _ => by ring
  have hmono : Monotone Q := monotone_of_hasDerivAt_nonneg hQ fun t => sq_nonneg _
  have hlim : Tendsto Q atTop (𝓝 0) := by
    have : Tendsto Q atTop (𝓝 (∑ i : Fin n, ∑ j : Fin n, c i * c j * 0)) :=
      tendsto_finsetSum _ fun i _ => tendsto_finsetSum _ fun j _ => (hF3 i j).const_mul _
    simpa using this
  have h0 : Q 0 ≤ 0 := hmono.ge_of_tendsto hlim 0
  have e : Q 0 = -∑ i, ∑ j, c i * c j * gram xi (a i) (a j) := by
    simp only [Q, hF2, mul_neg, Finset.sum_neg_distrib]
  linarith

end Hyperstatic
