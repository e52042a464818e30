import Verif.Model.Fourier
import Verif.Spec.Fourier
import Mathlib.RingTheory.RootsOfUnity.Complex
import Mathlib.Analysis.Calculus.Deriv.Mul
import Mathlib.Analysis.Calculus.Deriv.MeanValue
import Mathlib.Analysis.Calculus.Deriv.Pow
import Mathlib.Analysis.Calculus.Deriv.Shift
import Mathlib.Algebra.BigOperators.Field
import Mathlib.Analysis.SpecialFunctions.ExpDeriv
import Mathlib.Analysis.Complex.RealDeriv

/-
Lemmas about discrete Fourier sums: inversion, uniqueness, and the steady response of an oscillator.
-/

namespace Hyperstatic

open Complex Finset
open scoped BigOperators

/-- the factor of the forward transform -/
theorem dft_orthogonal {N k l : ℕ} (hN : 0 < N) (hk : k < N) (hl : l < N) :
    ∑ n ∈ range N, exp (2 * Real.pi * I * k * n / N) * exp (-(2 * Real.pi * I * l * n / N)) = if k = l then (N : ℂ) else 0 := by
  have hN' : (N : ℂ) ≠ 0 := by exact_mod_cast hN.ne'
  set q : ℂ := exp (2 * Real.pi * I * ((k : ℂ) - l) / N) with hq
  have e : ∀ n ∈ range N, exp (2 * Real.pi * I * k * n / N) * exp (-(2 * Real.pi * I * l * n / N)) = q ^ n := by
    intro n _
    rw [hq, ← exp_add, ← exp_nat_mul]
    congr 1; field_simp; ring
  rw [Finset.sum_congr rfl e]
  split_ifs with h
  · subst h
    have : q = 1 := by rw [hq]; simp
    rw [this]; simp
  · have h1 : q ^ N = 1 := by
      rw [hq, ← exp_nat_mul]
      have : (N : ℂ) * (2 * Real.pi * I * ((k : ℂ) - l) / N) = ((k : ℤ) - (l : ℤ) : ℤ) * (2 * Real.pi * I) := by
        push_cast; field_simp
      rw [this]; exact exp_int_mul_two_pi_mul_I _
    have h2 : q ≠ 1 := by
      intro hq1
      rw [hq, exp_eq_one_iff] at hq1
      obtain ⟨m, hm⟩ := hq1
      have hpi : (2 * Real.pi * I : ℂ) ≠ 0 := two_pi_I_ne_zero
      have h3 : ((k : ℂ) - l) = m * N := by
        have : (2 * Real.pi * I : ℂ) * (((k : ℂ) - l) / N) = (2 * Real.pi * I) * m := by rw [mul_comm _ (m : ℂ), ← hm]; ring
        have := mul_left_cancel₀ hpi this
        field_simp at this; rw [this]; ring
      have h4 : ((k : ℤ) - l) = m * N := by exact_mod_cast h3
      have h5 : |(m : ℤ) * N| < N := by rw [← h4, abs_lt]; constructor <;> omega
      have h6 : m = 0 := by
        by_contra hm0
        have : (1 : ℤ) ≤ |m| := Int.one_le_abs hm0
        rw [abs_mul, Nat.abs_cast] at h5
        nlinarith [(by exact_mod_cast hN : (0 : ℤ) < N)]
      rw [h6] at h4; omega
    have := geom_sum_mul q N
    rw [h1, sub_self, mul_eq_zero] at this
    exact this.resolve_right (sub_ne_zero.mpr h2)

/-- the inverse transform of the transform gives the record, filled with zeros -/
theorem fft_inverse {N : ℕ} (hN : 0 < N) (x : List ℝ) {j : ℕ} (hj : j < N) :
    ∑ k ∈ range N, fftAt x N k / N * exp (2 * Real.pi * I * k * j / N) = ((x.getD j 0 : ℝ) : ℂ) := by
  have hN' : (N : ℂ) ≠ 0 := by exact_mod_cast hN.ne'
  unfold fftAt
  have e : ∀ k ∈ range N, (∑ n ∈ range N, ((x.getD n 0 : ℝ) : ℂ) * exp (-(2 * Real.pi * I * k * n / N))) / N * exp (2 * Real.pi * I * k * j / N) =
      ∑ n ∈ range N, ((x.getD n 0 : ℝ) : ℂ) / N * (exp (2 * Real.pi * I * j * k / N) * exp (-(2 * Real.pi * I * n * k / N))) := by
    intro k _
    rw [Finset.sum_div, Finset.sum_mul]
    refine Finset.sum_congr rfl fun n _ => ?_
    rw [show (2 * Real.pi * I * k * j / N : ℂ) = 2 * Real.pi * I * j * k / N by ring, show (2 * Real.pi * I * k * n / N : ℂ) = 2 * Real.pi * I * n * k / N by ring]
    ring
  rw [Finset.sum_congr rfl e, Finset.sum_comm]
  have e2 : ∀ n ∈ range N, ∑ k ∈ range N, ((x.getD n 0 : ℝ) : ℂ) / N * (exp (2 * Real.pi * I * j * k / N) * exp (-(2 * Real.pi * I * n * k / N))) =
      if j = n then ((x.getD n 0 : ℝ) : ℂ) else 0 := by
    intro n hn
    rw [← Finset.mul_sum, dft_orthogonal hN hj (Finset.mem_range.mp hn)]
    split_ifs
    · field_simp
    · simp
  rw [Finset.sum_congr rfl e2, Finset.sum_ite_eq, if_pos (Finset.mem_range.mpr hj)]

/-- coefficients whose sums are the record are those of the transform -/
theorem fft_unique {N : ℕ} (hN : 0 < N) (x : List ℝ) (c : ℕ → ℂ)
    (h : ∀ j < N, ∑ k ∈ range N, c k * exp (2 * Real.pi * I * k * j / N) = ((x.getD j 0 : ℝ) : ℂ)) {l : ℕ} (hl : l < N) : c l = fftAt x N l / N := by
  have hN' : (N : ℂ) ≠ 0 := by exact_mod_cast hN.ne'
  unfold fftAt
  rw [eq_div_iff hN']
  have e : ∀ n ∈ range N, ((x.getD n 0 : ℝ) : ℂ) * exp (-(2 * Real.pi * I * l * n / N)) =
      ∑ k ∈ range N, c k * (exp (2 * Real.pi * I * k * n / N) * exp (-(2 * Real.pi * I * l * n / N))) := by
    intro n hn
    rw [← h n (Finset.mem_range.mp hn), Finset.sum_mul]
    exact Finset.sum_congr rfl fun k _ => by ring
  rw [Finset.sum_congr rfl e, Finset.sum_comm]
  have e2 : ∀ k ∈ range N, ∑ n ∈ range N, c k * (exp (2 * Real.pi * I * k * n / N) * exp (-(2 * Real.pi * I * l * n / N))) = if k = l then c k * N else 0 := by
    intro k hk
    rw [← Finset.mul_sum, dft_orthogonal hN (Finset.mem_range.mp hk) hl]
    split_ifs <;> simp
  rw [Finset.sum_congr rfl e2, Finset.sum_ite_eq', if_pos (Finset.mem_range.mpr hl)]

/-- the number of full turns of the `k`th oscillation of `2 M` in the period -/
def turns (M k : ℕ) : ℤ := if k < M then (k : ℤ) else (k : ℤ) - 2 * M

theorem fftfreq_turns {M : ℕ} (hM : 0 < M) {h : ℝ} (hh : 0 < h) (k : ℕ) :
    2 * Real.pi * fftfreq (2 * M) h k = Real.pi / (M * h) * (turns M k : ℝ) := by
  have hM' : (M : ℝ) ≠ 0 := by exact_mod_cast hM.ne'
  unfold fftfreq turns
  rw [show (2 * M - 1) / 2 + 1 = M by omega]
  split_ifs
  · push_cast; field_simp
  · push_cast; field_simp

/-- the sum of the oscillations with coefficients `c` -/
noncomputable def waves (M : ℕ) (h : ℝ) (c : ℕ → ℂ) (t : ℝ) : ℂ :=
  ∑ k ∈ range (2 * M), c k * exp (((turns M k : ℝ) * (Real.pi / (M * h) * t) : ℝ) * I)

theorem waves_sample {M : ℕ} (hM : 0 < M) {h : ℝ} (hh : 0 < h) (c : ℕ → ℂ) (j : ℕ) :
    waves M h c (j * h) = ∑ k ∈ range (2 * M), c k * exp (2 * Real.pi * I * k * j / ((2 * M : ℕ) : ℂ)) := by
  have hM' : (M : ℂ) ≠ 0 := by exact_mod_cast hM.ne'
  have hh' : (h : ℂ) ≠ 0 := by exact_mod_cast hh.ne'
  refine Finset.sum_congr rfl fun k _ => ?_
  congr 1
  unfold turns
  split_ifs
  · congr 1; push_cast; field_simp
  · have : (((((k : ℤ) - 2 * M : ℤ) : ℝ) * (Real.pi / (M * h) * (j * h)) : ℝ) : ℂ) * I = 2 * Real.pi * I * k * j / ((2 * M : ℕ) : ℂ) - (j : ℤ) * (2 * Real.pi * I) := by
      push_cast; field_simp
    rw [this, exp_sub, exp_int_mul_two_pi_mul_I, div_one]

theorem waves_repeat {M : ℕ} (hM : 0 < M) {h : ℝ} (hh : 0 < h) (c : ℕ → ℂ) (t : ℝ) : waves M h c (t + (2 * M : ℕ) * h) = waves M h c t := by
  have hM' : (M : ℂ) ≠ 0 := by exact_mod_cast hM.ne'
  have hh' : (h : ℂ) ≠ 0 := by exact_mod_cast hh.ne'
  refine Finset.sum_congr rfl fun k _ => ?_
  congr 1
  have : ((((turns M k : ℝ) * (Real.pi / (M * h) * (t + (2 * M : ℕ) * h)) : ℝ)) : ℂ) * I =
      (((turns M k : ℝ) * (Real.pi / (M * h) * t) : ℝ) : ℂ) * I + (turns M k) * (2 * Real.pi * I) := by
    push_cast; field_simp
  rw [this, exp_add, exp_int_mul_two_pi_mul_I, mul_one]

theorem waves_deriv (M : ℕ) (h : ℝ) (c : ℕ → ℂ) (t : ℝ) :
    HasDerivAt (waves M h c) (waves M h (fun k => c k * (((turns M k : ℝ) * (Real.pi / (M * h)) : ℝ) * I)) t) t := by
  unfold waves
  refine HasDerivAt.fun_sum fun k _ => ?_
  have h1 : HasDerivAt (fun t : ℝ => (turns M k : ℝ) * (Real.pi / (M * h) * t)) ((turns M k : ℝ) * (Real.pi / (M * h))) t := by
    simpa [mul_assoc] using (hasDerivAt_id t).const_mul ((turns M k : ℝ) * (Real.pi / (M * h)))
  have h2 := ((h1.ofReal_comp.mul_const I).cexp).const_mul (c k)
  exact h2.congr_deriv (by ring)

theorem re_deriv {f : ℝ → ℂ} {f' : ℂ} {t : ℝ} (h : HasDerivAt f f' t) : HasDerivAt (fun t => (f t).re) f'.re t :=
  (Complex.reCLM.hasFDerivAt.comp_hasDerivAt t h)

/-- the steady response to a sum of oscillations -/
theorem waves_response {M : ℕ} {h : ℝ} (hM : 0 < M) (hh : 0 < h) {w xi : ℝ} (hw : w ≠ 0) (c : ℕ → ℂ)
    (hd : ∀ k < 2 * M, transferDen xi w (2 * Real.pi * fftfreq (2 * M) h k) ≠ 0) :
    Spec.IsResponse w xi (fun t => (waves M h c t).re)
      (fun t => (waves M h (fun k => c k * (1 / transferDen xi w (2 * Real.pi * fftfreq (2 * M) h k))) t).re) := by
  set d : ℕ → ℂ := fun k => c k * (1 / transferDen xi w (2 * Real.pi * fftfreq (2 * M) h k)) with hdd
  refine ⟨fun t => (waves M h (fun k => d k * (((turns M k : ℝ) * (Real.pi / (M * h)) : ℝ) * I)) t).re, fun t => ⟨re_deriv (waves_deriv M h d t), ?_⟩⟩
  refine (re_deriv (waves_deriv M h _ t)).congr_deriv ?_
  have key : waves M h (fun k => d k * (((turns M k : ℝ) * (Real.pi / (M * h)) : ℝ) * I) * (((turns M k : ℝ) * (Real.pi / (M * h)) : ℝ) * I)) t =
      ((w ^ 2 : ℝ) : ℂ) * waves M h c t - ((2 * xi * w : ℝ) : ℂ) * waves M h (fun k => d k * (((turns M k : ℝ) * (Real.pi / (M * h)) : ℝ) * I)) t - ((w ^ 2 : ℝ) : ℂ) * waves M h d t := by
    unfold waves
    rw [Finset.mul_sum, Finset.mul_sum, Finset.mul_sum, ← Finset.sum_sub_distrib, ← Finset.sum_sub_distrib]
    refine Finset.sum_congr rfl fun k hk => ?_
    beta_reduce
    have h1 := hd k (Finset.mem_range.mp hk)
    have hc : c k = d k * transferDen xi w (2 * Real.pi * fftfreq (2 * M) h k) := by
      rw [hdd]; field_simp
    rw [hc, fftfreq_turns hM hh]
    unfold transferDen
    have hw' : (w : ℂ) ≠ 0 := by exact_mod_cast hw
    generalize exp _ = E
    rw [mul_comm (Real.pi / (M * h)) ((turns M k : ℝ))]
    generalize (turns M k : ℝ) * (Real.pi / (M * h)) = W
    push_cast
    field_simp
    ring_nf
    rw [I_sq]
    ring
  rw [key]
  rw [Complex.sub_re, Complex.sub_re, Complex.re_ofReal_mul, Complex.re_ofReal_mul, Complex.re_ofReal_mul]

/-- the steady response of a damped oscillator is unique -/
theorem response_unique {w xi P : ℝ} (hw : 0 < w) (hx : 0 < xi) (hP : 0 < P) {p u1 u2 : ℝ → ℝ} (h1 : Spec.IsResponse w xi p u1) (h2 : Spec.IsResponse w xi p u2)
    (r1 : Spec.Repeats P u1) (r2 : Spec.Repeats P u2) : u1 = u2 := by
  obtain ⟨v1, h1⟩ := h1
  obtain ⟨v2, h2⟩ := h2
  set d : ℝ → ℝ := fun t => u1 t - u2 t with hd
  set v : ℝ → ℝ := fun t => v1 t - v2 t with hv
  have d1 : ∀ t, HasDerivAt d (v t) t := fun t => (h1 t).1.sub (h2 t).1
  have d2 : ∀ t, HasDerivAt v (-(2 * xi * w * v t) - w ^ 2 * d t) t := fun t => by
    exact ((h1 t).2.sub (h2 t).2).congr_deriv (by simp only [hd, hv]; ring)
  have rd : ∀ t, d (t + P) = d t := fun t => by simp only [hd, r1 t, r2 t]
  have rv : ∀ t, v (t + P) = v t := fun t => by
    have e := (d1 (t + P)).comp_add_const t P
    have : (fun x => d (x + P)) = d := funext rd
    rw [this] at e
    exact e.unique (d1 t)
  set E : ℝ → ℝ := fun t => v t ^ 2 + w ^ 2 * d t ^ 2 with hE
  have dE : ∀ t, HasDerivAt E (-(4 * xi * w * v t ^ 2)) t := fun t => by
    exact (((d2 t).pow 2).add (((d1 t).pow 2).const_mul (w ^ 2))).congr_deriv (by push_cast; ring)
  have anti : Antitone E := antitone_of_deriv_nonpos (fun t => (dE t).differentiableAt) fun t => by
    rw [(dE t).deriv]
    have : 0 ≤ 4 * xi * w * v t ^ 2 := by positivity
    linarith
  have rE : ∀ t, E (t + P) = E t := fun t => by simp only [hE, rd t, rv t]
  have rEn : ∀ (n : ℕ) t, E (t + n * P) = E t := by
    intro n
    induction n with
    | zero => intro t; simp
    | succ n ih => intro t; rw [show t + ((n + 1 : ℕ) : ℝ) * P = (t + n * P) + P by push_cast; ring, rE, ih]
  have const : ∀ s t, E s = E t := by
    have le : ∀ s t, E s ≤ E t := by
      intro s t
      obtain ⟨n, hn⟩ := exists_nat_gt ((t - s) / P)
      rw [← rEn n s]
      refine anti ?_
      rw [div_lt_iff₀ hP] at hn; linarith
    exact fun s t => le_antisymm (le s t) (le t s)
  have hv0 : ∀ t, v t = 0 := by
    intro t
    have e : E = fun _ => E 0 := funext fun s => const s 0
    have := dE t
    rw [e] at this
    have := this.unique (hasDerivAt_const t (E 0))
    have h3 : 4 * xi * w * v t ^ 2 = 0 := by linarith
    have h4 : (4 * xi * w) ≠ 0 := by positivity
    have := (mul_eq_zero.mp h3).resolve_left h4
    exact pow_eq_zero_iff (two_ne_zero) |>.mp this
  funext t
  have e : v = fun _ => 0 := funext hv0
  have := d2 t
  rw [e] at this
  have := this.unique (hasDerivAt_const t 0)
  simp only [mul_zero, neg_zero, zero_sub, neg_eq_zero] at this
  have := (mul_eq_zero.mp this).resolve_left (by positivity)
  simpa [hd, sub_eq_zero] using this

/-- the sum in pairs of opposite oscillations -/
theorem waves_pairs {m : ℕ} (h : ℝ) (c : ℕ → ℂ) (t : ℝ) :
    waves (m + 1) h c t = c 0 + c (m + 1) * exp ((-((m + 1 : ℕ) * (Real.pi / ((m + 1 : ℕ) * h) * t)) : ℝ) * I) +
      ∑ k ∈ range m, (c (k + 1) * exp ((((k + 1 : ℕ) : ℝ) * (Real.pi / ((m + 1 : ℕ) * h) * t) : ℝ) * I) +
        c (2 * (m + 1) - (k + 1)) * exp ((-(((k + 1 : ℕ) : ℝ) * (Real.pi / ((m + 1 : ℕ) * h) * t)) : ℝ) * I)) := by
  unfold waves
  generalize Real.pi / ((m + 1 : ℕ) * h) * t = φ
  rw [show 2 * (m + 1) = (m + 1) + (m + 1) by ring, Finset.sum_range_add, Finset.sum_range_succ', Finset.sum_range_succ' (fun x => c (m + 1 + x) * _),
    Finset.sum_add_distrib]
  have e1 : ∑ k ∈ range m, c (k + 1) * exp ((((turns (m + 1) (k + 1) : ℤ) : ℝ) * φ : ℝ) * I) = ∑ k ∈ range m, c (k + 1) * exp ((((k + 1 : ℕ) : ℝ) * φ : ℝ) * I) := by
    refine Finset.sum_congr rfl fun k hk => ?_
    rw [turns, if_pos (by have := Finset.mem_range.mp hk; omega)]
    push_cast; rfl
  have e2 : ∑ k ∈ range m, c (m + 1 + (k + 1)) * exp ((((turns (m + 1) (m + 1 + (k + 1)) : ℤ) : ℝ) * φ : ℝ) * I) =
      ∑ k ∈ range m, c (m + 1 + (m + 1) - (k + 1)) * exp ((-(((k + 1 : ℕ) : ℝ) * φ) : ℝ) * I) := by
    rw [← Finset.sum_range_reflect]
    refine Finset.sum_congr rfl fun k hk => ?_
    have hk := Finset.mem_range.mp hk
    rw [turns, if_neg (by omega), show m + 1 + (m - 1 - k + 1) = m + 1 + (m + 1) - (k + 1) by omega]
    congr 4
    have : (((m + 1 + (m + 1) - (k + 1) : ℕ) : ℤ) - 2 * ((m + 1 : ℕ) : ℤ)) = -((k + 1 : ℕ) : ℤ) := by omega
    rw [this]; push_cast; ring
  rw [e1, e2]
  have e3 : turns (m + 1) 0 = 0 := by simp [turns]
  have e4 : turns (m + 1) (m + 1 + 0) = -((m + 1 : ℕ) : ℤ) := by rw [turns, if_neg (by omega)]; omega
  rw [e3, e4]
  push_cast
  simp only [add_zero, zero_mul, Complex.exp_zero, mul_one, neg_mul]
  ring

theorem re_turn (c : ℂ) (φ : ℝ) : (c * exp ((φ : ℝ) * I)).re = c.re * Real.cos φ - c.im * Real.sin φ := by
  rw [Complex.mul_re, Complex.exp_ofReal_mul_I_re, Complex.exp_ofReal_mul_I_im]

theorem im_turn (c : ℂ) (φ : ℝ) : (c * exp ((φ : ℝ) * I)).im = c.re * Real.sin φ + c.im * Real.cos φ := by
  rw [Complex.mul_im, Complex.exp_ofReal_mul_I_re, Complex.exp_ofReal_mul_I_im]

theorem waves_bandLimited {M : ℕ} (hM : 0 < M) (h : ℝ) {c : ℕ → ℂ} (hc : (c M).im = 0) : Spec.BandLimited M h fun t => (waves M h c t).re := by
  obtain ⟨m, rfl⟩ : ∃ m, M = m + 1 := ⟨M - 1, by omega⟩
  refine ⟨fun k => if k = 0 then (c 0).re else (c k).re + (c (2 * (m + 1) - k)).re, fun k => -(c k).im + (c (2 * (m + 1) - k)).im, (c (m + 1)).re, fun t => ?_⟩
  dsimp only
  rw [waves_pairs, Finset.sum_range_succ']
  generalize Real.pi / ((m + 1 : ℕ) * h) * t = φ
  simp only [Complex.add_re, Complex.re_sum, re_turn, hc, Real.cos_neg, Real.sin_neg, Nat.cast_zero, zero_mul, Real.cos_zero, Real.sin_zero, mul_zero, mul_one, if_true,
    add_zero, sub_zero, Nat.succ_ne_zero, if_false, Nat.add_eq_zero_iff, one_ne_zero, and_false]
  have : ∀ k ∈ range m, ((c (k + 1)).re * Real.cos (((k + 1 : ℕ) : ℝ) * φ) - (c (k + 1)).im * Real.sin (((k + 1 : ℕ) : ℝ) * φ) +
      ((c (2 * (m + 1) - (k + 1))).re * Real.cos (((k + 1 : ℕ) : ℝ) * φ) - (c (2 * (m + 1) - (k + 1))).im * -Real.sin (((k + 1 : ℕ) : ℝ) * φ))) =
      ((c (k + 1)).re + (c (2 * (m + 1) - (k + 1))).re) * Real.cos (((k + 1 : ℕ) : ℝ) * φ) +
        (-(c (k + 1)).im + (c (2 * (m + 1) - (k + 1))).im) * Real.sin (((k + 1 : ℕ) : ℝ) * φ) := fun k _ => by ring
  rw [Finset.sum_congr rfl this]
  ring

theorem bandLimited_waves {M : ℕ} (hM : 0 < M) {h : ℝ} (hh : 0 < h) {p : ℝ → ℝ} (hp : Spec.BandLimited M h p) :
    ∃ c : ℕ → ℂ, (∀ t, p t = (waves M h c t).re) ∧ ∀ j : ℕ, waves M h c (j * h) = ((p (j * h) : ℝ) : ℂ) := by
  obtain ⟨m, rfl⟩ : ∃ m, M = m + 1 := ⟨M - 1, by omega⟩
  obtain ⟨a, b, d, hp⟩ := hp
  set c : ℕ → ℂ := fun k => if k = 0 then ⟨a 0, 0⟩ else if k < m + 1 then ⟨a k / 2, -(b k / 2)⟩ else if k = m + 1 then ⟨d, 0⟩ else
    ⟨a (2 * (m + 1) - k) / 2, b (2 * (m + 1) - k) / 2⟩ with hc
  have c0 : c 0 = ⟨a 0, 0⟩ := by simp [hc]
  have cM : c (m + 1) = ⟨d, 0⟩ := by simp [hc]
  have ck : ∀ k ∈ range m, c (k + 1) = ⟨a (k + 1) / 2, -(b (k + 1) / 2)⟩ := fun k hk => by
    have := Finset.mem_range.mp hk
    simp [hc, this]
  have cl : ∀ k ∈ range m, c (2 * (m + 1) - (k + 1)) = ⟨a (k + 1) / 2, b (k + 1) / 2⟩ := fun k hk => by
    have := Finset.mem_range.mp hk
    simp only [hc]
    rw [if_neg (by omega), if_neg (by omega), if_neg (by omega), show 2 * (m + 1) - (2 * (m + 1) - (k + 1)) = k + 1 by omega]
  have hre : ∀ t, p t = (waves (m + 1) h c t).re := by
    intro t
    rw [hp, waves_pairs, Finset.sum_range_succ']
    generalize Real.pi / ((m + 1 : ℕ) * h) * t = φ
    simp only [Complex.add_re, Complex.re_sum, re_turn, Real.cos_neg, Real.sin_neg, Nat.cast_zero, zero_mul, Real.cos_zero, Real.sin_zero, mul_zero, mul_one, add_zero, c0, cM]
    have : ∀ k ∈ range m, ((c (k + 1)).re * Real.cos (((k + 1 : ℕ) : ℝ) * φ) - (c (k + 1)).im * Real.sin (((k + 1 : ℕ) : ℝ) * φ) +
        ((c (2 * (m + 1) - (k + 1))).re * Real.cos (((k + 1 : ℕ) : ℝ) * φ) - (c (2 * (m + 1) - (k + 1))).im * -Real.sin (((k + 1 : ℕ) : ℝ) * φ))) =
        a (k + 1) * Real.cos (((k + 1 : ℕ) : ℝ) * φ) + b (k + 1) * Real.sin (((k + 1 : ℕ) : ℝ) * φ) := fun k hk => by
      rw [ck k hk, cl k hk]; ring
    rw [Finset.sum_congr rfl this]
    ring
  refine ⟨c, hre, fun j => ?_⟩
  apply Complex.ext
  · rw [Complex.ofReal_re, hre]
  · rw [Complex.ofReal_im, waves_pairs]
    have hφ : ((m + 1 : ℕ) : ℝ) * (Real.pi / (((m + 1 : ℕ) : ℝ) * h) * (j * h)) = j * Real.pi := by
      have : ((m + 1 : ℕ) : ℝ) ≠ 0 := by exact_mod_cast hM.ne'
      field_simp
    rw [hφ]
    generalize Real.pi / ((m + 1 : ℕ) * h) * (j * h) = φ
    simp only [Complex.add_im, Complex.im_sum, im_turn, Real.cos_neg, Real.sin_neg, Real.sin_nat_mul_pi, c0, cM]
    rw [Finset.sum_eq_zero fun k hk => by rw [ck k hk, cl k hk]; ring]
    ring

/-- the only band-limited function through the samples -/
theorem bandLimited_fft {M : ℕ} (hM : 0 < M) {h : ℝ} (hh : 0 < h) {p : ℝ → ℝ} (hp : Spec.BandLimited M h p) (x : List ℝ)
    (hx : ∀ j < 2 * M, p (j * h) = x.getD j 0) (t : ℝ) : p t = (waves M h (fun k => fftAt x (2 * M) k / (2 * M : ℕ)) t).re := by
  obtain ⟨c, h1, h2⟩ := bandLimited_waves hM hh hp
  rw [h1]
  congr 1
  refine Finset.sum_congr rfl fun k hk => ?_
  rw [fft_unique (by omega) x c (fun j hj => by rw [← waves_sample hM hh, h2, hx j hj]) (Finset.mem_range.mp hk)]

theorem fft_nyquist (x : List ℝ) {M : ℕ} (hM : 0 < M) : (fftAt x (2 * M) M / (2 * M : ℕ)).im = 0 := by
  have hM' : (M : ℂ) ≠ 0 := by exact_mod_cast hM.ne'
  have : fftAt x (2 * M) M = ((∑ n ∈ range (2 * M), x.getD n 0 * (-1) ^ n : ℝ) : ℂ) := by
    unfold fftAt
    push_cast
    refine Finset.sum_congr rfl fun n _ => ?_
    congr 1
    rw [show (-(2 * Real.pi * I * M * n / (2 * M)) : ℂ) = (n : ℕ) * (-(Real.pi * I)) by field_simp, Complex.exp_nat_mul, Complex.exp_neg, Complex.exp_pi_mul_I]
    norm_num
  rw [this]
  rw [show (((2 * M : ℕ) : ℂ)) = (((2 * M : ℕ) : ℝ) : ℂ) by push_cast; rfl, ← Complex.ofReal_div, Complex.ofReal_im]

/-- there is a band-limited function through the samples -/
theorem bandLimited_exists {M : ℕ} (hM : 0 < M) {h : ℝ} (hh : 0 < h) (x : List ℝ) :
    Spec.BandLimited M h (fun t => (waves M h (fun k => fftAt x (2 * M) k / (2 * M : ℕ)) t).re) ∧
    ∀ j < 2 * M, (waves M h (fun k => fftAt x (2 * M) k / (2 * M : ℕ)) (j * h)).re = x.getD j 0 := by
  refine ⟨waves_bandLimited hM h (fft_nyquist x hM), fun j hj => ?_⟩
  rw [waves_sample hM hh, fft_inverse (by omega) x hj, Complex.ofReal_re]

end Hyperstatic
