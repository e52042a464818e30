import Verif.Lemmas.Seismic
import Mathlib.Analysis.SpecialFunctions.Trigonometric.Deriv
import Mathlib.Analysis.SpecialFunctions.ExpDeriv
import Mathlib.Analysis.Calculus.Deriv.MeanValue
import Mathlib.Algebra.BigOperators.Group.List.Basic
import Mathlib.Analysis.Real.Pi.Bounds
import Mathlib.Tactic.IntervalCases

/-
C83: response of an oscillator to a record; C84: scaling a record.
-/

namespace Hyperstatic
open Spec

theorem sampleTimes_getD {n : ℕ} {dt : ℝ} {k : ℕ} (h : k < n) : (sampleTimes n dt).getD k 0 = k * dt := by
  simp [sampleTimes, List.getD_eq_getElem?_getD, h]

/-- the kernel used by the program -/
noncomputable def kern (a b t : ℝ) : ℝ := Real.exp (-(a * t)) * Real.sin (b * t) / b

theorem duhamel_Sd (w z : ℝ) {n : ℕ} (hn : 2 ≤ n) (dt : ℝ) (p : List ℝ) {k : ℕ} (hk : k < n) :
    (duhamel w z (sampleTimes n dt) p).Sd.getD k 0 =
      superposed (kern (z * (w * Real.sqrt (1 - z ^ 2))) (w * Real.sqrt (1 - z ^ 2))) p dt k := by
  have hl : (sampleTimes n dt).length = n := by simp [sampleTimes]
  have hdt : ((sampleTimes n dt).getD (n - 1) 0 - (sampleTimes n dt).getD 0 0) / ((n : ℝ) - 1) = dt := by
    rw [sampleTimes_getD (by omega), sampleTimes_getD (by omega)]
    have : (2 : ℝ) ≤ n := by exact_mod_cast hn
    have h1 : (n : ℝ) - 1 ≠ 0 := by linarith
    rw [Nat.cast_sub (by omega)]
    field_simp
    simp
  simp only [duhamel, hl, hdt]
  set b := w * Real.sqrt (1 - z ^ 2)
  rw [List.getD_eq_getElem?_getD, List.getElem?_map, List.getElem?_range hk]
  simp only [Option.map_some, Option.getD_some, convAt, superposed]
  rw [mul_right_comm, ← List.sum_map_mul_left]
  congr 1
  refine List.map_congr_left fun i hi => ?_
  have hki : k - i < n := by omega
  have : ((sampleTimes n dt).map fun s => Real.exp (-z * b * s) * Real.sin (b * s)).getD (k - i) 0 =
      Real.exp (-z * b * (((k - i : ℕ) : ℝ) * dt)) * Real.sin (b * (((k - i : ℕ) : ℝ) * dt)) := by
    rw [List.getD_eq_getElem?_getD, List.getElem?_map]
    simp [sampleTimes, hki]
  rw [this, kern]
  have : -z * b * (((k - i : ℕ) : ℝ) * dt) = -(z * b * (((k - i : ℕ) : ℝ) * dt)) := by ring
  rw [this]
  ring

theorem kern_deriv (a : ℝ) {b : ℝ} (hb : b ≠ 0) (t : ℝ) : HasDerivAt (kern a b)
    (Real.exp (-(a * t)) * (Real.cos (b * t) - a / b * Real.sin (b * t))) t := by
  have h1 : HasDerivAt (fun t => Real.exp (-(a * t))) (Real.exp (-(a * t)) * -(a * 1)) t :=
    (((hasDerivAt_id t).const_mul a).neg).exp
  have h2 : HasDerivAt (fun t => Real.sin (b * t)) (Real.cos (b * t) * (b * 1)) t := ((hasDerivAt_id t).const_mul b).sin
  refine ((h1.mul h2).div_const b).congr_deriv ?_
  field_simp
  ring

theorem kern_deriv2 (a : ℝ) {b : ℝ} (hb : b ≠ 0) (t : ℝ) :
    HasDerivAt (fun t => Real.exp (-(a * t)) * (Real.cos (b * t) - a / b * Real.sin (b * t)))
    (Real.exp (-(a * t)) * (-(2 * a) * Real.cos (b * t) + (a ^ 2 / b - b) * Real.sin (b * t))) t := by
  have h1 : HasDerivAt (fun t => Real.exp (-(a * t))) (Real.exp (-(a * t)) * -(a * 1)) t :=
    (((hasDerivAt_id t).const_mul a).neg).exp
  have h2 : HasDerivAt (fun t => Real.sin (b * t)) (Real.cos (b * t) * (b * 1)) t := ((hasDerivAt_id t).const_mul b).sin
  have h3 : HasDerivAt (fun t => Real.cos (b * t)) (-Real.sin (b * t) * (b * 1)) t := ((hasDerivAt_id t).const_mul b).cos
  refine (h1.mul (h3.sub (h2.const_mul (a / b)))).congr_deriv ?_
  simp only [Pi.sub_apply]
  field_simp
  ring

/-- the kernel is the impulse response of an oscillator with `2 ζ ω = 2 a` and `ω² = a² + b²` -/
theorem kern_impulse {a b w z : ℝ} (hb : b ≠ 0) (h1 : z * w = a) (h2 : w ^ 2 = a ^ 2 + b ^ 2) : IsImpulseResponse w z (kern a b) := by
  have d1 : deriv (kern a b) = fun t => Real.exp (-(a * t)) * (Real.cos (b * t) - a / b * Real.sin (b * t)) :=
    funext fun t => (kern_deriv a hb t).deriv
  refine ⟨by simp [kern], by rw [d1]; simp, fun t => (kern_deriv a hb t).differentiableAt, ?_, ?_⟩
  · rw [d1]; exact fun t => (kern_deriv2 a hb t).differentiableAt
  · intro t
    rw [d1, (kern_deriv2 a hb t).deriv, mul_assoc 2, h1, h2, kern]
    field_simp
    ring

/-- impulse responses of a damped oscillator are unique -/
theorem impulse_unique {w z : ℝ} (hw : 0 < w) (hz : 0 ≤ z) {f g : ℝ → ℝ} (hf : IsImpulseResponse w z f) (hg : IsImpulseResponse w z g)
    {t : ℝ} (ht : 0 ≤ t) : f t = g t := by
  obtain ⟨f0, f1, fd, fdd, fe⟩ := hf
  obtain ⟨g0, g1, gd, gdd, ge⟩ := hg
  have D : ∀ s, HasDerivAt (fun s => (deriv f s - deriv g s) ^ 2 + w ^ 2 * (f s - g s) ^ 2)
      (-(4 * z * w) * (deriv f s - deriv g s) ^ 2) s := by
    intro s
    have a1 := ((fdd s).hasDerivAt.sub (gdd s).hasDerivAt).pow 2
    have a2 := ((((fd s).hasDerivAt.sub (gd s).hasDerivAt).pow 2).const_mul (w ^ 2))
    refine (a1.add a2).congr_deriv ?_
    simp only [Pi.sub_apply]
    have e1 := fe s
    have e2 := ge s
    have e3 : deriv (deriv f) s = -(2 * z * w * deriv f s + w ^ 2 * f s) := by linarith
    have e4 : deriv (deriv g) s = -(2 * z * w * deriv g s + w ^ 2 * g s) := by linarith
    rw [e3, e4]
    push_cast
    ring
  have anti : Antitone fun s => (deriv f s - deriv g s) ^ 2 + w ^ 2 * (f s - g s) ^ 2 := by
    refine antitone_of_deriv_nonpos (fun s => (D s).differentiableAt) fun s => ?_
    rw [(D s).deriv]
    have := mul_nonneg (mul_nonneg hz hw.le) (sq_nonneg (deriv f s - deriv g s))
    linarith
  have k := anti ht
  simp only [f0, g0, f1, g1] at k
  have k1 : w ^ 2 * (f t - g t) ^ 2 ≤ 0 := by nlinarith [sq_nonneg (deriv f t - deriv g t)]
  have k2 : (f t - g t) ^ 2 = 0 := le_antisymm (by
    by_contra hc
    have := mul_pos (pow_pos hw 2) (not_le.mp hc)
    linarith) (sq_nonneg _)
  have := pow_eq_zero_iff (two_ne_zero) |>.mp k2
  linarith

/-- C83, the property: `duhamel` superposes the responses of the damped oscillator to the impulses of the record. -/
def C83_claim : Prop := ∀ (w z dt : ℝ) (n : ℕ), 0 < w → 0 ≤ z → z < 1 → 0 < dt → 2 ≤ n →
  ∃ h, IsImpulseResponse w z h ∧ ∀ (p : List ℝ), p.length = n → ∀ k, k < n →
    (duhamel w z (sampleTimes n dt) p).Sd.getD k 0 = superposed h p dt k

/-- What `duhamel` computes: the response of another oscillator, with frequency `w √(1-z⁴)` and damping ratio `z/√(1+z²)`.
It is the stated one only without damping (`C83_undamped_partial`). -/
theorem C83_actual_partial {w z dt : ℝ} {n : ℕ} (hw : 0 < w) (h0 : 0 ≤ z) (h1 : z < 1) (hn : 2 ≤ n) :
    ∃ h, IsImpulseResponse (w * Real.sqrt (1 - z ^ 4)) (z / Real.sqrt (1 + z ^ 2)) h ∧ ∀ (p : List ℝ) (k : ℕ), k < n →
      (duhamel w z (sampleTimes n dt) p).Sd.getD k 0 = superposed h p dt k := by
  have hz2 : 0 < 1 - z ^ 2 := by nlinarith
  have s1 : 0 < Real.sqrt (1 - z ^ 2) := Real.sqrt_pos.mpr hz2
  have s2 : 0 < Real.sqrt (1 + z ^ 2) := Real.sqrt_pos.mpr (by positivity)
  have e : Real.sqrt (1 - z ^ 4) = Real.sqrt (1 - z ^ 2) * Real.sqrt (1 + z ^ 2) := by
    rw [← Real.sqrt_mul hz2.le]; congr 1; ring
  refine ⟨_, kern_impulse (mul_pos hw s1).ne' ?_ ?_, fun p k hk => duhamel_Sd w z hn dt p hk⟩
  · rw [e]; field_simp
  · rw [e]
    have q1 := Real.sq_sqrt hz2.le
    have q2 := Real.sq_sqrt (by positivity : 0 ≤ 1 + z ^ 2)
    simp only [mul_pow, q1, q2]
    ring

/-- C83 without damping.  Missing: positive damping, where it is false (`C83_false`). -/
theorem C83_undamped_partial {w dt : ℝ} {n : ℕ} (hw : 0 < w) (hn : 2 ≤ n) :
    ∃ h, IsImpulseResponse w 0 h ∧ ∀ (p : List ℝ) (k : ℕ), k < n →
      (duhamel w 0 (sampleTimes n dt) p).Sd.getD k 0 = superposed h p dt k := by
  have := C83_actual_partial (dt := dt) hw le_rfl zero_lt_one hn
  simpa using this

/-- C83 is false: with damping the response decays too slowly. -/
theorem C83_false : ¬ C83_claim := by
  intro hc
  have sq : Real.sqrt (1 - (3 / 5) ^ 2) = 4 / 5 := by
    rw [show (1 - (3 / 5) ^ 2 : ℝ) = (4 / 5) ^ 2 by norm_num]; exact Real.sqrt_sq (by norm_num)
  obtain ⟨h, hh, hd⟩ := hc 5 (3 / 5) (1 / 4) 2 (by norm_num) (by norm_num) (by norm_num) (by norm_num) le_rfl
  have k := hd [1, 0] rfl 1 (by norm_num)
  rw [duhamel_Sd _ _ le_rfl _ _ (by norm_num), sq] at k
  have true_h := impulse_unique (by norm_num) (by norm_num) hh
    (kern_impulse (a := 3) (b := 4) (w := 5) (z := 3 / 5) (by norm_num) (by norm_num) (by norm_num)) (t := 1 / 4) (by norm_num)
  simp [superposed, List.range_succ] at k
  norm_num at k true_h
  rw [true_h] at k
  norm_num [kern] at k
  have pos : 0 < Real.sin 1 := Real.sin_pos_of_pos_of_lt_pi one_pos (by linarith [Real.pi_gt_three])
  exact pos.ne' k

/-- The response is linear in the record. -/
theorem C83_superposition (w z dt a b : ℝ) {n : ℕ} (hn : 2 ≤ n) (p q r : List ℝ) (hp : p.length = n) (hq : q.length = n)
    (hr : r.length = n) (e : ∀ i, i < n → r.getD i 0 = a * p.getD i 0 + b * q.getD i 0) (k : ℕ) (hk : k < n) :
    (duhamel w z (sampleTimes n dt) r).Sd.getD k 0 =
      a * (duhamel w z (sampleTimes n dt) p).Sd.getD k 0 + b * (duhamel w z (sampleTimes n dt) q).Sd.getD k 0 := by
  simp only [duhamel_Sd _ _ hn _ _ hk, superposed]
  rw [← List.sum_map_mul_left, ← List.sum_map_mul_left, ← List.sum_map_add]
  congr 1
  refine List.map_congr_left fun i hi => ?_
  rw [e i (by have := List.mem_range.mp hi; omega)]
  ring

/-- The response up to a time does not depend on the later part of the record. -/
theorem C83_causal (w z dt : ℝ) {n : ℕ} (hn : 2 ≤ n) (p q : List ℝ) {k : ℕ} (hk : k < n) (e : ∀ i, i ≤ k → p.getD i 0 = q.getD i 0) :
    (duhamel w z (sampleTimes n dt) p).Sd.getD k 0 = (duhamel w z (sampleTimes n dt) q).Sd.getD k 0 := by
  simp only [duhamel_Sd _ _ hn _ _ hk, superposed]
  congr 1
  refine List.map_congr_left fun i hi => ?_
  rw [e i (by have := List.mem_range.mp hi; omega)]

/-- The velocities and accelerations are the displacements multiplied once and twice by the damped frequency. -/
theorem C83_derived (w z : ℝ) (t p : List ℝ) (k : ℕ) :
    (duhamel w z t p).Sv.getD k 0 = w * Real.sqrt (1 - z ^ 2) * (duhamel w z t p).Sd.getD k 0 ∧
    (duhamel w z t p).Sa.getD k 0 = w ^ 2 * Real.sqrt (1 - z ^ 2) ^ 2 * (duhamel w z t p).Sd.getD k 0 := by
  have m : ∀ (l : List ℝ) (c : ℝ), (l.map (· * c)).getD k 0 = c * l.getD k 0 := by
    intro l c
    simp only [List.getD_eq_getElem?_getD, List.getElem?_map]
    cases l[k]? <;> simp [mul_comm]
  simp only [duhamel, m, true_and]
  ring

example : ∃ h, IsImpulseResponse 5 0 h ∧ (duhamel 5 0 (sampleTimes 3 0.02) [1, -2, 1]).Sd.getD 2 0 = superposed h [1, -2, 1] 0.02 2 :=
  (C83_undamped_partial (w := 5) (dt := 0.02) (n := 3) (by norm_num) (by norm_num)).imp fun _ h => ⟨h.1, h.2 _ 2 (by norm_num)⟩

example : (duhamel 5 0.05 (sampleTimes 3 0.02) [3, 4, 5]).Sd.getD 1 0 = (duhamel 5 0.05 (sampleTimes 3 0.02) [3, 4, -7]).Sd.getD 1 0 :=
  C83_causal _ _ _ (by norm_num) _ _ (by norm_num) (by intro i hi; interval_cases i <;> rfl)

example : (duhamel 5 0.05 (sampleTimes 2 0.02) [7, 2]).Sd.getD 1 0 =
    2 * (duhamel 5 0.05 (sampleTimes 2 0.02) [2, 1]).Sd.getD 1 0 + 3 * (duhamel 5 0.05 (sampleTimes 2 0.02) [1, 0]).Sd.getD 1 0 :=
  C83_superposition _ _ _ _ _ le_rfl _ _ _ rfl rfl rfl (by intro i hi; interval_cases i <;> norm_num) 1 (by norm_num)

/-- C84, the property: `amptitude(wave, a_max)` scales a record to the peak value `a_max`. -/
def C84_claim : Prop := ∀ (wave : List ℝ) (amax : ℝ), 0 < amax → (∃ x ∈ wave, x ≠ 0) →
  ∃ out c, amptitude wave amax = .ok out ∧ 0 < c ∧ out = wave.map (c * ·) ∧ IsPeak out amax

theorem foldl_max (l : List ℝ) (x : ℝ) : l.foldl max x ∈ x :: l ∧ ∀ y ∈ x :: l, y ≤ l.foldl max x := by
  induction l generalizing x with
  | nil => simp
  | cons y l ih =>
    obtain ⟨h1, h2⟩ := ih (max x y)
    simp only [List.foldl_cons]
    constructor
    · rcases List.mem_cons.mp h1 with h | h
      · rw [h]; rcases max_choice x y with e | e <;> simp [e]
      · simp [h]
    · intro z hz
      have hm := h2 _ List.mem_cons_self
      rcases List.mem_cons.mp hz with rfl | hz
      · exact (le_max_left _ _).trans hm
      · rcases List.mem_cons.mp hz with rfl | hz
        · exact (le_max_right _ _).trans hm
        · exact h2 _ (List.mem_cons_of_mem _ hz)

theorem mapM_div (l : List ℝ) (a : ℝ) {m : ℝ} (hm : m ≠ 0) : l.mapM (fun i => pyDiv (i * a) m) = .ok (l.map (a / m * ·)) := by
  induction l with
  | nil => rfl
  | cons x l ih =>
    rw [List.mapM_cons, ih]
    simp [pyDiv, hm, bind, Except.bind, pure, Except.pure]
    ring

/-- C84 for records whose largest value is also the largest absolute value.  Missing: records whose extreme value is
negative, where it is false (`C84_false`). -/
theorem C84_scaled_partial (wave : List ℝ) (amax : ℝ) (ha : 0 < amax) {m : ℝ} (hm : m ∈ wave) (h0 : 0 < m) (hp : ∀ x ∈ wave, |x| ≤ m) :
    ∃ out c, amptitude wave amax = .ok out ∧ 0 < c ∧ out = wave.map (c * ·) ∧ IsPeak out amax := by
  cases wave with
  | nil => simp at hm
  | cons x l =>
    obtain ⟨h1, h2⟩ := foldl_max l x
    have e : l.foldl max x = m := le_antisymm ((le_abs_self _).trans (hp _ h1)) (h2 _ hm)
    have hc : 0 < amax / m := div_pos ha h0
    refine ⟨_, amax / m, ?_, hc, rfl, ⟨amax, ?_, abs_of_pos ha⟩, ?_⟩
    · simp only [amptitude, pyMax, bind, Except.bind, e]
      exact mapM_div _ _ h0.ne'
    · exact List.mem_map.mpr ⟨m, hm, by field_simp⟩
    · intro y hy
      obtain ⟨z, hz, rfl⟩ := List.mem_map.mp hy
      rw [abs_mul, abs_of_pos hc]
      calc amax / m * |z| ≤ amax / m * m := mul_le_mul_of_nonneg_left (hp z hz) hc.le
        _ = amax := by field_simp

/-- C84 is false: the record 1, -2 scaled to 1 keeps the value -2. -/
theorem C84_false : ¬ C84_claim := by
  intro h
  obtain ⟨out, c, h1, -, -, -, h5⟩ := h [1, -2] 1 one_pos ⟨1, by simp, one_ne_zero⟩
  have : amptitude [1, -2] 1 = .ok [1, -2] := by
    have e : max (1 : ℝ) (-2) = 1 := by norm_num
    simp only [amptitude, pyMax, bind, Except.bind, List.foldl_cons, List.foldl_nil, e]
    have := mapM_div [1, -2] 1 (one_ne_zero (α := ℝ))
    norm_num at this ⊢
    exact this
  rw [this] at h1
  cases h1
  have := h5 (-2) (by simp)
  norm_num at this

example : ∃ out c, amptitude [1, -2, 3] 35 = .ok out ∧ 0 < c ∧ out = [1, -2, 3].map (c * ·) ∧ IsPeak out 35 :=
  C84_scaled_partial _ _ (by norm_num) (m := 3) (by simp) (by norm_num) (by intro x hx; simp at hx; rcases hx with rfl | rfl | rfl <;> norm_num)

end Hyperstatic
