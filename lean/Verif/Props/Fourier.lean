import Verif.Lemmas.Fourier
import Verif.Props.Wave

/-
C129: response spectra by Fourier transforms; C130: their dependence on the record.
-/

namespace Hyperstatic

open Complex Finset
open scoped BigOperators

theorem pyMax_largest {l : List ℝ} {m : ℝ} (h : pyMax l = .ok m) : Spec.IsLargest l m := by
  cases l with
  | nil => cases h
  | cons x l => cases h; exact foldl_max l x

theorem pyMax_of_largest {l : List ℝ} {m : ℝ} (h : Spec.IsLargest l m) : pyMax l = .ok m := by
  cases l with
  | nil => cases h.1
  | cons x l =>
    obtain ⟨h1, h2⟩ := foldl_max l x
    exact congrArg _ (le_antisymm (h.2 _ h1) (h2 _ h.1))

theorem nex2pow_256 : nex2pow 256 * 16 = 2 * 2048 := by
  unfold nex2pow
  have h2 : Real.log 2 ≠ 0 := (Real.log_pos (by norm_num)).ne'
  rw [show (256 : ℝ) = 2 ^ 8 by norm_num, Real.log_pow, mul_div_assoc, div_self h2, mul_one]
  norm_num

theorem transferDen_ne {xi wd : ℝ} (hx : 0 < xi) (hw : 0 < wd) (w : ℝ) : transferDen xi wd w ≠ 0 := by
  intro h
  have h1 : (transferDen xi wd w).re = 1 - (w / wd) ^ 2 := by
    have : transferDen xi wd w = ((1 - (w / wd) ^ 2 : ℝ) : ℂ) + ((2 * xi * (w / wd) : ℝ) : ℂ) * I := by unfold transferDen; push_cast; ring
    rw [this]; simp [-ofReal_sub, -ofReal_div, -ofReal_pow, -ofReal_mul]
  have h2 : (transferDen xi wd w).im = 2 * xi * (w / wd) := by
    have : transferDen xi wd w = ((1 - (w / wd) ^ 2 : ℝ) : ℂ) + ((2 * xi * (w / wd) : ℝ) : ℂ) * I := by unfold transferDen; push_cast; ring
    rw [this]; simp [-ofReal_sub, -ofReal_div, -ofReal_pow, -ofReal_mul]
  rw [h] at h1 h2
  simp only [zero_re, zero_im] at h1 h2
  rcases mul_eq_zero.mp h2.symm with h3 | h3
  · linarith
  · rw [h3] at h1; norm_num at h1

/-- the sample computed by the inverse transform -/
theorem ifft_sample {M : ℕ} (hM : 0 < M) {h : ℝ} (hh : 0 < h) (c : ℕ → ℂ) (j : ℕ) :
    (ifftAt c (2 * M) j).re * (2 * M : ℕ) = (waves M h c (j * h)).re := by
  have hM' : ((2 * M : ℕ) : ℂ) ≠ 0 := by exact_mod_cast (by omega : 2 * M ≠ 0)
  rw [waves_sample hM hh]
  have : ifftAt c (2 * M) j * ((2 * M : ℕ) : ℂ) = ∑ k ∈ range (2 * M), c k * exp (2 * Real.pi * I * k * j / ((2 * M : ℕ) : ℂ)) := by
    unfold ifftAt; rw [div_mul_cancel₀ _ hM']
  rw [← this, show (((2 * M : ℕ) : ℂ)) = (((2 * M : ℕ) : ℝ) : ℂ) by push_cast; rfl, Complex.re_mul_ofReal]

/-- `max_response` gives the ordinate of an oscillator with frequency `√(1-ξ) 2 π / T` -/
theorem maxResponse_ordinate {M : ℕ} (hM : 0 < M) {h xi T : ℝ} (hh : 0 < h) (hx : 0 < xi) (h1 : xi < 1) (hT : 0 < T) (r : List ℝ) :
    ∃ s, maxResponse r (2 * M) h xi T = some s ∧ Spec.IsOrdinate M h (fun j => r.getD j 0) (Real.sqrt (1 - xi) * (2 * Real.pi / T)) xi s := by
  have hw : 0 < Real.sqrt (1 - xi) * (2 * Real.pi / T) := mul_pos (Real.sqrt_pos.mpr (by linarith)) (by positivity)
  have hden : ∀ w, transferDen xi (Real.sqrt (1 - xi) * (2 * Real.pi / T)) w ≠ 0 := fun w => transferDen_ne hx hw w
  unfold maxResponse
  rw [if_neg (not_le.mpr h1), if_neg (by rintro ⟨k, -, hk⟩; exact hden _ hk)]
  dsimp only
  generalize Real.sqrt (1 - xi) * (2 * Real.pi / T) = wd at hw hden
  simp only [ifft_sample hM hh]
  set c : ℕ → ℂ := fun k => fftAt r (2 * M) k / (2 * M : ℕ) with hc
  set d : ℕ → ℂ := fun k => fftAt r (2 * M) k / (2 * M : ℕ) * (1 / transferDen xi wd (2 * Real.pi * fftfreq (2 * M) h k)) with hd
  obtain ⟨b1, b2⟩ := bandLimited_exists hM hh r
  have hu := waves_response hM hh hw.ne' c fun k _ => hden _
  have hr : Spec.Repeats (2 * M * h) fun t => (waves M h d t).re := fun t => by
    have := waves_repeat hM hh d t
    push_cast at this
    simp only [this]
  have hne : (List.range (2 * M)).map (fun j : ℕ => (waves M h d (j * h)).re) ≠ [] := by simp; omega
  obtain ⟨x, l, e⟩ := List.exists_cons_of_ne_nil hne
  have hmax : pyMax ((List.range (2 * M)).map (fun j : ℕ => (waves M h d (j * h)).re)) = .ok (l.foldl max x) := by rw [e]; rfl
  rw [hmax]
  refine ⟨_, rfl, ⟨_, _, b1, b2, hu, hr⟩, fun p u hp hj hpu hru => ?_⟩
  have ep : p = fun t => (waves M h c t).re := funext fun t => bandLimited_fft hM hh hp r hj t
  have eu : u = fun t => (waves M h d t).re := response_unique hw hx (by positivity) hpu (by rw [ep]; exact hu) hru hr
  rw [eu]
  have := pyMax_largest hmax
  rw [show (9.8 : ℝ) * (l.foldl max x / (98 / 10)) = l.foldl max x by ring]
  refine ⟨?_, fun j hj => this.2 _ (List.mem_map.mpr ⟨j, List.mem_range.mpr hj, rfl⟩)⟩
  obtain ⟨j, hj, hv⟩ := List.mem_map.mp this.1
  exact ⟨j, List.mem_range.mp hj, hv⟩

theorem specPeriods_ok {dt : ℝ} (hd : 0 < dt) : specPeriods dt = .ok ((List.range ⌈6 / dt⌉₊).map fun k : ℕ => dt + (k : ℝ) * dt) := by
  unfold specPeriods pyDiv
  rw [if_neg hd.ne']
  rfl

theorem fft2spec_ok {ag : List ℝ} {m dt : ℝ} (hm : Spec.IsLargest ag m) (h0 : m ≠ 0) (hd : 0 < dt) (xi amax : ℝ) :
    fft2spec ag dt xi amax = .ok ((List.range ⌈6 / dt⌉₊).map fun k : ℕ => dt + (k : ℝ) * dt,
      ((List.range ⌈6 / dt⌉₊).map fun k : ℕ => dt + (k : ℝ) * dt).map fun t => maxResponse (ag.map fun x => 1 / 100 * x * amax / m) (2 * 2048) dt xi t) := by
  unfold fft2spec scaledRecord
  rw [pyMax_of_largest hm, specPeriods_ok hd, nex2pow_256]
  simp only [bind, Except.bind, pure, Except.pure, if_neg h0, Option.bind_some]

/-! ## C129 -/

/-- What `fft2spec` does, for oscillators of frequency `f ξ T` for period `T`: for a record whose largest number is positive, a positive step and
`0 < ξ < 1`, it returns the periods `dt, 2 dt, ...`, one for each multiple of `dt` before `6 + dt`, and for each the ordinate of the record,
scaled in m/s² so that its largest number is `a_max` cm/s², and repeated every 4096 samples. -/
def Spec.FftSpectrum (f : ℝ → ℝ → ℝ) : Prop := ∀ (ag : List ℝ) (m dt xi amax : ℝ), IsLargest ag m → 0 < m → 0 < dt → 0 < xi → xi < 1 →
  ∃ T Sa, fft2spec ag dt xi amax = .ok (T, Sa) ∧ Sa.length = T.length ∧ (∀ i : ℕ, i < T.length ↔ ((i : ℝ) + 1) * dt < 6 + dt) ∧
    ∀ (i : ℕ) (hi : i < T.length), T[i] = (i + 1) * dt ∧ ∃ s, Sa[i]? = some (some s) ∧
      IsOrdinate 2048 dt (fun j => 0.01 * amax / m * ag.getD j 0) (f xi T[i]) xi s

/-- The oscillator has natural period `T`. -/
def C129_claim : Prop := Spec.FftSpectrum fun _ T => 2 * Real.pi / T

theorem map_getD (l : List ℝ) (f : ℝ → ℝ) (h0 : f 0 = 0) (j : ℕ) : (l.map f).getD j 0 = f (l.getD j 0) := by
  simp only [List.getD_eq_getElem?_getD, List.getElem?_map]
  cases l[j]? <;> simp [h0]

/-- Proved with the frequency `√(1-ξ)` times the natural one.  Missing: the natural frequency. -/
theorem C129_shifted_partial : Spec.FftSpectrum fun xi T => Real.sqrt (1 - xi) * (2 * Real.pi / T) := by
  intro ag m dt xi amax hm h0 hd hx h1
  refine ⟨_, _, fft2spec_ok hm h0.ne' hd xi amax, by simp, fun i => ?_, fun i hi => ?_⟩
  · simp only [List.length_map, List.length_range, Nat.lt_ceil, lt_div_iff₀ hd]
    constructor <;> intro h <;> linarith
  · simp only [List.length_map, List.length_range] at hi
    have hT : 0 < dt + (i : ℝ) * dt := by positivity
    obtain ⟨s, e, hs⟩ := maxResponse_ordinate (M := 2048) (by norm_num) hd hx h1 hT (ag.map fun x => 1 / 100 * x * amax / m)
    refine ⟨by simp; ring, s, ?_, ?_⟩
    · rw [List.getElem?_map, List.getElem?_map, List.getElem?_range hi]
      simp only [Option.map_some, e]
    · convert hs using 1
      · funext j
        rw [map_getD _ _ (by simp)]; ring
      · simp

/-- the record 1, -1, 1, ... -/
noncomputable def alternating : List ℝ := (List.range 4096).map fun j => (-1) ^ j

theorem alternating_getD {j : ℕ} (hj : j < 4096) : alternating.getD j 0 = (-1) ^ j := by
  unfold alternating
  rw [List.getD_eq_getElem?_getD, List.getElem?_map, List.getElem?_range hj]
  rfl

theorem alternating_largest : Spec.IsLargest alternating 1 := by
  refine ⟨List.mem_map.mpr ⟨0, by simp, by simp⟩, fun x hx => ?_⟩
  obtain ⟨j, -, rfl⟩ := List.mem_map.mp hx
  rcases neg_one_pow_eq_or ℝ j with h | h <;> rw [h]; norm_num

/-- the ordinate of this record at distance 6 s with damping ratio 1/2 -/
theorem alternating_ordinate {w s q : ℝ} (hw : 0 < w) (hq : q * w ^ 2 = (Real.pi / 6) ^ 2) (hq1 : q < 1) {x : ℕ → ℝ} (hx : ∀ j < 4096, x j = (-1) ^ j)
    (h : Spec.IsOrdinate 2048 6 x w (1 / 2) s) : 9.8 * s = (1 - q) / ((1 - q) ^ 2 + q) := by
  have hpi := Real.pi_pos
  have hq0 : 0 < q := by
    by_contra hc
    have : q * w ^ 2 ≤ 0 := mul_nonpos_of_nonpos_of_nonneg (not_lt.mp hc) (by positivity)
    have : 0 < (Real.pi / 6) ^ 2 := by positivity
    linarith
  set D : ℝ := (1 - q) ^ 2 + q with hD
  have hDp : 0 < D := by positivity
  set A : ℝ := (1 - q) / D with hA
  have hA0 : 0 ≤ A := div_nonneg (by linarith) hDp.le
  set O : ℝ := Real.pi / 6 with hO
  set B : ℝ := O / w / D with hB
  have hB' : B * w * D = O := by rw [hB]; field_simp
  have hA' : A * D = 1 - q := by rw [hA]; field_simp
  have e1 : A * O ^ 2 = w ^ 2 * (A - 1) + w * O * B := by
    have : D * (A * O ^ 2) = D * (w ^ 2 * (A - 1) + w * O * B) := by
      have h1 : D * (A * O ^ 2) = (1 - q) * O ^ 2 := by rw [← hA']; ring
      have h2 : D * (w ^ 2 * (A - 1) + w * O * B) = w ^ 2 * ((1 - q) - D) + O * O := by rw [← hA', ← hB']; ring
      rw [h1, h2, ← hq, show O * O = q * w ^ 2 by rw [hq]; ring, hD]; ring
    exact mul_left_cancel₀ hDp.ne' this
  have e2 : B * O ^ 2 = w ^ 2 * B - w * O * A := by
    have : D * (B * O ^ 2) = D * (w ^ 2 * B - w * O * A) := by
      have h1 : D * (w ^ 2 * B - w * O * A) = w * (B * w * D) - w * O * (A * D) := by ring
      have h2 : D * (B * O ^ 2) = q * w * (B * w * D) := by rw [← hq]; ring
      rw [h1, h2, hA', hB']; ring
    exact mul_left_cancel₀ hDp.ne' this
  have dc : ∀ t : ℝ, HasDerivAt (fun t => Real.cos (O * t)) (-(O * Real.sin (O * t))) t := fun t =>
    ((Real.hasDerivAt_cos (O * t)).comp t ((hasDerivAt_id t).const_mul O)).congr_deriv (by simp; ring)
  have ds : ∀ t : ℝ, HasDerivAt (fun t => Real.sin (O * t)) (O * Real.cos (O * t)) t := fun t =>
    ((Real.hasDerivAt_sin (O * t)).comp t ((hasDerivAt_id t).const_mul O)).congr_deriv (by simp; ring)
  have cj : ∀ j : ℕ, Real.cos (O * (j * 6)) = (-1) ^ j := fun j => by
    rw [show O * (j * 6) = j * Real.pi by rw [hO]; ring, Real.cos_nat_mul_pi]
  have sj : ∀ j : ℕ, Real.sin (O * (j * 6)) = 0 := fun j => by
    rw [show O * (j * 6) = j * Real.pi by rw [hO]; ring, Real.sin_nat_mul_pi]
  have rep : ∀ t, O * (t + 2 * (2048 : ℕ) * 6) = O * t + (2048 : ℕ) * (2 * Real.pi) := fun t => by rw [hO]; push_cast; ring
  have := h.2 (fun t => Real.cos (O * t)) (fun t => A * Real.cos (O * t) + B * Real.sin (O * t))
    ⟨fun _ => 0, fun _ => 0, 1, fun t => by simp [hO]; congr 1; ring⟩ (fun j hj => by rw [cj, hx j hj])
    ⟨fun t => A * -(O * Real.sin (O * t)) + B * (O * Real.cos (O * t)), fun t => ⟨((dc t).const_mul A).add ((ds t).const_mul B), ?_⟩⟩
    (fun t => by simp only [rep, Real.cos_add_nat_mul_two_pi, Real.sin_add_nat_mul_two_pi])
  · obtain ⟨⟨j, -, h1⟩, h2⟩ := this
    have h3 := h2 0 (by norm_num)
    simp only [cj, sj, mul_zero, add_zero] at h1 h3
    rw [pow_zero, mul_one] at h3
    rcases neg_one_pow_eq_or ℝ j with hj | hj <;> rw [hj] at h1 <;> linarith
  · refine ((((ds t).const_mul O).neg.const_mul A).add (((dc t).const_mul O).const_mul B)).congr_deriv ?_
    have k1 : A * -(O * (O * Real.cos (O * t))) + B * (O * -(O * Real.sin (O * t))) = -(A * O ^ 2) * Real.cos (O * t) - B * O ^ 2 * Real.sin (O * t) := by ring
    rw [k1, e1, e2]; ring

/-- With damping ratio 1/2 the ordinate of the alternating record at 6 s is 2/3 instead of 12/13 of its peak. -/
theorem C129_false : ¬ C129_claim := by
  intro h
  have hpi := Real.pi_pos
  obtain ⟨T, Sa, e, -, hl, hT⟩ := h alternating 1 6 (1 / 2) 100 alternating_largest one_pos (by norm_num) (by norm_num) (by norm_num)
  obtain ⟨T', Sa', e', -, -, hT'⟩ := C129_shifted_partial alternating 1 6 (1 / 2) 100 alternating_largest one_pos (by norm_num) (by norm_num) (by norm_num)
  rw [e] at e'
  cases e'
  have h0 : 0 < T.length := (hl 0).mpr (by norm_num)
  obtain ⟨t0, s, hs, ho⟩ := hT 0 h0
  obtain ⟨-, s', hs', ho'⟩ := hT' 0 h0
  rw [hs] at hs'
  cases hs'
  have t0' : T[0] = 6 := by rw [t0]; norm_num
  rw [t0'] at ho ho'
  have hx : ∀ j < 4096, (fun j => (0.01 : ℝ) * 100 / 1 * alternating.getD j 0) j = (-1) ^ j := fun j hj => by
    simp only [alternating_getD hj]; norm_num
  have h1 := alternating_ordinate (q := 1 / 4) (by positivity) (by ring) (by norm_num) hx ho
  have h2 := alternating_ordinate (q := 1 / 2) (by positivity) (by rw [mul_pow, Real.sq_sqrt (by norm_num)]; ring) (by norm_num) hx ho'
  rw [h1] at h2
  norm_num at h2

-- a record to which the theorem applies
example : Spec.IsLargest [0.1, -0.3, 0.2] 0.2 ∧ (0 : ℝ) < 0.2 := by
  refine ⟨⟨by simp, fun x hx => ?_⟩, by norm_num⟩
  simp at hx; rcases hx with rfl | rfl | rfl <;> norm_num

/-! ## C130 -/

/-- sample `j` of `max_response` -/
noncomputable def responseSample (r : List ℝ) (N : ℕ) (dt xi T : ℝ) (j : ℕ) : ℝ :=
  (ifftAt (fun k => fftAt r N k / N * (1 / transferDen xi (Real.sqrt (1 - xi) * (2 * Real.pi / T)) (2 * Real.pi * fftfreq N dt k))) N j).re * N

theorem maxResponse_eq (r : List ℝ) (N : ℕ) (dt xi T : ℝ) : maxResponse r N dt xi T =
    if 1 ≤ xi then none
    else if ∃ k < N, transferDen xi (Real.sqrt (1 - xi) * (2 * Real.pi / T)) (2 * Real.pi * fftfreq N dt k) = 0 then none
    else match pyMax ((List.range N).map (responseSample r N dt xi T)) with | .ok m => some (m / (98 / 10)) | .error _ => none := rfl

theorem pyMax_map {l : List ℝ} {c : ℝ} (hc : 0 ≤ c) : pyMax (l.map (c * ·)) = (pyMax l).map (c * ·) := by
  cases h : pyMax l with
  | error e =>
    cases l with
    | nil => cases h; rfl
    | cons x l => cases h
  | ok m =>
    refine pyMax_of_largest ⟨List.mem_map.mpr ⟨m, (pyMax_largest h).1, rfl⟩, fun x hx => ?_⟩
    obtain ⟨y, hy, rfl⟩ := List.mem_map.mp hx
    exact mul_le_mul_of_nonneg_left ((pyMax_largest h).2 y hy) hc

theorem pyMax_congr {l l' : List ℝ} (h : ∀ x, x ∈ l ↔ x ∈ l') : pyMax l = pyMax l' := by
  cases e : pyMax l with
  | error _ =>
    cases l with
    | nil =>
      cases l' with
      | nil => exact e.symm
      | cons x l' => exact absurd ((h x).mpr (by simp)) (by simp)
    | cons x l => cases e
  | ok m =>
    have hm := pyMax_largest e
    exact (pyMax_of_largest ⟨(h m).mp hm.1, fun x hx => hm.2 x ((h x).mpr hx)⟩).symm

theorem maxResponse_congr {r r' : List ℝ} {N : ℕ} {dt xi T c : ℝ} (hc : 0 ≤ c)
    (h : ∀ x, x ∈ (List.range N).map (responseSample r' N dt xi T) ↔ x ∈ ((List.range N).map (responseSample r N dt xi T)).map (c * ·)) :
    maxResponse r' N dt xi T = (maxResponse r N dt xi T).map (c * ·) := by
  rw [maxResponse_eq, maxResponse_eq]
  split_ifs
  · rfl
  · rfl
  · have e := (pyMax_congr h).trans (pyMax_map hc)
    rw [e]
    cases pyMax ((List.range N).map (responseSample r N dt xi T)) with
    | error _ => rfl
    | ok m => simp [Except.map]; ring

theorem fftAt_scale (r : List ℝ) (c : ℝ) (N k : ℕ) : fftAt (r.map (c * ·)) N k = c * fftAt r N k := by
  unfold fftAt
  rw [Finset.mul_sum]
  refine Finset.sum_congr rfl fun n _ => ?_
  rw [map_getD _ _ (by simp)]
  push_cast; ring

theorem maxResponse_scale (r : List ℝ) {c : ℝ} (hc : 0 ≤ c) (N : ℕ) (dt xi T : ℝ) : maxResponse (r.map (c * ·)) N dt xi T = (maxResponse r N dt xi T).map (c * ·) := by
  refine maxResponse_congr hc fun x => ?_
  rw [List.map_map]
  have : (responseSample (r.map (c * ·)) N dt xi T) = (c * ·) ∘ responseSample r N dt xi T := by
    funext j
    simp only [Function.comp, responseSample, fftAt_scale, ifftAt]
    have : (∑ k ∈ range N, (c : ℂ) * fftAt r N k / N * (1 / transferDen xi (Real.sqrt (1 - xi) * (2 * Real.pi / T)) (2 * Real.pi * fftfreq N dt k)) *
        exp (2 * Real.pi * I * k * j / N)) / N = (c : ℂ) * ((∑ k ∈ range N, fftAt r N k / N * (1 / transferDen xi (Real.sqrt (1 - xi) * (2 * Real.pi / T)) (2 * Real.pi * fftfreq N dt k)) *
        exp (2 * Real.pi * I * k * j / N)) / N) := by
      rw [← mul_div_assoc (c : ℂ) (Finset.sum _ _), Finset.mul_sum]
      congr 1
      exact Finset.sum_congr rfl fun k _ => by ring
    rw [this, Complex.re_ofReal_mul]; ring
  rw [this]

/-- Multiplying a record by a positive number does not change the spectrum. -/
theorem C130_scale (ag : List ℝ) (dt xi amax : ℝ) {c : ℝ} (hc : 0 < c) : fft2spec (ag.map (c * ·)) dt xi amax = fft2spec ag dt xi amax := by
  unfold fft2spec scaledRecord
  rw [pyMax_map hc.le]
  cases pyMax ag with
  | error e => rfl
  | ok m =>
    simp only [Except.map, bind, Except.bind, pure, Except.pure, List.map_map]
    have : (if c * m = 0 then (none : Option (List ℝ)) else some (ag.map ((fun x => 1 / 100 * x * amax / (c * m)) ∘ (c * ·)))) =
        if m = 0 then none else some (ag.map fun x => 1 / 100 * x * amax / m) := by
      by_cases hm : m = 0
      · simp [hm]
      · rw [if_neg (mul_ne_zero hc.ne' hm), if_neg hm]
        congr 2
        funext x
        simp only [Function.comp]
        field_simp
    rw [this]

/-- The ordinates are proportional to `a_max ≥ 0`. -/
theorem C130_amax (ag : List ℝ) (dt xi amax : ℝ) {c : ℝ} (hc : 0 ≤ c) :
    fft2spec ag dt xi (c * amax) = (fft2spec ag dt xi amax).map fun q => (q.1, q.2.map fun s => s.map (c * ·)) := by
  unfold fft2spec scaledRecord
  cases pyMax ag with
  | error e => rfl
  | ok m =>
    cases specPeriods dt with
    | error e => rfl
    | ok T =>
      simp only [Except.map, bind, Except.bind, pure, Except.pure, List.map_map, Function.comp_def]
      by_cases hm : m = 0
      · simp [hm]
      · simp only [if_neg hm, Option.bind_some]
        congr 2
        refine List.map_congr_left fun t _ => ?_
        rw [← maxResponse_scale _ hc, List.map_map]
        congr 2
        funext x
        simp only [Function.comp]; ring

/-- Numbers after the first 4096 have no effect, apart from the largest number of the record. -/
theorem C130_cut (ag ag' : List ℝ) (dt xi amax : ℝ) {m : ℝ} (hm : Spec.IsLargest ag m) (hm' : Spec.IsLargest ag' m) (h : ∀ j < 4096, ag.getD j 0 = ag'.getD j 0) :
    fft2spec ag dt xi amax = fft2spec ag' dt xi amax := by
  unfold fft2spec scaledRecord
  rw [pyMax_of_largest hm, pyMax_of_largest hm', nex2pow_256]
  cases specPeriods dt with
  | error e => rfl
  | ok T =>
    simp only [bind, Except.bind, pure, Except.pure]
    by_cases h0 : m = 0
    · simp [h0]
    · simp only [if_neg h0, Option.bind_some]
      refine congrArg (fun q => Except.ok (T, q)) (List.map_congr_left fun t _ => ?_)
      have e : ∀ k, fftAt (ag.map fun x => 1 / 100 * x * amax / m) (2 * 2048) k = fftAt (ag'.map fun x => 1 / 100 * x * amax / m) (2 * 2048) k := fun k => by
        unfold fftAt
        refine Finset.sum_congr rfl fun n hn => ?_
        rw [map_getD _ _ (by simp), map_getD _ _ (by simp), h n (by simpa using hn)]
      unfold maxResponse
      simp only [e]

/-- Quiet time before the shaking does not change the spectrum. -/
def C130_quiet_claim : Prop := ∀ (ag : List ℝ) (m dt xi amax : ℝ) (q : ℕ), Spec.IsLargest ag m → 0 < m → 0 < dt → 0 < xi → xi < 1 →
  fft2spec (List.replicate q 0 ++ ag) dt xi amax = fft2spec ag dt xi amax

theorem fftAt_shift (r : List ℝ) {q N : ℕ} (hN : 0 < N) (h : q + r.length ≤ N) (k : ℕ) :
    fftAt (List.replicate q 0 ++ r) N k = exp (-(2 * Real.pi * I * k * q / N)) * fftAt r N k := by
  have hN' : (N : ℂ) ≠ 0 := by exact_mod_cast hN.ne'
  unfold fftAt
  obtain ⟨n, rfl⟩ : ∃ n, N = q + n := ⟨N - q, by omega⟩
  rw [Finset.sum_range_add, Finset.sum_eq_zero (fun i hi => ?_), zero_add, Finset.mul_sum]
  · have e : ∀ i ∈ range n, ((((List.replicate q (0 : ℝ) ++ r).getD (q + i) 0 : ℝ)) : ℂ) * exp (-(2 * Real.pi * I * k * ((q + i : ℕ) : ℂ) / ((q + n : ℕ) : ℂ))) =
        exp (-(2 * Real.pi * I * k * q / ((q + n : ℕ) : ℂ))) * (((r.getD i 0 : ℝ) : ℂ) * exp (-(2 * Real.pi * I * k * i / ((q + n : ℕ) : ℂ)))) := by
      intro i _
      rw [show (List.replicate q (0 : ℝ) ++ r).getD (q + i) 0 = r.getD i 0 by
        simp [List.getD_eq_getElem?_getD, List.getElem?_append_right]]
      rw [show -(2 * Real.pi * I * k * ((q + i : ℕ) : ℂ) / ((q + n : ℕ) : ℂ)) = -(2 * Real.pi * I * k * q / ((q + n : ℕ) : ℂ)) + -(2 * Real.pi * I * k * i / ((q + n : ℕ) : ℂ)) by
        push_cast; ring, exp_add]
      ring
    rw [Finset.sum_congr rfl e, show q + n = n + q by ring, Finset.sum_range_add, Finset.sum_eq_zero (s := range q) (fun i hi => ?_), add_zero]
    rw [show r.getD (n + i) 0 = 0 by
      rw [List.getD_eq_getElem?_getD, List.getElem?_eq_none (by omega)]; rfl]
    simp
  · have hi := Finset.mem_range.mp hi
    rw [show (List.replicate q (0 : ℝ) ++ r).getD i 0 = 0 by
      simp [List.getD_eq_getElem?_getD, List.getElem?_append_left, hi]]
    simp

theorem exp_mod {N : ℕ} (hN : 0 < N) (k a : ℕ) : exp (2 * Real.pi * I * k * ((a % N : ℕ) : ℂ) / N) = exp (2 * Real.pi * I * k * a / N) := by
  have hN' : (N : ℂ) ≠ 0 := by exact_mod_cast hN.ne'
  have : (2 * Real.pi * I * k * a / N : ℂ) = 2 * Real.pi * I * k * ((a % N : ℕ) : ℂ) / N + ((k * (a / N) : ℕ) : ℤ) * (2 * Real.pi * I) := by
    have h : (a : ℂ) = ((a % N : ℕ) : ℂ) + N * ((a / N : ℕ) : ℂ) := by
      exact_mod_cast (Nat.mod_add_div a N).symm
    conv_lhs => rw [h]
    rw [Int.cast_natCast, Nat.cast_mul]
    field_simp
  rw [this, exp_add, exp_int_mul_two_pi_mul_I, mul_one]

theorem maxResponse_shift (r : List ℝ) {q N : ℕ} (hN : 0 < N) (h : q + r.length ≤ N) (dt xi T : ℝ) :
    maxResponse (List.replicate q 0 ++ r) N dt xi T = maxResponse r N dt xi T := by
  have hN' : (N : ℂ) ≠ 0 := by exact_mod_cast hN.ne'
  have key : ∀ j, responseSample (List.replicate q 0 ++ r) N dt xi T ((j + q) % N) = responseSample r N dt xi T j := by
    intro j
    unfold responseSample ifftAt
    congr 3
    refine Finset.sum_congr rfl fun k _ => ?_
    beta_reduce
    rw [fftAt_shift r hN h, exp_mod hN]
    have : exp (2 * Real.pi * I * k * ((j + q : ℕ) : ℂ) / N) = exp (2 * Real.pi * I * k * j / N) * exp (2 * Real.pi * I * k * q / N) := by
      rw [← exp_add]; congr 1; push_cast; ring
    rw [this, exp_neg]
    have := exp_ne_zero (2 * Real.pi * I * k * q / N)
    field_simp
  have := maxResponse_congr (r := r) (r' := List.replicate q 0 ++ r) (N := N) (dt := dt) (xi := xi) (T := T) (c := 1) zero_le_one fun x => ?_
  · rw [this]; cases maxResponse r N dt xi T <;> simp
  · simp only [one_mul, List.map_id', List.mem_map, List.mem_range]
    constructor
    · rintro ⟨j, hj, rfl⟩
      refine ⟨(j + (N - q)) % N, Nat.mod_lt _ hN, ?_⟩
      rw [← key]
      congr 1
      rw [Nat.mod_add_mod, show j + (N - q) + q = j + N by omega, Nat.add_mod_right, Nat.mod_eq_of_lt hj]
    · rintro ⟨j, hj, rfl⟩
      exact ⟨(j + q) % N, Nat.mod_lt _ hN, key j⟩

/-- Proved when quiet time and record together have at most 4096 numbers.  Missing: longer ones, which are cut. -/
theorem C130_quiet_partial (ag : List ℝ) (m dt xi amax : ℝ) (q : ℕ) (hm : Spec.IsLargest ag m) (h0 : 0 < m) (hq : q + ag.length ≤ 4096) :
    fft2spec (List.replicate q 0 ++ ag) dt xi amax = fft2spec ag dt xi amax := by
  have hm' : Spec.IsLargest (List.replicate q 0 ++ ag) m := by
    refine ⟨List.mem_append_right _ hm.1, fun x hx => ?_⟩
    rcases List.mem_append.mp hx with hx | hx
    · rw [(List.mem_replicate.mp hx).2]; exact h0.le
    · exact hm.2 x hx
  unfold fft2spec scaledRecord
  rw [pyMax_of_largest hm, pyMax_of_largest hm', nex2pow_256]
  cases specPeriods dt with
  | error e => rfl
  | ok T =>
    simp only [bind, Except.bind, pure, Except.pure, if_neg h0.ne', Option.bind_some]
    refine congrArg (fun q => Except.ok (T, q)) (List.map_congr_left fun t _ => ?_)
    rw [List.map_append, List.map_replicate, show (1 / 100 * 0 * amax / m : ℝ) = 0 by simp]
    exact maxResponse_shift _ (by norm_num) (by simpa using hq) _ _ _

theorem quiet_getD (l : List ℝ) {q j : ℕ} (hj : j < q) : (List.replicate q (0 : ℝ) ++ l).getD j 0 = 0 := by
  rw [List.getD_eq_getElem?_getD, List.getElem?_append_left (by simpa using hj), List.getElem?_replicate]
  split_ifs <;> rfl

theorem quiet_ne : fft2spec (List.replicate 4096 0 ++ alternating) 6 (1 / 2) 100 ≠ fft2spec alternating 6 (1 / 2) 100 := by
  intro e
  have hpi := Real.pi_pos
  have hm' : Spec.IsLargest (List.replicate 4096 0 ++ alternating) 1 := by
    refine ⟨List.mem_append_right _ alternating_largest.1, fun x hx => ?_⟩
    rcases List.mem_append.mp hx with hx | hx
    · rw [(List.mem_replicate.mp hx).2]; exact zero_le_one
    · exact alternating_largest.2 x hx
  obtain ⟨T, Sa, e1, -, hl, hT⟩ := C129_shifted_partial _ 1 6 (1 / 2) 100 hm' one_pos (by norm_num) (by norm_num) (by norm_num)
  obtain ⟨T', Sa', e2, -, -, hT'⟩ := C129_shifted_partial alternating 1 6 (1 / 2) 100 alternating_largest one_pos (by norm_num) (by norm_num) (by norm_num)
  rw [e, e2] at e1
  obtain ⟨rfl, rfl⟩ : T = T' ∧ Sa = Sa' := by
    simp only [Except.ok.injEq, Prod.mk.injEq] at e1; exact ⟨e1.1.symm, e1.2.symm⟩
  have h0 : 0 < T.length := (hl 0).mpr (by norm_num)
  obtain ⟨t0, s, hs, ho⟩ := hT 0 h0
  obtain ⟨-, s', hs', ho'⟩ := hT' 0 h0
  rw [hs] at hs'
  cases hs'
  have t0' : T[0] = 6 := by rw [t0]; norm_num
  rw [t0'] at ho ho'
  have h2 := alternating_ordinate (q := 1 / 2) (by positivity) (by rw [mul_pow, Real.sq_sqrt (by norm_num)]; ring) (by norm_num)
    (fun j hj => by simp only [alternating_getD hj]; norm_num) ho'
  have h3 := ho.2 (fun _ => 0) (fun _ => 0) ⟨fun _ => 0, fun _ => 0, 0, fun t => by simp⟩
    (fun j hj => by
      beta_reduce
      rw [quiet_getD _ (show j < 4096 from hj), mul_zero])
    ⟨fun _ => 0, fun t => ⟨hasDerivAt_const t 0, (hasDerivAt_const t 0).congr_deriv (by simp)⟩⟩ (fun t => rfl)
  obtain ⟨⟨j, -, h4⟩, -⟩ := h3
  rw [← h4] at h2
  norm_num at h2

/-- A record that starts after 4096 quiet samples has a spectrum of zeros. -/
theorem C130_quiet_false : ¬ C130_quiet_claim := fun h =>
  quiet_ne (h alternating 1 6 (1 / 2) 100 4096 alternating_largest one_pos (by norm_num) (by norm_num) (by norm_num))

/-- The spectrum does not depend on which of two opposite directions counts as positive. -/
def C130_polarity_claim : Prop := ∀ (ag : List ℝ) (m dt xi amax : ℝ), Spec.IsLargest ag m → 0 < m → 0 < dt → 0 < xi → xi < 1 →
  fft2spec (ag.map fun x => -x) dt xi amax = fft2spec ag dt xi amax

/-- The record 1, 0 has a spectrum; the record -1, 0 is divided by zero. -/
theorem C130_polarity_false : ¬ C130_polarity_claim := by
  intro h
  have hm : Spec.IsLargest [1, 0] 1 := ⟨by simp, fun x hx => by simp at hx; rcases hx with rfl | rfl <;> norm_num⟩
  have e := h [1, 0] 1 6 (1 / 2) 1 hm one_pos (by norm_num) (by norm_num) (by norm_num)
  obtain ⟨T, Sa, e1, -, hl, hT⟩ := C129_shifted_partial [1, 0] 1 6 (1 / 2) 1 hm one_pos (by norm_num) (by norm_num) (by norm_num)
  obtain ⟨-, s, hs, -⟩ := hT 0 ((hl 0).mpr (by norm_num))
  rw [e1] at e
  have hz : pyMax ([1, 0].map fun x : ℝ => -x) = .ok 0 := pyMax_of_largest ⟨by simp, fun x hx => by simp at hx; rcases hx with rfl | rfl <;> norm_num⟩
  unfold fft2spec scaledRecord at e
  rw [hz, specPeriods_ok (by norm_num)] at e
  simp only [bind, Except.bind, pure, Except.pure, if_true, Option.bind_none, Except.ok.injEq, Prod.mk.injEq] at e
  rw [← e.2] at hs
  simp at hs

-- a record to which the theorems about quiet time and later numbers apply
example : 2 + ([0.1, -0.3, 0.2] : List ℝ).length ≤ 4096 := by norm_num

end Hyperstatic
