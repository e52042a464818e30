import Verif.Props.Fourier

/-
C131: response spectra by superposed impulses.
-/

namespace Hyperstatic

open Spec

/-- the largest number of a list, zero for an empty one -/
noncomputable def largest (l : List ℝ) : ℝ := match pyMax l with | .ok m => m | .error _ => 0

theorem pyMax_ok {l : List ℝ} (h : l ≠ []) : pyMax l = .ok (largest l) := by
  cases l with
  | nil => exact absurd rfl h
  | cons x l => rfl

theorem largest_is {l : List ℝ} (h : l ≠ []) : IsLargest l (largest l) := pyMax_largest (pyMax_ok h)

/-- displacements of the oscillator of the program -/
noncomputable def sdList (w z dt : ℝ) (r : List ℝ) : List ℝ :=
  (List.range r.length).map (superposed (kern (z * (w * Real.sqrt (1 - z ^ 2))) (w * Real.sqrt (1 - z ^ 2))) r dt)

theorem duhamel_list (w z dt : ℝ) {r : List ℝ} (h : 2 ≤ r.length) : (duhamel w z (sampleTimes r.length dt) r).Sd = sdList w z dt r := by
  refine List.ext_getElem (by simp [duhamel, sdList, sampleTimes]) fun k h1 h2 => ?_
  have hk : k < r.length := by simpa [sdList] using h2
  have := duhamel_Sd w z h dt r hk
  rw [List.getD_eq_getElem?_getD, List.getElem?_eq_getElem h1, Option.getD_some] at this
  rw [this]
  simp [sdList]

theorem mapM_ok {α β : Type} (l : List α) {f : α → Except PyErr β} {g : α → β} (h : ∀ a ∈ l, f a = .ok (g a)) : l.mapM f = .ok (l.map g) := by
  induction l with
  | nil => rfl
  | cons a l ih =>
    rw [List.mapM_cons, h a (by simp), ih fun b hb => h b (by simp [hb])]
    rfl

theorem pyMax_mul_right {l : List ℝ} {c : ℝ} (hc : 0 ≤ c) (h : l ≠ []) : pyMax (l.map (· * c)) = .ok (c * largest l) := by
  rw [show (fun x : ℝ => x * c) = (c * ·) from funext fun x => mul_comm x c, pyMax_map hc, pyMax_ok h]; rfl

/-- periods of the spectrum -/
noncomputable def periods (dt : ℝ) : List ℝ := (List.range ⌈6 / dt⌉₊).map fun k : ℕ => dt + (k : ℝ) * dt

theorem periods_pos {dt : ℝ} (hd : 0 < dt) {p : ℝ} (hp : p ∈ periods dt) : 0 < p := by
  obtain ⟨k, -, rfl⟩ := List.mem_map.mp hp
  have : (0 : ℝ) ≤ k := k.cast_nonneg
  positivity

/-- What `wave2spectrum` computes. -/
theorem wave2spectrum_ok {ag : List ℝ} {m dt : ℝ} (hm : IsLargest ag m) (hl : 2 ≤ ag.length) (hd : 0 < dt) (xi amax : ℝ) :
    wave2spectrum ag dt xi amax = .ok
      ⟨periods dt,
       (periods dt).map fun p => 2 * Real.pi / p * Real.sqrt (1 - xi ^ 2) * (2 * Real.pi / p * Real.sqrt (1 - xi ^ 2) * largest (sdList (2 * Real.pi / p) xi dt (ag.map fun x => 1 / 100 * x * amax / m))) / (98 / 10),
       (periods dt).map fun p => 2 * Real.pi / p * Real.sqrt (1 - xi ^ 2) * largest (sdList (2 * Real.pi / p) xi dt (ag.map fun x => 1 / 100 * x * amax / m)),
       (periods dt).map fun p => largest (sdList (2 * Real.pi / p) xi dt (ag.map fun x => 1 / 100 * x * amax / m))⟩ := by
  have hpi := Real.pi_pos
  unfold wave2spectrum
  rw [pyMax_of_largest hm, specPeriods_ok hd]
  simp only [bind, Except.bind, pure, Except.pure]
  generalize hr : (ag.map fun x => 1 / 100 * x * amax / m) = r
  have hl' : 2 ≤ r.length := by rw [← hr]; simpa using hl
  rw [mapM_ok (g := fun p => (2 * Real.pi / p * Real.sqrt (1 - xi ^ 2) * (2 * Real.pi / p * Real.sqrt (1 - xi ^ 2) * largest (sdList (2 * Real.pi / p) xi dt r)) / (98 / 10),
    2 * Real.pi / p * Real.sqrt (1 - xi ^ 2) * largest (sdList (2 * Real.pi / p) xi dt r), largest (sdList (2 * Real.pi / p) xi dt r)))]
  · simp only [List.map_map, periods]
    rfl
  · intro p hp
    have hp' := periods_pos hd hp
    have hw : 0 ≤ 2 * Real.pi / p * Real.sqrt (1 - xi ^ 2) := mul_nonneg (by positivity) (Real.sqrt_nonneg _)
    have hne : sdList (2 * Real.pi / p) xi dt r ≠ [] := by
      unfold sdList; simp; intro h; simp [h] at hl'
    have e1 := duhamel_list (2 * Real.pi / p) xi dt hl'
    have e2 : (duhamel (2 * Real.pi / p) xi (sampleTimes r.length dt) r).Sv = (sdList (2 * Real.pi / p) xi dt r).map (· * (2 * Real.pi / p * Real.sqrt (1 - xi ^ 2))) := by
      rw [← e1]; rfl
    have e3 : (duhamel (2 * Real.pi / p) xi (sampleTimes r.length dt) r).Sa =
        ((sdList (2 * Real.pi / p) xi dt r).map (· * (2 * Real.pi / p * Real.sqrt (1 - xi ^ 2)))).map (· * (2 * Real.pi / p * Real.sqrt (1 - xi ^ 2))) := by
      rw [← e1]; rfl
    have e4 : largest ((sdList (2 * Real.pi / p) xi dt r).map (· * (2 * Real.pi / p * Real.sqrt (1 - xi ^ 2)))) =
        2 * Real.pi / p * Real.sqrt (1 - xi ^ 2) * largest (sdList (2 * Real.pi / p) xi dt r) := by
      have := pyMax_mul_right hw hne
      rw [pyMax_ok (by simpa using hne)] at this
      exact Except.ok.inj this
    have p1 := (congrArg pyMax e3).trans (pyMax_mul_right hw (by simpa using hne))
    have p2 := (congrArg pyMax e2).trans (pyMax_mul_right hw hne)
    have p3 := (congrArg pyMax e1).trans (pyMax_ok hne)
    rw [e4] at p1
    rw [show (List.range r.length).map (fun k : ℕ => (k : ℝ) * dt) = sampleTimes r.length dt from rfl, p1, p2, p3]

/-- What `wave2spectrum` does, for oscillators of frequency `f ξ T` and damping ratio `g ξ T`: for a record of at least two numbers whose largest is
positive, a positive step and `0 ≤ ξ < 1`, it returns the periods `dt, 2 dt, ...`, one for each multiple of `dt` before `6 + dt`, and for each
the largest displacement under the impulses of the record, scaled in m/s² so that its largest number is `a_max` cm/s². -/
def Spec.ImpulseSpectrum (f g : ℝ → ℝ → ℝ) : Prop := ∀ (ag : List ℝ) (m dt xi amax : ℝ), IsLargest ag m → 0 < m → 2 ≤ ag.length → 0 < dt → 0 ≤ xi → xi < 1 →
  ∃ s, wave2spectrum ag dt xi amax = .ok s ∧ s.sd.length = s.T.length ∧ (∀ i : ℕ, i < s.T.length ↔ ((i : ℝ) + 1) * dt < 6 + dt) ∧
    ∀ (i : ℕ) (hi : i < s.T.length), s.T[i] = (i + 1) * dt ∧ ∃ h, IsImpulseResponse (f xi s.T[i]) (g xi s.T[i]) h ∧
      IsLargest ((List.range ag.length).map (superposed h (ag.map (0.01 * amax / m * ·)) dt)) (s.sd.getD i 0)

/-- The oscillator has natural period `T` and damping ratio `ξ`. -/
def C131_claim : Prop := Spec.ImpulseSpectrum (fun _ T => 2 * Real.pi / T) fun xi _ => xi

theorem periods_lt {dt : ℝ} (hd : 0 < dt) (i : ℕ) : i < (periods dt).length ↔ ((i : ℝ) + 1) * dt < 6 + dt := by
  rw [periods, List.length_map, List.length_range, Nat.lt_ceil, lt_div_iff₀ hd]
  constructor <;> intro h <;> linarith

/-- Proved for oscillators of frequency `√(1-ξ⁴) 2 π / T` and damping ratio `ξ/√(1+ξ²)`.  Missing: the stated ones, for which it is false unless
`ξ = 0`. -/
theorem C131_actual_partial : Spec.ImpulseSpectrum (fun xi T => 2 * Real.pi / T * Real.sqrt (1 - xi ^ 4)) fun xi _ => xi / Real.sqrt (1 + xi ^ 2) := by
  intro ag m dt xi amax hm h0 hl hd hx h1
  have hpi := Real.pi_pos
  refine ⟨_, wave2spectrum_ok hm hl hd xi amax, by simp, periods_lt hd, fun i hi => ?_⟩
  have hT : (periods dt)[i] = (i + 1) * dt := by simp [periods]; ring
  refine ⟨hT, ?_⟩
  have hp : 0 < (periods dt)[i] := periods_pos hd (List.getElem_mem hi)
  set r := ag.map fun x => 1 / 100 * x * amax / m with hr
  have hr' : ag.map (0.01 * amax / m * ·) = r := by
    rw [hr]; congr 1; funext x; norm_num; ring
  have hrl : r.length = ag.length := by simp [hr]
  obtain ⟨h, hh, hk⟩ := C83_actual_partial (w := 2 * Real.pi / (periods dt)[i]) (z := xi) (dt := dt) (n := r.length) (by positivity) hx h1 (by omega)
  refine ⟨h, hh, ?_⟩
  rw [hr']
  have hne : sdList (2 * Real.pi / (periods dt)[i]) xi dt r ≠ [] := by
    unfold sdList; simp; intro h; simp [h] at hrl; omega
  have e : (List.range ag.length).map (superposed h r dt) = sdList (2 * Real.pi / (periods dt)[i]) xi dt r := by
    unfold sdList
    rw [← hrl]
    refine List.map_congr_left fun k hk' => ?_
    have hk'' := List.mem_range.mp hk'
    rw [← hk r k hk'', duhamel_Sd _ _ (by omega) _ _ hk'']
  rw [e, List.getD_eq_getElem?_getD, List.getElem?_map, List.getElem?_eq_getElem hi]
  exact largest_is hne

/-- Without damping the claim holds. -/
theorem C131_undamped_partial (ag : List ℝ) (m dt amax : ℝ) (hm : IsLargest ag m) (h0 : 0 < m) (hl : 2 ≤ ag.length) (hd : 0 < dt) :
    ∃ s, wave2spectrum ag dt 0 amax = .ok s ∧ ∀ (i : ℕ) (hi : i < s.T.length), s.T[i] = (i + 1) * dt ∧ ∃ h, IsImpulseResponse (2 * Real.pi / s.T[i]) 0 h ∧
      IsLargest ((List.range ag.length).map (superposed h (ag.map (0.01 * amax / m * ·)) dt)) (s.sd.getD i 0) := by
  obtain ⟨s, e, -, -, h⟩ := C131_actual_partial ag m dt 0 amax hm h0 hl hd le_rfl one_pos
  refine ⟨s, e, fun i hi => ?_⟩
  obtain ⟨h1, k, h2, h3⟩ := h i hi
  exact ⟨h1, k, by simpa using h2, h3⟩

/-- The record 1, 0 at distance 3 s, damping ratio 3/5, period 6 s: the displacement decays by `exp(-12 π/25)`, the stated oscillator's by `exp(-3 π/5)`. -/
theorem C131_false : ¬ C131_claim := by
  intro hc
  have hpi := Real.pi_pos
  have hm : IsLargest [1, 0] 1 := ⟨by simp, fun x hx => by simp at hx; rcases hx with rfl | rfl <;> norm_num⟩
  obtain ⟨s, e, -, hl, h⟩ := hc [1, 0] 1 3 (3 / 5) 100 hm one_pos (by simp) (by norm_num) (by norm_num) (by norm_num)
  rw [wave2spectrum_ok hm (by simp) (by norm_num)] at e
  cases e
  have hi : 1 < (periods 3).length := (hl 1).mpr (by norm_num)
  have hT : (periods 3)[1] = 6 := by simp [periods]; norm_num
  obtain ⟨-, k, hk, hk'⟩ := h 1 hi
  simp only [hT] at hk
  rw [List.getD_eq_getElem?_getD, List.getElem?_map, List.getElem?_eq_getElem hi, hT, Option.map_some, Option.getD_some] at hk'
  have sq : Real.sqrt (1 - (3 / 5) ^ 2) = 4 / 5 := by
    rw [show (1 - (3 / 5) ^ 2 : ℝ) = (4 / 5) ^ 2 by norm_num]; exact Real.sqrt_sq (by norm_num)
  have true_h := impulse_unique (by positivity) (by norm_num) hk
    (kern_impulse (a := 3 / 5 * (2 * Real.pi / 6)) (b := 4 / 5 * (2 * Real.pi / 6)) (w := 2 * Real.pi / 6) (z := 3 / 5) (by positivity) rfl (by ring)) (t := 3) (by norm_num)
  have hs : 0 < Real.sin (4 / 5 * Real.pi) := Real.sin_pos_of_pos_of_lt_pi (by positivity) (by linarith)
  have r1 : ([1, 0] : List ℝ).map (0.01 * 100 / 1 * ·) = [1, 0] := by norm_num
  have r2 : (([1, 0] : List ℝ).map fun x => 1 / 100 * x * 100 / 1) = [1, 0] := by norm_num
  rw [r1, r2] at hk'
  have hA : IsLargest [0, 3 * kern (3 / 5 * (2 * Real.pi / 6)) (4 / 5 * (2 * Real.pi / 6)) 3] (largest (sdList (2 * Real.pi / 6) (3 / 5) 3 [1, 0])) := by
    convert hk' using 1
    have h0 := hk.1
    simp [superposed, List.range_succ, h0, true_h]
  have hB : IsLargest [0, 3 * kern (3 / 5 * (4 / 5 * (2 * Real.pi / 6))) (4 / 5 * (2 * Real.pi / 6)) 3] (largest (sdList (2 * Real.pi / 6) (3 / 5) 3 [1, 0])) := by
    have := largest_is (l := sdList (2 * Real.pi / 6) (3 / 5) 3 [1, 0]) (by simp [sdList])
    convert this using 1
    have k0 : ∀ a b, kern a b 0 = 0 := fun a b => by simp [kern]
    unfold sdList
    rw [sq, mul_comm (2 * Real.pi / 6) (4 / 5)]
    simp [superposed, List.range_succ, k0]
  have v : ∀ {a M : ℝ}, 0 < a → IsLargest [0, a] M → M = a := by
    intro a M ha hM
    rcases List.mem_cons.mp hM.1 with h | h
    · have := hM.2 a (by simp); linarith
    · simpa using h
  have kv : ∀ a, kern a (4 / 5 * (2 * Real.pi / 6)) 3 = Real.exp (-(a * 3)) * Real.sin (4 / 5 * Real.pi) / (4 / 5 * (2 * Real.pi / 6)) := fun a => by
    rw [kern, show 4 / 5 * (2 * Real.pi / 6) * 3 = 4 / 5 * Real.pi by ring]
  have kp : ∀ a, 0 < 3 * kern a (4 / 5 * (2 * Real.pi / 6)) 3 := fun a => by rw [kv]; have := Real.exp_pos (-(a * 3)); positivity
  have h1 := (v (kp _) hA).symm.trans (v (kp _) hB)
  rw [kv, kv] at h1
  have h2 : Real.exp (-(3 / 5 * (2 * Real.pi / 6) * 3)) = Real.exp (-(3 / 5 * (4 / 5 * (2 * Real.pi / 6)) * 3)) := by
    have hb : 0 < 4 / 5 * (2 * Real.pi / 6) := by positivity
    have := mul_left_cancel₀ (three_ne_zero) h1
    rw [div_left_inj' hb.ne'] at this
    exact mul_right_cancel₀ hs.ne' this
  have h3 := Real.exp_injective h2
  nlinarith

/-- The velocities and accelerations (in g) are the displacements multiplied once and twice by the damped frequency. -/
theorem C131_pseudo (ag : List ℝ) (m dt xi amax : ℝ) (hm : IsLargest ag m) (hl : 2 ≤ ag.length) (hd : 0 < dt) :
    ∃ s, wave2spectrum ag dt xi amax = .ok s ∧ s.sa.length = s.T.length ∧ s.sv.length = s.T.length ∧ s.sd.length = s.T.length ∧
      ∀ (i : ℕ) (hi : i < s.T.length), s.sv.getD i 0 = 2 * Real.pi / s.T[i] * Real.sqrt (1 - xi ^ 2) * s.sd.getD i 0 ∧
        9.8 * s.sa.getD i 0 = 2 * Real.pi / s.T[i] * Real.sqrt (1 - xi ^ 2) * s.sv.getD i 0 := by
  refine ⟨_, wave2spectrum_ok hm hl hd xi amax, by simp, by simp, by simp, fun i hi => ?_⟩
  simp only [List.getD_eq_getElem?_getD, List.getElem?_map, List.getElem?_eq_getElem hi, Option.map_some, Option.getD_some, true_and]
  ring

/-- Multiplying a record by a positive number does not change the spectrum. -/
theorem C131_scale (ag : List ℝ) (dt xi amax : ℝ) {c : ℝ} (hc : 0 < c) : wave2spectrum (ag.map (c * ·)) dt xi amax = wave2spectrum ag dt xi amax := by
  unfold wave2spectrum
  rw [pyMax_map hc.le]
  cases pyMax ag with
  | error e => rfl
  | ok m =>
    simp only [Except.map, bind, Except.bind, List.map_map]
    have : ((fun x => 1 / 100 * x * amax / (c * m)) ∘ (c * ·)) = fun x => 1 / 100 * x * amax / m := by
      funext x
      simp only [Function.comp]
      by_cases hm : m = 0
      · simp [hm]
      · field_simp
    rw [this]

theorem superposed_scale (h : ℝ → ℝ) (p : List ℝ) (c dt : ℝ) (k : ℕ) : superposed h (p.map (c * ·)) dt k = c * superposed h p dt k := by
  unfold superposed
  rw [← List.sum_map_mul_left]
  congr 1
  refine List.map_congr_left fun i _ => ?_
  rw [map_getD _ _ (by simp)]
  ring

theorem largest_scale {l : List ℝ} {c : ℝ} (hc : 0 ≤ c) : largest (l.map (c * ·)) = c * largest l := by
  unfold largest
  rw [pyMax_map hc]
  cases pyMax l <;> simp [Except.map]

theorem sdList_scale (w z dt : ℝ) (r : List ℝ) (c : ℝ) : sdList w z dt (r.map (c * ·)) = (sdList w z dt r).map (c * ·) := by
  unfold sdList
  rw [List.map_map, List.length_map]
  exact List.map_congr_left fun k _ => superposed_scale _ _ _ _ _

/-- The displacements, velocities and accelerations are proportional to `a_max ≥ 0`. -/
theorem C131_amax (ag : List ℝ) (m dt xi amax : ℝ) (hm : IsLargest ag m) (hl : 2 ≤ ag.length) (hd : 0 < dt) {c : ℝ} (hc : 0 ≤ c) :
    wave2spectrum ag dt xi (c * amax) = (wave2spectrum ag dt xi amax).map fun s => ⟨s.T, s.sa.map (c * ·), s.sv.map (c * ·), s.sd.map (c * ·)⟩ := by
  rw [wave2spectrum_ok hm hl hd, wave2spectrum_ok hm hl hd]
  have : (ag.map fun x => 1 / 100 * x * (c * amax) / m) = (ag.map fun x => 1 / 100 * x * amax / m).map (c * ·) := by
    rw [List.map_map]; congr 1; funext x; simp only [Function.comp]; ring
  rw [this]
  generalize (ag.map fun x => 1 / 100 * x * amax / m) = r
  simp only [Except.map, List.map_map, sdList_scale, largest_scale hc]
  congr 2 <;> (refine List.map_congr_left fun p _ => ?_; simp only [Function.comp]; try ring)

theorem superposed_quiet (h : ℝ → ℝ) (p : List ℝ) (dt : ℝ) (q k : ℕ) :
    superposed h (List.replicate q 0 ++ p) dt (q + k) = superposed h p dt k := by
  unfold superposed
  rw [add_assoc, List.range_add, List.map_append, List.sum_append, List.map_map]
  rw [List.sum_eq_zero (l := (List.range q).map _) (by
    intro x hx
    obtain ⟨i, hi, rfl⟩ := List.mem_map.mp hx
    rw [quiet_getD _ (List.mem_range.mp hi)]; ring), zero_add]
  congr 1
  refine List.map_congr_left fun i _ => ?_
  simp only [Function.comp]
  rw [show (List.replicate q (0 : ℝ) ++ p).getD (q + i) 0 = p.getD i 0 by
    simp [List.getD_eq_getElem?_getD, List.getElem?_append_right], show q + k - (q + i) = k - i by omega]

theorem superposed_before (h : ℝ → ℝ) (p : List ℝ) (dt : ℝ) {q k : ℕ} (hk : k < q) : superposed h (List.replicate q 0 ++ p) dt k = 0 := by
  unfold superposed
  refine List.sum_eq_zero fun x hx => ?_
  obtain ⟨i, hi, rfl⟩ := List.mem_map.mp hx
  rw [quiet_getD _ (by have := List.mem_range.mp hi; omega)]; ring

/-- Quiet time before the shaking does not change the spectrum. -/
theorem C131_quiet (ag : List ℝ) (m dt xi amax : ℝ) (q : ℕ) (hm : IsLargest ag m) (h0 : 0 < m) (hl : 2 ≤ ag.length) (hd : 0 < dt) :
    wave2spectrum (List.replicate q 0 ++ ag) dt xi amax = wave2spectrum ag dt xi amax := by
  have hm' : IsLargest (List.replicate q 0 ++ ag) m := by
    refine ⟨List.mem_append_right _ hm.1, fun x hx => ?_⟩
    rcases List.mem_append.mp hx with hx | hx
    · rw [(List.mem_replicate.mp hx).2]; exact h0.le
    · exact hm.2 x hx
  rw [wave2spectrum_ok hm hl hd, wave2spectrum_ok hm' (by simp; omega) hd]
  rw [List.map_append, List.map_replicate, show (1 / 100 * 0 * amax / m : ℝ) = 0 by simp]
  generalize hr : (ag.map fun x => 1 / 100 * x * amax / m) = r
  have hl' : 2 ≤ r.length := by rw [← hr]; simpa using hl
  have key : ∀ w, largest (sdList w xi dt (List.replicate q 0 ++ r)) = largest (sdList w xi dt r) := by
    intro w
    unfold largest
    rw [pyMax_congr]
    intro x
    unfold sdList
    simp only [List.mem_map, List.mem_range, List.length_append, List.length_replicate]
    set h := kern (xi * (w * Real.sqrt (1 - xi ^ 2))) (w * Real.sqrt (1 - xi ^ 2)) with hh
    have z : superposed h r dt 0 = 0 := by simp [superposed, hh, kern]
    constructor
    · rintro ⟨k, hk, rfl⟩
      by_cases hq : k < q
      · exact ⟨0, by omega, by rw [z, superposed_before _ _ _ hq]⟩
      · refine ⟨k - q, by omega, ?_⟩
        rw [← superposed_quiet h r dt q (k - q), show q + (k - q) = k by omega]
    · rintro ⟨k, hk, rfl⟩
      exact ⟨q + k, by omega, superposed_quiet _ _ _ _ _⟩
  simp only [key]

/-- No ordinate is negative. -/
theorem C131_nonneg (ag : List ℝ) (m dt xi amax : ℝ) (hm : IsLargest ag m) (hl : 2 ≤ ag.length) (hd : 0 < dt) :
    ∃ s, wave2spectrum ag dt xi amax = .ok s ∧ ∀ x ∈ s.sa ++ s.sv ++ s.sd, 0 ≤ x := by
  have hpi := Real.pi_pos
  refine ⟨_, wave2spectrum_ok hm hl hd xi amax, ?_⟩
  set r := ag.map fun x => 1 / 100 * x * amax / m with hr
  have hrl : r.length = ag.length := by simp [hr]
  have k1 : ∀ w, 0 ≤ largest (sdList w xi dt r) := by
    intro w
    have hne : sdList w xi dt r ≠ [] := by
      unfold sdList; simp; intro h; simp [h] at hrl; omega
    refine (largest_is hne).2 0 ?_
    refine List.mem_map.mpr ⟨0, List.mem_range.mpr (by omega), by simp [superposed, kern]⟩
  have k2 : ∀ p ∈ periods dt, 0 ≤ 2 * Real.pi / p * Real.sqrt (1 - xi ^ 2) := fun p hp =>
    mul_nonneg (by have := periods_pos hd hp; positivity) (Real.sqrt_nonneg _)
  intro x hx
  simp only [List.mem_append, List.mem_map] at hx
  rcases hx with (⟨p, hp, rfl⟩ | ⟨p, hp, rfl⟩) | ⟨p, hp, rfl⟩
  · exact div_nonneg (mul_nonneg (k2 p hp) (mul_nonneg (k2 p hp) (k1 _))) (by norm_num)
  · exact mul_nonneg (k2 p hp) (k1 _)
  · exact k1 _

-- a record to which the theorems apply
example : IsLargest [0.1, -0.3, 0.2] 0.2 ∧ 2 ≤ ([0.1, -0.3, 0.2] : List ℝ).length :=
  ⟨⟨by simp, fun x hx => by simp at hx; rcases hx with rfl | rfl | rfl <;> norm_num⟩, by simp⟩

end Hyperstatic
