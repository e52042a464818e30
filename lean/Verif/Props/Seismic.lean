import Verif.Lemmas.Seismic

/-
C79-C82: design response spectra.
-/

namespace Hyperstatic
open Spec

attribute [local irreducible] gbPeriods

theorem get_map_range {l : List ℝ} {N : ℕ} {f : ℕ → ℝ} (e : l = (List.range N).map f) {k : ℕ} (h : k < l.length) : l[k] = f k := by
  subst e
  rw [List.getElem_map, List.getElem_range]

theorem gb50010_ok (a Tg : ℝ) {xi : ℝ} (hx : 0 ≤ xi) : gb50010 a Tg xi =
    .ok ⟨gbPeriods, gbPeriods.map (gb50010At a Tg (fallExponent xi) (lastSlope xi) (plateau xi))⟩ := by
  simp [gb50010, specGamma_ok hx, specEta1_ok hx, specEta2_ok hx, bind, Except.bind, pure, Except.pure]

/-- the table, with its two columns named -/
theorem gb50010_ex (a Tg : ℝ) {xi : ℝ} (hx : 0 ≤ xi) : ∃ s, gb50010 a Tg xi = .ok s ∧ s.T = gbPeriods ∧
    s.alpha = gbPeriods.map (gb50010At a Tg (fallExponent xi) (lastSlope xi) (plateau xi)) :=
  ⟨⟨gbPeriods, _⟩, gb50010_ok a Tg hx, rfl, rfl⟩

theorem gbPeriods_length : gbPeriods.length = 601 := by
  unfold gbPeriods; rw [List.length_map, List.length_range]

theorem gbPeriods_eq : gbPeriods = (List.range 601).map fun k : ℕ => (k : ℝ) / 100 := by
  unfold gbPeriods
  refine List.map_congr_left fun k _ => ?_
  ring

theorem mem_gbPeriods {t : ℝ} (h : t ∈ gbPeriods) : 0 ≤ t ∧ t ≤ 6 := by
  rw [gbPeriods_eq] at h
  obtain ⟨k, hk, rfl⟩ := List.mem_map.mp h
  have hk : k ≤ 600 := by have := List.mem_range.mp hk; omega
  have : (k : ℝ) ≤ 600 := by exact_mod_cast hk
  exact ⟨by positivity, by linarith⟩

theorem gbPeriods_get {k : ℕ} (h : k < gbPeriods.length) : gbPeriods[k] = (k : ℝ) / 100 :=
  get_map_range gbPeriods_eq h

/-- C79.  For every maximum, every characteristic period of at least 0.1 and every non-negative damping ratio there is a curve of the
prescribed shape; `GB50010` tabulates it at 0, 0.01, …, 6 and `GB50011_spectrum` at all multiples of the step below 6. -/
theorem C79_curve (a : ℝ) {Tg xi : ℝ} (hT : 0.1 ≤ Tg) (hx : 0 ≤ xi) :
    ∃ f, DesignCurve a Tg xi f ∧
      (∃ s, gb50010 a Tg xi = .ok s ∧ s.T = (List.range 601).map (fun k : ℕ => (k : ℝ) / 100) ∧ s.alpha = s.T.map f) ∧
      ∀ dt, 0 < dt → ∃ (s : List (ℝ × ℝ)) (n : ℕ), gb50011 a Tg xi dt = .ok s ∧
        s = (List.range n).map (fun k : ℕ => ((k : ℝ) * dt, f (k * dt))) ∧ ∀ k : ℕ, k < n ↔ (k : ℝ) * dt < 6 := by
  have hT' : 1 / 10 ≤ Tg := by norm_num at hT; linarith
  obtain ⟨s, hs, h1, h2⟩ := gb50010_ex a Tg hx
  refine ⟨_, design_of_closed a hT', ⟨s, hs, h1.trans gbPeriods_eq, ?_⟩, ?_⟩
  · rw [h2, h1]
    refine List.map_congr_left fun t ht => ?_
    rw [gbAt_agree _ _ _ _ _ (mem_gbPeriods ht).1, gbAt_closed _ _ _ _ hT']
  · intro dt hdt
    refine ⟨_, ⌈6 / dt⌉₊, ?_, rfl, ?_⟩
    · simp only [gb50011, pyDiv, if_neg hdt.ne', specGamma_ok hx, specEta1_ok hx, specEta2_ok hx, bind, Except.bind, pure,
        Except.pure, List.map_map]
      congr 1
      refine List.map_congr_left fun k _ => ?_
      simp only [Function.comp, gbAt_closed _ _ _ _ hT']
    · intro k
      rw [Nat.lt_ceil, lt_div_iff₀ hdt]

/-- The prescribed shape determines the curve. -/
theorem C79_unique {a Tg xi : ℝ} (hT : 0.1 ≤ Tg) {f g : ℝ → ℝ} (hf : DesignCurve a Tg xi f) (hg : DesignCurve a Tg xi g)
    (t : ℝ) (ht : 0 ≤ t) : f t = g t := by
  have hT0 : 0 < Tg := lt_of_lt_of_le (by norm_num) hT
  have fall : ∀ t, Tg ≤ t → t ≤ 5 * Tg → f t = g t := fun t h1 h2 => by
    have e := (hf.fall t h1 h2).trans (hg.fall t h1 h2).symm
    exact mul_right_cancel₀ (Real.rpow_pos_of_pos (by linarith) _).ne' e
  by_cases h1 : t < 0.1
  · have slope : ∀ {f : ℝ → ℝ} {s : ℝ}, DesignCurve a Tg xi f → (∀ t, 0 ≤ t → t < 0.1 → f t = 0.45 * a + s * t) →
        0.45 * a + s * 0.1 = plateau xi * a := by
      intro f s hf hs
      rw [← hf.flat 0.1 le_rfl hT]
      have c : Filter.Tendsto f (nhdsWithin 0.1 (Set.Ico 0 0.1)) (nhds (f 0.1)) :=
        ((hf.continuous 0.1 (by norm_num)).mono fun x hx => hx.1)
      have c' : Filter.Tendsto (fun t : ℝ => 0.45 * a + s * t) (nhdsWithin 0.1 (Set.Ico 0 0.1)) (nhds (0.45 * a + s * 0.1)) :=
        ((by fun_prop : Continuous fun t : ℝ => 0.45 * a + s * t).tendsto _).mono_left nhdsWithin_le_nhds
      have ne : (nhdsWithin (0.1 : ℝ) (Set.Ico 0 0.1)).NeBot := by
        rw [← mem_closure_iff_nhdsWithin_neBot, closure_Ico (by norm_num)]; norm_num
      refine tendsto_nhds_unique (c'.congr' ?_) c
      filter_upwards [self_mem_nhdsWithin] with x hx using (hs x hx.1 hx.2).symm
    obtain ⟨s, hs⟩ := hf.rise
    obtain ⟨s', hs'⟩ := hg.rise
    have e := (slope hf hs).trans (slope hg hs').symm
    have : s = s' := by norm_num at e; linarith
    rw [hs t ht h1, hs' t ht h1, this]
  · have h1 := not_lt.mp h1
    rcases le_total t Tg with h2 | h2
    · rw [hf.flat t h1 h2, hg.flat t h1 h2]
    · rcases le_total t (5 * Tg) with h3 | h3
      · exact fall t h2 h3
      · rw [hf.last t h3, hg.last t h3, fall (5 * Tg) (by linarith) le_rfl]

example : ∃ f, DesignCurve 0.16 0.35 0.05 f := (C79_curve 0.16 (by norm_num) (by norm_num)).imp fun _ h => h.1

/-- C80.  The ordinates never exceed the plateau and, from period 0.1 on, never increase with the period. -/
theorem C80_shape {a Tg xi : ℝ} (ha : 0 ≤ a) (hT : 0.1 ≤ Tg) (hx : 0 ≤ xi) :
    ∃ s, gb50010 a Tg xi = .ok s ∧ (∀ y ∈ s.alpha, y ≤ plateau xi * a) ∧
      ∀ i j (hi : i < s.alpha.length) (hj : j < s.alpha.length), 10 ≤ i → i ≤ j → s.alpha[j] ≤ s.alpha[i] := by
  have hT' : 1 / 10 ≤ Tg := by norm_num at hT; linarith
  have h0 : 0 < Tg := by linarith
  have e2 := plateau_ge xi
  have e1 := lastSlope_nonneg xi
  have g := (fallExponent_pos hx).le
  have e2a : 0 ≤ plateau xi * a := mul_nonneg (by linarith) ha
  have e1a : 0 ≤ lastSlope xi * a := mul_nonneg e1 ha
  have val : ∀ t ∈ gbPeriods, gb50010At a Tg (fallExponent xi) (lastSlope xi) (plateau xi) t =
      gbClosed a Tg (fallExponent xi) (lastSlope xi) (plateau xi) t := fun t ht => by
    rw [gbAt_agree _ _ _ _ _ (mem_gbPeriods ht).1, gbAt_closed _ _ _ _ hT']
  have pw : ∀ s t, s ≤ t → (Tg / max Tg (min t (5 * Tg))) ^ fallExponent xi ≤ (Tg / max Tg (min s (5 * Tg))) ^ fallExponent xi := by
    intro s t h
    have p : ∀ t, 0 < max Tg (min t (5 * Tg)) := fun t => lt_max_of_lt_left h0
    refine Real.rpow_le_rpow (div_pos h0 (p t)).le ?_ g
    exact div_le_div_of_nonneg_left h0.le (p s) (max_le_max le_rfl (min_le_min h le_rfl))
  obtain ⟨s, hs, -, h2⟩ := gb50010_ex a Tg hx
  refine ⟨s, hs, ?_, ?_⟩
  · intro y hy
    rw [h2] at hy
    obtain ⟨t, ht, rfl⟩ := List.mem_map.mp hy
    rw [val t ht]
    unfold gbClosed
    have p1 : (Tg / max Tg (min t (5 * Tg))) ^ fallExponent xi ≤ 1 :=
      Real.rpow_le_one (div_pos h0 (lt_max_of_lt_left h0)).le (div_le_one_of_le₀ (le_max_left _ _) (le_max_of_le_left h0.le)) g
    have k1 := mul_le_mul_of_nonneg_left p1 e2a
    have k2 := mul_nonneg e1a (le_max_left 0 (t - 5 * Tg))
    have k3 := mul_le_mul_of_nonneg_left (min_le_right t (1 / 10)) (mul_nonneg (by linarith : 0 ≤ plateau xi - 9 / 20) ha)
    nlinarith
  · intro i j hi hj h10 hij
    have get : ∀ i (h : i < s.alpha.length), s.alpha[i] =
        gbClosed a Tg (fallExponent xi) (lastSlope xi) (plateau xi) ((i : ℝ) / 100) := by
      intro i h
      simp only [h2, List.getElem_map]
      rw [val _ (List.getElem_mem _), gbPeriods_get]
    rw [get i hi, get j hj]
    have c1 : (10 : ℝ) ≤ i := by exact_mod_cast h10
    have c2 : (i : ℝ) ≤ j := by exact_mod_cast hij
    unfold gbClosed
    rw [min_eq_right (by linarith : (1 / 10 : ℝ) ≤ (i : ℝ) / 100), min_eq_right (by linarith : (1 / 10 : ℝ) ≤ (j : ℝ) / 100)]
    have k1 := mul_le_mul_of_nonneg_left (pw ((i : ℝ) / 100) (j / 100) (by linarith)) e2a
    have k2 := mul_le_mul_of_nonneg_left (max_le_max (le_refl (0 : ℝ)) (by linarith : (i : ℝ) / 100 - 5 * Tg ≤ j / 100 - 5 * Tg)) e1a
    linarith

/-- C80.  The ordinates are proportional to the maximum. -/
theorem C80_linear (a c Tg : ℝ) {xi : ℝ} (hx : 0 ≤ xi) : ∃ s s', gb50010 a Tg xi = .ok s ∧ gb50010 (c * a) Tg xi = .ok s' ∧
    s'.T = s.T ∧ s'.alpha = s.alpha.map (c * ·) := by
  obtain ⟨s, hs, h1, h2⟩ := gb50010_ex a Tg hx
  obtain ⟨s', hs', h1', h2'⟩ := gb50010_ex (c * a) Tg hx
  refine ⟨s, s', hs, hs', h1'.trans h1.symm, ?_⟩
  rw [h2, h2', List.map_map]
  refine List.map_congr_left fun t _ => ?_
  simp only [Function.comp, gb50010At, interp2]
  split_ifs <;> ring

example : ∃ s, gb50010 0.16 0.35 0.05 = .ok s ∧ ∀ y ∈ s.alpha, y ≤ plateau 0.05 * 0.16 :=
  (C80_shape (by norm_num) (by norm_num) (by norm_num)).imp fun _ h => ⟨h.1, h.2.1⟩

theorem pow_fifth {γ : ℝ} (b : ℝ) (n m : ℕ) (hm : m ≠ 0) (h : b ^ m ≤ (2 / 10 : ℝ) ^ n) (hγ : γ ≤ (n : ℝ) / m) :
    b ≤ (2 / 10 : ℝ) ^ γ := by
  have h1 : (2 / 10 : ℝ) ^ ((n : ℝ) / m) ≤ (2 / 10 : ℝ) ^ γ := Real.rpow_le_rpow_of_exponent_ge (by norm_num) (by norm_num) hγ
  refine le_trans ?_ h1
  have hm' : (m : ℝ) ≠ 0 := by exact_mod_cast hm
  refine le_of_pow_le_pow_left₀ hm (by positivity) ?_
  rw [← Real.rpow_natCast ((2 / 10 : ℝ) ^ ((n : ℝ) / m)) m, ← Real.rpow_mul (by norm_num), div_mul_cancel₀ _ hm', Real.rpow_natCast]
  exact h

theorem fall_enough {xi : ℝ} (hx : 0 ≤ xi) : 6 * lastSlope xi < plateau xi * (2 / 10 : ℝ) ^ fallExponent xi := by
  have d1 : (0 : ℝ) < 4 + 32 * xi := by positivity
  have d2 : (0 : ℝ) < 0.3 + 6 * xi := by positivity
  have d3 : (0 : ℝ) < 0.08 + 1.6 * xi := by positivity
  have slope : ∀ c, 0 ≤ c → (0.05 - xi) / (4 + 32 * xi) ≤ c - 0.02 → lastSlope xi ≤ c := fun c h0 h =>
    max_le h0 (by linarith)
  have pl := plateau_ge xi
  by_cases h : xi ≤ 0.05
  · have p : (17 / 100 : ℝ) ≤ (2 / 10 : ℝ) ^ fallExponent xi := by
      refine pow_fifth (17 / 100) 11 10 (by norm_num) (by norm_num) ?_
      unfold fallExponent
      have : (0.05 - xi) / (0.3 + 6 * xi) ≤ 1 / 5 := by rw [div_le_iff₀ d2]; norm_num; linarith
      norm_num at this ⊢; linarith
    by_cases h' : xi ≤ 0.02
    · have s := slope 0.0325 (by norm_num) (by rw [div_le_iff₀ d1]; norm_num; linarith)
      have q : (1.26 : ℝ) ≤ plateau xi := by
        refine le_trans ?_ (le_max_right _ _)
        have : (0.26 : ℝ) ≤ (0.05 - xi) / (0.08 + 1.6 * xi) := by rw [le_div_iff₀ d3]; norm_num at h' ⊢; linarith
        norm_num at this ⊢; linarith
      norm_num at s q
      nlinarith
    · have h' := (not_le.mp h').le
      have s := slope 0.0266 (by norm_num) (by rw [div_le_iff₀ d1]; norm_num at h' ⊢; linarith)
      have q : (1 : ℝ) ≤ plateau xi := by
        refine le_trans ?_ (le_max_right _ _)
        have : (0 : ℝ) ≤ (0.05 - xi) / (0.08 + 1.6 * xi) := div_nonneg (by linarith) d3.le
        linarith
      norm_num at s q
      nlinarith
  · have h := (not_le.mp h).le
    have p : (23 / 100 : ℝ) ≤ (2 / 10 : ℝ) ^ fallExponent xi := by
      refine pow_fifth (23 / 100) 9 10 (by norm_num) (by norm_num) ?_
      unfold fallExponent
      have : (0.05 - xi) / (0.3 + 6 * xi) ≤ 0 := div_nonpos_of_nonpos_of_nonneg (by linarith) d2.le
      norm_num at this ⊢; linarith
    have s := slope 0.02 (by norm_num) (by
      have : (0.05 - xi) / (4 + 32 * xi) ≤ 0 := div_nonpos_of_nonpos_of_nonneg (by linarith) d1.le
      linarith)
    norm_num at s
    nlinarith

/-- C81.  All ordinates of the table are positive, for every positive maximum, non-negative characteristic period and damping ratio. -/
theorem C81_positive {a Tg xi : ℝ} (ha : 0 < a) (hT : 0 ≤ Tg) (hx : 0 ≤ xi) :
    ∃ s, gb50010 a Tg xi = .ok s ∧ s.alpha.length = 601 ∧ ∀ y ∈ s.alpha, 0 < y := by
  obtain ⟨s, hs, -, h2⟩ := gb50010_ex a Tg hx
  refine ⟨s, hs, by rw [h2, List.length_map, gbPeriods_length], ?_⟩
  intro y hy
  rw [h2] at hy
  obtain ⟨t, ht, rfl⟩ := List.mem_map.mp hy
  obtain ⟨t0, t6⟩ := mem_gbPeriods ht
  have e2 := plateau_ge xi
  rw [gbAt_agree _ _ _ _ _ t0]
  unfold gb50011At
  split_ifs with h1 h2 h3
  · have := mul_nonneg (mul_nonneg (by linarith : 0 ≤ plateau xi - 45 / 100) ha.le) t0
    have : 0 ≤ (plateau xi - 45 / 100) * a / (1 / 10) * t := by
      have e : (plateau xi - 45 / 100) * a / (1 / 10) * t = 10 * ((plateau xi - 45 / 100) * a * t) := by ring
      rw [e]; linarith
    linarith
  · exact mul_pos (by linarith) ha
  · have : 0 < Tg / t := div_pos (by linarith [not_lt.mp h1]) (by linarith [not_lt.mp h1])
    have := Real.rpow_pos_of_pos this (fallExponent xi)
    exact mul_pos (mul_pos this (by linarith)) ha
  · refine mul_pos ?_ ha
    have k := fall_enough hx
    have := mul_le_mul_of_nonneg_left (by linarith : t - 5 * Tg ≤ 6) (lastSlope_nonneg xi)
    linarith

example : ∃ s, gb50010 0.16 0.35 0.05 = .ok s ∧ s.alpha.length = 601 ∧ ∀ y ∈ s.alpha, 0 < y :=
  C81_positive (by norm_num) (by norm_num) (by norm_num)

/-- C82, the property: more damping never increases an ordinate. -/
def C82_claim : Prop := ∀ a Tg xi xi' : ℝ, 0 < a → 0.1 ≤ Tg → 0 ≤ xi → xi ≤ xi' → ∃ s s',
  gb50010 a Tg xi = .ok s ∧ gb50010 a Tg xi' = .ok s' ∧ ∀ k, k < 601 → s'.alpha.getD k 0 ≤ s.alpha.getD k 0

theorem plateau_anti {xi xi' : ℝ} (hx : 0 ≤ xi) (h : xi ≤ xi') : plateau xi' ≤ plateau xi := by
  unfold plateau
  refine max_le_max le_rfl ?_
  have d : (0 : ℝ) < 0.08 + 1.6 * xi := by positivity
  have d' : (0 : ℝ) < 0.08 + 1.6 * xi' := by have := hx.trans h; positivity
  have : (0.05 - xi') / (0.08 + 1.6 * xi') ≤ (0.05 - xi) / (0.08 + 1.6 * xi) := by
    rw [div_le_div_iff₀ d' d]; norm_num; nlinarith
  linarith

theorem alpha_getD (a Tg xi : ℝ) {k : ℕ} (hk : k < 601) :
    (gbPeriods.map (gb50010At a Tg (fallExponent xi) (lastSlope xi) (plateau xi))).getD k 0 =
      gb50011At a Tg (fallExponent xi) (lastSlope xi) (plateau xi) ((k : ℝ) / 100) := by
  have h : k < gbPeriods.length := by rw [gbPeriods_length]; exact hk
  rw [List.getD_eq_getElem?_getD, List.getElem?_map, List.getElem?_eq_getElem h, gbPeriods_get]
  exact gbAt_agree _ _ _ _ _ (by positivity)

/-- C82 holds for periods below the characteristic one.  Missing: longer periods, where it is false (`C82_false`). -/
theorem C82_short_periods_partial {a Tg xi xi' : ℝ} (ha : 0 < a) (hx : 0 ≤ xi) (h : xi ≤ xi') : ∃ s s',
    gb50010 a Tg xi = .ok s ∧ gb50010 a Tg xi' = .ok s' ∧
      ∀ k : ℕ, k < 601 → (k : ℝ) / 100 < Tg → s'.alpha.getD k 0 ≤ s.alpha.getD k 0 := by
  obtain ⟨s, hs, -, h2⟩ := gb50010_ex a Tg hx
  obtain ⟨s', hs', -, h2'⟩ := gb50010_ex a Tg (hx.trans h)
  refine ⟨s, s', hs, hs', ?_⟩
  intro k hk hT
  rw [h2, h2', alpha_getD _ _ _ hk, alpha_getD _ _ _ hk]
  have p := plateau_anti hx h
  unfold gb50011At
  split_ifs with h1
  · have : 0 ≤ (k : ℝ) / 100 := by positivity
    have := mul_nonneg (mul_nonneg (by linarith : 0 ≤ plateau xi - plateau xi') ha.le) this
    nlinarith
  · exact mul_le_mul_of_nonneg_right p ha.le

/-- C82 is false: at period 6 with characteristic period 0.2, damping 0.3 gives more than damping 0.05. -/
theorem C82_false : ¬ C82_claim := by
  intro h
  obtain ⟨s, s', h1, h2, h3⟩ := h 1 0.2 0.05 0.3 (by norm_num) (by norm_num) (by norm_num) (by norm_num)
  obtain ⟨r, hr, -, e1⟩ := gb50010_ex 1 0.2 (xi := 0.05) (by norm_num)
  obtain ⟨r', hr', -, e2⟩ := gb50010_ex 1 0.2 (xi := 0.3) (by norm_num)
  obtain rfl : r = s := Except.ok.inj (hr.symm.trans h1)
  obtain rfl : r' = s' := Except.ok.inj (hr'.symm.trans h2)
  have k := h3 600 (by norm_num)
  rw [e1, e2, alpha_getD _ _ _ (by norm_num : 600 < 601), alpha_getD _ _ _ (by norm_num : 600 < 601)] at k
  have e : ∀ x, gb50011At 1 0.2 (fallExponent x) (lastSlope x) (plateau x) (((600 : ℕ) : ℝ) / 100) =
      plateau x * (2 / 10 : ℝ) ^ fallExponent x - 5 * lastSlope x := fun x => by
    unfold gb50011At
    rw [if_neg (by norm_num), if_neg (by norm_num), if_neg (by norm_num)]
    norm_num; ring
  rw [e, e] at k
  have g1 : fallExponent 0.05 = 9 / 10 := by norm_num [fallExponent]
  have p1 : plateau 0.05 = 1 := by norm_num [plateau]
  have l1 : lastSlope 0.05 = 2 / 100 := by norm_num [lastSlope]
  have p2 : (0.55 : ℝ) ≤ plateau 0.3 := le_max_left _ _
  have l2 : lastSlope 0.3 ≤ 0.002 := max_le (by norm_num) (by norm_num)
  have q2 : (28 / 100 : ℝ) ≤ (2 / 10 : ℝ) ^ fallExponent 0.3 :=
    pow_fifth (28 / 100) 79 100 (by norm_num) (by norm_num) (by norm_num [fallExponent])
  have q1 : (2 / 10 : ℝ) ^ (9 / 10 : ℝ) ≤ 24 / 100 := by
    refine le_of_pow_le_pow_left₀ (n := 10) (by norm_num) (by norm_num) ?_
    rw [← Real.rpow_natCast ((2 / 10 : ℝ) ^ (9 / 10 : ℝ)) 10, ← Real.rpow_mul (by norm_num)]
    have : (9 / 10 : ℝ) * ((10 : ℕ) : ℝ) = ((9 : ℕ) : ℝ) := by norm_num
    rw [this, Real.rpow_natCast]; norm_num
  rw [g1, p1, l1] at k
  norm_num at p2 l2
  nlinarith

example : ∃ s s', gb50010 0.16 0.35 0.02 = .ok s ∧ gb50010 0.16 0.35 0.05 = .ok s' ∧ s'.alpha.getD 20 0 ≤ s.alpha.getD 20 0 := by
  obtain ⟨s, s', h1, h2, h3⟩ := C82_short_periods_partial (a := 0.16) (Tg := 0.35) (xi := 0.02) (xi' := 0.05) (by norm_num) (by norm_num) (by norm_num)
  exact ⟨s, s', h1, h2, h3 20 (by norm_num) (by norm_num)⟩

end Hyperstatic
