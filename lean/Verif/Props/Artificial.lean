import Verif.Model.Artificial
import Verif.Spec.Artificial
import Verif.Props.Seismic
import Verif.Lemmas.Coo
import Mathlib.Analysis.Real.Pi.Bounds

/-
C154: artificial ground motions follow their target spectrum.
-/

namespace Hyperstatic
open Spec

/-! ## the envelope and the size of the motion -/

/-- The envelope rises from 0 to 1, stays, and falls: after the start it is positive and at most one. -/
theorem C154_envelope (t : ℝ) (ht : 0 < t) : 0 < artEnvelope t ∧ artEnvelope t ≤ 1 ∧
    (∀ u, t ≤ u → u ≤ 10 → artEnvelope t ≤ artEnvelope u) ∧ (∀ u, 10 ≤ t → t ≤ u → artEnvelope u ≤ artEnvelope t) := by
  have key : ∀ t, 0 < t → 0 < artEnvelope t ∧ artEnvelope t ≤ 1 := by
    intro t ht
    unfold artEnvelope
    split
    · rename_i h
      refine ⟨by positivity, ?_⟩
      have : t / 10 ≤ 1 := by linarith [h.2]
      exact pow_le_one₀ (by positivity) this
    · split
      · exact ⟨one_pos, le_refl _⟩
      · rename_i h1 h2
        refine ⟨Real.exp_pos _, Real.exp_le_one_iff.mpr ?_⟩
        rw [not_and] at h1 h2
        have h3 := not_le.mp (h1 ht)
        have h4 := not_lt.mp (h2 h3)
        nlinarith
  refine ⟨(key t ht).1, (key t ht).2, ?_, ?_⟩
  · intro u htu hu
    unfold artEnvelope
    rw [if_pos ⟨ht, htu.trans hu⟩, if_pos ⟨ht.trans_le htu, hu⟩]
    gcongr
  · intro u h10 htu
    rcases lt_or_ge t 20 with h20 | h20
    · have e : artEnvelope t = 1 := by
        unfold artEnvelope
        split
        · rename_i h
          rw [le_antisymm h.2 h10]
          norm_num
        · rename_i h
          rw [if_pos ⟨lt_of_not_ge fun h' => h ⟨ht, h'⟩, h20⟩]
      rw [e]
      exact (key u (ht.trans_le htu)).2
    · unfold artEnvelope
      rw [if_neg (by intro h; linarith [h.2]), if_neg (by intro h; linarith [h.2]), if_neg (by intro h; linarith [h.2]),
        if_neg (by intro h; linarith [h.2])]
      exact Real.exp_le_exp.mpr (by linarith)

example : artEnvelope 5 = 1 / 4 ∧ artEnvelope 15 = 1 ∧ artEnvelope 20 = 1 := by
  unfold artEnvelope
  norm_num

/-- No value of the motion exceeds the sum of the amplitudes of its components, whatever the phases. -/
theorem C154_bound (P : ArtData) (cs : List ℝ) (hc : ∀ c ∈ cs, 0 ≤ c) (t a : ℝ) (ht : 0 < t)
    (ha : artMotionAt P (cs.map some) t = some a) : |a| ≤ cs.sum := by
  have hm : ∀ l : List ℝ, (l.map some).mapM (m := Option) id = some l := by
    intro l
    induction l with
    | nil => rfl
    | cons x l ih => rw [List.map_cons, List.mapM_cons, ih]; rfl
  unfold artMotionAt at ha
  rw [hm] at ha
  have ha := (Option.some.inj ha).symm
  have hsum : ∀ (cs : List ℝ), (∀ c ∈ cs, 0 ≤ c) → ∀ (ws ps : List ℝ),
      |(List.zipWith (· * ·) cs (List.zipWith (fun w p => Real.cos (w * t + p)) ws ps)).sum| ≤ cs.sum := by
    intro cs
    induction cs with
    | nil => intro _ ws ps; simp
    | cons c cs ih =>
      intro hc ws ps
      have h0 : 0 ≤ cs.sum := List.sum_nonneg fun x hx => hc x (List.mem_cons_of_mem _ hx)
      have hc0 := hc c List.mem_cons_self
      cases ws with
      | nil => simpa using add_nonneg hc0 h0
      | cons w ws =>
        cases ps with
        | nil => simpa using add_nonneg hc0 h0
        | cons p ps =>
          simp only [List.zipWith_cons_cons, List.sum_cons]
          refine (abs_add_le _ _).trans (add_le_add ?_ (ih (fun x hx => hc x (List.mem_cons_of_mem _ hx)) ws ps))
          rw [abs_mul, abs_of_nonneg hc0]
          exact mul_le_of_le_one_right hc0 (Real.abs_cos_le_one _)
  obtain ⟨h1, h2, -, -⟩ := C154_envelope t ht
  rw [ha, abs_mul, abs_of_pos h1]
  exact (mul_le_of_le_one_left (abs_nonneg _) h2).trans (hsum cs hc P.omegas P.phases)

/-! ## reading the spectra -/

/-- With a table whose last entry is the smallest, `np.interp` gives the last ordinate above it, and below it the first one. -/
theorem npInterp_down (x : ℝ) (xp : List (WithTop ℝ)) (fp : List (Option ℝ)) (lo hi : WithTop ℝ) (h1 : xp.head? = some lo)
    (h2 : xp.getLast? = some hi) (h : hi < lo) :
    npInterp x xp fp = .ok (if hi < (x : WithTop ℝ) then fp.getLast?.getD none else fp.head?.getD none) := by
  unfold npInterp
  rw [h1, h2]
  simp only
  split
  · rfl
  · rename_i h'
    rw [if_pos (lt_of_le_of_lt (not_lt.mp h') h)]

/-- What the script takes for the ordinate of the target at the circular frequency `w`: for a table of at least two increasing periods it
is the ordinate of the longest period if `w` is above the frequency of that period, and else the ordinate of the shortest. -/
theorem C154_target_actual (S : List (ℝ × ℝ)) (first last : ℝ × ℝ) (h1 : S.head? = some first) (h2 : S.getLast? = some last) (h0 : 0 ≤ first.1)
    (h : first.1 < last.1) (w : ℝ) : artTarget S w = .ok (some (if 2 * Real.pi / last.1 < w then last.2 else first.2)) := by
  unfold artTarget
  have hl : 0 < last.1 := h0.trans_lt h
  have hc : circular last.1 = ((2 * Real.pi / last.1 : ℝ) : WithTop ℝ) := if_neg hl.ne'
  rw [npInterp_down w _ _ (circular first.1) (circular last.1) (by rw [List.head?_map, h1]; rfl) (by rw [List.getLast?_map, h2]; rfl)]
  · rw [List.getLast?_map, h2, List.head?_map, h1, hc]
    simp only [WithTop.coe_lt_coe, Option.map_some, Option.getD_some]
    split <;> rfl
  · rw [hc]
    unfold circular
    split
    · exact WithTop.coe_lt_top _
    · rename_i h'
      rw [WithTop.coe_lt_coe]
      have := Real.pi_pos
      have h0 := lt_of_le_of_ne h0 (Ne.symm h')
      gcongr

example : artTarget [(1, 2), (2, 3)] 4 = .ok (some 3) := by
  rw [C154_target_actual [(1, 2), (2, 3)] (1, 2) (2, 3) rfl rfl (by norm_num) (by norm_num) 4, if_pos]
  have := Real.pi_lt_d2
  norm_num
  linarith

/-- C154, reading of the target: at the frequency of each period in the table the script takes the ordinate of that period. -/
def C154_target_claim : Prop :=
  ∀ phases S, (ArtData.script phases).target = .ok S → ReadsByFrequency S fun w => (artTarget S w).toOption.getD none

theorem gb50011_eq {a Tg xi dt n g e1 e2 : ℝ} (hn : pyDiv 6 dt = .ok n) (h1 : specGamma xi = .ok g) (h2 : specEta1 xi = .ok e1)
    (h3 : specEta2 xi = .ok e2) : gb50011 a Tg xi dt =
      .ok ((List.range ⌈n⌉₊).map fun k : ℕ => ((k : ℝ) * dt, gb50011At a Tg g e1 e2 ((k : ℝ) * dt))) := by
  unfold gb50011
  rw [hn, h1, h2, h3]
  show Except.ok (((List.range _).map _).map _) = _
  rw [List.map_map]
  rfl

/-- the target of the script -/
theorem script_target (phases : List ℝ) : (ArtData.script phases).target =
    .ok ((List.range 600).map fun k : ℕ => ((k : ℝ) * (1 / 100), gb50011At (70 / 440) (45 / 100) (9 / 10) (2 / 100) 1 ((k : ℝ) * (1 / 100)))) := by
  have h1 : specGamma (5 / 100) = .ok (9 / 10) := by
    unfold specGamma pyDiv
    norm_num
  have h2 : specEta1 (5 / 100) = .ok (2 / 100) := by
    unfold specEta1 pyDiv
    norm_num
  have h3 : specEta2 (5 / 100) = .ok 1 := by
    unfold specEta2 pyDiv
    norm_num
  have h4 : pyDiv 6 (1 / 100) = .ok 600 := by
    unfold pyDiv
    norm_num
  have h5 : ⌈(600 : ℝ)⌉₊ = 600 := Nat.ceil_natCast 600
  have h6 := gb50011_eq (a := 70 / 440) (Tg := 45 / 100) h4 h1 h2 h3
  rw [h5] at h6
  exact h6

theorem script_first (phases : List ℝ) (S : List (ℝ × ℝ)) (h : (ArtData.script phases).target = .ok S) :
    (∃ a, S.head? = some (0, a)) ∧ ∃ b, S.getLast? = some (599 / 100, b) ∧ b < 70 / 440 := by
  rw [script_target] at h
  have h := Except.ok.inj h
  have hN : (600 : ℕ) = 599 + 1 := rfl
  generalize hf : (fun k : ℕ => ((k : ℝ) * (1 / 100), gb50011At (70 / 440) (45 / 100) (9 / 10) (2 / 100) 1 ((k : ℝ) * (1 / 100)))) = f at h
  have h0 : f 0 = (0, (f 0).2) := by
    rw [← hf]
    simp only [Nat.cast_zero, zero_mul]
  have h1 : f 599 = (599 / 100, gb50011At (70 / 440) (45 / 100) (9 / 10) (2 / 100) 1 (599 / 100)) := by
    rw [← hf]
    norm_num
  rw [hN] at h
  generalize 599 = N at h h1
  refine ⟨⟨(f 0).2, ?_⟩, gb50011At (70 / 440) (45 / 100) (9 / 10) (2 / 100) 1 (599 / 100), ?_, ?_⟩
  · rw [← h, List.head?_map, List.range_succ_eq_map, List.head?_cons, ← h0]
    rfl
  · rw [← h, List.getLast?_map, List.range_succ, List.getLast?_append, ← h1]
    rfl
  · unfold gb50011At
    have : (2 / 10 : ℝ) ^ (9 / 10 : ℝ) < 1 := Real.rpow_lt_one (by norm_num) (by norm_num) (by norm_num)
    norm_num
    norm_num at this
    linarith

/-- At all its frequencies but the first the script takes the ordinate of the longest period, 5.99 s. -/
theorem C154_target_false : ¬ C154_target_claim := by
  intro h
  have ht := script_target []
  generalize hS : (List.range 600).map _ = S at ht
  have h1 := h [] S ht (20 * (1 / 100), 70 / 440) (by
    rw [← hS]
    refine List.mem_map.mpr ⟨20, by simp, ?_⟩
    unfold gb50011At
    norm_num) (by norm_num)
  obtain ⟨⟨a, ha⟩, b, hb, hlt⟩ := script_first [] S ht
  have h2 := C154_target_actual S (0, a) (599 / 100, b) ha hb (le_refl _) (by norm_num) (2 * Real.pi / (20 * (1 / 100)))
  have h3 : (artTarget S (2 * Real.pi / (20 * (1 / 100)))).toOption.getD none = some (70 / 440) := h1
  rw [h2, if_pos (by have := Real.pi_pos; gcongr; norm_num)] at h3
  exact absurd (Option.some.inj h3) hlt.ne

/-! ## the densities -/

/-- C154, densities: the density of a component is the one that belongs to the ordinate of its target. -/
def C154_density_claim : Prop :=
  ∀ (phases : List ℝ) (w sa : ℝ), w ∈ (ArtData.script phases).omegas → 0 < sa →
    artDensity (ArtData.script phases) w (some sa) = some (densityFor (5 / 100) (15 / 100) 20 w sa)

theorem artDensity_some (P : ArtData) (w sa : ℝ) (h1 : Real.pi * w ≠ 0) (h2 : w * P.td ≠ 0) (h3 : 0 < (1 - P.r) / (w * P.td))
    (h4 : 0 < -Real.pi * Real.log ((1 - P.r) / (w * P.td))) (h5 : Real.log (-Real.pi * Real.log ((1 - P.r) / (w * P.td))) ≠ 0) :
    artDensity P w (some sa) = some (P.zeta / (Real.pi * w) * sa ^ 2 / Real.log (-Real.pi * Real.log ((1 - P.r) / (w * P.td)))) := by
  unfold artDensity npDiv npLog
  simp only [bind, Option.bind, if_neg h1, if_neg h2, if_pos h3, if_pos h4, if_neg h5]

/-- The densities are too large: `(1-r)/(ω td)` is one argument of the inner logarithm, instead of `1-r`. -/
theorem C154_density_actual (phases : List ℝ) (w sa : ℝ) (hw : 5 ≤ w) (hsa : 0 < sa) :
    ∃ s, artDensity (ArtData.script phases) w (some sa) = some s ∧ densityFor (5 / 100) (15 / 100) 20 w sa < s := by
  have hpi := Real.pi_pos
  have hp3 := Real.pi_gt_three
  have hp4 := Real.pi_lt_d2
  have hw0 : 0 < w := by linarith
  set y := w * 20 with hy
  have hy0 : 100 ≤ y := by linarith
  have hy1 : 0 < y := by linarith
  -- the inner logarithm of the script
  set q : ℝ := (1 - 15 / 100) / y with hq
  have hq0 : 0 < q := by positivity
  have hq1 : q ≤ 1 / 100 := by
    rw [hq, div_le_iff₀ hy1]
    norm_num
    linarith
  have hlq : Real.log q ≤ -(99 / 100) := by
    have := Real.log_le_sub_one_of_pos hq0
    linarith
  set z : ℝ := -Real.pi * Real.log q with hz
  have hz1 : 1 < z := by rw [hz]; nlinarith
  have hz2 : z ≤ y := by
    -- log (1/q) ≤ 2 (sqrt (1/q) - 1)
    have h1 : -Real.log q ≤ 2 * (Real.sqrt (q⁻¹) - 1) := by
      have h0 : 0 < q⁻¹ := inv_pos.mpr hq0
      have h2 := Real.log_le_sub_one_of_pos (Real.sqrt_pos.mpr h0)
      rw [Real.log_sqrt h0.le, Real.log_inv] at h2
      linarith
    have h2 : Real.sqrt q⁻¹ ≤ y / 8 := by
      rw [Real.sqrt_le_left (by positivity), hq, inv_div, div_le_iff₀ (by norm_num)]
      nlinarith
    rw [hz]
    nlinarith
  have hl1 : 0 < -Real.log (1 - 15 / 100) := by
    have := Real.log_neg (x := 1 - 15 / 100) (by norm_num) (by norm_num)
    linarith
  have hl2 : -Real.log (1 - 15 / 100) ≤ 3 / 17 := by
    have := Real.log_le_sub_one_of_pos (x := ((1 - 15 / 100 : ℝ))⁻¹) (by norm_num)
    rw [Real.log_inv] at this
    norm_num at this ⊢
    linarith
  set v : ℝ := -Real.pi / y * Real.log (1 - 15 / 100) with hv
  have hv0 : 0 < v := by
    rw [hv, neg_div, neg_mul, ← mul_neg]
    positivity
  have hv1 : v * z < 1 := by
    have : v ≤ 4 / y * (3 / 17) := by
      rw [hv, neg_div, neg_mul, ← mul_neg]
      gcongr
      linarith
    calc v * z ≤ 4 / y * (3 / 17) * y := by gcongr
      _ < 1 := by field_simp; norm_num
  have hlz : 0 < Real.log z := Real.log_pos hz1
  have hlt : Real.log z < -Real.log v := by
    rw [← Real.log_inv]
    refine Real.log_lt_log (by linarith) ?_
    rw [lt_inv_comm₀ (by linarith) hv0, lt_inv_comm₀ hv0 (by linarith)]
    rw [← one_div, lt_div_iff₀ hv0]
    linarith
  refine ⟨5 / 100 / (Real.pi * w) * sa ^ 2 / Real.log z, ?_, ?_⟩
  · exact artDensity_some (ArtData.script phases) w sa (by positivity) hy1.ne' hq0 (zero_lt_one.trans hz1) hlz.ne'
  · unfold densityFor
    rw [← hy, ← hv]
    have : 0 < 5 / 100 / (Real.pi * w) * sa ^ 2 := by positivity
    gcongr

example : ∃ s, artDensity (ArtData.script []) 10 (some 1) = some s ∧ densityFor (5 / 100) (15 / 100) 20 10 1 < s :=
  C154_density_actual [] 10 1 (by norm_num) (by norm_num)

theorem C154_density_false : ¬ C154_density_claim := by
  intro h
  have hpi := Real.pi_pos
  have hp3 := Real.pi_gt_three
  have hmem : 2 * Real.pi / 6 + ((50 : ℕ) : ℝ) * (2 / 100 * 2 * Real.pi) ∈ (ArtData.script []).omegas := by
    refine List.mem_map.mpr ⟨50, ?_, rfl⟩
    rw [List.mem_range, Nat.lt_ceil]
    rw [lt_div_iff₀ (by positivity)]
    norm_num
    nlinarith
  obtain ⟨s, h1, h2⟩ := C154_density_actual [] (2 * Real.pi / 6 + ((50 : ℕ) : ℝ) * (2 / 100 * 2 * Real.pi)) 1 (by norm_num; nlinarith) one_pos
  rw [h [] _ 1 hmem one_pos] at h1
  exact absurd (Option.some.inj h1) h2.ne

/-! ## fitting -/

/-- multiplication of numpy numbers -/
def npMul (c x : Option ℝ) : Option ℝ := do let c ← c; let x ← x; return c * x

theorem npMul_assoc (a b c : Option ℝ) : npMul (npMul a b) c = npMul a (npMul b c) := by
  cases a <;> cases b <;> cases c <;> simp [npMul, mul_assoc]

theorem npMul_comm (a b : Option ℝ) : npMul a b = npMul b a := by
  cases a <;> cases b <;> simp [npMul, mul_comm]

theorem script_omegas (phases : List ℝ) (k : ℕ) (hk : k ≠ 0) (w : ℝ) (h : (ArtData.script phases).omegas[k]? = some w) :
    2 * Real.pi / (599 / 100) < w ∧ 2 * Real.pi / 6 < w := by
  have hpi := Real.pi_pos
  have h' : ((List.range ⌈(2 * Real.pi / (2 / 100) - 2 * Real.pi / 6) / (2 / 100 * 2 * Real.pi)⌉₊).map
    fun k : ℕ => 2 * Real.pi / 6 + (k : ℝ) * (2 / 100 * 2 * Real.pi))[k]? = some w := h
  rw [List.getElem?_map] at h'
  obtain ⟨j, hj, rfl⟩ := Option.map_eq_some_iff.mp h'
  have hj : k = j := by
    obtain ⟨hlt, hj⟩ := List.getElem?_eq_some_iff.mp hj
    rw [← hj]
    exact List.getElem_range hlt |>.symm
  subst hj
  have h1 : (1 : ℝ) ≤ (k : ℝ) := by exact_mod_cast Nat.one_le_iff_ne_zero.mpr hk
  constructor
  · rw [div_lt_iff₀ (by norm_num)]
    nlinarith
  · nlinarith

/-- the script computes a spectrum of every motion -/
theorem artSpectrum_ok (phases : List ℝ) (accel : List (Option ℝ)) (h : accel ≠ []) : ∃ g : ℝ → Option ℝ,
    artSpectrum (ArtData.script phases) accel =
      .ok ((List.range 600).map fun k : ℕ => 1 / 100 + (k : ℝ) * (1 / 100), ((List.range 600).map fun k : ℕ => 1 / 100 + (k : ℝ) * (1 / 100)).map g) := by
  have h4 : pyDiv 6 (1 / 100) = .ok 600 := by
    unfold pyDiv
    norm_num
  have h5 : ⌈(600 : ℝ)⌉₊ = 600 := Nat.ceil_natCast 600
  have hT : specPeriods (1 / 100) = .ok ((List.range 600).map fun k : ℕ => 1 / 100 + (k : ℝ) * (1 / 100)) := by
    unfold specPeriods
    rw [h4]
    show Except.ok ((List.range ⌈(600 : ℝ)⌉₊).map _) = _
    rw [h5]
  generalize hL : (List.range 600).map (fun k : ℕ => 1 / 100 + (k : ℝ) * (1 / 100)) = L at hT ⊢
  unfold artSpectrum
  cases ha : accel.mapM id with
  | none =>
    refine ⟨fun _ => none, ?_⟩
    show (specPeriods (1 / 100) >>= _) = _
    rw [hT]
    rfl
  | some a =>
    have hne : a ≠ [] := by
      rintro rfl
      cases accel with
      | nil => exact h rfl
      | cons x l =>
        rw [List.mapM_cons] at ha
        cases x with
        | none => cases ha
        | some x =>
          cases hl : l.mapM (m := Option) id with
          | none => simp [hl] at ha
          | some b => simp [hl] at ha
    obtain ⟨x, l, rfl⟩ := List.exists_cons_of_ne_nil hne
    refine ⟨fun t => (if l.foldl max x = 0 then none else some ((x :: l).map fun y => 1 / 100 * y * 70 / l.foldl max x)).bind fun r =>
      maxResponse r (nex2pow 256 * 16) (1 / 100) (5 / 100) t, ?_⟩
    show fft2spec (x :: l) (1 / 100) (5 / 100) 70 = _
    unfold fft2spec
    rw [hT]
    rfl

/-- One iteration: the densities of all components but the first are multiplied by one common number, the ordinate of the target at the
longest tabulated period over the ordinate at 6 s of the spectrum of the present motion (or all become nan). -/
theorem C154_step_actual (phases : List ℝ) (S : List (ℝ × ℝ)) (b : ℝ) (st s : List (Option ℝ))
    (hS : (ArtData.script phases).target = .ok S) (hb : S.getLast? = some (599 / 100, b))
    (hst : (ArtData.script phases).omegas.mapM (artTarget S) = .ok st) (hlen : s.length ≤ (ArtData.script phases).omegas.length) :
    ∃ sp d s', artSpectrum (ArtData.script phases) ((ArtData.script phases).times.map
        (artMotionAt (ArtData.script phases) (s.map (artAmplitude (ArtData.script phases))))) = .ok sp ∧
      sp.1.getLast? = some 6 ∧ sp.2.getLast? = some d ∧
      artFitStep (ArtData.script phases) st s = .ok s' ∧ s'.length ≤ (ArtData.script phases).omegas.length ∧
      ∀ k, k ≠ 0 → s'[k]? = s[k]?.map (npMul (d.bind (npDiv b))) := by
  obtain ⟨⟨a, ha⟩, -⟩ := script_first phases S hS
  have hst2 : st = (ArtData.script phases).omegas.map fun w => some (if 2 * Real.pi / (599 / 100) < w then b else a) := by
    rw [mapM_ok_of_forall _ fun w _ => C154_target_actual S (0, a) (599 / 100, b) ha hb (le_refl _) (by norm_num) w] at hst
    exact (Except.ok.inj hst).symm
  have hstk : ∀ k w, k ≠ 0 → (ArtData.script phases).omegas[k]? = some w → st[k]? = some (some b) := by
    intro k w hk hw
    rw [hst2, List.getElem?_map, hw, Option.map_some, if_pos (script_omegas phases k hk w hw).1]
  have htimes : (ArtData.script phases).times ≠ [] := by
    show (List.range ⌈(40 - 1 / 10) / (1 / 100 : ℝ)⌉₊).map _ ≠ []
    rw [Ne, List.map_eq_nil_iff, List.range_eq_nil, Nat.ceil_eq_zero]
    norm_num
  obtain ⟨g, hg⟩ := artSpectrum_ok phases ((ArtData.script phases).times.map
    (artMotionAt (ArtData.script phases) (s.map (artAmplitude (ArtData.script phases))))) (by simpa using htimes)
  have hN : (600 : ℕ) = 599 + 1 := rfl
  have hlast : (1 / 100 + ((599 : ℕ) : ℝ) * (1 / 100)) = 6 := by norm_num
  rw [hN] at hg
  generalize hNN : 599 = N at hg hlast
  have hh : ((List.range (N + 1)).map fun k : ℕ => 1 / 100 + (k : ℝ) * (1 / 100)).head? = some (1 / 100) := by
    rw [List.head?_map, List.range_succ_eq_map, List.head?_cons]
    simp
  have hl : ((List.range (N + 1)).map fun k : ℕ => 1 / 100 + (k : ℝ) * (1 / 100)).getLast? = some 6 := by
    rw [List.getLast?_map, List.range_succ, List.getLast?_append, ← hlast]
    rfl
  have hsa : ∀ w : ℝ, npInterp w (((List.range (N + 1)).map fun k : ℕ => 1 / 100 + (k : ℝ) * (1 / 100)).map circular)
      (((List.range (N + 1)).map fun k : ℕ => 1 / 100 + (k : ℝ) * (1 / 100)).map g) =
        .ok (if 2 * Real.pi / 6 < w then g 6 else g (1 / 100)) := by
    intro w
    have hc6 : circular 6 = ((2 * Real.pi / 6 : ℝ) : WithTop ℝ) := if_neg (by norm_num)
    have hc1 : circular (1 / 100) = ((2 * Real.pi / (1 / 100) : ℝ) : WithTop ℝ) := if_neg (by norm_num)
    rw [npInterp_down w _ _ (circular (1 / 100)) (circular 6) (by rw [List.head?_map, hh]; rfl) (by rw [List.getLast?_map, hl]; rfl)]
    · rw [List.getLast?_map, hl, List.head?_map, hh, hc6]
      simp only [WithTop.coe_lt_coe, Option.map_some, Option.getD_some]
    · rw [hc6, hc1, WithTop.coe_lt_coe]
      have := Real.pi_pos
      gcongr
      norm_num
  refine ⟨_, g 6, List.zipWith (fun x q => do let x ← x; let q ← q; return x * q) s
    (List.zipWith (fun x y => do let x ← x; let y ← y; npDiv x y) st
      ((ArtData.script phases).omegas.map fun w => if 2 * Real.pi / 6 < w then g 6 else g (1 / 100))), hg, hl, ?_, ?_, ?_, ?_⟩
  · rw [List.getLast?_map, hl]
    rfl
  · unfold artFitStep
    dsimp only
    rw [hg]
    simp only [Except.bind_ok, bind_pure_comp, mapM_ok_of_forall _ fun w _ => hsa w]
    rfl
  · rw [List.length_zipWith]
    exact (min_le_left _ _).trans hlen
  · intro k hk
    rw [List.getElem?_zipWith, List.getElem?_zipWith, List.getElem?_map]
    cases hw : (ArtData.script phases).omegas[k]? with
    | none =>
      have : s[k]? = none := List.getElem?_eq_none (hlen.trans (List.getElem?_eq_none_iff.mp hw))
      rw [this]
      rfl
    | some w =>
      rw [hstk k w hk hw]
      simp only [Option.map_some, if_pos (script_omegas phases k hk w hw).2]
      cases s[k]? with
      | none => rfl
      | some x =>
        simp only [Option.map_some, Option.some.injEq]
        exact npMul_comm _ _

/-- Fitting: after any number of iterations the densities of all components but the first are those at the start, times one common
number (or all are nan). -/
theorem C154_fit_actual (phases : List ℝ) (S : List (ℝ × ℝ)) (st : List (Option ℝ)) (hS : (ArtData.script phases).target = .ok S)
    (hst : (ArtData.script phases).omegas.mapM (artTarget S) = .ok st) (n : ℕ) :
    ∃ s c, artFit (ArtData.script phases) st n = .ok s ∧ s.length ≤ (ArtData.script phases).omegas.length ∧
      ∀ k, k ≠ 0 → s[k]? = (artStart (ArtData.script phases) st)[k]?.map (npMul c) := by
  obtain ⟨-, b, hb, -⟩ := script_first phases S hS
  induction n with
  | zero =>
    refine ⟨_, some 1, rfl, ?_, fun k _ => ?_⟩
    · unfold artStart
      rw [List.length_zipWith]
      exact min_le_left _ _
    · cases (artStart (ArtData.script phases) st)[k]? with
      | none => rfl
      | some x => cases x <;> simp [npMul]
  | succ n ih =>
    obtain ⟨s, c, hs, hlen, hc⟩ := ih
    obtain ⟨sp, d, s', -, -, -, h4, h5, h6⟩ := C154_step_actual phases S b st s hS hb hst hlen
    refine ⟨s', npMul (d.bind (npDiv b)) c, ?_, h5, ?_⟩
    · show (artFit (ArtData.script phases) st n >>= fun s => artFitStep (ArtData.script phases) st s) = _
      rw [hs]
      exact h4
    · intro k hk
      rw [h6 k hk, hc k hk, Option.map_map]
      congr 1
      funext x
      exact (npMul_assoc _ _ _).symm

example : ∃ S st, (ArtData.script []).target = .ok S ∧ (ArtData.script []).omegas.mapM (artTarget S) = .ok st := by
  obtain ⟨S, hS⟩ : ∃ S, (ArtData.script []).target = .ok S := ⟨_, script_target []⟩
  obtain ⟨⟨a, ha⟩, b, hb, -⟩ := script_first [] S hS
  exact ⟨S, _, hS, mapM_ok_of_forall _ fun w _ => C154_target_actual S (0, a) (599 / 100, b) ha hb (le_refl _) (by norm_num) w⟩

/-- So the fitted motion is made, before the envelope, of the same components as the motion at the start, in the same proportions: the
squares of all amplitudes but the first are those at the start times one common number. -/
theorem C154_motion_actual (phases : List ℝ) : ∃ (S : List (ℝ × ℝ)) (s0 s : List (Option ℝ)) (c : Option ℝ),
    (ArtData.script phases).target = .ok S ∧
    s0 = (ArtData.script phases).omegas.map (fun w => artDensity (ArtData.script phases) w ((artTarget S w).toOption.getD none)) ∧
    artMotion (ArtData.script phases) = .ok ((ArtData.script phases).times.map
      (artMotionAt (ArtData.script phases) (s.map (artAmplitude (ArtData.script phases))))) ∧
    ∀ k, k ≠ 0 → s[k]? = s0[k]?.map (npMul c) := by
  obtain ⟨S, hS⟩ : ∃ S, (ArtData.script phases).target = .ok S := ⟨_, script_target phases⟩
  obtain ⟨⟨a, ha⟩, b, hb, -⟩ := script_first phases S hS
  have hT := fun w => C154_target_actual S (0, a) (599 / 100, b) ha hb (le_refl _) (by norm_num) w
  have hst := mapM_ok_of_forall (l := (ArtData.script phases).omegas) _ fun w _ => hT w
  generalize hst' : (ArtData.script phases).omegas.map (fun w => some (if 2 * Real.pi / (599 / 100) < w then b else a)) = st at hst
  have hstart : artStart (ArtData.script phases) st =
      (ArtData.script phases).omegas.map (fun w => artDensity (ArtData.script phases) w ((artTarget S w).toOption.getD none)) := by
    unfold artStart
    rw [← hst', List.zipWith_map_right, List.zipWith_self]
    refine List.map_congr_left fun w _ => ?_
    rw [hT]
    rfl
  obtain ⟨s, c, hs, -, hc⟩ := C154_fit_actual phases S st hS hst 9
  obtain ⟨s', c', hs', -, -⟩ := C154_fit_actual phases S st hS hst 10
  refine ⟨S, _, s, c, hS, rfl, ?_, ?_⟩
  · have e : artFitStep (ArtData.script phases) st s = .ok s' := by
      rw [← hs']
      show _ = artFit (ArtData.script phases) st 9 >>= _
      rw [hs]
      rfl
    unfold artMotion
    rw [hS]
    show ((ArtData.script phases).omegas.mapM (artTarget S) >>= _) = _
    rw [hst]
    show (artFit (ArtData.script phases) st 9 >>= _) = _
    rw [hs]
    show (artFitStep (ArtData.script phases) st s >>= _) = _
    rw [e]
    rfl
  · rw [← hstart]
    exact hc

end Hyperstatic
