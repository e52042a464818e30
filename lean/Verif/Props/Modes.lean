import Verif.Lemmas.Modes
import Verif.Lemmas.FrameDemo
import Verif.Lemmas.FrameMap

/-
C140: laws of the vibration modes a modal analysis reports.
-/

namespace Hyperstatic
open Matrix Spec

/-! ### forms on sums of states -/

/-- a symmetric form linear in its second argument, on a combination of states that are orthogonal for it -/
theorem form_sum (B : State → State → ℝ) (hlin : ∀ a b v u w, B v (a • u + b • w) = a * B v u + b * B v w)
    {m : ℕ} (u : Fin m → State) (c : Fin m → ℝ) (v : State) : B v (∑ i, c i • u i) = ∑ i, c i * B v (u i) := by
  have h0 : B v 0 = 0 := by have := hlin 0 0 v 0 0; simpa using this
  have key : ∀ s : Finset (Fin m), B v (∑ i ∈ s, c i • u i) = ∑ i ∈ s, c i * B v (u i) := by
    intro s
    induction s using Finset.induction_on with
    | empty => simpa using h0
    | insert a s ha ih =>
      rw [Finset.sum_insert ha, Finset.sum_insert ha, ← ih]
      have := hlin (c a) 1 v (u a) (∑ i ∈ s, c i • u i)
      rw [one_smul, one_mul] at this
      exact this
  exact key _

theorem form_orth (B : State → State → ℝ) (hs : ∀ v u, B v u = B u v) (hlin : ∀ a b v u w, B v (a • u + b • w) = a * B v u + b * B v w)
    {m : ℕ} (u : Fin m → State) (c : Fin m → ℝ) (ho : ∀ i j, i ≠ j → B (u i) (u j) = 0) :
    B (∑ i, c i • u i) (∑ i, c i • u i) = ∑ i, c i ^ 2 * B (u i) (u i) := by
  rw [form_sum B hlin]
  refine Finset.sum_congr rfl fun i _ => ?_
  rw [hs, form_sum B hlin, Finset.sum_eq_single i]
  · ring
  · intro j _ hj
    rw [ho i j (Ne.symm hj), mul_zero]
  · simp

theorem obeys_sum {t : String → Option Flags} {m : ℕ} {u : Fin m → State} (c : Fin m → ℝ) (hu : ∀ i, Obeys t (u i)) :
    Obeys t (∑ i, c i • u i) := by
  intro n f hf r hr
  simp only [Finset.sum_apply, Pi.smul_apply, smul_eq_mul]
  exact Finset.sum_eq_zero fun i _ => by rw [hu i n f hf r hr, mul_zero]

/-! ### laws of modes -/

theorem mode_quotient {P : Vibration} {lam : ℝ} {u : State} (h : P.Mode lam u) : P.frame.internal u u = lam * P.inertial u u := h.2.2 u h.1

theorem mode_nonneg {P : Vibration} (hS : Sane P.frame P.nodes) (hpos : P.frame.Positive) (hmas : P.Massive) {lam : ℝ} {u : State}
    (h : P.Mode lam u) : 0 ≤ lam := by
  have h1 := internal_nonneg hS hpos u
  rw [mode_quotient h] at h1
  exact nonneg_of_mul_nonneg_left h1 (hmas u h.1 h.2.1)

theorem mode_pos {P : Vibration} (hS : Sane P.frame P.nodes) (hpos : P.frame.Positive) (hmas : P.Massive)
    (hst : P.frame.Stable P.nodes P.fix) {lam : ℝ} {u : State} (h : P.Mode lam u) : 0 < lam := by
  refine lt_of_le_of_ne (mode_nonneg hS hpos hmas h) ?_
  rintro rfl
  obtain ⟨n, hn, h0⟩ := h.2.1
  exact h0 (hst u h.1 (by rw [mode_quotient h, zero_mul]) n hn)

theorem mode_orth {P : Vibration} (hS : Sane P.frame P.nodes) {a b : ℝ} {u w : State} (hu : P.Mode a u) (hw : P.Mode b w) (hab : a ≠ b) :
    P.inertial u w = 0 ∧ P.frame.internal u w = 0 := by
  have h1 := hw.2.2 u hu.1
  have h2 := hu.2.2 w hw.1
  rw [internal_symm hS, h1, inertial_symm P w u] at h2
  have h3 : P.inertial u w = 0 := by
    have : (b - a) * P.inertial u w = 0 := by linarith
    exact (mul_eq_zero.mp this).resolve_left (sub_ne_zero.mpr (Ne.symm hab))
  exact ⟨h3, by rw [h1, h3, mul_zero]⟩

/-- comparison of the values of two systems -/
theorem compare_counts {env env' : Env} {dyn dyn' : DynEnv} (hdyn : dyn.EigSound) (hnear : EigNearest dyn) (hdyn' : dyn'.EigSound)
    (hnear' : EigNearest dyn') {pre pre' : List Call} {lc lc' : LoadCase} {k k' : ℕ} {omega omega' : List ℝ} {shapes shapes' : List (List ℝ)}
    (hR : ModalReport env dyn pre lc k omega shapes) (hR' : ModalReport env' dyn' pre' lc' k' omega' shapes')
    {P P' : Vibration} (hP : Shakes pre lc P) (hP' : Shakes pre' lc' P')
    (hpos : P.frame.Positive) (hpos' : P'.frame.Positive) (hmas : P.Massive) (hmas' : P'.Massive)
    (hfix : ∀ v, Obeys P'.fix v → Obeys P.fix v) {κ : ℝ} (hκ : 0 < κ) (hs : ∀ v, κ * P.frame.internal v v ≤ P'.frame.internal v v)
    (hmass : ∀ v, P'.inertial v v ≤ P.inertial v v)
    (hlen : omega'.length ≤ omega.length) (t : ℝ) : upTo (κ * t) omega' ≤ upTo t omega := by
  obtain ⟨modes, rfl, rfl, h3, h4⟩ := report_core hdyn hR hP
  obtain ⟨-, k2⟩ := h4 hnear hmas hpos
  obtain ⟨modes', rfl, rfl, h3', h4'⟩ := report_core hdyn' hR' hP'
  obtain ⟨k1', -⟩ := h4' hnear' hmas' hpos'
  have hS := hP.sane env
  have hS' := hP'.sane env'
  by_contra hcon
  push Not at hcon
  have hcount : ∀ (t : ℝ) (l : List (ℝ × State)), upTo t (l.map fun p => p.1) = (l.filter fun p => decide (p.1 ≤ t)).length := by
    intro t l
    unfold upTo
    rw [List.filter_map, List.length_map]
    rfl
  rw [hcount, hcount] at hcon
  set L := modes.filter fun p => decide (p.1 ≤ t) with hL
  set L' := modes'.filter fun p => decide (p.1 ≤ κ * t) with hL'
  have hmem : ∀ p, p ∈ L ↔ p ∈ modes ∧ p.1 ≤ t := by intro p; simp [hL]
  have hmem' : ∀ p, p ∈ L' ↔ p ∈ modes' ∧ p.1 ≤ κ * t := by intro p; simp [hL']
  -- some value of the first system is above the level
  have hup : ∃ q ∈ modes, t < q.1 := by
    by_contra hno
    push Not at hno
    have e : L = modes := by
      rw [hL, List.filter_eq_self]
      intro p hp
      simpa using hno p hp
    have h1 : L'.length ≤ modes'.length := List.length_filter_le _ _
    simp only [List.length_map] at hlen
    rw [e] at hcon
    omega
  -- a combination of modes of the second system orthogonal to those of the first
  let u' : Fin L'.length → State := fun i => (L'.get i).2
  let f : (Fin L'.length → ℝ) →ₗ[ℝ] (Fin L.length → ℝ) :=
    { toFun := fun c j => ∑ i, c i * P.inertial (L.get j).2 (u' i)
      map_add' := fun a b => by funext j; simp [add_mul, Finset.sum_add_distrib]
      map_smul' := fun a b => by funext j; simp [Finset.mul_sum, mul_assoc] }
  have hker : LinearMap.ker f ≠ ⊥ := LinearMap.ker_ne_bot_of_finrank_lt (by simpa using hcon)
  obtain ⟨c, hc, hc0⟩ := Submodule.exists_mem_ne_zero_of_ne_bot hker
  set w : State := ∑ i, c i • u' i with hw
  have hmode' : ∀ i, P'.Mode (L'.get i).1 (u' i) ∧ (L'.get i).1 ≤ κ * t := fun i =>
    have h1 := (hmem' _).mp (List.get_mem L' i)
    ⟨h3' _ h1.1, h1.2⟩
  have horth' : ∀ i j, i ≠ j → P'.inertial (u' i) (u' j) = 0 := by
    have hpw : L'.Pairwise fun p q => P'.inertial p.2 q.2 = 0 := List.Pairwise.filter _ k1'
    rw [List.pairwise_iff_get] at hpw
    intro i j hij
    rcases lt_or_gt_of_ne hij with h | h
    · exact hpw i j h
    · rw [inertial_symm]; exact hpw j i h
  have hob' : Obeys P'.fix w := obeys_sum c fun i => (hmode' i).1.1
  have hin' : P'.inertial w w = ∑ i, c i ^ 2 * P'.inertial (u' i) (u' i) :=
    form_orth _ (inertial_symm P') (fun a b v u w => inertial_lin P' a b v u w) u' c horth'
  have hwk' : P'.frame.internal w w = ∑ i, c i ^ 2 * P'.frame.internal (u' i) (u' i) := by
    apply form_orth _ (internal_symm hS') (fun a b v u w => internal_lin hS' a b v u w)
    intro i j hij
    rw [(hmode' j).1.2.2 _ (hmode' i).1.1, horth' i j hij, mul_zero]
  have hposi : ∀ i, 0 < P'.inertial (u' i) (u' i) := fun i => hmas' _ (hmode' i).1.1 (hmode' i).1.2.1
  have hw0 : 0 < P'.inertial w w := by
    rw [hin']
    obtain ⟨i, hi⟩ := Function.ne_iff.mp hc0
    exact Finset.sum_pos' (fun j _ => mul_nonneg (sq_nonneg _) (hposi j).le) ⟨i, Finset.mem_univ _, mul_pos (pow_pos_of_ne hi) (hposi i)⟩
  have hle : P'.frame.internal w w ≤ κ * t * P'.inertial w w := by
    rw [hwk', hin', Finset.mul_sum]
    refine Finset.sum_le_sum fun i _ => ?_
    rw [mode_quotient (hmode' i).1]
    have := mul_le_mul_of_nonneg_right (hmode' i).2 (mul_nonneg (sq_nonneg (c i)) (hposi i).le)
    linarith
  have ht : 0 ≤ t := by
    obtain ⟨i, -⟩ := Function.ne_iff.mp hc0
    exact nonneg_of_mul_nonneg_right ((mode_nonneg hS' hpos' hmas' (hmode' i).1).trans (hmode' i).2) hκ
  have hwn : ∃ n ∈ P.nodes, w n ≠ 0 := by
    by_contra hno
    push Not at hno
    have h1 : 0 < P.inertial w w := lt_of_lt_of_le hw0 (hmass w)
    have h2 : ∀ n ∈ P.nodes, w n = (0 : State) n := hno
    rw [inertial_congr hS h2 h2] at h1
    have h5 := inertial_lin P 0 0 0 0 0
    simp only [zero_smul, add_zero, zero_mul] at h5
    rw [h5] at h1
    exact lt_irrefl _ h1
  have hperp : ∀ p ∈ modes, p.1 ≤ t → P.inertial w p.2 = 0 := by
    intro p hp hpt
    obtain ⟨j, hj⟩ := List.get_of_mem ((hmem p).mpr ⟨hp, hpt⟩)
    have h1 := congrFun (LinearMap.mem_ker.mp hc) j
    rw [inertial_symm, hw, form_sum _ (fun a b v u w => inertial_lin P a b v u w), ← hj]
    exact h1
  have h5 := k2 t hup w (hfix w hob') hwn hperp
  have h6 := hs w
  have h7 := mul_le_mul_of_nonneg_left (hmass w) ht
  have h8 := mul_lt_mul_of_pos_left h5 hκ
  have h9 := mul_le_mul_of_nonneg_left h7 hκ.le
  nlinarith

theorem massReg_stiff (k : ℝ) (cs : List Call) : (massReg.run (cs.map (stiffCall k))).cur = (massReg.run cs).cur := by
  symm
  apply stiff_sim massReg massReg (fun s s' => s = s') k rfl
  rintro s _ c rfl
  cases c <;> rfl

theorem dot_self_nonneg (a : V3) : 0 ≤ a.dot a := by
  unfold V3.dot
  nlinarith [mul_self_nonneg a.x, mul_self_nonneg a.y, mul_self_nonneg a.z]

theorem lighter_inertial {P P' : Vibration} (h : Lighter P P') (v : State) : P'.inertial v v ≤ P.inertial v v := by
  unfold Vibration.inertial
  rw [h.nodes, h.beams]
  apply add_le_add
  · apply List.sum_le_sum
    intro n hn
    cases hm' : P'.mass n with
    | none =>
      cases hm : P.mass n with
      | none => exact le_rfl
      | some w => exact absurd (h.attached n w hm) (by simp [hm'])
    | some w' =>
      cases hm : P.mass n with
      | none =>
        have := h.none n hm
        rw [hm'] at this
        cases this
      | some w =>
        obtain ⟨w'', e, hle⟩ := h.attached n w hm
        rw [hm'] at e
        cases e
        exact Finset.sum_le_sum fun r _ => mul_le_mul_of_nonneg_right (hle r) (mul_self_nonneg _)
  · apply List.sum_le_sum
    intro b hb
    cases hb : P.frame.beam b with
    | none => rw [h.no b hb]
    | some g =>
      obtain ⟨g', e, e1, e2, hm⟩ := h.beam b g hb
      rw [e]
      simp only [Option.elim_some, GivenBeam.inertial]
      rw [e1, e2]
      have h1 := mul_le_mul_of_nonneg_right (div_le_div_of_nonneg_right hm two_pos.le) (dot_self_nonneg (Spec.trans (v g.start)))
      have h2 := mul_le_mul_of_nonneg_right (div_le_div_of_nonneg_right hm two_pos.le) (dot_self_nonneg (Spec.trans (v g.stop)))
      linarith

/-! ### C140 Laws of the reported vibration modes -/

/-- Every reported value belongs to a mode of the described system whose free components are the saved shape; modes with different values
are orthogonal, both in inertial and in internal work; with positive stiffness and mass the values are not negative, and positive if the
structure is stable. -/
theorem C140_modes (env : Env) (dyn : DynEnv) (hdyn : dyn.EigSound) (pre : List Call) (lc : LoadCase) (k : ℕ) (omega : List ℝ)
    (shapes : List (List ℝ)) (hR : ModalReport env dyn pre lc k omega shapes) (P : Vibration) (hP : Shakes pre lc P) :
    ∃ us : List State, List.Forall₂ P.Mode omega us ∧ shapes = us.map P.free ∧
      (∀ (i j : ℕ) a b u w, omega[i]? = some a → us[i]? = some u → omega[j]? = some b → us[j]? = some w → a ≠ b →
        P.inertial u w = 0 ∧ P.frame.internal u w = 0) ∧
      (P.frame.Positive → P.Massive → (∀ a ∈ omega, 0 ≤ a) ∧ (P.frame.Stable P.nodes P.fix → ∀ a ∈ omega, 0 < a)) := by
  obtain ⟨modes, rfl, rfl, h3, -⟩ := report_core hdyn hR hP
  have hS := hP.sane env
  refine ⟨modes.map fun p => p.2, ?_, by rw [List.map_map]; rfl, ?_, ?_⟩
  · rw [List.forall₂_map_left_iff, List.forall₂_map_right_iff, List.forall₂_same]
    exact h3
  · intro i j a b u w ha hu hb hw hab
    rw [List.getElem?_map, Option.map_eq_some_iff] at ha hu hb hw
    obtain ⟨p, hp, rfl⟩ := ha
    obtain ⟨p', hp', rfl⟩ := hu
    obtain ⟨q, hq, rfl⟩ := hb
    obtain ⟨q', hq', rfl⟩ := hw
    rw [hp] at hp'
    rw [hq] at hq'
    cases hp'
    cases hq'
    exact mode_orth hS (h3 p (List.mem_of_getElem? hp)) (h3 q (List.mem_of_getElem? hq)) hab
  · intro hpos hmas
    refine ⟨fun a ha => ?_, fun hst a ha => ?_⟩
    · obtain ⟨p, hp, rfl⟩ := List.mem_map.mp ha
      exact mode_nonneg hS hpos hmas (h3 p hp)
    · obtain ⟨p, hp, rfl⟩ := List.mem_map.mp ha
      exact mode_pos hS hpos hmas hst (h3 p hp)

/-- Rayleigh's principle: for an eigenvalue routine that returns the values nearest to 0, the smallest reported value is the minimum of
the quotient of internal and inertial work over all displacements that obey the restraints. -/
theorem C140_rayleigh (env : Env) (dyn : DynEnv) (hdyn : dyn.EigSound) (hnear : EigNearest dyn) (pre : List Call) (lc : LoadCase) (k : ℕ)
    (omega : List ℝ) (shapes : List (List ℝ)) (hR : ModalReport env dyn pre lc k omega shapes) (P : Vibration) (hP : Shakes pre lc P)
    (hpos : P.frame.Positive) (hmas : P.Massive) (lam : ℝ) (hlam : lam ∈ omega) (hmin : ∀ a ∈ omega, lam ≤ a) :
    (∀ v, Obeys P.fix v → lam * P.inertial v v ≤ P.frame.internal v v) ∧
    ∃ u, Obeys P.fix u ∧ 0 < P.inertial u u ∧ P.frame.internal u u = lam * P.inertial u u := by
  obtain ⟨modes, rfl, rfl, h3, h4⟩ := report_core hdyn hR hP
  obtain ⟨-, k2⟩ := h4 hnear hmas hpos
  obtain ⟨p, hp, rfl⟩ := List.mem_map.mp hlam
  have hm := h3 p hp
  refine ⟨fun v hv => ?_, p.2, hm.1, hmas _ hm.1 hm.2.1, mode_quotient hm⟩
  by_cases h0 : ∃ n ∈ P.nodes, v n ≠ 0
  · have hv0 := hmas v hv h0
    apply le_of_forall_lt_imp_le_of_dense
    intro s hs
    have hts : s / P.inertial v v < p.1 := (div_lt_iff₀ hv0).mpr hs
    have := k2 _ ⟨p, hp, hts⟩ v hv h0 (fun q hq hqt => absurd (hmin q.1 (List.mem_map.mpr ⟨q, hq, rfl⟩)) (not_le.mpr (lt_of_le_of_lt hqt hts)))
    rw [div_mul_cancel₀ _ hv0.ne'] at this
    exact this.le
  · push Not at h0
    have h5 := inertial_lin P 0 0 0 0 0
    simp only [zero_smul, add_zero, zero_mul] at h5
    have hz' : P.inertial v v = 0 := (inertial_congr (u' := 0) (v' := 0) (hP.sane env) h0 h0).trans h5
    rw [hz', mul_zero]
    exact internal_nonneg (hP.sane env) hpos v

/-- Two systems.  The second has stiffer beams, the same or additional restraints and no more mass, and no more values are reported for
it.  Then up to every level it has no more reported values than the first: the i-th smallest value is not smaller. -/
theorem C140_stiffening (env env' : Env) (dyn dyn' : DynEnv) (hdyn : dyn.EigSound) (hnear : EigNearest dyn) (hdyn' : dyn'.EigSound)
    (hnear' : EigNearest dyn') (pre pre' : List Call) (lc lc' : LoadCase) (k k' : ℕ) (omega omega' : List ℝ) (shapes shapes' : List (List ℝ))
    (hR : ModalReport env dyn pre lc k omega shapes) (hR' : ModalReport env' dyn' pre' lc' k' omega' shapes')
    (P P' : Vibration) (hP : Shakes pre lc P) (hP' : Shakes pre' lc' P')
    (hpos : P.frame.Positive) (hpos' : P'.frame.Positive) (hmas : P.Massive) (hmas' : P'.Massive)
    (hfix : ∀ v, Obeys P'.fix v → Obeys P.fix v) (hs : Stiffer P.frame P'.frame) (hmass : Lighter P P')
    (hlen : omega'.length ≤ omega.length) (t : ℝ) : upTo t omega' ≤ upTo t omega := by
  have := compare_counts hdyn hnear hdyn' hnear' hR hR' hP hP' hpos hpos' hmas hmas' hfix one_pos
    (fun v => by rw [one_mul]; exact stiffer_internal (hP.sane env) (hP'.sane env') hs hpos' v) (lighter_inertial hmass) hlen t
  rwa [one_mul] at this

/-- The same calls with every Young's modulus multiplied by `κ > 0`: the values are multiplied by `κ`. -/
theorem C140_modulus (env env' : Env) (dyn dyn' : DynEnv) (hdyn : dyn.EigSound) (hnear : EigNearest dyn) (hdyn' : dyn'.EigSound)
    (hnear' : EigNearest dyn') (pre : List Call) (κ : ℝ) (hκ : 0 < κ) (lc : LoadCase) (k k' : ℕ) (omega omega' : List ℝ)
    (shapes shapes' : List (List ℝ)) (hR : ModalReport env dyn pre lc k omega shapes)
    (hR' : ModalReport env' dyn' (pre.map (stiffCall κ)) lc k' omega' shapes') (P : Vibration) (hP : Shakes pre lc P)
    (hpos : P.frame.Positive) (hmas : P.Massive) (hlen : omega'.length = omega.length) (t : ℝ) : upTo (κ * t) omega' = upTo t omega := by
  have hS := hP.sane env
  have hrel := blueprint_stiff κ pre
  rw [← hP.frame] at hrel
  let P' : Vibration := { P with frame := (blueprint.run (pre.map (stiffCall κ))).cur }
  have hP' : Shakes (pre.map (stiffCall κ)) lc P' := by
    refine ⟨rfl, by rw [nodeReg_stiff]; exact hP.nodes, ?_, ?_⟩
    · rw [restReg_stiff]; exact hP.fix
    · rw [massReg_stiff]; exact hP.mass
  have hint : ∀ v, P'.frame.internal v v = κ * P.frame.internal v v := fun v => internal_stiff κ hS hrel v v
  have hine : ∀ v, P'.inertial v v = P.inertial v v := by
    intro v
    unfold Vibration.inertial
    congr 1
    show (P'.frame.beams.map _).sum = _
    rw [hrel.beams]
    congr 1
    apply List.map_congr_left
    intro b _
    rw [hrel.beam]
    cases P.frame.beam b <;> rfl
  have hpos' : P'.frame.Positive := by
    intro b g hb
    have hb : (blueprint.run (pre.map (stiffCall κ))).cur.beam b = some g := hb
    rw [hrel.beam, Option.map_eq_some_iff] at hb
    obtain ⟨g', hg', rfl⟩ := hb
    obtain ⟨h1, h2⟩ := hpos b g' hg'
    exact ⟨mul_pos hκ h1, h2⟩
  have hmas' : P'.Massive := fun u hu h0 => by rw [hine]; exact hmas u hu h0
  apply le_antisymm
  · exact compare_counts hdyn hnear hdyn' hnear' hR hR' hP hP' hpos hpos' hmas hmas' (fun v hv => hv) hκ (fun v => (hint v).ge)
      (fun v => (hine v).le) hlen.le t
  · have := compare_counts hdyn' hnear' hdyn hnear hR' hR hP' hP hpos' hpos hmas' hmas (fun v hv => hv) (inv_pos.mpr hκ)
      (fun v => by rw [hint, inv_mul_cancel_left₀ hκ.ne']) (fun v => (hine v).ge) hlen.ge (κ * t)
    rwa [inv_mul_cancel_left₀ hκ.ne'] at this

end Hyperstatic
