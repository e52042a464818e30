import Verif.Lemmas.Nearby

namespace Hyperstatic
open Matrix Spec Filter Topology

/-- split a limit of sums, products and quotients into limits of its parts -/
macro "lims" : tactic => `(tactic| repeat' first
  | assumption
  | exact tendsto_const_nhds
  | apply Filter.Tendsto.add
  | apply Filter.Tendsto.sub
  | apply Filter.Tendsto.neg
  | apply Filter.Tendsto.div
  | apply Filter.Tendsto.mul
  | apply Filter.Tendsto.pow)

theorem near_tends {δ : ℕ → ℝ} (hδ : Tendsto δ atTop (𝓝 0)) {x : ℝ} {xk : ℕ → ℝ} (h : ∀ k, |xk k - x| ≤ δ k) : Tendsto xk atTop (𝓝 x) := by
  rw [tendsto_iff_dist_tendsto_zero]
  exact squeeze_zero (fun k => dist_nonneg) (fun k => by rw [Real.dist_eq]; exact h k) hδ

/-! ### points, materials, sections, beams -/

/-- points that tend to a point -/
structure PtTends (p : V3) (pk : ℕ → V3) : Prop where
  x : Tendsto (fun k => (pk k).x) atTop (𝓝 p.x)
  y : Tendsto (fun k => (pk k).y) atTop (𝓝 p.y)
  z : Tendsto (fun k => (pk k).z) atTop (𝓝 p.z)

structure MatTends (m : GivenMat) (mk : ℕ → GivenMat) : Prop where
  E : Tendsto (fun k => (mk k).E) atTop (𝓝 m.E)
  mu : Tendsto (fun k => (mk k).mu) atTop (𝓝 m.mu)

structure SecTends (g : GivenSec) (gk : ℕ → GivenSec) : Prop where
  mat : MatTends g.mat fun k => (gk k).mat
  A : Tendsto (fun k => (gk k).A) atTop (𝓝 g.A)
  I2 : Tendsto (fun k => (gk k).I2) atTop (𝓝 g.I2)
  I3 : Tendsto (fun k => (gk k).I3) atTop (𝓝 g.I3)
  J : Tendsto (fun k => (gk k).J) atTop (𝓝 g.J)

structure BeamTends (g : GivenBeam) (gk : ℕ → GivenBeam) : Prop where
  start : ∀ k, (gk k).start = g.start
  stop : ∀ k, (gk k).stop = g.stop
  p : PtTends g.p fun k => (gk k).p
  q : PtTends g.q fun k => (gk k).q
  sec : SecTends g.sec fun k => (gk k).sec
  acc : Acceptable g.p g.q

/-- present together or absent together, and converging when present -/
def OptTends {α : Type} (R : α → (ℕ → α) → Prop) (o : Option α) (ok : ℕ → Option α) : Prop :=
  (o = none ∧ ∀ k, ok k = none) ∨ ∃ a ak, o = some a ∧ (∀ k, ok k = some (ak k)) ∧ R a ak

theorem OptTends.absent {α : Type} {R : α → (ℕ → α) → Prop} : OptTends R none fun _ => none := Or.inl ⟨rfl, fun _ => rfl⟩

theorem OptTends.present {α : Type} {R : α → (ℕ → α) → Prop} {a : α} {ak : ℕ → α} (h : R a ak) : OptTends R (some a) fun k => some (ak k) :=
  Or.inr ⟨a, ak, rfl, fun _ => rfl, h⟩

theorem OptTends.of {α : Type} {R : α → (ℕ → α) → Prop} {a : α} {ok : ℕ → Option α} (h : OptTends R (some a) ok) :
    ∃ ak, (∀ k, ok k = .some (ak k)) ∧ R a ak := by
  rcases h with ⟨h, _⟩ | ⟨b, bk, h, hk, hr⟩
  · cases h
  · cases h; exact ⟨bk, hk, hr⟩

theorem tanh_continuous : Continuous Real.tanh := by
  have : Real.tanh = fun x => Real.sinh x / Real.cosh x := funext Real.tanh_eq_sinh_div_cosh
  rw [this]
  exact Real.continuous_sinh.div Real.continuous_cosh fun x => (Real.cosh_pos x).ne'

theorem rectTorsion_tends (n : ℕ) {h b : ℝ} {hk bk : ℕ → ℝ} (th : Tendsto hk atTop (𝓝 h)) (tb : Tendsto bk atTop (𝓝 b)) (h0 : h ≠ 0)
    (b0 : b ≠ 0) : Tendsto (fun k => rectTorsion n (hk k) (bk k)) atTop (𝓝 (rectTorsion n h b)) := by
  unfold rectTorsion
  have hs : Tendsto (fun k => ∑ i ∈ Finset.range n, Real.tanh ((2 * i + 1) * 3.141592 * hk k / 2 / bk k) / (2 * i + 1) ^ 5) atTop
      (𝓝 (∑ i ∈ Finset.range n, Real.tanh ((2 * i + 1) * 3.141592 * h / 2 / b) / (2 * i + 1) ^ 5)) := by
    refine tendsto_finsetSum _ fun i _ => ?_
    refine Filter.Tendsto.div_const ((tanh_continuous.tendsto _).comp ?_) _
    lims
    norm_num
  lims
  positivity

theorem shape_tends {δ : ℕ → ℝ} (hδ : Tendsto δ atTop (𝓝 0)) {mat : GivenMat} {matk : ℕ → GivenMat} (hm : MatTends mat matk) {c : Call}
    {ck : ℕ → Call} (hc : ∀ k, Nearby (δ k) c (ck k)) {g : GivenSec} {gk : ℕ → GivenSec} (hg : shapeConsts mat c = some g)
    (hgk : ∀ k, shapeConsts (matk k) (ck k) = some (gk k)) : SecTends g gk := by
  have rect : ∀ {h b : ℝ} {hk bk : ℕ → ℝ}, (∀ k, |hk k - h| ≤ δ k) → (∀ k, |bk k - b| ≤ δ k) → shapeConsts.rect mat h b = some g →
      (∀ k, shapeConsts.rect (matk k) (hk k) (bk k) = some (gk k)) → SecTends g gk := by
    intro h b hk bk ih ib e ek
    have th := near_tends hδ ih
    have tb := near_tends hδ ib
    simp only [shapeConsts.rect] at e ek
    split at e
    · cases e
    next hne =>
    push Not at hne
    cases e
    have : gk = fun k => ⟨matk k, bk k * hk k, hk k * bk k ^ 3 / 12, bk k * hk k ^ 3 / 12, rectTorsion 30 (hk k) (bk k)⟩ := by
      funext k
      have := ek k
      split at this
      · cases this
      · exact (Option.some.inj this).symm
    subst this
    refine ⟨hm, ?_, ?_, ?_, rectTorsion_tends 30 th tb hne.1 hne.2⟩
    all_goals lims
    all_goals norm_num
  cases c
  case addBeamSectionGeneral n m A As2 As3 I22 I33 J W22 W33 =>
    simp only [Nearby] at hc
    choose A' a2 a3 I22' I33' J' w2 w3 e h1 _ _ h4 h5 h6 _ _ using hc
    obtain rfl : ck = _ := funext e
    simp only [shapeConsts, Option.some.injEq] at hg hgk
    obtain rfl : (fun k => _) = gk := funext hgk
    subst hg
    exact ⟨hm, near_tends hδ h1, near_tends hδ h4, near_tends hδ h5, near_tends hδ h6⟩
  case addBeamSectionRectangle n m h b =>
    simp only [Nearby] at hc
    choose h' b' e h1 h2 using hc
    obtain rfl : ck = _ := funext e
    exact rect h1 h2 hg hgk
  case addBeamSectionPipe n m h b =>
    simp only [Nearby] at hc
    choose h' b' e h1 h2 using hc
    obtain rfl : ck = _ := funext e
    exact rect h1 h2 hg hgk
  case addBeamSectionCircle n m d =>
    simp only [Nearby] at hc
    choose d' e h1 using hc
    obtain rfl : ck = _ := funext e
    have t1 := near_tends hδ h1
    simp only [shapeConsts] at hg hgk
    split at hg
    · cases hg
    cases hg
    have : gk = fun k => ⟨matk k, 3.14159 / 4 * d' k ^ 2, 3.14159 / 64 * d' k ^ 4, 3.14159 / 64 * d' k ^ 4, 3.14159 / 32 * d' k ^ 4⟩ := by
      funext k
      have := hgk k
      split at this
      · cases this
      · exact (Option.some.inj this).symm
    subst this
    refine ⟨hm, ?_, ?_, ?_, ?_⟩
    all_goals exact tendsto_const_nhds.mul (t1.pow _)
  case addBeamSectionI n m h b tw tf =>
    simp only [Nearby] at hc
    choose h' b' tw' tf' e h1 h2 h3 h4 using hc
    obtain rfl : ck = _ := funext e
    have t1 := near_tends hδ h1
    have t2 := near_tends hδ h2
    have t3 := near_tends hδ h3
    have t4 := near_tends hδ h4
    simp only [shapeConsts] at hg hgk
    split at hg
    · cases hg
    next hne =>
    push Not at hne
    cases hg
    have : gk = fun k => ⟨matk k, b' k * h' k - (b' k - tw' k) * (h' k - 2 * tf' k), tf' k * b' k ^ 3 / 6 + h' k * tw' k ^ 3 / 12,
        (b' k * h' k ^ 3 - (b' k - tw' k) * (h' k - 2 * tf' k) ^ 3) / 12,
        2 * rectTorsion 15 (tf' k) (b' k) + rectTorsion 15 (tw' k) (h' k - 2 * tf' k)⟩ := by
      funext k
      have := hgk k
      split at this
      · cases this
      · exact (Option.some.inj this).symm
    subst this
    refine ⟨hm, ?_, ?_, ?_, ?_⟩
    · lims
    · lims <;> norm_num
    · lims
      norm_num
    · refine (tendsto_const_nhds.mul (rectTorsion_tends 15 t4 t2 hne.2.1 hne.1)).add
        (rectTorsion_tends 15 t3 (t1.sub (tendsto_const_nhds.mul t4)) hne.2.2.2.1 (sub_ne_zero.mpr hne.2.2.1))
  case addBeamSectionBox n m h b tw tf =>
    simp only [Nearby] at hc
    choose h' b' tw' tf' e h1 h2 h3 h4 using hc
    obtain rfl : ck = _ := funext e
    have t1 := near_tends hδ h1
    have t2 := near_tends hδ h2
    have t3 := near_tends hδ h3
    have t4 := near_tends hδ h4
    simp only [shapeConsts] at hg hgk
    split at hg
    · cases hg
    next hne =>
    push Not at hne
    obtain ⟨n1, n2, n3, -, -⟩ := hne
    cases hg
    have : gk = fun k => ⟨matk k, h' k * b' k - (h' k - 2 * tf' k) * (b' k - 2 * tw' k),
        (h' k * b' k ^ 3 - (h' k - 2 * tf' k) * (b' k - 2 * tw' k) ^ 3) / 12,
        (b' k * h' k ^ 3 - (b' k - 2 * tw' k) * (h' k - 2 * tf' k) ^ 3) / 12,
        (2 * (h' k - tf' k) * (b' k - tw' k)) ^ 2 / (2 * ((b' k - tw' k) / tf' k + (h' k - tf' k) / tw' k))⟩ := by
      funext k
      have := hgk k
      split at this
      · cases this
      · exact (Option.some.inj this).symm
    subst this
    refine ⟨hm, ?_, ?_, ?_, ?_⟩
    · lims
    · lims
      norm_num
    · lims
      norm_num
    · lims
      exact mul_ne_zero two_ne_zero n3
  all_goals cases hg

/-! ### local axes -/

theorem PtTends.sub {a b : V3} {ak bk : ℕ → V3} (ha : PtTends a ak) (hb : PtTends b bk) : PtTends (a - b) fun k => ak k - bk k :=
  ⟨ha.x.sub hb.x, ha.y.sub hb.y, ha.z.sub hb.z⟩

theorem PtTends.cross {a b : V3} {ak bk : ℕ → V3} (ha : PtTends a ak) (hb : PtTends b bk) : PtTends (a.cross b) fun k => (ak k).cross (bk k) :=
  ⟨(ha.y.mul hb.z).sub (ha.z.mul hb.y), (ha.z.mul hb.x).sub (ha.x.mul hb.z), (ha.x.mul hb.y).sub (ha.y.mul hb.x)⟩

theorem PtTends.dot {a : V3} {ak : ℕ → V3} (ha : PtTends a ak) (b : V3) : Tendsto (fun k => (ak k).dot b) atTop (𝓝 (a.dot b)) := by
  unfold V3.dot
  exact ((ha.x.mul_const _).add (ha.y.mul_const _)).add (ha.z.mul_const _)

theorem PtTends.norm {a : V3} {ak : ℕ → V3} (ha : PtTends a ak) : Tendsto (fun k => (ak k).norm) atTop (𝓝 a.norm) := by
  unfold V3.norm
  exact (((ha.x.mul ha.x).add (ha.y.mul ha.y)).add (ha.z.mul ha.z)).sqrt

theorem PtTends.unit {a : V3} {ak : ℕ → V3} (ha : PtTends a ak) (h0 : a.norm ≠ 0) : PtTends a.unit fun k => (ak k).unit :=
  ⟨ha.x.div ha.norm h0, ha.y.div ha.norm h0, ha.z.div ha.norm h0⟩

theorem PtTends.const (a : V3) : PtTends a fun _ => a := ⟨tendsto_const_nhds, tendsto_const_nhds, tendsto_const_nhds⟩

theorem PtTends.congr {a : V3} {ak bk : ℕ → V3} (ha : PtTends a ak) (h : ∀ᶠ k in atTop, ak k = bk k) : PtTends a bk :=
  ⟨ha.x.congr' (h.mono fun k e => by rw [e]), ha.y.congr' (h.mono fun k e => by rw [e]), ha.z.congr' (h.mono fun k e => by rw [e])⟩

theorem norm_ne {a : V3} (h : a.x ≠ 0 ∨ a.y ≠ 0 ∨ a.z ≠ 0) : a.norm ≠ 0 := by
  unfold V3.norm
  refine (Real.sqrt_pos.mpr ?_).ne'
  have hx := mul_self_nonneg a.x
  have hy := mul_self_nonneg a.y
  have hz := mul_self_nonneg a.z
  rcases h with h | h | h <;> linarith [mul_self_pos.mpr h]

/-- Acceptable ends are well inside one of the two kinds of beams. -/
theorem frame_tends {p q : V3} {pk qk : ℕ → V3} (hp : PtTends p pk) (hq : PtTends q qk) (ha : Acceptable p q) :
     V3.norm (q - p) ≠ 0 ∧ PtTends (beamFrame p q).x (fun k => (beamFrame (pk k) (qk k)).x) ∧
      PtTends (beamFrame p q).y (fun k => (beamFrame (pk k) (qk k)).y) ∧ PtTends (beamFrame p q).z (fun k => (beamFrame (pk k) (qk k)).z) := by
  have ht := absTol_pos
  have hd := hq.sub hp
  have hmax : Tendsto (fun k => max |(qk k).x - (pk k).x| |(qk k).y - (pk k).y|) atTop (𝓝 (max |q.x - p.x| |q.y - p.y|)) :=
    (hq.x.sub hp.x).abs.max (hq.y.sub hp.y).abs
  have hdx : (q - p).x = q.x - p.x := rfl
  have hdy : (q - p).y = q.y - p.y := rfl
  have hdz : (q - p).z = q.z - p.z := rfl
  have h0 : V3.norm (q - p) ≠ 0 := by
    apply norm_ne
    rw [hdx, hdy, hdz]
    rcases ha with ⟨_, h⟩ | h
    · right; right
      exact abs_pos.mp (by linarith)
    · rcases le_max_iff.mp h with h | h
      · left; exact abs_pos.mp (by linarith)
      · right; left; exact abs_pos.mp (by linarith)
  have h1 := hd.unit h0
  suffices key : ∃ up : V3, (if max |q.x - p.x| |q.y - p.y| < absTol then (⟨1, 0, 0⟩ : V3) else ⟨0, 0, 1⟩) = up ∧
      (∀ᶠ k in atTop, (if max |(qk k).x - (pk k).x| |(qk k).y - (pk k).y| < absTol then (⟨1, 0, 0⟩ : V3) else ⟨0, 0, 1⟩) = up) ∧
      (((q - p).unit).cross up).norm ≠ 0 by
    obtain ⟨up, e, ek, hn⟩ := key
    have h3 : PtTends ((q - p).unit.cross up).unit fun k => (((qk k - pk k).unit).cross up).unit := (h1.cross (PtTends.const up)).unit hn
    have h3' : PtTends (beamFrame p q).z (fun k => (beamFrame (pk k) (qk k)).z) := by
      simp only [beamFrame]
      rw [e]
      exact h3.congr (ek.mono fun k hk => by rw [hk])
    have h2' : PtTends (beamFrame p q).y (fun k => (beamFrame (pk k) (qk k)).y) := h3'.cross h1
    exact ⟨h0, h1, h2', h3'⟩
  rcases ha with ⟨hu, hz⟩ | hu
  · refine ⟨⟨1, 0, 0⟩, if_pos hu, (hmax.eventually_lt_const hu).mono fun k hk => if_pos hk, norm_ne ?_⟩
    right; left
    have : (q - p).z ≠ 0 := abs_pos.mp (by rw [hdz]; linarith)
    simp only [V3.cross, V3.unit, mul_one, mul_zero, sub_zero]
    exact div_ne_zero this h0
  · refine ⟨⟨0, 0, 1⟩, if_neg (by linarith), ?_, norm_ne ?_⟩
    · have : absTol < max |q.x - p.x| |q.y - p.y| := by linarith
      exact (hmax.eventually_const_lt this).mono fun k hk => if_neg (not_lt.mpr hk.le)
    · simp only [V3.cross, V3.unit, mul_one, mul_zero, sub_zero, zero_sub, neg_ne_zero]
      rcases le_max_iff.mp hu with h | h
      · right; left
        have : (q - p).x ≠ 0 := abs_pos.mp (by rw [hdx]; linarith)
        exact div_ne_zero this h0
      · left
        have : (q - p).y ≠ 0 := abs_pos.mp (by rw [hdy]; linarith)
        exact div_ne_zero this h0

theorem BeamTends.frame {g : GivenBeam} {gk : ℕ → GivenBeam} (h : BeamTends g gk) :
    Tendsto (fun k => (gk k).len) atTop (𝓝 g.len) ∧ g.len ≠ 0 ∧ ∀ v i, Tendsto (fun k => (gk k).ends v i) atTop (𝓝 (g.ends v i)) := by
  obtain ⟨h0, hx, hy, hz⟩ := frame_tends h.p h.q h.acc
  refine ⟨(h.q.sub h.p).norm, h0, fun v i => ?_⟩
  simp only [GivenBeam.ends, h.start, h.stop]
  unfold localEnds
  fin_cases i
  · exact hx.dot _
  · exact hy.dot _
  · exact hz.dot _
  · exact hx.dot _
  · exact hy.dot _
  · exact hz.dot _
  · exact hx.dot _
  · exact hy.dot _
  · exact hz.dot _
  · exact hx.dot _
  · exact hy.dot _
  · exact hz.dot _

end Hyperstatic
