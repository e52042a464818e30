import Verif.Spec.Exact
import Verif.Lemmas.FrameMap
import Mathlib.MeasureTheory.Integral.IntervalIntegral.AbsolutelyContinuousFun
import Mathlib.Analysis.SpecialFunctions.Integrals.Basic

namespace Hyperstatic
open Matrix Spec MeasureTheory intervalIntegral Set

/-! ### tame functions -/

theorem Spec.Tame.of_continuous {l : ℝ} {f : ℝ → ℝ} (hf : Continuous f) : Tame l f := by
  refine ⟨hf.intervalIntegrable _ _, ?_⟩
  obtain ⟨C, hC⟩ := isCompact_Icc.exists_bound_of_continuousOn (s := Icc 0 l) hf.continuousOn
  exact ⟨C, fun x h0 h1 => by simpa [Real.norm_eq_abs] using hC x ⟨h0, h1⟩⟩

theorem Spec.Tame.add {l : ℝ} {f g : ℝ → ℝ} (hf : Tame l f) (hg : Tame l g) : Tame l fun x => f x + g x := by
  obtain ⟨h1, C, hC⟩ := hf
  obtain ⟨h2, D, hD⟩ := hg
  exact ⟨h1.add h2, C + D, fun x a b => (abs_add_le _ _).trans (add_le_add (hC x a b) (hD x a b))⟩

theorem Spec.Tame.mul {l : ℝ} (hl : 0 ≤ l) {f g : ℝ → ℝ} (hf : Tame l f) (hg : Tame l g) : Tame l fun x => f x * g x := by
  obtain ⟨h1, C, hC⟩ := hf
  obtain ⟨h2, D, hD⟩ := hg
  refine ⟨?_, C * D, fun x a b => ?_⟩
  · rw [intervalIntegrable_iff_integrableOn_Ioc_of_le hl] at h1 h2 ⊢
    refine Integrable.bdd_mul (c := C) h2 h1.aestronglyMeasurable ?_
    refine (ae_restrict_iff' measurableSet_Ioc).mpr (Filter.Eventually.of_forall fun x hx => ?_)
    simpa [Real.norm_eq_abs] using hC x hx.1.le hx.2
  · rw [abs_mul]
    have c0 := (abs_nonneg _).trans (hC x a b)
    exact mul_le_mul (hC x a b) (hD x a b) (abs_nonneg _) c0

theorem Spec.Tame.const_mul {l : ℝ} (c : ℝ) {f : ℝ → ℝ} (hf : Tame l f) : Tame l fun x => c * f x := by
  obtain ⟨h1, C, hC⟩ := hf
  refine ⟨h1.const_mul c, |c| * C, fun x a b => ?_⟩
  rw [abs_mul]
  exact mul_le_mul_of_nonneg_left (hC x a b) (abs_nonneg _)

theorem Spec.Tame.congr {l : ℝ} {f g : ℝ → ℝ} (hf : Tame l f) (hl : 0 ≤ l) (h : ∀ x, 0 ≤ x → x ≤ l → f x = g x) : Tame l g := by
  obtain ⟨h1, C, hC⟩ := hf
  refine ⟨?_, C, fun x a b => by rw [← h x a b]; exact hC x a b⟩
  refine h1.congr ?_
  intro x hx
  rw [uIoc_of_le hl] at hx
  exact h x hx.1.le hx.2

/-! ### derivatives -/

theorem Spec.Slope.of_deriv {l : ℝ} {f : ℝ → ℝ} (hf : Differentiable ℝ f) (hc : Continuous (deriv f)) : Slope l f (deriv f) where
  tame := .of_continuous hc
  eq x _ _ := by
    rw [integral_deriv_eq_sub (fun y _ => hf y) (hc.intervalIntegrable _ _)]
    ring

theorem Spec.Slope.add {l : ℝ} {f f' g g' : ℝ → ℝ} (hf : Slope l f f') (hg : Slope l g g') :
    Slope l (fun x => f x + g x) (fun x => f' x + g' x) where
  tame := hf.tame.add hg.tame
  eq x h0 h1 := by
    have i1 : IntervalIntegrable f' volume 0 x := hf.tame.1.mono_set (by rw [uIcc_of_le h0, uIcc_of_le (h0.trans h1)]; exact Icc_subset_Icc le_rfl h1)
    have i2 : IntervalIntegrable g' volume 0 x := hg.tame.1.mono_set (by rw [uIcc_of_le h0, uIcc_of_le (h0.trans h1)]; exact Icc_subset_Icc le_rfl h1)
    rw [integral_add i1 i2, hf.eq x h0 h1, hg.eq x h0 h1]
    ring

/-- the integral from the start -/
theorem Spec.Slope.of_tame {l : ℝ} {f : ℝ → ℝ} (hf : Tame l f) : Slope l (fun x => ∫ t in (0:ℝ)..x, f t) f where
  tame := hf
  eq x _ _ := by simp

theorem Spec.Slope.contOn {l : ℝ} (hl : 0 ≤ l) {f f' : ℝ → ℝ} (hf : Slope l f f') : ContinuousOn f (Icc 0 l) := by
  have h := continuousOn_primitive_interval' (a := 0) hf.tame.1 (by simp)
  rw [uIcc_of_le hl] at h
  exact (continuousOn_const.add h).congr fun x hx => hf.eq x hx.1 hx.2

theorem Spec.Slope.left {l : ℝ} (hl : 0 ≤ l) {f f' : ℝ → ℝ} (hf : Slope l f f') : Tame l f := by
  have hc := hf.contOn hl
  refine ⟨ContinuousOn.intervalIntegrable (by rw [uIcc_of_le hl]; exact hc), ?_⟩
  obtain ⟨C, hC⟩ := isCompact_Icc.exists_bound_of_continuousOn hc
  exact ⟨C, fun x h0 h1 => by simpa [Real.norm_eq_abs] using hC x ⟨h0, h1⟩⟩

/-- integration by parts -/
theorem parts {l : ℝ} (hl : 0 ≤ l) {f f' g g' : ℝ → ℝ} (hf : Slope l f f') (hg : Slope l g g') :
    ∫ x in (0:ℝ)..l, f' x * g x = f l * g l - f 0 * g 0 - ∫ x in (0:ℝ)..l, f x * g' x := by
  let F : ℝ → ℝ := fun x => f 0 + ∫ t in (0:ℝ)..x, f' t
  let G : ℝ → ℝ := fun x => g 0 + ∫ t in (0:ℝ)..x, g' t
  have eF : ∀ x ∈ Icc 0 l, f x = F x := fun x hx => hf.eq x hx.1 hx.2
  have eG : ∀ x ∈ Icc 0 l, g x = G x := fun x hx => hg.eq x hx.1 hx.2
  have aF : AbsolutelyContinuousOnInterval F 0 l :=
    (contDiff_const.contDiffOn.absolutelyContinuousOnInterval).add
      (hf.tame.1.absolutelyContinuousOnInterval_intervalIntegral (c := 0) (by simp))
  have aG : AbsolutelyContinuousOnInterval G 0 l :=
    (contDiff_const.contDiffOn.absolutelyContinuousOnInterval).add
      (hg.tame.1.absolutelyContinuousOnInterval_intervalIntegral (c := 0) (by simp))
  have h := aG.integral_mul_deriv_eq_deriv_mul aF
  have d1 : ∫ x in (0:ℝ)..l, G x * deriv F x = ∫ x in (0:ℝ)..l, f' x * g x := by
    apply intervalIntegral.integral_congr_ae
    filter_upwards [hf.tame.1.ae_hasDerivAt_integral] with x hx hm
    have hm' : x ∈ uIcc 0 l := uIoc_subset_uIcc hm
    have hd := (hx hm' 0 (by simp)).const_add (f 0)
    rw [uIcc_of_le hl] at hm'
    rw [eG x hm', show deriv F x = f' x from hd.deriv, mul_comm]
  have d2 : ∫ x in (0:ℝ)..l, deriv G x * F x = ∫ x in (0:ℝ)..l, f x * g' x := by
    apply intervalIntegral.integral_congr_ae
    filter_upwards [hg.tame.1.ae_hasDerivAt_integral] with x hx hm
    have hm' : x ∈ uIcc 0 l := uIoc_subset_uIcc hm
    have hd := (hx hm' 0 (by simp)).const_add (g 0)
    rw [uIcc_of_le hl] at hm'
    rw [eF x hm', show deriv G x = g' x from hd.deriv, mul_comm]
  rw [d1, d2] at h
  rw [h, ← eF l ⟨hl, le_rfl⟩, ← eG l ⟨hl, le_rfl⟩, ← eF 0 ⟨le_rfl, hl⟩, ← eG 0 ⟨le_rfl, hl⟩]
  ring

/-- a constant against a derivative -/
theorem integral_const_slope {l : ℝ} (hl : 0 ≤ l) {f f' : ℝ → ℝ} (hf : Slope l f f') (c : ℝ) :
    ∫ x in (0:ℝ)..l, c * f' x = c * (f l - f 0) := by
  rw [intervalIntegral.integral_const_mul, hf.eq l hl le_rfl]; ring

/-- a linear function against a second derivative -/
theorem integral_lin_curv {l : ℝ} (hl : 0 ≤ l) {w s k : ℝ → ℝ} (hw : Slope l w s) (hs : Slope l s k) (α β : ℝ) :
    ∫ x in (0:ℝ)..l, (α + β * x) * k x = α * (s l - s 0) + β * (l * s l - (w l - w 0)) := by
  have hid : Slope l (fun x => α + β * x) (fun _ => β) := by
    refine ⟨.of_continuous continuous_const, fun x _ _ => ?_⟩
    simp; ring
  have h := parts hl hs hid
  have e1 : ∫ x in (0:ℝ)..l, (α + β * x) * k x = ∫ x in (0:ℝ)..l, k x * (α + β * x) := by
    congr 1; funext x; ring
  have e2 : ∫ x in (0:ℝ)..l, s x * β = β * (w l - w 0) := by
    rw [← integral_const_slope hl hw]; congr 1; funext x; ring
  rw [e1, h, e2]; ring

/-! ### the polynomials of the element -/

theorem lineField_slope (l a b : ℝ) : Slope l (lineField l a b) (deriv (lineField l a b)) := by
  have e : deriv (lineField l a b) = fun _ => (b - a) / l := by
    funext x
    have : HasDerivAt (lineField l a b) ((b - a) / l) x := by
      unfold lineField
      simpa using ((hasDerivAt_id x).const_mul ((b - a) / l)).const_add a
    exact this.deriv
  refine .of_deriv (by unfold lineField; fun_prop) (by rw [e]; exact continuous_const)

theorem deriv_lineField (l a b x : ℝ) : deriv (lineField l a b) x = (b - a) / l := by
  have : HasDerivAt (lineField l a b) ((b - a) / l) x := by
    unfold lineField
    simpa using ((hasDerivAt_id x).const_mul ((b - a) / l)).const_add a
  exact this.deriv

/-- second derivative of the cubic: a linear function -/
theorem deriv2_cubicField (l a s b t x : ℝ) : deriv (deriv (cubicField l a s b t)) x =
    2 * (3 * (b - a) / l ^ 2 - (2 * s + t) / l) + 6 * ((s + t) / l ^ 2 - 2 * (b - a) / l ^ 3) * x := by
  have e : deriv (cubicField l a s b t) = fun x => s + 2 * (3 * (b - a) / l ^ 2 - (2 * s + t) / l) * x +
      3 * ((s + t) / l ^ 2 - 2 * (b - a) / l ^ 3) * x ^ 2 := by
    funext x; rw [deriv_cubicField]
  rw [e]
  have h : HasDerivAt (fun x : ℝ => s + 2 * (3 * (b - a) / l ^ 2 - (2 * s + t) / l) * x +
      3 * ((s + t) / l ^ 2 - 2 * (b - a) / l ^ 3) * x ^ 2)
      (2 * (3 * (b - a) / l ^ 2 - (2 * s + t) / l) * 1 + 3 * ((s + t) / l ^ 2 - 2 * (b - a) / l ^ 3) * (2 * x ^ 1 * 1)) x :=
    (((hasDerivAt_id x).const_mul _).const_add s).add (((hasDerivAt_id x).pow 2).const_mul _)
  rw [h.deriv]; ring

theorem cubicField_slope (l a s b t : ℝ) : Slope l (cubicField l a s b t) (deriv (cubicField l a s b t)) ∧
    Slope l (deriv (cubicField l a s b t)) (deriv (deriv (cubicField l a s b t))) := by
  have e : deriv (cubicField l a s b t) = fun x => s + 2 * (3 * (b - a) / l ^ 2 - (2 * s + t) / l) * x +
      3 * ((s + t) / l ^ 2 - 2 * (b - a) / l ^ 3) * x ^ 2 := by
    funext x; rw [deriv_cubicField]
  have e2 : deriv (deriv (cubicField l a s b t)) = fun x => 2 * (3 * (b - a) / l ^ 2 - (2 * s + t) / l) +
      6 * ((s + t) / l ^ 2 - 2 * (b - a) / l ^ 3) * x := by
    funext x; rw [deriv2_cubicField]
  refine ⟨.of_deriv (by unfold cubicField; fun_prop) (by rw [e]; fun_prop), .of_deriv (by rw [e]; fun_prop) (by rw [e2]; fun_prop)⟩

theorem cubicField_ends {l : ℝ} (hl : l ≠ 0) (a s b t : ℝ) : cubicField l a s b t 0 = a ∧ deriv (cubicField l a s b t) 0 = s ∧
    cubicField l a s b t l = b ∧ deriv (cubicField l a s b t) l = t := by
  refine ⟨by unfold cubicField; ring, by rw [deriv_cubicField]; ring, by unfold cubicField; field_simp; ring, ?_⟩
  rw [deriv_cubicField]; field_simp; ring

theorem lineField_ends {l : ℝ} (hl : l ≠ 0) (a b : ℝ) : lineField l a b 0 = a ∧ lineField l a b l = b :=
  ⟨by unfold lineField; ring, by unfold lineField; field_simp; ring⟩

/-- a linear function does not see the difference between a deflection and the cubic with the same ends -/
theorem lin_curv_same {l : ℝ} (hl : 0 < l) {w s k : ℝ → ℝ} (hw : Slope l w s) (hs : Slope l s k) (α β : ℝ) :
    ∫ x in (0:ℝ)..l, (α + β * x) * k x =
      ∫ x in (0:ℝ)..l, (α + β * x) * deriv (deriv (cubicField l (w 0) (s 0) (w l) (s l))) x := by
  obtain ⟨c1, c2⟩ := cubicField_slope l (w 0) (s 0) (w l) (s l)
  obtain ⟨e1, e2, e3, e4⟩ := cubicField_ends hl.ne' (w 0) (s 0) (w l) (s l)
  rw [integral_lin_curv hl.le hw hs, integral_lin_curv hl.le c1 c2, e1, e2, e3, e4]

theorem const_slope_same {l : ℝ} (hl : 0 < l) {f f' : ℝ → ℝ} (hf : Slope l f f') (c : ℝ) :
    ∫ x in (0:ℝ)..l, c * f' x = ∫ x in (0:ℝ)..l, c * deriv (lineField l (f 0) (f l)) x := by
  obtain ⟨e1, e2⟩ := lineField_ends hl.ne' (f 0) (f l)
  rw [integral_const_slope hl.le hf, integral_const_slope hl.le (lineField_slope l _ _), e1, e2]

/-! ### the exact deflection under a load with the moment `M` -/

theorem project {l : ℝ} (hl : 0 < l) {M : ℝ → ℝ} (hM : Tame l M) : ∃ α β : ℝ,
    (∫ x in (0:ℝ)..l, (M x - (α + β * x))) = 0 ∧ (∫ x in (0:ℝ)..l, x * (M x - (α + β * x))) = 0 := by
  have hl' := hl.ne'
  have hx : Tame l fun x => x * M x := (Tame.of_continuous continuous_id).mul hl.le hM
  generalize hm0 : (∫ x in (0:ℝ)..l, M x) = m0
  generalize hm1 : (∫ x in (0:ℝ)..l, x * M x) = m1
  refine ⟨(4 * m0 * l - 6 * m1) / l ^ 2, (12 * m1 - 6 * l * m0) / l ^ 3, ?_, ?_⟩
  · rw [intervalIntegral.integral_sub hM.1 (Continuous.intervalIntegrable (by fun_prop) _ _), hm0]
    have e : ∀ a b : ℝ, ∫ x in (0:ℝ)..l, (a + b * x) = a * l + b * l ^ 2 / 2 := by
      intro a b
      have := integral_cubic a b 0 0 l
      simp only [zero_mul, add_zero, zero_div] at this
      rw [this]
    rw [e]; field_simp; ring
  · have e : ∀ a b : ℝ, ∫ x in (0:ℝ)..l, x * (a + b * x) = a * l ^ 2 / 2 + b * l ^ 3 / 3 := by
      intro a b
      have := integral_cubic 0 a b 0 l
      simp only [zero_mul, add_zero, zero_add, zero_div] at this
      rw [← this]; congr 1; funext x; ring
    have e2 : ∀ a b : ℝ, (fun x => x * (M x - (a + b * x))) = fun x => x * M x - x * (a + b * x) := by intro a b; funext x; ring
    rw [e2, intervalIntegral.integral_sub hx.1 (Continuous.intervalIntegrable (by fun_prop) _ _), hm1, e]
    field_simp; ring

/-- Bending: for every moment `M` of the loads there is a deflection with given ends whose moment differs from that of the cubic by the
part of `M` that the cubics do not see. -/
theorem bend_exact {l EI : ℝ} (hl : 0 < l) (hE : EI ≠ 0) {M : ℝ → ℝ} (hM : Tame l M) (a s b t : ℝ) :
    ∃ w θ k : ℝ → ℝ, Slope l w θ ∧ Slope l θ k ∧ w 0 = a ∧ θ 0 = s ∧ w l = b ∧ θ l = t ∧
      ∀ v ψ h : ℝ → ℝ, Slope l v ψ → Slope l ψ h →
        ∫ x in (0:ℝ)..l, EI * k x * h x =
          (∫ x in (0:ℝ)..l, EI * deriv (deriv (cubicField l a s b t)) x * deriv (deriv (cubicField l (v 0) (ψ 0) (v l) (ψ l))) x) +
          ((∫ x in (0:ℝ)..l, M x * h x) - ∫ x in (0:ℝ)..l, M x * deriv (deriv (cubicField l (v 0) (ψ 0) (v l) (ψ l))) x) := by
  obtain ⟨α, β, hz0, hz1⟩ := project hl hM
  let R : ℝ → ℝ := fun x => M x - (α + β * x)
  have hlin : Tame l fun x => α + β * x := .of_continuous (by fun_prop)
  have hR : Tame l R := by
    have := hM.add (hlin.const_mul (-1))
    exact this.congr hl.le fun x _ _ => by simp only [R]; ring
  have hRE : Tame l fun x => EI⁻¹ * R x := hR.const_mul _
  have hS := Slope.of_tame hRE
  have hW := Slope.of_tame (hS.left hl.le)
  obtain ⟨c1, c2⟩ := cubicField_slope l a s b t
  obtain ⟨e1, e2, e3, e4⟩ := cubicField_ends hl.ne' a s b t
  have hSl : ∫ x in (0:ℝ)..l, EI⁻¹ * R x = 0 := by
    rw [intervalIntegral.integral_const_mul]
    have : (∫ x in (0:ℝ)..l, R x) = 0 := hz0
    rw [this, mul_zero]
  have hWl : ∫ x in (0:ℝ)..l, ∫ y in (0:ℝ)..x, EI⁻¹ * R y = 0 := by
    have h := integral_lin_curv hl.le hW hS 0 1
    have e : ∫ x in (0:ℝ)..l, (0 + 1 * x) * (EI⁻¹ * R x) = EI⁻¹ * ∫ x in (0:ℝ)..l, x * R x := by
      rw [← intervalIntegral.integral_const_mul]; congr 1; funext x; ring
    have : (∫ x in (0:ℝ)..l, x * R x) = 0 := hz1
    rw [e, this] at h
    simp only [hSl, intervalIntegral.integral_same] at h
    linarith
  refine ⟨_, _, _, c1.add hW, c2.add hS, ?_, ?_, ?_, ?_, ?_⟩
  · simp only [intervalIntegral.integral_same]; rw [e1, add_zero]
  · simp only [intervalIntegral.integral_same]; rw [e2, add_zero]
  · simp only [hWl]; rw [e3, add_zero]
  · simp only [hSl]; rw [e4, add_zero]
  · intro v ψ h hv hψ
    obtain ⟨q1, q2⟩ := cubicField_slope l (v 0) (ψ 0) (v l) (ψ l)
    have f1 : ∫ x in (0:ℝ)..l, EI * (deriv (deriv (cubicField l a s b t)) x + EI⁻¹ * R x) * h x =
        (∫ x in (0:ℝ)..l, EI * deriv (deriv (cubicField l a s b t)) x * h x) + ∫ x in (0:ℝ)..l, R x * h x := by
      rw [← intervalIntegral.integral_add ((((c2.tame.const_mul EI).mul hl.le hψ.tame)).1) ((hR.mul hl.le hψ.tame).1)]
      congr 1; funext x; field_simp
    have f2 : ∀ h' : ℝ → ℝ, Tame l h' → ∫ x in (0:ℝ)..l, R x * h' x =
        (∫ x in (0:ℝ)..l, M x * h' x) - ∫ x in (0:ℝ)..l, (α + β * x) * h' x := by
      intro h' hh
      rw [← intervalIntegral.integral_sub ((hM.mul hl.le hh).1) ((hlin.mul hl.le hh).1)]
      congr 1; funext x; simp only [R]; ring
    have f3 : ∫ x in (0:ℝ)..l, EI * deriv (deriv (cubicField l a s b t)) x * h x =
        ∫ x in (0:ℝ)..l, EI * deriv (deriv (cubicField l a s b t)) x * deriv (deriv (cubicField l (v 0) (ψ 0) (v l) (ψ l))) x := by
      have := lin_curv_same hl hv hψ (EI * (2 * (3 * (b - a) / l ^ 2 - (2 * s + t) / l))) (EI * (6 * ((s + t) / l ^ 2 - 2 * (b - a) / l ^ 3)))
      have e : ∀ x, EI * deriv (deriv (cubicField l a s b t)) x = EI * (2 * (3 * (b - a) / l ^ 2 - (2 * s + t) / l)) +
          EI * (6 * ((s + t) / l ^ 2 - 2 * (b - a) / l ^ 3)) * x := by intro x; rw [deriv2_cubicField]; ring
      simp only [e]
      exact this
    have f4 : ∫ x in (0:ℝ)..l, R x * deriv (deriv (cubicField l (v 0) (ψ 0) (v l) (ψ l))) x = 0 := by
      simp only [deriv2_cubicField]
      generalize 2 * (3 * (v l - v 0) / l ^ 2 - (2 * ψ 0 + ψ l) / l) = A
      generalize 6 * ((ψ 0 + ψ l) / l ^ 2 - 2 * (v l - v 0) / l ^ 3) = B
      have : (fun x => R x * (A + B * x)) = fun x => A * R x + B * (x * R x) := by funext x; ring
      have hxR : Tame l fun x => x * R x := (Tame.of_continuous continuous_id).mul hl.le hR
      rw [this, intervalIntegral.integral_add (hR.const_mul A).1 (hxR.const_mul B).1, intervalIntegral.integral_const_mul,
        intervalIntegral.integral_const_mul]
      have z0 : (∫ x in (0:ℝ)..l, R x) = 0 := hz0
      have z1 : (∫ x in (0:ℝ)..l, x * R x) = 0 := hz1
      rw [z0, z1]; ring
    have f5 := f2 _ q2.tame
    rw [f4, ← lin_curv_same hl hv hψ] at f5
    rw [f1, f3, f2 h hψ.tame]
    linarith

/-- The same for rods: axial force or torque `N`. -/
theorem rod_exact {l EA : ℝ} (hl : 0 < l) (hE : EA ≠ 0) {N : ℝ → ℝ} (hN : Tame l N) (a b : ℝ) :
    ∃ f f' : ℝ → ℝ, Slope l f f' ∧ f 0 = a ∧ f l = b ∧
      ∀ v v' : ℝ → ℝ, Slope l v v' →
        ∫ x in (0:ℝ)..l, EA * f' x * v' x =
          (∫ x in (0:ℝ)..l, EA * deriv (lineField l a b) x * deriv (lineField l (v 0) (v l)) x) +
          ((∫ x in (0:ℝ)..l, N x * v' x) - ∫ x in (0:ℝ)..l, N x * deriv (lineField l (v 0) (v l)) x) := by
  have hl' := hl.ne'
  obtain ⟨α, hz⟩ : ∃ α : ℝ, (∫ x in (0:ℝ)..l, (N x - α)) = 0 := by
    refine ⟨(∫ x in (0:ℝ)..l, N x) / l, ?_⟩
    rw [intervalIntegral.integral_sub hN.1 (continuous_const.intervalIntegrable _ _), intervalIntegral.integral_const]
    simp; field_simp; ring
  let R : ℝ → ℝ := fun x => N x - α
  have hc : Tame l fun _ => α := .of_continuous continuous_const
  have hR : Tame l R := (hN.add (hc.const_mul (-1))).congr hl.le fun x _ _ => by simp only [R]; ring
  have hRE : Tame l fun x => EA⁻¹ * R x := hR.const_mul _
  have hS := Slope.of_tame hRE
  have z0 : (∫ x in (0:ℝ)..l, R x) = 0 := hz
  have c1 := lineField_slope l a b
  obtain ⟨e1, e2⟩ := lineField_ends hl' a b
  have hSl : ∫ x in (0:ℝ)..l, EA⁻¹ * R x = 0 := by
    rw [intervalIntegral.integral_const_mul, z0, mul_zero]
  refine ⟨_, _, c1.add hS, ?_, ?_, ?_⟩
  · simp only [intervalIntegral.integral_same]; rw [e1, add_zero]
  · simp only [hSl]; rw [e2, add_zero]
  · intro v v' hv
    have q := lineField_slope l (v 0) (v l)
    have f1 : ∫ x in (0:ℝ)..l, EA * (deriv (lineField l a b) x + EA⁻¹ * R x) * v' x =
        (∫ x in (0:ℝ)..l, EA * deriv (lineField l a b) x * v' x) + ∫ x in (0:ℝ)..l, R x * v' x := by
      rw [← intervalIntegral.integral_add ((((c1.tame.const_mul EA).mul hl.le hv.tame)).1) ((hR.mul hl.le hv.tame).1)]
      congr 1; funext x; field_simp
    have f2 : ∀ h' : ℝ → ℝ, Tame l h' → ∫ x in (0:ℝ)..l, R x * h' x = (∫ x in (0:ℝ)..l, N x * h' x) - ∫ x in (0:ℝ)..l, α * h' x := by
      intro h' hh
      rw [← intervalIntegral.integral_sub ((hN.mul hl.le hh).1) ((hh.const_mul α).1)]
      congr 1; funext x; simp only [R]; ring
    have f3 : ∫ x in (0:ℝ)..l, EA * deriv (lineField l a b) x * v' x =
        ∫ x in (0:ℝ)..l, EA * deriv (lineField l a b) x * deriv (lineField l (v 0) (v l)) x := by
      simp only [deriv_lineField l a b]
      exact const_slope_same hl hv _
    have f4 : ∫ x in (0:ℝ)..l, R x * deriv (lineField l (v 0) (v l)) x = 0 := by
      simp only [deriv_lineField]
      rw [intervalIntegral.integral_mul_const, z0, zero_mul]
    have f5 := f2 _ q.tame
    rw [f4, ← const_slope_same hl hv] at f5
    rw [f1, f3, f2 v' hv.tame]
    linarith

/-! ### loads on a beam -/

/-- A load functional that is a function of the end components plus the work of internal forces on the strains. -/
def Transfers (l : ℝ) (L : BeamShape → ℝ) : Prop :=
  ∃ (C : Vec 12 → ℝ) (N T M2 M3 : ℝ → ℝ), Tame l N ∧ Tame l T ∧ Tame l M2 ∧ Tame l M3 ∧
    ∀ S : BeamShape, S.Smooth l → L S = C (S.ends l) + ((∫ x in (0:ℝ)..l, N x * S.strain x) + (∫ x in (0:ℝ)..l, T x * S.rate x) +
      (∫ x in (0:ℝ)..l, M2 x * S.curv2 x) + ∫ x in (0:ℝ)..l, M3 x * S.curv3 x)

theorem integral_comb {l : ℝ} (hl : 0 ≤ l) (a b : ℝ) {f g h : ℝ → ℝ} (hf : Tame l f) (hg : Tame l g) (hh : Tame l h) :
    ∫ x in (0:ℝ)..l, (a * f x + b * g x) * h x = a * (∫ x in (0:ℝ)..l, f x * h x) + b * ∫ x in (0:ℝ)..l, g x * h x := by
  rw [← intervalIntegral.integral_const_mul, ← intervalIntegral.integral_const_mul,
    ← intervalIntegral.integral_add ((hf.mul hl hh).const_mul a).1 ((hg.mul hl hh).const_mul b).1]
  congr 1; funext x; ring

theorem Transfers.comb {l : ℝ} (hl : 0 ≤ l) {L L' : BeamShape → ℝ} (h : Transfers l L) (h' : Transfers l L') (a b : ℝ) :
    Transfers l fun S => a * L S + b * L' S := by
  obtain ⟨C, N, T, M2, M3, hN, hT, h2, h3, e⟩ := h
  obtain ⟨C', N', T', M2', M3', hN', hT', h2', h3', e'⟩ := h'
  refine ⟨fun d => a * C d + b * C' d, fun x => a * N x + b * N' x, fun x => a * T x + b * T' x, fun x => a * M2 x + b * M2' x,
    fun x => a * M3 x + b * M3' x, (hN.const_mul a).add (hN'.const_mul b), (hT.const_mul a).add (hT'.const_mul b),
    (h2.const_mul a).add (h2'.const_mul b), (h3.const_mul a).add (h3'.const_mul b), ?_⟩
  intro S hS
  beta_reduce
  rw [e S hS, e' S hS, integral_comb hl a b hN hN' hS.strain.tame, integral_comb hl a b hT hT' hS.rate.tame,
    integral_comb hl a b h2 h2' hS.curv2.tame, integral_comb hl a b h3 h3' hS.curv3.tame]
  ring

theorem Transfers.zero (l : ℝ) : Transfers l fun _ => 0 := by
  refine ⟨fun _ => 0, fun _ => 0, fun _ => 0, fun _ => 0, fun _ => 0, .of_continuous continuous_const, .of_continuous continuous_const,
    .of_continuous continuous_const, .of_continuous continuous_const, fun S _ => ?_⟩
  simp

theorem Transfers.add {l : ℝ} (hl : 0 ≤ l) {L L' : BeamShape → ℝ} (h : Transfers l L) (h' : Transfers l L') :
    Transfers l fun S => L S + L' S := by
  have := h.comb hl h' 1 1
  simpa using this

theorem Transfers.smul {l : ℝ} (hl : 0 ≤ l) {L : BeamShape → ℝ} (h : Transfers l L) (a : ℝ) : Transfers l fun S => a * L S := by
  have := h.comb hl h a 0
  simpa using this

theorem Transfers.sum {l : ℝ} (hl : 0 ≤ l) {α : Type} (xs : List α) (f : α → BeamShape → ℝ) (h : ∀ a ∈ xs, Transfers l (f a)) :
    Transfers l fun S => (xs.map fun a => f a S).sum := by
  induction xs with
  | nil => simpa using Transfers.zero l
  | cons a xs ih =>
    simp only [List.map_cons, List.sum_cons]
    exact (h a (by simp)).add hl (ih fun b hb => h b (by simp [hb]))

/-- a linear line load on a quantity with one derivative -/
theorem load_slope {l : ℝ} (hl : 0 < l) (p q : ℝ) {f f' : ℝ → ℝ} (hf : Slope l f f') :
    ∫ x in (0:ℝ)..l, lineLoad p q l x * f x = (p + q) * l / 2 * f 0 +
      ∫ x in (0:ℝ)..l, (p * (l - x) + (q - p) / l * (l ^ 2 - x ^ 2) / 2) * f' x := by
  have hQ : Slope l (fun x => -(p * (l - x) + (q - p) / l * (l ^ 2 - x ^ 2) / 2)) (lineLoad p q l) := by
    have d : ∀ x, HasDerivAt (fun x => -(p * (l - x) + (q - p) / l * (l ^ 2 - x ^ 2) / 2)) (lineLoad p q l x) x := by
      intro x
      have h := (((((hasDerivAt_id x).const_sub l).const_mul p).add
        (((((hasDerivAt_id x).pow 2).const_sub (l ^ 2)).const_mul ((q - p) / l)).div_const 2))).neg
      refine h.congr_deriv ?_
      unfold lineLoad; simp; ring
    have e : deriv (fun x => -(p * (l - x) + (q - p) / l * (l ^ 2 - x ^ 2) / 2)) = lineLoad p q l := funext fun x => (d x).deriv
    have := Slope.of_deriv (l := l) (f := fun x => -(p * (l - x) + (q - p) / l * (l ^ 2 - x ^ 2) / 2)) (fun x => (d x).differentiableAt)
      (by rw [e]; unfold lineLoad; fun_prop)
    rwa [e] at this
  rw [parts hl.le hQ hf]
  have e : ∫ x in (0:ℝ)..l, -(p * (l - x) + (q - p) / l * (l ^ 2 - x ^ 2) / 2) * f' x =
      -∫ x in (0:ℝ)..l, (p * (l - x) + (q - p) / l * (l ^ 2 - x ^ 2) / 2) * f' x := by
    rw [← intervalIntegral.integral_neg]; congr 1; funext x; ring
  rw [e]
  have : l ≠ 0 := hl.ne'
  field_simp
  ring

/-- a quadratic against a slope, moved to the curvature -/
theorem load_curv {l : ℝ} (hl : 0 < l) (p k : ℝ) {s c : ℝ → ℝ} (hs : Slope l s c) :
    ∫ x in (0:ℝ)..l, (p * (l - x) + k * (l ^ 2 - x ^ 2) / 2) * s x = (p * l ^ 2 / 2 + k * l ^ 3 / 3) * s 0 +
      ∫ x in (0:ℝ)..l, (p * (l - x) ^ 2 / 2 + k * (l ^ 3 / 3 - l ^ 2 * x / 2 + x ^ 3 / 6)) * c x := by
  have hQ : Slope l (fun x => -(p * (l - x) ^ 2 / 2 + k * (l ^ 3 / 3 - l ^ 2 * x / 2 + x ^ 3 / 6)))
      (fun x => p * (l - x) + k * (l ^ 2 - x ^ 2) / 2) := by
    have d : ∀ x, HasDerivAt (fun x => -(p * (l - x) ^ 2 / 2 + k * (l ^ 3 / 3 - l ^ 2 * x / 2 + x ^ 3 / 6)))
        (p * (l - x) + k * (l ^ 2 - x ^ 2) / 2) x := by
      intro x
      have h := (((((((hasDerivAt_id x).const_sub l).pow 2).const_mul p).div_const 2).add
        ((((((hasDerivAt_id x).const_mul (l ^ 2)).div_const 2).const_sub (l ^ 3 / 3)).add (((hasDerivAt_id x).pow 3).div_const 6)).const_mul k))).neg
      refine h.congr_deriv ?_
      simp; ring
    have e : deriv (fun x => -(p * (l - x) ^ 2 / 2 + k * (l ^ 3 / 3 - l ^ 2 * x / 2 + x ^ 3 / 6))) =
      fun x => p * (l - x) + k * (l ^ 2 - x ^ 2) / 2 := funext fun x => (d x).deriv
    have := Slope.of_deriv (l := l) (f := fun x => -(p * (l - x) ^ 2 / 2 + k * (l ^ 3 / 3 - l ^ 2 * x / 2 + x ^ 3 / 6)))
      (fun x => (d x).differentiableAt) (by rw [e]; fun_prop)
    rwa [e] at this
  rw [parts hl.le hQ hs]
  have e : ∫ x in (0:ℝ)..l, -(p * (l - x) ^ 2 / 2 + k * (l ^ 3 / 3 - l ^ 2 * x / 2 + x ^ 3 / 6)) * c x =
      -∫ x in (0:ℝ)..l, (p * (l - x) ^ 2 / 2 + k * (l ^ 3 / 3 - l ^ 2 * x / 2 + x ^ 3 / 6)) * c x := by
    rw [← intervalIntegral.integral_neg]; congr 1; funext x; ring
  rw [e]
  ring

theorem dist_transfers {l : ℝ} (hl : 0 < l) (w : Vec 8) : Transfers l (BeamShape.distWork l w) := by
  let Q1 : ℝ → ℝ → ℝ → ℝ := fun p q x => p * (l - x) + (q - p) / l * (l ^ 2 - x ^ 2) / 2
  let Q2 : ℝ → ℝ → ℝ → ℝ := fun p q x => p * (l - x) ^ 2 / 2 + (q - p) / l * (l ^ 3 / 3 - l ^ 2 * x / 2 + x ^ 3 / 6)
  have k1 : ∀ p q, Tame l (Q1 p q) := fun p q => .of_continuous (by simp only [Q1]; fun_prop)
  have k2 : ∀ p q, Tame l (Q2 p q) := fun p q => .of_continuous (by simp only [Q2]; fun_prop)
  let B : ℝ → ℝ → ℝ → ℝ → ℝ := fun p q a s => (p + q) * l / 2 * a + (p * l ^ 2 / 2 + (q - p) / l * l ^ 3 / 3) * s
  refine ⟨fun d => (w 0 + w 1) * l / 2 * d 0 + (w 6 + w 7) * l / 2 * d 3 + B (w 2) (w 3) (d 1) (d 5) + B (w 4) (w 5) (d 2) (- d 4),
    Q1 (w 0) (w 1), Q1 (w 6) (w 7), Q2 (w 2) (w 3), Q2 (w 4) (w 5), k1 _ _, k1 _ _, k2 _ _, k2 _ _, ?_⟩
  intro S hS
  have hq : ∀ p q, Tame l (lineLoad p q l) := fun p q => .of_continuous (by unfold lineLoad; fun_prop)
  have i0 := ((hq (w 0) (w 1)).mul hl.le (hS.strain.left hl.le)).1
  have i2 := ((hq (w 2) (w 3)).mul hl.le (hS.slope2.left hl.le)).1
  have i3 := ((hq (w 4) (w 5)).mul hl.le (hS.slope3.left hl.le)).1
  have i4 := ((hq (w 6) (w 7)).mul hl.le (hS.rate.left hl.le)).1
  unfold BeamShape.distWork
  rw [intervalIntegral.integral_add ((i0.add i2).add i3) i4, intervalIntegral.integral_add (i0.add i2) i3, intervalIntegral.integral_add i0 i2,
    load_slope hl _ _ hS.strain, load_slope hl _ _ hS.rate, load_slope hl _ _ hS.slope2, load_slope hl _ _ hS.slope3,
    load_curv hl _ _ hS.curv2, load_curv hl _ _ hS.curv3]
  simp only [BeamShape.ends, cons_val_zero, cons_val_one, cons_val, neg_neg, B, Q1, Q2]
  ring

theorem Spec.Slope.restrict {l m : ℝ} {f f' : ℝ → ℝ} (h : Slope l f f') (h0 : 0 ≤ m) (h1 : m ≤ l) : Slope m f f' where
  tame := ⟨h.tame.1.mono_set (by rw [uIcc_of_le h0, uIcc_of_le (h0.trans h1)]; exact Icc_subset_Icc le_rfl h1), by
    obtain ⟨C, hC⟩ := h.tame.2
    exact ⟨C, fun x a b => hC x a (b.trans h1)⟩⟩
  eq x a b := h.eq x a (b.trans h1)

/-- 1 up to `m`, then 0 -/
noncomputable def upTo (m x : ℝ) : ℝ := if x ≤ m then 1 else 0

theorem upTo_tame (l m : ℝ) : Tame l (upTo m) := by
  have hm : Measurable (upTo m) := Measurable.ite measurableSet_Iic measurable_const measurable_const
  have hb : ∀ x, |upTo m x| ≤ 1 := by intro x; unfold upTo; split <;> simp
  refine ⟨?_, 1, fun x _ _ => hb x⟩
  refine IntervalIntegrable.mono_fun (f := fun _ => (1:ℝ)) intervalIntegrable_const hm.aestronglyMeasurable ?_
  exact Filter.Eventually.of_forall fun x => by simpa [Real.norm_eq_abs] using hb x

theorem integral_upTo {l m : ℝ} (h0 : 0 ≤ m) (h1 : m ≤ l) {f : ℝ → ℝ} (hf : Tame l f) :
    ∫ x in (0:ℝ)..l, upTo m x * f x = ∫ x in (0:ℝ)..m, f x := by
  have hl := h0.trans h1
  have hi := ((upTo_tame l m).mul hl hf).1
  have i1 : IntervalIntegrable (fun x => upTo m x * f x) volume 0 m :=
    hi.mono_set (by rw [uIcc_of_le h0, uIcc_of_le hl]; exact Icc_subset_Icc le_rfl h1)
  have i2 : IntervalIntegrable (fun x => upTo m x * f x) volume m l :=
    hi.mono_set (by rw [uIcc_of_le h1, uIcc_of_le hl]; exact Icc_subset_Icc h0 le_rfl)
  rw [← intervalIntegral.integral_add_adjacent_intervals i1 i2]
  have e1 : ∫ x in (0:ℝ)..m, upTo m x * f x = ∫ x in (0:ℝ)..m, f x := by
    apply intervalIntegral.integral_congr_ae
    refine Filter.Eventually.of_forall fun x hx => ?_
    rw [uIoc_of_le h0] at hx
    unfold upTo
    rw [if_pos hx.2, one_mul]
  have e2 : ∫ x in m..l, upTo m x * f x = 0 := by
    rw [← intervalIntegral.integral_zero (a := m) (b := l) (μ := volume) (E := ℝ)]
    apply intervalIntegral.integral_congr_ae
    refine Filter.Eventually.of_forall fun x hx => ?_
    rw [uIoc_of_le h1] at hx
    unfold upTo
    rw [if_neg (not_le.mpr hx.1), zero_mul]
  rw [e1, e2, add_zero]

theorem value_slope {l m : ℝ} (h0 : 0 ≤ m) (h1 : m ≤ l) {f f' : ℝ → ℝ} (hf : Slope l f f') :
    f m = f 0 + ∫ x in (0:ℝ)..l, upTo m x * f' x := by
  rw [integral_upTo h0 h1 hf.tame]; exact hf.eq m h0 h1

theorem value_curv {l m : ℝ} (h0 : 0 ≤ m) (h1 : m ≤ l) {w s k : ℝ → ℝ} (hw : Slope l w s) (hs : Slope l s k) :
    w m = w 0 + m * s 0 + ∫ x in (0:ℝ)..l, upTo m x * (m - x) * k x := by
  have hl := h0.trans h1
  have ht : Tame l fun x => (m - x) * k x := (Tame.of_continuous (by fun_prop)).mul hl hs.tame
  have e : (fun x => upTo m x * (m - x) * k x) = fun x => upTo m x * ((m - x) * k x) := by funext x; ring
  rw [e, integral_upTo h0 h1 ht]
  have h := integral_lin_curv h0 (hw.restrict h0 h1) (hs.restrict h0 h1) m (-1)
  have e2 : (fun x => (m + -1 * x) * k x) = fun x => (m - x) * k x := by funext x; ring
  rw [e2] at h
  rw [h]; ring

theorem conc_transfers {l : ℝ} (hl : 0 < l) (w : Vec 7) (h0 : 0 ≤ w 6) (h1 : w 6 ≤ 1) : Transfers l (BeamShape.concWork l w) := by
  have m0 : 0 ≤ w 6 * l := by positivity
  have m1 : w 6 * l ≤ l := by nlinarith
  generalize hm : w 6 * l = m at m0 m1
  have hu := upTo_tame l m
  have hv : Tame l fun x => upTo m x * (m - x) := hu.mul hl.le (.of_continuous (by fun_prop))
  refine ⟨fun d => w 0 * d 0 + w 3 * d 3 + w 1 * (d 1 + m * d 5) + w 2 * (d 2 + m * (- d 4)) + w 4 * d 4 + w 5 * d 5,
    fun x => w 0 * upTo m x, fun x => w 3 * upTo m x, fun x => w 1 * (upTo m x * (m - x)) + w 5 * upTo m x,
    fun x => w 2 * (upTo m x * (m - x)) + (- w 4) * upTo m x, hu.const_mul _, hu.const_mul _, (hv.const_mul _).add (hu.const_mul _),
    (hv.const_mul _).add (hu.const_mul _), ?_⟩
  intro S hS
  beta_reduce
  rw [integral_comb hl.le _ _ hv hu hS.curv2.tame, integral_comb hl.le _ _ hv hu hS.curv3.tame]
  have e1 : ∀ (c : ℝ) (f : ℝ → ℝ), ∫ x in (0:ℝ)..l, c * upTo m x * f x = c * ∫ x in (0:ℝ)..l, upTo m x * f x := by
    intro c f
    rw [← intervalIntegral.integral_const_mul]; congr 1; funext x; ring
  rw [e1, e1]
  unfold BeamShape.concWork
  simp only [hm]
  rw [value_slope m0 m1 hS.strain, value_slope m0 m1 hS.rate, value_curv m0 m1 hS.slope2 hS.curv2, value_curv m0 m1 hS.slope3 hS.curv3,
    value_slope m0 m1 hS.curv2, value_slope m0 m1 hS.curv3]
  simp only [BeamShape.ends, cons_val_zero, cons_val_one, cons_val]
  ring

/-! ### one beam -/

/-- the shape of the element: linear axial displacement and twist, cubic deflections -/
noncomputable def polyShape (l : ℝ) (d : Vec 12) : BeamShape where
  axial := lineField l (d 0) (d 6)
  strain := deriv (lineField l (d 0) (d 6))
  twist := lineField l (d 3) (d 9)
  rate := deriv (lineField l (d 3) (d 9))
  defl2 := cubicField l (d 1) (d 5) (d 7) (d 11)
  slope2 := deriv (cubicField l (d 1) (d 5) (d 7) (d 11))
  curv2 := deriv (deriv (cubicField l (d 1) (d 5) (d 7) (d 11)))
  defl3 := cubicField l (d 2) (- d 4) (d 8) (- d 10)
  slope3 := deriv (cubicField l (d 2) (- d 4) (d 8) (- d 10))
  curv3 := deriv (deriv (cubicField l (d 2) (- d 4) (d 8) (- d 10)))

theorem polyShape_smooth (l : ℝ) (d : Vec 12) : (polyShape l d).Smooth l where
  strain := lineField_slope _ _ _
  rate := lineField_slope _ _ _
  slope2 := (cubicField_slope _ _ _ _ _).1
  curv2 := (cubicField_slope _ _ _ _ _).2
  slope3 := (cubicField_slope _ _ _ _ _).1
  curv3 := (cubicField_slope _ _ _ _ _).2

theorem polyShape_ends {l : ℝ} (hl : l ≠ 0) (d : Vec 12) : (polyShape l d).ends l = d := by
  obtain ⟨a1, a2⟩ := lineField_ends hl (d 0) (d 6)
  obtain ⟨b1, b2⟩ := lineField_ends hl (d 3) (d 9)
  obtain ⟨c1, c2, c3, c4⟩ := cubicField_ends hl (d 1) (d 5) (d 7) (d 11)
  obtain ⟨e1, e2, e3, e4⟩ := cubicField_ends hl (d 2) (- d 4) (d 8) (- d 10)
  funext i
  unfold BeamShape.ends polyShape
  simp only [a1, a2, b1, b2, c1, c2, c3, c4, e1, e2, e3, e4, neg_neg]
  fin_cases i <;> rfl

theorem internal_poly (g : GivenBeam) (v u : State) :
    g.internal v u = BeamShape.internal g (polyShape g.len (g.ends v)) (polyShape g.len (g.ends u)) := rfl

theorem distWork_poly (g : GivenBeam) (w : Vec 8) (v : State) : g.distWork w v = (polyShape g.len (g.ends v)).distWork g.len w := rfl

theorem concWork_poly (g : GivenBeam) (w : Vec 7) (v : State) : g.concWork w v = (polyShape g.len (g.ends v)).concWork g.len w := rfl

theorem shape_internal_split {g : GivenBeam} (hl : 0 ≤ g.len) {V S : BeamShape} (hV : V.Smooth g.len) (hS : S.Smooth g.len) :
    BeamShape.internal g V S = (∫ x in (0:ℝ)..g.len, g.sec.mat.E * g.sec.A * S.strain x * V.strain x) +
      (∫ x in (0:ℝ)..g.len, g.sec.mat.E * g.sec.I3 * S.curv2 x * V.curv2 x) +
      (∫ x in (0:ℝ)..g.len, g.sec.mat.E * g.sec.I2 * S.curv3 x * V.curv3 x) +
      ∫ x in (0:ℝ)..g.len, g.sec.mat.E / (2 * (1 + g.sec.mat.mu)) * g.sec.J * S.rate x * V.rate x := by
  have i1 := ((hS.strain.tame.const_mul (g.sec.mat.E * g.sec.A)).mul hl hV.strain.tame).1
  have i2 := ((hS.curv2.tame.const_mul (g.sec.mat.E * g.sec.I3)).mul hl hV.curv2.tame).1
  have i3 := ((hS.curv3.tame.const_mul (g.sec.mat.E * g.sec.I2)).mul hl hV.curv3.tame).1
  have i4 := ((hS.rate.tame.const_mul (g.sec.mat.E / (2 * (1 + g.sec.mat.mu)) * g.sec.J)).mul hl hV.rate.tame).1
  unfold BeamShape.internal
  rw [intervalIntegral.integral_add ((i1.add i2).add i3) i4, intervalIntegral.integral_add (i1.add i2) i3, intervalIntegral.integral_add i1 i2]

/-- The element stiffness does not see more of a deformation than its ends, when the virtual one is that of the element. -/
theorem internal_poly_left {g : GivenBeam} (hl : 0 < g.len) {S : BeamShape} (hS : S.Smooth g.len) (d : Vec 12) :
    BeamShape.internal g (polyShape g.len d) S = BeamShape.internal g (polyShape g.len d) (polyShape g.len (S.ends g.len)) := by
  rw [shape_internal_split hl.le (polyShape_smooth _ _) hS, shape_internal_split hl.le (polyShape_smooth _ _) (polyShape_smooth _ _)]
  have r : ∀ (c a b : ℝ) {f f' : ℝ → ℝ}, Slope g.len f f' →
      ∫ x in (0:ℝ)..g.len, c * f' x * deriv (lineField g.len a b) x =
        ∫ x in (0:ℝ)..g.len, c * deriv (lineField g.len (f 0) (f g.len)) x * deriv (lineField g.len a b) x := by
    intro c a b f f' hf
    have := const_slope_same hl hf (c * ((b - a) / g.len))
    simp only [deriv_lineField _ a b]
    have e : ∀ h : ℝ → ℝ, (fun x => c * h x * ((b - a) / g.len)) = fun x => c * ((b - a) / g.len) * h x := by intro h; funext x; ring
    rw [e f', e, this]
  have k : ∀ (c a s b t : ℝ) {w θ k : ℝ → ℝ}, Slope g.len w θ → Slope g.len θ k →
      ∫ x in (0:ℝ)..g.len, c * k x * deriv (deriv (cubicField g.len a s b t)) x =
        ∫ x in (0:ℝ)..g.len, c * deriv (deriv (cubicField g.len (w 0) (θ 0) (w g.len) (θ g.len))) x *
          deriv (deriv (cubicField g.len a s b t)) x := by
    intro c a s b t w θ k hw hθ
    simp only [deriv2_cubicField g.len a s b t]
    generalize 2 * (3 * (b - a) / g.len ^ 2 - (2 * s + t) / g.len) = A
    generalize 6 * ((s + t) / g.len ^ 2 - 2 * (b - a) / g.len ^ 3) = B
    have := lin_curv_same hl hw hθ (c * A) (c * B)
    have e : ∀ h : ℝ → ℝ, (fun x => c * h x * (A + B * x)) = fun x => (c * A + c * B * x) * h x := by intro h; funext x; ring
    rw [e k, e, this]
  congr 1; congr 1; congr 1
  · exact r _ _ _ hS.strain
  · exact k _ _ _ _ _ hS.slope2 hS.curv2
  · have := k (g.sec.mat.E * g.sec.I2) (d 2) (- d 4) (d 8) (- d 10) hS.slope3 hS.curv3
    have e : (polyShape g.len (S.ends g.len)).curv3 = deriv (deriv (cubicField g.len (S.defl3 0) (S.slope3 0) (S.defl3 g.len) (S.slope3 g.len))) := by
      simp only [polyShape, BeamShape.ends, cons_val, neg_neg]
    rw [e]
    exact this
  · exact r _ _ _ hS.rate

/-- Every load that is carried by internal forces has an exact deformation with given ends. -/
theorem beam_exact {g : GivenBeam} (hl : 0 < g.len) (hp : g.sec.Positive) {L : BeamShape → ℝ} (hL : Transfers g.len L) (d : Vec 12) :
    ∃ S : BeamShape, S.Smooth g.len ∧ S.ends g.len = d ∧ ∀ V : BeamShape, V.Smooth g.len →
      BeamShape.internal g V S = BeamShape.internal g (polyShape g.len (V.ends g.len)) (polyShape g.len d) +
        (L V - L (polyShape g.len (V.ends g.len))) := by
  obtain ⟨C, N, T, M2, M3, hN, hT, h2, h3, e⟩ := hL
  obtain ⟨p1, p4, p2, p3⟩ := GivenSec.Positive.prod hp
  have p4' : g.sec.mat.E / (2 * (1 + g.sec.mat.mu)) * g.sec.J ≠ 0 := by
    simp only [gconsts, div_div] at p4
    exact p4.ne'
  obtain ⟨a, ε, ha, ha0, hal, va⟩ := rod_exact hl p1.ne' hN (d 0) (d 6)
  obtain ⟨t, τ, ht, ht0, htl, vt⟩ := rod_exact hl p4' hT (d 3) (d 9)
  obtain ⟨w2, s2, k2, hw2, hs2, w20, s20, w2l, s2l, v2⟩ := bend_exact hl p2.ne' h2 (d 1) (d 5) (d 7) (d 11)
  obtain ⟨w3, s3, k3, hw3, hs3, w30, s30, w3l, s3l, v3⟩ := bend_exact hl p3.ne' h3 (d 2) (- d 4) (d 8) (- d 10)
  refine ⟨⟨a, ε, t, τ, w2, s2, k2, w3, s3, k3⟩, ⟨ha, ht, hw2, hs2, hw3, hs3⟩, ?_, ?_⟩
  · funext i
    simp only [BeamShape.ends, ha0, hal, ht0, htl, w20, s20, w2l, s2l, w30, s30, w3l, s3l, neg_neg]
    fin_cases i <;> rfl
  · intro V hV
    rw [shape_internal_split hl.le hV ⟨ha, ht, hw2, hs2, hw3, hs3⟩, shape_internal_split hl.le (polyShape_smooth _ _) (polyShape_smooth _ _),
      e V hV, e _ (polyShape_smooth _ _), polyShape_ends hl.ne']
    have b1 := va V.axial V.strain hV.strain
    have b2 := vt V.twist V.rate hV.rate
    have b3 := v2 V.defl2 V.slope2 V.curv2 hV.slope2 hV.curv2
    have b4 := v3 V.defl3 V.slope3 V.curv3 hV.slope3 hV.curv3
    simp only [gconsts] at b1 b3 b4
    simp only [polyShape, BeamShape.ends, cons_val_zero, cons_val_one, cons_val, neg_neg]
    rw [b1, b2, b3, b4]
    ring

/-! ### frames -/

/-- the deformation of the elements -/
noncomputable def polyDeformation (s : Blueprint) (v : State) : Deformation where
  node := v
  shape b := (s.beam b).elim (polyShape 0 0) fun g => polyShape g.len (g.ends v)

theorem polyDeformation_shape {s : Blueprint} {b : String} {g : GivenBeam} (h : s.beam b = some g) (v : State) :
    (polyDeformation s v).shape b = polyShape g.len (g.ends v) := by
  unfold polyDeformation; simp only [h, Option.elim_some]

theorem poly_conforms {s : Blueprint} {nodes : List String} (h : Sane s nodes) (v : State) : s.Conforms (polyDeformation s v) := by
  intro b g hb
  obtain ⟨c, hc⟩ := h.ok b g hb
  rw [polyDeformation_shape hb]
  exact ⟨polyShape_smooth _ _, polyShape_ends (len_pos hc).ne' _⟩

theorem fieldInternal_poly {s : Blueprint} {nodes : List String} (h : Sane s nodes) {D : Deformation} (hD : s.Conforms D) (v : State) :
    s.fieldInternal (polyDeformation s v) D = s.internal v D.node := by
  unfold Blueprint.fieldInternal Blueprint.internal
  congr 1
  apply List.map_congr_left
  intro b hb
  obtain ⟨g, hg⟩ := h.term hb
  obtain ⟨c, hc⟩ := h.ok b g hg
  obtain ⟨h1, h2⟩ := hD b g hg
  rw [hg, Option.elim_some, Option.elim_some, polyDeformation_shape hg, internal_poly_left (len_pos hc) h1, h2]
  rfl

theorem fieldPattern_poly {s : Blueprint} {nodes : List String} (h : Sane s nodes) (ns : List String) (r : PatReg) (v : State) :
    s.fieldPatternWork ns r (polyDeformation s v) = s.patternWork ns r v := by
  unfold Blueprint.fieldPatternWork Blueprint.patternWork
  congr 2
  apply List.map_congr_left
  intro b hb
  obtain ⟨g, hg⟩ := h.term hb
  rw [hg, Option.elim_some, Option.elim_some, polyDeformation_shape hg]
  rfl

theorem fieldCase_poly {s : Blueprint} {nodes : List String} (h : Sane s nodes) (ns : List String) (r : CaseReg) (g : String → Option ℝ)
    (names : List String) (v : State) : s.fieldCaseWork ns r g names (polyDeformation s v) = s.caseWork ns r g names v := by
  unfold Blueprint.fieldCaseWork Blueprint.caseWork
  congr 2
  funext p
  have : (fun q => s.fieldPatternWork ns q (polyDeformation s v)) = fun q => s.patternWork ns q v :=
    funext fun q => fieldPattern_poly h ns q v
  rw [this]

/-- the loads of a case on one beam -/
noncomputable def beamLoad (r : CaseReg) (k : String → Option ℝ) (names : List String) (l : ℝ) (b : String) (V : BeamShape) : ℝ :=
  (names.map fun p => (k p).getD 0 * (r.pats p).elim 0 fun q =>
    ((q.dist b).elim 0 fun w => V.distWork l w) + ((q.conc b).elim 0 fun w => V.concWork l w)).sum

theorem beamLoad_transfers {r : CaseReg} (hr : r.OnBeams) (k : String → Option ℝ) (names : List String) {l : ℝ} (hl : 0 < l) (b : String) :
    Transfers l (beamLoad r k names l b) := by
  unfold beamLoad
  apply Transfers.sum hl.le names (fun p V => (k p).getD 0 * (r.pats p).elim 0 fun q =>
    ((q.dist b).elim 0 fun w => V.distWork l w) + ((q.conc b).elim 0 fun w => V.concWork l w))
  intro p _
  apply Transfers.smul hl.le
  cases hq : r.pats p with
  | none => simpa using Transfers.zero l
  | some q =>
    simp only [Option.elim_some]
    apply Transfers.add hl.le
    · cases q.dist b with
      | none => simpa using Transfers.zero l
      | some w => simpa using dist_transfers hl w
    · cases hw : q.conc b with
      | none => simpa using Transfers.zero l
      | some w => simpa using conc_transfers hl w (hr p q b w hq hw).1 (hr p q b w hq hw).2

theorem sum_map_sub {α : Type} (xs : List α) (f g : α → ℝ) : (xs.map fun a => f a - g a).sum = (xs.map f).sum - (xs.map g).sum := by
  induction xs with
  | nil => simp
  | cons a xs ih => simp only [List.map_cons, List.sum_cons, ih]; ring

theorem sum_sum_comm {α β : Type} (xs : List α) (ys : List β) (f : α → β → ℝ) :
    (xs.map fun a => (ys.map fun b => f a b).sum).sum = (ys.map fun b => (xs.map fun a => f a b).sum).sum := by
  induction xs with
  | nil => simp
  | cons a xs ih =>
    simp only [List.map_cons, List.sum_cons, ih]
    rw [← List.sum_map_add]

theorem fieldCase_split (s : Blueprint) (ns : List String) (r : CaseReg) (k : String → Option ℝ) (names : List String) (V : Deformation) :
    s.fieldCaseWork ns r k names V =
      (names.map fun p => (k p).getD 0 * (r.pats p).elim 0 fun q => (ns.map fun n => ((q.node n).getD 0) ⬝ᵥ V.node n).sum).sum +
      (s.beams.map fun b => (s.beam b).elim 0 fun g => beamLoad r k names g.len b (V.shape b)).sum := by
  have e : ∀ b, ((s.beam b).elim 0 fun g => beamLoad r k names g.len b (V.shape b)) =
      (names.map fun p => (k p).getD 0 * (r.pats p).elim 0 fun q => (s.beam b).elim 0 fun g =>
        ((q.dist b).elim 0 fun w => (V.shape b).distWork g.len w) + ((q.conc b).elim 0 fun w => (V.shape b).concWork g.len w)).sum := by
    intro b
    cases s.beam b with
    | none =>
      simp only [Option.elim_none]
      symm
      apply list_sum_const_zero
      intro p _
      cases r.pats p <;> simp
    | some g => simp only [Option.elim_some]; rfl
  simp only [e]
  rw [sum_sum_comm, ← List.sum_map_add]
  unfold Blueprint.fieldCaseWork Blueprint.fieldPatternWork
  congr 1
  apply List.map_congr_left
  intro p _
  cases r.pats p with
  | none => simp
  | some q =>
    simp only [Option.elim_some]
    rw [mul_add, List.sum_map_mul_left]

/-- A displacement of the nodes in equilibrium extends to an exact deformation. -/
theorem frame_exact {s : Blueprint} {nodes : List String} (h : Sane s nodes) (hp : s.Positive) {r : CaseReg} (hr : r.OnBeams)
    (k : String → Option ℝ) (names : List String) {t : String → Option Flags} {u : State}
    (heq : ∀ v, Obeys t v → s.internal v u = s.caseWork nodes r k names v) :
    ∃ D : Deformation, D.node = u ∧ s.Conforms D ∧ ∀ V, s.Conforms V → Obeys t V.node →
      s.fieldInternal V D = s.fieldCaseWork nodes r k names V := by
  have hex : ∀ b, ∃ S : BeamShape, ∀ g, s.beam b = some g → S.Smooth g.len ∧ S.ends g.len = g.ends u ∧ ∀ V : BeamShape, V.Smooth g.len →
      BeamShape.internal g V S = BeamShape.internal g (polyShape g.len (V.ends g.len)) (polyShape g.len (g.ends u)) +
        (beamLoad r k names g.len b V - beamLoad r k names g.len b (polyShape g.len (V.ends g.len))) := by
    intro b
    cases hb : s.beam b with
    | none => exact ⟨polyShape 0 0, fun g hg => by simp at hg⟩
    | some g =>
      obtain ⟨c, hc⟩ := h.ok b g hb
      obtain ⟨S, h1, h2, h3⟩ := beam_exact (len_pos hc) (hp b g hb) (beamLoad_transfers hr k names (len_pos hc) b) (g.ends u)
      exact ⟨S, fun g' hg => by cases hg; exact ⟨h1, h2, h3⟩⟩
  choose S hS using hex
  refine ⟨⟨u, S⟩, rfl, fun b g hb => ⟨(hS b g hb).1, (hS b g hb).2.1⟩, ?_⟩
  intro V hV hO
  have h1 : s.fieldInternal V ⟨u, S⟩ = s.internal V.node u +
      ((s.beams.map fun b => (s.beam b).elim 0 fun g => beamLoad r k names g.len b (V.shape b)).sum -
       (s.beams.map fun b => (s.beam b).elim 0 fun g => beamLoad r k names g.len b ((polyDeformation s V.node).shape b)).sum) := by
    unfold Blueprint.fieldInternal Blueprint.internal
    rw [← sum_map_sub, ← List.sum_map_add]
    congr 1
    apply List.map_congr_left
    intro b hb
    obtain ⟨g, hg⟩ := h.term hb
    obtain ⟨v1, v2⟩ := hV b g hg
    simp only [hg, Option.elim_some, polyDeformation_shape hg]
    rw [(hS b g hg).2.2 _ v1, v2]
    rfl
  have h2 := fieldCase_split s nodes r k names V
  have h3 := fieldCase_split s nodes r k names (polyDeformation s V.node)
  rw [fieldCase_poly h] at h3
  have h4 := heq V.node hO
  rw [h1, h2, h4, h3]
  have : (polyDeformation s V.node).node = V.node := rfl
  rw [this]
  ring

end Hyperstatic
