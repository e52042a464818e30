import Verif.Spec.Tolerance
import Verif.Lemmas.Geom

/-
C170: the tolerance and its setters.
-/

namespace Hyperstatic

open Spec

/-- **C170, the setter.** `abs_tol()` gives the value last given to `set_abs_tol`, or 1e-9, whatever else was set. -/
theorem C170_setting (cs : List TolCall) : (Tolerances.default.run cs).abs = (lastAbs cs).getD (1 / 10 ^ 9) := by
  have : ∀ (cs : List TolCall) (s : Tolerances), (s.run cs).abs = (lastAbs cs).getD s.abs := by
    intro cs
    induction cs with
    | nil => intro s; rfl
    | cons c cs ih =>
      intro s
      show ((s.step c).run cs).abs = _
      rw [ih]
      simp only [lastAbs]
      cases lastAbs cs with
      | some v => rfl
      | none => cases c <;> rfl
  exact this cs _

theorem cartesian_default (O A B : V3) : cartesianAt (1 / 10 ^ 9) O A B = (Csys.mk? O A B).map some := by
  show cartesianAt absTol O A B = _
  unfold cartesianAt Csys.mk?
  simp only
  split
  · rfl
  · rename_i h
    rw [if_neg (fun h0 => V3.maxAbs_pos_of_not_lt h ((V3.norm_eq_zero_iff _).mp h0))]
    rfl

theorem byNormal_default (O n g : V3) : byNormalAt (1 / 10 ^ 9) O n g = Csys.createByNormal O n g := by
  unfold byNormalAt Csys.createByNormal
  split
  · rfl
  · rename_i h
    push Not at h
    show (if V3.norm (n.unit - g.unit) < absTol ∨ V3.norm (n.unit + g.unit) < absTol then _ else _) = _
    simp only
    split
    · rfl
    · rename_i h1
      push Not at h1
      have hn : n ≠ 0 := fun e => h.1 ((V3.norm_eq_zero_iff _).mpr e)
      have hg : g ≠ 0 := fun e => h.2 ((V3.norm_eq_zero_iff _).mpr e)
      have hp := absTol_pos
      rw [if_neg (fun h0 => V3.norm_cross_ne_zero (V3.unit_dot hn) (V3.unit_dot hg)
        ((V3.norm_pos_iff _).mp (by linarith [h1.1])) ((V3.norm_pos_iff _).mp (by linarith [h1.2])) ((V3.norm_eq_zero_iff _).mp h0)),
        cartesian_default]
      cases Csys.mk? O _ _ <;> rfl

/-- **C170, the default.** With the tolerance as it is when the library is loaded the constructors are those of the other models. -/
theorem C170_default (p q r s : V3) :
    cartesianAt Tolerances.default.abs p q r = (Csys.mk? p q r).map some ∧
    byNormalAt Tolerances.default.abs p q r = Csys.createByNormal p q r ∧
    lineAt Tolerances.default.abs p q = (lineCsys p q).map some ∧
    triaAt Tolerances.default.abs p q r = triaCsys p q r ∧
    quadAt Tolerances.default.abs p q r s = quadCsys p q r s := by
  refine ⟨cartesian_default p q r, byNormal_default p q r, cartesian_default _ _ _, ?_, ?_⟩
  · show triaAt (1 / 10 ^ 9) p q r = _
    unfold triaAt triaCsys
    simp only [byNormal_default]
    rfl
  · show quadAt (1 / 10 ^ 9) p q r s = _
    unfold quadAt quadCsys
    simp only [byNormal_default]
    rfl

/-! ### beams -/

theorem maxAbs_zero_iff (a : V3) : a.maxAbs = 0 ↔ a = 0 := by
  constructor
  · intro h
    unfold V3.maxAbs at h
    have hx : |a.x| ≤ 0 := h ▸ (le_max_left _ _).trans (le_max_left _ _)
    have hy : |a.y| ≤ 0 := h ▸ (le_max_right _ _).trans (le_max_left _ _)
    have hz : |a.z| ≤ 0 := h ▸ le_max_right _ _
    exact V3.ext' (abs_nonpos_iff.mp hx) (abs_nonpos_iff.mp hy) (abs_nonpos_iff.mp hz)
  · rintro rfl; simp [V3.maxAbs]

theorem maxAbs_nonneg (a : V3) : 0 ≤ a.maxAbs := (abs_nonneg _).trans (le_max_right _ _)

theorem cartesian_made {t : ℝ} {O A B : V3} :
    Made (cartesianAt t O A B) ↔ t ≤ (V3.cross (A - O) (B - O)).maxAbs ∧ V3.cross (A - O) (B - O) ≠ 0 := by
  unfold cartesianAt Made
  simp only
  split
  · rename_i h; exact ⟨fun ⟨c, hc⟩ => by simp at hc, fun h' => absurd h (not_lt.mpr h'.1)⟩
  · rename_i h
    split
    · rename_i h0; exact ⟨fun ⟨c, hc⟩ => by simp at hc, fun h' => absurd ((V3.norm_eq_zero_iff _).mp h0) h'.2⟩
    · rename_i h0; exact ⟨fun _ => ⟨not_lt.mp h, fun e => h0 ((V3.norm_eq_zero_iff _).mpr e)⟩, fun _ => ⟨_, rfl⟩⟩

theorem cartesian_axes {t : ℝ} {O A B : V3} {c : Csys} (h : cartesianAt t O A B = .ok (some c)) :
    RightHanded c ∧ c.O = O ∧ 0 < V3.norm (A - O) ∧ A - O = V3.norm (A - O) • c.x := by
  have hc := (cartesian_made.mp ⟨c, h⟩).2
  have hA : A - O ≠ 0 := by
    intro h0
    apply hc
    rw [h0]
    ext <;> simp [V3.cross]
  unfold cartesianAt at h
  simp only at h
  split at h
  · simp at h
  · split at h
    · simp at h
    · simp only [Except.ok.injEq, Option.some.injEq] at h
      subst h
      refine ⟨rightHanded_of _ _ _ (V3.unit_dot hA) (V3.unit_dot hc) ?_, rfl, (V3.norm_pos_iff _).mpr hA, (V3.norm_smul_unit hA).symm⟩
      have h0 := V3.dot_cross_left (A - O) (B - O)
      have e1 : ∀ a b : V3, a.unit.dot b.unit = a.dot b / (a.norm * b.norm) := by
        intro a b; unfold V3.dot V3.unit; simp only; ring
      rw [e1, V3.dot_comm, h0, zero_div]

theorem sideways_eq (p q : V3) : max |(p - q).x| |(p - q).y| = sideways p q := by
  unfold sideways
  rw [show (p - q).x = -(q.x - p.x) by simp, show (p - q).y = -(q.y - p.y) by simp, abs_neg, abs_neg]

theorem line_cross_flat (p q : V3) :
    V3.cross (q - ⟨(p.x + q.x) / 2, (p.y + q.y) / 2, (p.z + q.z) / 2⟩)
      ((⟨(p.x + q.x) / 2, (p.y + q.y) / 2, (p.z + q.z) / 2⟩ + ⟨0, 0, 1⟩ : V3) - ⟨(p.x + q.x) / 2, (p.y + q.y) / 2, (p.z + q.z) / 2⟩) =
      ⟨(q.y - p.y) / 2, -((q.x - p.x) / 2), 0⟩ := by
  ext <;> simp [V3.cross] <;> ring

theorem line_cross_steep (p q : V3) :
    V3.cross (q - ⟨(p.x + q.x) / 2, (p.y + q.y) / 2, (p.z + q.z) / 2⟩)
      ((⟨(p.x + q.x) / 2, (p.y + q.y) / 2, (p.z + q.z) / 2⟩ + ⟨1, 0, 0⟩ : V3) - ⟨(p.x + q.x) / 2, (p.y + q.y) / 2, (p.z + q.z) / 2⟩) =
      ⟨0, (q.z - p.z) / 2, -((q.y - p.y) / 2)⟩ := by
  ext <;> simp [V3.cross] <;> ring

theorem maxAbs_flat (p q : V3) : (⟨(q.y - p.y) / 2, -((q.x - p.x) / 2), 0⟩ : V3).maxAbs = sideways p q / 2 := by
  unfold V3.maxAbs sideways
  simp only [abs_neg, abs_zero]
  rw [max_eq_left ((abs_nonneg _).trans (le_max_left _ _)), abs_div, abs_div, abs_two, max_comm, max_div_div_right (by norm_num)]

theorem maxAbs_steep (p q : V3) : (⟨0, (q.z - p.z) / 2, -((q.y - p.y) / 2)⟩ : V3).maxAbs = max |q.z - p.z| |q.y - p.y| / 2 := by
  unfold V3.maxAbs
  simp only [abs_neg, abs_zero]
  rw [max_eq_right (abs_nonneg ((q.z - p.z) / 2)), abs_div, abs_div, abs_two, max_div_div_right (by norm_num)]

/-- **C170, beams.** With a positive tolerance `t` a beam between two points is made exactly when its ends are less than `t` apart sideways and at
least `2 t` in height, or at least `2 t` sideways. -/
theorem C170_beam_partial (t : ℝ) (ht : 0 < t) (p q : V3) :
    Made (lineAt t p q) ↔ (sideways p q < t ∧ 2 * t ≤ |q.z - p.z|) ∨ 2 * t ≤ sideways p q := by
  unfold lineAt
  simp only
  rw [sideways_eq, cartesian_made]
  have hne : ∀ a : V3, t ≤ a.maxAbs → a ≠ 0 := by
    rintro a h rfl
    rw [(maxAbs_zero_iff 0).mpr rfl] at h
    linarith
  by_cases h : sideways p q < t
  · rw [if_pos h, line_cross_steep, maxAbs_steep]
    have hy : |q.y - p.y| < t := (le_max_right _ _).trans_lt h
    constructor
    · rintro ⟨h1, -⟩
      left
      refine ⟨h, ?_⟩
      rcases max_choice |q.z - p.z| |q.y - p.y| with e | e <;> rw [e] at h1 <;> linarith
    · rintro (⟨-, h1⟩ | h1)
      · have h2 : t ≤ max |q.z - p.z| |q.y - p.y| / 2 := by
          have := le_max_left |q.z - p.z| |q.y - p.y|
          linarith
        exact ⟨h2, hne _ (by rw [maxAbs_steep]; exact h2)⟩
      · linarith
  · rw [if_neg h, line_cross_flat, maxAbs_flat]
    constructor
    · rintro ⟨h1, -⟩; right; linarith
    · rintro (⟨h1, -⟩ | h1)
      · exact absurd h1 h
      · have h2 : t ≤ sideways p q / 2 := by linarith
        exact ⟨h2, hne _ (by rw [maxAbs_flat]; exact h2)⟩

/-- With a positive tolerance no beam has axes of nan: it is made with right-handed axes along its length, or refused. -/
theorem C170_axes_partial (t : ℝ) (ht : 0 < t) (p q : V3) :
    lineAt t p q = .error .exception ∨
      ∃ c, lineAt t p q = .ok (some c) ∧ RightHanded c ∧ 0 < V3.norm (q - p) ∧ q - p = V3.norm (q - p) • c.x := by
  have key : ∀ O A B, cartesianAt t O A B = .error .exception ∨ ∃ c, cartesianAt t O A B = .ok (some c) := by
    intro O A B
    unfold cartesianAt
    simp only
    split
    · exact Or.inl rfl
    · rename_i h
      right
      rw [if_neg]
      · exact ⟨_, rfl⟩
      · intro h0
        rw [(V3.norm_eq_zero_iff _).mp h0, (maxAbs_zero_iff 0).mpr rfl] at h
        exact h ht
  rcases key _ q (if max |(p - q).x| |(p - q).y| < t then _ else _) with h | ⟨c, h⟩
  · exact Or.inl h
  · right
    refine ⟨c, h, ?_⟩
    obtain ⟨h1, h2, h3, h4⟩ := cartesian_axes h
    have e : q - ⟨(p.x + q.x) / 2, (p.y + q.y) / 2, (p.z + q.z) / 2⟩ = (1 / 2 : ℝ) • (q - p) := by
      ext <;> simp <;> ring
    have en : V3.norm ((1 / 2 : ℝ) • (q - p)) = 1 / 2 * V3.norm (q - p) := by
      unfold V3.norm
      rw [show ((1 / 2 : ℝ) • (q - p)).x = 1 / 2 * (q - p).x from rfl, show ((1 / 2 : ℝ) • (q - p)).y = 1 / 2 * (q - p).y from rfl,
        show ((1 / 2 : ℝ) • (q - p)).z = 1 / 2 * (q - p).z from rfl,
        show (1 / 2 * (q - p).x * (1 / 2 * (q - p).x) + 1 / 2 * (q - p).y * (1 / 2 * (q - p).y) + 1 / 2 * (q - p).z * (1 / 2 * (q - p).z)) =
          (1 / 2) ^ 2 * ((q - p).x * (q - p).x + (q - p).y * (q - p).y + (q - p).z * (q - p).z) by ring,
        Real.sqrt_mul (by norm_num), Real.sqrt_sq (by norm_num)]
    rw [e, en] at h3 h4
    refine ⟨h1, by linarith, ?_⟩
    have hx := congrArg V3.x h4
    have hy := congrArg V3.y h4
    have hz := congrArg V3.z h4
    simp only [V3.smul_def] at hx hy hz
    refine V3.ext' ?_ ?_ ?_ <;> simp only [V3.smul_def] <;> linarith

/-- Points at least `2 t` and `2 t'` apart sideways: the beam is the same with both tolerances. -/
theorem C170_same_partial (t t' : ℝ) (p q : V3) (ht : 0 < t) (ht' : 0 < t') (h : 2 * t ≤ sideways p q) (h' : 2 * t' ≤ sideways p q) :
    lineAt t p q = lineAt t' p q := by
  unfold lineAt cartesianAt
  simp only
  rw [sideways_eq, if_neg (by linarith : ¬ sideways p q < t), if_neg (by linarith : ¬ sideways p q < t'), line_cross_flat, maxAbs_flat,
    if_neg (by linarith : ¬ sideways p q / 2 < t), if_neg (by linarith : ¬ sideways p q / 2 < t')]

/-- A finer tolerance refuses nothing that a coarser one takes. -/
def C170_claim : Prop := ∀ (t t' : ℝ) (p q : V3), 0 < t' → t' ≤ t → Made (lineAt t p q) → Made (lineAt t' p q)

/-- A column of 3 m that leans by 1.5 mm is taken with a tolerance of 2 mm and refused with one of 1 mm. -/
theorem C170_false : ¬ C170_claim := by
  intro h
  have := h (2 / 1000) (1 / 1000) ⟨0, 0, 0⟩ ⟨15 / 10000, 0, 3⟩ (by norm_num) (by norm_num)
    ((C170_beam_partial _ (by norm_num) _ _).mpr (Or.inl ⟨by norm_num [sideways, abs_of_pos], by norm_num [abs_of_pos]⟩))
  rw [C170_beam_partial _ (by norm_num)] at this
  rcases this with ⟨h1, -⟩ | h1
  · norm_num [sideways, abs_of_pos] at h1
  · norm_num [sideways, abs_of_pos] at h1

/-- With a finer tolerance a beam is still made unless its ends are between `t'` and `2 t'` apart sideways. -/
theorem C170_finer_partial (t t' : ℝ) (p q : V3) (ht' : 0 < t') (h : t' ≤ t) (hw : sideways p q < t' ∨ 2 * t' ≤ sideways p q)
    (hm : Made (lineAt t p q)) : Made (lineAt t' p q) := by
  rw [C170_beam_partial t (ht'.trans_le h)] at hm
  rw [C170_beam_partial t' ht']
  rcases hw with hw | hw
  · left
    refine ⟨hw, ?_⟩
    rcases hm with ⟨_, hm⟩ | hm <;> linarith
  · exact Or.inr hw

/-- **C170, no tolerance.** With a tolerance that is not positive nothing is refused: a vertical beam, and one without length, is taken with axes of
nan, any other with right-handed axes. -/
theorem C170_none_partial (t : ℝ) (ht : t ≤ 0) (p q : V3) :
    (lineAt t p q = .ok none ↔ p.x = q.x ∧ p.y = q.y) ∧ (Made (lineAt t p q) ↔ ¬ (p.x = q.x ∧ p.y = q.y)) := by
  have hs : 0 ≤ sideways p q := (abs_nonneg _).trans (le_max_left _ _)
  have hz : (⟨(q.y - p.y) / 2, -((q.x - p.x) / 2), 0⟩ : V3) = 0 ↔ p.x = q.x ∧ p.y = q.y := by
    constructor
    · intro h
      have h1 := congrArg V3.x h
      have h2 := congrArg V3.y h
      simp at h1 h2
      constructor <;> linarith
    · rintro ⟨h1, h2⟩
      ext <;> simp [h1, h2]
  have e : lineAt t p q = if p.x = q.x ∧ p.y = q.y then .ok none else
      cartesianAt t ⟨(p.x + q.x) / 2, (p.y + q.y) / 2, (p.z + q.z) / 2⟩ q (⟨(p.x + q.x) / 2, (p.y + q.y) / 2, (p.z + q.z) / 2⟩ + ⟨0, 0, 1⟩) := by
    unfold lineAt
    simp only
    rw [sideways_eq, if_neg (by linarith : ¬ sideways p q < t)]
    split
    · rename_i h
      unfold cartesianAt
      simp only
      rw [line_cross_flat, maxAbs_flat, if_neg (by linarith : ¬ sideways p q / 2 < t),
        if_pos ((V3.norm_eq_zero_iff _).mpr (hz.mpr h))]
    · rfl
  have hm : ¬ (p.x = q.x ∧ p.y = q.y) → Made (lineAt t p q) := by
    intro h
    rw [e, if_neg h, cartesian_made, line_cross_flat, maxAbs_flat]
    exact ⟨by linarith, fun h0 => h (hz.mp h0)⟩
  refine ⟨⟨fun h => ?_, fun h => by rw [e, if_pos h]⟩, ⟨?_, hm⟩⟩
  · by_contra hn
    obtain ⟨c, hc⟩ := hm hn
    rw [hc] at h; simp at h
  · rintro ⟨c, hc⟩ h
    rw [e, if_pos h] at hc
    simp at hc

/-! ### shells -/

/-- **C170, slabs.** A level quadrilateral is taken exactly with tolerances between 0 and 1; without tolerance its axes are nan. -/
theorem C170_slab_partial (t : ℝ) (pi pj pk pl : V3) (h1 : pi.z = pj.z) (h2 : pj.z = pk.z)
    (hk : (pi.x - pj.x) * (pj.y - pk.y) - (pi.y - pj.y) * (pj.x - pk.x) ≠ 0) :
    (Made (quadAt t pi pj pk pl) ↔ 0 < t ∧ t ≤ 1) ∧ (t ≤ 0 → quadAt t pi pj pk pl = .ok none) := by
  obtain ⟨k, hkdef⟩ : ∃ k, (pi.x - pj.x) * (pj.y - pk.y) - (pi.y - pj.y) * (pj.x - pk.x) = k := ⟨_, rfl⟩
  rw [hkdef] at hk
  have hn : V3.cross (pi - pj) (pj - pk) = ⟨0, 0, k⟩ := by
    ext
    · simp [V3.cross, h1, h2]
    · simp [V3.cross, h1, h2]
    · simp [V3.cross, ← hkdef]
  have hnorm : (⟨0, 0, k⟩ : V3).norm = |k| := by simp [V3.norm, Real.sqrt_mul_self_eq_abs]
  have hkp := abs_pos.mpr hk
  obtain ⟨s, hs, hu⟩ : ∃ s : ℝ, (s = 1 ∨ s = -1) ∧ (⟨0, 0, k⟩ : V3).unit = ⟨0, 0, s⟩ := by
    refine ⟨k / |k|, ?_, ?_⟩
    · rcases abs_choice k with e | e
      · left; rw [e]; exact div_self hk
      · right; rw [e, div_neg, div_self hk]
    · unfold V3.unit; rw [hnorm]; simp
  have hss : s * s = 1 := by rcases hs with rfl | rfl <;> norm_num
  have hes : V3.unit ⟨0, 0, s⟩ = ⟨0, 0, s⟩ := V3.unit_of_dot_one (by simp [V3.dot, hss])
  have hey : V3.unit ey = ey := V3.unit_of_dot_one (by simp [V3.dot, ey])
  have hez : V3.unit ez = ez := V3.unit_of_dot_one (by simp [V3.dot, ez])
  have hn1 : (⟨0, 0, s⟩ : V3).norm = 1 := by simp [V3.norm, hss]
  have hny : ey.norm = 1 := by simp [V3.norm, ey]
  have hnz : ez.norm = 1 := by simp [V3.norm, ez]
  have hd1 : V3.norm (⟨0, 0, s⟩ - ez) = |s - 1| := by simp [V3.norm, ez, Real.sqrt_mul_self_eq_abs]
  have hd2 : V3.norm (⟨0, 0, s⟩ + ez) = |s + 1| := by simp [V3.norm, ez, Real.sqrt_mul_self_eq_abs]
  have hor : (|s - 1| < t ∨ |s + 1| < t) ↔ 0 < t := by
    constructor
    · rintro (h | h) <;> exact (abs_nonneg _).trans_lt h
    · intro h; rcases hs with rfl | rfl
      · left; simpa using h
      · right; simpa using h
  have e : quadAt t pi pj pk pl = if 0 < t then
      byNormalAt t ⟨(pi.x + pj.x + pk.x + pl.x) / 4, (pi.y + pj.y + pk.y + pl.y) / 4, (pi.z + pj.z + pk.z + pl.z) / 4⟩ ⟨0, 0, s⟩ ey else
      byNormalAt t ⟨(pi.x + pj.x + pk.x + pl.x) / 4, (pi.y + pj.y + pk.y + pl.y) / 4, (pi.z + pj.z + pk.z + pl.z) / 4⟩ ⟨0, 0, s⟩ ez := by
    unfold quadAt
    simp only
    rw [hn, if_neg (by rw [hnorm]; exact hkp.ne'), hu, hd1, hd2]
    simp only [hor]
  have hnone : t ≤ 0 → quadAt t pi pj pk pl = .ok none := by
    intro h
    rw [e, if_neg (not_lt.mpr h)]
    unfold byNormalAt
    rw [if_neg (by rw [hn1, hnz]; norm_num)]
    simp only
    rw [hes, hez, hd1, hd2, if_neg (by rw [hor]; exact not_lt.mpr h), if_pos]
    rw [V3.norm_eq_zero_iff]
    ext <;> simp [V3.cross, ez]
  refine ⟨?_, hnone⟩
  by_cases h : t ≤ 0
  · rw [hnone h]
    exact ⟨fun ⟨c, hc⟩ => by simp at hc, fun h' => absurd h'.1 (not_lt.mpr h)⟩
  · have hp := not_le.mp h
    rw [e, if_pos hp]
    unfold byNormalAt
    rw [if_neg (by rw [hn1, hny]; norm_num)]
    simp only
    have hy1 : V3.norm (⟨0, 0, s⟩ - ey) = Real.sqrt 2 := by
      simp only [V3.norm, ey, V3.sub_def]
      congr 1; nlinarith
    have hy2 : V3.norm (⟨0, 0, s⟩ + ey) = Real.sqrt 2 := by
      simp only [V3.norm, ey, V3.add_def]
      congr 1; nlinarith
    have h12 : (1 : ℝ) ≤ Real.sqrt 2 := by rw [Real.one_le_sqrt]; norm_num
    have hc : V3.cross ey ⟨0, 0, s⟩ = ⟨s, 0, 0⟩ := by ext <;> simp [V3.cross, ey]
    have hcu : V3.unit ⟨s, 0, 0⟩ = ⟨s, 0, 0⟩ := V3.unit_of_dot_one (by simp [V3.dot, hss])
    have hv : V3.cross ⟨0, 0, s⟩ ⟨s, 0, 0⟩ = ⟨0, 1, 0⟩ := by ext <;> simp [V3.cross, hss]
    rw [hes, hey, hy1, hy2, hc, hcu, hv]
    have hcn : (⟨s, 0, 0⟩ : V3).norm ≠ 0 := by simp [V3.norm, hss]
    rw [if_neg hcn]
    have hcr : ∀ O : V3, V3.cross (O + ⟨s, 0, 0⟩ - O) (O + ⟨0, 1, 0⟩ - O) = ⟨0, 0, s⟩ := by
      intro O; ext <;> simp [V3.cross]
    have hma : (⟨0, 0, s⟩ : V3).maxAbs = 1 := by
      rcases hs with rfl | rfl <;> simp [V3.maxAbs]
    by_cases h1t : t ≤ 1
    · rw [if_neg (fun h' => h'.elim (not_lt.mpr (h1t.trans h12)) (not_lt.mpr (h1t.trans h12))), cartesian_made, hcr, hma]
      exact ⟨fun _ => ⟨hp, h1t⟩, fun _ => ⟨h1t, fun h0 => by rw [h0] at hn1; simp [V3.norm] at hn1⟩⟩
    · refine ⟨fun hm => ?_, fun h' => absurd h'.2 h1t⟩
      split at hm
      · obtain ⟨c, hc⟩ := hm; simp at hc
      · rw [cartesian_made, hcr, hma] at hm; exact absurd hm.1 h1t

/-- a vertical beam of 3 m and a slab with the default tolerance -/
example : Made (lineAt Tolerances.default.abs ⟨0, 0, 0⟩ ⟨0, 0, 3⟩) ∧
    Made (quadAt Tolerances.default.abs ⟨0, 0, 0⟩ ⟨1, 0, 0⟩ ⟨1, 1, 0⟩ ⟨0, 1, 0⟩) ∧
    (Tolerances.default.run [.setAbs 1, .setRel 2, .setAbs 3, .setRel 4]).abs = 3 := by
  refine ⟨(C170_beam_partial _ (by norm_num [Tolerances.default]) _ _).mpr (Or.inl ⟨?_, ?_⟩),
    (C170_slab_partial _ ⟨0, 0, 0⟩ ⟨1, 0, 0⟩ ⟨1, 1, 0⟩ ⟨0, 1, 0⟩ rfl rfl (by norm_num)).1.mpr ⟨?_, ?_⟩, ?_⟩
  · norm_num [sideways, Tolerances.default]
  · norm_num [Tolerances.default, abs_of_pos]
  · norm_num [Tolerances.default]
  · norm_num [Tolerances.default]
  · rw [C170_setting]; rfl

end Hyperstatic
