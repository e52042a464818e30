import Verif.Spec.Geometry
import Verif.Lemmas.Edit
import Mathlib.Tactic.Linarith
import Mathlib.Tactic.Ring
import Mathlib.Tactic.FieldSimp
import Mathlib.Tactic.LinearCombination

namespace Hyperstatic
open Spec

namespace V3

theorem norm_sq (a : V3) : a.norm * a.norm = a.dot a := by
  unfold norm dot
  exact Real.mul_self_sqrt (by nlinarith [mul_self_nonneg a.x, mul_self_nonneg a.y, mul_self_nonneg a.z])

theorem norm_nonneg (a : V3) : 0 ≤ a.norm := Real.sqrt_nonneg _

theorem norm_pos_iff (a : V3) : 0 < a.norm ↔ a ≠ 0 := by
  constructor
  · rintro h rfl
    simp [norm] at h
  · intro h
    apply lt_of_le_of_ne a.norm_nonneg
    intro h0
    apply h
    have := a.norm_sq
    rw [← h0] at this
    unfold dot at this
    have hx : a.x = 0 := by nlinarith [mul_self_nonneg a.x, mul_self_nonneg a.y, mul_self_nonneg a.z]
    have hy : a.y = 0 := by nlinarith [mul_self_nonneg a.x, mul_self_nonneg a.y, mul_self_nonneg a.z]
    have hz : a.z = 0 := by nlinarith [mul_self_nonneg a.x, mul_self_nonneg a.y, mul_self_nonneg a.z]
    ext <;> simp [hx, hy, hz]

theorem norm_eq_zero_iff (a : V3) : a.norm = 0 ↔ a = 0 := by
  have := a.norm_pos_iff
  have h0 := a.norm_nonneg
  constructor
  · intro h; by_contra hne; have := this.mpr hne; linarith
  · rintro rfl; simp [norm]

theorem norm_smul_unit {a : V3} (h : a ≠ 0) : a.norm • a.unit = a := by
  have hp := a.norm_pos_iff.mpr h
  ext <;> simp [unit] <;> field_simp

theorem unit_dot {a : V3} (h : a ≠ 0) : a.unit.dot a.unit = 1 := by
  have hp := a.norm_pos_iff.mpr h
  have hs := a.norm_sq
  unfold dot at hs
  unfold unit dot
  simp only
  field_simp
  linarith

theorem unit_of_dot_one {a : V3} (h : a.dot a = 1) : a.unit = a := by
  have hn : a.norm = 1 := by
    unfold norm; unfold dot at h; rw [h]; simp
  ext <;> simp [unit, hn]

theorem maxAbs_pos_of_not_lt {a : V3} (h : ¬ a.maxAbs < absTol) : a ≠ 0 := by
  rintro rfl
  apply h
  simp [maxAbs, absTol_pos]

theorem dot_cross_left (a b : V3) : a.dot (a.cross b) = 0 := by unfold dot cross; ring
theorem dot_cross_right (a b : V3) : b.dot (a.cross b) = 0 := by unfold dot cross; ring
theorem dot_comm (a b : V3) : a.dot b = b.dot a := by unfold dot; ring
theorem cross_dot_cross (a b : V3) : (a.cross b).dot (a.cross b) = a.dot a * b.dot b - a.dot b ^ 2 := by
  unfold dot cross; ring

end V3

/-- the two cross products used by the constructor give a right-handed system -/
theorem rightHanded_of (O x z : V3) (hx : x.dot x = 1) (hz : z.dot z = 1) (hzx : z.dot x = 0) :
    RightHanded ⟨O, x, z.cross x, z⟩ := by
  constructor
  · exact hx
  · show (z.cross x).dot (z.cross x) = 1
    rw [V3.cross_dot_cross, hx, hz, hzx]; norm_num
  · exact hz
  · show x.dot (z.cross x) = 0
    exact V3.dot_cross_right z x
  · show (z.cross x).dot z = 0
    rw [V3.dot_comm]; exact V3.dot_cross_left z x
  · exact hzx
  · show x.cross (z.cross x) = z
    unfold V3.dot at *
    ext <;> simp only [V3.cross]
    · linear_combination z.x * hx - x.x * hzx
    · linear_combination z.y * hx - x.y * hzx
    · linear_combination z.z * hx - x.z * hzx

theorem RightHanded.cross_yz {c : Csys} (h : RightHanded c) : c.y.cross c.z = c.x := by
  have h1 := h.yy
  have h2 := h.xy
  have h3 := h.hand
  rw [← h3]
  unfold V3.dot at *
  ext <;> simp only [V3.cross]
  · linear_combination c.x.x * h1 - c.y.x * h2
  · linear_combination c.x.y * h1 - c.y.y * h2
  · linear_combination c.x.z * h1 - c.y.z * h2

theorem RightHanded.cross_zx {c : Csys} (h : RightHanded c) : c.z.cross c.x = c.y := by
  have h1 := h.xx
  have h2 := h.xy
  have h3 := h.hand
  rw [← h3]
  unfold V3.dot at *
  ext <;> simp only [V3.cross]
  · linear_combination c.y.x * h1 - c.x.x * h2
  · linear_combination c.y.y * h1 - c.x.y * h2
  · linear_combination c.y.z * h1 - c.x.z * h2

theorem mk?_error_iff (O A B : V3) :
    (∃ e, Csys.mk? O A B = .error e) ↔ (V3.cross (A - O) (B - O)).maxAbs < absTol := by
  unfold Csys.mk?
  simp only
  split
  · rename_i h; exact ⟨fun _ => h, fun _ => ⟨_, rfl⟩⟩
  · rename_i h; exact ⟨fun ⟨e, he⟩ => by simp at he, fun h' => absurd h' h⟩

theorem mk?_ok {O A B : V3} {c : Csys} (h : Csys.mk? O A B = .ok c) :
    RightHanded c ∧ c.O = O ∧ A - O ≠ 0 ∧ (A - O).norm • c.x = A - O ∧
    c.z = (V3.cross (A - O) (B - O)).unit ∧ V3.cross (A - O) (B - O) ≠ 0 := by
  unfold Csys.mk? at h
  simp only at h
  split at h
  · simp at h
  · rename_i hne
    simp only [Except.ok.injEq] at h
    subst h
    have hc := V3.maxAbs_pos_of_not_lt hne
    have hA : A - O ≠ 0 := by
      intro h0
      apply hc
      rw [h0]
      ext <;> simp [V3.cross]
    refine ⟨rightHanded_of _ _ _ (V3.unit_dot hA) (V3.unit_dot hc) ?_, rfl, hA, V3.norm_smul_unit hA, rfl, hc⟩
    have h0 := V3.dot_cross_left (A - O) (B - O)
    have e1 : ∀ a b : V3, a.unit.dot b.unit = a.dot b / (a.norm * b.norm) := by
      intro a b; unfold V3.dot V3.unit; simp only; ring
    rw [e1, V3.dot_comm, h0, zero_div]

end Hyperstatic

namespace Hyperstatic
open Spec

namespace V3
theorem ext' {a b : V3} (h1 : a.x = b.x) (h2 : a.y = b.y) (h3 : a.z = b.z) : a = b := V3.ext h1 h2 h3

theorem norm_cross_ne_zero {w g : V3} (hw : w.dot w = 1) (hg : g.dot g = 1)
    (h1 : w - g ≠ 0) (h2 : w + g ≠ 0) : V3.cross g w ≠ 0 := by
  intro h0
  have hc := cross_dot_cross g w
  rw [h0, hw, hg] at hc
  have hz : (0 : V3).dot 0 = 0 := by simp [dot]
  rw [hz] at hc
  have hc' : g.dot w ^ 2 = 1 := by linarith
  have hsq : (g.dot w - 1) * (g.dot w + 1) = 0 := by nlinarith
  rcases mul_eq_zero.mp hsq with h | h
  · apply h1
    rw [← norm_eq_zero_iff]
    have : (w - g).norm * (w - g).norm = 0 := by
      rw [norm_sq]
      unfold dot at *
      simp only [V3.sub_def]
      nlinarith
    exact mul_self_eq_zero.mp this
  · apply h2
    rw [← norm_eq_zero_iff]
    have : (w + g).norm * (w + g).norm = 0 := by
      rw [norm_sq]
      unfold dot at *
      simp only [V3.add_def]
      nlinarith
    exact mul_self_eq_zero.mp this

theorem one_le_maxAbs {a : V3} (h : a.dot a = 1) : ¬ a.maxAbs < absTol := by
  intro hlt
  unfold maxAbs at hlt
  have ht := absTol_lt_one
  have h9 : absTol ≤ 1 / 2 := by norm_num [absTol]
  obtain ⟨h12, h3⟩ := max_lt_iff.mp hlt
  obtain ⟨h1, h2⟩ := max_lt_iff.mp h12
  unfold dot at h
  have b1 := abs_lt.mp (lt_of_lt_of_le h1 h9)
  have b2 := abs_lt.mp (lt_of_lt_of_le h2 h9)
  have b3 := abs_lt.mp (lt_of_lt_of_le h3 h9)
  nlinarith [b1.1, b1.2, b2.1, b2.2, b3.1, b3.2]

end V3

theorem createByNormal_cases (O n g : V3) (hn : n ≠ 0) (hg : g ≠ 0) :
    (V3.norm (n.unit - g.unit) < absTol ∨ V3.norm (n.unit + g.unit) < absTol →
      ∃ e, Csys.createByNormal O n g = .error e) ∧
    (¬ (V3.norm (n.unit - g.unit) < absTol ∨ V3.norm (n.unit + g.unit) < absTol) →
      ∃ c, Csys.createByNormal O n g = .ok (some c) ∧ RightHanded c ∧ c.O = O ∧ c.z = n.unit ∧ c.x.dot g = 0 ∧
        c.x = (V3.cross g.unit n.unit).unit) := by
  have hn' : ¬ (n.norm = 0 ∨ g.norm = 0) := by
    rw [V3.norm_eq_zero_iff, V3.norm_eq_zero_iff]; tauto
  constructor
  · intro h
    unfold Csys.createByNormal
    rw [if_neg hn']
    simp only
    rw [if_pos h]
    exact ⟨_, rfl⟩
  · intro h
    unfold Csys.createByNormal
    rw [if_neg hn']
    simp only
    rw [if_neg h]
    push Not at h
    have hw := V3.unit_dot hn
    have hgu := V3.unit_dot hg
    set w := n.unit with hwdef
    set γ := g.unit with hγdef
    have hc : V3.cross γ w ≠ 0 := by
      apply V3.norm_cross_ne_zero hw hgu
      · intro h0
        have := h.1; rw [h0, (V3.norm_eq_zero_iff _).mpr rfl] at this
        linarith [absTol_pos]
      · intro h0
        have := h.2; rw [h0, (V3.norm_eq_zero_iff _).mpr rfl] at this
        linarith [absTol_pos]
    have hu := V3.unit_dot hc
    have hucross : (V3.cross γ w).norm • (V3.cross γ w).unit = V3.cross γ w := V3.norm_smul_unit hc
    have hcp := (V3.norm_pos_iff _).mpr hc
    have huw : (V3.cross γ w).unit.dot w = 0 := by
      have : (V3.cross γ w).norm * ((V3.cross γ w).unit.dot w) = 0 := by
        have e := V3.dot_cross_right γ w
        rw [← hucross] at e
        rw [← e]
        unfold V3.dot; simp only [V3.smul_def]; ring
      exact (mul_eq_zero.mp this).resolve_left hcp.ne'
    have hug : (V3.cross γ w).unit.dot γ = 0 := by
      have : (V3.cross γ w).norm * ((V3.cross γ w).unit.dot γ) = 0 := by
        have e := V3.dot_cross_left γ w
        rw [← hucross] at e
        rw [← e]
        unfold V3.dot; simp only [V3.smul_def]; ring
      exact (mul_eq_zero.mp this).resolve_left hcp.ne'
    set u := (V3.cross γ w).unit with hudef
    have e1 : O + u - O = u := by ext <;> simp
    have e2 : O + V3.cross w u - O = V3.cross w u := by ext <;> simp
    have hcw : V3.cross u (V3.cross w u) = w := by
      unfold V3.dot at *
      ext <;> simp only [V3.cross]
      · linear_combination w.x * hu - u.x * huw
      · linear_combination w.y * hu - u.y * huw
      · linear_combination w.z * hu - u.z * huw
    have hok : Csys.mk? O (O + u) (O + V3.cross w u) = .ok ⟨O, u, V3.cross w u, w⟩ := by
      unfold Csys.mk?
      simp only [e1, e2, hcw]
      rw [if_neg (V3.one_le_maxAbs hw), V3.unit_of_dot_one hu, V3.unit_of_dot_one hw]
    rw [hok]
    refine ⟨_, rfl, rightHanded_of O u w hu hw (by rw [V3.dot_comm]; exact huw), rfl, rfl, ?_, rfl⟩
    have hgs := V3.norm_smul_unit hg
    rw [← hγdef] at hgs
    show u.dot g = 0
    rw [← hgs]
    have : u.dot (g.norm • γ) = g.norm * u.dot γ := by unfold V3.dot; simp only [V3.smul_def]; ring
    rw [this, hug, mul_zero]

/-! rotations -/

theorem quat_apply_eq (a : V3) (ha : a.dot a = 1) (θ : ℝ) (v : V3) :
    (Csys.axisQuat a θ).apply v = rotate a θ v := by
  have hsc := Real.sin_sq_add_cos_sq (θ / 2)
  have hn : Real.sqrt (a.x * Real.sin (θ / 2) * (a.x * Real.sin (θ / 2)) +
      a.y * Real.sin (θ / 2) * (a.y * Real.sin (θ / 2)) +
      a.z * Real.sin (θ / 2) * (a.z * Real.sin (θ / 2)) + Real.cos (θ / 2) * Real.cos (θ / 2)) = 1 := by
    have : a.x * Real.sin (θ / 2) * (a.x * Real.sin (θ / 2)) +
      a.y * Real.sin (θ / 2) * (a.y * Real.sin (θ / 2)) +
      a.z * Real.sin (θ / 2) * (a.z * Real.sin (θ / 2)) + Real.cos (θ / 2) * Real.cos (θ / 2) = 1 := by
      unfold V3.dot at ha
      linear_combination Real.sin (θ / 2) ^ 2 * ha + hsc
    rw [this, Real.sqrt_one]
  have hc : Real.cos θ = 1 - 2 * Real.sin (θ / 2) ^ 2 := by
    have := Real.cos_sq (θ / 2)
    have h2 : 2 * (θ / 2) = θ := by ring
    rw [h2] at this
    linarith
  have hs : Real.sin θ = 2 * Real.sin (θ / 2) * Real.cos (θ / 2) := by
    rw [← Real.sin_two_mul]; congr 1; ring
  unfold Csys.Quat.apply Csys.axisQuat rotate
  simp only [hn, div_one, hc, hs, V3.add_def, V3.smul_def, V3.cross, V3.dot]
  unfold V3.dot at ha
  generalize Real.sin (θ / 2) = s at *
  generalize Real.cos (θ / 2) = k at *
  obtain ⟨ax, ay, az⟩ := a
  simp only at *
  ext
  · simp only; linear_combination (-s ^ 2 * v.x) * ha + v.x * hsc
  · simp only; linear_combination (-s ^ 2 * v.y) * ha + v.y * hsc
  · simp only; linear_combination (-s ^ 2 * v.z) * ha + v.z * hsc

theorem rotate_dot (a : V3) (ha : a.dot a = 1) (θ : ℝ) (v w : V3) :
    (rotate a θ v).dot (rotate a θ w) = v.dot w := by
  have hsc := Real.sin_sq_add_cos_sq θ
  unfold rotate
  simp only [V3.add_def, V3.smul_def, V3.cross, V3.dot] at *
  generalize Real.sin θ = s at *
  generalize Real.cos θ = k at *
  linear_combination (s ^ 2 * (v.x * w.x + v.y * w.y + v.z * w.z) + (1 - k) ^ 2 *
      ((a.x * v.x + a.y * v.y + a.z * v.z) * (a.x * w.x + a.y * w.y + a.z * w.z))) * ha +
    ((v.x * w.x + v.y * w.y + v.z * w.z) -
      (a.x * v.x + a.y * v.y + a.z * v.z) * (a.x * w.x + a.y * w.y + a.z * w.z)) * hsc

theorem rotate_cross (a : V3) (ha : a.dot a = 1) (θ : ℝ) (v w : V3) :
    (rotate a θ v).cross (rotate a θ w) = rotate a θ (v.cross w) := by
  have hsc := Real.sin_sq_add_cos_sq θ
  unfold rotate
  simp only [V3.add_def, V3.smul_def, V3.cross, V3.dot] at *
  generalize Real.sin θ = s at *
  generalize Real.cos θ = k at *
  obtain ⟨ax, ay, az⟩ := a
  obtain ⟨v1, v2, v3⟩ := v
  obtain ⟨w1, w2, w3⟩ := w
  simp only at *
  ext
  · simp only
    linear_combination (k * (1 - k) * (v2 * w3 - v3 * w2) + s * (1 - k) *
        (ay * (v1 * w2 - v2 * w1) - az * (v3 * w1 - v1 * w3))) * ha +
      ax * (ax * (v2 * w3 - v3 * w2) + ay * (v3 * w1 - v1 * w3) + az * (v1 * w2 - v2 * w1)) * hsc
  · simp only
    linear_combination (k * (1 - k) * (v3 * w1 - v1 * w3) + s * (1 - k) *
        (az * (v2 * w3 - v3 * w2) - ax * (v1 * w2 - v2 * w1))) * ha +
      ay * (ax * (v2 * w3 - v3 * w2) + ay * (v3 * w1 - v1 * w3) + az * (v1 * w2 - v2 * w1)) * hsc
  · simp only
    linear_combination (k * (1 - k) * (v1 * w2 - v2 * w1) + s * (1 - k) *
        (ax * (v3 * w1 - v1 * w3) - ay * (v2 * w3 - v3 * w2))) * ha +
      az * (ax * (v2 * w3 - v3 * w2) + ay * (v3 * w1 - v1 * w3) + az * (v1 * w2 - v2 * w1)) * hsc

theorem rotateSys_rightHanded {a : V3} (ha : a.dot a = 1) (θ : ℝ) {c : Csys} (h : RightHanded c) :
    RightHanded (rotateSys a θ c) := by
  constructor
  all_goals simp only [rotateSys, rotate_dot a ha]
  · exact h.xx
  · exact h.yy
  · exact h.zz
  · exact h.xy
  · exact h.yz
  · exact h.zx
  · rw [rotate_cross a ha, h.hand]

theorem rotate_axis (a : V3) (ha : a.dot a = 1) (θ : ℝ) : rotate a θ a = a := by
  unfold rotate
  simp only [V3.add_def, V3.smul_def, V3.cross, ha]
  ext <;> simp only <;> ring

theorem rotate_back (a : V3) (ha : a.dot a = 1) (θ : ℝ) (v : V3) : rotate a (-θ) (rotate a θ v) = v := by
  have hsc := Real.sin_sq_add_cos_sq θ
  unfold rotate
  rw [Real.cos_neg, Real.sin_neg]
  simp only [V3.add_def, V3.smul_def, V3.cross, V3.dot] at *
  generalize Real.sin θ = s at *
  generalize Real.cos θ = k at *
  obtain ⟨ax, ay, az⟩ := a
  obtain ⟨v1, v2, v3⟩ := v
  simp only at *
  ext
  · simp only
    linear_combination (s ^ 2 * v1 + (1 - k) ^ 2 * ax * (ax * v1 + ay * v2 + az * v3)) * ha +
      (v1 - ax * (ax * v1 + ay * v2 + az * v3)) * hsc
  · simp only
    linear_combination (s ^ 2 * v2 + (1 - k) ^ 2 * ay * (ax * v1 + ay * v2 + az * v3)) * ha +
      (v2 - ay * (ax * v1 + ay * v2 + az * v3)) * hsc
  · simp only
    linear_combination (s ^ 2 * v3 + (1 - k) ^ 2 * az * (ax * v1 + ay * v2 + az * v3)) * ha +
      (v3 - az * (ax * v1 + ay * v2 + az * v3)) * hsc

end Hyperstatic
