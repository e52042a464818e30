import Verif.Props.FrameLaws

namespace Hyperstatic
open Matrix Spec

theorem lineCsys_acceptable {p q : V3} {c : Csys} (h : lineCsys p q = .ok c) : Acceptable p q := by
  by_contra hn
  obtain ⟨e, he⟩ := (lineCsys_error_iff p q).mpr hn
  rw [h] at he
  cases he

/-- the local axes of a beam along x -/
theorem flat_frame {p q : V3} {c : Csys} {l : ℝ} (hc : lineCsys p q = .ok c) (hl : 0 < l) (hd : q - p = ⟨l, 0, 0⟩) :
    (beamFrame p q).x = ⟨1, 0, 0⟩ ∧ (beamFrame p q).y = ⟨0, 0, 1⟩ ∧ (beamFrame p q).z = ⟨0, -1, 0⟩ := by
  have hz : q.z - p.z = 0 := congrArg V3.z hd
  have hu : ¬ Upright p q := by
    intro hu
    unfold Upright at hu
    have := absTol_pos
    rcases lineCsys_acceptable hc with ⟨_, h⟩ | h
    · rw [hz, abs_zero] at h; linarith
    · linarith
  have e1 : (q - p).unit = ⟨1, 0, 0⟩ := by
    rw [hd, show (⟨l, 0, 0⟩ : V3) = l • ⟨1, 0, 0⟩ by ext <;> simp, V3.unit_smul_pos hl, V3.unit_of_dot_one (by norm_num [V3.dot])]
  have hz : (beamFrame p q).z = ⟨0, -1, 0⟩ := by
    unfold Upright at hu
    unfold beamFrame
    simp only
    rw [if_neg hu, e1, show V3.cross ⟨1, 0, 0⟩ ⟨0, 0, 1⟩ = (⟨0, -1, 0⟩ : V3) by ext <;> simp [V3.cross], V3.unit_of_dot_one (by norm_num [V3.dot])]
  refine ⟨e1, ?_, hz⟩
  show (beamFrame p q).z.cross (q - p).unit = _
  rw [hz, e1]
  ext <;> simp [V3.cross]

theorem flat_len {g : GivenBeam} {l : ℝ} (hl : 0 < l) (hd : g.q - g.p = ⟨l, 0, 0⟩) : g.len = l := by
  unfold GivenBeam.len V3.norm
  rw [hd]
  simp only [mul_zero, add_zero]
  exact Real.sqrt_mul_self hl.le

theorem flat_ends {f : Csys} (h : f.x = ⟨1, 0, 0⟩ ∧ f.y = ⟨0, 0, 1⟩ ∧ f.z = ⟨0, -1, 0⟩) (a b : Vec 6) :
    localEnds f a b = ![a 0, a 2, -a 1, a 3, a 5, -a 4, b 0, b 2, -b 1, b 3, b 5, -b 4] := by
  obtain ⟨h1, h2, h3⟩ := h
  unfold localEnds
  simp only [h1, h2, h3, V3.dot, Spec.trans, Spec.rot, zero_mul, one_mul, add_zero, zero_add, neg_mul]

/-- the answer of the beam on two supports: `w` deflections, `φ` slopes -/
structure SpanAnswer where
  x : ℝ
  wy : ℝ
  wz : ℝ
  r : ℝ
  φy : Fin 3 → ℝ
  φz : Fin 3 → ℝ

def SpanAnswer.s (d : SpanAnswer) : Vec 6 := ![0, 0, 0, 0, -d.φz 0, d.φy 0]
def SpanAnswer.k (d : SpanAnswer) : Vec 6 := ![d.x, d.wy, d.wz, d.r, -d.φz 1, d.φy 1]
def SpanAnswer.t (d : SpanAnswer) : Vec 6 := ![d.x, 0, 0, d.r, -d.φz 2, d.φy 2]

/-- deflection under the load and the three slopes -/
noncomputable def spanDefl (F a b EI : ℝ) : ℝ := F * a ^ 2 * b ^ 2 / (3 * EI * (a + b))
noncomputable def spanSlope (F a b EI : ℝ) : Fin 3 → ℝ :=
  ![F * b * ((a + b) ^ 2 - b ^ 2) / (6 * (a + b) * EI), F * a * b * (b - a) / (3 * (a + b) * EI), -(F * a * ((a + b) ^ 2 - a ^ 2) / (6 * (a + b) * EI))]

theorem span_bend {a b EI F : ℝ} (ha : 0 < a) (hb : 0 < b) (hE : EI ≠ 0) (p q r w : ℝ) :
    bendWork EI a (spanSlope F a b EI 0 - (spanDefl F a b EI - 0) / a) (spanSlope F a b EI 1 - (spanDefl F a b EI - 0) / a) (p - (w - 0) / a) (q - (w - 0) / a) +
    bendWork EI b (spanSlope F a b EI 1 - (0 - spanDefl F a b EI) / b) (spanSlope F a b EI 2 - (0 - spanDefl F a b EI) / b) (q - (0 - w) / b) (r - (0 - w) / b) =
      F * w := by
  have hL : a + b ≠ 0 := by positivity
  unfold bendWork spanSlope spanDefl
  simp only [cons_val_zero, cons_val_one, cons_val]
  field_simp
  ring

theorem span_work {c : BeamConsts} {e f : Csys} {a b : ℝ} (ha : 0 < a) (hb : 0 < b)
    (he : e.x = ⟨1, 0, 0⟩ ∧ e.y = ⟨0, 0, 1⟩ ∧ e.z = ⟨0, -1, 0⟩) (hf : f.x = ⟨1, 0, 0⟩ ∧ f.y = ⟨0, 0, 1⟩ ∧ f.z = ⟨0, -1, 0⟩)
    (hA : c.E * c.A ≠ 0) (hJ : c.G * c.J ≠ 0) (hi : c.E * c.I3 ≠ 0) (hj : c.E * c.I2 ≠ 0) (F : V3) (M : ℝ) {d : SpanAnswer}
    (hx : d.x = F.x * a / (c.E * c.A)) (hr : d.r = M * a / (c.G * c.J))
    (hy : d.wy = spanDefl F.y a b (c.E * c.I2)) (hz : d.wz = spanDefl F.z a b (c.E * c.I3))
    (hφy : d.φy = spanSlope F.y a b (c.E * c.I2)) (hφz : d.φz = spanSlope F.z a b (c.E * c.I3)) (vs vk vt : Vec 6)
    (v0 : vs 0 = 0) (v1 : vs 1 = 0) (v2 : vs 2 = 0) (v3 : vs 3 = 0) (v4 : vt 1 = 0) (v5 : vt 2 = 0) :
    beamWork c a (localEnds e vs vk) (localEnds e d.s d.k) + beamWork c b (localEnds f vk vt) (localEnds f d.k d.t) =
      F.x * vk 0 + F.y * vk 1 + F.z * vk 2 + M * vk 3 := by
  rw [flat_ends he, flat_ends he, flat_ends hf, flat_ends hf]
  have e1 := span_bend (F := F.z) ha hb hi (-vs 4) (-vk 4) (-vt 4) (vk 2)
  have e2 := span_bend (F := F.y) ha hb hj (vs 5) (vk 5) (vt 5) (vk 1)
  rw [← hφz, ← hz] at e1
  rw [← hφy, ← hy] at e2
  have e3 : vk 0 * (c.E * c.A / a * d.x) = F.x * vk 0 := by
    rw [hx]
    generalize c.E * c.A = k at *
    field_simp
  have e4 : vk 3 * (c.G * c.J / a * d.r) = M * vk 3 := by
    rw [hr]
    generalize c.G * c.J = k at *
    field_simp
  rw [← e3, ← e4]
  unfold beamWork SpanAnswer.s SpanAnswer.k SpanAnswer.t
  simp only [cons_val_zero, cons_val_one, cons_val, v0, v1, v2, v3, v4, v5]
  simp only [bendWork] at e1 e2 ⊢
  linear_combination e1 + e2

/-- no free motion: a beam on these supports that stores no energy does not move -/
theorem span_rest {c : BeamConsts} {e f : Csys} {a b : ℝ} (ha : 0 < a) (hb : 0 < b)
    (he : e.x = ⟨1, 0, 0⟩ ∧ e.y = ⟨0, 0, 1⟩ ∧ e.z = ⟨0, -1, 0⟩) (hf : f.x = ⟨1, 0, 0⟩ ∧ f.y = ⟨0, 0, 1⟩ ∧ f.z = ⟨0, -1, 0⟩)
    (hA : 0 < c.E * c.A) (hJ : 0 < c.G * c.J) (hi : 0 < c.E * c.I3) (hj : 0 < c.E * c.I2) (vs vk vt : Vec 6)
    (v0 : vs 0 = 0) (v1 : vs 1 = 0) (v2 : vs 2 = 0) (v3 : vs 3 = 0) (v4 : vt 1 = 0) (v5 : vt 2 = 0)
    (h : beamWork c a (localEnds e vs vk) (localEnds e vs vk) + beamWork c b (localEnds f vk vt) (localEnds f vk vt) = 0) :
    vs = 0 ∧ vk = 0 ∧ vt = 0 := by
  have n1 := C30_nonneg c a ha hA.le hJ.le hi.le hj.le (localEnds e vs vk)
  have n2 := C30_nonneg c b hb hA.le hJ.le hi.le hj.le (localEnds f vk vt)
  rw [← beamK_bilin c ha.ne', ← beamK_bilin c hb.ne'] at h
  have z1 : localEnds e vs vk ⬝ᵥ (beamK c a *ᵥ localEnds e vs vk) = 0 := by linarith
  have z2 : localEnds f vk vt ⬝ᵥ (beamK c b *ᵥ localEnds f vk vt) = 0 := by linarith
  obtain ⟨t, ω, a0, a1, a2, a3, a4, a5, a6, a7, a8, a9, a10, a11⟩ := ((C30_rigid_modes c a ha hA hJ hi hj _).1).mp z1
  obtain ⟨t', ω', b0, b1, b2, b3, b4, b5, b6, b7, b8, b9, b10, b11⟩ := ((C30_rigid_modes c b hb hA hJ hi hj _).1).mp z2
  rw [flat_ends he] at a0 a1 a2 a3 a4 a5 a6 a7 a8 a9 a10 a11
  rw [flat_ends hf] at b0 b1 b2 b3 b4 b5 b6 b7 b8 b9 b10 b11
  simp only [cons_val_zero, cons_val_one, cons_val, V3.cross, V3.add_def] at a0 a1 a2 a3 a4 a5 a6 a7 a8 a9 a10 a11 b0 b1 b2 b3 b4 b5 b6 b7 b8 b9 b10 b11
  rw [v0] at a0
  rw [v2] at a1
  rw [v1] at a2
  rw [v3] at a3
  rw [v5] at b7
  rw [v4] at b8
  have hL : a + b ≠ 0 := by positivity
  have w3 : ω.x = 0 := a3.symm
  have y1 : ω'.y = ω.y := by rw [← b4, ← a10]
  have y2 : ω'.z = ω.z := by rw [← b5, ← a11]
  have tz : t'.y = ω.z * a := by rw [← b1, a7, ← a1]; ring
  have ty : t'.z = -(ω.y * a) := by rw [← b2, a8, ← a2, neg_zero]; ring
  have wz : ω.z = 0 := by
    have : ω.z * (a + b) = 0 := by rw [tz, y2] at b7; linear_combination -b7
    exact (mul_eq_zero.mp this).resolve_right hL
  have wy : ω.y = 0 := by
    have : ω.y * (a + b) = 0 := by rw [ty, y1] at b8; linear_combination b8
    exact (mul_eq_zero.mp this).resolve_right hL
  have k0 : vk 0 = 0 := by rw [a6, ← a0, wy, wz]; ring
  have k2 : vk 2 = 0 := by rw [a7, ← a1, w3, wz]; ring
  have k1 : vk 1 = 0 := by
    have : -vk 1 = 0 := by rw [a8, ← a2, w3, wy]; ring
    linarith
  have k3 : vk 3 = 0 := by rw [a9, w3]
  have k5 : vk 5 = 0 := by rw [a10, wy]
  have k4 : vk 4 = 0 := by rw [wz] at a11; linarith
  have s5 : vs 5 = 0 := by rw [a4, wy]
  have s4 : vs 4 = 0 := by rw [wz] at a5; linarith
  have t3 : vt 3 = 0 := by rw [b9, ← b3, k3]
  have t5 : vt 5 = 0 := by rw [b10, y1, wy]
  have t4 : vt 4 = 0 := by rw [y2, wz] at b11; linarith
  have t0 : vt 0 = 0 := by rw [b6, ← b0, k0, y1, y2, wy, wz]; ring
  refine ⟨?_, ?_, ?_⟩ <;> funext i <;> fin_cases i <;> assumption

end Hyperstatic
