import Verif.Props.Element
import Mathlib.Tactic.FieldSimp

/-!
# C156 The consistent mass matrix of a beam

`integrate_M(consistent=True)` of a beam.  The specification is that of C31: the fields `Fields l d u w2 w3 θ` along the beam
whose end components are the twelve numbers `d` (here velocities).
-/

namespace Hyperstatic
open Spec Matrix

/-- C156, the property: `dᵀ M d` is the integral along the beam of mass per length times squared velocities, with `rho J` for
the spin about the axis. -/
def C156_claim : Prop := ∀ (c : BeamConsts) (l : ℝ), 0 < l → 0 < c.A → ∀ (d : Vec 12) (u w2 w3 θ : ℝ → ℝ), Fields l d u w2 w3 θ →
  d ⬝ᵥ (beamMConsistent c l *ᵥ d) = ∫ x in (0:ℝ)..l,
    (c.rho * c.A * (u x ^ 2 + w2 x ^ 2 + w3 x ^ 2) + c.rho * c.J * θ x ^ 2)

/-- the integral of a polynomial of degree six -/
theorem integral_sextic (a0 a1 a2 a3 a4 a5 a6 l : ℝ) :
    ∫ x in (0:ℝ)..l, (a0 + a1 * x + a2 * x ^ 2 + a3 * x ^ 3 + a4 * x ^ 4 + a5 * x ^ 5 + a6 * x ^ 6) =
      a0 * l + a1 * l ^ 2 / 2 + a2 * l ^ 3 / 3 + a3 * l ^ 4 / 4 + a4 * l ^ 5 / 5 + a5 * l ^ 6 / 6 + a6 * l ^ 7 / 7 := by
  have h : ∀ x ∈ Set.uIcc 0 l, HasDerivAt
      (fun x : ℝ => a0 * x + a1 * x ^ 2 / 2 + a2 * x ^ 3 / 3 + a3 * x ^ 4 / 4 + a4 * x ^ 5 / 5 + a5 * x ^ 6 / 6 + a6 * x ^ 7 / 7)
      (a0 + a1 * x + a2 * x ^ 2 + a3 * x ^ 3 + a4 * x ^ 4 + a5 * x ^ 5 + a6 * x ^ 6) x := by
    intro x _
    have := (((((((hasDerivAt_id x).const_mul a0).add (((hasDerivAt_pow 2 x).const_mul a1).div_const 2)).add
      (((hasDerivAt_pow 3 x).const_mul a2).div_const 3)).add (((hasDerivAt_pow 4 x).const_mul a3).div_const 4)).add
      (((hasDerivAt_pow 5 x).const_mul a4).div_const 5)).add (((hasDerivAt_pow 6 x).const_mul a5).div_const 6)).add
      (((hasDerivAt_pow 7 x).const_mul a6).div_const 7)
    refine this.congr_deriv ?_
    push_cast
    ring
  rw [intervalIntegral.integral_eq_sub_of_hasDerivAt h (Continuous.intervalIntegrable (by fun_prop) _ _)]
  ring

/-- What the matrix gives for every motion: the integral, less a sixth of the mass times the product of the axial velocities of
the two ends, because entry (6,0) is never set. -/
theorem C156_actual (c : BeamConsts) (l : ℝ) (hl : 0 < l) (hA : 0 < c.A) (d : Vec 12) (u w2 w3 θ : ℝ → ℝ)
    (h : Fields l d u w2 w3 θ) :
    d ⬝ᵥ (beamMConsistent c l *ᵥ d) = (∫ x in (0:ℝ)..l,
      (c.rho * c.A * (u x ^ 2 + w2 x ^ 2 + w3 x ^ 2) + c.rho * c.J * θ x ^ 2)) - c.rho * c.A * l / 6 * (d 0 * d 6) := by
  obtain ⟨u0, u1, a0, a1, a2, a3, b0, b1, b2, b3, t0, t1, rfl, rfl, rfl, rfl, h0, h6, h3, h9, h1, h5, h7, h11, h2, h4, h8,
    h10⟩ := Fields.coeffs h
  have e : (fun x : ℝ => c.rho * c.A * ((u0 + u1 * x) ^ 2 + (a0 + a1 * x + a2 * x ^ 2 + a3 * x ^ 3) ^ 2 +
        (b0 + b1 * x + b2 * x ^ 2 + b3 * x ^ 3) ^ 2) + c.rho * c.J * (t0 + t1 * x) ^ 2) =
      fun x => (c.rho * c.A * (u0 ^ 2 + a0 ^ 2 + b0 ^ 2) + c.rho * c.J * t0 ^ 2) +
        (2 * (c.rho * c.A * (u0 * u1 + a0 * a1 + b0 * b1) + c.rho * c.J * (t0 * t1))) * x +
        (c.rho * c.A * (u1 ^ 2 + a1 ^ 2 + 2 * a0 * a2 + b1 ^ 2 + 2 * b0 * b2) + c.rho * c.J * t1 ^ 2) * x ^ 2 +
        (2 * c.rho * c.A * (a0 * a3 + a1 * a2 + b0 * b3 + b1 * b2)) * x ^ 3 +
        (c.rho * c.A * (a2 ^ 2 + 2 * a1 * a3 + b2 ^ 2 + 2 * b1 * b3)) * x ^ 4 +
        (2 * c.rho * c.A * (a2 * a3 + b2 * b3)) * x ^ 5 + (c.rho * c.A * (a3 ^ 2 + b3 ^ 2)) * x ^ 6 := by
    funext x; ring
  rw [e, integral_sextic]
  unfold beamMConsistent
  rw [Matrix.smul_mulVec, dotProduct_smul, ofTriplets_bilin]
  simp only [beamMConsistentData, List.map_cons, List.map_nil, List.sum_cons, List.sum_nil, smul_eq_mul]
  rw [h0, h1, h2, h3, h4, h5, h6, h7, h8, h9, h10, h11]
  have hA' := hA.ne'
  field_simp
  ring

/-- C156 is false: a beam whose ends move along it with the same velocity has five sixths of its mass. -/
theorem C156_false : ¬ C156_claim := by
  intro h
  obtain ⟨u, w2, w3, θ, hf⟩ := C31_fields_exist 1 one_pos ![1, 0, 0, 0, 0, 0, 1, 0, 0, 0, 0, 0]
  have h1 := h ⟨1, 1, 1, 1, 1, 1, 1⟩ 1 one_pos one_pos _ u w2 w3 θ hf
  rw [C156_actual _ 1 one_pos one_pos _ u w2 w3 θ hf] at h1
  simp at h1

/-- C156 for motions where one end has no axial velocity.  Missing: all others (`C156_actual`, `C156_false`). -/
theorem C156_partial (c : BeamConsts) (l : ℝ) (hl : 0 < l) (hA : 0 < c.A) (d : Vec 12) (u w2 w3 θ : ℝ → ℝ)
    (h : Fields l d u w2 w3 θ) (h0 : d 0 = 0 ∨ d 6 = 0) :
    d ⬝ᵥ (beamMConsistent c l *ᵥ d) = ∫ x in (0:ℝ)..l,
      (c.rho * c.A * (u x ^ 2 + w2 x ^ 2 + w3 x ^ 2) + c.rho * c.J * θ x ^ 2) := by
  rw [C156_actual c l hl hA d u w2 w3 θ h]
  rcases h0 with h0 | h0 <;> rw [h0] <;> ring

/-- a swaying beam meets the hypotheses -/
example : ∃ u w2 w3 θ, Fields 4 ![0, 1, 0, 0, 0, 2, 0, 3, 0, 0, 1, 0] u w2 w3 θ := C31_fields_exist 4 (by norm_num) _

/-- A translation with velocity `s` across the beam moves the whole mass, one along it five sixths of it. -/
theorem C156_translations (c : BeamConsts) (l s : ℝ) :
    ![s, 0, 0, 0, 0, 0, s, 0, 0, 0, 0, 0] ⬝ᵥ (beamMConsistent c l *ᵥ ![s, 0, 0, 0, 0, 0, s, 0, 0, 0, 0, 0]) =
      5 / 6 * (c.rho * c.A * l) * s ^ 2 ∧
    ![0, s, 0, 0, 0, 0, 0, s, 0, 0, 0, 0] ⬝ᵥ (beamMConsistent c l *ᵥ ![0, s, 0, 0, 0, 0, 0, s, 0, 0, 0, 0]) =
      c.rho * c.A * l * s ^ 2 ∧
    ![0, 0, s, 0, 0, 0, 0, 0, s, 0, 0, 0] ⬝ᵥ (beamMConsistent c l *ᵥ ![0, 0, s, 0, 0, 0, 0, 0, s, 0, 0, 0]) =
      c.rho * c.A * l * s ^ 2 := by
  unfold beamMConsistent
  refine ⟨?_, ?_, ?_⟩ <;>
  · rw [Matrix.smul_mulVec, dotProduct_smul, ofTriplets_bilin]
    simp [beamMConsistentData]
    ring

/-- the energy of a bent beam as a sum of squares; `t`, `s` are the end slopes times the length -/
theorem bent_mass (a t b s : ℝ) :
    156 * a ^ 2 + 44 * a * t + 108 * a * b - 26 * a * s + 4 * t ^ 2 + 26 * t * b - 6 * t * s + 156 * b ^ 2 - 44 * b * s + 4 * s ^ 2 =
      420 * ((a / 2 + t / 12 + b / 2 - s / 12) ^ 2 + (-3 / 5 * a - t / 20 + 3 / 5 * b - s / 20) ^ 2 / 3 +
        (-t / 12 + s / 12) ^ 2 / 5 + (a / 10 + t / 20 - b / 10 + s / 20) ^ 2 / 7) := by
  ring

theorem bent_mass_pos {a t b s : ℝ} (h : ¬ (a = 0 ∧ t = 0 ∧ b = 0 ∧ s = 0)) :
    0 < 156 * a ^ 2 + 44 * a * t + 108 * a * b - 26 * a * s + 4 * t ^ 2 + 26 * t * b - 6 * t * s + 156 * b ^ 2 - 44 * b * s + 4 * s ^ 2 := by
  rw [bent_mass]
  by_contra hn
  apply h
  have q0 := sq_nonneg (a / 2 + t / 12 + b / 2 - s / 12)
  have q1 := sq_nonneg (-3 / 5 * a - t / 20 + 3 / 5 * b - s / 20)
  have q2 := sq_nonneg (-t / 12 + s / 12)
  have q3 := sq_nonneg (a / 10 + t / 20 - b / 10 + s / 20)
  have z0 := pow_eq_zero_iff (two_ne_zero) |>.mp (le_antisymm (by linarith) q0)
  have z1 := pow_eq_zero_iff (two_ne_zero) |>.mp (le_antisymm (by linarith) q1)
  have z2 := pow_eq_zero_iff (two_ne_zero) |>.mp (le_antisymm (by linarith) q2)
  have z3 := pow_eq_zero_iff (two_ne_zero) |>.mp (le_antisymm (by linarith) q3)
  refine ⟨?_, ?_, ?_, ?_⟩ <;> linarith

theorem axial_mass_pos {a b : ℝ} (h : ¬ (a = 0 ∧ b = 0)) : 0 < 140 * a ^ 2 + 70 * a * b + 140 * b ^ 2 := by
  rcases not_and_or.mp h with k | k
  · nlinarith [sq_nonneg (a + b), sq_nonneg b, sq_pos_of_ne_zero k]
  · nlinarith [sq_nonneg (a + b), sq_nonneg a, sq_pos_of_ne_zero k]

theorem spin_mass_pos {a b : ℝ} (h : ¬ (a = 0 ∧ b = 0)) : 0 < 140 * (a ^ 2 + a * b + b ^ 2) := by
  rcases not_and_or.mp h with k | k
  · nlinarith [sq_nonneg (a + b), sq_nonneg b, sq_pos_of_ne_zero k]
  · nlinarith [sq_nonneg (a + b), sq_nonneg a, sq_pos_of_ne_zero k]

theorem nonneg_of_pos_or {p : Prop} {x : ℝ} (h : ¬ p → 0 < x) (h' : p → x = 0) : 0 ≤ x := by
  by_cases q : p
  · exact (h' q).ge
  · exact (h q).le

theorem masses_pos {k x0 x6 x3 x9 x1 t x7 s x2 t' x8 s' : ℝ} (hk : 0 < k)
    (h : ¬ ((x0 = 0 ∧ x6 = 0) ∧ (x3 = 0 ∧ x9 = 0) ∧ (x1 = 0 ∧ t = 0 ∧ x7 = 0 ∧ s = 0) ∧ (x2 = 0 ∧ t' = 0 ∧ x8 = 0 ∧ s' = 0))) :
    0 < (140 * x0 ^ 2 + 70 * x0 * x6 + 140 * x6 ^ 2) + k * (140 * (x3 ^ 2 + x3 * x9 + x9 ^ 2)) +
        (156 * x1 ^ 2 + 44 * x1 * t + 108 * x1 * x7 - 26 * x1 * s + 4 * t ^ 2 + 26 * t * x7 -
          6 * t * s + 156 * x7 ^ 2 - 44 * x7 * s + 4 * s ^ 2) +
        (156 * x2 ^ 2 + 44 * x2 * t' + 108 * x2 * x8 - 26 * x2 * s' + 4 * t' ^ 2 + 26 * t' * x8 -
          6 * t' * s' + 156 * x8 ^ 2 - 44 * x8 * s' + 4 * s' ^ 2) := by
  have p1 := @axial_mass_pos x0 x6
  have p2 := @spin_mass_pos x3 x9
  have p3 := @bent_mass_pos x1 t x7 s
  have p4 := @bent_mass_pos x2 t' x8 s'
  have n1 := nonneg_of_pos_or p1 (by rintro ⟨rfl, rfl⟩; ring)
  have n2 := mul_nonneg hk.le (nonneg_of_pos_or p2 (by rintro ⟨rfl, rfl⟩; ring))
  have n3 := nonneg_of_pos_or p3 (by rintro ⟨rfl, rfl, rfl, rfl⟩; ring)
  have n4 := nonneg_of_pos_or p4 (by rintro ⟨rfl, rfl, rfl, rfl⟩; ring)
  rcases not_and_or.mp h with q | q
  · linarith [p1 q]
  rcases not_and_or.mp q with q | q
  · linarith [mul_pos hk (p2 q)]
  rcases not_and_or.mp q with q | q
  · linarith [p3 q]
  · linarith [p4 q]

/-- For positive density, area and torsion constant every motion but rest has positive kinetic energy. -/
theorem C156_positive (c : BeamConsts) (l : ℝ) (hl : 0 < l) (hr : 0 < c.rho) (hA : 0 < c.A) (hJ : 0 < c.J) (d : Vec 12) (hd : d ≠ 0) :
    0 < d ⬝ᵥ (beamMConsistent c l *ᵥ d) := by
  have hA' := hA.ne'
  have e : d ⬝ᵥ (beamMConsistent c l *ᵥ d) = c.rho * c.A * l / 420 *
      ((140 * d 0 ^ 2 + 70 * d 0 * d 6 + 140 * d 6 ^ 2) + c.J / c.A * (140 * (d 3 ^ 2 + d 3 * d 9 + d 9 ^ 2)) +
        (156 * d 1 ^ 2 + 44 * d 1 * (l * d 5) + 108 * d 1 * d 7 - 26 * d 1 * (l * d 11) + 4 * (l * d 5) ^ 2 + 26 * (l * d 5) * d 7 -
          6 * (l * d 5) * (l * d 11) + 156 * d 7 ^ 2 - 44 * d 7 * (l * d 11) + 4 * (l * d 11) ^ 2) +
        (156 * d 2 ^ 2 + 44 * d 2 * (-l * d 4) + 108 * d 2 * d 8 - 26 * d 2 * (-l * d 10) + 4 * (-l * d 4) ^ 2 + 26 * (-l * d 4) * d 8 -
          6 * (-l * d 4) * (-l * d 10) + 156 * d 8 ^ 2 - 44 * d 8 * (-l * d 10) + 4 * (-l * d 10) ^ 2)) := by
    unfold beamMConsistent
    rw [Matrix.smul_mulVec, dotProduct_smul, ofTriplets_bilin]
    simp only [beamMConsistentData, List.map_cons, List.map_nil, List.sum_cons, List.sum_nil, smul_eq_mul]
    ring
  rw [e]
  have hk : 0 < c.rho * c.A * l / 420 := by positivity
  have hj : 0 < c.J / c.A := by positivity
  have hl' := hl.ne'
  refine mul_pos hk ?_
  have hne : ¬ ((d 0 = 0 ∧ d 6 = 0) ∧ (d 3 = 0 ∧ d 9 = 0) ∧ (d 1 = 0 ∧ l * d 5 = 0 ∧ d 7 = 0 ∧ l * d 11 = 0) ∧
      (d 2 = 0 ∧ -l * d 4 = 0 ∧ d 8 = 0 ∧ -l * d 10 = 0)) := by
    rintro ⟨⟨a0, a6⟩, ⟨a3, a9⟩, ⟨a1, a5, a7, a11⟩, a2, a4, a8, a10⟩
    refine hd ?_
    have f5 := (mul_eq_zero.mp a5).resolve_left hl'
    have f11 := (mul_eq_zero.mp a11).resolve_left hl'
    have f4 := (mul_eq_zero.mp a4).resolve_left (neg_ne_zero.mpr hl')
    have f10 := (mul_eq_zero.mp a10).resolve_left (neg_ne_zero.mpr hl')
    funext i
    fin_cases i <;> assumption
  clear e hd
  generalize l * d 5 = t at *
  generalize l * d 11 = s at *
  generalize -l * d 4 = t' at *
  generalize -l * d 10 = s' at *
  generalize d 0 = x0 at *
  generalize d 6 = x6 at *
  generalize d 3 = x3 at *
  generalize d 9 = x9 at *
  generalize d 1 = x1 at *
  generalize d 7 = x7 at *
  generalize d 2 = x2 at *
  generalize d 8 = x8 at *
  exact masses_pos hj hne

/-- a steel pipe of three metres moving along its axis -/
example : 0 < (![1, 0, 0, 0, 0, 0, 1, 0, 0, 0, 0, 0] : Vec 12) ⬝ᵥ
    (beamMConsistent ⟨206e9, 80e9, 3e-3, 2e-6, 2e-6, 4e-6, 7850⟩ 3 *ᵥ ![1, 0, 0, 0, 0, 0, 1, 0, 0, 0, 0, 0]) :=
  C156_positive _ _ (by norm_num) (by norm_num) (by norm_num) (by norm_num) _ (fun h => one_ne_zero (congrFun h 0))

end Hyperstatic
