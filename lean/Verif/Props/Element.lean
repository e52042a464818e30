import Verif.Lemmas.Element
import Verif.Model.Shell
import Verif.Lemmas.Geom

/-
Properties C30-C35, C43, C45, C50: element matrices, equivalent loads, releases.
-/

namespace Hyperstatic
open Spec Matrix

/-! ## C30 Beam stiffness matrix: symmetric, positive semidefinite, exactly six rigid modes -/

/-- The stiffness matrix is symmetric, and its virtual work is that of the slope-deflection equations, for all constants. -/
theorem C30_symmetric_work (c : BeamConsts) (l : ℝ) (hl : l ≠ 0) :
    (beamK c l)ᵀ = beamK c l ∧ ∀ v d : Vec 12, v ⬝ᵥ (beamK c l *ᵥ d) = beamWork c l v d :=
  ⟨beamK_symm c hl, beamK_bilin c hl⟩

/-- The energy is a sum of squares of elongation, twist and bending modes. -/
theorem C30_sum_of_squares (c : BeamConsts) (l : ℝ) (hl : l ≠ 0) (d : Vec 12) :
    d ⬝ᵥ (beamK c l *ᵥ d) =
      c.E * c.A / l * (d 6 - d 0) ^ 2 + c.G * c.J / l * (d 9 - d 3) ^ 2 +
      c.E * c.I3 / l * (3 * (d 5 + d 11 - 2 * (d 7 - d 1) / l) ^ 2 + (d 5 - d 11) ^ 2) +
      c.E * c.I2 / l * (3 * (d 4 + d 10 + 2 * (d 8 - d 2) / l) ^ 2 + (d 4 - d 10) ^ 2) := by
  rw [beamK_bilin c hl]
  unfold beamWork
  rw [bendWork_self, bendWork_self]
  ring

/-- With non-negative rigidities the energy is never negative. -/
theorem C30_nonneg (c : BeamConsts) (l : ℝ) (hl : 0 < l) (hA : 0 ≤ c.E * c.A) (hJ : 0 ≤ c.G * c.J)
    (h3 : 0 ≤ c.E * c.I3) (h2 : 0 ≤ c.E * c.I2) (d : Vec 12) : 0 ≤ d ⬝ᵥ (beamK c l *ᵥ d) := by
  rw [C30_sum_of_squares c l hl.ne']
  positivity

/-- With positive rigidities the states of zero energy are exactly the rigid motions, and these are also exactly the states
without any end force. -/
theorem C30_rigid_modes (c : BeamConsts) (l : ℝ) (hl : 0 < l) (hA : 0 < c.E * c.A) (hJ : 0 < c.G * c.J)
    (h3 : 0 < c.E * c.I3) (h2 : 0 < c.E * c.I2) (d : Vec 12) :
    (d ⬝ᵥ (beamK c l *ᵥ d) = 0 ↔ RigidMotion l d) ∧ (beamK c l *ᵥ d = 0 ↔ RigidMotion l d) := by
  have key : d ⬝ᵥ (beamK c l *ᵥ d) = 0 → RigidMotion l d := by
    intro h
    rw [C30_sum_of_squares c l hl.ne'] at h
    have p1 : 0 < c.E * c.A / l := by positivity
    have p2 : 0 < c.G * c.J / l := by positivity
    have p3 : 0 < c.E * c.I3 / l := by positivity
    have p4 : 0 < c.E * c.I2 / l := by positivity
    generalize c.E * c.A / l = k1 at *
    generalize c.G * c.J / l = k2 at *
    generalize c.E * c.I3 / l = k3 at *
    generalize c.E * c.I2 / l = k4 at *
    have s1 := mul_nonneg p1.le (sq_nonneg (d 6 - d 0))
    have s2 := mul_nonneg p2.le (sq_nonneg (d 9 - d 3))
    have s3 := mul_nonneg p3.le (sq_nonneg (d 5 + d 11 - 2 * (d 7 - d 1) / l))
    have s4 := mul_nonneg p3.le (sq_nonneg (d 5 - d 11))
    have s5 := mul_nonneg p4.le (sq_nonneg (d 4 + d 10 + 2 * (d 8 - d 2) / l))
    have s6 := mul_nonneg p4.le (sq_nonneg (d 4 - d 10))
    have z : ∀ {k x : ℝ}, 0 < k → k * x ^ 2 = 0 → x = 0 := by
      intro k x hk hx
      have := (mul_eq_zero.mp hx).resolve_left hk.ne'
      exact pow_eq_zero_iff (two_ne_zero) |>.mp this
    have e1 := z p1 (by linarith : k1 * (d 6 - d 0) ^ 2 = 0)
    have e2 := z p2 (by linarith : k2 * (d 9 - d 3) ^ 2 = 0)
    have e3 := z p3 (by linarith : k3 * (d 5 + d 11 - 2 * (d 7 - d 1) / l) ^ 2 = 0)
    have e4 := z p3 (by linarith : k3 * (d 5 - d 11) ^ 2 = 0)
    have e5 := z p4 (by linarith : k4 * (d 4 + d 10 + 2 * (d 8 - d 2) / l) ^ 2 = 0)
    have e6 := z p4 (by linarith : k4 * (d 4 - d 10) ^ 2 = 0)
    have e3' : d 7 - d 1 = d 5 * l := by
      have h0 : 2 * (d 7 - d 1) / l = 2 * d 5 := by linarith
      rw [div_eq_iff hl.ne'] at h0
      linarith
    have e5' : d 8 - d 2 = - d 4 * l := by
      have h0 : 2 * (d 8 - d 2) / l = - (2 * d 4) := by linarith
      rw [div_eq_iff hl.ne'] at h0
      linarith
    refine ⟨⟨d 0, d 1, d 2⟩, ⟨d 3, d 4, d 5⟩, rfl, rfl, rfl, rfl, rfl, rfl, ?_, ?_, ?_, ?_, ?_, ?_⟩ <;>
      simp [V3.cross] <;> linarith
  have key2 : RigidMotion l d → beamK c l *ᵥ d = 0 := by
    rintro ⟨t, ω, h0, h1, h2, h3, h4, h5, h6, h7, h8, h9, h10, h11⟩
    have hz : ∀ v : Vec 12, v ⬝ᵥ (beamK c l *ᵥ d) = 0 := by
      intro v
      rw [beamK_bilin c hl.ne']
      unfold beamWork bendWork
      rw [h0, h1, h2, h3, h4, h5, h6, h7, h8, h9, h10, h11]
      simp only [V3.cross, V3.add_def]
      field_simp
      ring
    ext i
    have := hz (Pi.single i 1)
    simpa using this
  refine ⟨⟨key, fun h => by rw [key2 h, dotProduct_zero]⟩, ⟨fun h => key (by rw [h, dotProduct_zero]), key2⟩⟩

/-- a steel-like beam meets the hypotheses, and a non-rigid displacement has positive energy -/
example : let c : BeamConsts := ⟨200, 80, 3, 2, 5, 1, 8⟩
    0 < c.E * c.A ∧ 0 < c.G * c.J ∧ 0 < c.E * c.I3 ∧ 0 < c.E * c.I2 ∧ ¬ RigidMotion 4 ![0, 0, 0, 0, 0, 0, 0, 0, 0, 0, 0, 1] := by
  refine ⟨by norm_num, by norm_num, by norm_num, by norm_num, ?_⟩
  rintro ⟨t, ω, -, -, -, -, -, h5, -, -, -, -, -, h11⟩
  simp at h5 h11
  linarith

/-! ## C31 Beam stiffness is the exact energy of the interpolated fields -/

/-- `dᵀ K d` is the integral of the strain energy density of the linear/cubic fields with end components `d`. -/
theorem C31_energy_integral (c : BeamConsts) (l : ℝ) (hl : 0 < l) (d : Vec 12) (u w2 w3 θ : ℝ → ℝ)
    (h : Fields l d u w2 w3 θ) :
    d ⬝ᵥ (beamK c l *ᵥ d) = ∫ x in (0:ℝ)..l,
      (c.E * c.A * deriv u x ^ 2 + c.E * c.I3 * deriv (deriv w2) x ^ 2 +
       c.E * c.I2 * deriv (deriv w3) x ^ 2 + c.G * c.J * deriv θ x ^ 2) := by
  obtain ⟨u0, u1, a0, a1, a2, a3, b0, b1, b2, b3, t0, t1, rfl, rfl, rfl, rfl, h0, h6, h3, h9, h1, h5, h7, h11, h2, h4, h8,
    h10⟩ := Fields.coeffs h
  simp only [deriv_cubic, deriv_quad, deriv_lin]
  have e : (fun x : ℝ => c.E * c.A * u1 ^ 2 + c.E * c.I3 * (2 * a2 + 6 * a3 * x) ^ 2 +
       c.E * c.I2 * (2 * b2 + 6 * b3 * x) ^ 2 + c.G * c.J * t1 ^ 2) =
      fun x => (c.E * c.A * u1 ^ 2 + c.E * c.I3 * 4 * a2 ^ 2 + c.E * c.I2 * 4 * b2 ^ 2 + c.G * c.J * t1 ^ 2) +
        (24 * (c.E * c.I3 * a2 * a3 + c.E * c.I2 * b2 * b3)) * x +
        (36 * (c.E * c.I3 * a3 ^ 2 + c.E * c.I2 * b3 ^ 2)) * x ^ 2 + 0 * x ^ 3 := by
    funext x; ring
  rw [e, integral_cubic, beamK_bilin c hl.ne']
  unfold beamWork bendWork
  rw [h0, h1, h2, h3, h4, h5, h6, h7, h8, h9, h10, h11]
  field_simp
  ring

/-- The fields exist for every `d`: the theorem's hypothesis can always be met. -/
theorem C31_fields_exist (l : ℝ) (hl : 0 < l) (d : Vec 12) : ∃ u w2 w3 θ, Fields l d u w2 w3 θ := by
  have hl' := hl.ne'
  refine ⟨fun x => d 0 + (d 6 - d 0) / l * x,
    fun x => d 1 + d 5 * x + (3 * (d 7 - d 1) / l ^ 2 - (2 * d 5 + d 11) / l) * x ^ 2 +
      ((d 5 + d 11) / l ^ 2 - 2 * (d 7 - d 1) / l ^ 3) * x ^ 3,
    fun x => d 2 + (- d 4) * x + (3 * (d 8 - d 2) / l ^ 2 + (2 * d 4 + d 10) / l) * x ^ 2 +
      (- (d 4 + d 10) / l ^ 2 - 2 * (d 8 - d 2) / l ^ 3) * x ^ 3,
    fun x => d 3 + (d 9 - d 3) / l * x, ?_⟩
  constructor
  · exact ⟨_, _, fun x => rfl⟩
  · exact ⟨_, _, fun x => rfl⟩
  · exact ⟨_, _, _, _, fun x => rfl⟩
  · exact ⟨_, _, _, _, fun x => rfl⟩
  all_goals (try simp only [deriv_cubic])
  all_goals (field_simp; ring)

/-! ## C32 Equivalent loads of distributed beam loads keep the resultant -/

/-- The equivalent end forces computed for a beam that carries only the given distributed load. -/
theorem distributed_getBeamF (p : LoadPattern) (b : String) (hb : p.beamConc.get? b = none)
    (pi pj qi2 qj2 qi3 qj3 ti tj l : ℝ) :
    (p.setBeamLoadDist b pi pj qi2 qj2 qi3 qj3 ti tj).getBeamF b l =
      distF ![pi, qi2, qi3, ti, 0, 0, pj, qj2, qj3, tj, 0, 0] l := by
  simp only [LoadPattern.getBeamF, LoadPattern.setBeamLoadDist, Dict.get?_set_same, hb]
  funext i; simp

/-- Total force along the three axes, total torque, and total moment about the start and about the end of the beam agree with
those of the line load, for every trapezoidal load and every length. -/
theorem C32_resultant (p : LoadPattern) (b : String) (hb : p.beamConc.get? b = none)
    (pi pj qi2 qj2 qi3 qj3 ti tj l : ℝ) (hl : 0 < l) :
    let r := (p.setBeamLoadDist b pi pj qi2 qj2 qi3 qj3 ti tj).getBeamF b l
    r 0 + r 6 = ∫ x in (0:ℝ)..l, lineLoad pi pj l x ∧
    r 1 + r 7 = ∫ x in (0:ℝ)..l, lineLoad qi2 qj2 l x ∧
    r 2 + r 8 = ∫ x in (0:ℝ)..l, lineLoad qi3 qj3 l x ∧
    r 3 + r 9 = ∫ x in (0:ℝ)..l, lineLoad ti tj l x ∧
    r 5 + r 11 + l * r 7 = ∫ x in (0:ℝ)..l, x * lineLoad qi2 qj2 l x ∧
    r 4 + r 10 - l * r 8 = ∫ x in (0:ℝ)..l, - (x * lineLoad qi3 qj3 l x) ∧
    r 5 + r 11 - l * r 1 = ∫ x in (0:ℝ)..l, (x - l) * lineLoad qi2 qj2 l x ∧
    r 4 + r 10 + l * r 2 = ∫ x in (0:ℝ)..l, - ((x - l) * lineLoad qi3 qj3 l x) := by
  intro r
  have hl' := hl.ne'
  have i0 : ∀ q q' : ℝ, ∫ x in (0:ℝ)..l, lineLoad q q' l x = (q + q') * l / 2 := by
    intro q q'
    have e : (fun x => lineLoad q q' l x) = fun x => q + (q' - q) / l * x + 0 * x ^ 2 + 0 * x ^ 3 := by
      funext x; unfold lineLoad; ring
    rw [e, integral_cubic]; field_simp; ring
  have i1 : ∀ q q' s k : ℝ, ∫ x in (0:ℝ)..l, (s * ((x - k) * lineLoad q q' l x)) =
      s * (- k * (q + q') * l / 2 + (q / 6 + q' / 3) * l ^ 2) := by
    intro q q' s k
    have e : (fun x => s * ((x - k) * lineLoad q q' l x)) =
        fun x => (- s * k * q) + (s * q - s * k * (q' - q) / l) * x + (s * (q' - q) / l) * x ^ 2 + 0 * x ^ 3 := by
      funext x; unfold lineLoad; ring
    rw [e, integral_cubic]; field_simp; ring
  have j0 := i1 qi2 qj2 1 0
  have j1 := i1 qi3 qj3 (-1) 0
  have j2 := i1 qi2 qj2 1 l
  have j3 := i1 qi3 qj3 (-1) l
  simp only [one_mul, sub_zero, neg_one_mul] at j0 j1 j2 j3
  have hr : r = distF ![pi, qi2, qi3, ti, 0, 0, pj, qj2, qj3, tj, 0, 0] l := distributed_getBeamF p b hb _ _ _ _ _ _ _ _ l
  rw [hr, i0, i0, i0, i0, j0, j1, j2, j3]
  simp [distF]
  refine ⟨?_, ?_, ?_, ?_, ?_, ?_, ?_, ?_⟩ <;> ring

/-! ## C33 Equivalent loads do the work of the distributed load -/

/-- For every end displacement the equivalent end forces do exactly the work of the line loads on the interpolated fields. -/
theorem C33_work (p : LoadPattern) (b : String) (hb : p.beamConc.get? b = none)
    (pi pj qi2 qj2 qi3 qj3 ti tj l : ℝ) (hl : 0 < l) (d : Vec 12) (u w2 w3 θ : ℝ → ℝ) (h : Fields l d u w2 w3 θ) :
    (p.setBeamLoadDist b pi pj qi2 qj2 qi3 qj3 ti tj).getBeamF b l ⬝ᵥ d =
      ∫ x in (0:ℝ)..l, (lineLoad pi pj l x * u x + lineLoad qi2 qj2 l x * w2 x + lineLoad qi3 qj3 l x * w3 x +
        lineLoad ti tj l x * θ x) := by
  have hl' := hl.ne'
  rw [distributed_getBeamF p b hb]
  obtain ⟨u0, u1, a0, a1, a2, a3, b0, b1, b2, b3, t0, t1, rfl, rfl, rfl, rfl, h0, h6, h3, h9, h1, h5, h7, h11, h2, h4, h8,
    h10⟩ := Fields.coeffs h
  have e : (fun x : ℝ => lineLoad pi pj l x * (u0 + u1 * x) + lineLoad qi2 qj2 l x * (a0 + a1 * x + a2 * x ^ 2 + a3 * x ^ 3)
        + lineLoad qi3 qj3 l x * (b0 + b1 * x + b2 * x ^ 2 + b3 * x ^ 3) + lineLoad ti tj l x * (t0 + t1 * x)) =
      fun x => (pi * u0 + qi2 * a0 + qi3 * b0 + ti * t0) +
        (pi * u1 + (pj - pi) / l * u0 + qi2 * a1 + (qj2 - qi2) / l * a0 + qi3 * b1 + (qj3 - qi3) / l * b0 +
          ti * t1 + (tj - ti) / l * t0) * x +
        ((pj - pi) / l * u1 + qi2 * a2 + (qj2 - qi2) / l * a1 + qi3 * b2 + (qj3 - qi3) / l * b1 + (tj - ti) / l * t1) * x ^ 2 +
        (qi2 * a3 + (qj2 - qi2) / l * a2 + qi3 * b3 + (qj3 - qi3) / l * b2) * x ^ 3 +
        ((qj2 - qi2) / l * a3 + (qj3 - qi3) / l * b3) * x ^ 4 := by
    funext x; unfold lineLoad; ring
  rw [e, integral_quintic]
  simp only [dotProduct, Fin.sum_univ_succ, Fin.sum_univ_zero, Finset.univ_eq_empty, Finset.sum_empty]
  change _ * d 0 + (_ * d 1 + (_ * d 2 + (_ * d 3 + (_ * d 4 + (_ * d 5 + (_ * d 6 + (_ * d 7 + (_ * d 8 + (_ * d 9 +
    (_ * d 10 + (_ * d 11 + 0))))))))))) = _
  rw [h0, h1, h2, h3, h4, h5, h6, h7, h8, h9, h10, h11]
  simp [distF]
  field_simp
  ring

/-- fields exist for any end displacement (`C31_fields_exist`), and an empty pattern has no concentrated loads -/
example : (LoadPattern.new "p").beamConc.get? "b" = none ∧ ∃ u w2 w3 θ, Fields 3 ![1, 2, 3, 4, 5, 6, 7, 8, 9, 10, 11, 12] u w2 w3 θ :=
  ⟨rfl, C31_fields_exist 3 (by norm_num) _⟩

/-! ## C34 Equivalent loads of concentrated beam loads -/

theorem concentrated_getBeamF (p : LoadPattern) (b : String) (hb : p.beamDist.get? b = none)
    (F1 F2 F3 M1 M2 M3 r l : ℝ) :
    (p.setBeamLoadConc b F1 F2 F3 M1 M2 M3 r).getBeamF b l = concF ![F1, F2, F3, M1, M2, M3, r] l := by
  simp only [LoadPattern.getBeamF, LoadPattern.setBeamLoadConc, Dict.get?_set_same, hb]
  funext i; simp

/-- Work of the equivalent end forces = work of the force on the interpolated displacement and of the moment on the
interpolated rotation at `x = r l` (rotation about axis 1: twist, axis 2: minus the slope of `w3`, axis 3: slope of `w2`). -/
theorem C34_work (p : LoadPattern) (b : String) (hb : p.beamDist.get? b = none)
    (F1 F2 F3 M1 M2 M3 r l : ℝ) (hl : 0 < l) (d : Vec 12) (u w2 w3 θ : ℝ → ℝ) (h : Fields l d u w2 w3 θ) :
    (p.setBeamLoadConc b F1 F2 F3 M1 M2 M3 r).getBeamF b l ⬝ᵥ d =
      F1 * u (r * l) + F2 * w2 (r * l) + F3 * w3 (r * l) + M1 * θ (r * l) + M2 * (- deriv w3 (r * l)) +
        M3 * deriv w2 (r * l) := by
  have hl' := hl.ne'
  rw [concentrated_getBeamF p b hb]
  obtain ⟨u0, u1, a0, a1, a2, a3, b0, b1, b2, b3, t0, t1, rfl, rfl, rfl, rfl, h0, h6, h3, h9, h1, h5, h7, h11, h2, h4, h8,
    h10⟩ := Fields.coeffs h
  simp only [deriv_cubic]
  simp only [dotProduct, Fin.sum_univ_succ, Fin.sum_univ_zero, Finset.univ_eq_empty, Finset.sum_empty]
  change _ * d 0 + (_ * d 1 + (_ * d 2 + (_ * d 3 + (_ * d 4 + (_ * d 5 + (_ * d 6 + (_ * d 7 + (_ * d 8 + (_ * d 9 +
    (_ * d 10 + (_ * d 11 + 0))))))))))) = _
  rw [h0, h1, h2, h3, h4, h5, h6, h7, h8, h9, h10, h11]
  simp [concF]
  field_simp
  ring

/-- Resultant force and moment (about the start) of the equivalent end forces are those of the concentrated load. -/
theorem C34_resultant (p : LoadPattern) (b : String) (hb : p.beamDist.get? b = none)
    (F1 F2 F3 M1 M2 M3 r l : ℝ) (hl : 0 < l) :
    let f := (p.setBeamLoadConc b F1 F2 F3 M1 M2 M3 r).getBeamF b l
    f 0 + f 6 = F1 ∧ f 1 + f 7 = F2 ∧ f 2 + f 8 = F3 ∧ f 3 + f 9 = M1 ∧
    f 4 + f 10 - l * f 8 = M2 - (r * l) * F3 ∧ f 5 + f 11 + l * f 7 = M3 + (r * l) * F2 := by
  intro f
  have hl' := hl.ne'
  have hf : f = concF ![F1, F2, F3, M1, M2, M3, r] l := concentrated_getBeamF p b hb _ _ _ _ _ _ _ l
  rw [hf]
  simp [concF]
  refine ⟨?_, ?_, ?_, ?_, ?_, ?_⟩ <;> field_simp <;> ring

/-- Distributed and concentrated loads of a beam add up, and a beam without loads contributes nothing. -/
theorem C34_additive (p : LoadPattern) (b : String) (l : ℝ) :
    p.getBeamF b l = ((p.beamDist.get? b).elim 0 (fun v => distF v l)) + ((p.beamConc.get? b).elim 0 (fun v => concF v l)) := by
  unfold LoadPattern.getBeamF
  cases p.beamDist.get? b <;> cases p.beamConc.get? b <;> funext i <;> simp

/-! ## C35 End releases are eliminated exactly -/

/-- release of a single end component -/
def oneRelease (n : Fin 12) : Fin 12 → Bool := fun i => decide (i = n)

theorem foldl_oneRelease {α : Type} (n : Fin 12) (g : Fin 12 → α) (a : α) :
    (List.finRange 12).foldl (fun k i => if oneRelease n i then g i else k) a = g n := by
  fin_cases n <;> rfl

theorem condense_one (n : Fin 12) (k : Matrix (Fin 12) (Fin 12) ℝ) :
    staticCondensate (oneRelease n) k = fun i j => k i j - k i n * k n j / k n n := by
  unfold staticCondensate
  exact foldl_oneRelease n (fun n => (fun i j => k i j - k i n * k n j / k n n : Matrix (Fin 12) (Fin 12) ℝ)) k

theorem condenseF_one (n : Fin 12) (r : Vec 12) (k : Matrix (Fin 12) (Fin 12) ℝ) :
    staticCondensateF (oneRelease n) r k = fun j => r j - r n * k n j / k n n := by
  unfold staticCondensateF
  exact foldl_oneRelease n (fun n => (fun j => r j - r n * k n j / k n n : Vec 12)) r

/-- One released component `n` (non-zero pivot, symmetric `K`): whatever the end displacements `d`, the condensed matrix and
load give exactly the end forces `K d* - r` of the state `d*` that agrees with `d` except that the released component
has moved so that it carries no force.  Missing from the full statement: more than one release (see `C35_false`). -/
theorem C35_single_release_partial (n : Fin 12) (K : Matrix (Fin 12) (Fin 12) ℝ) (hs : Kᵀ = K) (hn : K n n ≠ 0)
    (r d d' : Vec 12) (hd : ∀ i, i ≠ n → d' i = d i) (hfree : (K *ᵥ d' - r) n = 0) :
    staticCondensate (oneRelease n) K *ᵥ d - staticCondensateF (oneRelease n) r K = K *ᵥ d' - r ∧
    (staticCondensate (oneRelease n) K *ᵥ d) n = 0 ∧ staticCondensateF (oneRelease n) r K n = 0 := by
  have hsym : ∀ i j, K i j = K j i := fun i j => by rw [← Matrix.transpose_apply K, hs]
  have hdd : d' = d + Pi.single n (d' n - d n) := by
    funext i
    by_cases h : i = n
    · subst h; simp
    · simp [h, hd i h]
  have hmul : ∀ i, (K *ᵥ d') i = (K *ᵥ d) i + K i n * (d' n - d n) := by
    intro i
    conv_lhs => rw [hdd, Matrix.mulVec_add]
    simp
  have hcond : ∀ i, (staticCondensate (oneRelease n) K *ᵥ d) i = (K *ᵥ d) i - K i n / K n n * (K *ᵥ d) n := by
    intro i
    rw [condense_one]
    simp only [Matrix.mulVec, dotProduct, Finset.mul_sum, ← Finset.sum_sub_distrib]
    apply Finset.sum_congr rfl
    intro j _
    field_simp
  have hf : (K *ᵥ d) n + K n n * (d' n - d n) - r n = 0 := by
    rw [← hmul n]; exact hfree
  refine ⟨?_, ?_, ?_⟩
  · funext i
    simp only [Pi.sub_apply, hcond i, hmul i, condenseF_one, hsym n i]
    have : d' n - d n = (r n - (K *ᵥ d) n) / K n n := by
      rw [eq_div_iff hn]; linarith
    rw [this]
    field_simp
    ring
  · rw [hcond n]; field_simp; ring
  · simp only [condenseF_one]; field_simp; ring

/-- Without releases nothing is changed. -/
theorem C35_no_release_partial (K : Matrix (Fin 12) (Fin 12) ℝ) (r : Vec 12) :
    staticCondensate (fun _ => false) K = K ∧ staticCondensateF (fun _ => false) r K = r := by
  unfold staticCondensate staticCondensateF
  simp

/-- C35 is false for two releases: releasing both end rotations about axis 3 of a unit beam leaves a force at the first of
them (only the last release in the list is applied). -/
theorem C35_false : ∃ (K : Matrix (Fin 12) (Fin 12) ℝ) (rel : Fin 12 → Bool) (n : Fin 12) (d : Vec 12),
    K = beamK ⟨1, 1, 1, 1, 1, 1, 1⟩ 1 ∧ rel n = true ∧ (∀ i, rel i = true → i = 5 ∨ i = 11) ∧
    (staticCondensate rel K *ᵥ d) n ≠ 0 := by
  refine ⟨_, fun i => decide (i = 5) || decide (i = 11), 5, Pi.single 5 1, rfl, rfl, ?_, ?_⟩
  · intro i hi; simpa using hi
  · have hf : staticCondensate (fun i => decide (i = 5) || decide (i = 11)) (beamK ⟨1, 1, 1, 1, 1, 1, 1⟩ 1) =
        Matrix.of fun i j => beamK ⟨1, 1, 1, 1, 1, 1, 1⟩ 1 i j - beamK ⟨1, 1, 1, 1, 1, 1, 1⟩ 1 i 11 *
          beamK ⟨1, 1, 1, 1, 1, 1, 1⟩ 1 11 j / beamK ⟨1, 1, 1, 1, 1, 1, 1⟩ 1 11 11 := by
      unfold staticCondensate
      rfl
    rw [hf]
    have e1 : beamK ⟨1, 1, 1, 1, 1, 1, 1⟩ 1 5 5 = 4 := by
      rw [entry_eq_bilin (beamK _ _) 5 5, beamK_bilin _ (by norm_num)]; simp [beamWork, bendWork, Pi.single_apply]
    have e2 : beamK ⟨1, 1, 1, 1, 1, 1, 1⟩ 1 5 11 = 2 := by
      rw [entry_eq_bilin (beamK _ _) 5 11, beamK_bilin _ (by norm_num)]; simp [beamWork, bendWork, Pi.single_apply]
    have e3 : beamK ⟨1, 1, 1, 1, 1, 1, 1⟩ 1 11 5 = 2 := by
      rw [entry_eq_bilin (beamK _ _) 11 5, beamK_bilin _ (by norm_num)]; simp [beamWork, bendWork, Pi.single_apply]
    have e4 : beamK ⟨1, 1, 1, 1, 1, 1, 1⟩ 1 11 11 = 4 := by
      rw [entry_eq_bilin (beamK _ _) 11 11, beamK_bilin _ (by norm_num)]; simp [beamWork, bendWork, Pi.single_apply]
    rw [Matrix.mulVec_single_one]
    change beamK ⟨1, 1, 1, 1, 1, 1, 1⟩ 1 5 5 - beamK ⟨1, 1, 1, 1, 1, 1, 1⟩ 1 5 11 *
          beamK ⟨1, 1, 1, 1, 1, 1, 1⟩ 1 11 5 / beamK ⟨1, 1, 1, 1, 1, 1, 1⟩ 1 11 11 ≠ 0
    rw [e1, e2, e3, e4]
    norm_num

/-- a real beam matrix meets the hypotheses of the single-release theorem, with a displacement that satisfies the
force-free condition -/
example : let K := beamK ⟨1, 1, 1, 1, 1, 1, 1⟩ 1
    Kᵀ = K ∧ K 5 5 ≠ 0 ∧ ∃ d' : Vec 12, d' ≠ 0 ∧ (K *ᵥ d' - 0) 5 = 0 := by
  intro K
  refine ⟨beamK_symm _ (by norm_num), ?_, ?_⟩
  · rw [entry_eq_bilin K, beamK_bilin _ (by norm_num)]; simp [beamWork, bendWork, Pi.single_apply]
  · refine ⟨Pi.single 0 1, ?_, ?_⟩
    · intro h; have := congrFun h 0; simp at this
    · have : (K *ᵥ Pi.single 0 1) 5 = K 5 0 := by simp
      rw [sub_zero, this, entry_eq_bilin K, beamK_bilin _ (by norm_num)]
      simp [beamWork, bendWork, Pi.single_apply]

/-! ## C43 Shell area -/

/-- C43 is false: the reported area of a 3-4-5 triangle in the y-z plane seen from behind is negative. -/
theorem C43_false : ∃ pi pj pk : V3, triaArea pi pj pk ≠ 1 / 2 * V3.norm (V3.cross (pj - pi) (pk - pi)) := by
  refine ⟨⟨0, 0, 0⟩, ⟨0, 0, 3⟩, ⟨0, 4, 0⟩, ?_⟩
  have h1 : triaArea ⟨0, 0, 0⟩ ⟨0, 0, 3⟩ ⟨0, 4, 0⟩ = -6 := by
    unfold triaArea
    simp [Matrix.det_fin_three]
    norm_num
  rw [h1]
  have := V3.norm_nonneg (V3.cross ((⟨0, 0, 3⟩ : V3) - ⟨0, 0, 0⟩) (⟨0, 4, 0⟩ - ⟨0, 0, 0⟩))
  linarith

/-- What the area property returns for every triangle: half the sum of the three components of the cross product; this is the
true area exactly for triangles whose (oriented) normal is a positive coordinate direction, among those lying in a plane
parallel to a coordinate plane. -/
theorem C43_area_partial (pi pj pk : V3) :
    let n := V3.cross (pj - pi) (pk - pi)
    triaArea pi pj pk = 1 / 2 * (n.x + n.y + n.z) ∧
    (∀ s : ℝ, 0 ≤ s → n = ⟨s, 0, 0⟩ ∨ n = ⟨0, s, 0⟩ ∨ n = ⟨0, 0, s⟩ → triaArea pi pj pk = 1 / 2 * V3.norm n) := by
  intro n
  have h1 : triaArea pi pj pk = 1 / 2 * (n.x + n.y + n.z) := by
    unfold triaArea
    simp only [n, V3.cross, V3.sub_def, Matrix.det_fin_three]
    simp
    ring
  refine ⟨h1, ?_⟩
  intro s hs h
  rw [h1]
  have hq : Real.sqrt (s * s) = s := Real.sqrt_mul_self hs
  rcases h with h | h | h <;> (rw [h]; simp [V3.norm, hq])

example : V3.cross ((⟨2, 0, 0⟩ : V3) - ⟨0, 0, 0⟩) (⟨1, 3, 0⟩ - ⟨0, 0, 0⟩) = ⟨0, 0, 6⟩ := by
  ext <;> simp [V3.cross]; norm_num

/-- What the area property of a quadrilateral returns, for any four points: an eighth of the sum of the components of
`ij x ik + il x ik + 2 il x ij`. -/
theorem C43_quad_value (pi pj pk pl : V3) :
    let n1 := V3.cross (pj - pi) (pk - pi)
    let n2 := V3.cross (pl - pi) (pk - pi)
    let n3 := V3.cross (pl - pi) (pj - pi)
    quadDet pi pj pk pl =
      1 / 8 * ((n1.x + n1.y + n1.z) + (n2.x + n2.y + n2.z) + 2 * (n3.x + n3.y + n3.z)) := by
  intro n1 n2 n3
  unfold quadDet
  simp only [n1, n2, n3, V3.cross, V3.sub_def, Matrix.det_fin_three]
  simp
  ring

example : quadDet ⟨0, 0, 0⟩ ⟨4, 0, 0⟩ ⟨4, 3, 0⟩ ⟨0, 3, 0⟩ = -3 := by
  rw [C43_quad_value]; norm_num [V3.cross, V3.sub_def]

/-- The area reported for a parallelogram, wherever it lies in space, is in absolute value less than half of its area (the norm
of the cross product of two sides), so it is never right. -/
theorem C43_quad_parallelogram (pi pj pk pl : V3) (hpar : pk - pi = (pj - pi) + (pl - pi))
    (hA : 0 < V3.norm (V3.cross (pj - pi) (pl - pi))) :
    |quadDet pi pj pk pl| < 1 / 2 * V3.norm (V3.cross (pj - pi) (pl - pi)) ∧
    quadDet pi pj pk pl ≠ V3.norm (V3.cross (pj - pi) (pl - pi)) := by
  set n := V3.cross (pj - pi) (pl - pi) with hn
  have hv : quadDet pi pj pk pl = -(1 / 4) * (n.x + n.y + n.z) := by
    rw [C43_quad_value, hpar, hn]
    simp only [V3.cross, V3.add_def]
    ring
  have hsq : V3.norm n * V3.norm n = n.x * n.x + n.y * n.y + n.z * n.z := by
    unfold V3.norm; exact Real.mul_self_sqrt (by nlinarith [sq_nonneg n.x, sq_nonneg n.y, sq_nonneg n.z])
  have hlt : |quadDet pi pj pk pl| < 1 / 2 * V3.norm n := by
    apply abs_lt_of_sq_lt_sq _ (by linarith)
    rw [hv]
    nlinarith [sq_nonneg (n.x - n.y), sq_nonneg (n.y - n.z), sq_nonneg (n.x - n.z), mul_pos hA hA]
  refine ⟨hlt, fun h => ?_⟩
  rw [h, abs_of_pos hA] at hlt
  linarith

example : ((⟨5, 3, 1⟩ : V3) - ⟨0, 0, 0⟩ = (⟨4, 0, 0⟩ - ⟨0, 0, 0⟩) + (⟨1, 3, 1⟩ - ⟨0, 0, 0⟩)) ∧
    0 < V3.norm (V3.cross ((⟨4, 0, 0⟩ : V3) - ⟨0, 0, 0⟩) (⟨1, 3, 1⟩ - ⟨0, 0, 0⟩)) := by
  refine ⟨by ext <;> norm_num [V3.sub_def, V3.add_def], ?_⟩
  unfold V3.norm
  apply Real.sqrt_pos.2
  norm_num [V3.cross, V3.sub_def]

/-- The area reported for a convex quadrilateral in a horizontal plane, numbered counter-clockwise (every corner turns left), is
in absolute value at most three quarters of its area (half the cross product of its diagonals), so it is never right. -/
theorem C43_quad_flat (pi pj pk pl : V3) (hz : pj.z = pi.z ∧ pk.z = pi.z ∧ pl.z = pi.z)
    (hj : 0 < (V3.cross (pj - pi) (pk - pj)).z) (hk : 0 < (V3.cross (pk - pj) (pl - pk)).z)
    (hl : 0 < (V3.cross (pl - pk) (pi - pl)).z) (hi : 0 < (V3.cross (pi - pl) (pj - pi)).z) :
    |quadDet pi pj pk pl| ≤ 3 / 4 * (1 / 2 * (V3.cross (pk - pi) (pl - pj)).z) ∧
    quadDet pi pj pk pl ≠ 1 / 2 * (V3.cross (pk - pi) (pl - pj)).z := by
  obtain ⟨h1, h2, h3⟩ := hz
  have hv := C43_quad_value pi pj pk pl
  simp only [V3.cross, V3.sub_def, h1, h2, h3, sub_self, mul_zero, zero_mul] at hv hj hk hl hi ⊢
  have hle : |quadDet pi pj pk pl| ≤ 3 / 4 * (1 / 2 *
      ((pk.x - pi.x) * (pl.y - pj.y) - (pk.y - pi.y) * (pl.x - pj.x))) := by
    rw [hv, abs_le]; constructor <;> nlinarith
  refine ⟨hle, fun h => ?_⟩
  have hpos : 0 < (pk.x - pi.x) * (pl.y - pj.y) - (pk.y - pi.y) * (pl.x - pj.x) := by nlinarith
  rw [h, abs_of_pos (by linarith)] at hle
  linarith

example : let pi : V3 := ⟨0, 0, 7⟩; let pj : V3 := ⟨4, 0, 7⟩; let pk : V3 := ⟨5, 3, 7⟩; let pl : V3 := ⟨-1, 2, 7⟩
    0 < (V3.cross (pj - pi) (pk - pj)).z ∧ 0 < (V3.cross (pk - pj) (pl - pk)).z ∧
    0 < (V3.cross (pl - pk) (pi - pl)).z ∧ 0 < (V3.cross (pi - pl) (pj - pi)).z := by
  norm_num [V3.cross, V3.sub_def]

/-! ## C45 Mass matrices are symmetric -/

/-- C45 is false for the consistent mass matrix: entry (0,6) is set, entry (6,0) is not. -/
theorem C45_false : ∃ (c : BeamConsts) (l : ℝ), 0 < c.rho ∧ 0 < c.A ∧ 0 < l ∧
    (beamMConsistent c l)ᵀ ≠ beamMConsistent c l := by
  refine ⟨⟨1, 1, 1, 1, 1, 1, 1⟩, 1, by norm_num, by norm_num, by norm_num, ?_⟩
  intro h
  have h1 := congrFun (congrFun h 0) 6
  simp only [Matrix.transpose_apply] at h1
  rw [entry_eq_bilin (beamMConsistent ⟨1, 1, 1, 1, 1, 1, 1⟩ 1) 6 0,
    entry_eq_bilin (beamMConsistent ⟨1, 1, 1, 1, 1, 1, 1⟩ 1) 0 6] at h1
  unfold beamMConsistent at h1
  rw [Matrix.smul_mulVec, Matrix.smul_mulVec, dotProduct_smul, dotProduct_smul, ofTriplets_bilin, ofTriplets_bilin] at h1
  simp [beamMConsistentData, Pi.single_apply] at h1

/-- The lumped matrix (the only one the assembly uses) is symmetric; the consistent one is symmetric except for the pair
(0,6). -/
theorem C45_symmetric_partial (c : BeamConsts) (l : ℝ) :
    (beamMLumped c l)ᵀ = beamMLumped c l ∧
    ∀ i j : Fin 12, ¬ (i = 0 ∧ j = 6) → ¬ (i = 6 ∧ j = 0) → beamMConsistent c l i j = beamMConsistent c l j i := by
  constructor
  · ext i j
    simp only [Matrix.transpose_apply, beamMLumped]
    by_cases h : i = j
    · subst h; rfl
    · simp [h, Ne.symm h]
  · have key : ∀ v u : Vec 12, v ⬝ᵥ (ofTriplets (beamMConsistentData c l) *ᵥ u) - u ⬝ᵥ (ofTriplets (beamMConsistentData c l) *ᵥ v)
        = 70 * (v 0 * u 6 - u 0 * v 6) := by
      intro v u
      rw [ofTriplets_bilin, ofTriplets_bilin]
      simp only [beamMConsistentData, List.map_cons, List.map_nil, List.sum_cons, List.sum_nil]
      ring
    intro i j h1 h2
    have hk := key (Pi.single i 1) (Pi.single j 1)
    rw [← entry_eq_bilin, ← entry_eq_bilin] at hk
    have hz : (Pi.single i 1 : Vec 12) 0 * (Pi.single j 1 : Vec 12) 6 - (Pi.single j 1 : Vec 12) 0 * (Pi.single i 1 : Vec 12) 6 = 0 := by
      have hA : (Pi.single i 1 : Vec 12) 0 * (Pi.single j 1 : Vec 12) 6 = 0 := by
        by_contra hne
        apply h1
        constructor
        · by_contra hi; exact hne (by rw [Pi.single_eq_of_ne (Ne.symm hi), zero_mul])
        · by_contra hj; exact hne (by rw [Pi.single_eq_of_ne (Ne.symm hj) , mul_zero])
      have hB : (Pi.single j 1 : Vec 12) 0 * (Pi.single i 1 : Vec 12) 6 = 0 := by
        by_contra hne
        apply h2
        constructor
        · by_contra hi; exact hne (by rw [Pi.single_eq_of_ne (Ne.symm hi), mul_zero])
        · by_contra hj; exact hne (by rw [Pi.single_eq_of_ne (Ne.symm hj) , zero_mul])
      rw [hA, hB, sub_zero]
    rw [hz, mul_zero, sub_eq_zero] at hk
    simp only [beamMConsistent, Matrix.smul_apply, hk]

/-! ## C50 Isotropic elastic constants are consistent -/

/-- `G` satisfies `2 (1 + μ) G = E`, and is available unless `μ = -1`. -/
theorem C50_shear_partial (m : Material) :
    (∀ G, m.G = .ok G → 2 * (1 + m.mu) * G = m.E) ∧ ((∃ e, m.G = .error e) ↔ m.mu = -1) := by
  unfold Material.G shearModulus pyDiv
  by_cases h : 1 + m.mu = 0
  · have : m.mu = -1 := by linarith
    simp [this]
  · have : ¬ m.mu = -1 := fun e => h (by rw [e]; norm_num)
    simp only [h, if_false, Except.ok.injEq, reduceCtorEq, exists_false, this, iff_self, and_true]
    rintro G rfl
    field_simp

/-- C50 is false for `lamda`: Lamé's constant satisfies `λ (1 + μ)(1 - 2μ) = μ E`; the code returns a value that does not,
e.g. for `μ = 1/4`. -/
theorem C50_false : ∃ (m : Material) (lam : ℝ), m.lamda = .ok lam ∧ 0 < m.E ∧ m.mu = 1 / 4 ∧
    lam * (1 + m.mu) * (1 - 2 * m.mu) ≠ m.mu * m.E := by
  refine ⟨⟨"m", 1, 1, 1 / 4, 0⟩, 1 / (1 + 1 / 4) / (1 - 2 * (1 / 4)), ?_, by norm_num, rfl, by norm_num⟩
  norm_num [Material.lamda, pyDiv, bind, Except.bind]

/-- What the code returns: `E / ((1+μ)(1-2μ))`, i.e. Lamé's constant divided by `μ`. -/
theorem C50_lamda_partial (m : Material) (lam : ℝ) (h : m.lamda = .ok lam) :
    lam * ((1 + m.mu) * (1 - 2 * m.mu)) = m.E := by
  unfold Material.lamda pyDiv at h
  by_cases h1 : 1 + m.mu = 0
  · simp [h1, bind, Except.bind] at h
  · by_cases h2 : 1 - 2 * m.mu = 0
    · simp [h1, h2, bind, Except.bind] at h
    · simp [h1, h2, bind, Except.bind] at h
      subst h
      have h2' : 1 - m.mu * 2 ≠ 0 := by rw [mul_comm]; exact h2
      field_simp

example : ∃ lam, (⟨"m", 1, 1, 3 / 10, 0⟩ : Material).lamda = .ok lam := by
  unfold Material.lamda pyDiv
  norm_num [bind, Except.bind]

end Hyperstatic
