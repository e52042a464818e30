import Verif.Model.CompiledTMQb
import Verif.Lemmas.CompiledTMQs

/-! The text of the bending routine of the thick plate, entry by entry. -/

namespace Hyperstatic
open Matrix

theorem TMQ.N_text (i : Fin 4) : TMQ.N i = DKQ.N i := by
  funext ξ η
  fin_cases i <;> simp only [Fin.mk_zero, Fin.mk_one, Fin.reduceFinMk, TMQ.N, DKQ.N] <;> norm_num
theorem TMQ.M_text : TMQ.M 0 = DKQ.M 1 ∧ TMQ.M 1 = DKQ.M 2 ∧ TMQ.M 2 = DKQ.M 3 ∧ TMQ.M 3 = DKQ.M 0 := by
  refine ⟨?_, ?_, ?_, ?_⟩ <;> funext ξ η <;> simp only [TMQ.M, DKQ.M] <;> norm_num

namespace TMQbText

/-- unknown `3*i+c` -/
def ix (k : Fin 4 × Fin 3) : Fin 12 := ⟨3 * k.1.val + k.2.val, by omega⟩

theorem entries (E mu t dp : ℝ) (f0 f1 f2 : Fin 12 → ℝ) (i j : Fin 12) :
    (![out0 E mu t dp f0 f1 f2, out1 E mu t dp f0 f1 f2, out2 E mu t dp f0 f1 f2, out3 E mu t dp f0 f1 f2,
      out4 E mu t dp f0 f1 f2, out5 E mu t dp f0 f1 f2, out6 E mu t dp f0 f1 f2, out7 E mu t dp f0 f1 f2,
      out8 E mu t dp f0 f1 f2, out9 E mu t dp f0 f1 f2, out10 E mu t dp f0 f1 f2, out11 E mu t dp f0 f1 f2] : Fin 12 → Fin 12 → ℝ) i j =
    E * t ^ 3 / 12 * (1 - mu ^ 2)⁻¹ * dp * (f0 i * (f0 j + mu * f1 j) + f1 i * (mu * f0 j + f1 j) + (1 - mu) / 2 * f2 i * f2 j) := by
  fin_cases i <;> simp only [Fin.mk_zero, Fin.mk_one, Fin.reduceFinMk, Matrix.cons_val, out0, out1, out2, out3, out4, out5,
      out6, out7, out8, out9, out10, out11] <;>
    fin_cases j <;> simp only [Fin.mk_zero, Fin.mk_one, Fin.reduceFinMk, Matrix.cons_val, div_eq_mul_inv,
      o0_0, o0_1, o0_2, o0_3, o0_4, o0_5, o0_6, o0_7, o0_8, o0_9, o0_10, o0_11, o1_0, o1_1, o1_2, o1_3, o1_4, o1_5, o1_6,
      o1_7, o1_8, o1_9, o1_10, o1_11, o2_0, o2_1, o2_2, o2_3, o2_4, o2_5, o2_6, o2_7, o2_8, o2_9, o2_10, o2_11, o3_0, o3_1,
      o3_2, o3_3, o3_4, o3_5, o3_6, o3_7, o3_8, o3_9, o3_10, o3_11, o4_0, o4_1, o4_2, o4_3, o4_4, o4_5, o4_6, o4_7, o4_8,
      o4_9, o4_10, o4_11, o5_0, o5_1, o5_2, o5_3, o5_4, o5_5, o5_6, o5_7, o5_8, o5_9, o5_10, o5_11, o6_0, o6_1, o6_2, o6_3,
      o6_4, o6_5, o6_6, o6_7, o6_8, o6_9, o6_10, o6_11, o7_0, o7_1, o7_2, o7_3, o7_4, o7_5, o7_6, o7_7, o7_8, o7_9, o7_10,
      o7_11, o8_0, o8_1, o8_2, o8_3, o8_4, o8_5, o8_6, o8_7, o8_8, o8_9, o8_10, o8_11, o9_0, o9_1, o9_2, o9_3, o9_4, o9_5,
      o9_6, o9_7, o9_8, o9_9, o9_10, o9_11, o10_0, o10_1, o10_2, o10_3, o10_4, o10_5, o10_6, o10_7, o10_8, o10_9, o10_10,
      o10_11, o11_0, o11_1, o11_2, o11_3, o11_4, o11_5, o11_6, o11_7, o11_8, o11_9, o11_10, o11_11] <;> ring

theorem dnat0 (x y : Fin 4 → ℝ) (f : ℝ → ℝ → ℝ) (ξ η : ℝ) : TMQ.dnat x y f ξ η 0 =
    (TMQ.tEta y ξ * dXi f ξ η - TMQ.tXi y η * dEta f ξ η) * ((TMQ.J x y ξ η).det)⁻¹ := by
  simp only [TMQ.dnat, inv_two]
  simp only [TMQ.J_text, Matrix.cons_val, Matrix.of_apply, div_eq_mul_inv]
theorem dnat1 (x y : Fin 4 → ℝ) (f : ℝ → ℝ → ℝ) (ξ η : ℝ) : TMQ.dnat x y f ξ η 1 =
    (TMQ.tXi x η * dEta f ξ η - TMQ.tEta x ξ * dXi f ξ η) * ((TMQ.J x y ξ η).det)⁻¹ := by
  simp only [TMQ.dnat, inv_two]
  simp only [TMQ.J_text, Matrix.cons_val, Matrix.of_apply, div_eq_mul_inv]

section rows
variable (mu t : ℝ) (x y : Fin 4 → ℝ) (ξ η : ℝ)

/-- a row of the text at the corners of an element -/
noncomputable abbrev at_ (f : ℝ → ℝ → ℝ → ℝ → ℝ → ℝ → ℝ → ℝ → ℝ → ℝ → ℝ → ℝ → ℝ → ℝ → ℝ → ℝ → ℝ → ℝ → ℝ → ℝ → ℝ → ℝ → ℝ → ℝ → Fin 12 → ℝ) : Fin 12 → ℝ :=
  f ((TMQ.J x y ξ η).det) (TMQ.tXi x η) (TMQ.tEta y ξ) (-TMQ.tEta x ξ) (-TMQ.tXi y η)
    (TMQ.d x y 3 ^ 2) (TMQ.d x y 0 ^ 2) (TMQ.d x y 1 ^ 2) (TMQ.d x y 2 ^ 2) (TMQ.w mu t x y 3) (TMQ.w mu t x y 0) (TMQ.w mu t x y 1)
    (TMQ.w mu t x y 2) t ξ η (x 0) (x 1) (x 2) (x 3) (y 0) (y 1) (y 2) (y 3)

theorem e0_0 : TMQ.Bb mu t x y ξ η 0 (0, 0) = at_ mu t x y ξ η row0 0 := by
  obtain ⟨m0, m1, m2, m3⟩ := M_dXi ξ η
  obtain ⟨m0', m1', m2', m3'⟩ := M_dEta ξ η
  obtain ⟨n0, n1, n2, n3⟩ := N_dXi ξ η
  obtain ⟨n0', n1', n2', n3'⟩ := N_dEta ξ η
  obtain ⟨s0, s1, s2, s3⟩ := TMQ.M_text
  simp only [TMQ.Bb, Matrix.neg_apply, Matrix.add_apply, Matrix.mul_apply, Fin.sum_univ_four, TMQ.H0, TMQ.H1, TMQ.H2, TMQ.alpha, TMQ.beta,
    Matrix.cons_val, at_, row0, num0_0, TMQ.delta_text, dnat0, dnat1]
  generalize (TMQ.J x y ξ η).det = D
  generalize TMQ.tXi x η = a
  generalize TMQ.tXi y η = b
  generalize TMQ.tEta x ξ = c
  generalize TMQ.tEta y ξ = e
  generalize TMQ.w mu t x y = w
  generalize TMQ.d x y = d
  simp only [TMQ.N_text, s0, s1, s2, s3, m0, m1, m2, m3, m0', m1', m2', m3', n0, n1, n2, n3, n0', n1', n2', n3', TMQ.b, TMQ.c,
    Matrix.cons_val, div_eq_mul_inv, mul_inv]
  ring

theorem e0_1 : TMQ.Bb mu t x y ξ η 0 (0, 1) = at_ mu t x y ξ η row0 1 := by
  obtain ⟨m0, m1, m2, m3⟩ := M_dXi ξ η
  obtain ⟨m0', m1', m2', m3'⟩ := M_dEta ξ η
  obtain ⟨n0, n1, n2, n3⟩ := N_dXi ξ η
  obtain ⟨n0', n1', n2', n3'⟩ := N_dEta ξ η
  obtain ⟨s0, s1, s2, s3⟩ := TMQ.M_text
  simp only [TMQ.Bb, Matrix.neg_apply, Matrix.add_apply, Matrix.mul_apply, Fin.sum_univ_four, TMQ.H0, TMQ.H1, TMQ.H2, TMQ.alpha, TMQ.beta,
    Matrix.cons_val, at_, row0, num0_1, TMQ.delta_text, dnat0, dnat1]
  generalize (TMQ.J x y ξ η).det = D
  generalize TMQ.tXi x η = a
  generalize TMQ.tXi y η = b
  generalize TMQ.tEta x ξ = c
  generalize TMQ.tEta y ξ = e
  generalize TMQ.w mu t x y = w
  generalize TMQ.d x y = d
  simp only [TMQ.N_text, s0, s1, s2, s3, m0, m1, m2, m3, m0', m1', m2', m3', n0, n1, n2, n3, n0', n1', n2', n3', TMQ.b, TMQ.c,
    Matrix.cons_val, div_eq_mul_inv, mul_inv]
  ring

theorem e0_2 : TMQ.Bb mu t x y ξ η 0 (0, 2) = at_ mu t x y ξ η row0 2 := by
  obtain ⟨m0, m1, m2, m3⟩ := M_dXi ξ η
  obtain ⟨m0', m1', m2', m3'⟩ := M_dEta ξ η
  obtain ⟨n0, n1, n2, n3⟩ := N_dXi ξ η
  obtain ⟨n0', n1', n2', n3'⟩ := N_dEta ξ η
  obtain ⟨s0, s1, s2, s3⟩ := TMQ.M_text
  simp only [TMQ.Bb, Matrix.neg_apply, Matrix.add_apply, Matrix.mul_apply, Fin.sum_univ_four, TMQ.H0, TMQ.H1, TMQ.H2, TMQ.alpha, TMQ.beta,
    Matrix.cons_val, at_, row0, num0_2, TMQ.delta_text, dnat0, dnat1]
  generalize (TMQ.J x y ξ η).det = D
  generalize TMQ.tXi x η = a
  generalize TMQ.tXi y η = b
  generalize TMQ.tEta x ξ = c
  generalize TMQ.tEta y ξ = e
  generalize TMQ.w mu t x y = w
  generalize TMQ.d x y = d
  simp only [TMQ.N_text, s0, s1, s2, s3, m0, m1, m2, m3, m0', m1', m2', m3', n0, n1, n2, n3, n0', n1', n2', n3', TMQ.b, TMQ.c,
    Matrix.cons_val, div_eq_mul_inv, mul_inv]
  ring

theorem e0_3 : TMQ.Bb mu t x y ξ η 0 (1, 0) = at_ mu t x y ξ η row0 3 := by
  obtain ⟨m0, m1, m2, m3⟩ := M_dXi ξ η
  obtain ⟨m0', m1', m2', m3'⟩ := M_dEta ξ η
  obtain ⟨n0, n1, n2, n3⟩ := N_dXi ξ η
  obtain ⟨n0', n1', n2', n3'⟩ := N_dEta ξ η
  obtain ⟨s0, s1, s2, s3⟩ := TMQ.M_text
  simp only [TMQ.Bb, Matrix.neg_apply, Matrix.add_apply, Matrix.mul_apply, Fin.sum_univ_four, TMQ.H0, TMQ.H1, TMQ.H2, TMQ.alpha, TMQ.beta,
    Matrix.cons_val, at_, row0, num0_3, TMQ.delta_text, dnat0, dnat1]
  generalize (TMQ.J x y ξ η).det = D
  generalize TMQ.tXi x η = a
  generalize TMQ.tXi y η = b
  generalize TMQ.tEta x ξ = c
  generalize TMQ.tEta y ξ = e
  generalize TMQ.w mu t x y = w
  generalize TMQ.d x y = d
  simp only [TMQ.N_text, s0, s1, s2, s3, m0, m1, m2, m3, m0', m1', m2', m3', n0, n1, n2, n3, n0', n1', n2', n3', TMQ.b, TMQ.c,
    Matrix.cons_val, div_eq_mul_inv, mul_inv]
  ring

theorem e0_4 : TMQ.Bb mu t x y ξ η 0 (1, 1) = at_ mu t x y ξ η row0 4 := by
  obtain ⟨m0, m1, m2, m3⟩ := M_dXi ξ η
  obtain ⟨m0', m1', m2', m3'⟩ := M_dEta ξ η
  obtain ⟨n0, n1, n2, n3⟩ := N_dXi ξ η
  obtain ⟨n0', n1', n2', n3'⟩ := N_dEta ξ η
  obtain ⟨s0, s1, s2, s3⟩ := TMQ.M_text
  simp only [TMQ.Bb, Matrix.neg_apply, Matrix.add_apply, Matrix.mul_apply, Fin.sum_univ_four, TMQ.H0, TMQ.H1, TMQ.H2, TMQ.alpha, TMQ.beta,
    Matrix.cons_val, at_, row0, num0_4, TMQ.delta_text, dnat0, dnat1]
  generalize (TMQ.J x y ξ η).det = D
  generalize TMQ.tXi x η = a
  generalize TMQ.tXi y η = b
  generalize TMQ.tEta x ξ = c
  generalize TMQ.tEta y ξ = e
  generalize TMQ.w mu t x y = w
  generalize TMQ.d x y = d
  simp only [TMQ.N_text, s0, s1, s2, s3, m0, m1, m2, m3, m0', m1', m2', m3', n0, n1, n2, n3, n0', n1', n2', n3', TMQ.b, TMQ.c,
    Matrix.cons_val, div_eq_mul_inv, mul_inv]
  ring

theorem e0_5 : TMQ.Bb mu t x y ξ η 0 (1, 2) = at_ mu t x y ξ η row0 5 := by
  obtain ⟨m0, m1, m2, m3⟩ := M_dXi ξ η
  obtain ⟨m0', m1', m2', m3'⟩ := M_dEta ξ η
  obtain ⟨n0, n1, n2, n3⟩ := N_dXi ξ η
  obtain ⟨n0', n1', n2', n3'⟩ := N_dEta ξ η
  obtain ⟨s0, s1, s2, s3⟩ := TMQ.M_text
  simp only [TMQ.Bb, Matrix.neg_apply, Matrix.add_apply, Matrix.mul_apply, Fin.sum_univ_four, TMQ.H0, TMQ.H1, TMQ.H2, TMQ.alpha, TMQ.beta,
    Matrix.cons_val, at_, row0, num0_5, TMQ.delta_text, dnat0, dnat1]
  generalize (TMQ.J x y ξ η).det = D
  generalize TMQ.tXi x η = a
  generalize TMQ.tXi y η = b
  generalize TMQ.tEta x ξ = c
  generalize TMQ.tEta y ξ = e
  generalize TMQ.w mu t x y = w
  generalize TMQ.d x y = d
  simp only [TMQ.N_text, s0, s1, s2, s3, m0, m1, m2, m3, m0', m1', m2', m3', n0, n1, n2, n3, n0', n1', n2', n3', TMQ.b, TMQ.c,
    Matrix.cons_val, div_eq_mul_inv, mul_inv]
  ring

theorem e0_6 : TMQ.Bb mu t x y ξ η 0 (2, 0) = at_ mu t x y ξ η row0 6 := by
  obtain ⟨m0, m1, m2, m3⟩ := M_dXi ξ η
  obtain ⟨m0', m1', m2', m3'⟩ := M_dEta ξ η
  obtain ⟨n0, n1, n2, n3⟩ := N_dXi ξ η
  obtain ⟨n0', n1', n2', n3'⟩ := N_dEta ξ η
  obtain ⟨s0, s1, s2, s3⟩ := TMQ.M_text
  simp only [TMQ.Bb, Matrix.neg_apply, Matrix.add_apply, Matrix.mul_apply, Fin.sum_univ_four, TMQ.H0, TMQ.H1, TMQ.H2, TMQ.alpha, TMQ.beta,
    Matrix.cons_val, at_, row0, num0_6, TMQ.delta_text, dnat0, dnat1]
  generalize (TMQ.J x y ξ η).det = D
  generalize TMQ.tXi x η = a
  generalize TMQ.tXi y η = b
  generalize TMQ.tEta x ξ = c
  generalize TMQ.tEta y ξ = e
  generalize TMQ.w mu t x y = w
  generalize TMQ.d x y = d
  simp only [TMQ.N_text, s0, s1, s2, s3, m0, m1, m2, m3, m0', m1', m2', m3', n0, n1, n2, n3, n0', n1', n2', n3', TMQ.b, TMQ.c,
    Matrix.cons_val, div_eq_mul_inv, mul_inv]
  ring

theorem e0_7 : TMQ.Bb mu t x y ξ η 0 (2, 1) = at_ mu t x y ξ η row0 7 := by
  obtain ⟨m0, m1, m2, m3⟩ := M_dXi ξ η
  obtain ⟨m0', m1', m2', m3'⟩ := M_dEta ξ η
  obtain ⟨n0, n1, n2, n3⟩ := N_dXi ξ η
  obtain ⟨n0', n1', n2', n3'⟩ := N_dEta ξ η
  obtain ⟨s0, s1, s2, s3⟩ := TMQ.M_text
  simp only [TMQ.Bb, Matrix.neg_apply, Matrix.add_apply, Matrix.mul_apply, Fin.sum_univ_four, TMQ.H0, TMQ.H1, TMQ.H2, TMQ.alpha, TMQ.beta,
    Matrix.cons_val, at_, row0, num0_7, TMQ.delta_text, dnat0, dnat1]
  generalize (TMQ.J x y ξ η).det = D
  generalize TMQ.tXi x η = a
  generalize TMQ.tXi y η = b
  generalize TMQ.tEta x ξ = c
  generalize TMQ.tEta y ξ = e
  generalize TMQ.w mu t x y = w
  generalize TMQ.d x y = d
  simp only [TMQ.N_text, s0, s1, s2, s3, m0, m1, m2, m3, m0', m1', m2', m3', n0, n1, n2, n3, n0', n1', n2', n3', TMQ.b, TMQ.c,
    Matrix.cons_val, div_eq_mul_inv, mul_inv]
  ring

theorem e0_8 : TMQ.Bb mu t x y ξ η 0 (2, 2) = at_ mu t x y ξ η row0 8 := by
  obtain ⟨m0, m1, m2, m3⟩ := M_dXi ξ η
  obtain ⟨m0', m1', m2', m3'⟩ := M_dEta ξ η
  obtain ⟨n0, n1, n2, n3⟩ := N_dXi ξ η
  obtain ⟨n0', n1', n2', n3'⟩ := N_dEta ξ η
  obtain ⟨s0, s1, s2, s3⟩ := TMQ.M_text
  simp only [TMQ.Bb, Matrix.neg_apply, Matrix.add_apply, Matrix.mul_apply, Fin.sum_univ_four, TMQ.H0, TMQ.H1, TMQ.H2, TMQ.alpha, TMQ.beta,
    Matrix.cons_val, at_, row0, num0_8, TMQ.delta_text, dnat0, dnat1]
  generalize (TMQ.J x y ξ η).det = D
  generalize TMQ.tXi x η = a
  generalize TMQ.tXi y η = b
  generalize TMQ.tEta x ξ = c
  generalize TMQ.tEta y ξ = e
  generalize TMQ.w mu t x y = w
  generalize TMQ.d x y = d
  simp only [TMQ.N_text, s0, s1, s2, s3, m0, m1, m2, m3, m0', m1', m2', m3', n0, n1, n2, n3, n0', n1', n2', n3', TMQ.b, TMQ.c,
    Matrix.cons_val, div_eq_mul_inv, mul_inv]
  ring

theorem e0_9 : TMQ.Bb mu t x y ξ η 0 (3, 0) = at_ mu t x y ξ η row0 9 := by
  obtain ⟨m0, m1, m2, m3⟩ := M_dXi ξ η
  obtain ⟨m0', m1', m2', m3'⟩ := M_dEta ξ η
  obtain ⟨n0, n1, n2, n3⟩ := N_dXi ξ η
  obtain ⟨n0', n1', n2', n3'⟩ := N_dEta ξ η
  obtain ⟨s0, s1, s2, s3⟩ := TMQ.M_text
  simp only [TMQ.Bb, Matrix.neg_apply, Matrix.add_apply, Matrix.mul_apply, Fin.sum_univ_four, TMQ.H0, TMQ.H1, TMQ.H2, TMQ.alpha, TMQ.beta,
    Matrix.cons_val, at_, row0, num0_9, TMQ.delta_text, dnat0, dnat1]
  generalize (TMQ.J x y ξ η).det = D
  generalize TMQ.tXi x η = a
  generalize TMQ.tXi y η = b
  generalize TMQ.tEta x ξ = c
  generalize TMQ.tEta y ξ = e
  generalize TMQ.w mu t x y = w
  generalize TMQ.d x y = d
  simp only [TMQ.N_text, s0, s1, s2, s3, m0, m1, m2, m3, m0', m1', m2', m3', n0, n1, n2, n3, n0', n1', n2', n3', TMQ.b, TMQ.c,
    Matrix.cons_val, div_eq_mul_inv, mul_inv]
  ring

theorem e0_10 : TMQ.Bb mu t x y ξ η 0 (3, 1) = at_ mu t x y ξ η row0 10 := by
  obtain ⟨m0, m1, m2, m3⟩ := M_dXi ξ η
  obtain ⟨m0', m1', m2', m3'⟩ := M_dEta ξ η
  obtain ⟨n0, n1, n2, n3⟩ := N_dXi ξ η
  obtain ⟨n0', n1', n2', n3'⟩ := N_dEta ξ η
  obtain ⟨s0, s1, s2, s3⟩ := TMQ.M_text
  simp only [TMQ.Bb, Matrix.neg_apply, Matrix.add_apply, Matrix.mul_apply, Fin.sum_univ_four, TMQ.H0, TMQ.H1, TMQ.H2, TMQ.alpha, TMQ.beta,
    Matrix.cons_val, at_, row0, num0_10, TMQ.delta_text, dnat0, dnat1]
  generalize (TMQ.J x y ξ η).det = D
  generalize TMQ.tXi x η = a
  generalize TMQ.tXi y η = b
  generalize TMQ.tEta x ξ = c
  generalize TMQ.tEta y ξ = e
  generalize TMQ.w mu t x y = w
  generalize TMQ.d x y = d
  simp only [TMQ.N_text, s0, s1, s2, s3, m0, m1, m2, m3, m0', m1', m2', m3', n0, n1, n2, n3, n0', n1', n2', n3', TMQ.b, TMQ.c,
    Matrix.cons_val, div_eq_mul_inv, mul_inv]
  ring

theorem e0_11 : TMQ.Bb mu t x y ξ η 0 (3, 2) = at_ mu t x y ξ η row0 11 := by
  obtain ⟨m0, m1, m2, m3⟩ := M_dXi ξ η
  obtain ⟨m0', m1', m2', m3'⟩ := M_dEta ξ η
  obtain ⟨n0, n1, n2, n3⟩ := N_dXi ξ η
  obtain ⟨n0', n1', n2', n3'⟩ := N_dEta ξ η
  obtain ⟨s0, s1, s2, s3⟩ := TMQ.M_text
  simp only [TMQ.Bb, Matrix.neg_apply, Matrix.add_apply, Matrix.mul_apply, Fin.sum_univ_four, TMQ.H0, TMQ.H1, TMQ.H2, TMQ.alpha, TMQ.beta,
    Matrix.cons_val, at_, row0, num0_11, TMQ.delta_text, dnat0, dnat1]
  generalize (TMQ.J x y ξ η).det = D
  generalize TMQ.tXi x η = a
  generalize TMQ.tXi y η = b
  generalize TMQ.tEta x ξ = c
  generalize TMQ.tEta y ξ = e
  generalize TMQ.w mu t x y = w
  generalize TMQ.d x y = d
  simp only [TMQ.N_text, s0, s1, s2, s3, m0, m1, m2, m3, m0', m1', m2', m3', n0, n1, n2, n3, n0', n1', n2', n3', TMQ.b, TMQ.c,
    Matrix.cons_val, div_eq_mul_inv, mul_inv]
  ring

theorem e1_0 : TMQ.Bb mu t x y ξ η 1 (0, 0) = at_ mu t x y ξ η row1 0 := by
  obtain ⟨m0, m1, m2, m3⟩ := M_dXi ξ η
  obtain ⟨m0', m1', m2', m3'⟩ := M_dEta ξ η
  obtain ⟨n0, n1, n2, n3⟩ := N_dXi ξ η
  obtain ⟨n0', n1', n2', n3'⟩ := N_dEta ξ η
  obtain ⟨s0, s1, s2, s3⟩ := TMQ.M_text
  simp only [TMQ.Bb, Matrix.neg_apply, Matrix.add_apply, Matrix.mul_apply, Fin.sum_univ_four, TMQ.H0, TMQ.H1, TMQ.H2, TMQ.alpha, TMQ.beta,
    Matrix.cons_val, at_, row1, num1_0, TMQ.delta_text, dnat0, dnat1]
  generalize (TMQ.J x y ξ η).det = D
  generalize TMQ.tXi x η = a
  generalize TMQ.tXi y η = b
  generalize TMQ.tEta x ξ = c
  generalize TMQ.tEta y ξ = e
  generalize TMQ.w mu t x y = w
  generalize TMQ.d x y = d
  simp only [TMQ.N_text, s0, s1, s2, s3, m0, m1, m2, m3, m0', m1', m2', m3', n0, n1, n2, n3, n0', n1', n2', n3', TMQ.b, TMQ.c,
    Matrix.cons_val, div_eq_mul_inv, mul_inv]
  ring

theorem e1_1 : TMQ.Bb mu t x y ξ η 1 (0, 1) = at_ mu t x y ξ η row1 1 := by
  obtain ⟨m0, m1, m2, m3⟩ := M_dXi ξ η
  obtain ⟨m0', m1', m2', m3'⟩ := M_dEta ξ η
  obtain ⟨n0, n1, n2, n3⟩ := N_dXi ξ η
  obtain ⟨n0', n1', n2', n3'⟩ := N_dEta ξ η
  obtain ⟨s0, s1, s2, s3⟩ := TMQ.M_text
  simp only [TMQ.Bb, Matrix.neg_apply, Matrix.add_apply, Matrix.mul_apply, Fin.sum_univ_four, TMQ.H0, TMQ.H1, TMQ.H2, TMQ.alpha, TMQ.beta,
    Matrix.cons_val, at_, row1, num1_1, TMQ.delta_text, dnat0, dnat1]
  generalize (TMQ.J x y ξ η).det = D
  generalize TMQ.tXi x η = a
  generalize TMQ.tXi y η = b
  generalize TMQ.tEta x ξ = c
  generalize TMQ.tEta y ξ = e
  generalize TMQ.w mu t x y = w
  generalize TMQ.d x y = d
  simp only [TMQ.N_text, s0, s1, s2, s3, m0, m1, m2, m3, m0', m1', m2', m3', n0, n1, n2, n3, n0', n1', n2', n3', TMQ.b, TMQ.c,
    Matrix.cons_val, div_eq_mul_inv, mul_inv]
  ring

theorem e1_2 : TMQ.Bb mu t x y ξ η 1 (0, 2) = at_ mu t x y ξ η row1 2 := by
  obtain ⟨m0, m1, m2, m3⟩ := M_dXi ξ η
  obtain ⟨m0', m1', m2', m3'⟩ := M_dEta ξ η
  obtain ⟨n0, n1, n2, n3⟩ := N_dXi ξ η
  obtain ⟨n0', n1', n2', n3'⟩ := N_dEta ξ η
  obtain ⟨s0, s1, s2, s3⟩ := TMQ.M_text
  simp only [TMQ.Bb, Matrix.neg_apply, Matrix.add_apply, Matrix.mul_apply, Fin.sum_univ_four, TMQ.H0, TMQ.H1, TMQ.H2, TMQ.alpha, TMQ.beta,
    Matrix.cons_val, at_, row1, num1_2, TMQ.delta_text, dnat0, dnat1]
  generalize (TMQ.J x y ξ η).det = D
  generalize TMQ.tXi x η = a
  generalize TMQ.tXi y η = b
  generalize TMQ.tEta x ξ = c
  generalize TMQ.tEta y ξ = e
  generalize TMQ.w mu t x y = w
  generalize TMQ.d x y = d
  simp only [TMQ.N_text, s0, s1, s2, s3, m0, m1, m2, m3, m0', m1', m2', m3', n0, n1, n2, n3, n0', n1', n2', n3', TMQ.b, TMQ.c,
    Matrix.cons_val, div_eq_mul_inv, mul_inv]
  ring

theorem e1_3 : TMQ.Bb mu t x y ξ η 1 (1, 0) = at_ mu t x y ξ η row1 3 := by
  obtain ⟨m0, m1, m2, m3⟩ := M_dXi ξ η
  obtain ⟨m0', m1', m2', m3'⟩ := M_dEta ξ η
  obtain ⟨n0, n1, n2, n3⟩ := N_dXi ξ η
  obtain ⟨n0', n1', n2', n3'⟩ := N_dEta ξ η
  obtain ⟨s0, s1, s2, s3⟩ := TMQ.M_text
  simp only [TMQ.Bb, Matrix.neg_apply, Matrix.add_apply, Matrix.mul_apply, Fin.sum_univ_four, TMQ.H0, TMQ.H1, TMQ.H2, TMQ.alpha, TMQ.beta,
    Matrix.cons_val, at_, row1, num1_3, TMQ.delta_text, dnat0, dnat1]
  generalize (TMQ.J x y ξ η).det = D
  generalize TMQ.tXi x η = a
  generalize TMQ.tXi y η = b
  generalize TMQ.tEta x ξ = c
  generalize TMQ.tEta y ξ = e
  generalize TMQ.w mu t x y = w
  generalize TMQ.d x y = d
  simp only [TMQ.N_text, s0, s1, s2, s3, m0, m1, m2, m3, m0', m1', m2', m3', n0, n1, n2, n3, n0', n1', n2', n3', TMQ.b, TMQ.c,
    Matrix.cons_val, div_eq_mul_inv, mul_inv]
  ring

theorem e1_4 : TMQ.Bb mu t x y ξ η 1 (1, 1) = at_ mu t x y ξ η row1 4 := by
  obtain ⟨m0, m1, m2, m3⟩ := M_dXi ξ η
  obtain ⟨m0', m1', m2', m3'⟩ := M_dEta ξ η
  obtain ⟨n0, n1, n2, n3⟩ := N_dXi ξ η
  obtain ⟨n0', n1', n2', n3'⟩ := N_dEta ξ η
  obtain ⟨s0, s1, s2, s3⟩ := TMQ.M_text
  simp only [TMQ.Bb, Matrix.neg_apply, Matrix.add_apply, Matrix.mul_apply, Fin.sum_univ_four, TMQ.H0, TMQ.H1, TMQ.H2, TMQ.alpha, TMQ.beta,
    Matrix.cons_val, at_, row1, num1_4, TMQ.delta_text, dnat0, dnat1]
  generalize (TMQ.J x y ξ η).det = D
  generalize TMQ.tXi x η = a
  generalize TMQ.tXi y η = b
  generalize TMQ.tEta x ξ = c
  generalize TMQ.tEta y ξ = e
  generalize TMQ.w mu t x y = w
  generalize TMQ.d x y = d
  simp only [TMQ.N_text, s0, s1, s2, s3, m0, m1, m2, m3, m0', m1', m2', m3', n0, n1, n2, n3, n0', n1', n2', n3', TMQ.b, TMQ.c,
    Matrix.cons_val, div_eq_mul_inv, mul_inv]
  ring

theorem e1_5 : TMQ.Bb mu t x y ξ η 1 (1, 2) = at_ mu t x y ξ η row1 5 := by
  obtain ⟨m0, m1, m2, m3⟩ := M_dXi ξ η
  obtain ⟨m0', m1', m2', m3'⟩ := M_dEta ξ η
  obtain ⟨n0, n1, n2, n3⟩ := N_dXi ξ η
  obtain ⟨n0', n1', n2', n3'⟩ := N_dEta ξ η
  obtain ⟨s0, s1, s2, s3⟩ := TMQ.M_text
  simp only [TMQ.Bb, Matrix.neg_apply, Matrix.add_apply, Matrix.mul_apply, Fin.sum_univ_four, TMQ.H0, TMQ.H1, TMQ.H2, TMQ.alpha, TMQ.beta,
    Matrix.cons_val, at_, row1, num1_5, TMQ.delta_text, dnat0, dnat1]
  generalize (TMQ.J x y ξ η).det = D
  generalize TMQ.tXi x η = a
  generalize TMQ.tXi y η = b
  generalize TMQ.tEta x ξ = c
  generalize TMQ.tEta y ξ = e
  generalize TMQ.w mu t x y = w
  generalize TMQ.d x y = d
  simp only [TMQ.N_text, s0, s1, s2, s3, m0, m1, m2, m3, m0', m1', m2', m3', n0, n1, n2, n3, n0', n1', n2', n3', TMQ.b, TMQ.c,
    Matrix.cons_val, div_eq_mul_inv, mul_inv]
  ring

theorem e1_6 : TMQ.Bb mu t x y ξ η 1 (2, 0) = at_ mu t x y ξ η row1 6 := by
  obtain ⟨m0, m1, m2, m3⟩ := M_dXi ξ η
  obtain ⟨m0', m1', m2', m3'⟩ := M_dEta ξ η
  obtain ⟨n0, n1, n2, n3⟩ := N_dXi ξ η
  obtain ⟨n0', n1', n2', n3'⟩ := N_dEta ξ η
  obtain ⟨s0, s1, s2, s3⟩ := TMQ.M_text
  simp only [TMQ.Bb, Matrix.neg_apply, Matrix.add_apply, Matrix.mul_apply, Fin.sum_univ_four, TMQ.H0, TMQ.H1, TMQ.H2, TMQ.alpha, TMQ.beta,
    Matrix.cons_val, at_, row1, num1_6, TMQ.delta_text, dnat0, dnat1]
  generalize (TMQ.J x y ξ η).det = D
  generalize TMQ.tXi x η = a
  generalize TMQ.tXi y η = b
  generalize TMQ.tEta x ξ = c
  generalize TMQ.tEta y ξ = e
  generalize TMQ.w mu t x y = w
  generalize TMQ.d x y = d
  simp only [TMQ.N_text, s0, s1, s2, s3, m0, m1, m2, m3, m0', m1', m2', m3', n0, n1, n2, n3, n0', n1', n2', n3', TMQ.b, TMQ.c,
    Matrix.cons_val, div_eq_mul_inv, mul_inv]
  ring

theorem e1_7 : TMQ.Bb mu t x y ξ η 1 (2, 1) = at_ mu t x y ξ η row1 7 := by
  obtain ⟨m0, m1, m2, m3⟩ := M_dXi ξ η
  obtain ⟨m0', m1', m2', m3'⟩ := M_dEta ξ η
  obtain ⟨n0, n1, n2, n3⟩ := N_dXi ξ η
  obtain ⟨n0', n1', n2', n3'⟩ := N_dEta ξ η
  obtain ⟨s0, s1, s2, s3⟩ := TMQ.M_text
  simp only [TMQ.Bb, Matrix.neg_apply, Matrix.add_apply, Matrix.mul_apply, Fin.sum_univ_four, TMQ.H0, TMQ.H1, TMQ.H2, TMQ.alpha, TMQ.beta,
    Matrix.cons_val, at_, row1, num1_7, TMQ.delta_text, dnat0, dnat1]
  generalize (TMQ.J x y ξ η).det = D
  generalize TMQ.tXi x η = a
  generalize TMQ.tXi y η = b
  generalize TMQ.tEta x ξ = c
  generalize TMQ.tEta y ξ = e
  generalize TMQ.w mu t x y = w
  generalize TMQ.d x y = d
  simp only [TMQ.N_text, s0, s1, s2, s3, m0, m1, m2, m3, m0', m1', m2', m3', n0, n1, n2, n3, n0', n1', n2', n3', TMQ.b, TMQ.c,
    Matrix.cons_val, div_eq_mul_inv, mul_inv]
  ring

theorem e1_8 : TMQ.Bb mu t x y ξ η 1 (2, 2) = at_ mu t x y ξ η row1 8 := by
  obtain ⟨m0, m1, m2, m3⟩ := M_dXi ξ η
  obtain ⟨m0', m1', m2', m3'⟩ := M_dEta ξ η
  obtain ⟨n0, n1, n2, n3⟩ := N_dXi ξ η
  obtain ⟨n0', n1', n2', n3'⟩ := N_dEta ξ η
  obtain ⟨s0, s1, s2, s3⟩ := TMQ.M_text
  simp only [TMQ.Bb, Matrix.neg_apply, Matrix.add_apply, Matrix.mul_apply, Fin.sum_univ_four, TMQ.H0, TMQ.H1, TMQ.H2, TMQ.alpha, TMQ.beta,
    Matrix.cons_val, at_, row1, num1_8, TMQ.delta_text, dnat0, dnat1]
  generalize (TMQ.J x y ξ η).det = D
  generalize TMQ.tXi x η = a
  generalize TMQ.tXi y η = b
  generalize TMQ.tEta x ξ = c
  generalize TMQ.tEta y ξ = e
  generalize TMQ.w mu t x y = w
  generalize TMQ.d x y = d
  simp only [TMQ.N_text, s0, s1, s2, s3, m0, m1, m2, m3, m0', m1', m2', m3', n0, n1, n2, n3, n0', n1', n2', n3', TMQ.b, TMQ.c,
    Matrix.cons_val, div_eq_mul_inv, mul_inv]
  ring

theorem e1_9 : TMQ.Bb mu t x y ξ η 1 (3, 0) = at_ mu t x y ξ η row1 9 := by
  obtain ⟨m0, m1, m2, m3⟩ := M_dXi ξ η
  obtain ⟨m0', m1', m2', m3'⟩ := M_dEta ξ η
  obtain ⟨n0, n1, n2, n3⟩ := N_dXi ξ η
  obtain ⟨n0', n1', n2', n3'⟩ := N_dEta ξ η
  obtain ⟨s0, s1, s2, s3⟩ := TMQ.M_text
  simp only [TMQ.Bb, Matrix.neg_apply, Matrix.add_apply, Matrix.mul_apply, Fin.sum_univ_four, TMQ.H0, TMQ.H1, TMQ.H2, TMQ.alpha, TMQ.beta,
    Matrix.cons_val, at_, row1, num1_9, TMQ.delta_text, dnat0, dnat1]
  generalize (TMQ.J x y ξ η).det = D
  generalize TMQ.tXi x η = a
  generalize TMQ.tXi y η = b
  generalize TMQ.tEta x ξ = c
  generalize TMQ.tEta y ξ = e
  generalize TMQ.w mu t x y = w
  generalize TMQ.d x y = d
  simp only [TMQ.N_text, s0, s1, s2, s3, m0, m1, m2, m3, m0', m1', m2', m3', n0, n1, n2, n3, n0', n1', n2', n3', TMQ.b, TMQ.c,
    Matrix.cons_val, div_eq_mul_inv, mul_inv]
  ring

theorem e1_10 : TMQ.Bb mu t x y ξ η 1 (3, 1) = at_ mu t x y ξ η row1 10 := by
  obtain ⟨m0, m1, m2, m3⟩ := M_dXi ξ η
  obtain ⟨m0', m1', m2', m3'⟩ := M_dEta ξ η
  obtain ⟨n0, n1, n2, n3⟩ := N_dXi ξ η
  obtain ⟨n0', n1', n2', n3'⟩ := N_dEta ξ η
  obtain ⟨s0, s1, s2, s3⟩ := TMQ.M_text
  simp only [TMQ.Bb, Matrix.neg_apply, Matrix.add_apply, Matrix.mul_apply, Fin.sum_univ_four, TMQ.H0, TMQ.H1, TMQ.H2, TMQ.alpha, TMQ.beta,
    Matrix.cons_val, at_, row1, num1_10, TMQ.delta_text, dnat0, dnat1]
  generalize (TMQ.J x y ξ η).det = D
  generalize TMQ.tXi x η = a
  generalize TMQ.tXi y η = b
  generalize TMQ.tEta x ξ = c
  generalize TMQ.tEta y ξ = e
  generalize TMQ.w mu t x y = w
  generalize TMQ.d x y = d
  simp only [TMQ.N_text, s0, s1, s2, s3, m0, m1, m2, m3, m0', m1', m2', m3', n0, n1, n2, n3, n0', n1', n2', n3', TMQ.b, TMQ.c,
    Matrix.cons_val, div_eq_mul_inv, mul_inv]
  ring

theorem e1_11 : TMQ.Bb mu t x y ξ η 1 (3, 2) = at_ mu t x y ξ η row1 11 := by
  obtain ⟨m0, m1, m2, m3⟩ := M_dXi ξ η
  obtain ⟨m0', m1', m2', m3'⟩ := M_dEta ξ η
  obtain ⟨n0, n1, n2, n3⟩ := N_dXi ξ η
  obtain ⟨n0', n1', n2', n3'⟩ := N_dEta ξ η
  obtain ⟨s0, s1, s2, s3⟩ := TMQ.M_text
  simp only [TMQ.Bb, Matrix.neg_apply, Matrix.add_apply, Matrix.mul_apply, Fin.sum_univ_four, TMQ.H0, TMQ.H1, TMQ.H2, TMQ.alpha, TMQ.beta,
    Matrix.cons_val, at_, row1, num1_11, TMQ.delta_text, dnat0, dnat1]
  generalize (TMQ.J x y ξ η).det = D
  generalize TMQ.tXi x η = a
  generalize TMQ.tXi y η = b
  generalize TMQ.tEta x ξ = c
  generalize TMQ.tEta y ξ = e
  generalize TMQ.w mu t x y = w
  generalize TMQ.d x y = d
  simp only [TMQ.N_text, s0, s1, s2, s3, m0, m1, m2, m3, m0', m1', m2', m3', n0, n1, n2, n3, n0', n1', n2', n3', TMQ.b, TMQ.c,
    Matrix.cons_val, div_eq_mul_inv, mul_inv]
  ring

theorem e2_0 : TMQ.Bb mu t x y ξ η 2 (0, 0) = at_ mu t x y ξ η row2 0 := by
  obtain ⟨m0, m1, m2, m3⟩ := M_dXi ξ η
  obtain ⟨m0', m1', m2', m3'⟩ := M_dEta ξ η
  obtain ⟨n0, n1, n2, n3⟩ := N_dXi ξ η
  obtain ⟨n0', n1', n2', n3'⟩ := N_dEta ξ η
  obtain ⟨s0, s1, s2, s3⟩ := TMQ.M_text
  simp only [TMQ.Bb, Matrix.neg_apply, Matrix.add_apply, Matrix.mul_apply, Fin.sum_univ_four, TMQ.H0, TMQ.H1, TMQ.H2, TMQ.alpha, TMQ.beta,
    Matrix.cons_val, at_, row2, num2_0, TMQ.delta_text, dnat0, dnat1]
  generalize (TMQ.J x y ξ η).det = D
  generalize TMQ.tXi x η = a
  generalize TMQ.tXi y η = b
  generalize TMQ.tEta x ξ = c
  generalize TMQ.tEta y ξ = e
  generalize TMQ.w mu t x y = w
  generalize TMQ.d x y = d
  simp only [TMQ.N_text, s0, s1, s2, s3, m0, m1, m2, m3, m0', m1', m2', m3', n0, n1, n2, n3, n0', n1', n2', n3', TMQ.b, TMQ.c,
    Matrix.cons_val, div_eq_mul_inv, mul_inv]
  ring

theorem e2_1 : TMQ.Bb mu t x y ξ η 2 (0, 1) = at_ mu t x y ξ η row2 1 := by
  obtain ⟨m0, m1, m2, m3⟩ := M_dXi ξ η
  obtain ⟨m0', m1', m2', m3'⟩ := M_dEta ξ η
  obtain ⟨n0, n1, n2, n3⟩ := N_dXi ξ η
  obtain ⟨n0', n1', n2', n3'⟩ := N_dEta ξ η
  obtain ⟨s0, s1, s2, s3⟩ := TMQ.M_text
  simp only [TMQ.Bb, Matrix.neg_apply, Matrix.add_apply, Matrix.mul_apply, Fin.sum_univ_four, TMQ.H0, TMQ.H1, TMQ.H2, TMQ.alpha, TMQ.beta,
    Matrix.cons_val, at_, row2, num2_1, TMQ.delta_text, dnat0, dnat1]
  generalize (TMQ.J x y ξ η).det = D
  generalize TMQ.tXi x η = a
  generalize TMQ.tXi y η = b
  generalize TMQ.tEta x ξ = c
  generalize TMQ.tEta y ξ = e
  generalize TMQ.w mu t x y = w
  generalize TMQ.d x y = d
  simp only [TMQ.N_text, s0, s1, s2, s3, m0, m1, m2, m3, m0', m1', m2', m3', n0, n1, n2, n3, n0', n1', n2', n3', TMQ.b, TMQ.c,
    Matrix.cons_val, div_eq_mul_inv, mul_inv]
  ring

theorem e2_2 : TMQ.Bb mu t x y ξ η 2 (0, 2) = at_ mu t x y ξ η row2 2 := by
  obtain ⟨m0, m1, m2, m3⟩ := M_dXi ξ η
  obtain ⟨m0', m1', m2', m3'⟩ := M_dEta ξ η
  obtain ⟨n0, n1, n2, n3⟩ := N_dXi ξ η
  obtain ⟨n0', n1', n2', n3'⟩ := N_dEta ξ η
  obtain ⟨s0, s1, s2, s3⟩ := TMQ.M_text
  simp only [TMQ.Bb, Matrix.neg_apply, Matrix.add_apply, Matrix.mul_apply, Fin.sum_univ_four, TMQ.H0, TMQ.H1, TMQ.H2, TMQ.alpha, TMQ.beta,
    Matrix.cons_val, at_, row2, num2_2, TMQ.delta_text, dnat0, dnat1]
  generalize (TMQ.J x y ξ η).det = D
  generalize TMQ.tXi x η = a
  generalize TMQ.tXi y η = b
  generalize TMQ.tEta x ξ = c
  generalize TMQ.tEta y ξ = e
  generalize TMQ.w mu t x y = w
  generalize TMQ.d x y = d
  simp only [TMQ.N_text, s0, s1, s2, s3, m0, m1, m2, m3, m0', m1', m2', m3', n0, n1, n2, n3, n0', n1', n2', n3', TMQ.b, TMQ.c,
    Matrix.cons_val, div_eq_mul_inv, mul_inv]
  ring

theorem e2_3 : TMQ.Bb mu t x y ξ η 2 (1, 0) = at_ mu t x y ξ η row2 3 := by
  obtain ⟨m0, m1, m2, m3⟩ := M_dXi ξ η
  obtain ⟨m0', m1', m2', m3'⟩ := M_dEta ξ η
  obtain ⟨n0, n1, n2, n3⟩ := N_dXi ξ η
  obtain ⟨n0', n1', n2', n3'⟩ := N_dEta ξ η
  obtain ⟨s0, s1, s2, s3⟩ := TMQ.M_text
  simp only [TMQ.Bb, Matrix.neg_apply, Matrix.add_apply, Matrix.mul_apply, Fin.sum_univ_four, TMQ.H0, TMQ.H1, TMQ.H2, TMQ.alpha, TMQ.beta,
    Matrix.cons_val, at_, row2, num2_3, TMQ.delta_text, dnat0, dnat1]
  generalize (TMQ.J x y ξ η).det = D
  generalize TMQ.tXi x η = a
  generalize TMQ.tXi y η = b
  generalize TMQ.tEta x ξ = c
  generalize TMQ.tEta y ξ = e
  generalize TMQ.w mu t x y = w
  generalize TMQ.d x y = d
  simp only [TMQ.N_text, s0, s1, s2, s3, m0, m1, m2, m3, m0', m1', m2', m3', n0, n1, n2, n3, n0', n1', n2', n3', TMQ.b, TMQ.c,
    Matrix.cons_val, div_eq_mul_inv, mul_inv]
  ring

theorem e2_4 : TMQ.Bb mu t x y ξ η 2 (1, 1) = at_ mu t x y ξ η row2 4 := by
  obtain ⟨m0, m1, m2, m3⟩ := M_dXi ξ η
  obtain ⟨m0', m1', m2', m3'⟩ := M_dEta ξ η
  obtain ⟨n0, n1, n2, n3⟩ := N_dXi ξ η
  obtain ⟨n0', n1', n2', n3'⟩ := N_dEta ξ η
  obtain ⟨s0, s1, s2, s3⟩ := TMQ.M_text
  simp only [TMQ.Bb, Matrix.neg_apply, Matrix.add_apply, Matrix.mul_apply, Fin.sum_univ_four, TMQ.H0, TMQ.H1, TMQ.H2, TMQ.alpha, TMQ.beta,
    Matrix.cons_val, at_, row2, num2_4, TMQ.delta_text, dnat0, dnat1]
  generalize (TMQ.J x y ξ η).det = D
  generalize TMQ.tXi x η = a
  generalize TMQ.tXi y η = b
  generalize TMQ.tEta x ξ = c
  generalize TMQ.tEta y ξ = e
  generalize TMQ.w mu t x y = w
  generalize TMQ.d x y = d
  simp only [TMQ.N_text, s0, s1, s2, s3, m0, m1, m2, m3, m0', m1', m2', m3', n0, n1, n2, n3, n0', n1', n2', n3', TMQ.b, TMQ.c,
    Matrix.cons_val, div_eq_mul_inv, mul_inv]
  ring

theorem e2_5 : TMQ.Bb mu t x y ξ η 2 (1, 2) = at_ mu t x y ξ η row2 5 := by
  obtain ⟨m0, m1, m2, m3⟩ := M_dXi ξ η
  obtain ⟨m0', m1', m2', m3'⟩ := M_dEta ξ η
  obtain ⟨n0, n1, n2, n3⟩ := N_dXi ξ η
  obtain ⟨n0', n1', n2', n3'⟩ := N_dEta ξ η
  obtain ⟨s0, s1, s2, s3⟩ := TMQ.M_text
  simp only [TMQ.Bb, Matrix.neg_apply, Matrix.add_apply, Matrix.mul_apply, Fin.sum_univ_four, TMQ.H0, TMQ.H1, TMQ.H2, TMQ.alpha, TMQ.beta,
    Matrix.cons_val, at_, row2, num2_5, TMQ.delta_text, dnat0, dnat1]
  generalize (TMQ.J x y ξ η).det = D
  generalize TMQ.tXi x η = a
  generalize TMQ.tXi y η = b
  generalize TMQ.tEta x ξ = c
  generalize TMQ.tEta y ξ = e
  generalize TMQ.w mu t x y = w
  generalize TMQ.d x y = d
  simp only [TMQ.N_text, s0, s1, s2, s3, m0, m1, m2, m3, m0', m1', m2', m3', n0, n1, n2, n3, n0', n1', n2', n3', TMQ.b, TMQ.c,
    Matrix.cons_val, div_eq_mul_inv, mul_inv]
  ring

theorem e2_6 : TMQ.Bb mu t x y ξ η 2 (2, 0) = at_ mu t x y ξ η row2 6 := by
  obtain ⟨m0, m1, m2, m3⟩ := M_dXi ξ η
  obtain ⟨m0', m1', m2', m3'⟩ := M_dEta ξ η
  obtain ⟨n0, n1, n2, n3⟩ := N_dXi ξ η
  obtain ⟨n0', n1', n2', n3'⟩ := N_dEta ξ η
  obtain ⟨s0, s1, s2, s3⟩ := TMQ.M_text
  simp only [TMQ.Bb, Matrix.neg_apply, Matrix.add_apply, Matrix.mul_apply, Fin.sum_univ_four, TMQ.H0, TMQ.H1, TMQ.H2, TMQ.alpha, TMQ.beta,
    Matrix.cons_val, at_, row2, num2_6, TMQ.delta_text, dnat0, dnat1]
  generalize (TMQ.J x y ξ η).det = D
  generalize TMQ.tXi x η = a
  generalize TMQ.tXi y η = b
  generalize TMQ.tEta x ξ = c
  generalize TMQ.tEta y ξ = e
  generalize TMQ.w mu t x y = w
  generalize TMQ.d x y = d
  simp only [TMQ.N_text, s0, s1, s2, s3, m0, m1, m2, m3, m0', m1', m2', m3', n0, n1, n2, n3, n0', n1', n2', n3', TMQ.b, TMQ.c,
    Matrix.cons_val, div_eq_mul_inv, mul_inv]
  ring

theorem e2_7 : TMQ.Bb mu t x y ξ η 2 (2, 1) = at_ mu t x y ξ η row2 7 := by
  obtain ⟨m0, m1, m2, m3⟩ := M_dXi ξ η
  obtain ⟨m0', m1', m2', m3'⟩ := M_dEta ξ η
  obtain ⟨n0, n1, n2, n3⟩ := N_dXi ξ η
  obtain ⟨n0', n1', n2', n3'⟩ := N_dEta ξ η
  obtain ⟨s0, s1, s2, s3⟩ := TMQ.M_text
  simp only [TMQ.Bb, Matrix.neg_apply, Matrix.add_apply, Matrix.mul_apply, Fin.sum_univ_four, TMQ.H0, TMQ.H1, TMQ.H2, TMQ.alpha, TMQ.beta,
    Matrix.cons_val, at_, row2, num2_7, TMQ.delta_text, dnat0, dnat1]
  generalize (TMQ.J x y ξ η).det = D
  generalize TMQ.tXi x η = a
  generalize TMQ.tXi y η = b
  generalize TMQ.tEta x ξ = c
  generalize TMQ.tEta y ξ = e
  generalize TMQ.w mu t x y = w
  generalize TMQ.d x y = d
  simp only [TMQ.N_text, s0, s1, s2, s3, m0, m1, m2, m3, m0', m1', m2', m3', n0, n1, n2, n3, n0', n1', n2', n3', TMQ.b, TMQ.c,
    Matrix.cons_val, div_eq_mul_inv, mul_inv]
  ring

theorem e2_8 : TMQ.Bb mu t x y ξ η 2 (2, 2) = at_ mu t x y ξ η row2 8 := by
  obtain ⟨m0, m1, m2, m3⟩ := M_dXi ξ η
  obtain ⟨m0', m1', m2', m3'⟩ := M_dEta ξ η
  obtain ⟨n0, n1, n2, n3⟩ := N_dXi ξ η
  obtain ⟨n0', n1', n2', n3'⟩ := N_dEta ξ η
  obtain ⟨s0, s1, s2, s3⟩ := TMQ.M_text
  simp only [TMQ.Bb, Matrix.neg_apply, Matrix.add_apply, Matrix.mul_apply, Fin.sum_univ_four, TMQ.H0, TMQ.H1, TMQ.H2, TMQ.alpha, TMQ.beta,
    Matrix.cons_val, at_, row2, num2_8, TMQ.delta_text, dnat0, dnat1]
  generalize (TMQ.J x y ξ η).det = D
  generalize TMQ.tXi x η = a
  generalize TMQ.tXi y η = b
  generalize TMQ.tEta x ξ = c
  generalize TMQ.tEta y ξ = e
  generalize TMQ.w mu t x y = w
  generalize TMQ.d x y = d
  simp only [TMQ.N_text, s0, s1, s2, s3, m0, m1, m2, m3, m0', m1', m2', m3', n0, n1, n2, n3, n0', n1', n2', n3', TMQ.b, TMQ.c,
    Matrix.cons_val, div_eq_mul_inv, mul_inv]
  ring

theorem e2_9 : TMQ.Bb mu t x y ξ η 2 (3, 0) = at_ mu t x y ξ η row2 9 := by
  obtain ⟨m0, m1, m2, m3⟩ := M_dXi ξ η
  obtain ⟨m0', m1', m2', m3'⟩ := M_dEta ξ η
  obtain ⟨n0, n1, n2, n3⟩ := N_dXi ξ η
  obtain ⟨n0', n1', n2', n3'⟩ := N_dEta ξ η
  obtain ⟨s0, s1, s2, s3⟩ := TMQ.M_text
  simp only [TMQ.Bb, Matrix.neg_apply, Matrix.add_apply, Matrix.mul_apply, Fin.sum_univ_four, TMQ.H0, TMQ.H1, TMQ.H2, TMQ.alpha, TMQ.beta,
    Matrix.cons_val, at_, row2, num2_9, TMQ.delta_text, dnat0, dnat1]
  generalize (TMQ.J x y ξ η).det = D
  generalize TMQ.tXi x η = a
  generalize TMQ.tXi y η = b
  generalize TMQ.tEta x ξ = c
  generalize TMQ.tEta y ξ = e
  generalize TMQ.w mu t x y = w
  generalize TMQ.d x y = d
  simp only [TMQ.N_text, s0, s1, s2, s3, m0, m1, m2, m3, m0', m1', m2', m3', n0, n1, n2, n3, n0', n1', n2', n3', TMQ.b, TMQ.c,
    Matrix.cons_val, div_eq_mul_inv, mul_inv]
  ring

theorem e2_10 : TMQ.Bb mu t x y ξ η 2 (3, 1) = at_ mu t x y ξ η row2 10 := by
  obtain ⟨m0, m1, m2, m3⟩ := M_dXi ξ η
  obtain ⟨m0', m1', m2', m3'⟩ := M_dEta ξ η
  obtain ⟨n0, n1, n2, n3⟩ := N_dXi ξ η
  obtain ⟨n0', n1', n2', n3'⟩ := N_dEta ξ η
  obtain ⟨s0, s1, s2, s3⟩ := TMQ.M_text
  simp only [TMQ.Bb, Matrix.neg_apply, Matrix.add_apply, Matrix.mul_apply, Fin.sum_univ_four, TMQ.H0, TMQ.H1, TMQ.H2, TMQ.alpha, TMQ.beta,
    Matrix.cons_val, at_, row2, num2_10, TMQ.delta_text, dnat0, dnat1]
  generalize (TMQ.J x y ξ η).det = D
  generalize TMQ.tXi x η = a
  generalize TMQ.tXi y η = b
  generalize TMQ.tEta x ξ = c
  generalize TMQ.tEta y ξ = e
  generalize TMQ.w mu t x y = w
  generalize TMQ.d x y = d
  simp only [TMQ.N_text, s0, s1, s2, s3, m0, m1, m2, m3, m0', m1', m2', m3', n0, n1, n2, n3, n0', n1', n2', n3', TMQ.b, TMQ.c,
    Matrix.cons_val, div_eq_mul_inv, mul_inv]
  ring

theorem e2_11 : TMQ.Bb mu t x y ξ η 2 (3, 2) = at_ mu t x y ξ η row2 11 := by
  obtain ⟨m0, m1, m2, m3⟩ := M_dXi ξ η
  obtain ⟨m0', m1', m2', m3'⟩ := M_dEta ξ η
  obtain ⟨n0, n1, n2, n3⟩ := N_dXi ξ η
  obtain ⟨n0', n1', n2', n3'⟩ := N_dEta ξ η
  obtain ⟨s0, s1, s2, s3⟩ := TMQ.M_text
  simp only [TMQ.Bb, Matrix.neg_apply, Matrix.add_apply, Matrix.mul_apply, Fin.sum_univ_four, TMQ.H0, TMQ.H1, TMQ.H2, TMQ.alpha, TMQ.beta,
    Matrix.cons_val, at_, row2, num2_11, TMQ.delta_text, dnat0, dnat1]
  generalize (TMQ.J x y ξ η).det = D
  generalize TMQ.tXi x η = a
  generalize TMQ.tXi y η = b
  generalize TMQ.tEta x ξ = c
  generalize TMQ.tEta y ξ = e
  generalize TMQ.w mu t x y = w
  generalize TMQ.d x y = d
  simp only [TMQ.N_text, s0, s1, s2, s3, m0, m1, m2, m3, m0', m1', m2', m3', n0, n1, n2, n3, n0', n1', n2', n3', TMQ.b, TMQ.c,
    Matrix.cons_val, div_eq_mul_inv, mul_inv]
  ring

theorem row0_eq (k : Fin 4 × Fin 3) : TMQ.Bb mu t x y ξ η 0 k = at_ mu t x y ξ η row0 (ix k) := by
  obtain ⟨i, c⟩ := k
  fin_cases i <;> fin_cases c
  · exact e0_0 mu t x y ξ η
  · exact e0_1 mu t x y ξ η
  · exact e0_2 mu t x y ξ η
  · exact e0_3 mu t x y ξ η
  · exact e0_4 mu t x y ξ η
  · exact e0_5 mu t x y ξ η
  · exact e0_6 mu t x y ξ η
  · exact e0_7 mu t x y ξ η
  · exact e0_8 mu t x y ξ η
  · exact e0_9 mu t x y ξ η
  · exact e0_10 mu t x y ξ η
  · exact e0_11 mu t x y ξ η

theorem row1_eq (k : Fin 4 × Fin 3) : TMQ.Bb mu t x y ξ η 1 k = at_ mu t x y ξ η row1 (ix k) := by
  obtain ⟨i, c⟩ := k
  fin_cases i <;> fin_cases c
  · exact e1_0 mu t x y ξ η
  · exact e1_1 mu t x y ξ η
  · exact e1_2 mu t x y ξ η
  · exact e1_3 mu t x y ξ η
  · exact e1_4 mu t x y ξ η
  · exact e1_5 mu t x y ξ η
  · exact e1_6 mu t x y ξ η
  · exact e1_7 mu t x y ξ η
  · exact e1_8 mu t x y ξ η
  · exact e1_9 mu t x y ξ η
  · exact e1_10 mu t x y ξ η
  · exact e1_11 mu t x y ξ η

theorem row2_eq (k : Fin 4 × Fin 3) : TMQ.Bb mu t x y ξ η 2 k = at_ mu t x y ξ η row2 (ix k) := by
  obtain ⟨i, c⟩ := k
  fin_cases i <;> fin_cases c
  · exact e2_0 mu t x y ξ η
  · exact e2_1 mu t x y ξ η
  · exact e2_2 mu t x y ξ η
  · exact e2_3 mu t x y ξ η
  · exact e2_4 mu t x y ξ η
  · exact e2_5 mu t x y ξ η
  · exact e2_6 mu t x y ξ η
  · exact e2_7 mu t x y ξ η
  · exact e2_8 mu t x y ξ η
  · exact e2_9 mu t x y ξ η
  · exact e2_10 mu t x y ξ η
  · exact e2_11 mu t x y ξ η

end rows

theorem nt_xi (p : Fin 4 → ℝ) (η : ℝ) :
    -p 0 * (0.25 * η - 0.25) - p 1 * (0.25 - 0.25 * η) - p 2 * (0.25 * η + 0.25) - p 3 * (-0.25 * η - 0.25) = -TMQ.tXi p η := by
  unfold TMQ.tXi
  ring
theorem nt_eta (p : Fin 4 → ℝ) (ξ : ℝ) :
    -p 0 * (0.25 * ξ - 0.25) - p 1 * (-0.25 * ξ - 0.25) - p 2 * (0.25 * ξ + 0.25) - p 3 * (0.25 - 0.25 * ξ) = -TMQ.tEta p ξ := by
  unfold TMQ.tEta
  ring
theorem t_xi (p : Fin 4 → ℝ) (η : ℝ) :
    p 0 * (0.25 * η - 0.25) + p 1 * (0.25 - 0.25 * η) + p 2 * (0.25 * η + 0.25) + p 3 * (-0.25 * η - 0.25) = TMQ.tXi p η := rfl
theorem t_eta (p : Fin 4 → ℝ) (ξ : ℝ) :
    p 0 * (0.25 * ξ - 0.25) + p 1 * (-0.25 * ξ - 0.25) + p 2 * (0.25 * ξ + 0.25) + p 3 * (0.25 - 0.25 * ξ) = TMQ.tEta p ξ := rfl
theorem dj_eq (x y : Fin 4 → ℝ) (ξ η : ℝ) : TMQ.tXi x η * TMQ.tEta y ξ - TMQ.tEta x ξ * TMQ.tXi y η = (TMQ.J x y ξ η).det := by
  rw [TMQ.J_det_text]
  ring

theorem autofunc_eq (E mu t : ℝ) (x y : Fin 4 → ℝ) (ξ η : ℝ) : autofunc_c E mu t x y ξ η = TMQ.BDBb E mu t x y ξ η := by
  ext k l
  have hk : 12 * (3 * k.1.val + k.2.val) + (3 * l.1.val + l.2.val) = 12 * (ix k).val + (ix l).val := rfl
  have h1 : Fin.ofNat 12 ((12 * (ix k).val + (ix l).val) / 12) = ix k := by
    apply Fin.ext
    simp only [Fin.ofNat]
    omega
  have h2 : Fin.ofNat 12 (12 * (ix k).val + (ix l).val) = ix l := by
    apply Fin.ext
    simp only [Fin.ofNat]
    omega
  obtain ⟨d0, d1, d2, d3⟩ := TMQ.d_sq_text x y
  simp only [autofunc_c, out, hk, h1, h2, TMQ.dp_text, nt_xi, nt_eta, t_xi, t_eta, dj_eq, ← d0, ← d1, ← d2, ← d3]
  rw [entries]
  simp only [TMQ.BDBb, bendingD, isoD, Matrix.mul_apply, Matrix.transpose_apply, Matrix.smul_apply, Fin.sum_univ_three, smul_eq_mul,
    row0_eq, row1_eq, row2_eq, at_, TMQ.w]
  generalize row0 _ _ _ _ _ _ _ _ _ _ _ _ _ _ _ _ _ _ _ _ _ _ _ _ = r0
  generalize row1 _ _ _ _ _ _ _ _ _ _ _ _ _ _ _ _ _ _ _ _ _ _ _ _ = r1
  generalize row2 _ _ _ _ _ _ _ _ _ _ _ _ _ _ _ _ _ _ _ _ _ _ _ _ = r2
  simp [div_eq_mul_inv]
  ring

end TMQbText

end Hyperstatic
