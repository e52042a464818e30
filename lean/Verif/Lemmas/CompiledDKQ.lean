import Verif.Model.CompiledDKQ
import Verif.Lemmas.ShellStrain
import Mathlib.Tactic.Ring
import Mathlib.Tactic.NormNum.OfScientific
import Mathlib.Tactic.FinCases

/-! The text of the 4-node plate routine, entry by entry. -/

namespace Hyperstatic
open Matrix

namespace DKQText

/-- unknown `3*i+c` -/
def ix (k : Fin 4 × Fin 3) : Fin 12 := ⟨3 * k.1.val + k.2.val, by omega⟩

theorem entries (E mu t dp : ℝ) (f0 f1 f2 : Fin 12 → ℝ) (i j : Fin 12) :
    (![out0 E mu t dp f0 f1 f2, out1 E mu t dp f0 f1 f2, out2 E mu t dp f0 f1 f2, out3 E mu t dp f0 f1 f2,
      out4 E mu t dp f0 f1 f2, out5 E mu t dp f0 f1 f2, out6 E mu t dp f0 f1 f2, out7 E mu t dp f0 f1 f2,
      out8 E mu t dp f0 f1 f2, out9 E mu t dp f0 f1 f2, out10 E mu t dp f0 f1 f2, out11 E mu t dp f0 f1 f2] : Fin 12 → Fin 12 → ℝ) i j =
    E * t ^ 3 / 12 * (1 - mu ^ 2)⁻¹ * dp * (f0 i * (f0 j + mu * f1 j) + f1 i * (mu * f0 j + f1 j) + (1 - mu) / 2 * f2 i * f2 j) := by
  fin_cases i <;> simp only [Fin.mk_zero, Fin.mk_one, Fin.reduceFinMk, Fin.zero_eta, Matrix.cons_val, out0, out1, out2, out3, out4, out5,
      out6, out7, out8, out9, out10, out11] <;>
    fin_cases j <;> simp only [Fin.mk_zero, Fin.mk_one, Fin.reduceFinMk, Fin.zero_eta, Matrix.cons_val, div_eq_mul_inv,
      o0_0, o0_1, o0_2, o0_3, o0_4, o0_5, o0_6, o0_7, o0_8, o0_9, o0_10, o0_11, o1_0, o1_1, o1_2, o1_3, o1_4, o1_5, o1_6,
      o1_7, o1_8, o1_9, o1_10, o1_11, o2_0, o2_1, o2_2, o2_3, o2_4, o2_5, o2_6, o2_7, o2_8, o2_9, o2_10, o2_11, o3_0, o3_1,
      o3_2, o3_3, o3_4, o3_5, o3_6, o3_7, o3_8, o3_9, o3_10, o3_11, o4_0, o4_1, o4_2, o4_3, o4_4, o4_5, o4_6, o4_7, o4_8,
      o4_9, o4_10, o4_11, o5_0, o5_1, o5_2, o5_3, o5_4, o5_5, o5_6, o5_7, o5_8, o5_9, o5_10, o5_11, o6_0, o6_1, o6_2, o6_3,
      o6_4, o6_5, o6_6, o6_7, o6_8, o6_9, o6_10, o6_11, o7_0, o7_1, o7_2, o7_3, o7_4, o7_5, o7_6, o7_7, o7_8, o7_9, o7_10,
      o7_11, o8_0, o8_1, o8_2, o8_3, o8_4, o8_5, o8_6, o8_7, o8_8, o8_9, o8_10, o8_11, o9_0, o9_1, o9_2, o9_3, o9_4, o9_5,
      o9_6, o9_7, o9_8, o9_9, o9_10, o9_11, o10_0, o10_1, o10_2, o10_3, o10_4, o10_5, o10_6, o10_7, o10_8, o10_9, o10_10,
      o10_11, o11_0, o11_1, o11_2, o11_3, o11_4, o11_5, o11_6, o11_7, o11_8, o11_9, o11_10, o11_11] <;> ring

section rows
variable (x y : Fin 4 → ℝ) (ξ η : ℝ)

/-- a row of the text at the corners of an element -/
noncomputable abbrev at_ (f : ℝ → ℝ → ℝ → ℝ → ℝ → ℝ → ℝ → ℝ → ℝ → ℝ → ℝ → ℝ → ℝ → ℝ → ℝ → ℝ → ℝ → ℝ → ℝ → Fin 12 → ℝ) : Fin 12 → ℝ :=
  f (DKQ.detJ x y ξ η) (DKQ.J1 x η) (-DKQ.J1 y η) (-DKQ.J2 x ξ) (DKQ.J2 y ξ) (DKQ.l2 x y 0) (DKQ.l2 x y 1) (DKQ.l2 x y 2) (DKQ.l2 x y 3)
    ξ η (x 0) (x 1) (x 2) (x 3) (y 0) (y 1) (y 2) (y 3)

theorem e0_0 : DKQ.B x y ξ η 0 (0, 0) = at_ x y ξ η row0 0 := by
  obtain ⟨m0, m1, m2, m3⟩ := M_dXi ξ η
  obtain ⟨m0', m1', m2', m3'⟩ := M_dEta ξ η
  obtain ⟨n0, n1, n2, n3⟩ := N_dXi ξ η
  obtain ⟨n0', n1', n2', n3'⟩ := N_dEta ξ η
  simp only [DKQ.B, at_, (Hx_dXi x y 0 ξ η).1, (Hx_dEta x y 0 ξ η).1, DKQ.a, DKQ.b, DKQ.c, DKQ.d, DKQ.e, row0, DKQ.pv, Matrix.cons_val, num0_0]
  generalize DKQ.l2 x y = L
  generalize DKQ.detJ x y ξ η = D
  generalize DKQ.J1 x η = a
  generalize DKQ.J1 y η = b
  generalize DKQ.J2 x ξ = c
  generalize DKQ.J2 y ξ = d
  simp only [m0, m1, m2, m3, m0', m1', m2', m3', n0, n1, n2, n3, n0', n1', n2', n3', DKQ.side, DKQ.nx, Matrix.cons_val, div_eq_mul_inv]
  ring

theorem e0_1 : DKQ.B x y ξ η 0 (0, 1) = at_ x y ξ η row0 1 := by
  obtain ⟨m0, m1, m2, m3⟩ := M_dXi ξ η
  obtain ⟨m0', m1', m2', m3'⟩ := M_dEta ξ η
  obtain ⟨n0, n1, n2, n3⟩ := N_dXi ξ η
  obtain ⟨n0', n1', n2', n3'⟩ := N_dEta ξ η
  simp only [DKQ.B, at_, (Hx_dXi x y 0 ξ η).2.1, (Hx_dEta x y 0 ξ η).2.1, DKQ.a, DKQ.b, DKQ.c, DKQ.d, DKQ.e, row0, DKQ.pv, Matrix.cons_val, num0_1]
  generalize DKQ.l2 x y = L
  generalize DKQ.detJ x y ξ η = D
  generalize DKQ.J1 x η = a
  generalize DKQ.J1 y η = b
  generalize DKQ.J2 x ξ = c
  generalize DKQ.J2 y ξ = d
  simp only [m0, m1, m2, m3, m0', m1', m2', m3', n0, n1, n2, n3, n0', n1', n2', n3', DKQ.side, DKQ.nx, Matrix.cons_val, div_eq_mul_inv]
  ring

theorem e0_2 : DKQ.B x y ξ η 0 (0, 2) = at_ x y ξ η row0 2 := by
  obtain ⟨m0, m1, m2, m3⟩ := M_dXi ξ η
  obtain ⟨m0', m1', m2', m3'⟩ := M_dEta ξ η
  obtain ⟨n0, n1, n2, n3⟩ := N_dXi ξ η
  obtain ⟨n0', n1', n2', n3'⟩ := N_dEta ξ η
  simp only [DKQ.B, at_, (Hx_dXi x y 0 ξ η).2.2, (Hx_dEta x y 0 ξ η).2.2, DKQ.a, DKQ.b, DKQ.c, DKQ.d, DKQ.e, row0, DKQ.pv, Matrix.cons_val, num0_2]
  generalize DKQ.l2 x y = L
  generalize DKQ.detJ x y ξ η = D
  generalize DKQ.J1 x η = a
  generalize DKQ.J1 y η = b
  generalize DKQ.J2 x ξ = c
  generalize DKQ.J2 y ξ = d
  simp only [m0, m1, m2, m3, m0', m1', m2', m3', n0, n1, n2, n3, n0', n1', n2', n3', DKQ.side, DKQ.nx, Matrix.cons_val, div_eq_mul_inv]
  ring

theorem e0_3 : DKQ.B x y ξ η 0 (1, 0) = at_ x y ξ η row0 3 := by
  obtain ⟨m0, m1, m2, m3⟩ := M_dXi ξ η
  obtain ⟨m0', m1', m2', m3'⟩ := M_dEta ξ η
  obtain ⟨n0, n1, n2, n3⟩ := N_dXi ξ η
  obtain ⟨n0', n1', n2', n3'⟩ := N_dEta ξ η
  simp only [DKQ.B, at_, (Hx_dXi x y 1 ξ η).1, (Hx_dEta x y 1 ξ η).1, DKQ.a, DKQ.b, DKQ.c, DKQ.d, DKQ.e, row0, DKQ.pv, Matrix.cons_val, num0_3]
  generalize DKQ.l2 x y = L
  generalize DKQ.detJ x y ξ η = D
  generalize DKQ.J1 x η = a
  generalize DKQ.J1 y η = b
  generalize DKQ.J2 x ξ = c
  generalize DKQ.J2 y ξ = d
  simp only [m0, m1, m2, m3, m0', m1', m2', m3', n0, n1, n2, n3, n0', n1', n2', n3', DKQ.side, DKQ.nx, Matrix.cons_val, div_eq_mul_inv]
  ring

theorem e0_4 : DKQ.B x y ξ η 0 (1, 1) = at_ x y ξ η row0 4 := by
  obtain ⟨m0, m1, m2, m3⟩ := M_dXi ξ η
  obtain ⟨m0', m1', m2', m3'⟩ := M_dEta ξ η
  obtain ⟨n0, n1, n2, n3⟩ := N_dXi ξ η
  obtain ⟨n0', n1', n2', n3'⟩ := N_dEta ξ η
  simp only [DKQ.B, at_, (Hx_dXi x y 1 ξ η).2.1, (Hx_dEta x y 1 ξ η).2.1, DKQ.a, DKQ.b, DKQ.c, DKQ.d, DKQ.e, row0, DKQ.pv, Matrix.cons_val, num0_4]
  generalize DKQ.l2 x y = L
  generalize DKQ.detJ x y ξ η = D
  generalize DKQ.J1 x η = a
  generalize DKQ.J1 y η = b
  generalize DKQ.J2 x ξ = c
  generalize DKQ.J2 y ξ = d
  simp only [m0, m1, m2, m3, m0', m1', m2', m3', n0, n1, n2, n3, n0', n1', n2', n3', DKQ.side, DKQ.nx, Matrix.cons_val, div_eq_mul_inv]
  ring

theorem e0_5 : DKQ.B x y ξ η 0 (1, 2) = at_ x y ξ η row0 5 := by
  obtain ⟨m0, m1, m2, m3⟩ := M_dXi ξ η
  obtain ⟨m0', m1', m2', m3'⟩ := M_dEta ξ η
  obtain ⟨n0, n1, n2, n3⟩ := N_dXi ξ η
  obtain ⟨n0', n1', n2', n3'⟩ := N_dEta ξ η
  simp only [DKQ.B, at_, (Hx_dXi x y 1 ξ η).2.2, (Hx_dEta x y 1 ξ η).2.2, DKQ.a, DKQ.b, DKQ.c, DKQ.d, DKQ.e, row0, DKQ.pv, Matrix.cons_val, num0_5]
  generalize DKQ.l2 x y = L
  generalize DKQ.detJ x y ξ η = D
  generalize DKQ.J1 x η = a
  generalize DKQ.J1 y η = b
  generalize DKQ.J2 x ξ = c
  generalize DKQ.J2 y ξ = d
  simp only [m0, m1, m2, m3, m0', m1', m2', m3', n0, n1, n2, n3, n0', n1', n2', n3', DKQ.side, DKQ.nx, Matrix.cons_val, div_eq_mul_inv]
  ring

theorem e0_6 : DKQ.B x y ξ η 0 (2, 0) = at_ x y ξ η row0 6 := by
  obtain ⟨m0, m1, m2, m3⟩ := M_dXi ξ η
  obtain ⟨m0', m1', m2', m3'⟩ := M_dEta ξ η
  obtain ⟨n0, n1, n2, n3⟩ := N_dXi ξ η
  obtain ⟨n0', n1', n2', n3'⟩ := N_dEta ξ η
  simp only [DKQ.B, at_, (Hx_dXi x y 2 ξ η).1, (Hx_dEta x y 2 ξ η).1, DKQ.a, DKQ.b, DKQ.c, DKQ.d, DKQ.e, row0, DKQ.pv, Matrix.cons_val, num0_6]
  generalize DKQ.l2 x y = L
  generalize DKQ.detJ x y ξ η = D
  generalize DKQ.J1 x η = a
  generalize DKQ.J1 y η = b
  generalize DKQ.J2 x ξ = c
  generalize DKQ.J2 y ξ = d
  simp only [m0, m1, m2, m3, m0', m1', m2', m3', n0, n1, n2, n3, n0', n1', n2', n3', DKQ.side, DKQ.nx, Matrix.cons_val, div_eq_mul_inv]
  ring

theorem e0_7 : DKQ.B x y ξ η 0 (2, 1) = at_ x y ξ η row0 7 := by
  obtain ⟨m0, m1, m2, m3⟩ := M_dXi ξ η
  obtain ⟨m0', m1', m2', m3'⟩ := M_dEta ξ η
  obtain ⟨n0, n1, n2, n3⟩ := N_dXi ξ η
  obtain ⟨n0', n1', n2', n3'⟩ := N_dEta ξ η
  simp only [DKQ.B, at_, (Hx_dXi x y 2 ξ η).2.1, (Hx_dEta x y 2 ξ η).2.1, DKQ.a, DKQ.b, DKQ.c, DKQ.d, DKQ.e, row0, DKQ.pv, Matrix.cons_val, num0_7]
  generalize DKQ.l2 x y = L
  generalize DKQ.detJ x y ξ η = D
  generalize DKQ.J1 x η = a
  generalize DKQ.J1 y η = b
  generalize DKQ.J2 x ξ = c
  generalize DKQ.J2 y ξ = d
  simp only [m0, m1, m2, m3, m0', m1', m2', m3', n0, n1, n2, n3, n0', n1', n2', n3', DKQ.side, DKQ.nx, Matrix.cons_val, div_eq_mul_inv]
  ring

theorem e0_8 : DKQ.B x y ξ η 0 (2, 2) = at_ x y ξ η row0 8 := by
  obtain ⟨m0, m1, m2, m3⟩ := M_dXi ξ η
  obtain ⟨m0', m1', m2', m3'⟩ := M_dEta ξ η
  obtain ⟨n0, n1, n2, n3⟩ := N_dXi ξ η
  obtain ⟨n0', n1', n2', n3'⟩ := N_dEta ξ η
  simp only [DKQ.B, at_, (Hx_dXi x y 2 ξ η).2.2, (Hx_dEta x y 2 ξ η).2.2, DKQ.a, DKQ.b, DKQ.c, DKQ.d, DKQ.e, row0, DKQ.pv, Matrix.cons_val, num0_8]
  generalize DKQ.l2 x y = L
  generalize DKQ.detJ x y ξ η = D
  generalize DKQ.J1 x η = a
  generalize DKQ.J1 y η = b
  generalize DKQ.J2 x ξ = c
  generalize DKQ.J2 y ξ = d
  simp only [m0, m1, m2, m3, m0', m1', m2', m3', n0, n1, n2, n3, n0', n1', n2', n3', DKQ.side, DKQ.nx, Matrix.cons_val, div_eq_mul_inv]
  ring

theorem e0_9 : DKQ.B x y ξ η 0 (3, 0) = at_ x y ξ η row0 9 := by
  obtain ⟨m0, m1, m2, m3⟩ := M_dXi ξ η
  obtain ⟨m0', m1', m2', m3'⟩ := M_dEta ξ η
  obtain ⟨n0, n1, n2, n3⟩ := N_dXi ξ η
  obtain ⟨n0', n1', n2', n3'⟩ := N_dEta ξ η
  simp only [DKQ.B, at_, (Hx_dXi x y 3 ξ η).1, (Hx_dEta x y 3 ξ η).1, DKQ.a, DKQ.b, DKQ.c, DKQ.d, DKQ.e, row0, DKQ.pv, Matrix.cons_val, num0_9]
  generalize DKQ.l2 x y = L
  generalize DKQ.detJ x y ξ η = D
  generalize DKQ.J1 x η = a
  generalize DKQ.J1 y η = b
  generalize DKQ.J2 x ξ = c
  generalize DKQ.J2 y ξ = d
  simp only [m0, m1, m2, m3, m0', m1', m2', m3', n0, n1, n2, n3, n0', n1', n2', n3', DKQ.side, DKQ.nx, Matrix.cons_val, div_eq_mul_inv]
  ring

theorem e0_10 : DKQ.B x y ξ η 0 (3, 1) = at_ x y ξ η row0 10 := by
  obtain ⟨m0, m1, m2, m3⟩ := M_dXi ξ η
  obtain ⟨m0', m1', m2', m3'⟩ := M_dEta ξ η
  obtain ⟨n0, n1, n2, n3⟩ := N_dXi ξ η
  obtain ⟨n0', n1', n2', n3'⟩ := N_dEta ξ η
  simp only [DKQ.B, at_, (Hx_dXi x y 3 ξ η).2.1, (Hx_dEta x y 3 ξ η).2.1, DKQ.a, DKQ.b, DKQ.c, DKQ.d, DKQ.e, row0, DKQ.pv, Matrix.cons_val, num0_10]
  generalize DKQ.l2 x y = L
  generalize DKQ.detJ x y ξ η = D
  generalize DKQ.J1 x η = a
  generalize DKQ.J1 y η = b
  generalize DKQ.J2 x ξ = c
  generalize DKQ.J2 y ξ = d
  simp only [m0, m1, m2, m3, m0', m1', m2', m3', n0, n1, n2, n3, n0', n1', n2', n3', DKQ.side, DKQ.nx, Matrix.cons_val, div_eq_mul_inv]
  ring

theorem e0_11 : DKQ.B x y ξ η 0 (3, 2) = at_ x y ξ η row0 11 := by
  obtain ⟨m0, m1, m2, m3⟩ := M_dXi ξ η
  obtain ⟨m0', m1', m2', m3'⟩ := M_dEta ξ η
  obtain ⟨n0, n1, n2, n3⟩ := N_dXi ξ η
  obtain ⟨n0', n1', n2', n3'⟩ := N_dEta ξ η
  simp only [DKQ.B, at_, (Hx_dXi x y 3 ξ η).2.2, (Hx_dEta x y 3 ξ η).2.2, DKQ.a, DKQ.b, DKQ.c, DKQ.d, DKQ.e, row0, DKQ.pv, Matrix.cons_val, num0_11]
  generalize DKQ.l2 x y = L
  generalize DKQ.detJ x y ξ η = D
  generalize DKQ.J1 x η = a
  generalize DKQ.J1 y η = b
  generalize DKQ.J2 x ξ = c
  generalize DKQ.J2 y ξ = d
  simp only [m0, m1, m2, m3, m0', m1', m2', m3', n0, n1, n2, n3, n0', n1', n2', n3', DKQ.side, DKQ.nx, Matrix.cons_val, div_eq_mul_inv]
  ring

theorem e1_0 : DKQ.B x y ξ η 1 (0, 0) = at_ x y ξ η row1 0 := by
  obtain ⟨m0, m1, m2, m3⟩ := M_dXi ξ η
  obtain ⟨m0', m1', m2', m3'⟩ := M_dEta ξ η
  obtain ⟨n0, n1, n2, n3⟩ := N_dXi ξ η
  obtain ⟨n0', n1', n2', n3'⟩ := N_dEta ξ η
  simp only [DKQ.B, at_, (Hy_dXi x y 0 ξ η).1, (Hy_dEta x y 0 ξ η).1, DKQ.a, DKQ.b, DKQ.c, DKQ.d, DKQ.e, row1, DKQ.pv, Matrix.cons_val, num1_0]
  generalize DKQ.l2 x y = L
  generalize DKQ.detJ x y ξ η = D
  generalize DKQ.J1 x η = a
  generalize DKQ.J1 y η = b
  generalize DKQ.J2 x ξ = c
  generalize DKQ.J2 y ξ = d
  simp only [m0, m1, m2, m3, m0', m1', m2', m3', n0, n1, n2, n3, n0', n1', n2', n3', DKQ.side, DKQ.nx, Matrix.cons_val, div_eq_mul_inv]
  ring

theorem e1_1 : DKQ.B x y ξ η 1 (0, 1) = at_ x y ξ η row1 1 := by
  obtain ⟨m0, m1, m2, m3⟩ := M_dXi ξ η
  obtain ⟨m0', m1', m2', m3'⟩ := M_dEta ξ η
  obtain ⟨n0, n1, n2, n3⟩ := N_dXi ξ η
  obtain ⟨n0', n1', n2', n3'⟩ := N_dEta ξ η
  simp only [DKQ.B, at_, (Hy_dXi x y 0 ξ η).2.1, (Hy_dEta x y 0 ξ η).2.1, DKQ.a, DKQ.b, DKQ.c, DKQ.d, DKQ.e, row1, DKQ.pv, Matrix.cons_val, num1_1]
  generalize DKQ.l2 x y = L
  generalize DKQ.detJ x y ξ η = D
  generalize DKQ.J1 x η = a
  generalize DKQ.J1 y η = b
  generalize DKQ.J2 x ξ = c
  generalize DKQ.J2 y ξ = d
  simp only [m0, m1, m2, m3, m0', m1', m2', m3', n0, n1, n2, n3, n0', n1', n2', n3', DKQ.side, DKQ.nx, Matrix.cons_val, div_eq_mul_inv]
  ring

theorem e1_2 : DKQ.B x y ξ η 1 (0, 2) = at_ x y ξ η row1 2 := by
  obtain ⟨m0, m1, m2, m3⟩ := M_dXi ξ η
  obtain ⟨m0', m1', m2', m3'⟩ := M_dEta ξ η
  obtain ⟨n0, n1, n2, n3⟩ := N_dXi ξ η
  obtain ⟨n0', n1', n2', n3'⟩ := N_dEta ξ η
  simp only [DKQ.B, at_, (Hy_dXi x y 0 ξ η).2.2, (Hy_dEta x y 0 ξ η).2.2, DKQ.a, DKQ.b, DKQ.c, DKQ.d, DKQ.e, row1, DKQ.pv, Matrix.cons_val, num1_2]
  generalize DKQ.l2 x y = L
  generalize DKQ.detJ x y ξ η = D
  generalize DKQ.J1 x η = a
  generalize DKQ.J1 y η = b
  generalize DKQ.J2 x ξ = c
  generalize DKQ.J2 y ξ = d
  simp only [m0, m1, m2, m3, m0', m1', m2', m3', n0, n1, n2, n3, n0', n1', n2', n3', DKQ.side, DKQ.nx, Matrix.cons_val, div_eq_mul_inv]
  ring

theorem e1_3 : DKQ.B x y ξ η 1 (1, 0) = at_ x y ξ η row1 3 := by
  obtain ⟨m0, m1, m2, m3⟩ := M_dXi ξ η
  obtain ⟨m0', m1', m2', m3'⟩ := M_dEta ξ η
  obtain ⟨n0, n1, n2, n3⟩ := N_dXi ξ η
  obtain ⟨n0', n1', n2', n3'⟩ := N_dEta ξ η
  simp only [DKQ.B, at_, (Hy_dXi x y 1 ξ η).1, (Hy_dEta x y 1 ξ η).1, DKQ.a, DKQ.b, DKQ.c, DKQ.d, DKQ.e, row1, DKQ.pv, Matrix.cons_val, num1_3]
  generalize DKQ.l2 x y = L
  generalize DKQ.detJ x y ξ η = D
  generalize DKQ.J1 x η = a
  generalize DKQ.J1 y η = b
  generalize DKQ.J2 x ξ = c
  generalize DKQ.J2 y ξ = d
  simp only [m0, m1, m2, m3, m0', m1', m2', m3', n0, n1, n2, n3, n0', n1', n2', n3', DKQ.side, DKQ.nx, Matrix.cons_val, div_eq_mul_inv]
  ring

theorem e1_4 : DKQ.B x y ξ η 1 (1, 1) = at_ x y ξ η row1 4 := by
  obtain ⟨m0, m1, m2, m3⟩ := M_dXi ξ η
  obtain ⟨m0', m1', m2', m3'⟩ := M_dEta ξ η
  obtain ⟨n0, n1, n2, n3⟩ := N_dXi ξ η
  obtain ⟨n0', n1', n2', n3'⟩ := N_dEta ξ η
  simp only [DKQ.B, at_, (Hy_dXi x y 1 ξ η).2.1, (Hy_dEta x y 1 ξ η).2.1, DKQ.a, DKQ.b, DKQ.c, DKQ.d, DKQ.e, row1, DKQ.pv, Matrix.cons_val, num1_4]
  generalize DKQ.l2 x y = L
  generalize DKQ.detJ x y ξ η = D
  generalize DKQ.J1 x η = a
  generalize DKQ.J1 y η = b
  generalize DKQ.J2 x ξ = c
  generalize DKQ.J2 y ξ = d
  simp only [m0, m1, m2, m3, m0', m1', m2', m3', n0, n1, n2, n3, n0', n1', n2', n3', DKQ.side, DKQ.nx, Matrix.cons_val, div_eq_mul_inv]
  ring

theorem e1_5 : DKQ.B x y ξ η 1 (1, 2) = at_ x y ξ η row1 5 := by
  obtain ⟨m0, m1, m2, m3⟩ := M_dXi ξ η
  obtain ⟨m0', m1', m2', m3'⟩ := M_dEta ξ η
  obtain ⟨n0, n1, n2, n3⟩ := N_dXi ξ η
  obtain ⟨n0', n1', n2', n3'⟩ := N_dEta ξ η
  simp only [DKQ.B, at_, (Hy_dXi x y 1 ξ η).2.2, (Hy_dEta x y 1 ξ η).2.2, DKQ.a, DKQ.b, DKQ.c, DKQ.d, DKQ.e, row1, DKQ.pv, Matrix.cons_val, num1_5]
  generalize DKQ.l2 x y = L
  generalize DKQ.detJ x y ξ η = D
  generalize DKQ.J1 x η = a
  generalize DKQ.J1 y η = b
  generalize DKQ.J2 x ξ = c
  generalize DKQ.J2 y ξ = d
  simp only [m0, m1, m2, m3, m0', m1', m2', m3', n0, n1, n2, n3, n0', n1', n2', n3', DKQ.side, DKQ.nx, Matrix.cons_val, div_eq_mul_inv]
  ring

theorem e1_6 : DKQ.B x y ξ η 1 (2, 0) = at_ x y ξ η row1 6 := by
  obtain ⟨m0, m1, m2, m3⟩ := M_dXi ξ η
  obtain ⟨m0', m1', m2', m3'⟩ := M_dEta ξ η
  obtain ⟨n0, n1, n2, n3⟩ := N_dXi ξ η
  obtain ⟨n0', n1', n2', n3'⟩ := N_dEta ξ η
  simp only [DKQ.B, at_, (Hy_dXi x y 2 ξ η).1, (Hy_dEta x y 2 ξ η).1, DKQ.a, DKQ.b, DKQ.c, DKQ.d, DKQ.e, row1, DKQ.pv, Matrix.cons_val, num1_6]
  generalize DKQ.l2 x y = L
  generalize DKQ.detJ x y ξ η = D
  generalize DKQ.J1 x η = a
  generalize DKQ.J1 y η = b
  generalize DKQ.J2 x ξ = c
  generalize DKQ.J2 y ξ = d
  simp only [m0, m1, m2, m3, m0', m1', m2', m3', n0, n1, n2, n3, n0', n1', n2', n3', DKQ.side, DKQ.nx, Matrix.cons_val, div_eq_mul_inv]
  ring

theorem e1_7 : DKQ.B x y ξ η 1 (2, 1) = at_ x y ξ η row1 7 := by
  obtain ⟨m0, m1, m2, m3⟩ := M_dXi ξ η
  obtain ⟨m0', m1', m2', m3'⟩ := M_dEta ξ η
  obtain ⟨n0, n1, n2, n3⟩ := N_dXi ξ η
  obtain ⟨n0', n1', n2', n3'⟩ := N_dEta ξ η
  simp only [DKQ.B, at_, (Hy_dXi x y 2 ξ η).2.1, (Hy_dEta x y 2 ξ η).2.1, DKQ.a, DKQ.b, DKQ.c, DKQ.d, DKQ.e, row1, DKQ.pv, Matrix.cons_val, num1_7]
  generalize DKQ.l2 x y = L
  generalize DKQ.detJ x y ξ η = D
  generalize DKQ.J1 x η = a
  generalize DKQ.J1 y η = b
  generalize DKQ.J2 x ξ = c
  generalize DKQ.J2 y ξ = d
  simp only [m0, m1, m2, m3, m0', m1', m2', m3', n0, n1, n2, n3, n0', n1', n2', n3', DKQ.side, DKQ.nx, Matrix.cons_val, div_eq_mul_inv]
  ring

theorem e1_8 : DKQ.B x y ξ η 1 (2, 2) = at_ x y ξ η row1 8 := by
  obtain ⟨m0, m1, m2, m3⟩ := M_dXi ξ η
  obtain ⟨m0', m1', m2', m3'⟩ := M_dEta ξ η
  obtain ⟨n0, n1, n2, n3⟩ := N_dXi ξ η
  obtain ⟨n0', n1', n2', n3'⟩ := N_dEta ξ η
  simp only [DKQ.B, at_, (Hy_dXi x y 2 ξ η).2.2, (Hy_dEta x y 2 ξ η).2.2, DKQ.a, DKQ.b, DKQ.c, DKQ.d, DKQ.e, row1, DKQ.pv, Matrix.cons_val, num1_8]
  generalize DKQ.l2 x y = L
  generalize DKQ.detJ x y ξ η = D
  generalize DKQ.J1 x η = a
  generalize DKQ.J1 y η = b
  generalize DKQ.J2 x ξ = c
  generalize DKQ.J2 y ξ = d
  simp only [m0, m1, m2, m3, m0', m1', m2', m3', n0, n1, n2, n3, n0', n1', n2', n3', DKQ.side, DKQ.nx, Matrix.cons_val, div_eq_mul_inv]
  ring

theorem e1_9 : DKQ.B x y ξ η 1 (3, 0) = at_ x y ξ η row1 9 := by
  obtain ⟨m0, m1, m2, m3⟩ := M_dXi ξ η
  obtain ⟨m0', m1', m2', m3'⟩ := M_dEta ξ η
  obtain ⟨n0, n1, n2, n3⟩ := N_dXi ξ η
  obtain ⟨n0', n1', n2', n3'⟩ := N_dEta ξ η
  simp only [DKQ.B, at_, (Hy_dXi x y 3 ξ η).1, (Hy_dEta x y 3 ξ η).1, DKQ.a, DKQ.b, DKQ.c, DKQ.d, DKQ.e, row1, DKQ.pv, Matrix.cons_val, num1_9]
  generalize DKQ.l2 x y = L
  generalize DKQ.detJ x y ξ η = D
  generalize DKQ.J1 x η = a
  generalize DKQ.J1 y η = b
  generalize DKQ.J2 x ξ = c
  generalize DKQ.J2 y ξ = d
  simp only [m0, m1, m2, m3, m0', m1', m2', m3', n0, n1, n2, n3, n0', n1', n2', n3', DKQ.side, DKQ.nx, Matrix.cons_val, div_eq_mul_inv]
  ring

theorem e1_10 : DKQ.B x y ξ η 1 (3, 1) = at_ x y ξ η row1 10 := by
  obtain ⟨m0, m1, m2, m3⟩ := M_dXi ξ η
  obtain ⟨m0', m1', m2', m3'⟩ := M_dEta ξ η
  obtain ⟨n0, n1, n2, n3⟩ := N_dXi ξ η
  obtain ⟨n0', n1', n2', n3'⟩ := N_dEta ξ η
  simp only [DKQ.B, at_, (Hy_dXi x y 3 ξ η).2.1, (Hy_dEta x y 3 ξ η).2.1, DKQ.a, DKQ.b, DKQ.c, DKQ.d, DKQ.e, row1, DKQ.pv, Matrix.cons_val, num1_10]
  generalize DKQ.l2 x y = L
  generalize DKQ.detJ x y ξ η = D
  generalize DKQ.J1 x η = a
  generalize DKQ.J1 y η = b
  generalize DKQ.J2 x ξ = c
  generalize DKQ.J2 y ξ = d
  simp only [m0, m1, m2, m3, m0', m1', m2', m3', n0, n1, n2, n3, n0', n1', n2', n3', DKQ.side, DKQ.nx, Matrix.cons_val, div_eq_mul_inv]
  ring

theorem e1_11 : DKQ.B x y ξ η 1 (3, 2) = at_ x y ξ η row1 11 := by
  obtain ⟨m0, m1, m2, m3⟩ := M_dXi ξ η
  obtain ⟨m0', m1', m2', m3'⟩ := M_dEta ξ η
  obtain ⟨n0, n1, n2, n3⟩ := N_dXi ξ η
  obtain ⟨n0', n1', n2', n3'⟩ := N_dEta ξ η
  simp only [DKQ.B, at_, (Hy_dXi x y 3 ξ η).2.2, (Hy_dEta x y 3 ξ η).2.2, DKQ.a, DKQ.b, DKQ.c, DKQ.d, DKQ.e, row1, DKQ.pv, Matrix.cons_val, num1_11]
  generalize DKQ.l2 x y = L
  generalize DKQ.detJ x y ξ η = D
  generalize DKQ.J1 x η = a
  generalize DKQ.J1 y η = b
  generalize DKQ.J2 x ξ = c
  generalize DKQ.J2 y ξ = d
  simp only [m0, m1, m2, m3, m0', m1', m2', m3', n0, n1, n2, n3, n0', n1', n2', n3', DKQ.side, DKQ.nx, Matrix.cons_val, div_eq_mul_inv]
  ring

theorem e2_0 : DKQ.B x y ξ η 2 (0, 0) = at_ x y ξ η row2 0 := by
  obtain ⟨m0, m1, m2, m3⟩ := M_dXi ξ η
  obtain ⟨m0', m1', m2', m3'⟩ := M_dEta ξ η
  obtain ⟨n0, n1, n2, n3⟩ := N_dXi ξ η
  obtain ⟨n0', n1', n2', n3'⟩ := N_dEta ξ η
  simp only [DKQ.B, at_, (Hx_dXi x y 0 ξ η).1, (Hx_dEta x y 0 ξ η).1, (Hy_dXi x y 0 ξ η).1, (Hy_dEta x y 0 ξ η).1, DKQ.a, DKQ.b, DKQ.c, DKQ.d, DKQ.e, row2, DKQ.pv, Matrix.cons_val, num2_0]
  generalize DKQ.l2 x y = L
  generalize DKQ.detJ x y ξ η = D
  generalize DKQ.J1 x η = a
  generalize DKQ.J1 y η = b
  generalize DKQ.J2 x ξ = c
  generalize DKQ.J2 y ξ = d
  simp only [m0, m1, m2, m3, m0', m1', m2', m3', n0, n1, n2, n3, n0', n1', n2', n3', DKQ.side, DKQ.nx, Matrix.cons_val, div_eq_mul_inv]
  ring

theorem e2_1 : DKQ.B x y ξ η 2 (0, 1) = at_ x y ξ η row2 1 := by
  obtain ⟨m0, m1, m2, m3⟩ := M_dXi ξ η
  obtain ⟨m0', m1', m2', m3'⟩ := M_dEta ξ η
  obtain ⟨n0, n1, n2, n3⟩ := N_dXi ξ η
  obtain ⟨n0', n1', n2', n3'⟩ := N_dEta ξ η
  simp only [DKQ.B, at_, (Hx_dXi x y 0 ξ η).2.1, (Hx_dEta x y 0 ξ η).2.1, (Hy_dXi x y 0 ξ η).2.1, (Hy_dEta x y 0 ξ η).2.1, DKQ.a, DKQ.b, DKQ.c, DKQ.d, DKQ.e, row2, DKQ.pv, Matrix.cons_val, num2_1]
  generalize DKQ.l2 x y = L
  generalize DKQ.detJ x y ξ η = D
  generalize DKQ.J1 x η = a
  generalize DKQ.J1 y η = b
  generalize DKQ.J2 x ξ = c
  generalize DKQ.J2 y ξ = d
  simp only [m0, m1, m2, m3, m0', m1', m2', m3', n0, n1, n2, n3, n0', n1', n2', n3', DKQ.side, DKQ.nx, Matrix.cons_val, div_eq_mul_inv]
  ring

theorem e2_2 : DKQ.B x y ξ η 2 (0, 2) = at_ x y ξ η row2 2 := by
  obtain ⟨m0, m1, m2, m3⟩ := M_dXi ξ η
  obtain ⟨m0', m1', m2', m3'⟩ := M_dEta ξ η
  obtain ⟨n0, n1, n2, n3⟩ := N_dXi ξ η
  obtain ⟨n0', n1', n2', n3'⟩ := N_dEta ξ η
  simp only [DKQ.B, at_, (Hx_dXi x y 0 ξ η).2.2, (Hx_dEta x y 0 ξ η).2.2, (Hy_dXi x y 0 ξ η).2.2, (Hy_dEta x y 0 ξ η).2.2, DKQ.a, DKQ.b, DKQ.c, DKQ.d, DKQ.e, row2, DKQ.pv, Matrix.cons_val, num2_2]
  generalize DKQ.l2 x y = L
  generalize DKQ.detJ x y ξ η = D
  generalize DKQ.J1 x η = a
  generalize DKQ.J1 y η = b
  generalize DKQ.J2 x ξ = c
  generalize DKQ.J2 y ξ = d
  simp only [m0, m1, m2, m3, m0', m1', m2', m3', n0, n1, n2, n3, n0', n1', n2', n3', DKQ.side, DKQ.nx, Matrix.cons_val, div_eq_mul_inv]
  ring

theorem e2_3 : DKQ.B x y ξ η 2 (1, 0) = at_ x y ξ η row2 3 := by
  obtain ⟨m0, m1, m2, m3⟩ := M_dXi ξ η
  obtain ⟨m0', m1', m2', m3'⟩ := M_dEta ξ η
  obtain ⟨n0, n1, n2, n3⟩ := N_dXi ξ η
  obtain ⟨n0', n1', n2', n3'⟩ := N_dEta ξ η
  simp only [DKQ.B, at_, (Hx_dXi x y 1 ξ η).1, (Hx_dEta x y 1 ξ η).1, (Hy_dXi x y 1 ξ η).1, (Hy_dEta x y 1 ξ η).1, DKQ.a, DKQ.b, DKQ.c, DKQ.d, DKQ.e, row2, DKQ.pv, Matrix.cons_val, num2_3]
  generalize DKQ.l2 x y = L
  generalize DKQ.detJ x y ξ η = D
  generalize DKQ.J1 x η = a
  generalize DKQ.J1 y η = b
  generalize DKQ.J2 x ξ = c
  generalize DKQ.J2 y ξ = d
  simp only [m0, m1, m2, m3, m0', m1', m2', m3', n0, n1, n2, n3, n0', n1', n2', n3', DKQ.side, DKQ.nx, Matrix.cons_val, div_eq_mul_inv]
  ring

theorem e2_4 : DKQ.B x y ξ η 2 (1, 1) = at_ x y ξ η row2 4 := by
  obtain ⟨m0, m1, m2, m3⟩ := M_dXi ξ η
  obtain ⟨m0', m1', m2', m3'⟩ := M_dEta ξ η
  obtain ⟨n0, n1, n2, n3⟩ := N_dXi ξ η
  obtain ⟨n0', n1', n2', n3'⟩ := N_dEta ξ η
  simp only [DKQ.B, at_, (Hx_dXi x y 1 ξ η).2.1, (Hx_dEta x y 1 ξ η).2.1, (Hy_dXi x y 1 ξ η).2.1, (Hy_dEta x y 1 ξ η).2.1, DKQ.a, DKQ.b, DKQ.c, DKQ.d, DKQ.e, row2, DKQ.pv, Matrix.cons_val, num2_4]
  generalize DKQ.l2 x y = L
  generalize DKQ.detJ x y ξ η = D
  generalize DKQ.J1 x η = a
  generalize DKQ.J1 y η = b
  generalize DKQ.J2 x ξ = c
  generalize DKQ.J2 y ξ = d
  simp only [m0, m1, m2, m3, m0', m1', m2', m3', n0, n1, n2, n3, n0', n1', n2', n3', DKQ.side, DKQ.nx, Matrix.cons_val, div_eq_mul_inv]
  ring

theorem e2_5 : DKQ.B x y ξ η 2 (1, 2) = at_ x y ξ η row2 5 := by
  obtain ⟨m0, m1, m2, m3⟩ := M_dXi ξ η
  obtain ⟨m0', m1', m2', m3'⟩ := M_dEta ξ η
  obtain ⟨n0, n1, n2, n3⟩ := N_dXi ξ η
  obtain ⟨n0', n1', n2', n3'⟩ := N_dEta ξ η
  simp only [DKQ.B, at_, (Hx_dXi x y 1 ξ η).2.2, (Hx_dEta x y 1 ξ η).2.2, (Hy_dXi x y 1 ξ η).2.2, (Hy_dEta x y 1 ξ η).2.2, DKQ.a, DKQ.b, DKQ.c, DKQ.d, DKQ.e, row2, DKQ.pv, Matrix.cons_val, num2_5]
  generalize DKQ.l2 x y = L
  generalize DKQ.detJ x y ξ η = D
  generalize DKQ.J1 x η = a
  generalize DKQ.J1 y η = b
  generalize DKQ.J2 x ξ = c
  generalize DKQ.J2 y ξ = d
  simp only [m0, m1, m2, m3, m0', m1', m2', m3', n0, n1, n2, n3, n0', n1', n2', n3', DKQ.side, DKQ.nx, Matrix.cons_val, div_eq_mul_inv]
  ring

theorem e2_6 : DKQ.B x y ξ η 2 (2, 0) = at_ x y ξ η row2 6 := by
  obtain ⟨m0, m1, m2, m3⟩ := M_dXi ξ η
  obtain ⟨m0', m1', m2', m3'⟩ := M_dEta ξ η
  obtain ⟨n0, n1, n2, n3⟩ := N_dXi ξ η
  obtain ⟨n0', n1', n2', n3'⟩ := N_dEta ξ η
  simp only [DKQ.B, at_, (Hx_dXi x y 2 ξ η).1, (Hx_dEta x y 2 ξ η).1, (Hy_dXi x y 2 ξ η).1, (Hy_dEta x y 2 ξ η).1, DKQ.a, DKQ.b, DKQ.c, DKQ.d, DKQ.e, row2, DKQ.pv, Matrix.cons_val, num2_6]
  generalize DKQ.l2 x y = L
  generalize DKQ.detJ x y ξ η = D
  generalize DKQ.J1 x η = a
  generalize DKQ.J1 y η = b
  generalize DKQ.J2 x ξ = c
  generalize DKQ.J2 y ξ = d
  simp only [m0, m1, m2, m3, m0', m1', m2', m3', n0, n1, n2, n3, n0', n1', n2', n3', DKQ.side, DKQ.nx, Matrix.cons_val, div_eq_mul_inv]
  ring

theorem e2_7 : DKQ.B x y ξ η 2 (2, 1) = at_ x y ξ η row2 7 := by
  obtain ⟨m0, m1, m2, m3⟩ := M_dXi ξ η
  obtain ⟨m0', m1', m2', m3'⟩ := M_dEta ξ η
  obtain ⟨n0, n1, n2, n3⟩ := N_dXi ξ η
  obtain ⟨n0', n1', n2', n3'⟩ := N_dEta ξ η
  simp only [DKQ.B, at_, (Hx_dXi x y 2 ξ η).2.1, (Hx_dEta x y 2 ξ η).2.1, (Hy_dXi x y 2 ξ η).2.1, (Hy_dEta x y 2 ξ η).2.1, DKQ.a, DKQ.b, DKQ.c, DKQ.d, DKQ.e, row2, DKQ.pv, Matrix.cons_val, num2_7]
  generalize DKQ.l2 x y = L
  generalize DKQ.detJ x y ξ η = D
  generalize DKQ.J1 x η = a
  generalize DKQ.J1 y η = b
  generalize DKQ.J2 x ξ = c
  generalize DKQ.J2 y ξ = d
  simp only [m0, m1, m2, m3, m0', m1', m2', m3', n0, n1, n2, n3, n0', n1', n2', n3', DKQ.side, DKQ.nx, Matrix.cons_val, div_eq_mul_inv]
  ring

theorem e2_8 : DKQ.B x y ξ η 2 (2, 2) = at_ x y ξ η row2 8 := by
  obtain ⟨m0, m1, m2, m3⟩ := M_dXi ξ η
  obtain ⟨m0', m1', m2', m3'⟩ := M_dEta ξ η
  obtain ⟨n0, n1, n2, n3⟩ := N_dXi ξ η
  obtain ⟨n0', n1', n2', n3'⟩ := N_dEta ξ η
  simp only [DKQ.B, at_, (Hx_dXi x y 2 ξ η).2.2, (Hx_dEta x y 2 ξ η).2.2, (Hy_dXi x y 2 ξ η).2.2, (Hy_dEta x y 2 ξ η).2.2, DKQ.a, DKQ.b, DKQ.c, DKQ.d, DKQ.e, row2, DKQ.pv, Matrix.cons_val, num2_8]
  generalize DKQ.l2 x y = L
  generalize DKQ.detJ x y ξ η = D
  generalize DKQ.J1 x η = a
  generalize DKQ.J1 y η = b
  generalize DKQ.J2 x ξ = c
  generalize DKQ.J2 y ξ = d
  simp only [m0, m1, m2, m3, m0', m1', m2', m3', n0, n1, n2, n3, n0', n1', n2', n3', DKQ.side, DKQ.nx, Matrix.cons_val, div_eq_mul_inv]
  ring

theorem e2_9 : DKQ.B x y ξ η 2 (3, 0) = at_ x y ξ η row2 9 := by
  obtain ⟨m0, m1, m2, m3⟩ := M_dXi ξ η
  obtain ⟨m0', m1', m2', m3'⟩ := M_dEta ξ η
  obtain ⟨n0, n1, n2, n3⟩ := N_dXi ξ η
  obtain ⟨n0', n1', n2', n3'⟩ := N_dEta ξ η
  simp only [DKQ.B, at_, (Hx_dXi x y 3 ξ η).1, (Hx_dEta x y 3 ξ η).1, (Hy_dXi x y 3 ξ η).1, (Hy_dEta x y 3 ξ η).1, DKQ.a, DKQ.b, DKQ.c, DKQ.d, DKQ.e, row2, DKQ.pv, Matrix.cons_val, num2_9]
  generalize DKQ.l2 x y = L
  generalize DKQ.detJ x y ξ η = D
  generalize DKQ.J1 x η = a
  generalize DKQ.J1 y η = b
  generalize DKQ.J2 x ξ = c
  generalize DKQ.J2 y ξ = d
  simp only [m0, m1, m2, m3, m0', m1', m2', m3', n0, n1, n2, n3, n0', n1', n2', n3', DKQ.side, DKQ.nx, Matrix.cons_val, div_eq_mul_inv]
  ring

theorem e2_10 : DKQ.B x y ξ η 2 (3, 1) = at_ x y ξ η row2 10 := by
  obtain ⟨m0, m1, m2, m3⟩ := M_dXi ξ η
  obtain ⟨m0', m1', m2', m3'⟩ := M_dEta ξ η
  obtain ⟨n0, n1, n2, n3⟩ := N_dXi ξ η
  obtain ⟨n0', n1', n2', n3'⟩ := N_dEta ξ η
  simp only [DKQ.B, at_, (Hx_dXi x y 3 ξ η).2.1, (Hx_dEta x y 3 ξ η).2.1, (Hy_dXi x y 3 ξ η).2.1, (Hy_dEta x y 3 ξ η).2.1, DKQ.a, DKQ.b, DKQ.c, DKQ.d, DKQ.e, row2, DKQ.pv, Matrix.cons_val, num2_10]
  generalize DKQ.l2 x y = L
  generalize DKQ.detJ x y ξ η = D
  generalize DKQ.J1 x η = a
  generalize DKQ.J1 y η = b
  generalize DKQ.J2 x ξ = c
  generalize DKQ.J2 y ξ = d
  simp only [m0, m1, m2, m3, m0', m1', m2', m3', n0, n1, n2, n3, n0', n1', n2', n3', DKQ.side, DKQ.nx, Matrix.cons_val, div_eq_mul_inv]
  ring

theorem e2_11 : DKQ.B x y ξ η 2 (3, 2) = at_ x y ξ η row2 11 := by
  obtain ⟨m0, m1, m2, m3⟩ := M_dXi ξ η
  obtain ⟨m0', m1', m2', m3'⟩ := M_dEta ξ η
  obtain ⟨n0, n1, n2, n3⟩ := N_dXi ξ η
  obtain ⟨n0', n1', n2', n3'⟩ := N_dEta ξ η
  simp only [DKQ.B, at_, (Hx_dXi x y 3 ξ η).2.2, (Hx_dEta x y 3 ξ η).2.2, (Hy_dXi x y 3 ξ η).2.2, (Hy_dEta x y 3 ξ η).2.2, DKQ.a, DKQ.b, DKQ.c, DKQ.d, DKQ.e, row2, DKQ.pv, Matrix.cons_val, num2_11]
  generalize DKQ.l2 x y = L
  generalize DKQ.detJ x y ξ η = D
  generalize DKQ.J1 x η = a
  generalize DKQ.J1 y η = b
  generalize DKQ.J2 x ξ = c
  generalize DKQ.J2 y ξ = d
  simp only [m0, m1, m2, m3, m0', m1', m2', m3', n0, n1, n2, n3, n0', n1', n2', n3', DKQ.side, DKQ.nx, Matrix.cons_val, div_eq_mul_inv]
  ring

theorem row0_eq (k : Fin 4 × Fin 3) : DKQ.B x y ξ η 0 k = at_ x y ξ η row0 (ix k) := by
  obtain ⟨i, c⟩ := k
  fin_cases i <;> fin_cases c
  · exact e0_0 x y ξ η
  · exact e0_1 x y ξ η
  · exact e0_2 x y ξ η
  · exact e0_3 x y ξ η
  · exact e0_4 x y ξ η
  · exact e0_5 x y ξ η
  · exact e0_6 x y ξ η
  · exact e0_7 x y ξ η
  · exact e0_8 x y ξ η
  · exact e0_9 x y ξ η
  · exact e0_10 x y ξ η
  · exact e0_11 x y ξ η

theorem row1_eq (k : Fin 4 × Fin 3) : DKQ.B x y ξ η 1 k = at_ x y ξ η row1 (ix k) := by
  obtain ⟨i, c⟩ := k
  fin_cases i <;> fin_cases c
  · exact e1_0 x y ξ η
  · exact e1_1 x y ξ η
  · exact e1_2 x y ξ η
  · exact e1_3 x y ξ η
  · exact e1_4 x y ξ η
  · exact e1_5 x y ξ η
  · exact e1_6 x y ξ η
  · exact e1_7 x y ξ η
  · exact e1_8 x y ξ η
  · exact e1_9 x y ξ η
  · exact e1_10 x y ξ η
  · exact e1_11 x y ξ η

theorem row2_eq (k : Fin 4 × Fin 3) : DKQ.B x y ξ η 2 k = at_ x y ξ η row2 (ix k) := by
  obtain ⟨i, c⟩ := k
  fin_cases i <;> fin_cases c
  · exact e2_0 x y ξ η
  · exact e2_1 x y ξ η
  · exact e2_2 x y ξ η
  · exact e2_3 x y ξ η
  · exact e2_4 x y ξ η
  · exact e2_5 x y ξ η
  · exact e2_6 x y ξ η
  · exact e2_7 x y ξ η
  · exact e2_8 x y ξ η
  · exact e2_9 x y ξ η
  · exact e2_10 x y ξ η
  · exact e2_11 x y ξ η

end rows

theorem dp_eq (x y : Fin 4 → ℝ) (ξ η : ℝ) : -0.125 * η * x 0 * y 1 + 0.125 * η * x 0 * y 2 + 0.125 * η * x 1 * y 0 - 0.125 * η * x 1 * y 3 - 0.125 * η * x 2 * y 0 + 0.125 *
    η * x 2 * y 3 + 0.125 * η * x 3 * y 1 - 0.125 * η * x 3 * y 2 - 0.125 * x 0 * ξ * y 2 + 0.125 * x 0 * ξ * y 3 + 0.125 * x 0 * y 1
    - 0.125 * x 0 * y 3 + 0.125 * x 1 * ξ * y 2 - 0.125 * x 1 * ξ * y 3 - 0.125 * x 1 * y 0 + 0.125 * x 1 * y 2 + 0.125 * x 2 * ξ * y 0 -
    0.125 * x 2 * ξ * y 1 - 0.125 * x 2 * y 1 + 0.125 * x 2 * y 3 - 0.125 * x 3 * ξ * y 0 + 0.125 * x 3 * ξ * y 1 + 0.125 * x 3 * y 0 -
    0.125 * x 3 * y 2 = DKQ.det x y ξ η := by
  unfold DKQ.det DKQ.J1 DKQ.J2
  ring

theorem dj_eq (x y : Fin 4 → ℝ) (ξ η : ℝ) : (1 / 8) * η * (-(-x 0 + x 3) * (-y 1 + y 2) + (-x 1 + x 2) * (-y 0 + y 3)) + (1 / 8) * ξ *
    ((-x 0 + x 1) * (y 2 - y 3) - (x 2 - x 3) * (-y 0 + y 1)) + 0.125 * (-x 0 + x 2) * (-y 1 + y 3) - 0.125 * (-x 1 + x 3) * (-y 0 + y 2) =
    DKQ.detJ x y ξ η := by
  unfold DKQ.detJ
  ring

theorem n21_eq (p : Fin 4 → ℝ) (ξ : ℝ) : 0.25 * p 0 + 0.25 * p 1 - 0.25 * p 2 - 0.25 * p 3 - 0.25 * ξ * (p 0 - p 1 + p 2 - p 3) = -DKQ.J2 p ξ := by
  unfold DKQ.J2
  ring
theorem n22_eq (p : Fin 4 → ℝ) (ξ : ℝ) : 0.25 * ξ * (p 0 - p 1 + p 2 - p 3) - 0.25 * p 0 - 0.25 * p 1 + 0.25 * p 2 + 0.25 * p 3 = DKQ.J2 p ξ := by
  unfold DKQ.J2
  ring
theorem n11_eq (p : Fin 4 → ℝ) (η : ℝ) : 0.25 * η * (p 0 - p 1 + p 2 - p 3) - 0.25 * p 0 + 0.25 * p 1 + 0.25 * p 2 - 0.25 * p 3 = DKQ.J1 p η := by
  unfold DKQ.J1
  ring
theorem n12_eq (p : Fin 4 → ℝ) (η : ℝ) : -0.25 * η * (p 0 - p 1 + p 2 - p 3) + 0.25 * p 0 - 0.25 * p 1 - 0.25 * p 2 + 0.25 * p 3 = -DKQ.J1 p η := by
  unfold DKQ.J1
  ring

theorem l12_eq (x y : Fin 4 → ℝ) : (x 0 - x 1) ^ 2 + (y 0 - y 1) ^ 2 = DKQ.l2 x y 0 := rfl
theorem l23_eq (x y : Fin 4 → ℝ) : (x 1 - x 2) ^ 2 + (y 1 - y 2) ^ 2 = DKQ.l2 x y 1 := rfl
theorem l34_eq (x y : Fin 4 → ℝ) : (x 2 - x 3) ^ 2 + (y 2 - y 3) ^ 2 = DKQ.l2 x y 2 := rfl
theorem l41_eq (x y : Fin 4 → ℝ) : (-x 0 + x 3) ^ 2 + (-y 0 + y 3) ^ 2 = DKQ.l2 x y 3 := by
  simp only [DKQ.l2, DKQ.side, DKQ.nx, Matrix.cons_val]
  ring

theorem autofunc_eq (E mu t : ℝ) (x y : Fin 4 → ℝ) (ξ η : ℝ) : autofunc_c E mu t x y ξ η = DKQ.BDB E mu t x y ξ η := by
  ext k l
  have hk : 12 * (3 * k.1.val + k.2.val) + (3 * l.1.val + l.2.val) = 12 * (ix k).val + (ix l).val := rfl
  have h1 : Fin.ofNat 12 ((12 * (ix k).val + (ix l).val) / 12) = ix k := by
    apply Fin.ext
    simp only [Fin.ofNat]
    omega
  have h2 : Fin.ofNat 12 (12 * (ix k).val + (ix l).val) = ix l := by
    apply Fin.ext
    simp only [Fin.ofNat]
    omega
  simp only [autofunc_c, out, hk, h1, h2]
  rw [entries]
  simp only [dp_eq, dj_eq, n21_eq, n22_eq, n11_eq, n12_eq, l12_eq, l23_eq, l34_eq, l41_eq]
  simp only [DKQ.BDB, bendingD, isoD, Matrix.mul_apply, Matrix.transpose_apply, Matrix.smul_apply, Fin.sum_univ_three, smul_eq_mul,
    row0_eq, row1_eq, row2_eq, at_]
  generalize row0 _ _ _ _ _ _ _ _ _ _ _ _ _ _ _ _ _ _ _ = r0
  generalize row1 _ _ _ _ _ _ _ _ _ _ _ _ _ _ _ _ _ _ _ = r1
  generalize row2 _ _ _ _ _ _ _ _ _ _ _ _ _ _ _ _ _ _ _ = r2
  simp [div_eq_mul_inv]
  ring

end DKQText

end Hyperstatic
