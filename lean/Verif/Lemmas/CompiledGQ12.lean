import Verif.Model.CompiledGQ12
import Verif.Lemmas.ShellStrain
import Mathlib.Tactic.Ring
import Mathlib.Tactic.NormNum.OfScientific
import Mathlib.Tactic.FinCases

/-! The text of the 4-node membrane routine, entry by entry. -/

namespace Hyperstatic
open Matrix

namespace GQ12Text

/-- unknown `3*i+c` -/
def ix (k : Fin 4 × Fin 3) : Fin 12 := ⟨3 * k.1.val + k.2.val, by omega⟩

/-- rows of the strain matrix -/
def b0 (gx ex : Fin 4 → ℝ) : Fin 12 → ℝ := ![gx 0, 0, ex 0, gx 1, 0, ex 1, gx 2, 0, ex 2, gx 3, 0, ex 3]
def b1 (gy ey : Fin 4 → ℝ) : Fin 12 → ℝ := ![0, gy 0, ey 0, 0, gy 1, ey 1, 0, gy 2, ey 2, 0, gy 3, ey 3]
def b2 (gx gy es : Fin 4 → ℝ) : Fin 12 → ℝ := ![gy 0, gx 0, es 0, gy 1, gx 1, es 1, gy 2, gx 2, es 2, gy 3, gx 3, es 3]

theorem entries (E mu t dp : ℝ) (gx gy ex ey es : Fin 4 → ℝ) (i j : Fin 12) :
    (![out0 E mu t dp gx gy ex ey es, out1 E mu t dp gx gy ex ey es, out2 E mu t dp gx gy ex ey es, out3 E mu t dp gx gy ex ey es,
      out4 E mu t dp gx gy ex ey es, out5 E mu t dp gx gy ex ey es, out6 E mu t dp gx gy ex ey es, out7 E mu t dp gx gy ex ey es,
      out8 E mu t dp gx gy ex ey es, out9 E mu t dp gx gy ex ey es, out10 E mu t dp gx gy ex ey es, out11 E mu t dp gx gy ex ey es] :
      Fin 12 → Fin 12 → ℝ) i j =
    t * dp * E * (1 - mu ^ 2)⁻¹ * (b0 gx ex i * (b0 gx ex j + mu * b1 gy ey j) + b1 gy ey i * (mu * b0 gx ex j + b1 gy ey j) +
      (1 - mu) / 2 * b2 gx gy es i * b2 gx gy es j) := by
  fin_cases i <;> simp only [Fin.mk_zero, Fin.mk_one, Fin.reduceFinMk, Fin.zero_eta, Matrix.cons_val, out0, out1, out2, out3, out4, out5,
      out6, out7, out8, out9, out10, out11] <;>
    fin_cases j <;> simp only [Fin.mk_zero, Fin.mk_one, Fin.reduceFinMk, Fin.zero_eta, Matrix.cons_val, div_eq_mul_inv, b0, b1, b2,
      o0_0, o0_1, o0_2, o0_3, o0_4, o0_5, o0_6, o0_7, o0_8, o0_9, o0_10, o0_11, o1_0, o1_1, o1_2, o1_3, o1_4, o1_5, o1_6,
      o1_7, o1_8, o1_9, o1_10, o1_11, o2_0, o2_1, o2_2, o2_3, o2_4, o2_5, o2_6, o2_7, o2_8, o2_9, o2_10, o2_11, o3_0, o3_1,
      o3_2, o3_3, o3_4, o3_5, o3_6, o3_7, o3_8, o3_9, o3_10, o3_11, o4_0, o4_1, o4_2, o4_3, o4_4, o4_5, o4_6, o4_7, o4_8,
      o4_9, o4_10, o4_11, o5_0, o5_1, o5_2, o5_3, o5_4, o5_5, o5_6, o5_7, o5_8, o5_9, o5_10, o5_11, o6_0, o6_1, o6_2, o6_3,
      o6_4, o6_5, o6_6, o6_7, o6_8, o6_9, o6_10, o6_11, o7_0, o7_1, o7_2, o7_3, o7_4, o7_5, o7_6, o7_7, o7_8, o7_9, o7_10,
      o7_11, o8_0, o8_1, o8_2, o8_3, o8_4, o8_5, o8_6, o8_7, o8_8, o8_9, o8_10, o8_11, o9_0, o9_1, o9_2, o9_3, o9_4, o9_5,
      o9_6, o9_7, o9_8, o9_9, o9_10, o9_11, o10_0, o10_1, o10_2, o10_3, o10_4, o10_5, o10_6, o10_7, o10_8, o10_9, o10_10,
      o10_11, o11_0, o11_1, o11_2, o11_3, o11_4, o11_5, o11_6, o11_7, o11_8, o11_9, o11_10, o11_11] <;> ring

theorem xs_eq (p : Fin 4 → ℝ) (η : ℝ) :
    p 0 * (0.25 - 0.25 * η) + p 1 * (0.25 * η + 0.25) + p 2 * (-0.25 * η - 0.25) + p 3 * (0.25 * η - 0.25) = gXi p η := by
  unfold gXi
  ring
theorem nxs_eq (p : Fin 4 → ℝ) (η : ℝ) :
    -p 0 * (0.25 - 0.25 * η) - p 1 * (0.25 * η + 0.25) - p 2 * (-0.25 * η - 0.25) - p 3 * (0.25 * η - 0.25) = -gXi p η := by
  unfold gXi
  ring
theorem xe_eq (p : Fin 4 → ℝ) (ξ : ℝ) :
    p 0 * (-0.25 * ξ - 0.25) + p 1 * (0.25 * ξ + 0.25) + p 2 * (0.25 - 0.25 * ξ) + p 3 * (0.25 * ξ - 0.25) = gEta p ξ := by
  unfold gEta
  ring
theorem nxe_eq (p : Fin 4 → ℝ) (ξ : ℝ) :
    -p 0 * (-0.25 * ξ - 0.25) - p 1 * (0.25 * ξ + 0.25) - p 2 * (0.25 - 0.25 * ξ) - p 3 * (0.25 * ξ - 0.25) = -gEta p ξ := by
  unfold gEta
  ring

theorem dnat0 (x y : Fin 4 → ℝ) (f : ℝ → ℝ → ℝ) (ξ η : ℝ) : GQ12.dnat x y f ξ η 0 =
    (gEta y ξ * dXi f ξ η - gXi y η * dEta f ξ η) * (gXi x η * gEta y ξ - gEta x ξ * gXi y η)⁻¹ := by
  simp only [GQ12.dnat, inv_two, gqJ_det]
  simp only [gqJ_eq, Matrix.cons_val, Matrix.of_apply, div_eq_mul_inv]
  rw [mul_comm (gEta x ξ)]
theorem dnat1 (x y : Fin 4 → ℝ) (f : ℝ → ℝ → ℝ) (ξ η : ℝ) : GQ12.dnat x y f ξ η 1 =
    (gXi x η * dEta f ξ η - gEta x ξ * dXi f ξ η) * (gXi x η * gEta y ξ - gEta x ξ * gXi y η)⁻¹ := by
  simp only [GQ12.dnat, inv_two, gqJ_det]
  simp only [gqJ_eq, Matrix.cons_val, Matrix.of_apply, div_eq_mul_inv]
  rw [mul_comm (gEta x ξ) (gXi y η)]

theorem neg_dXi (f : ℝ → ℝ → ℝ) (ξ η : ℝ) : dXi (fun a b => -f a b) ξ η = -dXi f ξ η := by
  simp only [dXi]
  exact deriv.fun_neg
theorem neg_dEta (f : ℝ → ℝ → ℝ) (ξ η : ℝ) : dEta (fun a b => -f a b) ξ η = -dEta f ξ η := by
  simp only [dEta]
  exact deriv.fun_neg

theorem u0 (y : Fin 4 → ℝ) (i : Fin 4) : GQ12.Nu y (i, 0) = GQ12.N0 i := rfl
theorem u1 (y : Fin 4 → ℝ) (i : Fin 4) : GQ12.Nu y (i, 1) = fun _ _ => 0 := rfl
theorem u2 (y : Fin 4 → ℝ) (i : Fin 4) : GQ12.Nu y (i, 2) = GQ12.Nt y i := rfl
theorem v0 (x : Fin 4 → ℝ) (i : Fin 4) : GQ12.Nv x (i, 0) = fun _ _ => 0 := rfl
theorem v1 (x : Fin 4 → ℝ) (i : Fin 4) : GQ12.Nv x (i, 1) = GQ12.N0 i := rfl
theorem v2 (x : Fin 4 → ℝ) (i : Fin 4) : GQ12.Nv x (i, 2) = fun a b => -GQ12.Nt x i a b := rfl

section rows
variable (x y : Fin 4 → ℝ) (ξ η : ℝ)

/-- the strains of the text at the corners of an element -/
noncomputable abbrev at_ (f : ℝ → ℝ → ℝ → ℝ → ℝ → ℝ → ℝ → ℝ → ℝ → ℝ → ℝ → ℝ → ℝ → ℝ → ℝ → ℝ → ℝ → Fin 4 → ℝ) : Fin 4 → ℝ :=
  f (gXi x η * gEta y ξ - gEta x ξ * gXi y η) (gXi x η) (gXi y η) (gEta x ξ) (gEta y ξ) (-gEta x ξ) (-gXi y η) ξ η
    (x 0) (x 1) (x 2) (x 3) (y 0) (y 1) (y 2) (y 3)

theorem row0_eq (k : Fin 4 × Fin 3) : GQ12.B x y ξ η 0 k = b0 (at_ x y ξ η gx) (at_ x y ξ η ex) (ix k) := by
  obtain ⟨i, c⟩ := k
  simp only [GQ12.B, dnat0, at_]
  generalize (gXi x η * gEta y ξ - gEta x ξ * gXi y η) = D
  generalize gXi x η = a
  generalize gXi y η = b
  generalize gEta x ξ = c'
  generalize gEta y ξ = d
  fin_cases c <;> simp only [Fin.mk_zero, Fin.mk_one, Fin.reduceFinMk, Fin.zero_eta, u0, u1, u2, zero_dXi, zero_dEta, N0_dXi, N0_dEta,
      Nt_dXi, Nt_dEta] <;> fin_cases i <;>
    (simp [b0, ix, gx, ex, gx0, gx1, gx2, gx3, ex0, ex1, ex2, ex3, GQ12.c1, GQ12.c2, GQ12.c3, Fin.sum_univ_four, GQ12.xi0, GQ12.eta0,
       div_eq_mul_inv] <;> ring)

theorem row1_eq (k : Fin 4 × Fin 3) : GQ12.B x y ξ η 1 k = b1 (at_ x y ξ η gy) (at_ x y ξ η ey) (ix k) := by
  obtain ⟨i, c⟩ := k
  simp only [GQ12.B, dnat1, at_]
  generalize (gXi x η * gEta y ξ - gEta x ξ * gXi y η) = D
  generalize gXi x η = a
  generalize gXi y η = b
  generalize gEta x ξ = c'
  generalize gEta y ξ = d
  fin_cases c <;> simp only [Fin.mk_zero, Fin.mk_one, Fin.reduceFinMk, Fin.zero_eta, v0, v1, v2, neg_dXi, neg_dEta, zero_dXi, zero_dEta,
      N0_dXi, N0_dEta, Nt_dXi, Nt_dEta] <;> fin_cases i <;>
    (simp [b1, ix, gy, ey, gy0, gy1, gy2, gy3, ey0, ey1, ey2, ey3, GQ12.c1, GQ12.c2, GQ12.c3, Fin.sum_univ_four, GQ12.xi0, GQ12.eta0,
       div_eq_mul_inv] <;> ring)

theorem row2_eq (k : Fin 4 × Fin 3) : GQ12.B x y ξ η 2 k = b2 (at_ x y ξ η gx) (at_ x y ξ η gy) (at_ x y ξ η es) (ix k) := by
  obtain ⟨i, c⟩ := k
  simp only [GQ12.B, dnat0, dnat1, at_]
  generalize (gXi x η * gEta y ξ - gEta x ξ * gXi y η) = D
  generalize gXi x η = a
  generalize gXi y η = b
  generalize gEta x ξ = c'
  generalize gEta y ξ = d
  fin_cases c <;> simp only [Fin.mk_zero, Fin.mk_one, Fin.reduceFinMk, Fin.zero_eta, u0, u1, u2, v0, v1, v2, neg_dXi, neg_dEta, zero_dXi,
      zero_dEta, N0_dXi, N0_dEta, Nt_dXi, Nt_dEta] <;> fin_cases i <;>
    (simp [b2, ix, gx, gy, es, gx0, gx1, gx2, gx3, gy0, gy1, gy2, gy3, es0, es1, es2, es3, GQ12.c1, GQ12.c2, GQ12.c3, Fin.sum_univ_four,
       GQ12.xi0, GQ12.eta0, div_eq_mul_inv] <;> ring)

end rows

theorem autofunc_eq (E mu t : ℝ) (x y : Fin 4 → ℝ) (ξ η : ℝ) : autofunc_c E mu t x y ξ η = GQ12.BDB E mu t x y ξ η := by
  ext k l
  have hk : 12 * (3 * k.1.val + k.2.val) + (3 * l.1.val + l.2.val) = 12 * (ix k).val + (ix l).val := rfl
  have h1 : Fin.ofNat 12 ((12 * (ix k).val + (ix l).val) / 12) = ix k := by
    apply Fin.ext
    simp only [Fin.ofNat]
    omega
  have h2 : Fin.ofNat 12 (12 * (ix k).val + (ix l).val) = ix l := by
    apply Fin.ext
    simp only [Fin.ofNat]
    omega
  simp only [autofunc_c, out, hk, h1, h2]
  rw [entries]
  simp only [xs_eq, nxs_eq, xe_eq, nxe_eq]
  simp only [GQ12.BDB, membraneD, isoD, Matrix.mul_apply, Matrix.transpose_apply, Matrix.smul_apply, Fin.sum_univ_three, smul_eq_mul,
    row0_eq, row1_eq, row2_eq, gqJ_det, at_]
  generalize b0 _ _ (ix k) = p0
  generalize b1 _ _ (ix k) = p1
  generalize b2 _ _ _ (ix k) = p2
  generalize b0 _ _ (ix l) = q0
  generalize b1 _ _ (ix l) = q1
  generalize b2 _ _ _ (ix l) = q2
  have hd : gXi x η * gEta y ξ - gXi y η * gEta x ξ = -0.125 * η * x 0 * y 2 + 0.125 * η * x 0 * y 3 + 0.125 * η * x 1 * y 2 - 0.125 * η * x 1 * y 3 + 0.125 * η * x 2 * y 0 - 0.125 *
    η * x 2 * y 1 - 0.125 * η * x 3 * y 0 + 0.125 * η * x 3 * y 1 + 0.125 * x 0 * ξ * y 1 - 0.125 * x 0 * ξ * y 2 + 0.125 * x 0 * y 1
    - 0.125 * x 0 * y 3 - 0.125 * x 1 * ξ * y 0 + 0.125 * x 1 * ξ * y 3 - 0.125 * x 1 * y 0 + 0.125 * x 1 * y 2 + 0.125 * x 2 * ξ * y 0 -
    0.125 * x 2 * ξ * y 3 - 0.125 * x 2 * y 1 + 0.125 * x 2 * y 3 - 0.125 * x 3 * ξ * y 1 + 0.125 * x 3 * ξ * y 2 + 0.125 * x 3 * y 0 -
    0.125 * x 3 * y 2 := by
    unfold gXi gEta
    ring
  rw [← hd]
  generalize gXi x η * gEta y ξ - gXi y η * gEta x ξ = D
  simp [div_eq_mul_inv]
  ring

end GQ12Text

end Hyperstatic
