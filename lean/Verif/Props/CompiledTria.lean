import Verif.Model.CompiledTria
import Mathlib.Tactic.Ring
import Mathlib.Tactic.NormNum.OfScientific
import Mathlib.Tactic.FinCases
import Mathlib.Analysis.Calculus.Deriv.Mul
import Mathlib.Analysis.Calculus.Deriv.Add

/-! C172: the compiled routines of the 3-node shell compute what their symbolic definitions say. -/

namespace Hyperstatic
open Matrix

theorem T9.N_dXi (x y : Fin 3 → ℝ) (i : Fin 3) (ξ η : ℝ) : dXi (T9.N x y i) ξ η = 1 / 2 / T9.A x y * T9.b y i := by
  have : (fun x' => T9.N x y i x' η) = fun x' => (1 / 2 / T9.A x y * T9.b y i) * x' + 1 / 2 / T9.A x y * (T9.a x y i + T9.b y i * η) := by
    funext x'
    unfold T9.N
    ring
  unfold dXi
  rw [this, deriv_add_const, deriv_const_mul_field]
  simp

theorem T9.N_dEta (x y : Fin 3 → ℝ) (i : Fin 3) (ξ η : ℝ) : dEta (T9.N x y i) ξ η = 1 / 2 / T9.A x y * T9.b y i := by
  have : (fun x' => T9.N x y i ξ x') = fun x' => (1 / 2 / T9.A x y * T9.b y i) * x' + 1 / 2 / T9.A x y * (T9.a x y i + T9.b y i * ξ) := by
    funext x'
    unfold T9.N
    ring
  unfold dEta
  rw [this, deriv_add_const, deriv_const_mul_field]
  simp

theorem T9.A_eq (x y : Fin 3 → ℝ) : T9.A x y = (1 / 2) * x 0 * y 1 - 1 / 2 * x 0 * y 2 - 1 / 2 * x 1 * y 0 + (1 / 2) * x 1 * y 2 +
    (1 / 2) * x 2 * y 0 - 1 / 2 * x 2 * y 1 := by
  unfold T9.A
  simp [Matrix.det_fin_three]
  ring

/-- The compiled routine of the triangular membrane computes what its symbolic definition says, for every material and every triangle. -/
theorem C172_membrane (E mu t : ℝ) (x y : Fin 3 → ℝ) : T9Text.autofunc_c E mu t x y = T9.BDB E mu x y := by
  ext ⟨k1, k2⟩ ⟨l1, l2⟩
  simp only [T9Text.autofunc_c, T9Text.out, T9.BDB, membraneD, isoD, Matrix.mul_apply, Matrix.transpose_apply, Matrix.smul_apply,
    Fin.sum_univ_three, smul_eq_mul, ← T9.A_eq]
  generalize hA : T9.A x y = A
  fin_cases k1 <;> fin_cases k2 <;> fin_cases l1 <;> fin_cases l2 <;>
    (simp [T9.B, T9.N_dXi, T9.N_dEta, hA, T9.b, T9Text.out0, T9Text.out1, T9Text.out2, T9Text.out3, T9Text.out4, T9Text.out5, Fin.ofNat, div_eq_mul_inv,
       mul_inv]
     ring)


theorem DKT.l2_eq (x y : Fin 3 → ℝ) (k : Fin 3) : DKT.l2 x y k = DKT.side x k ^ 2 + DKT.side y k ^ 2 :=
  Real.sq_sqrt (by positivity)

namespace DKTText

/-- divisors of the text -/
theorem l12_eq (x y : Fin 3 → ℝ) : (x 0 - x 1) ^ 2 + (y 0 - y 1) ^ 2 = DKT.l2 x y 2 := by rw [DKT.l2_eq]; rfl
theorem l23_eq (x y : Fin 3 → ℝ) : (x 1 - x 2) ^ 2 + (y 1 - y 2) ^ 2 = DKT.l2 x y 0 := by rw [DKT.l2_eq]; rfl
theorem l31_eq (x y : Fin 3 → ℝ) : (-x 0 + x 2) ^ 2 + (-y 0 + y 2) ^ 2 = DKT.l2 x y 1 := by
  rw [DKT.l2_eq]
  simp only [DKT.side, Matrix.cons_val]
  ring

/-- twice the area -/
def a2 (x y : Fin 3 → ℝ) : ℝ := (-x 0 + x 2) * (y 0 - y 1) - (x 0 - x 1) * (-y 0 + y 2)

/-- unknown `3*i+c` -/
def ix (k : Fin 3 × Fin 3) : Fin 9 := ⟨3 * k.1.val + k.2.val, by omega⟩

theorem row0_eq (x y : Fin 3 → ℝ) (ξ η : ℝ) (k : Fin 3 × Fin 3) :
    DKT.B x y ξ η 0 k = row0 (DKT.l2 x y 2) (DKT.l2 x y 0) (DKT.l2 x y 1) ξ η (x 0) (y 0) (x 1) (y 1) (x 2) (y 2) (ix k) / a2 x y := by
  have ha : DKT.side x 1 * DKT.side y 2 - DKT.side x 2 * DKT.side y 1 = a2 x y := by
    simp only [DKT.side, Matrix.cons_val, a2]
    ring
  simp only [DKT.B, ha]
  congr 1
  obtain ⟨i, c⟩ := k
  fin_cases i <;> fin_cases c <;>
    (simp [DKT.Hxxi, DKT.Hxeta, DKT.P, DKT.q, DKT.r, DKT.side, row0, ix, num00, num01, num02, num03, num04, num05, num06, num07, num08]
     ring)

theorem row1_eq (x y : Fin 3 → ℝ) (ξ η : ℝ) (k : Fin 3 × Fin 3) :
    DKT.B x y ξ η 1 k = row1 (DKT.l2 x y 2) (DKT.l2 x y 0) (DKT.l2 x y 1) ξ η (x 0) (y 0) (x 1) (y 1) (x 2) (y 2) (ix k) / a2 x y := by
  have ha : DKT.side x 1 * DKT.side y 2 - DKT.side x 2 * DKT.side y 1 = a2 x y := by
    simp only [DKT.side, Matrix.cons_val, a2]
    ring
  simp only [DKT.B, ha]
  congr 1
  obtain ⟨i, c⟩ := k
  fin_cases i <;> fin_cases c <;>
    (simp [DKT.Hyxi, DKT.Hyeta, DKT.tt, DKT.q, DKT.r, DKT.side, row1, ix, num10, num11, num12, num13, num14, num15, num16, num17, num18]
     ring)

theorem row2_eq (x y : Fin 3 → ℝ) (ξ η : ℝ) (k : Fin 3 × Fin 3) :
    DKT.B x y ξ η 2 k = row2 (DKT.l2 x y 2) (DKT.l2 x y 0) (DKT.l2 x y 1) ξ η (x 0) (y 0) (x 1) (y 1) (x 2) (y 2) (ix k) / a2 x y := by
  have ha : DKT.side x 1 * DKT.side y 2 - DKT.side x 2 * DKT.side y 1 = a2 x y := by
    simp only [DKT.side, Matrix.cons_val, a2]
    ring
  simp only [DKT.B, ha]
  congr 1
  obtain ⟨i, c⟩ := k
  fin_cases i <;> fin_cases c <;>
    (simp [DKT.Hxxi, DKT.Hxeta, DKT.P, DKT.Hyxi, DKT.Hyeta, DKT.tt, DKT.q, DKT.r, DKT.side, row2, ix, num20, num21, num22, num23, num24,
      num25, num26, num27, num28]
     ring)

theorem entries (E mu t a : ℝ) (f0 f1 f2 : Fin 9 → ℝ) (i j : Fin 9) :
    (![out0 E mu t a f0 f1 f2, out1 E mu t a f0 f1 f2, out2 E mu t a f0 f1 f2, out3 E mu t a f0 f1 f2, out4 E mu t a f0 f1 f2,
      out5 E mu t a f0 f1 f2, out6 E mu t a f0 f1 f2, out7 E mu t a f0 f1 f2, out8 E mu t a f0 f1 f2] : Fin 9 → Fin 9 → ℝ) i j =
    E * t ^ 3 / 12 * (1 - mu ^ 2)⁻¹ * a⁻¹ ^ 2 * (f0 i * (f0 j + mu * f1 j) + f1 i * (mu * f0 j + f1 j) + (1 - mu) / 2 * f2 i * f2 j) := by
  fin_cases i <;> simp only [Fin.mk_zero, Fin.mk_one, Fin.reduceFinMk, Fin.zero_eta, Matrix.cons_val, out0, out1, out2, out3, out4, out5, out6, out7, out8] <;>
    fin_cases j <;> simp only [Fin.mk_zero, Fin.mk_one, Fin.reduceFinMk, Fin.zero_eta, Matrix.cons_val, div_eq_mul_inv, mul_inv, inv_pow] <;> ring

end DKTText

/-- The compiled routine of the triangular plate computes what its symbolic definition says, for every material, every triangle and every
point. -/
theorem C172_plate (E mu t : ℝ) (x y : Fin 3 → ℝ) (ξ η : ℝ) : DKTText.autofunc_c E mu t x y ξ η = DKT.BDB E mu t x y ξ η := by
  ext k l
  have hk : 9 * (3 * k.1.val + k.2.val) + (3 * l.1.val + l.2.val) = 9 * (DKTText.ix k).val + (DKTText.ix l).val := rfl
  have h1 : Fin.ofNat 9 ((9 * (DKTText.ix k).val + (DKTText.ix l).val) / 9) = DKTText.ix k := by
    apply Fin.ext
    simp only [Fin.ofNat]
    omega
  have h2 : Fin.ofNat 9 (9 * (DKTText.ix k).val + (DKTText.ix l).val) = DKTText.ix l := by
    apply Fin.ext
    simp only [Fin.ofNat]
    omega
  have ha : (-x 0 + x 2) * (y 0 - y 1) - (x 0 - x 1) * (-y 0 + y 2) = DKTText.a2 x y := rfl
  simp only [DKTText.autofunc_c, DKTText.out, hk, h1, h2, DKTText.l12_eq, DKTText.l23_eq, DKTText.l31_eq, ha]
  rw [DKTText.entries]
  simp only [DKT.BDB, bendingD, isoD, Matrix.mul_apply, Matrix.transpose_apply, Matrix.smul_apply, Fin.sum_univ_three, smul_eq_mul,
    DKTText.row0_eq, DKTText.row1_eq, DKTText.row2_eq]
  simp [div_eq_mul_inv]
  ring

/-- The stiffness matrix of a 3-node shell, computed with the compiled routines, is that of the symbolic definitions. -/
theorem C172_triangle (p : Scheme) (s : ShellSection) (area : ℝ) (x y : Fin 3 → ℝ) :
    dktKCompiled p s area x y = dktK p s area x y := by
  have h : DKTText.autofunc_c s.material.E s.material.mu s.t x y = DKT.BDB s.material.E s.material.mu s.t x y := by
    funext ξ η
    exact C172_plate _ _ _ _ _ _ _
  simp only [dktKCompiled, dktK, h, C172_membrane]

/-- a concrete triangle with a nonzero entry -/
example : T9Text.autofunc_c 1 0 1 ![0, 1, 0] ![0, 0, 1] (1, 0) (1, 0) = 3 / 2 := by
  simp only [T9Text.autofunc_c, T9Text.out, T9Text.out2, Fin.ofNat]
  simp
  norm_num

end Hyperstatic
