import Verif.Lemmas.Geom
import Mathlib.Data.Fin.VecNotation
import Mathlib.Logic.Equiv.Fin.Basic
import Mathlib.Algebra.BigOperators.Fin
import Mathlib.LinearAlgebra.Matrix.NonsingularInverse
import Mathlib.Tactic.FinCases

namespace Hyperstatic
open Spec Matrix

/-! acceptance of line elements -/

theorem lineCsys_error_iff (s t : V3) :
    (∃ e, lineCsys s t = .error e) ↔
      ¬ ((max |t.x - s.x| |t.y - s.y| < absTol ∧ 2 * absTol ≤ |t.z - s.z|) ∨ 2 * absTol ≤ max |t.x - s.x| |t.y - s.y|) := by
  have hp := absTol_pos
  have h1 : |s.x - t.x| = |t.x - s.x| := abs_sub_comm _ _
  have h2 : |s.y - t.y| = |t.y - s.y| := abs_sub_comm _ _
  have half : ∀ a b : ℝ, b - (a + b) / 2 = (b - a) / 2 := by intro a b; ring
  have habs : ∀ a : ℝ, |a / 2| = |a| / 2 := by intro a; rw [abs_div]; norm_num
  unfold lineCsys
  simp only [V3.sub_def, h1, h2]
  split
  · rename_i hlt
    rw [mk?_error_iff]
    simp only [V3.cross, V3.maxAbs, V3.sub_def, V3.add_def, half, add_sub_cancel_left, mul_zero, sub_zero, zero_sub,
      mul_one, abs_zero, abs_neg, habs]
    have hy : |t.y - s.y| < absTol := lt_of_le_of_lt (le_max_right _ _) hlt
    constructor
    · intro h
      have h3 : |t.z - s.z| / 2 < absTol := lt_of_le_of_lt (le_trans (le_max_right _ _) (le_max_left _ _)) h
      push Not
      exact ⟨fun _ => by linarith, by linarith⟩
    · intro h
      push Not at h
      have h3 := h.1 hlt
      refine max_lt (max_lt hp (by linarith)) ?_
      have := abs_nonneg (t.y - s.y)
      linarith
  · rename_i hlt
    rw [mk?_error_iff]
    simp only [V3.cross, V3.maxAbs, V3.sub_def, V3.add_def, half, add_sub_cancel_left, mul_zero, sub_zero, zero_sub,
      mul_one, abs_zero, abs_neg, habs, add_zero, sub_self]
    have e : max (max (|t.y - s.y| / 2) (|t.x - s.x| / 2)) 0 = max |t.x - s.x| |t.y - s.y| / 2 := by
      rw [max_eq_left, max_comm, max_div_div_right (by norm_num : (0:ℝ) ≤ 2)]
      exact le_trans (by positivity) (le_max_left _ _)
    rw [e]
    constructor
    · intro h
      push Not
      exact ⟨fun h' => absurd h' hlt, by linarith⟩
    · intro h
      push Not at h
      have := h.2
      linarith

/-- a line element's local system -/
theorem lineCsys_ok {s t : V3} {c : Csys} (h : lineCsys s t = .ok c) :
    RightHanded c ∧ 0 < lineLength s t ∧ t - s = lineLength s t • c.x := by
  unfold lineCsys at h
  obtain ⟨hr, hO, hA, hx, hz, hc⟩ := mk?_ok h
  have hlen : V3.norm (t - ⟨(s.x + t.x) / 2, (s.y + t.y) / 2, (s.z + t.z) / 2⟩) = lineLength s t / 2 := by
    unfold lineLength V3.norm
    simp only [V3.sub_def]
    have h2 : (lineLength s t / 2) = Real.sqrt (((s.x - t.x) * (s.x - t.x) + (s.y - t.y) * (s.y - t.y) +
        (s.z - t.z) * (s.z - t.z)) / 2 ^ 2) := by
      rw [Real.sqrt_div' _ (by norm_num), Real.sqrt_sq (by norm_num)]
      rfl
    refine Eq.trans ?_ h2.symm
    congr 1
    ring
  have hpos : 0 < V3.norm (t - ⟨(s.x + t.x) / 2, (s.y + t.y) / 2, (s.z + t.z) / 2⟩) := (V3.norm_pos_iff _).mpr hA
  rw [hlen] at hpos hx
  refine ⟨hr, by linarith, ?_⟩
  have e : t - s = (2 : ℝ) • (t - ⟨(s.x + t.x) / 2, (s.y + t.y) / 2, (s.z + t.z) / 2⟩) := by
    ext <;> simp <;> ring
  rw [e, ← hx]
  ext <;> simp <;> ring

/-! block transformation -/

theorem sum_blocks (k : ℕ) (f : Fin (3 * k) → ℝ) :
    ∑ j, f j = ∑ a : Fin k, ∑ b : Fin 3, f ⟨b.val + 3 * a.val, by have := a.isLt; have := b.isLt; omega⟩ := by
  rw [← Fintype.sum_prod_type' (f := fun (a : Fin k) (b : Fin 3) =>
    f ⟨b.val + 3 * a.val, by have := a.isLt; have := b.isLt; omega⟩)]
  symm
  apply Fintype.sum_equiv (finProdFinEquiv.trans (finCongr (Nat.mul_comm k 3)))
  rintro ⟨a, b⟩
  congr 1

theorem blockDiag_mul (k : ℕ) (V W : Matrix (Fin 3) (Fin 3) ℝ) :
    blockDiag k V * blockDiag k W = blockDiag k (V * W) := by
  ext i j
  rw [Matrix.mul_apply, sum_blocks]
  have hi : i.val / 3 < k := by have := i.isLt; omega
  rw [Finset.sum_eq_single_of_mem (⟨i.val / 3, hi⟩ : Fin k) (Finset.mem_univ _)]
  · by_cases h : i.val / 3 = j.val / 3
    · simp only [blockDiag, Matrix.mul_apply]
      rw [if_pos h]
      apply Finset.sum_congr rfl
      intro b _
      have h1 : (b.val + 3 * (i.val / 3)) / 3 = i.val / 3 := by have := b.isLt; omega
      have h2 : (b.val + 3 * (i.val / 3)) % 3 = b.val := by have := b.isLt; omega
      rw [if_pos h1.symm, if_pos (h1.trans h)]
      congr 2 <;> ext <;> simp [h2]
    · simp only [blockDiag]
      rw [if_neg h]
      apply Finset.sum_eq_zero
      intro b _
      have h1 : (b.val + 3 * (i.val / 3)) / 3 = i.val / 3 := by have := b.isLt; omega
      rw [if_neg (fun e : (b.val + 3 * (i.val / 3)) / 3 = j.val / 3 => h (h1.symm.trans e)), mul_zero]
  · intro a _ ha
    apply Finset.sum_eq_zero
    intro b _
    have h1 : (b.val + 3 * a.val) / 3 = a.val := by have := b.isLt; omega
    simp only [blockDiag]
    rw [if_neg, zero_mul]
    intro e
    apply ha
    ext
    simp only [h1] at e
    exact e.symm

theorem blockDiag_transpose (k : ℕ) (V : Matrix (Fin 3) (Fin 3) ℝ) : (blockDiag k V)ᵀ = blockDiag k Vᵀ := by
  ext i j
  simp only [blockDiag, Matrix.transpose_apply, eq_comm]

theorem blockDiag_one (k : ℕ) : blockDiag k 1 = 1 := by
  ext i j
  simp only [blockDiag, Matrix.one_apply, Fin.ext_iff]
  by_cases h : i.val = j.val
  · simp [h]
  · have : ¬ (i.val / 3 = j.val / 3 ∧ i.val % 3 = j.val % 3) := by omega
    by_cases h1 : i.val / 3 = j.val / 3
    · have h2 : ¬ i.val % 3 = j.val % 3 := fun e => this ⟨h1, e⟩
      simp [h, h1, h2]
    · simp [h, h1]

theorem csysT_orth {c : Csys} (h : RightHanded c) : c.T * c.Tᵀ = 1 := by
  have xx := h.xx
  have yy := h.yy
  have zz := h.zz
  have xy := h.xy
  have yz := h.yz
  have zx := h.zx
  simp only [V3.dot] at *
  ext i j
  fin_cases i <;> fin_cases j <;>
    simp [Csys.T, Matrix.mul_apply, Fin.sum_univ_three] <;> linarith

theorem lineT_orth {c : Csys} (h : RightHanded c) : lineT c * (lineT c)ᵀ = 1 := by
  unfold lineT
  rw [blockDiag_transpose, blockDiag_mul, csysT_orth h, blockDiag_one]

theorem lineT_orth' {c : Csys} (h : RightHanded c) : (lineT c)ᵀ * lineT c = 1 :=
  mul_eq_one_comm.mp (lineT_orth h)

/-- the three components starting at index `3a` of a vector -/
def part3 (u : Vec 12) (a : Fin 4) : V3 :=
  ⟨u ⟨3 * a.val, by omega⟩, u ⟨3 * a.val + 1, by omega⟩, u ⟨3 * a.val + 2, by omega⟩⟩

theorem lineT_mulVec (c : Csys) (u : Vec 12) : lineT c *ᵥ u =
    ![V3.dot c.x (part3 u 0), V3.dot c.y (part3 u 0), V3.dot c.z (part3 u 0),
      V3.dot c.x (part3 u 1), V3.dot c.y (part3 u 1), V3.dot c.z (part3 u 1),
      V3.dot c.x (part3 u 2), V3.dot c.y (part3 u 2), V3.dot c.z (part3 u 2),
      V3.dot c.x (part3 u 3), V3.dot c.y (part3 u 3), V3.dot c.z (part3 u 3)] := by
  ext i
  fin_cases i <;>
    simp [Matrix.mulVec, dotProduct, Fin.sum_univ_succ, lineT, blockDiag, Csys.T, part3, V3.dot] <;> ring

end Hyperstatic
