import Verif.Model.Interp
import Verif.Spec.Interp
import Mathlib.Analysis.Calculus.Deriv.Pow
import Mathlib.Analysis.Calculus.Deriv.Mul
import Mathlib.Analysis.Calculus.Deriv.Add
import Mathlib.Analysis.SpecialFunctions.Trigonometric.Basic
import Mathlib.Tactic.Ring
import Mathlib.Tactic.FieldSimp
import Mathlib.Tactic.NormNum
import Mathlib.Tactic.Linarith

/-
C85: Hermite shape functions; C86: Lagrange shape functions; C87: sampled curves.
-/

namespace Hyperstatic
open Spec

/-- the derivative of a cubic is again one -/
def slopeCoef (a : Fin 4 → ℝ) : Fin 4 → ℝ := ![a 1, 2 * a 2, 3 * a 3, 0]

theorem cubic_deriv (a : Fin 4 → ℝ) (x : ℝ) : HasDerivAt (cubic a) (cubic (slopeCoef a) x) x := by
  have h1 : HasDerivAt (fun s : ℝ => s) 1 x := hasDerivAt_id x
  have h := (((h1.const_mul (a 1)).const_add (a 0)).add ((h1.pow 2).const_mul (a 2))).add ((h1.pow 3).const_mul (a 3))
  refine h.congr_deriv ?_
  simp [cubic, slopeCoef]
  ring

theorem bicubic_swap (a : Fin 4 → Fin 4 → ℝ) (x y : ℝ) : bicubic a x y = cubic (fun j => cubic (fun i => a i j) x) y := by
  simp only [bicubic, cubic]; ring

theorem dx_bicubic (a : Fin 4 → Fin 4 → ℝ) (x y : ℝ) : dx (bicubic a) x y = cubic (slopeCoef fun i => cubic (a i) y) x :=
  (cubic_deriv (fun i => cubic (a i) y) x).deriv

theorem dy_bicubic (a : Fin 4 → Fin 4 → ℝ) (x y : ℝ) : dy (bicubic a) x y = cubic (slopeCoef fun j => cubic (fun i => a i j) x) y := by
  have : (fun s => bicubic a x s) = cubic (fun j => cubic (fun i => a i j) x) := funext fun s => bicubic_swap a x s
  rw [dy, this]
  exact (cubic_deriv _ y).deriv

theorem dxy_bicubic (a : Fin 4 → Fin 4 → ℝ) (x y : ℝ) :
    dx (dy (bicubic a)) x y = cubic (slopeCoef fun i => cubic (slopeCoef (a i)) y) x := by
  have : (fun s => dy (bicubic a) s y) = cubic (fun i => cubic (slopeCoef (a i)) y) := funext fun s => by
    rw [dy_bicubic]
    simp [cubic, slopeCoef]
    ring
  rw [dx, this]
  exact (cubic_deriv _ x).deriv

/-- C85, one variable: the combination of the Hermite functions with the end values and end slopes of a cubic on `[0, l]` is that cubic. -/
theorem C85_line (a : Fin 4 → ℝ) (l xi : ℝ) :
    combine [cubic a 0, deriv (cubic a) 0, cubic a l, deriv (cubic a) l] (hermite1 l xi) = cubic a (l * xi) := by
  rw [(cubic_deriv a 0).deriv, (cubic_deriv a l).deriv]
  simp [combine, hermite1, H01, H02, H11, H12, cubic, slopeCoef]
  ring

/-- C85, two variables: values, slopes and mixed derivatives at the corners of the square reproduce every bicubic. -/
theorem C85_square (a : Fin 4 → Fin 4 → ℝ) (l xi eta : ℝ) :
    combine (corners (bicubic a) l ++ corners (dx (bicubic a)) l ++ corners (dy (bicubic a)) l ++ corners (dx (dy (bicubic a))) l)
      (hermite2 l xi eta) = bicubic a (l * xi) (l * eta) := by
  simp only [corners, dx_bicubic, dy_bicubic, dxy_bicubic]
  simp [combine, hermite2, H01, H02, H11, H12, bicubic, cubic, slopeCoef]
  ring

/-- C86, one variable: non-negative weights on `[-1, 1]` that reproduce every linear function from its end values. -/
theorem C86_line (a b xi : ℝ) : combine [a - b, a + b] (lagrange1 xi) = a + b * xi ∧
    (-1 ≤ xi → xi ≤ 1 → ∀ w ∈ lagrange1 xi, 0 ≤ w) := by
  refine ⟨by simp [combine, lagrange1, lag1, lag2]; ring, fun h1 h2 w hw => ?_⟩
  simp only [lagrange1, lag1, lag2, List.mem_cons, List.not_mem_nil, or_false] at hw
  rcases hw with rfl | rfl <;> linarith

/-- C86, two variables: the values at (-1,-1), (-1,1), (1,-1), (1,1) reproduce every bilinear function, with non-negative weights of
sum one inside the square. -/
theorem C86_square (a b c d xi eta : ℝ) (f : ℝ → ℝ → ℝ) (hf : ∀ x y, f x y = a + b * x + c * y + d * x * y) :
    combine [f (-1) (-1), f (-1) 1, f 1 (-1), f 1 1] (lagrange2 xi eta) = f xi eta ∧ (lagrange2 xi eta).sum = 1 ∧
    (-1 ≤ xi → xi ≤ 1 → -1 ≤ eta → eta ≤ 1 → ∀ w ∈ lagrange2 xi eta, 0 ≤ w) := by
  refine ⟨?_, ?_, fun h1 h2 h3 h4 w hw => ?_⟩
  · simp only [hf]; simp [combine, lagrange2, lag1, lag2]; ring
  · simp [lagrange2, lag1, lag2]; ring
  · simp only [lagrange2, lag1, lag2, List.mem_cons, List.not_mem_nil, or_false] at hw
    rcases hw with rfl | rfl | rfl | rfl <;> exact mul_nonneg (by linarith) (by linarith)

theorem arange0_ok (n : ℕ) {dt : ℝ} (h : dt ≠ 0) : arange0 (n * dt) dt = .ok ((List.range n).map fun k : ℕ => (k : ℝ) * dt) := by
  simp [arange0, pyDiv, h, bind, Except.bind, pure, Except.pure]

/-- C87.  `Curve.sin` and `Curve.cos` succeed exactly for a step that is not zero; they return `n` samples at the multiples of the step. -/
theorem C87_samples (name : String) (A w phi dt : ℝ) (n : ℕ) :
    ((∃ c, SampledCurve.sin name A w phi dt n = .ok c) ↔ dt ≠ 0) ∧ ((∃ c, SampledCurve.cos name A w phi dt n = .ok c) ↔ dt ≠ 0) ∧
    (∀ c, SampledCurve.sin name A w phi dt n = .ok c → c.name = name ∧ c.x.length = n ∧ c.y.length = n ∧
      ∀ k, k < n → c.x[k]? = some (k * dt) ∧ c.y[k]? = some (A * Real.sin (w * (k * dt) + phi))) ∧
    (∀ c, SampledCurve.cos name A w phi dt n = .ok c → c.name = name ∧ c.x.length = n ∧ c.y.length = n ∧
      ∀ k, k < n → c.x[k]? = some (k * dt) ∧ c.y[k]? = some (A * Real.cos (w * (k * dt) + phi))) := by
  by_cases h : dt = 0
  · simp [SampledCurve.sin, SampledCurve.cos, arange0, pyDiv, h, bind, Except.bind]
  · simp only [SampledCurve.sin, SampledCurve.cos, arange0_ok n h, bind, Except.bind, pure, Except.pure, Except.ok.injEq]
    refine ⟨by simp [h], by simp [h], ?_, ?_⟩
    all_goals
      rintro c rfl
      refine ⟨rfl, by simp, by simp, fun k hk => ?_⟩
      simp [hk]

/-- C87.  A cosine curve is the sine curve a quarter period ahead. -/
theorem C87_phase (name : String) (A w phi dt : ℝ) (n : ℕ) :
    SampledCurve.cos name A w phi dt n = SampledCurve.sin name A w (phi + Real.pi / 2) dt n := by
  simp only [SampledCurve.sin, SampledCurve.cos, ← add_assoc, Real.sin_add_pi_div_two]

example : ∃ c, SampledCurve.sin "s" 2 3 0 0.02 500 = .ok c := (C87_samples "s" 2 3 0 0.02 500).1.mpr (by norm_num)

example : combine [cubic ![1, 2, 3, 4] 0, deriv (cubic ![1, 2, 3, 4]) 0, cubic ![1, 2, 3, 4] 5, deriv (cubic ![1, 2, 3, 4]) 5]
    (hermite1 5 0.3) = cubic ![1, 2, 3, 4] (5 * 0.3) := C85_line _ _ _

example : combine [1 - 2, 1 + 2] (lagrange1 0.3) = 1 + 2 * 0.3 := (C86_line 1 2 0.3).1

end Hyperstatic
