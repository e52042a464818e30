import Verif.Lemmas.Response
import Verif.Spec.Response

/-
C141: the combination of modal responses is a norm.
-/

namespace Hyperstatic

open scoped BigOperators

/-! ### the coefficients -/

/-- the correlation coefficient for the periods `x`, `y` -/
noncomputable def corr (xi x y : ℝ) : ℝ := 4 * xi * (Real.sqrt x * Real.sqrt y) * gram xi x y

theorem rpow_three_halves {r : ℝ} (hr : 0 ≤ r) : r ^ (1.5 : ℝ) = r * Real.sqrt r := by
  rw [Real.sqrt_eq_rpow]
  have e : (1.5 : ℝ) = 1 + 1 / 2 := by norm_num
  rw [e]
  rcases eq_or_lt_of_le hr with h | h
  · subst h; rw [Real.zero_rpow (by norm_num)]; simp
  · rw [Real.rpow_add h, Real.rpow_one]

theorem cqcRho_eq {xi x y : ℝ} (hxi : 0 < xi) (hx : 0 < x) (hy : 0 < y) : cqcRho xi (x / y) = some (corr xi x y) := by
  have hr : 0 < x / y := div_pos hx hy
  have hden : 0 < (1 - (x / y) ^ 2) ^ 2 + 4 * xi ^ 2 * (x / y) * (1 + x / y) ^ 2 := by positivity
  have hD := gram_den hxi hx hy
  unfold cqcRho
  simp only
  rw [if_neg hden.ne', rpow_three_halves hr.le, Real.sqrt_div hx.le]
  congr 1
  unfold corr gram
  obtain ⟨p, hp, rfl⟩ : ∃ p, 0 < p ∧ x = p ^ 2 := ⟨Real.sqrt x, Real.sqrt_pos.mpr hx, (Real.sq_sqrt hx.le).symm⟩
  obtain ⟨q, hq, rfl⟩ : ∃ q, 0 < q ∧ y = q ^ 2 := ⟨Real.sqrt y, Real.sqrt_pos.mpr hy, (Real.sq_sqrt hy.le).symm⟩
  rw [Real.sqrt_sq hp.le, Real.sqrt_sq hq.le]
  have e1 : (1 - (p ^ 2 / q ^ 2) ^ 2) ^ 2 + 4 * xi ^ 2 * (p ^ 2 / q ^ 2) * (1 + p ^ 2 / q ^ 2) ^ 2 =
      (p ^ 2 + q ^ 2) ^ 2 * ((p ^ 2 - q ^ 2) ^ 2 + 4 * xi ^ 2 * p ^ 2 * q ^ 2) / q ^ 8 := by
    field_simp; ring
  rw [e1]
  have : p ^ 2 + q ^ 2 ≠ 0 := by positivity
  have hD' := hD.ne'
  generalize (p ^ 2 - q ^ 2) ^ 2 + 4 * xi ^ 2 * p ^ 2 * q ^ 2 = D at hD' ⊢
  field_simp
  ring

theorem corr_self {xi x : ℝ} (hxi : 0 < xi) (hx : 0 < x) : corr xi x x = 1 := by
  unfold corr gram
  rw [Real.mul_self_sqrt hx.le, sub_self]
  field_simp
  ring

theorem corr_comm (xi x y : ℝ) : corr xi x y = corr xi y x := by
  unfold corr gram
  rw [mul_comm (Real.sqrt x), add_comm x y]
  have e : (x - y) ^ 2 + 4 * xi ^ 2 * x * y = (y - x) ^ 2 + 4 * xi ^ 2 * y * x := by ring
  rw [e]; ring

theorem corr_nonneg {xi x y : ℝ} (hxi : 0 < xi) (hx : 0 < x) (hy : 0 < y) : 0 ≤ corr xi x y := by
  have := gram_den hxi hx hy
  unfold corr gram
  positivity

theorem corr_le_one {xi x y : ℝ} (hxi : 0 < xi) (hx : 0 < x) (hy : 0 < y) : corr xi x y ≤ 1 := by
  have hD := gram_den hxi hx hy
  unfold corr gram
  rw [← mul_div_assoc, div_le_one (by positivity)]
  obtain ⟨p, hp, rfl⟩ : ∃ p, 0 < p ∧ x = p ^ 2 := ⟨Real.sqrt x, Real.sqrt_pos.mpr hx, (Real.sq_sqrt hx.le).symm⟩
  obtain ⟨q, hq, rfl⟩ : ∃ q, 0 < q ∧ y = q ^ 2 := ⟨Real.sqrt y, Real.sqrt_pos.mpr hy, (Real.sq_sqrt hy.le).symm⟩
  rw [Real.sqrt_sq hp.le, Real.sqrt_sq hq.le]
  have h1 : 0 ≤ (p ^ 2 + q ^ 2) * (p ^ 2 - q ^ 2) ^ 2 := by positivity
  have h2 : 0 ≤ 4 * xi ^ 2 * p ^ 2 * q ^ 2 * (p - q) ^ 2 := by positivity
  nlinarith

/-! ### the sums -/

/-- the sum of the complete quadratic combination, if all coefficients are numbers -/
theorem cqcSum_eq {n : ℕ} {xi : ℝ} {T : Fin n → ℝ} (S : Fin n → ℝ) (rho : Fin n → Fin n → ℝ)
    (h1 : ∀ i, rho i i = 1) (h : ∀ i j, i ≠ j → cqcRho xi (T i / T j) = some (rho i j)) :
    cqcSum xi T S = some (∑ i, ∑ j, rho i j * S i * S j) := by
  unfold cqcSum
  have inner : ∀ (i : Fin n) (l : List (Fin n)) (s : ℝ), l.foldl (fun res j => (do
      let res ← res
      let rho ← if i = j then some 1 else cqcRho xi (T i / T j)
      some (res + rho * S i * S j) : Option ℝ)) (some s) = some (s + (l.map fun j => rho i j * S i * S j).sum) := by
    intro i l
    induction l with
    | nil => intro s; simp
    | cons a l ih =>
      intro s
      have step : (do
          let res ← some s
          let rho ← if i = a then some 1 else cqcRho xi (T i / T a)
          some (res + rho * S i * S a) : Option ℝ) = some (s + rho i a * S i * S a) := by
        by_cases hij : i = a
        · subst hij; simp [h1]
        · simp [hij, h i a hij]
      rw [List.foldl_cons, step, ih, List.map_cons, List.sum_cons, add_assoc]
  have outer : ∀ (l : List (Fin n)) (s : ℝ), l.foldl (fun res i => (List.finRange n).foldl (fun res j => (do
      let res ← res
      let rho ← if i = j then some 1 else cqcRho xi (T i / T j)
      some (res + rho * S i * S j) : Option ℝ)) res) (some s) =
      some (s + (l.map fun i => ∑ j, rho i j * S i * S j).sum) := by
    intro l
    induction l with
    | nil => intro s; simp
    | cons a l ih =>
      intro s
      rw [List.foldl_cons, inner, ih, List.map_cons, List.sum_cons, add_assoc, Fin.sum_univ_def]
  rw [outer, zero_add, Fin.sum_univ_def]

theorem srssSum_eq {n : ℕ} (S : Fin n → ℝ) : srssSum S = ∑ i, S i ^ 2 := by
  unfold srssSum
  have : ∀ (l : List (Fin n)) (s : ℝ), l.foldl (fun res i => res + S i ^ 2) s = s + (l.map fun i => S i ^ 2).sum := by
    intro l
    induction l with
    | nil => intro s; simp
    | cons a l ih => intro s; rw [List.foldl_cons, ih, List.map_cons, List.sum_cons, add_assoc]
  rw [this, zero_add, Fin.sum_univ_def]

/-! ### the form behind both combinations -/

/-- coefficients with the properties needed of a combination -/
structure Coeffs {n : ℕ} (rho : Fin n → Fin n → ℝ) : Prop where
  one : ∀ i, rho i i = 1
  comm : ∀ i j, rho i j = rho j i
  nonneg : ∀ i j, 0 ≤ rho i j
  le_one : ∀ i j, rho i j ≤ 1
  psd : ∀ S : Fin n → ℝ, 0 ≤ ∑ i, ∑ j, rho i j * S i * S j

/-- coefficients of the combination asked for -/
noncomputable def coeff (comb : String) {n : ℕ} (xi : ℝ) (T : Fin n → ℝ) (i j : Fin n) : ℝ :=
  if comb = "CQC" then corr xi (T i) (T j) else if i = j then 1 else 0

theorem coeff_ok (comb : String) {n : ℕ} {xi : ℝ} (hxi : 0 < xi) {T : Fin n → ℝ} (hT : ∀ i, 0 < T i) : Coeffs (coeff comb xi T) := by
  unfold coeff
  by_cases h : comb = "CQC"
  · simp only [if_pos h]
    refine ⟨fun i => corr_self hxi (hT i), fun i j => corr_comm _ _ _, fun i j => corr_nonneg hxi (hT i) (hT j),
      fun i j => corr_le_one hxi (hT i) (hT j), fun S => ?_⟩
    have := gram_psd hxi T hT fun i => S i * Real.sqrt (T i)
    have e : (∑ i, ∑ j, corr xi (T i) (T j) * S i * S j) =
        4 * xi * ∑ i, ∑ j, S i * Real.sqrt (T i) * (S j * Real.sqrt (T j)) * gram xi (T i) (T j) := by
      rw [Finset.mul_sum]
      refine Finset.sum_congr rfl fun i _ => ?_
      rw [Finset.mul_sum]
      refine Finset.sum_congr rfl fun j _ => ?_
      unfold corr; ring
    rw [e]
    positivity
  · simp only [if_neg h]
    refine ⟨fun i => if_pos rfl, fun i j => by simp only [eq_comm], fun i j => by split <;> norm_num, fun i j => by split <;> norm_num,
      fun S => ?_⟩
    refine Finset.sum_nonneg fun i _ => ?_
    simp only [ite_mul, one_mul, zero_mul, Finset.sum_ite_eq, Finset.mem_univ, if_true]
    exact mul_self_nonneg _

/-- the value of a combination -/
theorem combine_eq {comb : String} (hc : comb = "CQC" ∨ comb = "SRSS") {n : ℕ} {xi : ℝ} (hxi : 0 < xi) {T : Fin n → ℝ}
    (hT : ∀ i, 0 < T i) (S : Fin n → ℝ) :
    combineModes comb xi T S = .ok (some (Real.sqrt (∑ i, ∑ j, coeff comb xi T i j * S i * S j))) := by
  have hk := coeff_ok comb hxi hT
  have hnn := hk.psd S
  unfold combineModes
  rcases hc with rfl | rfl
  · rw [if_pos rfl, cqcSum_eq S (coeff "CQC" xi T) hk.one (fun i j _ => by rw [coeff, if_pos rfl, cqcRho_eq hxi (hT i) (hT j)])]
    simp only [Option.bind_some, npSqrt, if_neg (not_lt.mpr hnn)]
  · rw [if_neg (by decide), if_pos rfl, srssSum_eq]
    have e : (∑ i, ∑ j, coeff "SRSS" xi T i j * S i * S j) = ∑ i, S i ^ 2 := by
      refine Finset.sum_congr rfl fun i _ => ?_
      simp only [coeff, if_neg (show ¬ "SRSS" = "CQC" by decide), ite_mul, one_mul, zero_mul, Finset.sum_ite_eq, Finset.mem_univ, if_true]
      ring
    rw [e] at hnn ⊢
    simp only [npSqrt, if_neg (not_lt.mpr hnn)]

section form
variable {n : ℕ} {rho : Fin n → Fin n → ℝ} (hk : Coeffs rho)
include hk

theorem form_le (S : Fin n → ℝ) : Real.sqrt (∑ i, ∑ j, rho i j * S i * S j) ≤ ∑ i, |S i| := by
  apply Real.sqrt_le_iff.mpr
  refine ⟨Finset.sum_nonneg fun i _ => abs_nonneg _, ?_⟩
  rw [sq, Finset.sum_mul_sum]
  refine Finset.sum_le_sum fun i _ => Finset.sum_le_sum fun j _ => ?_
  rw [mul_assoc]
  calc rho i j * (S i * S j) ≤ rho i j * |S i * S j| := mul_le_mul_of_nonneg_left (le_abs_self _) (hk.nonneg i j)
    _ ≤ 1 * |S i * S j| := mul_le_mul_of_nonneg_right (hk.le_one i j) (abs_nonneg _)
    _ = |S i| * |S j| := by rw [one_mul, abs_mul]

theorem form_triangle (S S' : Fin n → ℝ) : Real.sqrt (∑ i, ∑ j, rho i j * (S i + S' i) * (S j + S' j)) ≤
    Real.sqrt (∑ i, ∑ j, rho i j * S i * S j) + Real.sqrt (∑ i, ∑ j, rho i j * S' i * S' j) := by
  set Q := ∑ i, ∑ j, rho i j * S i * S j with hQ
  set Q' := ∑ i, ∑ j, rho i j * S' i * S' j with hQ'
  set B := ∑ i, ∑ j, rho i j * S i * S' j with hB
  have hB' : ∑ i, ∑ j, rho i j * S' i * S j = B := by
    rw [Finset.sum_comm]
    exact Finset.sum_congr rfl fun i _ => Finset.sum_congr rfl fun j _ => by rw [hk.comm j i]; ring
  have expand : ∀ t : ℝ, ∑ i, ∑ j, rho i j * (t * S i + S' i) * (t * S j + S' j) = Q * (t * t) + 2 * B * t + Q' := by
    intro t
    have : ∀ i j, rho i j * (t * S i + S' i) * (t * S j + S' j) =
        t * t * (rho i j * S i * S j) + t * (rho i j * S i * S' j) + t * (rho i j * S' i * S j) + rho i j * S' i * S' j := by
      intro i j; ring
    simp only [this, Finset.sum_add_distrib, ← Finset.mul_sum]
    rw [hB']; ring
  have hdis := discrim_le_zero (a := Q) (b := 2 * B) (c := Q') fun t => by rw [← expand]; exact hk.psd _
  have hq := hk.psd S
  have hq' := hk.psd S'
  rw [← hQ] at hq
  rw [← hQ'] at hq'
  have h1 := expand 1
  simp only [one_mul, mul_one] at h1
  rw [h1]
  apply Real.sqrt_le_iff.mpr
  refine ⟨by positivity, ?_⟩
  rw [add_sq, Real.sq_sqrt hq, Real.sq_sqrt hq']
  have hBle : B ≤ Real.sqrt Q * Real.sqrt Q' := by
    rw [← Real.sqrt_mul hq]
    apply Real.le_sqrt_of_sq_le
    unfold discrim at hdis
    nlinarith
  linarith

theorem form_ge (S : Fin n → ℝ) (hS : ∀ i, 0 ≤ S i) : ∑ i, S i ^ 2 ≤ ∑ i, ∑ j, rho i j * S i * S j := by
  refine Finset.sum_le_sum fun i _ => ?_
  have : rho i i * S i * S i ≤ ∑ j, rho i j * S i * S j :=
    Finset.single_le_sum (f := fun j => rho i j * S i * S j)
      (fun j _ => mul_nonneg (mul_nonneg (hk.nonneg i j) (hS i)) (hS j)) (Finset.mem_univ i)
  rw [hk.one] at this
  linarith [sq (S i)]
end form

/-! ### C141 -/

/-- For a positive damping ratio and positive periods both combinations are real numbers, never negative, and never exceed the sum of
the absolute values of the responses. -/
theorem C141_defined (comb : String) (hc : comb = "CQC" ∨ comb = "SRSS") (n : ℕ) (xi : ℝ) (hxi : 0 < xi) (T S : Fin n → ℝ)
    (hT : ∀ i, 0 < T i) : ∃ x, combineModes comb xi T S = .ok (some x) ∧ 0 ≤ x ∧ x ≤ ∑ i, |S i| :=
  ⟨_, combine_eq hc hxi hT S, Real.sqrt_nonneg _, form_le (coeff_ok comb hxi hT) S⟩

/-- The combination of a sum of two responses does not exceed the sum of the combinations, and a factor can be taken out. -/
theorem C141_norm (comb : String) (hc : comb = "CQC" ∨ comb = "SRSS") (n : ℕ) (xi : ℝ) (hxi : 0 < xi) (T S S' : Fin n → ℝ)
    (hT : ∀ i, 0 < T i) (c x x' : ℝ) (hx : combineModes comb xi T S = .ok (some x)) (hx' : combineModes comb xi T S' = .ok (some x')) :
    (∃ y, combineModes comb xi T (fun i => S i + S' i) = .ok (some y) ∧ y ≤ x + x') ∧
    combineModes comb xi T (fun i => c * S i) = .ok (some (|c| * x)) := by
  rw [combine_eq hc hxi hT] at hx hx'
  cases hx
  cases hx'
  refine ⟨⟨_, combine_eq hc hxi hT _, form_triangle (coeff_ok comb hxi hT) S S'⟩, ?_⟩
  rw [combine_eq hc hxi hT]
  congr 2
  rw [← Real.sqrt_sq_eq_abs, ← Real.sqrt_mul (sq_nonneg c), Finset.mul_sum]
  congr 1
  refine Finset.sum_congr rfl fun i _ => ?_
  rw [Finset.mul_sum]
  exact Finset.sum_congr rfl fun j _ => by ring

/-- The order of the modes does not matter. -/
theorem C141_order (comb : String) (hc : comb = "CQC" ∨ comb = "SRSS") (n : ℕ) (xi : ℝ) (hxi : 0 < xi) (T S : Fin n → ℝ)
    (hT : ∀ i, 0 < T i) (p : Equiv.Perm (Fin n)) :
    combineModes comb xi (fun i => T (p i)) (fun i => S (p i)) = combineModes comb xi T S := by
  rw [combine_eq hc hxi hT, combine_eq hc hxi fun i => hT (p i)]
  congr 3
  rw [← Equiv.sum_comp p (fun i => ∑ j, coeff comb xi T i j * S i * S j)]
  refine Finset.sum_congr rfl fun i _ => ?_
  rw [← Equiv.sum_comp p (fun j => coeff comb xi T (p i) j * S (p i) * S j)]
  refine Finset.sum_congr rfl fun j _ => ?_
  unfold coeff
  simp only [p.injective.eq_iff]

/-- The unit of the periods does not matter. -/
theorem C141_unit (comb : String) (n : ℕ) (xi c : ℝ) (hc : c ≠ 0) (T S : Fin n → ℝ) :
    combineModes comb xi (fun i => c * T i) S = combineModes comb xi T S := by
  have : ∀ i j, c * T i / (c * T j) = T i / T j := fun i j => mul_div_mul_left _ _ hc
  unfold combineModes cqcSum
  simp only [this]

/-- 'SRSS' is the root of the sum of the squares, for every damping ratio and all periods. -/
theorem C141_srss (n : ℕ) (xi : ℝ) (T S : Fin n → ℝ) :
    ∃ x, combineModes "SRSS" xi T S = .ok (some x) ∧ 0 ≤ x ∧ x ^ 2 = ∑ i, S i ^ 2 ∧ ∀ i, |S i| ≤ x := by
  have h0 : 0 ≤ ∑ i, S i ^ 2 := Finset.sum_nonneg fun i _ => sq_nonneg _
  refine ⟨Real.sqrt (∑ i, S i ^ 2), ?_, Real.sqrt_nonneg _, Real.sq_sqrt h0, fun i => ?_⟩
  · unfold combineModes
    rw [if_neg (by decide), if_pos rfl, srssSum_eq]
    simp only [npSqrt, if_neg (not_lt.mpr h0)]
  · apply Real.le_sqrt_of_sq_le
    rw [sq_abs]
    exact Finset.single_le_sum (f := fun i => S i ^ 2) (fun i _ => sq_nonneg _) (Finset.mem_univ i)

/-- Responses of one sign: 'CQC' is at least 'SRSS'. -/
theorem C141_one_sign (n : ℕ) (xi : ℝ) (hxi : 0 < xi) (T S : Fin n → ℝ) (hT : ∀ i, 0 < T i) (hS : ∀ i, 0 ≤ S i) (x y : ℝ)
    (hx : combineModes "SRSS" xi T S = .ok (some x)) (hy : combineModes "CQC" xi T S = .ok (some y)) : x ≤ y := by
  obtain ⟨z, hz, -, h2, -⟩ := C141_srss n xi T S
  rw [hz] at hx
  cases hx
  rw [combine_eq (Or.inl rfl) hxi hT] at hy
  cases hy
  apply Real.le_sqrt_of_sq_le
  rw [h2]
  exact form_ge (coeff_ok "CQC" hxi hT) S hS

/-- Modes of one period: 'CQC' is the absolute value of the sum. -/
theorem C141_one_period (n : ℕ) (xi : ℝ) (hxi : 0 < xi) (T S : Fin n → ℝ) (hT : ∀ i, 0 < T i) (he : ∀ i j, T i = T j) :
    combineModes "CQC" xi T S = .ok (some |∑ i, S i|) := by
  rw [combine_eq (Or.inl rfl) hxi hT]
  congr 2
  rw [← Real.sqrt_sq_eq_abs, sq, Finset.sum_mul_sum]
  congr 1
  refine Finset.sum_congr rfl fun i _ => Finset.sum_congr rfl fun j _ => ?_
  rw [coeff, if_pos rfl, he j i, corr_self hxi (hT i), one_mul]

/-- Without damping modes of different periods are combined as by 'SRSS'. -/
theorem C141_undamped (n : ℕ) (T S : Fin n → ℝ) (hT : ∀ i, 0 < T i) (hd : ∀ i j, i ≠ j → T i ≠ T j) :
    combineModes "CQC" 0 T S = combineModes "SRSS" 0 T S := by
  obtain ⟨x, hx, h1, h2, -⟩ := C141_srss n 0 T S
  rw [hx]
  unfold combineModes
  rw [if_pos rfl, cqcSum_eq S (fun i j => if i = j then 1 else 0) (fun i => if_pos rfl)]
  · have e : (∑ i, ∑ j, (if i = j then (1:ℝ) else 0) * S i * S j) = x ^ 2 := by
      rw [h2]
      refine Finset.sum_congr rfl fun i _ => ?_
      simp only [ite_mul, one_mul, zero_mul, Finset.sum_ite_eq, Finset.mem_univ, if_true]
      ring
    rw [e]
    simp only [Option.bind_some, npSqrt, if_neg (not_lt.mpr (sq_nonneg x)), Real.sqrt_sq h1]
  · intro i j hij
    have hr : 0 < T i / T j := div_pos (hT i) (hT j)
    have hne : T i / T j ≠ 1 := by
      rw [Ne, div_eq_one_iff_eq (hT j).ne']
      exact hd i j hij
    have hden : (1 - (T i / T j) ^ 2) ^ 2 ≠ 0 := by
      apply pow_ne_zero
      intro h
      have : (T i / T j - 1) * (T i / T j + 1) = 0 := by linear_combination -h
      rcases mul_eq_zero.mp this with h' | h'
      · exact hne (by linarith)
      · linarith
    simp only [cqcRho, if_neg hij]
    rw [if_neg (by simpa using hden)]
    simp

/-- Any other word than the two raises. -/
theorem C141_word (comb : String) (h : comb ≠ "CQC" ∧ comb ≠ "SRSS") (n : ℕ) (xi : ℝ) (T S : Fin n → ℝ) :
    combineModes comb xi T S = .error .nameError := by
  unfold combineModes
  rw [if_neg h.1, if_neg h.2]

/-- two modes of periods 1 and 2 with a damping of 5 % and responses 3 and -4 -/
example : ∃ x, combineModes "CQC" (1 / 20) ![(1 : ℝ), 2] ![3, -4] = .ok (some x) ∧ 0 ≤ x ∧ x ≤ 7 := by
  obtain ⟨x, h1, h2, h3⟩ := C141_defined "CQC" (Or.inl rfl) 2 (1 / 20) (by norm_num) ![(1 : ℝ), 2] ![3, -4]
    (by intro i; fin_cases i <;> norm_num)
  refine ⟨x, h1, h2, ?_⟩
  norm_num [Fin.sum_univ_two] at h3
  exact h3

example : combineModes "CQC" 0 ![(1 : ℝ), 2] ![3, -4] = .ok (some 5) := by
  rw [C141_undamped 2 _ _ (by intro i; fin_cases i <;> norm_num) (by intro i j h; fin_cases i <;> fin_cases j <;> simp_all)]
  obtain ⟨x, h1, h2, h3, -⟩ := C141_srss 2 0 ![(1 : ℝ), 2] ![3, -4]
  rw [h1]
  norm_num [Fin.sum_univ_two] at h3
  congr 2
  nlinarith

end Hyperstatic
