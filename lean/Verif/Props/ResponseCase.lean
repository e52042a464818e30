import Verif.Props.Response
import Verif.Props.Modal

/-
C142: response spectrum cases.
-/

namespace Hyperstatic

open Spec
open scoped BigOperators

/-! ### the settings -/

/-- What a user expects: some program for the rest of the solver makes it succeed for every response spectrum case of a saved assembly. -/
def C142_claim : Prop :=
  ∃ rest : Assembly → Dict (File Unit) → Dict (File Unit) × Except PyErr Unit, ∀ fs filename a lc, openAssembly fs filename = .ok a →
    a.cases.get? lc.name = some lc → lc.kind = .responseSpectrum → (solveSpectrum rest fs filename lc.name).2 = .ok ()

/-- The solver of response spectrum cases never succeeds and never writes, whatever the rest of it does: no case of any kind has the
setting it reads first. -/
theorem C142_never {A : Type} (rest : Assembly → Dict (File A) → Dict (File A) × Except PyErr Unit) (fs : Dict (File A))
    (filename casename : String) : ∃ e, solveSpectrum rest fs filename casename = (fs, .error e) ∧
      (∀ a lc, openAssembly fs filename = .ok a → a.cases.get? casename = some lc → e = .keyError) := by
  unfold solveSpectrum
  cases ho : openAssembly fs filename with
  | error e => exact ⟨e, rfl, fun a lc h => by cases h⟩
  | ok a =>
    have hl : lookSetting a casename "n" = .error .keyError := by
      unfold lookSetting Dict.getItem
      cases hc : a.cases.get? casename with
      | none => rfl
      | some lc =>
        have : "n" ∉ lc.kind.settingKeys := by cases lc.kind <;> decide
        simp [bind, Except.bind, this]
    dsimp only
    rw [hl]
    exact ⟨.keyError, rfl, fun _ _ _ _ => rfl⟩

theorem C142_false : ¬ C142_claim := by
  rintro ⟨rest, h⟩
  let lc := LoadCase.new "R" .responseSpectrum
  obtain ⟨x, -, hx2⟩ : ∃ x, Assembly.mk? (World.init.run idealEnv []).api.model [lc] [] = .ok x ∧ x.cases = [("R", lc)] := ⟨_, rfl, rfl⟩
  have ho : openAssembly [("m.asb", (File.asb x : File Unit))] "m.asb" = .ok x := rfl
  have h1 := h _ _ _ lc ho (by rw [hx2]; rfl) rfl
  obtain ⟨e, he, -⟩ := C142_never rest [("m.asb", (File.asb x : File Unit))] "m.asb" "R"
  have h2 : (solveSpectrum rest [("m.asb", (File.asb x : File Unit))] "m.asb" "R").2 = .ok () := h1
  rw [he] at h2
  cases h2

/-! ### the numbers -/

theorem correlation_eq {z w1 w2 : ℝ} (hz : 0 < z) (h1 : 0 < w1) (h2 : 0 < w2) : correlation z z w1 w2 = corr z w1 w2 := by
  have h := cqcRho_eq hz h2 h1
  have hr : 0 < w2 / w1 := div_pos h2 h1
  unfold cqcRho at h
  simp only at h
  rw [if_neg (by positivity)] at h
  rw [corr_comm]
  rw [← Option.some.inj h]
  unfold correlation
  simp only
  rw [Real.sqrt_mul_self hz.le]
  have e : (3 / 2 : ℝ) = 1.5 := by norm_num
  rw [e]
  congr 1 <;> ring

theorem period_eq {w : ℝ} (hw : 0 < w) : spectrumPeriod w = some (2 * Real.pi / Real.sqrt (Real.sqrt w)) := if_pos hw

theorem period_pos {w : ℝ} (hw : 0 < w) : 0 < 2 * Real.pi / Real.sqrt (Real.sqrt w) := by
  have := Real.sqrt_pos.mpr (Real.sqrt_pos.mpr hw)
  have := Real.pi_pos
  positivity

theorem response_eq {n : ℕ} (comb : String) {damp : List ℝ} {z : ℝ} (hd : loopDamp n damp = .ok z) {omega2 : Fin n → ℝ}
    (hw : ∀ i, 0 < omega2 i) (gamma y mode : Fin n → ℝ) : spectrumResponse comb damp omega2 gamma y mode =
    combineModes comb z (fun i => 2 * Real.pi / Real.sqrt (Real.sqrt (omega2 i))) (modalResponse gamma y omega2 mode) := by
  unfold spectrumResponse
  rw [hd]
  simp only [bind, Except.bind]
  rw [if_pos (fun i => by rw [period_eq (hw i)]; rfl)]
  congr 1
  funext i
  rw [period_eq (hw i)]
  rfl

theorem corr_inv {z a b : ℝ} (hz : 0 < z) (ha : 0 < a) (hb : 0 < b) : corr z (2 * Real.pi / a) (2 * Real.pi / b) = corr z a b := by
  have hp := Real.pi_pos
  have h1 := cqcRho_eq hz (x := 2 * Real.pi / a) (y := 2 * Real.pi / b) (by positivity) (by positivity)
  have e : 2 * Real.pi / a / (2 * Real.pi / b) = b / a := by field_simp
  rw [e, cqcRho_eq hz hb ha, corr_comm] at h1
  exact (Option.some.inj h1).symm

/-- Modes with one positive damping ratio and positive eigenvalues.  'SRSS' is the root of the sum of squares of the responses;
'CQC' is the complete quadratic combination of the literature for modes whose circular frequencies are the roots of the true ones; it is
that for the true frequencies if all eigenvalues are equal. -/
theorem C142_partial (n : ℕ) (z : ℝ) (hz : 0 < z) (omega2 gamma y mode : Fin n → ℝ) (hw : ∀ i, 0 < omega2 i) :
    spectrumResponse "SRSS" (List.replicate n z) omega2 gamma y mode =
      .ok (some (Real.sqrt (∑ i, (gamma i * (y i / omega2 i) * mode i) ^ 2))) ∧
    spectrumResponse "CQC" (List.replicate n z) omega2 gamma y mode =
      .ok (some (quadraticCombination (fun _ => z) (fun i => Real.sqrt (Real.sqrt (omega2 i)))
        fun i => gamma i * (y i / omega2 i) * mode i)) ∧
    ((∀ i j, omega2 i = omega2 j) → spectrumResponse "CQC" (List.replicate n z) omega2 gamma y mode =
      .ok (some (quadraticCombination (fun _ => z) (fun i => Real.sqrt (omega2 i)) fun i => gamma i * (y i / omega2 i) * mode i))) := by
  rcases Nat.eq_zero_or_pos n with rfl | hn
  · have hd : loopDamp 0 (List.replicate 0 z) = .ok 0 := rfl
    have key : ∀ T S : Fin 0 → ℝ, combineModes "CQC" 0 T S = .ok (some 0) := by
      intro T S
      simp [combineModes, cqcSum, npSqrt]
    refine ⟨?_, ?_, fun _ => ?_⟩
    · rw [response_eq "SRSS" hd hw]
      simp [combineModes, srssSum, npSqrt]
    · rw [response_eq "CQC" hd hw, key]
      simp [quadraticCombination]
    · rw [response_eq "CQC" hd hw, key]
      simp [quadraticCombination]
  have hd : loopDamp n (List.replicate n z) = .ok z := by
    unfold loopDamp
    rw [if_neg (by simp)]
    congr 1
    rw [List.getD_eq_getElem?_getD, List.getElem?_replicate, if_pos (by omega)]
    rfl
  have hT : ∀ i, 0 < 2 * Real.pi / Real.sqrt (Real.sqrt (omega2 i)) := fun i => period_pos (hw i)
  have hs : ∀ i, 0 < Real.sqrt (Real.sqrt (omega2 i)) := fun i => Real.sqrt_pos.mpr (Real.sqrt_pos.mpr (hw i))
  have hC : spectrumResponse "CQC" (List.replicate n z) omega2 gamma y mode =
      .ok (some (quadraticCombination (fun _ => z) (fun i => Real.sqrt (Real.sqrt (omega2 i)))
        fun i => gamma i * (y i / omega2 i) * mode i)) := by
    rw [response_eq "CQC" hd hw, combine_eq (Or.inl rfl) hz hT]
    unfold quadraticCombination
    congr 3
    refine Finset.sum_congr rfl fun i _ => Finset.sum_congr rfl fun j _ => ?_
    rw [coeff, if_pos rfl, corr_inv hz (hs i) (hs j), correlation_eq hz (hs i) (hs j)]
    rfl
  refine ⟨?_, hC, fun he => ?_⟩
  · rw [response_eq "SRSS" hd hw]
    obtain ⟨x, h1, h2, h3, -⟩ := C141_srss n z (fun i => 2 * Real.pi / Real.sqrt (Real.sqrt (omega2 i))) (modalResponse gamma y omega2 mode)
    rw [h1]
    congr 2
    have : (∑ i, (gamma i * (y i / omega2 i) * mode i) ^ 2) = x ^ 2 := h3.symm
    rw [this, Real.sqrt_sq h2]
  · rw [hC]
    unfold quadraticCombination
    congr 3
    refine Finset.sum_congr rfl fun i _ => Finset.sum_congr rfl fun j _ => ?_
    have hs' : ∀ i, 0 < Real.sqrt (omega2 i) := fun i => Real.sqrt_pos.mpr (hw i)
    rw [correlation_eq hz (hs i) (hs j), correlation_eq hz (hs' i) (hs' j), he j i, corr_self hz (hs i), corr_self hz (hs' i)]

/-- two modes with eigenvalues 4 and 9 and a damping of 5 % -/
example : spectrumResponse "SRSS" [1 / 20, 1 / 20] ![(4 : ℝ), 9] ![1, 1] ![12, 36] ![1, 1] = .ok (some 5) := by
  have h := (C142_partial 2 (1 / 20) (by norm_num) ![(4 : ℝ), 9] ![1, 1] ![12, 36] ![1, 1] (by intro i; fin_cases i <;> norm_num)).1
  have e : ∑ i, ((![1, 1] : Fin 2 → ℝ) i * ((![12, 36] : Fin 2 → ℝ) i / (![4, 9] : Fin 2 → ℝ) i) * (![1, 1] : Fin 2 → ℝ) i) ^ 2 = 5 * 5 := by
    norm_num [Fin.sum_univ_two]
  rw [e, Real.sqrt_mul_self (by norm_num)] at h
  exact h

/-- The combination of the literature: the correlation of every two modes has their own damping ratios and frequencies. -/
def C142_literature : Prop :=
  ∀ (n : ℕ) (z omega2 gamma y mode : Fin n → ℝ), (∀ i, 0 < z i) → (∀ i, 0 < omega2 i) →
    spectrumResponse "CQC" (List.ofFn z) omega2 gamma y mode =
      .ok (some (quadraticCombination z (fun i => Real.sqrt (omega2 i)) fun i => gamma i * (y i / omega2 i) * mode i))

theorem two_quadratic (z w : ℝ) (hz : 0 < z) (w1 w2 : ℝ) (h1 : 0 < w1) (h2 : 0 < w2) (_ : w = corr z w1 w2) :
    quadraticCombination (fun _ => z) ![w1, w2] ![1, 1] = Real.sqrt (2 + 2 * w) := by
  subst w
  unfold quadraticCombination
  congr 1
  simp only [Fin.sum_univ_two, Matrix.cons_val_zero, Matrix.cons_val_one, mul_one]
  rw [correlation_eq hz h1 h1, correlation_eq hz h1 h2, correlation_eq hz h2 h1, correlation_eq hz h2 h2, corr_self hz h1, corr_self hz h2,
    corr_comm z w2 w1]
  ring

/-- The periods of the code are not those of the modes: with eigenvalues 1 and 16 (frequencies 1 and 4) it uses the frequencies 1 and 2. -/
theorem C142_periods_false : ¬ C142_literature := by
  intro h
  have h1 := h 2 (fun _ => 1 / 2) ![1, 16] (fun _ => 1) ![1, 16] (fun _ => 1) (fun _ => by norm_num) (by intro i; fin_cases i <;> norm_num)
  have hp := (C142_partial 2 (1 / 2) (by norm_num) ![1, 16] (fun _ => 1) ![1, 16] (fun _ => 1) (by intro i; fin_cases i <;> norm_num)).2.1
  have e : List.ofFn (fun _ : Fin 2 => (1 / 2 : ℝ)) = List.replicate 2 (1 / 2) := by simp
  rw [e, hp] at h1
  have s16 : Real.sqrt 16 = 4 := by
    rw [show (16:ℝ) = 4 * 4 by norm_num, Real.sqrt_mul_self (by norm_num)]
  have s4 : Real.sqrt 4 = 2 := by
    rw [show (4:ℝ) = 2 * 2 by norm_num, Real.sqrt_mul_self (by norm_num)]
  have e1 : (fun i => Real.sqrt (Real.sqrt ((![1, 16] : Fin 2 → ℝ) i))) = ![1, 2] := by
    funext i; fin_cases i
    · simp
    · simp [s16, s4]
  have e2 : (fun i => Real.sqrt ((![1, 16] : Fin 2 → ℝ) i)) = ![1, 4] := by
    funext i; fin_cases i
    · simp
    · simp [s16]
  have e3 : (fun i => (fun _ : Fin 2 => (1:ℝ)) i * ((![1, 16] : Fin 2 → ℝ) i / (![1, 16] : Fin 2 → ℝ) i) * (fun _ : Fin 2 => (1:ℝ)) i) = ![1, 1] := by
    funext i; fin_cases i <;> norm_num
  rw [e1, e2, e3, two_quadratic (1 / 2) _ (by norm_num) 1 2 one_pos two_pos rfl,
    two_quadratic (1 / 2) _ (by norm_num) 1 4 one_pos (by norm_num) rfl] at h1
  have h2 := Option.some.inj (Except.ok.inj h1)
  have n1 := corr_nonneg (xi := 1 / 2) (x := 1) (y := 2) (by norm_num) one_pos two_pos
  have n2 := corr_nonneg (xi := 1 / 2) (x := 1) (y := 4) (by norm_num) one_pos (by norm_num)
  rw [Real.sqrt_inj (by linarith) (by linarith)] at h2
  have h3 : corr (1 / 2) 1 2 = corr (1 / 2) 1 4 := by linarith
  have c1 : corr (1 / 2) 1 4 = 16 / 65 := by
    unfold corr gram; rw [s4, Real.sqrt_one]; norm_num
  have c2 : corr (1 / 2) 1 2 = Real.sqrt 2 * (4 / 9) := by
    unfold corr gram; rw [Real.sqrt_one]; ring
  have : (1:ℝ) ≤ Real.sqrt 2 := Real.one_le_sqrt.mpr (by norm_num)
  rw [c1, c2] at h3
  linarith

/-- The order of the modes should not matter. -/
def C142_any_order : Prop :=
  ∀ (n : ℕ) (z omega2 gamma y mode : Fin n → ℝ), (∀ i, 0 < z i) → (∀ i, 0 < omega2 i) → ∀ p : Equiv.Perm (Fin n),
    spectrumResponse "CQC" (List.ofFn fun i => z (p i)) (fun i => omega2 (p i)) (fun i => gamma (p i)) (fun i => y (p i)) (fun i => mode (p i)) =
      spectrumResponse "CQC" (List.ofFn z) omega2 gamma y mode

/-- The damping ratio of the last mode is used for all: listing two modes in the other order changes the result. -/
theorem C142_damping_false : ¬ C142_any_order := by
  intro h
  have h1 := h 2 ![1 / 2, 1] ![1, 256] (fun _ => 1) ![1, 256] (fun _ => 1) (by intro i; fin_cases i <;> norm_num)
    (by intro i; fin_cases i <;> norm_num) (Equiv.swap 0 1)
  have w1 : ∀ i, 0 < (![1, 256] : Fin 2 → ℝ) i := by intro i; fin_cases i <;> norm_num
  have d1 : loopDamp 2 (List.ofFn ![(1 / 2 : ℝ), 1]) = .ok 1 := by simp [loopDamp]
  have d2 : loopDamp 2 (List.ofFn fun i => (![(1 / 2 : ℝ), 1] : Fin 2 → ℝ) (Equiv.swap 0 1 i)) = .ok (1 / 2) := by
    simp [loopDamp]
  have w2 : ∀ i, 0 < (fun i => (![1, 256] : Fin 2 → ℝ) (Equiv.swap 0 1 i)) i := fun i => w1 _
  rw [response_eq "CQC" d1 w1, response_eq "CQC" d2 w2, combine_eq (Or.inl rfl) (by norm_num) (fun i => period_pos (w2 i)),
    combine_eq (Or.inl rfl) (by norm_num) (fun i => period_pos (w1 i))] at h1
  have s256 : Real.sqrt 256 = 16 := by
    rw [show (256:ℝ) = 16 * 16 by norm_num, Real.sqrt_mul_self (by norm_num)]
  have s16 : Real.sqrt 16 = 4 := by
    rw [show (16:ℝ) = 4 * 4 by norm_num, Real.sqrt_mul_self (by norm_num)]
  have s4 : Real.sqrt 4 = 2 := by
    rw [show (4:ℝ) = 2 * 2 by norm_num, Real.sqrt_mul_self (by norm_num)]
  have h2 := Option.some.inj (Except.ok.inj h1)
  simp only [Fin.sum_univ_two, coeff, if_true, modalResponse, Equiv.swap_apply_left, Equiv.swap_apply_right, Matrix.cons_val_zero,
    Matrix.cons_val_one, Real.sqrt_one, s256, s16] at h2
  simp only [corr_inv (z := 1) one_pos, corr_inv (z := 1 / 2) (by norm_num), one_pos, show (0:ℝ) < 4 by norm_num] at h2
  rw [corr_self (by norm_num) one_pos, corr_self (by norm_num) (by norm_num : (0:ℝ) < 4), corr_self (by norm_num) one_pos,
    corr_self (by norm_num) (by norm_num : (0:ℝ) < 4)] at h2
  have c1 : corr (1 / 2) 1 4 = 16 / 65 := by
    unfold corr gram; rw [s4, Real.sqrt_one]; norm_num
  have c2 : corr 1 1 4 = 64 / 125 := by
    unfold corr gram; rw [s4, Real.sqrt_one]; norm_num
  rw [corr_comm (1 / 2) 4 1, corr_comm 1 4 1, c1, c2] at h2
  rw [Real.sqrt_inj (by norm_num) (by norm_num)] at h2
  norm_num at h2

/-- A rule that is neither 'CQC' nor 'SRSS' is always refused, whatever the eigenvalues. -/
theorem C142_unknown_rule (n : ℕ) (comb : String) (h : comb ≠ "CQC" ∧ comb ≠ "SRSS") (damp : List ℝ) (omega2 gamma y mode : Fin n → ℝ) :
    ∃ e, spectrumResponse comb damp omega2 gamma y mode = .error e := by
  unfold spectrumResponse
  cases loopDamp n damp with
  | error e => exact ⟨e, rfl⟩
  | ok z =>
    simp only [Except.bind_ok]
    split
    · unfold combineModes
      rw [if_neg h.1, if_neg h.2]
      exact ⟨_, rfl⟩
    · rw [if_neg (by simp [h.1, h.2])]
      exact ⟨_, rfl⟩

/-- a misspelt rule -/
example : "ABS" ≠ "CQC" ∧ "ABS" ≠ "SRSS" := by decide

end Hyperstatic
