import Mathlib.Analysis.Normed.Module.FiniteDimension
import Mathlib.Analysis.Normed.Lp.PiLp
import Mathlib.Algebra.QuadraticDiscriminant
import Mathlib.LinearAlgebra.Matrix.DotProduct
import Mathlib.LinearAlgebra.Matrix.ToLin

/-
Eigenvalues of a symmetric matrix `K` relative to a symmetric positive definite matrix `M`: minima of the quotient of the quadratic
forms.
-/

namespace Hyperstatic
open Matrix

/-- `K` and `M` are symmetric and `M` is positive definite -/
structure Pencil {n : ℕ} (K M : Matrix (Fin n) (Fin n) ℝ) : Prop where
  symK : ∀ v w, v ⬝ᵥ K *ᵥ w = w ⬝ᵥ K *ᵥ v
  symM : ∀ v w, v ⬝ᵥ M *ᵥ w = w ⬝ᵥ M *ᵥ v
  pos : ∀ v, v ≠ 0 → 0 < v ⬝ᵥ M *ᵥ v

variable {n : ℕ} {K M : Matrix (Fin n) (Fin n) ℝ}

theorem Pencil.solve (h : Pencil K M) (b : Fin n → ℝ) : ∃ y, M *ᵥ y = b := by
  have hinj : Function.Injective M.mulVecLin := by
    rw [← LinearMap.ker_eq_bot, LinearMap.ker_eq_bot']
    intro v hv
    by_contra hne
    have := h.pos v hne
    rw [mulVecLin_apply] at hv
    rw [hv, dotProduct_zero] at this
    exact lt_irrefl _ this
  obtain ⟨y, hy⟩ := LinearMap.surjective_of_injective hinj b
  exact ⟨y, hy⟩

/-- the smallest eigenvalue on the vectors orthogonal to given eigenvectors -/
theorem Pencil.min_on (h : Pencil K M) (l : List (ℝ × (Fin n → ℝ))) (hl : ∀ p ∈ l, K *ᵥ p.2 = p.1 • (M *ᵥ p.2))
    (hex : ∃ z, z ≠ 0 ∧ ∀ p ∈ l, z ⬝ᵥ M *ᵥ p.2 = 0) :
    ∃ (μ : ℝ) (z : Fin n → ℝ), z ≠ 0 ∧ (∀ p ∈ l, z ⬝ᵥ M *ᵥ p.2 = 0) ∧ K *ᵥ z = μ • (M *ᵥ z) ∧
      ∀ w, (∀ p ∈ l, w ⬝ᵥ M *ᵥ p.2 = 0) → μ * (w ⬝ᵥ M *ᵥ w) ≤ w ⬝ᵥ K *ᵥ w := by
  have hcont : ∀ A : Matrix (Fin n) (Fin n) ℝ, Continuous fun v : Fin n → ℝ => v ⬝ᵥ A *ᵥ v := by
    intro A
    simp only [dotProduct, mulVec]
    fun_prop
  have hcl : IsClosed {z : Fin n → ℝ | ∀ p ∈ l, z ⬝ᵥ M *ᵥ p.2 = 0} := by
    have e : {z : Fin n → ℝ | ∀ p ∈ l, z ⬝ᵥ M *ᵥ p.2 = 0} = ⋂ p ∈ l, {z | z ⬝ᵥ M *ᵥ p.2 = 0} := by ext; simp
    rw [e]
    refine isClosed_biInter fun p _ => isClosed_eq ?_ continuous_const
    simp only [dotProduct]
    fun_prop
  obtain ⟨y, hy0, hy⟩ := hex
  have hscale : ∀ w : Fin n → ℝ, w ≠ 0 → (∀ p ∈ l, w ⬝ᵥ M *ᵥ p.2 = 0) →
      ‖w‖⁻¹ • w ∈ Metric.sphere (0 : Fin n → ℝ) 1 ∩ {z | ∀ p ∈ l, z ⬝ᵥ M *ᵥ p.2 = 0} := by
    intro w hw hp
    refine ⟨by simp [norm_smul, norm_ne_zero_iff.mpr hw], fun p hpl => ?_⟩
    rw [smul_dotProduct, hp p hpl, smul_zero]
  have hzne : ∀ v ∈ Metric.sphere (0 : Fin n → ℝ) 1, v ≠ 0 := by
    rintro v hv rfl
    simp at hv
  obtain ⟨z, ⟨hz, hzp⟩, hmin⟩ := ((isCompact_sphere (0 : Fin n → ℝ) 1).inter_right hcl).exists_isMinOn ⟨_, hscale y hy0 hy⟩
    (f := fun v => (v ⬝ᵥ K *ᵥ v) / (v ⬝ᵥ M *ᵥ v))
    ((hcont K).continuousOn.div (hcont M).continuousOn fun v hv => (h.pos v (hzne v hv.1)).ne')
  have hz0 := hzne z hz
  set μ := (z ⬝ᵥ K *ᵥ z) / (z ⬝ᵥ M *ᵥ z) with hμ
  have hall : ∀ w, (∀ p ∈ l, w ⬝ᵥ M *ᵥ p.2 = 0) → μ * (w ⬝ᵥ M *ᵥ w) ≤ w ⬝ᵥ K *ᵥ w := by
    intro w hwp
    by_cases hw : w = 0
    · subst hw; simp
    have hnorm : ‖w‖ ≠ 0 := norm_ne_zero_iff.mpr hw
    have h1 := hmin (hscale w hw hwp)
    simp only [Set.mem_ofPred_eq, mulVec_smul, dotProduct_smul, smul_dotProduct, smul_eq_mul] at h1
    have h2 : ‖w‖⁻¹ ≠ 0 := inv_ne_zero hnorm
    rw [← mul_assoc, ← mul_assoc, mul_div_mul_left _ _ (mul_ne_zero h2 h2)] at h1
    exact (le_div_iff₀ (h.pos w hw)).mp h1
  refine ⟨μ, z, hz0, hzp, ?_, hall⟩
  have hzz : z ⬝ᵥ K *ᵥ z = μ * (z ⬝ᵥ M *ᵥ z) := by
    rw [hμ, div_mul_cancel₀ _ (h.pos z hz0).ne']
  have hon : ∀ w, (∀ p ∈ l, w ⬝ᵥ M *ᵥ p.2 = 0) → w ⬝ᵥ K *ᵥ z - μ * (w ⬝ᵥ M *ᵥ z) = 0 := by
    intro w hw
    have hq : ∀ t : ℝ, 0 ≤ (w ⬝ᵥ K *ᵥ w - μ * (w ⬝ᵥ M *ᵥ w)) * (t * t) + 2 * (w ⬝ᵥ K *ᵥ z - μ * (w ⬝ᵥ M *ᵥ z)) * t + 0 := by
      intro t
      have h1 := hall (z + t • w) (fun p hp => by rw [add_dotProduct, smul_dotProduct, hw p hp, hzp p hp]; simp)
      simp only [mulVec_add, mulVec_smul, dotProduct_add, add_dotProduct, dotProduct_smul, smul_dotProduct, smul_eq_mul] at h1
      rw [h.symK z w, h.symM z w] at h1
      nlinarith [h1, hzz]
    have hd := discrim_le_zero hq
    simp only [discrim] at hd
    nlinarith [sq_nonneg (w ⬝ᵥ K *ᵥ z - μ * (w ⬝ᵥ M *ᵥ z))]
  obtain ⟨y, hy⟩ := h.solve (K *ᵥ z - μ • (M *ᵥ z))
  have hyp : ∀ p ∈ l, y ⬝ᵥ M *ᵥ p.2 = 0 := by
    intro p hp
    rw [h.symM, hy, dotProduct_sub, dotProduct_smul, h.symK, hl p hp, dotProduct_smul, hzp p hp, h.symM, hzp p hp]
    simp
  have hy0 : y = 0 := by
    by_contra hne
    have h1 := h.pos y hne
    rw [hy, dotProduct_sub, dotProduct_smul, smul_eq_mul, hon y hyp] at h1
    exact lt_irrefl _ h1
  rw [hy0, mulVec_zero] at hy
  exact (sub_eq_zero.mp hy.symm)

/-- eigenvectors of different eigenvalues are orthogonal -/
theorem Pencil.orth (h : Pencil K M) {a b : ℝ} {z w : Fin n → ℝ} (hz : K *ᵥ z = a • (M *ᵥ z)) (hw : K *ᵥ w = b • (M *ᵥ w)) (hab : a ≠ b) :
    z ⬝ᵥ M *ᵥ w = 0 := by
  have h1 := h.symK z w
  rw [hz, hw, dotProduct_smul, dotProduct_smul, h.symM w z, smul_eq_mul, smul_eq_mul] at h1
  have : (b - a) * (z ⬝ᵥ M *ᵥ w) = 0 := by linarith
  exact (mul_eq_zero.mp this).resolve_left (sub_ne_zero.mpr (Ne.symm hab))

/-- `l` holds the eigenvalues nearest to 0: orthogonal eigenvectors, and every eigenvector orthogonal to all of them has an eigenvalue
at least as far from 0 -/
def Nearest (K M : Matrix (Fin n) (Fin n) ℝ) (l : List (ℝ × (Fin n → ℝ))) : Prop :=
  (l.Pairwise fun p q => p.2 ⬝ᵥ M *ᵥ q.2 = 0) ∧
  ∀ (μ : ℝ) (z : Fin n → ℝ), z ≠ 0 → K *ᵥ z = μ • (M *ᵥ z) → (∀ p ∈ l, z ⬝ᵥ M *ᵥ p.2 = 0) → ∀ p ∈ l, |p.1| ≤ |μ|

/-- beyond the modes up to a level, the quotient of the forms exceeds the level -/
theorem Pencil.above (h : Pencil K M) (hpsd : ∀ v, 0 ≤ v ⬝ᵥ K *ᵥ v) {l : List (ℝ × (Fin n → ℝ))} (hl : ∀ p ∈ l, K *ᵥ p.2 = p.1 • (M *ᵥ p.2))
    (hnear : Nearest K M l) {t : ℝ} (ht : ∃ q ∈ l, t < q.1) {w : Fin n → ℝ} (hw : w ≠ 0) (hwp : ∀ p ∈ l, p.1 ≤ t → w ⬝ᵥ M *ᵥ p.2 = 0) :
    t * (w ⬝ᵥ M *ᵥ w) < w ⬝ᵥ K *ᵥ w := by
  have hmem : ∀ p, p ∈ l.filter (fun p => decide (p.1 ≤ t)) ↔ p ∈ l ∧ p.1 ≤ t := by intro p; simp
  obtain ⟨μ, z, hz0, hzp, hze, hmin⟩ := h.min_on (l.filter fun p => decide (p.1 ≤ t)) (fun p hp => hl p ((hmem p).mp hp).1)
    ⟨w, hw, fun p hp => hwp p ((hmem p).mp hp).1 ((hmem p).mp hp).2⟩
  have hμ : 0 ≤ μ := by
    have h1 := hpsd z
    rw [hze, dotProduct_smul, smul_eq_mul] at h1
    exact nonneg_of_mul_nonneg_left h1 (h.pos z hz0)
  have htμ : t < μ := by
    obtain ⟨q, hq, hqt⟩ := ht
    by_cases hall : ∀ p ∈ l, z ⬝ᵥ M *ᵥ p.2 = 0
    · have h1 := hnear.2 μ z hz0 hze hall q hq
      rw [abs_of_nonneg hμ] at h1
      exact lt_of_lt_of_le hqt ((le_abs_self _).trans h1)
    · push Not at hall
      obtain ⟨p, hp, hpz⟩ := hall
      have hpt : t < p.1 := by
        by_contra hle
        exact hpz (hzp p ((hmem p).mpr ⟨hp, not_lt.mp hle⟩))
      have : μ = p.1 := by
        by_contra hne
        exact hpz (h.orth hze (hl p hp) hne)
      rwa [this]
  have h1 := hmin w (fun p hp => hwp p ((hmem p).mp hp).1 ((hmem p).mp hp).2)
  have h2 := mul_lt_mul_of_pos_right htμ (h.pos w hw)
  linarith

/-- there are vectors orthogonal to fewer than `n` given ones -/
theorem Pencil.room (l : List (ℝ × (Fin n → ℝ))) (hlen : l.length < n) : ∃ z : Fin n → ℝ, z ≠ 0 ∧ ∀ p ∈ l, z ⬝ᵥ M *ᵥ p.2 = 0 := by
  let f : (Fin n → ℝ) →ₗ[ℝ] (Fin l.length → ℝ) :=
    { toFun := fun z i => z ⬝ᵥ M *ᵥ (l.get i).2
      map_add' := fun a b => by funext i; simp [add_dotProduct]
      map_smul' := fun a b => by funext i; simp [smul_dotProduct] }
  have hk : LinearMap.ker f ≠ ⊥ := LinearMap.ker_ne_bot_of_finrank_lt (by simpa using hlen)
  obtain ⟨z, hz, hz0⟩ := Submodule.exists_mem_ne_zero_of_ne_bot hk
  refine ⟨z, hz0, fun p hp => ?_⟩
  obtain ⟨i, hi⟩ := List.get_of_mem hp
  have := congrFun (LinearMap.mem_ker.mp hz) i
  rw [← hi]
  exact this

/-- the nearest eigenpairs exist in any number up to the order -/
theorem Pencil.exists_nearest (h : Pencil K M) (hpsd : ∀ v, 0 ≤ v ⬝ᵥ K *ᵥ v) (k : ℕ) (hk : k ≤ n) :
    ∃ l : List (ℝ × (Fin n → ℝ)), l.length = k ∧ (∀ p ∈ l, p.2 ≠ 0 ∧ K *ᵥ p.2 = p.1 • (M *ᵥ p.2)) ∧ Nearest K M l := by
  suffices hs : ∃ l : List (ℝ × (Fin n → ℝ)), l.length = k ∧ (∀ p ∈ l, p.2 ≠ 0 ∧ K *ᵥ p.2 = p.1 • (M *ᵥ p.2)) ∧
      (∀ p ∈ l, 0 ≤ p.1) ∧ (l.Pairwise fun p q => p.2 ⬝ᵥ M *ᵥ q.2 = 0) ∧
      ∀ (μ : ℝ) (z : Fin n → ℝ), z ≠ 0 → K *ᵥ z = μ • (M *ᵥ z) → (∀ p ∈ l, z ⬝ᵥ M *ᵥ p.2 = 0) → ∀ p ∈ l, p.1 ≤ μ by
    obtain ⟨l, h1, h2, h3, h4, h5⟩ := hs
    refine ⟨l, h1, h2, h4, fun μ z hz hze hzp p hp => ?_⟩
    rw [abs_of_nonneg (h3 p hp)]
    exact (h5 μ z hz hze hzp p hp).trans (le_abs_self _)
  induction k with
  | zero => exact ⟨[], rfl, by simp, by simp, List.Pairwise.nil, by simp⟩
  | succ k ih =>
    obtain ⟨l, h1, h2, h3, h4, h5⟩ := ih (by omega)
    obtain ⟨μ, z, hz0, hzp, hze, hmin⟩ := h.min_on l (fun p hp => (h2 p hp).2) (Pencil.room l (by omega))
    have hμ : 0 ≤ μ := by
      have h1 := hpsd z
      rw [hze, dotProduct_smul, smul_eq_mul] at h1
      exact nonneg_of_mul_nonneg_left h1 (h.pos z hz0)
    refine ⟨(μ, z) :: l, by simp [h1], ?_, ?_, ?_, ?_⟩
    · simp only [List.forall_mem_cons]
      exact ⟨⟨hz0, hze⟩, h2⟩
    · simp only [List.forall_mem_cons]
      exact ⟨hμ, h3⟩
    · exact List.Pairwise.cons hzp h4
    · intro ν w hw hwe hwp
      simp only [List.forall_mem_cons] at hwp ⊢
      refine ⟨?_, h5 ν w hw hwe hwp.2⟩
      have h6 := hmin w hwp.2
      rw [hwe, dotProduct_smul, smul_eq_mul] at h6
      exact le_of_mul_le_mul_right h6 (h.pos w hw)

end Hyperstatic
