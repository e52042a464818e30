import Verif.Lemmas.Backward
import Verif.Lemmas.Nearby
import Verif.Props.Mixed

/-
Stable bilinear forms on displacement states (C160 for models with shells).
-/

namespace Hyperstatic
open Matrix Spec

/-- A work that is bilinear, symmetric and determined by the displacements of the nodes. -/
structure WorkForm (nodes : List String) (W : State → State → ℝ) : Prop where
  lin : ∀ (a b : ℝ) (v u w : State), W v (a • u + b • w) = a * W v u + b * W v w
  symm : ∀ v u, W v u = W u v
  congr : ∀ v u u' : State, (∀ n ∈ nodes, u n = u' n) → W v u = W v u'

theorem workForm_expand {nodes : List String} (hn : nodes.Nodup) {W : State → State → ℝ} (h : WorkForm nodes W) (v u : State) :
    W v u = ∑ p : {n // n ∈ nodes} × Fin 6, W v (unitAt p.1 p.2) * u p.1 p.2 :=
  load_expand hn (fun u => W v u) (fun a b x y => h.lin a b v x y) (fun x y hxy => h.congr v x y hxy) u

/-- A displacement that obeys the restraints of a stable structure is bounded by the forces it needs. -/
theorem workForm_bound {nodes : List String} (hn : nodes.Nodup) {W : State → State → ℝ} (h : WorkForm nodes W) (t : String → Option Flags)
    (hst : ∀ u, Obeys t u → W u u = 0 → ∀ n ∈ nodes, u n = 0) :
    ∃ κ : ℝ, 0 ≤ κ ∧ ∀ (e : State) (B : ℝ), Obeys t e → 0 ≤ B → (∀ n ∈ nodes, ∀ r, IsFree t n r → |W (unitAt n r) e| ≤ B) →
      ∀ n ∈ nodes, ∀ r, |e n r| ≤ κ * B := by
  classical
  let A : Matrix ({n // n ∈ nodes} × Fin 6) ({n // n ∈ nodes} × Fin 6) ℝ :=
    fun p q => if IsFree t p.1 p.2 ∧ IsFree t q.1 q.2 then W (unitAt p.1 p.2) (unitAt q.1 q.2) else if p = q then 1 else 0
  have hmul : ∀ u, Obeys t u → ∀ p : {n // n ∈ nodes} × Fin 6, (A *ᵥ fun q => u q.1 q.2) p = if IsFree t p.1 p.2 then W (unitAt p.1 p.2) u else 0 := by
    intro u hu p
    have hu' := obeys_free.mp hu
    show ∑ q, A p q * u q.1 q.2 = _
    by_cases hp : IsFree t p.1 p.2
    · rw [if_pos hp, workForm_expand hn h]
      refine Finset.sum_congr rfl fun q _ => ?_
      by_cases hq : IsFree t q.1 q.2
      · rw [show A p q = _ from if_pos ⟨hp, hq⟩]
      · rw [hu' _ _ hq, mul_zero, mul_zero]
    · rw [if_neg hp]
      refine Finset.sum_eq_zero fun q _ => ?_
      rw [show A p q = _ from if_neg (fun h => hp h.1)]
      by_cases e : p = q
      · rw [if_pos e, ← e, hu' _ _ hp, mul_zero]
      · rw [if_neg e, zero_mul]
  have hzero : ∀ y, A *ᵥ y = 0 → y = 0 := by
    intro y hy
    have hval : ∀ p : {n // n ∈ nodes} × Fin 6, nodeState y p.1 p.2 = y p := by
      rintro ⟨⟨n, hm⟩, r⟩
      simp only [nodeState, dif_pos hm]
    have hfix : ∀ p : {n // n ∈ nodes} × Fin 6, ¬ IsFree t p.1 p.2 → y p = 0 := by
      intro p hp
      have e : ∑ q, A p q * y q = 0 := congrFun hy p
      rw [Finset.sum_eq_single p] at e
      · rw [show A p p = _ from if_neg (fun h => hp h.1), if_pos rfl, one_mul] at e
        exact e
      · intro q _ hq
        rw [show A p q = _ from if_neg (fun h => hp h.1), if_neg (Ne.symm hq), zero_mul]
      · exact fun h => absurd (Finset.mem_univ _) h
    have hob : Obeys t (nodeState y) := by
      refine obeys_free.mpr fun n r hr => ?_
      by_cases hm : n ∈ nodes
      · have := hfix (⟨n, hm⟩, r) hr
        rw [← hval] at this
        exact this
      · simp only [nodeState, dif_neg hm]
    refine nodeState_eq y (hst _ hob ?_)
    rw [workForm_expand hn h]
    refine Finset.sum_eq_zero fun p _ => ?_
    by_cases hp : IsFree t p.1 p.2
    · have e := congrFun hy p
      rw [show y = fun q => nodeState y q.1 q.2 from funext fun q => (hval q).symm, hmul _ hob, if_pos hp] at e
      rw [h.symm, e, Pi.zero_apply, zero_mul]
    · rw [hval, hfix p hp, mul_zero]
  have hdet : A.det ≠ 0 := by
    intro hd
    obtain ⟨y, hy, e⟩ := Matrix.exists_mulVec_eq_zero_iff.mpr hd
    exact hy (hzero y e)
  refine ⟨∑ p, ∑ q, |A.det⁻¹ * A.adjugate p q|, Finset.sum_nonneg fun p _ => Finset.sum_nonneg fun q _ => abs_nonneg _, ?_⟩
  intro e B he hB hb n hm r
  let ρ : {n // n ∈ nodes} × Fin 6 → ℝ := A *ᵥ fun q => e q.1 q.2
  have hρ : ∀ p, |ρ p| ≤ B := by
    intro p
    rw [show ρ p = _ from hmul e he p]
    by_cases hfree : IsFree t p.1 p.2
    · rw [if_pos hfree]
      exact hb p.1 p.1.2 p.2 hfree
    · rw [if_neg hfree, abs_zero]
      exact hB
  have hval : e n r = ∑ q, A.det⁻¹ * A.adjugate ((⟨n, hm⟩, r) : {n // n ∈ nodes} × Fin 6) q * ρ q := by
    have : (fun q : {n // n ∈ nodes} × Fin 6 => e q.1 q.2) = A.det⁻¹ • (A.adjugate *ᵥ ρ) := by
      show _ = A.det⁻¹ • (A.adjugate *ᵥ (A *ᵥ _))
      rw [Matrix.mulVec_mulVec, Matrix.adjugate_mul, Matrix.smul_mulVec, Matrix.one_mulVec, smul_smul, inv_mul_cancel₀ hdet, one_smul]
    rw [show e n r = (fun q : {n // n ∈ nodes} × Fin 6 => e q.1 q.2) (⟨n, hm⟩, r) from rfl, this, Pi.smul_apply, smul_eq_mul]
    unfold Matrix.mulVec dotProduct
    rw [Finset.mul_sum]
    exact Finset.sum_congr rfl fun q _ => by ring
  rw [hval]
  refine (Finset.abs_sum_le_sum_abs _ _).trans ((Finset.sum_le_sum fun q _ => ?_ : _ ≤ ∑ q, |A.det⁻¹ * A.adjugate (⟨n, hm⟩, r) q| * B).trans ?_)
  · rw [abs_mul]
    exact mul_le_mul_of_nonneg_left (hρ q) (abs_nonneg _)
  · rw [← Finset.sum_mul]
    exact mul_le_mul_of_nonneg_right (Finset.single_le_sum (f := fun p => ∑ q, |A.det⁻¹ * A.adjugate p q|)
      (fun p _ => Finset.sum_nonneg fun q _ => abs_nonneg _) (Finset.mem_univ ((⟨n, hm⟩, r) : {n // n ∈ nodes} × Fin 6))) hB

/-! ### the model does not depend on the environment -/

/-- what is built, as a machine of its own -/
noncomputable def builtMachine : Machine Api where
  init := Api.init
  edit a c := match a.edit c with
    | .ok a' => a'
    | .error _ => a

theorem built_refined (env : Env) (cs : List Call) : (World.init.run env cs).api = (builtMachine.run cs).cur :=
  refines env builtMachine id (fun _ => True) rfl trivial (fun _ _ _ _ _ => trivial)
    (fun a c a' _ he => by show a' = match a.edit c with | .ok a' => a' | .error _ => a; rw [he])
    (fun a c e _ he => by show (match a.edit c with | .ok a' => a' | .error _ => a) = a; rw [he]) cs

theorem shellWork_env {env env' : Env} (h4 : env.quadK = env'.quadK) (h3 : env.triaK = env'.triaK) (pre : List Call) (v u : State) :
    shellWork env pre v u = shellWork env' pre v u := by
  unfold shellWork
  rw [built_refined env, built_refined env']
  congr 1
  apply List.map_congr_left
  intro p _
  unfold shellInternal
  rw [h4, h3]

theorem mixedWork_env {env env' : Env} (h4 : env.quadK = env'.quadK) (h3 : env.triaK = env'.triaK) (pre : List Call) (P : Problem) (v u : State) :
    mixedWork env pre P v u = mixedWork env' pre P v u := by
  unfold mixedWork
  rw [shellWork_env h4 h3]

end Hyperstatic
