import Verif.Spec.Nearby
import Verif.Props.Statics
import Mathlib.Topology.Instances.Matrix
import Mathlib.Topology.Algebra.Order.Group
import Mathlib.Analysis.SpecialFunctions.Trigonometric.Deriv
import Mathlib.LinearAlgebra.Matrix.Nondegenerate

namespace Hyperstatic
open Matrix Spec Filter Topology

/-! ### solutions of linear systems depend continuously on the system -/

theorem solution_tends {ι : Type} [Fintype ι] [DecidableEq ι] {A : Matrix ι ι ℝ} {Ak : ℕ → Matrix ι ι ℝ} {b : ι → ℝ} {bk : ℕ → ι → ℝ}
    (hA : ∀ i j, Tendsto (fun k => Ak k i j) atTop (𝓝 (A i j))) (hb : ∀ i, Tendsto (fun k => bk k i) atTop (𝓝 (b i)))
    (hinj : ∀ y, A *ᵥ y = 0 → y = 0) :
    (∀ᶠ k in atTop, ∀ y, Ak k *ᵥ y = 0 → y = 0) ∧ ∀ {x : ι → ℝ} {xk : ℕ → ι → ℝ}, A *ᵥ x = b → (∀ᶠ k in atTop, Ak k *ᵥ xk k = bk k) →
      ∀ i, Tendsto (fun k => xk k i) atTop (𝓝 (x i)) := by
  have hA' : Tendsto Ak atTop (𝓝 A) := tendsto_pi_nhds.mpr fun i => tendsto_pi_nhds.mpr fun j => hA i j
  have hdet : A.det ≠ 0 := by
    intro h
    obtain ⟨v, hv, e⟩ := Matrix.exists_mulVec_eq_zero_iff.mpr h
    exact hv (hinj v e)
  have hd : Tendsto (fun k => (Ak k).det) atTop (𝓝 A.det) :=
    ((Continuous.matrix_det continuous_id).tendsto A).comp hA'
  have hne : ∀ᶠ k in atTop, (Ak k).det ≠ 0 := hd.eventually_ne hdet
  refine ⟨hne.mono fun k hk y hy => ?_, ?_⟩
  · by_contra h
    exact hk (Matrix.exists_mulVec_eq_zero_iff.mp ⟨y, h, hy⟩)
  intro x xk hx hxk i
  have form : ∀ {B : Matrix ι ι ℝ} {y c : ι → ℝ}, B.det ≠ 0 → B *ᵥ y = c → y = B.det⁻¹ • (B.adjugate *ᵥ c) := by
    rintro B y c h rfl
    rw [Matrix.mulVec_mulVec, Matrix.adjugate_mul, Matrix.smul_mulVec, Matrix.one_mulVec, smul_smul, inv_mul_cancel₀ h, one_smul]
  have hadj : Tendsto (fun k => (Ak k).adjugate) atTop (𝓝 A.adjugate) :=
    ((Continuous.matrix_adjugate continuous_id).tendsto A).comp hA'
  have hadj' : ∀ j, Tendsto (fun k => (Ak k).adjugate i j) atTop (𝓝 (A.adjugate i j)) :=
    fun j => tendsto_pi_nhds.mp (tendsto_pi_nhds.mp hadj i) j
  have lim : Tendsto (fun k => (Ak k).det⁻¹ * ∑ j, (Ak k).adjugate i j * bk k j) atTop (𝓝 (A.det⁻¹ * ∑ j, A.adjugate i j * b j)) :=
    (hd.inv₀ hdet).mul (tendsto_finsetSum _ fun j _ => (hadj' j).mul (hb j))
  rw [show x i = A.det⁻¹ * ∑ j, A.adjugate i j * b j from congrFun (form hdet hx) i]
  refine lim.congr' ?_
  filter_upwards [hne, hxk] with k h1 h2
  exact (congrFun (form h1 h2) i).symm

/-- component `r` of node `n` is not restrained -/
def IsFree (t : String → Option Flags) (n : String) (r : Fin 6) : Prop := ∀ f, t n = some f → f r = false

/-- the displacement state with given components at the nodes of a list -/
noncomputable def nodeState {nodes : List String} (y : {n // n ∈ nodes} × Fin 6 → ℝ) : State :=
  open Classical in fun n r => if h : n ∈ nodes then y (⟨n, h⟩, r) else 0

open Classical in
/-- the equations of a problem: those of the free components, and `x = 0` for the others -/
noncomputable def system (s : Blueprint) (nodes : List String) (t : String → Option Flags) :
    Matrix ({n // n ∈ nodes} × Fin 6) ({n // n ∈ nodes} × Fin 6) ℝ :=
  fun p q => if IsFree t p.1 p.2 ∧ IsFree t q.1 q.2 then s.internal (unitAt p.1 p.2) (unitAt q.1 q.2) else if p = q then 1 else 0

open Classical in
/-- the right-hand side -/
noncomputable def rhs (nodes : List String) (t : String → Option Flags) (load : State → ℝ) : {n // n ∈ nodes} × Fin 6 → ℝ :=
  fun p => if IsFree t p.1 p.2 then load (unitAt p.1 p.2) else 0

theorem unitAt_obeys {t : String → Option Flags} {n : String} {r : Fin 6} (h : IsFree t n r) : Obeys t (unitAt n r) := by
  intro m f hf q hq
  unfold unitAt
  rw [if_neg]
  rintro ⟨rfl, rfl⟩
  rw [h f hf] at hq
  cases hq

theorem obeys_free {t : String → Option Flags} {u : State} : Obeys t u ↔ ∀ n r, ¬ IsFree t n r → u n r = 0 := by
  constructor
  · intro h n r hn
    unfold IsFree at hn
    push Not at hn
    obtain ⟨f, hf, hr⟩ := hn
    exact h n f hf r (by simpa using hr)
  · intro h n f hf r hr
    refine h n r fun hfree => ?_
    rw [hfree f hf] at hr
    cases hr

/-- the internal work of a state against a unit displacement, component by component -/
theorem internal_expand {s : Blueprint} {nodes : List String} (h : Sane s nodes) (hn : nodes.Nodup) (v u : State) :
    s.internal v u = ∑ p : {n // n ∈ nodes} × Fin 6, s.internal v (unitAt p.1 p.2) * u p.1 p.2 := by
  have e := work_of_nodal hn (fun u => s.internal v u) (fun a b x y => internal_lin h a b v x y)
    (fun x y hxy => internal_congr h (fun _ _ => rfl) hxy) u
  rw [e, Fintype.sum_prod_type]
  unfold nodalWork dotProduct
  rw [← List.sum_toFinset _ hn, ← Finset.sum_coe_sort]
  refine Fintype.sum_equiv (Equiv.subtypeEquivRight fun n => List.mem_toFinset) _ _ fun n => rfl

theorem load_expand {nodes : List String} (hn : nodes.Nodup) (L : State → ℝ) (hlin : ∀ a b v w, L (a • v + b • w) = a * L v + b * L w)
    (hcong : ∀ v w : State, (∀ n ∈ nodes, v n = w n) → L v = L w) (v : State) :
    L v = ∑ p : {n // n ∈ nodes} × Fin 6, L (unitAt p.1 p.2) * v p.1 p.2 := by
  rw [work_of_nodal hn L hlin hcong v, Fintype.sum_prod_type]
  unfold nodalWork dotProduct
  rw [← List.sum_toFinset _ hn, ← Finset.sum_coe_sort]
  refine Fintype.sum_equiv (Equiv.subtypeEquivRight fun n => List.mem_toFinset) _ _ fun n => rfl

theorem system_mul {s : Blueprint} {nodes : List String} (h : Sane s nodes) (hn : nodes.Nodup) {t : String → Option Flags} {u : State}
    (hu : Obeys t u) (p : {n // n ∈ nodes} × Fin 6) : (system s nodes t *ᵥ fun q => u q.1 q.2) p =
      open Classical in if IsFree t p.1 p.2 then s.internal (unitAt p.1 p.2) u else 0 := by
  classical
  have hu' := obeys_free.mp hu
  unfold Matrix.mulVec dotProduct system
  by_cases hp : IsFree t p.1 p.2
  · rw [if_pos hp, internal_expand h hn]
    refine Finset.sum_congr rfl fun q _ => ?_
    beta_reduce
    by_cases hq : IsFree t q.1 q.2
    · rw [if_pos ⟨hp, hq⟩]
    · rw [hu' _ _ hq, mul_zero, mul_zero]
  · rw [if_neg hp]
    refine Finset.sum_eq_zero fun q _ => ?_
    beta_reduce
    rw [if_neg (fun h => hp h.1)]
    by_cases e : p = q
    · rw [if_pos e, ← e, hu' _ _ hp, mul_zero]
    · rw [if_neg e, zero_mul]

/-- a solution of the homogeneous system obeys the restraints and does no work against what obeys them -/
theorem system_zero {s : Blueprint} {nodes : List String} (h : Sane s nodes) (hn : nodes.Nodup) {t : String → Option Flags}
    {y : {n // n ∈ nodes} × Fin 6 → ℝ} (hy : system s nodes t *ᵥ y = 0) :
    Obeys t (nodeState y) ∧ s.internal (nodeState y) (nodeState y) = 0 := by
  classical
  have hval : ∀ p : {n // n ∈ nodes} × Fin 6, nodeState y p.1 p.2 = y p := by
    rintro ⟨⟨n, hm⟩, r⟩
    simp only [nodeState, dif_pos hm]
  have hfix : ∀ p : {n // n ∈ nodes} × Fin 6, ¬ IsFree t p.1 p.2 → y p = 0 := by
    intro p hp
    have := congrFun hy p
    unfold Matrix.mulVec dotProduct system at this
    rw [Finset.sum_eq_single p] at this
    · simp only [hp, false_and, if_false, if_true, one_mul] at this
      exact this
    · intro q _ hq
      simp only [hp, false_and, if_false, if_neg (Ne.symm hq), zero_mul]
    · exact fun h => absurd (Finset.mem_univ _) h
  have hob : Obeys t (nodeState y) := by
    refine obeys_free.mpr fun n r hr => ?_
    by_cases hm : n ∈ nodes
    · have := hfix (⟨n, hm⟩, r) hr
      rw [← hval] at this
      exact this
    · simp only [nodeState, dif_neg hm]
  refine ⟨hob, ?_⟩
  rw [internal_symm h, internal_expand h hn]
  refine Finset.sum_eq_zero fun p _ => ?_
  by_cases hp : IsFree t p.1 p.2
  · have := congrFun hy p
    rw [show y = fun q => nodeState y q.1 q.2 from funext fun q => (hval q).symm, system_mul h hn hob, if_pos hp] at this
    rw [internal_symm h, this, Pi.zero_apply, zero_mul]
  · rw [hval, hfix p hp, mul_zero]

theorem nodeState_eq {nodes : List String} (y : {n // n ∈ nodes} × Fin 6 → ℝ) (h : ∀ n ∈ nodes, nodeState y n = 0) : y = 0 := by
  classical
  funext p
  have := congrFun (h p.1 p.1.2) p.2
  obtain ⟨⟨n, hm⟩, r⟩ := p
  simp only [nodeState, dif_pos hm] at this
  exact this

/-- Problems that tend to a stable problem are stable in the end, and their answers tend to its answer. -/
theorem answers_tend (env : Env) {pre : List Call} {c : String} {P : Problem}
    (hD : Poses pre c P) (hst : P.frame.Stable P.nodes P.fix) {prek : ℕ → List Call}
    {Pk : ℕ → Problem} (hDk : ∀ k, Poses (prek k) c (Pk k)) (hn : ∀ k, (Pk k).nodes = P.nodes) (hfix : ∀ k, (Pk k).fix = P.fix)
    (hpos : ∀ᶠ k in atTop, (Pk k).frame.Positive)
    (hint : ∀ v u, Tendsto (fun k => (Pk k).frame.internal v u) atTop (𝓝 (P.frame.internal v u)))
    (hload : ∀ v, Tendsto (fun k => (Pk k).load v) atTop (𝓝 (P.load v))) :
    (∀ᶠ k in atTop, (Pk k).frame.Stable (Pk k).nodes (Pk k).fix) ∧
    ∀ {mid : List Call} {midk : ℕ → List Call} {u : State} {uk : ℕ → State}, env.SolverSound → PlainFrame env pre →
      (∀ k, PlainFrame env (prek k)) → Reports env pre mid c u →
      (∀ k, Reports env (prek k) (midk k) c (uk k)) → ∀ n ∈ P.nodes, ∀ r, Tendsto (fun k => uk k n r) atTop (𝓝 (u n r)) := by
  classical
  have hS := hD.sane env
  have hnd := nodes_nodup env hD
  have hSk : ∀ k, Sane (Pk k).frame P.nodes := fun k => by rw [← hn k]; exact (hDk k).sane env
  have hA : ∀ p q, Tendsto (fun k => system (Pk k).frame P.nodes P.fix p q) atTop (𝓝 (system P.frame P.nodes P.fix p q)) := by
    intro p q
    unfold system
    split
    · exact hint _ _
    · exact tendsto_const_nhds
  have hb : ∀ p, Tendsto (fun k => rhs P.nodes P.fix (Pk k).load p) atTop (𝓝 (rhs P.nodes P.fix P.load p)) := by
    intro p
    unfold rhs
    split
    · exact hload _
    · exact tendsto_const_nhds
  have hinj : ∀ y, system P.frame P.nodes P.fix *ᵥ y = 0 → y = 0 := fun y hy =>
    nodeState_eq y (hst _ (system_zero hS hnd hy).1 (system_zero hS hnd hy).2)
  obtain ⟨ev, lim⟩ := solution_tends hA hb hinj
  have hstk : ∀ᶠ k in atTop, (Pk k).frame.Stable (Pk k).nodes (Pk k).fix := by
    filter_upwards [ev, hpos] with k hk hp
    rw [hn k, hfix k]
    intro u hu h0
    have hz : ∀ v, (Pk k).frame.internal v u = 0 := by
      intro v
      by_contra hne
      have q : ∀ a : ℝ, 0 ≤ (Pk k).frame.internal v v + 2 * a * (Pk k).frame.internal v u := by
        intro a
        have := internal_nonneg (hSk k) hp ((1:ℝ) • v + a • u)
        rw [internal_lin (hSk k), internal_lin_left (hSk k), internal_lin_left (hSk k), h0, internal_symm (hSk k) u v] at this
        linarith
      have := q (-((Pk k).frame.internal v v + 1) / (2 * (Pk k).frame.internal v u))
      have e : (Pk k).frame.internal v v + 2 * (-((Pk k).frame.internal v v + 1) / (2 * (Pk k).frame.internal v u)) *
          (Pk k).frame.internal v u = -1 := by
        field_simp
        ring
      linarith
    have := hk (fun q => u q.1 q.2) (by
      funext p
      rw [system_mul (hSk k) hnd hu, hz]
      simp)
    intro n hm
    funext r
    exact congrFun this (⟨n, hm⟩, r)
  refine ⟨hstk, ?_⟩
  intro mid midk u uk henv hF hFk hu huk n hm r
  obtain ⟨x, h1, h2, h3⟩ := reports_equilibrium henv hF hD hst hu
  have hx : system P.frame P.nodes P.fix *ᵥ (fun q => x q.1 q.2) = rhs P.nodes P.fix P.load := by
    funext p
    rw [system_mul hS hnd h2]
    unfold rhs
    split
    · next hp => exact h3 _ (unitAt_obeys hp)
    · rfl
  have hxk : ∀ᶠ k in atTop, system (Pk k).frame P.nodes P.fix *ᵥ (fun q => uk k q.1 q.2) = rhs P.nodes P.fix (Pk k).load := by
    filter_upwards [hstk] with k hk
    obtain ⟨y, k1, k2, k3⟩ := reports_equilibrium henv (hFk k) (hDk k) hk (huk k)
    rw [hn k] at k1
    rw [hfix k] at k2 k3
    have e : (fun q : {n // n ∈ P.nodes} × Fin 6 => uk k q.1 q.2) = fun q => y q.1 q.2 := by
      funext q; rw [k1 _ q.1.2]
    rw [e]
    funext p
    rw [system_mul (hSk k) hnd k2]
    unfold rhs
    split
    · next hp => exact k3 _ (unitAt_obeys hp)
    · rfl
  have := lim hx hxk (⟨n, hm⟩, r)
  rw [h1 n hm]
  exact this

end Hyperstatic
