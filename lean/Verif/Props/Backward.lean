import Verif.Lemmas.Backward
import Verif.Props.Inexact

/-
C160: displacements reported when the linear solver has a small backward error.
-/

namespace Hyperstatic
open Matrix Spec

/-- what is reported, with the residual of each equation -/
theorem reports_backward {env : Env} {ε : ℝ} (hε : 0 ≤ ε) (henv : SolverBackward env ε) {pre mid : List Call} (hF : PlainFrame env pre) {c : String}
    {P : Problem} (hD : Poses pre c P) (hst : P.frame.Stable P.nodes P.fix) {u : State} (hu : Reports env pre mid c u) :
    ∃ u', (∀ n ∈ P.nodes, u n = u' n) ∧ Obeys P.fix u' ∧ ∀ n ∈ P.nodes, ∀ r, IsFree P.fix n r →
      ∃ m1 ∈ P.nodes, ∃ q1, IsFree P.fix m1 q1 ∧ ∃ m2 ∈ P.nodes, ∃ q2, ∃ m3 ∈ P.nodes, ∃ q3, ∃ m4 ∈ P.nodes, ∃ q4,
      |P.frame.internal (unitAt n r) u' - P.load (unitAt n r)| ≤ ε * (|P.load (unitAt m1 q1)| +
        (P.nodes.length * 6 : ℕ) * (|P.frame.internal (unitAt m2 q2) (unitAt m3 q3)| * |u' m4 q4|)) := by
  obtain ⟨g, names, hc, hl, e⟩ := hD.load
  have hbp := blueprint_refined env pre
  have hrest := restReg_refined env pre
  have hreg := caseReg_refined env pre hF.recreate
  have hnode := (C02_node_registry env pre).1
  have hL : LoadInv (World.init.run env pre).api :=
    (WInv_run env (fun w c => ∀ p, c = .addLoadpattern p → w.api.loadpatterns.get? p = none) (fun w c a' hP h he => LoadInv_edit hP h he)
      World.init pre hF.recreate (WInv_init ⟨ApiInv_init, by intro c lc hc; simp [Api.init] at hc⟩)).1
  set w₀ := World.init.run env pre with hw₀
  have hframe : P.frame = blueprintOf w₀.api := by rw [hD.frame, ← hbp]
  have hnodes : P.nodes = w₀.api.model.nodes.keys := by rw [hD.nodes, ← hnode]; rfl
  rw [← hreg] at hc
  have hA := hL.toApiInv
  simp only [absReg, Option.map_eq_some_iff] at hc
  obtain ⟨lc, hlc, rfl⟩ := hc
  have hshells : w₀.api.model.shells = [] := by
    have : w₀.api.model.shells.keys = [] := hF.shells
    simpa [Dict.keys] using this
  have hfix : ∀ n, P.fix n = (governing w₀.api.model lc).get? n := by
    intro n
    rw [hD.fix, inForce_governing hlc _ hrest]
  have hresp : ∀ u, Obeys P.fix u ↔ Respects (governing w₀.api.model lc) u := by
    intro u
    unfold Obeys Respects
    simp only [hfix]
  have hst' : Stable env w₀.api.model (governing w₀.api.model lc) := by
    intro u hu h0
    have := hst u ((hresp u).mpr hu) (by rw [hframe]; exact (blueprint_internal hA env hshells u u).trans h0)
    rwa [hnodes] at this
  have hnone : ∀ s se, w₀.api.model.shells.get? s ≠ some se := by rw [hshells]; intro s se h; cases h
  have h := (FreshInv_run env pre hF.readd).1
  rw [← hw₀] at h
  obtain ⟨x, hx⟩ := h.toApiInv.assembly_ok
  have hasb : (w₀.run env (.assemble :: mid)).fs.get? Api.filename = some (.asb x) := by
    rw [run_cons, asb_run env _ mid hu.later, step_assemble env w₀ x hx]
    exact Dict.get?_set_same _ _ _
  have h0 : (w₀.run env (.assemble :: mid)).fs.get? "0.k" = none := by
    rw [hw₀, ← run_append]; exact no0k_init env _
  obtain ⟨u', k1, k2, k3⟩ := reported_backward env hε henv h hx hasb h0 hlc
    (stable_unambiguous h (fun s se h => absurd h (hnone s se)) hst') hst' hu.ret
  have hfree : ∀ n r, FreeIn (governing w₀.api.model lc) n r ↔ IsFree P.fix n r := by
    intro n r
    unfold FreeIn IsFree
    simp only [hfix]
  have hload : ∀ v, P.load v = externalWork w₀.api.model w₀.api.heap lc v := by
    intro v
    rw [e, ← blueprint_case hL hlc hl.1 hl.2 v, hframe, hnodes, ← hreg]
  refine ⟨u', ?_, (hresp u').mpr k2, ?_⟩
  · intro n hn
    rw [hnodes] at hn
    have a := k1 n hn
    have b := hu.disp n (by rw [← hD.nodes, hnodes]; exact hn)
    rw [a] at b
    exact (List.ofFn_injective (Option.some.inj b)).symm
  · intro n hn r hr
    rw [hnodes] at hn
    obtain ⟨m1, h1, q1, f1, m2, h2, q2, -, m3, h3, q3, -, m4, h4, q4, -, hle⟩ := k3 n hn r ((hfree n r).mpr hr)
    rw [← hnodes] at h1 h2 h3 h4
    refine ⟨m1, h1, q1, (hfree m1 q1).mp f1, m2, h2, q2, m3, h3, q3, m4, h4, q4, ?_⟩
    rw [symWork_eq hA (fun s se h => absurd h (hnone s se)), symWork_eq hA (fun s se h => absurd h (hnone s se))] at hle
    rw [hload, hload, hframe, blueprint_internal hA env hshells, blueprint_internal hA env hshells, hnodes]
    exact hle

/-! ### C160 -/

theorem bounded_entries {ι : Type} [Fintype ι] (f : ι → ι → ℝ) : ∃ a : ℝ, 0 ≤ a ∧ ∀ p q, |f p q| ≤ a :=
  ⟨∑ p, ∑ q, |f p q|, Finset.sum_nonneg fun _ _ => Finset.sum_nonneg fun _ _ => abs_nonneg _, fun p q =>
    (Finset.single_le_sum (f := fun q => |f p q|) (fun _ _ => abs_nonneg _) (Finset.mem_univ q)).trans
      (Finset.single_le_sum (f := fun p => ∑ q, |f p q|) (fun _ _ => Finset.sum_nonneg fun _ _ => abs_nonneg _) (Finset.mem_univ p))⟩

theorem stiffUpTo_exists (P : Problem) : ∃ a : ℝ, 0 ≤ a ∧ ∀ n ∈ P.nodes, ∀ r, ∀ m ∈ P.nodes, ∀ q, |P.frame.internal (unitAt n r) (unitAt m q)| ≤ a := by
  obtain ⟨a, h0, h⟩ := bounded_entries fun p q : {n // n ∈ P.nodes} × Fin 6 => P.frame.internal (unitAt p.1 p.2) (unitAt q.1 q.2)
  exact ⟨a, h0, fun n hn r m hm q => h (⟨n, hn⟩, r) (⟨m, hm⟩, q)⟩

theorem backward_closing {ε κ N a M D : ℝ} (hε : 0 ≤ ε) (hκ0 : 0 ≤ κ) (hN0 : 0 ≤ N) (ha0 : 0 ≤ a) (hD0 : 0 ≤ D)
    (hε0 : ε ≤ 1 / (2 * (κ * (N * a)) + 1)) (hDb : D ≤ κ * (ε * (M + N * (a * (κ * M + D))))) : D ≤ 2 * (κ * (M + N * (a * (κ * M)))) * ε := by
  have hd0 : 0 < 2 * (κ * (N * a)) + 1 := by positivity
  have hsmall : ε * (κ * (N * a)) ≤ 1 / 2 := by
    have h : ε * (2 * (κ * (N * a)) + 1) ≤ 1 := by
      have := mul_le_mul_of_nonneg_right hε0 hd0.le
      rwa [one_div, inv_mul_cancel₀ hd0.ne'] at this
    linarith
  have h1 : κ * (ε * (M + N * (a * (κ * M + D)))) = κ * (M + N * (a * (κ * M))) * ε + ε * (κ * (N * a)) * D := by ring
  have h2 : ε * (κ * (N * a)) * D ≤ 1 / 2 * D := mul_le_mul_of_nonneg_right hsmall hD0
  rw [h1] at hDb
  linarith

/-- If the solver answers exactly for a matrix and a right-hand side that differ by at most `ε` times their largest entries, the error of the displacements
reported is at most a constant times `ε`, for all `ε` small enough; the constant and what is small depend on the frame and the case only. -/
theorem C160_backward (pre : List Call) (c : String) (P : Problem) (hD : Poses pre c P) (hst : P.frame.Stable P.nodes P.fix) :
    ∃ C ε₀ : ℝ, 0 < ε₀ ∧ ∀ (env : Env) (ε : ℝ), 0 ≤ ε → ε ≤ ε₀ → SolverBackward env ε → PlainFrame env pre → ∀ (mid : List Call) (u : State),
      Reports env pre mid c u → ∀ x : State, Obeys P.fix x → (∀ v, Obeys P.fix v → P.frame.internal v x = P.load v) →
        ∀ n ∈ P.nodes, ∀ r, |u n r - x n r| ≤ C * ε := by
  classical
  obtain ⟨M, hM0, hM⟩ := loadsUpTo_exists P
  obtain ⟨a, ha0, ha⟩ := stiffUpTo_exists P
  have hS := hD.sane idealEnv
  have hnd := nodes_nodup idealEnv hD
  let A := system P.frame P.nodes P.fix
  have hdet : A.det ≠ 0 := by
    intro h
    obtain ⟨y, hy, e⟩ := Matrix.exists_mulVec_eq_zero_iff.mpr h
    exact hy (nodeState_eq y (hst _ (system_zero hS hnd e).1 (system_zero hS hnd e).2))
  set κ : ℝ := ∑ p, ∑ q, |A.det⁻¹ * A.adjugate p q| with hκ
  have hκ0 : 0 ≤ κ := Finset.sum_nonneg fun p _ => Finset.sum_nonneg fun q _ => abs_nonneg _
  set N : ℝ := ((P.nodes.length * 6 : ℕ) : ℝ) with hN
  have hN0 : 0 ≤ N := Nat.cast_nonneg _
  have inv : ∀ (e : State) (B : ℝ), Obeys P.fix e → 0 ≤ B → (∀ n ∈ P.nodes, ∀ r, IsFree P.fix n r → |P.frame.internal (unitAt n r) e| ≤ B) →
      ∀ n ∈ P.nodes, ∀ r, |e n r| ≤ κ * B := by
    intro e B he hB hb n hn r
    let ρ : {n // n ∈ P.nodes} × Fin 6 → ℝ := A *ᵥ fun q => e q.1 q.2
    have hρ : ∀ p, |ρ p| ≤ B := by
      intro p
      have hp : ρ p = if IsFree P.fix p.1 p.2 then P.frame.internal (unitAt p.1 p.2) e else 0 := system_mul hS hnd he p
      rw [hp]
      by_cases hfree : IsFree P.fix p.1 p.2
      · rw [if_pos hfree]
        exact hb p.1 p.1.2 p.2 hfree
      · rw [if_neg hfree, abs_zero]
        exact hB
    have hval : e n r = ∑ q, A.det⁻¹ * A.adjugate ((⟨n, hn⟩, r) : {n // n ∈ P.nodes} × Fin 6) q * ρ q := by
      have : (fun q : {n // n ∈ P.nodes} × Fin 6 => e q.1 q.2) = A.det⁻¹ • (A.adjugate *ᵥ ρ) := by
        show _ = A.det⁻¹ • (A.adjugate *ᵥ (A *ᵥ _))
        rw [Matrix.mulVec_mulVec, Matrix.adjugate_mul, Matrix.smul_mulVec, Matrix.one_mulVec, smul_smul, inv_mul_cancel₀ hdet, one_smul]
      rw [show e n r = (fun q : {n // n ∈ P.nodes} × Fin 6 => e q.1 q.2) (⟨n, hn⟩, r) from rfl, this, Pi.smul_apply, smul_eq_mul]
      unfold Matrix.mulVec dotProduct
      rw [Finset.mul_sum]
      exact Finset.sum_congr rfl fun q _ => by ring
    rw [hval]
    refine (Finset.abs_sum_le_sum_abs _ _).trans ((Finset.sum_le_sum fun q _ => ?_ : _ ≤ ∑ q, |A.det⁻¹ * A.adjugate (⟨n, hn⟩, r) q| * B).trans ?_)
    · rw [abs_mul]
      exact mul_le_mul_of_nonneg_left (hρ q) (abs_nonneg _)
    · rw [← Finset.sum_mul]
      apply mul_le_mul_of_nonneg_right _ hB
      exact Finset.single_le_sum (f := fun p => ∑ q, |A.det⁻¹ * A.adjugate p q|)
        (fun p _ => Finset.sum_nonneg fun q _ => abs_nonneg _) (Finset.mem_univ ((⟨n, hn⟩, r) : {n // n ∈ P.nodes} × Fin 6))
  have hd0 : 0 < 2 * (κ * (N * a)) + 1 := by positivity
  refine ⟨2 * (κ * (M + N * (a * (κ * M)))), 1 / (2 * (κ * (N * a)) + 1), by positivity, ?_⟩
  intro env ε hε hε0 henv hF mid u hu x hx hxe n hn r
  obtain ⟨u', h1, h2, h3⟩ := reports_backward hε henv hF hD hst hu
  have hxb : ∀ n ∈ P.nodes, ∀ r, |x n r| ≤ κ * M := inv x M hx hM0 (by
    intro n hn r hr
    rw [hxe _ (unitAt_obeys hr)]
    exact hM n hn r (isFree_iff.mp hr))
  have hob : Obeys P.fix ((1:ℝ) • u' + (-1:ℝ) • x) := Obeys.lin h2 hx 1 (-1)
  set e : State := (1:ℝ) • u' + (-1:ℝ) • x with he
  have hev : ∀ n r, e n r = u' n r - x n r := by
    intro n r
    rw [he]
    simp [sub_eq_add_neg]
  haveI : Nonempty ({n // n ∈ P.nodes} × Fin 6) := ⟨(⟨n, hn⟩, r)⟩
  obtain ⟨s, -, hs⟩ := Finset.exists_max_image (Finset.univ : Finset ({n // n ∈ P.nodes} × Fin 6)) (fun q => |e q.1 q.2|) Finset.univ_nonempty
  set D : ℝ := |e s.1 s.2| with hDdef
  have hD0 : 0 ≤ D := abs_nonneg _
  have hmax : ∀ m ∈ P.nodes, ∀ q, |e m q| ≤ D := fun m hm q => hs (⟨m, hm⟩, q) (Finset.mem_univ _)
  have hB0 : 0 ≤ ε * (M + N * (a * (κ * M + D))) := by positivity
  have hDb : D ≤ κ * (ε * (M + N * (a * (κ * M + D)))) := by
    refine inv e _ hob hB0 ?_ s.1 s.1.2 s.2
    intro n hn r hr
    rw [he, internal_lin hS, hxe _ (unitAt_obeys hr)]
    obtain ⟨m1, k1, q1, f1, m2, k2, q2, m3, k3, q3, m4, k4, q4, hle⟩ := h3 n hn r hr
    rw [show 1 * P.frame.internal (unitAt n r) u' + -1 * P.load (unitAt n r) =
      P.frame.internal (unitAt n r) u' - P.load (unitAt n r) by ring]
    refine hle.trans (mul_le_mul_of_nonneg_left (add_le_add (hM m1 k1 q1 (isFree_iff.mp f1)) (mul_le_mul_of_nonneg_left ?_ hN0)) hε)
    refine mul_le_mul (ha m2 k2 q2 m3 k3 q3) ?_ (abs_nonneg _) ha0
    have e1 : u' m4 q4 = x m4 q4 + e m4 q4 := by rw [hev]; ring
    rw [e1]
    exact (abs_add_le _ _).trans (add_le_add (hxb m4 k4 q4) (hmax m4 k4 q4))
  have hfin := backward_closing hε hκ0 hN0 ha0 hD0 hε0 hDb
  have hen : u n r - x n r = e n r := by rw [h1 n hn, hev]
  rw [hen]
  exact (hmax n hn r).trans hfin

/-- With such a solver too `solve_static(c)` returns True: for a stable frame of positive stiffness with a free component whose case restrains existing nodes only. -/
theorem C160_solved_backward (env : Env) (ε : ℝ) (hε : 0 ≤ ε) (henv : SolverBackward env ε) (pre mid : List Call) (hF : PlainFrame env pre)
    (hmid : ∀ k ∈ mid, k ≠ .assemble) (c : String) (P : Problem) (hD : Poses pre c P) (hpos : P.frame.Positive)
    (hst : P.frame.Stable P.nodes P.fix)
    (hown : ∀ own, (restReg.run pre).cur.cases c = some own → ∀ n f, own n = some f → n ∈ P.nodes)
    (hfree : ∃ n ∈ P.nodes, ∃ r, ∀ f, P.fix n = some f → f r = false) : ∃ u, Reports env pre mid c u := by
  obtain ⟨g, names, hc, hl, e⟩ := hD.load
  have hbp := blueprint_refined env pre
  have hrest := restReg_refined env pre
  have hreg := caseReg_refined env pre hF.recreate
  have hnode := (C02_node_registry env pre).1
  have h := (FreshInv_run env pre hF.readd).1
  have hA := h.toApiInv
  set w₀ := World.init.run env pre with hw₀
  have hframe : P.frame = blueprintOf w₀.api := by rw [hD.frame, ← hbp]
  have hnodes : P.nodes = w₀.api.model.nodes.keys := by rw [hD.nodes, ← hnode]; rfl
  rw [← hreg] at hc
  simp only [absReg, Option.map_eq_some_iff] at hc
  obtain ⟨lc, hlc, rfl⟩ := hc
  have hshells : w₀.api.model.shells = [] := by
    have : w₀.api.model.shells.keys = [] := hF.shells
    simpa [Dict.keys] using this
  have hfix : ∀ n, P.fix n = (governing w₀.api.model lc).get? n := by
    intro n
    rw [hD.fix, inForce_governing hlc _ hrest]
  have hst' : Stable env w₀.api.model (governing w₀.api.model lc) := by
    intro u hu h0
    have := hst u (fun n f hf => hu n f (by rw [← hfix]; exact hf)) (by rw [hframe]; exact (blueprint_internal hA env hshells u u).trans h0)
    rwa [hnodes] at this
  have hnone : ∀ s se, w₀.api.model.shells.get? s ≠ some se := by rw [hshells]; intro s se h; cases h
  obtain ⟨x, hx⟩ := hA.assembly_ok
  have hasb : (w₀.run env (.assemble :: mid)).fs.get? Api.filename = some (.asb x) := by
    rw [run_cons, asb_run env _ mid hmid, step_assemble env w₀ x hx]
    exact Dict.get?_set_same _ _ _
  have h0 : (w₀.run env (.assemble :: mid)).fs.get? "0.k" = none := by
    rw [hw₀, ← run_append]; exact no0k_init env _
  have hunam := stable_unambiguous h (fun s se h => absurd h (hnone s se)) hst'
  have hret := succeeds_answers env (backward_answers henv) h hx hasb h0 hlc hunam hst' (by
      intro b be hb
      have := hpos b (givenBeam be) (by rw [hframe]; simp [blueprintOf, hb])
      have hmu : (givenBeam be).sec.mat.mu ≠ -1 := by have := this.2.1; linarith
      cases hp : be.prop <;> simpa [muOf, givenBeam, givenProp, givenSec, givenMat, hp] using hmu)
    (by
      intro n hk
      obtain ⟨f, hf⟩ := dict_mem_keys hk
      rw [← hnodes]
      refine hown (fun n => lc.restraint.get? n) ?_ n f hf
      rw [← hrest]
      simp only [hlc, Option.map_some])
    (by
      obtain ⟨n, h1, r, h2⟩ := hfree
      rw [hnodes] at h1
      exact ⟨n, h1, r, fun f hf => h2 f (by rw [hfix]; exact hf)⟩)
  obtain ⟨u, k1, _, _⟩ := reported_backward env hε henv h hx hasb h0 hlc hunam hst' hret
  exact ⟨u, hmid, hret, fun n hn => k1 n (by rw [← hnode] at hn; exact hn)⟩

/-! a solver that solves for a stiffer matrix -/

/-- the answer for the matrix times `1 + ε` -/
noncomputable def stiffEnv (ε : ℝ) : Env where
  triaK := idealEnv.triaK
  quadK := idealEnv.quadK
  spsolve n A b := (idealEnv.spsolve n A b).map fun x => (1 + ε)⁻¹ • x

theorem stiff_backward (ε : ℝ) (hε : 0 ≤ ε) : SolverBackward (stiffEnv ε) ε := by
  intro n A b hn hA
  obtain ⟨x, h1, h2⟩ := idealEnv_sound n A b hn hA
  have h0 : (1 + ε) ≠ 0 := by positivity
  refine ⟨(1 + ε)⁻¹ • x, by simp only [stiffEnv, h1, Except.map], ε • A, 0, ?_, fun i j => ⟨i, j, ?_⟩, fun i => ⟨i, ?_⟩⟩
  · rw [add_zero, Matrix.mulVec_smul, show A + ε • A = (1 + ε) • A by rw [add_smul, one_smul], Matrix.smul_mulVec, smul_smul, inv_mul_cancel₀ h0, one_smul, h2]
  · rw [Matrix.smul_apply, smul_eq_mul, abs_mul, abs_of_nonneg hε]
  · rw [Pi.zero_apply, abs_zero]
    exact mul_nonneg hε (abs_nonneg _)

/-- The hypotheses hold for the post and this solver: it answers, and its answer comes as close as one likes to the exact one with `ε`. -/
example (P : Problem) (hP : P = cantileverProblem ⟨0, 0, 0⟩ ⟨0, 0, 3⟩ 200 (3 / 10) 1 2 3 4 ![0, 6, 0, 0, 0, 0] 0 0 "P") : ∃ C ε₀ : ℝ, 0 < ε₀ ∧ ∀ ε, 0 ≤ ε → ε ≤ ε₀ → ∃ u,
    Reports (stiffEnv ε) (cantileverCalls ⟨0, 0, 0⟩ ⟨0, 0, 3⟩ 200 (3 / 10) 1 2 3 4 ![0, 6, 0, 0, 0, 0] 0 0) [] "X" u ∧
    ∀ x : State, Obeys P.fix x →
      (∀ v, Obeys P.fix v →
        P.frame.internal v x =
        P.load v) →
      ∀ n ∈ P.nodes, ∀ r, |u n r - x n r| ≤ C * ε := by
  subst hP
  obtain ⟨C, ε₀, h0, h⟩ := C160_backward _ "X" _
    (cantilever_poses ⟨0, 0, 0⟩ ⟨0, 0, 3⟩ 200 (3 / 10) 1 2 3 4 ![0, 6, 0, 0, 0, 0] 0 0 (cantilever_cases _ _ _ _ _ _ _ _ _ _ _).1)
    (cantilever_stable _ _ _ _ _ _ _ _ _ acc_col (by norm_num [GivenSec.Positive, cantileverBeam]))
  refine ⟨C, ε₀, h0, fun ε hε hε0 => ?_⟩
  obtain ⟨u, hu⟩ := C160_solved_backward (stiffEnv ε) ε hε (stiff_backward ε hε) _ [] (plainFrame_of_calls _ (cantilever_plain _ _ _ _ _ _ _ _ _ _ _)) (by simp) "X" _
    (cantilever_poses ⟨0, 0, 0⟩ ⟨0, 0, 3⟩ 200 (3 / 10) 1 2 3 4 ![0, 6, 0, 0, 0, 0] 0 0 (cantilever_cases _ _ _ _ _ _ _ _ _ _ _).1)
    (cantilever_positive _ _ _ _ _ _ _ _ _ acc_col (by norm_num [GivenSec.Positive, cantileverBeam]))
    (cantilever_stable _ _ _ _ _ _ _ _ _ acc_col (by norm_num [GivenSec.Positive, cantileverBeam])) (by
      intro own ho n f hn
      simp only [cantileverCalls, Machine.run, Machine.step, restReg, List.foldl_cons, List.foldl_nil] at ho
      simp at ho
      subst ho
      cases hn)
    ⟨"B", by rw [cantilever_names]; simp, 0, by intro f hf; simp [cantileverProblem] at hf⟩
  exact ⟨u, hu, h (stiffEnv ε) ε hε hε0 (stiff_backward ε hε) (plainFrame_of_calls _ (cantilever_plain _ _ _ _ _ _ _ _ _ _ _)) [] u hu⟩

end Hyperstatic
