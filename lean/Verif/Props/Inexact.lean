import Verif.Lemmas.Inexact
import Verif.Lemmas.Nearby
import Verif.Props.FrameMapDemo

/-
C160: displacements reported when the linear solver leaves a residual.
-/

namespace Hyperstatic
open Matrix Spec

theorem isFree_iff {t : String → Option Flags} {n : String} {r : Fin 6} : IsFree t n r ↔ ¬ Restrained t n r := by
  unfold IsFree Restrained
  push Not
  constructor
  · intro h f hf hr
    rw [h f hf] at hr
    cases hr
  · intro h f hf
    simpa using h f hf

/-- what is reported, with the residual of each equation -/
theorem reports_within {env : Env} {ε : ℝ} (henv : SolverWithin env ε) {pre mid : List Call} (hF : PlainFrame env pre) {c : String}
    {P : Problem} (hD : Poses pre c P) (hst : P.frame.Stable P.nodes P.fix) {u : State} (hu : Reports env pre mid c u) :
    ∃ u', (∀ n ∈ P.nodes, u n = u' n) ∧ Obeys P.fix u' ∧ ∀ n ∈ P.nodes, ∀ r, IsFree P.fix n r → ∃ m ∈ P.nodes, ∃ q, IsFree P.fix m q ∧
      |P.frame.internal (unitAt n r) u' - P.load (unitAt n r)| ≤ ε * |P.load (unitAt m q)| := by
  obtain ⟨g, names, hc, hl, e⟩ := hD.load
  have hbp := blueprint_refined env pre
  have hrest := restReg_refined env pre
  have hreg := caseReg_refined env pre hF.recreate
  have hnode := (C02_node_registry env pre).1
  have hL : LoadInv (World.init.run env pre).api :=
    (WInv_run env (fun w c => ∀ p, c = .addLoadpattern p → w.api.loadpatterns.get? p = none) (fun w c a' hP h he => LoadInv_edit hP h he)
      World.init pre hF.recreate (WInv_init ⟨ApiInv_init, by intro c lc hc; simp [Api.init] at hc⟩)).1
  set w₀ := World.init.run env pre with hw₀
  have hframe : P.frame = blueprintOf w₀.api := by rw [hD.frame, ← hbp]
  have hnodes : P.nodes = w₀.api.model.nodes.keys := by rw [hD.nodes, ← hnode]; rfl
  rw [← hreg] at hc
  have hA := hL.toApiInv
  simp only [absReg, Option.map_eq_some_iff] at hc
  obtain ⟨lc, hlc, rfl⟩ := hc
  have hshells : w₀.api.model.shells = [] := by
    have : w₀.api.model.shells.keys = [] := hF.shells
    simpa [Dict.keys] using this
  have hfix : ∀ n, P.fix n = (governing w₀.api.model lc).get? n := by
    intro n
    rw [hD.fix, inForce_governing hlc _ hrest]
  have hresp : ∀ u, Obeys P.fix u ↔ Respects (governing w₀.api.model lc) u := by
    intro u
    unfold Obeys Respects
    simp only [hfix]
  have hst' : Stable env w₀.api.model (governing w₀.api.model lc) := by
    intro u hu h0
    have := hst u ((hresp u).mpr hu) (by rw [hframe]; exact (blueprint_internal hA env hshells u u).trans h0)
    rwa [hnodes] at this
  have hnone : ∀ s se, w₀.api.model.shells.get? s ≠ some se := by rw [hshells]; intro s se h; cases h
  have h := (FreshInv_run env pre hF.readd).1
  rw [← hw₀] at h
  obtain ⟨x, hx⟩ := h.toApiInv.assembly_ok
  have hasb : (w₀.run env (.assemble :: mid)).fs.get? Api.filename = some (.asb x) := by
    rw [run_cons, asb_run env _ mid hu.later, step_assemble env w₀ x hx]
    exact Dict.get?_set_same _ _ _
  have h0 : (w₀.run env (.assemble :: mid)).fs.get? "0.k" = none := by
    rw [hw₀, ← run_append]; exact no0k_init env _
  obtain ⟨u', k1, k2, k3⟩ := reported_within env henv h hx hasb h0 hlc
    (stable_unambiguous h (fun s se h => absurd h (hnone s se)) hst') hst' hu.ret
  have hfree : ∀ n r, FreeIn (governing w₀.api.model lc) n r ↔ IsFree P.fix n r := by
    intro n r
    unfold FreeIn IsFree
    simp only [hfix]
  have hload : ∀ v, P.load v = externalWork w₀.api.model w₀.api.heap lc v := by
    intro v
    rw [e, ← blueprint_case hL hlc hl.1 hl.2 v, hframe, hnodes, ← hreg]
  refine ⟨u', ?_, (hresp u').mpr k2, ?_⟩
  · intro n hn
    rw [hnodes] at hn
    have a := k1 n hn
    have b := hu.disp n (by rw [← hD.nodes, hnodes]; exact hn)
    rw [a] at b
    exact (List.ofFn_injective (Option.some.inj b)).symm
  · intro n hn r hr
    rw [hnodes] at hn
    obtain ⟨m, hm, q, hq, hle⟩ := k3 n hn r ((hfree n r).mpr hr)
    refine ⟨m, by rw [hnodes]; exact hm, q, (hfree m q).mp hq, ?_⟩
    rw [symWork_eq hA (fun s se h => absurd h (hnone s se))] at hle
    rw [hload, hload, hframe, blueprint_internal hA env hshells]
    exact hle

/-! ### C160 -/

/-- If the solver satisfies its equations up to `ε` times the largest load, the displacements reported are the exact answer to slightly other
loads: those of the case and further nodal forces of at most `ε` times the largest load. -/
theorem C160_other_loads (env : Env) (ε : ℝ) (hε : 0 ≤ ε) (henv : SolverWithin env ε) (pre mid : List Call) (hF : PlainFrame env pre) (c : String) (P : Problem)
    (hD : Poses pre c P) (hst : P.frame.Stable P.nodes P.fix) (M : ℝ) (hM0 : 0 ≤ M) (hM : LoadsUpTo P M) (u : State) (hu : Reports env pre mid c u) :
    ∃ (u' : State) (F : String → Vec 6), (∀ n ∈ P.nodes, u n = u' n) ∧ Obeys P.fix u' ∧ (∀ n ∈ P.nodes, ∀ r, |F n r| ≤ ε * M) ∧
      ∀ v, Obeys P.fix v → P.frame.internal v u' = P.load v + nodalWork P.nodes F v := by
  classical
  obtain ⟨u', h1, h2, h3⟩ := reports_within henv hF hD hst hu
  have hS := hD.sane env
  have hn := nodes_nodup env hD
  let L : State → ℝ := fun v => P.frame.internal v u' - P.load v
  have hlin : ∀ a b v w, L (a • v + b • w) = a * L v + b * L w := by
    intro a b v w
    show P.frame.internal _ u' - P.load _ = _
    rw [internal_lin_left hS, hD.lin env]
    show _ = a * (P.frame.internal v u' - P.load v) + b * (P.frame.internal w u' - P.load w)
    ring
  have hcong : ∀ v w : State, (∀ n ∈ P.nodes, v n = w n) → L v = L w := by
    intro v w h
    show P.frame.internal _ u' - P.load _ = P.frame.internal _ u' - P.load _
    rw [internal_congr hS h (fun _ _ => rfl), hD.congr env h]
  have hLe := work_of_nodal hn L hlin hcong
  refine ⟨u', fun n r => if IsFree P.fix n r then L (unitAt n r) else 0, h1, h2, ?_, ?_⟩
  · intro n hmem r
    by_cases hr : IsFree P.fix n r
    · simp only [if_pos hr]
      obtain ⟨m, hm, q, hq, hle⟩ := h3 n hmem r hr
      exact hle.trans (mul_le_mul_of_nonneg_left (hM m hm q (isFree_iff.mp hq)) hε)
    · simp only [if_neg hr, abs_zero]
      exact mul_nonneg hε hM0
  · intro v hv
    have e : L v = nodalWork P.nodes (fun n r => if IsFree P.fix n r then L (unitAt n r) else 0) v := by
      rw [hLe v]
      unfold nodalWork
      congr 1
      apply List.map_congr_left
      intro n _
      unfold dotProduct
      apply Finset.sum_congr rfl
      intro r _
      by_cases hr : IsFree P.fix n r
      · simp only [if_pos hr]
      · rw [obeys_free.mp hv n r hr, mul_zero, mul_zero]
    rw [← e]
    show _ = P.load v + (P.frame.internal v u' - P.load v)
    ring

theorem loadsUpTo_exists (P : Problem) : ∃ M, 0 ≤ M ∧ LoadsUpTo P M := by
  refine ⟨(P.nodes.map fun n => ∑ r : Fin 6, |P.load (unitAt n r)|).sum, ?_, ?_⟩
  · apply List.sum_nonneg
    intro x hx
    obtain ⟨n, _, rfl⟩ := List.mem_map.mp hx
    exact Finset.sum_nonneg fun _ _ => abs_nonneg _
  · intro n hn r _
    have h1 : |P.load (unitAt n r)| ≤ ∑ r : Fin 6, |P.load (unitAt n r)| :=
      Finset.single_le_sum (f := fun r => |P.load (unitAt n r)|) (fun _ _ => abs_nonneg _) (Finset.mem_univ r)
    refine h1.trans ?_
    apply List.single_le_sum
    · intro x hx
      obtain ⟨n, _, rfl⟩ := List.mem_map.mp hx
      exact Finset.sum_nonneg fun _ _ => abs_nonneg _
    · exact List.mem_map.mpr ⟨n, hn, rfl⟩

/-- The error of the displacements reported is at most a constant times `ε`; the constant depends on the frame and the case only, not on the solver. -/
theorem C160_close (pre : List Call) (c : String) (P : Problem) (hD : Poses pre c P) (hst : P.frame.Stable P.nodes P.fix) :
    ∃ C : ℝ, ∀ (env : Env) (ε : ℝ), 0 ≤ ε → SolverWithin env ε → PlainFrame env pre → ∀ (mid : List Call) (u : State), Reports env pre mid c u →
      ∀ x : State, Obeys P.fix x → (∀ v, Obeys P.fix v → P.frame.internal v x = P.load v) → ∀ n ∈ P.nodes, ∀ r, |u n r - x n r| ≤ C * ε := by
  classical
  obtain ⟨M, hM0, hM⟩ := loadsUpTo_exists P
  have hS := hD.sane idealEnv
  have hnd := nodes_nodup idealEnv hD
  let A := system P.frame P.nodes P.fix
  have hdet : A.det ≠ 0 := by
    intro h
    obtain ⟨y, hy, e⟩ := Matrix.exists_mulVec_eq_zero_iff.mpr h
    exact hy (nodeState_eq y (hst _ (system_zero hS hnd e).1 (system_zero hS hnd e).2))
  refine ⟨∑ p, ∑ q, |A.det⁻¹ * A.adjugate p q| * M, ?_⟩
  intro env ε hε henv hF mid u hu x hx hxe n hn r
  obtain ⟨u', h1, h2, h3⟩ := reports_within henv hF hD hst hu
  have hob : Obeys P.fix ((1:ℝ) • u' + (-1:ℝ) • x) := Obeys.lin h2 hx 1 (-1)
  set e : State := (1:ℝ) • u' + (-1:ℝ) • x with he
  let ρ : {n // n ∈ P.nodes} × Fin 6 → ℝ := A *ᵥ fun q => e q.1 q.2
  have hρ : ∀ p, |ρ p| ≤ ε * M := by
    intro p
    have hp : ρ p = if IsFree P.fix p.1 p.2 then P.frame.internal (unitAt p.1 p.2) e else 0 := system_mul hS hnd hob p
    rw [hp]
    by_cases hfree : IsFree P.fix p.1 p.2
    · rw [if_pos hfree, he, internal_lin hS, hxe _ (unitAt_obeys hfree)]
      obtain ⟨m, hm, q, hq, hle⟩ := h3 p.1 p.1.2 p.2 hfree
      rw [show 1 * P.frame.internal (unitAt p.1 p.2) u' + -1 * P.load (unitAt p.1 p.2) =
        P.frame.internal (unitAt p.1 p.2) u' - P.load (unitAt p.1 p.2) by ring]
      exact hle.trans (mul_le_mul_of_nonneg_left (hM m hm q (isFree_iff.mp hq)) hε)
    · rw [if_neg hfree, abs_zero]
      exact mul_nonneg hε hM0
  have hval : ∀ p : {n // n ∈ P.nodes} × Fin 6, e p.1 p.2 = ∑ q, A.det⁻¹ * A.adjugate p q * ρ q := by
    intro p
    have : (fun q : {n // n ∈ P.nodes} × Fin 6 => e q.1 q.2) = A.det⁻¹ • (A.adjugate *ᵥ ρ) := by
      show _ = A.det⁻¹ • (A.adjugate *ᵥ (A *ᵥ _))
      rw [Matrix.mulVec_mulVec, Matrix.adjugate_mul, Matrix.smul_mulVec, Matrix.one_mulVec, smul_smul, inv_mul_cancel₀ hdet, one_smul]
    rw [show e p.1 p.2 = (fun q : {n // n ∈ P.nodes} × Fin 6 => e q.1 q.2) p from rfl, this, Pi.smul_apply, smul_eq_mul]
    unfold Matrix.mulVec dotProduct
    rw [Finset.mul_sum]
    exact Finset.sum_congr rfl fun q _ => by ring
  have hen : u n r - x n r = e n r := by
    rw [h1 n hn, he]
    simp [sub_eq_add_neg]
  rw [hen]
  have hb : |e n r| ≤ ∑ q, |A.det⁻¹ * A.adjugate (⟨n, hn⟩, r) q| * (ε * M) := by
    rw [show e n r = _ from hval (⟨n, hn⟩, r)]
    refine (Finset.abs_sum_le_sum_abs _ _).trans (Finset.sum_le_sum fun q _ => ?_)
    rw [abs_mul]
    exact mul_le_mul_of_nonneg_left (hρ q) (abs_nonneg _)
  refine hb.trans ?_
  rw [← Finset.sum_mul, ← mul_assoc, mul_comm _ ε, mul_assoc, mul_comm _ ε]
  apply mul_le_mul_of_nonneg_left _ hε
  rw [Finset.sum_mul]
  exact Finset.single_le_sum (f := fun p => ∑ q, |A.det⁻¹ * A.adjugate p q| * M)
    (fun p _ => Finset.sum_nonneg fun q _ => mul_nonneg (abs_nonneg _) hM0) (Finset.mem_univ ((⟨n, hn⟩, r) : {n // n ∈ P.nodes} × Fin 6))

/-- And `solve_static(c)` still returns True: for a stable frame of positive stiffness with a free component whose case restrains existing nodes only. -/
theorem C160_solved (env : Env) (ε : ℝ) (henv : SolverWithin env ε) (pre mid : List Call) (hF : PlainFrame env pre)
    (hmid : ∀ k ∈ mid, k ≠ .assemble) (c : String) (P : Problem) (hD : Poses pre c P) (hpos : P.frame.Positive)
    (hst : P.frame.Stable P.nodes P.fix)
    (hown : ∀ own, (restReg.run pre).cur.cases c = some own → ∀ n f, own n = some f → n ∈ P.nodes)
    (hfree : ∃ n ∈ P.nodes, ∃ r, ∀ f, P.fix n = some f → f r = false) : ∃ u, Reports env pre mid c u := by
  obtain ⟨g, names, hc, hl, e⟩ := hD.load
  have hbp := blueprint_refined env pre
  have hrest := restReg_refined env pre
  have hreg := caseReg_refined env pre hF.recreate
  have hnode := (C02_node_registry env pre).1
  have h := (FreshInv_run env pre hF.readd).1
  have hA := h.toApiInv
  set w₀ := World.init.run env pre with hw₀
  have hframe : P.frame = blueprintOf w₀.api := by rw [hD.frame, ← hbp]
  have hnodes : P.nodes = w₀.api.model.nodes.keys := by rw [hD.nodes, ← hnode]; rfl
  rw [← hreg] at hc
  simp only [absReg, Option.map_eq_some_iff] at hc
  obtain ⟨lc, hlc, rfl⟩ := hc
  have hshells : w₀.api.model.shells = [] := by
    have : w₀.api.model.shells.keys = [] := hF.shells
    simpa [Dict.keys] using this
  have hfix : ∀ n, P.fix n = (governing w₀.api.model lc).get? n := by
    intro n
    rw [hD.fix, inForce_governing hlc _ hrest]
  have hst' : Stable env w₀.api.model (governing w₀.api.model lc) := by
    intro u hu h0
    have := hst u (fun n f hf => hu n f (by rw [← hfix]; exact hf)) (by rw [hframe]; exact (blueprint_internal hA env hshells u u).trans h0)
    rwa [hnodes] at this
  have hnone : ∀ s se, w₀.api.model.shells.get? s ≠ some se := by rw [hshells]; intro s se h; cases h
  obtain ⟨x, hx⟩ := hA.assembly_ok
  have hasb : (w₀.run env (.assemble :: mid)).fs.get? Api.filename = some (.asb x) := by
    rw [run_cons, asb_run env _ mid hmid, step_assemble env w₀ x hx]
    exact Dict.get?_set_same _ _ _
  have h0 : (w₀.run env (.assemble :: mid)).fs.get? "0.k" = none := by
    rw [hw₀, ← run_append]; exact no0k_init env _
  have hunam := stable_unambiguous h (fun s se h => absurd h (hnone s se)) hst'
  have hret := succeeds_within env henv h hx hasb h0 hlc hunam hst' (by
      intro b be hb
      have := hpos b (givenBeam be) (by rw [hframe]; simp [blueprintOf, hb])
      have hmu : (givenBeam be).sec.mat.mu ≠ -1 := by have := this.2.1; linarith
      cases hp : be.prop <;> simpa [muOf, givenBeam, givenProp, givenSec, givenMat, hp] using hmu)
    (by
      intro n hk
      obtain ⟨f, hf⟩ := dict_mem_keys hk
      rw [← hnodes]
      refine hown (fun n => lc.restraint.get? n) ?_ n f hf
      rw [← hrest]
      simp only [hlc, Option.map_some])
    (by
      obtain ⟨n, h1, r, h2⟩ := hfree
      rw [hnodes] at h1
      exact ⟨n, h1, r, fun f hf => h2 f (by rw [hfix]; exact hf)⟩)
  obtain ⟨u, k1, _, _⟩ := reported_within env henv h hx hasb h0 hlc hunam hst' hret
  exact ⟨u, hmid, hret, fun n hn => k1 n (by rw [← hnode] at hn; exact hn)⟩

/-! a solver that overshoots every answer -/

/-- exact answers times `1 + ε` -/
noncomputable def sloppyEnv (ε : ℝ) : Env where
  triaK := idealEnv.triaK
  quadK := idealEnv.quadK
  spsolve n A b := (idealEnv.spsolve n A b).map fun x => (1 + ε) • x

theorem sloppy_within (ε : ℝ) (hε : 0 ≤ ε) : SolverWithin (sloppyEnv ε) ε := by
  intro n A b hn hA
  obtain ⟨x, h1, h2⟩ := idealEnv_sound n A b hn hA
  refine ⟨(1 + ε) • x, by simp only [sloppyEnv, h1, Except.map], fun i => ⟨i, ?_⟩⟩
  rw [Matrix.mulVec_smul, h2, Pi.smul_apply, smul_eq_mul, show (1 + ε) * b i - b i = ε * b i by ring, abs_mul, abs_of_nonneg hε]

/-- a solver that is not exact -/
example : ¬ (sloppyEnv (1 / 100)).SolverSound := by
  intro h
  obtain ⟨x, h1, h2⟩ := h 1 1 (fun _ => 1) one_pos (fun v hv => by rwa [Matrix.one_mulVec] at hv)
  obtain ⟨y, k1, k2⟩ := idealEnv_sound 1 1 (fun _ => 1) one_pos (fun v hv => by rwa [Matrix.one_mulVec] at hv)
  simp only [sloppyEnv, k1, Except.map, Except.ok.injEq] at h1
  rw [Matrix.one_mulVec] at h2 k2
  have := congrFun h1 0
  rw [k2, h2] at this
  norm_num at this

/-- The hypotheses hold for the post and this solver: it answers, and its answer is wrong by at most a hundredth times a constant. -/
example : ∃ u, Reports (sloppyEnv (1 / 100)) (cantileverCalls ⟨0, 0, 0⟩ ⟨0, 0, 3⟩ 200 (3 / 10) 1 2 3 4 ![0, 6, 0, 0, 0, 0] 0 0) [] "X" u := by
  refine C160_solved _ _ (sloppy_within _ (by norm_num)) _ _ (plainFrame_of_calls _ (cantilever_plain _ _ _ _ _ _ _ _ _ _ _)) (by simp) "X" _
    (cantilever_poses _ _ _ _ _ _ _ _ _ _ _ (cantilever_cases _ _ _ _ _ _ _ _ _ _ _).1)
    (cantilever_positive _ _ _ _ _ _ _ _ _ acc_col (by norm_num [GivenSec.Positive, cantileverBeam]))
    (cantilever_stable _ _ _ _ _ _ _ _ _ acc_col (by norm_num [GivenSec.Positive, cantileverBeam])) ?_
    ⟨"B", by rw [cantilever_names]; simp, 0, by intro f hf; simp [cantileverProblem] at hf⟩
  intro own ho n f hn
  simp only [cantileverCalls, Machine.run, Machine.step, restReg, List.foldl_cons, List.foldl_nil] at ho
  simp at ho
  subst ho
  cases hn

end Hyperstatic
