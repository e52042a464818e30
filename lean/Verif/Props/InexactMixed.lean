import Verif.Lemmas.InexactMixed
import Verif.Props.Backward
import Verif.Props.MixedDemo

/-
C160: models of beams and shells, solved with a linear solver that is not exact.
-/

namespace Hyperstatic
open Matrix Spec

variable (q : Schemes) (nan4 : ShellElm → Matrix (Fin 24) (Fin 24) ℝ) (nan3 : ShellElm → Matrix (Fin 18) (Fin 18) ℝ)

/-- the case, the file and the loads that `solve_static(c)` works on -/
theorem mixed_world {env : Env} {pre mid : List Call} (hM : PlainModel env pre) (hmid : ∀ k ∈ mid, k ≠ .assemble) {c : String} {P : Problem}
    (hD : Poses pre c P) (hst : MixedStable env pre P) :
    ∃ lc x, (World.init.run env pre).api.loadcases.get? c = some lc ∧ (World.init.run env pre).api.assembly = .ok x ∧
      ((World.init.run env pre).run env (.assemble :: mid)).fs.get? Api.filename = some (.asb x) ∧
      ((World.init.run env pre).run env (.assemble :: mid)).fs.get? "0.k" = none ∧
      (∀ n, P.fix n = (governing (World.init.run env pre).api.model lc).get? n) ∧
      Stable env (World.init.run env pre).api.model (governing (World.init.run env pre).api.model lc) ∧
      (∀ v, P.load v = externalWork (World.init.run env pre).api.model (World.init.run env pre).api.heap lc v) ∧
      (restReg.run pre).cur.cases c = some (fun n => lc.restraint.get? n) := by
  have hrest := restReg_refined env pre
  have hreg := caseReg_refined env pre hM.recreate
  have hL : LoadInv (World.init.run env pre).api :=
    (WInv_run env (fun w c => ∀ p, c = .addLoadpattern p → w.api.loadpatterns.get? p = none) (fun w c a' hP h he => LoadInv_edit hP h he)
      World.init pre hM.recreate (WInv_init ⟨ApiInv_init, by intro c lc hc; simp [Api.init] at hc⟩)).1
  obtain ⟨g, names, hc, hl, e⟩ := hD.load
  rw [← hreg] at hc
  simp only [absReg, Option.map_eq_some_iff] at hc
  obtain ⟨lc, hlc, rfl⟩ := hc
  have hn := mixed_nodes env hD
  have hfix : ∀ n, P.fix n = (governing (World.init.run env pre).api.model lc).get? n := by
    intro n
    rw [hD.fix, inForce_governing hlc _ hrest]
  obtain ⟨x, hx⟩ := hL.toApiInv.assembly_ok
  refine ⟨lc, x, hlc, hx, ?_, ?_, hfix, ?_, ?_, ?_⟩
  · rw [run_cons, asb_run env _ mid hmid, step_assemble env _ x hx]
    exact Dict.get?_set_same _ _ _
  · rw [← run_append]; exact no0k_init env _
  · intro u hu h0 n hmem
    exact hst u (fun n f hf => hu n f (by rw [← hfix]; exact hf)) ((mixedWork_eq env hD u u).trans h0) n (by rw [hn]; exact hmem)
  · intro v
    rw [e, hD.frame, ← blueprint_refined env pre, hn, ← hreg]
    exact blueprint_case hL hlc hl.1 hl.2 v
  · rw [← hrest]
    simp only [hlc, Option.map_some]

section env
variable {env : Env} {pre mid : List Call} (hM : PlainModel env pre) {c : String} {P : Problem} (hD : Poses pre c P)
  (hss : ShellsSymm env (World.init.run env pre).api.model) (hsf : ShellsFree env (World.init.run env pre).api.model) (hst : MixedStable env pre P)
include hM hD hss hsf hst

theorem mixed_within {ε : ℝ} (henv : SolverWithin env ε) {u : State} (hu : Reports env pre mid c u) :
    ∃ u', (∀ n ∈ P.nodes, u n = u' n) ∧ Obeys P.fix u' ∧ ∀ n ∈ P.nodes, ∀ r, IsFree P.fix n r → ∃ m ∈ P.nodes, ∃ q, IsFree P.fix m q ∧
      |mixedWork env pre P (unitAt n r) u' - P.load (unitAt n r)| ≤ ε * |P.load (unitAt m q)| := by
  obtain ⟨lc, x, hlc, hx, hasb, h0, hfix, hst', hload, -⟩ := mixed_world hM hu.later hD hst
  have h := (FreshInv_run env pre hM.readd).1
  have hn := mixed_nodes env hD
  obtain ⟨u', k1, k2, k3⟩ := reported_within env henv h hx hasb h0 hlc (stable_unambiguous h hsf hst') hst' hu.ret
  have hfree : ∀ n r, FreeIn (governing (World.init.run env pre).api.model lc) n r ↔ IsFree P.fix n r := by
    intro n r
    unfold FreeIn IsFree
    simp only [hfix]
  refine ⟨u', ?_, fun n f hf => k2 n f (by rw [← hfix]; exact hf), ?_⟩
  · intro n hmem
    have b := hu.disp n (by rw [← hD.nodes]; exact hmem)
    rw [k1 n (by rw [← hn]; exact hmem)] at b
    exact (List.ofFn_injective (Option.some.inj b)).symm
  · intro n hmem r hr
    obtain ⟨m, hm, q, hq, hle⟩ := k3 n (by rw [← hn]; exact hmem) r ((hfree n r).mpr hr)
    refine ⟨m, by rw [hn]; exact hm, q, (hfree m q).mp hq, ?_⟩
    rw [symWork_eq h.toApiInv hss] at hle
    rw [hload, hload, mixedWork_eq env hD]
    exact hle

theorem mixed_backward {ε : ℝ} (hε : 0 ≤ ε) (henv : SolverBackward env ε) {u : State} (hu : Reports env pre mid c u) :
    ∃ u', (∀ n ∈ P.nodes, u n = u' n) ∧ Obeys P.fix u' ∧ ∀ n ∈ P.nodes, ∀ r, IsFree P.fix n r →
      ∃ m1 ∈ P.nodes, ∃ q1, IsFree P.fix m1 q1 ∧ ∃ m2 ∈ P.nodes, ∃ q2, ∃ m3 ∈ P.nodes, ∃ q3, ∃ m4 ∈ P.nodes, ∃ q4,
      |mixedWork env pre P (unitAt n r) u' - P.load (unitAt n r)| ≤ ε * (|P.load (unitAt m1 q1)| +
        (P.nodes.length * 6 : ℕ) * (|mixedWork env pre P (unitAt m2 q2) (unitAt m3 q3)| * |u' m4 q4|)) := by
  obtain ⟨lc, x, hlc, hx, hasb, h0, hfix, hst', hload, -⟩ := mixed_world hM hu.later hD hst
  have h := (FreshInv_run env pre hM.readd).1
  have hn := mixed_nodes env hD
  obtain ⟨u', k1, k2, k3⟩ := reported_backward env hε henv h hx hasb h0 hlc (stable_unambiguous h hsf hst') hst' hu.ret
  have hfree : ∀ n r, FreeIn (governing (World.init.run env pre).api.model lc) n r ↔ IsFree P.fix n r := by
    intro n r
    unfold FreeIn IsFree
    simp only [hfix]
  refine ⟨u', ?_, fun n f hf => k2 n f (by rw [← hfix]; exact hf), ?_⟩
  · intro n hmem
    have b := hu.disp n (by rw [← hD.nodes]; exact hmem)
    rw [k1 n (by rw [← hn]; exact hmem)] at b
    exact (List.ofFn_injective (Option.some.inj b)).symm
  · intro n hmem r hr
    obtain ⟨m1, h1, q1, f1, m2, h2, q2, -, m3, h3, q3, -, m4, h4, q4, -, hle⟩ := k3 n (by rw [← hn]; exact hmem) r ((hfree n r).mpr hr)
    rw [← hn] at h1 h2 h3 h4 hle
    refine ⟨m1, h1, q1, (hfree m1 q1).mp f1, m2, h2, q2, m3, h3, q3, m4, h4, q4, ?_⟩
    rw [symWork_eq h.toApiInv hss, symWork_eq h.toApiInv hss] at hle
    rw [hload, hload, mixedWork_eq env hD, mixedWork_eq env hD]
    exact hle

end env

theorem mixed_workForm {env : Env} {pre : List Call} {c : String} {P : Problem} (hD : Poses pre c P)
    (hss : ShellsSymm env (World.init.run env pre).api.model) : WorkForm P.nodes (mixedWork env pre P) :=
  ⟨mixed_lin hD, mixed_symm hD hss, fun _ _ _ h => mixed_congr hD (fun _ _ => rfl) h⟩

theorem regular_env {q : Schemes} {env : Env} {pre : List Call} (env' : Env) (h : ShellsRegular q (World.init.run env pre).api.model) :
    ShellsRegular q (World.init.run env' pre).api.model := by
  rwa [built_refined env', ← built_refined env]

/-! ### C160 for models of beams and shells -/

/-- Nothing that is added, saved or loaded depends on the solver: what is built by a history is the same with every solver and quadrature. -/
theorem C160_model (env env' : Env) (pre : List Call) : (World.init.run env pre).api = (World.init.run env' pre).api :=
  (built_refined env pre).trans (built_refined env' pre).symm

/-- A stable model of beams and regular shells: if the solver satisfies each equation up to `ε` times the largest load, the error of the displacements
reported is at most a constant times `ε`; the constant depends on the model and the case only, not on the solver. -/
theorem C160_shells_close (solve₀ : (n : ℕ) → Matrix (Fin n) (Fin n) ℝ → Vec n → Except PyErr (Vec n)) (pre : List Call)
    (hreg : ShellsRegular q (World.init.run (shellEnv q nan4 nan3 solve₀) pre).api.model) (c : String) (P : Problem) (hD : Poses pre c P)
    (hst : MixedStable (shellEnv q nan4 nan3 solve₀) pre P) :
    ∃ C : ℝ, ∀ (solve : (n : ℕ) → Matrix (Fin n) (Fin n) ℝ → Vec n → Except PyErr (Vec n)) (ε : ℝ), 0 ≤ ε →
      SolverWithin (shellEnv q nan4 nan3 solve) ε → PlainModel (shellEnv q nan4 nan3 solve) pre → ∀ (mid : List Call) (u : State),
      Reports (shellEnv q nan4 nan3 solve) pre mid c u → ∀ x : State, Obeys P.fix x →
      (∀ v, Obeys P.fix v → mixedWork (shellEnv q nan4 nan3 solve₀) pre P v x = P.load v) → ∀ n ∈ P.nodes, ∀ r, |u n r - x n r| ≤ C * ε := by
  obtain ⟨M, hM0, hMl⟩ := loadsUpTo_exists P
  have hnd := nodes_nodup idealEnv hD
  obtain ⟨κ, hκ0, hκ⟩ := workForm_bound hnd (mixed_workForm hD (shells_symm q nan4 nan3 solve₀ hreg)) P.fix hst
  refine ⟨κ * M, ?_⟩
  intro solve ε hε henv hM mid u hu x hx hxe n hn r
  have hreg' : ShellsRegular q (World.init.run (shellEnv q nan4 nan3 solve) pre).api.model := regular_env _ hreg
  have he : ∀ v u, mixedWork (shellEnv q nan4 nan3 solve) pre P v u = mixedWork (shellEnv q nan4 nan3 solve₀) pre P v u :=
    fun v u => mixedWork_env (env := shellEnv q nan4 nan3 solve) (env' := shellEnv q nan4 nan3 solve₀) rfl rfl pre P v u
  obtain ⟨u', h1, h2, h3⟩ := mixed_within hM hD (shells_symm q nan4 nan3 solve hreg') (shells_free q nan4 nan3 solve hreg')
    (fun u hu h0 => hst u hu (by rw [← he]; exact h0)) henv hu
  have key := hκ ((1:ℝ) • u' + (-1:ℝ) • x) (ε * M) (Obeys.lin h2 hx 1 (-1)) (mul_nonneg hε hM0) (by
    intro m hm s hs
    rw [mixed_lin hD, hxe _ (unitAt_obeys hs)]
    obtain ⟨m', hm', q', hq', hle⟩ := h3 m hm s hs
    rw [he] at hle
    rw [show 1 * mixedWork (shellEnv q nan4 nan3 solve₀) pre P (unitAt m s) u' + -1 * P.load (unitAt m s) =
      mixedWork (shellEnv q nan4 nan3 solve₀) pre P (unitAt m s) u' - P.load (unitAt m s) by ring]
    exact hle.trans (mul_le_mul_of_nonneg_left (hMl m' hm' q' (isFree_iff.mp hq')) hε)) n hn r
  have hen : ((1:ℝ) • u' + (-1:ℝ) • x) n r = u n r - x n r := by
    rw [h1 n hn]
    simp [sub_eq_add_neg]
  rw [hen] at key
  linarith

/-- The same for a solver that answers exactly for a matrix and a right-hand side differing by at most `ε` times their largest entries, for all
`ε` small enough. -/
theorem C160_shells_backward (solve₀ : (n : ℕ) → Matrix (Fin n) (Fin n) ℝ → Vec n → Except PyErr (Vec n)) (pre : List Call)
    (hreg : ShellsRegular q (World.init.run (shellEnv q nan4 nan3 solve₀) pre).api.model) (c : String) (P : Problem) (hD : Poses pre c P)
    (hst : MixedStable (shellEnv q nan4 nan3 solve₀) pre P) :
    ∃ C ε₀ : ℝ, 0 < ε₀ ∧ ∀ (solve : (n : ℕ) → Matrix (Fin n) (Fin n) ℝ → Vec n → Except PyErr (Vec n)) (ε : ℝ), 0 ≤ ε → ε ≤ ε₀ →
      SolverBackward (shellEnv q nan4 nan3 solve) ε → PlainModel (shellEnv q nan4 nan3 solve) pre → ∀ (mid : List Call) (u : State),
      Reports (shellEnv q nan4 nan3 solve) pre mid c u → ∀ x : State, Obeys P.fix x →
      (∀ v, Obeys P.fix v → mixedWork (shellEnv q nan4 nan3 solve₀) pre P v x = P.load v) → ∀ n ∈ P.nodes, ∀ r, |u n r - x n r| ≤ C * ε := by
  obtain ⟨M, hM0, hMl⟩ := loadsUpTo_exists P
  have hnd := nodes_nodup idealEnv hD
  set W := mixedWork (shellEnv q nan4 nan3 solve₀) pre P with hW
  obtain ⟨a, ha0, ha⟩ := bounded_entries fun p s : {n // n ∈ P.nodes} × Fin 6 => W (unitAt p.1 p.2) (unitAt s.1 s.2)
  obtain ⟨κ, hκ0, hκ⟩ := workForm_bound hnd (mixed_workForm hD (shells_symm q nan4 nan3 solve₀ hreg)) P.fix hst
  set N : ℝ := ((P.nodes.length * 6 : ℕ) : ℝ) with hN
  have hN0 : 0 ≤ N := Nat.cast_nonneg _
  refine ⟨2 * (κ * (M + N * (a * (κ * M)))), 1 / (2 * (κ * (N * a)) + 1), by positivity, ?_⟩
  intro solve ε hε hε0 henv hM mid u hu x hx hxe n hn r
  have hreg' : ShellsRegular q (World.init.run (shellEnv q nan4 nan3 solve) pre).api.model := regular_env _ hreg
  have he : ∀ v u, mixedWork (shellEnv q nan4 nan3 solve) pre P v u = W v u := fun v u => mixedWork_env (env := shellEnv q nan4 nan3 solve) (env' := shellEnv q nan4 nan3 solve₀) rfl rfl pre P v u
  obtain ⟨u', h1, h2, h3⟩ := mixed_backward hM hD (shells_symm q nan4 nan3 solve hreg') (shells_free q nan4 nan3 solve hreg')
    (fun u hu h0 => hst u hu (by rw [← hW, ← he]; exact h0)) hε henv hu
  have hxb : ∀ n ∈ P.nodes, ∀ r, |x n r| ≤ κ * M := hκ x M hx hM0 (by
    intro m hm s hs
    rw [← hW, hxe _ (unitAt_obeys hs)]
    exact hMl m hm s (isFree_iff.mp hs))
  obtain ⟨D, hD0, hDle, hDat⟩ : ∃ D : ℝ, 0 ≤ D ∧ (∀ n ∈ P.nodes, ∀ r, |u' n r - x n r| ≤ D) ∧ ∃ m ∈ P.nodes, ∃ s, D = |u' m s - x m s| := by
    classical
    have hne : (Finset.univ : Finset ({n // n ∈ P.nodes} × Fin 6)).Nonempty := ⟨(⟨n, hn⟩, r), Finset.mem_univ _⟩
    obtain ⟨p, -, hp⟩ := Finset.exists_max_image Finset.univ (fun p : {n // n ∈ P.nodes} × Fin 6 => |u' p.1 p.2 - x p.1 p.2|) hne
    exact ⟨_, abs_nonneg _, fun n hn r => hp (⟨n, hn⟩, r) (Finset.mem_univ _), p.1, p.1.2, p.2, rfl⟩
  have hB : 0 ≤ ε * (M + N * (a * (κ * M + D))) := by positivity
  have key := hκ ((1:ℝ) • u' + (-1:ℝ) • x) (ε * (M + N * (a * (κ * M + D)))) (Obeys.lin h2 hx 1 (-1)) hB (by
    intro m hm s hs
    rw [mixed_lin hD, ← hW, hxe _ (unitAt_obeys hs)]
    obtain ⟨m1, k1, q1, f1, m2, k2, q2, m3, k3, q3, m4, k4, q4, hle⟩ := h3 m hm s hs
    rw [he, he] at hle
    rw [show 1 * W (unitAt m s) u' + -1 * P.load (unitAt m s) = W (unitAt m s) u' - P.load (unitAt m s) by ring]
    refine hle.trans (mul_le_mul_of_nonneg_left (add_le_add (hMl m1 k1 q1 (isFree_iff.mp f1)) (mul_le_mul_of_nonneg_left ?_ hN0)) hε)
    refine mul_le_mul (ha (⟨m2, k2⟩, q2) (⟨m3, k3⟩, q3)) ?_ (abs_nonneg _) ha0
    calc |u' m4 q4| = |x m4 q4 + (u' m4 q4 - x m4 q4)| := by ring_nf
      _ ≤ |x m4 q4| + |u' m4 q4 - x m4 q4| := abs_add_le _ _
      _ ≤ κ * M + D := add_le_add (hxb m4 k4 q4) (hDle m4 k4 q4))
  have hkey : ∀ n ∈ P.nodes, ∀ r, |u' n r - x n r| ≤ κ * (ε * (M + N * (a * (κ * M + D)))) := by
    intro n hn r
    have := key n hn r
    rwa [show ((1:ℝ) • u' + (-1:ℝ) • x) n r = u' n r - x n r by simp [sub_eq_add_neg]] at this
  obtain ⟨m, hm, s, hDs⟩ := hDat
  have hfin := backward_closing hε hκ0 hN0 ha0 hD0 hε0 (M := M) (by
    have := hkey m hm s
    rwa [← hDs] at this)
  rw [h1 n hn]
  exact (hDle n hn r).trans hfin

/-- And `solve_static(c)` still returns True. -/
theorem C160_shells_solved (solve : (n : ℕ) → Matrix (Fin n) (Fin n) ℝ → Vec n → Except PyErr (Vec n)) (ε : ℝ) (hε : 0 ≤ ε)
    (henv : SolverWithin (shellEnv q nan4 nan3 solve) ε ∨ SolverBackward (shellEnv q nan4 nan3 solve) ε) (pre mid : List Call)
    (hM : PlainModel (shellEnv q nan4 nan3 solve) pre) (hmid : ∀ k ∈ mid, k ≠ .assemble)
    (hreg : ShellsRegular q (World.init.run (shellEnv q nan4 nan3 solve) pre).api.model) (c : String) (P : Problem) (hD : Poses pre c P)
    (hst : MixedStable (shellEnv q nan4 nan3 solve) pre P) (hmu : ∀ b g, P.frame.beam b = some g → g.sec.mat.mu ≠ -1)
    (hown : ∀ own, (restReg.run pre).cur.cases c = some own → ∀ n f, own n = some f → n ∈ P.nodes)
    (hfree : ∃ n ∈ P.nodes, ∃ r, ¬ Restrained P.fix n r) : ∃ u, Reports (shellEnv q nan4 nan3 solve) pre mid c u := by
  have hsf := shells_free q nan4 nan3 solve hreg
  generalize shellEnv q nan4 nan3 solve = env at *
  obtain ⟨lc, x, hlc, hx, hasb, h0, hfix, hst', hload, hcase⟩ := mixed_world hM hmid hD hst
  have h := (FreshInv_run env pre hM.readd).1
  have hn := mixed_nodes env hD
  have hunam := stable_unambiguous h hsf hst'
  have hans : SolverAnswers env := by
    rcases henv with henv | henv
    · intro n A b hn hA
      obtain ⟨x, hx, _⟩ := henv n A b hn hA
      exact ⟨x, hx⟩
    · exact backward_answers henv
  have hret := succeeds_answers env hans h hx hasb h0 hlc hunam hst' (by
      intro b be hb
      have := hmu b (givenBeam be) (by rw [hD.frame, ← blueprint_refined env pre]; simp [blueprintOf, hb])
      cases hp : be.prop <;> simpa [muOf, givenBeam, givenProp, givenSec, givenMat, hp] using this) (by
      intro n hk
      obtain ⟨f, hf⟩ := dict_mem_keys hk
      rw [← hn]
      exact hown _ hcase n f hf) (by
      obtain ⟨n, h1, r, h2⟩ := hfree
      refine ⟨n, by rw [← hn]; exact h1, r, fun f hf => ?_⟩
      cases hr : f r with
      | false => rfl
      | true => exact absurd ⟨f, by rw [hfix]; exact hf, hr⟩ h2)
  rcases henv with henv | henv
  · obtain ⟨u, k1, _, _⟩ := reported_within env henv h hx hasb h0 hlc hunam hst' hret
    exact ⟨u, hmid, hret, fun n hmem => k1 n (by rw [← hD.nodes, hn] at hmem; exact hmem)⟩
  · obtain ⟨u, k1, _, _⟩ := reported_backward env hε henv h hx hasb h0 hlc hunam hst' hret
    exact ⟨u, hmid, hret, fun n hmem => k1 n (by rw [← hD.nodes, hn] at hmem; exact hmem)⟩

/-- The stiffened sheet and a solver that overshoots every answer by a hundredth: it answers, and within a hundredth of a constant. -/
example : ∃ u, Reports (shellEnv onePoint nan4 nan3 (sloppyEnv (1 / 100)).spsolve) ribCalls [] "L" u ∧
    ∃ C : ℝ, ∀ x : State, Obeys ribL.fix x →
      (∀ v, Obeys ribL.fix v → mixedWork (shellEnv onePoint nan4 nan3 idealEnv.spsolve) ribCalls ribL v x = ribL.load v) →
      ∀ n ∈ ribL.nodes, ∀ r, |u n r - x n r| ≤ C * (1 / 100) := by
  have hreg : ∀ env, ShellsRegular onePoint (World.init.run env ribCalls).api.model := fun env =>
    (rib_proper env).regular onePoint_proper (ApiInv_run _ ribCalls).1
  have hw : SolverWithin (shellEnv onePoint nan4 nan3 (sloppyEnv (1 / 100)).spsolve) (1 / 100) := sloppy_within (1 / 100) (by norm_num)
  have hmu : ∀ b g, ribL.frame.beam b = some g → g.sec.mat.mu ≠ -1 := by
    intro b g hg
    rw [show ribL.frame = (blueprint.run ribCalls).cur from rfl, rib_frame.2] at hg
    split at hg
    · cases hg; norm_num [demoSec]
    · cases hg
  obtain ⟨u, hu⟩ := C160_shells_solved onePoint nan4 nan3 _ _ (by norm_num) (Or.inl hw) ribCalls [] (rib_plain _) (by simp) (hreg _) "L" ribL ribL_poses
    (rib_stable nan4 nan3 _) hmu (rib_own "L") rib_free
  obtain ⟨C, hC⟩ := C160_shells_close onePoint nan4 nan3 idealEnv.spsolve ribCalls (hreg _) "L" ribL ribL_poses (rib_stable nan4 nan3 _)
  exact ⟨u, hu, C, hC _ _ (by norm_num) hw (rib_plain _) [] u hu⟩

end Hyperstatic
