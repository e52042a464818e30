import Verif.Lemmas.Solvers
import Verif.Props.Solve

/-
C166: the linear solvers a static analysis can be told to use.

A history `pre` ends with the model in the state `w₀.api`; then come `assemble()`, any calls `mid` other than `assemble()`, and
`StaticSolver(workpath,filename).solve_linear(c,precase,word)`.
-/

namespace Hyperstatic
open Matrix Spec

/-! ### C166 The choice of the linear solver does not change the answer -/

theorem session_ready (env : Env) (pre mid : List Call) (hpre : NoReadd env World.init pre) (hmid : ∀ k ∈ mid, k ≠ .assemble) :
    FreshInv (World.init.run env pre).api ∧ ∃ x, (World.init.run env pre).api.assembly = .ok x ∧
      ((World.init.run env pre).run env (.assemble :: mid)).fs.get? Api.filename = some (.asb x) ∧
      ((World.init.run env pre).run env (.assemble :: mid)).fs.get? "0.k" = none := by
  have h := (FreshInv_run env pre hpre).1
  obtain ⟨x, hx⟩ := h.toApiInv.assembly_ok
  refine ⟨h, x, hx, ?_, ?_⟩
  · rw [run_cons, asb_run env _ mid hmid, step_assemble env _ x hx]
    exact Dict.get?_set_same _ _ _
  · rw [← run_append]
    exact no0k_init env _

/-- The direct solver is the one `solve_static` uses. -/
theorem C166_default (env : Env) (lin : LinEnv) (fs : Dict (File Api)) (filename c : String) :
    solveLinearBy env lin fs filename c none "direct" = solveLinear env fs filename c := by
  unfold solveLinearBy solveLinear
  cases openAssembly fs filename with
  | error e => rfl
  | ok a =>
    simp only
    have : ∀ K, solveCaseBy env lin "direct" a c K = solveCase env a c K := by
      intro K
      unfold solveCaseBy solveCase linSolve
      rfl
    simp only [this]
    split
    · rfl
    · cases a.assembleK env with
      | error e => rfl
      | ok K => cases solveCase env a c K <;> rfl

/-- With the direct solver and with pypardiso the saved displacements are the equilibrium. -/
theorem C166_equilibrium_partial (env : Env) (henv : env.SolverSound) (lin : LinEnv) (hlin : PardisoSound lin) (pre mid : List Call)
    (hpre : NoReadd env World.init pre) (hmid : ∀ k ∈ mid, k ≠ .assemble) (w₀ w₁ : World) (hw₀ : w₀ = World.init.run env pre)
    (hw₁ : w₁ = w₀.run env (.assemble :: mid)) (c : String) (lc : LoadCase) (hc : w₀.api.loadcases.get? c = some lc)
    (hss : ShellsSymm env w₀.api.model) (hsf : ShellsFree env w₀.api.model)
    (hst : Stable env w₀.api.model (governing w₀.api.model lc)) (precase : Option String) (word : String)
    (hword : word = "direct" ∨ word = "pardiso") (fs' : Dict (File Api))
    (hret : solveLinearBy env lin w₁.fs Api.filename c precase word = (fs', .ok ())) :
    ∃ u : State, (∀ n ∈ w₀.getNodeNames, World.resultGetNodalDisplacement { w₁ with fs := fs' } n c = some (List.ofFn (u n))) ∧
      Respects (governing w₀.api.model lc) u ∧
      ∀ v, Respects (governing w₀.api.model lc) v → internalWork env w₀.api.model v u = externalWork w₀.api.model w₀.api.heap lc v := by
  subst hw₀ hw₁
  obtain ⟨h, x, hx, hasb, h0⟩ := session_ready env pre mid hpre hmid
  obtain ⟨n, A, b, delta, comp, u, e1, e2, -, e4, e5, -, e7, e8, e9, e10, e11⟩ :=
    solveBy_core env lin h hx hasb hc (stable_unambiguous h hsf hst) hss hst hret
  refine ⟨u, e8, e9, ?_⟩
  have hsol : A *ᵥ delta = b := by
    rcases Nat.eq_zero_or_pos n with h0 | hpos
    · funext i
      exact absurd i.isLt (by omega)
    · rcases hword with rfl | rfl
      · obtain ⟨z, z1, z2⟩ := henv n A b hpos e2
        unfold linSolve at e1
        rw [if_pos rfl, z1] at e1
        cases e1
        exact z2
      · unfold linSolve at e1
        rw [if_neg (by decide), if_pos rfl] at e1
        cases hp : lin.pardiso with
        | none => rw [hp] at e1; cases e1
        | some s =>
          obtain ⟨z, z1, z2⟩ := hlin s hp n A b hpos e2
          rw [hp] at e1
          simp only [z1] at e1
          cases e1
          exact z2
  intro v hv
  rw [e11 v u hv e9, e10 v hv]
  have : (fun k => u (comp k).1 (comp k).2) = delta := funext fun k => (e7 k).symm
  rw [this, hsol]

/-- a unit displacement of a free component -/
theorem unit_respects {m : FeModel} {t : Dict Flags} {q : String × Fin 6} (hq : FreeComp m t q) : Respects t (unitAt q.1 q.2) := by
  intro n f hn r hf
  unfold unitAt
  rw [if_neg]
  rintro ⟨rfl, rfl⟩
  rw [hq.2 f hn] at hf
  cases hf

theorem unit_comp {n : ℕ} {comp : Fin n → String × Fin 6} (hinj : Function.Injective comp) (k : Fin n) :
    (fun l => unitAt (comp k).1 (comp k).2 (comp l).1 (comp l).2) = (Pi.single k 1 : Vec n) := by
  funext l
  unfold unitAt
  by_cases hl : l = k
  · subst hl
    simp
  · rw [Pi.single_eq_of_ne hl, if_neg]
    rintro ⟨a1, a2⟩
    exact hl (hinj (Prod.ext a1 a2))

theorem maxStored_spec {n : ℕ} {A : Matrix (Fin n) (Fin n) ℝ} {m : ℝ} (h : maxStored A = .ok m) :
    0 < m ∧ (∃ i j, |A i j| = m) ∧ ∀ i j, |A i j| ≤ m := by
  unfold maxStored at h
  set L := (List.finRange n).flatMap (fun i => (List.finRange n).filterMap fun j => if A i j ≠ 0 then some |A i j| else none) with hL
  have hmem : ∀ y, y ∈ L ↔ ∃ i j, A i j ≠ 0 ∧ |A i j| = y := by
    intro y
    rw [hL]
    simp only [List.mem_flatMap, List.mem_finRange, true_and, List.mem_filterMap]
    constructor
    · rintro ⟨i, j, hij⟩
      split at hij
      · rename_i hne
        cases hij
        exact ⟨i, j, hne, rfl⟩
      · cases hij
    · rintro ⟨i, j, hne, rfl⟩
      exact ⟨i, j, if_pos hne⟩
  have hfold : ∀ (l : List ℝ) (y : ℝ), l.foldl max y ∈ y :: l ∧ ∀ z ∈ y :: l, z ≤ l.foldl max y := by
    intro l
    induction l with
    | nil => intro y; simp
    | cons q qs ih =>
      intro y
      obtain ⟨i1, i2⟩ := ih (max y q)
      rw [List.foldl_cons]
      constructor
      · rcases List.mem_cons.mp i1 with e | e
        · rw [e]
          rcases le_total y q with h | h
          · rw [max_eq_right h]; simp
          · rw [max_eq_left h]; simp
        · simp [e]
      · intro z hz
        have := i2 (max y q) (by simp)
        rcases List.mem_cons.mp hz with rfl | hz
        · exact (le_max_left _ _).trans this
        · rcases List.mem_cons.mp hz with rfl | hz
          · exact (le_max_right _ _).trans this
          · exact i2 z (by simp [hz])
  clear_value L
  cases e : L with
  | nil => rw [e] at h; cases h
  | cons y ys =>
    rw [e] at h
    have hh := Except.ok.inj h
    subst hh
    obtain ⟨f1, f2⟩ := hfold ys y
    rw [← e] at f1 f2
    obtain ⟨i, j, hne, hij⟩ := (hmem _).mp f1
    refine ⟨by rw [← hij]; exact abs_pos.mpr hne, ⟨i, j, hij⟩, ?_⟩
    intro k l
    by_cases hz : A k l = 0
    · rw [hz, abs_zero, ← hij]
      exact abs_nonneg _
    · exact f2 _ ((hmem _).mpr ⟨k, l, hz, rfl⟩)

/-- With CHOLMOD the equations are those of a structure to which springs of negative stiffness have been added: at every free component the
forces are out of balance by 1e-20 times the largest stiffness times the displacement. -/
theorem C166_cholmod (env : Env) (lin : LinEnv) (hlin : CholmodSound lin) (pre mid : List Call)
    (hpre : NoReadd env World.init pre) (hmid : ∀ k ∈ mid, k ≠ .assemble) (w₀ w₁ : World) (hw₀ : w₀ = World.init.run env pre)
    (hw₁ : w₁ = w₀.run env (.assemble :: mid)) (c : String) (lc : LoadCase) (hc : w₀.api.loadcases.get? c = some lc)
    (hss : ShellsSymm env w₀.api.model) (hsf : ShellsFree env w₀.api.model)
    (hst : Stable env w₀.api.model (governing w₀.api.model lc)) (precase : Option String) (fs' : Dict (File Api))
    (hret : solveLinearBy env lin w₁.fs Api.filename c precase "cholmod" = (fs', .ok ())) :
    ∃ (u : State) (M : ℝ), (∀ n ∈ w₀.getNodeNames, World.resultGetNodalDisplacement { w₁ with fs := fs' } n c = some (List.ofFn (u n))) ∧
      Respects (governing w₀.api.model lc) u ∧ 0 < M ∧
      IsGreatest {y | ∃ p q, FreeComp w₀.api.model (governing w₀.api.model lc) p ∧ FreeComp w₀.api.model (governing w₀.api.model lc) q ∧
        y = |internalWork env w₀.api.model (unitAt p.1 p.2) (unitAt q.1 q.2)|} M ∧
      ∀ p, FreeComp w₀.api.model (governing w₀.api.model lc) p →
        internalWork env w₀.api.model (unitAt p.1 p.2) u - externalWork w₀.api.model w₀.api.heap lc (unitAt p.1 p.2) =
          M / 10 ^ 20 * u p.1 p.2 := by
  subst hw₀ hw₁
  obtain ⟨h, x, hx, hasb, h0⟩ := session_ready env pre mid hpre hmid
  obtain ⟨n, A, b, delta, comp, u, e1, e2, -, e4, e5, e6, e7, e8, e9, e10, e11⟩ :=
    solveBy_core env lin h hx hasb hc (stable_unambiguous h hsf hst) hss hst hret
  have hent : ∀ k l, internalWork env (World.init.run env pre).api.model (unitAt (comp k).1 (comp k).2) (unitAt (comp l).1 (comp l).2) = A k l := by
    intro k l
    rw [e11 _ _ (unit_respects (e4 k)) (unit_respects (e4 l)), unit_comp e6, unit_comp e6]
    simp
  unfold linSolve at e1
  rw [if_neg (by decide), if_neg (by decide), if_pos rfl] at e1
  cases hp : lin.cholmod with
  | none => rw [hp] at e1; cases e1
  | some s =>
    rw [hp] at e1
    simp only [Except.bind_ok_iff] at e1
    obtain ⟨M, hM, e1⟩ := e1
    have hsol := hlin s hp n A _ b delta e1
    obtain ⟨m1, ⟨i, j, hij⟩, m3⟩ := maxStored_spec hM
    refine ⟨u, M, e8, e9, m1, ⟨⟨comp i, comp j, e4 i, e4 j, ?_⟩, ?_⟩, ?_⟩
    · rw [hent, hij]
    · rintro y ⟨p, q, hp, hq, rfl⟩
      obtain ⟨k, rfl⟩ := e5 p hp
      obtain ⟨l, rfl⟩ := e5 q hq
      rw [hent]
      exact m3 k l
    · intro p hp
      obtain ⟨k, rfl⟩ := e5 p hp
      have hu : (fun k => u (comp k).1 (comp k).2) = delta := funext fun k => (e7 k).symm
      rw [e11 _ _ (unit_respects (e4 k)) e9, e10 _ (unit_respects (e4 k)), unit_comp e6, hu, ← e7 k]
      have := congrFun hsol k
      rw [Matrix.add_mulVec, Matrix.smul_mulVec, Matrix.one_mulVec] at this
      simp only [Pi.add_apply, Pi.smul_apply, smul_eq_mul] at this
      simp only [single_dotProduct, one_mul]
      rw [← this]
      ring

/-- So the displacements saved with CHOLMOD are in equilibrium with the loads only if nothing is loaded. -/
theorem C166_cholmod_never (env : Env) (lin : LinEnv) (hlin : CholmodSound lin) (pre mid : List Call)
    (hpre : NoReadd env World.init pre) (hmid : ∀ k ∈ mid, k ≠ .assemble) (w₀ w₁ : World) (hw₀ : w₀ = World.init.run env pre)
    (hw₁ : w₁ = w₀.run env (.assemble :: mid)) (c : String) (lc : LoadCase) (hc : w₀.api.loadcases.get? c = some lc)
    (hss : ShellsSymm env w₀.api.model) (hsf : ShellsFree env w₀.api.model)
    (hst : Stable env w₀.api.model (governing w₀.api.model lc)) (precase : Option String) (fs' : Dict (File Api))
    (hret : solveLinearBy env lin w₁.fs Api.filename c precase "cholmod" = (fs', .ok ()))
    (hload : ∃ p, FreeComp w₀.api.model (governing w₀.api.model lc) p ∧ externalWork w₀.api.model w₀.api.heap lc (unitAt p.1 p.2) ≠ 0) :
    ∃ u : State, (∀ n ∈ w₀.getNodeNames, World.resultGetNodalDisplacement { w₁ with fs := fs' } n c = some (List.ofFn (u n))) ∧
      ∃ p, FreeComp w₀.api.model (governing w₀.api.model lc) p ∧
        internalWork env w₀.api.model (unitAt p.1 p.2) u ≠ externalWork w₀.api.model w₀.api.heap lc (unitAt p.1 p.2) := by
  obtain ⟨u, M, k1, k2, k3, -, k5⟩ := C166_cholmod env lin hlin pre mid hpre hmid w₀ w₁ hw₀ hw₁ c lc hc hss hsf hst precase fs' hret
  refine ⟨u, k1, ?_⟩
  by_contra hno
  push Not at hno
  have hz : ∀ p, FreeComp w₀.api.model (governing w₀.api.model lc) p → u p.1 p.2 = 0 := by
    intro p hp
    have := k5 p hp
    rw [hno p hp, sub_self] at this
    rcases mul_eq_zero.mp this.symm with h | h
    · have : 0 < M / 10 ^ 20 := by positivity
      exact absurd h this.ne'
    · exact h
  have hA := (ApiInv_run env pre).1
  rw [← hw₀] at hA
  have hu0 : ∀ n ∈ w₀.api.model.nodes.keys, u n = (0 : State) n := by
    intro n hn
    funext r
    by_cases hf : ∀ f, (governing w₀.api.model lc).get? n = some f → f r = false
    · exact hz (n, r) ⟨hn, hf⟩
    · push Not at hf
      obtain ⟨f, f1, f2⟩ := hf
      exact k2 n f f1 r (by simpa using f2)
  obtain ⟨p, hp, hne⟩ := hload
  apply hne
  rw [← hno p hp, internalWork_congr env hA (fun n _ => rfl) hu0]
  have := internalWork_lin env w₀.api.model 0 0 (unitAt p.1 p.2) (0 : State) 0
  simpa using this

/-- When the iterations of the iterative solver converge, every equation holds up to a hundred-thousandth of some load, times the root of the
number of components. -/
theorem C166_pcg_partial (env : Env) (lin : LinEnv) (hlin : BicgSound lin) (hconv : BicgConverges lin) (pre mid : List Call)
    (hpre : NoReadd env World.init pre) (hmid : ∀ k ∈ mid, k ≠ .assemble) (w₀ w₁ : World) (hw₀ : w₀ = World.init.run env pre)
    (hw₁ : w₁ = w₀.run env (.assemble :: mid)) (c : String) (lc : LoadCase) (hc : w₀.api.loadcases.get? c = some lc)
    (hss : ShellsSymm env w₀.api.model) (hsf : ShellsFree env w₀.api.model)
    (hst : Stable env w₀.api.model (governing w₀.api.model lc)) (precase : Option String) (fs' : Dict (File Api))
    (hret : solveLinearBy env lin w₁.fs Api.filename c precase "pcg" = (fs', .ok ())) :
    ∃ u : State, (∀ n ∈ w₀.getNodeNames, World.resultGetNodalDisplacement { w₁ with fs := fs' } n c = some (List.ofFn (u n))) ∧
      Respects (governing w₀.api.model lc) u ∧
      ∀ p, FreeComp w₀.api.model (governing w₀.api.model lc) p → ∃ q, FreeComp w₀.api.model (governing w₀.api.model lc) q ∧
        |internalWork env w₀.api.model (unitAt p.1 p.2) u - externalWork w₀.api.model w₀.api.heap lc (unitAt p.1 p.2)| ≤
          1 / 10 ^ 5 * Real.sqrt (6 * w₀.getNodeNames.length) * |externalWork w₀.api.model w₀.api.heap lc (unitAt q.1 q.2)| := by
  subst hw₀ hw₁
  obtain ⟨h, x, hx, hasb, h0⟩ := session_ready env pre mid hpre hmid
  obtain ⟨n, A, b, delta, comp, u, e1, e2, -, e4, e5, e6, e7, e8, e9, e10, e11⟩ :=
    solveBy_core env lin h hx hasb hc (stable_unambiguous h hsf hst) hss hst hret
  refine ⟨u, e8, e9, ?_⟩
  unfold linSolve at e1
  rw [if_neg (by decide), if_neg (by decide), if_neg (by decide), if_pos rfl] at e1
  simp only [Except.bind_ok_iff] at e1
  obtain ⟨P, -, ⟨z, info⟩, hz, e1⟩ := e1
  cases e1
  have hi := hconv n A P b z info hz
  subst hi
  have hres := hlin n A P b z hz
  intro p hp
  obtain ⟨k, rfl⟩ := e5 p hp
  have hu : (fun k => u (comp k).1 (comp k).2) = z := funext fun k => (e7 k).symm
  have hb : ∀ k, externalWork (World.init.run env pre).api.model (World.init.run env pre).api.heap lc (unitAt (comp k).1 (comp k).2) = b k := by
    intro k
    rw [e10 _ (unit_respects (e4 k)), unit_comp e6]
    simp
  rw [e11 _ _ (unit_respects (e4 k)) e9, hb, unit_comp e6, hu]
  simp only [single_dotProduct, one_mul]
  -- the largest load
  obtain ⟨l, -, hl⟩ := Finset.exists_max_image Finset.univ (fun i => |b i|) ⟨k, Finset.mem_univ k⟩
  refine ⟨comp l, e4 l, ?_⟩
  rw [hb]
  have hn : (n : ℝ) ≤ 6 * (World.init.run env pre).getNodeNames.length := by
    have hcard : (Finset.univ.image comp).card = n := by
      rw [Finset.card_image_of_injective _ e6, Finset.card_univ, Fintype.card_fin]
    have hsub : Finset.univ.image comp ⊆ (World.init.run env pre).getNodeNames.toFinset ×ˢ (Finset.univ : Finset (Fin 6)) := by
      intro q hq
      obtain ⟨k, -, rfl⟩ := Finset.mem_image.mp hq
      exact Finset.mem_product.mpr ⟨List.mem_toFinset.mpr (e4 k).1, Finset.mem_univ _⟩
    have h1 := Finset.card_le_card hsub
    rw [hcard, Finset.card_product, Finset.card_univ, Fintype.card_fin] at h1
    have h2 := List.toFinset_card_le (World.init.run env pre).getNodeNames
    have h3 : n ≤ 6 * (World.init.run env pre).getNodeNames.length := by omega
    exact_mod_cast h3
  have hk : ((A *ᵥ z) k - b k) ^ 2 ≤ ∑ i, ((A *ᵥ z) i - b i) ^ 2 :=
    Finset.single_le_sum (f := fun i => ((A *ᵥ z) i - b i) ^ 2) (fun i _ => sq_nonneg _) (Finset.mem_univ k)
  have hsum : ∑ i, b i ^ 2 ≤ n * |b l| ^ 2 := by
    have : ∑ i, b i ^ 2 ≤ ∑ _i : Fin n, |b l| ^ 2 := by
      apply Finset.sum_le_sum
      intro i _
      rw [← sq_abs]
      exact pow_le_pow_left₀ (abs_nonneg _) (hl i (Finset.mem_univ i)) 2
    simpa using this
  have hfin : ((A *ᵥ z) k - b k) ^ 2 ≤ (1 / 10 ^ 5 * Real.sqrt (6 * (World.init.run env pre).getNodeNames.length) * |b l|) ^ 2 := by
    rw [mul_pow, mul_pow, Real.sq_sqrt (by positivity), mul_assoc]
    refine hk.trans (hres.trans (mul_le_mul_of_nonneg_left (hsum.trans ?_) (by positivity)))
    exact mul_le_mul_of_nonneg_right hn (by positivity)
  exact abs_le_of_sq_le_sq hfin (by positivity)

/-- What a run writes: the stiffness and, if it succeeds, the displacements of its case; every other file stays. -/
theorem C166_files (env : Env) (lin : LinEnv) (fs : Dict (File Api)) (filename c : String) (precase : Option String) (word : String) :
    (∀ name, name ≠ "0.k.npy" → name ≠ c ++ ".d" ++ ".npy" →
      (solveLinearBy env lin fs filename c precase word).1.get? name = fs.get? name) ∧
    ((∃ e, (solveLinearBy env lin fs filename c precase word).2 = .error e) → ∀ name, name ≠ "0.k.npy" →
      (solveLinearBy env lin fs filename c precase word).1.get? name = fs.get? name) := by
  unfold solveLinearBy
  cases openAssembly fs filename with
  | error e => exact ⟨fun _ _ _ => rfl, fun _ _ _ => rfl⟩
  | ok a =>
    simp only
    cases precase with
    | some p => exact ⟨fun _ _ _ => rfl, fun _ _ _ => rfl⟩
    | none =>
      simp only
      split
      · exact ⟨fun _ _ _ => rfl, fun _ _ _ => rfl⟩
      · cases a.assembleK env with
        | error e => exact ⟨fun _ _ _ => rfl, fun _ _ _ => rfl⟩
        | ok K =>
          simp only
          cases solveCaseBy env lin word a c K with
          | error e =>
            exact ⟨fun name h _ => Dict.get?_set_ne _ _ (Ne.symm h), fun _ name h => Dict.get?_set_ne _ _ (Ne.symm h)⟩
          | ok d =>
            refine ⟨fun name h h' => ?_, ?_⟩
            · rw [Dict.get?_set_ne _ _ (Ne.symm h'), Dict.get?_set_ne _ _ (Ne.symm h)]
            · rintro ⟨e, he⟩
              cases he

/-- Words that name no solver, solvers that are not installed and a preceding case are refused. -/
theorem C166_refused (env : Env) (lin : LinEnv) (fs : Dict (File Api)) (filename c : String) (precase : Option String) (word : String)
    (h : word ∉ ["direct", "pardiso", "cholmod", "pcg"] ∨ (word = "pardiso" ∧ lin.pardiso = none) ∨ (word = "cholmod" ∧ lin.cholmod = none) ∨
      precase ≠ none) : ∃ e, (solveLinearBy env lin fs filename c precase word).2 = .error e := by
  have hlin : word ∉ ["direct", "pardiso", "cholmod", "pcg"] ∨ (word = "pardiso" ∧ lin.pardiso = none) ∨ (word = "cholmod" ∧ lin.cholmod = none) →
      ∀ n K A b, ∃ e, linSolve env lin word n K A b = .error e := by
    intro h' n K A b
    unfold linSolve
    clear h
    rcases h' with h | ⟨rfl, h⟩ | ⟨rfl, h⟩
    · simp only [List.mem_cons, List.not_mem_nil, or_false, not_or] at h
      rw [if_neg h.1, if_neg h.2.1, if_neg h.2.2.1, if_neg h.2.2.2]
      exact ⟨_, rfl⟩
    · rw [if_neg (by decide), if_pos rfl, h]
      exact ⟨_, rfl⟩
    · rw [if_neg (by decide), if_neg (by decide), if_pos rfl, h]
      exact ⟨_, rfl⟩
  unfold solveLinearBy
  cases openAssembly fs filename with
  | error e => exact ⟨_, rfl⟩
  | ok a =>
    simp only
    cases precase with
    | some p =>
      simp only
      cases a.assembleF c with
      | error e => exact ⟨e, rfl⟩
      | ok f => exact ⟨_, rfl⟩
    | none =>
      simp only
      split
      · exact ⟨_, rfl⟩
      · cases a.assembleK env with
        | error e => exact ⟨_, rfl⟩
        | ok K =>
          simp only
          have hl := hlin (by simpa using h)
          cases hs : solveCaseBy env lin word a c K with
          | error e => exact ⟨_, rfl⟩
          | ok d =>
            exfalso
            unfold solveCaseBy at hs
            simp only [Except.bind_ok_iff] at hs
            obtain ⟨f, -, K', -, f', -, hs⟩ := hs
            split at hs
            · simp only [Except.bind_ok_iff] at hs
              obtain ⟨delta, hdelta, -⟩ := hs
              obtain ⟨e, he⟩ := hl _ _ _ _
              rw [he] at hdelta
              cases hdelta
            · cases hs

/-- The property in full: with any word for the solver, libraries that do what they promise save the equilibrium or raise. -/
def C166_claim : Prop :=
  ∀ (env : Env) (lin : LinEnv), env.SolverSound → PardisoSound lin → CholmodSound lin → BicgSound lin → ∀ (pre mid : List Call),
    NoReadd env World.init pre → (∀ k ∈ mid, k ≠ .assemble) → ∀ (w₀ w₁ : World), w₀ = World.init.run env pre →
    w₁ = w₀.run env (.assemble :: mid) → ∀ (c : String) (lc : LoadCase), w₀.api.loadcases.get? c = some lc →
    ShellsSymm env w₀.api.model → ShellsFree env w₀.api.model → Stable env w₀.api.model (governing w₀.api.model lc) →
    ∀ (word : String) (fs' : Dict (File Api)), solveLinearBy env lin w₁.fs Api.filename c none word = (fs', .ok ()) →
    ∃ u : State, (∀ n ∈ w₀.getNodeNames, World.resultGetNodalDisplacement { w₁ with fs := fs' } n c = some (List.ofFn (u n))) ∧
      Respects (governing w₀.api.model lc) u ∧
      ∀ v, Respects (governing w₀.api.model lc) v → internalWork env w₀.api.model v u = externalWork w₀.api.model w₀.api.heap lc v

/-- an iterative solver that has not converged after thirty iterations and returns where it began -/
noncomputable def lazyLin : LinEnv := ⟨none, none, fun _ _ _ => .ok 0, fun _ _ _ _ => .ok (0, 30)⟩

theorem lazy_sound : PardisoSound lazyLin ∧ CholmodSound lazyLin ∧ BicgSound lazyLin := by
  refine ⟨?_, ?_, ?_⟩
  · intro s h; cases h
  · intro s h; cases h
  · intro n A P b x h
    have : (30 : ℤ) = 0 := (Prod.ext_iff.mp (Except.ok.inj h)).2
    norm_num at this

theorem demo_shellsSymm (env : Env) (c : Csys) : ShellsSymm env (demoModel c) := by
  intro s se h; simp [demoModel, FeModel.empty] at h

theorem C166_false : ¬ C166_claim := by
  intro hclaim
  obtain ⟨c, hc, hrun⟩ := demo_run idealEnv
  have hapi : (World.init.run idealEnv demoCalls).api = demoApi c := by rw [hrun]
  obtain ⟨h, x, hx, hasb, h0⟩ := session_ready idealEnv demoCalls [] (demo_noReadd _) (by simp)
  have hlc : (World.init.run idealEnv demoCalls).api.loadcases.get? "C" = some demoCase := by rw [hapi]; rfl
  have hss : ShellsSymm idealEnv (World.init.run idealEnv demoCalls).api.model := by rw [hapi]; exact demo_shellsSymm _ c
  have hsf : ShellsFree idealEnv (World.init.run idealEnv demoCalls).api.model := by rw [hapi]; exact demo_shellsFree _ c
  have hst : Stable idealEnv (World.init.run idealEnv demoCalls).api.model (governing (World.init.run idealEnv demoCalls).api.model demoCase) := by
    rw [hapi]; exact demo_stable _ hc
  have hfix : restraintDofs (World.init.run idealEnv demoCalls).api.model
      (governing (World.init.run idealEnv demoCalls).api.model demoCase) = .ok [0, 1, 2, 3, 4, 5] := by rw [hapi]; rfl
  obtain ⟨fs', hret⟩ := solveBy_succeeds idealEnv lazyLin h hx hasb h0 (word := "pcg") hlc (stable_unambiguous h hsf hst) hss hst
    (by rw [hapi]; exact demo_mu c) hfix (fun n _ A b _ => ⟨0, rfl⟩)
  obtain ⟨n, A, b, delta, comp, u, e1, e2, -, e4, e5, e6, e7, e8, e9, e10, e11⟩ :=
    solveBy_core idealEnv lazyLin h hx hasb hlc (stable_unambiguous h hsf hst) hss hst hret
  obtain ⟨u', k1, k2, k3⟩ := hclaim idealEnv lazyLin idealEnv_sound lazy_sound.1 lazy_sound.2.1 lazy_sound.2.2 demoCalls [] (demo_noReadd _)
    (by simp) _ _ rfl rfl "C" demoCase hlc hss hsf hst "pcg" fs' hret
  have hd : delta = 0 := (Except.ok.inj e1).symm
  have hsame : ∀ n ∈ (World.init.run idealEnv demoCalls).api.model.nodes.keys, u' n = u n := by
    intro n hn
    have a1 := k1 n hn
    rw [e8 n hn] at a1
    exact (List.ofFn_injective (Option.some.inj a1)).symm
  have hB : Respects (governing (World.init.run idealEnv demoCalls).api.model demoCase) (unitAt "B" 0) := by
    rw [hapi]
    intro n f hn r hf
    have hn' : Dict.get? [("A", fun _ => true)] n = some f := hn
    rw [Dict.get?] at hn'
    split at hn'
    · rename_i e
      subst e
      simp [unitAt]
    · cases hn'
  have q := k3 _ hB
  rw [internalWork_congr idealEnv h.toApiInv (fun n _ => rfl) hsame, e11 _ _ hB e9] at q
  have hu : (fun k => u (comp k).1 (comp k).2) = 0 := by
    funext k
    rw [← e7 k, hd]
  rw [hu, mulVec_zero, dotProduct_zero, hapi] at q
  have hW : externalWork (demoApi c).model (demoApi c).heap demoCase (unitAt "B" 0) = 2 := by
    have hp : patternsOf (demoApi c).heap demoCase = [(⟨"P", [("B", ![1, 2, 3, 4, 5, 6])], [], [], []⟩, 2)] := rfl
    unfold externalWork
    rw [hp]
    simp only [List.map_cons, List.map_nil, List.sum_cons, List.sum_nil, add_zero]
    unfold patternWork
    have hn : (demoApi c).model.nodes = [("A", stdNode "A" 0 0 0), ("B", stdNode "B" 1 2 3)] := rfl
    have hb : (demoApi c).model.beams = [("b", demoBeam c)] := rfl
    rw [hn, hb]
    have hbf : LoadPattern.getBeamF ⟨"P", [("B", ![1, 2, 3, 4, 5, 6])], [], [], []⟩ "b" (demoBeam c).length = 0 := rfl
    simp only [List.map_cons, List.map_nil, List.sum_cons, List.sum_nil, add_zero, Dict.get?, hbf, zero_dotProduct]
    simp [dotProduct, Fin.sum_univ_succ, unitAt]
  rw [hW] at q
  norm_num at q

/-- libraries that solve exactly whenever there is a solution -/
noncomputable def exactLin : LinEnv where
  pardiso := some fun _ A b => open Classical in if h : ∃ x, A *ᵥ x = b then .ok h.choose else .error .exception
  cholmod := some fun n A β b => open Classical in
    if h : ∃ x, (A + β • (1 : Matrix (Fin n) (Fin n) ℝ)) *ᵥ x = b then .ok h.choose else .error .exception
  precon := fun _ A _ => .ok A
  bicgstab := fun _ A b _ => open Classical in if h : ∃ x, A *ᵥ x = b then .ok (h.choose, 0) else .error .exception

theorem exactLin_sound : PardisoSound exactLin ∧ CholmodSound exactLin ∧ BicgSound exactLin ∧ BicgConverges exactLin := by
  refine ⟨?_, ?_, ?_, ?_⟩
  · intro s h n A b _ hinj
    cases h
    have hi : Function.Injective (Matrix.mulVecLin A) := by
      rw [← LinearMap.ker_eq_bot, LinearMap.ker_eq_bot']
      intro v hv
      exact hinj v (by simpa using hv)
    obtain ⟨z, hz⟩ := (LinearMap.injective_iff_surjective.mp hi) b
    have hex : ∃ x, A *ᵥ x = b := ⟨z, by simpa using hz⟩
    exact ⟨hex.choose, dif_pos hex, hex.choose_spec⟩
  · intro s h n A β b x hx
    cases h
    simp only at hx
    split at hx
    · rename_i hex
      cases hx
      exact hex.choose_spec
    · cases hx
  · intro n A P b x hx
    unfold exactLin at hx
    simp only at hx
    split at hx
    · rename_i hex
      have e := (Prod.ext_iff.mp (Except.ok.inj hx)).1
      simp only at e
      rw [← e, hex.choose_spec]
      simp only [sub_self, ne_eq, OfNat.ofNat_ne_zero, not_false_eq_true, zero_pow, Finset.sum_const_zero]
      exact mul_nonneg (by positivity) (Finset.sum_nonneg fun i _ => sq_nonneg _)
    · cases hx
  · intro n A P b x info hx
    unfold exactLin at hx
    simp only at hx
    split at hx
    · exact (Prod.ext_iff.mp (Except.ok.inj hx)).2.symm
    · cases hx

/-- the cantilever, held at the end in all components but one -/
def pinCalls : List Call := demoCalls ++ [.setNodalRestraint "B" (fun r => r ≠ 0)]
def pinApi (c : Csys) : Api := { demoApi c with model := { demoModel c with restraints := [("A", fun _ => true), ("B", fun r => r ≠ 0)] } }

theorem pin_run (env : Env) : ∃ c, lineCsys ⟨0, 0, 0⟩ ⟨1, 2, 3⟩ = .ok c ∧ (World.init.run env pinCalls).api = pinApi c := by
  obtain ⟨c, hc, hrun⟩ := demo_run env
  refine ⟨c, hc, ?_⟩
  unfold pinCalls
  rw [run_append, hrun, run_cons, step_setNodalRestraint, run_nil]
  rfl

theorem pin_noReadd (env : Env) : NoReadd env World.init pinCalls := by
  have h := demo_noReadd env
  unfold pinCalls NoReadd demoCalls at *
  simp only [AllCalls, List.cons_append, List.nil_append, and_true] at h ⊢
  obtain ⟨h1, h2, h3, h4, h5, h6, h7, h8⟩ := h
  refine ⟨h1, h2, h3, h4, h5, h6, h7, h8, ?_⟩
  intro n x y z hh; cases hh

theorem pin_stable (env : Env) {c : Csys} (hc : lineCsys ⟨0, 0, 0⟩ ⟨1, 2, 3⟩ = .ok c) : Stable env (pinApi c).model (pinApi c).model.restraints := by
  intro u hu h0 n hn
  refine demo_stable env hc u ?_ h0 n hn
  intro n f hf r hr
  have hf' : Dict.get? [("A", fun _ => true)] n = some f := hf
  rw [Dict.get?] at hf'
  split at hf'
  · rename_i e
    subst e
    cases hf'
    exact hu "A" (fun _ => true) rfl r rfl
  · cases hf'

/-- A run with each solver, for the example. -/
theorem pin_runs (word : String) (hword : word ∈ ["direct", "pardiso", "cholmod", "pcg"]) : ∃ c, lineCsys ⟨0, 0, 0⟩ ⟨1, 2, 3⟩ = .ok c ∧
    (World.init.run idealEnv pinCalls).api = pinApi c ∧
    ∃ fs', solveLinearBy idealEnv exactLin ((World.init.run idealEnv pinCalls).run idealEnv [.assemble]).fs Api.filename "C" none word = (fs', .ok ()) := by
  obtain ⟨c, hc, hapi⟩ := pin_run idealEnv
  refine ⟨c, hc, hapi, ?_⟩
  obtain ⟨h, x, hx, hasb, h0⟩ := session_ready idealEnv pinCalls [] (pin_noReadd _) (by simp)
  have hlc : (World.init.run idealEnv pinCalls).api.loadcases.get? "C" = some demoCase := by rw [hapi]; rfl
  have hss : ShellsSymm idealEnv (World.init.run idealEnv pinCalls).api.model := by rw [hapi]; exact demo_shellsSymm _ c
  have hsf : ShellsFree idealEnv (World.init.run idealEnv pinCalls).api.model := by rw [hapi]; exact demo_shellsFree _ c
  have hst : Stable idealEnv (World.init.run idealEnv pinCalls).api.model (governing (World.init.run idealEnv pinCalls).api.model demoCase) := by
    rw [hapi]; exact pin_stable _ hc
  have hfix : restraintDofs (World.init.run idealEnv pinCalls).api.model
      (governing (World.init.run idealEnv pinCalls).api.model demoCase) = .ok [0, 1, 2, 3, 4, 5, 7, 8, 9, 10, 11] := by rw [hapi]; rfl
  refine solveBy_succeeds idealEnv exactLin h hx hasb h0 (word := word) hlc (stable_unambiguous h hsf hst) hss hst
    (by rw [hapi]; exact demo_mu c) hfix ?_
  intro n hn A b hinj
  have hn1 : n = 1 := by rw [hn, hapi]; rfl
  subst hn1
  have hne : A 0 0 ≠ 0 := by
    intro h0
    have := congrFun (hinj (fun _ => 1) (by funext i; fin_cases i; simp [Matrix.mulVec, dotProduct, h0])) 0
    norm_num at this
  have hone : ∀ (y : ℝ), y ≠ 0 → ∀ B : Matrix (Fin 1) (Fin 1) ℝ, B 0 0 = y → ∃ z, B *ᵥ z = b := by
    intro y hy B hB
    refine ⟨fun _ => b 0 / y, ?_⟩
    funext i
    fin_cases i
    simp only [Matrix.mulVec, dotProduct, Finset.univ_unique, Fin.default_eq_zero, Finset.sum_singleton, Fin.zero_eta, hB]
    field_simp
  have hA : ∃ z, A *ᵥ z = b := hone _ hne A rfl
  unfold linSolve
  simp only [List.mem_cons, List.not_mem_nil, or_false] at hword
  rcases hword with rfl | rfl | rfl | rfl
  · rw [if_pos rfl]
    exact ⟨_, dif_pos hA⟩
  · rw [if_neg (by decide), if_pos rfl]
    unfold exactLin
    simp only [dif_pos hA]
    exact ⟨_, rfl⟩
  · rw [if_neg (by decide), if_neg (by decide), if_pos rfl]
    have hmax : maxStored A = .ok |A 0 0| := by
      unfold maxStored
      have : (List.finRange 1) = [0] := rfl
      rw [this]
      simp [hne]
    unfold exactLin
    simp only [hmax, Except.bind_ok]
    have hB : ∃ z, (A + (-|A 0 0| * (1 / 10 ^ 20)) • (1 : Matrix (Fin 1) (Fin 1) ℝ)) *ᵥ z = b := by
      refine hone (A 0 0 - |A 0 0| * (1 / 10 ^ 20)) ?_ _ (by simp; ring)
      rcases abs_cases (A 0 0) with ⟨e, _⟩ | ⟨e, _⟩ <;> rw [e] <;> intro hz
      · have : A 0 0 * (1 - 1 / 10 ^ 20) = 0 := by linarith
        rcases mul_eq_zero.mp this with h | h
        · exact hne h
        · norm_num at h
      · have : A 0 0 * (1 + 1 / 10 ^ 20) = 0 := by linarith
        rcases mul_eq_zero.mp this with h | h
        · exact hne h
        · norm_num at h
    exact ⟨_, dif_pos hB⟩
  · rw [if_neg (by decide), if_neg (by decide), if_neg (by decide), if_pos rfl]
    unfold exactLin
    simp only [dif_pos hA, Except.bind_ok]
    exact ⟨_, rfl⟩

/-- Concrete case: the hypotheses of the theorems above hold for it with each of the solvers, and it is loaded. -/
example (word : String) (hword : word ∈ ["direct", "pardiso", "cholmod", "pcg"]) : ∃ c, (World.init.run idealEnv pinCalls).api = pinApi c ∧
    NoReadd idealEnv World.init pinCalls ∧ (pinApi c).loadcases.get? "C" = some demoCase ∧
    ShellsSymm idealEnv (pinApi c).model ∧ ShellsFree idealEnv (pinApi c).model ∧
    Stable idealEnv (pinApi c).model (governing (pinApi c).model demoCase) ∧
    (∃ fs', solveLinearBy idealEnv exactLin ((World.init.run idealEnv pinCalls).run idealEnv [.assemble]).fs Api.filename "C" none word = (fs', .ok ())) := by
  obtain ⟨c, hc, hapi, hret⟩ := pin_runs word hword
  exact ⟨c, hapi, pin_noReadd _, rfl, demo_shellsSymm _ c, demo_shellsFree _ c, pin_stable _ hc, hret⟩

end Hyperstatic
