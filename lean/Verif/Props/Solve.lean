import Verif.Props.Structure

/-
C20, C21, C23, C29: what `solve_static` reports.

A history `pre` ends with the model in the state `w₀.api`; then come `assemble()`, any calls `mid` other than
`assemble()`, and `solve_static(c)` returning True.  `env` stands for scipy's sparse solver (assumed to solve non-singular systems,
`SolverSound`) and for the matrices delivered by the shell element code.
-/

namespace Hyperstatic
open Matrix Spec

/-- in a stable structure without ground springs some restraint is set -/
theorem stable_unambiguous {a : Api} (h : FreshInv a) {env : Env} (hsf : ShellsFree env a.model) {lc : LoadCase}
    (hst : Stable env a.model (governing a.model lc)) : Unambiguous a.model lc := by
  by_contra hu
  unfold Unambiguous at hu
  push Not at hu
  obtain ⟨h1, h2, n, f, r, hn, hf⟩ := hu
  have hg : governing a.model lc = lc.restraint := by
    unfold governing
    split
    · exact absurd (by assumption) h1
    · rfl
  have hresp : ∀ u, Respects (governing a.model lc) u := by
    rw [hg]
    intro u n f hn r hf
    exact absurd hf (h2 n f r hn)
  have hmem : n ∈ a.model.nodes.keys := h.rest_keys n (Dict.mem_keys_of_get? hn)
  have h0 : internalWork env a.model (fun _ => ![(1 : ℝ), 0, 0, 0, 0, 0]) (fun _ => ![(1 : ℝ), 0, 0, 0, 0, 0]) = 0 := by
    unfold internalWork
    rw [list_sum_const_zero, list_sum_const_zero, add_zero]
    · rintro ⟨s, se⟩ hm
      have hse := (Dict.mem_iff_get? h.shells_wf s se).mp hm
      have := hsf s se hse ⟨1, 0, 0⟩
      unfold shellInternal
      simp only at this ⊢
      rcases (h.shell_ok s se hse).1 with h4 | h3
      · rw [if_pos h4, this.1 h4, dotProduct_zero]
      · rw [if_neg (by omega), this.2 h3, dotProduct_zero]
    · rintro ⟨b, be⟩ hm
      have hb := (Dict.mem_iff_get? h.beams_wf b be).mp hm
      unfold beamInternal beamWork bendWork beamEnds localEnds
      simp [Spec.rot, V3.dot]
  have := congrFun (hst _ (hresp _) h0 n hmem) 0
  simp at this

/-! ### C20 solve_static returns the equilibrium configuration -/

/-- If the structure (at the time of `assemble()`) is stable under the restraints governing the case and `solve_static(c)` returns
True, then the displacements reported for its nodes respect these restraints and satisfy the principle of virtual work. -/
theorem C20_equilibrium (env : Env) (henv : env.SolverSound) (pre mid : List Call) (hpre : NoReadd env World.init pre)
    (hmid : ∀ k ∈ mid, k ≠ .assemble) (w₀ w₁ : World) (hw₀ : w₀ = World.init.run env pre)
    (hw₁ : w₁ = w₀.run env (.assemble :: mid)) (c : String) (lc : LoadCase) (hc : w₀.api.loadcases.get? c = some lc)
    (hss : ShellsSymm env w₀.api.model) (hsf : ShellsFree env w₀.api.model)
    (hst : Stable env w₀.api.model (governing w₀.api.model lc))
    (hret : (w₁.step env (.solveStatic c)).2 = true) :
    ∃ u : State,
      (∀ n ∈ w₀.getNodeNames, (w₁.step env (.solveStatic c)).1.resultGetNodalDisplacement n c = some (List.ofFn (u n))) ∧
      Respects (governing w₀.api.model lc) u ∧
      ∀ v, Respects (governing w₀.api.model lc) v →
        internalWork env w₀.api.model v u = externalWork w₀.api.model w₀.api.heap lc v := by
  have h := (FreshInv_run env pre hpre).1
  rw [← hw₀] at h
  obtain ⟨x, hx⟩ := h.toApiInv.assembly_ok
  have hasb : w₁.fs.get? Api.filename = some (.asb x) := by
    rw [hw₁, run_cons, asb_run env _ mid hmid, step_assemble env w₀ x hx]
    exact Dict.get?_set_same _ _ _
  have h0 : w₁.fs.get? "0.k" = none := by
    rw [hw₁, hw₀, ← run_append]; exact no0k_init env _
  obtain ⟨u, h1, h2, h3⟩ := solve_reported env henv h hx hasb h0 hc (stable_unambiguous h hsf hst) hst hret
  refine ⟨u, h1, h2, fun v hv => ?_⟩
  rw [← h3 v hv, symWork_eq h.toApiInv hss]

/-- And `solve_static(c)` does return True for a stable structure with a free component, if no beam has μ = -1 and the case
restrains existing nodes only. -/
theorem C20_succeeds (env : Env) (henv : env.SolverSound) (pre mid : List Call) (hpre : NoReadd env World.init pre)
    (hmid : ∀ k ∈ mid, k ≠ .assemble) (w₀ w₁ : World) (hw₀ : w₀ = World.init.run env pre)
    (hw₁ : w₁ = w₀.run env (.assemble :: mid)) (c : String) (lc : LoadCase) (hc : w₀.api.loadcases.get? c = some lc)
    (hsf : ShellsFree env w₀.api.model) (hst : Stable env w₀.api.model (governing w₀.api.model lc))
    (hmu : ∀ b be, w₀.api.model.beams.get? b = some be → muOf be.prop ≠ -1)
    (hk : ∀ n ∈ lc.restraint.keys, n ∈ w₀.getNodeNames)
    (hfree : ∃ n ∈ w₀.getNodeNames, ∃ r, ∀ f, (governing w₀.api.model lc).get? n = some f → f r = false) :
    (w₁.step env (.solveStatic c)).2 = true := by
  have h := (FreshInv_run env pre hpre).1
  rw [← hw₀] at h
  obtain ⟨x, hx⟩ := h.toApiInv.assembly_ok
  have hasb : w₁.fs.get? Api.filename = some (.asb x) := by
    rw [hw₁, run_cons, asb_run env _ mid hmid, step_assemble env w₀ x hx]
    exact Dict.get?_set_same _ _ _
  have h0 : w₁.fs.get? "0.k" = none := by
    rw [hw₁, hw₀, ← run_append]; exact no0k_init env _
  exact solve_succeeds env henv h hx hasb h0 hc (stable_unambiguous h hsf hst) hst hmu hk hfree

/-- The answer is the only one: two displacement states that respect the restraints and balance the same loads agree on all nodes. -/
theorem C20_unique (env : Env) (pre : List Call) (w₀ : World) (hw₀ : w₀ = World.init.run env pre)
    (hss : ShellsSymm env w₀.api.model) (t : Dict Flags) (hst : Stable env w₀.api.model t) (ext : State → ℝ) (u u' : State)
    (hu : Respects t u) (hu' : Respects t u')
    (h : ∀ v, Respects t v → internalWork env w₀.api.model v u = ext v)
    (h' : ∀ v, Respects t v → internalWork env w₀.api.model v u' = ext v) : ∀ n ∈ w₀.getNodeNames, u n = u' n := by
  have hA := (ApiInv_run env pre).1
  rw [← hw₀] at hA
  exact equilibrium_unique hst hu hu' (fun v hv => by rw [symWork_eq hA hss, symWork_eq hA hss, h v hv, h' v hv])

theorem demo_shellsFree (env : Env) (c : Csys) : ShellsFree env (demoModel c) := by
  intro s se h; simp [demoModel, FeModel.empty] at h

theorem demo_mu (c : Csys) : ∀ b be, (demoModel c).beams.get? b = some be → muOf be.prop ≠ -1 := by
  intro b be hb
  have hb' : (Dict.get? [("b", demoBeam c)] b) = some be := hb
  rw [Dict.get?] at hb'
  split at hb'
  · cases hb'; norm_num [muOf, demoBeam]
  · simp at hb'

/-- the cantilever: assembled, then edited, then solved; everything the theorems assume holds -/
theorem demo_solves (env : Env) (henv : env.SolverSound) (mid : List Call) (hmid : ∀ k ∈ mid, k ≠ .assemble) :
    (((World.init.run env demoCalls).run env (.assemble :: mid)).step env (.solveStatic "C")).2 = true := by
  obtain ⟨c, hc, hrun⟩ := demo_run env
  have hapi : (World.init.run env demoCalls).api = demoApi c := by rw [hrun]
  apply C20_succeeds env henv demoCalls mid (demo_noReadd env) hmid _ _ rfl rfl "C" demoCase
  · rw [hapi]; rfl
  · rw [hapi]; exact demo_shellsFree env c
  · rw [hapi]; exact demo_stable env hc
  · rw [hapi]; exact demo_mu c
  · intro n hn; simp [demoCase, Dict.keys] at hn
  · refine ⟨"B", ?_, 0, ?_⟩
    · unfold World.getNodeNames; rw [hapi]; simp [demoApi, demoModel, Dict.keys]
    · rw [hapi]
      intro f hf
      have : (Dict.get? [("A", fun _ => true)] "B" : Option Flags) = some f := hf
      simp [Dict.get?] at this

example : ∃ env : Env, env.SolverSound ∧ NoReadd env World.init demoCalls ∧
    (((World.init.run env demoCalls).run env (.assemble :: [.setNodalRestraint "B" (fun _ => true)])).step env
      (.solveStatic "C")).2 = true :=
  ⟨idealEnv, idealEnv_sound, demo_noReadd _, demo_solves _ idealEnv_sound _ (by simp)⟩

/-! ### C23 Results do not depend on the order of definition -/

theorem patternWork_same {m m' : FeModel} (hm : m.nodes.WF) (hm' : m'.nodes.WF) (hn : ∀ n, n ∈ m.nodes.keys ↔ n ∈ m'.nodes.keys)
    (hb : List.Perm m.beams m'.beams) {p p' : LoadPattern} (h : SameLoads p p') (v : State) :
    patternWork m p v = patternWork m' p' v := by
  have hk : List.Perm m.nodes.keys m'.nodes.keys := (List.perm_ext_iff_of_nodup hm hm').mpr hn
  have e : ∀ (m : FeModel) (p : LoadPattern), (m.nodes.map fun q => ((p.nodalLoad.get? q.1).getD 0) ⬝ᵥ v q.1) =
      m.nodes.keys.map fun n => ((p.nodalLoad.get? n).getD 0) ⬝ᵥ v n := by
    intro m p; unfold Dict.keys; rw [List.map_map]; rfl
  unfold patternWork
  rw [e, e, (hk.map _).sum_eq, (hb.map _).sum_eq]
  congr 2
  · apply List.map_congr_left
    intro n _
    rw [h.1 n]
  · apply List.map_congr_left
    intro q _
    unfold LoadPattern.getBeamF
    rw [h.2.1 q.1, h.2.2 q.1]

theorem externalWork_same {a a' : Api} (hA : ApiInv a) (hA' : ApiInv a') {c : String} {lc lc' : LoadCase}
    (h : SameStructure a a' c lc lc') (v : State) :
    externalWork a.model a.heap lc v = externalWork a'.model a'.heap lc' v := by
  have hl := hA.case_ok c lc h.case
  have hl' := hA'.case_ok c lc' h.case'
  have hcp : ∀ {a : Api} {lc : LoadCase}, CaseInv a.heap c lc → ∀ p φ q,
      casePattern a.heap lc p = some (φ, q) ↔ lc.loadFactor.get? p = some φ ∧ patOf a.heap lc p = some q := by
    intro a lc _ p φ q
    unfold casePattern patOf
    cases lc.loadFactor.get? p with
    | none => simp
    | some φ' =>
      cases lc.pattern.get? p with
      | none => simp
      | some r => simp only [Option.map_eq_some_iff, Prod.mk.injEq, Option.some.injEq]; constructor
                  · rintro ⟨q', h1, rfl, rfl⟩; exact ⟨rfl, h1⟩
                  · rintro ⟨rfl, h1⟩; exact ⟨q, h1, rfl, rfl⟩
  have hex : ∀ {a : Api} {lc : LoadCase}, CaseInv a.heap c lc → ∀ p φ, lc.loadFactor.get? p = some φ →
      ∃ q, casePattern a.heap lc p = some (φ, q) := by
    intro a lc hc p φ hp
    obtain ⟨r, pat, _, _, h3⟩ := hc.patOf ((Dict.mem_iff_get? hc.factor_wf p φ).mpr hp)
    exact ⟨pat, (hcp hc p φ pat).mpr ⟨hp, h3⟩⟩
  have hfac : ∀ p, lc.loadFactor.get? p = lc'.loadFactor.get? p := by
    intro p
    apply Option.ext
    intro φ
    constructor
    · intro hp
      obtain ⟨q, hq⟩ := hex hl p φ hp
      obtain ⟨q', hq', _⟩ := h.factors p φ q hq
      exact ((hcp hl' p φ q').mp hq').1
    · intro hp
      obtain ⟨q, hq⟩ := hex hl' p φ hp
      obtain ⟨q', hq', _⟩ := h.factors' p φ q hq
      exact ((hcp hl p φ q').mp hq').1
  have hperm := dict_perm hl.factor_wf hl'.factor_wf hfac
  unfold externalWork
  rw [hl.sum_patterns (fun q => q.2 * patternWork a.model q.1 v), hl'.sum_patterns (fun q => q.2 * patternWork a'.model q.1 v),
    (hperm.map _).sum_eq]
  congr 1
  apply List.map_congr_left
  rintro ⟨p, φ⟩ hm
  have hp' := (Dict.mem_iff_get? hl'.factor_wf p φ).mp hm
  obtain ⟨q', hq'⟩ := hex hl' p φ hp'
  obtain ⟨q, hq, hsame⟩ := h.factors' p φ q' hq'
  rw [((hcp hl p φ q).mp hq).2, ((hcp hl' p φ q').mp hq').2]
  simp only
  rw [patternWork_same hA.nodes_wf hA'.nodes_wf h.nodes (dict_perm hA.beams_wf hA'.beams_wf h.beams) hsame]

theorem governing_same {a a' : Api} {c : String} {lc lc' : LoadCase} (h : SameStructure a a' c lc lc') (n : String) :
    (governing a.model lc).get? n = (governing a'.model lc').get? n := by
  have hnil : ∀ {d d' : Dict Flags}, (∀ n, d.get? n = d'.get? n) → d = [] → d' = [] := by
    intro d d' hd e
    subst e
    cases d' with
    | nil => rfl
    | cons p ps =>
      have := hd p.1
      simp [Dict.get?] at this
  unfold governing
  cases hr : lc.restraint with
  | nil =>
    rw [hnil h.caseRestraints hr]
    exact h.restraints hr n
  | cons p ps =>
    cases hr' : lc'.restraint with
    | nil =>
      have := hnil (fun n => (h.caseRestraints n).symm) hr'
      rw [hr] at this; cases this
    | cons p' ps' =>
      have := h.caseRestraints n
      rwa [hr, hr'] at this

/-- Two histories whose models agree by name at the time of `assemble()`, followed by whatever calls other than `assemble()`: when
`solve_static(c)` returns True in both, the reported displacements of every node are the same. -/
theorem C23_order_independent (env : Env) (henv : env.SolverSound) (pre pre' mid mid' : List Call)
    (hpre : NoReadd env World.init pre) (hpre' : NoReadd env World.init pre')
    (hmid : ∀ k ∈ mid, k ≠ .assemble) (hmid' : ∀ k ∈ mid', k ≠ .assemble)
    (w₀ w₁ w₀' w₁' : World) (hw₀ : w₀ = World.init.run env pre) (hw₁ : w₁ = w₀.run env (.assemble :: mid))
    (hw₀' : w₀' = World.init.run env pre') (hw₁' : w₁' = w₀'.run env (.assemble :: mid'))
    (c : String) (lc lc' : LoadCase) (hsame : SameStructure w₀.api w₀'.api c lc lc')
    (hss : ShellsSymm env w₀.api.model) (hsf : ShellsFree env w₀.api.model)
    (hst : Stable env w₀.api.model (governing w₀.api.model lc))
    (hret : (w₁.step env (.solveStatic c)).2 = true) (hret' : (w₁'.step env (.solveStatic c)).2 = true) :
    ∀ n ∈ w₀.getNodeNames,
      (w₁.step env (.solveStatic c)).1.resultGetNodalDisplacement n c =
      (w₁'.step env (.solveStatic c)).1.resultGetNodalDisplacement n c ∧
      (w₁.step env (.solveStatic c)).1.resultGetNodalDisplacement n c ≠ none := by
  have hA := (ApiInv_run env pre).1
  have hA' := (ApiInv_run env pre').1
  rw [← hw₀] at hA
  rw [← hw₀'] at hA'
  have hiw : ∀ v u, internalWork env w₀.api.model v u = internalWork env w₀'.api.model v u := fun v u =>
    internalWork_perm env (dict_perm hA.beams_wf hA'.beams_wf hsame.beams) (dict_perm hA.shells_wf hA'.shells_wf hsame.shells) v u
  have hresp : ∀ u, Respects (governing w₀.api.model lc) u ↔ Respects (governing w₀'.api.model lc') u := by
    intro u
    unfold Respects
    simp only [governing_same hsame]
  have hst' : Stable env w₀'.api.model (governing w₀'.api.model lc') := by
    intro u hu h0 n hn
    exact hst u ((hresp u).mpr hu) ((hiw u u).trans h0) n ((hsame.nodes n).mpr hn)
  obtain ⟨u, h1, h2, h3⟩ := C20_equilibrium env henv pre mid hpre hmid w₀ w₁ hw₀ hw₁ c lc hsame.case hss hsf hst hret
  obtain ⟨u', h1', h2', h3'⟩ := C20_equilibrium env henv pre' mid' hpre' hmid' w₀' w₁' hw₀' hw₁' c lc' hsame.case'
    (fun s se hs => hss s se (by rw [hsame.shells]; exact hs)) (fun s se hs => hsf s se (by rw [hsame.shells]; exact hs)) hst' hret'
  have hu := C20_unique env pre w₀ hw₀ hss _ hst (externalWork w₀.api.model w₀.api.heap lc) u u' h2 ((hresp u').mpr h2') h3
    (fun v hv => by rw [hiw, h3' v ((hresp v).mp hv), externalWork_same hA hA' hsame])
  intro n hn
  refine ⟨?_, by rw [h1 n hn]; simp⟩
  rw [h1 n hn, h1' n ((hsame.nodes n).mp hn), hu n hn]

/-- the cantilever defined in two different orders: nodes are numbered differently, yet the results agree -/
example : ∃ env : Env, env.SolverSound ∧ ∃ c, World.init.run env demoCalls = ⟨demoApi c, []⟩ ∧
    World.init.run env demoCalls' = ⟨demoApi' c, []⟩ ∧ (demoApi c).model.hidNode ≠ (demoApi' c).model.hidNode ∧
    SameStructure (demoApi c) (demoApi' c) "C" demoCase demoCase ∧
    Stable env (demoApi c).model (governing (demoApi c).model demoCase) ∧
    (((World.init.run env demoCalls').run env [.assemble]).step env (.solveStatic "C")).2 = true := by
  refine ⟨idealEnv, idealEnv_sound, ?_⟩
  obtain ⟨c, hc, h⟩ := demo_run idealEnv
  have hst := demo_stable idealEnv hc
  refine ⟨c, h, demo_run' _ hc, ?_, demo_same c, hst, ?_⟩
  · intro e
    have := congrArg (fun d => Dict.get? d "A") e
    simp [demoApi, demoApi', demoModel, Dict.get?] at this
  · have hrun := demo_run' idealEnv hc
    have hapi : (World.init.run idealEnv demoCalls').api = demoApi' c := by rw [hrun]
    apply C20_succeeds idealEnv idealEnv_sound demoCalls' [] (demo_noReadd' _) (by simp) _ _ rfl rfl "C" demoCase
    · rw [hapi]; rfl
    · rw [hapi]; intro s se hs; exact demo_shellsFree idealEnv c s se hs
    · rw [hapi]
      intro u hu h0 n hn
      exact hst u hu h0 n (((demo_same c).nodes n).mpr hn)
    · rw [hapi]; exact demo_mu c
    · intro n hn; simp [demoCase, Dict.keys] at hn
    · refine ⟨"B", ?_, 0, ?_⟩
      · unfold World.getNodeNames; rw [hapi]; simp [demoApi', Dict.keys]
      · rw [hapi]
        intro f hf
        have : (Dict.get? [("A", fun _ => true)] "B" : Option Flags) = some f := hf
        simp [Dict.get?] at this

/-! ### C29 Superposition -/

/-- Case `c` holds the patterns `p` with factors `φ`; for every pattern `p` of it there is a case `g p` that holds only `p`, with
factor 1, under the same restraints.  If all are solved (each at any time after the same `assemble()`), the displacements of `c`
are the factored sum of those of the cases `g p`. -/
theorem C29_superposition (env : Env) (henv : env.SolverSound) (pre : List Call) (hpre : NoReadd env World.init pre)
    (w₀ : World) (hw₀ : w₀ = World.init.run env pre) (c : String) (lc : LoadCase) (hc : w₀.api.loadcases.get? c = some lc)
    (hss : ShellsSymm env w₀.api.model) (hsf : ShellsFree env w₀.api.model)
    (hst : Stable env w₀.api.model (governing w₀.api.model lc))
    (g : String → String) (lcg : String → LoadCase)
    (hg : ∀ p ∈ lc.loadFactor.keys, w₀.api.loadcases.get? (g p) = some (lcg p) ∧ (lcg p).loadFactor = [(p, 1)] ∧
      (lcg p).pattern.get? p = lc.pattern.get? p ∧
      ∀ n, (governing w₀.api.model (lcg p)).get? n = (governing w₀.api.model lc).get? n)
    (mid : List Call) (hmid : ∀ k ∈ mid, k ≠ .assemble) (midg : String → List Call) (hmidg : ∀ p, ∀ k ∈ midg p, k ≠ .assemble)
    (w : World) (hw : w = w₀.run env (.assemble :: mid))
    (wg : String → World) (hwg : ∀ p, wg p = w₀.run env (.assemble :: midg p))
    (hret : (w.step env (.solveStatic c)).2 = true)
    (hretg : ∀ p ∈ lc.loadFactor.keys, ((wg p).step env (.solveStatic (g p))).2 = true) :
    ∃ (u : State) (ug : String → State),
      (∀ n ∈ w₀.getNodeNames, (w.step env (.solveStatic c)).1.resultGetNodalDisplacement n c = some (List.ofFn (u n))) ∧
      (∀ p ∈ lc.loadFactor.keys, ∀ n ∈ w₀.getNodeNames,
        ((wg p).step env (.solveStatic (g p))).1.resultGetNodalDisplacement n (g p) = some (List.ofFn (ug p n))) ∧
      ∀ n ∈ w₀.getNodeNames, ∀ r, u n r = (lc.loadFactor.map fun q => q.2 * ug q.1 n r).sum := by
  have h := (FreshInv_run env pre hpre).1
  rw [← hw₀] at h
  have hA := h.toApiInv
  have hlc := hA.case_ok c lc hc
  obtain ⟨u, h1, h2, h3⟩ := C20_equilibrium env henv pre mid hpre hmid w₀ w hw₀ hw c lc hc hss hsf hst hret
  have hresp : ∀ p ∈ lc.loadFactor.keys, ∀ v, Respects (governing w₀.api.model (lcg p)) v ↔ Respects (governing w₀.api.model lc) v := by
    intro p hp v
    unfold Respects
    simp only [(hg p hp).2.2.2]
  have hpart : ∀ p, ∃ up : State, p ∈ lc.loadFactor.keys →
      (∀ n ∈ w₀.getNodeNames, ((wg p).step env (.solveStatic (g p))).1.resultGetNodalDisplacement n (g p) = some (List.ofFn (up n))) ∧
      Respects (governing w₀.api.model lc) up ∧
      ∀ v, Respects (governing w₀.api.model lc) v →
        internalWork env w₀.api.model v up = externalWork w₀.api.model w₀.api.heap (lcg p) v := by
    intro p
    by_cases hp : p ∈ lc.loadFactor.keys
    · have hst' : Stable env w₀.api.model (governing w₀.api.model (lcg p)) := fun u hu => hst u ((hresp p hp u).mp hu)
      obtain ⟨up, k1, k2, k3⟩ := C20_equilibrium env henv pre (midg p) hpre (hmidg p) w₀ (wg p) hw₀ (hwg p) (g p) (lcg p) (hg p hp).1
        hss hsf hst' (hretg p hp)
      exact ⟨up, fun _ => ⟨k1, (hresp p hp up).mp k2, fun v hv => k3 v ((hresp p hp v).mpr hv)⟩⟩
    · exact ⟨0, fun hp' => absurd hp' hp⟩
  choose ug hug using hpart
  refine ⟨u, ug, h1, fun p hp => (hug p hp).1, ?_⟩
  -- the factored sum is an equilibrium configuration
  let s : State := fun n r => (lc.loadFactor.map fun q => q.2 * ug q.1 n r).sum
  have hsum : ∀ (l : Dict ℝ), (∀ q ∈ l, q.1 ∈ lc.loadFactor.keys) →
      Respects (governing w₀.api.model lc) (fun n r => (l.map fun q => q.2 * ug q.1 n r).sum) ∧
      ∀ v, Respects (governing w₀.api.model lc) v →
        internalWork env w₀.api.model v (fun n r => (l.map fun q => q.2 * ug q.1 n r).sum) =
          (l.map fun q => q.2 * externalWork w₀.api.model w₀.api.heap (lcg q.1) v).sum := by
    intro l
    induction l with
    | nil =>
      intro _
      refine ⟨fun n f _ r _ => rfl, fun v _ => ?_⟩
      have := internalWork_lin env w₀.api.model 0 0 v 0 0
      simp only [zero_mul, add_zero, zero_smul] at this
      exact this
    | cons q l ih =>
      intro hq
      obtain ⟨i1, i2⟩ := ih (fun q' hq' => hq q' (List.mem_cons_of_mem _ hq'))
      have hk := hug q.1 (hq q List.mem_cons_self)
      have e : (fun n r => ((q :: l).map fun q => q.2 * ug q.1 n r).sum : State) =
          q.2 • ug q.1 + (1 : ℝ) • (fun n r => (l.map fun q => q.2 * ug q.1 n r).sum : State) := by
        funext n r
        simp
      rw [e]
      refine ⟨Respects.lin hk.2.1 i1 _ _, fun v hv => ?_⟩
      rw [internalWork_lin, i2 v hv, hk.2.2 v hv, List.map_cons, List.sum_cons, one_mul]
  obtain ⟨s1, s2⟩ := hsum lc.loadFactor (fun q hq => List.mem_map.mpr ⟨q, hq, rfl⟩)
  have hext : ∀ v, (lc.loadFactor.map fun q => q.2 * externalWork w₀.api.model w₀.api.heap (lcg q.1) v).sum =
      externalWork w₀.api.model w₀.api.heap lc v := by
    intro v
    unfold externalWork
    rw [hlc.sum_patterns (fun q => q.2 * patternWork w₀.api.model q.1 v)]
    congr 1
    apply List.map_congr_left
    rintro ⟨p, φ⟩ hm
    have hp : p ∈ lc.loadFactor.keys := List.mem_map.mpr ⟨_, hm, rfl⟩
    obtain ⟨k1, k2, k3, _⟩ := hg p hp
    rw [(hA.case_ok _ _ k1).sum_patterns (fun q => q.2 * patternWork w₀.api.model q.1 v), k2]
    obtain ⟨r, pat, e1, e2, e3⟩ := hlc.patOf hm
    have e4 : patOf w₀.api.heap (lcg p) p = some pat := by
      unfold patOf at e3 ⊢
      rw [k3]; exact e3
    simp only [List.map_cons, List.map_nil, List.sum_cons, List.sum_nil, add_zero, e3, e4, one_mul]
  have := C20_unique env pre w₀ hw₀ hss _ hst (externalWork w₀.api.model w₀.api.heap lc) u s h2 s1 h3
    (fun v hv => by rw [s2 v hv, hext])
  intro n hn r
  rw [this n hn]

/-- the cantilever with a nodal and a beam load, as one case and as two -/
example (env : Env) : ∃ c, World.init.run env demo2Calls = ⟨demo2Api c, []⟩ ∧ NoReadd env World.init demo2Calls ∧
    (demo2Api c).loadcases.get? "C" = some demo2Case ∧ demo2Case.loadFactor = [("P", 2), ("Q", 3)] ∧
    Stable env (demo2Api c).model (governing (demo2Api c).model demo2Case) ∧
    ∀ p ∈ demo2Case.loadFactor.keys, (demo2Api c).loadcases.get? ("C" ++ p) = some (if p = "P" then demo2CaseP else demo2CaseQ) ∧
      (if p = "P" then demo2CaseP else demo2CaseQ).loadFactor = [(p, 1)] ∧
      (if p = "P" then demo2CaseP else demo2CaseQ).pattern.get? p = demo2Case.pattern.get? p ∧
      ∀ n, (governing (demo2Api c).model (if p = "P" then demo2CaseP else demo2CaseQ)).get? n =
        (governing (demo2Api c).model demo2Case).get? n := by
  obtain ⟨c, hc, h⟩ := demo2_run env
  refine ⟨c, h, demo2_noReadd env, rfl, rfl, demo_stable env hc, ?_⟩
  intro p hp
  have : p = "P" ∨ p = "Q" := by simpa [demo2Case, Dict.keys] using hp
  rcases this with rfl | rfl
  · exact ⟨rfl, rfl, rfl, fun _ => rfl⟩
  · exact ⟨rfl, rfl, rfl, fun _ => rfl⟩

end Hyperstatic
