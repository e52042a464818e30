import Verif.Props.Solve

/-
C21: case restraints override the global ones.
-/

namespace Hyperstatic
open Matrix Spec

/-- The property as stated: with restraints of its own, a case is solved with exactly these; what `solve_static` reports is then an
equilibrium configuration under the case's own restraints.  -/
def C21_claim : Prop :=
  ∀ (env : Env), env.SolverSound → (∀ n A b x, env.spsolve n A b = .ok x → A *ᵥ x = b) →
  ∀ pre : List Call, NoReadd env World.init pre → ∀ (c : String) (lc : LoadCase),
    (World.init.run env pre).api.loadcases.get? c = some lc → lc.restraint ≠ [] →
    ShellsSymm env (World.init.run env pre).api.model → ShellsFree env (World.init.run env pre).api.model →
    (((World.init.run env pre).run env [.assemble]).step env (.solveStatic c)).2 = true →
    ∀ u : State, (∀ n ∈ (World.init.run env pre).getNodeNames,
        (((World.init.run env pre).run env [.assemble]).step env (.solveStatic c)).1.resultGetNodalDisplacement n c =
          some (List.ofFn (u n))) →
      Respects lc.restraint u ∧ ∀ v, Respects lc.restraint v →
        internalWork env (World.init.run env pre).api.model v u =
          externalWork (World.init.run env pre).api.model (World.init.run env pre).api.heap lc v

/-- a solver that solves every solvable system, and prefers a translation along the first axis whenever that is a solution -/
noncomputable def driftEnv : Env where
  triaK := fun _ => 0
  quadK := fun _ => 0
  spsolve := fun n A b => open Classical in
    if A *ᵥ (fun k : Fin n => if k.val % 6 = 0 then (1 : ℝ) else 0) = b then .ok (fun k : Fin n => if k.val % 6 = 0 then (1 : ℝ) else 0)
    else if h : ∃ x, A *ᵥ x = b then .ok h.choose else .error .exception

theorem driftEnv_exact (n : ℕ) (A : Matrix (Fin n) (Fin n) ℝ) (b x : Vec n) (h : driftEnv.spsolve n A b = .ok x) : A *ᵥ x = b := by
  unfold driftEnv at h
  simp only at h
  split at h
  · rename_i h1; cases h; exact h1
  · split at h
    · rename_i h2; cases h; exact h2.choose_spec
    · cases h

theorem driftEnv_sound : driftEnv.SolverSound := by
  intro n A b hn hinj
  obtain ⟨y, hy1, hy2⟩ := idealEnv_sound n A b hn hinj
  unfold driftEnv
  simp only
  split
  · rename_i h1; exact ⟨_, rfl, h1⟩
  · have hex : ∃ x, A *ᵥ x = b := ⟨y, hy2⟩
    rw [dif_pos hex]
    exact ⟨_, rfl, hex.choose_spec⟩

/-- the cantilever, with the case "C" without loads and with an own restraint table that restrains nothing -/
def freeCalls : List Call :=
  [.addNode "A" 0 0 0, .addNode "B" 1 2 3, .addSimpleBeam "b" "A" "B" 1 0 1 1 1 1 1, .setNodalRestraint "A" (fun _ => true),
    .addStaticCase "C", .setLoadcaseNodalRestraint "C" "A" (fun _ => false)]

def freeCase : LoadCase := ⟨"C", .static, [], [], [], [("A", fun _ => false)]⟩

def freeApi (c : Csys) : Api where
  model := demoModel c
  loadcases := [("C", freeCase)]
  loadpatterns := []
  heap := []

theorem free_run (env : Env) {c : Csys} (hc : lineCsys ⟨0, 0, 0⟩ ⟨1, 2, 3⟩ = .ok c) :
    World.init.run env freeCalls = ⟨freeApi c, []⟩ := by
  unfold freeCalls
  rw [run_cons, step_addNode, run_cons, step_addNode, run_cons,
    step_addSimpleBeam_of env _ _ _ _ _ _ _ _ _ _ _ _ _ _ rfl rfl (demo_mk hc),
    run_cons, step_setNodalRestraint, run_cons, step_addStaticCase, run_cons,
    step_of_edit env _ (.setLoadcaseNodalRestraint "C" "A" (fun _ => false)) (freeApi c) rfl
      (by exact ⟨LoadCase.new "C" .static, rfl, rfl⟩), run_nil]
  rfl

theorem free_noReadd (env : Env) : NoReadd env World.init freeCalls := by
  unfold freeCalls NoReadd
  simp only [AllCalls, and_true]
  refine ⟨?_, ?_, ?_, ?_, ?_, ?_⟩
  · intro n x y z _; simp [World.getNodeNames, World.init, Api.init, FeModel.empty, Dict.keys]
  · intro n x y z h
    cases h
    rw [step_addNode]
    simp [World.getNodeNames, World.init, Api.init, FeModel.empty, Dict.keys, Dict.set]
  all_goals (intro n x y z h; cases h)

theorem expand_free : expandDisp 2 [0, 1, 2, 3, 4, 5] ((List.range 12).map fun k => if k % 6 = 0 then (1 : ℝ) else 0) =
    .ok [0, 0, 0, 0, 0, 0, 1, 0, 0, 0, 0, 0] := by
  unfold expandDisp
  have : ([0, 1, 2, 3, 4, 5] : List ℕ).mergeSort (fun a b => decide (a ≤ b)) = [0, 1, 2, 3, 4, 5] :=
    List.mergeSort_of_pairwise (by decide)
  rw [this]
  rfl

/-- what the solver reports for the free case: the displacements of the two nodes are mixed up -/
theorem free_solution : ∃ c, lineCsys ⟨0, 0, 0⟩ ⟨1, 2, 3⟩ = .ok c ∧ World.init.run driftEnv freeCalls = ⟨freeApi c, []⟩ ∧
    (((World.init.run driftEnv freeCalls).run driftEnv [.assemble]).step driftEnv (.solveStatic "C")).2 = true ∧
    (((World.init.run driftEnv freeCalls).run driftEnv [.assemble]).step driftEnv (.solveStatic "C")).1.resultGetNodalDisplacement
      "A" "C" = some [0, 0, 0, 0, 0, 0] ∧
    (((World.init.run driftEnv freeCalls).run driftEnv [.assemble]).step driftEnv (.solveStatic "C")).1.resultGetNodalDisplacement
      "B" "C" = some [1, 0, 0, 0, 0, 0] := by
  obtain ⟨c, hc⟩ := demo_csys
  have hrun := free_run driftEnv hc
  have hF : FreshInv (freeApi c) := by
    have := (FreshInv_run driftEnv freeCalls (free_noReadd _)).1
    rwa [hrun] at this
  have hA := hF.toApiInv
  obtain ⟨x, hx⟩ := hA.assembly_ok
  obtain ⟨hm, hheap, hcases, hfix, _⟩ := hA.assembly_eq hx
  have hcase : x.cases.get? "C" = some freeCase := by rw [hcases]; rfl
  have hlc : CaseInv x.heap "C" freeCase := by rw [hheap]; exact hA.case_ok "C" freeCase rfl
  obtain ⟨K, hK⟩ := (assembleK_ok_iff driftEnv hF hm).mpr (demo_mu c)
  obtain ⟨f, hf⟩ := assembleF_ok hF hm hcase hlc (t := 0) (by decide) (demo_mu c)
  obtain ⟨fr, fc, fents⟩ := assembleF_shape hf
  rw [hm] at fr
  have ht : restraintDofs (freeApi c).model freeCase.restraint = .ok [] := by
    rw [restraintDofs_eq hA (by intro n hn; simp only [freeCase, Dict.keys, List.map_cons, List.map_nil, List.mem_singleton] at hn; subst hn; simp [freeApi, demoModel, Dict.keys])]
    rfl
  have hb : x.boundaryDofs "C" = .ok [] := by
    unfold Assembly.boundaryDofs
    rw [Dict.getItem_of_some hcase, Except.bind_ok, hm]
    exact ht
  have hfix' : restraintDofs (freeApi c).model (freeApi c).model.restraints = .ok [0, 1, 2, 3, 4, 5] := by
    rw [restraintDofs_eq hA hA.rest_keys]
    rfl
  have hr : solverRestraints x "C" = .ok [0, 1, 2, 3, 4, 5] := by
    unfold solverRestraints Assembly.restraintDOF
    simp only [Dict.getItem_of_some hcase, Except.bind_ok, hm]
    rw [ht, Except.bind_ok]
    simpa using hfix'
  obtain ⟨K', hK', hlen, hform⟩ := reduced_case driftEnv hF hm hK (t := freeCase.restraint) hlc.rest_wf ht
  have hN : (freeApi c).model.nodeCount = 2 := rfl
  have hfree : ∀ N, free N [] = List.range N := by intro N; unfold free; simp
  have h12 : K'.nrow = 12 := by rw [hlen, hN, hfree]; simp
  have hflen : (Assembly.dropVectorDof f []).length = K'.nrow := by
    rw [dropVector_eq, List.length_map, fr, hlen]
  have hf0 : ∀ i, f.get i 0 = 0 := by
    intro i
    have h1 := Coo.get_eq_bil f i 0
    have h2 : bil f.ents (fun k => if k = i then 1 else 0) (fun k => if k = 0 then 1 else 0) =
        bil f.ents (fun k => if k = i then 1 else 0) (fun _ => 1) := by
      unfold bil
      congr 1
      apply List.map_congr_left
      intro e he
      have := (fents e he).2
      rw [fc] at this
      have e0 : e.2.1 = 0 := by omega
      simp [e0]
    rw [h1, h2, assembleF_bil hA hm hcase hlc (by decide) hf]
    rfl
  -- the translation solves the system
  have hU : ∀ V : ℕ → ℝ, symWork driftEnv (freeApi c).model (gat (freeApi c).model V)
      (gat (freeApi c).model (fun k => if k % 6 = 0 then (1 : ℝ) else 0)) = 0 := by
    intro V
    rw [symWork_eq hA (demo_shells driftEnv c)]
    have hg : ∀ n ∈ (freeApi c).model.nodes.keys, gat (freeApi c).model (fun k => if k % 6 = 0 then (1 : ℝ) else 0) n =
        rigidState (World.getNodeLocation ⟨freeApi c, []⟩) ⟨1, 0, 0⟩ ⟨0, 0, 0⟩ n := by
      intro n hn
      have : n = "A" ∨ n = "B" := by simpa [freeApi, demoModel, Dict.keys] using hn
      funext r
      unfold gat rigidState
      have e1 : World.getNodeLocation ⟨freeApi c, []⟩ "A" = some ⟨0, 0, 0⟩ := rfl
      have e2 : World.getNodeLocation ⟨freeApi c, []⟩ "B" = some ⟨1, 2, 3⟩ := rfl
      rcases this with rfl | rfl
      · rw [e1]
        have : hidOf (freeApi c).model "A" = 0 := rfl
        rw [this]
        fin_cases r <;> simp [V3.cross, V3.add_def]
      · rw [e2]
        have : hidOf (freeApi c).model "B" = 1 := rfl
        rw [this]
        fin_cases r <;> simp [V3.cross, V3.add_def]
    rw [internalWork_congr driftEnv hA (fun _ _ => rfl) hg]
    exact rigid_work hF driftEnv rfl [] _ _ _
  have hfd : ∀ k, k < 12 → fdof ((freeApi c).model.nodeCount * 6) [] k = k := by
    intro k hk
    unfold fdof
    rw [hfree, hN, List.getD_eq_getElem?_getD]
    simp [hk]
  have hsol : symmetrised K' *ᵥ (fun k : Fin K'.nrow => if k.val % 6 = 0 then (1 : ℝ) else 0) =
      fun i => (Assembly.dropVectorDof f [])[i.val]'(by rw [hflen]; exact i.isLt) := by
    have hz : symmetrised K' *ᵥ (fun k : Fin K'.nrow => if k.val % 6 = 0 then (1 : ℝ) else 0) = 0 := by
      funext i
      obtain ⟨V, hV, hVe⟩ := exists_extension ((freeApi c).model.nodeCount * 6) [] hlen (Pi.single i 1)
      have := hform V (fun k => if k % 6 = 0 then (1 : ℝ) else 0) hV (by simp)
      rw [← hVe, single_one_dotProduct, hU] at this
      have e : (fun k : Fin K'.nrow => if fdof ((freeApi c).model.nodeCount * 6) [] k.val % 6 = 0 then (1 : ℝ) else 0) =
          fun k : Fin K'.nrow => if k.val % 6 = 0 then (1 : ℝ) else 0 := by
        funext k
        rw [hfd k.val (h12 ▸ k.isLt)]
      rw [e] at this
      exact this
    rw [hz]
    funext i
    simp only [dropVector_eq, List.getElem_map, hf0, Pi.zero_apply]
  have hspsolve : driftEnv.spsolve K'.nrow (symmetrised K')
      (fun i => (Assembly.dropVectorDof f [])[i.val]'(by rw [hflen]; exact i.isLt)) =
      .ok (fun k : Fin K'.nrow => if k.val % 6 = 0 then (1 : ℝ) else 0) := by
    unfold driftEnv
    exact if_pos hsol
  have hof : List.ofFn (fun k : Fin K'.nrow => if k.val % 6 = 0 then (1 : ℝ) else 0) =
      (List.range 12).map fun k => if k % 6 = 0 then (1 : ℝ) else 0 := by
    rw [List.ofFn_eq_map, ← h12, ← List.map_coe_finRange_eq_range, List.map_map]
    rfl
  have hsc : solveCase driftEnv x "C" K = .ok [0, 0, 0, 0, 0, 0, 1, 0, 0, 0, 0, 0] := by
    unfold solveCase
    rw [hf, Except.bind_ok]
    unfold Assembly.boundaryMatrix Assembly.boundaryVector
    rw [hb, Except.bind_ok, hK', Except.bind_ok, Except.bind_ok, Except.pure_eq_ok, Except.bind_ok, dif_pos hflen, hspsolve,
      Except.bind_ok, hr, Except.bind_ok, hm, hof]
    exact expand_free
  have hasm : (World.init.run driftEnv freeCalls).run driftEnv [.assemble] = ⟨freeApi c, [(".asb", .asb x)]⟩ := by
    rw [hrun, run_cons, step_assemble driftEnv ⟨freeApi c, []⟩ x hx, run_nil]
    rfl
  refine ⟨c, hc, hrun, ?_, ?_, ?_⟩
  · rw [hasm, solveStatic_eq driftEnv (x := x) rfl rfl, hK]
    simp only [hsc]
  · rw [hasm, solveStatic_eq driftEnv (x := x) rfl rfl, hK]
    simp only [hsc]
    refine (reported driftEnv (w := ⟨freeApi c, [(".asb", .asb x)]⟩) (x := x) rfl _ _ _ _).trans ?_
    rw [hm]
    rfl
  · rw [hasm, solveStatic_eq driftEnv (x := x) rfl rfl, hK]
    simp only [hsc]
    refine (reported driftEnv (w := ⟨freeApi c, [(".asb", .asb x)]⟩) (x := x) rfl _ _ _ _).trans ?_
    rw [hm]
    rfl

/-- The property is false: when the case's own table sets no flag, the system is solved without any restraint but the solution is
expanded with the global restraints; the reported displacements (node A at rest, B moved by what the solver computed for A) are not
in equilibrium, although the solver solved the system exactly. -/
theorem C21_false : ¬ C21_claim := by
  intro hclaim
  obtain ⟨c, hc, hrun, hret, hA, hB⟩ := free_solution
  have hapi : (World.init.run driftEnv freeCalls).api = freeApi c := by rw [hrun]
  have h := hclaim driftEnv driftEnv_sound driftEnv_exact freeCalls (free_noReadd _) "C" freeCase (by rw [hapi]; rfl)
    (by simp [freeCase]) (by rw [hapi]; exact demo_shells _ c) (by rw [hapi]; exact demo_shellsFree _ c) hret
    (fun n => if n = "B" then ![1, 0, 0, 0, 0, 0] else 0) (by
      intro n hn
      have : n = "A" ∨ n = "B" := by
        unfold World.getNodeNames at hn
        rw [hapi] at hn
        simpa [freeApi, demoModel, Dict.keys] using hn
      rcases this with rfl | rfl
      · rw [hA]; simp [List.ofFn_succ]
      · rw [hB]; simp [List.ofFn_succ])
  have h0 := h.2 (fun n => if n = "B" then ![1, 0, 0, 0, 0, 0] else 0) (by
    intro n f hn r hf
    have : (Dict.get? [("A", fun _ => false)] n : Option Flags) = some f := hn
    rw [Dict.get?] at this
    split at this
    · cases this; simp at hf
    · simp at this)
  rw [hapi] at h0
  have hz := demo_stable driftEnv hc (fun n => if n = "B" then ![1, 0, 0, 0, 0, 0] else 0) (by
    intro n f hn r hf
    have : (Dict.get? [("A", fun _ => true)] n : Option Flags) = some f := hn
    rw [Dict.get?] at this
    split at this
    · rename_i e; subst e; simp
    · simp at this) h0 "B" (by simp [demoModel, Dict.keys])
  have := congrFun hz 0
  simp at this

/-- Where it holds: a structure that is stable under the case's own restraints (necessarily with a flag set) is solved with exactly these:
reported displacements vanish at the flags of the case, and the balance holds for every virtual displacement
that respects the flags of the case, whatever the global table says about the other components. -/
theorem C21_own_partial (env : Env) (henv : env.SolverSound) (pre mid : List Call) (hpre : NoReadd env World.init pre)
    (hmid : ∀ k ∈ mid, k ≠ .assemble) (w₀ w₁ : World) (hw₀ : w₀ = World.init.run env pre)
    (hw₁ : w₁ = w₀.run env (.assemble :: mid)) (c : String) (lc : LoadCase) (hc : w₀.api.loadcases.get? c = some lc)
    (hown : lc.restraint ≠ []) (hss : ShellsSymm env w₀.api.model) (hsf : ShellsFree env w₀.api.model)
    (hst : Stable env w₀.api.model lc.restraint) (hret : (w₁.step env (.solveStatic c)).2 = true) :
    w₀.getNodeRestraints (some c) = some lc.restraint ∧
    ∃ u : State,
      (∀ n ∈ w₀.getNodeNames, (w₁.step env (.solveStatic c)).1.resultGetNodalDisplacement n c = some (List.ofFn (u n))) ∧
      Respects lc.restraint u ∧
      ∀ v, Respects lc.restraint v →
        internalWork env w₀.api.model v u = externalWork w₀.api.model w₀.api.heap lc v := by
  have hg : governing w₀.api.model lc = lc.restraint := by
    unfold governing
    split
    · exact absurd (by assumption) hown
    · rfl
  refine ⟨?_, ?_⟩
  · unfold World.getNodeRestraints
    simp only [Dict.getItem_of_some hc, Except.bind_ok]
    rfl
  · have := C20_equilibrium env henv pre mid hpre hmid w₀ w₁ hw₀ hw₁ c lc hc hss hsf (by rw [hg]; exact hst) hret
    rwa [hg] at this

/-- A case without restraints of its own is solved with the global ones. -/
theorem C21_global_partial (env : Env) (henv : env.SolverSound) (pre mid : List Call) (hpre : NoReadd env World.init pre)
    (hmid : ∀ k ∈ mid, k ≠ .assemble) (w₀ w₁ : World) (hw₀ : w₀ = World.init.run env pre)
    (hw₁ : w₁ = w₀.run env (.assemble :: mid)) (c : String) (lc : LoadCase) (hc : w₀.api.loadcases.get? c = some lc)
    (hown : lc.restraint = []) (hss : ShellsSymm env w₀.api.model) (hsf : ShellsFree env w₀.api.model) (t : Dict Flags)
    (ht : w₀.getNodeRestraints none = some t) (hst : Stable env w₀.api.model t) (hret : (w₁.step env (.solveStatic c)).2 = true) :
    ∃ u : State,
      (∀ n ∈ w₀.getNodeNames, (w₁.step env (.solveStatic c)).1.resultGetNodalDisplacement n c = some (List.ofFn (u n))) ∧
      Respects t u ∧
      ∀ v, Respects t v → internalWork env w₀.api.model v u = externalWork w₀.api.model w₀.api.heap lc v := by
  have ht' : w₀.api.model.restraints = t := Option.some.inj ht
  have hg : governing w₀.api.model lc = t := by
    unfold governing
    rw [hown]
    exact ht'
  have := C20_equilibrium env henv pre mid hpre hmid w₀ w₁ hw₀ hw₁ c lc hc hss hsf (by rw [hg]; exact hst) hret
  rwa [hg] at this

/-- For stable structures the global table has no influence on a case with restraints of its own: two histories that agree up to the
global restraints report the same. -/
theorem C21_global_irrelevant_partial (env : Env) (henv : env.SolverSound) (pre pre' mid mid' : List Call)
    (hpre : NoReadd env World.init pre) (hpre' : NoReadd env World.init pre')
    (hmid : ∀ k ∈ mid, k ≠ .assemble) (hmid' : ∀ k ∈ mid', k ≠ .assemble)
    (w₀ w₁ w₀' w₁' : World) (hw₀ : w₀ = World.init.run env pre) (hw₁ : w₁ = w₀.run env (.assemble :: mid))
    (hw₀' : w₀' = World.init.run env pre') (hw₁' : w₁' = w₀'.run env (.assemble :: mid'))
    (c : String) (lc : LoadCase) (hc : w₀.api.loadcases.get? c = some lc) (hc' : w₀'.api.loadcases.get? c = some lc)
    (hown : lc.restraint ≠ []) (hnodes : w₀.api.model.nodes = w₀'.api.model.nodes) (hbeams : w₀.api.model.beams = w₀'.api.model.beams)
    (hshells : w₀.api.model.shells = w₀'.api.model.shells) (hheap : w₀.api.heap = w₀'.api.heap)
    (hss : ShellsSymm env w₀.api.model) (hsf : ShellsFree env w₀.api.model)
    (hst : Stable env w₀.api.model lc.restraint)
    (hret : (w₁.step env (.solveStatic c)).2 = true) (hret' : (w₁'.step env (.solveStatic c)).2 = true) (n : String)
    (hn : n ∈ w₀.getNodeNames) :
    (w₁.step env (.solveStatic c)).1.resultGetNodalDisplacement n c =
      (w₁'.step env (.solveStatic c)).1.resultGetNodalDisplacement n c := by
  have hg : governing w₀.api.model lc = lc.restraint := by
    unfold governing
    split
    · exact absurd (by assumption) hown
    · rfl
  refine (C23_order_independent env henv pre pre' mid mid' hpre hpre' hmid hmid' w₀ w₁ w₀' w₁' hw₀ hw₁ hw₀' hw₁' c lc lc ?_ hss hsf
    (by rw [hg]; exact hst) hret hret' n hn).1
  exact
    { nodes := fun n => by rw [hnodes]
      beams := fun b => by rw [hbeams]
      shells := fun s => by rw [hshells]
      restraints := fun e => absurd e hown
      case := hc
      case' := hc'
      caseRestraints := fun _ => rfl
      factors := fun p φ q h => ⟨q, hheap ▸ h, fun _ => rfl, fun _ => rfl, fun _ => rfl⟩
      factors' := fun p φ q h => ⟨q, hheap ▸ h, fun _ => rfl, fun _ => rfl, fun _ => rfl⟩ }

/-- a case with its own stable restraints while the global table is empty: the cantilever clamped by the case only -/
example (env : Env) {c : Csys} (hc : lineCsys ⟨0, 0, 0⟩ ⟨1, 2, 3⟩ = .ok c) :
    ∃ lc : LoadCase, (World.init.run env [.addNode "A" 0 0 0, .addNode "B" 1 2 3, .addSimpleBeam "b" "A" "B" 1 0 1 1 1 1 1,
        .addStaticCase "C", .setLoadcaseNodalRestraint "C" "A" (fun _ => true)]).api.loadcases.get? "C" = some lc ∧
      lc.restraint = [("A", fun _ => true)] ∧ Stable env (demoModel c) lc.restraint := by
  refine ⟨⟨"C", .static, [], [], [], [("A", fun _ => true)]⟩, ?_, rfl, demo_stable env hc⟩
  rw [run_cons, step_addNode, run_cons, step_addNode, run_cons,
    step_addSimpleBeam_of env _ _ _ _ _ _ _ _ _ _ _ _ _ _ rfl rfl (demo_mk hc), run_cons, step_addStaticCase, run_cons,
    step_of_edit env _ (.setLoadcaseNodalRestraint "C" "A" (fun _ => true)) _ rfl
      (by exact ⟨LoadCase.new "C" .static, rfl, rfl⟩), run_nil]
  rfl

end Hyperstatic
