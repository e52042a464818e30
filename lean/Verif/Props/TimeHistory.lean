import Verif.Props.Modal
import Mathlib.LinearAlgebra.FiniteDimensional.Basic

/-
C58, C59: direct time integration.
-/

namespace Hyperstatic
open Matrix Spec

/-! ### C58 Direct time integration satisfies the central-difference equation -/

theorem solveDirect_ok {A : Type} {env : Env} {dyn : DynEnv} {fs fs' : Dict (File A)} {filename c : String} {s : DirectSetting} {x : Assembly}
    (hfs : openAssembly fs filename = .ok x) (h : solveDirect env dyn fs filename c s = (fs', .ok ())) :
    ∃ lc K M K_ M_ C_ u, x.cases.get? c = some lc ∧ x.assembleK env = .ok K ∧ x.assembleM = .ok M ∧
      x.boundaryMatrix c K = .ok K_ ∧ x.boundaryMatrix c M = .ok M_ ∧ x.boundaryMatrix c (rayleighC K M) = .ok C_ ∧
      centralDifference dyn x c K_.nrow (K_.dense _) (M_.dense _) (C_.dense _) s.stepSize = .ok u ∧
      fs'.get? (c ++ ".d" ++ ".npy") = some (.rows (u.map List.ofFn)) := by
  unfold solveDirect at h
  rw [hfs] at h
  simp only at h
  split at h
  · simp at h
  · rename_i base hbase
    simp only [Except.bind_ok_iff] at hbase
    obtain ⟨lc, hlc, hb⟩ := hbase
    unfold caseOfKind at hlc
    simp only [Except.bind_ok_iff] at hlc
    obtain ⟨lc', hlc', -⟩ := hlc
    split at h
    · simp at h
    · rename_i fs1 K hK
      split at h
      · simp at h
      · rename_i fs2 M hM
        split at h
        · simp at h
        · rename_i l hl
          obtain ⟨h1, rfl⟩ := cacheMatrix_ok hK
          obtain ⟨h2, rfl⟩ := cacheMatrix_ok hM
          simp only [Except.bind_ok_iff, Except.pure_eq_ok, Except.ok.injEq] at hl
          obtain ⟨K_, h3, M_, h4, C_, h5, u, h6, rfl⟩ := hl
          simp only [Prod.mk.injEq, and_true] at h
          subst h
          exact ⟨lc', K, M, K_, M_, C_, u, (Dict.getItem_eq_ok_iff _ _ _).mp hlc', h1, h2, h3, h4, h5, h6, Dict.get?_set_same _ _ _⟩

theorem range_fold {α : Type} (f : α → ℕ → Except PyErr α) (a b : α) (T : ℕ) : (List.range (T + 1)).foldlM f a = .ok b ↔
    ∃ a', (List.range T).foldlM f a = .ok a' ∧ f a' T = .ok b := by
  rw [List.range_succ, List.foldlM_append, Except.bind_ok_iff]
  simp

/-- the loop -/
theorem central_loop (dyn : DynEnv) (x : Assembly) (c : String) (n : ℕ) (K M C : Matrix (Fin n) (Fin n) ℝ) (dt : ℝ) (T : ℕ) (u : List (Vec n))
    (h : (List.range T).foldlM (centralStep dyn x c n K M C dt) [0, 0] = .ok u) :
    u.length = T + 2 ∧ u.getD 0 0 = 0 ∧ u.getD 1 0 = 0 ∧ ∀ t < T, n = 6 ∧ ∃ f f_, x.assembleF c t = .ok f ∧ x.boundaryVector c f = .ok f_ ∧
      ∃ fv : Vec n, List.ofFn fv = f_ ∧
      u.getD (t + 2) 0 = dyn.cg n ((1 / dt / dt) • M + (1 / 2 / dt) • C)
        (fv - (K - (2 * (1 / dt / dt)) • M) *ᵥ u.getD t 0 - ((1 / dt / dt) • M - (1 / 2 / dt) • C) *ᵥ u.getD (t - 1) 0) := by
  induction T generalizing u with
  | zero =>
    simp only [List.range_zero, List.foldlM_nil, Except.pure_eq_ok, Except.ok.injEq] at h
    subst h
    exact ⟨rfl, rfl, rfl, fun t ht => absurd ht (by omega)⟩
  | succ T ih =>
    rw [range_fold] at h
    obtain ⟨u', h1, h2⟩ := h
    obtain ⟨l, z0, z1, hs⟩ := ih u' h1
    unfold centralStep at h2
    simp only [Except.bind_ok_iff] at h2
    obtain ⟨f, hf, f_, hf_, h2⟩ := h2
    split at h2
    · rename_i hlen
      simp only [Except.pure_eq_ok, Except.ok.injEq] at h2
      have hpre : ∀ i, i < T + 2 → u.getD i 0 = u'.getD i 0 := by
        intro i hi
        rw [← h2]
        simp [List.getElem?_append, l, hi]
      have hprev : prevRow u' T = u.getD (T - 1) 0 := by
        rw [hpre _ (by omega)]
        unfold prevRow
        split
        · rename_i hT
          subst hT
          simp only [List.range_zero, List.foldlM_nil, Except.pure_eq_ok, Except.ok.injEq] at h1
          rw [← h1]
          rfl
        · rfl
      refine ⟨by rw [← h2, List.length_append, l]; rfl, by rw [hpre _ (by omega), z0], by rw [hpre _ (by omega), z1], ?_⟩
      intro t ht
      by_cases htT : t = T
      · subst htT
        refine ⟨hlen.2, f, f_, hf, hf_, fun i => f_[i.val]'(by have := i.isLt; omega), ?_, ?_⟩
        · apply List.ext_getElem
          · simp [hlen.1, hlen.2]
          · intro i _ _
            simp
        · rw [hpre t (by omega), ← hprev]
          conv_lhs => rw [← h2]
          have : (u' ++ [dyn.cg n ((1 / dt / dt) • M + (1 / 2 / dt) • C)
            ((fun i : Fin n => f_[i.val]'(by have := i.isLt; omega)) - (K - (2 * (1 / dt / dt)) • M) *ᵥ u'.getD t 0 -
              ((1 / dt / dt) • M - (1 / 2 / dt) • C) *ᵥ prevRow u' t)])[t + 2]? = some (dyn.cg n ((1 / dt / dt) • M + (1 / 2 / dt) • C)
            ((fun i : Fin n => f_[i.val]'(by have := i.isLt; omega)) - (K - (2 * (1 / dt / dt)) • M) *ᵥ u'.getD t 0 -
              ((1 / dt / dt) • M - (1 / 2 / dt) • C) *ᵥ prevRow u' t)) := by
            rw [List.getElem?_append_right (by omega), l]
            simp
          rw [List.getD_eq_getElem?_getD, this]
          rfl
      · have ht' : t < T := by omega
        obtain ⟨hn, f, f_, g1, g2, fv, g3, g4⟩ := hs t ht'
        refine ⟨hn, f, f_, g1, g2, fv, g3, ?_⟩
        rw [hpre _ (by omega), hpre _ (by omega), hpre _ (by omega)]
        exact g4
    · cases h2

theorem cg_exact {dyn : DynEnv} (h : dyn.CgSound) {n : ℕ} {A : Matrix (Fin n) (Fin n) ℝ} (hinj : ∀ z, A *ᵥ z = 0 → z = 0) (b : Vec n) :
    A *ᵥ dyn.cg n A b = b := by
  apply h
  have hi : Function.Injective (Matrix.mulVecLin A) := by
    rw [← LinearMap.ker_eq_bot, LinearMap.ker_eq_bot']
    intro v hv
    exact hinj v (by simpa using hv)
  obtain ⟨x, hx⟩ := LinearMap.injective_iff_surjective.mp hi b
  exact ⟨x, by simpa using hx⟩

/-- the number of steps is the length of the shortest load curve -/
theorem minStep_least {lc : LoadCase} {T : ℕ} (h : lc.getMaxMinStep.2 = some T) :
    IsLeast {n | ∃ curve ∈ lc.loadCurve.values, curve.length = n} T := by
  unfold LoadCase.getMaxMinStep at h
  have key : ∀ (l : List (List ℝ)) (a : ℕ) (b : Option ℕ) (T : ℕ),
      (l.foldl (fun (acc : ℕ × Option ℕ) v => (max acc.1 v.length,
        match acc.2 with | none => some v.length | some m => some (min m v.length))) (a, b)).2 = some T →
      ((b = some T ∨ ∃ curve ∈ l, curve.length = T) ∧ (∀ m, b = some m → T ≤ m) ∧ ∀ curve ∈ l, T ≤ curve.length) := by
    intro l
    induction l with
    | nil => intro a b T h; exact ⟨Or.inl h, fun m hm => by rw [show b = some T from h] at hm; cases hm; exact le_rfl, by simp⟩
    | cons v l ih =>
      intro a b T h
      rw [List.foldl_cons] at h
      obtain ⟨h1, h2, h3⟩ := ih _ _ _ h
      cases b with
      | none =>
        refine ⟨Or.inr ?_, by simp, ?_⟩
        · rcases h1 with h1 | ⟨c, hc, hl⟩
          · exact ⟨v, by simp, by simpa using h1⟩
          · exact ⟨c, by simp [hc], hl⟩
        · intro c hc
          rcases List.mem_cons.mp hc with rfl | hc
          · exact h2 _ rfl
          · exact h3 c hc
      | some m =>
        have hm : T ≤ min m v.length := h2 _ rfl
        refine ⟨?_, ?_, ?_⟩
        · rcases h1 with h1 | ⟨c, hc, hl⟩
          · have h1 : min m v.length = T := by simpa using h1
            rcases min_choice m v.length with e | e
            · exact Or.inl (by rw [← h1, e])
            · exact Or.inr ⟨v, by simp, by rw [← h1, e]⟩
          · exact Or.inr ⟨c, by simp [hc], hl⟩
        · intro m' hm'
          cases hm'
          omega
        · intro c hc
          rcases List.mem_cons.mp hc with rfl | hc
          · omega
          · exact h3 c hc
  obtain ⟨h1, _, h3⟩ := key _ _ _ _ h
  refine ⟨?_, ?_⟩
  · rcases h1 with h1 | h1
    · cases h1
    · exact h1
  · rintro n ⟨c, hc, rfl⟩
    exact h3 c hc

/-- What direct time integration computes, for every structure, load history and step size, provided the matrix
`M/dt² + C/(2dt)` is regular and the iterative solver is exact: it succeeds only with exactly six free degrees of freedom (or without any
step); the saved history starts at rest, has one row per step of the shortest load curve after it, and its rows satisfy the
central-difference recurrence with the earlier displacements taken one step too late: row `t+1` is computed from rows `t-1` and `t-2`
(zero before the start) instead of rows `t` and `t-1`.  Hence the first step is right.  Missing from the full statement: the central-difference
equation for the later steps, see `C58_false`. -/
theorem C58_recurrence_partial (env : Env) (dyn : DynEnv) (hdyn : dyn.CgSound) {A : Type} (fs fs' : Dict (File A)) (filename c : String)
    (x : Assembly) (hfs : openAssembly fs filename = .ok x) (s : DirectSetting) (h : solveDirect env dyn fs filename c s = (fs', .ok ()))
    (K M K_ M_ C_ : Coo) (hK : x.assembleK env = .ok K) (hM : x.assembleM = .ok M) (hK_ : x.boundaryMatrix c K = .ok K_)
    (hM_ : x.boundaryMatrix c M = .ok M_) (hC_ : x.boundaryMatrix c (rayleighC K M) = .ok C_)
    (hinj : ∀ z, ((1 / s.stepSize ^ 2) • M_.dense K_.nrow + (1 / (2 * s.stepSize)) • C_.dense K_.nrow) *ᵥ z = 0 → z = 0) :
    ∃ (lc : LoadCase) (T : ℕ) (U : ℕ → Vec K_.nrow), x.cases.get? c = some lc ∧
      IsLeast {n | ∃ curve ∈ lc.loadCurve.values, curve.length = n} T ∧
      fs'.get? (c ++ ".d" ++ ".npy") = some (.rows ((List.range (T + 1)).map fun t => List.ofFn (U t))) ∧
      U 0 = 0 ∧ ∀ t < T, K_.nrow = 6 ∧
        ∃ f f_, x.assembleF c t = .ok f ∧ x.boundaryVector c f = .ok f_ ∧ ∃ fv : Vec K_.nrow, List.ofFn fv = f_ ∧
          (t = 0 → CentralDifference (K_.dense _) (C_.dense _) (M_.dense _) s.stepSize fv 0 (U 0) (U 1)) ∧
          ((1 / s.stepSize ^ 2) • M_.dense K_.nrow + (1 / (2 * s.stepSize)) • C_.dense K_.nrow) *ᵥ U (t + 1) +
            (K_.dense K_.nrow - (2 / s.stepSize ^ 2) • M_.dense K_.nrow) *ᵥ (if t < 1 then 0 else U (t - 1)) +
            ((1 / s.stepSize ^ 2) • M_.dense K_.nrow - (1 / (2 * s.stepSize)) • C_.dense K_.nrow) *ᵥ (if t < 2 then 0 else U (t - 2)) = fv := by
  obtain ⟨lc, K', M', K_', M_', C_', u, hc, h1, h2, h3, h4, h5, h6, h7⟩ := solveDirect_ok hfs h
  rw [hK] at h1; cases h1
  rw [hM] at h2; cases h2
  rw [hK_] at h3; cases h3
  rw [hM_] at h4; cases h4
  rw [hC_] at h5; cases h5
  unfold centralDifference at h6
  split at h6
  · cases h6
  · rw [Dict.getItem_of_some hc, Except.bind_ok] at h6
    cases hT : lc.getMaxMinStep.2 with
    | none => rw [hT] at h6; cases h6
    | some T =>
      rw [hT] at h6
      simp only [Except.bind_ok_iff, Except.pure_eq_ok, Except.ok.injEq] at h6
      obtain ⟨w, h8, rfl⟩ := h6
      obtain ⟨l, z0, z1, hs⟩ := central_loop _ _ _ _ _ _ _ _ _ _ h8
      have e1 : 1 / s.stepSize / s.stepSize = 1 / s.stepSize ^ 2 := by rw [div_div, sq]
      have e2 : 1 / 2 / s.stepSize = 1 / (2 * s.stepSize) := by rw [div_div]
      have e3 : 2 * (1 / s.stepSize ^ 2) = 2 / s.stepSize ^ 2 := by ring
      rw [e1, e2, e3] at hs
      refine ⟨lc, T, fun t => w.getD (t + 1) 0, hc, minStep_least hT, ?_, z1, ?_⟩
      · rw [h7]
        congr 2
        apply List.ext_getElem
        · simp [l]
        · intro i i1 i2
          have hi : i + 1 < w.length := by simp [l] at i1 ⊢; omega
          simp [hi]
      · intro t ht
        obtain ⟨hn, f, f_, g1, g2, fv, g3, g4⟩ := hs t ht
        have hrec : ((1 / s.stepSize ^ 2) • M_.dense K_.nrow + (1 / (2 * s.stepSize)) • C_.dense K_.nrow) *ᵥ w.getD (t + 1 + 1) 0 +
            (K_.dense K_.nrow - (2 / s.stepSize ^ 2) • M_.dense K_.nrow) *ᵥ (if t < 1 then 0 else w.getD (t - 1 + 1) 0) +
            ((1 / s.stepSize ^ 2) • M_.dense K_.nrow - (1 / (2 * s.stepSize)) • C_.dense K_.nrow) *ᵥ (if t < 2 then 0 else w.getD (t - 2 + 1) 0) = fv := by
          rw [show t + 1 + 1 = t + 2 from rfl, g4, cg_exact hdyn hinj]
          have a1 : (if t < 1 then 0 else w.getD (t - 1 + 1) 0) = w.getD t 0 := by
            split
            · rw [show t = 0 by omega, z0]
            · rw [show t - 1 + 1 = t by omega]
          have a2 : (if t < 2 then 0 else w.getD (t - 2 + 1) 0) = w.getD (t - 1) 0 := by
            split
            · rw [show t - 1 = 0 by omega, z0]
            · rw [show t - 2 + 1 = t - 1 by omega]
          rw [a1, a2]
          abel
        refine ⟨hn, f, f_, g1, g2, fv, g3, ?_, hrec⟩
        intro h0
        subst h0
        simp only [show (0 : ℕ) < 1 by omega, show (0 : ℕ) < 2 by omega, if_true, Matrix.mulVec_zero, add_zero] at hrec
        unfold CentralDifference
        simp only [zero_add, z1, smul_zero, sub_zero, add_zero, Matrix.mulVec_zero, Matrix.mulVec_smul]
        simp only [Matrix.add_mulVec, Matrix.smul_mulVec, zero_add] at hrec
        exact hrec

/-- C58 as a user reads it: every row of the saved history after the first is obtained from the two rows before it by the
central-difference equation. -/
def C58_claim : Prop :=
  ∀ (env : Env) (dyn : DynEnv), dyn.CgSound → ∀ (cs : List Call), NoReadd env World.init cs → ∀ (cases : List LoadCase) (heap : PatHeap)
    (x : Assembly), Assembly.mk? (World.init.run env cs).api.model cases heap = .ok x →
    ∀ (fs fs' : Dict (File Unit)) (filename c : String), openAssembly fs filename = .ok x →
    ∀ (s : DirectSetting), solveDirect env dyn fs filename c s = (fs', .ok ()) →
    ∀ (K M K_ M_ C_ : Coo), x.assembleK env = .ok K → x.assembleM = .ok M → x.boundaryMatrix c K = .ok K_ →
    x.boundaryMatrix c M = .ok M_ → x.boundaryMatrix c (rayleighC K M) = .ok C_ →
    (∀ z, ((1 / s.stepSize ^ 2) • M_.dense K_.nrow + (1 / (2 * s.stepSize)) • C_.dense K_.nrow) *ᵥ z = 0 → z = 0) →
    ∃ (T : ℕ) (U : ℕ → Vec K_.nrow),
      fs'.get? (c ++ ".d" ++ ".npy") = some (.rows ((List.range (T + 1)).map fun t => List.ofFn (U t))) ∧
      U 0 = 0 ∧ ∀ t < T, ∃ f f_, x.assembleF c t = .ok f ∧ x.boundaryVector c f = .ok f_ ∧ ∃ fv : Vec K_.nrow, List.ofFn fv = f_ ∧
        CentralDifference (K_.dense _) (C_.dense _) (M_.dense _) s.stepSize fv (if t = 0 then 0 else U (t - 1)) (U t) (U (t + 1))

/-- a free node with unit mass in every component -/
def massCalls : List Call := [.addNode "A" 0 0 0, .setNodalMass "A" (fun _ => 1)]

def massModel : FeModel :=
  { FeModel.empty with
    nodes := [("A", { stdNode "A" 0 0 0 with mass := fun _ => 1 })]
    hidNode := [("A", 0)] }

theorem mass_run (env : Env) : World.init.run env massCalls = ⟨{ Api.init with model := massModel }, []⟩ := by
  unfold massCalls
  rw [run_cons, step_addNode, run_cons, step_of_edit env _ (.setNodalMass "A" fun _ => 1) { Api.init with model := massModel } rfl
    (by exact ⟨stdNode "A" 0 0 0, rfl, rfl⟩), run_nil]
  rfl

theorem mass_noReadd (env : Env) : NoReadd env World.init massCalls := by
  unfold massCalls NoReadd
  simp only [AllCalls, and_true]
  refine ⟨?_, ?_⟩
  · intro n x y z _; simp [World.getNodeNames, World.init, Api.init, FeModel.empty, Dict.keys]
  · intro n x y z h; cases h

/-- a constant force on the node over two steps -/
def pushCase : LoadCase := ⟨"H", .timeHistory, [("P", 0)], [("P", 1)], [("P", [1, 1])], []⟩
def pushHeap : PatHeap := [⟨"P", [("A", ![1, 0, 0, 0, 0, 0])], [], [], []⟩]

theorem push_inv : CaseInv pushHeap "H" pushCase where
  name_eq := rfl
  factor_wf := by simp [pushCase, Dict.WF, Dict.keys]
  pattern_keys := rfl
  curve_keys := rfl
  curve_eq := by
    intro p cv h
    have h' : Dict.get? [("P", [(1 : ℝ), 1])] p = some cv := h
    rw [Dict.get?] at h'
    split at h'
    · cases h'; rfl
    · simp at h'
  refs := by
    intro p r h
    have h' : Dict.get? [("P", 0)] p = some r := h
    rw [Dict.get?] at h'
    split at h'
    · rename_i e
      cases h'
      exact ⟨_, rfl, e⟩
    · simp at h'
  rest_wf := by simp [pushCase, Dict.WF, Dict.keys]

/-- an exact iterative solver -/
noncomputable def exactCg : DynEnv where
  eigsh := fun _ _ _ _ => .error .exception
  cg := fun _ A b => open Classical in if h : ∃ x, A *ᵥ x = b then h.choose else 0
  solve := fun _ _ _ => .error .exception

theorem exactCg_sound : exactCg.CgSound := by
  intro n A b h
  unfold exactCg
  simp only
  rw [dif_pos h]
  exact h.choose_spec

theorem rayleighA0_pos : 0 < rayleighA0 0.05 0.02 2 1 := by
  unfold rayleighA0
  have hpi := Real.pi_pos
  simp only
  have e : (2 * (2 * Real.pi / 2) * (2 * Real.pi / 1) / ((2 * Real.pi / 1) ^ 2 - (2 * Real.pi / 2) ^ 2) *
    (0.05 * (2 * Real.pi / 1) - 0.02 * (2 * Real.pi / 2))) = 8 * Real.pi / 75 := by
    field_simp
    norm_num
  rw [e]
  positivity

/-- the reduced matrices of the free mass -/
theorem mass_forms (env : Env) {x : Assembly} (hx : Assembly.mk? massModel [pushCase] pushHeap = .ok x) {K M K_ M_ C_ : Coo}
    (hK : x.assembleK env = .ok K) (hM : x.assembleM = .ok M) (hK_ : x.boundaryMatrix "H" K = .ok K_)
    (hM_ : x.boundaryMatrix "H" M = .ok M_) (hC_ : x.boundaryMatrix "H" (rayleighC K M) = .ok C_) :
    K_.nrow = 6 ∧ K_.dense K_.nrow = 0 ∧ (∀ v u : Vec K_.nrow, v ⬝ᵥ (M_.dense K_.nrow *ᵥ u) = v ⬝ᵥ u) ∧
    C_.dense K_.nrow = rayleighA0 0.05 0.02 2 1 • M_.dense K_.nrow := by
  have hF : FreshInv { Api.init with model := massModel } := by
    have := (FreshInv_run env massCalls (mass_noReadd env)).1
    rwa [mass_run] at this
  obtain ⟨hm, -, hfix, -⟩ := mk_assembly hx
  have hcase : x.cases.get? "H" = some pushCase := by
    have : Assembly.mk? massModel [pushCase] pushHeap = .ok ⟨massModel, [("H", pushCase)], pushHeap, 6, []⟩ := rfl
    rw [this] at hx; cases hx; rfl
  obtain ⟨fixed, ht, hb, hK'⟩ := boundaryMatrix_split hm hfix hcase hK_
  have hnil : fixed = [] := by
    have : restraintDofs massModel (governing massModel pushCase) = .ok [] := rfl
    rw [this] at ht; cases ht; rfl
  subst hnil
  unfold Assembly.boundaryMatrix at hM_ hC_
  rw [hb, Except.bind_ok] at hM_ hC_
  have hwf : (governing massModel pushCase).WF := by
    have e : governing massModel pushCase = [] := rfl
    rw [e]; exact List.nodup_nil
  obtain ⟨hn, kform⟩ := stiff_form (a := { Api.init with model := massModel }) env hF hm hK hwf ht hK'
  obtain ⟨-, mform⟩ := mass_form (a := { Api.init with model := massModel }) hF hm hM hwf ht hM_
  have h6 : K_.nrow = 6 := by rw [hn]; rfl
  have hfd : ∀ k < 6, fdof (massModel.nodeCount * 6) [] k = k := by
    intro k hk
    have : (free (massModel.nodeCount * 6) [])[k]? = some k := by
      have e : free (massModel.nodeCount * 6) [] = List.range 6 := rfl
      rw [e, List.getElem?_range hk]
    unfold fdof
    simp [this]
  have hext : ∀ v : Vec K_.nrow, v = fun k => (fun i => if h : i < K_.nrow then v ⟨i, h⟩ else 0) (fdof (massModel.nodeCount * 6) [] k.val) := by
    intro v
    funext k
    simp only
    rw [hfd _ (h6 ▸ k.isLt), dif_pos k.isLt]
  have hK0 : K_.dense K_.nrow = 0 := by
    have hz : ∀ v u : Vec K_.nrow, v ⬝ᵥ (K_.dense K_.nrow *ᵥ u) = 0 := by
      intro v u
      have := kform _ hn (fun i => if h : i < K_.nrow then v ⟨i, h⟩ else 0) (fun i => if h : i < K_.nrow then u ⟨i, h⟩ else 0)
        (by simp) (by simp)
      have e : massModel = { Api.init with model := massModel }.model := rfl
      rw [← e, ← hext v, ← hext u] at this
      rw [this]
      simp [internalWork, massModel, FeModel.empty]
    ext i j
    have := hz (Pi.single i 1) (Pi.single j 1)
    simpa using this
  refine ⟨h6, hK0, ?_, ?_⟩
  · intro v u
    have := mform _ hn (fun i => if h : i < K_.nrow then v ⟨i, h⟩ else 0) (fun i => if h : i < K_.nrow then u ⟨i, h⟩ else 0)
        (by simp) (by simp)
    have e : massModel = { Api.init with model := massModel }.model := rfl
    rw [← e, ← hext v, ← hext u] at this
    rw [this]
    have h0 : hidOf massModel "A" = 0 := rfl
    have e1 : inertialWork massModel (gat massModel fun i => if h : i < K_.nrow then v ⟨i, h⟩ else 0)
        (gat massModel fun i => if h : i < K_.nrow then u ⟨i, h⟩ else 0) =
        ∑ r : Fin 6, (gat massModel (fun i => if h : i < K_.nrow then v ⟨i, h⟩ else 0) "A" r *
          gat massModel (fun i => if h : i < K_.nrow then u ⟨i, h⟩ else 0) "A" r) := by
      simp [inertialWork, massModel, FeModel.empty, nodeInertia]
    rw [e1]
    simp only [gat, h0, zero_mul, zero_add]
    have gen : ∀ (n : ℕ) (hn : n = 6) (v u : Vec n), ∑ r : Fin 6, ((if h : r.val < n then v ⟨r.val, h⟩ else 0) *
        (if h : r.val < n then u ⟨r.val, h⟩ else 0)) = v ⬝ᵥ u := by
      intro n hn v u
      subst hn
      simp [dotProduct]
    exact gen _ h6 v u
  · rw [damping_dense (a := { Api.init with model := massModel }) env hF hm hK hM hwf ht hK' hM_ hC_ _ hn, hK0, smul_zero, add_zero]

theorem push_load {x : Assembly} (hx : Assembly.mk? massModel [pushCase] pushHeap = .ok x) {t : ℕ} (ht : t < 2) :
    ∃ f, x.assembleF "H" t = .ok f ∧ f.nrow = 6 ∧ f.get 0 0 = 1 := by
  have hF : FreshInv { Api.init with model := massModel } := by
    have := (FreshInv_run idealEnv massCalls (mass_noReadd idealEnv)).1
    rwa [mass_run] at this
  obtain ⟨hm, hh, hfix, -⟩ := mk_assembly hx
  have hcase : x.cases.get? "H" = some pushCase := by
    have : Assembly.mk? massModel [pushCase] pushHeap = .ok ⟨massModel, [("H", pushCase)], pushHeap, 6, []⟩ := rfl
    rw [this] at hx; cases hx; rfl
  obtain ⟨f, hf⟩ := assembleF_ok (a := { Api.init with model := massModel }) hF hm hcase (by rw [hh]; exact push_inv) ht
    (by intro b be hb; simp [massModel, FeModel.empty] at hb)
  obtain ⟨fr, fc, fents⟩ := assembleF_shape hf
  rw [hm] at fr
  have hr6 : f.nrow = 6 := fr
  refine ⟨f, hf, hr6, ?_⟩
  have h1 := assembleF_bil (a := { Api.init with model := massModel }) hF.toApiInv hm hcase (by rw [hh]; exact push_inv) ht hf
    (fun i => if i = 0 then 1 else 0)
  rw [← Coo.get_bil f fents, fc, hr6] at h1
  simp only [Finset.sum_range_succ, Finset.range_zero, Finset.sum_empty] at h1
  rw [hh] at h1
  have hp : patternsOf pushHeap pushCase = [(⟨"P", [("A", ![1, 0, 0, 0, 0, 0])], [], [], []⟩, 1)] := rfl
  have h0 : hidOf massModel "A" = 0 := rfl
  have e2 : ((Dict.get? [("A", ![(1 : ℝ), 0, 0, 0, 0, 0])] "A").getD 0 : Vec 6) = ![1, 0, 0, 0, 0, 0] := rfl
  have hg : gat massModel (fun i => if i = 0 then 1 else 0) "A" = ![(1 : ℝ), 0, 0, 0, 0, 0] := by
    funext r
    simp only [gat, h0]
    fin_cases r <;> simp
  have e3 : externalWork massModel pushHeap pushCase (gat massModel (fun i => if i = 0 then 1 else 0)) = 1 := by
    unfold externalWork
    rw [hp]
    simp only [List.map_cons, List.map_nil, List.sum_cons, List.sum_nil, patternWork]
    have e4 : massModel.nodes = [("A", { stdNode "A" 0 0 0 with mass := fun _ => 1 })] := rfl
    have e5 : massModel.beams = [] := rfl
    rw [e4, e5]
    simp only [List.map_cons, List.map_nil, List.sum_cons, List.sum_nil, e2, hg]
    simp [dotProduct, Fin.sum_univ_succ]
  rw [e3] at h1
  simpa using h1

/-- the push on the free mass meets all hypotheses of `C58_recurrence_partial` -/
theorem push_runs : ∃ (x : Assembly) (fs' : Dict (File Unit)) (K M K_ M_ C_ : Coo), Assembly.mk? massModel [pushCase] pushHeap = .ok x ∧
    x.cases = [("H", pushCase)] ∧ x.boundaryDofs "H" = .ok [] ∧
    solveDirect idealEnv exactCg [("f", (File.asb x : File Unit))] "f" "H" ⟨1, 0.05, none⟩ = (fs', .ok ()) ∧
    x.assembleK idealEnv = .ok K ∧ x.assembleM = .ok M ∧ x.boundaryMatrix "H" K = .ok K_ ∧ x.boundaryMatrix "H" M = .ok M_ ∧
    x.boundaryMatrix "H" (rayleighC K M) = .ok C_ ∧
    ∀ z, ((1 / (1 : ℝ) ^ 2) • M_.dense K_.nrow + (1 / (2 * (1 : ℝ))) • C_.dense K_.nrow) *ᵥ z = 0 → z = 0 := by
  have hx : ∃ x, Assembly.mk? massModel [pushCase] pushHeap = .ok x ∧ x.cases = [("H", pushCase)] ∧ x.boundaryDofs "H" = .ok [] :=
    ⟨_, rfl, rfl, rfl⟩
  obtain ⟨x, hx, hcs, hb⟩ := hx
  have hF : FreshInv { Api.init with model := massModel } := by
    have := (FreshInv_run idealEnv massCalls (mass_noReadd idealEnv)).1
    rwa [mass_run] at this
  obtain ⟨hm, hh, hfix, -⟩ := mk_assembly hx
  obtain ⟨K, hK⟩ := (assembleK_ok_iff (a := { Api.init with model := massModel }) idealEnv hF hm).mpr
    (by intro b be hb; simp [massModel, FeModel.empty] at hb)
  obtain ⟨M, hM⟩ := assembleM_ok (a := { Api.init with model := massModel }) hF hm
  obtain ⟨kr, kc, kents⟩ := assembleK_range hK
  obtain ⟨mr, mc, ments⟩ := assembleM_range hM
  have drop : ∀ X : Coo, X.nrow = X.ncol → (∀ e ∈ X.ents, e.1 < X.nrow ∧ e.2.1 < X.ncol) → ∃ X', x.boundaryMatrix "H" X = .ok X' := by
    intro X h1 h2
    unfold Assembly.boundaryMatrix
    rw [hb, Except.bind_ok]
    exact dropMatrix_ok List.nodup_nil h1 (by simp) h2
  obtain ⟨K_, hK_⟩ := drop K (kr.trans kc.symm) kents
  obtain ⟨M_, hM_⟩ := drop M (mr.trans mc.symm) ments
  have hC : ∃ C_, x.boundaryMatrix "H" (rayleighC K M) = .ok C_ := by
    apply drop
    · exact mr.trans mc.symm
    · intro e he
      have e1 : (rayleighC K M).nrow = M.nrow := rfl
      have e2 : (rayleighC K M).ncol = M.ncol := rfl
      rw [e1, e2]
      unfold rayleighC at he
      simp only [List.mem_append, List.mem_map] at he
      rcases he with ⟨e', h1, rfl⟩ | ⟨e', h1, rfl⟩
      · exact ments e' h1
      · have := kents e' h1
        rw [kr, kc] at this
        rw [mr, mc]
        exact this
  obtain ⟨C_, hC_⟩ := hC
  obtain ⟨h6, hK0, hMform, hCd⟩ := mass_forms idealEnv hx hK hM hK_ hM_ hC_
  obtain ⟨f0, hf0, fr0, fg0⟩ := push_load hx (t := 0) (by omega)
  obtain ⟨f1, hf1, fr1, fg1⟩ := push_load hx (t := 1) (by omega)
  have hbv : ∀ f : Coo, f.nrow = 6 → x.boundaryVector "H" f = .ok ((List.range 6).map fun i => f.get i 0) := by
    intro f hf
    unfold Assembly.boundaryVector
    rw [hb, Except.bind_ok, dropVector_eq, hf]
    rfl
  -- the run succeeds
  have hstep : ∀ (t : ℕ) (f : Coo) (u : List (Vec K_.nrow)), x.assembleF "H" t = .ok f → f.nrow = 6 →
      ∃ u', centralStep exactCg x "H" K_.nrow (K_.dense _) (M_.dense _) (C_.dense _) 1 u t = .ok u' := by
    intro t f u h1 h2
    unfold centralStep
    rw [h1, Except.bind_ok, hbv f h2, Except.bind_ok]
    rw [dif_pos ⟨by simp, h6⟩]
    exact ⟨_, rfl⟩
  obtain ⟨u1, hu1⟩ := hstep 0 f0 [0, 0] hf0 fr0
  obtain ⟨u2, hu2⟩ := hstep 1 f1 u1 hf1 fr1
  have hcase : x.cases.get? "H" = some pushCase := by rw [hcs]; rfl
  have hcd : centralDifference exactCg x "H" K_.nrow (K_.dense _) (M_.dense _) (C_.dense _) 1 = .ok u2.tail := by
    unfold centralDifference
    rw [if_neg one_ne_zero, Dict.getItem_of_some hcase, Except.bind_ok]
    have hT : pushCase.getMaxMinStep.2 = some 2 := rfl
    rw [hT]
    simp only
    rw [show List.range 2 = [0, 1] from rfl, List.foldlM_cons, hu1, Except.bind_ok, List.foldlM_cons, hu2, Except.bind_ok]
    rfl
  have hrun : ∃ fs', solveDirect idealEnv exactCg [("f", (File.asb x : File Unit))] "f" "H" ⟨1, 0.05, none⟩ = (fs', .ok ()) := by
    unfold solveDirect
    have ho : openAssembly [("f", (File.asb x : File Unit))] "f" = .ok x := rfl
    have hk : caseOfKind x "H" .timeHistory = .ok pushCase := by
      unfold caseOfKind
      rw [Dict.getItem_of_some hcase]
      rfl
    rw [ho]
    simp only [hk, baseCaseName, Except.bind_ok]
    have hc1 : cacheMatrix [("f", (File.asb x : File Unit))] ("0" ++ ".k") (x.assembleK idealEnv) File.stiff =
        (Dict.set [("f", (File.asb x : File Unit))] ("0" ++ ".k" ++ ".npy") (.stiff K), .ok K) := by
      rw [hK]; rfl
    rw [hc1]
    simp only
    have hc2 : cacheMatrix (Dict.set [("f", (File.asb x : File Unit))] ("0" ++ ".k" ++ ".npy") (.stiff K)) ("0" ++ ".m") x.assembleM File.mass =
        (Dict.set (Dict.set [("f", (File.asb x : File Unit))] ("0" ++ ".k" ++ ".npy") (.stiff K)) ("0" ++ ".m" ++ ".npy") (.mass M), .ok M) := by
      rw [hM]; rfl
    rw [hc2]
    simp only [hK_, hM_, hC_, Except.bind_ok, hcd]
    exact ⟨_, rfl⟩
  obtain ⟨fs', hrun⟩ := hrun
  have hpos : 0 < 1 + 1 / 2 * rayleighA0 0.05 0.02 2 1 := by have := rayleighA0_pos; linarith
  have hinj : ∀ z, ((1 / (1 : ℝ) ^ 2) • M_.dense K_.nrow + (1 / (2 * (1 : ℝ))) • C_.dense K_.nrow) *ᵥ z = 0 → z = 0 := by
    intro z hz
    have := congrArg (fun w => z ⬝ᵥ w) hz
    simp only [hCd, dotProduct_zero, Matrix.add_mulVec, Matrix.smul_mulVec, dotProduct_add, dotProduct_smul, hMform, smul_eq_mul] at this
    have h0 : (1 + 1 / 2 * rayleighA0 0.05 0.02 2 1) * (z ⬝ᵥ z) = 0 := by rw [← this]; ring
    exact dotProduct_self_eq_zero.mp ((mul_eq_zero.mp h0).resolve_left hpos.ne')
  exact ⟨x, fs', K, M, K_, M_, C_, hx, hcs, hb, hrun, hK, hM, hK_, hM_, hC_, hinj⟩

theorem C58_false : ¬ C58_claim := by
  intro H
  obtain ⟨x, fs', K, M, K_, M_, C_, hx, hcs, hb, hrun, hK, hM, hK_, hM_, hC_, hinj⟩ := push_runs
  have hmodel : (World.init.run idealEnv massCalls).api.model = massModel := by rw [mass_run]
  have hcase : x.cases.get? "H" = some pushCase := by rw [hcs]; rfl
  obtain ⟨h6, hK0, hMform, hCd⟩ := mass_forms idealEnv hx hK hM hK_ hM_ hC_
  obtain ⟨f0, hf0, fr0, fg0⟩ := push_load hx (t := 0) (by omega)
  have hbv : ∀ f : Coo, f.nrow = 6 → x.boundaryVector "H" f = .ok ((List.range 6).map fun i => f.get i 0) := by
    intro f hf
    unfold Assembly.boundaryVector
    rw [hb, Except.bind_ok, dropVector_eq, hf]
    rfl
  have hfs : openAssembly [("f", (File.asb x : File Unit))] "f" = .ok x := rfl
  obtain ⟨T, U, q1, q2, q3⟩ := H idealEnv exactCg exactCg_sound massCalls (mass_noReadd _) _ _ x (by rw [hmodel]; exact hx) _ fs' "f" "H" hfs _ hrun
    K M K_ M_ C_ hK hM hK_ hM_ hC_ hinj
  obtain ⟨lc, T', V, p0, p1, p2, p3, p4⟩ := C58_recurrence_partial idealEnv exactCg exactCg_sound _ fs' "f" "H" x hfs _ hrun
    K M K_ M_ C_ hK hM hK_ hM_ hC_ hinj
  rw [hcase] at p0
  cases p0
  have hT' : T' = 2 := by
    have hT : pushCase.getMaxMinStep.2 = some 2 := rfl
    exact p1.unique (minStep_least hT)
  subst hT'
  rw [q1] at p2
  simp only [Option.some.injEq, File.rows.injEq] at p2
  have hT : T = 2 := by
    have := congrArg List.length p2
    simpa using this
  subst hT
  have hUV : ∀ t < 3, U t = V t := by
    intro t ht
    have := congrArg (fun l => l[t]?) p2
    simp only [List.getElem?_map, List.getElem?_range ht, Option.map_some, Option.some.injEq] at this
    exact List.ofFn_injective this
  -- first step
  obtain ⟨-, f, f_, r1, r2, fv, r3, -, r4⟩ := p4 0 (by omega)
  rw [hf0] at r1
  cases r1
  rw [hbv f0 fr0] at r2
  cases r2
  simp only [show (0 : ℕ) < 1 by omega, show (0 : ℕ) < 2 by omega, if_true, Matrix.mulVec_zero, add_zero, zero_add] at r4
  -- second step
  obtain ⟨-, g, g_, s1, s2, gv, s3, -, s4⟩ := p4 1 (by omega)
  obtain ⟨g', g_', t1, t2, gv', t3, t4⟩ := q3 1 (by omega)
  rw [s1] at t1
  cases t1
  rw [s2] at t2
  cases t2
  have hgv : gv' = gv := List.ofFn_injective (t3.trans s3.symm)
  subst hgv
  simp only [show ¬ ((1 : ℕ) < 1) by omega, show (1 : ℕ) < 2 by omega, if_true, if_false, Nat.sub_self, p3, Matrix.mulVec_zero, add_zero] at s4
  unfold CentralDifference at t4
  simp only [one_ne_zero, if_false, Nat.sub_self, q2, hUV 1 (by omega), hUV 2 (by omega), hK0, Matrix.zero_mulVec, add_zero, sub_zero] at t4
  rw [show (1 + 1 : ℕ) = 2 from rfl] at s4
  rw [← s4] at t4
  have hz : V 1 = 0 := by
    have := congrArg (fun w => V 1 ⬝ᵥ w) t4
    simp only [Matrix.add_mulVec, Matrix.smul_mulVec, Matrix.mulVec_smul, Matrix.mulVec_sub, dotProduct_add, dotProduct_smul, dotProduct_sub,
      hMform, smul_eq_mul] at this
    have h0 : V 1 ⬝ᵥ V 1 = 0 := by linarith
    exact dotProduct_self_eq_zero.mp h0
  rw [hz, Matrix.mulVec_zero] at r4
  have hfv0 : fv = 0 := r4.symm
  rw [hfv0] at r3
  have := congrArg (fun l => l[0]?) r3
  simp only [List.getElem?_ofFn, h6] at this
  simp [fg0] at this

/-! ### C59 The damping ratio of a direct time integration takes effect -/

/-- C59 as a user reads it: some structure responds differently when the damping ratio of the case is changed. -/
def C59_claim : Prop :=
  ∃ (env : Env) (dyn : DynEnv) (fs : Dict (File Unit)) (filename c : String) (s : DirectSetting) (ratio : ℝ),
    solveDirect env dyn fs filename c { s with dampingRatio := ratio } ≠ solveDirect env dyn fs filename c s

/-- The damping ratio never has any effect. -/
theorem C59_false : ¬ C59_claim := by
  rintro ⟨env, dyn, fs, filename, c, s, ratio, h⟩
  exact h rfl

end Hyperstatic
