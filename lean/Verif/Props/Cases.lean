import Verif.Spec.Cases
import Verif.Props.ModesDemo
import Verif.Props.TimeHistory

/-
C150: the settings of analysis cases.
-/

namespace Hyperstatic
open Matrix Spec

/-! ### C150 The settings of an analysis case govern its analysis -/

/-- C150 for the order of a static case: the case is created with the order asked for. -/
def C150_order_claim : Prop := ∀ (order : ℕ) (base : Option String), order ∈ [1, 2, 3] → (StaticSettings.new order base).order = order

/-- The constructor forgets the order. -/
theorem C150_order_false : ¬ C150_order_claim := fun h => absurd (h 2 none (by decide)) (by decide)

/-- The setter accepts the orders 1, 2, 3 only, stores them, and keeps the base case. -/
theorem C150_order_partial (s : StaticSettings) (val : ℕ) :
    (1 ≤ val ∧ val ≤ 3 → s.setOrder val = .ok ⟨val, s.baseCase⟩) ∧ (¬ (1 ≤ val ∧ val ≤ 3) → ∃ e, s.setOrder val = .error e) := by
  have hiff : val ∈ [1, 2, 3] ↔ 1 ≤ val ∧ val ≤ 3 := by
    simp only [List.mem_cons, List.not_mem_nil, or_false]
    omega
  unfold StaticSettings.setOrder
  constructor
  · intro h
    rw [if_pos (hiff.mpr h)]
  · intro h
    rw [if_neg (fun h' => h (hiff.mp h'))]
    exact ⟨_, rfl⟩

example : (StaticSettings.new 2 none).setOrder 2 = .ok ⟨2, none⟩ := rfl

/-- what `solve` of a modal case does -/
theorem solveModal_eq {A : Type} (env : Env) (dyn : DynEnv) (fs : Dict (File A)) (filename casename : String) (s : ModalSettings) {x : Assembly}
    (hx : openAssembly fs filename = .ok x) {lc : LoadCase} (hc : x.cases.get? casename = some lc) (hk : lc.kind = .modal) :
    solveModal env dyn fs filename casename s =
      if s.algorithm = "eigen" then ((solveEigen env dyn fs filename casename ⟨s.nModes, s.baseCase⟩).1,
        (solveEigen env dyn fs filename casename ⟨s.nModes, s.baseCase⟩).2.map fun _ => some true)
      else (fs, .ok none) := by
  have hl : lookSetting x casename "algorithm" = .ok () := by
    unfold lookSetting
    rw [Dict.getItem_of_some hc, Except.bind_ok, if_pos (by rw [hk]; decide)]
    rfl
  unfold solveModal
  rw [hx]
  simp only [hl, Except.bind_ok, Dict.getItem_of_some hc, hk, true_and]
  split
  · rcases solveEigen env dyn fs filename casename ⟨s.nModes, s.baseCase⟩ with ⟨f, e | u⟩ <;> rfl
  · rfl

theorem solveEigen_kind {A : Type} {env : Env} {dyn : DynEnv} {fs fs' : Dict (File A)} {filename c : String} {s : ModalSetting} {x : Assembly}
    (hfs : openAssembly fs filename = .ok x) (h : solveEigen env dyn fs filename c s = (fs', .ok ())) {lc : LoadCase}
    (hc : x.cases.get? c = some lc) : lc.kind = .modal ∧ s.baseCase = none := by
  unfold solveEigen at h
  rw [hfs] at h
  simp only at h
  split at h
  · simp at h
  · rename_i base hbase
    simp only [Except.bind_ok_iff] at hbase
    obtain ⟨lc', h1, h2⟩ := hbase
    unfold caseOfKind at h1
    rw [Dict.getItem_of_some hc, Except.bind_ok] at h1
    unfold baseCaseName at h2
    constructor
    · split at h1
      · assumption
      · cases h1
    · split at h2
      · assumption
      · cases h2

/-- C150 for modal cases, all that holds: `solve` runs exactly the analysis with the number of modes of the case, for cases without a
base case; the setting `use_load_as_mass` has no influence.  With C57 and C140 this says what is reported. -/
theorem C150_modal_partial (env : Env) (dyn : DynEnv) (pre : List Call) (lc : LoadCase) (nModes : ℕ) (base : Option String) (use : Bool)
    (omega : List ℝ) (shapes : List (List ℝ)) :
    ModalRun env dyn pre lc ((ModalSettings.new nModes base).setUseLoadAsMass use) omega shapes ↔
      base = none ∧ ModalReport env dyn pre lc nModes omega shapes := by
  constructor
  · rintro ⟨h1, h2, h3, cases, heap, x, A, fs, fs', fn, r, a1, a2, a3, a4, a5, a6, a7, a8⟩
    have hk : lc.kind = .modal := by
      by_contra hk
      unfold solveModal at a5
      rw [a3] at a5
      simp only at a5
      split at a5
      · simp at a5
      · rename_i lc' h
        simp only [Except.bind_ok_iff] at h
        obtain ⟨-, -, h⟩ := h
        rw [Dict.getItem_of_some a2] at h
        cases h
        rw [if_neg (fun h => hk h.1)] at a5
        simp at a5
    have hal : ((ModalSettings.new nModes base).setUseLoadAsMass use).algorithm = "eigen" := rfl
    rw [solveModal_eq env dyn fs fn _ _ a3 a2 hk, if_pos hal] at a5
    have e1 := congrArg Prod.fst a5
    have e2 := congrArg Prod.snd a5
    simp only at e1 e2
    have hrun : solveEigen env dyn fs fn lc.name ⟨nModes, base⟩ = (fs', .ok ()) := by
      apply Prod.ext
      · exact e1
      · revert e2
        show Except.map _ (solveEigen env dyn fs fn lc.name ⟨nModes, base⟩).2 = _ → _
        cases (solveEigen env dyn fs fn lc.name ⟨nModes, base⟩).2 with
        | error e => intro h; cases h
        | ok u => intro _; rfl
    have hb : base = none := (solveEigen_kind a3 hrun a2).2
    subst hb
    exact ⟨rfl, h1, h2, h3, cases, heap, x, A, fs, fs', fn, r, a1, a2, a3, a4, hrun, a6, a7, a8⟩
  · rintro ⟨rfl, h1, h2, h3, cases, heap, x, A, fs, fs', fn, r, a1, a2, a3, a4, a5, a6, a7, a8⟩
    refine ⟨h1, h2, h3, cases, heap, x, A, fs, fs', fn, r, a1, a2, a3, a4, ?_, a6, a7, a8⟩
    have hal : ((ModalSettings.new nModes none).setUseLoadAsMass use).algorithm = "eigen" := rfl
    rw [solveModal_eq env dyn fs fn _ _ a3 a2 (solveEigen_kind a3 a5 a2).1, if_pos hal]
    show ((solveEigen env dyn fs fn lc.name ⟨nModes, none⟩).1, (solveEigen env dyn fs fn lc.name ⟨nModes, none⟩).2.map _) = _
    rw [a5]
    rfl

/-- The clamped post: the analysis with three modes is run with and without `use_load_as_mass`. -/
example : ∃ omega shapes, omega.length = 3 ∧
    ModalRun idealEnv idealEig (swayCalls 1 2 (fun _ => false)) modalCase (ModalSettings.new 3 none) omega shapes ∧
    ModalRun idealEnv idealEig (swayCalls 1 2 (fun _ => false)) modalCase ((ModalSettings.new 3 none).setUseLoadAsMass true) omega shapes := by
  obtain ⟨omega, shapes, h1, h2⟩ := sway_reports (E := 1) (rho := 2) one_pos two_pos (Or.inl rfl)
  exact ⟨omega, shapes, h2, (C150_modal_partial _ _ _ _ 3 none false _ _).mpr ⟨rfl, h1⟩, (C150_modal_partial _ _ _ _ 3 none true _ _).mpr ⟨rfl, h1⟩⟩

/-- C150 for `use_load_as_mass`, as a user reads it: every reported value belongs to a mode of the structure whose masses are the nodal
loads of the case divided by the acceleration of gravity. -/
def C150_mass_claim : Prop :=
  ∀ (env : Env) (dyn : DynEnv), dyn.EigSound → ∀ (pre : List Call) (lc : LoadCase) (n : ℕ) (omega : List ℝ) (shapes : List (List ℝ)),
    ModalRun env dyn pre lc ((ModalSettings.new n none).setUseLoadAsMass true) omega shapes → ∀ (P : Vibration), Shakes pre lc P →
    ∀ (heap : PatHeap) (F : String → Vec 6), (∀ n ∈ P.nodes, lc.getNodalF heap n 0 = .ok (F n)) →
    ∀ lam ∈ omega, ∃ u : State, Obeys P.fix u ∧ (∃ n ∈ P.nodes, u n ≠ 0) ∧
      ∀ v, Obeys P.fix v → P.frame.internal v u = lam * loadInertia P.nodes F v u

/-- The setting is ignored: for the clamped post without any load values are reported as well, with the mass of the beam. -/
theorem C150_mass_false : ¬ C150_mass_claim := by
  intro h
  obtain ⟨omega, shapes, h1, h2⟩ := sway_reports (E := 1) (rho := 2) one_pos two_pos (Or.inl rfl)
  have hrun := (C150_modal_partial _ _ _ _ 3 none true _ _).mpr ⟨rfl, h1⟩
  have hlen : 0 < omega.length := by omega
  obtain ⟨u, hu1, ⟨n, hn, hu2⟩, hu3⟩ := h idealEnv idealEig idealEig_sound _ _ _ _ _ hrun _ (sway_shakes 1 2 (fun _ => false)) [] (fun _ => 0)
    (fun n _ => rfl) omega[0] (List.getElem_mem hlen)
  have h0 := hu3 u hu1
  have hz : loadInertia (swayPost 1 2 fun _ => false).nodes (fun _ => 0) u u = 0 := by
    simp [loadInertia]
  rw [hz, mul_zero] at h0
  have hst : (swayPost 1 2 fun _ => false).frame.Stable (swayPost 1 2 fun _ => false).nodes (swayPost 1 2 fun _ => false).fix := by
    apply grounded_stable ((sway_shakes 1 2 fun _ => false).sane idealEnv) (sway_positive one_pos 2 _)
    have hA : Clamped (swayPost 1 2 fun _ => false).fix "A" := ⟨fun _ => true, by rw [sway_fix]; rfl, fun _ => rfl⟩
    intro n hn
    rw [sway_nodes] at hn
    simp only [List.mem_cons, List.not_mem_nil, or_false] at hn
    rcases hn with rfl | rfl
    · exact ⟨"A", hA, .refl⟩
    · exact ⟨"A", hA, .single ⟨"b", swayBeam 1 2, by rw [(sway_beams 1 2 _).2]; rfl, Or.inr ⟨rfl, rfl⟩⟩⟩
  exact hu2 (hst u hu1 h0 n hn)

/-- `assemble_M(casename)` of a case with the setting always raises. -/
theorem C150_mass_raises (a : Assembly) (c : String) : ∃ e, a.assembleMFor true (some c) = .error e := by
  unfold Assembly.assembleMFor
  simp only [if_true]
  cases hc : a.cases.getItem c with
  | error e => exact ⟨e, by rw [Except.bind_error]⟩
  | ok lc =>
    rw [Except.bind_ok]
    split
    · cases hf : a.assembleF c with
      | error e => exact ⟨e, by rw [Except.bind_error]⟩
      | ok f => exact ⟨.typeError, by rw [Except.bind_ok]⟩
    · exact ⟨_, rfl⟩

/-- The mass assembled for a case, as its setting was last set: with the setting off it is that of the elements, for modal cases; with the
setting on there is none; other cases have no such setting, and `assemble_M(casename)` raises. -/
theorem C150_mass_case (a : Assembly) (c : String) (lc : LoadCase) (hc : a.cases.get? c = some lc) (s : ModalSettings) :
    (lc.kind = .modal → a.assembleMFor (s.setUseLoadAsMass false).useLoadAsMass (some c) = a.assembleM) ∧
    (∀ m, a.assembleMFor (s.setUseLoadAsMass true).useLoadAsMass (some c) ≠ .ok m) ∧
    (lc.kind ≠ .modal → ∀ use, a.assembleMFor use (some c) = .error .attributeError) := by
  refine ⟨fun hk => ?_, fun m h => ?_, fun hk use => ?_⟩
  · unfold Assembly.assembleMFor
    simp only [Dict.getItem_of_some hc, Except.bind_ok, hk, if_true]
    rfl
  · obtain ⟨e, he⟩ := C150_mass_raises a c
    have h' : a.assembleMFor true (some c) = .ok m := h
    rw [he] at h'
    cases h'
  · unfold Assembly.assembleMFor
    simp only [Dict.getItem_of_some hc, Except.bind_ok, if_neg hk]

/-- C150 for base cases: some modal or time history case that names a base case is analysed (returns True, or stores a history). -/
def C150_base_claim : Prop :=
  ∃ (env : Env) (dyn : DynEnv) (fs : Dict (File Api)) (filename c base : String),
    (∃ n, (solveModal env dyn fs filename c (ModalSettings.new n (some base))).2 = .ok (some true)) ∨
    ∃ dt xi, (solveTime env dyn fs filename c ((TimeSettings.new (some base)).useDirect dt xi)).1 ≠ fs

theorem solveEigen_base {A : Type} (env : Env) (dyn : DynEnv) (fs : Dict (File A)) (filename c b : String) (n : ℕ) :
    ∃ e, solveEigen env dyn fs filename c ⟨n, some b⟩ = (fs, .error e) := by
  unfold solveEigen
  cases openAssembly fs filename with
  | error e => exact ⟨e, rfl⟩
  | ok a =>
    simp only [baseCaseName]
    cases caseOfKind a c .modal with
    | error e => exact ⟨e, by rw [Except.bind_error]⟩
    | ok lc => exact ⟨.nameError, by rw [Except.bind_ok]⟩

theorem solveDirect_base {A : Type} (env : Env) (dyn : DynEnv) (fs : Dict (File A)) (filename c b : String) (dt xi : ℝ) :
    ∃ e, solveDirect env dyn fs filename c ⟨dt, xi, some b⟩ = (fs, .error e) := by
  unfold solveDirect
  cases openAssembly fs filename with
  | error e => exact ⟨e, rfl⟩
  | ok a =>
    simp only [baseCaseName]
    cases caseOfKind a c .timeHistory with
    | error e => exact ⟨e, by rw [Except.bind_error]⟩
    | ok lc => exact ⟨.nameError, by rw [Except.bind_ok]⟩

/-- Whatever the project: a modal case or a direct time history case with a base case is never analysed, and leaves the files alone. -/
theorem C150_base_stops {A : Type} (env : Env) (dyn : DynEnv) (fs : Dict (File A)) (filename c base : String) :
    (∀ n use, (solveModal env dyn fs filename c ((ModalSettings.new n (some base)).setUseLoadAsMass use)).1 = fs ∧
      (solveModal env dyn fs filename c ((ModalSettings.new n (some base)).setUseLoadAsMass use)).2 ≠ .ok (some true)) ∧
    (∀ dt xi, (solveTime env dyn fs filename c ((TimeSettings.new (some base)).useDirect dt xi)).1 = fs) := by
  constructor
  · intro n use
    obtain ⟨e, he⟩ := solveEigen_base env dyn fs filename c base n
    have he' : solveEigen env dyn fs filename c ⟨((ModalSettings.new n (some base)).setUseLoadAsMass use).nModes,
        ((ModalSettings.new n (some base)).setUseLoadAsMass use).baseCase⟩ = (fs, .error e) := he
    unfold solveModal
    split
    · exact ⟨rfl, fun h => nomatch h⟩
    · split
      · exact ⟨rfl, fun h => nomatch h⟩
      · split
        · rw [he']; exact ⟨rfl, fun h => nomatch h⟩
        · exact ⟨rfl, fun h => nomatch h⟩
  · intro dt xi
    obtain ⟨e, he⟩ := solveDirect_base env dyn fs filename c base dt xi
    unfold solveTime
    split
    · rfl
    · split
      · rfl
      · split
        · simp only [TimeSettings.useDirect, TimeSettings.new]
          rw [he]
        · rfl

theorem C150_base_false : ¬ C150_base_claim := by
  rintro ⟨env, dyn, fs, filename, c, base, ⟨n, h⟩ | ⟨dt, xi, h⟩⟩
  · exact ((C150_base_stops env dyn fs filename c base).1 n false).2 h
  · exact h ((C150_base_stops env dyn fs filename c base).2 dt xi)

/-- C150 for time history cases: `solve` of a time history case of an assembled project either raises or stores the motion. -/
def C150_time_claim : Prop :=
  ∀ (env : Env) (dyn : DynEnv) (fs : Dict (File Api)) (filename c : String) (x : Assembly) (lc : LoadCase) (s : TimeSettings),
    openAssembly fs filename = .ok x → x.cases.get? c = some lc → lc.kind = .timeHistory →
    (solveTime env dyn fs filename c s).2 = .ok () →
    ∃ rows, (solveTime env dyn fs filename c s).1.get? (c ++ ".d" ++ ".npy") = some (.rows rows)

/-- What `solve` of a time history case does, for every choice of the algorithm: the direct integration is run with the step size and the
damping ratio of the case; modal decomposition always raises; without a choice nothing happens and nothing is reported. -/
theorem C150_time_partial {A : Type} (env : Env) (dyn : DynEnv) (fs : Dict (File A)) (filename c : String) (x : Assembly) (lc : LoadCase)
    (hx : openAssembly fs filename = .ok x) (hc : x.cases.get? c = some lc) (hk : lc.kind = .timeHistory) (base : Option String) :
    (∀ dt xi, solveTime env dyn fs filename c ((TimeSettings.new base).useDirect dt xi) = solveDirect env dyn fs filename c ⟨dt, xi, base⟩) ∧
    (∀ m, ∃ e, solveTime env dyn fs filename c ((TimeSettings.new base).useModalDecomposition m) = (fs, .error e)) ∧
    solveTime env dyn fs filename c (TimeSettings.new base) = (fs, .ok ()) := by
  have hl : lookSetting x c "algorithm" = .ok () := by
    unfold lookSetting
    rw [Dict.getItem_of_some hc, Except.bind_ok, if_pos (by rw [hk]; decide)]
    rfl
  unfold solveTime
  rw [hx]
  simp only [hl, Except.bind_ok, Dict.getItem_of_some hc, hk, if_true]
  refine ⟨fun dt xi => rfl, fun m => ?_, rfl⟩
  exact ⟨.typeError, rfl⟩

/-- an assembly with one time history case -/
def timeAssembly : Assembly := ⟨FeModel.empty, [("T", ⟨"T", .timeHistory, [], [], [], []⟩)], [], 0, []⟩

example : Assembly.mk? FeModel.empty [⟨"T", .timeHistory, [], [], [], []⟩] [] = .ok timeAssembly := rfl

example : openAssembly (A := Api) [("p.asb", .asb timeAssembly)] "p.asb" = .ok timeAssembly ∧
    ∃ lc, timeAssembly.cases.get? "T" = some lc ∧ lc.kind = .timeHistory := ⟨rfl, _, rfl, rfl⟩

/-- A case whose algorithm was never chosen: `solve` returns without complaint, and there is no motion. -/
theorem C150_time_false : ¬ C150_time_claim := by
  intro h
  have hp := (C150_time_partial (A := Api) idealEnv exactCg [("p.asb", .asb timeAssembly)] "p.asb" "T" timeAssembly _ rfl rfl rfl none).2.2
  obtain ⟨rows, hr⟩ := h idealEnv exactCg [("p.asb", .asb timeAssembly)] "p.asb" "T" timeAssembly _ (TimeSettings.new none) rfl rfl rfl
    (by rw [hp])
  rw [hp] at hr
  cases hr

end Hyperstatic
