import Verif.Props.SecondOrderDemo

/-
C152: the reaction of the whole structure.
-/

namespace Hyperstatic
open Matrix Spec

/-! ### C152 The total reaction of a solved case can be read -/

/-- C152: after `solve_static(c)` of a stable frame returned True, `resolve_structural_reaction(c)` returns a number, for at least one
continuation `rest` of the function after its first array has been read. -/
def C152_claim : Prop :=
  ∃ rest : Assembly → File Api → Except PyErr ℝ,
  ∀ (env : Env), env.SolverSound → ∀ (pre : List Call), PlainFrame env pre →
    ∀ (c : String) (P : Problem), Poses pre c P → P.frame.Stable P.nodes P.fix → ∀ u, Reports env pre [] c u →
    ∃ r, resolveStructuralReaction rest ((((World.init.run env pre).run env [.assemble]).step env (.solveStatic c)).1.fs) Api.filename c = .ok r

/-- No file called `<case>.k.npy` holds an array. -/
def NoK {A : Type} (fs : Dict (File A)) : Prop :=
  ∀ c, (∀ d, fs.get? (c ++ ".k.npy") ≠ some (.disp d)) ∧ ∀ r, fs.get? (c ++ ".k.npy") ≠ some (.rows r)

theorem NoK_set {A : Type} {fs : Dict (File A)} (h : NoK fs) {name : String} {f : File A}
    (hf : ((∀ d, f ≠ .disp d) ∧ ∀ r, f ≠ .rows r) ∨ ∀ c, name ≠ c ++ ".k.npy") : NoK (fs.set name f) := by
  intro c
  by_cases hn : name = c ++ ".k.npy"
  · rcases hf with ⟨h1, h2⟩ | h2
    · subst hn
      rw [Dict.get?_set_same]
      exact ⟨fun d e => h1 d (Option.some.inj e), fun r e => h2 r (Option.some.inj e)⟩
    · exact absurd hn (h2 c)
  · rw [Dict.get?_set_ne _ _ hn]
    exact h c

theorem d_ne_k (c c' : String) : c ++ ".d" ++ ".npy" ≠ c' ++ ".k.npy" := by
  rw [String.append_assoc]
  exact String.append_suffix_ne (by decide) (by decide)

theorem o_ne_k (c c' : String) : c ++ ".o" ++ ".npy" ≠ c' ++ ".k.npy" := by
  rw [String.append_assoc]
  exact String.append_suffix_ne (by decide) (by decide)

theorem NoK_linear {A : Type} (env : Env) (fs : Dict (File A)) (fn c : String) (h : NoK fs) : NoK (solveLinear env fs fn c).1 := by
  rcases solveLinear_fs env fs fn c with e | ⟨K, e⟩ | ⟨K, d, e⟩
  · rw [e]; exact h
  · rw [e]; exact NoK_set h (Or.inl (by constructor <;> intro d e <;> cases e))
  · rw [e]
    exact NoK_set (NoK_set h (Or.inl (by constructor <;> intro d e <;> cases e))) (Or.inr (d_ne_k c))

theorem NoK_cache {A : Type} {fs : Dict (File A)} (h : NoK fs) (name : String) (mk : Except PyErr Coo) {file : Coo → File A}
    (hf : ∀ K, (∀ d, file K ≠ .disp d) ∧ ∀ r, file K ≠ .rows r) : NoK (cacheMatrix fs name mk file).1 := by
  unfold cacheMatrix
  split
  · exact h
  · split
    · exact h
    · exact NoK_set h (Or.inl (hf _))

theorem stiff_not {A : Type} (K : Coo) : (∀ d, (File.stiff K : File A) ≠ .disp d) ∧ ∀ r, (File.stiff K : File A) ≠ .rows r :=
  ⟨fun _ => nofun, fun _ => nofun⟩
theorem mass_not {A : Type} (K : Coo) : (∀ d, (File.mass K : File A) ≠ .disp d) ∧ ∀ r, (File.mass K : File A) ≠ .rows r :=
  ⟨fun _ => nofun, fun _ => nofun⟩

theorem NoK_second {A : Type} (env : Env) (dyn : DynEnv) (fs : Dict (File A)) (fn c : String) (p : Option String) (h : NoK fs) :
    NoK (solve2nd env dyn fs fn c p).1 := by
  unfold solve2nd
  split
  · exact h
  · rename_i a ha
    split
    · exact h
    · have hc := NoK_cache h "0.k" (a.assembleK env) (file := .stiff) stiff_not
      split
      · rename_i e; rw [e] at hc; exact hc
      · rename_i e
        rw [e] at hc
        split
        · exact hc
        · exact NoK_set hc (Or.inr (d_ne_k c))

theorem NoK_eigen {A : Type} (env : Env) (dyn : DynEnv) (fs : Dict (File A)) (fn c : String) (s : ModalSetting) (h : NoK fs) :
    NoK (solveEigen env dyn fs fn c s).1 := by
  unfold solveEigen
  split
  · exact h
  · rename_i a ha
    split
    · exact h
    · rename_i base hbase
      have hc := NoK_cache h (base ++ ".k") (a.assembleK env) (file := .stiff) stiff_not
      split
      · rename_i e; rw [e] at hc; exact hc
      · rename_i fs1 K e
        rw [e] at hc
        have hm := NoK_cache hc (base ++ ".m") a.assembleM (file := .mass) mass_not
        split
        · rename_i e; rw [e] at hm; exact hm
        · rename_i e
          rw [e] at hm
          split
          · exact hm
          · exact NoK_set (NoK_set hm (Or.inr (d_ne_k c))) (Or.inr (o_ne_k c))

theorem NoK_direct {A : Type} (env : Env) (dyn : DynEnv) (fs : Dict (File A)) (fn c : String) (s : DirectSetting) (h : NoK fs) :
    NoK (solveDirect env dyn fs fn c s).1 := by
  unfold solveDirect
  split
  · exact h
  · rename_i a ha
    split
    · exact h
    · rename_i base hbase
      have hc := NoK_cache h (base ++ ".k") (a.assembleK env) (file := .stiff) stiff_not
      split
      · rename_i e; rw [e] at hc; exact hc
      · rename_i fs1 K e
        rw [e] at hc
        have hm := NoK_cache hc (base ++ ".m") a.assembleM (file := .mass) mass_not
        split
        · rename_i e; rw [e] at hm; exact hm
        · rename_i e
          rw [e] at hm
          split
          · exact hm
          · exact NoK_set hm (Or.inr (d_ne_k c))

theorem NoK_run (env : Env) (dyn : DynEnv) {fs : Dict (File Api)} (h : NoK fs) (r : SolverRun) : NoK (r.files env dyn Api.filename fs) := by
  cases r with
  | linear c => exact NoK_linear env fs _ c h
  | second c p => exact NoK_second env dyn fs _ c p h
  | modal c s =>
    show NoK (solveModal env dyn fs Api.filename c s).1
    unfold solveModal
    have he := NoK_eigen env dyn fs Api.filename c ⟨s.nModes, s.baseCase⟩ h
    split
    · exact h
    · split
      · exact h
      · split
        · split
          · rename_i e; rw [e] at he; exact he
          · rename_i e; rw [e] at he; exact he
        · exact h
  | time c s =>
    show NoK (solveTime env dyn fs Api.filename c s).1
    unfold solveTime
    split
    · exact h
    · split
      · exact h
      · split
        · split
          · exact NoK_direct env dyn fs _ c _ h
          · exact h
          · exact h
        · exact h
  | spectrum c =>
    show NoK (solveSpectrum _ fs Api.filename c).1
    unfold solveSpectrum
    split
    · exact h
    · split <;> exact h

theorem NoK_step (env : Env) (w : World) (c : Call) (h : NoK w.fs) : NoK (w.step env c).1.fs := by
  by_cases hc : c.isEdit = true
  · rw [step_edit env w c hc]; split <;> exact h
  · cases c <;> first | (exact absurd rfl hc) | skip
    · simp only [World.step]
      split
      · exact NoK_set h (Or.inl (by constructor <;> intro d e <;> cases e))
      · exact h
    · simp only [World.step]
      exact NoK_linear env w.fs _ _ h
    · exact h
    · simp only [World.step]
      exact NoK_set h (Or.inl (by constructor <;> intro d e <;> cases e))
    · simp only [World.step]; split <;> exact h
    · exact h

theorem NoK_reaction {A : Type} {fs : Dict (File A)} (h : NoK fs) (rest : Assembly → File A → Except PyErr ℝ) (fn c : String) :
    ∃ e, resolveStructuralReaction rest fs fn c = .error e := by
  unfold resolveStructuralReaction
  cases openAssembly fs fn with
  | error e => exact ⟨e, rfl⟩
  | ok a =>
    simp only [Except.bind_ok]
    split
    · exact ⟨_, rfl⟩
    · rename_i d e; exact absurd e ((h c).1 d)
    · rename_i r e; exact absurd e ((h c).2 r)
    · exact ⟨_, rfl⟩

/-- The reaction can never be read: after any calls and any runs of any solver, `resolve_structural_reaction` raises, whatever follows its
first `np.load`. -/
theorem C152_never (env : Env) (dyn : DynEnv) (history : List (Call ⊕ SolverRun)) (rest : Assembly → File Api → Except PyErr ℝ) (c : String) :
    ∃ e, resolveStructuralReaction rest (runAll env dyn World.init history).fs Api.filename c = .error e := by
  apply NoK_reaction
  have h0 : NoK World.init.fs := by
    intro c
    constructor <;> intro d e <;> cases e
  unfold runAll
  generalize World.init = w at h0
  induction history generalizing w with
  | nil => exact h0
  | cons s history ih =>
    rw [List.foldl_cons]
    apply ih
    cases s with
    | inl k => exact NoK_step env w k h0
    | inr r => exact NoK_run env dyn h0 r

theorem C152_false : ¬ C152_claim := by
  rintro ⟨rest, h⟩
  have hduo : Duo "A" "B" := Or.inl ⟨rfl, rfl⟩
  obtain ⟨u, hu⟩ := duo_reports hduo
  obtain ⟨r, hr⟩ := h idealEnv idealEnv_sound _ (plainFrame_of_calls _ (duo_plain "A" "B")) "C" _ (duo_poses _ _)
    (C69_grounded_stable _ _ _ (duo_poses _ _) (duo_positive _ _) (duo_grounded hduo)) u hu
  obtain ⟨e, he⟩ := C152_never idealEnv exactCg ((duoCalls "A" "B" ++ [Call.assemble, Call.solveStatic "C"]).map .inl) rest "C"
  have hw : runAll idealEnv exactCg World.init ((duoCalls "A" "B" ++ [Call.assemble, Call.solveStatic "C"]).map .inl) =
      (((World.init.run idealEnv (duoCalls "A" "B")).run idealEnv [.assemble]).step idealEnv (.solveStatic "C")).1 := by
    unfold runAll World.run
    rw [List.foldl_map, List.foldl_append]
    rfl
  rw [hw, hr] at he
  cases he

end Hyperstatic
