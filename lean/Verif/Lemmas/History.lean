import Verif.Spec.History
import Verif.Lemmas.Py

namespace Hyperstatic

open Spec

/-! ### strings with different suffixes -/

theorem String.append_suffix_ne {a b s t : String} (hl : s.toList.length = t.toList.length)
    (hne : s ≠ t) : a ++ s ≠ b ++ t := by
  intro h
  have h2 := congrArg String.toList h
  simp only [String.toList_append] at h2
  have := (List.append_inj' h2 hl).2
  exact hne (String.toList_inj.mp this)

theorem String.append_right_inj' {a b s : String} (h : a ++ s = b ++ s) : a = b := by
  have h2 := congrArg String.toList h
  simp only [String.toList_append] at h2
  exact String.toList_inj.mp (List.append_cancel_right h2)

theorem sep_ne_asb (f : String) : f ++ ".sep" ≠ ".asb" := by
  have := String.append_suffix_ne (a := f) (b := "") (s := ".sep") (t := ".asb") (by decide) (by decide)
  simpa using this

theorem sep_ne_stiff (f : String) : f ++ ".sep" ≠ "0.k.npy" := by
  have := String.append_suffix_ne (a := f) (b := "0.k") (s := ".sep") (t := ".npy") (by decide) (by decide)
  intro h; exact this (h.trans (by decide))

theorem sep_ne_disp (f c : String) : f ++ ".sep" ≠ c ++ ".d" ++ ".npy" :=
  String.append_suffix_ne (by decide) (by decide)

theorem disp_eq (c : String) : c ++ ".d" ++ ".npy" = c ++ ".d.npy" := by
  rw [String.append_assoc]; rfl

theorem disp_ne_asb (c : String) : c ++ ".d.npy" ≠ ".asb" := by
  rw [← disp_eq]
  have := String.append_suffix_ne (a := c ++ ".d") (b := "") (s := ".npy") (t := ".asb") (by decide) (by decide)
  simpa using this

theorem disp_ne_stiff (c : String) : c ++ ".d.npy" ≠ "0.k.npy" := by
  have := String.append_suffix_ne (a := c) (b := "0") (s := ".d.npy") (t := ".k.npy") (by decide) (by decide)
  intro h; exact this (h.trans (by decide))

theorem disp_ne_disp {c c' : String} (h : c ≠ c') : c ++ ".d.npy" ≠ c' ++ ".d.npy" :=
  fun e => h (String.append_right_inj' e)

theorem append_ne_0k {a s : String} (h : 3 < s.toList.length) : a ++ s ≠ "0.k" := by
  intro e
  have := congrArg (fun x => x.toList.length) e
  simp only [String.toList_append, List.length_append] at this
  have h3 : "0.k".toList.length = 3 := by decide
  omega

/-! ### steps -/

/-- the calls handled outside `Api.edit` -/
def Call.isEdit : Call → Bool
  | .assemble => false
  | .solveStatic _ => false
  | .solveModal _ _ => false
  | .save _ => false
  | .load _ => false
  | .clearWorkspace => false
  | _ => true

theorem step_edit (env : Env) (w : World) (c : Call) (h : c.isEdit = true) :
    w.step env c = match w.api.edit c with
      | .ok a => ({ w with api := a }, true)
      | .error _ => (w, false) := by
  cases c <;> first | rfl | (exact absurd h (by simp [Call.isEdit]))

theorem edit_nonedit (a : Api) (c : Call) (h : c.isEdit = false) : a.edit c = .ok a := by
  cases c <;> first | rfl | (exact absurd h (by simp [Call.isEdit]))

/-- What a static solution does to the files. -/
theorem solveLinear_fs {A : Type} (env : Env) (fs : Dict (File A)) (fn c : String) :
    (solveLinear env fs fn c).1 = fs ∨
    (∃ K, (solveLinear env fs fn c).1 = Dict.set fs "0.k.npy" (.stiff K)) ∨
    (∃ K d, (solveLinear env fs fn c).1 =
      Dict.set (Dict.set fs "0.k.npy" (.stiff K)) (c ++ ".d" ++ ".npy") (.disp d)) := by
  unfold solveLinear
  split
  · exact Or.inl rfl
  · split
    · exact Or.inl rfl
    · split
      · exact Or.inl rfl
      · split
        · exact Or.inr (Or.inl ⟨_, rfl⟩)
        · exact Or.inr (Or.inr ⟨_, _, rfl⟩)

/-- invariant of worlds derived from one of api states -/
def WInv (Inv : Api → Prop) (w : World) : Prop :=
  Inv w.api ∧
  (∀ k a, w.fs.get? k = some (.sep a) → Inv a) ∧
  (∀ k x, w.fs.get? k = some (.asb x) → ∃ a, Inv a ∧ a.assembly = .ok x)

theorem WInv_init {Inv : Api → Prop} (h : Inv Api.init) : WInv Inv World.init := by
  refine ⟨h, ?_, ?_⟩ <;> intro k x hk <;> simp [World.init] at hk

theorem WInv_set_other {Inv : Api → Prop} {w : World} (h : WInv Inv w) (k : String) (f : File Api)
    (hf : (∃ K, f = .stiff K) ∨ (∃ d, f = .disp d)) : WInv Inv { w with fs := w.fs.set k f } := by
  obtain ⟨h1, h2, h3⟩ := h
  refine ⟨h1, ?_, ?_⟩
  · intro k' x hk
    rw [Dict.get?_set] at hk
    split at hk
    · rcases hf with ⟨K, rfl⟩ | ⟨d, rfl⟩ <;> simp at hk
    · exact h2 k' x hk
  · intro k' x hk
    rw [Dict.get?_set] at hk
    split at hk
    · rcases hf with ⟨K, rfl⟩ | ⟨d, rfl⟩ <;> simp at hk
    · exact h3 k' x hk

theorem WInv_step {Inv : Api → Prop} (env : Env) (P : World → Call → Prop)
    (hedit : ∀ w c a', P w c → Inv w.api → w.api.edit c = .ok a' → Inv a')
    (w : World) (c : Call) (hP : P w c) (h : WInv Inv w) : WInv Inv (w.step env c).1 := by
  obtain ⟨h1, h2, h3⟩ := h
  by_cases hc : c.isEdit = true
  · rw [step_edit env w c hc]
    split
    · rename_i a' ha
      exact ⟨hedit w c a' hP h1 ha, h2, h3⟩
    · exact ⟨h1, h2, h3⟩
  · cases c <;> first | (exact absurd rfl hc) | skip
    · -- assemble
      simp only [World.step]
      split
      · rename_i asb ha
        refine ⟨h1, ?_, ?_⟩
        · intro k x hk
          rw [Dict.get?_set] at hk
          split at hk
          · simp at hk
          · exact h2 k x hk
        · intro k x hk
          rw [Dict.get?_set] at hk
          split at hk
          · simp at hk; subst hk; exact ⟨w.api, h1, ha⟩
          · exact h3 k x hk
      · exact ⟨h1, h2, h3⟩
    · -- solveStatic
      rename_i case
      simp only [World.step]
      rcases solveLinear_fs env w.fs Api.filename case with e | ⟨K, e⟩ | ⟨K, d, e⟩
      · rw [e]; exact ⟨h1, h2, h3⟩
      · rw [e]; exact WInv_set_other ⟨h1, h2, h3⟩ _ _ (Or.inl ⟨K, rfl⟩)
      · rw [e]
        have := WInv_set_other (w := w) ⟨h1, h2, h3⟩ "0.k.npy" (.stiff K) (Or.inl ⟨K, rfl⟩)
        exact WInv_set_other this _ _ (Or.inr ⟨d, rfl⟩)
    · exact ⟨h1, h2, h3⟩
    · -- save
      simp only [World.step]
      refine ⟨h1, ?_, ?_⟩
      · intro k x hk
        rw [Dict.get?_set] at hk
        split at hk
        · simp at hk; subst hk; exact h1
        · exact h2 k x hk
      · intro k x hk
        rw [Dict.get?_set] at hk
        split at hk
        · simp at hk
        · exact h3 k x hk
    · -- load
      simp only [World.step]
      split
      · rename_i a ha
        exact ⟨h2 _ _ ha, h2, h3⟩
      · exact ⟨h1, h2, h3⟩
    · exact ⟨h1, h2, h3⟩

/-- Invariants hold along guarded histories. -/
theorem WInv_run {Inv : Api → Prop} (env : Env) (P : World → Call → Prop)
    (hedit : ∀ w c a', P w c → Inv w.api → w.api.edit c = .ok a' → Inv a')
    (w : World) (cs : List Call) (hP : AllCalls env P w cs) (h : WInv Inv w) :
    WInv Inv (w.run env cs) := by
  induction cs generalizing w with
  | nil => exact h
  | cons c cs ih =>
    exact ih _ hP.2 (WInv_step env P hedit w c hP.1 h)

theorem AllCalls_true (env : Env) (w : World) (cs : List Call) :
    AllCalls env (fun _ _ => True) w cs := by
  induction cs generalizing w with
  | nil => trivial
  | cons c cs ih => exact ⟨trivial, ih _⟩

/-- Invariants hold along all histories. -/
theorem WInv_run_all {Inv : Api → Prop} (env : Env)
    (hedit : ∀ a c a', Inv a → Api.edit a c = .ok a' → Inv a')
    (hinit : Inv Api.init) (cs : List Call) : WInv Inv (World.init.run env cs) :=
  WInv_run env (fun _ _ => True) (fun w c a' _ h1 h2 => hedit w.api c a' h1 h2) _ cs
    (AllCalls_true env _ cs) (WInv_init hinit)

/-! ### refinement -/

/-- relation between a world and an abstract machine state -/
def Rel {S : Type} (abs : Api → S) (w : World) (s : MState S) : Prop :=
  abs w.api = s.cur ∧
  ∀ f, s.saved f = (match w.fs.get? (f ++ ".sep") with
    | some (.sep a) => some (abs a)
    | _ => none)

theorem get?_set_nosep {fs : Dict (File Api)} {k : String} {v : File Api} (hk : ∀ f : String, f ++ ".sep" ≠ k)
    (f : String) : (Dict.set fs k v).get? (f ++ ".sep") = fs.get? (f ++ ".sep") :=
  Dict.get?_set_ne fs v (fun e => hk f e.symm)

theorem solve_keeps_sep (env : Env) (fs : Dict (File Api)) (fn c f : String) :
    (solveLinear env fs fn c).1.get? (f ++ ".sep") = fs.get? (f ++ ".sep") := by
  rcases solveLinear_fs env fs fn c with e | ⟨K, e⟩ | ⟨K, d, e⟩
  · rw [e]
  · rw [e, get?_set_nosep sep_ne_stiff]
  · rw [e, get?_set_nosep (fun f => sep_ne_disp f c), get?_set_nosep sep_ne_stiff]

theorem Rel_step {S : Type} (env : Env) (M : Machine S) (abs : Api → S) (Inv : Api → Prop)
    (P : World → Call → Prop)
    (hok : ∀ w c a', P w c → Inv w.api → w.api.edit c = .ok a' → abs a' = M.edit (abs w.api) c)
    (herr : ∀ w c e, P w c → Inv w.api → w.api.edit c = .error e → M.edit (abs w.api) c = abs w.api)
    (w : World) (s : MState S) (c : Call) (hP : P w c) (hI : WInv Inv w) (h : Rel abs w s) :
    Rel abs (w.step env c).1 (M.step s c) := by
  obtain ⟨h1, h2⟩ := h
  by_cases hc : c.isEdit = true
  · have hs : M.step s c = { s with cur := M.edit s.cur c } := by
      cases c <;> first | rfl | (exact absurd hc (by simp [Call.isEdit]))
    rw [step_edit env w c hc, hs]
    split
    · rename_i a' ha
      exact ⟨by rw [hok w c a' hP hI.1 ha, h1], h2⟩
    · rename_i e he
      exact ⟨by rw [← h1, herr w c e hP hI.1 he], h2⟩
  · have hc' : c.isEdit = false := by simpa using hc
    have hid : M.edit s.cur c = s.cur := by
      have := hok w c w.api hP hI.1 (edit_nonedit w.api c hc')
      rw [← h1]; exact this.symm
    cases c <;> first | (exact absurd rfl hc) | skip
    · -- assemble
      have hs : M.step s .assemble = s := by show { s with cur := _ } = s; rw [hid]
      rw [hs]
      simp only [World.step]
      split
      · refine ⟨h1, ?_⟩
        intro f
        rw [h2 f]
        show _ = match (Dict.set w.fs Api.filename _).get? (f ++ ".sep") with
          | some (.sep a) => some (abs a) | _ => none
        rw [get?_set_nosep (k := Api.filename) sep_ne_asb]
      · exact ⟨h1, h2⟩
    · rename_i case
      have hs : M.step s (.solveStatic case) = s := by show { s with cur := _ } = s; rw [hid]
      rw [hs]
      refine ⟨h1, ?_⟩
      intro f
      rw [h2 f]
      simp only [World.step, solve_keeps_sep]
    · rename_i case n
      have hs : M.step s (.solveModal case n) = s := by show { s with cur := _ } = s; rw [hid]
      rw [hs]; exact ⟨h1, h2⟩
    · -- save
      rename_i f
      refine ⟨h1, ?_⟩
      intro g
      simp only [Machine.step, World.step, Dict.get?_set]
      by_cases hg : g = f
      · subst hg; simp [h1]
      · have : ¬ f ++ ".sep" = g ++ ".sep" := fun e => hg (String.append_right_inj' e).symm
        simp only [hg, if_false, this]
        exact h2 g
    · -- load
      rename_i f
      have hf := h2 f
      simp only [World.step, Machine.step]
      split
      · rename_i a ha
        rw [ha] at hf
        simp only at hf
        rw [hf]
        exact ⟨rfl, h2⟩
      · rename_i hno
        have : s.saved f = none := by
          rw [hf]
          split
          · rename_i a ha; exact absurd ha (hno a)
          · rfl
        rw [this]; exact ⟨h1, h2⟩
    · have hs : M.step s .clearWorkspace = s := by show { s with cur := _ } = s; rw [hid]
      rw [hs]; exact ⟨h1, h2⟩

/-- Refinement along guarded histories. -/
theorem refinesG {S : Type} (env : Env) (M : Machine S) (abs : Api → S) (Inv : Api → Prop)
    (P : World → Call → Prop)
    (hinit : abs Api.init = M.init) (hI0 : Inv Api.init)
    (hI : ∀ w c a', P w c → Inv w.api → w.api.edit c = .ok a' → Inv a')
    (hok : ∀ w c a', P w c → Inv w.api → w.api.edit c = .ok a' → abs a' = M.edit (abs w.api) c)
    (herr : ∀ w c e, P w c → Inv w.api → w.api.edit c = .error e → M.edit (abs w.api) c = abs w.api)
    (cs : List Call) (hP : AllCalls env P World.init cs) :
    abs (World.init.run env cs).api = (M.run cs).cur := by
  have key : ∀ (cs : List Call) (w : World) (s : MState S), AllCalls env P w cs → WInv Inv w → Rel abs w s →
      Rel abs (w.run env cs) (cs.foldl M.step s) := by
    intro cs
    induction cs with
    | nil => intro w s _ _ h; exact h
    | cons c cs ih =>
      intro w s hp hw h
      exact ih _ _ hp.2 (WInv_step env P hI w c hp.1 hw)
        (Rel_step env M abs Inv P hok herr w s c hp.1 hw h)
  have h0 : Rel abs World.init ⟨M.init, fun _ => none⟩ := ⟨hinit, by intro f; simp [World.init]⟩
  exact (key cs World.init _ hP (WInv_init hI0) h0).1

/-- Refinement: along every history the abstraction of the api is the abstract machine's state. -/
theorem refines {S : Type} (env : Env) (M : Machine S) (abs : Api → S) (Inv : Api → Prop)
    (hinit : abs Api.init = M.init) (hI0 : Inv Api.init)
    (hI : ∀ a c a', Inv a → Api.edit a c = .ok a' → Inv a')
    (hok : ∀ a c a', Inv a → Api.edit a c = .ok a' → abs a' = M.edit (abs a) c)
    (herr : ∀ a c e, Inv a → Api.edit a c = .error e → M.edit (abs a) c = abs a)
    (cs : List Call) : abs (World.init.run env cs).api = (M.run cs).cur :=
  refinesG env M abs Inv (fun _ _ => True) hinit hI0 (fun w c a' _ => hI w.api c a')
    (fun w c a' _ => hok w.api c a') (fun w c e _ => herr w.api c e) cs (AllCalls_true env _ cs)

end Hyperstatic
