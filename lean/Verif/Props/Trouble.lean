import Verif.Spec.Trouble
import Verif.Lemmas.Overlap
import Verif.Props.Overlap

/-
C169: calls whose file operations fail.
-/

namespace Hyperstatic

open Spec

/-! ### computations whose operations fail -/

theorem set_get_ne {β : Type} (d : Dict β) {n f : String} (v : β) (h : f ≠ n) : (d.set n v).get? f = d.get? f := by
  rw [Dict.get?_set]; first | exact if_neg h | exact if_neg (Ne.symm h)

theorem set_get_self {β : Type} (d : Dict β) (n : String) (v : β) : (d.set n v).get? n = some v := by
  rw [Dict.get?_set]; exact if_pos rfl

theorem troubled_or {α : Type} (g : α) (A : Act α) : ∀ (fails : List Bool) (fs : Dict (File Api)), fs.get? "0.k" = none →
    A.WritesIn (fun f => f ≠ "0.k") → A.troubled g fails fs = A.exec fs ∨ (A.troubled g fails fs).1 = g := by
  induction A with
  | done a => intro fails fs _ _; exact Or.inl rfl
  | read n k ih =>
    intro fails fs h0 hw
    simp only [Act.troubled, Act.exec]
    split
    · split
      · rename_i h; subst h; rw [h0]; exact ih none _ fs h0 (hw none)
      · exact Or.inr rfl
    · exact ih _ _ fs h0 (hw _)
  | empty n next ih =>
    intro fails fs h0 hw
    simp only [Act.troubled, Act.exec]
    split
    · exact Or.inr rfl
    · exact ih _ _ (by rw [set_get_ne _ _ (Ne.symm hw.1), h0]) hw.2
  | fill n c next ih =>
    intro fails fs h0 hw
    simp only [Act.troubled, Act.exec]
    split
    · exact Or.inr rfl
    · exact ih _ _ (by rw [set_get_ne _ _ (Ne.symm hw.1), h0]) hw.2

theorem troubled_keeps {α : Type} (g : α) {V : String → Prop} {f : String} (hf : ¬ V f) (A : Act α) :
    ∀ (fails : List Bool) (fs : Dict (File Api)), A.WritesIn V → (A.troubled g fails fs).2.get? f = fs.get? f := by
  induction A with
  | done a => intro fails fs _; rfl
  | read n k ih =>
    intro fails fs hw
    simp only [Act.troubled]
    split
    · split
      · exact ih none _ fs (hw none)
      · rfl
    · exact ih _ _ fs (hw _)
  | empty n next ih =>
    intro fails fs hw
    simp only [Act.troubled]
    split
    · rfl
    · rw [ih _ _ hw.2, set_get_ne _ _ (fun h => hf (by rw [h]; exact hw.1))]
  | fill n c next ih =>
    intro fails fs hw
    simp only [Act.troubled]
    split
    · rfl
    · rw [ih _ _ hw.2, set_get_ne _ _ (fun h => hf (by rw [h]; exact hw.1))]

theorem failure_refusal (r : Request) : failure (refusal r) := by cases r <;> rfl

theorem sep_ne_k (c : String) : c ++ ".sep" ≠ "0.k" := by
  intro h
  have := congrArg (fun s => s.toList.length) h
  simp [String.toList_append] at this

theorem writes_ne_k (r : Request) : ∀ f ∈ writes r, f ≠ "0.k" := by
  intro f hf
  cases r with
  | call c =>
    cases c <;> simp [writes] at hf
    · subst hf; decide
    · rcases hf with rfl | rfl
      · decide
      · exact disp_ne_k _
    · subst hf; exact sep_ne_k _
  | _ => simp [writes] at hf

/-- the files written on the way -/
def touched {α : Type} : Act α → Dict (File Api) → List String
  | .done _, _ => []
  | .read n k, fs => touched (k (fs.get? n)) fs
  | .empty n next, fs => n :: touched next (fs.set n .broken)
  | .fill n c next, fs => n :: touched next (fs.set n c)

theorem troubled_untouched {α : Type} (g : α) {f : String} (A : Act α) : ∀ (fails : List Bool) (fs : Dict (File Api)),
    fs.get? "0.k" = none → A.WritesIn (fun f => f ≠ "0.k") → f ∉ touched A fs → (A.troubled g fails fs).2.get? f = fs.get? f := by
  induction A with
  | done a => intro fails fs _ _ _; rfl
  | read n k ih =>
    intro fails fs h0 hw hf
    simp only [touched] at hf
    simp only [Act.troubled]
    split
    · split
      · rename_i h; subst h; rw [h0] at hf; exact ih none _ fs h0 (hw none) hf
      · rfl
    · exact ih _ _ fs h0 (hw _) hf
  | empty n next ih =>
    intro fails fs h0 hw hf
    simp only [touched, List.mem_cons, not_or] at hf
    simp only [Act.troubled]
    split
    · rfl
    · rw [ih _ _ (by rw [set_get_ne _ _ (Ne.symm hw.1), h0]) hw.2 hf.2, set_get_ne _ _ hf.1]
  | fill n c next ih =>
    intro fails fs h0 hw hf
    simp only [touched, List.mem_cons, not_or] at hf
    simp only [Act.troubled]
    split
    · rfl
    · rw [ih _ _ (by rw [set_get_ne _ _ (Ne.symm hw.1), h0]) hw.2 hf.2, set_get_ne _ _ hf.1]

theorem set_agree {β : Type} {fs fs1 : Dict β} {n : String} (c : β) {f : String} (h : f ≠ n → fs1.get? f = fs.get? f) :
    (fs1.set n c).get? f = (fs.set n c).get? f := by
  by_cases e : f = n
  · subst e; rw [set_get_self, set_get_self]
  · rw [set_get_ne _ _ e, set_get_ne _ _ e, h e]

theorem exec_agree {α : Type} {V : String → Prop} (A : Act α) : ∀ (fs fs1 : Dict (File Api)), A.ReadsIn V →
    (∀ f, V f → fs1.get? f = fs.get? f) →
    (A.exec fs1).1 = (A.exec fs).1 ∧ ∀ f, (f ∉ touched A fs → fs1.get? f = fs.get? f) → (A.exec fs1).2.get? f = (A.exec fs).2.get? f := by
  induction A with
  | done a => intro fs fs1 _ _; exact ⟨rfl, fun f hf => hf (by simp [touched])⟩
  | read n k ih =>
    intro fs fs1 hr hv
    simp only [Act.exec, touched]
    rw [hv n hr.1]
    exact ih _ fs fs1 (hr.2 _) hv
  | empty n next ih =>
    intro fs fs1 hr hv
    obtain ⟨h1, h2⟩ := ih (fs.set n .broken) (fs1.set n .broken) hr (fun f hf => set_agree _ (fun _ => hv f hf))
    exact ⟨h1, fun f hf => h2 f (fun hn => set_agree _ (fun e => hf (by simp [touched, e, hn])))⟩
  | fill n c next ih =>
    intro fs fs1 hr hv
    obtain ⟨h1, h2⟩ := ih (fs.set n c) (fs1.set n c) hr (fun f hf => set_agree _ (fun _ => hv f hf))
    exact ⟨h1, fun f hf => h2 f (fun hn => set_agree _ (fun e => hf (by simp [touched, e, hn])))⟩

/-- a request reads none of the files it writes -/
theorem reads_not_written (env : Env) (api : Api) (r : Request) : (actOf env api r).ReadsIn (fun f => f ∉ writes r) := by
  cases r with
  | call c =>
    cases c with
    | solveStatic c =>
      refine ⟨by
        simp only [writes, Api.filename, List.mem_cons, List.not_mem_nil, or_false, not_or]
        exact ⟨by decide, fun h => disp_ne_asb c h.symm⟩, fun f => ?_⟩
      simp only
      split
      · trivial
      · refine ⟨by
          simp only [writes, List.mem_cons, List.not_mem_nil, or_false, not_or]
          exact ⟨by decide, fun h => disp_ne_k c h.symm⟩, fun g => ?_⟩
        simp only
        split
        · trivial
        · split
          · trivial
          · simp only [Act.ReadsIn]
            split <;> trivial
    | assemble => simp only [actOf]; split <;> trivial
    | save f => trivial
    | _ => exact (actOf_reads env api _).mono (fun f _ => by simp [writes])
  | _ => exact (actOf_reads env api _).mono (fun f _ => by simp [writes])

/-- reading an unreadable file makes the call fail -/
def Strict : Act (Api × Answer) → Prop
  | .done _ => True
  | .read n k => (n ≠ "0.k" → ∀ fs, failure ((k (some .broken)).exec fs).1.2) ∧ ∀ x, Strict (k x)
  | .empty _ next => Strict next
  | .fill _ _ next => Strict next

/-- a call does not fail any more once a file other than `0.k.npy` is complete -/
def Sure : Act (Api × Answer) → Prop
  | .done _ => True
  | .read _ k => ∀ x, Sure (k x)
  | .empty _ next => Sure next
  | .fill n _ next => (n = "0.k.npy" ∧ Sure next) ∨ ∃ a, next = .done a ∧ ¬ failure a.2

theorem strict_table (api : Api) (c : String) (a : Assembly) (ns : List String) : ∀ t, Strict (tableAct api c a ns t) := by
  induction ns with
  | nil => intro t; trivial
  | cons n ns ih =>
    intro t
    refine ⟨fun _ fs => rfl, fun x => ?_⟩
    simp only
    split
    · trivial
    · exact ih _

theorem strict_actOf (env : Env) (api : Api) (r : Request) : Strict (actOf env api r) := by
  cases r with
  | call c =>
    cases c with
    | solveStatic c =>
      refine ⟨fun _ fs => rfl, fun f => ?_⟩
      simp only
      split
      · trivial
      · refine ⟨fun h => absurd rfl h, fun g => ?_⟩
        simp only
        split
        · trivial
        · split
          · trivial
          · simp only [Strict]
            split <;> trivial
    | assemble => simp only [actOf]; split <;> trivial
    | solveModal c n => exact ⟨fun _ fs => rfl, fun f => trivial⟩
    | save f => trivial
    | load f =>
      refine ⟨fun _ fs => rfl, fun x => ?_⟩
      simp only
      split <;> trivial
    | clearWorkspace => trivial
    | _ => simp only [actOf]; split <;> trivial
  | displacement n c =>
    refine ⟨fun _ fs => rfl, fun f => ?_⟩
    simp only
    split
    · trivial
    · exact ⟨fun _ fs => rfl, fun g => trivial⟩
  | table c =>
    refine ⟨fun _ fs => rfl, fun f => ?_⟩
    simp only
    split
    · trivial
    · exact strict_table _ _ _ _ _
  | deformation b l c =>
    refine ⟨fun _ fs => rfl, fun f => ?_⟩
    simp only
    split
    · trivial
    · exact ⟨fun _ fs => rfl, fun g => trivial⟩

theorem sure_table (api : Api) (c : String) (a : Assembly) (ns : List String) : ∀ t, Sure (tableAct api c a ns t) := by
  induction ns with
  | nil => intro t; trivial
  | cons n ns ih =>
    intro t x
    simp only
    split
    · trivial
    · exact ih _

theorem sure_actOf (env : Env) (api : Api) (r : Request) : Sure (actOf env api r) := by
  have ht : ∀ a : Api, ¬ failure (a, Answer.flag true).2 := fun a h => by simp [Spec.failure] at h
  cases r with
  | call c =>
    cases c with
    | solveStatic c =>
      intro f
      simp only
      split
      · trivial
      · intro g
        simp only
        split
        · trivial
        · split
          · trivial
          · refine Or.inl ⟨rfl, ?_⟩
            split
            · trivial
            · exact Or.inr ⟨_, rfl, ht _⟩
    | assemble =>
      simp only [actOf]
      split
      · exact Or.inr ⟨_, rfl, ht _⟩
      · trivial
    | solveModal c n => exact fun f => trivial
    | save f => exact Or.inr ⟨_, rfl, ht _⟩
    | load f =>
      intro x
      simp only
      split <;> trivial
    | clearWorkspace => trivial
    | _ => simp only [actOf]; split <;> trivial
  | displacement n c =>
    intro f
    simp only
    split
    · trivial
    · exact fun g => trivial
  | table c =>
    intro f
    simp only
    split
    · trivial
    · exact sure_table _ _ _ _ _
  | deformation b l c =>
    intro f
    simp only
    split
    · trivial
    · exact fun g => trivial

/-- after a failed call every file but `0.k.npy` is as it was or unreadable -/
theorem troubled_lost (g : Api × Answer) (A : Act (Api × Answer)) : ∀ (fails : List Bool) (fs : Dict (File Api)), Sure A →
    failure (A.troubled g fails fs).1.2 → ∀ f, f ≠ "0.k.npy" →
      (A.troubled g fails fs).2.get? f = fs.get? f ∨ (A.troubled g fails fs).2.get? f = some .broken := by
  induction A with
  | done a => intro fails fs _ _ f _; exact Or.inl rfl
  | read n k ih =>
    intro fails fs hs hf
    simp only [Act.troubled] at hf ⊢
    split at hf
    · split at hf
      · rename_i h1 h2; simp only [h1, h2, if_true]; exact ih none _ fs (hs none) hf
      · rename_i h1 h2; simp only [h1, h2, if_true, if_false]; exact fun f _ => Or.inl trivial
    · rename_i h1; simp only [h1]; exact ih _ _ fs (hs _) hf
  | empty n next ih =>
    intro fails fs hs hf f hn
    simp only [Act.troubled] at hf ⊢
    split at hf
    · rename_i h1; simp only [h1, if_true]; exact Or.inl trivial
    · rename_i h1; simp only [h1]
      rcases ih _ _ hs hf f hn with h | h
      · by_cases e : f = n
        · subst e; right; exact h.trans (set_get_self _ _ _)
        · left; exact h.trans (set_get_ne _ _ e)
      · exact Or.inr h
  | fill n c next ih =>
    intro fails fs hs hf f hn
    simp only [Act.troubled] at hf ⊢
    split at hf
    · rename_i h1; simp only [h1, if_true]; exact Or.inl trivial
    · rename_i h1; simp only [h1]
      rcases hs with ⟨rfl, hs⟩ | ⟨a, rfl, ha⟩
      · rcases ih _ _ hs hf f hn with h | h
        · left; exact h.trans (set_get_ne _ _ hn)
        · exact Or.inr h
      · exact absurd hf ha

/-- `fs` is `fs'` with some files lost; neither has a file `0.k` -/
def Worn (fs fs' : Dict (File Api)) : Prop :=
  fs.get? "0.k" = none ∧ fs'.get? "0.k" = none ∧ ∀ f, f ≠ "0.k.npy" → fs.get? f = fs'.get? f ∨ fs.get? f = some .broken

theorem Worn.set {fs fs' : Dict (File Api)} (h : Worn fs fs') {n : String} (hn : n ≠ "0.k") (c : File Api) : Worn (fs.set n c) (fs'.set n c) := by
  refine ⟨by rw [set_get_ne _ _ (Ne.symm hn), h.1], by rw [set_get_ne _ _ (Ne.symm hn), h.2.1], fun f hf => ?_⟩
  by_cases e : f = n
  · subst e; left; rw [set_get_self, set_get_self]
  · rw [set_get_ne _ _ e, set_get_ne _ _ e]; exact h.2.2 f hf

theorem exec_worn (A : Act (Api × Answer)) : ∀ (fs fs' : Dict (File Api)), Strict A → A.ReadsIn (fun f => f ≠ "0.k.npy") →
    A.WritesIn (fun f => f ≠ "0.k") → Worn fs fs' →
    failure (A.exec fs).1.2 ∨ ((A.exec fs).1 = (A.exec fs').1 ∧ Worn (A.exec fs).2 (A.exec fs').2) := by
  induction A with
  | done a => intro fs fs' _ _ _ h; exact Or.inr ⟨rfl, h⟩
  | read n k ih =>
    intro fs fs' hs hr hw h
    simp only [Act.exec]
    by_cases h0 : n = "0.k"
    · subst h0; rw [h.1, h.2.1]; exact ih _ fs fs' (hs.2 _) (hr.2 _) (hw _) h
    · rcases h.2.2 n hr.1 with e | e
      · rw [e]; exact ih _ fs fs' (hs.2 _) (hr.2 _) (hw _) h
      · rw [e]; exact Or.inl (hs.1 h0 fs)
  | empty n next ih => intro fs fs' hs hr hw h; exact ih _ _ hs hr hw.2 (h.set hw.1 _)
  | fill n c next ih => intro fs fs' hs hr hw h; exact ih _ _ hs hr hw.2 (h.set hw.1 _)

theorem concerns_ne (r : Request) : ∀ f ∈ concerns r, f ≠ "0.k.npy" := by
  intro f hf
  cases r with
  | call c =>
    cases c <;> simp [concerns] at hf
    all_goals first
      | (subst hf; first | decide | exact sep_ne_stiff _)
      | (rcases hf with rfl | rfl | rfl
         · decide
         · decide
         · exact disp_ne_stiff _)
  | _ =>
    simp [concerns] at hf
    rcases hf with rfl | rfl
    · decide
    · exact disp_ne_stiff _

/-- a call that fails gives the object back as it was -/
def Mild (api : Api) : Act (Api × Answer) → Prop
  | .done a => failure a.2 → a.1 = api
  | .read _ k => ∀ x, Mild api (k x)
  | .empty _ next => Mild api next
  | .fill _ _ next => Mild api next

theorem mild_table (api : Api) (c : String) (a : Assembly) (ns : List String) : ∀ t, Mild api (tableAct api c a ns t) := by
  induction ns with
  | nil => intro t h; rfl
  | cons n ns ih =>
    intro t x
    simp only
    split
    · exact fun _ => rfl
    · exact ih _

theorem mild_actOf (env : Env) (api : Api) (r : Request) : Mild api (actOf env api r) := by
  cases r with
  | call c =>
    cases c with
    | solveStatic c =>
      intro f
      simp only
      split
      · exact fun _ => rfl
      · intro g
        simp only
        split
        · exact fun _ => rfl
        · split
          · exact fun _ => rfl
          · simp only [Mild]
            split <;> exact fun _ => rfl
    | assemble =>
      simp only [actOf]
      split <;> exact fun _ => rfl
    | solveModal c n => exact fun f _ => rfl
    | save f => exact fun _ => rfl
    | load f =>
      intro x
      simp only
      split
      · intro h; simp [Spec.failure] at h
      · exact fun _ => rfl
    | clearWorkspace => exact fun _ => rfl
    | _ =>
      simp only [actOf]
      split
      · intro h; simp [Spec.failure] at h
      · exact fun _ => rfl
  | displacement n c =>
    intro f
    simp only
    split
    · exact fun _ => rfl
    · exact fun g _ => rfl
  | table c =>
    intro f
    simp only
    split
    · exact fun _ => rfl
    · exact mild_table _ _ _ _ _
  | deformation b l c =>
    intro f
    simp only
    split
    · exact fun _ => rfl
    · exact fun g _ => rfl

theorem troubled_mild {api : Api} {x : Answer} (A : Act (Api × Answer)) : ∀ (fails : List Bool) (fs : Dict (File Api)), Mild api A →
    failure (A.troubled (api, x) fails fs).1.2 → (A.troubled (api, x) fails fs).1.1 = api := by
  induction A with
  | done a => exact fun _ _ h => h
  | read n k ih =>
    intro fails fs h
    simp only [Act.troubled]
    split
    · split
      · exact ih _ _ _ (h _)
      · exact fun _ => rfl
    · exact ih _ _ _ (h _)
  | empty n next ih =>
    intro fails fs h
    simp only [Act.troubled]
    split
    · exact fun _ => rfl
    · exact ih _ _ h
  | fill n c next ih =>
    intro fails fs h
    simp only [Act.troubled]
    split
    · exact fun _ => rfl
    · exact ih _ _ h

/-! ### the theorems -/

/-- **C169, all or nothing.** Whatever file operations fail, a call is either answered with `False` or `None` and leaves the model in memory as it
was, or it has the answer and all the effects it has on a sound disk. -/
theorem C169_all_or_nothing (env : Env) (w : World) (h0 : w.fs.get? "0.k" = none) (a : Attempt) :
    (failure (w.attempt env a).2 ∧ (w.attempt env a).1.api = w.api) ∨ w.attempt env a = respond env w a.request := by
  rcases troubled_or (w.api, refusal a.request) (actOf env w.api a.request) a.fails w.fs h0
    ((actOf_writes env w.api a.request).mono (fun f hf => writes_ne_k _ f hf)) with h | h
  · right
    unfold World.attempt
    rw [h, exec_actOf]
  · left
    simp only [World.attempt]
    rw [h]
    exact ⟨failure_refusal _, rfl⟩

/-- **C169, nothing else is touched.** Whatever file operations fail, a call changes no file but those it writes. -/
theorem C169_confined (env : Env) (w : World) (a : Attempt) (f : String) (hf : f ∉ writes a.request) :
    (w.attempt env a).1.fs.get? f = w.fs.get? f :=
  troubled_keeps _ hf _ _ _ (actOf_writes env w.api a.request)

/-- **C169, the model in memory.** A call that fails, whatever the reason, leaves the model in memory as it was. -/
theorem C169_model (env : Env) (w : World) (a : Attempt) (hf : failure (w.attempt env a).2) : (w.attempt env a).1.api = w.api :=
  troubled_mild _ _ _ (mild_actOf env w.api a.request) hf

/-- **C169, losses.** A call that fails leaves every file as it was or unreadable: no file with half of the new and half of the old content, and no
file that can be read but is wrong.  (`0.k.npy` is never read.) -/
theorem C169_losses (env : Env) (w : World) (a : Attempt) (hf : failure (w.attempt env a).2) (f : String) (hn : f ≠ "0.k.npy") :
    (w.attempt env a).1.fs.get? f = w.fs.get? f ∨ (w.attempt env a).1.fs.get? f = some .broken :=
  troubled_lost _ _ _ _ (sure_actOf env w.api a.request) hf f hn

/-- **C169, trying again.** When a call fails, whatever the reason, and is repeated with a sound disk, it has the answer and leaves the model and the
files it would have had and left without the failure. -/
theorem C169_retry (env : Env) (w : World) (h0 : w.fs.get? "0.k" = none) (a : Attempt) (hf : failure (w.attempt env a).2) :
    (respond env (w.attempt env a).1 a.request).2 = (respond env w a.request).2 ∧
    (respond env (w.attempt env a).1 a.request).1.api = (respond env w a.request).1.api ∧
    EqualFolders (respond env (w.attempt env a).1 a.request).1.fs (respond env w a.request).1.fs := by
  have hm : (w.attempt env a).1.api = w.api := C169_model env w a hf
  have hw := (actOf_writes env w.api a.request).mono (fun f hf => writes_ne_k _ f hf)
  obtain ⟨h1, h2⟩ := exec_agree (actOf env w.api a.request) w.fs (w.attempt env a).1.fs (reads_not_written env w.api a.request)
    (fun f hf => C169_confined env w a f hf)
  have e1 := exec_actOf env w a.request
  have e2 := exec_actOf env (w.attempt env a).1 a.request
  rw [hm] at e2
  rw [e1, e2] at h1
  simp only [Prod.mk.injEq] at h1
  refine ⟨h1.2, h1.1, fun f => ?_⟩
  have := h2 f (fun hn => troubled_untouched _ _ _ _ h0 hw hn)
  rw [e1, e2] at this
  exact this

theorem attempt_k (env : Env) (w : World) (h0 : w.fs.get? "0.k" = none) (a : Attempt) : (w.attempt env a).1.fs.get? "0.k" = none := by
  rw [C169_confined env w a "0.k" (fun h => writes_ne_k _ _ h rfl), h0]

theorem attempts_k (env : Env) (past : List Attempt) : ∀ w : World, w.fs.get? "0.k" = none → (w.attempts env past).fs.get? "0.k" = none := by
  induction past with
  | nil => exact fun w h => h
  | cons a as ih => exact fun w h => ih _ (attempt_k env w h a)

theorem worn_step (env : Env) (w v : World) (ha : w.api = v.api) (hw : Worn w.fs v.fs) (a : Attempt) :
    (failure (w.attempt env a).2 ∧ (w.attempt env a).1.api = v.api ∧ Worn (w.attempt env a).1.fs v.fs) ∨
    (¬ failure (w.attempt env a).2 ∧ (w.attempt env a).2 = (respond env v a.request).2 ∧
      (w.attempt env a).1.api = (respond env v a.request).1.api ∧ Worn (w.attempt env a).1.fs (respond env v a.request).1.fs) := by
  by_cases hf : failure (w.attempt env a).2
  · refine Or.inl ⟨hf, (C169_model env w a hf).trans ha, attempt_k env w hw.1 a, hw.2.1, fun f hn => ?_⟩
    rcases C169_losses env w a hf f hn with h | h
    · rw [h]; exact hw.2.2 f hn
    · exact Or.inr h
  · refine Or.inr ⟨hf, ?_⟩
    rcases C169_all_or_nothing env w hw.1 a with h | h
    · exact absurd h.1 hf
    · rw [h] at hf ⊢
      have := exec_worn (actOf env w.api a.request) w.fs v.fs (strict_actOf _ _ _)
        ((actOf_reads env w.api a.request).mono (fun f hf => concerns_ne _ f hf))
        ((actOf_writes env w.api a.request).mono (fun f hf => writes_ne_k _ f hf)) hw
      have e1 := exec_actOf env w a.request
      have e2 := exec_actOf env v a.request
      rw [← ha] at e2
      rw [e1, e2] at this
      rcases this with h | ⟨h, h'⟩
      · exact absurd h hf
      · simp only [Prod.mk.injEq] at h
        exact ⟨h.2, h.1, h'⟩

theorem worn_run (env : Env) (past : List Attempt) : ∀ w v : World, w.api = v.api → Worn w.fs v.fs →
    (w.attempts env past).api = (after env v (succeeded env w past)).api ∧
      Worn (w.attempts env past).fs (after env v (succeeded env w past)).fs := by
  induction past with
  | nil => exact fun w v ha hw => ⟨ha, hw⟩
  | cons a as ih =>
    intro w v ha hw
    show ((w.attempt env a).1.attempts env as).api = _ ∧ Worn ((w.attempt env a).1.attempts env as).fs _
    rcases worn_step env w v ha hw a with ⟨hf, h1, h2⟩ | ⟨hf, _, h1, h2⟩
    · rw [succeeded, if_pos hf]; exact ih _ _ h1 h2
    · rw [succeeded, if_neg hf]; exact ih _ _ h1 h2

/-- **C169, never wrong.** Make any requests, while any of their file operations fail.  The model in memory is the one that the successful calls
alone give on a sound disk, and whatever is asked next is answered with `False` or `None`, or as it would be after the successful calls alone. -/
theorem C169_never_wrong (env : Env) (w : World) (h0 : w.fs.get? "0.k" = none) (past : List Attempt) (a : Attempt) :
    (w.attempts env past).api = (after env w (succeeded env w past)).api ∧
    (failure ((w.attempts env past).attempt env a).2 ∨
      ((w.attempts env past).attempt env a).2 = (respond env (after env w (succeeded env w past)) a.request).2) := by
  obtain ⟨h1, h2⟩ := worn_run env past w w rfl ⟨h0, h0, fun _ _ => Or.inl rfl⟩
  refine ⟨h1, ?_⟩
  rcases worn_step env _ _ h1 h2 a with h | h
  · exact Or.inl h.1
  · exact Or.inr h.2.1

/-- **C169, the others.** A call that fails changes the answer to no request that is about other files. -/
theorem C169_others (env : Env) (w : World) (a : Attempt) (hf : failure (w.attempt env a).2) (r : Request)
    (hr : ∀ f ∈ concerns r, f ∉ writes a.request) : (respond env (w.attempt env a).1 r).2 = (respond env w r).2 := by
  have hm : (w.attempt env a).1.api = w.api := C169_model env w a hf
  obtain ⟨h1, _⟩ := exec_agree (actOf env w.api r) w.fs (w.attempt env a).1.fs (actOf_reads env w.api r)
    (fun f hf => C169_confined env w a f (hr f hf))
  have e1 := exec_actOf env w r
  have e2 := exec_actOf env (w.attempt env a).1 r
  rw [hm] at e2
  rw [e1, e2] at h1
  simp only [Prod.mk.injEq] at h1
  exact h1.2

theorem respond_agree (env : Env) {w v : World} (ha : w.api = v.api) (r : Request) (h : ∀ f ∈ concerns r, w.fs.get? f = v.fs.get? f) :
    (respond env w r).2 = (respond env v r).2 := by
  obtain ⟨h1, _⟩ := exec_agree (actOf env v.api r) v.fs w.fs (actOf_reads env v.api r) h
  have e1 := exec_actOf env v r
  have e2 := exec_actOf env w r
  rw [ha] at e2
  rw [e1, e2] at h1
  simp only [Prod.mk.injEq] at h1
  exact h1.2

theorem assembled_files (env : Env) {w : World} {x : Assembly} (hx : w.api.assembly = .ok x) :
    after env w [.call .assemble] = ⟨w.api, w.fs.set ".asb" (.asb x)⟩ := by
  simp only [after, respond, World.step, hx, Api.filename]

/-- what a successful solution leaves depends on the assembly only -/
theorem solved_files (env : Env) (api : Api) (fs : Dict (File Api)) (x : Assembly) (hx : fs.get? ".asb" = some (.asb x)) (c : String) :
    ((solveAct env api c).exec fs).1.1 = api ∧ ((solveAct env api c).exec fs).2.get? ".asb" = fs.get? ".asb" ∧
    (((solveAct env api c).exec fs).1.2 = .flag true →
      ∃ K d, x.assembleK env = .ok K ∧ solveCase env x c K = .ok d ∧
        ((solveAct env api c).exec fs).2.get? (c ++ ".d.npy") = some (.disp d)) := by
  have h1 : asbOf (fs.get? Api.filename) = .ok x := by rw [show Api.filename = ".asb" from rfl, hx]; rfl
  simp only [solveAct, Act.exec, h1]
  by_cases hg : (fs.get? "0.k").isSome = true
  · simp only [hg, if_true, Act.exec]
    exact ⟨trivial, trivial, fun h => by simp at h⟩
  · simp only [if_neg hg]
    cases hK : x.assembleK env with
    | error e => simp only [Act.exec]; exact ⟨trivial, trivial, fun h => by simp at h⟩
    | ok K =>
      simp only [Act.exec]
      cases hd : solveCase env x c K with
      | error e =>
        simp only [Act.exec]
        refine ⟨trivial, ?_, fun h => by simp at h⟩
        rw [set_get_ne _ _ (by decide), set_get_ne _ _ (by decide)]
      | ok d =>
        simp only [Act.exec]
        refine ⟨trivial, ?_, fun _ => ⟨K, d, rfl, hd, set_get_self _ _ _⟩⟩
        rw [set_get_ne _ _ (Ne.symm (disp_ne_asb c)), set_get_ne _ _ (Ne.symm (disp_ne_asb c)), set_get_ne _ _ (by decide),
          set_get_ne _ _ (by decide)]

/-- **C169, a new start.** After any requests with any failures, `assemble` and `solve_static` on a sound disk give the results of somebody who
has the same model and an empty folder. -/
theorem C169_recovery (env : Env) (w₀ : World) (h0 : w₀.fs.get? "0.k" = none) (past : List Attempt) (w : World)
    (hw : w = w₀.attempts env past) (hA : (respond env w (.call .assemble)).2 = .flag true) (c : String) :
    (respond env (after env w [.call .assemble]) (.call (.solveStatic c))).2 = proper env w.api (.call (.solveStatic c)) ∧
    ((respond env (after env w [.call .assemble]) (.call (.solveStatic c))).2 = .flag true →
      ∀ r, (∀ d, r ≠ .call d) → caseOf r = some c →
        (respond env (after env w [.call .assemble, .call (.solveStatic c)]) r).2 = proper env w.api r) := by
  have hk : w.fs.get? "0.k" = none := hw ▸ attempts_k env past w₀ h0
  have hx : ∃ x, w.api.assembly = .ok x := by
    simp only [respond, World.step] at hA
    cases h : w.api.assembly with
    | ok x => exact ⟨x, rfl⟩
    | error e => rw [h] at hA; simp at hA
  obtain ⟨x, hx⟩ := hx
  have e1 := assembled_files env hx
  have e2 : after env ⟨w.api, []⟩ [.call .assemble] = ⟨w.api, Dict.set [] ".asb" (.asb x)⟩ :=
    assembled_files env (w := ⟨w.api, []⟩) hx
  have hsame : ∀ f, f = ".asb" ∨ f = "0.k" → (w.fs.set ".asb" (.asb x)).get? f = (Dict.set [] ".asb" (.asb x) : Dict (File Api)).get? f := by
    rintro f (rfl | rfl)
    · rw [set_get_self, set_get_self]
    · rw [set_get_ne _ _ (by decide), set_get_ne _ _ (by decide), hk]; rfl
  have hread : (solveAct env w.api c).ReadsIn (fun f => f = ".asb" ∨ f = "0.k") := by
    refine ⟨Or.inl rfl, fun f => ?_⟩
    simp only
    split
    · trivial
    · refine ⟨Or.inr rfl, fun g => ?_⟩
      simp only
      split
      · trivial
      · split
        · trivial
        · simp only [Act.ReadsIn]
          split <;> trivial
  obtain ⟨hv, _⟩ := exec_agree (solveAct env w.api c) _ _ hread hsame
  have x1 := exec_solve env ⟨w.api, w.fs.set ".asb" (.asb x)⟩ c
  have x2 := exec_solve env ⟨w.api, Dict.set [] ".asb" (.asb x)⟩ c
  simp only at x1 x2
  have s1 := solved_files env w.api (w.fs.set ".asb" (.asb x)) x (set_get_self _ _ _) c
  have s2 := solved_files env w.api (Dict.set [] ".asb" (.asb x)) x (set_get_self _ _ _) c
  rw [x1, x2] at hv
  simp only [Prod.mk.injEq] at hv
  rw [x1] at s1
  rw [x2] at s2
  refine ⟨by rw [e1, proper, e2]; exact hv.2, fun ht r hr hc => ?_⟩
  rw [e1] at ht
  have ht2 := hv.2.symm.trans ht
  obtain ⟨K, d, hK, hd, hf⟩ := s1.2.2 ht
  obtain ⟨K', d', hK', hd', hf'⟩ := s2.2.2 ht2
  rw [hK] at hK'; cases hK'
  rw [hd] at hd'; cases hd'
  have key : ∀ f, f = ".asb" ∨ f = c ++ ".d.npy" →
      (after env w [.call .assemble, .call (.solveStatic c)]).fs.get? f =
        (after env ⟨w.api, []⟩ [.call .assemble, .call (.solveStatic c)]).fs.get? f := by
    intro f hff
    show (respond env (after env w [.call .assemble]) (.call (.solveStatic c))).1.fs.get? f =
      (respond env (after env ⟨w.api, []⟩ [.call .assemble]) (.call (.solveStatic c))).1.fs.get? f
    rw [e1, e2]
    rcases hff with rfl | rfl
    · rw [s1.2.1, s2.2.1, set_get_self, set_get_self]
    · rw [hf, hf']
  have ka : (after env w [.call .assemble, .call (.solveStatic c)]).api =
        (after env ⟨w.api, []⟩ [.call .assemble, .call (.solveStatic c)]).api := by
    show (respond env (after env w [.call .assemble]) (.call (.solveStatic c))).1.api =
      (respond env (after env ⟨w.api, []⟩ [.call .assemble]) (.call (.solveStatic c))).1.api
    rw [e1, e2]; exact s1.1.trans s2.1.symm
  cases r with
  | call d => exact absurd rfl (hr d)
  | displacement n c' => cases hc; exact respond_agree env ka _ (fun f hf => key f (by simpa [concerns] using hf))
  | table c' => cases hc; exact respond_agree env ka _ (fun f hf => key f (by simpa [concerns] using hf))
  | deformation b l c' => cases hc; exact respond_agree env ka _ (fun f hf => key f (by simpa [concerns] using hf))

/-! ### what is lost -/

/-- A call that fails because of the disk changes no answer: what was saved, assembled or solved before is still there. -/
def C169_claim : Prop := ∀ (env : Env) (w : World), w.fs.get? "0.k" = none → ∀ a : Attempt, failure (w.attempt env a).2 →
  ∀ r, (respond env (w.attempt env a).1 r).2 = (respond env w r).2

/-- The old file is emptied before the new one is written: when the disk is full both are lost. -/
theorem C169_false : ¬ C169_claim := by
  intro h
  have := h idealEnv ⟨Api.init, [("f.sep", .sep Api.init)]⟩ (by decide) ⟨.call (.save "f"), [false, true]⟩ rfl (.call (.load "f"))
  revert this
  simp [World.attempt, actOf, Act.troubled, respond, World.step, Dict.set, Dict.get?]

/-- **C169, what is lost.** When the disk is full while a file is written, a `save` that fails takes the file of that name with it, an
`assemble` the old assembly, and a `solve_static` the results of the case. -/
theorem C169_lost_partial (env : Env) (w : World) :
    (∀ f, let x := w.attempt env ⟨.call (.save f), [false, true]⟩
      failure x.2 ∧ failure (respond env x.1 (.call (.load f))).2) ∧
    ((respond env w (.call .assemble)).2 = .flag true → let x := w.attempt env ⟨.call .assemble, [false, true]⟩
      failure x.2 ∧ ∀ c n, failure (respond env x.1 (.call (.solveStatic c))).2 ∧ failure (respond env x.1 (.displacement n c)).2) ∧
    ∀ c, (respond env w (.call (.solveStatic c))).2 = .flag true →
      let x := w.attempt env ⟨.call (.solveStatic c), [false, false, false, false, false, true]⟩
      failure x.2 ∧ ∀ n, failure (respond env x.1 (.displacement n c)).2 := by
  refine ⟨fun f => ?_, fun hA => ?_, fun c hc => ?_⟩
  · refine ⟨rfl, ?_⟩
    simp only [World.attempt, actOf, Act.troubled, List.headD_cons, List.tail_cons, if_true, Bool.false_eq_true, if_false, respond,
      World.step, set_get_self]
    rfl
  · simp only [respond, World.step] at hA
    cases h : w.api.assembly with
    | error e => rw [h] at hA; simp at hA
    | ok x =>
      simp only [World.attempt, actOf, h, Act.troubled, List.headD_cons, List.tail_cons, if_true, Bool.false_eq_true, if_false]
      refine ⟨rfl, fun c n => ?_⟩
      have hb : openAssembly (w.fs.set Api.filename .broken) Api.filename = .error .exception := by
        rw [openAssembly_eq, set_get_self]; rfl
      refine ⟨?_, ?_⟩
      · simp only [respond, World.step, solveLinear, hb]; rfl
      · simp only [respond, World.resultGetNodalDisplacement, resolveNodalDisplacement, hb]; rfl
  · have e := exec_solve env w c
    have e2 : ((solveAct env w.api c).exec w.fs).1.2 = .flag true := by rw [e]; exact hc
    simp only [solveAct, Act.exec] at e2
    simp only [World.attempt, actOf, solveAct, Act.troubled, List.headD_cons, List.tail_cons, Bool.false_eq_true, if_false]
    cases hx : asbOf (w.fs.get? Api.filename) with
    | error e => rw [hx] at e2; simp [Act.exec] at e2
    | ok x =>
      rw [hx] at e2
      simp only [Act.exec] at e2
      simp only [Act.troubled, List.headD_cons, List.tail_cons, Bool.false_eq_true, if_false]
      by_cases hg : (w.fs.get? "0.k").isSome = true
      · simp [hg, Act.exec] at e2
      · rw [if_neg hg] at e2 ⊢
        cases hK : x.assembleK env with
        | error e => rw [hK] at e2; simp [Act.exec] at e2
        | ok K =>
          rw [hK] at e2
          simp only [Act.exec] at e2
          simp only [Act.troubled, List.headD_cons, List.tail_cons, Bool.false_eq_true, if_false]
          cases hd : solveCase env x c K with
          | error e => rw [hd] at e2; simp [Act.exec] at e2
          | ok d =>
            simp only [Act.troubled, List.headD_cons, List.tail_cons, Bool.false_eq_true, if_false, if_true]
            refine ⟨rfl, fun n => ?_⟩
            have hl : ∀ fs : Dict (File Api), loadDisp (fs.set (c ++ ".d.npy") .broken) c = .error .exception := fun fs => by
              rw [loadDisp_eq, set_get_self]; rfl
            simp only [respond, World.resultGetNodalDisplacement, resolveNodalDisplacement, hl]
            cases openAssembly (Dict.set _ (c ++ ".d.npy") .broken) Api.filename <;> rfl

/-- the cantilever: an `assemble` on a full disk fails, the second succeeds, and the solution after it too; a third `assemble` succeeds, and
with it the hypotheses of `C169_recovery` hold; saving on a full disk is a failure for `C169_retry`, `C169_losses` and `C169_others` -/
example : ∃ w : World, w.fs.get? "0.k" = none ∧
    failure (w.attempt idealEnv ⟨.call .assemble, [false, true]⟩).2 ∧
    ¬ failure ((w.attempts idealEnv [⟨.call .assemble, [false, true]⟩]).attempt idealEnv ⟨.call .assemble, []⟩).2 ∧
    (respond idealEnv (w.attempts idealEnv [⟨.call .assemble, [false, true]⟩]) (.call .assemble)).2 = .flag true ∧
    proper idealEnv w.api (.call (.solveStatic "C")) = .flag true ∧
    failure (w.attempt idealEnv ⟨.call (.save "f"), [false, true]⟩).2 ∧
    (w.attempt idealEnv ⟨.call (.save "f"), [false, true]⟩).1.fs ≠ w.fs := by
  obtain ⟨api, x, hx, hs⟩ := demo_folder
  refine ⟨⟨api, []⟩, rfl, ?_, ?_, ?_, ?_, rfl, ?_⟩
  · simp only [World.attempt, actOf, hx, Act.troubled, List.headD_cons, List.tail_cons, if_true, Bool.false_eq_true, if_false]; rfl
  · simp only [World.attempts, List.foldl_cons, List.foldl_nil, World.attempt, actOf, hx, Act.troubled, List.headD_cons, List.tail_cons,
      if_true, Bool.false_eq_true, if_false, List.headD_nil, List.tail_nil]
    intro h; simp [Spec.failure] at h
  · simp only [World.attempts, List.foldl_cons, List.foldl_nil, World.attempt, actOf, hx, Act.troubled, List.headD_cons, List.tail_cons,
      if_true, Bool.false_eq_true, if_false, respond, World.step]
  · simp only [proper]
    rw [alone_asb idealEnv hx]
    simp only [respond, hs]
  · simp [World.attempt, actOf, Act.troubled, Dict.set]

end Hyperstatic
