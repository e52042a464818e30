import Verif.Model.Logger

/-
C175: the log.
-/

namespace Hyperstatic

/-- the messages given to `info` by a list of calls, in order, with their times and targets -/
def messages (cs : List LogCall) : List (String × String × String) :=
  cs.filterMap fun | .info time log target => some (time, log, target) | .writeFile .. => none

/-- The property: what is written to a file is in the file afterwards, and so is a message whose target is a file. -/
def C175_claim : Prop :=
  ∀ (d : Desk) (target : String), (d.files.get? target).isSome → target ≠ "console" →
    (∀ text, ∃ t, ((LogCall.writeFile text target).run d).1.files.get? target = some t ∧ text.toList <:+: t.toList) ∧
    ∀ time log, ∃ t, ((LogCall.info time log target).run d).1.files.get? target = some t ∧ log.toList <:+: t.toList

/-- **C175, the screen.** Whatever calls are made, with whatever targets and failures in between, everything printed before stays and the
messages given to `info` are printed with their times, each once and in order, with one line between them for every attempt to write; a
program that only gives messages prints nothing else. -/
theorem C175_screen_partial (d : Desk) (cs : List LogCall) :
    (∃ new : List String, (LogCall.runAll d cs).screen = d.screen ++ new ∧ new.length = cs.length ∧
      ∀ (i : Nat) (time log target : String), cs[i]? = some (LogCall.info time log target) → new[i]? = some (time ++ " : " ++ log)) ∧
    ((∀ text target, LogCall.writeFile text target ∉ cs) →
      (LogCall.runAll d cs).screen = d.screen ++ (messages cs).map fun m => m.1 ++ " : " ++ m.2.1) := by
  induction cs generalizing d with
  | nil => exact ⟨⟨[], by simp [LogCall.runAll]⟩, fun _ => by simp [LogCall.runAll, messages]⟩
  | cons c cs ih =>
    obtain ⟨⟨new, h1, h2, h3⟩, h4⟩ := ih (c.run d).1
    have e : LogCall.runAll d (c :: cs) = LogCall.runAll (c.run d).1 cs := rfl
    rw [e]
    obtain ⟨l, hl, hc⟩ : ∃ l, (c.run d).1.screen = d.screen ++ [l] ∧ ∀ time log target, c = .info time log target → l = time ++ " : " ++ log := by
      cases c with
      | info time log target =>
        refine ⟨time ++ " : " ++ log, ?_, fun _ _ _ h => by cases h; rfl⟩
        unfold LogCall.run
        simp only
        split <;> rfl
      | writeFile text target =>
        unfold LogCall.run
        simp only
        cases d.files.get? target with
        | some t => exact ⟨_, rfl, fun _ _ _ h => by cases h⟩
        | none => exact ⟨_, rfl, fun _ _ _ h => by cases h⟩
    constructor
    · refine ⟨l :: new, by rw [h1, hl]; simp, by simp [h2], ?_⟩
      intro i time log target h
      cases i with
      | zero =>
        rw [List.getElem?_cons_zero, Option.some.injEq] at h
        rw [List.getElem?_cons_zero, hc _ _ _ h]
      | succ i =>
        rw [List.getElem?_cons_succ] at h ⊢
        exact h3 i time log target h
    · intro hn
      rw [h4 fun text target h => hn text target (List.mem_cons_of_mem _ h), hl]
      cases c with
      | info time log target =>
        rw [hc _ _ _ rfl]
        simp [messages]
      | writeFile text target => exact absurd List.mem_cons_self (hn text target)

/-- **C175, the files.** No call ever changes a file: neither `write_file` nor a message with a file as target. -/
theorem C175_files_partial (d : Desk) (cs : List LogCall) : (LogCall.runAll d cs).files = d.files := by
  induction cs generalizing d with
  | nil => rfl
  | cons c cs ih =>
    have e : LogCall.runAll d (c :: cs) = LogCall.runAll (c.run d).1 cs := rfl
    rw [e, ih]
    cases c with
    | info time log target =>
      unfold LogCall.run
      simp only
      split <;> rfl
    | writeFile text target =>
      unfold LogCall.run
      simp only
      split <;> rfl

/-- **C175, failures.** A message never raises.  Writing raises just when the file does not exist, with a `NameError` about the function's
own variable. -/
theorem C175_raises_partial (d : Desk) :
    (∀ time log target, ((LogCall.info time log target).run d).2 = .ok ()) ∧
    ∀ text target, ((LogCall.writeFile text target).run d).2 =
      if (d.files.get? target).isSome then .ok () else .error .nameError := by
  constructor
  · intro time log target
    unfold LogCall.run
    simp only
    split <;> rfl
  · intro text target
    unfold LogCall.run
    simp only
    cases d.files.get? target <;> rfl

/-- The property fails: nothing is ever written. -/
theorem C175_false : ¬ C175_claim := by
  intro h
  obtain ⟨t, h1, h2⟩ := (h ⟨[("log.txt", "")], []⟩ "log.txt" (by simp [Dict.get?]) (by decide)).1 "a"
  have e := C175_files_partial ⟨[("log.txt", "")], []⟩ [.writeFile "a" "log.txt"]
  change ((LogCall.writeFile "a" "log.txt").run ⟨[("log.txt", "")], []⟩).1.files = _ at e
  rw [e] at h1
  simp only [Dict.get?, if_true, Option.some.injEq] at h1
  subst h1
  simp at h2

/-- two messages and an attempt to write between them -/
example : (LogCall.runAll ⟨[], []⟩ [.info "t1" "a" "console", .writeFile "b" "f", .info "t2" "c" "f"]).screen.length = 3 := by
  obtain ⟨⟨new, h1, h2, -⟩, -⟩ := C175_screen_partial ⟨[], []⟩ [.info "t1" "a" "console", .writeFile "b" "f", .info "t2" "c" "f"]
  rw [h1]
  simp [h2]

end Hyperstatic
