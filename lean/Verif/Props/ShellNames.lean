import Verif.Props.Shell
import Verif.Props.Line
import Verif.Spec.ShellNames

/-! C171: shells can be listed and located like beams. -/

namespace Hyperstatic
open Matrix Spec

/-- The claim: after a successful call that adds a shell, its location is the list of locations of the nodes it reports. -/
def C171_claim : Prop :=
  ∀ (env : Env) (cs : List Call) (s n1 n2 n3 n4 : String) (c : Call), AddsShell s c →
    let w' := ((World.init.run env cs).step env c).1
    ((World.init.run env cs).step env c).2 = true → w'.getShellNodeNames s = some (n1, n2, n3, n4) →
    ∃ p1 p2 p3 p4, w'.getNodeLocation n1 = some p1 ∧ w'.getNodeLocation n2 = some p2 ∧ w'.getNodeLocation n3 = some p3 ∧
      w'.getNodeLocation n4 = some p4 ∧ w'.getShellLocation s = some (p1, p2, p3, p4)

/-- What the code does: in no state can the location of any shell be queried. -/
theorem C171_location_partial (w : World) (s : String) : w.getShellLocation s = none := by
  unfold World.getShellLocation FeModel.getShellLocation Dict.getItem
  cases w.api.model.shells.get? s <;> rfl

/-- A successful call that adds a shell lists it exactly once, in its old place if the name existed and last otherwise. All other shells
report the same nodes as before, and nodes and beams are untouched. -/
theorem C171_listing_partial (env : Env) (cs : List Call) (s : String) (c : Call) (hc : AddsShell s c)
    (h : ((World.init.run env cs).step env c).2 = true) :
    let w := World.init.run env cs
    let w' := (w.step env c).1
    w'.getShellNames.Nodup ∧ w'.getShellNames = (if s ∈ w.getShellNames then w.getShellNames else w.getShellNames ++ [s]) ∧
    (∀ s', s' ≠ s → w'.getShellNodeNames s' = w.getShellNodeNames s') ∧
    w'.getNodeNames = w.getNodeNames ∧ (∀ n, w'.getNodeLocation n = w.getNodeLocation n) ∧
    w'.getBeamNames = w.getBeamNames ∧ ∀ b, w'.getBeamNodeNames b = w.getBeamNodeNames b := by
  intro w w'
  have hI : ApiInv w.api := (ApiInv_run env cs).1
  obtain ⟨n1, n2, n3, n4, sec, rfl⟩ := hc
  obtain ⟨a, ha⟩ := (step_ok_iff env w _ rfl).mp h
  have hw : w' = { w with api := a } := step_world env w _ rfl a ha
  obtain ⟨e, _, rfl⟩ := ha
  rw [hw]
  have hwf : (w.api.model.shells.set s e).WF := Dict.set_wf hI.shells_wf _ _
  refine ⟨hwf, Dict.keys_set _ _ _, ?_, rfl, fun _ => rfl, rfl, fun _ => rfl⟩
  intro s' hs'
  simp [World.getShellNodeNames, FeModel.getShellConnection, withShell, Dict.getItem, Dict.get?_set_ne _ _ (Ne.symm hs')]

/-- A call that does not succeed, or adds no shell and loads no project, leaves the list of shells and the nodes they report as they
are. -/
theorem C171_frame_partial (env : Env) (w : World) (c : Call)
    (hc : (w.step env c).2 = false ∨ (∀ s, ¬ AddsShell s c) ∧ ∀ f, c ≠ .load f) :
    (w.step env c).1.getShellNames = w.getShellNames ∧
    ∀ s, (w.step env c).1.getShellNodeNames s = w.getShellNodeNames s := by
  suffices h : (w.step env c).1.api.model.shells = w.api.model.shells by
    unfold World.getShellNames World.getShellNodeNames FeModel.getShellConnection
    rw [h]
    exact ⟨rfl, fun _ => rfl⟩
  by_cases hedit : c.isEdit = true
  · rw [step_edit env w c hedit] at hc ⊢
    cases he : w.api.edit c with
    | error e => rfl
    | ok a =>
      rw [he] at hc
      obtain ⟨hs, -⟩ := hc.resolve_left (by simp)
      rw [edit_ok_iff] at he
      show a.model.shells = w.api.model.shells
      clear hc
      cases c <;> simp only [EditEff, SecBuild, PatUpd] at he
      case addShell => exact absurd ⟨_, _, _, _, _, rfl⟩ (hs _)
      case setNodalRestraint => rw [he]; split <;> rfl
      all_goals first
        | (rw [he])
        | (obtain ⟨_, _, rfl⟩ := he; rfl)
        | (obtain ⟨_, _, _, _, rfl⟩ := he; rfl)
        | (obtain ⟨_, _, _, _, _, _, rfl⟩ := he; rfl)
        | (obtain ⟨_, _, _, _, _, _, _, _, rfl⟩ := he; rfl)
  · cases c <;> simp only [Call.isEdit, not_true_eq_false] at hedit
    case assemble =>
      unfold World.step
      dsimp only
      split <;> rfl
    case solveStatic => rfl
    case solveModal => rfl
    case save => rfl
    case clearWorkspace =>
      unfold World.step
      dsimp only
      split <;> rfl
    case load f =>
      rcases hc with hc | ⟨_, hc⟩
      · unfold World.step at hc ⊢
        dsimp only at hc ⊢
        split at hc
        · cases hc
        · rfl
      · exact absurd rfl (hc f)

/-- In a session that loads no project, the listed shells are exactly those for which a call has succeeded. -/
theorem C171_history_partial (env : Env) (cs : List Call) (hl : ∀ f, Call.load f ∉ cs) (s : String) :
    s ∈ (World.init.run env cs).getShellNames ↔
      ∃ before c after, cs = before ++ c :: after ∧ AddsShell s c ∧ ((World.init.run env before).step env c).2 = true := by
  induction cs using List.reverseRecOn with
  | nil =>
    simp only [World.run, List.foldl_nil]
    constructor
    · intro h
      cases h
    · rintro ⟨b, c, a, h, _⟩
      cases b <;> cases h
  | append_singleton cs c ih =>
    have ih := ih (fun f hf => hl f (List.mem_append_left _ hf))
    have hrun : World.init.run env (cs ++ [c]) = ((World.init.run env cs).step env c).1 := by
      simp [World.run, List.foldl_append]
    have hlast : (∃ before d after, cs ++ [c] = before ++ d :: after ∧ AddsShell s d ∧
        ((World.init.run env before).step env d).2 = true) ↔
        (∃ before d after, cs = before ++ d :: after ∧ AddsShell s d ∧ ((World.init.run env before).step env d).2 = true) ∨
        AddsShell s c ∧ ((World.init.run env cs).step env c).2 = true := by
      constructor
      · rintro ⟨b, d, a, e, h1, h2⟩
        rcases List.eq_nil_or_concat a with rfl | ⟨a', x, rfl⟩
        · obtain ⟨e1, e2⟩ := List.append_inj' e rfl
          cases e2
          subst e1
          exact Or.inr ⟨h1, h2⟩
        · have e' : cs ++ [c] = (b ++ d :: a') ++ [x] := by rw [e]; simp
          obtain ⟨e1, -⟩ := List.append_inj' e' rfl
          exact Or.inl ⟨b, d, a', e1, h1, h2⟩
      · rintro (⟨b, d, a, rfl, h1, h2⟩ | ⟨h1, h2⟩)
        · exact ⟨b, d, a ++ [c], by simp, h1, h2⟩
        · exact ⟨cs, c, [], rfl, h1, h2⟩
    rw [hlast, hrun, ← ih]
    by_cases hok : ((World.init.run env cs).step env c).2 = true
    · by_cases hadd : ∃ t, AddsShell t c
      · obtain ⟨t, ht⟩ := hadd
        have := (C171_listing_partial env cs t c ht hok).2.1
        rw [this]
        have hst : AddsShell s c ↔ s = t := by
          constructor
          · rintro ⟨_, _, _, _, _, rfl⟩
            obtain ⟨_, _, _, _, _, e⟩ := ht
            cases e
            rfl
          · rintro rfl
            exact ht
        rw [hst]
        split
        · rename_i hm
          constructor
          · exact Or.inl
          · rintro (h | ⟨rfl, _⟩)
            · exact h
            · exact hm
        · simp [hok]
      · have hf := (C171_frame_partial env (World.init.run env cs) c
          (Or.inr ⟨fun t ht => hadd ⟨t, ht⟩, fun f e => hl f (by simp [e])⟩)).1
        rw [hf]
        constructor
        · exact Or.inl
        · rintro (h | ⟨h, _⟩)
          · exact h
          · exact absurd ⟨s, h⟩ hadd
    · have hf := (C171_frame_partial env (World.init.run env cs) c (Or.inl (by simpa using hok))).1
      rw [hf]
      constructor
      · exact Or.inl
      · rintro (h | ⟨_, h⟩)
        · exact h
        · exact absurd h hok

/-- the four nodes of a square and a section: the call that adds the shell succeeds, and the shell reports its nodes -/
theorem square_shell (env : Env) :
    ((World.init.run env squareCalls).step env (.addShell "Q" "S" "A" "B" "C" (some "D"))).2 = true ∧
    ((World.init.run env squareCalls).step env (.addShell "Q" "S" "A" "B" "C" (some "D"))).1.getShellNodeNames "Q" =
      some ("A", "B", "C", "D") := by
  have h := C49_actual_partial env squareCalls _ rfl "Q" "S" "A" "B" "C" "D"
  have ok : ((World.init.run env squareCalls).step env (.addShell "Q" "S" "A" "B" "C" (some "D"))).2 = true := by
    rw [h.1, square_run]
    refine ⟨rfl, ?_, ?_, ?_, ?_⟩ <;> simp [World.getNodeNames, Dict.keys]
  exact ⟨ok, h.2 ok⟩

theorem C171_false : ¬ C171_claim := by
  intro h
  let env : Env := ⟨fun _ => 0, fun _ => 0, fun _ _ _ => .error .exception⟩
  obtain ⟨p1, p2, p3, p4, _, _, _, _, e⟩ := h env squareCalls "Q" "A" "B" "C" "D" _ ⟨_, _, _, _, _, rfl⟩
    (square_shell env).1 (square_shell env).2
  rw [C171_location_partial] at e
  cases e

/-- after the call the square is listed once -/
example (env : Env) : (World.init.run env (squareCalls ++ [.addShell "Q" "S" "A" "B" "C" (some "D")])).getShellNames = ["Q"] := by
  have h := (C171_listing_partial env squareCalls "Q" _ ⟨_, _, _, _, _, rfl⟩ (square_shell env).1).2.1
  have hrun : World.init.run env (squareCalls ++ [.addShell "Q" "S" "A" "B" "C" (some "D")]) =
      ((World.init.run env squareCalls).step env (.addShell "Q" "S" "A" "B" "C" (some "D"))).1 := by
    simp [World.run, List.foldl_append]
  rw [hrun]
  refine h.trans ?_
  rw [square_run]
  rfl

end Hyperstatic
