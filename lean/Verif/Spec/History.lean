import Verif.Model.Api

/-
Vocabulary for statements about histories of API calls.
-/

namespace Hyperstatic.Spec

/-- An abstract machine: what a user believes an `Api` object stores, and how a call changes it. -/
structure Machine (S : Type) where
  init : S
  edit : S → Call → S

/-- Current abstract state, and the abstract states saved under file names. -/
structure MState (S : Type) where
  cur : S
  saved : String → Option S

/-- `save` remembers the current state under a name, `load` goes back to the state remembered there (and does
nothing when there is none); every other call edits the current state. -/
def Machine.step {S : Type} (M : Machine S) (s : MState S) : Call → MState S
  | .save f => { s with saved := fun g => if g = f then some s.cur else s.saved g }
  | .load f => match s.saved f with
      | some t => { s with cur := t }
      | none => s
  | c => { s with cur := M.edit s.cur c }

/-- The abstract state after a history, starting from nothing saved. -/
def Machine.run {S : Type} (M : Machine S) (cs : List Call) : MState S :=
  cs.foldl M.step ⟨M.init, fun _ => none⟩

/-- Every call of a history satisfies a condition in the world in which it is made. -/
def AllCalls (env : Env) (P : World → Call → Prop) : World → List Call → Prop
  | _, [] => True
  | w, c :: cs => P w c ∧ AllCalls env P (w.step env c).1 cs

/-- No node name that exists at that moment is added again. -/
def NoReadd (env : Env) : World → List Call → Prop :=
  AllCalls env (fun w c => ∀ n x y z, c = .addNode n x y z → n ∉ w.getNodeNames)

end Hyperstatic.Spec
