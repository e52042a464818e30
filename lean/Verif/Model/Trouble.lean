import Verif.Model.Overlap

/-
Model of calls whose file operations fail: a full disk, a file that may not be written or read, a network drive that is gone for a
moment.  Python reports each with an exception (`OSError`), and every method of `Api` that uses files catches it: `save`
core/__init__.py 52-58, `load` 68-74, `assemble` 763-772, `solve_static` 783-794, `solve_modal` 804-814 and the getters of results
865-939.

Simplified: opening a file for writing fails before the file is emptied; once it is emptied, a failure leaves it unreadable
(`File.broken`), however much of it has been written; a folder that exists is not removed.
-/

namespace Hyperstatic

/-- The operations of a computation, some of which fail: the n-th operation fails when the n-th entry of the list is `true`; those after
its end do not fail.  The computation is then given up with the value `giveUp`.  The look for the file `0.k` is `os.path.exists`, static.py
39, which does not raise but answers `False` when the folder cannot be read. -/
def Act.troubled {α : Type} (giveUp : α) : Act α → List Bool → Dict (File Api) → α × Dict (File Api)
  | .done a, _, fs => (a, fs)
  | .read n k, fails, fs =>
      if fails.headD false then
        if n = "0.k" then (k none).troubled giveUp fails.tail fs else (giveUp, fs)
      else (k (fs.get? n)).troubled giveUp fails.tail fs
  | .empty n next, fails, fs => if fails.headD false then (giveUp, fs) else next.troubled giveUp fails.tail (fs.set n .broken)
  | .fill n content next, fails, fs => if fails.headD false then (giveUp, fs) else next.troubled giveUp fails.tail (fs.set n content)

/-- What the `except` clauses return: `False`, core/__init__.py 58, 772, 794, 814, or `None`, 74, 882, 900, 939 (`Api.load` is a call that
gives `False` in `World.step`). -/
def refusal : Request → Answer
  | .call _ => .flag false
  | .displacement _ _ => .displacement none
  | .table _ => .table none
  | .deformation _ _ _ => .deformation none

/-- A request, and which of its file operations fail. -/
structure Attempt where
  request : Request
  fails : List Bool

/-- A request that is made while file operations fail: the object is changed in memory by nothing but the value the call completes
with. -/
noncomputable def World.attempt (env : Env) (w : World) (a : Attempt) : World × Answer :=
  let x := (actOf env w.api a.request).troubled (w.api, refusal a.request) a.fails w.fs
  (⟨x.1.1, x.2⟩, x.1.2)

/-- Requests, one after the other. -/
noncomputable def World.attempts (env : Env) (w : World) (as : List Attempt) : World := as.foldl (fun w a => (w.attempt env a).1) w

end Hyperstatic
