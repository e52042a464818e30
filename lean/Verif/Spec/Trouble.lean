import Verif.Model.Trouble
import Verif.Spec.Overlap

/-
Vocabulary for statements about calls whose file operations fail.
-/

namespace Hyperstatic.Spec

open Classical in
/-- The requests that were not answered with `False` or `None`. -/
noncomputable def succeeded (env : Env) : World → List Attempt → List Request
  | _, [] => []
  | w, a :: as =>
      if failure (w.attempt env a).2 then succeeded env (w.attempt env a).1 as
      else a.request :: succeeded env (w.attempt env a).1 as

/-- Two folders with the same files. -/
def EqualFolders (fs fs' : Dict (File Api)) : Prop := ∀ f, fs.get? f = fs'.get? f

end Hyperstatic.Spec
