import Mathlib.Data.List.Basic

/-
Vocabulary for the elimination of restrained degrees of freedom.
-/

namespace Hyperstatic.Spec

/-- The free ones among the degrees of freedom `0, ..., N-1`, in increasing order. -/
def free (N : ℕ) (fixed : List ℕ) : List ℕ := (List.range N).filter (fun i => decide (i ∉ fixed))

end Hyperstatic.Spec
