import Verif.Spec.Statics

/-
Solvers with rounding errors (C160).
-/

namespace Hyperstatic.Spec
open Matrix

/-- Weaker than `Env.SolverSound`: every non-singular system of positive order is answered, and each equation is satisfied up to `ε` times the
absolute value of some component of the right-hand side (so the residual is at most `ε` times the largest of them). -/
def SolverWithin (env : Env) (ε : ℝ) : Prop :=
  ∀ (n : ℕ) (A : Matrix (Fin n) (Fin n) ℝ) (b : Vec n), 0 < n → (∀ v : Vec n, A *ᵥ v = 0 → v = 0) →
    ∃ x, env.spsolve n A b = .ok x ∧ ∀ i, ∃ j, |(A *ᵥ x) i - b i| ≤ ε * |b j|

/-- No load of the problem on a component that is not restrained exceeds `M`. -/
def LoadsUpTo (P : Problem) (M : ℝ) : Prop := ∀ n ∈ P.nodes, ∀ r, ¬ Restrained P.fix n r → |P.load (unitAt n r)| ≤ M

end Hyperstatic.Spec
