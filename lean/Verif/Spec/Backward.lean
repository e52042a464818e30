import Verif.Spec.Inexact

/-
Solvers with a small backward error (C160).
-/

namespace Hyperstatic.Spec
open Matrix

/-- The solver answers every non-singular system of positive order. -/
def SolverAnswers (env : Env) : Prop :=
  ∀ (n : ℕ) (A : Matrix (Fin n) (Fin n) ℝ) (b : Vec n), 0 < n → (∀ v : Vec n, A *ᵥ v = 0 → v = 0) → ∃ x, env.spsolve n A b = .ok x

/-- What error analysis promises of elimination with rounding: the answer is exact for some other matrix and some other right-hand side, the entries
of which differ by at most `ε` times the largest entry. -/
def SolverBackward (env : Env) (ε : ℝ) : Prop :=
  ∀ (n : ℕ) (A : Matrix (Fin n) (Fin n) ℝ) (b : Vec n), 0 < n → (∀ v : Vec n, A *ᵥ v = 0 → v = 0) →
    ∃ x, env.spsolve n A b = .ok x ∧ ∃ (E : Matrix (Fin n) (Fin n) ℝ) (e : Vec n), (A + E) *ᵥ x = b + e ∧
      (∀ i j, ∃ k l, |E i j| ≤ ε * |A k l|) ∧ ∀ i, ∃ j, |e i| ≤ ε * |b j|

end Hyperstatic.Spec
