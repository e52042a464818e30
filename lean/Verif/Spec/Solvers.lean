import Verif.Model.Solvers
import Verif.Spec.Structure

/-
What the documentation of the linear solvers promises.
-/

namespace Hyperstatic.Spec

open Matrix

/-- pypardiso solves systems with a regular matrix. -/
def PardisoSound (lin : LinEnv) : Prop :=
  ∀ s, lin.pardiso = some s → ∀ (n : ℕ) (A : Matrix (Fin n) (Fin n) ℝ) (b : Vec n), 0 < n → (∀ v, A *ᵥ v = 0 → v = 0) →
    ∃ x, s n A b = .ok x ∧ A *ᵥ x = b

/-- `cholmod.cholesky(A,beta)` factorises `A + beta I`; its `solve_A` solves with that matrix. -/
def CholmodSound (lin : LinEnv) : Prop :=
  ∀ s, lin.cholmod = some s → ∀ (n : ℕ) (A : Matrix (Fin n) (Fin n) ℝ) (β : ℝ) (b x : Vec n), s n A β b = .ok x →
    (A + β • (1 : Matrix (Fin n) (Fin n) ℝ)) *ᵥ x = b

/-- `bicgstab` sets `info` to zero only if the residual is at most 1e-5 times the right-hand side. -/
def BicgSound (lin : LinEnv) : Prop :=
  ∀ (n : ℕ) (A P : Matrix (Fin n) (Fin n) ℝ) (b x : Vec n), lin.bicgstab n A b P = .ok (x, 0) →
    ∑ i, ((A *ᵥ x) i - b i) ^ 2 ≤ (1 / 10 ^ 5) ^ 2 * ∑ i, b i ^ 2

/-- `bicgstab` always converges within its thirty iterations. -/
def BicgConverges (lin : LinEnv) : Prop :=
  ∀ (n : ℕ) (A P : Matrix (Fin n) (Fin n) ℝ) (b x : Vec n) (info : ℤ), lin.bicgstab n A b P = .ok (x, info) → info = 0

/-- `(node, component)` is a component of a node of the model that the table does not restrain. -/
def FreeComp (m : FeModel) (t : Dict Flags) (q : String × Fin 6) : Prop :=
  q.1 ∈ m.nodes.keys ∧ ∀ f, t.get? q.1 = some f → f q.2 = false

end Hyperstatic.Spec
