import Verif.Model.Dynamic
import Verif.Spec.Mass

/-
Vocabulary for the dynamic solvers.
-/

namespace Hyperstatic.Spec
open Matrix

/-- The equation of motion `M a + C v + K u = f` at one time. -/
def EquationOfMotion {n : ℕ} (K C M : Matrix (Fin n) (Fin n) ℝ) (f : Vec n) (s : Motion n) : Prop :=
  M *ᵥ s.a + C *ᵥ s.v + K *ᵥ s.u = f

/-- Newmark's relation between the displacements at the two ends of a step of length `h`. -/
def NewmarkDisp {n : ℕ} (beta h : ℝ) (s s' : Motion n) : Prop :=
  s'.u = s.u + h • s.v + h ^ 2 • ((1 / 2 - beta) • s.a + beta • s'.a)

/-- Newmark's relation between the velocities at the two ends of a step of length `h`. -/
def NewmarkVel {n : ℕ} (gamma h : ℝ) (s s' : Motion n) : Prop :=
  s'.v = s.v + h • ((1 - gamma) • s.a + gamma • s'.a)

/-- The central-difference equation at one time: `M (u₊-2u+u₋)/dt² + C (u₊-u₋)/(2dt) + K u = f`. -/
def CentralDifference {n : ℕ} (K C M : Matrix (Fin n) (Fin n) ℝ) (dt : ℝ) (f um u up : Vec n) : Prop :=
  M *ᵥ ((1 / dt ^ 2) • (up - (2 : ℝ) • u + um)) + C *ᵥ ((1 / (2 * dt)) • (up - um)) + K *ᵥ u = f

/-- The values of a displacement state at the unrestrained components: node by node in the order of definition, component by
component. -/
def freeValues (m : FeModel) (t : Dict Flags) (u : State) : List ℝ :=
  m.nodes.keys.flatMap fun n => (List.finRange 6).filterMap fun r =>
    match t.get? n with
    | some f => if f r then none else some (u n r)
    | none => some (u n r)

/-- `u` is a vibration mode with squared circular frequency `lam`: it respects the restraints, is not zero, and the elastic forces
balance `lam` times the inertia forces, tested with every virtual displacement that respects the restraints. -/
def IsMode (env : Env) (m : FeModel) (t : Dict Flags) (lam : ℝ) (u : State) : Prop :=
  Respects t u ∧ (∃ n ∈ m.nodes.keys, u n ≠ 0) ∧
  ∀ v, Respects t v → internalWork env m v u = lam * inertialWork m v u

end Hyperstatic.Spec
