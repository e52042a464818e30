import Verif.Spec.Resultants
import Verif.Model.ShellK

/-
Vocabulary for models of beams and shells: the internal work of all elements, stability, support forces.
-/

namespace Hyperstatic.Spec
open Matrix

/-- No node is added twice and no pattern is created twice. -/
structure PlainModel (env : Env) (pre : List Call) : Prop where
  readd : NoReadd env World.init pre
  recreate : NoRecreate env World.init pre

/-- Work of the internal forces of the shells built by the history `pre` (their stiffness is what C63–C67 are about). -/
noncomputable def shellWork (env : Env) (pre : List Call) (v u : State) : ℝ :=
  ((World.init.run env pre).api.model.shells.map fun p => shellInternal env p.2 v u).sum

/-- Work of the internal forces of all elements: beams as described, and shells. -/
noncomputable def mixedWork (env : Env) (pre : List Call) (P : Problem) (v u : State) : ℝ := P.frame.internal v u + shellWork env pre v u

/-- A displacement that obeys the restraints and needs no work vanishes. -/
def MixedStable (env : Env) (pre : List Call) (P : Problem) : Prop :=
  ∀ u : State, Obeys P.fix u → mixedWork env pre P u u = 0 → ∀ n ∈ P.nodes, u n = 0

/-- Total potential energy. -/
noncomputable def mixedPotential (env : Env) (pre : List Call) (P : Problem) (u : State) : ℝ := mixedWork env pre P u u / 2 - P.load u

/-- `R` are the forces of the supports: they act at restrained components only and with the loads they balance the internal forces. -/
structure MixedForces (env : Env) (pre : List Call) (P : Problem) (u : State) (R : String → Vec 6) : Prop where
  only : ∀ n ∈ P.nodes, ∀ r, R n r ≠ 0 → Restrained P.fix n r
  work : ∀ v : State, mixedWork env pre P v u = P.load v + nodalWork P.nodes R v

end Hyperstatic.Spec
