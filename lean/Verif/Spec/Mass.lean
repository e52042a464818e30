import Verif.Spec.Structure

/-
Inertia of a model at the level of node names, used to state what the mass matrix must be.
-/

namespace Hyperstatic.Spec

/-- Mass of a beam: density times area times length. -/
noncomputable def beamMass (b : BeamElm) : ℝ := (constsOf b.prop).rho * (constsOf b.prop).A * b.length

/-- Inertial work of half a beam at one end: half the mass on the translations, the regularising rotary inertia 1e-12 of the
code on the rotations. -/
noncomputable def endInertia (b : BeamElm) (v u : Vec 6) : ℝ :=
  beamMass b / 2 * (trans v).dot (trans u) + 1 / 10 ^ 12 * (rot v).dot (rot u)

/-- Inertial work of a beam. -/
noncomputable def beamInertia (b : BeamElm) (v u : State) : ℝ :=
  endInertia b (v b.startName) (u b.startName) + endInertia b (v b.endName) (u b.endName)

/-- Inertial work of the mass attached to a node: component by component. -/
noncomputable def nodeInertia (n : Node) (v u : Vec 6) : ℝ := ∑ r, n.mass r * (v r * u r)

/-- Inertial work of a model for accelerations `u` under the virtual displacement `v`. -/
noncomputable def inertialWork (m : FeModel) (v u : State) : ℝ :=
  (m.nodes.map fun p => nodeInertia p.2 (v p.1) (u p.1)).sum + (m.beams.map fun p => beamInertia p.2 v u).sum

end Hyperstatic.Spec
