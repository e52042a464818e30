import Verif.Model.Beam
import Mathlib.Analysis.Calculus.Deriv.Basic
import Mathlib.MeasureTheory.Integral.IntervalIntegral.Basic

/-
Vocabulary of beam theory, used to state the properties of the element code.

The twelve end components of a beam are, in local axes, translations 0-2 and rotations 3-5 of the start, translations 6-8
and rotations 9-11 of the end.  The beam occupies `0 ≤ x ≤ l` of its local 1-axis.
-/

namespace Hyperstatic.Spec

/-- polynomials of degree at most one -/
def IsLinear (f : ℝ → ℝ) : Prop := ∃ a b : ℝ, ∀ x, f x = a + b * x

/-- polynomials of degree at most three -/
def IsCubic (f : ℝ → ℝ) : Prop := ∃ a b c e : ℝ, ∀ x, f x = a + b * x + c * x ^ 2 + e * x ^ 3

/-- The displacement fields of a beam: axial displacement `u` and twist `θ` linear, deflections `w2`, `w3` cubic, with the
given end components.  By the right-hand rule the slope of `w3` is minus the
rotation about axis 2 and the slope of `w2` is the rotation about axis 3. -/
structure Fields (l : ℝ) (d : Vec 12) (u w2 w3 θ : ℝ → ℝ) : Prop where
  u_lin : IsLinear u
  θ_lin : IsLinear θ
  w2_cub : IsCubic w2
  w3_cub : IsCubic w3
  u0 : u 0 = d 0
  w20 : w2 0 = d 1
  w30 : w3 0 = d 2
  θ0 : θ 0 = d 3
  dw30 : deriv w3 0 = - d 4
  dw20 : deriv w2 0 = d 5
  ul : u l = d 6
  w2l : w2 l = d 7
  w3l : w3 l = d 8
  θl : θ l = d 9
  dw3l : deriv w3 l = - d 10
  dw2l : deriv w2 l = d 11

/-- Small rigid motion: translation `t` and rotation `ω` about the start of the beam; the end at distance `l` along axis 1
moves by `t + ω × (l, 0, 0)`. -/
def RigidMotion (l : ℝ) (d : Vec 12) : Prop :=
  ∃ t ω : V3, d 0 = t.x ∧ d 1 = t.y ∧ d 2 = t.z ∧ d 3 = ω.x ∧ d 4 = ω.y ∧ d 5 = ω.z ∧
    d 6 = (t + V3.cross ω ⟨l, 0, 0⟩).x ∧ d 7 = (t + V3.cross ω ⟨l, 0, 0⟩).y ∧ d 8 = (t + V3.cross ω ⟨l, 0, 0⟩).z ∧
    d 9 = ω.x ∧ d 10 = ω.y ∧ d 11 = ω.z

/-- Bending work for the end rotations `α`, `β` relative to the chord (slope-deflection equations). -/
noncomputable def bendWork (EI l α β α' β' : ℝ) : ℝ :=
  α' * (EI / l * (4 * α + 2 * β)) + β' * (EI / l * (2 * α + 4 * β))

/-- Internal virtual work of a prismatic beam in the actual state `d` under the virtual end displacement `v`: axial force
times elongation, torque times twist, end moments times end rotations relative to the chord in both planes. -/
noncomputable def beamWork (c : BeamConsts) (l : ℝ) (v d : Vec 12) : ℝ :=
  (v 6 - v 0) * (c.E * c.A / l * (d 6 - d 0)) +
  (v 9 - v 3) * (c.G * c.J / l * (d 9 - d 3)) +
  bendWork (c.E * c.I3) l (d 5 - (d 7 - d 1) / l) (d 11 - (d 7 - d 1) / l)
    (v 5 - (v 7 - v 1) / l) (v 11 - (v 7 - v 1) / l) +
  bendWork (c.E * c.I2) l (- d 4 - (d 8 - d 2) / l) (- d 10 - (d 8 - d 2) / l)
    (- v 4 - (v 8 - v 2) / l) (- v 10 - (v 8 - v 2) / l)

/-- The linearly varying line load with end intensities `qi` at `x = 0` and `qj` at `x = l`. -/
noncomputable def lineLoad (qi qj l x : ℝ) : ℝ := qi + (qj - qi) / l * x

end Hyperstatic.Spec
