import Verif.Spec.FrameMap
import Mathlib.MeasureTheory.Integral.IntervalIntegral.Basic

/-
Beam theory without finite elements: the displacements along the beams are arbitrary functions, not the polynomials of the element.
-/

namespace Hyperstatic.Spec
open Matrix MeasureTheory

/-- Bounded and integrable on a beam of length `l`. -/
def Tame (l : ℝ) (f : ℝ → ℝ) : Prop := IntervalIntegrable f volume 0 l ∧ ∃ C, ∀ x, 0 ≤ x → x ≤ l → |f x| ≤ C

/-- `f'` is the (weak) derivative of `f` along a beam of length `l`. -/
structure Slope (l : ℝ) (f f' : ℝ → ℝ) : Prop where
  tame : Tame l f'
  eq : ∀ x, 0 ≤ x → x ≤ l → f x = f 0 + ∫ t in (0:ℝ)..x, f' t

/-- Displacements along a beam: axial displacement, twist, deflections along the local axes 2 and 3, with the axial strain, the twist rate,
the slopes and the curvatures. -/
structure BeamShape where
  axial : ℝ → ℝ
  strain : ℝ → ℝ
  twist : ℝ → ℝ
  rate : ℝ → ℝ
  defl2 : ℝ → ℝ
  slope2 : ℝ → ℝ
  curv2 : ℝ → ℝ
  defl3 : ℝ → ℝ
  slope3 : ℝ → ℝ
  curv3 : ℝ → ℝ

namespace BeamShape

/-- Strains and curvatures are the derivatives of the displacements; they are bounded, but may jump. -/
structure Smooth (l : ℝ) (S : BeamShape) : Prop where
  strain : Slope l S.axial S.strain
  rate : Slope l S.twist S.rate
  slope2 : Slope l S.defl2 S.slope2
  curv2 : Slope l S.slope2 S.curv2
  slope3 : Slope l S.defl3 S.slope3
  curv3 : Slope l S.slope3 S.curv3

/-- The twelve end components (a positive rotation about axis 2 is a negative slope of the deflection along axis 3). -/
noncomputable def ends (l : ℝ) (S : BeamShape) : Vec 12 :=
  ![S.axial 0, S.defl2 0, S.defl3 0, S.twist 0, - S.slope3 0, S.slope2 0, S.axial l, S.defl2 l, S.defl3 l, S.twist l, - S.slope3 l, S.slope2 l]

/-- Internal virtual work of the actual deformation `S` of a beam on the virtual one `V`: axial force on strain, bending moments on
curvatures, torque on twist rate. -/
noncomputable def internal (g : GivenBeam) (V S : BeamShape) : ℝ :=
  ∫ x in (0:ℝ)..g.len,
    (g.sec.mat.E * g.sec.A * S.strain x * V.strain x + g.sec.mat.E * g.sec.I3 * S.curv2 x * V.curv2 x +
     g.sec.mat.E * g.sec.I2 * S.curv3 x * V.curv3 x + g.sec.mat.E / (2 * (1 + g.sec.mat.mu)) * g.sec.J * S.rate x * V.rate x)

/-- Work of a distributed load, linear between the ends. -/
noncomputable def distWork (l : ℝ) (w : Vec 8) (V : BeamShape) : ℝ :=
  ∫ x in (0:ℝ)..l, (lineLoad (w 0) (w 1) l x * V.axial x + lineLoad (w 2) (w 3) l x * V.defl2 x +
     lineLoad (w 4) (w 5) l x * V.defl3 x + lineLoad (w 6) (w 7) l x * V.twist x)

/-- Work of a concentrated load at the fraction `w 6` of the length. -/
noncomputable def concWork (l : ℝ) (w : Vec 7) (V : BeamShape) : ℝ :=
  let x := w 6 * l
  w 0 * V.axial x + w 1 * V.defl2 x + w 2 * V.defl3 x + w 3 * V.twist x + w 4 * (- V.slope3 x) + w 5 * V.slope2 x

end BeamShape

/-- A deformation of a whole frame: displacements of the nodes and the displacements along every beam. -/
structure Deformation where
  node : State
  shape : String → BeamShape

/-- The beams deform smoothly and stay attached to their end nodes. -/
def Blueprint.Conforms (s : Blueprint) (D : Deformation) : Prop :=
  ∀ b g, s.beam b = some g → (D.shape b).Smooth g.len ∧ (D.shape b).ends g.len = g.ends D.node

/-- Internal virtual work of a frame. -/
noncomputable def Blueprint.fieldInternal (s : Blueprint) (V D : Deformation) : ℝ :=
  (s.beams.map fun b => (s.beam b).elim 0 fun g => BeamShape.internal g (V.shape b) (D.shape b)).sum

/-- Work of a load pattern. -/
noncomputable def Blueprint.fieldPatternWork (s : Blueprint) (nodes : List String) (r : PatReg) (V : Deformation) : ℝ :=
  (nodes.map fun n => ((r.node n).getD 0) ⬝ᵥ V.node n).sum +
  (s.beams.map fun b => (s.beam b).elim 0 fun g =>
    ((r.dist b).elim 0 fun w => (V.shape b).distWork g.len w) + ((r.conc b).elim 0 fun w => (V.shape b).concWork g.len w)).sum

/-- Work of a load case. -/
noncomputable def Blueprint.fieldCaseWork (s : Blueprint) (nodes : List String) (r : CaseReg) (g : String → Option ℝ) (names : List String)
    (V : Deformation) : ℝ :=
  (names.map fun p => (g p).getD 0 * (r.pats p).elim 0 fun q => s.fieldPatternWork nodes q V).sum

/-- Concentrated loads act at points of the beams. -/
def CaseReg.OnBeams (r : CaseReg) : Prop := ∀ p q b w, r.pats p = some q → q.conc b = some w → 0 ≤ w 6 ∧ w 6 ≤ 1

/-- `D` is the answer of beam theory to case `c` of the calls `pre`: it conforms, obeys the restraints and does, on every virtual
deformation that does so, as much internal work as the loads do. -/
structure ExactEquilibrium (pre : List Call) (c : String) (D : Deformation) : Prop where
  conforms : (blueprint.run pre).cur.Conforms D
  obeys : Obeys ((restReg.run pre).cur.inForce c) D.node
  balance : ∀ g names, (caseReg.run pre).cur.cases c = some g → Lists names g →
    ∀ V, (blueprint.run pre).cur.Conforms V → Obeys ((restReg.run pre).cur.inForce c) V.node →
      (blueprint.run pre).cur.fieldInternal V D =
        (blueprint.run pre).cur.fieldCaseWork (nodeReg.run pre).cur.names (caseReg.run pre).cur g names V

/-- No pattern of the case with the factors `k` has a load on beam `b`. -/
def CaseReg.Bare (r : CaseReg) (k : String → Option ℝ) (b : String) : Prop :=
  ∀ p q, (k p).isSome → r.pats p = some q → q.dist b = none ∧ q.conc b = none

/-- Potential energy of a deformation: half the internal work minus the work of the loads. -/
noncomputable def Blueprint.fieldPotential (s : Blueprint) (nodes : List String) (r : CaseReg) (g : String → Option ℝ) (names : List String)
    (D : Deformation) : ℝ := s.fieldInternal D D / 2 - s.fieldCaseWork nodes r g names D

/-- `D` conforms, obeys the restraints and has the least potential energy of all deformations that do so. -/
structure LeastEnergy (pre : List Call) (c : String) (D : Deformation) : Prop where
  conforms : (blueprint.run pre).cur.Conforms D
  obeys : Obeys ((restReg.run pre).cur.inForce c) D.node
  least : ∀ g names, (caseReg.run pre).cur.cases c = some g → Lists names g →
    ∀ V, (blueprint.run pre).cur.Conforms V → Obeys ((restReg.run pre).cur.inForce c) V.node →
      (blueprint.run pre).cur.fieldPotential (nodeReg.run pre).cur.names (caseReg.run pre).cur g names D ≤
        (blueprint.run pre).cur.fieldPotential (nodeReg.run pre).cur.names (caseReg.run pre).cur g names V

end Hyperstatic.Spec
