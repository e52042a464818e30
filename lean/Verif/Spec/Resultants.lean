import Verif.Spec.Statics

/-
Resultants of the loads of a case, written down from the loads themselves: forces at nodes, forces and couples along beams and at points of
beams.
-/

namespace Hyperstatic.Spec
open Matrix

/-- Integral of a vector along a beam of length `l`. -/
noncomputable def alongBeam (l : ℝ) (f : ℝ → V3) : V3 :=
  ⟨∫ x in (0:ℝ)..l, (f x).x, ∫ x in (0:ℝ)..l, (f x).y, ∫ x in (0:ℝ)..l, (f x).z⟩

/-- Point of the axis of a beam at the distance `x` from its start. -/
noncomputable def GivenBeam.axis (g : GivenBeam) (x : ℝ) : V3 := g.p + x • (beamFrame g.p g.q).x

/-- Vector with given components along the local axes of a beam. -/
noncomputable def GivenBeam.local (g : GivenBeam) (a b c : ℝ) : V3 :=
  a • (beamFrame g.p g.q).x + b • (beamFrame g.p g.q).y + c • (beamFrame g.p g.q).z

/-- Force per length of a distributed load at the distance `x` from the start. -/
noncomputable def GivenBeam.lineForce (g : GivenBeam) (w : Vec 8) (x : ℝ) : V3 :=
  g.local (lineLoad (w 0) (w 1) g.len x) (lineLoad (w 2) (w 3) g.len x) (lineLoad (w 4) (w 5) g.len x)

/-- Couple per length of a distributed load. -/
noncomputable def GivenBeam.lineCouple (g : GivenBeam) (w : Vec 8) (x : ℝ) : V3 := g.local (lineLoad (w 6) (w 7) g.len x) 0 0

/-- Force of a load pattern: nodal forces, distributed loads and concentrated loads. -/
noncomputable def Blueprint.patternForce (s : Blueprint) (nodes : List String) (r : PatReg) : V3 :=
  (nodes.map fun n => trans ((r.node n).getD 0)).sum +
  (s.beams.map fun b => (s.beam b).elim 0 fun g =>
    ((r.dist b).elim 0 fun w => alongBeam g.len (g.lineForce w)) + ((r.conc b).elim 0 fun w => g.local (w 0) (w 1) (w 2))).sum

/-- Moment of a load pattern about the point `o`. -/
noncomputable def Blueprint.patternMoment (s : Blueprint) (nodes : List String) (r : PatReg) (o : V3) : V3 :=
  (nodes.map fun n => (s.at n - o).cross (trans ((r.node n).getD 0)) + rot ((r.node n).getD 0)).sum +
  (s.beams.map fun b => (s.beam b).elim 0 fun g =>
    ((r.dist b).elim 0 fun w => alongBeam g.len fun x => (g.axis x - o).cross (g.lineForce w x) + g.lineCouple w x) +
    ((r.conc b).elim 0 fun w => (g.axis (w 6 * g.len) - o).cross (g.local (w 0) (w 1) (w 2)) + g.local (w 3) (w 4) (w 5))).sum

/-- Force of a load case: factor times force over its patterns. -/
noncomputable def Blueprint.caseForce (s : Blueprint) (nodes : List String) (r : CaseReg) (g : String → Option ℝ) (names : List String) : V3 :=
  (names.map fun p => (g p).getD 0 • (r.pats p).elim 0 fun q => s.patternForce nodes q).sum

/-- Moment of a load case about the point `o`. -/
noncomputable def Blueprint.caseMoment (s : Blueprint) (nodes : List String) (r : CaseReg) (g : String → Option ℝ) (names : List String)
    (o : V3) : V3 :=
  (names.map fun p => (g p).getD 0 • (r.pats p).elim 0 fun q => s.patternMoment nodes q o).sum

end Hyperstatic.Spec
