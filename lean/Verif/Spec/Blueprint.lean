import Verif.Spec.Registry
import Verif.Spec.Structure
import Mathlib.Algebra.BigOperators.Group.Finset.Basic

/-
The blueprint of a structure: what the calls of a history describe, in the numbers the user gave.  Nothing in this file refers to
the tables, element objects or matrices of the code.
-/

namespace Hyperstatic.Spec
open Matrix

/-- a material as given: density, Young's modulus, Poisson's ratio -/
structure GivenMat where
  rho : ℝ
  E : ℝ
  mu : ℝ

/-- a cross-section as given: its material and area, second moments about axis 2 and 3, torsion constant -/
structure GivenSec where
  mat : GivenMat
  A : ℝ
  I2 : ℝ
  I3 : ℝ
  J : ℝ

/-- a beam as given: names and coordinates of its ends, material and section -/
structure GivenBeam where
  start : String
  stop : String
  p : V3
  q : V3
  sec : GivenSec

/-- Saint-Venant torsion constant of a rectangle by the usual series, truncated after `k` terms, with π = 3.141592:
`h b³ (1/3 - 64 b / (π⁵ h) Σ tanh(mπh/2b)/m⁵)` over odd `m`. -/
noncomputable def rectTorsion (k : ℕ) (h b : ℝ) : ℝ :=
  h * b ^ 3 * (1 / 3 - 64 * b / (3.141592 ^ 5 * h) *
    ∑ i ∈ Finset.range k, Real.tanh ((2 * i + 1) * 3.141592 * h / 2 / b) / (2 * i + 1) ^ 5)

/-- Constants of the parametrised sections (C47 compares `A`, `I2`, `I3` with the shapes), `none` when the sizes are degenerate and the
call is refused.  A pipe is stored as a solid rectangle (C48). -/
noncomputable def shapeConsts (mat : GivenMat) : Call → Option GivenSec
  | .addBeamSectionGeneral _ _ A _ _ I22 I33 J _ _ => some ⟨mat, A, I22, I33, J⟩
  | .addBeamSectionRectangle _ _ h b => rect h b
  | .addBeamSectionPipe _ _ d t => rect d t
  | .addBeamSectionCircle _ _ d =>
      open Classical in
      if d = 0 then none else some ⟨mat, 3.14159 / 4 * d ^ 2, 3.14159 / 64 * d ^ 4, 3.14159 / 64 * d ^ 4, 3.14159 / 32 * d ^ 4⟩
  | .addBeamSectionI _ _ h b tw tf =>
      open Classical in
      if b = 0 ∨ tf = 0 ∨ h = 2 * tf ∨ tw = 0 ∨ h = 0 then none else
        some ⟨mat, b * h - (b - tw) * (h - 2 * tf), tf * b ^ 3 / 6 + h * tw ^ 3 / 12,
          (b * h ^ 3 - (b - tw) * (h - 2 * tf) ^ 3) / 12, 2 * rectTorsion 15 tf b + rectTorsion 15 tw (h - 2 * tf)⟩
  | .addBeamSectionBox _ _ h b tw tf =>
      open Classical in
      if tf = 0 ∨ tw = 0 ∨ (b - tw) / tf + (h - tf) / tw = 0 ∨ b = 0 ∨ h = 0 then none else
        some ⟨mat, h * b - (h - 2 * tf) * (b - 2 * tw), (h * b ^ 3 - (h - 2 * tf) * (b - 2 * tw) ^ 3) / 12,
          (b * h ^ 3 - (b - 2 * tw) * (h - 2 * tf) ^ 3) / 12,
          (2 * (h - tf) * (b - tw)) ^ 2 / (2 * ((b - tw) / tf + (h - tf) / tw))⟩
  | _ => none
where
  rect (h b : ℝ) : Option GivenSec :=
    open Classical in
    if h = 0 ∨ b = 0 then none else some ⟨mat, b * h, h * b ^ 3 / 12, b * h ^ 3 / 12, rectTorsion 30 h b⟩

/-- Everything the calls describe: coordinates of the nodes, materials, sections, and the beams with their names in order of
first addition. -/
structure Blueprint where
  loc : String → Option V3
  mat : String → Option GivenMat
  sec : String → Option GivenSec
  beams : List String
  beam : String → Option GivenBeam

/-- A section call: names of the section and of its material. -/
def sectionCall : Call → Option (String × String)
  | .addBeamSectionGeneral n m _ _ _ _ _ _ _ _ => some (n, m)
  | .addBeamSectionRectangle n m _ _ => some (n, m)
  | .addBeamSectionPipe n m _ _ => some (n, m)
  | .addBeamSectionCircle n m _ => some (n, m)
  | .addBeamSectionI n m _ _ _ _ => some (n, m)
  | .addBeamSectionBox n m _ _ _ _ => some (n, m)
  | _ => none

/-- Add a beam between two nodes if both exist and are far enough apart; an existing name is replaced in place. -/
noncomputable def Blueprint.addBeam (s : Blueprint) (b i j : String) (sec : Option GivenSec) : Blueprint :=
  match s.loc i, s.loc j, sec with
  | some p, some q, some g =>
      open Classical in
      if Acceptable p q then
        { s with
          beams := if b ∈ s.beams then s.beams else s.beams ++ [b]
          beam := fun b' => if b' = b then some ⟨i, j, p, q, g⟩ else s.beam b' }
      else s
  | _, _, _ => s

/-- How each call changes the blueprint.  A section copies its material and a beam its section and the coordinates of its ends at the time
of the call. -/
noncomputable def blueprint : Machine Blueprint where
  init := ⟨fun _ => none, fun _ => none, fun _ => none, [], fun _ => none⟩
  edit s
    | .addNode n x y z => { s with loc := fun m => if m = n then some ⟨x, y, z⟩ else s.loc m }
    | .addIsotropicMaterial n rho E mu _ => { s with mat := fun m => if m = n then some ⟨rho, E, mu⟩ else s.mat m }
    | .addBeam b i j sec => s.addBeam b i j (s.sec sec)
    | .addSimpleBeam b i j E mu A I2 I3 J rho => s.addBeam b i j (some ⟨⟨rho, E, mu⟩, A, I2, I3, J⟩)
    | c => match sectionCall c with
      | some (n, m) => match (s.mat m).bind fun mat => shapeConsts mat c with
        | some g => { s with sec := fun k => if k = n then some g else s.sec k }
        | none => s
      | none => s

/-! ### mechanics of the blueprint -/

/-- Local axes of a beam: axis 1 from start to end; axis 3 horizontal, at right angles to axis 1 and (0,0,1), or to (1,0,0) for a
beam that is vertical up to the tolerance; axis 2 completes the right-handed system. -/
noncomputable def beamFrame (p q : V3) : Csys :=
  let e1 := (q - p).unit
  let up : V3 := if max |q.x - p.x| |q.y - p.y| < absTol then ⟨1, 0, 0⟩ else ⟨0, 0, 1⟩
  let e3 := (e1.cross up).unit
  ⟨⟨(p.x + q.x) / 2, (p.y + q.y) / 2, (p.z + q.z) / 2⟩, e1, e3.cross e1, e3⟩

/-- the straight line with values `a` at 0 and `b` at `l` -/
noncomputable def lineField (l a b x : ℝ) : ℝ := a + (b - a) / l * x

/-- the cubic with values `a`, `b` and slopes `s`, `t` at 0 and `l` -/
noncomputable def cubicField (l a s b t x : ℝ) : ℝ :=
  a + s * x + (3 * (b - a) / l ^ 2 - (2 * s + t) / l) * x ^ 2 + ((s + t) / l ^ 2 - 2 * (b - a) / l ^ 3) * x ^ 3

namespace GivenBeam

/-- length -/
noncomputable def len (g : GivenBeam) : ℝ := V3.norm (g.q - g.p)

/-- end components along the local axes -/
noncomputable def ends (g : GivenBeam) (u : State) : Vec 12 := localEnds (beamFrame g.p g.q) (u g.start) (u g.stop)

/-- axial displacement along the beam -/
noncomputable def axial (g : GivenBeam) (u : State) : ℝ → ℝ := lineField g.len (g.ends u 0) (g.ends u 6)
/-- twist along the beam -/
noncomputable def twist (g : GivenBeam) (u : State) : ℝ → ℝ := lineField g.len (g.ends u 3) (g.ends u 9)
/-- deflection along axis 2 -/
noncomputable def defl2 (g : GivenBeam) (u : State) : ℝ → ℝ :=
  cubicField g.len (g.ends u 1) (g.ends u 5) (g.ends u 7) (g.ends u 11)
/-- deflection along axis 3 (positive rotation about axis 2 gives a negative slope) -/
noncomputable def defl3 (g : GivenBeam) (u : State) : ℝ → ℝ :=
  cubicField g.len (g.ends u 2) (- g.ends u 4) (g.ends u 8) (- g.ends u 10)

/-- Internal virtual work of Euler-Bernoulli beam theory: axial force on strain, both bending moments on curvatures, torque on twist,
with `G = E / (2 (1 + μ))`. -/
noncomputable def internal (g : GivenBeam) (v u : State) : ℝ :=
  ∫ x in (0:ℝ)..g.len,
    (g.sec.mat.E * g.sec.A * deriv (g.axial u) x * deriv (g.axial v) x +
     g.sec.mat.E * g.sec.I3 * deriv (deriv (g.defl2 u)) x * deriv (deriv (g.defl2 v)) x +
     g.sec.mat.E * g.sec.I2 * deriv (deriv (g.defl3 u)) x * deriv (deriv (g.defl3 v)) x +
     g.sec.mat.E / (2 * (1 + g.sec.mat.mu)) * g.sec.J * deriv (g.twist u) x * deriv (g.twist v) x)

/-- Work of a distributed load `p_i, p_j, q_i2, q_j2, q_i3, q_j3, t_i, t_j`, linear between the ends. -/
noncomputable def distWork (g : GivenBeam) (w : Vec 8) (v : State) : ℝ :=
  ∫ x in (0:ℝ)..g.len,
    (lineLoad (w 0) (w 1) g.len x * g.axial v x + lineLoad (w 2) (w 3) g.len x * g.defl2 v x +
     lineLoad (w 4) (w 5) g.len x * g.defl3 v x + lineLoad (w 6) (w 7) g.len x * g.twist v x)

/-- Work of a concentrated load `F1, F2, F3, M1, M2, M3` at the fraction `r` of the length. -/
noncomputable def concWork (g : GivenBeam) (w : Vec 7) (v : State) : ℝ :=
  let x := w 6 * g.len
  w 0 * g.axial v x + w 1 * g.defl2 v x + w 2 * g.defl3 v x +
  w 3 * g.twist v x + w 4 * (- deriv (g.defl3 v) x) + w 5 * deriv (g.defl2 v) x

end GivenBeam

/-- Internal virtual work of the structure: the sum over its beams. -/
noncomputable def Blueprint.internal (s : Blueprint) (v u : State) : ℝ :=
  (s.beams.map fun b => (s.beam b).elim 0 fun g => g.internal v u).sum

/-- Work of a load pattern: nodal loads on the nodes `nodes`, distributed and concentrated loads on the beams. -/
noncomputable def Blueprint.patternWork (s : Blueprint) (nodes : List String) (r : PatReg) (v : State) : ℝ :=
  (nodes.map fun n => ((r.node n).getD 0) ⬝ᵥ v n).sum +
  (s.beams.map fun b => (s.beam b).elim 0 fun g =>
    ((r.dist b).elim 0 fun w => g.distWork w v) + ((r.conc b).elim 0 fun w => g.concWork w v)).sum

/-- Work of a load case: factor times work over the names of its patterns. -/
noncomputable def Blueprint.caseWork (s : Blueprint) (nodes : List String) (r : CaseReg) (g : String → Option ℝ) (names : List String)
    (v : State) : ℝ :=
  (names.map fun p => (g p).getD 0 * (r.pats p).elim 0 fun q => s.patternWork nodes q v).sum

/-- The restraints in force in a case: its own if any have been set, otherwise the global ones. -/
noncomputable def RestReg.inForce (r : RestReg) (c : String) : String → Option Flags :=
  open Classical in
  match r.cases c with
  | some g => if ∀ n, g n = none then r.global else g
  | none => r.global

/-- All restrained components vanish. -/
def Obeys (t : String → Option Flags) (u : State) : Prop := ∀ n f, t n = some f → ∀ r, f r = true → u n r = 0

/-- A displacement of the nodes that obeys the restraints and costs no internal work is zero. -/
def Blueprint.Stable (s : Blueprint) (nodes : List String) (t : String → Option Flags) : Prop :=
  ∀ u : State, Obeys t u → s.internal u u = 0 → ∀ n ∈ nodes, u n = 0

end Hyperstatic.Spec
