import Verif.Spec.FrameMap

/-
Further changes of a frame with a known effect on its answer: other units, reflection in the coordinate planes, an independent second
structure, loads on supports, supports at points that do not move; and the simply supported beam.
-/

namespace Hyperstatic.Spec
open Matrix

/-- Six components of forces and moments of a node in the new units. -/
def unitForce (l f : ℝ) (F : Vec 6) : Vec 6 := ![f * F 0, f * F 1, f * F 2, f * l * F 3, f * l * F 4, f * l * F 5]

/-- Six components of displacement and rotation of a node in the new units. -/
def unitDisp (l : ℝ) (u : Vec 6) : Vec 6 := ![l * u 0, l * u 1, l * u 2, u 3, u 4, u 5]

/-- The same call in other units of length and force: a length of 1 in the old unit is `l` in the new one, a force of 1 is `f` (the unit of
time is kept, so that a mass of 1 is `f / l`). -/
noncomputable def unitCall (l f : ℝ) : Call → Call
  | .addNode n x y z => .addNode n (l * x) (l * y) (l * z)
  | .setNodalMass n m => .setNodalMass n ![f / l * m 0, f / l * m 1, f / l * m 2, f * l * m 3, f * l * m 4, f * l * m 5]
  | .addIsotropicMaterial n rho E mu a => .addIsotropicMaterial n (f / l ^ 4 * rho) (f / l ^ 2 * E) mu a
  | .addBeamSectionGeneral n m A As2 As3 I22 I33 J W22 W33 =>
      .addBeamSectionGeneral n m (l ^ 2 * A) (l ^ 2 * As2) (l ^ 2 * As3) (l ^ 4 * I22) (l ^ 4 * I33) (l ^ 4 * J) (l ^ 3 * W22) (l ^ 3 * W33)
  | .addBeamSectionRectangle n m h b => .addBeamSectionRectangle n m (l * h) (l * b)
  | .addBeamSectionI n m h b tw tf => .addBeamSectionI n m (l * h) (l * b) (l * tw) (l * tf)
  | .addBeamSectionBox n m h b tw tf => .addBeamSectionBox n m (l * h) (l * b) (l * tw) (l * tf)
  | .addBeamSectionCircle n m d => .addBeamSectionCircle n m (l * d)
  | .addBeamSectionPipe n m d t => .addBeamSectionPipe n m (l * d) (l * t)
  | .addShellSection n m t e => .addShellSection n m (l * t) e
  | .addSimpleBeam b i j E mu A I2 I3 J rho =>
      .addSimpleBeam b i j (f / l ^ 2 * E) mu (l ^ 2 * A) (l ^ 4 * I2) (l ^ 4 * I3) (l ^ 4 * J) (f / l ^ 4 * rho)
  | .setNodalLoad p n F => .setNodalLoad p n (unitForce l f F)
  | .setBeamLoadDistributed p b pi pj qi2 qj2 qi3 qj3 ti tj =>
      .setBeamLoadDistributed p b (f / l * pi) (f / l * pj) (f / l * qi2) (f / l * qj2) (f / l * qi3) (f / l * qj3) (f * ti) (f * tj)
  | .setBeamLoadConcentrated p b F1 F2 F3 M1 M2 M3 r =>
      .setBeamLoadConcentrated p b (f * F1) (f * F2) (f * F3) (f * l * M1) (f * l * M2) (f * l * M3) r
  | c => c

/-- the coordinates given in the calls -/
def givenPoints (pre : List Call) : Set V3 := {p | ∃ n, Call.addNode n p.x p.y p.z ∈ pre}

/-- The tolerance classifies pairs of given points alike in both units. -/
def ClassifiedAlike (l : ℝ) (pre : List Call) : Prop :=
  ∀ p ∈ givenPoints pre, ∀ q ∈ givenPoints pre, (Acceptable (l • p) (l • q) ↔ Acceptable p q) ∧ (Upright (l • p) (l • q) ↔ Upright p q)

/-- signs of a reflection in coordinate planes: `⟨1, -1, 1⟩` is the reflection in the plane y = 0 -/
def Signs (m : V3) : Prop := (m.x = 1 ∨ m.x = -1) ∧ (m.y = 1 ∨ m.y = -1) ∧ (m.z = 1 ∨ m.z = -1)

/-- reflection of a point or of an arrow -/
noncomputable def reflect (m a : V3) : V3 := ⟨m.x * a.x, m.y * a.y, m.z * a.z⟩

/-- reflection of a rotation (or moment) vector: the sense of rotation is reversed by an odd number of reflections -/
noncomputable def flipAxial (m a : V3) : V3 := (m.x * m.y * m.z) • reflect m a

/-- reflection of a displacement of a node -/
noncomputable def flipSix (m : V3) (u : Vec 6) : Vec 6 := six (reflect m (trans u)) (flipAxial m (rot u))

/-- reflection of a beam -/
noncomputable def flipBeam (m : V3) (g : GivenBeam) : GivenBeam := { g with p := reflect m g.p, q := reflect m g.q }

/-- `P'` is `P` reflected: coordinates and loads; supports have the same restrained components. -/
structure Mirrored (m : V3) (P P' : Problem) : Prop where
  nodes : P'.nodes = P.nodes
  beam : ∀ b, P'.frame.beam b = (P.frame.beam b).map (flipBeam m)
  fix : P'.fix = P.fix
  load : ∀ v : State, P'.load (fun n => flipSix m (v n)) = P.load v

/-- `P'` contains `P` and next to it further nodes and beams that are not connected to it; the nodes of `P` have the same restraints, and
the loads of `P'` do the work of those of `P` when only nodes of `P` move. -/
structure Beside (P P' : Problem) : Prop where
  nodes : ∀ n ∈ P.nodes, n ∈ P'.nodes
  beam : ∀ b g, P.frame.beam b = some g → P'.frame.beam b = some g
  apart : ∀ b g, P.frame.beam b = none → P'.frame.beam b = some g → g.start ∉ P.nodes ∧ g.stop ∉ P.nodes
  fix : ∀ n ∈ P.nodes, P'.fix n = P.fix n
  load : ∀ v : State, (∀ n, n ∉ P.nodes → v n = 0) → P'.load v = P.load v

/-- A component of a node is restrained. -/
def Restrained (t : String → Option Flags) (n : String) (r : Fin 6) : Prop := ∃ f, t n = some f ∧ f r = true

/-- `P'` is `P` with additional nodal loads `F` that act only at restrained components. -/
structure SupportLoaded (P P' : Problem) (F : String → Vec 6) : Prop where
  frame : P'.frame = P.frame
  nodes : P'.nodes = P.nodes
  fix : P'.fix = P.fix
  only : ∀ n r, F n r ≠ 0 → Restrained P.fix n r
  load : ∀ v : State, P'.load v = P.load v + (P.nodes.map fun n => F n ⬝ᵥ v n).sum

/-- `P'` is `P` with further restrained components, all of them among those at which `u` vanishes. -/
structure HeldWhereStill (P P' : Problem) (u : State) : Prop where
  frame : P'.frame = P.frame
  nodes : P'.nodes = P.nodes
  keep : ∀ n r, Restrained P.fix n r → Restrained P'.fix n r
  still : ∀ n ∈ P.nodes, ∀ r, Restrained P'.fix n r → Restrained P.fix n r ∨ u n r = 0
  load : P'.load = P.load

/-- A horizontal beam along x from `s` over `k` (at the distance `a`) to `t` (at the distance `a + b`), of one section, on two supports: `s` is
held in x, y, z and about x, `t` in y and z. -/
structure TwoSupports (P : Problem) (s k t : String) (p : V3) (a b : ℝ) (g : GivenSec) : Prop where
  nodes : P.nodes = [s, k, t]
  distinct : [s, k, t].Nodup
  beams : ∃ b1 b2, P.frame.beams = [b1, b2] ∧ P.frame.beam b1 = some ⟨s, k, p, p + ⟨a, 0, 0⟩, g⟩ ∧
    P.frame.beam b2 = some ⟨k, t, p + ⟨a, 0, 0⟩, p + ⟨a + b, 0, 0⟩, g⟩
  fix : ∀ n r, Restrained P.fix n r ↔ (n = s ∧ (r = 0 ∨ r = 1 ∨ r = 2 ∨ r = 3)) ∨ (n = t ∧ (r = 1 ∨ r = 2))

end Hyperstatic.Spec
