import Verif.Model.Grasshopper
import Verif.Spec.FrameLaws

/-
What a user of the Grasshopper components expects of the assembled model.
-/

namespace Hyperstatic.Spec

/-- Node number `i` of the list is the first one nearer to `p` than the tolerance. -/
def FirstNear (tol : ℝ) (p : V3) (nodes : List GhNode) (i : ℕ) : Prop :=
  (∃ n, nodes[i]? = some n ∧ V3.norm (p - n.point) < tol) ∧ ∀ k < i, ∀ n, nodes[k]? = some n → tol ≤ V3.norm (p - n.point)

/-- all points of a drawing -/
def drawnPoints (d : Drawing) : List V3 :=
  d.restraints.map (·.node.point) ++ d.loads.map (·.node.point) ++ d.beams.flatMap fun b => [b.start, b.stop]

/-- No beam is shorter than the merging tolerance. -/
def NoShortBeam (d : Drawing) : Prop := ∀ b ∈ d.beams, d.tol ≤ V3.norm (b.start - b.stop)

/-- The beams have different names. -/
def BeamNamesDiffer (d : Drawing) : Prop := (d.beams.map (·.name)).Nodup

/-- Names of wrapped points mean one point, and none looks like a generated name. -/
def PointNamesSound (d : Drawing) : Prop :=
  (∀ s ∈ d.restraints.map (·.node) ++ d.loads.map (·.node), ∀ t ∈ d.restraints.map (·.node) ++ d.loads.map (·.node),
    s.name = t.name → s.point = t.point) ∧
  ∀ s ∈ d.restraints.map (·.node) ++ d.loads.map (·.node), ∀ k : ℕ, s.name ≠ "gen_" ++ toString k

/-- Section and material objects: identity and name both tell them apart. -/
structure ObjectsSound (d : Drawing) : Prop where
  secId : ∀ b ∈ d.beams, ∀ c ∈ d.beams, b.sec.id = c.sec.id → b.sec = c.sec
  secName : ∀ b ∈ d.beams, ∀ c ∈ d.beams, b.sec.name = c.sec.name → b.sec = c.sec
  matId : ∀ b ∈ d.beams, ∀ c ∈ d.beams, b.sec.material.id = c.sec.material.id → b.sec.material = c.sec.material
  matName : ∀ b ∈ d.beams, ∀ c ∈ d.beams, b.sec.material.name = c.sec.material.name → b.sec.material = c.sec.material

/-- All sections are general ones (the only kind there is a component for). -/
def GeneralSections (d : Drawing) : Prop := ∀ b ∈ d.beams, b.sec.shape = "general"

/-- The number `y` is `x` written with six decimals. -/
def SixDecimals (x y : ℝ) : Prop := (∃ k : ℤ, y = k / 10 ^ 6) ∧ |y - x| ≤ 1 / (2 * 10 ^ 6)

/-- A point in metres, written with six decimals. -/
noncomputable def writtenPoint (scale : ℝ) (p : V3) : V3 := ⟨fmt6 (p.x * scale), fmt6 (p.y * scale), fmt6 (p.z * scale)⟩

/-- The nodes a beam is attached to are far enough apart for a beam, also after rounding. -/
def EndsStayApart (scale : ℝ) (d : Drawing) (nodes : List GhNode) : Prop :=
  ∀ b ∈ d.beams, ∀ i j ni nj, FirstNear d.tol b.start nodes i → FirstNear d.tol b.stop nodes j → nodes[i]? = some ni → nodes[j]? = some nj →
    Acceptable (writtenPoint scale ni.point) (writtenPoint scale nj.point)

/-- Materials and sections have all attributes the component reads. -/
def Complete (d : Drawing) : Prop :=
  ∀ b ∈ d.beams, b.sec.material.a ≠ none ∧ ∀ k ∈ ["A", "As2", "As3", "I2", "I3", "J"], b.sec.attr k ≠ none

/-- the unit of length of a drawing is `l` metres -/
def Metres (unit : String) (l : ℝ) : Prop := (unit = "Meters" ∧ l = 1) ∨ (unit = "Millimeters" ∧ l = 1 / 1000)

/-- the unit of force of a drawing is `f` newtons -/
def Newtons (unit : String) (f : ℝ) : Prop := (unit ∈ ["N", "n"] ∧ f = 1) ∨ (unit ∈ ["kN", "KN", "kn", "Kn"] ∧ f = 1000)

/-- a call of the script in other units, of which density is excepted: it is mass per volume, and the unit of mass is kept -/
noncomputable def scriptUnitCall (l f : ℝ) : Call → Call
  | .addIsotropicMaterial n rho E mu a => .addIsotropicMaterial n (rho / l ^ 3) (f / l ^ 2 * E) mu a
  | c => unitCall l f c

/-- conversion of a line of a script to other units -/
noncomputable def unitLine (l f : ℝ) : ScriptLine → ScriptLine
  | .call c => .call (scriptUnitCall l f c)
  | .illTyped => .illTyped

open Classical in
/-- the sum of the loads drawn at points that belong to a node of the assembled model, in newtons and metres -/
noncomputable def drawnLoadAt (scale fscale : ℝ) (d : Drawing) (nodes : List GhNode) (i : ℕ) : Vec 6 :=
  ((d.loads.filter fun l => FirstNear d.tol l.node.point nodes i).map fun l =>
    ![l.f 0 * fscale, l.f 1 * fscale, l.f 2 * fscale, l.f 3 * fscale * scale, l.f 4 * fscale * scale, l.f 5 * fscale * scale]).sum

open Classical in
/-- some restraint drawn at a point that belongs to a node holds the component -/
def DrawnHeld (d : Drawing) (nodes : List GhNode) (i : ℕ) (r : Fin 6) : Prop :=
  ∃ x ∈ d.restraints, FirstNear d.tol x.node.point nodes i ∧ x.flags r = true

end Hyperstatic.Spec
