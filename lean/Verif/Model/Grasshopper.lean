import Verif.Model.Api
import Mathlib.Algebra.Order.Round

/-
Model of hyperstatic/app/scripts/grasshopper: the components that wrap points, curves, materials and sections, and the component
`run/assemble.py` that merges points and writes a Python script of `Api` calls.  The components for rectangular, I- and box sections and
for loads are empty files; what `assemble.py` reads of such objects is modelled.  Rhino's geometry is modelled by points of space.
-/

namespace Hyperstatic

/-- A material object, material_isotropic.py 22-27.  `id` is the identity of the object; `a` is an attribute the component does not set. -/
structure GhMaterial where
  id : ℕ
  name : String
  rho : ℝ
  E : ℝ
  mu : ℝ
  a : Option ℝ

/-- A section object: name, shape, material and its numeric attributes, beam_section_general.py 25-38, assemble.py 143-189. -/
structure GhSection where
  id : ℕ
  name : String
  shape : String
  material : GhMaterial
  attr : String → Option ℝ

/-- A wrapped point, element/node.py 21-24, assemble.py 55-58. -/
structure GhNode where
  name : String
  point : V3

/-- A wrapped curve, element/beam.py 20-24; only the end points of the curve are read (assemble.py 98-100). -/
structure GhBeam where
  name : String
  start : V3
  stop : V3
  sec : GhSection

/-- A load object as read by assemble.py 210-219 (f1,f2,f3,m1,m2,m3). -/
structure GhLoad where
  node : GhNode
  f : Vec 6

/-- A restraint object, boundary/node_restraint.py 25-28. -/
structure GhRestraint where
  node : GhNode
  flags : Flags

/-- The node component: node.py 26, names "1", "2", ... -/
def nodeComponent (pts : List V3) : List GhNode := pts.zipIdx.map fun p => ⟨toString (p.2 + 1), p.1⟩

/-- The beam component: beam.py 26-27, names 0, 1, ... -/
def beamComponent (crvs : List (V3 × V3)) (s : GhSection) : List GhBeam := crvs.zipIdx.map fun c => ⟨toString c.2, c.1.1, c.1.2, s⟩

/-- The restraint component: node_restraint.py 29-30. -/
def restraintComponent (nodes : List GhNode) (flags : Flags) : List GhRestraint := nodes.map fun n => ⟨n, flags⟩

/-- The material component: material_isotropic.py 29-33. -/
def materialComponent (id : ℕ) (name : String) (rho E mu : ℝ) : GhMaterial := ⟨id, name, rho, E, mu, none⟩

/-- The section component: beam_section_general.py 25-48. -/
def generalSectionComponent (id : ℕ) (name : String) (material : GhMaterial) (A As2 As3 J I2 I3 : ℝ) : GhSection :=
  ⟨id, name, "general", material, fun s =>
    if s = "A" then some A else if s = "As2" then some As2 else if s = "As3" then some As3
    else if s = "J" then some J else if s = "I2" then some I2 else if s = "I3" then some I3
    else if s = "rho" then some material.rho else if s = "E" then some material.E else if s = "mu" then some material.mu else none⟩

/-- The inputs of the assembling component, assemble.py 11, and the unit system of the document. -/
structure Drawing where
  lengthUnit : String
  forceUnit : String
  tol : ℝ
  loads : List GhLoad
  restraints : List GhRestraint
  beams : List GhBeam

/-- assemble.py 33-38 -/
noncomputable def lengthScale (u : String) : Except PyErr ℝ :=
  if u = "Millimeters" then .ok (1 / 1000) else if u = "Meters" then .ok 1 else .error .exception

/-- assemble.py 39-44; `upper()` of the four and two spellings -/
noncomputable def forceScale (u : String) : Except PyErr ℝ :=
  if u = "N" ∨ u = "n" then .ok 1
  else if u = "kN" ∨ u = "KN" ∨ u = "kn" ∨ u = "Kn" then .ok (1 / 1000)
  else .error .exception

/-- `find_pt` assemble.py 69-75: the first node nearer than the tolerance (`None` for -1). -/
noncomputable def findPt (pt : V3) (nodes : List GhNode) (tol : ℝ) : Option ℕ :=
  nodes.findIdx? fun n => decide (V3.norm (pt - n.point) < tol)

/-- assemble.py 89-94: the nodes so far and those of the remaining restraints and loads; returns all nodes and the node each of the
restraints and loads refers to afterwards. -/
noncomputable def placeSpecial (tol : ℝ) : List GhNode → List GhNode → List GhNode × List GhNode
  | nodes, [] => (nodes, [])
  | nodes, s :: rest =>
      match findPt s.point nodes tol with
      | none => ((placeSpecial tol (nodes ++ [s]) rest).1, s :: (placeSpecial tol (nodes ++ [s]) rest).2)
      | some k => ((placeSpecial tol nodes rest).1, nodes.getD k s :: (placeSpecial tol nodes rest).2)

/-- assemble.py 105-109 and 110-114: a node for an end that was not found. -/
def endNode (nodes : List GhNode) (pt : V3) : Option ℕ → List GhNode × ℕ
  | some k => (nodes, k)
  | none => (nodes ++ [⟨"gen_" ++ toString nodes.length, pt⟩], nodes.length)

/-- One pass of the loop assemble.py 97-114; both ends are looked for before nodes are added. -/
noncomputable def placeBeam (tol : ℝ) (s : List GhNode × Dict (ℕ × ℕ)) (b : GhBeam) : List GhNode × Dict (ℕ × ℕ) :=
  let loc1 := findPt b.start s.1 tol
  let loc2 := findPt b.stop s.1 tol
  let r1 := endNode s.1 b.start loc1
  let r2 := endNode r1.1 b.stop loc2
  (r2.1, s.2.set b.name (r1.2, r2.2))

/-- The object `model` the component returns (assemble.py 48-53, 115-118), with the restraints and loads after merging. -/
structure GhModel where
  nodes : List GhNode
  conn : Dict (ℕ × ℕ)
  restraints : List GhRestraint
  loads : List GhLoad

/-- assemble.py 88-116 -/
noncomputable def mergeDrawing (d : Drawing) : GhModel :=
  let sp := placeSpecial d.tol [] (d.restraints.map (·.node) ++ d.loads.map (·.node))
  let bs := d.beams.foldl (placeBeam d.tol) (sp.1, [])
  { nodes := bs.1
    conn := bs.2
    restraints := List.zipWith (fun r n => { r with node := n }) d.restraints (sp.2.take d.restraints.length)
    loads := List.zipWith (fun l n => { l with node := n }) d.loads (sp.2.drop d.restraints.length) }

/-- A dictionary from identity to object, then its values: assemble.py 78-86.  (The order of a dictionary in the Python 2.7 of Rhino is not
specified; the order of first occurrence is taken.) -/
def byIdentity {α : Type} (key : α → ℕ) : List α → List α
  | [] => []
  | x :: l => x :: (byIdentity key l).filter fun y => key y ≠ key x

/-- A line of the generated script: a call of `Api`, or a call with a wrong number of arguments. -/
inductive ScriptLine
  | call (c : Call)
  | illTyped

/-- `'%f' % x` read back as a number: six decimals.  (Ties, which the binary value of a float rarely has, are rounded up.) -/
noncomputable def fmt6 (x : ℝ) : ℝ := (round (x * 10 ^ 6) : ℝ) / 10 ^ 6

/-- `section.attr`: raises `AttributeError` when it was not set. -/
def GhSection.get (s : GhSection) (attr : String) : Except PyErr ℝ :=
  match s.attr attr with
  | some x => .ok x
  | none => .error .attributeError

/-- assemble.py 137-142; `fmt` is the formatting of numbers. -/
noncomputable def materialLine (fmt : ℝ → ℝ) (scale fscale : ℝ) (m : GhMaterial) : Except PyErr ScriptLine :=
  match m.a with
  | none => .error .attributeError
  | some a => .ok (.call (.addIsotropicMaterial m.name (fmt (m.rho / scale ^ 3)) (fmt (m.E * fscale / scale ^ 2)) (fmt m.mu) (fmt a)))

/-- assemble.py 144-189.  The second test for "I" (169) is never reached; the calls written for "circle" and "pipe" (178, 183) have three and
four arguments, `add_beam_section_I` has six (core/__init__.py 247). -/
noncomputable def sectionLine (fmt : ℝ → ℝ) (scale : ℝ) (s : GhSection) : Except PyErr ScriptLine :=
  if s.shape = "general" then do
    let A ← s.get "A"
    let As2 ← s.get "As2"
    let As3 ← s.get "As3"
    let I2 ← s.get "I2"
    let I3 ← s.get "I3"
    let J ← s.get "J"
    return .call (.addBeamSectionGeneral s.name s.material.name (fmt (A * scale ^ 2)) (fmt (As2 * scale ^ 2)) (fmt (As3 * scale ^ 2))
      (fmt (I2 * scale ^ 4)) (fmt (I3 * scale ^ 4)) (fmt (J * scale ^ 4)) (fmt 0) (fmt 0))
  else if s.shape = "I" then do
    let h ← s.get "h"
    let b ← s.get "b"
    let tw ← s.get "tw"
    let tf ← s.get "tf"
    return .call (.addBeamSectionI s.name s.material.name (fmt (h * scale)) (fmt (b * scale)) (fmt (tw * scale)) (fmt (tf * scale)))
  else if s.shape = "rectangle" then do
    let h ← s.get "h"
    let b ← s.get "b"
    return .call (.addBeamSectionRectangle s.name s.material.name (fmt (h * scale)) (fmt (b * scale)))
  else if s.shape = "I" then do
    let h ← s.get "h"
    let b ← s.get "b"
    let tw ← s.get "tw"
    let tf ← s.get "tf"
    return .call (.addBeamSectionBox s.name s.material.name (fmt (h * scale)) (fmt (b * scale)) (fmt (tw * scale)) (fmt (tf * scale)))
  else if s.shape = "circle" then do
    let _ ← s.get "d"
    return .illTyped
  else if s.shape = "pipe" then do
    let _ ← s.get "d"
    let _ ← s.get "t"
    return .illTyped
  else .error .exception

/-- assemble.py 190-194 -/
noncomputable def nodeLine (fmt : ℝ → ℝ) (scale : ℝ) (n : GhNode) : ScriptLine :=
  .call (.addNode n.name (fmt (n.point.x * scale)) (fmt (n.point.y * scale)) (fmt (n.point.z * scale)))

/-- assemble.py 196-202 -/
def beamLine (m : GhModel) (b : GhBeam) : Except PyErr ScriptLine := do
  let c ← m.conn.getItem b.name
  match m.nodes[c.1]?, m.nodes[c.2]? with
  | some i, some j => return .call (.addBeam b.name i.name j.name b.sec.name)
  | _, _ => .error .indexError

/-- assemble.py 210-219; the moments are multiplied by the square of the force factor. -/
noncomputable def loadLine (fmt : ℝ → ℝ) (fscale : ℝ) (l : GhLoad) : ScriptLine :=
  .call (.setNodalLoad "pat1" l.node.name ![fmt (l.f 0 * fscale), fmt (l.f 1 * fscale), fmt (l.f 2 * fscale),
    fmt (l.f 3 * fscale ^ 2), fmt (l.f 4 * fscale ^ 2), fmt (l.f 5 * fscale ^ 2)])

/-- assemble.py 221-226 -/
def restraintLine (r : GhRestraint) : ScriptLine := .call (.setNodalRestraint r.node.name r.flags)

/-- The `Api` calls written to `gen_assemble.py`: assemble.py 33-46, 78-86, 119-230.  Names that contain quotes are not modelled. -/
noncomputable def generateWith (fmt : ℝ → ℝ) (d : Drawing) : Except PyErr (List ScriptLine) := do
  let scale ← lengthScale d.lengthUnit
  let fscale ← forceScale d.forceUnit
  let m := mergeDrawing d
  let sections := byIdentity GhSection.id (d.beams.map (·.sec))
  let materials := byIdentity GhMaterial.id (sections.map (·.material))
  let ms ← materials.mapM (materialLine fmt scale fscale)
  let ss ← sections.mapM (sectionLine fmt scale)
  let bs ← d.beams.mapM (beamLine m)
  return ms ++ ss ++ m.nodes.map (nodeLine fmt scale) ++ bs
    ++ [.call (.addLoadpattern "pat1"), .call (.addStaticCase "case1"), .call (.addCasePattern "case1" "pat1" 1)]
    ++ m.loads.map (loadLine fmt fscale) ++ m.restraints.map restraintLine
    ++ [.call .assemble, .call (.save "assembly")]

/-- The script with the numbers as they are written. -/
noncomputable def generate (d : Drawing) : Except PyErr (List ScriptLine) := generateWith fmt6 d

/-- Running the script (assemble.py 131-133, 238): calls that return `False` do not stop it, a wrong number of arguments does. -/
noncomputable def runLines (env : Env) (w : World) : List ScriptLine → World
  | [] => w
  | .illTyped :: _ => w
  | .call c :: rest => runLines env (w.step env c).1 rest

/-- The state after the script, with an empty work path (no line reads a file). -/
noncomputable def runScript (env : Env) (lines : List ScriptLine) : World := runLines env World.init lines

end Hyperstatic
