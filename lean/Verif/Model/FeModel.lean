import Verif.Model.Load
import Verif.Model.Shell

/-
Model of hyperstatic/core/fe_model/model.py (class `Model`).
-/

namespace Hyperstatic

/-- `Model` model.py 24-36. -/
structure FeModel where
  nodes : Dict Node
  restraints : Dict Flags
  material : Dict Material
  beamSection : Dict BeamSection
  shellSection : Dict ShellSection
  beams : Dict BeamElm
  shells : Dict ShellElm
  hidNode : Dict ℕ
  hidBeam : Dict ℕ
  hidShell : Dict ℕ

namespace FeModel

/-- `Model.__init__` model.py 24-36. -/
def empty : FeModel := ⟨[], [], [], [], [], [], [], [], [], []⟩

/-- `node_count` model.py 44-46. -/
def nodeCount (m : FeModel) : ℕ := m.nodes.length

/-- `add_node` model.py 72-86 (the API always passes `check_dup=False`). -/
noncomputable def addNode (m : FeModel) (name : String) (x y z : ℝ) (checkDup : Bool := false) :
    Except PyErr (FeModel × ℕ) := do
  let node ← Node.mk? name x y z
  let res : List Node :=
    if checkDup then m.nodes.values.filter (fun a => decide (V3.norm (a.loc - ⟨x, y, z⟩) < absTol))
    else []
  match res with
  | [] =>
      let hid := m.nodes.length
      return ({ m with hidNode := m.hidNode.set name hid, nodes := m.nodes.set name node }, hid)
  | dup :: _ => do
      let hid ← m.hidNode.getItem dup.name
      return (m, hid)

/-- `set_nodal_restraint` model.py 88-93: returns `False` without raising for an unknown node. -/
def setNodalRestraint (m : FeModel) (name : String) (f : Flags) : FeModel × Bool :=
  if m.nodes.contains name then ({ m with restraints := m.restraints.set name f }, true)
  else (m, false)

/-- `set_nodal_mass` model.py 101-102. -/
def setNodalMass (m : FeModel) (name : String) (mass : Vec 6) : Except PyErr FeModel := do
  let n ← m.nodes.getItem name
  return { m with nodes := m.nodes.set name { n with mass := mass } }

/-- `add_isotropic_material` model.py 104-106. -/
def addMaterial (m : FeModel) (name : String) (rho E mu a : ℝ) : FeModel :=
  { m with material := m.material.set name ⟨name, rho, E, mu, a⟩ }

/-- common shape of `add_beam_section_*` model.py 108-136: look up the material, build the section,
store it. -/
def addBeamSection (m : FeModel) (name material : String)
    (build : Material → Except PyErr BeamSection) : Except PyErr FeModel := do
  let mat ← m.material.getItem material
  let sec ← build mat
  return { m with beamSection := m.beamSection.set name sec }

/-- `add_shell_section` model.py 138-141. -/
def addShellSection (m : FeModel) (name material : String) (t : ℝ) (eleType : String) :
    Except PyErr FeModel := do
  let mat ← m.material.getItem material
  return { m with shellSection := m.shellSection.set name ⟨name, mat, t, eleType⟩ }

/-- the final part of `add_beam`/`add_simple_beam` model.py 148-161, 167-180. -/
noncomputable def storeBeam (m : FeModel) (name : String) (n0 n1 : Node) (beam : BeamElm)
    (checkDup : Bool) : Except PyErr (FeModel × ℕ) :=
  let res : List BeamElm :=
    if checkDup then m.beams.values.filter (fun b =>
      decide ((V3.norm (b.startLoc - n0.loc) < absTol ∧ V3.norm (b.endLoc - n1.loc) < absTol) ∨
        (V3.norm (b.endLoc - n0.loc) < absTol ∧ V3.norm (b.startLoc - n1.loc) < absTol)))
    else []
  match res with
  | [] =>
      let hid := m.beams.length
      .ok ({ m with hidBeam := m.hidBeam.set name hid, beams := m.beams.set name beam }, hid)
  | dup :: _ => do
      let hid ← m.hidBeam.getItem dup.name
      return (m, hid)

/-- `add_beam` model.py 143-161. -/
noncomputable def addBeam (m : FeModel) (name start stop sec : String) (checkDup : Bool := false) :
    Except PyErr (FeModel × ℕ) := do
  let n0 ← m.nodes.getItem start
  let n1 ← m.nodes.getItem stop
  let s ← m.beamSection.getItem sec
  let beam ← BeamElm.mk? name n0 n1 (.sec s)
  m.storeBeam name n0 n1 beam checkDup

/-- `add_simple_beam` model.py 163-180. -/
noncomputable def addSimpleBeam (m : FeModel) (name start stop : String)
    (E mu A I2 I3 J rho : ℝ) (checkDup : Bool := false) : Except PyErr (FeModel × ℕ) := do
  let n0 ← m.nodes.getItem start
  let n1 ← m.nodes.getItem stop
  let beam ← BeamElm.mk? name n0 n1 (.simple E mu A I2 I3 J rho)
  m.storeBeam name n0 n1 beam checkDup

/-- The data attributes and properties of a `Model` object, model.py 25-36, 44-50 (its methods are called `add_...`, `set_...`,
`get_...` and `find`). -/
def attributes : List String :=
  ["_Model__nodes", "_Model__nodal_restraints", "_Model__material", "_Model__beam_section", "_Model__shell_section",
    "_Model__beams", "_Model__shells", "_Model__hid", "node_count", "beam_count"]

/-- `set_beam_releases` model.py 193-196: `self.beams[name].releases=...` (the table is called `self.__beams`). -/
def setBeamReleases (m : FeModel) (name : String) (rel : Fin 12 → Bool) : Except PyErr FeModel := do
  checkAttr attributes "beams"
  let b ← m.beams.getItem name
  return { m with beams := m.beams.set name { b with releases := rel } }

/-- `get_node_location` model.py 207-208. -/
def getNodeLocation (m : FeModel) (name : String) : Except PyErr V3 := do
  let n ← m.nodes.getItem name
  return n.loc

/-- `get_nodal_mass` model.py 210-211. -/
def getNodalMass (m : FeModel) (name : String) : Except PyErr (Vec 6) := do
  let n ← m.nodes.getItem name
  return n.mass

/-- `get_beam_connection` model.py 216-217. -/
def getBeamConnection (m : FeModel) (name : String) : Except PyErr (String × String) := do
  let b ← m.beams.getItem name
  return (b.startName, b.endName)

/-- `get_beam_location` model.py 219-220. -/
def getBeamLocation (m : FeModel) (name : String) : Except PyErr (V3 × V3) := do
  let b ← m.beams.getItem name
  return (b.startLoc, b.endLoc)

/-- `get_node_hid` model.py 222-223. -/
def getNodeHid (m : FeModel) (name : String) : Except PyErr ℕ := m.hidNode.getItem name

/-- `get_beam_node_hids` model.py 228-231. -/
def getBeamNodeHids (m : FeModel) (name : String) : Except PyErr (ℕ × ℕ) := do
  let b ← m.beams.getItem name
  let i ← m.getNodeHid b.startName
  let j ← m.getNodeHid b.endName
  return (i, j)

/-- `add_shell` model.py 291-304. -/
noncomputable def addShell (m : FeModel) (name sec node0 node1 node2 : String)
    (node3 : Option String) : Except PyErr (FeModel × ℕ) := do
  let s ← m.shellSection.getItem sec
  let a ← m.nodes.getItem node0
  let b ← m.nodes.getItem node1
  let c ← m.nodes.getItem node2
  let elm ← match node3 with
    | some n3 => do
        let d ← m.nodes.getItem n3
        ShellElm.dkgq? name s a b c d
    | none => ShellElm.dkt? name s a b c
  let res := m.shells.length
  return ({ m with hidShell := m.hidShell.set name res, shells := m.shells.set name elm }, res)

/-- `get_shell_connection` model.py 309-310: indexes nodes 0..3, `IndexError` for triangles. -/
def getShellConnection (m : FeModel) (name : String) :
    Except PyErr (String × String × String × String) := do
  let s ← m.shells.getItem name
  match s.nodes with
  | [a, b, c, d] => return (a.1, b.1, c.1, d.1)
  | _ => .error .indexError

/-- `get_shell_location` model.py 312-313: `tuple(node)` of a `Node` object, which is not iterable:
`TypeError` for every existing shell. -/
def getShellLocation (m : FeModel) (name : String) : Except PyErr (V3 × V3 × V3 × V3) := do
  let _ ← m.shells.getItem name
  .error .typeError

/-- `get_shell_node_hids` model.py 318-321. -/
def getShellNodeHids (m : FeModel) (name : String) : Except PyErr (List ℕ) := do
  let s ← m.shells.getItem name
  s.nodes.mapM (fun n => m.getNodeHid n.1)

end FeModel
end Hyperstatic
