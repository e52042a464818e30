import Verif.Model.Api

/-
Model of hyperstatic/app/viz/viz_core/{__init__,result_deformation,model_basic,model_load}.py: the pictures of a model and of its
deformation, as machines driven by the buttons.

Of vedo this is assumed: an actor is seen when it is in the plotter and switched on; a new actor is on; `on()` and `off()` switch it and
return it; `plotter.show` adds actors to the plotter, `plotter.remove` removes one, and removing `None` does nothing; a button starts in
the first of its two states and `switch()` goes to the other.  Left out: colours, text and the camera.
-/

namespace Hyperstatic

/-- `os.path.join(a,b)` on a POSIX system. -/
def pathJoin (a b : String) : String :=
  if b.toList.head? = some '/' then b
  else if a = "" ∨ a.toList.getLast? = some '/' then a ++ b
  else a ++ "/" ++ b

/-- The file `Api(workpath).save(filename)` writes, core/__init__.py 53. -/
def savePath (workpath filename : String) : String := pathJoin workpath (filename ++ ".sep")

/-- The file a viewer reads: viz_core/__init__.py 25-26 joins work path and file name, `Api.load` (core/__init__.py 69) joins them
again. -/
def viewerPath (workpath filename : String) : String := pathJoin workpath (pathJoin workpath filename ++ ".sep")

/-- What an actor consists of. -/
inductive Sketch
  /-- `Points(list(pts.values()))` -/
  | points (ps : List V3)
  /-- `Lines(list(lines.values()))` -/
  | lines (ls : List (V3 × V3))
  /-- `Mesh([verts,faces])`: a face is given by the numbers of its corners among the points -/
  | mesh (vs : List V3) (fs : List (ℕ × ℕ × ℕ × ℕ))

structure Actor where
  drawing : Sketch
  on : Bool

/-- `ViewerBase.init_nodes`, viz_core/__init__.py 56-68: the dictionary `pts`.  Unpacking `None` raises. -/
def viewPts (w : World) : Except PyErr (Dict V3) :=
  w.getNodeNames.foldlM (fun pts n =>
    match w.getNodeLocation n with
    | some p => .ok (Dict.set pts n p)
    | none => .error .typeError) []

/-- `for b in beams: s,e=api.get_beam_node_names(b); lines[b]=([pts[s],pts[e]])`, viz_core/__init__.py 122-124,
result_deformation.py 161-163. -/
def viewLines (w : World) (pts : Dict V3) (lines : Dict (V3 × V3)) : Except PyErr (Dict (V3 × V3)) :=
  w.getBeamNames.foldlM (fun lines b =>
    match w.getBeamNodeNames b with
    | some (s, e) => do
        let p ← pts.getItem s
        let q ← pts.getItem e
        return Dict.set lines b (p, q)
    | none => .error .typeError) lines

/-- `ViewerBase.init_nodes`, viz_core/__init__.py 62-65: the dictionary `pt_id_map`; of `pts` only the length matters. -/
def viewIds (names : List String) : Dict ℕ :=
  (names.foldl (fun (s : Dict Unit × Dict ℕ) n => (Dict.set s.1 n (), Dict.set s.2 n s.1.length)) ([], [])).2

/-- `ViewerBase.init_shells`, viz_core/__init__.py 128-142: the dictionary `faces`.  For a triangle `get_shell_node_names` returns
`None`, which cannot be unpacked. -/
def viewFaces (w : World) (ids : Dict ℕ) : Except PyErr (Dict (ℕ × ℕ × ℕ × ℕ)) :=
  w.getShellNames.foldlM (fun faces s =>
    match w.getShellNodeNames s with
    | some (n1, n2, n3, n4) => do
        let a ← ids.getItem n1
        let b ← ids.getItem n2
        let c ← ids.getItem n3
        let d ← ids.getItem n4
        return Dict.set faces s (a, b, c, d)
    | none => .error .typeError) []

/-- The symbol of one support: the middle of its axis, its direction (from the base to the tip) and half its height, which is the radius
of the base as well; `turn` tells the red ones. -/
structure Cone where
  centre : V3
  axis : V3
  half : ℝ
  turn : Bool

/-- viz_core/__init__.py 78-101: the symbols of the supports of one node. -/
noncomputable def nodeCones (cones : List Cone) (pt : V3) (scale : ℝ) (v : Flags) : List Cone :=
  let cones := if v 0 then cones ++ [⟨⟨pt.x - 1 * scale, pt.y, pt.z⟩, ⟨1, 0, 0⟩, 1 * scale, false⟩] else cones
  let cones := if v 1 then cones ++ [⟨⟨pt.x, pt.y - 1 * scale, pt.z⟩, ⟨0, 1, 0⟩, 1 * scale, false⟩] else cones
  let cones := if v 2 then cones ++ [⟨⟨pt.x, pt.y, pt.z - 1 * scale⟩, ⟨0, 0, 1⟩, 1 * scale, false⟩] else cones
  let cones := if v 3 then cones ++ [⟨⟨pt.x + 1 * scale, pt.y, pt.z⟩, ⟨-1, 0, 0⟩, 1 * scale, true⟩] else cones
  let cones := if v 4 then cones ++ [⟨⟨pt.x, pt.y + 1 * scale, pt.z⟩, ⟨0, -1, 0⟩, 1 * scale, true⟩] else cones
  let cones := if v 5 then cones ++ [⟨⟨pt.x, pt.y, pt.z + 1 * scale⟩, ⟨0, 0, -1⟩, 1 * scale, true⟩] else cones
  cones

/-- `ViewerBase.init_restraints`, viz_core/__init__.py 70-105, with `scale` after the division by 100.  Only the supports that hold in
all cases are asked for.  The cones are switched off; `toggle_restraints` (107-113), which would switch them on, is called with
`False` only. -/
noncomputable def viewCones (w : World) (pts : Dict V3) (scale : ℝ) : Except PyErr (List Cone) :=
  match w.getNodeRestraints none with
  | none => .ok []
  | some restraints => restraints.foldlM (fun cones kv => do
      let pt ← pts.getItem kv.1
      return nodeCones cones pt scale kv.2) []

/-- `scene_radius`, viz_core/__init__.py 144-154, of at least one point. -/
noncomputable def halfSpan (xs : List ℝ) : ℝ := xs.maximum.unbotD 0 / 2 - xs.minimum.untopD 0 / 2

noncomputable def sceneRadius (ps : List V3) : ℝ :=
  max (max (halfSpan (ps.map (·.x))) (halfSpan (ps.map (·.y)))) (halfSpan (ps.map (·.z)))

/-- result_deformation.py 136-138: every entry of the table of displacements moves its point. -/
noncomputable def moveAll (scale : ℝ) (pts : Dict V3) (d : Dict (List ℝ)) : Except PyErr (Dict V3) :=
  d.foldlM (fun pts kv => do
    let o ← pts.getItem kv.1
    match kv.2 with
    | v0 :: v1 :: v2 :: _ => return Dict.set pts kv.1 ⟨o.x + v0 * scale, o.y + v1 * scale, o.z + v2 * scale⟩
    | _ => .error .indexError) pts

/-- The three buttons for deformations. -/
inductive Axis
  | x | y | z
  deriving DecidableEq

/-- A `ResultViewer`.  `heap` holds the actors made so far, an actor is its index there; `shown` are those in the plotter, `actors` is
`self.actors`.  `cones` are the symbols of the supports.
`btnNode` tells that the node button reads "hide nodes", `btn a` that the button `a` reads "reset". -/
structure Viewer where
  api : World
  pts : Dict V3
  lines : Dict (V3 × V3)
  faces : Dict (ℕ × ℕ × ℕ × ℕ)
  cones : List Cone
  heap : List Actor
  shown : List ℕ
  actors : Dict ℕ
  vnodes : ℕ
  vbeams : ℕ
  vshells : Option ℕ
  btnNode : Bool
  btn : Axis → Bool
  scale : ℝ

inductive Click
  /-- the button "show nodes" / "hide nodes" -/
  | node
  /-- one of the buttons "deformX" ... / "reset" -/
  | deform (a : Axis)
  /-- the slider -/
  | slide (value : ℝ)

namespace Viewer

/-- Constructor (viz_core/__init__.py 23-50, result_deformation.py 14-18) and `run()` (viz_core/__init__.py 186-211). -/
noncomputable def open? (w : World) : Except PyErr Viewer := do
  let pts ← viewPts w
  let lines ← viewLines w pts []
  let faces ← viewFaces w (viewIds w.getNodeNames)
  -- `max` of no coordinates, scene_radius 148
  if pts.length = 0 then .error .valueError else
  let cones ← viewCones w pts (sceneRadius pts.values / 100)
  -- without shells there is no actor for them, init_shells 133-134
  let mesh := w.getShellNames.length ≠ 0
  return { api := w, pts := pts, lines := lines, faces := faces, cones := cones
           heap := [⟨.points pts.values, false⟩, ⟨.lines lines.values, true⟩] ++
             (if mesh then [⟨.mesh pts.values faces.values, true⟩] else [])
           actors := [("node", 0), ("beams", 1)] ++ (if mesh then [("shells", 2)] else [])
           shown := [0, 1] ++ (if mesh then [2] else [])
           vnodes := 0, vbeams := 1, vshells := if mesh then some 2 else none, btnNode := false, btn := fun _ => false, scale := 0 }

/-- A new actor; its index is the length of the heap. -/
def make (v : Viewer) (d : Sketch) (on : Bool) : Viewer := { v with heap := v.heap ++ [⟨d, on⟩] }

/-- `actor.on()`, `actor.off()` -/
def switch (v : Viewer) (i : ℕ) (on : Bool) : Viewer :=
  { v with heap := v.heap.modify i (fun a => { a with on := on }) }

/-- `self.plotter.remove(actor)` -/
def remove (v : Viewer) (i : ℕ) : Viewer := { v with shown := v.shown.filter (· ≠ i) }

/-- `self.plotter.remove(self.vshells)`, which may be `None` -/
def removeShells (v : Viewer) : Viewer := match v.vshells with
  | some i => v.remove i
  | none => v

/-- `ViewerBase.reset`, viz_core/__init__.py 176-184: show all of `self.actors`. -/
def reset (v : Viewer) : Viewer := { v with shown := v.shown ++ v.actors.values.filter (· ∉ v.shown) }

/-- `toggle_node`, result_deformation.py 68-73. -/
def toggleNode (v : Viewer) : Viewer :=
  let v := if v.btnNode then v.switch v.vnodes false else v.switch v.vnodes true
  { v with btnNode := !v.btnNode }

/-- `__show_result_deformation`, result_deformation.py 129-189.  All that can raise comes before the first change of the viewer,
except the lines, which are made after the points were exchanged. -/
noncomputable def showDeformation (v : Viewer) : Except PyErr Viewer := do
  match v.api.resultGetAllNodalDisplacement "case1" with
  -- `None.items()`
  | none => .error .attributeError
  | some d =>
      let pts ← moveAll v.scale v.pts d
      let v := v.remove v.vnodes
      let v := { v.make (.points pts.values) true with vnodes := v.heap.length }
      let v := if v.btnNode then v else v.switch v.vnodes false
      let v := v.remove v.vbeams
      let lines ← viewLines v.api pts v.lines
      let v := { v.make (.lines lines.values) true with vbeams := v.heap.length }
      let v := v.removeShells
      let i := v.heap.length
      let v := { v.make (.mesh pts.values v.faces.values) true with vshells := some i }
      return { v with actors := ((v.actors.set "nodes" v.vnodes).set "beams" v.vbeams).set "shells" i }

/-- `__reset_deformation`, result_deformation.py 114-127. -/
def resetDeformation (v : Viewer) : Viewer :=
  let v := ((v.remove v.vnodes).remove v.vbeams).removeShells
  let v := { v.make (.points v.pts.values) false with vnodes := v.heap.length }
  let v := { v.make (.lines v.lines.values) true with vbeams := v.heap.length }
  let i := v.heap.length
  let v := { v.make (.mesh v.pts.values v.faces.values) true with vshells := some i }
  let v := { v with actors := ((v.actors.set "nodes" v.vnodes).set "beams" v.vbeams).set "shells" i }
  if v.btnNode then v else v.switch v.vnodes false

/-- `show_result_deformation_X`, `_Y`, `_Z`, result_deformation.py 75-112: the button pressed is switched, the others go back. -/
noncomputable def deform (v : Viewer) (a : Axis) : Except PyErr Viewer := do
  let v ← if v.btn a then pure v.resetDeformation else v.showDeformation
  let v := { v with btn := fun b => if b = a then !v.btn a else false }
  return v.reset

/-- One action.  A call-back that raises is reported and the viewer goes on; nothing has been changed when the table of
displacements is missing or short, and the beams of a model that was opened can always be drawn. -/
noncomputable def step (v : Viewer) : Click → Viewer
  | .node => v.toggleNode
  | .deform a => match v.deform a with
      | .ok v' => v'
      | .error _ => v
  -- `slide_scale`, result_deformation.py 65-66
  | .slide s => { v with scale := s }

noncomputable def run (v : Viewer) (cs : List Click) : Viewer := cs.foldl step v

/-- The actor is seen. -/
def Sees (v : Viewer) (d : Sketch) : Prop := ∃ i ∈ v.shown, v.heap[i]? = some ⟨d, true⟩

end Viewer

/-! ### Pictures of the model and of its loads -/

/-- What the buttons of `BasicViewer` and `LoadViewer` switch; `on k` tells whether the actor is on, `btn k` whether its button is in
its second state. -/
inductive Part
  | node | beam | shell | load
  deriving DecidableEq

structure Panel where
  on : Part → Bool
  btn : Part → Bool

/-- Nodes and loads are off at first and their buttons read "show ...", beams and shells are on and their buttons read "hide ..."
(viz_core/__init__.py 67, model_load.py 138; model_basic.py 22-45, model_load.py 22-53). -/
def Panel.init : Panel := ⟨fun k => k = .beam ∨ k = .shell, fun _ => false⟩

/-- The button offers to hide its part. -/
def Panel.offersHide (p : Panel) (k : Part) : Bool :=
  if k = .beam ∨ k = .shell then !p.btn k else p.btn k

/-- `toggle_node`, `toggle_beam`, `toggle_shell` of `BasicViewer`, model_basic.py 50-73; the button is switched even if there are no
shells. -/
def Panel.toggleBasic (p : Panel) (k : Part) : Panel :=
  { on := fun j => if j = k then !(p.offersHide k) else p.on j
    btn := fun j => if j = k then !p.btn k else p.btn j }

/-- The same and `toggle_nodal_load` of `LoadViewer`, model_load.py 58-92; line 69 switches on the shells.  In a model without shells
`self.vshells` is `None` and what would switch them raises before the button is switched. -/
def Panel.toggleLoad (shells : Bool) (p : Panel) (k : Part) : Panel :=
  let target := if k = .beam ∧ p.offersHide k = false then Part.shell else k
  if target = .shell ∧ shells = false then p else
  { on := fun j => if j = target then !(p.offersHide k) else p.on j
    btn := fun j => if j = k then !p.btn k else p.btn j }

/-- `LoadViewer.init_nodal_load`, model_load.py 109-138, up to the two lists given to `Arrows`: pairs of start and end for the nodes
with a load in `"pat1"`, in the order of the nodes; `max` of an empty list raises. -/
noncomputable def loadArrows (w : World) (radius : ℝ) : Except PyErr (List (V3 × V3)) := do
  match w.getAllNodalLoad "pat1" with
  -- `None.keys()`
  | none => .error .attributeError
  | some loads =>
      let hit ← (w.getNodeNames.filter (fun n => Dict.contains loads n)).mapM (fun n =>
        match w.getNodeLocation n with
        | some p => do
            let f ← loads.getItem n
            return (p, f)
        | none => .error .typeError)
      let sizes := hit.map (fun h => Real.sqrt (h.2 0 ^ 2 + h.2 1 ^ 2 + h.2 2 ^ 2))
      match sizes.maximum with
      | ⊥ => .error .valueError
      | (m : ℝ) =>
          let scale := if m = 0 then 1 else |radius / m * 0.2|
          return hit.map (fun h => (⟨h.1.x - h.2 0 * scale, h.1.y - h.2 1 * scale, h.1.z - h.2 2 * scale⟩, h.1))

end Hyperstatic
