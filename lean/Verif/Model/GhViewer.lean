import Verif.Model.Viewer
import Verif.Model.Grasshopper

/-
Model of the viewers started from Grasshopper: app/scripts/grasshopper/run/genviz.py writes scripts that open the viewers of
app/viz/viz_core/viz_core_model.py and viz_core_result_deformation.py for the file "assembly".  The assumptions about vedo are those of
Model/Viewer; the file is found as there (lines 24-25 of both modules are lines 25-26 of viz_core/__init__.py).
-/

namespace Hyperstatic

/-- The pairs of start and end of the arrows, viz_core_model.py 120-147 (`init_nodal_load`), for nodes with a load in "pat1".  If all
forces are zero, numpy divides by zero and the starts are not numbers (`none`). -/
noncomputable def ghArrows (w : World) (radius : ℝ) : Except PyErr (List (Option V3 × V3)) := do
  match w.getAllNodalLoad "pat1" with
  -- `None.keys()`
  | none => .error .attributeError
  | some loads =>
      let hit ← (w.getNodeNames.filter (fun n => Dict.contains loads n)).mapM (fun n =>
        match w.getNodeLocation n with
        | some p => do
            let f ← loads.getItem n
            return (p, f)
        | none => .error .typeError)
      let sizes := hit.map (fun h => Real.sqrt (h.2 0 ^ 2 + h.2 1 ^ 2 + h.2 2 ^ 2))
      match sizes.maximum with
      | ⊥ => .error .valueError
      | (m : ℝ) =>
          let scale := radius / m * 0.1
          return hit.map (fun h => (if m = 0 then none else
            some ⟨h.1.x - h.2 0 * scale, h.1.y - h.2 1 * scale, h.1.z - h.2 2 * scale⟩, h.1))

/-- What the viewer of models has to show. -/
structure GhModelView where
  nodes : List V3
  arrows : List (Option V3 × V3)
  beams : List (V3 × V3)
  vertices : List V3
  faces : List (ℕ × ℕ × ℕ × ℕ)

/-- The constructor of `Viewer`, viz_core_model.py 22-46.  `init_shells` (171-181) binds `verts` in the loop over the shells only and
uses it after the loop. -/
noncomputable def openGhModel (w : World) : Except PyErr GhModelView := do
  let pts ← viewPts w
  -- `max` of no coordinates, 149-160
  if pts.length = 0 then .error .valueError else
  let arrows ← ghArrows w (sceneRadius pts.values)
  let lines ← viewLines w pts []
  let faces ← viewFaces w (viewIds w.getNodeNames)
  if w.getShellNames.length = 0 then .error .nameError else
  return ⟨pts.values, arrows, lines.values, pts.values, faces.values⟩

/-- The symbols of the supports of one node, viz_core_result_deformation.py 188-212 (scale 0.1): two cones for a rotation. -/
noncomputable def ghCones (cones : List Cone) (pt : V3) (scale : ℝ) (v : Flags) : List Cone :=
  let cones := if v 0 then cones ++ [⟨⟨pt.x - 1 * scale, pt.y, pt.z⟩, ⟨1, 0, 0⟩, 1 * scale, false⟩] else cones
  let cones := if v 1 then cones ++ [⟨⟨pt.x, pt.y - 1 * scale, pt.z⟩, ⟨0, 1, 0⟩, 1 * scale, false⟩] else cones
  let cones := if v 2 then cones ++ [⟨⟨pt.x, pt.y, pt.z - 1 * scale⟩, ⟨0, 0, 1⟩, 1 * scale, false⟩] else cones
  let cones := if v 3 then cones ++ [⟨⟨pt.x + 1 * scale, pt.y, pt.z⟩, ⟨-1, 0, 0⟩, 1 * scale, true⟩,
    ⟨⟨pt.x + 2 * scale, pt.y, pt.z⟩, ⟨-1, 0, 0⟩, 1 * scale, true⟩] else cones
  let cones := if v 4 then cones ++ [⟨⟨pt.x, pt.y + 1 * scale, pt.z⟩, ⟨0, -1, 0⟩, 1 * scale, true⟩,
    ⟨⟨pt.x, pt.y + 2 * scale, pt.z⟩, ⟨0, -1, 0⟩, 1 * scale, true⟩] else cones
  let cones := if v 5 then cones ++ [⟨⟨pt.x, pt.y, pt.z + 1 * scale⟩, ⟨0, 0, -1⟩, 1 * scale, true⟩,
    ⟨⟨pt.x, pt.y, pt.z + 2 * scale⟩, ⟨0, 0, -1⟩, 1 * scale, true⟩] else cones
  cones

/-- A `Viewer` of results.  `heap` holds the actors made so far, `shown` those in the plotter; `btnNode` tells that the node button reads
"hide nodes", `btn a` that the button `a` reads "reset". -/
structure GhView where
  api : World
  pts : Dict V3
  lines : Dict (V3 × V3)
  cones : List Cone
  heap : List Actor
  shown : List ℕ
  vnodes : ℕ
  vbeams : ℕ
  btnNode : Bool
  btn : Axis → Bool
  scale : ℝ

namespace GhView

/-- Constructor (viz_core_result_deformation.py 23-38, `init_nodes` 178-212, `init_beams` 214-221) and `run()` (251-281). -/
noncomputable def open? (w : World) : Except PyErr GhView := do
  let pts ← viewPts w
  match w.getNodeRestraints (some "case1") with
  -- `None.items()`, 187
  | none => .error .attributeError
  | some restraints =>
      let cones ← restraints.foldlM (fun cones kv => do
        let pt ← pts.getItem kv.1
        return ghCones cones pt 0.1 kv.2) []
      let lines ← viewLines w pts []
      -- `max` of no coordinates, 259
      if pts.length = 0 then .error .valueError else
      return { api := w, pts := pts, lines := lines, cones := cones
               heap := [⟨.points pts.values, false⟩, ⟨.lines lines.values, true⟩]
               shown := [0, 1], vnodes := 0, vbeams := 1, btnNode := false, btn := fun _ => false, scale := 1 }

/-- A new actor; its index is the length of the heap. -/
def make (v : GhView) (d : Sketch) (on : Bool) : GhView := { v with heap := v.heap ++ [⟨d, on⟩] }

/-- `actor.on()`, `actor.off()` -/
def switch (v : GhView) (i : ℕ) (on : Bool) : GhView :=
  { v with heap := v.heap.modify i (fun a => { a with on := on }) }

/-- `self.__plt.remove(actor)` -/
def remove (v : GhView) (i : ℕ) : GhView := { v with shown := v.shown.filter (· ≠ i) }

/-- `reset`, viz_core_result_deformation.py 241-248: shows the nodes and the beams. -/
def reset (v : GhView) : GhView := { v with shown := v.shown ++ [v.vnodes, v.vbeams].filter (· ∉ v.shown) }

/-- `toggle_node`, viz_core_result_deformation.py 88-93. -/
def toggleNode (v : GhView) : GhView :=
  let v := if v.btnNode then v.switch v.vnodes false else v.switch v.vnodes true
  { v with btnNode := !v.btnNode }

/-- `__show_result_deformation`, viz_core_result_deformation.py 143-176.  All that can raise comes before the first change. -/
noncomputable def showDeformation (v : GhView) : Except PyErr GhView := do
  match v.api.resultGetAllNodalDisplacement "case1" with
  -- `None.items()`
  | none => .error .attributeError
  | some d =>
      let pts ← moveAll v.scale v.pts d
      let v := v.remove v.vnodes
      let v := { v.make (.points pts.values) true with vnodes := v.heap.length }
      let v := if v.btnNode then v else v.switch v.vnodes false
      let v := v.remove v.vbeams
      let lines ← viewLines v.api pts v.lines
      return { v.make (.lines lines.values) true with vbeams := v.heap.length }

/-- `__reset_deformation`, viz_core_result_deformation.py 134-141; the new points are off (137) whatever the button reads. -/
def resetDeformation (v : GhView) : GhView :=
  let v := (v.remove v.vnodes).remove v.vbeams
  let v := { v.make (.points v.pts.values) false with vnodes := v.heap.length }
  let v := { v.make (.lines v.lines.values) true with vbeams := v.heap.length }
  if v.btnNode then v else v.switch v.vnodes false

/-- `show_result_deformation_X`, `_Y`, `_Z`, viz_core_result_deformation.py 95-132: the button pressed is switched, the others go back. -/
noncomputable def deform (v : GhView) (a : Axis) : Except PyErr GhView := do
  let v ← if v.btn a then pure v.resetDeformation else v.showDeformation
  let v := { v with btn := fun b => if b = a then !v.btn a else false }
  return v.reset

/-- One action; a call-back that raises leaves the viewer as it was. -/
noncomputable def step (v : GhView) : Click → GhView
  | .node => v.toggleNode
  | .deform a => match v.deform a with
      | .ok v' => v'
      | .error _ => v
  -- `slide_scale`, viz_core_result_deformation.py 85-86
  | .slide s => { v with scale := s }

noncomputable def run (v : GhView) (cs : List Click) : GhView := cs.foldl step v

/-- The actor is seen. -/
def Sees (v : GhView) (d : Sketch) : Prop := ∃ i ∈ v.shown, v.heap[i]? = some ⟨d, true⟩

end GhView

end Hyperstatic
