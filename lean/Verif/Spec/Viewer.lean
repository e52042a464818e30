import Verif.Model.Viewer

/-
What the result viewer is expected to draw, in terms of the queries of the API: where each node is drawn, and a picture of three
values that the buttons change.
-/

namespace Hyperstatic.Spec

/-- the displacement of every node is reported for the case the viewer shows -/
def Displayable (w : World) : Prop :=
  ∀ n ∈ w.getNodeNames, ∃ d, w.resultGetNodalDisplacement n "case1" = some d ∧ 3 ≤ d.length

/-- where a node is drawn: at its location, or moved by the reported displacement times the scale -/
noncomputable def nodeAt (w : World) (shape : Option (Axis × ℝ)) (n : String) : V3 :=
  let p := (w.getNodeLocation n).getD ⟨0, 0, 0⟩
  match shape with
  | none => p
  | some (_, k) =>
      let d := (w.resultGetNodalDisplacement n "case1").getD []
      ⟨p.x + k * d.getD 0 0, p.y + k * d.getD 1 0, p.z + k * d.getD 2 0⟩

/-- a beam is drawn from its start node to its end node -/
noncomputable def beamAt (w : World) (shape : Option (Axis × ℝ)) (b : String) : V3 × V3 :=
  let e := (w.getBeamNodeNames b).getD ("", "")
  (nodeAt w shape e.1, nodeAt w shape e.2)

/-- a shell with four nodes is drawn between them, in the order they are reported -/
noncomputable def shellAt (w : World) (shape : Option (Axis × ℝ)) (s : String) : Option V3 × Option V3 × Option V3 × Option V3 :=
  let c := (w.getShellNodeNames s).getD ("", "", "", "")
  (some (nodeAt w shape c.1), some (nodeAt w shape c.2.1), some (nodeAt w shape c.2.2.1), some (nodeAt w shape c.2.2.2))

/-- the corners of the faces of a mesh -/
def meshCorners (vs : List V3) (fs : List (ℕ × ℕ × ℕ × ℕ)) : List (Option V3 × Option V3 × Option V3 × Option V3) :=
  fs.map fun f => (vs[f.1]?, vs[f.2.1]?, vs[f.2.2.1]?, vs[f.2.2.2]?)

/-- the direction of the symbol of a support: along the axis for a translation, against it for a rotation -/
def supportDir : Fin 6 → V3
  | 0 => ⟨1, 0, 0⟩
  | 1 => ⟨0, 1, 0⟩
  | 2 => ⟨0, 0, 1⟩
  | 3 => ⟨-1, 0, 0⟩
  | 4 => ⟨0, -1, 0⟩
  | 5 => ⟨0, 0, -1⟩

/-- the tip of a cone -/
noncomputable def coneTip (c : Cone) : V3 :=
  ⟨c.centre.x + c.half * c.axis.x, c.centre.y + c.half * c.axis.y, c.centre.z + c.half * c.axis.z⟩

/-- the picture: are the nodes drawn; is the structure drawn deformed, asked for by which button and to which scale; the slider -/
structure Picture where
  nodes : Bool
  shape : Option (Axis × ℝ)
  scale : ℝ

/-- at first: no nodes, no deformation -/
def Picture.start : Picture := ⟨false, none, 0⟩

open Classical in
/-- the node button shows and hides the nodes; a button for a deformation shows the deformation to the scale of the slider, or takes it
back if it was this button that showed it; without displacements it does nothing -/
noncomputable def Picture.step (w : World) (p : Picture) : Click → Picture
  | .node => { p with nodes := !p.nodes }
  | .slide s => { p with scale := s }
  | .deform a =>
      if Displayable w then
        if p.shape.map Prod.fst = some a then { p with shape := none } else { p with shape := some (a, p.scale) }
      else p

noncomputable def Picture.after (w : World) (cs : List Click) : Picture := cs.foldl (Picture.step w) Picture.start

/-- no button for a deformation is pressed while the nodes are drawn -/
def NodesHidden (w : World) (cs : List Click) : Prop :=
  ∀ pre a post, cs = pre ++ Click.deform a :: post → (Picture.after w pre).nodes = false

end Hyperstatic.Spec
