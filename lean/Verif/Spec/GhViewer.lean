import Verif.Spec.Viewer
import Verif.Model.GhViewer

/-
What the viewers started from Grasshopper are expected to show.
-/

namespace Hyperstatic.Spec

/-- at first: no nodes, no deformation, scale one -/
noncomputable def ghStart : Picture := ⟨false, none, 1⟩

/-- the picture after some clicks; what a click does is the same as in the other viewer of results -/
noncomputable def ghPicture (w : World) (clicks : List Click) : Picture := clicks.foldl (Picture.step w) ghStart

/-- no deformation is taken back while the nodes are drawn -/
def NoResetWithNodes (w : World) (clicks : List Click) : Prop :=
  ∀ pre a post, clicks = pre ++ Click.deform a :: post → (ghPicture w pre).shape.map Prod.fst = some a → (ghPicture w pre).nodes = false

/-- the tips of the cones for the supports of one node: one cone with its tip at the node for a translation, two for a rotation, the
second behind the first -/
noncomputable def tips (p : V3) (f : Flags) : List (V3 × V3 × Bool) :=
  ((List.finRange 6).filter (fun i => f i)).flatMap fun i =>
    if i.val < 3 then [(p, supportDir i, false)]
    else [(p, supportDir i, true),
      (⟨p.x - 1 / 10 * (supportDir i).x, p.y - 1 / 10 * (supportDir i).y, p.z - 1 / 10 * (supportDir i).z⟩, supportDir i, true)]

end Hyperstatic.Spec
