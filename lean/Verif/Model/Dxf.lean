import Verif.Model.General

/-
Model of hyperstatic/app/general/io/dxf.py: import and export of drawings.  The library that reads and writes the file (ezdxf) is
represented by the list of entities of the drawing; that the file cannot be read or written (functions return `False` and touch
nothing) is left out.
-/

namespace Hyperstatic

noncomputable section
open Classical
open GM

/-- a point of a drawing -/
abbrev DxfPoint := ℝ × ℝ × ℝ

/-- an entity of the model space: `LINE`, `3DFACE` or anything else -/
inductive DxfEntity
  | line (layer : String) (p q : DxfPoint)
  | face (layer : String) (a b c d : DxfPoint)
  | other (layer : String)

/-- `e.dxf.layer` -/
def DxfEntity.layer : DxfEntity → String
  | .line l _ _ => l | .face l _ _ _ _ => l | .other l => l

/-- `pt[0]`, `pt[1]`, `pt[2]` of a point of a drawing -/
def dxfCoords (p : DxfPoint) : List ℝ := [p.1, p.2.1, p.2.2]

/-- `if layers!=[] and e.dxf.layer not in layers: continue`: dxf.py 35-36 -/
def dxfChosen (layers : List String) (e : DxfEntity) : Bool := layers = [] ∨ e.layer ∈ layers

/-- `frame_pts`: dxf.py 37-38 -/
def dxfFramePts (ents : List DxfEntity) (layers : List String) (f : Bool) : List (List ℝ × List ℝ) :=
  (ents.filter (dxfChosen layers)).filterMap fun e => match e with
    | .line _ p q => if f then some (dxfCoords p, dxfCoords q) else none
    | _ => none

/-- `area_pts`: dxf.py 39-47; `add_area_batch` fails before it looks at the corners, so only the number of faces matters -/
def dxfAreaPts (ents : List DxfEntity) (layers : List String) (a : Bool) : List (List ℝ) :=
  (ents.filter (dxfChosen layers)).filterMap fun e => match e with
    | .face _ p _ _ _ => if a then some (dxfCoords p) else none
    | _ => none

/-- `names[0] if sec==None else sec`: dxf.py 31-32; subscripting `False` and an empty list raise -/
def dxfDefault (names : GM GRet) : Option String → GM String
  | some s => pure s
  | none => do
    let r ← names
    match r with
    | .names (n :: _) => pure n
    | .names [] => fail .indexError
    | _ => fail .typeError

/-- `res,frames=self.add_frame_batch(...)`: unpacking `False` raises: dxf.py 50, 54 -/
def dxfUnpack (call : GM GRet) : GM (List String) := do
  let r ← call
  match r with
  | .batch l => pure l
  | _ => fail .typeError

/-- `import_dxf`: dxf.py 14-60.  `none` is `False`; `some r` is `True, result` with `r` the entry `frames` of the dictionary, if there is
one.  (No `areas` entry is ever reached.)  `f`, `a`: whether `types` contains these letters. -/
def importDxf (V : GEnv) (ents : List DxfEntity) (layers : List String) (f a : Bool) (frmSec areaSec : Option String) :
    GM (Option (Option (List String))) := fun s =>
  let body : GM (Option (List String)) := do
    let fs ← dxfDefault gGetFrameSectionNames frmSec
    let as ← dxfDefault gGetAreaSectionNames areaSec
    let fp := dxfFramePts ents layers f
    let ap := dxfAreaPts ents layers a
    let frames ← (if fp.length ≠ 0 then do
      let l ← dxfUnpack (gAddFrameBatch V fp fs)
      pure (some l) else pure none : GM (Option (List String)))
    (if ap.length ≠ 0 then do
      let _ ← dxfUnpack (gAddAreaBatch ap as)
      pure () else pure () : GM Unit)
    pure frames
  match body s with
  | (.ok r, t) => (.ok (some r), t)
  | (.error _, t) => (.ok none, t)

/-- `coor[:3], coor[3:]` as a line; `None` cannot be sliced: dxf.py 82-83 -/
def dxfLine : GRet → GM (DxfPoint × DxfPoint)
  | .nums [a, b, c, d, e, f] => pure ((a, b, c), (d, e, f))
  | _ => fail .typeError

/-- `[self.get_frame_end_coors(frm) for frm in frames]`, then one line each: dxf.py 80-83.  (The code makes all look-ups before the
first line, which makes no difference to what is returned.) -/
def dxfLines : List String → GM (List (DxfPoint × DxfPoint))
  | [] => pure []
  | n :: t => do
    let r ← gGetFrameEndCoors n
    let l ← dxfLine r
    let ls ← dxfLines t
    pure (l :: ls)

/-- `export_dxf`: dxf.py 62-89.  `none` is `False`; `some l` is `True` with the lines of the file written. -/
def exportDxf : GM (Option (List (DxfPoint × DxfPoint))) := fun s =>
  let body : GM (List (DxfPoint × DxfPoint)) := do
    let r ← gGetFrameNames
    match r with
    | .names l => dxfLines l
    | _ => fail .typeError
  match body s with
  | (.ok r, t) => (.ok (some r), t)
  | (.error _, t) => (.ok none, t)

end

end Hyperstatic
