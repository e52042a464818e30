import Verif.Model.Py
import Mathlib.Data.Real.Basic
import Mathlib.Analysis.SpecialFunctions.Trigonometric.Basic
import Mathlib.Data.List.Lex

/-
Model of hyperstatic/app/general: the functions that edit a model kept in a database (db.py, environment/project.py,
property/*.py, object/*.py, load/loadcase.py) and of the SQLAlchemy session they use.

The session (external code) is modelled by a small machine: `committed` is the content of the database file, `work` the content
seen inside the open transaction, `pending` the objects added or deleted since the last flush.  Every query flushes first
(autoflush); a flush that violates a primary key, or deletes a row whose dependent rows would lose their primary key, raises,
undoes the transaction and leaves the session unusable until `rollback()`.  Foreign keys are not enforced (SQLite's default).
Rows are returned in the order of insertion where the code gives no order.

Names drawn by `uuid.uuid1()` are taken from a sequence `GEnv.uuid`.  Attributes that are not columns are lost: an object the
program drops is read again from its columns.  The tables of load case settings hold no data besides the name of the case and are
left out; tables no function writes are left out.
-/

namespace Hyperstatic

noncomputable section
open Classical

/-- the four units accepted by `set_unit`: environment/project.py 115 -/
inductive GUnit | Nm | Nmm | kNm | kNmm
  deriving DecidableEq

/-- scale['F']: app/general/model.py 199-217 -/
def GUnit.F : GUnit → ℝ | .Nm => 1 | .Nmm => 1 | .kNm => 1000 | .kNmm => 1000
/-- scale['L']: app/general/model.py 199-217 -/
def GUnit.L : GUnit → ℝ | .Nm => 1 | .Nmm => 1 / 1000 | .kNm => 1 | .kNmm => 1 / 1000
/-- the test `unit in [...]`: environment/project.py 115 -/
def GUnit.parse (s : String) : Option GUnit :=
  if s = "N_m_C" then some .Nm else if s = "N_mm_C" then some .Nmm else if s = "kN_m_C" then some .kNm
  else if s = "kN_mm_C" then some .kNmm else none
/-- the stored string -/
def GUnit.str : GUnit → String | .Nm => "N_m_C" | .Nmm => "N_mm_C" | .kNm => "kN_m_C" | .kNmm => "kN_mm_C"

/-- table joints: orm.py 186-192 -/
structure JointRow where
  name : String
  x : ℝ
  y : ℝ
  z : ℝ

/-- table joint_restraints: orm.py 203-211 -/
structure RestrRow where
  joint : String
  fixed : Fin 6 → Bool

/-- table jointloads: orm.py 213-222 (attributes u1..r3) -/
structure JLoadRow where
  joint : String
  case : String
  val : Fin 6 → Option ℝ

/-- table materials: orm.py 28-32 -/
structure MatRow where
  name : String
  rho : ℝ
  kind : String

/-- table isotropic_elastics: orm.py 43-47 -/
structure IsoRow where
  material : String
  E : ℝ
  mu : ℝ

/-- table frame_sections: orm.py 51-70 (the columns the code writes) -/
structure SecRow where
  name : String
  material : Option String
  sizes : List ℝ
  A : ℝ
  J : ℝ
  I2 : ℝ
  I3 : ℝ

/-- table area_sections: orm.py 82-88 -/
structure ASecRow where
  name : String
  material : Option String
  kind : String
  t : ℝ

/-- table loadcases: orm.py 93-98 -/
structure CaseRow where
  name : String
  kind : String
  weight : ℝ

/-- table frames: orm.py 278-289; `order` is '01' (true) or '10' (false) -/
structure FrameRow where
  name : String
  sec : String
  pt0 : String
  pt1 : String
  fwd : Bool

/-- tables frame_load_distributeds, frame_load_concentrated, frame_load_strain, frame_laod_teamperature: orm.py 325-364 -/
structure FLoadRow where
  /-- which of the four tables -/
  table : Fin 4
  frame : String
  case : String
  val : List ℝ

/-- one database: orm.py -/
structure Db where
  project : String
  author : String
  unit : GUnit
  tol : ℝ
  mats : List MatRow
  isos : List IsoRow
  secs : List SecRow
  asecs : List ASecRow
  cases : List CaseRow
  joints : List JointRow
  restrs : List RestrRow
  jloads : List JLoadRow
  frames : List FrameRow
  floads : List FLoadRow

/-- objects added to or deleted from the session and not yet flushed -/
inductive Pend
  | mat (r : MatRow) | iso (r : IsoRow) | sec (r : SecRow) | asec (r : ASecRow) | case (r : CaseRow) | joint (r : JointRow)
  | restr (r : RestrRow) | jload (r : JLoadRow) | frame (r : FrameRow) | fload (r : FLoadRow)
  | delJoint (n : String) | delMat (n : String) | delRestr (n : String)

/-- Flush of one object (SQLAlchemy): an insert needs a new primary key.  Deleting a joint or a material whose dependent rows
have the deleted key in their primary key fails ("tried to blank-out primary key column"); references outside primary keys
become null. -/
def Pend.flush (db : Db) : Pend → Option Db
  | .mat r => if ∃ q ∈ db.mats, q.name = r.name then none else some { db with mats := db.mats ++ [r] }
  | .iso r => if ∃ q ∈ db.isos, q.material = r.material then none else some { db with isos := db.isos ++ [r] }
  | .sec r => if ∃ q ∈ db.secs, q.name = r.name then none else some { db with secs := db.secs ++ [r] }
  | .asec r => if ∃ q ∈ db.asecs, q.name = r.name then none else some { db with asecs := db.asecs ++ [r] }
  | .case r => if ∃ q ∈ db.cases, q.name = r.name then none else some { db with cases := db.cases ++ [r] }
  | .joint r => if ∃ q ∈ db.joints, q.name = r.name then none else some { db with joints := db.joints ++ [r] }
  | .restr r => if ∃ q ∈ db.restrs, q.joint = r.joint then none else some { db with restrs := db.restrs ++ [r] }
  | .jload r => if ∃ q ∈ db.jloads, q.joint = r.joint ∧ q.case = r.case then none else some { db with jloads := db.jloads ++ [r] }
  | .frame r => if ∃ q ∈ db.frames, q.name = r.name then none else some { db with frames := db.frames ++ [r] }
  | .fload r => if ∃ q ∈ db.floads, q.table = r.table ∧ q.frame = r.frame ∧ q.case = r.case then none
      else some { db with floads := db.floads ++ [r] }
  | .delJoint n => if (∃ q ∈ db.restrs, q.joint = n) ∨ (∃ q ∈ db.jloads, q.joint = n) then none
      else some { db with joints := db.joints.filter fun q => q.name ≠ n }
  | .delMat n => if ∃ q ∈ db.isos, q.material = n then none
      else some { db with
        mats := db.mats.filter fun q => q.name ≠ n
        secs := db.secs.map fun q => if q.material = some n then { q with material := none } else q
        asecs := db.asecs.map fun q => if q.material = some n then { q with material := none } else q }
  | .delRestr n => some { db with restrs := db.restrs.filter fun q => q.joint ≠ n }

/-- flush of all pending objects, in the order they were added -/
def flushAll (db : Db) : List Pend → Option Db
  | [] => some db
  | p :: ps => (p.flush db).bind fun db' => flushAll db' ps

/-- the session, see the comment at the head of the file -/
structure GSession where
  committed : Db
  work : Db
  pending : List Pend
  /-- a flush has failed and `rollback()` has not been called -/
  broken : Bool
  /-- number of uuids drawn -/
  drawn : ℕ

/-- external behaviour: the uuids and the order in which a query sorted by x, y, z returns equal rows -/
structure GEnv where
  uuid : ℕ → String
  orderBy : List JointRow → List JointRow

/-- what the functions return -/
inductive GRet
  | none
  | bool (b : Bool)
  | str (s : String)
  | names (l : List String)
  | num (x : ℝ)
  | nums (l : List ℝ)
  | two (a b : String)
  | batch (l : List String)

/-- a computation that uses the session and may raise -/
def GM (α : Type) := GSession → Except PyErr α × GSession

namespace GM

instance : Monad GM where
  pure a := fun s => (.ok a, s)
  bind m f := fun s => match m s with
    | (.ok a, s') => f a s'
    | (.error e, s') => (.error e, s')

/-- raise -/
def fail {α : Type} (e : PyErr) : GM α := fun s => (.error e, s)

/-- assert; an AssertionError is one of the errors `exception` stands for -/
def check (p : Prop) : GM Unit := if p then pure () else fail .exception

/-- Session.flush -/
def flush : GM Unit := fun s =>
  if s.broken then (.error .exception, s)
  else match flushAll s.work s.pending with
    | some db => (.ok (), { s with work := db, pending := [] })
    | none => (.error .exception, { s with work := s.committed, pending := [], broken := true })

/-- a query reads after a flush -/
def query {α : Type} (f : Db → α) : GM α := do
  flush
  fun s => (.ok (f s.work), s)

/-- change of loaded objects -/
def update (f : Db → Db) : GM Unit := fun s => (.ok (), { s with work := f s.work })

/-- Session.add of a new object, Session.delete -/
def add (p : Pend) : GM Unit := fun s => (.ok (), { s with pending := s.pending ++ [p] })

/-- Session.commit -/
def commit : GM Unit := do
  flush
  fun s => (.ok (), { s with committed := s.work })

/-- Session.rollback -/
def undo (s : GSession) : GSession := { s with work := s.committed, pending := [], broken := false }

/-- draw a uuid (uuid.uuid1()) and add an object named or numbered by it; returns the uuid -/
def addNew (V : GEnv) (mk : String → Pend) : GM String := fun s =>
  (.ok (V.uuid s.drawn), { s with pending := s.pending ++ [mk (V.uuid s.drawn)], drawn := s.drawn + 1 })

/-- `try: body except: self.session.rollback(); return r` -/
def guarded (r : GRet) (body : GM GRet) : GM GRet := fun s => match body s with
  | (.ok a, s') => (.ok a, s')
  | (.error _, s') => (.ok r, undo s')

/-- `try: body except: return r` -/
def caught (r : GRet) (body : GM GRet) : GM GRet := fun s => match body s with
  | (.ok a, s') => (.ok a, s')
  | (.error _, s') => (.ok r, s')

/-- the first row with a property, or an exception raised by hand when there is none -/
def need {α : Type} (o : Option α) : GM α := match o with
  | some a => pure a
  | none => fail .exception

end GM

open GM

/-- `scale()`: app/general/model.py 195-217 (one query) -/
def gScale : GM GUnit := query fun db => db.unit

/-! environment/project.py -/

/-- `get_project_name`: 10-20 -/
def gGetProjectName : GM GRet := caught .none do
  let a ← query fun db => db.project
  pure (.str a)

/-- `get_author`: 22-32 -/
def gGetAuthor : GM GRet := caught (.bool false) do
  let a ← query fun db => db.author
  pure (.str a)

/-- `get_unit`: 34-44 -/
def gGetUnit : GM GRet := caught (.bool false) do
  let a ← query fun db => db.unit
  pure (.str a.str)

/-- `get_description`: 46-56 (there is no attribute `description`, the column is `discription`) -/
def gGetDescription : GM GRet := caught (.bool false) do
  query fun _ => ()
  fail .attributeError

/-- `get_tolerance`: 58-69 -/
def gGetTolerance : GM GRet := caught (.bool false) do
  let u ← gScale
  let t ← query fun db => db.tol
  pure (.num (t / u.L))

/-- `set_project_name`: 71-87 -/
def gSetProjectName (name : String) : GM GRet := guarded (.bool false) do
  check (name.length < 32)
  query fun _ => ()
  update fun db => { db with project := name }
  pure (.bool true)

/-- `set_author`: 89-105 -/
def gSetAuthor (name : String) : GM GRet := guarded (.bool false) do
  check (name.length < 32)
  query fun _ => ()
  update fun db => { db with author := name }
  pure (.bool true)

/-- `set_unit`: 107-123 -/
def gSetUnit (unit : String) : GM GRet := guarded (.bool false) do
  let u ← need (GUnit.parse unit)
  query fun _ => ()
  update fun db => { db with unit := u }
  pure (.bool true)

/-- `set_description`: 125-141 (sets an attribute that is not a column) -/
def gSetDescription (_text : String) : GM GRet := guarded (.bool false) do
  query fun _ => ()
  pure (.bool true)

/-- `set_tolerance`: 143-162; `isFloat` is the test `type(tol)==float` -/
def gSetTolerance (isFloat : Bool) (tol : ℝ) : GM GRet := guarded (.bool false) do
  check (isFloat = true)
  let u ← gScale
  query fun _ => ()
  update fun db => { db with tol := tol * u.L }
  pure (.bool true)

/-! property/material.py -/

/-- the elastic constants: 36-41 -/
def gIsoPart (name kind : String) (E mu : Option ℝ) (u : GUnit) : GM Unit :=
  if kind = "isotropic_elastic" then match E, mu with
    | some e, some m => add (.iso ⟨name, e * (u.F * (u.L ^ 2)⁻¹), m⟩)
    | _, _ => fail .keyError
  else pure ()

/-- `add_material`: 12-47; `E`, `mu` are the keyword arguments -/
def gAddMaterial (name : String) (rho : ℝ) (kind : String) (E mu : Option ℝ) : GM GRet := guarded (.bool false) do
  let n ← query fun db => db.mats.find? fun q => q.name = name
  check (n.isNone = true)
  let u ← gScale
  gIsoPart name kind E mu u
  add (.mat ⟨name, rho * (u.F * (u.L ^ 4)⁻¹), kind⟩)
  pure (.bool true)

/-- `add_material_quick`: 49-65 -/
def gAddMaterialQuick (code : String) : GM GRet := guarded (.bool false) do
  let _ ← (if code = "Q345" then gAddMaterial code 7850 "isoelastic" (some 2.06e11) (some 0.3) else pure .none : GM GRet)
  pure .none

/-- `set_material_isotropic_elastic`: 67-79 -/
def gSetMaterialIso (name : String) (E mu : ℝ) : GM GRet := guarded (.bool false) do
  let _ ← (query fun db => db.mats.find? fun q => q.name = name) >>= need
  let i ← query fun db => db.isos.find? fun q => q.material = name
  match i with
  | none => fail .attributeError
  | some _ => do
    update fun db => { db with isos := db.isos.map fun q => if q.material = name then { q with E := E, mu := mu } else q }
    pure (.bool true)

/-- `get_material_names`: 81-88 -/
def gGetMaterialNames : GM GRet := guarded (.bool false) do
  let l ← query fun db => db.mats
  pure (.names (l.map fun q => q.name))

/-- `set_material_name`: 90-100 (sets the name it has just looked up) -/
def gSetMaterialName (name : String) : GM GRet := guarded (.bool false) do
  let _ ← (query fun db => db.mats.find? fun q => q.name = name) >>= need
  pure .none

/-- `delete_material`: 102-111 -/
def gDeleteMaterial (name : String) : GM GRet := guarded (.bool false) do
  let _ ← (query fun db => db.mats.find? fun q => q.name = name) >>= need
  add (.delMat name)
  pure .none

/-! property/frame_section.py -/

/-- `x / y` of Python floats -/
def gDiv (x y : ℝ) : GM ℝ := if y = 0 then fail .zeroDivision else pure (x / y)

/-- `Circle.__init__`: 34-47; returns A, J, I22, I33 -/
def gCircle (d : ℝ) : GM (ℝ × ℝ × ℝ × ℝ) := do
  let I33 := Real.pi * d ^ 4 / 64
  let _ ← gDiv I33 d
  pure (Real.pi * d ^ 2 / 4, Real.pi * d ^ 4 / 32, I33, I33)

/-- `Pipe.__init__`: 50-67 -/
def gPipe (d t : ℝ) : GM (ℝ × ℝ × ℝ × ℝ) := do
  let A := Real.pi * d ^ 2 / 4 - Real.pi * (d - 2 * t) ^ 2 / 4
  let q ← gDiv (Real.pi * (d - t)) t
  let r ← gDiv (d - 2 * t) d
  let I33 := Real.pi * d ^ 4 / 64 * (1 - r ^ 4)
  pure (A, q * 2 * A, I33, I33)

/-- `HollowBox.__init__`: 80-99 -/
def gBox (h b tw tf : ℝ) : GM (ℝ × ℝ × ℝ × ℝ) := do
  let A := h * b - (h - 2 * tf) * (b - 2 * tw)
  let p ← gDiv (2 * tw * (h - tf)) tw
  let q ← gDiv (2 * tf * (b - tw)) tf
  let I33 := b * h ^ 3 / 12 - (b - 2 * tw) * (h - 2 * tf) ^ 3 / 12
  let I22 := h * b ^ 3 / 12 - (h - 2 * tf) * (b - 2 * tw) ^ 3 / 12
  let _ ← gDiv I33 h
  let _ ← gDiv I22 b
  pure (A, (p + q) * 2 * A, I22, I33)

/-- `ISection.__init__`: 106-127 -/
def gISection (h b tw tf : ℝ) : GM (ℝ × ℝ × ℝ × ℝ) := do
  let A := b * tf * 2 + tw * (h - 2 * tf)
  let J := (b * tf ^ 3 * 2 + (h - tf) * tw ^ 3) / 3
  let I33 := b * h ^ 3 / 12 - (b - tw) * (h - 2 * tf) ^ 3 / 12
  let I22 := 2 * tf * b ^ 3 / 12 + (h - 2 * tf) * tw ^ 3 / 12
  let _ ← gDiv I33 h
  let _ ← gDiv I22 b
  pure (A, J, I22, I33)

/-- sizes as stored and section values, per type: 234-258.  For types other than 'o', 'O', 'I', 'L' the variable `sec` is None. -/
def gSection (L : ℝ) (kind : String) (size : List ℝ) : GM (List ℝ × ℝ × ℝ × ℝ × ℝ) :=
  if kind = "o" then match size with
    | [d] => do
      let s ← gCircle (d * L)
      pure ([d * L], s)
    | _ => fail .exception
  else if kind = "O" then match size with
    | [d, t] => do
      let s ← gPipe (d * L) (t * L)
      pure ([d * L, t * L], s)
    | _ => fail .exception
  else if kind = "I" then match size with
    | [a, b, _, _] => do
      let s ← gISection (a * L) (b * L) (a * L) (b * L)
      pure ([a * L, b * L, a * L, b * L], s)
    | _ => fail .exception
  else if kind = "L" then match size with
    | [a, b, _, _] => do
      let s ← gBox (a * L) (b * L) (a * L) (b * L)
      pure ([a * L, b * L, a * L, b * L], s)
    | _ => fail .exception
  else fail .attributeError

/-- `add_frame_section`: 185-269 -/
def gAddFrameSection (name material kind : String) (size : List ℝ) : GM GRet := guarded (.bool false) do
  check (kind ∈ ["O", "o", "I", "B", "L", "T", "C", "Z"])
  let u ← gScale
  let n ← query fun db => db.secs.find? fun q => q.name = name
  check (n.isNone = true)
  let _ ← (query fun db => db.mats.find? fun q => q.name = material) >>= need
  let s ← gSection u.L kind size
  add (.sec ⟨name, some material, s.1, s.2.1, s.2.2.1, s.2.2.2.1, s.2.2.2.2⟩)
  pure (.bool true)

/-- `get_frame_section_names`: 277-291 -/
def gGetFrameSectionNames : GM GRet := guarded (.bool false) do
  let l ← query fun db => db.secs
  pure (.names (l.map fun q => q.name))

/-- `delete_frame_section`: 293-301 (`session.delete` of a query raises) -/
def gDeleteFrameSection (_name : String) : GM GRet := guarded (.bool false) (fail .exception)

/-! property/area_section.py -/

/-- `add_area_section`: 12-44 -/
def gAddAreaSection (name material kind : String) (t : ℝ) : GM GRet := guarded (.bool false) do
  check (kind ∈ ["m", "p", "s", "n"])
  let u ← gScale
  let n ← query fun db => db.asecs.find? fun q => q.name = name
  check (n.isNone = true)
  add (.asec ⟨name, some material, kind, t * u.L⟩)
  pure (.bool true)

/-- `get_area_section_names`: 49-63 -/
def gGetAreaSectionNames : GM GRet := guarded (.bool false) do
  let l ← query fun db => db.asecs
  pure (.names (l.map fun q => q.name))

/-- `delete_area_section`: 65-73, `delete_area`: object/area.py 185-193, `delete_frame`: object/frame.py 346-354, `delete_loadcase`:
load/loadcase.py 109-117.  `session.delete` of a query raises; the handler uses the undefined name `log` and raises again. -/
def gDeleteRaising (_name : String) : GM GRet := fail .nameError

/-! load/loadcase.py -/

/-- `add_loadcase`: 13-70 -/
def gAddLoadcase (name kind : String) (weight : ℝ) : GM GRet := guarded (.bool false) do
  let n ← query fun db => db.cases.find? fun q => q.name = name
  check (n.isNone = true)
  add (.case ⟨name, kind, weight⟩)
  pure (.str name)

/-- `get_loadcase_names`: 93-107 -/
def gGetLoadcaseNames : GM GRet := guarded (.bool false) do
  let l ← query fun db => db.cases
  pure (.names (l.map fun q => q.name))

/-! object/joint.py -/

/-- `add_joint`: 14-37 -/
def gAddJoint' (V : GEnv) (x y z : ℝ) : GM String := addNew V fun n => .joint ⟨n, x, y, z⟩

/-- `add_joint` with its handler: 14-37; nothing in the body raises -/
def gAddJoint (V : GEnv) (x y z : ℝ) : GM GRet := guarded (.bool false) do
  let n ← gAddJoint' V x y z
  pure (.str n)

/-- `restraints[0]`, ..., `restraints[5]` -/
def six {α : Type} [Inhabited α] (l : List α) : Fin 6 → α := fun i => l.getD i default

/-- `set_joint_restraint_batch`: 39-65 -/
def gSetJointRestraintBatch (joints : List String) (r : List Bool) : GM GRet := guarded (.bool false) do
  check (r.length = 6)
  joints.forM fun j => add (.restr ⟨j, six r⟩)
  pure (.bool true)

/-- `set_joint_restraint`: 67-106 -/
def gSetJointRestraint (joint : String) (r : List Bool) : GM GRet := guarded (.bool false) do
  check (r.length = 6)
  let _ ← (query fun db => db.joints.find? fun q => q.name = joint) >>= need
  let q ← query fun db => db.restrs.find? fun q => q.joint = joint
  (if q.isNone then add (.restr ⟨joint, six r⟩)
   else if ¬ ∃ i, six r i = true then add (.delRestr joint)
   else update fun db => { db with restrs := db.restrs.map fun q => if q.joint = joint then { q with fixed := six r } else q } : GM Unit)
  pure (.bool true)

/-- `set_joint_load`: 108-139.  The values are assigned to the attributes p1..m3, which the class does not map; the columns
(attributes u1..r3) of a new row stay null and those of an old row stay as they are. -/
def gSetJointLoad (joint case : String) (load : List ℝ) : GM GRet := guarded (.bool false) do
  check (load.length = 6)
  let _ ← (query fun db => db.joints.find? fun q => q.name = joint) >>= need
  let q ← query fun db => db.jloads.find? fun q => q.joint = joint ∧ q.case = case
  let _ ← gScale
  (if q.isNone then add (.jload ⟨joint, case, fun _ => none⟩) else pure () : GM Unit)
  pure (.bool true)

/-- `set_joint_coordinate`: 141-165 -/
def gSetJointCoordinate (name : String) (x y z : ℝ) : GM GRet := guarded (.bool false) do
  let _ ← (query fun db => db.joints.find? fun q => q.name = name) >>= need
  let u ← gScale
  update fun db => { db with joints := db.joints.map fun q =>
    if q.name = name then { q with x := x * u.L, y := y * u.L, z := z * u.L } else q }
  pure (.bool true)

/-- `set_joint_mass`: 167-178 -/
def gSetJointMass (name : String) : GM GRet := guarded (.bool false) do
  let _ ← (query fun db => db.joints.find? fun q => q.name = name) >>= need
  let _ ← gScale
  pure (.bool true)

/-- `get_joint_names`: 188-201 -/
def gGetJointNames : GM GRet := caught .none do
  let l ← query fun db => db.joints
  pure (.names (l.map fun q => q.name))

/-- one coordinate filter: 218, 220, 222 -/
def coorFilter (L tol : ℝ) (want : Option ℝ) (have' : ℝ) : Prop := match want with
  | none => True
  | some x => have' - x * L < tol ∧ x - have' * L < tol

/-- `get_joint_name_by_coor`: 203-228 -/
def gGetJointNameByCoor (x y z : Option ℝ) : GM GRet := guarded .none do
  let tol ← query fun db => db.tol
  let u ← gScale
  let l ← query fun db => db.joints.filter fun q => coorFilter u.L tol x q.x ∧ coorFilter u.L tol y q.y ∧ coorFilter u.L tol z q.z
  pure (.names (l.map fun q => q.name))

/-- `get_joint_coordinate`: 230-251 -/
def gGetJointCoordinate (name : String) : GM GRet := guarded .none do
  let q ← (query fun db => db.joints.find? fun q => q.name = name) >>= need
  let u ← gScale
  pure (.nums [q.x / u.L, q.y / u.L, q.z / u.L])

/-- squared distance: joint.py 268, frame.py 98 -/
def jointDist2 (p q : JointRow) : ℝ := (q.x - p.x) ^ 2 + (q.y - p.y) ^ 2 + (q.z - p.z) ^ 2

/-- the loop over neighbours in the sorted list: joint.py 267-279, frame.py 97-100; returns `pt_map` (initially the identity) and
the names of `pts_to_rmv` -/
def mergeMap (d2 : ℝ) : List JointRow → (String → String) → (String → String) × List String
  | p :: q :: t, m =>
    if jointDist2 p q < d2 then
      let r := mergeMap d2 (q :: t) (Function.update m q.name (m p.name))
      (r.1, q.name :: r.2)
    else mergeMap d2 (q :: t) m
  | _, m => (m, [])

/-- `merge_joints`: 253-315.  The test `frm.pt0_name in pts_to_rmv` compares strings with joints and is always false, so no frame
changes; there are no areas. -/
def gMergeJoints (V : GEnv) (tol : ℝ) : GM GRet := guarded (.bool false) do
  let pts ← query fun db => V.orderBy db.joints
  let u ← gScale
  let m := mergeMap ((tol * u.L) ^ 2) pts id
  query fun _ => ()
  m.2.forM fun n => add (.delJoint n)
  flush
  query fun _ => ()
  pure (.bool true)

/-- `set_joint_name`: 317-327 (`session.add` of a query raises), `delete_joint`: 329-337 (`session.delete` of a query raises) -/
def gJointRaising (_name : String) : GM GRet := guarded (.bool false) (fail .exception)

/-! object/frame.py -/

/-- the filter of 34-37: a joint within the tolerance in each coordinate -/
def nearJoint (tol : ℝ) (x y z : ℝ) (q : JointRow) : Prop :=
  q.x - x < tol ∧ x - q.x < tol ∧ q.y - y < tol ∧ y - q.y < tol ∧ q.z - z < tol ∧ z - q.z < tol

/-- look up a joint near a point or add one: 34-41, 43-50 -/
def gFindOrAdd (V : GEnv) (tol x y z : ℝ) : GM String := do
  let o ← query fun db => db.joints.find? fun q => nearJoint tol x y z q
  match o with
  | some q => pure q.name
  | none => gAddJoint' V x y z

/-- names in ascending order and the order flag: 52-63, 103-112 -/
def sortEnds (a b : String) : Option (String × String × Bool) :=
  if a < b then some (a, b, true) else if b < a then some (b, a, false) else none

/-- `if name and ...`: an exception when a frame has the given name; `None` and the empty string are false: 27-28 -/
def gFrameNameFree : Option String → GM Unit
  | none => pure ()
  | some n => if n = "" then pure () else do
    let o ← query fun db => db.frames.find? fun q => q.name = n
    check (o.isNone = true)

/-- the given name, or the uuid: 67-70 -/
def frameName (name : Option String) (id : String) : String := match name with
  | none => id
  | some n => if n = "" then id else n

/-- `add_frame`: 15-72; not guarded.  Only the first point is scaled. -/
def gAddFrame (V : GEnv) (p0 p1 : List ℝ) (sec : String) (name : Option String) : GM GRet :=
  match p0, p1 with
  | [x0, y0, z0], [x1, y1, z1] => do
    gFrameNameFree name
    let _ ← (query fun db => db.secs.find? fun q => q.name = sec) >>= need
    let u ← gScale
    let tol ← query fun db => db.tol
    let a ← gFindOrAdd V tol (x0 * u.L) (y0 * u.L) (z0 * u.L)
    let b ← gFindOrAdd V tol x1 y1 z1
    let e ← need (sortEnds a b)
    let id ← addNew V fun id => .frame ⟨frameName name id, sec, e.1, e.2.1, e.2.2⟩
    pure (.str (frameName name id))
  | _, _ => fail .exception

/-- `pt[0]`, `pt[1]`, `pt[2]` -/
def gPoint : List ℝ → GM (ℝ × ℝ × ℝ)
  | x :: y :: z :: _ => pure (x, y, z)
  | _ => fail .indexError

/-- the loop that adds two joints per frame: 89-92 -/
def gBatchJoints (V : GEnv) (L : ℝ) : List (List ℝ × List ℝ) → GM (List (String × String))
  | [] => pure []
  | (p, q) :: t => do
    let p ← gPoint p
    let a ← gAddJoint' V (p.1 * L) (p.2.1 * L) (p.2.2 * L)
    let q ← gPoint q
    let b ← gAddJoint' V (q.1 * L) (q.2.1 * L) (q.2.2 * L)
    let r ← gBatchJoints V L t
    pure ((a, b) :: r)

/-- the loop that adds the frames: 101-117 -/
def gBatchFrames (V : GEnv) (m : String → String) (sec : String) : List (String × String) → GM (List String)
  | [] => pure []
  | (a, b) :: t => match sortEnds (m a) (m b) with
    | none => gBatchFrames V m sec t
    | some e => do
      let n ← addNew V fun n => .frame ⟨n, sec, e.1, e.2.1, e.2.2⟩
      let r ← gBatchFrames V m sec t
      pure (n :: r)

/-- the assertion on the first entry: 83 -/
def gBatchCheck : List (List ℝ × List ℝ) → GM Unit
  | [] => fail .indexError
  | (p, q) :: _ => check (p.length = q.length)

/-- `add_frame_batch`: 74-125 -/
def gAddFrameBatch (V : GEnv) (pts : List (List ℝ × List ℝ)) (sec : String) : GM GRet := guarded (.bool false) do
  gBatchCheck pts
  let _ ← (query fun db => db.secs.find? fun q => q.name = sec) >>= need
  let u ← gScale
  let ends ← gBatchJoints V u.L pts
  let tol ← query fun db => db.tol
  let js ← query fun db => V.orderBy db.joints
  let m := mergeMap (tol ^ 2) js id
  let ns ← gBatchFrames V m.1 sec ends
  m.2.forM fun n => add (.delJoint n)
  commit
  pure (.batch ns)

/-- `set_frame_section`: 127-145 -/
def gSetFrameSection (frame sec : String) : GM GRet := guarded (.bool false) do
  let _ ← (query fun db => db.frames.find? fun q => q.name = frame) >>= need
  update fun db => { db with frames := db.frames.map fun q => if q.name = frame then { q with sec := sec } else q }
  pure (.bool true)

/-- look up the row, insert or overwrite: the common end of the four load functions -/
def gUpsertLoad (table : Fin 4) (frame case : String) (val : GUnit → List ℝ) : GM GRet := do
  let _ ← (query fun db => db.frames.find? fun q => q.name = frame) >>= need
  let q ← query fun db => db.floads.find? fun q => q.table = table ∧ q.frame = frame ∧ q.case = case
  let u ← gScale
  (if q.isNone then add (.fload ⟨table, frame, case, val u⟩)
   else update fun db => { db with floads := db.floads.map fun q =>
    if q.table = table ∧ q.frame = frame ∧ q.case = case then { q with val := val u } else q } : GM Unit)
  pure (.bool true)

/-- `set_frame_load_distributed`: 150-187 -/
def gSetFrameLoadDistributed (frame case : String) (load : List ℝ) : GM GRet := guarded (.bool false) do
  check (load.length = 12)
  gUpsertLoad 0 frame case fun u =>
    load.mapIdx fun i p => if i % 6 < 3 then p * u.F else p * u.F * u.L

/-- `set_frame_load_concentrated`: 189-221 -/
def gSetFrameLoadConcentrated (frame case : String) (load : List ℝ) (loc : ℝ) : GM GRet := guarded (.bool false) do
  check (load.length = 6 ∧ loc ≤ 1 ∧ 0 ≤ loc)
  gUpsertLoad 1 frame case fun u =>
    (load.mapIdx fun i p => if i < 3 then p * u.F else p * u.F * u.L) ++ [loc]

/-- `set_frame_load_strain`: 223-248 (no unit; the query of the scale is absent, which has no effect after two queries) -/
def gSetFrameLoadStrain (frame case : String) (strain : ℝ) : GM GRet := guarded (.bool false) do
  check (strain ≤ 1 ∧ 0 ≤ strain)
  gUpsertLoad 2 frame case fun _ => [strain]

/-- `set_frame_load_temperature`: 250-274 -/
def gSetFrameLoadTemperature (frame case : String) (T : ℝ) : GM GRet := guarded (.bool false) do
  gUpsertLoad 3 frame case fun _ => [T]

/-- `get_frame_names`: 285-298 -/
def gGetFrameNames : GM GRet := guarded .none do
  let l ← query fun db => db.frames
  pure (.names (l.map fun q => q.name))

/-- the joints `frm.pt0`, `frm.pt1` (None when the row is gone): orm.py 285-286 -/
def gFrameEnds (frame : String) : GM (JointRow × JointRow) := do
  let f ← (query fun db => db.frames.find? fun q => q.name = frame) >>= need
  let a ← query fun db => db.joints.find? fun q => q.name = f.pt0
  let b ← query fun db => db.joints.find? fun q => q.name = f.pt1
  match a, b with
  | some p, some q => pure (p, q)
  | _, _ => fail .attributeError

/-- `get_frame_end_names`: 300-315 -/
def gGetFrameEndNames (frame : String) : GM GRet := guarded .none do
  let e ← gFrameEnds frame
  pure (.two e.1.name e.2.name)

/-- `get_frame_end_coors`: 317-335 -/
def gGetFrameEndCoors (frame : String) : GM GRet := guarded .none do
  let u ← gScale
  let e ← gFrameEnds frame
  pure (.nums [e.1.x / u.L, e.1.y / u.L, e.1.z / u.L, e.2.x / u.L, e.2.y / u.L, e.2.z / u.L])

/-! object/area.py -/

/-- look up a joint near a point; a missing joint makes the code call `self._add_joint`, which does not exist: 37-44 -/
def gFindOrRaise (tol L : ℝ) (p : List ℝ) : GM String := do
  let p ← gPoint p
  let o ← query fun db => db.joints.find? fun q => nearJoint tol (p.1 * L) (p.2.1 * L) (p.2.2 * L) q
  match o with
  | some q => pure q.name
  | none => fail .attributeError

/-- `add_area`: 15-106.  After the look-ups the code builds a dictionary keyed by the joint names.  With a fourth point (whose name is
taken from the first) it has at most three keys and `sorted_key[3]` raises; without it `str.join(sorted_key)` raises. -/
def gAddArea (p0 p1 p2 : List ℝ) (p3 : Option (List ℝ)) (sec : String) (_name : Option String) : GM GRet := guarded (.bool false) do
  check (p0.length = 3 ∧ p1.length = 3 ∧ p2.length = 3)
  let _ ← (query fun db => db.asecs.find? fun q => q.name = sec) >>= need
  let u ← gScale
  let tol ← query fun db => db.tol
  let _ ← gFindOrRaise tol u.L p0
  let _ ← gFindOrRaise tol u.L p1
  let _ ← gFindOrRaise tol u.L p2
  match p3 with
  | some p => do
    let _ ← gFindOrRaise tol u.L p
    fail .indexError
  | none => fail .typeError

/-- `get_area_names`: 170-183 (no function inserts an area, see `add_area`, `add_area_batch`) -/
def gGetAreaNames : GM GRet := guarded (.bool false) do
  query fun _ => ()
  pure (.names [])

/-- `add_area_batch`: 108-168 (an empty list raises, a point makes the code call `self._add_joint`, which does not exist) -/
def gAddAreaBatch (pts : List (List ℝ)) (sec : String) : GM GRet := guarded (.bool false) do
  check (pts ≠ [])
  let _ ← (query fun db => db.asecs.find? fun q => q.name = sec) >>= need
  let _ ← gScale
  fail .attributeError

/-! all calls -/

/-- calls of the editing and reading functions -/
inductive GCall
  | getProjectName | getAuthor | getUnit | getDescription | getTolerance
  | setProjectName (s : String) | setAuthor (s : String) | setUnit (s : String) | setDescription (s : String)
  | setTolerance (isFloat : Bool) (t : ℝ)
  | addMaterial (name : String) (rho : ℝ) (kind : String) (E mu : Option ℝ)
  | addMaterialQuick (code : String)
  | setMaterialIso (name : String) (E mu : ℝ)
  | getMaterialNames | setMaterialName (name : String) | deleteMaterial (name : String)
  | addFrameSection (name material kind : String) (size : List ℝ)
  | getFrameSectionNames | deleteFrameSection (name : String)
  | addAreaSection (name material kind : String) (t : ℝ)
  | getAreaSectionNames
  | deleteAreaSection (name : String) | deleteArea (name : String) | deleteFrame (name : String) | deleteLoadcase (name : String)
  | addLoadcase (name kind : String) (weight : ℝ)
  | getLoadcaseNames
  | addJoint (x y z : ℝ)
  | setJointRestraintBatch (joints : List String) (r : List Bool)
  | setJointRestraint (joint : String) (r : List Bool)
  | setJointLoad (joint case : String) (load : List ℝ)
  | setJointCoordinate (name : String) (x y z : ℝ)
  | setJointMass (name : String)
  | getJointNames | getJointNameByCoor (x y z : Option ℝ) | getJointCoordinate (name : String)
  | mergeJoints (tol : ℝ)
  | setJointName (name : String) | deleteJoint (name : String)
  | addFrame (p0 p1 : List ℝ) (sec : String) (name : Option String)
  | addFrameBatch (pts : List (List ℝ × List ℝ)) (sec : String)
  | setFrameSection (frame sec : String)
  | setFrameLoadDistributed (frame case : String) (load : List ℝ)
  | setFrameLoadConcentrated (frame case : String) (load : List ℝ) (loc : ℝ)
  | setFrameLoadStrain (frame case : String) (strain : ℝ)
  | setFrameLoadTemperature (frame case : String) (T : ℝ)
  | getFrameNames | getFrameEndNames (frame : String) | getFrameEndCoors (frame : String)
  | addArea (p0 p1 p2 : List ℝ) (p3 : Option (List ℝ)) (sec : String) (name : Option String)
  | addAreaBatch (pts : List (List ℝ)) (sec : String)
  | getAreaNames

/-- run one call -/
def GCall.run (V : GEnv) : GCall → GM GRet
  | .getProjectName => gGetProjectName | .getAuthor => gGetAuthor | .getUnit => gGetUnit | .getDescription => gGetDescription
  | .getTolerance => gGetTolerance
  | .setProjectName s => gSetProjectName s | .setAuthor s => gSetAuthor s | .setUnit s => gSetUnit s
  | .setDescription s => gSetDescription s | .setTolerance f t => gSetTolerance f t
  | .addMaterial n r k E mu => gAddMaterial n r k E mu | .addMaterialQuick c => gAddMaterialQuick c
  | .setMaterialIso n E mu => gSetMaterialIso n E mu | .getMaterialNames => gGetMaterialNames
  | .setMaterialName n => gSetMaterialName n | .deleteMaterial n => gDeleteMaterial n
  | .addFrameSection n m k s => gAddFrameSection n m k s | .getFrameSectionNames => gGetFrameSectionNames
  | .deleteFrameSection n => gDeleteFrameSection n
  | .addAreaSection n m k t => gAddAreaSection n m k t | .getAreaSectionNames => gGetAreaSectionNames
  | .deleteAreaSection n => gDeleteRaising n | .deleteArea n => gDeleteRaising n | .deleteFrame n => gDeleteRaising n
  | .deleteLoadcase n => gDeleteRaising n
  | .addLoadcase n k w => gAddLoadcase n k w | .getLoadcaseNames => gGetLoadcaseNames
  | .addJoint x y z => gAddJoint V x y z
  | .setJointRestraintBatch js r => gSetJointRestraintBatch js r | .setJointRestraint j r => gSetJointRestraint j r
  | .setJointLoad j c l => gSetJointLoad j c l | .setJointCoordinate n x y z => gSetJointCoordinate n x y z
  | .setJointMass n => gSetJointMass n | .getJointNames => gGetJointNames
  | .getJointNameByCoor x y z => gGetJointNameByCoor x y z | .getJointCoordinate n => gGetJointCoordinate n
  | .mergeJoints t => gMergeJoints V t | .setJointName n => gJointRaising n | .deleteJoint n => gJointRaising n
  | .addFrame p q s n => gAddFrame V p q s n | .addFrameBatch ps s => gAddFrameBatch V ps s
  | .setFrameSection f s => gSetFrameSection f s
  | .setFrameLoadDistributed f c l => gSetFrameLoadDistributed f c l
  | .setFrameLoadConcentrated f c l x => gSetFrameLoadConcentrated f c l x
  | .setFrameLoadStrain f c e => gSetFrameLoadStrain f c e | .setFrameLoadTemperature f c T => gSetFrameLoadTemperature f c T
  | .getFrameNames => gGetFrameNames | .getFrameEndNames f => gGetFrameEndNames f | .getFrameEndCoors f => gGetFrameEndCoors f
  | .addArea p q r s sec n => gAddArea p q r s sec n | .addAreaBatch ps s => gAddAreaBatch ps s
  | .getAreaNames => gGetAreaNames

/-- the session after a list of calls, whatever they return or raise -/
def gRun (V : GEnv) (cs : List GCall) (s : GSession) : GSession := cs.foldl (fun s c => (c.run V s).2) s

/-! db.py -/

/-- a session just opened on a database: db.py 58-63 -/
def GSession.fresh (db : Db) (n : ℕ) : GSession := ⟨db, db, [], false, n⟩

/-- the configuration `create` writes into the new tables: db.py 26-34, defaults of orm.py 17-26 -/
def emptyDb : Db := ⟨"dev", "HZJ", .Nm, 1 / 1000000, [], [], [], [], [], [], [], [], [], []⟩

/-- `create`: db.py 15-46, on a path where no database exists -/
def gCreate (V : GEnv) (n : ℕ) : GSession :=
  (commit (gRun V [.addMaterial "Q345" 7849 "isotropic_elastic" (some 200000000000) (some (3 / 10)),
    .addMaterial "C35" 2500 "isotropic_elastic" (some 20000000000) (some (2 / 10)),
    .addFrameSection "1-L-H400x200x14x20" "Q345" "I" [4 / 10, 2 / 10, 14 / 1000, 2 / 100],
    .addAreaSection "A-M120" "C35" "m" (12 / 100), .addLoadcase "S" "static-linear" 1] (GSession.fresh emptyDb n))).2

/-- content of a file: absent, cut off while it was written, or a database -/
inductive GFile
  | absent
  | torn
  | whole (db : Db)

/-- the two files of a model: the stored one (.mdo) and the working copy (.op) -/
structure GDisk where
  store : GFile
  op : GFile
  drawn : ℕ

/-- `open`: db.py 48-63.  A missing file makes the code call `self._create`, which does not exist.  A torn file is copied without an
error and every query raises; the model raises at once. -/
def gOpen (d : GDisk) : Except PyErr (GDisk × GSession) := match d.store with
  | .absent => .error .attributeError
  | .torn => .error .osError
  | .whole db => .ok ({ d with op := .whole db }, GSession.fresh db d.drawn)

/-- what a user does in an open session -/
inductive GAct
  | call (c : GCall)
  | save

/-- one action on the disk and the session; commits write the working copy.  `save`: db.py 65-67 (a commit that raises stops it) -/
def GAct.run (V : GEnv) : GAct → GDisk × GSession → GDisk × GSession
  | .call c, (d, s) => let s' := (c.run V s).2; ({ d with op := .whole s'.committed }, s')
  | .save, (d, s) => match commit s with
    | (.ok _, s') => ({ d with op := .whole s'.committed, store := .whole s'.committed }, s')
    | (.error _, s') => (d, s')

/-- how a session ends: `close`, or a crash outside `save`, or a crash inside `save` after the commit or while the working copy is
copied over the stored file (shutil.copy truncates its target first) -/
inductive GEnd
  | close
  | crash
  | crashCommitted
  | crashCopying

/-- `close`: db.py 69-72 (the session is closed, the working copy removed); crashes at the points of `save`: db.py 65-67 -/
def GEnd.run : GEnd → GDisk × GSession → GDisk
  | .close, (d, s) => { d with op := .absent, drawn := s.drawn }
  | .crash, (d, s) => { d with drawn := s.drawn }
  | .crashCommitted, (d, s) => { d with op := .whole (commit s).2.committed, drawn := s.drawn }
  | .crashCopying, (d, s) => match commit s with
    | (.ok _, s') => { d with op := .whole s'.committed, store := .torn, drawn := s.drawn }
    | (.error _, s') => { d with drawn := s'.drawn }

/-- open, act, end -/
def gVisit (V : GEnv) (d : GDisk) (acts : List GAct) (e : GEnd) : GDisk := match gOpen d with
  | .error _ => d
  | .ok ds => e.run (acts.foldl (fun ds a => a.run V ds) ds)

/-- the degrees of freedom `mesh` fixes at a joint: app/general/model.py 267-275 (no row: none) -/
def gFixed (db : Db) (joint : String) : Fin 6 → Bool := match db.restrs.find? fun q => q.joint = joint with
  | some q => q.fixed
  | none => fun _ => false

/-- the loads `apply_load` reads for a case: app/general/model.py 292, 299-306 -/
def gJointLoads (db : Db) (case : String) : List (String × (Fin 6 → ℝ)) :=
  (db.jloads.filter fun q => q.case = case).map fun q => (q.joint, fun i => (q.val i).getD 0)

end

end Hyperstatic
