import Verif.Model.General
import Verif.Spec.Section

/-
Vocabulary of the properties of the database front end (app/general).
-/

namespace Hyperstatic

/-- the content every query sees: no flush has failed, and the pending changes can be written -/
def Sees (s : GSession) (db : Db) : Prop := s.broken = false ∧ flushAll s.work s.pending = some db

/-- calls that only read -/
def GCall.reads : GCall → Prop
  | .getProjectName | .getAuthor | .getUnit | .getDescription | .getTolerance | .getMaterialNames | .getFrameSectionNames
  | .getAreaSectionNames | .getLoadcaseNames | .getJointNames | .getJointNameByCoor _ _ _ | .getJointCoordinate _
  | .getFrameNames | .getFrameEndNames _ | .getFrameEndCoors _ | .getAreaNames => True
  | _ => False

/-- the answer of a call does not report a failure: no exception, not `False`, and not `None` where the documentation gives another
value for success (only three functions return `None` when they succeed) -/
def GCall.succeeded (c : GCall) (r : Except PyErr GRet) : Prop := match r with
  | .error _ => False
  | .ok .none => match c with
    | .setMaterialName _ | .deleteMaterial _ => True
    | _ => False
  | .ok (.bool false) => False
  | .ok _ => True

/-- two sessions give the same answers to every reading call -/
def SameAnswers (V : GEnv) (s t : GSession) : Prop := ∀ g : GCall, g.reads → (g.run V s).1 = (g.run V t).1

/-- calls made one after the other, none of which reports a failure -/
def AllSucceed (V : GEnv) : List GCall → GSession → GSession → Prop
  | [], s, t => s = t
  | c :: cs, s, t => c.succeeded (c.run V s).1 ∧ AllSucceed V cs (c.run V s).2 t

/-- calls that answer `False` without undoing anything: the readers of the project data -/
def GCall.plainReader : GCall → Prop
  | .getAuthor | .getUnit | .getDescription | .getTolerance => True
  | _ => False

/-- no `save` among the actions succeeds -/
def NothingSaved (V : GEnv) : List GAct → GDisk × GSession → Prop
  | [], _ => True
  | a :: t, ds => (a = .save → ∀ u, (GM.commit ds.2).1 ≠ .ok u) ∧ NothingSaved V t (a.run V ds)

/-- the session a file opens to answers like session `s` -/
def OpensLike (V : GEnv) (d : GDisk) (s : GSession) : Prop := ∃ d' s', gOpen d = .ok (d', s') ∧ SameAnswers V s' s

/-- A session reached in the life of a model: it is created, then any number of times opened, used and left by `close` or by a crash,
then opened again and used. -/
def Lived (V : GEnv) (s : GSession) : Prop := ∃ (n : ℕ) (visits : List (List GAct × GEnd)) (acts : List GAct) (d : GDisk) (t : GSession),
  gOpen (visits.foldl (fun d v => gVisit V d v.1 v.2) ⟨.whole (gCreate V n).committed, .absent, n⟩) = .ok (d, t) ∧
  s = (acts.foldl (fun ds a => a.run V ds) (d, t)).2

/-- the metres in the length unit of a unit system -/
noncomputable def GUnit.metres : GUnit → ℝ | .Nm => 1 | .kNm => 1 | .Nmm => 1 / 1000 | .kNmm => 1 / 1000
/-- the newtons in the force unit of a unit system -/
noncomputable def GUnit.newtons : GUnit → ℝ | .Nm => 1 | .Nmm => 1 | .kNm => 1000 | .kNmm => 1000

/-- factor from the current unit to SI for the six components of a joint load -/
noncomputable def GUnit.loadFactor (u : GUnit) (i : Fin 6) : ℝ := if i.val < 3 then u.newtons else u.newtons * u.metres

/-- kinds of named objects -/
inductive GKind
  | joint | frame | material | frameSection | areaSection | loadcase

/-- the call that lists the names of a kind -/
def GKind.list : GKind → GCall
  | .joint => .getJointNames | .frame => .getFrameNames | .material => .getMaterialNames
  | .frameSection => .getFrameSectionNames | .areaSection => .getAreaSectionNames | .loadcase => .getLoadcaseNames

/-- the call that deletes an object of a kind -/
def GKind.delete : GKind → String → GCall
  | .joint => .deleteJoint | .frame => .deleteFrame | .material => .deleteMaterial
  | .frameSection => .deleteFrameSection | .areaSection => .deleteAreaSection | .loadcase => .deleteLoadcase

/-- `a` is the point `p`, or nearer than `t` in each coordinate -/
def NearTo (t : ℝ) (p a : ℝ × ℝ × ℝ) : Prop := a = p ∨ |a.1 - p.1| < t ∧ |a.2.1 - p.2.1| < t ∧ |a.2.2 - p.2.2| < t

/-- some coordinate of two points differs by `2 t` or more -/
def FarApart (t : ℝ) (p q : ℝ × ℝ × ℝ) : Prop := 2 * t ≤ |p.1 - q.1| ∨ 2 * t ≤ |p.2.1 - q.2.1| ∨ 2 * t ≤ |p.2.2 - q.2.2|

/-- three coordinates as a list -/
def xyz (p : ℝ × ℝ × ℝ) : List ℝ := [p.1, p.2.1, p.2.2]

/-- shapes documented for `add_frame_section`, sizes in metres: circle, pipe, I-profile, hollow box -/
inductive HasShape : String → List ℝ → Set (ℝ × ℝ) → Prop
  | circle {d : ℝ} (hd : 0 < d) : HasShape "o" [d] (Spec.discShape d)
  | pipe {d t : ℝ} (ht : 0 < t) (hd : 2 * t < d) : HasShape "O" [d, t] (Spec.pipeShape d t)
  | i {h b tw tf : ℝ} (h1 : 0 < tw) (h2 : 0 < tf) (h3 : tw < b) (h4 : 2 * tf < h) : HasShape "I" [h, b, tw, tf] (Spec.iShape h b tw tf)
  | box {h b tw tf : ℝ} (h1 : 0 < tw) (h2 : 0 < tf) (h3 : 2 * tw < b) (h4 : 2 * tf < h) : HasShape "B" [h, b, tw, tf] (Spec.boxShape h b tw tf)

/-- factors from the current unit to SI: stress, density (mass is force times time squared per length), force per length, moment per length -/
noncomputable def GUnit.stress (u : GUnit) : ℝ := u.newtons / u.metres ^ 2
noncomputable def GUnit.density (u : GUnit) : ℝ := u.newtons / u.metres / u.metres ^ 3
noncomputable def GUnit.lineForce (u : GUnit) : ℝ := u.newtons / u.metres
noncomputable def GUnit.lineMoment (u : GUnit) : ℝ := u.newtons * u.metres / u.metres

/-- the load of one frame, load case and table is `v`, and no other load of a frame changed -/
def LoadSet (a b : Db) (table : Fin 4) (frame case : String) (v : List ℝ) : Prop :=
  (∃ q ∈ b.floads, q.table = table ∧ q.frame = frame ∧ q.case = case) ∧
  (∀ q ∈ b.floads, q.table = table → q.frame = frame → q.case = case → q.val = v) ∧
  ∀ q : FLoadRow, ¬ (q.table = table ∧ q.frame = frame ∧ q.case = case) → (q ∈ b.floads ↔ q ∈ a.floads)

/-- order of joints by x, then y, then z -/
def JointRow.before (p q : JointRow) : Prop := p.x < q.x ∨ p.x = q.x ∧ (p.y < q.y ∨ p.y = q.y ∧ p.z ≤ q.z)

/-- the database sorts: an ordered query returns the rows in that order, each once -/
def GEnv.Sorts (V : GEnv) : Prop := ∀ l, (V.orderBy l).Perm l ∧ (V.orderBy l).Pairwise JointRow.before

/-- distance of two joints -/
noncomputable def JointRow.dist (p q : JointRow) : ℝ := Real.sqrt ((p.x - q.x) ^ 2 + (p.y - q.y) ^ 2 + (p.z - q.z) ^ 2)

/-- the position of a joint -/
def JointRow.pt (p : JointRow) : ℝ × ℝ × ℝ := (p.x, p.y, p.z)

/-- rows with equal coordinates come in the order in which they were stored -/
def GEnv.Stable (V : GEnv) : Prop := open Classical in ∀ (l : List JointRow) (p : ℝ × ℝ × ℝ), ((V.orderBy l).filter fun q => q.pt = p) = l.filter fun q => q.pt = p

/-- two points are the same or `t` apart or more -/
def SameOrFar (t : ℝ) (p q : ℝ × ℝ × ℝ) : Prop := p = q ∨ t ≤ Real.sqrt ((p.1 - q.1) ^ 2 + (p.2.1 - q.2.1) ^ 2 + (p.2.2 - q.2.2) ^ 2)

/-- a point in metres -/
def inMetres (L : ℝ) (p : ℝ × ℝ × ℝ) : ℝ × ℝ × ℝ := (p.1 * L, p.2.1 * L, p.2.2 * L)

end Hyperstatic
