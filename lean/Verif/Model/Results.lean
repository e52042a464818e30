import Verif.Model.General
import Verif.Model.FeModel

/-
Model of the results kept in the database of a project: app/general/result/result.py and the first statement of `run` in
app/general/model.py.  No function writes these tables (`run` raises before it could), so they are whatever the opened file
contains; they are not part of the session and no call changes them.  Null entries are not modelled.
-/

namespace Hyperstatic

noncomputable section
open Classical GM

/-- table result_joint_displacement: orm.py 430-439 -/
structure RDispRow where
  joint : String
  case : String
  u : Fin 3 → ℝ
  r : Fin 3 → ℝ

/-- table result_joint_reactions: orm.py 442-451 -/
structure RReacRow where
  joint : String
  case : String
  p : Fin 3 → ℝ
  m : Fin 3 → ℝ

/-- table result_frame_forces: orm.py 454-470 -/
structure RForceRow where
  frame : String
  case : String
  segment : ℕ
  p0 : Fin 3 → ℝ
  m0 : Fin 3 → ℝ
  p1 : Fin 3 → ℝ
  m1 : Fin 3 → ℝ

/-- table result_modal_period: orm.py 483-489 -/
structure RPeriodRow where
  case : String
  order : ℤ
  period : ℝ

/-- the four tables -/
structure RTables where
  disp : List RDispRow
  reac : List RReacRow
  force : List RForceRow
  period : List RPeriodRow

/-- `get_result_joint_displacement`: result.py 10-25 -/
def rDisplacement (T : RTables) (name case : String) : GM (Option (List ℝ)) := do
  let res ← query fun _ => T.disp.find? fun q => q.joint = name ∧ q.case = case
  match res with
  | none => pure none
  | some q => do
    let s ← gScale
    pure (some [q.u 0 / s.L, q.u 1 / s.L, q.u 2 / s.L, q.r 0, q.r 1, q.r 2])

/-- `get_result_joint_reaction`: result.py 27-42 -/
def rReaction (T : RTables) (name case : String) : GM (Option (List ℝ)) := do
  let res ← query fun _ => T.reac.find? fun q => q.joint = name ∧ q.case = case
  match res with
  | none => pure none
  | some q => do
    let s ← gScale
    pure (some [q.p 0 / s.F, q.p 1 / s.F, q.p 2 / s.F, q.m 0 / s.F / s.L, q.m 1 / s.F / s.L, q.m 2 / s.F / s.L])

/-- `get_result_frame_force`: result.py 44-64 -/
def rFrameForce (T : RTables) (name case : String) : GM (Option (List (List ℝ))) := do
  let reses ← query fun _ => T.force.filter fun q => q.frame = name ∧ q.case = case
  if reses.length = 0 then pure none
  else do
    let s ← gScale
    pure (some (reses.map fun q =>
      [q.p0 0 / s.F, q.p0 1 / s.F, q.p0 2 / s.F, q.m0 0 / s.F / s.L, q.m0 1 / s.F / s.L, q.m0 2 / s.F / s.L,
       q.p1 0 / s.F, q.p1 1 / s.F, q.p1 2 / s.F, q.m1 0 / s.F / s.L, q.m1 1 / s.F / s.L, q.m1 2 / s.F / s.L]))

/-- the argument `order`: the word 'all', an integer, or anything else -/
inductive ROrder
  | all
  | num (n : ℤ)
  | other

/-- `get_result_period`: result.py 66-80.  For an integer the list `res` of line 79 is asked for `res.all()`, which lists do not have. -/
def rPeriod (T : RTables) (case : String) : ROrder → GM (Option (List ℝ))
  | .all => do
    let l ← query fun _ => T.period.filter fun q => q.case = case
    pure (some (l.map fun q => q.period))
  | .num n => do
    let _ ← query fun _ => T.period.filter fun q => q.case = case ∧ q.order = n
    fail .attributeError
  | .other => pure none

/-- `run`: app/general/model.py 330-342; the first statement reads `self.fe_model.is_assembled`, which no class defines, so the branch
that goes on is never taken -/
def rRun (_cases : List String) : GM GRet := fun s =>
  match checkAttr FeModel.attributes "is_assembled" with
  | .error e => (.error e, s)
  | .ok _ => (.ok .none, s)

end

end Hyperstatic
