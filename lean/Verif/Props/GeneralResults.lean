import Verif.Model.Results
import Verif.Props.GeneralSettings

/-
C148: results kept in a project.
-/

namespace Hyperstatic
open GM

/-- no two rows have the same key (the primary keys of the tables) -/
structure RTables.Keyed (T : RTables) : Prop where
  disp : (T.disp.map fun q => (q.joint, q.case)).Nodup
  reac : (T.reac.map fun q => (q.joint, q.case)).Nodup

/-- A stored period can be read by its order, and `run` returns. -/
def C148_claim : Prop := (∀ (T : RTables) (s : GSession) (db : Db) (q : RPeriodRow), Sees s db → T.period = [q] →
    (rPeriod T q.case (.num q.order) s).1 = .ok (some [q.period])) ∧
  ∀ (cases : List String) (s : GSession), ∃ r, (rRun cases s).1 = .ok r

theorem GUnit.F_pos (u : GUnit) : 0 < u.F := by cases u <;> simp [GUnit.F]

theorem find_key {α β : Type} [DecidableEq β] {k : α → β} {l : List α} (h : (l.map k).Nodup) {q : α} (hq : q ∈ l) {p : α → Bool}
    (hp : ∀ x, p x = true ↔ k x = k q) : l.find? p = some q := by
  rcases e : l.find? p with _ | x
  · exact absurd ((hp q).mpr rfl) (by simpa using List.find?_eq_none.mp e q hq)
  · have h1 := (hp x).mp (List.find?_some e)
    rw [List.inj_on_of_nodup_map h (List.mem_of_find?_eq_some e) hq h1]

/-- A stored displacement is read in the unit in force: lengths in its length unit, rotations as they are.  Reading changes nothing. -/
theorem C148_displacement (V : GEnv) (T : RTables) (hT : T.Keyed) (s : GSession) (db : Db) (hs : Sees s db) (u : GUnit)
    (hu : (GCall.getUnit.run V s).1 = .ok (.str u.str)) (q : RDispRow) (hq : q ∈ T.disp) :
    ∃ x y z s', rDisplacement T q.joint q.case s = (.ok (some [x, y, z, q.r 0, q.r 1, q.r 2]), s') ∧ Sees s' db ∧
      x * u.metres = q.u 0 ∧ y * u.metres = q.u 1 ∧ z * u.metres = q.u 2 := by
  obtain ⟨db', hs', rfl⟩ := sees_of_unit hu
  cases hs.unique hs'
  have hL := db.unit.L_pos.ne'
  have hf : (T.disp.find? fun p => p.joint = q.joint ∧ p.case = q.case) = some q :=
    find_key (k := fun q : RDispRow => (q.joint, q.case)) hT.disp hq (by simp)
  refine ⟨q.u 0 / db.unit.L, q.u 1 / db.unit.L, q.u 2 / db.unit.L, s.flushed db, ?_, hs.flushed, ?_⟩
  · simp only [rDisplacement, bind_run, hs.query]
    rw [hf]
    simp only [bind_run, gScale_run hs.flushed, flushed_flushed, pure_run]
  · rw [GUnit.metres_eq]; simp [hL]

/-- A stored reaction is read in the unit in force: forces in its force unit, moments in force times length. -/
theorem C148_reaction (V : GEnv) (T : RTables) (hT : T.Keyed) (s : GSession) (db : Db) (hs : Sees s db) (u : GUnit)
    (hu : (GCall.getUnit.run V s).1 = .ok (.str u.str)) (q : RReacRow) (hq : q ∈ T.reac) :
    ∃ (p m : Fin 3 → ℝ) (s' : GSession), rReaction T q.joint q.case s = (.ok (some [p 0, p 1, p 2, m 0, m 1, m 2]), s') ∧ Sees s' db ∧
      (∀ i, p i * u.newtons = q.p i) ∧ ∀ i, m i * (u.newtons * u.metres) = q.m i := by
  obtain ⟨db', hs', rfl⟩ := sees_of_unit hu
  cases hs.unique hs'
  have hL := db.unit.L_pos.ne'
  have hF := db.unit.F_pos.ne'
  have hf : (T.reac.find? fun p => p.joint = q.joint ∧ p.case = q.case) = some q :=
    find_key (k := fun q : RReacRow => (q.joint, q.case)) hT.reac hq (by simp)
  refine ⟨fun i => q.p i / db.unit.F, fun i => q.m i / db.unit.F / db.unit.L, s.flushed db, ?_, hs.flushed, ?_, ?_⟩
  · simp only [rReaction, bind_run, hs.query]
    rw [hf]
    simp only [bind_run, gScale_run hs.flushed, flushed_flushed, pure_run]
  · intro i; rw [GUnit.newtons_eq]; simp [hF]
  · intro i; rw [GUnit.newtons_eq, GUnit.metres_eq]; field_simp

/-- the forces of a segment of a frame, read in a unit, are those stored -/
structure ForceOf (u : GUnit) (q : RForceRow) (l : List ℝ) : Prop where
  len : l.length = 12
  force0 : ∀ i : Fin 3, l.getD i 0 * u.newtons = q.p0 i
  moment0 : ∀ i : Fin 3, l.getD (3 + i) 0 * (u.newtons * u.metres) = q.m0 i
  force1 : ∀ i : Fin 3, l.getD (6 + i) 0 * u.newtons = q.p1 i
  moment1 : ∀ i : Fin 3, l.getD (9 + i) 0 * (u.newtons * u.metres) = q.m1 i

/-- The forces of a frame are read segment by segment in the order they were stored, all of them and no others. -/
theorem C148_frame_force (V : GEnv) (T : RTables) (s : GSession) (db : Db) (hs : Sees s db) (u : GUnit)
    (hu : (GCall.getUnit.run V s).1 = .ok (.str u.str)) (f c : String) (rows : List RForceRow)
    (hr : rows = open Classical in T.force.filter fun q => q.frame = f ∧ q.case = c) (hne : rows ≠ []) :
    ∃ ls s', rFrameForce T f c s = (.ok (some ls), s') ∧ Sees s' db ∧ List.Forall₂ (ForceOf u) rows ls := by
  obtain ⟨db', hs', rfl⟩ := sees_of_unit hu
  cases hs.unique hs'
  have hL := db.unit.L_pos.ne'
  have hF := db.unit.F_pos.ne'
  refine ⟨rows.map fun q =>
      [q.p0 0 / db.unit.F, q.p0 1 / db.unit.F, q.p0 2 / db.unit.F, q.m0 0 / db.unit.F / db.unit.L, q.m0 1 / db.unit.F / db.unit.L,
       q.m0 2 / db.unit.F / db.unit.L, q.p1 0 / db.unit.F, q.p1 1 / db.unit.F, q.p1 2 / db.unit.F, q.m1 0 / db.unit.F / db.unit.L,
       q.m1 1 / db.unit.F / db.unit.L, q.m1 2 / db.unit.F / db.unit.L], s.flushed db, ?_, hs.flushed, ?_⟩
  · simp only [rFrameForce, bind_run, hs.query]
    rw [← hr, if_neg (by simpa using hne)]
    simp only [bind_run, gScale_run hs.flushed, flushed_flushed, pure_run]
  · rw [List.forall₂_map_right_iff, List.forall₂_same]
    intro q _
    refine ⟨rfl, ?_, ?_, ?_, ?_⟩ <;> intro i <;> fin_cases i <;> simp [GUnit.newtons_eq, GUnit.metres_eq] <;> field_simp

/-- Nothing stored, nothing read. -/
theorem C148_none (T : RTables) (s : GSession) (db : Db) (hs : Sees s db) (n c : String) :
    ((∀ q ∈ T.disp, ¬ (q.joint = n ∧ q.case = c)) → (rDisplacement T n c s).1 = .ok none) ∧
    ((∀ q ∈ T.reac, ¬ (q.joint = n ∧ q.case = c)) → (rReaction T n c s).1 = .ok none) ∧
    ((∀ q ∈ T.force, ¬ (q.frame = n ∧ q.case = c)) → (rFrameForce T n c s).1 = .ok none) := by
  refine ⟨fun h => ?_, fun h => ?_, fun h => ?_⟩
  · have : (T.disp.find? fun p => p.joint = n ∧ p.case = c) = none := by
      rw [List.find?_eq_none]; intro q hq; simpa using h q hq
    simp only [rDisplacement, bind_run, hs.query]
    rw [this]; rfl
  · have : (T.reac.find? fun p => p.joint = n ∧ p.case = c) = none := by
      rw [List.find?_eq_none]; intro q hq; simpa using h q hq
    simp only [rReaction, bind_run, hs.query]
    rw [this]; rfl
  · have : (T.force.filter fun p => p.frame = n ∧ p.case = c) = [] := by
      rw [List.filter_eq_nil_iff]; intro q hq; simpa using h q hq
    simp only [rFrameForce, bind_run, hs.query]
    rw [this]; rfl

/-- The unit in which results are read does not matter: two answers to the same question, read in any two units, are the same
displacement. -/
theorem C148_units (V : GEnv) (T : RTables) (s t : GSession) (u v : GUnit) (hu : (GCall.getUnit.run V s).1 = .ok (.str u.str))
    (hv : (GCall.getUnit.run V t).1 = .ok (.str v.str)) (n c : String) (l l' : List ℝ) (hl : (rDisplacement T n c s).1 = .ok (some l))
    (hl' : (rDisplacement T n c t).1 = .ok (some l')) :
    (∀ i < 3, l.getD i 0 * u.metres = l'.getD i 0 * v.metres) ∧ ∀ i, 3 ≤ i → l.getD i 0 = l'.getD i 0 := by
  obtain ⟨db, hs, rfl⟩ := sees_of_unit hu
  obtain ⟨db', ht, rfl⟩ := sees_of_unit hv
  have hL := db.unit.L_pos.ne'
  have hL' := db'.unit.L_pos.ne'
  simp only [rDisplacement, bind_run, hs.query] at hl
  simp only [rDisplacement, bind_run, ht.query] at hl'
  rcases e : T.disp.find? fun q => q.joint = n ∧ q.case = c with _ | q
  · rw [e] at hl; cases hl
  · rw [e] at hl hl'
    simp only [bind_run, gScale_run hs.flushed, gScale_run ht.flushed, pure_run, Except.ok.injEq, Option.some.injEq] at hl hl'
    subst hl; subst hl'
    constructor
    · intro i hi
      interval_cases i <;> simp [GUnit.metres_eq, hL, hL']
    · intro i hi
      rcases i with _ | _ | _ | i
      · omega
      · omega
      · omega
      · rfl

/-- Proved for all periods at once: they are those stored for the case, in the order stored.  Missing: a single one, see `C148_false`. -/
theorem C148_periods_partial (T : RTables) (s : GSession) (db : Db) (hs : Sees s db) (c : String) :
    ∃ s', rPeriod T c .all s = (.ok (some ((T.period.filter fun q => q.case = c).map RPeriodRow.period)), s') ∧ Sees s' db := by
  refine ⟨s.flushed db, ?_, hs.flushed⟩
  simp only [rPeriod, bind_run, hs.query, pure_run]

/-- Asking for one period raises in every state. -/
theorem C148_one_period (T : RTables) (s : GSession) (c : String) (n : ℤ) : ∃ e, (rPeriod T c (.num n) s).1 = .error e := by
  rcases e : rPeriod T c (.num n) s with ⟨err | a, s'⟩
  · exact ⟨err, rfl⟩
  · obtain ⟨_, _, _, h⟩ := bind_ok e
    cases h

/-- `run` raises for every model and every list of cases, and stores nothing. -/
theorem C148_run (cases : List String) (s : GSession) : rRun cases s = (.error .attributeError, s) := by
  unfold rRun
  rw [show checkAttr FeModel.attributes "is_assembled" = .error .attributeError by unfold checkAttr; rw [if_neg (by decide)]]

theorem C148_false : ¬ C148_claim := by
  intro h
  have := h.1 ⟨[], [], [], [⟨"M", 1, 2⟩]⟩ (GSession.fresh demoDb 0) demoDb ⟨"M", 1, 2⟩ (sees_fresh demoDb 0) rfl
  obtain ⟨e, he⟩ := C148_one_period ⟨[], [], [], [⟨"M", 1, 2⟩]⟩ (GSession.fresh demoDb 0) "M" 1
  rw [he] at this
  cases this

-- a table with two results of one joint, read in a model in N and m
example : ∃ (T : RTables) (s : GSession) (db : Db), T.Keyed ∧ Sees s db ∧ (GCall.getUnit.run demoEnv s).1 = .ok (.str GUnit.Nm.str) ∧
    T.disp.length = 2 ∧ T.force.length = 1 := by
  refine ⟨⟨[⟨"a", "S", fun _ => 1, fun _ => 2⟩, ⟨"a", "W", fun _ => 3, fun _ => 4⟩], [], [⟨"f", "S", 0, fun _ => 1, fun _ => 2, fun _ => 3, fun _ => 4⟩], []⟩,
    GSession.fresh demoDb 0, demoDb, ⟨by simp, by simp⟩, sees_fresh demoDb 0, ?_, rfl, rfl⟩
  show (gGetUnit _).1 = _
  simp only [gGetUnit, caught, bind_run, (sees_fresh demoDb 0).query, pure_run]
  rfl

end Hyperstatic
