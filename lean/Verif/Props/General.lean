import Verif.Lemmas.General
import Mathlib.Data.List.Sort

/-
Properties of the database front end: coordinates of joints, failing calls, durability, deletes.
-/

namespace Hyperstatic
open GM

/-! ## C91 coordinates of joints in the current unit -/

/-- the call does not move, merge or replace joint `n` -/
def GCall.leavesJoint (n : String) : GCall → Prop
  | .setJointCoordinate m _ _ _ => m ≠ n
  | .mergeJoints _ | .addFrameBatch _ _ => False
  | _ => True

/-- the rows of joint `n` have the given coordinates, and there is one -/
def JointAt (n : String) (x y z : ℝ) (db : Db) : Prop :=
  (∃ q ∈ db.joints, q.name = n) ∧ ∀ q ∈ db.joints, q.name = n → q.x = x ∧ q.y = y ∧ q.z = z

theorem JointAt.find {n : String} {x y z : ℝ} {db : Db} (h : JointAt n x y z db) :
    ∃ q, (db.joints.find? fun q => q.name = n) = some q ∧ q.x = x ∧ q.y = y ∧ q.z = z := by
  obtain ⟨⟨q, hq, hn⟩, h2⟩ := h
  rcases e : db.joints.find? fun q => q.name = n with _ | p
  · have := List.find?_eq_none.mp e q hq
    simp [hn] at this
  · exact ⟨p, e, h2 p (List.mem_of_find?_eq_some e) (by simpa using List.find?_some e)⟩

theorem JointAt.flush {n : String} {x y z : ℝ} {db db' : Db} {p : Pend} (h : JointAt n x y z db) (hp : p ≠ .delJoint n)
    (e : p.flush db = some db') : JointAt n x y z db' := by
  cases p with
  | joint r =>
    simp only [Pend.flush] at e
    split_ifs at e with hr
    cases e
    refine ⟨?_, fun q hq hn => ?_⟩
    · obtain ⟨q, hq, hn⟩ := h.1
      exact ⟨q, by simp [hq], hn⟩
    · simp only [List.mem_append, List.mem_singleton] at hq
      rcases hq with hq | rfl
      · exact h.2 q hq hn
      · obtain ⟨q', hq', hn'⟩ := h.1
        exact absurd ⟨q', hq', hn'.trans hn.symm⟩ hr
  | delJoint m =>
    simp only [Pend.flush] at e
    split_ifs at e with hr
    cases e
    have hm : m ≠ n := fun e => hp (by rw [e])
    refine ⟨?_, fun q hq hn => h.2 q (List.mem_filter.mp hq).1 hn⟩
    obtain ⟨q, hq, hn⟩ := h.1
    exact ⟨q, List.mem_filter.mpr ⟨hq, by simp [hn, hm.symm]⟩, hn⟩
  | _ =>
    simp only [Pend.flush] at e
    (try split_ifs at e) <;> cases e <;> exact h

theorem JointAt.flushAll {n : String} {x y z : ℝ} {db db' : Db} {ps : List Pend} (h : JointAt n x y z db) (hp : Pend.delJoint n ∉ ps)
    (e : flushAll db ps = some db') : JointAt n x y z db' := by
  induction ps generalizing db with
  | nil => cases e; exact h
  | cons p ps ih =>
    simp only [Hyperstatic.flushAll] at e
    rcases e1 : p.flush db with _ | d <;> rw [e1] at e
    · cases e
    · exact ih (h.flush (fun hh => hp (by simp [hh])) e1) (fun hh => hp (by simp [hh])) e

/-- joint `n` is stored at the given place and nothing pending removes it -/
def KeepsAt (n : String) (x y z : ℝ) (s : GSession) : Prop := JointAt n x y z s.work ∧ Pend.delJoint n ∉ s.pending

theorem keepsAt_stable {V : GEnv} {n : String} {x y z : ℝ} {c : GCall} (hc : c.leavesJoint n) (hq : ∀ code, c ≠ .addMaterialQuick code) :
    Stable V (KeepsAt n x y z) (fun _ => True) c where
  weak _ _ := trivial
  ok s db h _ e := ⟨h.1.flushAll h.2 e, by simp⟩
  err _ _ := trivial
  quick code e := absurd e (hq code)
  add p hp s h := by
    refine ⟨h.1, ?_⟩
    simp only [List.mem_append, List.mem_singleton, not_or]
    refine ⟨h.2, ?_⟩
    cases c <;> simp only [GCall.mayAdd, GCall.leavesJoint] at hp hc <;> aesop
  new mk hmk s h := by
    refine ⟨h.1, ?_⟩
    simp only [List.mem_append, List.mem_singleton, not_or]
    refine ⟨h.2, ?_⟩
    cases c <;> simp only [GCall.mayNew, GCall.leavesJoint] at hmk hc <;> aesop
  upd f hf s h := by
    refine ⟨?_, h.2⟩
    have h1 := h.1
    cases c <;> simp only [GCall.mayUpd, GCall.leavesJoint] at hf hc
    case setJointCoordinate m a b d =>
      obtain ⟨_, _, _, rfl⟩ := hf
      refine ⟨?_, fun q hq hn => ?_⟩
      · obtain ⟨q, hq, hn⟩ := h1.1
        refine ⟨q, ?_, hn⟩
        simp only [List.mem_map]
        exact ⟨q, hq, by rw [if_neg (by rw [hn]; exact hc.symm)]⟩
      · simp only [List.mem_map] at hq
        obtain ⟨p, hp, rfl⟩ := hq
        split_ifs at hn ⊢ with e
        · exact absurd (e.symm.trans hn) hc
        · exact h1.2 p hp hn
    all_goals first | exact absurd hf id | (subst hf; exact h1) | (obtain ⟨_, rfl⟩ := hf; exact h1)
  commit pts sec e := by subst e; exact absurd hc id

/-- `set_joint_coordinate` succeeds exactly on the joints `get_joint_names` lists -/
theorem C91_known (V : GEnv) (s : GSession) (n : String) (x y z : ℝ) (l : List String)
    (hl : (GCall.getJointNames.run V s).1 = .ok (.names l)) :
    ((GCall.setJointCoordinate n x y z).run V s).1 = .ok (.bool true) ↔ n ∈ l := by
  obtain ⟨db, hs, rfl⟩ := sees_of_joint_names hl
  show (gSetJointCoordinate n x y z s).1 = _ ↔ _
  rw [gSetJointCoordinate_run hs]
  by_cases hn : n ∈ db.joints.map fun q => q.name
  · obtain ⟨q, e, _⟩ := find_name hn
    rw [e]; simp [hn]
  · rw [find_no_name hn]; simp [hn]

/-- a joint added in SI units is listed and read back in the current unit -/
theorem C91_added (V : GEnv) (s s1 : GSession) (n : String) (x y z : ℝ) (u : GUnit) (l : List String)
    (hl : (GCall.getJointNames.run V s).1 = .ok (.names l)) (hadd : (GCall.addJoint x y z).run V s = (.ok (.str n), s1)) (hn : n ∉ l)
    (hu : (GCall.getUnit.run V s).1 = .ok (.str u.str)) :
    (GCall.getJointNames.run V s1).1 = .ok (.names (l ++ [n])) ∧
    ((GCall.getJointCoordinate n).run V s1).1 = .ok (.nums [x / u.metres, y / u.metres, z / u.metres]) := by
  rw [GUnit.metres_eq]
  obtain ⟨db, hs, rfl⟩ := sees_of_joint_names hl
  obtain ⟨db', hs', rfl⟩ := sees_of_unit hu
  cases hs.unique hs'
  have hadd : (Except.ok (GRet.str (V.uuid s.drawn)), ({ s with pending := s.pending ++ [.joint ⟨V.uuid s.drawn, x, y, z⟩], drawn := s.drawn + 1 } : GSession)) =
      ((.ok (.str n), s1) : Except PyErr GRet × GSession) := hadd
  simp only [Prod.mk.injEq, Except.ok.injEq, GRet.str.injEq] at hadd
  obtain ⟨rfl, rfl⟩ := hadd
  have h1 : Sees { s with pending := s.pending ++ [.joint ⟨V.uuid s.drawn, x, y, z⟩], drawn := s.drawn + 1 }
      { db with joints := db.joints ++ [⟨V.uuid s.drawn, x, y, z⟩] } := by
    refine ⟨hs.1, ?_⟩
    rw [flushAll_append, hs.2]
    simp only [Option.bind_some, flushAll, Pend.flush]
    rw [if_neg (by rintro ⟨q, hq, e⟩; exact hn (List.mem_map.mpr ⟨q, hq, e⟩))]
    rfl
  refine ⟨?_, ?_⟩
  · show (gGetJointNames _).1 = _
    rw [gGetJointNames_run h1]; simp
  · show (gGetJointCoordinate _ _).1 = _
    rw [gGetJointCoordinate_run h1, List.find?_append, find_no_name hn]
    simp

/-- After a successful `set_joint_coordinate` in one unit, any calls that report no failure and do not move, merge or batch-add joints,
`get_joint_coordinate` gives the same place in the unit now in force. -/
theorem C91_history (V : GEnv) (s s1 s2 : GSession) (n : String) (x y z : ℝ) (u0 u1 : GUnit) (cs : List GCall)
    (hset : (GCall.setJointCoordinate n x y z).run V s = (.ok (.bool true), s1))
    (hu0 : (GCall.getUnit.run V s1).1 = .ok (.str u0.str)) (hcs : AllSucceed V cs s1 s2) (hn : ∀ c ∈ cs, c.leavesJoint n)
    (hu1 : (GCall.getUnit.run V s2).1 = .ok (.str u1.str)) :
    ((GCall.getJointCoordinate n).run V s2).1 = .ok (.nums [x * u0.L / u1.L, y * u0.L / u1.L, z * u0.L / u1.L]) := by
  obtain ⟨q0, t, h1, h2⟩ := bind_ok (guarded_ok hset (by simp))
  obtain ⟨h3, h4, h5⟩ := lookup_ok h1
  set db := t.work
  have ht : Sees t db := by rw [h4]; exact h3.flushed
  simp only [bind_run, gScale_run ht, update_run, pure_run, Prod.mk.injEq, true_and] at h2
  obtain ⟨db1, hs1, e1⟩ := sees_of_unit hu0
  obtain ⟨db2, hs2, e2⟩ := sees_of_unit hu1
  have hk : KeepsAt n (x * u0.L) (y * u0.L) (z * u0.L) s1 := by
    have hu : db.unit = u0 := by
      subst h2
      have := hs1.2
      rw [h4] at this
      cases this
      exact e1
    subst h2
    rw [h4]
    refine ⟨⟨?_, ?_⟩, by simp [GSession.flushed]⟩
    · have := List.mem_of_find?_eq_some h5
      have hn0 : q0.name = n := by simpa using List.find?_some h5
      refine ⟨_, List.mem_map.mpr ⟨q0, this, rfl⟩, ?_⟩
      rw [if_pos hn0]; exact hn0
    · intro q hq hqn
      obtain ⟨p, hp, rfl⟩ := List.mem_map.mp hq
      split_ifs at hqn ⊢ with e
      · rw [hu]; exact ⟨rfl, rfl, rfl⟩
      · exact absurd hqn e
  have hk2 := AllSucceed.keeps (P := fun c => c.leavesJoint n) (fun c hc hq => keepsAt_stable hc hq) hn hcs hk
  obtain ⟨q, e, ex, ey, ez⟩ := (hk2.1.flushAll hk2.2 hs2.2).find
  show (gGetJointCoordinate n s2).1 = _
  rw [gGetJointCoordinate_run hs2, e, e2, ← ex, ← ey, ← ez]

/-- a small database with one joint -/
noncomputable def demoDb : Db := { emptyDb with joints := [⟨"a", 0, 0, 0⟩] }

open Classical in
/-- ids and order of rows for the examples -/
noncomputable def demoEnv : GEnv := ⟨fun n => toString n, fun l => l.insertionSort JointRow.before⟩

-- the hypotheses of the three theorems are met: set in metres, change the unit to millimetres, read
example : ∃ s1 s2, (GCall.setJointCoordinate "a" 1 2 3).run demoEnv (GSession.fresh demoDb 0) = (.ok (.bool true), s1) ∧
    (GCall.getUnit.run demoEnv s1).1 = .ok (.str GUnit.Nm.str) ∧
    AllSucceed demoEnv [.addJoint 5 5 5, .setUnit "N_mm_C"] s1 s2 ∧ (GCall.getUnit.run demoEnv s2).1 = .ok (.str GUnit.Nmm.str) := by
  have hset := gSetJointCoordinate_run (sees_fresh demoDb 0) "a" 1 2 3
  obtain ⟨q, e, _⟩ := find_name (f := fun q : JointRow => q.name) (l := demoDb.joints) (n := "a") (by simp [demoDb])
  rw [e] at hset
  set s1 := ({ (GSession.fresh demoDb 0).flushed demoDb with work := demoDb.moved "a" (1 * demoDb.unit.L) (2 * demoDb.unit.L) (3 * demoDb.unit.L) } : GSession)
  have hs1 : Sees s1 s1.work := ⟨rfl, rfl⟩
  set s2 := ((GCall.addJoint 5 5 5).run demoEnv s1).2
  have e2 : s2 = { s1 with pending := s1.pending ++ [.joint ⟨demoEnv.uuid s1.drawn, 5, 5, 5⟩], drawn := s1.drawn + 1 } := rfl
  have hs2 : Sees s2 { s1.work with joints := s1.work.joints ++ [⟨"0", 5, 5, 5⟩] } := by
    refine ⟨rfl, ?_⟩
    have e0 : demoEnv.uuid s1.drawn = "0" := by show toString (0 : ℕ) = "0"; decide
    have ep : s1.pending = [] := rfl
    rw [e2]
    simp only [e0, ep, List.nil_append, flushAll, Pend.flush]
    rw [if_neg (by simp [s1, Db.moved, demoDb])]
    rfl
  have hs3 := gSetUnit_run hs2 .Nmm
  have hs4 : Sees ((GCall.setUnit "N_mm_C").run demoEnv s2).2 { s1.work with joints := s1.work.joints ++ [⟨"0", 5, 5, 5⟩], unit := .Nmm } := by
    show Sees (gSetUnit GUnit.Nmm.str s2).2 _
    rw [hs3]
    exact ⟨rfl, rfl⟩
  refine ⟨s1, ((GCall.setUnit "N_mm_C").run demoEnv s2).2, hset, ?_, ⟨trivial, ?_, rfl⟩, ?_⟩
  · show (gGetUnit _).1 = _
    rw [gGetUnit_run hs1]; rfl
  · show GCall.succeeded _ (gSetUnit GUnit.Nmm.str s2).1
    rw [hs3]; exact trivial
  · show (gGetUnit _).1 = _
    rw [gGetUnit_run hs4]

/-! ## C92 a call that returns False changes nothing -/

/-- a call that returns False leaves every answer of the model as it was -/
def C92_claim : Prop := ∀ (V : GEnv) (s : GSession) (c : GCall), (c.run V s).1 = .ok (.bool false) → SameAnswers V s (c.run V s).2

/-- What a failing call does instead: it undoes everything since the last `save` (or the last `add_frame_batch`). -/
theorem C92_back_to_save_partial (V : GEnv) (s s1 : GSession) (cs : List GCall) (c : GCall) (hsave : GM.commit s = (.ok (), s1))
    (hcs : ∀ d ∈ cs, ∀ pts sec, d ≠ .addFrameBatch pts sec) (hc : ¬ c.plainReader)
    (hf : (c.run V (gRun V cs s1)).1 = .ok (.bool false)) : SameAnswers V (c.run V (gRun V cs s1)).2 s1 := by
  have hg : c.handler = .guard (.bool false) ∨ ∀ s, (c.run V s).1 ≠ .ok (.bool false) := by
    by_cases he : c.handler = .guard (.bool false)
    · exact Or.inl he
    refine Or.inr fun s h => ?_
    rcases er : c.run V s with ⟨_ | a, s'⟩ <;> rw [er] at h
    · cases h
    have h : a = .bool false := Except.ok.inj h
    subst h
    cases c <;> simp only [GCall.plainReader, not_true_eq_false] at hc <;> try exact absurd rfl he
    case getProjectName =>
      obtain ⟨_, _, _, h2⟩ := bind_ok (caught_ok er (by simp))
      cases h2
    case getJointNames =>
      obtain ⟨_, _, _, h2⟩ := bind_ok (caught_ok er (by simp))
      cases h2
    case getFrameNames =>
      obtain ⟨_, _, _, h2⟩ := bind_ok (guarded_ok er (by simp))
      cases h2
    case getJointNameByCoor =>
      obtain ⟨_, _, _, h2⟩ := bind_ok (guarded_ok er (by simp))
      obtain ⟨_, _, _, h2⟩ := bind_ok h2
      obtain ⟨_, _, _, h2⟩ := bind_ok h2
      cases h2
    case getJointCoordinate =>
      obtain ⟨_, _, _, h2⟩ := bind_ok (guarded_ok er (by simp))
      obtain ⟨_, _, _, h2⟩ := bind_ok h2
      cases h2
    case getFrameEndNames =>
      obtain ⟨_, _, _, h2⟩ := bind_ok (guarded_ok er (by simp))
      cases h2
    case getFrameEndCoors =>
      obtain ⟨_, _, _, h2⟩ := bind_ok (guarded_ok er (by simp))
      obtain ⟨_, _, _, h2⟩ := bind_ok h2
      cases h2
    case addFrame p q sec name =>
      have er : gAddFrame V p q sec name s = _ := er
      unfold gAddFrame at er
      split at er
      · obtain ⟨_, _, _, h2⟩ := bind_ok er
        obtain ⟨_, _, _, h2⟩ := bind_ok h2
        obtain ⟨_, _, _, h2⟩ := bind_ok h2
        obtain ⟨_, _, _, h2⟩ := bind_ok h2
        obtain ⟨_, _, _, h2⟩ := bind_ok h2
        obtain ⟨_, _, _, h2⟩ := bind_ok h2
        obtain ⟨_, _, _, h2⟩ := bind_ok h2
        obtain ⟨_, _, _, h2⟩ := bind_ok h2
        cases h2
      · cases er
    all_goals cases er
  rcases hg with hg | hg
  swap
  · exact absurd hf (hg _)
  have h1 := GCall.rolled_back (V := V) (s := gRun V cs s1) (s' := (c.run V (gRun V cs s1)).2) hg (by rw [← hf])
  obtain ⟨db, _, rfl⟩ := commit_ok hsave
  rw [gRun_committed hcs] at h1
  rw [h1]
  intro g hg
  exact reads_sees hg (sees_fresh _ _) (sees_fresh _ _)

/-- in particular a call that fails right after a `save` changes nothing -/
theorem C92_unchanged_partial (V : GEnv) (s s1 : GSession) (c : GCall) (hsave : GM.commit s = (.ok (), s1)) (hc : ¬ c.plainReader)
    (hf : (c.run V s1).1 = .ok (.bool false)) : SameAnswers V (c.run V s1).2 s1 :=
  C92_back_to_save_partial V s s1 [] c hsave (by simp) hc hf

theorem C92_false : ¬ C92_claim := by
  intro h
  have h1 := h demoEnv ((GCall.addJoint 0 0 0).run demoEnv (GSession.fresh emptyDb 0)).2 (.deleteJoint "x") rfl .getJointNames trivial
  have h2 : (GCall.getJointNames.run demoEnv ((GCall.addJoint 0 0 0).run demoEnv (GSession.fresh emptyDb 0)).2).1 = .ok (.names ["0"]) := by
    refine (C91_added demoEnv (GSession.fresh emptyDb 0) _ "0" 0 0 0 .Nm [] ?_ rfl (by simp) ?_).1
    · show (gGetJointNames _).1 = _
      rw [gGetJointNames_run (sees_fresh _ _)]; rfl
    · show (gGetUnit _).1 = _
      rw [gGetUnit_run (sees_fresh _ _)]; rfl
  rw [h2] at h1
  have h3 : (GCall.getJointNames.run demoEnv (GSession.fresh emptyDb 1)).1 = .ok (.names []) := by
    show (gGetJointNames _).1 = _
    rw [gGetJointNames_run (sees_fresh _ _)]; rfl
  have h4 : ((GCall.deleteJoint "x").run demoEnv ((GCall.addJoint 0 0 0).run demoEnv (GSession.fresh emptyDb 0)).2).2 = GSession.fresh emptyDb 1 := rfl
  rw [h4, h3] at h1
  simp at h1

-- the hypotheses are met: save, add a joint, then a call that fails; and a call that fails at once
example : ∃ s1, GM.commit (GSession.fresh demoDb 0) = (.ok (), s1) ∧
    ((GCall.deleteJoint "a").run demoEnv (gRun demoEnv [.addJoint 0 0 0] s1)).1 = .ok (.bool false) ∧
    ((GCall.deleteJoint "a").run demoEnv s1).1 = .ok (.bool false) := ⟨_, (sees_fresh _ _).commit, rfl, rfl⟩

/-! ## C93 what was saved is there after a restart -/

theorem act_store_call {V : GEnv} (c : GCall) (ds : GDisk × GSession) : ((GAct.call c).run V ds).1.store = ds.1.store := rfl

theorem act_store_failed {V : GEnv} {ds : GDisk × GSession} (h : ∀ u, (GM.commit ds.2).1 ≠ .ok u) : (GAct.save.run V ds).1.store = ds.1.store := by
  obtain ⟨d, s⟩ := ds
  show (match GM.commit s with | (.ok _, s') => _ | (.error _, s') => _ : GDisk × GSession).1.store = _
  rcases e : GM.commit s with ⟨_ | u, s'⟩
  · rfl
  · exact absurd (by rw [e]) (h u)

theorem nothingSaved_store {V : GEnv} {acts : List GAct} {ds : GDisk × GSession} (h : NothingSaved V acts ds) :
    (acts.foldl (fun ds a => a.run V ds) ds).1.store = ds.1.store := by
  induction acts generalizing ds with
  | nil => rfl
  | cons a t ih =>
    rw [List.foldl_cons, ih h.2]
    cases a with
    | call c => rfl
    | save => exact act_store_failed (h.1 rfl)

theorem end_store {e : GEnd} (he : e ≠ .crashCopying) (ds : GDisk × GSession) : (e.run ds).store = ds.1.store := by
  cases e <;> first | rfl | exact absurd rfl he

theorem opensLike_of_store {V : GEnv} {d : GDisk} {db : Db} {s : GSession} (h : d.store = .whole db) (hs : Sees s db) : OpensLike V d s := by
  refine ⟨{ d with op := .whole db }, GSession.fresh db d.drawn, ?_, fun g hg => reads_sees hg (sees_fresh _ _) hs⟩
  unfold gOpen; rw [h]

/-- After a `save` that succeeded, whatever is done later without a successful `save`, and however the program ends (except a crash while
the file is being copied): the file opens to what was there when it was saved. -/
theorem C93_saved (V : GEnv) (d d0 : GDisk) (s0 : GSession) (pre post : List GAct) (e : GEnd) (he : e ≠ .crashCopying)
    (hopen : gOpen d = .ok (d0, s0)) (st : GDisk × GSession) (hst : pre.foldl (fun ds a => a.run V ds) (d0, s0) = st) (u : Unit)
    (hsave : (GM.commit st.2).1 = .ok u) (hpost : NothingSaved V post (GAct.save.run V st)) :
    OpensLike V (gVisit V d (pre ++ GAct.save :: post) e) (GAct.save.run V st).2 := by
  obtain ⟨d1, s1⟩ := st
  rcases ec : GM.commit s1 with ⟨_ | v, s2⟩
  · rw [ec] at hsave; cases hsave
  obtain ⟨db, hs, rfl⟩ := commit_ok ec
  have hrun : GAct.save.run V (d1, s1) = ({ d1 with op := .whole db, store := .whole db }, GSession.fresh db s1.drawn) := by
    show (match GM.commit s1 with | (.ok _, s') => _ | (.error _, s') => _ : GDisk × GSession) = _
    rw [ec]; rfl
  refine opensLike_of_store (db := db) ?_ (by rw [hrun]; exact sees_fresh _ _)
  unfold gVisit
  rw [hopen]
  simp only [List.foldl_append, List.foldl_cons, hst]
  rw [end_store he, nothingSaved_store hpost, hrun]

/-- Without a successful `save` the file opens to what it held before. -/
theorem C93_not_saved (V : GEnv) (d d0 : GDisk) (s0 : GSession) (acts : List GAct) (e : GEnd) (he : e ≠ .crashCopying)
    (hopen : gOpen d = .ok (d0, s0)) (hacts : NothingSaved V acts (d0, s0)) : OpensLike V (gVisit V d acts e) s0 := by
  unfold gOpen at hopen
  rcases hd : d.store with _ | _ | db <;> rw [hd] at hopen
  · cases hopen
  · cases hopen
  simp only [Except.ok.injEq, Prod.mk.injEq] at hopen
  obtain ⟨rfl, rfl⟩ := hopen
  refine opensLike_of_store (db := db) ?_ (sees_fresh _ _)
  unfold gVisit gOpen
  rw [hd]
  rw [end_store he, nothingSaved_store hacts]

-- the hypotheses of both theorems are met: open, add a joint, save, add another joint
example : ∃ st, [GAct.call (.addJoint 1 1 1)].foldl (fun ds a => a.run demoEnv ds) ((⟨.whole demoDb, .whole demoDb, 0⟩ : GDisk), GSession.fresh demoDb 0) = st ∧
    (∃ u, (GM.commit st.2).1 = .ok u) ∧ NothingSaved demoEnv [.call (.addJoint 2 2 2)] (GAct.save.run demoEnv st) ∧
    gOpen ⟨.whole demoDb, .absent, 0⟩ = .ok (⟨.whole demoDb, .whole demoDb, 0⟩, GSession.fresh demoDb 0) ∧
    NothingSaved demoEnv [.call (.addJoint 2 2 2)] ((⟨.whole demoDb, .whole demoDb, 0⟩ : GDisk), GSession.fresh demoDb 0) := by
  refine ⟨_, rfl, ⟨(), ?_⟩, ⟨by simp, trivial⟩, rfl, ⟨by simp, trivial⟩⟩
  have h : Sees (((GCall.addJoint 1 1 1).run demoEnv (GSession.fresh demoDb 0)).2) { demoDb with joints := demoDb.joints ++ [⟨demoEnv.uuid 0, 1, 1, 1⟩] } := by
    refine ⟨rfl, ?_⟩
    show flushAll demoDb [.joint ⟨demoEnv.uuid 0, 1, 1, 1⟩] = _
    have e0 : demoEnv.uuid 0 = "0" := by show toString (0 : ℕ) = "0"; decide
    simp only [e0, flushAll, Pend.flush]
    rw [if_neg (by simp [demoDb])]
    rfl
  show (GM.commit (((GCall.addJoint 1 1 1).run demoEnv (GSession.fresh demoDb 0)).2)).1 = _
  rw [h.commit]

/-- the claim for a crash inside `save`: the file opens to the content before or after -/
def C93_claim : Prop := ∀ (V : GEnv) (d d0 : GDisk) (s0 : GSession) (acts : List GAct) (e : GEnd), gOpen d = .ok (d0, s0) →
  NothingSaved V acts (d0, s0) → OpensLike V (gVisit V d acts e) s0 ∨
    OpensLike V (gVisit V d acts e) (acts.foldl (fun ds a => a.run V ds) (d0, s0)).2

theorem C93_false : ¬ C93_claim := by
  intro h
  have := h demoEnv ⟨.whole emptyDb, .absent, 0⟩ _ _ [] .crashCopying rfl trivial
  rcases this with ⟨d', s', h1, _⟩ | ⟨d', s', h1, _⟩ <;>
  · have h1 : (Except.error PyErr.osError : Except PyErr (GDisk × GSession)) = .ok (d', s') := h1
    cases h1

end Hyperstatic
