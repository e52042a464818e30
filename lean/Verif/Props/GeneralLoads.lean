import Verif.Props.GeneralData
import Verif.Lemmas.GeneralCreate

/-
Properties of the database front end: loads on joints, restraints, deletes.
-/

namespace Hyperstatic
open GM

/-! ## C94, a case that meets its hypotheses -/

/-- `add_frame` in a new model -/
theorem frame_witness : ∃ s db, Lived demoEnv s ∧ Sees s db ∧ db.joints = [⟨"0", 0, 0, 0⟩, ⟨"1", 1, 0, 0⟩] ∧
    db.frames = [⟨"f", "1-L-H400x200x14x20", "0", "1", true⟩] ∧ db.restrs = [] ∧ db.jloads = [] ∧ db.unit = .Nm := by
  obtain ⟨d, hL, st⟩ := lived_new demoEnv
  have e0 : demoEnv.uuid 0 = "0" := by show toString (0 : ℕ) = "0"; decide
  have e1 : demoEnv.uuid 1 = "1" := by show toString (1 : ℕ) = "1"; decide
  have hs := sees_fresh d 0
  obtain ⟨q, hq, -⟩ := find_name (f := fun q : SecRow => q.name) (l := d.secs) (n := "1-L-H400x200x14x20") (by rw [st.secs]; simp)
  have hf : (d.frames.find? fun q => q.name = "f") = none := by simp [st.frames]
  have hs1 : Sees { (GSession.fresh d 0).flushed d with pending := [.joint ⟨"0", 0, 0, 0⟩], drawn := 1 } { d with joints := [⟨"0", 0, 0, 0⟩] } := by
    refine ⟨rfl, ?_⟩
    show flushAll d _ = _
    rw [flushAll_one (flush_joint (by simp [st.joints]))]
    simp [st.joints]
  have r0 : gFindOrAdd demoEnv d.tol (0 * d.unit.L) (0 * d.unit.L) (0 * d.unit.L) ((GSession.fresh d 0).flushed d) =
      (.ok "0", { (GSession.fresh d 0).flushed d with pending := [.joint ⟨"0", 0, 0, 0⟩], drawn := 1 }) := by
    rcases gFindOrAdd_run demoEnv hs.flushed d.tol (0 * d.unit.L) (0 * d.unit.L) (0 * d.unit.L) with ⟨q, hq, -⟩ | ⟨-, h⟩
    · simp [st.joints] at hq
    · rw [h]
      show (Except.ok (demoEnv.uuid 0), _) = _
      rw [e0]
      simp only [zero_mul]
      rw [show demoEnv.uuid ((GSession.fresh d 0).flushed d).drawn = "0" from e0]
      rfl
  have r1 : gFindOrAdd demoEnv d.tol 1 0 0 { (GSession.fresh d 0).flushed d with pending := [.joint ⟨"0", 0, 0, 0⟩], drawn := 1 } =
      (.ok "1", { (GSession.fresh d 0).flushed { d with joints := [⟨"0", 0, 0, 0⟩] } with pending := [.joint ⟨"1", 1, 0, 0⟩], drawn := 2 }) := by
    rcases gFindOrAdd_run demoEnv hs1 d.tol 1 0 0 with ⟨q, hq, hn, -⟩ | ⟨-, h⟩
    · simp only [List.mem_singleton] at hq
      subst hq
      have := hn.2.1
      rw [st.tol] at this
      norm_num at this
    · rw [h]
      show (Except.ok (demoEnv.uuid 1), _) = _
      rw [e1]
      show _ = (Except.ok "1", ({ (GSession.fresh d 0).flushed { d with joints := [⟨"0", 0, 0, 0⟩] } with pending := [.joint ⟨"1", 1, 0, 0⟩], drawn := 2 } : GSession))
      rw [← e1]
      rfl
  have hrun : gAddFrame demoEnv [0, 0, 0] [1, 0, 0] "1-L-H400x200x14x20" (some "f") (GSession.fresh d 0) =
      (.ok (.str "f"), { (GSession.fresh d 0).flushed { d with joints := [⟨"0", 0, 0, 0⟩] } with
        pending := [.joint ⟨"1", 1, 0, 0⟩, .frame ⟨"f", "1-L-H400x200x14x20", "0", "1", true⟩], drawn := 3 }) := by
    have hnf : gFrameNameFree (some "f") (GSession.fresh d 0) = (.ok (), (GSession.fresh d 0).flushed d) := by
      unfold gFrameNameFree
      simp only [show ("f" : String) ≠ "" by decide, if_false, bind_run, hs.query, hf, Option.isNone_none, check_true trivial]
    have hse : sortEnds "0" "1" = some ("0", "1", true) := by
      unfold sortEnds
      rw [if_pos (by decide)]
    unfold gAddFrame
    simp only [bind_run, hnf, hs.query_flushed, hq, need_some, gScale_run hs.flushed, flushed_flushed, r0, r1, hse]
    simp only [addNew, frameName, pure_run, show ("f" : String) ≠ "" by decide, if_false]
    rfl
  refine ⟨((GCall.addFrame [0, 0, 0] [1, 0, 0] "1-L-H400x200x14x20" (some "f")).run demoEnv (GSession.fresh d 0)).2,
    { d with joints := [⟨"0", 0, 0, 0⟩, ⟨"1", 1, 0, 0⟩], frames := [⟨"f", "1-L-H400x200x14x20", "0", "1", true⟩] }, hL.call _, ?_, rfl, rfl, st.restrs, st.jloads, st.unit⟩
  rw [show (GCall.addFrame [0, 0, 0] [1, 0, 0] "1-L-H400x200x14x20" (some "f")).run demoEnv (GSession.fresh d 0) = _ from hrun]
  refine ⟨rfl, ?_⟩
  show flushAll { d with joints := [⟨"0", 0, 0, 0⟩] } _ = _
  rw [flushAll_two (flush_joint (by simp)) (flush_frame (by simp [st.frames]))]
  simp [st.frames]

/-- the hypotheses of `C94_no_name_twice` and `C94_two_ends` are met -/
example : ∃ s, Lived demoEnv s ∧ ((GCall.getFrameEndNames "f").run demoEnv s).1 = .ok (.two "0" "1") ∧
    (GCall.getJointNames.run demoEnv s).1 = .ok (.names ["0", "1"]) := by
  obtain ⟨s, db, hL, hs, hj, hf, -⟩ := frame_witness
  refine ⟨s, hL, ?_, ?_⟩
  · show (gGetFrameEndNames "f" s).1 = _
    have he : frameEnds db "f" = some (⟨"0", 0, 0, 0⟩, ⟨"1", 1, 0, 0⟩) := by
      unfold frameEnds
      simp [hf, hj]
    rw [gGetFrameEndNames_run hs, he]
  · refine (GKind.list_run hs .joint).trans ?_
    simp [GKind.names, hj]

/-! ## C95 loads on joints -/

/-- no load on a joint has a value -/
def Unloaded (db : Db) : Prop := ∀ q ∈ db.jloads, ∀ i, q.val i = none

/-- a pending load has no value -/
def Pend.unloaded : Pend → Prop
  | .jload r => ∀ i, r.val i = none
  | _ => True

theorem unloaded_lasting : Lasting Unloaded Pend.unloaded where
  flush db p db' h hp e := by
    cases p <;> simp only [Pend.flush] at e <;> (try split_ifs at e) <;> cases e <;> try exact h
    intro q hq i
    simp only [List.mem_append, List.mem_singleton] at hq
    rcases hq with hq | rfl
    · exact h q hq i
    · exact hp i
  add c p hp := by
    cases c <;> simp only [GCall.mayAdd] at hp <;> try exact absurd hp id
    all_goals first
      | (subst hp; exact fun _ => rfl)
      | (subst hp; trivial)
      | (rcases hp with ⟨_, _, rfl⟩ | ⟨_, rfl⟩ <;> trivial)
      | (rcases hp with rfl | rfl <;> trivial)
      | (obtain ⟨_, rfl⟩ := hp; trivial)
      | (obtain ⟨_, rfl, _⟩ := hp; trivial)
      | (obtain ⟨_, _, rfl⟩ := hp; trivial)
  new c mk n hp := by
    cases c <;> simp only [GCall.mayNew] at hp <;> try exact absurd hp id
    all_goals first
      | (subst hp; trivial)
      | (rcases hp with ⟨_, _, _, rfl⟩ | ⟨_, _, _, _, rfl⟩ <;> trivial)
  upd c f db hp h := by
    cases c <;> simp only [GCall.mayUpd] at hp <;> try exact absurd hp id
    all_goals first
      | (subst hp; exact h)
      | (obtain ⟨_, rfl⟩ := hp; exact h)
      | (obtain ⟨_, _, _, rfl⟩ := hp; exact h)

theorem unloaded_empty : Unloaded emptyDb := by intro q hq; simp [emptyDb] at hq

/-- A load set on a joint is, in SI, among the loads the analysis reads for its case. -/
def C95_claim : Prop := ∀ (V : GEnv) (s s1 : GSession) (j c : String) (load : Fin 6 → ℝ) (db : Db), Lived V s →
  (GCall.setJointLoad j c (List.ofFn load)).run V s = (.ok (.bool true), s1) → Sees s1 db →
  (j, fun i => load i * db.unit.loadFactor i) ∈ gJointLoads db c

theorem gSetJointLoad_run {s s1 : GSession} {j c : String} {load : List ℝ} (h : gSetJointLoad j c load s = (.ok (.bool true), s1)) :
    load.length = 6 ∧ ∃ db, Sees s db ∧ j ∈ db.joints.map (fun q => q.name) ∧
      (((∃ q ∈ db.jloads, q.joint = j ∧ q.case = c) ∧ s1 = s.flushed db) ∨
      ((¬ ∃ q ∈ db.jloads, q.joint = j ∧ q.case = c) ∧ s1 = { s.flushed db with pending := [.jload ⟨j, c, fun _ => none⟩] })) := by
  replace h := guarded_ok h (by simp)
  obtain ⟨u, t0, h1, h2⟩ := bind_ok h
  obtain ⟨hl, rfl⟩ := check_ok h1
  clear h h1
  obtain ⟨q, t, h1, h⟩ := bind_ok h2
  obtain ⟨hs, ht, hq⟩ := lookup_ok h1
  generalize t.work = db at hs ht hq
  subst ht
  simp only [bind_run, hs.flushed.query, flushed_flushed, gScale_run hs.flushed] at h
  refine ⟨hl, db, hs, List.mem_map.mpr ⟨q, List.mem_of_find?_eq_some hq, by simpa using List.find?_some hq⟩, ?_⟩
  rcases e : db.jloads.find? fun q => q.joint = j ∧ q.case = c with _ | r
  · right
    simp only [e, Option.isNone_none, if_true, add_run, pure_run, Prod.mk.injEq, true_and] at h
    refine ⟨?_, h.symm⟩
    rintro ⟨q, hq, h1, h2⟩
    have := List.find?_eq_none.mp e q hq
    simp [h1, h2] at this
  · left
    simp only [e, Option.isNone_some, Bool.false_eq_true, if_false, pure_run, Prod.mk.injEq, true_and] at h
    exact ⟨⟨r, List.mem_of_find?_eq_some e, by simpa using List.find?_some e⟩, h.symm⟩

/-- Setting a load on a joint makes an entry for the joint in its case, but in no life of a model does any entry hold anything but zero. -/
theorem C95_entry_partial (V : GEnv) (s s1 : GSession) (j c : String) (load : List ℝ) (db : Db) (hs : Lived V s)
    (h : (GCall.setJointLoad j c load).run V s = (.ok (.bool true), s1)) (h1 : Sees s1 db) :
    (j, fun _ => 0) ∈ gJointLoads db c ∧ ∀ e ∈ gJointLoads db c, ∀ i, e.2 i = 0 := by
  have hk := unloaded_lasting.lived unloaded_empty hs
  have hk1 : Kept Unloaded Pend.unloaded s1 := by
    have := hk.call (V := V) unloaded_lasting (.setJointLoad j c load)
    rw [h] at this; exact this
  have hu := hk1.sees unloaded_lasting h1
  have hz : ∀ e ∈ gJointLoads db c, ∀ i, e.2 i = 0 := by
    intro e he i
    obtain ⟨q, hq, rfl⟩ := List.mem_map.mp he
    simp [hu q (List.mem_filter.mp hq).1 i]
  refine ⟨?_, hz⟩
  have hrow : ∃ q ∈ db.jloads, q.joint = j ∧ q.case = c := by
    obtain ⟨-, d, hd, -, ⟨hq, rfl⟩ | ⟨hq, rfl⟩⟩ := gSetJointLoad_run h
    · cases hd.flushed.unique h1; exact hq
    · have h1 := h1.2
      have h2 : flushAll d [Pend.jload ⟨j, c, fun _ => none⟩] = some db := h1
      rw [flushAll_one (flush_jload hq)] at h2
      cases h2
      exact ⟨_, List.mem_append_right _ (List.mem_singleton.mpr rfl), rfl, rfl⟩
  obtain ⟨q, hq, rfl, rfl⟩ := hrow
  have hm : (q.joint, fun i => (q.val i).getD 0) ∈ gJointLoads db q.case := List.mem_map.mpr ⟨q, List.mem_filter.mpr ⟨hq, by simp⟩, rfl⟩
  have : (fun i => (q.val i).getD 0) = fun _ : Fin 6 => (0 : ℝ) := funext fun i => hz _ hm i
  rw [this] at hm; exact hm

/-- a joint of a new model is loaded -/
theorem load_witness (load : List ℝ) (hl : load.length = 6) : ∃ s s1 db, Lived demoEnv s ∧
    (GCall.setJointLoad "0" "S" load).run demoEnv s = (.ok (.bool true), s1) ∧ Sees s1 db ∧ db.unit = .Nm := by
  obtain ⟨d, hL, st⟩ := lived_new demoEnv
  have e0 : demoEnv.uuid 0 = "0" := by show toString (0 : ℕ) = "0"; decide
  have hs : Sees ((GCall.addJoint 1 2 3).run demoEnv (GSession.fresh d 0)).2 { d with joints := d.joints ++ [⟨"0", 1, 2, 3⟩] } := by
    refine ⟨rfl, ?_⟩
    show flushAll d [.joint ⟨demoEnv.uuid 0, 1, 2, 3⟩] = _
    rw [e0]
    exact flushAll_one (flush_joint (by rw [st.joints]; simp))
  set s := ((GCall.addJoint 1 2 3).run demoEnv (GSession.fresh d 0)).2
  set db : Db := { d with joints := d.joints ++ [⟨"0", 1, 2, 3⟩] }
  have hj : (db.joints.find? fun q => q.name = "0") = some ⟨"0", 1, 2, 3⟩ := by simp [db, st.joints]
  have hr : gSetJointLoad "0" "S" load s = (.ok (.bool true), { s.flushed db with pending := [.jload ⟨"0", "S", fun _ => none⟩] }) := by
    have hn : (db.jloads.find? fun q => q.joint = "0" ∧ q.case = "S") = none := by simp [db, st.jloads]
    unfold gSetJointLoad guarded
    simp only [bind_run, check_true hl, hs.query, hj, need_some, hs.query_flushed, hn, gScale_run hs.flushed, flushed_flushed, Option.isNone_none, if_true, add_run, pure_run]
    rfl
  refine ⟨s, _, { db with jloads := db.jloads ++ [⟨"0", "S", fun _ => none⟩] }, hL.call _, hr, hs.with_pending (flushAll_one ?_), st.unit⟩
  simp only [Pend.flush]
  rw [if_neg (by simp [db, st.jloads])]

theorem C95_false : ¬ C95_claim := by
  intro h
  obtain ⟨s, s1, db, hL, hr, hs, hu⟩ := load_witness (List.ofFn fun _ : Fin 6 => (1 : ℝ)) (by simp)
  have h1 := h demoEnv s s1 "0" "S" _ db hL hr hs
  have h2 := (C95_entry_partial demoEnv s s1 "0" "S" _ db hL hr hs).2 _ h1 0
  simp [hu, GUnit.loadFactor, GUnit.newtons] at h2

example : ∃ s s1 db, Lived demoEnv s ∧ (GCall.setJointLoad "0" "S" [1, 2, 3, 4, 5, 6]).run demoEnv s = (.ok (.bool true), s1) ∧ Sees s1 db := by
  obtain ⟨s, s1, db, hL, hr, hs, -⟩ := load_witness [1, 2, 3, 4, 5, 6] rfl
  exact ⟨s, s1, db, hL, hr, hs⟩

/-! ## C96 restraints -/

/-- the call does not set the restraints of joint `j` -/
def GCall.leavesRestraint (j : String) : GCall → Prop
  | .setJointRestraint m _ => m ≠ j
  | .setJointRestraintBatch ms _ => j ∉ ms
  | _ => True

/-- the rows of joint `j` -/
def restrRows (j : String) (l : List RestrRow) : List RestrRow := l.filter fun q => q.joint = j

/-- what a pending object does to the rows of joint `j` -/
def restrStep (j : String) (l : List RestrRow) : Pend → List RestrRow
  | .restr r => if r.joint = j then l ++ [r] else l
  | .delRestr n => if n = j then [] else l
  | _ => l

/-- the restraints in the rows of one joint -/
def restrOf (l : List RestrRow) : Fin 6 → Bool := match l.head? with
  | some q => q.fixed
  | none => fun _ => false

theorem gFixed_rows (db : Db) (j : String) : gFixed db j = restrOf (restrRows j db.restrs) := by
  unfold gFixed restrOf restrRows
  rw [List.head?_filter]
  generalize List.find? _ _ = o
  cases o <;> rfl

theorem restrRows_flush {j : String} {db db' : Db} {p : Pend} (e : p.flush db = some db') : restrRows j db'.restrs = restrStep j (restrRows j db.restrs) p := by
  cases p with
  | restr r =>
    simp only [Pend.flush] at e
    split_ifs at e
    cases e
    simp only [restrStep, restrRows]
    rw [List.filter_append]
    split_ifs with h <;> simp [h]
  | delRestr n =>
    simp only [Pend.flush] at e
    cases e
    simp only [restrStep, restrRows]
    rw [List.filter_filter]
    split_ifs with h
    · rw [List.filter_eq_nil_iff]; intro q _ hq; simp [h] at hq
    · refine List.filter_congr fun q _ => ?_
      by_cases hq : q.joint = j
      · simp [hq, Ne.symm h]
      · simp [hq]
  | _ =>
    simp only [Pend.flush] at e
    (try split_ifs at e) <;> cases e <;> rfl

theorem restrRows_flushAll {j : String} {db db' : Db} {ps : List Pend} (e : flushAll db ps = some db') :
    restrRows j db'.restrs = ps.foldl (restrStep j) (restrRows j db.restrs) := by
  induction ps generalizing db with
  | nil => cases e; rfl
  | cons p t ih =>
    simp only [flushAll] at e
    rcases e1 : p.flush db with _ | d <;> rw [e1] at e
    · cases e
    · rw [ih e, List.foldl_cons, restrRows_flush e1]

/-- the rows of joint `j` once everything pending is flushed -/
def restrSeen (j : String) (s : GSession) : List RestrRow := s.pending.foldl (restrStep j) (restrRows j s.work.restrs)

theorem restr_stable {V : GEnv} {j : String} {f : Fin 6 → Bool} {c : GCall} (hc : c.leavesRestraint j) (hq : ∀ code, c ≠ .addMaterialQuick code) :
    Stable V (fun s => restrOf (restrSeen j s) = f) (fun _ => True) c where
  weak _ _ := trivial
  ok s db h _ e := by
    show restrOf (restrRows j db.restrs) = f
    rw [restrRows_flushAll e]; exact h
  err _ _ := trivial
  quick code e := absurd e (hq code)
  add p hp s h := by
    have : restrStep j (restrSeen j s) p = restrSeen j s := by
      cases c <;> simp only [GCall.mayAdd, GCall.leavesRestraint] at hp hc <;> try exact absurd hp id
      case setJointRestraint m r => rcases hp with rfl | rfl <;> simp [restrStep, hc]
      case setJointRestraintBatch ms r =>
        obtain ⟨m, hm, rfl⟩ := hp
        have : m ≠ j := fun e => hc (e ▸ hm)
        simp [restrStep, this]
      all_goals first
        | (subst hp; rfl)
        | (rcases hp with ⟨_, _, rfl⟩ | ⟨_, rfl⟩ <;> rfl)
        | (obtain ⟨_, rfl⟩ := hp; rfl)
        | (obtain ⟨_, rfl, _⟩ := hp; rfl)
    show restrOf ((s.pending ++ [p]).foldl (restrStep j) _) = f
    rw [List.foldl_append]
    show restrOf (restrStep j (restrSeen j s) p) = f
    rw [this]; exact h
  new mk hmk s h := by
    have : restrStep j (restrSeen j s) (mk (V.uuid s.drawn)) = restrSeen j s := by
      cases c <;> simp only [GCall.mayNew] at hmk <;> try exact absurd hmk id
      all_goals first
        | (subst hmk; rfl)
        | (rcases hmk with ⟨_, _, _, rfl⟩ | ⟨_, _, _, _, rfl⟩ <;> rfl)
    show restrOf ((s.pending ++ [_]).foldl (restrStep j) _) = f
    rw [List.foldl_append]
    show restrOf (restrStep j (restrSeen j s) _) = f
    rw [this]; exact h
  upd g hg s h := by
    have : restrRows j (g s.work).restrs = restrRows j s.work.restrs := by
      cases c <;> simp only [GCall.mayUpd, GCall.leavesRestraint] at hg hc <;> try exact absurd hg id
      case setJointRestraint m r =>
        subst hg
        simp only [restrRows]
        induction s.work.restrs with
        | nil => rfl
        | cons q t ih =>
          rw [List.map_cons]
          by_cases hm : q.joint = m
          · have hj : q.joint ≠ j := fun e => hc (hm.symm.trans e)
            rw [if_pos hm, List.filter_cons_of_neg (by simpa using hj), List.filter_cons_of_neg (by simpa using hj), ih]
          · rw [if_neg hm, List.filter_cons, List.filter_cons, ih]
      all_goals first
        | (subst hg; rfl)
        | (obtain ⟨_, rfl⟩ := hg; rfl)
        | (obtain ⟨_, _, _, rfl⟩ := hg; rfl)
    show restrOf (s.pending.foldl (restrStep j) (restrRows j (g s.work).restrs)) = f
    rw [this]; exact h
  commit _ _ _ s h := h

theorem six_get {r : List Bool} (hr : r.length = 6) (i : Fin 6) : r[i.val]? = some (six r i) := by
  have : i.val < r.length := by rw [hr]; exact i.2
  simp [six, List.getD, this]

theorem gSetJointRestraint_rows {s s1 : GSession} {j : String} {r : List Bool} (h : gSetJointRestraint j r s = (.ok (.bool true), s1)) :
    r.length = 6 ∧ restrOf (restrSeen j s1) = six r := by
  replace h := guarded_ok h (by simp)
  obtain ⟨u, t0, h1, h2⟩ := bind_ok h
  obtain ⟨hl, rfl⟩ := check_ok h1
  clear h h1
  refine ⟨hl, ?_⟩
  obtain ⟨q, t, h1, h⟩ := bind_ok h2
  obtain ⟨hs, ht, hq⟩ := lookup_ok h1
  clear h2 h1
  generalize t.work = db at hs ht hq
  subst ht
  simp only [bind_run, hs.flushed.query, flushed_flushed] at h
  rcases e : db.restrs.find? fun q => q.joint = j with _ | p
  · simp only [e, Option.isNone_none, if_true, add_run, pure_run, Prod.mk.injEq, true_and] at h
    subst h
    have hn : restrRows j db.restrs = [] := by
      rw [restrRows, List.filter_eq_nil_iff]; exact List.find?_eq_none.mp e
    show restrOf ([Pend.restr ⟨j, six r⟩].foldl (restrStep j) (restrRows j db.restrs)) = _
    simp [hn, restrStep, restrOf]
  · simp only [e, Option.isNone_some, Bool.false_eq_true, if_false] at h
    by_cases hz : ¬ ∃ i, six r i = true
    · rw [if_pos hz] at h
      simp only [add_run, pure_run, Prod.mk.injEq, true_and] at h
      subst h
      show restrOf ([Pend.delRestr j].foldl (restrStep j) (restrRows j db.restrs)) = _
      funext i
      have : six r i = false := by
        by_contra hh; exact hz ⟨i, by simpa using hh⟩
      simp [restrStep, restrOf, this]
    · rw [if_neg hz] at h
      simp only [update_run, pure_run, Prod.mk.injEq, true_and] at h
      subst h
      show restrOf (restrRows j (db.restrs.map _)) = _
      unfold restrOf restrRows
      rw [List.head?_filter]
      have hp := List.mem_of_find?_eq_some e
      have hpj : p.joint = j := by simpa using List.find?_some e
      rcases e2 : (db.restrs.map fun q => if q.joint = j then ({ q with fixed := six r } : RestrRow) else q).find? fun q => q.joint = j with _ | p2
      · have := List.find?_eq_none.mp e2 _ (List.mem_map.mpr ⟨p, hp, rfl⟩)
        simp [hpj] at this
      · have h1 := List.mem_of_find?_eq_some e2
        have h2 : p2.joint = j := by simpa using List.find?_some e2
        obtain ⟨p3, -, rfl⟩ := List.mem_map.mp h1
        rw [e2]
        split_ifs at h2 ⊢ with h3
        · rfl
        · exact absurd h2 h3

/-- After a successful `set_joint_restraint`, and any calls that report no failure and do not set the restraints of the joint, the analysis
fixes exactly the degrees of freedom that were given. -/
theorem C96_last (V : GEnv) (s s1 s2 : GSession) (j : String) (r : List Bool) (cs : List GCall) (db : Db)
    (hset : (GCall.setJointRestraint j r).run V s = (.ok (.bool true), s1)) (hcs : AllSucceed V cs s1 s2)
    (hn : ∀ c ∈ cs, c.leavesRestraint j) (hs : Sees s2 db) : ∀ i : Fin 6, r[i.val]? = some (gFixed db j i) := by
  obtain ⟨hl, h1⟩ := gSetJointRestraint_rows hset
  have h2 := AllSucceed.keeps (I := fun s => restrOf (restrSeen j s) = six r) (P := fun c => c.leavesRestraint j)
    (fun c hc hq => restr_stable hc hq) hn hcs h1
  intro i
  rw [six_get hl, gFixed_rows, restrRows_flushAll hs.2]
  exact congrArg some (congrFun h2 i).symm

/-- `set_joint_restraint_batch` gives every listed joint the given restraints. -/
def C96_claim : Prop := ∀ (V : GEnv) (s s1 : GSession) (js l : List String) (r : List Bool), Lived V s →
  (GCall.getJointNames.run V s).1 = .ok (.names l) → (∀ j ∈ js, j ∈ l) →
  (GCall.setJointRestraintBatch js r).run V s = (.ok (.bool true), s1) →
  ∃ db, Sees s1 db ∧ ∀ j ∈ js, ∀ i : Fin 6, r[i.val]? = some (gFixed db j i)

theorem forM_add {α : Type} (mk : α → Pend) (l : List α) (s : GSession) : (l.forM fun j => add (mk j)) s = (.ok (), { s with pending := s.pending ++ l.map mk }) := by
  induction l generalizing s with
  | nil => simp [pure_run]
  | cons j t ih =>
    show ((add (mk j) : GM Unit) >>= fun _ => t.forM fun j => add (mk j)) s = _
    refine (bind_run _ _ s).trans ?_
    rw [add_run]
    simp only [ih]
    simp

theorem gSetJointRestraintBatch_run {s s1 : GSession} {js : List String} {r : List Bool} (h : gSetJointRestraintBatch js r s = (.ok (.bool true), s1)) :
    r.length = 6 ∧ s1 = { s with pending := s.pending ++ js.map fun j => .restr ⟨j, six r⟩ } := by
  replace h := guarded_ok h (by simp)
  obtain ⟨u, t0, h1, h2⟩ := bind_ok h
  obtain ⟨hl, rfl⟩ := check_ok h1
  refine ⟨hl, ?_⟩
  rw [bind_run, forM_add] at h2
  simp only [pure_run, Prod.mk.injEq, true_and] at h2
  exact h2.symm

theorem flush_restrs {js : List String} (hj : js.Nodup) (f : Fin 6 → Bool) {db : Db} (hn : ∀ j ∈ js, j ∉ db.restrs.map fun q => q.joint) :
    flushAll db (js.map fun j => .restr ⟨j, f⟩) = some { db with restrs := db.restrs ++ js.map fun j => ⟨j, f⟩ } := by
  induction js generalizing db with
  | nil => simp [flushAll]
  | cons j t ih =>
    rw [List.map_cons, flushAll, flush_restr (hn j (by simp)), Option.bind_some]
    rw [List.nodup_cons] at hj
    rw [ih hj.2]
    · simp
    · intro k hk
      have := hn k (by simp [hk])
      have hkj : k ≠ j := fun e => hj.1 (e ▸ hk)
      simp only [List.map_append, List.map_cons, List.map_nil, List.mem_append, List.mem_singleton, not_or]
      exact ⟨this, hkj⟩

/-- `set_joint_restraint_batch` gives every listed joint the given restraints when no joint is listed twice and none has a restraint yet.
Missing: joints that have a restraint. -/
theorem C96_batch_partial (V : GEnv) (s s1 : GSession) (js : List String) (r : List Bool) (db : Db) (hs : Sees s db) (hj : js.Nodup)
    (hn : ∀ j ∈ js, ∀ q ∈ db.restrs, q.joint ≠ j) (h : (GCall.setJointRestraintBatch js r).run V s = (.ok (.bool true), s1)) :
    ∃ db1, Sees s1 db1 ∧ (∀ j ∈ js, ∀ i : Fin 6, r[i.val]? = some (gFixed db1 j i)) ∧ ∀ j, j ∉ js → gFixed db1 j = gFixed db j := by
  obtain ⟨hl, rfl⟩ := gSetJointRestraintBatch_run h
  have hf := flush_restrs hj (six r) (db := db) (fun j hjj hm => by
    obtain ⟨q, hq, e⟩ := List.mem_map.mp hm
    exact hn j hjj q hq e)
  refine ⟨_, ⟨hs.1, by rw [flushAll_append, hs.2]; exact hf⟩, ?_, ?_⟩
  · intro j hjj i
    rw [six_get hl]
    unfold gFixed
    have h0 : db.restrs.find? (fun q => decide (q.joint = j)) = none := by
      rw [List.find?_eq_none]; intro q hq e; exact hn j hjj q hq (by simpa using e)
    simp only [List.find?_append, h0, Option.none_or]
    obtain ⟨q, hq, hm, -⟩ := find_name (f := fun q : RestrRow => q.joint) (l := js.map fun j => (⟨j, six r⟩ : RestrRow)) (n := j)
      (by simpa using hjj)
    rw [hq]
    obtain ⟨_, _, rfl⟩ := List.mem_map.mp hm
    rfl
  · intro j hjj
    unfold gFixed
    have : (js.map fun j => (⟨j, six r⟩ : RestrRow)).find? (fun q => decide (q.joint = j)) = none := by
      refine find_no_name (f := fun q : RestrRow => q.joint) ?_
      simpa using hjj
    simp only [List.find?_append, this, Option.or_none]

/-- a joint in a new model -/
theorem joint_witness : ∃ s db, Lived demoEnv s ∧ Sees s db ∧ (db.joints.map fun q => q.name) = ["0"] ∧ db.restrs = [] ∧ s.broken = false := by
  obtain ⟨d, hL, st⟩ := lived_new demoEnv
  have e0 : demoEnv.uuid 0 = "0" := by show toString (0 : ℕ) = "0"; decide
  have hs : Sees ((GCall.addJoint 1 2 3).run demoEnv (GSession.fresh d 0)).2 { d with joints := d.joints ++ [⟨"0", 1, 2, 3⟩] } := by
    refine ⟨rfl, ?_⟩
    show flushAll d [.joint ⟨demoEnv.uuid 0, 1, 2, 3⟩] = _
    rw [e0]
    exact flushAll_one (flush_joint (by rw [st.joints]; simp))
  exact ⟨_, _, hL.call _, hs, by simp [st.joints], st.restrs, rfl⟩

theorem gSetJointRestraintBatch_ok (s : GSession) (js : List String) {r : List Bool} (hr : r.length = 6) : gSetJointRestraintBatch js r s =
    (.ok (.bool true), { s with pending := s.pending ++ js.map fun j => .restr ⟨j, six r⟩ }) := by
  unfold gSetJointRestraintBatch guarded
  simp only [bind_run, check_true hr, forM_add, pure_run]

/-- Giving restraints to a joint that has some returns True and nothing can be read afterwards. -/
theorem C96_false : ¬ C96_claim := by
  intro h
  obtain ⟨s, db, hL, hs, hj, hr, hb⟩ := joint_witness
  set r : List Bool := [true, true, true, false, false, false]
  have e1 := gSetJointRestraintBatch_ok s ["0"] (r := r) rfl
  set s1 : GSession := { s with pending := s.pending ++ ["0"].map fun j => .restr ⟨j, six r⟩ }
  have hs1 : Sees s1 { db with restrs := db.restrs ++ ["0"].map fun j => ⟨j, six r⟩ } :=
    ⟨hs.1, by rw [flushAll_append, hs.2]; exact flush_restrs (by simp) _ (by simp [hr])⟩
  have e2 := gSetJointRestraintBatch_ok s1 ["0"] (r := r) rfl
  have hL1 : Lived demoEnv s1 := by
    have := hL.call (.setJointRestraintBatch ["0"] r)
    rwa [show (GCall.setJointRestraintBatch ["0"] r).run demoEnv s = _ from e1] at this
  obtain ⟨db2, h2, -⟩ := h demoEnv s1 _ ["0"] ["0"] r hL1 (by
    refine (GKind.list_run (V := demoEnv) hs1 .joint).trans ?_
    exact congrArg (fun l => Except.ok (GRet.names l)) hj) (by simp) e2
  have h2 : flushAll s1.work (s1.pending ++ ["0"].map fun j => .restr ⟨j, six r⟩) = some db2 := h2.2
  rw [flushAll_append, hs1.2] at h2
  simp only [Option.bind_some, List.map_cons, List.map_nil, flushAll, Pend.flush, hr] at h2
  rw [if_pos (by simp)] at h2
  cases h2

/-- the hypotheses of `C96_last` and of `C96_batch_partial` are met -/
example : ∃ s s1 s2 db, (GCall.setJointRestraint "0" [true, true, false, false, false, true]).run demoEnv s = (.ok (.bool true), s1) ∧
    AllSucceed demoEnv [.setJointRestraintBatch ["9"] [true, true, true, true, true, true]] s1 s2 ∧
    (∀ c ∈ [GCall.setJointRestraintBatch ["9"] [true, true, true, true, true, true]], c.leavesRestraint "0") ∧ Sees s2 db ∧
    Sees s { db with restrs := [] } := by
  obtain ⟨s, db, hL, hs, hj, hr, hb⟩ := joint_witness
  obtain ⟨q, hq, -⟩ := find_name (f := fun q : JointRow => q.name) (l := db.joints) (n := "0") (by rw [hj]; simp)
  set r := [true, true, false, false, false, true]
  have e1 : gSetJointRestraint "0" r s = (.ok (.bool true), { s.flushed db with pending := [.restr ⟨"0", six r⟩] }) := by
    unfold gSetJointRestraint guarded
    simp only [bind_run, check_true (show r.length = 6 from rfl), hs.query, hq, need_some, hs.query_flushed, hr, List.find?_nil, Option.isNone_none, if_true, add_run, pure_run]
    rfl
  have e2 := gSetJointRestraintBatch_ok { s.flushed db with pending := [.restr ⟨"0", six r⟩] } ["9"] (r := [true, true, true, true, true, true]) rfl
  refine ⟨s, _, { s.flushed db with pending := [.restr ⟨"0", six r⟩] ++ ["9"].map fun j => .restr ⟨j, six [true, true, true, true, true, true]⟩ }, { db with restrs := [⟨"0", six r⟩, ⟨"9", six [true, true, true, true, true, true]⟩] }, e1, ⟨?_, ?_⟩, ?_, ?_, ?_⟩
  · rw [show (GCall.setJointRestraintBatch ["9"] [true, true, true, true, true, true]).run demoEnv _ = _ from e2]
    trivial
  · show AllSucceed demoEnv [] _ _
    rw [show (GCall.setJointRestraintBatch ["9"] [true, true, true, true, true, true]).run demoEnv _ = _ from e2]
    rfl
  · intro c hc
    simp only [List.mem_singleton] at hc
    subst hc
    simp [GCall.leavesRestraint]
  · refine hs.with_pending (flushAll_two (flush_restr (by simp [hr])) ?_)
    rw [flush_restr (by simp [hr])]
    simp [hr]
  · rw [← hr]; exact hs

/-! ## C97 deletes -/

/-- Deleting a listed object removes its name, and only its name, from the listing. -/
def C97_claim : Prop := ∀ (V : GEnv) (s : GSession) (k : GKind) (n : String) (l : List String), Lived V s →
  (k.list.run V s).1 = .ok (.names l) → n ∈ l →
  (k.list.run V ((k.delete n).run V s).2).1 = .ok (.names (l.filter fun m => m ≠ n))

/-- Materials without elastic constants are deleted.  Missing: every other kind of object, and materials with elastic constants. -/
theorem C97_material_partial (V : GEnv) (s : GSession) (n : String) (l : List String) (db : Db) (hs : Sees s db)
    (hl : (GCall.getMaterialNames.run V s).1 = .ok (.names l)) (hn : n ∈ l) (hi : ∀ q ∈ db.isos, q.material ≠ n) :
    (GCall.getMaterialNames.run V ((GCall.deleteMaterial n).run V s).2).1 = .ok (.names (l.filter fun m => m ≠ n)) := by
  obtain ⟨db', hs', rfl⟩ := GKind.list_sees (k := .material) hl
  cases hs.unique hs'
  obtain ⟨q, hq, -⟩ := find_name (f := fun q : MatRow => q.name) hn
  have e1 : gDeleteMaterial n s = (.ok .none, { s.flushed db with pending := [.delMat n] }) := by
    unfold gDeleteMaterial guarded
    simp only [bind_run, hs.query, hq, need_some, add_run, pure_run]
    rfl
  rw [show (GCall.deleteMaterial n).run V s = _ from e1]
  have h1 : Sees { s.flushed db with pending := [.delMat n] } { db with
        mats := db.mats.filter fun q => q.name ≠ n
        secs := db.secs.map fun q => if q.material = some n then { q with material := none } else q
        asecs := db.asecs.map fun q => if q.material = some n then { q with material := none } else q } := by
    refine hs.with_pending (flushAll_one ?_)
    simp only [Pend.flush]
    rw [if_neg (by rintro ⟨q, hq, e⟩; exact hi q hq e)]
  refine (GKind.list_run (V := V) h1 .material).trans ?_
  simp only [GKind.names, List.filter_map]
  rfl

/-- Apart from materials no delete function deletes anything: in a session just opened it leaves every listing as it was. -/
theorem C97_nothing_deleted (V : GEnv) (db : Db) (n : ℕ) (k : GKind) (hk : k ≠ .material) (m : String) (k' : GKind) :
    (k'.list.run V ((k.delete m).run V (GSession.fresh db n)).2).1 = (k'.list.run V (GSession.fresh db n)).1 := by
  cases k <;> first | rfl | exact absurd rfl hk

/-- Deleting a material with elastic constants, such as every material `add_material` makes with them, returns and then no listing answers
and everything not saved is lost. -/
theorem C97_material_lost (V : GEnv) (db : Db) (k : ℕ) (n : String) (hn : n ∈ db.mats.map fun q => q.name) (hi : ∃ q ∈ db.isos, q.material = n) :
    ((GCall.deleteMaterial n).run V (GSession.fresh db k)).1 = .ok .none ∧
    (GCall.getJointNames.run V ((GCall.deleteMaterial n).run V (GSession.fresh db k)).2).1 = .ok .none ∧
    (GCall.getMaterialNames.run V ((GCall.deleteMaterial n).run V (GSession.fresh db k)).2).1 = .ok (.bool false) := by
  have hs := sees_fresh db k
  obtain ⟨q, hq, -⟩ := find_name (f := fun q : MatRow => q.name) hn
  have e1 : gDeleteMaterial n (GSession.fresh db k) = (.ok .none, { (GSession.fresh db k).flushed db with pending := [.delMat n] }) := by
    unfold gDeleteMaterial guarded
    simp only [bind_run, hs.query, hq, need_some, add_run, pure_run]
    rfl
  have hf : flushAll db [.delMat n] = none := by
    simp only [flushAll, Pend.flush]
    rw [if_pos hi]; rfl
  have hfl : GM.flush { (GSession.fresh db k).flushed db with pending := [.delMat n] } =
      (.error .exception, { (GSession.fresh db k).flushed db with work := db, pending := [], broken := true }) := by
    unfold GM.flush
    simp only [GSession.fresh, GSession.flushed, Bool.false_eq_true, if_false, hf]
  rw [show (GCall.deleteMaterial n).run V (GSession.fresh db k) = _ from e1]
  refine ⟨rfl, ?_, ?_⟩
  · show (gGetJointNames _).1 = _
    simp only [gGetJointNames, caught, bind_run, query_run, hfl]
  · show (gGetMaterialNames _).1 = _
    simp only [gGetMaterialNames, guarded, bind_run, query_run, hfl]

theorem C97_false : ¬ C97_claim := by
  intro h
  obtain ⟨d, hL, st⟩ := lived_new demoEnv
  have hs := sees_fresh d 0
  have h1 := h demoEnv _ .loadcase "S" ["S"] hL (by rw [GKind.list_run hs]; exact congrArg (fun l => Except.ok (GRet.names l)) st.cases') (by simp)
  rw [C97_nothing_deleted demoEnv d 0 .loadcase (by simp) "S" .loadcase, GKind.list_run hs] at h1
  simp only [Except.ok.injEq, GRet.names.injEq, GKind.names, st.cases'] at h1
  simp at h1

/-- the hypotheses of `C97_material_partial` are met -/
example : ∃ s l db, Sees s db ∧ (GCall.getMaterialNames.run demoEnv s).1 = .ok (.names l) ∧ "x" ∈ l ∧ (∀ q ∈ db.isos, q.material ≠ "x") ∧ l.length = 2 := by
  refine ⟨GSession.fresh { emptyDb with mats := [⟨"x", 1, ""⟩, ⟨"y", 2, ""⟩] } 0, ["x", "y"], _, sees_fresh _ 0, ?_, by simp, by simp [emptyDb], rfl⟩
  exact GKind.list_run (sees_fresh _ 0) .material

/-- the hypotheses of `C97_material_lost` are met by every new model -/
example : ∃ db, Lived demoEnv (GSession.fresh db 0) ∧ "Q345" ∈ (db.mats.map fun q => q.name) ∧ ∃ q ∈ db.isos, q.material = "Q345" := by
  obtain ⟨d, hL, st⟩ := lived_new demoEnv
  refine ⟨d, hL, by rw [st.mats]; simp, ?_⟩
  have : "Q345" ∈ d.isos.map fun q => q.material := by rw [st.isos]; simp
  obtain ⟨q, hq, e⟩ := List.mem_map.mp this
  exact ⟨q, hq, e⟩

end Hyperstatic
