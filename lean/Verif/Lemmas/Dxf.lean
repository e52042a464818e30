import Verif.Model.Dxf
import Verif.Props.GeneralMerge
import Verif.Props.GeneralLoads

/-
What `add_frame_batch` does.
-/

namespace Hyperstatic
open GM

/-- a line: two points -/
abbrev DxfSeg := DxfPoint × DxfPoint

/-- the arguments of the code for lines -/
def segArgs (ls : List DxfSeg) : List (List ℝ × List ℝ) := ls.map fun l => (xyz l.1, xyz l.2)

/-- the joints made for lines -/
def endRows (V : GEnv) (L : ℝ) : ℕ → List DxfSeg → List (JointRow × JointRow)
  | _, [] => []
  | k, l :: t => (⟨V.uuid k, l.1.1 * L, l.1.2.1 * L, l.1.2.2 * L⟩, ⟨V.uuid (k + 1), l.2.1 * L, l.2.2.1 * L, l.2.2.2 * L⟩) :: endRows V L (k + 2) t

def flatRows (e : List (JointRow × JointRow)) : List JointRow := e.flatMap fun e => [e.1, e.2]

def rowNames (e : List (JointRow × JointRow)) : List (String × String) := e.map fun e => (e.1.name, e.2.name)

/-- the frames made for pairs of names -/
def newFrames (V : GEnv) (m : String → String) (sec : String) : ℕ → List (String × String) → List FrameRow
  | _, [] => []
  | k, (a, b) :: t => match sortEnds (m a) (m b) with
    | none => newFrames V m sec k t
    | some e => ⟨V.uuid k, sec, e.1, e.2.1, e.2.2⟩ :: newFrames V m sec (k + 1) t

theorem gBatchJoints_run (V : GEnv) (L : ℝ) (ls : List DxfSeg) (s : GSession) :
    gBatchJoints V L (segArgs ls) s = (.ok (rowNames (endRows V L s.drawn ls)),
      { s with pending := s.pending ++ (flatRows (endRows V L s.drawn ls)).map .joint, drawn := s.drawn + 2 * ls.length }) := by
  induction ls generalizing s with
  | nil => simp [segArgs, gBatchJoints, endRows, rowNames, flatRows, pure_run]
  | cons l t ih =>
    simp only [segArgs, List.map_cons, gBatchJoints, xyz, gPoint, gAddJoint', bind_run, pure_run, addNew]
    rw [show (List.map (fun l : DxfSeg => ([l.1.1, l.1.2.1, l.1.2.2], [l.2.1, l.2.2.1, l.2.2.2])) t) = segArgs t from rfl, ih]
    simp only [endRows, rowNames, flatRows, List.map_cons, List.flatMap_cons, List.map_append, List.cons_append, List.nil_append, List.append_assoc,
      List.map_nil, List.length_cons, Nat.add_assoc]
    congr 2
    omega

theorem gBatchFrames_run (V : GEnv) (m : String → String) (sec : String) (ends : List (String × String)) (s : GSession) :
    gBatchFrames V m sec ends s = (.ok ((newFrames V m sec s.drawn ends).map fun f => f.name),
      { s with pending := s.pending ++ (newFrames V m sec s.drawn ends).map .frame, drawn := s.drawn + (newFrames V m sec s.drawn ends).length }) := by
  induction ends generalizing s with
  | nil => simp [gBatchFrames, newFrames, pure_run]
  | cons e t ih =>
    obtain ⟨a, b⟩ := e
    unfold gBatchFrames newFrames
    rcases sortEnds (m a) (m b) with _ | e
    · exact ih s
    · simp only [bind_run, addNew, ih, pure_run, List.map_cons, List.length_cons, List.append_assoc, List.cons_append, List.nil_append]
      congr 2
      omega

theorem endRows_names (V : GEnv) (L : ℝ) (k : ℕ) (ls : List DxfSeg) :
    (flatRows (endRows V L k ls)).map (fun q => q.name) = (List.range' k (2 * ls.length)).map V.uuid := by
  induction ls generalizing k with
  | nil => rfl
  | cons l t ih =>
    simp only [endRows, flatRows, List.flatMap_cons, List.map_append, List.map_cons, List.map_nil, List.length_cons]
    rw [show 2 * (t.length + 1) = 2 * t.length + 1 + 1 by ring, List.range'_succ, List.range'_succ]
    simp only [List.map_cons, List.cons_append, List.nil_append, List.cons.injEq, true_and]
    exact ih (k + 2)

theorem flush_joints (rows : List JointRow) (db : Db) (h : ((db.joints ++ rows).map fun q => q.name).Nodup) :
    flushAll db (rows.map .joint) = some { db with joints := db.joints ++ rows } := by
  induction rows generalizing db with
  | nil => simp [flushAll]
  | cons r t ih =>
    have hr : r.name ∉ db.joints.map fun q => q.name := by
      rw [List.map_append, List.nodup_append] at h
      intro hm
      exact h.2.2 _ hm r.name (by simp) rfl
    rw [List.map_cons, flushAll, flush_joint hr, Option.bind_some, ih]
    · simp
    · simpa using h

/-- what the database holds before joints are merged -/
noncomputable def withJoints (V : GEnv) (db : Db) (k : ℕ) (ls : List DxfSeg) : Db :=
  { db with joints := db.joints ++ flatRows (endRows V db.unit.L k ls) }

/-- the merging -/
noncomputable def batchMap (V : GEnv) (db : Db) (k : ℕ) (ls : List DxfSeg) : (String → String) × List String :=
  mergeMap (db.tol ^ 2) (V.orderBy (withJoints V db k ls).joints) id

/-- the frames -/
noncomputable def batchFrames (V : GEnv) (db : Db) (sec : String) (k : ℕ) (ls : List DxfSeg) : List FrameRow :=
  newFrames V (batchMap V db k ls).1 sec (k + 2 * ls.length) (rowNames (endRows V db.unit.L k ls))

theorem withJoints_nodup {V : GEnv} (hV : Function.Injective V.uuid) {db : Db} {k : ℕ} (hk : (db.joints.map fun q => q.name).Nodup)
    (hid : ∀ i, k ≤ i → V.uuid i ∉ db.joints.map fun q => q.name) (ls : List DxfSeg) :
    ((withJoints V db k ls).joints.map fun q => q.name).Nodup := by
  unfold withJoints
  rw [List.map_append, List.nodup_append, endRows_names]
  refine ⟨hk, List.Nodup.map hV (List.nodup_range' ..), ?_⟩
  intro a ha b hb e
  obtain ⟨i, hi, rfl⟩ := List.mem_map.mp hb
  subst e
  exact hid i (List.mem_range'_1.mp hi).1 ha

/-- Both outcomes of `add_frame_batch`. -/
theorem gAddFrameBatch_run {V : GEnv} (hV : Function.Injective V.uuid) {s : GSession} {db : Db} (hs : Sees s db) (hk : (db.joints.map fun q => q.name).Nodup)
    (hid : ∀ i, s.drawn ≤ i → V.uuid i ∉ db.joints.map fun q => q.name) {sec : String} (hsec : sec ∈ db.secs.map fun q => q.name) {ls : List DxfSeg} (hls : ls ≠ []) :
    gAddFrameBatch V (segArgs ls) sec s =
      match flushAll (withJoints V db s.drawn ls) ((batchFrames V db sec s.drawn ls).map .frame ++ (batchMap V db s.drawn ls).2.map .delJoint) with
      | some db' => (.ok (.batch ((batchFrames V db sec s.drawn ls).map fun f => f.name)),
          GSession.fresh db' (s.drawn + 2 * ls.length + (batchFrames V db sec s.drawn ls).length))
      | none => (.ok (.bool false), GSession.fresh s.committed (s.drawn + 2 * ls.length + (batchFrames V db sec s.drawn ls).length)) := by
  obtain ⟨r, hr, -⟩ := find_name (f := fun q : SecRow => q.name) (l := db.secs) (n := sec) hsec
  have hc : ∀ t, gBatchCheck (segArgs ls) t = (.ok (), t) := by
    intro t
    obtain _ | ⟨l, t'⟩ := ls
    · exact absurd rfl hls
    · exact check_true (by simp [xyz]) t
  have hj := flush_joints (flatRows (endRows V db.unit.L s.drawn ls)) db (by simpa only [withJoints] using withJoints_nodup hV hk hid ls)
  have ht : Sees { s.flushed db with pending := (flatRows (endRows V db.unit.L s.drawn ls)).map .joint, drawn := s.drawn + 2 * ls.length }
      (withJoints V db s.drawn ls) := ⟨hs.1, hj⟩
  unfold gAddFrameBatch guarded
  simp only [bind_run, hc, hs.query, hr, need_some, gScale_run hs.flushed, flushed_flushed, gBatchJoints_run]
  have e0 : ({ s.flushed db with pending := (s.flushed db).pending ++ (flatRows (endRows V db.unit.L (s.flushed db).drawn ls)).map .joint, drawn := (s.flushed db).drawn + 2 * ls.length } : GSession) =
      { s.flushed db with pending := (flatRows (endRows V db.unit.L s.drawn ls)).map .joint, drawn := s.drawn + 2 * ls.length } := rfl
  rw [e0]
  simp only [ht.query, ht.query_flushed, gBatchFrames_run, forM_add, commit_run]
  have e1 : mergeMap ((withJoints V db s.drawn ls).tol ^ 2) (V.orderBy (withJoints V db s.drawn ls).joints) id = batchMap V db s.drawn ls := rfl
  rw [e1]
  have e2 : newFrames V (batchMap V db s.drawn ls).1 sec
      (({ s.flushed db with pending := (flatRows (endRows V db.unit.L s.drawn ls)).map .joint, drawn := s.drawn + 2 * ls.length } : GSession).flushed (withJoints V db s.drawn ls)).drawn
      (rowNames (endRows V db.unit.L (s.flushed db).drawn ls)) = batchFrames V db sec s.drawn ls := rfl
  rw [e2]
  generalize batchFrames V db sec s.drawn ls = F
  generalize (batchMap V db s.drawn ls).2 = rm
  unfold GM.flush
  simp only [GSession.flushed, hs.1, Bool.false_eq_true, if_false, List.nil_append]
  generalize flushAll (withJoints V db s.drawn ls) (F.map .frame ++ rm.map .delJoint) = o
  cases o <;> rfl

/-! ## merging -/

theorem dist2_zero {p q : JointRow} (h : p.pt = q.pt) : jointDist2 p q = 0 := by
  simp only [JointRow.pt, Prod.mk.injEq] at h
  unfold jointDist2
  rw [h.1, h.2.1, h.2.2]
  ring

theorem before_antisymm {p q : JointRow} (h : p.before q) (h' : q.before p) : p.pt = q.pt := by
  unfold JointRow.before at h h'
  unfold JointRow.pt
  have hx : p.x = q.x := by
    rcases h with h | h <;> rcases h' with h' | h' <;> first | (exfalso; linarith) | linarith [h.1, h'.1]
  have hy : p.y = q.y := by
    rcases h with h | ⟨-, h⟩ <;> rcases h' with h' | ⟨-, h'⟩ <;> try (exfalso; linarith)
    rcases h with h | h <;> rcases h' with h' | h' <;> first | (exfalso; linarith) | linarith [h.1, h'.1]
  have hz : p.z = q.z := by
    rcases h with h | ⟨-, h⟩ <;> rcases h' with h' | ⟨-, h'⟩ <;> try (exfalso; linarith)
    rcases h with h | h <;> rcases h' with h' | h' <;> first | (exfalso; linarith) | linarith [h.2, h'.2]
  rw [hx, hy, hz]

theorem before_congr {p q r : JointRow} (h : r.pt = p.pt) (h' : q.before r) : q.before p := by
  simp only [JointRow.pt, Prod.mk.injEq] at h
  unfold JointRow.before at *
  rw [← h.1, ← h.2.1, ← h.2.2]
  exact h'

theorem mergeMap_names {d2 : ℝ} (p : JointRow) (t : List JointRow) (m : String → String) : ∀ n ∈ (mergeMap d2 (p :: t) m).2, n ∈ t.map fun q => q.name := by
  intro n hn
  rw [mergeMap_snd d2 _ m id] at hn
  exact removed_sub d2 t p n hn

open Classical in
/-- the loop over a sorted list in which near joints have the same position -/
theorem mergeMap_aux {d2 : ℝ} (hd : 0 < d2) : ∀ (t : List JointRow) (p k : JointRow) (m : String → String),
    ((p :: t).map fun q => q.name).Nodup → (p :: t).Pairwise JointRow.before → (∀ x ∈ p :: t, ∀ y ∈ p :: t, jointDist2 x y < d2 → x.pt = y.pt) →
    k.pt = p.pt → m p.name = k.name → (∀ x ∈ t, m x.name = x.name) →
    (∀ n, n ∉ (t.map fun q => q.name) → (mergeMap d2 (p :: t) m).1 n = m n) ∧
    (∀ x ∈ t, x.pt = p.pt → (mergeMap d2 (p :: t) m).1 x.name = k.name) ∧
    (∀ x ∈ t, x.pt ≠ p.pt → ∃ r, (t.find? fun q => q.pt = x.pt) = some r ∧ (mergeMap d2 (p :: t) m).1 x.name = r.name ∧
      r.name ∉ (mergeMap d2 (p :: t) m).2)
  | [], p, k, m, _, _, _, _, _, _ => by simp [mergeMap]
  | q :: t, p, k, m, hn, hs, hc, hk, hm, hi => by
    have hn' : ((q :: t).map fun q => q.name).Nodup := (List.nodup_cons.mp hn).2
    have hq : q.name ∉ t.map fun q => q.name := (List.nodup_cons.mp hn').1
    have hs' := (List.pairwise_cons.mp hs).2
    have hc' : ∀ x ∈ q :: t, ∀ y ∈ q :: t, jointDist2 x y < d2 → x.pt = y.pt :=
      fun x hx y hy => hc x (List.mem_cons_of_mem _ hx) y (List.mem_cons_of_mem _ hy)
    have hne : ∀ x ∈ t, x.name ≠ q.name := fun x hx e => hq (e ▸ List.mem_map.mpr ⟨x, hx, rfl⟩)
    unfold mergeMap
    split_ifs with h
    · have hpq : p.pt = q.pt := hc p (by simp) q (by simp) h
      obtain ⟨ha, hb, hd'⟩ := mergeMap_aux hd t q k (Function.update m q.name (m p.name)) hn' hs' hc' (hk.trans hpq) (by simp [hm])
        (fun x hx => by rw [Function.update_of_ne (hne x hx)]; exact hi x (List.mem_cons_of_mem _ hx))
      refine ⟨?_, ?_, ?_⟩
      · intro n hnn
        simp only [List.map_cons, List.mem_cons, not_or] at hnn
        rw [ha n hnn.2, Function.update_of_ne hnn.1]
      · intro x hx he
        rcases List.mem_cons.mp hx with rfl | hx
        · rw [ha _ hq, Function.update_self, hm]
        · exact hb x hx (he.trans hpq)
      · intro x hx he
        have hx : x ∈ t := by
          rcases List.mem_cons.mp hx with rfl | hx
          · exact absurd hpq.symm he
          · exact hx
        obtain ⟨r, h1, h2, h3⟩ := hd' x hx (by rwa [← hpq])
        refine ⟨r, ?_, h2, ?_⟩
        · rw [List.find?_cons_of_neg (by simp only [decide_eq_true_eq]; rw [← hpq]; exact fun e => he e.symm), h1]
        · have := List.mem_of_find?_eq_some h1
          simp only [List.mem_cons, not_or]
          exact ⟨hne r this, h3⟩
    · have hpq : q.pt ≠ p.pt := fun e => h (by rw [dist2_zero e.symm]; exact hd)
      obtain ⟨ha, hb, hd'⟩ := mergeMap_aux hd t q q m hn' hs' hc' rfl (hi q (by simp)) (fun x hx => hi x (List.mem_cons_of_mem _ hx))
      have hno : ∀ x ∈ q :: t, x.pt ≠ p.pt := by
        intro x hx e
        rcases List.mem_cons.mp hx with rfl | hx
        · exact hpq e
        · exact hpq (before_antisymm (before_congr e ((List.pairwise_cons.mp hs').1 x hx)) ((List.pairwise_cons.mp hs).1 q (by simp)))
      have hqr : q.name ∉ (mergeMap d2 (q :: t) m).2 := fun e => hq (mergeMap_names _ _ _ _ e)
      refine ⟨?_, ?_, ?_⟩
      · intro n hnn
        simp only [List.map_cons, List.mem_cons, not_or] at hnn
        exact ha n hnn.2
      · exact fun x hx e => absurd e (hno x hx)
      · intro x hx _
        by_cases e : x.pt = q.pt
        · refine ⟨q, by rw [List.find?_cons_of_pos (by simp [e])], ?_, hqr⟩
          rcases List.mem_cons.mp hx with rfl | hx
          · rw [ha _ hq]; exact hi _ (by simp)
          · exact hb x hx e
        · have hx : x ∈ t := by
            rcases List.mem_cons.mp hx with rfl | hx
            · exact absurd rfl e
            · exact hx
          obtain ⟨r, h1, h2, h3⟩ := hd' x hx e
          exact ⟨r, by rw [List.find?_cons_of_neg (by simp only [decide_eq_true_eq]; exact fun e' => e e'.symm), h1], h2, h3⟩

open Classical in
/-- In a sorted list in which near joints have the same position, every joint is mapped to the first one at its position, which stays. -/
theorem mergeMap_clean {d2 : ℝ} (hd : 0 < d2) {l : List JointRow} (hn : (l.map fun q => q.name).Nodup) (hs : l.Pairwise JointRow.before)
    (hc : ∀ x ∈ l, ∀ y ∈ l, jointDist2 x y < d2 → x.pt = y.pt) {x : JointRow} (hx : x ∈ l) :
    ∃ r, (l.find? fun q => q.pt = x.pt) = some r ∧ (mergeMap d2 l id).1 x.name = r.name ∧ r.name ∉ (mergeMap d2 l id).2 := by
  obtain _ | ⟨p, t⟩ := l
  · simp at hx
  obtain ⟨ha, hb, hd'⟩ := mergeMap_aux hd t p p id hn hs hc rfl rfl (fun _ _ => rfl)
  have hp : p.name ∉ t.map fun q => q.name := (List.nodup_cons.mp hn).1
  by_cases e : x.pt = p.pt
  · refine ⟨p, by rw [List.find?_cons_of_pos (by simp [e])], ?_, fun h => hp (mergeMap_names _ _ _ _ h)⟩
    rcases List.mem_cons.mp hx with rfl | hx
    · rw [ha _ hp]; rfl
    · exact hb x hx e
  · have hx : x ∈ t := by
      rcases List.mem_cons.mp hx with rfl | hx
      · exact absurd rfl e
      · exact hx
    obtain ⟨r, h1, h2, h3⟩ := hd' x hx e
    exact ⟨r, by rw [List.find?_cons_of_neg (by simp only [decide_eq_true_eq]; exact fun e' => e e'.symm), h1], h2, h3⟩

/-! ## what is stored -/

theorem flush_frames : ∀ (F : List FrameRow) (db : Db) (ps : List Pend) (db' : Db), (db.frames.map fun q => q.name).Nodup →
    flushAll db (F.map .frame ++ ps) = some db' →
    flushAll { db with frames := db.frames ++ F } ps = some db' ∧ ((db.frames ++ F).map fun q => q.name).Nodup
  | [], db, ps, db', hn, h => by simpa using ⟨h, hn⟩
  | f :: F, db, ps, db', hn, h => by
    simp only [List.map_cons, List.cons_append, flushAll, Pend.flush] at h
    split_ifs at h with hc
    · simp at h
    · rw [Option.bind_some] at h
      have := flush_frames F _ ps db' (by
        simp only [List.map_append, List.map_cons, List.map_nil]
        rw [List.nodup_append]
        refine ⟨hn, by simp, ?_⟩
        intro a ha b hb e
        obtain ⟨q, hq, rfl⟩ := List.mem_map.mp ha
        simp only [List.mem_singleton] at hb
        exact hc ⟨q, hq, e.trans hb⟩) h
      simpa using this

end Hyperstatic
