import Verif.Props.GeneralUnits

/-
Properties of the database front end: loads on frames.
-/

namespace Hyperstatic
open GM

/-! ## C103 loads on frames -/

/-- After `set_frame_load_distributed` the stored load (per length, three forces and three moments at each end) is the given one in SI. -/
def C103_claim : Prop := ∀ (V : GEnv) (s s1 : GSession) (db db1 : Db) (f c : String) (load : List ℝ), Sees s db →
  (GCall.setFrameLoadDistributed f c load).run V s = (.ok (.bool true), s1) → Sees s1 db1 →
  LoadSet db db1 0 f c (load.mapIdx fun i p => p * if i % 6 < 3 then db.unit.lineForce else db.unit.lineMoment)

theorem gUpsertLoad_ok {s s1 : GSession} {db : Db} (hs : Sees s db) {table : Fin 4} {f c : String} {val : GUnit → List ℝ} {r : GRet}
    (h : gUpsertLoad table f c val s = (.ok r, s1)) : f ∈ (db.frames.map fun q => q.name) ∧ ∃ db1, Sees s1 db1 ∧ LoadSet db db1 table f c (val db.unit) := by
  obtain ⟨o, t1, h1, h⟩ := bind_ok h
  obtain ⟨h1, ht, hx⟩ := lookup_ok h1
  have hw := hs.unique h1
  rw [← hw] at ht hx
  subst ht
  rw [bind_run, hs.query_flushed] at h
  simp only at h
  rw [bind_run, gScale_run hs.flushed] at h
  simp only [flushed_flushed] at h
  refine ⟨List.mem_map.mpr ⟨o, List.mem_of_find?_eq_some hx, by simpa using List.find?_some hx⟩, ?_⟩
  rcases hq : db.floads.find? fun q => q.table = table ∧ q.frame = f ∧ q.case = c with _ | q
  · rw [hq] at h
    simp only [Option.isNone_none, if_true, bind_run, add_run, pure_run, Prod.mk.injEq] at h
    obtain ⟨-, rfl⟩ := h
    have hno : ¬ ∃ q ∈ db.floads, q.table = table ∧ q.frame = f ∧ q.case = c := by
      rintro ⟨q, hm, hk⟩
      simpa [hk] using List.find?_eq_none.mp hq q hm
    refine ⟨{ db with floads := db.floads ++ [⟨table, f, c, val db.unit⟩] }, ⟨hs.1, ?_⟩, ?_, ?_, ?_⟩
    · exact flushAll_one (if_neg hno)
    · exact ⟨_, List.mem_append_right _ (List.mem_singleton.mpr rfl), rfl, rfl, rfl⟩
    · intro q hm h1 h2 h3
      rcases List.mem_append.mp hm with hm | hm
      · exact absurd ⟨q, hm, h1, h2, h3⟩ hno
      · rw [List.mem_singleton.mp hm]
    · intro q hk
      simp only [List.mem_append, List.mem_singleton, or_iff_left_iff_imp]
      rintro rfl
      exact absurd ⟨rfl, rfl, rfl⟩ hk
  · rw [hq] at h
    simp only [Option.isNone_some, bind_run, update_run, pure_run, Bool.false_eq_true, if_false, Prod.mk.injEq] at h
    obtain ⟨-, rfl⟩ := h
    refine ⟨_, ⟨hs.1, rfl⟩, ?_, ?_, ?_⟩
    · have hk : q.table = table ∧ q.frame = f ∧ q.case = c := by simpa using List.find?_some hq
      refine ⟨_, List.mem_map.mpr ⟨q, List.mem_of_find?_eq_some hq, rfl⟩, ?_⟩
      rw [if_pos hk]; exact hk
    · intro q hm h1 h2 h3
      obtain ⟨r, hr, rfl⟩ := List.mem_map.mp hm
      by_cases hk : r.table = table ∧ r.frame = f ∧ r.case = c
      · rw [if_pos hk]
      · rw [if_neg hk] at h1 h2 h3; exact absurd ⟨h1, h2, h3⟩ hk
    · intro q hk
      constructor
      · intro hm
        obtain ⟨r, hr, rfl⟩ := List.mem_map.mp hm
        by_cases hk' : r.table = table ∧ r.frame = f ∧ r.case = c
        · rw [if_pos hk'] at hk; exact absurd hk' hk
        · rw [if_neg hk']; exact hr
      · intro hm
        exact List.mem_map.mpr ⟨q, hm, if_neg hk⟩

theorem gUpsertLoad_run {s : GSession} {db : Db} (hs : Sees s db) {f : String} (hf : f ∈ db.frames.map fun q => q.name) (table : Fin 4) (c : String)
    (val : GUnit → List ℝ) : ∃ s1, gUpsertLoad table f c val s = (.ok (.bool true), s1) := by
  obtain ⟨q, hq, -⟩ := find_name (f := fun q : FrameRow => q.name) hf
  unfold gUpsertLoad
  simp only [bind_run, hs.query, hq, need_some, hs.query_flushed, gScale_run hs.flushed, flushed_flushed]
  split_ifs
  · exact ⟨_, rfl⟩
  · exact ⟨_, rfl⟩

/-- A concentrated load is stored in SI with its position; no other load changes. -/
theorem C103_concentrated (V : GEnv) (s s1 : GSession) (db db1 : Db) (f c : String) (load : List ℝ) (loc : ℝ) (hs : Sees s db)
    (h : (GCall.setFrameLoadConcentrated f c load loc).run V s = (.ok (.bool true), s1)) (hs1 : Sees s1 db1) :
    load.length = 6 ∧ 0 ≤ loc ∧ loc ≤ 1 ∧ f ∈ (db.frames.map fun q => q.name) ∧
    LoadSet db db1 1 f c ((load.mapIdx fun i p => p * if i < 3 then db.unit.newtons else db.unit.newtons * db.unit.metres) ++ [loc]) := by
  simp only [GUnit.metres_eq, GUnit.newtons_eq]
  obtain ⟨_, t1, h1, h0⟩ := bind_ok (guarded_ok (show gSetFrameLoadConcentrated f c load loc s = _ from h) (by simp))
  obtain ⟨⟨ha, hb, hc⟩, rfl⟩ := check_ok h1
  obtain ⟨hf, db', h2, h3⟩ := gUpsertLoad_ok hs h0
  cases hs1.unique h2
  refine ⟨ha, hc, hb, hf, ?_⟩
  convert h3 using 3
  funext i p
  split_ifs <;> ring

/-- A strain is stored as given; no other load changes. -/
theorem C103_strain (V : GEnv) (s s1 : GSession) (db db1 : Db) (f c : String) (e : ℝ) (hs : Sees s db)
    (h : (GCall.setFrameLoadStrain f c e).run V s = (.ok (.bool true), s1)) (hs1 : Sees s1 db1) :
    0 ≤ e ∧ e ≤ 1 ∧ f ∈ (db.frames.map fun q => q.name) ∧ LoadSet db db1 2 f c [e] := by
  obtain ⟨_, t1, h1, h0⟩ := bind_ok (guarded_ok (show gSetFrameLoadStrain f c e s = _ from h) (by simp))
  obtain ⟨⟨ha, hb⟩, rfl⟩ := check_ok h1
  obtain ⟨hf, db', h2, h3⟩ := gUpsertLoad_ok hs h0
  cases hs1.unique h2
  exact ⟨hb, ha, hf, h3⟩

/-- A temperature is stored as given; no other load changes. -/
theorem C103_temperature (V : GEnv) (s s1 : GSession) (db db1 : Db) (f c : String) (T : ℝ) (hs : Sees s db)
    (h : (GCall.setFrameLoadTemperature f c T).run V s = (.ok (.bool true), s1)) (hs1 : Sees s1 db1) :
    f ∈ (db.frames.map fun q => q.name) ∧ LoadSet db db1 3 f c [T] := by
  obtain ⟨hf, db', h2, h3⟩ := gUpsertLoad_ok hs (guarded_ok (show gSetFrameLoadTemperature f c T s = _ from h) (by simp))
  cases hs1.unique h2
  exact ⟨hf, h3⟩

theorem distributed_ok {s s1 : GSession} {db db1 : Db} {f c : String} {load : List ℝ} (hs : Sees s db)
    (h : gSetFrameLoadDistributed f c load s = (.ok (.bool true), s1)) (hs1 : Sees s1 db1) :
    load.length = 12 ∧ f ∈ (db.frames.map fun q => q.name) ∧
      LoadSet db db1 0 f c (load.mapIdx fun i p => if i % 6 < 3 then p * db.unit.F else p * db.unit.F * db.unit.L) := by
  obtain ⟨_, t1, h1, h0⟩ := bind_ok (guarded_ok h (by simp))
  obtain ⟨ha, rfl⟩ := check_ok h1
  obtain ⟨hf, db', h2, h3⟩ := gUpsertLoad_ok hs h0
  cases hs1.unique h2
  exact ⟨ha, hf, h3⟩

/-- Proved in units whose length is the metre.  Missing: millimetres. -/
theorem C103_distributed_partial (V : GEnv) (s s1 : GSession) (db db1 : Db) (f c : String) (load : List ℝ) (hs : Sees s db) (hm : db.unit.metres = 1)
    (h : (GCall.setFrameLoadDistributed f c load).run V s = (.ok (.bool true), s1)) (hs1 : Sees s1 db1) :
    load.length = 12 ∧ f ∈ (db.frames.map fun q => q.name) ∧
    LoadSet db db1 0 f c (load.mapIdx fun i p => p * if i % 6 < 3 then db.unit.lineForce else db.unit.lineMoment) := by
  rw [GUnit.metres_eq] at hm
  obtain ⟨h1, h2, h3⟩ := distributed_ok hs h hs1
  refine ⟨h1, h2, ?_⟩
  convert h3 using 2
  funext i p
  split_ifs <;> simp [GUnit.lineForce, GUnit.lineMoment, GUnit.metres_eq, GUnit.newtons_eq, hm]

/-- a model with one frame in some unit -/
theorem frame_unit_witness (u : GUnit) : ∃ s db f, Lived demoEnv s ∧ Sees s db ∧ db.unit = u ∧ (db.frames.map fun q => q.name) = [f] := by
  obtain ⟨s, db, hL, hs, -, hf, -⟩ := frame_witness
  refine ⟨_, { db with unit := u }, "f", hL.call (.setUnit u.str), ?_, rfl, by simp [hf]⟩
  rw [show (GCall.setUnit u.str).run demoEnv s = _ from gSetUnit_run hs u]
  exact ⟨hs.1, rfl⟩

theorem distributed_run {s : GSession} {db : Db} (hs : Sees s db) {f : String} (hf : f ∈ db.frames.map fun q => q.name) (c : String) {load : List ℝ}
    (hl : load.length = 12) : ∃ s1, gSetFrameLoadDistributed f c load s = (.ok (.bool true), s1) := by
  obtain ⟨s1, e⟩ := gUpsertLoad_run hs hf 0 c fun u => load.mapIdx fun i p => if i % 6 < 3 then p * u.F else p * u.F * u.L
  unfold gSetFrameLoadDistributed guarded
  simp only [bind_run, check_true hl, e]
  exact ⟨_, rfl⟩

/-- A load of 1 N per mm is stored as 1 N per m. -/
theorem C103_false : ¬ C103_claim := by
  intro h
  obtain ⟨s, db, f, -, hs, hu, hf⟩ := frame_unit_witness .Nmm
  set load : List ℝ := [1, 0, 0, 0, 0, 0, 0, 0, 0, 0, 0, 0]
  obtain ⟨s1, e⟩ := distributed_run hs (f := f) (by rw [hf]; simp) "S" (load := load) rfl
  obtain ⟨_, t1, h1, h2⟩ := bind_ok (guarded_ok e (by simp))
  obtain ⟨-, rfl⟩ := check_ok h1
  obtain ⟨-, db1, hs1, -⟩ := gUpsertLoad_ok hs h2
  obtain ⟨-, -, ⟨q, hq, k1, k2, k3⟩, h4, -⟩ := distributed_ok hs e hs1
  have h5 := (h demoEnv _ s1 db db1 f "S" load hs e hs1).2.1 q hq k1 k2 k3
  rw [h4 q hq k1 k2 k3, hu] at h5
  norm_num [load, GUnit.lineForce, GUnit.newtons, GUnit.metres, GUnit.F] at h5

example : ∃ s s1 db, Sees s db ∧ db.unit.metres = 1 ∧
    (GCall.setFrameLoadDistributed "f" "S" [1, 2, 3, 4, 5, 6, 7, 8, 9, 10, 11, 12]).run demoEnv s = (.ok (.bool true), s1) ∧ ∃ db1, Sees s1 db1 := by
  obtain ⟨s, db, -, hs, -, hf, -, -, hu⟩ := frame_witness
  obtain ⟨s1, e⟩ := distributed_run hs (f := "f") (by rw [hf]; simp) "S" (load := [1, 2, 3, 4, 5, 6, 7, 8, 9, 10, 11, 12]) rfl
  obtain ⟨_, t1, h1, h2⟩ := bind_ok (guarded_ok e (by simp))
  obtain ⟨-, rfl⟩ := check_ok h1
  obtain ⟨-, db1, hs1, -⟩ := gUpsertLoad_ok hs h2
  exact ⟨_, s1, db, hs, by rw [hu]; rfl, e, db1, hs1⟩

example : ∃ s s1 db, Sees s db ∧ (GCall.setFrameLoadConcentrated "f" "S" [1, 2, 3, 4, 5, 6] (1 / 2)).run demoEnv s = (.ok (.bool true), s1) ∧ ∃ db1, Sees s1 db1 := by
  obtain ⟨s, db, -, hs, -, hf, -, -, hu⟩ := frame_witness
  obtain ⟨s1, e⟩ := gUpsertLoad_run hs (f := "f") (by rw [hf]; simp) 1 "S" fun u =>
    ([1, 2, 3, 4, 5, 6].mapIdx fun i p => if i < 3 then p * u.F else p * u.F * u.L) ++ [1 / 2]
  obtain ⟨-, db1, hs1, -⟩ := gUpsertLoad_ok hs e
  refine ⟨s, s1, db, hs, ?_, db1, hs1⟩
  show gSetFrameLoadConcentrated _ _ _ _ s = _
  unfold gSetFrameLoadConcentrated guarded
  rw [bind_run, check_true (by norm_num)]
  simp only [e]

end Hyperstatic
