import Verif.Props.GeneralUnits

/-
Properties of the database front end: the materials of a new model, quick materials, names of frames, profiles.
-/

namespace Hyperstatic
open GM Spec

/-! ## the materials of a new model stay -/

/-- whatever lasts and holds of a new model holds in every life of a model -/
theorem Lasting.lived_of_new {V : GEnv} {P : Db → Prop} {R : Pend → Prop} (L : Lasting P R) (hc : ∀ n, P (gCreate V n).committed) {s : GSession}
    (hs : Lived V s) : Kept P R s := by
  obtain ⟨n, visits, acts, d, t, ho, rfl⟩ := hs
  have hd : StoreOk P (visits.foldl (fun d v => gVisit V d v.1 v.2) ⟨.whole (gCreate V n).committed, .absent, n⟩) := by
    have : StoreOk P ⟨.whole (gCreate V n).committed, .absent, n⟩ := fun db h => by cases h; exact hc n
    revert this
    generalize (⟨.whole (gCreate V n).committed, .absent, n⟩ : GDisk) = d0
    intro hd0
    clear ho
    induction visits generalizing d0 with
    | nil => exact hd0
    | cons v vs ih => exact ih _ (kept_visit (R := R) L hd0 v.1 v.2)
  have h1 := kept_open (R := R) hd ho
  exact (kept_acts (V := V) L acts (ds := (d, t)) h1.1 h1.2).2

/-- a material with elastic constants -/
def HasElastic (n : String) (db : Db) : Prop := n ∈ (db.mats.map fun q => q.name) ∧ n ∈ (db.isos.map fun q => q.material)

theorem hasElastic_lasting (n : String) : Lasting (HasElastic n) fun _ => True where
  flush := by
    intro db p db' h _ e
    cases p <;> simp only [Pend.flush] at e
    case delMat m =>
      split_ifs at e with hi
      cases e
      refine ⟨?_, h.2⟩
      obtain ⟨r, hr, hn⟩ := List.mem_map.mp h.2
      obtain ⟨q, hq, hm⟩ := List.mem_map.mp h.1
      refine List.mem_map.mpr ⟨q, List.mem_filter.mpr ⟨hq, ?_⟩, hm⟩
      simp only [decide_eq_true_eq]
      intro e
      exact hi ⟨r, hr, by rw [hn, ← hm, e]⟩
    case mat r =>
      split_ifs at e
      cases e
      exact ⟨by simp only [List.map_append, List.mem_append]; exact Or.inl h.1, h.2⟩
    case iso r =>
      split_ifs at e
      cases e
      exact ⟨h.1, by simp only [List.map_append, List.mem_append]; exact Or.inl h.2⟩
    all_goals ((try split_ifs at e) <;> cases e <;> exact h)
  add := fun _ _ _ => trivial
  new := fun _ _ _ _ => trivial
  upd := by
    intro c f db hp h
    cases c <;> simp only [GCall.mayUpd] at hp <;> try exact absurd hp id
    case setMaterialIso m E mu =>
      subst hp
      refine ⟨h.1, ?_⟩
      obtain ⟨r, hr, hn⟩ := List.mem_map.mp h.2
      refine List.mem_map.mpr ⟨_, List.mem_map.mpr ⟨r, hr, rfl⟩, ?_⟩
      split <;> exact hn
    all_goals first
      | (subst hp; exact h)
      | (obtain ⟨_, rfl⟩ := hp; exact h)
      | (obtain ⟨_, _, _, rfl⟩ := hp; exact h)

/-- the two materials of a new model -/
theorem hasElastic_lived {V : GEnv} {s : GSession} (hL : Lived V s) {n : String} (hn : n = "Q345" ∨ n = "C35") : Kept (HasElastic n) (fun _ => True) s := by
  refine (hasElastic_lasting n).lived_of_new (fun k => ?_) hL
  obtain ⟨db, e, st⟩ := gCreate_new V k
  rw [e]
  refine ⟨?_, ?_⟩
  · show n ∈ db.mats.map _
    rw [st.mats]; rcases hn with rfl | rfl <;> simp
  · show n ∈ db.isos.map _
    rw [st.isos]; rcases hn with rfl | rfl <;> simp

/-- The two materials every new model has are listed in every life of it: they can not be deleted. -/
theorem C97_standard_materials (V : GEnv) (s : GSession) (l : List String) (hL : Lived V s)
    (hl : (GCall.getMaterialNames.run V s).1 = .ok (.names l)) : "Q345" ∈ l ∧ "C35" ∈ l := by
  obtain ⟨db, hs, rfl⟩ := GKind.list_sees (k := .material) hl
  exact ⟨((hasElastic_lived hL (Or.inl rfl)).sees (hasElastic_lasting _) hs).1, ((hasElastic_lived hL (Or.inr rfl)).sees (hasElastic_lasting _) hs).1⟩

example : ∃ s, Lived demoEnv s ∧ (GCall.getMaterialNames.run demoEnv s).1 = .ok (.names ["Q345", "C35"]) := by
  obtain ⟨s, db, hL, hs, -, hm, -⟩ := stock_witness .kNm
  exact ⟨s, hL, by rw [show (GCall.getMaterialNames.run demoEnv s).1 = _ from GKind.list_run hs .material]; simp [GKind.names, hm]⟩

/-! ## C101 quick materials -/

theorem query_error_keeps {α : Type} {s t : GSession} {f : Db → α} {x : PyErr} (h : GM.query f s = (.error x, t)) :
    t.committed = s.committed ∧ t.drawn = s.drawn := by
  rw [query_run] at h
  rcases e : GM.flush s with ⟨y | u, s1⟩ <;> rw [e] at h
  · cases h
    unfold GM.flush at e
    split at e
    · cases e; exact ⟨rfl, rfl⟩
    · split at e <;> cases e <;> exact ⟨rfl, rfl⟩
  · cases h

/-- `add_material_quick` never adds a material to a model, and never says so: with the only code it knows it returns `None` as for success and
everything that was not saved is lost; with any other code it returns `None` and does nothing. -/
theorem C101_quick_never (V : GEnv) (s : GSession) (code : String) (hL : Lived V s) :
    (GCall.addMaterialQuick code).run V s = (.ok .none, if code = "Q345" then GSession.fresh s.committed s.drawn else s) := by
  show gAddMaterialQuick code s = _
  unfold gAddMaterialQuick guarded
  by_cases hc : code = "Q345"
  · subst hc
    simp only [if_true, bind_run]
    have key : gAddMaterial "Q345" 7850 "isoelastic" (some 2.06e11) (some 0.3) s = (.ok (.bool false), GSession.fresh s.committed s.drawn) := by
      unfold gAddMaterial guarded
      rw [bind_run]
      rcases e : GM.query (fun db => db.mats.find? fun q => decide (q.name = "Q345")) s with ⟨x | o, t⟩
      · obtain ⟨h1, h2⟩ := query_error_keeps e
        simp only [e, undo, h1, h2, GSession.fresh]
      · obtain ⟨hs, ht, ho⟩ := Sees.of_query e
        obtain ⟨q, hq, -⟩ := find_name (f := fun q : MatRow => q.name) ((hasElastic_lived hL (Or.inl rfl)).sees (hasElastic_lasting _) hs).1
        rw [hq] at ho
        subst ho
        simp only [e, bind_run, check, Option.isNone_some, Bool.false_eq_true, if_false, fail]
        rw [ht]
        rfl
    rw [key]
    rfl
  · simp only [if_neg hc, bind_run, pure_run]

/-- an edit that was not saved is lost -/
example : ∃ s, Lived demoEnv s ∧ GSession.fresh s.committed s.drawn ≠ s := by
  obtain ⟨d, hL, st⟩ := lived_new demoEnv
  refine ⟨_, hL.call (.setUnit GUnit.kNmm.str), fun h => ?_⟩
  rw [show (GCall.setUnit GUnit.kNmm.str).run demoEnv (GSession.fresh d 0) = _ from gSetUnit_run (sees_fresh d 0) .kNmm] at h
  have h2 : d.unit = .kNmm := congrArg (fun s : GSession => s.work.unit) h
  rw [st.unit] at h2
  cases h2

/-! ## C100 what profiles store -/

theorem gISection_run {h b tw tf : ℝ} (hh : h ≠ 0) (hb : b ≠ 0) (t : GSession) : gISection h b tw tf t =
    (.ok (b * tf * 2 + tw * (h - 2 * tf), (b * tf ^ 3 * 2 + (h - tf) * tw ^ 3) / 3, 2 * tf * b ^ 3 / 12 + (h - 2 * tf) * tw ^ 3 / 12,
      b * h ^ 3 / 12 - (b - tw) * (h - 2 * tf) ^ 3 / 12), t) := by
  unfold gISection gDiv
  simp only [if_neg hh, if_neg hb]
  rfl

theorem gBox_run {h b tw tf : ℝ} (hh : h ≠ 0) (hb : b ≠ 0) (hw : tw ≠ 0) (hf : tf ≠ 0) (t : GSession) : gBox h b tw tf t =
    (.ok (h * b - (h - 2 * tf) * (b - 2 * tw), (2 * tw * (h - tf) / tw + 2 * tf * (b - tw) / tf) * 2 * (h * b - (h - 2 * tf) * (b - 2 * tw)),
      h * b ^ 3 / 12 - (h - 2 * tf) * (b - 2 * tw) ^ 3 / 12, b * h ^ 3 / 12 - (b - 2 * tw) * (h - 2 * tf) ^ 3 / 12), t) := by
  unfold gBox gDiv
  simp only [if_neg hh, if_neg hb, if_neg hw, if_neg hf]
  rfl

/-- What is stored for an I-profile of height `h` and width `b` (in metres `H` and `B`), whatever thicknesses are given: the height is taken as
thickness of the web and the width as thickness of the flanges. -/
theorem C100_i_actual (V : GEnv) (s : GSession) (db : Db) (n mat : String) (h b tw tf : ℝ) (hs : Sees s db)
    (hn : n ∉ (db.secs.map fun q => q.name)) (hm : mat ∈ (db.mats.map fun q => q.name)) (hh : h ≠ 0) (hb : b ≠ 0) (H B : ℝ)
    (eH : H = h * db.unit.metres) (eB : B = b * db.unit.metres) :
    ∃ s1, (GCall.addFrameSection n mat "I" [h, b, tw, tf]).run V s = (.ok (.bool true), s1) ∧
      Sees s1 { db with secs := db.secs ++ [⟨n, some mat, [H, B, H, B], H ^ 2 - 2 * H * B + 2 * B ^ 2, (2 * B ^ 4 + H ^ 4 - B * H ^ 3) / 3,
        (2 * B ^ 4 + H ^ 4 - 2 * B * H ^ 3) / 12, (B * H ^ 3 - (B - H) * (H - 2 * B) ^ 3) / 12⟩] } := by
  rw [GUnit.metres_eq] at eH eB
  have hL := db.unit.L_pos.ne'
  have hH : H ≠ 0 := eH ▸ mul_ne_zero hh hL
  have hB : B ≠ 0 := eB ▸ mul_ne_zero hb hL
  have key : ∀ t, gSection db.unit.L "I" [h, b, tw, tf] t = (.ok ([H, B, H, B], H ^ 2 - 2 * H * B + 2 * B ^ 2, (2 * B ^ 4 + H ^ 4 - B * H ^ 3) / 3,
        (2 * B ^ 4 + H ^ 4 - 2 * B * H ^ 3) / 12, (B * H ^ 3 - (B - H) * (H - 2 * B) ^ 3) / 12), t) := by
    intro t
    unfold gSection
    rw [if_neg (by decide), if_neg (by decide), if_pos rfl]
    simp only [bind_run, ← eH, ← eB, gISection_run hH hB, pure_run]
    refine Prod.ext (congrArg Except.ok ?_) rfl
    refine Prod.ext rfl (Prod.ext ?_ (Prod.ext ?_ (Prod.ext ?_ ?_))) <;> simp only <;> ring
  exact addFrameSection_stores hs hn hm (by simp) key

/-- What is stored for an L-profile of sizes `h` and `b`, whatever thicknesses are given: values of a box with the sizes as thicknesses. -/
theorem C100_l_actual (V : GEnv) (s : GSession) (db : Db) (n mat : String) (h b tw tf : ℝ) (hs : Sees s db)
    (hn : n ∉ (db.secs.map fun q => q.name)) (hm : mat ∈ (db.mats.map fun q => q.name)) (hh : h ≠ 0) (hb : b ≠ 0) (H B : ℝ)
    (eH : H = h * db.unit.metres) (eB : B = b * db.unit.metres) :
    ∃ s1, (GCall.addFrameSection n mat "L" [h, b, tw, tf]).run V s = (.ok (.bool true), s1) ∧
      Sees s1 { db with secs := db.secs ++ [⟨n, some mat, [H, B, H, B], 2 * (H - B) ^ 2, 0,
        (H * B ^ 3 - (H - 2 * B) * (B - 2 * H) ^ 3) / 12, (B * H ^ 3 - (B - 2 * H) * (H - 2 * B) ^ 3) / 12⟩] } := by
  rw [GUnit.metres_eq] at eH eB
  have hL := db.unit.L_pos.ne'
  have hH : H ≠ 0 := eH ▸ mul_ne_zero hh hL
  have hB : B ≠ 0 := eB ▸ mul_ne_zero hb hL
  have key : ∀ t, gSection db.unit.L "L" [h, b, tw, tf] t = (.ok ([H, B, H, B], 2 * (H - B) ^ 2, 0,
        (H * B ^ 3 - (H - 2 * B) * (B - 2 * H) ^ 3) / 12, (B * H ^ 3 - (B - 2 * H) * (H - 2 * B) ^ 3) / 12), t) := by
    intro t
    unfold gSection
    rw [if_neg (by decide), if_neg (by decide), if_neg (by decide), if_pos rfl]
    simp only [bind_run, ← eH, ← eB, gBox_run hH hB hH hB, pure_run]
    refine Prod.ext (congrArg Except.ok ?_) rfl
    refine Prod.ext rfl (Prod.ext ?_ (Prod.ext ?_ (Prod.ext ?_ ?_))) <;> simp only <;> field_simp <;> ring
  exact addFrameSection_stores hs hn hm (by simp) key

/-- a profile in a new model -/
example : ∃ s db, Sees s db ∧ "p" ∉ (db.secs.map fun q => q.name) ∧ "Q345" ∈ (db.mats.map fun q => q.name) ∧ (400 : ℝ) ≠ 0 ∧ db.unit.metres = 1 := by
  obtain ⟨s, db, -, hs, hn, hm, hu⟩ := section_witness
  exact ⟨s, db, hs, hn, hm, by norm_num, by rw [hu]; rfl⟩

/-! ## C98 names that are taken -/

/-- `add_frame` with the name of a frame of the model raises and changes nothing. -/
theorem C98_taken (V : GEnv) (s : GSession) (db : Db) (p q : ℝ × ℝ × ℝ) (sec n : String) (hs : Sees s db) (hn : n ∈ db.frames.map fun q => q.name)
    (h0 : n ≠ "") : ∃ e s1, (GCall.addFrame (xyz p) (xyz q) sec (some n)).run V s = (.error e, s1) ∧ Sees s1 db := by
  obtain ⟨r, hr, -⟩ := find_name (f := fun q : FrameRow => q.name) hn
  have : gFrameNameFree (some n) s = (.error .exception, s.flushed db) := by
    unfold gFrameNameFree
    simp only [if_neg h0, bind_run, hs.query, hr, check, Option.isNone_some, Bool.false_eq_true, if_false, fail]
  refine ⟨.exception, s.flushed db, ?_, hs.flushed⟩
  show gAddFrame V (xyz p) (xyz q) sec (some n) s = _
  unfold gAddFrame
  simp only [xyz, bind_run, this]

/-- A frame added with a name has that name. -/
theorem C98_named (V : GEnv) (s s1 : GSession) (p q : ℝ × ℝ × ℝ) (sec n : String) (r : GRet) (h0 : n ≠ "")
    (h : (GCall.addFrame (xyz p) (xyz q) sec (some n)).run V s = (.ok r, s1)) : r = .str n := by
  have h : (do
    gFrameNameFree (some n)
    let _ ← (query fun db => db.secs.find? fun q => q.name = sec) >>= need
    let u ← gScale
    let tol ← query fun db => db.tol
    let a ← gFindOrAdd V tol (p.1 * u.L) (p.2.1 * u.L) (p.2.2 * u.L)
    let b ← gFindOrAdd V tol q.1 q.2.1 q.2.2
    let e ← need (sortEnds a b)
    let id ← addNew V fun id => .frame ⟨frameName (some n) id, sec, e.1, e.2.1, e.2.2⟩
    pure (.str (frameName (some n) id)) : GM GRet) s = (.ok r, s1) := h
  obtain ⟨_, _, _, h⟩ := bind_ok h
  obtain ⟨_, _, _, h⟩ := bind_ok h
  obtain ⟨_, _, _, h⟩ := bind_ok h
  obtain ⟨_, _, _, h⟩ := bind_ok h
  obtain ⟨_, _, _, h⟩ := bind_ok h
  obtain ⟨_, _, _, h⟩ := bind_ok h
  obtain ⟨_, _, _, h⟩ := bind_ok h
  obtain ⟨_, _, _, h⟩ := bind_ok h
  cases h
  simp [frameName, h0]

/-- the frame of `frame_witness` -/
example : ∃ s db, Lived demoEnv s ∧ Sees s db ∧ "f" ∈ db.frames.map (fun q => q.name) := by
  obtain ⟨s, db, hL, hs, hj, hf, -⟩ := frame_witness
  exact ⟨s, db, hL, hs, by simp [hf]⟩

end Hyperstatic
