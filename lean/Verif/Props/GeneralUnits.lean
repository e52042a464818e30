import Verif.Props.GeneralFrames
import Verif.Lemmas.Section

/-
Properties of the database front end: sections, units of what is stored, look-up by coordinates.
-/

namespace Hyperstatic
open GM Spec

/-! ## C100 frame sections -/

/-- what a section added under name `n` must be: values of the shape, and no other section changed -/
def SectionAdded (a b : Db) (n mat : String) (S : Set (ℝ × ℝ)) : Prop :=
  ∃ q, b.secs = a.secs ++ [q] ∧ q.name = n ∧ q.material = some mat ∧ q.A = area S ∧ q.I2 = moment22 S ∧ q.I3 = moment33 S

/-- `add_frame_section` with a new name and an existing material stores the area and the second moments of the documented shape. -/
def C100_claim : Prop := ∀ (V : GEnv) (s : GSession) (db : Db) (n mat kind : String) (size : List ℝ) (S : Set (ℝ × ℝ)), Sees s db →
  n ∉ (db.secs.map fun q => q.name) → mat ∈ (db.mats.map fun q => q.name) → HasShape kind (size.map (· * db.unit.metres)) S →
  ∃ s1 db1, (GCall.addFrameSection n mat kind size).run V s = (.ok (.bool true), s1) ∧ Sees s1 db1 ∧ SectionAdded db db1 n mat S

/-- For round sections the torsion constant is the polar second moment. -/
def C100_torsion_claim : Prop := ∀ (V : GEnv) (s s1 : GSession) (db db1 : Db) (n mat kind : String) (size : List ℝ) (S : Set (ℝ × ℝ)), Sees s db →
  kind = "o" ∨ kind = "O" → HasShape kind (size.map (· * db.unit.metres)) S →
  (GCall.addFrameSection n mat kind size).run V s = (.ok (.bool true), s1) → Sees s1 db1 → ∀ q ∈ db1.secs, q.name = n → q.J = moment22 S + moment33 S

theorem gCircle_run {d : ℝ} (hd : d ≠ 0) (t : GSession) : gCircle d t = (.ok (Real.pi * d ^ 2 / 4, Real.pi * d ^ 4 / 32, Real.pi * d ^ 4 / 64, Real.pi * d ^ 4 / 64), t) := by
  unfold gCircle gDiv
  simp only [if_neg hd]
  rfl

theorem gPipe_run {d w : ℝ} (hd : d ≠ 0) (hw : w ≠ 0) (t : GSession) : gPipe d w t =
    (.ok (Real.pi * d ^ 2 / 4 - Real.pi * (d - 2 * w) ^ 2 / 4, Real.pi * (d - w) / w * 2 * (Real.pi * d ^ 2 / 4 - Real.pi * (d - 2 * w) ^ 2 / 4),
      Real.pi * d ^ 4 / 64 * (1 - ((d - 2 * w) / d) ^ 4), Real.pi * d ^ 4 / 64 * (1 - ((d - 2 * w) / d) ^ 4)), t) := by
  unfold gPipe gDiv
  simp only [if_neg hd, if_neg hw]
  rfl

theorem addFrameSection_stores {V : GEnv} {s : GSession} {db : Db} (hs : Sees s db) {n mat kind : String} {size : List ℝ} (hn : n ∉ (db.secs.map fun q => q.name))
    (hm : mat ∈ (db.mats.map fun q => q.name)) (hk : kind ∈ ["O", "o", "I", "B", "L", "T", "C", "Z"]) {v : List ℝ × ℝ × ℝ × ℝ × ℝ}
    (hv : ∀ t, gSection db.unit.L kind size t = (.ok v, t)) :
    ∃ s1, (GCall.addFrameSection n mat kind size).run V s = (.ok (.bool true), s1) ∧
      Sees s1 { db with secs := db.secs ++ [⟨n, some mat, v.1, v.2.1, v.2.2.1, v.2.2.2.1, v.2.2.2.2⟩] } :=
  ⟨_, gAddFrameSection_run hs hn hm hk hv, hs.with_pending (flushAll_one (flush_sec hn))⟩

theorem HasShape.of_circle {k : String} {l : List ℝ} {S : Set (ℝ × ℝ)} (h : HasShape k l S) (hk : k = "o") : ∃ d, 0 < d ∧ l = [d] ∧ S = discShape d := by
  cases h with
  | circle hd => exact ⟨_, hd, rfl, rfl⟩
  | pipe => exact absurd hk (by decide)
  | i => exact absurd hk (by decide)
  | box => exact absurd hk (by decide)

theorem HasShape.of_pipe {k : String} {l : List ℝ} {S : Set (ℝ × ℝ)} (h : HasShape k l S) (hk : k = "O") :
    ∃ d t, 0 < t ∧ 2 * t < d ∧ l = [d, t] ∧ S = pipeShape d t := by
  cases h with
  | circle => exact absurd hk (by decide)
  | pipe ht hd => exact ⟨_, _, ht, hd, rfl, rfl⟩
  | i => exact absurd hk (by decide)
  | box => exact absurd hk (by decide)

theorem gSection_circle {L d : ℝ} (hd : d * L ≠ 0) (t : GSession) : gSection L "o" [d] t =
    (.ok ([d * L], Real.pi * (d * L) ^ 2 / 4, Real.pi * (d * L) ^ 4 / 32, Real.pi * (d * L) ^ 4 / 64, Real.pi * (d * L) ^ 4 / 64), t) := by
  unfold gSection
  rw [if_pos rfl]
  simp only [bind_run, gCircle_run hd, pure_run]

theorem gSection_pipe {L d w : ℝ} (hd : d * L ≠ 0) (hw : w * L ≠ 0) (t : GSession) : gSection L "O" [d, w] t =
    (.ok ([d * L, w * L], Real.pi * (d * L) ^ 2 / 4 - Real.pi * (d * L - 2 * (w * L)) ^ 2 / 4,
      Real.pi * (d * L - w * L) / (w * L) * 2 * (Real.pi * (d * L) ^ 2 / 4 - Real.pi * (d * L - 2 * (w * L)) ^ 2 / 4),
      Real.pi * (d * L) ^ 4 / 64 * (1 - ((d * L - 2 * (w * L)) / (d * L)) ^ 4), Real.pi * (d * L) ^ 4 / 64 * (1 - ((d * L - 2 * (w * L)) / (d * L)) ^ 4)), t) := by
  unfold gSection
  rw [if_neg (by decide), if_pos rfl]
  simp only [bind_run, gPipe_run hd hw, pure_run]

/-- Proved for circles and pipes.  Missing: profiles, see `C100_false`. -/
theorem C100_round_partial (V : GEnv) (s : GSession) (db : Db) (n mat kind : String) (size : List ℝ) (S : Set (ℝ × ℝ)) (hs : Sees s db)
    (hn : n ∉ (db.secs.map fun q => q.name)) (hm : mat ∈ (db.mats.map fun q => q.name)) (hk : kind = "o" ∨ kind = "O")
    (h : HasShape kind (size.map (· * db.unit.metres)) S) :
    ∃ s1 db1, (GCall.addFrameSection n mat kind size).run V s = (.ok (.bool true), s1) ∧ Sees s1 db1 ∧ SectionAdded db db1 n mat S := by
  rw [GUnit.metres_eq] at h
  rcases hk with rfl | rfl
  · obtain ⟨d', hd, e, rfl⟩ := h.of_circle rfl
    rcases size with _ | ⟨d, _ | ⟨b, t⟩⟩ <;> simp at e
    subst e
    obtain ⟨s1, e1, h1⟩ := addFrameSection_stores (V := V) (kind := "o") (size := [d]) hs hn hm (by simp) (gSection_circle hd.ne')
    obtain ⟨v1, v2, v3⟩ := disc_values hd.le
    refine ⟨s1, _, e1, h1, _, rfl, rfl, rfl, ?_, ?_, ?_⟩
    · rw [v1]; ring
    · rw [v3]; ring
    · rw [v2]; ring
  · obtain ⟨d', w', hw, hd, e, rfl⟩ := h.of_pipe rfl
    rcases size with _ | ⟨d, _ | ⟨w, _ | ⟨c, t⟩⟩⟩ <;> simp at e
    obtain ⟨rfl, rfl⟩ := e
    have hd0 : d * db.unit.L ≠ 0 := by linarith
    obtain ⟨s1, e1, h1⟩ := addFrameSection_stores (V := V) (kind := "O") (size := [d, w]) hs hn hm (by simp) (gSection_pipe hd0 hw.ne')
    obtain ⟨v1, v2, v3⟩ := pipe_values hw.le hd.le
    have key : Real.pi * (d * db.unit.L) ^ 4 / 64 * (1 - ((d * db.unit.L - 2 * (w * db.unit.L)) / (d * db.unit.L)) ^ 4) =
        Real.pi / 64 * ((d * db.unit.L) ^ 4 - (d * db.unit.L - 2 * (w * db.unit.L)) ^ 4) := by
      generalize d * db.unit.L = x at *
      rw [div_pow]
      field_simp
    refine ⟨s1, _, e1, h1, _, rfl, rfl, rfl, ?_, ?_, ?_⟩
    · rw [v1]; ring
    · rw [v3]; exact key
    · rw [v2]; exact key

/-- Boxes, T-, C- and Z-profiles are always refused. -/
theorem C100_refused (V : GEnv) (s : GSession) (n mat kind : String) (size : List ℝ) (hk : kind ∈ ["B", "T", "C", "Z"]) :
    ((GCall.addFrameSection n mat kind size).run V s).1 = .ok (.bool false) := by
  have hg : gSection = fun L kind size => gSection L kind size := rfl
  have hf : ∀ L, gSection L kind size = fail .attributeError := by
    intro L
    simp only [List.mem_cons, List.not_mem_nil, or_false] at hk
    rcases hk with rfl | rfl | rfl | rfl <;> (unfold gSection; rw [if_neg (by decide), if_neg (by decide), if_neg (by decide), if_neg (by decide)])
  rcases e : (GCall.addFrameSection n mat kind size).run V s with ⟨_ | r, s'⟩
  · exfalso
    have e : gAddFrameSection n mat kind size s = (.error _, s') := e
    unfold gAddFrameSection guarded at e
    split at e <;> cases e
  · by_contra hne
    have hne : r ≠ .bool false := fun h => hne (by rw [h])
    have h := guarded_ok (show gAddFrameSection n mat kind size s = _ from e) hne
    obtain ⟨_, _, -, h⟩ := bind_ok h
    obtain ⟨u, _, -, h⟩ := bind_ok h
    obtain ⟨_, _, -, h⟩ := bind_ok h
    obtain ⟨_, _, -, h⟩ := bind_ok h
    obtain ⟨_, _, -, h⟩ := bind_ok h
    rw [hf] at h
    obtain ⟨_, _, h, -⟩ := bind_ok h
    cases h

/-- The thicknesses given for an I-profile have no influence. -/
theorem C100_thickness_ignored (V : GEnv) (s : GSession) (n mat : String) (h b tw tf tw' tf' : ℝ) :
    (GCall.addFrameSection n mat "I" [h, b, tw, tf]).run V s = (GCall.addFrameSection n mat "I" [h, b, tw', tf']).run V s := rfl

/-- a new model has the material Q345 and one section -/
theorem section_witness : ∃ s db, Lived demoEnv s ∧ Sees s db ∧ "p" ∉ (db.secs.map fun q => q.name) ∧ "Q345" ∈ (db.mats.map fun q => q.name) ∧ db.unit = .Nm := by
  obtain ⟨d, hL, st⟩ := lived_new demoEnv
  exact ⟨_, d, hL, sees_fresh d 0, by rw [st.secs]; decide, by rw [st.mats]; decide, st.unit⟩

theorem C100_false : ¬ C100_claim := by
  intro h
  obtain ⟨s, db, -, hs, hn, hm, hu⟩ := section_witness
  obtain ⟨s1, db1, e, -⟩ := h demoEnv s db "p" "Q345" "B" [4, 3, 1, 1] _ hs hn hm
    (by simp only [hu, GUnit.metres, List.map_cons, List.map_nil, mul_one]; exact .box (by norm_num) (by norm_num) (by norm_num) (by norm_num))
  have := C100_refused demoEnv s "p" "Q345" "B" [4, 3, 1, 1] (by simp)
  rw [e] at this
  cases this

/-- the torsion constant of a circle is right -/
theorem C100_circle_torsion_partial (V : GEnv) (s : GSession) (db : Db) (n mat : String) (d : ℝ) (hs : Sees s db) (hd : 0 < d)
    (hn : n ∉ (db.secs.map fun q => q.name)) (hm : mat ∈ (db.mats.map fun q => q.name)) :
    ∃ s1 db1 q, (GCall.addFrameSection n mat "o" [d]).run V s = (.ok (.bool true), s1) ∧ Sees s1 db1 ∧ db1.secs = db.secs ++ [q] ∧
      q.J = moment22 (discShape (d * db.unit.metres)) + moment33 (discShape (d * db.unit.metres)) := by
  rw [GUnit.metres_eq]
  have hd' := mul_pos hd db.unit.L_pos
  obtain ⟨s1, e1, h1⟩ := addFrameSection_stores (V := V) (kind := "o") (size := [d]) hs hn hm (by simp)
    (gSection_circle hd'.ne')
  obtain ⟨-, v2, v3⟩ := disc_values hd'.le
  refine ⟨s1, _, _, e1, h1, rfl, ?_⟩
  rw [v2, v3]; simp only; ring

/-- The torsion constant of a pipe of diameter 4 and thickness 1 is not its polar moment. -/
theorem C100_torsion_false : ¬ C100_torsion_claim := by
  intro h
  obtain ⟨s, db, -, hs, hn, hm, hu⟩ := section_witness
  have hL : db.unit.L = 1 := by rw [hu]; rfl
  obtain ⟨s1, e1, h1⟩ := addFrameSection_stores (V := demoEnv) (kind := "O") (size := [4, 1]) hs hn hm (by simp)
    (gSection_pipe (by rw [hL]; norm_num) (by rw [hL]; norm_num))
  have := h demoEnv s s1 db _ "p" "Q345" "O" [4, 1] (pipeShape 4 1) hs (Or.inr rfl)
    (by simp only [GUnit.metres_eq, hL, List.map_cons, List.map_nil, mul_one]; exact .pipe (by norm_num) (by norm_num)) e1 h1 _
    (List.mem_append_right _ (List.mem_singleton.mpr rfl)) rfl
  obtain ⟨-, v2, v3⟩ := pipe_values (d := 4) (t := 1) (by norm_num) (by norm_num)
  rw [v2, v3] at this
  simp only [hL] at this
  have hp := Real.two_le_pi
  have h2 : Real.pi * (Real.pi * 18 - 7.5) = 0 := by nlinarith
  rcases mul_eq_zero.mp h2 with h3 | h3 <;> linarith

example : ∃ s db, Sees s db ∧ "p" ∉ (db.secs.map fun q => q.name) ∧ "Q345" ∈ (db.mats.map fun q => q.name) ∧
    HasShape "O" ([2, 1 / 2].map (· * db.unit.metres)) (pipeShape 2 (1 / 2)) := by
  obtain ⟨s, db, -, hs, hn, hm, hu⟩ := section_witness
  refine ⟨s, db, hs, hn, hm, ?_⟩
  simp only [hu, GUnit.metres, List.map_cons, List.map_nil, mul_one]
  exact .pipe (by norm_num) (by norm_num)

/-! ## C101 what is stored is in SI -/

theorem flush_mat_mem {db db' : Db} {r : MatRow} (h : (Pend.mat r).flush db = some db') : db' = { db with mats := db.mats ++ [r] } := by
  simp only [Pend.flush] at h
  split_ifs at h
  exact (Option.some.inj h).symm

theorem flush_iso_mem {db db' : Db} {r : IsoRow} (h : (Pend.iso r).flush db = some db') : db' = { db with isos := db.isos ++ [r] } := by
  simp only [Pend.flush] at h
  split_ifs at h
  exact (Option.some.inj h).symm

theorem gAddMaterial_ok {s s1 : GSession} {name kind : String} {rho : ℝ} {E mu : Option ℝ} (h : gAddMaterial name rho kind E mu s = (.ok (.bool true), s1)) :
    ∃ db, Sees s db ∧ ∀ db1, Sees s1 db1 → db1.mats = db.mats ++ [⟨name, rho * (db.unit.F * (db.unit.L ^ 4)⁻¹), kind⟩] ∧
      (kind = "isotropic_elastic" → ∃ e m, E = some e ∧ mu = some m ∧ db1.isos = db.isos ++ [⟨name, e * (db.unit.F * (db.unit.L ^ 2)⁻¹), m⟩]) := by
  obtain ⟨o, t1, h1, h⟩ := bind_ok (guarded_ok h (by simp))
  obtain ⟨hs, ht, -⟩ := Sees.of_query h1
  refine ⟨_, hs, fun db1 hd1 => ?_⟩
  generalize t1.work = db at hs ht
  subst ht
  obtain ⟨_, t2, h2, h⟩ := bind_ok h
  obtain ⟨-, rfl⟩ := check_ok h2
  rw [bind_run, gScale_run hs.flushed] at h
  simp only [flushed_flushed] at h
  obtain ⟨_, t3, h3, h⟩ := bind_ok h
  simp only [bind_run, add_run, pure_run, Prod.mk.injEq, true_and] at h
  subst h
  unfold gIsoPart at h3
  split_ifs at h3 with hk
  · rcases E with _ | e
    · cases h3
    rcases mu with _ | m
    · cases h3
    simp only [add_run, Prod.mk.injEq, true_and] at h3
    subst h3
    have := hd1.2
    simp only [GSession.flushed, List.nil_append, List.cons_append, flushAll] at this
    rcases e1 : (Pend.iso ⟨name, e * (db.unit.F * (db.unit.L ^ 2)⁻¹), m⟩).flush db with _ | d1
    · rw [e1] at this; simp at this
    · rw [e1, Option.bind_some] at this
      rcases e2 : (Pend.mat ⟨name, rho * (db.unit.F * (db.unit.L ^ 4)⁻¹), kind⟩).flush d1 with _ | d2
      · rw [e2] at this; simp at this
      · rw [e2, Option.bind_some] at this
        cases this
        rw [flush_mat_mem e2, flush_iso_mem e1]
        exact ⟨rfl, fun _ => ⟨e, m, rfl, rfl, rfl⟩⟩
  · cases h3
    have := hd1.2
    simp only [GSession.flushed, List.nil_append, flushAll] at this
    rcases e2 : (Pend.mat ⟨name, rho * (db.unit.F * (db.unit.L ^ 4)⁻¹), kind⟩).flush db with _ | d2
    · rw [e2] at this; simp at this
    · rw [e2, Option.bind_some] at this
      cases this
      rw [flush_mat_mem e2]
      exact ⟨rfl, fun h => absurd h hk⟩

/-- `add_material` stores density and elastic constants in SI and changes no other material. -/
theorem C101_material (V : GEnv) (s s1 : GSession) (db db1 : Db) (name : String) (rho e m : ℝ) (hs : Sees s db)
    (h : (GCall.addMaterial name rho "isotropic_elastic" (some e) (some m)).run V s = (.ok (.bool true), s1)) (hs1 : Sees s1 db1) :
    db1.mats = db.mats ++ [⟨name, rho * db.unit.density, "isotropic_elastic"⟩] ∧ db1.isos = db.isos ++ [⟨name, e * db.unit.stress, m⟩] := by
  obtain ⟨db', hs', h'⟩ := gAddMaterial_ok h
  cases hs.unique hs'
  obtain ⟨h1, h2⟩ := h' db1 hs1
  obtain ⟨e', m', he, hm, h2⟩ := h2 rfl
  cases he; cases hm
  have hL := db.unit.L_pos.ne'
  have e1 : db.unit.density = db.unit.F * (db.unit.L ^ 4)⁻¹ := by unfold GUnit.density; rw [GUnit.metres_eq, GUnit.newtons_eq]; field_simp
  have e2 : db.unit.stress = db.unit.F * (db.unit.L ^ 2)⁻¹ := by unfold GUnit.stress; rw [GUnit.metres_eq, GUnit.newtons_eq]; field_simp
  rw [e1, e2]
  exact ⟨h1, h2⟩

/-- `add_area_section` stores the thickness in SI. -/
theorem C101_thickness (V : GEnv) (s s1 : GSession) (db db1 : Db) (name mat kind : String) (t : ℝ) (hs : Sees s db)
    (h : (GCall.addAreaSection name mat kind t).run V s = (.ok (.bool true), s1)) (hs1 : Sees s1 db1) :
    db1.asecs = db.asecs ++ [⟨name, some mat, kind, t * db.unit.metres⟩] := by
  rw [GUnit.metres_eq]
  obtain ⟨_, t1, h1, h0⟩ := bind_ok (guarded_ok (show gAddAreaSection name mat kind t s = _ from h) (by simp))
  obtain ⟨-, rfl⟩ := check_ok h1
  clear h
  rename' h0 => h
  rw [bind_run, gScale_run hs] at h
  simp only at h
  rw [bind_run, hs.query_flushed] at h
  simp only at h
  obtain ⟨_, t2, h2, h⟩ := bind_ok h
  obtain ⟨-, rfl⟩ := check_ok h2
  simp only [bind_run, add_run, pure_run, Prod.mk.injEq, true_and] at h
  subst h
  have := hs1.2
  simp only [GSession.flushed, List.nil_append, flushAll, Pend.flush] at this
  split_ifs at this
  · simp at this
  · simp only [Option.bind_some, Option.some.injEq] at this
    rw [← this]

/-- `set_material_isotropic_elastic` stores the elastic constants in SI. -/
def C101_claim : Prop := ∀ (V : GEnv) (s s1 : GSession) (db db1 : Db) (name : String) (e m : ℝ), Sees s db →
  (GCall.setMaterialIso name e m).run V s = (.ok (.bool true), s1) → Sees s1 db1 →
  ∀ q ∈ db1.isos, q.material = name → q.E = e * db.unit.stress ∧ q.mu = m

theorem gSetMaterialIso_ok {s s1 : GSession} {db : Db} (hs : Sees s db) {name : String} {e m : ℝ} (h : gSetMaterialIso name e m s = (.ok (.bool true), s1)) :
    name ∈ (db.mats.map fun q => q.name) ∧ name ∈ (db.isos.map fun q => q.material) ∧
    Sees s1 { db with isos := db.isos.map fun q => if q.material = name then { q with E := e, mu := m } else q } := by
  obtain ⟨o, t1, h1, h⟩ := bind_ok (guarded_ok h (by simp))
  obtain ⟨h1, ht, hx⟩ := lookup_ok h1
  have hw := hs.unique h1
  rw [← hw] at ht hx
  subst ht
  rw [bind_run, hs.query_flushed] at h
  simp only at h
  rcases hq : db.isos.find? fun q => q.material = name with _ | q
  · rw [hq] at h; cases h
  · rw [hq] at h
    simp only [bind_run, update_run, pure_run, Prod.mk.injEq, true_and] at h
    subst h
    refine ⟨List.mem_map.mpr ⟨o, List.mem_of_find?_eq_some hx, by simpa using List.find?_some hx⟩,
      List.mem_map.mpr ⟨q, List.mem_of_find?_eq_some hq, by simpa using List.find?_some hq⟩, hs.1, rfl⟩

/-- Proved in the unit N, m.  In every unit the given numbers are stored as they are and no other material changes. -/
theorem C101_set_partial (V : GEnv) (s s1 : GSession) (db db1 : Db) (name : String) (e m : ℝ) (hs : Sees s db)
    (h : (GCall.setMaterialIso name e m).run V s = (.ok (.bool true), s1)) (hs1 : Sees s1 db1) :
    (∃ q ∈ db1.isos, q.material = name) ∧ (∀ q ∈ db1.isos, q.material = name → q.E = e ∧ q.mu = m ∧ (db.unit = .Nm → q.E = e * db.unit.stress)) ∧
    ∀ q : IsoRow, q.material ≠ name → (q ∈ db1.isos ↔ q ∈ db.isos) := by
  obtain ⟨-, hi, h1⟩ := gSetMaterialIso_ok hs h
  cases hs1.unique h1
  refine ⟨?_, ?_, ?_⟩
  · obtain ⟨q, hq, hn⟩ := List.mem_map.mp hi
    refine ⟨_, List.mem_map.mpr ⟨q, hq, rfl⟩, ?_⟩
    rw [if_pos hn]; exact hn
  · rintro q hq hn
    obtain ⟨r, hr, rfl⟩ := List.mem_map.mp hq
    by_cases hc : r.material = name
    · rw [if_pos hc]
      refine ⟨rfl, rfl, fun hu => ?_⟩
      simp [GUnit.stress, hu, GUnit.newtons, GUnit.metres]
    · rw [if_neg hc] at hn; exact absurd hn hc
  · intro q hn
    constructor
    · intro hq
      obtain ⟨r, hr, rfl⟩ := List.mem_map.mp hq
      by_cases hc : r.material = name
      · rw [if_pos hc] at hn; exact absurd hc hn
      · rw [if_neg hc]; exact hr
    · intro hq
      exact List.mem_map.mpr ⟨q, hq, if_neg hn⟩

/-- a new model in some unit, seen from inside -/
theorem stock_witness (u : GUnit) : ∃ s db, Lived demoEnv s ∧ Sees s db ∧ db.unit = u ∧
    (db.mats.map fun q => q.name) = ["Q345", "C35"] ∧ (db.isos.map fun q => q.material) = ["Q345", "C35"] := by
  obtain ⟨d, hL, st⟩ := lived_new demoEnv
  refine ⟨_, { d with unit := u }, hL.call (.setUnit u.str), ?_, rfl, st.mats, st.isos⟩
  rw [show (GCall.setUnit u.str).run demoEnv (GSession.fresh d 0) = _ from gSetUnit_run (sees_fresh d 0) u]
  exact ⟨rfl, rfl⟩

theorem gSetMaterialIso_run {s : GSession} {db : Db} (hs : Sees s db) {name : String} (hm : name ∈ db.mats.map fun q => q.name)
    (hi : name ∈ db.isos.map fun q => q.material) (e m : ℝ) : ∃ s1, gSetMaterialIso name e m s = (.ok (.bool true), s1) := by
  obtain ⟨q, hq, -⟩ := find_name (f := fun q : MatRow => q.name) hm
  obtain ⟨r, hr, -⟩ := find_name (f := fun q : IsoRow => q.material) hi
  unfold gSetMaterialIso guarded
  simp only [bind_run, hs.query, hq, need_some, hs.query_flushed, hr, update_run, pure_run]
  exact ⟨_, rfl⟩

/-- In kN and m a Young's modulus set for Q345 is stored a thousand times too small. -/
theorem C101_false : ¬ C101_claim := by
  intro h
  obtain ⟨s, db, -, hs, hu, hm, hi⟩ := stock_witness .kNm
  obtain ⟨s1, e⟩ := gSetMaterialIso_run hs (name := "Q345") (by rw [hm]; simp) (by rw [hi]; simp) 1 0
  obtain ⟨-, -, h1⟩ := gSetMaterialIso_ok hs e
  obtain ⟨⟨q, hq, hn⟩, h2, -⟩ := C101_set_partial demoEnv s s1 db _ "Q345" 1 0 hs e h1
  have h3 := h demoEnv s s1 db _ "Q345" 1 0 hs e h1 q hq hn
  rw [(h2 q hq hn).1, hu] at h3
  norm_num [GUnit.stress, GUnit.newtons, GUnit.metres] at h3

example : ∃ s s1 db, Sees s db ∧ (GCall.setMaterialIso "C35" 3 0).run demoEnv s = (.ok (.bool true), s1) ∧ ∃ db1, Sees s1 db1 := by
  obtain ⟨s, db, -, hs, hu, hm, hi⟩ := stock_witness .Nm
  obtain ⟨s1, e⟩ := gSetMaterialIso_run hs (name := "C35") (by rw [hm]; simp) (by rw [hi]; simp) 3 0
  obtain ⟨-, -, h1⟩ := gSetMaterialIso_ok hs e
  exact ⟨s, s1, db, hs, e, _, h1⟩

example : ∃ s s1 db db1, Sees s db ∧ (GCall.addMaterial "m" 7 "isotropic_elastic" (some 3) (some 0)).run demoEnv s = (.ok (.bool true), s1) ∧ Sees s1 db1 := by
  obtain ⟨s, db, -, hs, hu, hm, hi⟩ := stock_witness .kNmm
  refine ⟨s, _, db, _, hs, gAddMaterial_run hs (by rw [hm]; decide) 7 3 0,
    hs.with_pending (flushAll_two (flush_iso (by rw [hi]; simp)) (flush_mat (by show "m" ∉ db.mats.map _; rw [hm]; simp)))⟩

/-! ## C102 look-up of joints by coordinates -/

/-- `get_joint_name_by_coor` lists exactly the joints whose coordinates are nearer than the tolerance to those given. -/
def C102_claim : Prop := ∀ (V : GEnv) (s : GSession) (x y z : Option ℝ) (t : ℝ) (l : List String), Lived V s →
  (GCall.getTolerance.run V s).1 = .ok (.num t) → ((GCall.getJointNameByCoor x y z).run V s).1 = .ok (.names l) →
  ∀ n, n ∈ l ↔ ∃ a b c, ((GCall.getJointCoordinate n).run V s).1 = .ok (.nums [a, b, c]) ∧
    (∀ v ∈ x, |a - v| < t) ∧ (∀ v ∈ y, |b - v| < t) ∧ ∀ v ∈ z, |c - v| < t

theorem coorFilter_metre {L tol : ℝ} (hL : L = 1) (w : Option ℝ) (a : ℝ) : coorFilter L tol w a ↔ ∀ v ∈ w, |a / L - v| < tol / L := by
  subst hL
  rcases w with _ | v
  · simp [coorFilter]
  · simp only [coorFilter, mul_one, div_one, Option.mem_def, Option.some.injEq, forall_eq', abs_lt]
    constructor
    · rintro ⟨h1, h2⟩; constructor <;> linarith
    · rintro ⟨h1, h2⟩; constructor <;> linarith

/-- Proved in units whose length is the metre.  Missing: millimetres. -/
theorem C102_metre_partial (V : GEnv) (s : GSession) (x y z : Option ℝ) (t : ℝ) (l : List String) (u : GUnit) (hL : Lived V s)
    (hu : (GCall.getUnit.run V s).1 = .ok (.str u.str)) (hm : u.metres = 1)
    (ht : (GCall.getTolerance.run V s).1 = .ok (.num t)) (hl : ((GCall.getJointNameByCoor x y z).run V s).1 = .ok (.names l)) :
    l.Nodup ∧ ∀ n, n ∈ l ↔ ∃ a b c, ((GCall.getJointCoordinate n).run V s).1 = .ok (.nums [a, b, c]) ∧
      (∀ v ∈ x, |a - v| < t) ∧ (∀ v ∈ y, |b - v| < t) ∧ ∀ v ∈ z, |c - v| < t := by
  rw [GUnit.metres_eq] at hm
  obtain ⟨db, hs, rfl⟩ := sees_of_unit hu
  obtain ⟨db', hs', rfl⟩ := sees_of_tol ht
  cases hs.unique hs'
  have hk := (keyed_lasting.lived keyed_empty hL).sees keyed_lasting hs
  have hr : (gGetJointNameByCoor x y z s).1 = .ok (.names l) := hl
  simp only [gGetJointNameByCoor, guarded, bind_run, hs.query, gScale_run hs.flushed, flushed_flushed, hs.query_flushed, pure_run,
    Except.ok.injEq, GRet.names.injEq] at hr
  subst hr
  refine ⟨?_, fun n => ?_⟩
  · exact nodup_filter _ hk.joints
  have hc : ∀ n, ((GCall.getJointCoordinate n).run V s).1 = (gGetJointCoordinate n s).1 := fun _ => rfl
  rw [hc, gGetJointCoordinate_run hs]
  constructor
  · intro h
    obtain ⟨q, hq, rfl⟩ := List.mem_map.mp h
    rw [List.mem_filter] at hq
    obtain ⟨hq, hf⟩ := hq
    simp only [decide_eq_true_eq, coorFilter_metre hm] at hf
    rw [find_unique hk.joints hq]
    exact ⟨_, _, _, rfl, hf⟩
  · rintro ⟨a, b, c, h, h1, h2, h3⟩
    rcases e : db.joints.find? fun q => q.name = n with _ | q
    · rw [e] at h; cases h
    · rw [e] at h
      simp only [Except.ok.injEq, GRet.nums.injEq, List.cons.injEq, and_true] at h
      obtain ⟨rfl, rfl, rfl⟩ := h
      have hn : q.name = n := by simpa using List.find?_some e
      refine List.mem_map.mpr ⟨q, List.mem_filter.mpr ⟨List.mem_of_find?_eq_some e, ?_⟩, hn⟩
      simp only [decide_eq_true_eq, coorFilter_metre hm]
      exact ⟨h1, h2, h3⟩

/-- a new model in some unit with one joint at (1, 0, 0) metres -/
theorem one_joint_witness (u : GUnit) : ∃ s db, Lived demoEnv s ∧ Sees s db ∧ db.unit = u ∧ db.tol = 1 / 1000000 ∧ db.joints = [⟨"0", 1, 0, 0⟩] := by
  obtain ⟨d, hL, st⟩ := lived_new demoEnv
  have e0 : demoEnv.uuid 0 = "0" := by show toString (0 : ℕ) = "0"; decide
  have hs : Sees ((GCall.setUnit u.str).run demoEnv (GSession.fresh d 0)).2 { d with unit := u } := by
    rw [show (GCall.setUnit u.str).run demoEnv (GSession.fresh d 0) = _ from gSetUnit_run (sees_fresh d 0) u]
    exact ⟨rfl, rfl⟩
  refine ⟨_, { d with unit := u, joints := [⟨"0", 1, 0, 0⟩] }, (hL.call (.setUnit u.str)).call (.addJoint 1 0 0), ?_, rfl, st.tol, rfl⟩
  have hd : ((GCall.setUnit u.str).run demoEnv (GSession.fresh d 0)).2.drawn = 0 := by
    rw [show (GCall.setUnit u.str).run demoEnv (GSession.fresh d 0) = _ from gSetUnit_run (sees_fresh d 0) u]; rfl
  generalize ((GCall.setUnit u.str).run demoEnv (GSession.fresh d 0)).2 = s at hs hd
  refine ⟨hs.1, ?_⟩
  show flushAll s.work (s.pending ++ [.joint ⟨demoEnv.uuid s.drawn, 1, 0, 0⟩]) = _
  rw [flushAll_append, hs.2, hd, e0]
  refine (flushAll_one (flush_joint (by simp [st.joints]))).trans ?_
  simp [st.joints]

/-- In millimetres a joint at x = 1000 is not found there. -/
theorem C102_false : ¬ C102_claim := by
  intro h
  obtain ⟨s, db, hL, hs, hu, ht, hj⟩ := one_joint_witness .Nmm
  have hmm : db.unit.L = 1 / 1000 := by rw [hu]; rfl
  have h1 : ((GCall.getJointNameByCoor (some 1000) none none).run demoEnv s).1 = .ok (.names []) := by
    show (gGetJointNameByCoor _ _ _ s).1 = _
    simp only [gGetJointNameByCoor, guarded, bind_run, hs.query, gScale_run hs.flushed, flushed_flushed, hs.query_flushed, pure_run,
      Except.ok.injEq, GRet.names.injEq, hj]
    rw [List.filter_eq_nil_iff.mpr]
    · rfl
    · intro q hq
      simp only [List.mem_singleton] at hq
      subst hq
      norm_num [coorFilter, hmm, ht]
  have h2 : (GCall.getTolerance.run demoEnv s).1 = .ok (.num (db.tol / db.unit.L)) := by
    show (gGetTolerance _).1 = _
    simp only [gGetTolerance, caught, bind_run, gScale_run hs, hs.query_flushed, pure_run]
  have h3 := (h demoEnv s (some 1000) none none _ [] hL h2 h1 "0").mpr ⟨1 / db.unit.L, 0 / db.unit.L, 0 / db.unit.L, ?_, ?_, by simp, by simp⟩
  · simp at h3
  · show (gGetJointCoordinate "0" s).1 = _
    rw [gGetJointCoordinate_run hs, hj]
    simp
  · rw [ht, hmm]; norm_num

example : ∃ s l t, Lived demoEnv s ∧ (GCall.getUnit.run demoEnv s).1 = .ok (.str GUnit.Nm.str) ∧ GUnit.Nm.L = 1 ∧
    (GCall.getTolerance.run demoEnv s).1 = .ok (.num t) ∧ ((GCall.getJointNameByCoor (some 1) none none).run demoEnv s).1 = .ok (.names l) ∧ l ≠ [] := by
  obtain ⟨s, db, hL, hs, hu, ht, hj⟩ := one_joint_witness .Nm
  refine ⟨s, ["0"], db.tol / db.unit.L, hL, ?_, rfl, ?_, ?_, by simp⟩
  · show (gGetUnit s).1 = _
    rw [gGetUnit_run hs, hu]
  · show (gGetTolerance _).1 = _
    simp only [gGetTolerance, caught, bind_run, gScale_run hs, hs.query_flushed, pure_run]
  · show (gGetJointNameByCoor _ _ _ s).1 = _
    simp only [gGetJointNameByCoor, guarded, bind_run, hs.query, gScale_run hs.flushed, flushed_flushed, hs.query_flushed, pure_run,
      Except.ok.injEq, GRet.names.injEq, hj]
    rw [List.filter_eq_self.mpr]
    · rfl
    · intro q hq
      simp only [List.mem_singleton] at hq
      subst hq
      norm_num [coorFilter, hu, GUnit.L, ht]

end Hyperstatic
