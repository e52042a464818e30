import Verif.Lemmas.General

/-
What `create` makes.
-/

namespace Hyperstatic
open GM

theorem gAddMaterial_run {s : GSession} {db : Db} (h : Sees s db) {name : String} (hn : name ∉ db.mats.map fun q => q.name) (rho E mu : ℝ) :
    gAddMaterial name rho "isotropic_elastic" (some E) (some mu) s = (.ok (.bool true), { s.flushed db with pending :=
      [.iso ⟨name, E * (db.unit.F * (db.unit.L ^ 2)⁻¹), mu⟩, .mat ⟨name, rho * (db.unit.F * (db.unit.L ^ 4)⁻¹), "isotropic_elastic"⟩] }) := by
  have hf := find_no_name (f := fun q : MatRow => q.name) hn
  unfold gAddMaterial guarded
  simp only [bind_run, h.query, hf, Option.isNone_none, check_true trivial, gScale_run h.flushed, gIsoPart, if_true, add_run, pure_run]
  rfl

theorem gAddFrameSection_run {s : GSession} {db : Db} (h : Sees s db) {name mat kind : String} {size : List ℝ}
    (hn : name ∉ db.secs.map fun q => q.name) (hm : mat ∈ db.mats.map fun q => q.name) (hk : kind ∈ ["O", "o", "I", "B", "L", "T", "C", "Z"])
    {v : List ℝ × ℝ × ℝ × ℝ × ℝ} (hv : ∀ t, gSection db.unit.L kind size t = (.ok v, t)) :
    gAddFrameSection name mat kind size s = (.ok (.bool true), { s.flushed db with pending :=
      [.sec ⟨name, some mat, v.1, v.2.1, v.2.2.1, v.2.2.2.1, v.2.2.2.2⟩] }) := by
  have hf := find_no_name (f := fun q : SecRow => q.name) hn
  obtain ⟨q, hq, -⟩ := find_name (f := fun q : MatRow => q.name) hm
  unfold gAddFrameSection guarded
  simp only [bind_run, check_true hk, gScale_run h, h.query_flushed, hf, Option.isNone_none, check_true trivial, hq, need_some, hv, add_run, pure_run]
  rfl

theorem gAddAreaSection_run {s : GSession} {db : Db} (h : Sees s db) {name : String} (hn : name ∉ db.asecs.map fun q => q.name) (mat : String)
    {kind : String} (hk : kind ∈ ["m", "p", "s", "n"]) (t : ℝ) :
    gAddAreaSection name mat kind t s = (.ok (.bool true), { s.flushed db with pending := [.asec ⟨name, some mat, kind, t * db.unit.L⟩] }) := by
  have hf := find_no_name (f := fun q : ASecRow => q.name) hn
  unfold gAddAreaSection guarded
  simp only [bind_run, check_true hk, gScale_run h, h.query_flushed, hf, Option.isNone_none, check_true trivial, add_run, pure_run]
  rfl

theorem gAddLoadcase_run {s : GSession} {db : Db} (h : Sees s db) {name : String} (hn : name ∉ db.cases.map fun q => q.name) (kind : String) (w : ℝ) :
    gAddLoadcase name kind w s = (.ok (.str name), { s.flushed db with pending := [.case ⟨name, kind, w⟩] }) := by
  have hf := find_no_name (f := fun q : CaseRow => q.name) hn
  unfold gAddLoadcase guarded
  simp only [bind_run, h.query, hf, Option.isNone_none, check_true trivial, add_run, pure_run]
  rfl

/-- what a flushed session sees once more objects are pending -/
theorem Sees.with_pending {s : GSession} {db db' : Db} (h : Sees s db) {ps : List Pend} (e : flushAll db ps = some db') :
    Sees { s.flushed db with pending := ps } db' := ⟨h.1, e⟩

theorem gISection_ok {h b tw tf : ℝ} (hh : h ≠ 0) (hb : b ≠ 0) : ∃ v, ∀ t, gISection h b tw tf t = (.ok v, t) := by
  unfold gISection gDiv
  simp only [if_neg hh, if_neg hb]
  exact ⟨_, fun t => rfl⟩

theorem flush_mat {db : Db} {r : MatRow} (h : r.name ∉ db.mats.map fun q => q.name) : (Pend.mat r).flush db = some { db with mats := db.mats ++ [r] } := by
  simp only [Pend.flush]
  rw [if_neg]
  rintro ⟨q, hq, e⟩
  exact h (List.mem_map.mpr ⟨q, hq, e⟩)

theorem flush_iso {db : Db} {r : IsoRow} (h : r.material ∉ db.isos.map fun q => q.material) :
    (Pend.iso r).flush db = some { db with isos := db.isos ++ [r] } := by
  simp only [Pend.flush]
  rw [if_neg]
  rintro ⟨q, hq, e⟩
  exact h (List.mem_map.mpr ⟨q, hq, e⟩)

theorem flush_sec {db : Db} {r : SecRow} (h : r.name ∉ db.secs.map fun q => q.name) : (Pend.sec r).flush db = some { db with secs := db.secs ++ [r] } := by
  simp only [Pend.flush]
  rw [if_neg]
  rintro ⟨q, hq, e⟩
  exact h (List.mem_map.mpr ⟨q, hq, e⟩)

theorem flush_asec {db : Db} {r : ASecRow} (h : r.name ∉ db.asecs.map fun q => q.name) :
    (Pend.asec r).flush db = some { db with asecs := db.asecs ++ [r] } := by
  simp only [Pend.flush]
  rw [if_neg]
  rintro ⟨q, hq, e⟩
  exact h (List.mem_map.mpr ⟨q, hq, e⟩)

theorem flush_case {db : Db} {r : CaseRow} (h : r.name ∉ db.cases.map fun q => q.name) :
    (Pend.case r).flush db = some { db with cases := db.cases ++ [r] } := by
  simp only [Pend.flush]
  rw [if_neg]
  rintro ⟨q, hq, e⟩
  exact h (List.mem_map.mpr ⟨q, hq, e⟩)

theorem flush_joint {db : Db} {r : JointRow} (h : r.name ∉ db.joints.map fun q => q.name) :
    (Pend.joint r).flush db = some { db with joints := db.joints ++ [r] } := by
  simp only [Pend.flush]
  rw [if_neg]
  rintro ⟨q, hq, e⟩
  exact h (List.mem_map.mpr ⟨q, hq, e⟩)

theorem flush_frame {db : Db} {r : FrameRow} (h : r.name ∉ db.frames.map fun q => q.name) :
    (Pend.frame r).flush db = some { db with frames := db.frames ++ [r] } := by
  simp only [Pend.flush]
  rw [if_neg]
  rintro ⟨q, hq, e⟩
  exact h (List.mem_map.mpr ⟨q, hq, e⟩)

theorem flush_jload {db : Db} {r : JLoadRow} (h : ¬ ∃ q ∈ db.jloads, q.joint = r.joint ∧ q.case = r.case) :
    (Pend.jload r).flush db = some { db with jloads := db.jloads ++ [r] } := by
  simp only [Pend.flush]
  rw [if_neg h]

theorem flush_restr {db : Db} {r : RestrRow} (h : r.joint ∉ db.restrs.map fun q => q.joint) :
    (Pend.restr r).flush db = some { db with restrs := db.restrs ++ [r] } := by
  simp only [Pend.flush]
  rw [if_neg]
  rintro ⟨q, hq, e⟩
  exact h (List.mem_map.mpr ⟨q, hq, e⟩)

theorem flushAll_one {db db' : Db} {p : Pend} (h : p.flush db = some db') : flushAll db [p] = some db' := by
  simp only [flushAll, h, Option.bind_some]

theorem flushAll_two {db db' db'' : Db} {p q : Pend} (h : p.flush db = some db') (h' : q.flush db' = some db'') : flushAll db [p, q] = some db'' := by
  simp only [flushAll, h, h', Option.bind_some]

/-- a database with materials `m`, elastic constants for `i`, frame sections `f`, area sections `a`, load cases `c` and nothing else -/
structure Stock (db : Db) (m i f a c : List String) : Prop where
  unit : db.unit = .Nm
  tol : db.tol = 1 / 1000000
  joints : db.joints = []
  restrs : db.restrs = []
  jloads : db.jloads = []
  frames : db.frames = []
  floads : db.floads = []
  mats : (db.mats.map fun q => q.name) = m
  isos : (db.isos.map fun q => q.material) = i
  secs : (db.secs.map fun q => q.name) = f
  asecs : (db.asecs.map fun q => q.name) = a
  cases' : (db.cases.map fun q => q.name) = c

/-- a session that sees such a database -/
def Stocked (s : GSession) (n : ℕ) (m i f a c : List String) : Prop := ∃ db, Sees s db ∧ s.drawn = n ∧ Stock db m i f a c

theorem Stocked.material {s : GSession} {k : ℕ} {m i f a c : List String} (h : Stocked s k m i f a c) {n : String} (hm : n ∉ m) (hi : n ∉ i) (rho E mu : ℝ) :
    Stocked (gAddMaterial n rho "isotropic_elastic" (some E) (some mu) s).2 k (m ++ [n]) (i ++ [n]) f a c := by
  obtain ⟨db, hs, hd, st⟩ := h
  rw [gAddMaterial_run hs (by rw [st.mats]; exact hm)]
  refine ⟨_, hs.with_pending (flushAll_two (flush_iso (by rw [st.isos]; exact hi)) (flush_mat (by show n ∉ db.mats.map _; rw [st.mats]; exact hm))), hd, ?_⟩
  obtain ⟨h1, h2, h3, h4, h5, h6, h7, h8, h9, h10, h11, h12⟩ := st
  exact ⟨h1, h2, h3, h4, h5, h6, h7, by simp [h8], by simp [h9], h10, h11, h12⟩

theorem Stocked.section' {s : GSession} {k : ℕ} {m i f a c : List String} (h : Stocked s k m i f a c) {n : String} (hf : n ∉ f) {mat : String} (hm : mat ∈ m)
    {p q : ℝ} (hp : p ≠ 0) (hq : q ≠ 0) (x y : ℝ) : Stocked (gAddFrameSection n mat "I" [p, q, x, y] s).2 k m i (f ++ [n]) a c := by
  obtain ⟨db, hs, hd, st⟩ := h
  obtain ⟨v, hv⟩ := gISection_ok (h := p * db.unit.L) (b := q * db.unit.L) (tw := p * db.unit.L) (tf := q * db.unit.L)
    (mul_ne_zero hp (GUnit.L_pos _).ne') (mul_ne_zero hq (GUnit.L_pos _).ne')
  have hv' : ∀ t, gSection db.unit.L "I" [p, q, x, y] t = (.ok ([p * db.unit.L, q * db.unit.L, p * db.unit.L, q * db.unit.L], v), t) := by
    intro t
    unfold gSection
    rw [if_neg (by decide), if_neg (by decide), if_pos rfl]
    simp only [bind_run, hv, pure_run]
  rw [gAddFrameSection_run hs (by rw [st.secs]; exact hf) (by rw [st.mats]; exact hm) (by simp) hv']
  refine ⟨_, hs.with_pending (flushAll_one (flush_sec (by rw [st.secs]; exact hf))), hd, ?_⟩
  obtain ⟨h1, h2, h3, h4, h5, h6, h7, h8, h9, h10, h11, h12⟩ := st
  exact ⟨h1, h2, h3, h4, h5, h6, h7, h8, h9, by simp [h10], h11, h12⟩

theorem Stocked.area {s : GSession} {k : ℕ} {m i f a c : List String} (h : Stocked s k m i f a c) {n : String} (ha : n ∉ a) (mat : String) (t : ℝ) :
    Stocked (gAddAreaSection n mat "m" t s).2 k m i f (a ++ [n]) c := by
  obtain ⟨db, hs, hd, st⟩ := h
  rw [gAddAreaSection_run hs (by rw [st.asecs]; exact ha) _ (by simp)]
  refine ⟨_, hs.with_pending (flushAll_one (flush_asec (by rw [st.asecs]; exact ha))), hd, ?_⟩
  obtain ⟨h1, h2, h3, h4, h5, h6, h7, h8, h9, h10, h11, h12⟩ := st
  exact ⟨h1, h2, h3, h4, h5, h6, h7, h8, h9, h10, by simp [h11], h12⟩

theorem Stocked.loadcase {s : GSession} {k : ℕ} {m i f a c : List String} (h : Stocked s k m i f a c) {n : String} (hc : n ∉ c) (kind : String) (w : ℝ) :
    Stocked (gAddLoadcase n kind w s).2 k m i f a (c ++ [n]) := by
  obtain ⟨db, hs, hd, st⟩ := h
  rw [gAddLoadcase_run hs (by rw [st.cases']; exact hc)]
  refine ⟨_, hs.with_pending (flushAll_one (flush_case (by rw [st.cases']; exact hc))), hd, ?_⟩
  obtain ⟨h1, h2, h3, h4, h5, h6, h7, h8, h9, h10, h11, h12⟩ := st
  exact ⟨h1, h2, h3, h4, h5, h6, h7, h8, h9, h10, h11, by simp [h12]⟩

/-- a new database: two materials, one frame section, one area section, one load case, nothing else -/
theorem gCreate_new (V : GEnv) (n : ℕ) : ∃ db, gCreate V n = GSession.fresh db n ∧
    Stock db ["Q345", "C35"] ["Q345", "C35"] ["1-L-H400x200x14x20"] ["A-M120"] ["S"] := by
  have h0 : Stocked (GSession.fresh emptyDb n) n [] [] [] [] [] := ⟨emptyDb, ⟨rfl, rfl⟩, rfl, by constructor <;> simp [emptyDb]⟩
  have h1 := h0.material (n := "Q345") (by simp) (by simp) 7849 200000000000 (3 / 10)
  have h2 := h1.material (n := "C35") (by simp) (by simp) 2500 20000000000 (2 / 10)
  have h3 := h2.section' (n := "1-L-H400x200x14x20") (by simp) (mat := "Q345") (by simp) (p := 4 / 10) (q := 2 / 10) (by norm_num) (by norm_num) (14 / 1000) (2 / 100)
  have h4 := h3.area (n := "A-M120") (by simp) "C35" (12 / 100)
  have h5 := h4.loadcase (n := "S") (by simp) "static-linear" 1
  obtain ⟨db, hs, hd, st⟩ := h5
  refine ⟨db, ?_, st⟩
  have := hs.commit
  rw [hd] at this
  exact congrArg Prod.snd this

theorem lived_new (V : GEnv) : ∃ db, Lived V (GSession.fresh db 0) ∧
    Stock db ["Q345", "C35"] ["Q345", "C35"] ["1-L-H400x200x14x20"] ["A-M120"] ["S"] := by
  obtain ⟨db, e, st⟩ := gCreate_new V 0
  refine ⟨db, ⟨0, [], [], ⟨.whole db, .whole db, 0⟩, GSession.fresh db 0, ?_, rfl⟩, st⟩
  show gOpen ⟨.whole (gCreate V 0).committed, .absent, 0⟩ = _
  rw [e]; rfl

theorem Lived.call {V : GEnv} {s : GSession} (h : Lived V s) (c : GCall) : Lived V (c.run V s).2 := by
  obtain ⟨n, visits, acts, d, t, ho, rfl⟩ := h
  refine ⟨n, visits, acts ++ [.call c], d, t, ho, ?_⟩
  rw [List.foldl_append]; rfl

theorem gFindOrAdd_run (V : GEnv) {s : GSession} {db : Db} (h : Sees s db) (tol x y z : ℝ) :
    (∃ q ∈ db.joints, nearJoint tol x y z q ∧ gFindOrAdd V tol x y z s = (.ok q.name, s.flushed db)) ∨
    ((∀ q ∈ db.joints, ¬ nearJoint tol x y z q) ∧ gFindOrAdd V tol x y z s =
      (.ok (V.uuid s.drawn), { s.flushed db with pending := [.joint ⟨V.uuid s.drawn, x, y, z⟩], drawn := s.drawn + 1 })) := by
  unfold gFindOrAdd
  rw [bind_run, h.query]
  generalize e : List.find? _ db.joints = o
  rcases o with _ | q
  · refine Or.inr ⟨fun q hq => ?_, rfl⟩
    simpa using List.find?_eq_none.mp e q hq
  · exact Or.inl ⟨q, List.mem_of_find?_eq_some e, by simpa using List.find?_some e, rfl⟩

end Hyperstatic
