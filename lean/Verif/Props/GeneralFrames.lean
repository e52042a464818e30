import Verif.Props.GeneralLoads
import Verif.Lemmas.GeneralIds

/-
Properties of the database front end: frames between points.
-/

namespace Hyperstatic
open GM

/-! ## C98 ends of frames -/

/-- A frame added between two points has its first end at the first and its second end at the second, up to the tolerance. -/
def C98_claim : Prop := ∀ (V : GEnv) (s s1 : GSession) (p q : ℝ × ℝ × ℝ) (sec f : String) (name : Option String) (t : ℝ) (l : List String),
  Function.Injective V.uuid → Lived V s → (GCall.getTolerance.run V s).1 = .ok (.num t) → (GCall.getFrameNames.run V s).1 = .ok (.names l) →
  (GCall.addFrame (xyz p) (xyz q) sec name).run V s = (.ok (.str f), s1) → f ∉ l →
  ∃ a b, ((GCall.getFrameEndCoors f).run V s1).1 = .ok (.nums (xyz a ++ xyz b)) ∧ NearTo t p a ∧ NearTo t q b

/-- An `add_frame` that raises leaves every answer of the model as it was. -/
def C98_raise_claim : Prop := ∀ (V : GEnv) (s s1 : GSession) (p q : ℝ × ℝ × ℝ) (sec : String) (name : Option String) (e : PyErr),
  Function.Injective V.uuid → Lived V s → (GCall.addFrame (xyz p) (xyz q) sec name).run V s = (.error e, s1) → SameAnswers V s s1

/-- a joint near a point of the database, found or made -/
structure Found (V : GEnv) (s s' : GSession) (db db' : Db) (tol : ℝ) (p : ℝ × ℝ × ℝ) (n : String) : Prop where
  sees : Sees s' db'
  db : ∃ new, db' = { db with joints := db.joints ++ new }
  row : ∃ q ∈ db'.joints, q.name = n ∧ NearTo tol p (q.x, q.y, q.z)
  keys : (db'.joints.map fun q => q.name).Nodup
  ids : ∀ k, s'.drawn ≤ k → V.uuid k ∉ db'.joints.map fun q => q.name
  drawn : s.drawn ≤ s'.drawn

theorem near_of_nearJoint {tol : ℝ} {p : ℝ × ℝ × ℝ} {q : JointRow} (h : nearJoint tol p.1 p.2.1 p.2.2 q) : NearTo tol p (q.x, q.y, q.z) := by
  obtain ⟨h1, h2, h3, h4, h5, h6⟩ := h
  refine Or.inr ⟨?_, ?_, ?_⟩ <;> rw [abs_lt] <;> constructor <;> simp only <;> linarith

theorem found {V : GEnv} (hV : Function.Injective V.uuid) {s s' : GSession} {db : Db} (h : Sees s db) (hk : (db.joints.map fun q => q.name).Nodup)
    (hid : ∀ k, s.drawn ≤ k → V.uuid k ∉ db.joints.map fun q => q.name) {tol : ℝ} (p : ℝ × ℝ × ℝ) {n : String}
    (hr : gFindOrAdd V tol p.1 p.2.1 p.2.2 s = (.ok n, s')) : ∃ db', Found V s s' db db' tol p n := by
  rcases gFindOrAdd_run V h tol p.1 p.2.1 p.2.2 with ⟨q, hq, hn, e⟩ | ⟨-, e⟩ <;> rw [e] at hr
  · cases hr
    exact ⟨db, h.flushed, ⟨[], by simp⟩, ⟨q, hq, rfl, near_of_nearJoint hn⟩, hk, hid, le_rfl⟩
  · cases hr
    have hnew : V.uuid s.drawn ∉ db.joints.map fun q => q.name := hid _ le_rfl
    refine ⟨{ db with joints := db.joints ++ [⟨V.uuid s.drawn, p.1, p.2.1, p.2.2⟩] }, ?_, ⟨_, rfl⟩, ⟨_, List.mem_append_right _ (List.mem_singleton.mpr rfl), rfl, Or.inl rfl⟩, ?_, ?_, Nat.le_succ _⟩
    · exact ⟨h.1, flushAll_one (flush_joint hnew)⟩
    · refine nodup_snoc hk fun q hq e => hnew (List.mem_map.mpr ⟨q, hq, e⟩)
    · intro k hk' hm
      have hk' : s.drawn + 1 ≤ k := hk'
      simp only [List.map_append, List.map_cons, List.map_nil, List.mem_append, List.mem_singleton] at hm
      rcases hm with hm | hm
      · exact hid k (by omega) hm
      · have := hV hm; omega

/-- what a successful `add_frame` does -/
theorem gAddFrame_ok {V : GEnv} (hV : Function.Injective V.uuid) {s s1 : GSession} (hL : Lived V s) {p q : ℝ × ℝ × ℝ} {sec f : String} {name : Option String}
    (h : gAddFrame V (xyz p) (xyz q) sec name s = (.ok (.str f), s1)) : ∃ db, Sees s db ∧ (f ∉ (db.frames.map fun q => q.name) →
      ∃ db1 new a b e, Sees s1 db1 ∧ db1 = { db with joints := db.joints ++ new, frames := db.frames ++ [⟨f, sec, e.1, e.2.1, e.2.2⟩] } ∧
        (db1.joints.map fun q => q.name).Nodup ∧ a ∈ db1.joints ∧ b ∈ db1.joints ∧
        NearTo db.tol (p.1 * db.unit.L, p.2.1 * db.unit.L, p.2.2 * db.unit.L) (a.x, a.y, a.z) ∧ NearTo db.tol q (b.x, b.y, b.z) ∧
        sortEnds a.name b.name = some e) := by
  have h : (do
    gFrameNameFree name
    let _ ← (query fun db => db.secs.find? fun q => q.name = sec) >>= need
    let u ← gScale
    let tol ← query fun db => db.tol
    let a ← gFindOrAdd V tol (p.1 * u.L) (p.2.1 * u.L) (p.2.2 * u.L)
    let b ← gFindOrAdd V tol q.1 q.2.1 q.2.2
    let e ← need (sortEnds a b)
    let id ← addNew V fun id => .frame ⟨frameName name id, sec, e.1, e.2.1, e.2.2⟩
    pure (.str (frameName name id)) : GM GRet) s = (.ok (.str f), s1) := h
  obtain ⟨u0, t0, h0, h⟩ := bind_ok h
  have hb : ∃ db, Sees s db ∧ Sees t0 db ∧ t0.drawn = s.drawn := by
    obtain ⟨_, _, h1, _⟩ := bind_ok h
    have h1 := lookup_ok h1
    unfold gFrameNameFree at h0
    rcases name with _ | n
    · cases h0; exact ⟨_, h1.1, h1.1, rfl⟩
    · simp only at h0
      split_ifs at h0 with hn
      · cases h0; exact ⟨_, h1.1, h1.1, rfl⟩
      · obtain ⟨_, t, h2, h3⟩ := bind_ok h0
        obtain ⟨-, rfl⟩ := check_ok h3
        have h2 := Sees.of_query h2
        have hw := h2.2.1
        refine ⟨_, h2.1, ?_, by rw [hw]; rfl⟩
        rw [hw]; exact h2.1.flushed
  obtain ⟨db, hs, ht0, hdr⟩ := hb
  refine ⟨db, hs, fun hf => ?_⟩
  obtain ⟨_, t1, h1, h⟩ := bind_ok h
  have h1' := lookup_ok h1
  have ht1 : t1 = t0.flushed db := by
    have := h1'.2.1
    rw [ht0.unique h1'.1]; exact this
  subst ht1
  simp only [bind_run, gScale_run ht0.flushed, flushed_flushed, ht0.query_flushed] at h
  have hk := (keyed_lasting.lived keyed_empty hL).sees keyed_lasting hs
  have hid : ∀ k, (t0.flushed db).drawn ≤ k → V.uuid k ∉ db.joints.map fun q => q.name := by
    intro k hk
    have : s.drawn ≤ k := by rw [← hdr]; exact hk
    exact hL.new_id hV hs this
  rcases e1 : gFindOrAdd V db.tol (p.1 * db.unit.L) (p.2.1 * db.unit.L) (p.2.2 * db.unit.L) (t0.flushed db) with ⟨_ | a, t2⟩ <;> rw [e1] at h
  · cases h
  obtain ⟨d2, F1⟩ := found hV ht0.flushed hk.joints hid (p.1 * db.unit.L, p.2.1 * db.unit.L, p.2.2 * db.unit.L) e1
  simp only at h
  rcases e2 : gFindOrAdd V db.tol q.1 q.2.1 q.2.2 t2 with ⟨_ | b, t3⟩ <;> rw [e2] at h
  · cases h
  obtain ⟨d3, F2⟩ := found hV F1.sees F1.keys F1.ids q e2
  simp only at h
  rcases e3 : sortEnds a b with _ | e
  · rw [e3] at h; cases h
  rw [e3] at h
  simp only [need_some] at h
  simp only [addNew, pure_run, Prod.mk.injEq, Except.ok.injEq, GRet.str.injEq] at h
  obtain ⟨hfn, rfl⟩ := h
  rw [hfn]
  obtain ⟨n1, hn1⟩ := F1.db
  obtain ⟨n2, hn2⟩ := F2.db
  obtain ⟨qa, hqa, ea, na⟩ := F1.row
  obtain ⟨qb, hqb, eb, nb⟩ := F2.row
  have hd3 : d3 = { db with joints := db.joints ++ (n1 ++ n2) } := by rw [hn2, hn1]; simp
  refine ⟨{ d3 with frames := d3.frames ++ [⟨f, sec, e.1, e.2.1, e.2.2⟩] }, n1 ++ n2, qa, qb, e, ?_, ?_, F2.keys, ?_, hqb, na, nb, ?_⟩
  · refine ⟨F2.sees.1, ?_⟩
    show flushAll t3.work (t3.pending ++ _) = _
    rw [flushAll_append, F2.sees.2]
    refine flushAll_one (flush_frame ?_)
    rw [hd3]; exact hf
  · rw [hd3]
  · show qa ∈ d3.joints
    rw [hn2]; exact List.mem_append_left _ hqa
  · rw [ea, eb]; exact e3

theorem find_unique {l : List JointRow} (h : (l.map fun q => q.name).Nodup) {a : JointRow} (ha : a ∈ l) : (l.find? fun q => q.name = a.name) = some a := by
  induction l with
  | nil => simp at ha
  | cons b t ih =>
    rw [List.map_cons, List.nodup_cons] at h
    rw [List.find?_cons]
    rcases List.mem_cons.mp ha with rfl | ha
    · simp
    · have : b.name ≠ a.name := fun e => h.1 (List.mem_map.mpr ⟨a, ha, e.symm⟩)
      simp [this, ih h.2 ha]

theorem sortEnds_cases {a b : String} {e : String × String × Bool} (h : sortEnds a b = some e) :
    (e.1 = a ∧ e.2.1 = b ∧ a < b) ∨ (e.1 = b ∧ e.2.1 = a ∧ b < a) := by
  unfold sortEnds at h
  split_ifs at h with h1 h2
  · cases h; exact Or.inl ⟨rfl, rfl, h1⟩
  · cases h; exact Or.inr ⟨rfl, rfl, h2⟩

theorem gGetFrameEndCoors_some {s : GSession} {db : Db} (h : Sees s db) {f : String} {e : JointRow × JointRow} (he : frameEnds db f = some e) :
    (gGetFrameEndCoors f s).1 = .ok (.nums (xyz (e.1.x / db.unit.L, e.1.y / db.unit.L, e.1.z / db.unit.L) ++
      xyz (e.2.x / db.unit.L, e.2.y / db.unit.L, e.2.z / db.unit.L))) := by
  rw [gGetFrameEndCoors_run h, he]; rfl

theorem nearTo_div {t L : ℝ} (hL : 0 < L) {p a : ℝ × ℝ × ℝ} (h : NearTo t p a) :
    NearTo (t / L) (p.1 / L, p.2.1 / L, p.2.2 / L) (a.1 / L, a.2.1 / L, a.2.2 / L) := by
  rcases h with rfl | ⟨h1, h2, h3⟩
  · exact Or.inl rfl
  · refine Or.inr ⟨?_, ?_, ?_⟩ <;> simp only <;> rw [← sub_div, abs_div, abs_of_pos hL, div_lt_div_iff_of_pos_right hL] <;> assumption

theorem sees_of_tol {V : GEnv} {s : GSession} {t : ℝ} (h : (GCall.getTolerance.run V s).1 = .ok (.num t)) : ∃ db, Sees s db ∧ t = db.tol / db.unit.L := by
  rcases e : GCall.getTolerance.run V s with ⟨_ | r, s'⟩ <;> rw [e] at h
  · cases h
  · have h : r = .num t := Except.ok.inj h
    subst h
    obtain ⟨v, s2, h1, h2⟩ := bind_ok (caught_ok e (by simp))
    have h3 := Sees.of_query h1
    refine ⟨_, h3.1, ?_⟩
    have h4 := h3.2.1
    generalize s2.work = db at h3 h4
    subst h4
    simp only [bind_run, h3.1.query_flushed, pure_run, Prod.mk.injEq, Except.ok.injEq, GRet.num.injEq] at h2
    rw [← h2.1, h3.2.2]

/-- The ends of an added frame, in the order of the names of their joints: one is at the first point, the other where the second point
would be if its coordinates were in SI, whatever the current unit. -/
theorem C98_actual_partial (V : GEnv) (s s1 : GSession) (p q : ℝ × ℝ × ℝ) (sec f : String) (name : Option String) (t : ℝ) (l : List String) (u : GUnit)
    (hV : Function.Injective V.uuid) (hL : Lived V s) (ht : (GCall.getTolerance.run V s).1 = .ok (.num t))
    (hl : (GCall.getFrameNames.run V s).1 = .ok (.names l)) (hu : (GCall.getUnit.run V s).1 = .ok (.str u.str))
    (h : (GCall.addFrame (xyz p) (xyz q) sec name).run V s = (.ok (.str f), s1)) (hf : f ∉ l) :
    ∃ a b, (((GCall.getFrameEndCoors f).run V s1).1 = .ok (.nums (xyz a ++ xyz b)) ∨ ((GCall.getFrameEndCoors f).run V s1).1 = .ok (.nums (xyz b ++ xyz a))) ∧
      NearTo t p a ∧ NearTo t (q.1 / u.metres, q.2.1 / u.metres, q.2.2 / u.metres) b ∧
      ∀ g ∈ l, ((GCall.getFrameEndNames g).run V s).1 ≠ .ok .none →
        ((GCall.getFrameEndCoors g).run V s1).1 = ((GCall.getFrameEndCoors g).run V s).1 := by
  simp only [GUnit.metres_eq]
  obtain ⟨db, hs, hx⟩ := gAddFrame_ok hV hL h
  obtain ⟨db', hs', rfl⟩ := GKind.list_sees (k := .frame) hl
  cases hs.unique hs'
  obtain ⟨db', hs', rfl⟩ := sees_of_tol ht
  cases hs.unique hs'
  obtain ⟨db', hs', rfl⟩ := sees_of_unit hu
  cases hs.unique hs'
  obtain ⟨db1, new, a, b, e, hs1, hdb, hk, ha, hb, na, nb, he⟩ := hx hf
  have hLp := db.unit.L_pos
  have hu1 : db1.unit = db.unit := by rw [hdb]
  have hfr : (db1.frames.find? fun q => q.name = f) = some ⟨f, sec, e.1, e.2.1, e.2.2⟩ := by
    rw [hdb]
    simp only [List.find?_append, find_no_name (f := fun q : FrameRow => q.name) hf]
    simp
  refine ⟨(a.x / db.unit.L, a.y / db.unit.L, a.z / db.unit.L), (b.x / db.unit.L, b.y / db.unit.L, b.z / db.unit.L), ?_, ?_, ?_, ?_⟩
  · show (gGetFrameEndCoors f s1).1 = _ ∨ (gGetFrameEndCoors f s1).1 = _
    rcases sortEnds_cases he with ⟨h1, h2, -⟩ | ⟨h1, h2, -⟩
    · have hfe : frameEnds db1 f = some (a, b) := by
        unfold frameEnds; simp only [hfr, h1, h2, find_unique hk ha, find_unique hk hb]
      rw [gGetFrameEndCoors_some hs1 hfe, hu1]; exact Or.inl rfl
    · have hfe : frameEnds db1 f = some (b, a) := by
        unfold frameEnds; simp only [hfr, h1, h2, find_unique hk ha, find_unique hk hb]
      rw [gGetFrameEndCoors_some hs1 hfe, hu1]; exact Or.inr rfl
  · have := nearTo_div hLp na
    simpa only [mul_div_assoc, div_self hLp.ne', mul_one] using this
  · exact nearTo_div hLp nb
  · intro g hg hne
    have hne : (gGetFrameEndNames g s).1 ≠ .ok .none := hne
    rw [gGetFrameEndNames_run hs] at hne
    rcases e0 : frameEnds db g with _ | e0'
    · rw [e0] at hne; exact absurd rfl hne
    have : frameEnds db1 g = some e0' := by
      obtain ⟨fr, hfr, -⟩ := find_name (f := fun q : FrameRow => q.name) (l := db.frames) (n := g) hg
      unfold frameEnds at e0 ⊢
      simp only [hfr] at e0
      rw [hdb]
      simp only [List.find?_append, hfr, Option.some_or]
      rcases e2 : db.joints.find? fun p => p.name = fr.pt0 with _ | x <;> rcases e3 : db.joints.find? fun p => p.name = fr.pt1 with _ | y <;>
        simp only [e2, e3] at e0 <;> cases e0
      simp only [e2, e3, Option.some_or]
    show (gGetFrameEndCoors g s1).1 = (gGetFrameEndCoors g s).1
    rw [gGetFrameEndCoors_some hs1 this, gGetFrameEndCoors_some hs e0, hu1]

/-- In units whose length is the metre the ends are at the two points, in the order of the names of their joints.  Missing: other units,
and the order of the points. -/
theorem C98_metre_partial (V : GEnv) (s s1 : GSession) (p q : ℝ × ℝ × ℝ) (sec f : String) (name : Option String) (t : ℝ) (l : List String) (u : GUnit)
    (hV : Function.Injective V.uuid) (hL : Lived V s) (ht : (GCall.getTolerance.run V s).1 = .ok (.num t))
    (hl : (GCall.getFrameNames.run V s).1 = .ok (.names l)) (hu : (GCall.getUnit.run V s).1 = .ok (.str u.str)) (hm : u.metres = 1)
    (h : (GCall.addFrame (xyz p) (xyz q) sec name).run V s = (.ok (.str f), s1)) (hf : f ∉ l) :
    ∃ a b, (((GCall.getFrameEndCoors f).run V s1).1 = .ok (.nums (xyz a ++ xyz b)) ∨ ((GCall.getFrameEndCoors f).run V s1).1 = .ok (.nums (xyz b ++ xyz a))) ∧
      NearTo t p a ∧ NearTo t q b := by
  obtain ⟨a, b, h1, h2, h3, -⟩ := C98_actual_partial V s s1 p q sec f name t l u hV hL ht hl hu h hf
  refine ⟨a, b, h1, h2, ?_⟩
  simpa [hm] using h3

theorem near_far {t : ℝ} (ht : 0 < t) {p q a : ℝ × ℝ × ℝ} (h : FarApart t p q) (h1 : NearTo t p a) (h2 : NearTo t q a) : False := by
  have key : ∀ x y z : ℝ, |x - y| < t → |x - z| < t → ¬ 2 * t ≤ |y - z| := by
    intro x y z h1 h2 h3
    have := abs_sub_le y x z
    rw [abs_sub_comm y x] at this
    linarith
  have near : ∀ {p : ℝ × ℝ × ℝ}, NearTo t p a → |a.1 - p.1| < t ∧ |a.2.1 - p.2.1| < t ∧ |a.2.2 - p.2.2| < t := by
    rintro p (rfl | h)
    · simpa using ht
    · exact h
  obtain ⟨a1, a2, a3⟩ := near h1
  obtain ⟨b1, b2, b3⟩ := near h2
  rcases h with h | h | h
  · exact key _ _ _ a1 b1 h
  · exact key _ _ _ a2 b2 h
  · exact key _ _ _ a3 b3 h

theorem gFindOrAdd_ok (V : GEnv) {s : GSession} {db : Db} (h : Sees s db) (tol x y z : ℝ) : ∃ n s', gFindOrAdd V tol x y z s = (.ok n, s') := by
  rcases gFindOrAdd_run V h tol x y z with ⟨q, -, -, e⟩ | ⟨-, e⟩ <;> exact ⟨_, _, e⟩

theorem string_lt_or (a b : String) (h : a ≠ b) : a < b ∨ b < a := by
  by_contra hc
  rw [not_or] at hc
  exact h (String.le_antisymm (String.not_lt.mp hc.2) (String.not_lt.mp hc.1))

theorem nameFree_run {s : GSession} {db : Db} (h : Sees s db) {name : Option String} (hn : ∀ n ∈ name, n ∉ db.frames.map fun q => q.name) :
    ∃ t, gFrameNameFree name s = (.ok (), t) ∧ Sees t db ∧ t.drawn = s.drawn := by
  unfold gFrameNameFree
  rcases name with _ | n
  · exact ⟨s, rfl, h, rfl⟩
  · simp only
    split_ifs with he
    · exact ⟨s, rfl, h, rfl⟩
    · refine ⟨s.flushed db, ?_, h.flushed, rfl⟩
      simp only [bind_run, h.query, find_no_name (f := fun q : FrameRow => q.name) (hn n rfl), Option.isNone_none, check_true trivial]

theorem gAddFrame_adds {V : GEnv} (hV : Function.Injective V.uuid) {s : GSession} (hL : Lived V s) {db : Db} (hs : Sees s db) {p q : ℝ × ℝ × ℝ} {sec : String}
    (hsec : sec ∈ db.secs.map fun q => q.name) {name : Option String} (hn : ∀ n ∈ name, n ∉ db.frames.map fun q => q.name) (ht : 0 < db.tol)
    (hpq : FarApart db.tol (p.1 * db.unit.L, p.2.1 * db.unit.L, p.2.2 * db.unit.L) q) :
    ∃ f s1, gAddFrame V (xyz p) (xyz q) sec name s = (.ok (.str f), s1) := by
  obtain ⟨t0, h0, ht0, hdr⟩ := nameFree_run hs hn
  obtain ⟨r, hr, -⟩ := find_name (f := fun q : SecRow => q.name) (l := db.secs) (n := sec) hsec
  have hk := (keyed_lasting.lived keyed_empty hL).sees keyed_lasting hs
  have hid : ∀ k, (t0.flushed db).drawn ≤ k → V.uuid k ∉ db.joints.map fun q => q.name := by
    intro k hk
    have : s.drawn ≤ k := by rw [← hdr]; exact hk
    exact hL.new_id hV hs this
  obtain ⟨a, t2, e1⟩ := gFindOrAdd_ok V ht0.flushed db.tol (p.1 * db.unit.L) (p.2.1 * db.unit.L) (p.2.2 * db.unit.L)
  obtain ⟨d2, F1⟩ := found hV ht0.flushed hk.joints hid (p.1 * db.unit.L, p.2.1 * db.unit.L, p.2.2 * db.unit.L) e1
  obtain ⟨b, t3, e2⟩ := gFindOrAdd_ok V F1.sees db.tol q.1 q.2.1 q.2.2
  obtain ⟨d3, F2⟩ := found hV F1.sees F1.keys F1.ids q e2
  obtain ⟨n2, hn2⟩ := F2.db
  obtain ⟨qa, hqa, ea, na⟩ := F1.row
  obtain ⟨qb, hqb, eb, nb⟩ := F2.row
  have hqa' : qa ∈ d3.joints := by rw [hn2]; exact List.mem_append_left _ hqa
  have hab : a ≠ b := by
    intro hab
    have h1 := find_unique F2.keys hqa'
    have h2 := find_unique F2.keys hqb
    rw [ea, hab] at h1
    rw [eb] at h2
    rw [h1] at h2
    cases h2
    exact near_far ht hpq na nb
  have he : ∃ e, sortEnds a b = some e := by
    unfold sortEnds
    rcases string_lt_or a b hab with h | h
    · exact ⟨_, if_pos h⟩
    · by_cases h' : a < b
      · exact ⟨_, if_pos h'⟩
      · exact ⟨_, (if_neg h').trans (if_pos h)⟩
  obtain ⟨e, he⟩ := he
  have : gAddFrame V (xyz p) (xyz q) sec name = (do
    gFrameNameFree name
    let _ ← (query fun db => db.secs.find? fun q => q.name = sec) >>= need
    let u ← gScale
    let tol ← query fun db => db.tol
    let a ← gFindOrAdd V tol (p.1 * u.L) (p.2.1 * u.L) (p.2.2 * u.L)
    let b ← gFindOrAdd V tol q.1 q.2.1 q.2.2
    let e ← need (sortEnds a b)
    let id ← addNew V fun id => .frame ⟨frameName name id, sec, e.1, e.2.1, e.2.2⟩
    pure (.str (frameName name id)) : GM GRet) := rfl
  rw [this]
  simp only [bind_run, h0, ht0.query, hr, need_some, gScale_run ht0.flushed, flushed_flushed, ht0.query_flushed, e1, e2, he]
  exact ⟨_, _, rfl⟩

/-- `add_frame` adds a frame when the section exists, no frame has the name and, the second point read in SI, the points are apart. -/
theorem C98_adds (V : GEnv) (s : GSession) (p q : ℝ × ℝ × ℝ) (sec : String) (name : Option String) (t : ℝ) (l ls : List String) (u : GUnit)
    (hV : Function.Injective V.uuid) (hL : Lived V s) (ht : (GCall.getTolerance.run V s).1 = .ok (.num t)) (ht0 : 0 < t)
    (hl : (GCall.getFrameNames.run V s).1 = .ok (.names l)) (hls : (GCall.getFrameSectionNames.run V s).1 = .ok (.names ls))
    (hu : (GCall.getUnit.run V s).1 = .ok (.str u.str)) (hsec : sec ∈ ls) (hn : ∀ n ∈ name, n ∉ l)
    (hpq : FarApart t p (q.1 / u.metres, q.2.1 / u.metres, q.2.2 / u.metres)) :
    ∃ f s1, (GCall.addFrame (xyz p) (xyz q) sec name).run V s = (.ok (.str f), s1) := by
  simp only [GUnit.metres_eq] at hpq
  obtain ⟨db, hs, rfl⟩ := GKind.list_sees (k := .frame) hl
  obtain ⟨db', hs', rfl⟩ := GKind.list_sees (k := .frameSection) hls
  cases hs.unique hs'
  obtain ⟨db', hs', rfl⟩ := sees_of_tol ht
  cases hs.unique hs'
  obtain ⟨db', hs', rfl⟩ := sees_of_unit hu
  cases hs.unique hs'
  have hLp := db.unit.L_pos
  refine gAddFrame_adds hV hL hs hsec hn (by have := mul_pos ht0 hLp; rwa [div_mul_cancel₀ _ hLp.ne'] at this) ?_
  have key : ∀ x y : ℝ, 2 * (db.tol / db.unit.L) ≤ |x - y / db.unit.L| → 2 * db.tol ≤ |x * db.unit.L - y| := by
    intro x y h
    have := mul_le_mul_of_nonneg_right h hLp.le
    rw [← abs_of_pos hLp, abs_of_pos hLp, mul_assoc, div_mul_cancel₀ _ hLp.ne'] at this
    calc _ ≤ _ := this
      _ = |x - y / db.unit.L| * |db.unit.L| := by rw [abs_of_pos hLp]
      _ = _ := by rw [← abs_mul, sub_mul, div_mul_cancel₀ _ hLp.ne']
  rcases hpq with h | h | h
  · exact Or.inl (key _ _ h)
  · exact Or.inr (Or.inl (key _ _ h))
  · exact Or.inr (Or.inr (key _ _ h))

/-- names by number do not repeat -/
theorem demoEnv_inj : Function.Injective demoEnv.uuid := by
  intro a b h
  have h : a.repr = b.repr := h
  have h := congrArg String.toList h
  rw [Nat.toList_repr, Nat.toList_repr] at h
  rw [← Nat.ofDigitChars_ten_toDigits (n := a), h, Nat.ofDigitChars_ten_toDigits]

/-- a new model in some unit -/
theorem unit_witness (u : GUnit) : ∃ s, Lived demoEnv s ∧ (GCall.getTolerance.run demoEnv s).1 = .ok (.num (1 / 1000000 / u.L)) ∧
    (GCall.getFrameNames.run demoEnv s).1 = .ok (.names []) ∧ (GCall.getFrameSectionNames.run demoEnv s).1 = .ok (.names ["1-L-H400x200x14x20"]) ∧
    (GCall.getJointNames.run demoEnv s).1 = .ok (.names []) ∧
    (GCall.getUnit.run demoEnv s).1 = .ok (.str u.str) := by
  obtain ⟨d, hL, st⟩ := lived_new demoEnv
  have hs := sees_fresh d 0
  have hL1 := hL.call (.setUnit u.str)
  have hs1 : Sees ((GCall.setUnit u.str).run demoEnv (GSession.fresh d 0)).2 { d with unit := u } := by
    rw [show (GCall.setUnit u.str).run demoEnv (GSession.fresh d 0) = _ from gSetUnit_run hs u]
    exact ⟨rfl, rfl⟩
  refine ⟨_, hL1, ?_, ?_, ?_, ?_, ?_⟩
  · show (gGetTolerance _).1 = _
    simp only [gGetTolerance, caught, bind_run, gScale_run hs1, hs1.query_flushed, pure_run]
    rw [st.tol]
  · refine (GKind.list_run hs1 .frame).trans ?_
    simp [GKind.names, st.frames]
  · refine (GKind.list_run hs1 .frameSection).trans ?_
    simp [GKind.names, st.secs]
  · refine (GKind.list_run hs1 .joint).trans ?_
    simp [GKind.names, st.joints]
  · show (gGetUnit _).1 = _
    simp only [gGetUnit, caught, bind_run, hs1.query, pure_run]

/-- In millimetres a frame from the origin to (1000, 0, 0) ends a kilometre away. -/
theorem C98_false : ¬ C98_claim := by
  intro h
  obtain ⟨s, hL, ht, hl, hls, -, hu⟩ := unit_witness .Nmm
  have hmm : GUnit.Nmm.L = 1 / 1000 := by norm_num [GUnit.L]
  obtain ⟨f, s1, e⟩ := C98_adds demoEnv s (0, 0, 0) (1000, 0, 0) "1-L-H400x200x14x20" none _ [] _ .Nmm demoEnv_inj hL ht
    (by rw [hmm]; norm_num) hl hls hu (by simp) (by simp) (Or.inl (by rw [GUnit.metres_eq, hmm]; norm_num))
  obtain ⟨a, b, h1, ha, hb⟩ := h demoEnv s s1 (0, 0, 0) (1000, 0, 0) _ f none _ [] demoEnv_inj hL ht hl e (by simp)
  obtain ⟨a', b', h2, ha', hb', -⟩ := C98_actual_partial demoEnv s s1 (0, 0, 0) (1000, 0, 0) _ f none _ [] .Nmm demoEnv_inj hL ht hl hu e (by simp)
  rw [GUnit.metres_eq] at hb'
  rw [h1, hmm] at *
  have near : ∀ {p a : ℝ × ℝ × ℝ}, NearTo (1 / 1000000 / (1 / 1000)) p a → |a.1 - p.1| < 1 := by
    rintro p a (rfl | h)
    · simp
    · refine h.1.trans_le (by norm_num)
  have e1 := abs_lt.mp (near ha)
  have e2 := abs_lt.mp (near hb)
  have e3 := abs_lt.mp (near ha')
  have e4 := abs_lt.mp (near hb')
  rcases h2 with h2 | h2 <;>
    · simp only [xyz, Except.ok.injEq, GRet.nums.injEq, List.cons_append, List.nil_append, List.cons.injEq] at h2
      obtain ⟨h3, -, -, h4, -⟩ := h2
      rw [h3] at e1; rw [h4] at e2
      norm_num at e1 e2 e3 e4
      linarith

/-- A frame between two equal points is refused after a joint was made. -/
theorem C98_raise_false : ¬ C98_raise_claim := by
  intro h
  obtain ⟨d, hL, st⟩ := lived_new demoEnv
  have hs := sees_fresh d 0
  have hu : d.unit.L = 1 := by rw [st.unit]; norm_num [GUnit.L]
  obtain ⟨r, hr, -⟩ := find_name (f := fun q : SecRow => q.name) (l := d.secs) (n := "1-L-H400x200x14x20") (by rw [st.secs]; simp)
  have hid : ∀ k, ((GSession.fresh d 0).flushed d).drawn ≤ k → demoEnv.uuid k ∉ d.joints.map fun q => q.name := by simp [st.joints]
  have hsec : ∃ s1 e, gAddFrame demoEnv (xyz (0, 0, 0)) (xyz (0, 0, 0)) "1-L-H400x200x14x20" none (GSession.fresh d 0) = (.error e, s1) ∧
      ∃ d1, Sees s1 d1 ∧ d1.joints ≠ [] := by
    have e1 : gFindOrAdd demoEnv d.tol 0 0 0 ((GSession.fresh d 0).flushed d) = (.ok (demoEnv.uuid 0), { (GSession.fresh d 0).flushed d with
        pending := [.joint ⟨demoEnv.uuid 0, 0, 0, 0⟩], drawn := 1 }) := by
      rcases gFindOrAdd_run demoEnv hs.flushed d.tol 0 0 0 with ⟨q, hq, -⟩ | ⟨-, h⟩
      · simp [st.joints] at hq
      · rw [h]; rfl
    obtain ⟨d2, F1⟩ := found demoEnv_inj hs.flushed (by simp [st.joints]) hid (0, 0, 0) e1
    have hd2 : d2 = { d with joints := [⟨demoEnv.uuid 0, 0, 0, 0⟩] } := by
      refine Sees.unique F1.sees ⟨rfl, ?_⟩
      show flushAll d _ = _
      rw [flushAll_one (flush_joint (by simp [st.joints]))]
      simp [st.joints]
    have e2 : ∃ t, gFindOrAdd demoEnv d.tol 0 0 0 { (GSession.fresh d 0).flushed d with
        pending := [.joint ⟨demoEnv.uuid 0, 0, 0, 0⟩], drawn := 1 } = (.ok (demoEnv.uuid 0), t) ∧ Sees t d2 := by
      rcases gFindOrAdd_run demoEnv F1.sees d.tol 0 0 0 with ⟨q, hq, hn, e⟩ | ⟨hn, -⟩
      · rw [hd2] at hq
        simp only [List.mem_singleton] at hq
        subst hq
        exact ⟨_, e, F1.sees.flushed⟩
      · refine absurd ?_ (hn ⟨demoEnv.uuid 0, 0, 0, 0⟩ (by rw [hd2]; simp))
        simp [nearJoint, st.tol]
    obtain ⟨t, e2, ht⟩ := e2
    refine ⟨t, .exception, ?_, d2, ht, by rw [hd2]; simp⟩
    unfold gAddFrame gFrameNameFree
    have hsort : sortEnds (demoEnv.uuid 0) (demoEnv.uuid 0) = none := by
      unfold sortEnds
      rw [if_neg (String.lt_irrefl _), if_neg (String.lt_irrefl _)]
    simp only [xyz, bind_run, pure_run, hs.query, hr, need_some, gScale_run hs.flushed, flushed_flushed, hs.query_flushed, hu, zero_mul, e1, e2, hsort]
    rfl
  obtain ⟨s1, e, hr1, d1, hs1, hne⟩ := hsec
  have := h demoEnv _ s1 (0, 0, 0) (0, 0, 0) _ none e demoEnv_inj hL hr1 .getJointNames trivial
  rw [show (GCall.getJointNames.run demoEnv (GSession.fresh d 0)).1 = _ from GKind.list_run hs .joint,
    show (GCall.getJointNames.run demoEnv s1).1 = _ from GKind.list_run hs1 .joint] at this
  simp only [GKind.names, st.joints, Except.ok.injEq, GRet.names.injEq, List.map_nil] at this
  exact hne (List.map_eq_nil_iff.mp this.symm)

/-- the hypotheses are met in a new model in metres -/
example : ∃ s s1 f t, Lived demoEnv s ∧ (GCall.getTolerance.run demoEnv s).1 = .ok (.num t) ∧ (GCall.getFrameNames.run demoEnv s).1 = .ok (.names []) ∧
    (GCall.getUnit.run demoEnv s).1 = .ok (.str GUnit.kNm.str) ∧ GUnit.kNm.metres = 1 ∧
    (GCall.addFrame (xyz (0, 0, 0)) (xyz (3, 4, 5)) "1-L-H400x200x14x20" none).run demoEnv s = (.ok (.str f), s1) := by
  obtain ⟨s, hL, ht, hl, hls, -, hu⟩ := unit_witness .kNm
  have hm : GUnit.kNm.L = 1 := by norm_num [GUnit.L]
  obtain ⟨f, s1, e⟩ := C98_adds demoEnv s (0, 0, 0) (3, 4, 5) "1-L-H400x200x14x20" none _ [] _ .kNm demoEnv_inj hL ht
    (by rw [hm]; norm_num) hl hls hu (by simp) (by simp) (Or.inl (by rw [GUnit.metres_eq, hm]; norm_num))
  exact ⟨s, s1, f, _, hL, ht, hl, hu, hm, e⟩

end Hyperstatic
