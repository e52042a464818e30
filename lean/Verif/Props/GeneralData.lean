import Verif.Props.General

/-
Properties of the database front end that hold along every history of calls: keys, joint loads, restraints, deletes.
-/

namespace Hyperstatic
open GM

/-- `P` holds of the file and of the open transaction, `R` of everything pending -/
def Kept (P : Db → Prop) (R : Pend → Prop) (s : GSession) : Prop := P s.committed ∧ P s.work ∧ ∀ p ∈ s.pending, R p

theorem kept_flushAll {P : Db → Prop} {R : Pend → Prop} (hf : ∀ db p db', P db → R p → p.flush db = some db' → P db')
    {db db' : Db} {ps : List Pend} (h : P db) (hp : ∀ p ∈ ps, R p) (e : flushAll db ps = some db') : P db' := by
  induction ps generalizing db with
  | nil => cases e; exact h
  | cons p ps ih =>
    simp only [flushAll] at e
    rcases e1 : p.flush db with _ | d <;> rw [e1] at e
    · cases e
    · exact ih (hf _ _ _ h (hp p (by simp)) e1) (fun q hq => hp q (by simp [hq])) e

/-- what it takes for `P` to hold for ever -/
structure Lasting (P : Db → Prop) (R : Pend → Prop) : Prop where
  flush : ∀ db p db', P db → R p → p.flush db = some db' → P db'
  add : ∀ c p, GCall.mayAdd c p → R p
  new : ∀ c mk n, GCall.mayNew c mk → R (mk n)
  upd : ∀ c f db, GCall.mayUpd c f → P db → P (f db)

theorem Kept.call {V : GEnv} {P : Db → Prop} {R : Pend → Prop} (L : Lasting P R)
    {s : GSession} (hs : Kept P R s) (c : GCall) : Kept P R (c.run V s).2 := by
  refine GCall.keeps (I := Kept P R) ⟨fun _ h => h, ?_, ?_, ?_, ?_, ?_, ?_, ?_⟩ ?_ hs
  · exact fun s db h _ e => ⟨h.1, kept_flushAll L.flush h.2.1 h.2.2 e, by simp⟩
  · exact fun s h => ⟨h.1, h.1, by simp⟩
  · exact fun _ _ s h => ⟨h.1, h.1, by simp [undo]⟩
  · refine fun p hp s h => ⟨h.1, h.2.1, fun q hq => ?_⟩
    simp only [List.mem_append, List.mem_singleton] at hq
    rcases hq with hq | rfl
    · exact h.2.2 q hq
    · exact L.add c q hp
  · refine fun mk hmk s h => ⟨h.1, h.2.1, fun q hq => ?_⟩
    simp only [List.mem_append, List.mem_singleton] at hq
    rcases hq with hq | rfl
    · exact h.2.2 q hq
    · exact L.new c mk _ hmk
  · exact fun f hf' s h => ⟨h.1, L.upd c f _ hf' h.2.1, h.2.2⟩
  · exact fun _ _ _ s h => ⟨h.2.1, h.2.1, h.2.2⟩
  · exact fun s h => ⟨h.1, h.1, by simp [undo]⟩

theorem Kept.run {V : GEnv} {P : Db → Prop} {R : Pend → Prop} (L : Lasting P R)
    {s : GSession} (hs : Kept P R s) (cs : List GCall) : Kept P R (gRun V cs s) := by
  unfold gRun
  induction cs generalizing s with
  | nil => exact hs
  | cons c cs ih => exact ih (hs.call L c)

theorem Kept.sees {P : Db → Prop} {R : Pend → Prop} (L : Lasting P R)
    {s : GSession} {db : Db} (hs : Kept P R s) (h : Sees s db) : P db := kept_flushAll L.flush hs.2.1 hs.2.2 h.2

theorem kept_fresh {P : Db → Prop} {R : Pend → Prop} {db : Db} (h : P db) (n : ℕ) : Kept P R (GSession.fresh db n) := ⟨h, h, by simp [GSession.fresh]⟩

theorem Kept.commit {P : Db → Prop} {R : Pend → Prop} (L : Lasting P R) {s : GSession} (hs : Kept P R s) : Kept P R (GM.commit s).2 := by
  rcases e : GM.commit s with ⟨_ | u, s'⟩
  · have : s' = (GM.flush s).2 := by
      rw [commit_run] at e
      rcases e1 : GM.flush s with ⟨_ | _, t⟩ <;> rw [e1] at e <;> cases e
      rfl
    rw [this]
    unfold GM.flush
    split_ifs with hb
    · exact hs
    · rcases e2 : flushAll s.work s.pending with _ | db
      · exact ⟨hs.1, hs.1, by simp⟩
      · exact ⟨hs.1, kept_flushAll L.flush hs.2.1 hs.2.2 e2, by simp⟩
  · obtain ⟨db, h, rfl⟩ := commit_ok e
    exact kept_fresh (hs.sees L h) _

/-- the stored file, if whole, satisfies `P` -/
def StoreOk (P : Db → Prop) (d : GDisk) : Prop := ∀ db, d.store = .whole db → P db

theorem kept_act {V : GEnv} {P : Db → Prop} {R : Pend → Prop} (L : Lasting P R) {ds : GDisk × GSession} (hd : StoreOk P ds.1)
    (hs : Kept P R ds.2) (a : GAct) : StoreOk P (a.run V ds).1 ∧ Kept P R (a.run V ds).2 := by
  obtain ⟨d, s⟩ := ds
  cases a with
  | call c => exact ⟨hd, hs.call L c⟩
  | save =>
    have hk := hs.commit L
    show StoreOk P (match GM.commit s with | (.ok _, s') => _ | (.error _, s') => _ : GDisk × GSession).1 ∧
      Kept P R (match GM.commit s with | (.ok _, s') => _ | (.error _, s') => _ : GDisk × GSession).2
    rcases e : GM.commit s with ⟨_ | u, s'⟩ <;> rw [e] at hk
    · exact ⟨hd, hk⟩
    · exact ⟨fun db h => by cases h; exact hk.1, hk⟩

theorem kept_acts {V : GEnv} {P : Db → Prop} {R : Pend → Prop} (L : Lasting P R) (acts : List GAct) {ds : GDisk × GSession} (hd : StoreOk P ds.1)
    (hs : Kept P R ds.2) : StoreOk P (acts.foldl (fun ds a => a.run V ds) ds).1 ∧ Kept P R (acts.foldl (fun ds a => a.run V ds) ds).2 := by
  induction acts generalizing ds with
  | nil => exact ⟨hd, hs⟩
  | cons a t ih =>
    have := kept_act (V := V) L hd hs a
    exact ih this.1 this.2

theorem kept_open {P : Db → Prop} {R : Pend → Prop} {d d' : GDisk} {s : GSession} (hd : StoreOk P d) (h : gOpen d = .ok (d', s)) :
    StoreOk P d' ∧ Kept P R s := by
  unfold gOpen at h
  rcases e : d.store with _ | _ | db <;> rw [e] at h
  · cases h
  · cases h
  · simp only [Except.ok.injEq, Prod.mk.injEq] at h
    obtain ⟨rfl, rfl⟩ := h
    exact ⟨fun db' h' => by cases h'; exact hd db e, kept_fresh (hd db e) _⟩

theorem kept_visit {V : GEnv} {P : Db → Prop} {R : Pend → Prop} (L : Lasting P R) {d : GDisk} (hd : StoreOk P d) (acts : List GAct) (e : GEnd) :
    StoreOk P (gVisit V d acts e) := by
  unfold gVisit
  rcases ho : gOpen d with _ | ⟨d', s'⟩
  · exact hd
  · have h1 := kept_open (R := R) hd ho
    have h2 := kept_acts (V := V) L acts (ds := (d', s')) h1.1 h1.2
    show StoreOk P (e.run _)
    generalize acts.foldl (fun ds a => a.run V ds) (d', s') = ds at h2 ⊢
    obtain ⟨d2, s2⟩ := ds
    cases e with
    | crashCopying =>
      show StoreOk P (match GM.commit s2 with | (.ok _, s') => _ | (.error _, s') => _ : GDisk)
      rcases GM.commit s2 with ⟨_ | _, s3⟩
      · exact h2.1
      · intro db h; cases h
    | _ => exact h2.1

/-- whatever lasts and holds of the empty database holds in every life of a model -/
theorem Lasting.lived {V : GEnv} {P : Db → Prop} {R : Pend → Prop} (L : Lasting P R) (h0 : P emptyDb) {s : GSession} (hs : Lived V s) : Kept P R s := by
  obtain ⟨n, visits, acts, d, t, ho, rfl⟩ := hs
  have hc : P (gCreate V n).committed := (((kept_fresh (R := R) h0 n).run L _).commit L).1
  have hd : StoreOk P (visits.foldl (fun d v => gVisit V d v.1 v.2) ⟨.whole (gCreate V n).committed, .absent, n⟩) := by
    have : StoreOk P ⟨.whole (gCreate V n).committed, .absent, n⟩ := fun db h => by cases h; exact hc
    revert this
    generalize (⟨.whole (gCreate V n).committed, .absent, n⟩ : GDisk) = d0
    intro hd0
    clear ho
    induction visits generalizing d0 with
    | nil => exact hd0
    | cons v vs ih => exact ih _ (kept_visit (R := R) L hd0 v.1 v.2)
  have h1 := kept_open (R := R) hd ho
  exact (kept_acts (V := V) L acts (ds := (d, t)) h1.1 h1.2).2

/-! ## C94 names are unique and frames have two different ends -/

/-- keys of the tables, and the ends of the frames -/
structure Keyed (db : Db) : Prop where
  mats : (db.mats.map fun q => q.name).Nodup
  isos : (db.isos.map fun q => q.material).Nodup
  secs : (db.secs.map fun q => q.name).Nodup
  asecs : (db.asecs.map fun q => q.name).Nodup
  cases' : (db.cases.map fun q => q.name).Nodup
  joints : (db.joints.map fun q => q.name).Nodup
  restrs : (db.restrs.map fun q => q.joint).Nodup
  jloads : (db.jloads.map fun q => (q.joint, q.case)).Nodup
  frames : (db.frames.map fun q => q.name).Nodup
  floads : (db.floads.map fun q => (q.table, q.frame, q.case)).Nodup
  ends : ∀ q ∈ db.frames, q.pt0 < q.pt1

theorem nodup_snoc {α β : Type} {f : α → β} {l : List α} {a : α} (h : (l.map f).Nodup) (ha : ∀ q ∈ l, f q ≠ f a) : ((l ++ [a]).map f).Nodup := by
  rw [List.map_append, List.nodup_append]
  refine ⟨h, by simp, ?_⟩
  intro b hb c hc
  simp only [List.map_cons, List.map_nil, List.mem_singleton] at hc
  obtain ⟨q, hq, rfl⟩ := List.mem_map.mp hb
  rw [hc]; exact ha q hq

theorem nodup_filter {α β : Type} {f : α → β} {l : List α} (p : α → Bool) (h : (l.map f).Nodup) : ((l.filter p).map f).Nodup :=
  h.sublist (List.filter_sublist.map f)

theorem map_upd {α β : Type} {f : α → β} {l : List α} {g : α → α} (hg : ∀ q, f (g q) = f q) : (l.map g).map f = l.map f := by
  rw [List.map_map]
  exact List.map_congr_left fun q _ => hg q

/-- pending frames have two different ends -/
def Pend.endsOk : Pend → Prop
  | .frame r => r.pt0 < r.pt1
  | _ => True

theorem keyed_flush (db : Db) (p : Pend) (db' : Db) (h : Keyed db) (hp : p.endsOk) (e : p.flush db = some db') : Keyed db' := by
  cases p <;> simp only [Pend.flush] at e
  case mat r => split_ifs at e with c; cases e; exact { h with mats := nodup_snoc h.mats fun q hq hh => c ⟨q, hq, hh⟩ }
  case iso r => split_ifs at e with c; cases e; exact { h with isos := nodup_snoc h.isos fun q hq hh => c ⟨q, hq, hh⟩ }
  case sec r => split_ifs at e with c; cases e; exact { h with secs := nodup_snoc h.secs fun q hq hh => c ⟨q, hq, hh⟩ }
  case asec r => split_ifs at e with c; cases e; exact { h with asecs := nodup_snoc h.asecs fun q hq hh => c ⟨q, hq, hh⟩ }
  case case r => split_ifs at e with c; cases e; exact { h with cases' := nodup_snoc h.cases' fun q hq hh => c ⟨q, hq, hh⟩ }
  case joint r => split_ifs at e with c; cases e; exact { h with joints := nodup_snoc h.joints fun q hq hh => c ⟨q, hq, hh⟩ }
  case restr r => split_ifs at e with c; cases e; exact { h with restrs := nodup_snoc h.restrs fun q hq hh => c ⟨q, hq, hh⟩ }
  case jload r =>
    split_ifs at e with c; cases e
    exact { h with jloads := nodup_snoc h.jloads fun q hq hh => c ⟨q, hq, by simpa using hh⟩ }
  case frame r =>
    split_ifs at e with c; cases e
    refine { h with frames := nodup_snoc h.frames fun q hq hh => c ⟨q, hq, hh⟩, ends := fun q hq => ?_ }
    simp only [List.mem_append, List.mem_singleton] at hq
    rcases hq with hq | rfl
    · exact h.ends q hq
    · exact hp
  case fload r =>
    split_ifs at e with c; cases e
    exact { h with floads := nodup_snoc h.floads fun q hq hh => c ⟨q, hq, by simpa using hh⟩ }
  case delJoint n => split_ifs at e with c; cases e; exact { h with joints := nodup_filter _ h.joints }
  case delMat n =>
    split_ifs at e with c; cases e
    refine { h with mats := nodup_filter _ h.mats, secs := ?_, asecs := ?_ }
    · rw [map_upd fun q => by split_ifs <;> rfl]; exact h.secs
    · rw [map_upd fun q => by split_ifs <;> rfl]; exact h.asecs
  case delRestr n => cases e; exact { h with restrs := nodup_filter _ h.restrs }

theorem keyed_add (c : GCall) (p : Pend) (h : c.mayAdd p) : p.endsOk := by
  cases c <;> simp only [GCall.mayAdd] at h <;> aesop (add simp Pend.endsOk)

theorem keyed_new (c : GCall) (mk : String → Pend) (n : String) (h : c.mayNew mk) : (mk n).endsOk := by
  cases c <;> simp only [GCall.mayNew] at h
  case addJoint => subst h; trivial
  case addFrame => rcases h with ⟨x, y, z, rfl⟩ | ⟨a, b, w, hab, rfl⟩; · trivial
                   · exact hab
  case addFrameBatch => rcases h with ⟨x, y, z, rfl⟩ | ⟨a, b, w, hab, rfl⟩; · trivial
                        · exact hab

theorem keyed_upd (c : GCall) (f : Db → Db) (db : Db) (h : c.mayUpd f) (hk : Keyed db) : Keyed (f db) := by
  cases c <;> simp only [GCall.mayUpd] at h
  case setProjectName => subst h; exact { hk with }
  case setAuthor => subst h; exact { hk with }
  case setUnit => obtain ⟨u, rfl⟩ := h; exact { hk with }
  case setTolerance => obtain ⟨u, rfl⟩ := h; exact { hk with }
  case setMaterialIso => subst h; exact { hk with isos := by rw [map_upd fun q => by split_ifs <;> rfl]; exact hk.isos }
  case setJointRestraint => subst h; exact { hk with restrs := by rw [map_upd fun q => by split_ifs <;> rfl]; exact hk.restrs }
  case setJointCoordinate =>
    obtain ⟨x, y, z, rfl⟩ := h; exact { hk with joints := by rw [map_upd fun q => by split_ifs <;> rfl]; exact hk.joints }
  case setFrameSection =>
    subst h
    refine { hk with frames := by rw [map_upd fun q => by split_ifs <;> rfl]; exact hk.frames, ends := fun q hq => ?_ }
    obtain ⟨p, hp, rfl⟩ := List.mem_map.mp hq
    have := hk.ends p hp
    split_ifs <;> exact this
  all_goals obtain ⟨v, rfl⟩ := h; exact { hk with floads := by rw [map_upd fun q => by split_ifs <;> rfl]; exact hk.floads }

theorem keyed_lasting : Lasting Keyed Pend.endsOk := ⟨keyed_flush, keyed_add, keyed_new, keyed_upd⟩

theorem keyed_empty : Keyed emptyDb := by
  constructor <;> simp [emptyDb]

theorem names_ok {α : Type} (r : GRet) (f : Db → List α) (g : α → String) {m : GM GRet}
    (hm : m = guarded r (do let l ← query f; pure (.names (l.map g))) ∨ m = caught r (do let l ← query f; pure (.names (l.map g))))
    (hr : ∀ l, r ≠ .names l) {s : GSession} {l : List String} (h : (m s).1 = .ok (.names l)) :
    ∃ db, Sees s db ∧ l = (f db).map g := by
  have key : ∀ s', (do let l ← query f; pure (GRet.names (l.map g)) : GM GRet) s = (.ok (.names l), s') → ∃ db, Sees s db ∧ l = (f db).map g := by
    intro s' h
    obtain ⟨a, t, h1, h2⟩ := bind_ok h
    have h3 := Sees.of_query h1
    simp only [pure_run, Prod.mk.injEq, Except.ok.injEq, GRet.names.injEq] at h2
    exact ⟨_, h3.1, by rw [← h2.1, h3.2.2]⟩
  rcases e : m s with ⟨_ | a, s'⟩ <;> rw [e] at h
  · cases h
  · have h : a = .names l := Except.ok.inj h
    subst h
    rcases hm with rfl | rfl
    · exact key s' (guarded_ok e (hr l).symm)
    · exact key s' (caught_ok e (hr l).symm)

/-- the names of a kind in a database -/
def GKind.names (k : GKind) (db : Db) : List String := match k with
  | .joint => db.joints.map fun q => q.name
  | .frame => db.frames.map fun q => q.name
  | .material => db.mats.map fun q => q.name
  | .frameSection => db.secs.map fun q => q.name
  | .areaSection => db.asecs.map fun q => q.name
  | .loadcase => db.cases.map fun q => q.name

theorem GKind.list_sees {V : GEnv} {k : GKind} {s : GSession} {l : List String} (h : (k.list.run V s).1 = .ok (.names l)) :
    ∃ db, Sees s db ∧ l = k.names db := by
  cases k
  · exact names_ok .none (fun db => db.joints) (fun q => q.name) (m := GCall.run V .getJointNames) (Or.inr rfl) (by simp) h
  · exact names_ok .none (fun db => db.frames) (fun q => q.name) (m := GCall.run V .getFrameNames) (Or.inl rfl) (by simp) h
  · exact names_ok (.bool false) (fun db => db.mats) (fun q => q.name) (m := GCall.run V .getMaterialNames) (Or.inl rfl) (by simp) h
  · exact names_ok (.bool false) (fun db => db.secs) (fun q => q.name) (m := GCall.run V .getFrameSectionNames) (Or.inl rfl) (by simp) h
  · exact names_ok (.bool false) (fun db => db.asecs) (fun q => q.name) (m := GCall.run V .getAreaSectionNames) (Or.inl rfl) (by simp) h
  · exact names_ok (.bool false) (fun db => db.cases) (fun q => q.name) (m := GCall.run V .getLoadcaseNames) (Or.inl rfl) (by simp) h

theorem GKind.list_run {V : GEnv} {s : GSession} {db : Db} (h : Sees s db) (k : GKind) : (k.list.run V s).1 = .ok (.names (k.names db)) := by
  cases k
  · show (gGetJointNames s).1 = _; simp only [gGetJointNames, caught, bind_run, h.query, pure_run, GKind.names]
  · show (gGetFrameNames s).1 = _; simp only [gGetFrameNames, guarded, bind_run, h.query, pure_run, GKind.names]
  · show (gGetMaterialNames s).1 = _; simp only [gGetMaterialNames, guarded, bind_run, h.query, pure_run, GKind.names]
  · show (gGetFrameSectionNames s).1 = _; simp only [gGetFrameSectionNames, guarded, bind_run, h.query, pure_run, GKind.names]
  · show (gGetAreaSectionNames s).1 = _; simp only [gGetAreaSectionNames, guarded, bind_run, h.query, pure_run, GKind.names]
  · show (gGetLoadcaseNames s).1 = _; simp only [gGetLoadcaseNames, guarded, bind_run, h.query, pure_run, GKind.names]

/-- In every life of a model the six listing functions never name anything twice. -/
theorem C94_no_name_twice (V : GEnv) (s : GSession) (hs : Lived V s) (k : GKind) (l : List String)
    (h : (k.list.run V s).1 = .ok (.names l)) : l.Nodup := by
  have hk := keyed_lasting.lived keyed_empty hs
  obtain ⟨db, h1, rfl⟩ := GKind.list_sees h
  have := hk.sees keyed_lasting h1
  cases k
  · exact this.joints
  · exact this.frames
  · exact this.mats
  · exact this.secs
  · exact this.asecs
  · exact this.cases'

theorem sees_of_ends {V : GEnv} {s : GSession} {f a b : String} (h : ((GCall.getFrameEndNames f).run V s).1 = .ok (.two a b)) :
    ∃ db e, Sees s db ∧ frameEnds db f = some e ∧ a = e.1.name ∧ b = e.2.name := by
  by_cases hs : ∃ db, Sees s db
  · obtain ⟨db, hs⟩ := hs
    have h : (gGetFrameEndNames f s).1 = _ := h
    rw [gGetFrameEndNames_run hs] at h
    rcases e : frameEnds db f with _ | q <;> rw [e] at h
    · cases h
    · simp only [Except.ok.injEq, GRet.two.injEq] at h
      exact ⟨db, q, hs, e, h.1.symm, h.2.symm⟩
  · exfalso
    rcases e : (GCall.getFrameEndNames f).run V s with ⟨_ | r, s'⟩ <;> rw [e] at h
    · cases h
    · have h : r = .two a b := Except.ok.inj h
      subst h
      obtain ⟨q, t, h1, -⟩ := bind_ok (guarded_ok e (by simp))
      obtain ⟨q1, t1, h2, -⟩ := bind_ok h1
      exact hs ⟨_, (lookup_ok h2).1⟩

theorem frameEnds_some {db : Db} {f : String} {e : JointRow × JointRow} (h : frameEnds db f = some e) :
    ∃ q ∈ db.frames, q.name = f ∧ e.1 ∈ db.joints ∧ e.2 ∈ db.joints ∧ e.1.name = q.pt0 ∧ e.2.name = q.pt1 := by
  unfold frameEnds at h
  rcases e1 : db.frames.find? fun q => q.name = f with _ | q
  · rw [e1] at h; cases h
  · simp only [e1] at h
    rcases e2 : db.joints.find? fun p => p.name = q.pt0 with _ | a <;> rcases e3 : db.joints.find? fun p => p.name = q.pt1 with _ | b <;>
      simp only [e2, e3] at h <;> cases h
    exact ⟨q, List.mem_of_find?_eq_some e1, by simpa using List.find?_some e1, List.mem_of_find?_eq_some e2, List.mem_of_find?_eq_some e3,
      by simpa using List.find?_some e2, by simpa using List.find?_some e3⟩

/-- The ends the model names for a frame are two different joints of the model. -/
theorem C94_two_ends (V : GEnv) (s : GSession) (hs : Lived V s) (f a b : String) (l : List String)
    (h : ((GCall.getFrameEndNames f).run V s).1 = .ok (.two a b)) (hl : (GCall.getJointNames.run V s).1 = .ok (.names l)) :
    a ≠ b ∧ a ∈ l ∧ b ∈ l := by
  have hk := keyed_lasting.lived keyed_empty hs
  obtain ⟨db, e, h1, h2, rfl, rfl⟩ := sees_of_ends h
  obtain ⟨db', h3, rfl⟩ := GKind.list_sees (k := .joint) hl
  cases h1.unique h3
  obtain ⟨q, hq, -, ha, hb, ea, eb⟩ := frameEnds_some h2
  refine ⟨?_, List.mem_map.mpr ⟨_, ha, rfl⟩, List.mem_map.mpr ⟨_, hb, rfl⟩⟩
  rw [ea, eb]
  exact fun e => String.lt_irrefl _ (e ▸ (hk.sees keyed_lasting h1).ends q hq)

end Hyperstatic
