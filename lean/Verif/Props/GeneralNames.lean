import Verif.Props.GeneralData
import Verif.Spec.Listing

/-
C155: what calls add is listed, and nothing else.
-/

namespace Hyperstatic
open GM

/-- a pending object inserts a row with a name -/
def Pend.inserts : Pend → GKind → String → Prop
  | .mat r, .material, n => r.name = n
  | .sec r, .frameSection, n => r.name = n
  | .asec r, .areaSection, n => r.name = n
  | .case r, .loadcase, n => r.name = n
  | .joint r, .joint, n => r.name = n
  | .frame r, .frame, n => r.name = n
  | _, _, _ => False

/-- a pending object deletes the rows with a name -/
def Pend.deletes : Pend → GKind → String → Prop
  | .delMat m, .material, n => m = n
  | .delJoint m, .joint, n => m = n
  | _, _, _ => False

theorem mem_names_snoc {α : Type} {f : α → String} {l : List α} {r : α} {n : String} : n ∈ (l ++ [r]).map f ↔ n ∈ l.map f ∨ f r = n := by
  rw [List.map_append, List.mem_append, List.map_cons, List.map_nil, List.mem_singleton]
  exact or_congr_right eq_comm

theorem mem_names_filter {α : Type} {f : α → String} {l : List α} {m n : String} :
    n ∈ (l.filter fun q => f q ≠ m).map f ↔ n ∈ l.map f ∧ ¬ m = n := by
  simp only [List.mem_map, List.mem_filter, decide_eq_true_eq]
  constructor
  · rintro ⟨q, ⟨h1, h2⟩, rfl⟩
    exact ⟨⟨q, h1, rfl⟩, fun e => h2 e.symm⟩
  · rintro ⟨⟨q, h1, rfl⟩, h2⟩
    exact ⟨q, ⟨h1, fun e => h2 e.symm⟩, rfl⟩

/-- after a flush a kind has the names it had, less the deleted ones, and the inserted one -/
theorem flush_names {db db' : Db} {p : Pend} (e : p.flush db = some db') (k : GKind) (n : String) :
    n ∈ k.names db' ↔ (n ∈ k.names db ∧ ¬ p.deletes k n) ∨ p.inserts k n := by
  cases p <;> simp only [Pend.flush] at e <;> (try split_ifs at e) <;> cases e <;> cases k <;>
    simp only [GKind.names, Pend.deletes, Pend.inserts, mem_names_snoc, mem_names_filter, not_false_eq_true, and_true, or_false]
  · rw [map_upd fun q : SecRow => by split_ifs <;> rfl]
  · rw [map_upd fun q : ASecRow => by split_ifs <;> rfl]

theorem flushAll_names_keep {db db' : Db} {ps : List Pend} (e : flushAll db ps = some db') {k : GKind} {n : String}
    (h : n ∈ k.names db) (hp : ∀ p ∈ ps, ¬ p.deletes k n) : n ∈ k.names db' := by
  induction ps generalizing db with
  | nil => cases e; exact h
  | cons p ps ih =>
    simp only [flushAll] at e
    rcases e1 : p.flush db with _ | d <;> rw [e1] at e
    · cases e
    · exact ih e ((flush_names e1 k n).mpr (Or.inl ⟨h, hp p (by simp)⟩)) fun q hq => hp q (by simp [hq])

theorem flushAll_names_from {db db' : Db} {ps : List Pend} (e : flushAll db ps = some db') {k : GKind} {n : String}
    (h : n ∈ k.names db') : n ∈ k.names db ∨ ∃ p ∈ ps, p.inserts k n := by
  induction ps generalizing db with
  | nil => cases e; exact Or.inl h
  | cons p ps ih =>
    simp only [flushAll] at e
    rcases e1 : p.flush db with _ | d <;> rw [e1] at e
    · cases e
    · rcases ih e with h1 | ⟨q, hq, h1⟩
      · rcases (flush_names e1 k n).mp h1 with h2 | h2
        · exact Or.inl h2.1
        · exact Or.inr ⟨p, by simp, h2⟩
      · exact Or.inr ⟨q, by simp [hq], h1⟩

/-- the object is in the tables or waits to be inserted, and nothing after it deletes it -/
def Present (k : GKind) (n : String) (s : GSession) : Prop := ∃ a b, s.pending = a ++ b ∧ (∀ p ∈ b, ¬ p.deletes k n) ∧
  ((a = [] ∧ n ∈ k.names s.work) ∨ ∃ a' p, a = a' ++ [p] ∧ p.inserts k n)

theorem Present.sees {k : GKind} {n : String} {s : GSession} {db : Db} (h : Present k n s) (e : flushAll s.work s.pending = some db) :
    n ∈ k.names db := by
  obtain ⟨a, b, h1, h2, h3⟩ := h
  rw [h1, flushAll_append] at e
  rcases e1 : flushAll s.work a with _ | d <;> rw [e1] at e
  · cases e
  · have e : flushAll d b = some db := e
    refine flushAll_names_keep e ?_ h2
    rcases h3 with ⟨rfl, h3⟩ | ⟨a', p, rfl, h3⟩
    · cases e1; exact h3
    · rw [flushAll_append] at e1
      rcases e2 : flushAll s.work a' with _ | d' <;> rw [e2] at e1
      · cases e1
      · have e1 : (p.flush d').bind (fun db' => some db') = some d := e1
        rw [Option.bind_fun_some] at e1
        exact (flush_names e1 k n).mpr (Or.inr h3)

theorem Present.flushed {k : GKind} {n : String} {s : GSession} {db : Db} (h : n ∈ k.names db) (hw : s.work = db) (hp : s.pending = []) :
    Present k n s := ⟨[], [], hp, by simp, Or.inl ⟨rfl, hw ▸ h⟩⟩

theorem Present.add {k : GKind} {n : String} {s : GSession} {p : Pend} {m : ℕ} (h : Present k n s) (hp : ¬ p.deletes k n) :
    Present k n { s with pending := s.pending ++ [p], drawn := m } := by
  obtain ⟨a, b, h1, h2, h3⟩ := h
  refine ⟨a, b ++ [p], by simp [h1], ?_, h3⟩
  intro q hq
  simp only [List.mem_append, List.mem_singleton] at hq
  rcases hq with hq | rfl
  · exact h2 q hq
  · exact hp

theorem Present.new {k : GKind} {n : String} {s : GSession} {p : Pend} {m : ℕ} (hp : p.inserts k n) :
    Present k n { s with pending := s.pending ++ [p], drawn := m } :=
  ⟨s.pending ++ [p], [], by simp, by simp, Or.inr ⟨_, p, rfl, hp⟩⟩

/-- no call changes names -/
theorem mayUpd_names {c : GCall} {f : Db → Db} (h : c.mayUpd f) (k : GKind) (db : Db) : k.names (f db) = k.names db := by
  cases c <;> simp only [GCall.mayUpd] at h
  all_goals first
    | (subst h; cases k <;> first | rfl | exact map_upd (fun q => by split_ifs <;> rfl))
    | (obtain ⟨_, rfl⟩ := h; cases k <;> first | rfl | exact map_upd (fun q => by split_ifs <;> rfl))
    | (obtain ⟨_, _, _, rfl⟩ := h; cases k <;> first | rfl | exact map_upd (fun q => by split_ifs <;> rfl))

theorem mayAdd_deletes {c : GCall} {p : Pend} (h : c.mayAdd p) {k : GKind} {n : String} (hd : p.deletes k n) : c.removes k n := by
  cases c <;> simp only [GCall.mayAdd] at h
  all_goals
    first
    | (subst h; cases k <;> simp only [Pend.deletes, GCall.removes] at hd ⊢ <;> exact hd.symm)
    | (rcases h with ⟨_, _, rfl⟩ | ⟨_, rfl⟩ <;> cases k <;> exact hd.elim)
    | (rcases h with rfl | rfl <;> cases k <;> exact hd.elim)
    | (obtain ⟨_, rfl⟩ := h; cases k <;> first | trivial | exact hd.elim)
    | (obtain ⟨_, _, rfl⟩ := h; cases k <;> exact hd.elim)
    | (obtain ⟨_, rfl, _⟩ := h; cases k <;> exact hd.elim)

theorem mayNew_deletes {c : GCall} {mk : String → Pend} (h : c.mayNew mk) (i : String) {k : GKind} {n : String} : ¬ (mk i).deletes k n := by
  cases c <;> simp only [GCall.mayNew] at h
  · subst h; cases k <;> exact id
  · rcases h with ⟨_, _, _, rfl⟩ | ⟨_, _, _, _, rfl⟩ <;> cases k <;> exact id
  · rcases h with ⟨_, _, _, rfl⟩ | ⟨_, _, _, _, rfl⟩ <;> cases k <;> exact id

theorem present_stable {V : GEnv} {k : GKind} {n : String} {c : GCall} (hc : ¬ c.removes k n) (hq : ∀ code, c ≠ .addMaterialQuick code) :
    Stable V (Present k n) (fun _ => True) c where
  weak := fun _ _ => trivial
  ok := fun s db h _ e => Present.flushed (h.sees e) rfl rfl
  err := fun _ _ => trivial
  quick := fun code e => absurd e (hq code)
  add := fun p hp s h => h.add fun hd => hc (mayAdd_deletes hp hd)
  new := fun mk hmk s h => h.add (mayNew_deletes hmk _)
  upd := by
    rintro f hf s ⟨a, b, h1, h2, h3⟩
    refine ⟨a, b, h1, h2, ?_⟩
    rw [mayUpd_names hf]
    exact h3
  commit := fun _ _ _ _ h => h

theorem present_added {k : GKind} {n : String} {p : Pend} {r a : GRet} {t s' : GSession}
    (h : (GM.add p >>= fun _ => (pure r : GM GRet)) t = (.ok a, s')) (hp : p.inserts k n) : Present k n s' := by
  rw [bind_run, add_run] at h
  have h : s' = { t with pending := t.pending ++ [p] } := by cases h; rfl
  rw [h]
  exact Present.new (m := t.drawn) hp

theorem gBatchFrames_adds {V : GEnv} {m : String → String} {sec : String} {es : List (String × String)} {s s' : GSession} {ns : List String}
    (h : gBatchFrames V m sec es s = (.ok ns, s')) : s'.work = s.work ∧ s'.broken = s.broken ∧
      ∃ ps, s'.pending = s.pending ++ ps ∧ ∀ n ∈ ns, ∃ p ∈ ps, p.inserts .frame n := by
  induction es generalizing s ns with
  | nil => cases h; exact ⟨rfl, rfl, [], by simp, by simp⟩
  | cons e es ih =>
    obtain ⟨a, b⟩ := e
    unfold gBatchFrames at h
    cases he : sortEnds (m a) (m b) with
    | none => rw [he] at h; exact ih h
    | some e =>
      rw [he] at h
      obtain ⟨n, t, h1, h2⟩ := bind_ok h
      obtain ⟨r, t', h3, h4⟩ := bind_ok h2
      cases h1
      cases h4
      obtain ⟨h5, h6, ps, h7, h8⟩ := ih h3
      refine ⟨h5, h6, Pend.frame ⟨V.uuid s.drawn, sec, e.1, e.2.1, e.2.2⟩ :: ps, by rw [h7, List.append_assoc]; rfl, ?_⟩
      intro q hq
      rcases List.mem_cons.mp hq with rfl | hq
      · exact ⟨_, List.mem_cons_self, rfl⟩
      · obtain ⟨p, hp, hi⟩ := h8 q hq
        exact ⟨p, List.mem_cons_of_mem _ hp, hi⟩

theorem forM_add_pend {l : List String} {f : String → Pend} {s s' : GSession} {u : Unit} (h : l.forM (fun n => GM.add (f n)) s = (.ok u, s')) :
    s'.work = s.work ∧ s'.broken = s.broken ∧ s'.pending = s.pending ++ l.map f := by
  induction l generalizing s with
  | nil => cases h; exact ⟨rfl, rfl, by simp⟩
  | cons a l ih =>
    have h : (GM.add (f a) >>= fun _ => l.forM fun n => GM.add (f n)) s = _ := h
    obtain ⟨_, t, h1, h2⟩ := bind_ok h
    cases h1
    obtain ⟨h3, h4, h5⟩ := ih h2
    exact ⟨h3, h4, by rw [h5]; simp⟩

theorem flushAll_inserted {db db' : Db} {ps : List Pend} (e : flushAll db ps = some db') {k : GKind} {n : String} {p : Pend} (hp : p ∈ ps)
    (hi : p.inserts k n) (hd : ∀ q ∈ ps, ¬ q.deletes k n) : n ∈ k.names db' := by
  obtain ⟨a, b, rfl⟩ := List.append_of_mem hp
  have : Present k n ⟨db, db, a ++ p :: b, false, 0⟩ :=
    ⟨a ++ [p], b, by simp, fun q hq => hd q (by simp [hq]), Or.inr ⟨a, p, rfl, hi⟩⟩
  exact this.sees e

theorem not_deletes_frame (p : Pend) (n : String) : ¬ p.deletes .frame n := by cases p <;> exact id

/-- what a call says it added is there -/
theorem present_of_added {V : GEnv} {c : GCall} {r : GRet} {s s1 : GSession} {k : GKind} {n : String} (h : c.run V s = (.ok r, s1))
    (ha : c.added r k n) : Present k n s1 := by
  unfold GCall.added at ha
  split at ha
  · subst ha
    obtain ⟨_, t1, _, h1⟩ := bind_ok (guarded_ok h (by simp))
    obtain ⟨_, t2, _, h2⟩ := bind_ok h1
    obtain ⟨_, t3, _, h3⟩ := bind_ok h2
    obtain ⟨_, t4, _, h4⟩ := bind_ok h3
    exact present_added h4 rfl
  · subst ha
    obtain ⟨_, t1, _, h1⟩ := bind_ok (guarded_ok h (by simp))
    obtain ⟨_, t2, _, h2⟩ := bind_ok h1
    obtain ⟨_, t3, _, h3⟩ := bind_ok h2
    obtain ⟨_, t4, _, h4⟩ := bind_ok h3
    obtain ⟨_, t5, _, h5⟩ := bind_ok h4
    obtain ⟨_, t6, _, h6⟩ := bind_ok h5
    exact present_added h6 rfl
  · subst ha
    obtain ⟨_, t1, _, h1⟩ := bind_ok (guarded_ok h (by simp))
    obtain ⟨_, t2, _, h2⟩ := bind_ok h1
    obtain ⟨_, t3, _, h3⟩ := bind_ok h2
    obtain ⟨_, t4, _, h4⟩ := bind_ok h3
    exact present_added h4 rfl
  · subst ha
    obtain ⟨_, t1, _, h1⟩ := bind_ok (guarded_ok h (by simp))
    obtain ⟨_, t2, _, h2⟩ := bind_ok h1
    exact present_added h2 rfl
  · subst ha
    have h : gAddJoint V _ _ _ s = _ := h
    unfold gAddJoint at h
    obtain ⟨_, t1, h1, h2⟩ := bind_ok (guarded_ok h (by simp))
    cases h1
    cases h2
    exact Present.new rfl
  · subst ha
    have h : gAddFrame V _ _ _ _ s = _ := h
    unfold gAddFrame at h
    split at h
    · obtain ⟨_, t1, _, h1⟩ := bind_ok h
      obtain ⟨_, t2, _, h2⟩ := bind_ok h1
      obtain ⟨_, t3, _, h3⟩ := bind_ok h2
      obtain ⟨_, t4, _, h4⟩ := bind_ok h3
      obtain ⟨_, t5, _, h5⟩ := bind_ok h4
      obtain ⟨_, t6, _, h6⟩ := bind_ok h5
      obtain ⟨_, t7, _, h7⟩ := bind_ok h6
      obtain ⟨_, t8, h8, h9⟩ := bind_ok h7
      cases h8
      cases h9
      exact Present.new rfl
    · cases h
  · obtain ⟨_, t1, _, h1⟩ := bind_ok (guarded_ok h (by simp))
    obtain ⟨_, t2, _, h2⟩ := bind_ok h1
    obtain ⟨_, t3, _, h3⟩ := bind_ok h2
    obtain ⟨_, t4, _, h4⟩ := bind_ok h3
    obtain ⟨_, t5, _, h5⟩ := bind_ok h4
    obtain ⟨_, t6, _, h6⟩ := bind_ok h5
    obtain ⟨ns, t7, h7, h8⟩ := bind_ok h6
    obtain ⟨_, t8, h9, h10⟩ := bind_ok h8
    obtain ⟨_, t9, h11, h12⟩ := bind_ok h10
    cases h12
    obtain ⟨-, -, ps, hps, hins⟩ := gBatchFrames_adds h7
    obtain ⟨-, -, hps2⟩ := forM_add_pend h9
    obtain ⟨db, hdb, rfl⟩ := commit_ok h11
    obtain ⟨p, hp, hi⟩ := hins _ ha
    refine Present.flushed (db := db) (flushAll_inserted hdb.2 (p := p) ?_ hi fun q _ => not_deletes_frame q n) rfl rfl
    rw [hps2, hps]
    simp [hp]
  · exact ha.elim

/-- What a call says it added is listed from then on, after any further calls that succeed, until it is removed. -/
theorem C155_listed (V : GEnv) (s s1 t : GSession) (c : GCall) (r : GRet) (cs : List GCall) (k : GKind) (n : String) (l : List String)
    (h : c.run V s = (.ok r, s1)) (ha : c.added r k n) (hcs : AllSucceed V cs s1 t) (hr : ∀ d ∈ cs, ¬ d.removes k n)
    (hl : (k.list.run V t).1 = .ok (.names l)) : n ∈ l := by
  have h1 := AllSucceed.keeps (I := Present k n) (P := fun d => ¬ d.removes k n) (fun d hd hq => present_stable hd hq) hr hcs
    (present_of_added h ha)
  obtain ⟨db, h2, rfl⟩ := GKind.list_sees hl
  exact h1.sees h2.2

/-- a joint added to an empty model is listed after the unit was changed -/
example (V : GEnv) (n : ℕ) : ∃ s1 t, (GCall.addJoint 1 2 3).run V (GSession.fresh emptyDb n) = (.ok (.str (V.uuid n)), s1) ∧
    (GCall.addJoint 1 2 3).added (.str (V.uuid n)) .joint (V.uuid n) ∧ AllSucceed V [.setUnit "kN_m_C"] s1 t ∧
    (GKind.joint.list.run V t).1 = .ok (.names [V.uuid n]) := by
  have hs : Sees ⟨emptyDb, emptyDb, [.joint ⟨V.uuid n, 1, 2, 3⟩], false, n + 1⟩ { emptyDb with joints := [⟨V.uuid n, 1, 2, 3⟩] } :=
    ⟨rfl, by simp [flushAll, Pend.flush, emptyDb]⟩
  refine ⟨⟨emptyDb, emptyDb, [.joint ⟨V.uuid n, 1, 2, 3⟩], false, n + 1⟩, _, rfl, rfl, ⟨?_, rfl⟩, ?_⟩
  · show GCall.succeeded _ (gSetUnit (GUnit.str .kNm) _).1
    rw [gSetUnit_run hs]
    trivial
  · show (GKind.joint.list.run V (gSetUnit (GUnit.str .kNm) _).2).1 = _
    rw [gSetUnit_run hs]
    exact GKind.list_run (db := { emptyDb with joints := [⟨V.uuid n, 1, 2, 3⟩], unit := .kNm }) ⟨rfl, rfl⟩ .joint

theorem mayAdd_inserts {V : GEnv} {c : GCall} {p : Pend} (h : c.mayAdd p) {k : GKind} {n : String} (hi : p.inserts k n) : c.brings V k n := by
  cases c <;> simp only [GCall.mayAdd] at h
  all_goals
    first
    | (subst h; cases k <;> first | exact hi.elim | exact hi.symm)
    | (rcases h with ⟨_, _, rfl⟩ | ⟨_, rfl⟩ <;> cases k <;> first | exact hi.elim | exact hi.symm)
    | (rcases h with rfl | rfl <;> cases k <;> exact hi.elim)
    | (obtain ⟨_, _, rfl⟩ := h; cases k <;> exact hi.elim)
    | (obtain ⟨_, rfl, h, _⟩ := h; cases k <;> first | exact hi.elim | exact hi.symm.trans h)
    | (obtain ⟨_, rfl⟩ := h; cases k <;> first | exact hi.elim | exact hi.symm)

theorem mayNew_inserts {V : GEnv} {c : GCall} {mk : String → Pend} (h : c.mayNew mk) {i : ℕ} {k : GKind} {n : String}
    (hi : (mk (V.uuid i)).inserts k n) : c.brings V k n := by
  cases c <;> simp only [GCall.mayNew] at h
  · subst h; cases k <;> first | exact hi.elim | exact ⟨i, hi.symm⟩
  · rcases h with ⟨_, _, _, rfl⟩ | ⟨_, _, _, _, rfl⟩
    · cases k <;> first | exact hi.elim | exact ⟨i, hi.symm⟩
    · cases k <;> first | exact hi.elim | skip
      rename_i name _ _ _ _
      have hi : frameName name (V.uuid i) = n := hi
      show name = some n ∨ _
      unfold frameName at hi
      split at hi
      · exact Or.inr ⟨i, hi.symm⟩
      · split_ifs at hi
        · exact Or.inr ⟨i, hi.symm⟩
        · exact Or.inl (congrArg some hi)
  · rcases h with ⟨_, _, _, rfl⟩ | ⟨_, _, _, _, rfl⟩ <;> cases k <;> first | exact hi.elim | exact ⟨i, hi.symm⟩

/-- Nothing else is listed: every name in a list was there when the model was opened, or a call since then was given it or drew it. -/
theorem C155_only (V : GEnv) (d d' : GDisk) (s : GSession) (cs : List GCall) (k : GKind) (l0 l : List String) (n : String)
    (ho : gOpen d = .ok (d', s)) (h0 : (k.list.run V s).1 = .ok (.names l0)) (hl : (k.list.run V (gRun V cs s)).1 = .ok (.names l))
    (hn : n ∈ l) : n ∈ l0 ∨ ∃ c ∈ cs, c.brings V k n := by
  obtain ⟨db, rfl⟩ : ∃ db, s = GSession.fresh db d.drawn := by
    unfold gOpen at ho
    split at ho
    · cases ho
    · cases ho
    · cases ho; exact ⟨_, rfl⟩
  rw [GKind.list_run (sees_fresh db d.drawn)] at h0
  cases h0
  obtain ⟨db1, h1, rfl⟩ := GKind.list_sees hl
  let Q : String → Prop := fun m => m ∈ k.names db ∨ ∃ c ∈ cs, c.brings V k m
  let J : GSession → Prop := fun t => (∀ m ∈ k.names t.committed, Q m) ∧ (∀ m ∈ k.names t.work, Q m) ∧ ∀ p ∈ t.pending, ∀ m, p.inserts k m → Q m
  have hflush : ∀ {t : GSession} {db : Db}, J t → flushAll t.work t.pending = some db → ∀ m ∈ k.names db, Q m := by
    intro t db' ht e m hm
    rcases flushAll_names_from e hm with h | ⟨p, hp, hi⟩
    · exact ht.2.1 m h
    · exact ht.2.2 p hp m hi
  have hrun : ∀ ds : List GCall, (∀ c ∈ ds, c ∈ cs) → ∀ t, J t → J (gRun V ds t) := by
    intro ds
    induction ds with
    | nil => exact fun _ t ht => ht
    | cons c ds ih =>
      intro hds t ht
      refine ih (fun e he => hds e (by simp [he])) _ ?_
      have hc := hds c (by simp)
      refine GCall.keeps (I := J) ⟨fun _ h => h, ?_, ?_, ?_, ?_, ?_, ?_, ?_⟩ ?_ ht
      · exact fun t db' h _ e => ⟨h.1, hflush h e, by simp⟩
      · exact fun t h => ⟨h.1, h.1, by simp⟩
      · exact fun _ _ t h => ⟨h.1, h.1, by simp [undo]⟩
      · refine fun p hp t h => ⟨h.1, h.2.1, fun q hq m hm => ?_⟩
        simp only [List.mem_append, List.mem_singleton] at hq
        rcases hq with hq | rfl
        · exact h.2.2 q hq m hm
        · exact Or.inr ⟨c, hc, mayAdd_inserts hp hm⟩
      · refine fun mk hmk t h => ⟨h.1, h.2.1, fun q hq m hm => ?_⟩
        simp only [List.mem_append, List.mem_singleton] at hq
        rcases hq with hq | rfl
        · exact h.2.2 q hq m hm
        · exact Or.inr ⟨c, hc, mayNew_inserts hmk hm⟩
      · intro f hf t h
        refine ⟨h.1, ?_, h.2.2⟩
        show ∀ m ∈ k.names (f t.work), Q m
        rw [mayUpd_names hf]
        exact h.2.1
      · exact fun _ _ _ t h => ⟨h.2.1, h.2.1, h.2.2⟩
      · exact fun t h => ⟨h.1, h.1, by simp [undo]⟩
  have hJ := hrun cs (fun _ h => h) (GSession.fresh db d.drawn)
    ⟨fun m hm => Or.inl hm, fun m hm => Or.inl hm, fun p hp => by cases hp⟩
  exact hflush hJ h1.2 n hn

/-- Areas: no call adds one, in any session, and the list of areas is empty. -/
theorem C155_no_areas (V : GEnv) (s : GSession) : (∀ p0 p1 p2 p3 sec name, ((GCall.addArea p0 p1 p2 p3 sec name).run V s).1 = .ok (.bool false)) ∧
    (∀ pts sec, ((GCall.addAreaBatch pts sec).run V s).1 = .ok (.bool false)) ∧
    ∀ l, (GCall.getAreaNames.run V s).1 = .ok (.names l) → l = [] := by
  refine ⟨fun p0 p1 p2 p3 sec name => ?_, fun pts sec => ?_, fun l h => ?_⟩
  · by_contra hne
    rcases e : (GCall.addArea p0 p1 p2 p3 sec name).run V s with ⟨er | a, s'⟩
    · have e : guarded _ _ s = _ := e
      unfold guarded at e
      split at e <;> cases e
    · have ha : a ≠ .bool false := by
        rintro rfl
        exact hne (by rw [e])
      obtain ⟨_, t1, _, h1⟩ := bind_ok (guarded_ok e ha)
      obtain ⟨_, t2, _, h2⟩ := bind_ok h1
      obtain ⟨_, t3, _, h3⟩ := bind_ok h2
      obtain ⟨_, t4, _, h4⟩ := bind_ok h3
      obtain ⟨_, t5, _, h5⟩ := bind_ok h4
      obtain ⟨_, t6, _, h6⟩ := bind_ok h5
      obtain ⟨_, t7, _, h7⟩ := bind_ok h6
      cases p3 with
      | none => cases h7
      | some p =>
        obtain ⟨_, t8, _, h8⟩ := bind_ok h7
        cases h8
  · by_contra hne
    rcases e : (GCall.addAreaBatch pts sec).run V s with ⟨er | a, s'⟩
    · have e : guarded _ _ s = _ := e
      unfold guarded at e
      split at e <;> cases e
    · have ha : a ≠ .bool false := by
        rintro rfl
        exact hne (by rw [e])
      obtain ⟨_, t1, _, h1⟩ := bind_ok (guarded_ok e ha)
      obtain ⟨_, t2, _, h2⟩ := bind_ok h1
      obtain ⟨_, t3, _, h3⟩ := bind_ok h2
      cases h3
  · rcases e : GCall.getAreaNames.run V s with ⟨_ | a, s'⟩ <;> rw [e] at h
    · cases h
    · have h : a = .names l := Except.ok.inj h
      subst h
      obtain ⟨_, t1, _, h1⟩ := bind_ok (guarded_ok e (by simp))
      cases h1
      rfl

end Hyperstatic
