import Verif.Lemmas.GeneralCreate

/-
Names of joints are uuids drawn before.
-/

namespace Hyperstatic
open GM

/-- every joint is named by one of the first `n` uuids -/
def Named (V : GEnv) (n : ℕ) (db : Db) : Prop := ∀ q ∈ db.joints, ∃ k < n, q.name = V.uuid k

theorem Named.mono {V : GEnv} {n m : ℕ} {db : Db} (h : Named V n db) (hm : n ≤ m) : Named V m db := fun q hq => by
  obtain ⟨k, hk, e⟩ := h q hq
  exact ⟨k, by omega, e⟩

/-- so are the pending joints -/
def Pend.named (V : GEnv) (n : ℕ) : Pend → Prop
  | .joint r => ∃ k < n, r.name = V.uuid k
  | _ => True

theorem Pend.named.mono {V : GEnv} {n m : ℕ} {p : Pend} (h : p.named V n) (hm : n ≤ m) : p.named V m := by
  cases p <;> try trivial
  obtain ⟨k, hk, e⟩ := h
  exact ⟨k, by omega, e⟩

theorem Named.flush {V : GEnv} {n : ℕ} {db db' : Db} {p : Pend} (h : Named V n db) (hp : p.named V n) (e : p.flush db = some db') : Named V n db' := by
  cases p <;> simp only [Pend.flush] at e
  case joint r =>
    split_ifs at e
    cases e
    intro q hq
    simp only [List.mem_append, List.mem_singleton] at hq
    rcases hq with hq | rfl
    · exact h q hq
    · exact hp
  case delJoint m =>
    split_ifs at e
    cases e
    exact fun q hq => h q (List.mem_filter.mp hq).1
  all_goals
    (try split_ifs at e) <;> cases e <;> exact h

theorem Named.flushAll {V : GEnv} {n : ℕ} {db db' : Db} {ps : List Pend} (h : Named V n db) (hp : ∀ p ∈ ps, p.named V n)
    (e : flushAll db ps = some db') : Named V n db' := by
  induction ps generalizing db with
  | nil => cases e; exact h
  | cons p ps ih =>
    simp only [Hyperstatic.flushAll] at e
    rcases e1 : p.flush db with _ | d <;> rw [e1] at e
    · cases e
    · exact ih (h.flush (hp p (by simp)) e1) (fun q hq => hp q (by simp [hq])) e

/-- all joints of a session are named by uuids drawn before -/
def NamedSession (V : GEnv) (s : GSession) : Prop :=
  Named V s.drawn s.committed ∧ Named V s.drawn s.work ∧ ∀ p ∈ s.pending, p.named V s.drawn

theorem NamedSession.call {V : GEnv} {s : GSession} (hs : NamedSession V s) (c : GCall) : NamedSession V (c.run V s).2 := by
  refine GCall.keeps (I := NamedSession V) ⟨fun _ h => h, ?_, ?_, ?_, ?_, ?_, ?_, ?_⟩ ?_ hs
  · exact fun s db h _ e => ⟨h.1, h.2.1.flushAll h.2.2 e, by simp⟩
  · exact fun s h => ⟨h.1, h.1, by simp⟩
  · exact fun _ _ s h => ⟨h.1, h.1, by simp [undo]⟩
  · refine fun p hp s h => ⟨h.1, h.2.1, fun q hq => ?_⟩
    simp only [List.mem_append, List.mem_singleton] at hq
    rcases hq with hq | rfl
    · exact h.2.2 q hq
    · cases c <;> simp only [GCall.mayAdd] at hp <;> aesop (add simp Pend.named)
  · refine fun mk hmk s h => ⟨h.1.mono (Nat.le_succ _), h.2.1.mono (Nat.le_succ _), fun q hq => ?_⟩
    simp only [List.mem_append, List.mem_singleton] at hq
    rcases hq with hq | rfl
    · exact (h.2.2 q hq).mono (Nat.le_succ _)
    · cases c <;> simp only [GCall.mayNew] at hmk <;> try exact absurd hmk id
      all_goals first
        | (subst hmk; exact ⟨s.drawn, Nat.lt_succ_self _, rfl⟩)
        | (rcases hmk with ⟨_, _, _, rfl⟩ | ⟨_, _, _, _, rfl⟩
           · exact ⟨s.drawn, Nat.lt_succ_self _, rfl⟩
           · trivial)
  · refine fun f hf s h => ⟨h.1, ?_, h.2.2⟩
    cases c <;> simp only [GCall.mayUpd] at hf <;> try exact absurd hf id
    case setJointCoordinate m a b d =>
      obtain ⟨_, _, _, rfl⟩ := hf
      intro q hq
      obtain ⟨p, hp, rfl⟩ := List.mem_map.mp hq
      have := h.2.1 p hp
      split_ifs <;> exact this
    all_goals first
      | (subst hf; exact h.2.1)
      | (obtain ⟨_, rfl⟩ := hf; exact h.2.1)
  · exact fun _ _ _ s h => ⟨h.2.1, h.2.1, h.2.2⟩
  · exact fun s h => ⟨h.1, h.1, by simp [undo]⟩

theorem call_drawn (V : GEnv) (c : GCall) (s : GSession) : s.drawn ≤ (c.run V s).2.drawn := by
  refine GCall.keeps (I := fun t => s.drawn ≤ t.drawn) ⟨fun _ h => h, ?_, ?_, ?_, ?_, ?_, ?_, ?_⟩ ?_ le_rfl
  · exact fun _ _ h _ _ => h
  · exact fun _ h => h
  · exact fun _ _ _ h => h
  · exact fun _ _ _ h => h
  · exact fun _ _ t h => Nat.le_succ_of_le h
  · exact fun _ _ _ h => h
  · exact fun _ _ _ _ h => h
  · exact fun _ h => h

theorem commit_drawn (s : GSession) : (GM.commit s).2.drawn = s.drawn := by
  rw [commit_run]
  unfold GM.flush
  by_cases hb : s.broken
  · simp [hb]
  · rcases e : flushAll s.work s.pending with _ | db <;> simp [hb]

theorem NamedSession.commit {V : GEnv} {s : GSession} (hs : NamedSession V s) : NamedSession V (GM.commit s).2 := by
  rcases e : GM.commit s with ⟨_ | u, s'⟩
  · rw [commit_run] at e
    unfold GM.flush at e
    split_ifs at e with hb
    · cases e; exact hs
    · rcases e2 : flushAll s.work s.pending with _ | db <;> rw [e2] at e <;> cases e
      exact ⟨hs.1, hs.1, by simp⟩
  · obtain ⟨db, h, rfl⟩ := commit_ok e
    have := hs.2.1.flushAll hs.2.2 h.2
    exact ⟨this, this, by simp [GSession.fresh]⟩

/-- the stored file, if whole, uses only the first `n` uuids for joints -/
def NamedStore (V : GEnv) (n : ℕ) (d : GDisk) : Prop := ∀ db, d.store = .whole db → Named V n db

theorem NamedStore.mono {V : GEnv} {n m : ℕ} {d : GDisk} (h : NamedStore V n d) (hm : n ≤ m) : NamedStore V m d := fun db e => (h db e).mono hm

theorem named_act {V : GEnv} {ds : GDisk × GSession} (hd : NamedStore V ds.2.drawn ds.1) (hs : NamedSession V ds.2) (a : GAct) :
    NamedStore V (a.run V ds).2.drawn (a.run V ds).1 ∧ NamedSession V (a.run V ds).2 := by
  obtain ⟨d, s⟩ := ds
  cases a with
  | call c => exact ⟨NamedStore.mono (d := { d with op := _ }) (fun db e => hd db e) (call_drawn V c s), hs.call c⟩
  | save =>
    have hk := hs.commit
    have hdr := commit_drawn s
    show NamedStore V (match GM.commit s with | (.ok _, s') => _ | (.error _, s') => _ : GDisk × GSession).2.drawn
      (match GM.commit s with | (.ok _, s') => _ | (.error _, s') => _ : GDisk × GSession).1 ∧
      NamedSession V (match GM.commit s with | (.ok _, s') => _ | (.error _, s') => _ : GDisk × GSession).2
    rcases e : GM.commit s with ⟨_ | u, s'⟩ <;> rw [e] at hk hdr
    · refine ⟨?_, hk⟩
      show NamedStore V s'.drawn d
      rw [hdr]; exact hd
    · exact ⟨fun db h => by cases h; exact hk.1, hk⟩

theorem named_acts {V : GEnv} (acts : List GAct) {ds : GDisk × GSession} (hd : NamedStore V ds.2.drawn ds.1) (hs : NamedSession V ds.2) :
    NamedStore V (acts.foldl (fun ds a => a.run V ds) ds).2.drawn (acts.foldl (fun ds a => a.run V ds) ds).1 ∧
    NamedSession V (acts.foldl (fun ds a => a.run V ds) ds).2 := by
  induction acts generalizing ds with
  | nil => exact ⟨hd, hs⟩
  | cons a t ih =>
    have := named_act hd hs a
    exact ih this.1 this.2

theorem named_open {V : GEnv} {d d' : GDisk} {s : GSession} (hd : NamedStore V d.drawn d) (h : gOpen d = .ok (d', s)) :
    NamedStore V s.drawn d' ∧ NamedSession V s := by
  unfold gOpen at h
  rcases e : d.store with _ | _ | db <;> rw [e] at h
  · cases h
  · cases h
  · simp only [Except.ok.injEq, Prod.mk.injEq] at h
    obtain ⟨rfl, rfl⟩ := h
    exact ⟨fun db' h' => by cases h'; exact hd db e, hd db e, hd db e, by simp [GSession.fresh]⟩

theorem named_visit {V : GEnv} {d : GDisk} (hd : NamedStore V d.drawn d) (acts : List GAct) (e : GEnd) :
    NamedStore V (gVisit V d acts e).drawn (gVisit V d acts e) := by
  unfold gVisit
  rcases ho : gOpen d with _ | ⟨d', s'⟩
  · exact hd
  · have h1 := named_open hd ho
    have h2 := named_acts (V := V) acts (ds := (d', s')) h1.1 h1.2
    show NamedStore V (e.run _).drawn (e.run _)
    generalize acts.foldl (fun ds a => a.run V ds) (d', s') = ds at h2 ⊢
    obtain ⟨d2, s2⟩ := ds
    cases e with
    | crashCopying =>
      have hdr := commit_drawn s2
      show NamedStore V (match GM.commit s2 with | (.ok _, s') => _ | (.error _, s') => _ : GDisk).drawn
        (match GM.commit s2 with | (.ok _, s') => _ | (.error _, s') => _ : GDisk)
      rcases e : GM.commit s2 with ⟨_ | _, s3⟩ <;> rw [e] at hdr
      · intro db h
        show Named V s3.drawn db
        rw [hdr]; exact h2.1 db h
      · intro db h; cases h
    | _ => exact fun db h => h2.1 db h

/-- in every life of a model the joints are named by uuids drawn before -/
theorem Lived.named {V : GEnv} {s : GSession} (hs : Lived V s) : NamedSession V s := by
  obtain ⟨n, visits, acts, d, t, ho, rfl⟩ := hs
  have hc : Named V n (gCreate V n).committed := by
    obtain ⟨db, e, st⟩ := gCreate_new V n
    rw [e]
    intro q hq
    simp [GSession.fresh, st.joints] at hq
  have hd : NamedStore V (visits.foldl (fun d v => gVisit V d v.1 v.2) ⟨.whole (gCreate V n).committed, .absent, n⟩).drawn
      (visits.foldl (fun d v => gVisit V d v.1 v.2) ⟨.whole (gCreate V n).committed, .absent, n⟩) := by
    have : NamedStore V n ⟨.whole (gCreate V n).committed, .absent, n⟩ := fun db h => by cases h; exact hc
    have : NamedStore V (⟨.whole (gCreate V n).committed, .absent, n⟩ : GDisk).drawn ⟨.whole (gCreate V n).committed, .absent, n⟩ := this
    revert this
    generalize (⟨.whole (gCreate V n).committed, .absent, n⟩ : GDisk) = d0
    intro hd0
    clear ho
    induction visits generalizing d0 with
    | nil => exact hd0
    | cons v vs ih => exact ih _ (named_visit hd0 v.1 v.2)
  have h1 := named_open hd ho
  exact (named_acts (V := V) acts (ds := (d, t)) h1.1 h1.2).2

/-- a uuid not yet drawn names no joint -/
theorem Lived.new_id {V : GEnv} (hV : Function.Injective V.uuid) {s : GSession} (hs : Lived V s) {db : Db} (h : Sees s db) {k : ℕ} (hk : s.drawn ≤ k) :
    V.uuid k ∉ db.joints.map fun q => q.name := by
  intro hm
  obtain ⟨q, hq, e⟩ := List.mem_map.mp hm
  obtain ⟨j, hj, e'⟩ := hs.named.2.1.flushAll hs.named.2.2 h.2 q hq
  have := hV (e'.symm.trans e)
  omega

end Hyperstatic
