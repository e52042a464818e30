import Verif.Spec.General

/-
Lemmas about the session machine of Model/General.
-/

namespace Hyperstatic
namespace GM
variable {α β : Type}

theorem pure_run (a : α) (s : GSession) : (pure a : GM α) s = (.ok a, s) := rfl
theorem bind_run (m : GM α) (f : α → GM β) (s : GSession) :
    (m >>= f) s = match m s with | (.ok a, s') => f a s' | (.error e, s') => (.error e, s') := rfl

/-- started where `I` holds, `m` returns where `I` holds a value that satisfies `Q`, or raises where `E` holds -/
def Holds (I E : GSession → Prop) (Q : α → Prop) (m : GM α) : Prop :=
  ∀ s, I s → match m s with | (.ok a, s') => I s' ∧ Q a | (.error _, s') => E s'

variable {I E : GSession → Prop}

theorem Holds.pure {Q : α → Prop} {a : α} (h : Q a) : Holds I E Q (Pure.pure a) := fun _ hs => ⟨hs, h⟩

theorem Holds.fail {Q : α → Prop} {e : PyErr} (hE : ∀ s, I s → E s) : Holds I E Q (GM.fail e : GM α) := fun s hs => hE s hs

theorem Holds.bind' {R : α → Prop} {Q : β → Prop} {m : GM α} {f : α → GM β} (h : Holds I E R m)
    (hf : ∀ a, R a → Holds I E Q (f a)) : Holds I E Q (m >>= f) := by
  intro s hs
  have := h s hs
  rw [bind_run]
  rcases e : m s with ⟨r, s'⟩
  rw [e] at this
  cases r with
  | error e => exact this
  | ok a => exact hf a this.2 s' this.1

theorem Holds.bind {Q : β → Prop} {m : GM α} {f : α → GM β} (h : Holds I E (fun _ => True) m)
    (hf : ∀ a, Holds I E Q (f a)) : Holds I E Q (m >>= f) := h.bind' fun a _ => hf a

theorem Holds.check {p : Prop} {Q : Unit → Prop} (hE : ∀ s, I s → E s) (h : Q ()) : Holds I E Q (GM.check p) := by
  unfold GM.check; split
  · exact Holds.pure h
  · exact Holds.fail hE

theorem Holds.need {Q : α → Prop} {o : Option α} (hE : ∀ s, I s → E s) (h : ∀ a, o = some a → Q a) : Holds I E Q (GM.need o) := by
  cases o with
  | none => exact Holds.fail hE
  | some a => exact Holds.pure (h a rfl)

theorem Holds.addNew {V : GEnv} {mk : String → Pend}
    (hI : ∀ s, I s → I { s with pending := s.pending ++ [mk (V.uuid s.drawn)], drawn := s.drawn + 1 }) :
    Holds I E (fun _ => True) (GM.addNew V mk) := fun s hs => ⟨hI s hs, trivial⟩

theorem Holds.add {p : Pend} (hI : ∀ s, I s → I { s with pending := s.pending ++ [p] }) :
    Holds I E (fun _ => True) (GM.add p) := fun s hs => ⟨hI s hs, trivial⟩

theorem Holds.update {f : Db → Db} (hI : ∀ s, I s → I { s with work := f s.work }) :
    Holds I E (fun _ => True) (GM.update f) := fun s hs => ⟨hI s hs, trivial⟩

theorem Holds.flush {Q : Unit → Prop} (hE : ∀ s, I s → E s) (hQ : Q ())
    (h1 : ∀ s db, I s → s.broken = false → flushAll s.work s.pending = some db → I { s with work := db, pending := [] })
    (h2 : ∀ s, I s → E { s with work := s.committed, pending := [], broken := true }) : Holds I E Q GM.flush := by
  intro s hs
  unfold GM.flush
  split_ifs with hb
  · exact hE s hs
  · rcases h : flushAll s.work s.pending with _ | db
    · exact h2 s hs
    · exact ⟨h1 s db hs (by simpa using hb) h, hQ⟩

theorem Holds.query {f : Db → α} {Q : α → Prop} (hf : Holds I E (fun _ => True) GM.flush)
    (hQ : ∀ s, I s → Q (f s.work)) : Holds I E Q (GM.query f) := by
  unfold GM.query
  exact hf.bind fun _ s hs => ⟨hs, hQ s hs⟩

theorem Holds.commit {Q : Unit → Prop} (hQ : Q ()) (hf : Holds I E (fun _ => True) GM.flush)
    (hI : ∀ s, I s → I { s with committed := s.work }) : Holds I E Q GM.commit := by
  unfold GM.commit
  exact hf.bind fun _ s hs => ⟨hI s hs, hQ⟩

theorem Holds.guarded {Q : GRet → Prop} {r : GRet} {m : GM GRet} (h : Holds I E Q m) (hr : Q r)
    (hI : ∀ s, E s → I (undo s)) : Holds I E Q (GM.guarded r m) := by
  intro s hs
  have := h s hs
  unfold GM.guarded
  rcases e : m s with ⟨_ | a, s'⟩ <;> rw [e] at this
  · exact ⟨hI _ this, hr⟩
  · exact this

theorem Holds.forM {l : List α} {f : α → GM Unit} (h : ∀ a ∈ l, Holds I E (fun _ => True) (f a)) :
    Holds I E (fun _ => True) (l.forM f) := by
  induction l with
  | nil => exact Holds.pure trivial
  | cons a t ih =>
    have : (a :: t).forM f = (f a >>= fun _ => t.forM f) := rfl
    rw [this]
    exact (h a (by simp)).bind fun _ => ih fun b hb => h b (by simp [hb])

end GM

open GM

/-- objects a call may add or delete -/
def GCall.mayAdd : GCall → Pend → Prop
  | .addMaterial n _ k _ _, p => (∃ e m, p = .iso ⟨n, e, m⟩) ∨ ∃ r, p = .mat ⟨n, r, k⟩
  | .addMaterialQuick _, p => (∃ r, p = .mat ⟨"Q345", r, "isoelastic"⟩)
  | .deleteMaterial n, p => p = .delMat n
  | .addFrameSection n m _ _, p => ∃ r : SecRow, p = .sec r ∧ r.name = n ∧ r.material = some m
  | .addAreaSection n m k _, p => ∃ t, p = .asec ⟨n, some m, k, t⟩
  | .addLoadcase n k w, p => p = .case ⟨n, k, w⟩
  | .setJointRestraintBatch js r, p => ∃ j ∈ js, p = .restr ⟨j, six r⟩
  | .setJointRestraint j r, p => p = .restr ⟨j, six r⟩ ∨ p = .delRestr j
  | .setJointLoad j c _, p => p = .jload ⟨j, c, fun _ => none⟩
  | .setFrameLoadDistributed f c _, p => ∃ v, p = .fload ⟨0, f, c, v⟩
  | .setFrameLoadConcentrated f c _ _, p => ∃ v, p = .fload ⟨1, f, c, v⟩
  | .setFrameLoadStrain f c _, p => ∃ v, p = .fload ⟨2, f, c, v⟩
  | .setFrameLoadTemperature f c _, p => ∃ v, p = .fload ⟨3, f, c, v⟩
  | .mergeJoints _, p => ∃ n, p = .delJoint n
  | .addFrameBatch _ _, p => ∃ n, p = .delJoint n
  | _, _ => False

/-- objects a call may add under a new uuid -/
def GCall.mayNew : GCall → (String → Pend) → Prop
  | .addJoint x y z, mk => mk = fun n => .joint ⟨n, x, y, z⟩
  | .addFrame _ _ sec name, mk => (∃ x y z, mk = fun n => .joint ⟨n, x, y, z⟩) ∨
      ∃ a b w, a < b ∧ mk = fun id => .frame ⟨frameName name id, sec, a, b, w⟩
  | .addFrameBatch _ sec, mk => (∃ x y z, mk = fun n => .joint ⟨n, x, y, z⟩) ∨ ∃ a b w, a < b ∧ mk = fun id => .frame ⟨id, sec, a, b, w⟩
  | _, _ => False

/-- changes of rows a call may make -/
def GCall.mayUpd : GCall → (Db → Db) → Prop
  | .setProjectName n, f => f = fun db => { db with project := n }
  | .setAuthor n, f => f = fun db => { db with author := n }
  | .setUnit _, f => ∃ u, f = fun db => { db with unit := u }
  | .setTolerance _ _, f => ∃ t, f = fun db => { db with tol := t }
  | .setMaterialIso n E mu, f => f = fun db => { db with isos := db.isos.map fun q => if q.material = n then { q with E := E, mu := mu } else q }
  | .setJointRestraint j r, f =>
    f = fun db => { db with restrs := db.restrs.map fun q => if q.joint = j then { q with fixed := six r } else q }
  | .setJointCoordinate n _ _ _, f => ∃ x y z, f = fun db => { db with joints := db.joints.map fun q =>
      if q.name = n then { q with x := x, y := y, z := z } else q }
  | .setFrameSection n sec, f => f = fun db => { db with frames := db.frames.map fun q => if q.name = n then { q with sec := sec } else q }
  | .setFrameLoadDistributed n c _, f => ∃ v, f = fun db => { db with floads := db.floads.map fun q =>
      if q.table = 0 ∧ q.frame = n ∧ q.case = c then { q with val := v } else q }
  | .setFrameLoadConcentrated n c _ _, f => ∃ v, f = fun db => { db with floads := db.floads.map fun q =>
      if q.table = 1 ∧ q.frame = n ∧ q.case = c then { q with val := v } else q }
  | .setFrameLoadStrain n c _, f => ∃ v, f = fun db => { db with floads := db.floads.map fun q =>
      if q.table = 2 ∧ q.frame = n ∧ q.case = c then { q with val := v } else q }
  | .setFrameLoadTemperature n c _, f => ∃ v, f = fun db => { db with floads := db.floads.map fun q =>
      if q.table = 3 ∧ q.frame = n ∧ q.case = c then { q with val := v } else q }
  | _, _ => False

/-- what a call does with an exception of its body: pass it on, roll back and return, return -/
inductive GHandler
  | raise
  | guard (r : GRet)
  | catch (r : GRet)

/-- the handler of each call -/
def GCall.handler : GCall → GHandler
  | .getProjectName => .catch .none
  | .getAuthor => .catch (.bool false)
  | .getUnit => .catch (.bool false)
  | .getDescription => .catch (.bool false)
  | .getTolerance => .catch (.bool false)
  | .getJointNames => .catch .none
  | .deleteAreaSection _ => .raise
  | .deleteArea _ => .raise
  | .deleteFrame _ => .raise
  | .deleteLoadcase _ => .raise
  | .addFrame _ _ _ _ => .raise
  | .getJointNameByCoor _ _ _ => .guard .none
  | .getJointCoordinate _ => .guard .none
  | .getFrameNames => .guard .none
  | .getFrameEndNames _ => .guard .none
  | .getFrameEndCoors _ => .guard .none
  | _ => .guard (.bool false)

def GHandler.wrap : GHandler → GM GRet → GM GRet
  | .raise, m => m
  | .guard r, m => GM.guarded r m
  | .catch r, m => GM.caught r m

/-- not the value that reports an exception -/
def GHandler.good : GHandler → GRet → Prop
  | .raise, _ => True
  | .guard r, a => a ≠ r
  | .catch r, a => a ≠ r

/-- conditions under which the body of a call keeps `I`, or raises where `E` holds -/
structure Stable (V : GEnv) (I E : GSession → Prop) (c : GCall) : Prop where
  weak : ∀ s, I s → E s
  ok : ∀ s db, I s → s.broken = false → flushAll s.work s.pending = some db → I { s with work := db, pending := [] }
  err : ∀ s, I s → E { s with work := s.committed, pending := [], broken := true }
  quick : ∀ code, c = .addMaterialQuick code → ∀ s, E s → I (undo s)
  add : ∀ p, c.mayAdd p → ∀ s, I s → I { s with pending := s.pending ++ [p] }
  new : ∀ mk, c.mayNew mk → ∀ s, I s → I { s with pending := s.pending ++ [mk (V.uuid s.drawn)], drawn := s.drawn + 1 }
  upd : ∀ f, c.mayUpd f → ∀ s, I s → I { s with work := f s.work }
  commit : ∀ pts sec, c = .addFrameBatch pts sec → ∀ s, I s → I { s with committed := s.work }

theorem sortEnds_lt {a b : String} {e : String × String × Bool} (h : sortEnds a b = some e) : e.1 < e.2.1 := by
  unfold sortEnds at h
  split at h
  · cases h; assumption
  · split at h
    · cases h; assumption
    · cases h

/-- a call is a body and a handler; the body keeps whatever its elementary steps keep -/
theorem GCall.parts {V : GEnv} {I E : GSession → Prop} {c : GCall} (h : Stable V I E c) :
    ∃ body : GM GRet, c.run V = c.handler.wrap body ∧ Holds I E c.handler.good body := by
  have hw := h.weak
  have hf : Holds I E (fun _ => True) GM.flush := Holds.flush hw trivial h.ok h.err
  have hq : ∀ {α : Type} (f : Db → α), Holds I E (fun _ => True) (GM.query f) := fun f => Holds.query hf fun _ _ => trivial
  have hn : ∀ {α : Type} (o : Option α), Holds I E (fun _ => True) (GM.need o) := fun o => Holds.need hw fun _ _ => trivial
  have hc : ∀ (p : Prop), Holds I E (fun _ => True) (GM.check p) := fun p => Holds.check hw trivial
  have hp : ∀ {α : Type} (a : α), Holds I E (fun _ => True) (Pure.pure a : GM α) := fun a => Holds.pure trivial
  have hx : ∀ {α : Type} {Q : α → Prop} (e : PyErr), Holds I E Q (GM.fail e : GM α) := fun e => Holds.fail hw
  have hs : Holds I E (fun _ => True) gScale := hq _
  have hdiv : ∀ x y : ℝ, Holds I E (fun _ => True) (gDiv x y) := fun x y => by
    unfold gDiv; split
    · exact hx _
    · exact hp _
  have hpt : ∀ p : List ℝ, Holds I E (fun _ => True) (gPoint p) := fun p => by
    unfold gPoint; split
    · exact hp _
    · exact hx _
  have hfr : ∀ (tol L : ℝ) (p : List ℝ), Holds I E (fun _ => True) (gFindOrRaise tol L p) := fun tol L p => by
    unfold gFindOrRaise
    refine (hpt _).bind fun _ => (hq _).bind fun o => ?_
    cases o with
    | none => exact hx _
    | some q => exact hp _
  have hfe : ∀ f : String, Holds I E (fun _ => True) (gFrameEnds f) := fun f => by
    unfold gFrameEnds
    refine ((hq _).bind fun _ => hn _).bind fun _ => (hq _).bind fun a => (hq _).bind fun b => ?_
    cases a with
    | none => exact hx _
    | some _ => cases b with
      | none => exact hx _
      | some _ => exact hp _
  have hsec : ∀ L k z, Holds I E (fun _ => True) (gSection L k z) := fun L k z => by
    unfold gSection
    split_ifs
    · split
      · unfold gCircle; exact ((hdiv _ _).bind fun _ => hp _).bind fun _ => hp _
      · exact hx _
    · split
      · unfold gPipe; exact ((hdiv _ _).bind fun _ => (hdiv _ _).bind fun _ => hp _).bind fun _ => hp _
      · exact hx _
    · split
      · unfold gISection; exact ((hdiv _ _).bind fun _ => (hdiv _ _).bind fun _ => hp _).bind fun _ => hp _
      · exact hx _
    · split
      · unfold gBox
        exact ((hdiv _ _).bind fun _ => (hdiv _ _).bind fun _ => (hdiv _ _).bind fun _ => (hdiv _ _).bind fun _ => hp _).bind fun _ => hp _
      · exact hx _
    · exact hx _
  have hup : ∀ (t : Fin 4) (f cs : String) (v : GUnit → List ℝ),
      (∀ u, Holds I E (fun _ => True) (GM.add (.fload ⟨t, f, cs, v u⟩))) →
      (∀ u, Holds I E (fun _ => True) (GM.update fun db => { db with floads := db.floads.map fun q =>
        if q.table = t ∧ q.frame = f ∧ q.case = cs then { q with val := v u } else q })) →
      Holds I E (fun r => r ≠ .bool false) (gUpsertLoad t f cs v) := fun t f cs v h1 h2 => by
    unfold gUpsertLoad
    refine ((hq _).bind fun _ => hn _).bind fun _ => (hq _).bind fun o => hs.bind fun u => ?_
    refine Holds.bind ?_ fun _ => Holds.pure (by intro e; cases e)
    split
    · exact h1 u
    · exact h2 u
  cases c with
  | getProjectName => refine ⟨_, rfl, (hq _).bind fun _ => Holds.pure (by intro e; cases e)⟩
  | getAuthor => refine ⟨_, rfl, (hq _).bind fun _ => Holds.pure (by intro e; cases e)⟩
  | getUnit => refine ⟨_, rfl, (hq _).bind fun _ => Holds.pure (by intro e; cases e)⟩
  | getDescription => refine ⟨_, rfl, (hq _).bind fun _ => hx _⟩
  | getTolerance => refine ⟨_, rfl, hs.bind fun _ => (hq _).bind fun _ => Holds.pure (by intro e; cases e)⟩
  | setProjectName n => refine ⟨_, rfl, (hc _).bind fun _ => (hq _).bind fun _ => (Holds.update (h.upd _ rfl)).bind fun _ => Holds.pure (by intro e; cases e)⟩
  | setAuthor n => refine ⟨_, rfl, (hc _).bind fun _ => (hq _).bind fun _ => (Holds.update (h.upd _ rfl)).bind fun _ => Holds.pure (by intro e; cases e)⟩
  | setUnit n => refine ⟨_, rfl, (hn _).bind fun _ => (hq _).bind fun _ => (Holds.update (h.upd _ ⟨_, rfl⟩)).bind fun _ => Holds.pure (by intro e; cases e)⟩
  | setDescription n => refine ⟨_, rfl, (hq _).bind fun _ => Holds.pure (by intro e; cases e)⟩
  | setTolerance f t =>
    refine ⟨_, rfl, (hc _).bind fun _ => hs.bind fun _ => (hq _).bind fun _ => (Holds.update (h.upd _ ⟨_, rfl⟩)).bind fun _ => Holds.pure (by intro e; cases e)⟩
  | addMaterial n r k E mu =>
    refine ⟨_, rfl, (hq _).bind fun _ => (hc _).bind fun _ => hs.bind fun u => Holds.bind ?_ fun _ =>
      (Holds.add (h.add _ (Or.inr ⟨_, rfl⟩))).bind fun _ => Holds.pure (by intro e; cases e)⟩
    unfold gIsoPart
    split
    · split
      · exact Holds.add (h.add _ (Or.inl ⟨_, _, rfl⟩))
      · exact hx _
    · exact hp _
  | addMaterialQuick cd =>
    refine ⟨_, rfl, Holds.bind ?_ fun _ => Holds.pure (by intro e; cases e)⟩
    split
    · rename_i e
      subst e
      refine Holds.guarded ((hq _).bind fun _ => (hc _).bind fun _ => hs.bind fun u => Holds.bind ?_ fun _ =>
        (Holds.add (h.add _ ⟨_, rfl⟩)).bind fun _ => hp _) trivial (h.quick _ rfl)
      unfold gIsoPart
      rw [if_neg (by decide)]
      exact hp _
    · exact hp _
  | setMaterialIso n E mu =>
    refine ⟨_, rfl, ((hq _).bind fun _ => hn _).bind fun _ => (hq _).bind fun i => ?_⟩
    cases i with
    | none => exact hx _
    | some i => exact (Holds.update (h.upd _ rfl)).bind fun _ => Holds.pure (by intro e; cases e)
  | getMaterialNames => refine ⟨_, rfl, (hq _).bind fun _ => Holds.pure (by intro e; cases e)⟩
  | setMaterialName n => refine ⟨_, rfl, ((hq _).bind fun _ => hn _).bind fun _ => Holds.pure (by intro e; cases e)⟩
  | deleteMaterial n => refine ⟨_, rfl, ((hq _).bind fun _ => hn _).bind fun _ => (Holds.add (h.add _ rfl)).bind fun _ => Holds.pure (by intro e; cases e)⟩
  | addFrameSection n m k z =>
    refine ⟨_, rfl, (hc _).bind fun _ => hs.bind fun _ => (hq _).bind fun _ => (hc _).bind fun _ => ((hq _).bind fun _ => hn _).bind fun _ =>
      (hsec _ _ _).bind fun _ => (Holds.add (h.add _ ⟨_, rfl, rfl, rfl⟩)).bind fun _ => Holds.pure (by intro e; cases e)⟩
  | getFrameSectionNames => refine ⟨_, rfl, (hq _).bind fun _ => Holds.pure (by intro e; cases e)⟩
  | deleteFrameSection n => refine ⟨_, rfl, hx _⟩
  | addAreaSection n m k t =>
    refine ⟨_, rfl, (hc _).bind fun _ => hs.bind fun _ => (hq _).bind fun _ => (hc _).bind fun _ =>
      (Holds.add (h.add _ ⟨_, rfl⟩)).bind fun _ => Holds.pure (by intro e; cases e)⟩
  | getAreaSectionNames => refine ⟨_, rfl, (hq _).bind fun _ => Holds.pure (by intro e; cases e)⟩
  | deleteAreaSection n => exact ⟨_, rfl, hx _⟩
  | deleteArea n => exact ⟨_, rfl, hx _⟩
  | deleteFrame n => exact ⟨_, rfl, hx _⟩
  | deleteLoadcase n => exact ⟨_, rfl, hx _⟩
  | addLoadcase n k w => refine ⟨_, rfl, (hq _).bind fun _ => (hc _).bind fun _ => (Holds.add (h.add _ rfl)).bind fun _ => Holds.pure (by intro e; cases e)⟩
  | getLoadcaseNames => refine ⟨_, rfl, (hq _).bind fun _ => Holds.pure (by intro e; cases e)⟩
  | addJoint x y z => refine ⟨_, rfl, (Holds.addNew (h.new _ rfl)).bind fun _ => Holds.pure (by intro e; cases e)⟩
  | setJointRestraintBatch js r =>
    refine ⟨_, rfl, (hc _).bind fun _ => (Holds.forM fun j hj => Holds.add (h.add _ ⟨j, hj, rfl⟩)).bind fun _ => Holds.pure (by intro e; cases e)⟩
  | setJointRestraint j r =>
    refine ⟨_, rfl, (hc _).bind fun _ => ((hq _).bind fun _ => hn _).bind fun _ => (hq _).bind fun o => Holds.bind ?_ fun _ => Holds.pure (by intro e; cases e)⟩
    split_ifs
    · exact Holds.add (h.add _ (Or.inl rfl))
    · exact Holds.update (h.upd _ rfl)
    · exact Holds.add (h.add _ (Or.inr rfl))
  | setJointLoad j cs l =>
    refine ⟨_, rfl, (hc _).bind fun _ => ((hq _).bind fun _ => hn _).bind fun _ => (hq _).bind fun o => hs.bind fun _ => Holds.bind ?_ fun _ => Holds.pure (by intro e; cases e)⟩
    split_ifs
    · exact Holds.add (h.add _ rfl)
    · exact hp _
  | setJointCoordinate n x y z =>
    refine ⟨_, rfl, ((hq _).bind fun _ => hn _).bind fun _ => hs.bind fun _ => (Holds.update (h.upd _ ⟨_, _, _, rfl⟩)).bind fun _ => Holds.pure (by intro e; cases e)⟩
  | setJointMass n => refine ⟨_, rfl, ((hq _).bind fun _ => hn _).bind fun _ => hs.bind fun _ => Holds.pure (by intro e; cases e)⟩
  | getJointNames => refine ⟨_, rfl, (hq _).bind fun _ => Holds.pure (by intro e; cases e)⟩
  | getJointNameByCoor x y z => refine ⟨_, rfl, (hq _).bind fun _ => hs.bind fun _ => (hq _).bind fun _ => Holds.pure (by intro e; cases e)⟩
  | getJointCoordinate n => refine ⟨_, rfl, ((hq _).bind fun _ => hn _).bind fun _ => hs.bind fun _ => Holds.pure (by intro e; cases e)⟩
  | mergeJoints t =>
    refine ⟨_, rfl, (hq _).bind fun _ => hs.bind fun _ => (hq _).bind fun _ =>
      (Holds.forM fun n _ => Holds.add (h.add _ ⟨n, rfl⟩)).bind fun _ => hf.bind fun _ => (hq _).bind fun _ => Holds.pure (by intro e; cases e)⟩
  | setJointName n => refine ⟨_, rfl, hx _⟩
  | deleteJoint n => refine ⟨_, rfl, hx _⟩
  | addFrame p q sec name =>
    have hfa : ∀ tol x y z, Holds I E (fun _ => True) (gFindOrAdd V tol x y z) := fun tol x y z => by
      unfold gFindOrAdd
      refine (hq _).bind fun o => ?_
      cases o with
      | some q => exact hp _
      | none => exact Holds.addNew (h.new _ (Or.inl ⟨_, _, _, rfl⟩))
    refine ⟨_, rfl, ?_⟩
    show Holds I E _ (gAddFrame V p q sec name)
    unfold gAddFrame
    split
    · refine Holds.bind ?_ fun _ => ((hq _).bind fun _ => hn _).bind fun _ => hs.bind fun _ => (hq _).bind fun _ => (hfa _ _ _ _).bind fun a =>
        (hfa _ _ _ _).bind fun b => (Holds.need (Q := fun e => sortEnds a b = some e) hw fun _ h => h).bind' fun e he =>
        (Holds.addNew (h.new _ (Or.inr ⟨_, _, _, sortEnds_lt he, rfl⟩))).bind fun _ => Holds.pure trivial
      unfold gFrameNameFree
      split
      · exact hp _
      · split
        · exact hp _
        · exact (hq _).bind fun _ => hc _
    · exact hx _
  | addFrameBatch ps sec =>
    have hbj : ∀ L l, Holds I E (fun _ => True) (gBatchJoints V L l) := fun L l => by
      induction l with
      | nil => exact hp _
      | cons a t ih =>
        obtain ⟨p, q⟩ := a
        unfold gBatchJoints
        exact (hpt _).bind fun _ => (Holds.addNew (h.new _ (Or.inl ⟨_, _, _, rfl⟩))).bind fun _ => (hpt _).bind fun _ =>
          (Holds.addNew (h.new _ (Or.inl ⟨_, _, _, rfl⟩))).bind fun _ => ih.bind fun _ => hp _
    have hbf : ∀ m l, Holds I E (fun _ => True) (gBatchFrames V m sec l) := fun m l => by
      induction l with
      | nil => exact hp _
      | cons a t ih =>
        obtain ⟨a, b⟩ := a
        unfold gBatchFrames
        split
        · exact ih
        · rename_i e he
          exact (Holds.addNew (h.new _ (Or.inr ⟨_, _, _, sortEnds_lt he, rfl⟩))).bind fun _ => ih.bind fun _ => hp _
    refine ⟨_, rfl, Holds.bind ?_ fun _ => ((hq _).bind fun _ => hn _).bind fun _ => hs.bind fun _ => (hbj _ _).bind fun _ => (hq _).bind fun _ =>
      (hq _).bind fun _ => (hbf _ _).bind fun _ => (Holds.forM fun n _ => Holds.add (h.add _ ⟨n, rfl⟩)).bind fun _ =>
      (Holds.commit trivial hf (h.commit _ _ rfl)).bind fun _ => Holds.pure (by intro e; cases e)⟩
    unfold gBatchCheck
    split
    · exact hx _
    · exact hc _
  | setFrameSection f sec => refine ⟨_, rfl, ((hq _).bind fun _ => hn _).bind fun _ => (Holds.update (h.upd _ rfl)).bind fun _ => Holds.pure (by intro e; cases e)⟩
  | setFrameLoadDistributed f cs l =>
    refine ⟨_, rfl, (hc _).bind fun _ => hup _ _ _ _ (fun u => Holds.add (h.add _ ⟨_, rfl⟩)) fun u => Holds.update (h.upd _ ⟨_, rfl⟩)⟩
  | setFrameLoadConcentrated f cs l x =>
    refine ⟨_, rfl, (hc _).bind fun _ => hup _ _ _ _ (fun u => Holds.add (h.add _ ⟨_, rfl⟩)) fun u => Holds.update (h.upd _ ⟨_, rfl⟩)⟩
  | setFrameLoadStrain f cs l =>
    refine ⟨_, rfl, (hc _).bind fun _ => hup _ _ _ _ (fun u => Holds.add (h.add _ ⟨_, rfl⟩)) fun u => Holds.update (h.upd _ ⟨_, rfl⟩)⟩
  | setFrameLoadTemperature f cs l =>
    refine ⟨_, rfl, hup _ _ _ _ (fun u => Holds.add (h.add _ ⟨_, rfl⟩)) fun u => Holds.update (h.upd _ ⟨_, rfl⟩)⟩
  | getFrameNames => refine ⟨_, rfl, (hq _).bind fun _ => Holds.pure (by intro e; cases e)⟩
  | getFrameEndNames f => refine ⟨_, rfl, (hfe _).bind fun _ => Holds.pure (by intro e; cases e)⟩
  | getFrameEndCoors f => refine ⟨_, rfl, hs.bind fun _ => (hfe _).bind fun _ => Holds.pure (by intro e; cases e)⟩
  | addArea p q r o sec n =>
    refine ⟨_, rfl, (hc _).bind fun _ => ((hq _).bind fun _ => hn _).bind fun _ => hs.bind fun _ => (hq _).bind fun _ => (hfr _ _ _).bind fun _ =>
      (hfr _ _ _).bind fun _ => (hfr _ _ _).bind fun _ => ?_⟩
    cases o with
    | none => exact hx _
    | some p => exact (hfr _ _ _).bind fun _ => hx _
  | addAreaBatch ps sec => refine ⟨_, rfl, (hc _).bind fun _ => ((hq _).bind fun _ => hn _).bind fun _ => hs.bind fun _ => hx _⟩
  | getAreaNames => refine ⟨_, rfl, (hq _).bind fun _ => Holds.pure (by intro e; cases e)⟩

/-- a call keeps `I` whatever happens -/
theorem GCall.keeps {V : GEnv} {I : GSession → Prop} {c : GCall} (h : Stable V I I c) (hu : ∀ s, I s → I (undo s)) {s : GSession} (hs : I s) :
    I (c.run V s).2 := by
  obtain ⟨body, e, hb⟩ := GCall.parts h
  have := hb s hs
  rw [e]
  rcases hc : c.handler with _ | r | r
  · show I (body s).2
    rcases eb : body s with ⟨_ | a, s'⟩ <;> rw [eb] at this
    · exact this
    · exact this.1
  · show I (GM.guarded r body s).2
    unfold GM.guarded
    rcases eb : body s with ⟨_ | a, s'⟩ <;> rw [eb] at this
    · exact hu _ this
    · exact this.1
  · show I (GM.caught r body s).2
    unfold GM.caught
    rcases eb : body s with ⟨_ | a, s'⟩ <;> rw [eb] at this
    · exact this
    · exact this.1

/-- a call that does not report an exception keeps what its steps keep -/
theorem GCall.keepsGood {V : GEnv} {I : GSession → Prop} {c : GCall} (h : Stable V I (fun _ => True) c) {s s' : GSession} {a : GRet}
    (hs : I s) (hr : c.run V s = (.ok a, s')) (hg : c.handler.good a) : I s' := by
  obtain ⟨body, e, hb⟩ := GCall.parts h
  have := hb s hs
  rw [e] at hr
  rcases hc : c.handler with _ | r | r <;> rw [hc] at hr hg
  · have hr : body s = (.ok a, s') := hr
    rw [hr] at this; exact this.1
  · have hr : GM.guarded r body s = (.ok a, s') := hr
    unfold GM.guarded at hr
    rcases eb : body s with ⟨_ | a, s'⟩ <;> rw [eb] at this hr
    · simp only [Prod.mk.injEq, Except.ok.injEq] at hr
      exact absurd hr.1.symm hg
    · cases hr; exact this.1
  · have hr : GM.caught r body s = (.ok a, s') := hr
    unfold GM.caught at hr
    rcases eb : body s with ⟨_ | a, s'⟩ <;> rw [eb] at this hr
    · simp only [Prod.mk.injEq, Except.ok.injEq] at hr
      exact absurd hr.1.symm hg
    · cases hr; exact this.1

/-- the state after a query -/
def GSession.flushed (s : GSession) (db : Db) : GSession := { s with work := db, pending := [] }

theorem Sees.flushed {s : GSession} {db : Db} (h : Sees s db) : Sees (s.flushed db) db := ⟨h.1, rfl⟩

theorem Sees.flush {s : GSession} {db : Db} (h : Sees s db) : GM.flush s = (.ok (), s.flushed db) := by
  unfold GM.flush; simp [h.1, h.2, GSession.flushed]

theorem query_run {α : Type} (f : Db → α) (s : GSession) : GM.query f s =
    match GM.flush s with | (.ok _, s') => (.ok (f s'.work), s') | (.error e, s') => (.error e, s') := by
  refine (bind_run GM.flush _ s).trans ?_
  rcases GM.flush s with ⟨_ | _, _⟩ <;> rfl

theorem commit_run (s : GSession) : GM.commit s =
    match GM.flush s with | (.ok _, s') => (.ok (), { s' with committed := s'.work }) | (.error e, s') => (.error e, s') := by
  refine (bind_run GM.flush _ s).trans ?_
  rcases GM.flush s with ⟨_ | _, _⟩ <;> rfl

theorem Sees.query {α : Type} {s : GSession} {db : Db} (h : Sees s db) (f : Db → α) : GM.query f s = (.ok (f db), s.flushed db) := by
  rw [query_run, h.flush]
  rfl

theorem Sees.of_flush {s s' : GSession} {r : Unit} (h : GM.flush s = (.ok r, s')) : Sees s s'.work ∧ s' = s.flushed s'.work := by
  unfold GM.flush at h
  split_ifs at h with hb
  · cases h
  rcases e : flushAll s.work s.pending with _ | db <;> rw [e] at h <;> simp only [Prod.mk.injEq, reduceCtorEq, false_and] at h
  cases h.2
  exact ⟨⟨by simpa using hb, e⟩, rfl⟩

theorem Sees.of_query {α : Type} {s s' : GSession} {f : Db → α} {a : α} (h : GM.query f s = (.ok a, s')) :
    Sees s s'.work ∧ s' = s.flushed s'.work ∧ a = f s'.work := by
  rw [query_run] at h
  rcases e : GM.flush s with ⟨_ | u, s1⟩ <;> rw [e] at h
  · cases h
  · cases h
    have := Sees.of_flush e
    exact ⟨this.1, this.2, rfl⟩

theorem Sees.unique {s : GSession} {a b : Db} (h : Sees s a) (h' : Sees s b) : a = b := by
  have := h.2.symm.trans h'.2
  exact Option.some.inj this

theorem Sees.query_flushed {α : Type} {s : GSession} {db : Db} (h : Sees s db) (f : Db → α) :
    GM.query f (s.flushed db) = (.ok (f db), s.flushed db) := by
  rw [h.flushed.query]; rfl

theorem flushed_flushed (s : GSession) (a b : Db) : (s.flushed a).flushed b = s.flushed b := rfl

/-- no query answers -/
theorem query_blind {α : Type} {s : GSession} (h : ∀ db, ¬ Sees s db) (f : Db → α) : ∃ e s', GM.query f s = (.error e, s') := by
  rcases e : GM.query f s with ⟨r | a, s'⟩
  · exact ⟨r, s', rfl⟩
  · exact absurd (Sees.of_query e).1 (h _)

theorem flushAll_append (db : Db) (a b : List Pend) : flushAll db (a ++ b) = (flushAll db a).bind fun d => flushAll d b := by
  induction a generalizing db with
  | nil => rfl
  | cons p t ih =>
    simp only [List.cons_append, flushAll]
    cases p.flush db with
    | none => rfl
    | some d => exact ih d

theorem gScale_run {s : GSession} {db : Db} (h : Sees s db) : gScale s = (.ok db.unit, s.flushed db) := h.query _
theorem need_some {α : Type} (a : α) (s : GSession) : GM.need (some a) s = (.ok a, s) := rfl
theorem need_none {α : Type} (s : GSession) : (GM.need (none : Option α)) s = (.error .exception, s) := rfl
theorem fail_run {α : Type} (e : PyErr) (s : GSession) : (GM.fail e : GM α) s = (.error e, s) := rfl

theorem Sees.lookup {α : Type} {s : GSession} {db : Db} (h : Sees s db) (f : Db → Option α) : (GM.query f >>= GM.need) s =
    match f db with | some a => (.ok a, s.flushed db) | none => (.error .exception, s.flushed db) := by
  rw [bind_run, h.query]
  rcases e : f db with _ | a <;> simp only [e, need_none, need_some]

theorem Sees.lookup_some {α : Type} {s : GSession} {db : Db} (h : Sees s db) {f : Db → Option α} {a : α} (e : f db = some a) :
    (GM.query f >>= GM.need) s = (.ok a, s.flushed db) := by rw [h.lookup, e]

theorem Sees.lookup_none {α : Type} {s : GSession} {db : Db} (h : Sees s db) {f : Db → Option α} (e : f db = none) :
    (GM.query f >>= GM.need) s = (.error .exception, s.flushed db) := by rw [h.lookup, e]

theorem gGetJointCoordinate_run {s : GSession} {db : Db} (h : Sees s db) (n : String) : gGetJointCoordinate n s =
    match db.joints.find? fun q => q.name = n with
    | some q => (.ok (.nums [q.x / db.unit.L, q.y / db.unit.L, q.z / db.unit.L]), s.flushed db)
    | none => (.ok .none, undo s) := by
  unfold gGetJointCoordinate guarded
  rcases e : db.joints.find? fun q => q.name = n with _ | q
  · rw [e, bind_run, h.lookup_none e]; rfl
  · rw [e, bind_run, h.lookup_some e]
    simp only [bind_run, gScale_run h.flushed, pure_run]
    rfl

/-- the ends of a frame in a database -/
def frameEnds (db : Db) (f : String) : Option (JointRow × JointRow) := match db.frames.find? fun q => q.name = f with
  | none => none
  | some q => match db.joints.find? fun p => p.name = q.pt0, db.joints.find? fun p => p.name = q.pt1 with
    | some a, some b => some (a, b)
    | _, _ => none

theorem gFrameEnds_run {s : GSession} {db : Db} (h : Sees s db) (f : String) : match frameEnds db f with
    | some e => gFrameEnds f s = (.ok e, s.flushed db)
    | none => ∃ err, gFrameEnds f s = (.error err, s.flushed db) := by
  unfold gFrameEnds frameEnds
  rcases e : db.frames.find? fun q => q.name = f with _ | q
  · rw [e]; exact ⟨.exception, by rw [bind_run, h.lookup_none e]⟩
  · simp only [e]
    rw [bind_run, h.lookup_some e]
    simp only [bind_run, h.flushed.query, flushed_flushed]
    rcases ea : db.joints.find? fun p => p.name = q.pt0 with _ | a
    · simp only [ea]; exact ⟨.attributeError, rfl⟩
    · rcases eb : db.joints.find? fun p => p.name = q.pt1 with _ | b
      · simp only [ea, eb]; exact ⟨.attributeError, rfl⟩
      · simp only [ea, eb]; rfl

theorem gGetFrameEndNames_run {s : GSession} {db : Db} (h : Sees s db) (f : String) : gGetFrameEndNames f s =
    match frameEnds db f with
    | some e => (.ok (.two e.1.name e.2.name), s.flushed db)
    | none => (.ok .none, undo s) := by
  have := gFrameEnds_run h f
  unfold gGetFrameEndNames guarded
  rcases e : frameEnds db f with _ | e <;> rw [e] at this
  · obtain ⟨err, h1⟩ := this
    rw [bind_run, h1]; rfl
  · rw [bind_run, this]; rfl

theorem gGetFrameEndCoors_run {s : GSession} {db : Db} (h : Sees s db) (f : String) : gGetFrameEndCoors f s =
    match frameEnds db f with
    | some e => (.ok (.nums [e.1.x / db.unit.L, e.1.y / db.unit.L, e.1.z / db.unit.L, e.2.x / db.unit.L, e.2.y / db.unit.L,
        e.2.z / db.unit.L]), s.flushed db)
    | none => (.ok .none, undo s) := by
  have := gFrameEnds_run h.flushed f
  unfold gGetFrameEndCoors guarded
  rw [bind_run, gScale_run h]
  rcases e : frameEnds db f with _ | e <;> rw [e] at this
  · obtain ⟨err, h1⟩ := this
    simp only [bind_run, h1]; rfl
  · simp only [bind_run, this]; rfl

/-- the answer of a reading call depends on the content seen only -/
theorem reads_sees {V : GEnv} {s t : GSession} {db : Db} {g : GCall} (hg : g.reads) (hs : Sees s db) (ht : Sees t db) :
    (g.run V s).1 = (g.run V t).1 := by
  cases g <;> simp only [GCall.reads] at hg <;> simp only [GCall.run]
  case getProjectName => simp only [gGetProjectName, caught, bind_run, hs.query, ht.query, pure_run]
  case getAuthor => simp only [gGetAuthor, caught, bind_run, hs.query, ht.query, pure_run]
  case getUnit => simp only [gGetUnit, caught, bind_run, hs.query, ht.query, pure_run]
  case getDescription => simp only [gGetDescription, caught, bind_run, hs.query, ht.query, fail_run]
  case getTolerance => simp only [gGetTolerance, caught, bind_run, gScale_run hs, gScale_run ht, hs.flushed.query, ht.flushed.query, pure_run]
  case getMaterialNames => simp only [gGetMaterialNames, guarded, bind_run, hs.query, ht.query, pure_run]
  case getFrameSectionNames => simp only [gGetFrameSectionNames, guarded, bind_run, hs.query, ht.query, pure_run]
  case getAreaSectionNames => simp only [gGetAreaSectionNames, guarded, bind_run, hs.query, ht.query, pure_run]
  case getLoadcaseNames => simp only [gGetLoadcaseNames, guarded, bind_run, hs.query, ht.query, pure_run]
  case getJointNames => simp only [gGetJointNames, caught, bind_run, hs.query, ht.query, pure_run]
  case getJointNameByCoor x y z =>
    simp only [gGetJointNameByCoor, guarded, bind_run, hs.query, ht.query, gScale_run hs.flushed, gScale_run ht.flushed, flushed_flushed,
      hs.flushed.query, ht.flushed.query, pure_run]
  case getJointCoordinate n =>
    rw [gGetJointCoordinate_run hs, gGetJointCoordinate_run ht]
    rcases e : db.joints.find? fun q => q.name = n with _ | q <;> rw [e]
  case getFrameNames => simp only [gGetFrameNames, guarded, bind_run, hs.query, ht.query, pure_run]
  case getFrameEndNames f =>
    rw [gGetFrameEndNames_run hs, gGetFrameEndNames_run ht]
    rcases frameEnds db f with _ | q <;> rfl
  case getFrameEndCoors f =>
    rw [gGetFrameEndCoors_run hs, gGetFrameEndCoors_run ht]
    rcases frameEnds db f with _ | q <;> rfl
  case getAreaNames => simp only [gGetAreaNames, guarded, bind_run, hs.query, ht.query, pure_run]

theorem sees_fresh (db : Db) (n : ℕ) : Sees (GSession.fresh db n) db := ⟨rfl, rfl⟩

/-- started where `I` holds, `m` returns a value that satisfies `Q` or raises where `E` holds -/
def GM.Ends {α : Type} (I E : GSession → Prop) (Q : α → Prop) (m : GM α) : Prop := ∀ s, I s → match m s with | (.ok a, _) => Q a | (.error _, s') => E s'

theorem GM.Ends.bind {α β : Type} {I E : GSession → Prop} {Q : β → Prop} {m : GM α} {f : α → GM β} (h : Holds I E (fun _ => True) m)
    (hf : ∀ a, Ends I E Q (f a)) : Ends I E Q (m >>= f) := by
  intro s hs
  have := h s hs
  rw [bind_run]
  rcases e : m s with ⟨r, s'⟩
  rw [e] at this
  cases r with
  | error e => exact this
  | ok a => exact hf a s' this.1

/-- the body of `add_frame_batch` raises before it commits -/
theorem gAddFrameBatch_raises {V : GEnv} {c0 : Db} {pts : List (List ℝ × List ℝ)} {sec : String} :
    ∃ body, gAddFrameBatch V pts sec = guarded (.bool false) body ∧
      Ends (fun s => s.committed = c0) (fun s => s.committed = c0) (fun r => r ≠ .bool false) body := by
  have hw : ∀ s : GSession, s.committed = c0 → s.committed = c0 := fun _ h => h
  have hf : Holds (fun s => s.committed = c0) (fun s => s.committed = c0) (fun _ => True) GM.flush :=
    Holds.flush hw trivial (fun _ _ h _ _ => h) fun _ h => h
  have hq : ∀ {α : Type} (f : Db → α), Holds (fun s => s.committed = c0) (fun s => s.committed = c0) (fun _ => True) (GM.query f) :=
    fun f => Holds.query hf fun _ _ => trivial
  have hpt : ∀ p : List ℝ, Holds (fun s => s.committed = c0) (fun s => s.committed = c0) (fun _ => True) (gPoint p) := fun p => by
    unfold gPoint; split
    · exact Holds.pure trivial
    · exact Holds.fail hw
  have hbj : ∀ L l, Holds (fun s => s.committed = c0) (fun s => s.committed = c0) (fun _ => True) (gBatchJoints V L l) := fun L l => by
    induction l with
    | nil => exact Holds.pure trivial
    | cons a t ih =>
      obtain ⟨p, q⟩ := a
      unfold gBatchJoints
      exact (hpt _).bind fun _ => (Holds.addNew fun _ h => h).bind fun _ => (hpt _).bind fun _ =>
        (Holds.addNew fun _ h => h).bind fun _ => ih.bind fun _ => Holds.pure trivial
  have hbf : ∀ m l, Holds (fun s => s.committed = c0) (fun s => s.committed = c0) (fun _ => True) (gBatchFrames V m sec l) := fun m l => by
    induction l with
    | nil => exact Holds.pure trivial
    | cons a t ih =>
      obtain ⟨a, b⟩ := a
      unfold gBatchFrames
      split
      · exact ih
      · exact (Holds.addNew fun _ h => h).bind fun _ => ih.bind fun _ => Holds.pure trivial
  refine ⟨_, rfl, ?_⟩
  refine Ends.bind ?_ fun _ => Ends.bind ((hq _).bind fun _ => Holds.need hw fun _ _ => trivial) fun _ => Ends.bind (hq _) fun _ =>
    Ends.bind (hbj _ _) fun _ => Ends.bind (hq _) fun _ => Ends.bind (hq _) fun _ => Ends.bind (hbf _ _) fun _ =>
    Ends.bind (Holds.forM fun n _ => Holds.add fun _ h => h) fun _ => ?_
  · unfold gBatchCheck
    split
    · exact Holds.fail hw
    · exact Holds.check hw trivial
  · intro s hs
    have := hf s hs
    rw [bind_run]
    rcases e : GM.flush s with ⟨_ | u, s'⟩ <;> rw [e] at this
    · rw [commit_run, e]; exact this
    · rw [commit_run, e]; intro h; cases h

/-- a call whose handler rolls back reports a failure only after it has undone everything since the last commit -/
theorem GCall.rolled_back {V : GEnv} {c : GCall} {r : GRet} {s s' : GSession} (hc : c.handler = .guard r) (h : c.run V s = (.ok r, s')) :
    s' = GSession.fresh s.committed s'.drawn := by
  have key : ∃ body, c.run V = guarded r body ∧ Ends (fun t => t.committed = s.committed) (fun t => t.committed = s.committed) (fun a => a ≠ r) body := by
    by_cases hb : ∃ pts sec, c = .addFrameBatch pts sec
    · obtain ⟨pts, sec, rfl⟩ := hb
      cases hc
      exact gAddFrameBatch_raises
    · obtain ⟨body, e, hb'⟩ := GCall.parts (V := V) (I := fun t => t.committed = s.committed) (E := fun t => t.committed = s.committed) (c := c)
        ⟨fun _ h => h, fun _ _ h _ _ => h, fun _ h => h, fun _ _ _ h => h, fun _ _ _ h => h, fun _ _ _ h => h, fun _ _ _ h => h,
          fun pts sec e => absurd ⟨pts, sec, e⟩ hb⟩
      rw [hc] at e hb'
      refine ⟨body, e, fun t ht => ?_⟩
      have := hb' t ht
      rcases eb : body t with ⟨_ | a, t'⟩ <;> rw [eb] at this
      · exact this
      · exact this.2
  obtain ⟨body, e, hb⟩ := key
  have hb := hb s rfl
  rw [e] at h
  unfold guarded at h
  rcases eb : body s with ⟨_ | a, t⟩ <;> rw [eb] at h hb
  · simp only [Prod.mk.injEq, true_and] at h
    subst h
    have hb : t.committed = s.committed := hb
    simp only [undo, GSession.fresh, hb]
  · simp only [Prod.mk.injEq, Except.ok.injEq] at h
    exact absurd h.1 hb

theorem bind_ok {α β : Type} {m : GM α} {f : α → GM β} {s s' : GSession} {b : β} (h : (m >>= f) s = (.ok b, s')) :
    ∃ a t, m s = (.ok a, t) ∧ f a t = (.ok b, s') := by
  rw [bind_run] at h
  rcases e : m s with ⟨_ | a, t⟩ <;> rw [e] at h
  · cases h
  · exact ⟨a, t, rfl, h⟩

theorem guarded_ok {r a : GRet} {m : GM GRet} {s s' : GSession} (h : guarded r m s = (.ok a, s')) (ha : a ≠ r) : m s = (.ok a, s') := by
  unfold guarded at h
  rcases e : m s with ⟨_ | b, t⟩ <;> rw [e] at h
  · simp only [Prod.mk.injEq, Except.ok.injEq] at h
    exact absurd h.1.symm ha
  · exact h

theorem caught_ok {r a : GRet} {m : GM GRet} {s s' : GSession} (h : caught r m s = (.ok a, s')) (ha : a ≠ r) : m s = (.ok a, s') := by
  unfold caught at h
  rcases e : m s with ⟨_ | b, t⟩ <;> rw [e] at h
  · simp only [Prod.mk.injEq, Except.ok.injEq] at h
    exact absurd h.1.symm ha
  · exact h

theorem lookup_ok {α : Type} {f : Db → Option α} {s s' : GSession} {a : α} (h : (GM.query f >>= GM.need) s = (.ok a, s')) :
    Sees s s'.work ∧ s' = s.flushed s'.work ∧ f s'.work = some a := by
  obtain ⟨o, t, h1, h2⟩ := bind_ok h
  obtain ⟨h3, h4, h5⟩ := Sees.of_query h1
  rcases o with _ | b
  · cases h2
  · cases h2
    exact ⟨h3, h4, h5.symm⟩

theorem check_ok {p : Prop} {s s' : GSession} {u : Unit} (h : GM.check p s = (.ok u, s')) : p ∧ s' = s := by
  unfold GM.check at h
  split at h
  · cases h; exact ⟨by assumption, rfl⟩
  · cases h

theorem check_true {p : Prop} (hp : p) (s : GSession) : GM.check p s = (.ok (), s) := by
  unfold GM.check; rw [if_pos hp]; rfl

theorem check_false {p : Prop} (hp : ¬ p) (s : GSession) : GM.check p s = (.error .exception, s) := by
  unfold GM.check; rw [if_neg hp]; rfl

theorem update_run (f : Db → Db) (s : GSession) : GM.update f s = (.ok (), { s with work := f s.work }) := rfl
theorem add_run (p : Pend) (s : GSession) : GM.add p s = (.ok (), { s with pending := s.pending ++ [p] }) := rfl

/-- the coded factors are the metres and newtons of the unit -/
theorem GUnit.metres_eq (u : GUnit) : u.metres = u.L := by cases u <;> rfl
theorem GUnit.newtons_eq (u : GUnit) : u.newtons = u.F := by cases u <;> rfl

theorem GUnit.L_pos (u : GUnit) : 0 < u.L := by cases u <;> simp [GUnit.L]
theorem GUnit.str_inj {u v : GUnit} (h : u.str = v.str) : u = v := by cases u <;> cases v <;> first | rfl | (simp [GUnit.str] at h)
theorem GUnit.parse_str (u : GUnit) : GUnit.parse u.str = some u := by cases u <;> simp [GUnit.str, GUnit.parse]
theorem GUnit.str_of_parse {t : String} {u : GUnit} (h : GUnit.parse t = some u) : t = u.str := by
  unfold GUnit.parse at h
  split_ifs at h <;> cases h <;> assumption

theorem gGetUnit_run {s : GSession} {db : Db} (h : Sees s db) : gGetUnit s = (.ok (.str db.unit.str), s.flushed db) := by
  simp only [gGetUnit, caught, bind_run, h.query, pure_run]

theorem sees_of_unit {V : GEnv} {s : GSession} {u : GUnit} (h : (GCall.getUnit.run V s).1 = .ok (.str u.str)) : ∃ db, Sees s db ∧ db.unit = u := by
  rcases e : GCall.getUnit.run V s with ⟨_ | r, s'⟩ <;> rw [e] at h
  · cases h
  · have h : r = .str u.str := Except.ok.inj h
    subst h
    obtain ⟨v, t, h1, h2⟩ := bind_ok (caught_ok e (by simp))
    have h3 := Sees.of_query h1
    refine ⟨_, h3.1, ?_⟩
    simp only [pure_run, Prod.mk.injEq, Except.ok.injEq, GRet.str.injEq] at h2
    exact h3.2.2.symm.trans (GUnit.str_inj h2.1)

/-- a call that does not report a failure returns a good value -/
theorem GCall.succeeded_good {c : GCall} {a : GRet} (h : c.succeeded (.ok a)) : c.handler.good a := by
  cases c <;> simp only [GCall.handler, GHandler.good] <;> first | trivial | (rintro rfl; exact h)

theorem GCall.succeeded_quick {code : String} {V : GEnv} {s : GSession}
    (h : (GCall.addMaterialQuick code).succeeded ((GCall.addMaterialQuick code).run V s).1) : False := by
  rcases e : (GCall.addMaterialQuick code).run V s with ⟨_ | a, s'⟩ <;> rw [e] at h
  · exact h
  · have : a = .none ∨ a = .bool false := by
      by_cases ha : a = .bool false
      · exact Or.inr ha
      · obtain ⟨_, _, _, h2⟩ := bind_ok (guarded_ok e ha)
        cases h2; exact Or.inl rfl
    rcases this with rfl | rfl <;> exact h

/-- an invariant of successful calls along a history -/
theorem AllSucceed.keeps {V : GEnv} {I : GSession → Prop} {P : GCall → Prop} (hI : ∀ c, P c → (∀ code, c ≠ .addMaterialQuick code) → Stable V I (fun _ => True) c)
    {cs : List GCall} (hP : ∀ c ∈ cs, P c) {s t : GSession} (h : AllSucceed V cs s t) (hs : I s) : I t := by
  induction cs generalizing s with
  | nil => cases h; exact hs
  | cons c cs ih =>
    refine ih (fun d hd => hP d (by simp [hd])) h.2 ?_
    have h1 := h.1
    rcases e : c.run V s with ⟨_ | a, s'⟩
    · rw [e] at h1; exact absurd h1 id
    · refine GCall.keepsGood (hI c (hP c (by simp)) ?_) hs e (GCall.succeeded_good (by rw [e] at h1; exact h1))
      rintro code rfl
      exact GCall.succeeded_quick h1

/-- joint `n` moved -/
def Db.moved (db : Db) (n : String) (x y z : ℝ) : Db :=
  { db with joints := db.joints.map fun q => if q.name = n then { q with x := x, y := y, z := z } else q }

theorem gSetJointCoordinate_run {s : GSession} {db : Db} (h : Sees s db) (n : String) (x y z : ℝ) : gSetJointCoordinate n x y z s =
    match db.joints.find? fun q => q.name = n with
    | some _ => (.ok (.bool true), { s.flushed db with work := db.moved n (x * db.unit.L) (y * db.unit.L) (z * db.unit.L) })
    | none => (.ok (.bool false), undo s) := by
  unfold gSetJointCoordinate guarded
  rcases e : db.joints.find? fun q => q.name = n with _ | q
  · rw [e, bind_run, h.lookup_none e]; rfl
  · rw [e, bind_run, h.lookup_some e]
    simp only [bind_run, gScale_run h.flushed, pure_run, update_run]
    rfl

theorem find_name {α : Type} {f : α → String} {l : List α} {n : String} (hn : n ∈ l.map f) : ∃ q, (l.find? fun q => f q = n) = some q ∧ q ∈ l ∧ f q = n := by
  obtain ⟨q, hq, e⟩ := List.mem_map.mp hn
  rcases h : l.find? fun q => f q = n with _ | p
  · have := List.find?_eq_none.mp h q hq
    simp [e] at this
  · exact ⟨p, rfl, List.mem_of_find?_eq_some h, by simpa using List.find?_some h⟩

theorem find_no_name {α : Type} {f : α → String} {l : List α} {n : String} (hn : n ∉ l.map f) : (l.find? fun q => f q = n) = none := by
  rw [List.find?_eq_none]
  intro q hq e
  exact hn (List.mem_map.mpr ⟨q, hq, by simpa using e⟩)

theorem gGetJointNames_run {s : GSession} {db : Db} (h : Sees s db) : gGetJointNames s = (.ok (.names (db.joints.map fun q => q.name)), s.flushed db) := by
  simp only [gGetJointNames, caught, bind_run, h.query, pure_run]

theorem sees_of_joint_names {V : GEnv} {s : GSession} {l : List String} (h : (GCall.getJointNames.run V s).1 = .ok (.names l)) :
    ∃ db, Sees s db ∧ (db.joints.map fun q => q.name) = l := by
  rcases e : GCall.getJointNames.run V s with ⟨_ | r, s'⟩ <;> rw [e] at h
  · cases h
  · have h : r = .names l := Except.ok.inj h
    subst h
    obtain ⟨v, t, h1, h2⟩ := bind_ok (caught_ok e (by simp))
    have h3 := Sees.of_query h1
    refine ⟨_, h3.1, ?_⟩
    simp only [pure_run, Prod.mk.injEq, Except.ok.injEq, GRet.names.injEq] at h2
    rw [← h2.1, h3.2.2]

/-- what `commit` does -/
theorem commit_ok {s s' : GSession} {u : Unit} (h : GM.commit s = (.ok u, s')) : ∃ db, Sees s db ∧ s' = GSession.fresh db s.drawn := by
  rw [commit_run] at h
  rcases e : GM.flush s with ⟨_ | v, t⟩ <;> rw [e] at h
  · cases h
  · cases h
    obtain ⟨h1, h2⟩ := Sees.of_flush e
    refine ⟨_, h1, ?_⟩
    have hb : t.broken = false := by rw [h2]; exact h1.1
    have hp : t.pending = [] := by rw [h2]; rfl
    have hd : t.drawn = s.drawn := by rw [h2]; rfl
    simp only [GSession.fresh, hb, hp, hd]

theorem Sees.commit {s : GSession} {db : Db} (h : Sees s db) : GM.commit s = (.ok (), GSession.fresh db s.drawn) := by
  rw [commit_run, h.flush]
  simp only [GSession.flushed, GSession.fresh, h.1]

/-- calls other than `add_frame_batch` do not write the database file -/
theorem GCall.committed_same {V : GEnv} {c : GCall} (hc : ∀ pts sec, c ≠ .addFrameBatch pts sec) (s : GSession) :
    (c.run V s).2.committed = s.committed :=
  GCall.keeps (I := fun t => t.committed = s.committed) ⟨fun _ h => h, fun _ _ h _ _ => h, fun _ h => h, fun _ _ _ h => h,
    fun _ _ _ h => h, fun _ _ _ h => h, fun _ _ _ h => h, fun pts sec e => absurd e (hc pts sec)⟩ (fun _ h => h) rfl

theorem gRun_committed {V : GEnv} {cs : List GCall} (hc : ∀ c ∈ cs, ∀ pts sec, c ≠ .addFrameBatch pts sec) (s : GSession) :
    (gRun V cs s).committed = s.committed := by
  unfold gRun
  induction cs generalizing s with
  | nil => rfl
  | cons c cs ih =>
    rw [List.foldl_cons, ih (fun d hd => hc d (by simp [hd])), GCall.committed_same (hc c (by simp))]

theorem gSetUnit_run {s : GSession} {db : Db} (h : Sees s db) (u : GUnit) :
    gSetUnit u.str s = (.ok (.bool true), { s.flushed db with work := { db with unit := u } }) := by
  unfold gSetUnit guarded
  rw [GUnit.parse_str]
  simp only [bind_run, need_some, h.query, update_run, pure_run]
  rfl

end Hyperstatic
