import Verif.Props.GeneralUnits
import Verif.Spec.Settings

/-
C147: settings of a project.
-/

namespace Hyperstatic
open GM

/-- After a successful call that sets the name, author, unit or description of a project, and any calls that report no failure and do
not set it again, reading it gives what was set. -/
def C147_claim : Prop := ∀ (V : GEnv) (s s1 s2 : GSession) (k : Setting) (v : String) (cs : List GCall) (db : Db),
  (k.set v).run V s = (.ok (.bool true), s1) → AllSucceed V cs s1 s2 → (∀ w, k.set w ∉ cs) → Sees s2 db →
  (k.get.run V s2).1 = .ok (.str v)

/-- the four settings of a database -/
def Db.settings (db : Db) : String × String × GUnit × ℝ := (db.project, db.author, db.unit, db.tol)

theorem flush_settings {db db' : Db} {p : Pend} (h : p.flush db = some db') : db'.settings = db.settings := by
  cases p <;> simp only [Pend.flush] at h
  all_goals first
    | (split_ifs at h; cases h; rfl)
    | (cases h; rfl)

theorem flushAll_settings {db db' : Db} {ps : List Pend} (h : flushAll db ps = some db') : db'.settings = db.settings := by
  induction ps generalizing db with
  | nil => cases h; rfl
  | cons p ps ih =>
    simp only [flushAll] at h
    rcases e : p.flush db with _ | d <;> rw [e] at h
    · cases h
    · exact (ih h).trans (flush_settings e)

/-- what calls other than its setter leave alone -/
theorem setting_stable {α : Type} {V : GEnv} (g : String × String × GUnit × ℝ → α) (a : α) {c : GCall}
    (hc : ∀ f db, c.mayUpd f → g (f db).settings = g db.settings) (hq : ∀ code, c ≠ .addMaterialQuick code) :
    Stable V (fun s => g s.work.settings = a) (fun _ => True) c where
  weak _ _ := trivial
  ok s db h _ e := by rw [← h, ← flushAll_settings e]
  err _ _ := trivial
  quick code e := absurd e (hq code)
  add _ _ _ h := h
  new _ _ _ h := h
  upd f hf s h := (hc f s.work hf).trans h
  commit _ _ _ _ h := h

theorem upd_name {c : GCall} (hc : ∀ w, c ≠ .setProjectName w) (f : Db → Db) (db : Db) (h : c.mayUpd f) :
    (f db).settings.1 = db.settings.1 := by
  cases c <;> simp only [GCall.mayUpd] at h
  case setProjectName w => exact absurd rfl (hc w)
  all_goals first
    | (subst h; rfl)
    | (obtain ⟨_, rfl⟩ := h; rfl)
    | (obtain ⟨_, _, _, rfl⟩ := h; rfl)

theorem upd_author {c : GCall} (hc : ∀ w, c ≠ .setAuthor w) (f : Db → Db) (db : Db) (h : c.mayUpd f) :
    (f db).settings.2.1 = db.settings.2.1 := by
  cases c <;> simp only [GCall.mayUpd] at h
  case setAuthor w => exact absurd rfl (hc w)
  all_goals first
    | (subst h; rfl)
    | (obtain ⟨_, rfl⟩ := h; rfl)
    | (obtain ⟨_, _, _, rfl⟩ := h; rfl)

theorem upd_unit {c : GCall} (hc : ∀ w, c ≠ .setUnit w) (f : Db → Db) (db : Db) (h : c.mayUpd f) :
    (f db).settings.2.2.1 = db.settings.2.2.1 := by
  cases c <;> simp only [GCall.mayUpd] at h
  case setUnit w => exact absurd rfl (hc w)
  all_goals first
    | (subst h; rfl)
    | (obtain ⟨_, rfl⟩ := h; rfl)
    | (obtain ⟨_, _, _, rfl⟩ := h; rfl)

theorem upd_tol {c : GCall} (hc : ∀ b w, c ≠ .setTolerance b w) (f : Db → Db) (db : Db) (h : c.mayUpd f) :
    (f db).settings.2.2.2 = db.settings.2.2.2 := by
  cases c <;> simp only [GCall.mayUpd] at h
  case setTolerance b w => exact absurd rfl (hc b w)
  all_goals first
    | (subst h; rfl)
    | (obtain ⟨_, rfl⟩ := h; rfl)
    | (obtain ⟨_, _, _, rfl⟩ := h; rfl)

theorem GUnit.parse_isSome {v : String} : (∃ u, GUnit.parse v = some u) ↔ v ∈ ["N_m_C", "N_mm_C", "kN_m_C", "kN_mm_C"] := by
  unfold GUnit.parse
  simp only [List.mem_cons, List.not_mem_nil, or_false]
  constructor
  · rintro ⟨u, h⟩
    split_ifs at h <;> simp_all
  · rintro (rfl | rfl | rfl | rfl) <;> simp

/-- Proved for the name, the author and the unit.  Missing: the description, see `C147_false`. -/
theorem C147_last_partial (V : GEnv) (s s1 s2 : GSession) (k : Setting) (v : String) (cs : List GCall) (db : Db) (hk : k ≠ .description)
    (hset : (k.set v).run V s = (.ok (.bool true), s1)) (hcs : AllSucceed V cs s1 s2) (hn : ∀ w, k.set w ∉ cs) (h2 : Sees s2 db) :
    (k.get.run V s2).1 = .ok (.str v) := by
  cases k with
  | description => exact absurd rfl hk
  | name =>
    have h1 : s1.work.settings.1 = v := by
      obtain ⟨_, t, ha, hb⟩ := bind_ok (guarded_ok hset (by simp))
      obtain ⟨_, t', hc, hd⟩ := bind_ok hb
      simp only [bind_run, update_run, pure_run, Prod.mk.injEq, true_and] at hd
      rw [← hd]; rfl
    have h3 := AllSucceed.keeps (I := fun s => s.work.settings.1 = v) (P := fun c => ∀ w, c ≠ .setProjectName w)
      (fun c hc hq => setting_stable (fun x => x.1) v (upd_name hc) hq) (fun c hc w e => hn w (by rw [e] at hc; exact hc)) hcs h1
    have h4 : db.project = v := (congrArg Prod.fst (flushAll_settings h2.2)).trans h3
    show (gGetProjectName s2).1 = _
    simp only [gGetProjectName, caught, bind_run, h2.query, pure_run, h4]
  | author =>
    have h1 : s1.work.settings.2.1 = v := by
      obtain ⟨_, t, ha, hb⟩ := bind_ok (guarded_ok hset (by simp))
      obtain ⟨_, t', hc, hd⟩ := bind_ok hb
      simp only [bind_run, update_run, pure_run, Prod.mk.injEq, true_and] at hd
      rw [← hd]; rfl
    have h3 := AllSucceed.keeps (I := fun s => s.work.settings.2.1 = v) (P := fun c => ∀ w, c ≠ .setAuthor w)
      (fun c hc hq => setting_stable (fun x => x.2.1) v (upd_author hc) hq) (fun c hc w e => hn w (by rw [e] at hc; exact hc)) hcs h1
    have h4 : db.author = v := (congrArg (fun x => x.2.1) (flushAll_settings h2.2)).trans h3
    show (gGetAuthor s2).1 = _
    simp only [gGetAuthor, caught, bind_run, h2.query, pure_run, h4]
  | unit =>
    obtain ⟨u, h0, h1⟩ : ∃ u : GUnit, u.str = v ∧ s1.work.settings.2.2.1 = u := by
      obtain ⟨u, t, ha, hb⟩ := bind_ok (guarded_ok hset (by simp))
      obtain ⟨_, t', hc, hd⟩ := bind_ok hb
      simp only [bind_run, update_run, pure_run, Prod.mk.injEq, true_and] at hd
      refine ⟨u, ?_, by rw [← hd]; rfl⟩
      cases hp : GUnit.parse v with
      | none => rw [hp] at ha; cases ha
      | some u' => rw [hp] at ha; cases ha; exact (GUnit.str_of_parse hp).symm
    have h3 := AllSucceed.keeps (I := fun s => s.work.settings.2.2.1 = u) (P := fun c => ∀ w, c ≠ .setUnit w)
      (fun c hc hq => setting_stable (fun x => x.2.2.1) u (upd_unit hc) hq) (fun c hc w e => hn w (by rw [e] at hc; exact hc)) hcs h1
    have h4 : db.unit = u := (congrArg (fun x => x.2.2.1) (flushAll_settings h2.2)).trans h3
    show (gGetUnit s2).1 = _
    simp only [gGetUnit, caught, bind_run, h2.query, pure_run, h4, h0]

theorem check_pos {p : Prop} (h : p) (s : GSession) : check p s = (.ok (), s) := by unfold check; rw [if_pos h]; rfl
theorem check_neg {p : Prop} (h : ¬ p) (s : GSession) : check p s = (.error .exception, s) := by unfold check; rw [if_neg h]; rfl

/-- A value is accepted exactly when it is a documented one. -/
theorem C147_accepted (V : GEnv) (s : GSession) (k : Setting) (v : String) (db : Db) (h : Sees s db) :
    ((k.set v).run V s).1 = .ok (.bool true) ↔ k.allows v := by
  cases k with
  | name =>
    show (gSetProjectName v s).1 = _ ↔ v.length < 32
    unfold gSetProjectName guarded
    by_cases hv : v.length < 32
    · simp only [check_pos hv, bind_run, h.query, update_run, pure_run]; exact ⟨fun _ => hv, fun _ => trivial⟩
    · simp only [check_neg hv, bind_run]; exact ⟨fun e => by (cases e), fun e => absurd e hv⟩
  | author =>
    show (gSetAuthor v s).1 = _ ↔ v.length < 32
    unfold gSetAuthor guarded
    by_cases hv : v.length < 32
    · simp only [check_pos hv, bind_run, h.query, update_run, pure_run]; exact ⟨fun _ => hv, fun _ => trivial⟩
    · simp only [check_neg hv, bind_run]; exact ⟨fun e => by (cases e), fun e => absurd e hv⟩
  | unit =>
    show (gSetUnit v s).1 = _ ↔ v ∈ ["N_m_C", "N_mm_C", "kN_m_C", "kN_mm_C"]
    rw [← GUnit.parse_isSome]
    unfold gSetUnit guarded
    rcases hp : GUnit.parse v with _ | u
    · simp only [bind_run, need_none]; exact ⟨fun e => by (cases e), fun ⟨_, e⟩ => by cases e⟩
    · simp only [bind_run, need_some, h.query, update_run, pure_run]; exact ⟨fun _ => ⟨u, rfl⟩, fun _ => trivial⟩
  | description =>
    show (gSetDescription v s).1 = _ ↔ True
    simp only [gSetDescription, guarded, bind_run, h.query, pure_run]

/-- A tolerance that was set in one unit is read, after any calls that report no failure and do not set it again, as the same length in
the unit now in force. -/
theorem C147_tolerance (V : GEnv) (s s1 s2 : GSession) (x : ℝ) (u0 u1 : GUnit) (cs : List GCall)
    (hset : (GCall.setTolerance true x).run V s = (.ok (.bool true), s1)) (hu0 : (GCall.getUnit.run V s).1 = .ok (.str u0.str))
    (hcs : AllSucceed V cs s1 s2) (hn : ∀ b w, GCall.setTolerance b w ∉ cs) (hu1 : (GCall.getUnit.run V s2).1 = .ok (.str u1.str)) :
    (GCall.getTolerance.run V s2).1 = .ok (.num (x * u0.metres / u1.metres)) := by
  obtain ⟨db0, h0, e0⟩ := sees_of_unit hu0
  obtain ⟨db2, h2, e2⟩ := sees_of_unit hu1
  have h1 : s1.work.settings.2.2.2 = x * u0.L := by
    obtain ⟨_, t, ha, hb⟩ := bind_ok (guarded_ok hset (by simp))
    obtain ⟨-, rfl⟩ := check_ok ha
    simp only [bind_run, gScale_run h0, h0.query_flushed, update_run, pure_run, Prod.mk.injEq, true_and] at hb
    rw [← hb, ← e0]; rfl
  have h3 := AllSucceed.keeps (I := fun s => s.work.settings.2.2.2 = x * u0.L) (P := fun c => ∀ b w, c ≠ .setTolerance b w)
    (fun c hc hq => setting_stable (fun x => x.2.2.2) _ (upd_tol hc) hq) (fun c hc b w e => hn b w (by rw [e] at hc; exact hc)) hcs h1
  have h4 : db2.tol = x * u0.L := (congrArg (fun x => x.2.2.2) (flushAll_settings h2.2)).trans h3
  show (gGetTolerance s2).1 = _
  simp only [gGetTolerance, caught, bind_run, gScale_run h2, h2.query_flushed, pure_run, h4, e2, GUnit.metres_eq]

theorem setting_call {V : GEnv} {c : GCall} (hc : ∀ f, ¬ c.mayUpd f) {x : String × String × GUnit × ℝ} {s : GSession}
    (h : s.committed.settings = x ∧ s.work.settings = x) : (c.run V s).2.committed.settings = x ∧ (c.run V s).2.work.settings = x :=
  GCall.keeps (I := fun s => s.committed.settings = x ∧ s.work.settings = x)
    ⟨fun _ h => h, fun _ _ h _ e => ⟨h.1, (flushAll_settings e).trans h.2⟩, fun _ h => ⟨h.1, h.1⟩, fun _ _ _ h => ⟨h.1, h.1⟩,
      fun _ _ _ h => h, fun _ _ _ h => h, fun f hf => absurd hf (hc f), fun _ _ _ _ h => ⟨h.2, h.2⟩⟩ (fun _ h => ⟨h.1, h.1⟩) h

theorem gCreate_settings (V : GEnv) (n : ℕ) : (gCreate V n).committed.settings = emptyDb.settings := by
  obtain ⟨db, e, -⟩ := gCreate_new V n
  have h0 : (GSession.fresh emptyDb n).committed.settings = emptyDb.settings ∧ (GSession.fresh emptyDb n).work.settings = emptyDb.settings := ⟨rfl, rfl⟩
  have h1 := setting_call (V := V) (c := .addLoadcase "S" "static-linear" 1) (fun f => id)
    (setting_call (V := V) (c := .addAreaSection "A-M120" "C35" "m" (12 / 100)) (fun f => id)
    (setting_call (V := V) (c := .addFrameSection "1-L-H400x200x14x20" "Q345" "I" [4 / 10, 2 / 10, 14 / 1000, 2 / 100]) (fun f => id)
    (setting_call (V := V) (c := .addMaterial "C35" 2500 "isotropic_elastic" (some 20000000000) (some (2 / 10))) (fun f => id)
    (setting_call (V := V) (c := .addMaterial "Q345" 7849 "isotropic_elastic" (some 200000000000) (some (3 / 10))) (fun f => id) h0))))
  unfold gCreate
  simp only [gRun, List.foldl_cons, List.foldl_nil]
  generalize ((GCall.addLoadcase "S" "static-linear" 1).run V _).2 = t at h1
  rcases e : commit t with ⟨_ | u, t'⟩
  · have : t'.committed = t.committed := by
      rw [commit_run] at e
      rcases e1 : GM.flush t with ⟨_ | _, t2⟩ <;> rw [e1] at e <;> cases e
      unfold GM.flush at e1
      split_ifs at e1
      · cases e1; rfl
      · split at e1 <;> cases e1
        rfl
    show t'.committed.settings = _
    rw [this]; exact h1.1
  · obtain ⟨d, hd, rfl⟩ := commit_ok e
    exact (flushAll_settings hd.2).trans h1.2

/-- A new model has the documented settings: N, m and a tolerance of a micrometre. -/
theorem C147_new (V : GEnv) (n : ℕ) : ∀ s, gOpen ⟨.whole (gCreate V n).committed, .absent, n⟩ = .ok s →
    (GCall.getProjectName.run V s.2).1 = .ok (.str "dev") ∧ (GCall.getAuthor.run V s.2).1 = .ok (.str "HZJ") ∧
    (GCall.getUnit.run V s.2).1 = .ok (.str "N_m_C") ∧ (GCall.getTolerance.run V s.2).1 = .ok (.num (1 / 1000000)) := by
  rintro ⟨d, s⟩ h
  cases h
  have hs := sees_fresh (gCreate V n).committed n
  have h1 := gCreate_settings V n
  simp only [Db.settings, emptyDb, Prod.mk.injEq] at h1
  obtain ⟨h1, h2, h3, h4⟩ := h1
  refine ⟨?_, ?_, ?_, ?_⟩
  · show (gGetProjectName _).1 = _
    simp only [gGetProjectName, caught, bind_run, hs.query, pure_run, h1]
  · show (gGetAuthor _).1 = _
    simp only [gGetAuthor, caught, bind_run, hs.query, pure_run, h2]
  · show (gGetUnit _).1 = _
    simp only [gGetUnit, caught, bind_run, hs.query, pure_run, h3, GUnit.str]
  · show (gGetTolerance _).1 = _
    simp only [gGetTolerance, caught, bind_run, gScale_run hs, hs.query_flushed, pure_run, h3, h4, GUnit.L, div_one]

/-- Texts stored by `set_description` are not read back: `get_description` answers `False` in every state. -/
theorem C147_no_description (V : GEnv) (s : GSession) : (GCall.getDescription.run V s).1 = .ok (.bool false) := by
  show (gGetDescription s).1 = _
  unfold gGetDescription caught
  rcases e : (do query fun _ => (); fail .attributeError : GM GRet) s with ⟨_ | a, s'⟩
  · rfl
  · obtain ⟨_, _, _, h⟩ := bind_ok e
    cases h

theorem C147_false : ¬ C147_claim := by
  intro h
  obtain ⟨db, -, -⟩ := lived_new demoEnv
  have hs : Sees (GSession.fresh db 0) db := sees_fresh db 0
  have e : (Setting.description.set "a bridge").run demoEnv (GSession.fresh db 0) = (.ok (.bool true), (GSession.fresh db 0).flushed db) := by
    show gSetDescription "a bridge" _ = _
    simp only [gSetDescription, guarded, bind_run, hs.query, pure_run]
  have := h demoEnv _ _ _ .description "a bridge" [] db e rfl (by simp) hs.flushed
  have h2 := C147_no_description demoEnv ((GSession.fresh db 0).flushed db)
  have this : (GCall.getDescription.run demoEnv _).1 = _ := this
  rw [h2] at this
  cases this

-- the hypotheses of `C147_last_partial` and `C147_tolerance` are met in a new model: a name, then a tolerance, then another unit
example : ∃ s s1 s2 db, Lived demoEnv s ∧ (Setting.name.set "bridge").run demoEnv s = (.ok (.bool true), s1) ∧
    AllSucceed demoEnv [.setTolerance true 2, .setUnit "N_mm_C"] s1 s2 ∧ Sees s2 db ∧ db.unit = .Nmm := by
  obtain ⟨d, hL, st⟩ := lived_new demoEnv
  have hs : Sees (GSession.fresh d 0) d := sees_fresh d 0
  let s1 : GSession := { (GSession.fresh d 0).flushed d with work := { d with project := "bridge" } }
  have h1 : Sees s1 { d with project := "bridge" } := ⟨rfl, rfl⟩
  have e1 : gSetProjectName "bridge" (GSession.fresh d 0) = (.ok (.bool true), s1) := by
    unfold gSetProjectName guarded
    simp only [check_pos (show "bridge".length < 32 by decide), bind_run, pure_run, hs.query, update_run]
    rfl
  let d2 : Db := { d with project := "bridge", tol := 2 * d.unit.L }
  let s2 : GSession := { s1.flushed { d with project := "bridge" } with work := d2 }
  have h2 : Sees s2 d2 := ⟨rfl, rfl⟩
  have e2 : gSetTolerance true 2 s1 = (.ok (.bool true), s2) := by
    unfold gSetTolerance guarded
    simp only [check_pos, bind_run, pure_run, gScale_run h1, h1.query_flushed, update_run]
    rfl
  have e3 := gSetUnit_run h2 .Nmm
  refine ⟨_, s1, _, { d2 with unit := .Nmm }, hL, e1, ⟨?_, ?_, rfl⟩, ?_, rfl⟩
  · show GCall.succeeded _ (gSetTolerance true 2 s1).1
    rw [e2]; trivial
  · show GCall.succeeded _ (gSetUnit "N_mm_C" (gSetTolerance true 2 s1).2).1
    rw [e2]
    show GCall.succeeded _ (gSetUnit GUnit.Nmm.str s2).1
    rw [e3]; trivial
  · show Sees (gSetUnit "N_mm_C" (gSetTolerance true 2 s1).2).2 _
    rw [e2]
    show Sees (gSetUnit GUnit.Nmm.str s2).2 _
    rw [e3]
    exact ⟨rfl, rfl⟩

end Hyperstatic
