import Verif.Props.GeneralFrameLoads
import Mathlib.Logic.Relation

/-
Properties of the database front end: merging joints.
-/

namespace Hyperstatic
open GM

/-! ## C99 merging joints -/

/-- After `merge_joints` no two joints are nearer than the tolerance. -/
def C99_claim : Prop := ∀ (V : GEnv) (s s1 : GSession) (db db1 : Db) (tol : ℝ), V.Sorts → Lived V s → Sees s db → 0 < tol →
  (GCall.mergeJoints tol).run V s = (.ok (.bool true), s1) → Sees s1 db1 →
  ∀ p ∈ db1.joints, ∀ q ∈ db1.joints, p.name ≠ q.name → tol * db.unit.metres ≤ p.dist q

/-- After `merge_joints` every frame that had ends has ends. -/
def C99_frames_claim : Prop := ∀ (V : GEnv) (s s1 : GSession) (tol : ℝ) (f a b : String), V.Sorts → Lived V s → 0 < tol →
  ((GCall.getFrameEndNames f).run V s).1 = .ok (.two a b) → (GCall.mergeJoints tol).run V s = (.ok (.bool true), s1) →
  ∃ a' b', ((GCall.getFrameEndNames f).run V s1).1 = .ok (.two a' b')

theorem demoEnv_sorts : demoEnv.Sorts := by
  intro l
  classical
  have tot : Std.Total JointRow.before := ⟨fun p q => by
    unfold JointRow.before
    rcases lt_trichotomy p.x q.x with h | h | h
    · exact Or.inl (Or.inl h)
    · rcases lt_trichotomy p.y q.y with h' | h' | h'
      · exact Or.inl (Or.inr ⟨h, Or.inl h'⟩)
      · rcases le_total p.z q.z with h'' | h''
        · exact Or.inl (Or.inr ⟨h, Or.inr ⟨h', h''⟩⟩)
        · exact Or.inr (Or.inr ⟨h.symm, Or.inr ⟨h'.symm, h''⟩⟩)
      · exact Or.inr (Or.inr ⟨h.symm, Or.inl h'⟩)
    · exact Or.inr (Or.inl h)⟩
  have tr : IsTrans JointRow JointRow.before := ⟨fun p q r h1 h2 => by
    unfold JointRow.before at *
    rcases h1 with h1 | ⟨e1, h1⟩ <;> rcases h2 with h2 | ⟨e2, h2⟩
    · exact Or.inl (h1.trans h2)
    · exact Or.inl (by rw [← e2]; exact h1)
    · exact Or.inl (by rw [e1]; exact h2)
    · refine Or.inr ⟨e1.trans e2, ?_⟩
      rcases h1 with h1 | ⟨e3, h1⟩ <;> rcases h2 with h2 | ⟨e4, h2⟩
      · exact Or.inl (h1.trans h2)
      · exact Or.inl (by rw [← e4]; exact h1)
      · exact Or.inl (by rw [e3]; exact h2)
      · exact Or.inr ⟨e3.trans e4, h1.trans h2⟩⟩
  exact ⟨List.perm_insertionSort _ _, List.pairwise_insertionSort _ _⟩

/-- the names the loop removes -/
noncomputable def removed (d2 : ℝ) (l : List JointRow) : List String := (mergeMap d2 l id).2

open Classical in
theorem mergeMap_snd (d2 : ℝ) : ∀ (l : List JointRow) (m m' : String → String), (mergeMap d2 l m).2 = (mergeMap d2 l m').2
  | [], _, _ => rfl
  | [_], _, _ => rfl
  | p :: q :: t, m, m' => by
    unfold mergeMap
    split_ifs
    · simp only [mergeMap_snd d2 (q :: t) _ (Function.update m' q.name (m' p.name))]
    · exact mergeMap_snd d2 (q :: t) m m'

open Classical in
theorem removed_cons (d2 : ℝ) (p q : JointRow) (t : List JointRow) : removed d2 (p :: q :: t) =
    if jointDist2 p q < d2 then q.name :: removed d2 (q :: t) else removed d2 (q :: t) := by
  unfold removed
  conv_lhs => unfold mergeMap
  split_ifs
  · exact congrArg (_ :: ·) (mergeMap_snd d2 _ _ _)
  · rfl

theorem removed_sub (d2 : ℝ) : ∀ (l : List JointRow) (p : JointRow), ∀ n ∈ removed d2 (p :: l), n ∈ l.map fun q => q.name
  | [], p, n, h => by simp [removed, mergeMap] at h
  | q :: t, p, n, h => by
    rw [removed_cons] at h
    split_ifs at h
    · rcases List.mem_cons.mp h with rfl | h
      · simp
      · exact List.mem_cons_of_mem _ (removed_sub d2 t q n h)
    · exact List.mem_cons_of_mem _ (removed_sub d2 t q n h)

/-- a name is removed exactly when its joint follows one that is near -/
theorem removed_iff (d2 : ℝ) : ∀ (l : List JointRow), (l.map fun q => q.name).Nodup → ∀ (a : List JointRow) (p q : JointRow) (b : List JointRow),
    l = a ++ p :: q :: b → (q.name ∈ removed d2 l ↔ jointDist2 p q < d2)
  | [], _, a, p, q, b, e => by simp at e
  | [x], _, a, p, q, b, e => by
    have := congrArg List.length e
    simp at this
    omega
  | x :: y :: t, hk, a, p, q, b, e => by
    rw [removed_cons]
    have hk' : ((y :: t).map fun q => q.name).Nodup := (List.nodup_cons.mp hk).2
    rcases a with _ | ⟨x', a⟩
    · simp only [List.nil_append, List.cons.injEq] at e
      obtain ⟨rfl, rfl, rfl⟩ := e
      split_ifs with h
      · simp [h]
      · simp only [h, iff_false]
        intro hm
        exact (List.nodup_cons.mp hk').1 (removed_sub d2 t y _ hm)
    · simp only [List.cons_append, List.cons.injEq] at e
      obtain ⟨rfl, e⟩ := e
      have ih := removed_iff d2 (y :: t) hk' a p q b e
      split_ifs with h
      · rw [List.mem_cons, ih]
        refine or_iff_right ?_
        intro hq
        rcases a with _ | ⟨y', a⟩
        · simp only [List.nil_append, List.cons.injEq] at e
          obtain ⟨rfl, rfl⟩ := e
          rw [List.map_cons, List.map_cons, List.nodup_cons] at hk'
          exact hk'.1 (by rw [← hq]; simp)
        · simp only [List.cons_append, List.cons.injEq] at e
          obtain ⟨rfl, rfl⟩ := e
          rw [List.map_cons, List.nodup_cons] at hk'
          exact hk'.1 (by rw [← hq]; simp)
      · exact ih

theorem removed_head (d2 : ℝ) (p : JointRow) (t : List JointRow) (hk : ((p :: t).map fun q => q.name).Nodup) : p.name ∉ removed d2 (p :: t) :=
  fun h => (List.nodup_cons.mp hk).1 (removed_sub d2 t p _ h)

theorem flush_removed : ∀ (ns : List String) (db db' : Db), flushAll db (ns.map .delJoint) = some db' →
    db' = { db with joints := db.joints.filter fun q => q.name ∉ ns }
  | [], db, db', h => by cases h; simp
  | n :: ns, db, db', h => by
    simp only [List.map_cons, flushAll, Pend.flush] at h
    split_ifs at h
    · simp at h
    · rw [Option.bind_some] at h
      rw [flush_removed ns _ _ h]
      simp only [List.filter_filter, List.mem_cons, not_or, Bool.decide_and]
      congr 2
      funext q
      rw [Bool.and_comm]

theorem gMergeJoints_ok {V : GEnv} {s s1 : GSession} {db : Db} (hs : Sees s db) {tol : ℝ} (h : gMergeJoints V tol s = (.ok (.bool true), s1)) :
    Sees s1 { db with joints := db.joints.filter fun q => q.name ∉ removed ((tol * db.unit.L) ^ 2) (V.orderBy db.joints) } := by
  have h := guarded_ok h (by simp)
  rw [bind_run, hs.query] at h
  simp only at h
  rw [bind_run, gScale_run hs.flushed] at h
  simp only [flushed_flushed] at h
  rw [bind_run, hs.query_flushed] at h
  simp only [bind_run, forM_add] at h
  obtain ⟨db', hf⟩ : ∃ db', flushAll db (((mergeMap ((tol * db.unit.L) ^ 2) (V.orderBy db.joints) id).2).map .delJoint) = some db' := by
    rcases e : flushAll db (((mergeMap ((tol * db.unit.L) ^ 2) (V.orderBy db.joints) id).2).map .delJoint) with _ | db'
    · exfalso
      have e' : GM.flush { s.flushed db with pending := (s.flushed db).pending ++ ((mergeMap ((tol * db.unit.L) ^ 2) (V.orderBy db.joints) id).2).map .delJoint } =
          (.error .exception, { s.flushed db with work := s.committed, pending := [], broken := true }) := by
        unfold GM.flush
        rw [if_neg (by show ¬ s.broken = true; rw [hs.1]; simp)]
        simp only [GSession.flushed, List.nil_append, e]
      rw [e'] at h
      cases h
    · exact ⟨_, rfl⟩
  have hp := hs.with_pending hf
  have e' := hp.flush
  rw [show ({ s.flushed db with pending := (s.flushed db).pending ++ ((mergeMap ((tol * db.unit.L) ^ 2) (V.orderBy db.joints) id).2).map .delJoint } : GSession) =
    { s.flushed db with pending := ((mergeMap ((tol * db.unit.L) ^ 2) (V.orderBy db.joints) id).2).map .delJoint } from rfl, e'] at h
  simp only [hp.query_flushed, pure_run, Prod.mk.injEq, true_and] at h
  subst h
  rw [flush_removed _ _ _ hf] at hp ⊢
  exact hp.flushed

theorem dist_lt_iff {p q : JointRow} {r : ℝ} (hr : 0 < r) : jointDist2 p q < r ^ 2 ↔ p.dist q < r := by
  unfold JointRow.dist jointDist2
  rw [Real.sqrt_lt' hr, sub_sq_comm q.x, sub_sq_comm q.y, sub_sq_comm q.z]

/-- nearer than `r`, both joints of the list -/
def Near (l : List JointRow) (r : ℝ) (p q : JointRow) : Prop := p ∈ l ∧ q ∈ l ∧ p.dist q < r

theorem linked {l : List JointRow} (hk : (l.map fun q => q.name).Nodup) {r : ℝ} (hr : 0 < r) : ∀ (n : ℕ) (a : List JointRow) (p : JointRow) (b : List JointRow),
    a.length = n → l = a ++ p :: b → ∃ q ∈ l, q.name ∉ removed (r ^ 2) l ∧ Relation.ReflTransGen (Near l r) q p
  | 0, a, p, b, hn, e => by
    rw [List.length_eq_zero_iff] at hn
    subst hn
    rw [List.nil_append] at e
    subst e
    exact ⟨p, by simp, removed_head _ _ _ hk, .refl⟩
  | n + 1, a, p, b, hn, e => by
    obtain ⟨a', x, rfl⟩ : ∃ a' x, a = a' ++ [x] := by
      rcases List.eq_nil_or_concat a with rfl | ⟨a', x, rfl⟩
      · simp at hn
      · exact ⟨a', x, by simp⟩
    have e' : l = a' ++ x :: p :: b := by rw [e]; simp
    have hi := removed_iff (r ^ 2) l hk a' x p b e'
    by_cases h : jointDist2 x p < r ^ 2
    · obtain ⟨q, hq, hn', hc⟩ := linked hk hr n a' x (p :: b) (by simpa using hn) e'
      refine ⟨q, hq, hn', hc.tail ⟨?_, ?_, (dist_lt_iff hr).mp h⟩⟩ <;> rw [e'] <;> simp
    · exact ⟨p, by rw [e]; simp, fun hm => h (hi.mp hm), .refl⟩

/-- What `merge_joints` does: in the order by x, y, z a joint goes exactly when it is nearer than the tolerance to the one before it, so
every joint is linked to a remaining one by steps shorter than the tolerance; the remaining joints and everything else stay as they are.
Missing: near joints that do not follow each other in that order stay, and frames keep the names of joints that are gone. -/
theorem C99_neighbours_partial (V : GEnv) (s s1 : GSession) (db db1 : Db) (tol : ℝ) (hV : V.Sorts) (hL : Lived V s) (hs : Sees s db) (ht : 0 < tol)
    (h : (GCall.mergeJoints tol).run V s = (.ok (.bool true), s1)) (hs1 : Sees s1 db1) :
    db1 = { db with joints := db1.joints } ∧ db1.joints.Sublist db.joints ∧
    (∀ a p q b, V.orderBy db.joints = a ++ p :: q :: b → (q ∉ db1.joints ↔ p.dist q < tol * db.unit.metres)) ∧
    ∀ p ∈ db.joints, ∃ q ∈ db1.joints, Relation.ReflTransGen (fun x y => x ∈ db.joints ∧ y ∈ db.joints ∧ x.dist y < tol * db.unit.metres) q p := by
  simp only [GUnit.metres_eq]
  have hr : 0 < tol * db.unit.L := mul_pos ht db.unit.L_pos
  have hk := (keyed_lasting.lived keyed_empty hL).sees keyed_lasting hs
  have hperm := (hV db.joints).1
  have hko : ((V.orderBy db.joints).map fun q => q.name).Nodup := (hperm.map _).nodup_iff.mpr hk.joints
  cases hs1.unique (gMergeJoints_ok hs h)
  have hkeep : ∀ q ∈ V.orderBy db.joints, (q ∈ db.joints.filter fun q => q.name ∉ removed ((tol * db.unit.L) ^ 2) (V.orderBy db.joints)) ↔
      q.name ∉ removed ((tol * db.unit.L) ^ 2) (V.orderBy db.joints) := by
    intro q hq
    simp [List.mem_filter, hperm.mem_iff.mp hq]
  refine ⟨rfl, List.filter_sublist, ?_, ?_⟩
  · intro a p q b e
    rw [hkeep q (by rw [e]; simp), not_not, removed_iff _ _ hko a p q b e, dist_lt_iff hr]
  · intro p hp
    obtain ⟨a, b, e⟩ := List.append_of_mem (hperm.mem_iff.mpr hp)
    obtain ⟨q, hq, hn, hc⟩ := linked hko hr a.length a p b rfl e
    refine ⟨q, (hkeep q hq).mpr hn, Relation.ReflTransGen.mono ?_ _ _ hc⟩
    rintro x y ⟨h1, h2, h3⟩
    exact ⟨hperm.mem_iff.mp h1, hperm.mem_iff.mp h2, h3⟩

/-- `merge_joints` succeeds when no joint has a restraint or a load -/
theorem gMergeJoints_run {V : GEnv} {s : GSession} {db : Db} (hs : Sees s db) (hr : db.restrs = []) (hj : db.jloads = []) (tol : ℝ) :
    ∃ s1, gMergeJoints V tol s = (.ok (.bool true), s1) := by
  have key : ∀ (ns : List String) (d : Db), d.restrs = [] → d.jloads = [] → ∃ d', flushAll d (ns.map .delJoint) = some d' := by
    intro ns
    induction ns with
    | nil => exact fun d _ _ => ⟨d, rfl⟩
    | cons n ns ih =>
      intro d h1 h2
      obtain ⟨d', e⟩ := ih { d with joints := d.joints.filter fun q => q.name ≠ n } h1 h2
      refine ⟨d', ?_⟩
      simp only [List.map_cons, flushAll, Pend.flush]
      rw [if_neg (by simp [h1, h2])]
      exact e
  obtain ⟨d', hf⟩ := key (mergeMap ((tol * db.unit.L) ^ 2) (V.orderBy db.joints) id).2 db hr hj
  have hp := hs.with_pending hf
  unfold gMergeJoints guarded
  simp only [bind_run, hs.query, gScale_run hs.flushed, flushed_flushed, hs.query_flushed, forM_add]
  rw [show ({ s.flushed db with pending := (s.flushed db).pending ++ ((mergeMap ((tol * db.unit.L) ^ 2) (V.orderBy db.joints) id).2).map .delJoint } : GSession) =
    { s.flushed db with pending := ((mergeMap ((tol * db.unit.L) ^ 2) (V.orderBy db.joints) id).2).map .delJoint } from rfl, hp.flush]
  simp only [hp.query_flushed, pure_run]
  exact ⟨_, rfl⟩

/-- three joints, in order; the first and the last are near, the middle one is far off -/
noncomputable def threeJoints : List JointRow := [⟨"0", 0, 0, 0⟩, ⟨"1", 1 / 10, 5, 0⟩, ⟨"2", 2 / 10, 0, 0⟩]

theorem three_witness : ∃ s db, Lived demoEnv s ∧ Sees s db ∧ db.joints = threeJoints ∧ db.restrs = [] ∧ db.jloads = [] ∧ db.unit = .Nm := by
  obtain ⟨d, hL, st⟩ := lived_new demoEnv
  refine ⟨_, { d with joints := threeJoints }, ((hL.call (.addJoint 0 0 0)).call (.addJoint (1 / 10) 5 0)).call (.addJoint (2 / 10) 0 0), ⟨rfl, ?_⟩, rfl,
    st.restrs, st.jloads, st.unit⟩
  show flushAll d [.joint ⟨demoEnv.uuid 0, 0, 0, 0⟩, .joint ⟨demoEnv.uuid 1, 1 / 10, 5, 0⟩, .joint ⟨demoEnv.uuid 2, 2 / 10, 0, 0⟩] = _
  have e0 : demoEnv.uuid 0 = "0" := by show toString (0 : ℕ) = "0"; decide
  have e1 : demoEnv.uuid 1 = "1" := by show toString (1 : ℕ) = "1"; decide
  have e2 : demoEnv.uuid 2 = "2" := by show toString (2 : ℕ) = "2"; decide
  rw [e0, e1, e2]
  have f0 := flush_joint (db := d) (r := ⟨"0", 0, 0, 0⟩) (by simp [st.joints])
  have f1 := flush_joint (db := { d with joints := d.joints ++ [⟨"0", 0, 0, 0⟩] }) (r := ⟨"1", 1 / 10, 5, 0⟩) (by simp [st.joints])
  have f2 := flush_joint (db := { d with joints := d.joints ++ [⟨"0", 0, 0, 0⟩] ++ [⟨"1", 1 / 10, 5, 0⟩] }) (r := ⟨"2", 2 / 10, 0, 0⟩) (by simp [st.joints])
  simp only [flushAll, f0, Option.bind_some, f1, f2]
  simp [st.joints, threeJoints]

theorem three_sorted : demoEnv.orderBy threeJoints = threeJoints := by
  have h := demoEnv_sorts threeJoints
  refine List.Perm.eq_of_pairwise (le := JointRow.before) ?_ h.2 ?_ h.1
  · intro p q hp hq h1 h2
    have hp := h.1.mem_iff.mp hp
    simp only [threeJoints, List.mem_cons, List.not_mem_nil, or_false] at hp hq
    rcases hp with rfl | rfl | rfl <;> rcases hq with rfl | rfl | rfl <;> first | rfl | (exfalso; norm_num [JointRow.before] at h1; done) | (exfalso; norm_num [JointRow.before] at h2; done)
  · simp only [threeJoints, List.pairwise_cons, List.mem_cons, List.not_mem_nil, or_false, forall_eq_or_imp, forall_eq, List.Pairwise.nil, and_true]
    norm_num [JointRow.before]

/-- Two near joints with a far one between them in the order of x both stay. -/
theorem C99_false : ¬ C99_claim := by
  intro h
  obtain ⟨s, db, hL, hs, hj, hr, hl, hu⟩ := three_witness
  have hL1 : db.unit.L = 1 := by rw [hu]; rfl
  obtain ⟨s1, e⟩ := gMergeJoints_run (V := demoEnv) hs hr hl 1
  have hs1 := gMergeJoints_ok hs e
  have hrm : removed ((1 * db.unit.L) ^ 2) (demoEnv.orderBy db.joints) = [] := by
    rw [hj, three_sorted, hL1]
    unfold threeJoints
    rw [removed_cons, if_neg (by norm_num [jointDist2]), removed_cons, if_neg (by norm_num [jointDist2])]
    rfl
  rw [hrm] at hs1
  have := h demoEnv s s1 db _ 1 demoEnv_sorts hL hs one_pos e hs1 ⟨"0", 0, 0, 0⟩ (by simp [hj, threeJoints]) ⟨"2", 2 / 10, 0, 0⟩ (by simp [hj, threeJoints]) (by simp)
  rw [GUnit.metres_eq, hL1] at this
  have h2 : JointRow.dist ⟨"0", 0, 0, 0⟩ ⟨"2", 2 / 10, 0, 0⟩ < 1 := by
    unfold JointRow.dist
    rw [Real.sqrt_lt' one_pos]
    norm_num
  linarith

/-- A frame one of whose joints is merged into another has no ends any more. -/
theorem C99_frames_false : ¬ C99_frames_claim := by
  intro h
  obtain ⟨s, db, hL, hs, hj, hf, hr, hl, hu⟩ := frame_witness
  have hL1 : db.unit.L = 1 := by rw [hu]; rfl
  obtain ⟨s1, e⟩ := gMergeJoints_run (V := demoEnv) hs hr hl 2
  have hs1 := gMergeJoints_ok hs e
  have hso : demoEnv.orderBy db.joints = [⟨"0", 0, 0, 0⟩, ⟨"1", 1, 0, 0⟩] := by
    have h := demoEnv_sorts db.joints
    rw [hj] at h ⊢
    refine List.Perm.eq_of_pairwise (le := JointRow.before) ?_ h.2 ?_ h.1
    · intro p q hp hq h1 h2
      have hp := h.1.mem_iff.mp hp
      simp only [List.mem_cons, List.not_mem_nil, or_false] at hp hq
      rcases hp with rfl | rfl <;> rcases hq with rfl | rfl <;>
        first | rfl | (exfalso; norm_num [JointRow.before] at h1; done) | (exfalso; norm_num [JointRow.before] at h2; done)
    · simp only [List.pairwise_cons, List.mem_cons, List.not_mem_nil, or_false, forall_eq, List.Pairwise.nil, and_true]
      norm_num [JointRow.before]
  have hrm : removed ((2 * db.unit.L) ^ 2) (demoEnv.orderBy db.joints) = ["1"] := by
    rw [hso, hL1, removed_cons, if_pos (by norm_num [jointDist2])]
    rfl
  rw [hrm] at hs1
  have h0 : ((GCall.getFrameEndNames "f").run demoEnv s).1 = .ok (.two "0" "1") := by
    show (gGetFrameEndNames "f" s).1 = _
    have he : frameEnds db "f" = some (⟨"0", 0, 0, 0⟩, ⟨"1", 1, 0, 0⟩) := by
      unfold frameEnds
      simp [hf, hj]
    rw [gGetFrameEndNames_run hs, he]
  obtain ⟨a, b, h1⟩ := h demoEnv s s1 2 "f" "0" "1" demoEnv_sorts hL two_pos h0 e
  have h1 : (gGetFrameEndNames "f" s1).1 = .ok (.two a b) := h1
  have he : frameEnds { db with joints := db.joints.filter fun q => q.name ∉ ["1"] } "f" = none := by
    unfold frameEnds
    simp [hf, hj]
  rw [gGetFrameEndNames_run hs1, he] at h1
  cases h1

example : ∃ s s1 db, demoEnv.Sorts ∧ Lived demoEnv s ∧ Sees s db ∧ db.joints.length = 3 ∧ (GCall.mergeJoints 10).run demoEnv s = (.ok (.bool true), s1) ∧
    ∃ db1, Sees s1 db1 := by
  obtain ⟨s, db, hL, hs, hj, hr, hl, hu⟩ := three_witness
  obtain ⟨s1, e⟩ := gMergeJoints_run (V := demoEnv) hs hr hl 10
  exact ⟨s, s1, db, demoEnv_sorts, hL, hs, by rw [hj]; rfl, e, _, gMergeJoints_ok hs e⟩

end Hyperstatic
