import Verif.Lemmas.Dxf

/-
Properties of the exchange of drawings (DXF) and of `add_frame_batch`.
-/

namespace Hyperstatic
open GM

/-! ## C124 drawings -/

/-- the lines of a drawing on the chosen layers (all layers when none is chosen), in order -/
noncomputable def Spec.drawnLines (ents : List DxfEntity) (layers : List String) : List DxfSeg := open Classical in
  ents.filterMap fun e => match e with
    | .line l p q => if layers = [] ∨ l ∈ layers then some (p, q) else none
    | _ => none

/-- the points at which lines end, in metres, and the positions of joints -/
def Spec.EndOrJoint (db : Db) (ls : List DxfSeg) (p : DxfPoint) : Prop :=
  (∃ r ∈ db.joints, r.pt = p) ∨ ∃ l ∈ ls, inMetres db.unit.metres l.1 = p ∨ inMetres db.unit.metres l.2 = p

/-- the frame with this name runs between the ends of the line, on the joints that stand for these points -/
def Spec.RunsAlong (V : GEnv) (s : GSession) (J : DxfPoint → String) (l : DxfSeg) (n : String) : Prop :=
  (((GCall.getFrameEndNames n).run V s).1 = .ok (.two (J l.1) (J l.2)) ∧ ((GCall.getFrameEndCoors n).run V s).1 = .ok (.nums (xyz l.1 ++ xyz l.2))) ∨
  ((GCall.getFrameEndNames n).run V s).1 = .ok (.two (J l.2) (J l.1)) ∧ ((GCall.getFrameEndCoors n).run V s).1 = .ok (.nums (xyz l.2 ++ xyz l.1))

/-- the same line, perhaps drawn the other way -/
def Spec.SameLine (a b : DxfSeg) : Prop := b = a ∨ b = (a.2, a.1)

/-- A successful import of a drawing leaves no frame without ends. -/
def C124_claim : Prop := ∀ (V : GEnv) (s s1 : GSession) (ents : List DxfEntity) (layers : List String) (fs as : Option String) (r : Option (List String))
    (f : String) (c : List ℝ), V.Sorts → V.Stable → Function.Injective V.uuid → Lived V s →
  ((GCall.getFrameEndCoors f).run V s).1 = .ok (.nums c) → importDxf V ents layers true true fs as s = (.ok (some r), s1) →
  ∃ c', ((GCall.getFrameEndCoors f).run V s1).1 = .ok (.nums c')

/-- An import that reports a failure changes no answer. -/
def C124_failure_claim : Prop := ∀ (V : GEnv) (s s1 : GSession) (ents : List DxfEntity) (layers : List String) (fs as : Option String),
  V.Sorts → Function.Injective V.uuid → Lived V s → importDxf V ents layers true true fs as s = (.ok none, s1) → SameAnswers V s s1

/-! ### the batch -/

theorem batch_ok {V : GEnv} (hV : Function.Injective V.uuid) {s s1 : GSession} {db : Db} (hL : Lived V s) (hs : Sees s db) {ls : List DxfSeg} {sec : String}
    {names : List String} (h : gAddFrameBatch V (segArgs ls) sec s = (.ok (.batch names), s1)) :
    names = ((batchFrames V db sec s.drawn ls).map fun f => f.name) ∧
    ((db.frames ++ batchFrames V db sec s.drawn ls).map fun f => f.name).Nodup ∧ s1.broken = false ∧ s1.pending = [] ∧
    s1.work = { db with
      joints := (db.joints ++ flatRows (endRows V db.unit.L s.drawn ls)).filter fun q => q.name ∉ (batchMap V db s.drawn ls).2,
      frames := db.frames ++ batchFrames V db sec s.drawn ls } := by
  have hk := (keyed_lasting.lived keyed_empty hL).sees keyed_lasting hs
  have hls : ls ≠ [] := by
    rintro rfl
    have : (Except.ok (GRet.bool false), undo s) = (.ok (.batch names), s1) := h
    cases this
  by_cases hsec : sec ∈ db.secs.map fun q => q.name
  swap
  · exfalso
    obtain ⟨l, t, rfl⟩ := List.exists_cons_of_ne_nil hls
    have hn := find_no_name (f := fun q : SecRow => q.name) hsec
    unfold gAddFrameBatch guarded at h
    rw [bind_run, show gBatchCheck (segArgs (l :: t)) s = (.ok (), s) from check_true (by simp [xyz]) s] at h
    simp only [bind_run, hs.query, hn, need_none] at h
    cases h
  rw [gAddFrameBatch_run hV hs hk.joints (fun i hi => hL.new_id hV hs hi) hsec hls] at h
  split at h
  · rename_i db' hf
    simp only [Prod.mk.injEq, Except.ok.injEq, GRet.batch.injEq] at h
    obtain ⟨h1, rfl⟩ := h
    obtain ⟨h2, h3⟩ := flush_frames _ (withJoints V db s.drawn ls) _ _ hk.frames hf
    refine ⟨h1.symm, h3, rfl, rfl, ?_⟩
    exact flush_removed _ _ _ h2
  · cases h

theorem mem_endRows {V : GEnv} {L : ℝ} {k : ℕ} {ls : List DxfSeg} {e : JointRow × JointRow} (h : e ∈ endRows V L k ls) :
    ∃ l ∈ ls, e.1.pt = inMetres L l.1 ∧ e.2.pt = inMetres L l.2 := by
  induction ls generalizing k with
  | nil => simp [endRows] at h
  | cons l t ih =>
    rcases List.mem_cons.mp h with rfl | h
    · exact ⟨l, by simp, rfl, rfl⟩
    · obtain ⟨l', h1, h2⟩ := ih h
      exact ⟨l', List.mem_cons_of_mem _ h1, h2⟩

theorem mem_flatRows {e : List (JointRow × JointRow)} {r : JointRow} : r ∈ flatRows e ↔ ∃ x ∈ e, r = x.1 ∨ r = x.2 := by
  simp [flatRows]

theorem sameOrFar_near {t : ℝ} (ht : 0 < t) {p q : JointRow} (h : SameOrFar t p.pt q.pt) (hn : jointDist2 p q < t ^ 2) : p.pt = q.pt := by
  rcases h with h | h
  · exact h
  · exfalso
    have := (dist_lt_iff ht).mp hn
    unfold JointRow.dist at this
    simp only [JointRow.pt] at h
    linarith

theorem inMetres_inj {L : ℝ} (hL : 0 < L) {p q : DxfPoint} (h : inMetres L p = inMetres L q) : p = q := by
  simp only [inMetres, Prod.mk.injEq, mul_eq_mul_right_iff, hL.ne', or_false] at h
  exact Prod.ext h.1 (Prod.ext h.2.1 h.2.2)

open Classical in
/-- the joint that stands for a point -/
noncomputable def standsFor (l : List JointRow) (L : ℝ) (p : DxfPoint) : String := ((l.find? fun q => q.pt = inMetres L p).map fun q => q.name).getD ""

open Classical in
/-- the frames made, one for each line that has a length -/
theorem newFrames_along {V : GEnv} {m : String → String} {sec : String} {L : ℝ} (hL : 0 < L) {R : JointRow → Prop} (hR : ∀ x y, R x → R y → (m x.name = m y.name ↔ x.pt = y.pt)) :
    ∀ (ls : List DxfSeg) (k i : ℕ), (∀ e ∈ endRows V L i ls, R e.1 ∧ R e.2) →
    List.Forall₂ (fun l (f : FrameRow) => ∃ e, e ∈ endRows V L i ls ∧ e.1.pt = inMetres L l.1 ∧ e.2.pt = inMetres L l.2 ∧ f.sec = sec ∧
        sortEnds (m e.1.name) (m e.2.name) = some (f.pt0, f.pt1, f.fwd))
      (ls.filter fun l => l.1 ≠ l.2) (newFrames V m sec k (rowNames (endRows V L i ls)))
  | [], k, i, _ => by simp [endRows, rowNames, newFrames]
  | l :: t, k, i, h => by
    simp only [endRows, rowNames, List.map_cons, newFrames]
    have h0 := h _ List.mem_cons_self
    have ih := fun k => newFrames_along (sec := sec) hL hR t k (i + 2) (fun e he => h e (List.mem_cons_of_mem _ he))
    have hw : ∀ (l' : DxfSeg) (f : FrameRow), (∃ e, e ∈ endRows V L (i + 2) t ∧ e.1.pt = inMetres L l'.1 ∧ e.2.pt = inMetres L l'.2 ∧ f.sec = sec ∧
        sortEnds (m e.1.name) (m e.2.name) = some (f.pt0, f.pt1, f.fwd)) → ∃ e, e ∈ endRows V L i (l :: t) ∧ e.1.pt = inMetres L l'.1 ∧ e.2.pt = inMetres L l'.2 ∧ f.sec = sec ∧
        sortEnds (m e.1.name) (m e.2.name) = some (f.pt0, f.pt1, f.fwd) := fun l' f ⟨e, h1, h2⟩ => ⟨e, List.mem_cons_of_mem _ h1, h2⟩
    have hi := hR _ _ h0.1 h0.2
    simp only at hi
    by_cases hl : l.1 = l.2
    · rw [List.filter_cons_of_neg (by simp [hl])]
      have : sortEnds (m (V.uuid i)) (m (V.uuid (i + 1))) = none := by
        rw [hi.mpr (by simp only [JointRow.pt]; rw [hl])]
        unfold sortEnds
        simp
      rw [this]
      exact (ih k).imp hw
    · rw [List.filter_cons_of_pos (by simp [hl])]
      have hne : m (V.uuid i) ≠ m (V.uuid (i + 1)) := fun e => hl (inMetres_inj hL (hi.mp e))
      obtain ⟨e, he⟩ : ∃ e, sortEnds (m (V.uuid i)) (m (V.uuid (i + 1))) = some e := by
        unfold sortEnds
        rcases string_lt_or _ _ hne with h | h
        · exact ⟨_, if_pos h⟩
        · by_cases h' : m (V.uuid i) < m (V.uuid (i + 1))
          · exact ⟨_, if_pos h'⟩
          · exact ⟨_, by rw [if_neg h', if_pos h]⟩
      rw [he]
      refine List.Forall₂.cons ⟨_, List.mem_cons_self, rfl, rfl, rfl, he⟩ ((ih (k + 1)).imp hw)

theorem forall2_map_right {α β γ : Type} {R : α → γ → Prop} {f : β → γ} {l : List α} {m : List β} : List.Forall₂ (fun a b => R a (f b)) l m → List.Forall₂ R l (m.map f)
  | .nil => .nil
  | .cons h t => .cons h (forall2_map_right t)

theorem forall2_mem {α β : Type} {R S : α → β → Prop} {l : List α} {m : List β} (h : List.Forall₂ R l m) (hS : ∀ a ∈ l, ∀ b ∈ m, R a b → S a b) : List.Forall₂ S l m := by
  induction h with
  | nil => exact .nil
  | cons h t ih => exact .cons (hS _ List.mem_cons_self _ List.mem_cons_self h) (ih fun a ha b hb => hS a (List.mem_cons_of_mem _ ha) b (List.mem_cons_of_mem _ hb))

open Classical in
/-- what the merging does to the joints of a batch when near points are equal -/
theorem batch_clean {V : GEnv} (hS : V.Sorts) (hV : Function.Injective V.uuid) {s : GSession} {db : Db} (hL : Lived V s) (hs : Sees s db) (ht : 0 < db.tol) {ls : List DxfSeg}
    (hc : ∀ p q, Spec.EndOrJoint db ls p → Spec.EndOrJoint db ls q → SameOrFar db.tol p q) {x : JointRow} (hx : x ∈ (withJoints V db s.drawn ls).joints) :
    ∃ r ∈ (withJoints V db s.drawn ls).joints, ((V.orderBy (withJoints V db s.drawn ls).joints).find? fun q => q.pt = x.pt) = some r ∧
      (batchMap V db s.drawn ls).1 x.name = r.name ∧ r.name ∉ (batchMap V db s.drawn ls).2 := by
  have hk := (keyed_lasting.lived keyed_empty hL).sees keyed_lasting hs
  have hn := withJoints_nodup hV hk.joints (fun i hi => hL.new_id hV hs hi) ls
  obtain ⟨hp, hsrt⟩ := hS (withJoints V db s.drawn ls).joints
  have he : ∀ y ∈ V.orderBy (withJoints V db s.drawn ls).joints, Spec.EndOrJoint db ls y.pt := by
    intro y hy
    rcases List.mem_append.mp (hp.mem_iff.mp hy) with hy | hy
    · exact Or.inl ⟨y, hy, rfl⟩
    · obtain ⟨e, he, hy⟩ := mem_flatRows.mp hy
      obtain ⟨l, hl, h1, h2⟩ := mem_endRows he
      rcases hy with rfl | rfl
      · exact Or.inr ⟨l, hl, Or.inl (by rw [GUnit.metres_eq]; exact h1.symm)⟩
      · exact Or.inr ⟨l, hl, Or.inr (by rw [GUnit.metres_eq]; exact h2.symm)⟩
  obtain ⟨r, h1, h2, h3⟩ := mergeMap_clean (d2 := db.tol ^ 2) (by positivity) ((hp.map _).nodup_iff.mpr hn) hsrt
    (fun a ha b hb => sameOrFar_near ht (hc _ _ (he a ha) (he b hb))) (hp.mem_iff.mpr hx)
  exact ⟨r, hp.mem_iff.mp (List.mem_of_find?_eq_some h1), h1, h2, h3⟩

theorem find_frame {l : List FrameRow} (h : (l.map fun q => q.name).Nodup) {a : FrameRow} (ha : a ∈ l) : (l.find? fun q => q.name = a.name) = some a := by
  induction l with
  | nil => simp at ha
  | cons b t ih =>
    rw [List.map_cons, List.nodup_cons] at h
    rw [List.find?_cons]
    rcases List.mem_cons.mp ha with rfl | ha
    · simp
    · have : b.name ≠ a.name := fun e => h.1 (List.mem_map.mpr ⟨a, ha, e.symm⟩)
      simp only [this, decide_false]
      exact ih h.2 ha

theorem div_inMetres {L : ℝ} (hL : 0 < L) {r : JointRow} {p : DxfPoint} (h : r.pt = inMetres L p) : [r.x / L, r.y / L, r.z / L] = xyz p := by
  simp only [JointRow.pt, inMetres, Prod.mk.injEq] at h
  rw [h.1, h.2.1, h.2.2]
  simp [xyz, hL.ne']

open Classical in
/-- `add_frame_batch`, when points that are not the same are at least the tolerance apart: one frame for each line with a length, in order,
between joints that stand exactly at the ends, one joint for each point.
Missing: points nearer than the tolerance. -/
theorem C124_batch_partial (V : GEnv) (s s1 : GSession) (db : Db) (ls : List DxfSeg) (sec : String) (names : List String) (hS : V.Sorts) (hV : Function.Injective V.uuid)
    (hL : Lived V s) (hs : Sees s db) (ht : 0 < db.tol) (hc : ∀ p q, Spec.EndOrJoint db ls p → Spec.EndOrJoint db ls q → SameOrFar db.tol p q)
    (h : (GCall.addFrameBatch (segArgs ls) sec).run V s = (.ok (.batch names), s1)) :
    ∃ J : DxfPoint → String, (∀ l ∈ ls, ∀ p, p = l.1 ∨ p = l.2 → ((GCall.getJointCoordinate (J p)).run V s1).1 = .ok (.nums (xyz p))) ∧
      List.Forall₂ (Spec.RunsAlong V s1 J) (ls.filter fun l => l.1 ≠ l.2) names := by
  have hLp := db.unit.L_pos
  have hk := (keyed_lasting.lived keyed_empty hL).sees keyed_lasting hs
  obtain ⟨hn, hfr, hbr, hpe, hw⟩ := batch_ok hV hL hs h
  have hs1 : Sees s1 s1.work := ⟨hbr, by rw [hpe]; rfl⟩
  rw [hw] at hs1
  have hnd := withJoints_nodup hV hk.joints (fun i hi => hL.new_id hV hs hi) ls
  have hcl := fun x hx => batch_clean hS hV hL hs ht hc (x := x) hx
  have hmem : ∀ e ∈ endRows V db.unit.L s.drawn ls, e.1 ∈ (withJoints V db s.drawn ls).joints ∧ e.2 ∈ (withJoints V db s.drawn ls).joints := fun e he =>
    ⟨List.mem_append_right _ (mem_flatRows.mpr ⟨e, he, Or.inl rfl⟩), List.mem_append_right _ (mem_flatRows.mpr ⟨e, he, Or.inr rfl⟩)⟩
  generalize hO : V.orderBy (withJoints V db s.drawn ls).joints = O at hcl
  have hstay : ∀ r ∈ (withJoints V db s.drawn ls).joints, r.name ∉ (batchMap V db s.drawn ls).2 →
      ((((db.joints ++ flatRows (endRows V db.unit.L s.drawn ls)).filter fun q => q.name ∉ (batchMap V db s.drawn ls).2)).find? fun q => q.name = r.name) = some r := by
    intro r hr hr'
    refine find_unique ?_ (List.mem_filter.mpr ⟨hr, by simpa using hr'⟩)
    exact (List.filter_sublist.map _).nodup hnd
  have hpt : ∀ {x r : JointRow}, (O.find? fun q => q.pt = x.pt) = some r → r.pt = x.pt := fun h => by simpa using List.find?_some h
  refine ⟨standsFor O db.unit.L, ?_, ?_⟩
  · intro l hl p hp
    obtain ⟨x, hx, hxp⟩ : ∃ x ∈ (withJoints V db s.drawn ls).joints, x.pt = inMetres db.unit.L p := by
      have : ∀ (ls : List DxfSeg) (i : ℕ), l ∈ ls → ∃ e ∈ endRows V db.unit.L i ls, e.1.pt = inMetres db.unit.L l.1 ∧ e.2.pt = inMetres db.unit.L l.2 := by
        intro ls
        induction ls with
        | nil => simp
        | cons a t ih =>
          intro i h
          rcases List.mem_cons.mp h with rfl | h
          · exact ⟨_, List.mem_cons_self, rfl, rfl⟩
          · obtain ⟨e, he, h'⟩ := ih (i + 2) h
            exact ⟨e, List.mem_cons_of_mem _ he, h'⟩
      obtain ⟨e, he, h1, h2⟩ := this ls s.drawn hl
      rcases hp with rfl | rfl
      · exact ⟨e.1, (hmem e he).1, h1⟩
      · exact ⟨e.2, (hmem e he).2, h2⟩
    obtain ⟨r, hr, hf, -, hr'⟩ := hcl x hx
    have hj : standsFor O db.unit.L p = r.name := by
      unfold standsFor
      rw [← hxp, hf]; rfl
    show (gGetJointCoordinate _ s1).1 = _
    rw [hj, gGetJointCoordinate_run hs1]
    simp only [hstay r hr hr']
    rw [div_inMetres hLp ((hpt hf).trans hxp)]
  · have key := newFrames_along (V := V) (m := (batchMap V db s.drawn ls).1) (sec := sec) hLp (R := fun x => x ∈ (withJoints V db s.drawn ls).joints) (by
      intro x y hx hy
      obtain ⟨r, hr, hf, e1, -⟩ := hcl x hx
      obtain ⟨r', hr', hf', e2, -⟩ := hcl y hy
      rw [e1, e2]
      constructor
      · intro e
        have : r = r' := by
          have h1 := find_unique hnd hr
          have h2 := find_unique hnd hr'
          rw [e] at h1
          exact Option.some.inj (h1.symm.trans h2)
        rw [← hpt hf, ← hpt hf', this]
      · intro e
        rw [e, hf'] at hf
        rw [Option.some.inj hf]) ls (s.drawn + 2 * ls.length) s.drawn (fun e he => hmem e he)
    rw [hn]
    refine forall2_map_right (forall2_mem key ?_)
    rintro l hl f hf ⟨e, he, h1, h2, -, h3⟩
    obtain ⟨ra, hra, fa, ea, na⟩ := hcl e.1 (hmem e he).1
    obtain ⟨rb, hrb, fb, eb, nb⟩ := hcl e.2 (hmem e he).2
    have ja : standsFor O db.unit.L l.1 = ra.name := by unfold standsFor; rw [← h1, fa]; rfl
    have jb : standsFor O db.unit.L l.2 = rb.name := by unfold standsFor; rw [← h2, fb]; rfl
    have hfind : ((db.frames ++ batchFrames V db sec s.drawn ls).find? fun q => q.name = f.name) = some f := find_frame hfr (List.mem_append_right _ hf)
    rw [ea, eb] at h3
    unfold Spec.RunsAlong
    rw [ja, jb]
    rcases sortEnds_cases h3 with ⟨h4, h5, -⟩ | ⟨h4, h5, -⟩
    · left
      have : frameEnds s1.work f.name = some (ra, rb) := by
        unfold frameEnds
        rw [hw]
        simp only [hfind]
        simp only at h4 h5
        rw [h4, h5, hstay ra hra na, hstay rb hrb nb]
      rw [hw] at this
      refine ⟨?_, ?_⟩
      · show (gGetFrameEndNames _ s1).1 = _
        rw [gGetFrameEndNames_run hs1, this]
      · show (gGetFrameEndCoors _ s1).1 = _
        rw [gGetFrameEndCoors_run hs1, this]
        simp only
        rw [← div_inMetres hLp ((hpt fa).trans h1), ← div_inMetres hLp ((hpt fb).trans h2)]
        rfl
    · right
      have : frameEnds s1.work f.name = some (rb, ra) := by
        unfold frameEnds
        rw [hw]
        simp only [hfind]
        simp only at h4 h5
        rw [h4, h5, hstay ra hra na, hstay rb hrb nb]
      rw [hw] at this
      refine ⟨?_, ?_⟩
      · show (gGetFrameEndNames _ s1).1 = _
        rw [gGetFrameEndNames_run hs1, this]
      · show (gGetFrameEndCoors _ s1).1 = _
        rw [gGetFrameEndCoors_run hs1, this]
        simp only
        rw [← div_inMetres hLp ((hpt fa).trans h1), ← div_inMetres hLp ((hpt fb).trans h2)]
        rfl

/-! ### frames that were there -/

open Classical in
theorem stable_find {V : GEnv} (hS : V.Stable) (l : List JointRow) (p : DxfPoint) : ((V.orderBy l).find? fun q => q.pt = p) = l.find? fun q => q.pt = p := by
  rw [← List.head?_filter, ← List.head?_filter, hS l p]

open Classical in
/-- `add_frame_batch` leaves the frames that were there on their joints and the joints where they were, when no two joints are at the same
place, points that are not the same are at least the tolerance apart, and the database returns rows that are equal in the order
in the order in which they were stored.
Missing: points nearer than the tolerance (see C124_false). -/
theorem C124_old_frames_partial (V : GEnv) (s s1 : GSession) (db : Db) (ls : List DxfSeg) (sec : String) (names : List String) (hS : V.Sorts) (hSt : V.Stable)
    (hV : Function.Injective V.uuid) (hL : Lived V s) (hs : Sees s db) (ht : 0 < db.tol)
    (hc : ∀ p q, Spec.EndOrJoint db ls p → Spec.EndOrJoint db ls q → SameOrFar db.tol p q)
    (hd : ∀ p ∈ db.joints, ∀ q ∈ db.joints, p.pt = q.pt → p.name = q.name)
    (h : (GCall.addFrameBatch (segArgs ls) sec).run V s = (.ok (.batch names), s1)) (f a b : String)
    (hf : ((GCall.getFrameEndNames f).run V s).1 = .ok (.two a b)) :
    ((GCall.getFrameEndNames f).run V s1).1 = .ok (.two a b) ∧ ((GCall.getFrameEndCoors f).run V s1).1 = ((GCall.getFrameEndCoors f).run V s).1 := by
  have hk := (keyed_lasting.lived keyed_empty hL).sees keyed_lasting hs
  obtain ⟨-, hfr, hbr, hpe, hw⟩ := batch_ok hV hL hs h
  have hs1 : Sees s1 s1.work := ⟨hbr, by rw [hpe]; rfl⟩
  rw [hw] at hs1
  have hnd := withJoints_nodup hV hk.joints (fun i hi => hL.new_id hV hs hi) ls
  have hkeep : ∀ x ∈ db.joints, ((((db.joints ++ flatRows (endRows V db.unit.L s.drawn ls)).filter fun q => q.name ∉ (batchMap V db s.drawn ls).2)).find?
      fun q => q.name = x.name) = some x := by
    intro x hx
    have hx' : x ∈ (withJoints V db s.drawn ls).joints := List.mem_append_left _ hx
    obtain ⟨r, hr, hfi, -, hr'⟩ := batch_clean hS hV hL hs ht hc hx'
    have hrx : r.name = x.name := by
      rw [stable_find hSt] at hfi
      unfold withJoints at hfi
      simp only [List.find?_append] at hfi
      rcases e : db.joints.find? fun q => q.pt = x.pt with _ | y
      · rw [List.find?_eq_none] at e
        exact absurd (by simp) (e x hx)
      · rw [e] at hfi
        simp only [Option.some_or, Option.some.injEq] at hfi
        subst hfi
        exact hd y (List.mem_of_find?_eq_some e) x hx (by simpa using List.find?_some e)
    refine find_unique ((List.filter_sublist.map _).nodup hnd) (List.mem_filter.mpr ⟨hx', ?_⟩)
    rw [← hrx]
    simpa using hr'
  have hsome : ∃ x y, frameEnds db f = some (x, y) ∧ x.name = a ∧ y.name = b := by
    have hf : (gGetFrameEndNames f s).1 = _ := hf
    rw [gGetFrameEndNames_run hs] at hf
    rcases e : frameEnds db f with _ | ⟨x, y⟩ <;> rw [e] at hf
    · simp at hf
    · simp only [Except.ok.injEq, GRet.two.injEq] at hf
      exact ⟨x, y, rfl, hf⟩
  obtain ⟨x, y, he, ha, hb⟩ := hsome
  have he1 : frameEnds s1.work f = some (x, y) := by
    have he' := he
    unfold frameEnds at he' ⊢
    rw [hw]
    simp only [List.find?_append]
    rcases e : db.frames.find? fun q => q.name = f with _ | q <;> rw [e] at he'
    · simp at he'
    · rw [e]
      simp only [Option.some_or] at he' ⊢
      rcases e0 : db.joints.find? fun p => p.name = q.pt0 with _ | x' <;> rw [e0] at he'
      · simp at he'
      rcases e1 : db.joints.find? fun p => p.name = q.pt1 with _ | y' <;> rw [e1] at he'
      · simp at he'
      simp only [Option.some.injEq, Prod.mk.injEq] at he'
      obtain ⟨rfl, rfl⟩ := he'
      have n0 : x'.name = q.pt0 := by simpa using List.find?_some e0
      have n1 : y'.name = q.pt1 := by simpa using List.find?_some e1
      rw [← n0, ← n1, hkeep x' (List.mem_of_find?_eq_some e0), hkeep y' (List.mem_of_find?_eq_some e1)]
  rw [hw] at he1
  constructor
  · show (gGetFrameEndNames f s1).1 = _
    rw [gGetFrameEndNames_run hs1, he1, ← ha, ← hb]
  · show (gGetFrameEndCoors f s1).1 = (gGetFrameEndCoors f s).1
    rw [gGetFrameEndCoors_run hs1, gGetFrameEndCoors_run hs, he, he1]

/-! ### import -/

open Classical in
theorem dxfFramePts_eq (ents : List DxfEntity) (layers : List String) : dxfFramePts ents layers true = segArgs (Spec.drawnLines ents layers) := by
  unfold dxfFramePts Spec.drawnLines segArgs
  induction ents with
  | nil => rfl
  | cons e t ih =>
    by_cases hc : dxfChosen layers e = true
    · rw [List.filter_cons_of_pos hc]
      have hc' : layers = [] ∨ e.layer ∈ layers := by simpa [dxfChosen] using hc
      cases e with
      | line l p q =>
        have hc'' : layers = [] ∨ l ∈ layers := hc'
        simp only [List.filterMap_cons, if_true, if_pos hc'', List.map_cons]
        simp only [if_true] at ih
        rw [ih]; rfl
      | face l a b c d => simpa only [List.filterMap_cons] using ih
      | other l => simpa only [List.filterMap_cons] using ih
    · rw [List.filter_cons_of_neg hc]
      have hc' : ¬ (layers = [] ∨ e.layer ∈ layers) := by simpa [dxfChosen] using hc
      cases e with
      | line l p q =>
        have hc'' : ¬ (layers = [] ∨ l ∈ layers) := hc'
        simp only [List.filterMap_cons, if_neg hc'']
        exact ih
      | face l a b c d => simpa only [List.filterMap_cons] using ih
      | other l => simpa only [List.filterMap_cons] using ih

theorem dxfDefault_ok {V : GEnv} {g : GM GRet} {c : GCall} (hg : c.run V = g) (hq : ∀ {s : GSession} {db : Db}, Sees s db → (g s).2 = s.flushed db)
    {o : Option String} {s t : GSession} {db : Db} {x : String} (hL : Lived V s) (hs : Sees s db) (h : dxfDefault g o s = (.ok x, t)) :
    Lived V t ∧ Sees t db ∧ t.drawn = s.drawn := by
  rcases o with _ | v
  · unfold dxfDefault at h
    obtain ⟨r, t', h1, h2⟩ := bind_ok h
    have ht' : t' = s.flushed db := by rw [← hq hs, h1]
    have ht : t = t' := by
      rcases r with _ | _ | _ | l | _ | _ | _ | _ <;> try (cases h2; done)
      rcases l with _ | ⟨n, l⟩
      · cases h2
      · cases h2; rfl
    rw [ht]
    refine ⟨?_, by rw [ht']; exact hs.flushed, by rw [ht']; rfl⟩
    have := hL.call c
    rw [hg, h1] at this
    exact this
  · cases h
    exact ⟨hL, hs, rfl⟩

theorem frameSecs_state {s : GSession} {db : Db} (h : Sees s db) : (gGetFrameSectionNames s).2 = s.flushed db := by
  simp only [gGetFrameSectionNames, guarded, bind_run, h.query, pure_run]

theorem areaSecs_state {s : GSession} {db : Db} (h : Sees s db) : (gGetAreaSectionNames s).2 = s.flushed db := by
  simp only [gGetAreaSectionNames, guarded, bind_run, h.query, pure_run]

/-- a successful import is a batch -/
theorem importDxf_ok {V : GEnv} {s s1 : GSession} {db : Db} {ents : List DxfEntity} {layers : List String} {a : Bool} {fs as : Option String} {r : Option (List String)}
    (hL : Lived V s) (hs : Sees s db) (h : importDxf V ents layers true a fs as s = (.ok (some r), s1)) :
    ∃ t sec, Lived V t ∧ Sees t db ∧ t.drawn = s.drawn ∧
      ((Spec.drawnLines ents layers = [] ∧ r = none ∧ s1 = t) ∨ Spec.drawnLines ents layers ≠ [] ∧ ∃ names, r = some names ∧
        gAddFrameBatch V (segArgs (Spec.drawnLines ents layers)) sec t = (.ok (.batch names), s1)) := by
  unfold importDxf at h
  simp only at h
  split at h
  swap
  · cases h
  rename_i r' t hb
  cases h
  obtain ⟨sec, t1, h1, hb⟩ := bind_ok hb
  obtain ⟨asec, t2, h2, hb⟩ := bind_ok hb
  obtain ⟨L1, S1, D1⟩ := dxfDefault_ok (c := .getFrameSectionNames) rfl frameSecs_state hL hs h1
  obtain ⟨L2, S2, D2⟩ := dxfDefault_ok (c := .getAreaSectionNames) rfl areaSecs_state L1 S1 h2
  obtain ⟨fr, t3, h3, hb⟩ := bind_ok hb
  obtain ⟨u, t4, h4, hb⟩ := bind_ok hb
  have h5 : t4 = t3 := by
    split_ifs at h4
    · obtain ⟨x, t5, h6, -⟩ := bind_ok h4
      exfalso
      unfold dxfUnpack at h6
      obtain ⟨y, t7, h7, h8⟩ := bind_ok h6
      have hy : ∃ z, gAddAreaBatch (dxfAreaPts ents layers a) asec t3 = (.ok (.bool false), z) := by
        unfold gAddAreaBatch guarded
        split
        · rename_i a' s' he
          exfalso
          obtain ⟨_, _, _, he⟩ := bind_ok he
          obtain ⟨_, _, _, he⟩ := bind_ok he
          obtain ⟨_, _, _, he⟩ := bind_ok he
          cases he
        · exact ⟨_, rfl⟩
      obtain ⟨z, hz⟩ := hy
      rw [hz] at h7
      cases h7
      cases h8
    · cases h4; rfl
  cases hb
  subst h5
  refine ⟨t2, sec, L2, S2, D2.trans D1, ?_⟩
  rw [dxfFramePts_eq] at h3
  by_cases hn : Spec.drawnLines ents layers = []
  · left
    rw [hn] at h3
    simp only [segArgs, List.map_nil, List.length_nil, ne_eq, not_true_eq_false, if_false] at h3
    cases h3
    exact ⟨hn, rfl, rfl⟩
  · right
    rw [if_pos (by simpa [segArgs] using hn)] at h3
    obtain ⟨l, t6, h6, h7⟩ := bind_ok h3
    cases h7
    unfold dxfUnpack at h6
    obtain ⟨y, t7, h8, h9⟩ := bind_ok h6
    refine ⟨hn, l, rfl, ?_⟩
    rcases y with _ | _ | _ | _ | _ | _ | _ | l' <;> try (cases h9; done)
    cases h9
    exact h8

open Classical in
/-- Import of a drawing: one frame for each line of the chosen layers with a length, in order, between joints that stand exactly at its ends,
one joint for each point, when points that are not the same are at least the tolerance apart.
Missing: points nearer than the tolerance; faces (every import of a face fails). -/
theorem C124_import_partial (V : GEnv) (s s1 : GSession) (db : Db) (ents : List DxfEntity) (layers : List String) (a : Bool) (fs as : Option String) (r : Option (List String))
    (hS : V.Sorts) (hV : Function.Injective V.uuid) (hL : Lived V s) (hs : Sees s db) (ht : 0 < db.tol)
    (hc : ∀ p q, Spec.EndOrJoint db (Spec.drawnLines ents layers) p → Spec.EndOrJoint db (Spec.drawnLines ents layers) q → SameOrFar db.tol p q)
    (h : importDxf V ents layers true a fs as s = (.ok (some r), s1)) :
    ∃ J : DxfPoint → String, (∀ l ∈ Spec.drawnLines ents layers, ∀ p, p = l.1 ∨ p = l.2 → ((GCall.getJointCoordinate (J p)).run V s1).1 = .ok (.nums (xyz p))) ∧
      List.Forall₂ (Spec.RunsAlong V s1 J) ((Spec.drawnLines ents layers).filter fun l => l.1 ≠ l.2) (r.getD []) := by
  obtain ⟨t, sec, Lt, St, -, hb⟩ := importDxf_ok hL hs h
  rcases hb with ⟨hn, rfl, rfl⟩ | ⟨-, names, rfl, hb⟩
  · rw [hn]
    exact ⟨fun _ => "", by simp, .nil⟩
  · exact C124_batch_partial V t s1 db _ sec names hS hV Lt St ht hc hb

/-! ### export -/

/-- the line of a frame -/
noncomputable def endLine (L : ℝ) (e : JointRow × JointRow) : DxfSeg := ((e.1.x / L, e.1.y / L, e.1.z / L), (e.2.x / L, e.2.y / L, e.2.z / L))

theorem dxfLines_run {db : Db} : ∀ (l : List String) (s : GSession), Sees s db → (∀ n ∈ l, (frameEnds db n).isSome = true) →
    ∃ t out, dxfLines l s = (.ok out, t) ∧ List.Forall₂ (fun n o => ∃ e, frameEnds db n = some e ∧ o = endLine db.unit.L e) l out
  | [], s, _, _ => ⟨s, [], rfl, .nil⟩
  | n :: l, s, hs, h => by
    obtain ⟨e, he⟩ := Option.isSome_iff_exists.mp (h n List.mem_cons_self)
    obtain ⟨t, out, h1, h2⟩ := dxfLines_run l (s.flushed db) hs.flushed (fun n hn => h n (List.mem_cons_of_mem _ hn))
    refine ⟨t, endLine db.unit.L e :: out, ?_, .cons ⟨e, he, rfl⟩ h2⟩
    unfold dxfLines
    rw [bind_run, gGetFrameEndCoors_run hs, he]
    simp only [dxfLine, bind_run, pure_run, h1]
    rfl

theorem exportDxf_run {s : GSession} {db : Db} (hs : Sees s db) (h : ∀ q ∈ db.frames, (frameEnds db q.name).isSome = true) :
    ∃ t out, exportDxf s = (.ok (some out), t) ∧
      List.Forall₂ (fun n o => ∃ e, frameEnds db n = some e ∧ o = endLine db.unit.L e) (db.frames.map fun q => q.name) out := by
  obtain ⟨t, out, h1, h2⟩ := dxfLines_run (db.frames.map fun q => q.name) (s.flushed db) hs.flushed (by
    intro n hn
    obtain ⟨q, hq, rfl⟩ := List.mem_map.mp hn
    exact h q hq)
  refine ⟨t, out, ?_, h2⟩
  unfold exportDxf
  simp only [bind_run, gGetFrameNames, guarded, hs.query, pure_run, h1]

/-- Export writes one line for each frame, in the order of the list of frames, between its ends; it fails when a frame has no ends. -/
theorem C124_export (V : GEnv) (s t : GSession) (db : Db) (out : List DxfSeg) (hs : Sees s db) (h : exportDxf s = (.ok (some out), t)) :
    ∃ l, (GCall.getFrameNames.run V s).1 = .ok (.names l) ∧
      List.Forall₂ (fun n o => ((GCall.getFrameEndCoors n).run V s).1 = .ok (.nums (xyz o.1 ++ xyz o.2))) l out := by
  by_cases hall : ∀ q ∈ db.frames, (frameEnds db q.name).isSome = true
  · obtain ⟨t', out', h1, h2⟩ := exportDxf_run hs hall
    rw [h1] at h
    cases h
    refine ⟨db.frames.map fun q => q.name, GKind.list_run hs .frame, forall2_mem h2 ?_⟩
    rintro n - o - ⟨e, he, rfl⟩
    show (gGetFrameEndCoors n s).1 = _
    rw [gGetFrameEndCoors_run hs, he]
    rfl
  · exfalso
    push Not at hall
    obtain ⟨q, hq, hn⟩ := hall
    have key : ∀ (l : List String) (s : GSession), Sees s db → q.name ∈ l → ∃ e t, dxfLines l s = (.error e, t) := by
      intro l
      induction l with
      | nil => simp
      | cons n l ih =>
        intro s hs hm
        unfold dxfLines
        rw [bind_run, gGetFrameEndCoors_run hs]
        rcases e : frameEnds db n with _ | e'
        · exact ⟨_, _, rfl⟩
        · have hm : q.name ∈ l := by
            rcases List.mem_cons.mp hm with rfl | hm
            · rw [e] at hn; simp at hn
            · exact hm
          obtain ⟨e2, t2, h2⟩ := ih (s.flushed db) hs.flushed hm
          simp only [dxfLine, bind_run, pure_run, h2]
          exact ⟨_, _, rfl⟩
    obtain ⟨e, t2, h2⟩ := key (db.frames.map fun q => q.name) (s.flushed db) hs.flushed (List.mem_map.mpr ⟨q, hq, rfl⟩)
    unfold exportDxf at h
    simp only [bind_run, gGetFrameNames, guarded, hs.query, pure_run, h2] at h
    cases h

/-! ### there and back -/

theorem flush_frames_run : ∀ (F : List FrameRow) (db : Db) (ps : List Pend), ((db.frames ++ F).map fun q => q.name).Nodup →
    flushAll db (F.map .frame ++ ps) = flushAll { db with frames := db.frames ++ F } ps
  | [], db, ps, _ => by simp
  | f :: F, db, ps, h => by
    have hf : f.name ∉ db.frames.map fun q => q.name := by
      rw [List.map_append, List.nodup_append] at h
      exact fun hm => h.2.2 _ hm f.name (by simp) rfl
    rw [List.map_cons, List.cons_append, flushAll, flush_frame hf, Option.bind_some, flush_frames_run F]
    · simp
    · simpa using h

theorem flush_delJoints : ∀ (ns : List String) (d : Db), d.restrs = [] → d.jloads = [] → ∃ d', flushAll d (ns.map .delJoint) = some d'
  | [], d, _, _ => ⟨d, rfl⟩
  | n :: ns, d, h1, h2 => by
    obtain ⟨d', e⟩ := flush_delJoints ns { d with joints := d.joints.filter fun q => q.name ≠ n } h1 h2
    refine ⟨d', ?_⟩
    simp only [List.map_cons, flushAll, Pend.flush]
    rw [if_neg (by simp [h1, h2])]
    exact e

theorem newFrames_names {V : GEnv} (hV : Function.Injective V.uuid) (m : String → String) (sec : String) : ∀ (ends : List (String × String)) (k : ℕ),
    (∀ f ∈ newFrames V m sec k ends, ∃ i, k ≤ i ∧ f.name = V.uuid i) ∧ ((newFrames V m sec k ends).map fun f => f.name).Nodup
  | [], k => by simp [newFrames]
  | (a, b) :: t, k => by
    unfold newFrames
    rcases sortEnds (m a) (m b) with _ | e
    · exact newFrames_names hV m sec t k
    · obtain ⟨h1, h2⟩ := newFrames_names hV m sec t (k + 1)
      refine ⟨?_, ?_⟩
      · intro f hf
        rcases List.mem_cons.mp hf with rfl | hf
        · exact ⟨k, le_rfl, rfl⟩
        · obtain ⟨i, hi, e⟩ := h1 f hf
          exact ⟨i, by omega, e⟩
      · rw [List.map_cons, List.nodup_cons]
        refine ⟨?_, h2⟩
        intro hm
        obtain ⟨f, hf, e⟩ := List.mem_map.mp hm
        obtain ⟨i, hi, e'⟩ := h1 f hf
        have := hV (e'.symm.trans e)
        omega

/-- in a model without frames, restraints and loads on joints a batch succeeds -/
theorem batch_succeeds {V : GEnv} (hV : Function.Injective V.uuid) {s : GSession} {db : Db} (hL : Lived V s) (hs : Sees s db) (hf : db.frames = []) (hr : db.restrs = [])
    (hj : db.jloads = []) {sec : String} (hsec : sec ∈ db.secs.map fun q => q.name) {ls : List DxfSeg} (hls : ls ≠ []) :
    ∃ names s1, gAddFrameBatch V (segArgs ls) sec s = (.ok (.batch names), s1) := by
  have hk := (keyed_lasting.lived keyed_empty hL).sees keyed_lasting hs
  rw [gAddFrameBatch_run hV hs hk.joints (fun i hi => hL.new_id hV hs hi) hsec hls, flush_frames_run]
  · obtain ⟨d', hd⟩ := flush_delJoints (batchMap V db s.drawn ls).2 { withJoints V db s.drawn ls with frames := (withJoints V db s.drawn ls).frames ++ batchFrames V db sec s.drawn ls } hr hj
    rw [hd]
    exact ⟨_, _, rfl⟩
  · show ((db.frames ++ _).map _).Nodup
    rw [hf]
    exact (newFrames_names hV _ _ _ _).2

theorem dxfDefault_run {g : GM GRet} {s : GSession} {db : Db} {n : String} {l : List String} (h : g s = (.ok (.names (n :: l)), s.flushed db)) :
    dxfDefault g none s = (.ok n, s.flushed db) := by
  simp only [dxfDefault, bind_run, h, pure_run]

open Classical in
theorem dxfAreaPts_nil {ents : List DxfEntity} (h : ∀ l a b c d, DxfEntity.face l a b c d ∉ ents) (layers : List String) (a : Bool) : dxfAreaPts ents layers a = [] := by
  unfold dxfAreaPts
  rw [List.filterMap_eq_nil_iff]
  intro e he
  cases e with
  | line l p q => rfl
  | face l a b c d => exact absurd (List.mem_filter.mp he).1 (h l a b c d)
  | other l => rfl

theorem importDxf_succeeds {V : GEnv} (hV : Function.Injective V.uuid) {s : GSession} {db : Db} (hL : Lived V s) (hs : Sees s db) (hf : db.frames = []) (hr : db.restrs = [])
    (hj : db.jloads = []) (hsec : db.secs ≠ []) (hasec : db.asecs ≠ []) {ents : List DxfEntity} (hno : ∀ l a b c d, DxfEntity.face l a b c d ∉ ents) (layers : List String) (a : Bool) :
    ∃ r s1, importDxf V ents layers true a none none s = (.ok (some r), s1) := by
  obtain ⟨x, xs, hx⟩ := List.exists_cons_of_ne_nil hsec
  obtain ⟨y, ys, hy⟩ := List.exists_cons_of_ne_nil hasec
  have h1 : dxfDefault gGetFrameSectionNames none s = (.ok x.name, s.flushed db) := dxfDefault_run (l := xs.map fun q => q.name) (by
    simp only [gGetFrameSectionNames, guarded, bind_run, hs.query, pure_run, hx, List.map_cons])
  have h2 : dxfDefault gGetAreaSectionNames none (s.flushed db) = (.ok y.name, s.flushed db) := dxfDefault_run (l := ys.map fun q => q.name) (db := db) (by
    simp only [gGetAreaSectionNames, guarded, bind_run, hs.query_flushed, pure_run, hy, List.map_cons]
    rfl)
  have hL' : Lived V (s.flushed db) := by
    have := hL.call .getFrameSectionNames
    rwa [show ((GCall.getFrameSectionNames).run V s).2 = s.flushed db from frameSecs_state hs] at this
  unfold importDxf
  simp only [bind_run, h1, h2, dxfAreaPts_nil hno, dxfFramePts_eq]
  by_cases hn : Spec.drawnLines ents layers = []
  · rw [if_neg (by simp [segArgs, hn])]
    exact ⟨_, _, rfl⟩
  · rw [if_pos (by simpa [segArgs] using hn)]
    obtain ⟨names, s1, h⟩ := batch_succeeds hV hL' hs.flushed hf hr hj (sec := x.name) (by rw [hx]; simp) hn
    simp only [bind_run, dxfUnpack, h, pure_run]
    exact ⟨_, _, rfl⟩

open Classical in
/-- Import of a drawing of lines into a model without joints and frames, then export: the lines of the chosen layers that have a length, in
order, with exactly the same ends, perhaps drawn the other way.  In particular what is exported from one model is exported again from a
new model that imported it.
Missing: points nearer than the tolerance; the direction of the lines. -/
theorem C124_there_and_back_partial (V : GEnv) (s : GSession) (db : Db) (ents : List DxfEntity) (layers : List String) (a : Bool) (hS : V.Sorts) (hV : Function.Injective V.uuid)
    (hL : Lived V s) (hs : Sees s db) (ht : 0 < db.tol) (hj : db.joints = []) (hf : db.frames = []) (hr : db.restrs = []) (hl : db.jloads = [])
    (hsec : db.secs ≠ []) (hasec : db.asecs ≠ []) (hno : ∀ l a b c d, DxfEntity.face l a b c d ∉ ents)
    (hc : ∀ p q, Spec.EndOrJoint db (Spec.drawnLines ents layers) p → Spec.EndOrJoint db (Spec.drawnLines ents layers) q → SameOrFar db.tol p q) :
    ∃ r s1 out s2, importDxf V ents layers true a none none s = (.ok (some r), s1) ∧ exportDxf s1 = (.ok (some out), s2) ∧
      List.Forall₂ Spec.SameLine ((Spec.drawnLines ents layers).filter fun l => l.1 ≠ l.2) out := by
  obtain ⟨r, s1, hi⟩ := importDxf_succeeds hV hL hs hf hr hl hsec hasec hno layers a
  obtain ⟨J, -, hJ⟩ := C124_import_partial V s s1 db ents layers a none none r hS hV hL hs ht hc hi
  obtain ⟨t, sec, Lt, St, -, hb⟩ := importDxf_ok hL hs hi
  obtain ⟨db1, hs1, hn1⟩ : ∃ db1, Sees s1 db1 ∧ (db1.frames.map fun q => q.name) = r.getD [] := by
    rcases hb with ⟨hn, rfl, rfl⟩ | ⟨-, names, rfl, hb⟩
    · exact ⟨db, St, by rw [hf]; rfl⟩
    · obtain ⟨h1, -, h3, h4, h5⟩ := batch_ok hV Lt St hb
      refine ⟨s1.work, ⟨h3, by rw [h4]; rfl⟩, ?_⟩
      rw [h5]
      simp only [hf, List.nil_append, Option.getD_some]
      exact h1.symm
  have hends : ∀ (l : DxfSeg) (n : String), Spec.RunsAlong V s1 J l n → ∃ e, frameEnds db1 n = some e ∧ Spec.SameLine l (endLine db1.unit.L e) := by
    intro l n h
    have hc : ((gGetFrameEndCoors n s1).1 = .ok (.nums (xyz l.1 ++ xyz l.2))) ∨ (gGetFrameEndCoors n s1).1 = .ok (.nums (xyz l.2 ++ xyz l.1)) := by
      rcases h with h | h
      · exact Or.inl h.2
      · exact Or.inr h.2
    rw [gGetFrameEndCoors_run hs1] at hc
    rcases e : frameEnds db1 n with _ | e' <;> rw [e] at hc
    · simp at hc
    · refine ⟨e', rfl, ?_⟩
      unfold Spec.SameLine endLine
      obtain ⟨⟨a1, a2, a3⟩, b1, b2, b3⟩ := l
      simpa [xyz, and_assoc] using hc
  have hsome : ∀ q ∈ db1.frames, (frameEnds db1 q.name).isSome = true := by
    intro q hq
    have : q.name ∈ r.getD [] := by rw [← hn1]; exact List.mem_map.mpr ⟨q, hq, rfl⟩
    obtain ⟨l, -, h⟩ : ∃ l, True ∧ Spec.RunsAlong V s1 J l q.name := by
      clear hn1 hi hb hc
      generalize r.getD [] = N at hJ this
      generalize ((Spec.drawnLines ents layers).filter fun l => l.1 ≠ l.2) = A at hJ
      induction hJ with
      | nil => simp at this
      | cons h _ ih =>
        rcases List.mem_cons.mp this with e | h'
        · exact ⟨_, trivial, e ▸ h⟩
        · exact ih h'
    obtain ⟨e, he, -⟩ := hends l _ h
    rw [he]; rfl
  obtain ⟨s2, out, he, ho⟩ := exportDxf_run hs1 hsome
  refine ⟨r, s1, out, s2, hi, he, ?_⟩
  rw [hn1] at ho
  have comp : ∀ {A : List DxfSeg} {N : List String} {O : List DxfSeg}, List.Forall₂ (Spec.RunsAlong V s1 J) A N →
      List.Forall₂ (fun n o => ∃ e, frameEnds db1 n = some e ∧ o = endLine db1.unit.L e) N O → List.Forall₂ Spec.SameLine A O := by
    intro A N O h1
    induction h1 generalizing O with
    | nil => intro h2; cases h2; exact .nil
    | cons h _ ih =>
      intro h2
      cases h2 with
      | cons h' t' =>
        obtain ⟨e, he, rfl⟩ := h'
        obtain ⟨e', he', hl⟩ := hends _ _ h
        rw [he] at he'
        cases he'
        exact .cons hl (ih t')
  exact comp hJ ho

/-! ### what goes wrong -/

theorem orderBy_eq {V : GEnv} (hS : V.Sorts) {l l' : List JointRow} (hp : l'.Perm l) (hs : l'.Pairwise fun p q => p.before q ∧ ¬ q.before p) : V.orderBy l = l' := by
  have h := hS l
  refine List.Perm.eq_of_pairwise (le := JointRow.before) ?_ h.2 (hs.imp fun h => h.1) (h.1.trans hp.symm)
  intro p q hp' hq h1 h2
  have hp' : p ∈ l' := (h.1.trans hp.symm).mem_iff.mp hp'
  haveI : Std.Symm fun p q : JointRow => p.before q → q.before p → p = q := ⟨fun a b h x y => (h y x).symm⟩
  have key := List.Pairwise.forall_of_forall (R := fun p q : JointRow => p.before q → q.before p → p = q) (l := l')
    (fun _ _ _ _ => rfl) (hs.imp fun h _ h' => absurd h' h.2)
  exact key hp' hq h1 h2

open Classical in
theorem demoEnv_stable : demoEnv.Stable := by
  intro l p
  have key : ∀ (a : JointRow) (l : List JointRow), ((l.orderedInsert JointRow.before a).filter fun q => q.pt = p) = (a :: l).filter fun q => q.pt = p := by
    intro a l
    induction l with
    | nil => rfl
    | cons b t ih =>
      rw [List.orderedInsert_cons]
      split_ifs with h
      · rfl
      · have hne : ¬ (a.pt = p ∧ b.pt = p) := by
          rintro ⟨h1, h2⟩
          apply h
          have h3 : a.before a := Or.inr ⟨rfl, Or.inr ⟨rfl, le_rfl⟩⟩
          exact before_congr (h1.trans h2.symm) h3
        by_cases h1 : a.pt = p
        · have h2 : b.pt ≠ p := fun e => hne ⟨h1, e⟩
          rw [List.filter_cons_of_neg (by simpa using h2), ih]
          simp [List.filter_cons, h1, h2]
        · by_cases h2 : b.pt = p
          · rw [List.filter_cons_of_pos (by simpa using h2), ih]
            simp [List.filter_cons, h1, h2]
          · rw [List.filter_cons_of_neg (by simpa using h2), ih]
            simp [List.filter_cons, h1, h2]
  show ((l.insertionSort JointRow.before).filter _) = _
  induction l with
  | nil => rfl
  | cons a t ih =>
    rw [List.insertionSort_cons, key, List.filter_cons, List.filter_cons, ih]

/-- a model with a frame "2" from (0, 0, 0) to (1, 0, 0) -/
theorem drawn_witness : ∃ d s, Stock d ["Q345", "C35"] ["Q345", "C35"] ["1-L-H400x200x14x20"] ["A-M120"] ["S"] ∧ Lived demoEnv (GSession.fresh d 0) ∧
    gAddFrameBatch demoEnv (segArgs [((0, 0, 0), (1, 0, 0))]) "1-L-H400x200x14x20" (GSession.fresh d 0) = (.ok (.batch ["2"]), s) ∧ s.committed = s.work ∧ Lived demoEnv s ∧ s.drawn = 3 ∧
    Sees s { d with joints := [⟨"0", 0, 0, 0⟩, ⟨"1", 1, 0, 0⟩], frames := [⟨"2", "1-L-H400x200x14x20", "0", "1", true⟩] } := by
  obtain ⟨d, hL, st⟩ := lived_new demoEnv
  have e0 : demoEnv.uuid 0 = "0" := by show toString (0 : ℕ) = "0"; decide
  have e1 : demoEnv.uuid 1 = "1" := by show toString (1 : ℕ) = "1"; decide
  have e2 : demoEnv.uuid 2 = "2" := by show toString (2 : ℕ) = "2"; decide
  have hs := sees_fresh d 0
  have hLu : d.unit.L = 1 := by rw [st.unit]; rfl
  obtain ⟨names, s1, h⟩ := batch_succeeds demoEnv_inj hL hs st.frames st.restrs st.jloads (sec := "1-L-H400x200x14x20") (by rw [st.secs]; simp)
    (ls := [((0, 0, 0), (1, 0, 0))]) (by simp)
  have hrun := h
  have hk := (keyed_lasting.lived keyed_empty hL).sees keyed_lasting hs
  rw [gAddFrameBatch_run demoEnv_inj hs hk.joints (fun i hi => hL.new_id demoEnv_inj hs hi) (by rw [st.secs]; simp) (by simp)] at hrun
  have hj : (withJoints demoEnv d 0 [((0, 0, 0), (1, 0, 0))]).joints = [⟨"0", 0, 0, 0⟩, ⟨"1", 1, 0, 0⟩] := by
    simp [withJoints, endRows, flatRows, st.joints, hLu, e0, e1]
  have hm : batchMap demoEnv d 0 [((0, 0, 0), (1, 0, 0))] = (id, []) := by
    unfold batchMap
    rw [hj, orderBy_eq demoEnv_sorts (List.Perm.refl _) (by simp; norm_num [JointRow.before])]
    unfold mergeMap
    rw [if_neg (by rw [st.tol]; norm_num [jointDist2])]
    rfl
  have hfr : batchFrames demoEnv d "1-L-H400x200x14x20" 0 [((0, 0, 0), (1, 0, 0))] = [⟨"2", "1-L-H400x200x14x20", "0", "1", true⟩] := by
    unfold batchFrames
    rw [hm]
    have : sortEnds "0" "1" = some ("0", "1", true) := by unfold sortEnds; rw [if_pos (by decide)]
    simp only [endRows, rowNames, List.map_cons, List.map_nil, newFrames, e0, Nat.zero_add, e1, id, this]
    rw [show 2 * [(((0 : ℝ), (0 : ℝ), (0 : ℝ)), ((1 : ℝ), (0 : ℝ), (0 : ℝ)))].length = 2 from rfl, e2]
  have hb := batch_ok demoEnv_inj hL hs h
  obtain ⟨-, -, h3, h4, h5⟩ := hb
  have hnm := (batch_ok demoEnv_inj hL hs h).1
  rw [show (GSession.fresh d 0).drawn = 0 from rfl, hfr] at hnm
  have hcm : s1.committed = s1.work := by
    split at hrun
    · simp only [Prod.mk.injEq] at hrun
      rw [← hrun.2]; rfl
    · simp at hrun
  refine ⟨d, s1, st, hL, by rw [h, hnm]; rfl, hcm, ?_, ?_, h3, ?_⟩
  · have := hL.call (.addFrameBatch (segArgs [((0, 0, 0), (1, 0, 0))]) "1-L-H400x200x14x20")
    rwa [show ((GCall.addFrameBatch (segArgs [((0, 0, 0), (1, 0, 0))]) "1-L-H400x200x14x20").run demoEnv (GSession.fresh d 0)) = _ from h] at this
  · split at hrun
    · simp only [Prod.mk.injEq] at hrun
      rw [← hrun.2]
      show 0 + 2 * 1 + (batchFrames demoEnv d "1-L-H400x200x14x20" 0 [((0, 0, 0), (1, 0, 0))]).length = 3
      rw [hfr]; rfl
    · simp at hrun
  · rw [h4, h5]
    show some _ = _
    rw [show (GSession.fresh d 0).drawn = 0 from rfl, hfr, hm, st.frames]
    have : d.joints ++ flatRows (endRows demoEnv d.unit.L 0 [((0, 0, 0), (1, 0, 0))]) = [⟨"0", 0, 0, 0⟩, ⟨"1", 1, 0, 0⟩] := hj
    rw [this]
    simp

/-- A line that ends half a micrometre before an end of a frame: the joint of the frame is removed, the frame has no ends any more. -/
theorem C124_false : ¬ C124_claim := by
  intro hcl
  obtain ⟨d, s, st, -, -, -, hL, hdr, hs⟩ := drawn_witness
  have e3 : demoEnv.uuid 3 = "3" := by show toString (3 : ℕ) = "3"; decide
  have e4 : demoEnv.uuid 4 = "4" := by show toString (4 : ℕ) = "4"; decide
  have e5 : demoEnv.uuid 5 = "5" := by show toString (5 : ℕ) = "5"; decide
  have hLu : d.unit.L = 1 := by rw [st.unit]; rfl
  set D : Db := { d with joints := [⟨"0", 0, 0, 0⟩, ⟨"1", 1, 0, 0⟩], frames := [⟨"2", "1-L-H400x200x14x20", "0", "1", true⟩] } with hD
  have hDL : D.unit.L = 1 := hLu
  set ls : List DxfSeg := [((-1 / 2000000, 0, 0), (5, 0, 0))] with hls
  have hj : (withJoints demoEnv D 3 ls).joints = [⟨"0", 0, 0, 0⟩, ⟨"1", 1, 0, 0⟩, ⟨"3", -1 / 2000000, 0, 0⟩, ⟨"4", 5, 0, 0⟩] := by
    simp [withJoints, endRows, flatRows, hLu, e3, e4, hls, hD]
  have ho : demoEnv.orderBy (withJoints demoEnv D 3 ls).joints = [⟨"3", -1 / 2000000, 0, 0⟩, ⟨"0", 0, 0, 0⟩, ⟨"1", 1, 0, 0⟩, ⟨"4", 5, 0, 0⟩] := by
    rw [hj]
    refine orderBy_eq demoEnv_sorts ?_ (by simp; norm_num [JointRow.before])
    exact ((List.Perm.swap _ _ _).trans ((List.Perm.swap _ _ _).cons _))
  have hm : batchMap demoEnv D 3 ls = (Function.update id "0" "3", ["0"]) := by
    unfold batchMap
    have htol : D.tol = 1 / 1000000 := st.tol
    rw [ho, htol]
    unfold mergeMap
    rw [if_pos (by norm_num [jointDist2])]
    unfold mergeMap
    rw [if_neg (by norm_num [jointDist2])]
    unfold mergeMap
    rw [if_neg (by norm_num [jointDist2])]
    rfl
  have hfr : batchFrames demoEnv D "1-L-H400x200x14x20" 3 ls = [⟨"5", "1-L-H400x200x14x20", "3", "4", true⟩] := by
    unfold batchFrames
    rw [hm]
    have h1 : sortEnds "3" "4" = some ("3", "4", true) := by unfold sortEnds; rw [if_pos (by decide)]
    have h2 : Function.update (id : String → String) "0" "3" "3" = "3" := by decide
    have h3 : Function.update (id : String → String) "0" "3" "4" = "4" := by decide
    simp only [hls, endRows, rowNames, List.map_cons, List.map_nil, newFrames, e3, e4, h1, h2, h3]
    rw [show 3 + 2 * [(((-1 / 2000000 : ℝ), (0 : ℝ), (0 : ℝ)), ((5 : ℝ), (0 : ℝ), (0 : ℝ)))].length = 5 from rfl, e5]
  have hk := (keyed_lasting.lived keyed_empty hL).sees keyed_lasting hs
  have hsec : "1-L-H400x200x14x20" ∈ D.secs.map fun q => q.name := by
    show _ ∈ d.secs.map fun q => q.name
    rw [st.secs]; simp
  obtain ⟨x, hx⟩ : ∃ x, d.secs = [x] := by
    have := congrArg List.length st.secs
    rw [List.length_map] at this
    exact List.length_eq_one_iff.mp this
  obtain ⟨y, hy⟩ : ∃ y, d.asecs = [y] := by
    have := congrArg List.length st.asecs
    rw [List.length_map] at this
    exact List.length_eq_one_iff.mp this
  have hxn : x.name = "1-L-H400x200x14x20" := by
    have := st.secs
    rw [hx] at this
    simpa using this
  have hL' : Lived demoEnv (s.flushed D) := by
    have := hL.call .getFrameSectionNames
    rwa [show ((GCall.getFrameSectionNames).run demoEnv s).2 = s.flushed D from frameSecs_state hs] at this
  have h1 : dxfDefault gGetFrameSectionNames none s = (.ok x.name, s.flushed D) := dxfDefault_run (l := []) (by
    simp only [gGetFrameSectionNames, guarded, bind_run, hs.query, pure_run, hD, hx, List.map_cons, List.map_nil])
  have h2 : dxfDefault gGetAreaSectionNames none (s.flushed D) = (.ok y.name, s.flushed D) := dxfDefault_run (l := []) (db := D) (by
    simp only [gGetAreaSectionNames, guarded, bind_run, hs.query_flushed, pure_run]
    rw [show (D.asecs.map fun q => q.name) = [y.name] by rw [hD]; simp [hy]]
    rfl)
  have hrun := gAddFrameBatch_run (ls := ls) demoEnv_inj hs.flushed hk.joints (fun i hi => hL'.new_id demoEnv_inj hs.flushed hi) hsec (by simp [hls])
  rw [show (s.flushed D).drawn = 3 from hdr, hfr, hm, flush_frames_run _ _ _ (by simp [withJoints, hD])] at hrun
  obtain ⟨d', hd'⟩ := flush_delJoints ["0"] { withJoints demoEnv D 3 ls with frames := (withJoints demoEnv D 3 ls).frames ++ [⟨"5", "1-L-H400x200x14x20", "3", "4", true⟩] } st.restrs st.jloads
  rw [hd'] at hrun
  simp only at hrun
  have hd'' := flush_removed _ _ _ hd'
  have hents : Spec.drawnLines [.line "0" (-1 / 2000000, 0, 0) (5, 0, 0)] [] = ls := by simp [Spec.drawnLines, hls]
  have himp : ∃ r s1, importDxf demoEnv [.line "0" (-1 / 2000000, 0, 0) (5, 0, 0)] [] true true none none s = (.ok (some r), s1) ∧ s1 = GSession.fresh d' 6 := by
    refine ⟨some ["5"], _, ?_, rfl⟩
    unfold importDxf
    simp only [bind_run, h1, h2, dxfFramePts_eq, hents]
    rw [dxfAreaPts_nil (by simp), if_pos (by simp [segArgs, hls]), hxn]
    simp only [bind_run, dxfUnpack, hrun, pure_run]
    rfl
  obtain ⟨r, s1, hi, hs1⟩ := himp
  have hbefore : ((GCall.getFrameEndCoors "2").run demoEnv s).1 = .ok (.nums (xyz (0 / D.unit.L, 0 / D.unit.L, 0 / D.unit.L) ++ xyz (1 / D.unit.L, 0 / D.unit.L, 0 / D.unit.L))) :=
    gGetFrameEndCoors_some (e := (⟨"0", 0, 0, 0⟩, ⟨"1", 1, 0, 0⟩)) hs (by simp [frameEnds, hD])
  obtain ⟨c', hc'⟩ := hcl demoEnv s s1 _ _ _ _ r "2" _ demoEnv_sorts demoEnv_stable demoEnv_inj hL hbefore hi
  have hsees : Sees s1 d' := by rw [hs1]; exact sees_fresh d' 6
  have hc' : (gGetFrameEndCoors "2" s1).1 = _ := hc'
  rw [gGetFrameEndCoors_run hsees] at hc'
  have hnone : frameEnds d' "2" = none := by
    rw [hd'']
    unfold frameEnds
    rw [hj]
    simp [withJoints, hD]
  rw [hnone] at hc'
  simp at hc'

/-- A drawing of a line and a face: the import reports a failure, the frame is there. -/
theorem C124_failure_false : ¬ C124_failure_claim := by
  intro hcl
  obtain ⟨d, s, st, hL, hrun, hcm, -, -, hs⟩ := drawn_witness
  have hd := sees_fresh d 0
  obtain ⟨x, hx⟩ : ∃ x, d.secs = [x] := by
    have := congrArg List.length st.secs
    rw [List.length_map] at this
    exact List.length_eq_one_iff.mp this
  obtain ⟨y, hy⟩ : ∃ y, d.asecs = [y] := by
    have := congrArg List.length st.asecs
    rw [List.length_map] at this
    exact List.length_eq_one_iff.mp this
  have hxn : x.name = "1-L-H400x200x14x20" := by
    have := st.secs
    rw [hx] at this
    simpa using this
  have h1 : dxfDefault gGetFrameSectionNames none (GSession.fresh d 0) = (.ok x.name, GSession.fresh d 0) := dxfDefault_run (l := []) (db := d) (by
    simp only [gGetFrameSectionNames, guarded, bind_run, hd.query, pure_run, hx, List.map_cons, List.map_nil])
  have h2 : dxfDefault gGetAreaSectionNames none (GSession.fresh d 0) = (.ok y.name, GSession.fresh d 0) := dxfDefault_run (l := []) (db := d) (by
    simp only [gGetAreaSectionNames, guarded, bind_run, hd.query, pure_run, hy, List.map_cons, List.map_nil])
  set D : Db := { d with joints := [⟨"0", 0, 0, 0⟩, ⟨"1", 1, 0, 0⟩], frames := [⟨"2", "1-L-H400x200x14x20", "0", "1", true⟩] } with hD
  have hfind : (D.asecs.find? fun q => q.name = y.name) = some y := by
    show (d.asecs.find? fun q => q.name = y.name) = some y
    rw [hy]; simp
  have harea : gAddAreaBatch [xyz (0, 0, 0)] y.name s = (.ok (.bool false), undo (s.flushed D)) := by
    unfold gAddAreaBatch guarded
    rw [bind_run, check_true (by simp)]
    simp only [bind_run, hs.query, hfind, need_some, gScale_run hs.flushed, flushed_flushed, fail_run]
  have himp : importDxf demoEnv [.line "0" (0, 0, 0) (1, 0, 0), .face "0" (0, 0, 0) (1, 0, 0) (1, 1, 0) (0, 1, 0)] [] true true none none (GSession.fresh d 0) =
      (.ok none, undo (s.flushed D)) := by
    have hl : Spec.drawnLines [.line "0" (0, 0, 0) (1, 0, 0), .face "0" (0, 0, 0) (1, 0, 0) (1, 1, 0) (0, 1, 0)] [] = [((0, 0, 0), (1, 0, 0))] := by simp [Spec.drawnLines]
    have ha : dxfAreaPts [.line "0" (0, 0, 0) (1, 0, 0), .face "0" (0, 0, 0) (1, 0, 0) (1, 1, 0) (0, 1, 0)] [] true = [xyz (0, 0, 0)] := by
      simp [dxfAreaPts, dxfChosen, dxfCoords, xyz]
    unfold importDxf
    simp only [bind_run, h1, h2, dxfFramePts_eq, hl, ha]
    rw [if_pos (by simp [segArgs]), hxn]
    simp only [bind_run, dxfUnpack, hrun, pure_run]
    rw [if_pos (by simp)]
    simp only [bind_run, dxfUnpack, harea, fail_run]
  have := hcl demoEnv _ _ _ _ _ _ demoEnv_sorts demoEnv_inj hL himp .getFrameNames trivial
  have hw : s.work = D := by
    have h := hs.2
    have hp : s.pending = [] := (batch_ok demoEnv_inj hL hd hrun).2.2.2.1
    rw [hp] at h
    exact Option.some.inj h
  have hs2 : Sees (undo (s.flushed D)) D := by
    refine ⟨rfl, ?_⟩
    show some s.committed = _
    rw [hcm, hw]
  rw [show ((GCall.getFrameNames).run demoEnv (GSession.fresh d 0)).1 = .ok (.names (GKind.frame.names d)) from GKind.list_run hd .frame, show ((GCall.getFrameNames).run demoEnv (undo (s.flushed D))).1 = .ok (.names (GKind.frame.names D)) from GKind.list_run hs2 .frame] at this
  simp [GKind.names, st.frames, hD] at this

-- the hypotheses of the theorems about batches, imports and the way there and back are met: two lines that meet at a right angle, and one of no length
example : ∃ (s : GSession) (db : Db) (ents : List DxfEntity), demoEnv.Sorts ∧ demoEnv.Stable ∧ Function.Injective demoEnv.uuid ∧ Lived demoEnv s ∧ Sees s db ∧ 0 < db.tol ∧
    db.joints = [] ∧ db.frames = [] ∧ db.restrs = [] ∧ db.jloads = [] ∧ db.secs ≠ [] ∧ db.asecs ≠ [] ∧ (∀ l a b c d, DxfEntity.face l a b c d ∉ ents) ∧
    (Spec.drawnLines ents ["B"]).length = 3 ∧
    ∀ p q, Spec.EndOrJoint db (Spec.drawnLines ents ["B"]) p → Spec.EndOrJoint db (Spec.drawnLines ents ["B"]) q → SameOrFar db.tol p q := by
  obtain ⟨d, hL, st⟩ := lived_new demoEnv
  have hLu : d.unit.L = 1 := by rw [st.unit]; rfl
  have hl : Spec.drawnLines [.line "B" (0, 0, 0) (1, 0, 0), .line "A" (0, 0, 0) (9, 9, 9), .other "B", .line "B" (1, 0, 0) (1, 1, 0), .line "B" (0, 0, 0) (0, 0, 0)] ["B"] =
      [((0, 0, 0), (1, 0, 0)), ((1, 0, 0), (1, 1, 0)), ((0, 0, 0), (0, 0, 0))] := by simp [Spec.drawnLines]
  refine ⟨_, d, [.line "B" (0, 0, 0) (1, 0, 0), .line "A" (0, 0, 0) (9, 9, 9), .other "B", .line "B" (1, 0, 0) (1, 1, 0), .line "B" (0, 0, 0) (0, 0, 0)], demoEnv_sorts, demoEnv_stable,
    demoEnv_inj, hL, sees_fresh d 0, by rw [st.tol]; norm_num, st.joints, st.frames, st.restrs, st.jloads, ?_, ?_, by simp, by rw [hl]; rfl, ?_⟩
  · intro h
    have := st.secs
    rw [h] at this
    simp at this
  · intro h
    have := st.asecs
    rw [h] at this
    simp at this
  · rw [hl]
    intro p q hp hq
    simp only [Spec.EndOrJoint, st.joints, List.not_mem_nil, false_and, exists_false, false_or, List.mem_cons, or_false, exists_eq_or_imp, exists_eq_left, inMetres, GUnit.metres_eq, hLu, mul_one] at hp hq
    rw [st.tol]
    rcases hp with (rfl | rfl) | (rfl | rfl) | (rfl | rfl) <;> rcases hq with (rfl | rfl) | (rfl | rfl) | (rfl | rfl) <;>
      first | exact Or.inl rfl | (refine Or.inr (Real.le_sqrt_of_sq_le ?_); norm_num)

-- the theorem about frames that were there: a frame, and a line that starts at its end
example : ∃ (s s1 : GSession) (db : Db) (names : List String), demoEnv.Sorts ∧ demoEnv.Stable ∧ Function.Injective demoEnv.uuid ∧ Lived demoEnv s ∧ Sees s db ∧ 0 < db.tol ∧
    (∀ p q, Spec.EndOrJoint db [((1, 0, 0), (1, 1, 0))] p → Spec.EndOrJoint db [((1, 0, 0), (1, 1, 0))] q → SameOrFar db.tol p q) ∧
    (∀ p ∈ db.joints, ∀ q ∈ db.joints, p.pt = q.pt → p.name = q.name) ∧
    (GCall.addFrameBatch (segArgs [((1, 0, 0), (1, 1, 0))]) "1-L-H400x200x14x20").run demoEnv s = (.ok (.batch names), s1) ∧
    ((GCall.getFrameEndNames "2").run demoEnv s).1 = .ok (.two "0" "1") := by
  obtain ⟨d, s, st, -, -, -, hL, hdr, hs⟩ := drawn_witness
  have hLu : d.unit.L = 1 := by rw [st.unit]; rfl
  have hk := (keyed_lasting.lived keyed_empty hL).sees keyed_lasting hs
  set D : Db := { d with joints := [⟨"0", 0, 0, 0⟩, ⟨"1", 1, 0, 0⟩], frames := [⟨"2", "1-L-H400x200x14x20", "0", "1", true⟩] } with hD
  have hrun := gAddFrameBatch_run (ls := [((1, 0, 0), (1, 1, 0))]) (sec := "1-L-H400x200x14x20") demoEnv_inj hs hk.joints (fun i hi => hL.new_id demoEnv_inj hs hi)
    (by show _ ∈ d.secs.map fun q => q.name; rw [st.secs]; simp) (by simp)
  have hnew := newFrames_names demoEnv_inj (batchMap demoEnv D s.drawn [((1, 0, 0), (1, 1, 0))]).1 "1-L-H400x200x14x20" (rowNames (endRows demoEnv D.unit.L s.drawn [((1, 0, 0), (1, 1, 0))]))
    (s.drawn + 2 * 1)
  rw [flush_frames_run] at hrun
  swap
  · show ((D.frames ++ _).map _).Nodup
    rw [List.map_append, List.nodup_append]
    refine ⟨hk.frames, hnew.2, ?_⟩
    intro a ha b hb e
    obtain ⟨f, hf, rfl⟩ := List.mem_map.mp hb
    obtain ⟨i, hi, e'⟩ := hnew.1 f hf
    have ha : a = "2" := by simpa [hD] using ha
    have e2 : demoEnv.uuid 2 = "2" := by show toString (2 : ℕ) = "2"; decide
    have := demoEnv_inj (e'.symm.trans (e.symm.trans (ha.trans e2.symm)))
    omega
  obtain ⟨d', hd'⟩ := flush_delJoints (batchMap demoEnv D s.drawn [((1, 0, 0), (1, 1, 0))]).2 { withJoints demoEnv D s.drawn [((1, 0, 0), (1, 1, 0))] with
    frames := (withJoints demoEnv D s.drawn [((1, 0, 0), (1, 1, 0))]).frames ++ batchFrames demoEnv D "1-L-H400x200x14x20" s.drawn [((1, 0, 0), (1, 1, 0))] } st.restrs st.jloads
  rw [hd'] at hrun
  refine ⟨s, _, D, _, demoEnv_sorts, demoEnv_stable, demoEnv_inj, hL, hs, by rw [show D.tol = 1 / 1000000 from st.tol]; norm_num, ?_, ?_, hrun, ?_⟩
  · intro p q hp hq
    have hj : D.joints = [⟨"0", 0, 0, 0⟩, ⟨"1", 1, 0, 0⟩] := rfl
    have hu : D.unit.L = 1 := hLu
    simp only [Spec.EndOrJoint, hj, JointRow.pt, List.mem_cons, List.not_mem_nil, or_false, exists_eq_or_imp, exists_eq_left, inMetres, GUnit.metres_eq, hu, mul_one] at hp hq
    rw [show D.tol = 1 / 1000000 from st.tol]
    rcases hp with (rfl | rfl) | (rfl | rfl) <;> rcases hq with (rfl | rfl) | (rfl | rfl) <;>
      first | exact Or.inl rfl | (left; norm_num; done) | (refine Or.inr (Real.le_sqrt_of_sq_le ?_); norm_num)
  · intro p hp q hq h
    simp only [hD, List.mem_cons, List.not_mem_nil, or_false] at hp hq
    rcases hp with rfl | rfl <;> rcases hq with rfl | rfl <;> simp [JointRow.pt] at h ⊢
  · show (gGetFrameEndNames "2" s).1 = _
    rw [gGetFrameEndNames_run hs, show frameEnds D "2" = some (⟨"0", 0, 0, 0⟩, ⟨"1", 1, 0, 0⟩) by simp [frameEnds, hD]]

end Hyperstatic
