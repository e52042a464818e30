import Verif.Spec.Alias
import Verif.Lemmas.Inv

namespace Hyperstatic

namespace Dict
variable {α β : Type}

theorem mapKV_get? (d : Dict α) (f : String → α → α) (k : String) : (d.mapKV f).get? k = (d.get? k).map (f k) := by
  induction d with
  | nil => rfl
  | cons p t ih =>
    obtain ⟨k', v⟩ := p
    show Dict.get? ((k', f k' v) :: mapKV t f) k = _
    rw [get?_cons, get?_cons]
    split
    · rename_i e; subst e; rfl
    · exact ih

theorem mapKV_keys (d : Dict α) (f : String → α → α) : (d.mapKV f).keys = d.keys := by
  unfold keys mapKV
  rw [List.map_map]
  rfl

theorem mapKV_id {d : Dict α} {f : String → α → α} (h : ∀ k v, f k v = v) : d.mapKV f = d := by
  unfold mapKV
  conv_rhs => rw [← List.map_id d]
  apply List.map_congr_left
  intro p _
  rw [h]
  rfl

theorem mem_values_of_get? {d : Dict α} {k : String} {v : α} (h : d.get? k = some v) : v ∈ d.values := by
  induction d with
  | nil => cases h
  | cons p t ih =>
    obtain ⟨k', v'⟩ := p
    rw [get?_cons] at h
    split at h
    · cases h; exact List.mem_cons_self
    · exact List.mem_cons_of_mem _ (ih h)

theorem mem_values_set {d : Dict α} {k : String} {v x : α} (h : x ∈ (d.set k v).values) : x = v ∨ x ∈ d.values := by
  induction d with
  | nil => simp [set, values] at h; exact Or.inl h
  | cons p t ih =>
    obtain ⟨k', v'⟩ := p
    unfold set at h
    split at h
    · rcases List.mem_cons.mp h with h | h
      · exact Or.inl h
      · exact Or.inr (List.mem_cons_of_mem _ h)
    · rcases List.mem_cons.mp h with h | h
      · exact Or.inr (List.mem_cons.mpr (Or.inl h))
      · rcases ih h with h | h
        · exact Or.inl h
        · exact Or.inr (List.mem_cons_of_mem _ h)

theorem map_get? (d : Dict α) (f : α → β) (k : String) : Dict.get? (d.map fun p => (p.1, f p.2)) k = (d.get? k).map f := by
  induction d with
  | nil => rfl
  | cons p t ih =>
    obtain ⟨k', v⟩ := p
    show Dict.get? ((k', f v) :: t.map fun p => (p.1, f p.2)) k = _
    rw [get?_cons, get?_cons]
    split
    · rfl
    · exact ih

theorem mem_map_values {d : Dict α} {f : α → β} {x : β} (h : x ∈ Dict.values (d.map fun p => (p.1, f p.2))) : ∃ y ∈ d.values, f y = x := by
  unfold values at h
  rw [List.map_map] at h
  obtain ⟨p, hp, rfl⟩ := List.mem_map.mp h
  exact ⟨p.2, List.mem_map.mpr ⟨p, hp, rfl⟩, rfl⟩

end Dict

/-- the array stands at some place of the object -/
def Ids.Uses (i : Ids) (a : ℕ) : Prop :=
  a ∈ i.node.values ∨ (∃ b ∈ i.beam.values, b.1 = some a ∨ b.2 = some a) ∨ (∃ s ∈ i.shell.values, some a ∈ s) ∨ a ∈ i.rest.values ∨
    (∃ d ∈ i.caseRest.values, a ∈ d.values) ∨ ∃ r, a ∈ (i.load r).values

theorem Ids.shift_uses {i : Ids} {k a : ℕ} (h : (i.shift k).Uses a) : ∃ b, i.Uses b ∧ a = k + b := by
  rcases h with h | ⟨b, hb, h⟩ | ⟨s, hs, h⟩ | h | ⟨d, hd, h⟩ | ⟨r, h⟩
  · obtain ⟨y, hy, rfl⟩ := Dict.mem_map_values h
    exact ⟨y, Or.inl hy, rfl⟩
  · obtain ⟨y, hy, rfl⟩ := Dict.mem_map_values (f := fun q : Option ℕ × Option ℕ => (q.1.map (k + ·), q.2.map (k + ·))) hb
    rcases h with h | h
    · obtain ⟨z, hz, rfl⟩ := Option.map_eq_some_iff.mp h
      exact ⟨z, Or.inr (Or.inl ⟨y, hy, Or.inl hz⟩), rfl⟩
    · obtain ⟨z, hz, rfl⟩ := Option.map_eq_some_iff.mp h
      exact ⟨z, Or.inr (Or.inl ⟨y, hy, Or.inr hz⟩), rfl⟩
  · obtain ⟨y, hy, rfl⟩ := Dict.mem_map_values hs
    obtain ⟨o, ho, h⟩ := List.mem_map.mp h
    obtain ⟨z, hz, rfl⟩ := Option.map_eq_some_iff.mp h
    exact ⟨z, Or.inr (Or.inr (Or.inl ⟨y, hy, hz ▸ ho⟩)), rfl⟩
  · obtain ⟨y, hy, rfl⟩ := Dict.mem_map_values h
    exact ⟨y, Or.inr (Or.inr (Or.inr (Or.inl hy))), rfl⟩
  · obtain ⟨y, hy, rfl⟩ := Dict.mem_map_values (f := fun q : Dict ℕ => q.map fun p => (p.1, k + p.2)) hd
    obtain ⟨z, hz, rfl⟩ := Dict.mem_map_values h
    exact ⟨z, Or.inr (Or.inr (Or.inr (Or.inr (Or.inl ⟨y, hy, hz⟩)))), rfl⟩
  · obtain ⟨z, hz, rfl⟩ := Dict.mem_map_values h
    exact ⟨z, Or.inr (Or.inr (Or.inr (Or.inr (Or.inr ⟨r, hz⟩)))), rfl⟩

/-- the arrays after a call are arrays from before, or new ones -/
theorem Ids.after_uses {i : Ids} {w : World} {k : ℕ} {saved : Dict Ids} {c : Call} (hs : ∀ f j, saved.get? f = some j → ∀ a, j.Uses a → a < k) :
    k ≤ (i.after w k saved c).2 ∧ ∀ a, (i.after w k saved c).1.Uses a → i.Uses a ∨ (k ≤ a ∧ a < (i.after w k saved c).2) := by
  have hget : ∀ {n : String} {a : ℕ}, i.node.get? n = some a → i.Uses a := fun h => Or.inl (Dict.mem_values_of_get? h)
  have hbeam : ∀ (b s e : String) (a : ℕ), ({ i with beam := i.beam.set b (i.node.get? s, i.node.get? e) } : Ids).Uses a → i.Uses a := by
    rintro b s e a (h | ⟨q, hq, h⟩ | h | h | h | h)
    · exact Or.inl h
    · rcases Dict.mem_values_set hq with rfl | hq
      · rcases h with h | h
        · exact hget h
        · exact hget h
      · exact Or.inr (Or.inl ⟨q, hq, h⟩)
    · exact Or.inr (Or.inr (Or.inl h))
    · exact Or.inr (Or.inr (Or.inr (Or.inl h)))
    · exact Or.inr (Or.inr (Or.inr (Or.inr (Or.inl h))))
    · exact Or.inr (Or.inr (Or.inr (Or.inr (Or.inr h))))
  have hcase : ∀ (c : String) (a : ℕ), ({ i with caseRest := i.caseRest.set c [] } : Ids).Uses a → i.Uses a := by
    rintro c a (h | h | h | h | ⟨d, hd, h⟩ | h)
    · exact Or.inl h
    · exact Or.inr (Or.inl h)
    · exact Or.inr (Or.inr (Or.inl h))
    · exact Or.inr (Or.inr (Or.inr (Or.inl h)))
    · rcases Dict.mem_values_set hd with rfl | hd
      · cases h
      · exact Or.inr (Or.inr (Or.inr (Or.inr (Or.inl ⟨d, hd, h⟩))))
    · exact Or.inr (Or.inr (Or.inr (Or.inr (Or.inr h))))
  cases c <;> simp only [Ids.after]
  case addNode n x y z =>
    refine ⟨Nat.le_succ k, ?_⟩
    rintro a (h | h)
    · rcases Dict.mem_values_set h with rfl | h
      · exact Or.inr ⟨le_refl _, Nat.lt_succ_self _⟩
      · exact Or.inl (Or.inl h)
    · exact Or.inl (Or.inr h)
  case addBeam b s e _ => exact ⟨le_refl _, fun a h => Or.inl (hbeam b s e a h)⟩
  case addSimpleBeam b s e _ _ _ _ _ _ _ => exact ⟨le_refl _, fun a h => Or.inl (hbeam b s e a h)⟩
  case addShell s _ n0 n1 n2 n3 =>
    refine ⟨le_refl _, ?_⟩
    rintro a (h | h | ⟨q, hq, h⟩ | h)
    · exact Or.inl (Or.inl h)
    · exact Or.inl (Or.inr (Or.inl h))
    · rcases Dict.mem_values_set hq with rfl | hq
      · left
        rcases List.mem_append.mp h with h | h
        · simp only [List.mem_cons, List.not_mem_nil, or_false] at h
          rcases h with h | h | h <;> exact hget h.symm
        · obtain ⟨n, _, h⟩ := List.mem_map.mp h
          exact hget h
      · exact Or.inl (Or.inr (Or.inr (Or.inl ⟨q, hq, h⟩)))
    · exact Or.inl (Or.inr (Or.inr (Or.inr h)))
  case setNodalRestraint n _ =>
    split
    · refine ⟨Nat.le_succ k, ?_⟩
      rintro a (h | h | h | h | h)
      · exact Or.inl (Or.inl h)
      · exact Or.inl (Or.inr (Or.inl h))
      · exact Or.inl (Or.inr (Or.inr (Or.inl h)))
      · rcases Dict.mem_values_set h with rfl | h
        · exact Or.inr ⟨le_refl _, Nat.lt_succ_self _⟩
        · exact Or.inl (Or.inr (Or.inr (Or.inr (Or.inl h))))
      · exact Or.inl (Or.inr (Or.inr (Or.inr (Or.inr h))))
    · exact ⟨le_refl _, fun a h => Or.inl h⟩
  case setLoadcaseNodalRestraint c n _ =>
    refine ⟨Nat.le_succ k, ?_⟩
    rintro a (h | h | h | h | ⟨d, hd, h⟩ | h)
    · exact Or.inl (Or.inl h)
    · exact Or.inl (Or.inr (Or.inl h))
    · exact Or.inl (Or.inr (Or.inr (Or.inl h)))
    · exact Or.inl (Or.inr (Or.inr (Or.inr (Or.inl h))))
    · rcases Dict.mem_values_set hd with rfl | hd
      · rcases Dict.mem_values_set h with rfl | h
        · exact Or.inr ⟨le_refl _, Nat.lt_succ_self _⟩
        · left
          cases hc : i.caseRest.get? c with
          | none => rw [hc] at h; cases h
          | some d =>
            rw [hc] at h
            exact Or.inr (Or.inr (Or.inr (Or.inr (Or.inl ⟨d, Dict.mem_values_of_get? hc, h⟩))))
      · exact Or.inl (Or.inr (Or.inr (Or.inr (Or.inr (Or.inl ⟨d, hd, h⟩)))))
    · exact Or.inl (Or.inr (Or.inr (Or.inr (Or.inr (Or.inr h)))))
  case addStaticCase c => exact ⟨le_refl _, fun a h => Or.inl (hcase c a h)⟩
  case addModalCase c => exact ⟨le_refl _, fun a h => Or.inl (hcase c a h)⟩
  case addLoadpattern p =>
    refine ⟨le_refl _, ?_⟩
    rintro a (h | h | h | h | h | ⟨r, h⟩)
    · exact Or.inl (Or.inl h)
    · exact Or.inl (Or.inr (Or.inl h))
    · exact Or.inl (Or.inr (Or.inr (Or.inl h)))
    · exact Or.inl (Or.inr (Or.inr (Or.inr (Or.inl h))))
    · exact Or.inl (Or.inr (Or.inr (Or.inr (Or.inr (Or.inl h)))))
    · simp only [Function.update_apply] at h
      split at h
      · cases h
      · exact Or.inl (Or.inr (Or.inr (Or.inr (Or.inr (Or.inr ⟨r, h⟩)))))
  case setNodalLoad p n _ =>
    split
    · refine ⟨Nat.le_succ k, ?_⟩
      rintro a (h | h | h | h | h | ⟨r, h⟩)
      · exact Or.inl (Or.inl h)
      · exact Or.inl (Or.inr (Or.inl h))
      · exact Or.inl (Or.inr (Or.inr (Or.inl h)))
      · exact Or.inl (Or.inr (Or.inr (Or.inr (Or.inl h))))
      · exact Or.inl (Or.inr (Or.inr (Or.inr (Or.inr (Or.inl h)))))
      · simp only [Function.update_apply] at h
        split at h
        · rcases Dict.mem_values_set h with rfl | h
          · exact Or.inr ⟨le_refl _, Nat.lt_succ_self _⟩
          · exact Or.inl (Or.inr (Or.inr (Or.inr (Or.inr (Or.inr ⟨_, h⟩)))))
        · exact Or.inl (Or.inr (Or.inr (Or.inr (Or.inr (Or.inr ⟨r, h⟩)))))
    · exact ⟨le_refl _, fun a h => Or.inl h⟩
  case load f =>
    split
    · rename_i j hj
      refine ⟨Nat.le_add_left k k, ?_⟩
      intro a h
      obtain ⟨b, hb, rfl⟩ := Ids.shift_uses h
      have := hs _ _ hj b hb
      exact Or.inr ⟨Nat.le_add_right _ _, by show k + b < k + k; omega⟩
    · exact ⟨le_refl _, fun a h => Or.inl h⟩
  all_goals exact ⟨le_refl _, fun a h => Or.inl h⟩

/-- writing into an array that stands nowhere changes nothing -/
theorem Api.store_unused {x : Api} {i : Ids} {a : ℕ} (ch : Change) (h : ¬ i.Uses a) : x.store i a ch = x := by
  have h1 : ∀ n, i.node.get? n ≠ some a := fun n e => h (Or.inl (Dict.mem_values_of_get? e))
  have h2 : ∀ b, (i.beam.get? b).bind Prod.fst ≠ some a := by
    intro b e
    obtain ⟨q, hq, e⟩ := Option.bind_eq_some_iff.mp e
    exact h (Or.inr (Or.inl ⟨q, Dict.mem_values_of_get? hq, Or.inl e⟩))
  have h3 : ∀ b, (i.beam.get? b).bind Prod.snd ≠ some a := by
    intro b e
    obtain ⟨q, hq, e⟩ := Option.bind_eq_some_iff.mp e
    exact h (Or.inr (Or.inl ⟨q, Dict.mem_values_of_get? hq, Or.inr e⟩))
  have h4 : ∀ s (j : ℕ), ((i.shell.get? s).getD [])[j]? ≠ some (some a) := by
    intro s j e
    cases hs : i.shell.get? s with
    | none => rw [hs] at e; simp at e
    | some q =>
      rw [hs] at e
      exact h (Or.inr (Or.inr (Or.inl ⟨q, Dict.mem_values_of_get? hs, List.mem_of_getElem? e⟩)))
  have h5 : ∀ n, i.rest.get? n ≠ some a := fun n e => h (Or.inr (Or.inr (Or.inr (Or.inl (Dict.mem_values_of_get? e)))))
  have h6 : ∀ c n, ((i.caseRest.get? c).getD []).get? n ≠ some a := by
    intro c n e
    cases hc : i.caseRest.get? c with
    | none => rw [hc] at e; cases e
    | some d =>
      rw [hc] at e
      exact h (Or.inr (Or.inr (Or.inr (Or.inr (Or.inl ⟨d, Dict.mem_values_of_get? hc, Dict.mem_values_of_get? e⟩)))))
  have h7 : ∀ r n, (i.load r).get? n ≠ some a :=
    fun r n e => h (Or.inr (Or.inr (Or.inr (Or.inr (Or.inr ⟨r, Dict.mem_values_of_get? e⟩)))))
  have hm : x.model.store i a ch = x.model := by
    unfold FeModel.store
    rw [Dict.mapKV_id (fun n nd => if_neg (h1 n)), Dict.mapKV_id (fun n f => if_neg (h5 n)), Dict.mapKV_id, Dict.mapKV_id]
    · intro s se
      obtain ⟨_, _, nodes, _⟩ := se
      simp only [if_neg (h4 s _)]
      congr 1
      exact List.mapIdx_eq_iff.mpr fun j => by simp
    · intro b be
      simp only [if_neg (h2 b), if_neg (h3 b)]
  unfold Api.store
  rw [hm, Dict.mapKV_id]
  · have : (x.heap.mapIdx fun r p => { p with
        nodalLoad := p.nodalLoad.mapKV fun n f => if (i.load r).get? n = some a then ch.load f else f }) = x.heap := by
      refine List.mapIdx_eq_iff.mpr fun j => ?_
      cases x.heap[j]? with
      | none => rfl
      | some p =>
        simp only [Option.map_some, Option.some.injEq]
        rw [Dict.mapKV_id (fun n f => if_neg (h7 j n))]
    rw [this]
  · intro c lc
    rw [Dict.mapKV_id (fun n f => if_neg (h6 c n))]


/-- the files that hold saved objects change by `save` only -/
theorem sep_step (env : Env) (w : World) (c : Call) (hc : ∀ f, c ≠ .save f) {k : String} {x : Api}
    (h : (w.step env c).1.fs.get? k = some (.sep x)) : w.fs.get? k = some (.sep x) := by
  by_cases he : c.isEdit = true
  · rw [step_edit env w c he] at h
    split at h <;> exact h
  · cases c <;> first | (exact absurd rfl he) | skip
    · simp only [World.step] at h
      split at h
      · simp only [Dict.get?_set] at h
        split at h
        · cases h
        · exact h
      · exact h
    · rename_i case
      simp only [World.step] at h
      rcases solveLinear_fs env w.fs Api.filename case with e | ⟨K, e⟩ | ⟨K, d, e⟩
      · rw [e] at h; exact h
      · rw [e, Dict.get?_set] at h
        split at h
        · cases h
        · exact h
      · rw [e, Dict.get?_set] at h
        split at h
        · cases h
        · rw [Dict.get?_set] at h
          split at h
          · cases h
          · exact h
    · exact h
    · exact absurd rfl (hc _)
    · simp only [World.step] at h
      split at h <;> exact h
    · exact h

/-- all identities in use are below the next free one; copies handed out are not in use -/
structure SBound (s : Shared) : Prop where
  cur : ∀ a, s.ids.Uses a → a < s.next
  saved : ∀ f j, s.saved.get? f = some j → ∀ a, j.Uses a → a < s.next
  rests : ∀ a ∈ s.rests, a < s.next ∧ ¬ s.ids.Uses a

theorem SBound_init : SBound Shared.init := by
  refine ⟨?_, ?_, ?_⟩
  · rintro a (h | ⟨b, hb, h⟩ | ⟨b, hb, h⟩ | h | ⟨b, hb, h⟩ | ⟨r, h⟩)
    · cases h
    · cases hb
    · cases hb
    · cases h
    · cases hb
    · cases h
  · intro f j h; cases h
  · intro a h; cases h

theorem Shared.write_ids (s : Shared) (a : Option ℕ) (ch : Change) :
    (s.write a ch).ids = s.ids ∧ (s.write a ch).next = s.next ∧ (s.write a ch).saved = s.saved ∧ (s.write a ch).rests = s.rests ∧
      (s.write a ch).world.fs = s.world.fs := by
  cases a <;> exact ⟨rfl, rfl, rfl, rfl, rfl⟩

theorem SBound.write {s : Shared} (h : SBound s) (a : Option ℕ) (ch : Change) : SBound (s.write a ch) := by
  obtain ⟨e1, e2, e3, e4, -⟩ := s.write_ids a ch
  refine ⟨?_, ?_, ?_⟩
  · rw [e1, e2]; exact h.cur
  · rw [e3, e2]; exact h.saved
  · rw [e4, e1, e2]; exact h.rests

theorem SBound_step (env : Env) {s : Shared} (h : SBound s) (a : ScriptStep) : SBound (s.step env a) := by
  cases a with
  | call c =>
    simp only [Shared.step]
    split
    · obtain ⟨hle, hu⟩ := Ids.after_uses (i := s.ids) (w := s.world) (c := c) h.saved
      have hcur : ∀ a, (s.ids.after s.world s.next s.saved c).1.Uses a → a < (s.ids.after s.world s.next s.saved c).2 := by
        intro a ha
        rcases hu a ha with h1 | h1
        · exact lt_of_lt_of_le (h.cur a h1) hle
        · exact h1.2
      refine ⟨hcur, ?_, ?_⟩
      · have hold : ∀ f j, s.saved.get? f = some j → ∀ a, j.Uses a → a < (s.ids.after s.world s.next s.saved c).2 :=
          fun f j hj a ha => lt_of_lt_of_le (h.saved f j hj a ha) hle
        intro f j hj
        simp only at hj
        unfold Shared.savedAfter at hj
        split at hj
        · rw [Dict.get?_set] at hj
          split at hj
          · cases hj
            exact fun a ha => lt_of_lt_of_le (h.cur a ha) hle
          · exact hold f j hj
        · exact hold f j hj
      · intro a ha
        obtain ⟨h1, h2⟩ := h.rests a ha
        refine ⟨lt_of_lt_of_le h1 hle, fun h3 => ?_⟩
        rcases hu a h3 with h3 | h3
        · exact h2 h3
        · omega
    · exact ⟨h.cur, h.saved, h.rests⟩
  | askRestraints case =>
    simp only [Shared.step]
    split
    · rename_i d _
      refine ⟨fun a ha => lt_of_lt_of_le (h.cur a ha) (Nat.le_add_right _ _),
        fun f j hj a ha => lt_of_lt_of_le (h.saved f j hj a ha) (Nat.le_add_right _ _), ?_⟩
      intro a ha
      rcases List.mem_append.mp ha with ha | ha
      · exact ⟨lt_of_lt_of_le (h.rests a ha).1 (Nat.le_add_right _ _), (h.rests a ha).2⟩
      · obtain ⟨j, hj, rfl⟩ := List.mem_map.mp ha
        have hj := List.mem_range.mp hj
        refine ⟨by show s.next + j < s.next + d.length; omega, fun hu => ?_⟩
        have := h.cur _ hu
        omega
    · exact h
  | askLocation name =>
    simp only [Shared.step]
    split
    · exact ⟨h.cur, h.saved, h.rests⟩
    · exact h
  | askLoads pattern =>
    simp only [Shared.step]
    split
    · exact ⟨h.cur, h.saved, h.rests⟩
    · exact h
  | writeRestraints k g => exact h.write _ _
  | writeLocation k g => exact h.write _ _
  | writeLoads k g => exact h.write _ _

theorem SBound_run (env : Env) (acts : List ScriptStep) {s : Shared} (h : SBound s) : SBound (s.run env acts) := by
  induction acts generalizing s with
  | nil => exact h
  | cons a t ih => exact ih (SBound_step env h a)

open Spec in
/-- scripts that write into copies only leave the world as their calls do -/
theorem keepsOff_world (env : Env) (acts : List ScriptStep) (h : KeepsOff acts) {s : Shared} (hs : SBound s) :
    (s.run env acts).world = s.world.run env (callsIn acts) := by
  induction acts generalizing s with
  | nil => rfl
  | cons a t ih =>
    have key := fun ht => ih ht (SBound_step env hs a)
    cases a with
    | call c =>
      refine (key h).trans ?_
      have : (s.step env (.call c)).world = (s.world.step env c).1 := by
        simp only [Shared.step]
        split <;> rfl
      rw [this]
      rfl
    | askRestraints case =>
      refine (key h).trans ?_
      have : (s.step env (.askRestraints case)).world = s.world := by
        simp only [Shared.step]
        split <;> rfl
      rw [this]
      rfl
    | askLocation name =>
      refine (key h).trans ?_
      have : (s.step env (.askLocation name)).world = s.world := by
        simp only [Shared.step]
        split <;> rfl
      rw [this]
      rfl
    | askLoads pattern =>
      refine (key h).trans ?_
      have : (s.step env (.askLoads pattern)).world = s.world := by
        simp only [Shared.step]
        split <;> rfl
      rw [this]
      rfl
    | writeRestraints k g =>
      refine (key h).trans ?_
      have : (s.step env (.writeRestraints k g)).world = s.world := by
        show (s.write s.rests[k]? _).world = _
        cases hk : s.rests[k]? with
        | none => rfl
        | some a =>
          show ({ s.world with api := s.world.api.store s.ids a _ } : World) = _
          rw [Api.store_unused _ (hs.rests a (List.mem_of_getElem? hk)).2]
      rw [this]
      rfl
    | writeLocation k g => exact absurd h id
    | writeLoads k g => exact absurd h id

/-- the identities of the arrays fit the object they belong to -/
structure IdInv (x : Api) (i : Ids) : Prop where
  keys : i.node.keys = x.model.nodes.keys
  inj : ∀ n m a, i.node.get? n = some a → i.node.get? m = some a → n = m
  name : ∀ n nd, x.model.nodes.get? n = some nd → nd.name = n
  load_keys : ∀ r p, x.heap[r]? = some p → (i.load r).keys = p.nodalLoad.keys
  load_inj : ∀ r r' n n' a, (i.load r).get? n = some a → (i.load r').get? n' = some a → r = r' ∧ n = n'

theorem IdInv_init : IdInv Api.init Ids.empty := by
  refine ⟨rfl, ?_, ?_, ?_, ?_⟩
  · intro n m a h; cases h
  · intro n nd h; cases h
  · intro r p h; simp [Api.init] at h
  · intro r r' n n' a h; cases h

theorem Dict.keys_map {α β : Type} (d : Dict α) (f : α → β) : Dict.keys (d.map fun p => (p.1, f p.2)) = d.keys := by
  unfold Dict.keys
  rw [List.map_map]
  rfl

theorem IdInv.shift {x : Api} {i : Ids} (h : IdInv x i) (k : ℕ) : IdInv x (i.shift k) := by
  refine ⟨?_, ?_, h.name, ?_, ?_⟩
  · exact (Dict.keys_map i.node (k + ·)).trans h.keys
  · intro n m a h1 h2
    rw [show (i.shift k).node = i.node.map fun p => (p.1, k + p.2) from rfl, Dict.map_get?] at h1 h2
    obtain ⟨a1, h1, e1⟩ := Option.map_eq_some_iff.mp h1
    obtain ⟨a2, h2, e2⟩ := Option.map_eq_some_iff.mp h2
    obtain rfl : a1 = a2 := by omega
    exact h.inj n m _ h1 h2
  · intro r p hp
    exact (Dict.keys_map (i.load r) (k + ·)).trans (h.load_keys r p hp)
  · intro r r' n n' a h1 h2
    rw [show (i.shift k).load r = (i.load r).map fun p => (p.1, k + p.2) from rfl, Dict.map_get?] at h1
    rw [show (i.shift k).load r' = (i.load r').map fun p => (p.1, k + p.2) from rfl, Dict.map_get?] at h2
    obtain ⟨a1, h1, e1⟩ := Option.map_eq_some_iff.mp h1
    obtain ⟨a2, h2, e2⟩ := Option.map_eq_some_iff.mp h2
    obtain rfl : a1 = a2 := by omega
    exact h.load_inj r r' n n' _ h1 h2

/-- the nodes after a write -/
theorem store_node (x : Api) (i : Ids) (a : ℕ) (ch : Change) (n : String) :
    (x.store i a ch).model.nodes.get? n = (x.model.nodes.get? n).map fun nd =>
      if i.node.get? n = some a then { nd with csys := { nd.csys with O := ch.loc nd.csys.O } } else nd := by
  simp only [Api.store, FeModel.store, Dict.mapKV_get?]

theorem IdInv.store {x : Api} {i : Ids} (h : IdInv x i) (a : ℕ) (ch : Change) : IdInv (x.store i a ch) i := by
  refine ⟨?_, h.inj, ?_, ?_, h.load_inj⟩
  · simp only [Api.store, FeModel.store, Dict.mapKV_keys]
    exact h.keys
  · intro n nd hn
    rw [store_node] at hn
    obtain ⟨nd', h1, rfl⟩ := Option.map_eq_some_iff.mp hn
    split
    · exact h.name n nd' h1
    · exact h.name n nd' h1
  · intro r p hp
    change (x.heap.mapIdx _)[r]? = some p at hp
    rw [List.getElem?_mapIdx] at hp
    obtain ⟨p', h1, rfl⟩ := Option.map_eq_some_iff.mp hp
    simp only [Dict.mapKV_keys]
    exact h.load_keys r p' h1

theorem not_uses_load {i : Ids} {k : ℕ} (hk : ∀ a, i.Uses a → a < k) (r : PatRef) (n : String) : (i.load r).get? n ≠ some k :=
  fun e => absurd (hk k (Or.inr (Or.inr (Or.inr (Or.inr (Or.inr ⟨r, Dict.mem_values_of_get? e⟩)))))) (lt_irrefl k)

theorem not_uses_node {i : Ids} {k : ℕ} (hk : ∀ a, i.Uses a → a < k) (n : String) : i.node.get? n ≠ some k :=
  fun e => absurd (hk k (Or.inl (Dict.mem_values_of_get? e))) (lt_irrefl k)

/-- nothing of the nodes, patterns and their identities changes -/
theorem IdInv.same {x y : Api} {i j : Ids} (h : IdInv x i) (h1 : y.model.nodes = x.model.nodes) (h2 : j.node = i.node)
    (h3 : y.heap = x.heap) (h4 : j.load = i.load) : IdInv y j := by
  refine ⟨?_, ?_, ?_, ?_, ?_⟩
  · rw [h1, h2]; exact h.keys
  · rw [h2]; exact h.inj
  · rw [h1]; exact h.name
  · rw [h3, h4]; exact h.load_keys
  · rw [h4]; exact h.load_inj

theorem IdInv.pat {x y : Api} {i : Ids} (h : IdInv x i) {pattern : String} {g : LoadPattern → LoadPattern} (hg : ∀ p, (g p).nodalLoad = p.nodalLoad)
    (he : PatUpd x pattern g y) : IdInv y i := by
  obtain ⟨ref, p, -, hp, rfl⟩ := he
  refine ⟨h.keys, h.inj, h.name, ?_, h.load_inj⟩
  intro r q hq
  change (x.heap.set ref (g p))[r]? = some q at hq
  rw [List.getElem?_set] at hq
  split at hq
  · rename_i e
    subst e
    split at hq
    · cases hq
      rw [hg]
      exact h.load_keys _ p hp
    · cases hq
  · exact h.load_keys r q hq

theorem IdInv.edit {w : World} {i : Ids} {k : ℕ} {saved : Dict Ids} {c : Call} {y : Api} (h : IdInv w.api i) (hk : ∀ a, i.Uses a → a < k)
    (hc : c.isEdit = true) (he : w.api.edit c = .ok y) : IdInv y (i.after w k saved c).1 := by
  rw [edit_ok_iff] at he
  cases c <;> simp only [EditEff] at he <;> simp only [Ids.after]
  case addNode n x1 x2 x3 =>
    subst he
    refine ⟨Dict.keys_set_congr h.keys _ _ _, ?_, ?_, h.load_keys, h.load_inj⟩
    · intro m m' a h1 h2
      simp only [Dict.get?_set] at h1 h2
      split at h1
      · rename_i e1
        cases h1
        split at h2
        · rename_i e2; exact e1.symm.trans e2
        · exact absurd h2 (not_uses_node hk m')
      · split at h2
        · cases h2
          exact absurd h1 (not_uses_node hk m)
        · exact h.inj m m' a h1 h2
    · intro m nd hm
      simp only [Dict.get?_set] at hm
      split at hm
      · rename_i e; cases hm; exact e
      · exact h.name m nd hm
  case setNodalMass n mass =>
    obtain ⟨nd, hnd, rfl⟩ := he
    refine ⟨h.keys.trans (Dict.keys_set_of_mem hnd).symm, h.inj, ?_, h.load_keys, h.load_inj⟩
    intro m nd' hm
    simp only [Dict.get?_set] at hm
    split at hm
    · rename_i e; cases hm; subst e; exact h.name _ nd hnd
    · exact h.name m nd' hm
  case addBeam => obtain ⟨n0, n1, s, b, _, _, _, _, rfl⟩ := he; exact h.same rfl rfl rfl rfl
  case addSimpleBeam => obtain ⟨n0, n1, b, _, _, _, rfl⟩ := he; exact h.same rfl rfl rfl rfl
  case addShell => obtain ⟨e, _, rfl⟩ := he; exact h.same rfl rfl rfl rfl
  case addIsotropicMaterial => subst he; exact h.same rfl rfl rfl rfl
  case addBeamSectionGeneral => obtain ⟨mat, sec, _, _, rfl⟩ := he; exact h.same rfl rfl rfl rfl
  case addBeamSectionRectangle => obtain ⟨mat, sec, _, _, rfl⟩ := he; exact h.same rfl rfl rfl rfl
  case addBeamSectionI => obtain ⟨mat, sec, _, _, rfl⟩ := he; exact h.same rfl rfl rfl rfl
  case addBeamSectionBox => obtain ⟨mat, sec, _, _, rfl⟩ := he; exact h.same rfl rfl rfl rfl
  case addBeamSectionCircle => obtain ⟨mat, sec, _, _, rfl⟩ := he; exact h.same rfl rfl rfl rfl
  case addBeamSectionPipe => obtain ⟨mat, sec, _, _, rfl⟩ := he; exact h.same rfl rfl rfl rfl
  case addShellSection => obtain ⟨mat, _, rfl⟩ := he; exact h.same rfl rfl rfl rfl
  case addLoadpattern name =>
    subst he
    refine ⟨h.keys, h.inj, h.name, ?_, ?_⟩
    · intro r p hp
      change (w.api.heap ++ [LoadPattern.new name])[r]? = some p at hp
      simp only [Function.update_apply]
      split
      · rename_i e
        subst e
        rw [List.getElem?_append_right (le_refl _), Nat.sub_self] at hp
        cases hp
        rfl
      · rename_i e
        rcases lt_or_ge r w.api.heap.length with hr | hr
        · rw [List.getElem?_append_left hr] at hp
          exact h.load_keys r p hp
        · rw [List.getElem?_append_right hr] at hp
          have : r - w.api.heap.length ≠ 0 := by
            intro e'
            exact e (le_antisymm (Nat.sub_eq_zero_iff_le.mp e') hr)
          obtain ⟨q, hq⟩ := Nat.exists_eq_succ_of_ne_zero this
          rw [hq] at hp
          cases hp
    · intro r r' n n' a h1 h2
      simp only [Function.update_apply] at h1 h2
      split at h1
      · cases h1
      · split at h2
        · cases h2
        · exact h.load_inj r r' n n' a h1 h2
  case setNodalRestraint n f =>
    have h1 : y.model.nodes = w.api.model.nodes ∧ y.heap = w.api.heap := by
      rw [he]
      split <;> exact ⟨rfl, rfl⟩
    split
    · exact h.same h1.1 rfl h1.2 rfl
    · exact h.same h1.1 rfl h1.2 rfl
  case setLoadcaseNodalRestraint => obtain ⟨lc, _, rfl⟩ := he; exact h.same rfl rfl rfl rfl
  case addStaticCase => subst he; exact h.same rfl rfl rfl rfl
  case addModalCase => subst he; exact h.same rfl rfl rfl rfl
  case addCasePattern => obtain ⟨lc, ref, p, _, _, _, rfl⟩ := he; exact h.same rfl rfl rfl rfl
  case setNodalLoad pattern n f =>
    obtain ⟨ref, p, href, hp, rfl⟩ := he
    rw [href]
    simp only
    refine ⟨h.keys, h.inj, h.name, ?_, ?_⟩
    · intro r q hq
      change (w.api.heap.set ref (p.setNodalLoad n f))[r]? = some q at hq
      rw [List.getElem?_set] at hq
      simp only [Function.update_apply]
      split at hq
      · rename_i e
        subst e
        rw [if_pos rfl]
        split at hq
        · cases hq
          exact Dict.keys_set_congr (h.load_keys _ p hp) _ _ _
        · cases hq
      · rename_i e
        rw [if_neg (fun e' => e e'.symm)]
        exact h.load_keys r q hq
    · intro r r' n1 n2 a h1 h2
      simp only [Function.update_apply] at h1 h2
      have hnew : ∀ {r : PatRef} {m : String} {a : ℕ},
          (if r = ref then (i.load ref).set n k else i.load r).get? m = some a →
          (r = ref ∧ m = n ∧ a = k) ∨ ((i.load r).get? m = some a ∧ a ≠ k) := by
        intro r m a hm
        split at hm
        · rename_i e
          subst e
          rw [Dict.get?_set] at hm
          split at hm
          · rename_i e'; cases hm; exact Or.inl ⟨rfl, e'.symm, rfl⟩
          · exact Or.inr ⟨hm, fun e => not_uses_load hk _ _ (e ▸ hm)⟩
        · exact Or.inr ⟨hm, fun e => not_uses_load hk _ _ (e ▸ hm)⟩
      rcases hnew h1 with ⟨rfl, rfl, rfl⟩ | ⟨h1, n1'⟩
      · rcases hnew h2 with ⟨rfl, rfl, -⟩ | ⟨-, n2'⟩
        · exact ⟨rfl, rfl⟩
        · exact absurd rfl n2'
      · rcases hnew h2 with ⟨-, -, e⟩ | ⟨h2, -⟩
        · exact absurd e n1'
        · exact h.load_inj r r' n1 n2 a h1 h2
  case setBeamLoadDistributed pattern beam pi pj qi2 qj2 qi3 qj3 ti tj =>
    exact h.pat (g := fun p => p.setBeamLoadDist beam pi pj qi2 qj2 qi3 qj3 ti tj) (fun p => rfl) he
  case setBeamLoadConcentrated pattern beam F1 F2 F3 M1 M2 M3 r =>
    exact h.pat (g := fun p => p.setBeamLoadConc beam F1 F2 F3 M1 M2 M3 r) (fun p => rfl) he
  all_goals exact absurd hc (by simp [Call.isEdit])

/-- a property of objects and the identities of their arrays, for the object at hand and the saved ones -/
structure SInv (P : Api → Ids → Prop) (s : Shared) : Prop where
  bound : SBound s
  cur : P s.world.api s.ids
  saved : ∀ f x, s.world.fs.get? f = some (.sep x) → ∃ j, s.saved.get? f = some j ∧ P x j

theorem SInv.write {P : Api → Ids → Prop} (hstore : ∀ x i a ch, P x i → P (x.store i a ch) i) {s : Shared} (h : SInv P s) (a : Option ℕ)
    (ch : Change) : SInv P (s.write a ch) := by
  refine ⟨h.bound.write a ch, ?_, ?_⟩
  · cases a with
    | none => exact h.cur
    | some a => exact hstore _ _ _ _ h.cur
  · obtain ⟨-, -, e3, -, e5⟩ := s.write_ids a ch
    rw [e3, e5]
    exact h.saved

theorem SInv_step {P : Api → Ids → Prop} (G : World → Call → Prop) (env : Env)
    (hedit : ∀ (w : World) i k saved c y, G w c → P w.api i → (∀ a, i.Uses a → a < k) → c.isEdit = true → w.api.edit c = .ok y →
      P y (i.after w k saved c).1)
    (hshift : ∀ x i k, P x i → P x (i.shift k)) (hstore : ∀ x i a ch, P x i → P (x.store i a ch) i) {s : Shared} (h : SInv P s)
    (a : ScriptStep) (hG : ∀ c, a = .call c → G s.world c) : SInv P (s.step env a) := by
  refine ⟨SBound_step env h.bound a, ?_, ?_⟩
  · cases a with
    | call c =>
      have hG := hG c rfl
      simp only [Shared.step]
      by_cases hc : c.isEdit = true
      · have hs := step_edit env s.world c hc
        cases he : s.world.api.edit c with
        | error e =>
          rw [he] at hs
          rw [hs]
          exact h.cur
        | ok y =>
          rw [he] at hs
          rw [hs]
          simp only [if_true]
          exact hedit _ _ _ _ _ _ hG h.cur h.bound.cur hc he
      · have hkeep : (∀ f, c ≠ .load f) → (s.world.step env c).1.api = s.world.api ∧ (s.ids.after s.world s.next s.saved c).1 = s.ids := by
          intro hl
          cases c <;> first | (exact absurd rfl hc) | (exact absurd rfl (hl _)) | skip
          · simp only [World.step]
            split <;> exact ⟨rfl, rfl⟩
          all_goals exact ⟨rfl, rfl⟩
        by_cases hl : ∃ f, c = .load f
        · obtain ⟨f, rfl⟩ := hl
          cases hx : s.world.fs.get? (f ++ ".sep") with
          | none => simp only [World.step, hx]; exact h.cur
          | some x =>
            cases x with
            | sep x =>
              obtain ⟨j, hj, hP⟩ := h.saved _ _ hx
              simp only [World.step, hx, if_true, Ids.after, hj]
              exact hshift _ _ _ hP
            | _ => simp only [World.step, hx]; exact h.cur
        · obtain ⟨k1, k2⟩ := hkeep fun f e => hl ⟨f, e⟩
          split
          · show P (s.world.step env c).1.api (s.ids.after s.world s.next s.saved c).1
            rw [k1, k2]
            exact h.cur
          · show P (s.world.step env c).1.api s.ids
            rw [k1]
            exact h.cur
    | askRestraints case =>
      simp only [Shared.step]
      split <;> exact h.cur
    | askLocation name =>
      simp only [Shared.step]
      split <;> exact h.cur
    | askLoads pattern =>
      simp only [Shared.step]
      split <;> exact h.cur
    | writeRestraints k g => exact (h.write hstore _ _).cur
    | writeLocation k g => exact (h.write hstore _ _).cur
    | writeLoads k g => exact (h.write hstore _ _).cur
  · cases a with
    | call c =>
      simp only [Shared.step]
      intro f x hx
      by_cases hc : ∃ g, c = .save g
      · obtain ⟨g, rfl⟩ := hc
        simp only [World.step, if_true, Dict.get?_set, Shared.savedAfter] at hx ⊢
        split at hx
        · rename_i e
          cases hx
          rw [if_pos e]
          exact ⟨_, rfl, h.cur⟩
        · rename_i e
          rw [if_neg e]
          exact h.saved f x hx
      · have hc : ∀ g, c ≠ .save g := fun g e => hc ⟨g, e⟩
        have hsaved : s.savedAfter c = s.saved := by
          unfold Shared.savedAfter
          split
          · exact absurd rfl (hc _)
          · rfl
        split at hx
        · rename_i ht
          rw [if_pos ht]
          obtain ⟨j, hj, hP⟩ := h.saved f x (sep_step env s.world c hc hx)
          exact ⟨j, by rw [← hj]; exact congrArg (fun d => Dict.get? d f) hsaved, hP⟩
        · rename_i ht
          rw [if_neg ht]
          exact h.saved f x (sep_step env s.world c hc hx)
    | askRestraints case =>
      simp only [Shared.step]
      split <;> exact h.saved
    | askLocation name =>
      simp only [Shared.step]
      split <;> exact h.saved
    | askLoads pattern =>
      simp only [Shared.step]
      split <;> exact h.saved
    | writeRestraints k g => exact (h.write hstore _ _).saved
    | writeLocation k g => exact (h.write hstore _ _).saved
    | writeLoads k g => exact (h.write hstore _ _).saved

theorem SInv_init {P : Api → Ids → Prop} (h : P Api.init Ids.empty) : SInv P Shared.init :=
  ⟨SBound_init, h, fun f x hx => by cases hx⟩

theorem IdInv_run (env : Env) (acts : List ScriptStep) : SInv IdInv (Shared.init.run env acts) := by
  have : ∀ s, SInv IdInv s → SInv IdInv (s.run env acts) := by
    induction acts with
    | nil => exact fun s h => h
    | cons a t ih =>
      exact fun s h => ih _ (SInv_step (fun _ _ => True) env (fun w i k saved c y _ h hk hc he => h.edit hk hc he)
        (fun x i k h => h.shift k) (fun x i a ch h => h.store a ch) h a (fun _ _ => trivial))
  exact this _ (SInv_init IdInv_init)

/-- beams refer to the node objects of the table -/
structure AttInv (x : Api) (i : Ids) : Prop extends IdInv x i where
  att : ∀ b be, x.model.beams.get? b = some be → ∃ a1 a2 n1 n2, i.beam.get? b = some (some a1, some a2) ∧
    i.node.get? be.startName = some a1 ∧ i.node.get? be.endName = some a2 ∧ x.model.nodes.get? be.startName = some n1 ∧
    n1.loc = be.startLoc ∧ x.model.nodes.get? be.endName = some n2 ∧ n2.loc = be.endLoc

theorem AttInv_init : AttInv Api.init Ids.empty := ⟨IdInv_init, fun b be h => by cases h⟩

theorem AttInv.shift {x : Api} {i : Ids} (h : AttInv x i) (k : ℕ) : AttInv x (i.shift k) := by
  refine ⟨h.toIdInv.shift k, fun b be hb => ?_⟩
  obtain ⟨a1, a2, n1, n2, h1, h2, h3, h4⟩ := h.att b be hb
  refine ⟨k + a1, k + a2, n1, n2, ?_, ?_, ?_, h4⟩
  · have := Dict.map_get? i.beam (fun q : Option ℕ × Option ℕ => (q.1.map (k + ·), q.2.map (k + ·))) b
    rw [h1] at this
    exact this
  · have := Dict.map_get? i.node (k + ·) be.startName
    rw [h2] at this
    exact this
  · have := Dict.map_get? i.node (k + ·) be.endName
    rw [h3] at this
    exact this

theorem AttInv.store {x : Api} {i : Ids} (h : AttInv x i) (a : ℕ) (ch : Change) : AttInv (x.store i a ch) i := by
  refine ⟨h.toIdInv.store a ch, fun b be hb => ?_⟩
  simp only [Api.store, FeModel.store, Dict.mapKV_get?] at hb
  obtain ⟨be', h0, rfl⟩ := Option.map_eq_some_iff.mp hb
  obtain ⟨a1, a2, n1, n2, h1, h2, h3, h4, h5, h6, h7⟩ := h.att b be' h0
  refine ⟨a1, a2, (if i.node.get? be'.startName = some a then { n1 with csys := { n1.csys with O := ch.loc n1.csys.O } } else n1),
    (if i.node.get? be'.endName = some a then { n2 with csys := { n2.csys with O := ch.loc n2.csys.O } } else n2),
    h1, h2, h3, ?_, ?_, ?_, ?_⟩
  · rw [store_node, h4]; rfl
  · simp only [h1, Option.bind_some, h2]
    split
    · show ch.loc n1.loc = _
      rw [h5]
    · exact h5
  · rw [store_node, h6]; rfl
  · simp only [h1, Option.bind_some, h3]
    split
    · show ch.loc n2.loc = _
      rw [h7]
    · exact h7

theorem AttInv.same {x y : Api} {i j : Ids} (h : AttInv x i) (hI : IdInv y j) (h1 : y.model.nodes = x.model.nodes) (h2 : j.node = i.node)
    (h3 : y.model.beams = x.model.beams) (h4 : j.beam = i.beam) : AttInv y j := by
  refine ⟨hI, ?_⟩
  rw [h1, h2, h3, h4]
  exact h.att

theorem AttInv.beam {x : Api} {i : Ids} (h : AttInv x i) {b start stop : String} {n0 n1 : Node} {p : BeamProp} {e : BeamElm}
    (h0 : x.model.nodes.get? start = some n0) (h1 : x.model.nodes.get? stop = some n1) (he : BeamElm.mk? b n0 n1 p = .ok e)
    (hI : IdInv (withBeam x b e) { i with beam := i.beam.set b (i.node.get? start, i.node.get? stop) }) :
    AttInv (withBeam x b e) { i with beam := i.beam.set b (i.node.get? start, i.node.get? stop) } := by
  refine ⟨hI, fun c be hc => ?_⟩
  change (x.model.beams.set b e).get? c = some be at hc
  rw [Dict.get?_set] at hc
  split at hc
  · rename_i ec
    subst ec
    cases hc
    have hk : ∀ {n nd}, x.model.nodes.get? n = some nd → ∃ a, i.node.get? n = some a := by
      intro n nd hn
      exact Dict.get?_of_mem_keys (by rw [h.keys]; exact Dict.mem_keys_of_get? hn)
    obtain ⟨a1, ha1⟩ := hk h0
    obtain ⟨a2, ha2⟩ := hk h1
    unfold BeamElm.mk? at he
    rw [Except.bind_ok_iff] at he
    obtain ⟨cs, -, he⟩ := he
    rw [Except.pure_eq_ok] at he
    cases he
    have e0 := h.name _ _ h0
    have e1 := h.name _ _ h1
    refine ⟨a1, a2, n0, n1, ?_, ?_, ?_, ?_, rfl, ?_, rfl⟩
    · show (i.beam.set _ _).get? _ = _
      rw [Dict.get?_set, if_pos rfl, ha1, ha2]
    · show i.node.get? n0.name = _
      rw [e0, ha1]
    · show i.node.get? n1.name = _
      rw [e1, ha2]
    · show x.model.nodes.get? n0.name = _
      rw [e0, h0]
    · show x.model.nodes.get? n1.name = _
      rw [e1, h1]
  · rename_i ec
    obtain ⟨a1, a2, m1, m2, h2, h3⟩ := h.att c be hc
    refine ⟨a1, a2, m1, m2, ?_, h3⟩
    show (i.beam.set _ _).get? _ = _
    rw [Dict.get?_set, if_neg ec, h2]

theorem AttInv.edit {w : World} {i : Ids} {k : ℕ} {saved : Dict Ids} {c : Call} {y : Api}
    (hG : ∀ n x1 x2 x3, c = .addNode n x1 x2 x3 → n ∉ w.getNodeNames) (h : AttInv w.api i) (hk : ∀ a, i.Uses a → a < k)
    (hc : c.isEdit = true) (he : w.api.edit c = .ok y) : AttInv y (i.after w k saved c).1 := by
  have hI := h.toIdInv.edit (saved := saved) hk hc he
  rw [edit_ok_iff] at he
  cases c <;> simp only [EditEff] at he <;> simp only [Ids.after] at hI ⊢
  case addNode n x1 x2 x3 =>
    subst he
    have hn := hG n x1 x2 x3 rfl
    refine ⟨hI, fun b be hb => ?_⟩
    obtain ⟨a1, a2, n1, n2, h1, h2, h3, h4, h5, h6, h7⟩ := h.att b be hb
    have e1 : n ≠ be.startName := fun e => hn (e ▸ Dict.mem_keys_of_get? h4)
    have e2 : n ≠ be.endName := fun e => hn (e ▸ Dict.mem_keys_of_get? h6)
    refine ⟨a1, a2, n1, n2, h1, ?_, ?_, ?_, h5, ?_, h7⟩
    · exact (Dict.get?_set_ne _ _ e1).trans h2
    · exact (Dict.get?_set_ne _ _ e2).trans h3
    · exact (Dict.get?_set_ne _ _ e1).trans h4
    · exact (Dict.get?_set_ne _ _ e2).trans h6
  case setNodalMass n mass =>
    obtain ⟨nd, hnd, rfl⟩ := he
    refine ⟨hI, fun b be hb => ?_⟩
    obtain ⟨a1, a2, n1, n2, h1, h2, h3, h4, h5, h6, h7⟩ := h.att b be hb
    have key : ∀ {m : String} {l : V3} {q : Node}, w.api.model.nodes.get? m = some q → q.loc = l →
        ∃ q', (w.api.model.nodes.set n { nd with mass := mass }).get? m = some q' ∧ q'.loc = l := by
      intro m l q hm hl
      rw [Dict.get?_set]
      split
      · rename_i e
        subst e
        rw [hnd] at hm
        cases hm
        exact ⟨_, rfl, hl⟩
      · exact ⟨q, hm, hl⟩
    obtain ⟨q1, k1, l1⟩ := key h4 h5
    obtain ⟨q2, k2, l2⟩ := key h6 h7
    exact ⟨a1, a2, q1, q2, h1, h2, h3, k1, l1, k2, l2⟩
  case addBeam => obtain ⟨n0, n1, s, b, e0, e1, _, e3, rfl⟩ := he; exact h.beam e0 e1 e3 hI
  case addSimpleBeam => obtain ⟨n0, n1, b, e0, e1, e3, rfl⟩ := he; exact h.beam e0 e1 e3 hI
  case addShell => obtain ⟨e, _, rfl⟩ := he; exact h.same hI rfl rfl rfl rfl
  case addIsotropicMaterial => subst he; exact h.same hI rfl rfl rfl rfl
  case addBeamSectionGeneral => obtain ⟨mat, sec, _, _, rfl⟩ := he; exact h.same hI rfl rfl rfl rfl
  case addBeamSectionRectangle => obtain ⟨mat, sec, _, _, rfl⟩ := he; exact h.same hI rfl rfl rfl rfl
  case addBeamSectionI => obtain ⟨mat, sec, _, _, rfl⟩ := he; exact h.same hI rfl rfl rfl rfl
  case addBeamSectionBox => obtain ⟨mat, sec, _, _, rfl⟩ := he; exact h.same hI rfl rfl rfl rfl
  case addBeamSectionCircle => obtain ⟨mat, sec, _, _, rfl⟩ := he; exact h.same hI rfl rfl rfl rfl
  case addBeamSectionPipe => obtain ⟨mat, sec, _, _, rfl⟩ := he; exact h.same hI rfl rfl rfl rfl
  case addShellSection => obtain ⟨mat, _, rfl⟩ := he; exact h.same hI rfl rfl rfl rfl
  case addLoadpattern name => subst he; exact h.same hI rfl rfl rfl rfl
  case setNodalRestraint n f =>
    have h1 : y.model.nodes = w.api.model.nodes ∧ y.model.beams = w.api.model.beams := by
      rw [he]
      split <;> exact ⟨rfl, rfl⟩
    refine h.same hI h1.1 ?_ h1.2 ?_
    · split <;> rfl
    · split <;> rfl
  case setLoadcaseNodalRestraint => obtain ⟨lc, _, rfl⟩ := he; exact h.same hI rfl rfl rfl rfl
  case addStaticCase => subst he; exact h.same hI rfl rfl rfl rfl
  case addModalCase => subst he; exact h.same hI rfl rfl rfl rfl
  case addCasePattern => obtain ⟨lc, ref, p, _, _, _, rfl⟩ := he; exact h.same hI rfl rfl rfl rfl
  case setNodalLoad pattern n f =>
    obtain ⟨ref, p, href, hp, rfl⟩ := he
    refine h.same hI rfl ?_ rfl ?_
    · split <;> rfl
    · split <;> rfl
  case setBeamLoadDistributed => obtain ⟨ref, p, _, _, rfl⟩ := he; exact h.same hI rfl rfl rfl rfl
  case setBeamLoadConcentrated => obtain ⟨ref, p, _, _, rfl⟩ := he; exact h.same hI rfl rfl rfl rfl
  all_goals exact absurd hc (by simp [Call.isEdit])

open Spec in
theorem AttInv_run (env : Env) (acts : List ScriptStep) (h : ScriptNoReadd env Shared.init acts) : SInv AttInv (Shared.init.run env acts) := by
  have : ∀ s, ScriptNoReadd env s acts → SInv AttInv s → SInv AttInv (s.run env acts) := by
    clear h
    induction acts with
    | nil => exact fun s _ h => h
    | cons a t ih =>
      intro s hG h
      refine ih _ hG.2 (SInv_step (fun w c => ∀ n x y z, c = .addNode n x y z → n ∉ w.getNodeNames) env
        (fun w i k saved c y hG h hk hc he => AttInv.edit hG h hk hc he) (fun x i k h => h.shift k) (fun x i a ch h => h.store a ch) h a ?_)
      rintro c rfl n x y z rfl
      exact hG.1 n x y z rfl
  exact this _ h (SInv_init AttInv_init)

end Hyperstatic
