import Verif.Model.Py

namespace Hyperstatic
namespace Dict

variable {α : Type _}

@[simp] theorem get?_nil (k : String) : get? ([] : Dict α) k = none := rfl

theorem get?_cons (k' : String) (v : α) (t : Dict α) (k : String) :
    get? ((k', v) :: t) k = if k' = k then some v else get? t k := rfl

theorem get?_set (d : Dict α) (k : String) (v : α) (k' : String) :
    get? (set d k v) k' = if k = k' then some v else get? d k' := by
  induction d with
  | nil => simp [set, get?]
  | cons a t ih =>
    obtain ⟨ka, va⟩ := a
    unfold set
    by_cases h : ka = k
    · subst h; simp [get?]; split <;> rfl
    · simp only [h, if_false, get?_cons, ih]
      by_cases h2 : ka = k'
      · subst h2; simp [Ne.symm h]
      · simp [h2]

@[simp] theorem get?_set_same (d : Dict α) (k : String) (v : α) :
    get? (set d k v) k = some v := by simp [get?_set]

theorem get?_set_ne (d : Dict α) {k k' : String} (v : α) (h : k ≠ k') :
    get? (set d k v) k' = get? d k' := by simp [get?_set, h]

theorem get?_isSome_iff (d : Dict α) (k : String) : (get? d k).isSome ↔ k ∈ keys d := by
  induction d with
  | nil => simp [keys]
  | cons a t ih =>
    obtain ⟨ka, va⟩ := a
    simp only [get?_cons, keys, List.map_cons, List.mem_cons]
    by_cases h : ka = k
    · simp [h]
    · simp only [h, if_false]
      rw [ih]; simp [keys, Ne.symm h]

theorem get?_eq_none_iff (d : Dict α) (k : String) : get? d k = none ↔ k ∉ keys d := by
  rw [← get?_isSome_iff]; cases get? d k <;> simp

theorem contains_iff (d : Dict α) (k : String) : contains d k = true ↔ k ∈ keys d := by
  simp [contains, get?_isSome_iff]

theorem keys_set (d : Dict α) (k : String) (v : α) :
    keys (set d k v) = if k ∈ keys d then keys d else keys d ++ [k] := by
  induction d with
  | nil => simp [set, keys]
  | cons a t ih =>
    obtain ⟨ka, va⟩ := a
    unfold set
    by_cases h : ka = k
    · simp [h, keys]
    · simp only [h, if_false]
      simp only [keys, List.map_cons, List.mem_cons] at ih ⊢
      rw [ih]
      have : ¬ k = ka := fun e => h e.symm
      by_cases h2 : k ∈ List.map Prod.fst t <;> simp [h2, this]

theorem set_wf {d : Dict α} (h : WF d) (k : String) (v : α) : WF (set d k v) := by
  unfold WF at *
  rw [keys_set]
  split
  · exact h
  · rename_i hk
    rw [List.nodup_append]
    refine ⟨h, by simp, ?_⟩
    intro a ha b hb
    simp at hb; subst hb; rintro rfl; exact hk ha

theorem nil_wf : WF ([] : Dict α) := by simp [WF, keys]

theorem length_set (d : Dict α) (k : String) (v : α) :
    (set d k v).length = if k ∈ keys d then d.length else d.length + 1 := by
  have h := congrArg List.length (keys_set d k v)
  simp only [keys, List.length_map] at h
  rw [h]
  by_cases hk : k ∈ keys d
  · simp only [keys] at hk; simp [hk, keys]
  · simp only [keys] at hk; simp [hk, keys]

/-- Membership in a well-formed dictionary is lookup. -/
theorem mem_iff_get? {d : Dict α} (h : WF d) (k : String) (v : α) :
    (k, v) ∈ d ↔ get? d k = some v := by
  induction d with
  | nil => simp
  | cons a t ih =>
    obtain ⟨ka, va⟩ := a
    simp only [WF, keys, List.map_cons, List.nodup_cons] at h
    have ih := ih (by simpa [WF, keys] using h.2)
    simp only [List.mem_cons, get?_cons, Prod.mk.injEq]
    by_cases hk : ka = k
    · subst hk
      simp only [if_true, Option.some.injEq]
      constructor
      · rintro (⟨_, rfl⟩ | hm)
        · rfl
        · exact absurd (List.mem_map_of_mem (f := Prod.fst) hm) h.1
      · intro e; exact Or.inl ⟨trivial, e.symm⟩
    · have hk' : ¬ k = ka := fun e => hk e.symm
      simp [hk, hk', ih]

theorem getItem_eq_ok_iff (d : Dict α) (k : String) (v : α) :
    getItem d k = .ok v ↔ get? d k = some v := by
  unfold getItem
  cases get? d k <;> simp

theorem set_of_not_mem {d : Dict α} {k : String} (h : k ∉ keys d) (v : α) :
    set d k v = d ++ [(k, v)] := by
  induction d with
  | nil => simp [set]
  | cons a t ih =>
    obtain ⟨ka, va⟩ := a
    simp only [keys, List.map_cons, List.mem_cons, not_or] at h
    unfold set
    have : ¬ ka = k := fun e => h.1 e.symm
    simp [this, ih h.2]

end Dict
end Hyperstatic
