import Verif.Model.Solver
import Verif.Lemmas.Edit
import Mathlib.Algebra.BigOperators.Fin
import Mathlib.Algebra.BigOperators.Ring.Finset
import Mathlib.Tactic.Ring

namespace Hyperstatic
open Matrix

/-! sums over triplets -/

/-- bilinear form of a sparse matrix -/
noncomputable def bil (ents : List (ℕ × ℕ × ℝ)) (v u : ℕ → ℝ) : ℝ := (ents.map fun e => v e.1 * e.2.2 * u e.2.1).sum

theorem bil_nil (v u : ℕ → ℝ) : bil [] v u = 0 := rfl
theorem bil_append (a b : List (ℕ × ℕ × ℝ)) (v u : ℕ → ℝ) : bil (a ++ b) v u = bil a v u + bil b v u := by
  simp [bil]

theorem bil_flatten (ls : List (List (ℕ × ℕ × ℝ))) (v u : ℕ → ℝ) :
    bil ls.flatten v u = (ls.map fun l => bil l v u).sum := by
  induction ls with
  | nil => rfl
  | cons l ls ih => rw [List.flatten_cons, bil_append, ih, List.map_cons, List.sum_cons]

theorem entsGet_bil (N M : ℕ) (ents : List (ℕ × ℕ × ℝ)) (h : ∀ e ∈ ents, e.1 < N ∧ e.2.1 < M) (v u : ℕ → ℝ) :
    ∑ i ∈ Finset.range N, ∑ j ∈ Finset.range M,
      v i * (ents.map fun e => if e.1 = i ∧ e.2.1 = j then e.2.2 else 0).sum * u j = bil ents v u := by
  induction ents with
  | nil => simp [bil]
  | cons e es ih =>
    have ih := ih (fun e he => h e (List.mem_cons_of_mem _ he))
    obtain ⟨h1, h2⟩ := h e List.mem_cons_self
    simp only [List.map_cons, List.sum_cons, mul_add, add_mul, Finset.sum_add_distrib, ih, bil]
    congr 1
    rw [Finset.sum_eq_single_of_mem e.1 (Finset.mem_range.mpr h1)]
    · rw [Finset.sum_eq_single_of_mem e.2.1 (Finset.mem_range.mpr h2)]
      · simp
      · intro b _ hb; simp [Ne.symm hb]
    · intro b _ hb; simp [Ne.symm hb]

theorem Coo.get_bil (A : Coo) (h : ∀ e ∈ A.ents, e.1 < A.nrow ∧ e.2.1 < A.ncol) (v u : ℕ → ℝ) :
    ∑ i ∈ Finset.range A.nrow, ∑ j ∈ Finset.range A.ncol, v i * A.get i j * u j = bil A.ents v u :=
  entsGet_bil A.nrow A.ncol A.ents h v u

/-- an entry is the form of two unit vectors -/
theorem Coo.get_eq_bil (A : Coo) (i j : ℕ) :
    A.get i j = bil A.ents (fun k => if k = i then 1 else 0) (fun k => if k = j then 1 else 0) := by
  unfold Coo.get bil
  congr 1
  apply List.map_congr_left
  intro e _
  by_cases h1 : e.1 = i <;> by_cases h2 : e.2.1 = j <;> simp [h1, h2]

theorem Coo.mk?_ok_iff (m n : ℕ) (ents : List (ℕ × ℕ × ℝ)) (K : Coo) :
    Coo.mk? m n ents = .ok K ↔ K = ⟨m, n, ents⟩ ∧ ∀ e ∈ ents, e.1 < m ∧ e.2.1 < n := by
  unfold Coo.mk?
  split
  · rename_i h
    simp only [Except.ok.injEq]
    constructor
    · rintro rfl
      exact ⟨rfl, fun e he => by simpa using List.all_eq_true.mp h e he⟩
    · rintro ⟨rfl, _⟩; rfl
  · rename_i h
    simp only [reduceCtorEq, false_iff, not_and]
    rintro rfl h2
    apply h
    rw [List.all_eq_true]
    intro e he
    simpa using h2 e he

theorem sum_finRange {n : ℕ} (f : Fin n → ℝ) : ((List.finRange n).map f).sum = ∑ i, f i := by
  rw [← List.ofFn_eq_map, List.sum_ofFn]

theorem sum_filterMap_ne {n : ℕ} (a : Fin n → ℝ) (g : Fin n → ℝ → ℝ) (hg : ∀ i, g i 0 = 0) (l : List (Fin n)) :
    ((l.filterMap fun c => if a c ≠ 0 then some (g c (a c)) else none)).sum = (l.map fun c => g c (a c)).sum := by
  induction l with
  | nil => rfl
  | cons c l ih =>
    rw [List.filterMap_cons, List.map_cons, List.sum_cons]
    by_cases h : a c = 0
    · simp only [h, ne_eq, not_true_eq_false, if_false, hg, zero_add]
      exact ih
    · simp only [ne_eq, h, not_false_eq_true, if_true, List.sum_cons]
      rw [ih]

theorem scatter_bil {n : ℕ} (dof : ℕ → ℕ) (A : Matrix (Fin n) (Fin n) ℝ) (v u : ℕ → ℝ) :
    bil (scatter dof A) v u = (fun k : Fin n => v (dof k.val)) ⬝ᵥ (A *ᵥ fun k : Fin n => u (dof k.val)) := by
  unfold bil scatter denseEntries
  rw [List.map_map, List.map_flatMap, List.flatMap_def, List.sum_flatten, List.map_map]
  simp only [List.map_filterMap, Function.comp_def]
  have : ∀ r : Fin n, (List.filterMap (fun c => Option.map (fun e : Fin n × Fin n × ℝ => v (dof e.1.val) * e.2.2 * u (dof e.2.1.val))
      (if A r c ≠ 0 then some (r, c, A r c) else none)) (List.finRange n)).sum
      = ∑ c, v (dof r.val) * A r c * u (dof c.val) := by
    intro r
    rw [← sum_finRange, ← sum_filterMap_ne (A r) (fun c x => v (dof r.val) * x * u (dof c.val)) (by intro i; simp)]
    congr 1
    apply List.filterMap_congr
    intro c _
    by_cases h : A r c = 0 <;> simp [h]
  simp only [this]
  rw [sum_finRange]
  simp only [dotProduct, Matrix.mulVec, Finset.mul_sum, mul_assoc]

theorem mem_scatter {n : ℕ} {dof : ℕ → ℕ} {A : Matrix (Fin n) (Fin n) ℝ} {e : ℕ × ℕ × ℝ} (h : e ∈ scatter dof A) :
    ∃ r c : Fin n, e.1 = dof r.val ∧ e.2.1 = dof c.val := by
  unfold scatter denseEntries at h
  simp only [List.mem_map, List.mem_flatMap, List.mem_filterMap] at h
  obtain ⟨e', ⟨r, _, c, _, h1⟩, rfl⟩ := h
  split at h1
  · cases h1; exact ⟨r, c, rfl, rfl⟩
  · cases h1

/-! `mapM` in `Except` -/

theorem mapM_ok_cons {α β : Type} {f : α → Except PyErr β} {a : α} {l : List α} {r : List β} :
    (a :: l).mapM f = .ok r ↔ ∃ b bs, f a = .ok b ∧ l.mapM f = .ok bs ∧ r = b :: bs := by
  rw [List.mapM_cons]
  simp only [Except.bind_ok_iff, Except.pure_eq_ok, Except.ok.injEq]
  constructor
  · rintro ⟨b, h1, bs, h2, rfl⟩; exact ⟨b, bs, h1, h2, rfl⟩
  · rintro ⟨b, bs, h1, h2, rfl⟩; exact ⟨b, h1, bs, h2, rfl⟩

theorem mapM_ok_nil {α β : Type} {f : α → Except PyErr β} {r : List β} : ([] : List α).mapM f = .ok r ↔ r = [] := by
  rw [List.mapM_nil]; simp [Except.pure_eq_ok, eq_comm]

/-- success of a loop: every step succeeds -/
theorem mapM_ok_of_forall {α β : Type} {f : α → Except PyErr β} {l : List α} (g : α → β) (h : ∀ a ∈ l, f a = .ok (g a)) :
    l.mapM f = .ok (l.map g) := by
  induction l with
  | nil => rfl
  | cons a l ih =>
    rw [mapM_ok_cons]
    exact ⟨_, _, h a List.mem_cons_self, ih (fun a ha => h a (List.mem_cons_of_mem _ ha)), rfl⟩

theorem mapM_ok_forall {α β : Type} {f : α → Except PyErr β} {l : List α} {r : List β} (h : l.mapM f = .ok r) :
    ∀ a ∈ l, ∃ b, f a = .ok b := by
  induction l generalizing r with
  | nil => simp
  | cons a l ih =>
    obtain ⟨b, bs, h1, h2, rfl⟩ := mapM_ok_cons.mp h
    intro a' ha
    rcases List.mem_cons.mp ha with rfl | ha
    · exact ⟨b, h1⟩
    · exact ih h2 a' ha

/-- the results of a successful loop, for a function that agrees with `g` wherever it succeeds -/
theorem mapM_ok_eq {α β : Type} {f : α → Except PyErr β} {l : List α} {r : List β} (h : l.mapM f = .ok r) (g : α → β)
    (hg : ∀ a ∈ l, ∀ b, f a = .ok b → b = g a) : r = l.map g := by
  have := mapM_ok_of_forall (f := f) (l := l) g (fun a ha => by
    obtain ⟨b, hb⟩ := mapM_ok_forall h a ha
    rw [hb, hg a ha b hb])
  rw [this] at h
  exact (Except.ok.inj h).symm

/-- loops over the keys of a dictionary -/
theorem map_keys_eq {α β : Type} (d : Dict α) (hwf : d.WF) (f : String → β) (g : String × α → β)
    (h : ∀ k v, d.get? k = some v → f k = g (k, v)) : d.keys.map f = d.map g := by
  unfold Dict.keys
  rw [List.map_map]
  apply List.map_congr_left
  rintro ⟨k, v⟩ hm
  exact h k v ((Dict.mem_iff_get? hwf k v).mp hm)

theorem dict_mem_keys {α : Type} {d : Dict α} {k : String} (h : k ∈ d.keys) : ∃ v, d.get? k = some v := by
  rw [← Dict.get?_isSome_iff] at h
  exact Option.isSome_iff_exists.mp h

end Hyperstatic
