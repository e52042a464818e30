import Verif.Model.Solver
import Verif.Lemmas.Edit
import Verif.Spec.Reduce

namespace Hyperstatic

open Matrix

theorem range_split {N r : ℕ} (h : r < N) : List.range N = List.range r ++ r :: List.range' (r + 1) (N - r - 1) := by
  rw [List.range_eq_range', List.range_eq_range']
  have : N = r + (N - r - 1 + 1) := by omega
  conv_lhs => rw [this]
  rw [← List.range'_append_1]
  simp [List.range'_succ]

theorem mem_free {N : ℕ} {fixed : List ℕ} {r : ℕ} : r ∈ Spec.free N fixed ↔ r < N ∧ r ∉ fixed := by
  simp [Spec.free]

theorem free_nodup (N : ℕ) (fixed : List ℕ) : (Spec.free N fixed).Nodup :=
  List.Nodup.filter _ List.nodup_range

theorem free_sorted (N : ℕ) (fixed : List ℕ) : (Spec.free N fixed).Pairwise (· < ·) :=
  List.Pairwise.filter _ List.pairwise_lt_range

/-- number of free dofs below `r` -/
theorem free_get {N : ℕ} {fixed : List ℕ} {r : ℕ} (hr : r < N) (hf : r ∉ fixed) :
    (Spec.free N fixed)[((List.range r).filter (fun i => decide (i ∉ fixed))).length]? = some r := by
  unfold Spec.free
  rw [range_split hr, List.filter_append, List.filter_cons, if_pos (by simpa using hf)]
  rw [List.getElem?_append_right (le_refl _)]
  simp

theorem length_filter_not {l : List ℕ} (p : ℕ → Bool) :
    (l.filter (fun i => !p i)).length = l.length - (l.filter p).length := by
  have := List.length_eq_length_filter_add (l := l) p
  omega

theorem count_range_mem {fixed : List ℕ} (hn : fixed.Nodup) (r : ℕ) :
    ((List.range r).filter (fun i => decide (i ∈ fixed))).length = (fixed.filter (fun i => decide (i < r))).length := by
  apply List.Perm.length_eq
  rw [List.perm_ext_iff_of_nodup (List.Nodup.filter _ List.nodup_range) (List.Nodup.filter _ hn)]
  intro a
  simp [and_comm]

theorem count_free {fixed : List ℕ} (hn : fixed.Nodup) (r : ℕ) :
    ((List.range r).filter (fun i => decide (i ∉ fixed))).length = r - (fixed.filter (fun i => decide (i < r))).length := by
  rw [← count_range_mem hn]
  have : (fun i => decide (i ∉ fixed)) = (fun i => !decide (i ∈ fixed)) := by funext i; simp
  rw [this, length_filter_not, List.length_range]

theorem free_length {N : ℕ} {fixed : List ℕ} (hn : fixed.Nodup) (hN : ∀ i ∈ fixed, i < N) :
    (Spec.free N fixed).length = N - fixed.length := by
  unfold Spec.free
  rw [count_free hn]
  congr 2
  exact List.filter_eq_self.mpr (by simpa using hN)

/-- `row[row>i]-=1` for decreasing `i` -/
theorem foldl_shiftDown (l : List ℕ) (hl : l.Pairwise (· > ·)) (r : ℕ) (hr : r ∉ l) :
    l.foldl (fun r i => Assembly.shiftDown i r) r = r - (l.filter (fun i => decide (i < r))).length := by
  induction l generalizing r with
  | nil => simp
  | cons i l ih =>
    rw [List.pairwise_cons] at hl
    simp only [List.mem_cons, not_or] at hr
    rw [List.foldl_cons, Assembly.shiftDown]
    by_cases h : i < r
    · rw [if_pos h]
      have h1 : ∀ j ∈ l, j < r := fun j hj => by have := hl.1 j hj; omega
      have h2 : ∀ j ∈ l, j < r - 1 := fun j hj => by have := hl.1 j hj; omega
      rw [ih hl.2 (r - 1) (fun hm => by have := h2 _ hm; omega)]
      rw [List.filter_cons, if_pos (by simpa using h)]
      rw [List.filter_eq_self.mpr (by simpa using h2), List.filter_eq_self.mpr (by simpa using h1)]
      simp only [List.length_cons]; omega
    · rw [if_neg h, ih hl.2 r hr.2, List.filter_cons, if_neg (by simpa using h)]

theorem mergeSort_sorted (l : List ℕ) : (l.mergeSort (· ≤ ·)).Pairwise (· ≤ ·) := by
  have := List.pairwise_mergeSort (le := fun a b : ℕ => decide (a ≤ b)) (by simp; omega) (by simp; omega) l
  simpa using this

theorem mergeSort_lt {l : List ℕ} (hn : l.Nodup) : (l.mergeSort (· ≤ ·)).Pairwise (· < ·) := by
  have h1 := mergeSort_sorted l
  have h2 : (l.mergeSort (· ≤ ·)).Nodup := (List.mergeSort_perm l _).nodup_iff.mpr hn
  exact (h1.and h2).imp (fun ⟨a, b⟩ => lt_of_le_of_ne a b)

/-- the renumbering is the position among the free dofs -/
theorem renumber_eq {fixed : List ℕ} (hn : fixed.Nodup) {r : ℕ} (hr : r ∉ fixed) :
    Assembly.renumber fixed r = ((List.range r).filter (fun i => decide (i ∉ fixed))).length := by
  unfold Assembly.renumber
  have hp := List.mergeSort_perm fixed (fun a b => decide (a ≤ b))
  have hm : r ∉ (fixed.mergeSort (fun a b => decide (a ≤ b))).reverse := by
    rw [List.mem_reverse, hp.mem_iff]; exact hr
  rw [foldl_shiftDown _ (List.pairwise_reverse.mpr (mergeSort_lt hn)) r hm, count_free hn]
  congr 1
  rw [List.filter_reverse, List.length_reverse]
  exact (hp.filter _).length_eq

theorem renumber_get {N : ℕ} {fixed : List ℕ} (hn : fixed.Nodup) {r : ℕ} (hr : r < N) (hf : r ∉ fixed) :
    (Spec.free N fixed)[Assembly.renumber fixed r]? = some r := by
  rw [renumber_eq hn hf]; exact free_get hr hf

theorem renumber_iff {N : ℕ} {fixed : List ℕ} (hn : fixed.Nodup) {r : ℕ} (hr : r < N) (hf : r ∉ fixed)
    {i : ℕ} {g : ℕ} (hi : (Spec.free N fixed)[i]? = some g) : Assembly.renumber fixed r = i ↔ r = g := by
  have hg := renumber_get hn hr hf
  constructor
  · rintro rfl
    rw [hg] at hi; exact Option.some.inj hi
  · rintro rfl
    obtain ⟨h1, e1⟩ := List.getElem?_eq_some_iff.mp hg
    obtain ⟨h2, e2⟩ := List.getElem?_eq_some_iff.mp hi
    exact (List.Nodup.getElem_inj_iff (free_nodup N fixed)).mp (e1.trans e2.symm)

theorem dropMatrix_get {K K' : Coo} {fixed : List ℕ} (hn : fixed.Nodup)
    (hK : ∀ e ∈ K.ents, e.1 < K.nrow ∧ e.2.1 < K.ncol) (h : Assembly.dropMatrixDof K fixed = .ok K')
    {i j gi gj : ℕ} (hi : (Spec.free K.nrow fixed)[i]? = some gi) (hj : (Spec.free K.ncol fixed)[j]? = some gj) :
    K'.get i j = K.get gi gj := by
  unfold Assembly.dropMatrixDof at h
  simp only at h
  split at h
  · unfold Coo.mk? at h
    split at h
    · simp only [Except.ok.injEq] at h
      subst h
      unfold Coo.get
      simp only [List.map_map]
      have hgi := (mem_free.mp (List.mem_of_getElem? hi)).2
      have hgj := (mem_free.mp (List.mem_of_getElem? hj)).2
      generalize K.ents = l at hK
      induction l with
      | nil => rfl
      | cons e l ih =>
        have ih' := ih (fun e he => hK e (List.mem_cons_of_mem _ he))
        obtain ⟨h1, h2⟩ := hK e List.mem_cons_self
        rw [List.filter_cons]
        by_cases hf : e.1 ∉ fixed ∧ e.2.1 ∉ fixed
        · rw [if_pos (by simpa using hf)]
          rw [List.map_cons, List.sum_cons, List.map_cons, List.sum_cons, ih']
          congr 1
          simp only [Function.comp, renumber_iff hn h1 hf.1 hi, renumber_iff hn h2 hf.2 hj]
        · rw [if_neg (by simpa using hf), List.map_cons, List.sum_cons, ih']
          rw [if_neg, zero_add]
          rintro ⟨rfl, rfl⟩
          exact hf ⟨hgi, hgj⟩
    · simp at h
  · simp at h

theorem dropMatrix_shape {K K' : Coo} {fixed : List ℕ} (h : Assembly.dropMatrixDof K fixed = .ok K') :
    fixed.length ≤ K.nrow ∧ fixed.length ≤ K.ncol ∧ K'.nrow = K.nrow - fixed.length ∧
    K'.ncol = K.ncol - fixed.length := by
  unfold Assembly.dropMatrixDof at h
  simp only at h
  split at h
  · rename_i hl
    unfold Coo.mk? at h
    split at h
    · simp only [Except.ok.injEq] at h
      subst h
      exact ⟨hl.1, hl.2, rfl, rfl⟩
    · simp at h
  · simp at h

/-- elimination never fails for restraints inside the matrix -/
theorem dropMatrix_ok {K : Coo} {fixed : List ℕ} (hn : fixed.Nodup) (hs : K.nrow = K.ncol)
    (hN : ∀ i ∈ fixed, i < K.nrow)
    (hK : ∀ e ∈ K.ents, e.1 < K.nrow ∧ e.2.1 < K.ncol) : ∃ K', Assembly.dropMatrixDof K fixed = .ok K' := by
  have hlen : fixed.length ≤ K.nrow := by
    have h2 : (fixed.toFinset).card ≤ (Finset.range K.nrow).card :=
      Finset.card_le_card (fun i hi => by simpa using hN i (by simpa using hi))
    rw [List.toFinset_card_of_nodup hn] at h2
    simpa using h2
  unfold Assembly.dropMatrixDof
  simp only
  rw [if_pos ⟨hlen, hs ▸ hlen⟩]
  unfold Coo.mk?
  rw [if_pos]
  · exact ⟨_, rfl⟩
  · rw [List.all_eq_true]
    intro e he
    obtain ⟨e0, h0, rfl⟩ := List.mem_map.mp he
    obtain ⟨hm, hp⟩ := List.mem_filter.mp h0
    simp only [Bool.and_eq_true, decide_eq_true_eq] at hp
    obtain ⟨h1, h2⟩ := hK e0 hm
    have g1 := (List.getElem?_eq_some_iff.mp (renumber_get hn h1 hp.1)).1
    have g2 := (List.getElem?_eq_some_iff.mp (renumber_get hn h2 hp.2)).1
    rw [free_length hn hN] at g1
    rw [free_length hn (hs ▸ hN)] at g2
    simp [g1, g2]

theorem dropVector_eq (V : Coo) (fixed : List ℕ) :
    Assembly.dropVectorDof V fixed = (Spec.free V.nrow fixed).map (fun i => V.get i 0) := rfl

/-! expansion -/

theorem expandLoop_eq (is rs : List ℕ) (his : is.Pairwise (· < ·)) (hrs : rs.Pairwise (· < ·)) (hsub : ∀ r ∈ rs, r ∈ is)
    (val : ℕ → ℝ) :
    expandLoop is rs ((is.filter (fun i => decide (i ∉ rs))).map val)
      = .ok (is.map (fun i => if i ∈ rs then 0 else val i)) := by
  induction is generalizing rs with
  | nil => simp [expandLoop]
  | cons i is ih =>
    rw [List.pairwise_cons] at his
    cases rs with
    | nil =>
      have := ih [] his.2 List.Pairwise.nil (by simp)
      simp only [List.not_mem_nil, not_false_eq_true, decide_true, List.filter_true, if_false] at this ⊢
      simp only [List.map_cons, expandLoop, this]
      rfl
    | cons r rs =>
      rw [List.pairwise_cons] at hrs
      by_cases h : i = r
      · subst h
        have hr : i ∉ rs := fun hm => absurd (hrs.1 i hm) (lt_irrefl _)
        have key := ih rs his.2 hrs.2 (by
          intro q hq
          have h1 := hsub q (List.mem_cons_of_mem _ hq)
          have h2 := hrs.1 q hq
          rcases List.mem_cons.mp h1 with rfl | h1
          · omega
          · exact h1)
        have e1 : is.filter (fun j => decide (j ∉ i :: rs)) = is.filter (fun j => decide (j ∉ rs)) := by
          apply List.filter_congr
          intro j hj
          have := his.1 j hj
          have hji : j ≠ i := by omega
          simp [hji]
        have e2 : is.map (fun j => if j ∈ i :: rs then (0 : ℝ) else val j)
            = is.map (fun j => if j ∈ rs then 0 else val j) := by
          apply List.map_congr_left
          intro j hj
          have := his.1 j hj
          have hji : j ≠ i := by omega
          simp [hji]
        rw [List.filter_cons, if_neg (by simp), e1, List.map_cons, e2]
        simp only [expandLoop, if_pos, key]
        simp [bind, Except.bind, pure, Except.pure]
      · have hri : i < r := by
          have h1 := hsub r List.mem_cons_self
          rcases List.mem_cons.mp h1 with h1 | h1
          · exact absurd h1.symm h
          · exact his.1 r h1
        have hir : i ∉ r :: rs := by
          intro hm
          rcases List.mem_cons.mp hm with hm | hm
          · exact h hm
          · have := hrs.1 i hm; omega
        have key := ih (r :: rs) his.2 (List.pairwise_cons.mpr hrs) (by
          intro q hq
          have h1 := hsub q hq
          rcases List.mem_cons.mp h1 with rfl | h1
          · exact absurd hq hir
          · exact h1)
        rw [List.filter_cons, if_pos (by simpa using hir), List.map_cons, List.map_cons, if_neg hir]
        simp only [expandLoop, if_neg h, key]
        rfl

theorem expandDisp_eq (n : ℕ) (fixed : List ℕ) (hn : fixed.Nodup) (hN : ∀ i ∈ fixed, i < n * 6) (val : ℕ → ℝ) :
    expandDisp n fixed ((Spec.free (n * 6) fixed).map val)
      = .ok ((List.range (n * 6)).map (fun i => if i ∈ fixed then 0 else val i)) := by
  have hp := List.mergeSort_perm fixed (fun a b => decide (a ≤ b))
  have := expandLoop_eq (List.range (n * 6)) (fixed.mergeSort (· ≤ ·)) List.pairwise_lt_range (mergeSort_lt hn)
    (by intro r hr; rw [hp.mem_iff] at hr; simpa using hN r hr) val
  unfold expandDisp
  simp only [hp.mem_iff] at this
  exact this

/-- every list of the right length is of the form used above -/
theorem exists_val (l : List ℕ) (hn : l.Nodup) (delta : List ℝ) (h : delta.length = l.length) :
    ∃ val : ℕ → ℝ, delta = l.map val := by
  refine ⟨fun i => delta.getD (l.idxOf i) 0, ?_⟩
  apply List.ext_getElem
  · simp [h]
  · intro k h1 h2
    have hk : k < l.length := h ▸ h1
    rw [List.getElem_map, List.Nodup.idxOf_getElem hn k hk]
    simp [List.getD, h1]

/-! `np.insert` loop -/

theorem npInsert_step (N r : ℕ) (rs : List ℕ) (hr : r < N) (hrs : ∀ q ∈ rs, r < q) (val : ℕ → ℝ) :
    npInsertZero (((List.range N).filter (fun i => decide (i ∉ r :: rs))).map val) r
      = .ok (((List.range N).filter (fun i => decide (i ∉ rs))).map (fun i => if i = r then 0 else val i)) := by
  have hrr : r ∉ rs := fun h => absurd (hrs r h) (lt_irrefl _)
  have e1 : (List.range r).filter (fun i => decide (i ∉ r :: rs)) = List.range r := by
    apply List.filter_eq_self.mpr
    intro i hi
    have hi : i < r := by simpa using hi
    simp only [List.mem_cons, not_or, decide_eq_true_eq]
    exact ⟨by omega, fun h => by have := hrs i h; omega⟩
  have e2 : (List.range r).filter (fun i => decide (i ∉ rs)) = List.range r := by
    apply List.filter_eq_self.mpr
    intro i hi
    have hi : i < r := by simpa using hi
    simp only [decide_eq_true_eq]
    exact fun h => by have := hrs i h; omega
  have e3 : (List.range' (r + 1) (N - r - 1)).filter (fun i => decide (i ∉ r :: rs))
      = (List.range' (r + 1) (N - r - 1)).filter (fun i => decide (i ∉ rs)) := by
    apply List.filter_congr
    intro i hi
    have : i ≠ r := by simp at hi; omega
    simp [this]
  rw [range_split hr]
  simp only [List.filter_append, List.filter_cons, e1, e2, e3]
  rw [if_neg (by simp), if_pos (by simpa using hrr)]
  simp only [List.map_append, List.map_cons, if_true]
  unfold npInsertZero
  rw [if_pos (by simp)]
  rw [List.take_left' (by simp), List.drop_left' (by simp)]
  congr 2
  · apply List.map_congr_left
    intro i hi
    have : i ≠ r := by simp at hi; omega
    simp [this]
  · congr 1
    apply List.map_congr_left
    intro i hi
    have : i ≠ r := by simp at hi; omega
    simp [this]

theorem npInsert_all (N : ℕ) (rs : List ℕ) (hs : rs.Pairwise (· < ·)) (hN : ∀ i ∈ rs, i < N) (val : ℕ → ℝ) :
    rs.foldlM npInsertZero (((List.range N).filter (fun i => decide (i ∉ rs))).map val)
      = .ok ((List.range N).map (fun i => if i ∈ rs then 0 else val i)) := by
  induction rs generalizing val with
  | nil => simp; rfl
  | cons r rs ih =>
    rw [List.pairwise_cons] at hs
    rw [List.foldlM_cons, npInsert_step N r rs (hN r List.mem_cons_self) hs.1, Except.bind_ok,
      ih hs.2 (fun i hi => hN i (List.mem_cons_of_mem _ hi))]
    congr 1
    apply List.map_congr_left
    intro i _
    by_cases h : i = r
    · subst h; simp
    · simp [h]

end Hyperstatic
