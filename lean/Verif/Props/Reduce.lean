import Verif.Lemmas.Drop

/-
Properties C17, C18, C19, C53: elimination of restrained degrees of freedom and expansion of the solution.
-/

namespace Hyperstatic

open Spec

/-! ## C17 Eliminating restrained rows and columns keeps the right entries -/

/-- For every square sparse matrix and every duplicate-free list of restraints inside it, in any order, elimination
succeeds, the order of the result is the number of free degrees of freedom, and entry `(i,j)` is the entry of the full
matrix at the `i`-th and `j`-th free degree of freedom. -/
theorem C17_drop_matrix (N : ℕ) (ents : List (ℕ × ℕ × ℝ)) (K : Coo) (hK : Coo.mk? N N ents = .ok K)
    (fixed : List ℕ) (hn : fixed.Nodup) (hN : ∀ i ∈ fixed, i < N) :
    ∃ K', Assembly.dropMatrixDof K fixed = .ok K' ∧
      K'.nrow = (free N fixed).length ∧ K'.ncol = (free N fixed).length ∧
      ∀ (i j : ℕ) (hi : i < (free N fixed).length) (hj : j < (free N fixed).length),
        K'.get i j = K.get (free N fixed)[i] (free N fixed)[j] := by
  unfold Coo.mk? at hK
  split at hK
  · rename_i hall
    simp only [Except.ok.injEq] at hK
    subst hK
    have hents : ∀ e ∈ ents, e.1 < N ∧ e.2.1 < N := by
      intro e he
      have := List.all_eq_true.mp hall e he
      simpa using this
    obtain ⟨K', h⟩ := dropMatrix_ok (K := ⟨N, N, ents⟩) hn rfl hN hents
    obtain ⟨_, _, h3, h4⟩ := dropMatrix_shape h
    refine ⟨K', h, ?_, ?_, ?_⟩
    · rw [h3, free_length hn hN]
    · rw [h4, free_length hn hN]
    · intro i j hi hj
      exact dropMatrix_get hn hents h (by simp [hi]) (by simp [hj])
  · simp at hK

/-- The order in which the restraints are given does not matter. -/
theorem C17_order_irrelevant (N : ℕ) (ents : List (ℕ × ℕ × ℝ)) (K : Coo) (hK : Coo.mk? N N ents = .ok K)
    (fixed fixed' : List ℕ) (hp : fixed.Perm fixed') (hn : fixed.Nodup) (hN : ∀ i ∈ fixed, i < N) (K₁ K₂ : Coo)
    (h₁ : Assembly.dropMatrixDof K fixed = .ok K₁) (h₂ : Assembly.dropMatrixDof K fixed' = .ok K₂) :
    K₁.nrow = K₂.nrow ∧ K₁.ncol = K₂.ncol ∧ ∀ i j, i < K₁.nrow → j < K₁.ncol → K₁.get i j = K₂.get i j := by
  have hfree : free N fixed = free N fixed' := by
    unfold free
    apply List.filter_congr
    intro i _
    simp [hp.mem_iff]
  obtain ⟨A, hA, a1, a2, a3⟩ := C17_drop_matrix N ents K hK fixed hn hN
  obtain ⟨B, hB, b1, b2, b3⟩ := C17_drop_matrix N ents K hK fixed' (hp.nodup_iff.mp hn)
    (fun i hi => hN i (hp.mem_iff.mpr hi))
  rw [h₁] at hA; rw [h₂] at hB
  cases hA; cases hB
  refine ⟨by rw [a1, b1, hfree], by rw [a2, b2, hfree], ?_⟩
  intro i j hi hj
  rw [a3 i j (a1 ▸ hi) (a2 ▸ hj), b3 i j (hfree ▸ a1 ▸ hi) (hfree ▸ a2 ▸ hj)]
  simp only [hfree]

/-- a 3x3 matrix with two restraints given in decreasing order -/
example : ∃ K, Coo.mk? 3 3 [(0, 0, 1), (1, 1, 2), (2, 1, 3), (1, 1, 5)] = .ok K ∧ [2, 0].Nodup ∧
    (∀ i ∈ [2, 0], i < 3) ∧ free 3 [2, 0] = [1] := by
  exact ⟨⟨3, 3, [(0, 0, 1), (1, 1, 2), (2, 1, 3), (1, 1, 5)]⟩, by simp [Coo.mk?], by decide, by decide, by decide⟩

/-! ## C18 Reduced load and reduced stiffness use the same numbering -/

/-- Position `k` of the reduced load vector is the load at the `k`-th free degree of freedom. -/
theorem C18_drop_vector (V : Coo) (fixed : List ℕ) :
    (Assembly.dropVectorDof V fixed).length = (free V.nrow fixed).length ∧
    ∀ (k : ℕ) (hk : k < (free V.nrow fixed).length),
      (Assembly.dropVectorDof V fixed)[k]? = some (V.get ((free V.nrow fixed)[k]) 0) := by
  rw [dropVector_eq]
  refine ⟨by simp, fun k hk => ?_⟩
  simp [hk]

/-- For one case of one assembly, stiffness and load are reduced to the same degrees of freedom `g 0 < g 1 < ...`. -/
theorem C18_same_numbering (x : Assembly) (case : String) (K V K' : Coo) (f' : List ℝ) (fixed : List ℕ)
    (hfix : x.boundaryDofs case = .ok fixed) (hn : fixed.Nodup) (hN : ∀ i ∈ fixed, i < K.nrow)
    (hsq : K.nrow = K.ncol) (hV : V.nrow = K.nrow) (hents : ∀ e ∈ K.ents, e.1 < K.nrow ∧ e.2.1 < K.ncol)
    (hK : x.boundaryMatrix case K = .ok K') (hf : x.boundaryVector case V = .ok f') :
    K'.nrow = f'.length ∧ K'.ncol = f'.length ∧
    ∃ g : ℕ → ℕ, (∀ i j, i < j → j < f'.length → g i < g j) ∧
      (∀ d, d < K.nrow ∧ d ∉ fixed ↔ ∃ k < f'.length, g k = d) ∧
      (∀ i < f'.length, f'[i]? = some (V.get (g i) 0) ∧ ∀ j < f'.length, K'.get i j = K.get (g i) (g j)) := by
  simp only [Assembly.boundaryMatrix, Assembly.boundaryVector, hfix, Except.bind_ok, Except.pure_eq_ok,
    Except.ok.injEq] at hK hf
  subst hf
  obtain ⟨_, _, h3, h4⟩ := dropMatrix_shape hK
  have hlen : (Assembly.dropVectorDof V fixed).length = (free K.nrow fixed).length := by
    rw [(C18_drop_vector V fixed).1, hV]
  have hfl := free_length hn hN
  refine ⟨by rw [h3, hlen, hfl], by rw [h4, ← hsq, hlen, hfl], fun k => (free K.nrow fixed).getD k 0, ?_, ?_, ?_⟩
  · intro i j hij hj
    rw [hlen] at hj
    have hi : i < (free K.nrow fixed).length := lt_trans hij hj
    have := List.pairwise_iff_getElem.mp (free_sorted K.nrow fixed) i j hi hj hij
    simpa [List.getD, hi, hj] using this
  · intro d
    rw [← mem_free, List.mem_iff_getElem, hlen]
    constructor
    · rintro ⟨k, hk, rfl⟩; exact ⟨k, hk, by simp [List.getD, hk]⟩
    · rintro ⟨k, hk, rfl⟩; exact ⟨k, hk, by simp [List.getD, hk]⟩
  · intro i hi
    rw [hlen] at hi
    refine ⟨?_, ?_⟩
    · have := (C18_drop_vector V fixed).2 i (by rw [hV]; exact hi)
      simp only [hV] at this
      simpa [List.getD, hi] using this
    · intro j hj
      rw [hlen] at hj
      apply dropMatrix_get hn hents hK
      · simp [List.getD, hi]
      · rw [← hsq]; simp [List.getD, hj]

/-- an assembly with one node and two restrained components meets the hypotheses -/
example : (⟨{ FeModel.empty with
      nodes := [("A", stdNode "A" 0 0 0)]
      hidNode := [("A", 0)] }, [("c", (LoadCase.new "c" .static).setNodalRestraint "A" ![true, false, true, false, false, false])],
      [], 6, []⟩ : Assembly).boundaryDofs "c" = .ok [0, 2] := by
  rfl

/-! ## C19 Expanding a reduced solution puts every value back in its place -/

/-- For every duplicate-free list of restraints, in any order, and every solver result of the right length, the expansion
succeeds, has six entries per node, is zero at restrained positions, and has the `k`-th solver value at the `k`-th free
position; reading off the free positions gives back the solver result. -/
theorem C19_expand (n : ℕ) (fixed : List ℕ) (hn : fixed.Nodup) (hN : ∀ i ∈ fixed, i < n * 6) (delta : List ℝ)
    (hl : delta.length = (free (n * 6) fixed).length) :
    ∃ d, expandDisp n fixed delta = .ok d ∧ d.length = n * 6 ∧
      (∀ i ∈ fixed, d[i]? = some 0) ∧
      (∀ (k : ℕ) (hk : k < (free (n * 6) fixed).length), d[(free (n * 6) fixed)[k]]? = delta[k]?) ∧
      (free (n * 6) fixed).map (fun i => d.getD i 0) = delta := by
  obtain ⟨val, rfl⟩ := exists_val _ (free_nodup (n * 6) fixed) delta hl
  refine ⟨_, expandDisp_eq n fixed hn hN val, by simp, ?_, ?_, ?_⟩
  · intro i hi
    simp [hN i hi, hi]
  · intro k hk
    obtain ⟨h1, h2⟩ := mem_free.mp (List.getElem_mem hk)
    simp [h1, h2, hk]
  · apply List.map_congr_left
    intro i hi
    obtain ⟨h1, h2⟩ := mem_free.mp hi
    simp [List.getD, h1, h2]

example : [7, 0, 3].Nodup ∧ (∀ i ∈ [7, 0, 3], i < 2 * 6) ∧ (free (2 * 6) [7, 0, 3]).length = 9 := by decide

/-! ## C53 Second-order solver restores restrained positions -/

/-- What C53 asks of the vector stored by `solve_2nd_order`. -/
def InsertCorrect (n : ℕ) (fixed : List ℕ) (delta : List ℝ) : Prop :=
  ∃ d, expandInsert n fixed delta = .ok d ∧ d.length = n * 6 ∧ (∀ i ∈ fixed, d[i]? = some 0) ∧
    (free (n * 6) fixed).map (fun i => d.getD i 0) = delta

/-- C53 is false: with the restraints in the order in which they were defined (second node first) a zero is inserted at the
wrong place. -/
theorem C53_false : ∃ (n : ℕ) (fixed : List ℕ) (delta : List ℝ), fixed.Nodup ∧ (∀ i ∈ fixed, i < n * 6) ∧
    delta.length = (free (n * 6) fixed).length ∧ ¬ InsertCorrect n fixed delta := by
  refine ⟨2, [6, 0], [1, 2, 3, 4, 5, 6, 7, 8, 9, 10], by decide, by decide, by decide, ?_⟩
  rintro ⟨d, h1, -, h2, -⟩
  have : expandInsert 2 [6, 0] [1, 2, 3, 4, 5, 6, 7, 8, 9, 10] = .ok [0, 1, 2, 3, 4, 5, 6, 0, 7, 8, 9, 10] := by
    simp [expandInsert, npInsertZero, List.foldlM, bind, Except.bind, pure, Except.pure]
  rw [this] at h1
  cases h1
  have := h2 6 (by simp)
  simp at this

/-- C53 for restraints defined in increasing order of degree of freedom. -/
theorem C53_insert_partial (n : ℕ) (fixed : List ℕ) (hs : fixed.Pairwise (· < ·)) (hN : ∀ i ∈ fixed, i < n * 6)
    (delta : List ℝ) (hl : delta.length = (free (n * 6) fixed).length) : InsertCorrect n fixed delta := by
  obtain ⟨val, rfl⟩ := exists_val _ (free_nodup (n * 6) fixed) delta hl
  refine ⟨(List.range (n * 6)).map (fun i => if i ∈ fixed then 0 else val i), ?_, by simp, ?_, ?_⟩
  · unfold expandInsert
    have := npInsert_all (n * 6) fixed hs hN val
    unfold free
    rw [this, Except.bind_ok, if_pos (by simp)]
    rfl
  · intro i hi
    simp [hN i hi, hi]
  · apply List.map_congr_left
    intro i hi
    obtain ⟨h1, h2⟩ := mem_free.mp hi
    simp [List.getD, h1, h2]

example : [0, 3, 7].Pairwise (· < ·) ∧ ∀ i ∈ [0, 3, 7], i < 2 * 6 := by decide

end Hyperstatic
