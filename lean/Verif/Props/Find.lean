import Verif.Model.Find

/-
C174: searching a list of nodes by position.
-/

namespace Hyperstatic

/-- The property: the identifier of the first node of the list within the tolerance of the target, or `False` if there is none. -/
def C174_claim : Prop :=
  ∀ (nodes : List (V3 × ℤ)) (target : V3) (tol : ℝ),
    findNode (nodes.map fun n => ⟨n.1, some n.2⟩) target tol =
      .ok ((nodes.find? fun n => decide (|n.1.x - target.x| + |n.1.y - target.y| + |n.1.z - target.z| < tol)).map Prod.snd)

theorem findNode_nil (target : V3) (tol : ℝ) : findNode [] target tol = .ok none := by rw [findNode]

theorem findNode_one (n : SearchedNode) (target : V3) (tol : ℝ) : findNode [n] target tol =
    if gridDist n.loc target < tol then (match n.hid with | some i => .ok (some i) | none => .error .attributeError) else .ok none := by
  rw [findNode]
  rfl

theorem findNode_two (nodes : List SearchedNode) (h : 2 ≤ nodes.length) (target : V3) (tol : ℝ) : findNode nodes target tol =
    match findNode (nodes.take (nodes.length / 2)) target (1 / 10 ^ 6) with
    | .error e => .error e
    | .ok (some i) => if i = 0 then findNode (nodes.drop (nodes.length / 2)) target (1 / 10 ^ 6) else .ok (some i)
    | .ok none => findNode (nodes.drop (nodes.length / 2)) target (1 / 10 ^ 6) := by
  match nodes, h with
  | a :: b :: rest, _ =>
    rw [findNode]
    rfl

/-- with the default tolerance and identifiers other than 0 -/
theorem find_default (target : V3) (n : ℕ) : ∀ nodes : List (V3 × ℤ), nodes.length = n → (∀ m ∈ nodes, m.2 ≠ 0) →
    findNode (nodes.map fun n => ⟨n.1, some n.2⟩) target (1 / 10 ^ 6) =
      .ok ((nodes.find? fun n => decide (gridDist n.1 target < 1 / 10 ^ 6)).map Prod.snd) := by
  induction n using Nat.strong_induction_on with
  | _ n ih =>
    intro nodes hn h0
    rcases Nat.lt_or_ge nodes.length 2 with hl | hl
    · match nodes, hl with
      | [], _ => simp [findNode_nil]
      | [m], _ =>
        rw [List.map_singleton, findNode_one]
        by_cases hd : gridDist m.1 target < 1 / 10 ^ 6
        · simp only [if_true, List.find?_cons, hd, decide_true, Option.map_some]
        · simp only [if_false, List.find?_cons, hd, decide_false, List.find?_nil, Option.map_none]
    · rw [findNode_two _ (by simpa using hl), List.length_map, ← List.map_take, ← List.map_drop]
      have t := ih (nodes.take (nodes.length / 2)).length (by rw [List.length_take]; omega) _ rfl
        fun m hm => h0 m (List.mem_of_mem_take hm)
      have d := ih (nodes.drop (nodes.length / 2)).length (by rw [List.length_drop]; omega) _ rfl
        fun m hm => h0 m (List.mem_of_mem_drop hm)
      rw [t, d]
      conv_rhs => rw [← List.take_append_drop (nodes.length / 2) nodes, List.find?_append]
      cases hf : (nodes.take (nodes.length / 2)).find? fun n => decide (gridDist n.1 target < 1 / 10 ^ 6) with
      | none => simp
      | some m =>
        have hm := h0 m (List.mem_of_mem_take (List.mem_of_find?_eq_some hf))
        simp [hm]

/-- **C174, the default tolerance.** With the default tolerance, or a list of at most one node, and identifiers other than 0 the answer is
the identifier of the first node within the tolerance, or `False`.  Missing: other tolerances, the identifier 0, nodes of the library. -/
theorem C174_first_partial (nodes : List (V3 × ℤ)) (target : V3) (tol : ℝ) (ht : tol = 1 / 10 ^ 6 ∨ nodes.length ≤ 1)
    (h0 : ∀ n ∈ nodes, n.2 ≠ 0) :
    findNode (nodes.map fun n => ⟨n.1, some n.2⟩) target tol =
      .ok ((nodes.find? fun n => decide (|n.1.x - target.x| + |n.1.y - target.y| + |n.1.z - target.z| < tol)).map Prod.snd) := by
  rcases ht with rfl | hl
  · exact find_default target _ nodes rfl h0
  · match nodes, hl with
    | [], _ => simp [findNode_nil]
    | [m], _ =>
      change _ = Except.ok (Option.map Prod.snd (List.find? (fun n : V3 × ℤ => decide (gridDist n.1 target < tol)) [m]))
      rw [List.map_singleton, findNode_one]
      by_cases hd : gridDist m.1 target < tol
      · simp only [if_true, List.find?_cons, hd, decide_true, Option.map_some]
      · simp only [if_false, List.find?_cons, hd, decide_false, List.find?_nil, Option.map_none]

/-- **C174, all identifiers.** With the default tolerance the answer is the identifier of the first node within it whose identifier is not
0; if there is no such node, it is 0 when the last node of the list is within the tolerance (its identifier is 0 then) and `False` otherwise. -/
theorem C174_zero_partial (nodes : List (V3 × ℤ)) (target : V3) :
    findNode (nodes.map fun n => ⟨n.1, some n.2⟩) target (1 / 10 ^ 6) =
      .ok (match nodes.find? fun n => decide (|n.1.x - target.x| + |n.1.y - target.y| + |n.1.z - target.z| < 1 / 10 ^ 6 ∧ n.2 ≠ 0) with
        | some n => some n.2
        | none =>
          if ∃ n ∈ nodes.getLast?, |n.1.x - target.x| + |n.1.y - target.y| + |n.1.z - target.z| < 1 / 10 ^ 6 then some 0 else none) := by
  change _ = Except.ok (match nodes.find? fun n => decide (gridDist n.1 target < 1 / 10 ^ 6 ∧ n.2 ≠ 0) with
        | some n => some n.2
        | none => if ∃ n ∈ nodes.getLast?, gridDist n.1 target < 1 / 10 ^ 6 then some 0 else none)
  generalize hn : nodes.length = n
  induction n using Nat.strong_induction_on generalizing nodes with
  | _ n ih =>
    rcases Nat.lt_or_ge nodes.length 2 with hl | hl
    · match nodes, hl with
      | [], _ => simp [findNode_nil]
      | [m], _ =>
        rw [List.map_singleton, findNode_one]
        by_cases hd : gridDist m.1 target < 1 / 10 ^ 6
        · by_cases h0 : m.2 = 0
          · simp only [hd, h0, if_true, List.find?_cons, ne_eq, not_true_eq_false, and_false, decide_false, List.find?_nil,
              List.getLast?_singleton, Option.mem_def, Option.some.injEq, exists_eq_left']
          · simp only [hd, h0, if_true, List.find?_cons, ne_eq, not_false_eq_true, and_self, decide_true]
        · simp only [hd, if_false, List.find?_cons, false_and, decide_false, List.find?_nil, List.getLast?_singleton, Option.mem_def,
            Option.some.injEq, exists_eq_left']
    · rw [findNode_two _ (by simpa using hl), List.length_map, ← List.map_take, ← List.map_drop,
        ih (nodes.take (nodes.length / 2)).length (by rw [List.length_take]; omega) _ rfl,
        ih (nodes.drop (nodes.length / 2)).length (by rw [List.length_drop]; omega) _ rfl]
      have e : (nodes.drop (nodes.length / 2)).getLast? = nodes.getLast? := by
        rw [List.getLast?_drop, if_neg (by omega)]
      rw [e]
      conv_rhs => rw [← List.take_append_drop (nodes.length / 2) nodes, List.find?_append, List.take_append_drop]
      cases hf : (nodes.take (nodes.length / 2)).find? fun n => decide (gridDist n.1 target < 1 / 10 ^ 6 ∧ n.2 ≠ 0) with
      | none =>
        by_cases hz : ∃ n ∈ (nodes.take (nodes.length / 2)).getLast?, gridDist n.1 target < 1 / 10 ^ 6
        · simp only [if_pos hz, if_true, Option.none_or]
        · simp only [if_neg hz, Option.none_or]
      | some m =>
        have hm := List.find?_some hf
        simp only [decide_eq_true_eq] at hm
        simp only [hm.2, if_false, Option.some_or]

/-- **C174, several nodes.** Whatever tolerance is asked for, a list of two or more nodes is searched with `1e-6`. -/
theorem C174_ignored_partial (nodes : List SearchedNode) (h : 2 ≤ nodes.length) (target : V3) (tol tol' : ℝ) :
    findNode nodes target tol = findNode nodes target tol' := by
  rw [findNode_two nodes h, findNode_two nodes h]

/-- **C174, nodes of the library.** Objects of class `Node` have no identifier: the search answers `False` when none is within `1e-6` of
the target, and raises when one is. -/
theorem C174_nodes_partial (locs : List V3) (target : V3) :
    findNode (locs.map fun p => ⟨p, none⟩) target (1 / 10 ^ 6) =
      if ∃ p ∈ locs, |p.x - target.x| + |p.y - target.y| + |p.z - target.z| < 1 / 10 ^ 6 then .error .attributeError else .ok none := by
  change _ = if ∃ p ∈ locs, gridDist p target < 1 / 10 ^ 6 then _ else _
  generalize hn : locs.length = n
  induction n using Nat.strong_induction_on generalizing locs with
  | _ n ih =>
    rcases Nat.lt_or_ge locs.length 2 with hl | hl
    · match locs, hl with
      | [], _ => simp [findNode_nil]
      | [m], _ =>
        rw [List.map_singleton, findNode_one]
        simp only [List.mem_singleton, exists_eq_left]
    · rw [findNode_two _ (by simpa using hl), List.length_map, ← List.map_take, ← List.map_drop]
      rw [ih (locs.take (locs.length / 2)).length (by rw [List.length_take]; omega) _ rfl,
        ih (locs.drop (locs.length / 2)).length (by rw [List.length_drop]; omega) _ rfl]
      have e : (∃ p ∈ locs, gridDist p target < 1 / 10 ^ 6) ↔ (∃ p ∈ locs.take (locs.length / 2), gridDist p target < 1 / 10 ^ 6) ∨
          ∃ p ∈ locs.drop (locs.length / 2), gridDist p target < 1 / 10 ^ 6 := by
        conv_lhs => rw [← List.take_append_drop (locs.length / 2) locs]
        simp only [List.mem_append, or_and_right, exists_or]
      simp only [e]
      by_cases h1 : ∃ p ∈ locs.take (locs.length / 2), gridDist p target < 1 / 10 ^ 6
      · rw [if_pos h1, if_pos (Or.inl h1)]
      · rw [if_neg h1]
        simp only [h1, false_or]

/-- The property fails: two nodes, the first a thousandth from the target, searched with the tolerance 0.01. -/
theorem C174_false : ¬ C174_claim := by
  intro h
  have := h [(⟨1 / 1000, 0, 0⟩, 1), (⟨1, 0, 0⟩, 2)] ⟨0, 0, 0⟩ (1 / 100)
  rw [C174_ignored_partial _ (by simp) _ (1 / 100) (1 / 10 ^ 6), C174_first_partial _ _ _ (.inl rfl) (by simp)] at this
  norm_num [List.find?] at this
  cases this

/-- It fails with the default tolerance as well: a node with the identifier 0 is passed over. -/
theorem C174_zero_false : findNode [⟨⟨0, 0, 0⟩, some 0⟩, ⟨⟨1, 0, 0⟩, some 1⟩] ⟨0, 0, 0⟩ (1 / 10 ^ 6) = .ok none := by
  rw [findNode_two _ (by simp)]
  simp only [List.length_cons, List.length_nil, Nat.reduceAdd, Nat.reduceDiv, List.take_succ_cons, List.take_zero, List.drop_succ_cons,
    List.drop_zero, findNode_one]
  norm_num [gridDist]

/-- three nodes, the second and the third at the target -/
example : ∃ nodes : List (V3 × ℤ), (∀ n ∈ nodes, n.2 ≠ 0) ∧
    findNode (nodes.map fun n => ⟨n.1, some n.2⟩) ⟨1, 1, 1⟩ (1 / 10 ^ 6) = .ok (some 7) := by
  refine ⟨[(⟨0, 0, 0⟩, 5), (⟨1, 1, 1⟩, 7), (⟨1, 1, 1⟩, 8)], by simp, ?_⟩
  rw [C174_first_partial _ _ _ (.inl rfl) (by simp)]
  norm_num [List.find?]

end Hyperstatic
