import Verif.Spec.Dynamic
import Verif.Props.Mass

/-
The reduced matrices of the dynamic solvers as works on displacement states.
-/

namespace Hyperstatic
open Matrix Spec

/-- a reduced matrix as a form on vectors that vanish on the restrained components -/
theorem dropped_bil {K K' : Coo} {fixed : List ℕ} {N n : ℕ} (hn : fixed.Nodup) (hr : K.nrow = N) (hc : K.ncol = N)
    (hents : ∀ e ∈ K.ents, e.1 < K.nrow ∧ e.2.1 < K.ncol) (h : Assembly.dropMatrixDof K fixed = .ok K')
    (hlen : n = (free N fixed).length)
    (V U : ℕ → ℝ) (hV : ∀ i ∈ fixed, V i = 0) (hU : ∀ i ∈ fixed, U i = 0) :
    (fun k : Fin n => V (fdof N fixed k.val)) ⬝ᵥ (K'.dense n *ᵥ fun k : Fin n => U (fdof N fixed k.val)) = bil K.ents V U := by
  have e1 : (fun k : Fin n => V (fdof N fixed k.val)) ⬝ᵥ (K'.dense n *ᵥ fun k : Fin n => U (fdof N fixed k.val)) =
      ∑ k : Fin n, ∑ l : Fin n, V (fdof N fixed k.val) * K'.get k.val l.val * U (fdof N fixed l.val) := by
    simp only [dotProduct, Matrix.mulVec, Coo.dense, Finset.mul_sum]
    apply Finset.sum_congr rfl
    intro k _
    apply Finset.sum_congr rfl
    intro l _
    ring
  rw [e1, ← Coo.get_bil K hents, hr, hc, sum_range_free N fixed _ (by intro i hi; simp [hV i hi]) hlen]
  apply Finset.sum_congr rfl
  intro k _
  rw [sum_range_free N fixed _ (by intro i hi; simp [hU i hi]) hlen]
  apply Finset.sum_congr rfl
  intro l _
  rw [dropMatrix_get hn hents h (i := k.val) (j := l.val) (gi := fdof N fixed k.val) (gj := fdof N fixed l.val)
    (by rw [hr]; exact fdof_get (hlen ▸ k.isLt)) (by rw [hc]; exact fdof_get (hlen ▸ l.isLt))]

theorem mk_assembly {m : FeModel} {cases : List LoadCase} {heap : PatHeap} {x : Assembly} (hx : Assembly.mk? m cases heap = .ok x) :
    x.model = m ∧ x.heap = heap ∧ restraintDofs m m.restraints = .ok x.fixedDof ∧
    x.dof = (m.nodeCount * 6 : ℕ) - (x.fixedDof.length : ℕ) := by
  unfold Assembly.mk? at hx
  simp only [Except.bind_ok_iff, Except.pure_eq_ok, Except.ok.injEq] at hx
  obtain ⟨fixed, h1, rfl⟩ := hx
  exact ⟨rfl, rfl, h1, rfl⟩

theorem boundaryDofs_governing {m : FeModel} {x : Assembly} (hm : x.model = m)
    (hf : restraintDofs m m.restraints = .ok x.fixedDof) {c : String} {lc : LoadCase} (hc : x.cases.get? c = some lc) :
    x.boundaryDofs c = restraintDofs m (governing m lc) := by
  unfold Assembly.boundaryDofs governing
  rw [Dict.getItem_of_some hc, Except.bind_ok, hm]
  split
  · rename_i h
    rw [h, hf]; rfl
  · rename_i h
    split
    · rename_i h'; exact absurd h' h
    · rfl

/-- the form of the reduced stiffness -/
theorem stiff_form {a : Api} (env : Env) (h : FreshInv a) {x : Assembly} (hx : x.model = a.model) {K K' : Coo}
    (hK : x.assembleK env = .ok K) {t : Dict Flags} (hwf : t.WF) {fixed : List ℕ} (ht : restraintDofs a.model t = .ok fixed)
    (hK' : Assembly.dropMatrixDof K fixed = .ok K') :
    K'.nrow = (free (a.model.nodeCount * 6) fixed).length ∧
    ∀ (n : ℕ), n = (free (a.model.nodeCount * 6) fixed).length → ∀ V U : ℕ → ℝ, (∀ i ∈ fixed, V i = 0) → (∀ i ∈ fixed, U i = 0) →
        (fun k : Fin n => V (fdof (a.model.nodeCount * 6) fixed k.val)) ⬝ᵥ
          (K'.dense n *ᵥ fun k : Fin n => U (fdof (a.model.nodeCount * 6) fixed k.val))
        = internalWork env a.model (gat a.model V) (gat a.model U) := by
  obtain ⟨hnd, hlt⟩ := restraintDofs_nodup h hwf ht
  obtain ⟨kr, kc, kents⟩ := assembleK_range hK
  rw [hx] at kr kc
  obtain ⟨_, _, hr', _⟩ := dropMatrix_shape hK'
  refine ⟨by rw [hr', kr, free_length hnd hlt], ?_⟩
  intro n hn V U hV hU
  rw [dropped_bil hnd kr kc kents hK' hn V U hV hU, assembleK_bil env h.toApiInv hx hK]

/-- the form of the reduced mass -/
theorem mass_form {a : Api} (h : FreshInv a) {x : Assembly} (hx : x.model = a.model) {M M' : Coo}
    (hM : x.assembleM = .ok M) {t : Dict Flags} (hwf : t.WF) {fixed : List ℕ} (ht : restraintDofs a.model t = .ok fixed)
    (hM' : Assembly.dropMatrixDof M fixed = .ok M') :
    M'.nrow = (free (a.model.nodeCount * 6) fixed).length ∧
    ∀ (n : ℕ), n = (free (a.model.nodeCount * 6) fixed).length → ∀ V U : ℕ → ℝ, (∀ i ∈ fixed, V i = 0) → (∀ i ∈ fixed, U i = 0) →
        (fun k : Fin n => V (fdof (a.model.nodeCount * 6) fixed k.val)) ⬝ᵥ
          (M'.dense n *ᵥ fun k : Fin n => U (fdof (a.model.nodeCount * 6) fixed k.val))
        = inertialWork a.model (gat a.model V) (gat a.model U) := by
  obtain ⟨hnd, hlt⟩ := restraintDofs_nodup h hwf ht
  obtain ⟨kr, kc, kents⟩ := assembleM_range hM
  rw [hx] at kr kc
  obtain ⟨_, _, hr', _⟩ := dropMatrix_shape hM'
  refine ⟨by rw [hr', kr, free_length hnd hlt], ?_⟩
  intro n hn V U hV hU
  rw [dropped_bil hnd kr kc kents hM' hn V U hV hU, assembleM_bil h.toApiInv hx hM]

theorem bil_smul (c : ℝ) (l : List (ℕ × ℕ × ℝ)) (v u : ℕ → ℝ) : bil (l.map fun e => (e.1, e.2.1, c * e.2.2)) v u = c * bil l v u := by
  unfold bil
  rw [List.map_map, ← List.sum_map_mul_left]
  congr 1
  apply List.map_congr_left
  intro e _
  simp only [Function.comp]
  ring

theorem rayleigh_bil (K M : Coo) (v u : ℕ → ℝ) : bil (rayleighC K M).ents v u =
    rayleighA0 0.05 0.02 2 1 * bil M.ents v u + rayleighA1 0.05 0.02 2 1 * bil K.ents v u := by
  unfold rayleighC
  simp only
  rw [bil_append, bil_smul, bil_smul]

/-- every entry of the reduced damping matrix -/
theorem damping_dense {a : Api} (env : Env) (h : FreshInv a) {x : Assembly} (hx : x.model = a.model) {K M K' M' C' : Coo}
    (hK : x.assembleK env = .ok K) (hM : x.assembleM = .ok M) {t : Dict Flags} (hwf : t.WF) {fixed : List ℕ}
    (ht : restraintDofs a.model t = .ok fixed) (hK' : Assembly.dropMatrixDof K fixed = .ok K')
    (hM' : Assembly.dropMatrixDof M fixed = .ok M') (hC' : Assembly.dropMatrixDof (rayleighC K M) fixed = .ok C') (n : ℕ)
    (hn : n = (free (a.model.nodeCount * 6) fixed).length) :
    C'.dense n = rayleighA0 0.05 0.02 2 1 • M'.dense n + rayleighA1 0.05 0.02 2 1 • K'.dense n := by
  obtain ⟨hnd, hlt⟩ := restraintDofs_nodup h hwf ht
  obtain ⟨kr, kc, kents⟩ := assembleK_range hK
  obtain ⟨mr, mc, ments⟩ := assembleM_range hM
  rw [hx] at kr kc mr mc
  have cents : ∀ e ∈ (rayleighC K M).ents, e.1 < (rayleighC K M).nrow ∧ e.2.1 < (rayleighC K M).ncol := by
    intro e he
    have e1 : (rayleighC K M).nrow = M.nrow := rfl
    have e2 : (rayleighC K M).ncol = M.ncol := rfl
    rw [e1, e2]
    unfold rayleighC at he
    simp only [List.mem_append, List.mem_map] at he
    rcases he with ⟨e', h1, rfl⟩ | ⟨e', h1, rfl⟩
    · exact ments e' h1
    · have := kents e' h1
      rw [kr, kc] at this
      rw [mr, mc]
      exact this
  have cr : (rayleighC K M).nrow = a.model.nodeCount * 6 := mr
  have cc : (rayleighC K M).ncol = a.model.nodeCount * 6 := mc
  ext i j
  have hi : i.val < (free (a.model.nodeCount * 6) fixed).length := hn ▸ i.isLt
  have hj : j.val < (free (a.model.nodeCount * 6) fixed).length := hn ▸ j.isLt
  simp only [Coo.dense, Matrix.add_apply, Matrix.smul_apply, smul_eq_mul]
  rw [dropMatrix_get hnd cents hC' (by rw [cr]; exact fdof_get hi) (by rw [cc]; exact fdof_get hj),
    dropMatrix_get hnd ments hM' (by rw [mr]; exact fdof_get hi) (by rw [mc]; exact fdof_get hj),
    dropMatrix_get hnd kents hK' (by rw [kr]; exact fdof_get hi) (by rw [kc]; exact fdof_get hj),
    Coo.get_eq_bil, Coo.get_eq_bil, Coo.get_eq_bil, rayleigh_bil]

/-- the positions of the free components in the order of the nodes -/
theorem range_mul_six (n : ℕ) : List.range (n * 6) = (List.range n).flatMap fun i => (List.finRange 6).map fun r => i * 6 + r.val := by
  induction n with
  | zero => rfl
  | succ n ih =>
    rw [List.range_succ (n := n), List.flatMap_append, ← ih, Nat.succ_mul]
    simp [List.range_succ, List.finRange_succ]

theorem free_values {a : Api} (h : FreshInv a) {t : Dict Flags} (hwf : t.WF) {fixed : List ℕ}
    (ht : restraintDofs a.model t = .ok fixed) (U : ℕ → ℝ) :
    (free (a.model.nodeCount * 6) fixed).map U = freeValues a.model t (gat a.model U) := by
  have hk : a.model.nodes.keys = (List.range a.model.nodeCount).map fun i => a.model.nodes.keys.getD i "" := by
    apply List.ext_getElem
    · simp [Dict.keys, FeModel.nodeCount]
    · intro i h1 h2
      simp [h1]
  unfold free freeValues
  rw [range_mul_six, hk, List.flatMap_map, List.filter_flatMap, List.map_flatMap]
  apply List.flatMap_congr
  intro i hi
  have hi' : i < a.model.nodes.keys.length := by
    have := List.mem_range.mp hi
    simpa [Dict.keys, FeModel.nodeCount] using this
  have hget : a.model.nodes.keys.getD i "" = a.model.nodes.keys[i] := by simp [hi']
  have hhid : hidOf a.model (a.model.nodes.keys.getD i "") = i := by
    rw [hget]; exact h.pos (List.getElem?_eq_getElem hi')
  have hmemk : a.model.nodes.keys.getD i "" ∈ a.model.nodes.keys := by rw [hget]; exact List.getElem_mem hi'
  generalize a.model.nodes.keys.getD i "" = n at hhid hmemk
  have hmem : ∀ r : Fin 6, i * 6 + r.val ∈ fixed ↔ ∃ f, t.get? n = some f ∧ f r = true := by
    intro r
    rw [mem_restraintDofs h.toApiInv hwf ht]
    constructor
    · rintro ⟨n', f, r', h1, h2, h3⟩
      have h4 : hidOf a.model n' = i ∧ r' = r := by
        have := r.isLt; have := r'.isLt
        refine ⟨by omega, Fin.ext (by omega)⟩
      have : n' = n := h.hidOf_inj (restraintDofs_keys h.toApiInv ht n' (Dict.mem_keys_of_get? h1)) hmemk (by rw [h4.1, hhid])
      subst this
      rw [← h4.2]
      exact ⟨f, h1, h2⟩
    · rintro ⟨f, h1, h2⟩
      exact ⟨n, f, r, h1, h2, by rw [hhid]⟩
  induction (List.finRange 6) with
  | nil => rfl
  | cons r l ih =>
    rw [List.map_cons, List.filter_cons, List.filterMap_cons]
    cases hg : t.get? n with
    | none =>
      have : i * 6 + r.val ∉ fixed := by rw [hmem]; simp [hg]
      simp only [this, not_false_eq_true, decide_true, if_true, List.map_cons]
      rw [ih, hg]
      simp [gat, hhid]
    | some f =>
      by_cases hf : f r = true
      · have : i * 6 + r.val ∈ fixed := by rw [hmem]; exact ⟨f, hg, hf⟩
        simp only [this, not_true_eq_false, decide_false, Bool.false_eq_true, if_false, hf, if_true]
        rw [ih, hg]
      · have : i * 6 + r.val ∉ fixed := by rw [hmem]; rintro ⟨f', h1, h2⟩; rw [hg] at h1; cases h1; exact hf h2
        simp only [this, not_false_eq_true, decide_true, if_true, List.map_cons, hf]
        rw [ih, hg]
        simp [gat, hhid]

end Hyperstatic
