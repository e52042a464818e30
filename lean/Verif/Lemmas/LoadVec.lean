import Verif.Lemmas.Assemble

namespace Hyperstatic
open Matrix Spec

/-- a loop that only accumulates -/
theorem foldlM_ok_sum {α M : Type} [AddCommMonoid M] (l : List α) (f : M → α → Except PyErr M) (g : α → M)
    (h : ∀ it ∈ l, ∀ acc, f acc it = .ok (acc + g it)) (acc : M) : l.foldlM f acc = .ok (acc + (l.map g).sum) := by
  induction l generalizing acc with
  | nil => simp; rfl
  | cons it l ih =>
    rw [List.foldlM_cons, h it List.mem_cons_self, Except.bind_ok, ih (fun it hit => h it (List.mem_cons_of_mem _ hit))]
    simp [add_assoc]

/-- the pattern object a case uses under a name -/
def patOf (heap : PatHeap) (lc : LoadCase) (p : String) : Option LoadPattern :=
  match lc.pattern.get? p with
  | some r => heap[r]?
  | none => none

theorem patternsOf_eq (heap : PatHeap) (lc : LoadCase) :
    patternsOf heap lc = lc.loadFactor.filterMap fun q => (patOf heap lc q.1).map fun p => (p, q.2) := by
  unfold patternsOf
  apply List.filterMap_congr
  intro q _
  unfold patOf
  cases lc.pattern.get? q.1 with
  | none => rfl
  | some r => simp only; cases heap[r]? <;> rfl

theorem CaseInv.patOf {heap : PatHeap} {c : String} {lc : LoadCase} (h : CaseInv heap c lc) {p : String} {φ : ℝ}
    (hm : (p, φ) ∈ lc.loadFactor) : ∃ r pat, lc.pattern.get? p = some r ∧ heap[r]? = some pat ∧
      Hyperstatic.patOf heap lc p = some pat := by
  have hk : p ∈ lc.pattern.keys := by
    rw [h.pattern_keys]; exact List.mem_map.mpr ⟨_, hm, rfl⟩
  obtain ⟨r, hr⟩ := dict_mem_keys hk
  obtain ⟨pat, h1, h2⟩ := h.refs p r hr
  refine ⟨r, pat, hr, h1, ?_⟩
  unfold Hyperstatic.patOf
  rw [hr]; exact h1

theorem sum_filterMap_eq {α β M : Type} [AddCommMonoid M] (l : List α) (f : α → Option β) (F : β → M) (G : α → M)
    (h : ∀ a ∈ l, G a = match f a with | some b => F b | none => 0) :
    ((l.filterMap f).map F).sum = (l.map G).sum := by
  induction l with
  | nil => rfl
  | cons a l ih =>
    rw [List.filterMap_cons, List.map_cons, List.sum_cons, h a List.mem_cons_self,
      ← ih (fun a ha => h a (List.mem_cons_of_mem _ ha))]
    cases f a <;> simp

/-- sums over the patterns of a case -/
theorem CaseInv.sum_patterns {heap : PatHeap} {c : String} {lc : LoadCase} (_h : CaseInv heap c lc)
    {M : Type} [AddCommMonoid M] (F : LoadPattern × ℝ → M) :
    ((patternsOf heap lc).map F).sum = (lc.loadFactor.map fun q => match Hyperstatic.patOf heap lc q.1 with
      | some p => F (p, q.2)
      | none => 0).sum := by
  rw [patternsOf_eq]
  apply sum_filterMap_eq
  intro a _
  cases Hyperstatic.patOf heap lc a.1 <;> rfl

/-- load of a node in a case: factored sum of the pattern loads -/
theorem CaseInv.getNodalF_eq {heap : PatHeap} {c : String} {lc : LoadCase} (h : CaseInv heap c lc) (n : String)
    {t : ℕ} (ht : t < 2) :
    lc.getNodalF heap n t = .ok (((patternsOf heap lc).map fun q => q.2 • (q.1.nodalLoad.get? n).getD 0).sum) := by
  unfold LoadCase.getNodalF
  rw [foldlM_ok_sum lc.loadFactor _ (fun q => match Hyperstatic.patOf heap lc q.1 with
      | some p => q.2 • (p.nodalLoad.get? n).getD 0
      | none => 0), h.sum_patterns]
  · congr 1; exact zero_add _
  · rintro ⟨p, φ⟩ hm acc
    obtain ⟨r, pat, h1, h2, h3⟩ := h.patOf hm
    obtain ⟨cv, hcv⟩ : ∃ cv, lc.loadCurve.get? p = some cv := by
      apply dict_mem_keys
      rw [h.curve_keys]; exact List.mem_map.mpr ⟨_, hm, rfl⟩
    have hc1 : LoadCase.curveAt [1, 1] t = .ok 1 := by
      rcases (show t = 0 ∨ t = 1 by omega) with rfl | rfl <;> rfl
    simp only [h3]
    rw [Dict.getItem_of_some h1, Except.bind_ok, (deref_ok_iff heap r pat).mpr h2, Except.bind_ok]
    unfold LoadPattern.getNodalF
    cases hf : pat.nodalLoad.get? n with
    | none => simp [Except.pure_eq_ok]
    | some f =>
      simp only [Dict.getItem_of_some hcv, Except.bind_ok, h.curve_eq p cv hcv, hc1, Except.pure_eq_ok, Option.getD_some]
      congr 2
      funext i
      simp [mul_comm]

/-- end forces of a beam in a case -/
theorem CaseInv.getBeamF_eq {heap : PatHeap} {c : String} {lc : LoadCase} (h : CaseInv heap c lc) (b : String) (l : ℝ) :
    lc.getBeamF heap b l = .ok (((patternsOf heap lc).map fun q => q.2 • q.1.getBeamF b l).sum) := by
  unfold LoadCase.getBeamF
  rw [foldlM_ok_sum lc.loadFactor _ (fun q => match Hyperstatic.patOf heap lc q.1 with
      | some p => q.2 • p.getBeamF b l
      | none => 0), h.sum_patterns]
  · congr 1; exact zero_add _
  · rintro ⟨p, φ⟩ hm acc
    obtain ⟨r, pat, h1, h2, h3⟩ := h.patOf hm
    simp only [h3]
    rw [Dict.getItem_of_some h1, Except.bind_ok, (deref_ok_iff heap r pat).mpr h2, Except.bind_ok, Except.pure_eq_ok]
    congr 2
    funext i
    simp [mul_comm]

/-! the vector -/

theorem vecTriplets_bil {n : ℕ} (f : Vec n) (dof : Fin n → ℕ) (v : ℕ → ℝ) :
    bil (((List.finRange n).filter (fun k => f k ≠ 0)).map (fun k => (dof k, 0, f k))) v (fun _ => 1)
      = f ⬝ᵥ fun k => v (dof k) := by
  unfold bil
  rw [List.map_map]
  have : ∀ l : List (Fin n), ((l.filter (fun k => f k ≠ 0)).map
      ((fun e : ℕ × ℕ × ℝ => v e.1 * e.2.2 * (fun _ => (1 : ℝ)) e.2.1) ∘ fun k => (dof k, 0, f k))).sum
      = (l.map fun k => f k * v (dof k)).sum := by
    intro l
    induction l with
    | nil => rfl
    | cons k l ih =>
      rw [List.filter_cons, List.map_cons, List.sum_cons]
      by_cases hk : f k = 0
      · simp only [hk, ne_eq, not_true_eq_false, decide_false, Bool.false_eq_true, if_false, zero_mul, zero_add]
        exact ih
      · rw [if_pos (by simpa using hk), List.map_cons, List.sum_cons, ih]
        congr 1
        simp [mul_comm]
  rw [this, sum_finRange]
  rfl

theorem stdNode_T {nd : Node} {n : String} {x y z : ℝ} {m : Vec 6} (h : nd = { stdNode n x y z with mass := m }) : nd.T = 1 := by
  subst h
  unfold Node.T
  have : ({ stdNode n x y z with mass := m } : Node).csys.T = 1 := by
    ext i j
    fin_cases i <;> fin_cases j <;> simp [Csys.T, stdNode]
  rw [this]
  exact blockDiag_one 2

/-- force vector of a node in a case -/
noncomputable def nodeForce (heap : PatHeap) (lc : LoadCase) (n : String) : Vec 6 :=
  ((patternsOf heap lc).map fun q => q.2 • (q.1.nodalLoad.get? n).getD 0).sum

/-- local end forces of a beam in a case -/
noncomputable def beamForce (heap : PatHeap) (lc : LoadCase) (be : BeamElm) (b : String) : Vec 12 :=
  ((patternsOf heap lc).map fun q => q.2 • q.1.getBeamF b be.length).sum

theorem nodeFTriplets_eq {a : Api} (h : ApiInv a) {x : Assembly} (hx : x.model = a.model) {c : String} {lc : LoadCase}
    (hlc : CaseInv x.heap c lc) {t : ℕ} (ht : t < 2) {n : String} (hn : n ∈ a.model.nodes.keys) :
    Assembly.nodeFTriplets x lc t n = .ok (((List.finRange 6).filter (fun k => nodeForce x.heap lc n k ≠ 0)).map
      (fun k => (hidOf a.model n * 6 + k.val, 0, nodeForce x.heap lc n k))) := by
  obtain ⟨nd, hnd⟩ := dict_mem_keys hn
  obtain ⟨m, hm⟩ := h.node_std n nd hnd
  unfold Assembly.nodeFTriplets
  rw [hx, Dict.getItem_of_some hnd, Except.bind_ok, hlc.getNodalF_eq n ht, Except.bind_ok]
  simp only [h.hid_ok hn, Except.bind_ok, stdNode_T hm, Matrix.transpose_one, Matrix.one_mulVec, Except.pure_eq_ok]
  rfl

theorem beamFTriplets_ok_iff {a : Api} (h : ApiInv a) {x : Assembly} (hx : x.model = a.model) {c : String} {lc : LoadCase}
    (hlc : CaseInv x.heap c lc) {b : String} {be : BeamElm} (hb : a.model.beams.get? b = some be)
    (t : List (ℕ × ℕ × ℝ)) : Assembly.beamFTriplets x lc b = .ok t ↔ muOf be.prop ≠ -1 ∧
      t = ((List.finRange 12).filter (fun k => (be.Tᵀ *ᵥ beamForce x.heap lc be b) k ≠ 0)).map
      (fun k => (beamDof (hidOf a.model be.startName) (hidOf a.model be.endName) k.val, 0, (be.Tᵀ *ᵥ beamForce x.heap lc be b) k)) := by
  obtain ⟨_, _, _, _, hrel⟩ := h.beam_ok b be hb
  unfold Assembly.beamFTriplets
  rw [hx, getBeamNodeHids_ok h hb]
  simp only [Except.bind_ok, Dict.getItem_of_some hb, hlc.getBeamF_eq, BeamElm.K, Except.bind_ok_iff, Except.pure_eq_ok,
    Except.ok.injEq, hrel, condenseF_none]
  constructor
  · rintro ⟨K, ⟨cc, hc, rfl⟩, rfl⟩
    exact ⟨consts_ok_iff.mp ⟨cc, hc⟩, rfl⟩
  · rintro ⟨hmu, rfl⟩
    exact ⟨_, ⟨_, consts_ok hmu, rfl⟩, rfl⟩

theorem beamF_bil (m : FeModel) (be : BeamElm) (f : Vec 12) (v : ℕ → ℝ) :
    bil (((List.finRange 12).filter (fun k => (be.Tᵀ *ᵥ f) k ≠ 0)).map
      (fun k => (beamDof (hidOf m be.startName) (hidOf m be.endName) k.val, 0, (be.Tᵀ *ᵥ f) k))) v (fun _ => 1)
      = f ⬝ᵥ beamEnds be (gat m v) := by
  rw [vecTriplets_bil (be.Tᵀ *ᵥ f) (fun k => beamDof (hidOf m be.startName) (hidOf m be.endName) k.val) v]
  unfold beamEnds
  rw [← beamDof_gat, ← BeamElm.T, Matrix.dotProduct_mulVec, Matrix.mulVec_transpose]

theorem list_sum_swap {α β : Type} (l : List α) (l' : List β) (f : α → β → ℝ) :
    (l.map fun a => (l'.map fun b => f a b).sum).sum = (l'.map fun b => (l.map fun a => f a b).sum).sum := by
  induction l with
  | nil => simp
  | cons a l ih => simp only [List.map_cons, List.sum_cons, ih, List.sum_map_add]

theorem sum_smul_dot {α : Type} {n : ℕ} (l : List α) (c : α → ℝ) (f : α → Vec n) (v : Vec n) :
    ((l.map fun q => c q • f q).sum) ⬝ᵥ v = (l.map fun q => c q * (f q ⬝ᵥ v)).sum := by
  induction l with
  | nil => simp
  | cons a l ih => simp [List.map_cons, List.sum_cons, add_dotProduct, ih]

theorem externalWork_eq (m : FeModel) (heap : PatHeap) (lc : LoadCase) (v : State) :
    externalWork m heap lc v = (m.nodes.map fun q => nodeForce heap lc q.1 ⬝ᵥ v q.1).sum
      + (m.beams.map fun q => beamForce heap lc q.2 q.1 ⬝ᵥ beamEnds q.2 v).sum := by
  unfold externalWork patternWork nodeForce beamForce
  simp only [sum_smul_dot]
  rw [list_sum_swap m.nodes, list_sum_swap m.beams, ← List.sum_map_add]
  congr 1
  apply List.map_congr_left
  intro q _
  rw [mul_add, ← List.sum_map_mul_left, ← List.sum_map_mul_left]

/-- The linear form of the assembled load vector is the external virtual work. -/
theorem assembleF_bil {a : Api} (h : ApiInv a) {x : Assembly} (hx : x.model = a.model) {c : String} {lc : LoadCase}
    (hc : x.cases.get? c = some lc) (hlc : CaseInv x.heap c lc) {t : ℕ} (ht : t < 2) {f : Coo}
    (hf : x.assembleF c t = .ok f) (v : ℕ → ℝ) :
    bil f.ents v (fun _ => 1) = externalWork a.model x.heap lc (gat a.model v) := by
  unfold Assembly.assembleF at hf
  rw [Dict.getItem_of_some hc, Except.bind_ok, hx] at hf
  simp only [Except.bind_ok_iff] at hf
  obtain ⟨ns, hns, bs, hbs, hK⟩ := hf
  rw [Coo.mk?_ok_iff] at hK
  obtain ⟨rfl, -⟩ := hK
  rw [bil_append, bil_flatten, bil_flatten, externalWork_eq]
  congr 2
  · rw [mapM_ok_eq hns (fun n => ((List.finRange 6).filter (fun k => nodeForce x.heap lc n k ≠ 0)).map
      (fun k => (hidOf a.model n * 6 + k.val, 0, nodeForce x.heap lc n k))) ?_, List.map_map]
    · apply map_keys_eq _ h.nodes_wf
      intro n nd hn
      simp only [Function.comp]
      exact vecTriplets_bil (nodeForce x.heap lc n) (fun k => hidOf a.model n * 6 + k.val) v
    · intro n hn t' ht'
      rw [nodeFTriplets_eq h hx hlc ht hn] at ht'
      exact (Except.ok.inj ht').symm
  · rw [mapM_ok_eq hbs (fun b => match a.model.beams.get? b with
      | some be => ((List.finRange 12).filter (fun k => (be.Tᵀ *ᵥ beamForce x.heap lc be b) k ≠ 0)).map
        (fun k => (beamDof (hidOf a.model be.startName) (hidOf a.model be.endName) k.val, 0,
          (be.Tᵀ *ᵥ beamForce x.heap lc be b) k))
      | none => []) ?_, List.map_map]
    · apply map_keys_eq _ h.beams_wf
      intro b be hb
      simp only [Function.comp, hb]
      exact beamF_bil a.model be (beamForce x.heap lc be b) v
    · intro b hb t' ht'
      obtain ⟨be, hbe⟩ := dict_mem_keys hb
      simp only [hbe]
      exact ((beamFTriplets_ok_iff h hx hlc hbe t').mp ht').2

theorem assembleF_shape {x : Assembly} {c : String} {t : ℕ} {f : Coo} (hf : x.assembleF c t = .ok f) :
    f.nrow = x.model.nodeCount * 6 ∧ f.ncol = 1 ∧ ∀ e ∈ f.ents, e.1 < f.nrow ∧ e.2.1 < f.ncol := by
  unfold Assembly.assembleF at hf
  simp only [Except.bind_ok_iff] at hf
  obtain ⟨lc, _, ns, _, bs, _, hK⟩ := hf
  rw [Coo.mk?_ok_iff] at hK
  obtain ⟨rfl, h⟩ := hK
  exact ⟨rfl, rfl, h⟩

/-- the load vector can be assembled -/
theorem assembleF_ok {a : Api} (h : FreshInv a) {x : Assembly} (hx : x.model = a.model) {c : String} {lc : LoadCase}
    (hc : x.cases.get? c = some lc) (hlc : CaseInv x.heap c lc) {t : ℕ} (ht : t < 2)
    (hmu : ∀ b be, a.model.beams.get? b = some be → muOf be.prop ≠ -1) : ∃ f, x.assembleF c t = .ok f := by
  have hA := h.toApiInv
  have h1 := mapM_ok_of_forall (f := Assembly.nodeFTriplets x lc t) (l := a.model.nodes.keys) _
    (fun n hn => nodeFTriplets_eq hA hx hlc ht hn)
  have h2 := mapM_ok_of_forall (f := Assembly.beamFTriplets x lc) (l := a.model.beams.keys)
    (fun b => match a.model.beams.get? b with
      | some be => ((List.finRange 12).filter (fun k => (be.Tᵀ *ᵥ beamForce x.heap lc be b) k ≠ 0)).map
        (fun k => (beamDof (hidOf a.model be.startName) (hidOf a.model be.endName) k.val, 0,
          (be.Tᵀ *ᵥ beamForce x.heap lc be b) k))
      | none => []) (by
        intro b hb
        obtain ⟨be, hbe⟩ := dict_mem_keys hb
        simp only [hbe]
        exact (beamFTriplets_ok_iff hA hx hlc hbe _).mpr ⟨hmu b be hbe, rfl⟩)
  unfold Assembly.assembleF
  rw [Dict.getItem_of_some hc, Except.bind_ok, hx, h1, Except.bind_ok, h2, Except.bind_ok]
  refine ⟨_, (Coo.mk?_ok_iff _ _ _ _).mpr ⟨rfl, ?_⟩⟩
  intro e he
  rcases List.mem_append.mp he with he | he
  · obtain ⟨t, ht, het⟩ := List.mem_flatten.mp he
    obtain ⟨n, hn, rfl⟩ := List.mem_map.mp ht
    obtain ⟨k, _, rfl⟩ := List.mem_map.mp het
    have h1 := (h.hidOf_lt hn).2.1
    have h2 := k.isLt
    simp only
    omega
  · obtain ⟨t, ht, het⟩ := List.mem_flatten.mp he
    obtain ⟨b, hb, rfl⟩ := List.mem_map.mp ht
    obtain ⟨be, hbe⟩ := dict_mem_keys hb
    simp only [hbe] at het
    obtain ⟨k, _, rfl⟩ := List.mem_map.mp het
    obtain ⟨_, hs, ht, _⟩ := hA.beam_ok b be hbe
    exact ⟨beamDof_lt (h.hidOf_lt hs).2.1 (h.hidOf_lt ht).2.1 k.isLt, Nat.zero_lt_one⟩

end Hyperstatic
