import Verif.Lemmas.LoadVec
import Verif.Lemmas.Drop
import Verif.Lemmas.Step

namespace Hyperstatic
open Matrix Spec

/-! the assembly of an api -/

theorem foldl_set_eq (l acc : Dict LoadCase) (hk : (acc.keys ++ Dict.keys l).Nodup)
    (hn : ∀ k lc, (k, lc) ∈ l → lc.name = k) :
    (Dict.values l).foldl (fun d lc => Dict.set d lc.name lc) acc = acc ++ l := by
  induction l generalizing acc with
  | nil => simp [Dict.values]
  | cons p l ih =>
    obtain ⟨k, lc⟩ := p
    have hname := hn k lc List.mem_cons_self
    have hnot : k ∉ acc.keys := by
      intro h
      rw [List.nodup_append] at hk
      exact hk.2.2 k h k (by simp [Dict.keys]) rfl
    have e : Dict.values ((k, lc) :: l) = lc :: Dict.values l := rfl
    rw [e, List.foldl_cons, hname, Dict.set_of_not_mem hnot, ih]
    · simp
    · simpa [Dict.keys] using hk
    · intro k' lc' h; exact hn k' lc' (List.mem_cons_of_mem _ h)

theorem ApiInv.assembly_eq {a : Api} (h : ApiInv a) {x : Assembly} (hx : a.assembly = .ok x) :
    x.model = a.model ∧ x.heap = a.heap ∧ x.cases = a.loadcases ∧
    restraintDofs a.model a.model.restraints = .ok x.fixedDof ∧
    x.dof = (a.model.nodeCount * 6 : ℕ) - (x.fixedDof.length : ℕ) := by
  unfold Api.assembly Assembly.mk? at hx
  simp only [Except.bind_ok_iff, Except.pure_eq_ok, Except.ok.injEq] at hx
  obtain ⟨fixed, h1, rfl⟩ := hx
  refine ⟨rfl, rfl, ?_, h1, rfl⟩
  have := foldl_set_eq a.loadcases [] (by have := h.cases_wf; unfold Dict.WF at this; simpa [Dict.keys] using this)
    (fun k lc hm => (h.case_ok k lc ((Dict.mem_iff_get? h.cases_wf k lc).mp hm)).name_eq)
  simpa using this

/-! restraints -/

theorem mem_flagDofs {h : ℕ} {f : Flags} {i : ℕ} : i ∈ flagDofs h f ↔ ∃ r : Fin 6, f r = true ∧ i = h * 6 + r.val := by
  unfold flagDofs
  simp only [List.mem_map, List.mem_filter, List.mem_finRange, true_and]
  constructor
  · rintro ⟨r, h1, h2⟩; exact ⟨r, h1, h2.symm⟩
  · rintro ⟨r, h1, h2⟩; exact ⟨r, h1, h2.symm⟩

theorem flagDofs_nodup (h : ℕ) (f : Flags) : (flagDofs h f).Nodup := by
  unfold flagDofs
  apply List.Nodup.map
  · intro a b hab
    apply Fin.ext
    simp only at hab
    omega
  · exact List.Nodup.filter _ (List.nodup_finRange 6)

/-- restraint lists of models whose table only names existing nodes -/
theorem restraintDofs_keys {a : Api} (h : ApiInv a) {t : Dict Flags} {fixed : List ℕ}
    (hok : restraintDofs a.model t = .ok fixed) : ∀ n ∈ t.keys, n ∈ a.model.nodes.keys := by
  unfold restraintDofs at hok
  simp only [Except.bind_ok_iff] at hok
  obtain ⟨ls, hls, _⟩ := hok
  intro n hn
  obtain ⟨⟨n', f⟩, hm, rfl⟩ := List.mem_map.mp hn
  obtain ⟨b, hb⟩ := mapM_ok_forall hls (n', f) hm
  simp only [Except.bind_ok_iff] at hb
  obtain ⟨i, hi, _⟩ := hb
  unfold FeModel.getNodeHid at hi
  rw [Dict.getItem_eq_ok_iff] at hi
  rw [← h.hid_keys]
  exact Dict.mem_keys_of_get? hi

theorem restraintDofs_eq {a : Api} (h : ApiInv a) {t : Dict Flags} (hk : ∀ n ∈ t.keys, n ∈ a.model.nodes.keys) :
    restraintDofs a.model t = .ok ((t.map fun it => flagDofs (hidOf a.model it.1) it.2).flatten) := by
  unfold restraintDofs
  rw [mapM_ok_of_forall (fun it : String × Flags => flagDofs (hidOf a.model it.1) it.2)]
  · rfl
  · intro it hit
    rw [h.hid_ok (hk it.1 (List.mem_map.mpr ⟨it, hit, rfl⟩))]
    rfl

theorem mem_restraintDofs {a : Api} (h : ApiInv a) {t : Dict Flags} (hwf : t.WF) {fixed : List ℕ}
    (hok : restraintDofs a.model t = .ok fixed) (i : ℕ) :
    i ∈ fixed ↔ ∃ n f r, t.get? n = some f ∧ f r = true ∧ i = hidOf a.model n * 6 + (r : Fin 6).val := by
  rw [restraintDofs_eq h (restraintDofs_keys h hok)] at hok
  cases hok
  simp only [List.mem_flatten, List.mem_map]
  constructor
  · rintro ⟨l, ⟨⟨n, f⟩, hm, rfl⟩, hi⟩
    obtain ⟨r, h1, h2⟩ := mem_flagDofs.mp hi
    exact ⟨n, f, r, (Dict.mem_iff_get? hwf n f).mp hm, h1, h2⟩
  · rintro ⟨n, f, r, h1, h2, h3⟩
    exact ⟨_, ⟨(n, f), (Dict.mem_iff_get? hwf n f).mpr h1, rfl⟩, mem_flagDofs.mpr ⟨r, h2, h3⟩⟩

theorem restraintDofs_nodup {a : Api} (h : FreshInv a) {t : Dict Flags} (hwf : t.WF) {fixed : List ℕ}
    (hok : restraintDofs a.model t = .ok fixed) : fixed.Nodup ∧ ∀ i ∈ fixed, i < a.model.nodeCount * 6 := by
  have hA := h.toApiInv
  have hk := restraintDofs_keys hA hok
  constructor
  · rw [restraintDofs_eq hA hk] at hok
    cases hok
    rw [List.nodup_flatten]
    constructor
    · intro l hl
      obtain ⟨it, _, rfl⟩ := List.mem_map.mp hl
      exact flagDofs_nodup _ _
    · rw [List.pairwise_map]
      have hp : List.Pairwise (fun p q : String × Flags => p.1 ≠ q.1) t := List.pairwise_map.mp hwf
      refine List.Pairwise.imp_of_mem ?_ hp
      rintro ⟨n, f⟩ ⟨m, g⟩ h1 h2 hne
      rw [List.disjoint_left]
      intro i hi hj
      obtain ⟨r, _, e1⟩ := mem_flagDofs.mp hi
      obtain ⟨s, _, e2⟩ := mem_flagDofs.mp hj
      apply hne
      apply h.hidOf_inj (hk n (List.mem_map.mpr ⟨_, h1, rfl⟩)) (hk m (List.mem_map.mpr ⟨_, h2, rfl⟩))
      have := r.isLt
      have := s.isLt
      simp only at e1 e2
      omega
  · intro i hi
    obtain ⟨n, f, r, h1, _, rfl⟩ := (mem_restraintDofs hA hwf hok i).mp hi
    have := (h.hidOf_lt (hk n (Dict.mem_keys_of_get? h1))).2.1
    have := r.isLt
    omega

/-- vanishing at the restrained positions is respecting the table -/
theorem respects_iff {a : Api} (h : ApiInv a) {t : Dict Flags} (hwf : t.WF) {fixed : List ℕ}
    (hok : restraintDofs a.model t = .ok fixed) (U : ℕ → ℝ) :
    Respects t (gat a.model U) ↔ ∀ i ∈ fixed, U i = 0 := by
  constructor
  · intro hr i hi
    obtain ⟨n, f, r, h1, h2, rfl⟩ := (mem_restraintDofs h hwf hok i).mp hi
    exact hr n f h1 r h2
  · intro hz n f hn r hf
    exact hz _ ((mem_restraintDofs h hwf hok _).mpr ⟨n, f, r, hn, hf, rfl⟩)

theorem Respects.congr {t : Dict Flags} {ks : List String} (hk : ∀ n ∈ t.keys, n ∈ ks) {u v : State}
    (h : ∀ n ∈ ks, u n = v n) (hr : Respects t u) : Respects t v := by
  intro n f hn r hf
  rw [← h n (hk n (Dict.mem_keys_of_get? hn))]
  exact hr n f hn r hf

/-! reduction to the free components -/

/-- the `k`-th free component -/
def fdof (N : ℕ) (fixed : List ℕ) (k : ℕ) : ℕ := (free N fixed).getD k 0

theorem fdof_get {N : ℕ} {fixed : List ℕ} {k : ℕ} (hk : k < (free N fixed).length) :
    (free N fixed)[k]? = some (fdof N fixed k) := by
  unfold fdof; simp [hk]

theorem fdof_mem {N : ℕ} {fixed : List ℕ} {k : ℕ} (hk : k < (free N fixed).length) :
    fdof N fixed k < N ∧ fdof N fixed k ∉ fixed :=
  mem_free.mp (List.mem_of_getElem? (fdof_get hk))

theorem sum_range_free (N : ℕ) (fixed : List ℕ) (g : ℕ → ℝ) (hg : ∀ i ∈ fixed, g i = 0) {n : ℕ}
    (hn : n = (free N fixed).length) :
    ∑ i ∈ Finset.range N, g i = ∑ k : Fin n, g (fdof N fixed k.val) := by
  subst hn
  have h1 : ∑ i ∈ Finset.range N, g i = ((List.range N).map g).sum := by
    rw [Finset.sum_range, ← List.sum_ofFn, List.ofFn_eq_map, ← List.map_coe_finRange_eq_range, List.map_map]; rfl
  rw [h1]
  have h2 : ∀ l : List ℕ, (l.map g).sum = ((l.filter (fun i => decide (i ∉ fixed))).map g).sum := by
    intro l
    induction l with
    | nil => rfl
    | cons a l ih =>
      rw [List.map_cons, List.sum_cons, List.filter_cons, ih]
      by_cases ha : a ∈ fixed
      · simp [ha, hg a ha]
      · simp [ha]
  rw [h2]
  have h3 : ((List.range N).filter (fun i => decide (i ∉ fixed))) = free N fixed := rfl
  rw [h3, ← List.sum_ofFn]
  congr 1
  apply List.ext_getElem
  · simp
  · intro n h1 h2
    simp [fdof, (by simpa using h1 : n < (free N fixed).length)]

/-- a vector on the free components, extended by zero -/
theorem exists_extension (N : ℕ) (fixed : List ℕ) {n : ℕ} (hn : n = (free N fixed).length) (z : Vec n) :
    ∃ U : ℕ → ℝ, (∀ i ∈ fixed, U i = 0) ∧ z = fun k => U (fdof N fixed k.val) := by
  subst hn
  obtain ⟨val, hv⟩ := exists_val (free N fixed) (free_nodup N fixed) (List.ofFn z) (by simp)
  refine ⟨fun i => if i ∈ fixed then 0 else val i, fun i hi => by simp [hi], ?_⟩
  funext k
  simp only [(fdof_mem k.isLt).2, if_false]
  have := congrArg (fun l => l[k.val]?) hv
  simpa [fdof] using this

theorem ofFn_fdof (N : ℕ) (fixed : List ℕ) {n : ℕ} (hn : n = (free N fixed).length) (U : ℕ → ℝ) :
    List.ofFn (fun k : Fin n => U (fdof N fixed k.val)) = (free N fixed).map U := by
  subst hn
  apply List.ext_getElem
  · simp
  · intro n h1 h2
    simp [fdof, (by simpa using h1 : n < (free N fixed).length)]

/-- the symmetrised reduced stiffness as a form on vectors that vanish on the restrained components -/
theorem reduced_bil {K K' : Coo} {fixed : List ℕ} {N : ℕ} (hn : fixed.Nodup) (hr : K.nrow = N) (hc : K.ncol = N)
    (hents : ∀ e ∈ K.ents, e.1 < K.nrow ∧ e.2.1 < K.ncol) (h : Assembly.dropMatrixDof K fixed = .ok K')
    (hlen : K'.nrow = (free N fixed).length)
    (V U : ℕ → ℝ) (hV : ∀ i ∈ fixed, V i = 0) (hU : ∀ i ∈ fixed, U i = 0) :
    (fun k : Fin K'.nrow => V (fdof N fixed k.val)) ⬝ᵥ (symmetrised K' *ᵥ fun k : Fin K'.nrow => U (fdof N fixed k.val))
      = (bil K.ents V U + bil K.ents U V) / 2 := by
  have hb : ∀ V U : ℕ → ℝ, (∀ i ∈ fixed, V i = 0) → (∀ i ∈ fixed, U i = 0) →
      ∑ k : Fin K'.nrow, ∑ l : Fin K'.nrow, V (fdof N fixed k.val) * K'.get k.val l.val * U (fdof N fixed l.val)
        = bil K.ents V U := by
    intro V U hV hU
    rw [← Coo.get_bil K hents, hr, hc, sum_range_free N fixed _ (by intro i hi; simp [hV i hi]) hlen]
    apply Finset.sum_congr rfl
    intro k _
    rw [sum_range_free N fixed _ (by intro i hi; simp [hU i hi]) hlen]
    apply Finset.sum_congr rfl
    intro l _
    rw [dropMatrix_get hn hents h (i := k.val) (j := l.val) (gi := fdof N fixed k.val) (gj := fdof N fixed l.val)
      (by rw [hr]; exact fdof_get (hlen ▸ k.isLt)) (by rw [hc]; exact fdof_get (hlen ▸ l.isLt))]
  have hcomm : ∑ k : Fin K'.nrow, ∑ l : Fin K'.nrow, U (fdof N fixed k.val) * K'.get k.val l.val * V (fdof N fixed l.val)
      = ∑ k : Fin K'.nrow, ∑ l : Fin K'.nrow, U (fdof N fixed l.val) * K'.get l.val k.val * V (fdof N fixed k.val) :=
    Finset.sum_comm
  rw [← hb V U hV hU, ← hb U V hU hV, hcomm, ← Finset.sum_add_distrib, Finset.sum_div]
  simp only [dotProduct, Matrix.mulVec, symmetrised, Finset.mul_sum, Finset.sum_div, ← Finset.sum_add_distrib]
  apply Finset.sum_congr rfl
  intro k _
  apply Finset.sum_congr rfl
  intro l _
  ring

/-- symmetrised internal work -/
noncomputable def symWork (env : Env) (m : FeModel) (v u : State) : ℝ :=
  (internalWork env m v u + internalWork env m u v) / 2

theorem symWork_self (env : Env) (m : FeModel) (u : State) : symWork env m u u = internalWork env m u u := by
  unfold symWork; ring

theorem FreshInv.glob_zero {a : Api} (h : FreshInv a) {U : ℕ → ℝ} (hz : ∀ n ∈ a.model.nodes.keys, gat a.model U n = 0)
    {i : ℕ} (hi : i < a.model.nodeCount * 6) : U i = 0 := by
  have hlen : i / 6 < a.model.nodes.keys.length := by
    unfold Dict.keys; rw [List.length_map]; unfold FeModel.nodeCount at hi; omega
  have hn := List.getElem_mem hlen
  have h1 := hz _ hn
  have h2 : hidOf a.model (a.model.nodes.keys[i / 6]) = i / 6 := by
    unfold hidOf
    rw [(h.hid_get _ (i / 6)).mpr (List.getElem?_eq_getElem hlen)]; rfl
  have h3 := congrFun h1 ⟨i % 6, Nat.mod_lt _ (by decide)⟩
  unfold gat at h3
  rw [h2] at h3
  simp only [Pi.zero_apply] at h3
  have : i / 6 * 6 + i % 6 = i := by omega
  rw [this] at h3
  exact h3

/-- all that the reduction does for one case -/
theorem reduced_case {a : Api} (env : Env) (h : FreshInv a) {x : Assembly}
    (hx : x.model = a.model) {K : Coo} (hK : x.assembleK env = .ok K) {t : Dict Flags} (hwf : t.WF) {fixed : List ℕ}
    (ht : restraintDofs a.model t = .ok fixed) :
    ∃ K', Assembly.dropMatrixDof K fixed = .ok K' ∧ K'.nrow = (free (a.model.nodeCount * 6) fixed).length ∧
      ∀ V U : ℕ → ℝ, (∀ i ∈ fixed, V i = 0) → (∀ i ∈ fixed, U i = 0) →
        (fun k : Fin K'.nrow => V (fdof (a.model.nodeCount * 6) fixed k.val)) ⬝ᵥ
          (symmetrised K' *ᵥ fun k : Fin K'.nrow => U (fdof (a.model.nodeCount * 6) fixed k.val))
        = symWork env a.model (gat a.model V) (gat a.model U) := by
  have hA := h.toApiInv
  obtain ⟨hnd, hlt⟩ := restraintDofs_nodup h hwf ht
  obtain ⟨kr, kc, kents⟩ := assembleK_range hK
  rw [hx] at kr kc
  obtain ⟨K', hK'⟩ := dropMatrix_ok hnd (kr.trans kc.symm) (by rw [kr]; exact hlt) kents
  obtain ⟨_, _, hr', _⟩ := dropMatrix_shape hK'
  have hlen : K'.nrow = (free (a.model.nodeCount * 6) fixed).length := by rw [hr', kr, free_length hnd hlt]
  refine ⟨K', hK', hlen, ?_⟩
  intro V U hV hU
  rw [reduced_bil hnd kr kc kents hK' hlen V U hV hU, assembleK_bil env hA hx hK, assembleK_bil env hA hx hK]
  rfl

/-- a stable structure has a non-singular reduced stiffness -/
theorem reduced_inj {a : Api} (env : Env) (h : FreshInv a) {t : Dict Flags} (hwf : t.WF) {fixed : List ℕ}
    (ht : restraintDofs a.model t = .ok fixed) (hst : Stable env a.model t) {K' : Coo}
    (hlen : K'.nrow = (free (a.model.nodeCount * 6) fixed).length)
    (hform : ∀ V U : ℕ → ℝ, (∀ i ∈ fixed, V i = 0) → (∀ i ∈ fixed, U i = 0) →
        (fun k : Fin K'.nrow => V (fdof (a.model.nodeCount * 6) fixed k.val)) ⬝ᵥ
          (symmetrised K' *ᵥ fun k : Fin K'.nrow => U (fdof (a.model.nodeCount * 6) fixed k.val))
        = symWork env a.model (gat a.model V) (gat a.model U)) :
    ∀ z : Vec K'.nrow, symmetrised K' *ᵥ z = 0 → z = 0 := by
  intro z hz
  obtain ⟨U, hU1, hU2⟩ := exists_extension _ fixed hlen z
  have hq := hform U U hU1 hU1
  rw [← hU2, hz, dotProduct_zero, symWork_self] at hq
  have hz0 := hst (gat a.model U) ((respects_iff h.toApiInv hwf ht U).mpr hU1) hq.symm
  rw [hU2]
  funext k
  exact h.glob_zero hz0 (fdof_mem (hlen ▸ k.isLt)).1

/-- What the numerical part of the solver delivers. -/
theorem solveCase_spec {a : Api} (env : Env) (henv : env.SolverSound) (h : FreshInv a) {x : Assembly}
    (hx : x.model = a.model) {c : String} {lc : LoadCase} (hc : x.cases.get? c = some lc) (hlc : CaseInv x.heap c lc)
    {K : Coo} (hK : x.assembleK env = .ok K) {t : Dict Flags} (hwf : t.WF) {fixed : List ℕ}
    (ht : restraintDofs a.model t = .ok fixed)
    (hb : x.boundaryDofs c = .ok fixed) (hr : solverRestraints x c = .ok fixed)
    (hst : Stable env a.model t) {d : List ℝ} (hd : solveCase env x c K = .ok d) :
    ∃ U : ℕ → ℝ, d = (List.range (a.model.nodeCount * 6)).map U ∧ Respects t (gat a.model U) ∧
      ∀ V : ℕ → ℝ, (∀ i ∈ fixed, V i = 0) →
        symWork env a.model (gat a.model V) (gat a.model U) = externalWork a.model x.heap lc (gat a.model V) := by
  have hA := h.toApiInv
  obtain ⟨hnd, hlt⟩ := restraintDofs_nodup h hwf ht
  obtain ⟨K₁, hK₁, hlen, hform⟩ := reduced_case env h hx hK hwf ht
  have hinj := reduced_inj env h hwf ht hst hlen hform
  unfold solveCase at hd
  simp only [Except.bind_ok_iff] at hd
  obtain ⟨f, hf, K', hK', f', hf', hd⟩ := hd
  unfold Assembly.boundaryMatrix at hK'
  rw [hb, Except.bind_ok, hK₁] at hK'
  cases hK'
  unfold Assembly.boundaryVector at hf'
  rw [hb, Except.bind_ok, Except.pure_eq_ok, Except.ok.injEq] at hf'
  obtain ⟨fr, fc, fents⟩ := assembleF_shape hf
  rw [hx] at fr
  split at hd
  · rename_i hlen2
    simp only [Except.bind_ok_iff] at hd
    obtain ⟨delta, hdelta, rest, hrest, hd⟩ := hd
    rw [hr] at hrest
    cases hrest
    have hsol : symmetrised K₁ *ᵥ delta = fun i => f'[i.val]'(by rw [hlen2]; exact i.isLt) := by
      rcases Nat.eq_zero_or_pos K₁.nrow with h0 | hpos
      · funext i
        exact absurd i.isLt (by omega)
      · obtain ⟨z, hz1, hz2⟩ := henv K₁.nrow (symmetrised K₁) (fun i => f'[i.val]'(by rw [hlen2]; exact i.isLt)) hpos hinj
        rw [hz1] at hdelta
        cases hdelta
        exact hz2
    have hrhs : (fun i : Fin K₁.nrow => f'[i.val]'(by rw [hlen2]; exact i.isLt))
        = fun k => f.get (fdof (a.model.nodeCount * 6) fixed k.val) 0 := by
      funext k
      have hk : k.val < (free (a.model.nodeCount * 6) fixed).length := hlen ▸ k.isLt
      subst hf'
      simp only [dropVector_eq, fr, List.getElem_map, fdof]
      simp [hk]
    obtain ⟨U, hU1, hU2⟩ := exists_extension _ fixed hlen delta
    refine ⟨U, ?_, (respects_iff hA hwf ht U).mpr hU1, ?_⟩
    · rw [hx, hU2, ofFn_fdof _ _ hlen, expandDisp_eq _ _ hnd hlt] at hd
      cases hd
      apply List.map_congr_left
      intro i _
      split
      · rename_i hi; exact (hU1 i hi).symm
      · rfl
    · intro V hV
      rw [← hform V U hV hU1, ← hU2, hsol, hrhs, ← assembleF_bil hA hx hc hlc (by decide) hf, ← Coo.get_bil f fents, fc, fr]
      simp only [Finset.sum_range_one, mul_one]
      rw [sum_range_free _ fixed _ (by intro i hi; simp [hV i hi]) hlen]
      rfl
  · cases hd

/-- The numerical part of the solver succeeds on stable structures with at least one free component. -/
theorem solveCase_ok {a : Api} (env : Env) (henv : env.SolverSound) (h : FreshInv a) {x : Assembly}
    (hx : x.model = a.model) {c : String} {lc : LoadCase} (hc : x.cases.get? c = some lc) (hlc : CaseInv x.heap c lc)
    (hmu : ∀ b be, a.model.beams.get? b = some be → muOf be.prop ≠ -1)
    {K : Coo} (hK : x.assembleK env = .ok K) {t : Dict Flags} (hwf : t.WF) {fixed : List ℕ}
    (ht : restraintDofs a.model t = .ok fixed)
    (hb : x.boundaryDofs c = .ok fixed) (hr : solverRestraints x c = .ok fixed)
    (hst : Stable env a.model t) (hfree : 0 < (free (a.model.nodeCount * 6) fixed).length) :
    ∃ d, solveCase env x c K = .ok d := by
  obtain ⟨hnd, hlt⟩ := restraintDofs_nodup h hwf ht
  obtain ⟨K', hK', hlen, hform⟩ := reduced_case env h hx hK hwf ht
  have hinj := reduced_inj env h hwf ht hst hlen hform
  obtain ⟨f, hf⟩ := assembleF_ok h hx hc hlc (t := 0) (by decide) hmu
  obtain ⟨fr, fc, fents⟩ := assembleF_shape hf
  rw [hx] at fr
  have hflen : (Assembly.dropVectorDof f fixed).length = K'.nrow := by
    rw [dropVector_eq, List.length_map, fr, hlen]
  obtain ⟨z, hz1, hz2⟩ := henv K'.nrow (symmetrised K')
    (fun i => (Assembly.dropVectorDof f fixed)[i.val]'(by rw [hflen]; exact i.isLt)) (by rw [hlen]; exact hfree) hinj
  obtain ⟨U, hU1, hU2⟩ := exists_extension _ fixed hlen z
  unfold solveCase
  rw [hf, Except.bind_ok]
  unfold Assembly.boundaryMatrix Assembly.boundaryVector
  rw [hb, Except.bind_ok, hK', Except.bind_ok, Except.bind_ok, Except.pure_eq_ok, Except.bind_ok, dif_pos hflen, hz1,
    Except.bind_ok, hr, Except.bind_ok, hx, hU2, ofFn_fdof _ _ hlen, expandDisp_eq _ _ hnd hlt]
  exact ⟨_, rfl⟩

end Hyperstatic
