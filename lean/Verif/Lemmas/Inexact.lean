import Verif.Spec.Inexact
import Verif.Props.Blueprint

namespace Hyperstatic
open Matrix Spec

/-- the vector with a single component -/
def oneAt (i : ℕ) : ℕ → ℝ := fun k => if k = i then 1 else 0

theorem fdof_surj {N : ℕ} {fixed : List ℕ} {i : ℕ} (h1 : i < N) (h2 : i ∉ fixed) : ∃ k, k < (free N fixed).length ∧ fdof N fixed k = i := by
  obtain ⟨k, hk, e⟩ := List.mem_iff_getElem.mp (mem_free.mpr ⟨h1, h2⟩)
  refine ⟨k, hk, ?_⟩
  unfold fdof
  simp [hk, e]

theorem fdof_inj {N : ℕ} {fixed : List ℕ} {k l : ℕ} (hk : k < (free N fixed).length) (hl : l < (free N fixed).length)
    (e : fdof N fixed k = fdof N fixed l) : k = l := by
  unfold fdof at e
  simp only [List.getD_eq_getElem?_getD, List.getElem?_eq_getElem hk, List.getElem?_eq_getElem hl, Option.getD_some] at e
  exact (List.Nodup.getElem_inj_iff (free_nodup N fixed)).mp e

/-- What the numerical part delivers if the solver leaves a residual: every equation of a free component holds up to `ε` times the load of some
free component. -/
theorem solveCase_within {a : Api} (env : Env) {ε : ℝ} (henv : SolverWithin env ε) (h : FreshInv a) {x : Assembly}
    (hx : x.model = a.model) {c : String} {lc : LoadCase} (hc : x.cases.get? c = some lc) (hlc : CaseInv x.heap c lc)
    {K : Coo} (hK : x.assembleK env = .ok K) {t : Dict Flags} (hwf : t.WF) {fixed : List ℕ}
    (ht : restraintDofs a.model t = .ok fixed)
    (hb : x.boundaryDofs c = .ok fixed) (hr : solverRestraints x c = .ok fixed)
    (hst : Stable env a.model t) {d : List ℝ} (hd : solveCase env x c K = .ok d) :
    ∃ U : ℕ → ℝ, d = (List.range (a.model.nodeCount * 6)).map U ∧ Respects t (gat a.model U) ∧
      ∀ i, i < a.model.nodeCount * 6 → i ∉ fixed → ∃ j, j < a.model.nodeCount * 6 ∧ j ∉ fixed ∧
        |symWork env a.model (gat a.model (oneAt i)) (gat a.model U) - externalWork a.model x.heap lc (gat a.model (oneAt i))| ≤
          ε * |externalWork a.model x.heap lc (gat a.model (oneAt j))| := by
  have hA := h.toApiInv
  obtain ⟨hnd, hlt⟩ := restraintDofs_nodup h hwf ht
  obtain ⟨K₁, hK₁, hlen, hform⟩ := reduced_case env h hx hK hwf ht
  have hinj := reduced_inj env h hwf ht hst hlen hform
  unfold solveCase at hd
  simp only [Except.bind_ok_iff] at hd
  obtain ⟨f, hf, K', hK', f', hf', hd⟩ := hd
  unfold Assembly.boundaryMatrix at hK'
  rw [hb, Except.bind_ok, hK₁] at hK'
  cases hK'
  unfold Assembly.boundaryVector at hf'
  rw [hb, Except.bind_ok, Except.pure_eq_ok, Except.ok.injEq] at hf'
  obtain ⟨fr, fc, fents⟩ := assembleF_shape hf
  rw [hx] at fr
  split at hd
  · rename_i hlen2
    simp only [Except.bind_ok_iff] at hd
    obtain ⟨delta, hdelta, rest, hrest, hd⟩ := hd
    rw [hr] at hrest
    cases hrest
    have hrhs : (fun i : Fin K₁.nrow => f'[i.val]'(by rw [hlen2]; exact i.isLt))
        = fun k => f.get (fdof (a.model.nodeCount * 6) fixed k.val) 0 := by
      funext k
      have hk : k.val < (free (a.model.nodeCount * 6) fixed).length := hlen ▸ k.isLt
      subst hf'
      simp only [dropVector_eq, fr, List.getElem_map, fdof]
      simp [hk]
    have hsol : ∀ k : Fin K₁.nrow, ∃ l : Fin K₁.nrow, |(symmetrised K₁ *ᵥ delta) k - f.get (fdof (a.model.nodeCount * 6) fixed k.val) 0| ≤
        ε * |f.get (fdof (a.model.nodeCount * 6) fixed l.val) 0| := by
      intro k
      obtain ⟨z, hz1, hz2⟩ := henv K₁.nrow (symmetrised K₁) (fun i => f'[i.val]'(by rw [hlen2]; exact i.isLt)) (by have := k.isLt; omega) hinj
      rw [hz1] at hdelta
      cases hdelta
      obtain ⟨l, hl⟩ := hz2 k
      have e1 := congrFun hrhs k
      have e2 := congrFun hrhs l
      rw [e1, e2] at hl
      exact ⟨l, hl⟩
    have hload : ∀ i, i < a.model.nodeCount * 6 → f.get i 0 = externalWork a.model x.heap lc (gat a.model (oneAt i)) := by
      intro i hi
      rw [← assembleF_bil hA hx hc hlc (by decide) hf, ← Coo.get_bil f fents, fc, fr]
      simp only [Finset.sum_range_one, mul_one, oneAt]
      simp [hi]
    obtain ⟨U, hU1, hU2⟩ := exists_extension _ fixed hlen delta
    refine ⟨U, ?_, (respects_iff hA hwf ht U).mpr hU1, ?_⟩
    · rw [hx, hU2, ofFn_fdof _ _ hlen, expandDisp_eq _ _ hnd hlt] at hd
      cases hd
      apply List.map_congr_left
      intro i _
      split
      · rename_i hi; exact (hU1 i hi).symm
      · rfl
    · intro i hi hif
      obtain ⟨k, hk, rfl⟩ := fdof_surj hi hif
      obtain ⟨l, hl⟩ := hsol ⟨k, hlen ▸ hk⟩
      have hl' : l.val < (free (a.model.nodeCount * 6) fixed).length := hlen ▸ l.isLt
      obtain ⟨j1, j2⟩ := fdof_mem hl'
      refine ⟨_, j1, j2, ?_⟩
      rw [← hload _ j1, ← hload _ hi, ← hform (oneAt _) U (fun m hm => if_neg (by rintro rfl; exact hif hm)) hU1, ← hU2]
      have hdot : (fun m : Fin K₁.nrow => oneAt (fdof (a.model.nodeCount * 6) fixed k) (fdof (a.model.nodeCount * 6) fixed m.val)) ⬝ᵥ
          (symmetrised K₁ *ᵥ delta) = (symmetrised K₁ *ᵥ delta) ⟨k, hlen ▸ hk⟩ := by
        unfold dotProduct
        rw [Finset.sum_eq_single ⟨k, hlen ▸ hk⟩]
        · simp [oneAt]
        · intro m _ hm
          unfold oneAt
          beta_reduce
          rw [if_neg, zero_mul]
          intro e
          exact hm (Fin.ext (fdof_inj (hlen ▸ m.isLt) hk e))
        · exact fun hh => absurd (Finset.mem_univ _) hh
      rw [hdot]
      exact hl
  · cases hd

/-- component `r` of node `n` is not restrained by the table -/
def FreeIn (t : Dict Flags) (n : String) (r : Fin 6) : Prop := ∀ f, t.get? n = some f → f r = false

theorem oneAt_unit {a : Api} (h : FreshInv a) {n : String} (hn : n ∈ a.model.nodes.keys) (r : Fin 6) :
    ∀ m ∈ a.model.nodes.keys, gat a.model (oneAt (hidOf a.model n * 6 + r.val)) m = unitAt n r m := by
  intro m hm
  funext q
  unfold gat oneAt unitAt
  have hr := r.isLt
  have hq := q.isLt
  by_cases e : m = n ∧ q = r
  · obtain ⟨rfl, rfl⟩ := e
    rw [if_pos rfl, if_pos ⟨rfl, rfl⟩]
  · rw [if_neg e, if_neg]
    intro e'
    apply e
    have h1 : hidOf a.model m = hidOf a.model n := by omega
    exact ⟨h.hidOf_inj hm hn h1, Fin.ext (by omega)⟩

theorem externalWork_congr {a : Api} (h : ApiInv a) (heap : PatHeap) (lc : LoadCase) {v w : State} (hv : ∀ n ∈ a.model.nodes.keys, v n = w n) :
    externalWork a.model heap lc v = externalWork a.model heap lc w := by
  rw [externalWork_eq, externalWork_eq]
  congr 2
  · apply List.map_congr_left
    rintro ⟨n, nd⟩ hm
    simp only
    rw [hv n (List.mem_map.mpr ⟨_, hm, rfl⟩)]
  · apply List.map_congr_left
    rintro ⟨b, be⟩ hm
    obtain ⟨_, hs, ht, _⟩ := h.beam_ok b be ((Dict.mem_iff_get? h.beams_wf b be).mp hm)
    unfold beamEnds
    rw [hv _ hs, hv _ ht]

/-- The result of a static solution with a residual, at the level of node names. -/
theorem reported_within (env : Env) {ε : ℝ} (henv : SolverWithin env ε) {a : Api} (h : FreshInv a) {x : Assembly} (hx : a.assembly = .ok x)
    {w : World} (hw : w.fs.get? Api.filename = some (.asb x)) (h0 : w.fs.get? "0.k" = none) {c : String} {lc : LoadCase}
    (hc : a.loadcases.get? c = some lc) (hu : Unambiguous a.model lc) (hst : Stable env a.model (governing a.model lc))
    (hret : (w.step env (.solveStatic c)).2 = true) :
    ∃ u : State, (∀ n ∈ a.model.nodes.keys,
        (w.step env (.solveStatic c)).1.resultGetNodalDisplacement n c = some (List.ofFn (u n))) ∧
      Respects (governing a.model lc) u ∧
      ∀ n ∈ a.model.nodes.keys, ∀ r, FreeIn (governing a.model lc) n r → ∃ m ∈ a.model.nodes.keys, ∃ q, FreeIn (governing a.model lc) m q ∧
        |symWork env a.model (unitAt n r) u - externalWork a.model a.heap lc (unitAt n r)| ≤
          ε * |externalWork a.model a.heap lc (unitAt m q)| := by
  have hA := h.toApiInv
  obtain ⟨h1, h2, h3, h4, h5⟩ := hA.assembly_eq hx
  obtain ⟨K, d, hK, hd, hstep⟩ := solveStatic_true env hw h0 hret
  have hlc := hA.case_ok c lc hc
  have hwf := governing_wf hA hlc
  have hfix : ∃ fixed, restraintDofs a.model (governing a.model lc) = .ok fixed := by
    unfold governing
    cases hr : lc.restraint with
    | nil => exact ⟨_, h4⟩
    | cons p ps =>
      have hd' := hd
      unfold solveCase at hd'
      simp only [Except.bind_ok_iff] at hd'
      obtain ⟨f, _, K', hK', _⟩ := hd'
      unfold Assembly.boundaryMatrix at hK'
      simp only [Except.bind_ok_iff] at hK'
      obtain ⟨fixed, hb, _⟩ := hK'
      unfold Assembly.boundaryDofs at hb
      rw [h3, Dict.getItem_of_some hc, Except.bind_ok, hr, h1] at hb
      exact ⟨fixed, hb⟩
  obtain ⟨fixed, hf⟩ := hfix
  obtain ⟨hb, hr⟩ := case_restraints hA hx hc hu hf
  obtain ⟨U, hU1, hU2, hU3⟩ := solveCase_within env henv h h1 (by rw [h3]; exact hc) (by rw [h2]; exact hlc) hK hwf hf hb hr hst hd
  rw [h2] at hU3
  have hkeys := restraintDofs_keys hA hf
  have hmem : ∀ n ∈ a.model.nodes.keys, ∀ r : Fin 6, hidOf a.model n * 6 + r.val ∉ fixed ↔ FreeIn (governing a.model lc) n r := by
    intro n hn r
    rw [mem_restraintDofs hA hwf hf]
    constructor
    · intro hx f hf
      by_contra hne
      exact hx ⟨n, f, r, hf, by simpa using hne, rfl⟩
    · rintro hfree ⟨n', f, r', e1, e2, e3⟩
      have hh : hidOf a.model n = hidOf a.model n' := by have := r.isLt; have := r'.isLt; omega
      have hrr : r = r' := by apply Fin.ext; omega
      have := h.hidOf_inj hn (hkeys n' (Dict.mem_keys_of_get? e1)) hh
      subst this
      subst hrr
      rw [hfree f e1] at e2
      cases e2
  refine ⟨gat a.model U, ?_, hU2, ?_⟩
  · intro n hn
    rw [hstep, reported env hw, h1, (h.hidOf_lt hn).1, hU1]
    simp only
    rw [slice_range _ _ (h.hidOf_lt hn).2.1]
    rfl
  · intro n hn r hfree
    have hi : hidOf a.model n * 6 + r.val < a.model.nodeCount * 6 := by
      have := (h.hidOf_lt hn).2.1; have := r.isLt; omega
    obtain ⟨j, hj, hjf, hle⟩ := hU3 _ hi ((hmem n hn r).mpr hfree)
    have hjn : j / 6 < a.model.nodes.keys.length := by
      unfold Dict.keys; rw [List.length_map]; unfold FeModel.nodeCount at hj; omega
    set m := a.model.nodes.keys[j / 6] with hm
    have hmk : m ∈ a.model.nodes.keys := List.getElem_mem hjn
    have hmh : hidOf a.model m = j / 6 := by
      have e := (h.hid_get m (j / 6)).mpr (by rw [List.getElem?_eq_getElem hjn])
      unfold hidOf; rw [e]; rfl
    have hje : j = hidOf a.model m * 6 + (⟨j % 6, Nat.mod_lt _ (by decide)⟩ : Fin 6).val := by rw [hmh]; simp only; omega
    refine ⟨m, hmk, ⟨j % 6, Nat.mod_lt _ (by decide)⟩, (hmem m hmk _).mp (hje ▸ hjf), ?_⟩
    rw [hje, externalWork_congr hA _ _ (oneAt_unit h hmk _), externalWork_congr hA _ _ (oneAt_unit h hn _)] at hle
    unfold symWork at hle ⊢
    rwa [internalWork_congr env hA (oneAt_unit h hn r) (fun n _ => rfl),
      internalWork_congr env hA (fun n _ => rfl) (oneAt_unit h hn r)] at hle

/-- The numerical part of the solver succeeds. -/
theorem solveCase_answers {a : Api} (env : Env) {ε : ℝ} (henv : SolverWithin env ε) (h : FreshInv a) {x : Assembly}
    (hx : x.model = a.model) {c : String} {lc : LoadCase} (hc : x.cases.get? c = some lc) (hlc : CaseInv x.heap c lc)
    (hmu : ∀ b be, a.model.beams.get? b = some be → muOf be.prop ≠ -1)
    {K : Coo} (hK : x.assembleK env = .ok K) {t : Dict Flags} (hwf : t.WF) {fixed : List ℕ}
    (ht : restraintDofs a.model t = .ok fixed)
    (hb : x.boundaryDofs c = .ok fixed) (hr : solverRestraints x c = .ok fixed)
    (hst : Stable env a.model t) (hfree : 0 < (free (a.model.nodeCount * 6) fixed).length) :
    ∃ d, solveCase env x c K = .ok d := by
  obtain ⟨hnd, hlt⟩ := restraintDofs_nodup h hwf ht
  obtain ⟨K', hK', hlen, hform⟩ := reduced_case env h hx hK hwf ht
  have hinj := reduced_inj env h hwf ht hst hlen hform
  obtain ⟨f, hf⟩ := assembleF_ok h hx hc hlc (t := 0) (by decide) hmu
  obtain ⟨fr, fc, fents⟩ := assembleF_shape hf
  rw [hx] at fr
  have hflen : (Assembly.dropVectorDof f fixed).length = K'.nrow := by
    rw [dropVector_eq, List.length_map, fr, hlen]
  obtain ⟨z, hz1, hz2⟩ := henv K'.nrow (symmetrised K')
    (fun i => (Assembly.dropVectorDof f fixed)[i.val]'(by rw [hflen]; exact i.isLt)) (by rw [hlen]; exact hfree) hinj
  obtain ⟨U, hU1, hU2⟩ := exists_extension _ fixed hlen z
  unfold solveCase
  rw [hf, Except.bind_ok]
  unfold Assembly.boundaryMatrix Assembly.boundaryVector
  rw [hb, Except.bind_ok, hK', Except.bind_ok, Except.bind_ok, Except.pure_eq_ok, Except.bind_ok, dif_pos hflen, hz1,
    Except.bind_ok, hr, Except.bind_ok, hx, hU2, ofFn_fdof _ _ hlen, expandDisp_eq _ _ hnd hlt]
  exact ⟨_, rfl⟩

theorem succeeds_within (env : Env) {ε : ℝ} (henv : SolverWithin env ε) {a : Api} (h : FreshInv a) {x : Assembly} (hx : a.assembly = .ok x)
    {w : World} (hw : w.fs.get? Api.filename = some (.asb x)) (h0 : w.fs.get? "0.k" = none) {c : String} {lc : LoadCase}
    (hc : a.loadcases.get? c = some lc) (hu : Unambiguous a.model lc) (hst : Stable env a.model (governing a.model lc))
    (hmu : ∀ b be, a.model.beams.get? b = some be → muOf be.prop ≠ -1)
    (hk : ∀ n ∈ lc.restraint.keys, n ∈ a.model.nodes.keys)
    (hfree : ∃ n ∈ a.model.nodes.keys, ∃ r, ∀ f, (governing a.model lc).get? n = some f → f r = false) :
    (w.step env (.solveStatic c)).2 = true := by
  have hA := h.toApiInv
  obtain ⟨h1, h2, h3, h4, h5⟩ := hA.assembly_eq hx
  have hlc := hA.case_ok c lc hc
  have hwf := governing_wf hA hlc
  have hkg : ∀ n ∈ (governing a.model lc).keys, n ∈ a.model.nodes.keys := by
    unfold governing
    split
    · exact hA.rest_keys
    · exact hk
  have hf := restraintDofs_eq hA hkg
  obtain ⟨hb, hr⟩ := case_restraints hA hx hc hu hf
  obtain ⟨K, hK⟩ := (assembleK_ok_iff env h h1).mpr hmu
  have hlen : 0 < (free (a.model.nodeCount * 6)
      ((governing a.model lc).map fun it => flagDofs (hidOf a.model it.1) it.2).flatten).length := by
    obtain ⟨n, hn, r, hnr⟩ := hfree
    apply List.length_pos_of_mem (a := hidOf a.model n * 6 + r.val)
    rw [mem_free]
    refine ⟨by have := (h.hidOf_lt hn).2.1; have := r.isLt; omega, ?_⟩
    intro hmem
    obtain ⟨n', f, r', e1, e2, e3⟩ := (mem_restraintDofs hA hwf hf _).mp hmem
    have hh : hidOf a.model n = hidOf a.model n' := by have := r.isLt; have := r'.isLt; omega
    have hrr : r = r' := by apply Fin.ext; omega
    have := h.hidOf_inj hn (hkg n' (Dict.mem_keys_of_get? e1)) hh
    subst this
    subst hrr
    rw [hnr f e1] at e2
    cases e2
  obtain ⟨d, hd⟩ := solveCase_answers env henv h h1 (by rw [h3]; exact hc) (by rw [h2]; exact hlc) hmu hK hwf hf hb hr hst hlen
  rw [solveStatic_eq env hw h0, hK]
  simp only [hd]

end Hyperstatic
