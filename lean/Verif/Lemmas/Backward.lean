import Verif.Spec.Backward
import Verif.Props.Inexact

/-
What the pipeline delivers when the linear solver has a small backward error (C160).
-/

namespace Hyperstatic
open Matrix Spec

theorem backward_answers {env : Env} {ε : ℝ} (h : SolverBackward env ε) : SolverAnswers env := fun n A b hn hA =>
  let ⟨x, hx, _⟩ := h n A b hn hA
  ⟨x, hx⟩

/-- a small backward error leaves a small residual -/
theorem backward_residual {env : Env} {ε : ℝ} (h : SolverBackward env ε) (hε : 0 ≤ ε) (n : ℕ) (A : Matrix (Fin n) (Fin n) ℝ) (b : Vec n) (hn : 0 < n)
    (hA : ∀ v : Vec n, A *ᵥ v = 0 → v = 0) : ∃ x, env.spsolve n A b = .ok x ∧
      ∀ i, ∃ j k l p, |(A *ᵥ x) i - b i| ≤ ε * (|b j| + n * (|A k l| * |x p|)) := by
  obtain ⟨x, hx, E, e, heq, hE, he⟩ := h n A b hn hA
  refine ⟨x, hx, fun i => ?_⟩
  haveI : Nonempty (Fin n) := ⟨⟨0, hn⟩⟩
  obtain ⟨j, hj⟩ := he i
  obtain ⟨kl, -, hkl⟩ := Finset.exists_max_image (Finset.univ : Finset (Fin n × Fin n)) (fun q => |A q.1 q.2|) Finset.univ_nonempty
  obtain ⟨p, -, hp⟩ := Finset.exists_max_image (Finset.univ : Finset (Fin n)) (fun q => |x q|) Finset.univ_nonempty
  refine ⟨j, kl.1, kl.2, p, ?_⟩
  have e1 : (A *ᵥ x) i - b i = e i - (E *ᵥ x) i := by
    have := congrFun heq i
    rw [Matrix.add_mulVec, Pi.add_apply, Pi.add_apply] at this
    linarith
  have e2 : |(E *ᵥ x) i| ≤ n * (ε * (|A kl.1 kl.2| * |x p|)) := by
    unfold Matrix.mulVec dotProduct
    refine (Finset.abs_sum_le_sum_abs _ _).trans ?_
    have : ∀ q ∈ (Finset.univ : Finset (Fin n)), |E i q * x q| ≤ ε * (|A kl.1 kl.2| * |x p|) := by
      intro q _
      obtain ⟨k, l, hl⟩ := hE i q
      rw [abs_mul, ← mul_assoc]
      exact mul_le_mul (hl.trans (mul_le_mul_of_nonneg_left (hkl (k, l) (Finset.mem_univ _)) hε)) (hp q (Finset.mem_univ _)) (abs_nonneg _)
        (mul_nonneg hε (abs_nonneg _))
    refine (Finset.sum_le_card_nsmul _ _ _ this).trans ?_
    rw [Finset.card_univ, Fintype.card_fin, nsmul_eq_mul]
  rw [e1]
  refine (abs_sub _ _).trans ?_
  rw [mul_add]
  refine add_le_add hj (e2.trans (le_of_eq ?_))
  ring

theorem free_length_le (N : ℕ) (fixed : List ℕ) : (free N fixed).length ≤ N := by
  unfold free
  refine (List.length_filter_le _ _).trans ?_
  rw [List.length_range]

/-- What the numerical part delivers if the solver leaves a residual: every equation of a free component holds up to `ε` times the sum of the load of some
free component and the product of an entry of the matrix, a displacement and the number of components. -/
theorem solveCase_backward {a : Api} (env : Env) {ε : ℝ} (hε : 0 ≤ ε) (henv : SolverBackward env ε) (h : FreshInv a) {x : Assembly}
    (hx : x.model = a.model) {c : String} {lc : LoadCase} (hc : x.cases.get? c = some lc) (hlc : CaseInv x.heap c lc)
    {K : Coo} (hK : x.assembleK env = .ok K) {t : Dict Flags} (hwf : t.WF) {fixed : List ℕ}
    (ht : restraintDofs a.model t = .ok fixed)
    (hb : x.boundaryDofs c = .ok fixed) (hr : solverRestraints x c = .ok fixed)
    (hst : Stable env a.model t) {d : List ℝ} (hd : solveCase env x c K = .ok d) :
    ∃ U : ℕ → ℝ, d = (List.range (a.model.nodeCount * 6)).map U ∧ Respects t (gat a.model U) ∧
      ∀ i, i < a.model.nodeCount * 6 → i ∉ fixed → ∃ j k l p, (j < a.model.nodeCount * 6 ∧ j ∉ fixed) ∧
        (k < a.model.nodeCount * 6 ∧ k ∉ fixed) ∧ (l < a.model.nodeCount * 6 ∧ l ∉ fixed) ∧ (p < a.model.nodeCount * 6 ∧ p ∉ fixed) ∧
        |symWork env a.model (gat a.model (oneAt i)) (gat a.model U) - externalWork a.model x.heap lc (gat a.model (oneAt i))| ≤
          ε * (|externalWork a.model x.heap lc (gat a.model (oneAt j))| +
            (a.model.nodeCount * 6 : ℕ) * (|symWork env a.model (gat a.model (oneAt k)) (gat a.model (oneAt l))| * |U p|)) := by
  have hA := h.toApiInv
  obtain ⟨hnd, hlt⟩ := restraintDofs_nodup h hwf ht
  obtain ⟨K₁, hK₁, hlen, hform⟩ := reduced_case env h hx hK hwf ht
  have hinj := reduced_inj env h hwf ht hst hlen hform
  unfold solveCase at hd
  simp only [Except.bind_ok_iff] at hd
  obtain ⟨f, hf, K', hK', f', hf', hd⟩ := hd
  unfold Assembly.boundaryMatrix at hK'
  rw [hb, Except.bind_ok, hK₁] at hK'
  cases hK'
  unfold Assembly.boundaryVector at hf'
  rw [hb, Except.bind_ok, Except.pure_eq_ok, Except.ok.injEq] at hf'
  obtain ⟨fr, fc, fents⟩ := assembleF_shape hf
  rw [hx] at fr
  split at hd
  · rename_i hlen2
    simp only [Except.bind_ok_iff] at hd
    obtain ⟨delta, hdelta, rest, hrest, hd⟩ := hd
    rw [hr] at hrest
    cases hrest
    have hrhs : (fun i : Fin K₁.nrow => f'[i.val]'(by rw [hlen2]; exact i.isLt))
        = fun k => f.get (fdof (a.model.nodeCount * 6) fixed k.val) 0 := by
      funext k
      have hk : k.val < (free (a.model.nodeCount * 6) fixed).length := hlen ▸ k.isLt
      subst hf'
      simp only [dropVector_eq, fr, List.getElem_map, fdof]
      simp [hk]
    have hsol : ∀ k : Fin K₁.nrow, ∃ j k' l p : Fin K₁.nrow, |(symmetrised K₁ *ᵥ delta) k - f.get (fdof (a.model.nodeCount * 6) fixed k.val) 0| ≤
        ε * (|f.get (fdof (a.model.nodeCount * 6) fixed j.val) 0| + K₁.nrow * (|symmetrised K₁ k' l| * |delta p|)) := by
      intro k
      obtain ⟨z, hz1, hz2⟩ := backward_residual henv hε K₁.nrow (symmetrised K₁) (fun i => f'[i.val]'(by rw [hlen2]; exact i.isLt)) (by have := k.isLt; omega) hinj
      rw [hz1] at hdelta
      cases hdelta
      obtain ⟨j, k', l, p, hl⟩ := hz2 k
      have e1 := congrFun hrhs k
      have e2 := congrFun hrhs j
      rw [e1, e2] at hl
      exact ⟨j, k', l, p, hl⟩
    have hload : ∀ i, i < a.model.nodeCount * 6 → f.get i 0 = externalWork a.model x.heap lc (gat a.model (oneAt i)) := by
      intro i hi
      rw [← assembleF_bil hA hx hc hlc (by decide) hf, ← Coo.get_bil f fents, fc, fr]
      simp only [Finset.sum_range_one, mul_one, oneAt]
      simp [hi]
    obtain ⟨U, hU1, hU2⟩ := exists_extension _ fixed hlen delta
    refine ⟨U, ?_, (respects_iff hA hwf ht U).mpr hU1, ?_⟩
    · rw [hx, hU2, ofFn_fdof _ _ hlen, expandDisp_eq _ _ hnd hlt] at hd
      cases hd
      apply List.map_congr_left
      intro i _
      split
      · rename_i hi; exact (hU1 i hi).symm
      · rfl
    · intro i hi hif
      obtain ⟨k, hk, rfl⟩ := fdof_surj hi hif
      have hdot : ∀ (k : ℕ) (hk : k < K₁.nrow) (z : Vec K₁.nrow),
          (fun m : Fin K₁.nrow => oneAt (fdof (a.model.nodeCount * 6) fixed k) (fdof (a.model.nodeCount * 6) fixed m.val)) ⬝ᵥ z = z ⟨k, hk⟩ := by
        intro k hk z
        unfold dotProduct
        rw [Finset.sum_eq_single ⟨k, hk⟩]
        · simp [oneAt]
        · intro m _ hm
          unfold oneAt
          beta_reduce
          rw [if_neg, zero_mul]
          intro e
          exact hm (Fin.ext (fdof_inj (hlen ▸ m.isLt) (hlen ▸ hk) e))
        · exact fun hh => absurd (Finset.mem_univ _) hh
      have hzero : ∀ k : Fin K₁.nrow, ∀ m ∈ fixed, oneAt (fdof (a.model.nodeCount * 6) fixed k.val) m = 0 := by
        intro k m hm
        exact if_neg (by rintro rfl; exact (fdof_mem (hlen ▸ k.isLt)).2 hm)
      have hent : ∀ k l : Fin K₁.nrow, symmetrised K₁ k l = symWork env a.model (gat a.model (oneAt (fdof (a.model.nodeCount * 6) fixed k.val)))
          (gat a.model (oneAt (fdof (a.model.nodeCount * 6) fixed l.val))) := by
        intro k l
        rw [← hform _ _ (hzero k) (hzero l), hdot k.val k.isLt]
        unfold Matrix.mulVec
        rw [dotProduct_comm, hdot l.val l.isLt]
      have hk' : k < K₁.nrow := hlen ▸ hk
      obtain ⟨j, k', l, p, hl⟩ := hsol ⟨k, hk'⟩
      have hj := fdof_mem (N := a.model.nodeCount * 6) (fixed := fixed) (k := j.val) (hlen ▸ j.isLt)
      refine ⟨_, _, _, _, hj, fdof_mem (k := k'.val) (hlen ▸ k'.isLt), fdof_mem (k := l.val) (hlen ▸ l.isLt), fdof_mem (k := p.val) (hlen ▸ p.isLt), ?_⟩
      rw [← hload _ hj.1, ← hload _ hi, ← hform (oneAt _) U (hzero ⟨k, hk'⟩) hU1, ← hU2, hdot k hk', ← hent]
      refine hl.trans (mul_le_mul_of_nonneg_left ?_ hε)
      have hp : delta p = U (fdof (a.model.nodeCount * 6) fixed p.val) := congrFun hU2 p
      rw [hp]
      refine add_le_add le_rfl (mul_le_mul_of_nonneg_right ?_ (mul_nonneg (abs_nonneg _) (abs_nonneg _)))
      rw [hlen, Nat.cast_le]
      exact free_length_le _ _
  · cases hd

/-- The result of a static solution with a residual, at the level of node names. -/
theorem reported_backward (env : Env) {ε : ℝ} (hε : 0 ≤ ε) (henv : SolverBackward env ε) {a : Api} (h : FreshInv a) {x : Assembly} (hx : a.assembly = .ok x)
    {w : World} (hw : w.fs.get? Api.filename = some (.asb x)) (h0 : w.fs.get? "0.k" = none) {c : String} {lc : LoadCase}
    (hc : a.loadcases.get? c = some lc) (hu : Unambiguous a.model lc) (hst : Stable env a.model (governing a.model lc))
    (hret : (w.step env (.solveStatic c)).2 = true) :
    ∃ u : State, (∀ n ∈ a.model.nodes.keys,
        (w.step env (.solveStatic c)).1.resultGetNodalDisplacement n c = some (List.ofFn (u n))) ∧
      Respects (governing a.model lc) u ∧
      ∀ n ∈ a.model.nodes.keys, ∀ r, FreeIn (governing a.model lc) n r →
        ∃ m1 ∈ a.model.nodes.keys, ∃ q1, FreeIn (governing a.model lc) m1 q1 ∧ ∃ m2 ∈ a.model.nodes.keys, ∃ q2, FreeIn (governing a.model lc) m2 q2 ∧
        ∃ m3 ∈ a.model.nodes.keys, ∃ q3, FreeIn (governing a.model lc) m3 q3 ∧ ∃ m4 ∈ a.model.nodes.keys, ∃ q4, FreeIn (governing a.model lc) m4 q4 ∧
        |symWork env a.model (unitAt n r) u - externalWork a.model a.heap lc (unitAt n r)| ≤
          ε * (|externalWork a.model a.heap lc (unitAt m1 q1)| +
            (a.model.nodes.keys.length * 6 : ℕ) * (|symWork env a.model (unitAt m2 q2) (unitAt m3 q3)| * |u m4 q4|)) := by
  have hA := h.toApiInv
  obtain ⟨h1, h2, h3, h4, h5⟩ := hA.assembly_eq hx
  obtain ⟨K, d, hK, hd, hstep⟩ := solveStatic_true env hw h0 hret
  have hlc := hA.case_ok c lc hc
  have hwf := governing_wf hA hlc
  have hfix : ∃ fixed, restraintDofs a.model (governing a.model lc) = .ok fixed := by
    unfold governing
    cases hr : lc.restraint with
    | nil => exact ⟨_, h4⟩
    | cons p ps =>
      have hd' := hd
      unfold solveCase at hd'
      simp only [Except.bind_ok_iff] at hd'
      obtain ⟨f, _, K', hK', _⟩ := hd'
      unfold Assembly.boundaryMatrix at hK'
      simp only [Except.bind_ok_iff] at hK'
      obtain ⟨fixed, hb, _⟩ := hK'
      unfold Assembly.boundaryDofs at hb
      rw [h3, Dict.getItem_of_some hc, Except.bind_ok, hr, h1] at hb
      exact ⟨fixed, hb⟩
  obtain ⟨fixed, hf⟩ := hfix
  obtain ⟨hb, hr⟩ := case_restraints hA hx hc hu hf
  obtain ⟨U, hU1, hU2, hU3⟩ := solveCase_backward env hε henv h h1 (by rw [h3]; exact hc) (by rw [h2]; exact hlc) hK hwf hf hb hr hst hd
  rw [h2] at hU3
  have hkeys := restraintDofs_keys hA hf
  have hmem : ∀ n ∈ a.model.nodes.keys, ∀ r : Fin 6, hidOf a.model n * 6 + r.val ∉ fixed ↔ FreeIn (governing a.model lc) n r := by
    intro n hn r
    rw [mem_restraintDofs hA hwf hf]
    constructor
    · intro hx f hf
      by_contra hne
      exact hx ⟨n, f, r, hf, by simpa using hne, rfl⟩
    · rintro hfree ⟨n', f, r', e1, e2, e3⟩
      have hh : hidOf a.model n = hidOf a.model n' := by have := r.isLt; have := r'.isLt; omega
      have hrr : r = r' := by apply Fin.ext; omega
      have := h.hidOf_inj hn (hkeys n' (Dict.mem_keys_of_get? e1)) hh
      subst this
      subst hrr
      rw [hfree f e1] at e2
      cases e2
  refine ⟨gat a.model U, ?_, hU2, ?_⟩
  · intro n hn
    rw [hstep, reported env hw, h1, (h.hidOf_lt hn).1, hU1]
    simp only
    rw [slice_range _ _ (h.hidOf_lt hn).2.1]
    rfl
  · intro n hn r hfree
    have hi : hidOf a.model n * 6 + r.val < a.model.nodeCount * 6 := by
      have := (h.hidOf_lt hn).2.1; have := r.isLt; omega
    have back : ∀ j, j < a.model.nodeCount * 6 ∧ j ∉ fixed → ∃ m ∈ a.model.nodes.keys, ∃ q, FreeIn (governing a.model lc) m q ∧
        j = hidOf a.model m * 6 + q.val := by
      rintro j ⟨hj, hjf⟩
      have hjn : j / 6 < a.model.nodes.keys.length := by
        unfold Dict.keys; rw [List.length_map]; unfold FeModel.nodeCount at hj; omega
      have hmk : a.model.nodes.keys[j / 6] ∈ a.model.nodes.keys := List.getElem_mem hjn
      have hmh : hidOf a.model a.model.nodes.keys[j / 6] = j / 6 := by
        have e := (h.hid_get a.model.nodes.keys[j / 6] (j / 6)).mpr (by rw [List.getElem?_eq_getElem hjn])
        unfold hidOf; rw [e]; rfl
      have hje : j = hidOf a.model a.model.nodes.keys[j / 6] * 6 + (⟨j % 6, Nat.mod_lt _ (by decide)⟩ : Fin 6).val := by rw [hmh]; simp only; omega
      exact ⟨_, hmk, ⟨j % 6, Nat.mod_lt _ (by decide)⟩, (hmem _ hmk _).mp (hje ▸ hjf), hje⟩
    obtain ⟨j, k, l, p, hj, hk, hl, hp, hle⟩ := hU3 _ hi ((hmem n hn r).mpr hfree)
    obtain ⟨m1, h1k, q1, h1f, rfl⟩ := back j hj
    obtain ⟨m2, h2k, q2, h2f, rfl⟩ := back k hk
    obtain ⟨m3, h3k, q3, h3f, rfl⟩ := back l hl
    obtain ⟨m4, h4k, q4, h4f, rfl⟩ := back p hp
    refine ⟨m1, h1k, q1, h1f, m2, h2k, q2, h2f, m3, h3k, q3, h3f, m4, h4k, q4, h4f, ?_⟩
    have hcount : a.model.nodeCount = a.model.nodes.keys.length := by unfold FeModel.nodeCount Dict.keys; rw [List.length_map]
    rw [externalWork_congr hA _ _ (oneAt_unit h h1k _), externalWork_congr hA _ _ (oneAt_unit h hn _), hcount] at hle
    unfold symWork at hle ⊢
    rwa [internalWork_congr env hA (oneAt_unit h hn r) (fun n _ => rfl),
      internalWork_congr env hA (fun n _ => rfl) (oneAt_unit h hn r), internalWork_congr env hA (oneAt_unit h h2k q2) (oneAt_unit h h3k q3),
      internalWork_congr env hA (oneAt_unit h h3k q3) (oneAt_unit h h2k q2)] at hle

/-- The numerical part of the solver succeeds. -/
theorem solveCase_answers' {a : Api} (env : Env) (henv : SolverAnswers env) (h : FreshInv a) {x : Assembly}
    (hx : x.model = a.model) {c : String} {lc : LoadCase} (hc : x.cases.get? c = some lc) (hlc : CaseInv x.heap c lc)
    (hmu : ∀ b be, a.model.beams.get? b = some be → muOf be.prop ≠ -1)
    {K : Coo} (hK : x.assembleK env = .ok K) {t : Dict Flags} (hwf : t.WF) {fixed : List ℕ}
    (ht : restraintDofs a.model t = .ok fixed)
    (hb : x.boundaryDofs c = .ok fixed) (hr : solverRestraints x c = .ok fixed)
    (hst : Stable env a.model t) (hfree : 0 < (free (a.model.nodeCount * 6) fixed).length) :
    ∃ d, solveCase env x c K = .ok d := by
  obtain ⟨hnd, hlt⟩ := restraintDofs_nodup h hwf ht
  obtain ⟨K', hK', hlen, hform⟩ := reduced_case env h hx hK hwf ht
  have hinj := reduced_inj env h hwf ht hst hlen hform
  obtain ⟨f, hf⟩ := assembleF_ok h hx hc hlc (t := 0) (by decide) hmu
  obtain ⟨fr, fc, fents⟩ := assembleF_shape hf
  rw [hx] at fr
  have hflen : (Assembly.dropVectorDof f fixed).length = K'.nrow := by
    rw [dropVector_eq, List.length_map, fr, hlen]
  obtain ⟨z, hz1⟩ := henv K'.nrow (symmetrised K')
    (fun i => (Assembly.dropVectorDof f fixed)[i.val]'(by rw [hflen]; exact i.isLt)) (by rw [hlen]; exact hfree) hinj
  obtain ⟨U, hU1, hU2⟩ := exists_extension _ fixed hlen z
  unfold solveCase
  rw [hf, Except.bind_ok]
  unfold Assembly.boundaryMatrix Assembly.boundaryVector
  rw [hb, Except.bind_ok, hK', Except.bind_ok, Except.bind_ok, Except.pure_eq_ok, Except.bind_ok, dif_pos hflen, hz1,
    Except.bind_ok, hr, Except.bind_ok, hx, hU2, ofFn_fdof _ _ hlen, expandDisp_eq _ _ hnd hlt]
  exact ⟨_, rfl⟩

theorem succeeds_answers (env : Env) (henv : SolverAnswers env) {a : Api} (h : FreshInv a) {x : Assembly} (hx : a.assembly = .ok x)
    {w : World} (hw : w.fs.get? Api.filename = some (.asb x)) (h0 : w.fs.get? "0.k" = none) {c : String} {lc : LoadCase}
    (hc : a.loadcases.get? c = some lc) (hu : Unambiguous a.model lc) (hst : Stable env a.model (governing a.model lc))
    (hmu : ∀ b be, a.model.beams.get? b = some be → muOf be.prop ≠ -1)
    (hk : ∀ n ∈ lc.restraint.keys, n ∈ a.model.nodes.keys)
    (hfree : ∃ n ∈ a.model.nodes.keys, ∃ r, ∀ f, (governing a.model lc).get? n = some f → f r = false) :
    (w.step env (.solveStatic c)).2 = true := by
  have hA := h.toApiInv
  obtain ⟨h1, h2, h3, h4, h5⟩ := hA.assembly_eq hx
  have hlc := hA.case_ok c lc hc
  have hwf := governing_wf hA hlc
  have hkg : ∀ n ∈ (governing a.model lc).keys, n ∈ a.model.nodes.keys := by
    unfold governing
    split
    · exact hA.rest_keys
    · exact hk
  have hf := restraintDofs_eq hA hkg
  obtain ⟨hb, hr⟩ := case_restraints hA hx hc hu hf
  obtain ⟨K, hK⟩ := (assembleK_ok_iff env h h1).mpr hmu
  have hlen : 0 < (free (a.model.nodeCount * 6)
      ((governing a.model lc).map fun it => flagDofs (hidOf a.model it.1) it.2).flatten).length := by
    obtain ⟨n, hn, r, hnr⟩ := hfree
    apply List.length_pos_of_mem (a := hidOf a.model n * 6 + r.val)
    rw [mem_free]
    refine ⟨by have := (h.hidOf_lt hn).2.1; have := r.isLt; omega, ?_⟩
    intro hmem
    obtain ⟨n', f, r', e1, e2, e3⟩ := (mem_restraintDofs hA hwf hf _).mp hmem
    have hh : hidOf a.model n = hidOf a.model n' := by have := r.isLt; have := r'.isLt; omega
    have hrr : r = r' := by apply Fin.ext; omega
    have := h.hidOf_inj hn (hkg n' (Dict.mem_keys_of_get? e1)) hh
    subst this
    subst hrr
    rw [hnr f e1] at e2
    cases e2
  obtain ⟨d, hd⟩ := solveCase_answers' env henv h h1 (by rw [h3]; exact hc) (by rw [h2]; exact hlc) hmu hK hwf hf hb hr hst hlen
  rw [solveStatic_eq env hw h0, hK]
  simp only [hd]

end Hyperstatic
