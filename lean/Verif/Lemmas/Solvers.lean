import Verif.Spec.Solvers
import Verif.Lemmas.Inexact
import Verif.Lemmas.Dynamic

/-
What `solve_linear` saves, whatever the solver: the equations it hands to the solver and the meaning of their unknowns.
-/

namespace Hyperstatic
open Matrix Spec

theorem solveLinearBy_ok {env : Env} {lin : LinEnv} {A : Type} {fs fs' : Dict (File A)} {filename c word : String} {pre : Option String}
    {x : Assembly} (hx : fs.get? filename = some (.asb x)) (hret : solveLinearBy env lin fs filename c pre word = (fs', .ok ())) :
    pre = none ∧ ∃ K d, x.assembleK env = .ok K ∧ solveCaseBy env lin word x c K = .ok d ∧
      fs' = Dict.set (fs.set "0.k.npy" (.stiff K)) (c ++ ".d" ++ ".npy") (.disp d) := by
  unfold solveLinearBy openAssembly at hret
  rw [hx] at hret
  simp only at hret
  cases pre with
  | some p =>
    simp only [Prod.mk.injEq] at hret
    obtain ⟨-, e⟩ := hret
    cases hf : x.assembleF c <;> rw [hf] at e <;> cases e
  | none =>
    simp only at hret
    refine ⟨rfl, ?_⟩
    split at hret
    · cases hret
    · cases hK : x.assembleK env with
      | error e => rw [hK] at hret; cases hret
      | ok K =>
        rw [hK] at hret
        simp only at hret
        cases hd : solveCaseBy env lin word x c K with
        | error e => rw [hd] at hret; cases hret
        | ok d =>
          rw [hd] at hret
          simp only [Prod.mk.injEq, and_true] at hret
          exact ⟨K, d, rfl, hd, hret.symm⟩

/-- for a symmetric stiffness the matrices handed to the solvers are the same -/
theorem reduced_same {env : Env} {a : Api} (h : FreshInv a) {x : Assembly} (h1 : x.model = a.model) (hss : ShellsSymm env a.model) {K K₁ : Coo}
    (hK : x.assembleK env = .ok K) {t : Dict Flags} (hwf : t.WF) {fixed : List ℕ} (ht : restraintDofs a.model t = .ok fixed)
    (hK₁ : Assembly.dropMatrixDof K fixed = .ok K₁) : K₁.dense K₁.nrow = symmetrised K₁ := by
  obtain ⟨K₂, hK₂, hlen, hform⟩ := reduced_case env h h1 hK hwf ht
  rw [hK₁] at hK₂
  cases hK₂
  have hdform := (stiff_form env h h1 hK hwf ht hK₁).2 K₁.nrow hlen
  ext k l
  obtain ⟨V, hV1, hV2⟩ := exists_extension _ fixed hlen (Pi.single k 1 : Vec K₁.nrow)
  obtain ⟨U, hU1, hU2⟩ := exists_extension _ fixed hlen (Pi.single l 1 : Vec K₁.nrow)
  have e1 := hform V U hV1 hU1
  have e2 := hdform V U hV1 hU1
  rw [symWork_eq h.toApiInv hss, ← e2, ← hV2, ← hU2] at e1
  simpa using e1.symm

/-- The run succeeds if the solver does. -/
theorem solveBy_succeeds (env : Env) (lin : LinEnv) {a : Api} (h : FreshInv a) {x : Assembly} (hx : a.assembly = .ok x)
    {w : World} (hw : w.fs.get? Api.filename = some (.asb x)) (h0 : w.fs.get? "0.k" = none) {c word : String} {lc : LoadCase}
    (hc : a.loadcases.get? c = some lc) (hu : Unambiguous a.model lc) (hss : ShellsSymm env a.model)
    (hst : Stable env a.model (governing a.model lc))
    (hmu : ∀ b be, a.model.beams.get? b = some be → muOf be.prop ≠ -1) {fixed : List ℕ}
    (hf : restraintDofs a.model (governing a.model lc) = .ok fixed)
    (hlin : ∀ n, n = (free (a.model.nodeCount * 6) fixed).length → ∀ (A : Matrix (Fin n) (Fin n) ℝ) (b : Vec n), (∀ v, A *ᵥ v = 0 → v = 0) →
      ∃ z, linSolve env lin word n A A b = .ok z) :
    ∃ fs', solveLinearBy env lin w.fs Api.filename c none word = (fs', .ok ()) := by
  have hA := h.toApiInv
  obtain ⟨h1, h2, h3, h4, h5⟩ := hA.assembly_eq hx
  have hlc := hA.case_ok c lc hc
  have hwf := governing_wf hA hlc
  obtain ⟨hb, hr⟩ := case_restraints hA hx hc hu hf
  obtain ⟨K, hK⟩ := (assembleK_ok_iff env h h1).mpr hmu
  obtain ⟨hnd, hlt⟩ := restraintDofs_nodup h hwf hf
  obtain ⟨K', hK', hlen, hform⟩ := reduced_case env h h1 hK hwf hf
  have hinj := reduced_inj env h hwf hf hst hlen hform
  have hsame := reduced_same h h1 hss hK hwf hf hK'
  obtain ⟨f, hff⟩ := assembleF_ok h h1 (by rw [h3]; exact hc) (by rw [h2]; exact hlc) (t := 0) (by decide) hmu
  obtain ⟨fr, fc, fents⟩ := assembleF_shape hff
  rw [h1] at fr
  have hflen : (Assembly.dropVectorDof f fixed).length = K'.nrow := by
    rw [dropVector_eq, List.length_map, fr, hlen]
  obtain ⟨z, hz⟩ := hlin K'.nrow hlen (symmetrised K') (fun i => (Assembly.dropVectorDof f fixed)[i.val]'(by rw [hflen]; exact i.isLt)) hinj
  obtain ⟨U, hU1, hU2⟩ := exists_extension _ fixed hlen z
  have hd : ∃ d, solveCaseBy env lin word x c K = .ok d := by
    unfold solveCaseBy
    rw [hff, Except.bind_ok]
    unfold Assembly.boundaryMatrix Assembly.boundaryVector
    rw [hb, Except.bind_ok, hK', Except.bind_ok, Except.bind_ok, Except.pure_eq_ok, Except.bind_ok, dif_pos hflen, hsame, hz,
      Except.bind_ok, hr, Except.bind_ok, h1, hU2, ofFn_fdof _ _ hlen, expandDisp_eq _ _ hnd hlt]
    exact ⟨_, rfl⟩
  obtain ⟨d, hd⟩ := hd
  unfold solveLinearBy openAssembly
  rw [hw]
  simp only
  have hcon : Dict.contains w.fs "0.k" = false := by unfold Dict.contains; rw [h0]; rfl
  rw [hcon, hK]
  simp only [hd]
  exact ⟨_, rfl⟩

theorem solveBy_core (env : Env) (lin : LinEnv) {a : Api} (h : FreshInv a) {x : Assembly} (hx : a.assembly = .ok x)
    {w : World} (hw : w.fs.get? Api.filename = some (.asb x)) {c word : String} {lc : LoadCase} {pre : Option String}
    (hc : a.loadcases.get? c = some lc) (hu : Unambiguous a.model lc) (hss : ShellsSymm env a.model)
    (hst : Stable env a.model (governing a.model lc)) {fs' : Dict (File Api)}
    (hret : solveLinearBy env lin w.fs Api.filename c pre word = (fs', .ok ())) :
    ∃ (n : ℕ) (A : Matrix (Fin n) (Fin n) ℝ) (b delta : Vec n) (comp : Fin n → String × Fin 6) (u : State),
      linSolve env lin word n A A b = .ok delta ∧ (∀ v, A *ᵥ v = 0 → v = 0) ∧ A.transpose = A ∧
      (∀ k, FreeComp a.model (governing a.model lc) (comp k)) ∧ (∀ q, FreeComp a.model (governing a.model lc) q → ∃ k, comp k = q) ∧
      Function.Injective comp ∧ (∀ k, delta k = u (comp k).1 (comp k).2) ∧
      (∀ n' ∈ a.model.nodes.keys, World.resultGetNodalDisplacement { w with fs := fs' } n' c = some (List.ofFn (u n'))) ∧
      Respects (governing a.model lc) u ∧
      (∀ v, Respects (governing a.model lc) v → externalWork a.model a.heap lc v = (fun k => v (comp k).1 (comp k).2) ⬝ᵥ b) ∧
      ∀ v z, Respects (governing a.model lc) v → Respects (governing a.model lc) z →
        internalWork env a.model v z = (fun k => v (comp k).1 (comp k).2) ⬝ᵥ (A *ᵥ fun k => z (comp k).1 (comp k).2) := by
  have hA := h.toApiInv
  obtain ⟨h1, h2, h3, h4, h5⟩ := hA.assembly_eq hx
  obtain ⟨-, K, d, hK, hd, rfl⟩ := solveLinearBy_ok hw hret
  have hlc := hA.case_ok c lc hc
  have hwf := governing_wf hA hlc
  have hfix : ∃ fixed, restraintDofs a.model (governing a.model lc) = .ok fixed := by
    unfold governing
    cases hr : lc.restraint with
    | nil => exact ⟨_, h4⟩
    | cons p ps =>
      have hd' := hd
      unfold solveCaseBy at hd'
      simp only [Except.bind_ok_iff] at hd'
      obtain ⟨f, _, K', hK', _⟩ := hd'
      unfold Assembly.boundaryMatrix at hK'
      simp only [Except.bind_ok_iff] at hK'
      obtain ⟨fixed, hb, _⟩ := hK'
      unfold Assembly.boundaryDofs at hb
      rw [h3, Dict.getItem_of_some hc, Except.bind_ok, hr, h1] at hb
      exact ⟨fixed, hb⟩
  obtain ⟨fixed, ht⟩ := hfix
  obtain ⟨hb, hr⟩ := case_restraints hA hx hc hu ht
  obtain ⟨hnd, hlt⟩ := restraintDofs_nodup h hwf ht
  obtain ⟨K₁, hK₁, hlen, hform⟩ := reduced_case env h h1 hK hwf ht
  have hinj := reduced_inj env h hwf ht hst hlen hform
  have hkeys := restraintDofs_keys hA ht
  set N := a.model.nodeCount * 6 with hN
  have hsame := reduced_same h h1 hss hK hwf ht hK₁
  have hsym : (symmetrised K₁).transpose = symmetrised K₁ := by
    ext k l
    simp only [Matrix.transpose_apply, symmetrised]
    ring
  unfold solveCaseBy at hd
  simp only [Except.bind_ok_iff] at hd
  obtain ⟨f, hf, K', hK', f', hf', hd⟩ := hd
  unfold Assembly.boundaryMatrix at hK'
  rw [hb, Except.bind_ok, hK₁] at hK'
  cases hK'
  unfold Assembly.boundaryVector at hf'
  rw [hb, Except.bind_ok, Except.pure_eq_ok, Except.ok.injEq] at hf'
  obtain ⟨fr, fc, fents⟩ := assembleF_shape hf
  rw [h1] at fr
  split at hd
  swap
  · cases hd
  rename_i hlen2
  simp only [Except.bind_ok_iff] at hd
  obtain ⟨delta, hdelta, rest, hrest, hd⟩ := hd
  rw [hr] at hrest
  cases hrest
  have hrhs : (fun i : Fin K₁.nrow => f'[i.val]'(by rw [hlen2]; exact i.isLt)) = fun k => f.get (fdof N fixed k.val) 0 := by
    funext k
    have hk : k.val < (free N fixed).length := hlen ▸ k.isLt
    subst hf'
    simp only [dropVector_eq, fr, List.getElem_map, fdof]
    rw [List.getD_eq_getElem?_getD, List.getElem?_eq_getElem hk]
    rfl
  obtain ⟨U, hU1, hU2⟩ := exists_extension N fixed hlen delta
  have hfd : ∀ k : Fin K₁.nrow, fdof N fixed k.val < N ∧ fdof N fixed k.val ∉ fixed := fun k => fdof_mem (hlen ▸ k.isLt)
  have hjn : ∀ k : Fin K₁.nrow, fdof N fixed k.val / 6 < a.model.nodes.keys.length := by
    intro k
    have : fdof N fixed k.val < a.model.nodes.length * 6 := (hfd k).1
    unfold Dict.keys
    rw [List.length_map]
    omega
  set comp : Fin K₁.nrow → String × Fin 6 := fun k =>
    (a.model.nodes.keys[fdof N fixed k.val / 6]'(hjn k), ⟨fdof N fixed k.val % 6, Nat.mod_lt _ (by decide)⟩) with hcomp
  have hmk : ∀ k, (comp k).1 ∈ a.model.nodes.keys := fun k => List.getElem_mem (hjn k)
  have hhid : ∀ k, hidOf a.model (comp k).1 * 6 + (comp k).2.val = fdof N fixed k.val := by
    intro k
    have e := (h.hid_get (comp k).1 (fdof N fixed k.val / 6)).mpr (by rw [List.getElem?_eq_getElem (hjn k)])
    have e' : hidOf a.model (comp k).1 = fdof N fixed k.val / 6 := by unfold hidOf; rw [e]; rfl
    rw [e', hcomp]
    simp only
    omega
  have hmem : ∀ n ∈ a.model.nodes.keys, ∀ r : Fin 6, hidOf a.model n * 6 + r.val ∉ fixed ↔
      ∀ f, (governing a.model lc).get? n = some f → f r = false := by
    intro n hn r
    rw [mem_restraintDofs hA hwf ht]
    constructor
    · intro hx f hf
      by_contra hne
      exact hx ⟨n, f, r, hf, by simpa using hne, rfl⟩
    · rintro hfree ⟨n', f, r', e1, e2, e3⟩
      have hh : hidOf a.model n = hidOf a.model n' := by have := r.isLt; have := r'.isLt; omega
      have hrr : r = r' := by apply Fin.ext; omega
      have := h.hidOf_inj hn (hkeys n' (Dict.mem_keys_of_get? e1)) hh
      subst this
      subst hrr
      rw [hfree f e1] at e2
      cases e2
  have hglob : ∀ v : State, ∀ k : Fin K₁.nrow, glob a.model v (fdof N fixed k.val) = v (comp k).1 (comp k).2 := by
    intro v k
    unfold glob
    rw [List.getElem?_eq_getElem (hjn k)]
  have hzero : ∀ v, Respects (governing a.model lc) v → ∀ i ∈ fixed, glob a.model v i = 0 := by
    intro v hv
    apply (respects_iff hA hwf ht _).mp
    exact Respects.congr hkeys (fun n hn => (h.gat_glob v hn).symm) hv
  refine ⟨K₁.nrow, symmetrised K₁, fun k => f.get (fdof N fixed k.val) 0, delta, comp, gat a.model U, ?_, hinj, hsym, ?_, ?_, ?_, ?_, ?_, ?_, ?_, ?_⟩
  · rw [← hrhs]
    rw [hsame] at hdelta
    exact hdelta
  · intro k
    refine ⟨hmk k, (hmem _ (hmk k) _).mp ?_⟩
    rw [hhid]
    exact (hfd k).2
  · rintro ⟨n, r⟩ ⟨hn, hfree⟩
    simp only at hn hfree
    have hi : hidOf a.model n * 6 + r.val < N := by
      have := (h.hidOf_lt hn).2.1
      have := r.isLt
      omega
    obtain ⟨k, hk, e⟩ := fdof_surj hi ((hmem n hn r).mpr hfree)
    refine ⟨⟨k, hlen ▸ hk⟩, ?_⟩
    have e2 := hhid ⟨k, hlen ▸ hk⟩
    simp only at e2
    rw [e] at e2
    have q1 := (comp ⟨k, hlen ▸ hk⟩).2.isLt
    have q2 := r.isLt
    have hh : hidOf a.model (comp ⟨k, hlen ▸ hk⟩).1 = hidOf a.model n := by omega
    have hn' := h.hidOf_inj (hmk _) hn hh
    apply Prod.ext hn'
    apply Fin.ext
    simp only
    omega
  · intro k l e
    have := hhid k
    rw [e, hhid l] at this
    exact Fin.ext (fdof_inj (hlen ▸ k.isLt) (hlen ▸ l.isLt) this.symm)
  · intro k
    unfold gat
    rw [hhid, hU2]
  · intro n hn
    have e := reported env hw K d c n
    have ec : c ++ ".d" ++ ".npy" = c ++ ".d.npy" := by rw [String.append_assoc]; rfl
    rw [ec, e, h1, (h.hidOf_lt hn).1]
    simp only
    have hd2 : d = (List.range N).map U := by
      rw [h1, hU2, ofFn_fdof _ _ hlen, expandDisp_eq _ _ hnd hlt] at hd
      cases hd
      apply List.map_congr_left
      intro i _
      split
      · rename_i hi; exact (hU1 i hi).symm
      · rfl
    rw [hd2, slice_range _ _ (h.hidOf_lt hn).2.1]
    rfl
  · exact (respects_iff hA hwf ht U).mpr hU1
  · intro v hv
    have e := assembleF_bil hA h1 (by rw [h3]; exact hc) (by rw [h2]; exact hlc) (by decide) hf (glob a.model v)
    rw [h2] at e
    rw [← externalWork_congr hA _ _ (fun n hn => h.gat_glob v hn), ← e, ← Coo.get_bil f fents, fc, fr]
    simp only [Finset.sum_range_one, mul_one]
    rw [sum_range_free _ fixed _ (by intro i hi; simp [hzero v hv i hi]) hlen]
    simp only [dotProduct]
    apply Finset.sum_congr rfl
    intro k _
    rw [hglob]
  · intro v z hv hz
    have e := hform (glob a.model v) (glob a.model z) (hzero v hv) (hzero z hz)
    rw [symWork_eq hA hss, internalWork_congr env hA (fun n hn => h.gat_glob v hn) (fun n hn => h.gat_glob z hn)] at e
    rw [← e]
    simp only [hglob]

end Hyperstatic
