import Verif.Lemmas.Structure
import Verif.Lemmas.Demo
import Verif.Props.Reduce

/-
C13-C16 and C22: the assembled stiffness matrix.

`w.api.assembly` is the object `Api.assemble` stores, `x.assembleK` the matrix `Assembly.assemble_K` returns for it.  Node `i` of
`get_node_names()` owns rows and columns `6 i … 6 i + 5`.
-/

namespace Hyperstatic
open Matrix Spec

/-! ### C13 Global stiffness is the sum of the scattered element stiffnesses -/

/-- Entry (node `n`, component `r`; node `m`, component `s`): the sum over the elements of the entries of their
global-axes stiffness (`Tᵀ K T`) whose row belongs to (`n`, `r`) and whose column belongs to (`m`, `s`). -/
theorem C13_entries (env : Env) (cs : List Call) (hcs : NoReadd env World.init cs) (w : World) (hw : w = World.init.run env cs)
    (x : Assembly) (hx : w.api.assembly = .ok x) (K : Coo) (hK : x.assembleK env = .ok K)
    (i j : ℕ) (n m : String) (hi : w.getNodeNames[i]? = some n) (hj : w.getNodeNames[j]? = some m) (r s : Fin 6) :
    K.get (6 * i + r.val) (6 * j + s.val) =
      (w.api.model.beams.map fun p => ∑ k, ∑ l, if beamSlot p.2 k = (n, r) ∧ beamSlot p.2 l = (m, s) then
        (p.2.Tᵀ * beamK (constsOf p.2.prop) p.2.length * p.2.T) k l else 0).sum +
      (w.api.model.shells.map fun p =>
        if p.2.nodes.length = 4 then
          ∑ k, ∑ l, if shellSlot p.2 k = some (n, r) ∧ shellSlot p.2 l = some (m, s) then env.quadK p.2 k l else 0
        else ∑ k, ∑ l, if shellSlot p.2 k = some (n, r) ∧ shellSlot p.2 l = some (m, s) then env.triaK p.2 k l else 0).sum := by
  have h := (FreshInv_run env cs hcs).1
  rw [← hw] at h
  rw [h.entry env (h.toApiInv.assembly_eq hx).1 hK hi hj]
  unfold internalWork
  congr 2
  · apply List.map_congr_left
    rintro ⟨b, be⟩ hm
    exact beam_unit be (beam_length_pos h.toApiInv ((Dict.mem_iff_get? h.beams_wf b be).mp hm)).1.ne' n m r s
  · apply List.map_congr_left
    rintro ⟨b, se⟩ _
    exact shell_unit env se n m r s

/-- The matrix has six rows and columns per node; the entry is the internal virtual work of a unit displacement of (`m`, `s`)
under the virtual unit displacement of (`n`, `r`). -/
theorem C13_work (env : Env) (cs : List Call) (hcs : NoReadd env World.init cs) (w : World) (hw : w = World.init.run env cs)
    (x : Assembly) (hx : w.api.assembly = .ok x) (K : Coo) (hK : x.assembleK env = .ok K) :
    K.nrow = 6 * w.getNodeNames.length ∧ K.ncol = 6 * w.getNodeNames.length ∧
    ∀ (i j : ℕ) (n m : String), w.getNodeNames[i]? = some n → w.getNodeNames[j]? = some m → ∀ r s : Fin 6,
      K.get (6 * i + r.val) (6 * j + s.val) = internalWork env w.api.model (unitAt n r) (unitAt m s) := by
  have h := (FreshInv_run env cs hcs).1
  rw [← hw] at h
  obtain ⟨h1, h2, _⟩ := assembleK_range hK
  rw [(h.toApiInv.assembly_eq hx).1] at h1 h2
  have e : w.getNodeNames.length = w.api.model.nodeCount := by
    unfold World.getNodeNames Dict.keys FeModel.nodeCount; rw [List.length_map]
  refine ⟨by rw [h1, e]; ring, by rw [h2, e]; ring, ?_⟩
  intro i j n m hi hj r s
  exact h.entry env (h.toApiInv.assembly_eq hx).1 hK hi hj r s

/-- Zero when no element touches both nodes. -/
theorem C13_untouched (env : Env) (cs : List Call) (hcs : NoReadd env World.init cs) (w : World) (hw : w = World.init.run env cs)
    (x : Assembly) (hx : w.api.assembly = .ok x) (K : Coo) (hK : x.assembleK env = .ok K)
    (i j : ℕ) (n m : String) (hi : w.getNodeNames[i]? = some n) (hj : w.getNodeNames[j]? = some m) (r s : Fin 6)
    (hb : ∀ b be, w.api.model.beams.get? b = some be →
      ¬ ((be.startName = n ∨ be.endName = n) ∧ (be.startName = m ∨ be.endName = m)))
    (hs : ∀ b se, w.api.model.shells.get? b = some se → ¬ (n ∈ se.nodes.map Prod.fst ∧ m ∈ se.nodes.map Prod.fst)) :
    K.get (6 * i + r.val) (6 * j + s.val) = 0 := by
  have h := (FreshInv_run env cs hcs).1
  rw [← hw] at h
  rw [C13_entries env cs hcs w hw x hx K hK i j n m hi hj r s]
  have hslot : ∀ (be : BeamElm) (k : Fin 12) (n : String) (r : Fin 6), beamSlot be k = (n, r) → be.startName = n ∨ be.endName = n := by
    intro be k n r hk
    unfold beamSlot at hk
    simp only [Prod.mk.injEq] at hk
    split at hk
    · exact Or.inl hk.1
    · exact Or.inr hk.1
  have hslot' : ∀ (N : ℕ) (se : ShellElm) (k : Fin N) (n : String) (r : Fin 6), shellSlot se k = some (n, r) → n ∈ se.nodes.map Prod.fst := by
    intro N se k n r hk
    unfold shellSlot at hk
    rw [Option.map_eq_some_iff] at hk
    obtain ⟨p, hp, he⟩ := hk
    rw [Prod.mk.injEq] at he
    exact List.mem_map.mpr ⟨p, List.mem_of_getElem? hp, he.1⟩
  rw [list_sum_const_zero, list_sum_const_zero, add_zero]
  · rintro ⟨b, se⟩ hm
    dsimp only
    split_ifs
    all_goals
      apply Finset.sum_eq_zero; intro k _
      apply Finset.sum_eq_zero; intro l _
      apply if_neg
      rintro ⟨h1, h2⟩
      exact hs b se ((Dict.mem_iff_get? h.shells_wf b se).mp hm) ⟨hslot' _ se k n r h1, hslot' _ se l m s h2⟩
  · rintro ⟨b, be⟩ hm
    apply Finset.sum_eq_zero; intro k _
    apply Finset.sum_eq_zero; intro l _
    apply if_neg
    rintro ⟨h1, h2⟩
    exact hb b be ((Dict.mem_iff_get? h.beams_wf b be).mp hm) ⟨hslot be k n r h1, hslot be l m s h2⟩

/-- The order of definition does not matter: two histories that end with the same beams and shells (by name) and in which the nodes
have the numbers `i`, `j` and `i'`, `j'` give the same entries for the same node names. -/
theorem C13_order_irrelevant (env : Env) (cs cs' : List Call) (hcs : NoReadd env World.init cs) (hcs' : NoReadd env World.init cs')
    (w w' : World) (hw : w = World.init.run env cs) (hw' : w' = World.init.run env cs')
    (hb : ∀ b, w.api.model.beams.get? b = w'.api.model.beams.get? b)
    (hs : ∀ s, w.api.model.shells.get? s = w'.api.model.shells.get? s)
    (x x' : Assembly) (hx : w.api.assembly = .ok x) (hx' : w'.api.assembly = .ok x')
    (K K' : Coo) (hK : x.assembleK env = .ok K) (hK' : x'.assembleK env = .ok K')
    (i j i' j' : ℕ) (n m : String) (hi : w.getNodeNames[i]? = some n) (hj : w.getNodeNames[j]? = some m)
    (hi' : w'.getNodeNames[i']? = some n) (hj' : w'.getNodeNames[j']? = some m) (r s : Fin 6) :
    K.get (6 * i + r.val) (6 * j + s.val) = K'.get (6 * i' + r.val) (6 * j' + s.val) := by
  have h := (FreshInv_run env cs hcs).1
  have h' := (FreshInv_run env cs' hcs').1
  rw [← hw] at h
  rw [← hw'] at h'
  rw [h.entry env (h.toApiInv.assembly_eq hx).1 hK hi hj, h'.entry env (h'.toApiInv.assembly_eq hx').1 hK' hi' hj']
  exact internalWork_perm env (dict_perm h.beams_wf h'.beams_wf hb) (dict_perm h.shells_wf h'.shells_wf hs) _ _

/-- When `assemble_K` succeeds: unless a beam has μ = -1. -/
theorem C13_succeeds (env : Env) (cs : List Call) (hcs : NoReadd env World.init cs) (w : World) (hw : w = World.init.run env cs) :
    ∃ x, w.api.assembly = .ok x ∧ ((∃ K, x.assembleK env = .ok K) ↔
      ∀ b be, w.api.model.beams.get? b = some be → muOf be.prop ≠ -1) := by
  have h := (FreshInv_run env cs hcs).1
  rw [← hw] at h
  obtain ⟨x, hx⟩ := h.toApiInv.assembly_ok
  exact ⟨x, hx, assembleK_ok_iff env h (h.toApiInv.assembly_eq hx).1⟩

/-- the cantilever of `demoCalls` meets all hypotheses of the theorems above -/
example (env : Env) : NoReadd env World.init demoCalls ∧ (World.init.run env demoCalls).getNodeNames[0]? = some "A" ∧
    (World.init.run env demoCalls).getNodeNames[1]? = some "B" ∧
    ∃ x K, (World.init.run env demoCalls).api.assembly = .ok x ∧ x.assembleK env = .ok K := by
  refine ⟨demo_noReadd env, ?_⟩
  obtain ⟨x, hx, hiff⟩ := C13_succeeds env demoCalls (demo_noReadd env) _ rfl
  obtain ⟨c, hc, hrun⟩ := demo_run env
  have hmu : ∀ b be, (World.init.run env demoCalls).api.model.beams.get? b = some be → muOf be.prop ≠ -1 := by
    intro b be hb
    rw [hrun] at hb
    have hb' : (Dict.get? [("b", demoBeam c)] b) = some be := hb
    rw [Dict.get?] at hb'
    split at hb'
    · cases hb'; norm_num [muOf, demoBeam]
    · simp at hb'
  obtain ⟨K, hK⟩ := hiff.mpr hmu
  refine ⟨?_, ?_, x, K, hx, hK⟩
  · rw [hrun]; rfl
  · rw [hrun]; rfl

/-! ### C14 Global stiffness is symmetric -/

/-- For every history, even one that re-adds nodes. -/
theorem C14_symmetric (env : Env) (cs : List Call) (w : World) (hw : w = World.init.run env cs)
    (hs : ShellsSymm env w.api.model) (x : Assembly) (hx : w.api.assembly = .ok x) (K : Coo) (hK : x.assembleK env = .ok K)
    (i j : ℕ) : K.get i j = K.get j i := by
  have h := (ApiInv_run env cs).1
  rw [← hw] at h
  have hm := (h.assembly_eq hx).1
  rw [Coo.get_eq_bil, Coo.get_eq_bil, assembleK_bil env h hm hK, assembleK_bil env h hm hK, internalWork_symm h hs]

theorem dropMatrix_symm {K K' : Coo} {fixed : List ℕ} (hs : ∀ i j, K.get i j = K.get j i) (hsq : K.nrow = K.ncol)
    (hn : fixed.Nodup) (hlt : ∀ i ∈ fixed, i < K.nrow) (hents : ∀ e ∈ K.ents, e.1 < K.nrow ∧ e.2.1 < K.ncol)
    (h : Assembly.dropMatrixDof K fixed = .ok K') (i j : ℕ) (hi : i < K'.nrow) (hj : j < K'.nrow) : K'.get i j = K'.get j i := by
  have hmk : Coo.mk? K.nrow K.nrow K.ents = .ok K := by
    rw [Coo.mk?_ok_iff]
    refine ⟨?_, fun e he => ⟨(hents e he).1, hsq ▸ (hents e he).2⟩⟩
    conv_lhs => rw [show K = ⟨K.nrow, K.ncol, K.ents⟩ from rfl, ← hsq]
  obtain ⟨K₂, hK₂, h1, h2, h3⟩ := C17_drop_matrix K.nrow K.ents K hmk fixed hn hlt
  rw [h] at hK₂
  cases hK₂
  rw [h1] at hi hj
  rw [h3 i j hi hj, h3 j i hj hi, hs]

/-- Hence the symmetrisation `(K_ + K_.T) / 2` before solving changes nothing. -/
theorem C14_symmetrising (env : Env) (cs : List Call) (hcs : NoReadd env World.init cs) (w : World)
    (hw : w = World.init.run env cs) (hs : ShellsSymm env w.api.model) (x : Assembly) (hx : w.api.assembly = .ok x)
    (K : Coo) (hK : x.assembleK env = .ok K) (c : String) (K' : Coo) (hK' : x.boundaryMatrix c K = .ok K') :
    symmetrised K' = fun i j => K'.get i.val j.val := by
  have h := (FreshInv_run env cs hcs).1
  rw [← hw] at h
  obtain ⟨hm, hh, hcase, hfix, _⟩ := h.toApiInv.assembly_eq hx
  obtain ⟨kr, kc, kents⟩ := assembleK_range hK
  unfold Assembly.boundaryMatrix at hK'
  simp only [Except.bind_ok_iff] at hK'
  obtain ⟨fixed, hb, hK'⟩ := hK'
  have hfx : ∃ t : Dict Flags, t.WF ∧ restraintDofs w.api.model t = .ok fixed := by
    unfold Assembly.boundaryDofs at hb
    simp only [Except.bind_ok_iff] at hb
    obtain ⟨lc, hlc, hb⟩ := hb
    rw [Dict.getItem_eq_ok_iff, hcase] at hlc
    split at hb
    · cases hb; exact ⟨_, h.rest_wf, hfix⟩
    · rw [hm] at hb; exact ⟨_, (h.case_ok c lc hlc).rest_wf, hb⟩
  obtain ⟨t, hwf, ht⟩ := hfx
  obtain ⟨hnd, hlt⟩ := restraintDofs_nodup h hwf ht
  funext i j
  unfold symmetrised
  rw [dropMatrix_symm (C14_symmetric env cs w hw hs x hx K hK) (kr.trans kc.symm) hnd (by rw [kr, hm]; exact hlt) kents hK'
    j.val i.val j.isLt i.isLt]
  ring

/-! ### C15 Strain energy is never negative -/

/-- `uᵀ K u` is the sum of the energies of the elements in that displacement; valid for every vector `U` (node `n` has the components of
`U` at six times its number).  For all histories, with `k n` the number of node `n`. -/
theorem C15_energy_sum (env : Env) (cs : List Call) (hcs : NoReadd env World.init cs) (w : World) (hw : w = World.init.run env cs)
    (x : Assembly) (hx : w.api.assembly = .ok x) (K : Coo) (hK : x.assembleK env = .ok K) (u : State) (U : ℕ → ℝ)
    (hU : ∀ i n, w.getNodeNames[i]? = some n → ∀ r : Fin 6, U (6 * i + r.val) = u n r) :
    ∑ i ∈ Finset.range K.nrow, ∑ j ∈ Finset.range K.ncol, U i * K.get i j * U j =
      (w.api.model.beams.map fun p => beamWork (constsOf p.2.prop) p.2.length (beamEnds p.2 u) (beamEnds p.2 u)).sum +
      (w.api.model.shells.map fun p => if p.2.nodes.length = 4 then shellEnds p.2 u ⬝ᵥ (env.quadK p.2 *ᵥ shellEnds p.2 u)
        else shellEnds p.2 u ⬝ᵥ (env.triaK p.2 *ᵥ shellEnds p.2 u)).sum := by
  have h := (FreshInv_run env cs hcs).1
  rw [← hw] at h
  have hm := (h.toApiInv.assembly_eq hx).1
  rw [Coo.get_bil K (assembleK_range hK).2.2, assembleK_bil env h.toApiInv hm hK]
  have hg : ∀ n ∈ w.api.model.nodes.keys, gat w.api.model U n = u n := by
    intro n hn
    funext r
    have := hU _ n (h.hidOf_lt hn).2.2 r
    unfold gat
    rw [← this]; congr 1; ring
  rw [internalWork_congr env h.toApiInv hg hg]
  rfl

theorem beamInternal_nonneg {b : BeamElm} (hl : 0 < b.length)
    (h : 0 ≤ (constsOf b.prop).E ∧ 0 ≤ (constsOf b.prop).G ∧ 0 ≤ (constsOf b.prop).A ∧ 0 ≤ (constsOf b.prop).I2 ∧
      0 ≤ (constsOf b.prop).I3 ∧ 0 ≤ (constsOf b.prop).J) (u : State) : 0 ≤ beamInternal b u u := by
  obtain ⟨hE, hG, hA, h2, h3, hJ⟩ := h
  unfold beamInternal
  rw [← beamK_bilin _ hl.ne']
  exact C30_nonneg _ _ hl (mul_nonneg hE hA) (mul_nonneg hG hJ) (mul_nonneg hE h3) (mul_nonneg hE h2) _

theorem internalWork_nonneg {a : Api} (h : ApiInv a) {env : Env} (hadm : Admissible a.model) (hsp : ShellsPos env a.model) (u : State) :
    0 ≤ internalWork env a.model u u := by
  unfold internalWork
  apply add_nonneg
  · apply List.sum_nonneg
    intro y hy
    obtain ⟨⟨b, be⟩, hm, rfl⟩ := List.mem_map.mp hy
    have hb := (Dict.mem_iff_get? h.beams_wf b be).mp hm
    exact beamInternal_nonneg (beam_length_pos h hb).1 (hadm b be hb) u
  · apply List.sum_nonneg
    intro y hy
    obtain ⟨⟨b, se⟩, hm, rfl⟩ := List.mem_map.mp hy
    have hse := (Dict.mem_iff_get? h.shells_wf b se).mp hm
    unfold shellInternal
    rcases (h.shell_ok b se hse).1 with h4 | h3
    · rw [if_pos h4]; exact (hsp b se hse).1 h4 _
    · rw [if_neg (show ¬ se.nodes.length = 4 by omega)]; exact (hsp b se hse).2 h3 _

/-- For non-negative properties the energy of every vector is non-negative, for every history. -/
theorem C15_nonneg (env : Env) (cs : List Call) (w : World) (hw : w = World.init.run env cs)
    (hadm : Admissible w.api.model) (hsp : ShellsPos env w.api.model) (x : Assembly) (hx : w.api.assembly = .ok x)
    (K : Coo) (hK : x.assembleK env = .ok K) (U : ℕ → ℝ) :
    0 ≤ ∑ i ∈ Finset.range K.nrow, ∑ j ∈ Finset.range K.ncol, U i * K.get i j * U j := by
  have h := (ApiInv_run env cs).1
  rw [← hw] at h
  rw [Coo.get_bil K (assembleK_range hK).2.2, assembleK_bil env h (h.assembly_eq hx).1 hK]
  exact internalWork_nonneg h hadm hsp _

theorem demo_admissible (c : Csys) : Admissible (demoModel c) := by
  intro b be hb
  have hb' : (Dict.get? [("b", demoBeam c)] b) = some be := hb
  rw [Dict.get?] at hb'
  split at hb'
  · cases hb'; norm_num [constsOf, demoBeam]
  · simp at hb'

/-- the cantilever meets the hypotheses of C14 and C15 -/
example (env : Env) : ∃ c, World.init.run env demoCalls = ⟨demoApi c, []⟩ ∧ ShellsSymm env (demoApi c).model ∧
    ShellsPos env (demoApi c).model ∧ Admissible (demoApi c).model := by
  obtain ⟨c, _, h⟩ := demo_run env
  refine ⟨c, h, demo_shells env c, ?_, demo_admissible c⟩
  intro s se hs
  simp [demoApi, demoModel, FeModel.empty] at hs

/-! ### C16 Rigid motions cost no force -/

theorem rigid_work {a : Api} (h : FreshInv a) (env : Env) (hsh : a.model.shells = []) (fs : Dict (File Api)) (t ω : V3) (v : State) :
    internalWork env a.model v (rigidState (World.getNodeLocation ⟨a, fs⟩) t ω) = 0 := by
  unfold internalWork
  rw [hsh, List.map_nil, List.sum_nil, add_zero]
  apply list_sum_const_zero
  rintro ⟨b, be⟩ hm
  have hb := (Dict.mem_iff_get? h.beams_wf b be).mp hm
  obtain ⟨_, _, _, hc, _⟩ := h.beam_ok b be hb
  obtain ⟨⟨n0, h0, e0⟩, ⟨n1, h1, e1⟩⟩ := h.beam_loc b be hb
  have hloc : ∀ {n : String} {nd : Node}, a.model.nodes.get? n = some nd → World.getNodeLocation ⟨a, fs⟩ n = some nd.loc := by
    intro n nd hn
    unfold World.getNodeLocation FeModel.getNodeLocation
    simp only [Dict.getItem_of_some hn, Except.bind_ok]
    rfl
  exact beam_rigid hc (by rw [hloc h0, e0]) (by rw [hloc h1, e1]) t ω v

/-- The nodal forces `K U` of a model of beams displaced rigidly are zero. -/
theorem C16_rigid (env : Env) (cs : List Call) (hcs : NoReadd env World.init cs) (w : World) (hw : w = World.init.run env cs)
    (hsh : w.getShellNames = []) (x : Assembly) (hx : w.api.assembly = .ok x) (K : Coo) (hK : x.assembleK env = .ok K)
    (t ω : V3) (U : ℕ → ℝ)
    (hU : ∀ i n, w.getNodeNames[i]? = some n → ∀ r : Fin 6, U (6 * i + r.val) = rigidState w.getNodeLocation t ω n r) (i : ℕ) :
    ∑ j ∈ Finset.range K.ncol, K.get i j * U j = 0 := by
  have h := (FreshInv_run env cs hcs).1
  rw [← hw] at h
  have hm := (h.toApiInv.assembly_eq hx).1
  have hsh' : w.api.model.shells = [] := by
    unfold World.getShellNames Dict.keys at hsh
    exact List.map_eq_nil_iff.mp hsh
  by_cases hi : i < K.nrow
  · have hb := Coo.get_bil K (assembleK_range hK).2.2 (fun k => if k = i then 1 else 0) U
    rw [assembleK_bil env h.toApiInv hm hK] at hb
    have hg : ∀ n ∈ w.api.model.nodes.keys, gat w.api.model U n = rigidState w.getNodeLocation t ω n := by
      intro n hn
      funext r
      have := hU _ n (h.hidOf_lt hn).2.2 r
      unfold gat
      rw [← this]; congr 1; ring
    rw [internalWork_congr env h.toApiInv (fun _ _ => rfl) hg, rigid_work h env hsh' w.fs] at hb
    rw [Finset.sum_eq_single i (fun k _ hk => by simp [hk])
      (fun hni => absurd (Finset.mem_range.mpr hi) hni)] at hb
    simpa using hb
  · apply Finset.sum_eq_zero
    intro j _
    have : K.get i j = 0 := by
      unfold Coo.get
      apply list_sum_const_zero
      intro e he
      apply if_neg
      rintro ⟨rfl, _⟩
      exact hi ((assembleK_range hK).2.2 e he).1
    rw [this, zero_mul]

/-- Nodal forces of any displacement are in equilibrium: the virtual work of `F = K U` in every rigid motion of the model is
zero. -/
theorem C16_equilibrium_work (env : Env) (cs : List Call) (hcs : NoReadd env World.init cs) (w : World) (hw : w = World.init.run env cs)
    (hsh : w.getShellNames = []) (x : Assembly) (hx : w.api.assembly = .ok x) (K : Coo) (hK : x.assembleK env = .ok K)
    (U : ℕ → ℝ) (F : ℕ → ℝ) (hF : ∀ i, F i = ∑ j ∈ Finset.range K.ncol, K.get i j * U j) (t ω : V3) (V : ℕ → ℝ)
    (hV : ∀ i n, w.getNodeNames[i]? = some n → ∀ r : Fin 6, V (6 * i + r.val) = rigidState w.getNodeLocation t ω n r) :
    ∑ i ∈ Finset.range K.nrow, V i * F i = 0 := by
  have h := (FreshInv_run env cs hcs).1
  rw [← hw] at h
  have hm := (h.toApiInv.assembly_eq hx).1
  have hsh' : w.api.model.shells = [] := by
    unfold World.getShellNames Dict.keys at hsh
    exact List.map_eq_nil_iff.mp hsh
  have hg : ∀ n ∈ w.api.model.nodes.keys, gat w.api.model V n = rigidState w.getNodeLocation t ω n := by
    intro n hn
    funext r
    have := hV _ n (h.hidOf_lt hn).2.2 r
    unfold gat
    rw [← this]; congr 1; ring
  have hs : ShellsSymm env w.api.model := by intro s se hs; rw [hsh'] at hs; simp at hs
  have hb := Coo.get_bil K (assembleK_range hK).2.2 V U
  rw [assembleK_bil env h.toApiInv hm hK, internalWork_symm h.toApiInv hs,
    internalWork_congr env h.toApiInv (fun _ _ => rfl) hg, rigid_work h env hsh' w.fs] at hb
  rw [← hb]
  apply Finset.sum_congr rfl
  intro i _
  rw [hF, Finset.mul_sum]
  apply Finset.sum_congr rfl
  intro j _
  ring

theorem sum_range_six (N : ℕ) (g : ℕ → ℝ) :
    ∑ i ∈ Finset.range (6 * N), g i = ∑ i ∈ Finset.range N, (g (6 * i) + g (6 * i + 1) + g (6 * i + 2) + g (6 * i + 3) +
      g (6 * i + 4) + g (6 * i + 5)) := by
  induction N with
  | zero => simp
  | succ N ih =>
    rw [Finset.sum_range_succ, ← ih, show 6 * (N + 1) = 6 * N + 1 + 1 + 1 + 1 + 1 + 1 from by ring]
    simp only [Finset.sum_range_succ]
    ring_nf

/-- The same, written out: the nodal forces of any displacement have no resultant force and no resultant moment about the
origin.  `p i` is the position of node `i`, `F (6 i + k)` the `k`-th component of the force on it. -/
theorem C16_equilibrium (env : Env) (cs : List Call) (hcs : NoReadd env World.init cs) (w : World) (hw : w = World.init.run env cs)
    (hsh : w.getShellNames = []) (x : Assembly) (hx : w.api.assembly = .ok x) (K : Coo) (hK : x.assembleK env = .ok K)
    (U : ℕ → ℝ) (F : ℕ → ℝ) (hF : ∀ i, F i = ∑ j ∈ Finset.range K.ncol, K.get i j * U j)
    (p : ℕ → V3) (hp : ∀ i n, w.getNodeNames[i]? = some n → w.getNodeLocation n = some (p i)) (N : ℕ)
    (hN : N = w.getNodeNames.length) :
    ∑ i ∈ Finset.range N, F (6 * i) = 0 ∧ ∑ i ∈ Finset.range N, F (6 * i + 1) = 0 ∧ ∑ i ∈ Finset.range N, F (6 * i + 2) = 0 ∧
    ∑ i ∈ Finset.range N, (((p i).y * F (6 * i + 2) - (p i).z * F (6 * i + 1)) + F (6 * i + 3)) = 0 ∧
    ∑ i ∈ Finset.range N, (((p i).z * F (6 * i) - (p i).x * F (6 * i + 2)) + F (6 * i + 4)) = 0 ∧
    ∑ i ∈ Finset.range N, (((p i).x * F (6 * i + 1) - (p i).y * F (6 * i)) + F (6 * i + 5)) = 0 := by
  have key : ∀ t ω : V3, ∑ i ∈ Finset.range N, ((t + V3.cross ω (p i)).x * F (6 * i) + (t + V3.cross ω (p i)).y * F (6 * i + 1) +
      (t + V3.cross ω (p i)).z * F (6 * i + 2) + ω.x * F (6 * i + 3) + ω.y * F (6 * i + 4) + ω.z * F (6 * i + 5)) = 0 := by
    intro t ω
    have h1 := C16_equilibrium_work env cs hcs w hw hsh x hx K hK U F hF t ω
      (fun k => ![(t + V3.cross ω (p (k / 6))).x, (t + V3.cross ω (p (k / 6))).y, (t + V3.cross ω (p (k / 6))).z, ω.x, ω.y, ω.z]
        ⟨k % 6, Nat.mod_lt _ (by decide)⟩) (by
        intro i n hi r
        have e1 : (6 * i + r.val) / 6 = i := by have := r.isLt; omega
        have e2 : (6 * i + r.val) % 6 = r.val := by have := r.isLt; omega
        simp only [e1, e2]
        unfold rigidState
        rw [hp i n hi])
    rw [(C13_work env cs hcs w hw x hx K hK).1, ← hN, sum_range_six] at h1
    rw [← h1]
    apply Finset.sum_congr rfl
    intro i _
    have e0 : (6 * i) / 6 = i := by omega
    have e1 : (6 * i + 1) / 6 = i := by omega
    have e2 : (6 * i + 2) / 6 = i := by omega
    have e3 : (6 * i + 3) / 6 = i := by omega
    have e4 : (6 * i + 4) / 6 = i := by omega
    have e5 : (6 * i + 5) / 6 = i := by omega
    have f0 : (6 * i) % 6 = 0 := by omega
    have f1 : (6 * i + 1) % 6 = 1 := by omega
    have f2 : (6 * i + 2) % 6 = 2 := by omega
    have f3 : (6 * i + 3) % 6 = 3 := by omega
    have f4 : (6 * i + 4) % 6 = 4 := by omega
    have f5 : (6 * i + 5) % 6 = 5 := by omega
    simp only [e0, e1, e2, e3, e4, e5, f0, f1, f2, f3, f4, f5]
    rfl
  have k1 := key ⟨1, 0, 0⟩ ⟨0, 0, 0⟩
  have k2 := key ⟨0, 1, 0⟩ ⟨0, 0, 0⟩
  have k3 := key ⟨0, 0, 1⟩ ⟨0, 0, 0⟩
  have k4 := key ⟨0, 0, 0⟩ ⟨1, 0, 0⟩
  have k5 := key ⟨0, 0, 0⟩ ⟨0, 1, 0⟩
  have k6 := key ⟨0, 0, 0⟩ ⟨0, 0, 1⟩
  simp only [V3.add_def, V3.cross, zero_mul, one_mul, add_zero, zero_add, sub_zero, zero_sub] at k1 k2 k3 k4 k5 k6
  refine ⟨k1, k2, k3, ?_, ?_, ?_⟩
  · rw [← k4]; apply Finset.sum_congr rfl; intro i _; ring
  · rw [← k5]; apply Finset.sum_congr rfl; intro i _; ring
  · rw [← k6]; apply Finset.sum_congr rfl; intro i _; ring

/-- the cantilever has no shells, and its nodes have positions -/
example (env : Env) : (World.init.run env demoCalls).getShellNames = [] ∧
    (World.init.run env demoCalls).getNodeLocation "B" = some ⟨1, 2, 3⟩ := by
  obtain ⟨c, _, h⟩ := demo_run env
  rw [h]
  exact ⟨rfl, rfl⟩

/-! ### C22 A stable structure has a uniquely determined answer -/

theorem energy_zero {a : Api} (h : ApiInv a) {env : Env} (hadm : Admissible a.model) (hsp : ShellsPos env a.model)
    (hss : ShellsSymm env a.model) {u : State} (hu : internalWork env a.model u u = 0) (v : State) :
    internalWork env a.model v u = 0 := by
  -- 0 ≤ q (v + s u) = q v + 2 s b(v, u) for all s
  have hq : ∀ s : ℝ, 0 ≤ internalWork env a.model v v + 2 * s * internalWork env a.model v u := by
    intro s
    have := internalWork_nonneg h hadm hsp ((1 : ℝ) • v + s • u)
    rw [internalWork_lin, internalWork_lin_left, internalWork_lin_left, hu, internalWork_symm h hss u v] at this
    linarith
  by_contra hne
  have h1 := hq (-(internalWork env a.model v v + 1) / (2 * internalWork env a.model v u))
  have h2 : 2 * (-(internalWork env a.model v v + 1) / (2 * internalWork env a.model v u)) * internalWork env a.model v u =
      -(internalWork env a.model v v + 1) := by field_simp
  rw [h2] at h1
  linarith

/-- For admissible properties: the reduced system of a case is non-singular exactly when no non-zero displacement that respects the
restraints governing the case is free of strain energy.  `K'` is the matrix the case is solved with. -/
theorem C22_nonsingular_iff (env : Env) (cs : List Call) (hcs : NoReadd env World.init cs) (w : World)
    (hw : w = World.init.run env cs) (hadm : Admissible w.api.model) (hsp : ShellsPos env w.api.model)
    (hss : ShellsSymm env w.api.model) (x : Assembly) (hx : w.api.assembly = .ok x) (K : Coo) (hK : x.assembleK env = .ok K)
    (c : String) (lc : LoadCase) (hc : w.api.loadcases.get? c = some lc) (K' : Coo) (hK' : x.boundaryMatrix c K = .ok K') :
    (∀ z : Fin K'.nrow → ℝ, (∀ i : Fin K'.nrow, ∑ j : Fin K'.nrow, K'.get i.val j.val * z j = 0) → z = 0) ↔
      ∀ u : State, Respects (governing w.api.model lc) u → internalWork env w.api.model u u = 0 →
        ∀ n ∈ w.getNodeNames, u n = 0 := by
  have h := (FreshInv_run env cs hcs).1
  rw [← hw] at h
  have hA := h.toApiInv
  obtain ⟨hm, hh, hcase, hfix, _⟩ := hA.assembly_eq hx
  have hsymm := C14_symmetrising env cs hcs w hw hss x hx K hK c K' hK'
  have hlc := hA.case_ok c lc hc
  have hwf := governing_wf hA hlc
  unfold Assembly.boundaryMatrix at hK'
  simp only [Except.bind_ok_iff] at hK'
  obtain ⟨fixed, hb, hK'⟩ := hK'
  have ht : restraintDofs w.api.model (governing w.api.model lc) = .ok fixed := by
    unfold Assembly.boundaryDofs at hb
    rw [← hcase] at hc
    rw [Dict.getItem_of_some hc, Except.bind_ok] at hb
    unfold governing
    split at hb
    · rename_i e; cases hb; rw [e]; exact hfix
    · rw [hm] at hb
      cases hr : lc.restraint with
      | nil => contradiction
      | cons p ps => rw [hr] at hb; exact hb
  obtain ⟨K₂, hK₂, hlen, hform⟩ := reduced_case env h hm hK hwf ht
  rw [hK'] at hK₂
  cases hK₂
  have hmul : ∀ z : Fin K'.nrow → ℝ, (∀ i : Fin K'.nrow, ∑ j : Fin K'.nrow, K'.get i.val j.val * z j = 0) ↔
      symmetrised K' *ᵥ z = 0 := by
    intro z
    rw [hsymm]
    constructor
    · intro hz; funext i; exact hz i
    · intro hz i; exact congrFun hz i
  constructor
  · intro hinj u hu h0 n hn
    have hug : ∀ n ∈ w.api.model.nodes.keys, gat w.api.model (glob w.api.model u) n = u n := fun n hn => h.gat_glob u hn
    have hR : Respects (governing w.api.model lc) (gat w.api.model (glob w.api.model u)) :=
      Respects.congr (restraintDofs_keys hA ht) (fun n hn => (hug n hn).symm) hu
    have hU := (respects_iff hA hwf ht _).mp hR
    have hz : symmetrised K' *ᵥ (fun k : Fin K'.nrow => glob w.api.model u (fdof (w.api.model.nodeCount * 6) fixed k.val)) = 0 := by
      funext i
      obtain ⟨V, hV, hVe⟩ := exists_extension (w.api.model.nodeCount * 6) fixed hlen (Pi.single i 1)
      have := hform V _ hV hU
      rw [← hVe, single_one_dotProduct] at this
      rw [this, symWork_eq hA hss, internalWork_congr env hA (fun _ _ => rfl) hug, energy_zero hA hadm hsp hss h0]
      rfl
    have hz0 := hinj _ ((hmul _).mpr hz)
    have hall : ∀ i, i < w.api.model.nodeCount * 6 → glob w.api.model u i = 0 := by
      intro i hi
      by_cases hf : i ∈ fixed
      · exact hU i hf
      · have hmem : i ∈ free (w.api.model.nodeCount * 6) fixed := mem_free.mpr ⟨hi, hf⟩
        obtain ⟨k, hk, e⟩ := List.getElem_of_mem hmem
        have := congrFun hz0 ⟨k, hlen ▸ hk⟩
        simp only [Pi.zero_apply] at this
        have e2 : fdof (w.api.model.nodeCount * 6) fixed k = i := by
          have := fdof_get hk
          rw [List.getElem?_eq_getElem hk, e] at this
          exact (Option.some.inj this).symm
        rwa [e2] at this
    rw [← hug n hn]
    funext r
    unfold gat
    have := (h.hidOf_lt hn).2.1
    exact hall _ (by have := r.isLt; omega)
  · intro hst z hz
    exact reduced_inj env h hwf ht hst hlen hform z ((hmul z).mp hz)

/-- a stable instance: the cantilever; the reduced matrix exists -/
example (env : Env) : ∃ c lc, World.init.run env demoCalls = ⟨demoApi c, []⟩ ∧ (demoApi c).loadcases.get? "C" = some lc ∧
    Stable env (demoApi c).model (governing (demoApi c).model lc) := by
  obtain ⟨c, hc, h⟩ := demo_run env
  exact ⟨c, demoCase, h, rfl, demo_stable env hc⟩

end Hyperstatic
