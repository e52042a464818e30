import Verif.Spec.Structure
import Verif.Lemmas.Coo
import Verif.Lemmas.Fresh
import Verif.Lemmas.Line
import Verif.Lemmas.Element

namespace Hyperstatic
open Matrix Spec

/-- number of a node -/
def hidOf (m : FeModel) (n : String) : ℕ := (m.hidNode.get? n).getD 0

/-- the displacement state read off a global vector -/
def gat (m : FeModel) (U : ℕ → ℝ) : State := fun n r => U (hidOf m n * 6 + r.val)

theorem ApiInv.hid_ok {a : Api} (h : ApiInv a) {n : String} (hn : n ∈ a.model.nodes.keys) :
    a.model.getNodeHid n = .ok (hidOf a.model n) := by
  rw [← h.hid_keys] at hn
  obtain ⟨i, hi⟩ := dict_mem_keys hn
  unfold FeModel.getNodeHid hidOf
  rw [Dict.getItem_of_some hi, hi]; rfl

theorem consts_eq {p : BeamProp} {c : BeamConsts} (h : p.consts = .ok c) : c = constsOf p := by
  cases p with
  | sec s =>
    simp only [BeamProp.consts, Material.G, shearModulus, pyDiv, Except.bind_ok_iff, Except.pure_eq_ok, Except.ok.injEq] at h
    obtain ⟨G, hG, rfl⟩ := h
    split at hG
    · simp at hG
    · simp at hG; subst hG; rfl
  | simple E mu A I2 I3 J rho =>
    simp only [BeamProp.consts, shearModulus, pyDiv, Except.bind_ok_iff, Except.pure_eq_ok, Except.ok.injEq] at h
    obtain ⟨G, hG, rfl⟩ := h
    split at hG
    · simp at hG
    · simp at hG; subst hG; rfl

theorem consts_ok {p : BeamProp} (h : muOf p ≠ -1) : p.consts = .ok (constsOf p) := by
  have key : ∀ {mu : ℝ}, mu ≠ -1 → 1 + mu ≠ 0 := fun h1 h2 => h1 (by linarith)
  cases p with
  | sec s =>
    have h' : 1 + s.material.mu ≠ 0 := key h
    simp only [BeamProp.consts, Material.G, shearModulus, pyDiv, if_neg h']
    rfl
  | simple E mu A I2 I3 J rho =>
    have h' : 1 + mu ≠ 0 := key h
    simp only [BeamProp.consts, shearModulus, pyDiv, if_neg h']
    rfl

theorem consts_ok_iff {p : BeamProp} : (∃ c, p.consts = .ok c) ↔ muOf p ≠ -1 := by
  refine ⟨?_, fun h => ⟨_, consts_ok h⟩⟩
  rintro ⟨c, hc⟩ h
  cases p with
  | sec s =>
    change s.material.mu = -1 at h
    simp [BeamProp.consts, Material.G, shearModulus, pyDiv, h, bind, Except.bind] at hc
  | simple E mu A I2 I3 J rho =>
    change mu = -1 at h
    simp [BeamProp.consts, shearModulus, pyDiv, h, bind, Except.bind] at hc

theorem condense_none (K : Matrix (Fin 12) (Fin 12) ℝ) : staticCondensate (fun _ => false) K = K := by
  unfold staticCondensate; simp

theorem condenseF_none (r : Vec 12) (K : Matrix (Fin 12) (Fin 12) ℝ) : staticCondensateF (fun _ => false) r K = r := by
  unfold staticCondensateF; simp

theorem getBeamNodeHids_ok {a : Api} (h : ApiInv a) {b : String} {be : BeamElm} (hb : a.model.beams.get? b = some be) :
    a.model.getBeamNodeHids b = .ok (hidOf a.model be.startName, hidOf a.model be.endName) := by
  obtain ⟨_, h2, h3, _⟩ := h.beam_ok b be hb
  unfold FeModel.getBeamNodeHids
  rw [Dict.getItem_of_some hb, Except.bind_ok, h.hid_ok h2, Except.bind_ok, h.hid_ok h3]
  rfl

/-- global stiffness of a beam element -/
noncomputable def beamKg (be : BeamElm) : Matrix (Fin 12) (Fin 12) ℝ :=
  be.Tᵀ * beamK (constsOf be.prop) be.length * be.T

theorem beamKTriplets_ok_iff {a : Api} (h : ApiInv a) {b : String} {be : BeamElm} (hb : a.model.beams.get? b = some be)
    (t : List (ℕ × ℕ × ℝ)) : Assembly.beamKTriplets a.model b = .ok t ↔
      muOf be.prop ≠ -1 ∧ t = scatter (beamDof (hidOf a.model be.startName) (hidOf a.model be.endName)) (beamKg be) := by
  obtain ⟨_, _, _, _, hrel⟩ := h.beam_ok b be hb
  unfold Assembly.beamKTriplets
  rw [getBeamNodeHids_ok h hb]
  simp only [Except.bind_ok, Dict.getItem_of_some hb, BeamElm.K, Except.bind_ok_iff, Except.pure_eq_ok, Except.ok.injEq, hrel,
    condense_none]
  constructor
  · rintro ⟨K, ⟨c, hc, rfl⟩, rfl⟩
    refine ⟨consts_ok_iff.mp ⟨c, hc⟩, ?_⟩
    rw [consts_eq hc]; rfl
  · rintro ⟨hmu, rfl⟩
    exact ⟨_, ⟨_, consts_ok hmu, rfl⟩, rfl⟩

theorem beamDof_gat (m : FeModel) (c : Csys) (s e : String) (U : ℕ → ℝ) :
    lineT c *ᵥ (fun k : Fin 12 => U (beamDof (hidOf m s) (hidOf m e) k.val)) = localEnds c (gat m U s) (gat m U e) := by
  rw [lineT_mulVec]
  unfold localEnds
  simp [part3, Spec.trans, Spec.rot, gat, beamDof]

theorem quadratic_transform {n : ℕ} (T K : Matrix (Fin n) (Fin n) ℝ) (v u : Vec n) :
    v ⬝ᵥ ((Tᵀ * K * T) *ᵥ u) = (T *ᵥ v) ⬝ᵥ (K *ᵥ (T *ᵥ u)) := by
  rw [← Matrix.mulVec_mulVec, ← Matrix.mulVec_mulVec, Matrix.dotProduct_mulVec, Matrix.vecMul_transpose]

theorem beam_length_pos {a : Api} (h : ApiInv a) {b : String} {be : BeamElm} (hb : a.model.beams.get? b = some be) :
    0 < be.length ∧ RightHanded be.csys := by
  obtain ⟨_, _, _, hc, _⟩ := h.beam_ok b be hb
  exact ⟨(lineCsys_ok hc).2.1, (lineCsys_ok hc).1⟩

/-- bilinear form of the triplets of a beam -/
theorem beam_bil {a : Api} (h : ApiInv a) {b : String} {be : BeamElm} (hb : a.model.beams.get? b = some be) (v u : ℕ → ℝ) :
    bil (scatter (beamDof (hidOf a.model be.startName) (hidOf a.model be.endName)) (beamKg be)) v u =
      beamInternal be (gat a.model v) (gat a.model u) := by
  rw [scatter_bil, beamKg, quadratic_transform]
  unfold BeamElm.T
  rw [beamDof_gat, beamDof_gat, beamK_bilin _ (beam_length_pos h hb).1.ne']
  rfl

theorem getShellNodeHids_ok {a : Api} (h : ApiInv a) {s : String} {se : ShellElm} (hs : a.model.shells.get? s = some se) :
    a.model.getShellNodeHids s = .ok (se.nodes.map fun p => hidOf a.model p.1) := by
  unfold FeModel.getShellNodeHids
  rw [Dict.getItem_of_some hs, Except.bind_ok]
  apply mapM_ok_of_forall
  intro p hp
  exact h.hid_ok ((h.shell_ok s se hs).2 p hp)

/-- global numbers of the components of a shell -/
def shellDof (m : FeModel) (se : ShellElm) (k : ℕ) : ℕ :=
  match se.nodes[k / 6]? with
  | some p => hidOf m p.1 * 6 + k % 6
  | none => 0

theorem shellKTriplets_ok {a : Api} (env : Env) (h : ApiInv a) {s : String} {se : ShellElm}
    (hs : a.model.shells.get? s = some se) :
    ∃ dof : ℕ → ℕ, (∀ k, k < 6 * se.nodes.length → dof k = shellDof a.model se k) ∧
      Assembly.shellKTriplets env a.model s = .ok (if se.nodes.length = 4 then scatter dof (env.quadK se) else scatter dof (env.triaK se)) := by
  obtain ⟨h43, _⟩ := h.shell_ok s se hs
  rcases h43 with h4 | h3
  · obtain ⟨p0, p1, p2, p3, hn⟩ : ∃ p0 p1 p2 p3, se.nodes = [p0, p1, p2, p3] := by
      match hse : se.nodes, h4 with
      | [p0, p1, p2, p3], _ => exact ⟨p0, p1, p2, p3, rfl⟩
    refine ⟨quadDof (hidOf a.model p0.1) (hidOf a.model p1.1) (hidOf a.model p2.1) (hidOf a.model p3.1), ?_, ?_⟩
    · intro k hk
      rw [h4] at hk
      interval_cases k <;> simp [shellDof, hn, quadDof]
    · unfold Assembly.shellKTriplets
      rw [getShellNodeHids_ok h hs, Except.bind_ok, Dict.getItem_of_some hs, Except.bind_ok, hn]
      rfl
  · obtain ⟨p0, p1, p2, hn⟩ : ∃ p0 p1 p2, se.nodes = [p0, p1, p2] := by
      match hse : se.nodes, h3 with
      | [p0, p1, p2], _ => exact ⟨p0, p1, p2, rfl⟩
    refine ⟨triaDof (hidOf a.model p0.1) (hidOf a.model p1.1) (hidOf a.model p2.1), ?_, ?_⟩
    · intro k hk
      rw [h3] at hk
      interval_cases k <;> simp [shellDof, hn, triaDof]
    · unfold Assembly.shellKTriplets
      rw [getShellNodeHids_ok h hs, Except.bind_ok, Dict.getItem_of_some hs, Except.bind_ok, hn]
      rfl

theorem shell_bil {a : Api} (env : Env) (h : ApiInv a) {s : String} {se : ShellElm}
    (hs : a.model.shells.get? s = some se) (dof : ℕ → ℕ) (hd : ∀ k, k < 6 * se.nodes.length → dof k = shellDof a.model se k)
    (v u : ℕ → ℝ) :
    bil (if se.nodes.length = 4 then scatter dof (env.quadK se) else scatter dof (env.triaK se)) v u =
      shellInternal env se (gat a.model v) (gat a.model u) := by
  obtain ⟨h43, _⟩ := h.shell_ok s se hs
  have key : ∀ (N : ℕ) (w : ℕ → ℝ), N ≤ 6 * se.nodes.length → (fun k : Fin N => w (dof k.val)) = shellEnds se (gat a.model w) := by
    intro N w hN
    funext k
    have hk6 : k.val < 6 * se.nodes.length := by have := k.isLt; omega
    rw [hd _ hk6]
    unfold shellDof shellEnds
    have hk : k.val / 6 < se.nodes.length := by omega
    rw [List.getElem?_eq_getElem hk]
    rfl
  unfold shellInternal
  rcases h43 with h4 | h3
  · rw [if_pos h4, if_pos h4, scatter_bil, key 24 _ (by omega), key 24 _ (by omega)]
  · have h4 : ¬ se.nodes.length = 4 := by omega
    rw [if_neg h4, if_neg h4, scatter_bil, key 18 _ (by omega), key 18 _ (by omega)]

/-- The bilinear form of the assembled stiffness is the internal virtual work of the model. -/
theorem assembleK_bil {a : Api} (env : Env) (h : ApiInv a) {x : Assembly} (hx : x.model = a.model) {K : Coo}
    (hK : x.assembleK env = .ok K) (v u : ℕ → ℝ) :
    bil K.ents v u = internalWork env a.model (gat a.model v) (gat a.model u) := by
  unfold Assembly.assembleK at hK
  rw [hx] at hK
  simp only [Except.bind_ok_iff] at hK
  obtain ⟨bs, hbs, ss, hss, hK⟩ := hK
  rw [Coo.mk?_ok_iff] at hK
  obtain ⟨rfl, -⟩ := hK
  rw [bil_append, bil_flatten, bil_flatten]
  unfold internalWork
  congr 2
  · rw [mapM_ok_eq hbs (fun b => match a.model.beams.get? b with
      | some be => scatter (beamDof (hidOf a.model be.startName) (hidOf a.model be.endName)) (beamKg be)
      | none => []) ?_]
    · rw [List.map_map]
      apply map_keys_eq _ h.beams_wf
      intro b be hb
      simp only [Function.comp, hb]
      exact beam_bil h hb v u
    · intro b hb t ht
      obtain ⟨be, hbe⟩ := dict_mem_keys hb
      simp only [hbe]
      exact ((beamKTriplets_ok_iff h hbe t).mp ht).2
  · have hd : ∀ s ∈ a.model.shells.keys, ∀ t, Assembly.shellKTriplets env a.model s = .ok t →
        bil t v u = match a.model.shells.get? s with
          | some se => shellInternal env se (gat a.model v) (gat a.model u)
          | none => 0 := by
      intro s hs t ht
      obtain ⟨se, hse⟩ := dict_mem_keys hs
      obtain ⟨dof, h1, h2⟩ := shellKTriplets_ok env h hse
      rw [ht] at h2
      cases h2
      simp only [hse]
      exact shell_bil env h hse dof h1 v u
    have hd2 : ss.map (fun l => bil l v u) = a.model.shells.keys.map (fun s => match a.model.shells.get? s with
          | some se => shellInternal env se (gat a.model v) (gat a.model u)
          | none => 0) := by
      have : a.model.shells.keys.mapM (fun s => (fun l => bil l v u) <$> Assembly.shellKTriplets env a.model s)
          = .ok (ss.map fun l => bil l v u) := by
        clear hd
        generalize a.model.shells.keys = ks at hss
        induction ks generalizing ss with
        | nil => rw [mapM_ok_nil] at hss; subst hss; rfl
        | cons k ks ih =>
          obtain ⟨b, bs, h1, h2, rfl⟩ := mapM_ok_cons.mp hss
          rw [mapM_ok_cons]
          exact ⟨_, _, by rw [h1]; rfl, ih _ h2, rfl⟩
      apply mapM_ok_eq this
      intro s hs t ht
      cases hts : Assembly.shellKTriplets env a.model s with
      | error e => rw [hts] at ht; cases ht
      | ok t' =>
        rw [hts] at ht
        cases ht
        exact hd s hs t' hts
    rw [hd2]
    apply map_keys_eq _ h.shells_wf
    intro s se hs
    simp only [hs]

/-- entries of the assembled matrix are inside the matrix -/
theorem assembleK_range {env : Env} {x : Assembly} {K : Coo} (hK : x.assembleK env = .ok K) :
    K.nrow = x.model.nodeCount * 6 ∧ K.ncol = x.model.nodeCount * 6 ∧ ∀ e ∈ K.ents, e.1 < K.nrow ∧ e.2.1 < K.ncol := by
  unfold Assembly.assembleK at hK
  simp only [Except.bind_ok_iff] at hK
  obtain ⟨bs, hbs, ss, hss, hK⟩ := hK
  rw [Coo.mk?_ok_iff] at hK
  obtain ⟨rfl, h⟩ := hK
  exact ⟨rfl, rfl, h⟩

/-! models without re-added nodes -/

theorem FreshInv.hidOf_lt {a : Api} (h : FreshInv a) {n : String} (hn : n ∈ a.model.nodes.keys) :
    a.model.hidNode.get? n = some (hidOf a.model n) ∧ hidOf a.model n < a.model.nodeCount ∧
    a.model.nodes.keys[hidOf a.model n]? = some n := by
  rw [← h.hid_keys] at hn
  obtain ⟨i, hi⟩ := dict_mem_keys hn
  have e : hidOf a.model n = i := by unfold hidOf; rw [hi]; rfl
  rw [e]
  have h2 := (h.hid_get n i).mp hi
  refine ⟨hi, ?_, h2⟩
  have := (List.getElem?_eq_some_iff.mp h2).1
  unfold FeModel.nodeCount
  rw [Dict.keys, List.length_map] at this
  exact this

theorem FreshInv.hidOf_inj {a : Api} (h : FreshInv a) {n m : String} (hn : n ∈ a.model.nodes.keys)
    (hm : m ∈ a.model.nodes.keys) (e : hidOf a.model n = hidOf a.model m) : n = m := by
  have h1 := (h.hidOf_lt hn).2.2
  have h2 := (h.hidOf_lt hm).2.2
  rw [e, h2] at h1
  exact (Option.some.inj h1).symm

/-- the global vector of a displacement state -/
def glob (m : FeModel) (u : State) : ℕ → ℝ := fun i =>
  match m.nodes.keys[i / 6]? with
  | some n => u n ⟨i % 6, Nat.mod_lt _ (by decide)⟩
  | none => 0

theorem FreshInv.gat_glob {a : Api} (h : FreshInv a) (u : State) {n : String} (hn : n ∈ a.model.nodes.keys) :
    gat a.model (glob a.model u) n = u n := by
  funext r
  unfold gat glob
  have h1 : (hidOf a.model n * 6 + r.val) / 6 = hidOf a.model n := by have := r.isLt; omega
  have h2 : (hidOf a.model n * 6 + r.val) % 6 = r.val := by have := r.isLt; omega
  rw [h1, (h.hidOf_lt hn).2.2]
  simp only [h2]

theorem beamInternal_congr {a : Api} (h : ApiInv a) {b : String} {be : BeamElm} (hb : a.model.beams.get? b = some be)
    {v v' u u' : State} (hv : ∀ n ∈ a.model.nodes.keys, v n = v' n) (hu : ∀ n ∈ a.model.nodes.keys, u n = u' n) :
    beamInternal be v u = beamInternal be v' u' := by
  obtain ⟨_, h1, h2, _⟩ := h.beam_ok b be hb
  unfold beamInternal beamEnds
  rw [hv _ h1, hv _ h2, hu _ h1, hu _ h2]

theorem shellEnds_congr {N : ℕ} {a : Api} (h : ApiInv a) {s : String} {se : ShellElm} (hs : a.model.shells.get? s = some se)
    {v v' : State} (hv : ∀ n ∈ a.model.nodes.keys, v n = v' n) : (shellEnds se v : Vec N) = shellEnds se v' := by
  funext k
  unfold shellEnds
  cases hk : se.nodes[k.val / 6]? with
  | none => rfl
  | some p => simp only [hv _ ((h.shell_ok s se hs).2 p (List.mem_of_getElem? hk))]

/-- internal work depends only on the displacements of the nodes of the model -/
theorem internalWork_congr {a : Api} (env : Env) (h : ApiInv a)
    {v v' u u' : State} (hv : ∀ n ∈ a.model.nodes.keys, v n = v' n) (hu : ∀ n ∈ a.model.nodes.keys, u n = u' n) :
    internalWork env a.model v u = internalWork env a.model v' u' := by
  unfold internalWork
  congr 2
  · apply List.map_congr_left
    rintro ⟨b, be⟩ hm
    exact beamInternal_congr h ((Dict.mem_iff_get? h.beams_wf b be).mp hm) hv hu
  · apply List.map_congr_left
    rintro ⟨s, se⟩ hm
    have := (Dict.mem_iff_get? h.shells_wf s se).mp hm
    unfold shellInternal
    rw [shellEnds_congr (N := 24) h this hv, shellEnds_congr (N := 24) h this hu, shellEnds_congr (N := 18) h this hv,
      shellEnds_congr (N := 18) h this hu]

theorem beamDof_lt {i j N r : ℕ} (hi : i < N) (hj : j < N) (hr : r < 12) : beamDof i j r < N * 6 := by
  unfold beamDof; split <;> omega

/-- assembly of the stiffness succeeds unless a shear modulus is undefined -/
theorem assembleK_ok_iff {a : Api} (env : Env) (h : FreshInv a) {x : Assembly} (hx : x.model = a.model) :
    (∃ K, x.assembleK env = .ok K) ↔ ∀ b be, a.model.beams.get? b = some be → muOf be.prop ≠ -1 := by
  have hA := h.toApiInv
  constructor
  · rintro ⟨K, hK⟩ b be hb
    unfold Assembly.assembleK at hK
    rw [hx] at hK
    simp only [Except.bind_ok_iff] at hK
    obtain ⟨bs, hbs, _⟩ := hK
    obtain ⟨t, ht⟩ := mapM_ok_forall hbs b (Dict.mem_keys_of_get? hb)
    exact ((beamKTriplets_ok_iff hA hb t).mp ht).1
  · intro hmu
    have h1 : ∃ bs, a.model.beams.keys.mapM (Assembly.beamKTriplets a.model) = .ok bs ∧
        ∀ t ∈ bs, ∀ e ∈ t, e.1 < a.model.nodeCount * 6 ∧ e.2.1 < a.model.nodeCount * 6 := by
      refine ⟨_, mapM_ok_of_forall (fun b => match a.model.beams.get? b with
        | some be => scatter (beamDof (hidOf a.model be.startName) (hidOf a.model be.endName)) (beamKg be)
        | none => []) ?_, ?_⟩
      · intro b hb
        obtain ⟨be, hbe⟩ := dict_mem_keys hb
        simp only [hbe]
        exact (beamKTriplets_ok_iff hA hbe _).mpr ⟨hmu b be hbe, rfl⟩
      · intro t ht e he
        obtain ⟨b, hb, rfl⟩ := List.mem_map.mp ht
        obtain ⟨be, hbe⟩ := dict_mem_keys hb
        simp only [hbe] at he
        obtain ⟨r, c, h1, h2⟩ := mem_scatter he
        obtain ⟨_, hs, ht, _⟩ := hA.beam_ok b be hbe
        rw [h1, h2]
        exact ⟨beamDof_lt (h.hidOf_lt hs).2.1 (h.hidOf_lt ht).2.1 r.isLt, beamDof_lt (h.hidOf_lt hs).2.1 (h.hidOf_lt ht).2.1 c.isLt⟩
    have h2 : ∃ ss, a.model.shells.keys.mapM (Assembly.shellKTriplets env a.model) = .ok ss ∧
        ∀ t ∈ ss, ∀ e ∈ t, e.1 < a.model.nodeCount * 6 ∧ e.2.1 < a.model.nodeCount * 6 := by
      have hdof : ∀ s, ∃ t, s ∈ a.model.shells.keys → Assembly.shellKTriplets env a.model s = .ok t ∧
          ∀ e ∈ t, e.1 < a.model.nodeCount * 6 ∧ e.2.1 < a.model.nodeCount * 6 := by
        intro s
        by_cases hs : s ∈ a.model.shells.keys
        · obtain ⟨se, hse⟩ := dict_mem_keys hs
          obtain ⟨dof, h1, h2⟩ := shellKTriplets_ok env hA hse
          refine ⟨_, fun _ => ⟨h2, ?_⟩⟩
          obtain ⟨h43, h5⟩ := hA.shell_ok s se hse
          have hlt : ∀ k, k < 6 * se.nodes.length → dof k < a.model.nodeCount * 6 := by
            intro k hk6
            have hk : k / 6 < se.nodes.length := by omega
            rw [h1 k hk6]
            unfold shellDof
            rw [List.getElem?_eq_getElem hk]
            have := (h.hidOf_lt (h5 _ (List.getElem_mem hk))).2.1
            simp only
            omega
          intro e he
          rcases h43 with h4 | h3
          · rw [if_pos h4] at he
            obtain ⟨r, c, h1, h2⟩ := mem_scatter he
            rw [h1, h2]
            exact ⟨hlt r (by omega), hlt c (by omega)⟩
          · rw [if_neg (by omega)] at he
            obtain ⟨r, c, h1, h2⟩ := mem_scatter he
            rw [h1, h2]
            exact ⟨hlt r (by omega), hlt c (by omega)⟩
        · exact ⟨[], fun h => absurd h hs⟩
      choose g hg using hdof
      refine ⟨_, mapM_ok_of_forall g (fun s hs => (hg s hs).1), ?_⟩
      intro t ht
      obtain ⟨s, hs, rfl⟩ := List.mem_map.mp ht
      exact (hg s hs).2
    obtain ⟨bs, hbs, hb2⟩ := h1
    obtain ⟨ss, hss, hs2⟩ := h2
    refine ⟨⟨a.model.nodeCount * 6, a.model.nodeCount * 6, bs.flatten ++ ss.flatten⟩, ?_⟩
    unfold Assembly.assembleK
    rw [hx, hbs, Except.bind_ok, hss, Except.bind_ok, Coo.mk?_ok_iff]
    refine ⟨rfl, ?_⟩
    intro e he
    rcases List.mem_append.mp he with he | he
    · obtain ⟨t, ht, het⟩ := List.mem_flatten.mp he
      exact hb2 t ht e het
    · obtain ⟨t, ht, het⟩ := List.mem_flatten.mp he
      exact hs2 t ht e het

end Hyperstatic
