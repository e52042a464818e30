import Verif.Lemmas.Structure
import Verif.Lemmas.Demo
import Verif.Spec.Mass
import Verif.Spec.Registry

/-
C44: the assembled mass matrix.
-/

namespace Hyperstatic
open Matrix Spec

/-! ### C44 Mass is conserved -/

theorem lumped_bilin (c : BeamConsts) (l : ℝ) (v u : Vec 12) : v ⬝ᵥ (beamMLumped c l *ᵥ u) =
    c.rho * c.A * l / 2 * (v 0 * u 0 + v 1 * u 1 + v 2 * u 2) + 1 / 10 ^ 12 * (v 3 * u 3 + v 4 * u 4 + v 5 * u 5) +
    (c.rho * c.A * l / 2 * (v 6 * u 6 + v 7 * u 7 + v 8 * u 8) + 1 / 10 ^ 12 * (v 9 * u 9 + v 10 * u 10 + v 11 * u 11)) := by
  have : beamMLumped c l = Matrix.diagonal (fun i => if i ∈ ([3, 4, 5, 9, 10, 11] : List (Fin 12)) then 1 / 10 ^ 12 else c.rho * c.A * l / 2) := by
    ext i j
    unfold beamMLumped
    rw [Matrix.diagonal_apply]
  rw [this]
  simp only [dotProduct, Matrix.mulVec_diagonal]
  rw [Fin.sum_univ_def]
  simp [List.finRange_succ]
  ring

theorem beamM_eq (be : BeamElm) : ∃ c : BeamConsts, be.M = beamMLumped c be.length ∧ c.rho = (constsOf be.prop).rho ∧ c.A = (constsOf be.prop).A := by
  unfold BeamElm.M
  cases be.prop with
  | sec s => exact ⟨_, rfl, rfl, rfl⟩
  | simple E mu A I2 I3 J rho => exact ⟨_, rfl, rfl, rfl⟩

/-- scalar products do not depend on the axes -/
theorem rightHanded_dot_eq {c : Csys} (h : RightHanded c) (a b : V3) :
    c.x.dot a * c.x.dot b + c.y.dot a * c.y.dot b + c.z.dot a * c.z.dot b = a.dot b := by
  have ht : c.Tᵀ * c.T = 1 := mul_eq_one_comm.mp (csysT_orth h)
  have e : ∀ i j, (c.Tᵀ * c.T) i j = (1 : Matrix (Fin 3) (Fin 3) ℝ) i j := fun i j => by rw [ht]
  have h00 := e 0 0; have h11 := e 1 1; have h22 := e 2 2
  have h01 := e 0 1; have h02 := e 0 2; have h12 := e 1 2
  simp only [Matrix.mul_apply, Fin.sum_univ_three, Matrix.transpose_apply, Csys.T] at h00 h11 h22 h01 h02 h12
  simp at h00 h11 h22 h01 h02 h12
  unfold V3.dot
  linear_combination a.x * b.x * h00 + a.y * b.y * h11 + a.z * b.z * h22 + (a.x * b.y + a.y * b.x) * h01 +
    (a.x * b.z + a.z * b.x) * h02 + (a.y * b.z + a.z * b.y) * h12

theorem beamInertia_eq {be : BeamElm} (hc : RightHanded be.csys) (v u : State) :
    beamEnds be v ⬝ᵥ (be.M *ᵥ beamEnds be u) = beamInertia be v u := by
  obtain ⟨c, h1, h2, h3⟩ := beamM_eq be
  rw [h1, lumped_bilin, h2, h3]
  unfold beamEnds localEnds beamInertia endInertia beamMass
  rw [← rightHanded_dot_eq hc (Spec.trans (v be.startName)), ← rightHanded_dot_eq hc (Spec.rot (v be.startName)), ← rightHanded_dot_eq hc (Spec.trans (v be.endName)),
    ← rightHanded_dot_eq hc (Spec.rot (v be.endName))]
  simp

/-- global mass matrix of a beam -/
noncomputable def beamMg (be : BeamElm) : Matrix (Fin 12) (Fin 12) ℝ := be.Tᵀ * be.M * be.T

theorem beamMTriplets_eq {a : Api} (h : ApiInv a) {b : String} {be : BeamElm} (hb : a.model.beams.get? b = some be) :
    Assembly.beamMTriplets a.model b = .ok (scatter (beamDof (hidOf a.model be.startName) (hidOf a.model be.endName)) (beamMg be)) := by
  obtain ⟨_, _, _, _, hrel⟩ := h.beam_ok b be hb
  unfold Assembly.beamMTriplets
  rw [getBeamNodeHids_ok h hb]
  simp only [Except.bind_ok, Dict.getItem_of_some hb, Except.pure_eq_ok, hrel, condense_none]
  rfl

theorem beamM_bil {a : Api} (h : ApiInv a) {b : String} {be : BeamElm} (hb : a.model.beams.get? b = some be) (v u : ℕ → ℝ) :
    bil (scatter (beamDof (hidOf a.model be.startName) (hidOf a.model be.endName)) (beamMg be)) v u =
      beamInertia be (gat a.model v) (gat a.model u) := by
  rw [scatter_bil, beamMg, quadratic_transform]
  unfold BeamElm.T
  rw [beamDof_gat, beamDof_gat]
  exact beamInertia_eq (beam_length_pos h hb).2 _ _

theorem nodeMTriplets_eq {a : Api} (h : ApiInv a) {n : String} {nd : Node} (hn : a.model.nodes.get? n = some nd) :
    Assembly.nodeMTriplets a.model n = .ok (((List.finRange 6).filter (fun r => nd.mass r ≠ 0)).map
      (fun r => (hidOf a.model n * 6 + r.val, hidOf a.model n * 6 + r.val, nd.mass r))) := by
  unfold Assembly.nodeMTriplets
  rw [h.hid_ok (Dict.mem_keys_of_get? hn), Except.bind_ok, Dict.getItem_of_some hn]
  rfl

theorem nodeM_bil (m : FeModel) (n : String) (nd : Node) (v u : ℕ → ℝ) :
    bil (((List.finRange 6).filter (fun r => nd.mass r ≠ 0)).map
      (fun r => (hidOf m n * 6 + r.val, hidOf m n * 6 + r.val, nd.mass r))) v u = nodeInertia nd (gat m v n) (gat m u n) := by
  unfold bil nodeInertia
  rw [List.map_map, ← sum_finRange]
  have : ∀ l : List (Fin 6), ((l.filter (fun r => nd.mass r ≠ 0)).map
      ((fun e : ℕ × ℕ × ℝ => v e.1 * e.2.2 * u e.2.1) ∘ fun r => (hidOf m n * 6 + r.val, hidOf m n * 6 + r.val, nd.mass r))).sum
      = (l.map fun r => nd.mass r * (gat m v n r * gat m u n r)).sum := by
    intro l
    induction l with
    | nil => rfl
    | cons r l ih =>
      rw [List.filter_cons, List.map_cons, List.sum_cons]
      by_cases hk : nd.mass r = 0
      · simp only [hk, ne_eq, not_true_eq_false, decide_false, Bool.false_eq_true, if_false, zero_mul, zero_add]
        exact ih
      · rw [if_pos (by simpa using hk), List.map_cons, List.sum_cons, ih]
        congr 1
        unfold gat
        simp only [Function.comp]
        ring
  exact this _

/-- The bilinear form of the assembled mass matrix is the inertial work of the model. -/
theorem assembleM_bil {a : Api} (h : ApiInv a) {x : Assembly} (hx : x.model = a.model) {M : Coo}
    (hM : x.assembleM = .ok M) (v u : ℕ → ℝ) : bil M.ents v u = inertialWork a.model (gat a.model v) (gat a.model u) := by
  unfold Assembly.assembleM at hM
  rw [hx] at hM
  simp only [Except.bind_ok_iff] at hM
  obtain ⟨ns, hns, bs, hbs, hM⟩ := hM
  rw [Coo.mk?_ok_iff] at hM
  obtain ⟨rfl, -⟩ := hM
  rw [bil_append, bil_flatten, bil_flatten]
  unfold inertialWork
  congr 2
  · rw [mapM_ok_eq hns (fun n => match a.model.nodes.get? n with
      | some nd => ((List.finRange 6).filter (fun r => nd.mass r ≠ 0)).map
        (fun r => (hidOf a.model n * 6 + r.val, hidOf a.model n * 6 + r.val, nd.mass r))
      | none => []) ?_, List.map_map]
    · apply map_keys_eq _ h.nodes_wf
      intro n nd hn
      simp only [Function.comp, hn]
      exact nodeM_bil a.model n nd v u
    · intro n hn t ht
      obtain ⟨nd, hnd⟩ := dict_mem_keys hn
      rw [nodeMTriplets_eq h hnd] at ht
      simp only [hnd]
      exact (Except.ok.inj ht).symm
  · rw [mapM_ok_eq hbs (fun b => match a.model.beams.get? b with
      | some be => scatter (beamDof (hidOf a.model be.startName) (hidOf a.model be.endName)) (beamMg be)
      | none => []) ?_, List.map_map]
    · apply map_keys_eq _ h.beams_wf
      intro b be hb
      simp only [Function.comp, hb]
      exact beamM_bil h hb v u
    · intro b hb t ht
      obtain ⟨be, hbe⟩ := dict_mem_keys hb
      rw [beamMTriplets_eq h hbe] at ht
      simp only [hbe]
      exact (Except.ok.inj ht).symm

theorem assembleM_range {x : Assembly} {M : Coo} (hM : x.assembleM = .ok M) :
    M.nrow = x.model.nodeCount * 6 ∧ M.ncol = x.model.nodeCount * 6 ∧ ∀ e ∈ M.ents, e.1 < M.nrow ∧ e.2.1 < M.ncol := by
  unfold Assembly.assembleM at hM
  simp only [Except.bind_ok_iff] at hM
  obtain ⟨bs, hbs, ss, hss, hM⟩ := hM
  rw [Coo.mk?_ok_iff] at hM
  obtain ⟨rfl, h⟩ := hM
  exact ⟨rfl, rfl, h⟩

theorem assembleM_ok {a : Api} (h : FreshInv a) {x : Assembly} (hx : x.model = a.model) : ∃ M, x.assembleM = .ok M := by
  have hA := h.toApiInv
  have h1 := mapM_ok_of_forall (f := Assembly.nodeMTriplets a.model) (l := a.model.nodes.keys) (fun n => match a.model.nodes.get? n with
      | some nd => ((List.finRange 6).filter (fun r => nd.mass r ≠ 0)).map
        (fun r => (hidOf a.model n * 6 + r.val, hidOf a.model n * 6 + r.val, nd.mass r))
      | none => []) (by
    intro n hn
    obtain ⟨nd, hnd⟩ := dict_mem_keys hn
    simp only [hnd]
    exact nodeMTriplets_eq hA hnd)
  have h2 := mapM_ok_of_forall (f := Assembly.beamMTriplets a.model) (l := a.model.beams.keys) (fun b => match a.model.beams.get? b with
      | some be => scatter (beamDof (hidOf a.model be.startName) (hidOf a.model be.endName)) (beamMg be)
      | none => []) (by
    intro b hb
    obtain ⟨be, hbe⟩ := dict_mem_keys hb
    simp only [hbe]
    exact beamMTriplets_eq hA hbe)
  unfold Assembly.assembleM
  rw [hx, h1, Except.bind_ok, h2, Except.bind_ok]
  refine ⟨_, (Coo.mk?_ok_iff _ _ _ _).mpr ⟨rfl, ?_⟩⟩
  intro e he
  rcases List.mem_append.mp he with he | he
  · obtain ⟨t, ht, het⟩ := List.mem_flatten.mp he
    obtain ⟨n, hn, rfl⟩ := List.mem_map.mp ht
    obtain ⟨nd, hnd⟩ := dict_mem_keys hn
    simp only [hnd] at het
    obtain ⟨k, _, rfl⟩ := List.mem_map.mp het
    have h1 := (h.hidOf_lt hn).2.1
    have h2 := k.isLt
    simp only
    omega
  · obtain ⟨t, ht, het⟩ := List.mem_flatten.mp he
    obtain ⟨b, hb, rfl⟩ := List.mem_map.mp ht
    obtain ⟨be, hbe⟩ := dict_mem_keys hb
    simp only [hbe] at het
    obtain ⟨i, j, h3, h4⟩ := mem_scatter het
    obtain ⟨_, hs, ht, _⟩ := hA.beam_ok b be hbe
    rw [h3, h4]
    exact ⟨beamDof_lt (h.hidOf_lt hs).2.1 (h.hidOf_lt ht).2.1 i.isLt, beamDof_lt (h.hidOf_lt hs).2.1 (h.hidOf_lt ht).2.1 j.isLt⟩

theorem inertialWork_congr {a : Api} (h : ApiInv a) {v v' u u' : State} (hv : ∀ n ∈ a.model.nodes.keys, v n = v' n)
    (hu : ∀ n ∈ a.model.nodes.keys, u n = u' n) : inertialWork a.model v u = inertialWork a.model v' u' := by
  unfold inertialWork
  congr 2
  · apply List.map_congr_left
    intro q hq
    have : q.1 ∈ a.model.nodes.keys := List.mem_map.mpr ⟨q, hq, rfl⟩
    rw [hv _ this, hu _ this]
  · apply List.map_congr_left
    rintro ⟨b, be⟩ hq
    obtain ⟨_, h1, h2, _⟩ := h.beam_ok b be ((Dict.mem_iff_get? h.beams_wf b be).mp hq)
    unfold beamInertia
    rw [hv _ h1, hv _ h2, hu _ h1, hu _ h2]

/-- The mass matrix can be assembled, has six rows and columns per node, and its entry (node `n`, component `r`; node `m`,
component `s`) is the inertial work of a unit acceleration of (`m`, `s`) under the virtual unit displacement of (`n`, `r`):
nodal masses on their own components, half of each beam's mass on every translational component of its ends. -/
theorem C44_entries (env : Env) (cs : List Call) (hcs : NoReadd env World.init cs) (w : World) (hw : w = World.init.run env cs)
    (x : Assembly) (hx : w.api.assembly = .ok x) :
    ∃ M, x.assembleM = .ok M ∧ M.nrow = 6 * w.getNodeNames.length ∧ M.ncol = 6 * w.getNodeNames.length ∧
    ∀ (i j : ℕ) (n m : String), w.getNodeNames[i]? = some n → w.getNodeNames[j]? = some m → ∀ r s : Fin 6,
      M.get (6 * i + r.val) (6 * j + s.val) = inertialWork w.api.model (unitAt n r) (unitAt m s) := by
  have h := (FreshInv_run env cs hcs).1
  rw [← hw] at h
  have hx1 := (h.toApiInv.assembly_eq hx).1
  obtain ⟨M, hM⟩ := assembleM_ok h hx1
  obtain ⟨h1, h2, _⟩ := assembleM_range hM
  rw [hx1] at h1 h2
  have e : w.getNodeNames.length = w.api.model.nodeCount := by
    unfold World.getNodeNames Dict.keys FeModel.nodeCount; rw [List.length_map]
  refine ⟨M, hM, by rw [h1, e]; ring, by rw [h2, e]; ring, ?_⟩
  intro i j n m hi hj r s
  rw [Coo.get_eq_bil, assembleM_bil h.toApiInv hx1 hM]
  exact inertialWork_congr h.toApiInv (h.gat_unit hi r) (h.gat_unit hj s)

/-- The total mass in a translational direction `r`, read off the matrix as the sum of all entries in rows and columns of this
direction, is the sum of the nodal masses in this direction and of the masses density × area × length of all beams, whatever
their direction in space. -/
theorem C44_total_mass (env : Env) (cs : List Call) (hcs : NoReadd env World.init cs) (w : World) (hw : w = World.init.run env cs)
    (x : Assembly) (hx : w.api.assembly = .ok x) (M : Coo) (hM : x.assembleM = .ok M) (r : Fin 6) (hr : r.val < 3) :
    ∑ i ∈ Finset.range w.getNodeNames.length, ∑ j ∈ Finset.range w.getNodeNames.length, M.get (6 * i + r.val) (6 * j + r.val) =
      (w.api.model.nodes.map fun p => p.2.mass r).sum +
      (w.api.model.beams.map fun p => (constsOf p.2.prop).rho * (constsOf p.2.prop).A * lineLength p.2.startLoc p.2.endLoc).sum := by
  have h := (FreshInv_run env cs hcs).1
  rw [← hw] at h
  have hx1 := (h.toApiInv.assembly_eq hx).1
  obtain ⟨h1, h2, h3⟩ := assembleM_range hM
  have e : w.getNodeNames.length = w.api.model.nodeCount := by
    unfold World.getNodeNames Dict.keys FeModel.nodeCount; rw [List.length_map]
  let ind : ℕ → ℝ := fun k => if k % 6 = r.val then 1 else 0
  have hb := assembleM_bil h.toApiInv hx1 hM ind ind
  rw [← Coo.get_bil M h3] at hb
  have key : ∀ (N : ℕ) (f : ℕ → ℝ), ∑ k ∈ Finset.range (N * 6), ind k * f k = ∑ i ∈ Finset.range N, f (6 * i + r.val) := by
    intro N f
    induction N with
    | zero => simp
    | succ N ih =>
      rw [Finset.sum_range_succ, ← ih, Nat.succ_mul]
      simp only [Finset.sum_range_succ]
      rw [add_assoc, add_assoc, add_assoc, add_assoc, add_assoc]
      congr 1
      have hm : ∀ k, (N * 6 + k) % 6 = k % 6 := by intro k; omega
      have hz : (N * 6) % 6 = 0 := by omega
      simp only [ind, hm, hz]
      rcases (show r.val = 0 ∨ r.val = 1 ∨ r.val = 2 by omega) with h0 | h0 | h0 <;> simp [h0, mul_comm]
  have lhs : ∑ i ∈ Finset.range M.nrow, ∑ j ∈ Finset.range M.ncol, ind i * M.get i j * ind j =
      ∑ i ∈ Finset.range w.getNodeNames.length, ∑ j ∈ Finset.range w.getNodeNames.length, M.get (6 * i + r.val) (6 * j + r.val) := by
    rw [h1, h2, hx1, e]
    simp only [mul_assoc, ← Finset.mul_sum]
    rw [key]
    apply Finset.sum_congr rfl
    intro i _
    simp only [mul_comm _ (ind _)]
    rw [key]
  rw [← lhs, hb]
  have hg : ∀ n, gat w.api.model ind n = fun s => if s = r then 1 else 0 := by
    intro n
    funext s
    unfold gat
    simp only [ind]
    have : (hidOf w.api.model n * 6 + s.val) % 6 = s.val := by omega
    rw [this]
    simp [Fin.ext_iff]
  unfold inertialWork
  congr 2
  · apply List.map_congr_left
    intro p _
    rw [hg]
    unfold nodeInertia
    simp
  · apply List.map_congr_left
    intro p _
    unfold beamInertia endInertia beamMass BeamElm.length
    rw [hg, hg]
    rcases (show r = 0 ∨ r = 1 ∨ r = 2 by omega) with rfl | rfl | rfl <;> simp [Spec.trans, Spec.rot, V3.dot, Fin.ext_iff]

/-- The matrix is symmetric and, for non-negative masses and densities, positive semidefinite. -/
theorem C44_symm_pos (env : Env) (cs : List Call) (hcs : NoReadd env World.init cs) (w : World) (hw : w = World.init.run env cs)
    (x : Assembly) (hx : w.api.assembly = .ok x) (M : Coo) (hM : x.assembleM = .ok M) :
    (∀ i j, M.get i j = M.get j i) ∧
    ((∀ n nd, w.api.model.nodes.get? n = some nd → ∀ r, 0 ≤ nd.mass r) →
      (∀ b be, w.api.model.beams.get? b = some be → 0 ≤ (constsOf be.prop).rho * (constsOf be.prop).A) →
      ∀ v : ℕ → ℝ, 0 ≤ ∑ i ∈ Finset.range M.nrow, ∑ j ∈ Finset.range M.ncol, v i * M.get i j * v j) := by
  have h := (FreshInv_run env cs hcs).1
  rw [← hw] at h
  have hx1 := (h.toApiInv.assembly_eq hx).1
  constructor
  · intro i j
    rw [Coo.get_eq_bil, Coo.get_eq_bil, assembleM_bil h.toApiInv hx1 hM, assembleM_bil h.toApiInv hx1 hM]
    unfold inertialWork nodeInertia beamInertia endInertia V3.dot
    congr 2
    · apply List.map_congr_left
      intro p _
      apply Finset.sum_congr rfl
      intro r _
      ring
    · apply List.map_congr_left
      intro p _
      ring
  · intro hm hb v
    rw [Coo.get_bil M (assembleM_range hM).2.2, assembleM_bil h.toApiInv hx1 hM]
    unfold inertialWork
    apply add_nonneg
    · apply List.sum_nonneg
      intro y hy
      obtain ⟨⟨n, nd⟩, hp, rfl⟩ := List.mem_map.mp hy
      apply Finset.sum_nonneg
      intro r _
      exact mul_nonneg (hm n nd ((Dict.mem_iff_get? h.nodes_wf n nd).mp hp) r) (mul_self_nonneg _)
    · apply List.sum_nonneg
      intro y hy
      obtain ⟨⟨b, be⟩, hp, rfl⟩ := List.mem_map.mp hy
      have hbe := (Dict.mem_iff_get? h.beams_wf b be).mp hp
      have h1 := mul_nonneg (hb b be hbe) (beam_length_pos h.toApiInv hbe).1.le
      have hd : ∀ a : V3, 0 ≤ a.dot a := by
        intro a; unfold V3.dot
        nlinarith [mul_self_nonneg a.x, mul_self_nonneg a.y, mul_self_nonneg a.z]
      unfold beamInertia endInertia beamMass
      have := hd (Spec.trans (gat w.api.model v be.startName)); have := hd (Spec.rot (gat w.api.model v be.startName))
      have := hd (Spec.trans (gat w.api.model v be.endName)); have := hd (Spec.rot (gat w.api.model v be.endName))
      simp only
      positivity

/-- The masses attached to the nodes are those of the latest `set_nodal_mass` for an existing node; adding a node (again)
resets its mass. -/
theorem C44_nodal_masses (env : Env) (cs : List Call) (n : String) :
    ((World.init.run env cs).api.model.nodes.get? n).map (fun nd => nd.mass) = (massReg.run cs).cur n := by
  have key : (fun (a : Api) n => (a.model.nodes.get? n).map fun nd => nd.mass) (World.init.run env cs).api = (massReg.run cs).cur := by
    apply refines env massReg (fun a n => (a.model.nodes.get? n).map fun nd => nd.mass) (fun _ => True)
    · simp [massReg, Api.init, FeModel.empty]
    · trivial
    · intros; trivial
    · intro a c a' _ he
      rw [edit_ok_iff] at he
      cases c <;> simp only [EditEff] at he
      case addNode n x y z =>
        subst he
        funext m
        simp only [massReg, Dict.get?_set]
        by_cases e : n = m
        · subst e; simp [stdNode]; rfl
        · simp [e, Ne.symm e]
      case setNodalMass n mass =>
        obtain ⟨nd, h1, rfl⟩ := he
        funext m
        simp only [massReg, Dict.get?_set]
        by_cases e : n = m
        · subst e; simp [h1]
        · simp [e, Ne.symm e]
      case setNodalRestraint => subst he; split <;> rfl
      case setNodalLoad => obtain ⟨_, _, _, _, rfl⟩ := he; rfl
      case setBeamLoadDistributed => obtain ⟨_, _, _, _, rfl⟩ := he; rfl
      case setBeamLoadConcentrated => obtain ⟨_, _, _, _, rfl⟩ := he; rfl
      all_goals first
        | (exact he.elim)
        | (subst he; rfl)
        | (obtain ⟨_, _, rfl⟩ := he; rfl)
        | (obtain ⟨_, _, _, _, rfl⟩ := he; rfl)
        | (obtain ⟨_, _, _, _, _, _, rfl⟩ := he; rfl)
        | (obtain ⟨_, _, _, _, _, _, _, _, rfl⟩ := he; rfl)
    · intro a c e _ he
      cases c
      case addNode => rw [edit_addNode] at he; cases he
      case setNodalMass n mass =>
        funext m
        simp only [massReg]
        by_cases e : m = n
        · subst e
          cases hg : a.model.nodes.get? m with
          | none => simp
          | some nd =>
            rw [(edit_ok_iff a (.setNodalMass m mass) _).mpr ⟨nd, hg, rfl⟩] at he
            cases he
        · simp [e]
      all_goals rfl
  exact congrFun key n

/-- the example beam (density 1, area 1, from (0,0,0) to (1,2,3)) weighs √14 in direction 2 -/
example (env : Env) : ∃ x M, (World.init.run env demoCalls).api.assembly = .ok x ∧ x.assembleM = .ok M ∧
    ∑ i ∈ Finset.range 2, ∑ j ∈ Finset.range 2, M.get (6 * i + 1) (6 * j + 1) = Real.sqrt 14 := by
  obtain ⟨x, hx⟩ := (ApiInv_run env demoCalls).1.assembly_ok
  obtain ⟨M, hM, _⟩ := C44_entries env demoCalls (demo_noReadd env) _ rfl x hx
  have := C44_total_mass env demoCalls (demo_noReadd env) _ rfl x hx M hM 1 (by decide)
  obtain ⟨c, hc, hr⟩ := demo_run env
  refine ⟨x, M, hx, hM, ?_⟩
  rw [hr] at this
  refine this.trans ?_
  simp [demoApi, demoModel, demoBeam, stdNode, constsOf, lineLength, V3.norm]
  norm_num

end Hyperstatic
