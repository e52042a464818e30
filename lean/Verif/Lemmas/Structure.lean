import Verif.Lemmas.World

/-
Consequences of `assembleK_bil` for single entries, energies and rigid motions.
-/

namespace Hyperstatic
open Matrix Spec

theorem FreshInv.pos {a : Api} (h : FreshInv a) {i : ℕ} {n : String} (hi : a.model.nodes.keys[i]? = some n) :
    hidOf a.model n = i := by
  have hn : n ∈ a.model.nodes.keys := List.mem_of_getElem? hi
  have h1 := (h.hidOf_lt hn).2.2
  have hnd : a.model.nodes.keys.Nodup := h.nodes_wf
  obtain ⟨p1, q1⟩ := List.getElem?_eq_some_iff.mp h1
  obtain ⟨p2, q2⟩ := List.getElem?_eq_some_iff.mp hi
  exact (List.Nodup.getElem_inj_iff hnd).mp (q1.trans q2.symm)

/-- a unit vector is a unit displacement -/
theorem FreshInv.gat_unit {a : Api} (h : FreshInv a) {i : ℕ} {n : String} (hi : a.model.nodes.keys[i]? = some n) (r : Fin 6) :
    ∀ k ∈ a.model.nodes.keys, gat a.model (fun j => if j = 6 * i + r.val then 1 else 0) k = unitAt n r k := by
  intro k hk
  funext s
  unfold gat unitAt
  have hn : n ∈ a.model.nodes.keys := List.mem_of_getElem? hi
  have e := h.pos hi
  by_cases hkn : k = n
  · subst hkn
    rw [e]
    by_cases hs : s = r
    · subst hs; simp [mul_comm]
    · have : ¬ (i * 6 + s.val = 6 * i + r.val) := by
        intro h'; exact hs (Fin.ext (by omega))
      simp [this, hs]
  · have : ¬ (hidOf a.model k * 6 + s.val = 6 * i + r.val) := by
      intro h'
      apply hkn
      apply h.hidOf_inj hk hn
      rw [e]; have := s.isLt; have := r.isLt; omega
    simp [this, hkn]

theorem FreshInv.entry {a : Api} (env : Env) (h : FreshInv a) {x : Assembly} (hx : x.model = a.model) {K : Coo}
    (hK : x.assembleK env = .ok K) {i j : ℕ} {n m : String} (hi : a.model.nodes.keys[i]? = some n)
    (hj : a.model.nodes.keys[j]? = some m) (r s : Fin 6) :
    K.get (6 * i + r.val) (6 * j + s.val) = internalWork env a.model (unitAt n r) (unitAt m s) := by
  rw [Coo.get_eq_bil, assembleK_bil env h.toApiInv hx hK]
  exact internalWork_congr env h.toApiInv (h.gat_unit hi r) (h.gat_unit hj s)

/-- the end components as a transformed vector -/
theorem beamEnds_eq (b : BeamElm) (u : State) : beamEnds b u = b.T *ᵥ fun k => u (beamSlot b k).1 (beamSlot b k).2 := by
  unfold BeamElm.T beamEnds
  rw [lineT_mulVec]
  unfold localEnds
  simp [part3, Spec.trans, Spec.rot, beamSlot]

theorem beamInternal_eq (b : BeamElm) (hl : b.length ≠ 0) (v u : State) : beamInternal b v u =
    (fun k => v (beamSlot b k).1 (beamSlot b k).2) ⬝ᵥ
      ((b.Tᵀ * beamK (constsOf b.prop) b.length * b.T) *ᵥ fun k => u (beamSlot b k).1 (beamSlot b k).2) := by
  unfold beamInternal
  rw [← beamK_bilin _ hl, beamEnds_eq, beamEnds_eq, quadratic_transform]

theorem indicator_bilin {n : ℕ} (A : Matrix (Fin n) (Fin n) ℝ) (P Q : Fin n → Prop) [DecidablePred P] [DecidablePred Q] :
    (fun k => if P k then (1 : ℝ) else 0) ⬝ᵥ (A *ᵥ fun k => if Q k then (1 : ℝ) else 0) =
      ∑ p, ∑ q, if P p ∧ Q q then A p q else 0 := by
  simp only [dotProduct, mulVec, Finset.mul_sum]
  apply Finset.sum_congr rfl
  intro p _
  apply Finset.sum_congr rfl
  intro q _
  by_cases h1 : P p <;> by_cases h2 : Q q <;> simp [h1, h2]

theorem beam_unit (b : BeamElm) (hl : b.length ≠ 0) (n m : String) (r s : Fin 6) :
    beamInternal b (unitAt n r) (unitAt m s) =
      ∑ p, ∑ q, if beamSlot b p = (n, r) ∧ beamSlot b q = (m, s) then
        (b.Tᵀ * beamK (constsOf b.prop) b.length * b.T) p q else 0 := by
  rw [beamInternal_eq b hl]
  unfold unitAt
  rw [indicator_bilin]
  simp only [Prod.ext_iff]

theorem shell_unit (env : Env) (se : ShellElm) (n m : String) (r s : Fin 6) :
    shellInternal env se (unitAt n r) (unitAt m s) =
      if se.nodes.length = 4 then
        ∑ p, ∑ q, if shellSlot se p = some (n, r) ∧ shellSlot se q = some (m, s) then env.quadK se p q else 0
      else ∑ p, ∑ q, if shellSlot se p = some (n, r) ∧ shellSlot se q = some (m, s) then env.triaK se p q else 0 := by
  have key : ∀ (N : ℕ) (n : String) (r : Fin 6), (shellEnds se (unitAt n r) : Vec N) = fun k => if shellSlot se k = some (n, r) then (1 : ℝ) else 0 := by
    intro N n r
    funext k
    unfold shellEnds shellSlot unitAt
    cases se.nodes[k.val / 6]? with
    | none => simp
    | some p => simp [Prod.ext_iff]
  unfold shellInternal
  rw [key, key, key, key, indicator_bilin, indicator_bilin]

theorem list_sum_const_zero {α : Type _} (l : List α) (f : α → ℝ) (h : ∀ a ∈ l, f a = 0) : (l.map f).sum = 0 := by
  induction l with
  | nil => rfl
  | cons a l ih =>
    rw [List.map_cons, List.sum_cons, h a (by simp), ih (fun b hb => h b (by simp [hb])), add_zero]

/-- beams with the same content in another order -/
theorem dict_perm {α : Type} {d d' : Dict α} (h : d.WF) (h' : d'.WF) (he : ∀ k, d.get? k = d'.get? k) : List.Perm d d' := by
  have hn : ∀ {e : Dict α}, e.WF → List.Nodup e := fun {e} hw => List.Nodup.of_map Prod.fst hw
  rw [List.perm_ext_iff_of_nodup (hn h) (hn h')]
  rintro ⟨k, v⟩
  rw [Dict.mem_iff_get? h, Dict.mem_iff_get? h', he]

theorem internalWork_perm (env : Env) {m m' : FeModel} (hb : List.Perm m.beams m'.beams) (hs : List.Perm m.shells m'.shells)
    (v u : State) : internalWork env m v u = internalWork env m' v u := by
  unfold internalWork
  rw [(hb.map _).sum_eq, (hs.map _).sum_eq]

/-! rigid motions -/

/-- a rigidly displaced beam -/
theorem beam_rigid {b : BeamElm} (hc : lineCsys b.startLoc b.endLoc = .ok b.csys) {loc : String → Option V3}
    (hs : loc b.startName = some b.startLoc) (he : loc b.endName = some b.endLoc) (t ω : V3) (v : State) :
    beamInternal b v (rigidState loc t ω) = 0 := by
  obtain ⟨hr, hl, hx⟩ := lineCsys_ok hc
  have hl' : b.length ≠ 0 := hl.ne'
  have hlx : b.endLoc = b.startLoc + b.length • b.csys.x := by
    have h1 := congrArg V3.x hx
    have h2 := congrArg V3.y hx
    have h3 := congrArg V3.z hx
    simp only [V3.sub_def, V3.smul_def] at h1 h2 h3
    unfold BeamElm.length
    simp only [V3.add_def, V3.smul_def]
    ext <;> simp only <;> linarith
  have hd : ∀ a : V3, a.dot (t + V3.cross ω b.endLoc) = a.dot (t + V3.cross ω b.startLoc) +
      b.length * V3.dot ω (V3.cross b.csys.x a) := by
    intro a
    rw [hlx]
    simp only [V3.dot, V3.cross, V3.add_def, V3.smul_def]
    ring
  have hxx : V3.dot ω (V3.cross b.csys.x b.csys.x) = 0 := by simp only [V3.dot, V3.cross]; ring
  have hxy : V3.dot ω (V3.cross b.csys.x b.csys.y) = b.csys.z.dot ω := by
    rw [hr.hand]; simp only [V3.dot]; ring
  have hxz : V3.dot ω (V3.cross b.csys.x b.csys.z) = - b.csys.y.dot ω := by
    rw [← RightHanded.cross_zx hr]; simp only [V3.dot, V3.cross]; ring
  have h0 : rigidState loc t ω b.startName = ![(t + V3.cross ω b.startLoc).x, (t + V3.cross ω b.startLoc).y,
      (t + V3.cross ω b.startLoc).z, ω.x, ω.y, ω.z] := by unfold rigidState; rw [hs]
  have h1 : rigidState loc t ω b.endName = ![(t + V3.cross ω b.endLoc).x, (t + V3.cross ω b.endLoc).y,
      (t + V3.cross ω b.endLoc).z, ω.x, ω.y, ω.z] := by unfold rigidState; rw [he]
  have ht : ∀ p : V3, Spec.trans ![p.x, p.y, p.z, ω.x, ω.y, ω.z] = p := fun p => rfl
  have hro : ∀ p : V3, Spec.rot ![p.x, p.y, p.z, ω.x, ω.y, ω.z] = ω := fun p => rfl
  have hends : beamEnds b (rigidState loc t ω) = ![b.csys.x.dot (t + V3.cross ω b.startLoc), b.csys.y.dot (t + V3.cross ω b.startLoc),
      b.csys.z.dot (t + V3.cross ω b.startLoc), b.csys.x.dot ω, b.csys.y.dot ω, b.csys.z.dot ω,
      b.csys.x.dot (t + V3.cross ω b.endLoc), b.csys.y.dot (t + V3.cross ω b.endLoc),
      b.csys.z.dot (t + V3.cross ω b.endLoc), b.csys.x.dot ω, b.csys.y.dot ω, b.csys.z.dot ω] := by
    unfold beamEnds localEnds
    rw [h0, h1, ht, ht, hro, hro]
  have hends' := hends
  rw [hd, hd, hd, hxx, hxy, hxz] at hends'
  unfold beamInternal
  rw [hends']
  unfold beamWork bendWork
  simp only [Matrix.cons_val]
  field_simp
  ring

end Hyperstatic
