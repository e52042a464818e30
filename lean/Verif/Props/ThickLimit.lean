import Verif.Props.ThickPlate
import Mathlib.Topology.Algebra.Order.Field
import Mathlib.Topology.ContinuousOn

/-
C144: thick plates that become thin.
-/

namespace Hyperstatic
open Matrix Spec Filter Topology

/-! ### Lemmas -/

theorem delta_small {mu : ℝ} (hmu : mu < 1) (x y : Fin 4 → ℝ) (k : Fin 4) :
    Tendsto (fun t => TMQ.delta mu t x y k / t) (𝓝[>] 0) (𝓝 0) := by
  have e : (fun t => TMQ.delta mu t x y k / t) =
      fun t => t / TMQ.d x y k ^ 2 / (5 / 6 * (1 - mu) + 2 * (t / TMQ.d x y k) ^ 2) := by
    funext t
    unfold TMQ.delta
    rcases eq_or_ne t 0 with h | h
    · simp [h]
    · rw [div_pow, div_div, mul_comm _ t, ← div_div]
      congr 1
      field_simp
  rw [e]
  have hc : ContinuousAt (fun t => t / TMQ.d x y k ^ 2 / (5 / 6 * (1 - mu) + 2 * (t / TMQ.d x y k) ^ 2)) 0 := by
    apply ContinuousAt.div
    · fun_prop
    · fun_prop
    · have : 0 < 5 / 6 * (1 - mu) := by linarith
      positivity
  have := hc.tendsto
  simp only [zero_div] at this
  exact this.mono_left nhdsWithin_le_nhds

theorem delta_lim {mu : ℝ} (hmu : mu < 1) (x y : Fin 4 → ℝ) (k : Fin 4) :
    Tendsto (fun t => TMQ.delta mu t x y k) (𝓝[>] 0) (𝓝 0) := by
  have h := (delta_small hmu x y k).mul (tendsto_id.mono_left (nhdsWithin_le_nhds (a := (0 : ℝ)) (s := Set.Ioi 0)))
  rw [zero_mul] at h
  refine h.congr' ?_
  filter_upwards [self_mem_nhdsWithin] with t ht
  exact div_mul_cancel₀ _ (ne_of_gt ht)

/-- the slopes at the middle of the sides of a thin plate -/
noncomputable def midX (x y : Fin 4 → ℝ) (q : Fin 4 × Fin 3 → ℝ) (k : Fin 4) : ℝ :=
  (q (TMQ.st k, 1) + q (TMQ.en k, 1)) / 2 + 3 * TMQ.c x k / 4 / TMQ.d x y k ^ 2 * TMQ.res x y q k
noncomputable def midY (x y : Fin 4 → ℝ) (q : Fin 4 × Fin 3 → ℝ) (k : Fin 4) : ℝ :=
  (q (TMQ.st k, 2) + q (TMQ.en k, 2)) / 2 - 3 * TMQ.b y k / 4 / TMQ.d x y k ^ 2 * TMQ.res x y q k

theorem alpha_lim {mu : ℝ} (hmu : mu < 1) {x y : Fin 4 → ℝ} (h : TurnsLeft x y) (q : Fin 4 × Fin 3 → ℝ) (k : Fin 4) :
    Tendsto (fun t => (TMQ.alpha mu t x y *ᵥ q) k) (𝓝[>] 0) (𝓝 (midX x y q k)) := by
  have e : midX x y q k = (q (TMQ.st k, 1) + q (TMQ.en k, 1)) / 2 + 3 * TMQ.c x k / 4 / TMQ.d x y k ^ 2 * (1 - 2 * 0) * TMQ.res x y q k := by
    unfold midX; ring
  rw [e]
  simp only [TMQ.alpha_mulVec _ _ _ _ _ _ (tmq_d_ne h k)]
  exact ((((delta_lim hmu x y k).const_mul 2).const_sub 1).const_mul _ |>.mul_const _).const_add _

theorem beta_lim {mu : ℝ} (hmu : mu < 1) {x y : Fin 4 → ℝ} (h : TurnsLeft x y) (q : Fin 4 × Fin 3 → ℝ) (k : Fin 4) :
    Tendsto (fun t => (TMQ.beta mu t x y *ᵥ q) k) (𝓝[>] 0) (𝓝 (midY x y q k)) := by
  have e : midY x y q k = (q (TMQ.st k, 2) + q (TMQ.en k, 2)) / 2 - 3 * TMQ.b y k / 4 / TMQ.d x y k ^ 2 * (1 - 2 * 0) * TMQ.res x y q k := by
    unfold midY; ring
  rw [e]
  simp only [TMQ.beta_mulVec _ _ _ _ _ _ (tmq_d_ne h k)]
  exact ((((delta_lim hmu x y k).const_mul 2).const_sub 1).const_mul _ |>.mul_const _).const_sub _

/-- the curvatures of a thin plate -/
noncomputable def slopeX (x y : Fin 4 → ℝ) (q : Fin 4 × Fin 3 → ℝ) (ξ η : ℝ) : ℝ × ℝ :=
  (TMQ.fX ξ η (fun i => q (i, 1)) (midX x y q), TMQ.fE ξ η (fun i => q (i, 1)) (midX x y q))
noncomputable def slopeY (x y : Fin 4 → ℝ) (q : Fin 4 × Fin 3 → ℝ) (ξ η : ℝ) : ℝ × ℝ :=
  (TMQ.fX ξ η (fun i => q (i, 2)) (midY x y q), TMQ.fE ξ η (fun i => q (i, 2)) (midY x y q))
noncomputable def thinB (x y : Fin 4 → ℝ) (ξ η : ℝ) (q : Fin 4 × Fin 3 → ℝ) : Vec 3 :=
  -![TMQ.gradX x y ξ η (slopeX x y q ξ η).1 (slopeX x y q ξ η).2, TMQ.gradY x y ξ η (slopeY x y q ξ η).1 (slopeY x y q ξ η).2,
     TMQ.gradY x y ξ η (slopeX x y q ξ η).1 (slopeX x y q ξ η).2 + TMQ.gradX x y ξ η (slopeY x y q ξ η).1 (slopeY x y q ξ η).2]

theorem fX_lim {f : ℝ → Fin 4 → ℝ} {g p : Fin 4 → ℝ} (hf : ∀ k, Tendsto (fun t => f t k) (𝓝[>] 0) (𝓝 (g k))) (ξ η : ℝ) :
    Tendsto (fun t => TMQ.fX ξ η p (f t)) (𝓝[>] 0) (𝓝 (TMQ.fX ξ η p g)) ∧
      Tendsto (fun t => TMQ.fE ξ η p (f t)) (𝓝[>] 0) (𝓝 (TMQ.fE ξ η p g)) := by
  unfold TMQ.fX TMQ.fE
  exact ⟨(tendsto_finsetSum _ fun k _ => (hf k).const_mul _).const_add _, (tendsto_finsetSum _ fun k _ => (hf k).const_mul _).const_add _⟩

theorem gradX_lim {f g : ℝ → ℝ} {a b : ℝ} (hf : Tendsto f (𝓝[>] 0) (𝓝 a)) (hg : Tendsto g (𝓝[>] 0) (𝓝 b)) (x y : Fin 4 → ℝ) (ξ η : ℝ) :
    Tendsto (fun t => TMQ.gradX x y ξ η (f t) (g t)) (𝓝[>] 0) (𝓝 (TMQ.gradX x y ξ η a b)) ∧
      Tendsto (fun t => TMQ.gradY x y ξ η (f t) (g t)) (𝓝[>] 0) (𝓝 (TMQ.gradY x y ξ η a b)) :=
  ⟨((hf.const_mul _).sub (hg.const_mul _)).div_const _, ((hg.const_mul _).sub (hf.const_mul _)).div_const _⟩

theorem Bb_lim {mu : ℝ} (hmu : mu < 1) {x y : Fin 4 → ℝ} (h : TurnsLeft x y) (q : Fin 4 × Fin 3 → ℝ) (ξ η : ℝ) (r : Fin 3) :
    Tendsto (fun t => (TMQ.Bb mu t x y ξ η *ᵥ q) r) (𝓝[>] 0) (𝓝 (thinB x y ξ η q r)) := by
  simp only [TMQ.Bb_mulVec]
  obtain ⟨a1, a2⟩ := fX_lim (p := fun i => q (i, 1)) (alpha_lim hmu h q) ξ η
  obtain ⟨b1, b2⟩ := fX_lim (p := fun i => q (i, 2)) (beta_lim hmu h q) ξ η
  obtain ⟨a3, a4⟩ := gradX_lim a1 a2 x y ξ η
  obtain ⟨b3, b4⟩ := gradX_lim b1 b2 x y ξ η
  fin_cases r
  · exact a3.neg
  · exact b4.neg
  · exact (a4.add b3).neg

theorem Bs_lim {mu : ℝ} (hmu : mu < 1) (x y : Fin 4 → ℝ) (q : Fin 4 × Fin 3 → ℝ) (ξ η : ℝ) (r : Fin 2) :
    Tendsto (fun t => (TMQ.Bs mu t x y ξ η *ᵥ q) r / t) (𝓝[>] 0) (𝓝 0) := by
  have key : ∀ X : Matrix (Fin 4) (Fin 4) ℝ, Tendsto (fun t => (∑ i, TMQ.N0 i ξ η * ∑ k, X i k * (TMQ.delta mu t x y k * TMQ.res x y q k)) / t)
      (𝓝[>] 0) (𝓝 0) := by
    intro X
    have e : ∀ t, (∑ i, TMQ.N0 i ξ η * ∑ k, X i k * (TMQ.delta mu t x y k * TMQ.res x y q k)) / t =
        ∑ i, TMQ.N0 i ξ η * ∑ k, X i k * (TMQ.delta mu t x y k / t * TMQ.res x y q k) := by
      intro t
      rw [Finset.sum_div]
      refine Finset.sum_congr rfl fun i _ => ?_
      rw [mul_div_assoc, Finset.sum_div]
      congr 1
      refine Finset.sum_congr rfl fun k _ => ?_
      ring
    simp only [e]
    have := tendsto_finsetSum Finset.univ fun i _ => (tendsto_finsetSum Finset.univ fun k _ =>
      ((delta_small hmu x y k).mul_const (TMQ.res x y q k)).const_mul (X i k)).const_mul (TMQ.N0 i ξ η)
    simpa using this
  simp only [TMQ.Bs_mulVec]
  fin_cases r
  · exact key _
  · exact key _

theorem bendingD_cube (E mu t : ℝ) : bendingD E mu t = t ^ 3 • bendingD E mu 1 := by
  unfold bendingD
  rw [smul_smul]
  congr 1
  ring

theorem dot_lim {n : ℕ} {f g : ℝ → Vec n} {a b : Vec n} (hf : ∀ r, Tendsto (fun t => f t r) (𝓝[>] 0) (𝓝 (a r)))
    (hg : ∀ r, Tendsto (fun t => g t r) (𝓝[>] 0) (𝓝 (b r))) (D : Matrix (Fin n) (Fin n) ℝ) :
    Tendsto (fun t => f t ⬝ᵥ (D *ᵥ g t)) (𝓝[>] 0) (𝓝 (a ⬝ᵥ (D *ᵥ b))) := by
  unfold dotProduct mulVec dotProduct
  exact tendsto_finsetSum _ fun i _ => (hf i).mul (tendsto_finsetSum _ fun j _ => (hg j).const_mul _)

/-- the energy of a thin plate, relative to the cube of the thickness -/
noncomputable def thinWork (q : Scheme) (E mu : ℝ) (x y : Fin 4 → ℝ) (v u : Fin 4 × Fin 3 → ℝ) : ℝ :=
  (q.map fun p => p.1 * (DKQ.det x y p.2.1 p.2.2 * (thinB x y p.2.1 p.2.2 v ⬝ᵥ (bendingD E mu 1 *ᵥ thinB x y p.2.1 p.2.2 u)))).sum

theorem shear_lim (q : Scheme) (E : ℝ) {mu : ℝ} (hmu : mu < 1) (x y : Fin 4 → ℝ) (v u : Fin 4 × Fin 3 → ℝ) :
    Tendsto (fun t => v ⬝ᵥ (q.integrate (TMQ.BCBs E mu t x y) *ᵥ u) / t ^ 3) (𝓝[>] 0) (𝓝 0) := by
  have h := tendsto_list_sum (x := 𝓝[>] (0 : ℝ)) (f := fun (p : ℝ × ℝ × ℝ) t => p.1 * (DKQ.det x y p.2.1 p.2.2 * ((E / 2 / (1 + mu) / (6 / 5)) *
      ((fun r => (TMQ.Bs mu t x y p.2.1 p.2.2 *ᵥ v) r / t) ⬝ᵥ ((1 : Matrix (Fin 2) (Fin 2) ℝ) *ᵥ fun r => (TMQ.Bs mu t x y p.2.1 p.2.2 *ᵥ u) r / t)))))
    (a := fun p => p.1 * (DKQ.det x y p.2.1 p.2.2 * ((E / 2 / (1 + mu) / (6 / 5)) * ((0 : Vec 2) ⬝ᵥ ((1 : Matrix (Fin 2) (Fin 2) ℝ) *ᵥ 0))))) q
    fun p _ => ((dot_lim (Bs_lim hmu x y v _ _) (Bs_lim hmu x y u _ _) 1).const_mul _ |>.const_mul _).const_mul _
  have e0 : (q.map fun p => p.1 * (DKQ.det x y p.2.1 p.2.2 * ((E / 2 / (1 + mu) / (6 / 5)) *
      ((0 : Vec 2) ⬝ᵥ ((1 : Matrix (Fin 2) (Fin 2) ℝ) *ᵥ 0))))).sum = 0 := sum_zero fun p _ => by simp
  rw [e0] at h
  refine h.congr' ?_
  filter_upwards [self_mem_nhdsWithin] with t ht
  have ht : t ≠ 0 := ne_of_gt ht
  rw [integrate_work, div_eq_mul_inv (List.sum _), ← List.sum_map_mul_right]
  congr 1
  apply List.map_congr_left
  intro p _
  rw [TMQ.tmq_work_s, one_mulVec]
  simp only [dotProduct, Fin.sum_univ_two]
  field_simp

theorem bending_lim (q : Scheme) (E : ℝ) {mu : ℝ} (hmu : mu < 1) {x y : Fin 4 → ℝ} (hx : TurnsLeft x y) (v u : Fin 4 × Fin 3 → ℝ) :
    Tendsto (fun t => v ⬝ᵥ (q.integrate (TMQ.BDBb E mu t x y) *ᵥ u) / t ^ 3) (𝓝[>] 0) (𝓝 (thinWork q E mu x y v u)) := by
  have h := tendsto_list_sum (x := 𝓝[>] (0 : ℝ)) (f := fun (p : ℝ × ℝ × ℝ) t => p.1 * (DKQ.det x y p.2.1 p.2.2 *
      ((TMQ.Bb mu t x y p.2.1 p.2.2 *ᵥ v) ⬝ᵥ (bendingD E mu 1 *ᵥ (TMQ.Bb mu t x y p.2.1 p.2.2 *ᵥ u)))))
    (a := fun p => p.1 * (DKQ.det x y p.2.1 p.2.2 * (thinB x y p.2.1 p.2.2 v ⬝ᵥ (bendingD E mu 1 *ᵥ thinB x y p.2.1 p.2.2 u)))) q
    fun p _ => ((dot_lim (Bb_lim hmu hx v _ _) (Bb_lim hmu hx u _ _) _).const_mul _).const_mul _
  refine h.congr' ?_
  filter_upwards [self_mem_nhdsWithin] with t ht
  have ht : t ≠ 0 := ne_of_gt ht
  rw [integrate_work, div_eq_mul_inv, ← List.sum_map_mul_right]
  congr 1
  apply List.map_congr_left
  intro p _
  rw [TMQ.tmq_work_b, bendingD_cube E mu t, smul_mulVec, dotProduct_smul, smul_eq_mul]
  field_simp

/-- thick plate of any thickness, over the cube of the thickness -/
theorem tmq_lim (q : Scheme) (s : ShellSection) (hmu : s.material.mu < 1) {x y : Fin 4 → ℝ} (hx : TurnsLeft x y) (v u : Fin 4 × Fin 3 → ℝ) :
    Tendsto (fun t => v ⬝ᵥ (tmqK q { s with t := t } x y *ᵥ u) / t ^ 3) (𝓝[>] 0)
      (𝓝 (thinWork q s.material.E s.material.mu x y v u)) := by
  have h := (shear_lim q s.material.E hmu x y v u).add (bending_lim q s.material.E hmu hx v u)
  rw [zero_add] at h
  refine h.congr fun t => ?_
  rw [tmqK, add_mulVec, dotProduct_add, add_div]

/-! ### The thin plate element -/

/-- side `k` of the thin element, as a side of the thick one -/
def sideOf : Fin 4 → Fin 4 := ![3, 0, 1, 2]

theorem side_mid {x y : Fin 4 → ℝ} (hd : ∀ k, TMQ.d x y k ^ 2 ≠ 0) (u : Fin 4 × Fin 3 → ℝ) (k : Fin 4) :
    (3 / 2 * DKQ.a x y k * (turned u (k, 0) - turned u (DKQ.nx k, 0)) + DKQ.b x y k * (turned u (k, 1) + turned u (DKQ.nx k, 1)) -
      DKQ.c x y k * (turned u (k, 2) + turned u (DKQ.nx k, 2)) = -midX x y u (sideOf k)) ∧
    (3 / 2 * DKQ.d x y k * (turned u (k, 0) - turned u (DKQ.nx k, 0)) + DKQ.e x y k * (turned u (k, 1) + turned u (DKQ.nx k, 1)) -
      DKQ.b x y k * (turned u (k, 2) + turned u (DKQ.nx k, 2)) = -midY x y u (sideOf k)) := by
  have e1 : DKQ.side x k = -TMQ.c x (sideOf k) := by fin_cases k <;> simp [DKQ.side, DKQ.nx, TMQ.c, sideOf]
  have e2 : DKQ.side y k = TMQ.b y (sideOf k) := by fin_cases k <;> simp [DKQ.side, DKQ.nx, TMQ.b, sideOf]
  have e3 : TMQ.st (sideOf k) = k := by fin_cases k <;> rfl
  have e4 : TMQ.en (sideOf k) = DKQ.nx k := by fin_cases k <;> rfl
  have h := TMQ.d_sq x y (sideOf k)
  have h' := hd (sideOf k)
  simp only [DKQ.a, DKQ.b, DKQ.c, DKQ.d, DKQ.e, DKQ.l2, midX, midY, TMQ.res, e1, e2, e3, e4, turned]
  generalize TMQ.d x y (sideOf k) ^ 2 = D at *
  rw [h] at h' ⊢
  have h'' : (-TMQ.c x (sideOf k)) ^ 2 + TMQ.b y (sideOf k) ^ 2 ≠ 0 := by rwa [neg_sq]
  simp only [cons_val_zero, cons_val_one, cons_val]
  rw [neg_sq]
  constructor
  · field_simp
    ring
  · field_simp
    ring

theorem dkq_Hx {x y : Fin 4 → ℝ} (hd : ∀ k, TMQ.d x y k ^ 2 ≠ 0) (u : Fin 4 × Fin 3 → ℝ) (ξ η : ℝ) :
    ∑ k, dXi (DKQ.Hx x y k) ξ η * turned u k = -(slopeX x y u ξ η).1 ∧ ∑ k, dEta (DKQ.Hx x y k) ξ η * turned u k = -(slopeX x y u ξ η).2 := by
  obtain ⟨n0, n1, n2, n3⟩ := N_dXi ξ η
  obtain ⟨m0, m1, m2, m3⟩ := M_dXi ξ η
  obtain ⟨n0', n1', n2', n3'⟩ := N_dEta ξ η
  obtain ⟨m0', m1', m2', m3'⟩ := M_dEta ξ η
  have s0 := (side_mid hd u 0).1
  have s1 := (side_mid hd u 1).1
  have s2 := (side_mid hd u 2).1
  have s3 := (side_mid hd u 3).1
  have q0 : DKQ.nx 0 = 1 := rfl
  have q1 : DKQ.nx 1 = 2 := rfl
  have q2 : DKQ.nx 2 = 3 := rfl
  have q3 : DKQ.nx 3 = 0 := rfl
  have r0 : DKQ.pv 0 = 3 := rfl
  have r1 : DKQ.pv 1 = 0 := rfl
  have r2 : DKQ.pv 2 = 1 := rfl
  have r3 : DKQ.pv 3 = 2 := rfl
  have o0 : sideOf 0 = 3 := rfl
  have o1 : sideOf 1 = 0 := rfl
  have o2 : sideOf 2 = 1 := rfl
  have o3 : sideOf 3 = 2 := rfl
  simp only [q0, q1, q2, q3, o0, o1, o2, o3] at s0 s1 s2 s3
  have t2 : ∀ i, turned u (i, 2) = -u (i, 1) := fun i => rfl
  simp only [t2] at s0 s1 s2 s3
  have hs : slopeX x y u ξ η = (TMQ.fX ξ η (fun i => u (i, 1)) (midX x y u), TMQ.fE ξ η (fun i => u (i, 1)) (midX x y u)) := rfl
  rw [hs, TMQ.fX_eq, TMQ.fE_eq]
  constructor
  · rw [Fintype.sum_prod_type]
    simp only [Fin.sum_univ_four, Fin.sum_univ_three, (Hx_dXi x y _ ξ η).1, (Hx_dXi x y _ ξ η).2.1, (Hx_dXi x y _ ξ η).2.2,
      r0, r1, r2, r3, n0, n1, n2, n3, m0, m1, m2, m3, DKQ.J1, t2]
    linear_combination (-ξ * (1 - η)) * s0 + (1 / 2 * (1 - η ^ 2)) * s1 + (-ξ * (1 + η)) * s2 + (-1 / 2 * (1 - η ^ 2)) * s3
  · rw [Fintype.sum_prod_type]
    simp only [Fin.sum_univ_four, Fin.sum_univ_three, (Hx_dEta x y _ ξ η).1, (Hx_dEta x y _ ξ η).2.1, (Hx_dEta x y _ ξ η).2.2,
      r0, r1, r2, r3, n0', n1', n2', n3', m0', m1', m2', m3', DKQ.J2, t2]
    linear_combination (-1 / 2 * (1 - ξ ^ 2)) * s0 + (-η * (1 + ξ)) * s1 + (1 / 2 * (1 - ξ ^ 2)) * s2 + (-η * (1 - ξ)) * s3

theorem dkq_Hy {x y : Fin 4 → ℝ} (hd : ∀ k, TMQ.d x y k ^ 2 ≠ 0) (u : Fin 4 × Fin 3 → ℝ) (ξ η : ℝ) :
    ∑ k, dXi (DKQ.Hy x y k) ξ η * turned u k = -(slopeY x y u ξ η).1 ∧ ∑ k, dEta (DKQ.Hy x y k) ξ η * turned u k = -(slopeY x y u ξ η).2 := by
  obtain ⟨n0, n1, n2, n3⟩ := N_dXi ξ η
  obtain ⟨m0, m1, m2, m3⟩ := M_dXi ξ η
  obtain ⟨n0', n1', n2', n3'⟩ := N_dEta ξ η
  obtain ⟨m0', m1', m2', m3'⟩ := M_dEta ξ η
  have s0 := (side_mid hd u 0).2
  have s1 := (side_mid hd u 1).2
  have s2 := (side_mid hd u 2).2
  have s3 := (side_mid hd u 3).2
  have q0 : DKQ.nx 0 = 1 := rfl
  have q1 : DKQ.nx 1 = 2 := rfl
  have q2 : DKQ.nx 2 = 3 := rfl
  have q3 : DKQ.nx 3 = 0 := rfl
  have r0 : DKQ.pv 0 = 3 := rfl
  have r1 : DKQ.pv 1 = 0 := rfl
  have r2 : DKQ.pv 2 = 1 := rfl
  have r3 : DKQ.pv 3 = 2 := rfl
  have o0 : sideOf 0 = 3 := rfl
  have o1 : sideOf 1 = 0 := rfl
  have o2 : sideOf 2 = 1 := rfl
  have o3 : sideOf 3 = 2 := rfl
  simp only [q0, q1, q2, q3, o0, o1, o2, o3] at s0 s1 s2 s3
  have t2 : ∀ i, turned u (i, 1) = u (i, 2) := fun i => rfl
  simp only [t2] at s0 s1 s2 s3
  have hs : slopeY x y u ξ η = (TMQ.fX ξ η (fun i => u (i, 2)) (midY x y u), TMQ.fE ξ η (fun i => u (i, 2)) (midY x y u)) := rfl
  rw [hs, TMQ.fX_eq, TMQ.fE_eq]
  constructor
  · rw [Fintype.sum_prod_type]
    simp only [Fin.sum_univ_four, Fin.sum_univ_three, (Hy_dXi x y _ ξ η).1, (Hy_dXi x y _ ξ η).2.1, (Hy_dXi x y _ ξ η).2.2,
      r0, r1, r2, r3, n0, n1, n2, n3, m0, m1, m2, m3, DKQ.J1, t2]
    linear_combination (-ξ * (1 - η)) * s0 + (1 / 2 * (1 - η ^ 2)) * s1 + (-ξ * (1 + η)) * s2 + (-1 / 2 * (1 - η ^ 2)) * s3
  · rw [Fintype.sum_prod_type]
    simp only [Fin.sum_univ_four, Fin.sum_univ_three, (Hy_dEta x y _ ξ η).1, (Hy_dEta x y _ ξ η).2.1, (Hy_dEta x y _ ξ η).2.2,
      r0, r1, r2, r3, n0', n1', n2', n3', m0', m1', m2', m3', DKQ.J2, t2]
    linear_combination (-1 / 2 * (1 - ξ ^ 2)) * s0 + (-η * (1 + ξ)) * s1 + (1 / 2 * (1 - ξ ^ 2)) * s2 + (-η * (1 - ξ)) * s3

theorem dkq_thin {x y : Fin 4 → ℝ} (hd : ∀ k, TMQ.d x y k ^ 2 ≠ 0) (u : Fin 4 × Fin 3 → ℝ) (ξ η : ℝ)
    (hJ : DKQ.J1 x η = DKQ.J2 y ξ) : DKQ.B x y ξ η *ᵥ turned u = thinB x y ξ η u := by
  obtain ⟨h1, h2⟩ := dkq_Hx hd u ξ η
  obtain ⟨h3, h4⟩ := dkq_Hy hd u ξ η
  ext r
  unfold mulVec dotProduct
  fin_cases r
  · simp only [DKQ.B, Fin.zero_eta, add_mul, Finset.sum_add_distrib, mul_assoc, ← Finset.mul_sum, h1, h2, dkq_detJ, hJ]
    simp only [thinB, TMQ.gradX, Pi.neg_apply, cons_val_zero]
    ring
  · simp only [DKQ.B, Fin.mk_one, add_mul, Finset.sum_add_distrib, mul_assoc, ← Finset.mul_sum, h3, h4, dkq_detJ]
    simp only [thinB, TMQ.gradY, Pi.neg_apply, cons_val_one, cons_val_zero, hJ]
    ring
  · simp only [DKQ.B, Fin.reduceFinMk, add_mul, Finset.sum_add_distrib, mul_assoc, ← Finset.mul_sum, h1, h2, h3, h4, dkq_detJ]
    simp only [thinB, TMQ.gradX, TMQ.gradY, Pi.neg_apply, cons_val, hJ]
    ring

/-! ### C144 -/

/-- A thick plate does not lock: whatever the motion of its nodes, its energy over the cube of the thickness has a finite limit. -/
theorem C144_no_locking (q : Scheme) (s : ShellSection) (hs : AdmissibleShell s) (x y : Fin 4 → ℝ) (hx : TurnsLeft x y)
    (v u : Fin 4 × Fin 3 → ℝ) :
    ∃ L, Tendsto (fun t => v ⬝ᵥ (tmqK q { s with t := t } x y *ᵥ u) / t ^ 3) (𝓝[>] 0) (𝓝 L) :=
  ⟨_, tmq_lim q s hs.mu_lt hx v u⟩

/-- The part of the energy due to shear vanishes against the cube of the thickness. -/
theorem C144_shear_vanishes (q : Scheme) (s : ShellSection) (hs : AdmissibleShell s) (x y : Fin 4 → ℝ) (v u : Fin 4 × Fin 3 → ℝ) :
    Tendsto (fun t => v ⬝ᵥ (q.integrate (TMQ.BCBs s.material.E s.material.mu t x y) *ᵥ u) / t ^ 3) (𝓝[>] 0) (𝓝 0) :=
  shear_lim q s.material.E hs.mu_lt x y v u

/-- The property: thin, the thick plate works as the thin plate of the DKQ element. -/
def C144_claim (q : Scheme) : Prop :=
  ∀ (s : ShellSection) (x y : Fin 4 → ℝ) (v u : Fin 4 × Fin 3 → ℝ), AdmissibleShell s → TurnsLeft x y →
    Tendsto (fun t => (v ⬝ᵥ (tmqK q { s with t := t } x y *ᵥ u) -
      turned v ⬝ᵥ (q.integrate (DKQ.BDB s.material.E s.material.mu t x y) *ᵥ turned u)) / t ^ 3) (𝓝[>] 0) (𝓝 0)

theorem dkq_cube (q : Scheme) (E mu t : ℝ) (x y : Fin 4 → ℝ) (v u : Fin 4 × Fin 3 → ℝ) :
    v ⬝ᵥ (q.integrate (DKQ.BDB E mu t x y) *ᵥ u) = (q.map fun p => p.1 * (DKQ.det x y p.2.1 p.2.2 * ((DKQ.B x y p.2.1 p.2.2 *ᵥ v) ⬝ᵥ
      (bendingD E mu 1 *ᵥ (DKQ.B x y p.2.1 p.2.2 *ᵥ u))))).sum * t ^ 3 := by
  rw [integrate_work, ← List.sum_map_mul_right]
  congr 1
  apply List.map_congr_left
  intro p _
  rw [dkq_work, bendingD_cube E mu t, smul_mulVec, dotProduct_smul, smul_eq_mul]
  ring

/-- the difference has a limit, the difference of the limits -/
theorem thin_gap (q : Scheme) (s : ShellSection) (hmu : s.material.mu < 1) {x y : Fin 4 → ℝ} (hx : TurnsLeft x y) (v u : Fin 4 × Fin 3 → ℝ) :
    Tendsto (fun t => (v ⬝ᵥ (tmqK q { s with t := t } x y *ᵥ u) -
      turned v ⬝ᵥ (q.integrate (DKQ.BDB s.material.E s.material.mu t x y) *ᵥ turned u)) / t ^ 3) (𝓝[>] 0)
      (𝓝 (thinWork q s.material.E s.material.mu x y v u - (q.map fun p => p.1 * (DKQ.det x y p.2.1 p.2.2 *
        ((DKQ.B x y p.2.1 p.2.2 *ᵥ turned v) ⬝ᵥ (bendingD s.material.E s.material.mu 1 *ᵥ (DKQ.B x y p.2.1 p.2.2 *ᵥ turned u))))).sum)) := by
  refine ((tmq_lim q s hmu hx v u).sub_const _).congr' ?_
  filter_upwards [self_mem_nhdsWithin] with t ht
  have ht : t ^ 3 ≠ 0 := pow_ne_zero _ (ne_of_gt ht)
  rw [dkq_cube, sub_div, mul_div_assoc, div_self ht, mul_one]

/-- True of squares, and more generally of parallelograms in which the first component of the first side is the second component of the
other one: where the thin element is right (C67). -/
theorem C144_partial (q : Scheme) (s : ShellSection) (x y : Fin 4 → ℝ) (v u : Fin 4 × Fin 3 → ℝ) (hs : AdmissibleShell s)
    (hx : TurnsLeft x y) (hpx : x 2 - x 1 = x 3 - x 0) (hpy : y 2 - y 1 = y 3 - y 0) (hsq : x 1 - x 0 = y 3 - y 0) :
    Tendsto (fun t => (v ⬝ᵥ (tmqK q { s with t := t } x y *ᵥ u) -
      turned v ⬝ᵥ (q.integrate (DKQ.BDB s.material.E s.material.mu t x y) *ᵥ turned u)) / t ^ 3) (𝓝[>] 0) (𝓝 0) := by
  have h := thin_gap q s hs.mu_lt hx v u
  have hJ : ∀ ξ η, DKQ.J1 x η = DKQ.J2 y ξ := by
    intro ξ η
    unfold DKQ.J1 DKQ.J2
    linear_combination (1 / 4 + η / 4) * hpx - (1 / 4 + ξ / 4) * hpy + hsq / 2
  simp only [dkq_thin (tmq_d_ne hx) _ _ _ (hJ _ _)] at h
  rwa [thinWork, sub_self] at h

/-- a rectangle -/
def rectX : Fin 4 → ℝ := ![0, 2, 2, 0]
def rectY : Fin 4 → ℝ := ![0, 0, 1, 1]
theorem rect_vals : rectX 0 = 0 ∧ rectX 1 = 2 ∧ rectX 2 = 2 ∧ rectX 3 = 0 ∧ rectY 0 = 0 ∧ rectY 1 = 0 ∧ rectY 2 = 1 ∧ rectY 3 = 1 :=
  ⟨rfl, rfl, rfl, rfl, rfl, rfl, rfl, rfl⟩
theorem rect_turns : TurnsLeft rectX rectY := by
  obtain ⟨x0, x1, x2, x3, y0, y1, y2, y3⟩ := rect_vals
  apply turns_of <;> norm_num [x0, x1, x2, x3, y0, y1, y2, y3]

/-- The property fails, whatever (proper, linear) quadrature is used: a rectangle that is not a square. -/
theorem C144_false (q : Scheme) (hq : ProperRule q) (hlin : LinearRule q) : ¬ C144_claim q := by
  intro h
  obtain ⟨x0, x1, x2, x3, y0, y1, y2, y3⟩ := rect_vals
  set u := sampled (bowl 0 ![1, 0, 0]) rectX rectY with hu
  have h1 := h unitSection _ _ u u unitSection_ok rect_turns
  have hs : SidesOk rectX rectY (turned u) := by
    intro k
    obtain ⟨a0, a1, a2⟩ := sampled_bowl 0 ![1, 0, 0] rectX rectY k
    obtain ⟨b0, b1, b2⟩ := sampled_bowl 0 ![1, 0, 0] rectX rectY (DKQ.nx k)
    simp only [turned, cons_val_zero, cons_val_one, cons_val, hu, a0, a1, a2, b0, b1, b2]
    fin_cases k <;> simp [DKQ.nx, DKQ.side, x0, x1, x2, x3, y0, y1, y2, y3] <;> norm_num
  have hl : ∀ k, DKQ.l2 rectX rectY k ≠ 0 := by
    intro k
    fin_cases k <;> simp [DKQ.l2, DKQ.side, DKQ.nx, x0, x1, x2, x3, y0, y1, y2, y3]
  have hdet : ∀ ξ η, DKQ.det rectX rectY ξ η = 1 / 2 := by
    intro ξ η
    norm_num [DKQ.J1, DKQ.J2, DKQ.det, x0, x1, x2, x3, y0, y1, y2, y3]
  have hB : ∀ ξ η, DKQ.B rectX rectY ξ η *ᵥ turned u = ![-2, 0, 0] := by
    intro ξ η
    rw [dkqB_sides hs hl, dkq_detJ, hdet]
    have e1 : ∀ i, turned u (i, 1) = 0 := by
      intro i
      have := (sampled_bowl 0 ![1, 0, 0] rectX rectY i).2.2
      simp only [turned, cons_val_one, cons_val_zero, hu, cons_val, this]
      simp
    have e2 : ∀ i, turned u (i, 2) = -rectX i := by
      intro i
      have := (sampled_bowl 0 ![1, 0, 0] rectX rectY i).2.1
      simp only [turned, cons_val, hu, this]
      simp
    simp only [e1, e2]
    ext r
    fin_cases r <;> norm_num [DKQ.J1, DKQ.J2, sXi, sEta, x0, x1, x2, x3, y0, y1, y2, y3]
  have key : ∀ t : ℝ, 0 < t → (u ⬝ᵥ (tmqK q { unitSection with t := t } rectX rectY *ᵥ u) -
      turned u ⬝ᵥ (q.integrate (DKQ.BDB unitSection.material.E unitSection.material.mu t rectX rectY) *ᵥ turned u)) / t ^ 3 =
      -(1 / 2) * unitSection.material.E / (1 - unitSection.material.mu ^ 2) := by
    intro t ht
    rw [dkq_cube, hu, C143_patch q hq hlin _ _ _ rect_turns, ← hu]
    simp only [hB, hdet]
    rw [List.sum_map_mul_right, hlin.1, bendingD_stress]
    simp [plateWork, planeStress, flatArea, x0, x1, x2, x3, y0, y1, y2, y3]
    field_simp
    ring
  have h2 := tendsto_nhds_unique (h1.congr' (by filter_upwards [self_mem_nhdsWithin] with t ht using key t ht)) tendsto_const_nhds
  norm_num [unitSection] at h2

/-- a square, a trapezium and a rule -/
example : ∃ (q : Scheme) (x y x' y' : Fin 4 → ℝ), ProperRule q ∧ LinearRule q ∧ AdmissibleShell unitSection ∧ TurnsLeft x y ∧
    x 2 - x 1 = x 3 - x 0 ∧ y 2 - y 1 = y 3 - y 0 ∧ x 1 - x 0 = y 3 - y 0 ∧ TurnsLeft x' y' := by
  refine ⟨[(1, 1 / 2, 1 / 2), (1, -1 / 2, 1 / 2), (1, 1 / 2, -1 / 2), (1, -1 / 2, -1 / 2)], ![0, 2, 2, 0], ![0, 0, 2, 2], ![0, 3, 2, 0],
    ![0, 0, 2, 1], ?_, ?_, unitSection_ok, ?_, ?_, ?_, ?_, ?_⟩
  · intro p hp
    simp at hp
    rcases hp with rfl | rfl | rfl | rfl <;> norm_num [abs_le]
  · norm_num [LinearRule]
  · apply turns_of <;> simp
  · simp
  · simp
  · simp
  · apply turns_of <;> simp <;> norm_num

end Hyperstatic
