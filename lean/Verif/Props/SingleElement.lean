import Verif.Model.SingleElement
import Verif.Spec.SingleElement
import Verif.Props.ThickModes
import Verif.Props.Tolerance

/-
C173: single membrane and plate elements in a level plane.
-/

namespace Hyperstatic
open Matrix Spec

/-! ### Lemmas -/

/-- axes of a level quadrilateral: those of the global system, or turned over about the second axis -/
theorem level_csys (p : Fin 4 → V3) (hz : ∀ i, (p i).z = (p 0).z) {s : ℝ} (hs : s = 1 ∨ s = -1)
    (hk : 0 < s * (((p 1).x - (p 0).x) * ((p 2).y - (p 1).y) - ((p 2).x - (p 1).x) * ((p 1).y - (p 0).y))) :
    ∃ O, quadCsys (p 0) (p 1) (p 2) (p 3) = .ok (some ⟨O, ⟨s, 0, 0⟩, ⟨0, 1, 0⟩, ⟨0, 0, s⟩⟩) := by
  obtain ⟨k, hkdef⟩ : ∃ k, ((p 1).x - (p 0).x) * ((p 2).y - (p 1).y) - ((p 2).x - (p 1).x) * ((p 1).y - (p 0).y) = k := ⟨_, rfl⟩
  rw [hkdef] at hk
  have hss : s * s = 1 := by rcases hs with rfl | rfl <;> norm_num
  have hn : V3.cross (p 0 - p 1) (p 1 - p 2) = ⟨0, 0, k⟩ := by
    ext
    · simp [V3.cross, hz 1, hz 2]
    · simp [V3.cross, hz 1, hz 2]
    · simp [V3.cross, ← hkdef]; ring
  have hk0 : k ≠ 0 := by rintro rfl; simp at hk
  have habs : |k| = s * k := by
    rcases hs with rfl | rfl
    · rw [one_mul]; exact abs_of_pos (by linarith)
    · rw [abs_of_neg (by linarith)]; ring
  have hnorm : (⟨0, 0, k⟩ : V3).norm = |k| := by simp [V3.norm, Real.sqrt_mul_self_eq_abs]
  have hu : (⟨0, 0, k⟩ : V3).unit = ⟨0, 0, s⟩ := by
    unfold V3.unit
    rw [hnorm, habs]
    have : k / (s * k) = s := by
      rw [div_eq_iff hk.ne']; linear_combination -k * hss
    simp [this]
  have hes : V3.unit ⟨0, 0, s⟩ = ⟨0, 0, s⟩ := V3.unit_of_dot_one (by simp [V3.dot, hss])
  have hey : V3.unit ey = ey := V3.unit_of_dot_one (by simp [V3.dot, ey])
  have hn1 : (⟨0, 0, s⟩ : V3).norm = 1 := by simp [V3.norm, hss]
  have hny : ey.norm = 1 := by simp [V3.norm, ey]
  have hd1 : V3.norm (⟨0, 0, s⟩ - ez) = |s - 1| := by simp [V3.norm, ez, Real.sqrt_mul_self_eq_abs]
  have hd2 : V3.norm (⟨0, 0, s⟩ + ez) = |s + 1| := by simp [V3.norm, ez, Real.sqrt_mul_self_eq_abs]
  have ht : (0 : ℝ) < absTol := by norm_num [absTol]
  have ht1 : absTol ≤ 1 := by norm_num [absTol]
  have hor : |s - 1| < absTol ∨ |s + 1| < absTol := by
    rcases hs with rfl | rfl
    · left; simpa using ht
    · right; simpa using ht
  have hy1 : V3.norm (⟨0, 0, s⟩ - ey) = Real.sqrt 2 := by
    simp only [V3.norm, ey, V3.sub_def]
    congr 1; nlinarith
  have hy2 : V3.norm (⟨0, 0, s⟩ + ey) = Real.sqrt 2 := by
    simp only [V3.norm, ey, V3.add_def]
    congr 1; nlinarith
  have h12 : (1 : ℝ) ≤ Real.sqrt 2 := by rw [Real.one_le_sqrt]; norm_num
  have hc : V3.cross ey ⟨0, 0, s⟩ = ⟨s, 0, 0⟩ := by ext <;> simp [V3.cross, ey]
  have hcu : V3.unit ⟨s, 0, 0⟩ = ⟨s, 0, 0⟩ := V3.unit_of_dot_one (by simp [V3.dot, hss])
  have hv : V3.cross ⟨0, 0, s⟩ ⟨s, 0, 0⟩ = ⟨0, 1, 0⟩ := by ext <;> simp [V3.cross, hss]
  have hcr : ∀ O : V3, V3.cross (O + ⟨s, 0, 0⟩ - O) (O + ⟨0, 1, 0⟩ - O) = ⟨0, 0, s⟩ := by
    intro O; ext <;> simp [V3.cross]
  have hsub : ∀ O : V3, O + ⟨s, 0, 0⟩ - O = ⟨s, 0, 0⟩ := by intro O; ext <;> simp
  have hma : (⟨0, 0, s⟩ : V3).maxAbs = 1 := by
    rcases hs with rfl | rfl <;> simp [V3.maxAbs]
  refine ⟨⟨((p 0).x + (p 1).x + (p 2).x + (p 3).x) / 4, ((p 0).y + (p 1).y + (p 2).y + (p 3).y) / 4,
    ((p 0).z + (p 1).z + (p 2).z + (p 3).z) / 4⟩, ?_⟩
  · unfold quadCsys
    simp only
    rw [hn, if_neg (by rw [hnorm]; exact (abs_pos.mpr hk0).ne'), hu, hd1, hd2, if_pos hor]
    unfold Csys.createByNormal
    rw [if_neg (by rw [hn1, hny]; norm_num)]
    simp only
    rw [hes, hey, hy1, hy2, if_neg (fun h' => h'.elim (not_lt.mpr (ht1.trans h12)) (not_lt.mpr (ht1.trans h12))), hc, hcu, hv]
    unfold Csys.mk?
    simp only
    rw [hcr, hma, if_neg (not_lt.mpr ht1), hsub, hes, hcu, hv]

theorem nodeT_mulVec (O : V3) (s : ℝ) (u : Fin 4 × Fin 3 → ℝ) (i : Fin 4) :
    (nodeT ⟨O, ⟨s, 0, 0⟩, ⟨0, 1, 0⟩, ⟨0, 0, s⟩⟩ *ᵥ u) (i, 0) = s * u (i, 0) ∧
    (nodeT ⟨O, ⟨s, 0, 0⟩, ⟨0, 1, 0⟩, ⟨0, 0, s⟩⟩ *ᵥ u) (i, 1) = u (i, 1) ∧
    (nodeT ⟨O, ⟨s, 0, 0⟩, ⟨0, 1, 0⟩, ⟨0, 0, s⟩⟩ *ᵥ u) (i, 2) = s * u (i, 2) := by
  refine ⟨?_, ?_, ?_⟩ <;>
  simp [nodeT, mulVec, dotProduct, Fintype.sum_prod_type, Fin.sum_univ_three, Csys.T]

theorem work_T {ι : Type} [Fintype ι] (T K : Matrix ι ι ℝ) (v u : ι → ℝ) : v ⬝ᵥ ((Tᵀ * K * T) *ᵥ u) = (T *ᵥ v) ⬝ᵥ (K *ᵥ (T *ᵥ u)) := by
  rw [← mulVec_mulVec, ← mulVec_mulVec, dotProduct_mulVec, vecMul_transpose]

theorem sampled_over {s : ℝ} (hss : s * s = 1) (O : V3) (a k : Vec 3) (x y : Fin 4 → ℝ) :
    nodeT ⟨O, ⟨s, 0, 0⟩, ⟨0, 1, 0⟩, ⟨0, 0, s⟩⟩ *ᵥ sampled (bowl a k) x y =
      sampled (bowl ![s * a 0, a 1, s * a 2] ![s * k 0, s * k 1, k 2]) (fun i => s * x i) y := by
  funext ⟨i, j⟩
  obtain ⟨h0, h1, h2⟩ := nodeT_mulVec O s (sampled (bowl a k) x y) i
  obtain ⟨g0, g1, g2⟩ := sampled_bowl a k x y i
  obtain ⟨l0, l1, l2⟩ := sampled_bowl ![s * a 0, a 1, s * a 2] ![s * k 0, s * k 1, k 2] (fun i => s * x i) y i
  simp only [cons_val_zero, cons_val_one, cons_val] at l0 l1 l2
  fin_cases j
  · refine h0.trans (Eq.trans ?_ l0.symm)
    rw [g0]
    linear_combination (-(s * k 0 / 2 * x i ^ 2)) * hss
  · refine h1.trans (Eq.trans ?_ l1.symm)
    rw [g1]
    linear_combination (-(k 0 * x i)) * hss
  · refine h2.trans (Eq.trans ?_ l2.symm)
    rw [g2]
    ring

theorem plateWork_over {s : ℝ} (hss : s * s = 1) (sec : ShellSection) (A : ℝ) (k' k : Vec 3) :
    plateWork sec A ![s * k' 0, s * k' 1, k' 2] ![s * k 0, s * k 1, k 2] = plateWork sec A k' k := by
  simp only [plateWork, planeStress, dotProduct, Fin.sum_univ_three, Pi.smul_apply, smul_eq_mul, cons_val_zero, cons_val_one, cons_val]
  generalize sec.material.E / (1 - sec.material.mu ^ 2) = D
  linear_combination (A * (sec.t ^ 3 / 12) * (k' 0 * (D * (k 0 + sec.material.mu * k 1)) + k' 1 * (D * (sec.material.mu * k 0 + k 1)))) * hss

theorem membraneWork_over {s : ℝ} (hss : s * s = 1) (sec : ShellSection) (A : ℝ) (k' k : Vec 3) :
    membraneWork sec A ![k' 0, k' 1, s * k' 2] ![k 0, k 1, s * k 2] = membraneWork sec A k' k := by
  simp only [membraneWork, planeStress, dotProduct, Fin.sum_univ_three, Pi.smul_apply, smul_eq_mul, cons_val_zero, cons_val_one, cons_val]
  generalize sec.material.E / (1 - sec.material.mu ^ 2) = D
  linear_combination (A * sec.t * (k' 2 * (D * ((1 - sec.material.mu) / 2 * k 2)))) * hss

theorem flatArea_pos {x y : Fin 4 → ℝ} (h : TurnsLeft x y) : 0 < flatArea x y := by
  have h0 := h 0
  have h2 := h 2
  simp only [Fin.isValue, zero_add, Fin.reduceAdd] at h0 h2
  unfold flatArea
  linarith

/-- both ways round: the sign for which the local axes see the corners turn to the left -/
theorem sides_of {x y : Fin 4 → ℝ} (h : TurnsLeft x y ∨ TurnsRight x y) :
    ∃ s : ℝ, (s = 1 ∨ s = -1) ∧ TurnsLeft (fun i => s * x i) y := by
  rcases h with h | h
  · exact ⟨1, Or.inl rfl, by simpa using h⟩
  · refine ⟨-1, Or.inr rfl, fun i => ?_⟩
    have := h i
    simp only
    linarith

theorem area_of {x y : Fin 4 → ℝ} {s : ℝ} (hs : s = 1 ∨ s = -1) (h : TurnsLeft (fun i => s * x i) y) :
    flatArea (fun i => s * x i) y = |flatArea x y| := by
  have hp := flatArea_pos h
  have e : flatArea (fun i => s * x i) y = s * flatArea x y := by unfold flatArea; ring
  rw [e] at hp ⊢
  rcases hs with rfl | rfl
  · rw [one_mul] at hp ⊢; exact (abs_of_pos hp).symm
  · rw [abs_of_neg (by linarith)]; ring

theorem gqB_pulled (x y : Fin 4 → ℝ) (m : Fin 4 × Fin 3 → ℝ) (e : Vec 3) (c d : ℝ) (h0 : ∀ i, m (i, 0) = e 0 * x i + e 2 / 2 * y i + c)
    (h1 : ∀ i, m (i, 1) = e 2 / 2 * x i + e 1 * y i + d) (h2 : ∀ i, m (i, 2) = 0) (ξ η : ℝ) (hd : (GQ12.J x y ξ η).det ≠ 0) :
    GQ12.B x y ξ η *ᵥ m = e := by
  rw [gqB_flat x y ξ η m h2, gXi_lin x y (fun i => m (i, 0)) (e 0) (e 2 / 2) c h0,
    gEta_lin x y (fun i => m (i, 0)) (e 0) (e 2 / 2) c h0,
    gXi_lin x y (fun i => m (i, 1)) (e 2 / 2) (e 1) d h1,
    gEta_lin x y (fun i => m (i, 1)) (e 2 / 2) (e 1) d h1]
  have hJ := gqJ_det x y ξ η
  generalize (GQ12.J x y ξ η).det = D at *
  ext i
  fin_cases i
  · show _ / D = e 0
    exact (div_eq_iff hd).mpr (by rw [hJ]; ring)
  · show _ / D = e 1
    exact (div_eq_iff hd).mpr (by rw [hJ]; ring)
  · show _ / D + _ / D = e 2
    exact (add_div _ _ D).symm.trans ((div_eq_iff hd).mpr (by rw [hJ]; ring))

/-! ### The property -/

/-- **C173, plate.** A single plate element made with four corners of a level convex quadrilateral, whichever way they are numbered, has a
symmetric stiffness in global axes that never releases energy, and deflections with constant curvatures have exactly the energy of the
plate over the area of the quadrilateral; so it does not resist rigid motions. -/
theorem C173_plate (q : Scheme) (hq : ProperRule q) (hlin : LinearRule q) (sec : ShellSection) (hs : AdmissibleShell sec) (p : Fin 4 → V3)
    (hz : ∀ i, (p i).z = (p 0).z) (h : TurnsLeft (fun i => (p i).x) (fun i => (p i).y) ∨ TurnsRight (fun i => (p i).x) (fun i => (p i).y)) :
    ∃ K, tmqAlone q sec p = .ok (some K) ∧ Kᵀ = K ∧ (∀ u, 0 ≤ u ⬝ᵥ (K *ᵥ u)) ∧
      (∀ a, K *ᵥ sampled (tilt a) (fun i => (p i).x) (fun i => (p i).y) = 0) ∧
      ∀ a a' k k', sampled (bowl a' k') (fun i => (p i).x) (fun i => (p i).y) ⬝ᵥ
          (K *ᵥ sampled (bowl a k) (fun i => (p i).x) (fun i => (p i).y)) =
        plateWork sec |flatArea (fun i => (p i).x) (fun i => (p i).y)| k' k := by
  obtain ⟨s, hs1, ht⟩ := sides_of h
  have hss : s * s = 1 := by rcases hs1 with rfl | rfl <;> norm_num
  obtain ⟨O, hO⟩ := level_csys p hz hs1 (by
    have := ht 0
    simp only [Fin.isValue, zero_add] at this
    linarith)
  have ex : (fun i => V3.dot ⟨s, 0, 0⟩ (p i)) = fun i => s * (p i).x := by funext i; simp [V3.dot]
  have ey' : (fun i => V3.dot ⟨0, 1, 0⟩ (p i)) = fun i => (p i).y := by funext i; simp [V3.dot]
  refine ⟨_, by unfold tmqAlone; rw [hO]; rfl, ?_⟩
  simp only [ex, ey']
  refine ⟨?_, ?_, ?_, ?_⟩
  · rw [transpose_mul, transpose_mul, transpose_transpose, C143_symmetric, Matrix.mul_assoc]
  · intro u
    rw [work_T]
    exact C143_energy q hq sec hs _ _ ht _
  · intro a
    rw [← mulVec_mulVec, ← mulVec_mulVec, tilt_bowl, sampled_over hss]
    have e0 : (![s * (0 : Vec 3) 0, s * (0 : Vec 3) 1, (0 : Vec 3) 2] : Vec 3) = 0 := by ext i; fin_cases i <;> simp
    rw [e0, ← tilt_bowl, C143_rigid q hq sec _ _ ht, mulVec_zero]
  · intro a a' k k'
    rw [work_T, sampled_over hss, sampled_over hss, C143_patch q hq hlin sec _ _ ht, plateWork_over hss, area_of hs1 ht]

/-- **C173, modes.** With a rule that has four points like those of Gauss the rigid motions are the only ones that the single plate
element of positive stiffness and thickness does not resist. -/
theorem C173_modes (q : Scheme) (hq : ProperRule q) (g : ℝ) (hg : 0 < g) (h4 : FourPoints q g) (sec : ShellSection)
    (hs : AdmissibleShell sec) (hE : 0 < sec.material.E) (ht : 0 < sec.t) (p : Fin 4 → V3) (hz : ∀ i, (p i).z = (p 0).z)
    (h : TurnsLeft (fun i => (p i).x) (fun i => (p i).y) ∨ TurnsRight (fun i => (p i).x) (fun i => (p i).y)) :
    ∃ K, tmqAlone q sec p = .ok (some K) ∧
      ∀ u, K *ᵥ u = 0 ↔ ∃ a, u = sampled (tilt a) (fun i => (p i).x) (fun i => (p i).y) := by
  obtain ⟨s, hs1, hturn⟩ := sides_of h
  have hss : s * s = 1 := by rcases hs1 with rfl | rfl <;> norm_num
  obtain ⟨O, hO⟩ := level_csys p hz hs1 (by
    have := hturn 0
    simp only [Fin.isValue, zero_add] at this
    linarith)
  have ex : (fun i => V3.dot ⟨s, 0, 0⟩ (p i)) = fun i => s * (p i).x := by funext i; simp [V3.dot]
  have ey' : (fun i => V3.dot ⟨0, 1, 0⟩ (p i)) = fun i => (p i).y := by funext i; simp [V3.dot]
  have e0 : (![s * (0 : Vec 3) 0, s * (0 : Vec 3) 1, (0 : Vec 3) 2] : Vec 3) = 0 := by ext i; fin_cases i <;> simp
  refine ⟨_, by unfold tmqAlone; rw [hO]; rfl, ?_⟩
  simp only [ex, ey']
  set T := nodeT ⟨O, ⟨s, 0, 0⟩, ⟨0, 1, 0⟩, ⟨0, 0, s⟩⟩ with hT
  have hTT : ∀ v, T *ᵥ (T *ᵥ v) = v := by
    intro v
    funext ⟨i, j⟩
    obtain ⟨a0, a1, a2⟩ := nodeT_mulVec O s (T *ᵥ v) i
    obtain ⟨b0, b1, b2⟩ := nodeT_mulVec O s v i
    fin_cases j
    · exact a0.trans (by rw [b0, ← mul_assoc, hss, one_mul]; rfl)
    · exact a1.trans (by rw [b1]; rfl)
    · exact a2.trans (by rw [b2, ← mul_assoc, hss, one_mul]; rfl)
  intro u
  constructor
  · intro h0
    have e := work_T T (tmqK q sec (fun i => s * (p i).x) fun i => (p i).y) u u
    rw [h0, dotProduct_zero] at e
    obtain ⟨a, ha⟩ := (C143_modes q hq g hg h4 sec hs hE ht _ _ hturn _).mp e.symm
    refine ⟨![s * a 0, a 1, s * a 2], ?_⟩
    have e1 := sampled_over hss O ![s * a 0, a 1, s * a 2] 0 (fun i => (p i).x) (fun i => (p i).y)
    have e2 : (![s * (![s * a 0, a 1, s * a 2] : Vec 3) 0, (![s * a 0, a 1, s * a 2] : Vec 3) 1,
        s * (![s * a 0, a 1, s * a 2] : Vec 3) 2] : Vec 3) = a := by
      ext i
      fin_cases i <;> simp [← mul_assoc, hss]
    rw [e0, e2, ← tilt_bowl, ← tilt_bowl, ← ha] at e1
    rw [← hTT u, ← e1, hTT]
  · rintro ⟨a, rfl⟩
    rw [← mulVec_mulVec, ← mulVec_mulVec, tilt_bowl, sampled_over hss]
    rw [e0, ← tilt_bowl, C143_rigid q hq sec _ _ hturn, mulVec_zero]

/-- **C173, membrane.** The same of a single membrane element: symmetric, never releasing energy, and exact for constant strains. -/
theorem C173_membrane (q : Scheme) (hq : ProperRule q) (hlin : LinearRule q) (sec : ShellSection) (hs : AdmissibleShell sec)
    (p : Fin 4 → V3) (hz : ∀ i, (p i).z = (p 0).z)
    (h : TurnsLeft (fun i => (p i).x) (fun i => (p i).y) ∨ TurnsRight (fun i => (p i).x) (fun i => (p i).y)) :
    ∃ K, gq12Alone q sec p = .ok (some K) ∧ Kᵀ = K ∧ (∀ u, 0 ≤ u ⬝ᵥ (K *ᵥ u)) ∧
      ∀ b b' e e', pulled b' e' (fun i => (p i).x) (fun i => (p i).y) ⬝ᵥ (K *ᵥ pulled b e (fun i => (p i).x) (fun i => (p i).y)) =
        membraneWork sec |flatArea (fun i => (p i).x) (fun i => (p i).y)| e' e := by
  obtain ⟨s, hs1, ht⟩ := sides_of h
  have hss : s * s = 1 := by rcases hs1 with rfl | rfl <;> norm_num
  obtain ⟨O, hO⟩ := level_csys p hz hs1 (by
    have := ht 0
    simp only [Fin.isValue, zero_add] at this
    linarith)
  set cs : Csys := ⟨O, ⟨s, 0, 0⟩, ⟨0, 1, 0⟩, ⟨0, 0, s⟩⟩ with hcs
  have ex : ∀ i, planeX cs p i = s * (p i).x - s * O.x := by intro i; simp [planeX, hcs, V3.dot]; ring
  have ey' : ∀ i, planeY cs p i = (p i).y - O.y := by intro i; simp [planeY, hcs, V3.dot]
  have ht' : TurnsLeft (planeX cs p) (planeY cs p) := by
    intro i
    have := ht i
    simp only at this
    simp only [ex, ey']
    linarith
  have hdet := fun {ξ η : ℝ} (h1 : |ξ| ≤ 1) (h2 : |η| ≤ 1) => (det_pos (corner_of_turns ht') h1 h2).1
  have harea : flatArea (planeX cs p) (planeY cs p) = |flatArea (fun i => (p i).x) (fun i => (p i).y)| := by
    rw [← area_of hs1 ht]
    simp only [flatArea, ex, ey']
    ring
  refine ⟨_, by unfold gq12Alone; rw [hO]; rfl, ?_, ?_, ?_⟩
  · apply symm_of_work
    intro v u
    rw [work_T, work_T, integrate_work, integrate_work]
    congr 1
    apply List.map_congr_left
    intro w _
    rw [gq_work, gq_work, membraneD_work, membraneD_work, isoD_symm]
  · intro u
    rw [work_T, integrate_work]
    apply List.sum_nonneg
    intro e he
    obtain ⟨w, hw, rfl⟩ := List.mem_map.mp he
    rw [gq_work]
    exact mul_nonneg (hq w hw).1 (mul_nonneg (mul_nonneg hs.t (hdet (hq w hw).2.1 (hq w hw).2.2).le)
      (membraneD_nonneg hs.E hs.mu_gt hs.mu_lt _))
  · intro b b' e e'
    have st : ∀ (b : Vec 2) (e : Vec 3), ∀ w ∈ q, GQ12.B (planeX cs p) (planeY cs p) w.2.1 w.2.2 *ᵥ
        (nodeT cs *ᵥ pulled b e (fun i => (p i).x) (fun i => (p i).y)) = ![e 0, e 1, s * e 2] := by
      intro b e w hw
      apply gqB_pulled _ _ _ _ (s * b 0 + e 0 * (s * O.x) + s * e 2 / 2 * O.y) (b 1 + s * e 2 / 2 * (s * O.x) + e 1 * O.y)
      · intro i
        rw [(nodeT_mulVec O s _ i).1, ex, ey']
        simp only [pulled, cons_val_zero, cons_val_one, cons_val]
        ring
      · intro i
        rw [(nodeT_mulVec O s _ i).2.1, ex, ey']
        simp only [pulled, cons_val_zero, cons_val_one, cons_val]
        linear_combination (-(e 2 / 2 * (p i).x)) * hss
      · intro i
        rw [(nodeT_mulVec O s _ i).2.2]
        simp [pulled]
      · exact (hdet (hq w hw).2.1 (hq w hw).2.2).ne'
    rw [work_T, integrate_work, ← membraneWork_over hss, ← harea]
    rw [List.map_congr_left (g := fun w => w.1 * (sec.t * (GQ12.J (planeX cs p) (planeY cs p) w.2.1 w.2.2).det *
      (![e' 0, e' 1, s * e' 2] ⬝ᵥ planeStress sec.material.E sec.material.mu ![e 0, e 1, s * e 2])))
      (fun w hw => by rw [gq_work, st b e w hw, st b' e' w hw, membraneD_stress])]
    generalize hW : ![e' 0, e' 1, s * e' 2] ⬝ᵥ planeStress sec.material.E sec.material.mu ![e 0, e 1, s * e 2] = W
    generalize planeX cs p = x at *
    generalize planeY cs p = y at *
    rw [rule_linear hlin _ (sec.t * W / 16 * (corner x y 0 + corner x y 1 + corner x y 2 + corner x y 3))
      (sec.t * W / 16 * (corner x y 0 + corner x y 1 - corner x y 2 - corner x y 3))
      (sec.t * W / 16 * (-corner x y 0 + corner x y 1 + corner x y 2 - corner x y 3))
      (fun w _ => by
        have : corner x y 0 - corner x y 1 + corner x y 2 - corner x y 3 = 0 := by simp [corner]; ring
        rw [gq_det_corner]
        linear_combination (-(sec.t * W / 16) * w.2.1 * w.2.2) * this)]
    rw [membraneWork, hW, flatArea]
    simp [corner]
    ring

/-- a trapezium at height 3 numbered either way; stretching it costs energy -/
example : ∃ (q : Scheme) (p p' : Fin 4 → V3), ProperRule q ∧ LinearRule q ∧ FourPoints q (1 / 2) ∧
    AdmissibleShell unitSection ∧ 0 < unitSection.material.E ∧ 0 < unitSection.t ∧ (∀ i, (p i).z = (p 0).z) ∧
    (∀ i, (p' i).z = (p' 0).z) ∧ TurnsLeft (fun i => (p i).x) (fun i => (p i).y) ∧ TurnsRight (fun i => (p' i).x) (fun i => (p' i).y) ∧
    |flatArea (fun i => (p' i).x) (fun i => (p' i).y)| = 4 ∧ membraneWork unitSection 4 ![1, 0, 0] ![1, 0, 0] ≠ 0 := by
  refine ⟨[(1, 1 / 2, 1 / 2), (1, -1 / 2, 1 / 2), (1, 1 / 2, -1 / 2), (1, -1 / 2, -1 / 2)],
    ![⟨0, 0, 3⟩, ⟨3, 0, 3⟩, ⟨2, 2, 3⟩, ⟨0, 1, 3⟩], ![⟨0, 0, 3⟩, ⟨0, 1, 3⟩, ⟨2, 2, 3⟩, ⟨3, 0, 3⟩], ?_, ?_, ?_, unitSection_ok, ?_, ?_, ?_, ?_, ?_, ?_, ?_, ?_⟩
  · intro p hp
    simp at hp
    rcases hp with rfl | rfl | rfl | rfl <;> norm_num [abs_le]
  · norm_num [LinearRule]
  · rintro a b (rfl | rfl) (rfl | rfl) <;> exact ⟨1, one_pos, by norm_num⟩
  · norm_num [unitSection]
  · norm_num [unitSection]
  · intro i; fin_cases i <;> rfl
  · intro i; fin_cases i <;> rfl
  · apply turns_of <;> simp; norm_num
  · intro i; fin_cases i <;> simp <;> norm_num
  · simp [flatArea]; norm_num
  · simp [membraneWork, planeStress, unitSection]

end Hyperstatic
