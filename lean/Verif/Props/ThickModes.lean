import Verif.Props.ThickPlate

/-
C143: the thick plate element, summed over its quadrature points, has no modes without energy but the rigid ones.
-/

namespace Hyperstatic
open Matrix Spec

/-- a function of the form `A + B ξ + C η + D ξ η` that vanishes at four points vanishes -/
theorem four_points {F : ℝ → ℝ → ℝ} (hF : ∀ ξ η, F ξ η = F 0 0 + (F 1 0 - F 0 0) * ξ + (F 0 1 - F 0 0) * η +
    (F 1 1 - F 1 0 - F 0 1 + F 0 0) * (ξ * η)) {g : ℝ} (hg : g ≠ 0) (h1 : F g g = 0) (h2 : F g (-g) = 0) (h3 : F (-g) g = 0)
    (h4 : F (-g) (-g) = 0) (ξ η : ℝ) : F ξ η = 0 := by
  rw [hF] at h1 h2 h3 h4
  have a : F 0 0 = 0 := by linarith
  have b : F 1 0 - F 0 0 = 0 := by
    have : (F 1 0 - F 0 0) * g = 0 := by linarith
    exact (mul_eq_zero.mp this).resolve_right hg
  have c : F 0 1 - F 0 0 = 0 := by
    have : (F 0 1 - F 0 0) * g = 0 := by linarith
    exact (mul_eq_zero.mp this).resolve_right hg
  have d : F 1 1 - F 1 0 - F 0 1 + F 0 0 = 0 := by
    have : (F 1 1 - F 1 0 - F 0 1 + F 0 0) * (g * g) = 0 := by linarith
    exact (mul_eq_zero.mp this).resolve_right (mul_ne_zero hg hg)
  rw [hF, b, c, d, a]
  ring

/-- what is interpolated from the corners has this form -/
theorem N0_form (c : Fin 4 → ℝ) (ξ η : ℝ) : ∑ i, TMQ.N0 i ξ η * c i = ∑ i, TMQ.N0 i 0 0 * c i +
    (∑ i, TMQ.N0 i 1 0 * c i - ∑ i, TMQ.N0 i 0 0 * c i) * ξ + (∑ i, TMQ.N0 i 0 1 * c i - ∑ i, TMQ.N0 i 0 0 * c i) * η +
    (∑ i, TMQ.N0 i 1 1 * c i - ∑ i, TMQ.N0 i 1 0 * c i - ∑ i, TMQ.N0 i 0 1 * c i + ∑ i, TMQ.N0 i 0 0 * c i) * (ξ * η) := by
  simp only [Fin.sum_univ_four, TMQ.N0]
  ring

/-- the same for a rule with these points -/
theorem four_rule {q : Scheme} {g : ℝ} (hg : 0 < g) (h4 : FourPoints q g) {F : ℝ → ℝ → ℝ}
    (hF : ∀ ξ η, F ξ η = F 0 0 + (F 1 0 - F 0 0) * ξ + (F 0 1 - F 0 0) * η + (F 1 1 - F 1 0 - F 0 1 + F 0 0) * (ξ * η))
    (h : ∀ p ∈ q, 0 < p.1 → F p.2.1 p.2.2 = 0) (ξ η : ℝ) : F ξ η = 0 := by
  have k : ∀ a b, (a = g ∨ a = -g) → (b = g ∨ b = -g) → F a b = 0 := by
    intro a b ha hb
    obtain ⟨w, hw, hm⟩ := h4 a b ha hb
    exact h _ hm hw
  exact four_points hF hg.ne' (k _ _ (.inl rfl) (.inl rfl)) (k _ _ (.inl rfl) (.inr rfl)) (k _ _ (.inr rfl) (.inl rfl))
    (k _ _ (.inr rfl) (.inr rfl)) ξ η

theorem term_zero {q : Scheme} {f : ℝ × ℝ × ℝ → ℝ} (hp : ∀ p ∈ q, 0 ≤ f p) (h : (q.map f).sum = 0) : ∀ p ∈ q, f p = 0 := by
  intro p hm
  refine le_antisymm ?_ (hp p hm)
  rw [← h]
  apply List.single_le_sum
  · intro e he
    obtain ⟨p', hp', rfl⟩ := List.mem_map.mp he
    exact hp p' hp'
  · exact List.mem_map_of_mem hm

/-- C143, modes: with a rule that has four points like those of Gauss, the stiffness of a convex thick plate element of positive stiffness
and thickness leaves exactly the rigid motions without energy: it has no spurious modes. -/
theorem C143_modes (q : Scheme) (hq : ProperRule q) (g : ℝ) (hg : 0 < g) (h4 : FourPoints q g) (s : ShellSection) (hs : AdmissibleShell s)
    (hE : 0 < s.material.E) (ht : 0 < s.t) (x y : Fin 4 → ℝ) (h : TurnsLeft x y) (u : Fin 4 × Fin 3 → ℝ) :
    u ⬝ᵥ (tmqK q s x y *ᵥ u) = 0 ↔ ∃ a : Vec 3, u = sampled (tilt a) x y := by
  have h1 := hs.mu_gt
  have h2 := hs.mu_lt
  have hm : 0 < 1 - s.material.mu ^ 2 := by nlinarith
  have hm' : 0 < 1 + s.material.mu := by linarith
  constructor
  swap
  · rintro ⟨a, rfl⟩
    rw [C143_rigid q hq s x y h a, dotProduct_zero]
  intro h0
  rw [tmq_work] at h0
  have c1 : 0 < s.material.E / 2 / (1 + s.material.mu) * s.t / (6 / 5) := by positivity
  have c2 : 0 < s.material.E * s.t ^ 3 / 12 / (1 - s.material.mu ^ 2) := by positivity
  have p1 : ∀ p ∈ q, 0 ≤ p.1 * (DKQ.det x y p.2.1 p.2.2 * ((s.material.E / 2 / (1 + s.material.mu) * s.t / (6 / 5)) *
      ((TMQ.Bs s.material.mu s.t x y p.2.1 p.2.2 *ᵥ u) ⬝ᵥ (TMQ.Bs s.material.mu s.t x y p.2.1 p.2.2 *ᵥ u)))) := by
    intro p hp
    exact mul_nonneg (hq p hp).1 (mul_nonneg (tmq_det_pos h (hq p hp).2.1 (hq p hp).2.2).le
      (mul_nonneg c1.le (Finset.sum_nonneg fun i _ => mul_self_nonneg _)))
  have p2 : ∀ p ∈ q, 0 ≤ p.1 * (DKQ.det x y p.2.1 p.2.2 * ((TMQ.Bb s.material.mu s.t x y p.2.1 p.2.2 *ᵥ u) ⬝ᵥ
      (bendingD s.material.E s.material.mu s.t *ᵥ (TMQ.Bb s.material.mu s.t x y p.2.1 p.2.2 *ᵥ u)))) := by
    intro p hp
    exact mul_nonneg (hq p hp).1 (mul_nonneg (tmq_det_pos h (hq p hp).2.1 (hq p hp).2.2).le (bendingD_nonneg hs.E hs.t h1 h2 _))
  have s1 := list_sum_nonneg q _ p1
  have s2 := list_sum_nonneg q _ p2
  have z1 := term_zero p1 (by linarith)
  have z2 := term_zero p2 (by linarith)
  have kS : ∀ p ∈ q, 0 < p.1 → TMQ.Bs s.material.mu s.t x y p.2.1 p.2.2 *ᵥ u = 0 := by
    intro p hp hw
    have hd := tmq_det_pos h (hq p hp).2.1 (hq p hp).2.2
    have e := (mul_eq_zero.mp ((mul_eq_zero.mp ((mul_eq_zero.mp (z1 p hp)).resolve_left hw.ne')).resolve_left hd.ne')).resolve_left c1.ne'
    exact dotProduct_self_eq_zero.mp e
  have kB : ∀ p ∈ q, 0 < p.1 → TMQ.Bb s.material.mu s.t x y p.2.1 p.2.2 *ᵥ u = 0 := by
    intro p hp hw
    have hd := tmq_det_pos h (hq p hp).2.1 (hq p hp).2.2
    have e := (mul_eq_zero.mp ((mul_eq_zero.mp (z2 p hp)).resolve_left hw.ne')).resolve_left hd.ne'
    rw [bendingD_work] at e
    exact isoD_eq_zero h1 h2 ((mul_eq_zero.mp e).resolve_left c2.ne')
  have aS : ∀ ξ η, TMQ.Bs s.material.mu s.t x y ξ η *ᵥ u = 0 := by
    intro ξ η
    have k : ∀ r, (TMQ.Bs s.material.mu s.t x y ξ η *ᵥ u) r = 0 := by
      intro r
      refine four_rule hg h4 (F := fun ξ η => (TMQ.Bs s.material.mu s.t x y ξ η *ᵥ u) r) ?_ (fun p hp hw => ?_) ξ η
      · intro ξ η
        simp only [TMQ.Bs_mulVec]
        fin_cases r
        · exact N0_form (fun i => ∑ k, TMQ.Xs x y i k * (TMQ.delta s.material.mu s.t x y k * TMQ.res x y u k)) ξ η
        · exact N0_form (fun i => ∑ k, TMQ.Ys x y i k * (TMQ.delta s.material.mu s.t x y k * TMQ.res x y u k)) ξ η
      · simp only [kS p hp hw, Pi.zero_apply]
    exact funext k
  have hr := no_shear h h2 ht.ne' (aS (-1) (-1)) (aS 1 1)
  have kN := fun p (hp : p ∈ q) (hw : 0 < p.1) => no_curvature h hr (hq p hp).2.1 (hq p hp).2.2 (kB p hp hw)
  have n1 := four_rule hg h4 (F := fun ξ η => DKQ.J2 y ξ * DKQ.J1 (fun i => u (i, 1)) η - DKQ.J1 y η * DKQ.J2 (fun i => u (i, 1)) ξ)
    (by intro ξ η; simp only [DKQ.J1, DKQ.J2]; ring) (fun p hp hw => (kN p hp hw).1)
  have n2 := four_rule hg h4 (F := fun ξ η => DKQ.J1 x η * DKQ.J2 (fun i => u (i, 2)) ξ - DKQ.J2 x ξ * DKQ.J1 (fun i => u (i, 2)) η)
    (by intro ξ η; simp only [DKQ.J1, DKQ.J2]; ring) (fun p hp hw => (kN p hp hw).2.1)
  have n3 := four_rule hg h4 (F := fun ξ η => (DKQ.J1 x η * DKQ.J2 (fun i => u (i, 1)) ξ - DKQ.J2 x ξ * DKQ.J1 (fun i => u (i, 1)) η) +
      (DKQ.J2 y ξ * DKQ.J1 (fun i => u (i, 2)) η - DKQ.J1 y η * DKQ.J2 (fun i => u (i, 2)) ξ))
    (by intro ξ η; simp only [DKQ.J1, DKQ.J2]; ring) (fun p hp hw => (kN p hp hw).2.2)
  refine no_strain (mu := s.material.mu) (t := s.t) h h2 ht.ne' (fun ξ η _ _ => aS ξ η) (fun ξ η _ _ => ?_)
  rw [TMQ.Bb_sides (tmq_d_ne h) hr]
  have m1 := n1 ξ η
  have m2 := n2 ξ η
  have m3 := n3 ξ η
  simp only [TMQ.gradX, TMQ.gradY, ← add_div, m1, m2, m3, zero_div]
  ext i
  fin_cases i <;> simp

/-- the rule of Gauss with two points in each direction, over a trapezium -/
example : ∃ (q : Scheme) (g : ℝ) (x y : Fin 4 → ℝ), ProperRule q ∧ 0 < g ∧ g ^ 2 = 1 / 3 ∧ FourPoints q g ∧ AdmissibleShell unitSection ∧
    0 < unitSection.material.E ∧ 0 < unitSection.t ∧ TurnsLeft x y := by
  have hg : (0 : ℝ) < Real.sqrt (1 / 3) := by positivity
  have hsq : Real.sqrt (1 / 3) ^ 2 = 1 / 3 := Real.sq_sqrt (by norm_num)
  have h1 : |Real.sqrt (1 / 3)| ≤ 1 := by rw [abs_of_pos hg]; nlinarith
  refine ⟨[(1, √(1 / 3), √(1 / 3)), (1, √(1 / 3), -√(1 / 3)), (1, -√(1 / 3), √(1 / 3)), (1, -√(1 / 3), -√(1 / 3))], √(1 / 3),
    ![0, 3, 2, 0], ![0, 0, 2, 1], ?_, hg, hsq, ?_, unitSection_ok, ?_, ?_, ?_⟩
  · intro p hp
    simp only [List.mem_cons, List.not_mem_nil, or_false] at hp
    rcases hp with rfl | rfl | rfl | rfl <;> exact ⟨zero_le_one, by simpa only [abs_neg] using h1, by simpa only [abs_neg] using h1⟩
  · rintro a b (rfl | rfl) (rfl | rfl) <;> exact ⟨1, one_pos, by simp⟩
  · norm_num [unitSection]
  · norm_num [unitSection]
  · apply turns_of <;> simp; norm_num

end Hyperstatic
