import Verif.Props.ThickPlate

/-
C145: shells of thick plates.
-/

namespace Hyperstatic
open Matrix Spec

/-! ### Lemmas -/

theorem tmgq_work (q : Scheme) (s : ShellSection) (cs : Csys) (p : Fin 4 → V3) (v u : Fin 4 × Fin 6 → ℝ) :
    v ⬝ᵥ (tmgqStiffness q s cs p *ᵥ u) =
      (if s.eleType = "membrane" ∨ s.eleType = "shell" then pick quadIdx (localOf cs v) ⬝ᵥ
        (q.integrate (GQ12.BDB s.material.E s.material.mu s.t (planeX cs p) (planeY cs p)) *ᵥ pick quadIdx (localOf cs u)) else 0) +
      (if s.eleType = "plate" ∨ s.eleType = "shell" then pick plateIdx (localOf cs v) ⬝ᵥ
        (tmqK q s (planeX cs p) (planeY cs p) *ᵥ pick plateIdx (localOf cs u)) else 0) := by
  unfold tmgqStiffness tmgqK
  rw [congr_work, add_mulVec, dotProduct_add, spread_work quadSlot_of, spread_work plateSlot_of]
  congr 1
  · split <;> simp [localOf]
  · split <;> simp [localOf]

theorem rigid_local (cs : Csys) (p : Fin 4 → V3) (t ω : V3) (i : Fin 4) :
    localOf cs (rigidAt p t ω) (i, 0) = cs.x.dot (t + ω.cross (p i)) ∧ localOf cs (rigidAt p t ω) (i, 1) = cs.y.dot (t + ω.cross (p i)) ∧
    localOf cs (rigidAt p t ω) (i, 2) = cs.z.dot (t + ω.cross (p i)) ∧ localOf cs (rigidAt p t ω) (i, 3) = cs.x.dot ω ∧
    localOf cs (rigidAt p t ω) (i, 4) = cs.y.dot ω ∧ localOf cs (rigidAt p t ω) (i, 5) = cs.z.dot ω := by
  obtain ⟨h0, h1, h2, h3, h4, h5⟩ := localOf_nodal cs (rigidAt p t ω) i
  exact ⟨h0, h1, h2, h3, h4, h5⟩

/-- the deflection of a rotation about an axis in the plane -/
theorem rigid_plate {cs : Csys} (hr : RightHanded cs) (p : Fin 4 → V3) (t ω : V3) (i : Fin 4) :
    pick plateIdx (localOf cs (rigidAt p t ω)) (i, 0) =
      cs.z.dot t + cs.x.dot ω * cs.y.dot cs.O - cs.y.dot ω * cs.x.dot cs.O + cs.x.dot ω * planeY cs p i - cs.y.dot ω * planeX cs p i ∧
    pick plateIdx (localOf cs (rigidAt p t ω)) (i, 1) = cs.x.dot ω ∧ pick plateIdx (localOf cs (rigidAt p t ω)) (i, 2) = cs.y.dot ω := by
  obtain ⟨h0, h1, h2, h3, h4, h5⟩ := rigid_local cs p t ω i
  refine ⟨h2.trans ?_, h3, h4⟩
  rw [V3.dot_add, hr.z_cross, planeX, planeY, V3.dot_sub, V3.dot_sub]
  ring

theorem shear_parallelogram {x y : Fin 4 → ℝ} (h : TurnsLeft x y) (hx : x 2 - x 1 = x 3 - x 0) (hy : y 2 - y 1 = y 3 - y 0)
    (g : Fin 4 → ℝ) (g2 : g 2 = -g 0) (g1 : g 1 = -g 3) (ξ η : ℝ) :
    let D := (x 1 - x 0) * (y 2 - y 1) - (x 2 - x 1) * (y 1 - y 0)
    ∑ i, TMQ.N0 i ξ η * ∑ k, TMQ.Xs x y i k * g k = ((y 2 - y 1) * g 3 - (y 1 - y 0) * g 0) / D ∧
    ∑ i, TMQ.N0 i ξ η * ∑ k, TMQ.Ys x y i k * g k = ((x 1 - x 0) * g 0 - (x 2 - x 1) * g 3) / D := by
  intro D
  have hD : D ≠ 0 := (h 0).ne'
  have ex : x 3 = x 0 + x 2 - x 1 := by linarith
  have ey : y 3 = y 0 + y 2 - y 1 := by linarith
  have d0 : TMQ.b y 2 * TMQ.c x 3 - TMQ.b y 3 * TMQ.c x 2 = D := by simp [TMQ.b, TMQ.c, D, ex, ey]; ring
  have d1 : TMQ.b y 3 * TMQ.c x 0 - TMQ.b y 0 * TMQ.c x 3 = D := by simp [TMQ.b, TMQ.c, D, ex, ey]; ring
  have d2 : TMQ.b y 0 * TMQ.c x 1 - TMQ.b y 1 * TMQ.c x 0 = D := by simp [TMQ.b, TMQ.c, D, ex, ey]; ring
  have d3 : TMQ.b y 1 * TMQ.c x 2 - TMQ.b y 2 * TMQ.c x 1 = D := by simp [TMQ.b, TMQ.c, D, ex, ey]; ring
  have b0 : TMQ.b y 0 = y 1 - y 2 := rfl
  have b1 : TMQ.b y 1 = y 1 - y 0 := by simp [TMQ.b, ey]; ring
  have b2 : TMQ.b y 2 = y 2 - y 1 := by simp [TMQ.b, ey]; ring
  have b3 : TMQ.b y 3 = y 0 - y 1 := rfl
  have c0 : TMQ.c x 0 = x 2 - x 1 := rfl
  have c1 : TMQ.c x 1 = x 0 - x 1 := by simp [TMQ.c, ex]; ring
  have c2 : TMQ.c x 2 = x 1 - x 2 := by simp [TMQ.c, ex]; ring
  have c3 : TMQ.c x 3 = x 1 - x 0 := rfl
  clear_value D
  constructor
  · simp only [TMQ.Xs, d0, d1, d2, d3, Fin.sum_univ_four, TMQ.N0]
    simp only [b0, b1, b2, b3, g1, g2]
    simp
    field_simp
    ring
  · simp only [TMQ.Ys, d0, d1, d2, d3, Fin.sum_univ_four, TMQ.N0]
    simp only [c0, c1, c2, c3, g1, g2]
    simp
    field_simp
    ring

theorem rigid_membrane {cs : Csys} (hr : RightHanded cs) (p : Fin 4 → V3) (hp : ∀ i j, cs.z.dot (p i - p j) = 0) (t ω : V3)
    (hω : cs.z.dot ω = 0) (ξ η : ℝ) : GQ12.B (planeX cs p) (planeY cs p) ξ η *ᵥ pick quadIdx (localOf cs (rigidAt p t ω)) = 0 := by
  have hz : ∀ i, cs.z.dot (p i) = cs.z.dot (p 0) := fun i => by have := hp i 0; rw [V3.dot_sub] at this; linarith
  apply B_zero_quad
  · intro i
    show localOf cs _ (i, 0) = localOf cs _ (0, 0)
    rw [(rigid_local cs p t ω i).1, (rigid_local cs p t ω 0).1, V3.dot_add, V3.dot_add, hr.x_cross, hr.x_cross, hω, hz i]
    ring
  · intro i
    show localOf cs _ (i, 1) = localOf cs _ (0, 1)
    rw [(rigid_local cs p t ω i).2.1, (rigid_local cs p t ω 0).2.1, V3.dot_add, V3.dot_add, hr.y_cross, hr.y_cross, hω, hz i]
    ring
  · intro i
    show localOf cs _ (i, 5) = 0
    rw [(rigid_local cs p t ω i).2.2.2.2.2, hω]

theorem gq12_zero {q : Scheme} {E mu t : ℝ} {x y : Fin 4 → ℝ} {v u : Fin 4 × Fin 3 → ℝ} (h : ∀ ξ η, GQ12.B x y ξ η *ᵥ u = 0) :
    v ⬝ᵥ (q.integrate (GQ12.BDB E mu t x y) *ᵥ u) = 0 := by
  rw [integrate_work]
  apply sum_zero
  intro p _
  unfold GQ12.BDB
  rw [smul_mulVec, dotProduct_smul, congr_work, h]
  simp

theorem zero_of_work {n : ℕ} {w : Fin n × Fin 6 → ℝ} (h : ∀ v : Fin n × Fin 6 → ℝ, v ⬝ᵥ w = 0) : w = 0 :=
  dotProduct_self_eq_zero.mp (h w)

/-- the plate element over a parallelogram resists equal rotations of its nodes put in the place of slopes -/
theorem misplaced (q : Scheme) (hq : ProperRule q) (hlin : LinearRule q) (s : ShellSection) (hs : AdmissibleShell s)
    (hE : 0 < s.material.E) (ht : 0 < s.t) {x y : Fin 4 → ℝ} (hx : TurnsLeft x y) (hpx : x 2 - x 1 = x 3 - x 0)
    (hpy : y 2 - y 1 = y 3 - y 0) {u : Fin 4 × Fin 3 → ℝ} {a α β : ℝ}
    (hu : ∀ i, u (i, 0) = a + α * y i - β * x i ∧ u (i, 1) = α ∧ u (i, 2) = β) (h0 : ¬ (α = 0 ∧ β = 0)) :
    0 < u ⬝ᵥ (tmqK q s x y *ᵥ u) := by
  have h1 := hs.mu_gt
  have h2 := hs.mu_lt
  have hm : 0 < 1 - s.material.mu ^ 2 := by nlinarith
  have hm' : 0 < 1 + s.material.mu := by linarith
  have hres : ∀ k, TMQ.res x y u k = -2 * ((α + β) * TMQ.c x k - (β - α) * TMQ.b y k) := by
    intro k
    unfold TMQ.res
    rw [(hu _).1, (hu _).1, (hu _).2.1, (hu _).2.1, (hu _).2.2, (hu _).2.2]
    fin_cases k <;> simp [TMQ.st, TMQ.en, TMQ.b, TMQ.c] <;> ring
  have ex : x 3 = x 0 + x 2 - x 1 := by linarith
  have ey : y 3 = y 0 + y 2 - y 1 := by linarith
  have b1 : TMQ.b y 1 = -TMQ.b y 3 := by simp [TMQ.b, ey]; ring
  have b2 : TMQ.b y 2 = -TMQ.b y 0 := by simp [TMQ.b, ey]; ring
  have c1 : TMQ.c x 1 = -TMQ.c x 3 := by simp [TMQ.c, ex]; ring
  have c2 : TMQ.c x 2 = -TMQ.c x 0 := by simp [TMQ.c, ex]; ring
  have d1 : TMQ.delta s.material.mu s.t x y 1 = TMQ.delta s.material.mu s.t x y 3 := by
    unfold TMQ.delta
    rw [div_pow, div_pow, TMQ.d_sq, TMQ.d_sq, b1, c1, neg_sq, neg_sq]
  have d2 : TMQ.delta s.material.mu s.t x y 2 = TMQ.delta s.material.mu s.t x y 0 := by
    unfold TMQ.delta
    rw [div_pow, div_pow, TMQ.d_sq, TMQ.d_sq, b2, c2, neg_sq, neg_sq]
  have p0 := delta_pos hx h2 ht.ne' 0
  have p3 := delta_pos hx h2 ht.ne' 3
  set g : Fin 4 → ℝ := fun k => TMQ.delta s.material.mu s.t x y k * TMQ.res x y u k with hg
  have g2 : g 2 = -g 0 := by simp only [hg, hres, d2, b2, c2]; ring
  have g1 : g 1 = -g 3 := by simp only [hg, hres, d1, b1, c1]; ring
  have hB := fun ξ η => shear_parallelogram hx hpx hpy g g2 g1 ξ η
  set D := (x 1 - x 0) * (y 2 - y 1) - (x 2 - x 1) * (y 1 - y 0) with hD
  have hDp : 0 < D := hx 0
  set γ : Vec 2 := ![((y 2 - y 1) * g 3 - (y 1 - y 0) * g 0) / D, ((x 1 - x 0) * g 0 - (x 2 - x 1) * g 3) / D] with hγ
  have hBs : ∀ ξ η, TMQ.Bs s.material.mu s.t x y ξ η *ᵥ u = γ := by
    intro ξ η
    rw [TMQ.Bs_mulVec, hγ, ← (hB ξ η).1, ← (hB ξ η).2]
  have hγ0 : γ ≠ 0 := by
    intro h
    have e1 : (y 2 - y 1) * g 3 - (y 1 - y 0) * g 0 = 0 := by
      have := congrFun h 0
      exact (div_eq_zero_iff.mp this).resolve_right hDp.ne'
    have e2 : (x 1 - x 0) * g 0 - (x 2 - x 1) * g 3 = 0 := by
      have := congrFun h 1
      exact (div_eq_zero_iff.mp this).resolve_right hDp.ne'
    have f0 : D * g 0 = 0 := by rw [hD]; linear_combination (x 2 - x 1) * e1 + (y 2 - y 1) * e2
    have f3 : D * g 3 = 0 := by rw [hD]; linear_combination (x 1 - x 0) * e1 + (y 1 - y 0) * e2
    have k0 : TMQ.res x y u 0 = 0 := (mul_eq_zero.mp ((mul_eq_zero.mp f0).resolve_left hDp.ne')).resolve_left p0.ne'
    have k3 : TMQ.res x y u 3 = 0 := (mul_eq_zero.mp ((mul_eq_zero.mp f3).resolve_left hDp.ne')).resolve_left p3.ne'
    rw [hres] at k0 k3
    have c0' : TMQ.c x 0 = x 2 - x 1 := rfl
    have b0' : TMQ.b y 0 = y 1 - y 2 := rfl
    have c3' : TMQ.c x 3 = x 1 - x 0 := rfl
    have b3' : TMQ.b y 3 = y 0 - y 1 := rfl
    rw [c0', b0'] at k0
    rw [c3', b3'] at k3
    have m1 : D * (α + β) = 0 := by rw [hD]; linear_combination (1 / 2) * (y 1 - y 0) * k0 - (1 / 2) * (y 2 - y 1) * k3
    have m2 : D * (β - α) = 0 := by rw [hD]; linear_combination -(1 / 2) * (x 1 - x 0) * k0 + (1 / 2) * (x 2 - x 1) * k3
    have m1 := (mul_eq_zero.mp m1).resolve_left hDp.ne'
    have m2 := (mul_eq_zero.mp m2).resolve_left hDp.ne'
    exact h0 ⟨by linarith, by linarith⟩
  have hγp : 0 < γ ⬝ᵥ γ := lt_of_le_of_ne (Finset.sum_nonneg fun i _ => mul_self_nonneg _)
    (fun h => hγ0 (dotProduct_self_eq_zero.mp h.symm))
  rw [tmq_work]
  simp only [hBs]
  apply add_pos_of_pos_of_nonneg
  · generalize hW : s.material.E / 2 / (1 + s.material.mu) * s.t / (6 / 5) * (γ ⬝ᵥ γ) = W
    have hWp : 0 < W := by rw [← hW]; positivity
    rw [rule_linear hlin _ (W / 8 * ((y 3 - y 1) * (x 2 - x 0) - (y 2 - y 0) * (x 3 - x 1)))
      (W / 8 * ((y 2 - y 3) * (x 1 - x 0) - (y 1 - y 0) * (x 2 - x 3))) (W / 8 * ((y 3 - y 0) * (x 2 - x 1) - (y 2 - y 1) * (x 3 - x 0)))
      (fun p _ => by rw [← dkq_detJ]; unfold DKQ.detJ; ring)]
    have : 4 * (W / 8 * ((y 3 - y 1) * (x 2 - x 0) - (y 2 - y 0) * (x 3 - x 1))) = W * D := by
      rw [ex, ey, hD]
      ring
    rw [this]
    positivity
  · apply List.sum_nonneg
    intro e he
    obtain ⟨p, hp, rfl⟩ := List.mem_map.mp he
    have hd := tmq_det_pos hx (hq p hp).2.1 (hq p hp).2.2
    rw [bendingD_work]
    refine mul_nonneg (hq p hp).1 (mul_nonneg hd.le (mul_nonneg ?_ (isoD_nonneg h1 h2 _)))
    positivity

/-! ### C145 -/

/-- The property: a rigid motion of a shell of thick plates that does not turn it in its plane causes no forces. -/
def C145_claim (q : Scheme) : Prop :=
  ∀ (s : ShellSection) (cs : Csys) (p : Fin 4 → V3) (t ω : V3), AdmissibleShell s → RightHanded cs → (∀ i j, cs.z.dot (p i - p j) = 0) →
    TurnsLeft (planeX cs p) (planeY cs p) → cs.z.dot ω = 0 → tmgqStiffness q s cs p *ᵥ rigidAt p t ω = 0

/-- True of translations, and of all such motions where the section has no plate. -/
theorem C145_partial (q : Scheme) (hq : ProperRule q) (s : ShellSection) (cs : Csys) (p : Fin 4 → V3) (t ω : V3) (hr : RightHanded cs)
    (hp : ∀ i j, cs.z.dot (p i - p j) = 0) (hx : TurnsLeft (planeX cs p) (planeY cs p)) (hω : cs.z.dot ω = 0)
    (h : ω = 0 ∨ s.eleType = "membrane") : tmgqStiffness q s cs p *ᵥ rigidAt p t ω = 0 := by
  apply zero_of_work
  intro v
  rw [tmgq_work, gq12_zero (rigid_membrane hr p hp t ω hω), ite_self, zero_add]
  rcases h with rfl | h
  · have e : pick plateIdx (localOf cs (rigidAt p t 0)) = sampled (tilt ![cs.z.dot t, 0, 0]) (planeX cs p) (planeY cs p) := by
      funext ⟨i, r⟩
      obtain ⟨h1, h2, h3⟩ := rigid_plate hr p t 0 i
      obtain ⟨g1, g2, g3⟩ := sampled_bowl ![cs.z.dot t, 0, 0] 0 (planeX cs p) (planeY cs p) i
      rw [tilt_bowl]
      fin_cases r
      · exact h1.trans (Eq.trans (by rw [V3.dot_zero', V3.dot_zero']; simp) g1.symm)
      · exact h2.trans (Eq.trans (by rw [V3.dot_zero']; simp) g2.symm)
      · exact h3.trans (Eq.trans (by rw [V3.dot_zero']; simp) g3.symm)
    rw [e, C143_rigid q hq s _ _ hx]
    simp
  · rw [h]
    simp

/-- Over a parallelogram every rotation about an axis in the plane does work, whatever the section with a plate. -/
theorem C145_strained (q : Scheme) (hq : ProperRule q) (hlin : LinearRule q) (s : ShellSection) (hs : AdmissibleShell s)
    (hE : 0 < s.material.E) (ht : 0 < s.t) (hpl : s.eleType = "plate" ∨ s.eleType = "shell") (cs : Csys) (p : Fin 4 → V3) (t ω : V3)
    (hr : RightHanded cs) (hp : ∀ i j, cs.z.dot (p i - p j) = 0) (hx : TurnsLeft (planeX cs p) (planeY cs p))
    (hpar : p 2 - p 1 = p 3 - p 0) (hω : cs.z.dot ω = 0) (h0 : ω ≠ 0) :
    0 < rigidAt p t ω ⬝ᵥ (tmgqStiffness q s cs p *ᵥ rigidAt p t ω) := by
  rw [tmgq_work, gq12_zero (rigid_membrane hr p hp t ω hω), ite_self, zero_add, if_pos hpl]
  have hpx : planeX cs p 2 - planeX cs p 1 = planeX cs p 3 - planeX cs p 0 := by
    have := congrArg cs.x.dot hpar
    simp only [V3.dot_sub] at this
    simp only [planeX, V3.dot_sub]
    linarith
  have hpy : planeY cs p 2 - planeY cs p 1 = planeY cs p 3 - planeY cs p 0 := by
    have := congrArg cs.y.dot hpar
    simp only [V3.dot_sub] at this
    simp only [planeY, V3.dot_sub]
    linarith
  refine misplaced q hq hlin s hs hE ht hx hpx hpy (fun i => rigid_plate hr p t ω i) ?_
  rintro ⟨e1, e2⟩
  exact h0 (hr.eq_zero e1 e2 hω)

/-- the standard axes and a square -/
def stdAxes : Csys := ⟨0, ⟨1, 0, 0⟩, ⟨0, 1, 0⟩, ⟨0, 0, 1⟩⟩
def squareAt : Fin 4 → V3 := ![⟨0, 0, 0⟩, ⟨1, 0, 0⟩, ⟨1, 1, 0⟩, ⟨0, 1, 0⟩]

theorem stdAxes_ok : RightHanded stdAxes := by
  constructor <;> simp [stdAxes, V3.dot, V3.cross]

theorem squareAt_flat (i j : Fin 4) : stdAxes.z.dot (squareAt i - squareAt j) = 0 := by
  have : ∀ i, (squareAt i).z = 0 := by intro i; fin_cases i <;> rfl
  simp [stdAxes, V3.dot, V3.sub_def, this]

theorem squareAt_turns : TurnsLeft (planeX stdAxes squareAt) (planeY stdAxes squareAt) := by
  have hX : planeX stdAxes squareAt = ![0, 1, 1, 0] := by
    funext i
    fin_cases i <;> simp [planeX, stdAxes, squareAt, V3.dot, V3.sub_def]
  have hY : planeY stdAxes squareAt = ![0, 0, 1, 1] := by
    funext i
    fin_cases i <;> simp [planeY, stdAxes, squareAt, V3.dot, V3.sub_def]
  rw [hX, hY]
  apply turns_of <;> simp

/-- The property fails, whatever (proper, linear) quadrature is used: a square turned about one of its sides. -/
theorem C145_false (q : Scheme) (hq : ProperRule q) (hlin : LinearRule q) : ¬ C145_claim q := by
  intro h
  have h1 := C145_strained q hq hlin unitSection unitSection_ok (by norm_num [unitSection]) (by norm_num [unitSection]) (Or.inr rfl) stdAxes
    squareAt 0 ⟨1, 0, 0⟩ stdAxes_ok squareAt_flat squareAt_turns (by simp [squareAt, V3.sub_def]) (by simp [stdAxes, V3.dot])
    (by simp [V3.ext_iff])
  rw [h unitSection stdAxes squareAt 0 ⟨1, 0, 0⟩ unitSection_ok stdAxes_ok squareAt_flat squareAt_turns (by simp [stdAxes, V3.dot])] at h1
  simp at h1

/-- the square moved, and a section with a plate -/
example : RightHanded stdAxes ∧ (∀ i j, stdAxes.z.dot (squareAt i - squareAt j) = 0) ∧
    TurnsLeft (planeX stdAxes squareAt) (planeY stdAxes squareAt) ∧ (unitSection.eleType = "plate" ∨ unitSection.eleType = "shell") ∧
    rigidAt squareAt ⟨1, 2, 3⟩ 0 (1, 2) = 3 := by
  refine ⟨stdAxes_ok, squareAt_flat, squareAt_turns, Or.inr rfl, ?_⟩
  simp [rigidAt, V3.cross, V3.add_def]

end Hyperstatic
