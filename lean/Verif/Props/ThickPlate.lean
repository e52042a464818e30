import Verif.Lemmas.ThickPlate
import Verif.Spec.ThickPlate
import Verif.Props.ShellK

/-
C143: the thick plate element.
-/

namespace Hyperstatic
open Matrix Spec

/-! ### Lemmas -/

theorem corner_of_turns {x y : Fin 4 → ℝ} (h : TurnsLeft x y) (i : Fin 4) : 0 < corner x y i := by
  have h0 := h 0
  have h1 := h 1
  have h2 := h 2
  have h3 := h 3
  simp only [Fin.isValue, zero_add, Fin.reduceAdd] at h0 h1 h2 h3
  fin_cases i
  · simp only [corner, Fin.zero_eta, cons_val_zero]; linarith
  · simp only [corner, Fin.mk_one, cons_val_one, cons_val_zero]; linarith
  · simp only [corner, Fin.reduceFinMk, cons_val]; linarith
  · simp only [corner, Fin.reduceFinMk, cons_val]; linarith

theorem tmq_det_pos {x y : Fin 4 → ℝ} (h : TurnsLeft x y) {ξ η : ℝ} (h1 : |ξ| ≤ 1) (h2 : |η| ≤ 1) : 0 < DKQ.det x y ξ η :=
  (det_pos (corner_of_turns h) h1 h2).2

theorem tmq_d_ne {x y : Fin 4 → ℝ} (h : TurnsLeft x y) (k : Fin 4) : TMQ.d x y k ^ 2 ≠ 0 := by
  rw [TMQ.d_sq]
  have h0 := dkq_l2_pos (corner_of_turns h) 0
  have h1 := dkq_l2_pos (corner_of_turns h) 1
  have h2 := dkq_l2_pos (corner_of_turns h) 2
  have h3 := dkq_l2_pos (corner_of_turns h) 3
  simp only [DKQ.l2, DKQ.side, DKQ.nx, cons_val_zero, cons_val_one, cons_val] at h0 h1 h2 h3
  intro h'
  fin_cases k
  · apply h1; rw [← h']; simp [TMQ.b, TMQ.c]; ring
  · apply h2; rw [← h']; simp [TMQ.b, TMQ.c]; ring
  · apply h3; rw [← h']; simp [TMQ.b, TMQ.c]; ring
  · apply h0; rw [← h']; simp [TMQ.b, TMQ.c]; ring

theorem sampled_bowl (a k : Vec 3) (x y : Fin 4 → ℝ) (i : Fin 4) :
    sampled (bowl a k) x y (i, 0) = a 0 + a 1 * x i + a 2 * y i + k 0 / 2 * x i ^ 2 + k 1 / 2 * y i ^ 2 + k 2 / 2 * (x i * y i) ∧
    sampled (bowl a k) x y (i, 1) = a 1 + k 0 * x i + k 2 / 2 * y i ∧
    sampled (bowl a k) x y (i, 2) = a 2 + k 1 * y i + k 2 / 2 * x i := by
  refine ⟨rfl, ?_, ?_⟩
  · change deriv (fun s => bowl a k s (y i)) (x i) = _
    rw [deriv_of_cubic _ (a 0 + a 2 * y i + k 1 / 2 * y i ^ 2) (a 1 + k 2 / 2 * y i) (k 0 / 2) 0]
    · ring
    · intro s; simp only [bowl, tilt]; ring
  · change deriv (fun s => bowl a k (x i) s) (y i) = _
    rw [deriv_of_cubic _ (a 0 + a 1 * x i + k 0 / 2 * x i ^ 2) (a 2 + k 2 / 2 * x i) (k 1 / 2) 0]
    · ring
    · intro s; simp only [bowl, tilt]; ring

theorem tilt_bowl (a : Vec 3) : tilt a = bowl a 0 := by
  funext x y
  simp [bowl]

theorem bowl_res (a k : Vec 3) (x y : Fin 4 → ℝ) (j : Fin 4) : TMQ.res x y (sampled (bowl a k) x y) j = 0 := by
  unfold TMQ.res
  simp only [(sampled_bowl a k x y _).1, (sampled_bowl a k x y _).2.1, (sampled_bowl a k x y _).2.2]
  fin_cases j <;> simp [TMQ.st, TMQ.en, TMQ.b, TMQ.c] <;> ring

/-- strains of a plate with constant curvatures -/
theorem tmq_bowl {x y : Fin 4 → ℝ} (h : TurnsLeft x y) (mu t : ℝ) (a k : Vec 3) {ξ η : ℝ} (h1 : |ξ| ≤ 1) (h2 : |η| ≤ 1) :
    TMQ.Bs mu t x y ξ η *ᵥ sampled (bowl a k) x y = 0 ∧ TMQ.Bb mu t x y ξ η *ᵥ sampled (bowl a k) x y = -k := by
  have hr := bowl_res a k x y
  have hdet := (tmq_det_pos h h1 h2).ne'
  refine ⟨TMQ.Bs_zero hr ξ η, ?_⟩
  rw [TMQ.Bb_sides (tmq_d_ne h) hr]
  simp only [(sampled_bowl a k x y _).2.1, (sampled_bowl a k x y _).2.2]
  have j1 : ∀ A B C : ℝ, DKQ.J1 (fun i => A + B * x i + C * y i) η = B * DKQ.J1 x η + C * DKQ.J1 y η := by
    intro A B C; unfold DKQ.J1; ring
  have j2 : ∀ A B C : ℝ, DKQ.J2 (fun i => A + B * x i + C * y i) ξ = B * DKQ.J2 x ξ + C * DKQ.J2 y ξ := by
    intro A B C; unfold DKQ.J2; ring
  have j1' : ∀ A B C : ℝ, DKQ.J1 (fun i => A + B * y i + C * x i) η = B * DKQ.J1 y η + C * DKQ.J1 x η := by
    intro A B C; unfold DKQ.J1; ring
  have j2' : ∀ A B C : ℝ, DKQ.J2 (fun i => A + B * y i + C * x i) ξ = B * DKQ.J2 y ξ + C * DKQ.J2 x ξ := by
    intro A B C; unfold DKQ.J2; ring
  have gx : ∀ B C : ℝ, TMQ.gradX x y ξ η (B * DKQ.J1 x η + C * DKQ.J1 y η) (B * DKQ.J2 x ξ + C * DKQ.J2 y ξ) = B := by
    intro B C
    unfold TMQ.gradX
    rw [div_eq_iff hdet]
    unfold DKQ.det
    ring
  have gy : ∀ B C : ℝ, TMQ.gradY x y ξ η (B * DKQ.J1 x η + C * DKQ.J1 y η) (B * DKQ.J2 x ξ + C * DKQ.J2 y ξ) = C := by
    intro B C
    unfold TMQ.gradY
    rw [div_eq_iff hdet]
    unfold DKQ.det
    ring
  rw [j1, j2, j1', j2', add_comm (k 1 * DKQ.J1 y η), add_comm (k 1 * DKQ.J2 y ξ), gx, gy, gx, gy]
  congr 1
  ext i
  fin_cases i
  · simp
  · simp
  · simp

theorem isoD_eq_zero {mu : ℝ} (h1 : -1 < mu) (h2 : mu < 1) {a : Vec 3} (h : a ⬝ᵥ (isoD mu *ᵥ a) = 0) : a = 0 := by
  rw [isoD_work] at h
  have e : (1 + mu) / 2 * (a 0 + a 1) ^ 2 + (1 - mu) / 2 * (a 0 - a 1) ^ 2 + (1 - mu) / 2 * a 2 ^ 2 = 0 := by
    rw [← h]; ring
  have p1 : 0 ≤ (1 + mu) / 2 * (a 0 + a 1) ^ 2 := mul_nonneg (by linarith) (sq_nonneg _)
  have p2 : 0 ≤ (1 - mu) / 2 * (a 0 - a 1) ^ 2 := mul_nonneg (by linarith) (sq_nonneg _)
  have p3 : 0 ≤ (1 - mu) / 2 * a 2 ^ 2 := mul_nonneg (by linarith) (sq_nonneg _)
  have q1 : (1 + mu) / 2 * (a 0 + a 1) ^ 2 = 0 := by linarith
  have q2 : (1 - mu) / 2 * (a 0 - a 1) ^ 2 = 0 := by linarith
  have q3 : (1 - mu) / 2 * a 2 ^ 2 = 0 := by linarith
  have r1 : a 0 + a 1 = 0 := by
    rcases mul_eq_zero.mp q1 with h | h
    · linarith
    · exact pow_eq_zero_iff (two_ne_zero) |>.mp h
  have r2 : a 0 - a 1 = 0 := by
    rcases mul_eq_zero.mp q2 with h | h
    · linarith
    · exact pow_eq_zero_iff (two_ne_zero) |>.mp h
  have r3 : a 2 = 0 := by
    rcases mul_eq_zero.mp q3 with h | h
    · linarith
    · exact pow_eq_zero_iff (two_ne_zero) |>.mp h
  ext i
  fin_cases i
  · change a 0 = 0; linarith
  · change a 1 = 0; linarith
  · exact r3

/-- a field of slopes without curvature at a corner turns there by some angle -/
theorem corner_turn {ex ey fx fy px py qx qy : ℝ} (hD : ex * fy - ey * fx ≠ 0) (h1 : fy * px - ey * qx = 0) (h2 : ex * qy - fx * py = 0)
    (h3 : (ex * qx - fx * px) + (fy * py - ey * qy) = 0) :
    ∃ r, px = -r * ey ∧ qx = -r * fy ∧ py = r * ex ∧ qy = r * fx := by
  refine ⟨(fy * py - ey * qy) / (ex * fy - ey * fx), ?_, ?_, ?_, ?_⟩
  · rw [← neg_div, div_mul_eq_mul_div, eq_div_iff hD]
    linear_combination ey * h3 + ex * h1
  · rw [← neg_div, div_mul_eq_mul_div, eq_div_iff hD]
    linear_combination fy * h3 + fx * h1
  · rw [div_mul_eq_mul_div, eq_div_iff hD]
    linear_combination ey * h2
  · rw [div_mul_eq_mul_div, eq_div_iff hD]
    linear_combination fy * h2

theorem same_turn {ex ey r s : ℝ} (he : ex ^ 2 + ey ^ 2 ≠ 0) (h1 : -r * ey = -s * ey) (h2 : r * ex = s * ex) : r = s := by
  have : (r - s) * (ex ^ 2 + ey ^ 2) = 0 := by linear_combination ex * h2 - ey * h1
  rcases mul_eq_zero.mp this with h | h
  · linarith
  · exact absurd h he

theorem delta_pos {mu t : ℝ} {x y : Fin 4 → ℝ} (h : TurnsLeft x y) (hmu : mu < 1) (ht : t ≠ 0) (k : Fin 4) : 0 < TMQ.delta mu t x y k := by
  have hd : TMQ.d x y k ≠ 0 := fun h' => tmq_d_ne h k (by rw [h']; ring)
  have : 0 < (t / TMQ.d x y k) ^ 2 := by positivity
  unfold TMQ.delta
  apply div_pos this
  have : 0 < 5 / 6 * (1 - mu) := by linarith
  positivity

/-- without shear at two opposite corners the deflection along every side is what the mean slopes give -/
theorem no_shear {mu t : ℝ} {x y : Fin 4 → ℝ} (h : TurnsLeft x y) (hmu : mu < 1) (ht : t ≠ 0) {q : Fin 4 × Fin 3 → ℝ}
    (h0 : TMQ.Bs mu t x y (-1) (-1) *ᵥ q = 0) (h2 : TMQ.Bs mu t x y 1 1 *ᵥ q = 0) (k : Fin 4) : TMQ.res x y q k = 0 := by
  have hδ := delta_pos h hmu ht
  have hc0 := corner_of_turns h 0
  have hc2 := corner_of_turns h 2
  simp only [corner, cons_val_zero, cons_val] at hc0 hc2
  rw [TMQ.Bs_mulVec] at h0 h2
  have a0 := congrFun h0 0
  have b0 := congrFun h0 1
  have a2 := congrFun h2 0
  have b2 := congrFun h2 1
  generalize hg : (fun k => TMQ.delta mu t x y k * TMQ.res x y q k) = g at *
  have hg' : ∀ k, TMQ.delta mu t x y k * TMQ.res x y q k = g k := fun k => congrFun hg k
  simp only [hg', Fin.sum_univ_four, TMQ.N0] at a0 b0 a2 b2
  have x0 : TMQ.Xs x y 0 0 = 0 ∧ TMQ.Xs x y 0 1 = 0 ∧ TMQ.Ys x y 0 0 = 0 ∧ TMQ.Ys x y 0 1 = 0 := ⟨rfl, rfl, rfl, rfl⟩
  have x2 : TMQ.Xs x y 2 2 = 0 ∧ TMQ.Xs x y 2 3 = 0 ∧ TMQ.Ys x y 2 2 = 0 ∧ TMQ.Ys x y 2 3 = 0 := ⟨rfl, rfl, rfl, rfl⟩
  norm_num [x0, x2] at a0 b0 a2 b2
  have d0 : TMQ.b y 2 * TMQ.c x 3 - TMQ.b y 3 * TMQ.c x 2 ≠ 0 := by
    have : TMQ.b y 2 * TMQ.c x 3 - TMQ.b y 3 * TMQ.c x 2 = (x 1 - x 0) * (y 3 - y 0) - (x 3 - x 0) * (y 1 - y 0) := by
      simp [TMQ.b, TMQ.c]; ring
    rw [this]; exact hc0.ne'
  have d2 : TMQ.b y 0 * TMQ.c x 1 - TMQ.b y 1 * TMQ.c x 0 ≠ 0 := by
    have : TMQ.b y 0 * TMQ.c x 1 - TMQ.b y 1 * TMQ.c x 0 = (x 3 - x 2) * (y 1 - y 2) - (x 1 - x 2) * (y 3 - y 2) := by
      simp [TMQ.b, TMQ.c]; ring
    rw [this]; exact hc2.ne'
  have two : ∀ {B B' C C' D u v : ℝ}, D ≠ 0 → D = B * C' - B' * C → -B' / D * u + B / D * v = 0 → -C' / D * u + C / D * v = 0 → u = 0 ∧ v = 0 := by
    intro B B' C C' D u v hD hD' e1 e2
    have e1' : -B' * u + B * v = 0 := by field_simp at e1; linarith
    have e2' : -C' * u + C * v = 0 := by field_simp at e2; linarith
    constructor
    · have : D * u = 0 := by rw [hD']; linear_combination C * e1' - B * e2'
      exact (mul_eq_zero.mp this).resolve_left hD
    · have : D * v = 0 := by rw [hD']; linear_combination C' * e1' - B' * e2'
      exact (mul_eq_zero.mp this).resolve_left hD
  obtain ⟨g2, g3⟩ := two (B := TMQ.b y 2) (B' := TMQ.b y 3) (C := TMQ.c x 2) (C' := TMQ.c x 3) d0 rfl a0 b0
  obtain ⟨g0, g1⟩ := two (B := TMQ.b y 0) (B' := TMQ.b y 1) (C := TMQ.c x 0) (C' := TMQ.c x 1) d2 rfl a2 b2
  have : g k = 0 := by fin_cases k <;> assumption
  have h' := hg' k
  rw [this] at h'
  exact (mul_eq_zero.mp h').resolve_left (hδ k).ne'

/-- the curvatures vanish: three equations at every point -/
theorem no_curvature {mu t : ℝ} {x y : Fin 4 → ℝ} (h : TurnsLeft x y) {q : Fin 4 × Fin 3 → ℝ} (hr : ∀ k, TMQ.res x y q k = 0)
    {ξ η : ℝ} (h1 : |ξ| ≤ 1) (h2 : |η| ≤ 1) (e : TMQ.Bb mu t x y ξ η *ᵥ q = 0) :
    DKQ.J2 y ξ * DKQ.J1 (fun i => q (i, 1)) η - DKQ.J1 y η * DKQ.J2 (fun i => q (i, 1)) ξ = 0 ∧
    DKQ.J1 x η * DKQ.J2 (fun i => q (i, 2)) ξ - DKQ.J2 x ξ * DKQ.J1 (fun i => q (i, 2)) η = 0 ∧
    (DKQ.J1 x η * DKQ.J2 (fun i => q (i, 1)) ξ - DKQ.J2 x ξ * DKQ.J1 (fun i => q (i, 1)) η) +
      (DKQ.J2 y ξ * DKQ.J1 (fun i => q (i, 2)) η - DKQ.J1 y η * DKQ.J2 (fun i => q (i, 2)) ξ) = 0 := by
  have hdet := (tmq_det_pos h h1 h2).ne'
  rw [TMQ.Bb_sides (tmq_d_ne h) hr, neg_eq_zero] at e
  have e0 := congrFun e 0
  have e1 := congrFun e 1
  have e2 := congrFun e 2
  simp only [TMQ.gradX, TMQ.gradY, cons_val_zero, cons_val_one, cons_val, Pi.zero_apply, div_eq_zero_iff, hdet, or_false] at e0 e1 e2
  rw [← add_div, div_eq_zero_iff] at e2
  exact ⟨e0, e1, e2.resolve_right hdet⟩

/-- four points whose slopes turn by the same angle and whose deflections are what the mean slopes give have equal slopes -/
theorem equal_slopes {x y w p s : Fin 4 → ℝ} {r : ℝ}
    (hA : ((x 1 - x 0) * (y 3 - y 0) - (x 3 - x 0) * (y 1 - y 0)) + ((x 3 - x 2) * (y 1 - y 2) - (x 1 - x 2) * (y 3 - y 2)) ≠ 0)
    (hp : ∀ i, p i = p 0 - r * (y i - y 0)) (hs : ∀ i, s i = s 0 + r * (x i - x 0))
    (t0 : 2 * (w 2 - w 1) - (x 2 - x 1) * (p 1 + p 2) + (y 1 - y 2) * (s 1 + s 2) = 0)
    (t1 : 2 * (w 3 - w 2) - (x 3 - x 2) * (p 2 + p 3) + (y 2 - y 3) * (s 2 + s 3) = 0)
    (t2 : 2 * (w 0 - w 3) - (x 0 - x 3) * (p 3 + p 0) + (y 3 - y 0) * (s 3 + s 0) = 0)
    (t3 : 2 * (w 1 - w 0) - (x 1 - x 0) * (p 0 + p 1) + (y 0 - y 1) * (s 0 + s 1) = 0) :
    ∀ i, w i = (w 0 - p 0 * x 0 - s 0 * y 0) + p 0 * x i + s 0 * y i ∧ p i = p 0 ∧ s i = s 0 := by
  have hr : r = 0 := by
    have f1 := hp 1
    have f2 := hp 2
    have f3 := hp 3
    have g1 := hs 1
    have g2 := hs 2
    have g3 := hs 3
    rw [f1, f2, g1, g2] at t0
    rw [f3, f2, g3, g2] at t1
    rw [f3, g3] at t2
    rw [f1, g1] at t3
    have := (mul_eq_zero (a := r) (b := ((x 1 - x 0) * (y 3 - y 0) - (x 3 - x 0) * (y 1 - y 0)) +
      ((x 3 - x 2) * (y 1 - y 2) - (x 1 - x 2) * (y 3 - y 2)))).mp (by linear_combination (-1 / 2) * (t0 + t1 + t2 + t3))
    exact this.resolve_right hA
  subst hr
  have hp' : ∀ i, p i = p 0 := fun i => by rw [hp i]; ring
  have hs' : ∀ i, s i = s 0 := fun i => by rw [hs i]; ring
  rw [hp' 1, hp' 2, hs' 1, hs' 2] at t0
  rw [hp' 2, hp' 3, hs' 2, hs' 3] at t1
  rw [hp' 3, hs' 3] at t2
  rw [hp' 1, hs' 1] at t3
  intro i
  refine ⟨?_, hp' i, hs' i⟩
  fin_cases i
  · change w 0 = _ + _ * x 0 + _ * y 0; linarith
  · change w 1 = _ + _ * x 1 + _ * y 1; linarith
  · change w 2 = _ + _ * x 2 + _ * y 2; linarith
  · change w 3 = _ + _ * x 3 + _ * y 3; linarith

/-- slopes without curvature at three corners turn by the same angle everywhere -/
theorem same_angle {x y p s : Fin 4 → ℝ} (h : TurnsLeft x y)
    (key : ∀ ξ η : ℝ, |ξ| ≤ 1 → |η| ≤ 1 → DKQ.J2 y ξ * DKQ.J1 p η - DKQ.J1 y η * DKQ.J2 p ξ = 0 ∧
      DKQ.J1 x η * DKQ.J2 s ξ - DKQ.J2 x ξ * DKQ.J1 s η = 0 ∧
      (DKQ.J1 x η * DKQ.J2 p ξ - DKQ.J2 x ξ * DKQ.J1 p η) + (DKQ.J2 y ξ * DKQ.J1 s η - DKQ.J1 y η * DKQ.J2 s ξ) = 0) :
    ∃ r, ∀ i, p i = p 0 - r * (y i - y 0) ∧ s i = s 0 + r * (x i - x 0) := by
  have l0 := dkq_l2_pos (corner_of_turns h) 0
  simp only [DKQ.l2, DKQ.side, DKQ.nx, cons_val_zero] at l0
  have c0 := corner_of_turns h 0
  have c1 := corner_of_turns h 1
  simp only [corner, cons_val_zero, cons_val_one] at c0 c1
  obtain ⟨k1, k2, k3⟩ := key (-1) (-1) (by norm_num) (by norm_num)
  simp only [DKQ.J1, DKQ.J2] at k1 k2 k3
  obtain ⟨r0, p01, p03, s01, s03⟩ := corner_turn (ex := x 1 - x 0) (ey := y 1 - y 0) (fx := x 3 - x 0) (fy := y 3 - y 0)
    (px := p 1 - p 0) (py := s 1 - s 0) (qx := p 3 - p 0) (qy := s 3 - s 0)
    (by intro h'; apply c0.ne'; linarith) (by linear_combination 4 * k1) (by linear_combination 4 * k2) (by linear_combination 4 * k3)
  obtain ⟨k1, k2, k3⟩ := key 1 (-1) (by norm_num) (by norm_num)
  simp only [DKQ.J1, DKQ.J2] at k1 k2 k3
  obtain ⟨r1, p10, p12, s10, s12⟩ := corner_turn (ex := x 1 - x 0) (ey := y 1 - y 0) (fx := x 2 - x 1) (fy := y 2 - y 1)
    (px := p 1 - p 0) (py := s 1 - s 0) (qx := p 2 - p 1) (qy := s 2 - s 1)
    (by intro h'; apply c1.ne'; linarith) (by linear_combination 4 * k1) (by linear_combination 4 * k2) (by linear_combination 4 * k3)
  have e01 : r0 = r1 := same_turn (ex := x 1 - x 0) (ey := y 1 - y 0) (fun h' => l0 (by rw [← h']; ring)) (p01.symm.trans p10) (s01.symm.trans s10)
  subst e01
  refine ⟨r0, fun i => ?_⟩
  fin_cases i
  · constructor
    · change p 0 = p 0 - r0 * (y 0 - y 0); ring
    · change s 0 = s 0 + r0 * (x 0 - x 0); ring
  · constructor
    · change p 1 = p 0 - r0 * (y 1 - y 0); linarith
    · change s 1 = s 0 + r0 * (x 1 - x 0); linarith
  · constructor
    · change p 2 = p 0 - r0 * (y 2 - y 0); linarith
    · change s 2 = s 0 + r0 * (x 2 - x 0); linarith
  · constructor
    · change p 3 = p 0 - r0 * (y 3 - y 0); linarith
    · change s 3 = s 0 + r0 * (x 3 - x 0); linarith

/-- a state without strains is a rigid motion -/
theorem no_strain {mu t : ℝ} {x y : Fin 4 → ℝ} (h : TurnsLeft x y) (hmu : mu < 1) (ht : t ≠ 0) {q : Fin 4 × Fin 3 → ℝ}
    (hs : ∀ ξ η, |ξ| ≤ 1 → |η| ≤ 1 → TMQ.Bs mu t x y ξ η *ᵥ q = 0)
    (hb : ∀ ξ η, |ξ| ≤ 1 → |η| ≤ 1 → TMQ.Bb mu t x y ξ η *ᵥ q = 0) : ∃ a : Vec 3, q = sampled (tilt a) x y := by
  have hr := no_shear h hmu ht (hs (-1) (-1) (by norm_num) (by norm_num)) (hs 1 1 (by norm_num) (by norm_num))
  obtain ⟨r, hang⟩ := same_angle (p := fun i => q (i, 1)) (s := fun i => q (i, 2)) h
    (fun ξ η h1 h2 => no_curvature h hr h1 h2 (hb ξ η h1 h2))
  have c0 := corner_of_turns h 0
  have c2 := corner_of_turns h 2
  simp only [corner, cons_val_zero, cons_val] at c0 c2
  have hflat := equal_slopes (w := fun i => q (i, 0)) (add_pos c0 c2).ne' (fun i => (hang i).1) (fun i => (hang i).2)
    (hr 0) (hr 1) (hr 2) (hr 3)
  refine ⟨![q (0, 0) - q (0, 1) * x 0 - q (0, 2) * y 0, q (0, 1), q (0, 2)], ?_⟩
  rw [tilt_bowl]
  funext ⟨i, j⟩
  fin_cases j
  · change q (i, 0) = sampled _ _ _ (i, 0)
    rw [(sampled_bowl _ _ _ _ _).1, (hflat i).1]
    simp
  · change q (i, 1) = sampled _ _ _ (i, 1)
    rw [(sampled_bowl _ _ _ _ _).2.1, (hflat i).2.1]
    simp
  · change q (i, 2) = sampled _ _ _ (i, 2)
    rw [(sampled_bowl _ _ _ _ _).2.2, (hflat i).2.2]
    simp

theorem sum_zero {q : Scheme} {f : ℝ × ℝ × ℝ → ℝ} (h : ∀ p ∈ q, f p = 0) : (q.map f).sum = 0 := by
  apply List.sum_eq_zero
  intro e he
  obtain ⟨p, hp, rfl⟩ := List.mem_map.mp he
  exact h p hp

/-! ### C143 A thick plate bends like a plate -/

/-- C143, symmetry: the stiffness of a thick plate element is symmetric, for every quadrature and shape. -/
theorem C143_symmetric (q : Scheme) (s : ShellSection) (x y : Fin 4 → ℝ) : (tmqK q s x y)ᵀ = tmqK q s x y := by
  apply symm_of_work
  intro v u
  rw [tmq_work, tmq_work]
  congr 1
  · congr 1
    apply List.map_congr_left
    intro p _
    rw [dotProduct_comm (_ *ᵥ v)]
  · congr 1
    apply List.map_congr_left
    intro p _
    rw [bendingD_work, bendingD_work, isoD_symm]

/-- C143, energy: no displacement of a convex thick plate element releases energy. -/
theorem C143_energy (q : Scheme) (hq : ProperRule q) (s : ShellSection) (hs : AdmissibleShell s) (x y : Fin 4 → ℝ) (h : TurnsLeft x y)
    (u : Fin 4 × Fin 3 → ℝ) : 0 ≤ u ⬝ᵥ (tmqK q s x y *ᵥ u) := by
  have h1 := hs.mu_gt
  have h2 := hs.mu_lt
  have h3 := hs.E
  have h4 := hs.t
  have hm : 0 < 1 - s.material.mu ^ 2 := by nlinarith
  rw [tmq_work]
  apply add_nonneg
  · apply List.sum_nonneg
    intro e he
    obtain ⟨p, hp, rfl⟩ := List.mem_map.mp he
    have hd := tmq_det_pos h (hq p hp).2.1 (hq p hp).2.2
    have hG : 0 ≤ s.material.E / 2 / (1 + s.material.mu) * s.t / (6 / 5) := by
      have : 0 < 1 + s.material.mu := by linarith
      positivity
    exact mul_nonneg (hq p hp).1 (mul_nonneg hd.le (mul_nonneg hG (Finset.sum_nonneg fun i _ => mul_self_nonneg _)))
  · apply List.sum_nonneg
    intro e he
    obtain ⟨p, hp, rfl⟩ := List.mem_map.mp he
    have hd := tmq_det_pos h (hq p hp).2.1 (hq p hp).2.2
    rw [bendingD_work]
    refine mul_nonneg (hq p hp).1 (mul_nonneg hd.le (mul_nonneg ?_ (isoD_nonneg h1 h2 _)))
    positivity

/-- C143, rigid motions: a convex thick plate element does not resist a rigid motion. -/
theorem C143_rigid (q : Scheme) (hq : ProperRule q) (s : ShellSection) (x y : Fin 4 → ℝ) (h : TurnsLeft x y) (a : Vec 3) :
    tmqK q s x y *ᵥ sampled (tilt a) x y = 0 := by
  have : ∀ v : Fin 4 × Fin 3 → ℝ, v ⬝ᵥ (tmqK q s x y *ᵥ sampled (tilt a) x y) = 0 := by
    intro v
    rw [tmq_work, tilt_bowl]
    have e1 : ∀ p ∈ q, TMQ.Bs s.material.mu s.t x y p.2.1 p.2.2 *ᵥ sampled (bowl a 0) x y = 0 :=
      fun p hp => (tmq_bowl h _ _ a 0 (hq p hp).2.1 (hq p hp).2.2).1
    have e2 : ∀ p ∈ q, TMQ.Bb s.material.mu s.t x y p.2.1 p.2.2 *ᵥ sampled (bowl a 0) x y = 0 :=
      fun p hp => by rw [(tmq_bowl h _ _ a 0 (hq p hp).2.1 (hq p hp).2.2).2, neg_zero]
    rw [sum_zero fun p hp => by rw [e1 p hp]; simp, sum_zero fun p hp => by rw [e2 p hp]; simp, add_zero]
  funext i
  have := this (Pi.single i 1)
  rwa [single_one_dotProduct] at this

/-- C143, constant bending: whatever the shape of the convex element and its thickness, deflections with constant curvatures have
exactly the bending energy of the plate over the area of the element, and no shear energy. -/
theorem C143_patch (q : Scheme) (hq : ProperRule q) (hlin : LinearRule q) (s : ShellSection) (x y : Fin 4 → ℝ) (h : TurnsLeft x y)
    (a a' k k' : Vec 3) :
    sampled (bowl a' k') x y ⬝ᵥ (tmqK q s x y *ᵥ sampled (bowl a k) x y) = plateWork s (flatArea x y) k' k := by
  rw [tmq_work]
  rw [sum_zero fun p hp => by rw [(tmq_bowl h _ _ a k (hq p hp).2.1 (hq p hp).2.2).1]; simp, zero_add]
  have e : ∀ p ∈ q, DKQ.det x y p.2.1 p.2.2 * ((TMQ.Bb s.material.mu s.t x y p.2.1 p.2.2 *ᵥ sampled (bowl a' k') x y) ⬝ᵥ
        (bendingD s.material.E s.material.mu s.t *ᵥ (TMQ.Bb s.material.mu s.t x y p.2.1 p.2.2 *ᵥ sampled (bowl a k) x y))) =
      DKQ.det x y p.2.1 p.2.2 * (s.t ^ 3 / 12 * (k' ⬝ᵥ planeStress s.material.E s.material.mu k)) := by
    intro p hp
    rw [(tmq_bowl h _ _ a k (hq p hp).2.1 (hq p hp).2.2).2, (tmq_bowl h _ _ a' k' (hq p hp).2.1 (hq p hp).2.2).2, bendingD_stress,
      planeStress_neg, smul_neg, neg_dotProduct_neg, dotProduct_smul, smul_eq_mul]
  generalize hW : s.t ^ 3 / 12 * (k' ⬝ᵥ planeStress s.material.E s.material.mu k) = W at e
  rw [List.map_congr_left (fun p hp => congrArg (p.1 * ·) (e p hp))]
  rw [rule_linear hlin _ (W / 8 * ((y 3 - y 1) * (x 2 - x 0) - (y 2 - y 0) * (x 3 - x 1)))
    (W / 8 * ((y 2 - y 3) * (x 1 - x 0) - (y 1 - y 0) * (x 2 - x 3))) (W / 8 * ((y 3 - y 0) * (x 2 - x 1) - (y 2 - y 1) * (x 3 - x 0)))
    (fun p _ => by rw [← dkq_detJ]; unfold DKQ.detJ; ring)]
  rw [plateWork, mul_assoc, hW, flatArea]
  ring

/-- C143, nothing else: a convex thick plate element of positive stiffness and thickness stores energy somewhere in every state that is
not a rigid motion. -/
theorem C143_only_rigid (s : ShellSection) (hs : AdmissibleShell s) (hE : 0 < s.material.E) (ht : 0 < s.t) (x y : Fin 4 → ℝ)
    (h : TurnsLeft x y) (u : Fin 4 × Fin 3 → ℝ) :
    (∀ ξ η, |ξ| ≤ 1 → |η| ≤ 1 → u ⬝ᵥ ((TMQ.BCBs s.material.E s.material.mu s.t x y ξ η +
      TMQ.BDBb s.material.E s.material.mu s.t x y ξ η) *ᵥ u) = 0) ↔ ∃ a : Vec 3, u = sampled (tilt a) x y := by
  have h1 := hs.mu_gt
  have h2 := hs.mu_lt
  have hm : 0 < 1 - s.material.mu ^ 2 := by nlinarith
  have hm' : 0 < 1 + s.material.mu := by linarith
  constructor
  · intro h0
    have key : ∀ ξ η, |ξ| ≤ 1 → |η| ≤ 1 → TMQ.Bs s.material.mu s.t x y ξ η *ᵥ u = 0 ∧ TMQ.Bb s.material.mu s.t x y ξ η *ᵥ u = 0 := by
      intro ξ η g1 g2
      have hd := tmq_det_pos h g1 g2
      have e := h0 ξ η g1 g2
      rw [Matrix.add_mulVec, dotProduct_add, TMQ.tmq_work_b, TMQ.tmq_work_s, ← mul_add, mul_eq_zero] at e
      have e := e.resolve_left hd.ne'
      rw [bendingD_work] at e
      have p1 : 0 ≤ TMQ.Bs s.material.mu s.t x y ξ η *ᵥ u ⬝ᵥ TMQ.Bs s.material.mu s.t x y ξ η *ᵥ u :=
        Finset.sum_nonneg fun i _ => mul_self_nonneg _
      have p2 := isoD_nonneg h1 h2 (TMQ.Bb s.material.mu s.t x y ξ η *ᵥ u)
      have c1 : 0 < s.material.E / 2 / (1 + s.material.mu) * s.t / (6 / 5) := by positivity
      have c2 : 0 < s.material.E * s.t ^ 3 / 12 / (1 - s.material.mu ^ 2) := by positivity
      have z1 := mul_nonneg c1.le p1
      have z2 := mul_nonneg c2.le p2
      constructor
      · have : s.material.E / 2 / (1 + s.material.mu) * s.t / (6 / 5) * (TMQ.Bs s.material.mu s.t x y ξ η *ᵥ u ⬝ᵥ
          TMQ.Bs s.material.mu s.t x y ξ η *ᵥ u) = 0 := by linarith
        exact dotProduct_self_eq_zero.mp ((mul_eq_zero.mp this).resolve_left c1.ne')
      · have : s.material.E * s.t ^ 3 / 12 / (1 - s.material.mu ^ 2) * (TMQ.Bb s.material.mu s.t x y ξ η *ᵥ u ⬝ᵥ
          (isoD s.material.mu *ᵥ (TMQ.Bb s.material.mu s.t x y ξ η *ᵥ u))) = 0 := by linarith
        exact isoD_eq_zero h1 h2 ((mul_eq_zero.mp this).resolve_left c2.ne')
    exact no_strain h h2 ht.ne' (fun ξ η g1 g2 => (key ξ η g1 g2).1) (fun ξ η g1 g2 => (key ξ η g1 g2).2)
  · rintro ⟨a, rfl⟩ ξ η g1 g2
    obtain ⟨e1, e2⟩ := tmq_bowl h s.material.mu s.t a 0 g1 g2
    rw [tilt_bowl, Matrix.add_mulVec, dotProduct_add, TMQ.tmq_work_b, TMQ.tmq_work_s, e1, e2]
    simp

/-- the shear of a side, from beam theory -/
theorem delta_strip {mu t : ℝ} {x y : Fin 4 → ℝ} (h : TurnsLeft x y) (h1 : -1 < mu) (h2 : mu < 1) (ht : 0 < t) (k : Fin 4) {L : ℝ}
    (hL : L ^ 2 = TMQ.d x y k ^ 2) : 2 * TMQ.delta mu t x y k = stripRatio mu t L / (1 + stripRatio mu t L) := by
  have hd := tmq_d_ne h k
  have hL0 : 0 < L ^ 2 := by
    rw [hL]; exact lt_of_le_of_ne (sq_nonneg _) (Ne.symm hd)
  have hm1 : (1 : ℝ) + mu ≠ 0 := by intro h'; linarith
  have hm2 : (1 : ℝ) - mu ≠ 0 := by intro h'; linarith
  have e : stripRatio mu t L = 12 / 5 * t ^ 2 / ((1 - mu) * L ^ 2) := by
    have : (1 : ℝ) - mu ^ 2 = (1 - mu) * (1 + mu) := by ring
    unfold stripRatio
    rw [this]
    field_simp
    ring
  have p1 : 0 < (1 - mu) * L ^ 2 := mul_pos (by linarith) hL0
  have p2 : 0 < (1 - mu) * L ^ 2 + 12 / 5 * t ^ 2 := by positivity
  have p3 : 0 < 5 / 6 * (1 - mu) * L ^ 2 + 2 * t ^ 2 := by
    have : 0 < 1 - mu := by linarith
    positivity
  have e1 : TMQ.delta mu t x y k = t ^ 2 / (5 / 6 * (1 - mu) * L ^ 2 + 2 * t ^ 2) := by
    unfold TMQ.delta
    rw [div_pow, ← hL]
    have : 5 / 6 * (1 - mu) + 2 * (t ^ 2 / L ^ 2) = (5 / 6 * (1 - mu) * L ^ 2 + 2 * t ^ 2) / L ^ 2 := by
      rw [eq_div_iff hL0.ne', add_mul, mul_assoc 2, div_mul_cancel₀ _ hL0.ne']
    rw [this, div_div_div_cancel_right₀ hL0.ne']
  have e2 : 1 + stripRatio mu t L = ((1 - mu) * L ^ 2 + 12 / 5 * t ^ 2) / ((1 - mu) * L ^ 2) := by
    rw [e, add_div, div_self p1.ne']
  rw [e1, e2, e, div_div_div_cancel_right₀ p1.ne', mul_div_assoc', div_eq_div_iff p3.ne' p2.ne']
  ring

/-- the vector with given components along two directions -/
theorem two_sides {c c' b b' D g g' u v : ℝ} (hD : D ≠ 0) (hD' : D = b * c' - b' * c) (e : c * u - b * v = g) (e' : c' * u - b' * v = g') :
    u = (-b' * g + b * g') / D ∧ v = (-c' * g + c * g') / D := by
  constructor
  · rw [eq_div_iff hD, hD']; linear_combination -b' * e + b * e'
  · rw [eq_div_iff hD, hD']; linear_combination -c' * e + c * e'

/-- the shear strains at a corner have the given components along its two sides -/
theorem corner_shear {mu t : ℝ} {x y : Fin 4 → ℝ} (h : TurnsLeft x y) (q : Fin 4 × Fin 3 → ℝ) (i : Fin 4) (g : Vec 2)
    (e : TMQ.c x (i + 3) * g 0 - TMQ.b y (i + 3) * g 1 = TMQ.delta mu t x y (i + 3) * TMQ.res x y q (i + 3))
    (e' : TMQ.c x (i + 2) * g 0 - TMQ.b y (i + 2) * g 1 = TMQ.delta mu t x y (i + 2) * TMQ.res x y q (i + 2)) :
    TMQ.Bs mu t x y (![-1, 1, 1, -1] i) (![-1, -1, 1, 1] i) *ᵥ q = g := by
  have hc := corner_of_turns h i
  rw [TMQ.Bs_mulVec]
  generalize hg : (fun k => TMQ.delta mu t x y k * TMQ.res x y q k) = f
  have hg' : ∀ k, TMQ.delta mu t x y k * TMQ.res x y q k = f k := fun k => congrFun hg k
  simp only [hg', Fin.sum_univ_four] at e e' ⊢
  clear hg hg'
  have key : ∀ {b b' c c' D u v : ℝ}, D ≠ 0 → D = b * c' - b' * c → c * g 0 - b * g 1 = u → c' * g 0 - b' * g 1 = v →
      -b' / D * u + b / D * v = g 0 ∧ -c' / D * u + c / D * v = g 1 := by
    intro b b' c c' D u v hD hD' e e'
    obtain ⟨h1, h2⟩ := two_sides hD hD' e e'
    rw [h1, h2]
    constructor <;> ring
  fin_cases i
  · have hD : TMQ.b y 2 * TMQ.c x 3 - TMQ.b y 3 * TMQ.c x 2 ≠ 0 := by
      simp only [corner, Fin.zero_eta, cons_val_zero] at hc
      intro h'; apply hc.ne'; rw [← h']; simp [TMQ.b, TMQ.c]; ring
    obtain ⟨h1, h2⟩ := key (b := TMQ.b y 2) (b' := TMQ.b y 3) (c := TMQ.c x 2) (c' := TMQ.c x 3) hD rfl e' e
    ext r; fin_cases r
    · refine Eq.trans ?_ h1; simp [TMQ.N0, TMQ.Xs]; norm_num
    · refine Eq.trans ?_ h2; simp [TMQ.N0, TMQ.Ys]; norm_num
  · have hD : TMQ.b y 3 * TMQ.c x 0 - TMQ.b y 0 * TMQ.c x 3 ≠ 0 := by
      simp only [corner, Fin.mk_one, cons_val_one, cons_val_zero] at hc
      intro h'; apply hc.ne'; rw [← h']; simp [TMQ.b, TMQ.c]; ring
    obtain ⟨h1, h2⟩ := key (b := TMQ.b y 3) (b' := TMQ.b y 0) (c := TMQ.c x 3) (c' := TMQ.c x 0) hD rfl e' e
    ext r; fin_cases r
    · refine Eq.trans ?_ h1; simp [TMQ.N0, TMQ.Xs]; norm_num; ring
    · refine Eq.trans ?_ h2; simp [TMQ.N0, TMQ.Ys]; norm_num; ring
  · have hD : TMQ.b y 0 * TMQ.c x 1 - TMQ.b y 1 * TMQ.c x 0 ≠ 0 := by
      simp only [corner, Fin.reduceFinMk, cons_val] at hc
      intro h'; apply hc.ne'; rw [← h']; simp [TMQ.b, TMQ.c]; ring
    obtain ⟨h1, h2⟩ := key (b := TMQ.b y 0) (b' := TMQ.b y 1) (c := TMQ.c x 0) (c' := TMQ.c x 1) hD rfl e' e
    ext r; fin_cases r
    · refine Eq.trans ?_ h1; simp [TMQ.N0, TMQ.Xs]; norm_num
    · refine Eq.trans ?_ h2; simp [TMQ.N0, TMQ.Ys]; norm_num
  · have hD : TMQ.b y 1 * TMQ.c x 2 - TMQ.b y 2 * TMQ.c x 1 ≠ 0 := by
      simp only [corner, Fin.reduceFinMk, cons_val] at hc
      intro h'; apply hc.ne'; rw [← h']; simp [TMQ.b, TMQ.c]; ring
    obtain ⟨h1, h2⟩ := key (b := TMQ.b y 1) (b' := TMQ.b y 2) (c := TMQ.c x 1) (c' := TMQ.c x 2) hD rfl e' e
    ext r; fin_cases r
    · refine Eq.trans ?_ h1; simp [TMQ.N0, TMQ.Xs]; norm_num
    · refine Eq.trans ?_ h2; simp [TMQ.N0, TMQ.Ys]; norm_num

theorem slip_res (x y : Fin 4 → ℝ) (q : Fin 4 × Fin 3 → ℝ) (i : Fin 4) :
    TMQ.res x y q (i + 3) = 2 * slip x y q i ∧ TMQ.c x (i + 3) = x (i + 1) - x i ∧ TMQ.b y (i + 3) = y i - y (i + 1) := by
  unfold TMQ.res slip
  fin_cases i <;> simp [TMQ.st, TMQ.en, TMQ.b, TMQ.c] <;> ring

/-- C143, shear: at every corner of a convex element, for all deflections and slopes of its nodes, the shear energy is that of the shear
strains `g` whose components along the two sides that meet there are the shear of the side in Timoshenko's beam theory: the part
`φ / (1 + φ)` of the deflection that the mean slopes do not explain, `φ` being the ratio of the flexibilities of the side. -/
theorem C143_shear (s : ShellSection) (hs : AdmissibleShell s) (ht : 0 < s.t) (x y : Fin 4 → ℝ) (h : TurnsLeft x y)
    (L : Fin 4 → ℝ) (hL : ∀ k, L k ^ 2 = (x (k + 1) - x k) ^ 2 + (y (k + 1) - y k) ^ 2) (u : Fin 4 × Fin 3 → ℝ) (i : Fin 4) (g : Vec 2)
    (hg : ∀ k, k = i ∨ k + 1 = i → (x (k + 1) - x k) * g 0 + (y (k + 1) - y k) * g 1 =
      stripRatio s.material.mu s.t (L k) / (1 + stripRatio s.material.mu s.t (L k)) * slip x y u k) :
    u ⬝ᵥ (TMQ.BCBs s.material.E s.material.mu s.t x y (![-1, 1, 1, -1] i) (![-1, -1, 1, 1] i) *ᵥ u) =
      ((x (i + 1) - x i) * (y (i + 3) - y i) - (x (i + 3) - x i) * (y (i + 1) - y i)) / 4 *
        (5 / 6 * (s.material.E / (2 * (1 + s.material.mu))) * s.t * (g 0 ^ 2 + g 1 ^ 2)) := by
  have hd : ∀ k, L k ^ 2 = TMQ.d x y (k + 3) ^ 2 := by
    intro k
    rw [TMQ.d_sq, (slip_res x y u k).2.1, (slip_res x y u k).2.2, hL]
    ring
  have hside : ∀ k, k = i ∨ k + 1 = i → TMQ.c x (k + 3) * g 0 - TMQ.b y (k + 3) * g 1 =
      TMQ.delta s.material.mu s.t x y (k + 3) * TMQ.res x y u (k + 3) := by
    intro k hk
    obtain ⟨e1, e2, e3⟩ := slip_res x y u k
    have := hg k hk
    rw [← delta_strip h hs.mu_gt hs.mu_lt ht _ (hd k)] at this
    rw [e1, e2, e3]
    linear_combination this
  have hB := corner_shear (mu := s.material.mu) (t := s.t) h u i g (hside i (Or.inl rfl)) (by
    have := hside (i + 3) (Or.inr (by fin_cases i <;> rfl))
    rwa [show i + 3 + 3 = i + 2 by fin_cases i <;> rfl] at this)
  rw [TMQ.tmq_work_s, hB]
  have hdet : DKQ.det x y (![-1, 1, 1, -1] i) (![-1, -1, 1, 1] i) =
      ((x (i + 1) - x i) * (y (i + 3) - y i) - (x (i + 3) - x i) * (y (i + 1) - y i)) / 4 := by
    unfold DKQ.det DKQ.J1 DKQ.J2
    fin_cases i <;> simp <;> ring
  have hm : (1 : ℝ) + s.material.mu ≠ 0 := by have := hs.mu_gt; intro h'; linarith
  rw [hdet]
  simp only [dotProduct, Fin.sum_univ_two]
  field_simp

theorem turns_of {x y : Fin 4 → ℝ} (h0 : 0 < (x 1 - x 0) * (y 2 - y 1) - (x 2 - x 1) * (y 1 - y 0))
    (h1 : 0 < (x 2 - x 1) * (y 3 - y 2) - (x 3 - x 2) * (y 2 - y 1)) (h2 : 0 < (x 3 - x 2) * (y 0 - y 3) - (x 0 - x 3) * (y 3 - y 2))
    (h3 : 0 < (x 0 - x 3) * (y 1 - y 0) - (x 1 - x 0) * (y 0 - y 3)) : TurnsLeft x y := by
  intro i
  fin_cases i
  exacts [h0, h1, h2, h3]

/-- a trapezium, a rule and a section with stiffness; a bowl over the trapezium that is no plane -/
example : ∃ (q : Scheme) (x y : Fin 4 → ℝ) (s : ShellSection) (a k : Vec 3), ProperRule q ∧ LinearRule q ∧ AdmissibleShell s ∧
    0 < s.material.E ∧ 0 < s.t ∧ TurnsLeft x y ∧ flatArea x y = 4 ∧ plateWork s (flatArea x y) k k ≠ 0 ∧
    sampled (bowl a k) x y (1, 1) = 3 ∧ sampled (tilt a) x y (1, 2) = 5 := by
  refine ⟨[(1, 1 / 2, 1 / 2), (1, -1 / 2, 1 / 2), (1, 1 / 2, -1 / 2), (1, -1 / 2, -1 / 2)], ![0, 3, 2, 0], ![0, 0, 2, 1], unitSection,
    ![0, 0, 5], ![1, 0, 0], ?_, ?_, unitSection_ok, ?_, ?_, ?_, ?_, ?_, ?_, ?_⟩
  · intro p hp
    simp at hp
    rcases hp with rfl | rfl | rfl | rfl <;> norm_num [abs_le]
  · norm_num [LinearRule]
  · norm_num [unitSection]
  · norm_num [unitSection]
  · apply turns_of <;> simp; norm_num
  · simp [flatArea]; norm_num
  · simp [flatArea, plateWork, planeStress, unitSection]; norm_num
  · rw [(sampled_bowl _ _ _ _ _).2.1]; simp
  · rw [tilt_bowl, (sampled_bowl _ _ _ _ _).2.2]; simp

/-- a square whose second corner is lifted: shear along the first side only -/
example : ∃ (x y L : Fin 4 → ℝ) (u : Fin 4 × Fin 3 → ℝ) (g : Vec 2), TurnsLeft x y ∧
    (∀ k, L k ^ 2 = (x (k + 1) - x k) ^ 2 + (y (k + 1) - y k) ^ 2) ∧ g 0 ≠ 0 ∧
    ∀ k : Fin 4, k = 0 ∨ k + 1 = 0 → (x (k + 1) - x k) * g 0 + (y (k + 1) - y k) * g 1 =
      stripRatio unitSection.material.mu unitSection.t (L k) / (1 + stripRatio unitSection.material.mu unitSection.t (L k)) * slip x y u k := by
  refine ⟨![0, 1, 1, 0], ![0, 0, 1, 1], fun _ => 1, fun j => if j = (1, 0) then 1 else 0,
    ![stripRatio unitSection.material.mu unitSection.t 1 / (1 + stripRatio unitSection.material.mu unitSection.t 1), 0], ?_, ?_, ?_, ?_⟩
  · apply turns_of <;> simp
  · intro k; fin_cases k <;> simp
  · norm_num [stripRatio, unitSection]
  · intro k hk
    fin_cases k
    · simp [slip]
    · exact absurd hk (by decide)
    · exact absurd hk (by decide)
    · simp [slip]

end Hyperstatic
