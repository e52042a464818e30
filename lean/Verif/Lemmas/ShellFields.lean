import Verif.Lemmas.ShellElm
import Verif.Props.Shell

/-
Shell elements as created by the library; simple displacement fields on them.
-/

namespace Hyperstatic
open Matrix Spec

theorem dkgq_shape {name : String} {s : ShellSection} {a b c d : Node} {e : ShellElm} (he : ShellElm.dkgq? name s a b c d = .ok e) :
    e.section_ = s ∧ e.nodes = [(a.name, a.loc), (b.name, b.loc), (c.name, c.loc), (d.name, d.loc)] ∧
    quadCsys a.loc b.loc c.loc d.loc = .ok e.csys := by
  unfold ShellElm.dkgq? at he
  cases hq : quadCsys a.loc b.loc c.loc d.loc with
  | error err => rw [hq] at he; cases he
  | ok o =>
    rw [hq] at he
    cases he
    exact ⟨rfl, rfl, rfl⟩

theorem dkt_shape {name : String} {s : ShellSection} {a b c : Node} {e : ShellElm} (he : ShellElm.dkt? name s a b c = .ok e) :
    e.section_ = s ∧ e.nodes = [(a.name, a.loc), (b.name, b.loc), (c.name, c.loc)] ∧
    triaCsys a.loc b.loc c.loc = .ok e.csys := by
  unfold ShellElm.dkt? at he
  cases hq : triaCsys a.loc b.loc c.loc with
  | error err => rw [hq] at he; cases he
  | ok o =>
    rw [hq] at he
    cases he
    exact ⟨rfl, rfl, rfl⟩

theorem dkgq_axes {name : String} {s : ShellSection} {a b c d : Node} {e : ShellElm} (he : ShellElm.dkgq? name s a b c d = .ok e)
    {cs : Csys} (hcs : e.csys = some cs) : RightHanded cs ∧ cs.z = (cornerNormal a.loc b.loc c.loc).unit := by
  have hne : cornerNormal a.loc b.loc c.loc ≠ 0 := by
    intro h0
    have h := (dkgq_shape he).2.2
    unfold quadCsys at h
    have h0' : V3.norm (V3.cross (a.loc - b.loc) (b.loc - c.loc)) = 0 := (V3.norm_eq_zero_iff _).mpr h0
    simp only [h0', if_true] at h
    rw [hcs] at h
    cases h
  obtain ⟨e', he', _, h⟩ := C42_quad_partial name s a b c d
  rw [he] at he'
  cases he'
  obtain ⟨cs', hcs', h1, h2⟩ := h hne
  rw [hcs] at hcs'
  cases hcs'
  exact ⟨h1, h2⟩

theorem dkt_axes {name : String} {s : ShellSection} {a b c : Node} {e : ShellElm} (he : ShellElm.dkt? name s a b c = .ok e)
    {cs : Csys} (hcs : e.csys = some cs) : RightHanded cs ∧ cs.z = (cornerNormal a.loc b.loc c.loc).unit := by
  have hne : cornerNormal a.loc b.loc c.loc ≠ 0 := by
    intro h0
    have h := (dkt_shape he).2.2
    unfold triaCsys at h
    have h0' : V3.norm (V3.cross (a.loc - b.loc) (b.loc - c.loc)) = 0 := (V3.norm_eq_zero_iff _).mpr h0
    simp only [h0', if_true] at h
    rw [hcs] at h
    cases h
  obtain ⟨_, cs', hcs', h1, h2⟩ := (C42_tria_partial name s a b c hne).2 e he
  rw [hcs] at hcs'
  cases hcs'
  exact ⟨h1, h2⟩

namespace V3
theorem dot_sub (a b c : V3) : a.dot (b - c) = a.dot b - a.dot c := by unfold dot; simp only [sub_def]; ring
theorem dot_add (a b c : V3) : a.dot (b + c) = a.dot b + a.dot c := by unfold dot; simp only [add_def]; ring
theorem dot_smul (a b : V3) (k : ℝ) : a.dot (k • b) = k * a.dot b := by unfold dot; simp only [smul_def]; ring
theorem dot_zero' (a : V3) : a.dot 0 = 0 := by unfold dot; simp only [zero_def]; ring
theorem lagrange (a b c d : V3) : (a.cross b).dot (c.cross d) = a.dot c * b.dot d - a.dot d * b.dot c := by unfold dot cross; ring
end V3

theorem Spec.RightHanded.z_cross {c : Csys} (h : RightHanded c) (u v : V3) :
    c.z.dot (u.cross v) = c.x.dot u * c.y.dot v - c.x.dot v * c.y.dot u := by rw [← h.hand, V3.lagrange]
theorem Spec.RightHanded.x_cross {c : Csys} (h : RightHanded c) (u v : V3) :
    c.x.dot (u.cross v) = c.y.dot u * c.z.dot v - c.y.dot v * c.z.dot u := by rw [← Hyperstatic.RightHanded.cross_yz h, V3.lagrange]
theorem Spec.RightHanded.y_cross {c : Csys} (h : RightHanded c) (u v : V3) :
    c.y.dot (u.cross v) = c.z.dot u * c.x.dot v - c.z.dot v * c.x.dot u := by rw [← Hyperstatic.RightHanded.cross_zx h, V3.lagrange]

theorem Spec.RightHanded.yx {c : Csys} (h : RightHanded c) : c.y.dot c.x = 0 := by rw [V3.dot_comm, h.xy]
theorem Spec.RightHanded.zy {c : Csys} (h : RightHanded c) : c.z.dot c.y = 0 := by rw [V3.dot_comm, h.yz]
theorem Spec.RightHanded.xz {c : Csys} (h : RightHanded c) : c.x.dot c.z = 0 := by rw [V3.dot_comm, h.zx]

/-- a vector without components along the axes is zero -/
theorem Spec.RightHanded.eq_zero {c : Csys} (h : RightHanded c) {v : V3} (hx : c.x.dot v = 0) (hy : c.y.dot v = 0) (hz : c.z.dot v = 0) :
    v = 0 := by
  have h1 := csysT_orth h
  have h2 : c.Tᵀ * c.T = 1 := mul_eq_one_comm.mp h1
  have e : c.T *ᵥ ![v.x, v.y, v.z] = 0 := by
    unfold V3.dot at hx hy hz
    ext i
    fin_cases i <;> simp [Csys.T, mulVec, dotProduct, Fin.sum_univ_three] <;> linarith
  have e2 : ![v.x, v.y, v.z] = (0 : Vec 3) := by
    have := congrArg (fun w => c.Tᵀ *ᵥ w) e
    simpa [Matrix.mulVec_mulVec, h2] using this
  apply V3.ext
  · simpa using congrFun e2 0
  · simpa using congrFun e2 1
  · simpa using congrFun e2 2

section fields

theorem trans_field {loc : String → Option V3} {disp rotn : V3 → V3} {n : String} {p : V3} (h : loc n = some p) :
    Spec.trans (fieldState loc disp rotn n) = disp p := by
  unfold fieldState Spec.trans
  simp [h]
theorem rot_field {loc : String → Option V3} {disp rotn : V3 → V3} {n : String} {p : V3} (h : loc n = some p) :
    Spec.rot (fieldState loc disp rotn n) = rotn p := by
  unfold fieldState Spec.rot
  simp [h]
theorem trans_rigid {loc : String → Option V3} {t ω : V3} {n : String} {p : V3} (h : loc n = some p) :
    Spec.trans (rigidState loc t ω n) = t + V3.cross ω p := by
  unfold rigidState Spec.trans
  simp [h]
theorem rot_rigid {loc : String → Option V3} {t ω : V3} {n : String} {p : V3} (h : loc n = some p) :
    Spec.rot (rigidState loc t ω n) = ω := by
  unfold rigidState Spec.rot
  simp [h]

theorem along1_sub (c : Csys) (p q : V3) : along1 c p - along1 c q = c.x.dot (p - q) := by
  unfold along1; rw [V3.dot_sub, V3.dot_sub, V3.dot_sub]; ring
theorem along2_sub (c : Csys) (p q : V3) : along2 c p - along2 c q = c.y.dot (p - q) := by
  unfold along2; rw [V3.dot_sub, V3.dot_sub, V3.dot_sub]; ring

theorem stretch_comps {c : Csys} (h : RightHanded c) (e : Vec 3) (p : V3) :
    c.x.dot (stretch c e p) = e 0 * along1 c p + e 2 / 2 * along2 c p ∧
    c.y.dot (stretch c e p) = e 2 / 2 * along1 c p + e 1 * along2 c p ∧ c.z.dot (stretch c e p) = 0 := by
  unfold stretch
  simp only [V3.dot_add, V3.dot_smul, h.xx, h.xy, h.yy, h.yx, h.zx, h.zy]
  refine ⟨by ring, by ring, by ring⟩

theorem bend_comps {c : Csys} (h : RightHanded c) (k : Vec 3) (p : V3) :
    c.x.dot (bend c k p) = 0 ∧ c.y.dot (bend c k p) = 0 ∧ c.z.dot (bend c k p) = deflection c k p := by
  unfold bend
  simp only [V3.dot_smul, h.xz, h.yz, h.zz]
  refine ⟨by ring, by ring, by ring⟩

theorem bendRot_comps {c : Csys} (h : RightHanded c) (k : Vec 3) (p : V3) :
    c.x.dot (bendRot c k p) = k 1 * along2 c p + k 2 / 2 * along1 c p ∧
    c.y.dot (bendRot c k p) = -(k 0 * along1 c p + k 2 / 2 * along2 c p) ∧ c.z.dot (bendRot c k p) = 0 := by
  unfold bendRot
  simp only [V3.dot_add, V3.dot_smul, h.xx, h.xy, h.yy, h.yx, h.zx, h.zy]
  refine ⟨by ring, by ring, by ring⟩

end fields

theorem membraneD_stress (E mu : ℝ) (e : Vec 3) : membraneD E mu *ᵥ e = planeStress E mu e := by
  unfold membraneD planeStress isoD
  rw [Matrix.smul_mulVec]
  congr 1
  ext i
  fin_cases i <;> simp [mulVec, dotProduct, Fin.sum_univ_three]

theorem bendingD_stress (E mu t : ℝ) (e : Vec 3) : bendingD E mu t *ᵥ e = (t ^ 3 / 12) • planeStress E mu e := by
  rw [← membraneD_stress]
  unfold membraneD bendingD
  rw [Matrix.smul_mulVec, Matrix.smul_mulVec, smul_smul]
  congr 1
  ring

theorem planeStress_neg (E mu : ℝ) (e : Vec 3) : planeStress E mu (-e) = -planeStress E mu e := by
  rw [← membraneD_stress, ← membraneD_stress, Matrix.mulVec_neg]

theorem rule_linear {s : Scheme} (h : LinearRule s) (f : ℝ × ℝ × ℝ → ℝ) (A B C : ℝ) (hf : ∀ w ∈ s, f w = A + B * w.2.1 + C * w.2.2) :
    (s.map fun w => w.1 * f w).sum = 4 * A := by
  have h1 : (s.map fun w => w.1 * f w) = s.map fun w => A * w.1 + B * (w.1 * w.2.1) + C * (w.1 * w.2.2) := by
    apply List.map_congr_left
    intro w hw
    rw [hf w hw]
    ring
  rw [h1, List.sum_map_add, List.sum_map_add, List.sum_map_mul_left, List.sum_map_mul_left, List.sum_map_mul_left, h.1, h.2.1, h.2.2]
  ring

theorem dkq_detJ (x y : Fin 4 → ℝ) (ξ η : ℝ) : DKQ.detJ x y ξ η = DKQ.det x y ξ η := by
  unfold DKQ.detJ DKQ.det DKQ.J1 DKQ.J2
  ring

/-- twice the areas of the corner triangles -/
def corner (x y : Fin 4 → ℝ) : Fin 4 → ℝ :=
  ![(x 1 - x 0) * (y 3 - y 0) - (x 3 - x 0) * (y 1 - y 0), (x 2 - x 1) * (y 0 - y 1) - (x 0 - x 1) * (y 2 - y 1),
    (x 3 - x 2) * (y 1 - y 2) - (x 1 - x 2) * (y 3 - y 2), (x 0 - x 3) * (y 2 - y 3) - (x 2 - x 3) * (y 0 - y 3)]

theorem gq_det_corner (x y : Fin 4 → ℝ) (ξ η : ℝ) : (GQ12.J x y ξ η).det =
    (corner x y 0 * ((1 + ξ) * (1 - η)) + corner x y 1 * ((1 + ξ) * (1 + η)) + corner x y 2 * ((1 - ξ) * (1 + η)) +
      corner x y 3 * ((1 - ξ) * (1 - η))) / 16 := by
  rw [gqJ_det]
  simp [corner, gXi, gEta]
  ring

theorem dkq_det_corner (x y : Fin 4 → ℝ) (ξ η : ℝ) : DKQ.det x y ξ η =
    (corner x y 0 * ((1 - ξ) * (1 - η)) + corner x y 1 * ((1 + ξ) * (1 - η)) + corner x y 2 * ((1 + ξ) * (1 + η)) +
      corner x y 3 * ((1 - ξ) * (1 + η))) / 16 := by
  simp [corner, DKQ.det, DKQ.J1, DKQ.J2]
  ring

theorem det_nonneg {x y : Fin 4 → ℝ} (hc : ∀ i, 0 ≤ corner x y i) {ξ η : ℝ} (h1 : |ξ| ≤ 1) (h2 : |η| ≤ 1) :
    0 ≤ (GQ12.J x y ξ η).det ∧ 0 ≤ DKQ.det x y ξ η := by
  rw [abs_le] at h1 h2
  have a1 : 0 ≤ 1 + ξ := by linarith
  have a2 : 0 ≤ 1 - ξ := by linarith
  have a3 : 0 ≤ 1 + η := by linarith
  have a4 : 0 ≤ 1 - η := by linarith
  have c0 := hc 0
  have c1 := hc 1
  have c2 := hc 2
  have c3 := hc 3
  rw [gq_det_corner, dkq_det_corner]
  constructor <;> positivity

theorem det_pos {x y : Fin 4 → ℝ} (hc : ∀ i, 0 < corner x y i) {ξ η : ℝ} (h1 : |ξ| ≤ 1) (h2 : |η| ≤ 1) :
    0 < (GQ12.J x y ξ η).det ∧ 0 < DKQ.det x y ξ η := by
  rw [abs_le] at h1 h2
  have a1 : 0 ≤ 1 + ξ := by linarith
  have a2 : 0 ≤ 1 - ξ := by linarith
  have a3 : 0 ≤ 1 + η := by linarith
  have a4 : 0 ≤ 1 - η := by linarith
  obtain ⟨m, hm, hmc⟩ : ∃ m, 0 < m ∧ ∀ i, m ≤ corner x y i := by
    refine ⟨min (min (corner x y 0) (corner x y 1)) (min (corner x y 2) (corner x y 3)), ?_, ?_⟩
    · exact lt_min (lt_min (hc 0) (hc 1)) (lt_min (hc 2) (hc 3))
    · intro i
      fin_cases i
      · exact (min_le_left _ _).trans (min_le_left _ _)
      · exact (min_le_left _ _).trans (min_le_right _ _)
      · exact (min_le_right _ _).trans (min_le_left _ _)
      · exact (min_le_right _ _).trans (min_le_right _ _)
  have p1 := mul_nonneg a1 a4
  have p2 := mul_nonneg a1 a3
  have p3 := mul_nonneg a2 a3
  have p4 := mul_nonneg a2 a4
  rw [gq_det_corner, dkq_det_corner]
  constructor
  · nlinarith [mul_le_mul_of_nonneg_right (hmc 0) p1, mul_le_mul_of_nonneg_right (hmc 1) p2, mul_le_mul_of_nonneg_right (hmc 2) p3,
      mul_le_mul_of_nonneg_right (hmc 3) p4]
  · nlinarith [mul_le_mul_of_nonneg_right (hmc 0) p4, mul_le_mul_of_nonneg_right (hmc 1) p1, mul_le_mul_of_nonneg_right (hmc 2) p2,
      mul_le_mul_of_nonneg_right (hmc 3) p3]

theorem corner_eq {c : Csys} (h : RightHanded c) (p : Fin 4 → V3) :
    corner (planeX c p) (planeY c p) = ![c.z.dot ((p 1 - p 0).cross (p 3 - p 0)), c.z.dot ((p 2 - p 1).cross (p 0 - p 1)),
      c.z.dot ((p 3 - p 2).cross (p 1 - p 2)), c.z.dot ((p 0 - p 3).cross (p 2 - p 3))] := by
  unfold corner planeX planeY
  simp only [h.z_cross, V3.dot_sub]
  ext i
  fin_cases i <;> simp <;> ring

theorem dkq_l2_pos {x y : Fin 4 → ℝ} (hc : ∀ i, 0 < corner x y i) (k : Fin 4) : DKQ.l2 x y k ≠ 0 := by
  intro h
  unfold DKQ.l2 at h
  have hx : DKQ.side x k = 0 := by nlinarith [sq_nonneg (DKQ.side x k), sq_nonneg (DKQ.side y k)]
  have hy : DKQ.side y k = 0 := by nlinarith [sq_nonneg (DKQ.side x k), sq_nonneg (DKQ.side y k)]
  have c0 := hc 0
  have c2 := hc 2
  unfold corner at c0 c2
  simp at c0 c2
  unfold DKQ.side at hx hy
  have h0 : DKQ.nx 0 = 1 := rfl
  have h1 : DKQ.nx 1 = 2 := rfl
  have h2 : DKQ.nx 2 = 3 := rfl
  have h3 : DKQ.nx 3 = 0 := rfl
  fin_cases k
  · simp only [Fin.zero_eta, h0] at hx hy
    rw [show x 1 - x 0 = 0 by linarith, show y 1 - y 0 = 0 by linarith] at c0
    simp at c0
  · simp only [Fin.mk_one, h1] at hx hy
    rw [show x 1 - x 2 = 0 by linarith, show y 1 - y 2 = 0 by linarith] at c2
    simp at c2
  · simp only [Fin.reduceFinMk, h2] at hx hy
    rw [show x 3 - x 2 = 0 by linarith, show y 3 - y 2 = 0 by linarith] at c2
    simp at c2
  · simp only [Fin.reduceFinMk, h3] at hx hy
    rw [show x 3 - x 0 = 0 by linarith, show y 3 - y 0 = 0 by linarith] at c0
    simp at c0

theorem corner_pos {c : Csys} (h : RightHanded c) {p0 p1 p2 p3 : V3} (hc : StrictConvex c.z p0 p1 p2 p3) (i : Fin 4) :
    0 < corner (planeX c ![p0, p1, p2, p3]) (planeY c ![p0, p1, p2, p3]) i := by
  rw [corner_eq h]
  obtain ⟨h1, h2, h3, h4⟩ := hc
  fin_cases i <;> simpa

/-- strictly convex elements are evaluated without dividing by zero -/
theorem quad_regular {q : Schemes} (hq : ProperRule q.quad) {e : ShellElm} {c : Csys} (hc : e.csys = some c) (hr : RightHanded c)
    {n0 n1 n2 n3 : String × V3} (hn : e.nodes = [n0, n1, n2, n3]) (hconv : StrictConvex c.z n0.2 n1.2 n2.2 n3.2)
    (hmu : 1 - e.section_.material.mu ^ 2 ≠ 0) : e.regular q := by
  unfold ShellElm.regular
  rw [hc, hn]
  have hp := corner_pos hr hconv
  refine ⟨hmu, fun _ w hw => ?_, fun _ => ⟨fun k => dkq_l2_pos hp k, fun w hw => ?_⟩⟩
  · exact (det_pos hp (hq w hw).2.1 (hq w hw).2.2).1.ne'
  · rw [dkq_detJ]
    exact (det_pos hp (hq w hw).2.1 (hq w hw).2.2).2.ne'

theorem tria_coords {c : Csys} (h : RightHanded c) (p : Fin 3 → V3) :
    2 * T9.A (fun i => c.x.dot (p i)) (fun i => c.y.dot (p i)) = c.z.dot ((p 1 - p 0).cross (p 2 - p 0)) ∧
    DKT.side (fun i => c.x.dot (p i)) 1 * DKT.side (fun i => c.y.dot (p i)) 2 -
      DKT.side (fun i => c.x.dot (p i)) 2 * DKT.side (fun i => c.y.dot (p i)) 1 = c.z.dot ((p 1 - p 0).cross (p 2 - p 0)) := by
  rw [t9_A, h.z_cross]
  simp only [V3.dot_sub]
  constructor
  · ring
  · simp [DKT.side]
    ring

/-- triangles are evaluated without dividing by zero -/
theorem tria_regular {q : Schemes} {name : String} {s : ShellSection} {a b c : Node} {e : ShellElm}
    (he : ShellElm.dkt? name s a b c = .ok e) {cs : Csys} (hcs : e.csys = some cs) (hmu : 1 - s.material.mu ^ 2 ≠ 0) : e.regular q := by
  obtain ⟨hs, hn, hq⟩ := dkt_shape he
  obtain ⟨hr, hz⟩ := dkt_axes he hcs
  have hne : cornerNormal a.loc b.loc c.loc ≠ 0 := by
    intro h0
    unfold triaCsys at hq
    have h0' : V3.norm (V3.cross (a.loc - b.loc) (b.loc - c.loc)) = 0 := (V3.norm_eq_zero_iff _).mpr h0
    simp only [h0', if_true] at hq
    rw [hcs] at hq
    cases hq
  have hA : 0 < cs.z.dot ((b.loc - a.loc).cross (c.loc - a.loc)) := by
    have h1 : (b.loc - a.loc).cross (c.loc - a.loc) = cornerNormal a.loc b.loc c.loc := by
      unfold cornerNormal V3.cross
      simp only [V3.sub_def]
      ext <;> simp <;> ring
    rw [h1, hz]
    have h3 : (cornerNormal a.loc b.loc c.loc).unit.dot (cornerNormal a.loc b.loc c.loc) = (cornerNormal a.loc b.loc c.loc).norm := by
      have h4 := V3.dot_smul (cornerNormal a.loc b.loc c.loc).unit (cornerNormal a.loc b.loc c.loc).unit (cornerNormal a.loc b.loc c.loc).norm
      rw [V3.norm_smul_unit hne, V3.unit_dot hne, mul_one] at h4
      exact h4
    rw [h3]
    exact (V3.norm_pos_iff _).mpr hne
  obtain ⟨t1, t2⟩ := tria_coords hr ![a.loc, b.loc, c.loc]
  simp only [cons_val_zero, cons_val_one, cons_val] at t1 t2
  unfold ShellElm.regular
  rw [hcs, hn, hs]
  refine ⟨hmu, ?_, ?_, ?_⟩
  · intro h
    rw [h] at t1
    linarith
  · intro k hk
    rw [dkt_l2] at hk
    have hx : DKT.side (fun i => cs.x.dot (![a.loc, b.loc, c.loc] i)) k = 0 := by
      nlinarith [sq_nonneg (DKT.side (fun i => cs.x.dot (![a.loc, b.loc, c.loc] i)) k),
        sq_nonneg (DKT.side (fun i => cs.y.dot (![a.loc, b.loc, c.loc] i)) k)]
    have hy : DKT.side (fun i => cs.y.dot (![a.loc, b.loc, c.loc] i)) k = 0 := by
      nlinarith [sq_nonneg (DKT.side (fun i => cs.x.dot (![a.loc, b.loc, c.loc] i)) k),
        sq_nonneg (DKT.side (fun i => cs.y.dot (![a.loc, b.loc, c.loc] i)) k)]
    have hsum : ∀ f : Fin 3 → ℝ, DKT.side f 0 + DKT.side f 1 + DKT.side f 2 = 0 := by
      intro f; simp [DKT.side]
    have sx := hsum fun i => cs.x.dot (![a.loc, b.loc, c.loc] i)
    have sy := hsum fun i => cs.y.dot (![a.loc, b.loc, c.loc] i)
    rw [← t2] at hA
    fin_cases k
    · simp only [Fin.zero_eta] at hx hy
      rw [hx] at sx
      rw [hy] at sy
      have e1 : DKT.side (fun i => cs.x.dot (![a.loc, b.loc, c.loc] i)) 2 = -DKT.side (fun i => cs.x.dot (![a.loc, b.loc, c.loc] i)) 1 := by
        linarith
      have e2 : DKT.side (fun i => cs.y.dot (![a.loc, b.loc, c.loc] i)) 2 = -DKT.side (fun i => cs.y.dot (![a.loc, b.loc, c.loc] i)) 1 := by
        linarith
      rw [e1, e2] at hA
      linarith
    · simp only [Fin.mk_one] at hx hy
      rw [hx, hy] at hA
      simp at hA
    · simp only [Fin.reduceFinMk] at hx hy
      rw [hx, hy] at hA
      simp at hA
  · intro h
    rw [← t2] at hA
    exact hA.ne' h

theorem locates_quad {loc : String → Option V3} {e : ShellElm} (h : LocatesShell loc e) {n0 n1 n2 n3 : String × V3}
    (hn : e.nodes = [n0, n1, n2, n3]) (i : Fin 4) : loc (![n0.1, n1.1, n2.1, n3.1] i) = some (![n0.2, n1.2, n2.2, n3.2] i) := by
  unfold LocatesShell at h
  rw [hn] at h
  fin_cases i
  · exact h n0 (by simp)
  · exact h n1 (by simp)
  · exact h n2 (by simp)
  · exact h n3 (by simp)

theorem locates_tria {loc : String → Option V3} {e : ShellElm} (h : LocatesShell loc e) {n0 n1 n2 : String × V3}
    (hn : e.nodes = [n0, n1, n2]) (i : Fin 3) : loc (![n0.1, n1.1, n2.1] i) = some (![n0.2, n1.2, n2.2] i) := by
  unfold LocatesShell at h
  rw [hn] at h
  fin_cases i
  · exact h n0 (by simp)
  · exact h n1 (by simp)
  · exact h n2 (by simp)

theorem planar_quad {c : Csys} {e : ShellElm} (h : Planar c e) {n0 n1 n2 n3 : String × V3}
    (hn : e.nodes = [n0, n1, n2, n3]) (i j : Fin 4) : c.z.dot (![n0.2, n1.2, n2.2, n3.2] i - ![n0.2, n1.2, n2.2, n3.2] j) = 0 := by
  unfold Planar at h
  rw [hn] at h
  have hmem : ∀ i : Fin 4, ∃ x ∈ [n0, n1, n2, n3], x.2 = ![n0.2, n1.2, n2.2, n3.2] i := by
    intro i
    fin_cases i <;> simp
  obtain ⟨x, hx, ex⟩ := hmem i
  obtain ⟨y, hy, ey⟩ := hmem j
  rw [← ex, ← ey]
  exact h x hx y hy

/-- the nodes of a triangle lie in its plane -/
theorem planar_tria {c : Csys} {p0 p1 p2 : V3} (hz : c.z = (cornerNormal p0 p1 p2).unit) (i j : Fin 3) :
    c.z.dot (![p0, p1, p2] i - ![p0, p1, p2] j) = 0 := by
  have h1 : c.z.dot (p0 - p1) = 0 ∧ c.z.dot (p1 - p2) = 0 := by
    have hg : ∀ w : V3, w.dot (cornerNormal p0 p1 p2) = 0 → c.z.dot w = 0 := by
      intro w hw
      rw [hz]
      unfold V3.unit V3.dot at *
      rw [div_mul_eq_mul_div, div_mul_eq_mul_div, div_mul_eq_mul_div, ← add_div, ← add_div]
      rw [show (cornerNormal p0 p1 p2).x * w.x + (cornerNormal p0 p1 p2).y * w.y + (cornerNormal p0 p1 p2).z * w.z = 0 by linarith,
        zero_div]
    exact ⟨hg _ (V3.dot_cross_left _ _), hg _ (V3.dot_cross_right _ _)⟩
  obtain ⟨h1, h2⟩ := h1
  rw [V3.dot_sub] at h1 h2
  rw [V3.dot_sub]
  fin_cases i <;> fin_cases j <;> simp <;> linarith

/-- the area a triangle reports, compared with its area -/
theorem triaArea_eq (a b c : V3) : triaArea a b c = (((b - a).cross (c - a)).x + ((b - a).cross (c - a)).y + ((b - a).cross (c - a)).z) / 2 := by
  simp [triaArea, V3.cross, Matrix.det_fin_three, V3.sub_def]
  ring

theorem corner_cross (a b c : V3) : (b - a).cross (c - a) = cornerNormal a b c := by
  unfold cornerNormal
  ext <;> simp only [V3.cross, V3.sub_def] <;> ring

theorem tria_normal {name : String} {s : ShellSection} {a b c : Node} {e : ShellElm} (he : ShellElm.dkt? name s a b c = .ok e)
    {cs : Csys} (hcs : e.csys = some cs) : 0 < triangleArea cs.z a.loc b.loc c.loc ∧
    triaArea a.loc b.loc c.loc = triangleArea cs.z a.loc b.loc c.loc * (cs.z.x + cs.z.y + cs.z.z) := by
  obtain ⟨hr, hz⟩ := dkt_axes he hcs
  have hne : (cornerNormal a.loc b.loc c.loc).norm ≠ 0 := by
    intro h0
    have h1 := hr.zz
    rw [hz] at h1
    unfold V3.unit V3.dot at h1
    rw [h0] at h1
    simp at h1
  rw [triaArea_eq]
  unfold triangleArea
  rw [corner_cross]
  have hsq := V3.norm_sq (cornerNormal a.loc b.loc c.loc)
  have hpos : 0 < (cornerNormal a.loc b.loc c.loc).norm := lt_of_le_of_ne (V3.norm_nonneg _) hne.symm
  generalize cornerNormal a.loc b.loc c.loc = n at *
  have hd : cs.z.dot n = n.norm := by
    rw [hz]
    unfold V3.unit V3.dot at *
    field_simp
    linarith
  rw [hd, hz]
  refine ⟨by linarith, ?_⟩
  unfold V3.unit
  field_simp

end Hyperstatic
