import Verif.Props.Frame

/-
C74: the reported displacements of a cantilever are those of the textbook.
-/

namespace Hyperstatic
open Matrix Spec

/-- a displacement of a node with given components along the axes of a local system -/
noncomputable def fromLocal (c : Csys) (d : Vec 6) : Vec 6 :=
  ![d 0 * c.x.x + d 1 * c.y.x + d 2 * c.z.x, d 0 * c.x.y + d 1 * c.y.y + d 2 * c.z.y, d 0 * c.x.z + d 1 * c.y.z + d 2 * c.z.z,
    d 3 * c.x.x + d 4 * c.y.x + d 5 * c.z.x, d 3 * c.x.y + d 4 * c.y.y + d 5 * c.z.y, d 3 * c.x.z + d 4 * c.y.z + d 5 * c.z.z]

theorem dot_fromLocal {c : Csys} (h : RightHanded c) (d : Vec 6) :
    c.x.dot (Spec.trans (fromLocal c d)) = d 0 ∧ c.y.dot (Spec.trans (fromLocal c d)) = d 1 ∧ c.z.dot (Spec.trans (fromLocal c d)) = d 2 ∧
    c.x.dot (Spec.rot (fromLocal c d)) = d 3 ∧ c.y.dot (Spec.rot (fromLocal c d)) = d 4 ∧ c.z.dot (Spec.rot (fromLocal c d)) = d 5 := by
  obtain ⟨h1, h2, h3, h4, h5, h6, _⟩ := h
  simp only [V3.dot] at h1 h2 h3 h4 h5 h6
  simp only [V3.dot, Spec.trans, Spec.rot, fromLocal, cons_val_zero, cons_val_one, cons_val]
  refine ⟨?_, ?_, ?_, ?_, ?_, ?_⟩
  · linear_combination d 0 * h1 + d 1 * h4 + d 2 * h6
  · linear_combination d 0 * h4 + d 1 * h2 + d 2 * h5
  · linear_combination d 0 * h6 + d 1 * h5 + d 2 * h3
  · linear_combination d 3 * h1 + d 4 * h4 + d 5 * h6
  · linear_combination d 3 * h4 + d 4 * h2 + d 5 * h5
  · linear_combination d 3 * h6 + d 4 * h5 + d 5 * h3

/-- the scalar product in the components of a right-handed system -/
theorem dot_local {c : Csys} (h : RightHanded c) (a b : V3) :
    a.dot b = c.x.dot a * c.x.dot b + c.y.dot a * c.y.dot b + c.z.dot a * c.z.dot b := by
  have h2 : c.Tᵀ * c.T = 1 := mul_eq_one_comm.mp (csysT_orth h)
  have k : ∀ i j : Fin 3, (c.Tᵀ * c.T) i j = if i = j then 1 else 0 := by intro i j; rw [h2, Matrix.one_apply]
  have k00 := k 0 0
  have k01 := k 0 1
  have k02 := k 0 2
  have k11 := k 1 1
  have k12 := k 1 2
  have k22 := k 2 2
  simp [Csys.T, Matrix.mul_apply, Fin.sum_univ_three] at k00 k01 k02 k11 k12 k22
  simp only [V3.dot]
  linear_combination -(a.x * b.x) * k00 - (a.x * b.y + a.y * b.x) * k01 - (a.x * b.z + a.z * b.x) * k02 - (a.y * b.y) * k11 -
    (a.y * b.z + a.z * b.y) * k12 - (a.z * b.z) * k22

/-- the end displacements, in local components, under end forces `f` -/
noncomputable def tipAnswer (c : BeamConsts) (L : ℝ) (f : Vec 6) : Vec 6 :=
  ![f 0 * L / (c.E * c.A), f 1 * L ^ 3 / (3 * (c.E * c.I3)) + f 5 * L ^ 2 / (2 * (c.E * c.I3)),
    f 2 * L ^ 3 / (3 * (c.E * c.I2)) - f 4 * L ^ 2 / (2 * (c.E * c.I2)), f 3 * L / (c.G * c.J),
    f 4 * L / (c.E * c.I2) - f 2 * L ^ 2 / (2 * (c.E * c.I2)), f 5 * L / (c.E * c.I3) + f 1 * L ^ 2 / (2 * (c.E * c.I3))]

theorem tip_work {c : BeamConsts} {L : ℝ} (hL : 0 < L) (hA : 0 < c.E * c.A) (hJ : 0 < c.G * c.J) (h3 : 0 < c.E * c.I3)
    (h2 : 0 < c.E * c.I2) (f : Vec 6) {v d : Vec 12} (hv : v 0 = 0 ∧ v 1 = 0 ∧ v 2 = 0 ∧ v 3 = 0 ∧ v 4 = 0 ∧ v 5 = 0)
    (hd : d 0 = 0 ∧ d 1 = 0 ∧ d 2 = 0 ∧ d 3 = 0 ∧ d 4 = 0 ∧ d 5 = 0)
    (h : d 6 = tipAnswer c L f 0 ∧ d 7 = tipAnswer c L f 1 ∧ d 8 = tipAnswer c L f 2 ∧ d 9 = tipAnswer c L f 3 ∧
      d 10 = tipAnswer c L f 4 ∧ d 11 = tipAnswer c L f 5) :
    beamWork c L v d = f 0 * v 6 + f 1 * v 7 + f 2 * v 8 + f 3 * v 9 + f 4 * v 10 + f 5 * v 11 := by
  obtain ⟨v0, v1, v2, v3, v4, v5⟩ := hv
  obtain ⟨d0, d1, d2, d3, d4, d5⟩ := hd
  obtain ⟨e0, e1, e2, e3, e4, e5⟩ := h
  unfold beamWork bendWork
  rw [v0, v1, v2, v3, v4, v5, d0, d1, d2, d3, d4, d5, e0, e1, e2, e3, e4, e5]
  simp only [tipAnswer, cons_val_zero, cons_val_one, cons_val]
  have hL' := hL.ne'
  have hA' := hA.ne'
  have hJ' := hJ.ne'
  have h3' := h3.ne'
  have h2' := h2.ne'
  generalize c.E * c.A = a at *
  generalize c.G * c.J = b at *
  generalize c.E * c.I3 = i at *
  generalize c.E * c.I2 = j at *
  field_simp
  ring

theorem ends_start {g : GivenBeam} {u : State} (h : u g.start = 0) :
    g.ends u 0 = 0 ∧ g.ends u 1 = 0 ∧ g.ends u 2 = 0 ∧ g.ends u 3 = 0 ∧ g.ends u 4 = 0 ∧ g.ends u 5 = 0 := by
  simp [GivenBeam.ends, localEnds, h, Spec.trans, Spec.rot, V3.dot]

theorem cantilever_core {env : Env} (henv : env.SolverSound) {pre mid : List Call} (hF : PlainFrame env pre) {c : String} {P : Problem}
    (hD : Poses pre c P) {g : GivenBeam} (hC : Cantilever P g) (hpos : g.sec.Positive) {u : State} (hu : Reports env pre mid c u)
    (f : Vec 6) (hload : ∀ v : State, v g.start = 0 → P.load v =
      f 0 * g.ends v 6 + f 1 * g.ends v 7 + f 2 * g.ends v 8 + f 3 * g.ends v 9 + f 4 * g.ends v 10 + f 5 * g.ends v 11) :
    u g.start = 0 ∧ (∀ k : Fin 6, g.ends u ⟨6 + k.val, by omega⟩ = tipAnswer (gconsts g.sec) g.len f k) := by
  have hS := hD.sane env
  obtain ⟨b, hb1, hb2⟩ := hC.beam
  obtain ⟨cs, hcs⟩ := hS.ok b g hb2
  have hR := frame_rightHanded hcs
  obtain ⟨p1, p2, p3, p4⟩ := GivenSec.Positive.prod hpos
  have hint : ∀ v x, P.frame.internal v x = beamWork (gconsts g.sec) g.len (g.ends v) (g.ends x) := by
    intro v x
    unfold Blueprint.internal
    rw [hb1]
    simp only [List.map_cons, List.map_nil, List.sum_cons, List.sum_nil, add_zero, hb2, Option.elim_some]
    exact internal_eq hcs v x
  have hP : P.frame.Positive := by
    intro b' g' h'
    have : b' ∈ P.frame.beams := (hS.mem b').mpr (by rw [h']; rfl)
    rw [hb1, List.mem_singleton] at this
    subst this
    rw [hb2] at h'
    cases h'
    exact hpos
  have hst : P.frame.Stable P.nodes P.fix := by
    apply grounded_stable hS hP
    intro n hn
    refine ⟨g.start, hC.clamped, ?_⟩
    rcases (hC.nodes n).mp hn with rfl | rfl
    · exact Relation.ReflTransGen.refl
    · exact Relation.ReflTransGen.single ⟨b, g, hb2, Or.inr ⟨rfl, rfl⟩⟩
  have hob : ∀ v : State, Obeys P.fix v ↔ v g.start = 0 := by
    intro v
    obtain ⟨fl, h1, h2⟩ := hC.clamped
    constructor
    · intro h; funext r; exact h _ _ h1 r (h2 r)
    · intro h n f hf r hr
      rcases hC.others n f hf with rfl | hn
      · rw [h]; rfl
      · rw [hn r] at hr; cases hr
  let y : State := fun n => if n = g.stop then fromLocal (beamFrame g.p g.q) (tipAnswer (gconsts g.sec) g.len f) else 0
  have y0 : y g.start = 0 := if_neg hC.ne
  have y1 : y g.stop = fromLocal (beamFrame g.p g.q) (tipAnswer (gconsts g.sec) g.len f) := if_pos rfl
  obtain ⟨l0, l1, l2, l3, l4, l5⟩ := dot_fromLocal hR (tipAnswer (gconsts g.sec) g.len f)
  have hy : ∀ k : Fin 6, g.ends y ⟨6 + k.val, by omega⟩ = tipAnswer (gconsts g.sec) g.len f k := by
    intro k
    unfold GivenBeam.ends localEnds
    rw [y1]
    fin_cases k
    · exact l0
    · exact l1
    · exact l2
    · exact l3
    · exact l4
    · exact l5
  obtain ⟨x, h1, h2, h3⟩ := reports_equilibrium henv hF hD hst hu
  have hxy := same_answer hS hst h2 ((hob y).mpr y0) h3 (by
    intro v hv
    rw [hint, hload v ((hob v).mp hv)]
    exact tip_work (len_pos hcs) p1 p2 p3 p4 f (ends_start ((hob v).mp hv)) (ends_start y0)
      ⟨hy 0, hy 1, hy 2, hy 3, hy 4, hy 5⟩)
  have m0 : g.start ∈ P.nodes := (hC.nodes _).mpr (Or.inl rfl)
  have m1 : g.stop ∈ P.nodes := (hC.nodes _).mpr (Or.inr rfl)
  refine ⟨by rw [h1 _ m0, hxy _ m0, y0], ?_⟩
  intro k
  rw [ends_congr ((h1 _ m0).trans (hxy _ m0)) ((h1 _ m1).trans (hxy _ m1))]
  exact hy k

/-! ### C74 Cantilevers -/

/-- Force and moment `F` at the free end.  `f` and `m` are their components along the local axes, `δ` and `θ` those of the reported
displacement and rotation of the free end. -/
theorem C74_tip_load (env : Env) (henv : env.SolverSound) (pre mid : List Call) (hF : PlainFrame env pre) (c : String) (P : Problem)
    (hD : Poses pre c P) (g : GivenBeam) (hC : Cantilever P g) (hpos : g.sec.Positive) (u : State) (hu : Reports env pre mid c u)
    (F : Vec 6) (hload : ∀ v, P.load v = F ⬝ᵥ v g.stop)
    (e : Csys) (he : e = beamFrame g.p g.q) (L E A I2 I3 GJ : ℝ) (hL : L = V3.norm (g.q - g.p)) (hE : E = g.sec.mat.E) (hA : A = g.sec.A)
    (hI2 : I2 = g.sec.I2) (hI3 : I3 = g.sec.I3) (hGJ : GJ = E / (2 * (1 + g.sec.mat.mu)) * g.sec.J)
    (f m δ θ : V3) (hf : f = ⟨e.x.dot (trans F), e.y.dot (trans F), e.z.dot (trans F)⟩)
    (hm : m = ⟨e.x.dot (rot F), e.y.dot (rot F), e.z.dot (rot F)⟩)
    (hδ : δ = ⟨e.x.dot (trans (u g.stop)), e.y.dot (trans (u g.stop)), e.z.dot (trans (u g.stop))⟩)
    (hθ : θ = ⟨e.x.dot (rot (u g.stop)), e.y.dot (rot (u g.stop)), e.z.dot (rot (u g.stop))⟩) :
    u g.start = 0 ∧
    δ = ⟨f.x * L / (E * A), f.y * L ^ 3 / (3 * (E * I3)) + m.z * L ^ 2 / (2 * (E * I3)),
      f.z * L ^ 3 / (3 * (E * I2)) - m.y * L ^ 2 / (2 * (E * I2))⟩ ∧
    θ = ⟨m.x * L / GJ, m.y * L / (E * I2) - f.z * L ^ 2 / (2 * (E * I2)),
      m.z * L / (E * I3) + f.y * L ^ 2 / (2 * (E * I3))⟩ := by
  subst he hL hE hA hI2 hI3 hGJ hf hm hδ hθ
  obtain ⟨b, hb1, hb2⟩ := hC.beam
  obtain ⟨cs, hcs⟩ := (hD.sane env).ok b g hb2
  have hR := frame_rightHanded hcs
  obtain ⟨h0, h1⟩ := cantilever_core henv hF hD hC hpos hu
    ![(beamFrame g.p g.q).x.dot (trans F), (beamFrame g.p g.q).y.dot (trans F), (beamFrame g.p g.q).z.dot (trans F),
      (beamFrame g.p g.q).x.dot (rot F), (beamFrame g.p g.q).y.dot (rot F), (beamFrame g.p g.q).z.dot (rot F)] (by
    intro v hv
    have k1 := dot_local hR (trans F) (trans (v g.stop))
    have k2 := dot_local hR (rot F) (rot (v g.stop))
    have k3 : F ⬝ᵥ v g.stop = (trans F).dot (trans (v g.stop)) + (rot F).dot (rot (v g.stop)) := by
      simp [dotProduct, Fin.sum_univ_succ, V3.dot, Spec.trans, Spec.rot]
      ring
    rw [hload, k3, k1, k2]
    simp only [GivenBeam.ends, localEnds, cons_val_zero, cons_val_one, cons_val]
    ring)
  refine ⟨h0, ?_, ?_⟩
  · exact V3.ext (h1 0) (h1 1) (h1 2)
  · exact V3.ext (h1 3) (h1 4) (h1 5)

/-- the work of a line load is that of its equivalent end forces -/
theorem distWork_eq {g : GivenBeam} {cs : Csys} (h : lineCsys g.p g.q = .ok cs) (w : Vec 8) (v : State) :
    g.distWork w v = distF ![w 0, w 2, w 4, w 6, 0, 0, w 1, w 3, w 5, w 7, 0, 0] g.len ⬝ᵥ g.ends v :=
  (distF_work (len_pos h) w (fields_given _ (len_pos h) (g.ends v))).symm

theorem concWork_eq {g : GivenBeam} {cs : Csys} (h : lineCsys g.p g.q = .ok cs) (z : Vec 7) (v : State) :
    g.concWork z v = concF z g.len ⬝ᵥ g.ends v :=
  (concF_work (len_pos h) z (fields_given _ (len_pos h) (g.ends v))).symm

theorem dot_clamped (f e : Vec 12) (h : e 0 = 0 ∧ e 1 = 0 ∧ e 2 = 0 ∧ e 3 = 0 ∧ e 4 = 0 ∧ e 5 = 0) :
    f ⬝ᵥ e = ![f 6, f 7, f 8, f 9, f 10, f 11] 0 * e 6 + ![f 6, f 7, f 8, f 9, f 10, f 11] 1 * e 7 +
      ![f 6, f 7, f 8, f 9, f 10, f 11] 2 * e 8 + ![f 6, f 7, f 8, f 9, f 10, f 11] 3 * e 9 +
      ![f 6, f 7, f 8, f 9, f 10, f 11] 4 * e 10 + ![f 6, f 7, f 8, f 9, f 10, f 11] 5 * e 11 := by
  obtain ⟨h0, h1, h2, h3, h4, h5⟩ := h
  have k : f ⬝ᵥ e = f 0 * e 0 + f 1 * e 1 + f 2 * e 2 + f 3 * e 3 + f 4 * e 4 + f 5 * e 5 + f 6 * e 6 + f 7 * e 7 + f 8 * e 8 +
      f 9 * e 9 + f 10 * e 10 + f 11 * e 11 := by
    simp [dotProduct, Fin.sum_univ_succ]
    ring
  rw [k, h0, h1, h2, h3, h4, h5]
  simp only [cons_val_zero, cons_val_one, cons_val]
  ring

/-- A line load `p_i, p_j, q_i2, q_j2, q_i3, q_j3, t_i, t_j` on the cantilever. -/
theorem C74_line_load (env : Env) (henv : env.SolverSound) (pre mid : List Call) (hF : PlainFrame env pre) (c : String) (P : Problem)
    (hD : Poses pre c P) (g : GivenBeam) (hC : Cantilever P g) (hpos : g.sec.Positive) (u : State) (hu : Reports env pre mid c u)
    (w : Vec 8) (hload : ∀ v, P.load v = g.distWork w v)
    (e : Csys) (he : e = beamFrame g.p g.q) (L E A I2 I3 GJ : ℝ) (hL : L = V3.norm (g.q - g.p)) (hE : E = g.sec.mat.E) (hA : A = g.sec.A)
    (hI2 : I2 = g.sec.I2) (hI3 : I3 = g.sec.I3) (hGJ : GJ = E / (2 * (1 + g.sec.mat.mu)) * g.sec.J)
    (δ θ : V3) (hδ : δ = ⟨e.x.dot (trans (u g.stop)), e.y.dot (trans (u g.stop)), e.z.dot (trans (u g.stop))⟩)
    (hθ : θ = ⟨e.x.dot (rot (u g.stop)), e.y.dot (rot (u g.stop)), e.z.dot (rot (u g.stop))⟩) :
    u g.start = 0 ∧
    δ = ⟨(w 0 + 2 * w 1) * L ^ 2 / (6 * (E * A)), (4 * w 2 + 11 * w 3) * L ^ 4 / (120 * (E * I3)),
      (4 * w 4 + 11 * w 5) * L ^ 4 / (120 * (E * I2))⟩ ∧
    θ = ⟨(w 6 + 2 * w 7) * L ^ 2 / (6 * GJ), -((w 4 + 3 * w 5) * L ^ 3 / (24 * (E * I2))), (w 2 + 3 * w 3) * L ^ 3 / (24 * (E * I3))⟩ := by
  obtain ⟨b, hb1, hb2⟩ := hC.beam
  obtain ⟨cs, hcs⟩ := (hD.sane env).ok b g hb2
  obtain ⟨p1, p2, p3, p4⟩ := GivenSec.Positive.prod hpos
  obtain ⟨h0, h1⟩ := cantilever_core henv hF hD hC hpos hu _ (by
    intro v hv
    rw [hload, distWork_eq hcs]
    exact dot_clamped _ _ (ends_start hv))
  have hn : ∀ x : ℝ, 0 < x → x ≠ 0 := fun x hx => hx.ne'
  have q1 := hn _ p1
  have q2 := hn _ p2
  have q3 := hn _ p3
  have q4 := hn _ p4
  subst he hL hE hA hI2 hI3 hGJ hδ hθ
  refine ⟨h0, V3.ext ((h1 0).trans ?_) ((h1 1).trans ?_) ((h1 2).trans ?_), V3.ext ((h1 3).trans ?_) ((h1 4).trans ?_) ((h1 5).trans ?_)⟩
  all_goals
    simp only [tipAnswer, distF, cons_val_zero, cons_val_one, cons_val]
    simp only [gconsts] at q1 q2 q3 q4 ⊢
    simp only [GivenBeam.len]
    generalize g.sec.mat.E * g.sec.A = a at *
    generalize g.sec.mat.E / (2 * (1 + g.sec.mat.mu)) * g.sec.J = b at *
    generalize g.sec.mat.E * g.sec.I3 = i at *
    generalize g.sec.mat.E * g.sec.I2 = j at *
    field_simp
    ring

/-- A concentrated load `F1, F2, F3, M1, M2, M3` at the distance `a = r L` from the clamped end. -/
theorem C74_point_load (env : Env) (henv : env.SolverSound) (pre mid : List Call) (hF : PlainFrame env pre) (c : String) (P : Problem)
    (hD : Poses pre c P) (g : GivenBeam) (hC : Cantilever P g) (hpos : g.sec.Positive) (u : State) (hu : Reports env pre mid c u)
    (z : Vec 7) (hload : ∀ v, P.load v = g.concWork z v)
    (e : Csys) (he : e = beamFrame g.p g.q) (L E A I2 I3 GJ : ℝ) (hL : L = V3.norm (g.q - g.p)) (hE : E = g.sec.mat.E) (hA : A = g.sec.A)
    (hI2 : I2 = g.sec.I2) (hI3 : I3 = g.sec.I3) (hGJ : GJ = E / (2 * (1 + g.sec.mat.mu)) * g.sec.J)
    (a : ℝ) (ha : a = z 6 * L)
    (δ θ : V3) (hδ : δ = ⟨e.x.dot (trans (u g.stop)), e.y.dot (trans (u g.stop)), e.z.dot (trans (u g.stop))⟩)
    (hθ : θ = ⟨e.x.dot (rot (u g.stop)), e.y.dot (rot (u g.stop)), e.z.dot (rot (u g.stop))⟩) :
    u g.start = 0 ∧
    δ = ⟨z 0 * a / (E * A), z 1 * a ^ 2 * (3 * L - a) / (6 * (E * I3)) + z 5 * a * (2 * L - a) / (2 * (E * I3)),
      z 2 * a ^ 2 * (3 * L - a) / (6 * (E * I2)) - z 4 * a * (2 * L - a) / (2 * (E * I2))⟩ ∧
    θ = ⟨z 3 * a / GJ, z 4 * a / (E * I2) - z 2 * a ^ 2 / (2 * (E * I2)), z 5 * a / (E * I3) + z 1 * a ^ 2 / (2 * (E * I3))⟩ := by
  obtain ⟨b, hb1, hb2⟩ := hC.beam
  obtain ⟨cs, hcs⟩ := (hD.sane env).ok b g hb2
  obtain ⟨p1, p2, p3, p4⟩ := GivenSec.Positive.prod hpos
  have hl := (len_pos hcs).ne'
  obtain ⟨h0, h1⟩ := cantilever_core henv hF hD hC hpos hu _ (by
    intro v hv
    rw [hload, concWork_eq hcs]
    exact dot_clamped _ _ (ends_start hv))
  have q1 := p1.ne'
  have q2 := p2.ne'
  have q3 := p3.ne'
  have q4 := p4.ne'
  subst ha he hL hE hA hI2 hI3 hGJ hδ hθ
  refine ⟨h0, V3.ext ((h1 0).trans ?_) ((h1 1).trans ?_) ((h1 2).trans ?_), V3.ext ((h1 3).trans ?_) ((h1 4).trans ?_) ((h1 5).trans ?_)⟩
  all_goals
    simp only [tipAnswer, concF, cons_val_zero, cons_val_one, cons_val]
    simp only [gconsts] at q1 q2 q3 q4 ⊢
    simp only [GivenBeam.len] at hl ⊢
    generalize V3.norm (g.q - g.p) = L at *
    generalize g.sec.mat.E * g.sec.A = a at *
    generalize g.sec.mat.E / (2 * (1 + g.sec.mat.mu)) * g.sec.J = b at *
    generalize g.sec.mat.E * g.sec.I3 = i at *
    generalize g.sec.mat.E * g.sec.I2 = j at *
    field_simp
    try ring

/-- calls that describe a cantilever from `p` to `q` with a load at its end (case "X"), a line load (case "Y") and a load in the span
(case "Z") -/
def cantileverCalls (p q : V3) (E mu A I2 I3 J : ℝ) (F : Vec 6) (w : Vec 8) (z : Vec 7) : List Call :=
  [.addNode "A" p.x p.y p.z, .addNode "B" q.x q.y q.z, .addSimpleBeam "b" "A" "B" E mu A I2 I3 J 0,
    .setNodalRestraint "A" (fun _ => true), .addLoadpattern "P", .setNodalLoad "P" "B" F, .addLoadpattern "Q",
    .setBeamLoadDistributed "Q" "b" (w 0) (w 1) (w 2) (w 3) (w 4) (w 5) (w 6) (w 7), .addLoadpattern "R",
    .setBeamLoadConcentrated "R" "b" (z 0) (z 1) (z 2) (z 3) (z 4) (z 5) (z 6),
    .addStaticCase "X", .addCasePattern "X" "P" 1, .addStaticCase "Y", .addCasePattern "Y" "Q" 1, .addStaticCase "Z", .addCasePattern "Z" "R" 1]

/-- the beam they describe -/
def cantileverBeam (p q : V3) (E mu A I2 I3 J : ℝ) : GivenBeam := ⟨"A", "B", p, q, ⟨⟨0, E, mu⟩, A, I2, I3, J⟩⟩

section demo
variable (p q : V3) (E mu A I2 I3 J : ℝ) (F : Vec 6) (w : Vec 8) (z : Vec 7)

theorem cantilever_blueprint (h : Acceptable p q) : (blueprint.run (cantileverCalls p q E mu A I2 I3 J F w z)).cur.beams = ["b"] ∧
    (blueprint.run (cantileverCalls p q E mu A I2 I3 J F w z)).cur.beam "b" = some (cantileverBeam p q E mu A I2 I3 J) := by
  constructor <;>
  simp [cantileverCalls, Machine.run, Machine.step, blueprint, Blueprint.addBeam, sectionCall, h, cantileverBeam]

theorem cantilever_rest : (restReg.run (cantileverCalls p q E mu A I2 I3 J F w z)).cur.global =
      (fun n => if n = "A" then some (fun _ => true) else none) ∧
    ∀ c, (restReg.run (cantileverCalls p q E mu A I2 I3 J F w z)).cur.inForce c =
      (fun n => if n = "A" then some (fun _ => true) else none) := by
  constructor
  · simp [cantileverCalls, Machine.run, Machine.step, restReg]
  · intro c
    simp only [cantileverCalls, Machine.run, Machine.step, restReg, RestReg.inForce, List.foldl_cons, List.foldl_nil]
    by_cases h1 : c = "X" <;> by_cases h2 : c = "Y" <;> by_cases h3 : c = "Z" <;> simp [h1, h2, h3]

theorem cantilever_nodes : (nodeReg.run (cantileverCalls p q E mu A I2 I3 J F w z)).cur.names = ["A", "B"] := by
  simp [cantileverCalls, Machine.run, Machine.step, nodeReg]

theorem cantilever_plain : PlainCalls (cantileverCalls p q E mu A I2 I3 J F w z) := by
  simp [PlainCalls, cantileverCalls, addedNode, addedPattern, List.filterMap_cons]

/-- the problem of a case with one pattern -/
noncomputable def cantileverProblem (pat : String) : Problem :=
  ⟨(blueprint.run (cantileverCalls p q E mu A I2 I3 J F w z)).cur, (nodeReg.run (cantileverCalls p q E mu A I2 I3 J F w z)).cur.names,
    (fun n => if n = "A" then some (fun _ => true) else none),
    (blueprint.run (cantileverCalls p q E mu A I2 I3 J F w z)).cur.caseWork
      (nodeReg.run (cantileverCalls p q E mu A I2 I3 J F w z)).cur.names (caseReg.run (cantileverCalls p q E mu A I2 I3 J F w z)).cur
      (fun k => if k = pat then some 1 else none) [pat]⟩

theorem cantilever_cases : (caseReg.run (cantileverCalls p q E mu A I2 I3 J F w z)).cur.cases "X" = some (fun k => if k = "P" then some 1 else none) ∧
    (caseReg.run (cantileverCalls p q E mu A I2 I3 J F w z)).cur.cases "Y" = some (fun k => if k = "Q" then some 1 else none) ∧
    (caseReg.run (cantileverCalls p q E mu A I2 I3 J F w z)).cur.cases "Z" = some (fun k => if k = "R" then some 1 else none) := by
  refine ⟨?_, ?_, ?_⟩ <;> simp [cantileverCalls, Machine.run, Machine.step, caseReg, CaseReg.upd]

theorem cantilever_poses {c pat : String} (hc : (caseReg.run (cantileverCalls p q E mu A I2 I3 J F w z)).cur.cases c =
    some (fun k => if k = pat then some 1 else none)) :
    Poses (cantileverCalls p q E mu A I2 I3 J F w z) c (cantileverProblem p q E mu A I2 I3 J F w z pat) :=
  ⟨rfl, rfl, ((cantilever_rest p q E mu A I2 I3 J F w z).2 c).symm, _, _, hc,
    ⟨by simp, by intro k; by_cases h : k = pat <;> simp [h]⟩, rfl⟩

theorem cantilever_is (h : Acceptable p q) (pat : String) :
    Cantilever (cantileverProblem p q E mu A I2 I3 J F w z pat) (cantileverBeam p q E mu A I2 I3 J) where
  nodes := by
    intro n
    show n ∈ (nodeReg.run (cantileverCalls p q E mu A I2 I3 J F w z)).cur.names ↔ _
    rw [cantilever_nodes]
    simp [cantileverBeam]
  ne := by simp [cantileverBeam]
  beam := ⟨"b", cantilever_blueprint p q E mu A I2 I3 J F w z h⟩
  clamped := ⟨fun _ => true, by simp [cantileverProblem, cantileverBeam], fun _ => rfl⟩
  others := by
    intro n f hf
    simp only [cantileverProblem] at hf
    split at hf
    · next hn => exact Or.inl hn
    · cases hf

theorem cantilever_pats : (caseReg.run (cantileverCalls p q E mu A I2 I3 J F w z)).cur.pats "P" =
      some ⟨fun n => if n = "B" then some F else none, fun _ => none, fun _ => none⟩ ∧
    (caseReg.run (cantileverCalls p q E mu A I2 I3 J F w z)).cur.pats "Q" =
      some ⟨fun _ => none, fun b => if b = "b" then some w else none, fun _ => none⟩ ∧
    (caseReg.run (cantileverCalls p q E mu A I2 I3 J F w z)).cur.pats "R" =
      some ⟨fun _ => none, fun _ => none, fun b => if b = "b" then some z else none⟩ := by
  have hw : w = ![w 0, w 1, w 2, w 3, w 4, w 5, w 6, w 7] := by funext i; fin_cases i <;> rfl
  have hz : z = ![z 0, z 1, z 2, z 3, z 4, z 5, z 6] := by funext i; fin_cases i <;> rfl
  refine ⟨?_, ?_, ?_⟩ <;> simp [cantileverCalls, Machine.run, Machine.step, caseReg, CaseReg.upd, PatReg.empty, ← hw, ← hz]

theorem cantilever_load (h : Acceptable p q) (v : State) :
    (cantileverProblem p q E mu A I2 I3 J F w z "P").load v = F ⬝ᵥ v "B" ∧
    (cantileverProblem p q E mu A I2 I3 J F w z "Q").load v = (cantileverBeam p q E mu A I2 I3 J).distWork w v ∧
    (cantileverProblem p q E mu A I2 I3 J F w z "R").load v = (cantileverBeam p q E mu A I2 I3 J).concWork z v := by
  obtain ⟨h1, h2⟩ := cantilever_blueprint p q E mu A I2 I3 J F w z h
  obtain ⟨k1, k2, k3⟩ := cantilever_pats p q E mu A I2 I3 J F w z
  refine ⟨?_, ?_, ?_⟩
  all_goals
    simp only [cantileverProblem, Blueprint.caseWork, Blueprint.patternWork, cantilever_nodes, List.map_cons, List.map_nil, k1, k2, k3, h1,
      Option.elim_some, h2]
    simp

/-- All hypotheses of the three theorems hold for these calls, for any positive constants and any two points that are not too close, and the
cases are answered. -/
theorem cantilever_demo (h : Acceptable p q) (hpos : (cantileverBeam p q E mu A I2 I3 J).sec.Positive) {c pat : String}
    (hc : (caseReg.run (cantileverCalls p q E mu A I2 I3 J F w z)).cur.cases c = some (fun k => if k = pat then some 1 else none)) :
    ∃ u, Reports idealEnv (cantileverCalls p q E mu A I2 I3 J F w z) [] c u := by
  have hD := cantilever_poses p q E mu A I2 I3 J F w z hc
  have hC := cantilever_is p q E mu A I2 I3 J F w z h pat
  obtain ⟨h1, h2⟩ := cantilever_blueprint p q E mu A I2 I3 J F w z h
  have hS := hD.sane idealEnv
  obtain ⟨u, hu, _⟩ := C69_grounded_solved idealEnv idealEnv_sound _ [] (plainFrame_of_calls _ (cantilever_plain p q E mu A I2 I3 J F w z))
    (by simp) c _ hD (by
      intro b' g' h'
      have : b' ∈ (cantileverProblem p q E mu A I2 I3 J F w z pat).frame.beams := (hS.mem b').mpr (by rw [h']; rfl)
      rw [show (cantileverProblem p q E mu A I2 I3 J F w z pat).frame.beams = ["b"] from h1, List.mem_singleton] at this
      subst this
      rw [show (cantileverProblem p q E mu A I2 I3 J F w z pat).frame.beam "b" = _ from h2] at h'
      cases h'
      exact hpos)
    (by
      intro n hn
      refine ⟨"A", hC.clamped, ?_⟩
      rcases (hC.nodes n).mp hn with rfl | rfl
      · exact Relation.ReflTransGen.refl
      · exact Relation.ReflTransGen.single ⟨"b", _, h2, Or.inr ⟨rfl, rfl⟩⟩)
    (by
      intro own ho n f hn
      simp only [cantileverCalls, Machine.run, Machine.step, restReg, List.foldl_cons, List.foldl_nil] at ho
      by_cases h1 : c = "X" <;> by_cases h2 : c = "Y" <;> by_cases h3 : c = "Z" <;> simp [h1, h2, h3] at ho <;>
        (subst ho; simp at hn))
    ⟨"B", (hC.nodes "B").mpr (Or.inr rfl), 0, by intro f hf; simp [cantileverProblem] at hf⟩
  exact ⟨u, hu⟩

end demo

theorem post_frame : beamFrame ⟨0, 0, 0⟩ ⟨0, 0, 3⟩ = ⟨⟨0, 0, 3 / 2⟩, ⟨0, 0, 1⟩, ⟨1, 0, 0⟩, ⟨0, 1, 0⟩⟩ := by
  have h1 : (⟨0, 0, 3⟩ - ⟨0, 0, 0⟩ : V3).unit = ⟨0, 0, 1⟩ := by
    rw [show (⟨0, 0, 3⟩ - ⟨0, 0, 0⟩ : V3) = (3 : ℝ) • ⟨0, 0, 1⟩ by simp, V3.unit_smul_pos (by norm_num),
      V3.unit_of_dot_one (by norm_num [V3.dot])]
  have h2 : (V3.cross ⟨0, 0, 1⟩ ⟨1, 0, 0⟩ : V3).unit = ⟨0, 1, 0⟩ := by
    rw [show V3.cross ⟨0, 0, 1⟩ ⟨1, 0, 0⟩ = (⟨0, 1, 0⟩ : V3) by simp [V3.cross], V3.unit_of_dot_one (by norm_num [V3.dot])]
  unfold beamFrame
  simp only [h1]
  rw [if_pos (by norm_num [absTol])]
  rw [h2]
  simp [V3.cross]

/-- a post of height 3 with a horizontal load of 6 at its top moves by `P L³ / 3 E I` -/
example (u : State) (hu : Reports idealEnv (cantileverCalls ⟨0, 0, 0⟩ ⟨0, 0, 3⟩ 200 (3 / 10) 1 2 3 4 ![0, 6, 0, 0, 0, 0] 0 0) [] "X" u) :
    u "B" 1 = 6 * 3 ^ 3 / (3 * (200 * 2)) := by
  have hacc : Acceptable ⟨0, 0, 0⟩ ⟨0, 0, 3⟩ := acc_col
  obtain ⟨_, h, _⟩ := C74_tip_load idealEnv idealEnv_sound _ [] (plainFrame_of_calls _ (cantilever_plain _ _ _ _ _ _ _ _ _ _ _)) "X" _
    (cantilever_poses _ _ _ _ _ _ _ _ _ _ _ (cantilever_cases _ _ _ _ _ _ _ _ _ _ _).1) _
    (cantilever_is _ _ _ _ _ _ _ _ _ _ _ hacc "P") (by norm_num [GivenSec.Positive, cantileverBeam]) u hu _
    (fun v => (cantilever_load _ _ _ _ _ _ _ _ _ _ _ hacc v).1) _ rfl _ _ _ _ _ _ rfl rfl rfl rfl rfl rfl _ _ _ _ rfl rfl rfl rfl
  have hz := congrArg V3.z h
  have hl : V3.norm (⟨0, 0, 3⟩ - ⟨0, 0, 0⟩ : V3) = 3 := by
    unfold V3.norm
    simp only [V3.sub_def]
    rw [show ((0:ℝ) - 0) * (0 - 0) + (0 - 0) * (0 - 0) + (3 - 0) * (3 - 0) = 3 ^ 2 by norm_num]
    exact Real.sqrt_sq (by norm_num)
  simp only [cantileverBeam, post_frame, hl] at hz
  simpa [V3.dot, Spec.trans, Spec.rot] using hz

/-- all three cases of such a post are answered -/
example : (∃ u, Reports idealEnv (cantileverCalls ⟨0, 0, 0⟩ ⟨0, 0, 3⟩ 200 (3 / 10) 1 2 3 4 ![0, 6, 0, 0, 0, 0] ![1, 2, 3, 4, 5, 6, 7, 8]
      ![1, 2, 3, 4, 5, 6, 1 / 2]) [] "X" u) ∧
    (∃ u, Reports idealEnv (cantileverCalls ⟨0, 0, 0⟩ ⟨0, 0, 3⟩ 200 (3 / 10) 1 2 3 4 ![0, 6, 0, 0, 0, 0] ![1, 2, 3, 4, 5, 6, 7, 8]
      ![1, 2, 3, 4, 5, 6, 1 / 2]) [] "Y" u) ∧
    ∃ u, Reports idealEnv (cantileverCalls ⟨0, 0, 0⟩ ⟨0, 0, 3⟩ 200 (3 / 10) 1 2 3 4 ![0, 6, 0, 0, 0, 0] ![1, 2, 3, 4, 5, 6, 7, 8]
      ![1, 2, 3, 4, 5, 6, 1 / 2]) [] "Z" u := by
  have hp : (cantileverBeam ⟨0, 0, 0⟩ ⟨0, 0, 3⟩ 200 (3 / 10) 1 2 3 4).sec.Positive := by norm_num [GivenSec.Positive, cantileverBeam]
  obtain ⟨h1, h2, h3⟩ := cantilever_cases ⟨0, 0, 0⟩ ⟨0, 0, 3⟩ 200 (3 / 10) 1 2 3 4 ![0, 6, 0, 0, 0, 0] ![1, 2, 3, 4, 5, 6, 7, 8]
    ![1, 2, 3, 4, 5, 6, 1 / 2]
  exact ⟨cantilever_demo _ _ _ _ _ _ _ _ _ _ _ acc_col hp h1, cantilever_demo _ _ _ _ _ _ _ _ _ _ _ acc_col hp h2,
    cantilever_demo _ _ _ _ _ _ _ _ _ _ _ acc_col hp h3⟩

end Hyperstatic
