import Verif.Lemmas.ShellDemo
import Verif.Props.Solve

/-
Properties of the stiffness of the 3- and 4-node shell elements (C63-C67).  `shellEnv` is the environment whose shell matrices are the
ones the element code computes; its other components are arbitrary.
-/

namespace Hyperstatic
open Matrix Spec

variable (q : Schemes) (nan4 : ShellElm → Matrix (Fin 24) (Fin 24) ℝ) (nan3 : ShellElm → Matrix (Fin 18) (Fin 18) ℝ)
  (solve : (n : ℕ) → Matrix (Fin n) (Fin n) ℝ → Vec n → Except PyErr (Vec n))

/-! ### C63 Shell stiffness matrices are symmetric -/

theorem quadStiffness_symm (s : ShellSection) (c : Csys) (p : Fin 4 → V3) : (quadStiffness q s c p)ᵀ = quadStiffness q s c p := by
  apply symm_of_work
  intro v u
  rw [quad_work, quad_work]
  congr 1
  · split_ifs
    · congr 1
      apply List.map_congr_left
      intro w _
      rw [membraneD_work, membraneD_work, isoD_symm]
    · rfl
  · split_ifs
    · congr 1
      apply List.map_congr_left
      intro w _
      rw [bendingD_work, bendingD_work, isoD_symm]
    · rfl

theorem triaStiffness_symm (s : ShellSection) (c : Csys) (p : Fin 3 → V3) : (triaStiffness q s c p)ᵀ = triaStiffness q s c p := by
  apply symm_of_work
  intro v u
  rw [tria_work q s c p v u _ _ rfl rfl, tria_work q s c p u v _ _ rfl rfl]
  congr 1
  · rw [membraneD_work, membraneD_work, isoD_symm]
  · congr 2
    apply List.map_congr_left
    intro w _
    rw [bendingD_work, bendingD_work, isoD_symm]

/-- For every 4-node shell whose stiffness is defined. -/
theorem C63_quad (e : ShellElm) (he : e.regular q) (h4 : e.nodes.length = 4) :
    ((shellEnv q nan4 nan3 solve).quadK e)ᵀ = (shellEnv q nan4 nan3 solve).quadK e := by
  have he' := he
  unfold ShellElm.regular at he'
  unfold shellEnv
  simp only [he, if_true]
  match hc : e.csys, hn : e.nodes with
  | some c, [n0, n1, n2, n3] =>
    simp only [Matrix.transpose_submatrix, quadStiffness_symm]
  | some c, [] => rw [hn] at h4; simp at h4
  | some c, [_] => rw [hn] at h4; simp at h4
  | some c, [_, _] => rw [hn] at h4; simp at h4
  | some c, [_, _, _] => rw [hn] at h4; simp at h4
  | some c, _ :: _ :: _ :: _ :: _ :: _ => rw [hn] at h4; simp at h4
  | none, _ => rw [hc] at he'; exact he'.elim

/-- For every 3-node shell whose stiffness is defined. -/
theorem C63_tria (e : ShellElm) (he : e.regular q) (h3 : e.nodes.length = 3) :
    ((shellEnv q nan4 nan3 solve).triaK e)ᵀ = (shellEnv q nan4 nan3 solve).triaK e := by
  have he' := he
  unfold ShellElm.regular at he'
  unfold shellEnv
  simp only [he, if_true]
  match hc : e.csys, hn : e.nodes with
  | some c, [n0, n1, n2] =>
    simp only [Matrix.transpose_submatrix, triaStiffness_symm]
  | some c, [] => rw [hn] at h3; simp at h3
  | some c, [_] => rw [hn] at h3; simp at h3
  | some c, [_, _] => rw [hn] at h3; simp at h3
  | some c, _ :: _ :: _ :: _ :: _ => rw [hn] at h3; simp at h3
  | none, _ => rw [hc] at he'; exact he'.elim

/-- Hence the assembled stiffness matrix of any model with beams and shells is symmetric. -/
theorem C63_assembled (cs : List Call) (w : World) (hw : w = World.init.run (shellEnv q nan4 nan3 solve) cs)
    (hreg : ∀ s se, w.api.model.shells.get? s = some se → se.regular q) (x : Assembly) (hx : w.api.assembly = .ok x) (K : Coo)
    (hK : x.assembleK (shellEnv q nan4 nan3 solve) = .ok K) (i j : ℕ) : K.get i j = K.get j i := by
  refine C14_symmetric _ cs w hw ?_ x hx K hK i j
  intro s se hs
  exact ⟨C63_quad q nan4 nan3 solve se (hreg s se hs), C63_tria q nan4 nan3 solve se (hreg s se hs)⟩

/-! ### C64 Deforming a shell never releases energy -/

theorem list_sum_nonneg {α : Type} (l : List α) (f : α → ℝ) (h : ∀ a ∈ l, 0 ≤ f a) : 0 ≤ (l.map f).sum := by
  apply List.sum_nonneg
  intro x hx
  obtain ⟨a, ha, rfl⟩ := List.mem_map.mp hx
  exact h a ha

theorem membraneD_nonneg {E mu : ℝ} (hE : 0 ≤ E) (h1 : -1 < mu) (h2 : mu < 1) (a : Vec 3) : 0 ≤ a ⬝ᵥ (membraneD E mu *ᵥ a) := by
  rw [membraneD_work]
  exact mul_nonneg (div_nonneg hE (by nlinarith)) (isoD_nonneg h1 h2 a)

theorem bendingD_nonneg {E mu t : ℝ} (hE : 0 ≤ E) (ht : 0 ≤ t) (h1 : -1 < mu) (h2 : mu < 1) (a : Vec 3) :
    0 ≤ a ⬝ᵥ (bendingD E mu t *ᵥ a) := by
  rw [bendingD_work]
  exact mul_nonneg (div_nonneg (by positivity) (by nlinarith)) (isoD_nonneg h1 h2 a)

theorem mu_ne {mu : ℝ} (h1 : -1 < mu) (h2 : mu < 1) : 1 - mu ^ 2 ≠ 0 := by nlinarith

/-- The section has an admissible isotropic material and a thickness. -/
structure AdmissibleShell (s : ShellSection) : Prop where
  E : 0 ≤ s.material.E
  mu_gt : -1 < s.material.mu
  mu_lt : s.material.mu < 1
  t : 0 ≤ s.t

/-- The property: for every convex 4-node shell and every 3-node shell, whatever the (proper) quadrature. -/
def C64_claim : Prop :=
  ∀ (q : Schemes) (nan4 : ShellElm → Matrix (Fin 24) (Fin 24) ℝ) (nan3 : ShellElm → Matrix (Fin 18) (Fin 18) ℝ)
    (solve : (n : ℕ) → Matrix (Fin n) (Fin n) ℝ → Vec n → Except PyErr (Vec n)), ProperRule q.quad → TriangleRule q.tria →
    (∀ name s a b c d e cs, ShellElm.dkgq? name s a b c d = .ok e → e.csys = some cs → AdmissibleShell s →
      StrictConvex cs.z a.loc b.loc c.loc d.loc → ∀ u, 0 ≤ shellInternal (shellEnv q nan4 nan3 solve) e u u) ∧
    (∀ name s a b c e cs, ShellElm.dkt? name s a b c = .ok e → e.csys = some cs → AdmissibleShell s →
      ∀ u, 0 ≤ shellInternal (shellEnv q nan4 nan3 solve) e u u)

/-- True of 4-node shells. -/
theorem C64_quad_partial (hq : ProperRule q.quad) (name : String) (s : ShellSection) (a b c d : Node) (e : ShellElm) (cs : Csys)
    (he : ShellElm.dkgq? name s a b c d = .ok e) (hcs : e.csys = some cs) (hs : AdmissibleShell s)
    (hconv : StrictConvex cs.z a.loc b.loc c.loc d.loc) (u : State) : 0 ≤ shellInternal (shellEnv q nan4 nan3 solve) e u u := by
  obtain ⟨hsec, hn, _⟩ := dkgq_shape he
  obtain ⟨hr, _⟩ := dkgq_axes he hcs
  have hreg : e.regular q := quad_regular hq hcs hr hn hconv (by rw [hsec]; exact mu_ne hs.mu_gt hs.mu_lt)
  rw [quad_internal q nan4 nan3 solve e hreg cs hcs _ _ _ _ hn, quad_work, hsec]
  have hp := corner_pos hr hconv
  apply add_nonneg
  · split_ifs
    · apply list_sum_nonneg
      intro w hw
      have h1 := (det_pos hp (hq w hw).2.1 (hq w hw).2.2).1.le
      exact mul_nonneg (hq w hw).1 (mul_nonneg (mul_nonneg hs.t h1) (membraneD_nonneg hs.E hs.mu_gt hs.mu_lt _))
    · exact le_rfl
  · split_ifs
    · apply list_sum_nonneg
      intro w hw
      have h1 := (det_pos hp (hq w hw).2.1 (hq w hw).2.2).2.le
      exact mul_nonneg (hq w hw).1 (mul_nonneg h1 (bendingD_nonneg hs.E hs.t hs.mu_gt hs.mu_lt _))
    · exact le_rfl

/-- True of 3-node shells whose normal does not point into the octant where the sum of coordinates is negative. -/
theorem C64_tria_partial (hq : ∀ p ∈ q.tria, 0 ≤ p.1) (name : String) (s : ShellSection) (a b c : Node) (e : ShellElm) (cs : Csys)
    (he : ShellElm.dkt? name s a b c = .ok e) (hcs : e.csys = some cs) (hs : AdmissibleShell s)
    (hz : 0 ≤ cs.z.x + cs.z.y + cs.z.z) (u : State) : 0 ≤ shellInternal (shellEnv q nan4 nan3 solve) e u u := by
  obtain ⟨hsec, hn, _⟩ := dkt_shape he
  have hreg : e.regular q := tria_regular he hcs (mu_ne hs.mu_gt hs.mu_lt)
  rw [tria_internal q nan4 nan3 solve e hreg cs hcs _ _ _ hn, tria_work _ _ _ _ _ _ _ _ rfl rfl, hsec]
  simp only [cons_val_zero, cons_val_one, cons_val]
  have ht := hs.t
  have harea : 0 ≤ triaArea a.loc b.loc c.loc := by
    rw [(tria_normal he hcs).2]
    exact mul_nonneg (tria_normal he hcs).1.le hz
  apply add_nonneg
  · exact mul_nonneg (by positivity) (membraneD_nonneg hs.E hs.mu_gt hs.mu_lt _)
  · refine mul_nonneg (by positivity) (list_sum_nonneg _ _ fun w hw => ?_)
    exact mul_nonneg (hq w hw) (bendingD_nonneg hs.E hs.t hs.mu_gt hs.mu_lt _)

theorem pick_plate_zero {n : ℕ} (c : Csys) (names : Fin n → String) (u : State) (h1 : ∀ i, c.z.dot (Spec.trans (u (names i))) = 0)
    (h2 : ∀ i, Spec.rot (u (names i)) = 0) : pick plateIdx (localOf c (nodal names u)) = 0 := by
  funext ⟨i, r⟩
  obtain ⟨a, b, d⟩ := pick_plate c names u i
  fin_cases r
  · exact a.trans (h1 i)
  · exact b.trans (by rw [h2, V3.dot_zero']; rfl)
  · exact d.trans (by rw [h2, V3.dot_zero']; rfl)

/-- one node of the upright triangle is moved within its plane -/
def wallState : State := fun n => if n = "A" then ![0, -1, 0, 0, 0, 0] else 0

theorem t9_zero (x y : Fin 3 → ℝ) (m : Fin 3 × Fin 2 → ℝ) (A B C : ℝ) (hA : (∑ i, T9.b y i * m (i, 0)) / (2 * T9.A x y) = A)
    (hB : (∑ i, T9.b y i * m (i, 1)) / (2 * T9.A x y) = B) (hC : (∑ i, T9.b y i * (m (i, 0) + m (i, 1))) / (2 * T9.A x y) = C) :
    T9.B x y 0 0 *ᵥ m = ![A, B, C] := by rw [t9B, hA, hB, hC]

/-- The property fails for an upright triangle: its reported area is negative, and so is its stiffness. -/
theorem C64_false : ¬ C64_claim := by
  intro h
  let q : Schemes := ⟨[(4, 0, 0)], [(1 / 2, 1 / 3, 1 / 3)]⟩
  have h1 := (h q (fun _ => 0) (fun _ => 0) (fun _ _ _ => .error .exception) (by intro p hp; simp [q] at hp; subst hp; norm_num)
    ⟨by intro p hp; simp [q] at hp; subst hp; norm_num, by simp [q]⟩).2 "e" unitSection _ _ _ wallTria _ wallTria_ok rfl
    ⟨by norm_num [unitSection], by norm_num [unitSection], by norm_num [unitSection], by norm_num [unitSection]⟩ wallState
  have hreg : wallTria.regular q := tria_regular wallTria_ok rfl (by norm_num [unitSection])
  rw [tria_internal q _ _ _ wallTria hreg _ rfl _ _ _ rfl, tria_work _ _ _ _ _ _ _ _ rfl rfl] at h1
  have hrot : ∀ i : Fin 3, Spec.rot (wallState (![("A" : String), "B", "C"] i)) = 0 := by
    intro i; fin_cases i <;> simp [wallState, Spec.rot, V3.zero_def]
  have hpl := pick_plate_zero (n := 3) ⟨⟨0, 1 / 3, 1 / 3⟩, ⟨0, -1, 0⟩, ⟨0, 0, 1⟩, ⟨-1, 0, 0⟩⟩ ![("A" : String), "B", "C"] wallState
    (by intro i; fin_cases i <;> simp [wallState, Spec.trans, V3.dot]) hrot
  rw [hpl] at h1
  have hm := fun i => pick_tria (n := 3) ⟨⟨0, 1 / 3, 1 / 3⟩, ⟨0, -1, 0⟩, ⟨0, 0, 1⟩, ⟨-1, 0, 0⟩⟩ ![("A" : String), "B", "C"] wallState i
  have e00 := (hm 0).1.trans (show _ = (1 : ℝ) by simp [wallState, Spec.trans, V3.dot])
  have e01 := (hm 0).2.trans (show _ = (0 : ℝ) by simp [wallState, Spec.trans, V3.dot])
  have e10 := (hm 1).1.trans (show _ = (0 : ℝ) by simp [wallState, Spec.trans, V3.dot])
  have e11 := (hm 1).2.trans (show _ = (0 : ℝ) by simp [wallState, Spec.trans, V3.dot])
  have e20 := (hm 2).1.trans (show _ = (0 : ℝ) by simp [wallState, Spec.trans, V3.dot])
  have e21 := (hm 2).2.trans (show _ = (0 : ℝ) by simp [wallState, Spec.trans, V3.dot])
  clear hm hrot hpl
  generalize pick triaIdx _ = m at h1 e00 e01 e10 e11 e20 e21
  rw [t9_zero _ _ m 1 0 1 (by simp [e00, e10, e20, Fin.sum_univ_three, T9.b, t9_A, V3.dot])
    (by simp [e01, e11, e21, Fin.sum_univ_three, T9.b, t9_A, V3.dot])
    (by simp [e00, e10, e20, e01, e11, e21, Fin.sum_univ_three, T9.b, t9_A, V3.dot]), membraneD_work, isoD_work, triaArea_eq] at h1
  simp [unitSection, wallTria, V3.cross, V3.sub_def] at h1
  norm_num at h1

/-- a square, with a rule and a section as required -/
example : ∃ e cs, ShellElm.dkgq? "e" unitSection (stdNode "A" 0 0 0) (stdNode "B" 1 0 0) (stdNode "C" 1 1 0) (stdNode "D" 0 1 0) = .ok e ∧
    e.csys = some cs ∧ AdmissibleShell unitSection ∧ ProperRule [(4, 0, 0)] ∧
    StrictConvex cs.z (stdNode "A" 0 0 0).loc (stdNode "B" 1 0 0).loc (stdNode "C" 1 1 0).loc (stdNode "D" 0 1 0).loc := by
  refine ⟨flatQuad 0 0 1 0 1 1 0 1, _, flatQuad_ok (by norm_num), rfl,
    ⟨by norm_num [unitSection], by norm_num [unitSection], by norm_num [unitSection], by norm_num [unitSection]⟩, ?_, ?_⟩
  · intro p hp; simp at hp; subst hp; norm_num
  · norm_num [Spec.StrictConvex, flat, V3.dot, V3.cross, V3.sub_def, stdNode_loc]

/-- a horizontal triangle -/
example : ∃ e cs, ShellElm.dkt? "e" unitSection (stdNode "A" 0 0 0) (stdNode "B" 1 0 0) (stdNode "C" 0 1 0) = .ok e ∧
    e.csys = some cs ∧ 0 ≤ cs.z.x + cs.z.y + cs.z.z :=
  ⟨flatTria 0 0 1 0 0 1, _, flatTria_ok (by norm_num), rfl, by norm_num [flat]⟩

/-! ### C65 A shell does not resist a rigid motion -/

theorem B_zero_quad {x y : Fin 4 → ℝ} {m : Fin 4 × Fin 3 → ℝ} (h0 : ∀ i, m (i, 0) = m (0, 0)) (h1 : ∀ i, m (i, 1) = m (0, 1))
    (h2 : ∀ i, m (i, 2) = 0) (ξ η : ℝ) : GQ12.B x y ξ η *ᵥ m = 0 := by
  have g1 : ∀ (f : Fin 4 → ℝ), (∀ i, f i = f 0) → ∀ t, gXi f t = 0 := by
    intro f hf t
    unfold gXi
    rw [hf 1, hf 2, hf 3]
    ring
  have g2 : ∀ (f : Fin 4 → ℝ), (∀ i, f i = f 0) → ∀ t, gEta f t = 0 := by
    intro f hf t
    unfold gEta
    rw [hf 1, hf 2, hf 3]
    ring
  rw [gqB_flat x y ξ η m h2, g1 _ h0, g2 _ h0, g1 _ h1, g2 _ h1]
  ext i
  fin_cases i <;> simp

theorem B_zero_dkq {x y : Fin 4 → ℝ} {p : Fin 4 × Fin 3 → ℝ} (hs : SidesOk x y p) (hl : ∀ k, DKQ.l2 x y k ≠ 0)
    (h1 : ∀ i, p (i, 1) = p (0, 1)) (h2 : ∀ i, p (i, 2) = p (0, 2)) (ξ η : ℝ) : DKQ.B x y ξ η *ᵥ p = 0 := by
  have g1 : ∀ (f : Fin 4 → ℝ), (∀ i, f i = f 0) → ∀ t, sXi f t = 0 := by
    intro f hf t
    unfold sXi
    rw [hf 1, hf 2, hf 3]
    ring
  have g2 : ∀ (f : Fin 4 → ℝ), (∀ i, f i = f 0) → ∀ t, sEta f t = 0 := by
    intro f hf t
    unfold sEta
    rw [hf 1, hf 2, hf 3]
    ring
  rw [dkqB_sides hs hl, g1 _ h1, g2 _ h1, g1 _ h2, g2 _ h2]
  ext i
  fin_cases i <;> simp

theorem B_zero_dkt {x y : Fin 3 → ℝ} {p : Fin 3 × Fin 3 → ℝ} (hs : TriaSidesOk x y p) (hl : ∀ k, DKT.l2 x y k ≠ 0)
    (h1 : ∀ i, p (i, 1) = p (0, 1)) (h2 : ∀ i, p (i, 2) = p (0, 2)) (ξ η : ℝ) : DKT.B x y ξ η *ᵥ p = 0 := by
  rw [dktB_sides hs hl, h1 1, h1 2, h2 1, h2 2]
  ext i
  fin_cases i <;> simp

theorem B_zero_t9 {x y : Fin 3 → ℝ} {m : Fin 3 × Fin 2 → ℝ} (h0 : ∀ i, m (i, 0) = m (0, 0)) (h1 : ∀ i, m (i, 1) = m (0, 1)) :
    T9.B x y 0 0 *ᵥ m = 0 := by
  rw [t9B]
  simp only [Fin.sum_univ_three, h0 1, h0 2, h1 1, h1 2, T9.b]
  ext i
  fin_cases i <;> simp <;> left <;> ring

/-- displacements in the axes of the element when it moves rigidly without turning about its normal -/
theorem rigid_comps {c : Csys} (hr : RightHanded c) {loc : String → Option V3} {t ω : V3} (hω : c.z.dot ω = 0) {n n' : String} {p p' : V3}
    (h : loc n = some p) (h' : loc n' = some p') (hpl : c.z.dot (p - p') = 0) :
    c.x.dot (Spec.trans (rigidState loc t ω n)) = c.x.dot (Spec.trans (rigidState loc t ω n')) ∧
    c.y.dot (Spec.trans (rigidState loc t ω n)) = c.y.dot (Spec.trans (rigidState loc t ω n')) ∧
    c.z.dot (Spec.trans (rigidState loc t ω n)) - c.z.dot (Spec.trans (rigidState loc t ω n')) =
      c.x.dot ω * c.y.dot (p - p') - c.y.dot ω * c.x.dot (p - p') ∧
    Spec.rot (rigidState loc t ω n) = ω := by
  refine and_assoc.1 (and_assoc.1 ⟨?_, rot_rigid h⟩)
  rw [and_assoc, trans_rigid h, trans_rigid h']
  simp only [V3.dot_add, hr.x_cross, hr.y_cross, hr.z_cross, hω]
  rw [V3.dot_sub] at hpl
  simp only [V3.dot_sub]
  refine ⟨?_, ?_, by ring⟩
  · linear_combination c.y.dot ω * hpl
  · linear_combination -c.x.dot ω * hpl

/-- The property for 4-node shells: a rigid motion of the four nodes costs no virtual work on any other displacement, i.e. needs no
nodal forces. -/
def C65_quad_claim (q : Schemes) : Prop :=
  ∀ (nan4 : ShellElm → Matrix (Fin 24) (Fin 24) ℝ) (nan3 : ShellElm → Matrix (Fin 18) (Fin 18) ℝ)
    (solve : (n : ℕ) → Matrix (Fin n) (Fin n) ℝ → Vec n → Except PyErr (Vec n)) (name : String) (s : ShellSection) (a b c d : Node)
    (e : ShellElm) (cs : Csys), ShellElm.dkgq? name s a b c d = .ok e → e.csys = some cs → AdmissibleShell s →
    StrictConvex cs.z a.loc b.loc c.loc d.loc → Planar cs e → ∀ (loc : String → Option V3), LocatesShell loc e →
    ∀ (t ω : V3) (v : State), shellInternal (shellEnv q nan4 nan3 solve) e v (rigidState loc t ω) = 0

/-- The property for 3-node shells. -/
def C65_tria_claim (q : Schemes) : Prop :=
  ∀ (nan4 : ShellElm → Matrix (Fin 24) (Fin 24) ℝ) (nan3 : ShellElm → Matrix (Fin 18) (Fin 18) ℝ)
    (solve : (n : ℕ) → Matrix (Fin n) (Fin n) ℝ → Vec n → Except PyErr (Vec n)) (name : String) (s : ShellSection) (a b c : Node)
    (e : ShellElm) (cs : Csys), ShellElm.dkt? name s a b c = .ok e → e.csys = some cs → AdmissibleShell s →
    ∀ (loc : String → Option V3), LocatesShell loc e →
    ∀ (t ω : V3) (v : State), shellInternal (shellEnv q nan4 nan3 solve) e v (rigidState loc t ω) = 0

/-- True of 4-node shells for translations and rotations about axes in their plane. -/
theorem C65_quad_partial (hq : ProperRule q.quad) (name : String) (s : ShellSection) (a b c d : Node) (e : ShellElm) (cs : Csys)
    (he : ShellElm.dkgq? name s a b c d = .ok e) (hcs : e.csys = some cs) (hs : AdmissibleShell s)
    (hconv : StrictConvex cs.z a.loc b.loc c.loc d.loc) (hpl : Planar cs e) (loc : String → Option V3) (hloc : LocatesShell loc e)
    (t ω : V3) (hω : cs.z.dot ω = 0) (v : State) : shellInternal (shellEnv q nan4 nan3 solve) e v (rigidState loc t ω) = 0 := by
  obtain ⟨hsec, hn, _⟩ := dkgq_shape he
  obtain ⟨hr, _⟩ := dkgq_axes he hcs
  have hreg : e.regular q := quad_regular hq hcs hr hn hconv (by rw [hsec]; exact mu_ne hs.mu_gt hs.mu_lt)
  have hp := corner_pos hr hconv
  rw [quad_internal q nan4 nan3 solve e hreg cs hcs _ _ _ _ hn, quad_work]
  set names : Fin 4 → String := ![a.name, b.name, c.name, d.name]
  set p : Fin 4 → V3 := ![a.loc, b.loc, c.loc, d.loc]
  have hl : ∀ i, loc (names i) = some (p i) := locates_quad hloc hn
  have hpl' : ∀ i j, cs.z.dot (p i - p j) = 0 := planar_quad hpl hn
  have key := fun i j => rigid_comps hr (t := t) hω (hl i) (hl j) (hpl' i j)
  have hB : ∀ ξ η, GQ12.B (planeX cs p) (planeY cs p) ξ η *ᵥ pick quadIdx (localOf cs (nodal names (rigidState loc t ω))) = 0 := by
    intro ξ η
    apply B_zero_quad
    · intro i
      rw [(pick_quad cs names _ i).1, (pick_quad cs names _ 0).1, (key i 0).1]
    · intro i
      rw [(pick_quad cs names _ i).2.1, (pick_quad cs names _ 0).2.1, (key i 0).2.1]
    · intro i
      rw [(pick_quad cs names _ i).2.2, (key i 0).2.2.2, hω]
  have hD : ∀ ξ η, DKQ.B (planeX cs p) (planeY cs p) ξ η *ᵥ pick plateIdx (localOf cs (nodal names (rigidState loc t ω))) = 0 := by
    intro ξ η
    apply B_zero_dkq
    · intro k
      rw [(pick_plate cs names _ k).1, (pick_plate cs names _ (DKQ.nx k)).1, (pick_plate cs names _ k).2.1, (pick_plate cs names _ k).2.2,
        (pick_plate cs names _ (DKQ.nx k)).2.1, (pick_plate cs names _ (DKQ.nx k)).2.2, (key k (DKQ.nx k)).2.2.1,
        (key k 0).2.2.2, (key (DKQ.nx k) 0).2.2.2]
      unfold DKQ.side planeX planeY
      simp only [V3.dot_sub]
      ring
    · exact fun k => dkq_l2_pos hp k
    · intro i
      rw [(pick_plate cs names _ i).2.1, (pick_plate cs names _ 0).2.1, (key i 0).2.2.2, (key 0 0).2.2.2]
    · intro i
      rw [(pick_plate cs names _ i).2.2, (pick_plate cs names _ 0).2.2, (key i 0).2.2.2, (key 0 0).2.2.2]
  simp only [hB, hD, Matrix.mulVec_zero, dotProduct_zero, mul_zero]
  simp

/-- True of 3-node shells for translations and rotations about axes in their plane. -/
theorem C65_tria_partial (name : String) (s : ShellSection) (a b c : Node) (e : ShellElm) (cs : Csys)
    (he : ShellElm.dkt? name s a b c = .ok e) (hcs : e.csys = some cs) (hs : AdmissibleShell s) (loc : String → Option V3)
    (hloc : LocatesShell loc e) (t ω : V3) (hω : cs.z.dot ω = 0) (v : State) :
    shellInternal (shellEnv q nan4 nan3 solve) e v (rigidState loc t ω) = 0 := by
  obtain ⟨hsec, hn, _⟩ := dkt_shape he
  obtain ⟨hr, hz⟩ := dkt_axes he hcs
  have hreg : e.regular q := tria_regular he hcs (mu_ne hs.mu_gt hs.mu_lt)
  have hregs := hreg
  unfold ShellElm.regular at hregs
  rw [hcs, hn] at hregs
  obtain ⟨_, _, hl2, _⟩ := hregs
  rw [tria_internal q nan4 nan3 solve e hreg cs hcs _ _ _ hn, tria_work _ _ _ _ _ _ _ _ rfl rfl]
  set names : Fin 3 → String := ![a.name, b.name, c.name]
  set p : Fin 3 → V3 := ![a.loc, b.loc, c.loc]
  have hl : ∀ i, loc (names i) = some (p i) := locates_tria hloc hn
  have hpl' : ∀ i j, cs.z.dot (p i - p j) = 0 := planar_tria hz
  have key := fun i j => rigid_comps hr (t := t) hω (hl i) (hl j) (hpl' i j)
  have hB : T9.B (fun i => cs.x.dot (p i)) (fun i => cs.y.dot (p i)) 0 0 *ᵥ
      pick triaIdx (localOf cs (nodal names (rigidState loc t ω))) = 0 := by
    apply B_zero_t9
    · intro i
      rw [(pick_tria cs names _ i).1, (pick_tria cs names _ 0).1, (key i 0).1]
    · intro i
      rw [(pick_tria cs names _ i).2, (pick_tria cs names _ 0).2, (key i 0).2.1]
  have hD : ∀ ξ η, DKT.B (fun i => cs.x.dot (p i)) (fun i => cs.y.dot (p i)) ξ η *ᵥ
      pick plateIdx (localOf cs (nodal names (rigidState loc t ω))) = 0 := by
    intro ξ η
    have hside : ∀ i j : Fin 3, pick plateIdx (localOf cs (nodal names (rigidState loc t ω))) (i, 0) -
        pick plateIdx (localOf cs (nodal names (rigidState loc t ω))) (j, 0) =
        ((pick plateIdx (localOf cs (nodal names (rigidState loc t ω))) (i, 1) +
          pick plateIdx (localOf cs (nodal names (rigidState loc t ω))) (j, 1)) * (cs.y.dot (p i) - cs.y.dot (p j)) -
        (pick plateIdx (localOf cs (nodal names (rigidState loc t ω))) (i, 2) +
          pick plateIdx (localOf cs (nodal names (rigidState loc t ω))) (j, 2)) * (cs.x.dot (p i) - cs.x.dot (p j))) / 2 := by
      intro i j
      rw [(pick_plate cs names _ i).1, (pick_plate cs names _ j).1, (pick_plate cs names _ i).2.1, (pick_plate cs names _ i).2.2,
        (pick_plate cs names _ j).2.1, (pick_plate cs names _ j).2.2, (key i j).2.2.1, (key i 0).2.2.2, (key j 0).2.2.2, V3.dot_sub,
        V3.dot_sub]
      ring
    apply B_zero_dkt
    · exact ⟨hside 1 2, hside 2 0, hside 0 1⟩
    · exact hl2
    · intro i
      rw [(pick_plate cs names _ i).2.1, (pick_plate cs names _ 0).2.1, (key i 0).2.2.2, (key 0 0).2.2.2]
    · intro i
      rw [(pick_plate cs names _ i).2.2, (pick_plate cs names _ 0).2.2, (key i 0).2.2.2, (key 0 0).2.2.2]
  simp only [hB, hD, Matrix.mulVec_zero, dotProduct_zero, mul_zero]
  simp

/-- positions of four named nodes -/
noncomputable def quadLoc (p0 p1 p2 p3 : V3) : String → Option V3 := fun n =>
  if n = "A" then some p0 else if n = "B" then some p1 else if n = "C" then some p2 else if n = "D" then some p3 else none

theorem quadLoc_quad (x0 y0 x1 y1 x2 y2 x3 y3 : ℝ) :
    LocatesShell (quadLoc ⟨x0, y0, 0⟩ ⟨x1, y1, 0⟩ ⟨x2, y2, 0⟩ ⟨x3, y3, 0⟩) (flatQuad x0 y0 x1 y1 x2 y2 x3 y3) := by
  intro p hp
  simp [flatQuad] at hp
  rcases hp with rfl | rfl | rfl | rfl <;> simp [quadLoc]

theorem quadLoc_tria (x0 y0 x1 y1 x2 y2 : ℝ) (p : V3) :
    LocatesShell (quadLoc ⟨x0, y0, 0⟩ ⟨x1, y1, 0⟩ ⟨x2, y2, 0⟩ p) (flatTria x0 y0 x1 y1 x2 y2) := by
  intro p hp
  simp [flatTria] at hp
  rcases hp with rfl | rfl | rfl <;> simp [quadLoc]

theorem unitSection_ok : AdmissibleShell unitSection :=
  ⟨by norm_num [unitSection], by norm_num [unitSection], by norm_num [unitSection], by norm_num [unitSection]⟩

theorem flatQuad_planar (x0 y0 x1 y1 x2 y2 x3 y3 : ℝ) (O : V3) : Planar (flat O) (flatQuad x0 y0 x1 y1 x2 y2 x3 y3) := by
  intro p hp p' hp'
  simp [flatQuad] at hp hp'
  rcases hp with rfl | rfl | rfl | rfl <;> rcases hp' with rfl | rfl | rfl | rfl <;> simp [flat, V3.dot, V3.sub_def]

/-- the reported strains of a trapezoid that turns about its normal -/
theorem spin_strain (ξ η : ℝ) (hη : |η| ≤ 1) (hξ : |ξ| ≤ 1) :
    0 < (GQ12.J ![-1 / 2, 1 / 2, 1 / 2, -1 / 2] ![-3 / 4, -3 / 4, 5 / 4, 1 / 4] ξ η).det ∧
    0 < (GQ12.B ![-1 / 2, 1 / 2, 1 / 2, -1 / 2] ![-3 / 4, -3 / 4, 5 / 4, 1 / 4] ξ η *ᵥ
        ((fun k => ![![0, 0, 0], ![0, 1, 0], ![-2, 1, 0], ![-1, 0, 0]] k.1 k.2) + fun k => if k.2 = 2 then 1 else 0)) ⬝ᵥ
      (membraneD 1 0 *ᵥ (GQ12.B ![-1 / 2, 1 / 2, 1 / 2, -1 / 2] ![-3 / 4, -3 / 4, 5 / 4, 1 / 4] ξ η *ᵥ
        ((fun k => ![![0, 0, 0], ![0, 1, 0], ![-2, 1, 0], ![-1, 0, 0]] k.1 k.2) + fun k => if k.2 = 2 then 1 else 0))) := by
  rw [abs_le] at hη hξ
  have hdet : (GQ12.J ![-1 / 2, 1 / 2, 1 / 2, -1 / 2] ![-3 / 4, -3 / 4, 5 / 4, 1 / 4] ξ η).det = (3 + η) / 8 := by
    rw [gqJ_det]
    simp [gXi, gEta]
    ring
  refine ⟨by rw [hdet]; linarith, ?_⟩
  have h3 : 3 + η ≠ 0 := by linarith
  have hB : GQ12.B ![-1 / 2, 1 / 2, 1 / 2, -1 / 2] ![-3 / 4, -3 / 4, 5 / 4, 1 / 4] ξ η *ᵥ
      ((fun k => ![![0, 0, 0], ![0, 1, 0], ![-2, 1, 0], ![-1, 0, 0]] k.1 k.2) + fun k => if k.2 = 2 then 1 else 0) =
      ![-(1 - ξ) ^ 2 * (1 + 2 * ξ) / 4, 0, (1 - 3 * ξ ^ 2) / 2] := by
    rw [Matrix.mulVec_add, gqB_flat _ _ _ _ _ (by intro i; fin_cases i <;> rfl), gqB_spin, hdet]
    ext i
    fin_cases i
    · simp [gXi, gEta, GQ12.c1, GQ12.c3, GQ12.xi0, GQ12.eta0, Fin.sum_univ_four]
      field_simp
      ring
    · simp [gXi, gEta, GQ12.c1, GQ12.c3, GQ12.xi0, GQ12.eta0, Fin.sum_univ_four]
    · simp [gXi, gEta, GQ12.c1, GQ12.c3, GQ12.xi0, GQ12.eta0, Fin.sum_univ_four]
      field_simp
      ring
  rw [hB, membraneD_work, isoD_work]
  simp
  by_contra hc
  have h0 : 0 ≤ ((1 - ξ) ^ 2 * (1 + 2 * ξ) / 4) ^ 2 := sq_nonneg _
  have h2 : 0 ≤ ((1 - 3 * ξ ^ 2) / 2) ^ 2 := sq_nonneg _
  have z2 : (1 - 3 * ξ ^ 2) ^ 2 = 0 := by nlinarith
  have z0 : ((1 - ξ) ^ 2 * (1 + 2 * ξ)) ^ 2 = 0 := by nlinarith
  rw [sq_eq_zero_iff] at z2 z0
  rcases mul_eq_zero.mp z0 with h | h
  · rw [sq_eq_zero_iff] at h
    have : ξ = 1 := by linarith
    subst this
    norm_num at z2
  · have : ξ = -1 / 2 := by linarith
    subst this
    norm_num at z2

theorem trap_x : planeX (flat ⟨(0 + 1 + 1 + 0) / 4, (0 + 0 + 2 + 1) / 4, 0⟩) ![⟨0, 0, 0⟩, ⟨1, 0, 0⟩, ⟨1, 2, 0⟩, ⟨0, 1, 0⟩] =
    ![-1 / 2, 1 / 2, 1 / 2, -1 / 2] := by
  ext i
  fin_cases i <;> norm_num [planeX, flat, V3.dot, V3.sub_def]

theorem trap_y : planeY (flat ⟨(0 + 1 + 1 + 0) / 4, (0 + 0 + 2 + 1) / 4, 0⟩) ![⟨0, 0, 0⟩, ⟨1, 0, 0⟩, ⟨1, 2, 0⟩, ⟨0, 1, 0⟩] =
    ![-3 / 4, -3 / 4, 5 / 4, 1 / 4] := by
  ext i
  fin_cases i <;> norm_num [planeY, flat, V3.dot, V3.sub_def]

theorem trap_plate : pick plateIdx (localOf (flat ⟨(0 + 1 + 1 + 0) / 4, (0 + 0 + 2 + 1) / 4, 0⟩)
    (nodal ![("A" : String), "B", "C", "D"] (rigidState (quadLoc ⟨0, 0, 0⟩ ⟨1, 0, 0⟩ ⟨1, 2, 0⟩ ⟨0, 1, 0⟩) 0 ⟨0, 0, 1⟩))) = 0 := by
  funext ⟨i, r⟩
  obtain ⟨a, b, d⟩ := pick_plate (n := 4) (flat ⟨(0 + 1 + 1 + 0) / 4, (0 + 0 + 2 + 1) / 4, 0⟩) ![("A" : String), "B", "C", "D"]
    (rigidState (quadLoc ⟨0, 0, 0⟩ ⟨1, 0, 0⟩ ⟨1, 2, 0⟩ ⟨0, 1, 0⟩) 0 ⟨0, 0, 1⟩) i
  fin_cases r
  · refine a.trans ?_
    fin_cases i <;> simp [flat, rigidState, quadLoc, Spec.trans, V3.dot, V3.cross, V3.add_def, V3.zero_def]
  · refine b.trans ?_
    fin_cases i <;> simp [flat, rigidState, quadLoc, Spec.rot, V3.dot, V3.cross, V3.add_def, V3.zero_def]
  · refine d.trans ?_
    fin_cases i <;> simp [flat, rigidState, quadLoc, Spec.rot, V3.dot, V3.cross, V3.add_def, V3.zero_def]

theorem trap_membrane : pick quadIdx (localOf (flat ⟨(0 + 1 + 1 + 0) / 4, (0 + 0 + 2 + 1) / 4, 0⟩)
    (nodal ![("A" : String), "B", "C", "D"] (rigidState (quadLoc ⟨0, 0, 0⟩ ⟨1, 0, 0⟩ ⟨1, 2, 0⟩ ⟨0, 1, 0⟩) 0 ⟨0, 0, 1⟩))) =
    (fun k => ![![0, 0, 0], ![0, 1, 0], ![-2, 1, 0], ![-1, 0, 0]] k.1 k.2) + fun k => if k.2 = 2 then 1 else 0 := by
  funext ⟨i, r⟩
  obtain ⟨a, b, d⟩ := pick_quad (n := 4) (flat ⟨(0 + 1 + 1 + 0) / 4, (0 + 0 + 2 + 1) / 4, 0⟩) ![("A" : String), "B", "C", "D"]
    (rigidState (quadLoc ⟨0, 0, 0⟩ ⟨1, 0, 0⟩ ⟨1, 2, 0⟩ ⟨0, 1, 0⟩) 0 ⟨0, 0, 1⟩) i
  fin_cases r
  · refine a.trans ?_
    fin_cases i <;> simp [flat, rigidState, quadLoc, Spec.trans, V3.dot, V3.cross, V3.add_def, V3.zero_def]
  · refine b.trans ?_
    fin_cases i <;> simp [flat, rigidState, quadLoc, Spec.trans, V3.dot, V3.cross, V3.add_def, V3.zero_def]
  · refine d.trans ?_
    fin_cases i <;> simp [flat, rigidState, quadLoc, Spec.rot, V3.dot, V3.cross, V3.add_def, V3.zero_def]

/-- The property fails for 4-node shells, whatever (proper, linear) quadrature is used: a trapezoid resists a rotation about its
normal. -/
theorem C65_quad_false (hq : ProperRule q.quad) (hlin : LinearRule q.quad) : ¬ C65_quad_claim q := by
  intro h
  have hconv : StrictConvex (flat ⟨(0 + 1 + 1 + 0) / 4, (0 + 0 + 2 + 1) / 4, 0⟩).z (stdNode "A" 0 0 0).loc (stdNode "B" 1 0 0).loc
      (stdNode "C" 1 2 0).loc (stdNode "D" 0 1 0).loc := by
    norm_num [Spec.StrictConvex, flat, V3.dot, V3.cross, V3.sub_def, stdNode_loc]
  have hok := flatQuad_ok (x0 := 0) (y0 := 0) (x1 := 1) (y1 := 0) (x2 := 1) (y2 := 2) (x3 := 0) (y3 := 1) (by norm_num)
  have h1 := h (fun _ => 0) (fun _ => 0) (fun _ _ _ => .error .exception) "e" unitSection _ _ _ _ _ _ hok rfl unitSection_ok hconv
    (flatQuad_planar _ _ _ _ _ _ _ _ _) _ (quadLoc_quad _ _ _ _ _ _ _ _) 0 ⟨0, 0, 1⟩
    (rigidState (quadLoc ⟨0, 0, 0⟩ ⟨1, 0, 0⟩ ⟨1, 2, 0⟩ ⟨0, 1, 0⟩) 0 ⟨0, 0, 1⟩)
  have hreg : (flatQuad 0 0 1 0 1 2 0 1).regular q := quad_regular hq rfl (dkgq_axes hok rfl).1 rfl hconv
    (show 1 - unitSection.material.mu ^ 2 ≠ 0 by norm_num [unitSection])
  rw [quad_internal q _ _ _ _ hreg _ rfl _ _ _ _ rfl, quad_work] at h1
  rw [trap_x, trap_y, trap_plate, trap_membrane] at h1
  simp only [Matrix.mulVec_zero, dotProduct_zero, mul_zero] at h1
  have hs1 : hasMembrane (flatQuad 0 0 1 0 1 2 0 1).section_ := Or.inr rfl
  rw [if_pos hs1] at h1
  have hz : ∀ w ∈ q.quad, w.1 = 0 := by
    intro w hw
    have hnn : ∀ x ∈ q.quad.map fun w : ℝ × ℝ × ℝ => w.1 * (unitSection.t *
        (GQ12.J ![-1 / 2, 1 / 2, 1 / 2, -1 / 2] ![-3 / 4, -3 / 4, 5 / 4, 1 / 4] w.2.1 w.2.2).det *
        ((GQ12.B ![-1 / 2, 1 / 2, 1 / 2, -1 / 2] ![-3 / 4, -3 / 4, 5 / 4, 1 / 4] w.2.1 w.2.2 *ᵥ
        ((fun k => ![![0, 0, 0], ![0, 1, 0], ![-2, 1, 0], ![-1, 0, 0]] k.1 k.2) + fun k => if k.2 = 2 then 1 else 0)) ⬝ᵥ
      (membraneD 1 0 *ᵥ (GQ12.B ![-1 / 2, 1 / 2, 1 / 2, -1 / 2] ![-3 / 4, -3 / 4, 5 / 4, 1 / 4] w.2.1 w.2.2 *ᵥ
        ((fun k => ![![0, 0, 0], ![0, 1, 0], ![-2, 1, 0], ![-1, 0, 0]] k.1 k.2) + fun k => if k.2 = 2 then 1 else 0))))), 0 ≤ x := by
      intro x hx
      obtain ⟨w', hw', rfl⟩ := List.mem_map.mp hx
      obtain ⟨h1, h2⟩ := spin_strain w'.2.1 w'.2.2 (hq w' hw').2.2 (hq w' hw').2.1
      exact mul_nonneg (hq w' hw').1 (mul_nonneg (mul_nonneg unitSection_ok.t h1.le) h2.le)
    have h2 := List.all_zero_of_le_zero_le_of_sum_eq_zero hnn (by simpa [unitSection, flatQuad] using h1) (List.mem_map.mpr ⟨w, hw, rfl⟩)
    obtain ⟨p1, p2⟩ := spin_strain w.2.1 w.2.2 (hq w hw).2.2 (hq w hw).2.1
    rcases mul_eq_zero.mp h2 with h3 | h3
    · exact h3
    · have : (0 : ℝ) < unitSection.t := by norm_num [unitSection]
      exact absurd h3 (mul_pos (mul_pos this p1) p2).ne'
  have h4 := hlin.1
  rw [List.sum_eq_zero (by intro x hx; obtain ⟨w, hw, rfl⟩ := List.mem_map.mp hx; exact hz w hw)] at h4
  norm_num at h4

/-- The property fails for 3-node shells: a horizontal triangle resists a rotation about its normal. -/
theorem C65_tria_false : ¬ C65_tria_claim q := by
  intro h
  have hok := flatTria_ok (x0 := 0) (y0 := 0) (x1 := 1) (y1 := 0) (x2 := 0) (y2 := 1) (by norm_num)
  have h1 := h (fun _ => 0) (fun _ => 0) (fun _ _ _ => .error .exception) "e" unitSection _ _ _ _ _ hok rfl unitSection_ok
    _ (quadLoc_tria _ _ _ _ _ _ 0) 0 ⟨0, 0, 1⟩ (rigidState (quadLoc ⟨0, 0, 0⟩ ⟨1, 0, 0⟩ ⟨0, 1, 0⟩ 0) 0 ⟨0, 0, 1⟩)
  have hreg : (flatTria 0 0 1 0 0 1).regular q := tria_regular hok rfl (by norm_num [unitSection])
  rw [tria_internal q _ _ _ _ hreg _ rfl _ _ _ rfl, tria_work _ _ _ _ _ _ _ _ rfl rfl] at h1
  have hpl : pick plateIdx (localOf (flat ⟨(0 + 1 + 0) / 3, (0 + 0 + 1) / 3, 0⟩)
      (nodal ![("A" : String), "B", "C"] (rigidState (quadLoc ⟨0, 0, 0⟩ ⟨1, 0, 0⟩ ⟨0, 1, 0⟩ 0) 0 ⟨0, 0, 1⟩))) = 0 := by
    funext ⟨i, r⟩
    obtain ⟨a, b, d⟩ := pick_plate (n := 3) (flat ⟨(0 + 1 + 0) / 3, (0 + 0 + 1) / 3, 0⟩) ![("A" : String), "B", "C"]
      (rigidState (quadLoc ⟨0, 0, 0⟩ ⟨1, 0, 0⟩ ⟨0, 1, 0⟩ 0) 0 ⟨0, 0, 1⟩) i
    fin_cases r
    · refine a.trans ?_
      fin_cases i <;> simp [flat, rigidState, quadLoc, Spec.trans, V3.dot, V3.cross, V3.add_def, V3.zero_def]
    · refine b.trans ?_
      fin_cases i <;> simp [flat, rigidState, quadLoc, Spec.rot, V3.dot, V3.cross, V3.add_def, V3.zero_def]
    · refine d.trans ?_
      fin_cases i <;> simp [flat, rigidState, quadLoc, Spec.rot, V3.dot, V3.cross, V3.add_def, V3.zero_def]
  have hm : pick triaIdx (localOf (flat ⟨(0 + 1 + 0) / 3, (0 + 0 + 1) / 3, 0⟩)
      (nodal ![("A" : String), "B", "C"] (rigidState (quadLoc ⟨0, 0, 0⟩ ⟨1, 0, 0⟩ ⟨0, 1, 0⟩ 0) 0 ⟨0, 0, 1⟩))) =
      fun k => ![![0, 0], ![0, 1], ![-1, 0]] k.1 k.2 := by
    funext ⟨i, r⟩
    obtain ⟨a, b⟩ := pick_tria (n := 3) (flat ⟨(0 + 1 + 0) / 3, (0 + 0 + 1) / 3, 0⟩) ![("A" : String), "B", "C"]
      (rigidState (quadLoc ⟨0, 0, 0⟩ ⟨1, 0, 0⟩ ⟨0, 1, 0⟩ 0) 0 ⟨0, 0, 1⟩) i
    fin_cases r
    · refine a.trans ?_
      fin_cases i <;> simp [flat, rigidState, quadLoc, Spec.trans, V3.dot, V3.cross, V3.add_def, V3.zero_def]
    · refine b.trans ?_
      fin_cases i <;> simp [flat, rigidState, quadLoc, Spec.trans, V3.dot, V3.cross, V3.add_def, V3.zero_def]
  rw [hpl, hm, t9_zero _ _ _ 0 1 1 (by simp [Fin.sum_univ_three, T9.b, t9_A, V3.dot, flat])
    (by simp [Fin.sum_univ_three, T9.b, t9_A, V3.dot, flat])
    (by simp [Fin.sum_univ_three, T9.b, t9_A, V3.dot, flat]), membraneD_work, isoD_work, triaArea_eq] at h1
  simp [unitSection, flatTria, V3.cross, V3.sub_def] at h1
  norm_num at h1

/-- a square that is lifted and tilted -/
example : ∃ e cs loc, ShellElm.dkgq? "e" unitSection (stdNode "A" 0 0 0) (stdNode "B" 1 0 0) (stdNode "C" 1 1 0) (stdNode "D" 0 1 0) = .ok e ∧
    e.csys = some cs ∧ Planar cs e ∧ LocatesShell loc e ∧ cs.z.dot ⟨1, 2, 0⟩ = 0 :=
  ⟨flatQuad 0 0 1 0 1 1 0 1, _, _, flatQuad_ok (by norm_num), rfl, flatQuad_planar _ _ _ _ _ _ _ _ _, quadLoc_quad _ _ _ _ _ _ _ _,
    by norm_num [flat, V3.dot]⟩

/-! ### C66 A shell reproduces constant membrane strain -/

theorem gXi_lin (x y : Fin 4 → ℝ) (f : Fin 4 → ℝ) (a b c : ℝ) (h : ∀ i, f i = a * x i + b * y i + c) (η : ℝ) :
    gXi f η = a * gXi x η + b * gXi y η := by
  unfold gXi
  simp only [h]
  ring
theorem gEta_lin (x y : Fin 4 → ℝ) (f : Fin 4 → ℝ) (a b c : ℝ) (h : ∀ i, f i = a * x i + b * y i + c) (ξ : ℝ) :
    gEta f ξ = a * gEta x ξ + b * gEta y ξ := by
  unfold gEta
  simp only [h]
  ring

/-- the reported strains of a linear displacement field -/
theorem gqB_stretch (x y : Fin 4 → ℝ) (m : Fin 4 × Fin 3 → ℝ) (e : Vec 3) (h0 : ∀ i, m (i, 0) = e 0 * x i + e 2 / 2 * y i)
    (h1 : ∀ i, m (i, 1) = e 2 / 2 * x i + e 1 * y i) (h2 : ∀ i, m (i, 2) = 0) (ξ η : ℝ) (hd : (GQ12.J x y ξ η).det ≠ 0) :
    GQ12.B x y ξ η *ᵥ m = e := by
  rw [gqB_flat x y ξ η m h2, gXi_lin x y (fun i => m (i, 0)) (e 0) (e 2 / 2) 0 (by intro i; simp only [h0]; ring),
    gEta_lin x y (fun i => m (i, 0)) (e 0) (e 2 / 2) 0 (by intro i; simp only [h0]; ring),
    gXi_lin x y (fun i => m (i, 1)) (e 2 / 2) (e 1) 0 (by intro i; simp only [h1]; ring),
    gEta_lin x y (fun i => m (i, 1)) (e 2 / 2) (e 1) 0 (by intro i; simp only [h1]; ring)]
  have hJ := gqJ_det x y ξ η
  generalize (GQ12.J x y ξ η).det = D at *
  ext i
  fin_cases i
  · show _ / D = e 0
    exact (div_eq_iff hd).mpr (by rw [hJ]; ring)
  · show _ / D = e 1
    exact (div_eq_iff hd).mpr (by rw [hJ]; ring)
  · show _ / D + _ / D = e 2
    exact (add_div _ _ D).symm.trans ((div_eq_iff hd).mpr (by rw [hJ]; ring))

theorem lin3 (t A1 B1 C1 A2 B2 C2 A3 B3 C3 A4 B4 C4 s0 s1 s2 ξ η : ℝ) :
    t * ((A1 + B1 * ξ + C1 * η) * s0 - (A2 + B2 * ξ + C2 * η) * s1 + ((A3 + B3 * ξ + C3 * η) - (A4 + B4 * ξ + C4 * η)) * s2) =
      t * (A1 * s0 - A2 * s1 + (A3 - A4) * s2) + t * (B1 * s0 - B2 * s1 + (B3 - B4) * s2) * ξ +
        t * (C1 * s0 - C2 * s1 + (C3 - C4) * s2) * η := by ring

/-- cross product of the gradients of two interpolations, linear in the natural coordinates -/
theorem grad_cross (f g : Fin 4 → ℝ) (ξ η : ℝ) : gEta f ξ * gXi g η - gXi f η * gEta g ξ =
    (gEta f 0 * gXi g 0 - gXi f 0 * gEta g 0) + (gXi g 0 * (gXi f 1 - gXi f 0) - gXi f 0 * (gXi g 1 - gXi g 0)) * ξ +
      (gEta f 0 * (gXi g 1 - gXi g 0) - gEta g 0 * (gXi f 1 - gXi f 0)) * η := by
  unfold gXi gEta
  ring

/-- Work of a state of constant strain on virtual displacements of a 4-node shell: that of the uniform tractions on its four edges. -/
def C66_quad_statement (q : Schemes) (nan4 : ShellElm → Matrix (Fin 24) (Fin 24) ℝ) (nan3 : ShellElm → Matrix (Fin 18) (Fin 18) ℝ)
    (solve : (n : ℕ) → Matrix (Fin n) (Fin n) ℝ → Vec n → Except PyErr (Vec n)) : Prop :=
  ∀ (name : String) (s : ShellSection) (a b c d : Node) (e : ShellElm) (cs : Csys), ShellElm.dkgq? name s a b c d = .ok e →
    e.csys = some cs → AdmissibleShell s → (s.eleType = "membrane" ∨ s.eleType = "shell") → StrictConvex cs.z a.loc b.loc c.loc d.loc →
    ∀ (loc : String → Option V3), LocatesShell loc e → ∀ (ε : Vec 3) (v : State), (∀ p ∈ e.nodes, cs.z.dot (Spec.rot (v p.1)) = 0) →
    shellInternal (shellEnv q nan4 nan3 solve) e v (fieldState loc (stretch cs ε) fun _ => 0) =
      let σ := planeStress s.material.E s.material.mu ε
      s.t * (edgeWork cs σ a.loc b.loc (Spec.trans (v a.name)) (Spec.trans (v b.name)) +
        edgeWork cs σ b.loc c.loc (Spec.trans (v b.name)) (Spec.trans (v c.name)) +
        edgeWork cs σ c.loc d.loc (Spec.trans (v c.name)) (Spec.trans (v d.name)) +
        edgeWork cs σ d.loc a.loc (Spec.trans (v d.name)) (Spec.trans (v a.name)))

/-- The same for a 3-node shell with three edges. -/
def C66_tria_statement (q : Schemes) (nan4 : ShellElm → Matrix (Fin 24) (Fin 24) ℝ) (nan3 : ShellElm → Matrix (Fin 18) (Fin 18) ℝ)
    (solve : (n : ℕ) → Matrix (Fin n) (Fin n) ℝ → Vec n → Except PyErr (Vec n)) : Prop :=
  ∀ (name : String) (s : ShellSection) (a b c : Node) (e : ShellElm) (cs : Csys), ShellElm.dkt? name s a b c = .ok e →
    e.csys = some cs → AdmissibleShell s →
    ∀ (loc : String → Option V3), LocatesShell loc e → ∀ (ε : Vec 3) (v : State), (∀ p ∈ e.nodes, cs.z.dot (Spec.rot (v p.1)) = 0) →
    shellInternal (shellEnv q nan4 nan3 solve) e v (fieldState loc (stretch cs ε) fun _ => 0) =
      let σ := planeStress s.material.E s.material.mu ε
      s.t * (edgeWork cs σ a.loc b.loc (Spec.trans (v a.name)) (Spec.trans (v b.name)) +
        edgeWork cs σ b.loc c.loc (Spec.trans (v b.name)) (Spec.trans (v c.name)) +
        edgeWork cs σ c.loc a.loc (Spec.trans (v c.name)) (Spec.trans (v a.name)))

/-- The property: both hold, whatever (proper, linear) quadrature. -/
def C66_claim : Prop :=
  ∀ (q : Schemes) (nan4 : ShellElm → Matrix (Fin 24) (Fin 24) ℝ) (nan3 : ShellElm → Matrix (Fin 18) (Fin 18) ℝ)
    (solve : (n : ℕ) → Matrix (Fin n) (Fin n) ℝ → Vec n → Except PyErr (Vec n)), ProperRule q.quad → LinearRule q.quad →
    TriangleRule q.tria → C66_quad_statement q nan4 nan3 solve ∧ C66_tria_statement q nan4 nan3 solve

/-- True of 4-node shells. -/
theorem C66_quad_partial (hq : ProperRule q.quad) (hlin : LinearRule q.quad) : C66_quad_statement q nan4 nan3 solve := by
  intro name s a b c d e cs he hcs hs hmem hconv loc hloc ε v hv
  obtain ⟨hsec, hn, _⟩ := dkgq_shape he
  obtain ⟨hr, _⟩ := dkgq_axes he hcs
  have hreg : e.regular q := quad_regular hq hcs hr hn hconv (by rw [hsec]; exact mu_ne hs.mu_gt hs.mu_lt)
  have hp := corner_pos hr hconv
  rw [quad_internal q nan4 nan3 solve e hreg cs hcs _ _ _ _ hn, quad_work, hsec, if_pos hmem]
  have hl := locates_quad hloc hn
  have hv' : ∀ i, cs.z.dot (Spec.rot (v (![a.name, b.name, c.name, d.name] i))) = 0 := by
    rw [hn] at hv
    intro i
    fin_cases i
    · exact hv (a.name, a.loc) (by simp)
    · exact hv (b.name, b.loc) (by simp)
    · exact hv (c.name, c.loc) (by simp)
    · exact hv (d.name, d.loc) (by simp)
  set names : Fin 4 → String := ![a.name, b.name, c.name, d.name] with hnames
  set p : Fin 4 → V3 := ![a.loc, b.loc, c.loc, d.loc] with hpp
  set u := fieldState loc (stretch cs ε) fun _ => 0
  have htr : ∀ i, Spec.trans (u (names i)) = stretch cs ε (p i) := fun i => trans_field (hl i)
  have hro : ∀ i, Spec.rot (u (names i)) = 0 := fun i => rot_field (hl i)
  have hpl := pick_plate_zero cs names u (by intro i; rw [htr, (stretch_comps hr ε _).2.2]) hro
  have hst : ∀ w ∈ q.quad, GQ12.B (planeX cs p) (planeY cs p) w.2.1 w.2.2 *ᵥ pick quadIdx (localOf cs (nodal names u)) = ε := by
    intro w hw
    apply gqB_stretch
    · intro i
      rw [(pick_quad cs names u i).1, htr, (stretch_comps hr ε _).1]
      rfl
    · intro i
      rw [(pick_quad cs names u i).2.1, htr, (stretch_comps hr ε _).2.1]
      rfl
    · intro i
      rw [(pick_quad cs names u i).2.2, hro, V3.dot_zero']
    · exact (det_pos hp (hq w hw).2.1 (hq w hw).2.2).1.ne'
  rw [hpl]
  simp only [Matrix.mulVec_zero, dotProduct_zero, mul_zero]
  set m := pick quadIdx (localOf cs (nodal names v)) with hm
  have hm2 : ∀ i, m (i, 2) = 0 := fun i => by rw [hm, (pick_quad cs names v i).2.2, hv']
  have hm0 : ∀ i, m (i, 0) = cs.x.dot (Spec.trans (v (names i))) := fun i => (pick_quad cs names v i).1
  have hm1 : ∀ i, m (i, 1) = cs.y.dot (Spec.trans (v (names i))) := fun i => (pick_quad cs names v i).2.1
  set σ := planeStress s.material.E s.material.mu ε with hσ
  have hterm : ∀ w ∈ q.quad, s.t * (GQ12.J (planeX cs p) (planeY cs p) w.2.1 w.2.2).det *
      ((GQ12.B (planeX cs p) (planeY cs p) w.2.1 w.2.2 *ᵥ m) ⬝ᵥ (membraneD s.material.E s.material.mu *ᵥ
        (GQ12.B (planeX cs p) (planeY cs p) w.2.1 w.2.2 *ᵥ pick quadIdx (localOf cs (nodal names u))))) =
      s.t * ((gEta (planeY cs p) w.2.1 * gXi (fun i => m (i, 0)) w.2.2 - gXi (planeY cs p) w.2.2 * gEta (fun i => m (i, 0)) w.2.1) * σ 0 -
      (gEta (planeX cs p) w.2.1 * gXi (fun i => m (i, 1)) w.2.2 - gXi (planeX cs p) w.2.2 * gEta (fun i => m (i, 1)) w.2.1) * σ 1 +
      ((gEta (planeY cs p) w.2.1 * gXi (fun i => m (i, 1)) w.2.2 - gXi (planeY cs p) w.2.2 * gEta (fun i => m (i, 1)) w.2.1) -
      (gEta (planeX cs p) w.2.1 * gXi (fun i => m (i, 0)) w.2.2 - gXi (planeX cs p) w.2.2 * gEta (fun i => m (i, 0)) w.2.1)) * σ 2) := by
    intro w hw
    have hd := (det_pos hp (hq w hw).2.1 (hq w hw).2.2).1.ne'
    rw [hst w hw, gqB_flat _ _ _ _ _ hm2, membraneD_stress, ← hσ]
    simp only [dotProduct, Fin.sum_univ_three, cons_val_zero, cons_val_one, cons_val]
    field_simp
    ring
  have hmap := List.map_congr_left (f := fun w => w.1 * (s.t * (GQ12.J (planeX cs p) (planeY cs p) w.2.1 w.2.2).det *
      ((GQ12.B (planeX cs p) (planeY cs p) w.2.1 w.2.2 *ᵥ m) ⬝ᵥ (membraneD s.material.E s.material.mu *ᵥ
        (GQ12.B (planeX cs p) (planeY cs p) w.2.1 w.2.2 *ᵥ pick quadIdx (localOf cs (nodal names u))))))) (l := q.quad)
    fun w hw => congrArg (w.1 * ·) (hterm w hw)
  rw [hmap]
  have hsum := rule_linear hlin (fun w => s.t *
      ((gEta (planeY cs p) w.2.1 * gXi (fun i => m (i, 0)) w.2.2 - gXi (planeY cs p) w.2.2 * gEta (fun i => m (i, 0)) w.2.1) * σ 0 -
      (gEta (planeX cs p) w.2.1 * gXi (fun i => m (i, 1)) w.2.2 - gXi (planeX cs p) w.2.2 * gEta (fun i => m (i, 1)) w.2.1) * σ 1 +
      ((gEta (planeY cs p) w.2.1 * gXi (fun i => m (i, 1)) w.2.2 - gXi (planeY cs p) w.2.2 * gEta (fun i => m (i, 1)) w.2.1) -
      (gEta (planeX cs p) w.2.1 * gXi (fun i => m (i, 0)) w.2.2 - gXi (planeX cs p) w.2.2 * gEta (fun i => m (i, 0)) w.2.1)) * σ 2))
    _ _ _ (fun w _ => by simp only [grad_cross _ _ w.2.1 w.2.2]; exact lin3 _ _ _ _ _ _ _ _ _ _ _ _ _ _ _ _ _ _)
  refine (congrArg₂ (· + ·) hsum (show _ = (0 : ℝ) by simp)).trans ?_
  simp only [gXi, gEta, hm0, hm1, edgeWork, planeX, planeY, hnames, hpp, V3.dot_sub, cons_val_zero, cons_val_one, cons_val]
  ring

/-- Hence the work of one state of constant strain on another one is area × thickness × stress · strain. -/
theorem C66_quad_energy_partial (hq : ProperRule q.quad) (hlin : LinearRule q.quad) (name : String) (s : ShellSection) (a b c d : Node)
    (e : ShellElm) (cs : Csys) (he : ShellElm.dkgq? name s a b c d = .ok e) (hcs : e.csys = some cs) (hs : AdmissibleShell s)
    (hm : s.eleType = "membrane" ∨ s.eleType = "shell") (hconv : StrictConvex cs.z a.loc b.loc c.loc d.loc) (loc : String → Option V3)
    (hloc : LocatesShell loc e) (ε' ε : Vec 3) :
    shellInternal (shellEnv q nan4 nan3 solve) e (fieldState loc (stretch cs ε') fun _ => 0) (fieldState loc (stretch cs ε) fun _ => 0) =
      membraneWork s (quadArea cs.z a.loc b.loc c.loc d.loc) ε' ε := by
  obtain ⟨_, hn, _⟩ := dkgq_shape he
  obtain ⟨hr, _⟩ := dkgq_axes he hcs
  have hl := locates_quad hloc hn
  rw [C66_quad_partial q nan4 nan3 solve hq hlin name s a b c d e cs he hcs hs hm hconv loc hloc ε _
    (by intro p hp; rw [rot_field (hloc p hp), V3.dot_zero'])]
  have l0 : loc a.name = some a.loc := hl 0
  have l1 : loc b.name = some b.loc := hl 1
  have l2 : loc c.name = some c.loc := hl 2
  have l3 : loc d.name = some d.loc := hl 3
  rw [trans_field l0, trans_field l1, trans_field l2, trans_field l3]
  simp only [edgeWork, membraneWork, quadArea, hr.z_cross, (stretch_comps hr ε' _).1, (stretch_comps hr ε' _).2.1, dotProduct,
    Fin.sum_univ_three, along1, along2, V3.dot_sub]
  ring

/-- The property fails for 3-node shells: a horizontal triangle stretched in one direction. -/
theorem C66_false : ¬ C66_claim := by
  intro h
  let q : Schemes := ⟨[(4, 0, 0)], [(1 / 2, 1 / 3, 1 / 3)]⟩
  have hok := flatTria_ok (x0 := 0) (y0 := 0) (x1 := 1) (y1 := 0) (x2 := 0) (y2 := 1) (by norm_num)
  have h1 := (h q (fun _ => 0) (fun _ => 0) (fun _ _ _ => .error .exception) (by intro p hp; simp [q] at hp; subst hp; norm_num)
    ⟨by simp [q], by simp [q], by simp [q]⟩ ⟨by intro p hp; simp [q] at hp; subst hp; norm_num, by simp [q]⟩).2 "e" unitSection _ _ _ _ _
    hok rfl unitSection_ok _ (quadLoc_tria _ _ _ _ _ _ 0) ![1, 0, 0] (fun n => if n = "B" then ![0, 1, 0, 0, 0, 0] else 0)
    (by intro p hp; simp [flatTria] at hp; rcases hp with rfl | rfl | rfl <;> simp [flat, V3.dot, Spec.rot])
  have hreg : (flatTria 0 0 1 0 0 1).regular q := tria_regular hok rfl (by norm_num [unitSection])
  rw [tria_internal q _ _ _ _ hreg _ rfl _ _ _ rfl, tria_work _ _ _ _ _ _ _ _ rfl rfl] at h1
  have hl := locates_tria (quadLoc_tria 0 0 1 0 0 1 0) (n0 := ("A", ⟨0, 0, 0⟩)) (n1 := ("B", ⟨1, 0, 0⟩)) (n2 := ("C", ⟨0, 1, 0⟩)) rfl
  have hr : RightHanded (flat ⟨(0 + 1 + 0) / 3, (0 + 0 + 1) / 3, 0⟩) := (dkt_axes hok rfl).1
  have hpl := pick_plate_zero (n := 3) (flat ⟨(0 + 1 + 0) / 3, (0 + 0 + 1) / 3, 0⟩) ![("A" : String), "B", "C"]
    (fieldState (quadLoc ⟨0, 0, 0⟩ ⟨1, 0, 0⟩ ⟨0, 1, 0⟩ 0) (stretch (flat ⟨(0 + 1 + 0) / 3, (0 + 0 + 1) / 3, 0⟩) ![1, 0, 0]) fun _ => 0)
    (by intro i; rw [trans_field (hl i), (stretch_comps hr _ _).2.2]) (by intro i; rw [rot_field (hl i)])
  have hm : pick triaIdx (localOf (flat ⟨(0 + 1 + 0) / 3, (0 + 0 + 1) / 3, 0⟩)
      (nodal ![("A" : String), "B", "C"] (fieldState (quadLoc ⟨0, 0, 0⟩ ⟨1, 0, 0⟩ ⟨0, 1, 0⟩ 0)
        (stretch (flat ⟨(0 + 1 + 0) / 3, (0 + 0 + 1) / 3, 0⟩) ![1, 0, 0]) fun _ => 0))) =
      fun k => ![![-1 / 3, 0], ![2 / 3, 0], ![-1 / 3, 0]] k.1 k.2 := by
    funext ⟨i, r⟩
    obtain ⟨a, b⟩ := pick_tria (n := 3) (flat ⟨(0 + 1 + 0) / 3, (0 + 0 + 1) / 3, 0⟩) ![("A" : String), "B", "C"]
      (fieldState (quadLoc ⟨0, 0, 0⟩ ⟨1, 0, 0⟩ ⟨0, 1, 0⟩ 0) (stretch (flat ⟨(0 + 1 + 0) / 3, (0 + 0 + 1) / 3, 0⟩) ![1, 0, 0]) fun _ => 0) i
    rw [trans_field (hl i)] at a b
    rw [(stretch_comps hr _ _).1] at a
    rw [(stretch_comps hr _ _).2.1] at b
    fin_cases r
    · refine a.trans ?_
      fin_cases i <;> simp [flat, along1, along2, V3.dot, V3.sub_def] <;> norm_num
    · refine b.trans ?_
      fin_cases i <;> simp [flat, along1, along2, V3.dot, V3.sub_def] <;> norm_num
  have hv : pick triaIdx (localOf (flat ⟨(0 + 1 + 0) / 3, (0 + 0 + 1) / 3, 0⟩)
      (nodal ![("A" : String), "B", "C"] (fun n => if n = "B" then ![0, 1, 0, 0, 0, 0] else 0))) =
      fun k => ![![0, 0], ![0, 1], ![0, 0]] k.1 k.2 := by
    funext ⟨i, r⟩
    obtain ⟨a, b⟩ := pick_tria (n := 3) (flat ⟨(0 + 1 + 0) / 3, (0 + 0 + 1) / 3, 0⟩) ![("A" : String), "B", "C"]
      (fun n => if n = "B" then ![0, 1, 0, 0, 0, 0] else 0) i
    fin_cases r
    · refine a.trans ?_
      fin_cases i <;> simp [flat, Spec.trans, V3.dot]
    · refine b.trans ?_
      fin_cases i <;> simp [flat, Spec.trans, V3.dot]
  rw [hpl, hm, hv, t9_zero _ _ (fun k => ![![-1 / 3, 0], ![2 / 3, 0], ![-1 / 3, 0]] k.1 k.2) 1 0 1
      (by simp [Fin.sum_univ_three, T9.b, t9_A, V3.dot, flat]; norm_num)
      (by simp [Fin.sum_univ_three, T9.b, t9_A, V3.dot, flat])
      (by simp [Fin.sum_univ_three, T9.b, t9_A, V3.dot, flat]; norm_num),
    t9_zero _ _ (fun k => ![![0, 0], ![0, 1], ![0, 0]] k.1 k.2) 0 1 1 (by simp [Fin.sum_univ_three, T9.b, t9_A, V3.dot, flat])
      (by simp [Fin.sum_univ_three, T9.b, t9_A, V3.dot, flat])
      (by simp [Fin.sum_univ_three, T9.b, t9_A, V3.dot, flat]), membraneD_work, isoD_work, triaArea_eq] at h1
  simp [unitSection, flatTria, V3.cross, V3.sub_def, edgeWork, planeStress, flat, V3.dot, stdNode, Spec.trans] at h1

/-- a square stretched in one direction -/
example : ∃ e cs loc, ShellElm.dkgq? "e" unitSection (stdNode "A" 0 0 0) (stdNode "B" 1 0 0) (stdNode "C" 1 1 0) (stdNode "D" 0 1 0) = .ok e ∧
    e.csys = some cs ∧ (unitSection.eleType = "membrane" ∨ unitSection.eleType = "shell") ∧ LocatesShell loc e ∧
    LinearRule [(1, 1 / 2, 1 / 2), (1, -1 / 2, 1 / 2), (1, 1 / 2, -1 / 2), (1, -1 / 2, -1 / 2)] :=
  ⟨flatQuad 0 0 1 0 1 1 0 1, _, _, flatQuad_ok (by norm_num), rfl, Or.inr rfl, quadLoc_quad _ _ _ _ _ _ _ _,
    by norm_num [LinearRule]⟩

/-! ### C67 A shell reproduces constant curvature -/

/-- The property for 4-node shells: states of constant curvature have the work of a plate with bending stiffness `E t³/12/(1-μ²)`. -/
def C67_quad_claim (q : Schemes) : Prop :=
  ∀ (nan4 : ShellElm → Matrix (Fin 24) (Fin 24) ℝ) (nan3 : ShellElm → Matrix (Fin 18) (Fin 18) ℝ)
    (solve : (n : ℕ) → Matrix (Fin n) (Fin n) ℝ → Vec n → Except PyErr (Vec n)) (name : String) (s : ShellSection) (a b c d : Node)
    (e : ShellElm) (cs : Csys), ShellElm.dkgq? name s a b c d = .ok e → e.csys = some cs → AdmissibleShell s →
    (s.eleType = "plate" ∨ s.eleType = "shell") → StrictConvex cs.z a.loc b.loc c.loc d.loc → Planar cs e →
    ∀ (loc : String → Option V3), LocatesShell loc e → ∀ k' k : Vec 3,
    shellInternal (shellEnv q nan4 nan3 solve) e (fieldState loc (bend cs k') (bendRot cs k')) (fieldState loc (bend cs k) (bendRot cs k)) =
      plateWork s (quadArea cs.z a.loc b.loc c.loc d.loc) k' k

/-- The property for 3-node shells. -/
def C67_tria_claim (q : Schemes) : Prop :=
  ∀ (nan4 : ShellElm → Matrix (Fin 24) (Fin 24) ℝ) (nan3 : ShellElm → Matrix (Fin 18) (Fin 18) ℝ)
    (solve : (n : ℕ) → Matrix (Fin n) (Fin n) ℝ → Vec n → Except PyErr (Vec n)) (name : String) (s : ShellSection) (a b c : Node)
    (e : ShellElm) (cs : Csys), ShellElm.dkt? name s a b c = .ok e → e.csys = some cs → AdmissibleShell s →
    ∀ (loc : String → Option V3), LocatesShell loc e → ∀ k' k : Vec 3,
    shellInternal (shellEnv q nan4 nan3 solve) e (fieldState loc (bend cs k') (bendRot cs k')) (fieldState loc (bend cs k) (bendRot cs k)) =
      plateWork s (triangleArea cs.z a.loc b.loc c.loc) k' k

/-- nodal values of a state of constant curvature, in the axes of the element -/
theorem pick_bend {n : ℕ} {c : Csys} (hr : RightHanded c) {loc : String → Option V3} (names : Fin n → String) (p : Fin n → V3)
    (hl : ∀ i, loc (names i) = some (p i)) (k : Vec 3) (i : Fin n) :
    pick plateIdx (localOf c (nodal names (fieldState loc (bend c k) (bendRot c k)))) (i, 0) = deflection c k (p i) ∧
    pick plateIdx (localOf c (nodal names (fieldState loc (bend c k) (bendRot c k)))) (i, 1) =
      k 1 * along2 c (p i) + k 2 / 2 * along1 c (p i) ∧
    pick plateIdx (localOf c (nodal names (fieldState loc (bend c k) (bendRot c k)))) (i, 2) =
      -(k 0 * along1 c (p i) + k 2 / 2 * along2 c (p i)) := by
  obtain ⟨a, b, d⟩ := pick_plate c names (fieldState loc (bend c k) (bendRot c k)) i
  rw [trans_field (hl i), (bend_comps hr k _).2.2] at a
  rw [rot_field (hl i), (bendRot_comps hr k _).1] at b
  rw [rot_field (hl i), (bendRot_comps hr k _).2.1] at d
  exact ⟨a, b, d⟩

theorem tria_bend {c : Csys} (hr : RightHanded c) {loc : String → Option V3} (names : Fin 3 → String) (p : Fin 3 → V3)
    (hl : ∀ i, loc (names i) = some (p i)) (k : Vec 3) (hl2 : ∀ i, DKT.l2 (fun i => c.x.dot (p i)) (fun i => c.y.dot (p i)) i ≠ 0)
    (hA : c.z.dot ((p 1 - p 0).cross (p 2 - p 0)) ≠ 0) (ξ η : ℝ) :
    DKT.B (fun i => c.x.dot (p i)) (fun i => c.y.dot (p i)) ξ η *ᵥ
      pick plateIdx (localOf c (nodal names (fieldState loc (bend c k) (bendRot c k)))) = -k := by
  have key := pick_bend hr names p hl k
  generalize pick plateIdx (localOf c (nodal names (fieldState loc (bend c k) (bendRot c k)))) = m at *
  have hside : ∀ i j : Fin 3, m (i, 0) - m (j, 0) = ((m (i, 1) + m (j, 1)) * (c.y.dot (p i) - c.y.dot (p j)) -
      (m (i, 2) + m (j, 2)) * (c.x.dot (p i) - c.x.dot (p j))) / 2 := by
    intro i j
    rw [(key i).1, (key i).2.1, (key i).2.2, (key j).1, (key j).2.1, (key j).2.2]
    simp only [deflection, along1, along2, V3.dot_sub]
    ring
  rw [dktB_sides ⟨hside 1 2, hside 2 0, hside 0 1⟩ hl2]
  rw [← (tria_coords hr p).2] at hA
  simp only [DKT.side, cons_val_zero, cons_val_one, cons_val] at hA
  simp only [(key _).2.1, (key _).2.2, along1, along2, V3.dot_sub]
  ext i
  fin_cases i
  · refine (div_eq_iff ?_).mpr ?_
    · exact hA
    · simp [DKT.side]
      ring
  · refine (div_eq_iff ?_).mpr ?_
    · exact hA
    · simp [DKT.side]
      ring
  · refine (div_eq_iff ?_).mpr ?_
    · exact hA
    · simp [DKT.side]
      ring

/-- What 3-node shells give: the work of a plate, times the sum of the components of their normal. -/
theorem C67_tria_actual_partial (hq : TriangleRule q.tria) (name : String) (s : ShellSection) (a b c : Node)
    (e : ShellElm) (cs : Csys) (he : ShellElm.dkt? name s a b c = .ok e) (hcs : e.csys = some cs) (hs : AdmissibleShell s)
    (loc : String → Option V3) (hloc : LocatesShell loc e) (k' k : Vec 3) :
    shellInternal (shellEnv q nan4 nan3 solve) e (fieldState loc (bend cs k') (bendRot cs k')) (fieldState loc (bend cs k) (bendRot cs k)) =
      (cs.z.x + cs.z.y + cs.z.z) * plateWork s (triangleArea cs.z a.loc b.loc c.loc) k' k := by
  obtain ⟨hsec, hn, _⟩ := dkt_shape he
  obtain ⟨hr, hz⟩ := dkt_axes he hcs
  have hreg : e.regular q := tria_regular he hcs (mu_ne hs.mu_gt hs.mu_lt)
  have hregs := hreg
  unfold ShellElm.regular at hregs
  rw [hcs, hn] at hregs
  obtain ⟨_, _, hl2, _⟩ := hregs
  obtain ⟨hpos, harea⟩ := tria_normal he hcs
  have hl := locates_tria hloc hn
  have hA : cs.z.dot ((b.loc - a.loc).cross (c.loc - a.loc)) ≠ 0 := by
    intro h0
    unfold triangleArea at hpos
    rw [h0] at hpos
    norm_num at hpos
  rw [tria_internal q nan4 nan3 solve e hreg cs hcs _ _ _ hn, tria_work _ _ _ _ _ _ _ _ rfl rfl, hsec]
  simp only [tria_bend hr _ _ hl k' hl2 hA, tria_bend hr _ _ hl k hl2 hA]
  have hm : pick triaIdx (localOf cs (nodal ![a.name, b.name, c.name] (fieldState loc (bend cs k) (bendRot cs k)))) = 0 := by
    funext ⟨i, r⟩
    obtain ⟨h1, h2⟩ := pick_tria cs ![a.name, b.name, c.name] (fieldState loc (bend cs k) (bendRot cs k)) i
    rw [trans_field (hl i)] at h1 h2
    fin_cases r
    · exact h1.trans (bend_comps hr k _).1
    · exact h2.trans (bend_comps hr k _).2.1
  rw [hm, List.sum_map_mul_right, hq.2, bendingD_stress, planeStress_neg]
  simp only [cons_val_zero, cons_val_one, cons_val, harea, Matrix.mulVec_zero, dotProduct_zero, plateWork, smul_neg, neg_dotProduct,
    dotProduct_neg, dotProduct_smul, smul_eq_mul]
  ring

/-- True of 3-node shells whose normal has components that add up to one: for example the horizontal ones. -/
theorem C67_tria_partial (hq : TriangleRule q.tria) (name : String) (s : ShellSection) (a b c : Node)
    (e : ShellElm) (cs : Csys) (he : ShellElm.dkt? name s a b c = .ok e) (hcs : e.csys = some cs) (hs : AdmissibleShell s)
    (hz : cs.z.x + cs.z.y + cs.z.z = 1) (loc : String → Option V3) (hloc : LocatesShell loc e) (k' k : Vec 3) :
    shellInternal (shellEnv q nan4 nan3 solve) e (fieldState loc (bend cs k') (bendRot cs k')) (fieldState loc (bend cs k) (bendRot cs k)) =
      plateWork s (triangleArea cs.z a.loc b.loc c.loc) k' k := by
  rw [C67_tria_actual_partial q nan4 nan3 solve hq name s a b c e cs he hcs hs loc hloc k' k, hz, one_mul]

/-- The property fails for 3-node shells: an upright triangle. -/
theorem C67_tria_false (hq : TriangleRule q.tria) : ¬ C67_tria_claim q := by
  intro h
  have h1 := h (fun _ => 0) (fun _ => 0) (fun _ _ _ => .error .exception) "e" unitSection _ _ _ wallTria _ wallTria_ok rfl unitSection_ok
    (quadLoc ⟨0, 0, 0⟩ ⟨0, 0, 1⟩ ⟨0, 1, 0⟩ 0)
    (by intro p hp; simp [wallTria] at hp; rcases hp with rfl | rfl | rfl <;> simp [quadLoc]) ![1, 0, 0] ![1, 0, 0]
  rw [C67_tria_actual_partial q _ _ _ hq "e" unitSection _ _ _ wallTria _ wallTria_ok rfl unitSection_ok _
    (by intro p hp; simp [wallTria] at hp; rcases hp with rfl | rfl | rfl <;> simp [quadLoc])] at h1
  simp [plateWork, planeStress, triangleArea, V3.dot, V3.cross, V3.sub_def, stdNode_loc, unitSection] at h1
  norm_num at h1

/-- the reported curvatures of a quadrilateral with a constant curvature -/
theorem dkqB_bend {c : Csys} (hr : RightHanded c) {loc : String → Option V3} (names : Fin 4 → String) (p : Fin 4 → V3)
    (hl : ∀ i, loc (names i) = some (p i)) (k : Vec 3) (hl2 : ∀ i, DKQ.l2 (planeX c p) (planeY c p) i ≠ 0) (ξ η : ℝ) :
    DKQ.B (planeX c p) (planeY c p) ξ η *ᵥ pick plateIdx (localOf c (nodal names (fieldState loc (bend c k) (bendRot c k)))) =
      ![-(DKQ.J1 (planeX c p) η * (k 0 * DKQ.J1 (planeX c p) η + k 2 / 2 * DKQ.J1 (planeY c p) η) -
          DKQ.J1 (planeY c p) η * (k 0 * DKQ.J2 (planeX c p) ξ + k 2 / 2 * DKQ.J2 (planeY c p) ξ)) / DKQ.detJ (planeX c p) (planeY c p) ξ η,
        (DKQ.J2 (planeX c p) ξ * (k 1 * DKQ.J1 (planeY c p) η + k 2 / 2 * DKQ.J1 (planeX c p) η) -
          DKQ.J2 (planeY c p) ξ * (k 1 * DKQ.J2 (planeY c p) ξ + k 2 / 2 * DKQ.J2 (planeX c p) ξ)) / DKQ.detJ (planeX c p) (planeY c p) ξ η,
        (-DKQ.J1 (planeX c p) η * (k 1 * DKQ.J1 (planeY c p) η + k 2 / 2 * DKQ.J1 (planeX c p) η) +
          DKQ.J1 (planeY c p) η * (k 1 * DKQ.J2 (planeY c p) ξ + k 2 / 2 * DKQ.J2 (planeX c p) ξ) +
          DKQ.J2 (planeX c p) ξ * (k 0 * DKQ.J1 (planeX c p) η + k 2 / 2 * DKQ.J1 (planeY c p) η) -
          DKQ.J2 (planeY c p) ξ * (k 0 * DKQ.J2 (planeX c p) ξ + k 2 / 2 * DKQ.J2 (planeY c p) ξ)) /
          DKQ.detJ (planeX c p) (planeY c p) ξ η] := by
  have key := pick_bend hr names p hl k
  generalize pick plateIdx (localOf c (nodal names (fieldState loc (bend c k) (bendRot c k)))) = m at *
  have hX : ∀ i, along1 c (p i) = planeX c p i := fun _ => rfl
  have hY : ∀ i, along2 c (p i) = planeY c p i := fun _ => rfl
  have hs : SidesOk (planeX c p) (planeY c p) m := by
    intro i
    rw [(key i).1, (key i).2.1, (key i).2.2, (key (DKQ.nx i)).1, (key (DKQ.nx i)).2.1, (key (DKQ.nx i)).2.2]
    simp only [deflection, hX, hY, DKQ.side]
    ring
  have k1 : ∀ i, m (i, 1) = k 1 * planeY c p i + k 2 / 2 * planeX c p i := fun i => (key i).2.1
  have k2 : ∀ i, m (i, 2) = -(k 0 * planeX c p i + k 2 / 2 * planeY c p i) := fun i => (key i).2.2
  have s1 : ∀ t, sXi (fun i => m (i, 1)) t = k 1 * DKQ.J1 (planeY c p) t + k 2 / 2 * DKQ.J1 (planeX c p) t := by
    intro t; simp only [sXi, k1, DKQ.J1]; ring
  have s2 : ∀ t, sXi (fun i => m (i, 2)) t = -(k 0 * DKQ.J1 (planeX c p) t + k 2 / 2 * DKQ.J1 (planeY c p) t) := by
    intro t; simp only [sXi, k2, DKQ.J1]; ring
  have e1 : ∀ t, sEta (fun i => m (i, 1)) t = k 1 * DKQ.J2 (planeY c p) t + k 2 / 2 * DKQ.J2 (planeX c p) t := by
    intro t; simp only [sEta, k1, DKQ.J2]; ring
  have e2 : ∀ t, sEta (fun i => m (i, 2)) t = -(k 0 * DKQ.J2 (planeX c p) t + k 2 / 2 * DKQ.J2 (planeY c p) t) := by
    intro t; simp only [sEta, k2, DKQ.J2]; ring
  rw [dkqB_sides hs hl2, s1, s2, e1, e2]
  ext i
  fin_cases i
  · show _ / _ = _ / _
    congr 1
    ring
  · rfl
  · show _ / _ = _ / _
    congr 1
    ring

theorem quad_pick_bend {c : Csys} (hr : RightHanded c) {loc : String → Option V3} (names : Fin 4 → String) (p : Fin 4 → V3)
    (hl : ∀ i, loc (names i) = some (p i)) (k : Vec 3) :
    pick quadIdx (localOf c (nodal names (fieldState loc (bend c k) (bendRot c k)))) = 0 := by
  funext ⟨i, r⟩
  obtain ⟨h1, h2, h3⟩ := pick_quad c names (fieldState loc (bend c k) (bendRot c k)) i
  rw [trans_field (hl i)] at h1 h2
  rw [rot_field (hl i)] at h3
  fin_cases r
  · exact h1.trans (bend_comps hr k _).1
  · exact h2.trans (bend_comps hr k _).2.1
  · exact h3.trans (bendRot_comps hr k _).2.2

/-- True of squares, and more generally of parallelograms in which the first component of the first side is the second component of the
other one. -/
theorem C67_quad_partial (hq : ProperRule q.quad) (hlin : LinearRule q.quad) (name : String) (s : ShellSection) (a b c d : Node)
    (e : ShellElm) (cs : Csys) (he : ShellElm.dkgq? name s a b c d = .ok e) (hcs : e.csys = some cs) (hs : AdmissibleShell s)
    (hpl : s.eleType = "plate" ∨ s.eleType = "shell") (hconv : StrictConvex cs.z a.loc b.loc c.loc d.loc)
    (hpar : c.loc - b.loc = d.loc - a.loc) (hsq : cs.x.dot (b.loc - a.loc) = cs.y.dot (d.loc - a.loc))
    (loc : String → Option V3) (hloc : LocatesShell loc e) (k' k : Vec 3) :
    shellInternal (shellEnv q nan4 nan3 solve) e (fieldState loc (bend cs k') (bendRot cs k')) (fieldState loc (bend cs k) (bendRot cs k)) =
      plateWork s (quadArea cs.z a.loc b.loc c.loc d.loc) k' k := by
  obtain ⟨hsec, hn, _⟩ := dkgq_shape he
  obtain ⟨hr, _⟩ := dkgq_axes he hcs
  have hreg : e.regular q := quad_regular hq hcs hr hn hconv (by rw [hsec]; exact mu_ne hs.mu_gt hs.mu_lt)
  have hp := corner_pos hr hconv
  have hl := locates_quad hloc hn
  rw [quad_internal q nan4 nan3 solve e hreg cs hcs _ _ _ _ hn, quad_work, hsec, if_pos hpl, quad_pick_bend hr _ _ hl k]
  set names : Fin 4 → String := ![a.name, b.name, c.name, d.name] with hnames
  set p : Fin 4 → V3 := ![a.loc, b.loc, c.loc, d.loc] with hpp
  simp only [Matrix.mulVec_zero, dotProduct_zero, mul_zero]
  have cx := congrArg cs.x.dot hpar
  have cy := congrArg cs.y.dot hpar
  have hJ : ∀ ξ η, DKQ.J1 (planeX cs p) η = DKQ.J2 (planeY cs p) ξ := by
    intro ξ η
    simp only [V3.dot_sub] at cx cy hsq
    simp only [DKQ.J1, DKQ.J2, planeX, planeY, hpp, V3.dot_sub, cons_val_zero, cons_val_one, cons_val]
    linear_combination (1 / 4 + η / 4) * cx - (1 / 4 + ξ / 4) * cy + hsq / 2
  have hB : ∀ k : Vec 3, ∀ w ∈ q.quad, DKQ.B (planeX cs p) (planeY cs p) w.2.1 w.2.2 *ᵥ
      pick plateIdx (localOf cs (nodal names (fieldState loc (bend cs k) (bendRot cs k)))) = -k := by
    intro k w hw
    have hd := (det_pos hp (hq w hw).2.1 (hq w hw).2.2).2.ne'
    rw [dkqB_bend hr names p hl k (fun i => dkq_l2_pos hp i), dkq_detJ, hJ w.2.1 w.2.2]
    unfold DKQ.det at hd ⊢
    rw [hJ w.2.1 w.2.2] at hd ⊢
    ext i
    fin_cases i
    · exact (div_eq_iff hd).mpr (by show _ = -k 0 * _; ring)
    · exact (div_eq_iff hd).mpr (by show _ = -k 1 * _; ring)
    · exact (div_eq_iff hd).mpr (by show _ = -k 2 * _; ring)
  have hdet : ∀ ξ η, DKQ.det (planeX cs p) (planeY cs p) ξ η = quadArea cs.z a.loc b.loc c.loc d.loc / 4 := by
    intro ξ η
    simp only [V3.dot_sub] at cx cy
    simp only [DKQ.det, DKQ.J1, DKQ.J2, planeX, planeY, hpp, V3.dot_sub, cons_val_zero, cons_val_one, cons_val, quadArea, hr.z_cross]
    have e1 : cs.x.dot c.loc = cs.x.dot b.loc + cs.x.dot d.loc - cs.x.dot a.loc := by linarith
    have e2 : cs.y.dot c.loc = cs.y.dot b.loc + cs.y.dot d.loc - cs.y.dot a.loc := by linarith
    rw [e1, e2]
    ring
  have hmap := List.map_congr_left (f := fun w => w.1 * (DKQ.det (planeX cs p) (planeY cs p) w.2.1 w.2.2 *
      ((DKQ.B (planeX cs p) (planeY cs p) w.2.1 w.2.2 *ᵥ pick plateIdx (localOf cs (nodal names (fieldState loc (bend cs k') (bendRot cs k'))))) ⬝ᵥ
        (bendingD s.material.E s.material.mu s.t *ᵥ (DKQ.B (planeX cs p) (planeY cs p) w.2.1 w.2.2 *ᵥ
          pick plateIdx (localOf cs (nodal names (fieldState loc (bend cs k) (bendRot cs k))))))))) (l := q.quad)
    (g := fun w => w.1 * (quadArea cs.z a.loc b.loc c.loc d.loc / 4 * (-k' ⬝ᵥ (bendingD s.material.E s.material.mu s.t *ᵥ -k))))
    fun w hw => by rw [hB k' w hw, hB k w hw, hdet]
  rw [hmap, List.sum_map_mul_right, hlin.1, bendingD_stress, planeStress_neg]
  simp only [plateWork, smul_neg, neg_dotProduct, dotProduct_neg, dotProduct_smul, smul_eq_mul]
  simp
  ring

/-- The property fails for 4-node shells, whatever (proper, linear) quadrature is used: a rectangle that is not a square. -/
theorem C67_quad_false (hq : ProperRule q.quad) (hlin : LinearRule q.quad) : ¬ C67_quad_claim q := by
  intro h
  have hconv : StrictConvex (flat ⟨(0 + 2 + 2 + 0) / 4, (0 + 0 + 1 + 1) / 4, 0⟩).z (stdNode "A" 0 0 0).loc (stdNode "B" 2 0 0).loc
      (stdNode "C" 2 1 0).loc (stdNode "D" 0 1 0).loc := by
    norm_num [Spec.StrictConvex, flat, V3.dot, V3.cross, V3.sub_def, stdNode_loc]
  have hok := flatQuad_ok (x0 := 0) (y0 := 0) (x1 := 2) (y1 := 0) (x2 := 2) (y2 := 1) (x3 := 0) (y3 := 1) (by norm_num)
  have hr := (dkgq_axes hok rfl).1
  have h1 := h (fun _ => 0) (fun _ => 0) (fun _ _ _ => .error .exception) "e" unitSection _ _ _ _ _ _ hok rfl unitSection_ok
    (Or.inr rfl) hconv (flatQuad_planar _ _ _ _ _ _ _ _ _) _ (quadLoc_quad _ _ _ _ _ _ _ _) ![1, 0, 0] ![1, 0, 0]
  have hreg : (flatQuad 0 0 2 0 2 1 0 1).regular q := quad_regular hq rfl hr rfl hconv
    (show 1 - unitSection.material.mu ^ 2 ≠ 0 by norm_num [unitSection])
  have hl := locates_quad (quadLoc_quad 0 0 2 0 2 1 0 1) (n0 := ("A", ⟨0, 0, 0⟩)) (n1 := ("B", ⟨2, 0, 0⟩)) (n2 := ("C", ⟨2, 1, 0⟩))
    (n3 := ("D", ⟨0, 1, 0⟩)) rfl
  have hp := corner_pos hr hconv
  rw [quad_internal q _ _ _ _ hreg _ rfl _ _ _ _ rfl, quad_work, quad_pick_bend hr _ _ hl] at h1
  simp only [Matrix.mulVec_zero, dotProduct_zero, mul_zero, dkqB_bend hr _ _ hl _ (fun i => dkq_l2_pos hp i), dkq_detJ] at h1
  have hx : planeX (flat ⟨(0 + 2 + 2 + 0) / 4, (0 + 0 + 1 + 1) / 4, 0⟩) ![⟨0, 0, 0⟩, ⟨2, 0, 0⟩, ⟨2, 1, 0⟩, ⟨0, 1, 0⟩] = ![-1, 1, 1, -1] := by
    ext i
    fin_cases i <;> norm_num [planeX, flat, V3.dot, V3.sub_def]
  have hy : planeY (flat ⟨(0 + 2 + 2 + 0) / 4, (0 + 0 + 1 + 1) / 4, 0⟩) ![⟨0, 0, 0⟩, ⟨2, 0, 0⟩, ⟨2, 1, 0⟩, ⟨0, 1, 0⟩] =
      ![-1 / 2, -1 / 2, 1 / 2, 1 / 2] := by
    ext i
    fin_cases i <;> norm_num [planeY, flat, V3.dot, V3.sub_def]
  have j1 : ∀ t, DKQ.J1 ![-1, 1, 1, -1] t = 1 := by intro t; simp [DKQ.J1]; ring
  have j2 : ∀ t, DKQ.J2 ![-1, 1, 1, -1] t = 0 := by intro t; simp [DKQ.J2]
  have j3 : ∀ t, DKQ.J1 ![-1 / 2, -1 / 2, 1 / 2, 1 / 2] t = 0 := by intro t; simp [DKQ.J1]
  have j4 : ∀ t, DKQ.J2 ![-1 / 2, -1 / 2, 1 / 2, 1 / 2] t = 1 / 2 := by intro t; simp [DKQ.J2]; ring
  rw [hx, hy] at h1
  simp only [DKQ.det, j1, j2, j3, j4] at h1
  have hs1 : hasPlate (flatQuad 0 0 2 0 2 1 0 1).section_ := Or.inr rfl
  rw [if_pos hs1, List.sum_map_mul_right, hlin.1, bendingD_stress] at h1
  simp [plateWork, planeStress, quadArea, V3.dot, V3.cross, V3.sub_def, stdNode_loc, unitSection, flatQuad, flat, dotProduct,
    Fin.sum_univ_three] at h1
  norm_num at h1

/-- a square and a horizontal triangle -/
example : ∃ e cs loc, ShellElm.dkgq? "e" unitSection (stdNode "A" 0 0 0) (stdNode "B" 1 0 0) (stdNode "C" 1 1 0) (stdNode "D" 0 1 0) = .ok e ∧
    e.csys = some cs ∧ (unitSection.eleType = "plate" ∨ unitSection.eleType = "shell") ∧ LocatesShell loc e ∧
    (stdNode "C" 1 1 0).loc - (stdNode "B" 1 0 0).loc = (stdNode "D" 0 1 0).loc - (stdNode "A" 0 0 0).loc ∧
    cs.x.dot ((stdNode "B" 1 0 0).loc - (stdNode "A" 0 0 0).loc) = cs.y.dot ((stdNode "D" 0 1 0).loc - (stdNode "A" 0 0 0).loc) :=
  ⟨flatQuad 0 0 1 0 1 1 0 1, _, _, flatQuad_ok (by norm_num), rfl, Or.inr rfl, quadLoc_quad _ _ _ _ _ _ _ _,
    by simp [stdNode_loc, V3.sub_def], by simp [stdNode_loc, V3.sub_def, flat, V3.dot]⟩
example : ∃ e cs loc, ShellElm.dkt? "e" unitSection (stdNode "A" 0 0 0) (stdNode "B" 1 0 0) (stdNode "C" 0 1 0) = .ok e ∧
    e.csys = some cs ∧ cs.z.x + cs.z.y + cs.z.z = 1 ∧ LocatesShell loc e ∧ TriangleRule [(1 / 2, 1 / 3, 1 / 3)] :=
  ⟨flatTria 0 0 1 0 0 1, _, _, flatTria_ok (by norm_num), rfl, by norm_num [flat], quadLoc_tria _ _ _ _ _ _ 0,
    by norm_num [TriangleRule]⟩

end Hyperstatic
