import Verif.Lemmas.Exact

/-
Linear combinations of deformations, uniqueness of the fields along the beams, and energy.
-/

namespace Hyperstatic
open Matrix Spec Set MeasureTheory

theorem Spec.Slope.comb {l : ℝ} {f f' g g' : ℝ → ℝ} (hl : 0 ≤ l) (hf : Slope l f f') (hg : Slope l g g') (a b : ℝ) :
    Slope l (fun x => a * f x + b * g x) (fun x => a * f' x + b * g' x) where
  tame := (hf.tame.const_mul a).add (hg.tame.const_mul b)
  eq x h0 h1 := by
    have i1 := (hf.restrict h0 h1).tame.1
    have i2 := (hg.restrict h0 h1).tame.1
    rw [intervalIntegral.integral_add (i1.const_mul a) (i2.const_mul b), intervalIntegral.integral_const_mul,
      intervalIntegral.integral_const_mul, hf.eq x h0 h1, hg.eq x h0 h1]
    ring

/-- linear combination of two shapes -/
def BeamShape.comb (a : ℝ) (S : BeamShape) (b : ℝ) (S' : BeamShape) : BeamShape where
  axial x := a * S.axial x + b * S'.axial x
  strain x := a * S.strain x + b * S'.strain x
  twist x := a * S.twist x + b * S'.twist x
  rate x := a * S.rate x + b * S'.rate x
  defl2 x := a * S.defl2 x + b * S'.defl2 x
  slope2 x := a * S.slope2 x + b * S'.slope2 x
  curv2 x := a * S.curv2 x + b * S'.curv2 x
  defl3 x := a * S.defl3 x + b * S'.defl3 x
  slope3 x := a * S.slope3 x + b * S'.slope3 x
  curv3 x := a * S.curv3 x + b * S'.curv3 x

theorem smooth_comb {l : ℝ} (hl : 0 ≤ l) {S S' : BeamShape} (h : S.Smooth l) (h' : S'.Smooth l) (a b : ℝ) :
    (BeamShape.comb a S b S').Smooth l :=
  ⟨h.strain.comb hl h'.strain a b, h.rate.comb hl h'.rate a b, h.slope2.comb hl h'.slope2 a b, h.curv2.comb hl h'.curv2 a b,
    h.slope3.comb hl h'.slope3 a b, h.curv3.comb hl h'.curv3 a b⟩

theorem ends_comb (l a b : ℝ) (S S' : BeamShape) : (BeamShape.comb a S b S').ends l = a • S.ends l + b • S'.ends l := by
  funext i
  fin_cases i <;> simp [BeamShape.ends, BeamShape.comb] <;> ring

theorem internal_tame {g : GivenBeam} (hl : 0 ≤ g.len) {V S : BeamShape} (hV : V.Smooth g.len) (hS : S.Smooth g.len) :
    Tame g.len fun x => g.sec.mat.E * g.sec.A * S.strain x * V.strain x + g.sec.mat.E * g.sec.I3 * S.curv2 x * V.curv2 x +
     g.sec.mat.E * g.sec.I2 * S.curv3 x * V.curv3 x + g.sec.mat.E / (2 * (1 + g.sec.mat.mu)) * g.sec.J * S.rate x * V.rate x :=
  ((((hS.strain.tame.const_mul _).mul hl hV.strain.tame).add ((hS.curv2.tame.const_mul _).mul hl hV.curv2.tame)).add
    ((hS.curv3.tame.const_mul _).mul hl hV.curv3.tame)).add ((hS.rate.tame.const_mul _).mul hl hV.rate.tame)

theorem shape_internal_comm (g : GivenBeam) (V S : BeamShape) : BeamShape.internal g V S = BeamShape.internal g S V := by
  unfold BeamShape.internal
  congr 1; funext x; ring

theorem shape_internal_comb {g : GivenBeam} (hl : 0 ≤ g.len) {V S S' : BeamShape} (hV : V.Smooth g.len) (hS : S.Smooth g.len)
    (hS' : S'.Smooth g.len) (a b : ℝ) :
    BeamShape.internal g V (BeamShape.comb a S b S') = a * BeamShape.internal g V S + b * BeamShape.internal g V S' := by
  unfold BeamShape.internal
  rw [← intervalIntegral.integral_const_mul, ← intervalIntegral.integral_const_mul,
    ← intervalIntegral.integral_add ((internal_tame hl hV hS).const_mul a).1 ((internal_tame hl hV hS').const_mul b).1]
  congr 1; funext x
  simp only [BeamShape.comb]; ring

theorem distWork_tame {l : ℝ} (hl : 0 ≤ l) (w : Vec 8) {V : BeamShape} (hV : V.Smooth l) :
    Tame l fun x => lineLoad (w 0) (w 1) l x * V.axial x + lineLoad (w 2) (w 3) l x * V.defl2 x +
     lineLoad (w 4) (w 5) l x * V.defl3 x + lineLoad (w 6) (w 7) l x * V.twist x := by
  have k : ∀ p q, Tame l (lineLoad p q l) := fun p q => .of_continuous (by unfold lineLoad; fun_prop)
  exact ((((k _ _).mul hl (hV.strain.left hl)).add ((k _ _).mul hl (hV.slope2.left hl))).add ((k _ _).mul hl (hV.slope3.left hl))).add
    ((k _ _).mul hl (hV.rate.left hl))

theorem distWork_comb {l : ℝ} (hl : 0 ≤ l) (w : Vec 8) {V V' : BeamShape} (hV : V.Smooth l) (hV' : V'.Smooth l) (a b : ℝ) :
    (BeamShape.comb a V b V').distWork l w = a * V.distWork l w + b * V'.distWork l w := by
  unfold BeamShape.distWork
  rw [← intervalIntegral.integral_const_mul, ← intervalIntegral.integral_const_mul,
    ← intervalIntegral.integral_add ((distWork_tame hl w hV).const_mul a).1 ((distWork_tame hl w hV').const_mul b).1]
  congr 1; funext x
  simp only [BeamShape.comb]; ring

theorem concWork_comb (l : ℝ) (w : Vec 7) (V V' : BeamShape) (a b : ℝ) :
    (BeamShape.comb a V b V').concWork l w = a * V.concWork l w + b * V'.concWork l w := by
  simp only [BeamShape.concWork, BeamShape.comb]; ring

/-- linear combination of two deformations -/
def Deformation.comb (a : ℝ) (D : Deformation) (b : ℝ) (D' : Deformation) : Deformation where
  node n := a • D.node n + b • D'.node n
  shape n := BeamShape.comb a (D.shape n) b (D'.shape n)

theorem conforms_comb {s : Blueprint} {nodes : List String} (h : Sane s nodes) {D D' : Deformation} (hD : s.Conforms D) (hD' : s.Conforms D')
    (a b : ℝ) : s.Conforms (Deformation.comb a D b D') := by
  intro n g hg
  obtain ⟨c, hc⟩ := h.ok n g hg
  obtain ⟨h1, h2⟩ := hD n g hg
  obtain ⟨h3, h4⟩ := hD' n g hg
  refine ⟨smooth_comb (len_pos hc).le h1 h3 a b, ?_⟩
  show (BeamShape.comb a (D.shape n) b (D'.shape n)).ends g.len = _
  rw [ends_comb, h2, h4]
  funext i
  fin_cases i <;> simp [GivenBeam.ends, localEnds, Deformation.comb, Spec.trans, Spec.rot, V3.dot] <;> ring

theorem fieldInternal_comm (s : Blueprint) (V D : Deformation) : s.fieldInternal V D = s.fieldInternal D V := by
  unfold Blueprint.fieldInternal
  congr 1
  apply List.map_congr_left
  intro b _
  cases s.beam b <;> simp [shape_internal_comm]

theorem fieldInternal_comb {s : Blueprint} {nodes : List String} (h : Sane s nodes) {V D D' : Deformation} (hV : s.Conforms V)
    (hD : s.Conforms D) (hD' : s.Conforms D') (a b : ℝ) :
    s.fieldInternal V (Deformation.comb a D b D') = a * s.fieldInternal V D + b * s.fieldInternal V D' := by
  unfold Blueprint.fieldInternal
  rw [← List.sum_map_mul_left, ← List.sum_map_mul_left, ← List.sum_map_add]
  congr 1
  apply List.map_congr_left
  intro n hn
  obtain ⟨g, hg⟩ := h.term hn
  obtain ⟨c, hc⟩ := h.ok n g hg
  rw [hg]
  simp only [Option.elim_some]
  exact shape_internal_comb (len_pos hc).le (hV n g hg).1 (hD n g hg).1 (hD' n g hg).1 a b

theorem fieldCase_comb {s : Blueprint} {nodes : List String} (h : Sane s nodes) (ns : List String) (r : CaseReg) (k : String → Option ℝ)
    (names : List String) {D D' : Deformation} (hD : s.Conforms D) (hD' : s.Conforms D') (a b : ℝ) :
    s.fieldCaseWork ns r k names (Deformation.comb a D b D') = a * s.fieldCaseWork ns r k names D + b * s.fieldCaseWork ns r k names D' := by
  unfold Blueprint.fieldCaseWork
  rw [← List.sum_map_mul_left, ← List.sum_map_mul_left, ← List.sum_map_add]
  congr 1
  apply List.map_congr_left
  intro p _
  cases r.pats p with
  | none => simp
  | some q =>
    simp only [Option.elim_some]
    have e : s.fieldPatternWork ns q (Deformation.comb a D b D') = a * s.fieldPatternWork ns q D + b * s.fieldPatternWork ns q D' := by
      unfold Blueprint.fieldPatternWork
      have e1 : (ns.map fun n => ((q.node n).getD 0) ⬝ᵥ (Deformation.comb a D b D').node n).sum =
          a * (ns.map fun n => ((q.node n).getD 0) ⬝ᵥ D.node n).sum + b * (ns.map fun n => ((q.node n).getD 0) ⬝ᵥ D'.node n).sum := by
        rw [← List.sum_map_mul_left, ← List.sum_map_mul_left, ← List.sum_map_add]
        congr 1
        apply List.map_congr_left
        intro n _
        simp only [Deformation.comb, dotProduct_add, dotProduct_smul, smul_eq_mul]
      have e2 : (s.beams.map fun n => (s.beam n).elim 0 fun g =>
          ((q.dist n).elim 0 fun w => ((Deformation.comb a D b D').shape n).distWork g.len w) +
            ((q.conc n).elim 0 fun w => ((Deformation.comb a D b D').shape n).concWork g.len w)).sum =
          a * (s.beams.map fun n => (s.beam n).elim 0 fun g => ((q.dist n).elim 0 fun w => (D.shape n).distWork g.len w) +
            ((q.conc n).elim 0 fun w => (D.shape n).concWork g.len w)).sum +
          b * (s.beams.map fun n => (s.beam n).elim 0 fun g => ((q.dist n).elim 0 fun w => (D'.shape n).distWork g.len w) +
            ((q.conc n).elim 0 fun w => (D'.shape n).concWork g.len w)).sum := by
        rw [← List.sum_map_mul_left, ← List.sum_map_mul_left, ← List.sum_map_add]
        congr 1
        apply List.map_congr_left
        intro n hn
        obtain ⟨g, hg⟩ := h.term hn
        obtain ⟨c, hc⟩ := h.ok n g hg
        rw [hg]
        simp only [Option.elim_some]
        have d1 : ∀ w, ((Deformation.comb a D b D').shape n).distWork g.len w =
            a * (D.shape n).distWork g.len w + b * (D'.shape n).distWork g.len w :=
          fun w => distWork_comb (len_pos hc).le w (hD n g hg).1 (hD' n g hg).1 a b
        have d2 : ∀ w, ((Deformation.comb a D b D').shape n).concWork g.len w =
            a * (D.shape n).concWork g.len w + b * (D'.shape n).concWork g.len w := fun w => concWork_comb g.len w _ _ a b
        cases q.dist n <;> cases q.conc n <;> simp only [Option.elim_some, Option.elim_none, d1, d2] <;> ring
      rw [e1, e2]; ring
    rw [e]; ring

/-! ### energy -/

theorem shape_internal_nonneg {g : GivenBeam} (hl : 0 ≤ g.len) (hp : g.sec.Positive) (S : BeamShape) : 0 ≤ BeamShape.internal g S S := by
  unfold BeamShape.internal
  apply intervalIntegral.integral_nonneg hl
  intro x _
  obtain ⟨p1, p2, p3, p4, p5, p6⟩ := hp
  have : 0 < 1 + g.sec.mat.mu := by linarith
  have e : g.sec.mat.E * g.sec.A * S.strain x * S.strain x + g.sec.mat.E * g.sec.I3 * S.curv2 x * S.curv2 x +
     g.sec.mat.E * g.sec.I2 * S.curv3 x * S.curv3 x + g.sec.mat.E / (2 * (1 + g.sec.mat.mu)) * g.sec.J * S.rate x * S.rate x =
     g.sec.mat.E * g.sec.A * S.strain x ^ 2 + g.sec.mat.E * g.sec.I3 * S.curv2 x ^ 2 +
     g.sec.mat.E * g.sec.I2 * S.curv3 x ^ 2 + g.sec.mat.E / (2 * (1 + g.sec.mat.mu)) * g.sec.J * S.rate x ^ 2 := by ring
  rw [e]
  positivity

theorem fieldInternal_nonneg {s : Blueprint} {nodes : List String} (h : Sane s nodes) (hp : s.Positive) (D : Deformation) :
    0 ≤ s.fieldInternal D D := by
  unfold Blueprint.fieldInternal
  apply List.sum_nonneg
  intro x hx
  obtain ⟨n, hn, rfl⟩ := List.mem_map.mp hx
  obtain ⟨g, hg⟩ := h.term hn
  obtain ⟨c, hc⟩ := h.ok n g hg
  rw [hg]
  exact shape_internal_nonneg (len_pos hc).le (hp n g hg) _

/-- A function whose weighted square has integral zero has a vanishing primitive. -/
theorem prim_zero {l : ℝ} {f f' : ℝ → ℝ} (hf : Slope l f f') (h : ∀ᵐ x ∂volume.restrict (Ioc 0 l), f' x = 0) (x : ℝ) (h0 : 0 ≤ x)
    (h1 : x ≤ l) : f x = f 0 := by
  rw [hf.eq x h0 h1]
  have : ∫ t in (0:ℝ)..x, f' t = 0 := by
    rw [intervalIntegral.integral_of_le h0]
    apply integral_eq_zero_of_ae
    exact ae_restrict_of_ae_restrict_of_subset (Ioc_subset_Ioc le_rfl h1) h
  rw [this, add_zero]

/-- two shapes agree along the beam -/
structure AgreeOn (l : ℝ) (S S' : BeamShape) : Prop where
  axial : ∀ x, 0 ≤ x → x ≤ l → S.axial x = S'.axial x
  twist : ∀ x, 0 ≤ x → x ≤ l → S.twist x = S'.twist x
  defl2 : ∀ x, 0 ≤ x → x ≤ l → S.defl2 x = S'.defl2 x
  slope2 : ∀ x, 0 ≤ x → x ≤ l → S.slope2 x = S'.slope2 x
  defl3 : ∀ x, 0 ≤ x → x ≤ l → S.defl3 x = S'.defl3 x
  slope3 : ∀ x, 0 ≤ x → x ≤ l → S.slope3 x = S'.slope3 x

/-- Without internal work and with fixed ends nothing moves. -/
theorem shape_zero {g : GivenBeam} (hl : 0 < g.len) (hp : g.sec.Positive) {S : BeamShape} (hS : S.Smooth g.len)
    (h : BeamShape.internal g S S = 0) (he : S.ends g.len = 0) (x : ℝ) (h0 : 0 ≤ x) (h1 : x ≤ g.len) :
    S.axial x = 0 ∧ S.twist x = 0 ∧ S.defl2 x = 0 ∧ S.slope2 x = 0 ∧ S.defl3 x = 0 ∧ S.slope3 x = 0 := by
  obtain ⟨p1, p2, p3, p4, p5, p6⟩ := hp
  have pm : 0 < 1 + g.sec.mat.mu := by linarith
  have q1 : 0 < g.sec.mat.E * g.sec.A := by positivity
  have q2 : 0 < g.sec.mat.E * g.sec.I3 := by positivity
  have q3 : 0 < g.sec.mat.E * g.sec.I2 := by positivity
  have q4 : 0 < g.sec.mat.E / (2 * (1 + g.sec.mat.mu)) * g.sec.J := by positivity
  unfold BeamShape.internal at h
  have hi := (internal_tame hl.le hS hS).1
  rw [intervalIntegral.integral_of_le hl.le] at h
  rw [intervalIntegrable_iff_integrableOn_Ioc_of_le hl.le] at hi
  have hz := (integral_eq_zero_iff_of_nonneg_ae (Filter.Eventually.of_forall fun y => by
    simp only [Pi.zero_apply]
    nlinarith [mul_nonneg q1.le (sq_nonneg (S.strain y)), mul_nonneg q2.le (sq_nonneg (S.curv2 y)),
      mul_nonneg q3.le (sq_nonneg (S.curv3 y)), mul_nonneg q4.le (sq_nonneg (S.rate y))]) hi).mp h
  have hall : ∀ᵐ y ∂volume.restrict (Ioc 0 g.len), S.strain y = 0 ∧ S.curv2 y = 0 ∧ S.curv3 y = 0 ∧ S.rate y = 0 := by
    filter_upwards [hz] with y hy
    simp only [Pi.zero_apply] at hy
    have a1 := mul_nonneg q1.le (sq_nonneg (S.strain y))
    have a2 := mul_nonneg q2.le (sq_nonneg (S.curv2 y))
    have a3 := mul_nonneg q3.le (sq_nonneg (S.curv3 y))
    have a4 := mul_nonneg q4.le (sq_nonneg (S.rate y))
    have z : ∀ {c t : ℝ}, 0 < c → c * t ^ 2 = 0 → t = 0 := fun hc ht => by
      rcases mul_eq_zero.mp ht with h | h
      · exact absurd h hc.ne'
      · exact pow_eq_zero_iff (by norm_num) |>.mp h
    refine ⟨z q1 ?_, z q2 ?_, z q3 ?_, z q4 ?_⟩ <;> nlinarith
  have e0 := congrFun he 0
  have e1 := congrFun he 1
  have e2 := congrFun he 2
  have e3 := congrFun he 3
  have e4 := congrFun he 4
  have e5 := congrFun he 5
  simp only [BeamShape.ends, cons_val_zero, cons_val_one, cons_val, Pi.zero_apply, neg_eq_zero] at e0 e1 e2 e3 e4 e5
  have s2 : ∀ y, 0 ≤ y → y ≤ g.len → S.slope2 y = 0 := fun y a b => by
    rw [prim_zero hS.curv2 (hall.mono fun _ h => h.2.1) y a b, e5]
  have s3 : ∀ y, 0 ≤ y → y ≤ g.len → S.slope3 y = 0 := fun y a b => by
    rw [prim_zero hS.curv3 (hall.mono fun _ h => h.2.2.1) y a b, e4]
  have on : ∀ {f : ℝ → ℝ}, (∀ y, 0 ≤ y → y ≤ g.len → f y = 0) → ∀ᵐ y ∂volume.restrict (Ioc 0 g.len), f y = 0 := fun hf =>
    (ae_restrict_iff' measurableSet_Ioc).mpr (Filter.Eventually.of_forall fun y hy => hf y hy.1.le hy.2)
  refine ⟨?_, ?_, ?_, s2 x h0 h1, ?_, s3 x h0 h1⟩
  · rw [prim_zero hS.strain (hall.mono fun _ h => h.1) x h0 h1, e0]
  · rw [prim_zero hS.rate (hall.mono fun _ h => h.2.2.2) x h0 h1, e3]
  · rw [prim_zero hS.slope2 (on s2) x h0 h1, e1]
  · rw [prim_zero hS.slope3 (on s3) x h0 h1, e2]

/-- Shapes with the same ends whose difference does no internal work agree. -/
theorem shape_agree {g : GivenBeam} (hl : 0 < g.len) (hp : g.sec.Positive) {S S' : BeamShape} (hS : S.Smooth g.len) (hS' : S'.Smooth g.len)
    (he : S.ends g.len = S'.ends g.len)
    (h : BeamShape.internal g (BeamShape.comb 1 S (-1) S') S = BeamShape.internal g (BeamShape.comb 1 S (-1) S') S') :
    AgreeOn g.len S S' := by
  have hc := smooth_comb hl.le hS hS' 1 (-1)
  have h0 : BeamShape.internal g (BeamShape.comb 1 S (-1) S') (BeamShape.comb 1 S (-1) S') = 0 := by
    rw [shape_internal_comb hl.le hc hS hS', h]; ring
  have hz := shape_zero hl hp hc h0 (by rw [ends_comb, he]; simp)
  simp only [BeamShape.comb] at hz
  refine ⟨fun x a b => ?_, fun x a b => ?_, fun x a b => ?_, fun x a b => ?_, fun x a b => ?_, fun x a b => ?_⟩ <;>
    · obtain ⟨z1, z2, z3, z4, z5, z6⟩ := hz x a b
      linarith

/-! ### deforming one beam only -/

/-- nothing moves -/
def BeamShape.zero : BeamShape := ⟨0, 0, 0, 0, 0, 0, 0, 0, 0, 0⟩

theorem zero_smooth (l : ℝ) : BeamShape.zero.Smooth l := by
  have h : Slope l 0 0 := ⟨.of_continuous continuous_const, fun x _ _ => by simp⟩
  exact ⟨h, h, h, h, h, h⟩

/-- only beam `b` deforms -/
def bubble (b : String) (S : BeamShape) : Deformation where
  node _ := 0
  shape n := if n = b then S else BeamShape.zero

theorem given_ends_zero (g : GivenBeam) : g.ends (fun _ => 0) = 0 := by
  funext i
  fin_cases i <;> simp [GivenBeam.ends, localEnds, Spec.trans, Spec.rot, V3.dot]

theorem bubble_conforms {s : Blueprint} {b : String} {g : GivenBeam} (hb : s.beam b = some g) {S : BeamShape} (hS : S.Smooth g.len)
    (he : S.ends g.len = 0) : s.Conforms (bubble b S) := by
  intro n g' hg
  show _ ∧ _ = g'.ends (fun _ => 0)
  rw [given_ends_zero]
  by_cases h : n = b
  · subst h
    rw [hb] at hg; cases hg
    simp only [bubble, if_true]
    exact ⟨hS, he⟩
  · simp only [bubble, if_neg h]
    refine ⟨zero_smooth _, ?_⟩
    funext i
    fin_cases i <;> simp [BeamShape.ends, BeamShape.zero]

theorem sum_single_term {α : Type} [DecidableEq α] {xs : List α} (hn : xs.Nodup) {a : α} (ha : a ∈ xs) {f : α → ℝ} (hf : ∀ x ∈ xs, x ≠ a → f x = 0) :
    (xs.map f).sum = f a := by
  induction xs with
  | nil => cases ha
  | cons y ys ih =>
    obtain ⟨h1, h2⟩ := List.nodup_cons.mp hn
    simp only [List.map_cons, List.sum_cons]
    by_cases hy : y = a
    · subst hy
      have : (ys.map f).sum = 0 := by
        apply List.sum_eq_zero
        intro z hz
        obtain ⟨x, hx, rfl⟩ := List.mem_map.mp hz
        exact hf x (List.mem_cons_of_mem _ hx) (fun h => h1 (h ▸ hx))
      rw [this, add_zero]
    · rw [hf y List.mem_cons_self hy, zero_add]
      have ha' : a ∈ ys := by
        rcases List.mem_cons.mp ha with h | h
        · exact absurd h.symm hy
        · exact h
      exact ih h2 ha' fun x hx => hf x (List.mem_cons_of_mem _ hx)

theorem bubble_internal {s : Blueprint} {nodes : List String} (h : Sane s nodes) {b : String} {g : GivenBeam} (hb : s.beam b = some g)
    (S : BeamShape) (D : Deformation) : s.fieldInternal (bubble b S) D = BeamShape.internal g S (D.shape b) := by
  unfold Blueprint.fieldInternal
  have hm : b ∈ s.beams := (h.mem b).mpr (by rw [hb]; rfl)
  rw [sum_single_term h.nodup hm, hb]
  · simp [bubble]
  · intro n hn hne
    obtain ⟨g', hg⟩ := h.term hn
    rw [hg]
    simp [bubble, hne, BeamShape.internal, BeamShape.zero]

theorem zero_distWork (l : ℝ) (w : Vec 8) : BeamShape.zero.distWork l w = 0 := by simp [BeamShape.distWork, BeamShape.zero]
theorem zero_concWork (l : ℝ) (w : Vec 7) : BeamShape.zero.concWork l w = 0 := by simp [BeamShape.concWork, BeamShape.zero]

theorem bubble_load {s : Blueprint} {nodes : List String} (h : Sane s nodes) (ns : List String) (r : CaseReg) (k : String → Option ℝ)
    (names : List String) {b : String} {g : GivenBeam} (hb : s.beam b = some g) (S : BeamShape) :
    s.fieldCaseWork ns r k names (bubble b S) = beamLoad r k names g.len b S := by
  rw [fieldCase_split]
  have hm : b ∈ s.beams := (h.mem b).mpr (by rw [hb]; rfl)
  rw [sum_single_term h.nodup hm, hb]
  · have : (names.map fun p => (k p).getD 0 * (r.pats p).elim 0 fun q => (ns.map fun n => ((q.node n).getD 0) ⬝ᵥ (bubble b S).node n).sum).sum
        = 0 := by
      apply list_sum_const_zero
      intro p _
      cases r.pats p <;> simp [bubble]
    rw [this, zero_add]
    simp [bubble]
  · intro n hn hne
    obtain ⟨g', hg⟩ := h.term hn
    rw [hg]
    simp only [Option.elim_some, bubble, if_neg hne]
    unfold beamLoad
    apply list_sum_const_zero
    intro p _
    cases r.pats p with
    | none => simp
    | some q =>
      simp only [Option.elim_some]
      rcases q.dist n with _ | w <;> rcases q.conc n with _ | w' <;> simp only [Option.elim_some, Option.elim_none, zero_distWork, zero_concWork, add_zero, mul_zero]

end Hyperstatic
