import Verif.Lemmas.Geom

/-
Properties C37, C38, C39, C40: coordinate systems.
-/

namespace Hyperstatic
open Spec

/-! ## C37 Local coordinate systems are right-handed and orthonormal -/

/-- Three points are rejected exactly when the cross product of the two edges is below the tolerance 1e-9 in every component; in
particular collinear points are rejected. -/
theorem C37_accept_iff (O A B : V3) :
    ((∃ e, Csys.mk? O A B = .error e) ↔ (V3.cross (A - O) (B - O)).maxAbs < 1 / 10 ^ 9) ∧
    (∀ t : ℝ, B - O = t • (A - O) → ∃ e, Csys.mk? O A B = .error e) := by
  refine ⟨mk?_error_iff O A B, ?_⟩
  intro t ht
  rw [mk?_error_iff, ht]
  have : V3.cross (A - O) (t • (A - O)) = 0 := by
    ext <;> simp [V3.cross] <;> ring
  rw [this]
  simp [V3.maxAbs, absTol_pos]

/-- An accepted system has its origin at the first point, unit, mutually orthogonal, right-handed axes, its x axis pointing
from the first to the second point, and the third point in the upper half of its x-y plane. -/
theorem C37_axes (O A B : V3) (c : Csys) (h : Csys.mk? O A B = .ok c) :
    c.O = O ∧ RightHanded c ∧
    (0 < V3.norm (A - O) ∧ A - O = V3.norm (A - O) • c.x) ∧
    (V3.dot (B - O) c.z = 0 ∧ 0 < V3.dot (B - O) c.y) := by
  obtain ⟨hr, hO, hA, hx, hz, hc⟩ := mk?_ok h
  have hAp := (V3.norm_pos_iff _).mpr hA
  refine ⟨hO, hr, ⟨hAp, hx.symm⟩, ?_⟩
  have hcp := (V3.norm_pos_iff _).mpr hc
  have hzs : (V3.cross (A - O) (B - O)).norm • c.z = V3.cross (A - O) (B - O) := by
    rw [hz]; exact V3.norm_smul_unit hc
  generalize hB : B - O = b at *
  generalize hAA : A - O = a at *
  have hzz := hr.zz
  constructor
  · have : (V3.cross a b).norm * V3.dot b c.z = 0 := by
      have e := V3.dot_cross_right a b
      rw [← hzs] at e
      rw [← e]; unfold V3.dot; simp only [V3.smul_def]; ring
    exact (mul_eq_zero.mp this).resolve_left hcp.ne'
  · have key : a.norm * V3.dot b c.y = (V3.cross a b).norm := by
      rw [← RightHanded.cross_zx hr]
      have e1 : a.norm * V3.dot b (V3.cross c.z c.x) = V3.dot c.z (V3.cross (a.norm • c.x) b) := by
        unfold V3.dot V3.cross; simp only [V3.smul_def]; ring
      rw [e1, hx, ← hzs]
      have e2 : ∀ t : ℝ, V3.dot c.z (t • c.z) = t * V3.dot c.z c.z := by
        intro t; unfold V3.dot; simp only [V3.smul_def]; ring
      rw [e2, hzz, mul_one, hzs]
    by_contra hneg
    push Not at hneg
    have : a.norm * V3.dot b c.y ≤ 0 := mul_nonpos_of_nonneg_of_nonpos hAp.le hneg
    linarith

/-- a skew triple of points is accepted -/
example : ∃ c, Csys.mk? ⟨1, 1, 1⟩ ⟨2, 3, 1⟩ ⟨0, 1, 4⟩ = .ok c := by
  unfold Csys.mk?
  simp only
  rw [if_neg]
  · exact ⟨_, rfl⟩
  · norm_num [V3.cross, V3.maxAbs, absTol]

/-! ## C38 Coordinate system by normal -/

/-- `create_by_normal` with non-zero normal and guide raises exactly when their directions agree or are opposite up to
tolerance (in particular when they are parallel); otherwise it gives a right-handed orthonormal system at `O` whose z axis
is the normalised normal and whose x axis is orthogonal to the guide. -/
theorem C38_by_normal (O n g : V3) (hn : n ≠ 0) (hg : g ≠ 0) :
    ((∃ e, Csys.createByNormal O n g = .error e) ↔
      (V3.norm (n.unit - g.unit) < absTol ∨ V3.norm (n.unit + g.unit) < absTol)) ∧
    (∀ t : ℝ, n = t • g → ∃ e, Csys.createByNormal O n g = .error e) ∧
    ∀ r, Csys.createByNormal O n g = .ok r → ∃ c, r = some c ∧ RightHanded c ∧ c.O = O ∧
      n = n.norm • c.z ∧ V3.dot c.x g = 0 := by
  obtain ⟨h1, h2⟩ := createByNormal_cases O n g hn hg
  refine ⟨⟨?_, h1⟩, ?_, ?_⟩
  · rintro ⟨e, he⟩
    by_contra hne
    obtain ⟨c, hc, _⟩ := h2 hne
    rw [hc] at he
    simp at he
  · intro t ht
    apply h1
    have ht0 : t ≠ 0 := by
      rintro rfl
      apply hn
      rw [ht]; ext <;> simp
    have hgp := (V3.norm_pos_iff _).mpr hg
    have hnn : n.norm = |t| * g.norm := by
      rw [ht]
      unfold V3.norm
      simp only [V3.smul_def]
      rw [← Real.sqrt_sq_eq_abs, ← Real.sqrt_mul (sq_nonneg t)]
      congr 1; ring
    rcases lt_or_gt_of_ne ht0 with hneg | hpos
    · right
      have : n.unit + g.unit = 0 := by
        rw [abs_of_neg hneg] at hnn
        have h3 : n.x = t * g.x := by rw [ht]; simp
        have h4 : n.y = t * g.y := by rw [ht]; simp
        have h5 : n.z = t * g.z := by rw [ht]; simp
        ext <;> simp [V3.unit, hnn, h3, h4, h5] <;> field_simp <;> ring
      rw [this, (V3.norm_eq_zero_iff _).mpr rfl]; exact absTol_pos
    · left
      have : n.unit - g.unit = 0 := by
        rw [abs_of_pos hpos] at hnn
        have h3 : n.x = t * g.x := by rw [ht]; simp
        have h4 : n.y = t * g.y := by rw [ht]; simp
        have h5 : n.z = t * g.z := by rw [ht]; simp
        ext <;> simp [V3.unit, hnn, h3, h4, h5] <;> field_simp <;> ring
      rw [this, (V3.norm_eq_zero_iff _).mpr rfl]; exact absTol_pos
  · intro r hr
    by_cases hp : V3.norm (n.unit - g.unit) < absTol ∨ V3.norm (n.unit + g.unit) < absTol
    · obtain ⟨e, he⟩ := h1 hp
      rw [he] at hr; simp at hr
    · obtain ⟨c, hc, hR, hO, hz, hx, _⟩ := h2 hp
      rw [hc] at hr
      simp only [Except.ok.injEq] at hr
      refine ⟨c, hr.symm, hR, hO, ?_, hx⟩
      rw [hz, V3.norm_smul_unit hn]

/-- the hypotheses and the accepting branch occur: normal along x, default guide -/
example : (⟨2, 0, 0⟩ : V3) ≠ 0 ∧ (⟨0, 0, 1⟩ : V3) ≠ 0 ∧
    ∃ c, Csys.createByNormal ⟨0, 0, 0⟩ ⟨2, 0, 0⟩ ⟨0, 0, 1⟩ = .ok (some c) := by
  have h1 : (⟨2, 0, 0⟩ : V3) ≠ 0 := by intro h; have := congrArg V3.x h; change (2 : ℝ) = 0 at this; norm_num at this
  have h2 : (⟨0, 0, 1⟩ : V3) ≠ 0 := by intro h; have := congrArg V3.z h; change (1 : ℝ) = 0 at this; norm_num at this
  refine ⟨h1, h2, ?_⟩
  obtain ⟨c, hc, _⟩ := (createByNormal_cases ⟨0, 0, 0⟩ _ _ h1 h2).2 (by
    have e : V3.norm ⟨2, 0, 0⟩ = 2 := by
      unfold V3.norm; simp
    have e1 : V3.norm ⟨0, 0, 1⟩ = 1 := by unfold V3.norm; simp
    have hs : (1 : ℝ) ≤ Real.sqrt 2 := by
      rw [show (1 : ℝ) = Real.sqrt 1 by simp]; exact Real.sqrt_le_sqrt (by norm_num)
    have ht := absTol_lt_one
    simp only [V3.unit, e, e1]
    norm_num [V3.norm]
    linarith)
  exact ⟨c, hc⟩

/-! ## C39 Rotations keep coordinate systems orthonormal and right-handed -/

theorem unit_ne {v : V3} (h : v ≠ 0) : v.unit.dot v.unit = 1 := V3.unit_dot h

/-- the axis of each rotation -/
noncomputable def rotAxis (c : Csys) : Rot → V3
  | .externalX _ => ⟨1, 0, 0⟩
  | .externalY _ => ⟨0, 1, 0⟩
  | .externalZ _ => ⟨0, 0, 1⟩
  | .ownX _ => c.x
  | .ownY _ => c.y
  | .ownZ _ => c.z
  | .vec v _ => v.unit

/-- the angle of each rotation -/
def rotAngle : Rot → ℝ
  | .externalX θ => θ
  | .externalY θ => θ
  | .externalZ θ => θ
  | .ownX θ => θ
  | .ownY θ => θ
  | .ownZ θ => θ
  | .vec _ θ => θ

/-- Each method performs the right-handed rotation by the given angle about the axis it names (own axis, global axis, or the
direction of the given vector), on every axis of the system; the origin stays. -/
theorem C39_rotation_formula (c : Csys) (h : RightHanded c) (r : Rot) (hr : r.proper) :
    (rotAxis c r).dot (rotAxis c r) = 1 ∧ r.call c = rotateSys (rotAxis c r) (rotAngle r) c := by
  have e : ∀ (a : V3) (θ : ℝ), a.dot a = 1 → c.applyQuat (Csys.axisQuat a θ) = rotateSys a θ c := by
    intro a θ ha
    unfold Csys.applyQuat rotateSys
    simp only [quat_apply_eq a ha]
  have h1 : (rotAxis c r).dot (rotAxis c r) = 1 := by
    cases r <;> simp only [rotAxis]
    · norm_num [V3.dot]
    · norm_num [V3.dot]
    · norm_num [V3.dot]
    · exact h.xx
    · exact h.yy
    · exact h.zz
    · exact V3.unit_dot hr
  refine ⟨h1, ?_⟩
  cases r <;> exact e _ _ h1

/-- Any sequence of rotations keeps the axes orthonormal and right-handed and the origin in place. -/
theorem C39_sequence (rs : List Rot) (hrs : ∀ r ∈ rs, r.proper) (c : Csys) (h : RightHanded c) :
    RightHanded (rs.foldl Rot.call c) ∧ (rs.foldl Rot.call c).O = c.O := by
  induction rs generalizing c with
  | nil => exact ⟨h, rfl⟩
  | cons r rs ih =>
    obtain ⟨h1, h2⟩ := C39_rotation_formula c h r (hrs r List.mem_cons_self)
    have hR : RightHanded (r.call c) := by rw [h2]; exact rotateSys_rightHanded h1 _ h
    obtain ⟨i1, i2⟩ := ih (fun q hq => hrs q (List.mem_cons_of_mem _ hq)) (r.call c) hR
    exact ⟨i1, by rw [List.foldl_cons, i2, h2]; rfl⟩

/-- Rotations about an own axis leave that axis fixed. -/
theorem C39_axis_fixed (c : Csys) (h : RightHanded c) (θ : ℝ) :
    (c.rotateX θ).x = c.x ∧ (c.rotateY θ).y = c.y ∧ (c.rotateZ θ).z = c.z := by
  refine ⟨?_, ?_, ?_⟩
  · have := (C39_rotation_formula c h (.ownX θ) trivial).2
    exact (congrArg Csys.x this).trans (rotate_axis _ h.xx θ)
  · have := (C39_rotation_formula c h (.ownY θ) trivial).2
    exact (congrArg Csys.y this).trans (rotate_axis _ h.yy θ)
  · have := (C39_rotation_formula c h (.ownZ θ) trivial).2
    exact (congrArg Csys.z this).trans (rotate_axis _ h.zz θ)

/-- the opposite rotation -/
def Rot.neg : Rot → Rot
  | .externalX θ => .externalX (-θ)
  | .externalY θ => .externalY (-θ)
  | .externalZ θ => .externalZ (-θ)
  | .ownX θ => .ownX (-θ)
  | .ownY θ => .ownY (-θ)
  | .ownZ θ => .ownZ (-θ)
  | .vec v θ => .vec v (-θ)

/-- Rotating by the opposite angle restores the system. -/
theorem C39_rotate_back (c : Csys) (h : RightHanded c) (r : Rot) (hr : r.proper) :
    (Rot.neg r).call (r.call c) = c := by
  obtain ⟨h1, h2⟩ := C39_rotation_formula c h r hr
  have hR : RightHanded (r.call c) := by rw [h2]; exact rotateSys_rightHanded h1 _ h
  have hr' : (Rot.neg r).proper := by cases r <;> exact hr
  obtain ⟨h3, h4⟩ := C39_rotation_formula (r.call c) hR (Rot.neg r) hr'
  have hax : rotAxis (r.call c) (Rot.neg r) = rotAxis c r := by
    cases r <;> simp only [rotAxis, Rot.neg]
    · exact (C39_axis_fixed c h _).1
    · exact (C39_axis_fixed c h _).2.1
    · exact (C39_axis_fixed c h _).2.2
  have han : rotAngle (Rot.neg r) = - rotAngle r := by cases r <;> rfl
  rw [h4, hax, han, h2]
  unfold rotateSys
  simp only [rotate_back _ h1]

/-- the global system is right-handed, and a mixed sequence of rotations is proper -/
example : RightHanded (Csys.alignWithGlobal ⟨⟨1, 2, 3⟩, 0, 0, 0⟩) ∧
    ∀ r ∈ [Rot.externalX 1, Rot.ownY 2, Rot.vec ⟨1, 1, 1⟩ 3], r.proper := by
  constructor
  · constructor <;> simp [Csys.alignWithGlobal, V3.dot, V3.cross]
  · simp [Rot.proper]

/-! ## C40 Resetting a coordinate system by three points takes effect -/

/-- C40 is false: `set_by_3pts` succeeds but leaves all axes as they were, although the constructor gives others for the
same points. -/
theorem C40_false : ∃ (c c' : Csys) (O A B : V3), RightHanded c ∧ Csys.mk? O A B = .ok c' ∧
    (c.setBy3pts O A B).2 = .ok () ∧ (c.setBy3pts O A B).1.x ≠ c'.x := by
  refine ⟨⟨⟨0, 0, 0⟩, ⟨1, 0, 0⟩, ⟨0, 1, 0⟩, ⟨0, 0, 1⟩⟩, ⟨⟨0, 0, 0⟩, ⟨0, 1, 0⟩, ⟨-1, 0, 0⟩, ⟨0, 0, 1⟩⟩, ⟨0, 0, 0⟩,
    ⟨0, 1, 0⟩, ⟨-1, 0, 0⟩, ?_, ?_, ?_, ?_⟩
  · constructor <;> simp [V3.dot, V3.cross]
  · unfold Csys.mk?
    norm_num [V3.cross, V3.maxAbs, absTol, V3.unit, V3.norm]
  · unfold Csys.setBy3pts
    norm_num [V3.norm, V3.dot]
  · unfold Csys.setBy3pts
    norm_num [V3.norm, V3.dot]

/-- What `set_by_3pts` does instead, in every state: the axes never change, the origin always becomes the first point
(even when the method raises). -/
theorem C40_actual (c : Csys) (O A B : V3) :
    (c.setBy3pts O A B).1 = ⟨O, c.x, c.y, c.z⟩ := by
  unfold Csys.setBy3pts
  simp only
  split
  · rfl
  · split <;> rfl

/-- Aligning with the global axes, after whatever rotations, gives the global axes at the same origin. -/
theorem C39_align (rs : List Rot) (hrs : ∀ r ∈ rs, r.proper) (c : Csys) (h : RightHanded c) :
    let d := (rs.foldl Rot.call c).alignWithGlobal
    d.O = c.O ∧ d.x = ⟨1, 0, 0⟩ ∧ d.y = ⟨0, 1, 0⟩ ∧ d.z = ⟨0, 0, 1⟩ ∧ RightHanded d :=
  ⟨(C39_sequence rs hrs c h).2, rfl, rfl, rfl, by constructor <;> simp [Csys.alignWithGlobal, V3.dot, V3.cross]⟩

end Hyperstatic
