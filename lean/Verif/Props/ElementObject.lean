import Verif.Model.ElementObject
import Verif.Lemmas.Assemble
import Verif.Props.Csys

/-
C167: nodes and beams used as objects: turning a beam about its axis.
-/

namespace Hyperstatic
open Matrix Spec

/-- the rotations assigned, added up -/
def turned : List BeamSet → ℝ
  | [] => 0
  | .rotation θ :: ss => θ + turned ss
  | .releases _ :: ss => turned ss

/-- the rotation assigned last, or the one before -/
def lastRotation : ℝ → List BeamSet → ℝ
  | r, [] => r
  | _, .rotation θ :: ss => lastRotation θ ss
  | r, .releases _ :: ss => lastRotation r ss

/-- the releases assigned last, or those before -/
def lastReleases : (Fin 12 → Bool) → List BeamSet → Fin 12 → Bool
  | r, [] => r
  | r, .rotation _ :: ss => lastReleases r ss
  | _, .releases r :: ss => lastReleases r ss

theorem rotateX_eq {c : Csys} (h : RightHanded c) (θ : ℝ) : c.rotateX θ = rotateSys c.x θ c :=
  (C39_rotation_formula c h (.ownX θ) trivial).2

/-- the axes turned about the first one -/
theorem turn_axes {c : Csys} (h : RightHanded c) (θ : ℝ) : rotateSys c.x θ c =
    ⟨c.O, c.x, Real.cos θ • c.y + Real.sin θ • c.z, Real.cos θ • c.z - Real.sin θ • c.y⟩ := by
  have hx := rotate_axis c.x h.xx θ
  have e1 : V3.dot c.x c.y = 0 := h.xy
  have e2 : V3.dot c.x c.z = 0 := by rw [← h.zx]; unfold V3.dot; ring
  have e3 : V3.cross c.x c.z = (-1 : ℝ) • c.y := by
    rw [← h.hand]
    have := h.xx
    have hxy := h.xy
    unfold V3.dot at this hxy
    ext <;> simp only [V3.cross, V3.smul_def] <;> [linear_combination c.x.x * hxy - c.y.x * this; linear_combination c.x.y * hxy - c.y.y * this;
      linear_combination c.x.z * hxy - c.y.z * this]
  unfold rotateSys
  rw [hx]
  congr 1
  · unfold rotate
    rw [h.hand, e1]
    ext <;> simp [V3.smul_def, V3.add_def]
  · unfold rotate
    rw [e3, e2]
    ext <;> simp [V3.smul_def, V3.add_def, V3.sub_def] <;> ring

theorem turn_twice {c : Csys} (h : RightHanded c) (a b : ℝ) : rotateSys c.x b (rotateSys c.x a c) = rotateSys c.x (a + b) c := by
  have h' := rotateSys_rightHanded h.xx a h
  have hx : (rotateSys c.x a c).x = c.x := rotate_axis c.x h.xx a
  have e := turn_axes h' b
  rw [hx] at e
  rw [e, turn_axes h, turn_axes h, Real.cos_add, Real.sin_add]
  simp only [V3.add_def, V3.smul_def, V3.sub_def, Csys.mk.injEq, V3.mk.injEq, true_and]
  refine ⟨⟨?_, ?_, ?_⟩, ?_, ?_, ?_⟩ <;> ring

/-- local components of the ends in axes turned about the first one -/
def spin (C S : ℝ) (w : Vec 12) : Vec 12 :=
  ![w 0, C * w 1 + S * w 2, C * w 2 - S * w 1, w 3, C * w 4 + S * w 5, C * w 5 - S * w 4,
    w 6, C * w 7 + S * w 8, C * w 8 - S * w 7, w 9, C * w 10 + S * w 11, C * w 11 - S * w 10]

theorem lineT_turn {c : Csys} (h : RightHanded c) (θ : ℝ) (u : Vec 12) :
    lineT (rotateSys c.x θ c) *ᵥ u = spin (Real.cos θ) (Real.sin θ) (lineT c *ᵥ u) := by
  rw [lineT_mulVec, lineT_mulVec, turn_axes h]
  ext i
  fin_cases i <;> simp [spin, V3.dot] <;> ring

theorem beamWork_spin (c : BeamConsts) (l C S : ℝ) (v d : Vec 12) : beamWork c l (spin C S v) (spin C S d) =
    (v 6 - v 0) * (c.E * c.A / l * (d 6 - d 0)) + (v 9 - v 3) * (c.G * c.J / l * (d 9 - d 3)) +
    bendWork (c.E * c.I3) l (C * (d 5 - (d 7 - d 1) / l) + S * (- d 4 - (d 8 - d 2) / l)) (C * (d 11 - (d 7 - d 1) / l) + S * (- d 10 - (d 8 - d 2) / l))
      (C * (v 5 - (v 7 - v 1) / l) + S * (- v 4 - (v 8 - v 2) / l)) (C * (v 11 - (v 7 - v 1) / l) + S * (- v 10 - (v 8 - v 2) / l)) +
    bendWork (c.E * c.I2) l (C * (- d 4 - (d 8 - d 2) / l) - S * (d 5 - (d 7 - d 1) / l)) (C * (- d 10 - (d 8 - d 2) / l) - S * (d 11 - (d 7 - d 1) / l))
      (C * (- v 4 - (v 8 - v 2) / l) - S * (v 5 - (v 7 - v 1) / l)) (C * (- v 10 - (v 8 - v 2) / l) - S * (v 11 - (v 7 - v 1) / l)) := by
  have e : ∀ w : Vec 12, spin C S w 0 = w 0 ∧ spin C S w 1 = C * w 1 + S * w 2 ∧ spin C S w 2 = C * w 2 - S * w 1 ∧ spin C S w 3 = w 3 ∧
      spin C S w 4 = C * w 4 + S * w 5 ∧ spin C S w 5 = C * w 5 - S * w 4 ∧ spin C S w 6 = w 6 ∧ spin C S w 7 = C * w 7 + S * w 8 ∧
      spin C S w 8 = C * w 8 - S * w 7 ∧ spin C S w 9 = w 9 ∧ spin C S w 10 = C * w 10 + S * w 11 ∧ spin C S w 11 = C * w 11 - S * w 10 :=
    fun w => ⟨rfl, rfl, rfl, rfl, rfl, rfl, rfl, rfl, rfl, rfl, rfl, rfl⟩
  obtain ⟨a0, a1, a2, a3, a4, a5, a6, a7, a8, a9, a10, a11⟩ := e v
  obtain ⟨b0, b1, b2, b3, b4, b5, b6, b7, b8, b9, b10, b11⟩ := e d
  unfold beamWork
  rw [a0, a1, a2, a3, a4, a5, a6, a7, a8, a9, a10, a11, b0, b1, b2, b3, b4, b5, b6, b7, b8, b9, b10, b11]
  unfold bendWork
  ring

/-- the same with the two inertias exchanged -/
def BeamConsts.exchanged (c : BeamConsts) : BeamConsts := { c with I2 := c.I3, I3 := c.I2 }

theorem bendWork_pair (A B l C S a b a' b' p q p' q' : ℝ)
    (h : (A = B ∧ C ^ 2 + S ^ 2 = 1) ∨ (S = 0 ∧ C ^ 2 = 1)) :
    bendWork A l (C * a + S * p) (C * b + S * q) (C * a' + S * p') (C * b' + S * q') +
      bendWork B l (C * p - S * a) (C * q - S * b) (C * p' - S * a') (C * q' - S * b') =
    bendWork A l a b a' b' + bendWork B l p q p' q' := by
  rcases h with ⟨rfl, h⟩ | ⟨rfl, h⟩
  · unfold bendWork
    linear_combination (a' * (A / l * (4 * a + 2 * b)) + b' * (A / l * (2 * a + 4 * b)) + (p' * (A / l * (4 * p + 2 * q)) + q' * (A / l * (2 * p + 4 * q)))) * h
  · unfold bendWork
    linear_combination (a' * (A / l * (4 * a + 2 * b)) + b' * (A / l * (2 * a + 4 * b)) + (p' * (B / l * (4 * p + 2 * q)) + q' * (B / l * (2 * p + 4 * q)))) * h

theorem bendWork_cross (A B l C S a b a' b' p q p' q' : ℝ) (hC : C = 0) (h : S ^ 2 = 1) :
    bendWork A l (C * a + S * p) (C * b + S * q) (C * a' + S * p') (C * b' + S * q') +
      bendWork B l (C * p - S * a) (C * q - S * b) (C * p' - S * a') (C * q' - S * b') =
    bendWork B l a b a' b' + bendWork A l p q p' q' := by
  subst hC
  unfold bendWork
  linear_combination (a' * (B / l * (4 * a + 2 * b)) + b' * (B / l * (2 * a + 4 * b)) + (p' * (A / l * (4 * p + 2 * q)) + q' * (A / l * (2 * p + 4 * q)))) * h

theorem form_ext {n : ℕ} {A B : Matrix (Fin n) (Fin n) ℝ} (h : ∀ v u : Vec n, v ⬝ᵥ (A *ᵥ u) = v ⬝ᵥ (B *ᵥ u)) : A = B := by
  ext i j
  rw [entry_eq_bilin A i j, entry_eq_bilin B i j, h]

/-- the stiffness in global axes of a turned beam -/
theorem turned_same {c : Csys} (h : RightHanded c) (k : BeamConsts) {l : ℝ} (hl : l ≠ 0) (θ : ℝ) (hk : k.I2 = k.I3 ∨ Real.sin θ = 0) :
    (lineT (rotateSys c.x θ c))ᵀ * beamK k l * lineT (rotateSys c.x θ c) = (lineT c)ᵀ * beamK k l * lineT c := by
  apply form_ext
  intro v u
  rw [quadratic_transform, quadratic_transform, lineT_turn h, lineT_turn h, beamK_bilin _ hl, beamK_bilin _ hl, beamWork_spin, add_assoc,
    bendWork_pair, ← add_assoc]
  · rfl
  · rcases hk with e | e
    · exact .inl ⟨by rw [e], by rw [add_comm]; exact Real.sin_sq_add_cos_sq θ⟩
    · refine .inr ⟨e, ?_⟩
      have := Real.sin_sq_add_cos_sq θ
      rw [e] at this
      linarith

theorem turned_exchanged {c : Csys} (h : RightHanded c) (k : BeamConsts) {l : ℝ} (hl : l ≠ 0) (θ : ℝ) (hk : Real.cos θ = 0) :
    (lineT (rotateSys c.x θ c))ᵀ * beamK k l * lineT (rotateSys c.x θ c) = (lineT c)ᵀ * beamK k.exchanged l * lineT c := by
  apply form_ext
  intro v u
  rw [quadratic_transform, quadratic_transform, lineT_turn h, lineT_turn h, beamK_bilin _ hl, beamK_bilin _ hl, beamWork_spin, add_assoc,
    bendWork_cross, ← add_assoc]
  · rfl
  · exact hk
  · have := Real.sin_sq_add_cos_sq θ
    rw [hk] at this
    linarith

theorem mk?_object {name : String} {n0 n1 : Node} {p : BeamProp} {b : BeamObj} (h : BeamObj.mk? name n0 n1 p = .ok b) :
    ∃ c, lineCsys n0.loc n1.loc = .ok c ∧ b = ⟨⟨name, n0.name, n0.loc, n1.name, n1.loc, c, fun _ => false, p⟩, 0⟩ := by
  unfold BeamObj.mk? BeamElm.mk? at h
  cases e : lineCsys n0.loc n1.loc with
  | error x => rw [e] at h; cases h
  | ok c => rw [e] at h; cases h; exact ⟨c, rfl, rfl⟩

/-- a sequence of assignments to a beam with proper axes -/
theorem sets_eq (ss : List BeamSet) (b : BeamObj) (h : RightHanded b.elm.csys) : b.sets ss =
    ⟨{ b.elm with csys := rotateSys b.elm.csys.x (turned ss) b.elm.csys, releases := lastReleases b.elm.releases ss }, lastRotation b.rotation ss⟩ := by
  induction ss generalizing b with
  | nil =>
    have : rotateSys b.elm.csys.x 0 b.elm.csys = b.elm.csys := by
      rw [turn_axes h]
      simp
    simp only [BeamObj.sets, List.foldl_nil, turned, lastReleases, lastRotation, this]
  | cons s ss ih =>
    rw [show b.sets (s :: ss) = (b.set s).sets ss from rfl]
    cases s with
    | rotation θ =>
      have hx : (rotateSys b.elm.csys.x θ b.elm.csys).x = b.elm.csys.x := rotate_axis _ h.xx θ
      rw [ih _ (by show RightHanded (b.elm.csys.rotateX θ); rw [rotateX_eq h]; exact rotateSys_rightHanded h.xx θ h)]
      simp only [BeamObj.set, rotateX_eq h, turned, lastReleases, lastRotation, hx, turn_twice h]
    | releases r =>
      rw [ih (b.set (.releases r)) h]
      rfl

/-! ### C167 -/

/-- the axes of a beam object are those of the constructor, turned by the rotation that the object reports -/
def C167_claim : Prop :=
  ∀ (name : String) (n0 n1 : Node) (p : BeamProp) (b : BeamObj), BeamObj.mk? name n0 n1 p = .ok b → ∀ ss : List BeamSet,
    (b.sets ss).elm.csys = rotateSys b.elm.csys.x (b.sets ss).rotation b.elm.csys

/-- a beam along the first axis -/
noncomputable def bar : BeamObj :=
  ⟨⟨"b", "A", ⟨0, 0, 0⟩, "B", ⟨2, 0, 0⟩, ⟨⟨1, 0, 0⟩, ⟨1, 0, 0⟩, ⟨0, 0, 1⟩, ⟨0, -1, 0⟩⟩, fun _ => false, .simple 200 (3 / 10) 1 2 3 4 5⟩, 0⟩

theorem bar_made : BeamObj.mk? "b" (stdNode "A" 0 0 0) (stdNode "B" 2 0 0) (.simple 200 (3 / 10) 1 2 3 4 5) = .ok bar := by
  have e : lineCsys ⟨0, 0, 0⟩ ⟨2, 0, 0⟩ = .ok ⟨⟨1, 0, 0⟩, ⟨1, 0, 0⟩, ⟨0, 0, 1⟩, ⟨0, -1, 0⟩⟩ := by
    unfold lineCsys Csys.mk?
    norm_num [V3.cross, V3.maxAbs, absTol, V3.unit, V3.norm]
  unfold BeamObj.mk? BeamElm.mk?
  rw [show (stdNode "A" 0 0 0).loc = ⟨0, 0, 0⟩ from rfl, show (stdNode "B" 2 0 0).loc = ⟨2, 0, 0⟩ from rfl, e]
  rfl

theorem bar_axes : RightHanded bar.elm.csys := by
  constructor <;> simp [bar, V3.dot, V3.cross]

/-- C167 is false: a second assignment turns the beam on from where the first left it, while the object reports only the second. -/
theorem C167_false : ¬ C167_claim := by
  intro h
  have := h "b" _ _ _ bar bar_made [.rotation (Real.pi / 2), .rotation (Real.pi / 2)]
  rw [sets_eq _ _ bar_axes, turn_axes bar_axes, turn_axes bar_axes] at this
  have hy := congrArg (fun c : Csys => c.y.z) this
  simp [turned, lastRotation, bar] at hy

/-- What holds after any sequence of assignments: the axes are those of the constructor turned about the axis of the beam by the sum of all rotations assigned,
the rotation and the releases reported are the last ones, and nothing else has changed. -/
theorem C167_sequence_partial (name : String) (n0 n1 : Node) (p : BeamProp) (b : BeamObj) (hb : BeamObj.mk? name n0 n1 p = .ok b) (ss : List BeamSet) :
    (b.sets ss).elm.csys = rotateSys b.elm.csys.x (turned ss) b.elm.csys ∧ RightHanded (b.sets ss).elm.csys ∧ (b.sets ss).elm.csys.x = b.elm.csys.x ∧
    (b.sets ss).rotation = lastRotation 0 ss ∧ (b.sets ss).elm.releases = lastReleases (fun _ => false) ss ∧
    (b.sets ss).elm.name = name ∧ (b.sets ss).elm.startName = n0.name ∧ (b.sets ss).elm.endName = n1.name ∧
    (b.sets ss).elm.startLoc = n0.loc ∧ (b.sets ss).elm.endLoc = n1.loc ∧ (b.sets ss).elm.prop = p ∧ (b.sets ss).elm.length = b.elm.length := by
  obtain ⟨c, hc, rfl⟩ := mk?_object hb
  have h := (lineCsys_ok hc).1
  rw [sets_eq _ _ h]
  exact ⟨rfl, rotateSys_rightHanded h.xx _ h, rotate_axis _ h.xx _, rfl, rfl, rfl, rfl, rfl, rfl, rfl, rfl, rfl⟩

theorem turned_append (xs ys : List BeamSet) : turned (xs ++ ys) = turned xs + turned ys := by
  induction xs with
  | nil => simp [turned]
  | cons x xs ih => cases x <;> simp [turned, ih, add_assoc]

theorem lastRotation_append (r : ℝ) (xs ys : List BeamSet) : lastRotation r (xs ++ ys) = lastRotation (lastRotation r xs) ys := by
  induction xs generalizing r with
  | nil => rfl
  | cons x xs ih => cases x <;> exact ih _

/-- Whenever at most the last of the rotations assigned is not zero the property holds; in particular after one assignment, among any assignments of releases. -/
theorem C167_once_partial (name : String) (n0 n1 : Node) (p : BeamProp) (b : BeamObj) (hb : BeamObj.mk? name n0 n1 p = .ok b) (xs ys : List BeamSet) (θ : ℝ)
    (hx : ∀ s ∈ xs, ∀ r, s = .rotation r → r = 0) (hy : ∀ s ∈ ys, ∀ r, s ≠ .rotation r) :
    (b.sets (xs ++ .rotation θ :: ys)).elm.csys = rotateSys b.elm.csys.x θ b.elm.csys ∧ (b.sets (xs ++ .rotation θ :: ys)).rotation = θ := by
  obtain ⟨h1, _, _, h2, _⟩ := C167_sequence_partial name n0 n1 p b hb (xs ++ .rotation θ :: ys)
  have k1 : ∀ xs : List BeamSet, (∀ s ∈ xs, ∀ r, s = .rotation r → r = 0) → turned xs = 0 := by
    intro xs
    induction xs with
    | nil => intro _; rfl
    | cons x xs ih =>
      intro h
      cases x with
      | rotation r =>
        have e1 := h _ List.mem_cons_self r rfl
        have e2 := ih fun s hs => h s (List.mem_cons_of_mem _ hs)
        simp only [turned, e1, e2, add_zero]
      | releases r => exact ih fun s hs => h s (List.mem_cons_of_mem _ hs)
  have k2 : ∀ (ys : List BeamSet) (r : ℝ), (∀ s ∈ ys, ∀ r, s ≠ .rotation r) → lastRotation r ys = r := by
    intro ys
    induction ys with
    | nil => intro _ _; rfl
    | cons y ys ih =>
      intro r h
      cases y with
      | rotation t => exact absurd rfl (h _ List.mem_cons_self t)
      | releases t => exact ih r fun s hs => h s (List.mem_cons_of_mem _ hs)
  refine ⟨?_, ?_⟩
  · rw [h1, turned_append, k1 xs hx]
    show rotateSys _ (0 + (θ + turned ys)) _ = _
    rw [k1 ys (fun s hs r e => absurd e (hy s hs r)), zero_add, add_zero]
  · rw [h2, lastRotation_append]
    exact k2 ys θ hy

theorem globalK_sets {name : String} {n0 n1 : Node} {p : BeamProp} {b : BeamObj} (hb : BeamObj.mk? name n0 n1 p = .ok b) (ss : List BeamSet) :
    ∃ c : Csys, RightHanded c ∧ lineCsys n0.loc n1.loc = .ok c ∧ lineLength n0.loc n1.loc ≠ 0 ∧
      (b.sets ss).globalK = p.consts.map fun k => (lineT (rotateSys c.x (turned ss) c))ᵀ * beamK k (lineLength n0.loc n1.loc) * lineT (rotateSys c.x (turned ss) c) := by
  obtain ⟨c, hc, rfl⟩ := mk?_object hb
  have h := lineCsys_ok hc
  refine ⟨c, h.1, hc, h.2.1.ne', ?_⟩
  rw [sets_eq _ _ h.1]
  unfold BeamObj.globalK BeamElm.K
  cases p.consts <;> rfl

theorem globalK_new {name : String} {n0 n1 : Node} {p : BeamProp} {b : BeamObj} (hb : BeamObj.mk? name n0 n1 p = .ok b) :
    ∃ c : Csys, lineCsys n0.loc n1.loc = .ok c ∧
      b.globalK = p.consts.map fun k => (lineT c)ᵀ * beamK k (lineLength n0.loc n1.loc) * lineT c := by
  obtain ⟨c, hc, rfl⟩ := mk?_object hb
  refine ⟨c, hc, ?_⟩
  unfold BeamObj.globalK BeamElm.K
  cases p.consts <;> rfl

/-- A beam with equal inertias has the same stiffness however it is turned, and any beam does after half turns. -/
theorem C167_same (name : String) (n0 n1 : Node) (p : BeamProp) (b : BeamObj) (hb : BeamObj.mk? name n0 n1 p = .ok b) (ss : List BeamSet)
    (h : (constsOf p).I2 = (constsOf p).I3 ∨ ∃ k : ℤ, turned ss = k * Real.pi) : (b.sets ss).globalK = b.globalK := by
  obtain ⟨c, hr, hc, hl, e⟩ := globalK_sets hb ss
  obtain ⟨c', hc', e'⟩ := globalK_new hb
  rw [hc] at hc'
  cases hc'
  rw [e, e']
  by_cases hmu : muOf p = -1
  · cases hk : p.consts with
    | error x => simp only [Except.map]
    | ok k => exact absurd hmu (consts_ok_iff.mp ⟨k, hk⟩)
  · rw [consts_ok hmu]
    refine congrArg Except.ok (turned_same hr _ hl _ ?_)
    rcases h with h | ⟨m, hm⟩
    · exact .inl h
    · exact .inr (by rw [hm]; exact Real.sin_int_mul_pi m)

/-- A quarter turn is the same as exchanging the two inertias. -/
theorem C167_quarter (name name' : String) (n0 n1 : Node) (p p' : BeamProp) (b b' : BeamObj) (hb : BeamObj.mk? name n0 n1 p = .ok b)
    (hb' : BeamObj.mk? name' n0 n1 p' = .ok b') (hmu : muOf p ≠ -1) (hmu' : muOf p' ≠ -1) (hp : constsOf p' = (constsOf p).exchanged) (ss : List BeamSet)
    (k : ℤ) (h : turned ss = Real.pi / 2 + k * Real.pi) : (b.sets ss).globalK = b'.globalK := by
  obtain ⟨c, hr, hc, hl, e⟩ := globalK_sets hb ss
  obtain ⟨c', hc', e'⟩ := globalK_new hb'
  rw [hc] at hc'
  cases hc'
  rw [e, e', consts_ok hmu, consts_ok hmu', hp]
  refine congrArg Except.ok (turned_exchanged hr _ hl _ ?_)
  rw [h, Real.cos_add_int_mul_pi, Real.cos_pi_div_two, mul_zero]

/-- a bar with different inertias: half a turn, a quarter turn and the bar with the inertias exchanged -/
example : (bar.sets [.rotation Real.pi]).globalK = bar.globalK ∧
    ∀ b', BeamObj.mk? "c" (stdNode "A" 0 0 0) (stdNode "B" 2 0 0) (.simple 200 (3 / 10) 1 3 2 4 5) = .ok b' →
      (bar.sets [.releases fun _ => true, .rotation (Real.pi / 2)]).globalK = b'.globalK := by
  refine ⟨C167_same _ _ _ _ _ bar_made _ (.inr ⟨1, by simp [turned]⟩), fun b' hb' => ?_⟩
  exact C167_quarter _ _ _ _ _ _ _ _ bar_made hb' (by norm_num [muOf]) (by norm_num [muOf]) rfl _ 0 (by simp [turned])

/-- Nodes: each rotation turns the coordinate system about the axis it names; rotations and changes of the mass leave the location; the transformation stays orthogonal, with the same rotation for
displacements and turns; the mass matrix is that of the mass assigned last; after `initialize_csys` the transformation is the identity. -/
theorem C167_node (name : String) (x y z : ℝ) (n : Node) (hn : Node.mk? name x y z = .ok n) (ss : List NodeSet) :
    (n.sets ss).name = name ∧ (n.sets ss).loc = ⟨x, y, z⟩ ∧ RightHanded (n.sets ss).csys ∧ (n.sets ss).T * (n.sets ss).Tᵀ = 1 ∧
    ((∀ s ∈ ss, ∀ m, s ≠ .mass m) → (n.sets ss).M = 0) ∧ (∀ m, (n.sets (ss ++ [.mass m])).M = Matrix.diagonal m) ∧
    (n.sets (ss ++ [.align])).T = 1 ∧ ∀ θ, (n.sets (ss ++ [.rotate1 θ])).csys = rotateSys (n.sets ss).csys.x θ (n.sets ss).csys ∧
      (n.sets (ss ++ [.rotate2 θ])).csys = rotateSys (n.sets ss).csys.y θ (n.sets ss).csys ∧
      (n.sets (ss ++ [.rotate3 θ])).csys = rotateSys (n.sets ss).csys.z θ (n.sets ss).csys := by
  rw [Node.mk?_eq] at hn
  cases hn
  have key : ∀ (ss : List NodeSet) (n : Node), RightHanded n.csys → (n.sets ss).name = n.name ∧ (n.sets ss).loc = n.loc ∧ RightHanded (n.sets ss).csys ∧
      ((∀ s ∈ ss, ∀ m, s ≠ .mass m) → (n.sets ss).mass = n.mass) := by
    intro ss
    induction ss with
    | nil => exact fun n h => ⟨rfl, rfl, h, fun _ => rfl⟩
    | cons s ss ih =>
      intro n h
      have step : (n.set s).name = n.name ∧ (n.set s).loc = n.loc ∧ RightHanded (n.set s).csys ∧ ((∀ m, s ≠ .mass m) → (n.set s).mass = n.mass) := by
        cases s with
        | rotate1 θ =>
          have := C39_rotation_formula n.csys h (.ownX θ) trivial
          refine ⟨rfl, rfl, ?_, fun _ => rfl⟩
          show RightHanded (Rot.call n.csys (.ownX θ))
          rw [this.2]
          exact rotateSys_rightHanded this.1 _ h
        | rotate2 θ =>
          have := C39_rotation_formula n.csys h (.ownY θ) trivial
          refine ⟨rfl, rfl, ?_, fun _ => rfl⟩
          show RightHanded (Rot.call n.csys (.ownY θ))
          rw [this.2]
          exact rotateSys_rightHanded this.1 _ h
        | rotate3 θ =>
          have := C39_rotation_formula n.csys h (.ownZ θ) trivial
          refine ⟨rfl, rfl, ?_, fun _ => rfl⟩
          show RightHanded (Rot.call n.csys (.ownZ θ))
          rw [this.2]
          exact rotateSys_rightHanded this.1 _ h
        | align => exact ⟨rfl, rfl, (C39_align [] (by simp) n.csys h).2.2.2.2, fun _ => rfl⟩
        | mass m => exact ⟨rfl, rfl, h, fun hm => absurd rfl (hm m)⟩
      obtain ⟨i1, i2, i3, i4⟩ := ih (n.set s) step.2.2.1
      refine ⟨i1.trans step.1, i2.trans step.2.1, i3, fun hm => ?_⟩
      exact (i4 fun t ht => hm t (List.mem_cons_of_mem _ ht)).trans (step.2.2.2 (hm s List.mem_cons_self))
  have hs : RightHanded (stdNode name x y z).csys := by constructor <;> simp [stdNode, V3.dot, V3.cross]
  obtain ⟨k1, k2, k3, k4⟩ := key ss _ hs
  refine ⟨k1, k2, k3, ?_, fun hm => ?_, fun m => ?_, ?_, fun θ => ?_⟩
  · unfold Node.T
    have h := blockDiag_mul 2 ((stdNode name x y z).sets ss).csys.T ((stdNode name x y z).sets ss).csys.Tᵀ
    rw [csysT_orth k3, blockDiag_one, ← blockDiag_transpose] at h
    exact h
  · unfold Node.M
    rw [k4 hm]
    exact Matrix.diagonal_zero
  · unfold Node.sets
    rw [List.foldl_append]
    rfl
  · unfold Node.sets
    rw [List.foldl_append]
    show blockDiag 2 (Csys.T ⟨_, ⟨1, 0, 0⟩, ⟨0, 1, 0⟩, ⟨0, 0, 1⟩⟩) = 1
    rw [show Csys.T ⟨_, ⟨1, 0, 0⟩, ⟨0, 1, 0⟩, ⟨0, 0, 1⟩⟩ = 1 from by ext i j; fin_cases i <;> fin_cases j <;> simp [Csys.T]]
    exact blockDiag_one 2
  · have e : ∀ s, (stdNode name x y z).sets (ss ++ [s]) = ((stdNode name x y z).sets ss).set s := by
      intro s
      unfold Node.sets
      rw [List.foldl_append]
      rfl
    rw [e, e, e]
    exact ⟨(C39_rotation_formula _ k3 (.ownX θ) trivial).2, (C39_rotation_formula _ k3 (.ownY θ) trivial).2, (C39_rotation_formula _ k3 (.ownZ θ) trivial).2⟩

/-- a node turned about two of its axes -/
example : ((stdNode "A" 1 2 3).sets [.rotate1 (Real.pi / 2), .mass (fun _ => 7), .rotate3 1]).loc = ⟨1, 2, 3⟩ :=
  (C167_node "A" 1 2 3 _ (Node.mk?_eq _ _ _ _) _).2.1

end Hyperstatic
