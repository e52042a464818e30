import Verif.Lemmas.FrameLaws

namespace Hyperstatic
open Matrix Spec

theorem Signs.sq {m : V3} (h : Signs m) : m.x * m.x = 1 ∧ m.y * m.y = 1 ∧ m.z * m.z = 1 := by
  obtain ⟨h1, h2, h3⟩ := h
  refine ⟨?_, ?_, ?_⟩
  · rcases h1 with h | h <;> rw [h] <;> norm_num
  · rcases h2 with h | h <;> rw [h] <;> norm_num
  · rcases h3 with h | h <;> rw [h] <;> norm_num

theorem flip_dot {m : V3} (h : Signs m) (a b : V3) : (reflect m a).dot (reflect m b) = a.dot b := by
  obtain ⟨h1, h2, h3⟩ := Signs.sq h
  simp only [reflect, V3.dot]
  linear_combination a.x * b.x * h1 + a.y * b.y * h2 + a.z * b.z * h3

theorem flip_sub (m a b : V3) : reflect m a - reflect m b = reflect m (a - b) := by
  ext <;> simp [reflect] <;> ring

theorem flip_norm {m : V3} (h : Signs m) (a : V3) : (reflect m a).norm = a.norm := by
  have := flip_dot h a a
  unfold V3.norm
  simp only [V3.dot] at this
  rw [this]

theorem flip_unit {m : V3} (h : Signs m) (a : V3) : (reflect m a).unit = reflect m a.unit := by
  unfold V3.unit
  rw [flip_norm h]
  ext <;> simp only [reflect] <;> ring

theorem flip_cross {m : V3} (h : Signs m) (a b : V3) : (reflect m a).cross (reflect m b) = flipAxial m (a.cross b) := by
  obtain ⟨h1, h2, h3⟩ := Signs.sq h
  ext
  · simp only [reflect, flipAxial, V3.cross, V3.smul_def]; linear_combination (-m.y * m.z * (a.y * b.z - a.z * b.y)) * h1
  · simp only [reflect, flipAxial, V3.cross, V3.smul_def]; linear_combination (-m.x * m.z * (a.z * b.x - a.x * b.z)) * h2
  · simp only [reflect, flipAxial, V3.cross, V3.smul_def]; linear_combination (-m.x * m.y * (a.x * b.y - a.y * b.x)) * h3

theorem smul_sign_unit {s : ℝ} (h : s = 1 ∨ s = -1) (a : V3) : (s • a).unit = s • a.unit := by
  rcases h with rfl | rfl
  · have : ∀ b : V3, (1:ℝ) • b = b := by intro b; ext <;> simp
    rw [this, this]
  · have : ∀ b : V3, (-1:ℝ) • b = -b := by intro b; ext <;> simp
    rw [this, this, V3.unit_neg]

theorem sign_mul {a b : ℝ} (ha : a = 1 ∨ a = -1) (hb : b = 1 ∨ b = -1) : a * b = 1 ∨ a * b = -1 := by
  rcases ha with rfl | rfl <;> rcases hb with rfl | rfl <;> norm_num

theorem sign_abs {s : ℝ} (h : s = 1 ∨ s = -1) (a : ℝ) : |s * a| = |a| := by
  rcases h with rfl | rfl <;> simp

theorem flip_upright {m : V3} (h : Signs m) (p q : V3) : Upright (reflect m p) (reflect m q) ↔ Upright p q := by
  unfold Upright reflect
  simp only
  rw [← mul_sub, ← mul_sub, sign_abs h.1, sign_abs h.2.1]

/-- sign of axis 2 and of axis 3 of a reflected beam, against the reflected axes -/
noncomputable def sign2 (m : V3) (p q : V3) : ℝ := open Classical in if Upright p q then m.x else m.z
noncomputable def sign3 (m : V3) (p q : V3) : ℝ := open Classical in if Upright p q then m.y * m.z else m.x * m.y

theorem beamFrame_flip {m : V3} (h : Signs m) (p q : V3) :
    (beamFrame (reflect m p) (reflect m q)).x = reflect m (beamFrame p q).x ∧
    (beamFrame (reflect m p) (reflect m q)).y = sign2 m p q • reflect m (beamFrame p q).y ∧
    (beamFrame (reflect m p) (reflect m q)).z = sign3 m p q • reflect m (beamFrame p q).z := by
  obtain ⟨q1, q2, q3⟩ := Signs.sq h
  have hx : (beamFrame (reflect m p) (reflect m q)).x = reflect m (beamFrame p q).x := by
    show (reflect m q - reflect m p).unit = reflect m (q - p).unit
    rw [flip_sub, flip_unit h]
  have hu := flip_upright h p q
  have hz : (beamFrame (reflect m p) (reflect m q)).z = sign3 m p q • reflect m (beamFrame p q).z := by
    by_cases hp : Upright p q
    · have hp' := hu.mpr hp
      unfold sign3
      rw [if_pos hp]
      unfold Upright at hp hp'
      unfold beamFrame
      simp only
      rw [if_pos hp, if_pos hp', flip_sub, flip_unit h]
      have e : (reflect m (q - p).unit).cross ⟨1, 0, 0⟩ = (m.y * m.z) • reflect m ((q - p).unit.cross ⟨1, 0, 0⟩) := by
        ext
        · simp [reflect, V3.cross]
        · simp [reflect, V3.cross]
          linear_combination -(m.z * (q - p).unit.z) * q2
        · simp [reflect, V3.cross]
          linear_combination -(m.y * (q - p).unit.y) * q3
      rw [e, smul_sign_unit (sign_mul h.2.1 h.2.2), flip_unit h]
    · have hp' : ¬ Upright (reflect m p) (reflect m q) := fun h' => hp (hu.mp h')
      unfold sign3
      rw [if_neg hp]
      unfold Upright at hp hp'
      unfold beamFrame
      simp only
      rw [if_neg hp, if_neg hp', flip_sub, flip_unit h]
      have e : (reflect m (q - p).unit).cross ⟨0, 0, 1⟩ = (m.x * m.y) • reflect m ((q - p).unit.cross ⟨0, 0, 1⟩) := by
        ext
        · simp [reflect, V3.cross]
          linear_combination -(m.y * (q - p).unit.y) * q1
        · simp [reflect, V3.cross]
          linear_combination -(m.x * (q - p).unit.x) * q2
        · simp [reflect, V3.cross]
      rw [e, smul_sign_unit (sign_mul h.1 h.2.1), flip_unit h]
  refine ⟨hx, ?_, hz⟩
  show (beamFrame (reflect m p) (reflect m q)).z.cross (beamFrame (reflect m p) (reflect m q)).x = sign2 m p q • reflect m ((beamFrame p q).z.cross (beamFrame p q).x)
  rw [hx, hz]
  have e1 : ∀ (s : ℝ) (a b : V3), (s • a).cross b = s • a.cross b := by
    intro s a b; ext <;> simp [V3.cross] <;> ring
  rw [e1, flip_cross h]
  have e2 : sign3 m p q * (m.x * m.y * m.z) = sign2 m p q := by
    unfold sign2 sign3
    by_cases hp : Upright p q
    · rw [if_pos hp, if_pos hp]; linear_combination m.x * q2 * (m.z * m.z) + m.x * q3
    · rw [if_neg hp, if_neg hp]; linear_combination m.z * q1 * (m.y * m.y) + m.z * q2
  rw [← e2]
  generalize sign3 m p q = s
  unfold flipAxial
  ext <;> simp <;> ring

/-- end components of a reflected beam -/
def flipEnds (s2 s3 s : ℝ) (d : Vec 12) : Vec 12 :=
  ![d 0, s2 * d 1, s3 * d 2, s * d 3, s3 * d 4, s2 * d 5, d 6, s2 * d 7, s3 * d 8, s * d 9, s3 * d 10, s2 * d 11]

theorem flipEnds_apply (s2 s3 s : ℝ) (d : Vec 12) : flipEnds s2 s3 s d 0 = d 0 ∧ flipEnds s2 s3 s d 1 = s2 * d 1 ∧
    flipEnds s2 s3 s d 2 = s3 * d 2 ∧ flipEnds s2 s3 s d 3 = s * d 3 ∧ flipEnds s2 s3 s d 4 = s3 * d 4 ∧ flipEnds s2 s3 s d 5 = s2 * d 5 ∧
    flipEnds s2 s3 s d 6 = d 6 ∧ flipEnds s2 s3 s d 7 = s2 * d 7 ∧
    flipEnds s2 s3 s d 8 = s3 * d 8 ∧ flipEnds s2 s3 s d 9 = s * d 9 ∧ flipEnds s2 s3 s d 10 = s3 * d 10 ∧ flipEnds s2 s3 s d 11 = s2 * d 11 :=
  ⟨rfl, rfl, rfl, rfl, rfl, rfl, rfl, rfl, rfl, rfl, rfl, rfl⟩

theorem signs_prod {m : V3} (h : Signs m) (p q : V3) : sign2 m p q * sign2 m p q = 1 ∧ sign3 m p q * sign3 m p q = 1 ∧
    (m.x * m.y * m.z) * (m.x * m.y * m.z) = 1 ∧ sign2 m p q * (m.x * m.y * m.z) = sign3 m p q ∧ sign3 m p q * (m.x * m.y * m.z) = sign2 m p q := by
  obtain ⟨q1, q2, q3⟩ := Signs.sq h
  unfold sign2 sign3
  by_cases hp : Upright p q
  · simp only [if_pos hp]
    refine ⟨q1, ?_, ?_, ?_, ?_⟩
    · linear_combination q2 * (m.z * m.z) + q3
    · linear_combination q1 * (m.y * m.y) * (m.z * m.z) + q2 * (m.z * m.z) + q3
    · linear_combination m.y * m.z * q1
    · linear_combination m.x * q2 * (m.z * m.z) + m.x * q3
  · simp only [if_neg hp]
    refine ⟨q3, ?_, ?_, ?_, ?_⟩
    · linear_combination q1 * (m.y * m.y) + q2
    · linear_combination q1 * (m.y * m.y) * (m.z * m.z) + q2 * (m.z * m.z) + q3
    · linear_combination m.x * m.y * q3
    · linear_combination m.z * q1 * (m.y * m.y) + m.z * q2

theorem ends_flip {m : V3} (h : Signs m) (g : GivenBeam) (v : State) :
    (flipBeam m g).ends (fun n => flipSix m (v n)) = flipEnds (sign2 m g.p g.q) (sign3 m g.p g.q) (m.x * m.y * m.z) (g.ends v) := by
  obtain ⟨hx, hy, hz⟩ := beamFrame_flip h g.p g.q
  obtain ⟨_, _, _, s4, s5⟩ := signs_prod h g.p g.q
  have t : ∀ w, Spec.trans (flipSix m w) = reflect m (Spec.trans w) := fun _ => rfl
  have r : ∀ w, Spec.rot (flipSix m w) = (m.x * m.y * m.z) • reflect m (Spec.rot w) := fun _ => rfl
  have d1 : ∀ (s : ℝ) (a b : V3), (s • a).dot b = s * a.dot b := by intro s a b; simp [V3.dot]; ring
  have d2 : ∀ (s : ℝ) (a b : V3), a.dot (s • b) = s * a.dot b := by intro s a b; simp [V3.dot]; ring
  have m1 : ∀ a : ℝ, (m.x * m.y * m.z) * (sign2 m g.p g.q * a) = sign3 m g.p g.q * a := by intro a; rw [← s4]; ring
  have m2 : ∀ a : ℝ, (m.x * m.y * m.z) * (sign3 m g.p g.q * a) = sign2 m g.p g.q * a := by intro a; rw [← s5]; ring
  show localEnds (beamFrame (reflect m g.p) (reflect m g.q)) (flipSix m (v g.start)) (flipSix m (v g.stop)) = _
  unfold GivenBeam.ends
  generalize v g.start = a
  generalize v g.stop = b
  have key : ∀ f e : Csys, f.x = reflect m e.x → f.y = sign2 m g.p g.q • reflect m e.y → f.z = sign3 m g.p g.q • reflect m e.z →
      localEnds f (flipSix m a) (flipSix m b) = flipEnds (sign2 m g.p g.q) (sign3 m g.p g.q) (m.x * m.y * m.z) (localEnds e a b) := by
    intro f e h1 h2 h3
    unfold localEnds flipEnds
    simp only [h1, h2, h3, t, r, d2, d1, flip_dot h, m1, m2, cons_val_zero, cons_val_one, cons_val]
  exact key _ _ hx hy hz

theorem len_flip {m : V3} (h : Signs m) (g : GivenBeam) : (flipBeam m g).len = g.len := by
  unfold GivenBeam.len flipBeam
  simp only
  rw [flip_sub, flip_norm h]

theorem internal_flip {m : V3} (h : Signs m) {g : GivenBeam} {cs cs' : Csys} (hc : lineCsys g.p g.q = .ok cs)
    (hc' : lineCsys (flipBeam m g).p (flipBeam m g).q = .ok cs') (v x : State) :
    (flipBeam m g).internal (fun n => flipSix m (v n)) (fun n => flipSix m (x n)) = g.internal v x := by
  obtain ⟨s1, s2, s3, _, _⟩ := signs_prod h g.p g.q
  rw [internal_eq hc, internal_eq hc', ends_flip h, ends_flip h, len_flip h]
  have e : (flipBeam m g).sec = g.sec := rfl
  rw [e]
  generalize g.ends v = a
  generalize g.ends x = b
  generalize sign2 m g.p g.q = t2 at *
  generalize sign3 m g.p g.q = t3 at *
  generalize m.x * m.y * m.z = t at *
  obtain ⟨a0, a1, a2, a3, a4, a5, a6, a7, a8, a9, a10, a11⟩ := flipEnds_apply t2 t3 t a
  obtain ⟨b0, b1, b2, b3, b4, b5, b6, b7, b8, b9, b10, b11⟩ := flipEnds_apply t2 t3 t b
  unfold beamWork
  rw [a0, a1, a2, a3, a4, a5, a6, a7, a8, a9, a10, a11, b0, b1, b2, b3, b4, b5, b6, b7, b8, b9, b10, b11]
  have bw : ∀ (s EI l α β α' β' : ℝ), s * s = 1 → bendWork EI l (s * α) (s * β) (s * α') (s * β') = bendWork EI l α β α' β' := by
    intro s EI l α β α' β' hs
    unfold bendWork
    linear_combination (α' * (EI / l * (4 * α + 2 * β)) + β' * (EI / l * (2 * α + 4 * β))) * hs
  have f1 : ∀ s θ w z l : ℝ, s * θ - (s * w - s * z) / l = s * (θ - (w - z) / l) := by intros; ring
  have f2 : ∀ s θ w z l : ℝ, -(s * θ) - (s * w - s * z) / l = s * (-θ - (w - z) / l) := by intros; ring
  simp only [f1, f2, bw t2 _ _ _ _ _ _ s1, bw t3 _ _ _ _ _ _ s2]
  linear_combination ((a 9 - a 3) * ((gconsts g.sec).G * (gconsts g.sec).J / g.len * (b 9 - b 3))) * s3

theorem fields_flip {m : V3} (h : Signs m) (g : GivenBeam) (v : State) :
    (flipBeam m g).axial (fun n => flipSix m (v n)) = g.axial v ∧
    (∀ x, (flipBeam m g).twist (fun n => flipSix m (v n)) x = m.x * m.y * m.z * g.twist v x) ∧
    (∀ x, (flipBeam m g).defl2 (fun n => flipSix m (v n)) x = sign2 m g.p g.q * g.defl2 v x) ∧
    ∀ x, (flipBeam m g).defl3 (fun n => flipSix m (v n)) x = sign3 m g.p g.q * g.defl3 v x := by
  unfold GivenBeam.axial GivenBeam.twist GivenBeam.defl2 GivenBeam.defl3
  rw [ends_flip h, len_flip h]
  obtain ⟨a0, a1, a2, a3, a4, a5, a6, a7, a8, a9, a10, a11⟩ := flipEnds_apply (sign2 m g.p g.q) (sign3 m g.p g.q) (m.x * m.y * m.z) (g.ends v)
  rw [a0, a1, a2, a3, a4, a5, a6, a7, a8, a9, a10, a11]
  refine ⟨rfl, fun x => ?_, fun x => ?_, fun x => ?_⟩
  · unfold lineField; ring
  · unfold cubicField; ring
  · unfold cubicField; ring

end Hyperstatic
