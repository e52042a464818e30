import Verif.Model.ShellK
import Mathlib.LinearAlgebra.Matrix.DotProduct

/-
The work done by a shell element in terms of strains: `v ⬝ K u = Σ w (B v) ⬝ D (B u)`.
-/

namespace Hyperstatic
open Matrix

/-- a slot map and the positions it comes from -/
structure SlotOf {m : ℕ} (slot : Fin 6 → Option (Fin m)) (idx : Fin m → Fin 6) : Prop where
  pos : ∀ r c, slot r = some c → r = idx c
  sum : ∀ h : Fin m → ℝ, ∑ r, (slot r).elim 0 h = ∑ c, h c

/-- positions of the plate components -/
def plateIdx : Fin 3 → Fin 6 := ![2, 3, 4]
/-- positions of the membrane components of a quadrilateral -/
def quadIdx : Fin 3 → Fin 6 := ![0, 1, 5]
/-- positions of the membrane components of a triangle -/
def triaIdx : Fin 2 → Fin 6 := ![0, 1]

theorem plateSlot_of : SlotOf plateSlot plateIdx where
  pos := by decide
  sum := by intro h; simp [Fin.sum_univ_succ, plateSlot]
theorem quadSlot_of : SlotOf quadSlot quadIdx where
  pos := by decide
  sum := by intro h; simp [Fin.sum_univ_succ, quadSlot]
theorem triaSlot_of : SlotOf triaSlot triaIdx where
  pos := by decide
  sum := by intro h; simp [Fin.sum_univ_succ, triaSlot]

/-- pick components out of nodal displacements -/
def pick {n m : ℕ} (idx : Fin m → Fin 6) (x : Fin n × Fin 6 → ℝ) : Fin n × Fin m → ℝ := fun k => x (k.1, idx k.2)

theorem SlotOf.sum_pair {n m : ℕ} {slot : Fin 6 → Option (Fin m)} {idx : Fin m → Fin 6} (h : SlotOf slot idx)
    (f : Fin n × Fin 6 → ℝ) (hf : ∀ i r, slot r = none → f (i, r) = 0) :
    ∑ p, f p = ∑ k : Fin n × Fin m, f (k.1, idx k.2) := by
  rw [Fintype.sum_prod_type, Fintype.sum_prod_type]
  apply Finset.sum_congr rfl
  intro i _
  rw [← h.sum fun c => f (i, idx c)]
  apply Finset.sum_congr rfl
  intro r _
  cases hr : slot r with
  | none => simpa using hf i r hr
  | some c => simp [← h.pos r c hr]

theorem SlotOf.at {m : ℕ} {slot : Fin 6 → Option (Fin m)} {idx : Fin m → Fin 6} (h : SlotOf slot idx) (c : Fin m) :
    slot (idx c) = some c := by
  classical
  have h1 := h.sum fun d => if d = c then 1 else 0
  rw [Finset.sum_ite_eq' Finset.univ c] at h1
  simp only [Finset.mem_univ, if_true] at h1
  have h2 : ∃ r, slot r = some c := by
    by_contra hne
    push Not at hne
    rw [Finset.sum_eq_zero] at h1
    · exact zero_ne_one h1
    · intro r _
      cases hr : slot r with
      | none => rfl
      | some d =>
        have : d ≠ c := by rintro rfl; exact hne r hr
        simp [this]
  obtain ⟨r, hr⟩ := h2
  rw [← h.pos r c hr, hr]

theorem spread_work {n m : ℕ} {slot : Fin 6 → Option (Fin m)} {idx : Fin m → Fin 6} (h : SlotOf slot idx)
    (K : Matrix (Fin n × Fin m) (Fin n × Fin m) ℝ) (x y : Fin n × Fin 6 → ℝ) :
    x ⬝ᵥ (spread slot K *ᵥ y) = pick idx x ⬝ᵥ (K *ᵥ pick idx y) := by
  unfold dotProduct
  rw [h.sum_pair]
  · apply Finset.sum_congr rfl
    intro k _
    unfold pick mulVec dotProduct
    congr 1
    rw [h.sum_pair]
    · apply Finset.sum_congr rfl
      intro l _
      simp [spread, h.at]
    · intro i r hr
      simp [spread, h.at, hr]
  · intro i r hr
    have : (spread slot K *ᵥ y) (i, r) = 0 := by
      unfold mulVec dotProduct
      apply Finset.sum_eq_zero
      intro q _
      simp [spread, hr]
    rw [this, mul_zero]

theorem congr_work {ι κ : Type} [Fintype ι] [Fintype κ] (T : Matrix κ ι ℝ) (K : Matrix κ κ ℝ) (x y : ι → ℝ) :
    x ⬝ᵥ ((Tᵀ * K * T) *ᵥ y) = (T *ᵥ x) ⬝ᵥ (K *ᵥ (T *ᵥ y)) := by
  rw [Matrix.mul_assoc, ← Matrix.mulVec_mulVec, ← Matrix.mulVec_mulVec, Matrix.dotProduct_mulVec, Matrix.vecMul_transpose]

theorem integrate_work {ι κ : Type} [Fintype ι] [Fintype κ] (s : Scheme) (f : ℝ → ℝ → Matrix ι κ ℝ) (x : ι → ℝ) (y : κ → ℝ) :
    x ⬝ᵥ (s.integrate f *ᵥ y) = (s.map fun p => p.1 * (x ⬝ᵥ (f p.2.1 p.2.2 *ᵥ y))).sum := by
  unfold Scheme.integrate
  induction s with
  | nil => simp
  | cons a t ih => simp [Matrix.add_mulVec, dotProduct_add, Matrix.smul_mulVec, ih]

/-- work per unit of the strains at a point -/
theorem gq_work (E mu t : ℝ) (x y : Fin 4 → ℝ) (ξ η : ℝ) (a b : Fin 4 × Fin 3 → ℝ) :
    a ⬝ᵥ (GQ12.BDB E mu t x y ξ η *ᵥ b) =
      t * (GQ12.J x y ξ η).det * ((GQ12.B x y ξ η *ᵥ a) ⬝ᵥ (membraneD E mu *ᵥ (GQ12.B x y ξ η *ᵥ b))) := by
  unfold GQ12.BDB
  rw [Matrix.smul_mulVec, dotProduct_smul, congr_work, smul_eq_mul]

theorem dkq_work (E mu t : ℝ) (x y : Fin 4 → ℝ) (ξ η : ℝ) (a b : Fin 4 × Fin 3 → ℝ) :
    a ⬝ᵥ (DKQ.BDB E mu t x y ξ η *ᵥ b) =
      DKQ.det x y ξ η * ((DKQ.B x y ξ η *ᵥ a) ⬝ᵥ (bendingD E mu t *ᵥ (DKQ.B x y ξ η *ᵥ b))) := by
  unfold DKQ.BDB
  rw [Matrix.smul_mulVec, dotProduct_smul, congr_work, smul_eq_mul]

theorem dkt_work (E mu t : ℝ) (x y : Fin 3 → ℝ) (ξ η : ℝ) (a b : Fin 3 × Fin 3 → ℝ) :
    a ⬝ᵥ (DKT.BDB E mu t x y ξ η *ᵥ b) = (DKT.B x y ξ η *ᵥ a) ⬝ᵥ (bendingD E mu t *ᵥ (DKT.B x y ξ η *ᵥ b)) := by
  unfold DKT.BDB
  rw [congr_work]

theorem t9_work (E mu : ℝ) (x y : Fin 3 → ℝ) (a b : Fin 3 × Fin 2 → ℝ) :
    a ⬝ᵥ (T9.BDB E mu x y *ᵥ b) = (T9.B x y 0 0 *ᵥ a) ⬝ᵥ (membraneD E mu *ᵥ (T9.B x y 0 0 *ᵥ b)) := by
  unfold T9.BDB
  rw [congr_work]

/-- the section has a membrane part -/
abbrev hasMembrane (s : ShellSection) : Prop := s.eleType = "membrane" ∨ s.eleType = "shell"
/-- the section has a plate part -/
abbrev hasPlate (s : ShellSection) : Prop := s.eleType = "plate" ∨ s.eleType = "shell"

/-- displacements of the nodes in the axes of the element -/
noncomputable def localOf {n : ℕ} (c : Csys) (u : Fin n × Fin 6 → ℝ) : Fin n × Fin 6 → ℝ := shellT n c *ᵥ u

theorem quad_work (q : Schemes) (s : ShellSection) (c : Csys) (p : Fin 4 → V3) (v u : Fin 4 × Fin 6 → ℝ) :
    v ⬝ᵥ (quadStiffness q s c p *ᵥ u) =
      (if hasMembrane s then (q.quad.map fun w => w.1 * (s.t * (GQ12.J (planeX c p) (planeY c p) w.2.1 w.2.2).det *
        ((GQ12.B (planeX c p) (planeY c p) w.2.1 w.2.2 *ᵥ pick quadIdx (localOf c v)) ⬝ᵥ
          (membraneD s.material.E s.material.mu *ᵥ
            (GQ12.B (planeX c p) (planeY c p) w.2.1 w.2.2 *ᵥ pick quadIdx (localOf c u)))))).sum else 0) +
      (if hasPlate s then (q.quad.map fun w => w.1 * (DKQ.det (planeX c p) (planeY c p) w.2.1 w.2.2 *
        ((DKQ.B (planeX c p) (planeY c p) w.2.1 w.2.2 *ᵥ pick plateIdx (localOf c v)) ⬝ᵥ
          (bendingD s.material.E s.material.mu s.t *ᵥ
            (DKQ.B (planeX c p) (planeY c p) w.2.1 w.2.2 *ᵥ pick plateIdx (localOf c u)))))).sum else 0) := by
  unfold quadStiffness dkgqK
  rw [congr_work]
  simp only [Matrix.add_mulVec, dotProduct_add, spread_work quadSlot_of, spread_work plateSlot_of]
  congr 1
  · split_ifs
    · rw [integrate_work]
      simp only [gq_work]
      rfl
    · simp
  · split_ifs
    · rw [integrate_work]
      simp only [dkq_work]
      rfl
    · simp

theorem tria_work (q : Schemes) (s : ShellSection) (c : Csys) (p : Fin 3 → V3) (v u : Fin 3 × Fin 6 → ℝ) (x y : Fin 3 → ℝ)
    (hx : x = fun i => c.x.dot (p i)) (hy : y = fun i => c.y.dot (p i)) :
    v ⬝ᵥ (triaStiffness q s c p *ᵥ u) =
      2 * s.t * triaArea (p 0) (p 1) (p 2) *
        ((T9.B x y 0 0 *ᵥ pick triaIdx (localOf c v)) ⬝ᵥ
          (membraneD s.material.E s.material.mu *ᵥ (T9.B x y 0 0 *ᵥ pick triaIdx (localOf c u)))) +
      2 * triaArea (p 0) (p 1) (p 2) * (q.tria.map fun w => w.1 *
        ((DKT.B x y w.2.1 w.2.2 *ᵥ pick plateIdx (localOf c v)) ⬝ᵥ
          (bendingD s.material.E s.material.mu s.t *ᵥ (DKT.B x y w.2.1 w.2.2 *ᵥ pick plateIdx (localOf c u))))).sum := by
  unfold triaStiffness dktK
  rw [congr_work]
  simp only [Matrix.add_mulVec, dotProduct_add, spread_work triaSlot_of, spread_work plateSlot_of, Matrix.smul_mulVec, dotProduct_smul,
    smul_eq_mul, integrate_work, dkt_work, t9_work, ← hx, ← hy]
  rfl

theorem isoD_symm (mu : ℝ) (a b : Vec 3) : a ⬝ᵥ (isoD mu *ᵥ b) = b ⬝ᵥ (isoD mu *ᵥ a) := by
  simp only [isoD, dotProduct, mulVec, Fin.sum_univ_three]
  simp
  ring

theorem isoD_work (mu : ℝ) (a b : Vec 3) :
    a ⬝ᵥ (isoD mu *ᵥ b) = a 0 * b 0 + mu * (a 0 * b 1 + a 1 * b 0) + a 1 * b 1 + (1 - mu) / 2 * (a 2 * b 2) := by
  simp only [isoD, dotProduct, mulVec, Fin.sum_univ_three]
  simp
  ring

theorem membraneD_work (E mu : ℝ) (a b : Vec 3) : a ⬝ᵥ (membraneD E mu *ᵥ b) = E / (1 - mu ^ 2) * (a ⬝ᵥ (isoD mu *ᵥ b)) := by
  rw [membraneD, Matrix.smul_mulVec, dotProduct_smul, smul_eq_mul]

theorem bendingD_work (E mu t : ℝ) (a b : Vec 3) :
    a ⬝ᵥ (bendingD E mu t *ᵥ b) = E * t ^ 3 / 12 / (1 - mu ^ 2) * (a ⬝ᵥ (isoD mu *ᵥ b)) := by
  rw [bendingD, Matrix.smul_mulVec, dotProduct_smul, smul_eq_mul]

theorem isoD_nonneg {mu : ℝ} (h1 : -1 < mu) (h2 : mu < 1) (a : Vec 3) : 0 ≤ a ⬝ᵥ (isoD mu *ᵥ a) := by
  rw [isoD_work]
  nlinarith [sq_nonneg (a 0 + a 1), sq_nonneg (a 0 - a 1), sq_nonneg (a 2),
    mul_nonneg (by linarith : (0:ℝ) ≤ 1 + mu) (sq_nonneg (a 0 + a 1)), mul_nonneg (by linarith : (0:ℝ) ≤ 1 - mu) (sq_nonneg (a 0 - a 1)),
    mul_nonneg (by linarith : (0:ℝ) ≤ 1 - mu) (sq_nonneg (a 2))]

/-- a matrix is determined by the work it does -/
theorem matrix_ext_work {ι : Type} [Fintype ι] [DecidableEq ι] {K L : Matrix ι ι ℝ} (h : ∀ v u, v ⬝ᵥ (K *ᵥ u) = v ⬝ᵥ (L *ᵥ u)) :
    K = L := by
  ext i j
  have := h (Pi.single i 1) (Pi.single j 1)
  simpa using this

theorem symm_of_work {ι : Type} [Fintype ι] [DecidableEq ι] {K : Matrix ι ι ℝ} (h : ∀ v u, v ⬝ᵥ (K *ᵥ u) = u ⬝ᵥ (K *ᵥ v)) : Kᵀ = K := by
  apply matrix_ext_work
  intro v u
  rw [Matrix.mulVec_transpose, dotProduct_comm, ← Matrix.dotProduct_mulVec, h]

end Hyperstatic
