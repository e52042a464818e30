import Verif.Props.Dynamic

/-
C122: energy of an undamped, unloaded structure in Newmark's method with constant average acceleration.
-/

namespace Hyperstatic
open Matrix Spec

/-- kinetic plus strain energy -/
noncomputable def mechEnergy {n : ℕ} (K M : Matrix (Fin n) (Fin n) ℝ) (s : Motion n) : ℝ :=
  1 / 2 * (s.v ⬝ᵥ (M *ᵥ s.v)) + 1 / 2 * (s.u ⬝ᵥ (K *ᵥ s.u))

/-- The property: with `beta = 1/4`, `gamma = 1/2`, without damping and loads, all rows have the same energy. -/
def C122_claim : Prop :=
  ∀ (dyn : DynEnv), dyn.SolveSound → ∀ (n : ℕ) (K M : Matrix (Fin n) (Fin n) ℝ), K.IsSymm → M.IsSymm → ∀ (T : List ℝ) (F : List (Vec n)),
    (∀ f ∈ F, f = 0) → ∀ (s0 : Motion n), EquationOfMotion K 0 M 0 s0 → ∀ table : List (ℝ × Motion n),
    newmarkBeta dyn K 0 M T F s0 (1 / 4) (1 / 2) = .ok table → ∀ p ∈ table, mechEnergy K M p.2 = mechEnergy K M s0

theorem symm_dot {n : ℕ} {A : Matrix (Fin n) (Fin n) ℝ} (hA : A.IsSymm) (x y : Vec n) : x ⬝ᵥ (A *ᵥ y) = y ⬝ᵥ (A *ᵥ x) := by
  rw [dotProduct_mulVec, ← mulVec_transpose, hA.eq, dotProduct_comm]

/-- The claim is what Newmark's relations give. -/
theorem newmark_energy {n : ℕ} {K M : Matrix (Fin n) (Fin n) ℝ} (hK : K.IsSymm) (hM : M.IsSymm) {h : ℝ} {s s' : Motion n}
    (e : EquationOfMotion K 0 M 0 s) (e' : EquationOfMotion K 0 M 0 s') (hd : NewmarkDisp (1 / 4) h s s') (hv : NewmarkVel (1 / 2) h s s') :
    mechEnergy K M s' = mechEnergy K M s := by
  unfold EquationOfMotion at e e'
  rw [zero_mulVec, add_zero] at e e'
  have e1 : M *ᵥ s.a = -(K *ᵥ s.u) := eq_neg_of_add_eq_zero_left e
  have e2 : M *ᵥ s'.a = -(K *ᵥ s'.u) := eq_neg_of_add_eq_zero_left e'
  -- h (v + v') = 2 (u' - u)
  have r1 : s'.u - s.u = (h / 2) • (s.v + s'.v) := by
    rw [hd, hv]; funext i
    simp only [Pi.sub_apply, Pi.add_apply, Pi.smul_apply, smul_eq_mul]; ring
  have r2 : s'.v - s.v = (h / 2) • (s.a + s'.a) := by
    rw [hv]; funext i
    simp only [Pi.sub_apply, Pi.add_apply, Pi.smul_apply, smul_eq_mul]; ring
  have k1 : (s'.v + s.v) ⬝ᵥ (M *ᵥ (s'.v - s.v)) = s'.v ⬝ᵥ (M *ᵥ s'.v) - s.v ⬝ᵥ (M *ᵥ s.v) := by
    rw [mulVec_sub, dotProduct_sub, add_dotProduct, add_dotProduct, symm_dot hM s.v s'.v]; ring
  have k2 : (s'.u - s.u) ⬝ᵥ (K *ᵥ (s'.u + s.u)) = s'.u ⬝ᵥ (K *ᵥ s'.u) - s.u ⬝ᵥ (K *ᵥ s.u) := by
    rw [mulVec_add, dotProduct_add, sub_dotProduct, sub_dotProduct, symm_dot hK s.u s'.u]; ring
  have k3 : (s'.v + s.v) ⬝ᵥ (M *ᵥ (s'.v - s.v)) + (s'.u - s.u) ⬝ᵥ (K *ᵥ (s'.u + s.u)) = 0 := by
    rw [r2, r1, mulVec_smul, mulVec_add, e1, e2, mulVec_add, smul_dotProduct, dotProduct_smul, add_comm s.v]
    rw [← smul_add, ← dotProduct_add]
    have : -(K *ᵥ s.u) + -(K *ᵥ s'.u) + (K *ᵥ s'.u + K *ᵥ s.u) = 0 := by abel
    rw [this, dotProduct_zero, smul_zero]
  unfold mechEnergy
  linarith

/-! #### What the code does -/

/-- a run: time step, and the relations of two consecutive rows, the equation of motion included at both -/
theorem newmark_rows {dyn : DynEnv} (hs : dyn.SolveSound) {n : ℕ} {K M : Matrix (Fin n) (Fin n) ℝ} {T : List ℝ} {F : List (Vec n)}
    (hF : ∀ f ∈ F, f = 0) {s0 : Motion n} (e0 : EquationOfMotion K 0 M 0 s0) {beta gamma : ℝ} {table : List (ℝ × Motion n)}
    (h : newmarkBeta dyn K 0 M T F s0 beta gamma = .ok table) {t0 t1 : ℝ} (h0 : T[0]? = some t0) (h1 : T[1]? = some t1) :
    ∀ (k : ℕ) (p q : ℝ × Motion n), table[k]? = some p → table[k + 1]? = some q →
      EquationOfMotion K 0 M 0 p.2 ∧ EquationOfMotion K 0 M 0 q.2 ∧ NewmarkVel gamma (t1 - t0) p.2 q.2 ∧
      q.2.u = p.2.u + (t1 - t0) • p.2.v + (t1 - t0) ^ 2 • (-(1 / 2 - beta) • p.2.a + beta • q.2.a) := by
  obtain ⟨hlen, hfirst, hall⟩ := C56_newmark_partial dyn hs n K 0 M T F s0 beta gamma table h t0 t1 h0 h1
  have hf : ∀ k q, table[k + 1]? = some q → F[k]? = some 0 := by
    intro k q hq
    have hk : k + 1 < table.length := (List.getElem?_eq_some_iff.mp hq).1
    have hk' : k < F.length := by omega
    rw [List.getElem?_eq_getElem hk', hF _ (List.getElem_mem hk')]
  have heom : ∀ (k : ℕ) (p : ℝ × Motion n), table[k]? = some p → EquationOfMotion K 0 M 0 p.2 := by
    intro k p hp
    cases k with
    | zero => rw [hfirst] at hp; cases hp; exact e0
    | succ k =>
      have hk : k < table.length := by have := (List.getElem?_eq_some_iff.mp hp).1; omega
      exact (hall k 0 _ p (hf k p hp) (List.getElem?_eq_getElem hk) hp).2.1
  intro k p q hp hq
  obtain ⟨-, b, c, d⟩ := hall k 0 p q (hf k q hq) hp hq
  exact ⟨heom k p hp, b, c, d⟩

/-- The displacement and velocity of a motion in the mode `phi`. -/
noncomputable def modalDisp {n : ℕ} (M : Matrix (Fin n) (Fin n) ℝ) (phi : Vec n) (s : Motion n) : ℝ := phi ⬝ᵥ (M *ᵥ s.u)
noncomputable def modalVel {n : ℕ} (M : Matrix (Fin n) (Fin n) ℝ) (phi : Vec n) (s : Motion n) : ℝ := phi ⬝ᵥ (M *ᵥ s.v)

/-- the definite form that the step multiplies by a constant -/
noncomputable def modalForm (ω h y v : ℝ) : ℝ := v ^ 2 + ω ^ 2 * (1 + h ^ 2 * ω ^ 2 / 4) * y ^ 2 + h * ω ^ 2 / 2 * (y * v)

/-- one step of the code's scheme for one mode -/
theorem scalar_step {ω h y v y' v' : ℝ} (hy : y' = y + h * v + h ^ 2 * (-(1 / 2 - 1 / 4) * (-(ω ^ 2 * y)) + 1 / 4 * (-(ω ^ 2 * y'))))
    (hv : v' = v + h * ((1 - 1 / 2) * (-(ω ^ 2 * y)) + 1 / 2 * (-(ω ^ 2 * y')))) :
    modalForm ω h y' v' = (1 + 3 * (h ^ 2 * ω ^ 2 / 4)) / (1 + h ^ 2 * ω ^ 2 / 4) * modalForm ω h y v := by
  have hz : 0 < 1 + h ^ 2 * ω ^ 2 / 4 := by positivity
  have e1 : y' = y + h * v / (1 + h ^ 2 * ω ^ 2 / 4) := by
    rw [eq_comm, ← sub_eq_zero]
    have : (1 + h ^ 2 * ω ^ 2 / 4) * (y + h * v / (1 + h ^ 2 * ω ^ 2 / 4) - y') = 0 := by
      field_simp
      linear_combination (-4) * hy
    exact (mul_eq_zero.mp this).resolve_left hz.ne'
  subst hv
  rw [e1]
  unfold modalForm
  field_simp
  ring

/-- Proved in place of the claim: in an undamped, unloaded run of any structure, for every vibration mode of circular frequency `ω`
and every step `h`, the form `v² + ω²(1+z) y² + (hω²/2) y v` of the modal displacement and velocity (z = h²ω²/4) is multiplied by
`(1+3z)/(1+z) > 1` at each row. -/
theorem C122_growth_partial (dyn : DynEnv) (hs : dyn.SolveSound) (n : ℕ) (K M : Matrix (Fin n) (Fin n) ℝ) (hK : K.IsSymm) (hM : M.IsSymm)
    (T : List ℝ) (F : List (Vec n)) (hF : ∀ f ∈ F, f = 0) (s0 : Motion n) (e0 : EquationOfMotion K 0 M 0 s0) (table : List (ℝ × Motion n))
    (h : newmarkBeta dyn K 0 M T F s0 (1 / 4) (1 / 2) = .ok table) (t0 t1 : ℝ) (h0 : T[0]? = some t0) (h1 : T[1]? = some t1)
    (phi : Vec n) (ω : ℝ) (hphi : K *ᵥ phi = ω ^ 2 • (M *ᵥ phi)) :
    ∀ (k : ℕ) (p : ℝ × Motion n), table[k]? = some p →
      modalForm ω (t1 - t0) (modalDisp M phi p.2) (modalVel M phi p.2) =
        ((1 + 3 * ((t1 - t0) ^ 2 * ω ^ 2 / 4)) / (1 + (t1 - t0) ^ 2 * ω ^ 2 / 4)) ^ k *
          modalForm ω (t1 - t0) (modalDisp M phi s0) (modalVel M phi s0) := by
  have hrows := newmark_rows hs hF e0 h h0 h1
  have hfirst := (C56_newmark_partial dyn hs n K 0 M T F s0 _ _ table h t0 t1 h0 h1).2.1
  have hacc : ∀ s : Motion n, EquationOfMotion K 0 M 0 s → phi ⬝ᵥ (M *ᵥ s.a) = -(ω ^ 2 * modalDisp M phi s) := by
    intro s e
    unfold EquationOfMotion at e
    rw [zero_mulVec, add_zero] at e
    rw [eq_neg_of_add_eq_zero_left e, dotProduct_neg, symm_dot hK, hphi, dotProduct_smul, symm_dot hM, smul_eq_mul]
    rfl
  intro k
  induction k with
  | zero => intro p hp; rw [hfirst] at hp; cases hp; rw [pow_zero, one_mul]
  | succ k ih =>
    intro q hq
    have hk : k < table.length := by have := (List.getElem?_eq_some_iff.mp hq).1; omega
    obtain ⟨p, hp⟩ : ∃ p, table[k]? = some p := ⟨_, List.getElem?_eq_getElem hk⟩
    obtain ⟨a, b, c, d⟩ := hrows k p q hp hq
    have hy := congrArg (fun w => phi ⬝ᵥ (M *ᵥ w)) d
    have hv := congrArg (fun w => phi ⬝ᵥ (M *ᵥ w)) c
    simp only [mulVec_add, mulVec_smul, dotProduct_add, dotProduct_smul, smul_eq_mul, hacc _ a, hacc _ b] at hy hv
    rw [pow_succ', mul_assoc, ← ih p hp]
    exact scalar_step hy hv

/-- So a mode that moves at all does not keep its energy: for every bound, every run that is long enough exceeds it, whatever
the (positive) time step. -/
theorem C122_blowup (n : ℕ) (K M : Matrix (Fin n) (Fin n) ℝ) (hK : K.IsSymm) (hM : M.IsSymm) (s0 : Motion n)
    (e0 : EquationOfMotion K 0 M 0 s0) (phi : Vec n) (ω : ℝ) (hω : 0 < ω) (hphi : K *ᵥ phi = ω ^ 2 • (M *ᵥ phi))
    (hmove : modalDisp M phi s0 ≠ 0 ∨ modalVel M phi s0 ≠ 0) (dt : ℝ) (hdt : 0 < dt) (B : ℝ) :
    ∃ N : ℕ, ∀ (dyn : DynEnv), dyn.SolveSound → ∀ (T : List ℝ) (F : List (Vec n)), (∀ f ∈ F, f = 0) → ∀ table : List (ℝ × Motion n),
      newmarkBeta dyn K 0 M T F s0 (1 / 4) (1 / 2) = .ok table → ∀ t0 t1, T[0]? = some t0 → T[1]? = some t1 → t1 - t0 = dt →
      ∀ (k : ℕ) (p : ℝ × Motion n), N ≤ k → table[k]? = some p → B < modalVel M phi p.2 ^ 2 + ω ^ 2 * modalDisp M phi p.2 ^ 2 := by
  have hz : 0 < dt ^ 2 * ω ^ 2 / 4 := by positivity
  obtain ⟨z, hzz⟩ : ∃ z, z = dt ^ 2 * ω ^ 2 / 4 := ⟨_, rfl⟩
  have hg : 1 < (1 + 3 * (dt ^ 2 * ω ^ 2 / 4)) / (1 + dt ^ 2 * ω ^ 2 / 4) := by
    rw [lt_div_iff₀ (by positivity)]; linarith
  have hE0 : 0 < modalForm ω dt (modalDisp M phi s0) (modalVel M phi s0) := by
    generalize modalDisp M phi s0 = y at hmove
    generalize modalVel M phi s0 = v at hmove
    have : modalForm ω dt y v = (v + dt * ω ^ 2 / 4 * y) ^ 2 + (ω ^ 2 + 3 * (dt ^ 2 * ω ^ 4 / 16)) * y ^ 2 := by
      unfold modalForm; ring
    rw [this]
    by_cases hy : y = 0
    · have hv : v ≠ 0 := hmove.resolve_left (not_not.mpr hy)
      rw [hy]
      have := sq_pos_of_ne_zero hv
      simpa using this
    · have := sq_pos_of_ne_zero hy
      positivity
  have hle : ∀ y v, modalForm ω dt y v ≤ (1 + dt ^ 2 * ω ^ 2 / 4 + dt * ω / 4) * (v ^ 2 + ω ^ 2 * y ^ 2) := by
    intro y v
    have : (1 + dt ^ 2 * ω ^ 2 / 4 + dt * ω / 4) * (v ^ 2 + ω ^ 2 * y ^ 2) - modalForm ω dt y v =
        dt ^ 2 * ω ^ 2 / 4 * v ^ 2 + dt * ω / 4 * (v - ω * y) ^ 2 := by
      unfold modalForm; ring
    have h2 : 0 ≤ dt ^ 2 * ω ^ 2 / 4 * v ^ 2 + dt * ω / 4 * (v - ω * y) ^ 2 := by positivity
    linarith
  have hc : 0 < 1 + dt ^ 2 * ω ^ 2 / 4 + dt * ω / 4 := by positivity
  obtain ⟨N, hN⟩ := pow_unbounded_of_one_lt ((1 + dt ^ 2 * ω ^ 2 / 4 + dt * ω / 4) * B / modalForm ω dt (modalDisp M phi s0) (modalVel M phi s0)) hg
  refine ⟨N, ?_⟩
  intro dyn hs T F hF table h t0 t1 h0 h1 hd k p hk hp
  have hgrow := C122_growth_partial dyn hs n K M hK hM T F hF s0 e0 table h t0 t1 h0 h1 phi ω hphi k p hp
  rw [hd] at hgrow
  have hNk := hN.trans_le (pow_le_pow_right₀ hg.le hk)
  rw [div_lt_iff₀ hE0, ← hgrow] at hNk
  exact lt_of_mul_lt_mul_left (hNk.trans_le (hle _ _)) hc.le

/-- With `beta = gamma = 1/2`, where the misplaced sign has no effect, a positive form of velocity and acceleration keeps its value
in all rows, for every structure and every step: the motion stays bounded. -/
theorem C122_half_partial (dyn : DynEnv) (hs : dyn.SolveSound) (n : ℕ) (K M : Matrix (Fin n) (Fin n) ℝ) (hK : K.IsSymm) (hM : M.IsSymm)
    (T : List ℝ) (F : List (Vec n)) (hF : ∀ f ∈ F, f = 0) (s0 : Motion n) (e0 : EquationOfMotion K 0 M 0 s0) (table : List (ℝ × Motion n))
    (h : newmarkBeta dyn K 0 M T F s0 (1 / 2) (1 / 2) = .ok table) (t0 t1 : ℝ) (h0 : T[0]? = some t0) (h1 : T[1]? = some t1) :
    ∀ (k : ℕ) (p : ℝ × Motion n), table[k]? = some p →
      p.2.v ⬝ᵥ (K *ᵥ p.2.v) + p.2.a ⬝ᵥ (M *ᵥ p.2.a) + (t1 - t0) ^ 2 / 4 * (p.2.a ⬝ᵥ (K *ᵥ p.2.a)) =
      s0.v ⬝ᵥ (K *ᵥ s0.v) + s0.a ⬝ᵥ (M *ᵥ s0.a) + (t1 - t0) ^ 2 / 4 * (s0.a ⬝ᵥ (K *ᵥ s0.a)) := by
  have hrows := newmark_rows hs hF e0 h h0 h1
  have hfirst := (C56_newmark_partial dyn hs n K 0 M T F s0 _ _ table h t0 t1 h0 h1).2.1
  intro k
  induction k with
  | zero => intro p hp; rw [hfirst] at hp; cases hp; rfl
  | succ k ih =>
    intro q hq
    have hk : k < table.length := by have := (List.getElem?_eq_some_iff.mp hq).1; omega
    obtain ⟨p, hp⟩ : ∃ p, table[k]? = some p := ⟨_, List.getElem?_eq_getElem hk⟩
    obtain ⟨a, b, c, d⟩ := hrows k p q hp hq
    rw [← ih p hp]
    generalize p.2 = s at a c d
    generalize q.2 = s' at b c d
    generalize t1 - t0 = dt at c d
    unfold EquationOfMotion at a b
    rw [zero_mulVec, add_zero] at a b
    have d' : s'.u - s.u = dt • s.v + (dt ^ 2 / 2) • s'.a := by
      rw [d]; funext i
      simp only [Pi.sub_apply, Pi.add_apply, Pi.smul_apply, smul_eq_mul]; ring
    have c' : s'.v = s.v + (dt / 2) • (s.a + s'.a) := by
      rw [c]; funext i
      simp only [Pi.add_apply, Pi.smul_apply, smul_eq_mul]; ring
    have m : M *ᵥ (s'.a - s.a) = -(K *ᵥ (dt • s.v + (dt ^ 2 / 2) • s'.a)) := by
      rw [← d', mulVec_sub, mulVec_sub, eq_neg_of_add_eq_zero_left a, eq_neg_of_add_eq_zero_left b]
      abel
    have m' := congrArg (fun w => (s.a + s'.a) ⬝ᵥ w) m
    simp only [mulVec_sub, mulVec_add, mulVec_smul, dotProduct_sub, dotProduct_add, add_dotProduct, dotProduct_neg, dotProduct_smul,
      smul_eq_mul] at m'
    rw [c']
    simp only [mulVec_add, mulVec_smul, dotProduct_add, add_dotProduct, dotProduct_smul, smul_dotProduct, smul_eq_mul]
    have s1 := symm_dot hM s.a s'.a
    have s2 := symm_dot hK s.a s'.a
    have s3 := symm_dot hK s.v s.a
    have s4 := symm_dot hK s.v s'.a
    rw [s3, s4, s2]
    rw [s1, s2] at m'
    linear_combination m'

/-! #### A run: a unit mass on a unit spring, pulled and released -/

theorem spring_run (beta : ℝ) (hb : 0 < beta) (N : ℕ) (s0 : Motion 1) : ∃ table : List (ℝ × Motion 1), newmarkBeta exactSolve (1 : Matrix (Fin 1) (Fin 1) ℝ) 0 1
    ((List.range (N + 2)).map fun i : ℕ => (i : ℝ)) (List.replicate (N + 2) 0) s0 beta (1 / 2) = .ok table := by
  have hsol : ∀ (c : ℝ) (b : Vec 1), 0 < c → ∃ x, (c • (1 : Matrix (Fin 1) (Fin 1) ℝ)) *ᵥ x = b := by
    intro c b hc
    exact ⟨c⁻¹ • b, by rw [Matrix.smul_mulVec, Matrix.one_mulVec, smul_smul, mul_inv_cancel₀ hc.ne', one_smul]⟩
  unfold newmarkBeta
  have hd : uniformStep ((List.range (N + 2)).map fun i : ℕ => (i : ℝ)) = .ok 1 := by
    rw [List.range_succ_eq_map, List.range_succ_eq_map]
    simp [uniformStep]
  have hc : ∃ b, newmarkConsts beta (1 / 2) 1 = .ok b ∧ 0 < b.b1 := by
    unfold newmarkConsts
    rw [if_neg (by simpa using hb.ne')]
    exact ⟨_, rfl, by positivity⟩
  obtain ⟨b, hc, hb1⟩ := hc
  rw [hd, Except.bind_ok, hc, Except.bind_ok]
  have hmarch : ∀ (l : List (ℝ × Vec 1)) (s : Motion 1), ∃ r, marchFrom (implicitStep exactSolve 1 0 1 b) s l = .ok r := by
    intro l
    induction l with
    | nil => intro s; exact ⟨_, rfl⟩
    | cons a l ih =>
      intro s
      obtain ⟨t, f⟩ := a
      have hstep : ∃ s', implicitStep exactSolve 1 0 1 b s f = .ok s' := by
        unfold implicitStep
        have e : (1 : Matrix (Fin 1) (Fin 1) ℝ) + b.b4 • (0 : Matrix (Fin 1) (Fin 1) ℝ) + b.b1 • (1 : Matrix (Fin 1) (Fin 1) ℝ) = (1 + b.b1) • 1 := by
          rw [smul_zero, add_zero, add_smul, one_smul]
        simp only [e]
        obtain ⟨x, hx⟩ := exactSolve_ok (hsol (1 + b.b1) (f + (1 : Matrix (Fin 1) (Fin 1) ℝ) *ᵥ (b.b1 • s.u - b.b2 • s.v - b.b3 • s.a) +
          (0 : Matrix (Fin 1) (Fin 1) ℝ) *ᵥ (b.b4 • s.u - b.b5 • s.v - b.b6 • s.a)) (by positivity))
        rw [hx]
        exact ⟨_, rfl⟩
      obtain ⟨s', hs'⟩ := hstep
      obtain ⟨r, hr⟩ := ih s'
      refine ⟨(t, s') :: r, ?_⟩
      simp only [marchFrom]
      rw [hs', Except.bind_ok, hr, Except.bind_ok]
      rfl
  obtain ⟨r, hr⟩ := hmarch (((List.range (N + 2)).map fun i : ℕ => (i : ℝ)).zip (List.replicate (N + 2) 0)) s0
  rw [hr]
  exact ⟨_, rfl⟩

theorem released : EquationOfMotion (1 : Matrix (Fin 1) (Fin 1) ℝ) 0 1 0 ⟨![1], 0, ![-1]⟩ := by
  unfold EquationOfMotion
  funext i
  fin_cases i
  simp

/-- False: the energy of a released oscillator grows beyond every bound. -/
theorem C122_false : ¬ C122_claim := by
  intro H
  obtain ⟨N, hN⟩ := C122_blowup 1 1 1 transpose_one transpose_one ⟨![1], 0, ![-1]⟩ released ![1] 1 one_pos (by simp)
    (Or.inl (by simp [modalDisp])) 1 one_pos 1
  obtain ⟨table, ht⟩ := spring_run (1 / 4) (by norm_num) N ⟨![1], 0, ![-1]⟩
  have h0 : ((List.range (N + 2)).map fun i : ℕ => (i : ℝ))[0]? = some 0 := by simp
  have h1 : ((List.range (N + 2)).map fun i : ℕ => (i : ℝ))[1]? = some 1 := by simp
  have hlen := (C56_newmark_partial exactSolve exactSolve_sound 1 1 0 1 _ _ _ _ _ table ht 0 1 h0 h1).1
  simp only [List.length_map, List.length_range, List.length_replicate, min_self] at hlen
  have hk : N < table.length := by omega
  have hz : ∀ f ∈ List.replicate (N + 2) (0 : Vec 1), f = 0 := fun f hf => (List.mem_replicate.mp hf).2
  have hbig := hN exactSolve exactSolve_sound _ _ hz table ht 0 1 h0 h1 (by norm_num) N _ le_rfl (List.getElem?_eq_getElem hk)
  have heq := H exactSolve exactSolve_sound 1 1 1 transpose_one transpose_one _ _ hz _ released table ht _ (List.getElem_mem hk)
  generalize (table[N]).2 = s at hbig heq
  simp [mechEnergy, modalVel, modalDisp, dotProduct] at hbig heq
  nlinarith

/-- Runs of any length meet the hypotheses of the partial theorems. -/
example (N : ℕ) : ∃ table : List (ℝ × Motion 1), newmarkBeta exactSolve (1 : Matrix (Fin 1) (Fin 1) ℝ) 0 1
    ((List.range (N + 2)).map fun i : ℕ => (i : ℝ)) (List.replicate (N + 2) 0) ⟨![1], 0, ![-1]⟩ (1 / 2) (1 / 2) = .ok table :=
  spring_run (1 / 2) (by norm_num) N _

end Hyperstatic
