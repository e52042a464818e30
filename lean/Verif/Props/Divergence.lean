import Verif.Props.Damping
import Mathlib.Topology.Order.IntermediateValue
import Mathlib.Topology.Algebra.Polynomial

/-
C164: what becomes of a short push in a direct time integration.
-/

namespace Hyperstatic
open Matrix Spec

/-! ### C164 A short push dies away in a direct time integration -/

/-- The growth factor of one mode: the equation that a solution `z ^ t` of the recurrence followed by the rows satisfies, for a mode with squared
circular frequency `lam` and damping `d`, at step size `h`. -/
def GrowthFactor (lam d h z : ℝ) : Prop :=
  (1 + d * h / 2) * z ^ 3 - (2 - lam * h ^ 2) * z + (1 - d * h / 2) = 0

/-- The recurrence of one modal coordinate after a push at the first instant. -/
theorem growth_scalar {lam d h z g : ℝ} {T : ℕ} {q : ℕ → ℝ} (hc : 1 + d * h / 2 ≠ 0) (hz : GrowthFactor lam d h z) (h0 : q 0 = 0)
    (hs : ∀ t < T, (1 + d * h / 2) * q (t + 1) + (lam * h ^ 2 - 2) * (if t < 1 then 0 else q (t - 1)) +
      (1 - d * h / 2) * (if t < 2 then 0 else q (t - 2)) = if t = 0 then g else 0) :
    ∀ t, t + 2 ≤ T → (1 + d * h / 2) * (q (t + 2) + z * q (t + 1)) + ((1 + d * h / 2) * z ^ 2 - (2 - lam * h ^ 2)) * q t = z ^ (t + 1) * g := by
  intro t
  unfold GrowthFactor at hz
  induction t with
  | zero =>
    intro hT
    have e0 := hs 0 (by omega)
    have e1 := hs 1 (by omega)
    simp only [zero_lt_one, if_true, mul_zero, add_zero, zero_add, Nat.lt_irrefl, if_false, Nat.sub_self, h0, Nat.one_lt_ofNat, Nat.ofNat_pos,
      one_ne_zero] at e0 e1
    simp only [zero_add, h0, mul_zero, add_zero, pow_one]
    have e2 : (1 + d * h / 2) * q 2 = 0 := by simpa using e1
    linear_combination e2 + z * e0
  | succ t ih =>
    intro hT
    have e := hs (t + 2) (by omega)
    have i := ih (by omega)
    simp only [show ¬ (t + 2 < 1) by omega, show ¬ (t + 2 < 2) by omega, if_false, show t + 2 - 1 = t + 1 by omega, show t + 2 - 2 = t by omega,
      show ¬ (t + 2 = 0) by omega] at e
    rw [show t + 2 + 1 = t + 3 by omega] at e
    rw [show t + 1 + 2 = t + 3 by omega, show t + 1 + 1 = t + 2 by omega, show z ^ (t + 2) * g = z * (z ^ (t + 1) * g) by ring, ← i]
    linear_combination e - q t * hz

theorem vec_step {n : ℕ} {K M C : Matrix (Fin n) (Fin n) ℝ} {h lam d : ℝ} (hh : h ≠ 0) {phi : Vec n} (hK : phi ᵥ* K = lam • (phi ᵥ* M))
    (hC : phi ᵥ* C = d • (phi ᵥ* M)) {a b e f : Vec n}
    (hr : ((1 / h ^ 2) • M + (1 / (2 * h)) • C) *ᵥ a + (K - (2 / h ^ 2) • M) *ᵥ b + ((1 / h ^ 2) • M - (1 / (2 * h)) • C) *ᵥ e = f) :
    (1 + d * h / 2) * (phi ⬝ᵥ (M *ᵥ a)) + (lam * h ^ 2 - 2) * (phi ⬝ᵥ (M *ᵥ b)) + (1 - d * h / 2) * (phi ⬝ᵥ (M *ᵥ e)) = h ^ 2 * (phi ⬝ᵥ f) := by
  have k : ∀ v, phi ⬝ᵥ (K *ᵥ v) = lam * (phi ⬝ᵥ (M *ᵥ v)) := by
    intro v; rw [dotProduct_mulVec, hK, smul_dotProduct, dotProduct_mulVec, smul_eq_mul]
  have c : ∀ v, phi ⬝ᵥ (C *ᵥ v) = d * (phi ⬝ᵥ (M *ᵥ v)) := by
    intro v; rw [dotProduct_mulVec, hC, smul_dotProduct, dotProduct_mulVec, smul_eq_mul]
  rw [← hr]
  simp only [add_mulVec, sub_mulVec, smul_mulVec, dotProduct_add, dotProduct_sub, dotProduct_smul, smul_eq_mul, k, c]
  field_simp

/-- The modal coordinate of a direct time integration loaded at the first instant only: for every structure, every mode and every factor `z` of
the growth equation, a combination of three consecutive values is the load of the mode times the power of `z`. -/
theorem C164_growth (env : Env) (dyn : DynEnv) (hdyn : dyn.CgSound) (cs : List Call) (hcs : NoReadd env World.init cs) (cases : List LoadCase)
    (heap : PatHeap) (x : Assembly) (hx : Assembly.mk? (World.init.run env cs).api.model cases heap = .ok x) {A : Type} (fs fs' : Dict (File A))
    (filename c : String) (hfs : openAssembly fs filename = .ok x) (s : DirectSetting) (hstep : s.stepSize ≠ 0) (lc : LoadCase)
    (hc : x.cases.get? c = some lc) (hr : lc.restraint.WF) (h : solveDirect env dyn fs filename c s = (fs', .ok ()))
    (K M K_ M_ C_ : Coo) (hK : x.assembleK env = .ok K) (hM : x.assembleM = .ok M) (hK_ : x.boundaryMatrix c K = .ok K_)
    (hM_ : x.boundaryMatrix c M = .ok M_) (hC_ : x.boundaryMatrix c (rayleighC K M) = .ok C_)
    (hinj : ∀ z, ((1 / s.stepSize ^ 2) • M_.dense K_.nrow + (1 / (2 * s.stepSize)) • C_.dense K_.nrow) *ᵥ z = 0 → z = 0)
    (phi : Vec K_.nrow) (lam d : ℝ) (hmode : phi ᵥ* K_.dense K_.nrow = lam • (phi ᵥ* M_.dense K_.nrow))
    (hd : d = 0.02 / (3 * Real.pi) * ((4 * Real.pi) ^ 2 - lam)) (hd0 : 1 + d * s.stepSize / 2 ≠ 0)
    (push : Vec K_.nrow) (hpush : ∀ t f f_, x.assembleF c t = .ok f → x.boundaryVector c f = .ok f_ →
      f_ = List.ofFn (if t = 0 then push else 0)) :
    ∃ (T : ℕ) (U : ℕ → Vec K_.nrow), IsLeast {n | ∃ curve ∈ lc.loadCurve.values, curve.length = n} T ∧
      fs'.get? (c ++ ".d" ++ ".npy") = some (.rows ((List.range (T + 1)).map fun t => List.ofFn (U t))) ∧
      ∀ z, GrowthFactor lam d s.stepSize z → ∀ t, t + 2 ≤ T →
        (1 + d * s.stepSize / 2) * (phi ⬝ᵥ (M_.dense K_.nrow *ᵥ U (t + 2)) + z * (phi ⬝ᵥ (M_.dense K_.nrow *ᵥ U (t + 1)))) +
          ((1 + d * s.stepSize / 2) * z ^ 2 - (2 - lam * s.stepSize ^ 2)) * (phi ⬝ᵥ (M_.dense K_.nrow *ᵥ U t)) =
        z ^ (t + 1) * (s.stepSize ^ 2 * (phi ⬝ᵥ push)) := by
  have hF := (FreshInv_run env cs hcs).1
  obtain ⟨hm, -, hfix, -⟩ := mk_assembly hx
  have hwf := governing_wf' hF.toApiInv hr
  obtain ⟨fixed, ht, hb, hK'⟩ := boundaryMatrix_split hm hfix hc hK_
  have hM2 := hM_
  have hC2 := hC_
  unfold Assembly.boundaryMatrix at hM2 hC2
  rw [hb, Except.bind_ok] at hM2 hC2
  have hn := (stiff_form env hF hm hK hwf ht hK').1
  have hCd := damping_dense env hF hm hK hM hwf ht hK' hM2 hC2 _ hn
  have hCphi : phi ᵥ* C_.dense K_.nrow = d • (phi ᵥ* M_.dense K_.nrow) := by
    obtain ⟨r0, r1⟩ := rayleigh_in_use
    rw [hCd, r0, r1, vecMul_add, vecMul_smul, vecMul_smul, hmode, smul_smul, ← add_smul, hd]
    congr 1
    ring
  obtain ⟨lc', T, U, g1, g2, g3, g4, g5⟩ := C58_recurrence_partial env dyn hdyn fs fs' filename c x hfs s h K M K_ M_ C_ hK hM hK_ hM_ hC_ hinj
  rw [hc] at g1
  cases g1
  refine ⟨T, U, g2, g3, ?_⟩
  intro z hz t ht
  refine growth_scalar (q := fun t => phi ⬝ᵥ (M_.dense K_.nrow *ᵥ U t)) hd0 hz (by simp [g4]) ?_ t ht
  intro t ht
  obtain ⟨-, f, f_, k1, k2, fv, k3, -, k4⟩ := g5 t ht
  have hfv : fv = if t = 0 then push else 0 := List.ofFn_injective (k3.trans (hpush t f f_ k1 k2))
  have := vec_step hstep hmode hCphi k4
  rw [hfv] at this
  have e : s.stepSize ^ 2 * (phi ⬝ᵥ (if t = 0 then push else 0)) = if t = 0 then s.stepSize ^ 2 * (phi ⬝ᵥ push) else 0 := by
    split <;> simp
  rw [e] at this
  rw [← this]
  congr 2
  · congr 1
    split <;> simp
  · split <;> simp

/-- When the step is small there is a factor beyond `-1`. -/
theorem C164_root (lam d h : ℝ) (h1 : 0 < 1 + d * h / 2) (h2 : lam * h ^ 2 + d * h < 2) : ∃ z < -1, GrowthFactor lam d h z := by
  set c := d * h / 2 with hcdef
  set p : ℝ → ℝ := fun z => (1 + d * h / 2) * z ^ 3 - (2 - lam * h ^ 2) * z + (1 - d * h / 2) with hp
  have hcont : Continuous p := by
    rw [hp]; fun_prop
  set R : ℝ := 1 + (|2 - lam * h ^ 2| + |1 - c|) / (1 + c) with hR
  have hq : 0 ≤ (|2 - lam * h ^ 2| + |1 - c|) / (1 + c) := by positivity
  have hR1 : 1 ≤ R := by rw [hR]; linarith
  have hmul : (1 + c) * R = (1 + c) + |2 - lam * h ^ 2| + |1 - c| := by
    rw [hR]; field_simp; ring
  have hneg : p (-R) < 0 := by
    have e1 : 2 - lam * h ^ 2 ≤ |2 - lam * h ^ 2| := le_abs_self _
    have e2 : 1 - c ≤ |1 - c| := le_abs_self _
    have e3 : p (-R) = -((1 + c) * R) * R ^ 2 + (2 - lam * h ^ 2) * R + (1 - c) := by rw [hp]; simp only; ring
    rw [e3, hmul]
    have e4 : R ≤ R ^ 2 := by nlinarith
    have e5 : 1 ≤ R ^ 2 := by nlinarith
    have a1 := abs_nonneg (2 - lam * h ^ 2)
    have a2 := abs_nonneg (1 - c)
    nlinarith [mul_le_mul_of_nonneg_left e4 a1, mul_le_mul_of_nonneg_left e5 a2, mul_le_mul_of_nonneg_right e1 (by linarith : 0 ≤ R),
      mul_le_mul_of_nonneg_left e5 h1.le]
  have hpos : 0 < p (-1) := by
    have : p (-1) = 2 - lam * h ^ 2 - d * h := by rw [hp]; simp only; ring
    rw [this]; linarith
  obtain ⟨z, ⟨-, hz2⟩, hz3⟩ := intermediate_value_Icc (show -R ≤ -1 by linarith) hcont.continuousOn (show (0 : ℝ) ∈ Set.Icc (p (-R)) (p (-1)) from ⟨hneg.le, hpos.le⟩)
  refine ⟨z, lt_of_le_of_ne hz2 ?_, hz3⟩
  intro e
  rw [e] at hz3
  linarith

/-- ... and for every mode all steps below some size are small enough. -/
theorem C164_small_steps (lam d : ℝ) : ∃ h0 > 0, ∀ h, 0 < h → h < h0 → 0 < 1 + d * h / 2 ∧ ∃ z < -1, GrowthFactor lam d h z := by
  refine ⟨1 / (1 + |lam| + |d|), by positivity, ?_⟩
  intro h hp hl
  have a1 := abs_nonneg lam
  have a2 := abs_nonneg d
  have hpos : 0 < 1 + |lam| + |d| := by positivity
  have e : h * (1 + |lam| + |d|) < 1 := by
    have := mul_lt_mul_of_pos_right hl hpos
    rwa [one_div, inv_mul_cancel₀ hpos.ne'] at this
  have h1 : h < 1 := by nlinarith [mul_nonneg hp.le a1, mul_nonneg hp.le a2]
  have d1 : |d * h| ≤ h * |d| := by rw [abs_mul, abs_of_pos hp, mul_comm]
  have l1 : |lam * h ^ 2| ≤ h * |lam| := by
    rw [abs_mul, abs_of_pos (by positivity : 0 < h ^ 2)]
    nlinarith [mul_nonneg hp.le a1]
  have g1 : 0 < 1 + d * h / 2 := by
    have := neg_abs_le (d * h)
    nlinarith [mul_nonneg hp.le a1]
  refine ⟨g1, C164_root lam d h g1 ?_⟩
  have := le_abs_self (d * h)
  have := le_abs_self (lam * h ^ 2)
  nlinarith

/-- Without stiffness and damping the factor is minus the golden ratio, whatever the step: the history grows by more than half at each step. -/
example (h : ℝ) : GrowthFactor 0 0 h (-((1 + √5) / 2)) ∧ -((1 + √5) / 2) < -1.6 := by
  have h5 : √5 ^ 2 = 5 := Real.sq_sqrt (by norm_num)
  have h2 : 2.2 < √5 := Real.lt_sqrt_of_sq_lt (by norm_num)
  refine ⟨?_, by linarith⟩
  unfold GrowthFactor
  linear_combination (-(√5 + 3) / 8) * h5

/-- A push of one pattern at the first instant, followed by `T` instants without load. -/
def tapCase (T : ℕ) : LoadCase := ⟨"H", .timeHistory, [("P", 0)], [("P", 1)], [("P", 1 :: List.replicate T 0)], []⟩

/-- The property: when no motion draws power from the damping forces, a push at the first instant leaves a bounded motion, however long the
analysis goes on, provided the steps are small enough. -/
def C164_claim : Prop :=
  ∀ (env : Env) (dyn : DynEnv), dyn.CgSound → ∀ cs : List Call, NoReadd env World.init cs → ∀ heap : PatHeap,
    (∀ T x K M K_ C_, Assembly.mk? (World.init.run env cs).api.model [tapCase T] heap = .ok x → x.assembleK env = .ok K → x.assembleM = .ok M →
      x.boundaryMatrix "H" K = .ok K_ → x.boundaryMatrix "H" (rayleighC K M) = .ok C_ →
      ∀ v : Vec K_.nrow, 0 ≤ v ⬝ᵥ (C_.dense K_.nrow *ᵥ v)) →
    ∃ h0 > 0, ∀ h, 0 < h → h < h0 → ∃ B : ℝ, ∀ T x, Assembly.mk? (World.init.run env cs).api.model [tapCase T] heap = .ok x →
      ∀ (fs' : Dict (File Unit)) rows, solveDirect env dyn [("f", (File.asb x : File Unit))] "f" "H" ⟨h, 0.05, none⟩ = (fs', .ok ()) →
      fs'.get? "H.d.npy" = some (.rows rows) → ∀ r ∈ rows, ∀ v ∈ r, |v| ≤ B

/-- the assembly of the tapped mass -/
def tapAsb (T : ℕ) : Assembly := ⟨massModel, [("H", tapCase T)], pushHeap, 6, []⟩

theorem tap_mk (T : ℕ) : Assembly.mk? massModel [tapCase T] pushHeap = .ok (tapAsb T) := rfl

theorem tap_dofs (T : ℕ) : (tapAsb T).boundaryDofs "H" = .ok [] := rfl

theorem push_asb : Assembly.mk? massModel [pushCase] pushHeap = .ok ⟨massModel, [("H", pushCase)], pushHeap, 6, []⟩ := rfl

theorem tap_forms (env : Env) (T : ℕ) {K M K_ M_ C_ : Coo}
    (hK : (tapAsb T).assembleK env = .ok K) (hM : (tapAsb T).assembleM = .ok M) (hK_ : (tapAsb T).boundaryMatrix "H" K = .ok K_)
    (hM_ : (tapAsb T).boundaryMatrix "H" M = .ok M_) (hC_ : (tapAsb T).boundaryMatrix "H" (rayleighC K M) = .ok C_) :
    K_.nrow = 6 ∧ K_.dense K_.nrow = 0 ∧ (∀ v u : Vec K_.nrow, v ⬝ᵥ (M_.dense K_.nrow *ᵥ u) = v ⬝ᵥ u) ∧
    C_.dense K_.nrow = rayleighA0 0.05 0.02 2 1 • M_.dense K_.nrow := by
  refine mass_forms env push_asb (K := K) (M := M) hK hM ?_ ?_ ?_
  all_goals
    unfold Assembly.boundaryMatrix at hK_ hM_ hC_ ⊢
    rw [tap_dofs, Except.bind_ok] at hK_ hM_ hC_
    rw [show Assembly.boundaryDofs ⟨massModel, [("H", pushCase)], pushHeap, 6, []⟩ "H" = .ok [] from rfl, Except.bind_ok]
    assumption

theorem tap_load (T t : ℕ) (ht : t ≤ T) : ∃ f, (tapAsb T).assembleF "H" t = .ok f ∧ f.nrow = 6 ∧
    ∀ i < 6, f.get i 0 = if t = 0 ∧ i = 0 then 1 else 0 := by
  have hcurve : LoadCase.curveAt (1 :: List.replicate T 0) t = .ok (if t = 0 then 1 else 0) := by
    unfold LoadCase.curveAt
    cases t with
    | zero => rfl
    | succ t =>
      have : (1 :: List.replicate T (0 : ℝ))[t + 1]? = some 0 := by
        rw [List.getElem?_cons_succ, List.getElem?_replicate, if_pos (by omega)]
      rw [this]
      simp
  have hn : (tapCase T).getNodalF pushHeap "A" t = .ok (fun i => if t = 0 ∧ i = 0 then 1 else 0) := by
    unfold LoadCase.getNodalF
    have h1 : (tapCase T).loadFactor = [("P", 1)] := rfl
    have h2 : (tapCase T).pattern.getItem "P" = .ok 0 := rfl
    have h3 : PatHeap.deref pushHeap 0 = .ok ⟨"P", [("A", ![1, 0, 0, 0, 0, 0])], [], [], []⟩ := rfl
    have h4 : LoadPattern.getNodalF ⟨"P", [("A", ![1, 0, 0, 0, 0, 0])], [], [], []⟩ "A" = some ![1, 0, 0, 0, 0, 0] := rfl
    have h5 : (tapCase T).loadCurve.getItem "P" = .ok (1 :: List.replicate T 0) := rfl
    rw [h1, List.foldlM_cons]
    simp only [h2, h3, h4, h5, hcurve, Except.bind_ok, List.foldlM_nil, Except.pure_eq_ok]
    congr 1
    funext i
    by_cases h : t = 0
    · simp only [h, if_true, true_and, mul_one]
      fin_cases i <;> simp
    · simp [h]
  have hT : ({ stdNode "A" 0 0 0 with mass := fun _ => 1 } : Node).T = 1 := stdNode_T (n := "A") (x := 0) (y := 0) (z := 0) (m := fun _ => 1) rfl
  have hnode : Assembly.nodeFTriplets (tapAsb T) (tapCase T) t "A" = .ok (if t = 0 then [(0, 0, 1)] else []) := by
    unfold Assembly.nodeFTriplets
    have h1 : (tapAsb T).model.nodes.getItem "A" = .ok { stdNode "A" 0 0 0 with mass := fun _ => 1 } := rfl
    have h2 : (tapAsb T).model.getNodeHid "A" = .ok 0 := rfl
    have h3 : (tapAsb T).heap = pushHeap := rfl
    rw [h1, Except.bind_ok, h3, hn, Except.bind_ok, h2, Except.bind_ok, hT, transpose_one]
    simp only [one_mulVec, Except.pure_eq_ok]
    by_cases h : t = 0
    · subst h
      have : (List.finRange 6).filter (fun k : Fin 6 => decide ((if (0 : ℕ) = 0 ∧ k = 0 then (1 : ℝ) else 0) ≠ 0)) = [0] := by
        rw [show List.finRange 6 = [0, 1, 2, 3, 4, 5] from rfl]
        simp [List.filter_cons]
      rw [this]
      simp
    · simp [h]
  refine ⟨⟨6, 1, if t = 0 then [(0, 0, 1)] else []⟩, ?_, rfl, ?_⟩
  · unfold Assembly.assembleF
    have h1 : (tapAsb T).cases.getItem "H" = .ok (tapCase T) := rfl
    have h2 : (tapAsb T).model.nodes.keys = ["A"] := rfl
    have h3 : (tapAsb T).model.beams.keys = [] := rfl
    have h4 : (tapAsb T).model.nodeCount = 1 := rfl
    rw [h1, Except.bind_ok, h2, h3, h4]
    simp only [List.mapM_cons, List.mapM_nil, hnode, Except.bind_ok, Except.pure_eq_ok]
    unfold Coo.mk?
    by_cases h : t = 0 <;> simp [h]
  · intro i _
    unfold Coo.get
    by_cases h : t = 0
    · simp [h, eq_comm]
    · simp [h]

theorem foldlM_succeeds {α β : Type} (f : α → β → Except PyErr α) (l : List β) (h : ∀ b ∈ l, ∀ a, ∃ a', f a b = .ok a') (a : α) :
    ∃ a', l.foldlM f a = .ok a' := by
  induction l generalizing a with
  | nil => exact ⟨a, rfl⟩
  | cons b l ih =>
    obtain ⟨a', h1⟩ := h b (by simp) a
    rw [List.foldlM_cons, h1, Except.bind_ok]
    exact ih (fun b hb => h b (by simp [hb])) a'

theorem tap_vector (T : ℕ) {f : Coo} (hf : f.nrow = 6) : (tapAsb T).boundaryVector "H" f = .ok ((List.range 6).map fun i => f.get i 0) := by
  unfold Assembly.boundaryVector
  rw [tap_dofs, Except.bind_ok, dropVector_eq, hf]
  rfl

theorem tap_step (T : ℕ) : (tapCase T).getMaxMinStep.2 = some (T + 1) := by
  unfold LoadCase.getMaxMinStep
  have : (tapCase T).loadCurve.values = [1 :: List.replicate T 0] := rfl
  rw [this]
  simp

/-- the analysis of the tapped mass succeeds, whatever its length and step: it meets the hypotheses of `C164_growth` and `C164_claim` -/
theorem tap_runs (T : ℕ) (h : ℝ) (hh : 0 < h) : ∃ (fs' : Dict (File Unit)) (K M K_ M_ C_ : Coo),
    solveDirect idealEnv exactCg [("f", (File.asb (tapAsb T) : File Unit))] "f" "H" ⟨h, 0.05, none⟩ = (fs', .ok ()) ∧
    (tapAsb T).assembleK idealEnv = .ok K ∧ (tapAsb T).assembleM = .ok M ∧ (tapAsb T).boundaryMatrix "H" K = .ok K_ ∧
    (tapAsb T).boundaryMatrix "H" M = .ok M_ ∧ (tapAsb T).boundaryMatrix "H" (rayleighC K M) = .ok C_ ∧
    ∀ z, ((1 / h ^ 2) • M_.dense K_.nrow + (1 / (2 * h)) • C_.dense K_.nrow) *ᵥ z = 0 → z = 0 := by
  obtain ⟨x, -, K, M, K_, M_, C_, hx, -, hb, -, hK, hM, hK_, hM_, hC_, -⟩ := push_runs
  have hxe : x = ⟨massModel, [("H", pushCase)], pushHeap, 6, []⟩ := by
    rw [push_asb] at hx; cases hx; rfl
  subst hxe
  have hK2 : (tapAsb T).assembleK idealEnv = .ok K := hK
  have hM2 : (tapAsb T).assembleM = .ok M := hM
  unfold Assembly.boundaryMatrix at hK_ hM_ hC_
  rw [hb, Except.bind_ok] at hK_ hM_ hC_
  have hbm : ∀ A, (tapAsb T).boundaryMatrix "H" A = Assembly.dropMatrixDof A [] := by
    intro A
    unfold Assembly.boundaryMatrix
    rw [tap_dofs, Except.bind_ok]
  rw [← hbm] at hK_ hM_ hC_
  obtain ⟨h6, hK0, hMform, hCd⟩ := tap_forms idealEnv T hK2 hM2 hK_ hM_ hC_
  have hfold : ∃ u, (List.range (T + 1)).foldlM (centralStep exactCg (tapAsb T) "H" K_.nrow (K_.dense _) (M_.dense _) (C_.dense _) h) [0, 0] = .ok u := by
    apply foldlM_succeeds
    intro t ht u
    obtain ⟨f, hf, fr, -⟩ := tap_load T t (by have := List.mem_range.mp ht; omega)
    unfold centralStep
    rw [hf, Except.bind_ok, tap_vector T fr, Except.bind_ok]
    rw [dif_pos ⟨by simp, h6⟩]
    exact ⟨_, rfl⟩
  obtain ⟨u, hu⟩ := hfold
  have hcase : (tapAsb T).cases.get? "H" = some (tapCase T) := rfl
  have hcd : centralDifference exactCg (tapAsb T) "H" K_.nrow (K_.dense _) (M_.dense _) (C_.dense _) h = .ok u.tail := by
    unfold centralDifference
    rw [if_neg hh.ne', Dict.getItem_of_some hcase, Except.bind_ok, tap_step]
    simp only
    rw [hu, Except.bind_ok]
    rfl
  have hrun : ∃ fs', solveDirect idealEnv exactCg [("f", (File.asb (tapAsb T) : File Unit))] "f" "H" ⟨h, 0.05, none⟩ = (fs', .ok ()) := by
    unfold solveDirect
    have ho : openAssembly [("f", (File.asb (tapAsb T) : File Unit))] "f" = .ok (tapAsb T) := rfl
    have hk : caseOfKind (tapAsb T) "H" .timeHistory = .ok (tapCase T) := by
      unfold caseOfKind
      rw [Dict.getItem_of_some hcase]
      rfl
    rw [ho]
    simp only [hk, baseCaseName, Except.bind_ok]
    have hc1 : cacheMatrix [("f", (File.asb (tapAsb T) : File Unit))] ("0" ++ ".k") ((tapAsb T).assembleK idealEnv) File.stiff =
        (Dict.set [("f", (File.asb (tapAsb T) : File Unit))] ("0" ++ ".k" ++ ".npy") (.stiff K), .ok K) := by
      rw [hK2]; rfl
    rw [hc1]
    simp only
    have hc2 : cacheMatrix (Dict.set [("f", (File.asb (tapAsb T) : File Unit))] ("0" ++ ".k" ++ ".npy") (.stiff K)) ("0" ++ ".m") (tapAsb T).assembleM File.mass =
        (Dict.set (Dict.set [("f", (File.asb (tapAsb T) : File Unit))] ("0" ++ ".k" ++ ".npy") (.stiff K)) ("0" ++ ".m" ++ ".npy") (.mass M), .ok M) := by
      rw [hM2]; rfl
    rw [hc2]
    simp only [hK_, hM_, hC_, Except.bind_ok, hcd]
    exact ⟨_, rfl⟩
  obtain ⟨fs', hrun⟩ := hrun
  refine ⟨fs', K, M, K_, M_, C_, hrun, hK2, hM2, hK_, hM_, hC_, ?_⟩
  intro z hz
  have hpos : 0 < 1 / h ^ 2 + 1 / (2 * h) * rayleighA0 0.05 0.02 2 1 := by have := rayleighA0_pos; positivity
  have := congrArg (fun w => z ⬝ᵥ w) hz
  simp only [hCd, dotProduct_zero, Matrix.add_mulVec, Matrix.smul_mulVec, dotProduct_add, dotProduct_smul, hMform, smul_eq_mul] at this
  have h0 : (1 / h ^ 2 + 1 / (2 * h) * rayleighA0 0.05 0.02 2 1) * (z ⬝ᵥ z) = 0 := by rw [← this]; ring
  exact dotProduct_self_eq_zero.mp ((mul_eq_zero.mp h0).resolve_left hpos.ne')

/-- A bounded history has no factor beyond `-1`. -/
theorem growth_unbounded {a b z g B : ℝ} (ha : 0 ≤ a) (hz : z < -1) (hg : g ≠ 0)
    (q : ℕ → ℕ → ℝ) (hq : ∀ T, ∀ t ≤ T, |q T t| ≤ B)
    (he : ∀ T t, t + 2 ≤ T → a * (q T (t + 2) + z * q T (t + 1)) + b * q T t = z ^ (t + 1) * g) : False := by
  have hz1 : 1 < |z| := by rw [abs_of_neg (by linarith)]; linarith
  have hgp : 0 < |g| := abs_pos.mpr hg
  obtain ⟨t, ht⟩ := pow_unbounded_of_one_lt ((a * (B + |z| * B) + |b| * B) / |g|) hz1
  rw [div_lt_iff₀ hgp] at ht
  have e := he (t + 2) t le_rfl
  have e2 := congrArg abs e
  rw [abs_mul (z ^ (t + 1)), abs_pow, pow_succ] at e2
  have b1 := hq (t + 2) (t + 2) le_rfl
  have b2 := hq (t + 2) (t + 1) (by omega)
  have b3 := hq (t + 2) t (by omega)
  have u1 : |a * (q (t + 2) (t + 2) + z * q (t + 2) (t + 1)) + b * q (t + 2) t| ≤ a * (B + |z| * B) + |b| * B := by
    refine (abs_add_le _ _).trans (add_le_add ?_ ?_)
    · rw [abs_mul, abs_of_nonneg ha]
      refine mul_le_mul_of_nonneg_left ((abs_add_le _ _).trans (add_le_add b1 ?_)) ha
      rw [abs_mul]
      exact mul_le_mul_of_nonneg_left b2 (abs_nonneg _)
    · rw [abs_mul]
      exact mul_le_mul_of_nonneg_left b3 (abs_nonneg _)
  rw [e2] at u1
  have : |z| ^ t * |g| ≤ |z| ^ t * |z| * |g| := by
    have := pow_pos (lt_trans one_pos hz1) t
    nlinarith [mul_pos this hgp]
  linarith

theorem C164_false : ¬ C164_claim := by
  intro H
  have hmodel : (World.init.run idealEnv massCalls).api.model = massModel := by rw [mass_run]
  set d : ℝ := rayleighA0 0.05 0.02 2 1 with hd
  have hd2 : d = 0.02 / (3 * Real.pi) * ((4 * Real.pi) ^ 2 - 0) := by
    rw [hd, rayleigh_in_use.1]; ring
  obtain ⟨h0, hh0, H⟩ := H idealEnv exactCg exactCg_sound massCalls (mass_noReadd _) pushHeap (by
    intro T x K M K_ C_ hx hK hM hK_ hC_ v
    rw [hmodel, tap_mk] at hx
    cases hx
    obtain ⟨-, K', M', K_', M_', C_', -, k1, k2, k3, k4, k5, -⟩ := tap_runs T 1 one_pos
    rw [hK] at k1; cases k1
    rw [hM] at k2; cases k2
    rw [hK_] at k3; cases k3
    rw [hC_] at k5; cases k5
    obtain ⟨-, -, hMform, hCd⟩ := tap_forms idealEnv T hK hM hK_ k4 hC_
    rw [hCd, smul_mulVec, dotProduct_smul, hMform, smul_eq_mul]
    exact mul_nonneg rayleighA0_pos.le ((Finset.sum_nonneg fun i _ => mul_self_nonneg (v i))))
  obtain ⟨h1, hh1, hroot⟩ := C164_small_steps 0 d
  set h := min h0 h1 / 2 with hh
  have hmin : 0 < min h0 h1 := lt_min hh0 hh1
  have hp : 0 < h := by rw [hh]; linarith
  have hl0 : h < h0 := by have := min_le_left h0 h1; rw [hh]; linarith
  have hl1 : h < h1 := by have := min_le_right h0 h1; rw [hh]; linarith
  obtain ⟨hc, z, hz, hzf⟩ := hroot h hp hl1
  obtain ⟨B, HB⟩ := H h hp hl0
  have hrow : ∀ T, ∃ q : ℕ → ℝ, (∀ t ≤ T, |q t| ≤ B) ∧ ∀ t, t + 2 ≤ T →
      (1 + d * h / 2) * (q (t + 2) + z * q (t + 1)) + ((1 + d * h / 2) * z ^ 2 - (2 - 0 * h ^ 2)) * q t = z ^ (t + 1) * (h ^ 2 * 1) := by
    intro T
    obtain ⟨fs', K, M, K_, M_, C_, hrun, hK, hM, hK_, hM_, hC_, hinj⟩ := tap_runs T h hp
    obtain ⟨h6, hK0, hMform, hCd⟩ := tap_forms idealEnv T hK hM hK_ hM_ hC_
    set i0 : Fin K_.nrow := ⟨0, by rw [h6]; omega⟩ with hi0
    obtain ⟨T', U, g1, g2, g3⟩ := C164_growth idealEnv exactCg exactCg_sound massCalls (mass_noReadd _) [tapCase T] pushHeap (tapAsb T)
      (by rw [hmodel]; exact tap_mk T) [("f", (File.asb (tapAsb T) : File Unit))] fs' "f" "H" rfl ⟨h, 0.05, none⟩ hp.ne' (tapCase T) rfl
      (by simp [tapCase, Dict.WF, Dict.keys]) hrun K M K_ M_ C_ hK hM hK_ hM_ hC_ hinj (Pi.single i0 1) 0 d (by rw [hK0]; simp) hd2 hc.ne'
      (Pi.single i0 1) (by
        intro t f f_ hf hf_
        by_cases ht : t ≤ T
        · obtain ⟨f', k1, k2, k3⟩ := tap_load T t ht
          rw [hf] at k1; cases k1
          rw [tap_vector T k2] at hf_
          cases hf_
          apply List.ext_getElem
          · simp [h6]
          · intro i i1 i2
            have hi : i < 6 := by simpa using i1
            simp only [List.getElem_map, List.getElem_range, List.getElem_ofFn, k3 i hi]
            by_cases h0 : t = 0
            · simp only [h0, true_and, if_true, Pi.single_apply, hi0, Fin.mk.injEq]
            · simp [h0]
        · exfalso
          have herr : (tapAsb T).assembleF "H" t = .error .indexError := by
            have hcv : LoadCase.curveAt (1 :: List.replicate T 0) t = .error .indexError := by
              unfold LoadCase.curveAt
              rw [List.getElem?_eq_none (by simp; omega)]
            have hn : (tapCase T).getNodalF pushHeap "A" t = .error .indexError := by
              unfold LoadCase.getNodalF
              have h1 : (tapCase T).loadFactor = [("P", 1)] := rfl
              have h2 : (tapCase T).pattern.getItem "P" = .ok 0 := rfl
              have h3 : PatHeap.deref pushHeap 0 = .ok ⟨"P", [("A", ![1, 0, 0, 0, 0, 0])], [], [], []⟩ := rfl
              have h4 : LoadPattern.getNodalF ⟨"P", [("A", ![1, 0, 0, 0, 0, 0])], [], [], []⟩ "A" = some ![1, 0, 0, 0, 0, 0] := rfl
              have h5 : (tapCase T).loadCurve.getItem "P" = .ok (1 :: List.replicate T 0) := rfl
              rw [h1, List.foldlM_cons]
              simp only [h2, h3, h4, h5, hcv, Except.bind_ok]
              rfl
            unfold Assembly.assembleF
            have h1 : (tapAsb T).cases.getItem "H" = .ok (tapCase T) := rfl
            have h2 : (tapAsb T).model.nodes.keys = ["A"] := rfl
            rw [h1, Except.bind_ok, h2, List.mapM_cons]
            unfold Assembly.nodeFTriplets
            have h3 : (tapAsb T).model.nodes.getItem "A" = .ok { stdNode "A" 0 0 0 with mass := fun _ => 1 } := rfl
            have h4 : (tapAsb T).heap = pushHeap := rfl
            rw [h3, Except.bind_ok, h4, hn]
            rfl
          rw [herr] at hf
          cases hf)
    have hT : T' = T + 1 := by
      obtain ⟨⟨cv, m1, m2⟩, -⟩ := g1
      have : (tapCase T).loadCurve.values = [1 :: List.replicate T 0] := rfl
      rw [this, List.mem_singleton] at m1
      rw [← m2, m1]; simp
    have hq : ∀ t, Pi.single i0 1 ⬝ᵥ (M_.dense K_.nrow *ᵥ U t) = U t i0 := by
      intro t; rw [hMform]; simp
    refine ⟨fun t => U t i0, ?_, ?_⟩
    · intro t ht
      refine HB T (tapAsb T) (by rw [hmodel]; exact tap_mk T) fs' _ hrun g2 (List.ofFn (U t)) ?_ _ ?_
      · exact List.mem_map.mpr ⟨t, List.mem_range.mpr (by omega), rfl⟩
      · exact (List.mem_ofFn' _ _).mpr ⟨i0, rfl⟩
    · intro t ht
      have := g3 z hzf t (by omega)
      simp only [hq] at this
      have e : (Pi.single i0 1 : Vec K_.nrow) ⬝ᵥ Pi.single i0 1 = 1 := by simp
      rw [e] at this
      exact this
  choose q hq1 hq2 using hrow
  exact growth_unbounded (a := 1 + d * h / 2) (b := (1 + d * h / 2) * z ^ 2 - (2 - 0 * h ^ 2)) (g := h ^ 2 * 1) hc.le hz (by positivity) q hq1 hq2

end Hyperstatic
