import Verif.Spec.Dynamic
import Verif.Lemmas.Demo
import Mathlib.Analysis.Real.Pi.Bounds

/-
C54 (coefficients), C55, C56, C60: damping, time-history loads and implicit time stepping.
-/

namespace Hyperstatic
open Matrix Spec

/-! ### C54 Rayleigh damping meets its two target ratios -/

theorem rayleigh_ratio (wi wj xi xj : ℝ) (hi : wi ≠ 0) (hj : wj ≠ 0) (hne : wj ^ 2 - wi ^ 2 ≠ 0) :
    2 * wi * wj / (wj ^ 2 - wi ^ 2) * (xi * wj - xj * wi) + 2 * wi * wj / (wj ^ 2 - wi ^ 2) * (-xi / wj + xj / wi) * wi ^ 2 = 2 * xi * wi ∧
    2 * wi * wj / (wj ^ 2 - wi ^ 2) * (xi * wj - xj * wi) + 2 * wi * wj / (wj ^ 2 - wi ^ 2) * (-xi / wj + xj / wi) * wj ^ 2 = 2 * xj * wj := by
  constructor
  · field_simp
    ring
  · field_simp
    ring

/-- The damping matrix `a0 M + a1 K` formed with the code's coefficients for two ratios and two distinct positive periods damps every
vibration mode of the first period with the first ratio and every mode of the second period with the second ratio: on a mode with
circular frequency ω the damping force is `2 ξ ω` times the inertia force. -/
theorem C54_target_ratios {n : ℕ} (K M : Matrix (Fin n) (Fin n) ℝ) (xi_i xi_j T_i T_j : ℝ) (hi : 0 < T_i) (hj : 0 < T_j)
    (hne : T_i ≠ T_j) (phi : Vec n) :
    (K *ᵥ phi = (2 * Real.pi / T_i) ^ 2 • (M *ᵥ phi) →
      (rayleighA0 xi_i xi_j T_i T_j • M + rayleighA1 xi_i xi_j T_i T_j • K) *ᵥ phi = (2 * xi_i * (2 * Real.pi / T_i)) • (M *ᵥ phi)) ∧
    (K *ᵥ phi = (2 * Real.pi / T_j) ^ 2 • (M *ᵥ phi) →
      (rayleighA0 xi_i xi_j T_i T_j • M + rayleighA1 xi_i xi_j T_i T_j • K) *ᵥ phi = (2 * xi_j * (2 * Real.pi / T_j)) • (M *ᵥ phi)) := by
  have hpi := Real.pi_pos
  have h1 : 2 * Real.pi / T_i ≠ 0 := by positivity
  have h2 : 2 * Real.pi / T_j ≠ 0 := by positivity
  have h3 : (2 * Real.pi / T_j) ^ 2 - (2 * Real.pi / T_i) ^ 2 ≠ 0 := by
    intro h
    have h4 : (2 * Real.pi / T_j) ^ 2 = (2 * Real.pi / T_i) ^ 2 := by linarith
    have h5 : 2 * Real.pi / T_j = 2 * Real.pi / T_i := by
      rw [sq_eq_sq₀ (by positivity) (by positivity)] at h4
      exact h4
    apply hne
    field_simp at h5
    linarith
  obtain ⟨r1, r2⟩ := rayleigh_ratio _ _ xi_i xi_j h1 h2 h3
  constructor
  · intro h
    rw [Matrix.add_mulVec, Matrix.smul_mulVec, Matrix.smul_mulVec, h, smul_smul, ← add_smul]
    congr 1
  · intro h
    rw [Matrix.add_mulVec, Matrix.smul_mulVec, Matrix.smul_mulVec, h, smul_smul, ← add_smul]
    congr 1

/-- two single-mass oscillators with periods 2 and 1, unit mass: their modes meet the hypotheses -/
example : (Matrix.diagonal ![Real.pi ^ 2, 4 * Real.pi ^ 2] : Matrix (Fin 2) (Fin 2) ℝ) *ᵥ ![1, 0] = (2 * Real.pi / 2) ^ 2 • ((1 : Matrix (Fin 2) (Fin 2) ℝ) *ᵥ ![1, 0]) ∧
    (Matrix.diagonal ![Real.pi ^ 2, 4 * Real.pi ^ 2] : Matrix (Fin 2) (Fin 2) ℝ) *ᵥ ![0, 1] = (2 * Real.pi / 1) ^ 2 • ((1 : Matrix (Fin 2) (Fin 2) ℝ) *ᵥ ![0, 1]) := by
  constructor <;> (ext i; fin_cases i <;> simp [Matrix.mulVec_diagonal] <;> ring)

/-! ### C55 Time-history load equals the step loads -/

theorem Dict.mem_of_get? {α : Type} {d : Dict α} {k : String} {v : α} (h : d.get? k = some v) : (k, v) ∈ d := by
  induction d with
  | nil => simp [Dict.get?] at h
  | cons p d ih =>
    obtain ⟨k', v'⟩ := p
    rw [Dict.get?] at h
    split at h
    · rename_i e; cases h; subst e; exact List.mem_cons_self
    · exact List.mem_cons_of_mem _ (ih h)

theorem foldl_max_values (l : List (List ℝ)) (n : ℕ) (h : ∀ v ∈ l, v.length = n) (m : ℕ) :
    l.foldl (fun m v => max v.length m) m = if l = [] then m else max n m := by
  induction l generalizing m with
  | nil => rfl
  | cons v l ih =>
    rw [List.foldl_cons, ih (fun w hw => h w (List.mem_cons_of_mem _ hw)), h v List.mem_cons_self]
    by_cases hl : l = []
    · simp [hl]
    · simp [hl]

/-- the body of the loop of `get_nodal_f` -/
def stepBody (h : PatHeap) (c : LoadCase) (node : String) (t : ℕ) (fn : Vec 6) (it : String × ℝ) : Except PyErr (Vec 6) := do
  let ref ← c.pattern.getItem it.1
  let pat ← h.deref ref
  match pat.getNodalF node with
  | none => pure fn
  | some f => do
      let curve ← c.loadCurve.getItem it.1
      let s ← LoadCase.curveAt curve t
      pure (fn + fun i => f i * it.2 * s)

/-- the body of the loop of `get_nodal_f_time_history` -/
def histBody (h : PatHeap) (c : LoadCase) (node : String) (fn : List (Vec 6)) (it : String × ℝ) : Except PyErr (List (Vec 6)) := do
  let ref ← c.pattern.getItem it.1
  let pat ← h.deref ref
  let curve ← c.loadCurve.getItem it.1
  match pat.getNodalF node with
  | none => pure fn
  | some f =>
      let outer : List (Vec 6) := curve.map (fun s => fun i => s * f i * it.2)
      if outer.length = fn.length then pure (List.zipWith (fun a b => a + b) fn outer)
      else match outer with
        | [row] => pure (fn.map (fun a => a + row))
        | _ => .error .valueError

theorem hist_step {h : PatHeap} {c : LoadCase} {node : String} {n : ℕ} (hlen : ∀ v ∈ c.loadCurve.values, v.length = n)
    {fn fn' : List (Vec 6)} {it : String × ℝ} (hfn : fn.length = n) (hs : histBody h c node fn it = .ok fn') :
    fn'.length = n ∧ ∀ t a a', fn[t]? = some a → fn'[t]? = some a' → stepBody h c node t a it = .ok a' := by
  unfold histBody at hs
  simp only [Except.bind_ok_iff] at hs
  obtain ⟨ref, h1, pat, h2, curve, h3, hs⟩ := hs
  have hcl : curve.length = n := by
    rw [Dict.getItem_eq_ok_iff] at h3
    exact hlen curve (List.mem_map.mpr ⟨(it.1, curve), Dict.mem_of_get? h3, rfl⟩)
  unfold stepBody
  simp only [h1, Except.bind_ok, h2]
  cases hf : pat.getNodalF node with
  | none =>
    rw [hf] at hs
    simp only [Except.pure_eq_ok, Except.ok.injEq] at hs
    subst hs
    refine ⟨hfn, fun t a a' ha ha' => ?_⟩
    rw [ha] at ha'
    cases ha'
    rfl
  | some f =>
    rw [hf] at hs
    simp only [List.length_map, hcl, hfn, if_true, Except.pure_eq_ok, Except.ok.injEq] at hs
    subst hs
    refine ⟨by simp [hfn, hcl], fun t a a' ha ha' => ?_⟩
    rw [List.getElem?_zipWith, ha, List.getElem?_map] at ha'
    cases hc : curve[t]? with
    | none => simp [hc] at ha'
    | some s =>
      simp only [hc, Option.map_some, Option.some.injEq] at ha'
      simp only [h3, Except.bind_ok, LoadCase.curveAt, hc, Except.pure_eq_ok, Except.ok.injEq]
      rw [← ha']
      funext i
      simp only [Pi.add_apply]
      ring

theorem hist_fold {h : PatHeap} {c : LoadCase} {node : String} {n : ℕ} (hlen : ∀ v ∈ c.loadCurve.values, v.length = n)
    (its : List (String × ℝ)) {fn rows : List (Vec 6)} (hfn : fn.length = n) (hs : its.foldlM (histBody h c node) fn = .ok rows) :
    rows.length = n ∧ ∀ t a a', fn[t]? = some a → rows[t]? = some a' → its.foldlM (stepBody h c node t) a = .ok a' := by
  induction its generalizing fn with
  | nil =>
    simp only [List.foldlM_nil, Except.pure_eq_ok, Except.ok.injEq] at hs
    subst hs
    refine ⟨hfn, fun t a a' ha ha' => ?_⟩
    rw [ha] at ha'; cases ha'; rfl
  | cons it its ih =>
    rw [List.foldlM_cons, Except.bind_ok_iff] at hs
    obtain ⟨fn', h1, h2⟩ := hs
    obtain ⟨l1, s1⟩ := hist_step hlen hfn h1
    obtain ⟨l2, s2⟩ := ih l1 h2
    refine ⟨l2, fun t a a' ha ha' => ?_⟩
    have ht : t < fn'.length := by
      rw [l1, ← l2]
      exact (List.getElem?_eq_some_iff.mp ha').1
    rw [List.foldlM_cons, s1 t a _ ha (List.getElem?_eq_getElem ht), Except.bind_ok]
    exact s2 t _ a' (List.getElem?_eq_getElem ht) ha'

/-- If all load curves of a case have the same number `n` of values and the case has at least one curve, then the time history of a
node's load, when it can be computed, has `n` rows, and row `t` is the load of the node at step `t`, for every node and every step. -/
theorem C55_rows (h : PatHeap) (c : LoadCase) (node : String) (n : ℕ) (hne : c.loadCurve ≠ [])
    (hlen : ∀ curve ∈ c.loadCurve.values, curve.length = n) (rows : List (Vec 6)) (hr : c.getNodalFTimeHistory h node = .ok rows) :
    rows.length = n ∧ ∀ t row, rows[t]? = some row → c.getNodalF h node t = .ok row := by
  have hv : c.loadCurve.values ≠ [] := by
    intro h0; exact hne (List.map_eq_nil_iff.mp h0)
  have hm : c.loadCurve.values.foldl (fun m v => max v.length m) 0 = n := by
    rw [foldl_max_values _ n hlen, if_neg hv, Nat.max_zero]
  have e : c.getNodalFTimeHistory h node = c.loadFactor.foldlM (histBody h c node) (List.replicate n (fun _ => 0)) := by
    unfold LoadCase.getNodalFTimeHistory
    rw [hm]
    rfl
  rw [e] at hr
  obtain ⟨h1, h2⟩ := hist_fold hlen c.loadFactor (by simp) hr
  refine ⟨h1, fun t row ht => ?_⟩
  have htn : t < n := by rw [← h1]; exact (List.getElem?_eq_some_iff.mp ht).1
  exact h2 t _ row (by rw [List.getElem?_replicate, if_pos htn]) ht

/-- It can be computed whenever every pattern with a factor was added to the case (has a pattern object and a curve). -/
theorem C55_defined (h : PatHeap) (c : LoadCase) (node : String) (n : ℕ) (hne : c.loadCurve ≠ [])
    (hlen : ∀ curve ∈ c.loadCurve.values, curve.length = n)
    (hok : ∀ p ∈ c.loadFactor.keys, (∃ r, c.pattern.get? p = some r ∧ r < h.length) ∧ p ∈ c.loadCurve.keys) :
    ∃ rows, c.getNodalFTimeHistory h node = .ok rows := by
  have hv : c.loadCurve.values ≠ [] := by
    intro h0; exact hne (List.map_eq_nil_iff.mp h0)
  have hm : c.loadCurve.values.foldl (fun m v => max v.length m) 0 = n := by
    rw [foldl_max_values _ n hlen, if_neg hv, Nat.max_zero]
  have e : c.getNodalFTimeHistory h node = c.loadFactor.foldlM (histBody h c node) (List.replicate n (fun _ => 0)) := by
    unfold LoadCase.getNodalFTimeHistory
    rw [hm]
    rfl
  rw [e]
  have key : ∀ (its : List (String × ℝ)) (fn : List (Vec 6)), fn.length = n → (∀ it ∈ its, it.1 ∈ c.loadFactor.keys) →
      ∃ rows, its.foldlM (histBody h c node) fn = .ok rows := by
    intro its
    induction its with
    | nil => intro fn _ _; exact ⟨fn, rfl⟩
    | cons it its ih =>
      intro fn hfn hits
      obtain ⟨⟨r, h1, h2⟩, h3⟩ := hok it.1 (hits it List.mem_cons_self)
      obtain ⟨curve, h4⟩ := dict_mem_keys h3
      have hcl : curve.length = n := hlen curve (List.mem_map.mpr ⟨(it.1, curve), Dict.mem_of_get? h4, rfl⟩)
      have hex : ∃ fn', histBody h c node fn it = .ok fn' := by
        unfold histBody
        rw [Dict.getItem_of_some h1, Except.bind_ok]
        unfold PatHeap.deref
        rw [List.getElem?_eq_getElem h2]
        simp only [Except.bind_ok, Dict.getItem_of_some h4]
        cases (h[r]).getNodalF node with
        | none => exact ⟨fn, rfl⟩
        | some f =>
          simp only [List.length_map, hcl, hfn, if_true]
          exact ⟨_, rfl⟩
      obtain ⟨fn', hfn'⟩ := hex
      obtain ⟨rows, hrows⟩ := ih fn' (hist_step hlen hfn hfn').1 (fun i hi => hits i (List.mem_cons_of_mem _ hi))
      exact ⟨rows, by rw [List.foldlM_cons, hfn', Except.bind_ok, hrows]⟩
  refine key c.loadFactor _ (by simp) ?_
  intro it hit
  exact List.mem_map.mpr ⟨it, hit, rfl⟩

/-- a case with two patterns, curves of three values, both loading node "B" -/
example : ∃ (h : PatHeap) (c : LoadCase) (rows : List (Vec 6)), c.loadCurve ≠ [] ∧ (∀ curve ∈ c.loadCurve.values, curve.length = 3) ∧
    c.getNodalFTimeHistory h "B" = .ok rows ∧ c.loadFactor.length = 2 := by
  let h : PatHeap := [(LoadPattern.new "P").setNodalLoad "B" ![1, 2, 3, 4, 5, 6], (LoadPattern.new "Q").setNodalLoad "B" ![0, 0, 1, 0, 0, 0]]
  let c := ((LoadCase.new "C" .timeHistory).addPattern "P" 0 2 (some [1, 2, 3])).addPattern "Q" 1 5 (some [0, 1, 0])
  have h1 : c.loadCurve ≠ [] := by simp [c, LoadCase.addPattern, LoadCase.new, Dict.set]
  have h2 : ∀ curve ∈ c.loadCurve.values, curve.length = 3 := by
    intro curve hc
    simp [c, LoadCase.addPattern, LoadCase.new, Dict.set, Dict.values] at hc
    rcases hc with rfl | rfl <;> rfl
  obtain ⟨rows, hr⟩ := C55_defined h c "B" 3 h1 h2 (by
    intro p hp
    simp [c, LoadCase.addPattern, LoadCase.new, Dict.set, Dict.keys] at hp
    rcases hp with rfl | rfl
    · exact ⟨⟨0, rfl, by decide⟩, by simp [c, LoadCase.addPattern, LoadCase.new, Dict.set, Dict.keys]⟩
    · exact ⟨⟨1, rfl, by decide⟩, by simp [c, LoadCase.addPattern, LoadCase.new, Dict.set, Dict.keys]⟩)
  exact ⟨h, c, rows, h1, h2, hr, rfl⟩

/-! ### C56 Implicit time stepping satisfies the equation of motion -/

theorem march_spec {n : ℕ} {step : Motion n → Vec n → Except PyErr (Motion n)} (ps : List (ℝ × Vec n)) :
    ∀ {s : Motion n} {l : List (ℝ × Motion n)}, marchFrom step s ps = .ok l → l.length = ps.length ∧
      ∀ (k : ℕ) (t : ℝ) (f : Vec n) (p : Motion n) (q : ℝ × Motion n), ps[k]? = some (t, f) → (s :: l.map Prod.snd)[k]? = some p → l[k]? = some q → q.1 = t ∧ step p f = .ok q.2 := by
  induction ps with
  | nil =>
    intro s l h
    simp only [marchFrom, Except.ok.injEq] at h
    subst h
    exact ⟨rfl, by intro k t f p q hk; simp at hk⟩
  | cons p ps ih =>
    obtain ⟨t0, f0⟩ := p
    intro s l h
    simp only [marchFrom, Except.bind_ok_iff, Except.pure_eq_ok, Except.ok.injEq] at h
    obtain ⟨s', h1, l', h2, rfl⟩ := h
    obtain ⟨h3, h4⟩ := ih h2
    refine ⟨by simp [h3], ?_⟩
    intro k t f p q hk hp hq
    cases k with
    | zero =>
      simp only [List.getElem?_cons_zero, Option.some.injEq, Prod.mk.injEq] at hk hp hq
      obtain ⟨rfl, rfl⟩ := hk
      subst hp hq
      exact ⟨rfl, h1⟩
    | succ k =>
      simp only [List.getElem?_cons_succ, List.map_cons] at hk hp hq
      exact h4 k t f p q hk hp hq

theorem implicit_spec {dyn : DynEnv} (hs : dyn.SolveSound) {n : ℕ} {K C M : Matrix (Fin n) (Fin n) ℝ} {b : StepConsts}
    {s s' : Motion n} {f : Vec n} (h : implicitStep dyn K C M b s f = .ok s') :
    EquationOfMotion K C M f s' ∧ s'.v = b.b4 • (s'.u - s.u) + b.b5 • s.v + b.b6 • s.a ∧
      s'.a = b.b1 • (s'.u - s.u) + b.b2 • s.v + b.b3 • s.a := by
  unfold implicitStep at h
  simp only [Except.bind_ok_iff, Except.pure_eq_ok, Except.ok.injEq] at h
  obtain ⟨u, hu, rfl⟩ := h
  have hsol := hs _ _ _ _ hu
  refine ⟨?_, rfl, rfl⟩
  unfold EquationOfMotion
  simp only
  rw [Matrix.add_mulVec, Matrix.add_mulVec, Matrix.smul_mulVec, Matrix.smul_mulVec] at hsol
  have e : ∀ (A : Matrix (Fin n) (Fin n) ℝ) (c1 c2 c3 : ℝ), A *ᵥ (c1 • (u - s.u) + c2 • s.v + c3 • s.a) =
      c1 • (A *ᵥ u) - A *ᵥ (c1 • s.u - c2 • s.v - c3 • s.a) := by
    intro A c1 c2 c3
    rw [← Matrix.mulVec_smul, ← Matrix.mulVec_sub]
    congr 1
    funext i
    simp only [Pi.add_apply, Pi.sub_apply, Pi.smul_apply, smul_eq_mul]
    ring
  rw [e, e]
  funext i
  have := congrFun hsol i
  simp only [Pi.add_apply, Pi.sub_apply, Pi.smul_apply, smul_eq_mul] at this ⊢
  linarith

theorem newmark_rel {beta gamma dt : ℝ} {b : StepConsts} (hb : newmarkConsts beta gamma dt = .ok b) {n : ℕ} {s s' : Motion n}
    (hv : s'.v = b.b4 • (s'.u - s.u) + b.b5 • s.v + b.b6 • s.a) (ha : s'.a = b.b1 • (s'.u - s.u) + b.b2 • s.v + b.b3 • s.a) :
    NewmarkVel gamma dt s s' ∧ s'.u = s.u + dt • s.v + dt ^ 2 • (-(1 / 2 - beta) • s.a + beta • s'.a) := by
  unfold newmarkConsts at hb
  split at hb
  · cases hb
  · rename_i hne
    simp only [Except.ok.injEq] at hb
    obtain ⟨hb0, hd0⟩ : beta ≠ 0 ∧ dt ≠ 0 := by
      constructor <;> (intro h0; apply hne; rw [h0]; ring)
    subst hb
    constructor
    · unfold NewmarkVel
      funext i
      have h1 := congrFun hv i
      have h2 := congrFun ha i
      simp only [Pi.add_apply, Pi.sub_apply, Pi.smul_apply, smul_eq_mul] at h1 h2 ⊢
      rw [h1, h2]
      field_simp
      ring
    · funext i
      have h2 := congrFun ha i
      simp only [Pi.add_apply, Pi.sub_apply, Pi.smul_apply, smul_eq_mul] at h2 ⊢
      rw [h2]
      field_simp
      ring

/-- Everything a user of Newmark's method relies on: the table starts with the initial state, and each row satisfies the equation of
motion for the load of its step and Newmark's two relations to the row before. -/
def C56_claim : Prop :=
  ∀ (dyn : DynEnv), dyn.SolveSound → ∀ (n : ℕ) (K C M : Matrix (Fin n) (Fin n) ℝ) (T : List ℝ) (F : List (Vec n)) (s0 : Motion n)
    (beta gamma : ℝ) (table : List (ℝ × Motion n)), newmarkBeta dyn K C M T F s0 beta gamma = .ok table →
    ∀ t0 t1, T[0]? = some t0 → T[1]? = some t1 →
    table[0]? = some (0, s0) ∧
    ∀ k f p q, F[k]? = some f → table[k]? = some p → table[k + 1]? = some q →
      T[k]? = some q.1 ∧ EquationOfMotion K C M f q.2 ∧ NewmarkVel gamma (t1 - t0) p.2 q.2 ∧ NewmarkDisp beta (t1 - t0) p.2 q.2

/-- Proved: the initial row, the length, the times, the equation of motion and the velocity relation at every step of every run.
Missing: the displacement relation; what holds in its place has the old acceleration with the opposite sign. -/
theorem C56_newmark_partial (dyn : DynEnv) (hs : dyn.SolveSound) (n : ℕ) (K C M : Matrix (Fin n) (Fin n) ℝ) (T : List ℝ)
    (F : List (Vec n)) (s0 : Motion n) (beta gamma : ℝ) (table : List (ℝ × Motion n))
    (h : newmarkBeta dyn K C M T F s0 beta gamma = .ok table) (t0 t1 : ℝ) (h0 : T[0]? = some t0) (h1 : T[1]? = some t1) :
    table.length = min T.length F.length + 1 ∧ table[0]? = some (0, s0) ∧
    ∀ k f p q, F[k]? = some f → table[k]? = some p → table[k + 1]? = some q →
      T[k]? = some q.1 ∧ EquationOfMotion K C M f q.2 ∧ NewmarkVel gamma (t1 - t0) p.2 q.2 ∧
      q.2.u = p.2.u + (t1 - t0) • p.2.v + (t1 - t0) ^ 2 • (-(1 / 2 - beta) • p.2.a + beta • q.2.a) := by
  have hT : ∃ rest, T = t0 :: t1 :: rest := by
    match T, h0, h1 with
    | a :: b :: rest, h0, h1 =>
      simp only [List.getElem?_cons_zero, List.getElem?_cons_succ, Option.some.injEq] at h0 h1
      exact ⟨rest, by rw [h0, h1]⟩
  obtain ⟨rest, hT⟩ := hT
  unfold newmarkBeta at h
  simp only [Except.bind_ok_iff, Except.pure_eq_ok, Except.ok.injEq] at h
  obtain ⟨dt, hdt, b, hb, l, hl, rfl⟩ := h
  have hdt' : dt = t1 - t0 := by
    rw [hT] at hdt
    simp only [uniformStep, Except.ok.injEq] at hdt
    exact hdt.symm
  subst hdt'
  obtain ⟨m1, m2⟩ := march_spec _ hl
  refine ⟨by simp [m1], rfl, ?_⟩
  intro k f p q hf hp hq
  simp only [List.getElem?_cons_succ] at hq
  have hk : k < (T.zip F).length := by rw [← m1]; exact (List.getElem?_eq_some_iff.mp hq).1
  have hz : ∃ t, T[k]? = some t ∧ (T.zip F)[k]? = some (t, f) := by
    have hkT : k < T.length := by simp at hk; omega
    refine ⟨T[k], List.getElem?_eq_getElem hkT, ?_⟩
    rw [List.getElem?_zip_eq_some]
    exact ⟨List.getElem?_eq_getElem hkT, hf⟩
  obtain ⟨t, ht, hz⟩ := hz
  have hp' : (s0 :: l.map Prod.snd)[k]? = some p.2 := by
    have := congrArg (Option.map Prod.snd) hp
    rw [← List.getElem?_map] at this
    simpa using this
  obtain ⟨e1, e2⟩ := m2 k t f p.2 q hz hp' hq
  obtain ⟨a1, a2, a3⟩ := implicit_spec hs e2
  obtain ⟨b1, b2⟩ := newmark_rel hb a2 a3
  exact ⟨by rw [ht, e1], a1, b1, b2⟩

/-- The displacement relation does hold from a state without acceleration, and for β = 1/2. -/
theorem C56_displacement_partial (dyn : DynEnv) (hs : dyn.SolveSound) (n : ℕ) (K C M : Matrix (Fin n) (Fin n) ℝ) (T : List ℝ)
    (F : List (Vec n)) (s0 : Motion n) (beta gamma : ℝ) (table : List (ℝ × Motion n))
    (h : newmarkBeta dyn K C M T F s0 beta gamma = .ok table) (t0 t1 : ℝ) (h0 : T[0]? = some t0) (h1 : T[1]? = some t1)
    (k : ℕ) (f : Vec n) (p q : ℝ × Motion n) (hf : F[k]? = some f) (hp : table[k]? = some p) (hq : table[k + 1]? = some q) :
    NewmarkDisp beta (t1 - t0) p.2 q.2 ↔ t1 = t0 ∨ beta = 1 / 2 ∨ p.2.a = 0 := by
  obtain ⟨_, _, hall⟩ := C56_newmark_partial dyn hs n K C M T F s0 beta gamma table h t0 t1 h0 h1
  obtain ⟨_, _, _, hu⟩ := hall k f p q hf hp hq
  unfold NewmarkDisp
  constructor
  · intro hd
    by_contra hc
    push Not at hc
    obtain ⟨c1, c2, c3⟩ := hc
    apply c3
    funext i
    have e1 := congrFun hu i
    have e2 := congrFun hd i
    simp only [Pi.add_apply, Pi.smul_apply, smul_eq_mul] at e1 e2
    have e3 : (t1 - t0) ^ 2 * ((1 / 2 - beta) * p.2.a i) = 0 := by
      have e4 : p.2.u i + (t1 - t0) * p.2.v i + (t1 - t0) ^ 2 * (-(1 / 2 - beta) * p.2.a i + beta * q.2.a i) =
        p.2.u i + (t1 - t0) * p.2.v i + (t1 - t0) ^ 2 * ((1 / 2 - beta) * p.2.a i + beta * q.2.a i) := by rw [← e1, ← e2]
      linarith
    rcases mul_eq_zero.mp e3 with h' | h'
    · exact absurd (pow_eq_zero_iff (by decide) |>.mp h') (sub_ne_zero.mpr c1)
    · rcases mul_eq_zero.mp h' with h'' | h''
      · exact absurd (by linarith) c2
      · exact h''
  · rintro (h' | h' | h')
    · rw [hu, h']; simp
    · rw [hu, h']; norm_num
    · rw [hu, h']; simp

/-- an exact solver -/
noncomputable def exactSolve : DynEnv where
  eigsh := fun _ _ _ _ => .error .exception
  cg := fun _ _ _ => 0
  solve := fun _ A b => open Classical in if h : ∃ x, A *ᵥ x = b then .ok h.choose else .error .valueError

theorem exactSolve_sound : exactSolve.SolveSound := by
  intro n A b x h
  unfold exactSolve at h
  simp only at h
  split at h
  · rename_i hex
    cases h
    exact hex.choose_spec
  · cases h

theorem exactSolve_ok {n : ℕ} {A : Matrix (Fin n) (Fin n) ℝ} {b : Vec n} (h : ∃ x, A *ᵥ x = b) :
    ∃ x, exactSolve.solve n A b = .ok x := by
  unfold exactSolve
  simp only [dif_pos h]
  exact ⟨_, rfl⟩

/-- a mass on a spring released with acceleration 1: one step of the run -/
theorem oscillator_run : ∃ q, newmarkBeta exactSolve (1 : Matrix (Fin 1) (Fin 1) ℝ) 0 1 [0, 1] [0] ⟨0, 0, ![1]⟩ (1 / 4) (1 / 2) =
    .ok [(0, ⟨0, 0, ![1]⟩), (0, q)] := by
  have hsol : ∀ (c : ℝ) (b : Vec 1), c ≠ 0 → ∃ x, (c • (1 : Matrix (Fin 1) (Fin 1) ℝ)) *ᵥ x = b := by
    intro c b hc
    exact ⟨c⁻¹ • b, by rw [Matrix.smul_mulVec, Matrix.one_mulVec, smul_smul, mul_inv_cancel₀ hc, one_smul]⟩
  have e : (1 : Matrix (Fin 1) (Fin 1) ℝ) + (1 / 2 * 1 * (1 / (1 / 4 * 1 * 1)) : ℝ) • (0 : Matrix (Fin 1) (Fin 1) ℝ) +
      (1 / (1 / 4 * 1 * 1) : ℝ) • (1 : Matrix (Fin 1) (Fin 1) ℝ) = (5 : ℝ) • 1 := by
    ext i j
    simp [Matrix.one_apply]
    split <;> norm_num
  unfold newmarkBeta
  have hd : uniformStep [(0 : ℝ), 1] = .ok (1 - 0) := rfl
  have hc : newmarkConsts (1 / 4) (1 / 2) (1 - 0) = .ok ⟨1 / (1 / 4 * 1 * 1), -1 / (1 / 4 * 1), 1 / 2 / (1 / 4) - 1,
      1 / 2 * 1 * (1 / (1 / 4 * 1 * 1)), 1 + 1 / 2 * 1 * (-1 / (1 / 4 * 1)), 1 * (1 + 1 / 2 * (1 / 2 / (1 / 4) - 1) - 1 / 2)⟩ := by
    unfold newmarkConsts
    norm_num
  rw [hd, Except.bind_ok, hc, Except.bind_ok]
  have hz : ([(0 : ℝ), 1]).zip [(0 : Vec 1)] = [(0, 0)] := rfl
  rw [hz]
  simp only [marchFrom]
  unfold implicitStep
  simp only [e]
  obtain ⟨x, hx⟩ := exactSolve_ok (hsol 5 (0 + (1 : Matrix (Fin 1) (Fin 1) ℝ) *ᵥ ((1 / (1 / 4 * 1 * 1) : ℝ) • (0 : Vec 1) -
    (-1 / (1 / 4 * 1) : ℝ) • 0 - (1 / 2 / (1 / 4) - 1 : ℝ) • ![1]) + (0 : Matrix (Fin 1) (Fin 1) ℝ) *ᵥ
    ((1 / 2 * 1 * (1 / (1 / 4 * 1 * 1)) : ℝ) • 0 - (1 + 1 / 2 * 1 * (-1 / (1 / 4 * 1)) : ℝ) • 0 -
    (1 * (1 + 1 / 2 * (1 / 2 / (1 / 4) - 1) - 1 / 2) : ℝ) • ![1])) (by norm_num))
  rw [hx]
  exact ⟨_, rfl⟩

/-- The claim fails: the sign of one integration constant is wrong, so the displacements do not follow from the accelerations. -/
theorem C56_false : ¬ C56_claim := by
  intro h
  obtain ⟨q, hq⟩ := oscillator_run
  have h1 := (h exactSolve exactSolve_sound 1 1 0 1 [0, 1] [0] ⟨0, 0, ![1]⟩ (1 / 4) (1 / 2) _ hq 0 1 rfl rfl).2 0 0 _ _ rfl rfl rfl
  have h2 := (C56_displacement_partial exactSolve exactSolve_sound 1 1 0 1 [0, 1] [0] ⟨0, 0, ![1]⟩ (1 / 4) (1 / 2) _ hq 0 1 rfl rfl
    0 0 _ _ rfl rfl rfl).mp h1.2.2.2
  rcases h2 with h2 | h2 | h2
  · norm_num at h2
  · norm_num at h2
  · have := congrFun h2 0
    simp at this

/-- the run of the oscillator meets the hypotheses of the partial theorems -/
example : ∃ table, newmarkBeta exactSolve (1 : Matrix (Fin 1) (Fin 1) ℝ) 0 1 [0, 1] [0] ⟨0, 0, ![1]⟩ (1 / 4) (1 / 2) = .ok table ∧
    table.length = 2 := by
  obtain ⟨q, hq⟩ := oscillator_run
  exact ⟨_, hq, rfl⟩

/-! ### C60 Wilson's method -/

/-- The load of Wilson's method for step `k`: the load of the step itself for the first one, afterwards the load extrapolated from the
two neighbouring steps to `theta` times the step length. -/
def wilsonLoad {n : ℕ} (theta : ℝ) (F : List (Vec n)) (k : ℕ) : Option (Vec n) :=
  match k with
  | 0 => F[0]?
  | k + 1 => match F[k]?, F[k + 1]? with
    | some f, some f' => some (f + theta • (f' - f))
    | _, _ => none

theorem wilsonLoads_get {n : ℕ} {theta : ℝ} {F R : List (Vec n)} (h : wilsonLoads theta F = .ok R) (k : ℕ) :
    R[k]? = wilsonLoad theta F k := by
  cases F with
  | nil => cases h
  | cons f0 rest =>
    simp only [wilsonLoads, Except.ok.injEq] at h
    subst h
    cases k with
    | zero => rfl
    | succ k =>
      simp only [List.getElem?_cons_succ, wilsonLoad]
      rw [List.getElem?_zipWith]
      cases (f0 :: rest)[k]? <;> cases rest[k]? <;> rfl

/-- What a user of Wilson's method relies on: each row comes from the row before through a state at `theta` times the step length that
satisfies the equation of motion there and Newmark's two relations; accelerations in between are linear in time. -/
def C60_claim : Prop :=
  ∀ (dyn : DynEnv), dyn.SolveSound → ∀ (n : ℕ) (K C M : Matrix (Fin n) (Fin n) ℝ) (T : List ℝ) (F : List (Vec n)) (s0 : Motion n)
    (beta gamma theta : ℝ) (table : List (ℝ × Motion n)), wilsonTheta dyn K C M T F s0 beta gamma theta = .ok table →
    ∀ t0 t1, T[0]? = some t0 → T[1]? = some t1 →
    table[0]? = some (0, s0) ∧
    ∀ k f p q, wilsonLoad theta F k = some f → table[k]? = some p → table[k + 1]? = some q →
      T[k]? = some q.1 ∧ NewmarkVel gamma (t1 - t0) p.2 q.2 ∧ NewmarkDisp beta (t1 - t0) p.2 q.2 ∧
      ∃ e : Motion n, EquationOfMotion K C M f e ∧ theta • (q.2.a - p.2.a) = e.a - p.2.a ∧
        NewmarkVel gamma (theta * (t1 - t0)) p.2 e ∧ NewmarkDisp beta (theta * (t1 - t0)) p.2 e

/-- Proved: initial row, length, times, both Newmark relations between consecutive rows, the interpolation of the accelerations, the
equation of motion and the velocity relation of the extrapolated state.  Missing: its displacement relation, where the old
acceleration again enters with the opposite sign. -/
theorem C60_wilson_partial (dyn : DynEnv) (hs : dyn.SolveSound) (n : ℕ) (K C M : Matrix (Fin n) (Fin n) ℝ) (T : List ℝ)
    (F : List (Vec n)) (s0 : Motion n) (beta gamma theta : ℝ) (table : List (ℝ × Motion n))
    (h : wilsonTheta dyn K C M T F s0 beta gamma theta = .ok table) (t0 t1 : ℝ) (h0 : T[0]? = some t0) (h1 : T[1]? = some t1) :
    table.length = min T.length F.length + 1 ∧ table[0]? = some (0, s0) ∧
    ∀ k f p q, wilsonLoad theta F k = some f → table[k]? = some p → table[k + 1]? = some q →
      T[k]? = some q.1 ∧ NewmarkVel gamma (t1 - t0) p.2 q.2 ∧ NewmarkDisp beta (t1 - t0) p.2 q.2 ∧
      ∃ e : Motion n, EquationOfMotion K C M f e ∧ theta • (q.2.a - p.2.a) = e.a - p.2.a ∧
        NewmarkVel gamma (theta * (t1 - t0)) p.2 e ∧
        e.u = p.2.u + (theta * (t1 - t0)) • p.2.v + (theta * (t1 - t0)) ^ 2 • (-(1 / 2 - beta) • p.2.a + beta • e.a) := by
  have hT : ∃ rest, T = t0 :: t1 :: rest := by
    match T, h0, h1 with
    | a :: b :: rest, h0, h1 =>
      simp only [List.getElem?_cons_zero, List.getElem?_cons_succ, Option.some.injEq] at h0 h1
      exact ⟨rest, by rw [h0, h1]⟩
  obtain ⟨rest, hT⟩ := hT
  unfold wilsonTheta at h
  simp only [Except.bind_ok_iff, Except.pure_eq_ok, Except.ok.injEq] at h
  obtain ⟨dt, hdt, b, hb, R, hR, l, hl, rfl⟩ := h
  have hdt' : dt = t1 - t0 := by
    rw [hT] at hdt
    simp only [uniformStep, Except.ok.injEq] at hdt
    exact hdt.symm
  subst hdt'
  have htheta : theta ≠ 0 := by
    intro h0
    unfold newmarkConsts at hb
    rw [h0] at hb
    simp at hb
  have hRl : R.length = F.length := by
    cases F with
    | nil => cases hR
    | cons f0 rest =>
      simp only [wilsonLoads, Except.ok.injEq] at hR
      subst hR
      simp
  obtain ⟨m1, m2⟩ := march_spec _ hl
  refine ⟨by simp [m1, hRl], rfl, ?_⟩
  intro k f p q hf hp hq
  simp only [List.getElem?_cons_succ] at hq
  have hk : k < (T.zip R).length := by rw [← m1]; exact (List.getElem?_eq_some_iff.mp hq).1
  have hkT : k < T.length := by simp at hk; omega
  have hz : (T.zip R)[k]? = some (T[k], f) := by
    rw [List.getElem?_zip_eq_some]
    exact ⟨List.getElem?_eq_getElem hkT, by rw [wilsonLoads_get hR, hf]⟩
  have hp' : (s0 :: l.map Prod.snd)[k]? = some p.2 := by
    have := congrArg (Option.map Prod.snd) hp
    rw [← List.getElem?_map] at this
    simpa using this
  obtain ⟨e1, e2⟩ := m2 k T[k] f p.2 q hz hp' hq
  unfold wilsonStep at e2
  simp only [Except.bind_ok_iff, Except.pure_eq_ok, Except.ok.injEq] at e2
  obtain ⟨e, he, e3⟩ := e2
  obtain ⟨a1, a2, a3⟩ := implicit_spec hs he
  obtain ⟨b1, b2⟩ := newmark_rel hb a2 a3
  refine ⟨by rw [List.getElem?_eq_getElem hkT, e1], ?_, ?_, e, a1, ?_, b1, b2⟩
  · rw [← e3]; rfl
  · rw [← e3]
    unfold NewmarkDisp
    funext i
    simp only [Pi.add_apply, Pi.smul_apply, smul_eq_mul]
    ring
  · rw [← e3]
    funext i
    simp only [Pi.add_apply, Pi.sub_apply, Pi.smul_apply, smul_eq_mul]
    field_simp
    ring

/-- the mass on a spring, one step of Wilson's method with θ = 2 -/
theorem oscillator_wilson : ∃ q, wilsonTheta exactSolve (1 : Matrix (Fin 1) (Fin 1) ℝ) 0 1 [0, 1] [0] ⟨0, 0, ![1]⟩ (1 / 4) (1 / 2) 2 =
    .ok [(0, ⟨0, 0, ![1]⟩), (0, q)] := by
  have hsol : ∀ (c : ℝ) (b : Vec 1), c ≠ 0 → ∃ x, (c • (1 : Matrix (Fin 1) (Fin 1) ℝ)) *ᵥ x = b := by
    intro c b hc
    exact ⟨c⁻¹ • b, by rw [Matrix.smul_mulVec, Matrix.one_mulVec, smul_smul, mul_inv_cancel₀ hc, one_smul]⟩
  have hc : ∃ b, newmarkConsts (1 / 4) (1 / 2) (2 * (1 - 0)) = .ok b ∧ b.b1 = 1 := by
    unfold newmarkConsts
    norm_num
  obtain ⟨b, hb, hb1⟩ := hc
  have e : (1 : Matrix (Fin 1) (Fin 1) ℝ) + b.b4 • (0 : Matrix (Fin 1) (Fin 1) ℝ) + b.b1 • (1 : Matrix (Fin 1) (Fin 1) ℝ) = (2 : ℝ) • 1 := by
    rw [hb1]
    ext i j
    simp [Matrix.one_apply]
    split <;> norm_num
  unfold wilsonTheta
  have hd : uniformStep [(0 : ℝ), 1] = .ok (1 - 0) := rfl
  have hw : wilsonLoads (2 : ℝ) [(0 : Vec 1)] = .ok [0] := rfl
  rw [hd, Except.bind_ok, hb, Except.bind_ok, hw, Except.bind_ok]
  have hz : ([(0 : ℝ), 1]).zip [(0 : Vec 1)] = [(0, 0)] := rfl
  rw [hz]
  simp only [marchFrom]
  unfold wilsonStep implicitStep
  simp only [e]
  obtain ⟨x, hx⟩ := exactSolve_ok (hsol 2 (0 + (1 : Matrix (Fin 1) (Fin 1) ℝ) *ᵥ (b.b1 • (0 : Vec 1) -
    b.b2 • 0 - b.b3 • ![1]) + (0 : Matrix (Fin 1) (Fin 1) ℝ) *ᵥ (b.b4 • 0 - b.b5 • 0 - b.b6 • ![1])) (by norm_num))
  rw [hx]
  exact ⟨_, rfl⟩

theorem C60_false : ¬ C60_claim := by
  intro h
  obtain ⟨q, hq⟩ := oscillator_wilson
  obtain ⟨_, _, _, e, h1, h2, h3, h4⟩ := (h exactSolve exactSolve_sound 1 1 0 1 [0, 1] [0] ⟨0, 0, ![1]⟩ (1 / 4) (1 / 2) 2 _ hq 0 1 rfl rfl).2 0 0 _ _ rfl rfl rfl
  obtain ⟨_, _, _, e', g1, g2, g3, g4⟩ := (C60_wilson_partial exactSolve exactSolve_sound 1 1 0 1 [0, 1] [0] ⟨0, 0, ![1]⟩ (1 / 4) (1 / 2) 2 _ hq
    0 1 rfl rfl).2.2 0 0 _ _ rfl rfl rfl
  have k1 := congrFun h1 0
  have k2 := congrFun h2 0
  have k4 := congrFun h4 0
  have m1 := congrFun g1 0
  have m2 := congrFun g2 0
  have m4 := congrFun g4 0
  simp at k1 k2 k4 m1 m2 m4
  norm_num [Matrix.vecHead] at k1 k2 k4 m1 m2 m4
  linarith

/-- the run meets the hypotheses of the partial theorem -/
example : ∃ table, wilsonTheta exactSolve (1 : Matrix (Fin 1) (Fin 1) ℝ) 0 1 [0, 1] [0] ⟨0, 0, ![1]⟩ (1 / 4) (1 / 2) 2 = .ok table ∧
    table.length = 2 := by
  obtain ⟨q, hq⟩ := oscillator_wilson
  exact ⟨_, hq, rfl⟩

end Hyperstatic
