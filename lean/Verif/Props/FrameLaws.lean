import Verif.Lemmas.Mirror

/-
C104–C107: other units, reflection of the model, an independent second structure, loads on supports and supports at points that do not move.
-/

namespace Hyperstatic
open Matrix Spec

/-! ### C104 Other units -/

/-- The same description in other units of length and force gives the same displacements in the new unit, and the same rotations. -/
def C104_claim : Prop :=
  ∀ (env : Env), env.SolverSound → ∀ (pre mid mid' : List Call) (l f : ℝ), 0 < l → 0 < f → PlainFrame env pre →
    PlainFrame env (pre.map (unitCall l f)) → ∀ (c : String) (P : Problem), Poses pre c P → P.frame.Positive → P.frame.Stable P.nodes P.fix →
    ∀ u u' : State, Reports env pre mid c u → Reports env (pre.map (unitCall l f)) mid' c u' → ∀ n ∈ P.nodes, u' n = unitDisp l (u n)

theorem unitDisp_inv {l : ℝ} (hl : l ≠ 0) (a : Vec 6) : unitDisp l (unitDisp (1 / l) a) = a := by
  funext i
  fin_cases i <;> simp [unitDisp] <;> field_simp

theorem unitDisp_zero (l : ℝ) : unitDisp l 0 = 0 := by
  funext i
  fin_cases i <;> simp [unitDisp]

theorem unitDisp_comp {l : ℝ} (hl : l ≠ 0) (a : Vec 6) (r : Fin 6) : unitDisp l a r = 0 ↔ a r = 0 := by
  fin_cases r <;> simp [unitDisp, hl]

theorem obeys_unit {l : ℝ} (hl : l ≠ 0) (t : String → Option Flags) (v : State) : Obeys t (fun n => unitDisp l (v n)) ↔ Obeys t v := by
  unfold Obeys
  simp only [unitDisp_comp hl]

/-- It holds when the tolerance of the local axes classifies the given points alike in both units. -/
theorem C104_units_partial (env : Env) (henv : env.SolverSound) (pre mid mid' : List Call) (l f : ℝ) (hl : 0 < l) (hf : 0 < f)
    (hF : PlainFrame env pre) (hF' : PlainFrame env (pre.map (unitCall l f))) (hA : ClassifiedAlike l pre) (c : String) (P : Problem)
    (hD : Poses pre c P) (hst : P.frame.Stable P.nodes P.fix) (u u' : State) (hu : Reports env pre mid c u)
    (hu' : Reports env (pre.map (unitCall l f)) mid' c u') : ∀ n ∈ P.nodes, u' n = unitDisp l (u n) := by
  have hS := hD.sane env
  have hR := blueprint_unit (f := f) hl.ne' pre (fun p hp q hq => (hA p hp q hq).1)
  rw [← hD.frame] at hR
  have hL := caseReg_unit l f pre
  obtain ⟨g, names, hc, hl', e⟩ := hD.load
  have hT : ∀ p ∈ givenPoints pre, ∀ q ∈ givenPoints pre, (Upright (l • p) (l • q) ↔ Upright p q) := fun p hp q hq => (hA p hp q hq).2
  let s' := (blueprint.run (pre.map (unitCall l f))).cur
  let P' : Problem := ⟨s', P.nodes, P.fix, s'.caseWork P.nodes (caseReg.run (pre.map (unitCall l f))).cur g names⟩
  have hD' : Poses (pre.map (unitCall l f)) c P' := by
    refine ⟨rfl, ?_, ?_, g, names, ?_, hl', rfl⟩
    · show P.nodes = _
      rw [nodeReg_unit]; exact hD.nodes
    · show P.fix = _
      rw [restReg_unit]; exact hD.fix
    · rw [hL.cases]; exact hc
  have hS' := hD'.sane env
  refine transfer henv hF hF' hD hD' hst rfl (unitDisp l) (unitDisp (1 / l)) (unitDisp_inv hl.ne') (unitDisp_zero l)
    (mul_ne_zero hf.ne' hl.ne') ?_ (obeys_unit hl.ne' P.fix) ?_ hu hu'
  · intro v x
    exact internal_unit hl hT hS hS' hR v x
  · intro v
    rw [e]
    exact caseWork_unit hl hT hS hR P.nodes hL g names v

/-! ### C105 Reflection -/

theorem flipSix_inv {m : V3} (h : Signs m) (a : Vec 6) : flipSix m (flipSix m a) = a := by
  obtain ⟨q1, q2, q3⟩ := Signs.sq h
  funext i
  fin_cases i
  · simp [flipSix, six, reflect, Spec.trans]; linear_combination a 0 * q1
  · simp [flipSix, six, reflect, Spec.trans]; linear_combination a 1 * q2
  · simp [flipSix, six, reflect, Spec.trans]; linear_combination a 2 * q3
  · simp [flipSix, six, reflect, flipAxial, Spec.rot]
    linear_combination a 3 * (m.y * m.y * m.z * m.z) * (m.x * m.x + 1) * q1 + a 3 * (m.z * m.z) * q2 + a 3 * q3
  · simp [flipSix, six, reflect, flipAxial, Spec.rot]
    linear_combination a 4 * (m.x * m.x * m.z * m.z) * (m.y * m.y + 1) * q2 + a 4 * (m.z * m.z) * q1 + a 4 * q3
  · simp [flipSix, six, reflect, flipAxial, Spec.rot]
    linear_combination a 5 * (m.x * m.x * m.y * m.y) * (m.z * m.z + 1) * q3 + a 5 * (m.y * m.y) * q1 + a 5 * q2

theorem flipSix_zero (m : V3) : flipSix m 0 = 0 := by
  funext i
  fin_cases i <;> simp [flipSix, six, reflect, flipAxial, Spec.trans, Spec.rot]

theorem sign_ne {s : ℝ} (h : s = 1 ∨ s = -1) : s ≠ 0 := by
  rcases h with rfl | rfl <;> norm_num

theorem flipSix_comp {m : V3} (h : Signs m) (a : Vec 6) (r : Fin 6) : flipSix m a r = 0 ↔ a r = 0 := by
  have h1 := sign_ne h.1
  have h2 := sign_ne h.2.1
  have h3 := sign_ne h.2.2
  fin_cases r <;> simp [flipSix, six, reflect, flipAxial, Spec.trans, Spec.rot, h1, h2, h3]

/-- The answer of the reflected model is the reflected answer, for every combination of reflections in the coordinate planes. -/
theorem C105_mirrored (env : Env) (henv : env.SolverSound) (pre pre' mid mid' : List Call) (hF : PlainFrame env pre)
    (hF' : PlainFrame env pre') (c c' : String) (P P' : Problem) (hD : Poses pre c P) (hD' : Poses pre' c' P')
    (hst : P.frame.Stable P.nodes P.fix) (m : V3) (hm : Signs m) (hM : Mirrored m P P') (u u' : State) (hu : Reports env pre mid c u)
    (hu' : Reports env pre' mid' c' u') : ∀ n ∈ P.nodes, u' n = flipSix m (u n) := by
  have hS := hD.sane env
  have hS' := hD'.sane env
  refine transfer henv hF hF' hD hD' hst hM.nodes (flipSix m) (flipSix m) (flipSix_inv hm) (flipSix_zero m) one_ne_zero ?_ ?_ ?_ hu hu'
  · intro v x
    rw [one_mul]
    apply internal_compare hS hS'
    intro b
    cases h : P.frame.beam b with
    | none => rw [term_none h, term_none (by rw [hM.beam, h, Option.map_none])]
    | some g =>
      have h' : P'.frame.beam b = some (flipBeam m g) := by rw [hM.beam, h, Option.map_some]
      obtain ⟨cs, hcs⟩ := hS.ok b g h
      obtain ⟨cs', hcs'⟩ := hS'.ok b _ h'
      rw [term_some h, term_some h']
      exact internal_flip hm hcs hcs' v x
  · intro v
    rw [hM.fix]
    unfold Obeys
    simp only [flipSix_comp hm]
  · intro v
    rw [one_mul, hM.load]

/-- Which loads are each other's reflection.  Forces and moments on nodes are reflected as arrows and as rotations.  For loads on a beam the
components along axis 1 keep their sign; those along axis 2 and 3 change it as follows. -/
theorem C105_loads (m : V3) (hm : Signs m) :
    (∀ F u : Vec 6, flipSix m F ⬝ᵥ flipSix m u = F ⬝ᵥ u) ∧
    ∀ (g : GivenBeam) (s2 s3 : ℝ), (Upright g.p g.q → s2 = m.x ∧ s3 = m.y * m.z) → (¬ Upright g.p g.q → s2 = m.z ∧ s3 = m.x * m.y) →
      (∀ (w : Vec 8) (v : State),
        (flipBeam m g).distWork ![w 0, w 1, s2 * w 2, s2 * w 3, s3 * w 4, s3 * w 5, m.x * m.y * m.z * w 6, m.x * m.y * m.z * w 7]
          (fun n => flipSix m (v n)) = g.distWork w v) ∧
      ∀ (w : Vec 7) (v : State),
        (flipBeam m g).concWork ![w 0, s2 * w 1, s3 * w 2, m.x * m.y * m.z * w 3, s3 * w 4, s2 * w 5, w 6]
          (fun n => flipSix m (v n)) = g.concWork w v := by
  obtain ⟨q1, q2, q3⟩ := Signs.sq hm
  refine ⟨?_, ?_⟩
  · intro F u
    simp only [dotProduct, Fin.sum_univ_six, flipSix, six, reflect, flipAxial, Spec.trans, Spec.rot, V3.smul_def, cons_val]
    linear_combination F 0 * u 0 * q1 + F 1 * u 1 * q2 + F 2 * u 2 * q3 +
      F 3 * u 3 * ((m.y * m.y * m.z * m.z) * (m.x * m.x + 1) * q1 + (m.z * m.z) * q2 + q3) +
      F 4 * u 4 * ((m.x * m.x * m.z * m.z) * (m.y * m.y + 1) * q2 + (m.z * m.z) * q1 + q3) +
      F 5 * u 5 * ((m.x * m.x * m.y * m.y) * (m.z * m.z + 1) * q3 + (m.y * m.y) * q1 + q2)
  · intro g s2 s3 h1 h2
    have e2 : s2 = sign2 m g.p g.q := by
      unfold sign2
      by_cases h : Upright g.p g.q
      · rw [if_pos h, (h1 h).1]
      · rw [if_neg h, (h2 h).1]
    have e3 : s3 = sign3 m g.p g.q := by
      unfold sign3
      by_cases h : Upright g.p g.q
      · rw [if_pos h, (h1 h).2]
      · rw [if_neg h, (h2 h).2]
    obtain ⟨t1, t2, t3, _, _⟩ := signs_prod hm g.p g.q
    rw [← e2] at t1
    rw [← e3] at t2
    have lin : ∀ k a b L x : ℝ, lineLoad (k * a) (k * b) L x = k * lineLoad a b L x := by
      intro k a b L x; unfold lineLoad; ring
    constructor
    · intro w v
      obtain ⟨f1, f2, f3, f4⟩ := fields_flip hm g v
      rw [← e2] at f3
      rw [← e3] at f4
      unfold GivenBeam.distWork
      rw [len_flip hm, f1]
      apply intervalIntegral.integral_congr
      intro x _
      simp only [cons_val, f2, f3, f4, lin]
      linear_combination lineLoad (w 2) (w 3) g.len x * g.defl2 v x * t1 + lineLoad (w 4) (w 5) g.len x * g.defl3 v x * t2 +
        lineLoad (w 6) (w 7) g.len x * g.twist v x * t3
    · intro w v
      obtain ⟨f1, f2, f3, f4⟩ := fields_flip hm g v
      rw [← e2] at f3
      rw [← e3] at f4
      have g3 : (flipBeam m g).defl2 (fun n => flipSix m (v n)) = fun x => s2 * g.defl2 v x := funext f3
      have g4 : (flipBeam m g).defl3 (fun n => flipSix m (v n)) = fun x => s3 * g.defl3 v x := funext f4
      unfold GivenBeam.concWork
      rw [len_flip hm, f1, g3, g4]
      simp only [cons_val, f2, deriv_const_mul_field]
      linear_combination (w 1 * g.defl2 v (w 6 * g.len) + w 5 * deriv (g.defl2 v) (w 6 * g.len)) * t1 +
        (w 2 * g.defl3 v (w 6 * g.len) - w 4 * deriv (g.defl3 v) (w 6 * g.len)) * t2 + w 3 * g.twist v (w 6 * g.len) * t3

/-! ### C106 An independent second structure -/

/-- the state that moves only the given nodes -/
def only (nodes : List String) (v : State) : State := fun n => if n ∈ nodes then v n else 0

theorem only_mem {nodes : List String} {n : String} (h : n ∈ nodes) (v : State) : only nodes v n = v n := if_pos h
theorem only_not {nodes : List String} {n : String} (h : n ∉ nodes) (v : State) : only nodes v n = 0 := if_neg h

theorem ends_still (g : GivenBeam) {v : State} (h1 : v g.start = 0) (h2 : v g.stop = 0) : g.ends v = 0 := by
  unfold GivenBeam.ends
  rw [h1, h2]
  funext i
  fin_cases i <;> simp [localEnds, Spec.trans, Spec.rot, V3.dot]

theorem internal_still {g : GivenBeam} {c : Csys} (h : lineCsys g.p g.q = .ok c) {v : State} (h1 : v g.start = 0) (h2 : v g.stop = 0) (x : State) :
    g.internal v x = 0 := by
  rw [internal_eq h, ends_still g h1 h2]
  unfold beamWork bendWork
  simp

/-- Nodes and beams that are not connected to a structure do not change its displacements. -/
theorem C106_beside (env : Env) (henv : env.SolverSound) (pre pre' mid mid' : List Call) (hF : PlainFrame env pre)
    (hF' : PlainFrame env pre') (c c' : String) (P P' : Problem) (hD : Poses pre c P) (hD' : Poses pre' c' P')
    (hst : P'.frame.Stable P'.nodes P'.fix) (hB : Beside P P') (u u' : State) (hu : Reports env pre mid c u)
    (hu' : Reports env pre' mid' c' u') : ∀ n ∈ P.nodes, u' n = u n := by
  have hS := hD.sane env
  have hS' := hD'.sane env
  have ob : ∀ v, Obeys P.fix v → Obeys P'.fix (only P.nodes v) := by
    intro v hv n f hf r hr
    by_cases h : n ∈ P.nodes
    · rw [only_mem h]; exact hv n f (by rw [← hB.fix n h]; exact hf) r hr
    · rw [only_not h]; rfl
  have ob' : ∀ v, Obeys P'.fix v → Obeys P.fix (only P.nodes v) := by
    intro v hv n f hf r hr
    by_cases h : n ∈ P.nodes
    · rw [only_mem h]; exact hv n f (by rw [hB.fix n h]; exact hf) r hr
    · rw [only_not h]; rfl
  have ii : ∀ v x, P'.frame.internal (only P.nodes v) x = P.frame.internal v x := by
    intro v x
    rw [internal_congr hS (fun n hn => (only_mem hn v).symm) (fun _ _ => rfl)]
    apply internal_compare hS hS'
    intro b
    cases h : P.frame.beam b with
    | some g => rw [term_some h, term_some (hB.beam b g h)]
    | none =>
      rw [term_none h]
      cases h' : P'.frame.beam b with
      | none => rw [term_none h']
      | some g =>
        obtain ⟨cs, hcs⟩ := hS'.ok b g h'
        obtain ⟨a1, a2⟩ := hB.apart b g h h'
        rw [term_some h', internal_still hcs (only_not a1 v) (only_not a2 v)]
  have hst0 : P.frame.Stable P.nodes P.fix := by
    intro v hv h0 n hn
    have := hst _ (ob v hv) (by
      rw [ii, internal_congr hS (fun _ _ => rfl) (fun n hn => only_mem hn v)]; exact h0) n (hB.nodes n hn)
    rwa [only_mem hn] at this
  obtain ⟨x, h1, h2, h3⟩ := reports_equilibrium henv hF hD hst0 hu
  obtain ⟨y, k1, k2, k3⟩ := reports_equilibrium henv hF' hD' hst hu'
  have := same_answer hS hst0 (ob' y k2) h2 (load := P.load) (fun v hv => by
    rw [internal_congr hS (fun _ _ => rfl) (fun n hn => only_mem hn y), ← ii, k3 _ (ob v hv), hB.load _ (fun n hn => only_not hn v)]
    exact hD.congr env (fun n hn => only_mem hn v)) h3
  intro n hn
  rw [k1 n (hB.nodes n hn), h1 n hn, ← this n hn, only_mem hn]

/-! ### C107 Loads on supports, supports at points that do not move -/

theorem obeys_iff (t : String → Option Flags) (v : State) : Obeys t v ↔ ∀ n r, Restrained t n r → v n r = 0 := by
  constructor
  · rintro h n r ⟨f, h1, h2⟩
    exact h n f h1 r h2
  · intro h n f hf r hr
    exact h n r ⟨f, hf, hr⟩

/-- Nodal loads at restrained components change no displacement. -/
theorem C107_support_loads (env : Env) (henv : env.SolverSound) (pre pre' mid mid' : List Call) (hF : PlainFrame env pre)
    (hF' : PlainFrame env pre') (c c' : String) (P P' : Problem) (hD : Poses pre c P) (hD' : Poses pre' c' P')
    (hst : P.frame.Stable P.nodes P.fix) (F : String → Vec 6) (hL : SupportLoaded P P' F) (u u' : State)
    (hu : Reports env pre mid c u) (hu' : Reports env pre' mid' c' u') : ∀ n ∈ P.nodes, u' n = u n := by
  have hS := hD.sane env
  obtain ⟨x, h1, h2, h3⟩ := reports_equilibrium henv hF hD hst hu
  obtain ⟨y, k1, k2, k3⟩ := reports_equilibrium henv hF' hD' (by rw [hL.frame, hL.nodes, hL.fix]; exact hst) hu'
  rw [hL.fix] at k2 k3
  rw [hL.frame] at k3
  rw [hL.nodes] at k1
  have := same_answer hS hst k2 h2 (load := P.load) (fun v hv => by
    rw [k3 v hv, hL.load]
    have : (P.nodes.map fun n => F n ⬝ᵥ v n).sum = 0 := by
      apply List.sum_eq_zero
      intro z hz
      obtain ⟨n, _, rfl⟩ := List.mem_map.mp hz
      apply Finset.sum_eq_zero
      intro r _
      by_cases h0 : F n r = 0
      · rw [h0, zero_mul]
      · rw [(obeys_iff _ _).mp hv n r (hL.only n r h0), mul_zero]
    rw [this, add_zero]) h3
  intro n hn
  rw [k1 n hn, h1 n hn, this n hn]

/-- Supports at components that do not move anyway change no displacement. -/
theorem C107_still_supports (env : Env) (henv : env.SolverSound) (pre pre' mid mid' : List Call) (hF : PlainFrame env pre)
    (hF' : PlainFrame env pre') (c c' : String) (P P' : Problem) (hD : Poses pre c P) (hD' : Poses pre' c' P')
    (hst : P.frame.Stable P.nodes P.fix) (u u' : State) (hH : HeldWhereStill P P' u)
    (hu : Reports env pre mid c u) (hu' : Reports env pre' mid' c' u') : ∀ n ∈ P.nodes, u' n = u n := by
  have hS := hD.sane env
  have weak : ∀ v, Obeys P'.fix v → Obeys P.fix v := by
    intro v hv
    rw [obeys_iff] at hv ⊢
    exact fun n r h => hv n r (hH.keep n r h)
  have hst' : P.frame.Stable P.nodes P'.fix := fun v hv h0 => hst v (weak v hv) h0
  obtain ⟨x, h1, h2, h3⟩ := reports_equilibrium henv hF hD hst hu
  obtain ⟨y, k1, k2, k3⟩ := reports_equilibrium henv hF' hD' (by rw [hH.frame, hH.nodes]; exact hst') hu'
  rw [hH.load, hH.frame] at k3
  rw [hH.nodes] at k1
  have ox : Obeys P'.fix (only P.nodes x) := by
    rw [obeys_iff]
    intro n r hr
    by_cases h : n ∈ P.nodes
    · rw [only_mem h]
      rcases hH.still n h r hr with hr' | hr'
      · exact (obeys_iff _ _).mp h2 n r hr'
      · rw [← h1 n h]; exact hr'
    · rw [only_not h]; rfl
  have := same_answer hS hst' k2 ox k3 (fun v hv => by
    rw [internal_congr hS (fun _ _ => rfl) (fun n hn => only_mem hn x)]
    exact h3 v (weak v hv))
  intro n hn
  rw [k1 n hn, this n hn, only_mem hn, h1 n hn]

end Hyperstatic
