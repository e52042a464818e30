import Verif.Lemmas.FrameMap
import Verif.Props.Line

/-
C75–C78: the modulus only scales the displacements; rotation of the model about the vertical axis; subdivision of a beam; exchange of the
ends of a beam.
-/

namespace Hyperstatic
open Matrix Spec

/-! ### C75 A common factor on Young's modulus -/

/-- The same calls with every Young's modulus multiplied by `k`: the reported displacements are divided by `k`. -/
theorem C75_modulus (env : Env) (henv : env.SolverSound) (pre mid mid' : List Call) (k : ℝ) (hk : k ≠ 0) (hF : PlainFrame env pre)
    (hF' : PlainFrame env (pre.map (stiffCall k))) (c : String) (P : Problem) (hD : Poses pre c P)
    (hst : P.frame.Stable P.nodes P.fix) (u u' : State) (hu : Reports env pre mid c u)
    (hu' : Reports env (pre.map (stiffCall k)) mid' c u') : ∀ n ∈ P.nodes, ∀ r, u' n r = u n r / k := by
  have hS := hD.sane env
  have hrel := blueprint_stiff k pre
  have m1 : ∀ v u, (blueprint.run (pre.map (stiffCall k))).cur.internal v u = k * P.frame.internal v u := by
    intro v u
    have hS2 := hS
    rw [hD.frame] at hS2 ⊢
    exact internal_stiff k hS2 hrel v u
  obtain ⟨g, names, hc, hl, e⟩ := hD.load
  let P' : Problem := { P with frame := (blueprint.run (pre.map (stiffCall k))).cur }
  have hD' : Poses (pre.map (stiffCall k)) c P' := by
    refine ⟨rfl, by rw [nodeReg_stiff]; exact hD.nodes, ?_, g, names, ?_, hl, ?_⟩
    · show P.fix = _
      rw [restReg_stiff]; exact hD.fix
    · rw [caseReg_stiff]; exact hc
    · funext v
      show P.load v = _
      rw [caseReg_stiff, load_stiff k hrel, e, hD.frame]
  obtain ⟨x, h1, h2, h3⟩ := reports_equilibrium henv hF hD hst hu
  have hst' : P'.frame.Stable P'.nodes P'.fix := by
    intro v hv h0
    refine hst v hv ?_
    have h0' : k * P.frame.internal v v = 0 := by rw [← m1]; exact h0
    exact (mul_eq_zero.mp h0').resolve_left hk
  obtain ⟨y, k1, k2, k3⟩ := reports_equilibrium henv hF' hD' hst' hu'
  have k2' : Obeys P.fix (k • y + (0:ℝ) • y) := Obeys.lin k2 k2 k 0
  have hxy := same_answer hS hst k2' h2 (load := P.load) (fun v hv => by
    rw [internal_lin hS, zero_mul, add_zero, ← m1]
    exact k3 v hv) h3
  intro n hn r
  rw [h1 n hn, k1 n hn, ← hxy n hn]
  simp only [zero_smul, add_zero, Pi.smul_apply, smul_eq_mul]
  field_simp

/-! ### C76 Rotation of the model about the vertical axis -/

/-- Turning the whole model (coordinates, supports and loads) about the vertical axis turns the reported displacements. -/
def C76_claim : Prop :=
  ∀ (env : Env), env.SolverSound → ∀ (pre pre' mid mid' : List Call), PlainFrame env pre → PlainFrame env pre' →
    ∀ (c c' : String) (P P' : Problem), Poses pre c P → Poses pre' c' P' → P.frame.Positive → P.frame.Stable P.nodes P.fix →
    ∀ α : ℝ, Turned α P P' → ∀ u u' : State, Reports env pre mid c u → Reports env pre' mid' c' u' →
    ∀ n ∈ P.nodes, u' n = turnState α u n

/-- It holds if every beam is either away from the vertical (before and after) or has equal second moments. -/
theorem C76_turned_partial (env : Env) (henv : env.SolverSound) (pre pre' mid mid' : List Call) (hF : PlainFrame env pre)
    (hF' : PlainFrame env pre') (c c' : String) (P P' : Problem) (hD : Poses pre c P) (hD' : Poses pre' c' P')
    (hst : P.frame.Stable P.nodes P.fix) (α : ℝ) (hT : Turned α P P')
    (hb : ∀ b g, P.frame.beam b = some g →
      (¬ Upright g.p g.q ∧ ¬ Upright (turn α g.p) (turn α g.q)) ∨ g.sec.I2 = g.sec.I3)
    (u u' : State) (hu : Reports env pre mid c u) (hu' : Reports env pre' mid' c' u') : ∀ n ∈ P.nodes, u' n = turnState α u n := by
  have hS := hD.sane env
  have hS' := hD'.sane env
  have m1 : ∀ v x, P'.frame.internal (turnState α v) (turnState α x) = P.frame.internal v x := by
    intro v x
    apply internal_compare hS hS'
    intro b
    cases h : P.frame.beam b with
    | none => rw [term_none h, term_none (by rw [hT.beam, h, Option.map_none])]
    | some g =>
      have h' : P'.frame.beam b = some (turnBeam α g) := by rw [hT.beam, h, Option.map_some]
      obtain ⟨cs, hcs⟩ := hS.ok b g h
      obtain ⟨cs', hcs'⟩ := hS'.ok b _ h'
      rw [term_some h, term_some h']
      exact internal_turn α hcs hcs' (hb b g h) v x
  obtain ⟨x, h1, h2, h3⟩ := reports_equilibrium henv hF hD hst hu
  have hst' : P'.frame.Stable P'.nodes P'.fix := by
    intro v hv h0
    rw [← turnState_inv α v] at hv h0
    rw [m1] at h0
    intro n hn
    rw [hT.nodes] at hn
    have hz := hst _ ((hT.fix _).mp hv) h0 n hn
    rw [← turnState_inv α v]
    show six (turn α (Spec.trans (turnState (-α) v n))) (turn α (Spec.rot (turnState (-α) v n))) = 0
    rw [hz]
    funext i
    fin_cases i <;> simp [six, turn, Spec.trans, Spec.rot]
  obtain ⟨y, k1, k2, k3⟩ := reports_equilibrium henv hF' hD' hst' hu'
  have hxy := same_answer hS' hst' k2 ((hT.fix x).mpr h2) k3 (by
    intro v hv
    rw [← turnState_inv α v] at hv ⊢
    rw [m1, hT.load]
    exact h3 _ ((hT.fix _).mp hv))
  intro n hn
  rw [k1 n (by rw [hT.nodes]; exact hn), hxy n (by rw [hT.nodes]; exact hn)]
  unfold turnState
  rw [h1 n hn]

/-! ### C77 Subdivision of a beam -/

/-- A new node on a beam does not change the displacements reported for the other nodes. -/
def C77_claim : Prop :=
  ∀ (env : Env), env.SolverSound → ∀ (pre pre' mid mid' : List Call), PlainFrame env pre → PlainFrame env pre' →
    ∀ (c c' : String) (P P' : Problem), Poses pre c P → Poses pre' c' P' → P.frame.Positive → P.frame.Stable P.nodes P.fix →
    P'.frame.Stable P'.nodes P'.fix → ∀ (b b' m : String) (g : GivenBeam) (t : ℝ), Subdivided P P' b b' m g t →
    ∀ u u' : State, Reports env pre mid c u → Reports env pre' mid' c' u' → ∀ n ∈ P.nodes, u' n = u n

/-- It holds if the tolerance classifies the parts and the whole beam alike. -/
theorem C77_subdivided_partial (env : Env) (henv : env.SolverSound) (pre pre' mid mid' : List Call) (hF : PlainFrame env pre)
    (hF' : PlainFrame env pre') (c c' : String) (P P' : Problem) (hD : Poses pre c P) (hD' : Poses pre' c' P')
    (hst : P.frame.Stable P.nodes P.fix) (hst' : P'.frame.Stable P'.nodes P'.fix) (b b' m : String) (g : GivenBeam) (t : ℝ)
    (hT : Subdivided P P' b b' m g t) (h1 : Upright g.p (g.point t) ↔ Upright g.p g.q) (h2 : Upright (g.point t) g.q ↔ Upright g.p g.q)
    (u u' : State) (hu : Reports env pre mid c u) (hu' : Reports env pre' mid' c' u') : ∀ n ∈ P.nodes, u' n = u n := by
  have hS := hD.sane env
  have hS' := hD'.sane env
  obtain ⟨cs, hcs⟩ := hS.ok b g hT.old
  obtain ⟨cs1, hcs1⟩ := hS'.ok b _ hT.first
  obtain ⟨cs2, hcs2⟩ := hS'.ok b' _ hT.second
  have hns : ∀ k g', P.frame.beam k = some g' → g'.start ≠ m ∧ g'.stop ≠ m := by
    intro k g' hk
    exact ⟨fun h => hT.fresh (h ▸ hS.start k g' hk), fun h => hT.fresh (h ▸ hS.stop k g' hk)⟩
  have m1 : ∀ v x, P'.frame.internal (carried g m t v) x = P.frame.internal v x := by
    intro v x
    let T := insert b (insert b' (P.frame.beams.toFinset ∪ P'.frame.beams.toFinset))
    rw [internal_finset hS T (fun k hk => by simp [T, hk]), internal_finset hS' T (fun k hk => by simp [T, hk])]
    have hb : b ∈ T := by simp [T]
    have hb' : b' ∈ T.erase b := Finset.mem_erase.mpr ⟨hT.ne, by simp [T]⟩
    rw [← Finset.add_sum_erase T _ hb, ← Finset.add_sum_erase T _ hb, ← Finset.add_sum_erase _ _ hb', ← Finset.add_sum_erase _ _ hb']
    have e0 : P.frame.term v x b = g.internal v x := term_some hT.old v x
    have e1 : P.frame.term v x b' = 0 := term_none hT.new v x
    have e2 : P'.frame.term (carried g m t v) x b = GivenBeam.internal { g with stop := m, q := g.point t } (carried g m t v) x := 
      term_some hT.first _ x
    have e3 : P'.frame.term (carried g m t v) x b' = GivenBeam.internal { g with start := m, p := g.point t } (carried g m t v) x := 
      term_some hT.second _ x
    have e4 : ∑ k ∈ (T.erase b).erase b', P'.frame.term (carried g m t v) x k = ∑ k ∈ (T.erase b).erase b', P.frame.term v x k := by
      apply Finset.sum_congr rfl
      intro k hk
      simp only [Finset.mem_erase] at hk
      have ho := hT.others k hk.2.1 hk.1
      cases hg : P.frame.beam k with
      | none => rw [term_none hg, term_none (ho.trans hg)]
      | some g' =>
        obtain ⟨a1, a2⟩ := hns k g' hg
        obtain ⟨ck, hck⟩ := hS.ok k g' hg
        rw [term_some hg, term_some (ho.trans hg), internal_eq hck, internal_eq hck]
        rw [ends_congr (u := carried g m t v) (u' := v) (if_neg a1) (if_neg a2)]
    rw [e0, e1, e2, e3, e4, ← internal_divide hcs hcs1 hcs2 hT.pos hT.lt h1 h2 (hns b g hT.old).1 (hns b g hT.old).2 v x]
    ring
  obtain ⟨x, i1, i2, i3⟩ := reports_equilibrium henv hF hD hst hu
  obtain ⟨y, k1, k2, k3⟩ := reports_equilibrium henv hF' hD' hst' hu'
  let z : State := fun n => if n = m then 0 else y n
  have hz : ∀ n ∈ P.nodes, z n = y n := by
    intro n hn
    have : n ≠ m := by rintro rfl; exact hT.fresh hn
    simp only [z, if_neg this]
  have z2 : Obeys P.fix z := by
    intro n f hf r hr
    by_cases hn : n = m
    · simp [z, hn]
    · simp only [z, if_neg hn]
      exact k2 n f (by rw [hT.fix n hn]; exact hf) r hr
  have hc : ∀ v, Obeys P.fix v → Obeys P'.fix (carried g m t v) := by
    intro v hv n f hf r hr
    by_cases hn : n = m
    · rw [hn] at hf
      rw [hT.free f hf r] at hr
      cases hr
    · unfold carried
      rw [if_neg hn]
      exact hv n f (by rw [← hT.fix n hn]; exact hf) r hr
  have hxz := same_answer hS hst z2 i2 (load := P.load) (by
    intro v hv
    rw [internal_congr hS (v := v) (v' := v) (u := z) (u' := y) (fun _ _ => rfl) hz, ← m1, k3 _ (hc v hv), hT.load]) i3
  intro n hn
  rw [k1 n ((hT.nodes n).mpr (Or.inl hn)), i1 n hn, ← hxz n hn, hz n hn]

/-- The load hypothesis of subdivision is met by a line load that is continued over the two parts (intensity at the division by linear
interpolation): it does the same work on the parts as on the whole. -/
theorem C77_line_load_partial (g : GivenBeam) (m : String) (t : ℝ) (h : Acceptable g.p g.q) (ht : 0 < t) (ht' : t < 1)
    (h1 : Upright g.p (g.point t) ↔ Upright g.p g.q) (h2 : Upright (g.point t) g.q ↔ Upright g.p g.q) (hm1 : g.start ≠ m) (hm2 : g.stop ≠ m)
    (w w1 w2 : Vec 8)
    (hw1 : w1 = ![w 0, w 0 + t * (w 1 - w 0), w 2, w 2 + t * (w 3 - w 2), w 4, w 4 + t * (w 5 - w 4), w 6, w 6 + t * (w 7 - w 6)])
    (hw2 : w2 = ![w 0 + t * (w 1 - w 0), w 1, w 2 + t * (w 3 - w 2), w 3, w 4 + t * (w 5 - w 4), w 5, w 6 + t * (w 7 - w 6), w 7])
    (g1 g2 : GivenBeam) (hg1 : g1 = { g with stop := m, q := g.point t }) (hg2 : g2 = { g with start := m, p := g.point t }) (v : State) :
    g1.distWork w1 (carried g m t v) + g2.distWork w2 (carried g m t v) = g.distWork w v := by
  obtain ⟨c, hc⟩ := (lineCsys_accept g.p g.q).mpr h
  obtain ⟨l1, l2, f1, f2⟩ := fields_divide hc ht ht' h1 h2 hm1 hm2 v g1 g2 hg1 hg2
  have hL := (len_pos hc).ne'
  have ht3 : 1 - t ≠ 0 := by intro h; linarith
  let φ : ℝ → ℝ := fun x => lineLoad (w 0) (w 1) g.len x * g.axial v x + lineLoad (w 2) (w 3) g.len x * g.defl2 v x +
     lineLoad (w 4) (w 5) g.len x * g.defl3 v x + lineLoad (w 6) (w 7) g.len x * g.twist v x
  have hφ : Continuous φ := by
    have c1 := continuous_lineField g.len (g.ends v 0) (g.ends v 6)
    have c2 := continuous_cubicField g.len (g.ends v 1) (g.ends v 5) (g.ends v 7) (g.ends v 11)
    have c3 := continuous_cubicField g.len (g.ends v 2) (- g.ends v 4) (g.ends v 8) (- g.ends v 10)
    have c4 := continuous_lineField g.len (g.ends v 3) (g.ends v 9)
    exact ((((continuous_lineLoad _ _ _).mul c1).add ((continuous_lineLoad _ _ _).mul c2)).add ((continuous_lineLoad _ _ _).mul c3)).add
      ((continuous_lineLoad _ _ _).mul c4)
  have e1 : g1.distWork w1 (carried g m t v) = ∫ x in (0:ℝ)..(t * g.len), φ x := by
    unfold GivenBeam.distWork
    rw [l1]
    apply intervalIntegral.integral_congr
    intro x _
    obtain ⟨a1, a2, a3, a4⟩ := f1 x
    simp only [a1, a2, a3, a4, hw1, cons_val_zero, cons_val_one, cons_val, φ, (load_part g.len t hL ht.ne' ht3 _ _ x).1]
  have e2 : g2.distWork w2 (carried g m t v) = ∫ x in (0:ℝ)..((1 - t) * g.len), φ (x + t * g.len) := by
    unfold GivenBeam.distWork
    rw [l2]
    apply intervalIntegral.integral_congr
    intro x _
    obtain ⟨a1, a2, a3, a4⟩ := f2 x
    simp only [a1, a2, a3, a4, hw2, cons_val_zero, cons_val_one, cons_val, φ, (load_part g.len t hL ht.ne' ht3 _ _ x).2]
  rw [e1, e2, intervalIntegral.integral_comp_add_right, zero_add, show (1 - t) * g.len + t * g.len = g.len by ring,
    intervalIntegral.integral_add_adjacent_intervals (hφ.intervalIntegrable _ _) (hφ.intervalIntegrable _ _)]
  rfl

/-! ### C78 Exchange of the ends of a beam -/

/-- Exchanging the start and the end of a beam that carries no load of its own does not change the reported displacements. -/
theorem C78_ends_swapped (env : Env) (henv : env.SolverSound) (pre pre' mid mid' : List Call) (hF : PlainFrame env pre)
    (hF' : PlainFrame env pre') (c c' : String) (P P' : Problem) (hD : Poses pre c P) (hD' : Poses pre' c' P')
    (hst : P.frame.Stable P.nodes P.fix) (b : String) (g : GivenBeam) (hT : EndsSwapped P P' b g)
    (u u' : State) (hu : Reports env pre mid c u) (hu' : Reports env pre' mid' c' u') : ∀ n ∈ P.nodes, u' n = u n := by
  have hS := hD.sane env
  have hS' := hD'.sane env
  obtain ⟨cs, hcs⟩ := hS.ok b g hT.old
  obtain ⟨cs', hcs'⟩ := hS'.ok b _ hT.new
  have m1 : ∀ v x, P'.frame.internal v x = P.frame.internal v x := by
    intro v x
    apply internal_compare hS hS'
    intro k
    by_cases hk : k = b
    · subst hk
      rw [term_some hT.old, term_some hT.new]
      exact internal_swap hcs hcs' v x
    · unfold Blueprint.term
      rw [hT.others k hk]
  obtain ⟨x, h1, h2, h3⟩ := reports_equilibrium henv hF hD hst hu
  have hst' : P'.frame.Stable P'.nodes P'.fix := by
    intro v hv h0
    rw [m1] at h0
    rw [hT.fix] at hv
    rw [hT.nodes]
    exact hst v hv h0
  obtain ⟨y, k1, k2, k3⟩ := reports_equilibrium henv hF' hD' hst' hu'
  rw [hT.fix] at k2 k3
  have hxy := same_answer hS hst k2 h2 (load := P.load) (by
    intro v hv
    rw [← m1, k3 v hv, hT.load]) h3
  intro n hn
  rw [k1 n (by rw [hT.nodes]; exact hn), hxy n hn, h1 n hn]

end Hyperstatic
