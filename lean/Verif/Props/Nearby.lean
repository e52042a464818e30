import Verif.Lemmas.NearbyStep

/-
C157: small changes of the numbers in the calls change the reported displacements little.  `pre'` is `pre` with every number changed by
at most `δ`; the calls that define beams and sections are accepted in both.
-/

namespace Hyperstatic
open Matrix Spec Filter Topology

/-- problems of histories that differ less and less from a given one tend to its problem -/
theorem problems_tend (env : Env) {pre : List Call} (hA : Accepted env pre) {c : String} {P : Problem} (hD : Poses pre c P)
    (hpos : P.frame.Positive) {δ : ℕ → ℝ} (hδ : Tendsto δ atTop (𝓝 0)) {prek : ℕ → List Call}
    (hn : ∀ k, List.Forall₂ (Nearby (δ k)) pre (prek k)) (hAk : ∀ k, Accepted env (prek k)) :
    ∃ Pk : ℕ → Problem, (∀ k, Poses (prek k) c (Pk k)) ∧ (∀ k, (Pk k).nodes = P.nodes) ∧ (∀ k, (Pk k).fix = P.fix) ∧
      (∀ᶠ k in atTop, (Pk k).frame.Positive) ∧
      (∀ v u, Tendsto (fun k => (Pk k).frame.internal v u) atTop (𝓝 (P.frame.internal v u))) ∧
      (∀ v, Tendsto (fun k => (Pk k).load v) atTop (𝓝 (P.load v))) := by
  obtain ⟨g, names, hg, hl, el⟩ := hD.load
  have hb : BlueTends P.frame (fun k => (blueprint.run (prek k)).cur) := by
    rw [hD.frame]
    exact run_tends blueprint BlueTends BlueGood
      ⟨fun _ => OptTends.absent, fun _ => OptTends.absent, fun _ => OptTends.absent, fun _ => rfl, fun _ => OptTends.absent⟩
      (fun s t c ck h hc h1 h2 => blue_step hδ h hc h1 h2) hn (accepted_good hA) (fun k => accepted_good (hAk k))
  have hr : CaseTends (caseReg.run pre).cur (fun k => (caseReg.run (prek k)).cur) :=
    run_tends caseReg CaseTends (fun _ _ => True) ⟨fun _ => OptTends.absent, fun _ => OptTends.absent⟩
      (fun s t c ck h hc _ _ => case_step hδ h hc) hn (fun _ _ _ _ => trivial) (fun _ _ _ _ _ => trivial)
  have hgk := hr.cases c
  rw [hg] at hgk
  obtain ⟨gk, egk, hfac⟩ := hgk.of
  have hnodes : ∀ k, (nodeReg.run (prek k)).cur.names = P.nodes := fun k => by rw [hD.nodes, nodeReg_nearby (hn k)]
  have hS := hD.sane env
  have hSk : ∀ k, Sane (blueprint.run (prek k)).cur P.nodes := fun k => by rw [← hnodes k]; exact sane_run env (prek k)
  have hlk : ∀ k, Lists names (gk k) := by
    intro k
    refine ⟨hl.1, fun p => (hl.2 p).trans ?_⟩
    rcases hfac p with ⟨e, ek⟩ | ⟨x, xk, e, ek, _⟩
    · rw [e, show gk k p = none from ek k]
    · rw [e, show gk k p = some (xk k) from ek k]; exact Iff.rfl
  refine ⟨fun k => ⟨(blueprint.run (prek k)).cur, P.nodes, P.fix,
    (blueprint.run (prek k)).cur.caseWork P.nodes (caseReg.run (prek k)).cur (gk k) names⟩, ?_, fun _ => rfl, fun _ => rfl,
    positive_tends hb hSk hpos, internal_tends hb hS hSk hpos, ?_⟩
  · intro k
    exact ⟨rfl, (hnodes k).symm, by rw [hD.fix, restReg_nearby (hn k)], gk k, names, egk k, hlk k, rfl⟩
  · intro v
    rw [el]
    exact case_tends hb hS hSk hr hfac names v

/-- C157: the reported displacements change by less than any given `ε` when the numbers in the calls change by at most some `δ > 0`. -/
theorem C157_continuous (env : Env) (henv : env.SolverSound) (pre mid : List Call) (hF : PlainFrame env pre) (hA : Accepted env pre)
    (c : String) (P : Problem) (hD : Poses pre c P) (hpos : P.frame.Positive) (hst : P.frame.Stable P.nodes P.fix) (u : State)
    (hu : Reports env pre mid c u) (ε : ℝ) (hε : 0 < ε) :
    ∃ δ > 0, ∀ pre' mid' u', List.Forall₂ (Nearby δ) pre pre' → PlainFrame env pre' → Accepted env pre' → Reports env pre' mid' c u' →
      ∀ n ∈ P.nodes, ∀ r, |u' n r - u n r| < ε := by
  by_contra hcon
  push Not at hcon
  have hseq : ∀ k : ℕ, (0:ℝ) < 1 / ((k:ℝ) + 1) := fun k => by positivity
  choose prek midk uk h1 h2 h3 h4 n hn r hr using fun k : ℕ => hcon _ (hseq k)
  obtain ⟨Pk, k1, k2, k3, k4, k5, k6⟩ := problems_tend env hA hD hpos tendsto_one_div_add_atTop_nhds_zero_nat h1 h3
  obtain ⟨_, lim⟩ := answers_tend env hD hst k1 k2 k3 k4 k5 k6
  have lim := lim henv hF h2 hu h4
  have all : ∀ᶠ k in atTop, ∀ n ∈ P.nodes.toFinset, ∀ r ∈ (Finset.univ : Finset (Fin 6)), |uk k n r - u n r| < ε := by
    refine (Filter.eventually_all_finset _).mpr fun n hn => (Filter.eventually_all_finset _).mpr fun r _ => ?_
    have := (lim n (List.mem_toFinset.mp hn) r).eventually (Metric.ball_mem_nhds _ hε)
    exact this.mono fun k hk => by rw [Real.dist_eq] at hk; exact hk
  obtain ⟨k, hk⟩ := all.exists
  exact absurd (hk (n k) (List.mem_toFinset.mpr (hn k)) (r k) (Finset.mem_univ _)) (not_lt.mpr (hr k))

/-- A stable frame stays stable under small changes. -/
theorem C157_stays_stable (env : Env) (pre : List Call) (hA : Accepted env pre)
    (c : String) (P : Problem) (hD : Poses pre c P) (hpos : P.frame.Positive) (hst : P.frame.Stable P.nodes P.fix) :
    ∃ δ > 0, ∀ pre' P', List.Forall₂ (Nearby δ) pre pre' → Accepted env pre' → Poses pre' c P' →
      P'.frame.Positive ∧ P'.frame.Stable P'.nodes P'.fix := by
  by_contra hcon
  push Not at hcon
  have hseq : ∀ k : ℕ, (0:ℝ) < 1 / ((k:ℝ) + 1) := fun k => by positivity
  choose prek Qk h1 h3 h4 h5 using fun k : ℕ => hcon _ (hseq k)
  obtain ⟨Pk, k1, k2, k3, k4, k5, k6⟩ := problems_tend env hA hD hpos tendsto_one_div_add_atTop_nhds_zero_nat h1 h3
  obtain ⟨ev, _⟩ := answers_tend env hD hst k1 k2 k3 k4 k5 k6
  obtain ⟨k, hk, hk'⟩ := (ev.and k4).exists
  have e1 : (Pk k).frame = (Qk k).frame := (k1 k).frame.trans (h4 k).frame.symm
  have e2 : (Pk k).nodes = (Qk k).nodes := (k1 k).nodes.trans (h4 k).nodes.symm
  have e3 : (Pk k).fix = (Qk k).fix := (k1 k).fix.trans (h4 k).fix.symm
  rw [e1] at hk'
  rw [e1, e2, e3] at hk
  exact h5 k hk' hk

/-! ### example -/

theorem portal_accepted (env : Env) (d : V3) : Accepted env (portalCalls.map (shiftCall d)) := by
  have h3 : ∀ n, (World.init.run env [.addNode "A" (0 + d.x) (0 + d.y) (0 + d.z), .addNode "B" (0 + d.x) (0 + d.y) (3 + d.z),
      .addNode "D" (4 + d.x) (0 + d.y) (3 + d.z)]).getNodeLocation n = if n = "D" then some ⟨4 + d.x, 0 + d.y, 3 + d.z⟩ else
      if n = "B" then some ⟨0 + d.x, 0 + d.y, 3 + d.z⟩ else if n = "A" then some ⟨0 + d.x, 0 + d.y, 0 + d.z⟩ else none := by
    intro n
    rw [(C02_node_registry env _).2.1]
    rfl
  have h4 : ∀ n, (World.init.run env [.addNode "A" (0 + d.x) (0 + d.y) (0 + d.z), .addNode "B" (0 + d.x) (0 + d.y) (3 + d.z),
      .addNode "D" (4 + d.x) (0 + d.y) (3 + d.z), .addSimpleBeam "col" "A" "B" 2 0 1 2 3 1 0]).getNodeLocation n =
      if n = "D" then some ⟨4 + d.x, 0 + d.y, 3 + d.z⟩ else
      if n = "B" then some ⟨0 + d.x, 0 + d.y, 3 + d.z⟩ else if n = "A" then some ⟨0 + d.x, 0 + d.y, 0 + d.z⟩ else none := by
    intro n
    rw [(C02_node_registry env _).2.1]
    rfl
  unfold Accepted portalCalls
  simp only [List.map_cons, List.map_nil, shiftCall, AllCalls, definesBeam, Bool.false_eq_true, false_imp_iff, true_and, and_true, forall_const]
  constructor
  · refine (C05_add_simple_beam_iff_partial env _ "col" "A" "B" 2 0 1 2 3 1 0).mpr ⟨_, _, h3 "A", h3 "B", Or.inl ?_⟩
    norm_num [absTol]
  · refine (C05_add_simple_beam_iff_partial env _ "bm" "B" "D" 2 0 1 2 3 1 0).mpr ⟨_, _, h4 "B", h4 "D", Or.inr ?_⟩
    norm_num [absTol]

/-- moving a node by little is a small change -/
theorem shift_nearby (t : ℝ) (cs : List Call) : List.Forall₂ (Nearby |t|) cs (cs.map (shiftCall ⟨t, 0, 0⟩)) := by
  rw [List.forall₂_map_right_iff]
  refine List.forall₂_same.mpr fun c _ => ?_
  cases c <;> simp only [Nearby, shiftCall]
  case addNode => exact ⟨_, _, _, rfl, by simp, by simp, by simp⟩
  all_goals simp

/-- the portal, and the portal with all nodes moved along x by any `t`: both are accepted and answered -/
example (t : ℝ) : List.Forall₂ (Nearby |t|) portalCalls (portalCalls.map (shiftCall ⟨t, 0, 0⟩)) ∧
    Accepted idealEnv portalCalls ∧ Accepted idealEnv (portalCalls.map (shiftCall ⟨t, 0, 0⟩)) ∧ (∃ u, Reports idealEnv portalCalls [] "X" u) ∧
    (∃ u, Reports idealEnv (portalCalls.map (shiftCall ⟨t, 0, 0⟩)) [] "X" u) := by
  refine ⟨shift_nearby t _, ?_, portal_accepted _ _, portal_reports.1, portal_reports.2.2 _⟩
  have := portal_accepted idealEnv ⟨0, 0, 0⟩
  rwa [show portalCalls.map (shiftCall ⟨0, 0, 0⟩) = portalCalls by simp [portalCalls, shiftCall]] at this

end Hyperstatic
