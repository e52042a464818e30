import Verif.Lemmas.FrameDemo

/-
C69-C73: frames as a whole.  `pre` is the history before `assemble()`; `Poses pre c P` reads the problem `P` of case `c`
(structure, nodes, restraints in force, work of the loads) off the calls; `Reports env pre mid c u` says that `solve_static(c)` returned
True and `u` is what is then reported.
-/

namespace Hyperstatic
open Matrix Spec

theorem beamLoad_congr {g : GivenBeam} {v v' : State} (h : g.ends v = g.ends v') (w : Vec 8) (z : Vec 7) :
    g.distWork w v = g.distWork w v' ∧ g.concWork z v = g.concWork z v' := by
  have e1 : g.axial v = g.axial v' := by unfold GivenBeam.axial; rw [h]
  have e2 : g.defl2 v = g.defl2 v' := by unfold GivenBeam.defl2; rw [h]
  have e3 : g.defl3 v = g.defl3 v' := by unfold GivenBeam.defl3; rw [h]
  have e4 : g.twist v = g.twist v' := by unfold GivenBeam.twist; rw [h]
  constructor
  · unfold GivenBeam.distWork; rw [e1, e2, e3, e4]
  · unfold GivenBeam.concWork; rw [e1, e2, e3, e4]

theorem pattern_congr {s : Blueprint} {nodes : List String} (h : Sane s nodes) (r : PatReg) {v v' : State}
    (hv : ∀ n ∈ nodes, v n = v' n) : s.patternWork nodes r v = s.patternWork nodes r v' := by
  unfold Blueprint.patternWork
  have e1 : (nodes.map fun n => ((r.node n).getD 0) ⬝ᵥ v n) = nodes.map fun n => ((r.node n).getD 0) ⬝ᵥ v' n :=
    List.map_congr_left fun n hn => by rw [hv n hn]
  have e2 : (s.beams.map fun b => (s.beam b).elim 0 fun g =>
      ((r.dist b).elim 0 fun w => g.distWork w v) + ((r.conc b).elim 0 fun w => g.concWork w v)) =
      s.beams.map fun b => (s.beam b).elim 0 fun g =>
      ((r.dist b).elim 0 fun w => g.distWork w v') + ((r.conc b).elim 0 fun w => g.concWork w v') := by
    apply List.map_congr_left
    intro b hb
    obtain ⟨k, hk⟩ := h.term hb
    have e := ends_congr (hv _ (h.start b k hk)) (hv _ (h.stop b k hk))
    rw [hk, Option.elim_some, Option.elim_some]
    cases r.dist b <;> cases r.conc b <;> simp only [Option.elim_none, Option.elim_some, beamLoad_congr e _ 0, beamLoad_congr e 0 _]
  rw [e1, e2]

theorem load_congr {s : Blueprint} {nodes : List String} (h : Sane s nodes) (r : CaseReg) (g : String → Option ℝ) (names : List String)
    {v v' : State} (hv : ∀ n ∈ nodes, v n = v' n) : s.caseWork nodes r g names v = s.caseWork nodes r g names v' := by
  unfold Blueprint.caseWork
  have e : (fun p => (g p).getD 0 * (r.pats p).elim 0 fun q => s.patternWork nodes q v) =
      fun p => (g p).getD 0 * (r.pats p).elim 0 fun q => s.patternWork nodes q v' := by
    funext p
    have : (fun q => s.patternWork nodes q v) = fun q => s.patternWork nodes q v' := funext fun q => pattern_congr h q hv
    rw [this]
  rw [e]

theorem Spec.Poses.sane {pre : List Call} {c : String} {P : Problem} (env : Env) (h : Poses pre c P) : Sane P.frame P.nodes := by
  rw [h.frame, h.nodes]; exact sane_run env pre

theorem Spec.Poses.congr {pre : List Call} {c : String} {P : Problem} (env : Env) (h : Poses pre c P) {v v' : State}
    (hv : ∀ n ∈ P.nodes, v n = v' n) : P.load v = P.load v' := by
  obtain ⟨g, names, _, _, e⟩ := h.load
  rw [e]
  exact load_congr (h.sane env) _ _ _ hv

/-- the reported displacements are in equilibrium -/
theorem reports_equilibrium {env : Env} (henv : env.SolverSound) {pre mid : List Call} (hF : PlainFrame env pre) {c : String}
    {P : Problem} (hD : Poses pre c P) (hst : P.frame.Stable P.nodes P.fix) {u : State} (hu : Reports env pre mid c u) :
    ∃ u', (∀ n ∈ P.nodes, u n = u' n) ∧ Obeys P.fix u' ∧ ∀ v, Obeys P.fix v → P.frame.internal v u' = P.load v := by
  obtain ⟨g, names, hc, hl, e⟩ := hD.load
  obtain ⟨u', h1, h2, _, h4⟩ := C62_end_to_end env henv pre mid hF.readd hF.recreate hu.later _ _ rfl rfl hF.shells c g hc P.frame hD.frame
    P.nodes hD.nodes P.fix hD.fix hst hu.ret
  refine ⟨u', ?_, h2, ?_⟩
  · intro n hn
    have a := h1 n hn
    rw [hD.nodes] at hn
    have b := hu.disp n hn
    rw [a] at b
    exact (List.ofFn_injective (Option.some.inj b)).symm
  · intro v hv
    rw [h4 names hl.1 hl.2 v hv, e]

/-! ### C69 A frame that is connected to a clamped node is solved -/

/-- A frame of beams with positive stiffness in which every node is joined by a chain of beams to a fully restrained node is stable. -/
theorem C69_grounded_stable (pre : List Call) (c : String) (P : Problem) (hD : Poses pre c P) (hpos : P.frame.Positive)
    (hg : P.frame.Grounded P.nodes P.fix) : P.frame.Stable P.nodes P.fix :=
  grounded_stable (hD.sane idealEnv) hpos hg

/-- And `solve_static(c)` returns True and reports the equilibrium, if the case restrains existing nodes only and some component is
free. -/
theorem C69_grounded_solved (env : Env) (henv : env.SolverSound) (pre mid : List Call) (hF : PlainFrame env pre)
    (hmid : ∀ k ∈ mid, k ≠ .assemble) (c : String) (P : Problem) (hD : Poses pre c P) (hpos : P.frame.Positive)
    (hg : P.frame.Grounded P.nodes P.fix)
    (hown : ∀ own, (restReg.run pre).cur.cases c = some own → ∀ n f, own n = some f → n ∈ P.nodes)
    (hfree : ∃ n ∈ P.nodes, ∃ r, ∀ f, P.fix n = some f → f r = false) :
    ∃ u, Reports env pre mid c u ∧ Obeys P.fix u ∧ ∀ v, Obeys P.fix v → P.frame.internal v u = P.load v := by
  have hst := C69_grounded_stable pre c P hD hpos hg
  obtain ⟨g, names, hc, hl, e⟩ := hD.load
  have hcase : ∃ own, (restReg.run pre).cur.cases c = some own := by
    rw [← restReg_refined env pre]
    rw [← caseReg_refined env pre hF.recreate] at hc
    simp only [absReg, Option.map_eq_some_iff] at hc
    obtain ⟨lc, hlc, _⟩ := hc
    exact ⟨_, by simp only [hlc, Option.map_some]; rfl⟩
  obtain ⟨own, hc'⟩ := hcase
  have hret := C62_succeeds env henv pre mid hF.readd hmid _ _ rfl rfl hF.shells c own hc' P.frame hD.frame P.nodes hD.nodes P.fix hD.fix
    hst (fun b k hk => by have := (hpos b k hk).2.1; linarith) (hown own hc') hfree
  obtain ⟨u, h1, h2, _, h4⟩ := C62_end_to_end env henv pre mid hF.readd hF.recreate hmid _ _ rfl rfl hF.shells c g hc P.frame hD.frame
    P.nodes hD.nodes P.fix hD.fix hst hret
  refine ⟨u, ⟨hmid, hret, fun n hn => h1 n (by rw [hD.nodes]; exact hn)⟩, h2, ?_⟩
  intro v hv
  rw [h4 names hl.1 hl.2 v hv, e]

/-- a column with a beam: both ways of loading it are answered -/
theorem portal_reports : (∃ u, Reports idealEnv portalCalls [] "X" u) ∧ (∃ u, Reports idealEnv portalCalls [] "Y" u) ∧
    ∀ d, ∃ u, Reports idealEnv (portalCalls.map (shiftCall d)) [] "X" u := by
  have hfree : ∃ n ∈ (nodeReg.run portalCalls).cur.names, ∃ r : Fin 6,
      ∀ f, (fun n => if n = "A" then some (fun _ => true) else none : String → Option Flags) n = some f → f r = false := by
    refine ⟨"B", by rw [portal_nodes]; simp, 0, ?_⟩
    intro f hf; simp at hf
  have hown : ∀ c own, (restReg.run portalCalls).cur.cases c = some own → ∀ n f, own n = some f → n ∈ (nodeReg.run portalCalls).cur.names := by
    intro c own hc n f hn
    simp [portalCalls, Machine.run, Machine.step, restReg] at hc
    split at hc
    · cases hc; simp at hn
    · split at hc
      · cases hc; simp at hn
      · cases hc
  have hfix : portalY.fix = portalX.fix := portal_rest.2.trans portal_rest.1.symm
  refine ⟨?_, ?_, ?_⟩
  · obtain ⟨u, hu, _⟩ := C69_grounded_solved idealEnv idealEnv_sound portalCalls [] (plainFrame_of_calls _ portal_plain.1) (by simp) "X" portalX
      portalX_describes portal_positive portal_grounded (hown "X") (by have := hfree; rw [← portal_rest.1] at this; exact this)
    exact ⟨u, hu⟩
  · obtain ⟨u, hu, _⟩ := C69_grounded_solved idealEnv idealEnv_sound portalCalls [] (plainFrame_of_calls _ portal_plain.1) (by simp) "Y" portalY
      portalY_describes portal_positive (by rw [hfix]; exact portal_grounded) (hown "Y")
      (by have := hfree; rw [← portal_rest.2] at this; exact this)
    exact ⟨u, hu⟩
  · intro d
    have hrel := blueprint_shift d portalCalls
    let P' : Problem := ⟨(blueprint.run (portalCalls.map (shiftCall d))).cur, portalX.nodes, portalX.fix,
      (blueprint.run (portalCalls.map (shiftCall d))).cur.caseWork portalX.nodes (caseReg.run (portalCalls.map (shiftCall d))).cur
        (fun q => if q = "P" then some 2 else none) ["P"]⟩
    have hD : Poses (portalCalls.map (shiftCall d)) "X" P' := by
      refine ⟨rfl, (nodeReg_shift d portalCalls).symm, ?_, _, _, ?_, ⟨by simp, by intro p; by_cases h : p = "P" <;> simp [h]⟩, rfl⟩
      · rw [restReg_shift]; rfl
      · rw [caseReg_shift]; exact portal_case.1
    have hplain : PlainCalls (portalCalls.map (shiftCall d)) := by
      simp [PlainCalls, portalCalls, shiftCall, addedNode, addedPattern, List.filterMap_cons]
    obtain ⟨u, hu, _⟩ := C69_grounded_solved idealEnv idealEnv_sound _ [] (plainFrame_of_calls _ hplain) (by simp) "X" P' hD
      (by
        intro b g hb
        have hb : (blueprint.run (portalCalls.map (shiftCall d))).cur.beam b = some g := hb
        rw [hrel.beam b, Option.map_eq_some_iff] at hb
        obtain ⟨k, hk, rfl⟩ := hb
        exact portal_positive b k hk)
      (by
        intro n hn
        obtain ⟨m, hm, hch⟩ := portal_grounded n hn
        refine ⟨m, hm, Relation.ReflTransGen.mono ?_ _ _ hch⟩
        rintro i j ⟨b, k, hk, hor⟩
        refine ⟨b, shiftBeam d k, ?_, hor⟩
        show (blueprint.run (portalCalls.map (shiftCall d))).cur.beam b = _
        rw [hrel.beam b]
        have hk : (blueprint.run portalCalls).cur.beam b = some k := hk
        rw [hk]; rfl)
      (by rw [restReg_shift]; exact hown "X") (by have := hfree; rw [← portal_rest.1] at this; exact this)
    exact ⟨u, hu⟩

/-- its case "Y", a line load -/
example : Poses portalCalls "Y" portalY ∧ portalY.fix = portalX.fix ∧ portalX.frame.Stable portalX.nodes portalX.fix :=
  ⟨portalY_describes, portal_rest.2.trans portal_rest.1.symm, C69_grounded_stable _ _ _ portalX_describes portal_positive portal_grounded⟩

/-! ### C70 Reciprocal theorem -/

/-- Two cases of one structure under the same restraints, each solved at any time after `assemble()`: the loads of the first do the same work
on the displacements of the second as the loads of the second on the displacements of the first. -/
theorem C70_reciprocal (env : Env) (henv : env.SolverSound) (pre mid mid' : List Call) (hF : PlainFrame env pre) (c c' : String)
    (P P' : Problem) (hD : Poses pre c P) (hD' : Poses pre c' P') (hfix : ∀ n, P.fix n = P'.fix n)
    (hst : P.frame.Stable P.nodes P.fix) (u u' : State) (hu : Reports env pre mid c u) (hu' : Reports env pre mid' c' u') :
    P.load u' = P'.load u := by
  have e1 : P'.frame = P.frame := by rw [hD.frame, hD'.frame]
  have e2 : P'.nodes = P.nodes := by rw [hD.nodes, hD'.nodes]
  have e3 : P'.fix = P.fix := (funext hfix).symm
  obtain ⟨x, h1, h2, h3⟩ := reports_equilibrium henv hF hD hst hu
  obtain ⟨y, k1, k2, k3⟩ := reports_equilibrium henv hF hD' (by rw [e1, e2, e3]; exact hst) hu'
  rw [e2] at k1
  rw [e3] at k2 k3
  rw [e1] at k3
  rw [hD.congr env k1, hD'.congr env (by rw [e2]; exact h1), ← h3 y k2, ← k3 x h2, internal_symm (hD.sane env)]

/-- Maxwell: a single load `F` on component `r` of node `n` in one case, `F'` on `r'` of `n'` in the other. -/
theorem C70_maxwell (env : Env) (henv : env.SolverSound) (pre mid mid' : List Call) (hF : PlainFrame env pre) (c c' : String)
    (P P' : Problem) (hD : Poses pre c P) (hD' : Poses pre c' P') (hfix : ∀ n, P.fix n = P'.fix n)
    (hst : P.frame.Stable P.nodes P.fix) (u u' : State) (hu : Reports env pre mid c u) (hu' : Reports env pre mid' c' u')
    (n n' : String) (r r' : Fin 6) (F F' : ℝ) (h : ∀ v, P.load v = F * v n r) (h' : ∀ v, P'.load v = F' * v n' r') :
    F * u' n r = F' * u n' r' := by
  rw [← h, ← h']
  exact C70_reciprocal env henv pre mid mid' hF c c' P P' hD hD' hfix hst u u' hu hu'

/-- both cases of the portal are answered, and case "X" is a single load -/
example : (∃ u, Reports idealEnv portalCalls [] "X" u) ∧ (∃ u, Reports idealEnv portalCalls [] "Y" u) ∧
    ∀ v, portalX.load v = -2 * v "D" 2 := ⟨portal_reports.1, portal_reports.2.1, portal_load⟩

/-! ### C71 Minimum of the potential energy -/

theorem potential_diff {s : Blueprint} {nodes : List String} (h : Sane s nodes) {t : String → Option Flags} {load : State → ℝ} {x v : State}
    (hx : Obeys t x) (heq : ∀ v, Obeys t v → s.internal v x = load v) (hv : Obeys t v) :
    (s.internal v v / 2 - load v) - (s.internal x x / 2 - load x) = s.internal ((1:ℝ) • v + (-1:ℝ) • x) ((1:ℝ) • v + (-1:ℝ) • x) / 2 := by
  rw [← heq v hv, ← heq x hx, internal_lin h, internal_symm h ((1:ℝ) • v + (-1:ℝ) • x) v,
    internal_symm h ((1:ℝ) • v + (-1:ℝ) • x) x, internal_lin h, internal_lin h, internal_symm h x v]
  ring

/-- Beams of positive stiffness: among all displacement states that obey the restraints, the reported one has the least total potential
energy, and no other one has as little. -/
theorem C71_minimum (env : Env) (henv : env.SolverSound) (pre mid : List Call) (hF : PlainFrame env pre) (c : String) (P : Problem)
    (hD : Poses pre c P) (hpos : P.frame.Positive) (hst : P.frame.Stable P.nodes P.fix) (u : State)
    (hu : Reports env pre mid c u) (v : State) (hv : Obeys P.fix v) :
    P.potential u ≤ P.potential v ∧ (P.potential v = P.potential u → ∀ n ∈ P.nodes, v n = u n) := by
  have hS := hD.sane env
  obtain ⟨x, h1, h2, h3⟩ := reports_equilibrium henv hF hD hst hu
  have e : P.potential u = P.potential x := by
    unfold Problem.potential
    rw [internal_congr hS h1 h1, hD.congr env h1]
  have hd := potential_diff hS h2 h3 hv
  have hn := internal_nonneg hS hpos ((1:ℝ) • v + (-1:ℝ) • x)
  rw [e]
  constructor
  · unfold Problem.potential; linarith
  · intro heq n hmem
    unfold Problem.potential at heq
    have := hst _ (Obeys.lin hv h2 1 (-1)) (by linarith) n hmem
    rw [h1 n hmem]
    simpa [sub_eq_zero, ← sub_eq_add_neg] using this

/-- Clapeyron: the work of the loads on the reported displacements is the internal work, and it is not negative. -/
theorem C71_work (env : Env) (henv : env.SolverSound) (pre mid : List Call) (hF : PlainFrame env pre) (c : String) (P : Problem)
    (hD : Poses pre c P) (hpos : P.frame.Positive) (hst : P.frame.Stable P.nodes P.fix) (u : State)
    (hu : Reports env pre mid c u) : P.load u = P.frame.internal u u ∧ 0 ≤ P.load u := by
  have hS := hD.sane env
  obtain ⟨x, h1, h2, h3⟩ := reports_equilibrium henv hF hD hst hu
  have e : P.load u = P.frame.internal u u := by
    rw [hD.congr env h1, ← h3 x h2, internal_congr hS h1 h1]
  exact ⟨e, by rw [e]; exact internal_nonneg hS hpos u⟩

/-- a competitor for the portal: all nodes at rest -/
example : Obeys portalX.fix 0 ∧ portalX.frame.Positive := ⟨fun _ _ _ _ _ => rfl, portal_positive⟩

/-! ### C72 Stiffening never increases the work of the loads -/

theorem beamWork_mono {c c' : BeamConsts} {l : ℝ} (hl : 0 < l) (hA : c.E * c.A ≤ c'.E * c'.A) (h2 : c.E * c.I2 ≤ c'.E * c'.I2)
    (h3 : c.E * c.I3 ≤ c'.E * c'.I3) (hJ : c.G * c.J ≤ c'.G * c'.J) (d : Vec 12) : beamWork c l d d ≤ beamWork c' l d d := by
  rw [← beamK_bilin _ hl.ne', ← beamK_bilin _ hl.ne', C30_sum_of_squares _ _ hl.ne', C30_sum_of_squares _ _ hl.ne']
  have i1 := div_le_div_of_nonneg_right hA hl.le
  have i2 := div_le_div_of_nonneg_right h2 hl.le
  have i3 := div_le_div_of_nonneg_right h3 hl.le
  have i4 := div_le_div_of_nonneg_right hJ hl.le
  gcongr

theorem list_sum_subset {l l' : List String} {f f' : String → ℝ} (hn : l.Nodup) (hsub : ∀ a ∈ l, a ∈ l') (hle : ∀ a ∈ l, f a ≤ f' a)
    (hpos : ∀ a ∈ l', 0 ≤ f' a) : (l.map f).sum ≤ (l'.map f').sum := by
  have h1 : (l.map f).sum ≤ (l.map f').sum := List.sum_le_sum hle
  have hr := (List.subperm_append_diff_self_of_count_le (l₁ := l) (l₂ := l')
    (List.subperm_ext_iff.mp (List.subperm_of_subset hn hsub))).symm
  generalize l'.diff l = r at hr
  rw [(hr.map f').sum_eq, List.map_append, List.sum_append]
  have h2 : 0 ≤ (r.map f').sum := List.sum_nonneg (by
    intro y hy
    obtain ⟨b, hb, rfl⟩ := List.mem_map.mp hy
    exact hpos b (hr.symm.subset (List.mem_append_right _ hb)))
  linarith

theorem stiffer_internal {s s' : Blueprint} {nodes nodes' : List String} (h : Sane s nodes) (h' : Sane s' nodes') (hs : Stiffer s s')
    (hp' : s'.Positive) (u : State) : s.internal u u ≤ s'.internal u u := by
  apply list_sum_subset h.nodup
  · intro b hb
    obtain ⟨g, hg⟩ := h.term hb
    obtain ⟨g', hg', _⟩ := hs b g hg
    exact (h'.mem b).mpr (by rw [hg']; rfl)
  · intro b hb
    obtain ⟨g, hg⟩ := h.term hb
    obtain ⟨g', hg', e1, e2, e3, e4, i1, i2, i3, i4⟩ := hs b g hg
    obtain ⟨c, hc⟩ := h.ok b g hg
    obtain ⟨c', hc'⟩ := h'.ok b g' hg'
    simp only [hg, hg', Option.elim_some]
    rw [internal_eq hc, internal_eq hc']
    have el : g'.len = g.len := by unfold GivenBeam.len; rw [e3, e4]
    have ee : g'.ends u = g.ends u := by unfold GivenBeam.ends; rw [e1, e2, e3, e4]
    rw [el, ee]
    exact beamWork_mono (len_pos hc) i1 i2 i3 i4 _
  · intro b hb
    obtain ⟨g, hg⟩ := h'.term hb
    obtain ⟨c, hc⟩ := h'.ok b g hg
    simp only [hg, Option.elim_some]
    exact ginternal_nonneg hc (hp' b g hg) u

/-- Two models with the same nodes and the same loads.  The second has stiffer or additional beams and the same or additional restraints.
Then it is stable if the first is, and its loads do no more work on its reported displacements than in the first.  (For a single load:
the displacement in its direction does not grow.) -/
theorem C72_stiffening (env : Env) (henv : env.SolverSound) (pre pre' mid mid' : List Call) (hF : PlainFrame env pre)
    (hF' : PlainFrame env pre') (c c' : String) (P P' : Problem) (hD : Poses pre c P) (hD' : Poses pre' c' P')
    (hnodes : P'.nodes = P.nodes) (hload : ∀ v, P'.load v = P.load v) (hfix : ∀ v, Obeys P'.fix v → Obeys P.fix v)
    (hs : Stiffer P.frame P'.frame) (hpos : P.frame.Positive) (hpos' : P'.frame.Positive) (hst : P.frame.Stable P.nodes P.fix) :
    P'.frame.Stable P'.nodes P'.fix ∧
    ∀ u u', Reports env pre mid c u → Reports env pre' mid' c' u' → P'.load u' ≤ P.load u := by
  have hS := hD.sane env
  have hS' := hD'.sane env
  have hst' : P'.frame.Stable P'.nodes P'.fix := by
    intro u hu h0
    rw [hnodes]
    refine hst u (hfix u hu) ?_
    have h1 := stiffer_internal hS hS' hs hpos' u
    have h2 := internal_nonneg hS hpos u
    linarith
  refine ⟨hst', ?_⟩
  intro u u' hu hu'
  obtain ⟨x, h1, h2, h3⟩ := reports_equilibrium henv hF hD hst hu
  obtain ⟨y, k1, k2, k3⟩ := reports_equilibrium henv hF' hD' hst' hu'
  rw [hD'.congr env k1, hD.congr env h1]
  have hd := potential_diff hS h2 h3 (hfix y k2)
  have hn := internal_nonneg hS hpos ((1:ℝ) • y + (-1:ℝ) • x)
  have hle := stiffer_internal hS hS' hs hpos' y
  have e1 := h3 x h2
  have e2 := k3 y k2
  have e3 := hload y
  linarith

/-- the portal and the braced portal -/
example : Poses portalCalls "X" portalX ∧ Poses bracedCalls "X" bracedX ∧ PlainFrame idealEnv bracedCalls ∧
    bracedX.nodes = portalX.nodes ∧ (∀ v, bracedX.load v = portalX.load v) ∧ Stiffer portalX.frame bracedX.frame ∧
    portalX.frame.Positive ∧ bracedX.frame.Positive :=
  ⟨portalX_describes, bracedX_describes, plainFrame_of_calls _ portal_plain.2, rfl, fun v => (braced_load v).trans (portal_load v).symm,
    braced_stiffer, portal_positive, braced_positive⟩

/-! ### C73 The position of the origin does not matter -/

/-- two problems with the same mechanics have the same answer -/
theorem same_answer {s : Blueprint} {nodes : List String} (h : Sane s nodes) {t : String → Option Flags} (hst : s.Stable nodes t)
    {load : State → ℝ} {x y : State} (hx : Obeys t x) (hy : Obeys t y) (ex : ∀ v, Obeys t v → s.internal v x = load v)
    (ey : ∀ v, Obeys t v → s.internal v y = load v) : ∀ n ∈ nodes, x n = y n := by
  intro n hn
  have hd := Obeys.lin hx hy 1 (-1)
  have := hst _ hd (by rw [internal_lin h, ex _ hd, ey _ hd]; ring) n hn
  simpa [sub_eq_zero, ← sub_eq_add_neg] using this

/-- The same calls with all nodes moved by the same vector: the same displacements are reported. -/
theorem C73_translation (env : Env) (henv : env.SolverSound) (pre mid mid' : List Call) (d : V3) (hF : PlainFrame env pre)
    (hF' : PlainFrame env (pre.map (shiftCall d))) (c : String) (P : Problem) (hD : Poses pre c P)
    (hst : P.frame.Stable P.nodes P.fix) (u u' : State) (hu : Reports env pre mid c u)
    (hu' : Reports env (pre.map (shiftCall d)) mid' c u') : ∀ n ∈ P.nodes, u' n = u n := by
  have hS := hD.sane env
  have hrel := blueprint_shift d pre
  obtain ⟨m1, m2⟩ := mechanics_same (s := (blueprint.run pre).cur) (s' := (blueprint.run (pre.map (shiftCall d))).cur) hrel.beams (by
    intro b
    rw [hrel.beam b]
    cases hb : (blueprint.run pre).cur.beam b with
    | none => exact Or.inl ⟨rfl, rfl⟩
    | some g => exact Or.inr ⟨g, shiftBeam d g, rfl, rfl, len_shift d g, rfl, ends_shift d g⟩)
  obtain ⟨g, names, hc, hl, e⟩ := hD.load
  let P' : Problem := { P with frame := (blueprint.run (pre.map (shiftCall d))).cur }
  have hD' : Poses (pre.map (shiftCall d)) c P' := by
    refine ⟨rfl, hD.nodes.trans (nodeReg_shift d pre).symm, ?_, g, names, ?_, hl, ?_⟩
    · show P.fix = _
      rw [restReg_shift]; exact hD.fix
    · rw [caseReg_shift]; exact hc
    · funext v
      show P.load v = _
      rw [caseReg_shift, m2, e, hD.frame]
  obtain ⟨x, h1, h2, h3⟩ := reports_equilibrium henv hF hD hst hu
  have hst' : P'.frame.Stable P'.nodes P'.fix := by
    intro v hv h0
    refine hst v hv ?_
    rw [hD.frame, ← m1]; exact h0
  obtain ⟨y, k1, k2, k3⟩ := reports_equilibrium henv hF' hD' hst' hu'
  intro n hn
  rw [h1 n hn, k1 n hn]
  refine same_answer hS hst k2 h2 (load := P.load) (fun v hv => ?_) h3 n hn
  rw [hD.frame, ← m1]
  exact k3 v hv

/-- the portal, here and there -/
example (d : V3) : (∃ u, Reports idealEnv portalCalls [] "X" u) ∧ ∃ u, Reports idealEnv (portalCalls.map (shiftCall d)) [] "X" u :=
  ⟨portal_reports.1, portal_reports.2.2 d⟩

end Hyperstatic
