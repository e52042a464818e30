import Verif.Spec.Statics
import Verif.Props.FrameLaws

/-
C133–C136: forces of supports, supports and forces in place of each other, work and displacements.
-/

namespace Hyperstatic
open Matrix Spec

/-! ### linearity of the work of loads -/

theorem distWork_dot {g : GivenBeam} (hl : 0 < g.len) (w : Vec 8) (v : State) :
    g.distWork w v = distF ![w 0, w 2, w 4, w 6, 0, 0, w 1, w 3, w 5, w 7, 0, 0] g.len ⬝ᵥ g.ends v := by
  rw [distF_work hl w (fields_given g.len hl (g.ends v))]
  rfl

theorem concWork_dot {g : GivenBeam} (hl : 0 < g.len) (w : Vec 7) (v : State) : g.concWork w v = concF w g.len ⬝ᵥ g.ends v := by
  rw [concF_work hl w (fields_given g.len hl (g.ends v))]
  rfl

theorem nodalWork_lin (nodes : List String) (F : String → Vec 6) (a b : ℝ) (v w : State) :
    nodalWork nodes F (a • v + b • w) = a * nodalWork nodes F v + b * nodalWork nodes F w := by
  unfold nodalWork
  rw [← List.sum_map_mul_left, ← List.sum_map_mul_left, ← List.sum_map_add]
  congr 1
  apply List.map_congr_left
  intro n _
  simp only [Pi.add_apply, Pi.smul_apply, dotProduct_add, dotProduct_smul, smul_eq_mul]

theorem pattern_lin {s : Blueprint} {nodes : List String} (h : Sane s nodes) (r : PatReg) (a b : ℝ) (v w : State) :
    s.patternWork nodes r (a • v + b • w) = a * s.patternWork nodes r v + b * s.patternWork nodes r w := by
  unfold Blueprint.patternWork
  have e1 := nodalWork_lin nodes (fun n => (r.node n).getD 0) a b v w
  unfold nodalWork at e1
  rw [e1, mul_add, mul_add]
  have e2 : (s.beams.map fun k => (s.beam k).elim 0 fun g => ((r.dist k).elim 0 fun z => g.distWork z (a • v + b • w)) +
        ((r.conc k).elim 0 fun z => g.concWork z (a • v + b • w))).sum =
      a * (s.beams.map fun k => (s.beam k).elim 0 fun g => ((r.dist k).elim 0 fun z => g.distWork z v) +
        ((r.conc k).elim 0 fun z => g.concWork z v)).sum +
      b * (s.beams.map fun k => (s.beam k).elim 0 fun g => ((r.dist k).elim 0 fun z => g.distWork z w) +
        ((r.conc k).elim 0 fun z => g.concWork z w)).sum := by
    rw [← List.sum_map_mul_left, ← List.sum_map_mul_left, ← List.sum_map_add]
    congr 1
    apply List.map_congr_left
    intro k hk
    obtain ⟨g, hg⟩ := h.term hk
    obtain ⟨c, hc⟩ := h.ok k g hg
    have hl := len_pos hc
    simp only [hg, Option.elim_some]
    cases r.dist k <;> cases r.conc k <;>
      simp only [Option.elim_none, Option.elim_some, distWork_dot hl, concWork_dot hl, ends_lin, dotProduct_add, dotProduct_smul, smul_eq_mul] <;>
      ring
  rw [e2]
  ring

theorem caseWork_lin {s : Blueprint} {nodes : List String} (h : Sane s nodes) (r : CaseReg) (g : String → Option ℝ) (names : List String)
    (a b : ℝ) (v w : State) :
    s.caseWork nodes r g names (a • v + b • w) = a * s.caseWork nodes r g names v + b * s.caseWork nodes r g names w := by
  unfold Blueprint.caseWork
  rw [← List.sum_map_mul_left, ← List.sum_map_mul_left, ← List.sum_map_add]
  congr 1
  apply List.map_congr_left
  intro p _
  cases r.pats p with
  | none => simp
  | some q => simp only [Option.elim_some, pattern_lin h]; ring

theorem Spec.Poses.lin {pre : List Call} {c : String} {P : Problem} (env : Env) (h : Poses pre c P) (a b : ℝ) (v w : State) :
    P.load (a • v + b • w) = a * P.load v + b * P.load w := by
  obtain ⟨g, names, _, _, e⟩ := h.load
  rw [e]
  exact caseWork_lin (h.sane env) _ _ _ a b v w

theorem internal_lin_left {s : Blueprint} {nodes : List String} (h : Sane s nodes) (a b : ℝ) (v w u : State) :
    s.internal (a • v + b • w) u = a * s.internal v u + b * s.internal w u := by
  rw [internal_symm h, internal_lin h, internal_symm h u v, internal_symm h u w]

theorem nodes_nodup {pre : List Call} {c : String} {P : Problem} (env : Env) (h : Poses pre c P) : P.nodes.Nodup := by
  rw [h.nodes, ← (C02_node_registry env pre).1]
  exact (ApiInv_run env pre).1.nodes_wf

/-- a functional that depends linearly on the displacements of finitely many nodes is the work of nodal forces -/
theorem work_of_nodal {nodes : List String} (hn : nodes.Nodup) (L : State → ℝ) (hlin : ∀ a b v w, L (a • v + b • w) = a * L v + b * L w)
    (hcong : ∀ v w : State, (∀ n ∈ nodes, v n = w n) → L v = L w) (v : State) :
    L v = nodalWork nodes (fun n r => L (unitAt n r)) v := by
  have h0 : L 0 = 0 := by
    have := hlin 0 0 0 0
    simpa using this
  have hadd : ∀ v w : State, L (v + w) = L v + L w := fun v w => by
    have := hlin 1 1 v w
    simpa using this
  have hsm : ∀ (a : ℝ) (v : State), L (a • v) = a * L v := fun a v => by
    have := hlin a 0 v 0
    simpa using this
  have hfin : ∀ (f : Fin 6 → State), L (∑ r, f r) = ∑ r, L (f r) := by
    intro f
    simp only [Fin.sum_univ_six, hadd]
  have key : ∀ l : List String, L ((l.map fun n => ∑ r : Fin 6, v n r • unitAt n r).sum) =
      nodalWork l (fun n r => L (unitAt n r)) v := by
    intro l
    induction l with
    | nil => simpa [nodalWork] using h0
    | cons m l ih =>
      unfold nodalWork at ih ⊢
      rw [List.map_cons, List.sum_cons, hadd, ih, List.map_cons, List.sum_cons, hfin]
      congr 1
      unfold dotProduct
      apply Finset.sum_congr rfl
      intro r _
      rw [hsm, mul_comm]
  rw [← key nodes]
  apply hcong
  intro m hm
  have hs : ∀ l : List String, l.Nodup → ((l.map fun n => ∑ r : Fin 6, v n r • unitAt n r).sum : State) m = if m ∈ l then v m else 0 := by
    intro l hl
    induction l with
    | nil => simp
    | cons k l ih =>
      obtain ⟨hk, hl⟩ := List.nodup_cons.mp hl
      rw [List.map_cons, List.sum_cons, Pi.add_apply, ih hl]
      have hsum : (∑ r : Fin 6, v k r • unitAt k r : State) m = if m = k then v k else 0 := by
        funext q
        rw [Finset.sum_apply, Finset.sum_apply]
        simp only [Pi.smul_apply, unitAt, smul_eq_mul]
        by_cases e : m = k
        · subst e
          simp only [true_and, if_true]
          rw [Finset.sum_eq_single q (fun r _ hr => by simp [Ne.symm hr]) (fun h => absurd (Finset.mem_univ _) h)]
          simp
        · simp [e]
      rw [hsum]
      by_cases e : m = k
      · subst e; simp [hk]
      · simp [e]
  rw [hs nodes hn, if_pos hm]

theorem nodalWork_unit {nodes : List String} (hn : nodes.Nodup) (F : String → Vec 6) {m : String} (hm : m ∈ nodes) (r : Fin 6) :
    nodalWork nodes F (unitAt m r) = F m r := by
  unfold nodalWork
  have hz : ∀ k, k ≠ m → F k ⬝ᵥ unitAt m r k = 0 := by
    intro k hk
    unfold dotProduct unitAt
    simp [hk]
  have hu : F m ⬝ᵥ unitAt m r m = F m r := by
    unfold dotProduct unitAt
    simp
  induction nodes with
  | nil => cases hm
  | cons k l ih =>
    obtain ⟨hk, hl⟩ := List.nodup_cons.mp hn
    rw [List.map_cons, List.sum_cons]
    by_cases e : k = m
    · subst e
      rw [hu, List.sum_eq_zero, add_zero]
      intro z hz'
      obtain ⟨j, hj, rfl⟩ := List.mem_map.mp hz'
      exact hz j (by rintro rfl; exact hk hj)
    · rw [hz k e, zero_add]
      exact ih hl ((List.mem_cons.mp hm).resolve_left (Ne.symm e))

theorem nodalWork_zero {nodes : List String} {F : String → Vec 6} {t : String → Option Flags}
    (ho : ∀ n ∈ nodes, ∀ r, F n r ≠ 0 → Restrained t n r) {v : State} (hv : Obeys t v) : nodalWork nodes F v = 0 := by
  apply List.sum_eq_zero
  intro z hz
  obtain ⟨n, hn, rfl⟩ := List.mem_map.mp hz
  apply Finset.sum_eq_zero
  intro r _
  by_cases h0 : F n r = 0
  · rw [h0, zero_mul]
  · rw [(obeys_iff _ _).mp hv n r (ho n hn r h0), mul_zero]

/-! ### C133 Supports balance the loads -/

/-- There are forces of the supports that keep the reported displacements in equilibrium, and they are determined. -/
theorem C133_supports (env : Env) (henv : env.SolverSound) (pre mid : List Call) (hF : PlainFrame env pre) (c : String) (P : Problem)
    (hD : Poses pre c P) (hst : P.frame.Stable P.nodes P.fix) (u : State) (hu : Reports env pre mid c u) :
    ∃ R, SupportForces P u R ∧ ∀ R', SupportForces P u R' → ∀ n ∈ P.nodes, R' n = R n := by
  have hS := hD.sane env
  have hn := nodes_nodup env hD
  obtain ⟨x, h1, h2, h3⟩ := reports_equilibrium henv hF hD hst hu
  let L : State → ℝ := fun v => P.frame.internal v u - P.load v
  have hL : ∀ v, L v = nodalWork P.nodes (fun n r => L (unitAt n r)) v := by
    apply work_of_nodal hn
    · intro a b v w
      show P.frame.internal _ u - P.load _ = _
      rw [internal_lin_left hS, hD.lin env]
      ring
    · intro v w h
      show P.frame.internal _ u - P.load _ = P.frame.internal _ u - P.load _
      rw [internal_congr hS h (fun _ _ => rfl), hD.congr env h]
  refine ⟨fun n r => L (unitAt n r), ⟨?_, ?_⟩, ?_⟩
  · intro n _ r hr
    by_contra hc
    apply hr
    show P.frame.internal _ u - P.load _ = 0
    rw [internal_congr hS (fun _ _ => rfl) h1, h3, sub_self]
    rw [obeys_iff]
    intro m q hm
    show (if m = n ∧ q = r then (1:ℝ) else 0) = 0
    apply if_neg
    rintro ⟨rfl, rfl⟩
    exact hc hm
  · intro v
    rw [← hL]
    show _ = P.load v + (P.frame.internal v u - P.load v)
    ring
  · intro R' hR' n hmem
    funext r
    have := hR'.work (unitAt n r)
    rw [nodalWork_unit hn R' hmem] at this
    show R' n r = P.frame.internal _ u - P.load _
    linarith

theorem part_rigid {env : Env} {pre : List Call} (hpre : NoReadd env World.init pre) (part : String → Prop)
    (hp : Separate (blueprint.run pre).cur part) (t ω : V3) (u : State) :
    (blueprint.run pre).cur.internal (within part (rigidState (blueprint.run pre).cur.loc t ω)) u = 0 := by
  have hfr := (FreshInv_run env pre hpre).1
  have hS := sane_run env pre
  rw [internal_symm hS]
  have hb := blueprint_refined env pre
  unfold Blueprint.internal
  apply List.sum_eq_zero
  intro z hz
  obtain ⟨b, hbm, rfl⟩ := List.mem_map.mp hz
  obtain ⟨g, hg⟩ := hS.term hbm
  obtain ⟨cs, hcs⟩ := hS.ok b g hg
  simp only [hg, Option.elim_some]
  have hg0 := hg
  rw [← hb] at hg
  simp only [blueprintOf, Option.map_eq_some_iff] at hg
  obtain ⟨be, hbe, rfl⟩ := hg
  obtain ⟨⟨n0, h0, e0⟩, ⟨n1, k0, e1⟩⟩ := hfr.beam_loc b be hbe
  obtain ⟨_, _, _, hc, _⟩ := hfr.toApiInv.beam_ok b be hbe
  have hiff := hp b _ hg0
  by_cases h : part be.startName
  · have h' : part be.endName := hiff.mp h
    have := beam_rigid hc (loc := (blueprint.run pre).cur.loc) (by rw [← hb]; simp only [blueprintOf, h0, Option.map_some, e0])
      (by rw [← hb]; simp only [blueprintOf, k0, Option.map_some, e1]) t ω u
    rw [← this, ← givenBeam_internal (lineCsys_ok hc).2.1 hc, internal_eq hcs, internal_eq hcs]
    congr 1
    apply ends_congr
    · exact if_pos h
    · exact if_pos h'
  · have h' : ¬ part be.endName := fun hx => h (hiff.mpr hx)
    rw [internal_eq hcs, show (givenBeam be).ends (within part (rigidState (blueprint.run pre).cur.loc t ω)) = 0 from
      ends_still _ (if_neg h) (if_neg h')]
    unfold beamWork bendWork
    simp

/-- Loads and support forces are in balance: together they do no work in any rigid motion of the structure or of a part of it that is not
connected to the rest. -/
theorem C133_balance (env : Env) (pre : List Call) (hF : PlainFrame env pre) (c : String) (P : Problem) (hD : Poses pre c P) (u : State)
    (R : String → Vec 6) (hR : SupportForces P u R) (part : String → Prop) (hp : Separate P.frame part) (t ω : V3) :
    P.load (within part (rigidState P.frame.loc t ω)) + nodalWork P.nodes R (within part (rigidState P.frame.loc t ω)) = 0 := by
  rw [← hR.work, hD.frame]
  rw [hD.frame] at hp
  exact part_rigid hF.readd part hp t ω u

theorem forceSum_add (nodes : List String) (F R : String → Vec 6) : forceSum nodes (fun n => F n + R n) = forceSum nodes F + forceSum nodes R := by
  unfold forceSum
  ext <;> simp [List.sum_map_add]

theorem located {env : Env} {pre : List Call} {n : String} (h : n ∈ (nodeReg.run pre).cur.names) :
    (blueprint.run pre).cur.loc n = some ((blueprint.run pre).cur.at n) := by
  have : ((blueprint.run pre).cur.loc n).isSome := by
    rw [← blueprint_refined env pre]
    rw [← (C02_node_registry env pre).1] at h
    simp only [blueprintOf, Option.isSome_map]
    exact (Dict.get?_isSome_iff _ _).mpr h
  unfold Blueprint.at
  cases e : (blueprint.run pre).cur.loc n with
  | none => rw [e] at this; cases this
  | some x => rfl

theorem rigid_work_nodal (s : Blueprint) (nodes : List String) (hloc : ∀ n ∈ nodes, s.loc n = some (s.at n)) (F : String → Vec 6) (o t ω : V3) :
    nodalWork nodes F (rigidState s.loc (t - ω.cross o) ω) = t.dot (forceSum nodes F) + ω.dot (momentSum s nodes o F) := by
  unfold nodalWork forceSum momentSum V3.dot
  simp only
  rw [← List.sum_map_mul_left, ← List.sum_map_mul_left, ← List.sum_map_mul_left, ← List.sum_map_mul_left, ← List.sum_map_mul_left,
    ← List.sum_map_mul_left, ← List.sum_map_add, ← List.sum_map_add, ← List.sum_map_add, ← List.sum_map_add, ← List.sum_map_add]
  congr 1
  apply List.map_congr_left
  intro n hn
  unfold rigidState
  rw [hloc n hn]
  simp only [dotProduct, Fin.sum_univ_six, cons_val, V3.cross, V3.add_def, V3.sub_def, Spec.trans, Spec.rot]
  ring

/-- In particular, when the loads are the nodal forces `F`: the forces of loads and supports add up to zero, and so do their moments about
every point. -/
theorem C133_resultants (env : Env) (pre : List Call) (hF : PlainFrame env pre) (c : String) (P : Problem) (hD : Poses pre c P) (u : State)
    (R : String → Vec 6) (hR : SupportForces P u R) (F : String → Vec 6) (hload : ∀ v, P.load v = nodalWork P.nodes F v) (o : V3) :
    forceSum P.nodes (fun n => F n + R n) = 0 ∧ momentSum P.frame P.nodes o (fun n => F n + R n) = 0 := by
  have hloc : ∀ n ∈ P.nodes, P.frame.loc n = some (P.frame.at n) := by
    intro n hn
    rw [hD.nodes] at hn
    rw [hD.frame]
    exact located (env := env) hn
  have key : ∀ t ω : V3, t.dot (forceSum P.nodes (fun n => F n + R n)) + ω.dot (momentSum P.frame P.nodes o (fun n => F n + R n)) = 0 := by
    intro t ω
    have := C133_balance env pre hF c P hD u R hR (fun _ => True) (fun _ _ _ => Iff.rfl) (t - ω.cross o) ω
    have e : ∀ v, within (fun _ => True) v = v := fun v => funext fun n => if_pos trivial
    rw [e, hload] at this
    rw [← rigid_work_nodal P.frame P.nodes hloc, ← this]
    unfold nodalWork
    rw [← List.sum_map_add]
    congr 1
    apply List.map_congr_left
    intro n _
    rw [add_dotProduct]
  generalize forceSum P.nodes (fun n => F n + R n) = f at key
  generalize momentSum P.frame P.nodes o (fun n => F n + R n) = m at key
  have a1 := key ⟨1, 0, 0⟩ 0
  have a2 := key ⟨0, 1, 0⟩ 0
  have a3 := key ⟨0, 0, 1⟩ 0
  have b1 := key 0 ⟨1, 0, 0⟩
  have b2 := key 0 ⟨0, 1, 0⟩
  have b3 := key 0 ⟨0, 0, 1⟩
  simp [V3.dot] at a1 a2 a3 b1 b2 b3
  constructor <;> ext <;> simp [*]

/-- Supports replaced by their forces: the same displacements are reported. -/
theorem C133_replaced (env : Env) (henv : env.SolverSound) (pre pre' mid mid' : List Call) (hF : PlainFrame env pre)
    (hF' : PlainFrame env pre') (c c' : String) (P P' : Problem) (hD : Poses pre c P) (hD' : Poses pre' c' P')
    (hst' : P'.frame.Stable P'.nodes P'.fix) (u u' : State) (hu : Reports env pre mid c u) (hu' : Reports env pre' mid' c' u')
    (R F : String → Vec 6) (hR : SupportForces P u R) (hP : Replaced P P' R F) : ∀ n ∈ P.nodes, u' n = u n := by
  have hS := hD.sane env
  have weak : ∀ v, Obeys P.fix v → Obeys P'.fix v := by
    intro v hv
    rw [obeys_iff] at hv ⊢
    exact fun n r h => hv n r (hP.keep n r h)
  have hst : P.frame.Stable P.nodes P.fix := fun v hv h0 => by
    have := hst' v (weak v hv) (by rw [hP.frame]; exact h0)
    rwa [hP.nodes] at this
  obtain ⟨x, h1, h2, h3⟩ := reports_equilibrium henv hF hD hst hu
  obtain ⟨y, k1, k2, k3⟩ := reports_equilibrium henv hF' hD' hst' hu'
  rw [hP.frame] at k3
  rw [hP.nodes] at k1
  have := same_answer hS (by rw [hP.frame, hP.nodes] at hst'; exact hst') k2 (weak x h2) k3 (fun v hv => by
    have e : nodalWork P.nodes F v = nodalWork P.nodes R v := by
      unfold nodalWork
      congr 1
      apply List.map_congr_left
      intro n hn
      apply Finset.sum_congr rfl
      intro r _
      by_cases h : Restrained P'.fix n r
      · rw [(obeys_iff _ _).mp hv n r h, mul_zero, mul_zero]
      · rw [hP.force n hn r h]
    rw [hP.load, e, ← hR.work, internal_congr hS (fun _ _ => rfl) h1])
  intro n hn
  rw [k1 n hn, this n hn, h1 n hn]

/-- the forces of the portal: vertical, and with the arm of the load -/
theorem portal_forces (u : State) (R : String → Vec 6) (hR : SupportForces portalX u R) : R "A" = ![0, 0, 2, 0, -8, 0] := by
  have hn : portalX.nodes = ["A", "B", "D"] := portal_nodes
  have hfree : ∀ n ∈ portalX.nodes, n ≠ "A" → R n = 0 := by
    intro n hmem hne
    funext r
    by_contra h
    obtain ⟨f, hf, _⟩ := hR.only n hmem r h
    rw [show portalX.fix = _ from portal_rest.1] at hf
    simp [hne] at hf
  have hB := hfree "B" (by rw [hn]; simp) (by decide)
  have hDD := hfree "D" (by rw [hn]; simp) (by decide)
  have hl : ∀ v, portalX.load v = nodalWork portalX.nodes (fun n => if n = "D" then ![0, 0, -2, 0, 0, 0] else 0) v := by
    intro v
    rw [portal_load, hn]
    simp [nodalWork, dotProduct, Fin.sum_univ_six]
  obtain ⟨h1, h2⟩ := C133_resultants idealEnv _ (plainFrame_of_calls _ portal_plain.1) "X" _ portalX_describes u R hR _ hl 0
  have a1 := congrArg V3.x h1
  have a2 := congrArg V3.y h1
  have a3 := congrArg V3.z h1
  have b1 := congrArg V3.x h2
  have b2 := congrArg V3.y h2
  have b3 := congrArg V3.z h2
  have lA : portalX.frame.at "A" = ⟨0, 0, 0⟩ := by
    unfold Blueprint.at
    rw [show portalX.frame.loc "A" = _ from portal_frame.2.2 "A"]; simp
  have lB : portalX.frame.at "B" = ⟨0, 0, 3⟩ := by
    unfold Blueprint.at
    rw [show portalX.frame.loc "B" = _ from portal_frame.2.2 "B"]; simp
  have lD : portalX.frame.at "D" = ⟨4, 0, 3⟩ := by
    unfold Blueprint.at
    rw [show portalX.frame.loc "D" = _ from portal_frame.2.2 "D"]; simp
  rw [hn] at a1 a2 a3 b1 b2 b3
  simp [forceSum, momentSum, hB, hDD, lA, lB, lD, V3.cross, Spec.trans, Spec.rot] at a1 a2 a3 b1 b2 b3
  funext i
  fin_cases i <;> simp <;> linarith

example : ∃ u R, Reports idealEnv portalCalls [] "X" u ∧ SupportForces portalX u R ∧ R "A" = ![0, 0, 2, 0, -8, 0] := by
  obtain ⟨u, hu⟩ := portal_reports.1
  obtain ⟨R, hR, _⟩ := C133_supports idealEnv idealEnv_sound _ _ (plainFrame_of_calls _ portal_plain.1) "X" _ portalX_describes
    (C69_grounded_stable _ _ _ portalX_describes portal_positive portal_grounded) u hu
  exact ⟨u, R, hu, hR, portal_forces u R hR⟩

/-! ### C134 An additional support -/

/-- under a single load of 1 the loaded component moves -/
theorem unit_moves {s : Blueprint} {nodes : List String} (hS : Sane s nodes) {t : String → Option Flags} (hst : s.Stable nodes t) {n : String}
    {r : Fin 6} (hfree : ¬ Restrained t n r) {x : State} (hx : Obeys t x) (h3 : ∀ v, Obeys t v → s.internal v x = v n r) : x n r ≠ 0 := by
  intro h0
  have hz := hst x hx (by rw [h3 x hx, h0])
  have ho : Obeys t (unitAt n r) := by
    rw [obeys_iff]
    intro m q hm
    show (if m = n ∧ q = r then (1:ℝ) else 0) = 0
    apply if_neg
    rintro ⟨rfl, rfl⟩
    exact hfree hm
  have h1 := h3 _ ho
  rw [internal_congr hS (fun _ _ => rfl) (u' := 0) hz] at h1
  have h2 := internal_lin hS 0 0 (unitAt n r) 0 0
  simp only [zero_smul, add_zero, zero_mul] at h2
  rw [h2] at h1
  simp [unitAt] at h1

/-- A component restrained in addition: the answer is superposed from those of the structure without the support under the loads and under a
load of 1 at the component; the factor is the force of the support, the one that brings the component back. -/
theorem C134_prop (env : Env) (henv : env.SolverSound) (pre pre1 pre' mid mid1 mid' : List Call) (hF : PlainFrame env pre)
    (hF1 : PlainFrame env pre1) (hF' : PlainFrame env pre') (c c1 c' : String) (P P1 P' : Problem) (hD : Poses pre c P)
    (hD1 : Poses pre1 c1 P1) (hD' : Poses pre' c' P') (hst : P.frame.Stable P.nodes P.fix) (n : String) (hn : n ∈ P.nodes) (r : Fin 6)
    (hfree : ¬ Restrained P.fix n r) (hO : OtherLoads P P1) (hone : ∀ v : State, P1.load v = v n r) (hP : Propped P P' n r) (u u1 u' : State)
    (hu : Reports env pre mid c u) (hu1 : Reports env pre1 mid1 c1 u1) (hu' : Reports env pre' mid' c' u') :
    u1 n r ≠ 0 ∧ (∀ m ∈ P.nodes, u' m = u m - (u n r / u1 n r) • u1 m) ∧
    ∀ R, SupportForces P' u' R → R n r = - (u n r / u1 n r) := by
  have hS := hD.sane env
  obtain ⟨x, h1, h2, h3⟩ := reports_equilibrium henv hF hD hst hu
  obtain ⟨y, k1, k2, k3⟩ := reports_equilibrium henv hF1 hD1 (by rw [hO.frame, hO.nodes, hO.fix]; exact hst) hu1
  rw [hO.nodes] at k1
  rw [hO.fix] at k2 k3
  rw [hO.frame] at k3
  have k3' : ∀ v, Obeys P.fix v → P.frame.internal v y = v n r := fun v hv => by rw [k3 v hv, hone]
  have weak : ∀ v, Obeys P'.fix v → Obeys P.fix v ∧ v n r = 0 := by
    intro v hv
    rw [obeys_iff] at hv ⊢
    exact ⟨fun m q h => hv m q ((hP.fix m q).mpr (Or.inl h)), hv n r ((hP.fix n r).mpr (Or.inr ⟨rfl, rfl⟩))⟩
  have hst' : P.frame.Stable P.nodes P'.fix := fun v hv h0 => hst v (weak v hv).1 h0
  obtain ⟨z, j1, j2, j3⟩ := reports_equilibrium henv hF' hD' (by rw [hP.frame, hP.nodes]; exact hst') hu'
  rw [hP.nodes] at j1
  rw [hP.frame, hP.load] at j3
  have hne : y n r ≠ 0 := unit_moves hS hst hfree k2 k3'
  let w : State := (1:ℝ) • x + (-(x n r / y n r)) • y
  have hw : Obeys P'.fix w := by
    rw [obeys_iff]
    intro m q hm
    rcases (hP.fix m q).mp hm with h | ⟨rfl, rfl⟩
    · exact (obeys_iff _ _).mp (Obeys.lin h2 k2 _ _) m q h
    · show (1:ℝ) * x m q + -(x m q / y m q) * y m q = 0
      field_simp; ring
  have hzw := same_answer hS hst' j2 hw j3 (fun v hv => by
    obtain ⟨o1, o2⟩ := weak v hv
    show P.frame.internal v ((1:ℝ) • x + (-(x n r / y n r)) • y) = _
    rw [internal_lin hS, h3 v o1, k3' v o1, o2]; ring)
  have ex : x n r = u n r := by rw [h1 n hn]
  have ey : y n r = u1 n r := by rw [k1 n hn]
  refine ⟨ey ▸ hne, ?_, ?_⟩
  · intro m hm
    rw [j1 m hm, hzw m hm, h1 m hm, k1 m hm, ← ex, ← ey]
    show (1:ℝ) • x m + (-(x n r / y n r)) • y m = _
    rw [one_smul, neg_smul, sub_eq_add_neg]
  · intro R hR
    have ho : Obeys P.fix (unitAt n r) := by
      rw [obeys_iff]
      intro m q hm
      show (if m = n ∧ q = r then (1:ℝ) else 0) = 0
      apply if_neg
      rintro ⟨rfl, rfl⟩
      exact hfree hm
    have a := hR.work (unitAt n r)
    rw [hP.nodes, nodalWork_unit (nodes_nodup env hD) R hn, hP.frame, hP.load,
      internal_congr hS (fun _ _ => rfl) (fun m hm => (j1 m hm).trans (hzw m hm))] at a
    have b : P.frame.internal (unitAt n r) w = P.load (unitAt n r) + -(x n r / y n r) * 1 := by
      show P.frame.internal _ ((1:ℝ) • x + (-(x n r / y n r)) • y) = _
      rw [internal_lin hS, h3 _ ho, k3' _ ho]
      simp [unitAt]
    rw [b] at a
    rw [← ex, ← ey]
    linarith

/-- A load of 1 moves the loaded component in its direction, so that the support force acts against the displacement it prevents. -/
theorem C134_direction (env : Env) (henv : env.SolverSound) (pre mid : List Call) (hF : PlainFrame env pre) (c : String) (P : Problem)
    (hD : Poses pre c P) (hpos : P.frame.Positive) (hst : P.frame.Stable P.nodes P.fix) (n : String) (hn : n ∈ P.nodes) (r : Fin 6)
    (hfree : ¬ Restrained P.fix n r) (hone : ∀ v : State, P.load v = v n r) (u : State) (hu : Reports env pre mid c u) : 0 < u n r := by
  have hS := hD.sane env
  obtain ⟨x, h1, h2, h3⟩ := reports_equilibrium henv hF hD hst hu
  have hne : x n r ≠ 0 := unit_moves hS hst hfree h2 (fun v hv => by rw [h3 v hv, hone])
  have h0 : 0 ≤ x n r := by
    have := internal_nonneg hS hpos x
    rwa [h3 x h2, hone] at this
  rw [h1 n hn]
  exact lt_of_le_of_ne h0 (Ne.symm hne)

/-! ### C135 Work and displacements -/

/-- An additional load `F` on component `r` of node `n` adds to the energy of the structure `F` times the mean of the displacements before and
after. -/
theorem C135_energy (env : Env) (henv : env.SolverSound) (pre pre' mid mid' : List Call) (hF : PlainFrame env pre)
    (hF' : PlainFrame env pre') (c c' : String) (P P' : Problem) (hD : Poses pre c P) (hD' : Poses pre' c' P')
    (hst : P.frame.Stable P.nodes P.fix) (n : String) (hn : n ∈ P.nodes) (r : Fin 6) (F : ℝ) (hO : OtherLoads P P')
    (hload : ∀ v : State, P'.load v = P.load v + F * v n r) (u u' : State) (hu : Reports env pre mid c u)
    (hu' : Reports env pre' mid' c' u') :
    P.frame.internal u' u' / 2 - P.frame.internal u u / 2 = F * ((u n r + u' n r) / 2) := by
  have hS := hD.sane env
  obtain ⟨x, h1, h2, h3⟩ := reports_equilibrium henv hF hD hst hu
  obtain ⟨y, k1, k2, k3⟩ := reports_equilibrium henv hF' hD' (by rw [hO.frame, hO.nodes, hO.fix]; exact hst) hu'
  rw [hO.nodes] at k1
  rw [hO.fix] at k2 k3
  rw [hO.frame] at k3
  rw [internal_congr hS k1 k1, internal_congr hS h1 h1, h1 n hn, k1 n hn]
  have e1 := h3 x h2
  have e2 := h3 y k2
  have e3 := k3 x h2
  have e4 := k3 y k2
  rw [hload] at e3 e4
  rw [internal_symm hS y x] at e2
  linarith

/-- Castigliano: while a load on component `r` of node `n` grows, the energy grows at the rate of the displacement of that component. -/
theorem C135_castigliano (env : Env) (henv : env.SolverSound) (pre mid : ℝ → List Call) (hF : ∀ h, PlainFrame env (pre h)) (c : ℝ → String)
    (P : ℝ → Problem) (hD : ∀ h, Poses (pre h) (c h) (P h)) (hst : (P 0).frame.Stable (P 0).nodes (P 0).fix) (n : String)
    (hn : n ∈ (P 0).nodes) (r : Fin 6) (hO : ∀ h, OtherLoads (P 0) (P h)) (hload : ∀ h (v : State), (P h).load v = (P 0).load v + h * v n r)
    (u : ℝ → State) (hu : ∀ h, Reports env (pre h) (mid h) (c h) (u h)) (F : ℝ) :
    HasDerivAt (fun h => (P 0).frame.internal (u h) (u h) / 2) (u F n r) F := by
  have hS := (hD 0).sane env
  have sol : ∀ h, ∃ x, (∀ m ∈ (P 0).nodes, u h m = x m) ∧ Obeys (P 0).fix x ∧ ∀ v, Obeys (P 0).fix v →
      (P 0).frame.internal v x = (P 0).load v + h * v n r := by
    intro h
    obtain ⟨x, h1, h2, h3⟩ := reports_equilibrium henv (hF h) (hD h) (by rw [(hO h).frame, (hO h).nodes, (hO h).fix]; exact hst) (hu h)
    rw [(hO h).nodes] at h1
    rw [(hO h).fix] at h2 h3
    rw [(hO h).frame] at h3
    exact ⟨x, h1, h2, fun v hv => by rw [h3 v hv, hload]⟩
  choose x h1 h2 h3 using sol
  have aff : ∀ h, u h n r = u 0 n r + h * (u 1 n r - u 0 n r) := by
    intro h
    have hx := same_answer hS hst (h2 h) (Obeys.lin (h2 0) (h2 1) (1 - h) h) (h3 h) (fun v hv => by
      rw [internal_lin hS, h3 0 v hv, h3 1 v hv]; ring) n hn
    rw [h1 h n hn, h1 0 n hn, h1 1 n hn, hx]
    simp only [Pi.add_apply, Pi.smul_apply, smul_eq_mul]
    ring
  have en : ∀ h, (P 0).frame.internal (u h) (u h) / 2 = (P 0).frame.internal (u 0) (u 0) / 2 + (h * u 0 n r + h ^ 2 / 2 * (u 1 n r - u 0 n r)) := by
    intro h
    have := C135_energy env henv (pre 0) (pre h) (mid 0) (mid h) (hF 0) (hF h) (c 0) (c h) (P 0) (P h) (hD 0) (hD h) hst n hn r h (hO h)
      (hload h) (u 0) (u h) (hu 0) (hu h)
    rw [aff h] at this
    linear_combination this
  have : (fun h => (P 0).frame.internal (u h) (u h) / 2) =
      fun h => (P 0).frame.internal (u 0) (u 0) / 2 + (h * u 0 n r + h ^ 2 / 2 * (u 1 n r - u 0 n r)) := funext en
  rw [this]
  have d := (((hasDerivAt_id F).mul_const (u 0 n r)).add ((((hasDerivAt_id F).pow 2).div_const 2).mul_const (u 1 n r - u 0 n r))).const_add
    ((P 0).frame.internal (u 0) (u 0) / 2)
  refine d.congr_deriv ?_
  rw [aff F]
  simp

end Hyperstatic
