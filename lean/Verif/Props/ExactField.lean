import Verif.Lemmas.ExactField
import Verif.Props.Exact
import Verif.Props.Deform
import Verif.Props.Cantilever

/-
C119, C120: the deformation along the beams, and potential energy over arbitrary deformations.
-/

namespace Hyperstatic
open Matrix Spec

/-! ### C119 Reported deformation of an unloaded beam -/

/-- along a beam without loads an answer of beam theory is the polynomial through its ends -/
theorem bare_poly {env : Env} {pre : List Call} {c : String} {P : Problem} (hD : Poses pre c P) (hpos : P.frame.Positive) {D : Deformation}
    (hE : ExactEquilibrium pre c D) {b : String} {g : GivenBeam} (hb : P.frame.beam b = some g)
    (hbare : ∀ k, (caseReg.run pre).cur.cases c = some k → (caseReg.run pre).cur.Bare k b) :
    AgreeOn g.len (D.shape b) (polyShape g.len (g.ends D.node)) := by
  have hS := hD.sane env
  obtain ⟨k, names, hc, hl, -⟩ := hD.load
  obtain ⟨cs, hcs⟩ := hS.ok b g hb
  have hlen := len_pos hcs
  have hcon := hE.conforms
  rw [← hD.frame] at hcon
  obtain ⟨h1, h2⟩ := hcon b g hb
  have hps := polyShape_smooth g.len (g.ends D.node)
  have hpe := polyShape_ends hlen.ne' (g.ends D.node)
  refine shape_agree hlen (hpos b g hb) h1 hps (by rw [h2, hpe]) ?_
  generalize hW : BeamShape.comb 1 (D.shape b) (-1) (polyShape g.len (g.ends D.node)) = W
  have w1 : W.Smooth g.len := hW ▸ smooth_comb hlen.le h1 hps 1 (-1)
  have w2 : W.ends g.len = 0 := by rw [← hW, ends_comb, h2, hpe]; simp
  have e1 := hE.balance k names hc hl (bubble b W)
  rw [← hD.frame] at e1
  have e1 := e1 (bubble_conforms hb w1 w2) (by intro n f _ r _; simp [bubble])
  rw [bubble_internal hS hb, bubble_load hS _ _ _ _ hb] at e1
  rw [e1]
  have e2 : beamLoad (caseReg.run pre).cur k names g.len b W = 0 := by
    unfold beamLoad
    apply list_sum_const_zero
    intro p hp
    cases hq : (caseReg.run pre).cur.pats p with
    | none => simp
    | some q =>
      obtain ⟨b1, b2⟩ := hbare k hc p q ((hl.2 p).mp hp) hq
      simp [b1, b2]
  rw [e2, shape_internal_comm, internal_poly_left hlen w1, w2]
  have : polyShape g.len 0 = polyShape g.len (g.ends fun _ => 0) := by rw [given_ends_zero]
  simp [BeamShape.internal, polyShape, deriv2_cubicField, deriv_lineField]

/-- For a beam whose start node was added before its end node and which carries no load itself, the deflection along axis 2 and its slope
reported at any relative position are those of beam theory; the deflection along axis 3 and its slope are reported with the opposite sign, the
axial displacement and the twist are weighted means of their end values. -/
theorem C119_unloaded_partial (env : Env) (henv : env.SolverSound) (pre mid : List Call) (hF : PlainFrame env pre) (c : String) (P : Problem)
    (hD : Poses pre c P) (hpos : P.frame.Positive) (hst : P.frame.Stable P.nodes P.fix) (u : State) (hu : Reports env pre mid c u)
    (D : Deformation) (hE : ExactEquilibrium pre c D) (b : String) (g : GivenBeam) (hb : (blueprint.run pre).cur.beam b = some g)
    (hbare : ∀ k, (caseReg.run pre).cur.cases c = some k → (caseReg.run pre).cur.Bare k b)
    (hord : (nodeReg.run pre).cur.names.idxOf g.start < (nodeReg.run pre).cur.names.idxOf g.stop) (loc : ℝ) (h0 : 0 ≤ loc) (h1 : loc ≤ 1) :
    (((World.init.run env pre).run env (.assemble :: mid)).step env (.solveStatic c)).1.resultGetBeamDeformation b loc c =
      some ![1 / 2 * (1 - loc) * (D.shape b).axial 0 + 1 / 2 * (1 + loc) * (D.shape b).axial g.len,
        (D.shape b).defl2 (loc * g.len), - (D.shape b).defl3 (loc * g.len),
        1 / 2 * (1 - loc) * (D.shape b).twist 0 + 1 / 2 * (1 + loc) * (D.shape b).twist g.len,
        (D.shape b).slope2 (loc * g.len), - (D.shape b).slope3 (loc * g.len)] := by
  have hS := hD.sane env
  have hb' : P.frame.beam b = some g := by rw [hD.frame]; exact hb
  obtain ⟨cs, hcs⟩ := hS.ok b g hb'
  have hlen := len_pos hcs
  have hag := bare_poly (env := env) hD hpos hE hb' hbare
  have hux := C118_exact env henv pre mid hF c P hD hst u hu D hE
  have hs := hS.start b g hb'
  have he := hS.stop b g hb'
  have e1 := hux _ hs
  have e2 := hux _ he
  rw [hD.nodes] at hs he
  have d1 := hu.disp _ hs
  have d2 := hu.disp _ he
  have hbp := blueprint_refined env pre
  have hbe : ∃ be, (World.init.run env pre).api.model.beams.get? b = some be ∧ givenBeam be = g := by
    rw [← hbp] at hb
    simp only [blueprintOf, Option.map_eq_some_iff] at hb
    exact hb
  obtain ⟨be, hbe, rfl⟩ := hbe
  have hA := (ApiInv_run env pre).1
  obtain ⟨-, -, -, hbc, -⟩ := hA.beam_ok b be hbe
  have hw : (((World.init.run env pre).run env (.assemble :: mid)).step env (.solveStatic c)).1 =
      (World.init.run env pre).run env (.assemble :: (mid ++ [.solveStatic c])) := by
    rw [← List.cons_append, run_append]
    rfl
  rw [hw] at d1 d2 ⊢
  have hl : (givenBeam be).len = be.length := givenBeam_len be
  have hfe : (givenBeam be).ends D.node = localEnds be.csys (u be.startName) (u be.endName) := by
    rw [givenBeam_ends hbc]
    unfold beamEnds
    have f1 : u be.startName = D.node be.startName := e1
    have f2 : u be.endName = D.node be.endName := e2
    rw [f1, f2]
  have hfld := fields_given be.length (hl ▸ hlen) (localEnds be.csys (u be.startName) (u be.endName))
  have hnn := (C02_node_registry env pre).1
  rw [C46_reported_partial env pre (mid ++ [Call.solveStatic c]) hF.readd (by
      intro k hk
      rcases List.mem_append.mp hk with hk | hk
      · exact hu.later k hk
      · rw [List.mem_singleton] at hk; subst hk; simp) _ _ rfl rfl b be hbe c (u be.startName) (u be.endName) d1 d2 _ _
      (by rw [if_pos]; rw [hnn]; exact hord) _ _ _ _ hfld loc]
  rw [hl] at hag hlen ⊢
  rw [hfe] at hag
  have x0 : 0 ≤ loc * be.length := by positivity
  have x1 : loc * be.length ≤ be.length := by nlinarith
  rw [hag.axial 0 le_rfl hlen.le, hag.axial _ hlen.le le_rfl, hag.twist 0 le_rfl hlen.le, hag.twist _ hlen.le le_rfl, hag.defl2 _ x0 x1,
    hag.defl3 _ x0 x1, hag.slope2 _ x0 x1, hag.slope3 _ x0 x1]
  rfl

/-- The property: the reported deformation of a beam without loads is that of beam theory, at every relative position. -/
def C119_claim : Prop :=
  ∀ (env : Env), env.SolverSound → ∀ (pre mid : List Call), PlainFrame env pre → ∀ (c : String) (P : Problem), Poses pre c P →
    P.frame.Positive → P.frame.Stable P.nodes P.fix → ∀ (u : State), Reports env pre mid c u →
    ∀ (D : Deformation), ExactEquilibrium pre c D → ∀ (b : String) (g : GivenBeam), (blueprint.run pre).cur.beam b = some g →
    (∀ k, (caseReg.run pre).cur.cases c = some k → (caseReg.run pre).cur.Bare k b) → ∀ (loc : ℝ), 0 ≤ loc → loc ≤ 1 →
    ∃ δ : Vec 6, (((World.init.run env pre).run env (.assemble :: mid)).step env (.solveStatic c)).1.resultGetBeamDeformation b loc c = some δ ∧
      δ 0 = (D.shape b).axial (loc * g.len) ∧ δ 1 = (D.shape b).defl2 (loc * g.len) ∧ δ 2 = (D.shape b).defl3 (loc * g.len) ∧
      δ 3 = (D.shape b).twist (loc * g.len)

/-- a post with a vertical load of 6 -/
noncomputable abbrev pressCalls : List Call := cantileverCalls ⟨0, 0, 0⟩ ⟨0, 0, 3⟩ 200 (3 / 10) 1 2 3 4 ![0, 0, 6, 0, 0, 0] 0 0

theorem press_setup : PlainFrame idealEnv pressCalls ∧
    Poses pressCalls "X" (cantileverProblem ⟨0, 0, 0⟩ ⟨0, 0, 3⟩ 200 (3 / 10) 1 2 3 4 ![0, 0, 6, 0, 0, 0] 0 0 "P") ∧
    (cantileverProblem ⟨0, 0, 0⟩ ⟨0, 0, 3⟩ 200 (3 / 10) 1 2 3 4 ![0, 0, 6, 0, 0, 0] 0 0 "P").frame.Positive ∧
    (cantileverProblem ⟨0, 0, 0⟩ ⟨0, 0, 3⟩ 200 (3 / 10) 1 2 3 4 ![0, 0, 6, 0, 0, 0] 0 0 "P").frame.Stable
      (cantileverProblem ⟨0, 0, 0⟩ ⟨0, 0, 3⟩ 200 (3 / 10) 1 2 3 4 ![0, 0, 6, 0, 0, 0] 0 0 "P").nodes
      (cantileverProblem ⟨0, 0, 0⟩ ⟨0, 0, 3⟩ 200 (3 / 10) 1 2 3 4 ![0, 0, 6, 0, 0, 0] 0 0 "P").fix ∧
    (caseReg.run pressCalls).cur.OnBeams ∧
    (∀ k, (caseReg.run pressCalls).cur.cases "X" = some k → (caseReg.run pressCalls).cur.Bare k "b") ∧
    ∃ u, Reports idealEnv pressCalls [] "X" u := by
  have hacc : Acceptable ⟨0, 0, 0⟩ ⟨0, 0, 3⟩ := acc_col
  have hp : (cantileverBeam ⟨0, 0, 0⟩ ⟨0, 0, 3⟩ 200 (3 / 10) 1 2 3 4).sec.Positive := by norm_num [GivenSec.Positive, cantileverBeam]
  obtain ⟨c1, -⟩ := cantilever_cases ⟨0, 0, 0⟩ ⟨0, 0, 3⟩ 200 (3 / 10) 1 2 3 4 ![0, 0, 6, 0, 0, 0] 0 0
  obtain ⟨p1, p2, p3⟩ := cantilever_pats ⟨0, 0, 0⟩ ⟨0, 0, 3⟩ 200 (3 / 10) 1 2 3 4 ![0, 0, 6, 0, 0, 0] 0 0
  obtain ⟨b1, b2⟩ := cantilever_blueprint ⟨0, 0, 0⟩ ⟨0, 0, 3⟩ 200 (3 / 10) 1 2 3 4 ![0, 0, 6, 0, 0, 0] 0 0 hacc
  have hD := cantilever_poses ⟨0, 0, 0⟩ ⟨0, 0, 3⟩ 200 (3 / 10) 1 2 3 4 ![0, 0, 6, 0, 0, 0] 0 0 c1
  have hC := cantilever_is ⟨0, 0, 0⟩ ⟨0, 0, 3⟩ 200 (3 / 10) 1 2 3 4 ![0, 0, 6, 0, 0, 0] 0 0 hacc "P"
  have hS := hD.sane idealEnv
  have hpos : (cantileverProblem ⟨0, 0, 0⟩ ⟨0, 0, 3⟩ 200 (3 / 10) 1 2 3 4 ![0, 0, 6, 0, 0, 0] 0 0 "P").frame.Positive := by
    intro b' g' h'
    have hm := (hS.mem b').mpr (by rw [h']; rfl)
    rw [show (cantileverProblem ⟨0, 0, 0⟩ ⟨0, 0, 3⟩ 200 (3 / 10) 1 2 3 4 ![0, 0, 6, 0, 0, 0] 0 0 "P").frame.beams = ["b"] from b1,
      List.mem_singleton] at hm
    subst hm
    rw [show (cantileverProblem ⟨0, 0, 0⟩ ⟨0, 0, 3⟩ 200 (3 / 10) 1 2 3 4 ![0, 0, 6, 0, 0, 0] 0 0 "P").frame.beam "b" = _ from b2] at h'
    cases h'
    exact hp
  refine ⟨plainFrame_of_calls _ (cantilever_plain _ _ _ _ _ _ _ _ _ _ _), hD, hpos, ?_, ?_, ?_, ?_⟩
  · refine C69_grounded_stable _ "X" _ hD hpos ?_
    intro n hn
    refine ⟨"A", hC.clamped, ?_⟩
    rcases (hC.nodes n).mp hn with rfl | rfl
    · exact Relation.ReflTransGen.refl
    · exact Relation.ReflTransGen.single ⟨"b", _, b2, Or.inr ⟨rfl, rfl⟩⟩
  · intro p q b w hq hw
    by_cases h1 : p = "P"
    · subst h1; rw [p1] at hq; cases hq; simp at hw
    by_cases h2 : p = "Q"
    · subst h2; rw [p2] at hq; cases hq; simp at hw
    by_cases h3 : p = "R"
    · subst h3; rw [p3] at hq; cases hq
      simp only at hw
      split at hw
      · cases hw; simp
      · cases hw
    · exfalso
      simp [cantileverCalls, Machine.run, Machine.step, caseReg, CaseReg.upd, PatReg.empty, h1, h2, h3] at hq
  · intro k hk p q hp hq
    rw [c1] at hk
    cases hk
    by_cases h1 : p = "P"
    · subst h1; rw [p1] at hq; cases hq; exact ⟨rfl, rfl⟩
    · simp [h1] at hp
  · exact cantilever_demo _ _ _ _ _ _ _ _ _ _ _ acc_col hp c1

theorem C119_false : ¬ C119_claim := by
  intro H
  obtain ⟨hF, hD, hpos, hst, hon, hbare, u, hu⟩ := press_setup
  obtain ⟨D, hE, hn⟩ := C118_exists idealEnv idealEnv_sound _ [] hF "X" _ hD hpos hst hon u hu
  have hacc : Acceptable ⟨0, 0, 0⟩ ⟨0, 0, 3⟩ := acc_col
  obtain ⟨b1, b2⟩ := cantilever_blueprint ⟨0, 0, 0⟩ ⟨0, 0, 3⟩ 200 (3 / 10) 1 2 3 4 ![0, 0, 6, 0, 0, 0] 0 0 hacc
  obtain ⟨δ, h1, h2, -⟩ := H idealEnv idealEnv_sound _ [] hF "X" _ hD hpos hst u hu D hE "b" _ b2 hbare 0 le_rfl zero_le_one
  have h3 := C119_unloaded_partial idealEnv idealEnv_sound _ [] hF "X" _ hD hpos hst u hu D hE "b" _ b2 hbare
    (by rw [cantilever_nodes]; decide) 0 le_rfl zero_le_one
  rw [h1] at h3
  cases h3
  obtain ⟨k0, k1, -⟩ := C74_tip_load idealEnv idealEnv_sound _ [] hF "X" _ hD _
    (cantilever_is _ _ _ _ _ _ _ _ _ _ _ hacc "P") (by norm_num [GivenSec.Positive, cantileverBeam]) u hu _
    (fun v => (cantilever_load _ _ _ _ _ _ _ _ _ _ _ hacc v).1) _ rfl _ _ _ _ _ _ rfl rfl rfl rfl rfl rfl _ _ _ _ rfl rfl rfl rfl
  have hl : (cantileverBeam ⟨0, 0, 0⟩ ⟨0, 0, 3⟩ 200 (3 / 10) 1 2 3 4).len = 3 := by
    unfold GivenBeam.len V3.norm
    simp only [V3.sub_def, cantileverBeam]
    rw [show ((0:ℝ) - 0) * (0 - 0) + (0 - 0) * (0 - 0) + (3 - 0) * (3 - 0) = 3 ^ 2 by norm_num]
    exact Real.sqrt_sq (by norm_num)
  obtain ⟨-, hends⟩ := hE.conforms "b" _ b2
  have a0 := congrFun hends 0
  have a6 := congrFun hends 6
  have nA : D.node "A" = 0 := by
    rw [hn "A" (by show "A" ∈ (nodeReg.run _).cur.names; rw [cantilever_nodes]; simp)]; exact k0
  have nB : D.node "B" = u "B" := hn "B" (by show "B" ∈ (nodeReg.run _).cur.names; rw [cantilever_nodes]; simp)
  simp only [BeamShape.ends, GivenBeam.ends, localEnds, cantileverBeam, cons_val_zero, cons_val, nA, nB, post_frame] at a0 a6
  have hz := congrArg V3.x k1
  have hl' : V3.norm (⟨0, 0, 3⟩ - ⟨0, 0, 0⟩ : V3) = 3 := hl
  simp only [cantileverBeam, post_frame, hl'] at hz
  have hl'' : GivenBeam.len ⟨"A", "B", ⟨0, 0, 0⟩, ⟨0, 0, 3⟩, ⟨⟨0, 200, 3 / 10⟩, 1, 2, 3, 4⟩⟩ = 3 := hl
  rw [hl''] at a6
  rw [hl] at h2
  simp [V3.dot, Spec.trans] at a0 a6 hz h2
  rw [a0, a6, hz] at h2
  norm_num at h2

/-! ### C120 Least potential energy among all deformations -/

/-- An admissible deformation is the answer of beam theory exactly when no admissible deformation has less potential energy. -/
theorem C120_least_energy (env : Env) (pre : List Call) (c : String) (P : Problem) (hD : Poses pre c P) (hpos : P.frame.Positive)
    (D : Deformation) : ExactEquilibrium pre c D ↔ LeastEnergy pre c D := by
  have hS := hD.sane env
  rw [hD.frame] at hS hpos
  have quad : ∀ (k : String → Option ℝ) (names : List String) {D V : Deformation}, (blueprint.run pre).cur.Conforms D →
      (blueprint.run pre).cur.Conforms V → ∀ t : ℝ,
      (blueprint.run pre).cur.fieldPotential (nodeReg.run pre).cur.names (caseReg.run pre).cur k names (Deformation.comb 1 D t V) =
      (blueprint.run pre).cur.fieldPotential (nodeReg.run pre).cur.names (caseReg.run pre).cur k names D +
        t * ((blueprint.run pre).cur.fieldInternal V D -
          (blueprint.run pre).cur.fieldCaseWork (nodeReg.run pre).cur.names (caseReg.run pre).cur k names V) +
        t ^ 2 * ((blueprint.run pre).cur.fieldInternal V V / 2) := by
    intro k names D V h1 h2 t
    unfold Blueprint.fieldPotential
    rw [fieldInternal_comb hS (conforms_comb hS h1 h2 1 t) h1 h2, fieldInternal_comm _ _ D, fieldInternal_comm _ _ V,
      fieldInternal_comb hS h1 h1 h2, fieldInternal_comb hS h2 h1 h2, fieldCase_comb hS _ _ _ _ h1 h2, fieldInternal_comm _ D V]
    ring
  constructor
  · intro h
    refine ⟨h.conforms, h.obeys, fun k names hc hl V hV hO => ?_⟩
    have hW := conforms_comb hS hV h.conforms 1 (-1)
    have hWO : Obeys ((restReg.run pre).cur.inForce c) (Deformation.comb 1 V (-1) D).node := by
      have := Obeys.lin hO h.obeys 1 (-1)
      exact this
    have e := quad k names h.conforms hW 1
    have hb := h.balance k names hc hl _ hW hWO
    have hn := fieldInternal_nonneg hS hpos (Deformation.comb 1 V (-1) D)
    have hV' : Deformation.comb 1 D 1 (Deformation.comb 1 V (-1) D) = V := by
      unfold Deformation.comb
      cases V
      simp only [Deformation.mk.injEq]
      constructor
      · funext n; simp
      · funext n
        unfold BeamShape.comb
        simp
    rw [hV', hb] at e
    linarith
  · intro h
    refine ⟨h.conforms, h.obeys, fun k names hc hl V hV hO => ?_⟩
    generalize hα : (blueprint.run pre).cur.fieldInternal V D -
      (blueprint.run pre).cur.fieldCaseWork (nodeReg.run pre).cur.names (caseReg.run pre).cur k names V = α
    generalize hβ : (blueprint.run pre).cur.fieldInternal V V / 2 = β
    have key : ∀ t : ℝ, 0 ≤ t * α + t ^ 2 * β := by
      intro t
      have e := quad k names h.conforms hV t
      rw [hα, hβ] at e
      have hO' : Obeys ((restReg.run pre).cur.inForce c) (Deformation.comb 1 D t V).node := Obeys.lin h.obeys hO 1 t
      have := h.least k names hc hl _ (conforms_comb hS h.conforms hV 1 t) hO'
      rw [e] at this
      linarith
    have hα0 : α = 0 := by
      by_contra hne
      have hβ0 : 0 ≤ β := by have := key 1; have := key (-1); nlinarith
      have := key (-α / (2 * (β + 1)))
      have hp : 0 < 2 * (β + 1) := by linarith
      have h2 : 0 < α ^ 2 := by positivity
      have e : -α / (2 * (β + 1)) * α + (-α / (2 * (β + 1))) ^ 2 * β = - α ^ 2 * (β + 2) / (2 * (β + 1)) ^ 2 := by
        field_simp; ring
      rw [e] at this
      have : - α ^ 2 * (β + 2) / (2 * (β + 1)) ^ 2 < 0 := by
        apply div_neg_of_neg_of_pos
        · nlinarith
        · positivity
      linarith
    linarith

/-- Every deformation with the least potential energy has the reported displacements at the nodes. -/
theorem C120_reported (env : Env) (henv : env.SolverSound) (pre mid : List Call) (hF : PlainFrame env pre) (c : String) (P : Problem)
    (hD : Poses pre c P) (hpos : P.frame.Positive) (hst : P.frame.Stable P.nodes P.fix) (u : State) (hu : Reports env pre mid c u)
    (D : Deformation) (hE : LeastEnergy pre c D) : ∀ n ∈ P.nodes, u n = D.node n :=
  C118_exact env henv pre mid hF c P hD hst u hu D ((C120_least_energy env pre c P hD hpos D).mpr hE)

/-- There is one for the pressed post, and its top moves down by what is reported. -/
example : ∃ (u : State) (D : Deformation), Reports idealEnv pressCalls [] "X" u ∧ LeastEnergy pressCalls "X" D ∧ D.node "B" = u "B" := by
  obtain ⟨hF, hD, hpos, hst, hon, hbare, u, hu⟩ := press_setup
  obtain ⟨D, hE, hn⟩ := C118_exists idealEnv idealEnv_sound _ [] hF "X" _ hD hpos hst hon u hu
  exact ⟨u, D, hu, (C120_least_energy idealEnv _ _ _ hD hpos D).mp hE,
    hn "B" (by show "B" ∈ (nodeReg.run _).cur.names; rw [cantilever_nodes]; simp)⟩

end Hyperstatic
