import Verif.Lemmas.Exact
import Verif.Props.Frame

/-
C118: the reported displacements are those of beam theory, in which the displacements along the beams are arbitrary functions.
-/

namespace Hyperstatic
open Matrix Spec

/-! ### C118 Reported nodal displacements are exact -/

/-- Every answer of beam theory has the reported displacements at the nodes. -/
theorem C118_exact (env : Env) (henv : env.SolverSound) (pre mid : List Call) (hF : PlainFrame env pre) (c : String) (P : Problem)
    (hD : Poses pre c P) (hst : P.frame.Stable P.nodes P.fix) (u : State) (hu : Reports env pre mid c u) (D : Deformation)
    (hE : ExactEquilibrium pre c D) : ∀ n ∈ P.nodes, u n = D.node n := by
  have hS := hD.sane env
  obtain ⟨x, h1, h2, h3⟩ := reports_equilibrium henv hF hD hst hu
  obtain ⟨g, names, hc, hl, e⟩ := hD.load
  have hcon := hE.conforms
  have hob := hE.obeys
  have hbal := hE.balance g names hc hl
  rw [← hD.frame] at hcon hbal
  rw [← hD.fix] at hob hbal
  rw [← hD.nodes] at hbal
  have h4 : ∀ v, Obeys P.fix v → P.frame.internal v D.node = P.load v := by
    intro v hv
    have := hbal (polyDeformation P.frame v) (poly_conforms hS v) hv
    rw [fieldInternal_poly hS hcon, fieldCase_poly hS] at this
    rw [this, e]
  have h5 : ∀ n ∈ P.nodes, ((1:ℝ) • x + (-1:ℝ) • D.node) n = 0 := by
    apply hst _ (Obeys.lin h2 hob 1 (-1))
    rw [internal_lin hS, h3 _ (Obeys.lin h2 hob 1 (-1)), h4 _ (Obeys.lin h2 hob 1 (-1))]
    ring
  intro n hn
  have h6 := h5 n hn
  rw [h1 n hn]
  funext r
  have := congrFun h6 r
  simp at this
  linarith

/-- And there is one: beam theory has an answer for all nodal, distributed and concentrated loads, and its displacements of the nodes are the
reported ones. -/
theorem C118_exists (env : Env) (henv : env.SolverSound) (pre mid : List Call) (hF : PlainFrame env pre) (c : String) (P : Problem)
    (hD : Poses pre c P) (hpos : P.frame.Positive) (hst : P.frame.Stable P.nodes P.fix) (hon : (caseReg.run pre).cur.OnBeams)
    (u : State) (hu : Reports env pre mid c u) : ∃ D : Deformation, ExactEquilibrium pre c D ∧ ∀ n ∈ P.nodes, D.node n = u n := by
  have hS := hD.sane env
  obtain ⟨x, h1, h2, h3⟩ := reports_equilibrium henv hF hD hst hu
  obtain ⟨g, names, hc, hl, e⟩ := hD.load
  rw [e] at h3
  obtain ⟨D, d1, d2, d3⟩ := frame_exact hS hpos hon g names h3
  refine ⟨D, ⟨?_, ?_, ?_⟩, fun n hn => by rw [d1, h1 n hn]⟩
  · rw [← hD.frame]; exact d2
  · rw [← hD.fix, d1]; exact h2
  · intro g' names' hc' hl' V hV hO
    rw [hc] at hc'
    cases hc'
    rw [← hD.frame] at hV ⊢
    rw [← hD.fix] at hO
    rw [← hD.nodes, d3 V hV hO]
    have hp : List.Perm names names' := (List.perm_ext_iff_of_nodup hl.1 hl'.1).mpr fun p => (hl.2 p).trans (hl'.2 p).symm
    exact (hp.map _).sum_eq

/-- The portal with a line load on its beam: beam theory has an answer, with the reported displacements. -/
example : ∃ (u : State) (D : Deformation), Reports idealEnv portalCalls [] "Y" u ∧ ExactEquilibrium portalCalls "Y" D ∧
    D.node "D" = u "D" := by
  obtain ⟨_, ⟨u, hu⟩, _⟩ := portal_reports
  have hg : portalY.frame.Grounded portalY.nodes portalY.fix := by
    have := portal_grounded
    unfold portalX at this
    unfold portalY
    rw [portal_rest.2]
    rw [portal_rest.1] at this
    exact this
  have hst := C69_grounded_stable portalCalls "Y" portalY portalY_describes portal_positive hg
  obtain ⟨D, h1, h2⟩ := C118_exists idealEnv idealEnv_sound portalCalls [] (plainFrame_of_calls _ portal_plain.1) "Y" portalY portalY_describes
    portal_positive hst (by
      intro p q b w hp hw
      exfalso
      simp [portalCalls, Machine.run, Machine.step, caseReg, CaseReg.upd, PatReg.empty] at hp
      split at hp
      · cases hp; simp at hw
      · split at hp
        · cases hp; simp at hw
        · cases hp) u hu
  exact ⟨u, D, hu, h1, h2 "D" (by show "D" ∈ (nodeReg.run portalCalls).cur.names; rw [portal_nodes]; simp)⟩

end Hyperstatic
