import Verif.Spec.Mixed
import Verif.Props.Resultants
import Verif.Props.ShellSolve

/-
C138: laws of the answers of models with beams and shells.
-/

namespace Hyperstatic
open Matrix Spec

variable (q : Schemes) (nan4 : ShellElm → Matrix (Fin 24) (Fin 24) ℝ) (nan3 : ShellElm → Matrix (Fin 18) (Fin 18) ℝ)
  (solve : (n : ℕ) → Matrix (Fin n) (Fin n) ℝ → Vec n → Except PyErr (Vec n))

theorem blueprint_beams {a : Api} (h : ApiInv a) (v u : State) :
    (blueprintOf a).internal v u = (a.model.beams.map fun p => beamInternal p.2 v u).sum := by
  unfold Blueprint.internal
  congr 1
  apply map_keys_eq _ h.beams_wf
  intro b be hb
  obtain ⟨_, _, _, hc, _⟩ := h.beam_ok b be hb
  simp only [blueprintOf, hb, Option.map_some, Option.elim_some]
  exact givenBeam_internal (lineCsys_ok hc).2.1 hc v u

theorem mixedWork_eq (env : Env) {pre : List Call} {c : String} {P : Problem} (hD : Poses pre c P) (v u : State) :
    mixedWork env pre P v u = internalWork env (World.init.run env pre).api.model v u := by
  unfold mixedWork shellWork internalWork
  rw [hD.frame, ← blueprint_refined env pre, blueprint_beams (ApiInv_run env pre).1]

theorem mixed_nodes (env : Env) {pre : List Call} {c : String} {P : Problem} (hD : Poses pre c P) :
    P.nodes = (World.init.run env pre).api.model.nodes.keys := by
  rw [hD.nodes, ← (C02_node_registry env pre).1]
  rfl

theorem mixed_equilibrium {env : Env} (henv : env.SolverSound) {pre mid : List Call} (hM : PlainModel env pre) {c : String} {P : Problem}
    (hD : Poses pre c P) (hss : ShellsSymm env (World.init.run env pre).api.model) (hsf : ShellsFree env (World.init.run env pre).api.model)
    (hst : MixedStable env pre P) {u : State} (hu : Reports env pre mid c u) :
    ∃ x, (∀ n ∈ P.nodes, u n = x n) ∧ Obeys P.fix x ∧ ∀ v, Obeys P.fix v → mixedWork env pre P v x = P.load v := by
  have hrest := restReg_refined env pre
  have hreg := caseReg_refined env pre hM.recreate
  have hL : LoadInv (World.init.run env pre).api :=
    (WInv_run env (fun w c => ∀ p, c = .addLoadpattern p → w.api.loadpatterns.get? p = none) (fun w c a' hP h he => LoadInv_edit hP h he)
      World.init pre hM.recreate (WInv_init ⟨ApiInv_init, by intro c lc hc; simp [Api.init] at hc⟩)).1
  obtain ⟨g, names, hc, hl, e⟩ := hD.load
  rw [← hreg] at hc
  simp only [absReg, Option.map_eq_some_iff] at hc
  obtain ⟨lc, hlc, rfl⟩ := hc
  have hn := mixed_nodes env hD
  have hresp : ∀ u, Obeys P.fix u ↔ Respects (governing (World.init.run env pre).api.model lc) u := by
    intro u
    unfold Obeys Respects
    rw [hD.fix]
    simp only [inForce_governing hlc _ hrest]
  have hst' : Stable env (World.init.run env pre).api.model (governing (World.init.run env pre).api.model lc) := by
    intro u hu h0 n hmem
    exact hst u ((hresp u).mpr hu) ((mixedWork_eq env hD u u).trans h0) n (by rw [hn]; exact hmem)
  obtain ⟨x, h1, h2, h3⟩ := C20_equilibrium env henv pre mid hM.readd hu.later _ _ rfl rfl c lc hlc hss hsf hst' hu.ret
  refine ⟨x, ?_, (hresp x).mpr h2, ?_⟩
  · intro n hmem
    have a := h1 n (by rw [hn] at hmem; exact hmem)
    have b := hu.disp n (by rw [← hD.nodes]; exact hmem)
    rw [a] at b
    exact (List.ofFn_injective (Option.some.inj b)).symm
  · intro v hv
    rw [mixedWork_eq env hD, h3 v ((hresp v).mp hv), e, hD.frame, ← blueprint_refined env pre, hn, ← hreg]
    exact (blueprint_case hL hlc hl.1 hl.2 v).symm

section laws
variable {env : Env} {pre : List Call} {c : String} {P : Problem} (hD : Poses pre c P)
include hD

theorem mixed_symm (hss : ShellsSymm env (World.init.run env pre).api.model) (v u : State) : mixedWork env pre P v u = mixedWork env pre P u v := by
  rw [mixedWork_eq env hD, mixedWork_eq env hD]
  exact internalWork_symm (ApiInv_run env pre).1 hss v u

theorem mixed_lin (a b : ℝ) (v u w : State) :
    mixedWork env pre P v (a • u + b • w) = a * mixedWork env pre P v u + b * mixedWork env pre P v w := by
  simp only [mixedWork_eq env hD]
  exact internalWork_lin env _ a b v u w

theorem mixed_lin_left (a b : ℝ) (v w u : State) :
    mixedWork env pre P (a • v + b • w) u = a * mixedWork env pre P v u + b * mixedWork env pre P w u := by
  simp only [mixedWork_eq env hD]
  exact internalWork_lin_left env _ a b v w u

theorem mixed_congr {v v' u u' : State} (h : ∀ n ∈ P.nodes, v n = v' n) (h' : ∀ n ∈ P.nodes, u n = u' n) :
    mixedWork env pre P v u = mixedWork env pre P v' u' := by
  simp only [mixedWork_eq env hD]
  rw [mixed_nodes env hD] at h h'
  exact internalWork_congr env (ApiInv_run env pre).1 h h'

theorem mixed_nonneg (hpos : P.frame.Positive) (hsp : ShellsPos env (World.init.run env pre).api.model) (u : State) :
    0 ≤ mixedWork env pre P u u := by
  have h := (ApiInv_run env pre).1
  unfold mixedWork
  apply add_nonneg (internal_nonneg (hD.sane env) hpos u)
  apply List.sum_nonneg
  intro y hy
  obtain ⟨⟨b, se⟩, hm, rfl⟩ := List.mem_map.mp hy
  have hse := (Dict.mem_iff_get? h.shells_wf b se).mp hm
  simp only
  unfold shellInternal
  rcases (h.shell_ok b se hse).1 with h4 | h3
  · rw [if_pos h4]; exact (hsp b se hse).1 h4 _
  · rw [if_neg (show ¬ se.nodes.length = 4 by omega)]; exact (hsp b se hse).2 h3 _

end laws

/-! ### C138 Models of beams and shells -/

/-- Reciprocity: in two load cases of a model of beams and shells with the same supports, the loads of the one do the same work on the
displacements of the other. -/
theorem C138_reciprocal (henv : (shellEnv q nan4 nan3 solve).SolverSound) (pre mid mid' : List Call)
    (hM : PlainModel (shellEnv q nan4 nan3 solve) pre) (hreg : ShellsRegular q (World.init.run (shellEnv q nan4 nan3 solve) pre).api.model)
    (c c' : String) (P P' : Problem) (hD : Poses pre c P) (hD' : Poses pre c' P') (hfix : ∀ n, P.fix n = P'.fix n)
    (hst : MixedStable (shellEnv q nan4 nan3 solve) pre P) (u u' : State) (hu : Reports (shellEnv q nan4 nan3 solve) pre mid c u)
    (hu' : Reports (shellEnv q nan4 nan3 solve) pre mid' c' u') : P.load u' = P'.load u := by
  have hss := shells_symm q nan4 nan3 solve hreg
  have hsf := shells_free q nan4 nan3 solve hreg
  have e1 : P'.frame = P.frame := by rw [hD.frame, hD'.frame]
  have e2 : P'.nodes = P.nodes := by rw [hD.nodes, hD'.nodes]
  have e3 : P'.fix = P.fix := (funext hfix).symm
  have em : ∀ v u, mixedWork (shellEnv q nan4 nan3 solve) pre P' v u = mixedWork (shellEnv q nan4 nan3 solve) pre P v u := by
    intro v u; unfold mixedWork; rw [e1]
  have hst' : MixedStable (shellEnv q nan4 nan3 solve) pre P' := by
    intro u; rw [e2, e3, em]; exact hst u
  obtain ⟨x, h1, h2, h3⟩ := mixed_equilibrium henv hM hD hss hsf hst hu
  obtain ⟨y, k1, k2, k3⟩ := mixed_equilibrium henv hM hD' hss hsf hst' hu'
  rw [e2] at k1
  rw [e3] at k2 k3
  rw [hD.congr (shellEnv q nan4 nan3 solve) k1, hD'.congr (shellEnv q nan4 nan3 solve) (by rw [e2]; exact h1), ← h3 y k2, ← k3 x h2, em,
    mixed_symm hD hss]

/-- Positive beams and proper shells: the reported displacements are those with the least total potential energy, and the loads do twice
the stored energy. -/
theorem C138_minimum (hq : ProperRule q.quad) (hq' : ∀ p ∈ q.tria, 0 ≤ p.1) (henv : (shellEnv q nan4 nan3 solve).SolverSound)
    (pre mid : List Call) (hM : PlainModel (shellEnv q nan4 nan3 solve) pre)
    (hsp : ShellsProper (World.init.run (shellEnv q nan4 nan3 solve) pre).api.model) (c : String) (P : Problem) (hD : Poses pre c P)
    (hpos : P.frame.Positive) (hst : MixedStable (shellEnv q nan4 nan3 solve) pre P) (u : State)
    (hu : Reports (shellEnv q nan4 nan3 solve) pre mid c u) :
    (∀ v, Obeys P.fix v → mixedPotential (shellEnv q nan4 nan3 solve) pre P u ≤ mixedPotential (shellEnv q nan4 nan3 solve) pre P v ∧
      (mixedPotential (shellEnv q nan4 nan3 solve) pre P v = mixedPotential (shellEnv q nan4 nan3 solve) pre P u → ∀ n ∈ P.nodes, v n = u n)) ∧
    P.load u = mixedWork (shellEnv q nan4 nan3 solve) pre P u u ∧ 0 ≤ P.load u := by
  have hA := (ApiInv_run (shellEnv q nan4 nan3 solve) pre).1
  have hreg := hsp.regular hq hA
  have hss := shells_symm q nan4 nan3 solve hreg
  have hsf := shells_free q nan4 nan3 solve hreg
  have hp := shells_pos q nan4 nan3 solve hq hq' hA hsp
  obtain ⟨x, h1, h2, h3⟩ := mixed_equilibrium henv hM hD hss hsf hst hu
  have ex : mixedPotential (shellEnv q nan4 nan3 solve) pre P u = mixedPotential (shellEnv q nan4 nan3 solve) pre P x := by
    unfold mixedPotential
    rw [mixed_congr hD h1 h1, hD.congr (shellEnv q nan4 nan3 solve) h1]
  have ew : P.load u = mixedWork (shellEnv q nan4 nan3 solve) pre P u u := by
    rw [hD.congr (shellEnv q nan4 nan3 solve) h1, ← h3 x h2, mixed_congr hD h1 h1]
  refine ⟨?_, ew, by rw [ew]; exact mixed_nonneg hD hpos hp u⟩
  intro v hv
  have hd : mixedPotential (shellEnv q nan4 nan3 solve) pre P v - mixedPotential (shellEnv q nan4 nan3 solve) pre P x =
      mixedWork (shellEnv q nan4 nan3 solve) pre P ((1:ℝ) • v + (-1:ℝ) • x) ((1:ℝ) • v + (-1:ℝ) • x) / 2 := by
    unfold mixedPotential
    rw [← h3 v hv, ← h3 x h2, mixed_lin hD, mixed_lin_left hD, mixed_lin_left hD, mixed_symm hD hss x v]
    ring
  have hn := mixed_nonneg hD hpos hp ((1:ℝ) • v + (-1:ℝ) • x)
  rw [ex]
  constructor
  · linarith
  · intro e n hn'
    have h0 : mixedWork (shellEnv q nan4 nan3 solve) pre P ((1:ℝ) • v + (-1:ℝ) • x) ((1:ℝ) • v + (-1:ℝ) • x) = 0 := by linarith
    have ho : Obeys P.fix ((1:ℝ) • v + (-1:ℝ) • x) := by
      rw [obeys_iff] at hv h2 ⊢
      intro m r hm
      simp [hv m r hm, h2 m r hm]
    have := hst _ ho h0 n hn'
    rw [h1 n hn']
    funext r
    have := congrFun this r
    simp at this
    linarith

/-- There are support forces that keep the reported displacements in equilibrium, and they are determined. -/
theorem C138_supports (henv : (shellEnv q nan4 nan3 solve).SolverSound) (pre mid : List Call)
    (hM : PlainModel (shellEnv q nan4 nan3 solve) pre) (hreg : ShellsRegular q (World.init.run (shellEnv q nan4 nan3 solve) pre).api.model)
    (c : String) (P : Problem) (hD : Poses pre c P) (hst : MixedStable (shellEnv q nan4 nan3 solve) pre P) (u : State)
    (hu : Reports (shellEnv q nan4 nan3 solve) pre mid c u) :
    ∃ R, MixedForces (shellEnv q nan4 nan3 solve) pre P u R ∧
      ∀ R', MixedForces (shellEnv q nan4 nan3 solve) pre P u R' → ∀ n ∈ P.nodes, R' n = R n := by
  have hss := shells_symm q nan4 nan3 solve hreg
  have hsf := shells_free q nan4 nan3 solve hreg
  have hn := nodes_nodup (shellEnv q nan4 nan3 solve) hD
  obtain ⟨x, h1, h2, h3⟩ := mixed_equilibrium henv hM hD hss hsf hst hu
  let L : State → ℝ := fun v => mixedWork (shellEnv q nan4 nan3 solve) pre P v u - P.load v
  have hL : ∀ v, L v = nodalWork P.nodes (fun n r => L (unitAt n r)) v := by
    apply work_of_nodal hn
    · intro a b v w
      show mixedWork (shellEnv q nan4 nan3 solve) pre P _ u - P.load _ = _
      rw [mixed_lin_left hD, hD.lin (shellEnv q nan4 nan3 solve)]
      ring
    · intro v w h
      show mixedWork (shellEnv q nan4 nan3 solve) pre P _ u - P.load _ = mixedWork (shellEnv q nan4 nan3 solve) pre P _ u - P.load _
      rw [mixed_congr hD h (fun _ _ => rfl), hD.congr (shellEnv q nan4 nan3 solve) h]
  refine ⟨fun n r => L (unitAt n r), ⟨?_, ?_⟩, ?_⟩
  · intro n _ r hr
    by_contra hc
    apply hr
    show mixedWork (shellEnv q nan4 nan3 solve) pre P _ u - P.load _ = 0
    rw [mixed_congr hD (fun _ _ => rfl) h1, h3, sub_self]
    rw [obeys_iff]
    intro m q hm
    show (if m = n ∧ q = r then (1:ℝ) else 0) = 0
    apply if_neg
    rintro ⟨rfl, rfl⟩
    exact hc hm
  · intro v
    rw [← hL]
    show _ = P.load v + (mixedWork (shellEnv q nan4 nan3 solve) pre P v u - P.load v)
    ring
  · intro R' hR' n hmem
    funext r
    have := hR'.work (unitAt n r)
    rw [nodalWork_unit hn R' hmem] at this
    show R' n r = mixedWork (shellEnv q nan4 nan3 solve) pre P _ u - P.load _
    linarith

theorem shell_translation {env : Env} {a : Api} (h : ApiInv a) (hss : ShellsSymm env a.model) (hsf : ShellsFree env a.model) (t : V3) (u : State) :
    (a.model.shells.map fun p => shellInternal env p.2 (fun _ => ![t.x, t.y, t.z, 0, 0, 0]) u).sum = 0 := by
  apply List.sum_eq_zero
  intro z hz
  obtain ⟨⟨s, se⟩, hm, rfl⟩ := List.mem_map.mp hz
  have hse := (Dict.mem_iff_get? h.shells_wf s se).mp hm
  have hsy := hss s se hse
  have hfr := hsf s se hse t
  simp only
  unfold shellInternal
  rcases (h.shell_ok s se hse).1 with h4 | h3
  · rw [if_pos h4, Matrix.dotProduct_mulVec, ← Matrix.mulVec_transpose, hsy.1 h4, hfr.1 h4, zero_dotProduct]
  · rw [if_neg (show ¬ se.nodes.length = 4 by omega), Matrix.dotProduct_mulVec, ← Matrix.mulVec_transpose, hsy.2 h3, hfr.2 h3, zero_dotProduct]

/-- The forces of all loads and the forces of the supports add up to zero. -/
theorem C138_forces (pre : List Call) (hM : PlainModel (shellEnv q nan4 nan3 solve) pre)
    (hreg : ShellsRegular q (World.init.run (shellEnv q nan4 nan3 solve) pre).api.model) (c : String) (P : Problem) (hD : Poses pre c P)
    (u : State) (R : String → Vec 6) (hR : MixedForces (shellEnv q nan4 nan3 solve) pre P u R) (g : String → Option ℝ) (names : List String)
    (hc : (caseReg.run pre).cur.cases c = some g) (hl : Lists names g) :
    P.frame.caseForce P.nodes (caseReg.run pre).cur g names + forceSum P.nodes R = 0 := by
  have hss := shells_symm q nan4 nan3 solve hreg
  have hsf := shells_free q nan4 nan3 solve hreg
  have hloc : ∀ n ∈ P.nodes, P.frame.loc n = some (P.frame.at n) := by
    intro n hn
    rw [hD.nodes] at hn
    rw [hD.frame]
    exact located (env := shellEnv q nan4 nan3 solve) hn
  have hE : EndsLocated P.frame := by rw [hD.frame]; exact ends_located hM.readd
  obtain ⟨g', names', hc', hl', e⟩ := hD.load
  rw [hc] at hc'
  cases hc'
  have hw : ∀ v, P.load v = P.frame.caseWork P.nodes (caseReg.run pre).cur g names v := by
    intro v
    rw [e]
    unfold Blueprint.caseWork
    have hperm : names'.Perm names := (List.perm_ext_iff_of_nodup hl'.1 hl.1).mpr fun p => (hl'.2 p).trans (hl.2 p).symm
    exact (hperm.map _).sum_eq
  have key : ∀ t : V3, t.dot (P.frame.caseForce P.nodes (caseReg.run pre).cur g names + forceSum P.nodes R) = 0 := by
    intro t
    have h1 := hR.work (rigidState P.frame.loc (t - (0 : V3).cross 0) 0)
    rw [hw, case_rigid hE P.nodes hloc, rigid_work_nodal P.frame P.nodes hloc] at h1
    have z : ∀ a : V3, (0 : V3).dot a = 0 := fun a => by simp [V3.dot]
    have hz : mixedWork (shellEnv q nan4 nan3 solve) pre P (rigidState P.frame.loc (t - (0 : V3).cross 0) 0) u = 0 := by
      have hb := part_rigid hM.readd (fun _ => True) (fun _ _ _ => Iff.rfl) (t - (0 : V3).cross 0) 0 u
      have e' : ∀ v, within (fun _ => True) v = v := fun v => funext fun n => if_pos trivial
      rw [e', ← hD.frame] at hb
      have hcg := mixed_congr (env := shellEnv q nan4 nan3 solve) hD (v := rigidState P.frame.loc (t - (0 : V3).cross 0) 0)
        (v' := fun _ => ![t.x, t.y, t.z, 0, 0, 0]) (u := u) (u' := u) (by
          intro n hn
          unfold rigidState
          rw [hloc n hn]
          funext r
          fin_cases r <;> simp [V3.cross, V3.add_def, V3.sub_def]) (fun _ _ => rfl)
      have hbt : P.frame.internal (rigidState P.frame.loc (t - (0 : V3).cross 0) 0) u = P.frame.internal (fun _ => ![t.x, t.y, t.z, 0, 0, 0]) u := by
        apply internal_congr (hD.sane (shellEnv q nan4 nan3 solve)) _ (fun _ _ => rfl)
        intro n hn
        unfold rigidState
        rw [hloc n hn]
        funext r
        fin_cases r <;> simp [V3.cross, V3.add_def, V3.sub_def]
      rw [hcg]
      unfold mixedWork shellWork
      rw [shell_translation (ApiInv_run _ pre).1 hss hsf, ← hbt, hb, add_zero]
    rw [hz, z, z] at h1
    rw [dot_add']
    linarith
  generalize P.frame.caseForce P.nodes (caseReg.run pre).cur g names + forceSum P.nodes R = f at key
  have a1 := key ⟨1, 0, 0⟩
  have a2 := key ⟨0, 1, 0⟩
  have a3 := key ⟨0, 0, 1⟩
  simp [V3.dot] at a1 a2 a3
  ext <;> simp [*]

/-- Such a case is solved: `solve_static` returns True and reports displacements, if no beam has μ = -1, the case restrains existing nodes
only and some component is free. -/
theorem C138_solved (henv : (shellEnv q nan4 nan3 solve).SolverSound) (pre mid : List Call) (hM : PlainModel (shellEnv q nan4 nan3 solve) pre)
    (hmid : ∀ k ∈ mid, k ≠ .assemble) (hreg : ShellsRegular q (World.init.run (shellEnv q nan4 nan3 solve) pre).api.model) (c : String)
    (P : Problem) (hD : Poses pre c P) (hst : MixedStable (shellEnv q nan4 nan3 solve) pre P)
    (hmu : ∀ b g, P.frame.beam b = some g → g.sec.mat.mu ≠ -1)
    (hown : ∀ own, (restReg.run pre).cur.cases c = some own → ∀ n f, own n = some f → n ∈ P.nodes)
    (hfree : ∃ n ∈ P.nodes, ∃ r, ¬ Restrained P.fix n r) : ∃ u, Reports (shellEnv q nan4 nan3 solve) pre mid c u := by
  generalize hE : shellEnv q nan4 nan3 solve = env at *
  have hss : ShellsSymm env (World.init.run env pre).api.model := by subst hE; exact shells_symm q nan4 nan3 solve hreg
  have hsf : ShellsFree env (World.init.run env pre).api.model := by subst hE; exact shells_free q nan4 nan3 solve hreg
  have hrest := restReg_refined env pre
  have hreg := caseReg_refined env pre hM.recreate
  obtain ⟨g, names, hc, hl, e⟩ := hD.load
  rw [← hreg] at hc
  simp only [absReg, Option.map_eq_some_iff] at hc
  obtain ⟨lc, hlc, rfl⟩ := hc
  have hn := mixed_nodes env hD
  have hin := inForce_governing hlc _ hrest
  rw [← hD.fix] at hin
  have hresp : ∀ u, Obeys P.fix u ↔ Respects (governing (World.init.run env pre).api.model lc) u := by
    intro u
    unfold Obeys Respects
    simp only [hin]
  have hst' : Stable env (World.init.run env pre).api.model (governing (World.init.run env pre).api.model lc) := by
    intro u hu h0 n hmem
    exact hst u ((hresp u).mpr hu) ((mixedWork_eq env hD u u).trans h0) n (by rw [hn]; exact hmem)
  have hret := C20_succeeds env henv pre mid hM.readd hmid _ _ rfl rfl c lc hlc hsf hst' (by
      intro b be hb
      have := hmu b (givenBeam be) (by rw [hD.frame, ← blueprint_refined env pre]; simp [blueprintOf, hb])
      cases hp : be.prop <;> simpa [muOf, givenBeam, givenProp, givenSec, givenMat, hp] using this) (by
      intro n hk
      obtain ⟨f, hf⟩ := dict_mem_keys hk
      have := hown (fun n => lc.restraint.get? n) (by rw [← hrest]; simp only [hlc, Option.map_some]) n f hf
      rw [hn] at this
      exact this) (by
      obtain ⟨n, h1, r, h2⟩ := hfree
      refine ⟨n, by rw [hn] at h1; exact h1, r, fun f hf => ?_⟩
      cases hr : f r with
      | false => rfl
      | true => exact absurd ⟨f, by rw [hin]; exact hf, hr⟩ h2)
  obtain ⟨x, h1, h2, h3⟩ := C20_equilibrium env henv pre mid hM.readd hmid _ _ rfl rfl c lc hlc hss hsf hst' hret
  refine ⟨x, hmid, hret, ?_⟩
  intro n hmem
  rw [← hD.nodes, hn] at hmem
  exact h1 n hmem

end Hyperstatic
