import Mathlib.Analysis.Real.Pi.Bounds
import Verif.Lemmas.Demo

/-
C08, C36, C48, C51, C52: degree-of-freedom count, and calls of the API that do not do what they say.
-/

namespace Hyperstatic
open Spec

/-! ### C08 Degree-of-freedom count -/

/-- The number of true flags of a restraint table. -/
def trueFlags (t : Dict Flags) : ℕ := (t.map fun p => (Finset.univ.filter fun r => p.2 r = true).card).sum

theorem flagDofs_length (h : ℕ) (f : Flags) : (flagDofs h f).length = (Finset.univ.filter fun r => f r = true).card := by
  unfold flagDofs
  rw [List.length_map, ← List.toFinset_card_of_nodup (List.Nodup.filter _ (List.nodup_finRange 6))]
  congr 1
  ext r
  simp

theorem restraintDofs_length {a : Api} (h : ApiInv a) {t : Dict Flags} {fixed : List ℕ}
    (hok : restraintDofs a.model t = .ok fixed) : fixed.length = trueFlags t := by
  rw [restraintDofs_eq h (restraintDofs_keys h hok)] at hok
  cases hok
  rw [List.length_flatten, List.map_map]
  unfold trueFlags
  congr 1
  apply List.map_congr_left
  intro p _
  exact flagDofs_length _ _

/-- After every history without re-added nodes `assemble()` succeeds; the number of degrees of freedom kept by the assembly is
six times the number of nodes minus the number of true flags of `get_node_restraints()`; for a case without restraints of its
own, the reduced stiffness of an assembled stiffness exists and is square of that order, and so is the length of every reduced
vector. -/
theorem C08_dof_count (env : Env) (cs : List Call) (w : World) (hw : w = World.init.run env cs) (hno : NoReadd env World.init cs) :
    (w.step env .assemble).2 = true ∧
    ∃ x, (w.step env .assemble).1.fs.get? Api.filename = some (.asb x) ∧
      ∃ t, w.getNodeRestraints none = some t ∧
      x.dof = 6 * (w.getNodeNames.length : ℤ) - (trueFlags t : ℤ) ∧
      ∀ c, w.getNodeRestraints (some c) = some [] →
        (∀ K, x.assembleK env = .ok K → ∃ K', x.boundaryMatrix c K = .ok K' ∧ (K'.nrow : ℤ) = x.dof ∧ (K'.ncol : ℤ) = x.dof) ∧
        (∀ s f, x.assembleF c s = .ok f → ∃ f', x.boundaryVector c f = .ok f' ∧ (f'.length : ℤ) = x.dof) := by
  have hF := (FreshInv_run env cs hno).1
  rw [← hw] at hF
  have hA := hF.toApiInv
  obtain ⟨x, hx⟩ := hA.assembly_ok
  have hstep : w.step env .assemble = ({ w with fs := w.fs.set Api.filename (.asb x) }, true) := by
    simp only [World.step, hx]
  obtain ⟨h1, h2, h3, h4, h5⟩ := hA.assembly_eq hx
  obtain ⟨hnd, hlt⟩ := restraintDofs_nodup hF hA.rest_wf h4
  have hlen : (w.getNodeNames.length : ℤ) = (w.api.model.nodeCount : ℤ) := by
    unfold World.getNodeNames Dict.keys FeModel.nodeCount; simp
  refine ⟨by rw [hstep], x, by rw [hstep]; exact Dict.get?_set_same _ _ _, w.api.model.restraints, rfl, ?_, ?_⟩
  · rw [h5, hlen, restraintDofs_length hA h4]; push_cast; ring
  · intro c hc
    have hlc : ∃ lc, x.cases.get? c = some lc ∧ lc.restraint = [] := by
      unfold World.getNodeRestraints at hc
      rw [h3]
      cases hg : w.api.loadcases.get? c with
      | none => simp only [Dict.getItem_of_none hg] at hc; cases hc
      | some lc =>
        simp only [Dict.getItem_of_some hg, Except.bind_ok] at hc
        exact ⟨lc, rfl, by simpa [tryOption, Except.pure_eq_ok] using hc⟩
    obtain ⟨lc, hlc, hr⟩ := hlc
    have hb : x.boundaryDofs c = .ok x.fixedDof := by
      unfold Assembly.boundaryDofs
      rw [Dict.getItem_of_some hlc, Except.bind_ok, hr]; rfl
    have hle : x.fixedDof.length ≤ w.api.model.nodeCount * 6 := by
      have := free_length hnd hlt
      have h6 : x.fixedDof.length ≤ (List.range (w.api.model.nodeCount * 6)).length :=
        (hnd.subperm (fun i hi => List.mem_range.mpr (hlt i hi))).length_le
      simpa using h6
    constructor
    · intro K hK
      obtain ⟨kr, kc, kents⟩ := assembleK_range hK
      rw [h1] at kr kc
      obtain ⟨K', hK'⟩ := dropMatrix_ok hnd (kr.trans kc.symm) (by rw [kr]; exact hlt) kents
      obtain ⟨_, _, hr', hc'⟩ := dropMatrix_shape hK'
      refine ⟨K', ?_, ?_, ?_⟩
      · unfold Assembly.boundaryMatrix
        rw [hb, Except.bind_ok, hK']
      · rw [hr', kr, h5]; omega
      · rw [hc', kc, h5]; omega
    · intro s f hf
      obtain ⟨fr, _, _⟩ := assembleF_shape hf
      rw [h1] at fr
      refine ⟨Assembly.dropVectorDof f x.fixedDof, ?_, ?_⟩
      · unfold Assembly.boundaryVector
        rw [hb, Except.bind_ok]; rfl
      · rw [dropVector_eq, List.length_map, fr, free_length hnd hlt, h5]; omega

/-- the example structure has two nodes, one of them clamped: six degrees of freedom -/
example (env : Env) : ∃ x, ((World.init.run env demoCalls).step env .assemble).1.fs.get? Api.filename = some (.asb x) ∧ x.dof = 6 := by
  obtain ⟨_, x, h1, t, h2, h3, _⟩ := C08_dof_count env demoCalls _ rfl (demo_noReadd env)
  refine ⟨x, h1, ?_⟩
  obtain ⟨c, hc, hr⟩ := demo_run env
  rw [hr] at h2 h3
  cases h2
  rw [h3]
  rfl

/-! ### C36 End releases can be set -/

/-- the part of the property that concerns the return value -/
def C36_claim : Prop :=
  ∀ (env : Env) (cs : List Call) (w : World), w = World.init.run env cs → ∀ b ∈ w.getBeamNames, ∀ rel : Fin 12 → Bool,
    (w.step env (.setBeamRelease b rel)).2 = true

/-- What the call does: in every state, for every beam and release pattern, it reports failure and changes nothing. -/
theorem C36_never_partial (env : Env) (w : World) (b : String) (rel : Fin 12 → Bool) :
    w.step env (.setBeamRelease b rel) = (w, false) := rfl

/-- Consequently no beam of a reachable state, or of an assembly made from one, ever has a release. -/
theorem C36_no_releases_partial (env : Env) (cs : List Call) :
    (∀ b be, (World.init.run env cs).api.model.beams.get? b = some be → be.releases = fun _ => false) ∧
    ∀ x, (World.init.run env cs).fs.get? Api.filename = some (.asb x) →
      ∀ b be, x.model.beams.get? b = some be → be.releases = fun _ => false := by
  have hI := ApiInv_run env cs
  refine ⟨fun b be hb => (hI.1.beam_ok b be hb).2.2.2.2, ?_⟩
  intro x hx b be hb
  obtain ⟨a, ha, he⟩ := hI.2.2 _ x hx
  rw [(ha.assembly_eq he).1] at hb
  exact (ha.beam_ok b be hb).2.2.2.2

theorem C36_false : ¬ C36_claim := by
  intro h
  have := h idealEnv demoCalls _ rfl "b" (by
    obtain ⟨c, _, hr⟩ := demo_run idealEnv
    rw [hr]; simp [World.getBeamNames, demoApi, demoModel, Dict.keys]) (fun k => decide (k = 5))
  rw [C36_never_partial] at this
  cases this

/-! ### C48 add_beam_section_pipe creates a pipe section -/

/-- the property, for area and second moments, to one per cent -/
def C48_claim : Prop :=
  ∀ (env : Env) (cs : List Call) (w : World), w = World.init.run env cs → ∀ (name mat : String) (d t : ℝ), 0 < t → 2 * t < d →
    (w.step env (.addBeamSectionPipe name mat d t)).2 = true →
    ∃ s, (w.step env (.addBeamSectionPipe name mat d t)).1.api.model.beamSection.get? name = some s ∧
      |s.A - Real.pi / 4 * (d ^ 2 - (d - 2 * t) ^ 2)| ≤ 1 / 100 * (Real.pi / 4 * (d ^ 2 - (d - 2 * t) ^ 2)) ∧
      |s.I22 - Real.pi / 64 * (d ^ 4 - (d - 2 * t) ^ 4)| ≤ 1 / 100 * (Real.pi / 64 * (d ^ 4 - (d - 2 * t) ^ 4)) ∧
      |s.I33 - Real.pi / 64 * (d ^ 4 - (d - 2 * t) ^ 4)| ≤ 1 / 100 * (Real.pi / 64 * (d ^ 4 - (d - 2 * t) ^ 4))

/-- What the call does: it defines a solid rectangle of depth `d` and width `t`. -/
theorem C48_actual_partial (env : Env) (w : World) (name mat : String) (d t : ℝ) :
    w.step env (.addBeamSectionPipe name mat d t) = w.step env (.addBeamSectionRectangle name mat d t) ∧
    ((w.step env (.addBeamSectionPipe name mat d t)).2 = true →
      ∃ s, (w.step env (.addBeamSectionPipe name mat d t)).1.api.model.beamSection.get? name = some s ∧
        s.A = t * d ∧ s.I22 = d * t ^ 3 / 12 ∧ s.I33 = t * d ^ 3 / 12) := by
  refine ⟨rfl, ?_⟩
  rw [step_edit env w (.addBeamSectionPipe name mat d t) rfl]
  intro h
  cases he : w.api.edit (.addBeamSectionPipe name mat d t) with
  | error e => rw [he] at h; cases h
  | ok a' =>
    rw [edit_ok_iff] at he
    obtain ⟨m, s, hm, hs, rfl⟩ := he
    refine ⟨s, Dict.get?_set_same _ _ _, ?_⟩
    unfold rectangleSection at hs
    simp only [Except.bind_ok_iff, Except.pure_eq_ok, Except.ok.injEq] at hs
    obtain ⟨_, _, _, _, _, _, _, _, rfl⟩ := hs
    exact ⟨rfl, rfl, rfl⟩

theorem rectangle_ok (name : String) (mat : Material) (h b : ℝ) (hh : h ≠ 0) (hb : b ≠ 0) : ∃ s, rectangleSection name mat h b = .ok s := by
  have hp : pi6 ≠ 0 := by norm_num [pi6]
  unfold rectangleSection pyDiv
  simp only [hb, if_false, Except.bind_ok, mul_eq_zero, pow_eq_zero_iff (n := 5) (by norm_num), hp, hh, or_false, div_eq_zero_iff,
    OfNat.ofNat_ne_zero]
  exact ⟨_, rfl⟩

theorem C48_false : ¬ C48_claim := by
  intro h
  let env : Env := ⟨fun _ => 0, fun _ => 0, fun _ _ _ => .error .exception⟩
  let cs : List Call := [.addIsotropicMaterial "m" 1 1 0 0]
  have hr : World.init.run env cs = ⟨⟨{ FeModel.empty with material := [("m", ⟨"m", 1, 1, 0, 0⟩)] }, [], [], []⟩, []⟩ := by
    show World.init.run env [_] = _
    rw [run_cons, step_addMaterial, run_nil]; rfl
  have htrue : ((World.init.run env cs).step env (.addBeamSectionPipe "p" "m" 1 (1 / 4))).2 = true := by
    obtain ⟨s, hs⟩ := rectangle_ok "p" ⟨"m", 1, 1, 0, 0⟩ 1 (1 / 4) (by norm_num) (by norm_num)
    rw [hr, step_of_edit env _ (.addBeamSectionPipe "p" "m" 1 (1 / 4)) _ rfl (by exact ⟨_, s, rfl, hs, rfl⟩)]
  obtain ⟨s, h1, h2, _⟩ := h env cs _ rfl "p" "m" 1 (1 / 4) (by norm_num) (by norm_num) htrue
  obtain ⟨s', h3, h4, _⟩ := (C48_actual_partial env (World.init.run env cs) "p" "m" 1 (1 / 4)).2 htrue
  rw [h1] at h3
  cases h3
  rw [h4, abs_le] at h2
  have := Real.pi_gt_three
  nlinarith [h2.1]

/-! ### C51 Modal analysis and reactions are obtainable -/

/-- the property -/
def C51_claim : Prop :=
  (∃ (env : Env) (cs : List Call) (c : String) (n : ℕ), ((World.init.run env cs).step env (.solveModal c n)).2 = true) ∧
  (∃ (env : Env) (cs : List Call) (n c : String) (r : List ℝ), (World.init.run env cs).resultGetNodalReaction n c = some r) ∧
  (∃ (env : Env) (cs : List Call) (b c : String) (r : List ℝ), (World.init.run env cs).resultGetBeamEndForce b c = some r) ∧
  (∃ (env : Env) (cs : List Call) (c : String) (r : List ℝ), (World.init.run env cs).resultGetStructural c = some r)

/-- What the code does, in every state of the model and of the work path. -/
theorem C51_never_partial (env : Env) (w : World) :
    (∀ c n, w.step env (.solveModal c n) = (w, false)) ∧ (∀ n c, w.resultGetNodalReaction n c = none) ∧
    (∀ b c, w.resultGetBeamEndForce b c = none) ∧ (∀ c, w.resultGetStructural c = none) :=
  ⟨step_solveModal env w, reaction_none w, endForce_none w, fun _ => rfl⟩

theorem C51_false : ¬ C51_claim := by
  rintro ⟨⟨env, cs, c, n, h⟩, _⟩
  rw [(C51_never_partial env _).1] at h
  cases h

/-! ### C52 clear_workspace empties the work path -/

/-- the property -/
def C52_claim : Prop :=
  ∀ (env : Env) (w : World), (w.step env .clearWorkspace).2 = true ∧ (w.step env .clearWorkspace).1.fs = []

/-- What the call does: it reports failure and leaves every file in place. -/
theorem C52_never_partial (env : Env) (w : World) : w.step env .clearWorkspace = (w, false) := rfl

theorem C52_false : ¬ C52_claim := by
  intro h
  have := (h idealEnv World.init).1
  rw [C52_never_partial] at this
  cases this

end Hyperstatic
