import Verif.Lemmas.Line
import Verif.Lemmas.Step
import Verif.Spec.Registry

/-
Properties C05 and C41: which beams are accepted, and the local axes of beams.
-/

namespace Hyperstatic
open Spec Matrix

/-! ## C05 A beam is accepted exactly when it is well defined -/

theorem lineCsys_accept (p q : V3) : (∃ c, lineCsys p q = .ok c) ↔ Acceptable p q := by
  have h := lineCsys_error_iff p q
  unfold Acceptable
  cases hl : lineCsys p q with
  | error e =>
    have := h.mp ⟨e, hl⟩
    simp only [reduceCtorEq, exists_false, false_iff]
    exact this
  | ok c =>
    simp only [Except.ok.injEq, exists_eq', true_iff]
    by_contra hne
    obtain ⟨e, he⟩ := h.mpr hne
    rw [hl] at he; simp at he

theorem node_of_location {w : World} {n : String} {p : V3} :
    w.getNodeLocation n = some p ↔ ∃ nd, w.api.model.nodes.get? n = some nd ∧ nd.loc = p := by
  simp only [World.getNodeLocation, FeModel.getNodeLocation, Dict.getItem]
  cases w.api.model.nodes.get? n with
  | none => simp [tryOption, bind, Except.bind]
  | some nd => simp [tryOption, bind, Except.bind, pure, Except.pure]

theorem step_ok_iff (env : Env) (w : World) (c : Call) (hc : c.isEdit = true) :
    (w.step env c).2 = true ↔ ∃ a, EditEff w.api c a := by
  rw [step_edit _ _ _ hc]
  constructor
  · intro h
    cases he : w.api.edit c with
    | ok a => exact ⟨a, (edit_ok_iff _ _ _).mp he⟩
    | error e => rw [he] at h; simp at h
  · rintro ⟨a, ha⟩
    rw [(edit_ok_iff _ _ _).mpr ha]

theorem step_world (env : Env) (w : World) (c : Call) (hc : c.isEdit = true) (a : Api) (ha : EditEff w.api c a) :
    (w.step env c).1 = { w with api := a } := by
  rw [step_edit _ _ _ hc, (edit_ok_iff _ _ _).mpr ha]

theorem beam_mk_iff (name : String) (n0 n1 : Node) (p : BeamProp) :
    (∃ b, BeamElm.mk? name n0 n1 p = .ok b) ↔ Acceptable n0.loc n1.loc := by
  rw [← lineCsys_accept]
  simp only [BeamElm.mk?, Except.bind_ok_iff, Except.pure_eq_ok, Except.ok.injEq]
  constructor
  · rintro ⟨b, c, hc, _⟩; exact ⟨c, hc⟩
  · rintro ⟨c, hc⟩; exact ⟨_, c, hc, rfl⟩

/-- C05, exact acceptance criterion of `add_beam`, in any state: both nodes and the section exist and the node locations
are acceptable.  Missing from the full statement: "acceptable" is stronger than "distinct" (see `C05_false`). -/
theorem C05_add_beam_iff_partial (env : Env) (w : World) (b i j sec : String) :
    (w.step env (.addBeam b i j sec)).2 = true ↔
      ∃ p q, w.getNodeLocation i = some p ∧ w.getNodeLocation j = some q ∧
        (w.api.model.beamSection.get? sec ≠ none) ∧ Acceptable p q := by
  rw [step_ok_iff _ _ _ rfl]
  constructor
  · rintro ⟨a, n0, n1, s, be, h0, h1, h2, h3, rfl⟩
    exact ⟨n0.loc, n1.loc, node_of_location.mpr ⟨n0, h0, rfl⟩, node_of_location.mpr ⟨n1, h1, rfl⟩,
      by rw [h2]; simp, (beam_mk_iff b n0 n1 _).mp ⟨be, h3⟩⟩
  · rintro ⟨p, q, hp, hq, hs, hacc⟩
    obtain ⟨n0, h0, rfl⟩ := node_of_location.mp hp
    obtain ⟨n1, h1, rfl⟩ := node_of_location.mp hq
    obtain ⟨s, hs⟩ := Option.ne_none_iff_exists'.mp hs
    obtain ⟨be, hb⟩ := (beam_mk_iff b n0 n1 (.sec s)).mpr hacc
    exact ⟨_, n0, n1, s, be, h0, h1, hs, hb, rfl⟩

/-- The same for `add_simple_beam`, which needs no section; the numbers given are never checked. -/
theorem C05_add_simple_beam_iff_partial (env : Env) (w : World) (b i j : String) (E mu A I2 I3 J rho : ℝ) :
    (w.step env (.addSimpleBeam b i j E mu A I2 I3 J rho)).2 = true ↔
      ∃ p q, w.getNodeLocation i = some p ∧ w.getNodeLocation j = some q ∧ Acceptable p q := by
  rw [step_ok_iff _ _ _ rfl]
  constructor
  · rintro ⟨a, n0, n1, be, h0, h1, h3, rfl⟩
    exact ⟨n0.loc, n1.loc, node_of_location.mpr ⟨n0, h0, rfl⟩, node_of_location.mpr ⟨n1, h1, rfl⟩,
      (beam_mk_iff b n0 n1 _).mp ⟨be, h3⟩⟩
  · rintro ⟨p, q, hp, hq, hacc⟩
    obtain ⟨n0, h0, rfl⟩ := node_of_location.mp hp
    obtain ⟨n1, h1, rfl⟩ := node_of_location.mp hq
    obtain ⟨be, hb⟩ := (beam_mk_iff b n0 n1 (.simple E mu A I2 I3 J rho)).mpr hacc
    exact ⟨_, n0, n1, be, h0, h1, hb, rfl⟩

/-- The condition in numbers. -/
theorem C05_tolerance_partial (p q : V3) : Acceptable p q ↔
    (max |q.x - p.x| |q.y - p.y| < 1 / 10 ^ 9 ∧ 2 / 10 ^ 9 ≤ |q.z - p.z|) ∨ 2 / 10 ^ 9 ≤ max |q.x - p.x| |q.y - p.y| := by
  have : (2:ℝ) / 10 ^ 9 = 2 * absTol := by unfold absTol; norm_num
  rw [this]
  rfl

/-- The relation between acceptable and distinct: acceptable points are distinct; and points at least
`4 tol` apart are acceptable unless their horizontal offset lies in the window `[tol, 2 tol)`. -/
theorem C05_acceptable_partial (p q : V3) :
    (Acceptable p q → p ≠ q) ∧
    (4 * absTol ≤ V3.norm (q - p) → ¬ (absTol ≤ max |q.x - p.x| |q.y - p.y| ∧ max |q.x - p.x| |q.y - p.y| < 2 * absTol) →
      Acceptable p q) := by
  have ht := absTol_pos
  constructor
  · rintro (⟨_, h⟩ | h) rfl
    · simp at h; linarith
    · simp at h; linarith
  · intro h hw
    unfold Acceptable
    by_cases h2 : 2 * absTol ≤ max |q.x - p.x| |q.y - p.y|
    · exact Or.inr h2
    · left
      push Not at hw h2
      have h1 : max |q.x - p.x| |q.y - p.y| < absTol := by
        by_contra hc; push Not at hc; have := hw hc; linarith
      refine ⟨h1, ?_⟩
      by_contra hz
      push Not at hz
      have hx := lt_of_le_of_lt (le_max_left _ _) h1
      have hy := lt_of_le_of_lt (le_max_right _ _) h1
      have hn : V3.norm (q - p) < 4 * absTol := by
        unfold V3.norm
        rw [Real.sqrt_lt' (by linarith)]
        simp only [V3.sub_def]
        have ex := abs_mul_abs_self (q.x - p.x)
        have ey := abs_mul_abs_self (q.y - p.y)
        have ez := abs_mul_abs_self (q.z - p.z)
        rw [← ex, ← ey, ← ez]
        have := abs_nonneg (q.x - p.x)
        have := abs_nonneg (q.y - p.y)
        have := abs_nonneg (q.z - p.z)
        nlinarith
      linarith

/-- C05 is false as stated: two nodes 100 apart, nearly vertical with an offset of 1.5 tolerances, are rejected. -/
theorem C05_false (env : Env) : ∃ (cs : List Call) (p q : V3),
    (World.init.run env cs).getNodeLocation "A" = some p ∧ (World.init.run env cs).getNodeLocation "B" = some q ∧
    100 ≤ V3.norm (q - p) ∧
    ((World.init.run env cs).step env (.addSimpleBeam "b" "A" "B" 1 0 1 1 1 1 1)).2 = false := by
  refine ⟨[.addNode "A" 0 0 0, .addNode "B" (3 / 2 / 10 ^ 9) 0 100], ⟨0, 0, 0⟩, ⟨3 / 2 / 10 ^ 9, 0, 100⟩, ?_, ?_, ?_, ?_⟩
  · rw [node_of_location]
    refine ⟨stdNode "A" 0 0 0, ?_, rfl⟩
    simp [run_cons, run_nil, step_addNode, World.init, Api.init, FeModel.empty, Dict.set, Dict.get?]
  · rw [node_of_location]
    refine ⟨stdNode "B" (3 / 2 / 10 ^ 9) 0 100, ?_, rfl⟩
    simp [run_cons, run_nil, step_addNode, World.init, Api.init, FeModel.empty, Dict.set, Dict.get?]
  · unfold V3.norm
    apply Real.le_sqrt_of_sq_le
    norm_num
  · rw [← Bool.not_eq_true, C05_add_simple_beam_iff_partial]
    rintro ⟨p, q, hp, hq, hacc⟩
    rw [node_of_location] at hp hq
    simp [run_cons, run_nil, step_addNode, World.init, Api.init, FeModel.empty, Dict.set, Dict.get?, stdNode,
      Node.loc] at hp hq
    subst hp hq
    unfold Acceptable at hacc
    norm_num [absTol, abs_of_pos] at hacc

/-- When a beam call succeeds in a reachable state, the beam is listed exactly once, keeps its place if the name existed and
comes last otherwise, reports the two given node names and the locations of these nodes, and every other beam answers as
before. -/
theorem C05_listing_partial (env : Env) (cs : List Call) (b i j : String) (c : Call)
    (hc : (∃ sec, c = .addBeam b i j sec) ∨ (∃ E mu A I2 I3 J rho, c = .addSimpleBeam b i j E mu A I2 I3 J rho))
    (h : ((World.init.run env cs).step env c).2 = true) :
    let w := World.init.run env cs
    let w' := (w.step env c).1
    w'.getBeamNames.Nodup ∧ w'.getBeamNames = (if b ∈ w.getBeamNames then w.getBeamNames else w.getBeamNames ++ [b]) ∧
    w'.getBeamNodeNames b = some (i, j) ∧
    (∃ p q, w.getNodeLocation i = some p ∧ w.getNodeLocation j = some q ∧ w'.getBeamLocation b = some (p, q)) ∧
    ∀ b', b' ≠ b → w'.getBeamNodeNames b' = w.getBeamNodeNames b' ∧ w'.getBeamLocation b' = w.getBeamLocation b' := by
  intro w w'
  have hI : ApiInv w.api := (ApiInv_run env cs).1
  have key : ∃ n0 n1 pr be, w.api.model.nodes.get? i = some n0 ∧ w.api.model.nodes.get? j = some n1 ∧
      BeamElm.mk? b n0 n1 pr = .ok be ∧ w' = { w with api := withBeam w.api b be } := by
    rcases hc with ⟨sec, rfl⟩ | ⟨E, mu, A, I2, I3, J, rho, rfl⟩
    · obtain ⟨a, ha⟩ := (step_ok_iff env w _ rfl).mp h
      have hw := step_world env w _ rfl a ha
      obtain ⟨n0, n1, s, be, h0, h1, h2, h3, rfl⟩ := ha
      exact ⟨n0, n1, _, be, h0, h1, h3, hw⟩
    · obtain ⟨a, ha⟩ := (step_ok_iff env w _ rfl).mp h
      have hw := step_world env w _ rfl a ha
      obtain ⟨n0, n1, be, h0, h1, h3, rfl⟩ := ha
      exact ⟨n0, n1, _, be, h0, h1, h3, hw⟩
  obtain ⟨n0, n1, pr, be, h0, h1, h3, hw⟩ := key
  simp only [BeamElm.mk?, Except.bind_ok_iff, Except.pure_eq_ok, Except.ok.injEq] at h3
  obtain ⟨cc, hcc, rfl⟩ := h3
  obtain ⟨m0, e0⟩ := hI.node_std _ _ h0
  obtain ⟨m1, e1⟩ := hI.node_std _ _ h1
  have hn0 : n0.name = i := by rw [e0]; rfl
  have hn1 : n1.name = j := by rw [e1]; rfl
  rw [hw]
  have hwf : (w.api.model.beams.set b ⟨b, n0.name, n0.loc, n1.name, n1.loc, cc, fun _ => false, pr⟩).WF :=
    Dict.set_wf hI.beams_wf _ _
  refine ⟨hwf, Dict.keys_set _ _ _, ?_, ?_, ?_⟩
  · simp [World.getBeamNodeNames, FeModel.getBeamConnection, withBeam, Dict.getItem, tryOption, bind, Except.bind, pure,
      Except.pure, hn0, hn1]
  · refine ⟨n0.loc, n1.loc, node_of_location.mpr ⟨n0, h0, rfl⟩, node_of_location.mpr ⟨n1, h1, rfl⟩, ?_⟩
    simp [World.getBeamLocation, FeModel.getBeamLocation, withBeam, Dict.getItem, tryOption, bind, Except.bind, pure,
      Except.pure]
  · intro b' hb'
    have hne : b ≠ b' := Ne.symm hb'
    simp [World.getBeamNodeNames, World.getBeamLocation, FeModel.getBeamConnection, FeModel.getBeamLocation, withBeam,
      Dict.getItem, Dict.get?_set_ne _ _ hne]

/-- an inclined beam is acceptable, and the call succeeds in a concrete reachable state -/
example (env : Env) : ((World.init.run env [.addNode "A" 0 0 0, .addNode "B" 1 2 3]).step env
    (.addSimpleBeam "b" "A" "B" 1 0 1 1 1 1 1)).2 = true := by
  rw [C05_add_simple_beam_iff_partial]
  refine ⟨⟨0, 0, 0⟩, ⟨1, 2, 3⟩, ?_, ?_, ?_⟩
  · rw [node_of_location]
    refine ⟨stdNode "A" 0 0 0, ?_, rfl⟩
    simp [run_cons, run_nil, step_addNode, World.init, Api.init, FeModel.empty, Dict.set, Dict.get?]
  · rw [node_of_location]
    refine ⟨stdNode "B" 1 2 3, ?_, rfl⟩
    simp [run_cons, run_nil, step_addNode, World.init, Api.init, FeModel.empty, Dict.set, Dict.get?]
  · right; norm_num [absTol]

/-! ## C41 Beam local axis 1 points from start to end and the transformation is orthogonal -/

/-- In every reachable state every beam has positive length, its local 1-axis is the unit vector from its start to its end,
and its transformation matrix is orthogonal. -/
theorem C41_local_axes (env : Env) (cs : List Call) (b : String) (be : BeamElm)
    (hb : (World.init.run env cs).api.model.beams.get? b = some be) :
    RightHanded be.csys ∧ 0 < V3.norm (be.endLoc - be.startLoc) ∧
    be.endLoc - be.startLoc = V3.norm (be.endLoc - be.startLoc) • be.csys.x ∧
    be.length = V3.norm (be.endLoc - be.startLoc) ∧
    be.Tᵀ * be.T = 1 ∧ be.T * be.Tᵀ = 1 := by
  obtain ⟨_, _, _, hc, _⟩ := (ApiInv_run env cs).1.beam_ok b be hb
  obtain ⟨h1, h2, h3⟩ := lineCsys_ok hc
  have hl : lineLength be.startLoc be.endLoc = V3.norm (be.endLoc - be.startLoc) := by
    unfold lineLength V3.norm
    simp only [V3.sub_def]
    congr 1; ring
  rw [hl] at h2 h3
  exact ⟨h1, h2, h3, hl, lineT_orth' h1, lineT_orth h1⟩

/-- What the transformation does: local components are the scalar products of the global displacement and rotation vectors
of the two ends with the local axes; and (orthogonality) work is the same in local and global axes. -/
theorem C41_components (env : Env) (cs : List Call) (b : String) (be : BeamElm)
    (hb : (World.init.run env cs).api.model.beams.get? b = some be) (u f : Vec 12) :
    (∀ k : Fin 4, (be.T *ᵥ u) ⟨3 * k, by omega⟩ = V3.dot be.csys.x ⟨u ⟨3 * k, by omega⟩, u ⟨3 * k + 1, by omega⟩, u ⟨3 * k + 2, by omega⟩⟩ ∧
      (be.T *ᵥ u) ⟨3 * k + 1, by omega⟩ = V3.dot be.csys.y ⟨u ⟨3 * k, by omega⟩, u ⟨3 * k + 1, by omega⟩, u ⟨3 * k + 2, by omega⟩⟩ ∧
      (be.T *ᵥ u) ⟨3 * k + 2, by omega⟩ = V3.dot be.csys.z ⟨u ⟨3 * k, by omega⟩, u ⟨3 * k + 1, by omega⟩, u ⟨3 * k + 2, by omega⟩⟩) ∧
    (be.T *ᵥ u) ⬝ᵥ (be.T *ᵥ f) = u ⬝ᵥ f := by
  constructor
  · intro k
    rw [show be.T = lineT be.csys from rfl, lineT_mulVec]
    fin_cases k <;> exact ⟨rfl, rfl, rfl⟩
  · have h := (C41_local_axes env cs b be hb).2.2.2.2.1
    rw [Matrix.dotProduct_mulVec, Matrix.vecMul_mulVec, h, Matrix.vecMul_one]

/-- The local 2-axis lies in the plane of the beam and a reference direction, on the side of that direction: the global z axis, or the
global x axis when the ends differ by less than the tolerance in x and in y. -/
theorem C41_orientation (env : Env) (cs : List Call) (b : String) (be : BeamElm)
    (hb : (World.init.run env cs).api.model.beams.get? b = some be) :
    let d := be.endLoc - be.startLoc
    let g : V3 := if max |d.x| |d.y| < absTol then ⟨1, 0, 0⟩ else ⟨0, 0, 1⟩
    be.csys.z.dot g = 0 ∧ 0 < be.csys.y.dot g := by
  intro d g
  obtain ⟨_, _, _, hc, _⟩ := (ApiInv_run env cs).1.beam_ok b be hb
  unfold lineCsys at hc
  generalize ho : (⟨(be.startLoc.x + be.endLoc.x) / 2, (be.startLoc.y + be.endLoc.y) / 2, (be.startLoc.z + be.endLoc.z) / 2⟩ : V3) = o at hc
  have hg : (if max |(be.startLoc - be.endLoc).x| |(be.startLoc - be.endLoc).y| < absTol then o + ⟨1, 0, 0⟩ else o + ⟨0, 0, 1⟩) = o + g := by
    have e1 : |(be.startLoc - be.endLoc).x| = |d.x| := abs_sub_comm _ _
    have e2 : |(be.startLoc - be.endLoc).y| = |d.y| := abs_sub_comm _ _
    rw [e1, e2]
    by_cases h : max |d.x| |d.y| < absTol
    · rw [if_pos h, show g = ⟨1, 0, 0⟩ from if_pos h]
    · rw [if_neg h, show g = ⟨0, 0, 1⟩ from if_neg h]
  simp only at hc
  rw [hg] at hc
  obtain ⟨hr, _, hA, hx, hz, hn⟩ := mk?_ok hc
  have e : o + g - o = g := by ext <;> simp
  rw [e] at hz hn
  generalize be.endLoc - o = a at hA hx hz hn
  have hN : 0 < (a.cross g).norm := (V3.norm_pos_iff _).mpr hn
  have hM : 0 < a.norm := (V3.norm_pos_iff _).mpr hA
  have hzN := V3.norm_smul_unit hn
  rw [← hz] at hzN
  have hy := RightHanded.cross_zx hr
  constructor
  · have h0 := V3.dot_cross_right a g
    rw [← hzN] at h0
    have h1 : g.dot ((a.cross g).norm • be.csys.z) = (a.cross g).norm * be.csys.z.dot g := by
      simp only [V3.dot, V3.smul_def]; ring
    rw [h1] at h0
    exact (mul_eq_zero.mp h0).resolve_left hN.ne'
  · have h1 : a.norm * be.csys.y.dot g = be.csys.z.dot (a.cross g) := by
      have hx1 : a.norm * be.csys.x.x = a.x := congrArg V3.x hx
      have hx2 : a.norm * be.csys.x.y = a.y := congrArg V3.y hx
      have hx3 : a.norm * be.csys.x.z = a.z := congrArg V3.z hx
      rw [← hy]
      simp only [V3.dot, V3.cross]
      linear_combination (be.csys.z.z * g.y - be.csys.z.y * g.z) * hx1 + (be.csys.z.x * g.z - be.csys.z.z * g.x) * hx2 +
        (be.csys.z.y * g.x - be.csys.z.x * g.y) * hx3
    have h2 : be.csys.z.dot (a.cross g) = (a.cross g).norm := by
      have : be.csys.z.dot ((a.cross g).norm • be.csys.z) = (a.cross g).norm * be.csys.z.dot be.csys.z := by
        simp only [V3.dot, V3.smul_def]; ring
      rw [hzN, hr.zz, mul_one] at this
      exact this
    rw [h2] at h1
    by_contra hle
    push Not at hle
    have := mul_nonpos_of_nonneg_of_nonpos hM.le hle
    linarith

/-- a reachable state with a beam -/
example (env : Env) : ∃ be, (World.init.run env [.addNode "A" 0 0 0, .addNode "B" 1 2 3,
    .addSimpleBeam "b" "A" "B" 1 0 1 1 1 1 1]).api.model.beams.get? "b" = some be := by
  have h : ((World.init.run env [.addNode "A" 0 0 0, .addNode "B" 1 2 3]).step env
      (.addSimpleBeam "b" "A" "B" 1 0 1 1 1 1 1)).2 = true := by
    rw [C05_add_simple_beam_iff_partial]
    refine ⟨⟨0, 0, 0⟩, ⟨1, 2, 3⟩, ?_, ?_, ?_⟩
    · rw [node_of_location]
      refine ⟨stdNode "A" 0 0 0, ?_, rfl⟩
      simp [run_cons, run_nil, step_addNode, World.init, Api.init, FeModel.empty, Dict.set, Dict.get?]
    · rw [node_of_location]
      refine ⟨stdNode "B" 1 2 3, ?_, rfl⟩
      simp [run_cons, run_nil, step_addNode, World.init, Api.init, FeModel.empty, Dict.set, Dict.get?]
    · right; norm_num [absTol]
  have := (C05_listing_partial env [.addNode "A" 0 0 0, .addNode "B" 1 2 3] "b" "A" "B" _
    (Or.inr ⟨1, 0, 1, 1, 1, 1, 1, rfl⟩) h).2.2.1
  rw [run_cons, run_cons, run_cons, run_nil]
  rw [run_cons, run_cons, run_nil] at this
  simp only [World.getBeamNodeNames, FeModel.getBeamConnection, Dict.getItem] at this
  generalize (World.step env _ (Call.addSimpleBeam _ _ _ _ _ _ _ _ _ _)).1 = w at this ⊢
  cases hb : w.api.model.beams.get? "b" with
  | none => rw [hb] at this; simp [tryOption, bind, Except.bind] at this
  | some be => exact ⟨be, rfl⟩

end Hyperstatic
