import Verif.Props.ShellK

/-
Solutions of models with shells (C68): what C14, C15 and C20 assume of the element code holds for the modelled one.
-/

namespace Hyperstatic
open Matrix Spec

variable (q : Schemes) (nan4 : ShellElm → Matrix (Fin 24) (Fin 24) ℝ) (nan3 : ShellElm → Matrix (Fin 18) (Fin 18) ℝ)
  (solve : (n : ℕ) → Matrix (Fin n) (Fin n) ℝ → Vec n → Except PyErr (Vec n))

/-- the stiffness of a 4-node shell whose expressions are defined -/
theorem quadK_regular {e : ShellElm} (he : e.regular q) (h4 : e.nodes.length = 4) :
    ∃ c n0 n1 n2 n3, e.csys = some c ∧ e.nodes = [n0, n1, n2, n3] ∧
      quadRegular q.quad e.section_ (planeX c ![n0.2, n1.2, n2.2, n3.2]) (planeY c ![n0.2, n1.2, n2.2, n3.2]) ∧
      (shellEnv q nan4 nan3 solve).quadK e =
        (quadStiffness q e.section_ c ![n0.2, n1.2, n2.2, n3.2]).submatrix (split6 4) (split6 4) := by
  have he' := he
  unfold ShellElm.regular at he'
  unfold shellEnv
  simp only [he, if_true]
  match hc : e.csys, hn : e.nodes with
  | some c, [n0, n1, n2, n3] =>
    rw [hc, hn] at he'
    exact ⟨c, n0, n1, n2, n3, rfl, rfl, he', rfl⟩
  | some c, [] => rw [hn] at h4; simp at h4
  | some c, [_] => rw [hn] at h4; simp at h4
  | some c, [_, _] => rw [hn] at h4; simp at h4
  | some c, [_, _, _] => rw [hn] at h4; simp at h4
  | some c, _ :: _ :: _ :: _ :: _ :: _ => rw [hn] at h4; simp at h4
  | none, _ => rw [hc] at he'; exact he'.elim

/-- every vector of 24 components is given by its parts at the nodes -/
theorem split_vec (z : Vec (4 * 6)) : z = fun k => (fun p => z (finProdFinEquiv p)) (split6 4 k) := by
  funext k
  rw [split6_eq]
  simp

/-- a shell does not resist a translation -/
theorem quad_free {e : ShellElm} (he : e.regular q) (h4 : e.nodes.length = 4) (t : V3) :
    (shellEnv q nan4 nan3 solve).quadK e *ᵥ shellEnds e (fun _ => ![t.x, t.y, t.z, 0, 0, 0]) = 0 := by
  obtain ⟨c, n0, n1, n2, n3, hc, hn, hreg, hK⟩ := quadK_regular q nan4 nan3 solve he h4
  rw [hK, shellEnds_nodal e n0 n1 n2 n3 hn]
  apply dotProduct_eq_zero
  intro z
  rw [dotProduct_comm, split_vec z]
  refine (submatrix_work 4 (quadStiffness q e.section_ c ![n0.2, n1.2, n2.2, n3.2]) (fun p => z (finProdFinEquiv p))
    (nodal ![n0.1, n1.1, n2.1, n3.1] (fun _ => ![t.x, t.y, t.z, 0, 0, 0]))).trans ?_
  rw [quad_work]
  set names : Fin 4 → String := ![n0.1, n1.1, n2.1, n3.1]
  set p : Fin 4 → V3 := ![n0.2, n1.2, n2.2, n3.2]
  set u : State := fun _ => ![t.x, t.y, t.z, 0, 0, 0]
  have hrot : ∀ i, Spec.rot (u (names i)) = 0 := fun i => by simp [u, Spec.rot, V3.zero_def]
  have hB : ∀ ξ η, GQ12.B (planeX c p) (planeY c p) ξ η *ᵥ pick quadIdx (localOf c (nodal names u)) = 0 := by
    intro ξ η
    apply B_zero_quad
    · intro i; rw [(pick_quad c names u i).1, (pick_quad c names u 0).1]
    · intro i; rw [(pick_quad c names u i).2.1, (pick_quad c names u 0).2.1]
    · intro i; rw [(pick_quad c names u i).2.2, hrot i, V3.dot_zero']
  have hD : hasPlate e.section_ → ∀ ξ η, DKQ.B (planeX c p) (planeY c p) ξ η *ᵥ pick plateIdx (localOf c (nodal names u)) = 0 := by
    intro hpl ξ η
    apply B_zero_dkq
    · intro k
      simp only [(pick_plate c names u _).1, (pick_plate c names u _).2.1, (pick_plate c names u _).2.2, hrot, V3.dot_zero']
      simp [u]
    · exact (hreg.2.2 hpl).1
    · intro i; rw [(pick_plate c names u i).2.1, (pick_plate c names u 0).2.1]
    · intro i; rw [(pick_plate c names u i).2.2, (pick_plate c names u 0).2.2]
  simp only [hB, Matrix.mulVec_zero, dotProduct_zero, mul_zero]
  by_cases hpl : hasPlate e.section_
  · simp only [hD hpl, Matrix.mulVec_zero, dotProduct_zero, mul_zero]
    simp
  · rw [if_neg hpl]
    simp

/-- the stiffness of a 3-node shell whose expressions are defined -/
theorem triaK_regular {e : ShellElm} (he : e.regular q) (h3 : e.nodes.length = 3) :
    ∃ c n0 n1 n2, e.csys = some c ∧ e.nodes = [n0, n1, n2] ∧
      triaRegular e.section_ (fun i => c.x.dot (![n0.2, n1.2, n2.2] i)) (fun i => c.y.dot (![n0.2, n1.2, n2.2] i)) ∧
      (shellEnv q nan4 nan3 solve).triaK e = (triaStiffness q e.section_ c ![n0.2, n1.2, n2.2]).submatrix (split6 3) (split6 3) := by
  have he' := he
  unfold ShellElm.regular at he'
  unfold shellEnv
  simp only [he, if_true]
  match hc : e.csys, hn : e.nodes with
  | some c, [n0, n1, n2] =>
    rw [hc, hn] at he'
    exact ⟨c, n0, n1, n2, rfl, rfl, he', rfl⟩
  | some c, [] => rw [hn] at h3; simp at h3
  | some c, [_] => rw [hn] at h3; simp at h3
  | some c, [_, _] => rw [hn] at h3; simp at h3
  | some c, _ :: _ :: _ :: _ :: _ => rw [hn] at h3; simp at h3
  | none, _ => rw [hc] at he'; exact he'.elim

theorem split_vec3 (z : Vec (3 * 6)) : z = fun k => (fun p => z (finProdFinEquiv p)) (split6 3 k) := by
  funext k
  rw [split6_eq]
  simp

/-- a triangular shell does not resist a translation -/
theorem tria_free {e : ShellElm} (he : e.regular q) (h3 : e.nodes.length = 3) (t : V3) :
    (shellEnv q nan4 nan3 solve).triaK e *ᵥ shellEnds e (fun _ => ![t.x, t.y, t.z, 0, 0, 0]) = 0 := by
  obtain ⟨c, n0, n1, n2, hc, hn, hreg, hK⟩ := triaK_regular q nan4 nan3 solve he h3
  rw [hK, shellEnds_nodal3 e n0 n1 n2 hn]
  apply dotProduct_eq_zero
  intro z
  rw [dotProduct_comm, split_vec3 z]
  refine (submatrix_work 3 (triaStiffness q e.section_ c ![n0.2, n1.2, n2.2]) (fun p => z (finProdFinEquiv p))
    (nodal ![n0.1, n1.1, n2.1] (fun _ => ![t.x, t.y, t.z, 0, 0, 0]))).trans ?_
  rw [tria_work _ _ _ _ _ _ _ _ rfl rfl]
  set names : Fin 3 → String := ![n0.1, n1.1, n2.1]
  set p : Fin 3 → V3 := ![n0.2, n1.2, n2.2]
  set u : State := fun _ => ![t.x, t.y, t.z, 0, 0, 0]
  have hrot : ∀ i, Spec.rot (u (names i)) = 0 := fun i => by simp [u, Spec.rot, V3.zero_def]
  have hB : T9.B (fun i => c.x.dot (p i)) (fun i => c.y.dot (p i)) 0 0 *ᵥ pick triaIdx (localOf c (nodal names u)) = 0 := by
    apply B_zero_t9
    · intro i; rw [(pick_tria c names u i).1, (pick_tria c names u 0).1]
    · intro i; rw [(pick_tria c names u i).2, (pick_tria c names u 0).2]
  have hD : ∀ ξ η, DKT.B (fun i => c.x.dot (p i)) (fun i => c.y.dot (p i)) ξ η *ᵥ pick plateIdx (localOf c (nodal names u)) = 0 := by
    intro ξ η
    apply B_zero_dkt
    · refine ⟨?_, ?_, ?_⟩ <;>
      · simp only [(pick_plate c names u _).1, (pick_plate c names u _).2.1, (pick_plate c names u _).2.2, hrot, V3.dot_zero']
        simp [u]
    · exact hreg.2.2.1
    · intro i; rw [(pick_plate c names u i).2.1, (pick_plate c names u 0).2.1]
    · intro i; rw [(pick_plate c names u i).2.2, (pick_plate c names u 0).2.2]
  simp only [hB, hD, Matrix.mulVec_zero, dotProduct_zero, mul_zero]
  simp

/-! ### C68 Models with shells are solved for equilibrium -/

/-- All shells of the model are such that the code computes their stiffness without dividing by zero. -/
def ShellsRegular (q : Schemes) (m : FeModel) : Prop := ∀ s se, m.shells.get? s = some se → se.regular q

/-- All shells of the model have an admissible section; those with four nodes are strictly convex, those with three have a normal whose
components do not have a negative sum (otherwise C64 is false of them). -/
def ShellsProper (m : FeModel) : Prop :=
  ∀ s se, m.shells.get? s = some se → AdmissibleShell se.section_ ∧
    ((∃ cs p0 p1 p2 p3, se.csys = some cs ∧ RightHanded cs ∧ se.nodes = [p0, p1, p2, p3] ∧ StrictConvex cs.z p0.2 p1.2 p2.2 p3.2) ∨
      ∃ cs p0 p1 p2, se.csys = some cs ∧ se.nodes = [p0, p1, p2] ∧ 0 ≤ cs.z.x + cs.z.y + cs.z.z)

theorem tria_built {a : Api} (hA : ApiInv a) {s : String} {se : ShellElm} (hs : a.model.shells.get? s = some se) (h3 : se.nodes.length = 3) :
    ∃ name n0 n1 n2, ShellElm.dkt? name se.section_ n0 n1 n2 = .ok se ∧
      se.nodes = [(n0.name, n0.loc), (n1.name, n1.loc), (n2.name, n2.loc)] := by
  rcases hA.shell_built s se hs with ⟨name, sec, n0, n1, n2, n3, h⟩ | ⟨name, sec, n0, n1, n2, h⟩
  · simp only [ShellElm.dkgq?, Except.bind_ok_iff, Except.pure_eq_ok, Except.ok.injEq] at h
    obtain ⟨c, hc, rfl⟩ := h
    simp at h3
  · obtain ⟨hs, hn, _⟩ := dkt_shape h
    exact ⟨name, n0, n1, n2, by rw [hs]; exact h, hn⟩

theorem ShellsProper.regular {q : Schemes} (hq : ProperRule q.quad) {a : Api} (hA : ApiInv a) (h : ShellsProper a.model) :
    ShellsRegular q a.model := by
  intro s se hs
  obtain ⟨ha, ⟨cs, p0, p1, p2, p3, hc, hr, hn, hconv⟩ | ⟨cs, p0, p1, p2, hc, hn, _⟩⟩ := h s se hs
  · exact quad_regular hq hc hr hn hconv (mu_ne ha.mu_gt ha.mu_lt)
  · obtain ⟨name, n0, n1, n2, hb, _⟩ := tria_built hA hs (by rw [hn]; rfl)
    exact tria_regular hb hc (mu_ne ha.mu_gt ha.mu_lt)

theorem shells_symm {a : Api} (h : ShellsRegular q a.model) : ShellsSymm (shellEnv q nan4 nan3 solve) a.model :=
  fun s se hs => ⟨C63_quad q nan4 nan3 solve se (h s se hs), C63_tria q nan4 nan3 solve se (h s se hs)⟩

theorem shells_free {a : Api} (h : ShellsRegular q a.model) : ShellsFree (shellEnv q nan4 nan3 solve) a.model :=
  fun s se hs t => ⟨fun h4 => quad_free q nan4 nan3 solve (h s se hs) h4 t, fun h3 => tria_free q nan4 nan3 solve (h s se hs) h3 t⟩

theorem shells_pos (hq : ProperRule q.quad) (hq' : ∀ p ∈ q.tria, 0 ≤ p.1) {a : Api} (hA : ApiInv a) (h : ShellsProper a.model) :
    ShellsPos (shellEnv q nan4 nan3 solve) a.model := by
  intro s se hs
  constructor
  rotate_left
  · intro h3 z
    obtain ⟨c, n0, n1, n2, hc, hn, hreg, hK⟩ := triaK_regular q nan4 nan3 solve (h.regular hq hA s se hs) h3
    obtain ⟨ha, ⟨cs, p0, p1, p2, p3, _, _, hn', _⟩ | ⟨cs, p0, p1, p2, hc', _, hz⟩⟩ := h s se hs
    · rw [hn'] at h3; simp at h3
    rw [hc] at hc'
    cases hc'
    obtain ⟨name, m0, m1, m2, hb, hm⟩ := tria_built hA hs h3
    rw [hn] at hm
    simp only [List.cons.injEq, and_true] at hm
    obtain ⟨rfl, rfl, rfl⟩ := hm
    have harea : 0 ≤ triaArea m0.loc m1.loc m2.loc := by
      rw [(tria_normal hb hc).2]
      exact mul_nonneg (tria_normal hb hc).1.le hz
    have ht := ha.t
    rw [hK, split_vec3 z]
    refine le_of_le_of_eq ?_ (submatrix_work 3 (triaStiffness q se.section_ c ![m0.loc, m1.loc, m2.loc])
      (fun p => z (finProdFinEquiv p)) (fun p => z (finProdFinEquiv p))).symm
    rw [tria_work _ _ _ _ _ _ _ _ rfl rfl]
    simp only [cons_val_zero, cons_val_one, cons_val]
    apply add_nonneg
    · exact mul_nonneg (by positivity) (membraneD_nonneg ha.E ha.mu_gt ha.mu_lt _)
    · refine mul_nonneg (by positivity) (list_sum_nonneg _ _ fun w hw => ?_)
      exact mul_nonneg (hq' w hw) (bendingD_nonneg ha.E ha.t ha.mu_gt ha.mu_lt _)
  intro h4 z
  obtain ⟨c, n0, n1, n2, n3, hc, hn, hreg, hK⟩ := quadK_regular q nan4 nan3 solve (h.regular hq hA s se hs) h4
  obtain ⟨ha, ⟨cs, p0, p1, p2, p3, hc', hr, hn', hconv⟩ | ⟨cs, p0, p1, p2, _, hn', _⟩⟩ := h s se hs
  rotate_left
  · rw [hn'] at h4; simp at h4
  rw [hc] at hc'
  cases hc'
  rw [hn] at hn'
  cases hn'
  have hp := corner_pos hr hconv
  rw [hK, split_vec z]
  refine le_of_le_of_eq ?_ (submatrix_work 4 (quadStiffness q se.section_ c ![n0.2, n1.2, n2.2, n3.2])
    (fun p => z (finProdFinEquiv p)) (fun p => z (finProdFinEquiv p))).symm
  rw [quad_work]
  apply add_nonneg
  · split_ifs
    · apply list_sum_nonneg
      intro w hw
      have h1 := (det_pos hp (hq w hw).2.1 (hq w hw).2.2).1.le
      exact mul_nonneg (hq w hw).1 (mul_nonneg (mul_nonneg ha.t h1) (membraneD_nonneg ha.E ha.mu_gt ha.mu_lt _))
    · exact le_rfl
  · split_ifs
    · apply list_sum_nonneg
      intro w hw
      have h1 := (det_pos hp (hq w hw).2.1 (hq w hw).2.2).2.le
      exact mul_nonneg (hq w hw).1 (mul_nonneg h1 (bendingD_nonneg ha.E ha.t ha.mu_gt ha.mu_lt _))
    · exact le_rfl

/-- For every history: if no shell is degenerate, the structure of beams and shells is stable under the restraints governing the case
and `solve_static(c)` returns True, then the reported displacements are its equilibrium.  Nothing is assumed of the element code. -/
theorem C68_equilibrium (henv : (shellEnv q nan4 nan3 solve).SolverSound) (pre mid : List Call)
    (hpre : NoReadd (shellEnv q nan4 nan3 solve) World.init pre) (hmid : ∀ k ∈ mid, k ≠ .assemble) (w₀ w₁ : World)
    (hw₀ : w₀ = World.init.run (shellEnv q nan4 nan3 solve) pre)
    (hw₁ : w₁ = w₀.run (shellEnv q nan4 nan3 solve) (.assemble :: mid)) (c : String) (lc : LoadCase)
    (hc : w₀.api.loadcases.get? c = some lc) (hreg : ShellsRegular q w₀.api.model)
    (hst : Stable (shellEnv q nan4 nan3 solve) w₀.api.model (governing w₀.api.model lc))
    (hret : (w₁.step (shellEnv q nan4 nan3 solve) (.solveStatic c)).2 = true) :
    ∃ u : State,
      (∀ n ∈ w₀.getNodeNames, (w₁.step (shellEnv q nan4 nan3 solve) (.solveStatic c)).1.resultGetNodalDisplacement n c =
        some (List.ofFn (u n))) ∧
      Respects (governing w₀.api.model lc) u ∧
      ∀ v, Respects (governing w₀.api.model lc) v →
        internalWork (shellEnv q nan4 nan3 solve) w₀.api.model v u = externalWork w₀.api.model w₀.api.heap lc v := by
  exact C20_equilibrium _ henv pre mid hpre hmid w₀ w₁ hw₀ hw₁ c lc hc (shells_symm q nan4 nan3 solve hreg)
    (shells_free q nan4 nan3 solve hreg) hst hret

/-- And it does return True. -/
theorem C68_succeeds (henv : (shellEnv q nan4 nan3 solve).SolverSound) (pre mid : List Call)
    (hpre : NoReadd (shellEnv q nan4 nan3 solve) World.init pre) (hmid : ∀ k ∈ mid, k ≠ .assemble) (w₀ w₁ : World)
    (hw₀ : w₀ = World.init.run (shellEnv q nan4 nan3 solve) pre)
    (hw₁ : w₁ = w₀.run (shellEnv q nan4 nan3 solve) (.assemble :: mid)) (c : String) (lc : LoadCase)
    (hc : w₀.api.loadcases.get? c = some lc) (hreg : ShellsRegular q w₀.api.model)
    (hst : Stable (shellEnv q nan4 nan3 solve) w₀.api.model (governing w₀.api.model lc))
    (hmu : ∀ b be, w₀.api.model.beams.get? b = some be → muOf be.prop ≠ -1)
    (hk : ∀ n ∈ lc.restraint.keys, n ∈ w₀.getNodeNames)
    (hfree : ∃ n ∈ w₀.getNodeNames, ∃ r, ∀ f, (governing w₀.api.model lc).get? n = some f → f r = false) :
    (w₁.step (shellEnv q nan4 nan3 solve) (.solveStatic c)).2 = true := by
  exact C20_succeeds _ henv pre mid hpre hmid w₀ w₁ hw₀ hw₁ c lc hc (shells_free q nan4 nan3 solve hreg) hst hmu hk hfree

/-- The stiffness matrix of beams and proper shells never yields a negative energy. -/
theorem C68_nonneg (hq : ProperRule q.quad) (hq' : ∀ p ∈ q.tria, 0 ≤ p.1) (cs : List Call) (w : World) (hw : w = World.init.run (shellEnv q nan4 nan3 solve) cs)
    (hadm : Admissible w.api.model) (hsp : ShellsProper w.api.model) (x : Assembly) (hx : w.api.assembly = .ok x)
    (K : Coo) (hK : x.assembleK (shellEnv q nan4 nan3 solve) = .ok K) (U : ℕ → ℝ) :
    0 ≤ ∑ i ∈ Finset.range K.nrow, ∑ j ∈ Finset.range K.ncol, U i * K.get i j * U j := by
  have hA := (ApiInv_run (shellEnv q nan4 nan3 solve) cs).1
  rw [← hw] at hA
  exact C15_nonneg _ cs w hw hadm (shells_pos q nan4 nan3 solve hq hq' hA hsp) x hx K hK U

/-! a square shell clamped at three corners and pulled at the fourth -/

def sheetCalls : List Call :=
  [.addNode "A" 0 0 0, .addNode "B" 1 0 0, .addNode "C" 1 1 0, .addNode "D" 0 1 0, .addIsotropicMaterial "m" 0 1 0 0,
    .addShellSection "s" "m" 1 "shell", .addShell "e" "s" "A" "B" "C" (some "D"),
    .setNodalRestraint "A" (fun _ => true), .setNodalRestraint "B" (fun _ => true), .setNodalRestraint "D" (fun _ => true),
    .setNodalRestraint "C" (fun r => decide (r ≠ 0)),
    .addLoadpattern "P", .setNodalLoad "P" "C" ![1, 0, 0, 0, 0, 0], .addStaticCase "L", .addCasePattern "L" "P" 2]

noncomputable def sheetModel : FeModel :=
  { FeModel.empty with
    nodes := [("A", stdNode "A" 0 0 0), ("B", stdNode "B" 1 0 0), ("C", stdNode "C" 1 1 0), ("D", stdNode "D" 0 1 0)]
    hidNode := [("A", 0), ("B", 1), ("C", 2), ("D", 3)]
    material := [("m", ⟨"m", 0, 1, 0, 0⟩)]
    shellSection := [("s", unitSection)]
    shells := [("e", flatQuad 0 0 1 0 1 1 0 1)]
    hidShell := [("e", 0)]
    restraints := [("A", fun _ => true), ("B", fun _ => true), ("D", fun _ => true), ("C", fun r => decide (r ≠ 0))] }

def sheetCase : LoadCase := ⟨"L", .static, [("P", 0)], [("P", 2)], [("P", [1, 1])], []⟩

noncomputable def sheetApi : Api where
  model := sheetModel
  loadcases := [("L", sheetCase)]
  loadpatterns := [("P", 0)]
  heap := [⟨"P", [("C", ![1, 0, 0, 0, 0, 0])], [], [], []⟩]

theorem sheet_run (env : Env) : World.init.run env sheetCalls = ⟨sheetApi, []⟩ := by
  unfold sheetCalls
  rw [run_cons, step_addNode, run_cons, step_addNode, run_cons, step_addNode, run_cons, step_addNode, run_cons, step_addMaterial,
    run_cons, step_of_edit env _ (.addShellSection "s" "m" 1 "shell") _ rfl (by exact ⟨_, rfl, rfl⟩), run_cons,
    step_of_edit env _ (.addShell "e" "s" "A" "B" "C" (some "D")) _ rfl
      (by exact ⟨_, ⟨unitSection, _, _, _, _, rfl, rfl, rfl, rfl, rfl, flatQuad_ok (by norm_num)⟩, rfl⟩), run_cons,
    step_setNodalRestraint, run_cons, step_setNodalRestraint, run_cons, step_setNodalRestraint, run_cons, step_setNodalRestraint,
    run_cons, step_addLoadpattern, run_cons,
    step_setNodalLoad_of env _ _ _ _ 0 (LoadPattern.new "P") rfl rfl, run_cons, step_addStaticCase, run_cons,
    step_addCasePattern_of env _ _ _ _ (LoadCase.new "L" .static) 0 _ rfl rfl rfl, run_nil]
  rfl

theorem sheet_noReadd (env : Env) : NoReadd env World.init sheetCalls := by
  unfold sheetCalls NoReadd
  simp only [AllCalls, and_true]
  refine ⟨?_, ?_, ?_, ?_, ?_, ?_, ?_, ?_, ?_, ?_, ?_, ?_, ?_, ?_, ?_⟩
  · intro n x y z _; simp [World.getNodeNames, World.init, Api.init, FeModel.empty, Dict.keys]
  · intro n x y z h
    cases h
    rw [step_addNode]
    simp [World.getNodeNames, World.init, Api.init, FeModel.empty, Dict.keys, Dict.set]
  · intro n x y z h
    cases h
    rw [step_addNode, step_addNode]
    simp [World.getNodeNames, World.init, Api.init, FeModel.empty, Dict.keys, Dict.set]
  · intro n x y z h
    cases h
    rw [step_addNode, step_addNode, step_addNode]
    simp [World.getNodeNames, World.init, Api.init, FeModel.empty, Dict.keys, Dict.set]
  all_goals (intro n x y z h; cases h)

/-- the one-point rules -/
noncomputable def onePoint : Schemes := ⟨[(4, 0, 0)], [(1 / 2, 1 / 3, 1 / 3)]⟩

theorem onePoint_proper : ProperRule onePoint.quad := by
  intro p hp
  simp [onePoint] at hp
  subst hp
  norm_num

theorem sheet_proper : ShellsProper sheetModel := by
  intro s se hs
  have : se = flatQuad 0 0 1 0 1 1 0 1 := by
    simp only [sheetModel, Dict.get?_cons] at hs
    split at hs
    · cases hs; rfl
    · cases hs
  subst this
  refine ⟨⟨by norm_num [flatQuad, unitSection], by norm_num [flatQuad, unitSection], by norm_num [flatQuad, unitSection],
    by norm_num [flatQuad, unitSection]⟩, Or.inl ⟨_, _, _, _, _, rfl, ?_, rfl, ?_⟩⟩
  · constructor <;> norm_num [flat, V3.dot, V3.cross]
  · norm_num [Spec.StrictConvex, flat, V3.dot, V3.cross, V3.sub_def]

theorem sheet_inv : ApiInv sheetApi := by
  have h := (ApiInv_run idealEnv sheetCalls).1
  rw [sheet_run] at h
  exact h

theorem sheet_x : planeX (flat ⟨(0 + 1 + 1 + 0) / 4, (0 + 0 + 1 + 1) / 4, 0⟩) ![⟨0, 0, 0⟩, ⟨1, 0, 0⟩, ⟨1, 1, 0⟩, ⟨0, 1, 0⟩] =
    ![-1 / 2, 1 / 2, 1 / 2, -1 / 2] := by
  ext i
  fin_cases i <;> norm_num [planeX, flat, V3.dot, V3.sub_def]

theorem sheet_y : planeY (flat ⟨(0 + 1 + 1 + 0) / 4, (0 + 0 + 1 + 1) / 4, 0⟩) ![⟨0, 0, 0⟩, ⟨1, 0, 0⟩, ⟨1, 1, 0⟩, ⟨0, 1, 0⟩] =
    ![-1 / 2, -1 / 2, 1 / 2, 1 / 2] := by
  ext i
  fin_cases i <;> norm_num [planeY, flat, V3.dot, V3.sub_def]

/-- the corner moves along x only -/
theorem sheet_state {u : State} (hu : Respects sheetModel.restraints u) :
    u "A" = 0 ∧ u "B" = 0 ∧ u "D" = 0 ∧ u "C" = ![u "C" 0, 0, 0, 0, 0, 0] := by
  refine ⟨?_, ?_, ?_, ?_⟩
  · funext r; exact hu "A" (fun _ => true) rfl r rfl
  · funext r; exact hu "B" (fun _ => true) rfl r rfl
  · funext r; exact hu "D" (fun _ => true) rfl r rfl
  · have h : ∀ r : Fin 6, r ≠ 0 → u "C" r = 0 := fun r hr => hu "C" (fun r => decide (r ≠ 0)) rfl r (by simpa using hr)
    funext r
    fin_cases r
    · rfl
    all_goals exact h _ (by decide)

theorem sheet_plate {u : State} (hu : Respects sheetModel.restraints u) (O : V3) :
    pick plateIdx (localOf (flat O) (nodal ![("A" : String), "B", "C", "D"] u)) = 0 := by
  obtain ⟨hA, hB, hD, hC⟩ := sheet_state hu
  funext ⟨i, r⟩
  obtain ⟨a, b, d⟩ := pick_plate (n := 4) (flat O) ![("A" : String), "B", "C", "D"] u i
  fin_cases r
  · refine a.trans ?_
    fin_cases i <;> simp [flat, hA, hB, hD, Spec.trans, V3.dot] <;> (rw [hC]; simp)
  · refine b.trans ?_
    fin_cases i <;> simp [flat, hA, hB, hD, Spec.rot, V3.dot] <;> (rw [hC]; simp)
  · refine d.trans ?_
    fin_cases i <;> simp [flat, hA, hB, hD, Spec.rot, V3.dot] <;> (rw [hC]; simp)

theorem sheet_membrane {u : State} (hu : Respects sheetModel.restraints u) (O : V3) :
    pick quadIdx (localOf (flat O) (nodal ![("A" : String), "B", "C", "D"] u)) =
      fun k => ![![0, 0, 0], ![0, 0, 0], ![u "C" 0, 0, 0], ![0, 0, 0]] k.1 k.2 := by
  obtain ⟨hA, hB, hD, hC⟩ := sheet_state hu
  funext ⟨i, r⟩
  obtain ⟨a, b, d⟩ := pick_quad (n := 4) (flat O) ![("A" : String), "B", "C", "D"] u i
  fin_cases r
  · refine a.trans ?_
    fin_cases i <;> simp [flat, hA, hB, hD, Spec.trans, V3.dot]
  · refine b.trans ?_
    fin_cases i <;> simp [flat, hA, hB, hD, Spec.trans, V3.dot] <;> (rw [hC]; simp)
  · refine d.trans ?_
    fin_cases i <;> simp [flat, hA, hB, hD, Spec.rot, V3.dot] <;> (rw [hC]; simp)

theorem gXi_of (a b c d η : ℝ) : gXi ![a, b, c, d] η = ((a + b - c - d) + η * (-a + b - c + d)) / 4 := rfl
theorem gEta_of (a b c d ξ : ℝ) : gEta ![a, b, c, d] ξ = ((-a + b + c - d) + ξ * (-a + b - c + d)) / 4 := rfl

theorem sheet_det : (GQ12.J ![-1 / 2, 1 / 2, 1 / 2, -1 / 2] ![-1 / 2, -1 / 2, 1 / 2, 1 / 2] 0 0).det = 1 / 4 := by
  rw [gqJ_det, gXi_of, gXi_of, gEta_of, gEta_of]
  norm_num

theorem sheet_strain (s : ℝ) : GQ12.B ![-1 / 2, 1 / 2, 1 / 2, -1 / 2] ![-1 / 2, -1 / 2, 1 / 2, 1 / 2] 0 0 *ᵥ
    (fun k : Fin 4 × Fin 3 => ![![0, 0, 0], ![0, 0, 0], ![s, 0, 0], ![0, 0, 0]] k.1 k.2) = ![s / 2, 0, s / 2] := by
  have e0 : (fun i : Fin 4 => (![![0, 0, 0], ![0, 0, 0], ![s, 0, 0], ![0, 0, 0]] : Fin 4 → Fin 3 → ℝ) i 0) = ![0, 0, s, 0] := by
    funext i; fin_cases i <;> rfl
  have e1 : (fun i : Fin 4 => (![![0, 0, 0], ![0, 0, 0], ![s, 0, 0], ![0, 0, 0]] : Fin 4 → Fin 3 → ℝ) i 1) = ![0, 0, 0, 0] := by
    funext i; fin_cases i <;> rfl
  rw [gqB_flat _ _ _ _ _ (by intro i; fin_cases i <;> rfl), sheet_det]
  simp only [e0, e1, gXi_of, gEta_of]
  ext i
  fin_cases i <;> simp <;> ring

theorem sheet_work {u : State} (hu : Respects sheetModel.restraints u) :
    internalWork (shellEnv onePoint nan4 nan3 solve) sheetModel u u = 3 / 8 * u "C" 0 ^ 2 := by
  have hreg : (flatQuad 0 0 1 0 1 1 0 1).regular onePoint := sheet_proper.regular onePoint_proper sheet_inv "e" _ rfl
  have h1 : internalWork (shellEnv onePoint nan4 nan3 solve) sheetModel u u =
      shellInternal (shellEnv onePoint nan4 nan3 solve) (flatQuad 0 0 1 0 1 1 0 1) u u := by
    simp [internalWork, sheetModel, FeModel.empty]
  rw [h1, quad_internal onePoint nan4 nan3 solve _ hreg _ rfl ("A", ⟨0, 0, 0⟩) ("B", ⟨1, 0, 0⟩) ("C", ⟨1, 1, 0⟩) ("D", ⟨0, 1, 0⟩) rfl,
    quad_work]
  simp only [sheet_plate hu, sheet_membrane hu, sheet_x, sheet_y, Matrix.mulVec_zero, dotProduct_zero, mul_zero]
  have hm : hasMembrane (flatQuad 0 0 1 0 1 1 0 1).section_ := Or.inr rfl
  rw [if_pos hm]
  simp only [onePoint, List.map_cons, List.map_nil, List.sum_cons, List.sum_nil]
  rw [sheet_strain, sheet_det, membraneD_work, isoD_work]
  simp [flatQuad, unitSection]
  ring

theorem sheet_stable : Stable (shellEnv onePoint nan4 nan3 solve) sheetModel sheetModel.restraints := by
  intro u hu h0 n hn
  rw [sheet_work nan4 nan3 solve hu] at h0
  have hz : u "C" 0 = 0 := by nlinarith
  obtain ⟨hA, hB, hD, hC⟩ := sheet_state hu
  have hC0 : u "C" = 0 := by
    rw [hC, hz]
    funext r
    fin_cases r <;> rfl
  have hn : n = "A" ∨ n = "B" ∨ n = "C" ∨ n = "D" := by simpa [sheetModel, Dict.keys] using hn
  rcases hn with rfl | rfl | rfl | rfl <;> assumption

/-- the sheet meets the hypotheses of the theorems above, and is solved -/
example : ∃ (q : Schemes) (solve : (n : ℕ) → Matrix (Fin n) (Fin n) ℝ → Vec n → Except PyErr (Vec n)) (w₀ : World),
    ProperRule q.quad ∧ (shellEnv q nan4 nan3 solve).SolverSound ∧ NoReadd (shellEnv q nan4 nan3 solve) World.init sheetCalls ∧
    w₀ = World.init.run (shellEnv q nan4 nan3 solve) sheetCalls ∧ ShellsProper w₀.api.model ∧ ShellsRegular q w₀.api.model ∧
    w₀.api.model.shells.keys = ["e"] ∧ Stable (shellEnv q nan4 nan3 solve) w₀.api.model (governing w₀.api.model sheetCase) ∧
    w₀.api.loadcases.get? "L" = some sheetCase ∧
    ((w₀.run (shellEnv q nan4 nan3 solve) [.assemble]).step (shellEnv q nan4 nan3 solve) (.solveStatic "L")).2 = true := by
  have henv : (shellEnv onePoint nan4 nan3 idealEnv.spsolve).SolverSound := idealEnv_sound
  have hrun := sheet_run (shellEnv onePoint nan4 nan3 idealEnv.spsolve)
  have hapi : (World.init.run (shellEnv onePoint nan4 nan3 idealEnv.spsolve) sheetCalls).api = sheetApi := by rw [hrun]
  refine ⟨onePoint, idealEnv.spsolve, _, onePoint_proper, henv, sheet_noReadd _, rfl, ?_, ?_, ?_, ?_, ?_, ?_⟩
  · rw [hapi]; exact sheet_proper
  · rw [hapi]; exact sheet_proper.regular onePoint_proper sheet_inv
  · rw [hapi]; rfl
  · rw [hapi]; exact sheet_stable nan4 nan3 _
  · rw [hapi]; rfl
  · apply C68_succeeds onePoint nan4 nan3 _ henv sheetCalls [] (sheet_noReadd _) (by simp) _ _ rfl rfl "L" sheetCase
    · rw [hapi]; rfl
    · rw [hapi]; exact sheet_proper.regular onePoint_proper sheet_inv
    · rw [hapi]; exact sheet_stable nan4 nan3 _
    · rw [hapi]; intro b be h; simp [sheetApi, sheetModel, FeModel.empty] at h
    · intro n hn; simp [sheetCase, Dict.keys] at hn
    · refine ⟨"C", ?_, 0, ?_⟩
      · unfold World.getNodeNames; rw [hapi]; simp [sheetApi, sheetModel, Dict.keys]
      · rw [hapi]; intro f hf
        have : some f = some (fun r : Fin 6 => decide (r ≠ 0)) := hf.symm.trans rfl
        cases this
        rfl

end Hyperstatic
