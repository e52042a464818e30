import Verif.Props.Solve
import Verif.Lemmas.Results

/-
C46: beam deformations reported by `result_get_beam_deformation`.
-/

namespace Hyperstatic
open Matrix Spec

/-! ### picking the end displacements -/

theorem pick_comm (d : List ℝ) (i j : ℕ) : pickEndDisp d i j = pickEndDisp d j i := by
  unfold pickEndDisp
  congr 1
  apply List.filter_congr
  intro k _
  simp only [List.mem_append, or_comm]

theorem range_map_getD (d : List ℝ) (s : ℕ) (h : s + 6 ≤ d.length) :
    ((List.range 6).map (s + ·)).map (fun k => d.getD k 0) = (d.drop s).take 6 := by
  apply List.ext_getElem?
  intro k
  by_cases hk : k < 6
  · have h1 : s + k < d.length := by omega
    simp [List.getElem?_take, List.getElem?_drop, hk, h1]
  · simp [List.getElem?_take, hk, List.getElem?_range, List.getElem?_eq_none (l := List.range 6) (i := k) (by simpa using hk)]

theorem pick_eq {d : List ℝ} {i j : ℕ} (hij : i < j) {p q : Vec 6} (hi : (d.drop (i * 6)).take 6 = List.ofFn p)
    (hj : (d.drop (j * 6)).take 6 = List.ofFn q) : pickEndDisp d i j = List.ofFn p ++ List.ofFn q := by
  have li : i * 6 + 6 ≤ d.length := by
    have := congrArg List.length hi
    simp at this; omega
  have lj : j * 6 + 6 ≤ d.length := by
    have := congrArg List.length hj
    simp at this; omega
  have hsort : (List.range d.length).filter (fun k =>
      decide (k ∈ (List.range 6).map (i * 6 + ·) ++ (List.range 6).map (j * 6 + ·))) =
      (List.range 6).map (i * 6 + ·) ++ (List.range 6).map (j * 6 + ·) := by
    have s1 : ((List.range d.length).filter (fun k =>
      decide (k ∈ (List.range 6).map (i * 6 + ·) ++ (List.range 6).map (j * 6 + ·)))).Pairwise (· < ·) :=
      List.Pairwise.filter _ List.pairwise_lt_range
    have s2 : ((List.range 6).map (i * 6 + ·) ++ (List.range 6).map (j * 6 + ·)).Pairwise (· < ·) := by
      rw [List.pairwise_append]
      refine ⟨?_, ?_, ?_⟩
      · rw [List.pairwise_map]
        exact List.pairwise_lt_range.imp (fun h => by omega)
      · rw [List.pairwise_map]
        exact List.pairwise_lt_range.imp (fun h => by omega)
      · intro a ha b hb
        simp only [List.mem_map, List.mem_range] at ha hb
        obtain ⟨a, ha, rfl⟩ := ha
        obtain ⟨b, hb, rfl⟩ := hb
        omega
    have hp : List.Perm ((List.range d.length).filter (fun k =>
        decide (k ∈ (List.range 6).map (i * 6 + ·) ++ (List.range 6).map (j * 6 + ·))))
        ((List.range 6).map (i * 6 + ·) ++ (List.range 6).map (j * 6 + ·)) := by
      rw [List.perm_ext_iff_of_nodup (s1.imp (fun h => h.ne)) (s2.imp (fun h => h.ne))]
      intro k
      rw [List.mem_filter, decide_eq_true_iff, List.mem_range]
      refine ⟨fun h => h.2, fun h => ⟨?_, h⟩⟩
      simp only [List.mem_append, List.mem_map, List.mem_range] at h
      rcases h with ⟨a, ha, rfl⟩ | ⟨a, ha, rfl⟩ <;> omega
    exact List.Perm.eq_of_pairwise (fun a b _ _ h1 h2 => absurd h1 (by omega)) s1 s2 hp
  unfold pickEndDisp
  rw [hsort, List.map_append, range_map_getD d _ li, range_map_getD d _ lj, hi, hj]

/-- the interpolation polynomials are those of the displacement fields, with the second deflection reversed and linear fields taken at
the wrong abscissa -/
theorem beamDeformation_fields {l : ℝ} (hl : l ≠ 0) (loc : ℝ) {d : Vec 12} {u w2 w3 θ : ℝ → ℝ} (h : Fields l d u w2 w3 θ) :
    beamDeformation l loc d = ![1 / 2 * (1 - loc) * u 0 + 1 / 2 * (1 + loc) * u l, w2 (loc * l), - w3 (loc * l),
      1 / 2 * (1 - loc) * θ 0 + 1 / 2 * (1 + loc) * θ l, deriv w2 (loc * l), - deriv w3 (loc * l)] := by
  obtain ⟨u0, u1, a0, a1, a2, a3, b0, b1, b2, b3, t0, t1, rfl, rfl, rfl, rfl, h0, h6, h3, h9, h1, h5, h7, h11, h2, h4, h8,
    h10⟩ := Fields.coeffs h
  simp only [deriv_cubic]
  unfold beamDeformation beamInterpolate beamInterpolate1
  simp only [Matrix.cons_val]
  rw [h0, h1, h2, h3, h4, h5, h6, h7, h8, h9, h10, h11]
  congr 1
  · ring
  congr 1
  · ring
  congr 1
  · ring
  congr 1
  · ring
  congr 1
  · field_simp; ring
  congr 1
  · field_simp; ring

/-- What is reported for a beam of the assembled model: with `p` the displacement of the end node that was added first and `q` that of
the other one, deflection 2 and slope 2 at `loc * l` of the beam whose *start* is displaced by `p` and whose *end* is displaced by `q`,
the reversed deflection 3 and slope 3, and an axial displacement and twist that are right at `loc = 1` only. -/
theorem C46_reported_partial (env : Env) (pre mid : List Call) (hpre : NoReadd env World.init pre) (hmid : ∀ k ∈ mid, k ≠ .assemble)
    (w₀ w : World) (hw₀ : w₀ = World.init.run env pre) (hw : w = w₀.run env (.assemble :: mid)) (b : String) (be : BeamElm)
    (hb : w₀.api.model.beams.get? b = some be) (c : String) (us ue : Vec 6)
    (hs : w.resultGetNodalDisplacement be.startName c = some (List.ofFn us))
    (he : w.resultGetNodalDisplacement be.endName c = some (List.ofFn ue)) (p q : Vec 6)
    (hpq : (p, q) = if w₀.getNodeNames.idxOf be.startName < w₀.getNodeNames.idxOf be.endName then (us, ue) else (ue, us))
    (u w2 w3 θ : ℝ → ℝ) (h : Fields be.length (localEnds be.csys p q) u w2 w3 θ) (loc : ℝ) :
    w.resultGetBeamDeformation b loc c =
      some ![1 / 2 * (1 - loc) * u 0 + 1 / 2 * (1 + loc) * u be.length, w2 (loc * be.length), - w3 (loc * be.length),
        1 / 2 * (1 - loc) * θ 0 + 1 / 2 * (1 + loc) * θ be.length, deriv w2 (loc * be.length), - deriv w3 (loc * be.length)] := by
  have hF := (FreshInv_run env pre hpre).1
  rw [← hw₀] at hF
  have hA := hF.toApiInv
  obtain ⟨x, hx⟩ := hA.assembly_ok
  obtain ⟨h1, -⟩ := hA.assembly_eq hx
  have hasb : w.fs.get? Api.filename = some (.asb x) := by
    rw [hw, run_cons, asb_run env _ mid hmid, step_assemble env w₀ x hx]
    exact Dict.get?_set_same _ _ _
  obtain ⟨-, ms, me, hcs, -⟩ := hA.beam_ok b be hb
  obtain ⟨-, hl, -⟩ := lineCsys_ok hcs
  have hl' : be.length ≠ 0 := hl.ne'
  have hidx : ∀ n ∈ w₀.api.model.nodes.keys, w₀.getNodeNames.idxOf n = hidOf w₀.api.model n := by
    intro n hn
    obtain ⟨hlt, he⟩ := List.getElem?_eq_some_iff.mp (hF.hidOf_lt hn).2.2
    have hnd : w₀.api.model.nodes.keys.Nodup := hF.nodes_wf
    have := hnd.idxOf_getElem _ hlt
    rw [he] at this
    exact this
  have hne : hidOf w₀.api.model be.startName ≠ hidOf w₀.api.model be.endName := by
    intro e
    have e2 := hF.hidOf_inj ms me e
    obtain ⟨⟨n0, g0, k0⟩, n1, g1, k1⟩ := hF.beam_loc b be hb
    rw [e2, g1] at g0
    cases g0
    apply hl'
    unfold BeamElm.length lineLength
    rw [← k0, ← k1]
    simp [V3.norm, V3.sub_def]
  unfold World.resultGetNodalDisplacement resolveNodalDisplacement at hs he
  unfold World.resultGetBeamDeformation resolveBeamDeformation
  rw [openAssembly_of_get hasb, Except.bind_ok] at hs he ⊢
  cases hd : loadDisp w.fs c with
  | error e => rw [hd] at hs; cases hs
  | ok d =>
    rw [hd, Except.bind_ok, h1, hA.hid_ok ms, Except.bind_ok] at hs
    rw [hd, Except.bind_ok, h1, hA.hid_ok me, Except.bind_ok] at he
    simp only [tryOption, Except.pure_eq_ok, Option.some.injEq] at hs he
    rw [h1, Except.bind_ok, getBeamNodeHids_ok hA hb, Except.bind_ok]
    simp only
    rw [Dict.getItem_of_some hb, Except.bind_ok]
    have hpick : pickEndDisp d (hidOf w₀.api.model be.startName) (hidOf w₀.api.model be.endName) = List.ofFn p ++ List.ofFn q := by
      rw [hidx _ ms, hidx _ me] at hpq
      by_cases hlt : hidOf w₀.api.model be.startName < hidOf w₀.api.model be.endName
      · rw [if_pos hlt] at hpq
        cases hpq
        exact pick_eq hlt hs he
      · rw [if_neg hlt] at hpq
        cases hpq
        rw [pick_comm]
        exact pick_eq (by omega) he hs
    simp only [hpick]
    rw [dif_pos (by simp)]
    rw [← beamDeformation_fields hl' loc h]
    simp only [tryOption, Except.pure_eq_ok]
    congr 2
    unfold BeamElm.T
    rw [lineT_mulVec]
    unfold localEnds
    simp [part3, Spec.trans, Spec.rot]

/-- The property: at the relative positions 0 and 1 the displacements along the three local axes and the twist are those of the start
node and the end node. -/
def C46_claim : Prop :=
  ∀ (env : Env), env.SolverSound → ∀ (pre mid : List Call), NoReadd env World.init pre → (∀ k ∈ mid, k ≠ .assemble) →
    ∀ (w₀ w : World), w₀ = World.init.run env pre → w = w₀.run env (.assemble :: mid) →
    ∀ (b : String) (be : BeamElm), w₀.api.model.beams.get? b = some be → ∀ (c : String) (us ue : Vec 6),
    w.resultGetNodalDisplacement be.startName c = some (List.ofFn us) →
    w.resultGetNodalDisplacement be.endName c = some (List.ofFn ue) →
    ∃ δ₀ δ₁ : Vec 6, w.resultGetBeamDeformation b 0 c = some δ₀ ∧ w.resultGetBeamDeformation b 1 c = some δ₁ ∧
      (δ₀ 0 = be.csys.x.dot (trans us) ∧ δ₀ 1 = be.csys.y.dot (trans us) ∧ δ₀ 2 = be.csys.z.dot (trans us) ∧
        δ₀ 3 = be.csys.x.dot (rot us)) ∧
      δ₁ 0 = be.csys.x.dot (trans ue) ∧ δ₁ 1 = be.csys.y.dot (trans ue) ∧ δ₁ 2 = be.csys.z.dot (trans ue) ∧
        δ₁ 3 = be.csys.x.dot (rot ue)

/-- every end displacement has its fields -/
theorem fields_exist {l : ℝ} (hl : l ≠ 0) (d : Vec 12) : ∃ u w2 w3 θ, Fields l d u w2 w3 θ := by
  refine ⟨fun x => d 0 + (d 6 - d 0) / l * x,
    fun x => d 1 + d 5 * x + (3 * (d 7 - d 1) / l ^ 2 - (2 * d 5 + d 11) / l) * x ^ 2 +
      ((d 5 + d 11) / l ^ 2 - 2 * (d 7 - d 1) / l ^ 3) * x ^ 3,
    fun x => d 2 + (- d 4) * x + (3 * (d 8 - d 2) / l ^ 2 - (2 * (- d 4) + (- d 10)) / l) * x ^ 2 +
      ((- d 4 + (- d 10)) / l ^ 2 - 2 * (d 8 - d 2) / l ^ 3) * x ^ 3,
    fun x => d 3 + (d 9 - d 3) / l * x, ⟨_, _, fun x => rfl⟩, ⟨_, _, fun x => rfl⟩, ⟨_, _, _, _, fun x => rfl⟩,
    ⟨_, _, _, _, fun x => rfl⟩, ?_, ?_, ?_, ?_, ?_, ?_, ?_, ?_, ?_, ?_, ?_, ?_⟩
  all_goals first | (rw [deriv_cubic]; field_simp; try ring) | (field_simp; try ring)

/-- At position 0 and 1, for a beam whose start node was added before its end node: deflection 2 and the rotation about axis 3 are those
of the node, deflection 3 has the opposite sign, and axial displacement and twist are right at position 1 but the mean of both ends at
position 0. -/
theorem C46_ends_partial (env : Env) (pre mid : List Call) (hpre : NoReadd env World.init pre) (hmid : ∀ k ∈ mid, k ≠ .assemble)
    (w₀ w : World) (hw₀ : w₀ = World.init.run env pre) (hw : w = w₀.run env (.assemble :: mid)) (b : String) (be : BeamElm)
    (hb : w₀.api.model.beams.get? b = some be) (c : String) (us ue : Vec 6)
    (hs : w.resultGetNodalDisplacement be.startName c = some (List.ofFn us))
    (he : w.resultGetNodalDisplacement be.endName c = some (List.ofFn ue))
    (hlt : w₀.getNodeNames.idxOf be.startName < w₀.getNodeNames.idxOf be.endName) :
    w.resultGetBeamDeformation b 0 c = some ![(be.csys.x.dot (trans us) + be.csys.x.dot (trans ue)) / 2, be.csys.y.dot (trans us),
      - be.csys.z.dot (trans us), (be.csys.x.dot (rot us) + be.csys.x.dot (rot ue)) / 2, be.csys.z.dot (rot us),
      be.csys.y.dot (rot us)] ∧
    w.resultGetBeamDeformation b 1 c = some ![be.csys.x.dot (trans ue), be.csys.y.dot (trans ue), - be.csys.z.dot (trans ue),
      be.csys.x.dot (rot ue), be.csys.z.dot (rot ue), be.csys.y.dot (rot ue)] := by
  have hl' : be.length ≠ 0 := by
    have hA := (ApiInv_run env pre).1
    rw [← hw₀] at hA
    obtain ⟨-, -, -, hcs, -⟩ := hA.beam_ok b be hb
    exact (lineCsys_ok hcs).2.1.ne'
  obtain ⟨u, w2, w3, θ, hf⟩ := fields_exist hl' (localEnds be.csys us ue)
  have key := C46_reported_partial env pre mid hpre hmid w₀ w hw₀ hw b be hb c us ue hs he us ue (by rw [if_pos hlt]) u w2 w3 θ hf
  rw [key 0, key 1, zero_mul, one_mul]
  have e := hf
  obtain ⟨-, -, -, -, h0, h1, h2, h3, h4, h5, h6, h7, h8, h9, h10, h11⟩ := e
  rw [h0, h1, h2, h3, h4, h5, h6, h7, h8, h9, h10, h11]
  unfold localEnds
  simp only [Matrix.cons_val]
  constructor
  · congr 1
    ext k; fin_cases k <;> simp <;> ring
  · congr 1
    ext k; fin_cases k <;> simp <;> ring

/-- the cantilever, solved: the end displacements, and the balance of the axial force -/
theorem demo_axial : ∃ (c : Csys) (u : State), lineCsys ⟨0, 0, 0⟩ ⟨1, 2, 3⟩ = .ok c ∧ u "A" = 0 ∧
    (∀ n ∈ ["A", "B"], (((World.init.run idealEnv demoCalls).run idealEnv [.assemble, .solveStatic "C"]).resultGetNodalDisplacement n "C") =
      some (List.ofFn (u n))) ∧ c.x.dot (trans (u "B")) ≠ 0 := by
  obtain ⟨c, hc, hrun⟩ := demo_run idealEnv
  have hapi : (World.init.run idealEnv demoCalls).api = demoApi c := by rw [hrun]
  obtain ⟨u, hu1, hu2, hu3⟩ := C20_equilibrium idealEnv idealEnv_sound demoCalls [] (demo_noReadd _) (by simp) _ _ rfl rfl "C" demoCase
    (by rw [hapi]; rfl) (by rw [hapi]; exact demo_shells _ c) (by rw [hapi]; exact demo_shellsFree _ c)
    (by rw [hapi]; exact demo_stable _ hc) (demo_solves _ idealEnv_sound [] (by simp))
  rw [hapi] at hu2 hu3
  have hA : u "A" = 0 := by
    funext r
    exact hu2 "A" (fun _ => true) rfl r rfl
  refine ⟨c, u, hc, hA, ?_, ?_⟩
  · intro n hn
    apply hu1 n
    unfold World.getNodeNames
    rw [hapi]
    exact hn
  · intro h0
    obtain ⟨hr, hl, hx⟩ := lineCsys_ok hc
    let v : State := fun n => if n = "B" then ![c.x.x, c.x.y, c.x.z, 0, 0, 0] else 0
    have hv : Respects (governing (demoModel c) demoCase) v := by
      intro n f hn r hf
      have hn' : Dict.get? [("A", fun _ => true)] n = some f := hn
      rw [Dict.get?] at hn'
      split at hn'
      · rename_i e
        have : n = "A" := by simpa using e.symm
        subst this
        rfl
      · simp at hn'
    have h3 : internalWork idealEnv (demoModel c) v u = externalWork (demoModel c) (demoApi c).heap demoCase v := hu3 v hv
    have hvA : v "A" = 0 := rfl
    have hvB : v "B" = ![c.x.x, c.x.y, c.x.z, 0, 0, 0] := rfl
    have hint : internalWork idealEnv (demoModel c) v u = 0 := by
      have : internalWork idealEnv (demoModel c) v u = beamInternal (demoBeam c) v u := by
        simp [internalWork, demoModel, FeModel.empty]
      rw [this]
      have e1 : beamEnds (demoBeam c) v = ![0, 0, 0, 0, 0, 0, c.x.dot c.x, c.y.dot c.x, c.z.dot c.x, 0, 0, 0] := by
        show localEnds c (v "A") (v "B") = _
        rw [hvA, hvB]
        unfold localEnds
        simp [Spec.trans, Spec.rot, V3.dot]
      have e2 : beamEnds (demoBeam c) u 0 = 0 ∧ beamEnds (demoBeam c) u 6 = 0 := by
        have : beamEnds (demoBeam c) u = localEnds c (u "A") (u "B") := rfl
        rw [this, hA]
        unfold localEnds
        refine ⟨by simp [Spec.trans, V3.dot], h0⟩
      have hyx : c.y.dot c.x = 0 := by rw [← hr.xy]; simp only [V3.dot]; ring
      have hzx : c.z.dot c.x = 0 := hr.zx
      unfold beamInternal beamWork bendWork
      rw [e1, e2.1, e2.2, hyx, hzx]
      simp
    rw [hint] at h3
    have hext : externalWork (demoModel c) (demoApi c).heap demoCase v = 2 * (c.x.x + 2 * c.x.y + 3 * c.x.z) := by
      have hp : patternsOf (demoApi c).heap demoCase = [(⟨"P", [("B", ![1, 2, 3, 4, 5, 6])], [], [], []⟩, 2)] := rfl
      unfold externalWork
      rw [hp]
      have e1 : ((Dict.get? [("B", ![(1 : ℝ), 2, 3, 4, 5, 6])] "A").getD 0 : Vec 6) = 0 := rfl
      have e2 : ((Dict.get? [("B", ![(1 : ℝ), 2, 3, 4, 5, 6])] "B").getD 0 : Vec 6) = ![1, 2, 3, 4, 5, 6] := rfl
      have e3 : LoadPattern.getBeamF ⟨"P", [("B", ![1, 2, 3, 4, 5, 6])], [], [], []⟩ "b" (demoBeam c).length = 0 := by
        funext k
        simp [LoadPattern.getBeamF, Dict.contains]
      simp only [List.map_cons, List.map_nil, List.sum_cons, List.sum_nil, patternWork, demoModel, e1, e2, e3, zero_dotProduct, hvB]
      simp [dotProduct, Fin.sum_univ_succ]
      ring
    rw [hext] at h3
    have h4 : (⟨1, 2, 3⟩ : V3) - ⟨0, 0, 0⟩ = lineLength ⟨0, 0, 0⟩ ⟨1, 2, 3⟩ • c.x := hx
    have a1 := congrArg V3.x h4
    have a2 := congrArg V3.y h4
    have a3 := congrArg V3.z h4
    simp only [V3.sub_def, V3.smul_def] at a1 a2 a3
    have : lineLength ⟨0, 0, 0⟩ ⟨1, 2, 3⟩ * (c.x.x + 2 * c.x.y + 3 * c.x.z) = 14 := by linarith
    rw [show c.x.x + 2 * c.x.y + 3 * c.x.z = 0 by linarith, mul_zero] at this
    norm_num at this

theorem C46_false : ¬ C46_claim := by
  intro h
  obtain ⟨c, u, hc, hA, hu, hne⟩ := demo_axial
  obtain ⟨c', hc', hrun⟩ := demo_run idealEnv
  rw [hc] at hc'
  cases hc'
  have hapi : (World.init.run idealEnv demoCalls).api = demoApi c := by rw [hrun]
  have hb : (World.init.run idealEnv demoCalls).api.model.beams.get? "b" = some (demoBeam c) := by rw [hapi]; rfl
  obtain ⟨δ₀, δ₁, h0, -, ⟨hx, -⟩, -⟩ := h idealEnv idealEnv_sound demoCalls [.solveStatic "C"] (demo_noReadd _) (by simp) _ _ rfl rfl "b"
    (demoBeam c) hb "C" (u "A") (u "B") (hu "A" (by simp)) (hu "B" (by simp))
  have h1 := (C46_ends_partial idealEnv demoCalls [.solveStatic "C"] (demo_noReadd _) (by simp) _ _ rfl rfl "b"
    (demoBeam c) hb "C" (u "A") (u "B") (hu "A" (by simp)) (hu "B" (by simp)) (by
      unfold World.getNodeNames; rw [hapi]; exact (by decide : List.idxOf "A" ["A", "B"] < List.idxOf "B" ["A", "B"]))).1
  rw [h0] at h1
  cases h1
  rw [hA] at hx
  apply hne
  simpa [Spec.trans, V3.dot, demoBeam] using hx

end Hyperstatic
