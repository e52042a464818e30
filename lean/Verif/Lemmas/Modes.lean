import Verif.Lemmas.Pencil
import Verif.Spec.Modes
import Verif.Props.Modal
import Verif.Props.Frame

/-
From the matrices of a modal analysis to the vibrating system that was described.
-/

namespace Hyperstatic
open Matrix Spec

/-! ### inertia -/

theorem given_inertial (b : BeamElm) (hl : b.length = (givenBeam b).len) (v u : State) : (givenBeam b).inertial v u = beamInertia b v u := by
  have hm : (givenBeam b).mass = beamMass b := by
    unfold GivenBeam.mass beamMass
    rw [hl]
    cases hp : b.prop <;> simp [givenBeam, givenProp, givenSec, givenMat, constsOf, hp]
  unfold GivenBeam.inertial beamInertia endInertia
  rw [hm]
  rfl

theorem blueprint_inertial {a : Api} (h : ApiInv a) (t : String → Option Flags) (v u : State) :
    (Vibration.inertial ⟨blueprintOf a, a.model.nodes.keys, t, fun n => (a.model.nodes.get? n).map fun nd => nd.mass⟩ v u) =
      inertialWork a.model v u := by
  unfold Vibration.inertial inertialWork
  congr 2
  · apply map_keys_eq _ h.nodes_wf
    intro n nd hn
    simp only [hn, Option.map_some, Option.elim_some]
    rfl
  · apply map_keys_eq _ h.beams_wf
    intro b be hb
    simp only [blueprintOf, hb, Option.map_some, Option.elim_some]
    exact given_inertial be (givenBeam_len be).symm v u

theorem inertial_symm (P : Vibration) (v u : State) : P.inertial v u = P.inertial u v := by
  have hd : ∀ a b : V3, a.dot b = b.dot a := by intro a b; simp only [V3.dot]; ring
  unfold Vibration.inertial
  congr 2
  · apply List.map_congr_left
    intro n _
    cases P.mass n with
    | none => rfl
    | some w =>
      simp only [Option.elim_some]
      exact Finset.sum_congr rfl fun r _ => by ring
  · apply List.map_congr_left
    intro b _
    cases P.frame.beam b with
    | none => rfl
    | some g =>
      simp only [Option.elim_some, GivenBeam.inertial]
      rw [hd (Spec.trans (v g.start)), hd (Spec.rot (v g.start)), hd (Spec.trans (v g.stop)), hd (Spec.rot (v g.stop))]

theorem inertial_lin (P : Vibration) (a b : ℝ) (v u w : State) :
    P.inertial v (a • u + b • w) = a * P.inertial v u + b * P.inertial v w := by
  have h1 : (P.nodes.map fun n => (P.mass n).elim 0 fun m => ∑ r, m r * (v n r * (a • u + b • w) n r)).sum =
      a * (P.nodes.map fun n => (P.mass n).elim 0 fun m => ∑ r, m r * (v n r * u n r)).sum +
      b * (P.nodes.map fun n => (P.mass n).elim 0 fun m => ∑ r, m r * (v n r * w n r)).sum := by
    rw [← List.sum_map_mul_left, ← List.sum_map_mul_left, ← List.sum_map_add]
    congr 1
    apply List.map_congr_left
    intro n _
    cases P.mass n with
    | none => simp
    | some m =>
      simp only [Option.elim_some]
      rw [Finset.mul_sum, Finset.mul_sum, ← Finset.sum_add_distrib]
      refine Finset.sum_congr rfl fun r _ => ?_
      simp only [Pi.add_apply, Pi.smul_apply, smul_eq_mul]
      ring
  have h2 : (P.frame.beams.map fun k => (P.frame.beam k).elim 0 fun g => g.inertial v (a • u + b • w)).sum =
      a * (P.frame.beams.map fun k => (P.frame.beam k).elim 0 fun g => g.inertial v u).sum +
      b * (P.frame.beams.map fun k => (P.frame.beam k).elim 0 fun g => g.inertial v w).sum := by
    rw [← List.sum_map_mul_left, ← List.sum_map_mul_left, ← List.sum_map_add]
    congr 1
    apply List.map_congr_left
    intro k _
    cases P.frame.beam k with
    | none => simp
    | some g =>
      simp only [Option.elim_some, GivenBeam.inertial, Spec.trans, Spec.rot, V3.dot, Pi.add_apply, Pi.smul_apply, smul_eq_mul]
      ring
  unfold Vibration.inertial
  rw [h1, h2]
  ring

theorem inertial_congr {P : Vibration} (h : Sane P.frame P.nodes) {v v' u u' : State} (hv : ∀ n ∈ P.nodes, v n = v' n)
    (hu : ∀ n ∈ P.nodes, u n = u' n) : P.inertial v u = P.inertial v' u' := by
  unfold Vibration.inertial
  congr 2
  · apply List.map_congr_left
    intro n hn
    rw [hv n hn, hu n hn]
  · apply List.map_congr_left
    intro b hb
    obtain ⟨g, hg⟩ := h.term hb
    simp only [hg, Option.elim_some, GivenBeam.inertial]
    rw [hv _ (h.start b g hg), hv _ (h.stop b g hg), hu _ (h.start b g hg), hu _ (h.stop b g hg)]

theorem pow_pos_of_ne {a : ℝ} (h : a ≠ 0) : 0 < a ^ 2 := by positivity

/-! ### the modes of a run -/

/-- what a run delivers, in terms of the model -/
theorem eigen_core {a : Api} (env : Env) (h : FreshInv a) (dyn : DynEnv) (hdyn : dyn.EigSound) (hsh : ShellsSymm env a.model)
    {cases : List LoadCase} {heap : PatHeap} {x : Assembly}
    (hx : Assembly.mk? a.model cases heap = .ok x) {c : String} {lc : LoadCase} (hc : x.cases.get? c = some lc) (hr : lc.restraint.WF)
    {K M : Coo} (hK : x.assembleK env = .ok K) (hM : x.assembleM = .ok M) {nModes : ℕ} {l : List (ℝ × List ℝ)}
    (hl : eigenPairs dyn x c nModes K M = .ok l) :
    ∃ modes : List (ℝ × State), modes.length = (min (nModes : ℤ) x.dof).toNat ∧
      (∀ p ∈ modes, IsMode env a.model (governing a.model lc) p.1 p.2) ∧
      l = modes.map (fun p => (p.1, freeValues a.model (governing a.model lc) p.2)) ∧
      (EigNearest dyn → (∀ v u, inertialWork a.model v u = inertialWork a.model u v) →
        (∀ u, Respects (governing a.model lc) u → (∃ n ∈ a.model.nodes.keys, u n ≠ 0) → 0 < inertialWork a.model u u) →
        (∀ u, 0 ≤ internalWork env a.model u u) →
        (modes.Pairwise fun p q => inertialWork a.model p.2 q.2 = 0) ∧
        ∀ t, (∃ q ∈ modes, t < q.1) → ∀ w, Respects (governing a.model lc) w → (∃ n ∈ a.model.nodes.keys, w n ≠ 0) →
          (∀ p ∈ modes, p.1 ≤ t → inertialWork a.model w p.2 = 0) → t * inertialWork a.model w w < internalWork env a.model w w) := by
  have hA := h.toApiInv
  obtain ⟨hm, -, hfix, -⟩ := mk_assembly hx
  have hwf := governing_wf' hA hr
  unfold eigenPairs at hl
  simp only [Except.bind_ok_iff] at hl
  obtain ⟨K_, hK_, M_, hM_, hl⟩ := hl
  obtain ⟨fixed, ht, hb, hK'⟩ := boundaryMatrix_split hm hfix hc hK_
  unfold Assembly.boundaryMatrix at hM_
  rw [hb, Except.bind_ok] at hM_
  obtain ⟨hn, kform⟩ := stiff_form env h hm hK hwf ht hK'
  obtain ⟨hn', mform⟩ := mass_form h hm hM hwf ht hM_
  rw [if_pos (hn'.trans hn.symm)] at hl
  simp only [Except.bind_ok_iff, Except.pure_eq_ok, Except.ok.injEq] at hl
  obtain ⟨l', hl', rfl⟩ := hl
  obtain ⟨hlen, hsol⟩ := hdyn _ _ _ _ _ hl'
  have hkeys := restraintDofs_keys hA ht
  choose U hU using fun z : Vec K_.nrow => exists_extension (a.model.nodeCount * 6) fixed hn z
  have hne : ∀ z : Vec K_.nrow, z ≠ 0 → ∃ n ∈ a.model.nodes.keys, gat a.model (U z) n ≠ 0 := by
    intro z hz
    by_contra hno
    push Not at hno
    apply hz
    rw [(hU z).2]
    funext k
    exact h.glob_zero hno (fdof_mem (hn ▸ k.isLt)).1
  have hresp : ∀ z, Respects (governing a.model lc) (gat a.model (U z)) := fun z => (respects_iff hA hwf ht _).mpr (hU z).1
  have kz : ∀ z w : Vec K_.nrow, z ⬝ᵥ K_.dense K_.nrow *ᵥ w = internalWork env a.model (gat a.model (U z)) (gat a.model (U w)) := by
    intro z w
    rw [← kform _ hn (U z) (U w) (hU z).1 (hU w).1, ← (hU z).2, ← (hU w).2]
  have mz : ∀ z w : Vec K_.nrow, z ⬝ᵥ M_.dense K_.nrow *ᵥ w = inertialWork a.model (gat a.model (U z)) (gat a.model (U w)) := by
    intro z w
    rw [← mform _ hn (U z) (U w) (hU z).1 (hU w).1, ← (hU z).2, ← (hU w).2]
  -- every admissible state is the extension of a vector
  have hvec : ∀ w : State, Respects (governing a.model lc) w → ∃ z : Vec K_.nrow, (∀ n ∈ a.model.nodes.keys, gat a.model (U z) n = w n) := by
    intro w hw
    have hw' : ∀ i ∈ fixed, glob a.model w i = 0 := by
      apply (respects_iff hA hwf ht _).mp
      exact Respects.congr hkeys (fun n hn => (h.gat_glob w hn).symm) hw
    refine ⟨fun k => glob a.model w (fdof (a.model.nodeCount * 6) fixed k.val), fun n hnk => ?_⟩
    rw [← h.gat_glob w hnk]
    funext r
    have hlt := (h.hidOf_lt hnk).2.1
    have hr6 := r.isLt
    set z : Vec K_.nrow := fun k => glob a.model w (fdof (a.model.nodeCount * 6) fixed k.val) with hz
    have hall : ∀ i < a.model.nodeCount * 6, U z i = glob a.model w i := by
      intro i hi
      by_cases hf : i ∈ fixed
      · rw [(hU z).1 i hf, hw' i hf]
      · obtain ⟨k, hk, e⟩ := List.getElem_of_mem (mem_free.mpr ⟨hi, hf⟩)
        have h1 := congrFun (hU z).2 ⟨k, hn ▸ hk⟩
        have h2 : z ⟨k, hn ▸ hk⟩ = glob a.model w (fdof (a.model.nodeCount * 6) fixed k) := rfl
        have h3 : fdof (a.model.nodeCount * 6) fixed k = i := by rw [← e]; simp [fdof, hk]
        rw [h2, h3] at h1
        exact h1.symm
    exact hall _ (by omega)
  refine ⟨l'.map fun p => (p.1, gat a.model (U p.2)), ?_, ?_, ?_, ?_⟩
  · rw [List.length_map, hlen]
    split <;> omega
  · intro q hq
    obtain ⟨p, hp, rfl⟩ := List.mem_map.mp hq
    obtain ⟨hp0, hpe⟩ := hsol p hp
    refine ⟨hresp _, hne _ hp0, ?_⟩
    intro v hv
    obtain ⟨z, hz⟩ := hvec v hv
    have e := congrArg (fun y => z ⬝ᵥ y) hpe
    simp only [dotProduct_smul, kz, mz, smul_eq_mul] at e
    rw [internalWork_congr env hA hz (fun n _ => rfl), inertialWork_congr hA hz (fun n _ => rfl)] at e
    exact e
  · rw [List.map_map]
    apply List.map_congr_left
    intro p _
    simp only [Function.comp, Prod.mk.injEq, true_and]
    rw [← free_values h hwf ht, ← ofFn_fdof _ _ hn, ← (hU p.2).2]
  · intro hnear hsym hmass hpsd
    have hpen : Pencil (K_.dense K_.nrow) (M_.dense K_.nrow) :=
      ⟨fun v w => by rw [kz, kz]; exact internalWork_symm hA hsh _ _, fun v w => by rw [mz, mz]; exact hsym _ _,
        fun v hv => by rw [mz]; exact hmass _ (hresp v) (hne v hv)⟩
    have htr : ∀ A : Matrix (Fin K_.nrow) (Fin K_.nrow) ℝ, (∀ v w, v ⬝ᵥ A *ᵥ w = w ⬝ᵥ A *ᵥ v) → Aᵀ = A := by
      intro A hs
      ext i j
      have := hs (Pi.single j 1) (Pi.single i 1)
      simpa using this
    obtain ⟨n1, n2⟩ := hnear _ _ _ _ _ hl' (htr _ hpen.symK) (htr _ hpen.symM) hpen.pos
    refine ⟨?_, ?_⟩
    · rw [List.pairwise_map]
      exact n1.imp fun {p q} hpq => by rw [← mz]; exact hpq
    · rintro t ⟨q, hq, hqt⟩ w hw ⟨n, hnk, hw0⟩ hwp
      obtain ⟨p, hp, rfl⟩ := List.mem_map.mp hq
      obtain ⟨z, hz⟩ := hvec w hw
      have hz0 : z ≠ 0 := by
        rintro rfl
        apply hw0
        rw [← hz n hnk]
        funext r
        have hlt := (h.hidOf_lt hnk).2.1
        have hr6 := r.isLt
        have hall : ∀ i < a.model.nodeCount * 6, U 0 i = 0 := by
          intro i hi
          by_cases hf : i ∈ fixed
          · exact (hU 0).1 i hf
          · obtain ⟨k, hk, e⟩ := List.getElem_of_mem (mem_free.mpr ⟨hi, hf⟩)
            have h1 := congrFun (hU 0).2 ⟨k, hn ▸ hk⟩
            have h3 : fdof (a.model.nodeCount * 6) fixed k = i := by rw [← e]; simp [fdof, hk]
            simp only [h3] at h1
            exact h1.symm
        exact hall _ (by omega)
      have h1 := hpen.above (fun v => by rw [kz]; exact hpsd _) (fun p hp => (hsol p hp).2) ⟨n1, n2⟩ ⟨p, hp, hqt⟩ hz0 (by
        intro y hy hyt
        rw [mz, inertialWork_congr hA hz (fun n _ => rfl)]
        exact hwp _ (List.mem_map.mpr ⟨y, hy, rfl⟩) hyt)
      rw [mz, kz, inertialWork_congr hA hz hz, internalWork_congr env hA hz hz] at h1
      exact h1

theorem Spec.Shakes.sane {pre : List Call} {lc : LoadCase} {P : Vibration} (h : Shakes pre lc P) (env : Env) : Sane P.frame P.nodes := by
  rw [h.frame, h.nodes]; exact sane_run env pre

/-- what a modal analysis delivers, in terms of the described system -/
theorem report_core {env : Env} {dyn : DynEnv} (hdyn : dyn.EigSound) {pre : List Call} {lc : LoadCase} {k : ℕ} {omega : List ℝ}
    {shapes : List (List ℝ)} (hR : ModalReport env dyn pre lc k omega shapes) {P : Vibration} (hP : Shakes pre lc P) :
    ∃ modes : List (ℝ × State), omega = modes.map (fun p => p.1) ∧ shapes = modes.map (fun p => P.free p.2) ∧
      (∀ p ∈ modes, P.Mode p.1 p.2) ∧
      (EigNearest dyn → P.Massive → P.frame.Positive →
        (modes.Pairwise fun p q => P.inertial p.2 q.2 = 0) ∧
        ∀ t, (∃ q ∈ modes, t < q.1) → ∀ w, Obeys P.fix w → (∃ n ∈ P.nodes, w n ≠ 0) →
          (∀ p ∈ modes, p.1 ≤ t → P.inertial w p.2 = 0) → t * P.inertial w w < P.frame.internal w w) := by
  obtain ⟨cases, heap, x, A, fs, fs', filename, r, hx, hc, hfs, hname, hrun, hres, hom, hsh⟩ := hR.run
  have hF := (FreshInv_run env pre hR.readd).1
  have hA := hF.toApiInv
  set a := (World.init.run env pre).api with ha
  have hshells : a.model.shells = [] := by
    have : a.model.shells.keys = [] := hR.shells
    simpa [Dict.keys] using this
  have hsy : ShellsSymm env a.model := by intro s se hs; rw [hshells] at hs; cases hs
  have hbp := blueprint_refined env pre
  have hrest := restReg_refined env pre
  have hnode := (C02_node_registry env pre).1
  have hmass := funext (C44_nodal_masses env pre)
  have e1 : P.frame = blueprintOf a := by rw [hP.frame, ← hbp]
  have e2 : P.nodes = a.model.nodes.keys := by rw [hP.nodes, ← hnode]; rfl
  have e3 : P.mass = fun n => (a.model.nodes.get? n).map fun nd => nd.mass := by rw [hP.mass, ← hmass]
  have e4 : ∀ n, P.fix n = (governing a.model lc).get? n := by
    intro n
    rw [hP.fix, ← hrest]
    unfold governing
    cases hl : lc.restraint <;> simp [ha]
  have hint : ∀ v u, P.frame.internal v u = internalWork env a.model v u := by
    intro v u; rw [e1]; exact blueprint_internal hA env hshells v u
  have hine : ∀ v u, P.inertial v u = inertialWork a.model v u := by
    intro v u
    rw [← blueprint_inertial hA P.fix v u]
    unfold Vibration.inertial
    rw [e1, e2, e3]
  have hob : ∀ u, Obeys P.fix u ↔ Respects (governing a.model lc) u := by
    intro u; unfold Obeys Respects; simp only [e4]
  have hfree : ∀ u, P.free u = freeValues a.model (governing a.model lc) u := by
    intro u
    unfold Vibration.free freeValues
    rw [e2]
    congr 1
    funext n
    congr 1
    funext r
    rw [e4]
    cases (governing a.model lc).get? n <;> rfl
  obtain ⟨lc', K, M, l, hc', hK, hM, hl, hfs'⟩ := solveEigen_ok hfs hrun
  rw [hc] at hc'
  cases hc'
  obtain ⟨modes, -, h2, rfl, h4⟩ := eigen_core env hF dyn hdyn hsy hx hc hR.wf hK hM hl
  refine ⟨modes, ?_, ?_, ?_, ?_⟩
  · unfold resolveModalFrequency at hres
    simp only [Except.bind_ok_iff] at hres
    obtain ⟨_, -, e⟩ := hres
    have e2 : lc.name ++ ".o.npy" = lc.name ++ ".o" ++ ".npy" := by rw [String.append_assoc]; rfl
    rw [e2, hfs', Dict.get?_set_same] at e
    simp only [Except.pure_eq_ok, Except.ok.injEq] at e
    rw [← hom, ← e]
    simp [List.map_map, Function.comp_def]
  · rw [hfs', Dict.get?_set_ne _ _ (dfile_ne_ofile lc.name).symm, Dict.get?_set_same] at hsh
    simp only [Option.some.injEq, File.rows.injEq] at hsh
    rw [← hsh, List.map_map]
    exact List.map_congr_left fun p _ => (hfree p.2).symm
  · intro p hp
    obtain ⟨m1, m2, m3⟩ := h2 p hp
    refine ⟨(hob _).mpr m1, by rw [e2]; exact m2, fun v hv => ?_⟩
    rw [hint, hine]
    exact m3 v ((hob v).mp hv)
  · intro hnear hmas hpos
    obtain ⟨k1, k2⟩ := h4 hnear (fun v u => by rw [← hine, ← hine, inertial_symm])
      (fun u hu h0 => by rw [← hine]; exact hmas u ((hob u).mpr hu) (by rw [e2]; exact h0))
      (fun u => by rw [← hint]; exact internal_nonneg (hP.sane env) hpos u)
    refine ⟨k1.imp fun {p q} h => by rw [hine]; exact h, ?_⟩
    intro t ht w hw h0 hwp
    rw [hint, hine]
    exact k2 t ht w ((hob w).mp hw) (by rw [← e2]; exact h0) fun p hp hpt => by rw [← hine]; exact hwp p hp hpt

end Hyperstatic
