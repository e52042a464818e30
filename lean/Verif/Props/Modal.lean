import Verif.Lemmas.Dynamic
import Verif.Props.Dynamic
import Verif.Props.Solve
import Mathlib.LinearAlgebra.Matrix.DotProduct

/-
C54 (the matrices in use), C57, C58, C59: modal analysis and direct time integration.
-/

namespace Hyperstatic
open Matrix Spec

theorem governing_wf' {a : Api} (h : ApiInv a) {lc : LoadCase} (hr : lc.restraint.WF) : (governing a.model lc).WF := by
  unfold governing
  split
  · exact h.rest_wf
  · exact hr

theorem boundaryMatrix_split {m : FeModel} {x : Assembly} (hm : x.model = m)
    (hf : restraintDofs m m.restraints = .ok x.fixedDof) {c : String} {lc : LoadCase} (hc : x.cases.get? c = some lc) {K K' : Coo}
    (h : x.boundaryMatrix c K = .ok K') :
    ∃ fixed, restraintDofs m (governing m lc) = .ok fixed ∧ x.boundaryDofs c = .ok fixed ∧ Assembly.dropMatrixDof K fixed = .ok K' := by
  unfold Assembly.boundaryMatrix at h
  simp only [Except.bind_ok_iff] at h
  obtain ⟨fixed, h1, h2⟩ := h
  exact ⟨fixed, by rw [← boundaryDofs_governing hm hf hc, h1], h1, h2⟩

/-! ### C54 Rayleigh damping meets its two target ratios -/

/-- Direct time integration of a structure built through the API uses, for the degrees of freedom left free by the restraints in
force, a damping matrix that damps every vibration mode of period 2 with the ratio 0.05 and every mode of period 1 with the ratio
0.02. -/
theorem C54_in_use (env : Env) (cs : List Call) (hcs : NoReadd env World.init cs) (cases : List LoadCase) (heap : PatHeap) (x : Assembly)
    (hx : Assembly.mk? (World.init.run env cs).api.model cases heap = .ok x) (c : String) (lc : LoadCase)
    (hc : x.cases.get? c = some lc) (hr : lc.restraint.WF) (K M K_ M_ C_ : Coo) (hK : x.assembleK env = .ok K) (hM : x.assembleM = .ok M)
    (hK_ : x.boundaryMatrix c K = .ok K_) (hM_ : x.boundaryMatrix c M = .ok M_) (hC_ : x.boundaryMatrix c (rayleighC K M) = .ok C_)
    (phi : Vec K_.nrow) :
    (K_.dense K_.nrow *ᵥ phi = (2 * Real.pi / 2) ^ 2 • (M_.dense K_.nrow *ᵥ phi) →
      C_.dense K_.nrow *ᵥ phi = (2 * 0.05 * (2 * Real.pi / 2)) • (M_.dense K_.nrow *ᵥ phi)) ∧
    (K_.dense K_.nrow *ᵥ phi = (2 * Real.pi / 1) ^ 2 • (M_.dense K_.nrow *ᵥ phi) →
      C_.dense K_.nrow *ᵥ phi = (2 * 0.02 * (2 * Real.pi / 1)) • (M_.dense K_.nrow *ᵥ phi)) := by
  have hF := (FreshInv_run env cs hcs).1
  obtain ⟨hm, -, hfix, -⟩ := mk_assembly hx
  have hwf := governing_wf' hF.toApiInv hr
  obtain ⟨fixed, ht, hb, hK'⟩ := boundaryMatrix_split hm hfix hc hK_
  unfold Assembly.boundaryMatrix at hM_ hC_
  rw [hb, Except.bind_ok] at hM_ hC_
  have hn := (stiff_form env hF hm hK hwf ht hK').1
  rw [damping_dense env hF hm hK hM hwf ht hK' hM_ hC_ _ hn]
  exact C54_target_ratios _ _ 0.05 0.02 2 1 (by norm_num) (by norm_num) (by norm_num) phi

/-! ### C57 Reported modal frequencies are those of the eigenvalue problem -/

theorem dfile_ne_ofile (c : String) : c ++ ".d" ++ ".npy" ≠ c ++ ".o" ++ ".npy" := by
  intro h
  have := congrArg String.toList h
  simp at this

theorem cacheMatrix_ok {A : Type} {fs fs' : Dict (File A)} {name : String} {mk : Except PyErr Coo} {file : Coo → File A} {K : Coo}
    (h : cacheMatrix fs name mk file = (fs', .ok K)) : mk = .ok K ∧ fs' = Dict.set fs (name ++ ".npy") (file K) := by
  unfold cacheMatrix at h
  split at h
  · simp at h
  · split at h
    · simp at h
    · rename_i K' 
      simp only [Prod.mk.injEq, Except.ok.injEq] at h
      obtain ⟨rfl, rfl⟩ := h
      exact ⟨rfl, rfl⟩

theorem solveEigen_ok {A : Type} {env : Env} {dyn : DynEnv} {fs fs' : Dict (File A)} {filename c : String} {s : ModalSetting} {x : Assembly}
    (hfs : openAssembly fs filename = .ok x) (h : solveEigen env dyn fs filename c s = (fs', .ok ())) :
    ∃ lc K M l, x.cases.get? c = some lc ∧ x.assembleK env = .ok K ∧ x.assembleM = .ok M ∧
      eigenPairs dyn x c s.nModes K M = .ok l ∧
      fs' = Dict.set (Dict.set (Dict.set (Dict.set fs "0.k.npy" (.stiff K)) "0.m.npy" (.mass M)) (c ++ ".d" ++ ".npy")
        (.rows (l.map Prod.snd))) (c ++ ".o" ++ ".npy") (.rows [l.map Prod.fst]) := by
  unfold solveEigen at h
  rw [hfs] at h
  simp only at h
  split at h
  · simp at h
  · rename_i base hbase
    simp only [Except.bind_ok_iff] at hbase
    obtain ⟨lc, hlc, hb⟩ := hbase
    have hb0 : base = "0" := by
      unfold baseCaseName at hb
      split at hb
      · cases hb; rfl
      · cases hb
    subst hb0
    unfold caseOfKind at hlc
    simp only [Except.bind_ok_iff] at hlc
    obtain ⟨lc', hlc', -⟩ := hlc
    split at h
    · simp at h
    · rename_i fs1 K hK
      split at h
      · simp at h
      · rename_i fs2 M hM
        split at h
        · simp at h
        · rename_i l hl
          obtain ⟨h1, rfl⟩ := cacheMatrix_ok hK
          obtain ⟨h2, rfl⟩ := cacheMatrix_ok hM
          simp only [Prod.mk.injEq, and_true] at h
          subst h
          exact ⟨lc', K, M, l, (Dict.getItem_eq_ok_iff _ _ _).mp hlc', h1, h2, hl, rfl⟩

/-- the modes delivered by a successful run -/
theorem eigen_modes {a : Api} (env : Env) (h : FreshInv a) (dyn : DynEnv) (hdyn : dyn.EigSound) (P : ℝ → Prop)
    (hP : ∀ n K k M l, dyn.eigsh n K k M = .ok l → ∀ p ∈ l, P p.1) {cases : List LoadCase} {heap : PatHeap} {x : Assembly}
    (hx : Assembly.mk? a.model cases heap = .ok x) {c : String} {lc : LoadCase} (hc : x.cases.get? c = some lc) (hr : lc.restraint.WF)
    {K M : Coo} (hK : x.assembleK env = .ok K) (hM : x.assembleM = .ok M) {nModes : ℕ} {l : List (ℝ × List ℝ)}
    (hl : eigenPairs dyn x c nModes K M = .ok l) :
    ∃ modes : List (ℝ × State), modes.length = (min (nModes : ℤ) x.dof).toNat ∧
      (∀ p ∈ modes, P p.1 ∧ IsMode env a.model (governing a.model lc) p.1 p.2) ∧
      l = modes.map fun p => (p.1, freeValues a.model (governing a.model lc) p.2) := by
  have hA := h.toApiInv
  obtain ⟨hm, -, hfix, -⟩ := mk_assembly hx
  have hwf := governing_wf' hA hr
  unfold eigenPairs at hl
  simp only [Except.bind_ok_iff] at hl
  obtain ⟨K_, hK_, M_, hM_, hl⟩ := hl
  obtain ⟨fixed, ht, hb, hK'⟩ := boundaryMatrix_split hm hfix hc hK_
  unfold Assembly.boundaryMatrix at hM_
  rw [hb, Except.bind_ok] at hM_
  obtain ⟨hn, kform⟩ := stiff_form env h hm hK hwf ht hK'
  obtain ⟨hn', mform⟩ := mass_form h hm hM hwf ht hM_
  rw [if_pos (hn'.trans hn.symm)] at hl
  simp only [Except.bind_ok_iff, Except.pure_eq_ok, Except.ok.injEq] at hl
  obtain ⟨l', hl', rfl⟩ := hl
  obtain ⟨hlen, hsol⟩ := hdyn _ _ _ _ _ hl'
  have hPl := hP _ _ _ _ _ hl'
  choose U hU using fun z : Vec K_.nrow => exists_extension (a.model.nodeCount * 6) fixed hn z
  refine ⟨l'.map fun p => (p.1, gat a.model (U p.2)), ?_, ?_, ?_⟩
  · rw [List.length_map, hlen]
    split <;> omega
  · intro q hq
    obtain ⟨p, hp, rfl⟩ := List.mem_map.mp hq
    obtain ⟨hp0, hpe⟩ := hsol p hp
    refine ⟨hPl p hp, (respects_iff hA hwf ht _).mpr (hU p.2).1, ?_, ?_⟩
    · by_contra hno
      push Not at hno
      apply hp0
      rw [(hU p.2).2]
      funext k
      exact h.glob_zero hno (fdof_mem (hn ▸ k.isLt)).1
    · intro v hv
      have hkeys := restraintDofs_keys hA ht
      have hv' : ∀ i ∈ fixed, glob a.model v i = 0 := by
        apply (respects_iff hA hwf ht _).mp
        exact Respects.congr hkeys (fun n hn => (h.gat_glob v hn).symm) hv
      have e1 := kform _ hn (glob a.model v) (U p.2) hv' (hU p.2).1
      have e2 := mform _ hn (glob a.model v) (U p.2) hv' (hU p.2).1
      rw [← (hU p.2).2] at e1 e2
      rw [hpe, dotProduct_smul, e2, smul_eq_mul] at e1
      rw [internalWork_congr env hA (fun n hn => h.gat_glob v hn) (fun n _ => rfl),
        inertialWork_congr hA (fun n hn => h.gat_glob v hn) (fun n _ => rfl)] at e1
      exact e1.symm
  · rw [List.map_map]
    apply List.map_congr_left
    intro p _
    simp only [Function.comp, Prod.mk.injEq, true_and]
    rw [← free_values h hwf ht, ← ofFn_fdof _ _ hn, ← (hU p.2).2]

/-- What a modal analysis of a structure built through the API delivers, for every eigenvalue routine that returns eigenpairs: the
requested number of vibration modes (never more than there are degrees of freedom), each a non-zero displacement state that respects
the restraints and balances elastic and inertia forces with some `λ`; the file of mode shapes holds the free components of these modes,
node by node; the resolver reports `λ`, `λ/2π` and `2π/λ`.  Missing from the full statement: the resolver ought to take the square root
of `λ` first, see `C57_false`. -/
theorem C57_modes_partial (env : Env) (dyn : DynEnv) (hdyn : dyn.EigSound) (cs : List Call) (hcs : NoReadd env World.init cs) (m : FeModel)
    (hm : m = (World.init.run env cs).api.model) (cases : List LoadCase) (heap : PatHeap) (x : Assembly)
    (hx : Assembly.mk? m cases heap = .ok x) {A : Type} (fs fs' : Dict (File A)) (filename c : String)
    (hfs : openAssembly fs filename = .ok x)
    (hname : filename ∉ ["0.k.npy", "0.m.npy", c ++ ".d" ++ ".npy", c ++ ".o" ++ ".npy"]) (lc : LoadCase)
    (hc : x.cases.get? c = some lc) (hr : lc.restraint.WF) (s : ModalSetting)
    (h : solveEigen env dyn fs filename c s = (fs', .ok ())) :
    ∃ modes : List (ℝ × State), modes.length = (min (s.nModes : ℤ) x.dof).toNat ∧
      (∀ p ∈ modes, IsMode env m (governing m lc) p.1 p.2) ∧
      fs'.get? (c ++ ".d" ++ ".npy") = some (.rows (modes.map fun p => freeValues m (governing m lc) p.2)) ∧
      ∃ r, resolveModalFrequency fs' filename c = .ok r ∧ r.omega = modes.map (fun p => p.1) ∧
        r.f = modes.map (fun p => p.1 / (2 * Real.pi)) ∧ r.T = modes.map (fun p => 2 * Real.pi / p.1) := by
  subst hm
  obtain ⟨lc', K, M, l, hc', hK, hM, hl, rfl⟩ := solveEigen_ok hfs h
  rw [hc] at hc'
  cases hc'
  obtain ⟨modes, h1, h2, rfl⟩ := eigen_modes env (FreshInv_run env cs hcs).1 dyn hdyn (fun _ => True) (fun _ _ _ _ _ _ _ _ => trivial) hx hc hr
    hK hM hl
  refine ⟨modes, h1, fun p hp => (h2 p hp).2, ?_, ?_⟩
  · rw [Dict.get?_set_ne _ _ (dfile_ne_ofile c).symm, Dict.get?_set_same, List.map_map]
    rfl
  · simp only [List.mem_cons, List.not_mem_nil, or_false, not_or] at hname
    obtain ⟨n1, n2, n3, n4⟩ := hname
    unfold resolveModalFrequency
    have ho : ∀ d : Dict (File A), openAssembly d filename = match d.get? filename with
        | some (.asb a) => .ok a
        | some _ => .error .exception
        | none => .error .fileNotFound := fun _ => rfl
    have e : ∀ f1 f2 f3 f4 : File A, openAssembly (Dict.set (Dict.set (Dict.set (Dict.set fs "0.k.npy" f1) "0.m.npy" f2) (c ++ ".d" ++ ".npy")
        f3) (c ++ ".o" ++ ".npy") f4) filename = .ok x := by
      intro f1 f2 f3 f4
      rw [ho, Dict.get?_set_ne _ _ (Ne.symm n4), Dict.get?_set_ne _ _ (Ne.symm n3), Dict.get?_set_ne _ _ (Ne.symm n2), Dict.get?_set_ne _ _ (Ne.symm n1), ← ho]
      exact hfs
    rw [e, Except.bind_ok]
    have e2 : c ++ ".o.npy" = c ++ ".o" ++ ".npy" := by rw [String.append_assoc]; rfl
    rw [e2, Dict.get?_set_same]
    refine ⟨_, rfl, ?_, ?_, ?_⟩
    · simp [List.map_map, Function.comp_def]
    · simp only [List.map_map, List.flatten_cons, List.flatten_nil, List.append_nil]
      apply List.map_congr_left
      intro p _
      simp only [Function.comp_def]
      rw [one_div_div]
    · simp [List.map_map, Function.comp_def]

/-- C57 as a user reads it: after a modal analysis the reported circular frequency `ω`, frequency and period of mode `i` are related by
`f = ω/2π` and `T = 2π/ω`, and the mode shape with the saved free components vibrates with circular frequency `ω`: elastic forces equal
`ω²` times inertia forces. -/
def C57_claim : Prop :=
  ∀ (env : Env) (dyn : DynEnv), dyn.EigSound → ∀ (cs : List Call), NoReadd env World.init cs → ∀ (m : FeModel),
    m = (World.init.run env cs).api.model → ∀ (cases : List LoadCase) (heap : PatHeap) (x : Assembly), Assembly.mk? m cases heap = .ok x →
    ∀ (fs fs' : Dict (File Unit)) (filename c : String), openAssembly fs filename = .ok x →
    filename ∉ ["0.k.npy", "0.m.npy", c ++ ".d" ++ ".npy", c ++ ".o" ++ ".npy"] → ∀ (lc : LoadCase),
    x.cases.get? c = some lc → lc.restraint.WF → ∀ (s : ModalSetting), solveEigen env dyn fs filename c s = (fs', .ok ()) →
    ∃ (r : ModalFrequency) (rows : List (List ℝ)), resolveModalFrequency fs' filename c = .ok r ∧ fs'.get? (c ++ ".d" ++ ".npy") = some (.rows rows) ∧
      ∀ (i : ℕ) (ω : ℝ), r.omega[i]? = some ω → r.f[i]? = some (ω / (2 * Real.pi)) ∧ r.T[i]? = some (2 * Real.pi / ω) ∧
        ∃ u, IsMode env m (governing m lc) (ω ^ 2) u ∧ rows[i]? = some (freeValues m (governing m lc) u)

/-- a vibration mode gives an eigenpair of the reduced matrices -/
theorem mode_pair {a : Api} (env : Env) (h : FreshInv a) {x : Assembly} (hm : x.model = a.model) {K M K_ M_ : Coo} {t : Dict Flags}
    (hwf : t.WF) (hK : x.assembleK env = .ok K) (hM : x.assembleM = .ok M) {fixed : List ℕ} (ht : restraintDofs a.model t = .ok fixed)
    (hK' : Assembly.dropMatrixDof K fixed = .ok K_) (hM' : Assembly.dropMatrixDof M fixed = .ok M_) {lam : ℝ} {u : State}
    (hu : IsMode env a.model t lam u) :
    ∃ z : Vec K_.nrow, z ≠ 0 ∧ K_.dense K_.nrow *ᵥ z = lam • (M_.dense K_.nrow *ᵥ z) := by
  have hA := h.toApiInv
  obtain ⟨hn, kform⟩ := stiff_form env h hm hK hwf ht hK'
  obtain ⟨-, mform⟩ := mass_form h hm hM hwf ht hM'
  obtain ⟨hu1, ⟨n, hnk, hu2⟩, hu3⟩ := hu
  have hkeys := restraintDofs_keys hA ht
  have hU : ∀ i ∈ fixed, glob a.model u i = 0 := by
    apply (respects_iff hA hwf ht _).mp
    exact Respects.congr hkeys (fun n hn => (h.gat_glob u hn).symm) hu1
  refine ⟨fun k => glob a.model u (fdof (a.model.nodeCount * 6) fixed k.val), ?_, ?_⟩
  · intro hz
    apply hu2
    have h0 : ∀ i < a.model.nodeCount * 6, glob a.model u i = 0 := by
      intro i hi
      by_cases hf : i ∈ fixed
      · exact hU i hf
      · obtain ⟨k, hk, e⟩ := List.getElem_of_mem (mem_free.mpr ⟨hi, hf⟩)
        have := congrFun hz ⟨k, hn ▸ hk⟩
        simp only [Pi.zero_apply] at this
        rw [← e, ← this]
        simp [fdof, hk]
    rw [← h.gat_glob u hnk]
    funext r
    have := (h.hidOf_lt hnk).2.1
    have := r.isLt
    exact h0 _ (by omega)
  · apply dotProduct_eq
    intro w
    obtain ⟨V, hV1, hV2⟩ := exists_extension _ fixed hn w
    rw [dotProduct_comm, dotProduct_comm _ w, dotProduct_smul, hV2, kform _ hn V _ hV1 hU, mform _ hn V _ hV1 hU,
      internalWork_congr env hA (fun n _ => rfl) (fun n hn => h.gat_glob u hn),
      inertialWork_congr hA (fun n _ => rfl) (fun n hn => h.gat_glob u hn), smul_eq_mul]
    exact hu3 _ ((respects_iff hA hwf ht V).mpr hV1)

/-- an eigenvalue routine that returns copies of one pair, with an eigenvalue other than 0 and 1 -/
noncomputable def pickEig : DynEnv where
  eigsh := fun n K k M => open Classical in
    if h : ∃ p : ℝ × Vec n, (p.2 ≠ 0 ∧ K *ᵥ p.2 = p.1 • (M *ᵥ p.2)) ∧ p.1 ≠ 0 ∧ p.1 ≠ 1 then .ok (List.replicate k h.choose)
    else .error .exception
  cg := fun _ _ _ => 0
  solve := fun _ _ _ => .error .exception

theorem pickEig_spec {n K k M l} (h : pickEig.eigsh n K k M = .ok l) : l.length = k ∧ ∀ p ∈ l, (p.2 ≠ 0 ∧ K *ᵥ p.2 = p.1 • (M *ᵥ p.2)) ∧
    p.1 ≠ 0 ∧ p.1 ≠ 1 := by
  unfold pickEig at h
  simp only at h
  split at h
  · rename_i hex
    cases h
    refine ⟨by simp, ?_⟩
    intro p hp
    rw [(List.mem_replicate.mp hp).2]
    exact hex.choose_spec
  · cases h

theorem pickEig_sound : pickEig.EigSound := by
  intro n K k M l h
  exact ⟨(pickEig_spec h).1, fun p hp => ((pickEig_spec h).2 p hp).1⟩

def modalCase : LoadCase := LoadCase.new "V" .modal

theorem demo_inertia (c : Csys) (v u : State) (hv : v "A" = 0) : inertialWork (demoModel c) v u =
    lineLength ⟨0, 0, 0⟩ ⟨1, 2, 3⟩ / 2 * (Spec.trans (v "B")).dot (Spec.trans (u "B")) + 1 / 10 ^ 12 * (Spec.rot (v "B")).dot (Spec.rot (u "B")) := by
  have e1 : inertialWork (demoModel c) v u = beamInertia (demoBeam c) v u := by
    simp [inertialWork, demoModel, FeModel.empty, nodeInertia, stdNode]
  have e2 : (demoBeam c).startName = "A" := rfl
  have e3 : (demoBeam c).endName = "B" := rfl
  have e4 : beamMass (demoBeam c) = lineLength ⟨0, 0, 0⟩ ⟨1, 2, 3⟩ := by
    simp [beamMass, demoBeam, constsOf, BeamElm.length]
  rw [e1, beamInertia, e2, e3, hv, endInertia, endInertia, e4]
  simp [Spec.trans, Spec.rot, V3.dot]

theorem demo_mode (env : Env) {c : Csys} (hc : lineCsys ⟨0, 0, 0⟩ ⟨1, 2, 3⟩ = .ok c) :
    IsMode env (demoModel c) (demoModel c).restraints (1 / 7)
      (fun n => if n = "B" then ![c.x.x, c.x.y, c.x.z, 0, 0, 0] else 0) := by
  obtain ⟨hr, hl, hx⟩ := lineCsys_ok hc
  refine ⟨?_, ⟨"B", by simp [demoModel, Dict.keys], ?_⟩, ?_⟩
  · intro n f hn r hf
    have hn' : Dict.get? [("A", fun _ => true)] n = some f := hn
    rw [Dict.get?] at hn'
    split at hn'
    · rename_i e
      have : n = "A" := by simpa using e.symm
      subst this
      rfl
    · simp at hn'
  · intro h0
    have hxx := hr.xx
    simp only [if_true] at h0
    have a0 := congrFun h0 0
    have a1 := congrFun h0 1
    have a2 := congrFun h0 2
    simp at a0 a1 a2
    simp [V3.dot, a0, a1, a2] at hxx
  · intro v hv
    have hvA : v "A" = 0 := by
      funext r
      exact hv "A" (fun _ => true) rfl r rfl
    rw [demo_inertia c v _ hvA]
    have e0 : internalWork env (demoModel c) v (fun n => if n = "B" then ![c.x.x, c.x.y, c.x.z, 0, 0, 0] else 0) =
        beamInternal (demoBeam c) v (fun n => if n = "B" then ![c.x.x, c.x.y, c.x.z, 0, 0, 0] else 0) := by
      simp [internalWork, demoModel, FeModel.empty]
    have e1 : beamEnds (demoBeam c) (fun n => if n = "B" then ![c.x.x, c.x.y, c.x.z, 0, 0, 0] else 0) =
        ![0, 0, 0, 0, 0, 0, c.x.dot c.x, c.y.dot c.x, c.z.dot c.x, 0, 0, 0] := by
      show localEnds c (0 : Vec 6) ![c.x.x, c.x.y, c.x.z, 0, 0, 0] = _
      unfold localEnds
      simp [Spec.trans, Spec.rot, V3.dot]
    have hyx : c.y.dot c.x = 0 := by rw [← hr.xy]; simp only [V3.dot]; ring
    have e2 : beamEnds (demoBeam c) v 0 = 0 ∧ beamEnds (demoBeam c) v 6 = c.x.dot (Spec.trans (v "B")) := by
      have : beamEnds (demoBeam c) v = localEnds c (v "A") (v "B") := rfl
      rw [this, hvA]
      unfold localEnds
      refine ⟨by simp [Spec.trans, V3.dot], rfl⟩
    have e3 : (demoBeam c).length = lineLength ⟨0, 0, 0⟩ ⟨1, 2, 3⟩ := rfl
    rw [e0]
    unfold beamInternal beamWork bendWork
    rw [e1, e2.1, e2.2, hyx, hr.zx, hr.xx, e3]
    have hll : lineLength ⟨0, 0, 0⟩ ⟨1, 2, 3⟩ * lineLength ⟨0, 0, 0⟩ ⟨1, 2, 3⟩ = 14 := by
      simp only [lineLength, V3.norm]
      rw [Real.mul_self_sqrt (by simp only [V3.sub_def]; norm_num)]
      simp only [V3.sub_def]; norm_num
    have hl0 := hl.ne'
    have hinv : 1 / lineLength ⟨0, 0, 0⟩ ⟨1, 2, 3⟩ = lineLength ⟨0, 0, 0⟩ ⟨1, 2, 3⟩ / 14 := by
      field_simp
      linarith
    have hEA : (constsOf (demoBeam c).prop).E * (constsOf (demoBeam c).prop).A = 1 := by simp [demoBeam, constsOf]
    rw [hEA, hinv]
    simp [Spec.trans, Spec.rot, V3.dot]
    ring

theorem demo_freeValues (c : Csys) (u : State) : freeValues (demoModel c) (demoModel c).restraints u = List.ofFn (u "B") := by
  simp [freeValues, demoModel, FeModel.empty, Dict.keys, Dict.get?, List.finRange_succ]

/-- the modal analysis of the demo structure runs -/
theorem demo_modal_runs (env : Env) : ∃ (c : Csys) (x : Assembly) (fs' : Dict (File Unit)), lineCsys ⟨0, 0, 0⟩ ⟨1, 2, 3⟩ = .ok c ∧
    Assembly.mk? (World.init.run env demoCalls).api.model [modalCase] [] = .ok x ∧ x.cases = [("V", modalCase)] ∧ x.dof = 6 ∧
    solveEigen env pickEig [("f", .asb x)] "f" "V" ⟨3, none⟩ = (fs', .ok ()) := by
  obtain ⟨c, hc, hrun⟩ := demo_run env
  have hF := (FreshInv_run env demoCalls (demo_noReadd env)).1
  have hapi : (World.init.run env demoCalls).api = demoApi c := by rw [hrun]
  rw [hapi] at hF ⊢
  have hA := hF.toApiInv
  have hfix : restraintDofs (demoModel c) (demoModel c).restraints = .ok [0, 1, 2, 3, 4, 5] := rfl
  have hx : ∃ x, Assembly.mk? (demoApi c).model [modalCase] [] = .ok x ∧ x.cases = [("V", modalCase)] ∧ x.dof = 6 := ⟨_, rfl, rfl, rfl⟩
  obtain ⟨x, hx, hcs, hd⟩ := hx
  obtain ⟨hm, -, hfix', -⟩ := mk_assembly hx
  obtain ⟨K, hK⟩ := (assembleK_ok_iff env hF hm).mpr (demo_mu c)
  obtain ⟨M, hM⟩ := assembleM_ok hF hm
  have hcase : x.cases.get? "V" = some modalCase := by rw [hcs]; rfl
  have hb : x.boundaryDofs "V" = .ok [0, 1, 2, 3, 4, 5] := by
    rw [boundaryDofs_governing hm hfix' hcase]; exact hfix
  obtain ⟨hnd, hlt⟩ := restraintDofs_nodup hF hF.toApiInv.rest_wf hfix
  obtain ⟨kr, kc, kents⟩ := assembleK_range hK
  obtain ⟨mr, mc, ments⟩ := assembleM_range hM
  rw [hm] at kr kc mr mc
  obtain ⟨K_, hK'⟩ := dropMatrix_ok hnd (kr.trans kc.symm) (by rw [kr]; exact hlt) kents
  obtain ⟨M_, hM'⟩ := dropMatrix_ok hnd (mr.trans mc.symm) (by rw [mr]; exact hlt) ments
  obtain ⟨hn, -⟩ := stiff_form env hF hm hK hF.toApiInv.rest_wf hfix hK'
  obtain ⟨hn', -⟩ := mass_form hF hm hM hF.toApiInv.rest_wf hfix hM'
  obtain ⟨z, hz1, hz2⟩ := mode_pair env hF hm hF.toApiInv.rest_wf hK hM hfix hK' hM' (demo_mode env hc)
  have hpick : ∃ l, pickEig.eigsh K_.nrow (K_.dense K_.nrow) 3 (M_.dense K_.nrow) = .ok l := by
    unfold pickEig
    simp only
    rw [dif_pos ⟨(1 / 7, z), ⟨hz1, hz2⟩, by norm_num, by norm_num⟩]
    exact ⟨_, rfl⟩
  obtain ⟨l, hl⟩ := hpick
  have hpairs : eigenPairs pickEig x "V" 3 K M = .ok (l.map fun p => (p.1, List.ofFn p.2)) := by
    unfold eigenPairs Assembly.boundaryMatrix
    rw [hb, Except.bind_ok, hK', Except.bind_ok, Except.bind_ok, hM', Except.bind_ok, if_pos (hn'.trans hn.symm), hd]
    simp only [show ¬ ((6 : ℤ) < ((3 : ℕ) : ℤ)) by norm_num, if_false]
    rw [hl]
    rfl
  suffices hex : ∃ fs', solveEigen env pickEig [("f", (File.asb x : File Unit))] "f" "V" ⟨3, none⟩ = (fs', .ok ()) by
    obtain ⟨fs', h⟩ := hex
    exact ⟨c, x, fs', hc, hx, hcs, hd, h⟩
  unfold solveEigen
  have ho : openAssembly [("f", (File.asb x : File Unit))] "f" = .ok x := rfl
  have hk : caseOfKind x "V" .modal = .ok modalCase := by
    unfold caseOfKind
    rw [Dict.getItem_of_some hcase]
    rfl
  rw [ho]
  simp only [hk, baseCaseName, Except.bind_ok]
  have hc1 : cacheMatrix [("f", (File.asb x : File Unit))] ("0" ++ ".k") (x.assembleK env) File.stiff =
      (Dict.set [("f", (File.asb x : File Unit))] ("0" ++ ".k" ++ ".npy") (.stiff K), .ok K) := by
    rw [hK]; rfl
  rw [hc1]
  simp only
  have hc2 : cacheMatrix (Dict.set [("f", (File.asb x : File Unit))] ("0" ++ ".k" ++ ".npy") (.stiff K)) ("0" ++ ".m") x.assembleM File.mass =
      (Dict.set (Dict.set [("f", (File.asb x : File Unit))] ("0" ++ ".k" ++ ".npy") (.stiff K)) ("0" ++ ".m" ++ ".npy") (.mass M), .ok M) := by
    rw [hM]; rfl
  rw [hc2]
  simp only [hpairs]
  exact ⟨_, rfl⟩

/-- the hypotheses of `C57_modes_partial` are met by the modal analysis of the cantilever with three modes -/
example (env : Env) : ∃ (x : Assembly) (fs' : Dict (File Unit)) (modes : List (ℝ × State)),
    solveEigen env pickEig [("f", .asb x)] "f" "V" ⟨3, none⟩ = (fs', .ok ()) ∧ modes.length = 3 ∧
    ∀ p ∈ modes, IsMode env (World.init.run env demoCalls).api.model
      (governing (World.init.run env demoCalls).api.model modalCase) p.1 p.2 := by
  obtain ⟨c, x, fs', hc, hx, hcs, hd, hs⟩ := demo_modal_runs env
  obtain ⟨modes, h1, h2, -⟩ := C57_modes_partial env pickEig pickEig_sound demoCalls (demo_noReadd _) _ rfl _ _ x hx _ fs' "f" "V" rfl (by decide)
    modalCase (by rw [hcs]; rfl) List.nodup_nil ⟨3, none⟩ hs
  exact ⟨x, fs', modes, hs, by rw [h1, hd]; rfl, h2⟩

theorem inertia_pos {l : ℝ} (hl : 0 < l) (w : Vec 6) (hw : w ≠ 0) :
    0 < l * (w 0 * w 0 + w 1 * w 1 + w 2 * w 2) + 1 / 10 ^ 12 * (w 3 * w 3 + w 4 * w 4 + w 5 * w 5) := by
  by_contra h
  push Not at h
  have s0 := mul_self_nonneg (w 0); have s1 := mul_self_nonneg (w 1); have s2 := mul_self_nonneg (w 2)
  have s3 := mul_self_nonneg (w 3); have s4 := mul_self_nonneg (w 4); have s5 := mul_self_nonneg (w 5)
  have t1 : 0 ≤ l * (w 0 * w 0 + w 1 * w 1 + w 2 * w 2) := by positivity
  have t2 : 0 ≤ w 3 * w 3 + w 4 * w 4 + w 5 * w 5 := by positivity
  have z1 : l * (w 0 * w 0 + w 1 * w 1 + w 2 * w 2) = 0 := by linarith
  have z2 : w 3 * w 3 + w 4 * w 4 + w 5 * w 5 = 0 := by linarith
  have z3 : w 0 * w 0 + w 1 * w 1 + w 2 * w 2 = 0 := (mul_eq_zero.mp z1).resolve_left hl.ne'
  have h0 := mul_self_eq_zero.mp (show w 0 * w 0 = 0 by linarith)
  have h1 := mul_self_eq_zero.mp (show w 1 * w 1 = 0 by linarith)
  have h2 := mul_self_eq_zero.mp (show w 2 * w 2 = 0 by linarith)
  have h3 := mul_self_eq_zero.mp (show w 3 * w 3 = 0 by linarith)
  have h4 := mul_self_eq_zero.mp (show w 4 * w 4 = 0 by linarith)
  have h5 := mul_self_eq_zero.mp (show w 5 * w 5 = 0 by linarith)
  apply hw
  funext r
  fin_cases r <;> assumption

theorem C57_false : ¬ C57_claim := by
  intro H
  obtain ⟨c, x, fs', hc, hx, hcs, hd, hs⟩ := demo_modal_runs idealEnv
  have hcase : x.cases.get? "V" = some modalCase := by rw [hcs]; rfl
  have hapi : (World.init.run idealEnv demoCalls).api.model = demoModel c := by
    obtain ⟨c', hc', hrun⟩ := demo_run idealEnv
    rw [hc] at hc'
    cases hc'
    rw [hrun]; rfl
  have hF := (FreshInv_run idealEnv demoCalls (demo_noReadd idealEnv)).1
  have hfs : openAssembly [("f", (File.asb x : File Unit))] "f" = .ok x := rfl
  have hne : "f" ∉ ["0.k.npy", "0.m.npy", "V" ++ ".d" ++ ".npy", "V" ++ ".o" ++ ".npy"] := by decide
  have hwf : modalCase.restraint.WF := List.nodup_nil
  obtain ⟨r, rows, h1, h2, h3⟩ := H idealEnv pickEig pickEig_sound demoCalls (demo_noReadd _) _ rfl _ _ x hx _ fs' "f" "V" hfs hne modalCase
    hcase hwf ⟨3, none⟩ hs
  obtain ⟨lc', K, M, l, hc', hK, hM, hl, hfs'⟩ := solveEigen_ok hfs hs
  obtain ⟨modes, m1, m2, hlm⟩ := eigen_modes idealEnv hF pickEig pickEig_sound (fun t => t ≠ 0 ∧ t ≠ 1)
    (fun _ _ _ _ _ h p hp => ((pickEig_spec h).2 p hp).2) hx hcase hwf hK hM hl
  obtain ⟨modes', -, -, k3, r', k4, k5, -, -⟩ := C57_modes_partial idealEnv pickEig pickEig_sound demoCalls (demo_noReadd _) _ rfl _ _ x hx _ fs'
    "f" "V" hfs hne modalCase hcase hwf ⟨3, none⟩ hs
  rw [h1] at k4
  cases k4
  have hg : governing (World.init.run idealEnv demoCalls).api.model modalCase = (demoModel c).restraints := by rw [hapi]; rfl
  rw [hg] at m2 h3 hlm k3
  rw [hapi] at m2 h3 hlm k3
  have hrows : rows = modes.map fun p => freeValues (demoModel c) (demoModel c).restraints p.2 := by
    rw [hfs', Dict.get?_set_ne _ _ (dfile_ne_ofile "V").symm, Dict.get?_set_same, hlm] at h2
    simp only [Option.some.injEq, File.rows.injEq] at h2
    rw [← h2, List.map_map]
    rfl
  have homega : r.omega = modes.map fun p => p.1 := by
    have e : resolveModalFrequency fs' "f" "V" = .ok r := h1
    unfold resolveModalFrequency at e
    simp only [Except.bind_ok_iff] at e
    obtain ⟨_, -, e⟩ := e
    have e2 : "V" ++ ".o.npy" = "V" ++ ".o" ++ ".npy" := rfl
    rw [e2, hfs', Dict.get?_set_same, hlm] at e
    simp only [Except.pure_eq_ok, Except.ok.injEq] at e
    rw [← e]
    simp [List.map_map, Function.comp_def]
  have hlen : modes.length = 3 := by rw [m1, hd]; rfl
  cases modes with
  | nil => simp at hlen
  | cons p rest =>
    obtain ⟨⟨p0, p1⟩, hpA, ⟨n, hn, hpn⟩, hpm⟩ := m2 p List.mem_cons_self
    obtain ⟨-, -, u, ⟨hu1, hu2, hu3⟩, hu4⟩ := h3 0 p.1 (by rw [homega]; rfl)
    rw [hrows] at hu4
    simp only [List.map_cons, List.getElem?_cons_zero, Option.some.injEq, demo_freeValues] at hu4
    have hB : p.2 "B" = u "B" := List.ofFn_injective hu4
    have hA1 : p.2 "A" = 0 := funext fun r => hpA "A" (fun _ => true) rfl r rfl
    have hA2 : u "A" = 0 := funext fun r => hu1 "A" (fun _ => true) rfl r rfl
    have hnodes : ∀ n ∈ (demoModel c).nodes.keys, u n = p.2 n := by
      intro n hn
      have hn : n = "A" ∨ n = "B" := by simpa [demoModel, Dict.keys] using hn
      rcases hn with rfl | rfl
      · rw [hA1, hA2]
      · exact hB.symm
    have q1 := hpm p.2 hpA
    have q2 := hu3 p.2 hpA
    have hF' : FreshInv (demoApi c) := by
      obtain ⟨c', hc', hrun⟩ := demo_run idealEnv
      rw [hc] at hc'
      cases hc'
      rw [hrun] at hF
      exact hF
    have w1 : internalWork idealEnv (demoModel c) p.2 u = internalWork idealEnv (demoModel c) p.2 p.2 :=
      internalWork_congr idealEnv hF'.toApiInv (fun _ _ => rfl) hnodes
    have w2 : inertialWork (demoModel c) p.2 u = inertialWork (demoModel c) p.2 p.2 :=
      inertialWork_congr hF'.toApiInv (fun _ _ => rfl) hnodes
    rw [w1, w2, q1] at q2
    have hpos : 0 < inertialWork (demoModel c) p.2 p.2 := by
      obtain ⟨-, hl, -⟩ := lineCsys_ok hc
      have hBne : p.2 "B" ≠ 0 := by
        have hn : n = "A" ∨ n = "B" := by simpa [demoModel, Dict.keys] using hn
        rcases hn with rfl | rfl
        · exact absurd hA1 hpn
        · exact hpn
      rw [demo_inertia c _ _ hA1]
      simp only [Spec.trans, Spec.rot, V3.dot]
      exact inertia_pos (by linarith) _ hBne
    have : p.1 * (p.1 - 1) * inertialWork (demoModel c) p.2 p.2 = 0 := by linarith
    rcases mul_eq_zero.mp this with h | h
    · rcases mul_eq_zero.mp h with h | h
      · exact p0 h
      · exact p1 (by linarith)
    · exact hpos.ne' h

end Hyperstatic
