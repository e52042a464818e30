import Verif.Spec.Histories
import Verif.Props.Divergence
import Mathlib.Topology.Instances.Matrix

/-
C165: how the history of a direct time integration depends on the load curves.
-/

namespace Hyperstatic
open Matrix Spec

/-! ### C165 Histories superpose, do not anticipate their loads, and follow a delay -/

theorem foldlM_sum_of_ok {α M : Type} [AddCommMonoid M] (l : List α) (f : M → α → Except PyErr M) (g : α → M)
    (h : ∀ it ∈ l, ∀ acc r, f acc it = .ok r → r = acc + g it) (acc r : M) (hr : l.foldlM f acc = .ok r) : r = acc + (l.map g).sum := by
  induction l generalizing acc with
  | nil =>
    simp only [List.foldlM_nil, Except.pure_eq_ok, Except.ok.injEq] at hr
    simp [hr]
  | cons it l ih =>
    rw [List.foldlM_cons, Except.bind_ok_iff] at hr
    obtain ⟨a, h1, h2⟩ := hr
    rw [ih (fun it hit => h it (List.mem_cons_of_mem _ hit)) a h2, h it List.mem_cons_self acc a h1]
    simp [add_assoc]

theorem mapM_sum_of_ok {α β : Type} (l : List α) (F : α → Except PyErr (List β)) (φ : β → ℝ) (g : α → ℝ)
    (h : ∀ a ∈ l, ∀ r, F a = .ok r → (r.map φ).sum = g a) (rs : List (List β)) (hr : l.mapM F = .ok rs) :
    (rs.flatten.map φ).sum = (l.map g).sum := by
  induction l generalizing rs with
  | nil =>
    simp only [List.mapM_nil, Except.pure_eq_ok, Except.ok.injEq] at hr
    subst hr
    rfl
  | cons a l ih =>
    simp only [List.mapM_cons, Except.bind_ok_iff, Except.pure_eq_ok, Except.ok.injEq] at hr
    obtain ⟨r, h1, rs', h2, rfl⟩ := hr
    simp only [List.flatten_cons, List.map_append, List.sum_append, List.map_cons, List.sum_cons]
    rw [h a List.mem_cons_self r h1, ih (fun a ha => h a (List.mem_cons_of_mem _ ha)) rs' h2]

/-- the load that the pattern under a name puts on a node -/
def patLoad (heap : PatHeap) (lc : LoadCase) (p n : String) : Vec 6 :=
  (((lc.pattern.get? p).bind fun r => heap[r]?).bind fun q => q.nodalLoad.get? n).getD 0

/-- the load of a node at an instant -/
noncomputable def nodalAt (heap : PatHeap) (lc : LoadCase) (t : ℕ) (n : String) : Vec 6 :=
  (lc.loadFactor.map fun it => curveVal lc.loadCurve it.1 t • (it.2 • patLoad heap lc it.1 n)).sum

theorem getNodalF_value {heap : PatHeap} {lc : LoadCase} {n : String} {t : ℕ} {v : Vec 6} (h : lc.getNodalF heap n t = .ok v) :
    v = nodalAt heap lc t n := by
  unfold LoadCase.getNodalF at h
  have := foldlM_sum_of_ok _ _ (fun it => curveVal lc.loadCurve it.1 t • (it.2 • patLoad heap lc it.1 n)) ?_ _ _ h
  · rw [this]
    unfold nodalAt
    exact zero_add _
  · intro it _ acc r hr
    simp only [Except.bind_ok_iff] at hr
    obtain ⟨ref, h1, pat, h2, h3⟩ := hr
    rw [Dict.getItem_eq_ok_iff] at h1
    have h2' : heap[ref]? = some pat := by
      unfold PatHeap.deref at h2
      split at h2
      · rename_i q hq; cases h2; exact hq
      · cases h2
    have hp : patLoad heap lc it.1 n = (pat.nodalLoad.get? n).getD 0 := by
      unfold patLoad
      rw [h1, Option.bind_some, h2', Option.bind_some]
    rw [hp]
    unfold LoadPattern.getNodalF at h3
    cases hn : pat.nodalLoad.get? n with
    | none =>
      rw [hn] at h3
      simp only [Except.pure_eq_ok, Except.ok.injEq] at h3
      simp [h3]
    | some f =>
      rw [hn] at h3
      simp only [Except.bind_ok_iff, Except.pure_eq_ok, Except.ok.injEq] at h3
      obtain ⟨curve, k1, s, k2, rfl⟩ := h3
      rw [Dict.getItem_eq_ok_iff] at k1
      have hs : curveVal lc.loadCurve it.1 t = s := by
        unfold curveVal
        rw [k1, Option.bind_some]
        unfold LoadCase.curveAt at k2
        split at k2
        · rename_i v hv; cases k2; rw [hv]; rfl
        · cases k2
      rw [hs]
      congr 1
      funext i
      simp only [Option.getD_some, Pi.smul_apply, smul_eq_mul]
      ring

/-- what a node with a given load adds to an entry of the load vector -/
noncomputable def nodeShare (m : FeModel) (i : ℕ) (n : String) (F : Vec 6) : ℝ :=
  match m.nodes.get? n, m.getNodeHid n with
  | some nd, .ok hid => ∑ k : Fin 6, if hid * 6 + k.val = i then (nd.Tᵀ *ᵥ F) k else 0
  | _, _ => 0

theorem nodeShare_comb (m : FeModel) (i : ℕ) (n : String) (a b : ℝ) (F G : Vec 6) :
    nodeShare m i n (a • F + b • G) = a * nodeShare m i n F + b * nodeShare m i n G := by
  unfold nodeShare
  split
  · rw [Finset.mul_sum, Finset.mul_sum, ← Finset.sum_add_distrib]
    apply Finset.sum_congr rfl
    intro k _
    split
    · simp [mulVec_add, mulVec_smul]
    · simp
  · simp

theorem filter_sum (l : List (Fin 6)) (v : Vec 6) (hid i : ℕ) :
    (((l.filter fun k => decide (v k ≠ 0)).map fun k => ((hid * 6 + k.val, 0, v k) : ℕ × ℕ × ℝ)).map
      fun e => if e.1 = i ∧ e.2.1 = 0 then e.2.2 else 0).sum = (l.map fun k => if hid * 6 + k.val = i then v k else 0).sum := by
  induction l with
  | nil => rfl
  | cons k l ih =>
    by_cases h : v k = 0
    · rw [List.filter_cons_of_neg (by simp [h])]
      simp only [List.map_cons, List.sum_cons, h, ite_self, zero_add]
      exact ih
    · rw [List.filter_cons_of_pos (by simp [h])]
      simp only [List.map_cons, List.sum_cons]
      rw [ih]
      simp

theorem nodeTriplets_sum {x : Assembly} {lc : LoadCase} {t i : ℕ} {n : String} {l : List (ℕ × ℕ × ℝ)}
    (h : Assembly.nodeFTriplets x lc t n = .ok l) :
    (l.map fun e => if e.1 = i ∧ e.2.1 = 0 then e.2.2 else 0).sum = nodeShare x.model i n (nodalAt x.heap lc t n) := by
  unfold Assembly.nodeFTriplets at h
  simp only [Except.bind_ok_iff, Except.pure_eq_ok, Except.ok.injEq] at h
  obtain ⟨nd, h1, F, h2, hid, h3, rfl⟩ := h
  rw [Dict.getItem_eq_ok_iff] at h1
  rw [getNodalF_value h2, filter_sum]
  unfold nodeShare
  rw [h1, h3]
  rw [← List.ofFn_id, List.map_ofFn, List.sum_ofFn]
  rfl

/-- the load vector: the shares of the nodes and those of the beams -/
theorem load_split {x : Assembly} {c : String} {lc : LoadCase} (hc : x.cases.get? c = some lc) {t : ℕ} {f : Coo} (hf : x.assembleF c t = .ok f) :
    ∃ bs, x.model.beams.keys.mapM (Assembly.beamFTriplets x lc) = .ok bs ∧
      ∀ i, f.get i 0 = (x.model.nodes.keys.map fun n => nodeShare x.model i n (nodalAt x.heap lc t n)).sum +
        (bs.flatten.map fun e => if e.1 = i ∧ e.2.1 = 0 then e.2.2 else 0).sum := by
  unfold Assembly.assembleF at hf
  rw [Dict.getItem_of_some hc, Except.bind_ok] at hf
  simp only [Except.bind_ok_iff] at hf
  obtain ⟨ns, hns, bs, hbs, hK⟩ := hf
  rw [Coo.mk?_ok_iff] at hK
  obtain ⟨rfl, -⟩ := hK
  refine ⟨bs, hbs, ?_⟩
  intro i
  unfold Coo.get
  simp only [List.map_append, List.sum_append]
  rw [mapM_sum_of_ok _ _ (fun e => if e.1 = i ∧ e.2.1 = 0 then e.2.2 else 0) _ (fun n _ r hr => nodeTriplets_sum (i := i) hr) ns hns]

/-- without loads on beams their shares are zero -/
theorem beams_silent {x : Assembly} {lc : LoadCase} (hs : NodalOnly x.heap lc) {bs : List (List (ℕ × ℕ × ℝ))} {l : List String}
    (hbs : l.mapM (Assembly.beamFTriplets x lc) = .ok bs) (i : ℕ) :
    (bs.flatten.map fun e => if e.1 = i ∧ e.2.1 = 0 then e.2.2 else 0).sum = 0 := by
  rw [mapM_sum_of_ok _ _ (fun e => if e.1 = i ∧ e.2.1 = 0 then e.2.2 else 0) (fun _ => 0) ?_ bs hbs]
  · simp
  · intro b _ r hr
    unfold Assembly.beamFTriplets at hr
    simp only [Except.bind_ok_iff, Except.pure_eq_ok, Except.ok.injEq] at hr
    obtain ⟨⟨i', j'⟩, -, be, -, re, h1, K, -, rfl⟩ := hr
    have hre : re = 0 := by
      unfold LoadCase.getBeamF at h1
      have := foldlM_sum_of_ok _ _ (fun _ => (0 : Vec 12)) ?_ _ _ h1
      · rw [this]
        simp
        rfl
      · intro it _ acc r hr
        simp only [Except.bind_ok_iff, Except.pure_eq_ok, Except.ok.injEq] at hr
        obtain ⟨ref, k1, pat, k2, rfl⟩ := hr
        rw [Dict.getItem_eq_ok_iff] at k1
        have k2' : x.heap[ref]? = some pat := by
          unfold PatHeap.deref at k2
          split at k2
          · rename_i q hq; cases k2; exact hq
          · cases k2
        obtain ⟨e1, e2⟩ := hs _ _ _ k1 k2'
        have : pat.getBeamF b be.length = 0 := by
          unfold LoadPattern.getBeamF
          rw [e1, e2]
          rfl
        rw [this]
        congr 1
        funext i
        simp
    have hz : staticCondensateF be.releases re K = 0 := by
      rw [hre]
      unfold staticCondensateF
      have : ∀ (l : List (Fin 12)), l.foldl (fun (r_ : Vec 12) n => if be.releases n then (fun j => (0 : Vec 12) j - (0 : Vec 12) n * K n j / K n n) else r_) 0 = 0 := by
        intro l
        induction l with
        | nil => rfl
        | cons a l ih =>
          rw [List.foldl_cons]
          have e : (if be.releases a then (fun j => (0 : Vec 12) j - (0 : Vec 12) a * K a j / K a a) else (0 : Vec 12)) = 0 := by
            split
            · funext j; simp
            · rfl
          rw [e]
          exact ih
      exact this _
    rw [hz]
    simp

/-- what a saved history satisfies: its recurrence and its loads -/
theorem saves_core {env : Env} {dyn : DynEnv} (hdyn : dyn.CgSound) {m : FeModel} {heap : PatHeap} {lc : LoadCase} {s : DirectSetting}
    (hreg : RegularStep env m heap lc s) : ∃ (n : ℕ) (L R S : Matrix (Fin n) (Fin n) ℝ) (fr : List ℕ),
    (∀ z, L *ᵥ z = 0 → z = 0) ∧ ∀ curves rows, Saves env dyn m heap lc s curves rows →
    ∃ (T : ℕ) (U F : ℕ → Vec n) (bs : List (List (ℕ × ℕ × ℝ))), rows = (List.range (T + 1)).map (fun t => List.ofFn (U t)) ∧ U 0 = 0 ∧
      (0 < T → m.beams.keys.mapM (fun b => Assembly.beamFTriplets ⟨m, [], heap, 0, []⟩ lc b) = .ok bs) ∧ ∀ t < T,
        L *ᵥ U (t + 1) + R *ᵥ (if t < 1 then 0 else U (t - 1)) + S *ᵥ (if t < 2 then 0 else U (t - 2)) = F t ∧
        ∀ j : Fin n, F t j = (m.nodes.keys.map fun nd => nodeShare m (fr.getD j.val 0) nd (nodalAt heap (withCurves lc curves) t nd)).sum +
          (bs.flatten.map fun e => if e.1 = fr.getD j.val 0 ∧ e.2.1 = 0 then e.2.2 else 0).sum := by
  by_cases hex : ∃ curves rows, Saves env dyn m heap lc s curves rows
  · obtain ⟨c0, r0, x0, f0, hx0, hs0, -⟩ := hex
    obtain ⟨hm0, hh0, hfix0, -⟩ := mk_assembly hx0
    obtain ⟨l0, K, M, K_, M_, C_, u, hc0, hK, hM, hK_, hM_, hC_, -, -⟩ := solveDirect_ok (x := x0) rfl hs0
    have hcases : ∀ {curves : Dict (List ℝ)} {x : Assembly}, Assembly.mk? m [withCurves lc curves] heap = .ok x →
        x.cases.get? lc.name = some (withCurves lc curves) := by
      intro curves x hx
      unfold Assembly.mk? at hx
      simp only [Except.bind_ok_iff, Except.pure_eq_ok, Except.ok.injEq] at hx
      obtain ⟨fixed, -, rfl⟩ := hx
      simp [Dict.set, Dict.get?, withCurves]
    have hdofs : ∀ {curves : Dict (List ℝ)} {x : Assembly}, Assembly.mk? m [withCurves lc curves] heap = .ok x →
        x.boundaryDofs lc.name = x0.boundaryDofs lc.name := by
      intro curves x hx
      obtain ⟨hm, -, hfix, -⟩ := mk_assembly hx
      unfold Assembly.boundaryDofs
      rw [Dict.getItem_of_some (hcases hx), Dict.getItem_of_some (hcases hx0), Except.bind_ok, Except.bind_ok, hm, hm0]
      have e : x.fixedDof = x0.fixedDof := by
        exact Except.ok.inj (hfix.symm.trans hfix0)
      rw [e]
      rfl
    have hKx : ∀ {x : Assembly}, x.model = m → x.assembleK env = .ok K := by
      intro x hx
      rw [← hK]
      unfold Assembly.assembleK
      rw [hx, hm0]
    have hMx : ∀ {x : Assembly}, x.model = m → x.assembleM = .ok M := by
      intro x hx
      rw [← hM]
      unfold Assembly.assembleM
      rw [hx, hm0]
    have hbx : ∀ {curves : Dict (List ℝ)} {x : Assembly}, Assembly.mk? m [withCurves lc curves] heap = .ok x → ∀ A B,
        x0.boundaryMatrix lc.name A = .ok B → x.boundaryMatrix lc.name A = .ok B := by
      intro curves x hx A B h
      unfold Assembly.boundaryMatrix at h ⊢
      rw [hdofs hx]
      exact h
    obtain ⟨fixed, hfx⟩ : ∃ fixed, x0.boundaryDofs lc.name = .ok fixed := by
      unfold Assembly.boundaryMatrix at hK_
      simp only [Except.bind_ok_iff] at hK_
      obtain ⟨fixed, h, -⟩ := hK_
      exact ⟨fixed, h⟩
    have hxl : ∃ x, Assembly.mk? m [lc] heap = .ok x := by
      unfold Assembly.mk?
      rw [hfix0, Except.bind_ok]
      exact ⟨_, rfl⟩
    obtain ⟨xl, hxl⟩ := hxl
    have hself : withCurves lc lc.loadCurve = lc := rfl
    have hml := (mk_assembly hxl).1
    have hinj := hreg xl K M K_ M_ C_ hxl (hKx hml) (hMx hml) (hbx (by rw [hself]; exact hxl) _ _ hK_) (hbx (by rw [hself]; exact hxl) _ _ hM_)
      (hbx (by rw [hself]; exact hxl) _ _ hC_)
    refine ⟨K_.nrow, _, K_.dense K_.nrow - (2 / s.stepSize ^ 2) • M_.dense K_.nrow,
      (1 / s.stepSize ^ 2) • M_.dense K_.nrow - (1 / (2 * s.stepSize)) • C_.dense K_.nrow, free (m.nodeCount * 6) fixed, hinj, ?_⟩
    rintro curves rows ⟨x, fs', hx, hs, hrows⟩
    obtain ⟨hm, hh, -, -⟩ := mk_assembly hx
    obtain ⟨lc', T, U, g1, -, g3, g4, g5⟩ := C58_recurrence_partial env dyn hdyn [("f", (File.asb x : File Unit))] fs' "f" lc.name x rfl s hs K M K_ M_ C_
      (hKx hm) (hMx hm) (hbx hx _ _ hK_) (hbx hx _ _ hM_) (hbx hx _ _ hC_) hinj
    rw [hrows] at g3
    cases g3
    have hbeam : ∀ b, Assembly.beamFTriplets x (withCurves lc curves) b = Assembly.beamFTriplets ⟨m, [], heap, 0, []⟩ lc b := by
      intro b
      unfold Assembly.beamFTriplets
      rw [hm, hh]
      rfl
    have hstep : ∀ t < T, ∃ (bs : List (List (ℕ × ℕ × ℝ))) (fv : Vec K_.nrow),
        m.beams.keys.mapM (fun b => Assembly.beamFTriplets ⟨m, [], heap, 0, []⟩ lc b) = .ok bs ∧
        ((1 / s.stepSize ^ 2) • M_.dense K_.nrow + (1 / (2 * s.stepSize)) • C_.dense K_.nrow) *ᵥ U (t + 1) +
            (K_.dense K_.nrow - (2 / s.stepSize ^ 2) • M_.dense K_.nrow) *ᵥ (if t < 1 then 0 else U (t - 1)) +
            ((1 / s.stepSize ^ 2) • M_.dense K_.nrow - (1 / (2 * s.stepSize)) • C_.dense K_.nrow) *ᵥ (if t < 2 then 0 else U (t - 2)) = fv ∧
        ∀ j : Fin K_.nrow, fv j = (m.nodes.keys.map fun nd => nodeShare m ((free (m.nodeCount * 6) fixed).getD j.val 0) nd
            (nodalAt heap (withCurves lc curves) t nd)).sum +
          (bs.flatten.map fun e => if e.1 = (free (m.nodeCount * 6) fixed).getD j.val 0 ∧ e.2.1 = 0 then e.2.2 else 0).sum := by
      intro t ht
      obtain ⟨-, f, f_, k1, k2, fv, k3, -, k4⟩ := g5 t ht
      obtain ⟨bs, hbs, hget⟩ := load_split (hcases hx) k1
      rw [hm] at hbs hget
      rw [hh] at hget
      refine ⟨bs, fv, ?_, k4, ?_⟩
      · rw [← hbs]
        congr 1
        funext b
        exact (hbeam b).symm
      · intro j
        obtain ⟨fr, -, -⟩ := assembleF_shape k1
        rw [hm] at fr
        have k5 : f_ = (free (m.nodeCount * 6) fixed).map fun i => f.get i 0 := by
          unfold Assembly.boundaryVector at k2
          rw [hdofs hx, hfx, Except.bind_ok, dropVector_eq, fr] at k2
          cases k2
          rfl
        have k6 := congrArg (fun l => l[j.val]?) (k3.trans k5)
        have hlen : j.val < (free (m.nodeCount * 6) fixed).length := by
          have := congrArg List.length (k3.trans k5)
          simp only [List.length_ofFn, List.length_map] at this
          have := j.isLt
          omega
        simp only [List.getElem?_map, List.getElem?_eq_getElem hlen, Option.map_some] at k6
        rw [List.getElem?_eq_getElem (by simp)] at k6
        simp only [List.getElem_ofFn, Option.some.injEq, Fin.eta] at k6
        rw [k6, hget]
        have e : (free (m.nodeCount * 6) fixed).getD j.val 0 = (free (m.nodeCount * 6) fixed)[j.val] := by
          rw [List.getD_eq_getElem?_getD, List.getElem?_eq_getElem hlen]
          rfl
        rw [e]
    by_cases hT : 0 < T
    · obtain ⟨bs, -, hbs, -, -⟩ := hstep 0 hT
      refine ⟨T, U, fun t => if h : t < T then (hstep t h).choose_spec.choose else 0, bs, rfl, g4, fun _ => hbs, ?_⟩
      intro t ht
      obtain ⟨p1, p2, p3⟩ := (hstep t ht).choose_spec.choose_spec
      have : (hstep t ht).choose = bs := Except.ok.inj (p1.symm.trans hbs)
      simp only [dif_pos ht]
      refine ⟨p2, ?_⟩
      intro j
      rw [← this]
      exact p3 j
    · exact ⟨T, U, fun _ => 0, [], rfl, g4, fun h => absurd h hT, fun t ht => absurd ht (by omega)⟩
  · refine ⟨0, 0, 0, 0, [], fun z _ => Subsingleton.elim _ _, ?_⟩
    intro curves rows h
    exact absurd ⟨curves, rows, h⟩ hex

theorem nodalAt_comb {heap : PatHeap} {lc : LoadCase} {A B D : Dict (List ℝ)} {a b : ℝ} {t t' : ℕ}
    (h : ∀ p, curveVal D p t = a * curveVal A p t' + b * curveVal B p t') (n : String) :
    nodalAt heap (withCurves lc D) t n = a • nodalAt heap (withCurves lc A) t' n + b • nodalAt heap (withCurves lc B) t' n := by
  unfold nodalAt
  have e : ∀ X : Dict (List ℝ), (withCurves lc X).loadFactor = lc.loadFactor ∧ (withCurves lc X).loadCurve = X ∧
      ∀ p, patLoad heap (withCurves lc X) p n = patLoad heap lc p n := fun X => ⟨rfl, rfl, fun _ => rfl⟩
  simp only [(e _).1, (e _).2.1, (e _).2.2]
  rw [List.smul_sum, List.smul_sum, List.map_map, List.map_map, ← List.sum_map_add]
  congr 1
  apply List.map_congr_left
  intro it _
  simp only [Function.comp, h]
  rw [add_smul, mul_smul, mul_smul]

theorem rows_get {n T t : ℕ} {U : ℕ → Vec n} {r : List ℝ} (h : ((List.range (T + 1)).map fun t => List.ofFn (U t))[t]? = some r) :
    t ≤ T ∧ r = List.ofFn (U t) := by
  rw [List.getElem?_map, Option.map_eq_some_iff] at h
  obtain ⟨k, h1, h2⟩ := h
  rw [List.getElem?_eq_some_iff] at h1
  obtain ⟨h3, h4⟩ := h1
  rw [List.getElem_range] at h4
  subst h4
  rw [List.length_range] at h3
  exact ⟨by omega, h2.symm⟩

/-- Superposition: when up to some instant the curves of a third analysis are a combination of those of two others, so are its displacements;
the loads on beams, which follow no curve, must be absent or the weights add up to one. -/
theorem C165_superposition_partial (env : Env) (dyn : DynEnv) (hdyn : dyn.CgSound) (m : FeModel) (heap : PatHeap) (lc : LoadCase) (s : DirectSetting)
    (hreg : RegularStep env m heap lc s) (A B D : Dict (List ℝ)) (rowsA rowsB rowsD : List (List ℝ))
    (hA : Saves env dyn m heap lc s A rowsA) (hB : Saves env dyn m heap lc s B rowsB) (hD : Saves env dyn m heap lc s D rowsD)
    (a b : ℝ) (hab : a + b = 1 ∨ NodalOnly heap lc) (T : ℕ)
    (hlin : ∀ p, ∀ t < T, curveVal D p t = a * curveVal A p t + b * curveVal B p t) :
    ∀ t ≤ T, ∀ u v w, rowsA[t]? = some u → rowsB[t]? = some v → rowsD[t]? = some w → w = List.zipWith (fun y z => a * y + b * z) u v := by
  obtain ⟨n, L, R, S, fr, hinj, hcore⟩ := saves_core hdyn hreg
  obtain ⟨TA, UA, FA, bA, rfl, zA, lA, sA⟩ := hcore A rowsA hA
  obtain ⟨TB, UB, FB, bB, rfl, zB, lB, sB⟩ := hcore B rowsB hB
  obtain ⟨TD, UD, FD, bD, rfl, zD, lD, sD⟩ := hcore D rowsD hD
  have key : ∀ t, t ≤ T → t ≤ TA → t ≤ TB → t ≤ TD → UD t = a • UA t + b • UB t := by
    intro t
    induction t using Nat.strong_induction_on with
    | _ t ih =>
      intro h1 h2 h3 h4
      cases t with
      | zero => rw [zA, zB, zD]; simp
      | succ t =>
        obtain ⟨pA, qA⟩ := sA t (by omega)
        obtain ⟨pB, qB⟩ := sB t (by omega)
        obtain ⟨pD, qD⟩ := sD t (by omega)
        have eA : bA = bD := Except.ok.inj ((lA (by omega)).symm.trans (lD (by omega)))
        have eB : bB = bD := Except.ok.inj ((lB (by omega)).symm.trans (lD (by omega)))
        have hF : FD t = a • FA t + b • FB t := by
          funext j
          rw [Pi.add_apply, Pi.smul_apply, Pi.smul_apply, qA, qB, qD, eA, eB, smul_eq_mul, smul_eq_mul]
          have e1 : (m.nodes.keys.map fun nd => nodeShare m (fr.getD j.val 0) nd (nodalAt heap (withCurves lc D) t nd)).sum =
              a * (m.nodes.keys.map fun nd => nodeShare m (fr.getD j.val 0) nd (nodalAt heap (withCurves lc A) t nd)).sum +
              b * (m.nodes.keys.map fun nd => nodeShare m (fr.getD j.val 0) nd (nodalAt heap (withCurves lc B) t nd)).sum := by
            rw [← List.sum_map_mul_left, ← List.sum_map_mul_left, ← List.sum_map_add]
            congr 1
            apply List.map_congr_left
            intro nd _
            rw [nodalAt_comb (fun p => hlin p t (by omega)) nd, nodeShare_comb]
          rw [e1]
          have e2 : (bD.flatten.map fun e => if e.1 = fr.getD j.val 0 ∧ e.2.1 = 0 then e.2.2 else 0).sum =
              (a + b) * (bD.flatten.map fun e => if e.1 = fr.getD j.val 0 ∧ e.2.1 = 0 then e.2.2 else 0).sum := by
            rcases hab with h | h
            · rw [h, one_mul]
            · rw [beams_silent (x := ⟨m, [], heap, 0, []⟩) h (lD (by omega)) (fr.getD j.val 0), mul_zero]
          linear_combination e2
        have i1 : (if t < 1 then 0 else UD (t - 1)) = a • (if t < 1 then 0 else UA (t - 1)) + b • (if t < 1 then 0 else UB (t - 1)) := by
          split
          · simp
          · exact ih (t - 1) (by omega) (by omega) (by omega) (by omega) (by omega)
        have i2 : (if t < 2 then 0 else UD (t - 2)) = a • (if t < 2 then 0 else UA (t - 2)) + b • (if t < 2 then 0 else UB (t - 2)) := by
          split
          · simp
          · exact ih (t - 2) (by omega) (by omega) (by omega) (by omega) (by omega)
        rw [← sub_eq_zero]
        apply hinj
        rw [i1, i2, hF, ← pA, ← pB] at pD
        simp only [mulVec_sub, mulVec_add, mulVec_smul, smul_add] at pD ⊢
        rw [sub_eq_zero]
        have := sub_eq_zero.mpr pD
        rw [← sub_eq_zero, ← this]
        abel
  intro t ht u v w hu hv hw
  obtain ⟨h1, rfl⟩ := rows_get hu
  obtain ⟨h2, rfl⟩ := rows_get hv
  obtain ⟨h3, rfl⟩ := rows_get hw
  rw [key t ht h1 h2 h3]
  apply List.ext_getElem
  · simp
  · intro i i1 i2
    simp

/-- No anticipation: when two sets of curves agree before an instant, the displacements agree up to it, whatever the lengths of the analyses. -/
theorem C165_causal (env : Env) (dyn : DynEnv) (hdyn : dyn.CgSound) (m : FeModel) (heap : PatHeap) (lc : LoadCase) (s : DirectSetting)
    (hreg : RegularStep env m heap lc s) (A D : Dict (List ℝ)) (rowsA rowsD : List (List ℝ))
    (hA : Saves env dyn m heap lc s A rowsA) (hD : Saves env dyn m heap lc s D rowsD) (T : ℕ)
    (heq : ∀ p, ∀ t < T, curveVal D p t = curveVal A p t) :
    ∀ t ≤ T, ∀ u w, rowsA[t]? = some u → rowsD[t]? = some w → w = u := by
  intro t ht u w hu hw
  rw [C165_superposition_partial env dyn hdyn m heap lc s hreg A A D rowsA rowsA rowsD hA hA hD 1 0 (Or.inl (by norm_num)) T
    (fun p t ht => by rw [heq p t ht]; ring) t ht u u w hu hu hw]
  apply List.ext_getElem
  · simp
  · intro i i1 i2
    simp

/-- Delay: when the curves come `k` instants later, so do the displacements, and until then the structure rests. -/
theorem C165_delay (env : Env) (dyn : DynEnv) (hdyn : dyn.CgSound) (m : FeModel) (heap : PatHeap) (lc : LoadCase) (s : DirectSetting)
    (hreg : RegularStep env m heap lc s) (A D : Dict (List ℝ)) (rowsA rowsD : List (List ℝ))
    (hA : Saves env dyn m heap lc s A rowsA) (hD : Saves env dyn m heap lc s D rowsD) (hnode : NodalOnly heap lc) (k : ℕ)
    (hrest : ∀ p, ∀ t < k, curveVal D p t = 0) (hlate : ∀ p t, curveVal D p (t + k) = curveVal A p t) :
    (∀ t ≤ k, ∀ w, rowsD[t]? = some w → ∀ y ∈ w, y = 0) ∧
    ∀ t u w, rowsA[t]? = some u → rowsD[t + k]? = some w → w = u := by
  obtain ⟨n, L, R, S, fr, hinj, hcore⟩ := saves_core hdyn hreg
  obtain ⟨TA, UA, FA, bA, rfl, zA, lA, sA⟩ := hcore A rowsA hA
  obtain ⟨TD, UD, FD, bD, rfl, zD, lD, sD⟩ := hcore D rowsD hD
  have silent : 0 < TD → ∀ i, (bD.flatten.map fun e => if e.1 = i ∧ e.2.1 = 0 then e.2.2 else 0).sum = 0 :=
    fun h i => beams_silent (x := ⟨m, [], heap, 0, []⟩) hnode (lD h) i
  have key : ∀ t, t ≤ TD → t ≤ TA + k → UD t = if t < k then 0 else UA (t - k) := by
    intro t
    induction t using Nat.strong_induction_on with
    | _ t ih =>
      intro h1 h2
      cases t with
      | zero =>
        rw [zD]
        split
        · rfl
        · rw [Nat.zero_sub, zA]
      | succ t =>
        obtain ⟨pD, qD⟩ := sD t (by omega)
        by_cases hk : t < k
        · have hF : FD t = 0 := by
            funext j
            rw [qD, silent (by omega), add_zero]
            have : ∀ nd, nodalAt heap (withCurves lc D) t nd = 0 := by
              intro nd
              rw [nodalAt_comb (A := D) (B := D) (a := 0) (b := 0) (t' := t) (fun p => by rw [hrest p t hk]; ring) nd]
              simp
            have e : (m.nodes.keys.map fun nd => nodeShare m (fr.getD j.val 0) nd (nodalAt heap (withCurves lc D) t nd)) =
                m.nodes.keys.map fun _ => (0 : ℝ) := by
              apply List.map_congr_left
              intro nd _
              have := nodeShare_comb m (fr.getD j.val 0) nd 0 0 0 0
              simp only [smul_zero, add_zero, zero_mul] at this
              rw [‹∀ nd, nodalAt heap (withCurves lc D) t nd = 0› nd]
              exact this
            rw [e]
            simp
          have i1 : (if t < 1 then 0 else UD (t - 1)) = 0 := by
            split
            · rfl
            · rw [ih (t - 1) (by omega) (by omega) (by omega), if_pos (by omega)]
          have i2 : (if t < 2 then 0 else UD (t - 2)) = 0 := by
            split
            · rfl
            · rw [ih (t - 2) (by omega) (by omega) (by omega), if_pos (by omega)]
          rw [i1, i2, hF, mulVec_zero, mulVec_zero, add_zero, add_zero] at pD
          rw [hinj _ pD]
          split
          · rfl
          · rw [show t + 1 - k = 0 by omega, zA]
        · obtain ⟨pA, qA⟩ := sA (t - k) (by omega)
          have eA : bA = bD := Except.ok.inj ((lA (by omega)).symm.trans (lD (by omega)))
          have hF : FD t = FA (t - k) := by
            funext j
            rw [qD, qA, eA]
            congr 2
            apply List.map_congr_left
            intro nd _
            rw [nodalAt_comb (A := A) (B := A) (a := 1) (b := 0) (t := t) (t' := t - k)
              (fun p => by have := hlate p (t - k); rw [Nat.sub_add_cancel (by omega)] at this; rw [this]; ring) nd]
            simp
          have i1 : (if t < 1 then 0 else UD (t - 1)) = if t - k < 1 then 0 else UA (t - k - 1) := by
            by_cases h : t < 1
            · rw [if_pos h, if_pos (by omega)]
            · rw [if_neg h, ih (t - 1) (by omega) (by omega) (by omega)]
              by_cases h' : t - k < 1
              · rw [if_pos h', if_pos (by omega)]
              · rw [if_neg h', if_neg (by omega), show t - 1 - k = t - k - 1 by omega]
          have i2 : (if t < 2 then 0 else UD (t - 2)) = if t - k < 2 then 0 else UA (t - k - 2) := by
            by_cases h : t < 2
            · rw [if_pos h, if_pos (by omega)]
            · rw [if_neg h, ih (t - 2) (by omega) (by omega) (by omega)]
              by_cases h' : t - k < 2
              · rw [if_pos h']
                split
                · rfl
                · rw [show t - 2 - k = 0 by omega, zA]
              · rw [if_neg h', if_neg (by omega), show t - 2 - k = t - k - 2 by omega]
          rw [if_neg (by omega), ← sub_eq_zero]
          apply hinj
          rw [i1, i2, hF, ← pA] at pD
          rw [show t + 1 - k = t - k + 1 by omega, mulVec_sub, sub_eq_zero]
          exact add_right_cancel (add_right_cancel pD)
  refine ⟨?_, ?_⟩
  · intro t ht w hw y hy
    obtain ⟨h1, rfl⟩ := rows_get hw
    have := key t h1 (by omega)
    have h0 : UD t = 0 := by
      rw [this]
      split
      · rfl
      · rw [show t - k = 0 by omega, zA]
    rw [h0] at hy
    obtain ⟨i, rfl⟩ := (List.mem_ofFn' _ _).mp hy
    rfl
  · intro t u w hu hw
    obtain ⟨h1, rfl⟩ := rows_get hu
    obtain ⟨h2, rfl⟩ := rows_get hw
    rw [key (t + k) h2 (by omega), if_neg (by omega), Nat.add_sub_cancel]

/-- Concrete case: the tapped mass of C164 meets the hypotheses, for every number of instants and every step size. -/
example (T : ℕ) (h : ℝ) (hh : 0 < h) : NodalOnly pushHeap (tapCase T) ∧
    RegularStep idealEnv massModel pushHeap (tapCase T) ⟨h, 0.05, none⟩ ∧
    ∃ rows, Saves idealEnv exactCg massModel pushHeap (tapCase T) ⟨h, 0.05, none⟩ (tapCase T).loadCurve rows := by
  obtain ⟨fs', K, M, K_, M_, C_, hrun, k1, k2, k3, k4, k5, hinj⟩ := tap_runs T h hh
  refine ⟨?_, ?_, ?_⟩
  · intro p r pat hp hr
    have hp' : Dict.get? [("P", 0)] p = some r := hp
    rw [Dict.get?] at hp'
    split at hp'
    · cases hp'
      cases hr
      exact ⟨rfl, rfl⟩
    · simp at hp'
  · intro x K' M' K_' M_' C_' hx h1 h2 h3 h4 h5
    rw [tap_mk] at hx
    cases hx
    have hnm : (tapCase T).name = "H" := rfl
    rw [hnm] at h3 h4 h5
    rw [k1] at h1; cases h1
    rw [k2] at h2; cases h2
    rw [k3] at h3; cases h3
    rw [k4] at h4; cases h4
    rw [k5] at h5; cases h5
    exact hinj
  · obtain ⟨-, T', U, -, -, g3, -⟩ := C58_recurrence_partial idealEnv exactCg exactCg_sound [("f", (File.asb (tapAsb T) : File Unit))] fs'
      "f" "H" (tapAsb T) rfl ⟨h, 0.05, none⟩ hrun K M K_ M_ C_ k1 k2 k3 k4 k5 hinj
    exact ⟨_, tapAsb T, fs', rfl, hrun, g3⟩

/-- The property in full: multiplying the load curves by a number multiplies the history by it, whatever the loads. -/
def C165_claim : Prop :=
  ∀ (env : Env) (dyn : DynEnv), dyn.CgSound → ∀ cs : List Call, NoReadd env World.init cs → ∀ (heap : PatHeap) (lc : LoadCase) (s : DirectSetting),
    RegularStep env (World.init.run env cs).api.model heap lc s → ∀ (A D : Dict (List ℝ)) (rowsA rowsD : List (List ℝ)),
    Saves env dyn (World.init.run env cs).api.model heap lc s A rowsA → Saves env dyn (World.init.run env cs).api.model heap lc s D rowsD →
    ∀ a : ℝ, (∀ p t, curveVal D p t = a * curveVal A p t) → ∀ (t : ℕ) (u w : List ℝ), rowsA[t]? = some u → rowsD[t]? = some w → w = u.map (a * ·)

/-- an axial line load on the beam of the example, with a given curve -/
def windHeap : PatHeap := [⟨"P", [], [], [("b", ![1, 0, 0, 0, 0, 0, 1, 0, 0, 0, 0, 0])], []⟩]
def windCase (cv : List ℝ) : LoadCase := ⟨"H", .timeHistory, [("P", 0)], [("P", 1)], [("P", cv)], []⟩
def windAsb (c : Csys) (cv : List ℝ) : Assembly := ⟨demoModel c, [("H", windCase cv)], windHeap, 6, [0, 1, 2, 3, 4, 5]⟩

theorem wind_mk (c : Csys) (cv : List ℝ) : Assembly.mk? (demoModel c) [windCase cv] windHeap = .ok (windAsb c cv) := rfl
theorem wind_dofs (c : Csys) (cv : List ℝ) : (windAsb c cv).boundaryDofs "H" = .ok [0, 1, 2, 3, 4, 5] := rfl

theorem wind_inv : CaseInv windHeap "H" (windCase [1, 1]) where
  name_eq := rfl
  factor_wf := by simp [windCase, Dict.WF, Dict.keys]
  pattern_keys := rfl
  curve_keys := rfl
  curve_eq := by
    intro p cv h
    have h' : Dict.get? [("P", [(1 : ℝ), 1])] p = some cv := h
    rw [Dict.get?] at h'
    split at h'
    · cases h'; rfl
    · simp at h'
  refs := by
    intro p r h
    have h' : Dict.get? [("P", 0)] p = some r := h
    rw [Dict.get?] at h'
    split at h'
    · rename_i e
      cases h'
      exact ⟨_, rfl, e⟩
    · simp at h'
  rest_wf := by simp [windCase, Dict.WF, Dict.keys]

/-- the curve of a pattern with loads on beams only is not looked at -/
theorem wind_same (c : Csys) (cv cv' : List ℝ) (t t' : ℕ) : (windAsb c cv).assembleF "H" t = (windAsb c cv').assembleF "H" t' := by
  have hn : ∀ cv t n, (windCase cv).getNodalF windHeap n t = .ok (fun _ => 0) := by
    intro cv t n
    unfold LoadCase.getNodalF
    rw [show (windCase cv).loadFactor = [("P", 1)] from rfl, List.foldlM_cons]
    rfl
  unfold Assembly.assembleF
  have h1 : ∀ cv, (windAsb c cv).cases.getItem "H" = .ok (windCase cv) := fun _ => rfl
  rw [h1, h1, Except.bind_ok, Except.bind_ok]
  have e1 : Assembly.nodeFTriplets (windAsb c cv) (windCase cv) t = Assembly.nodeFTriplets (windAsb c cv') (windCase cv') t' := by
    funext n
    unfold Assembly.nodeFTriplets
    have : ∀ cv, (windAsb c cv).heap = windHeap := fun _ => rfl
    simp only [this, hn]
    rfl
  rw [e1]
  rfl

theorem free_demo : free 12 [0, 1, 2, 3, 4, 5] = [6, 7, 8, 9, 10, 11] := rfl

/-- the matrices of the example -/
theorem wind_forms (env : Env) {c : Csys} (hF : FreshInv (demoApi c)) : ∃ K M K_ M_ C_ : Coo, ∀ cv, (windAsb c cv).assembleK env = .ok K ∧
    (windAsb c cv).assembleM = .ok M ∧ (windAsb c cv).boundaryMatrix "H" K = .ok K_ ∧ (windAsb c cv).boundaryMatrix "H" M = .ok M_ ∧
    (windAsb c cv).boundaryMatrix "H" (rayleighC K M) = .ok C_ ∧ K_.nrow = 6 ∧ ∀ v, M_.dense K_.nrow *ᵥ v = 0 → v = 0 := by
  have hm : ∀ cv, (windAsb c cv).model = (demoApi c).model := fun _ => rfl
  have hfix : restraintDofs (demoModel c) (demoModel c).restraints = .ok [0, 1, 2, 3, 4, 5] := rfl
  obtain ⟨K, hK⟩ := (assembleK_ok_iff env hF (hm [])).mpr (demo_mu c)
  obtain ⟨M, hM⟩ := assembleM_ok hF (hm [])
  obtain ⟨hnd, hlt⟩ := restraintDofs_nodup hF hF.toApiInv.rest_wf hfix
  obtain ⟨kr, kc, kents⟩ := assembleK_range hK
  obtain ⟨mr, mc, ments⟩ := assembleM_range hM
  rw [hm] at kr kc mr mc
  obtain ⟨K_, hK'⟩ := dropMatrix_ok hnd (kr.trans kc.symm) (by rw [kr]; exact hlt) kents
  obtain ⟨M_, hM'⟩ := dropMatrix_ok hnd (mr.trans mc.symm) (by rw [mr]; exact hlt) ments
  have cents : ∀ e ∈ (rayleighC K M).ents, e.1 < (rayleighC K M).nrow ∧ e.2.1 < (rayleighC K M).ncol := by
    intro e he
    have e1 : (rayleighC K M).nrow = M.nrow := rfl
    have e2 : (rayleighC K M).ncol = M.ncol := rfl
    rw [e1, e2]
    unfold rayleighC at he
    simp only [List.mem_append, List.mem_map] at he
    rcases he with ⟨q, hq, rfl⟩ | ⟨q, hq, rfl⟩
    · exact ments q hq
    · have := kents q hq
      rw [mr, mc, ← kr]
      exact ⟨this.1, by rw [kr, ← kc]; exact this.2⟩
  obtain ⟨C_, hC'⟩ := dropMatrix_ok (K := rayleighC K M) hnd (mr.trans mc.symm) (by show ∀ i ∈ _, i < M.nrow; rw [mr]; exact hlt) cents
  have hn := (stiff_form env hF (hm []) hK hF.toApiInv.rest_wf hfix hK').1
  have mf := (mass_form hF (hm []) hM hF.toApiInv.rest_wf hfix hM').2
  have h6 : K_.nrow = 6 := hn
  refine ⟨K, M, K_, M_, C_, fun cv => ⟨hK, hM, ?_, ?_, ?_, h6, ?_⟩⟩
  · unfold Assembly.boundaryMatrix; rw [wind_dofs, Except.bind_ok, hK']
  · unfold Assembly.boundaryMatrix; rw [wind_dofs, Except.bind_ok, hM']
  · unfold Assembly.boundaryMatrix; rw [wind_dofs, Except.bind_ok, hC']
  · intro v hv
    set V : ℕ → ℝ := fun i => if h : 6 ≤ i ∧ i - 6 < K_.nrow then v ⟨i - 6, h.2⟩ else 0 with hV
    have hV0 : ∀ i ∈ [0, 1, 2, 3, 4, 5], V i = 0 := by
      intro i hi
      simp only [List.mem_cons, List.not_mem_nil, or_false] at hi
      rw [hV]
      simp only
      rw [dif_neg (by omega)]
    have hfd : ∀ k : Fin K_.nrow, V (fdof ((demoApi c).model.nodeCount * 6) [0, 1, 2, 3, 4, 5] k.val) = v k := by
      intro k
      have hk : k.val < 6 := by have := k.isLt; omega
      have e : fdof ((demoApi c).model.nodeCount * 6) [0, 1, 2, 3, 4, 5] k.val = k.val + 6 := by
        unfold fdof
        rw [show (demoApi c).model.nodeCount * 6 = 12 from rfl, free_demo]
        obtain ⟨k, hk'⟩ := k
        simp only at hk ⊢
        interval_cases k <;> rfl
      rw [e, hV]
      simp only
      rw [dif_pos ⟨by omega, by have := k.isLt; omega⟩]
      congr 1
    have h := mf _ hn V V hV0 hV0
    have hvec : (fun k : Fin K_.nrow => V (fdof ((demoApi c).model.nodeCount * 6) [0, 1, 2, 3, 4, 5] k.val)) = v := funext hfd
    rw [hvec, hv, dotProduct_zero] at h
    have hA : gat (demoApi c).model V "A" = 0 := by
      funext r
      have : hidOf (demoApi c).model "A" = 0 := rfl
      unfold gat
      rw [this]
      have := r.isLt
      rw [hV]
      simp only [Pi.zero_apply]
      rw [dif_neg (by omega)]
    have hI := demo_inertia c (gat (demoApi c).model V) (gat (demoApi c).model V) hA
    have e0 : (demoApi c).model = demoModel c := rfl
    rw [e0] at h hI
    rw [← h] at hI
    have hL : 0 < lineLength ⟨0, 0, 0⟩ ⟨1, 2, 3⟩ := by
      unfold lineLength V3.norm
      apply Real.sqrt_pos.mpr
      show 0 < ((0 : ℝ) - 1) * (0 - 1) + (0 - 2) * (0 - 2) + (0 - 3) * (0 - 3)
      norm_num
    set g := gat (demoModel c) V "B" with hg
    have hgz : g = 0 := by
      simp only [Spec.trans, Spec.rot, V3.dot] at hI
      have q : ∀ r, g r * g r = 0 := by
        have n0 := mul_self_nonneg (g 0)
        have n1 := mul_self_nonneg (g 1)
        have n2 := mul_self_nonneg (g 2)
        have n3 := mul_self_nonneg (g 3)
        have n4 := mul_self_nonneg (g 4)
        have n5 := mul_self_nonneg (g 5)
        set l := lineLength ⟨0, 0, 0⟩ ⟨1, 2, 3⟩ / 2 with hl
        have hl0 : 0 < l := by rw [hl]; linarith
        have p1 := mul_nonneg hl0.le (add_nonneg (add_nonneg n0 n1) n2)
        have s1 : l * (g 0 * g 0 + g 1 * g 1 + g 2 * g 2) = 0 := by linarith
        have s2 : g 3 * g 3 + g 4 * g 4 + g 5 * g 5 = 0 := by linarith
        have s3 := (mul_eq_zero.mp s1).resolve_left hl0.ne'
        intro r
        fin_cases r <;> simp only [Fin.zero_eta, Fin.mk_one, Fin.reduceFinMk] <;> linarith
      funext r
      exact mul_self_eq_zero.mp (q r)
    funext k
    have hk : k.val < 6 := by have := k.isLt; omega
    have := congrFun hgz ⟨k.val, hk⟩
    rw [hg] at this
    unfold gat at this
    rw [show hidOf (demoModel c) "B" = 1 from rfl, hV] at this
    simp only [Pi.zero_apply] at this ⊢
    rw [dif_pos ⟨by omega, by have := k.isLt; omega⟩] at this
    rw [← this]
    congr 1
    apply Fin.ext
    simp only
    omega

/-- small steps give regular equations -/
theorem small_regular {n : ℕ} {M C : Matrix (Fin n) (Fin n) ℝ} (hM : ∀ v, M *ᵥ v = 0 → v = 0) :
    ∃ h : ℝ, h > 0 ∧ ∀ z, ((1 / h ^ 2) • M + (1 / (2 * h)) • C) *ᵥ z = 0 → z = 0 := by
  have hdet : M.det ≠ 0 := by
    intro h0
    obtain ⟨v, h1, h2⟩ := Matrix.exists_mulVec_eq_zero_iff.mpr h0
    exact h1 (hM v h2)
  have hcont : Continuous fun h : ℝ => (M + (h / 2) • C).det := by
    apply Continuous.matrix_det
    fun_prop
  have hev : ∀ᶠ h in nhds (0 : ℝ), (M + (h / 2) • C).det ≠ 0 := by
    apply hcont.continuousAt.eventually_ne
    simpa using hdet
  obtain ⟨ε, hε, hball⟩ := Metric.eventually_nhds_iff.mp hev
  refine ⟨ε / 2, by linarith, ?_⟩
  intro z hz
  have hd := hball (y := ε / 2) (by rw [Real.dist_eq, sub_zero, abs_of_pos (by linarith)]; linarith)
  by_contra hne
  apply hd
  apply Matrix.exists_mulVec_eq_zero_iff.mp
  refine ⟨z, hne, ?_⟩
  have e : M + (ε / 2 / 2) • C = (ε / 2) ^ 2 • ((1 / (ε / 2) ^ 2) • M + (1 / (2 * (ε / 2))) • C) := by
    rw [smul_add, smul_smul, smul_smul]
    have e1 : (ε / 2) ^ 2 * (1 / (ε / 2) ^ 2) = 1 := by field_simp
    have e2 : (ε / 2) ^ 2 * (1 / (2 * (ε / 2))) = ε / 2 / 2 := by field_simp
    rw [e1, e2, one_smul]
  rw [e, smul_mulVec, hz, smul_zero]

/-- the run of the example -/
theorem wind_runs {c : Csys} (hxx : c.x.dot c.x = 1) (hF : FreshInv (demoApi c)) : ∃ h : ℝ, h > 0 ∧ RegularStep idealEnv (demoModel c) windHeap (windCase [1, 1]) ⟨h, 0.05, none⟩ ∧
    ∀ cv : List ℝ, cv.length = 2 → ∃ rows w, Saves idealEnv exactCg (demoModel c) windHeap (windCase [1, 1]) ⟨h, 0.05, none⟩ [("P", cv)] rows ∧
      rows[1]? = some w ∧ w.length = 6 ∧ w ≠ List.replicate 6 0 := by
  obtain ⟨K, M, K_, M_, C_, hforms⟩ := wind_forms idealEnv hF
  obtain ⟨h, hh, hinj⟩ := small_regular (C := C_.dense K_.nrow) (hforms []).2.2.2.2.2.2
  have h6 := (hforms []).2.2.2.2.2.1
  obtain ⟨f, hf⟩ := assembleF_ok hF (x := windAsb c [1, 1]) rfl (c := "H") (lc := windCase [1, 1]) rfl wind_inv (t := 0) (by norm_num) (demo_mu c)
  obtain ⟨fr, fc, fents⟩ := assembleF_shape hf
  have fr12 : f.nrow = 12 := fr
  refine ⟨h, hh, ?_, ?_⟩
  · intro x K' M' K_' M_' C_' hx h1 h2 h3 h4 h5
    rw [wind_mk] at hx
    cases hx
    obtain ⟨k1, k2, k3, k4, k5, -⟩ := hforms [1, 1]
    rw [k1] at h1; cases h1
    rw [k2] at h2; cases h2
    have hnm : (windCase [1, 1]).name = "H" := rfl
    rw [hnm] at h3 h4 h5
    rw [k3] at h3; cases h3
    rw [k4] at h4; cases h4
    rw [k5] at h5; cases h5
    exact hinj
  · intro cv hcv
    obtain ⟨k1, k2, k3, k4, k5, -⟩ := hforms cv
    have hfc : ∀ t, (windAsb c cv).assembleF "H" t = .ok f := fun t => (wind_same c cv [1, 1] t 0).trans hf
    have hbv : (windAsb c cv).boundaryVector "H" f = .ok ([6, 7, 8, 9, 10, 11].map fun i => f.get i 0) := by
      unfold Assembly.boundaryVector
      rw [wind_dofs, Except.bind_ok, dropVector_eq, fr12, free_demo]
      rfl
    have hcase : (windAsb c cv).cases.get? "H" = some (windCase cv) := rfl
    have hT : (windCase cv).getMaxMinStep.2 = some 2 := by
      unfold LoadCase.getMaxMinStep
      have : (windCase cv).loadCurve.values = [cv] := rfl
      rw [this]
      simp [hcv]
    have hstep : ∀ (u : List (Vec K_.nrow)) t, ∃ u', centralStep exactCg (windAsb c cv) "H" K_.nrow (K_.dense _) (M_.dense _) (C_.dense _) h u t = .ok u' := by
      intro u t
      unfold centralStep
      rw [hfc, Except.bind_ok, hbv, Except.bind_ok]
      rw [dif_pos ⟨by simp, h6⟩]
      exact ⟨_, rfl⟩
    obtain ⟨u1, hu1⟩ := hstep [0, 0] 0
    obtain ⟨u2, hu2⟩ := hstep u1 1
    have hcd : centralDifference exactCg (windAsb c cv) "H" K_.nrow (K_.dense _) (M_.dense _) (C_.dense _) h = .ok u2.tail := by
      unfold centralDifference
      rw [if_neg hh.ne', Dict.getItem_of_some hcase, Except.bind_ok, hT]
      simp only
      rw [show List.range 2 = [0, 1] from rfl, List.foldlM_cons, hu1, Except.bind_ok, List.foldlM_cons, hu2, Except.bind_ok]
      rfl
    have hrun : ∃ fs', solveDirect idealEnv exactCg [("f", (File.asb (windAsb c cv) : File Unit))] "f" "H" ⟨h, 0.05, none⟩ = (fs', .ok ()) := by
      unfold solveDirect
      have ho : openAssembly [("f", (File.asb (windAsb c cv) : File Unit))] "f" = .ok (windAsb c cv) := rfl
      have hk : caseOfKind (windAsb c cv) "H" .timeHistory = .ok (windCase cv) := by
        unfold caseOfKind
        rw [Dict.getItem_of_some hcase]
        rfl
      rw [ho]
      simp only [hk, baseCaseName, Except.bind_ok]
      have hc1 : cacheMatrix [("f", (File.asb (windAsb c cv) : File Unit))] ("0" ++ ".k") ((windAsb c cv).assembleK idealEnv) File.stiff =
          (Dict.set [("f", (File.asb (windAsb c cv) : File Unit))] ("0" ++ ".k" ++ ".npy") (.stiff K), .ok K) := by
        rw [k1]; rfl
      rw [hc1]
      simp only
      have hc2 : cacheMatrix (Dict.set [("f", (File.asb (windAsb c cv) : File Unit))] ("0" ++ ".k" ++ ".npy") (.stiff K)) ("0" ++ ".m")
          (windAsb c cv).assembleM File.mass =
          (Dict.set (Dict.set [("f", (File.asb (windAsb c cv) : File Unit))] ("0" ++ ".k" ++ ".npy") (.stiff K)) ("0" ++ ".m" ++ ".npy") (.mass M), .ok M) := by
        rw [k2]; rfl
      rw [hc2]
      simp only [k3, k4, k5, Except.bind_ok, hcd]
      exact ⟨_, rfl⟩
    obtain ⟨fs', hrun⟩ := hrun
    obtain ⟨lc', T, U, g1, g2, g3, g4, g5⟩ := C58_recurrence_partial idealEnv exactCg exactCg_sound [("f", (File.asb (windAsb c cv) : File Unit))] fs'
      "f" "H" (windAsb c cv) rfl ⟨h, 0.05, none⟩ hrun K M K_ M_ C_ k1 k2 k3 k4 k5 hinj
    rw [hcase] at g1
    cases g1
    have hT2 : T = 2 := by
      obtain ⟨⟨cv', m1, m2⟩, -⟩ := g2
      have : (windCase cv).loadCurve.values = [cv] := rfl
      rw [this, List.mem_singleton] at m1
      rw [← m2, m1, hcv]
    refine ⟨_, List.ofFn (U 1), ⟨windAsb c cv, fs', rfl, hrun, g3⟩, by rw [hT2]; rfl, by rw [List.length_ofFn, h6], ?_⟩
    intro hw
    have hU : U 1 = 0 := by
      funext k
      have hk : k.val < 6 := by have := k.isLt; omega
      have := congrArg (fun l => l[k.val]?) hw
      simp only [List.getElem?_replicate, if_pos hk] at this
      rw [List.getElem?_eq_getElem (by simp)] at this
      simpa using this
    obtain ⟨-, f', f_, q1, q2, fv, q3, -, q4⟩ := g5 0 (by omega)
    rw [hfc] at q1
    cases q1
    rw [hbv] at q2
    cases q2
    simp only [zero_add, Nat.lt_one_iff, if_true, show (0 : ℕ) < 2 by norm_num, hU, mulVec_zero, add_zero] at q4
    have hz : ∀ i, 6 ≤ i → i < 12 → f.get i 0 = 0 := by
      rw [← q4] at q3
      have hrep : List.ofFn (0 : Vec K_.nrow) = List.replicate K_.nrow 0 := List.ofFn_const _ _
      rw [hrep, h6] at q3
      simp only [List.map_cons, List.map_nil, List.replicate_succ, List.replicate_zero, List.cons.injEq, and_true] at q3
      intro i i1 i2
      obtain ⟨a0, a1, a2, a3, a4, a5⟩ := q3
      interval_cases i <;> (symm; assumption)
    have hb := assembleF_bil hF.toApiInv (x := windAsb c [1, 1]) rfl (c := "H") (lc := windCase [1, 1]) rfl wind_inv (t := 0) (by norm_num) hf
      (fun i => if i = 6 then c.x.x else if i = 7 then c.x.y else if i = 8 then c.x.z else 0)
    rw [← Coo.get_bil f fents, fc, fr12] at hb
    simp only [Finset.sum_range_succ, Finset.range_zero, Finset.sum_empty, hz 6 (by omega) (by omega), hz 7 (by omega) (by omega),
      hz 8 (by omega) (by omega), hz 9 (by omega) (by omega), hz 10 (by omega) (by omega), hz 11 (by omega) (by omega)] at hb
    have hL : 0 < lineLength ⟨0, 0, 0⟩ ⟨1, 2, 3⟩ := by
      unfold lineLength V3.norm
      apply Real.sqrt_pos.mpr
      show 0 < ((0 : ℝ) - 1) * (0 - 1) + (0 - 2) * (0 - 2) + (0 - 3) * (0 - 3)
      norm_num
    set G := gat (windAsb c [1, 1]).model (fun i => if i = 6 then c.x.x else if i = 7 then c.x.y else if i = 8 then c.x.z else 0) with hG
    have hGA : G "A" = 0 := by
      funext r
      rw [hG]
      unfold gat
      rw [show hidOf (windAsb c [1, 1]).model "A" = 0 from rfl]
      fin_cases r <;> simp
    have hGB : Spec.trans (G "B") = c.x ∧ Spec.rot (G "B") = ⟨0, 0, 0⟩ := by
      rw [hG]
      unfold gat Spec.trans Spec.rot
      rw [show hidOf (windAsb c [1, 1]).model "B" = 1 from rfl]
      simp
    have hW : externalWork (demoApi c).model windHeap (windCase [1, 1]) G = lineLength ⟨0, 0, 0⟩ ⟨1, 2, 3⟩ / 2 := by
      unfold externalWork
      have hp : patternsOf windHeap (windCase [1, 1]) = [(⟨"P", [], [], [("b", ![1, 0, 0, 0, 0, 0, 1, 0, 0, 0, 0, 0])], []⟩, 1)] := rfl
      rw [hp]
      simp only [List.map_cons, List.map_nil, List.sum_cons, List.sum_nil, add_zero, one_mul]
      unfold patternWork
      have hn : (demoApi c).model.nodes = [("A", stdNode "A" 0 0 0), ("B", stdNode "B" 1 2 3)] := rfl
      have hb : (demoApi c).model.beams = [("b", demoBeam c)] := rfl
      rw [hn, hb]
      simp only [List.map_cons, List.map_nil, List.sum_cons, List.sum_nil, add_zero, Dict.get?, Option.getD_none, zero_dotProduct, zero_add]
      have he : beamEnds (demoBeam c) G = ![0, 0, 0, 0, 0, 0, 1, c.y.dot c.x, c.z.dot c.x, 0, 0, 0] := by
        unfold beamEnds localEnds
        have e1 : (demoBeam c).startName = "A" := rfl
        have e2 : (demoBeam c).endName = "B" := rfl
        have e3 : (demoBeam c).csys = c := rfl
        rw [e1, e2, e3, hGB.1, hGB.2, hGA, hxx]
        simp [Spec.trans, Spec.rot, V3.dot]
      rw [he]
      have hl : (demoBeam c).length = lineLength ⟨0, 0, 0⟩ ⟨1, 2, 3⟩ := rfl
      rw [hl]
      generalize lineLength ⟨0, 0, 0⟩ ⟨1, 2, 3⟩ = l
      have hf : LoadPattern.getBeamF ⟨"P", [], [], [("b", ![1, 0, 0, 0, 0, 0, 1, 0, 0, 0, 0, 0])], []⟩ "b" l =
          ![l / 2, 0, 0, 0, 0, 0, l / 2, 0, 0, 0, 0, 0] := by
        have e : LoadPattern.getBeamF ⟨"P", [], [], [("b", ![1, 0, 0, 0, 0, 0, 1, 0, 0, 0, 0, 0])], []⟩ "b" l =
            (0 : Vec 12) + distF ![1, 0, 0, 0, 0, 0, 1, 0, 0, 0, 0, 0] l := rfl
        rw [e, zero_add]
        generalize hv : (![1, 0, 0, 0, 0, 0, 1, 0, 0, 0, 0, 0] : Vec 12) = v
        have v0 : v 0 = 1 := by rw [← hv]; rfl
        have v1 : v 1 = 0 := by rw [← hv]; rfl
        have v2 : v 2 = 0 := by rw [← hv]; rfl
        have v3 : v 3 = 0 := by rw [← hv]; rfl
        have v6 : v 6 = 1 := by rw [← hv]; rfl
        have v7 : v 7 = 0 := by rw [← hv]; rfl
        have v8 : v 8 = 0 := by rw [← hv]; rfl
        have v9 : v 9 = 0 := by rw [← hv]; rfl
        unfold distF
        simp only [v0, v1, v2, v3, v6, v7, v8, v9]
        norm_num
      rw [hf]
      simp [dotProduct, Fin.sum_univ_succ]
    have hb' : (0 : ℝ) = lineLength ⟨0, 0, 0⟩ ⟨1, 2, 3⟩ / 2 := by
      rw [← hW]
      refine Eq.trans ?_ hb
      simp
    linarith

theorem C165_false : ¬ C165_claim := by
  intro hclaim
  obtain ⟨c, hc, hrun⟩ := demo_run idealEnv
  have hF : FreshInv (demoApi c) := by
    have := (FreshInv_run idealEnv demoCalls (demo_noReadd idealEnv)).1
    rwa [hrun] at this
  obtain ⟨hrh, -, -⟩ := lineCsys_ok hc
  obtain ⟨h, hh, hreg, hruns⟩ := wind_runs hrh.xx hF
  obtain ⟨rA, wA, s1, s2, s6, -⟩ := hruns [1, 1] rfl
  obtain ⟨rD, wD, s3, s4, -, s5⟩ := hruns [0, 0] rfl
  have hm : (World.init.run idealEnv demoCalls).api.model = demoModel c := by rw [hrun]; rfl
  have := hclaim idealEnv exactCg exactCg_sound demoCalls (demo_noReadd idealEnv) windHeap (windCase [1, 1]) ⟨h, 0.05, none⟩ (by rw [hm]; exact hreg)
    _ _ rA rD (by rw [hm]; exact s1) (by rw [hm]; exact s3) 0 (by
      intro p t
      rw [zero_mul]
      unfold curveVal
      by_cases hp : "P" = p
      · subst hp
        match t with
        | 0 => simp [Dict.get?]
        | 1 => simp [Dict.get?]
        | t + 2 => simp [Dict.get?]
      · simp [Dict.get?, hp]) 1 wA wD s2 s4
  apply s5
  rw [this, ← s6]
  simp only [zero_mul]
  rw [List.map_const']

end Hyperstatic
