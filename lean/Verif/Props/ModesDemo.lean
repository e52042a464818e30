import Verif.Props.Modes
import Verif.Props.Cantilever

/-
C140: modal analyses succeed, and the laws apply to concrete frames.
-/

namespace Hyperstatic
open Matrix Spec

/-- mass at every node: attached masses not negative, beams with mass, every node the end of a beam -/
theorem massive_of {P : Vibration} (hS : Sane P.frame P.nodes) (hm : ∀ n w, P.mass n = some w → ∀ r, 0 ≤ w r)
    (hb : ∀ b g, P.frame.beam b = some g → 0 < g.mass)
    (hj : ∀ n ∈ P.nodes, Clamped P.fix n ∨ ∃ b g, P.frame.beam b = some g ∧ (g.start = n ∨ g.stop = n)) : P.Massive := by
  intro u hu ⟨n, hn, h0⟩
  have hone : ∀ (l : ℝ), 0 < l → ∀ w : Vec 6, 0 ≤ l / 2 * (Spec.trans w).dot (Spec.trans w) + 1 / 10 ^ 12 * (Spec.rot w).dot (Spec.rot w) := by
    intro l hl w
    have := dot_self_nonneg (Spec.trans w)
    have := dot_self_nonneg (Spec.rot w)
    positivity
  have hone' : ∀ (l : ℝ), 0 < l → ∀ w : Vec 6, w ≠ 0 →
      0 < l / 2 * (Spec.trans w).dot (Spec.trans w) + 1 / 10 ^ 12 * (Spec.rot w).dot (Spec.rot w) := by
    intro l hl w hw
    have := inertia_pos (half_pos hl) w hw
    simpa [Spec.trans, Spec.rot, V3.dot] using this
  rcases hj n hn with ⟨f, hf, hr⟩ | ⟨b, g, hg, hgn⟩
  · exact absurd (funext fun r => hu n f hf r (hr r)) h0
  · unfold Vibration.inertial
    apply add_pos_of_nonneg_of_pos
    · apply List.sum_nonneg
      intro y hy
      obtain ⟨n, -, rfl⟩ := List.mem_map.mp hy
      cases hw : P.mass n with
      | none => exact le_rfl
      | some w => exact Finset.sum_nonneg fun r _ => mul_nonneg (hm n w hw r) (mul_self_nonneg _)
    · have hle : ∀ y ∈ P.frame.beams.map (fun b => (P.frame.beam b).elim 0 fun g => g.inertial u u), 0 ≤ y := by
        intro y hy
        obtain ⟨b, -, rfl⟩ := List.mem_map.mp hy
        cases hg : P.frame.beam b with
        | none => exact le_rfl
        | some g => exact add_nonneg (hone _ (hb b g hg) _) (hone _ (hb b g hg) _)
      refine lt_of_lt_of_le ?_ (List.single_le_sum hle (g.inertial u u) (List.mem_map.mpr ⟨b, (hS.mem b).mpr (by rw [hg]; rfl), by rw [hg]; rfl⟩))
      unfold GivenBeam.inertial
      rcases hgn with rfl | rfl
      · exact add_pos_of_pos_of_nonneg (hone' _ (hb b g hg) _ h0) (hone _ (hb b g hg) _)
      · exact add_pos_of_nonneg_of_pos (hone _ (hb b g hg) _) (hone' _ (hb b g hg) _ h0)

/-- the reduced matrices of a run -/
theorem reduced_pencil {a : Api} (env : Env) (h : FreshInv a) (hsh : ShellsSymm env a.model) {x : Assembly} (hm : x.model = a.model)
    {K M K_ M_ : Coo} {t : Dict Flags} (hwf : t.WF) (hK : x.assembleK env = .ok K) (hM : x.assembleM = .ok M) {fixed : List ℕ}
    (ht : restraintDofs a.model t = .ok fixed) (hK' : Assembly.dropMatrixDof K fixed = .ok K_) (hM' : Assembly.dropMatrixDof M fixed = .ok M_)
    (hsym : ∀ v u, inertialWork a.model v u = inertialWork a.model u v)
    (hmass : ∀ u, Respects t u → (∃ n ∈ a.model.nodes.keys, u n ≠ 0) → 0 < inertialWork a.model u u)
    (hpsd : ∀ u, 0 ≤ internalWork env a.model u u) :
    Pencil (K_.dense K_.nrow) (M_.dense K_.nrow) ∧ ∀ v, 0 ≤ v ⬝ᵥ K_.dense K_.nrow *ᵥ v := by
  have hA := h.toApiInv
  obtain ⟨hn, kform⟩ := stiff_form env h hm hK hwf ht hK'
  obtain ⟨-, mform⟩ := mass_form h hm hM hwf ht hM'
  choose U hU using fun z : Vec K_.nrow => exists_extension (a.model.nodeCount * 6) fixed hn z
  have hne : ∀ z : Vec K_.nrow, z ≠ 0 → ∃ n ∈ a.model.nodes.keys, gat a.model (U z) n ≠ 0 := by
    intro z hz
    by_contra hno
    push Not at hno
    apply hz
    rw [(hU z).2]
    funext k
    exact h.glob_zero hno (fdof_mem (hn ▸ k.isLt)).1
  have kz : ∀ z w : Vec K_.nrow, z ⬝ᵥ K_.dense K_.nrow *ᵥ w = internalWork env a.model (gat a.model (U z)) (gat a.model (U w)) := by
    intro z w
    rw [← kform _ hn (U z) (U w) (hU z).1 (hU w).1, ← (hU z).2, ← (hU w).2]
  have mz : ∀ z w : Vec K_.nrow, z ⬝ᵥ M_.dense K_.nrow *ᵥ w = inertialWork a.model (gat a.model (U z)) (gat a.model (U w)) := by
    intro z w
    rw [← mform _ hn (U z) (U w) (hU z).1 (hU w).1, ← (hU z).2, ← (hU w).2]
  exact ⟨⟨fun v w => by rw [kz, kz]; exact internalWork_symm hA hsh _ _, fun v w => by rw [mz, mz]; exact hsym _ _,
    fun v hv => by rw [mz]; exact hmass _ ((respects_iff hA hwf ht _).mpr (hU v).1) (hne v hv)⟩, fun v => by rw [kz]; exact hpsd _⟩

/-- A modal analysis of a frame with positive stiffness and mass reports as many values as asked for (but never more than the degrees of
freedom left by the global restraints), if they are fewer than the free components and the eigenvalue routine does not fail. -/
theorem C140_succeeds (env : Env) (dyn : DynEnv) (hdyn : dyn.EigSound) (htot : EigTotal dyn) (pre : List Call) (lc : LoadCase) (k : ℕ)
    (hF : NoReadd env World.init pre) (hsh : (World.init.run env pre).getShellNames = []) (hwf : lc.restraint.WF) (hkind : lc.kind = .modal)
    (P : Vibration) (hP : Shakes pre lc P) (hkeys : ∀ n ∈ lc.restraint.keys, n ∈ P.nodes) (hpos : P.frame.Positive) (hmas : P.Massive)
    (hk : k < (P.free 0).length) :
    ∃ omega shapes, ModalReport env dyn pre lc k omega shapes ∧ omega.length ≤ k ∧
      (lc.restraint = [] → omega.length = k) := by
  have hFr := (FreshInv_run env pre hF).1
  have hA := hFr.toApiInv
  set a := (World.init.run env pre).api with ha
  have hshells : a.model.shells = [] := by
    have : a.model.shells.keys = [] := hsh
    simpa [Dict.keys] using this
  have hsy : ShellsSymm env a.model := by intro s se hs; rw [hshells] at hs; cases hs
  have hbp := blueprint_refined env pre
  have hrest := restReg_refined env pre
  have hnode := (C02_node_registry env pre).1
  have hmass := funext (C44_nodal_masses env pre)
  have e1 : P.frame = blueprintOf a := by rw [hP.frame, ← hbp]
  have e2 : P.nodes = a.model.nodes.keys := by rw [hP.nodes, ← hnode]; rfl
  have e3 : P.mass = fun n => (a.model.nodes.get? n).map fun nd => nd.mass := by rw [hP.mass, ← hmass]
  have e4 : ∀ n, P.fix n = (governing a.model lc).get? n := by
    intro n
    rw [hP.fix, ← hrest]
    unfold governing
    cases hl : lc.restraint <;> simp [ha]
  have hint : ∀ v u, P.frame.internal v u = internalWork env a.model v u := by
    intro v u; rw [e1]; exact blueprint_internal hA env hshells v u
  have hine : ∀ v u, P.inertial v u = inertialWork a.model v u := by
    intro v u
    rw [← blueprint_inertial hA P.fix v u]
    unfold Vibration.inertial
    rw [e1, e2, e3]
  have hob : ∀ u, Obeys P.fix u ↔ Respects (governing a.model lc) u := by
    intro u; unfold Obeys Respects; simp only [e4]
  have hfree : ∀ u, P.free u = freeValues a.model (governing a.model lc) u := by
    intro u
    unfold Vibration.free freeValues
    rw [e2]
    congr 1
    funext n
    congr 1
    funext r
    rw [e4]
    cases (governing a.model lc).get? n <;> rfl
  have hgwf := governing_wf' hA hwf
  have hkg : ∀ n ∈ (governing a.model lc).keys, n ∈ a.model.nodes.keys := by
    unfold governing
    split
    · exact hA.rest_keys
    · rw [← e2]; exact hkeys
  have hf := restraintDofs_eq hA hkg
  set fixed := ((governing a.model lc).map fun it => flagDofs (hidOf a.model it.1) it.2).flatten with hfixed
  have hx : ∃ x, Assembly.mk? a.model [lc] [] = .ok x ∧ x.cases = [(lc.name, lc)] := by
    unfold Assembly.mk?
    rw [restraintDofs_eq hA hA.rest_keys]
    exact ⟨_, rfl, rfl⟩
  obtain ⟨x, hx, hcs⟩ := hx
  obtain ⟨hm, -, hfix', hdof⟩ := mk_assembly hx
  have hmu : ∀ b be, a.model.beams.get? b = some be → muOf be.prop ≠ -1 := by
    intro b be hb
    have h1 : P.frame.beam b = some (givenBeam be) := by rw [e1]; simp [blueprintOf, hb]
    have h2 := (hpos b _ h1).2.1.ne'
    cases hp : be.prop <;> simpa [muOf, givenBeam, givenProp, givenSec, givenMat, hp] using h2
  obtain ⟨K, hK⟩ := (assembleK_ok_iff env hFr hm).mpr hmu
  obtain ⟨M, hM⟩ := assembleM_ok hFr hm
  have hcase : x.cases.get? lc.name = some lc := by rw [hcs]; simp [Dict.get?]
  have hb : x.boundaryDofs lc.name = .ok fixed := by
    rw [boundaryDofs_governing hm hfix' hcase]; exact hf
  obtain ⟨hnd, hlt⟩ := restraintDofs_nodup hFr hgwf hf
  obtain ⟨kr, kc, kents⟩ := assembleK_range hK
  obtain ⟨mr, mc, ments⟩ := assembleM_range hM
  rw [hm] at kr kc mr mc
  obtain ⟨K_, hK'⟩ := dropMatrix_ok hnd (kr.trans kc.symm) (by rw [kr]; exact hlt) kents
  obtain ⟨M_, hM'⟩ := dropMatrix_ok hnd (mr.trans mc.symm) (by rw [mr]; exact hlt) ments
  obtain ⟨hn, -⟩ := stiff_form env hFr hm hK hgwf hf hK'
  obtain ⟨hn', -⟩ := mass_form hFr hm hM hgwf hf hM'
  have hlen : K_.nrow = (P.free 0).length := by
    rw [hn, hfree, show (0 : State) = gat a.model (fun _ => 0) from rfl, ← free_values hFr hgwf hf, List.length_map]
  obtain ⟨hpen, hpsd⟩ := reduced_pencil env hFr hsy hm hgwf hK hM hf hK' hM' (fun v u => by rw [← hine, ← hine, inertial_symm])
    (fun u hu h0 => by rw [← hine]; exact hmas u ((hob u).mpr hu) (by rw [e2]; exact h0))
    (fun u => by rw [← hint]; exact internal_nonneg (hP.sane env) hpos u)
  have htr : ∀ A : Matrix (Fin K_.nrow) (Fin K_.nrow) ℝ, (∀ v w, v ⬝ᵥ A *ᵥ w = w ⬝ᵥ A *ᵥ v) → Aᵀ = A := by
    intro A hs
    ext i j
    have := hs (Pi.single j 1) (Pi.single i 1)
    simpa using this
  set k' := if x.dof < (k : ℤ) then x.dof.toNat else k with hk'
  have hkk : k' ≤ k := by rw [hk']; split <;> omega
  obtain ⟨l, hl⟩ := htot K_.nrow (K_.dense K_.nrow) k' (M_.dense K_.nrow) (htr _ hpen.symK) (htr _ hpen.symM) hpsd hpen.pos (by omega)
  have hll := (hdyn _ _ _ _ _ hl).1
  have hpairs : eigenPairs dyn x lc.name k K M = .ok (l.map fun p => (p.1, List.ofFn p.2)) := by
    unfold eigenPairs Assembly.boundaryMatrix
    rw [hb, Except.bind_ok, hK', Except.bind_ok, Except.bind_ok, hM', Except.bind_ok, if_pos (hn'.trans hn.symm), ← hk', hl]
    rfl
  let L := l.map fun p => (p.1, List.ofFn p.2)
  let fs : Dict (File Unit) := [("f", .asb x)]
  let fs' : Dict (File Unit) := Dict.set (Dict.set (Dict.set (Dict.set fs "0.k.npy" (.stiff K)) "0.m.npy" (.mass M)) (lc.name ++ ".d" ++ ".npy")
        (.rows (L.map Prod.snd))) (lc.name ++ ".o" ++ ".npy") (.rows [L.map Prod.fst])
  have hname : "f" ∉ ["0.k.npy", "0.m.npy", lc.name ++ ".d" ++ ".npy", lc.name ++ ".o" ++ ".npy"] := by
    simp only [List.mem_cons, List.not_mem_nil, or_false, not_or]
    refine ⟨by decide, by decide, ?_, ?_⟩
    all_goals
      intro h
      have h2 := congrArg (fun s => s.toList.length) h
      simp only [String.toList_append, List.length_append] at h2
      have h3 : "f".toList.length = 1 := by decide
      have h4 : ".npy".toList.length = 4 := by decide
      omega
  have hrun : solveEigen env dyn fs "f" lc.name ⟨k, none⟩ = (fs', .ok ()) := by
    unfold solveEigen
    have ho : openAssembly fs "f" = .ok x := rfl
    have hkd : caseOfKind x lc.name .modal = .ok lc := by
      unfold caseOfKind
      rw [Dict.getItem_of_some hcase, Except.bind_ok, if_pos hkind]
      rfl
    rw [ho]
    simp only [hkd, baseCaseName, Except.bind_ok]
    have hc1 : cacheMatrix fs ("0" ++ ".k") (x.assembleK env) File.stiff = (Dict.set fs ("0" ++ ".k" ++ ".npy") (.stiff K), .ok K) := by
      rw [hK]; rfl
    rw [hc1]
    simp only
    have hc2 : cacheMatrix (Dict.set fs ("0" ++ ".k" ++ ".npy") (.stiff K)) ("0" ++ ".m") x.assembleM File.mass =
        (Dict.set (Dict.set fs ("0" ++ ".k" ++ ".npy") (.stiff K)) ("0" ++ ".m" ++ ".npy") (.mass M), .ok M) := by
      rw [hM]; rfl
    rw [hc2]
    simp only [hpairs]
    rfl
  obtain ⟨modes, -, -, q3, r, q4, -, -, -⟩ := C57_modes_partial env dyn hdyn pre hF _ rfl _ _ x hx fs fs' "f" lc.name rfl hname lc hcase hwf ⟨k, none⟩ hrun
  have hom : r.omega = l.map fun p => p.1 := by
    have e := q4
    unfold resolveModalFrequency at e
    simp only [Except.bind_ok_iff] at e
    obtain ⟨_, -, e⟩ := e
    have e2 : lc.name ++ ".o.npy" = lc.name ++ ".o" ++ ".npy" := by rw [String.append_assoc]; rfl
    rw [e2, Dict.get?_set_same] at e
    simp only [Except.pure_eq_ok, Except.ok.injEq] at e
    rw [← e]
    simp [L, List.map_map, Function.comp_def]
  refine ⟨r.omega, _, ⟨hF, hsh, hwf, [lc], [], x, Unit, fs, fs', "f", r, hx, hcase, rfl, hname, hrun, q4, rfl, q3⟩, ?_, ?_⟩
  · rw [hom, List.length_map, hll]; exact hkk
  · intro h0
    rw [hom, List.length_map, hll, hk']
    have hg : governing a.model lc = a.model.restraints := by unfold governing; rw [h0]
    rw [hg] at hf
    rw [hf] at hfix'
    have hff : fixed = x.fixedDof := by simpa using hfix'
    rw [hff] at hnd hlt hn
    have h1 : (free (a.model.nodeCount * 6) x.fixedDof).length = a.model.nodeCount * 6 - x.fixedDof.length := free_length hnd hlt
    rw [if_neg]
    rw [hdof]
    omega

/-! ### an eigenvalue routine and a post -/

/-- what is asked of the list of eigenpairs -/
def GoodPairs {n : ℕ} (K : Matrix (Fin n) (Fin n) ℝ) (k : ℕ) (M : Matrix (Fin n) (Fin n) ℝ) (l : List (ℝ × Vec n)) : Prop :=
  l.length = k ∧ (∀ p ∈ l, p.2 ≠ 0 ∧ K *ᵥ p.2 = p.1 • (M *ᵥ p.2)) ∧ Nearest K M l

/-- an eigenvalue routine that returns the values nearest to 0 whenever there are that many -/
noncomputable def idealEig : DynEnv where
  eigsh := fun _ K k M => open Classical in if h : ∃ l, GoodPairs K k M l then .ok h.choose else .error .exception
  cg := fun _ _ _ => 0
  solve := fun _ _ _ => .error .exception

theorem idealEig_spec {n K k M l} (h : idealEig.eigsh n K k M = .ok l) : GoodPairs K k M l := by
  unfold idealEig at h
  simp only at h
  split at h
  · rename_i hex
    cases h
    exact hex.choose_spec
  · cases h

theorem idealEig_sound : idealEig.EigSound := fun _ _ _ _ _ h => ⟨(idealEig_spec h).1, (idealEig_spec h).2.1⟩
theorem idealEig_nearest : EigNearest idealEig := fun _ _ _ _ _ h _ _ _ => (idealEig_spec h).2.2

theorem idealEig_total : EigTotal idealEig := by
  intro n K k M hK hM hpsd hpos hk
  have hs : ∀ A : Matrix (Fin n) (Fin n) ℝ, Aᵀ = A → ∀ v w, v ⬝ᵥ A *ᵥ w = w ⬝ᵥ A *ᵥ v := by
    intro A hA v w
    rw [dotProduct_mulVec, ← mulVec_transpose, hA, dotProduct_comm]
  have hex : ∃ l, GoodPairs K k M l := Pencil.exists_nearest ⟨hs K hK, hs M hM, hpos⟩ hpsd k hk.le
  refine ⟨hex.choose, ?_⟩
  unfold idealEig
  simp only
  rw [dif_pos hex]

/-- a post of modulus `E` and density `rho` on a clamped foot, its head restrained by `f` -/
def swayCalls (E rho : ℝ) (f : Flags) : List Call :=
  [.addNode "A" 0 0 0, .addNode "B" 0 0 3, .addSimpleBeam "b" "A" "B" E 0 1 1 1 1 rho, .setNodalRestraint "A" (fun _ => true),
    .setNodalRestraint "B" f]

def swayBeam (E rho : ℝ) : GivenBeam := ⟨"A", "B", ⟨0, 0, 0⟩, ⟨0, 0, 3⟩, ⟨⟨rho, E, 0⟩, 1, 1, 1, 1⟩⟩

/-- the vibrating system of the post -/
noncomputable def swayPost (E rho : ℝ) (f : Flags) : Vibration :=
  ⟨(blueprint.run (swayCalls E rho f)).cur, (nodeReg.run (swayCalls E rho f)).cur.names, (restReg.run (swayCalls E rho f)).cur.global,
    (massReg.run (swayCalls E rho f)).cur⟩

theorem sway_shakes (E rho : ℝ) (f : Flags) : Shakes (swayCalls E rho f) modalCase (swayPost E rho f) := ⟨rfl, rfl, rfl, rfl⟩

theorem sway_plain (env : Env) (E rho : ℝ) (f : Flags) : PlainFrame env (swayCalls E rho f) := by
  apply plainFrame_of_calls
  simp [PlainCalls, swayCalls, addedNode, addedPattern, List.filterMap_cons]

theorem sway_beams (E rho : ℝ) (f : Flags) : (swayPost E rho f).frame.beams = ["b"] ∧
    ∀ b, (swayPost E rho f).frame.beam b = if b = "b" then some (swayBeam E rho) else none := by
  constructor
  all_goals simp [swayPost, swayCalls, Machine.run, Machine.step, blueprint, Blueprint.addBeam, sectionCall, acc_col, swayBeam]

theorem sway_nodes (E rho : ℝ) (f : Flags) : (swayPost E rho f).nodes = ["A", "B"] := by
  simp [swayPost, swayCalls, Machine.run, Machine.step, nodeReg]

theorem sway_fix (E rho : ℝ) (f : Flags) : (swayPost E rho f).fix = fun n => if n = "B" then some f else
    if n = "A" then some (fun _ => true) else none := by
  simp [swayPost, swayCalls, Machine.run, Machine.step, restReg]

theorem sway_mass (E rho : ℝ) (f : Flags) : (swayPost E rho f).mass = fun n => if n = "B" then some 0 else if n = "A" then some 0 else none := by
  simp [swayPost, swayCalls, Machine.run, Machine.step, massReg]

theorem sway_len (E rho : ℝ) : (swayBeam E rho).mass = rho * 3 := by
  have h9 : Real.sqrt ((3:ℝ) * 3) = 3 := by rw [Real.sqrt_mul_self]; norm_num
  simp [GivenBeam.mass, GivenBeam.len, swayBeam, V3.norm, V3.sub_def, h9]

theorem sway_positive {E : ℝ} (hE : 0 < E) (rho : ℝ) (f : Flags) : (swayPost E rho f).frame.Positive := by
  intro b g hb
  rw [(sway_beams E rho f).2] at hb
  split at hb
  · cases hb; norm_num [GivenSec.Positive, swayBeam, hE]
  · cases hb

theorem sway_massive (E : ℝ) {rho : ℝ} (hr : 0 < rho) (f : Flags) : (swayPost E rho f).Massive := by
  apply massive_of ((sway_shakes E rho f).sane idealEnv)
  · intro n w hw r
    rw [sway_mass] at hw
    simp only at hw
    split at hw
    · cases hw; exact le_rfl
    · split at hw
      · cases hw; exact le_rfl
      · cases hw
  · intro b g hb
    rw [(sway_beams E rho f).2] at hb
    split at hb
    · cases hb; rw [sway_len]; positivity
    · cases hb
  · intro n hn
    rw [sway_nodes] at hn
    right
    refine ⟨"b", swayBeam E rho, by rw [(sway_beams E rho f).2]; rfl, ?_⟩
    simp only [List.mem_cons, List.not_mem_nil, or_false] at hn
    rcases hn with rfl | rfl
    · exact Or.inl rfl
    · exact Or.inr rfl

theorem sway_free (E rho : ℝ) : ((swayPost E rho (fun _ => false)).free 0).length = 6 ∧
    ((swayPost E rho (fun r => r == 0)).free 0).length = 5 := by
  constructor <;> simp [Vibration.free, sway_nodes, sway_fix, List.finRange_succ]

/-- three modes of the free post -/
theorem sway_reports {E rho : ℝ} (hE : 0 < E) (hr : 0 < rho) {f : Flags} (hf : f = (fun _ => false) ∨ f = (fun r => r == 0)) :
    ∃ omega shapes, ModalReport idealEnv idealEig (swayCalls E rho f) modalCase 3 omega shapes ∧ omega.length = 3 := by
  have hk : 3 < ((swayPost E rho f).free 0).length := by
    rcases hf with rfl | rfl
    · rw [(sway_free E rho).1]; norm_num
    · rw [(sway_free E rho).2]; norm_num
  obtain ⟨omega, shapes, h1, -, h3⟩ := C140_succeeds idealEnv idealEig idealEig_sound idealEig_total _ modalCase 3
    (sway_plain idealEnv E rho f).readd (sway_plain idealEnv E rho f).shells List.nodup_nil rfl _ (sway_shakes E rho f)
    (by intro n hn; cases hn) (sway_positive hE rho f) (sway_massive E hr f) hk
  exact ⟨omega, shapes, h1, h3 rfl⟩

/-- A post, and a stiffer and lighter post held at its head: everything the theorems assume holds, and three values are reported for
both. -/
example : ∃ omega omega' shapes shapes',
    ModalReport idealEnv idealEig (swayCalls 1 2 (fun _ => false)) modalCase 3 omega shapes ∧
    ModalReport idealEnv idealEig (swayCalls 3 1 (fun r => r == 0)) modalCase 3 omega' shapes' ∧
    omega.length = 3 ∧ omega'.length = 3 ∧ (∀ a ∈ omega, 0 ≤ a) ∧ ∀ t, upTo t omega' ≤ upTo t omega := by
  obtain ⟨omega, shapes, h1, h2⟩ := sway_reports (E := 1) (rho := 2) one_pos two_pos (Or.inl rfl)
  obtain ⟨omega', shapes', h1', h2'⟩ := sway_reports (E := 3) (rho := 1) (by norm_num) one_pos (Or.inr rfl)
  obtain ⟨-, -, -, -, h5⟩ := C140_modes idealEnv idealEig idealEig_sound _ _ _ _ _ h1 _ (sway_shakes 1 2 (fun _ => false))
  refine ⟨omega, omega', shapes, shapes', h1, h1', h2, h2',
    (h5 (sway_positive one_pos 2 (fun _ => false)) (sway_massive 1 two_pos (fun _ => false))).1, fun t => ?_⟩
  refine C140_stiffening idealEnv idealEnv idealEig idealEig idealEig_sound idealEig_nearest idealEig_sound idealEig_nearest _ _ _ _ _ _ _ _ _ _
    h1 h1' _ _ (sway_shakes 1 2 (fun _ => false)) (sway_shakes 3 1 (fun r => r == 0)) (sway_positive one_pos _ _) (sway_positive (by norm_num) _ _)
    (sway_massive _ two_pos _) (sway_massive _ one_pos _) ?_ ?_ ?_ (by rw [h2, h2']) t
  · intro v hv n f hf r hr
    rw [sway_fix] at hf
    simp only at hf
    split at hf
    · cases hf; cases hr
    · rename_i hn
      refine hv n f ?_ r hr
      rw [sway_fix]
      simp only
      rw [if_neg hn]
      exact hf
  · intro b g hb
    rw [(sway_beams 1 2 _).2] at hb
    split at hb
    · cases hb
      rename_i h
      refine ⟨swayBeam 3 1, by rw [(sway_beams 3 1 _).2, if_pos h], rfl, rfl, rfl, rfl, ?_, ?_, ?_, ?_⟩ <;> norm_num [swayBeam]
    · cases hb
  · refine ⟨by rw [sway_nodes, sway_nodes], by rw [(sway_beams 3 1 _).1, (sway_beams 1 2 _).1], ?_, ?_, ?_, ?_⟩
    · intro b g hb
      rw [(sway_beams 1 2 _).2] at hb
      split at hb
      · cases hb
        rename_i h
        refine ⟨swayBeam 3 1, by rw [(sway_beams 3 1 _).2, if_pos h], rfl, rfl, ?_⟩
        rw [sway_len, sway_len]; norm_num
      · cases hb
    · intro b hb
      rw [(sway_beams 1 2 _).2] at hb
      split at hb
      · cases hb
      · rename_i h
        rw [(sway_beams 3 1 _).2, if_neg h]
    · intro n w hw
      rw [sway_mass] at hw ⊢
      exact ⟨w, hw, fun _ => le_rfl⟩
    · intro n hn
      rw [sway_mass] at hn ⊢
      exact hn

/-- the post and the post with the modulus multiplied by 5 -/
example : ∃ omega omega' shapes shapes',
    ModalReport idealEnv idealEig (swayCalls 1 2 (fun _ => false)) modalCase 3 omega shapes ∧
    ModalReport idealEnv idealEig ((swayCalls 1 2 (fun _ => false)).map (stiffCall 5)) modalCase 3 omega' shapes' ∧
    omega'.length = omega.length ∧ ∀ t, upTo (5 * t) omega' = upTo t omega := by
  obtain ⟨omega, shapes, h1, h2⟩ := sway_reports (E := 1) (rho := 2) one_pos two_pos (Or.inl rfl)
  obtain ⟨omega', shapes', h1', h2'⟩ := sway_reports (E := 5 * 1) (rho := 2) (by norm_num) two_pos (Or.inl rfl)
  have e : swayCalls (5 * 1) 2 (fun _ => false) = (swayCalls 1 2 (fun _ => false)).map (stiffCall 5) := rfl
  rw [e] at h1'
  exact ⟨omega, omega', shapes, shapes', h1, h1', by rw [h2, h2'], fun t =>
    C140_modulus idealEnv idealEnv idealEig idealEig idealEig_sound idealEig_nearest idealEig_sound idealEig_nearest _ 5 (by norm_num) _ _ _ _ _ _ _
      h1 h1' _ (sway_shakes 1 2 (fun _ => false)) (sway_positive one_pos _ _) (sway_massive _ two_pos _) (by rw [h2, h2']) t⟩

end Hyperstatic
