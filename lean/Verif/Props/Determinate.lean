import Verif.Spec.Determinate
import Verif.Props.Resultants
import Verif.Props.FrameMapDemo

/-
C158: forces of statically determinate supports; how many supports are needed and how many are too many.
C159: branches without loads and supports.
-/

namespace Hyperstatic
open Matrix Spec

/-! ### C158 -/

theorem list_sum_shared {l l' : List String} (hn : l.Nodup) (hn' : l'.Nodup) {f f' : String → ℝ} (e : ∀ n, f n = f' n ∨ (f n = 0 ∧ f' n = 0))
    (h : ∀ n, f n ≠ 0 → n ∈ l ∧ n ∈ l') : (l.map f).sum = (l'.map f').sum := by
  have hf : f = f' := funext fun n => by rcases e n with h | ⟨h1, h2⟩ <;> [exact h; rw [h1, h2]]
  subst hf
  rw [← List.sum_toFinset f hn, ← List.sum_toFinset f hn']
  have e1 : ∑ x ∈ l.toFinset, f x = ∑ x ∈ l.toFinset ∪ l'.toFinset, f x := by
    apply Finset.sum_subset Finset.subset_union_left
    intro x _ hx
    by_contra h0
    exact hx (List.mem_toFinset.mpr (h x h0).1)
  have e2 : ∑ x ∈ l'.toFinset, f x = ∑ x ∈ l.toFinset ∪ l'.toFinset, f x := by
    apply Finset.sum_subset Finset.subset_union_right
    intro x _ hx
    by_contra h0
    exact hx (List.mem_toFinset.mpr (h x h0).2)
  rw [e1, e2]

/-- nodal forces, as far as they act at supports -/
noncomputable def atSupports (P : Problem) (R : String → Vec 6) : String → Vec 6 := fun n r =>
  open Classical in if SupportAt P n r then R n r else 0

theorem atSupports_only {P : Problem} {u : State} {R : String → Vec 6} (h : SupportForces P u R) {n : String} (hn : n ∈ P.nodes) :
    atSupports P R n = R n := by
  funext r
  unfold atSupports
  split
  · rfl
  · rename_i hs
    by_contra h0
    exact hs ⟨hn, h.only n hn r (fun h' => h0 h'.symm)⟩

theorem atSupports_zero {P : Problem} {R : String → Vec 6} {n : String} (h : ∀ r, ¬ SupportAt P n r) : atSupports P R n = 0 := by
  funext r
  exact if_neg (h r)

theorem atSupports_same {P P' : Problem} (h : SameSupports P P') (R : String → Vec 6) : atSupports P' R = atSupports P R := by
  funext n r
  unfold atSupports
  by_cases hs : SupportAt P n r
  · rw [if_pos hs, if_pos ((h.same n r).mp hs)]
  · rw [if_neg hs, if_neg (fun h' => hs ((h.same n r).mpr h'))]

theorem v3_cancel {a b c : V3} (h : a + b = a + c) : b = c := by
  have h1 := congrArg V3.x h
  have h2 := congrArg V3.y h
  have h3 := congrArg V3.z h
  simp only [V3.add_def] at h1 h2 h3
  ext <;> linarith

theorem moment_sub (a : V3) (d d' : Vec 6) : (a.cross (Spec.trans (d' - d)) + Spec.rot (d' - d)) =
    (a.cross (Spec.trans d') + Spec.rot d') - (a.cross (Spec.trans d) + Spec.rot d) := by
  ext <;> simp [V3.cross, Spec.trans, Spec.rot] <;> ring

theorem list_sum_sub (l : List String) (f g : String → ℝ) : (l.map fun n => f n - g n).sum = (l.map f).sum - (l.map g).sum := by
  induction l with
  | nil => simp
  | cons a l ih => simp only [List.map_cons, List.sum_cons, ih]; ring

/-- The forces of statically determinate supports do not depend on what is between them: two structures with the same supports, loaded by cases
with the same resultant force and moment, have the same support forces, whatever their beams, sections and materials. -/
theorem C158_supports (env : Env) (pre pre' : List Call) (hF : PlainFrame env pre) (hF' : PlainFrame env pre') (c c' : String) (P P' : Problem)
    (hD : Poses pre c P) (hD' : Poses pre' c' P') (hdet : Determinate P) (hS : SameSupports P P')
    (g g' : String → Option ℝ) (names names' : List String)
    (hc : (caseReg.run pre).cur.cases c = some g) (hl : Lists names g)
    (hc' : (caseReg.run pre').cur.cases c' = some g') (hl' : Lists names' g')
    (hforce : P'.frame.caseForce P'.nodes (caseReg.run pre').cur g' names' = P.frame.caseForce P.nodes (caseReg.run pre).cur g names)
    (hmoment : P'.frame.caseMoment P'.nodes (caseReg.run pre').cur g' names' ⟨0, 0, 0⟩ =
      P.frame.caseMoment P.nodes (caseReg.run pre).cur g names ⟨0, 0, 0⟩)
    (u u' : State) (R R' : String → Vec 6) (hR : SupportForces P u R) (hR' : SupportForces P' u' R') :
    ∀ n r, SupportAt P n r → R' n r = R n r := by
  obtain ⟨f1, m1⟩ := C133_all_loads env pre hF c P hD u R hR g names hc hl ⟨0, 0, 0⟩
  obtain ⟨f2, m2⟩ := C133_all_loads env pre' hF' c' P' hD' u' R' hR' g' names' hc' hl' ⟨0, 0, 0⟩
  rw [hforce] at f2
  rw [hmoment] at m2
  have f3 : forceSum P'.nodes R' = forceSum P.nodes R := v3_cancel (f2.trans f1.symm)
  have m3 : momentSum P'.frame P'.nodes ⟨0, 0, 0⟩ R' = momentSum P.frame P.nodes ⟨0, 0, 0⟩ R := v3_cancel (m2.trans m1.symm)
  have nd := nodes_nodup env hD
  have nd' := nodes_nodup env hD'
  set Z := atSupports P R with hZ
  set Z' := atSupports P R' with hZ'
  have a1 : ∀ n ∈ P.nodes, R n = Z n := fun n hn => (atSupports_only hR hn).symm
  have a2 : ∀ n ∈ P'.nodes, R' n = Z' n := fun n hn => by
    rw [hZ', ← atSupports_same hS, atSupports_only hR' hn]
  have zero : ∀ n, Z' n ≠ 0 → (n ∈ P.nodes ∧ n ∈ P'.nodes) ∧ P'.frame.at n = P.frame.at n := by
    intro n hn
    by_cases hx : ∃ r, SupportAt P n r
    · obtain ⟨r, hr⟩ := hx
      refine ⟨⟨hr.1, ((hS.same n r).mp hr).1⟩, ?_⟩
      unfold Blueprint.at
      rw [hS.place n r hr]
    · exact absurd (atSupports_zero (fun r hr => hx ⟨r, hr⟩)) hn
  have nz : ∀ n r, Z' n r ≠ 0 → Z' n ≠ 0 := fun n r h h' => h (by rw [h']; rfl)
  have fs : forceSum P.nodes Z' = forceSum P.nodes Z := by
    have e1 : forceSum P'.nodes R' = forceSum P.nodes Z' := by
      unfold forceSum
      congr 1 <;>
      · rw [List.map_congr_left (fun n hn => by rw [a2 n hn])]
        exact list_sum_shared nd' nd (fun n => Or.inl rfl) (fun n hn => (zero n (nz n _ hn)).1.symm)
    have e2 : forceSum P.nodes R = forceSum P.nodes Z := by
      unfold forceSum
      congr 1 <;> exact congrArg List.sum (List.map_congr_left (fun n hn => by rw [a1 n hn]))
    rw [← e1, ← e2, f3]
  have ms : momentSum P.frame P.nodes ⟨0, 0, 0⟩ Z' = momentSum P.frame P.nodes ⟨0, 0, 0⟩ Z := by
    have ez : ∀ (a : V3), a.cross (Spec.trans (0 : Vec 6)) + Spec.rot (0 : Vec 6) = 0 := by
      intro a; ext <;> simp [V3.cross, Spec.trans, Spec.rot]
    have e1 : momentSum P'.frame P'.nodes ⟨0, 0, 0⟩ R' = momentSum P.frame P.nodes ⟨0, 0, 0⟩ Z' := by
      unfold momentSum
      have hh : ∀ n, ((P'.frame.at n - ⟨0, 0, 0⟩).cross (Spec.trans (Z' n)) + Spec.rot (Z' n)) =
          ((P.frame.at n - ⟨0, 0, 0⟩).cross (Spec.trans (Z' n)) + Spec.rot (Z' n)) := by
        intro n
        by_cases h0 : Z' n = 0
        · rw [h0, ez, ez]
        · rw [(zero n h0).2]
      have hm : ∀ n, ((P'.frame.at n - ⟨0, 0, 0⟩).cross (Spec.trans (Z' n)) + Spec.rot (Z' n)) ≠ 0 → n ∈ P'.nodes ∧ n ∈ P.nodes := by
        intro n hn
        refine (zero n (fun h0 => hn ?_)).1.symm
        rw [h0, ez]
      dsimp only
      congr 1
      · rw [List.map_congr_left (fun n hn => by rw [a2 n hn])]
        exact list_sum_shared nd' nd (fun n => Or.inl (by rw [hh])) (fun n hn => hm n (fun h => hn (by rw [h]; rfl)))
      · rw [List.map_congr_left (fun n hn => by rw [a2 n hn])]
        exact list_sum_shared nd' nd (fun n => Or.inl (by rw [hh])) (fun n hn => hm n (fun h => hn (by rw [h]; rfl)))
      · rw [List.map_congr_left (fun n hn => by rw [a2 n hn])]
        exact list_sum_shared nd' nd (fun n => Or.inl (by rw [hh])) (fun n hn => hm n (fun h => hn (by rw [h]; rfl)))
    have e2 : momentSum P.frame P.nodes ⟨0, 0, 0⟩ R = momentSum P.frame P.nodes ⟨0, 0, 0⟩ Z := by
      unfold momentSum
      dsimp only
      congr 1 <;> exact congrArg List.sum (List.map_congr_left (fun n hn => by rw [a1 n hn]))
    rw [← e1, ← e2, m3]
  have key := hdet (fun n => Z' n - Z n) ?_ ?_ ?_
  · intro n r hs
    have := congrFun (key n) r
    simp only [Pi.sub_apply, Pi.zero_apply, hZ, hZ', atSupports, if_pos hs] at this
    linarith
  · intro n r h
    by_contra hs
    apply h
    simp only [Pi.sub_apply, hZ, hZ', atSupports, if_neg hs, sub_self]
  · unfold forceSum at fs ⊢
    simp only [Pi.sub_apply, list_sum_sub]
    injection fs with q1 q2 q3
    rw [q1, q2, q3]
    ext <;> simp
  · unfold momentSum at ms ⊢
    simp only [moment_sub]
    injection ms with q1 q2 q3
    ext
    · exact (list_sum_sub _ _ _).trans (sub_eq_zero.mpr q1)
    · exact (list_sum_sub _ _ _).trans (sub_eq_zero.mpr q2)
    · exact (list_sum_sub _ _ _).trans (sub_eq_zero.mpr q3)

/-! How many supports -/

/-- resultant force and moment of nodal forces, as six numbers -/
noncomputable def resultant (P : Problem) : (String → Vec 6) →ₗ[ℝ] Vec 6 where
  toFun R := ![(forceSum P.nodes R).x, (forceSum P.nodes R).y, (forceSum P.nodes R).z, (momentSum P.frame P.nodes ⟨0, 0, 0⟩ R).x,
    (momentSum P.frame P.nodes ⟨0, 0, 0⟩ R).y, (momentSum P.frame P.nodes ⟨0, 0, 0⟩ R).z]
  map_add' R R' := by
    funext i
    fin_cases i <;> simp [forceSum, momentSum, ← List.sum_map_add] <;> congr 1 <;> apply List.map_congr_left <;> intro n _ <;>
      simp [V3.cross, Spec.trans, Spec.rot] <;> ring
  map_smul' a R := by
    funext i
    fin_cases i <;> simp [forceSum, momentSum, ← List.sum_map_mul_left, -List.sum_map_add] <;> congr 1 <;> apply List.map_congr_left <;> intro n _ <;>
      simp [V3.cross, Spec.trans, Spec.rot] <;> ring

/-- forces given at a finite set of components -/
noncomputable def forcesAt (S : Finset (String × Fin 6)) : (S → ℝ) →ₗ[ℝ] (String → Vec 6) where
  toFun f := fun n r => open Classical in if h : (n, r) ∈ S then f ⟨(n, r), h⟩ else 0
  map_add' f f' := by
    funext n r
    by_cases h : (n, r) ∈ S <;> simp [h]
  map_smul' a f := by
    funext n r
    by_cases h : (n, r) ∈ S <;> simp [h]

/-- Statically determinate supports are at most six. -/
theorem C158_at_most_six (P : Problem) (hdet : Determinate P) (S : Finset (String × Fin 6)) (hS : ∀ x ∈ S, SupportAt P x.1 x.2) : S.card ≤ 6 := by
  have hinj : Function.Injective ((resultant P).comp (forcesAt S)) := by
    rw [← LinearMap.ker_eq_bot, LinearMap.ker_eq_bot']
    intro f hf
    have hf' : resultant P (forcesAt S f) = 0 := hf
    have c : ∀ i, resultant P (forcesAt S f) i = 0 := fun i => by rw [hf']; rfl
    have h0 := hdet (forcesAt S f) ?_ ?_ ?_
    · funext x
      have := congrFun (h0 x.1.1) x.1.2
      simpa [forcesAt] using this
    · intro n r h
      by_contra hs
      apply h
      have : (n, r) ∉ S := fun hm => hs (hS _ hm)
      simp [forcesAt, this]
    · have c0 := c 0
      have c1 := c 1
      have c2 := c 2
      simp only [resultant, LinearMap.coe_mk, AddHom.coe_mk, cons_val] at c0 c1 c2
      ext
      · exact c0
      · exact c1
      · exact c2
    · have c0 := c 3
      have c1 := c 4
      have c2 := c 5
      simp only [resultant, LinearMap.coe_mk, AddHom.coe_mk, cons_val] at c0 c1 c2
      ext
      · exact c0
      · exact c1
      · exact c2
  have := LinearMap.finrank_le_finrank_of_injective hinj
  simpa using this

/-- the small rigid motion of a part, from six numbers, at a finite set of components -/
noncomputable def motionAt (P : Problem) (part : String → Prop) (S : Finset (String × Fin 6)) : Vec 6 →ₗ[ℝ] (S → ℝ) where
  toFun m := fun x => within part (rigidState P.frame.loc ⟨m 0, m 1, m 2⟩ ⟨m 3, m 4, m 5⟩) x.1.1 x.1.2
  map_add' m m' := by
    funext ⟨⟨n, r⟩, h⟩
    by_cases hp : part n <;> simp only [within, hp, if_true, if_false, Pi.add_apply, Pi.zero_apply, add_zero]
    unfold rigidState
    cases P.frame.loc n <;> fin_cases r <;> simp [V3.cross] <;> ring
  map_smul' a m := by
    funext ⟨⟨n, r⟩, h⟩
    by_cases hp : part n <;> simp only [within, hp, if_true, if_false, Pi.smul_apply, Pi.zero_apply, smul_eq_mul, mul_zero, RingHom.id_apply]
    unfold rigidState
    cases P.frame.loc n <;> fin_cases r <;> simp [V3.cross] <;> ring

/-- In a stable frame every part that no beam connects to the rest has at least six supports. -/
theorem C158_at_least_six (env : Env) (pre : List Call) (hF : PlainFrame env pre) (c : String) (P : Problem) (hD : Poses pre c P)
    (hst : P.frame.Stable P.nodes P.fix) (part : String → Prop) (hp : Separate P.frame part) (m : String) (hm : m ∈ P.nodes) (hpm : part m)
    (S : Finset (String × Fin 6)) (hS : ∀ n r, part n → SupportAt P n r → (n, r) ∈ S) : 6 ≤ S.card := by
  have hloc : ∀ n ∈ P.nodes, P.frame.loc n = some (P.frame.at n) := by
    intro n hn
    rw [hD.nodes] at hn
    rw [hD.frame]
    exact located (env := env) hn
  have hnone : ∀ n, n ∉ P.nodes → P.frame.loc n = none := by
    intro n hn
    rw [hD.nodes] at hn
    rw [hD.frame, ← blueprint_refined env pre]
    simp only [blueprintOf, Option.map_eq_none_iff]
    rw [← (C02_node_registry env pre).1] at hn
    by_contra h
    exact hn ((Dict.get?_isSome_iff _ _).mp (Option.ne_none_iff_isSome.mp h))
  have hinj : Function.Injective (motionAt P part S) := by
    rw [← LinearMap.ker_eq_bot, LinearMap.ker_eq_bot']
    intro d hd
    have h0 : within part (rigidState P.frame.loc ⟨d 0, d 1, d 2⟩ ⟨d 3, d 4, d 5⟩) m = 0 := by
      apply hst _ _ _ m hm
      · rw [obeys_iff]
        intro n r hr
        by_cases hpn : part n
        · by_cases hn : n ∈ P.nodes
          · exact congrFun hd ⟨(n, r), hS n r hpn ⟨hn, hr⟩⟩
          · rw [show within part (rigidState P.frame.loc ⟨d 0, d 1, d 2⟩ ⟨d 3, d 4, d 5⟩) n = _ from if_pos hpn]
            unfold rigidState
            rw [hnone n hn]; rfl
        · rw [show within part (rigidState P.frame.loc ⟨d 0, d 1, d 2⟩ ⟨d 3, d 4, d 5⟩) n = 0 from if_neg hpn]; rfl
      · rw [hD.frame] at hp ⊢
        exact part_rigid hF.readd part hp _ _ _
    rw [show within part (rigidState P.frame.loc ⟨d 0, d 1, d 2⟩ ⟨d 3, d 4, d 5⟩) m = _ from if_pos hpm] at h0
    unfold rigidState at h0
    rw [hloc m hm] at h0
    have e3 : d 3 = 0 := by simpa using congrFun h0 3
    have e4 : d 4 = 0 := by simpa using congrFun h0 4
    have e5 : d 5 = 0 := by simpa using congrFun h0 5
    have e0 := congrFun h0 0
    have e1 := congrFun h0 1
    have e2 := congrFun h0 2
    simp [V3.cross, e3, e4, e5] at e0 e1 e2
    funext i
    fin_cases i <;> simp [*]
  have := LinearMap.finrank_le_finrank_of_injective hinj
  simpa using this

/-! ### C159 -/

theorem given_rigid {g : GivenBeam} {cs : Csys} (h : lineCsys g.p g.q = .ok cs) {loc : String → Option V3} (h1 : loc g.start = some g.p)
    (h2 : loc g.stop = some g.q) (t ω : V3) (w : State) : g.internal w (rigidState loc t ω) = 0 := by
  let be : BeamElm := ⟨"", g.start, g.p, g.stop, g.q, cs, fun _ => false,
    .simple g.sec.mat.E g.sec.mat.mu g.sec.A g.sec.I2 g.sec.I3 g.sec.J g.sec.mat.rho⟩
  have e : givenBeam be = g := rfl
  have hc : lineCsys be.startLoc be.endLoc = .ok be.csys := h
  have := beam_rigid hc (loc := loc) h1 h2 t ω w
  rwa [← givenBeam_internal (lineCsys_ok hc).2.1 hc, e] at this

/-- a state of the structure, continued rigidly over the branch -/
noncomputable def continued (P P' : Problem) (k : String) (v : State) : State := fun n =>
  open Classical in if n ∈ P.nodes then v n else rigidlyWith (v k) (P'.frame.at k) (P'.frame.at n)

theorem rigidlyWith_rigid {loc : String → Option V3} {n : String} {x : V3} (h : loc n = some x) (d : Vec 6) (y : V3) :
    rigidlyWith d y x = rigidState loc (Spec.trans d - (Spec.rot d).cross y) (Spec.rot d) n := by
  unfold rigidState rigidlyWith
  rw [h]
  funext i
  fin_cases i <;> simp [V3.cross, Spec.trans, Spec.rot] <;> ring

theorem rigidlyWith_self (d : Vec 6) (y : V3) : rigidlyWith d y y = d := by
  unfold rigidlyWith
  funext i
  fin_cases i <;> simp [V3.cross, Spec.trans, Spec.rot]

/-- A branch without loads and supports does not change the displacements of the structure it hangs on, and moves rigidly with the node
where it is attached. -/
theorem C159_branch (env : Env) (henv : env.SolverSound) (pre pre' mid mid' : List Call) (hF : PlainFrame env pre)
    (hF' : PlainFrame env pre') (c c' : String) (P P' : Problem) (hD : Poses pre c P) (hD' : Poses pre' c' P')
    (hst : P'.frame.Stable P'.nodes P'.fix) (k : String) (hB : Branched P P' k) (u u' : State) (hu : Reports env pre mid c u)
    (hu' : Reports env pre' mid' c' u') :
    (∀ n ∈ P.nodes, u' n = u n) ∧
    ∀ n ∈ P'.nodes, n ∉ P.nodes → u' n = rigidlyWith (u' k) (P'.frame.at k) (P'.frame.at n) := by
  have hS := hD.sane env
  have hS' := hD'.sane env
  have hE : EndsLocated P'.frame := by rw [hD'.frame]; exact ends_located hF'.readd
  have hloc : ∀ n ∈ P'.nodes, P'.frame.loc n = some (P'.frame.at n) := by
    intro n hn
    rw [hD'.nodes] at hn
    rw [hD'.frame]
    exact located (env := env) hn
  have cin : ∀ v n, n ∈ P.nodes → continued P P' k v n = v n := fun v n hn => if_pos hn
  have cout : ∀ v n, n ∉ P.nodes → continued P P' k v n = rigidlyWith (v k) (P'.frame.at k) (P'.frame.at n) := fun v n hn => if_neg hn
  have crig : ∀ v n, n ∈ P'.nodes → (n ∈ P.nodes → n = k) →
      continued P P' k v n = rigidState P'.frame.loc (Spec.trans (v k) - (Spec.rot (v k)).cross (P'.frame.at k)) (Spec.rot (v k)) n := by
    intro v n hn hk
    rw [← rigidlyWith_rigid (hloc n hn)]
    by_cases h : n ∈ P.nodes
    · rw [cin v n h, hk h, rigidlyWith_self]
    · exact cout v n h
  have ob : ∀ v, Obeys P.fix v → Obeys P'.fix (continued P P' k v) := by
    intro v hv n f hf r hr
    by_cases h : n ∈ P.nodes
    · rw [cin v n h]; exact hv n f (by rw [← hB.fix n h]; exact hf) r hr
    · exact absurd ⟨f, hf, hr⟩ (hB.free n r h)
  have ob' : ∀ v, Obeys P'.fix v → Obeys P.fix (only P.nodes v) := by
    intro v hv n f hf r hr
    by_cases h : n ∈ P.nodes
    · rw [only_mem h]; exact hv n f (by rw [hB.fix n h]; exact hf) r hr
    · rw [only_not h]; rfl
  have ii : ∀ w x, P'.frame.internal w (continued P P' k x) = P.frame.internal w x := by
    intro w x
    rw [internal_congr hS (u := x) (u' := continued P P' k x) (fun _ _ => rfl) (fun n hn => (cin x n hn).symm)]
    apply internal_compare hS hS'
    intro b
    cases h : P.frame.beam b with
    | some g => rw [term_some h, term_some (hB.beam b g h)]
    | none =>
      rw [term_none h]
      cases h' : P'.frame.beam b with
      | none => rw [term_none h']
      | some g =>
        obtain ⟨⟨cs, hcs⟩, l1, l2⟩ := hE b ((hS'.mem b).mpr (by rw [h']; rfl)) g h'
        obtain ⟨a1, a2⟩ := hB.apart b g h h'
        rw [term_some h', internal_eq hcs, ends_congr (crig x _ (hS'.start b g h') a1) (crig x _ (hS'.stop b g h') a2), ← internal_eq hcs]
        exact given_rigid hcs l1 l2 _ _ _
  have hst0 : P.frame.Stable P.nodes P.fix := by
    intro v hv h0 n hn
    have := hst _ (ob v hv) (by
      rw [ii, internal_congr hS (fun n hn => cin v n hn) (fun _ _ => rfl)]; exact h0) n (hB.nodes n hn)
    rwa [cin v n hn] at this
  obtain ⟨x, h1, h2, h3⟩ := reports_equilibrium henv hF hD hst0 hu
  obtain ⟨y, k1, k2, k3⟩ := reports_equilibrium henv hF' hD' hst hu'
  have := same_answer hS' hst (ob x h2) k2 (load := P'.load) (fun v hv => by
    rw [ii, internal_congr hS (v' := only P.nodes v) (fun n hn => (only_mem hn v).symm) (fun _ _ => rfl), h3 _ (ob' v hv), hB.load]
    exact hD.congr env (fun n hn => only_mem hn v)) k3
  have old : ∀ n ∈ P.nodes, u' n = u n := by
    intro n hn
    rw [k1 n (hB.nodes n hn), h1 n hn, ← this n (hB.nodes n hn), cin x n hn]
  refine ⟨old, ?_⟩
  intro n hn hno
  rw [k1 n hn, ← this n hn, cout x n hno, old k hB.root, h1 k hB.root]

end Hyperstatic
