import Verif.Lemmas.Solve

namespace Hyperstatic
open Matrix Spec

/-! files along histories -/

theorem no0k_step (env : Env) (w : World) (c : Call) (h : w.fs.get? "0.k" = none) : (w.step env c).1.fs.get? "0.k" = none := by
  by_cases hc : c.isEdit = true
  · rw [step_edit env w c hc]; split <;> exact h
  · cases c <;> first | (exact absurd rfl hc) | skip
    · simp only [World.step]
      split
      · rw [Dict.get?_set_ne _ _ (by decide)]; exact h
      · exact h
    · rename_i case
      simp only [World.step]
      rcases solveLinear_fs env w.fs Api.filename case with e | ⟨K, e⟩ | ⟨K, d, e⟩
      · rw [e]; exact h
      · rw [e, Dict.get?_set_ne _ _ (by decide)]; exact h
      · rw [e, Dict.get?_set_ne _ _ (by rw [disp_eq]; exact append_ne_0k (by decide)),
          Dict.get?_set_ne _ _ (by decide)]; exact h
    · exact h
    · simp only [World.step]
      rw [Dict.get?_set_ne _ _ (append_ne_0k (by decide))]; exact h
    · simp only [World.step]; split <;> exact h
    · exact h

/-- no file `0.k` is ever present -/
theorem no0k_run (env : Env) (w : World) (cs : List Call) (h : w.fs.get? "0.k" = none) :
    (w.run env cs).fs.get? "0.k" = none := by
  induction cs generalizing w with
  | nil => exact h
  | cons c cs ih => exact ih _ (no0k_step env w c h)

theorem no0k_init (env : Env) (cs : List Call) : (World.init.run env cs).fs.get? "0.k" = none :=
  no0k_run env _ cs rfl

/-- calls other than `assemble` leave the assembly alone -/
theorem asb_step (env : Env) (w : World) (c : Call) (hc : c ≠ .assemble) :
    (w.step env c).1.fs.get? Api.filename = w.fs.get? Api.filename := by
  by_cases he : c.isEdit = true
  · rw [step_edit env w c he]; split <;> rfl
  · cases c <;> first | (exact absurd rfl he) | (exact absurd rfl hc) | skip
    · rename_i case
      simp only [World.step]
      rcases solveLinear_fs env w.fs Api.filename case with e | ⟨K, e⟩ | ⟨K, d, e⟩
      · rw [e]
      · rw [e, Dict.get?_set_ne]; decide
      · rw [e, Dict.get?_set_ne _ _ (by rw [disp_eq]; exact disp_ne_asb _), Dict.get?_set_ne]; decide
    · rfl
    · simp only [World.step]
      exact Dict.get?_set_ne _ _ (sep_ne_asb _)
    · simp only [World.step]; split <;> rfl
    · rfl

theorem asb_run (env : Env) (w : World) (cs : List Call) (hc : ∀ c ∈ cs, c ≠ .assemble) :
    (w.run env cs).fs.get? Api.filename = w.fs.get? Api.filename := by
  induction cs generalizing w with
  | nil => rfl
  | cons c cs ih =>
    rw [run_cons, ih _ (fun c hc' => hc c (List.mem_cons_of_mem _ hc')), asb_step env w c (hc c List.mem_cons_self)]

/-- reachable models can always be assembled -/
theorem ApiInv.assembly_ok {a : Api} (h : ApiInv a) : ∃ x, a.assembly = .ok x := by
  unfold Api.assembly Assembly.mk?
  rw [restraintDofs_eq h h.rest_keys]
  exact ⟨_, rfl⟩

theorem openAssembly_of_get {A : Type} {fs : Dict (File A)} {f : String} {x : Assembly} (h : fs.get? f = some (.asb x)) :
    openAssembly fs f = .ok x := by unfold openAssembly; rw [h]

/-- a static solution in a world with an assembly and no `0.k` -/
theorem solveStatic_eq (env : Env) {w : World} {x : Assembly} (hx : w.fs.get? Api.filename = some (.asb x))
    (h0 : w.fs.get? "0.k" = none) (c : String) :
    w.step env (.solveStatic c) = match x.assembleK env with
      | .error _ => (w, false)
      | .ok K => match solveCase env x c K with
        | .error _ => ({ w with fs := w.fs.set "0.k.npy" (.stiff K) }, false)
        | .ok d => ({ w with fs := Dict.set (w.fs.set "0.k.npy" (.stiff K)) (c ++ ".d.npy") (.disp d) }, true) := by
  have hc : Dict.contains w.fs "0.k" = false := by
    rw [← Bool.not_eq_true, Dict.contains_iff, ← Dict.get?_eq_none_iff]; exact h0
  simp only [World.step, solveLinear, openAssembly_of_get hx, hc, Bool.false_eq_true, if_false]
  cases x.assembleK env with
  | error e => rfl
  | ok K =>
    simp only
    cases solveCase env x c K with
    | error e => rfl
    | ok d => simp only [disp_eq]; rfl

/-- a successful static solution -/
theorem solveStatic_true (env : Env) {w : World} {x : Assembly} (hx : w.fs.get? Api.filename = some (.asb x))
    (h0 : w.fs.get? "0.k" = none) {c : String} (hret : (w.step env (.solveStatic c)).2 = true) :
    ∃ K d, x.assembleK env = .ok K ∧ solveCase env x c K = .ok d ∧
      (w.step env (.solveStatic c)).1 = { w with fs := Dict.set (w.fs.set "0.k.npy" (.stiff K)) (c ++ ".d.npy") (.disp d) } := by
  rw [solveStatic_eq env hx h0] at hret ⊢
  cases hK : x.assembleK env with
  | error e => rw [hK] at hret; cases hret
  | ok K =>
    rw [hK] at hret
    simp only at hret ⊢
    cases hd : solveCase env x c K with
    | error e => rw [hd] at hret; cases hret
    | ok d => exact ⟨K, d, rfl, hd, rfl⟩

/-- what is reported after it -/
theorem reported (env : Env) {w : World} {x : Assembly} (hx : w.fs.get? Api.filename = some (.asb x))
    (K : Coo) (d : List ℝ) (c n : String) :
    World.resultGetNodalDisplacement { w with fs := Dict.set (w.fs.set "0.k.npy" (.stiff K)) (c ++ ".d.npy") (.disp d) } n c
      = match x.model.hidNode.get? n with
        | some h => some ((d.drop (h * 6)).take 6)
        | none => none := by
  unfold World.resultGetNodalDisplacement resolveNodalDisplacement
  have h1 : (Dict.set (w.fs.set "0.k.npy" (.stiff K)) (c ++ ".d.npy") (.disp d)).get? Api.filename = some (.asb x) := by
    have e := Dict.get?_set_ne (w.fs.set "0.k.npy" (.stiff K)) (.disp d) (disp_ne_asb c)
    refine Eq.trans e ?_
    rw [Dict.get?_set_ne _ _ (by decide)]; exact hx
  simp only [openAssembly_of_get h1, Except.bind_ok, loadDisp, Dict.get?_set_same, FeModel.getNodeHid]
  cases hh : x.model.hidNode.get? n with
  | none => rw [Dict.getItem_of_none hh]; rfl
  | some i => rw [Dict.getItem_of_some hh]; rfl

theorem slice_range (N h : ℕ) (hh : h < N) (U : ℕ → ℝ) :
    (((List.range (N * 6)).map U).drop (h * 6)).take 6 = List.ofFn (fun r : Fin 6 => U (h * 6 + r.val)) := by
  apply List.ext_getElem
  · simp; omega
  · intro i h1 h2
    rw [List.getElem_ofFn]
    simp

/-! restraints of a case -/

theorem governing_wf {a : Api} (h : ApiInv a) {lc : LoadCase} {c : String} (hlc : CaseInv a.heap c lc) :
    (governing a.model lc).WF := by
  unfold governing
  split
  · exact h.rest_wf
  · exact hlc.rest_wf

/-- the restrained positions used by both parts of the solver -/
theorem case_restraints {a : Api} (h : ApiInv a) {x : Assembly} (hx : a.assembly = .ok x) {c : String} {lc : LoadCase}
    (hc : a.loadcases.get? c = some lc) (hu : Unambiguous a.model lc)
    {fixed : List ℕ} (hf : restraintDofs a.model (governing a.model lc) = .ok fixed) :
    x.boundaryDofs c = .ok fixed ∧ solverRestraints x c = .ok fixed := by
  obtain ⟨h1, h2, h3, h4, h5⟩ := h.assembly_eq hx
  have hlc := h.case_ok c lc hc
  rw [← h3] at hc
  unfold Assembly.boundaryDofs solverRestraints Assembly.restraintDOF
  simp only [Dict.getItem_of_some hc, Except.bind_ok, h1]
  cases hr : lc.restraint with
  | nil =>
    unfold governing at hf
    rw [hr] at hf
    simp only at hf
    have h0 : restraintDofs a.model [] = .ok [] := rfl
    rw [h0, Except.bind_ok, h4]
    rw [h4] at hf
    cases hf
    exact ⟨rfl, rfl⟩
  | cons p ps =>
    unfold governing at hf
    rw [hr] at hf
    simp only at hf
    simp only [hf, Except.bind_ok]
    refine ⟨trivial, ?_⟩
    split
    · rename_i hlen
      have hnil : fixed = [] := List.length_eq_zero_iff.mp hlen
      rcases hu with hu | ⟨n, f, r, h6, h7⟩ | hu
      · rw [hr] at hu; cases hu
      · rw [hr] at h6
        have hwf : Dict.WF (p :: ps) := hr ▸ hlc.rest_wf
        have := (mem_restraintDofs h hwf hf _).mpr ⟨n, f, r, h6, h7, rfl⟩
        rw [hnil] at this
        cases this
      · rw [h4, hnil]
        congr 1
        apply List.eq_nil_iff_forall_not_mem.mpr
        intro i hi
        obtain ⟨n, f, r, h6, h7, _⟩ := (mem_restraintDofs h h.rest_wf h4 i).mp hi
        rw [hu n f r h6] at h7
        cases h7
    · rfl

/-! symmetry -/

theorem beamInternal_symm (b : BeamElm) (v u : State) : beamInternal b v u = beamInternal b u v := by
  unfold beamInternal; exact beamWork_comm _ _ _ _

theorem internalWork_symm {a : Api} (h : ApiInv a) {env : Env} (hs : ShellsSymm env a.model) (v u : State) :
    internalWork env a.model v u = internalWork env a.model u v := by
  unfold internalWork
  congr 2
  · apply List.map_congr_left
    rintro ⟨b, be⟩ _
    exact beamInternal_symm be v u
  · apply List.map_congr_left
    rintro ⟨s, se⟩ hm
    have hse := (Dict.mem_iff_get? h.shells_wf s se).mp hm
    have hsy := hs s se hse
    unfold shellInternal
    rcases (h.shell_ok s se hse).1 with h4 | h3
    · rw [if_pos h4, if_pos h4, Matrix.dotProduct_mulVec, ← Matrix.mulVec_transpose, hsy.1 h4, dotProduct_comm]
    · have h4 : ¬ se.nodes.length = 4 := by omega
      rw [if_neg h4, if_neg h4, Matrix.dotProduct_mulVec, ← Matrix.mulVec_transpose, hsy.2 h3, dotProduct_comm]

theorem symWork_eq {a : Api} (h : ApiInv a) {env : Env} (hs : ShellsSymm env a.model) (v u : State) :
    symWork env a.model v u = internalWork env a.model v u := by
  unfold symWork
  rw [internalWork_symm h hs u v]; ring

/-! linearity -/

theorem trans_lin (a b : ℝ) (u v : Vec 6) : Spec.trans (a • u + b • v) = a • Spec.trans u + b • Spec.trans v := by
  simp [Spec.trans]

theorem rot_lin (a b : ℝ) (u v : Vec 6) : Spec.rot (a • u + b • v) = a • Spec.rot u + b • Spec.rot v := by
  simp [Spec.rot]

theorem V3.dot_lin (c : V3) (a b : ℝ) (u v : V3) : c.dot (a • u + b • v) = a * c.dot u + b * c.dot v := by
  simp [V3.dot]; ring

theorem localEnds_lin (c : Csys) (a b : ℝ) (ui uj vi vj : Vec 6) :
    localEnds c (a • ui + b • vi) (a • uj + b • vj) = a • localEnds c ui uj + b • localEnds c vi vj := by
  unfold localEnds
  simp only [trans_lin, rot_lin, V3.dot_lin]
  ext k
  fin_cases k <;> simp

theorem bendWork_lin_right (EI l a b α β α' β' γ δ : ℝ) :
    bendWork EI l (a * α + b * γ) (a * β + b * δ) α' β' = a * bendWork EI l α β α' β' + b * bendWork EI l γ δ α' β' := by
  unfold bendWork; ring

theorem beamWork_lin_right (c : BeamConsts) (l a b : ℝ) (v d e : Vec 12) :
    beamWork c l v (a • d + b • e) = a * beamWork c l v d + b * beamWork c l v e := by
  unfold beamWork bendWork
  simp only [Pi.add_apply, Pi.smul_apply, smul_eq_mul]
  ring

theorem beamInternal_lin (be : BeamElm) (a b : ℝ) (v u w : State) :
    beamInternal be v (a • u + b • w) = a * beamInternal be v u + b * beamInternal be v w := by
  unfold beamInternal beamEnds
  simp only [Pi.add_apply, Pi.smul_apply, localEnds_lin, beamWork_lin_right]

theorem shellEnds_lin {m : ℕ} (se : ShellElm) (a b : ℝ) (u w : State) :
    (shellEnds se (a • u + b • w) : Vec m) = a • shellEnds se u + b • shellEnds se w := by
  funext k
  simp only [shellEnds, Pi.add_apply, Pi.smul_apply]
  cases se.nodes[k.val / 6]? <;> simp

theorem list_sum_lin {α : Type} (l : List α) (f g h : α → ℝ) (a b : ℝ) (hf : ∀ p, f p = a * g p + b * h p) :
    (l.map f).sum = a * (l.map g).sum + b * (l.map h).sum := by
  induction l with
  | nil => simp
  | cons p l ih => rw [List.map_cons, List.sum_cons, ih, hf]; simp only [List.map_cons, List.sum_cons]; ring

theorem shellInternal_lin (env : Env) (se : ShellElm) (a b : ℝ) (v u w : State) :
    shellInternal env se v (a • u + b • w) = a * shellInternal env se v u + b * shellInternal env se v w := by
  unfold shellInternal
  split_ifs <;>
  simp only [shellEnds_lin, Matrix.mulVec_add, Matrix.mulVec_smul, dotProduct_add, dotProduct_smul, smul_eq_mul]

theorem shellInternal_lin_left (env : Env) (se : ShellElm) (a b : ℝ) (v w u : State) :
    shellInternal env se (a • v + b • w) u = a * shellInternal env se v u + b * shellInternal env se w u := by
  unfold shellInternal
  split_ifs <;> simp only [shellEnds_lin, add_dotProduct, smul_dotProduct, smul_eq_mul]

theorem beamInternal_lin_left (be : BeamElm) (a b : ℝ) (v w u : State) :
    beamInternal be (a • v + b • w) u = a * beamInternal be v u + b * beamInternal be w u := by
  rw [beamInternal_symm, beamInternal_lin, beamInternal_symm be u v, beamInternal_symm be u w]

theorem internalWork_lin (env : Env) (m : FeModel) (a b : ℝ) (v u w : State) :
    internalWork env m v (a • u + b • w) = a * internalWork env m v u + b * internalWork env m v w := by
  unfold internalWork
  rw [list_sum_lin m.beams _ _ _ a b (fun p => beamInternal_lin p.2 a b v u w),
    list_sum_lin m.shells _ _ _ a b (fun p => shellInternal_lin env p.2 a b v u w)]
  ring

theorem internalWork_lin_left (env : Env) (m : FeModel) (a b : ℝ) (v w u : State) :
    internalWork env m (a • v + b • w) u = a * internalWork env m v u + b * internalWork env m w u := by
  unfold internalWork
  rw [list_sum_lin m.beams _ _ _ a b (fun p => beamInternal_lin_left p.2 a b v w u),
    list_sum_lin m.shells _ _ _ a b (fun p => shellInternal_lin_left env p.2 a b v w u)]
  ring

theorem symWork_lin (env : Env) (m : FeModel) (a b : ℝ) (v u w : State) :
    symWork env m v (a • u + b • w) = a * symWork env m v u + b * symWork env m v w := by
  unfold symWork
  rw [internalWork_lin, internalWork_lin_left]; ring

theorem Respects.lin {t : Dict Flags} {u v : State} (hu : Respects t u) (hv : Respects t v) (a b : ℝ) :
    Respects t (a • u + b • v) := by
  intro n f hn r hf
  simp [hu n f hn r hf, hv n f hn r hf]

/-- uniqueness of the equilibrium configuration -/
theorem equilibrium_unique {env : Env} {m : FeModel} {t : Dict Flags} (hst : Stable env m t) {u w : State}
    (hu : Respects t u) (hw : Respects t w)
    (h : ∀ v, Respects t v → symWork env m v u = symWork env m v w) : ∀ n ∈ m.nodes.keys, u n = w n := by
  intro n hn
  have hr : Respects t ((1 : ℝ) • u + (-1 : ℝ) • w) := Respects.lin hu hw 1 (-1)
  have h0 : internalWork env m ((1 : ℝ) • u + (-1 : ℝ) • w) ((1 : ℝ) • u + (-1 : ℝ) • w) = 0 := by
    rw [← symWork_self, symWork_lin, h _ hr]; ring
  have := hst _ hr h0 n hn
  funext r
  have := congrFun this r
  simp at this
  linarith

/-- The result of a static solution, at the level of node names. -/
theorem solve_reported (env : Env) (henv : env.SolverSound) {a : Api} (h : FreshInv a) {x : Assembly} (hx : a.assembly = .ok x)
    {w : World} (hw : w.fs.get? Api.filename = some (.asb x)) (h0 : w.fs.get? "0.k" = none) {c : String} {lc : LoadCase}
    (hc : a.loadcases.get? c = some lc) (hu : Unambiguous a.model lc) (hst : Stable env a.model (governing a.model lc))
    (hret : (w.step env (.solveStatic c)).2 = true) :
    ∃ u : State, (∀ n ∈ a.model.nodes.keys,
        (w.step env (.solveStatic c)).1.resultGetNodalDisplacement n c = some (List.ofFn (u n))) ∧
      Respects (governing a.model lc) u ∧
      ∀ v, Respects (governing a.model lc) v → symWork env a.model v u = externalWork a.model a.heap lc v := by
  have hA := h.toApiInv
  obtain ⟨h1, h2, h3, h4, h5⟩ := hA.assembly_eq hx
  obtain ⟨K, d, hK, hd, hstep⟩ := solveStatic_true env hw h0 hret
  have hlc := hA.case_ok c lc hc
  have hwf := governing_wf hA hlc
  -- the restraint table of the case only names existing nodes, otherwise there is no solution
  have hfix : ∃ fixed, restraintDofs a.model (governing a.model lc) = .ok fixed := by
    unfold governing
    cases hr : lc.restraint with
    | nil => exact ⟨_, h4⟩
    | cons p ps =>
      have hd' := hd
      unfold solveCase at hd'
      simp only [Except.bind_ok_iff] at hd'
      obtain ⟨f, _, K', hK', _⟩ := hd'
      unfold Assembly.boundaryMatrix at hK'
      simp only [Except.bind_ok_iff] at hK'
      obtain ⟨fixed, hb, _⟩ := hK'
      unfold Assembly.boundaryDofs at hb
      rw [h3, Dict.getItem_of_some hc, Except.bind_ok, hr, h1] at hb
      exact ⟨fixed, hb⟩
  obtain ⟨fixed, hf⟩ := hfix
  obtain ⟨hb, hr⟩ := case_restraints hA hx hc hu hf
  obtain ⟨U, hU1, hU2, hU3⟩ := solveCase_spec env henv h h1 (by rw [h3]; exact hc) (by rw [h2]; exact hlc) hK hwf hf hb hr hst hd
  refine ⟨gat a.model U, ?_, hU2, ?_⟩
  · intro n hn
    rw [hstep, reported env hw, h1, (h.hidOf_lt hn).1, hU1]
    simp only
    rw [slice_range _ _ (h.hidOf_lt hn).2.1]
    rfl
  · intro v hv
    have hkeys := restraintDofs_keys hA hf
    have hv' : ∀ i ∈ fixed, glob a.model v i = 0 := by
      apply (respects_iff hA hwf hf _).mp
      exact Respects.congr hkeys (fun n hn => (h.gat_glob v hn).symm) hv
    have := hU3 _ hv'
    unfold symWork at this ⊢
    rw [internalWork_congr env hA (fun n hn => h.gat_glob v hn) (fun n _ => rfl),
      internalWork_congr env hA (fun n _ => rfl) (fun n hn => h.gat_glob v hn)] at this
    rw [this, h2]
    rw [externalWork_eq, externalWork_eq]
    congr 2
    · apply List.map_congr_left
      rintro ⟨n, nd⟩ hm
      simp only
      rw [h.gat_glob v (List.mem_map.mpr ⟨_, hm, rfl⟩)]
    · apply List.map_congr_left
      rintro ⟨b, be⟩ hm
      obtain ⟨_, hs, ht, _⟩ := hA.beam_ok b be ((Dict.mem_iff_get? h.beams_wf b be).mp hm)
      unfold beamEnds
      rw [h.gat_glob v hs, h.gat_glob v ht]

/-- Static solutions of stable structures succeed. -/
theorem solve_succeeds (env : Env) (henv : env.SolverSound) {a : Api} (h : FreshInv a) {x : Assembly} (hx : a.assembly = .ok x)
    {w : World} (hw : w.fs.get? Api.filename = some (.asb x)) (h0 : w.fs.get? "0.k" = none) {c : String} {lc : LoadCase}
    (hc : a.loadcases.get? c = some lc) (hu : Unambiguous a.model lc) (hst : Stable env a.model (governing a.model lc))
    (hmu : ∀ b be, a.model.beams.get? b = some be → muOf be.prop ≠ -1)
    (hk : ∀ n ∈ lc.restraint.keys, n ∈ a.model.nodes.keys)
    (hfree : ∃ n ∈ a.model.nodes.keys, ∃ r, ∀ f, (governing a.model lc).get? n = some f → f r = false) :
    (w.step env (.solveStatic c)).2 = true := by
  have hA := h.toApiInv
  obtain ⟨h1, h2, h3, h4, h5⟩ := hA.assembly_eq hx
  have hlc := hA.case_ok c lc hc
  have hwf := governing_wf hA hlc
  have hkg : ∀ n ∈ (governing a.model lc).keys, n ∈ a.model.nodes.keys := by
    unfold governing
    split
    · exact hA.rest_keys
    · exact hk
  have hf := restraintDofs_eq hA hkg
  obtain ⟨hb, hr⟩ := case_restraints hA hx hc hu hf
  obtain ⟨K, hK⟩ := (assembleK_ok_iff env h h1).mpr hmu
  have hlen : 0 < (free (a.model.nodeCount * 6)
      ((governing a.model lc).map fun it => flagDofs (hidOf a.model it.1) it.2).flatten).length := by
    obtain ⟨n, hn, r, hnr⟩ := hfree
    apply List.length_pos_of_mem (a := hidOf a.model n * 6 + r.val)
    rw [mem_free]
    refine ⟨by have := (h.hidOf_lt hn).2.1; have := r.isLt; omega, ?_⟩
    intro hmem
    obtain ⟨n', f, r', e1, e2, e3⟩ := (mem_restraintDofs hA hwf hf _).mp hmem
    have hh : hidOf a.model n = hidOf a.model n' := by have := r.isLt; have := r'.isLt; omega
    have hrr : r = r' := by apply Fin.ext; omega
    have := h.hidOf_inj hn (hkg n' (Dict.mem_keys_of_get? e1)) hh
    subst this
    subst hrr
    rw [hnr f e1] at e2
    cases e2
  obtain ⟨d, hd⟩ := solveCase_ok env henv h h1 (by rw [h3]; exact hc) (by rw [h2]; exact hlc) hmu hK hwf hf hb hr hst hlen
  rw [solveStatic_eq env hw h0, hK]
  simp only [hd]

end Hyperstatic
