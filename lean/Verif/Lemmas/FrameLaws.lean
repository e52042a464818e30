import Verif.Spec.FrameLaws
import Verif.Props.FrameMap

namespace Hyperstatic
open Matrix Spec

/-- A change of variables at every node that multiplies internal work and work of the loads by the same factor carries the answer over. -/
theorem transfer {env : Env} (henv : env.SolverSound) {pre pre' mid mid' : List Call} (hF : PlainFrame env pre) (hF' : PlainFrame env pre')
    {c c' : String} {P P' : Problem} (hD : Poses pre c P) (hD' : Poses pre' c' P') (hst : P.frame.Stable P.nodes P.fix)
    (hn : P'.nodes = P.nodes) (τ τi : Vec 6 → Vec 6) (hτ : ∀ a, τ (τi a) = a) (h0 : τ 0 = 0) {k : ℝ} (hk : k ≠ 0)
    (hint : ∀ v x : State, P'.frame.internal (fun n => τ (v n)) (fun n => τ (x n)) = k * P.frame.internal v x)
    (hfix : ∀ v : State, Obeys P'.fix (fun n => τ (v n)) ↔ Obeys P.fix v)
    (hload : ∀ v : State, P'.load (fun n => τ (v n)) = k * P.load v)
    {u u' : State} (hu : Reports env pre mid c u) (hu' : Reports env pre' mid' c' u') : ∀ n ∈ P.nodes, u' n = τ (u n) := by
  have hS' := hD'.sane env
  have inv : ∀ v : State, (fun n => τ (τi (v n))) = v := fun v => funext fun n => hτ (v n)
  obtain ⟨x, h1, h2, h3⟩ := reports_equilibrium henv hF hD hst hu
  have hst' : P'.frame.Stable P'.nodes P'.fix := by
    intro v hv hz
    have hv' : Obeys P'.fix (fun n => τ (τi (v n))) := by rw [inv]; exact hv
    have hz' : k * P.frame.internal (fun n => τi (v n)) (fun n => τi (v n)) = 0 := by rw [← hint, inv]; exact hz
    intro n hn'
    have := hst _ ((hfix _).mp hv') ((mul_eq_zero.mp hz').resolve_left hk) n (hn ▸ hn')
    have e : τ (τi (v n)) = 0 := by
      have : τi (v n) = 0 := this
      rw [this, h0]
    rw [← hτ (v n), e]
  obtain ⟨y, k1, k2, k3⟩ := reports_equilibrium henv hF' hD' hst' hu'
  have hxy := same_answer hS' hst' k2 ((hfix x).mpr h2) k3 (by
    intro v hv
    have hv' : Obeys P'.fix (fun n => τ (τi (v n))) := by rw [inv]; exact hv
    rw [← inv v, hint, hload, h3 _ ((hfix _).mp hv')])
  intro n hmem
  rw [k1 n (by rw [hn]; exact hmem), hxy n (by rw [hn]; exact hmem), h1 n hmem]

/-- simulation between two machines, the second fed with translated calls; only the calls of the history matter -/
theorem run_sim_mem {S S' : Type} (M : Machine S) (M' : Machine S') (R : S → S' → Prop) (f : Call → Call) (hs : ∀ n, f (.save n) = .save n)
    (hl : ∀ n, f (.load n) = .load n)
    (hother : ∀ c, (∀ n, c ≠ .save n) → (∀ n, c ≠ .load n) → (∀ n, f c ≠ .save n) ∧ (∀ n, f c ≠ .load n))
    (hinit : R M.init M'.init) (cs : List Call) (hedit : ∀ s s', ∀ c ∈ cs, R s s' → R (M.edit s c) (M'.edit s' (f c))) :
    R (M.run cs).cur (M'.run (cs.map f)).cur := by
  have key : ∀ (ds : List Call), (∀ c ∈ ds, c ∈ cs) → ∀ (s : MState S) (s' : MState S'), R s.cur s'.cur →
      (∀ n, (s.saved n = none ∧ s'.saved n = none) ∨ ∃ x y, s.saved n = some x ∧ s'.saved n = some y ∧ R x y) →
      R (ds.foldl M.step s).cur ((ds.map f).foldl M'.step s').cur := by
    intro ds
    induction ds with
    | nil => intro _ s s' h _; exact h
    | cons c ds ih =>
      intro hsub s s' h hsv
      have ih := ih (fun c hc => hsub c (List.mem_cons_of_mem _ hc))
      rw [List.map_cons, List.foldl_cons, List.foldl_cons]
      have step_other : ∀ {T : Type} (N : Machine T) (t : MState T) (c : Call), (∀ n, c ≠ .save n) → (∀ n, c ≠ .load n) →
          N.step t c = { t with cur := N.edit t.cur c } := by
        intro T N t c h1 h2
        cases c <;> first | rfl | exact absurd rfl (h1 _) | exact absurd rfl (h2 _)
      by_cases h1 : ∃ n, c = .save n
      · obtain ⟨n, rfl⟩ := h1
        rw [hs]
        apply ih
        · exact h
        · intro m
          simp only [Machine.step]
          by_cases e : m = n
          · right; exact ⟨_, _, by rw [if_pos e], by rw [if_pos e], h⟩
          · simp only [if_neg e]; exact hsv m
      by_cases h2 : ∃ n, c = .load n
      · obtain ⟨n, rfl⟩ := h2
        rw [hl]
        rcases hsv n with ⟨e1, e2⟩ | ⟨x, y, e1, e2, hr⟩
        · apply ih
          · simp only [Machine.step, e1, e2]; exact h
          · simp only [Machine.step, e1, e2]; exact hsv
        · apply ih
          · simp only [Machine.step, e1, e2]; exact hr
          · simp only [Machine.step, e1, e2]; exact hsv
      have h1 : ∀ n, c ≠ .save n := fun n e => h1 ⟨n, e⟩
      have h2 : ∀ n, c ≠ .load n := fun n e => h2 ⟨n, e⟩
      obtain ⟨k1, k2⟩ := hother c h1 h2
      rw [step_other M s c h1 h2, step_other M' s' (f c) k1 k2]
      exact ih _ _ (hedit _ _ c (hsub c List.mem_cons_self) h) hsv
  exact key cs (fun _ h => h) _ _ hinit (fun n => Or.inl ⟨rfl, rfl⟩)

/-! ### units -/

theorem unit_sim {S S' : Type} (M : Machine S) (M' : Machine S') (R : S → S' → Prop) (l f : ℝ) (hinit : R M.init M'.init)
    (cs : List Call) (hedit : ∀ s s', ∀ c ∈ cs, R s s' → R (M.edit s c) (M'.edit s' (unitCall l f c))) :
    R (M.run cs).cur (M'.run (cs.map (unitCall l f))).cur := by
  apply run_sim_mem M M' R (unitCall l f) (fun _ => rfl) (fun _ => rfl) _ hinit cs hedit
  intro c h1 h2
  cases c <;> first | exact ⟨h1, h2⟩ | (constructor <;> (intro _ h; cases h))

theorem restReg_unit (l f : ℝ) (cs : List Call) : (restReg.run (cs.map (unitCall l f))).cur = (restReg.run cs).cur := by
  symm
  apply unit_sim restReg restReg (fun s s' => s = s') l f rfl
  rintro s _ c hc rfl
  clear hc
  cases c <;> rfl

theorem nodeReg_unit (l f : ℝ) (cs : List Call) : (nodeReg.run (cs.map (unitCall l f))).cur.names = (nodeReg.run cs).cur.names := by
  symm
  apply unit_sim nodeReg nodeReg (fun s s' => s.names = s'.names) l f rfl
  rintro ⟨ns, loc⟩ ⟨_, loc'⟩ c hc rfl
  clear hc
  cases c <;> rfl

/-- loads of a pattern in other units -/
noncomputable def unitPat (l f : ℝ) (r : PatReg) : PatReg where
  node n := (r.node n).map (unitForce l f)
  dist b := (r.dist b).map fun w => ![f / l * w 0, f / l * w 1, f / l * w 2, f / l * w 3, f / l * w 4, f / l * w 5, f * w 6, f * w 7]
  conc b := (r.conc b).map fun w => ![f * w 0, f * w 1, f * w 2, f * l * w 3, f * l * w 4, f * l * w 5, w 6]

structure UnitLoads (l f : ℝ) (s s' : CaseReg) : Prop where
  pats : ∀ p, s'.pats p = (s.pats p).map (unitPat l f)
  cases : s'.cases = s.cases

theorem unitLoads_upd {l f : ℝ} {s s' : CaseReg} (h : UnitLoads l f s s') (p : String) {g g' : PatReg → PatReg}
    (hg : ∀ r, g' (unitPat l f r) = unitPat l f (g r)) : UnitLoads l f (s.upd p g) (s'.upd p g') := by
  refine ⟨?_, h.cases⟩
  intro q
  simp only [CaseReg.upd]
  by_cases hq : q = p
  · rw [if_pos hq, if_pos hq, h.pats]
    cases s.pats p <;> simp [hg]
  · rw [if_neg hq, if_neg hq, h.pats]

theorem caseReg_unit (l f : ℝ) (cs : List Call) : UnitLoads l f (caseReg.run cs).cur (caseReg.run (cs.map (unitCall l f))).cur := by
  apply unit_sim caseReg caseReg (UnitLoads l f) l f
  · exact ⟨fun _ => rfl, rfl⟩
  intro s s' c hc h
  clear hc
  cases c
  case addLoadpattern p =>
    refine ⟨?_, h.cases⟩
    intro q
    simp only [caseReg, unitCall]
    by_cases hq : q = p
    · rw [if_pos hq, if_pos hq]; rfl
    · rw [if_neg hq, if_neg hq, h.pats]
  case setNodalLoad p n F =>
    apply unitLoads_upd h
    intro r
    simp only [unitPat, PatReg.mk.injEq, and_true]
    funext m
    split <;> rfl
  case setBeamLoadDistributed p b pi pj qi2 qj2 qi3 qj3 ti tj =>
    apply unitLoads_upd h
    intro r
    simp only [unitPat, PatReg.mk.injEq, and_true, true_and]
    funext m
    split <;> rfl
  case setBeamLoadConcentrated p b F1 F2 F3 M1 M2 M3 r =>
    apply unitLoads_upd h
    intro r
    simp only [unitPat, PatReg.mk.injEq, true_and]
    funext m
    split <;> rfl
  case addStaticCase c => exact ⟨h.pats, by simp only [caseReg, unitCall, h.cases]⟩
  case addModalCase c => exact ⟨h.pats, by simp only [caseReg, unitCall, h.cases]⟩
  case addCasePattern c p fac =>
    refine ⟨h.pats, ?_⟩
    simp only [caseReg, unitCall, h.cases, h.pats, Option.isSome_map]
  all_goals exact h

noncomputable def unitMat (l f : ℝ) (m : GivenMat) : GivenMat := ⟨f / l ^ 4 * m.rho, f / l ^ 2 * m.E, m.mu⟩
noncomputable def unitSec (l f : ℝ) (g : GivenSec) : GivenSec := ⟨unitMat l f g.mat, l ^ 2 * g.A, l ^ 4 * g.I2, l ^ 4 * g.I3, l ^ 4 * g.J⟩
noncomputable def unitBeam (l f : ℝ) (g : GivenBeam) : GivenBeam := ⟨g.start, g.stop, l • g.p, l • g.q, unitSec l f g.sec⟩

structure UnitRel (l f : ℝ) (T : Set V3) (s s' : Blueprint) : Prop where
  loc : ∀ n, s'.loc n = (s.loc n).map (l • ·)
  mat : ∀ m, s'.mat m = (s.mat m).map (unitMat l f)
  sec : ∀ m, s'.sec m = (s.sec m).map (unitSec l f)
  beams : s'.beams = s.beams
  beam : ∀ b, s'.beam b = (s.beam b).map (unitBeam l f)
  given : ∀ n p, s.loc n = some p → p ∈ T
  ends : ∀ b g, s.beam b = some g → g.p ∈ T ∧ g.q ∈ T

theorem addBeam_unit {l f : ℝ} {T : Set V3} (hT : ∀ p ∈ T, ∀ q ∈ T, (Acceptable (l • p) (l • q) ↔ Acceptable p q)) {s s' : Blueprint}
    (h : UnitRel l f T s s') (b i j : String) (g : Option GivenSec) :
    UnitRel l f T (s.addBeam b i j g) (s'.addBeam b i j (g.map (unitSec l f))) := by
  unfold Blueprint.addBeam
  rw [h.loc i, h.loc j]
  cases h1 : s.loc i with
  | none => simpa using h
  | some p =>
    cases h2 : s.loc j with
    | none => simpa using h
    | some q =>
      cases g with
      | none => simpa using h
      | some g =>
        simp only [Option.map_some]
        have hp := h.given i p h1
        have hq := h.given j q h2
        by_cases ha : Acceptable p q
        · rw [if_pos ha, if_pos ((hT p hp q hq).mpr ha)]
          refine ⟨h.loc, h.mat, h.sec, by simp only [h.beams], ?_, h.given, ?_⟩
          · intro b'
            simp only
            split
            · rfl
            · exact h.beam b'
          · intro b' g' hg'
            simp only at hg'
            split at hg'
            · cases hg'; exact ⟨hp, hq⟩
            · exact h.ends b' g' hg'
        · rw [if_neg ha, if_neg (fun h' => ha ((hT p hp q hq).mp h'))]; exact h

theorem rectTorsion_unit {l : ℝ} (hl : l ≠ 0) (k : ℕ) (h b : ℝ) : rectTorsion k (l * h) (l * b) = l ^ 4 * rectTorsion k h b := by
  unfold rectTorsion
  have e1 : ∀ i : ℕ, Real.tanh ((2 * i + 1) * 3.141592 * (l * h) / 2 / (l * b)) = Real.tanh ((2 * i + 1) * 3.141592 * h / 2 / b) := by
    intro i
    congr 1
    rw [show (2 * (i:ℝ) + 1) * 3.141592 * (l * h) / 2 = l * ((2 * i + 1) * 3.141592 * h / 2) by ring, mul_div_mul_left _ _ hl]
  have e2 : 64 * (l * b) / (3.141592 ^ 5 * (l * h)) = 64 * b / (3.141592 ^ 5 * h) := by
    rw [show 64 * (l * b) = l * (64 * b) by ring, show (3.141592 ^ 5 * (l * h) : ℝ) = l * (3.141592 ^ 5 * h) by ring, mul_div_mul_left _ _ hl]
  simp only [e1, e2]
  ring

theorem shape_unit {l f : ℝ} (hl : l ≠ 0) (mat : GivenMat) (c : Call) :
    shapeConsts (unitMat l f mat) (unitCall l f c) = (shapeConsts mat c).map (unitSec l f) := by
  have z : ∀ x : ℝ, l * x = 0 ↔ x = 0 := fun x => by simp [hl]
  have z2 : ∀ x y : ℝ, l * x = 2 * (l * y) ↔ x = 2 * y := fun x y => by
    rw [show 2 * (l * y) = l * (2 * y) by ring, mul_right_inj' hl]
  have rect : ∀ h b : ℝ, shapeConsts.rect (unitMat l f mat) (l * h) (l * b) = (shapeConsts.rect mat h b).map (unitSec l f) := by
    intro h b
    unfold shapeConsts.rect
    simp only [z]
    split
    · rfl
    · simp only [Option.map_some, unitSec, rectTorsion_unit hl, Option.some.injEq, GivenSec.mk.injEq, true_and, and_true]
      refine ⟨?_, ?_, ?_⟩ <;> ring
  cases c
  case addBeamSectionRectangle n m h b => exact rect h b
  case addBeamSectionPipe n m h b => exact rect h b
  case addBeamSectionCircle n m d =>
    simp only [shapeConsts, unitCall, z]
    split
    · rfl
    · simp only [Option.map_some, unitSec, Option.some.injEq, GivenSec.mk.injEq, true_and]
      refine ⟨?_, ?_, ?_, ?_⟩ <;> ring
  case addBeamSectionI n m h b tw tf =>
    simp only [shapeConsts, unitCall, z, z2]
    split
    · rfl
    · simp only [Option.map_some, unitSec, Option.some.injEq, GivenSec.mk.injEq, true_and]
      rw [show l * h - 2 * (l * tf) = l * (h - 2 * tf) by ring, rectTorsion_unit hl, rectTorsion_unit hl]
      refine ⟨?_, ?_, ?_, ?_⟩ <;> ring
  case addBeamSectionBox n m h b tw tf =>
    simp only [shapeConsts, unitCall, z]
    have e1 : (l * b - l * tw) / (l * tf) = (b - tw) / tf := by rw [← mul_sub, mul_div_mul_left _ _ hl]
    have e2 : (l * h - l * tf) / (l * tw) = (h - tf) / tw := by rw [← mul_sub, mul_div_mul_left _ _ hl]
    rw [e1, e2]
    split
    · rfl
    · simp only [Option.map_some, unitSec, Option.some.injEq, GivenSec.mk.injEq, true_and]
      refine ⟨?_, ?_, ?_, ?_⟩ <;> ring
  all_goals rfl

theorem sectionCall_unit (l f : ℝ) (c : Call) : sectionCall (unitCall l f c) = sectionCall c := by cases c <;> rfl

theorem section_unit {l f : ℝ} (hl : l ≠ 0) {T : Set V3} {s s' : Blueprint} (h : UnitRel l f T s s') (c : Call) :
    UnitRel l f T
      (match sectionCall c with
        | some (n, m) => match (s.mat m).bind fun mat => shapeConsts mat c with
          | some g => { s with sec := fun k => if k = n then some g else s.sec k }
          | none => s
        | none => s)
      (match sectionCall (unitCall l f c) with
        | some (n, m) => match (s'.mat m).bind fun mat => shapeConsts mat (unitCall l f c) with
          | some g => { s' with sec := fun k => if k = n then some g else s'.sec k }
          | none => s'
        | none => s') := by
  rw [sectionCall_unit]
  cases sectionCall c with
  | none => exact h
  | some nm =>
    obtain ⟨n, m⟩ := nm
    simp only [h.mat m]
    cases hm : s.mat m with
    | none => simpa using h
    | some mat =>
      simp only [Option.map_some, Option.bind_some, shape_unit hl]
      cases hs : shapeConsts mat c with
      | none => simpa using h
      | some g =>
        simp only [Option.map_some]
        refine ⟨h.loc, h.mat, ?_, h.beams, h.beam, h.given, h.ends⟩
        intro k'
        simp only
        split
        · rfl
        · exact h.sec k'

theorem blueprint_unit {l f : ℝ} (hl : l ≠ 0) (cs : List Call)
    (hT : ∀ p ∈ givenPoints cs, ∀ q ∈ givenPoints cs, (Acceptable (l • p) (l • q) ↔ Acceptable p q)) :
    UnitRel l f (givenPoints cs) (blueprint.run cs).cur (blueprint.run (cs.map (unitCall l f))).cur := by
  apply unit_sim blueprint blueprint (UnitRel l f (givenPoints cs)) l f
  · exact ⟨fun _ => rfl, fun _ => rfl, fun _ => rfl, rfl, fun _ => rfl, (fun _ _ h => by cases h), (fun _ _ h => by cases h)⟩
  intro s s' c hc h
  have hsec := section_unit hl h c
  cases c
  case addNode n x y z =>
    refine ⟨?_, h.mat, h.sec, h.beams, h.beam, ?_, h.ends⟩
    · intro m
      simp only [blueprint, unitCall]
      split
      · rfl
      · exact h.loc m
    · intro m p hp
      simp only [blueprint] at hp
      split at hp
      · cases hp; exact ⟨n, hc⟩
      · exact h.given m p hp
  case addIsotropicMaterial n rho E mu a =>
    refine ⟨h.loc, ?_, h.sec, h.beams, h.beam, h.given, h.ends⟩
    intro m
    simp only [blueprint, unitCall]
    split
    · rfl
    · exact h.mat m
  case addBeam b i j sec =>
    simp only [blueprint, unitCall, h.sec]
    exact addBeam_unit hT h b i j _
  case addSimpleBeam b i j E mu A I2 I3 J rho => exact addBeam_unit hT h b i j (some _)
  all_goals exact hsec

/-! mechanics -/

theorem sub_unit (l : ℝ) (p q : V3) : l • q - l • p = l • (q - p) := by
  ext <;> simp <;> ring

theorem len_unit {l : ℝ} (hl : 0 < l) (f : ℝ) (g : GivenBeam) : (unitBeam l f g).len = l * g.len := by
  unfold GivenBeam.len unitBeam
  simp only
  rw [sub_unit, V3.norm_smul_pos hl]

/-- end components in other units -/
def unitEnds (l : ℝ) (d : Vec 12) : Vec 12 := ![l * d 0, l * d 1, l * d 2, d 3, d 4, d 5, l * d 6, l * d 7, l * d 8, d 9, d 10, d 11]

theorem unitEnds_apply (l : ℝ) (d : Vec 12) : unitEnds l d 0 = l * d 0 ∧ unitEnds l d 1 = l * d 1 ∧ unitEnds l d 2 = l * d 2 ∧
    unitEnds l d 3 = d 3 ∧ unitEnds l d 4 = d 4 ∧ unitEnds l d 5 = d 5 ∧ unitEnds l d 6 = l * d 6 ∧ unitEnds l d 7 = l * d 7 ∧
    unitEnds l d 8 = l * d 8 ∧ unitEnds l d 9 = d 9 ∧ unitEnds l d 10 = d 10 ∧ unitEnds l d 11 = d 11 :=
  ⟨rfl, rfl, rfl, rfl, rfl, rfl, rfl, rfl, rfl, rfl, rfl, rfl⟩

theorem ends_unit {l : ℝ} (hl : 0 < l) (f : ℝ) (g : GivenBeam) (hu : Upright (l • g.p) (l • g.q) ↔ Upright g.p g.q) (v : State) :
    (unitBeam l f g).ends (fun n => unitDisp l (v n)) = unitEnds l (g.ends v) := by
  have : (unitBeam l f g).ends (fun n => unitDisp l (v n)) = localEnds (beamFrame g.p g.q) (unitDisp l (v g.start)) (unitDisp l (v g.stop)) :=
    beamFrame_part hl (sub_unit l g.p g.q) hu _ _
  rw [this]
  have t : ∀ w, Spec.trans (unitDisp l w) = l • Spec.trans w := fun w => rfl
  have r : ∀ w, Spec.rot (unitDisp l w) = Spec.rot w := fun w => rfl
  have d : ∀ a b : V3, a.dot (l • b) = l * a.dot b := by intro a b; simp [V3.dot]; ring
  unfold GivenBeam.ends
  generalize beamFrame g.p g.q = e
  generalize v g.start = a
  generalize v g.stop = b
  unfold localEnds unitEnds
  simp only [t, r, d, cons_val_zero, cons_val_one, cons_val]

theorem internal_unit_beam {l f : ℝ} (hl : 0 < l) {g : GivenBeam} {cs cs' : Csys} (h : lineCsys g.p g.q = .ok cs)
    (h' : lineCsys (unitBeam l f g).p (unitBeam l f g).q = .ok cs') (hu : Upright (l • g.p) (l • g.q) ↔ Upright g.p g.q) (v x : State) :
    (unitBeam l f g).internal (fun n => unitDisp l (v n)) (fun n => unitDisp l (x n)) = f * l * g.internal v x := by
  rw [internal_eq h, internal_eq h', ends_unit hl f g hu, ends_unit hl f g hu, len_unit hl]
  have hL := (len_pos h).ne'
  have hl' := hl.ne'
  generalize g.len = L at *
  generalize g.ends v = a
  generalize g.ends x = b
  unfold beamWork bendWork gconsts unitBeam unitSec unitMat
  obtain ⟨a0, a1, a2, a3, a4, a5, a6, a7, a8, a9, a10, a11⟩ := unitEnds_apply l a
  obtain ⟨b0, b1, b2, b3, b4, b5, b6, b7, b8, b9, b10, b11⟩ := unitEnds_apply l b
  simp only [a0, a1, a2, a3, a4, a5, a6, a7, a8, a9, a10, a11, b0, b1, b2, b3, b4, b5, b6, b7, b8, b9, b10, b11]
  generalize 2 * (1 + g.sec.mat.mu) = m
  rw [show f / l ^ 2 * g.sec.mat.E / m * (l ^ 4 * g.sec.J) = f * l ^ 2 * (g.sec.mat.E / m * g.sec.J) by field_simp]
  generalize g.sec.mat.E / m * g.sec.J = gj
  field_simp

theorem lineField_unit {l : ℝ} (hl : l ≠ 0) (L a b x : ℝ) : lineField (l * L) (l * a) (l * b) (l * x) = l * lineField L a b x ∧
    lineField (l * L) a b (l * x) = lineField L a b x := by
  unfold lineField
  constructor
  · rw [show (l * b - l * a) / (l * L) = (b - a) / L by rw [← mul_sub, mul_div_mul_left _ _ hl]]; ring
  · rw [show (b - a) / (l * L) * (l * x) = (l * ((b - a) * x)) / (l * L) by ring, mul_div_mul_left _ _ hl]; ring

theorem cubicField_unit {l : ℝ} (hl : l ≠ 0) {L : ℝ} (hL : L ≠ 0) (a s b r x : ℝ) :
    cubicField (l * L) (l * a) s (l * b) r (l * x) = l * cubicField L a s b r x ∧
    deriv (cubicField (l * L) (l * a) s (l * b) r) (l * x) = deriv (cubicField L a s b r) x := by
  rw [deriv_cubicField, deriv_cubicField]
  unfold cubicField
  constructor <;> field_simp

theorem fields_unit {l : ℝ} (hl : 0 < l) (f : ℝ) {g : GivenBeam} (hL : g.len ≠ 0) (hu : Upright (l • g.p) (l • g.q) ↔ Upright g.p g.q)
    (v : State) (x : ℝ) :
    (unitBeam l f g).axial (fun n => unitDisp l (v n)) (l * x) = l * g.axial v x ∧
    (unitBeam l f g).twist (fun n => unitDisp l (v n)) (l * x) = g.twist v x ∧
    (unitBeam l f g).defl2 (fun n => unitDisp l (v n)) (l * x) = l * g.defl2 v x ∧
    (unitBeam l f g).defl3 (fun n => unitDisp l (v n)) (l * x) = l * g.defl3 v x ∧
    deriv ((unitBeam l f g).defl2 (fun n => unitDisp l (v n))) (l * x) = deriv (g.defl2 v) x ∧
    deriv ((unitBeam l f g).defl3 (fun n => unitDisp l (v n))) (l * x) = deriv (g.defl3 v) x := by
  unfold GivenBeam.axial GivenBeam.twist GivenBeam.defl2 GivenBeam.defl3
  rw [ends_unit hl f g hu, len_unit hl]
  obtain ⟨a0, a1, a2, a3, a4, a5, a6, a7, a8, a9, a10, a11⟩ := unitEnds_apply l (g.ends v)
  rw [a0, a1, a2, a3, a4, a5, a6, a7, a8, a9, a10, a11]
  exact ⟨(lineField_unit hl.ne' _ _ _ _).1, (lineField_unit hl.ne' _ _ _ _).2, (cubicField_unit hl.ne' hL _ _ _ _ _).1,
    (cubicField_unit hl.ne' hL _ _ _ _ _).1, (cubicField_unit hl.ne' hL _ _ _ _ _).2, (cubicField_unit hl.ne' hL _ _ _ _ _).2⟩

theorem lineLoad_unit {l : ℝ} (hl : l ≠ 0) (k a b L x : ℝ) : lineLoad (k * a) (k * b) (l * L) (l * x) = k * lineLoad a b L x := by
  unfold lineLoad
  rw [show (k * b - k * a) / (l * L) * (l * x) = (l * ((k * b - k * a) * x)) / (l * L) by ring, mul_div_mul_left _ _ hl]
  ring

theorem distWork_unit {l f : ℝ} (hl : 0 < l) {g : GivenBeam} (hL : g.len ≠ 0) (hu : Upright (l • g.p) (l • g.q) ↔ Upright g.p g.q) (w : Vec 8)
    (v : State) :
    (unitBeam l f g).distWork ![f / l * w 0, f / l * w 1, f / l * w 2, f / l * w 3, f / l * w 4, f / l * w 5, f * w 6, f * w 7]
      (fun n => unitDisp l (v n)) = f * l * g.distWork w v := by
  unfold GivenBeam.distWork
  have hl' := hl.ne'
  rw [len_unit hl, show (0:ℝ) = l * 0 by ring, ← intervalIntegral.mul_integral_comp_mul_left, mul_zero, mul_comm f l, mul_assoc l f]
  congr 1
  rw [← intervalIntegral.integral_const_mul]
  apply intervalIntegral.integral_congr
  intro x _
  obtain ⟨h1, h2, h3, h4, _, _⟩ := fields_unit hl f hL hu v x
  simp only [cons_val_zero, cons_val_one, cons_val, h1, h2, h3, h4, lineLoad_unit hl']
  field_simp

theorem concWork_unit {l f : ℝ} (hl : 0 < l) {g : GivenBeam} (hL : g.len ≠ 0) (hu : Upright (l • g.p) (l • g.q) ↔ Upright g.p g.q) (w : Vec 7)
    (v : State) :
    (unitBeam l f g).concWork ![f * w 0, f * w 1, f * w 2, f * l * w 3, f * l * w 4, f * l * w 5, w 6] (fun n => unitDisp l (v n)) =
      f * l * g.concWork w v := by
  unfold GivenBeam.concWork
  simp only [cons_val_zero, cons_val_one, cons_val]
  rw [len_unit hl, show w 6 * (l * g.len) = l * (w 6 * g.len) by ring]
  obtain ⟨h1, h2, h3, h4, h5, h6⟩ := fields_unit hl f hL hu v (w 6 * g.len)
  rw [h1, h2, h3, h4, h5, h6]
  ring

theorem unitForce_dot (l f : ℝ) (F u : Vec 6) : unitForce l f F ⬝ᵥ unitDisp l u = f * l * (F ⬝ᵥ u) := by
  simp [dotProduct, Fin.sum_univ_six, unitForce, unitDisp]
  ring

theorem patternWork_units {l f : ℝ} (hl : 0 < l) {T : Set V3} (hT : ∀ p ∈ T, ∀ q ∈ T, (Upright (l • p) (l • q) ↔ Upright p q)) {s s' : Blueprint}
    {nodes : List String} (hS : Sane s nodes) (hR : UnitRel l f T s s') (ns : List String) (r : PatReg) (v : State) :
    s'.patternWork ns (unitPat l f r) (fun n => unitDisp l (v n)) = f * l * s.patternWork ns r v := by
  unfold Blueprint.patternWork
  rw [mul_add, ← List.sum_map_mul_left, ← List.sum_map_mul_left, hR.beams]
  congr 2
  · apply List.map_congr_left
    intro n _
    simp only [unitPat]
    cases r.node n with
    | none => simp
    | some F => simp only [Option.map_some, Option.getD_some, unitForce_dot]
  · apply List.map_congr_left
    intro b hb
    obtain ⟨g, hg⟩ := hS.term hb
    obtain ⟨c, hc⟩ := hS.ok b g hg
    have hL := (len_pos hc).ne'
    obtain ⟨t1, t2⟩ := hR.ends b g hg
    have hu := hT _ t1 _ t2
    rw [hR.beam, hg]
    simp only [Option.map_some, Option.elim_some, unitPat]
    rw [mul_add]
    congr 1
    · cases r.dist b with
      | none => simp
      | some w => simp only [Option.map_some, Option.elim_some, distWork_unit hl hL hu]
    · cases r.conc b with
      | none => simp
      | some w => simp only [Option.map_some, Option.elim_some, concWork_unit hl hL hu]

theorem caseWork_unit {l f : ℝ} (hl : 0 < l) {T : Set V3} (hT : ∀ p ∈ T, ∀ q ∈ T, (Upright (l • p) (l • q) ↔ Upright p q)) {s s' : Blueprint}
    {nodes : List String} (hS : Sane s nodes) (hR : UnitRel l f T s s') (ns : List String) {r r' : CaseReg} (hr : UnitLoads l f r r')
    (g : String → Option ℝ) (names : List String) (v : State) :
    s'.caseWork ns r' g names (fun n => unitDisp l (v n)) = f * l * s.caseWork ns r g names v := by
  unfold Blueprint.caseWork
  rw [← List.sum_map_mul_left]
  congr 1
  apply List.map_congr_left
  intro p _
  rw [hr.pats]
  cases r.pats p with
  | none => simp
  | some q =>
    simp only [Option.map_some, Option.elim_some, patternWork_units hl hT hS hR]
    ring

theorem internal_unit {l f : ℝ} (hl : 0 < l) {T : Set V3} (hT : ∀ p ∈ T, ∀ q ∈ T, (Upright (l • p) (l • q) ↔ Upright p q)) {s s' : Blueprint}
    {nodes nodes' : List String} (hS : Sane s nodes) (hS' : Sane s' nodes') (hR : UnitRel l f T s s') (v x : State) :
    s'.internal (fun n => unitDisp l (v n)) (fun n => unitDisp l (x n)) = f * l * s.internal v x := by
  unfold Blueprint.internal
  rw [hR.beams, ← List.sum_map_mul_left]
  congr 1
  apply List.map_congr_left
  intro b hb
  obtain ⟨g, hg⟩ := hS.term hb
  obtain ⟨c, hc⟩ := hS.ok b g hg
  have hg' : s'.beam b = some (unitBeam l f g) := by rw [hR.beam, hg]; rfl
  obtain ⟨c', hc'⟩ := hS'.ok b _ hg'
  obtain ⟨t1, t2⟩ := hR.ends b g hg
  rw [hg, hg']
  simp only [Option.elim_some]
  exact internal_unit_beam hl hc hc' (hT _ t1 _ t2) v x

end Hyperstatic
