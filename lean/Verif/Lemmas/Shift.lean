import Verif.Lemmas.Frame

namespace Hyperstatic
open Matrix Spec

/-- simulation between two machines, the second fed with translated calls -/
theorem run_sim {S S' : Type} (M : Machine S) (M' : Machine S') (R : S → S' → Prop) (f : Call → Call) (hs : ∀ n, f (.save n) = .save n)
    (hl : ∀ n, f (.load n) = .load n)
    (hother : ∀ c, (∀ n, c ≠ .save n) → (∀ n, c ≠ .load n) → (∀ n, f c ≠ .save n) ∧ (∀ n, f c ≠ .load n))
    (hinit : R M.init M'.init) (hedit : ∀ s s' c, R s s' → R (M.edit s c) (M'.edit s' (f c))) (cs : List Call) :
    R (M.run cs).cur (M'.run (cs.map f)).cur := by
  have key : ∀ (cs : List Call) (s : MState S) (s' : MState S'), R s.cur s'.cur →
      (∀ n, (s.saved n = none ∧ s'.saved n = none) ∨ ∃ x y, s.saved n = some x ∧ s'.saved n = some y ∧ R x y) →
      R (cs.foldl M.step s).cur ((cs.map f).foldl M'.step s').cur := by
    intro cs
    induction cs with
    | nil => intro s s' h _; exact h
    | cons c cs ih =>
      intro s s' h hsv
      rw [List.map_cons, List.foldl_cons, List.foldl_cons]
      have step_other : ∀ {T : Type} (N : Machine T) (t : MState T) (c : Call), (∀ n, c ≠ .save n) → (∀ n, c ≠ .load n) →
          N.step t c = { t with cur := N.edit t.cur c } := by
        intro T N t c h1 h2
        cases c <;> first | rfl | exact absurd rfl (h1 _) | exact absurd rfl (h2 _)
      by_cases h1 : ∃ n, c = .save n
      · obtain ⟨n, rfl⟩ := h1
        rw [hs]
        apply ih
        · exact h
        · intro m
          simp only [Machine.step]
          by_cases e : m = n
          · right; exact ⟨_, _, by rw [if_pos e], by rw [if_pos e], h⟩
          · simp only [if_neg e]; exact hsv m
      by_cases h2 : ∃ n, c = .load n
      · obtain ⟨n, rfl⟩ := h2
        rw [hl]
        rcases hsv n with ⟨e1, e2⟩ | ⟨x, y, e1, e2, hr⟩
        · apply ih
          · simp only [Machine.step, e1, e2]; exact h
          · simp only [Machine.step, e1, e2]; exact hsv
        · apply ih
          · simp only [Machine.step, e1, e2]; exact hr
          · simp only [Machine.step, e1, e2]; exact hsv
      push Not at h1 h2
      obtain ⟨g1, g2⟩ := hother c h1 h2
      rw [step_other M s c h1 h2, step_other M' s' (f c) g1 g2]
      apply ih
      · exact hedit _ _ _ h
      · exact hsv
  exact key cs _ _ hinit (fun n => Or.inl ⟨rfl, rfl⟩)

theorem shift_sim {S S' : Type} (M : Machine S) (M' : Machine S') (R : S → S' → Prop) (d : V3) (hinit : R M.init M'.init)
    (hedit : ∀ s s' c, R s s' → R (M.edit s c) (M'.edit s' (shiftCall d c))) (cs : List Call) :
    R (M.run cs).cur (M'.run (cs.map (shiftCall d))).cur := by
  apply run_sim M M' R (shiftCall d) (fun _ => rfl) (fun _ => rfl) _ hinit hedit
  intro c h1 h2
  cases c
  case addNode => constructor <;> (intro _ h; cases h)
  all_goals exact ⟨h1, h2⟩

theorem restReg_shift (d : V3) (cs : List Call) : (restReg.run (cs.map (shiftCall d))).cur = (restReg.run cs).cur := by
  symm
  apply shift_sim restReg restReg (fun s s' => s = s') d rfl
  rintro s _ c rfl
  cases c <;> rfl

theorem caseReg_shift (d : V3) (cs : List Call) : (caseReg.run (cs.map (shiftCall d))).cur = (caseReg.run cs).cur := by
  symm
  apply shift_sim caseReg caseReg (fun s s' => s = s') d rfl
  rintro s _ c rfl
  cases c <;> rfl

theorem nodeReg_shift (d : V3) (cs : List Call) : (nodeReg.run (cs.map (shiftCall d))).cur.names = (nodeReg.run cs).cur.names := by
  symm
  apply shift_sim nodeReg nodeReg (fun s s' => s.names = s'.names) d rfl
  rintro ⟨ns, l⟩ ⟨_, l'⟩ c rfl
  cases c <;> rfl

/-- a beam moved by `d` -/
noncomputable def shiftBeam (d : V3) (g : GivenBeam) : GivenBeam := { g with p := g.p + d, q := g.q + d }

structure ShiftRel (d : V3) (s s' : Blueprint) : Prop where
  loc : ∀ n, s'.loc n = (s.loc n).map (· + d)
  mat : s'.mat = s.mat
  sec : s'.sec = s.sec
  beams : s'.beams = s.beams
  beam : ∀ b, s'.beam b = (s.beam b).map (shiftBeam d)

theorem acceptable_shift (d p q : V3) : Acceptable (p + d) (q + d) ↔ Acceptable p q := by
  unfold Acceptable
  simp only [V3.add_def, add_sub_add_right_eq_sub]

theorem addBeam_shift {d : V3} {s s' : Blueprint} (h : ShiftRel d s s') (b i j : String) (g : Option GivenSec) :
    ShiftRel d (s.addBeam b i j g) (s'.addBeam b i j g) := by
  unfold Blueprint.addBeam
  rw [h.loc i, h.loc j]
  cases h1 : s.loc i with
  | none => simpa using h
  | some p =>
    cases h2 : s.loc j with
    | none => simpa using h
    | some q =>
      cases g with
      | none => simpa using h
      | some g =>
        simp only [Option.map_some]
        by_cases ha : Acceptable p q
        · rw [if_pos ha, if_pos ((acceptable_shift d p q).mpr ha)]
          refine ⟨h.loc, h.mat, h.sec, by simp only [h.beams], ?_⟩
          intro b'
          simp only
          split
          · rfl
          · exact h.beam b'
        · rw [if_neg ha, if_neg (fun h' => ha ((acceptable_shift d p q).mp h'))]; exact h

theorem section_shift {d : V3} {s s' : Blueprint} (h : ShiftRel d s s') (c : Call) :
    ShiftRel d
      (match sectionCall c with
        | some (n, m) => match (s.mat m).bind fun mat => shapeConsts mat c with
          | some g => { s with sec := fun k => if k = n then some g else s.sec k }
          | none => s
        | none => s)
      (match sectionCall c with
        | some (n, m) => match (s'.mat m).bind fun mat => shapeConsts mat c with
          | some g => { s' with sec := fun k => if k = n then some g else s'.sec k }
          | none => s'
        | none => s') := by
  have hm := h.mat
  cases sectionCall c with
  | none => exact h
  | some nm =>
    obtain ⟨n, m⟩ := nm
    cases hs : (s.mat m).bind fun mat => shapeConsts mat c with
    | none => simp only [hm, hs]; exact h
    | some g =>
      simp only [hm, hs]
      refine ⟨h.loc, rfl, ?_, h.beams, h.beam⟩
      simp only [h.sec]

theorem blueprint_shift (d : V3) (cs : List Call) :
    ShiftRel d (blueprint.run cs).cur (blueprint.run (cs.map (shiftCall d))).cur := by
  apply shift_sim blueprint blueprint (ShiftRel d) d
  · exact ⟨fun _ => rfl, rfl, rfl, rfl, fun _ => rfl⟩
  intro s s' c h
  have hsec := section_shift h c
  cases c
  case addNode n x y z =>
    refine ⟨?_, h.mat, h.sec, h.beams, h.beam⟩
    intro m
    simp only [blueprint, shiftCall]
    split
    · rfl
    · exact h.loc m
  case addIsotropicMaterial =>
    refine ⟨h.loc, ?_, h.sec, h.beams, h.beam⟩
    simp only [blueprint, shiftCall, h.mat]
  case addBeam b i j sec =>
    simp only [blueprint, shiftCall, h.sec]
    exact addBeam_shift h b i j _
  case addSimpleBeam b i j E mu A I2 I3 J rho => exact addBeam_shift h b i j _
  all_goals exact hsec

theorem beamFrame_shift (d p q : V3) (ui uj : Vec 6) : localEnds (beamFrame (p + d) (q + d)) ui uj = localEnds (beamFrame p q) ui uj := by
  have e : (q + d) - (p + d) = q - p := by
    ext <;> simp
  have ex : (q + d).x - (p + d).x = q.x - p.x := congrArg V3.x e
  have ey : (q + d).y - (p + d).y = q.y - p.y := congrArg V3.y e
  unfold beamFrame localEnds
  simp only [e, ex, ey]

theorem ends_shift (d : V3) (g : GivenBeam) (u : State) : (shiftBeam d g).ends u = g.ends u := by
  unfold GivenBeam.ends shiftBeam
  exact beamFrame_shift d g.p g.q _ _

theorem len_shift (d : V3) (g : GivenBeam) : (shiftBeam d g).len = g.len := by
  unfold GivenBeam.len shiftBeam
  congr 1
  ext <;> simp

/-- only the end components, the length and the section enter the mechanics -/
theorem beam_same {g g' : GivenBeam} (hl : g'.len = g.len) (hs : g'.sec = g.sec) (he : ∀ u, g'.ends u = g.ends u) :
    (∀ v u, g'.internal v u = g.internal v u) ∧ (∀ w v, g'.distWork w v = g.distWork w v) ∧ ∀ w v, g'.concWork w v = g.concWork w v := by
  have e1 : ∀ u, g'.axial u = g.axial u := fun u => by unfold GivenBeam.axial; rw [hl, he]
  have e2 : ∀ u, g'.defl2 u = g.defl2 u := fun u => by unfold GivenBeam.defl2; rw [hl, he]
  have e3 : ∀ u, g'.defl3 u = g.defl3 u := fun u => by unfold GivenBeam.defl3; rw [hl, he]
  have e4 : ∀ u, g'.twist u = g.twist u := fun u => by unfold GivenBeam.twist; rw [hl, he]
  refine ⟨fun v u => ?_, fun w v => ?_, fun w v => ?_⟩
  · unfold GivenBeam.internal; rw [hl, hs, e1, e1, e2, e2, e3, e3, e4, e4]
  · unfold GivenBeam.distWork; rw [hl, e1, e2, e3, e4]
  · unfold GivenBeam.concWork; rw [hl, e1, e2, e3, e4]

theorem mechanics_same {s s' : Blueprint} (hb : s'.beams = s.beams)
    (h : ∀ b, (s'.beam b = none ∧ s.beam b = none) ∨ ∃ g g', s.beam b = some g ∧ s'.beam b = some g' ∧ g'.len = g.len ∧ g'.sec = g.sec ∧
      ∀ u, g'.ends u = g.ends u) :
    (∀ v u, s'.internal v u = s.internal v u) ∧
    ∀ nodes r g names v, s'.caseWork nodes r g names v = s.caseWork nodes r g names v := by
  constructor
  · intro v u
    unfold Blueprint.internal
    rw [hb]
    congr 1
    apply List.map_congr_left
    intro b _
    rcases h b with ⟨h1, h2⟩ | ⟨g, g', h1, h2, hl, hs, he⟩
    · rw [h1, h2]
    · rw [h1, h2, Option.elim_some, Option.elim_some, (beam_same hl hs he).1]
  · intro nodes r fac names v
    have hp : ∀ q, s'.patternWork nodes q v = s.patternWork nodes q v := by
      intro q
      unfold Blueprint.patternWork
      rw [hb]
      congr 2
      apply List.map_congr_left
      intro b _
      rcases h b with ⟨h1, h2⟩ | ⟨g, g', h1, h2, hl, hs, he⟩
      · rw [h1, h2]
      · obtain ⟨_, h3, h4⟩ := beam_same hl hs he
        rw [h1, h2, Option.elim_some, Option.elim_some]
        simp only [h3, h4]
    unfold Blueprint.caseWork
    simp only [hp]

end Hyperstatic
