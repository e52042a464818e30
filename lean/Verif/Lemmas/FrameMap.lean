import Verif.Spec.FrameMap
import Verif.Props.Cantilever

namespace Hyperstatic
open Matrix Spec

/-! ### sums over beams -/

/-- internal work of one beam of a blueprint, zero for an unused name -/
noncomputable def Spec.Blueprint.term (s : Blueprint) (v u : State) (b : String) : ℝ := (s.beam b).elim 0 fun g => g.internal v u

theorem term_some {s : Blueprint} {b : String} {g : GivenBeam} (h : s.beam b = some g) (v u : State) : s.term v u b = g.internal v u := by
  unfold Blueprint.term; rw [h, Option.elim_some]

theorem term_none {s : Blueprint} {b : String} (h : s.beam b = none) (v u : State) : s.term v u b = 0 := by
  unfold Blueprint.term; rw [h, Option.elim_none]

theorem internal_finset {s : Blueprint} {nodes : List String} (h : Sane s nodes) (T : Finset String) (hT : ∀ b ∈ s.beams, b ∈ T) (v u : State) :
    s.internal v u = ∑ b ∈ T, s.term v u b := by
  have h1 : s.internal v u = ∑ b ∈ s.beams.toFinset, s.term v u b := by
    rw [List.sum_toFinset _ h.nodup]; rfl
  rw [h1]
  apply Finset.sum_subset
  · intro b hb; exact hT b (List.mem_toFinset.mp hb)
  · intro b _ hb
    have : s.beam b = none := by
      by_contra hne
      obtain ⟨g, hg⟩ := Option.ne_none_iff_exists'.mp hne
      exact hb (List.mem_toFinset.mpr ((h.mem b).mpr (by rw [hg]; rfl)))
    unfold Blueprint.term
    rw [this]; rfl

theorem internal_compare {s s' : Blueprint} {nodes nodes' : List String} (h : Sane s nodes) (h' : Sane s' nodes') {v u v' u' : State}
    (hb : ∀ b, s'.term v' u' b = s.term v u b) : s'.internal v' u' = s.internal v u := by
  rw [internal_finset h (s.beams.toFinset ∪ s'.beams.toFinset) (fun b hb => Finset.mem_union_left _ (List.mem_toFinset.mpr hb)),
    internal_finset h' (s.beams.toFinset ∪ s'.beams.toFinset) (fun b hb => Finset.mem_union_right _ (List.mem_toFinset.mpr hb))]
  exact Finset.sum_congr rfl fun b _ => hb b

/-! ### the answer is transferred by a change of variables -/

/-- the modulus -/
def stiffMat (k : ℝ) (m : GivenMat) : GivenMat := { m with E := k * m.E }
def stiffSec (k : ℝ) (g : GivenSec) : GivenSec := { g with mat := stiffMat k g.mat }
def stiffBeam (k : ℝ) (g : GivenBeam) : GivenBeam := { g with sec := stiffSec k g.sec }

theorem stiff_sim {S S' : Type} (M : Machine S) (M' : Machine S') (R : S → S' → Prop) (k : ℝ) (hinit : R M.init M'.init)
    (hedit : ∀ s s' c, R s s' → R (M.edit s c) (M'.edit s' (stiffCall k c))) (cs : List Call) :
    R (M.run cs).cur (M'.run (cs.map (stiffCall k))).cur := by
  apply run_sim M M' R (stiffCall k) (fun _ => rfl) (fun _ => rfl) _ hinit hedit
  intro c h1 h2
  cases c
  case addIsotropicMaterial => constructor <;> (intro _ h; cases h)
  case addSimpleBeam => constructor <;> (intro _ h; cases h)
  all_goals exact ⟨h1, h2⟩

theorem restReg_stiff (k : ℝ) (cs : List Call) : (restReg.run (cs.map (stiffCall k))).cur = (restReg.run cs).cur := by
  symm
  apply stiff_sim restReg restReg (fun s s' => s = s') k rfl
  rintro s _ c rfl
  cases c <;> rfl

theorem caseReg_stiff (k : ℝ) (cs : List Call) : (caseReg.run (cs.map (stiffCall k))).cur = (caseReg.run cs).cur := by
  symm
  apply stiff_sim caseReg caseReg (fun s s' => s = s') k rfl
  rintro s _ c rfl
  cases c <;> rfl

theorem nodeReg_stiff (k : ℝ) (cs : List Call) : (nodeReg.run (cs.map (stiffCall k))).cur = (nodeReg.run cs).cur := by
  symm
  apply stiff_sim nodeReg nodeReg (fun s s' => s = s') k rfl
  rintro s _ c rfl
  cases c <;> rfl

structure StiffRel (k : ℝ) (s s' : Blueprint) : Prop where
  loc : s'.loc = s.loc
  mat : ∀ m, s'.mat m = (s.mat m).map (stiffMat k)
  sec : ∀ m, s'.sec m = (s.sec m).map (stiffSec k)
  beams : s'.beams = s.beams
  beam : ∀ b, s'.beam b = (s.beam b).map (stiffBeam k)

theorem addBeam_stiff {k : ℝ} {s s' : Blueprint} (h : StiffRel k s s') (b i j : String) (g : Option GivenSec) :
    StiffRel k (s.addBeam b i j g) (s'.addBeam b i j (g.map (stiffSec k))) := by
  unfold Blueprint.addBeam
  rw [h.loc]
  cases h1 : s.loc i with
  | none => simpa using h
  | some p =>
    cases h2 : s.loc j with
    | none => simpa using h
    | some q =>
      cases g with
      | none => simpa using h
      | some g =>
        simp only [Option.map_some]
        by_cases ha : Acceptable p q
        · rw [if_pos ha, if_pos ha]
          refine ⟨rfl, h.mat, h.sec, by simp only [h.beams], ?_⟩
          intro b'
          simp only
          split
          · rfl
          · exact h.beam b'
        · rw [if_neg ha, if_neg ha]; exact h

theorem shape_stiff (k : ℝ) (mat : GivenMat) (c : Call) : shapeConsts (stiffMat k mat) c = (shapeConsts mat c).map (stiffSec k) := by
  cases c <;> simp only [shapeConsts, shapeConsts.rect, Option.map_none, Option.map_some] <;> first | rfl | (split <;> rfl)

theorem stiffCall_section {k : ℝ} {c : Call} {x : String × String} (h : sectionCall c = some x) : stiffCall k c = c := by
  cases c <;> simp [sectionCall] at h <;> rfl

theorem section_stiff {k : ℝ} {s s' : Blueprint} (h : StiffRel k s s') (c : Call) :
    StiffRel k
      (match sectionCall c with
        | some (n, m) => match (s.mat m).bind fun mat => shapeConsts mat c with
          | some g => { s with sec := fun k => if k = n then some g else s.sec k }
          | none => s
        | none => s)
      (match sectionCall c with
        | some (n, m) => match (s'.mat m).bind fun mat => shapeConsts mat c with
          | some g => { s' with sec := fun k => if k = n then some g else s'.sec k }
          | none => s'
        | none => s') := by
  cases sectionCall c with
  | none => exact h
  | some nm =>
    obtain ⟨n, m⟩ := nm
    simp only [h.mat m]
    cases hm : s.mat m with
    | none => simpa using h
    | some mat =>
      simp only [Option.map_some, Option.bind_some, shape_stiff]
      cases hs : shapeConsts mat c with
      | none => simpa using h
      | some g =>
        simp only [Option.map_some]
        refine ⟨h.loc, h.mat, ?_, h.beams, h.beam⟩
        intro k'
        simp only
        split
        · rfl
        · exact h.sec k'

theorem blueprint_stiff (k : ℝ) (cs : List Call) : StiffRel k (blueprint.run cs).cur (blueprint.run (cs.map (stiffCall k))).cur := by
  apply stiff_sim blueprint blueprint (StiffRel k) k
  · exact ⟨rfl, fun _ => rfl, fun _ => rfl, rfl, fun _ => rfl⟩
  intro s s' c h
  have hsec := section_stiff h c
  cases c
  case addNode n x y z =>
    refine ⟨?_, h.mat, h.sec, h.beams, h.beam⟩
    simp only [blueprint, stiffCall, h.loc]
  case addIsotropicMaterial n rho E mu a =>
    refine ⟨h.loc, ?_, h.sec, h.beams, h.beam⟩
    intro m
    simp only [blueprint, stiffCall]
    split
    · rfl
    · exact h.mat m
  case addBeam b i j sec =>
    simp only [blueprint, stiffCall, h.sec]
    exact addBeam_stiff h b i j _
  case addSimpleBeam b i j E mu A I2 I3 J rho => exact addBeam_stiff h b i j (some _)
  all_goals exact hsec

theorem internal_stiff (k : ℝ) {s s' : Blueprint} {nodes : List String} (h : Sane s nodes) (hR : StiffRel k s s') (v u : State) :
    s'.internal v u = k * s.internal v u := by
  unfold Blueprint.internal
  rw [hR.beams, ← List.sum_map_mul_left]
  congr 1
  apply List.map_congr_left
  intro b hb
  obtain ⟨g, hg⟩ := h.term hb
  obtain ⟨c, hc⟩ := h.ok b g hg
  rw [hR.beam, hg]
  simp only [Option.map_some, Option.elim_some]
  have hc' : lineCsys (stiffBeam k g).p (stiffBeam k g).q = .ok c := hc
  rw [internal_eq hc, internal_eq hc']
  have e1 : (stiffBeam k g).ends = g.ends := rfl
  have e2 : (stiffBeam k g).len = g.len := rfl
  rw [e1, e2]
  simp only [beamWork, bendWork, gconsts, stiffBeam, stiffSec, stiffMat, mul_div_assoc]
  ring

theorem load_stiff (k : ℝ) {s s' : Blueprint} (hR : StiffRel k s s') (nodes : List String) (r : CaseReg) (g : String → Option ℝ)
    (names : List String) (v : State) : s'.caseWork nodes r g names v = s.caseWork nodes r g names v := by
  have hp : ∀ q, s'.patternWork nodes q v = s.patternWork nodes q v := by
    intro q
    unfold Blueprint.patternWork
    rw [hR.beams]
    congr 2
    apply List.map_congr_left
    intro b _
    rw [hR.beam]
    cases s.beam b <;> rfl
  unfold Blueprint.caseWork
  simp only [hp]

/-! ### rotation about the vertical axis -/

theorem turn_dot (α : ℝ) (a b : V3) : (turn α a).dot (turn α b) = a.dot b := by
  simp only [turn, V3.dot]
  linear_combination (a.x * b.x + a.y * b.y) * Real.sin_sq_add_cos_sq α

theorem turn_cross (α : ℝ) (a b : V3) : (turn α a).cross (turn α b) = turn α (a.cross b) := by
  ext
  · simp only [turn, V3.cross]; ring
  · simp only [turn, V3.cross]; ring
  · simp only [turn, V3.cross]
    linear_combination (a.x * b.y - a.y * b.x) * Real.sin_sq_add_cos_sq α

theorem turn_sub (α : ℝ) (a b : V3) : turn α a - turn α b = turn α (a - b) := by
  ext <;> simp [turn] <;> ring

theorem turn_norm (α : ℝ) (a : V3) : (turn α a).norm = a.norm := by
  have := turn_dot α a a
  unfold V3.norm
  simp only [V3.dot] at this
  rw [this]

theorem turn_unit (α : ℝ) (a : V3) : (turn α a).unit = turn α a.unit := by
  unfold V3.unit
  rw [turn_norm]
  ext <;> simp only [turn] <;> ring

theorem turn_turn (α β : ℝ) (a : V3) : turn α (turn β a) = turn (α + β) a := by
  ext <;> simp only [turn, Real.cos_add, Real.sin_add] <;> ring

theorem turn_zero (a : V3) : turn 0 a = a := by
  ext <;> simp [turn]

theorem six_trans (a b : V3) : Spec.trans (six a b) = a := rfl
theorem six_rot (a b : V3) : Spec.rot (six a b) = b := rfl
theorem six_eta (w : Vec 6) : six (Spec.trans w) (Spec.rot w) = w := by
  funext i; fin_cases i <;> rfl

theorem turnState_inv (α : ℝ) (u : State) : turnState α (turnState (-α) u) = u := by
  funext n
  unfold turnState
  simp only [six_trans, six_rot, turn_turn, add_neg_cancel, turn_zero, six_eta]

theorem turn_len (α : ℝ) (g : GivenBeam) : (turnBeam α g).len = g.len := by
  unfold GivenBeam.len turnBeam
  rw [turn_sub, turn_norm]

/-- the axes of a system turned about the vertical axis -/
noncomputable def turnSys (α : ℝ) (c : Csys) : Csys := ⟨c.O, turn α c.x, turn α c.y, turn α c.z⟩

theorem localEnds_turn (α : ℝ) (c : Csys) (a b : Vec 6) :
    localEnds (turnSys α c) (six (turn α (Spec.trans a)) (turn α (Spec.rot a))) (six (turn α (Spec.trans b)) (turn α (Spec.rot b))) =
      localEnds c a b := by
  unfold localEnds turnSys
  simp only [six_trans, six_rot, turn_dot]

theorem turnSys_rightHanded (α : ℝ) {c : Csys} (h : RightHanded c) : RightHanded (turnSys α c) := by
  obtain ⟨h1, h2, h3, h4, h5, h6, h7⟩ := h
  refine ⟨?_, ?_, ?_, ?_, ?_, ?_, ?_⟩ <;> simp only [turnSys, turn_dot, turn_cross] <;> first | assumption | rw [h7]

theorem localEnds_axes {c c' : Csys} (hx : c'.x = c.x) (hy : c'.y = c.y) (hz : c'.z = c.z) (a b : Vec 6) : localEnds c' a b = localEnds c a b := by
  unfold localEnds; rw [hx, hy, hz]

/-- away from the vertical the axes turn with the beam -/
theorem beamFrame_turn (α : ℝ) (p q : V3) (h : ¬ Upright p q) (h' : ¬ Upright (turn α p) (turn α q)) (a b : Vec 6) :
    localEnds (beamFrame (turn α p) (turn α q)) a b = localEnds (turnSys α (beamFrame p q)) a b := by
  have e : (⟨0, 0, 1⟩ : V3) = turn α ⟨0, 0, 1⟩ := by ext <;> simp [turn]
  unfold Upright at h h'
  unfold beamFrame turnSys
  simp only
  rw [if_neg h, if_neg h']
  apply localEnds_axes
  · simp only [turn_sub, turn_unit]
  · simp only
    rw [turn_sub, turn_unit]
    conv_lhs => rw [e]
    simp only [turn_cross, turn_unit]
  · simp only
    rw [turn_sub, turn_unit]
    conv_lhs => rw [e]
    simp only [turn_cross, turn_unit]

/-- in two right-handed systems with the same first axis, a beam with equal second moments does the same work -/
theorem beamWork_round {e f : Csys} (he : RightHanded e) (hf : RightHanded f) (hx : f.x = e.x) {c : BeamConsts} (hI : c.I2 = c.I3) (L : ℝ)
    (a b a' b' : Vec 6) : beamWork c L (localEnds f a b) (localEnds f a' b') = beamWork c L (localEnds e a b) (localEnds e a' b') := by
  have hxy : e.x.dot f.y = 0 := by rw [← hx]; exact hf.xy
  have hxz : e.x.dot f.z = 0 := by
    have := hf.zx
    rw [hx] at this
    rw [← this]; simp only [V3.dot]; ring
  have hy : ∀ w : V3, f.y.dot w = e.y.dot f.y * e.y.dot w + e.z.dot f.y * e.z.dot w := by
    intro w; rw [dot_local he, hxy]; ring
  have hyz : e.y.dot f.z = - e.z.dot f.y := by
    rw [← hf.hand, ← he.hand, hx]; simp only [V3.dot, V3.cross]; ring
  have hzz : e.z.dot f.z = e.y.dot f.y := by
    have h1 := he.xx
    have h2 := he.xy
    rw [← hf.hand, ← he.hand, hx]
    simp only [V3.dot, V3.cross] at h1 h2 hxy ⊢
    linear_combination (e.y.x * f.y.x + e.y.y * f.y.y + e.y.z * f.y.z) * h1 - (e.x.x * f.y.x + e.x.y * f.y.y + e.x.z * f.y.z) * h2
  have hz : ∀ w : V3, f.z.dot w = - e.z.dot f.y * e.y.dot w + e.y.dot f.y * e.z.dot w := by
    intro w; rw [dot_local he, hxz, hyz, hzz]; ring
  have h1 : e.y.dot f.y ^ 2 + e.z.dot f.y ^ 2 = 1 := by
    rw [← hf.yy, hy]; ring
  unfold beamWork bendWork localEnds
  simp only [cons_val_zero, cons_val_one, cons_val]
  simp only [hx, hy, hz, hI]
  generalize e.y.dot f.y = p at *
  generalize e.z.dot f.y = q at *
  generalize e.y.dot (Spec.trans a) = a1
  generalize e.z.dot (Spec.trans a) = a2
  generalize e.y.dot (Spec.rot a) = a3
  generalize e.z.dot (Spec.rot a) = a4
  generalize e.y.dot (Spec.trans b) = b1
  generalize e.z.dot (Spec.trans b) = b2
  generalize e.y.dot (Spec.rot b) = b3
  generalize e.z.dot (Spec.rot b) = b4
  generalize e.y.dot (Spec.trans a') = c1
  generalize e.z.dot (Spec.trans a') = c2
  generalize e.y.dot (Spec.rot a') = c3
  generalize e.z.dot (Spec.rot a') = c4
  generalize e.y.dot (Spec.trans b') = d1
  generalize e.z.dot (Spec.trans b') = d2
  generalize e.y.dot (Spec.rot b') = d3
  generalize e.z.dot (Spec.rot b') = d4
  have hX : (p ^ 2 + q ^ 2) *
      (bendWork (c.E * c.I3) L (c4 - (d1 - c1) / L) (d4 - (d1 - c1) / L) (a4 - (b1 - a1) / L) (b4 - (b1 - a1) / L) +
      bendWork (c.E * c.I3) L (-c3 - (d2 - c2) / L) (-d3 - (d2 - c2) / L) (-a3 - (b2 - a2) / L) (-b3 - (b2 - a2) / L)) =
      bendWork (c.E * c.I3) L (c4 - (d1 - c1) / L) (d4 - (d1 - c1) / L) (a4 - (b1 - a1) / L) (b4 - (b1 - a1) / L) +
      bendWork (c.E * c.I3) L (-c3 - (d2 - c2) / L) (-d3 - (d2 - c2) / L) (-a3 - (b2 - a2) / L) (-b3 - (b2 - a2) / L) := by
    rw [h1, one_mul]
  simp only [bendWork] at hX
  linear_combination hX

/-- a beam whose axes turn with it, or whose section has no preferred axis -/
theorem internal_turn (α : ℝ) {g : GivenBeam} {cs cs' : Csys} (h : lineCsys g.p g.q = .ok cs)
    (h' : lineCsys (turnBeam α g).p (turnBeam α g).q = .ok cs')
    (hb : (¬ Upright g.p g.q ∧ ¬ Upright (turn α g.p) (turn α g.q)) ∨ g.sec.I2 = g.sec.I3) (v u : State) :
    (turnBeam α g).internal (turnState α v) (turnState α u) = g.internal v u := by
  rw [internal_eq h, internal_eq h', turn_len]
  rcases hb with ⟨h1, h2⟩ | hI
  · have e : ∀ w : State, (turnBeam α g).ends (turnState α w) = g.ends w := by
      intro w
      unfold GivenBeam.ends turnBeam
      simp only
      rw [beamFrame_turn α _ _ h1 h2]
      exact localEnds_turn α _ _ _
    rw [e, e]; rfl
  · have hR := turnSys_rightHanded α (frame_rightHanded h)
    have hR' := frame_rightHanded h'
    unfold GivenBeam.ends
    rw [beamWork_round (c := gconsts (turnBeam α g).sec) hR hR' (by
      show ((turn α g.q) - (turn α g.p)).unit = turn α (g.q - g.p).unit
      rw [turn_sub, turn_unit]) hI]
    show beamWork _ _ (localEnds _ (six (turn α (Spec.trans (v g.start))) (turn α (Spec.rot (v g.start))))
        (six (turn α (Spec.trans (v g.stop))) (turn α (Spec.rot (v g.stop)))))
      (localEnds _ (six (turn α (Spec.trans (u g.start))) (turn α (Spec.rot (u g.start))))
        (six (turn α (Spec.trans (u g.stop))) (turn α (Spec.rot (u g.stop))))) = _
    rw [localEnds_turn, localEnds_turn]
    rfl

/-! ### exchange of the ends -/

theorem V3.unit_neg (a : V3) : (-a).unit = -a.unit := by
  have h : (-a).norm = a.norm := by
    unfold V3.norm; simp
  unfold V3.unit
  rw [h]
  ext <;> simp [neg_div]

theorem beamFrame_swap (p q : V3) (a b : Vec 6) :
    localEnds (beamFrame q p) b a = localEnds ⟨(beamFrame p q).O, -(beamFrame p q).x, (beamFrame p q).y, -(beamFrame p q).z⟩ b a := by
  have e : p - q = -(q - p) := by ext <;> simp
  have hx : (beamFrame q p).x = -(beamFrame p q).x := by
    show (p - q).unit = -(q - p).unit
    rw [e, V3.unit_neg]
  have hm : max |p.x - q.x| |p.y - q.y| = max |q.x - p.x| |q.y - p.y| := by rw [abs_sub_comm p.x, abs_sub_comm p.y]
  have hc : ∀ a b : V3, (-a).cross b = -(a.cross b) := by
    intro a b; ext <;> simp [V3.cross] <;> ring
  have hz : (beamFrame q p).z = -(beamFrame p q).z := by
    unfold beamFrame
    simp only
    rw [hm, e, V3.unit_neg, hc, V3.unit_neg]
  apply localEnds_axes hx _ hz
  show (beamFrame q p).z.cross (beamFrame q p).x = (beamFrame p q).z.cross (beamFrame p q).x
  rw [hx, hz]
  ext <;> simp [V3.cross]

theorem internal_swap {g : GivenBeam} {cs cs' : Csys} (h : lineCsys g.p g.q = .ok cs) (h' : lineCsys g.q g.p = .ok cs') (v u : State) :
    GivenBeam.internal ⟨g.stop, g.start, g.q, g.p, g.sec⟩ v u = g.internal v u := by
  rw [internal_eq h, internal_eq (g := ⟨g.stop, g.start, g.q, g.p, g.sec⟩) h']
  have hl : GivenBeam.len ⟨g.stop, g.start, g.q, g.p, g.sec⟩ = g.len := by
    unfold GivenBeam.len V3.norm
    simp only [V3.sub_def]
    congr 1
    ring
  rw [hl]
  unfold GivenBeam.ends
  simp only
  rw [beamFrame_swap, beamFrame_swap]
  generalize beamFrame g.p g.q = e
  have hd : ∀ a b : V3, (-a).dot b = -(a.dot b) := by
    intro a b; simp [V3.dot]; ring
  unfold beamWork bendWork localEnds
  simp only [cons_val_zero, cons_val_one, cons_val, hd]
  ring

/-! ### subdivision -/

theorem deriv_cubicField (l a s b t x : ℝ) : deriv (cubicField l a s b t) x =
    s + 2 * (3 * (b - a) / l ^ 2 - (2 * s + t) / l) * x + 3 * ((s + t) / l ^ 2 - 2 * (b - a) / l ^ 3) * x ^ 2 := by
  have := deriv_cubic a s (3 * (b - a) / l ^ 2 - (2 * s + t) / l) ((s + t) / l ^ 2 - 2 * (b - a) / l ^ 3)
  have e : cubicField l a s b t = fun x => a + s * x + (3 * (b - a) / l ^ 2 - (2 * s + t) / l) * x ^ 2 +
      ((s + t) / l ^ 2 - 2 * (b - a) / l ^ 3) * x ^ 3 := rfl
  rw [e, this]

/-- bending of a beam in two pieces: the virtual state is one cubic, the actual state is arbitrary at the division -/
theorem bend_divide (EI L t : ℝ) (hL : L ≠ 0) (ht : t ≠ 0) (ht' : 1 - t ≠ 0) (a s b r a' s' b' r' w θ : ℝ) :
    bendWork EI (t * L) (s' - (w - a') / (t * L)) (θ - (w - a') / (t * L))
      (s - (cubicField L a s b r (t * L) - a) / (t * L)) (deriv (cubicField L a s b r) (t * L) - (cubicField L a s b r (t * L) - a) / (t * L)) +
    bendWork EI ((1 - t) * L) (θ - (b' - w) / ((1 - t) * L)) (r' - (b' - w) / ((1 - t) * L))
      (deriv (cubicField L a s b r) (t * L) - (b - cubicField L a s b r (t * L)) / ((1 - t) * L))
      (r - (b - cubicField L a s b r (t * L)) / ((1 - t) * L)) =
    bendWork EI L (s' - (b' - a') / L) (r' - (b' - a') / L) (s - (b - a) / L) (r - (b - a) / L) := by
  rw [deriv_cubicField]
  unfold bendWork cubicField
  field_simp
  ring

theorem axial_divide (k L t : ℝ) (hL : L ≠ 0) (ht : t ≠ 0) (ht' : 1 - t ≠ 0) (a b a' b' w : ℝ) :
    (lineField L a b (t * L) - a) * (k / (t * L) * (w - a')) + (b - lineField L a b (t * L)) * (k / ((1 - t) * L) * (b' - w)) =
      (b - a) * (k / L * (b' - a')) := by
  unfold lineField
  field_simp
  ring

theorem point_sub (g : GivenBeam) (t : ℝ) : g.point t - g.p = t • (g.q - g.p) ∧ g.q - g.point t = (1 - t) • (g.q - g.p) := by
  constructor <;> (unfold GivenBeam.point; ext <;> simp <;> ring)

/-- the parts of a beam have its axes -/
theorem beamFrame_part {p q p' q' : V3} {k : ℝ} (hk : 0 < k) (h : q' - p' = k • (q - p)) (hu : Upright p' q' ↔ Upright p q) (a b : Vec 6) :
    localEnds (beamFrame p' q') a b = localEnds (beamFrame p q) a b := by
  have hx : (q' - p').unit = (q - p).unit := by rw [h, V3.unit_smul_pos hk]
  have hup : (if max |q'.x - p'.x| |q'.y - p'.y| < absTol then (⟨1, 0, 0⟩ : V3) else ⟨0, 0, 1⟩) =
      if max |q.x - p.x| |q.y - p.y| < absTol then ⟨1, 0, 0⟩ else ⟨0, 0, 1⟩ := by
    unfold Upright at hu
    by_cases h0 : max |q.x - p.x| |q.y - p.y| < absTol
    · rw [if_pos h0, if_pos (hu.mpr h0)]
    · rw [if_neg h0, if_neg (fun h1 => h0 (hu.mp h1))]
  apply localEnds_axes
  · exact hx
  · unfold beamFrame; simp only [hx, hup]
  · unfold beamFrame; simp only [hx, hup]

theorem V3.norm_smul_pos {k : ℝ} (hk : 0 < k) (a : V3) : (k • a).norm = k * a.norm := by
  unfold V3.norm
  simp only [V3.smul_def]
  rw [show k * a.x * (k * a.x) + k * a.y * (k * a.y) + k * a.z * (k * a.z) = k ^ 2 * (a.x * a.x + a.y * a.y + a.z * a.z) by ring,
    Real.sqrt_mul (sq_nonneg k), Real.sqrt_sq hk.le]

/-- work of the two parts of a divided beam when the virtual displacement of the division follows the beam -/
theorem work_divide (c : BeamConsts) (e : Csys) {L t : ℝ} (hL : L ≠ 0) (ht : t ≠ 0) (ht' : 1 - t ≠ 0) {d vm : Vec 6} (vs vt xs xm xt : Vec 6)
    (h : e.x.dot (Spec.trans vm) = d 0 ∧ e.y.dot (Spec.trans vm) = d 1 ∧ e.z.dot (Spec.trans vm) = d 2 ∧
      e.x.dot (Spec.rot vm) = d 3 ∧ e.y.dot (Spec.rot vm) = d 4 ∧ e.z.dot (Spec.rot vm) = d 5)
    (d0 : d 0 = lineField L (localEnds e vs vt 0) (localEnds e vs vt 6) (t * L))
    (d1 : d 1 = cubicField L (localEnds e vs vt 1) (localEnds e vs vt 5) (localEnds e vs vt 7) (localEnds e vs vt 11) (t * L))
    (d2 : d 2 = cubicField L (localEnds e vs vt 2) (-localEnds e vs vt 4) (localEnds e vs vt 8) (-localEnds e vs vt 10) (t * L))
    (d3 : d 3 = lineField L (localEnds e vs vt 3) (localEnds e vs vt 9) (t * L))
    (d4 : d 4 = - deriv (cubicField L (localEnds e vs vt 2) (-localEnds e vs vt 4) (localEnds e vs vt 8) (-localEnds e vs vt 10)) (t * L))
    (d5 : d 5 = deriv (cubicField L (localEnds e vs vt 1) (localEnds e vs vt 5) (localEnds e vs vt 7) (localEnds e vs vt 11)) (t * L)) :
    beamWork c (t * L) (localEnds e vs vm) (localEnds e xs xm) + beamWork c ((1 - t) * L) (localEnds e vm vt) (localEnds e xm xt) =
      beamWork c L (localEnds e vs vt) (localEnds e xs xt) := by
  obtain ⟨h0, h1, h2, h3, h4, h5⟩ := h
  unfold beamWork
  simp only [localEnds, cons_val_zero, cons_val_one, cons_val] at d0 d1 d2 d3 d4 d5 ⊢
  rw [h0, h1, h2, h3, h4, h5, d0, d1, d2, d3, d4, d5]
  generalize e.x.dot (Spec.trans vs) = a0
  generalize e.y.dot (Spec.trans vs) = a1
  generalize e.z.dot (Spec.trans vs) = a2
  generalize e.x.dot (Spec.rot vs) = a3
  generalize e.y.dot (Spec.rot vs) = a4
  generalize e.z.dot (Spec.rot vs) = a5
  generalize e.x.dot (Spec.trans vt) = b0
  generalize e.y.dot (Spec.trans vt) = b1
  generalize e.z.dot (Spec.trans vt) = b2
  generalize e.x.dot (Spec.rot vt) = b3
  generalize e.y.dot (Spec.rot vt) = b4
  generalize e.z.dot (Spec.rot vt) = b5
  generalize e.x.dot (Spec.trans xs) = p0
  generalize e.y.dot (Spec.trans xs) = p1
  generalize e.z.dot (Spec.trans xs) = p2
  generalize e.x.dot (Spec.rot xs) = p3
  generalize e.y.dot (Spec.rot xs) = p4
  generalize e.z.dot (Spec.rot xs) = p5
  generalize e.x.dot (Spec.trans xt) = q0
  generalize e.y.dot (Spec.trans xt) = q1
  generalize e.z.dot (Spec.trans xt) = q2
  generalize e.x.dot (Spec.rot xt) = q3
  generalize e.y.dot (Spec.rot xt) = q4
  generalize e.z.dot (Spec.rot xt) = q5
  generalize e.x.dot (Spec.trans xm) = w0
  generalize e.y.dot (Spec.trans xm) = w1
  generalize e.z.dot (Spec.trans xm) = w2
  generalize e.x.dot (Spec.rot xm) = w3
  generalize e.y.dot (Spec.rot xm) = w4
  generalize e.z.dot (Spec.rot xm) = w5
  rw [neg_neg]
  have i1 := axial_divide (c.E * c.A) L t hL ht ht' a0 b0 p0 q0 w0
  have i2 := axial_divide (c.G * c.J) L t hL ht ht' a3 b3 p3 q3 w3
  have i3 := bend_divide (c.E * c.I3) L t hL ht ht' a1 a5 b1 b5 p1 p5 q1 q5 w1 w5
  have i4 := bend_divide (c.E * c.I2) L t hL ht ht' a2 (-a4) b2 (-b4) p2 (-p4) q2 (-q4) w2 (-w4)
  linear_combination i1 + i2 + i3 + i4

theorem moved_eq (g : GivenBeam) (u : State) (t : ℝ) :
    g.moved u t = fromLocal (beamFrame g.p g.q) ![g.axial u (t * g.len), g.defl2 u (t * g.len), g.defl3 u (t * g.len),
      g.twist u (t * g.len), - deriv (g.defl3 u) (t * g.len), deriv (g.defl2 u) (t * g.len)] := by
  unfold GivenBeam.moved fromLocal six
  simp only [V3.smul_def, V3.add_def, cons_val_zero, cons_val_one, cons_val]

/-- work of the two parts of a divided beam when the virtual displacement of the new node follows the beam -/
theorem internal_divide {g : GivenBeam} {m : String} {t : ℝ} {c c1 c2 : Csys} (hc : lineCsys g.p g.q = .ok c)
    (h1 : lineCsys g.p (g.point t) = .ok c1) (h2 : lineCsys (g.point t) g.q = .ok c2) (ht : 0 < t) (ht' : t < 1)
    (u1 : Upright g.p (g.point t) ↔ Upright g.p g.q) (u2 : Upright (g.point t) g.q ↔ Upright g.p g.q) (hm1 : g.start ≠ m) (hm2 : g.stop ≠ m)
    (v x : State) :
    GivenBeam.internal { g with stop := m, q := g.point t } (carried g m t v) x +
      GivenBeam.internal { g with start := m, p := g.point t } (carried g m t v) x = g.internal v x := by
  rw [internal_eq hc, internal_eq (g := { g with stop := m, q := g.point t }) h1, internal_eq (g := { g with start := m, p := g.point t }) h2]
  have hR := frame_rightHanded hc
  have hL := (len_pos hc).ne'
  have ht3 : 1 - t ≠ 0 := by intro h; linarith
  obtain ⟨s1, s2⟩ := point_sub g t
  have l1 : GivenBeam.len { g with stop := m, q := g.point t } = t * g.len := by
    unfold GivenBeam.len; simp only; rw [s1, V3.norm_smul_pos ht]
  have l2 : GivenBeam.len { g with start := m, p := g.point t } = (1 - t) * g.len := by
    unfold GivenBeam.len; simp only; rw [s2, V3.norm_smul_pos (by linarith)]
  have e1 : ∀ w, GivenBeam.ends { g with stop := m, q := g.point t } w = localEnds (beamFrame g.p g.q) (w g.start) (w m) :=
    fun w => beamFrame_part ht s1 u1 _ _
  have e2 : ∀ w, GivenBeam.ends { g with start := m, p := g.point t } w = localEnds (beamFrame g.p g.q) (w m) (w g.stop) :=
    fun w => beamFrame_part (by linarith) s2 u2 _ _
  have w0 : carried g m t v g.start = v g.start := if_neg hm1
  have w1 : carried g m t v g.stop = v g.stop := if_neg hm2
  have w2 : carried g m t v m = g.moved v t := if_pos rfl
  rw [l1, l2, e1, e1, e2, e2, w0, w1, w2, moved_eq]
  exact work_divide _ _ hL ht.ne' ht3 _ _ _ _ _ (dot_fromLocal hR _) rfl rfl rfl rfl rfl rfl

/-! ### line loads on the parts -/

theorem line_part (L t : ℝ) (hL : L ≠ 0) (ht : t ≠ 0) (ht' : 1 - t ≠ 0) (a b x : ℝ) :
    lineField (t * L) a (lineField L a b (t * L)) x = lineField L a b x ∧
    lineField ((1 - t) * L) (lineField L a b (t * L)) b x = lineField L a b (x + t * L) := by
  unfold lineField
  constructor <;> (field_simp; ring)

theorem load_part (L t : ℝ) (hL : L ≠ 0) (ht : t ≠ 0) (ht' : 1 - t ≠ 0) (a b x : ℝ) :
    lineLoad a (a + t * (b - a)) (t * L) x = lineLoad a b L x ∧
    lineLoad (a + t * (b - a)) b ((1 - t) * L) x = lineLoad a b L (x + t * L) := by
  unfold lineLoad
  constructor <;> (field_simp; ring)

theorem cubic_part (L t : ℝ) (hL : L ≠ 0) (ht : t ≠ 0) (ht' : 1 - t ≠ 0) (a s b r x : ℝ) :
    cubicField (t * L) a s (cubicField L a s b r (t * L)) (deriv (cubicField L a s b r) (t * L)) x = cubicField L a s b r x ∧
    cubicField ((1 - t) * L) (cubicField L a s b r (t * L)) (deriv (cubicField L a s b r) (t * L)) b r x = cubicField L a s b r (x + t * L) := by
  rw [deriv_cubicField]
  unfold cubicField
  constructor <;> (field_simp; ring)

/-- values at the ends and at the division, as in a node that is carried along -/
theorem fields_divide {g : GivenBeam} {m : String} {t : ℝ} {c : Csys} (hc : lineCsys g.p g.q = .ok c) (ht : 0 < t) (ht' : t < 1)
    (u1 : Upright g.p (g.point t) ↔ Upright g.p g.q) (u2 : Upright (g.point t) g.q ↔ Upright g.p g.q) (hm1 : g.start ≠ m) (hm2 : g.stop ≠ m)
    (v : State) (g1 g2 : GivenBeam) (hg1 : g1 = { g with stop := m, q := g.point t }) (hg2 : g2 = { g with start := m, p := g.point t }) :
    g1.len = t * g.len ∧ g2.len = (1 - t) * g.len ∧
    (∀ x, g1.axial (carried g m t v) x = g.axial v x ∧ g1.defl2 (carried g m t v) x = g.defl2 v x ∧
      g1.defl3 (carried g m t v) x = g.defl3 v x ∧ g1.twist (carried g m t v) x = g.twist v x) ∧
    ∀ x, g2.axial (carried g m t v) x = g.axial v (x + t * g.len) ∧ g2.defl2 (carried g m t v) x = g.defl2 v (x + t * g.len) ∧
      g2.defl3 (carried g m t v) x = g.defl3 v (x + t * g.len) ∧ g2.twist (carried g m t v) x = g.twist v (x + t * g.len) := by
  subst hg1 hg2
  have hR := frame_rightHanded hc
  have hL := (len_pos hc).ne'
  have ht3 : 1 - t ≠ 0 := by intro h; linarith
  obtain ⟨s1, s2⟩ := point_sub g t
  have l1 : GivenBeam.len { g with stop := m, q := g.point t } = t * g.len := by
    unfold GivenBeam.len; simp only; rw [s1, V3.norm_smul_pos ht]
  have l2 : GivenBeam.len { g with start := m, p := g.point t } = (1 - t) * g.len := by
    unfold GivenBeam.len; simp only; rw [s2, V3.norm_smul_pos (by linarith)]
  have w0 : carried g m t v g.start = v g.start := if_neg hm1
  have w1 : carried g m t v g.stop = v g.stop := if_neg hm2
  have w2 : carried g m t v m = g.moved v t := if_pos rfl
  have e1 : GivenBeam.ends { g with stop := m, q := g.point t } (carried g m t v) = localEnds (beamFrame g.p g.q) (v g.start) (g.moved v t) := by
    rw [← w2, ← w0]; exact beamFrame_part ht s1 u1 _ _
  have e2 : GivenBeam.ends { g with start := m, p := g.point t } (carried g m t v) = localEnds (beamFrame g.p g.q) (g.moved v t) (v g.stop) := by
    rw [← w2, ← w1]; exact beamFrame_part (by linarith) s2 u2 _ _
  obtain ⟨d0, d1, d2, d3, d4, d5⟩ := dot_fromLocal hR ![g.axial v (t * g.len), g.defl2 v (t * g.len), g.defl3 v (t * g.len),
      g.twist v (t * g.len), - deriv (g.defl3 v) (t * g.len), deriv (g.defl2 v) (t * g.len)]
  rw [← moved_eq] at d0 d1 d2 d3 d4 d5
  simp only [cons_val_zero, cons_val_one, cons_val] at d0 d1 d2 d3 d4 d5
  refine ⟨l1, l2, fun x => ?_, fun x => ?_⟩
  · simp only [GivenBeam.axial, GivenBeam.defl2, GivenBeam.defl3, GivenBeam.twist] at d0 d1 d2 d3 d4 d5 ⊢
    rw [l1, e1]
    simp only [GivenBeam.ends, localEnds, cons_val_zero, cons_val_one, cons_val] at d0 d1 d2 d3 d4 d5 ⊢
    rw [d0, d1, d2, d3, d4, d5, neg_neg]
    exact ⟨(line_part _ _ hL ht.ne' ht3 _ _ _).1, (cubic_part _ _ hL ht.ne' ht3 _ _ _ _ _).1, (cubic_part _ _ hL ht.ne' ht3 _ _ _ _ _).1,
      (line_part _ _ hL ht.ne' ht3 _ _ _).1⟩
  · simp only [GivenBeam.axial, GivenBeam.defl2, GivenBeam.defl3, GivenBeam.twist] at d0 d1 d2 d3 d4 d5 ⊢
    rw [l2, e2]
    simp only [GivenBeam.ends, localEnds, cons_val_zero, cons_val_one, cons_val] at d0 d1 d2 d3 d4 d5 ⊢
    rw [d0, d1, d2, d3, d4, d5, neg_neg]
    exact ⟨(line_part _ _ hL ht.ne' ht3 _ _ _).2, (cubic_part _ _ hL ht.ne' ht3 _ _ _ _ _).2, (cubic_part _ _ hL ht.ne' ht3 _ _ _ _ _).2,
      (line_part _ _ hL ht.ne' ht3 _ _ _).2⟩

theorem continuous_lineField (l a b : ℝ) : Continuous (lineField l a b) := by unfold lineField; fun_prop
theorem continuous_cubicField (l a s b r : ℝ) : Continuous (cubicField l a s b r) := by unfold cubicField; fun_prop
theorem continuous_lineLoad (a b l : ℝ) : Continuous (lineLoad a b l) := by unfold lineLoad; fun_prop

end Hyperstatic
