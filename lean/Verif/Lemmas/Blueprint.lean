import Verif.Props.Line
import Verif.Props.Element
import Verif.Spec.Blueprint
import Verif.Lemmas.Structure

namespace Hyperstatic
open Matrix Spec

/-! ### what the objects of the code stand for -/

/-- numbers of a material object -/
def givenMat (m : Material) : GivenMat := ⟨m.rho, m.E, m.mu⟩
/-- numbers of a section object -/
def givenSec (s : BeamSection) : GivenSec := ⟨givenMat s.material, s.A, s.I22, s.I33, s.J⟩
/-- numbers of a beam property -/
def givenProp : BeamProp → GivenSec
  | .sec s => givenSec s
  | .simple E mu A I2 I3 J rho => ⟨⟨rho, E, mu⟩, A, I2, I3, J⟩
/-- numbers of a beam object -/
def givenBeam (b : BeamElm) : GivenBeam := ⟨b.startName, b.endName, b.startLoc, b.endLoc, givenProp b.prop⟩

/-- the blueprint of an api -/
def blueprintOf (a : Api) : Blueprint :=
  ⟨fun n => (a.model.nodes.get? n).map Node.loc, fun n => (a.model.material.get? n).map givenMat,
    fun n => (a.model.beamSection.get? n).map givenSec, a.model.beams.keys, fun b => (a.model.beams.get? b).map givenBeam⟩

theorem tanhSum_eq (k : ℕ) (s d : ℝ) : tanhSum k s d =
    ∑ i ∈ Finset.range k, Real.tanh ((2 * i + 1) * 3.141592 * s / 2 / d) / (2 * i + 1) ^ 5 := by
  unfold tanhSum odds
  rw [List.map_map, Finset.sum_range, ← List.sum_ofFn]
  congr 1
  apply List.ext_getElem
  · simp
  · intro i h1 h2
    simp only [List.getElem_map, List.getElem_range, List.getElem_ofFn, Function.comp]
    push_cast
    norm_num [pi6]

theorem pi6_eq : pi6 = 3.141592 := by norm_num [pi6]
theorem pi5_eq : pi5 = 3.14159 := by norm_num [pi5]

theorem rect_torsion (k : ℕ) (h b : ℝ) : h * b ^ 3 * (1 / 3 - 64 * b / (pi6 ^ 5 * h) * tanhSum k h b) = rectTorsion k h b := by
  rw [tanhSum_eq, pi6_eq]; rfl

theorem pyDiv_zero (a : ℝ) : pyDiv a 0 = .error .zeroDivision := by simp [pyDiv]
theorem pyDiv_ne {a b : ℝ} (h : b ≠ 0) : pyDiv a b = .ok (a / b) := by simp [pyDiv, h]

theorem rect_build (name : String) (mat : Material) (h b : ℝ) :
    (rectangleSection name mat h b).toOption.map givenSec = shapeConsts.rect (givenMat mat) h b := by
  unfold rectangleSection shapeConsts.rect
  by_cases hb : b = 0
  · subst hb; simp [pyDiv_zero, Except.bind_error, Except.toOption]
  by_cases hh : h = 0
  · subst hh; simp [pyDiv_zero, pyDiv_ne hb, Except.bind_ok, Except.bind_error, Except.toOption]
  have hp : pi6 ^ 5 * h ≠ 0 := mul_ne_zero (by norm_num [pi6]) hh
  have h2 : h / 2 ≠ 0 := div_ne_zero hh two_ne_zero
  have b2 : b / 2 ≠ 0 := div_ne_zero hb two_ne_zero
  simp only [hb, hh, or_self, if_false, pyDiv_ne, ne_eq, not_false_eq_true, hp, h2, b2, Except.bind_ok, Except.pure_eq_ok,
    Except.toOption, Option.map_some, givenSec, rect_torsion]

theorem circle_build (name : String) (mat : Material) (m : String) (d : ℝ) :
    (circleSection name mat d).toOption.map givenSec = shapeConsts (givenMat mat) (.addBeamSectionCircle name m d) := by
  unfold circleSection shapeConsts
  by_cases hd : d = 0
  · subst hd; simp [pyDiv_zero, Except.bind_error, Except.toOption]
  have h2 : d / 2 ≠ 0 := div_ne_zero hd two_ne_zero
  simp only [hd, if_false, pyDiv_ne, ne_eq, not_false_eq_true, h2, Except.bind_ok, Except.pure_eq_ok,
    Except.toOption, Option.map_some, givenSec, pi5_eq]

theorem i_build (name : String) (mat : Material) (m : String) (h b tw tf : ℝ) :
    (iSection name mat h b tw tf).toOption.map givenSec = shapeConsts (givenMat mat) (.addBeamSectionI name m h b tw tf) := by
  unfold iSection shapeConsts
  by_cases hb : b = 0
  · subst hb; simp [pyDiv_zero, Except.bind_error, Except.toOption]
  by_cases ht : tf = 0
  · subst ht; simp [pyDiv_zero, pyDiv_ne hb, Except.bind_ok, Except.bind_error, Except.toOption]
  have hp : pi6 ^ 5 * tf ≠ 0 := mul_ne_zero (by norm_num [pi6]) ht
  by_cases hh : h = 2 * tf
  · have : h - 2 * tf = 0 := by linarith
    simp [hh, pyDiv_zero, pyDiv_ne hb, pyDiv_ne hp, Except.bind_ok, Except.bind_error, Except.toOption]
  have hh' : h - 2 * tf ≠ 0 := sub_ne_zero.mpr hh
  by_cases hw : tw = 0
  · subst hw; simp [pyDiv_zero, pyDiv_ne hb, pyDiv_ne hp, pyDiv_ne hh', Except.bind_ok, Except.bind_error, Except.toOption]
  have hp' : pi6 ^ 5 * tw ≠ 0 := mul_ne_zero (by norm_num [pi6]) hw
  have b2 : b / 2 ≠ 0 := div_ne_zero hb two_ne_zero
  by_cases h0 : h = 0
  · have h2 : h / 2 = 0 := by rw [h0]; norm_num
    simp only [pyDiv_ne hb, pyDiv_ne hp, pyDiv_ne hh', pyDiv_ne hp', pyDiv_ne b2, h2, pyDiv_zero, Except.bind_ok, Except.bind_error,
      Except.toOption, Option.map_none]
    rw [if_pos (Or.inr (Or.inr (Or.inr (Or.inr h0))))]
  have h2 : h / 2 ≠ 0 := div_ne_zero h0 two_ne_zero
  simp only [pyDiv_ne hb, pyDiv_ne hp, pyDiv_ne hh', pyDiv_ne hp', pyDiv_ne b2, pyDiv_ne h2, Except.bind_ok, Except.pure_eq_ok,
    Except.toOption, Option.map_some, givenSec, rect_torsion, hb, ht, hh, hw, h0, or_self, if_false, Option.some.injEq,
    GivenSec.mk.injEq, true_and]
  refine ⟨by ring, by ring⟩

theorem box_build (name : String) (mat : Material) (m : String) (h b tw tf : ℝ) :
    (boxSection name mat h b tw tf).toOption.map givenSec = shapeConsts (givenMat mat) (.addBeamSectionBox name m h b tw tf) := by
  unfold boxSection shapeConsts
  by_cases ht : tf = 0
  · subst ht; simp [pyDiv_zero, Except.bind_error, Except.toOption]
  by_cases hw : tw = 0
  · subst hw; simp [pyDiv_zero, pyDiv_ne ht, Except.bind_ok, Except.bind_error, Except.toOption]
  by_cases ha : (b - tw) / tf + (h - tf) / tw = 0
  · simp [ha, pyDiv_zero, pyDiv_ne ht, pyDiv_ne hw, Except.bind_ok, Except.bind_error, Except.toOption]
  have ha' : 2 * ((b - tw) / tf + (h - tf) / tw) ≠ 0 := mul_ne_zero two_ne_zero ha
  by_cases hb : b = 0
  · have b2 : b / 2 = 0 := by rw [hb]; norm_num
    simp only [pyDiv_ne ht, pyDiv_ne hw, pyDiv_ne ha', b2, pyDiv_zero, Except.bind_ok, Except.bind_error, Except.toOption,
      Option.map_none]
    rw [if_pos (Or.inr (Or.inr (Or.inr (Or.inl hb))))]
  have b2 : b / 2 ≠ 0 := div_ne_zero hb two_ne_zero
  by_cases h0 : h = 0
  · have h2 : h / 2 = 0 := by rw [h0]; norm_num
    simp only [pyDiv_ne ht, pyDiv_ne hw, pyDiv_ne ha', pyDiv_ne b2, h2, pyDiv_zero, Except.bind_ok, Except.bind_error, Except.toOption,
      Option.map_none]
    rw [if_pos (Or.inr (Or.inr (Or.inr (Or.inr h0))))]
  have h2 : h / 2 ≠ 0 := div_ne_zero h0 two_ne_zero
  simp only [pyDiv_ne ht, pyDiv_ne hw, pyDiv_ne ha', pyDiv_ne b2, pyDiv_ne h2, Except.bind_ok, Except.pure_eq_ok,
    Except.toOption, Option.map_some, givenSec, hb, ht, ha, hw, h0, or_self, if_false, Option.some.injEq,
    GivenSec.mk.injEq, true_and]
  refine ⟨by ring, by ring, ?_⟩
  rw [div_mul_eq_mul_div, pow_two]

/-! ### refinement -/

theorem blueprint_sec {a a' : Api} {name m : String} {build : Material → Except PyErr BeamSection} {c : Call}
    (hc : sectionCall c = some (name, m))
    (hb : ∀ mat, (build mat).toOption.map givenSec = shapeConsts (givenMat mat) c) (he : SecBuild a name m build a') :
    blueprintOf a' = match (((blueprintOf a).mat m).bind fun mat => shapeConsts mat c) with
        | some g => { blueprintOf a with sec := fun k => if k = name then some g else (blueprintOf a).sec k }
        | none => blueprintOf a := by
  obtain ⟨mat, sec, h1, h2, rfl⟩ := he
  have h3 := hb mat
  rw [h2] at h3
  simp only [blueprintOf, h1, Option.map_some, Option.bind_some, ← h3, Except.toOption, withSec]
  congr 1
  funext k
  rw [Dict.get?_set]
  by_cases e : name = k
  · subst e; simp
  · simp [e, Ne.symm e]

theorem blueprint_sec_err {a : Api} {name m : String} {build : Material → Except PyErr BeamSection} {c : Call} {e : PyErr}
    (hb : ∀ mat, (build mat).toOption.map givenSec = shapeConsts (givenMat mat) c)
    (he : ((a.model.addBeamSection name m build) >>= fun m => pure { a with model := m }) = .error e) :
    (((blueprintOf a).mat m).bind fun mat => shapeConsts mat c) = none := by
  unfold FeModel.addBeamSection at he
  cases hm : a.model.material.get? m with
  | none => simp [blueprintOf, hm]
  | some mat =>
    simp only [blueprintOf, hm, Option.map_some, Option.bind_some, ← hb mat]
    rw [Dict.getItem_of_some hm, Except.bind_ok] at he
    cases hbm : build mat with
    | error e' => rfl
    | ok s => rw [hbm] at he; cases he

theorem ApiInv.node_name {a : Api} (h : ApiInv a) {n : String} {nd : Node} (hn : a.model.nodes.get? n = some nd) : nd.name = n := by
  obtain ⟨m, e⟩ := h.node_std n nd hn
  rw [e]; rfl

theorem blueprint_beam {a : Api} (h : ApiInv a) {b i j : String} {n0 n1 : Node} {pr : BeamProp} {be : BeamElm}
    (h0 : a.model.nodes.get? i = some n0) (h1 : a.model.nodes.get? j = some n1) (hb : BeamElm.mk? b n0 n1 pr = .ok be) :
    blueprintOf (withBeam a b be) = (blueprintOf a).addBeam b i j (some (givenProp pr)) := by
  have hacc := (beam_mk_iff b n0 n1 pr).mp ⟨be, hb⟩
  simp only [BeamElm.mk?, Except.bind_ok_iff, Except.pure_eq_ok, Except.ok.injEq] at hb
  obtain ⟨c, _, rfl⟩ := hb
  unfold Blueprint.addBeam
  simp only [blueprintOf, h0, h1, Option.map_some, hacc, if_true, withBeam]
  congr 1
  · exact Dict.keys_set _ _ _
  · funext k
    rw [Dict.get?_set]
    by_cases e : b = k
    · subst e; simp [givenBeam, h.node_name h0, h.node_name h1]
    · simp [e, Ne.symm e]

theorem addBeam_none {s : Blueprint} {b i j : String} {g : Option GivenSec}
    (h : ∀ p q g', s.loc i = some p → s.loc j = some q → g = some g' → ¬ Acceptable p q) : s.addBeam b i j g = s := by
  unfold Blueprint.addBeam
  split
  · rename_i p q g' h1 h2
    rw [if_neg (h p q g' h1 h2 rfl)]
  · rfl

theorem blueprint_refined (env : Env) (cs : List Call) :
    blueprintOf (World.init.run env cs).api = (blueprint.run cs).cur := by
  apply refines env blueprint blueprintOf ApiInv
  · simp [blueprintOf, blueprint, Api.init, FeModel.empty, Dict.keys]
  · exact ApiInv_init
  · exact fun a c a' h he => ApiInv_edit h he
  · intro a c a' hI he
    rw [edit_ok_iff] at he
    cases c <;> simp only [EditEff] at he
    case addNode n x y z =>
      subst he
      simp only [blueprintOf, blueprint]
      congr 1
      funext m
      rw [Dict.get?_set]
      by_cases e : n = m
      · subst e; simp [stdNode, Node.loc]
      · simp [e, Ne.symm e]
    case setNodalMass n mass =>
      obtain ⟨nd, h1, rfl⟩ := he
      simp only [blueprintOf, blueprint, sectionCall]
      congr 1
      funext m
      rw [Dict.get?_set]
      by_cases e : n = m
      · subst e; simp [h1, Node.loc]
      · simp [e]
    case addIsotropicMaterial n rho E mu al =>
      subst he
      simp only [blueprintOf, blueprint]
      congr 1
      funext m
      rw [Dict.get?_set]
      by_cases e : n = m
      · subst e; simp [givenMat]
      · simp [e, Ne.symm e]
    case addBeamSectionGeneral =>
      exact blueprint_sec (by rfl) (fun mat => by rfl) he
    case addBeamSectionRectangle =>
      exact blueprint_sec (by rfl) (fun mat => by rw [rect_build]; rfl) he
    case addBeamSectionPipe =>
      exact blueprint_sec (by rfl) (fun mat => by rw [rect_build]; rfl) he
    case addBeamSectionI =>
      exact blueprint_sec (by rfl) (fun mat => i_build ..) he
    case addBeamSectionBox =>
      exact blueprint_sec (by rfl) (fun mat => box_build ..) he
    case addBeamSectionCircle =>
      exact blueprint_sec (by rfl) (fun mat => circle_build ..) he
    case addBeam b i j s =>
      obtain ⟨n0, n1, sec, be, h0, h1, h2, h3, rfl⟩ := he
      rw [blueprint_beam hI h0 h1 h3]
      simp only [blueprint, blueprintOf, h2, Option.map_some]
      rfl
    case addSimpleBeam b i j E mu A I2 I3 J rho =>
      obtain ⟨n0, n1, be, h0, h1, h3, rfl⟩ := he
      rw [blueprint_beam hI h0 h1 h3]
      rfl
    case setNodalRestraint => subst he; split <;> rfl
    all_goals first
      | (exact he.elim)
      | (subst he; rfl)
      | (obtain ⟨_, _, rfl⟩ := he; rfl)
      | (obtain ⟨_, _, _, _, rfl⟩ := he; rfl)
      | (obtain ⟨_, _, _, _, _, _, rfl⟩ := he; rfl)
      | (obtain ⟨_, _, _, _, _, _, _, _, rfl⟩ := he; rfl)
  · intro a c e hI he
    cases c
    case addNode => rw [edit_addNode] at he; cases he
    case addIsotropicMaterial => simp [Api.edit, pure, Except.pure] at he
    case addBeamSectionGeneral n m A As2 As3 I22 I33 J W22 W33 =>
      have h := blueprint_sec_err (c := .addBeamSectionGeneral n m A As2 As3 I22 I33 J W22 W33) (fun mat => by rfl) he
      simp only [blueprint, sectionCall, h]
    case addBeamSectionRectangle n m _ _ =>
      have h := blueprint_sec_err (c := .addBeamSectionRectangle n m _ _) (fun mat => by rw [rect_build]; rfl) he
      simp only [blueprint, sectionCall, h]
    case addBeamSectionPipe n m _ _ =>
      have h := blueprint_sec_err (c := .addBeamSectionPipe n m _ _) (fun mat => by rw [rect_build]; rfl) he
      simp only [blueprint, sectionCall, h]
    case addBeamSectionI n m _ _ _ _ =>
      have h := blueprint_sec_err (c := .addBeamSectionI n m _ _ _ _) (fun mat => i_build ..) he
      simp only [blueprint, sectionCall, h]
    case addBeamSectionBox n m _ _ _ _ =>
      have h := blueprint_sec_err (c := .addBeamSectionBox n m _ _ _ _) (fun mat => box_build ..) he
      simp only [blueprint, sectionCall, h]
    case addBeamSectionCircle n m _ =>
      have h := blueprint_sec_err (c := .addBeamSectionCircle n m _) (fun mat => circle_build ..) he
      simp only [blueprint, sectionCall, h]
    case addBeam b i j s =>
      apply addBeam_none
      intro p q g h1 h2 h3 hacc
      simp only [blueprintOf, Option.map_eq_some_iff] at h1 h2 h3
      obtain ⟨n0, h1, rfl⟩ := h1
      obtain ⟨n1, h2, rfl⟩ := h2
      obtain ⟨sec, h3, rfl⟩ := h3
      obtain ⟨be, hbe⟩ := (beam_mk_iff b n0 n1 (.sec sec)).mpr hacc
      rw [(edit_ok_iff a (.addBeam b i j s) _).mpr ⟨n0, n1, sec, be, h1, h2, h3, hbe, rfl⟩] at he
      cases he
    case addSimpleBeam b i j E mu A I2 I3 J rho =>
      apply addBeam_none
      intro p q g h1 h2 h3 hacc
      simp only [blueprintOf, Option.map_eq_some_iff] at h1 h2
      obtain ⟨n0, h1, rfl⟩ := h1
      obtain ⟨n1, h2, rfl⟩ := h2
      obtain ⟨be, hbe⟩ := (beam_mk_iff b n0 n1 (.simple E mu A I2 I3 J rho)).mpr hacc
      rw [(edit_ok_iff a (.addSimpleBeam b i j E mu A I2 I3 J rho) _).mpr ⟨n0, n1, be, h1, h2, hbe, rfl⟩] at he
      cases he
    all_goals rfl

/-! ### mechanics -/

theorem V3.unit_smul_pos {k : ℝ} (hk : 0 < k) (a : V3) : (k • a).unit = a.unit := by
  have hn : (k • a).norm = k * a.norm := by
    unfold V3.norm
    simp only [V3.smul_def]
    rw [show k * a.x * (k * a.x) + k * a.y * (k * a.y) + k * a.z * (k * a.z) = k ^ 2 * (a.x * a.x + a.y * a.y + a.z * a.z) by ring,
      Real.sqrt_mul (sq_nonneg k), Real.sqrt_sq hk.le]
  unfold V3.unit
  rw [hn]
  simp only [V3.smul_def]
  ext <;> simp only <;> exact mul_div_mul_left _ _ hk.ne'

theorem beamFrame_eq {p q : V3} {c : Csys} (h : lineCsys p q = .ok c) : c = beamFrame p q := by
  have hpos := (lineCsys_ok h).2.1
  have hx := (lineCsys_ok h).2.2
  unfold lineCsys at h
  simp only at h
  have ex : |p.x - q.x| = |q.x - p.x| := abs_sub_comm _ _
  have ey : |p.y - q.y| = |q.y - p.y| := abs_sub_comm _ _
  simp only [V3.sub_def, ex, ey] at h
  have ho : ∀ (o up : V3), o + up - o = up := by intro o up; ext <;> simp
  have hd : q - ⟨(p.x + q.x) / 2, (p.y + q.y) / 2, (p.z + q.z) / 2⟩ = (1 / 2 : ℝ) • (q - p) := by
    ext <;> simp <;> ring
  have hcr : ∀ (k : ℝ) (a b : V3), (k • a).cross b = k • a.cross b := by
    intro k a b; ext <;> simp [V3.cross] <;> ring
  have hnorm : q - p = V3.norm (q - p) • (q - p).unit := by
    rw [V3.norm_smul_unit]
    intro h0
    have hl : lineLength p q = V3.norm (q - p) := by
      unfold lineLength V3.norm; simp only [V3.sub_def]; congr 1; ring
    rw [h0, (V3.norm_eq_zero_iff _).mpr rfl] at hl
    rw [hl] at hpos
    exact lt_irrefl _ hpos
  have hnpos : 0 < V3.norm (q - p) := by
    have hl : lineLength p q = V3.norm (q - p) := by
      unfold lineLength V3.norm; simp only [V3.sub_def]; congr 1; ring
    rw [← hl]; exact hpos
  have hmk : ∀ up : V3, ∀ c, Csys.mk? ⟨(p.x + q.x) / 2, (p.y + q.y) / 2, (p.z + q.z) / 2⟩ q
      (⟨(p.x + q.x) / 2, (p.y + q.y) / 2, (p.z + q.z) / 2⟩ + up) = .ok c →
      c = ⟨⟨(p.x + q.x) / 2, (p.y + q.y) / 2, (p.z + q.z) / 2⟩, (q - p).unit,
        (((q - p).unit.cross up).unit).cross (q - p).unit, ((q - p).unit.cross up).unit⟩ := by
    intro up c hc
    have hu : ((q - p).cross up).unit = ((q - p).unit.cross up).unit := by
      conv_lhs => rw [hnorm, hcr, V3.unit_smul_pos hnpos]
    unfold Csys.mk? at hc
    simp only at hc
    split at hc
    · cases hc
    · rw [ho, hd, hcr, V3.unit_smul_pos (by norm_num), V3.unit_smul_pos (by norm_num), hu] at hc
      exact (Except.ok.inj hc).symm
  unfold beamFrame
  split at h
  · rename_i hlt
    simp only [hlt, if_true]
    exact hmk _ _ h
  · rename_i hlt
    simp only [hlt, if_false]
    exact hmk _ _ h

theorem givenBeam_len (be : BeamElm) : (givenBeam be).len = be.length := by
  unfold GivenBeam.len BeamElm.length lineLength givenBeam V3.norm
  simp only [V3.sub_def]
  congr 1; ring

theorem givenBeam_ends {be : BeamElm} (hc : lineCsys be.startLoc be.endLoc = .ok be.csys) (u : State) :
    (givenBeam be).ends u = beamEnds be u := by
  unfold GivenBeam.ends beamEnds givenBeam
  rw [beamFrame_eq hc]

theorem fields_given (l : ℝ) (hl : 0 < l) (d : Vec 12) : Fields l d (lineField l (d 0) (d 6)) (cubicField l (d 1) (d 5) (d 7) (d 11))
    (cubicField l (d 2) (- d 4) (d 8) (- d 10)) (lineField l (d 3) (d 9)) := by
  have hl' := hl.ne'
  have hd : ∀ a s b t, deriv (cubicField l a s b t) = fun x => s + 2 * (3 * (b - a) / l ^ 2 - (2 * s + t) / l) * x +
      3 * ((s + t) / l ^ 2 - 2 * (b - a) / l ^ 3) * x ^ 2 := fun a s b t => deriv_cubic _ _ _ _
  constructor
  · exact ⟨_, _, fun x => rfl⟩
  · exact ⟨_, _, fun x => rfl⟩
  · exact ⟨_, _, _, _, fun x => rfl⟩
  · exact ⟨_, _, _, _, fun x => rfl⟩
  all_goals (simp only [hd, lineField, cubicField]; field_simp; ring)

theorem givenBeam_fields {be : BeamElm} (hl : 0 < be.length) (hc : lineCsys be.startLoc be.endLoc = .ok be.csys) (u : State) :
    Fields be.length (beamEnds be u) ((givenBeam be).axial u) ((givenBeam be).defl2 u) ((givenBeam be).defl3 u)
      ((givenBeam be).twist u) := by
  have := fields_given be.length hl (beamEnds be u)
  unfold GivenBeam.axial GivenBeam.defl2 GivenBeam.defl3 GivenBeam.twist
  rw [givenBeam_len, givenBeam_ends hc]
  exact this

/-- bilinear form of `C31_energy_integral` -/
theorem work_integral (c : BeamConsts) {l : ℝ} (hl : 0 < l) {d e : Vec 12} {u w2 w3 θ u' w2' w3' θ' : ℝ → ℝ}
    (h : Fields l d u w2 w3 θ) (h' : Fields l e u' w2' w3' θ') :
    beamWork c l e d = ∫ x in (0:ℝ)..l,
      (c.E * c.A * deriv u x * deriv u' x + c.E * c.I3 * deriv (deriv w2) x * deriv (deriv w2') x +
       c.E * c.I2 * deriv (deriv w3) x * deriv (deriv w3') x + c.G * c.J * deriv θ x * deriv θ' x) := by
  obtain ⟨u0, u1, a0, a1, a2, a3, b0, b1, b2, b3, t0, t1, rfl, rfl, rfl, rfl, h0, h6, h3, h9, h1, h5, h7, h11, h2, h4, h8,
    h10⟩ := Fields.coeffs h
  obtain ⟨u0', u1', a0', a1', a2', a3', b0', b1', b2', b3', t0', t1', rfl, rfl, rfl, rfl, k0, k6, k3, k9, k1, k5, k7, k11, k2, k4, k8,
    k10⟩ := Fields.coeffs h'
  simp only [deriv_cubic, deriv_quad, deriv_lin]
  have e : (fun x : ℝ => c.E * c.A * u1 * u1' + c.E * c.I3 * (2 * a2 + 6 * a3 * x) * (2 * a2' + 6 * a3' * x) +
       c.E * c.I2 * (2 * b2 + 6 * b3 * x) * (2 * b2' + 6 * b3' * x) + c.G * c.J * t1 * t1') =
      fun x => (c.E * c.A * u1 * u1' + c.E * c.I3 * 4 * a2 * a2' + c.E * c.I2 * 4 * b2 * b2' + c.G * c.J * t1 * t1') +
        (12 * (c.E * c.I3 * (a2 * a3' + a3 * a2') + c.E * c.I2 * (b2 * b3' + b3 * b2'))) * x +
        (36 * (c.E * c.I3 * a3 * a3' + c.E * c.I2 * b3 * b3')) * x ^ 2 + 0 * x ^ 3 := by
    funext x; ring
  rw [e, integral_cubic]
  unfold beamWork bendWork
  rw [h0, h1, h2, h3, h4, h5, h6, h7, h8, h9, h10, h11, k0, k1, k2, k3, k4, k5, k6, k7, k8, k9, k10, k11]
  have hl' := hl.ne'
  field_simp
  ring

theorem givenBeam_internal {be : BeamElm} (hl : 0 < be.length) (hc : lineCsys be.startLoc be.endLoc = .ok be.csys) (v u : State) :
    (givenBeam be).internal v u = beamInternal be v u := by
  unfold beamInternal
  rw [work_integral _ hl (givenBeam_fields hl hc u) (givenBeam_fields hl hc v)]
  unfold GivenBeam.internal
  rw [givenBeam_len]
  have hG : ∀ E mu : ℝ, E / (2 * (1 + mu)) = E / 2 / (1 + mu) := by intro E mu; rw [div_div]
  rw [hG]
  cases hp : be.prop <;> simp only [constsOf, givenBeam, givenProp, givenSec, givenMat, hp]

theorem distF_work {l : ℝ} (hl : 0 < l) (w : Vec 8) {d : Vec 12} {u w2 w3 θ : ℝ → ℝ} (h : Fields l d u w2 w3 θ) :
    distF ![w 0, w 2, w 4, w 6, 0, 0, w 1, w 3, w 5, w 7, 0, 0] l ⬝ᵥ d =
      ∫ x in (0:ℝ)..l, (lineLoad (w 0) (w 1) l x * u x + lineLoad (w 2) (w 3) l x * w2 x + lineLoad (w 4) (w 5) l x * w3 x +
        lineLoad (w 6) (w 7) l x * θ x) := by
  rw [← C33_work (LoadPattern.new "") "" rfl _ _ _ _ _ _ _ _ l hl d u w2 w3 θ h, distributed_getBeamF _ _ rfl]

theorem concF_work {l : ℝ} (hl : 0 < l) (w : Vec 7) {d : Vec 12} {u w2 w3 θ : ℝ → ℝ} (h : Fields l d u w2 w3 θ) :
    concF w l ⬝ᵥ d = w 0 * u (w 6 * l) + w 1 * w2 (w 6 * l) + w 2 * w3 (w 6 * l) + w 3 * θ (w 6 * l) +
      w 4 * (- deriv w3 (w 6 * l)) + w 5 * deriv w2 (w 6 * l) := by
  have e : w = ![w 0, w 1, w 2, w 3, w 4, w 5, w 6] := by
    funext i; fin_cases i <;> rfl
  rw [← C34_work (LoadPattern.new "") "" rfl _ _ _ _ _ _ _ l hl d u w2 w3 θ h, concentrated_getBeamF _ _ rfl, ← e]

theorem givenBeam_load {be : BeamElm} (hl : 0 < be.length) (hc : lineCsys be.startLoc be.endLoc = .ok be.csys) (r : PatReg) (b : String)
    (v : State) : r.beamF b be.length ⬝ᵥ beamEnds be v =
      ((r.dist b).elim 0 fun w => (givenBeam be).distWork w v) + ((r.conc b).elim 0 fun w => (givenBeam be).concWork w v) := by
  have hf := givenBeam_fields hl hc v
  unfold PatReg.beamF
  rw [add_dotProduct]
  congr 1
  · cases r.dist b with
    | none => simp
    | some w => simp only [Option.elim_some, distF_work hl w hf, GivenBeam.distWork, givenBeam_len]
  · cases r.conc b with
    | none => simp
    | some w => simp only [Option.elim_some, concF_work hl w hf, GivenBeam.concWork, givenBeam_len]

end Hyperstatic
