import Verif.Spec.Resultants
import Verif.Props.NamesDemo

/-
C133, for all kinds of loads: the forces and the moments of loads and supports add up to zero.
-/

namespace Hyperstatic
open Matrix Spec

theorem line_straight {l : ℝ} (hl : l ≠ 0) (a s x : ℝ) : lineField l a (a + l * s) x = a + s * x := by
  unfold lineField
  field_simp
  ring

theorem cubic_straight {l : ℝ} (hl : l ≠ 0) (a s x : ℝ) : cubicField l a s (a + l * s) s x = a + s * x := by
  unfold cubicField
  field_simp
  ring

/-- A beam displaced rigidly: its points move as the rigid motion says. -/
theorem rigid_fields {g : GivenBeam} {cs : Csys} (h : lineCsys g.p g.q = .ok cs) {loc : String → Option V3} (h1 : loc g.start = some g.p)
    (h2 : loc g.stop = some g.q) (t ω : V3) :
    (∀ x, g.axial (rigidState loc t ω) x = (beamFrame g.p g.q).x.dot (t + ω.cross (g.axis x))) ∧
    (∀ x, g.defl2 (rigidState loc t ω) x = (beamFrame g.p g.q).y.dot (t + ω.cross (g.axis x))) ∧
    (∀ x, g.defl3 (rigidState loc t ω) x = (beamFrame g.p g.q).z.dot (t + ω.cross (g.axis x))) ∧
    (∀ x, g.twist (rigidState loc t ω) x = (beamFrame g.p g.q).x.dot ω) ∧
    (∀ x, deriv (g.defl2 (rigidState loc t ω)) x = (beamFrame g.p g.q).z.dot ω) ∧
    (∀ x, deriv (g.defl3 (rigidState loc t ω)) x = - (beamFrame g.p g.q).y.dot ω) := by
  have hl := (len_pos h).ne'
  have hc := beamFrame_eq h
  obtain ⟨hr, _, hx⟩ := lineCsys_ok h
  rw [hc] at hr hx
  have hq : g.q = g.axis g.len := by
    have k1 := congrArg V3.x hx
    have k2 := congrArg V3.y hx
    have k3 := congrArg V3.z hx
    have hn : g.len = lineLength g.p g.q := by
      unfold GivenBeam.len lineLength V3.norm
      simp only [V3.sub_def]
      congr 1; ring
    unfold GivenBeam.axis
    rw [hn]
    simp only [V3.sub_def, V3.smul_def, V3.add_def] at k1 k2 k3 ⊢
    ext <;> simp only <;> linarith
  set e := beamFrame g.p g.q with he
  have hd : ∀ a : V3, ∀ x, a.dot (t + ω.cross (g.axis x)) = a.dot (t + ω.cross g.p) + V3.dot ω (e.x.cross a) * x := by
    intro a x
    unfold GivenBeam.axis
    rw [← he]
    simp only [V3.dot, V3.cross, V3.add_def, V3.smul_def]
    ring
  have hxx : V3.dot ω (V3.cross e.x e.x) = 0 := by simp only [V3.dot, V3.cross]; ring
  have hxy : V3.dot ω (V3.cross e.x e.y) = e.z.dot ω := by
    rw [hr.hand]; simp only [V3.dot]; ring
  have hxz : V3.dot ω (V3.cross e.x e.z) = - e.y.dot ω := by
    rw [← RightHanded.cross_zx hr]; simp only [V3.dot, V3.cross]; ring
  have ht : ∀ p : V3, Spec.trans ![p.x, p.y, p.z, ω.x, ω.y, ω.z] = p := fun p => rfl
  have hro : ∀ p : V3, Spec.rot ![p.x, p.y, p.z, ω.x, ω.y, ω.z] = ω := fun p => rfl
  have e1 : rigidState loc t ω g.start = ![(t + V3.cross ω g.p).x, (t + V3.cross ω g.p).y, (t + V3.cross ω g.p).z, ω.x, ω.y, ω.z] := by
    unfold rigidState; rw [h1]
  have e2 : rigidState loc t ω g.stop = ![(t + V3.cross ω g.q).x, (t + V3.cross ω g.q).y, (t + V3.cross ω g.q).z, ω.x, ω.y, ω.z] := by
    unfold rigidState; rw [h2]
  have hends : g.ends (rigidState loc t ω) = ![e.x.dot (t + V3.cross ω g.p), e.y.dot (t + V3.cross ω g.p), e.z.dot (t + V3.cross ω g.p),
      e.x.dot ω, e.y.dot ω, e.z.dot ω, e.x.dot (t + V3.cross ω g.q), e.y.dot (t + V3.cross ω g.q), e.z.dot (t + V3.cross ω g.q),
      e.x.dot ω, e.y.dot ω, e.z.dot ω] := by
    unfold GivenBeam.ends localEnds
    rw [e1, e2, ht, ht, hro, hro]
  rw [hq, hd e.x, hd e.y, hd e.z, hxx, hxy, hxz] at hends
  have d2 : ∀ x, g.defl2 (rigidState loc t ω) x = e.y.dot (t + V3.cross ω g.p) + e.z.dot ω * x := by
    intro x
    unfold GivenBeam.defl2
    rw [hends]
    simp only [cons_val]
    rw [mul_comm (e.z.dot ω) g.len, cubic_straight hl]
  have d3 : ∀ x, g.defl3 (rigidState loc t ω) x = e.z.dot (t + V3.cross ω g.p) + - e.y.dot ω * x := by
    intro x
    unfold GivenBeam.defl3
    rw [hends]
    simp only [cons_val]
    rw [mul_comm (- e.y.dot ω) g.len, cubic_straight hl]
  refine ⟨?_, ?_, ?_, ?_, ?_, ?_⟩
  · intro x
    rw [hd, hxx]
    unfold GivenBeam.axial
    rw [hends]
    simp only [cons_val]
    rw [show (0:ℝ) * g.len = g.len * 0 by ring, line_straight hl]
  · intro x; rw [hd, hxy, d2]
  · intro x; rw [hd, hxz, d3]
  · intro x
    unfold GivenBeam.twist
    rw [hends]
    simp only [cons_val]
    have := line_straight hl (e.x.dot ω) 0 x
    rw [mul_zero, add_zero, zero_mul, add_zero] at this
    exact this
  · intro x
    rw [show g.defl2 (rigidState loc t ω) = _ from funext d2]
    have : HasDerivAt (fun x => e.y.dot (t + V3.cross ω g.p) + e.z.dot ω * x) (e.z.dot ω) x :=
      (((hasDerivAt_id x).const_mul (e.z.dot ω)).const_add _).congr_deriv (by ring)
    exact this.deriv
  · intro x
    rw [show g.defl3 (rigidState loc t ω) = _ from funext d3]
    have : HasDerivAt (fun x => e.z.dot (t + V3.cross ω g.p) + - e.y.dot ω * x) (- e.y.dot ω) x :=
      (((hasDerivAt_id x).const_mul (- e.y.dot ω)).const_add _).congr_deriv (by ring)
    exact this.deriv

theorem dot_alongBeam (a : V3) (l : ℝ) (f : ℝ → V3) (h1 : Continuous fun x => (f x).x) (h2 : Continuous fun x => (f x).y)
    (h3 : Continuous fun x => (f x).z) : a.dot (alongBeam l f) = ∫ x in (0:ℝ)..l, a.dot (f x) := by
  unfold alongBeam V3.dot
  simp only
  have i1 : IntervalIntegrable (fun x => a.x * (f x).x) MeasureTheory.volume 0 l := (h1.const_mul a.x).intervalIntegrable 0 l
  have i2 : IntervalIntegrable (fun x => a.y * (f x).y) MeasureTheory.volume 0 l := (h2.const_mul a.y).intervalIntegrable 0 l
  have i3 : IntervalIntegrable (fun x => a.z * (f x).z) MeasureTheory.volume 0 l := (h3.const_mul a.z).intervalIntegrable 0 l
  rw [intervalIntegral.integral_add (i1.add i2) i3, intervalIntegral.integral_add i1 i2,
    intervalIntegral.integral_const_mul, intervalIntegral.integral_const_mul, intervalIntegral.integral_const_mul]

theorem lineLoad_cont (a b l : ℝ) : Continuous (lineLoad a b l) := by
  unfold lineLoad
  fun_prop

/-- Work of a distributed load in a rigid motion: its resultants on the motion. -/
theorem dist_rigid {g : GivenBeam} {cs : Csys} (h : lineCsys g.p g.q = .ok cs) {loc : String → Option V3} (h1 : loc g.start = some g.p)
    (h2 : loc g.stop = some g.q) (o t ω : V3) (w : Vec 8) :
    g.distWork w (rigidState loc (t - ω.cross o) ω) = t.dot (alongBeam g.len (g.lineForce w)) +
      ω.dot (alongBeam g.len fun x => (g.axis x - o).cross (g.lineForce w x) + g.lineCouple w x) := by
  obtain ⟨f1, f2, f3, f4, _, _⟩ := rigid_fields h h1 h2 (t - ω.cross o) ω
  have c := fun a b => lineLoad_cont a b g.len
  have c1 := c (w 0) (w 1)
  have c2 := c (w 2) (w 3)
  have c3 := c (w 4) (w 5)
  have c4 := c (w 6) (w 7)
  rw [dot_alongBeam, dot_alongBeam, ← intervalIntegral.integral_add]
  · unfold GivenBeam.distWork
    congr 1
    funext x
    rw [f1, f2, f3, f4]
    simp only [GivenBeam.lineForce, GivenBeam.lineCouple, GivenBeam.local, V3.dot, V3.cross, V3.add_def, V3.sub_def, V3.smul_def]
    ring
  all_goals
    simp only [GivenBeam.lineForce, GivenBeam.lineCouple, GivenBeam.local, GivenBeam.axis, V3.dot, V3.cross, V3.add_def, V3.sub_def, V3.smul_def]
    first
      | fun_prop
      | (apply Continuous.intervalIntegrable; fun_prop)

theorem conc_rigid {g : GivenBeam} {cs : Csys} (h : lineCsys g.p g.q = .ok cs) {loc : String → Option V3} (h1 : loc g.start = some g.p)
    (h2 : loc g.stop = some g.q) (o t ω : V3) (w : Vec 7) :
    g.concWork w (rigidState loc (t - ω.cross o) ω) = t.dot (g.local (w 0) (w 1) (w 2)) +
      ω.dot ((g.axis (w 6 * g.len) - o).cross (g.local (w 0) (w 1) (w 2)) + g.local (w 3) (w 4) (w 5)) := by
  obtain ⟨f1, f2, f3, f4, f5, f6⟩ := rigid_fields h h1 h2 (t - ω.cross o) ω
  unfold GivenBeam.concWork
  simp only
  rw [f1, f2, f3, f4, f5, f6]
  simp only [GivenBeam.local, V3.dot, V3.cross, V3.add_def, V3.sub_def, V3.smul_def]
  ring

theorem dot_list_sum (a : V3) (l : List V3) : a.dot l.sum = (l.map fun b => a.dot b).sum := by
  induction l with
  | nil => simp [V3.dot]
  | cons b l ih =>
    rw [List.sum_cons, List.map_cons, List.sum_cons, ← ih]
    simp only [V3.dot, V3.add_def]
    ring

theorem dot_add' (a b c : V3) : a.dot (b + c) = a.dot b + a.dot c := by
  simp only [V3.dot, V3.add_def]; ring
theorem dot_smul' (a : V3) (k : ℝ) (b : V3) : a.dot (k • b) = k * a.dot b := by
  simp only [V3.dot, V3.smul_def]; ring
theorem dot_zero' (a : V3) : a.dot 0 = 0 := by simp [V3.dot]

/-- Every beam of the structure with its ends where the nodes are. -/
def EndsLocated (s : Blueprint) : Prop :=
  ∀ b ∈ s.beams, ∀ g, s.beam b = some g → (∃ cs, lineCsys g.p g.q = .ok cs) ∧ s.loc g.start = some g.p ∧ s.loc g.stop = some g.q

theorem pattern_rigid {s : Blueprint} (hs : EndsLocated s) (nodes : List String) (hloc : ∀ n ∈ nodes, s.loc n = some (s.at n)) (r : PatReg)
    (o t ω : V3) : s.patternWork nodes r (rigidState s.loc (t - ω.cross o) ω) =
      t.dot (s.patternForce nodes r) + ω.dot (s.patternMoment nodes r o) := by
  unfold Blueprint.patternWork Blueprint.patternForce Blueprint.patternMoment
  rw [dot_add', dot_add', dot_list_sum, dot_list_sum, dot_list_sum, dot_list_sum, add_add_add_comm, List.map_map, List.map_map, List.map_map,
    List.map_map, ← List.sum_map_add, ← List.sum_map_add]
  congr 1
  · congr 1
    apply List.map_congr_left
    intro n hn
    unfold rigidState
    rw [hloc n hn]
    simp only [Function.comp, dotProduct, Fin.sum_univ_six, cons_val, V3.cross, V3.add_def, V3.sub_def, V3.dot, Spec.trans, Spec.rot]
    ring
  · congr 1
    apply List.map_congr_left
    intro b hb
    simp only [Function.comp]
    cases hg : s.beam b with
    | none => rw [Option.elim_none, Option.elim_none, Option.elim_none, dot_zero', dot_zero', add_zero]
    | some g =>
      obtain ⟨⟨cs, h⟩, h1, h2⟩ := hs b hb g hg
      rw [Option.elim_some, Option.elim_some, Option.elim_some, dot_add', dot_add', add_add_add_comm]
      congr 1
      · cases r.dist b with
        | none => rw [Option.elim_none, Option.elim_none, Option.elim_none, dot_zero', dot_zero', add_zero]
        | some w => rw [Option.elim_some, Option.elim_some, Option.elim_some, dist_rigid h h1 h2]
      · cases r.conc b with
        | none => rw [Option.elim_none, Option.elim_none, Option.elim_none, dot_zero', dot_zero', add_zero]
        | some w => rw [Option.elim_some, Option.elim_some, Option.elim_some, conc_rigid h h1 h2]

theorem case_rigid {s : Blueprint} (hs : EndsLocated s) (nodes : List String) (hloc : ∀ n ∈ nodes, s.loc n = some (s.at n)) (r : CaseReg)
    (g : String → Option ℝ) (names : List String) (o t ω : V3) : s.caseWork nodes r g names (rigidState s.loc (t - ω.cross o) ω) =
      t.dot (s.caseForce nodes r g names) + ω.dot (s.caseMoment nodes r g names o) := by
  unfold Blueprint.caseWork Blueprint.caseForce Blueprint.caseMoment
  rw [dot_list_sum, dot_list_sum, List.map_map, List.map_map, ← List.sum_map_add]
  congr 1
  apply List.map_congr_left
  intro p _
  simp only [Function.comp]
  rw [dot_smul', dot_smul', ← mul_add]
  congr 1
  cases r.pats p with
  | none => rw [Option.elim_none, Option.elim_none, Option.elim_none, dot_zero', dot_zero', add_zero]
  | some q => rw [Option.elim_some, Option.elim_some, Option.elim_some, pattern_rigid hs nodes hloc]

theorem ends_located {env : Env} {pre : List Call} (hpre : NoReadd env World.init pre) : EndsLocated (blueprint.run pre).cur := by
  have hfr := (FreshInv_run env pre hpre).1
  have hS := sane_run env pre
  have hb := blueprint_refined env pre
  intro b _ g hg
  refine ⟨hS.ok b g hg, ?_⟩
  rw [← hb] at hg
  simp only [blueprintOf, Option.map_eq_some_iff] at hg
  obtain ⟨be, hbe, rfl⟩ := hg
  obtain ⟨⟨n0, h0, e0⟩, ⟨n1, k0, e1⟩⟩ := hfr.beam_loc b be hbe
  rw [← hb]
  constructor
  · show ((_ : Dict _).get? be.startName).map _ = _
    rw [h0, Option.map_some, e0]; rfl
  · show ((_ : Dict _).get? be.endName).map _ = _
    rw [k0, Option.map_some, e1]; rfl

/-- All loads of a case and the forces of the supports: their forces add up to zero, and so do their moments about every point. -/
theorem C133_all_loads (env : Env) (pre : List Call) (hF : PlainFrame env pre) (c : String) (P : Problem) (hD : Poses pre c P) (u : State)
    (R : String → Vec 6) (hR : SupportForces P u R) (g : String → Option ℝ) (names : List String)
    (hc : (caseReg.run pre).cur.cases c = some g) (hl : Lists names g) (o : V3) :
    P.frame.caseForce P.nodes (caseReg.run pre).cur g names + forceSum P.nodes R = 0 ∧
    P.frame.caseMoment P.nodes (caseReg.run pre).cur g names o + momentSum P.frame P.nodes o R = 0 := by
  have hloc : ∀ n ∈ P.nodes, P.frame.loc n = some (P.frame.at n) := by
    intro n hn
    rw [hD.nodes] at hn
    rw [hD.frame]
    exact located (env := env) hn
  have hE : EndsLocated P.frame := by rw [hD.frame]; exact ends_located hF.readd
  obtain ⟨g', names', hc', hl', e⟩ := hD.load
  rw [hc] at hc'
  cases hc'
  have hw : ∀ v, P.load v = P.frame.caseWork P.nodes (caseReg.run pre).cur g names v := by
    intro v
    rw [e]
    unfold Blueprint.caseWork
    have hperm : names'.Perm names := (List.perm_ext_iff_of_nodup hl'.1 hl.1).mpr fun p => (hl'.2 p).trans (hl.2 p).symm
    exact (hperm.map _).sum_eq
  have key : ∀ t ω : V3, t.dot (P.frame.caseForce P.nodes (caseReg.run pre).cur g names + forceSum P.nodes R) +
      ω.dot (P.frame.caseMoment P.nodes (caseReg.run pre).cur g names o + momentSum P.frame P.nodes o R) = 0 := by
    intro t ω
    have := C133_balance env pre hF c P hD u R hR (fun _ => True) (fun _ _ _ => Iff.rfl) (t - ω.cross o) ω
    have e' : ∀ v, within (fun _ => True) v = v := fun v => funext fun n => if_pos trivial
    rw [e', hw, case_rigid hE P.nodes hloc, rigid_work_nodal P.frame P.nodes hloc] at this
    rw [dot_add', dot_add']
    linarith
  generalize P.frame.caseForce P.nodes (caseReg.run pre).cur g names + forceSum P.nodes R = f at key
  generalize P.frame.caseMoment P.nodes (caseReg.run pre).cur g names o + momentSum P.frame P.nodes o R = m at key
  have a1 := key ⟨1, 0, 0⟩ 0
  have a2 := key ⟨0, 1, 0⟩ 0
  have a3 := key ⟨0, 0, 1⟩ 0
  have b1 := key 0 ⟨1, 0, 0⟩
  have b2 := key 0 ⟨0, 1, 0⟩
  have b3 := key 0 ⟨0, 0, 1⟩
  simp [V3.dot] at a1 a2 a3 b1 b2 b3
  constructor <;> ext <;> simp [*]

/-! the portal under its line load: 18 upwards in all, 40 about the foot of the column -/

theorem bm_frame : (beamFrame ⟨0, 0, 3⟩ ⟨4, 0, 3⟩).x = ⟨1, 0, 0⟩ ∧ (beamFrame ⟨0, 0, 3⟩ ⟨4, 0, 3⟩).y = ⟨0, 0, 1⟩ ∧
    (beamFrame ⟨0, 0, 3⟩ ⟨4, 0, 3⟩).z = ⟨0, -1, 0⟩ := by
  have h1 : ((⟨4, 0, 3⟩ : V3) - ⟨0, 0, 3⟩).unit = ⟨1, 0, 0⟩ := by
    have : V3.norm ((⟨4, 0, 3⟩ : V3) - ⟨0, 0, 3⟩) = 4 := by
      unfold V3.norm
      simp only [V3.sub_def]
      rw [show ((4:ℝ) - 0) * (4 - 0) + (0 - 0) * (0 - 0) + (3 - 3) * (3 - 3) = 4 ^ 2 by norm_num]
      exact Real.sqrt_sq (by norm_num)
    unfold V3.unit
    rw [this]
    simp only [V3.sub_def, V3.smul_def]
    ext <;> norm_num
  have h2 : ((⟨1, 0, 0⟩ : V3).cross ⟨0, 0, 1⟩).unit = ⟨0, -1, 0⟩ := by
    have : V3.norm ((⟨1, 0, 0⟩ : V3).cross ⟨0, 0, 1⟩) = 1 := by
      unfold V3.norm V3.cross
      norm_num
    unfold V3.unit
    rw [this]
    simp only [V3.cross, V3.smul_def]
    ext <;> norm_num
  have h3 : ¬ max |(4:ℝ) - 0| |(0:ℝ) - 0| < absTol := by norm_num [absTol]
  unfold beamFrame
  simp only
  rw [if_neg h3, h1, h2]
  refine ⟨rfl, ?_, rfl⟩
  simp [V3.cross]

/-- the beam of the portal -/
noncomputable def bmBeam : GivenBeam := ⟨"B", "D", ⟨0, 0, 3⟩, ⟨4, 0, 3⟩, demoSec⟩

theorem bm_len : bmBeam.len = 4 := by
  unfold bmBeam GivenBeam.len V3.norm
  simp only [V3.sub_def]
  rw [show ((4:ℝ) - 0) * (4 - 0) + (0 - 0) * (0 - 0) + (3 - 3) * (3 - 3) = 4 ^ 2 by norm_num]
  exact Real.sqrt_sq (by norm_num)

theorem portal_line : (caseReg.run portalCalls).cur.pats "Q" =
    some ⟨fun _ => none, fun m => if m = "bm" then some ![0, 0, 1, 2, 0, 0, 0, 0] else none, fun _ => none⟩ := by
  simp [portalCalls, Machine.run, Machine.step, caseReg, CaseReg.upd, PatReg.empty]

theorem bm_force : alongBeam 4 (bmBeam.lineForce ![0, 0, 1, 2, 0, 0, 0, 0]) = ⟨0, 0, 6⟩ := by
  have e : bmBeam.lineForce ![0, 0, 1, 2, 0, 0, 0, 0] = fun x => ⟨0, 0, 1 + x / 4⟩ := by
    funext x
    unfold GivenBeam.lineForce GivenBeam.local
    rw [bm_len, show beamFrame bmBeam.p bmBeam.q = beamFrame ⟨0, 0, 3⟩ ⟨4, 0, 3⟩ from rfl, bm_frame.1, bm_frame.2.1, bm_frame.2.2]
    ext <;> simp [lineLoad, V3.add_def, V3.smul_def]
    ring
  rw [e]
  unfold alongBeam
  have i : ∫ x in (0:ℝ)..4, (1 + x / 4) = 6 := by
    rw [intervalIntegral.integral_add (by simp) (by apply Continuous.intervalIntegrable; fun_prop)]
    simp
    norm_num
  ext
  · simp
  · simp
  · exact i

theorem bm_moment : (alongBeam 4 fun x => (bmBeam.axis x - 0).cross (bmBeam.lineForce ![0, 0, 1, 2, 0, 0, 0, 0] x) +
    bmBeam.lineCouple ![0, 0, 1, 2, 0, 0, 0, 0] x) = ⟨0, -40 / 3, 0⟩ := by
  have e : (fun x => (bmBeam.axis x - 0).cross (bmBeam.lineForce ![0, 0, 1, 2, 0, 0, 0, 0] x) +
      bmBeam.lineCouple ![0, 0, 1, 2, 0, 0, 0, 0] x) = fun x => ⟨0, -(x + x ^ 2 / 4), 0⟩ := by
    funext x
    unfold GivenBeam.lineForce GivenBeam.lineCouple GivenBeam.local GivenBeam.axis
    rw [bm_len, show beamFrame bmBeam.p bmBeam.q = beamFrame ⟨0, 0, 3⟩ ⟨4, 0, 3⟩ from rfl, bm_frame.1, bm_frame.2.1, bm_frame.2.2]
    ext <;> simp [lineLoad, V3.add_def, V3.sub_def, V3.smul_def, V3.cross, bmBeam]
    ring
  rw [e]
  unfold alongBeam
  have i : ∫ x in (0:ℝ)..4, -(x + x ^ 2 / 4) = -40 / 3 := by
    rw [intervalIntegral.integral_neg, intervalIntegral.integral_add (by simp) (by apply Continuous.intervalIntegrable; fun_prop)]
    simp
    norm_num
  ext
  · simp
  · exact i
  · simp

theorem portalY_force : portalY.frame.caseForce portalY.nodes (caseReg.run portalCalls).cur (fun q => if q = "Q" then some 3 else none) ["Q"] =
    ⟨0, 0, 18⟩ := by
  unfold Blueprint.caseForce Blueprint.patternForce
  rw [List.map_cons, List.map_nil, portal_line, show portalY.nodes = _ from portal_nodes, show portalY.frame.beams = _ from portal_frame.1]
  have h1 : portalY.frame.beam "bm" = some bmBeam := by
    rw [show portalY.frame.beam "bm" = _ from portal_frame.2.1 "bm"]; simp [bmBeam]
  have h2 : portalY.frame.beam "col" = some ⟨"A", "B", ⟨0, 0, 0⟩, ⟨0, 0, 3⟩, demoSec⟩ := by
    rw [show portalY.frame.beam "col" = _ from portal_frame.2.1 "col"]; simp
  simp only [List.map_cons, List.map_nil, List.sum_cons, List.sum_nil, h1, h2, Option.elim_some, Option.elim_none, if_pos, bm_len, bm_force,
    show ("col" = "bm") = False by simp, if_false]
  ext <;> norm_num [show (0 : V3).x = 0 from rfl, show (0 : V3).y = 0 from rfl, show (0 : V3).z = 0 from rfl, V3.add_def, V3.smul_def, Spec.trans]

theorem portalY_moment : portalY.frame.caseMoment portalY.nodes (caseReg.run portalCalls).cur (fun q => if q = "Q" then some 3 else none) ["Q"] 0 =
    ⟨0, -40, 0⟩ := by
  unfold Blueprint.caseMoment Blueprint.patternMoment
  rw [List.map_cons, List.map_nil, portal_line, show portalY.nodes = _ from portal_nodes, show portalY.frame.beams = _ from portal_frame.1]
  have h1 : portalY.frame.beam "bm" = some bmBeam := by
    rw [show portalY.frame.beam "bm" = _ from portal_frame.2.1 "bm"]; simp [bmBeam]
  have h2 : portalY.frame.beam "col" = some ⟨"A", "B", ⟨0, 0, 0⟩, ⟨0, 0, 3⟩, demoSec⟩ := by
    rw [show portalY.frame.beam "col" = _ from portal_frame.2.1 "col"]; simp
  simp only [List.map_cons, List.map_nil, List.sum_cons, List.sum_nil, h1, h2, Option.elim_some, Option.elim_none, if_pos, bm_len, bm_moment,
    show ("col" = "bm") = False by simp, if_false]
  ext <;> norm_num [show (0 : V3).x = 0 from rfl, show (0 : V3).y = 0 from rfl, show (0 : V3).z = 0 from rfl, V3.add_def, V3.smul_def, V3.cross, Spec.trans, Spec.rot]

/-- the foot of the column holds the beam down and takes its moment -/
example : ∃ u R, Reports idealEnv portalCalls [] "Y" u ∧ SupportForces portalY u R ∧ R "A" = ![0, 0, -18, 0, 40, 0] := by
  obtain ⟨u, hu⟩ := portal_reports.2.1
  have hfix : portalY.fix = portalX.fix := portal_rest.2.trans portal_rest.1.symm
  obtain ⟨R, hR, _⟩ := C133_supports idealEnv idealEnv_sound _ _ (plainFrame_of_calls _ portal_plain.1) "Y" _ portalY_describes
    (C69_grounded_stable _ _ _ portalY_describes portal_positive (by rw [hfix]; exact portal_grounded)) u hu
  refine ⟨u, R, hu, hR, ?_⟩
  have hn : portalY.nodes = ["A", "B", "D"] := portal_nodes
  have hfree : ∀ n ∈ portalY.nodes, n ≠ "A" → R n = 0 := by
    intro n hmem hne
    funext r
    by_contra h
    obtain ⟨f, hf, _⟩ := hR.only n hmem r h
    rw [hfix, show portalX.fix = _ from portal_rest.1] at hf
    simp [hne] at hf
  have hB := hfree "B" (by rw [hn]; simp) (by decide)
  have hDD := hfree "D" (by rw [hn]; simp) (by decide)
  obtain ⟨h1, h2⟩ := C133_all_loads idealEnv _ (plainFrame_of_calls _ portal_plain.1) "Y" _ portalY_describes u R hR _ ["Q"] portal_case.2
    ⟨by simp, by intro p; by_cases h : p = "Q" <;> simp [h]⟩ 0
  rw [portalY_force] at h1
  rw [portalY_moment] at h2
  have a1 := congrArg V3.x h1
  have a2 := congrArg V3.y h1
  have a3 := congrArg V3.z h1
  have b1 := congrArg V3.x h2
  have b2 := congrArg V3.y h2
  have b3 := congrArg V3.z h2
  have lA : portalY.frame.at "A" = ⟨0, 0, 0⟩ := by
    unfold Blueprint.at
    rw [show portalY.frame.loc "A" = _ from portal_frame.2.2 "A"]; simp
  rw [hn] at a1 a2 a3 b1 b2 b3
  simp [forceSum, momentSum, hB, hDD, lA, V3.cross, Spec.trans, Spec.rot] at a1 a2 a3 b1 b2 b3
  funext i
  fin_cases i <;> simp <;> linarith

end Hyperstatic
