import Verif.Lemmas.GrasshopperScript
import Verif.Props.Tables
import Verif.Lemmas.Demo

/-
C111-C117: the script written for a drawing, and the structure it defines.
-/

namespace Hyperstatic
open Spec

theorem lengthScale_pos {u : String} {s : ℝ} (h : lengthScale u = .ok s) : 0 < s := by
  unfold lengthScale at h
  split_ifs at h <;> cases h <;> norm_num

theorem forceScale_pos {u : String} {s : ℝ} (h : forceScale u = .ok s) : 0 < s := by
  unfold forceScale at h
  split_ifs at h <;> cases h <;> norm_num

theorem lengthScale_iff {u : String} {s : ℝ} : lengthScale u = .ok s ↔ Metres u s := by
  unfold lengthScale Metres
  by_cases h1 : u = "Millimeters"
  · subst h1; simp [eq_comm]
  · by_cases h2 : u = "Meters"
    · subst h2; simp [eq_comm]
    · simp [h1, h2]

/-- kilonewtons are taken for thousandths of a newton -/
theorem forceScale_of {u : String} {f : ℝ} (h : Newtons u f) : forceScale u = .ok (1 / f) := by
  unfold forceScale
  simp only [Newtons, List.mem_cons, List.not_mem_nil, or_false] at h
  rcases h with ⟨h, rfl⟩ | ⟨h, rfl⟩
  · rw [if_pos h]; simp
  · rw [if_neg (by rcases h with rfl | rfl | rfl | rfl <;> simp), if_pos h]

theorem endNames_of (d : Drawing) (ht : 0 < d.tol) (hs : NoShortBeam d) (hn : BeamNamesDiffer d) (b : GhBeam) (hb : b ∈ d.beams) :
    ∃ i j ni nj, FirstNear d.tol b.start (mergeDrawing d).nodes i ∧ FirstNear d.tol b.stop (mergeDrawing d).nodes j ∧
      (mergeDrawing d).nodes[i]? = some ni ∧ (mergeDrawing d).nodes[j]? = some nj ∧ (mergeDrawing d).conn.get? b.name = some (i, j) ∧
      endNames (mergeDrawing d) b = (ni.name, nj.name) := by
  obtain ⟨i, j, h1, h2, h3⟩ := C110_ends_partial d ht hs hn b hb
  obtain ⟨ni, hi, _⟩ := h2.1
  obtain ⟨nj, hj, _⟩ := h3.1
  exact ⟨i, j, ni, nj, h2, h3, hi, hj, h1, by simp [endNames, h1, hi, hj]⟩

/-! ### C113 Six decimals -/

/-- Every number in the script is a multiple of 10⁻⁶ and differs from the intended one by at most half of that. -/
theorem C113_written (x : ℝ) : SixDecimals x (fmt6 x) := by
  refine ⟨⟨round (x * 10 ^ 6), rfl⟩, ?_⟩
  have h := abs_sub_round (x * 10 ^ 6)
  unfold fmt6
  rw [abs_le] at h ⊢
  constructor
  · have : -(1 / 2) ≤ (round (x * 10 ^ 6) : ℝ) - x * 10 ^ 6 := by linarith [h.2]
    rw [show (round (x * 10 ^ 6) : ℝ) / 10 ^ 6 - x = ((round (x * 10 ^ 6) : ℝ) - x * 10 ^ 6) / 10 ^ 6 by field_simp, le_div_iff₀ (by norm_num)]
    linarith
  · have : (round (x * 10 ^ 6) : ℝ) - x * 10 ^ 6 ≤ 1 / 2 := by linarith [h.1]
    rw [show (round (x * 10 ^ 6) : ℝ) / 10 ^ 6 - x = ((round (x * 10 ^ 6) : ℝ) - x * 10 ^ 6) / 10 ^ 6 by field_simp, div_le_iff₀ (by norm_num)]
    linarith

theorem fmt6_int (k : ℤ) : fmt6 k = k := by
  unfold fmt6
  rw [show (k : ℝ) * 10 ^ 6 = ((k * 10 ^ 6 : ℤ) : ℝ) by norm_num, round_intCast]
  push_cast
  field_simp
  norm_num

/-- A positive second moment of area in the drawing is a positive second moment in the script. -/
def C113_claim : Prop := ∀ (d : Drawing) (lines : List ScriptLine), GeneralSections d → generate d = .ok lines → ∀ b ∈ d.beams, ∀ x,
  b.sec.attr "I2" = some x → 0 < x → ∀ n m A As2 As3 I22 I33 J W22 W33,
    ScriptLine.call (.addBeamSectionGeneral n m A As2 As3 I22 I33 J W22 W33) ∈ lines → n = b.sec.name → 0 < I22

theorem general_line_mem {d : Drawing} {lines : List ScriptLine} (hg : GeneralSections d) (h : generate d = .ok lines)
    {n m : String} {A As2 As3 I22 I33 J W22 W33 : ℝ} (hm : ScriptLine.call (.addBeamSectionGeneral n m A As2 As3 I22 I33 J W22 W33) ∈ lines) :
    ∃ scale, lengthScale d.lengthUnit = .ok scale ∧ ∃ b ∈ d.beams, n = b.sec.name ∧ I22 = fmt6 ((b.sec.attr "I2").getD 0 * scale ^ 4) := by
  obtain ⟨scale, fscale, h1, h2, rfl, _⟩ := generateWith_general hg h
  obtain ⟨c, hc, e⟩ := List.mem_map.mp hm
  simp only [ScriptLine.call.injEq] at e
  subst e
  simp only [scriptCalls, tailCalls, matCall, nodeCall, beamCall, loadCall, restCall, List.mem_append, List.mem_map, reduceCtorEq, and_false, exists_false, false_or, or_false,
    List.mem_cons, List.not_mem_nil, genCall, Call.addBeamSectionGeneral.injEq] at hc
  obtain ⟨s, hs, rfl, _, _, _, _, rfl, _⟩ := hc
  obtain ⟨b, hb, rfl⟩ := ghSections_sub hs
  exact ⟨scale, h1, b, hb, rfl, rfl⟩

/-- with the factor of the code -/
theorem positive_coded (d : Drawing) (lines : List ScriptLine) (hg : GeneralSections d) (h : generate d = .ok lines)
    (ho : ObjectsSound d) (scale : ℝ) (hsc : lengthScale d.lengthUnit = .ok scale) (b : GhBeam) (hb : b ∈ d.beams) (x : ℝ)
    (hx : b.sec.attr "I2" = some x) (hpos : 1 / (2 * 10 ^ 6) < x * scale ^ 4) (n m : String) (A As2 As3 I22 I33 J W22 W33 : ℝ)
    (hm : ScriptLine.call (.addBeamSectionGeneral n m A As2 As3 I22 I33 J W22 W33) ∈ lines) (hn : n = b.sec.name) : 0 < I22 := by
  obtain ⟨scale', h1, c, hc, rfl, rfl⟩ := general_line_mem hg h hm
  rw [hsc] at h1
  injection h1 with h1
  rw [ho.secName c hc b hb hn, hx, ← h1]
  have := (C113_written ((some x).getD 0 * scale ^ 4)).2
  rw [abs_le] at this
  simp only [Option.getD_some] at this ⊢
  linarith [this.1]

/-- Proved when the value in metres is more than half of 10⁻⁶ (and sections have different names).  (Missing: smaller sections, for which it is false.) -/
theorem C113_positive_partial (d : Drawing) (lines : List ScriptLine) (hg : GeneralSections d) (h : generate d = .ok lines)
    (ho : ObjectsSound d) (scale : ℝ) (hsc : Metres d.lengthUnit scale) (b : GhBeam) (hb : b ∈ d.beams) (x : ℝ)
    (hx : b.sec.attr "I2" = some x) (hpos : 1 / (2 * 10 ^ 6) < x * scale ^ 4) (n m : String) (A As2 As3 I22 I33 J W22 W33 : ℝ)
    (hm : ScriptLine.call (.addBeamSectionGeneral n m A As2 As3 I22 I33 J W22 W33) ∈ lines) (hn : n = b.sec.name) : 0 < I22 :=
  positive_coded d lines hg h ho scale (lengthScale_iff.mpr hsc) b hb x hx hpos n m A As2 As3 I22 I33 J W22 W33 hm hn

/-! ### C111 The structure of the script -/

/-- with the factors of the code -/
theorem generates_coded (d : Drawing) (ht : 0 < d.tol) (hs : NoShortBeam d) (hn : BeamNamesDiffer d) (hg : GeneralSections d) (hc : Complete d)
    (scale fscale : ℝ) (h1 : lengthScale d.lengthUnit = .ok scale) (h2 : forceScale d.forceUnit = .ok fscale) : ∃ lines, generate d = .ok lines := by
  refine ⟨_, generateWith_ok.mpr ⟨scale, fscale, (ghMaterials d).map fun m => .call (matCall fmt6 scale fscale m),
    (ghSections d).map fun s => .call (genCall fmt6 scale s), d.beams.map fun b => .call (beamCall (mergeDrawing d) b), h1, h2, ?_, ?_, ?_, rfl⟩⟩
  · apply mapM_ok_of_forall
    intro m hm
    obtain ⟨b, hb, rfl⟩ := ghMaterials_sub hm
    obtain ⟨a, ha⟩ := Option.ne_none_iff_exists'.mp (hc b hb).1
    simp [materialLine, ha, matCall]
  · apply mapM_ok_of_forall
    intro s hs
    obtain ⟨b, hb, rfl⟩ := ghSections_sub hs
    have h := (hc b hb).2
    obtain ⟨a1, h1⟩ := Option.ne_none_iff_exists'.mp (h "A" (by simp))
    obtain ⟨a2, h2⟩ := Option.ne_none_iff_exists'.mp (h "As2" (by simp))
    obtain ⟨a3, h3⟩ := Option.ne_none_iff_exists'.mp (h "As3" (by simp))
    obtain ⟨a4, h4⟩ := Option.ne_none_iff_exists'.mp (h "I2" (by simp))
    obtain ⟨a5, h5⟩ := Option.ne_none_iff_exists'.mp (h "I3" (by simp))
    obtain ⟨a6, h6⟩ := Option.ne_none_iff_exists'.mp (h "J" (by simp))
    unfold sectionLine
    rw [if_pos (hg b hb)]
    simp only [Except.bind_ok_iff, Except.pure_eq_ok, Except.ok.injEq, GhSection.get_ok]
    exact ⟨a1, h1, a2, h2, a3, h3, a4, h4, a5, h5, a6, h6, by simp [genCall, h1, h2, h3, h4, h5, h6]⟩
  · apply mapM_ok_of_forall
    intro b hb
    obtain ⟨i, j, ni, nj, _, _, hi, hj, hcn, he⟩ := endNames_of d ht hs hn b hb
    unfold beamLine
    simp only [Except.bind_ok_iff]
    refine ⟨(i, j), by simp [Dict.getItem, hcn], ?_⟩
    simp only [hi, hj]
    rw [beamCall, he]
    rfl

/-- The script is written whenever units are known, sections are general and complete, beams long enough and differently named. -/
theorem C111_generates (d : Drawing) (ht : 0 < d.tol) (hs : NoShortBeam d) (hn : BeamNamesDiffer d) (hg : GeneralSections d) (hc : Complete d)
    (scale fscale : ℝ) (h1 : Metres d.lengthUnit scale) (h2 : Newtons d.forceUnit fscale) : ∃ lines, generate d = .ok lines :=
  generates_coded d ht hs hn hg hc scale (1 / fscale) (lengthScale_iff.mpr h1) (forceScale_of h2)

/-- The structure defined by the script has the beams that were drawn. -/
def C111_claim : Prop := ∀ (env : Env) (d : Drawing) (lines : List ScriptLine) (scale : ℝ), 0 < d.tol → NoShortBeam d → BeamNamesDiffer d →
  GeneralSections d → ObjectsSound d → Metres d.lengthUnit scale → EndsStayApart scale d (mergeDrawing d).nodes → generate d = .ok lines →
  (runScript env lines).getBeamNames = d.beams.map (·.name)

/-- the structure with the factors of the code -/
theorem structure_coded (env : Env) (d : Drawing) (lines : List ScriptLine) (scale fscale : ℝ) (ht : 0 < d.tol) (hs : NoShortBeam d)
    (hn : BeamNamesDiffer d) (hg : GeneralSections d) (ho : ObjectsSound d) (hp : PointNamesSound d) (h1 : lengthScale d.lengthUnit = .ok scale)
    (h2 : forceScale d.forceUnit = .ok fscale) (he : EndsStayApart scale d (mergeDrawing d).nodes) (h : generate d = .ok lines) :
    (runScript env lines).getNodeNames = (mergeDrawing d).nodes.map (·.name) ∧
    (∀ n ∈ (mergeDrawing d).nodes, (runScript env lines).getNodeLocation n.name = some (writtenPoint scale n.point)) ∧
    (runScript env lines).getBeamNames = d.beams.map (·.name) ∧
    ∀ b ∈ d.beams, ∃ i j ni nj, FirstNear d.tol b.start (mergeDrawing d).nodes i ∧ FirstNear d.tol b.stop (mergeDrawing d).nodes j ∧
      (mergeDrawing d).nodes[i]? = some ni ∧ (mergeDrawing d).nodes[j]? = some nj ∧
      (runScript env lines).getBeamNodeNames b.name = some (ni.name, nj.name) ∧
      (runScript env lines).getBeamLocation b.name = some (writtenPoint scale ni.point, writtenPoint scale nj.point) ∧
      ∃ A I2 I3 J, b.sec.attr "A" = some A ∧ b.sec.attr "I2" = some I2 ∧ b.sec.attr "I3" = some I3 ∧ b.sec.attr "J" = some J ∧
        ∃ be, (runScript env lines).api.model.beams.get? b.name = some be ∧ constsOf be.prop =
          ⟨fmt6 (b.sec.material.E * fscale / scale ^ 2), fmt6 (b.sec.material.E * fscale / scale ^ 2) / (2 * (1 + fmt6 b.sec.material.mu)),
            fmt6 (A * scale ^ 2), fmt6 (I2 * scale ^ 4), fmt6 (I3 * scale ^ 4), fmt6 (J * scale ^ 4), fmt6 (b.sec.material.rho / scale ^ 3)⟩ := by
  obtain ⟨scale', fscale', h1', h2', rfl, hattr⟩ := generateWith_general hg h
  rw [h1] at h1'
  rw [h2] at h2'
  injection h1' with h1'
  injection h2' with h2'
  subst h1' h2'
  have hN := mergeDrawing_names d ht hp
  unfold runScript
  rw [runLines_calls]
  obtain ⟨r1, r2, _⟩ := C02_node_registry env (scriptCalls fmt6 scale fscale d)
  obtain ⟨n1, n2⟩ := nodeReg_script fmt6 scale fscale d hN
  obtain ⟨c1, c2, c3, _, _, c6⟩ := C61_blueprint env (scriptCalls fmt6 scale fscale d) _ rfl _ rfl
  obtain ⟨b1, b2⟩ := blueprint_script fmt6 scale fscale d hN hn ho (writtenPoint scale) (fun _ => rfl) (by
    intro b hb
    obtain ⟨i, j, ni, nj, f1, f2, hi, hj, _, hen⟩ := endNames_of d ht hs hn b hb
    exact ⟨ni, List.mem_of_getElem? hi, nj, List.mem_of_getElem? hj, hen, he b hb i j ni nj f1 f2 hi hj⟩)
  refine ⟨r1.trans n1, fun n hn => (r2 _).trans (n2 n hn), c1.trans b1, ?_⟩
  intro b hb
  obtain ⟨i, j, ni, nj, f1, f2, hi, hj, _, hen⟩ := endNames_of d ht hs hn b hb
  obtain ⟨mi, hmi, mj, hmj, hen', hbeam⟩ := b2 b hb
  rw [hen, Prod.mk.injEq] at hen'
  have ei := inj_of_nodup_map hN ni (List.mem_of_getElem? hi) mi hmi hen'.1
  have ej := inj_of_nodup_map hN nj (List.mem_of_getElem? hj) mj hmj hen'.2
  subst ei ej
  have hat := hattr b.sec (mem_ghSections ho hb)
  obtain ⟨A, hA⟩ := Option.ne_none_iff_exists'.mp (hat "A" (by simp))
  obtain ⟨I2, hI2⟩ := Option.ne_none_iff_exists'.mp (hat "I2" (by simp))
  obtain ⟨I3, hI3⟩ := Option.ne_none_iff_exists'.mp (hat "I3" (by simp))
  obtain ⟨J, hJ⟩ := Option.ne_none_iff_exists'.mp (hat "J" (by simp))
  refine ⟨i, j, ni, nj, f1, f2, hi, hj, by rw [c2, hbeam]; rfl, by rw [c3, hbeam]; rfl, A, I2, I3, J, hA, hI2, hI3, hJ, ?_⟩
  have hmem : b.name ∈ (World.init.run env (scriptCalls fmt6 scale fscale d)).api.model.beams.keys := by
    show b.name ∈ (World.init.run env (scriptCalls fmt6 scale fscale d)).getBeamNames
    rw [c1, b1]
    exact List.mem_map_of_mem hb
  obtain ⟨be, hbe⟩ := Option.isSome_iff_exists.mp ((Dict.get?_isSome_iff _ _).mpr hmem)
  obtain ⟨g, hg', hc, _⟩ := c6 b.name be hbe
  rw [hbeam] at hg'
  injection hg' with hg'
  subst hg'
  refine ⟨be, hbe, ?_⟩
  rw [hc]
  simp [writtenSec, hA, hI2, hI3, hJ]

/-- Proved when the names of wrapped points mean one point each and do not look like generated ones: the structure has the merged nodes at
their points in metres, the drawn beams, each between the nodes nearest to its ends, and with the drawn material and section constants in
newtons and metres, all numbers rounded to six decimals.  (Missing: clashing names of points, for which it is false; kilonewtons, for which the
modulus of elasticity is wrong, C112_force_false.) -/
theorem C111_structure_partial (env : Env) (d : Drawing) (lines : List ScriptLine) (scale fscale : ℝ) (ht : 0 < d.tol) (hs : NoShortBeam d)
    (hn : BeamNamesDiffer d) (hg : GeneralSections d) (ho : ObjectsSound d) (hp : PointNamesSound d) (h1 : Metres d.lengthUnit scale)
    (h2 : Newtons d.forceUnit fscale) (hf : fscale = 1) (he : EndsStayApart scale d (mergeDrawing d).nodes) (h : generate d = .ok lines) :
    (runScript env lines).getNodeNames = (mergeDrawing d).nodes.map (·.name) ∧
    (∀ n ∈ (mergeDrawing d).nodes, (runScript env lines).getNodeLocation n.name = some (writtenPoint scale n.point)) ∧
    (runScript env lines).getBeamNames = d.beams.map (·.name) ∧
    ∀ b ∈ d.beams, ∃ i j ni nj, FirstNear d.tol b.start (mergeDrawing d).nodes i ∧ FirstNear d.tol b.stop (mergeDrawing d).nodes j ∧
      (mergeDrawing d).nodes[i]? = some ni ∧ (mergeDrawing d).nodes[j]? = some nj ∧
      (runScript env lines).getBeamNodeNames b.name = some (ni.name, nj.name) ∧
      (runScript env lines).getBeamLocation b.name = some (writtenPoint scale ni.point, writtenPoint scale nj.point) ∧
      ∃ A I2 I3 J, b.sec.attr "A" = some A ∧ b.sec.attr "I2" = some I2 ∧ b.sec.attr "I3" = some I3 ∧ b.sec.attr "J" = some J ∧
        ∃ be, (runScript env lines).api.model.beams.get? b.name = some be ∧ constsOf be.prop =
          ⟨fmt6 (b.sec.material.E * fscale / scale ^ 2), fmt6 (b.sec.material.E * fscale / scale ^ 2) / (2 * (1 + fmt6 b.sec.material.mu)),
            fmt6 (A * scale ^ 2), fmt6 (I2 * scale ^ 4), fmt6 (I3 * scale ^ 4), fmt6 (J * scale ^ 4), fmt6 (b.sec.material.rho / scale ^ 3)⟩ :=
  structure_coded env d lines scale fscale ht hs hn hg ho hp (lengthScale_iff.mpr h1) (by rw [forceScale_of h2, hf]; norm_num) he h

/-- a support wrapped by one component and a load point by another: both points are called "1" -/
noncomputable def ghClash : Drawing where
  lengthUnit := "Meters"
  forceUnit := "N"
  tol := 1
  loads := (nodeComponent [⟨4, 0, 0⟩]).map fun n => ⟨n, 0⟩
  restraints := restraintComponent (nodeComponent [⟨0, 0, 0⟩]) fun _ => true
  beams := beamComponent [(⟨0, 0, 0⟩, ⟨4, 0, 0⟩)] ghSec

theorem ghClash_merge : (mergeDrawing ghClash).nodes = [⟨"1", ⟨0, 0, 0⟩⟩, ⟨"1", ⟨4, 0, 0⟩⟩] ∧ (mergeDrawing ghClash).conn = [("0", (0, 1))] := by
  have f1 : findPt ⟨4, 0, 0⟩ [⟨"1", ⟨0, 0, 0⟩⟩] 1 = none := by
    rw [findPt_none]
    intro n hn
    rw [List.mem_singleton] at hn
    rw [hn, norm_along]
    norm_num
  have f2 : findPt ⟨0, 0, 0⟩ [⟨"1", ⟨0, 0, 0⟩⟩, ⟨"1", ⟨4, 0, 0⟩⟩] 1 = some 0 := by
    rw [findPt_some]
    refine ⟨⟨_, rfl, ?_⟩, by simp⟩
    rw [norm_along]
    norm_num
  have f3 : findPt ⟨4, 0, 0⟩ [⟨"1", ⟨0, 0, 0⟩⟩, ⟨"1", ⟨4, 0, 0⟩⟩] 1 = some 1 := by
    rw [findPt_some]
    refine ⟨⟨_, rfl, ?_⟩, ?_⟩
    · rw [norm_along]
      norm_num
    · intro k hk n hn
      interval_cases k
      injection hn with hn
      rw [← hn, norm_along]
      norm_num
  have hp : placeSpecial 1 [] [⟨"1", ⟨0, 0, 0⟩⟩, ⟨"1", ⟨4, 0, 0⟩⟩] = ([⟨"1", ⟨0, 0, 0⟩⟩, ⟨"1", ⟨4, 0, 0⟩⟩], [⟨"1", ⟨0, 0, 0⟩⟩, ⟨"1", ⟨4, 0, 0⟩⟩]) := by
    have f0 : findPt ⟨0, 0, 0⟩ [] 1 = none := rfl
    simp only [placeSpecial, f0, List.nil_append, f1, List.cons_append]
  have hb : placeBeam 1 ([⟨"1", ⟨0, 0, 0⟩⟩, ⟨"1", ⟨4, 0, 0⟩⟩], []) ⟨"0", ⟨0, 0, 0⟩, ⟨4, 0, 0⟩, ghSec⟩ =
      ([⟨"1", ⟨0, 0, 0⟩⟩, ⟨"1", ⟨4, 0, 0⟩⟩], [("0", (0, 1))]) := by
    simp only [placeBeam, f2, f3, endNode]
    rfl
  have e : ((mergeDrawing ghClash).nodes, (mergeDrawing ghClash).conn) =
      placeBeam 1 ((placeSpecial 1 [] [⟨"1", ⟨0, 0, 0⟩⟩, ⟨"1", ⟨4, 0, 0⟩⟩]).1, []) ⟨"0", ⟨0, 0, 0⟩, ⟨4, 0, 0⟩, ghSec⟩ := rfl
  rw [hp] at e
  rw [hb, Prod.mk.injEq] at e
  exact e

theorem not_acceptable_self (p : V3) : ¬ Acceptable p p := by
  have : 0 < absTol := by norm_num [absTol]
  rintro (⟨_, h⟩ | h) <;> simp at h <;> linarith

theorem ghSec_complete (d : Drawing) (h : ∀ b ∈ d.beams, b.sec = ghSec) : Complete d ∧ GeneralSections d ∧ ObjectsSound d := by
  refine ⟨?_, ?_, ⟨?_, ?_, ?_, ?_⟩⟩
  · intro b hb
    rw [h b hb]
    exact ⟨by simp [ghSec, generalSectionComponent, ghSteel], by simp [ghSec, generalSectionComponent]⟩
  · intro b hb
    rw [h b hb]
    rfl
  all_goals
    intro b hb c hc _
    rw [h b hb, h c hc]

theorem writtenPoint_int (x : ℤ) : writtenPoint 1 ⟨x, 0, 0⟩ = ⟨x, 0, 0⟩ := by
  have h0 : fmt6 0 = 0 := by simpa using fmt6_int 0
  simp [writtenPoint, h0, fmt6_int]

/-- The beam of that drawing is missing. -/
theorem C111_false : ¬ C111_claim := by
  intro h
  obtain ⟨m1, m2⟩ := ghClash_merge
  have hsec : ∀ b ∈ ghClash.beams, b.sec = ghSec := by
    intro b hb
    simp only [ghClash, beamComponent, List.zipIdx_cons, List.zipIdx_nil, List.map_cons, List.map_nil, List.mem_singleton] at hb
    rw [hb]
  obtain ⟨hc, hg, ho⟩ := ghSec_complete ghClash hsec
  have ht : 0 < ghClash.tol := by norm_num [ghClash]
  have hs : NoShortBeam ghClash := by
    intro b hb
    simp only [ghClash, beamComponent, List.zipIdx_cons, List.zipIdx_nil, List.map_cons, List.map_nil, List.mem_singleton] at hb ⊢
    rw [hb, norm_along]
    norm_num
  have hn : BeamNamesDiffer ghClash := by
    show ["0"].Nodup
    simp
  have h1 : lengthScale ghClash.lengthUnit = .ok 1 := by simp [ghClash, lengthScale]
  have h2 : forceScale ghClash.forceUnit = .ok 1 := by simp [ghClash, forceScale]
  obtain ⟨lines, hl⟩ := generates_coded ghClash ht hs hn hg hc 1 1 h1 h2
  have he : EndsStayApart 1 ghClash (mergeDrawing ghClash).nodes := by
    intro b hb i j ni nj f1 f2 hi hj
    simp only [ghClash, beamComponent, List.zipIdx_cons, List.zipIdx_nil, List.map_cons, List.map_nil, List.mem_singleton] at hb
    subst hb
    obtain ⟨⟨ni', hi', d1⟩, _⟩ := f1
    obtain ⟨⟨nj', hj', d2⟩, _⟩ := f2
    change V3.norm ((⟨0, 0, 0⟩ : V3) - ni'.point) < 1 at d1
    change V3.norm ((⟨4, 0, 0⟩ : V3) - nj'.point) < 1 at d2
    rw [hi] at hi'
    rw [hj] at hj'
    injection hi' with hi'
    injection hj' with hj'
    subst hi' hj'
    have k1 := List.mem_of_getElem? hi
    have k2 := List.mem_of_getElem? hj
    rw [m1] at k1 k2
    have e1 : ni.point = ⟨0, 0, 0⟩ := by
      simp only [List.mem_cons, List.not_mem_nil, or_false] at k1
      rcases k1 with rfl | rfl
      · rfl
      · rw [norm_along] at d1
        norm_num at d1
    have e2 : nj.point = ⟨4, 0, 0⟩ := by
      simp only [List.mem_cons, List.not_mem_nil, or_false] at k2
      rcases k2 with rfl | rfl
      · rw [norm_along] at d2
        norm_num at d2
      · rfl
    rw [e1, e2]
    have w0 := writtenPoint_int 0
    have w4 := writtenPoint_int 4
    push_cast at w0 w4
    rw [w0, w4]
    right
    norm_num [absTol]
  have := h idealEnv ghClash lines 1 ht hs hn hg ho (lengthScale_iff.mp h1) he hl
  obtain ⟨scale', fscale', _, _, rfl, _⟩ := generateWith_general hg hl
  unfold runScript at this
  rw [runLines_calls, (C61_blueprint _ _ _ rfl _ rfl).1, run_cur_unloaded _ _ (scriptCalls_noload _ _ _ _) (fun _ _ => rfl), scriptCalls] at this
  have hempty : ∀ cs : List Call, (∀ c ∈ cs, ∀ s : Blueprint, s.beams = [] → (blueprint.edit s c).beams = []) →
      (cs.foldl blueprint.edit blueprint.init).beams = [] :=
    fun cs hcs => foldl_inv blueprint.edit cs (fun s => s.beams = []) hcs _ rfl
  rw [hempty] at this
  · cases this
  intro c hc s hs
  simp only [List.mem_append, List.mem_map] at hc
  rcases hc with (((⟨x, _, rfl⟩ | ⟨x, _, rfl⟩) | ⟨x, _, rfl⟩) | ⟨x, hx, rfl⟩) | hc
  · exact hs
  · simp only [genCall, blueprint, sectionCall]
    cases (s.mat x.material.name).bind fun mat => shapeConsts mat _ <;> exact hs
  · exact hs
  · have hen : endNames (mergeDrawing ghClash) x = ("1", "1") := by
      simp only [ghClash, beamComponent, List.zipIdx_cons, List.zipIdx_nil, List.map_cons, List.map_nil, List.mem_singleton] at hx
      subst hx
      unfold endNames
      rw [m1, m2]
      rfl
    show (s.addBeam x.name (endNames (mergeDrawing ghClash) x).1 (endNames (mergeDrawing ghClash) x).2 (s.sec x.sec.name)).beams = []
    rw [hen]
    unfold Blueprint.addBeam
    cases s.loc "1" with
    | none => exact hs
    | some p =>
      cases s.sec x.sec.name with
      | none => exact hs
      | some g =>
        simp only
        rw [if_neg (not_acceptable_self p)]
        exact hs
  · exact tail_forall (P := fun c => (blueprint.edit s c).beams = []) (fun _ => hs) (fun _ => hs) (fun _ _ _ => hs) (fun _ _ _ => hs) (fun _ _ => hs) hs (fun _ => hs) c hc

theorem ghDemo_sound : Complete ghDemo ∧ GeneralSections ghDemo ∧ ObjectsSound ghDemo := by
  apply ghSec_complete
  intro b hb
  simp only [ghDemo, beamComponent, List.zipIdx_cons, List.zipIdx_nil, List.map_cons, List.map_nil, List.mem_cons, List.not_mem_nil, or_false] at hb
  rcases hb with rfl | rfl <;> rfl

theorem ghDemo_points : PointNamesSound ghDemo := by
  have hm : ghDemo.restraints.map (·.node) ++ ghDemo.loads.map (·.node) = [⟨"1", ⟨0, 0, 0⟩⟩, ⟨"2", ⟨4, 0, 0⟩⟩] := rfl
  unfold PointNamesSound
  rw [hm]
  constructor
  · intro s hs t ht e
    simp only [List.mem_cons, List.not_mem_nil, or_false] at hs ht
    rcases hs with rfl | rfl <;> rcases ht with rfl | rfl <;> first | rfl | (exact absurd e (by decide))
  · intro s hs k e
    simp only [List.mem_cons, List.not_mem_nil, or_false] at hs
    have h4 : ∀ x : String, ("gen_" ++ x).toList.length = 4 + x.toList.length := by intro x; simp; omega
    rcases hs with rfl | rfl <;> (have := congrArg (fun x : String => x.toList.length) e; simp only [h4] at this)
    · have h1 : "1".toList.length = 1 := by decide
      omega
    · have h1 : "2".toList.length = 1 := by decide
      omega

theorem ghDemo_apart : EndsStayApart 1 ghDemo (mergeDrawing ghDemo).nodes := by
  have w0 := writtenPoint_int 0
  have w2 := writtenPoint_int 2
  have w4 := writtenPoint_int 4
  push_cast at w0 w2 w4
  have hdp : ∀ n ∈ (mergeDrawing ghDemo).nodes, n.point = ⟨0, 0, 0⟩ ∨ n.point = ⟨2, 0, 0⟩ ∨ n.point = ⟨4, 0, 0⟩ := by
    intro n hn
    have := C109_drawn ghDemo n hn
    simp only [drawnPoints, ghDemo, restraintComponent, nodeComponent, beamComponent, List.zipIdx_cons, List.zipIdx_nil, List.map_cons, List.map_nil,
      List.flatMap_cons, List.flatMap_nil, List.mem_append, List.mem_cons, List.not_mem_nil, or_false] at this
    tauto
  intro b hb i j ni nj f1 f2 hi hj
  obtain ⟨⟨ni', hi', d1⟩, _⟩ := f1
  obtain ⟨⟨nj', hj', d2⟩, _⟩ := f2
  rw [hi] at hi'
  rw [hj] at hj'
  injection hi' with hi'
  injection hj' with hj'
  subst hi' hj'
  have k1 := hdp ni (List.mem_of_getElem? hi)
  have k2 := hdp nj (List.mem_of_getElem? hj)
  simp only [ghDemo, beamComponent, List.zipIdx_cons, List.zipIdx_nil, List.map_cons, List.map_nil, List.mem_cons, List.not_mem_nil, or_false] at hb
  change _ < (1 / 10 : ℝ) at d1 d2
  rcases hb with rfl | rfl <;> rcases k1 with e1 | e1 | e1 <;> rcases k2 with e2 | e2 | e2 <;> rw [e1, norm_along] at d1 <;>
    rw [e2, norm_along] at d2 <;> first | (exfalso; norm_num at d1; done) | (exfalso; norm_num at d2; done) | skip
  · rw [e1, e2, w0, w2]
    right
    norm_num [absTol]
  · rw [e1, e2, w2, w4]
    right
    norm_num [absTol]

/-- the script of the demonstration is written and defines the beams "0" and "1" -/
example (env : Env) : ∃ lines, generate ghDemo = .ok lines ∧ (runScript env lines).getBeamNames = ["0", "1"] := by
  have ht : 0 < ghDemo.tol := by norm_num [ghDemo]
  have h1 : lengthScale ghDemo.lengthUnit = .ok 1 := by simp [ghDemo, lengthScale]
  have h2 : forceScale ghDemo.forceUnit = .ok 1 := by simp [ghDemo, forceScale]
  obtain ⟨hc, hg, ho⟩ := ghDemo_sound
  obtain ⟨lines, hl⟩ := generates_coded ghDemo ht ghDemo_short ghDemo_names hg hc 1 1 h1 h2
  exact ⟨lines, hl, (C111_structure_partial env ghDemo lines 1 1 ht ghDemo_short ghDemo_names hg ho ghDemo_points (lengthScale_iff.mp h1)
    (Or.inl ⟨by simp [ghDemo], rfl⟩) rfl ghDemo_apart hl).2.2.1⟩

end Hyperstatic
