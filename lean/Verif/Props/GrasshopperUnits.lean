import Verif.Props.GrasshopperScript

/-
C112-C117: units of the script, objects of the components, loads and supports that share a node, sections without a call.
-/

namespace Hyperstatic
open Spec

/-! ### C112 Units -/

theorem mapM_map_ok {α β : Type} {f g : α → Except PyErr β} (u : β → β) (l : List α) (h : ∀ a ∈ l, ∀ b, f a = .ok b → g a = .ok (u b)) {r : List β}
    (hr : l.mapM f = .ok r) : l.mapM g = .ok (r.map u) := by
  induction l generalizing r with
  | nil =>
    rw [mapM_ok_nil] at hr
    subst hr
    rfl
  | cons a l ih =>
    obtain ⟨b, bs, h1, h2, rfl⟩ := mapM_ok_cons.mp hr
    rw [mapM_ok_cons]
    exact ⟨u b, bs.map u, h a List.mem_cons_self b h1, ih (fun a ha => h a (List.mem_cons_of_mem _ ha)) h2, rfl⟩

theorem mem_zipWith_left {α β γ : Type} (f : α → β → γ) : ∀ (l : List α) (l' : List β) (c : γ), c ∈ List.zipWith f l l' → ∃ a ∈ l, ∃ b, c = f a b
  | [], _, c, h => by simp at h
  | a :: l, [], c, h => by simp at h
  | a :: l, b :: l', c, h => by
      rw [List.zipWith_cons_cons, List.mem_cons] at h
      rcases h with rfl | h
      · exact ⟨a, List.mem_cons_self, b, rfl⟩
      · obtain ⟨x, hx, y, e⟩ := mem_zipWith_left f l l' c h
        exact ⟨x, List.mem_cons_of_mem _ hx, y, e⟩

/-- With numbers written exactly, the script for a drawing in other units is the script for the same numbers in metres and newtons,
converted call by call. -/
def C112_claim : Prop := ∀ (d : Drawing) (scale fscale : ℝ) (lines : List ScriptLine), Metres d.lengthUnit scale →
  Newtons d.forceUnit fscale → generateWith id { d with lengthUnit := "Meters", forceUnit := "N" } = .ok lines →
  generateWith id d = .ok (lines.map (unitLine scale fscale))

/-- the same without moments -/
def C112_force_claim : Prop := ∀ (d : Drawing) (scale fscale : ℝ) (lines : List ScriptLine), Metres d.lengthUnit scale →
  Newtons d.forceUnit fscale → (∀ l ∈ d.loads, l.f 3 = 0 ∧ l.f 4 = 0 ∧ l.f 5 = 0) →
  generateWith id { d with lengthUnit := "Meters", forceUnit := "N" } = .ok lines →
  generateWith id d = .ok (lines.map (unitLine scale fscale))

/-- the script in the units of the code -/
theorem units_coded (d : Drawing) (scale fscale : ℝ) (lines : List ScriptLine) (h1 : lengthScale d.lengthUnit = .ok scale)
    (h2 : forceScale d.forceUnit = .ok fscale) (hM : scale = fscale ∨ ∀ l ∈ d.loads, l.f 3 = 0 ∧ l.f 4 = 0 ∧ l.f 5 = 0)
    (h : generateWith id { d with lengthUnit := "Meters", forceUnit := "N" } = .ok lines) :
    generateWith id d = .ok (lines.map (unitLine scale fscale)) := by
  have hs := lengthScale_pos h1
  obtain ⟨s0, f0, ms, ss, bs, e1, e2, h3, h4, h5, rfl⟩ := generateWith_ok.mp h
  have es : s0 = 1 := by simpa [lengthScale] using e1.symm
  have ef : f0 = 1 := by simpa [forceScale] using e2.symm
  subst es ef
  refine generateWith_ok.mpr ⟨scale, fscale, ms.map (unitLine scale fscale), ss.map (unitLine scale fscale), bs.map (unitLine scale fscale), h1, h2,
    ?_, ?_, ?_, ?_⟩
  · refine mapM_map_ok (unitLine scale fscale) _ ?_ h3
    intro m _ b hb
    unfold materialLine at hb ⊢
    cases ha : m.a with
    | none => rw [ha] at hb; cases hb
    | some a =>
      rw [ha] at hb
      simp only [Except.ok.injEq] at hb
      subst hb
      simp only [unitLine, scriptUnitCall, id, Except.ok.injEq, ScriptLine.call.injEq, Call.addIsotropicMaterial.injEq, true_and]
      exact ⟨by simp, by simp; ring, trivial⟩
  · refine mapM_map_ok (unitLine scale fscale) _ ?_ h4
    intro s _ b hb
    unfold sectionLine at hb ⊢
    split_ifs at hb ⊢
    · simp only [Except.bind_ok_iff, Except.pure_eq_ok, Except.ok.injEq, GhSection.get_ok] at hb ⊢
      obtain ⟨A, k1, As2, k2, As3, k3, I2, k4, I3, k5, J, k6, rfl⟩ := hb
      exact ⟨A, k1, As2, k2, As3, k3, I2, k4, I3, k5, J, k6, by simp [unitLine, scriptUnitCall, unitCall, mul_comm]⟩
    · simp only [Except.bind_ok_iff, Except.pure_eq_ok, Except.ok.injEq, GhSection.get_ok] at hb ⊢
      obtain ⟨A, k1, As2, k2, As3, k3, I2, k4, rfl⟩ := hb
      exact ⟨A, k1, As2, k2, As3, k3, I2, k4, by simp [unitLine, scriptUnitCall, unitCall, mul_comm]⟩
    · simp only [Except.bind_ok_iff, Except.pure_eq_ok, Except.ok.injEq, GhSection.get_ok] at hb ⊢
      obtain ⟨A, k1, As2, k2, rfl⟩ := hb
      exact ⟨A, k1, As2, k2, by simp [unitLine, scriptUnitCall, unitCall, mul_comm]⟩
    · simp only [Except.bind_ok_iff, Except.pure_eq_ok, Except.ok.injEq, GhSection.get_ok] at hb ⊢
      obtain ⟨A, k1, rfl⟩ := hb
      exact ⟨A, k1, rfl⟩
    · simp only [Except.bind_ok_iff, Except.pure_eq_ok, Except.ok.injEq, GhSection.get_ok] at hb ⊢
      obtain ⟨A, k1, As2, k2, rfl⟩ := hb
      exact ⟨A, k1, As2, k2, rfl⟩
  · refine mapM_map_ok (unitLine scale fscale) _ ?_ h5
    intro b _ x hx
    have := beamLine_ok hx
    subst this
    exact hx
  · have hnodes : (mergeDrawing d).nodes.map (nodeLine id scale) = ((mergeDrawing d).nodes.map (nodeLine id 1)).map (unitLine scale fscale) := by
      rw [List.map_map]
      refine List.map_congr_left fun n _ => ?_
      simp [nodeLine, unitLine, scriptUnitCall, unitCall, mul_comm]
    have hf : ∀ l' ∈ (mergeDrawing d).loads, ∃ l ∈ d.loads, l'.f = l.f := by
      intro l' hl'
      obtain ⟨l, hl, n, e⟩ := mem_zipWith_left _ _ _ _ hl'
      exact ⟨l, hl, by rw [e]⟩
    have htail : (tailCalls id fscale (mergeDrawing d)).map ScriptLine.call =
        ((tailCalls id 1 (mergeDrawing d)).map ScriptLine.call).map (unitLine scale fscale) := by
      rw [List.map_map]
      simp only [tailCalls, List.map_append, List.map_map]
      congr 1
      congr 1
      congr 1
      refine List.map_congr_left fun l' hl' => ?_
      obtain ⟨l, hl, e⟩ := hf l' hl'
      simp only [Function.comp, unitLine, scriptUnitCall, unitCall, loadCall, unitForce, id, ScriptLine.call.injEq, Call.setNodalLoad.injEq, true_and]
      have hm : ∀ k : Fin 6, (k = 3 ∨ k = 4 ∨ k = 5) → l'.f k * fscale ^ 2 = fscale * scale * l'.f k := by
        intro k hk
        rcases hM with rfl | hM
        · ring
        · rw [e]
          rcases hk with rfl | rfl | rfl
          · rw [(hM l hl).1]; ring
          · rw [(hM l hl).2.1]; ring
          · rw [(hM l hl).2.2]; ring
      ext k
      fin_cases k
      · simp [mul_comm]
      · simp [mul_comm]
      · simp [mul_comm]
      · simpa using hm 3 (by simp)
      · simpa using hm 4 (by simp)
      · simpa using hm 5 (by simp)
    have em : mergeDrawing { d with lengthUnit := "Meters", forceUnit := "N" } = mergeDrawing d := rfl
    rw [em]
    simp only [List.map_append]
    rw [htail, hnodes]

/-- Proved for newtons when lengths are in metres or there are no moments.  (Missing: kilonewtons, and moments in millimetres, for which it
is false.) -/
theorem C112_units_partial (d : Drawing) (scale fscale : ℝ) (lines : List ScriptLine) (h1 : Metres d.lengthUnit scale)
    (h2 : Newtons d.forceUnit fscale) (hf : fscale = 1) (hM : scale = 1 ∨ ∀ l ∈ d.loads, l.f 3 = 0 ∧ l.f 4 = 0 ∧ l.f 5 = 0)
    (h : generateWith id { d with lengthUnit := "Meters", forceUnit := "N" } = .ok lines) :
    generateWith id d = .ok (lines.map (unitLine scale fscale)) :=
  units_coded d scale fscale lines (lengthScale_iff.mpr h1) (by rw [forceScale_of h2, hf]; norm_num)
    (hM.imp_left (fun e => by rw [e, hf])) h

/-- a drawing in millimetres and newtons with a moment at an end of a beam -/
noncomputable def ghMoment : Drawing where
  lengthUnit := "Millimeters"
  forceUnit := "N"
  tol := 1
  loads := [⟨⟨"1", ⟨0, 0, 0⟩⟩, ![0, 0, 0, 0, 0, 1]⟩]
  restraints := []
  beams := []

theorem generateWith_nobeams {fmt : ℝ → ℝ} {d : Drawing} (hb : d.beams = []) {scale fscale : ℝ} (h1 : lengthScale d.lengthUnit = .ok scale)
    (h2 : forceScale d.forceUnit = .ok fscale) : generateWith fmt d =
      .ok ((mergeDrawing d).nodes.map (nodeLine fmt scale) ++ (tailCalls fmt fscale (mergeDrawing d)).map .call) := by
  refine generateWith_ok.mpr ⟨scale, fscale, [], [], [], h1, h2, ?_, ?_, ?_, by simp⟩
  · have : ghMaterials d = [] := by simp [ghMaterials, ghSections, hb, byIdentity]
    rw [this]; rfl
  · have : ghSections d = [] := by simp [ghSections, hb, byIdentity]
    rw [this]; rfl
  · rw [hb]; rfl

/-- A moment of 1 N mm is written as 1 N m. -/
theorem C112_false : ¬ C112_claim := by
  intro h
  have h1 : lengthScale ghMoment.lengthUnit = .ok (1 / 1000) := by simp [ghMoment, lengthScale]
  have h2 : forceScale ghMoment.forceUnit = .ok 1 := by simp [ghMoment, forceScale]
  have e := h ghMoment (1 / 1000) 1 _ (lengthScale_iff.mp h1) (Or.inl ⟨by simp [ghMoment], rfl⟩) (generateWith_nobeams rfl (scale := 1) (fscale := 1) (by simp [lengthScale]) (by simp [forceScale]))
  rw [generateWith_nobeams rfl h1 h2] at e
  injection e with e
  have hm : (mergeDrawing ghMoment).nodes = [⟨"1", ⟨0, 0, 0⟩⟩] ∧ (mergeDrawing ghMoment).loads = [⟨⟨"1", ⟨0, 0, 0⟩⟩, ![0, 0, 0, 0, 0, 1]⟩] := ⟨rfl, rfl⟩
  have em : mergeDrawing { ghMoment with lengthUnit := "Meters", forceUnit := "N" } = mergeDrawing ghMoment := rfl
  rw [em] at e
  have := congrArg (fun l => l[4]?) e
  simp [hm.1, hm.2, tailCalls, loadCall, unitLine, scriptUnitCall, unitCall, unitForce] at this

/-- a force of 1 kN -/
noncomputable def ghForce : Drawing := { ghMoment with forceUnit := "kN", loads := [⟨⟨"1", ⟨0, 0, 0⟩⟩, ![1, 0, 0, 0, 0, 0]⟩] }

/-- A force of 1 kN is written as 0.001 N. -/
theorem C112_force_false : ¬ C112_force_claim := by
  intro h
  have h1 : lengthScale ghForce.lengthUnit = .ok (1 / 1000) := by simp [ghForce, ghMoment, lengthScale]
  have h2 : forceScale ghForce.forceUnit = .ok (1 / 1000) := by simp [ghForce, forceScale]
  have e := h ghForce (1 / 1000) 1000 _ (lengthScale_iff.mp h1) (Or.inr ⟨by simp [ghForce], rfl⟩) (by simp [ghForce])
    (generateWith_nobeams rfl (scale := 1) (fscale := 1) (by simp [lengthScale]) (by simp [forceScale]))
  rw [generateWith_nobeams rfl h1 h2] at e
  injection e with e
  have hm : (mergeDrawing ghForce).nodes = [⟨"1", ⟨0, 0, 0⟩⟩] ∧ (mergeDrawing ghForce).loads = [⟨⟨"1", ⟨0, 0, 0⟩⟩, ![1, 0, 0, 0, 0, 0]⟩] := ⟨rfl, rfl⟩
  have em : mergeDrawing { ghForce with lengthUnit := "Meters", forceUnit := "N" } = mergeDrawing ghForce := rfl
  rw [em] at e
  have := congrArg (fun l => l[4]?) e
  simp [hm.1, hm.2, tailCalls, loadCall, unitLine, scriptUnitCall, unitCall, unitForce] at this
  norm_num at this

/-- a force in newtons on a drawing in millimetres -/
example : ∃ d : Drawing, d.lengthUnit = "Millimeters" ∧ d.loads ≠ [] ∧ ∃ lines, generateWith id { d with lengthUnit := "Meters", forceUnit := "N" } = .ok lines ∧
    generateWith id d = .ok (lines.map (unitLine (1 / 1000) 1)) :=
  ⟨{ ghForce with forceUnit := "N" }, rfl, by simp [ghForce], _, generateWith_nobeams rfl (scale := 1) (fscale := 1) (by simp [lengthScale]) (by simp [forceScale]),
    C112_units_partial _ _ _ _ (Or.inr ⟨rfl, rfl⟩) (Or.inl ⟨by simp, rfl⟩) rfl (Or.inr (by simp [ghForce]))
      (generateWith_nobeams rfl (scale := 1) (fscale := 1) (by simp [lengthScale]) (by simp [forceScale]))⟩

/-! ### C114 Objects of the components -/

theorem byIdentity_keeps {α : Type} (k : α → ℕ) (l : List α) : ∀ x ∈ l, (∀ y ∈ l, k y = k x → y = x) → x ∈ byIdentity k l := by
  induction l with
  | nil => intro x hx; cases hx
  | cons a l ih =>
    intro x hx hy
    by_cases e : k a = k x
    · rw [← hy a List.mem_cons_self e]
      exact List.mem_cons_self
    · rcases List.mem_cons.mp hx with rfl | hx
      · exact absurd rfl e
      · refine List.mem_cons_of_mem _ (List.mem_filter.mpr ⟨ih x hx (fun y hy' => hy y (List.mem_cons_of_mem _ hy')), ?_⟩)
        simp only [ne_eq, decide_not, Bool.not_eq_true', decide_eq_false_iff_not]
        exact fun h => e h.symm

theorem section_kept {d : Drawing} {b : GhBeam} (hb : b ∈ d.beams) (hid : ∀ c ∈ d.beams, c.sec.id = b.sec.id → c.sec = b.sec) : b.sec ∈ ghSections d := by
  refine byIdentity_keeps _ _ _ (List.mem_map_of_mem hb) ?_
  intro y hy e
  obtain ⟨c, hc, rfl⟩ := List.mem_map.mp hy
  exact hid c hc e

/-- A drawing made with the components for materials, sections and beams can be assembled. -/
def C114_claim : Prop := ∀ d : Drawing, 0 < d.tol → NoShortBeam d → BeamNamesDiffer d → d.lengthUnit = "Meters" → d.forceUnit = "N" →
  (∃ id id' name name' rho E mu A As2 As3 J I2 I3, ∀ b ∈ d.beams,
    b.sec = generalSectionComponent id name (materialComponent id' name' rho E mu) A As2 As3 J I2 I3) → ∃ lines, generate d = .ok lines

/-- No drawing with a beam whose material comes from the material component is ever assembled: the attribute `a` is missing. -/
theorem C114_never (d : Drawing) (b : GhBeam) (hb : b ∈ d.beams) (id : ℕ) (name : String) (rho E mu : ℝ)
    (hm : b.sec.material = materialComponent id name rho E mu)
    (hid : ∀ c ∈ d.beams, (c.sec.id = b.sec.id → c.sec = b.sec) ∧ (c.sec.material.id = b.sec.material.id → c.sec.material = b.sec.material))
    (lines : List ScriptLine) : generate d ≠ .ok lines := by
  intro h
  obtain ⟨scale, fscale, ms, ss, bs, h1, h2, h3, h4, h5, rfl⟩ := generateWith_ok.mp h
  have hs : b.sec ∈ ghSections d := section_kept hb fun c hc => (hid c hc).1
  have hmat : b.sec.material ∈ ghMaterials d := by
    refine byIdentity_keeps _ _ _ (List.mem_map_of_mem hs) ?_
    intro y hy e
    obtain ⟨s, hs', rfl⟩ := List.mem_map.mp hy
    obtain ⟨c, hc, rfl⟩ := ghSections_sub hs'
    exact (hid c hc).2 e
  obtain ⟨x, hx⟩ := mapM_ok_forall h3 _ hmat
  exact (materialLine_ok hx).2 (by rw [hm]; rfl)

/-- one beam of a material and a section made with the components -/
noncomputable def ghPlain : Drawing where
  lengthUnit := "Meters"
  forceUnit := "N"
  tol := 1
  loads := []
  restraints := []
  beams := beamComponent [(⟨0, 0, 0⟩, ⟨4, 0, 0⟩)] (generalSectionComponent 2 "s" (materialComponent 1 "m" 7849 200000000000 0.3) 1 1 1 1 1 1)

theorem C114_false : ¬ C114_claim := by
  intro h
  have hb : ∀ b ∈ ghPlain.beams, b = ⟨"0", ⟨0, 0, 0⟩, ⟨4, 0, 0⟩, generalSectionComponent 2 "s" (materialComponent 1 "m" 7849 200000000000 0.3) 1 1 1 1 1 1⟩ := by
    intro b hb
    simp only [ghPlain, beamComponent, List.zipIdx_cons, List.zipIdx_nil, List.map_cons, List.map_nil, List.mem_singleton] at hb
    exact hb
  obtain ⟨lines, hl⟩ := h ghPlain (by norm_num [ghPlain])
    (by
      intro b hb'
      rw [hb b hb', norm_along]
      norm_num [ghPlain])
    (by show ["0"].Nodup; simp) rfl rfl
    ⟨2, 1, "s", "m", 7849, 200000000000, 0.3, 1, 1, 1, 1, 1, 1, fun b hb' => by rw [hb b hb']⟩
  refine C114_never ghPlain _ List.mem_cons_self 1 "m" 7849 200000000000 0.3 rfl ?_ lines hl
  intro c hc
  rw [hb c hc]
  exact ⟨fun _ => rfl, fun _ => rfl⟩

/-! ### C115 Loads that share a node -/

/-- The load on a node of the structure is the sum of the loads drawn at it, up to rounding. -/
def C115_claim : Prop := ∀ (env : Env) (d : Drawing) (lines : List ScriptLine) (scale fscale : ℝ), 0 < d.tol → GeneralSections d →
  PointNamesSound d → Metres d.lengthUnit scale → Newtons d.forceUnit fscale → scale = 1 → fscale = 1 → generate d = .ok lines →
  ∀ i n, (mergeDrawing d).nodes[i]? = some n → (∃ l ∈ d.loads, FirstNear d.tol l.node.point (mergeDrawing d).nodes i) →
    ∃ v, (runScript env lines).getNodalLoad "pat1" n.name = some v ∧
      ∀ r, |v r - drawnLoadAt scale fscale d (mergeDrawing d).nodes i r| ≤ d.loads.length * (1 / (2 * 10 ^ 6))

open Classical in
/-- loads with the factors of the code -/
theorem loads_coded (env : Env) (d : Drawing) (lines : List ScriptLine) (scale fscale : ℝ) (ht : 0 < d.tol) (hg : GeneralSections d)
    (hp : PointNamesSound d) (h1 : lengthScale d.lengthUnit = .ok scale) (h2 : forceScale d.forceUnit = .ok fscale)
    (h : generate d = .ok lines) (i : ℕ) (n : GhNode) (hi : (mergeDrawing d).nodes[i]? = some n) (l : GhLoad)
    (hl : d.loads.filter (fun l => FirstNear d.tol l.node.point (mergeDrawing d).nodes i) = [l])
    (hM : scale = fscale ∨ (l.f 3 = 0 ∧ l.f 4 = 0 ∧ l.f 5 = 0)) :
    ∃ v, (runScript env lines).getNodalLoad "pat1" n.name = some v ∧
      ∀ r, SixDecimals (drawnLoadAt scale fscale d (mergeDrawing d).nodes i r) (v r) := by
  obtain ⟨scale', fscale', h1', h2', rfl, _⟩ := generateWith_general hg h
  rw [h1] at h1'
  rw [h2] at h2'
  injection h1' with h1'
  injection h2' with h2'
  subst h1' h2'
  obtain ⟨y, e, hyn, hy⟩ := filter_transfer (fun l : GhLoad => l.node) (mergeDrawing_names d ht hp) hi (fun l l' => l'.f = l.f) d.loads
    (mergeDrawing d).loads (C110_special d ht).1 l hl
  have hyn' : y.node.name = n.name := by rw [← hyn]
  have hL := loadReg_script fmt6 scale fscale d n.name y (by convert hy) hyn'
  unfold runScript
  rw [runLines_calls, (C09_nodal_loads env _ "pat1").2 n.name, hL]
  refine ⟨_, rfl, ?_⟩
  have hd : drawnLoadAt scale fscale d (mergeDrawing d).nodes i =
      ![l.f 0 * fscale, l.f 1 * fscale, l.f 2 * fscale, l.f 3 * fscale * scale, l.f 4 * fscale * scale, l.f 5 * fscale * scale] := by
    unfold drawnLoadAt
    rw [hl]
    simp
  have hm : ∀ k : Fin 6, (k = 3 ∨ k = 4 ∨ k = 5) → l.f k * fscale ^ 2 = l.f k * fscale * scale := by
    intro k hk
    rcases hM with rfl | hM
    · ring
    · rcases hk with rfl | rfl | rfl
      · rw [hM.1]; ring
      · rw [hM.2.1]; ring
      · rw [hM.2.2]; ring
  rw [hd, e]
  intro r
  fin_cases r
  · exact C113_written _
  · exact C113_written _
  · exact C113_written _
  · show SixDecimals (l.f 3 * fscale * scale) (fmt6 (l.f 3 * fscale ^ 2))
    rw [hm 3 (by simp)]
    exact C113_written _
  · show SixDecimals (l.f 4 * fscale * scale) (fmt6 (l.f 4 * fscale ^ 2))
    rw [hm 4 (by simp)]
    exact C113_written _
  · show SixDecimals (l.f 5 * fscale * scale) (fmt6 (l.f 5 * fscale ^ 2))
    rw [hm 5 (by simp)]
    exact C113_written _

open Classical in
/-- Proved for newtons and a node with exactly one load, if lengths are in metres or the load has no moments.  (Missing: several loads at one
node, for which it is false; kilonewtons and moments in millimetres, C112_force_false and C112_false.) -/
theorem C115_single_partial (env : Env) (d : Drawing) (lines : List ScriptLine) (scale fscale : ℝ) (ht : 0 < d.tol) (hg : GeneralSections d)
    (hp : PointNamesSound d) (h1 : Metres d.lengthUnit scale) (h2 : Newtons d.forceUnit fscale) (hf : fscale = 1)
    (h : generate d = .ok lines) (i : ℕ) (n : GhNode) (hi : (mergeDrawing d).nodes[i]? = some n) (l : GhLoad)
    (hl : d.loads.filter (fun l => FirstNear d.tol l.node.point (mergeDrawing d).nodes i) = [l])
    (hM : scale = 1 ∨ (l.f 3 = 0 ∧ l.f 4 = 0 ∧ l.f 5 = 0)) :
    ∃ v, (runScript env lines).getNodalLoad "pat1" n.name = some v ∧
      ∀ r, SixDecimals (drawnLoadAt scale fscale d (mergeDrawing d).nodes i r) (v r) :=
  loads_coded env d lines scale fscale ht hg hp (lengthScale_iff.mpr h1) (by rw [forceScale_of h2, hf]; norm_num) h i n hi l
    (by convert hl) (hM.imp_left (fun e => by rw [e, hf]))

/-! ### C116 Supports that share a node -/

/-- A component is held in the structure when some restraint drawn at the node holds it. -/
def C116_claim : Prop := ∀ (env : Env) (d : Drawing) (lines : List ScriptLine), 0 < d.tol → GeneralSections d → PointNamesSound d →
  generate d = .ok lines → ∀ i n, (mergeDrawing d).nodes[i]? = some n → ∀ r, DrawnHeld d (mergeDrawing d).nodes i r →
    ∃ t f, (runScript env lines).getNodeRestraints none = some t ∧ t.get? n.name = some f ∧ f r = true

open Classical in
/-- Proved for a node with exactly one restraint.  (Missing: several restraints at one node, for which it is false.) -/
theorem C116_single_partial (env : Env) (d : Drawing) (lines : List ScriptLine) (ht : 0 < d.tol) (hg : GeneralSections d)
    (hp : PointNamesSound d) (h : generate d = .ok lines) (i : ℕ) (n : GhNode) (hi : (mergeDrawing d).nodes[i]? = some n) (x : GhRestraint)
    (hx : d.restraints.filter (fun l => FirstNear d.tol l.node.point (mergeDrawing d).nodes i) = [x]) :
    ∃ t f, (runScript env lines).getNodeRestraints none = some t ∧ t.get? n.name = some f ∧
      ∀ r, f r = true ↔ DrawnHeld d (mergeDrawing d).nodes i r := by
  obtain ⟨scale, fscale, h1, h2, rfl, _⟩ := generateWith_general hg h
  obtain ⟨y, e, hyn, hy⟩ := filter_transfer (fun l : GhRestraint => l.node) (mergeDrawing_names d ht hp) hi (fun l l' => l'.flags = l.flags)
    d.restraints (mergeDrawing d).restraints (C110_special d ht).2 x hx
  have hyn' : y.node.name = n.name := by rw [← hyn]
  have hL := restReg_script fmt6 scale fscale d n (List.mem_of_getElem? hi) y (by convert hy) hyn'
  unfold runScript
  rw [runLines_calls]
  obtain ⟨⟨t, k1, k2⟩, _⟩ := C07_restraint_tables env (scriptCalls fmt6 scale fscale d)
  refine ⟨t, y.flags, k1, (k2 _).trans hL, fun r => ?_⟩
  rw [e]
  have hmem : ∀ z, z ∈ d.restraints ∧ FirstNear d.tol z.node.point (mergeDrawing d).nodes i ↔ z = x := by
    intro z
    have : z ∈ d.restraints.filter (fun l => FirstNear d.tol l.node.point (mergeDrawing d).nodes i) ↔ z = x := by rw [hx]; simp
    simpa using this
  constructor
  · intro hr
    have := (hmem x).mpr rfl
    exact ⟨x, this.1, this.2, hr⟩
  · rintro ⟨z, hz1, hz2, hr⟩
    rw [(hmem z).mp ⟨hz1, hz2⟩] at hr
    exact hr

/-- two loads of 1 N and two restraints at the same point -/
noncomputable def ghTwice : Drawing where
  lengthUnit := "Meters"
  forceUnit := "N"
  tol := 1
  loads := [⟨⟨"1", ⟨0, 0, 0⟩⟩, ![1, 0, 0, 0, 0, 0]⟩, ⟨⟨"1", ⟨0, 0, 0⟩⟩, ![1, 0, 0, 0, 0, 0]⟩]
  restraints := [⟨⟨"1", ⟨0, 0, 0⟩⟩, ![true, false, false, false, false, false]⟩, ⟨⟨"1", ⟨0, 0, 0⟩⟩, ![false, true, false, false, false, false]⟩]
  beams := []

theorem ghTwice_merge : (mergeDrawing ghTwice).nodes = [⟨"1", ⟨0, 0, 0⟩⟩] ∧ (mergeDrawing ghTwice).loads = ghTwice.loads ∧
    (mergeDrawing ghTwice).restraints = ghTwice.restraints := by
  have f0 : findPt ⟨0, 0, 0⟩ [] 1 = none := rfl
  have f1 : findPt ⟨0, 0, 0⟩ [⟨"1", ⟨0, 0, 0⟩⟩] 1 = some 0 := by
    rw [findPt_some]
    refine ⟨⟨_, rfl, ?_⟩, by simp⟩
    rw [norm_along]
    norm_num
  have hp : placeSpecial 1 [] (ghTwice.restraints.map (·.node) ++ ghTwice.loads.map (·.node)) =
      ([⟨"1", ⟨0, 0, 0⟩⟩], [⟨"1", ⟨0, 0, 0⟩⟩, ⟨"1", ⟨0, 0, 0⟩⟩, ⟨"1", ⟨0, 0, 0⟩⟩, ⟨"1", ⟨0, 0, 0⟩⟩]) := by
    simp [ghTwice, placeSpecial, f0, f1]
  have e1 : (mergeDrawing ghTwice).nodes = (placeSpecial 1 [] (ghTwice.restraints.map (·.node) ++ ghTwice.loads.map (·.node))).1 := rfl
  have e2 : (mergeDrawing ghTwice).loads = List.zipWith (fun l n => { l with node := n }) ghTwice.loads
    ((placeSpecial 1 [] (ghTwice.restraints.map (·.node) ++ ghTwice.loads.map (·.node))).2.drop 2) := rfl
  have e3 : (mergeDrawing ghTwice).restraints = List.zipWith (fun l n => { l with node := n }) ghTwice.restraints
    ((placeSpecial 1 [] (ghTwice.restraints.map (·.node) ++ ghTwice.loads.map (·.node))).2.take 2) := rfl
  rw [e1, e2, e3, hp]
  exact ⟨rfl, rfl, rfl⟩

theorem ghTwice_near : FirstNear ghTwice.tol ⟨0, 0, 0⟩ (mergeDrawing ghTwice).nodes 0 := by
  rw [ghTwice_merge.1]
  refine ⟨⟨_, rfl, ?_⟩, by simp⟩
  rw [norm_along]
  norm_num [ghTwice]

theorem ghTwice_points : PointNamesSound ghTwice := by
  have hm : ∀ s ∈ ghTwice.restraints.map (·.node) ++ ghTwice.loads.map (·.node), s = ⟨"1", ⟨0, 0, 0⟩⟩ := by
    intro s hs
    simpa [ghTwice] using hs
  constructor
  · intro s hs t ht _
    rw [hm s hs, hm t ht]
  · intro s hs k e
    rw [hm s hs] at e
    have h4 : ∀ x : String, ("gen_" ++ x).toList.length = 4 + x.toList.length := by intro x; simp; omega
    have := congrArg (fun x : String => x.toList.length) e
    simp only [h4] at this
    have h1 : "1".toList.length = 1 := by decide
    omega

theorem ghTwice_generate : generate ghTwice = .ok ((scriptCalls fmt6 1 1 ghTwice).map .call) := by
  have h1 : lengthScale ghTwice.lengthUnit = .ok 1 := by simp [ghTwice, lengthScale]
  have h2 : forceScale ghTwice.forceUnit = .ok 1 := by simp [ghTwice, forceScale]
  unfold generate
  rw [generateWith_nobeams rfl h1 h2]
  have e1 : ghMaterials ghTwice = [] := rfl
  have e2 : ghSections ghTwice = [] := rfl
  have e3 : ghTwice.beams = [] := rfl
  rw [scriptCalls, e1, e2, e3]
  simp only [List.map_append, List.map_map, List.map_nil, List.nil_append, List.append_nil]
  rfl

/-- Two loads of 1 N at one point: the structure has a load of 1 N there. -/
theorem C115_false : ¬ C115_claim := by
  intro h
  obtain ⟨v, hv, hr⟩ := h idealEnv ghTwice _ 1 1 (by norm_num [ghTwice]) (by intro b hb; cases hb) ghTwice_points (Or.inl ⟨rfl, rfl⟩)
    (Or.inl ⟨by simp [ghTwice], rfl⟩) rfl rfl ghTwice_generate 0 ⟨"1", ⟨0, 0, 0⟩⟩ (by rw [ghTwice_merge.1]; rfl)
    ⟨⟨⟨"1", ⟨0, 0, 0⟩⟩, ![1, 0, 0, 0, 0, 0]⟩, List.mem_cons_self, ghTwice_near⟩
  have hd : drawnLoadAt 1 1 ghTwice (mergeDrawing ghTwice).nodes 0 0 = 2 := by
    unfold drawnLoadAt
    rw [List.filter_eq_self.mpr]
    · simp [ghTwice]
      norm_num
    · intro l hl
      have : l.node.point = ⟨0, 0, 0⟩ := by
        simp only [ghTwice, List.mem_cons, List.not_mem_nil, or_false] at hl
        rcases hl with rfl | rfl <;> rfl
      simp only [decide_eq_true_eq, this]
      exact ghTwice_near
  have hr0 := hr 0
  rw [hd] at hr0
  have f1 : fmt6 1 = 1 := by simpa using fmt6_int 1
  have hv0 : v 0 = 1 := by
    unfold runScript at hv
    rw [runLines_calls, (C09_nodal_loads idealEnv _ "pat1").2 "1", run_cur_unloaded _ _ (scriptCalls_noload _ _ _ _) (fun _ _ => rfl)] at hv
    have hc : scriptCalls fmt6 1 1 ghTwice = (mergeDrawing ghTwice).nodes.map (nodeCall fmt6 1) ++ tailCalls fmt6 1 (mergeDrawing ghTwice) := by
      simp [scriptCalls, ghMaterials, ghSections, ghTwice, byIdentity]
    rw [hc, tailCalls, ghTwice_merge.1, ghTwice_merge.2.1, ghTwice_merge.2.2] at hv
    simp [ghTwice, nodeCall, loadCall, restCall, loadReg, f1] at hv
    rw [← hv]
    rfl
  rw [hv0] at hr0
  norm_num [ghTwice] at hr0

/-- A restraint along x and one along y at one point: the structure is not held along x there. -/
theorem C116_false : ¬ C116_claim := by
  intro h
  obtain ⟨t, f, ht, hf, hr⟩ := h idealEnv ghTwice _ (by norm_num [ghTwice]) (by intro b hb; cases hb) ghTwice_points ghTwice_generate 0 ⟨"1", ⟨0, 0, 0⟩⟩
    (by rw [ghTwice_merge.1]; rfl) 0 ⟨⟨⟨"1", ⟨0, 0, 0⟩⟩, ![true, false, false, false, false, false]⟩, List.mem_cons_self, ghTwice_near, rfl⟩
  unfold runScript at ht
  rw [runLines_calls] at ht
  obtain ⟨⟨t', k1, k2⟩, _⟩ := C07_restraint_tables idealEnv (scriptCalls fmt6 1 1 ghTwice)
  rw [ht] at k1
  injection k1 with k1
  subst k1
  rw [k2, run_cur_unloaded _ _ (scriptCalls_noload _ _ _ _) (fun _ _ => rfl)] at hf
  have hc : scriptCalls fmt6 1 1 ghTwice = (mergeDrawing ghTwice).nodes.map (nodeCall fmt6 1) ++ tailCalls fmt6 1 (mergeDrawing ghTwice) := by
    simp [scriptCalls, ghMaterials, ghSections, ghTwice, byIdentity]
  rw [hc, tailCalls, ghTwice_merge.1, ghTwice_merge.2.1, ghTwice_merge.2.2] at hf
  simp [ghTwice, nodeCall, loadCall, restCall, restReg] at hf
  rw [← hf] at hr
  simp at hr

/-- one load and one support, at different points -/
noncomputable def ghOne : Drawing where
  lengthUnit := "Meters"
  forceUnit := "N"
  tol := 1
  loads := [⟨⟨"2", ⟨4, 0, 0⟩⟩, ![1, 2, 3, 4, 5, 6]⟩]
  restraints := [⟨⟨"1", ⟨0, 0, 0⟩⟩, fun r => r = 2⟩]
  beams := []

theorem ghOne_nodes : (mergeDrawing ghOne).nodes = [⟨"1", ⟨0, 0, 0⟩⟩, ⟨"2", ⟨4, 0, 0⟩⟩] := by
  have f0 : findPt ⟨0, 0, 0⟩ [] 1 = none := rfl
  have f1 : findPt ⟨4, 0, 0⟩ [⟨"1", ⟨0, 0, 0⟩⟩] 1 = none := by
    rw [findPt_none]
    intro n hn
    rw [List.mem_singleton] at hn
    rw [hn, norm_along]
    norm_num
  have e : (mergeDrawing ghOne).nodes = (placeSpecial 1 [] [⟨"1", ⟨0, 0, 0⟩⟩, ⟨"2", ⟨4, 0, 0⟩⟩]).1 := rfl
  rw [e]
  simp only [placeSpecial, f0, List.nil_append, f1, List.cons_append]

theorem ghOne_points : PointNamesSound ghOne := by
  have hm : ghOne.restraints.map (·.node) ++ ghOne.loads.map (·.node) = [⟨"1", ⟨0, 0, 0⟩⟩, ⟨"2", ⟨4, 0, 0⟩⟩] := rfl
  have hd : ghDemo.restraints.map (·.node) ++ ghDemo.loads.map (·.node) = [⟨"1", ⟨0, 0, 0⟩⟩, ⟨"2", ⟨4, 0, 0⟩⟩] := rfl
  have := ghDemo_points
  unfold PointNamesSound at this ⊢
  rw [hd] at this
  rw [hm]
  exact this

/-- the load is found at the second node and the support at the first -/
example (env : Env) : ∃ lines, generate ghOne = .ok lines ∧ (∃ v, (runScript env lines).getNodalLoad "pat1" "2" = some v) ∧
    ∃ t f, (runScript env lines).getNodeRestraints none = some t ∧ t.get? "1" = some f := by
  have h1 : lengthScale ghOne.lengthUnit = .ok 1 := by simp [ghOne, lengthScale]
  have h2 : forceScale ghOne.forceUnit = .ok 1 := by simp [ghOne, forceScale]
  have ht : 0 < ghOne.tol := by norm_num [ghOne]
  have n1 : FirstNear ghOne.tol ⟨4, 0, 0⟩ (mergeDrawing ghOne).nodes 1 := by
    rw [ghOne_nodes]
    refine ⟨⟨_, rfl, by rw [norm_along]; norm_num [ghOne]⟩, ?_⟩
    intro k hk n hn
    interval_cases k
    injection hn with hn
    rw [← hn, norm_along]
    norm_num [ghOne]
  have n0 : FirstNear ghOne.tol ⟨0, 0, 0⟩ (mergeDrawing ghOne).nodes 0 := by
    rw [ghOne_nodes]
    exact ⟨⟨_, rfl, by rw [norm_along]; norm_num [ghOne]⟩, by simp⟩
  refine ⟨_, generateWith_nobeams rfl h1 h2, ?_, ?_⟩
  · obtain ⟨v, hv, _⟩ := C115_single_partial env ghOne _ 1 1 ht (by intro b hb; cases hb) ghOne_points
      (Or.inl ⟨rfl, rfl⟩) (Or.inl ⟨by simp [ghOne], rfl⟩) rfl (generateWith_nobeams rfl h1 h2) 1
      ⟨"2", ⟨4, 0, 0⟩⟩ (by rw [ghOne_nodes]; rfl) ⟨⟨"2", ⟨4, 0, 0⟩⟩, ![1, 2, 3, 4, 5, 6]⟩
      (by
        rw [List.filter_eq_self.mpr]
        · rfl
        · intro l hl
          simp only [ghOne, List.mem_singleton] at hl
          rw [hl]
          simp only [decide_eq_true_eq]
          exact n1) (Or.inl rfl)
    exact ⟨v, hv⟩
  · obtain ⟨t, f, h3, h4, _⟩ := C116_single_partial env ghOne _ ht (by intro b hb; cases hb) ghOne_points (generateWith_nobeams rfl h1 h2) 0
      ⟨"1", ⟨0, 0, 0⟩⟩ (by rw [ghOne_nodes]; rfl) ⟨⟨"1", ⟨0, 0, 0⟩⟩, fun r => r = 2⟩
      (by
        rw [List.filter_eq_self.mpr]
        · rfl
        · intro l hl
          simp only [ghOne, List.mem_singleton] at hl
          rw [hl]
          simp only [decide_eq_true_eq]
          exact n0)
    exact ⟨t, f, h3, h4⟩

/-! ### C117 Sections without a call -/

/-- When a script was written, running it defines the nodes of the drawing. -/
def C117_claim : Prop := ∀ (env : Env) (d : Drawing) (lines : List ScriptLine), 0 < d.tol → PointNamesSound d → generate d = .ok lines →
  (runScript env lines).getNodeNames = (mergeDrawing d).nodes.map (·.name)

/-- Proved for general sections.  (Missing: circles and pipes, for which it is false.) -/
theorem C117_nodes_partial (env : Env) (d : Drawing) (lines : List ScriptLine) (ht : 0 < d.tol) (hp : PointNamesSound d) (hg : GeneralSections d)
    (h : generate d = .ok lines) : (runScript env lines).getNodeNames = (mergeDrawing d).nodes.map (·.name) := by
  obtain ⟨scale, fscale, h1, h2, rfl, _⟩ := generateWith_general hg h
  unfold runScript
  rw [runLines_calls]
  exact (C02_node_registry env _).1.trans (nodeReg_script fmt6 scale fscale d (mergeDrawing_names d ht hp)).1

theorem first_illTyped (l : List ScriptLine) (h : ScriptLine.illTyped ∈ l) : ∃ (cs : List Call) (rest : List ScriptLine), l = cs.map .call ++ .illTyped :: rest := by
  induction l with
  | nil => cases h
  | cons x l ih =>
    cases x with
    | illTyped => exact ⟨[], l, rfl⟩
    | call c =>
      obtain ⟨cs, rest, e⟩ := ih (by simpa using h)
      exact ⟨c :: cs, rest, by rw [e]; rfl⟩

theorem runLines_stop (env : Env) (cs : List Call) (rest : List ScriptLine) (w : World) :
    runLines env w (cs.map .call ++ .illTyped :: rest) = w.run env cs := by
  induction cs generalizing w with
  | nil => rfl
  | cons c cs ih => exact ih _

/-- a line that defines a material or a section -/
def propLine : ScriptLine → Prop
  | .illTyped => True
  | .call (.addIsotropicMaterial _ _ _ _ _) => True
  | .call c => sectionCall c ≠ none

theorem sectionLine_prop {fmt : ℝ → ℝ} {scale : ℝ} {s : GhSection} {x : ScriptLine} (h : sectionLine fmt scale s = .ok x) :
    propLine x ∧ (s.shape = "circle" ∨ s.shape = "pipe" → x = .illTyped) := by
  unfold sectionLine at h
  split_ifs at h with h1 h2 h3 h4 h5
  all_goals
    simp only [Except.bind_ok_iff, Except.pure_eq_ok, Except.ok.injEq, GhSection.get_ok] at h
  · obtain ⟨_, _, _, _, _, _, _, _, _, _, _, _, rfl⟩ := h
    exact ⟨by simp [propLine, sectionCall], by rw [h1]; simp⟩
  · obtain ⟨_, _, _, _, _, _, _, _, rfl⟩ := h
    exact ⟨by simp [propLine, sectionCall], by rw [h2]; simp⟩
  · obtain ⟨_, _, _, _, rfl⟩ := h
    exact ⟨by simp [propLine, sectionCall], by rw [h3]; simp⟩
  · obtain ⟨_, _, rfl⟩ := h
    exact ⟨trivial, fun _ => rfl⟩
  · obtain ⟨_, _, _, _, rfl⟩ := h
    exact ⟨trivial, fun _ => rfl⟩

theorem mapM_mem {α β : Type} {f : α → Except PyErr β} {l : List α} {r : List β} (h : l.mapM f = .ok r) :
    (∀ b ∈ r, ∃ a ∈ l, f a = .ok b) ∧ ∀ a ∈ l, ∃ b ∈ r, f a = .ok b := by
  induction l generalizing r with
  | nil =>
    rw [mapM_ok_nil] at h
    subst h
    simp
  | cons a l ih =>
    obtain ⟨b, bs, h1, h2, rfl⟩ := mapM_ok_cons.mp h
    obtain ⟨i1, i2⟩ := ih h2
    constructor
    · intro x hx
      rcases List.mem_cons.mp hx with rfl | hx
      · exact ⟨a, List.mem_cons_self, h1⟩
      · obtain ⟨y, hy, e⟩ := i1 x hx
        exact ⟨y, List.mem_cons_of_mem _ hy, e⟩
    · intro x hx
      rcases List.mem_cons.mp hx with rfl | hx
      · exact ⟨b, List.mem_cons_self, h1⟩
      · obtain ⟨y, hy, e⟩ := i2 x hx
        exact ⟨y, List.mem_cons_of_mem _ hy, e⟩

/-- A script with a circular or pipe section stops before the first node: it defines neither nodes nor beams. -/
theorem C117_stops (env : Env) (d : Drawing) (lines : List ScriptLine) (h : generate d = .ok lines) (b : GhBeam) (hb : b ∈ d.beams)
    (hid : ∀ c ∈ d.beams, c.sec.id = b.sec.id → c.sec = b.sec) (hsh : b.sec.shape = "circle" ∨ b.sec.shape = "pipe") : (runScript env lines).getNodeNames = [] ∧ (runScript env lines).getBeamNames = [] := by
  obtain ⟨scale, fscale, ms, ss, bs, h1, h2, h3, h4, h5, rfl⟩ := generateWith_ok.mp h
  have hprop : ∀ x ∈ ms ++ ss, propLine x := by
    intro x hx
    rcases List.mem_append.mp hx with hx | hx
    · obtain ⟨m, _, e⟩ := (mapM_mem h3).1 x hx
      rw [(materialLine_ok e).1]
      exact trivial
    · obtain ⟨s, _, e⟩ := (mapM_mem h4).1 x hx
      exact (sectionLine_prop e).1
  have hill : ScriptLine.illTyped ∈ ms ++ ss := by
    obtain ⟨x, hx, e⟩ := (mapM_mem h4).2 _ (section_kept hb hid)
    rw [← (sectionLine_prop e).2 hsh]
    exact List.mem_append_right _ hx
  obtain ⟨cs, rest, e⟩ := first_illTyped _ hill
  have hcs : ∀ c ∈ cs, propLine (.call c) := by
    intro c hc
    apply hprop
    rw [e]
    exact List.mem_append_left _ (List.mem_map_of_mem hc)
  unfold runScript
  have e2 : ms ++ ss ++ (mergeDrawing d).nodes.map (nodeLine fmt6 scale) ++ bs ++ (tailCalls fmt6 fscale (mergeDrawing d)).map ScriptLine.call =
      cs.map .call ++ .illTyped :: (rest ++ (mergeDrawing d).nodes.map (nodeLine fmt6 scale) ++ bs ++ (tailCalls fmt6 fscale (mergeDrawing d)).map ScriptLine.call) := by
    rw [e]
    simp
  rw [e2, runLines_stop]
  have hnl : ∀ f, Call.load f ∉ cs := by
    intro f hf
    have := hcs _ hf
    simp [propLine, sectionCall] at this
  constructor
  · rw [(C02_node_registry env cs).1, run_cur_unloaded _ _ hnl (fun _ _ => rfl), foldl_still nodeReg.edit cs]
    · rfl
    · intro c hc s
      have := hcs c hc
      cases c <;> first | rfl | (simp [propLine, sectionCall] at this)
  · rw [(C61_blueprint env cs _ rfl _ rfl).1, run_cur_unloaded _ _ hnl (fun _ _ => rfl)]
    refine foldl_inv blueprint.edit cs (fun s => s.beams = []) ?_ _ rfl
    intro c hc s hs
    have := hcs c hc
    cases c <;> first | exact hs | (simp [propLine, sectionCall] at this; done) | skip
    all_goals
      simp only [blueprint, sectionCall]
      cases (s.mat _).bind fun mat => shapeConsts mat _ <;> exact hs

/-- A section whose shape is none of the five is never written: the script is not generated (boxes, for instance). -/
theorem C117_box (d : Drawing) (b : GhBeam) (hb : b ∈ d.beams) (hid : ∀ c ∈ d.beams, c.sec.id = b.sec.id → c.sec = b.sec) (hsh : b.sec.shape ∉ ["general", "I", "rectangle", "circle", "pipe"])
    (lines : List ScriptLine) : generate d ≠ .ok lines := by
  intro h
  obtain ⟨scale, fscale, ms, ss, bs, h1, h2, h3, h4, h5, rfl⟩ := generateWith_ok.mp h
  obtain ⟨x, hx⟩ := mapM_ok_forall h4 _ (section_kept hb hid)
  simp only [List.mem_cons, List.not_mem_nil, or_false, not_or] at hsh
  unfold sectionLine at hx
  rw [if_neg hsh.1, if_neg hsh.2.1, if_neg hsh.2.2.1, if_neg hsh.2.1, if_neg hsh.2.2.2.1, if_neg hsh.2.2.2.2] at hx
  cases hx

/-- a beam of a round bar -/
noncomputable def ghRound : Drawing where
  lengthUnit := "Meters"
  forceUnit := "N"
  tol := 1
  loads := []
  restraints := []
  beams := beamComponent [(⟨0, 0, 0⟩, ⟨4, 0, 0⟩)] ⟨2, "c", "circle", ghSteel, fun _ => some 1⟩

theorem C117_false : ¬ C117_claim := by
  intro h
  have h1 : lengthScale ghRound.lengthUnit = .ok 1 := by simp [ghRound, lengthScale]
  have h2 : forceScale ghRound.forceUnit = .ok 1 := by simp [ghRound, forceScale]
  have hm : (mergeDrawing ghRound).nodes = [⟨"gen_" ++ toString 0, ⟨0, 0, 0⟩⟩, ⟨"gen_" ++ toString 1, ⟨4, 0, 0⟩⟩] := rfl
  have hc : (mergeDrawing ghRound).conn = [("0", (0, 1))] := rfl
  have hgen : ∃ lines, generate ghRound = .ok lines := by
    refine ⟨_, generateWith_ok.mpr ⟨1, 1, [.call (matCall fmt6 1 1 ghSteel)], [.illTyped], [.call (.addBeam "0" ("gen_" ++ toString 0) ("gen_" ++ toString 1) "c")],
      h1, h2, ?_, ?_, ?_, rfl⟩⟩
    · have : ghMaterials ghRound = [ghSteel] := rfl
      rw [this, mapM_ok_cons]
      refine ⟨_, [], ?_, rfl, rfl⟩
      simp [materialLine, ghSteel, matCall]
    · have : ghSections ghRound = [⟨2, "c", "circle", ghSteel, fun _ => some 1⟩] := rfl
      rw [this, mapM_ok_cons]
      refine ⟨_, [], ?_, rfl, rfl⟩
      simp [sectionLine, GhSection.get]
    · have : ghRound.beams = [⟨"0", ⟨0, 0, 0⟩, ⟨4, 0, 0⟩, ⟨2, "c", "circle", ghSteel, fun _ => some 1⟩⟩] := rfl
      rw [this, mapM_ok_cons]
      refine ⟨_, [], ?_, rfl, rfl⟩
      unfold beamLine
      rw [hc, hm]
      rfl
  obtain ⟨lines, hl⟩ := hgen
  have hn := h idealEnv ghRound lines (by norm_num [ghRound]) ⟨(by intro s hs; cases hs), (by intro s hs; cases hs)⟩ hl
  have hb : ∀ c ∈ ghRound.beams, c = ⟨"0", ⟨0, 0, 0⟩, ⟨4, 0, 0⟩, ⟨2, "c", "circle", ghSteel, fun _ => some 1⟩⟩ := by
    intro c hc
    simp only [ghRound, beamComponent, List.zipIdx_cons, List.zipIdx_nil, List.map_cons, List.map_nil, List.mem_singleton] at hc
    exact hc
  rw [(C117_stops idealEnv ghRound lines hl _ List.mem_cons_self (fun c hc _ => by rw [hb c hc]) (Or.inl rfl)).1, hm] at hn
  cases hn

/-! ### C113 Small sections -/

/-- a beam of a small section in millimetres: I2 = 10000 mm⁴ -/
noncomputable def ghSmall : Drawing where
  lengthUnit := "Millimeters"
  forceUnit := "N"
  tol := 1
  loads := []
  restraints := []
  beams := beamComponent [(⟨0, 0, 0⟩, ⟨4, 0, 0⟩)] (generalSectionComponent 2 "s" ghSteel 100 100 100 10000 10000 10000)

/-- It is written with a second moment of area of 0. -/
theorem C113_false : ¬ C113_claim := by
  intro h
  have hb : ∀ b ∈ ghSmall.beams, b = ⟨"0", ⟨0, 0, 0⟩, ⟨4, 0, 0⟩, generalSectionComponent 2 "s" ghSteel 100 100 100 10000 10000 10000⟩ := by
    intro b hb
    simp only [ghSmall, beamComponent, List.zipIdx_cons, List.zipIdx_nil, List.map_cons, List.map_nil, List.mem_singleton] at hb
    exact hb
  have h1 : lengthScale ghSmall.lengthUnit = .ok (1 / 1000) := by simp [ghSmall, lengthScale]
  have h2 : forceScale ghSmall.forceUnit = .ok 1 := by simp [ghSmall, forceScale]
  have hg : GeneralSections ghSmall := by
    intro b hb'
    rw [hb b hb']
    rfl
  obtain ⟨lines, hl⟩ := generates_coded ghSmall (by norm_num [ghSmall])
    (by
      intro b hb'
      rw [hb b hb', norm_along]
      norm_num [ghSmall])
    (by show ["0"].Nodup; simp) hg
    (by
      intro b hb'
      rw [hb b hb']
      exact ⟨by simp [generalSectionComponent, ghSteel], by simp [generalSectionComponent]⟩) _ _ h1 h2
  have hl' := hl
  obtain ⟨scale, fscale, e1, e2, rfl, _⟩ := generateWith_general hg hl
  rw [h1] at e1
  injection e1 with e1
  have hpos := h ghSmall _ hg hl' _ List.mem_cons_self 10000 (by simp [generalSectionComponent]) (by norm_num) "s" "steel" _ _ _ _ _ _ _ _
    (List.mem_map_of_mem (List.mem_append_left _ (List.mem_append_left _ (List.mem_append_left _ (List.mem_append_right _ (List.mem_map_of_mem
      (show generalSectionComponent 2 "s" ghSteel 100 100 100 10000 10000 10000 ∈ ghSections ghSmall from List.mem_cons_self))))))) rfl
  have : fmt6 ((((generalSectionComponent 2 "s" ghSteel 100 100 100 10000 10000 10000).attr "I2").getD 0) * scale ^ 4) = 0 := by
    have hr : round ((10000 : ℝ) * (1 / 1000) ^ 4 * 10 ^ 6) = 0 := by
      rw [round_eq_zero_iff]
      constructor <;> norm_num
    rw [← e1]
    simp only [generalSectionComponent, fmt6]
    simp only [String.reduceEq, if_false, if_true, Option.getD_some]
    rw [hr]
    simp
  rw [this] at hpos
  exact lt_irrefl _ hpos

/-- The numbers given to the section component are those written to the script, in metres and to six decimals. -/
theorem C111_section (d : Drawing) (lines : List ScriptLine) (h : generate d = .ok lines) (scale : ℝ) (hsc : Metres d.lengthUnit scale)
    (b : GhBeam) (hb : b ∈ d.beams) (hid : ∀ c ∈ d.beams, c.sec.id = b.sec.id → c.sec = b.sec)
    (id : ℕ) (name : String) (mat : GhMaterial) (A As2 As3 J I2 I3 : ℝ)
    (hs : b.sec = generalSectionComponent id name mat A As2 As3 J I2 I3) :
    ScriptLine.call (.addBeamSectionGeneral name mat.name (fmt6 (A * scale ^ 2)) (fmt6 (As2 * scale ^ 2)) (fmt6 (As3 * scale ^ 2))
      (fmt6 (I2 * scale ^ 4)) (fmt6 (I3 * scale ^ 4)) (fmt6 (J * scale ^ 4)) (fmt6 0) (fmt6 0)) ∈ lines := by
  obtain ⟨scale', fscale, ms, ss, bs, h1, h2, h3, h4, h5, rfl⟩ := generateWith_ok.mp h
  rw [lengthScale_iff.mpr hsc] at h1
  injection h1 with h1
  subst h1
  have hmem : b.sec ∈ ghSections d := section_kept hb hid
  have hline : ∃ l ∈ ss, sectionLine fmt6 scale b.sec = .ok l := by
    clear h h3 h5
    generalize ghSections d = l at h4 hmem
    induction l generalizing ss with
    | nil => cases hmem
    | cons s l ih =>
      rw [List.mapM_cons] at h4
      simp only [Except.bind_ok_iff, Except.pure_eq_ok, Except.ok.injEq] at h4
      obtain ⟨x, hx, t, ht, rfl⟩ := h4
      rcases List.mem_cons.mp hmem with e | hm
      · exact ⟨x, by simp, by rw [e]; exact hx⟩
      · obtain ⟨y, hy, hy'⟩ := ih t ht hm
        exact ⟨y, by simp [hy], hy'⟩
  obtain ⟨l, hl, hl'⟩ := hline
  have : l = ScriptLine.call (.addBeamSectionGeneral name mat.name (fmt6 (A * scale ^ 2)) (fmt6 (As2 * scale ^ 2)) (fmt6 (As3 * scale ^ 2))
      (fmt6 (I2 * scale ^ 4)) (fmt6 (I3 * scale ^ 4)) (fmt6 (J * scale ^ 4)) (fmt6 0) (fmt6 0)) := by
    rw [hs] at hl'
    simp [sectionLine, generalSectionComponent, GhSection.get, pure, Except.pure, bind, Except.bind] at hl'
    exact hl'.symm
  rw [← this]
  simp [hl]

/-- the drawing of C113_false has such a beam -/
example : ∃ b ∈ ghSmall.beams, b.sec = generalSectionComponent 2 "s" ghSteel 100 100 100 10000 10000 10000 := ⟨_, List.mem_cons_self, rfl⟩

end Hyperstatic
