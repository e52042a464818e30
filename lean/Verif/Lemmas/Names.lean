import Verif.Spec.Names
import Verif.Props.FrameLaws

namespace Hyperstatic
open Matrix Spec

/-- a table and the same table under other names -/
structure Carried {α β : Type} (ν : String → String) (h : α → β) (f : String → Option α) (f' : String → Option β) : Prop where
  fwd : ∀ n, f' (ν n) = (f n).map h
  off : ∀ m, (∀ n, ν n ≠ m) → f' m = none

theorem Carried.empty {α β : Type} (ν : String → String) (h : α → β) : Carried ν h (fun _ => none) (fun _ => none) :=
  ⟨fun _ => rfl, fun _ _ => rfl⟩

theorem Carried.set {α β : Type} {ν : String → String} (hν : Function.Injective ν) {h : α → β} {f : String → Option α} {f' : String → Option β}
    (hc : Carried ν h f f') (n : String) (o : Option α) :
    Carried ν h (fun m => if m = n then o else f m) (fun m => if m = ν n then o.map h else f' m) := by
  constructor
  · intro m
    by_cases e : m = n
    · subst e; simp
    · have : ν m ≠ ν n := fun h' => e (hν h')
      simp [e, this, hc.fwd m]
  · intro m hm
    have : m ≠ ν n := fun h' => hm n h'.symm
    simp [this, hc.off m hm]

theorem Carried.setSome {α β : Type} {ν : String → String} (hν : Function.Injective ν) {h : α → β} {f : String → Option α} {f' : String → Option β}
    (hc : Carried ν h f f') (n : String) (a : α) :
    Carried ν h (fun m => if m = n then some a else f m) (fun m => if m = ν n then some (h a) else f' m) := hc.set hν n (some a)

/-- tables with values that are tables themselves are compared by a relation -/
structure CarriedRel {α β : Type} (ν : String → String) (R : α → β → Prop) (f : String → Option α) (f' : String → Option β) : Prop where
  none : ∀ n, f n = none → f' (ν n) = none
  some : ∀ n a, f n = some a → ∃ b, f' (ν n) = some b ∧ R a b

theorem CarriedRel.set {α β : Type} {ν : String → String} (hν : Function.Injective ν) {R : α → β → Prop} {f : String → Option α}
    {f' : String → Option β} (hc : CarriedRel ν R f f') (n : String) {a : α} {b : β} (hab : R a b) :
    CarriedRel ν R (fun m => if m = n then .some a else f m) (fun m => if m = ν n then .some b else f' m) := by
  constructor
  · intro m hm
    by_cases e : m = n
    · simp [e] at hm
    · have : ν m ≠ ν n := fun h' => e (hν h')
      simp only [e, this, if_false] at hm ⊢
      exact hc.none m hm
  · intro m x hm
    by_cases e : m = n
    · subst e
      simp only [if_true, Option.some.injEq] at hm ⊢
      subst hm
      exact ⟨b, rfl, hab⟩
    · have : ν m ≠ ν n := fun h' => e (hν h')
      simp only [e, this, if_false] at hm ⊢
      exact hc.some m x hm

theorem CarriedRel.upd {α β : Type} {ν : String → String} (hν : Function.Injective ν) {R : α → β → Prop} {f : String → Option α}
    {f' : String → Option β} (hc : CarriedRel ν R f f') (n : String) {k : α → α} {k' : β → β} (hk : ∀ a b, R a b → R (k a) (k' b)) :
    CarriedRel ν R (fun m => if m = n then (f n).map k else f m) (fun m => if m = ν n then (f' (ν n)).map k' else f' m) := by
  constructor
  · intro m hm
    by_cases e : m = n
    · subst e
      simp only [if_true, Option.map_eq_none_iff] at hm ⊢
      exact hc.none m hm
    · have : ν m ≠ ν n := fun h' => e (hν h')
      simp only [e, this, if_false] at hm ⊢
      exact hc.none m hm
  · intro m x hm
    by_cases e : m = n
    · subst e
      simp only [if_true, Option.map_eq_some_iff] at hm ⊢
      obtain ⟨a, ha, rfl⟩ := hm
      obtain ⟨b, hb, hab⟩ := hc.some m a ha
      exact ⟨_, ⟨b, hb, rfl⟩, hk a b hab⟩
    · have : ν m ≠ ν n := fun h' => e (hν h')
      simp only [e, this, if_false] at hm ⊢
      exact hc.some m x hm

theorem rename_sim {S S' : Type} (M : Machine S) (M' : Machine S') (R : S → S' → Prop) (ν : Naming) (hinit : R M.init M'.init)
    (cs : List Call) (hedit : ∀ s s' c, R s s' → R (M.edit s c) (M'.edit s' (renameCall ν c))) :
    R (M.run cs).cur (M'.run (cs.map (renameCall ν))).cur := by
  apply run_sim_mem M M' R (renameCall ν) (fun _ => rfl) (fun _ => rfl) _ hinit cs (fun s s' c _ => hedit s s' c)
  intro c h1 h2
  cases c <;> first | exact ⟨h1, h2⟩ | (constructor <;> (intro _ h; cases h))

theorem nodeReg_rename {ν : Naming} (hν : ν.Distinct) (cs : List Call) :
    (nodeReg.run (cs.map (renameCall ν))).cur.names = (nodeReg.run cs).cur.names.map ν.node := by
  apply rename_sim nodeReg nodeReg (fun s s' => s'.names = s.names.map ν.node) ν rfl
  rintro ⟨ns, loc⟩ ⟨_, loc'⟩ c rfl
  cases c
  case addNode n x y z =>
    simp only [nodeReg, renameCall]
    by_cases h : n ∈ ns
    · rw [if_pos h, if_pos (List.mem_map_of_mem h)]
    · rw [if_neg h, if_neg, List.map_append, List.map_singleton]
      rintro h'
      obtain ⟨k, hk, e⟩ := List.mem_map.mp h'
      exact h (hν.node e ▸ hk)
  all_goals rfl

structure RestRenamed (ν : Naming) (s s' : RestReg) : Prop where
  nodes : ∀ n, s'.nodes (ν.node n) ↔ s.nodes n
  global : Carried ν.node id s.global s'.global
  cases : CarriedRel ν.case (Carried ν.node id) s.cases s'.cases

theorem restReg_rename {ν : Naming} (hν : ν.Distinct) (cs : List Call) :
    RestRenamed ν (restReg.run cs).cur (restReg.run (cs.map (renameCall ν))).cur := by
  apply rename_sim restReg restReg (RestRenamed ν) ν
  · exact ⟨fun _ => Iff.rfl, Carried.empty _ _, ⟨fun _ _ => rfl, fun _ _ h => by cases h⟩⟩
  intro s s' c h
  cases c
  case addNode n x y z =>
    refine ⟨?_, h.global, h.cases⟩
    intro m
    simp only [restReg, renameCall, h.nodes m]
    exact or_congr_left ⟨fun e => hν.node e, fun e => e ▸ rfl⟩
  case setNodalRestraint n f =>
    refine ⟨h.nodes, ?_, h.cases⟩
    simp only [restReg, renameCall]
    by_cases hn : s.nodes n
    · have hn' := (h.nodes n).mpr hn
      simp only [hn, hn', and_true]
      exact h.global.setSome hν.node n f
    · have hn' : ¬ s'.nodes (ν.node n) := fun h' => hn ((h.nodes n).mp h')
      simp only [hn, hn', and_false, if_false]
      exact h.global
  case addStaticCase c => exact ⟨h.nodes, h.global, h.cases.set hν.case c (Carried.empty _ _)⟩
  case addModalCase c => exact ⟨h.nodes, h.global, h.cases.set hν.case c (Carried.empty _ _)⟩
  case setLoadcaseNodalRestraint c n f =>
    exact ⟨h.nodes, h.global, h.cases.upd hν.case c fun g g' hg => hg.setSome hν.node n f⟩
  all_goals exact h

theorem inForce_rename {ν : Naming} {s s' : RestReg} (h : RestRenamed ν s s') (c : String) :
    Carried ν.node id (s.inForce c) (s'.inForce (ν.case c)) := by
  unfold RestReg.inForce
  cases hc : s.cases c with
  | none => rw [h.cases.none c hc]; exact h.global
  | some g =>
    obtain ⟨g', hg', hr⟩ := h.cases.some c g hc
    rw [hg']
    by_cases he : ∀ n, g n = none
    · have he' : ∀ m, g' m = none := by
        intro m
        by_cases hm : ∃ n, ν.node n = m
        · obtain ⟨n, rfl⟩ := hm
          rw [hr.fwd, he]; rfl
        · exact hr.off m (fun n hn => hm ⟨n, hn⟩)
      simp only [if_pos he, if_pos he']
      exact h.global
    · have he' : ¬ ∀ m, g' m = none := by
        intro hx
        apply he
        intro n
        have := hx (ν.node n)
        rw [hr.fwd] at this
        simpa using this
      simp only [if_neg he, if_neg he']
      exact hr

structure PatRenamed (ν : Naming) (r r' : PatReg) : Prop where
  node : Carried ν.node id r.node r'.node
  dist : Carried ν.beam id r.dist r'.dist
  conc : Carried ν.beam id r.conc r'.conc

structure LoadsRenamed (ν : Naming) (s s' : CaseReg) : Prop where
  pats : CarriedRel ν.pat (PatRenamed ν) s.pats s'.pats
  cases : CarriedRel ν.case (Carried ν.pat id) s.cases s'.cases

theorem caseReg_rename {ν : Naming} (hν : ν.Distinct) (cs : List Call) :
    LoadsRenamed ν (caseReg.run cs).cur (caseReg.run (cs.map (renameCall ν))).cur := by
  apply rename_sim caseReg caseReg (LoadsRenamed ν) ν
  · exact ⟨⟨fun _ _ => rfl, fun _ _ h => by cases h⟩, ⟨fun _ _ => rfl, fun _ _ h => by cases h⟩⟩
  intro s s' c h
  cases c
  case addLoadpattern p =>
    exact ⟨h.pats.set hν.pat p ⟨Carried.empty _ _, Carried.empty _ _, Carried.empty _ _⟩, h.cases⟩
  case setNodalLoad p n f =>
    exact ⟨h.pats.upd hν.pat p fun r r' hr => ⟨hr.node.setSome hν.node n f, hr.dist, hr.conc⟩, h.cases⟩
  case setBeamLoadDistributed p b pi pj qi2 qj2 qi3 qj3 ti tj =>
    exact ⟨h.pats.upd hν.pat p fun r r' hr => ⟨hr.node, hr.dist.setSome hν.beam b _, hr.conc⟩, h.cases⟩
  case setBeamLoadConcentrated p b F1 F2 F3 M1 M2 M3 r =>
    exact ⟨h.pats.upd hν.pat p fun r r' hr => ⟨hr.node, hr.dist, hr.conc.setSome hν.beam b _⟩, h.cases⟩
  case addStaticCase c => exact ⟨h.pats, h.cases.set hν.case c (Carried.empty _ _)⟩
  case addModalCase c => exact ⟨h.pats, h.cases.set hν.case c (Carried.empty _ _)⟩
  case addCasePattern c p fac =>
    refine ⟨h.pats, ?_⟩
    apply h.cases.upd hν.case c
    intro g g' hg
    cases hp : s.pats p with
    | none =>
      have hp' := h.pats.none p hp
      simp only [hp', Option.isSome_none, Bool.false_eq_true, and_false, if_false]
      exact hg
    | some r =>
      obtain ⟨r', hp', _⟩ := h.pats.some p r hp
      simp only [hp', Option.isSome_some, and_true]
      exact hg.setSome hν.pat p fac
  all_goals exact h

/-- a beam with the new names of its ends -/
def renBeam (ν : Naming) (g : GivenBeam) : GivenBeam := { g with start := ν.node g.start, stop := ν.node g.stop }

structure FrameRenamed (ν : Naming) (s s' : Blueprint) : Prop where
  loc : Carried ν.node id s.loc s'.loc
  mat : Carried ν.mat id s.mat s'.mat
  sec : Carried ν.sec id s.sec s'.sec
  beams : s'.beams = s.beams.map ν.beam
  beam : Carried ν.beam (renBeam ν) s.beam s'.beam

theorem addBeam_rename {ν : Naming} (hν : ν.Distinct) {s s' : Blueprint} (h : FrameRenamed ν s s') (b i j : String) (g : Option GivenSec) :
    FrameRenamed ν (s.addBeam b i j g) (s'.addBeam (ν.beam b) (ν.node i) (ν.node j) g) := by
  unfold Blueprint.addBeam
  rw [h.loc.fwd i, h.loc.fwd j]
  cases h1 : s.loc i with
  | none => exact h
  | some p =>
    cases h2 : s.loc j with
    | none => exact h
    | some q =>
      cases g with
      | none => exact h
      | some g =>
        simp only [Option.map_some, id]
        by_cases ha : Acceptable p q
        · rw [if_pos ha, if_pos ha]
          refine ⟨h.loc, h.mat, h.sec, ?_, h.beam.setSome hν.beam b ⟨i, j, p, q, g⟩⟩
          simp only [h.beams]
          by_cases hb : b ∈ s.beams
          · rw [if_pos hb, if_pos (List.mem_map_of_mem hb)]
          · rw [if_neg hb, if_neg, List.map_append, List.map_singleton]
            intro h'
            obtain ⟨k, hk, e⟩ := List.mem_map.mp h'
            exact hb (hν.beam e ▸ hk)
        · rw [if_neg ha, if_neg ha]; exact h

theorem sectionCall_rename (ν : Naming) (c : Call) : sectionCall (renameCall ν c) = (sectionCall c).map fun x => (ν.sec x.1, ν.mat x.2) := by
  cases c <;> rfl

theorem shape_rename (ν : Naming) (mat : GivenMat) (c : Call) : shapeConsts mat (renameCall ν c) = shapeConsts mat c := by
  cases c <;> rfl

theorem section_rename {ν : Naming} (hν : ν.Distinct) {s s' : Blueprint} (h : FrameRenamed ν s s') (c : Call) :
    FrameRenamed ν
      (match sectionCall c with
        | some (n, m) => match (s.mat m).bind fun mat => shapeConsts mat c with
          | some g => { s with sec := fun k => if k = n then some g else s.sec k }
          | none => s
        | none => s)
      (match sectionCall (renameCall ν c) with
        | some (n, m) => match (s'.mat m).bind fun mat => shapeConsts mat (renameCall ν c) with
          | some g => { s' with sec := fun k => if k = n then some g else s'.sec k }
          | none => s'
        | none => s') := by
  rw [sectionCall_rename]
  cases sectionCall c with
  | none => exact h
  | some nm =>
    obtain ⟨n, m⟩ := nm
    simp only [Option.map_some, h.mat.fwd m, shape_rename, Option.map_id, id]
    cases (s.mat m).bind fun mat => shapeConsts mat c with
    | none => exact h
    | some g => exact ⟨h.loc, h.mat, h.sec.setSome hν.sec n g, h.beams, h.beam⟩

theorem blueprint_rename {ν : Naming} (hν : ν.Distinct) (cs : List Call) :
    FrameRenamed ν (blueprint.run cs).cur (blueprint.run (cs.map (renameCall ν))).cur := by
  apply rename_sim blueprint blueprint (FrameRenamed ν) ν
  · exact ⟨Carried.empty _ _, Carried.empty _ _, Carried.empty _ _, rfl, Carried.empty _ _⟩
  intro s s' c h
  have hsec := section_rename hν h c
  cases c
  case addNode n x y z => exact ⟨h.loc.setSome hν.node n _, h.mat, h.sec, h.beams, h.beam⟩
  case addIsotropicMaterial n rho E mu a => exact ⟨h.loc, h.mat.setSome hν.mat n _, h.sec, h.beams, h.beam⟩
  case addBeam b i j sec =>
    simp only [blueprint, renameCall, h.sec.fwd sec, Option.map_id, id]
    exact addBeam_rename hν h b i j _
  case addSimpleBeam b i j E mu A I2 I3 J rho => exact addBeam_rename hν h b i j (some _)
  all_goals exact hsec

/-! mechanics -/

/-- a displacement state of the renamed nodes, read with the old names -/
def oldNames (ν : Naming) (v : State) : State := fun n => v (ν.node n)

theorem len_ren (ν : Naming) (g : GivenBeam) : (renBeam ν g).len = g.len := rfl
theorem sec_ren (ν : Naming) (g : GivenBeam) : (renBeam ν g).sec = g.sec := rfl
theorem axial_ren (ν : Naming) (g : GivenBeam) (u : State) : (renBeam ν g).axial u = g.axial (oldNames ν u) := rfl
theorem twist_ren (ν : Naming) (g : GivenBeam) (u : State) : (renBeam ν g).twist u = g.twist (oldNames ν u) := rfl
theorem defl2_ren (ν : Naming) (g : GivenBeam) (u : State) : (renBeam ν g).defl2 u = g.defl2 (oldNames ν u) := rfl
theorem defl3_ren (ν : Naming) (g : GivenBeam) (u : State) : (renBeam ν g).defl3 u = g.defl3 (oldNames ν u) := rfl

theorem internal_ren (ν : Naming) (g : GivenBeam) (v u : State) :
    (renBeam ν g).internal v u = g.internal (oldNames ν v) (oldNames ν u) := by
  unfold GivenBeam.internal
  rw [len_ren, sec_ren, axial_ren, axial_ren, twist_ren, twist_ren, defl2_ren, defl2_ren, defl3_ren, defl3_ren]

theorem distWork_ren (ν : Naming) (g : GivenBeam) (w : Vec 8) (v : State) :
    (renBeam ν g).distWork w v = g.distWork w (oldNames ν v) := by
  unfold GivenBeam.distWork
  rw [len_ren, axial_ren, twist_ren, defl2_ren, defl3_ren]

theorem concWork_ren (ν : Naming) (g : GivenBeam) (w : Vec 7) (v : State) :
    (renBeam ν g).concWork w v = g.concWork w (oldNames ν v) := by
  unfold GivenBeam.concWork
  rw [len_ren, axial_ren, twist_ren, defl2_ren, defl3_ren]

theorem sum_rename (ν : String → String) (l : List String) (f f' : String → ℝ) (h : ∀ b, f' (ν b) = f b) :
    ((l.map ν).map f').sum = (l.map f).sum := by
  rw [List.map_map]
  congr 1
  exact List.map_congr_left fun b _ => h b

theorem internal_rename {ν : Naming} {s s' : Blueprint} (h : FrameRenamed ν s s') (v u : State) :
    s'.internal v u = s.internal (oldNames ν v) (oldNames ν u) := by
  unfold Blueprint.internal
  rw [h.beams]
  apply sum_rename
  intro b
  rw [h.beam.fwd b]
  cases s.beam b with
  | none => rw [Option.map_none, Option.elim_none, Option.elim_none]
  | some g => rw [Option.map_some, Option.elim_some, Option.elim_some, internal_ren]

theorem pattern_rename {ν : Naming} {s s' : Blueprint} (h : FrameRenamed ν s s') (nodes : List String) {r r' : PatReg} (hr : PatRenamed ν r r')
    (v : State) : s'.patternWork (nodes.map ν.node) r' v = s.patternWork nodes r (oldNames ν v) := by
  unfold Blueprint.patternWork
  rw [h.beams]
  congr 1
  · apply sum_rename
    intro n
    rw [hr.node.fwd n, Option.map_id, id]
    rfl
  · apply sum_rename
    intro b
    rw [h.beam.fwd b, hr.dist.fwd b, hr.conc.fwd b, Option.map_id, Option.map_id, id, id]
    cases s.beam b with
    | none => rw [Option.map_none, Option.elim_none, Option.elim_none]
    | some g =>
      rw [Option.map_some, Option.elim_some, Option.elim_some]
      simp only [distWork_ren, concWork_ren]

theorem caseWork_rename {ν : Naming} {s s' : Blueprint} (h : FrameRenamed ν s s') (nodes : List String) {r r' : CaseReg} (hr : LoadsRenamed ν r r')
    {g g' : String → Option ℝ} (hg : Carried ν.pat id g g') (names : List String) (v : State) :
    s'.caseWork (nodes.map ν.node) r' g' (names.map ν.pat) v = s.caseWork nodes r g names (oldNames ν v) := by
  unfold Blueprint.caseWork
  apply sum_rename
  intro p
  rw [hg.fwd p, Option.map_id, id]
  cases hp : r.pats p with
  | none => rw [hr.pats.none p hp, Option.elim_none, Option.elim_none]
  | some q =>
    obtain ⟨q', hq', hqq⟩ := hr.pats.some p q hp
    rw [hq', Option.elim_some, Option.elim_some, pattern_rename h nodes hqq]

end Hyperstatic
