import Verif.Lemmas.History
import Mathlib.Tactic.Ring
import Mathlib.Tactic.NormNum
import Mathlib.Tactic.Linarith

namespace Hyperstatic

theorem Except.bind_ok_iff {ε α β : Type _} (x : Except ε α) (f : α → Except ε β) (b : β) :
    (x >>= f) = .ok b ↔ ∃ a, x = .ok a ∧ f a = .ok b := by
  cases x <;> simp [bind, Except.bind]

theorem Except.bind_ok {ε α β : Type _} (a : α) (f : α → Except ε β) :
    (Except.ok a >>= f) = f a := rfl

theorem Except.bind_error {ε α β : Type _} (e : ε) (f : α → Except ε β) :
    ((Except.error e : Except ε α) >>= f) = .error e := rfl

theorem Except.pure_eq_ok {ε α : Type _} (a : α) : (pure a : Except ε α) = .ok a := rfl

theorem Dict.getItem_of_some {α : Type _} {d : Dict α} {k : String} {v : α} (h : d.get? k = some v) :
    d.getItem k = .ok v := by simp [Dict.getItem, h]

theorem Dict.getItem_of_none {α : Type _} {d : Dict α} {k : String} (h : d.get? k = none) :
    d.getItem k = .error .keyError := by simp [Dict.getItem, h]

/-- The node object built by `Node.mk?`. -/
def stdNode (name : String) (x y z : ℝ) : Node :=
  ⟨name, ⟨⟨x, y, z⟩, ⟨1, 0, 0⟩, ⟨0, 1, 0⟩, ⟨0, 0, 1⟩⟩, fun _ => 0⟩

@[simp] theorem V3.sub_def (a b : V3) : a - b = ⟨a.x - b.x, a.y - b.y, a.z - b.z⟩ := rfl
@[simp] theorem V3.add_def (a b : V3) : a + b = ⟨a.x + b.x, a.y + b.y, a.z + b.z⟩ := rfl
@[simp] theorem V3.neg_def (a : V3) : -a = ⟨-a.x, -a.y, -a.z⟩ := rfl
@[simp] theorem V3.smul_def (c : ℝ) (a : V3) : c • a = ⟨c * a.x, c * a.y, c * a.z⟩ := rfl
@[simp] theorem V3.zero_def : (0 : V3) = ⟨0, 0, 0⟩ := rfl

theorem absTol_pos : 0 < absTol := by norm_num [absTol]
theorem absTol_lt_one : absTol < 1 := by norm_num [absTol]

theorem Node.mk?_eq (name : String) (x y z : ℝ) : Node.mk? name x y z = .ok (stdNode name x y z) := by
  have h : ¬ max (max |(0:ℝ)| |0|) |1| < absTol := by
    simp; exact absTol_lt_one.le
  unfold Node.mk? Csys.mk?
  simp only [V3.sub_def, V3.cross, V3.maxAbs, V3.unit, V3.norm]
  norm_num
  simp only [absTol_lt_one.not_gt, if_false, stdNode]
  rfl

theorem FeModel.addNode_eq (m : FeModel) (name : String) (x y z : ℝ) :
    m.addNode name x y z = .ok ({ m with
      hidNode := m.hidNode.set name m.nodes.length
      nodes := m.nodes.set name (stdNode name x y z) }, m.nodes.length) := by
  unfold FeModel.addNode
  rw [Node.mk?_eq]
  rfl

theorem edit_addNode (a : Api) (name : String) (x y z : ℝ) :
    a.edit (.addNode name x y z) = .ok { a with model := { a.model with
      hidNode := a.model.hidNode.set name a.model.nodes.length
      nodes := a.model.nodes.set name (stdNode name x y z) } } := by
  simp only [Api.edit, FeModel.addNode_eq]
  rfl

end Hyperstatic

namespace Hyperstatic

/-- Effect of adding a beam object. -/
def withBeam (a : Api) (name : String) (b : BeamElm) : Api :=
  { a with model := { a.model with
      hidBeam := a.model.hidBeam.set name a.model.beams.length
      beams := a.model.beams.set name b } }

/-- Effect of adding a shell object. -/
def withShell (a : Api) (name : String) (s : ShellElm) : Api :=
  { a with model := { a.model with
      hidShell := a.model.hidShell.set name a.model.shells.length
      shells := a.model.shells.set name s } }

/-- Effect of storing a beam section. -/
def withSec (a : Api) (name : String) (s : BeamSection) : Api :=
  { a with model := { a.model with beamSection := a.model.beamSection.set name s } }

/-- the section built by each of the section calls -/
def SecBuild (a : Api) (name material : String) (build : Material → Except PyErr BeamSection)
    (a' : Api) : Prop :=
  ∃ mat sec, a.model.material.get? material = some mat ∧ build mat = .ok sec ∧ a' = withSec a name sec

/-- the shell built by `add_shell` -/
def ShellBuild (a : Api) (name node1 node2 node3 node4 : String) (sec : Option String) (e : ShellElm) : Prop :=
  match sec with
  | some sec => ∃ s n0 n1 n2 n3, a.model.shellSection.get? node1 = some s ∧ a.model.nodes.get? node2 = some n0 ∧
      a.model.nodes.get? node3 = some n1 ∧ a.model.nodes.get? node4 = some n2 ∧ a.model.nodes.get? sec = some n3 ∧
      ShellElm.dkgq? name s n0 n1 n2 n3 = .ok e
  | none => ∃ s n0 n1 n2, a.model.shellSection.get? node1 = some s ∧ a.model.nodes.get? node2 = some n0 ∧
      a.model.nodes.get? node3 = some n1 ∧ a.model.nodes.get? node4 = some n2 ∧ ShellElm.dkt? name s n0 n1 n2 = .ok e

/-- Effect of a pattern update. -/
def PatUpd (a : Api) (pattern : String) (g : LoadPattern → LoadPattern) (a' : Api) : Prop :=
  ∃ ref p, a.loadpatterns.get? pattern = some ref ∧ a.heap[ref]? = some p ∧
    a' = { a with heap := a.heap.set ref (g p) }

/-- Exact effect of each successful call. -/
def EditEff (a : Api) (c : Call) (a' : Api) : Prop :=
  match c with
  | .addNode name x y z => a' = { a with model := { a.model with
      hidNode := a.model.hidNode.set name a.model.nodes.length
      nodes := a.model.nodes.set name (stdNode name x y z) } }
  | .setNodalMass name mass => ∃ nd, a.model.nodes.get? name = some nd ∧
      a' = { a with model := { a.model with nodes := a.model.nodes.set name { nd with mass := mass } } }
  | .addIsotropicMaterial name rho E mu al =>
      a' = { a with model := { a.model with material := a.model.material.set name ⟨name, rho, E, mu, al⟩ } }
  | .addBeamSectionGeneral name material A As2 As3 I22 I33 J W22 W33 =>
      SecBuild a name material (fun mat => .ok (generalSection name mat A As2 As3 I22 I33 J W22 W33)) a'
  | .addBeamSectionRectangle name material h b =>
      SecBuild a name material (fun mat => rectangleSection name mat h b) a'
  | .addBeamSectionI name material h b tw tf =>
      SecBuild a name material (fun mat => iSection name mat h b tw tf) a'
  | .addBeamSectionBox name material h b tw tf =>
      SecBuild a name material (fun mat => boxSection name mat h b tw tf) a'
  | .addBeamSectionCircle name material d =>
      SecBuild a name material (fun mat => circleSection name mat d) a'
  | .addShellSection name material t eleType => ∃ mat, a.model.material.get? material = some mat ∧
      a' = { a with model := { a.model with
        shellSection := a.model.shellSection.set name ⟨name, mat, t, eleType⟩ } }
  | .addBeamSectionPipe name material d t =>
      SecBuild a name material (fun mat => rectangleSection name mat d t) a'
  | .addBeam name start stop sec => ∃ n0 n1 s b, a.model.nodes.get? start = some n0 ∧
      a.model.nodes.get? stop = some n1 ∧ a.model.beamSection.get? sec = some s ∧
      BeamElm.mk? name n0 n1 (.sec s) = .ok b ∧ a' = withBeam a name b
  | .addSimpleBeam name start stop E mu A I2 I3 J rho => ∃ n0 n1 b, a.model.nodes.get? start = some n0 ∧
      a.model.nodes.get? stop = some n1 ∧
      BeamElm.mk? name n0 n1 (.simple E mu A I2 I3 J rho) = .ok b ∧ a' = withBeam a name b
  | .setBeamRelease _ _ => False
  | .addShell name node1 node2 node3 node4 sec => ∃ e, ShellBuild a name node1 node2 node3 node4 sec e ∧ a' = withShell a name e
  | .addLoadpattern name => a' = { a with
        heap := a.heap ++ [LoadPattern.new name]
        loadpatterns := a.loadpatterns.set name a.heap.length }
  | .setNodalRestraint node flags =>
      a' = if a.model.nodes.contains node then
        { a with model := { a.model with restraints := a.model.restraints.set node flags } } else a
  | .setLoadcaseNodalRestraint case node flags => ∃ lc, a.loadcases.get? case = some lc ∧
      a' = { a with loadcases := a.loadcases.set case (lc.setNodalRestraint node flags) }
  | .setNodalLoad pattern node f => PatUpd a pattern (fun p => p.setNodalLoad node f) a'
  | .setBeamLoadDistributed pattern beam pi pj qi2 qj2 qi3 qj3 ti tj =>
      PatUpd a pattern (fun p => p.setBeamLoadDist beam pi pj qi2 qj2 qi3 qj3 ti tj) a'
  | .setBeamLoadConcentrated pattern beam F1 F2 F3 M1 M2 M3 r =>
      PatUpd a pattern (fun p => p.setBeamLoadConc beam F1 F2 F3 M1 M2 M3 r) a'
  | .addStaticCase name =>
      a' = { a with loadcases := a.loadcases.set name (LoadCase.new name .static) }
  | .addModalCase name =>
      a' = { a with loadcases := a.loadcases.set name (LoadCase.new name .modal) }
  | .addCasePattern case pattern factor => ∃ lc ref p, a.loadcases.get? case = some lc ∧
      a.loadpatterns.get? pattern = some ref ∧ a.heap[ref]? = some p ∧
      a' = { a with loadcases := a.loadcases.set case (lc.addPattern p.name ref factor) }
  | _ => a' = a

theorem deref_ok_iff (h : PatHeap) (r : PatRef) (p : LoadPattern) :
    h.deref r = .ok p ↔ h[r]? = some p := by
  unfold PatHeap.deref
  cases h[r]? <;> simp

theorem secBuild_ok_iff (a : Api) (name material : String) (build : Material → Except PyErr BeamSection)
    (a' : Api) :
    ((a.model.addBeamSection name material build) >>= fun m => pure { a with model := m }) = .ok a' ↔
      SecBuild a name material build a' := by
  unfold FeModel.addBeamSection SecBuild withSec
  simp only [Except.bind_ok_iff, Except.pure_eq_ok, Except.ok.injEq, Dict.getItem_eq_ok_iff]
  constructor
  · rintro ⟨m, ⟨mat, h1, sec, h2, rfl⟩, rfl⟩
    exact ⟨mat, sec, h1, h2, rfl⟩
  · rintro ⟨mat, sec, h1, h2, rfl⟩
    exact ⟨_, ⟨mat, h1, sec, h2, rfl⟩, rfl⟩

theorem patUpd_ok_iff (a : Api) (pattern : String) (g : LoadPattern → LoadPattern) (a' : Api) :
    a.updPattern pattern g = .ok a' ↔ PatUpd a pattern g a' := by
  unfold Api.updPattern PatUpd
  simp only [Except.bind_ok_iff, Except.pure_eq_ok, Except.ok.injEq, Dict.getItem_eq_ok_iff,
    deref_ok_iff]
  constructor
  · rintro ⟨ref, h1, p, h2, rfl⟩
    exact ⟨ref, p, h1, h2, rfl⟩
  · rintro ⟨ref, p, h1, h2, rfl⟩
    exact ⟨ref, h1, p, h2, rfl⟩

theorem edit_ok_iff (a : Api) (c : Call) (a' : Api) : a.edit c = .ok a' ↔ EditEff a c a' := by
  cases c
  case addNode => rw [edit_addNode]; simp [EditEff, eq_comm]
  case setNodalMass name mass =>
    simp only [Api.edit, FeModel.setNodalMass, Except.bind_ok_iff, Except.pure_eq_ok, Except.ok.injEq,
      Dict.getItem_eq_ok_iff, EditEff]
    constructor
    · rintro ⟨m, ⟨nd, h1, rfl⟩, rfl⟩; exact ⟨nd, h1, rfl⟩
    · rintro ⟨nd, h1, rfl⟩; exact ⟨_, ⟨nd, h1, rfl⟩, rfl⟩
  case addIsotropicMaterial =>
    simp [Api.edit, EditEff, Except.pure_eq_ok, FeModel.addMaterial, eq_comm]
  case addBeamSectionGeneral => exact secBuild_ok_iff ..
  case addBeamSectionRectangle => exact secBuild_ok_iff ..
  case addBeamSectionI => exact secBuild_ok_iff ..
  case addBeamSectionBox => exact secBuild_ok_iff ..
  case addBeamSectionCircle => exact secBuild_ok_iff ..
  case addBeamSectionPipe => exact secBuild_ok_iff ..
  case addShellSection =>
    simp only [Api.edit, FeModel.addShellSection, Except.bind_ok_iff, Except.pure_eq_ok, Except.ok.injEq,
      Dict.getItem_eq_ok_iff, EditEff]
    constructor
    · rintro ⟨m, ⟨nd, h1, rfl⟩, rfl⟩; exact ⟨nd, h1, rfl⟩
    · rintro ⟨nd, h1, rfl⟩; exact ⟨_, ⟨nd, h1, rfl⟩, rfl⟩
  case addBeam =>
    simp only [Api.edit, FeModel.addBeam, Except.bind_ok_iff, Except.pure_eq_ok, Except.ok.injEq,
      Dict.getItem_eq_ok_iff, EditEff, FeModel.storeBeam]
    constructor
    · rintro ⟨⟨m, k⟩, ⟨n0, h0, n1, h1, s, h2, b, h3, h4⟩, rfl⟩
      simp at h4
      obtain ⟨rfl, rfl⟩ := h4
      exact ⟨n0, n1, s, b, h0, h1, h2, h3, rfl⟩
    · rintro ⟨n0, n1, s, b, h0, h1, h2, h3, rfl⟩
      exact ⟨_, ⟨n0, h0, n1, h1, s, h2, b, h3, rfl⟩, rfl⟩
  case addSimpleBeam =>
    simp only [Api.edit, FeModel.addSimpleBeam, Except.bind_ok_iff, Except.pure_eq_ok, Except.ok.injEq,
      Dict.getItem_eq_ok_iff, EditEff, FeModel.storeBeam]
    constructor
    · rintro ⟨⟨m, k⟩, ⟨n0, h0, n1, h1, b, h3, h4⟩, rfl⟩
      simp at h4
      obtain ⟨rfl, rfl⟩ := h4
      exact ⟨n0, n1, b, h0, h1, h3, rfl⟩
    · rintro ⟨n0, n1, b, h0, h1, h3, rfl⟩
      exact ⟨_, ⟨n0, h0, n1, h1, b, h3, rfl⟩, rfl⟩
  case setBeamRelease =>
    simp only [Api.edit, FeModel.setBeamReleases, EditEff, iff_false]
    intro h; cases h
  case addShell name node1 node2 node3 node4 sec =>
    cases sec with
    | some sec =>
      simp only [Api.edit, FeModel.addShell, Except.bind_ok_iff, Except.pure_eq_ok, Except.ok.injEq,
        Dict.getItem_eq_ok_iff, EditEff, ShellBuild]
      constructor
      · rintro ⟨⟨m, k⟩, ⟨s, h0, n0, h1, n1, h2, n2, h3, n3, h4, e, h5, h6⟩, rfl⟩
        simp at h6
        obtain ⟨rfl, rfl⟩ := h6
        exact ⟨e, ⟨s, n0, n1, n2, n3, h0, h1, h2, h3, h4, h5⟩, rfl⟩
      · rintro ⟨e, ⟨s, n0, n1, n2, n3, h0, h1, h2, h3, h4, h5⟩, rfl⟩
        exact ⟨_, ⟨s, h0, n0, h1, n1, h2, n2, h3, n3, h4, e, h5, rfl⟩, rfl⟩
    | none =>
      simp only [Api.edit, FeModel.addShell, Except.bind_ok_iff, Except.pure_eq_ok, Except.ok.injEq,
        Dict.getItem_eq_ok_iff, EditEff, ShellBuild]
      constructor
      · rintro ⟨⟨m, k⟩, ⟨s, h0, n0, h1, n1, h2, n2, h3, e, h5, h6⟩, rfl⟩
        simp at h6
        obtain ⟨rfl, rfl⟩ := h6
        exact ⟨e, ⟨s, n0, n1, n2, h0, h1, h2, h3, h5⟩, rfl⟩
      · rintro ⟨e, ⟨s, n0, n1, n2, h0, h1, h2, h3, h5⟩, rfl⟩
        exact ⟨_, ⟨s, h0, n0, h1, n1, h2, n2, h3, e, h5, rfl⟩, rfl⟩
  case addLoadpattern => simp [Api.edit, EditEff, Except.pure_eq_ok, eq_comm]
  case setNodalRestraint node flags =>
    simp only [Api.edit, EditEff, Except.pure_eq_ok, Except.ok.injEq, FeModel.setNodalRestraint]
    by_cases h : a.model.nodes.contains node
    · simp only [h, if_true]; exact eq_comm
    · simp only [h]; exact eq_comm
  case setLoadcaseNodalRestraint =>
    simp only [Api.edit, Except.bind_ok_iff, Except.pure_eq_ok, Except.ok.injEq,
      Dict.getItem_eq_ok_iff, EditEff]
    constructor
    · rintro ⟨nd, h1, rfl⟩; exact ⟨nd, h1, rfl⟩
    · rintro ⟨nd, h1, rfl⟩; exact ⟨nd, h1, rfl⟩
  case setNodalLoad => exact patUpd_ok_iff ..
  case setBeamLoadDistributed => exact patUpd_ok_iff ..
  case setBeamLoadConcentrated => exact patUpd_ok_iff ..
  case addStaticCase => simp [Api.edit, EditEff, Except.pure_eq_ok, eq_comm]
  case addModalCase => simp [Api.edit, EditEff, Except.pure_eq_ok, eq_comm]
  case addCasePattern =>
    simp only [Api.edit, Except.bind_ok_iff, Except.pure_eq_ok, Except.ok.injEq,
      Dict.getItem_eq_ok_iff, deref_ok_iff, EditEff]
    constructor
    · rintro ⟨lc, h1, ref, h2, p, h3, rfl⟩; exact ⟨lc, ref, p, h1, h2, h3, rfl⟩
    · rintro ⟨lc, ref, p, h1, h2, h3, rfl⟩; exact ⟨lc, h1, ref, h2, p, h3, rfl⟩
  all_goals simp [Api.edit, EditEff, Except.pure_eq_ok, eq_comm]

end Hyperstatic
