import Verif.Props.Csys
import Verif.Lemmas.Demo

/-
C42, C49: acceptance of shells.
-/

namespace Hyperstatic
open Spec

namespace V3

theorem abs_y_le_norm (a : V3) : |a.y| ≤ a.norm := by
  unfold norm
  apply Real.abs_le_sqrt
  nlinarith [mul_self_nonneg a.x, mul_self_nonneg a.z]

theorem abs_z_le_norm (a : V3) : |a.z| ≤ a.norm := by
  unfold norm
  apply Real.abs_le_sqrt
  nlinarith [mul_self_nonneg a.x, mul_self_nonneg a.y]

theorem ez_unit : ez.unit = ez := unit_of_dot_one (by norm_num [ez, dot])
theorem ey_unit : ey.unit = ey := unit_of_dot_one (by norm_num [ey, dot])

theorem ez_ne : ez ≠ 0 := by intro h; have := congrArg V3.z h; simp [ez] at this
theorem ey_ne : ey ≠ 0 := by intro h; have := congrArg V3.y h; simp [ey] at this

theorem unit_ne {a : V3} (h : a ≠ 0) : a.unit ≠ 0 := by
  intro e
  have := unit_dot h
  rw [e] at this
  simp [dot] at this

theorem unit_unit {a : V3} (h : a ≠ 0) : a.unit.unit = a.unit := unit_of_dot_one (unit_dot h)

end V3

/-- a direction close to the vertical is not close to the second axis -/
theorem not_near_both {n : V3} (h : V3.norm (n - ez) < absTol ∨ V3.norm (n + ez) < absTol) :
    ¬ (V3.norm (n - ey) < absTol ∨ V3.norm (n + ey) < absTol) := by
  have ht : absTol < 1 / 2 := by norm_num [absTol]
  have h1 : |n.y| < absTol := by
    rcases h with h | h
    · exact lt_of_le_of_lt (by simpa [ez] using V3.abs_y_le_norm (n - ez)) h
    · exact lt_of_le_of_lt (by simpa [ez] using V3.abs_y_le_norm (n + ez)) h
  rintro (h2 | h2)
  · have := lt_of_le_of_lt (by simpa [ey] using V3.abs_y_le_norm (n - ey)) h2
    rw [abs_lt] at h1 this
    linarith [this.1, h1.2]
  · have := lt_of_le_of_lt (by simpa [ey] using V3.abs_y_le_norm (n + ey)) h2
    rw [abs_lt] at h1 this
    linarith [this.2, h1.1]

/-! ### C42 A shell is accepted independently of its orientation -/

/-- Normal of the first three corners, as the constructors compute it. -/
noncomputable def cornerNormal (pi pj pk : V3) : V3 := V3.cross (pi - pj) (pj - pk)

/-- A quadrilateral is always accepted, in any node order; if its first three corners are not collinear its local system is right-handed
with the third axis normal to the plane of these corners. -/
theorem C42_quad_partial (name : String) (s : ShellSection) (a b c d : Node) :
    ∃ e, ShellElm.dkgq? name s a b c d = .ok e ∧ e.nodes.map Prod.fst = [a.name, b.name, c.name, d.name] ∧
      (cornerNormal a.loc b.loc c.loc ≠ 0 → ∃ cs, e.csys = some cs ∧ RightHanded cs ∧
        cs.z = (cornerNormal a.loc b.loc c.loc).unit) := by
  by_cases hn : cornerNormal a.loc b.loc c.loc = 0
  · have h0 : V3.norm (V3.cross (a.loc - b.loc) (b.loc - c.loc)) = 0 := (V3.norm_eq_zero_iff _).mpr hn
    refine ⟨⟨name, s, [(a.name, a.loc), (b.name, b.loc), (c.name, c.loc), (d.name, d.loc)], none⟩, ?_, rfl, fun h => absurd hn h⟩
    unfold ShellElm.dkgq? quadCsys
    simp only [h0, if_true]
    rfl
  · have h0 : ¬ V3.norm (V3.cross (a.loc - b.loc) (b.loc - c.loc)) = 0 := fun h => hn ((V3.norm_eq_zero_iff _).mp h)
    have hdef : ShellElm.dkgq? name s a b c d = (do
        let cs ← (if V3.norm ((cornerNormal a.loc b.loc c.loc).unit - ez) < absTol ∨
            V3.norm ((cornerNormal a.loc b.loc c.loc).unit + ez) < absTol
          then Csys.createByNormal ⟨(a.loc.x + b.loc.x + c.loc.x + d.loc.x) / 4, (a.loc.y + b.loc.y + c.loc.y + d.loc.y) / 4,
            (a.loc.z + b.loc.z + c.loc.z + d.loc.z) / 4⟩ (cornerNormal a.loc b.loc c.loc).unit ey
          else Csys.createByNormal ⟨(a.loc.x + b.loc.x + c.loc.x + d.loc.x) / 4, (a.loc.y + b.loc.y + c.loc.y + d.loc.y) / 4,
            (a.loc.z + b.loc.z + c.loc.z + d.loc.z) / 4⟩ (cornerNormal a.loc b.loc c.loc).unit ez)
        pure (ShellElm.mk name s [(a.name, a.loc), (b.name, b.loc), (c.name, c.loc), (d.name, d.loc)] cs)) := by
      unfold ShellElm.dkgq? quadCsys
      simp only [h0, if_false]
      rfl
    rw [hdef]
    have hu := V3.unit_ne hn
    split
    · rename_i hv
      obtain ⟨cs, h1, h2, _, h4, _⟩ := (createByNormal_cases
        ⟨(a.loc.x + b.loc.x + c.loc.x + d.loc.x) / 4, (a.loc.y + b.loc.y + c.loc.y + d.loc.y) / 4,
          (a.loc.z + b.loc.z + c.loc.z + d.loc.z) / 4⟩ (cornerNormal a.loc b.loc c.loc).unit ey hu V3.ey_ne).2
        (by rw [V3.unit_unit hn, V3.ey_unit]; exact not_near_both hv)
      exact ⟨_, by rw [h1]; rfl, rfl, fun _ => ⟨cs, rfl, h2, by rw [h4, V3.unit_unit hn]⟩⟩
    · rename_i hv
      obtain ⟨cs, h1, h2, _, h4, _⟩ := (createByNormal_cases
        ⟨(a.loc.x + b.loc.x + c.loc.x + d.loc.x) / 4, (a.loc.y + b.loc.y + c.loc.y + d.loc.y) / 4,
          (a.loc.z + b.loc.z + c.loc.z + d.loc.z) / 4⟩ (cornerNormal a.loc b.loc c.loc).unit ez hu V3.ez_ne).2
        (by rw [V3.unit_unit hn, V3.ez_unit]; exact hv)
      exact ⟨_, by rw [h1]; rfl, rfl, fun _ => ⟨cs, rfl, h2, by rw [h4, V3.unit_unit hn]⟩⟩

/-- Exact acceptance of triangles: rejected exactly if the normal points downwards, to tolerance. -/
theorem C42_tria_partial (name : String) (s : ShellSection) (a b c : Node) (hn : cornerNormal a.loc b.loc c.loc ≠ 0) :
    ((∃ err, ShellElm.dkt? name s a b c = .error err) ↔ V3.norm ((cornerNormal a.loc b.loc c.loc).unit + ez) < absTol) ∧
    ∀ e, ShellElm.dkt? name s a b c = .ok e → e.nodes.map Prod.fst = [a.name, b.name, c.name] ∧
      ∃ cs, e.csys = some cs ∧ RightHanded cs ∧ cs.z = (cornerNormal a.loc b.loc c.loc).unit := by
  have h0 : ¬ V3.norm (V3.cross (a.loc - b.loc) (b.loc - c.loc)) = 0 := fun h => hn ((V3.norm_eq_zero_iff _).mp h)
  have hu := V3.unit_ne hn
  have hdef : ShellElm.dkt? name s a b c = (do
      let cs ← (if V3.norm ((cornerNormal a.loc b.loc c.loc).unit - ez) < absTol
        then Csys.createByNormal ⟨(a.loc.x + b.loc.x + c.loc.x) / 3, (a.loc.y + b.loc.y + c.loc.y) / 3,
          (a.loc.z + b.loc.z + c.loc.z) / 3⟩ (cornerNormal a.loc b.loc c.loc).unit ey
        else Csys.createByNormal ⟨(a.loc.x + b.loc.x + c.loc.x) / 3, (a.loc.y + b.loc.y + c.loc.y) / 3,
          (a.loc.z + b.loc.z + c.loc.z) / 3⟩ (cornerNormal a.loc b.loc c.loc).unit ez)
      pure (ShellElm.mk name s [(a.name, a.loc), (b.name, b.loc), (c.name, c.loc)] cs)) := by
    unfold ShellElm.dkt? triaCsys
    simp only [h0, if_false]
    rfl
  rw [hdef]
  set O : V3 := ⟨(a.loc.x + b.loc.x + c.loc.x) / 3, (a.loc.y + b.loc.y + c.loc.y) / 3, (a.loc.z + b.loc.z + c.loc.z) / 3⟩
  set n := (cornerNormal a.loc b.loc c.loc).unit with hndef
  have hnu : n.unit = n := V3.unit_unit hn
  have ht : absTol < 1 / 2 := by norm_num [absTol]
  by_cases hv : V3.norm (n - ez) < absTol
  · rw [if_pos hv]
    obtain ⟨cs, h1, h2, _, h4, _⟩ := (createByNormal_cases O n ey hu V3.ey_ne).2
        (by rw [hnu, V3.ey_unit]; exact not_near_both (Or.inl hv))
    have hnot : ¬ V3.norm (n + ez) < absTol := by
      intro h
      have e1 := lt_of_le_of_lt (by simpa [ez] using V3.abs_z_le_norm (n - ez)) hv
      have e2 := lt_of_le_of_lt (by simpa [ez] using V3.abs_z_le_norm (n + ez)) h
      rw [abs_lt] at e1 e2
      linarith [e1.1, e2.2]
    rw [h1]
    refine ⟨⟨?_, fun h => absurd h hnot⟩, ?_⟩
    · rintro ⟨err, he⟩; cases he
    · intro e he
      cases he
      exact ⟨rfl, cs, rfl, h2, by rw [h4, hnu]⟩
  · rw [if_neg hv]
    obtain ⟨h1, h2⟩ := createByNormal_cases O n ez hu V3.ez_ne
    rw [hnu, V3.ez_unit] at h1 h2
    by_cases hd : V3.norm (n + ez) < absTol
    · obtain ⟨err, he⟩ := h1 (Or.inr hd)
      rw [he]
      refine ⟨⟨fun _ => hd, fun _ => ⟨err, rfl⟩⟩, ?_⟩
      intro e he'; cases he'
    · obtain ⟨cs, h3, h4, _, h5, _⟩ := h2 (by rintro (h | h); exacts [hv h, hd h])
      rw [h3]
      refine ⟨⟨?_, fun h => absurd h hd⟩, ?_⟩
      · rintro ⟨err, he⟩; cases he
      · intro e he
        cases he
        exact ⟨rfl, cs, rfl, h4, h5⟩

/-- The property fails for triangles: with its nodes in one order a horizontal triangle is accepted, in the other it is not. -/
theorem C42_false : ¬ ∀ (name : String) (s : ShellSection) (a b c : Node) (e : ShellElm),
    ShellElm.dkt? name s a b c = .ok e → ∃ e', ShellElm.dkt? name s c b a = .ok e' := by
  intro h
  have hloc : ∀ (n : String) (x y z : ℝ), (stdNode n x y z).loc = ⟨x, y, z⟩ := fun _ _ _ _ => rfl
  let s : ShellSection := ⟨"s", ⟨"m", 1, 1, 0, 0⟩, 1, ""⟩
  have hn1 : cornerNormal (stdNode "A" 0 0 0).loc (stdNode "B" 1 0 0).loc (stdNode "C" 0 1 0).loc = ez := by
    unfold cornerNormal
    rw [hloc, hloc, hloc]
    norm_num [V3.cross, ez]
  have hn2 : cornerNormal (stdNode "C" 0 1 0).loc (stdNode "B" 1 0 0).loc (stdNode "A" 0 0 0).loc = ⟨0, 0, -1⟩ := by
    unfold cornerNormal
    rw [hloc, hloc, hloc]
    norm_num [V3.cross]
  have h1 := C42_tria_partial "t" s (stdNode "A" 0 0 0) (stdNode "B" 1 0 0) (stdNode "C" 0 1 0) (by rw [hn1]; exact V3.ez_ne)
  have hne2 : (⟨0, 0, -1⟩ : V3) ≠ 0 := by intro h; have := congrArg V3.z h; simp at this
  have h2 := C42_tria_partial "t" s (stdNode "C" 0 1 0) (stdNode "B" 1 0 0) (stdNode "A" 0 0 0) (by rw [hn2]; exact hne2)
  rw [hn1, V3.ez_unit] at h1
  have hu2 : (⟨0, 0, -1⟩ : V3).unit = ⟨0, 0, -1⟩ := V3.unit_of_dot_one (by norm_num [V3.dot])
  rw [hn2, hu2] at h2
  have hrej : ∃ err, ShellElm.dkt? "t" s (stdNode "C" 0 1 0) (stdNode "B" 1 0 0) (stdNode "A" 0 0 0) = .error err := by
    rw [h2.1]
    norm_num [V3.norm, ez, absTol]
  cases hacc : ShellElm.dkt? "t" s (stdNode "A" 0 0 0) (stdNode "B" 1 0 0) (stdNode "C" 0 1 0) with
  | error err =>
    have := h1.1.mp ⟨err, hacc⟩
    have h2 : V3.norm (ez + ez) = 2 := by
      rw [show ez + ez = (⟨0, 0, 2⟩ : V3) by norm_num [ez]]
      unfold V3.norm
      rw [show (0 : ℝ) * 0 + 0 * 0 + 2 * 2 = 2 ^ 2 by norm_num]
      exact Real.sqrt_sq (by norm_num)
    rw [h2] at this
    norm_num [absTol] at this
  | ok e =>
    obtain ⟨e', he'⟩ := h "t" s _ _ _ e hacc
    obtain ⟨err, he⟩ := hrej
    rw [he'] at he
    cases he

/-- an inclined triangle whose corners are not collinear -/
example : cornerNormal (stdNode "A" 0 0 0).loc (stdNode "B" 1 0 0).loc (stdNode "C" 0 1 1).loc ≠ 0 := by
  intro h
  have := congrArg V3.y h
  simp [cornerNormal, V3.cross, stdNode, Node.loc] at this

/-! ### C49 add_shell connects the given nodes with the given section -/

/-- the property -/
def C49_claim : Prop :=
  ∀ (env : Env) (cs : List Call) (w : World), w = World.init.run env cs →
    ∀ (name n1 n2 n3 n4 sec : String) (p1 p2 p3 p4 : V3), w.getNodeLocation n1 = some p1 → w.getNodeLocation n2 = some p2 →
      w.getNodeLocation n3 = some p3 → w.getNodeLocation n4 = some p4 → w.api.model.shellSection.contains sec = true →
      cornerNormal p1 p2 p3 ≠ 0 →
      (w.step env (.addShell name n1 n2 n3 n4 (some sec))).2 = true ∧
      (w.step env (.addShell name n1 n2 n3 n4 (some sec))).1.getShellNodeNames name = some (n1, n2, n3, n4)

/-- What the call does: it takes its first node name for the section name and its section name for the fourth node name. -/
theorem C49_actual_partial (env : Env) (cs : List Call) (w : World) (hw : w = World.init.run env cs) (name n1 n2 n3 n4 sec : String) :
    ((w.step env (.addShell name n1 n2 n3 n4 (some sec))).2 = true ↔
      w.api.model.shellSection.contains n1 = true ∧ n2 ∈ w.getNodeNames ∧ n3 ∈ w.getNodeNames ∧ n4 ∈ w.getNodeNames ∧
      sec ∈ w.getNodeNames) ∧
    ((w.step env (.addShell name n1 n2 n3 n4 (some sec))).2 = true →
      (w.step env (.addShell name n1 n2 n3 n4 (some sec))).1.getShellNodeNames name = some (n2, n3, n4, sec)) := by
  have hA := (ApiInv_run env cs).1
  rw [← hw] at hA
  have hnm : ∀ n nd, w.api.model.nodes.get? n = some nd → nd.name = n := by
    intro n nd h
    obtain ⟨m, e⟩ := hA.node_std n nd h
    rw [e]
    rfl
  have hstep := step_edit env w (.addShell name n1 n2 n3 n4 (some sec)) rfl
  constructor
  · rw [hstep]
    constructor
    · intro h
      cases he : w.api.edit (.addShell name n1 n2 n3 n4 (some sec)) with
      | error e => rw [he] at h; cases h
      | ok a' =>
        rw [edit_ok_iff] at he
        obtain ⟨e, ⟨s, m0, m1, m2, m3, h1, h2, h3, h4, h5, _⟩, _⟩ := he
        refine ⟨by rw [Dict.contains_iff]; exact Dict.mem_keys_of_get? h1, ?_, ?_, ?_, ?_⟩
        · exact Dict.mem_keys_of_get? h2
        · exact Dict.mem_keys_of_get? h3
        · exact Dict.mem_keys_of_get? h4
        · exact Dict.mem_keys_of_get? h5
    · rintro ⟨h1, h2, h3, h4, h5⟩
      rw [Dict.contains_iff] at h1
      obtain ⟨s, h1⟩ := Dict.get?_of_mem_keys h1
      obtain ⟨m0, h2⟩ := Dict.get?_of_mem_keys h2
      obtain ⟨m1, h3⟩ := Dict.get?_of_mem_keys h3
      obtain ⟨m2, h4⟩ := Dict.get?_of_mem_keys h4
      obtain ⟨m3, h5⟩ := Dict.get?_of_mem_keys h5
      obtain ⟨e, he, _⟩ := C42_quad_partial name s m0 m1 m2 m3
      rw [(edit_ok_iff w.api (.addShell name n1 n2 n3 n4 (some sec)) (withShell w.api name e)).mpr
        ⟨e, ⟨s, m0, m1, m2, m3, h1, h2, h3, h4, h5, he⟩, rfl⟩]
  · rw [hstep]
    intro h
    cases he : w.api.edit (.addShell name n1 n2 n3 n4 (some sec)) with
    | error e => rw [he] at h; cases h
    | ok a' =>
      rw [edit_ok_iff] at he
      obtain ⟨e, ⟨s, m0, m1, m2, m3, h1, h2, h3, h4, h5, h6⟩, rfl⟩ := he
      obtain ⟨e', he', hn, _⟩ := C42_quad_partial name s m0 m1 m2 m3
      rw [h6] at he'
      cases he'
      have hnodes : e.nodes.map Prod.fst = [n2, n3, n4, sec] := by
        rw [hn, hnm _ _ h2, hnm _ _ h3, hnm _ _ h4, hnm _ _ h5]
      unfold World.getShellNodeNames FeModel.getShellConnection
      have hget : (withShell w.api name e).model.shells.get? name = some e := Dict.get?_set_same _ _ _
      simp only [Dict.getItem_of_some hget, Except.bind_ok]
      match hx : e.nodes, hnodes with
      | [a, b, c, d], hnodes =>
        simp only [List.map_cons, List.map_nil, List.cons.injEq, and_true] at hnodes
        obtain ⟨rfl, rfl, rfl, rfl⟩ := hnodes
        rfl

/-- Without a sixth argument the call creates a triangle, again with the section name first: given the locations of three nodes that are not
collinear, it returns True exactly if the section exists and the normal does not point downwards (to tolerance). The shell is then listed,
but its nodes cannot be queried. -/
theorem C49_tria_partial (env : Env) (cs : List Call) (w : World) (hw : w = World.init.run env cs) (name sec n1 n2 n3 : String)
    (p1 p2 p3 : V3) (h1 : w.getNodeLocation n1 = some p1) (h2 : w.getNodeLocation n2 = some p2) (h3 : w.getNodeLocation n3 = some p3)
    (hn : cornerNormal p1 p2 p3 ≠ 0) :
    ((w.step env (.addShell name sec n1 n2 n3 none)).2 = true ↔
      w.api.model.shellSection.contains sec = true ∧ ¬ V3.norm ((cornerNormal p1 p2 p3).unit + ez) < absTol) ∧
    ((w.step env (.addShell name sec n1 n2 n3 none)).2 = true →
      name ∈ (w.step env (.addShell name sec n1 n2 n3 none)).1.getShellNames ∧
      (w.step env (.addShell name sec n1 n2 n3 none)).1.getShellNodeNames name = none) := by
  have hA := (ApiInv_run env cs).1
  rw [← hw] at hA
  have hloc : ∀ n p, w.getNodeLocation n = some p → ∃ nd, w.api.model.nodes.get? n = some nd ∧ nd.loc = p := by
    intro n p h
    unfold World.getNodeLocation FeModel.getNodeLocation at h
    cases hg : w.api.model.nodes.get? n with
    | none => simp [Dict.getItem, hg, tryOption] at h
    | some nd =>
      simp [Dict.getItem, hg, tryOption] at h
      exact ⟨nd, rfl, h⟩
  obtain ⟨m1, h1', rfl⟩ := hloc _ _ h1
  obtain ⟨m2, h2', rfl⟩ := hloc _ _ h2
  obtain ⟨m3, h3', rfl⟩ := hloc _ _ h3
  have hstep := step_edit env w (.addShell name sec n1 n2 n3 none) rfl
  rw [hstep]
  constructor
  · constructor
    · intro h
      cases he : w.api.edit (.addShell name sec n1 n2 n3 none) with
      | error e => rw [he] at h; cases h
      | ok a' =>
        rw [edit_ok_iff] at he
        obtain ⟨e, ⟨s, k1, k2, k3, g0, g1, g2, g3, g4⟩, _⟩ := he
        rw [h1'] at g1; rw [h2'] at g2; rw [h3'] at g3
        cases g1; cases g2; cases g3
        refine ⟨by rw [Dict.contains_iff]; exact Dict.mem_keys_of_get? g0, fun hd => ?_⟩
        obtain ⟨err, he⟩ := (C42_tria_partial name s m1 m2 m3 hn).1.mpr hd
        rw [g4] at he
        cases he
    · rintro ⟨h0, hd⟩
      rw [Dict.contains_iff] at h0
      obtain ⟨s, h0⟩ := Dict.get?_of_mem_keys h0
      cases he : ShellElm.dkt? name s m1 m2 m3 with
      | error err => exact absurd ((C42_tria_partial name s m1 m2 m3 hn).1.mp ⟨err, he⟩) hd
      | ok e =>
        rw [(edit_ok_iff w.api (.addShell name sec n1 n2 n3 none) (withShell w.api name e)).mpr
          ⟨e, ⟨s, m1, m2, m3, h0, h1', h2', h3', he⟩, rfl⟩]
  · intro h
    cases he : w.api.edit (.addShell name sec n1 n2 n3 none) with
    | error e => rw [he] at h; cases h
    | ok a' =>
      rw [edit_ok_iff] at he
      obtain ⟨e, ⟨s, k1, k2, k3, g0, g1, g2, g3, g4⟩, rfl⟩ := he
      rw [h1'] at g1; rw [h2'] at g2; rw [h3'] at g3
      cases g1; cases g2; cases g3
      have hnodes := ((C42_tria_partial name s m1 m2 m3 hn).2 e g4).1
      have hget : (withShell w.api name e).model.shells.get? name = some e := Dict.get?_set_same _ _ _
      refine ⟨Dict.mem_keys_of_get? hget, ?_⟩
      unfold World.getShellNodeNames FeModel.getShellConnection
      simp only [Dict.getItem_of_some hget, Except.bind_ok]
      obtain ⟨a, b, c, hx⟩ : ∃ a b c, e.nodes = [a, b, c] := by
        have hl := congrArg List.length hnodes
        simp only [List.length_map, List.length_cons, List.length_nil] at hl
        exact List.length_eq_three.mp hl
      rw [hx]
      rfl

def squareCalls : List Call :=
  [.addNode "A" 0 0 0, .addNode "B" 1 0 0, .addNode "C" 1 1 0, .addNode "D" 0 1 0, .addIsotropicMaterial "m" 1 1 0 0,
    .addShellSection "S" "m" 1 ""]

theorem square_run (env : Env) : World.init.run env squareCalls = ⟨⟨{ FeModel.empty with
      nodes := [("A", stdNode "A" 0 0 0), ("B", stdNode "B" 1 0 0), ("C", stdNode "C" 1 1 0), ("D", stdNode "D" 0 1 0)]
      hidNode := [("A", 0), ("B", 1), ("C", 2), ("D", 3)]
      material := [("m", ⟨"m", 1, 1, 0, 0⟩)]
      shellSection := [("S", ⟨"S", ⟨"m", 1, 1, 0, 0⟩, 1, ""⟩)] }, [], [], []⟩, []⟩ := by
  unfold squareCalls
  rw [run_cons, step_addNode, run_cons, step_addNode, run_cons, step_addNode, run_cons, step_addNode, run_cons, step_addMaterial,
    run_cons, step_of_edit env _ (.addShellSection "S" "m" 1 "") _ rfl (by exact ⟨_, rfl, rfl⟩), run_nil]
  rfl

theorem C49_false : ¬ C49_claim := by
  intro h
  let env : Env := ⟨fun _ => 0, fun _ => 0, fun _ _ _ => .error .exception⟩
  have hr := square_run env
  have := (h env squareCalls _ rfl "s" "A" "B" "C" "D" "S" ⟨0, 0, 0⟩ ⟨1, 0, 0⟩ ⟨1, 1, 0⟩ ⟨0, 1, 0⟩ (by rw [hr]; rfl) (by rw [hr]; rfl)
    (by rw [hr]; rfl) (by rw [hr]; rfl) (by rw [hr]; rfl) (by
      intro h
      have := congrArg V3.z h
      simp [cornerNormal, V3.cross] at this)).1
  rw [(C49_actual_partial env squareCalls _ rfl "s" "A" "B" "C" "D" "S").1] at this
  rw [hr] at this
  exact absurd this.1 (by decide)

/-- with the section name given first, and the node names after it, the shell is created -/
example (env : Env) : (((World.init.run env squareCalls).step env (.addShell "s" "S" "A" "B" "C" (some "D"))).1.getShellNodeNames "s") =
    some ("A", "B", "C", "D") := by
  have h := C49_actual_partial env squareCalls _ rfl "s" "S" "A" "B" "C" "D"
  apply h.2
  rw [h.1, square_run]
  refine ⟨by decide, ?_, ?_, ?_, ?_⟩ <;> simp [World.getNodeNames, Dict.keys]

/-- without a sixth argument a triangle is created, which is listed but whose nodes cannot be queried -/
example (env : Env) : "s" ∈ ((World.init.run env squareCalls).step env (.addShell "s" "S" "A" "B" "C" none)).1.getShellNames ∧
    ((World.init.run env squareCalls).step env (.addShell "s" "S" "A" "B" "C" none)).1.getShellNodeNames "s" = none := by
  have hn : cornerNormal ⟨0, 0, 0⟩ ⟨1, 0, 0⟩ ⟨1, 1, 0⟩ = ez := by norm_num [cornerNormal, V3.cross, ez]
  have h := C49_tria_partial env squareCalls _ rfl "s" "S" "A" "B" "C" ⟨0, 0, 0⟩ ⟨1, 0, 0⟩ ⟨1, 1, 0⟩ (by rw [square_run]; rfl)
    (by rw [square_run]; rfl) (by rw [square_run]; rfl) (by rw [hn]; exact V3.ez_ne)
  apply h.2
  rw [h.1, square_run, hn, V3.ez_unit]
  refine ⟨by decide, ?_⟩
  have h2 : V3.norm (ez + ez) = 2 := by
    rw [show ez + ez = (⟨0, 0, 2⟩ : V3) by norm_num [ez]]
    unfold V3.norm
    rw [show (0 : ℝ) * 0 + 0 * 0 + 2 * 2 = 2 ^ 2 by norm_num]
    exact Real.sqrt_sq (by norm_num)
  rw [h2]
  norm_num [absTol]

end Hyperstatic
