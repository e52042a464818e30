import Verif.Lemmas.ShellFields

/-
Concrete shell elements: their local axes.
-/

namespace Hyperstatic
open Matrix Spec

theorem not_lt_absTol_of_sq {v : V3} (h : v.dot v = 2) : ¬ v.norm < absTol := by
  intro hlt
  have h1 := V3.norm_sq v
  have h2 := V3.norm_nonneg v
  have h3 : absTol < 1 := by norm_num [absTol]
  nlinarith

theorem createByNormal_orth (O n g : V3) (hn : n.dot n = 1) (hg : g.dot g = 1) (hng : n.dot g = 0) :
    Csys.createByNormal O n g = .ok (some ⟨O, g.cross n, g, n⟩) := by
  have hne : n ≠ 0 := by rintro rfl; simp [V3.dot, V3.zero_def] at hn
  have gne : g ≠ 0 := by rintro rfl; simp [V3.dot, V3.zero_def] at hg
  have e1 := V3.unit_of_dot_one hn
  have e2 := V3.unit_of_dot_one hg
  have hc : (g.cross n).dot (g.cross n) = 1 := by rw [V3.cross_dot_cross, hg, hn, V3.dot_comm, hng]; norm_num
  have e3 := V3.unit_of_dot_one hc
  have e4 : n.cross (g.cross n) = g := by
    unfold V3.dot at hn hng
    ext <;> simp only [V3.cross]
    · linear_combination g.x * hn - n.x * hng
    · linear_combination g.y * hn - n.y * hng
    · linear_combination g.z * hn - n.z * hng
  have e5 : (g.cross n).cross g = n := by
    unfold V3.dot at hg hng
    ext <;> simp only [V3.cross]
    · linear_combination n.x * hg - g.x * hng
    · linear_combination n.y * hg - g.y * hng
    · linear_combination n.z * hg - g.z * hng
  have h0 : ¬ (n.norm = 0 ∨ g.norm = 0) := by
    rintro (h | h)
    · exact hne ((V3.norm_eq_zero_iff _).mp h)
    · exact gne ((V3.norm_eq_zero_iff _).mp h)
  have h1 : ¬ (V3.norm (n - g) < absTol ∨ V3.norm (n + g) < absTol) := by
    rintro (h | h)
    · refine not_lt_absTol_of_sq ?_ h
      unfold V3.dot at *
      simp only [V3.sub_def]
      linarith
    · refine not_lt_absTol_of_sq ?_ h
      unfold V3.dot at *
      simp only [V3.add_def]
      linarith
  have s1 : ∀ v : V3, O + v - O = v := by
    intro v
    ext <;> simp [V3.add_def, V3.sub_def]
  unfold Csys.createByNormal
  simp only [h0, if_false, e1, e2, h1, e3, e4]
  unfold Csys.mk?
  simp only [s1, e5, if_neg (V3.one_le_maxAbs hn), e3, e1, e4]

/-- horizontal axes -/
def flat (O : V3) : Csys := ⟨O, ⟨1, 0, 0⟩, ⟨0, 1, 0⟩, ⟨0, 0, 1⟩⟩

theorem unit_up {k : ℝ} (hk : 0 < k) : (⟨0, 0, k⟩ : V3).unit = ez := by
  have : (⟨0, 0, k⟩ : V3).norm = k := by
    unfold V3.norm
    simp [Real.sqrt_mul_self hk.le]
  unfold V3.unit
  rw [this, div_self hk.ne']
  simp [ez]

theorem quadCsys_flat {pi pj pk pl : V3} {k : ℝ} (hk : 0 < k) (hn : cornerNormal pi pj pk = ⟨0, 0, k⟩) :
    quadCsys pi pj pk pl = .ok (some (flat ⟨(pi.x + pj.x + pk.x + pl.x) / 4, (pi.y + pj.y + pk.y + pl.y) / 4,
      (pi.z + pj.z + pk.z + pl.z) / 4⟩)) := by
  have hn' : V3.cross (pi - pj) (pj - pk) = ⟨0, 0, k⟩ := hn
  have hne : (⟨0, 0, k⟩ : V3).norm ≠ 0 := by
    intro h
    rw [V3.norm_eq_zero_iff] at h
    have := congrArg V3.z h
    simp at this
    exact hk.ne' this
  have hz : V3.norm (ez - ez) < absTol := by norm_num [V3.norm, ez, absTol]
  unfold quadCsys
  simp only [hn', hne, if_false, unit_up hk, hz, true_or, if_true]
  rw [createByNormal_orth _ ez ey (by norm_num [V3.dot, ez]) (by norm_num [V3.dot, ey]) (by norm_num [V3.dot, ez, ey])]
  norm_num [flat, V3.cross, ey, ez]

theorem triaCsys_flat {pi pj pk : V3} {k : ℝ} (hk : 0 < k) (hn : cornerNormal pi pj pk = ⟨0, 0, k⟩) :
    triaCsys pi pj pk = .ok (some (flat ⟨(pi.x + pj.x + pk.x) / 3, (pi.y + pj.y + pk.y) / 3, (pi.z + pj.z + pk.z) / 3⟩)) := by
  have hn' : V3.cross (pi - pj) (pj - pk) = ⟨0, 0, k⟩ := hn
  have hne : (⟨0, 0, k⟩ : V3).norm ≠ 0 := by
    intro h
    rw [V3.norm_eq_zero_iff] at h
    have := congrArg V3.z h
    simp at this
    exact hk.ne' this
  have hz : V3.norm (ez - ez) < absTol := by norm_num [V3.norm, ez, absTol]
  unfold triaCsys
  simp only [hn', hne, if_false, unit_up hk, hz, if_true]
  rw [createByNormal_orth _ ez ey (by norm_num [V3.dot, ez]) (by norm_num [V3.dot, ey]) (by norm_num [V3.dot, ez, ey])]
  norm_num [flat, V3.cross, ey, ez]

/-- a section of unit stiffness -/
def unitSection : ShellSection := ⟨"s", ⟨"m", 0, 1, 0, 0⟩, 1, "shell"⟩

/-- a quadrilateral in the horizontal plane -/
noncomputable def flatQuad (x0 y0 x1 y1 x2 y2 x3 y3 : ℝ) : ShellElm :=
  ⟨"e", unitSection, [("A", ⟨x0, y0, 0⟩), ("B", ⟨x1, y1, 0⟩), ("C", ⟨x2, y2, 0⟩), ("D", ⟨x3, y3, 0⟩)],
    some (flat ⟨(x0 + x1 + x2 + x3) / 4, (y0 + y1 + y2 + y3) / 4, 0⟩)⟩

theorem stdNode_loc (n : String) (x y z : ℝ) : (stdNode n x y z).loc = ⟨x, y, z⟩ := rfl

theorem flatQuad_ok {x0 y0 x1 y1 x2 y2 x3 y3 : ℝ} (h : 0 < (x0 - x1) * (y1 - y2) - (y0 - y1) * (x1 - x2)) :
    ShellElm.dkgq? "e" unitSection (stdNode "A" x0 y0 0) (stdNode "B" x1 y1 0) (stdNode "C" x2 y2 0) (stdNode "D" x3 y3 0) =
      .ok (flatQuad x0 y0 x1 y1 x2 y2 x3 y3) := by
  have hn : cornerNormal ⟨x0, y0, 0⟩ ⟨x1, y1, 0⟩ ⟨x2, y2, 0⟩ = ⟨0, 0, (x0 - x1) * (y1 - y2) - (y0 - y1) * (x1 - x2)⟩ := by
    unfold cornerNormal V3.cross
    simp [V3.sub_def]
  unfold ShellElm.dkgq?
  simp only [stdNode_loc]
  rw [quadCsys_flat h hn]
  simp [flatQuad, stdNode]

/-- a triangle in the horizontal plane -/
noncomputable def flatTria (x0 y0 x1 y1 x2 y2 : ℝ) : ShellElm :=
  ⟨"e", unitSection, [("A", ⟨x0, y0, 0⟩), ("B", ⟨x1, y1, 0⟩), ("C", ⟨x2, y2, 0⟩)],
    some (flat ⟨(x0 + x1 + x2) / 3, (y0 + y1 + y2) / 3, 0⟩)⟩

theorem flatTria_ok {x0 y0 x1 y1 x2 y2 : ℝ} (h : 0 < (x0 - x1) * (y1 - y2) - (y0 - y1) * (x1 - x2)) :
    ShellElm.dkt? "e" unitSection (stdNode "A" x0 y0 0) (stdNode "B" x1 y1 0) (stdNode "C" x2 y2 0) =
      .ok (flatTria x0 y0 x1 y1 x2 y2) := by
  have hn : cornerNormal ⟨x0, y0, 0⟩ ⟨x1, y1, 0⟩ ⟨x2, y2, 0⟩ = ⟨0, 0, (x0 - x1) * (y1 - y2) - (y0 - y1) * (x1 - x2)⟩ := by
    unfold cornerNormal V3.cross
    simp [V3.sub_def]
  unfold ShellElm.dkt?
  simp only [stdNode_loc]
  rw [triaCsys_flat h hn]
  simp [flatTria, stdNode]

/-- an upright triangle with normal -x -/
noncomputable def wallTria : ShellElm :=
  ⟨"e", unitSection, [("A", ⟨0, 0, 0⟩), ("B", ⟨0, 0, 1⟩), ("C", ⟨0, 1, 0⟩)], some ⟨⟨0, 1 / 3, 1 / 3⟩, ⟨0, -1, 0⟩, ⟨0, 0, 1⟩, ⟨-1, 0, 0⟩⟩⟩

theorem wallTria_ok : ShellElm.dkt? "e" unitSection (stdNode "A" 0 0 0) (stdNode "B" 0 0 1) (stdNode "C" 0 1 0) = .ok wallTria := by
  have hn : V3.cross ((⟨0, 0, 0⟩ : V3) - ⟨0, 0, 1⟩) ((⟨0, 0, 1⟩ : V3) - ⟨0, 1, 0⟩) = ⟨-1, 0, 0⟩ := by
    unfold V3.cross
    norm_num [V3.sub_def]
  have hu : (⟨-1, 0, 0⟩ : V3).unit = ⟨-1, 0, 0⟩ := V3.unit_of_dot_one (by norm_num [V3.dot])
  have hne : (⟨-1, 0, 0⟩ : V3).norm ≠ 0 := by
    intro h
    rw [V3.norm_eq_zero_iff] at h
    have := congrArg V3.x h
    simp at this
  have hz : ¬ V3.norm ((⟨-1, 0, 0⟩ : V3) - ez) < absTol := not_lt_absTol_of_sq (by norm_num [V3.dot, ez, V3.sub_def])
  unfold ShellElm.dkt? triaCsys
  simp only [stdNode_loc, hn, hne, if_false, hu, hz]
  rw [createByNormal_orth _ _ ez (by norm_num [V3.dot]) (by norm_num [V3.dot, ez]) (by norm_num [V3.dot, ez])]
  norm_num [wallTria, V3.cross, ez, stdNode]

end Hyperstatic
