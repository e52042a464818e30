import Verif.Model.CompiledThick
import Verif.Lemmas.CompiledGQ12
import Verif.Lemmas.CompiledTMQb

/-! C172: the compiled routines of the thick plate compute what their symbolic definitions say. -/

namespace Hyperstatic
open Matrix

/-- The compiled shear routine of the thick plate computes what its symbolic definition says, for every material, thickness, quadrilateral
and point. -/
theorem C172_shear (E mu t : ℝ) (x y : Fin 4 → ℝ) (ξ η : ℝ) : TMQsText.autofunc_c E mu t x y ξ η = TMQ.BCBs E mu t x y ξ η :=
  TMQsText.autofunc_eq E mu t x y ξ η

/-- The compiled bending routine of the thick plate computes what its symbolic definition says, for every material, thickness,
quadrilateral and point. -/
theorem C172_bending (E mu t : ℝ) (x y : Fin 4 → ℝ) (ξ η : ℝ) : TMQbText.autofunc_c E mu t x y ξ η = TMQ.BDBb E mu t x y ξ η :=
  TMQbText.autofunc_eq E mu t x y ξ η

/-- The stiffness matrices of the thick plate and of the thick shell, computed with the compiled routines, are those of the symbolic
definitions. -/
theorem C172_thick (q : Scheme) (s : ShellSection) (x y : Fin 4 → ℝ) :
    tmqKCompiled q s x y = tmqK q s x y ∧ tmgqKCompiled q s x y = tmgqK q s x y := by
  have h1 : TMQsText.autofunc_c s.material.E s.material.mu s.t x y = TMQ.BCBs s.material.E s.material.mu s.t x y := by
    funext ξ η
    exact C172_shear _ _ _ _ _ _ _
  have h2 : TMQbText.autofunc_c s.material.E s.material.mu s.t x y = TMQ.BDBb s.material.E s.material.mu s.t x y := by
    funext ξ η
    exact C172_bending _ _ _ _ _ _ _
  have h3 : GQ12Text.autofunc_c s.material.E s.material.mu s.t x y = GQ12.BDB s.material.E s.material.mu s.t x y := by
    funext ξ η
    exact GQ12Text.autofunc_eq _ _ _ _ _ _ _
  have h : tmqKCompiled q s x y = tmqK q s x y := by simp only [tmqKCompiled, tmqK, h1, h2]
  refine ⟨h, ?_⟩
  simp only [tmgqKCompiled, tmgqK, h, h3]

/-- a concrete square with a nonzero entry: side 2, at its centre -/
example : TMQsText.autofunc_c 1 0 1 ![-1, 1, 1, -1] ![-1, -1, 1, 1] 0 0 (0, 0) (0, 0) = 15 / 2048 := by
  simp only [TMQsText.autofunc_c, TMQsText.out, TMQsText.out0, TMQsText.o0_0, TMQsText.row0, TMQsText.row1, TMQsText.num0_0, TMQsText.num1_0,
    Fin.ofNat]
  simp
  norm_num

end Hyperstatic
