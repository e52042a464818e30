import Verif.Model.CompiledQuad
import Verif.Lemmas.CompiledGQ12
import Verif.Lemmas.CompiledDKQ

/-! C172: the compiled routines of the 4-node shell compute what their symbolic definitions say. -/

namespace Hyperstatic
open Matrix

/-- The compiled routine of the quadrilateral membrane computes what its symbolic definition says, for every material, every
quadrilateral and every point. -/
theorem C172_membrane4 (E mu t : ℝ) (x y : Fin 4 → ℝ) (ξ η : ℝ) : GQ12Text.autofunc_c E mu t x y ξ η = GQ12.BDB E mu t x y ξ η :=
  GQ12Text.autofunc_eq E mu t x y ξ η

/-- The compiled routine of the quadrilateral plate computes what its symbolic definition says, for every material, every quadrilateral
and every point. -/
theorem C172_plate4 (E mu t : ℝ) (x y : Fin 4 → ℝ) (ξ η : ℝ) : DKQText.autofunc_c E mu t x y ξ η = DKQ.BDB E mu t x y ξ η :=
  DKQText.autofunc_eq E mu t x y ξ η

/-- The stiffness matrix of a 4-node shell, computed with the compiled routines, is that of the symbolic definitions: for every section,
every quadrilateral and whatever points the quadrature uses. -/
theorem C172_quadrilateral (m p : Scheme) (s : ShellSection) (x y : Fin 4 → ℝ) : dkgqKCompiled m p s x y = dkgqK m p s x y := by
  have h1 : GQ12Text.autofunc_c s.material.E s.material.mu s.t x y = GQ12.BDB s.material.E s.material.mu s.t x y := by
    funext ξ η
    exact C172_membrane4 _ _ _ _ _ _ _
  have h2 : DKQText.autofunc_c s.material.E s.material.mu s.t x y = DKQ.BDB s.material.E s.material.mu s.t x y := by
    funext ξ η
    exact C172_plate4 _ _ _ _ _ _ _
  simp only [dkgqKCompiled, dkgqK, h1, h2]

/-- a concrete square with a nonzero entry: side 2, at its centre -/
example : GQ12Text.autofunc_c 1 0 1 ![1, 1, -1, -1] ![-1, 1, 1, -1] 0 0 (0, 0) (0, 0) = 3 / 32 := by
  simp only [GQ12Text.autofunc_c, GQ12Text.out, GQ12Text.out0, GQ12Text.o0_0, GQ12Text.gx, GQ12Text.gy, GQ12Text.gx0, GQ12Text.gy0, Fin.ofNat]
  simp
  norm_num

end Hyperstatic
