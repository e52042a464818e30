import Verif.Model.CompiledGQ12
import Verif.Model.CompiledDKQ

/-
Model of the stiffness of the 4-node shell as the program computes it, with the compiled routines: DKGQ.py.
-/

namespace Hyperstatic
open Matrix

/-- `DKGQ.integrate_K` DKGQ.py 15-64 with the compiled routines -/
noncomputable def dkgqKCompiled (m p : Scheme) (s : ShellSection) (x y : Fin 4 → ℝ) : Matrix (Fin 4 × Fin 6) (Fin 4 × Fin 6) ℝ :=
  let E := s.material.E
  let mu := s.material.mu
  let Km := if s.eleType = "membrane" ∨ s.eleType = "shell" then m.integrate (GQ12Text.autofunc_c E mu s.t x y) else 0
  let Kp := if s.eleType = "plate" ∨ s.eleType = "shell" then p.integrate (DKQText.autofunc_c E mu s.t x y) else 0
  spread quadSlot Km + spread plateSlot Kp

end Hyperstatic
