import Verif.Model.CompiledGQ12
import Verif.Model.CompiledTMQb
import Verif.Model.CompiledTMQs

/-
Model of the stiffness of the thick plate elements as the program computes it, with the compiled routines: TMQ.py and TMGQ.py.
-/

namespace Hyperstatic
open Matrix

/-- `TMQ.integrate_K` element/quad/TMQ.py 15-54 with the compiled routines; the same sum is `Kp` of TMGQ.py 43-65 -/
noncomputable def tmqKCompiled (q : Scheme) (s : ShellSection) (x y : Fin 4 → ℝ) : Matrix (Fin 4 × Fin 3) (Fin 4 × Fin 3) ℝ :=
  q.integrate (TMQsText.autofunc_c s.material.E s.material.mu s.t x y) + q.integrate (TMQbText.autofunc_c s.material.E s.material.mu s.t x y)

/-- `TMGQ.integrate_K` TMGQ.py 15-75 with the compiled routines -/
noncomputable def tmgqKCompiled (q : Scheme) (s : ShellSection) (x y : Fin 4 → ℝ) : Matrix (Fin 4 × Fin 6) (Fin 4 × Fin 6) ℝ :=
  let Km := if s.eleType = "membrane" ∨ s.eleType = "shell" then q.integrate (GQ12Text.autofunc_c s.material.E s.material.mu s.t x y) else 0
  let Kp := if s.eleType = "plate" ∨ s.eleType = "shell" then tmqKCompiled q s x y else 0
  spread quadSlot Km + spread plateSlot Kp

end Hyperstatic
