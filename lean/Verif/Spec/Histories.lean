import Verif.Model.Dynamic

/-
Vocabulary for the histories of direct time integration.
-/

namespace Hyperstatic.Spec

/-- The value of the curve of a pattern at an instant; zero where there is none. -/
def curveVal (curves : Dict (List ℝ)) (p : String) (t : ℕ) : ℝ := ((curves.get? p).bind fun c => c[t]?).getD 0

/-- The case with other load curves. -/
def withCurves (lc : LoadCase) (curves : Dict (List ℝ)) : LoadCase := { lc with loadCurve := curves }

/-- No pattern of the case loads a beam. -/
def NodalOnly (heap : PatHeap) (lc : LoadCase) : Prop :=
  ∀ p r pat, lc.pattern.get? p = some r → heap[r]? = some pat → pat.beamDist = [] ∧ pat.beamConc = []

/-- A direct time integration of the case with the given curves succeeds and saves the given rows: one row of displacements for each instant. -/
def Saves (env : Env) (dyn : DynEnv) (m : FeModel) (heap : PatHeap) (lc : LoadCase) (s : DirectSetting) (curves : Dict (List ℝ))
    (rows : List (List ℝ)) : Prop :=
  ∃ (x : Assembly) (fs' : Dict (File Unit)), Assembly.mk? m [withCurves lc curves] heap = .ok x ∧
    solveDirect env dyn [("f", (File.asb x : File Unit))] "f" lc.name s = (fs', .ok ()) ∧
    fs'.get? (lc.name ++ ".d" ++ ".npy") = some (.rows rows)

/-- The matrix of the linear equations of each step is regular. -/
def RegularStep (env : Env) (m : FeModel) (heap : PatHeap) (lc : LoadCase) (s : DirectSetting) : Prop :=
  ∀ x K M K_ M_ C_, Assembly.mk? m [lc] heap = .ok x → x.assembleK env = .ok K → x.assembleM = .ok M → x.boundaryMatrix lc.name K = .ok K_ →
    x.boundaryMatrix lc.name M = .ok M_ → x.boundaryMatrix lc.name (rayleighC K M) = .ok C_ →
    ∀ z, Matrix.mulVec ((1 / s.stepSize ^ 2) • M_.dense K_.nrow + (1 / (2 * s.stepSize)) • C_.dense K_.nrow) z = 0 → z = 0

end Hyperstatic.Spec
