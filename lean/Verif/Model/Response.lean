import Verif.Model.Dynamic
import Mathlib.Analysis.SpecialFunctions.Pow.Real

/-
Model of `ResponseSpectrumSolver`, hyperstatic/core/fe_solver/dynamic.py 78-155.  numpy numbers that are nan or infinite are `none`.
-/

namespace Hyperstatic

/-- The keys of `get_settings()` of a case: loadcase.py 49-53, 89-96, 112-118, 176-181. -/
def CaseKind.settingKeys : CaseKind → List String
  | .static => ["order", "base_case"]
  | .modal => ["mass_source", "use_load_as_mass", "n_modes", "base_case", "algorithm"]
  | .responseSpectrum => ["modal_case", "spectrum", "mode_combo", "dir_combo"]
  | .timeHistory => ["base_case", "algorithm", "params"]

/-- `assembly.get_loadcase_setting(casename)[key]`: assembly.py 63-65.  Only whether the key is there is modelled. -/
def lookSetting (a : Assembly) (casename key : String) : Except PyErr Unit := do
  let lc ← a.cases.getItem casename
  if key ∈ lc.kind.settingKeys then return () else .error .keyError

/-- `ResponseSpectrumSolver(workpath,filename).solve(casename)` dynamic.py 87-155: the settings are read (90-94), then the rest of the
function is run, which is an arbitrary program here. -/
def solveSpectrum {A : Type} (rest : Assembly → Dict (File A) → Dict (File A) × Except PyErr Unit) (fs : Dict (File A))
    (filename casename : String) : Dict (File A) × Except PyErr Unit :=
  match openAssembly fs filename with
  | .error e => (fs, .error e)
  | .ok a =>
    match (do
      lookSetting a casename "n"
      lookSetting a casename "modal_damp"
      lookSetting a casename "combo"
      lookSetting a casename "modal_case"
      lookSetting a casename "spectrum") with
    | .error e => (fs, .error e)
    | .ok () => rest a fs

/-- `omega=np.sqrt(omega2s); T=2*np.pi/np.sqrt(omega)`: dynamic.py 110-111, of one eigenvalue.  Zero gives inf and a negative number
nan. -/
noncomputable def spectrumPeriod (omega2 : ℝ) : Option ℝ :=
  if 0 < omega2 then some (2 * Real.pi / Real.sqrt (Real.sqrt omega2)) else none

/-- `8*xi**2*(1+r)*r**1.5/((1-r**2)**2+4*xi**2*r*(1+r)**2)`: dynamic.py 144, for `r ≥ 0` -/
noncomputable def cqcRho (xi r : ℝ) : Option ℝ :=
  let den := (1 - r ^ 2) ^ 2 + 4 * xi ^ 2 * r * (1 + r) ^ 2
  if den = 0 then none else some (8 * xi ^ 2 * (1 + r) * r ^ (1.5 : ℝ) / den)

/-- `np.sqrt`: nan for a negative number -/
noncomputable def npSqrt (x : ℝ) : Option ℝ := if x < 0 then none else some (Real.sqrt x)

/-- The loops of 'CQC', dynamic.py 136-146, for one component of the responses.  `r=T[i]/T[j]` is taken for `T[j] ≠ 0`. -/
noncomputable def cqcSum {n : ℕ} (xi : ℝ) (T S : Fin n → ℝ) : Option ℝ :=
  (List.finRange n).foldl (fun res i => (List.finRange n).foldl (fun res j => do
    let res ← res
    let rho ← if i = j then some 1 else cqcRho xi (T i / T j)
    some (res + rho * S i * S j)) res) (some 0)

/-- The loop of 'SRSS', dynamic.py 148-150, for one component of the responses. -/
def srssSum {n : ℕ} (S : Fin n → ℝ) : ℝ := (List.finRange n).foldl (fun res i => res + S i ^ 2) 0

/-- The combination of the responses of the modes, dynamic.py 136-152, for one component; `S i` is the response of mode `i`.  For any
other word than the two `res` is not assigned and line 154 raises `UnboundLocalError`. -/
noncomputable def combineModes {n : ℕ} (comb : String) (xi : ℝ) (T S : Fin n → ℝ) : Except PyErr (Option ℝ) :=
  if comb = "CQC" then .ok ((cqcSum xi T S).bind npSqrt)
  else if comb = "SRSS" then .ok (npSqrt (srssSum S))
  else .error .nameError

/-- `S[:,i]=gamma[i]*y*mode[:,i]` with `y` divided by the eigenvalue: dynamic.py 130-134, one component -/
noncomputable def modalResponse {n : ℕ} (gamma y omega2 mode : Fin n → ℝ) (i : Fin n) : ℝ := gamma i * (y i / omega2 i) * mode i

/-- What remains in `xi` after the loop of line 130, which reads `modal_damp[i]` for every mode: dynamic.py 130-131.  Too short a list
raises `IndexError`.  Without modes `xi` is not assigned and not used. -/
def loopDamp (n : ℕ) (damp : List ℝ) : Except PyErr ℝ :=
  if damp.length < n then .error .indexError else .ok (damp.getD (n - 1) 0)

/-- Lines 110-152 of dynamic.py for one component of the displacements, from the eigenvalues, the participation factors, the ordinates
of the spectrum and the components of the modes. -/
noncomputable def spectrumResponse {n : ℕ} (comb : String) (damp : List ℝ) (omega2 gamma y mode : Fin n → ℝ) : Except PyErr (Option ℝ) := do
  let xi ← loopDamp n damp
  if ∀ i, (spectrumPeriod (omega2 i)).isSome then
    combineModes comb xi (fun i => (spectrumPeriod (omega2 i)).getD 0) (modalResponse gamma y omega2 mode)
  else if comb = "CQC" ∨ comb = "SRSS" then .ok none else .error .nameError

end Hyperstatic
