import Verif.Model.Seismic
import Mathlib.Analysis.SpecialFunctions.Trigonometric.Basic
import Mathlib.Analysis.SpecialFunctions.Log.Basic

/-
Model of the response spectra of hyperstatic/app/seismic/wave2spec.py: `wave2spectrum` and `fft2spec`.  The numbers read from a file are given as a list.  numpy numbers that are nan or
infinite are `none`.  Rounding is not modelled, neither in the Fourier transforms nor in the number of entries of `np.arange`.
-/

namespace Hyperstatic

open scoped BigOperators

/-- `ag=0.01*ag*a_max/np.max(ag)`: wave2spec.py 53, 97.  `np.max` of an empty array raises `ValueError`; a maximum of zero gives nan
and infinite numbers. -/
noncomputable def scaledRecord (ag : List ℝ) (amax : ℝ) : Except PyErr (Option (List ℝ)) := do
  let m ← pyMax ag
  return if m = 0 then none else some (ag.map fun x => 1 / 100 * x * amax / m)

/-- `np.arange(dt,6.0+dt,dt)`: wave2spec.py 56, 98.  A step of zero raises. -/
noncomputable def specPeriods (dt : ℝ) : Except PyErr (List ℝ) := do
  let n ← pyDiv 6 dt
  return (List.range ⌈n⌉₊).map fun k : ℕ => dt + (k : ℝ) * dt

/-- `nex2pow`: wave2spec.py 99 -/
noncomputable def nex2pow (x : ℝ) : ℕ := 2 ^ ⌈Real.log x / Real.log 2⌉₊

/-- `fft(x,N)` of scipy: the record is cut or filled with zeros to `N` numbers -/
noncomputable def fftAt (x : List ℝ) (N k : ℕ) : ℂ :=
  ∑ n ∈ Finset.range N, ((x.getD n 0 : ℝ) : ℂ) * Complex.exp (-(2 * Real.pi * Complex.I * k * n / N))

/-- `ifft(X,N)` of scipy, for `N` numbers -/
noncomputable def ifftAt (X : ℕ → ℂ) (N j : ℕ) : ℂ :=
  (∑ k ∈ Finset.range N, X k * Complex.exp (2 * Real.pi * Complex.I * k * j / N)) / N

/-- `fftfreq(N,d)` of scipy -/
noncomputable def fftfreq (N : ℕ) (d : ℝ) (k : ℕ) : ℝ := (if k < (N - 1) / 2 + 1 then (k : ℝ) else (k : ℝ) - N) / (N * d)

/-- the denominator of `H`: wave2spec.py 122 -/
noncomputable def transferDen (xi wd w : ℝ) : ℂ := (1 - (w / wd) ^ 2) + 2 * xi * (w / wd) * Complex.I

/-- `max_response(_T)`: wave2spec.py 117-124, for `ξ < 1`.  A damping ratio of one divides by zero; for larger ratios Python's power of a
negative number is complex; both are `none` here. -/
noncomputable def maxResponse (ag : List ℝ) (N : ℕ) (dt xi T : ℝ) : Option ℝ := open Classical in
  if 1 ≤ xi then none else
  let wn := 2 * Real.pi / T
  let wd := Real.sqrt (1 - xi) * wn
  let af := fun k => fftAt ag N k / N
  let w := fun k => 2 * Real.pi * fftfreq N dt k
  if ∃ k < N, transferDen xi wd (w k) = 0 then none else
  let H := fun k => 1 / transferDen xi wd (w k)
  let u := fun j => (ifftAt (fun k => af k * H k) N j).re * N
  match pyMax ((List.range N).map u) with
  | .ok m => some (m / (98 / 10))
  | .error _ => none

/-- `fft2spec(file,dt,ξ,a_max)`: wave2spec.py 95-126; `ag` is what `read_wave` returns. -/
noncomputable def fft2spec (ag : List ℝ) (dt xi amax : ℝ) : Except PyErr (List ℝ × List (Option ℝ)) := do
  let rec? ← scaledRecord ag amax
  let T ← specPeriods dt
  let N := nex2pow 256 * 16
  return (T, T.map fun t => rec?.bind fun r => maxResponse r N dt xi t)

/-- The four lists returned by `wave2spectrum`. -/
structure WaveSpectrum where
  T : List ℝ
  sa : List ℝ
  sv : List ℝ
  sd : List ℝ

/-- `wave2spectrum(file,dt,ξ,a_max,startline)`: wave2spec.py 51-68, for records with at least two numbers and positive maximum, `dt > 0` and
`0 ≤ ξ < 1`; `ag` is what `read_wave` returns.  Outside these bounds numpy yields nan, which is not modelled (see `duhamel`). -/
noncomputable def wave2spectrum (ag : List ℝ) (dt xi amax : ℝ) : Except PyErr WaveSpectrum := do
  let m ← pyMax ag
  let r := ag.map fun x => 1 / 100 * x * amax / m
  let T ← specPeriods dt
  let t := (List.range r.length).map fun k : ℕ => (k : ℝ) * dt
  let rows ← T.mapM fun p => do
    let R := duhamel (2 * Real.pi / p) xi t r
    let a ← pyMax R.Sa
    let v ← pyMax R.Sv
    let d ← pyMax R.Sd
    return (a / (98 / 10), v, d)
  return ⟨T, rows.map fun q => q.1, rows.map fun q => q.2.1, rows.map fun q => q.2.2⟩

end Hyperstatic
