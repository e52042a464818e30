import Verif.Model.Section
import Mathlib.Analysis.SpecialFunctions.Pow.Real

/-
Model of hyperstatic/app/design/GB/seismic/spectrum.py (class GB50010) and of the functions `amptitude`, `duhamel` and
`GB50011_spectrum` of hyperstatic/app/seismic/wave2spec.py.  File reading, the Fourier method and plotting are not modelled.
-/

namespace Hyperstatic

/-- `gamma`: spectrum.py 13, wave2spec.py 132. -/
noncomputable def specGamma (xi : ℝ) : Except PyErr ℝ := do
  let q ← pyDiv (5 / 100 - xi) (3 / 10 + 6 * xi)
  return 9 / 10 + q

/-- `eta1`: spectrum.py 14-15, wave2spec.py 133-134. -/
noncomputable def specEta1 (xi : ℝ) : Except PyErr ℝ := do
  let q ← pyDiv (5 / 100 - xi) (4 + 32 * xi)
  let e := 2 / 100 + q
  return if e > 0 then e else 0

/-- `eta2`: spectrum.py 16-17, wave2spec.py 135-136. -/
noncomputable def specEta2 (xi : ℝ) : Except PyErr ℝ := do
  let q ← pyDiv (5 / 100 - xi) (8 / 100 + 16 / 10 * xi)
  let e := 1 + q
  return if e > 55 / 100 then e else 55 / 100

/-- `np.interp(x, [x0, x1], [y0, y1])` for `x0 < x1`: constant outside, linear between. -/
noncomputable def interp2 (x x0 x1 y0 y1 : ℝ) : ℝ :=
  if x ≤ x0 then y0 else if x ≥ x1 then y1 else (y1 - y0) / (x1 - x0) * (x - x0) + y0

/-- The body of the loop in `GB50010.__init__`: spectrum.py 21-28.  `t` is a numpy float, so `Tg/t` does not raise; in that
branch `0.1 ≤ t < 5 Tg`, so the base of the power is positive. -/
noncomputable def gb50010At (amax Tg gamma eta1 eta2 t : ℝ) : ℝ :=
  if t < 1 / 10 then interp2 t 0 (1 / 10) (45 / 100 * amax) (eta2 * amax)
  else if t < Tg then eta2 * amax
  else if t < 5 * Tg then (Tg / t) ^ gamma * eta2 * amax
  else (eta2 * (2 / 10 : ℝ) ^ gamma - eta1 * (t - 5 * Tg)) * amax

/-- The value of the property `spectrum`: spectrum.py 29-33. -/
structure Spectrum where
  T : List ℝ
  alpha : List ℝ

/-- `np.linspace(0, 6, 601)`: spectrum.py 18. -/
noncomputable def gbPeriods : List ℝ := (List.range 601).map fun k : ℕ => (k : ℝ) * (6 / 600)

/-- `GB50010(alpha_max, Tg, xi).spectrum`: spectrum.py 12-33. -/
noncomputable def gb50010 (amax Tg xi : ℝ) : Except PyErr Spectrum := do
  let gamma ← specGamma xi
  let eta1 ← specEta1 xi
  let eta2 ← specEta2 xi
  return ⟨gbPeriods, gbPeriods.map (gb50010At amax Tg gamma eta1 eta2)⟩

/-- The inner function `f` of `GB50011_spectrum`: wave2spec.py 137-145. -/
noncomputable def gb50011At (amax Tg gamma eta1 eta2 t : ℝ) : ℝ :=
  if t < 1 / 10 then 45 / 100 * amax + (eta2 - 45 / 100) * amax / (1 / 10) * t
  else if t < Tg then eta2 * amax
  else if t < 5 * Tg then (Tg / t) ^ gamma * eta2 * amax
  else (eta2 * (2 / 10 : ℝ) ^ gamma - eta1 * (t - 5 * Tg)) * amax

/-- `GB50011_spectrum(amax, Tg, zeta, dt)`: wave2spec.py 130-146.  `np.arange(0, 6, dt)` raises for `dt = 0`; its entries are
distinct, so the dictionary is the list of pairs in this order. -/
noncomputable def gb50011 (amax Tg zeta dt : ℝ) : Except PyErr (List (ℝ × ℝ)) := do
  let n ← pyDiv 6 dt
  let T := (List.range ⌈n⌉₊).map fun k : ℕ => (k : ℝ) * dt
  let gamma ← specGamma zeta
  let eta1 ← specEta1 zeta
  let eta2 ← specEta2 zeta
  return T.map fun t => (t, gb50011At amax Tg gamma eta1 eta2 t)

/-- `max(wave)` for a list of floats: raises `ValueError` when it is empty. -/
noncomputable def pyMax : List ℝ → Except PyErr ℝ
  | [] => .error .valueError
  | x :: l => .ok (l.foldl max x)

/-- `amptitude(wave, a_max)`: wave2spec.py 38-40 (`wave` is not empty here, so the division is evaluated at least once). -/
noncomputable def amptitude (wave : List ℝ) (amax : ℝ) : Except PyErr (List ℝ) := do
  let m ← pyMax wave
  wave.mapM fun i => pyDiv (i * amax) m

/-- Entry `k` of the full convolution `scipy.signal.convolve(p, q)`; entries beyond the ends count as zero. -/
noncomputable def convAt (p q : List ℝ) (k : ℕ) : ℝ :=
  ((List.range (k + 1)).map fun i => p.getD i 0 * q.getD (k - i) 0).sum

/-- The three lists returned by `duhamel`. -/
structure Response where
  Sa : List ℝ
  Sv : List ℝ
  Sd : List ℝ

/-- `duhamel(w, zeta, t, p)`: wave2spec.py 70-83, for at least two times, `p` not empty, `0 ≤ zeta < 1` and `w > 0`.  Outside these bounds numpy
yields nan or inf with a warning, which is not modelled; the values given here then mean nothing.  Rounding in `convolve` (which may use
a fast Fourier transform) is not modelled. -/
noncomputable def duhamel (w zeta : ℝ) (t p : List ℝ) : Response :=
  let dt := (t.getD (t.length - 1) 0 - t.getD 0 0) / ((t.length : ℝ) - 1)
  let wd := w * Real.sqrt (1 - zeta ^ 2)
  let q := t.map fun s => Real.exp (-zeta * wd * s) * Real.sin (wd * s)
  let Sd := (List.range t.length).map fun k => 1 / wd * convAt p q k * dt
  let Sv := Sd.map (· * wd)
  let Sa := Sv.map (· * wd)
  ⟨Sa, Sv, Sd⟩

/-- The times `np.arange(n)*dt` at which records are given (wave2spec.py 57). -/
noncomputable def sampleTimes (n : ℕ) (dt : ℝ) : List ℝ := (List.range n).map fun k : ℕ => (k : ℝ) * dt

end Hyperstatic
