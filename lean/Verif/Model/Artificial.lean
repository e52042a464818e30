import Verif.Model.Fourier
import Mathlib.Algebra.Order.Monoid.WithTop

/-
Model of hyperstatic/app/seismic/spec2wave.py: artificial ground motions.  The script has its data at the head and is run as a whole;
here the data are a structure, `ArtData.script` are those of the file.  The random phases are given.  numpy numbers that are nan or
infinite are `none`; rounding is not modelled.
-/

namespace Hyperstatic

/-- The data of the script: spec2wave.py 10-21. -/
structure ArtData where
  /-- `dω` -/
  step : ℝ
  /-- `ωk` -/
  omegas : List ℝ
  /-- `Ψk` -/
  phases : List ℝ
  dt : ℝ
  /-- `t` -/
  times : List ℝ
  r : ℝ
  zeta : ℝ
  td : ℝ
  pga : ℝ

/-- `np.arange(start,stop,step)` for a positive step -/
noncomputable def npArange (start stop step : ℝ) : List ℝ :=
  (List.range ⌈(stop - start) / step⌉₊).map fun k : ℕ => start + (k : ℝ) * step

/-- spec2wave.py 10-21; `phases` are the random numbers of line 12. -/
noncomputable def ArtData.script (phases : List ℝ) : ArtData where
  step := 2 / 100 * 2 * Real.pi
  omegas := npArange (2 * Real.pi / 6) (2 * Real.pi / (2 / 100)) (2 / 100 * 2 * Real.pi)
  phases := phases
  dt := 1 / 100
  times := npArange (1 / 10) 40 (1 / 100)
  r := 15 / 100
  zeta := 5 / 100
  td := 20
  pga := 70

/-- the target spectrum `S`: spec2wave.py 23 -/
noncomputable def ArtData.target (P : ArtData) : Except PyErr (List (ℝ × ℝ)) := gb50011 (P.pga / 440) (45 / 100) P.zeta P.dt

/-- the envelope `f`: spec2wave.py 25-34 -/
noncomputable def artEnvelope (t : ℝ) : ℝ :=
  if 0 < t ∧ t ≤ 10 then (t / 10) ^ 2
  else if 10 < t ∧ t < 20 then 1
  else Real.exp (-(1 / 10) * (t - 20))

/-- `2*np.pi/T` for an array of numbers that are not negative: a period of zero gives `inf`, spec2wave.py 37, 105. -/
noncomputable def circular (T : ℝ) : WithTop ℝ := if T = 0 then ⊤ else ((2 * Real.pi / T : ℝ) : WithTop ℝ)

/-- `np.interp(x,xp,fp)` for arrays of equal length (numpy/core/src/multiarray/compiled_base.c, `arr_interp` and
`binary_search_with_guess`): the last ordinate if `x` is above the last entry, else the first if it is below the first entry; numpy does
not test whether `xp` increases.  The search that follows is given for arrays that do increase: the largest `j` with `xp[j] ≤ x`. -/
noncomputable def npInterp (x : ℝ) (xp : List (WithTop ℝ)) (fp : List (Option ℝ)) : Except PyErr (Option ℝ) := open Classical in
  match xp.head?, xp.getLast? with
  | some lo, some hi =>
      if hi < (x : WithTop ℝ) then .ok (fp.getLast?.getD none)
      else if (x : WithTop ℝ) < lo then .ok (fp.head?.getD none)
      else
        let j := (xp.filter fun q => decide (q ≤ (x : WithTop ℝ))).length - 1
        match xp[j]?, xp[j + 1]?, fp[j]?, fp[j + 1]? with
        | some (some a), some (some b), some ya, some yb =>
            .ok (if a = x then ya else do let ya ← ya; let yb ← yb; return (yb - ya) / (b - a) * (x - a) + ya)
        | _, _, some ya, _ => .ok ya
        | _, _, _, _ => .ok none
  | _, _ => .error .valueError

/-- `ST(ω)`: spec2wave.py 36-39 -/
noncomputable def artTarget (S : List (ℝ × ℝ)) (w : ℝ) : Except PyErr (Option ℝ) :=
  npInterp w (S.map fun q => circular q.1) (S.map fun q => some q.2)

/-- `np.log` -/
noncomputable def npLog (x : ℝ) : Option ℝ := if 0 < x then some (Real.log x) else none

/-- division of numpy numbers -/
noncomputable def npDiv (x y : ℝ) : Option ℝ := if y = 0 then none else some (x / y)

/-- `Sτ(ωk)` for one frequency, `st` being `ST(ωk)`: spec2wave.py 41 -/
noncomputable def artDensity (P : ArtData) (w : ℝ) (st : Option ℝ) : Option ℝ := do
  let st ← st
  let a ← npDiv P.zeta (Real.pi * w)
  let q ← npDiv (1 - P.r) (w * P.td)
  let l ← npLog q
  let d ← npLog (-Real.pi * l)
  npDiv (a * st ^ 2) d

/-- `Ck`: spec2wave.py 51, 99 -/
noncomputable def artAmplitude (P : ArtData) (s : Option ℝ) : Option ℝ := do
  let s ← s
  if 4 * s * P.step < 0 then none else some (Real.sqrt (4 * s * P.step))

/-- `A(t)` for one time: spec2wave.py 53-57, 100-101, `ck` being the amplitudes -/
noncomputable def artMotionAt (P : ArtData) (ck : List (Option ℝ)) (t : ℝ) : Option ℝ := do
  let cs ← ck.mapM id
  return artEnvelope t * (List.zipWith (· * ·) cs (List.zipWith (fun w p => Real.cos (w * t + p)) P.omegas P.phases)).sum

/-- the densities before the first iteration: spec2wave.py 96 -/
noncomputable def artStart (P : ArtData) (st : List (Option ℝ)) : List (Option ℝ) := List.zipWith (artDensity P) P.omegas st

/-- `fft2spec` of spec2wave.py 63-89, the same program as in wave2spec.py; a record with nan has a spectrum of nan. -/
noncomputable def artSpectrum (P : ArtData) (accel : List (Option ℝ)) : Except PyErr (List ℝ × List (Option ℝ)) :=
  match accel.mapM id with
  | some a => fft2spec a P.dt P.zeta P.pga
  | none => do
      let T ← specPeriods P.dt
      return (T, T.map fun _ => none)

/-- one iteration of `A_fit`: spec2wave.py 99-109.  The new densities. -/
noncomputable def artFitStep (P : ArtData) (st s : List (Option ℝ)) : Except PyErr (List (Option ℝ)) := do
  let accel := P.times.map (artMotionAt P (s.map (artAmplitude P)))
  let sp ← artSpectrum P accel
  let sa ← P.omegas.mapM fun w => npInterp w (sp.1.map circular) sp.2
  return List.zipWith (fun x q => do let x ← x; let q ← q; return x * q) s
    (List.zipWith (fun x y => do let x ← x; let y ← y; npDiv x y) st sa)

/-- the densities after `n` iterations of `A_fit` -/
noncomputable def artFit (P : ArtData) (st : List (Option ℝ)) : ℕ → Except PyErr (List (Option ℝ))
  | 0 => .ok (artStart P st)
  | n + 1 => do
      let s ← artFit P st n
      artFitStep P st s

/-- `A_fit(t)`: spec2wave.py 95-110.  What is returned is the motion of the tenth iteration; the densities that this iteration computes
are not used, but an exception in it is passed on. -/
noncomputable def artMotion (P : ArtData) : Except PyErr (List (Option ℝ)) := do
  let S ← P.target
  let st ← P.omegas.mapM (artTarget S)
  let s ← artFit P st 9
  let _ ← artFitStep P st s
  return P.times.map (artMotionAt P (s.map (artAmplitude P)))

end Hyperstatic
