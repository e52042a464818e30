import Verif.Model.Fourier

/-
Model of hyperstatic/app/seismic/wave_selection.py: `square_err` and `select` with `method='fft'` (the only one used).  A file is given by its
name, the number at the end of its name and the numbers in it.  Printing and plotting are modelled by what is printed and by which spectra are
plotted; the mean curve is not modelled.  `num_wave` is not negative.
-/

namespace Hyperstatic

/-- A file of ground motion.  `step` is `float(file.split(' ')[-1][:-4])`: wave_selection.py 18-19. -/
structure WaveFile where
  name : String
  step : Except PyErr ℝ
  data : List ℝ

/-- `square_err(x,y)`: wave_selection.py 3, for lists of the same length; nan in one of them gives nan. -/
noncomputable def squareErr (x : List (Option ℝ)) (y : List ℝ) : Option ℝ :=
  ((x.zip y).mapM (m := Option) fun q : Option ℝ × ℝ => q.1.map fun a => (a - q.2) ^ 2).map List.sum

/-- `l[i:j]` for `0 ≤ i ≤ j` -/
def pySlice {α : Type} (l : List α) (i j : ℕ) : List α := (l.drop i).take (j - i)

/-- The local variables `dt`, `s` and `MSE` of `select`. -/
structure SelectState where
  dt : ℝ
  code : List (ℝ × ℝ)
  mse : List (WaveFile × Option ℝ)

/-- The body of the first loop: wave_selection.py 18-36. -/
noncomputable def selectStep (amax Tg damp lo hi : ℝ) (st : SelectState) (f : WaveFile) : Except PyErr SelectState := open Classical in do
  let new ← f.step
  let st ← if new ≠ st.dt then (do
      let s ← gb50011 amax Tg damp new
      return { st with dt := new, code := s })
    else pure st
  let q ← fft2spec f.data st.dt damp (amax * 440)
  let domain := (List.range st.code.length).filter fun i => decide (lo ≤ (st.code.getD i (0, 0)).1 ∧ (st.code.getD i (0, 0)).1 ≤ hi)
  match domain.head?, domain.getLast? with
  | some i, some j =>
    return { st with mse := st.mse ++ [(f, squareErr (pySlice q.2 i j) (pySlice (st.code.map Prod.snd) i j))] }
  | _, _ => throw .indexError

/-- What `select` prints and plots: all files with their errors in order, the first `num_wave` of them, and the spectra plotted for these. -/
structure Selection where
  ranking : List (WaveFile × ℝ)
  champions : List (WaveFile × ℝ)
  plotted : List (WaveFile × (List ℝ × List (Option ℝ)))

/-- `select(files,amax,Tg,damp,sensitive,num_wave)`: wave_selection.py 8-47.  If an error is nan, the order after sorting is not specified and the
result is `none`. -/
noncomputable def select (files : List WaveFile) (amax Tg damp lo hi : ℝ) (num : ℕ) : Except PyErr (Option Selection) := open Classical in do
  let s ← gb50011 amax Tg damp (1 / 100)
  let st ← files.foldlM (selectStep amax Tg damp lo hi) ⟨1 / 100, s, []⟩
  match st.mse.mapM (m := Option) fun q => q.2.map fun e => (q.1, e) with
  | none => return none
  | some l =>
    let ranking := l.mergeSort fun a b => decide (a.2 ≤ b.2)
    let champions := ranking.take num
    let plotted ← champions.mapM fun c => do
      let q ← fft2spec c.1.data st.dt damp (amax * 440)
      return (c.1, q)
    return some ⟨ranking, champions, plotted⟩

end Hyperstatic
