import Verif.Model.ShellK

/-
Model of the compiled routines of the 3-node shell: the C text in hyperstatic/core/fe_model/meta/membranes/T9/wrapped_code_0.c and
meta/plates/metaDKT/wrapped_code_0.c, the Cython wrappers metaT9.pyx and metaDKT.pyx, and their use in element/tria/DKT.py.

The C expressions are copied mechanically: `pow(a, n)` is written `a ^ n`, `1.0` is written `1`, doubles are real numbers.  In the text of
metaDKT the same 27 long expressions occur again and again, and in both texts the same divisors (squares of the sides, area); they are
named here, everything else is as it stands there.
-/

namespace Hyperstatic
open Matrix

namespace T9Text

/-- `out[0]` to `out[5]`, T9/wrapped_code_0.c 13-18; `ar` is the expression for the area -/
noncomputable def out0 (E mu ar y1 y2 y3 : ℝ) : Fin 6 → ℝ := ![
  0.25 * E * (1 / 2 - 1 / 2 * mu) * (y2 - y3) ^ 2 / ((1 - mu ^ 2) * ar ^ 2) + 0.25 * E * (y2 - y3) ^ 2 / ((1 - mu ^ 2) * ar ^ 2),
  0.25 * E * mu * (y2 - y3) ^ 2 / ((1 - mu ^ 2) * ar ^ 2) + 0.25 * E * (1 / 2 - 1 / 2 * mu) * (y2 - y3) ^ 2 / ((1 - mu ^ 2) * ar ^
    2),
  0.25 * E * (1 / 2 - 1 / 2 * mu) * (-y1 + y3) * (y2 - y3) / ((1 - mu ^ 2) * ar ^ 2) + 0.25 * E * (-y1 + y3) * (y2 - y3) / ((1 - mu
    ^ 2) * ar ^ 2),
  0.25 * E * mu * (-y1 + y3) * (y2 - y3) / ((1 - mu ^ 2) * ar ^ 2) + 0.25 * E * (1 / 2 - 1 / 2 * mu) * (-y1 + y3) * (y2 - y3) / ((1
    - mu ^ 2) * ar ^ 2),
  0.25 * E * (1 / 2 - 1 / 2 * mu) * (y1 - y2) * (y2 - y3) / ((1 - mu ^ 2) * ar ^ 2) + 0.25 * E * (y1 - y2) * (y2 - y3) / ((1 - mu ^
    2) * ar ^ 2),
  0.25 * E * mu * (y1 - y2) * (y2 - y3) / ((1 - mu ^ 2) * ar ^ 2) + 0.25 * E * (1 / 2 - 1 / 2 * mu) * (y1 - y2) * (y2 - y3) / ((1 -
    mu ^ 2) * ar ^ 2)]

/-- `out[6]` to `out[11]`, T9/wrapped_code_0.c 19-24; `ar` is the expression for the area -/
noncomputable def out1 (E mu ar y1 y2 y3 : ℝ) : Fin 6 → ℝ := ![
  0.25 * E * mu * (y2 - y3) ^ 2 / ((1 - mu ^ 2) * ar ^ 2) + 0.25 * E * (1 / 2 - 1 / 2 * mu) * (y2 - y3) ^ 2 / ((1 - mu ^ 2) * ar ^
    2),
  0.25 * E * (1 / 2 - 1 / 2 * mu) * (y2 - y3) ^ 2 / ((1 - mu ^ 2) * ar ^ 2) + 0.25 * E * (y2 - y3) ^ 2 / ((1 - mu ^ 2) * ar ^ 2),
  0.25 * E * mu * (-y1 + y3) * (y2 - y3) / ((1 - mu ^ 2) * ar ^ 2) + 0.25 * E * (1 / 2 - 1 / 2 * mu) * (-y1 + y3) * (y2 - y3) / ((1
    - mu ^ 2) * ar ^ 2),
  0.25 * E * (1 / 2 - 1 / 2 * mu) * (-y1 + y3) * (y2 - y3) / ((1 - mu ^ 2) * ar ^ 2) + 0.25 * E * (-y1 + y3) * (y2 - y3) / ((1 - mu
    ^ 2) * ar ^ 2),
  0.25 * E * mu * (y1 - y2) * (y2 - y3) / ((1 - mu ^ 2) * ar ^ 2) + 0.25 * E * (1 / 2 - 1 / 2 * mu) * (y1 - y2) * (y2 - y3) / ((1 -
    mu ^ 2) * ar ^ 2),
  0.25 * E * (1 / 2 - 1 / 2 * mu) * (y1 - y2) * (y2 - y3) / ((1 - mu ^ 2) * ar ^ 2) + 0.25 * E * (y1 - y2) * (y2 - y3) / ((1 - mu ^
    2) * ar ^ 2)]

/-- `out[12]` to `out[17]`, T9/wrapped_code_0.c 25-30; `ar` is the expression for the area -/
noncomputable def out2 (E mu ar y1 y2 y3 : ℝ) : Fin 6 → ℝ := ![
  0.25 * E * (1 / 2 - 1 / 2 * mu) * (-y1 + y3) * (y2 - y3) / ((1 - mu ^ 2) * ar ^ 2) + 0.25 * E * (-y1 + y3) * (y2 - y3) / ((1 - mu
    ^ 2) * ar ^ 2),
  0.25 * E * mu * (-y1 + y3) * (y2 - y3) / ((1 - mu ^ 2) * ar ^ 2) + 0.25 * E * (1 / 2 - 1 / 2 * mu) * (-y1 + y3) * (y2 - y3) / ((1
    - mu ^ 2) * ar ^ 2),
  0.25 * E * (1 / 2 - 1 / 2 * mu) * (-y1 + y3) ^ 2 / ((1 - mu ^ 2) * ar ^ 2) + 0.25 * E * (-y1 + y3) ^ 2 / ((1 - mu ^ 2) * ar ^ 2),
  0.25 * E * mu * (-y1 + y3) ^ 2 / ((1 - mu ^ 2) * ar ^ 2) + 0.25 * E * (1 / 2 - 1 / 2 * mu) * (-y1 + y3) ^ 2 / ((1 - mu ^ 2) * ar ^
    2),
  0.25 * E * (1 / 2 - 1 / 2 * mu) * (-y1 + y3) * (y1 - y2) / ((1 - mu ^ 2) * ar ^ 2) + 0.25 * E * (-y1 + y3) * (y1 - y2) / ((1 - mu
    ^ 2) * ar ^ 2),
  0.25 * E * mu * (-y1 + y3) * (y1 - y2) / ((1 - mu ^ 2) * ar ^ 2) + 0.25 * E * (1 / 2 - 1 / 2 * mu) * (-y1 + y3) * (y1 - y2) / ((1
    - mu ^ 2) * ar ^ 2)]

/-- `out[18]` to `out[23]`, T9/wrapped_code_0.c 31-36; `ar` is the expression for the area -/
noncomputable def out3 (E mu ar y1 y2 y3 : ℝ) : Fin 6 → ℝ := ![
  0.25 * E * mu * (-y1 + y3) * (y2 - y3) / ((1 - mu ^ 2) * ar ^ 2) + 0.25 * E * (1 / 2 - 1 / 2 * mu) * (-y1 + y3) * (y2 - y3) / ((1
    - mu ^ 2) * ar ^ 2),
  0.25 * E * (1 / 2 - 1 / 2 * mu) * (-y1 + y3) * (y2 - y3) / ((1 - mu ^ 2) * ar ^ 2) + 0.25 * E * (-y1 + y3) * (y2 - y3) / ((1 - mu
    ^ 2) * ar ^ 2),
  0.25 * E * mu * (-y1 + y3) ^ 2 / ((1 - mu ^ 2) * ar ^ 2) + 0.25 * E * (1 / 2 - 1 / 2 * mu) * (-y1 + y3) ^ 2 / ((1 - mu ^ 2) * ar ^
    2),
  0.25 * E * (1 / 2 - 1 / 2 * mu) * (-y1 + y3) ^ 2 / ((1 - mu ^ 2) * ar ^ 2) + 0.25 * E * (-y1 + y3) ^ 2 / ((1 - mu ^ 2) * ar ^ 2),
  0.25 * E * mu * (-y1 + y3) * (y1 - y2) / ((1 - mu ^ 2) * ar ^ 2) + 0.25 * E * (1 / 2 - 1 / 2 * mu) * (-y1 + y3) * (y1 - y2) / ((1
    - mu ^ 2) * ar ^ 2),
  0.25 * E * (1 / 2 - 1 / 2 * mu) * (-y1 + y3) * (y1 - y2) / ((1 - mu ^ 2) * ar ^ 2) + 0.25 * E * (-y1 + y3) * (y1 - y2) / ((1 - mu
    ^ 2) * ar ^ 2)]

/-- `out[24]` to `out[29]`, T9/wrapped_code_0.c 37-42; `ar` is the expression for the area -/
noncomputable def out4 (E mu ar y1 y2 y3 : ℝ) : Fin 6 → ℝ := ![
  0.25 * E * (1 / 2 - 1 / 2 * mu) * (y1 - y2) * (y2 - y3) / ((1 - mu ^ 2) * ar ^ 2) + 0.25 * E * (y1 - y2) * (y2 - y3) / ((1 - mu ^
    2) * ar ^ 2),
  0.25 * E * mu * (y1 - y2) * (y2 - y3) / ((1 - mu ^ 2) * ar ^ 2) + 0.25 * E * (1 / 2 - 1 / 2 * mu) * (y1 - y2) * (y2 - y3) / ((1 -
    mu ^ 2) * ar ^ 2),
  0.25 * E * (1 / 2 - 1 / 2 * mu) * (-y1 + y3) * (y1 - y2) / ((1 - mu ^ 2) * ar ^ 2) + 0.25 * E * (-y1 + y3) * (y1 - y2) / ((1 - mu
    ^ 2) * ar ^ 2),
  0.25 * E * mu * (-y1 + y3) * (y1 - y2) / ((1 - mu ^ 2) * ar ^ 2) + 0.25 * E * (1 / 2 - 1 / 2 * mu) * (-y1 + y3) * (y1 - y2) / ((1
    - mu ^ 2) * ar ^ 2),
  0.25 * E * (1 / 2 - 1 / 2 * mu) * (y1 - y2) ^ 2 / ((1 - mu ^ 2) * ar ^ 2) + 0.25 * E * (y1 - y2) ^ 2 / ((1 - mu ^ 2) * ar ^ 2),
  0.25 * E * mu * (y1 - y2) ^ 2 / ((1 - mu ^ 2) * ar ^ 2) + 0.25 * E * (1 / 2 - 1 / 2 * mu) * (y1 - y2) ^ 2 / ((1 - mu ^ 2) * ar ^
    2)]

/-- `out[30]` to `out[35]`, T9/wrapped_code_0.c 43-48; `ar` is the expression for the area -/
noncomputable def out5 (E mu ar y1 y2 y3 : ℝ) : Fin 6 → ℝ := ![
  0.25 * E * mu * (y1 - y2) * (y2 - y3) / ((1 - mu ^ 2) * ar ^ 2) + 0.25 * E * (1 / 2 - 1 / 2 * mu) * (y1 - y2) * (y2 - y3) / ((1 -
    mu ^ 2) * ar ^ 2),
  0.25 * E * (1 / 2 - 1 / 2 * mu) * (y1 - y2) * (y2 - y3) / ((1 - mu ^ 2) * ar ^ 2) + 0.25 * E * (y1 - y2) * (y2 - y3) / ((1 - mu ^
    2) * ar ^ 2),
  0.25 * E * mu * (-y1 + y3) * (y1 - y2) / ((1 - mu ^ 2) * ar ^ 2) + 0.25 * E * (1 / 2 - 1 / 2 * mu) * (-y1 + y3) * (y1 - y2) / ((1
    - mu ^ 2) * ar ^ 2),
  0.25 * E * (1 / 2 - 1 / 2 * mu) * (-y1 + y3) * (y1 - y2) / ((1 - mu ^ 2) * ar ^ 2) + 0.25 * E * (-y1 + y3) * (y1 - y2) / ((1 - mu
    ^ 2) * ar ^ 2),
  0.25 * E * mu * (y1 - y2) ^ 2 / ((1 - mu ^ 2) * ar ^ 2) + 0.25 * E * (1 / 2 - 1 / 2 * mu) * (y1 - y2) ^ 2 / ((1 - mu ^ 2) * ar ^
    2),
  0.25 * E * (1 / 2 - 1 / 2 * mu) * (y1 - y2) ^ 2 / ((1 - mu ^ 2) * ar ^ 2) + 0.25 * E * (y1 - y2) ^ 2 / ((1 - mu ^ 2) * ar ^ 2)]

/-- `autofunc` T9/wrapped_code_0.c 11-50: what is written to `out[n]`, `n = 6*i+j` -/
noncomputable def out (E mu _t x1 y1 x2 y2 x3 y3 : ℝ) (n : ℕ) : ℝ :=
  let ar := (1 / 2) * x1 * y2 - 1 / 2 * x1 * y3 - 1 / 2 * x2 * y1 + (1 / 2) * x2 * y3 + (1 / 2) * x3 * y1 - 1 / 2 * x3 * y2
  (![out0 E mu ar y1 y2 y3, out1 E mu ar y1 y2 y3, out2 E mu ar y1 y2 y3, out3 E mu ar y1 y2 y3, out4 E mu ar y1 y2 y3,
    out5 E mu ar y1 y2 y3] : Fin 6 → Fin 6 → ℝ) (Fin.ofNat 6 (n / 6)) (Fin.ofNat 6 n)

/-- `autofunc_c` metaT9.pyx 7-11, called with the coordinates in the order `x1,y1,x2,y2,x3,y3` (DKT.py 37): a 6 by 6 array, filled by rows -/
noncomputable def autofunc_c (E mu t : ℝ) (x y : Fin 3 → ℝ) : Matrix (Fin 3 × Fin 2) (Fin 3 × Fin 2) ℝ := fun k l =>
  out E mu t (x 0) (y 0) (x 1) (y 1) (x 2) (y 2) (6 * (2 * k.1.val + k.2.val) + (2 * l.1.val + l.2.val))

end T9Text

namespace DKTText

/-- The expression of the text that stands for entry (0, 0) of the strain matrix times twice the area; wherever it occurs in metaDKT/wrapped_code_0.c 13-93 -/
noncomputable def num00 (l12 _l23 l31 xi eta x1 y1 x2 y2 x3 y3 : ℝ) : ℝ :=
  (-y1 + y3) * (eta * (-(-6 * x1 + 6 * x2) / l12 + (6 * x1 - 6 * x3) / l31) + (1 - 2 * xi) * (-6 * x1 + 6 * x2) / l12) + (y1 - y2) *
    (-xi * ((-6 * x1 + 6 * x2) / l12 - (6 * x1 - 6 * x3) / l31) - (1 - 2 * eta) * (6 * x1 - 6 * x3) / l31)

/-- The expression of the text that stands for entry (0, 1) of the strain matrix times twice the area; wherever it occurs in metaDKT/wrapped_code_0.c 13-93 -/
noncomputable def num01 (l12 _l23 l31 xi eta x1 y1 x2 y2 x3 y3 : ℝ) : ℝ :=
  (-y1 + y3) * (-eta * ((-3 * x1 + 3 * x3) * (-y1 + y3) / l31 + (3 * x1 - 3 * x2) * (y1 - y2) / l12) + (1 - 2 * xi) * (3 * x1 - 3 *
    x2) * (y1 - y2) / l12) + (y1 - y2) * (-xi * ((-3 * x1 + 3 * x3) * (-y1 + y3) / l31 + (3 * x1 - 3 * x2) * (y1 - y2) / l12) + (1
    - 2 * eta) * (-3 * x1 + 3 * x3) * (-y1 + y3) / l31)

/-- The expression of the text that stands for entry (0, 2) of the strain matrix times twice the area; wherever it occurs in metaDKT/wrapped_code_0.c 13-93 -/
noncomputable def num02 (l12 _l23 l31 xi eta _x1 y1 _x2 y2 _x3 y3 : ℝ) : ℝ :=
  (-y1 + y3) * (-eta * (3 * (-y1 + y3) ^ 2 / l31 + 3 * (y1 - y2) ^ 2 / l12) + 6 * eta + 6 * xi + 3 * (1 - 2 * xi) * (y1 - y2) ^ 2 /
    l12 - 4) + (y1 - y2) * (6 * eta - xi * (3 * (-y1 + y3) ^ 2 / l31 + 3 * (y1 - y2) ^ 2 / l12) + 6 * xi + 3 * (1 - 2 * eta) *
    (-y1 + y3) ^ 2 / l31 - 4)

/-- The expression of the text that stands for entry (0, 3) of the strain matrix times twice the area; wherever it occurs in metaDKT/wrapped_code_0.c 13-93 -/
noncomputable def num03 (l12 l23 _l31 xi eta x1 y1 x2 y2 x3 y3 : ℝ) : ℝ :=
  xi * (y1 - y2) * ((-6 * x1 + 6 * x2) / l12 + (-6 * x2 + 6 * x3) / l23) + (-y1 + y3) * (eta * ((-6 * x1 + 6 * x2) / l12 + (-6 * x2
    + 6 * x3) / l23) - (1 - 2 * xi) * (-6 * x1 + 6 * x2) / l12)

/-- The expression of the text that stands for entry (0, 4) of the strain matrix times twice the area; wherever it occurs in metaDKT/wrapped_code_0.c 13-93 -/
noncomputable def num04 (l12 l23 _l31 xi eta x1 y1 x2 y2 x3 y3 : ℝ) : ℝ :=
  xi * (y1 - y2) * (-(3 * x1 - 3 * x2) * (y1 - y2) / l12 + (3 * x2 - 3 * x3) * (y2 - y3) / l23) + (-y1 + y3) * (-eta * ((3 * x1 - 3
    * x2) * (y1 - y2) / l12 - (3 * x2 - 3 * x3) * (y2 - y3) / l23) + (1 - 2 * xi) * (3 * x1 - 3 * x2) * (y1 - y2) / l12)

/-- The expression of the text that stands for entry (0, 5) of the strain matrix times twice the area; wherever it occurs in metaDKT/wrapped_code_0.c 13-93 -/
noncomputable def num05 (l12 l23 _l31 xi eta _x1 y1 _x2 y2 _x3 y3 : ℝ) : ℝ :=
  -xi * (y1 - y2) * (3 * (y1 - y2) ^ 2 / l12 - 3 * (y2 - y3) ^ 2 / l23) + (-y1 + y3) * (eta * (-3 * (y1 - y2) ^ 2 / l12 + 3 * (y2 -
    y3) ^ 2 / l23) + 6 * xi + 3 * (1 - 2 * xi) * (y1 - y2) ^ 2 / l12 - 2)

/-- The expression of the text that stands for entry (0, 6) of the strain matrix times twice the area; wherever it occurs in metaDKT/wrapped_code_0.c 13-93 -/
noncomputable def num06 (_l12 l23 l31 xi eta x1 y1 x2 y2 x3 y3 : ℝ) : ℝ :=
  -eta * (-y1 + y3) * ((6 * x1 - 6 * x3) / l31 + (-6 * x2 + 6 * x3) / l23) + (y1 - y2) * (-xi * ((6 * x1 - 6 * x3) / l31 + (-6 * x2
    + 6 * x3) / l23) + (1 - 2 * eta) * (6 * x1 - 6 * x3) / l31)

/-- The expression of the text that stands for entry (0, 7) of the strain matrix times twice the area; wherever it occurs in metaDKT/wrapped_code_0.c 13-93 -/
noncomputable def num07 (_l12 l23 l31 xi eta x1 y1 x2 y2 x3 y3 : ℝ) : ℝ :=
  eta * (-y1 + y3) * (-(-3 * x1 + 3 * x3) * (-y1 + y3) / l31 + (3 * x2 - 3 * x3) * (y2 - y3) / l23) + (y1 - y2) * (xi * (-(-3 * x1 +
    3 * x3) * (-y1 + y3) / l31 + (3 * x2 - 3 * x3) * (y2 - y3) / l23) + (1 - 2 * eta) * (-3 * x1 + 3 * x3) * (-y1 + y3) / l31)

/-- The expression of the text that stands for entry (0, 8) of the strain matrix times twice the area; wherever it occurs in metaDKT/wrapped_code_0.c 13-93 -/
noncomputable def num08 (_l12 l23 l31 xi eta _x1 y1 _x2 y2 _x3 y3 : ℝ) : ℝ :=
  -eta * (-y1 + y3) * (3 * (-y1 + y3) ^ 2 / l31 - 3 * (y2 - y3) ^ 2 / l23) + (y1 - y2) * (6 * eta + xi * (-3 * (-y1 + y3) ^ 2 / l31
    + 3 * (y2 - y3) ^ 2 / l23) + 3 * (1 - 2 * eta) * (-y1 + y3) ^ 2 / l31 - 2)

/-- The expression of the text that stands for entry (1, 0) of the strain matrix times twice the area; wherever it occurs in metaDKT/wrapped_code_0.c 13-93 -/
noncomputable def num10 (l12 _l23 l31 xi eta x1 y1 x2 y2 x3 y3 : ℝ) : ℝ :=
  -(x1 - x2) * (-xi * ((-6 * y1 + 6 * y2) / l12 - (6 * y1 - 6 * y3) / l31) - (1 - 2 * eta) * (6 * y1 - 6 * y3) / l31) + (x1 - x3) *
    (eta * (-(-6 * y1 + 6 * y2) / l12 + (6 * y1 - 6 * y3) / l31) + (1 - 2 * xi) * (-6 * y1 + 6 * y2) / l12)

/-- The expression of the text that stands for entry (1, 1) of the strain matrix times twice the area; wherever it occurs in metaDKT/wrapped_code_0.c 13-93 -/
noncomputable def num11 (l12 _l23 l31 xi eta x1 y1 x2 y2 x3 y3 : ℝ) : ℝ :=
  -(x1 - x2) * (-xi * (3 * (-y1 + y3) ^ 2 / l31 + 3 * (y1 - y2) ^ 2 / l12) + 3 * (1 - 2 * eta) * (-y1 + y3) ^ 2 / l31 + 1) + (x1 -
    x3) * (-eta * (3 * (-y1 + y3) ^ 2 / l31 + 3 * (y1 - y2) ^ 2 / l12) + 3 * (1 - 2 * xi) * (y1 - y2) ^ 2 / l12 + 1)

/-- The expression of the text that stands for entry (1, 2) of the strain matrix times twice the area; wherever it occurs in metaDKT/wrapped_code_0.c 13-93 -/
noncomputable def num12 (l12 _l23 l31 xi eta x1 y1 x2 y2 x3 y3 : ℝ) : ℝ :=
  -(x1 - x2) * (xi * ((-3 * x1 + 3 * x3) * (-y1 + y3) / l31 + (3 * x1 - 3 * x2) * (y1 - y2) / l12) - (1 - 2 * eta) * (-3 * x1 + 3 *
    x3) * (-y1 + y3) / l31) + (x1 - x3) * (eta * ((-3 * x1 + 3 * x3) * (-y1 + y3) / l31 + (3 * x1 - 3 * x2) * (y1 - y2) / l12) -
    (1 - 2 * xi) * (3 * x1 - 3 * x2) * (y1 - y2) / l12)

/-- The expression of the text that stands for entry (1, 3) of the strain matrix times twice the area; wherever it occurs in metaDKT/wrapped_code_0.c 13-93 -/
noncomputable def num13 (l12 l23 _l31 xi eta x1 y1 x2 y2 x3 y3 : ℝ) : ℝ :=
  -xi * (x1 - x2) * ((-6 * y1 + 6 * y2) / l12 + (-6 * y2 + 6 * y3) / l23) + (x1 - x3) * (eta * ((-6 * y1 + 6 * y2) / l12 + (-6 * y2
    + 6 * y3) / l23) - (1 - 2 * xi) * (-6 * y1 + 6 * y2) / l12)

/-- The expression of the text that stands for entry (1, 4) of the strain matrix times twice the area; wherever it occurs in metaDKT/wrapped_code_0.c 13-93 -/
noncomputable def num14 (l12 l23 _l31 xi eta x1 y1 x2 y2 x3 y3 : ℝ) : ℝ :=
  -xi * (x1 - x2) * (-3 * (y1 - y2) ^ 2 / l12 + 3 * (y2 - y3) ^ 2 / l23) + (x1 - x3) * (eta * (-3 * (y1 - y2) ^ 2 / l12 + 3 * (y2 -
    y3) ^ 2 / l23) + 3 * (1 - 2 * xi) * (y1 - y2) ^ 2 / l12 - 1)

/-- The expression of the text that stands for entry (1, 5) of the strain matrix times twice the area; wherever it occurs in metaDKT/wrapped_code_0.c 13-93 -/
noncomputable def num15 (l12 l23 _l31 xi eta x1 y1 x2 y2 x3 y3 : ℝ) : ℝ :=
  xi * (x1 - x2) * (-(3 * x1 - 3 * x2) * (y1 - y2) / l12 + (3 * x2 - 3 * x3) * (y2 - y3) / l23) + (x1 - x3) * (-eta * (-(3 * x1 - 3
    * x2) * (y1 - y2) / l12 + (3 * x2 - 3 * x3) * (y2 - y3) / l23) - (1 - 2 * xi) * (3 * x1 - 3 * x2) * (y1 - y2) / l12)

/-- The expression of the text that stands for entry (1, 6) of the strain matrix times twice the area; wherever it occurs in metaDKT/wrapped_code_0.c 13-93 -/
noncomputable def num16 (_l12 l23 l31 xi eta x1 y1 x2 y2 x3 y3 : ℝ) : ℝ :=
  -eta * (x1 - x3) * ((6 * y1 - 6 * y3) / l31 + (-6 * y2 + 6 * y3) / l23) - (x1 - x2) * (-xi * ((6 * y1 - 6 * y3) / l31 + (-6 * y2 +
    6 * y3) / l23) + (1 - 2 * eta) * (6 * y1 - 6 * y3) / l31)

/-- The expression of the text that stands for entry (1, 7) of the strain matrix times twice the area; wherever it occurs in metaDKT/wrapped_code_0.c 13-93 -/
noncomputable def num17 (_l12 l23 l31 xi eta x1 y1 x2 y2 x3 y3 : ℝ) : ℝ :=
  eta * (x1 - x3) * (-3 * (-y1 + y3) ^ 2 / l31 + 3 * (y2 - y3) ^ 2 / l23) - (x1 - x2) * (xi * (-3 * (-y1 + y3) ^ 2 / l31 + 3 * (y2 -
    y3) ^ 2 / l23) + 3 * (1 - 2 * eta) * (-y1 + y3) ^ 2 / l31 - 1)

/-- The expression of the text that stands for entry (1, 8) of the strain matrix times twice the area; wherever it occurs in metaDKT/wrapped_code_0.c 13-93 -/
noncomputable def num18 (_l12 l23 l31 xi eta x1 y1 x2 y2 x3 y3 : ℝ) : ℝ :=
  -eta * (x1 - x3) * (-(-3 * x1 + 3 * x3) * (-y1 + y3) / l31 + (3 * x2 - 3 * x3) * (y2 - y3) / l23) - (x1 - x2) * (-xi * (-(-3 * x1
    + 3 * x3) * (-y1 + y3) / l31 + (3 * x2 - 3 * x3) * (y2 - y3) / l23) - (1 - 2 * eta) * (-3 * x1 + 3 * x3) * (-y1 + y3) / l31)

/-- The expression of the text that stands for entry (2, 0) of the strain matrix times twice the area; wherever it occurs in metaDKT/wrapped_code_0.c 13-93 -/
noncomputable def num20 (l12 _l23 l31 xi eta x1 y1 x2 y2 x3 y3 : ℝ) : ℝ :=
  -(x1 - x2) * (-xi * ((-6 * x1 + 6 * x2) / l12 - (6 * x1 - 6 * x3) / l31) - (1 - 2 * eta) * (6 * x1 - 6 * x3) / l31) + (x1 - x3) *
    (eta * (-(-6 * x1 + 6 * x2) / l12 + (6 * x1 - 6 * x3) / l31) + (1 - 2 * xi) * (-6 * x1 + 6 * x2) / l12) + (-y1 + y3) * (eta *
    (-(-6 * y1 + 6 * y2) / l12 + (6 * y1 - 6 * y3) / l31) + (1 - 2 * xi) * (-6 * y1 + 6 * y2) / l12) + (y1 - y2) * (-xi * ((-6 *
    y1 + 6 * y2) / l12 - (6 * y1 - 6 * y3) / l31) - (1 - 2 * eta) * (6 * y1 - 6 * y3) / l31)

/-- The expression of the text that stands for entry (2, 1) of the strain matrix times twice the area; wherever it occurs in metaDKT/wrapped_code_0.c 13-93 -/
noncomputable def num21 (l12 _l23 l31 xi eta x1 y1 x2 y2 x3 y3 : ℝ) : ℝ :=
  -(x1 - x2) * (-xi * ((-3 * x1 + 3 * x3) * (-y1 + y3) / l31 + (3 * x1 - 3 * x2) * (y1 - y2) / l12) + (1 - 2 * eta) * (-3 * x1 + 3 *
    x3) * (-y1 + y3) / l31) + (x1 - x3) * (-eta * ((-3 * x1 + 3 * x3) * (-y1 + y3) / l31 + (3 * x1 - 3 * x2) * (y1 - y2) / l12) +
    (1 - 2 * xi) * (3 * x1 - 3 * x2) * (y1 - y2) / l12) + (-y1 + y3) * (-eta * (3 * (-y1 + y3) ^ 2 / l31 + 3 * (y1 - y2) ^ 2 /
    l12) + 3 * (1 - 2 * xi) * (y1 - y2) ^ 2 / l12 + 1) + (y1 - y2) * (-xi * (3 * (-y1 + y3) ^ 2 / l31 + 3 * (y1 - y2) ^ 2 / l12) +
    3 * (1 - 2 * eta) * (-y1 + y3) ^ 2 / l31 + 1)

/-- The expression of the text that stands for entry (2, 2) of the strain matrix times twice the area; wherever it occurs in metaDKT/wrapped_code_0.c 13-93 -/
noncomputable def num22 (l12 _l23 l31 xi eta x1 y1 x2 y2 x3 y3 : ℝ) : ℝ :=
  -(x1 - x2) * (6 * eta - xi * (3 * (-y1 + y3) ^ 2 / l31 + 3 * (y1 - y2) ^ 2 / l12) + 6 * xi + 3 * (1 - 2 * eta) * (-y1 + y3) ^ 2 /
    l31 - 4) + (x1 - x3) * (-eta * (3 * (-y1 + y3) ^ 2 / l31 + 3 * (y1 - y2) ^ 2 / l12) + 6 * eta + 6 * xi + 3 * (1 - 2 * xi) *
    (y1 - y2) ^ 2 / l12 - 4) + (-y1 + y3) * (eta * ((-3 * x1 + 3 * x3) * (-y1 + y3) / l31 + (3 * x1 - 3 * x2) * (y1 - y2) / l12) -
    (1 - 2 * xi) * (3 * x1 - 3 * x2) * (y1 - y2) / l12) + (y1 - y2) * (xi * ((-3 * x1 + 3 * x3) * (-y1 + y3) / l31 + (3 * x1 - 3 *
    x2) * (y1 - y2) / l12) - (1 - 2 * eta) * (-3 * x1 + 3 * x3) * (-y1 + y3) / l31)

/-- The expression of the text that stands for entry (2, 3) of the strain matrix times twice the area; wherever it occurs in metaDKT/wrapped_code_0.c 13-93 -/
noncomputable def num23 (l12 l23 _l31 xi eta x1 y1 x2 y2 x3 y3 : ℝ) : ℝ :=
  -xi * (x1 - x2) * ((-6 * x1 + 6 * x2) / l12 + (-6 * x2 + 6 * x3) / l23) + xi * (y1 - y2) * ((-6 * y1 + 6 * y2) / l12 + (-6 * y2 +
    6 * y3) / l23) + (x1 - x3) * (eta * ((-6 * x1 + 6 * x2) / l12 + (-6 * x2 + 6 * x3) / l23) - (1 - 2 * xi) * (-6 * x1 + 6 * x2)
    / l12) + (-y1 + y3) * (eta * ((-6 * y1 + 6 * y2) / l12 + (-6 * y2 + 6 * y3) / l23) - (1 - 2 * xi) * (-6 * y1 + 6 * y2) / l12)

/-- The expression of the text that stands for entry (2, 4) of the strain matrix times twice the area; wherever it occurs in metaDKT/wrapped_code_0.c 13-93 -/
noncomputable def num24 (l12 l23 _l31 xi eta x1 y1 x2 y2 x3 y3 : ℝ) : ℝ :=
  -xi * (x1 - x2) * (-(3 * x1 - 3 * x2) * (y1 - y2) / l12 + (3 * x2 - 3 * x3) * (y2 - y3) / l23) + xi * (y1 - y2) * (-3 * (y1 - y2)
    ^ 2 / l12 + 3 * (y2 - y3) ^ 2 / l23) + (x1 - x3) * (-eta * ((3 * x1 - 3 * x2) * (y1 - y2) / l12 - (3 * x2 - 3 * x3) * (y2 -
    y3) / l23) + (1 - 2 * xi) * (3 * x1 - 3 * x2) * (y1 - y2) / l12) + (-y1 + y3) * (eta * (-3 * (y1 - y2) ^ 2 / l12 + 3 * (y2 -
    y3) ^ 2 / l23) + 3 * (1 - 2 * xi) * (y1 - y2) ^ 2 / l12 - 1)

/-- The expression of the text that stands for entry (2, 5) of the strain matrix times twice the area; wherever it occurs in metaDKT/wrapped_code_0.c 13-93 -/
noncomputable def num25 (l12 l23 _l31 xi eta x1 y1 x2 y2 x3 y3 : ℝ) : ℝ :=
  xi * (x1 - x2) * (3 * (y1 - y2) ^ 2 / l12 - 3 * (y2 - y3) ^ 2 / l23) - xi * (y1 - y2) * (-(3 * x1 - 3 * x2) * (y1 - y2) / l12 + (3
    * x2 - 3 * x3) * (y2 - y3) / l23) + (x1 - x3) * (eta * (-3 * (y1 - y2) ^ 2 / l12 + 3 * (y2 - y3) ^ 2 / l23) + 6 * xi + 3 * (1
    - 2 * xi) * (y1 - y2) ^ 2 / l12 - 2) + (-y1 + y3) * (-eta * (-(3 * x1 - 3 * x2) * (y1 - y2) / l12 + (3 * x2 - 3 * x3) * (y2 -
    y3) / l23) - (1 - 2 * xi) * (3 * x1 - 3 * x2) * (y1 - y2) / l12)

/-- The expression of the text that stands for entry (2, 6) of the strain matrix times twice the area; wherever it occurs in metaDKT/wrapped_code_0.c 13-93 -/
noncomputable def num26 (_l12 l23 l31 xi eta x1 y1 x2 y2 x3 y3 : ℝ) : ℝ :=
  -eta * (x1 - x3) * ((6 * x1 - 6 * x3) / l31 + (-6 * x2 + 6 * x3) / l23) - eta * (-y1 + y3) * ((6 * y1 - 6 * y3) / l31 + (-6 * y2 +
    6 * y3) / l23) - (x1 - x2) * (-xi * ((6 * x1 - 6 * x3) / l31 + (-6 * x2 + 6 * x3) / l23) + (1 - 2 * eta) * (6 * x1 - 6 * x3) /
    l31) + (y1 - y2) * (-xi * ((6 * y1 - 6 * y3) / l31 + (-6 * y2 + 6 * y3) / l23) + (1 - 2 * eta) * (6 * y1 - 6 * y3) / l31)

/-- The expression of the text that stands for entry (2, 7) of the strain matrix times twice the area; wherever it occurs in metaDKT/wrapped_code_0.c 13-93 -/
noncomputable def num27 (_l12 l23 l31 xi eta x1 y1 x2 y2 x3 y3 : ℝ) : ℝ :=
  eta * (x1 - x3) * (-(-3 * x1 + 3 * x3) * (-y1 + y3) / l31 + (3 * x2 - 3 * x3) * (y2 - y3) / l23) + eta * (-y1 + y3) * (-3 * (-y1 +
    y3) ^ 2 / l31 + 3 * (y2 - y3) ^ 2 / l23) - (x1 - x2) * (xi * (-(-3 * x1 + 3 * x3) * (-y1 + y3) / l31 + (3 * x2 - 3 * x3) * (y2
    - y3) / l23) + (1 - 2 * eta) * (-3 * x1 + 3 * x3) * (-y1 + y3) / l31) + (y1 - y2) * (xi * (-3 * (-y1 + y3) ^ 2 / l31 + 3 * (y2
    - y3) ^ 2 / l23) + 3 * (1 - 2 * eta) * (-y1 + y3) ^ 2 / l31 - 1)

/-- The expression of the text that stands for entry (2, 8) of the strain matrix times twice the area; wherever it occurs in metaDKT/wrapped_code_0.c 13-93 -/
noncomputable def num28 (_l12 l23 l31 xi eta x1 y1 x2 y2 x3 y3 : ℝ) : ℝ :=
  -eta * (x1 - x3) * (3 * (-y1 + y3) ^ 2 / l31 - 3 * (y2 - y3) ^ 2 / l23) - eta * (-y1 + y3) * (-(-3 * x1 + 3 * x3) * (-y1 + y3) /
    l31 + (3 * x2 - 3 * x3) * (y2 - y3) / l23) - (x1 - x2) * (6 * eta + xi * (-3 * (-y1 + y3) ^ 2 / l31 + 3 * (y2 - y3) ^ 2 / l23)
    + 3 * (1 - 2 * eta) * (-y1 + y3) ^ 2 / l31 - 2) + (y1 - y2) * (-xi * (-(-3 * x1 + 3 * x3) * (-y1 + y3) / l31 + (3 * x2 - 3 *
    x3) * (y2 - y3) / l23) - (1 - 2 * eta) * (-3 * x1 + 3 * x3) * (-y1 + y3) / l31)

/-- the expressions of row 0; metaDKT/wrapped_code_0.c 13-93 -/
noncomputable def row0 (l12 l23 l31 xi eta x1 y1 x2 y2 x3 y3 : ℝ) : Fin 9 → ℝ := ![
  num00 l12 l23 l31 xi eta x1 y1 x2 y2 x3 y3,
  num01 l12 l23 l31 xi eta x1 y1 x2 y2 x3 y3,
  num02 l12 l23 l31 xi eta x1 y1 x2 y2 x3 y3,
  num03 l12 l23 l31 xi eta x1 y1 x2 y2 x3 y3,
  num04 l12 l23 l31 xi eta x1 y1 x2 y2 x3 y3,
  num05 l12 l23 l31 xi eta x1 y1 x2 y2 x3 y3,
  num06 l12 l23 l31 xi eta x1 y1 x2 y2 x3 y3,
  num07 l12 l23 l31 xi eta x1 y1 x2 y2 x3 y3,
  num08 l12 l23 l31 xi eta x1 y1 x2 y2 x3 y3]

/-- the expressions of row 1; metaDKT/wrapped_code_0.c 13-93 -/
noncomputable def row1 (l12 l23 l31 xi eta x1 y1 x2 y2 x3 y3 : ℝ) : Fin 9 → ℝ := ![
  num10 l12 l23 l31 xi eta x1 y1 x2 y2 x3 y3,
  num11 l12 l23 l31 xi eta x1 y1 x2 y2 x3 y3,
  num12 l12 l23 l31 xi eta x1 y1 x2 y2 x3 y3,
  num13 l12 l23 l31 xi eta x1 y1 x2 y2 x3 y3,
  num14 l12 l23 l31 xi eta x1 y1 x2 y2 x3 y3,
  num15 l12 l23 l31 xi eta x1 y1 x2 y2 x3 y3,
  num16 l12 l23 l31 xi eta x1 y1 x2 y2 x3 y3,
  num17 l12 l23 l31 xi eta x1 y1 x2 y2 x3 y3,
  num18 l12 l23 l31 xi eta x1 y1 x2 y2 x3 y3]

/-- the expressions of row 2; metaDKT/wrapped_code_0.c 13-93 -/
noncomputable def row2 (l12 l23 l31 xi eta x1 y1 x2 y2 x3 y3 : ℝ) : Fin 9 → ℝ := ![
  num20 l12 l23 l31 xi eta x1 y1 x2 y2 x3 y3,
  num21 l12 l23 l31 xi eta x1 y1 x2 y2 x3 y3,
  num22 l12 l23 l31 xi eta x1 y1 x2 y2 x3 y3,
  num23 l12 l23 l31 xi eta x1 y1 x2 y2 x3 y3,
  num24 l12 l23 l31 xi eta x1 y1 x2 y2 x3 y3,
  num25 l12 l23 l31 xi eta x1 y1 x2 y2 x3 y3,
  num26 l12 l23 l31 xi eta x1 y1 x2 y2 x3 y3,
  num27 l12 l23 l31 xi eta x1 y1 x2 y2 x3 y3,
  num28 l12 l23 l31 xi eta x1 y1 x2 y2 x3 y3]

/-- `out[0]` to `out[8]`, metaDKT/wrapped_code_0.c 13-21 -/
noncomputable def out0 (E mu t a2 : ℝ) (f0 f1 f2 : Fin 9 → ℝ) : Fin 9 → ℝ := ![
  (1 / 12) * E * t ^ 3 * (1 / 2 - 1 / 2 * mu) * (f2 0) ^ 2 / ((1 - mu ^ 2) * a2 ^ 2) + (f1 0) * ((1 / 12) * E * mu * t ^ 3 * (f0 0)
    / ((1 - mu ^ 2) * a2) + (1 / 12) * E * t ^ 3 * (f1 0) / ((1 - mu ^ 2) * a2)) / a2 + (f0 0) * ((1 / 12) * E * mu * t ^ 3 * (f1
    0) / ((1 - mu ^ 2) * a2) + (1 / 12) * E * t ^ 3 * (f0 0) / ((1 - mu ^ 2) * a2)) / a2,
  (1 / 12) * E * t ^ 3 * (1 / 2 - 1 / 2 * mu) * (f2 0) * (f2 1) / ((1 - mu ^ 2) * a2 ^ 2) + (f1 1) * ((1 / 12) * E * mu * t ^ 3 *
    (f0 0) / ((1 - mu ^ 2) * a2) + (1 / 12) * E * t ^ 3 * (f1 0) / ((1 - mu ^ 2) * a2)) / a2 + (f0 1) * ((1 / 12) * E * mu * t ^ 3
    * (f1 0) / ((1 - mu ^ 2) * a2) + (1 / 12) * E * t ^ 3 * (f0 0) / ((1 - mu ^ 2) * a2)) / a2,
  (1 / 12) * E * t ^ 3 * (1 / 2 - 1 / 2 * mu) * (f2 0) * (f2 2) / ((1 - mu ^ 2) * a2 ^ 2) + (f1 2) * ((1 / 12) * E * mu * t ^ 3 *
    (f0 0) / ((1 - mu ^ 2) * a2) + (1 / 12) * E * t ^ 3 * (f1 0) / ((1 - mu ^ 2) * a2)) / a2 + (f0 2) * ((1 / 12) * E * mu * t ^ 3
    * (f1 0) / ((1 - mu ^ 2) * a2) + (1 / 12) * E * t ^ 3 * (f0 0) / ((1 - mu ^ 2) * a2)) / a2,
  (1 / 12) * E * t ^ 3 * (1 / 2 - 1 / 2 * mu) * (f2 0) * (f2 3) / ((1 - mu ^ 2) * a2 ^ 2) + (f1 3) * ((1 / 12) * E * mu * t ^ 3 *
    (f0 0) / ((1 - mu ^ 2) * a2) + (1 / 12) * E * t ^ 3 * (f1 0) / ((1 - mu ^ 2) * a2)) / a2 + (f0 3) * ((1 / 12) * E * mu * t ^ 3
    * (f1 0) / ((1 - mu ^ 2) * a2) + (1 / 12) * E * t ^ 3 * (f0 0) / ((1 - mu ^ 2) * a2)) / a2,
  (1 / 12) * E * t ^ 3 * (1 / 2 - 1 / 2 * mu) * (f2 0) * (f2 4) / ((1 - mu ^ 2) * a2 ^ 2) + (f1 4) * ((1 / 12) * E * mu * t ^ 3 *
    (f0 0) / ((1 - mu ^ 2) * a2) + (1 / 12) * E * t ^ 3 * (f1 0) / ((1 - mu ^ 2) * a2)) / a2 + (f0 4) * ((1 / 12) * E * mu * t ^ 3
    * (f1 0) / ((1 - mu ^ 2) * a2) + (1 / 12) * E * t ^ 3 * (f0 0) / ((1 - mu ^ 2) * a2)) / a2,
  (1 / 12) * E * t ^ 3 * (1 / 2 - 1 / 2 * mu) * (f2 0) * (f2 5) / ((1 - mu ^ 2) * a2 ^ 2) + (f1 5) * ((1 / 12) * E * mu * t ^ 3 *
    (f0 0) / ((1 - mu ^ 2) * a2) + (1 / 12) * E * t ^ 3 * (f1 0) / ((1 - mu ^ 2) * a2)) / a2 + (f0 5) * ((1 / 12) * E * mu * t ^ 3
    * (f1 0) / ((1 - mu ^ 2) * a2) + (1 / 12) * E * t ^ 3 * (f0 0) / ((1 - mu ^ 2) * a2)) / a2,
  (1 / 12) * E * t ^ 3 * (1 / 2 - 1 / 2 * mu) * (f2 0) * (f2 6) / ((1 - mu ^ 2) * a2 ^ 2) + (f1 6) * ((1 / 12) * E * mu * t ^ 3 *
    (f0 0) / ((1 - mu ^ 2) * a2) + (1 / 12) * E * t ^ 3 * (f1 0) / ((1 - mu ^ 2) * a2)) / a2 + (f0 6) * ((1 / 12) * E * mu * t ^ 3
    * (f1 0) / ((1 - mu ^ 2) * a2) + (1 / 12) * E * t ^ 3 * (f0 0) / ((1 - mu ^ 2) * a2)) / a2,
  (1 / 12) * E * t ^ 3 * (1 / 2 - 1 / 2 * mu) * (f2 0) * (f2 7) / ((1 - mu ^ 2) * a2 ^ 2) + (f1 7) * ((1 / 12) * E * mu * t ^ 3 *
    (f0 0) / ((1 - mu ^ 2) * a2) + (1 / 12) * E * t ^ 3 * (f1 0) / ((1 - mu ^ 2) * a2)) / a2 + (f0 7) * ((1 / 12) * E * mu * t ^ 3
    * (f1 0) / ((1 - mu ^ 2) * a2) + (1 / 12) * E * t ^ 3 * (f0 0) / ((1 - mu ^ 2) * a2)) / a2,
  (1 / 12) * E * t ^ 3 * (1 / 2 - 1 / 2 * mu) * (f2 0) * (f2 8) / ((1 - mu ^ 2) * a2 ^ 2) + (f1 8) * ((1 / 12) * E * mu * t ^ 3 *
    (f0 0) / ((1 - mu ^ 2) * a2) + (1 / 12) * E * t ^ 3 * (f1 0) / ((1 - mu ^ 2) * a2)) / a2 + (f0 8) * ((1 / 12) * E * mu * t ^ 3
    * (f1 0) / ((1 - mu ^ 2) * a2) + (1 / 12) * E * t ^ 3 * (f0 0) / ((1 - mu ^ 2) * a2)) / a2]

/-- `out[9]` to `out[17]`, metaDKT/wrapped_code_0.c 22-30 -/
noncomputable def out1 (E mu t a2 : ℝ) (f0 f1 f2 : Fin 9 → ℝ) : Fin 9 → ℝ := ![
  (1 / 12) * E * t ^ 3 * (1 / 2 - 1 / 2 * mu) * (f2 0) * (f2 1) / ((1 - mu ^ 2) * a2 ^ 2) + (f1 0) * ((1 / 12) * E * mu * t ^ 3 *
    (f0 1) / ((1 - mu ^ 2) * a2) + (1 / 12) * E * t ^ 3 * (f1 1) / ((1 - mu ^ 2) * a2)) / a2 + (f0 0) * ((1 / 12) * E * mu * t ^ 3
    * (f1 1) / ((1 - mu ^ 2) * a2) + (1 / 12) * E * t ^ 3 * (f0 1) / ((1 - mu ^ 2) * a2)) / a2,
  (1 / 12) * E * t ^ 3 * (1 / 2 - 1 / 2 * mu) * (f2 1) ^ 2 / ((1 - mu ^ 2) * a2 ^ 2) + (f1 1) * ((1 / 12) * E * mu * t ^ 3 * (f0 1)
    / ((1 - mu ^ 2) * a2) + (1 / 12) * E * t ^ 3 * (f1 1) / ((1 - mu ^ 2) * a2)) / a2 + (f0 1) * ((1 / 12) * E * mu * t ^ 3 * (f1
    1) / ((1 - mu ^ 2) * a2) + (1 / 12) * E * t ^ 3 * (f0 1) / ((1 - mu ^ 2) * a2)) / a2,
  (1 / 12) * E * t ^ 3 * (1 / 2 - 1 / 2 * mu) * (f2 1) * (f2 2) / ((1 - mu ^ 2) * a2 ^ 2) + (f1 2) * ((1 / 12) * E * mu * t ^ 3 *
    (f0 1) / ((1 - mu ^ 2) * a2) + (1 / 12) * E * t ^ 3 * (f1 1) / ((1 - mu ^ 2) * a2)) / a2 + (f0 2) * ((1 / 12) * E * mu * t ^ 3
    * (f1 1) / ((1 - mu ^ 2) * a2) + (1 / 12) * E * t ^ 3 * (f0 1) / ((1 - mu ^ 2) * a2)) / a2,
  (1 / 12) * E * t ^ 3 * (1 / 2 - 1 / 2 * mu) * (f2 1) * (f2 3) / ((1 - mu ^ 2) * a2 ^ 2) + (f1 3) * ((1 / 12) * E * mu * t ^ 3 *
    (f0 1) / ((1 - mu ^ 2) * a2) + (1 / 12) * E * t ^ 3 * (f1 1) / ((1 - mu ^ 2) * a2)) / a2 + (f0 3) * ((1 / 12) * E * mu * t ^ 3
    * (f1 1) / ((1 - mu ^ 2) * a2) + (1 / 12) * E * t ^ 3 * (f0 1) / ((1 - mu ^ 2) * a2)) / a2,
  (1 / 12) * E * t ^ 3 * (1 / 2 - 1 / 2 * mu) * (f2 1) * (f2 4) / ((1 - mu ^ 2) * a2 ^ 2) + (f1 4) * ((1 / 12) * E * mu * t ^ 3 *
    (f0 1) / ((1 - mu ^ 2) * a2) + (1 / 12) * E * t ^ 3 * (f1 1) / ((1 - mu ^ 2) * a2)) / a2 + (f0 4) * ((1 / 12) * E * mu * t ^ 3
    * (f1 1) / ((1 - mu ^ 2) * a2) + (1 / 12) * E * t ^ 3 * (f0 1) / ((1 - mu ^ 2) * a2)) / a2,
  (1 / 12) * E * t ^ 3 * (1 / 2 - 1 / 2 * mu) * (f2 1) * (f2 5) / ((1 - mu ^ 2) * a2 ^ 2) + (f1 5) * ((1 / 12) * E * mu * t ^ 3 *
    (f0 1) / ((1 - mu ^ 2) * a2) + (1 / 12) * E * t ^ 3 * (f1 1) / ((1 - mu ^ 2) * a2)) / a2 + (f0 5) * ((1 / 12) * E * mu * t ^ 3
    * (f1 1) / ((1 - mu ^ 2) * a2) + (1 / 12) * E * t ^ 3 * (f0 1) / ((1 - mu ^ 2) * a2)) / a2,
  (1 / 12) * E * t ^ 3 * (1 / 2 - 1 / 2 * mu) * (f2 1) * (f2 6) / ((1 - mu ^ 2) * a2 ^ 2) + (f1 6) * ((1 / 12) * E * mu * t ^ 3 *
    (f0 1) / ((1 - mu ^ 2) * a2) + (1 / 12) * E * t ^ 3 * (f1 1) / ((1 - mu ^ 2) * a2)) / a2 + (f0 6) * ((1 / 12) * E * mu * t ^ 3
    * (f1 1) / ((1 - mu ^ 2) * a2) + (1 / 12) * E * t ^ 3 * (f0 1) / ((1 - mu ^ 2) * a2)) / a2,
  (1 / 12) * E * t ^ 3 * (1 / 2 - 1 / 2 * mu) * (f2 1) * (f2 7) / ((1 - mu ^ 2) * a2 ^ 2) + (f1 7) * ((1 / 12) * E * mu * t ^ 3 *
    (f0 1) / ((1 - mu ^ 2) * a2) + (1 / 12) * E * t ^ 3 * (f1 1) / ((1 - mu ^ 2) * a2)) / a2 + (f0 7) * ((1 / 12) * E * mu * t ^ 3
    * (f1 1) / ((1 - mu ^ 2) * a2) + (1 / 12) * E * t ^ 3 * (f0 1) / ((1 - mu ^ 2) * a2)) / a2,
  (1 / 12) * E * t ^ 3 * (1 / 2 - 1 / 2 * mu) * (f2 1) * (f2 8) / ((1 - mu ^ 2) * a2 ^ 2) + (f1 8) * ((1 / 12) * E * mu * t ^ 3 *
    (f0 1) / ((1 - mu ^ 2) * a2) + (1 / 12) * E * t ^ 3 * (f1 1) / ((1 - mu ^ 2) * a2)) / a2 + (f0 8) * ((1 / 12) * E * mu * t ^ 3
    * (f1 1) / ((1 - mu ^ 2) * a2) + (1 / 12) * E * t ^ 3 * (f0 1) / ((1 - mu ^ 2) * a2)) / a2]

/-- `out[18]` to `out[26]`, metaDKT/wrapped_code_0.c 31-39 -/
noncomputable def out2 (E mu t a2 : ℝ) (f0 f1 f2 : Fin 9 → ℝ) : Fin 9 → ℝ := ![
  (1 / 12) * E * t ^ 3 * (1 / 2 - 1 / 2 * mu) * (f2 0) * (f2 2) / ((1 - mu ^ 2) * a2 ^ 2) + (f1 0) * ((1 / 12) * E * mu * t ^ 3 *
    (f0 2) / ((1 - mu ^ 2) * a2) + (1 / 12) * E * t ^ 3 * (f1 2) / ((1 - mu ^ 2) * a2)) / a2 + (f0 0) * ((1 / 12) * E * mu * t ^ 3
    * (f1 2) / ((1 - mu ^ 2) * a2) + (1 / 12) * E * t ^ 3 * (f0 2) / ((1 - mu ^ 2) * a2)) / a2,
  (1 / 12) * E * t ^ 3 * (1 / 2 - 1 / 2 * mu) * (f2 1) * (f2 2) / ((1 - mu ^ 2) * a2 ^ 2) + (f1 1) * ((1 / 12) * E * mu * t ^ 3 *
    (f0 2) / ((1 - mu ^ 2) * a2) + (1 / 12) * E * t ^ 3 * (f1 2) / ((1 - mu ^ 2) * a2)) / a2 + (f0 1) * ((1 / 12) * E * mu * t ^ 3
    * (f1 2) / ((1 - mu ^ 2) * a2) + (1 / 12) * E * t ^ 3 * (f0 2) / ((1 - mu ^ 2) * a2)) / a2,
  (1 / 12) * E * t ^ 3 * (1 / 2 - 1 / 2 * mu) * (f2 2) ^ 2 / ((1 - mu ^ 2) * a2 ^ 2) + (f1 2) * ((1 / 12) * E * mu * t ^ 3 * (f0 2)
    / ((1 - mu ^ 2) * a2) + (1 / 12) * E * t ^ 3 * (f1 2) / ((1 - mu ^ 2) * a2)) / a2 + (f0 2) * ((1 / 12) * E * mu * t ^ 3 * (f1
    2) / ((1 - mu ^ 2) * a2) + (1 / 12) * E * t ^ 3 * (f0 2) / ((1 - mu ^ 2) * a2)) / a2,
  (1 / 12) * E * t ^ 3 * (1 / 2 - 1 / 2 * mu) * (f2 2) * (f2 3) / ((1 - mu ^ 2) * a2 ^ 2) + (f1 3) * ((1 / 12) * E * mu * t ^ 3 *
    (f0 2) / ((1 - mu ^ 2) * a2) + (1 / 12) * E * t ^ 3 * (f1 2) / ((1 - mu ^ 2) * a2)) / a2 + (f0 3) * ((1 / 12) * E * mu * t ^ 3
    * (f1 2) / ((1 - mu ^ 2) * a2) + (1 / 12) * E * t ^ 3 * (f0 2) / ((1 - mu ^ 2) * a2)) / a2,
  (1 / 12) * E * t ^ 3 * (1 / 2 - 1 / 2 * mu) * (f2 2) * (f2 4) / ((1 - mu ^ 2) * a2 ^ 2) + (f1 4) * ((1 / 12) * E * mu * t ^ 3 *
    (f0 2) / ((1 - mu ^ 2) * a2) + (1 / 12) * E * t ^ 3 * (f1 2) / ((1 - mu ^ 2) * a2)) / a2 + (f0 4) * ((1 / 12) * E * mu * t ^ 3
    * (f1 2) / ((1 - mu ^ 2) * a2) + (1 / 12) * E * t ^ 3 * (f0 2) / ((1 - mu ^ 2) * a2)) / a2,
  (1 / 12) * E * t ^ 3 * (1 / 2 - 1 / 2 * mu) * (f2 2) * (f2 5) / ((1 - mu ^ 2) * a2 ^ 2) + (f1 5) * ((1 / 12) * E * mu * t ^ 3 *
    (f0 2) / ((1 - mu ^ 2) * a2) + (1 / 12) * E * t ^ 3 * (f1 2) / ((1 - mu ^ 2) * a2)) / a2 + (f0 5) * ((1 / 12) * E * mu * t ^ 3
    * (f1 2) / ((1 - mu ^ 2) * a2) + (1 / 12) * E * t ^ 3 * (f0 2) / ((1 - mu ^ 2) * a2)) / a2,
  (1 / 12) * E * t ^ 3 * (1 / 2 - 1 / 2 * mu) * (f2 2) * (f2 6) / ((1 - mu ^ 2) * a2 ^ 2) + (f1 6) * ((1 / 12) * E * mu * t ^ 3 *
    (f0 2) / ((1 - mu ^ 2) * a2) + (1 / 12) * E * t ^ 3 * (f1 2) / ((1 - mu ^ 2) * a2)) / a2 + (f0 6) * ((1 / 12) * E * mu * t ^ 3
    * (f1 2) / ((1 - mu ^ 2) * a2) + (1 / 12) * E * t ^ 3 * (f0 2) / ((1 - mu ^ 2) * a2)) / a2,
  (1 / 12) * E * t ^ 3 * (1 / 2 - 1 / 2 * mu) * (f2 2) * (f2 7) / ((1 - mu ^ 2) * a2 ^ 2) + (f1 7) * ((1 / 12) * E * mu * t ^ 3 *
    (f0 2) / ((1 - mu ^ 2) * a2) + (1 / 12) * E * t ^ 3 * (f1 2) / ((1 - mu ^ 2) * a2)) / a2 + (f0 7) * ((1 / 12) * E * mu * t ^ 3
    * (f1 2) / ((1 - mu ^ 2) * a2) + (1 / 12) * E * t ^ 3 * (f0 2) / ((1 - mu ^ 2) * a2)) / a2,
  (1 / 12) * E * t ^ 3 * (1 / 2 - 1 / 2 * mu) * (f2 2) * (f2 8) / ((1 - mu ^ 2) * a2 ^ 2) + (f1 8) * ((1 / 12) * E * mu * t ^ 3 *
    (f0 2) / ((1 - mu ^ 2) * a2) + (1 / 12) * E * t ^ 3 * (f1 2) / ((1 - mu ^ 2) * a2)) / a2 + (f0 8) * ((1 / 12) * E * mu * t ^ 3
    * (f1 2) / ((1 - mu ^ 2) * a2) + (1 / 12) * E * t ^ 3 * (f0 2) / ((1 - mu ^ 2) * a2)) / a2]

/-- `out[27]` to `out[35]`, metaDKT/wrapped_code_0.c 40-48 -/
noncomputable def out3 (E mu t a2 : ℝ) (f0 f1 f2 : Fin 9 → ℝ) : Fin 9 → ℝ := ![
  (1 / 12) * E * t ^ 3 * (1 / 2 - 1 / 2 * mu) * (f2 0) * (f2 3) / ((1 - mu ^ 2) * a2 ^ 2) + (f1 0) * ((1 / 12) * E * mu * t ^ 3 *
    (f0 3) / ((1 - mu ^ 2) * a2) + (1 / 12) * E * t ^ 3 * (f1 3) / ((1 - mu ^ 2) * a2)) / a2 + (f0 0) * ((1 / 12) * E * mu * t ^ 3
    * (f1 3) / ((1 - mu ^ 2) * a2) + (1 / 12) * E * t ^ 3 * (f0 3) / ((1 - mu ^ 2) * a2)) / a2,
  (1 / 12) * E * t ^ 3 * (1 / 2 - 1 / 2 * mu) * (f2 1) * (f2 3) / ((1 - mu ^ 2) * a2 ^ 2) + (f1 1) * ((1 / 12) * E * mu * t ^ 3 *
    (f0 3) / ((1 - mu ^ 2) * a2) + (1 / 12) * E * t ^ 3 * (f1 3) / ((1 - mu ^ 2) * a2)) / a2 + (f0 1) * ((1 / 12) * E * mu * t ^ 3
    * (f1 3) / ((1 - mu ^ 2) * a2) + (1 / 12) * E * t ^ 3 * (f0 3) / ((1 - mu ^ 2) * a2)) / a2,
  (1 / 12) * E * t ^ 3 * (1 / 2 - 1 / 2 * mu) * (f2 2) * (f2 3) / ((1 - mu ^ 2) * a2 ^ 2) + (f1 2) * ((1 / 12) * E * mu * t ^ 3 *
    (f0 3) / ((1 - mu ^ 2) * a2) + (1 / 12) * E * t ^ 3 * (f1 3) / ((1 - mu ^ 2) * a2)) / a2 + (f0 2) * ((1 / 12) * E * mu * t ^ 3
    * (f1 3) / ((1 - mu ^ 2) * a2) + (1 / 12) * E * t ^ 3 * (f0 3) / ((1 - mu ^ 2) * a2)) / a2,
  (1 / 12) * E * t ^ 3 * (1 / 2 - 1 / 2 * mu) * (f2 3) ^ 2 / ((1 - mu ^ 2) * a2 ^ 2) + (f1 3) * ((1 / 12) * E * mu * t ^ 3 * (f0 3)
    / ((1 - mu ^ 2) * a2) + (1 / 12) * E * t ^ 3 * (f1 3) / ((1 - mu ^ 2) * a2)) / a2 + (f0 3) * ((1 / 12) * E * mu * t ^ 3 * (f1
    3) / ((1 - mu ^ 2) * a2) + (1 / 12) * E * t ^ 3 * (f0 3) / ((1 - mu ^ 2) * a2)) / a2,
  (1 / 12) * E * t ^ 3 * (1 / 2 - 1 / 2 * mu) * (f2 3) * (f2 4) / ((1 - mu ^ 2) * a2 ^ 2) + (f1 4) * ((1 / 12) * E * mu * t ^ 3 *
    (f0 3) / ((1 - mu ^ 2) * a2) + (1 / 12) * E * t ^ 3 * (f1 3) / ((1 - mu ^ 2) * a2)) / a2 + (f0 4) * ((1 / 12) * E * mu * t ^ 3
    * (f1 3) / ((1 - mu ^ 2) * a2) + (1 / 12) * E * t ^ 3 * (f0 3) / ((1 - mu ^ 2) * a2)) / a2,
  (1 / 12) * E * t ^ 3 * (1 / 2 - 1 / 2 * mu) * (f2 3) * (f2 5) / ((1 - mu ^ 2) * a2 ^ 2) + (f1 5) * ((1 / 12) * E * mu * t ^ 3 *
    (f0 3) / ((1 - mu ^ 2) * a2) + (1 / 12) * E * t ^ 3 * (f1 3) / ((1 - mu ^ 2) * a2)) / a2 + (f0 5) * ((1 / 12) * E * mu * t ^ 3
    * (f1 3) / ((1 - mu ^ 2) * a2) + (1 / 12) * E * t ^ 3 * (f0 3) / ((1 - mu ^ 2) * a2)) / a2,
  (1 / 12) * E * t ^ 3 * (1 / 2 - 1 / 2 * mu) * (f2 6) * (f2 3) / ((1 - mu ^ 2) * a2 ^ 2) + (f1 6) * ((1 / 12) * E * mu * t ^ 3 *
    (f0 3) / ((1 - mu ^ 2) * a2) + (1 / 12) * E * t ^ 3 * (f1 3) / ((1 - mu ^ 2) * a2)) / a2 + (f0 6) * ((1 / 12) * E * mu * t ^ 3
    * (f1 3) / ((1 - mu ^ 2) * a2) + (1 / 12) * E * t ^ 3 * (f0 3) / ((1 - mu ^ 2) * a2)) / a2,
  (1 / 12) * E * t ^ 3 * (1 / 2 - 1 / 2 * mu) * (f2 7) * (f2 3) / ((1 - mu ^ 2) * a2 ^ 2) + (f1 7) * ((1 / 12) * E * mu * t ^ 3 *
    (f0 3) / ((1 - mu ^ 2) * a2) + (1 / 12) * E * t ^ 3 * (f1 3) / ((1 - mu ^ 2) * a2)) / a2 + (f0 7) * ((1 / 12) * E * mu * t ^ 3
    * (f1 3) / ((1 - mu ^ 2) * a2) + (1 / 12) * E * t ^ 3 * (f0 3) / ((1 - mu ^ 2) * a2)) / a2,
  (1 / 12) * E * t ^ 3 * (1 / 2 - 1 / 2 * mu) * (f2 8) * (f2 3) / ((1 - mu ^ 2) * a2 ^ 2) + (f1 8) * ((1 / 12) * E * mu * t ^ 3 *
    (f0 3) / ((1 - mu ^ 2) * a2) + (1 / 12) * E * t ^ 3 * (f1 3) / ((1 - mu ^ 2) * a2)) / a2 + (f0 8) * ((1 / 12) * E * mu * t ^ 3
    * (f1 3) / ((1 - mu ^ 2) * a2) + (1 / 12) * E * t ^ 3 * (f0 3) / ((1 - mu ^ 2) * a2)) / a2]

/-- `out[36]` to `out[44]`, metaDKT/wrapped_code_0.c 49-57 -/
noncomputable def out4 (E mu t a2 : ℝ) (f0 f1 f2 : Fin 9 → ℝ) : Fin 9 → ℝ := ![
  (1 / 12) * E * t ^ 3 * (1 / 2 - 1 / 2 * mu) * (f2 0) * (f2 4) / ((1 - mu ^ 2) * a2 ^ 2) + (f1 0) * ((1 / 12) * E * mu * t ^ 3 *
    (f0 4) / ((1 - mu ^ 2) * a2) + (1 / 12) * E * t ^ 3 * (f1 4) / ((1 - mu ^ 2) * a2)) / a2 + (f0 0) * ((1 / 12) * E * mu * t ^ 3
    * (f1 4) / ((1 - mu ^ 2) * a2) + (1 / 12) * E * t ^ 3 * (f0 4) / ((1 - mu ^ 2) * a2)) / a2,
  (1 / 12) * E * t ^ 3 * (1 / 2 - 1 / 2 * mu) * (f2 1) * (f2 4) / ((1 - mu ^ 2) * a2 ^ 2) + (f1 1) * ((1 / 12) * E * mu * t ^ 3 *
    (f0 4) / ((1 - mu ^ 2) * a2) + (1 / 12) * E * t ^ 3 * (f1 4) / ((1 - mu ^ 2) * a2)) / a2 + (f0 1) * ((1 / 12) * E * mu * t ^ 3
    * (f1 4) / ((1 - mu ^ 2) * a2) + (1 / 12) * E * t ^ 3 * (f0 4) / ((1 - mu ^ 2) * a2)) / a2,
  (1 / 12) * E * t ^ 3 * (1 / 2 - 1 / 2 * mu) * (f2 2) * (f2 4) / ((1 - mu ^ 2) * a2 ^ 2) + (f1 2) * ((1 / 12) * E * mu * t ^ 3 *
    (f0 4) / ((1 - mu ^ 2) * a2) + (1 / 12) * E * t ^ 3 * (f1 4) / ((1 - mu ^ 2) * a2)) / a2 + (f0 2) * ((1 / 12) * E * mu * t ^ 3
    * (f1 4) / ((1 - mu ^ 2) * a2) + (1 / 12) * E * t ^ 3 * (f0 4) / ((1 - mu ^ 2) * a2)) / a2,
  (1 / 12) * E * t ^ 3 * (1 / 2 - 1 / 2 * mu) * (f2 3) * (f2 4) / ((1 - mu ^ 2) * a2 ^ 2) + (f1 3) * ((1 / 12) * E * mu * t ^ 3 *
    (f0 4) / ((1 - mu ^ 2) * a2) + (1 / 12) * E * t ^ 3 * (f1 4) / ((1 - mu ^ 2) * a2)) / a2 + (f0 3) * ((1 / 12) * E * mu * t ^ 3
    * (f1 4) / ((1 - mu ^ 2) * a2) + (1 / 12) * E * t ^ 3 * (f0 4) / ((1 - mu ^ 2) * a2)) / a2,
  (1 / 12) * E * t ^ 3 * (1 / 2 - 1 / 2 * mu) * (f2 4) ^ 2 / ((1 - mu ^ 2) * a2 ^ 2) + (f1 4) * ((1 / 12) * E * mu * t ^ 3 * (f0 4)
    / ((1 - mu ^ 2) * a2) + (1 / 12) * E * t ^ 3 * (f1 4) / ((1 - mu ^ 2) * a2)) / a2 + (f0 4) * ((1 / 12) * E * mu * t ^ 3 * (f1
    4) / ((1 - mu ^ 2) * a2) + (1 / 12) * E * t ^ 3 * (f0 4) / ((1 - mu ^ 2) * a2)) / a2,
  (1 / 12) * E * t ^ 3 * (1 / 2 - 1 / 2 * mu) * (f2 5) * (f2 4) / ((1 - mu ^ 2) * a2 ^ 2) + (f1 5) * ((1 / 12) * E * mu * t ^ 3 *
    (f0 4) / ((1 - mu ^ 2) * a2) + (1 / 12) * E * t ^ 3 * (f1 4) / ((1 - mu ^ 2) * a2)) / a2 + (f0 5) * ((1 / 12) * E * mu * t ^ 3
    * (f1 4) / ((1 - mu ^ 2) * a2) + (1 / 12) * E * t ^ 3 * (f0 4) / ((1 - mu ^ 2) * a2)) / a2,
  (1 / 12) * E * t ^ 3 * (1 / 2 - 1 / 2 * mu) * (f2 6) * (f2 4) / ((1 - mu ^ 2) * a2 ^ 2) + (f1 6) * ((1 / 12) * E * mu * t ^ 3 *
    (f0 4) / ((1 - mu ^ 2) * a2) + (1 / 12) * E * t ^ 3 * (f1 4) / ((1 - mu ^ 2) * a2)) / a2 + (f0 6) * ((1 / 12) * E * mu * t ^ 3
    * (f1 4) / ((1 - mu ^ 2) * a2) + (1 / 12) * E * t ^ 3 * (f0 4) / ((1 - mu ^ 2) * a2)) / a2,
  (1 / 12) * E * t ^ 3 * (1 / 2 - 1 / 2 * mu) * (f2 7) * (f2 4) / ((1 - mu ^ 2) * a2 ^ 2) + (f1 7) * ((1 / 12) * E * mu * t ^ 3 *
    (f0 4) / ((1 - mu ^ 2) * a2) + (1 / 12) * E * t ^ 3 * (f1 4) / ((1 - mu ^ 2) * a2)) / a2 + (f0 7) * ((1 / 12) * E * mu * t ^ 3
    * (f1 4) / ((1 - mu ^ 2) * a2) + (1 / 12) * E * t ^ 3 * (f0 4) / ((1 - mu ^ 2) * a2)) / a2,
  (1 / 12) * E * t ^ 3 * (1 / 2 - 1 / 2 * mu) * (f2 8) * (f2 4) / ((1 - mu ^ 2) * a2 ^ 2) + (f1 8) * ((1 / 12) * E * mu * t ^ 3 *
    (f0 4) / ((1 - mu ^ 2) * a2) + (1 / 12) * E * t ^ 3 * (f1 4) / ((1 - mu ^ 2) * a2)) / a2 + (f0 8) * ((1 / 12) * E * mu * t ^ 3
    * (f1 4) / ((1 - mu ^ 2) * a2) + (1 / 12) * E * t ^ 3 * (f0 4) / ((1 - mu ^ 2) * a2)) / a2]

/-- `out[45]` to `out[53]`, metaDKT/wrapped_code_0.c 58-66 -/
noncomputable def out5 (E mu t a2 : ℝ) (f0 f1 f2 : Fin 9 → ℝ) : Fin 9 → ℝ := ![
  (1 / 12) * E * t ^ 3 * (1 / 2 - 1 / 2 * mu) * (f2 0) * (f2 5) / ((1 - mu ^ 2) * a2 ^ 2) + (f1 0) * ((1 / 12) * E * mu * t ^ 3 *
    (f0 5) / ((1 - mu ^ 2) * a2) + (1 / 12) * E * t ^ 3 * (f1 5) / ((1 - mu ^ 2) * a2)) / a2 + (f0 0) * ((1 / 12) * E * mu * t ^ 3
    * (f1 5) / ((1 - mu ^ 2) * a2) + (1 / 12) * E * t ^ 3 * (f0 5) / ((1 - mu ^ 2) * a2)) / a2,
  (1 / 12) * E * t ^ 3 * (1 / 2 - 1 / 2 * mu) * (f2 1) * (f2 5) / ((1 - mu ^ 2) * a2 ^ 2) + (f1 1) * ((1 / 12) * E * mu * t ^ 3 *
    (f0 5) / ((1 - mu ^ 2) * a2) + (1 / 12) * E * t ^ 3 * (f1 5) / ((1 - mu ^ 2) * a2)) / a2 + (f0 1) * ((1 / 12) * E * mu * t ^ 3
    * (f1 5) / ((1 - mu ^ 2) * a2) + (1 / 12) * E * t ^ 3 * (f0 5) / ((1 - mu ^ 2) * a2)) / a2,
  (1 / 12) * E * t ^ 3 * (1 / 2 - 1 / 2 * mu) * (f2 2) * (f2 5) / ((1 - mu ^ 2) * a2 ^ 2) + (f1 2) * ((1 / 12) * E * mu * t ^ 3 *
    (f0 5) / ((1 - mu ^ 2) * a2) + (1 / 12) * E * t ^ 3 * (f1 5) / ((1 - mu ^ 2) * a2)) / a2 + (f0 2) * ((1 / 12) * E * mu * t ^ 3
    * (f1 5) / ((1 - mu ^ 2) * a2) + (1 / 12) * E * t ^ 3 * (f0 5) / ((1 - mu ^ 2) * a2)) / a2,
  (1 / 12) * E * t ^ 3 * (1 / 2 - 1 / 2 * mu) * (f2 3) * (f2 5) / ((1 - mu ^ 2) * a2 ^ 2) + (f1 3) * ((1 / 12) * E * mu * t ^ 3 *
    (f0 5) / ((1 - mu ^ 2) * a2) + (1 / 12) * E * t ^ 3 * (f1 5) / ((1 - mu ^ 2) * a2)) / a2 + (f0 3) * ((1 / 12) * E * mu * t ^ 3
    * (f1 5) / ((1 - mu ^ 2) * a2) + (1 / 12) * E * t ^ 3 * (f0 5) / ((1 - mu ^ 2) * a2)) / a2,
  (1 / 12) * E * t ^ 3 * (1 / 2 - 1 / 2 * mu) * (f2 5) * (f2 4) / ((1 - mu ^ 2) * a2 ^ 2) + (f1 4) * ((1 / 12) * E * mu * t ^ 3 *
    (f0 5) / ((1 - mu ^ 2) * a2) + (1 / 12) * E * t ^ 3 * (f1 5) / ((1 - mu ^ 2) * a2)) / a2 + (f0 4) * ((1 / 12) * E * mu * t ^ 3
    * (f1 5) / ((1 - mu ^ 2) * a2) + (1 / 12) * E * t ^ 3 * (f0 5) / ((1 - mu ^ 2) * a2)) / a2,
  (1 / 12) * E * t ^ 3 * (1 / 2 - 1 / 2 * mu) * (f2 5) ^ 2 / ((1 - mu ^ 2) * a2 ^ 2) + (f1 5) * ((1 / 12) * E * mu * t ^ 3 * (f0 5)
    / ((1 - mu ^ 2) * a2) + (1 / 12) * E * t ^ 3 * (f1 5) / ((1 - mu ^ 2) * a2)) / a2 + (f0 5) * ((1 / 12) * E * mu * t ^ 3 * (f1
    5) / ((1 - mu ^ 2) * a2) + (1 / 12) * E * t ^ 3 * (f0 5) / ((1 - mu ^ 2) * a2)) / a2,
  (1 / 12) * E * t ^ 3 * (1 / 2 - 1 / 2 * mu) * (f2 6) * (f2 5) / ((1 - mu ^ 2) * a2 ^ 2) + (f1 6) * ((1 / 12) * E * mu * t ^ 3 *
    (f0 5) / ((1 - mu ^ 2) * a2) + (1 / 12) * E * t ^ 3 * (f1 5) / ((1 - mu ^ 2) * a2)) / a2 + (f0 6) * ((1 / 12) * E * mu * t ^ 3
    * (f1 5) / ((1 - mu ^ 2) * a2) + (1 / 12) * E * t ^ 3 * (f0 5) / ((1 - mu ^ 2) * a2)) / a2,
  (1 / 12) * E * t ^ 3 * (1 / 2 - 1 / 2 * mu) * (f2 7) * (f2 5) / ((1 - mu ^ 2) * a2 ^ 2) + (f1 7) * ((1 / 12) * E * mu * t ^ 3 *
    (f0 5) / ((1 - mu ^ 2) * a2) + (1 / 12) * E * t ^ 3 * (f1 5) / ((1 - mu ^ 2) * a2)) / a2 + (f0 7) * ((1 / 12) * E * mu * t ^ 3
    * (f1 5) / ((1 - mu ^ 2) * a2) + (1 / 12) * E * t ^ 3 * (f0 5) / ((1 - mu ^ 2) * a2)) / a2,
  (1 / 12) * E * t ^ 3 * (1 / 2 - 1 / 2 * mu) * (f2 8) * (f2 5) / ((1 - mu ^ 2) * a2 ^ 2) + (f1 8) * ((1 / 12) * E * mu * t ^ 3 *
    (f0 5) / ((1 - mu ^ 2) * a2) + (1 / 12) * E * t ^ 3 * (f1 5) / ((1 - mu ^ 2) * a2)) / a2 + (f0 8) * ((1 / 12) * E * mu * t ^ 3
    * (f1 5) / ((1 - mu ^ 2) * a2) + (1 / 12) * E * t ^ 3 * (f0 5) / ((1 - mu ^ 2) * a2)) / a2]

/-- `out[54]` to `out[62]`, metaDKT/wrapped_code_0.c 67-75 -/
noncomputable def out6 (E mu t a2 : ℝ) (f0 f1 f2 : Fin 9 → ℝ) : Fin 9 → ℝ := ![
  (1 / 12) * E * t ^ 3 * (1 / 2 - 1 / 2 * mu) * (f2 0) * (f2 6) / ((1 - mu ^ 2) * a2 ^ 2) + (f1 0) * ((1 / 12) * E * mu * t ^ 3 *
    (f0 6) / ((1 - mu ^ 2) * a2) + (1 / 12) * E * t ^ 3 * (f1 6) / ((1 - mu ^ 2) * a2)) / a2 + (f0 0) * ((1 / 12) * E * mu * t ^ 3
    * (f1 6) / ((1 - mu ^ 2) * a2) + (1 / 12) * E * t ^ 3 * (f0 6) / ((1 - mu ^ 2) * a2)) / a2,
  (1 / 12) * E * t ^ 3 * (1 / 2 - 1 / 2 * mu) * (f2 1) * (f2 6) / ((1 - mu ^ 2) * a2 ^ 2) + (f1 1) * ((1 / 12) * E * mu * t ^ 3 *
    (f0 6) / ((1 - mu ^ 2) * a2) + (1 / 12) * E * t ^ 3 * (f1 6) / ((1 - mu ^ 2) * a2)) / a2 + (f0 1) * ((1 / 12) * E * mu * t ^ 3
    * (f1 6) / ((1 - mu ^ 2) * a2) + (1 / 12) * E * t ^ 3 * (f0 6) / ((1 - mu ^ 2) * a2)) / a2,
  (1 / 12) * E * t ^ 3 * (1 / 2 - 1 / 2 * mu) * (f2 2) * (f2 6) / ((1 - mu ^ 2) * a2 ^ 2) + (f1 2) * ((1 / 12) * E * mu * t ^ 3 *
    (f0 6) / ((1 - mu ^ 2) * a2) + (1 / 12) * E * t ^ 3 * (f1 6) / ((1 - mu ^ 2) * a2)) / a2 + (f0 2) * ((1 / 12) * E * mu * t ^ 3
    * (f1 6) / ((1 - mu ^ 2) * a2) + (1 / 12) * E * t ^ 3 * (f0 6) / ((1 - mu ^ 2) * a2)) / a2,
  (1 / 12) * E * t ^ 3 * (1 / 2 - 1 / 2 * mu) * (f2 6) * (f2 3) / ((1 - mu ^ 2) * a2 ^ 2) + (f1 3) * ((1 / 12) * E * mu * t ^ 3 *
    (f0 6) / ((1 - mu ^ 2) * a2) + (1 / 12) * E * t ^ 3 * (f1 6) / ((1 - mu ^ 2) * a2)) / a2 + (f0 3) * ((1 / 12) * E * mu * t ^ 3
    * (f1 6) / ((1 - mu ^ 2) * a2) + (1 / 12) * E * t ^ 3 * (f0 6) / ((1 - mu ^ 2) * a2)) / a2,
  (1 / 12) * E * t ^ 3 * (1 / 2 - 1 / 2 * mu) * (f2 6) * (f2 4) / ((1 - mu ^ 2) * a2 ^ 2) + (f1 4) * ((1 / 12) * E * mu * t ^ 3 *
    (f0 6) / ((1 - mu ^ 2) * a2) + (1 / 12) * E * t ^ 3 * (f1 6) / ((1 - mu ^ 2) * a2)) / a2 + (f0 4) * ((1 / 12) * E * mu * t ^ 3
    * (f1 6) / ((1 - mu ^ 2) * a2) + (1 / 12) * E * t ^ 3 * (f0 6) / ((1 - mu ^ 2) * a2)) / a2,
  (1 / 12) * E * t ^ 3 * (1 / 2 - 1 / 2 * mu) * (f2 6) * (f2 5) / ((1 - mu ^ 2) * a2 ^ 2) + (f1 5) * ((1 / 12) * E * mu * t ^ 3 *
    (f0 6) / ((1 - mu ^ 2) * a2) + (1 / 12) * E * t ^ 3 * (f1 6) / ((1 - mu ^ 2) * a2)) / a2 + (f0 5) * ((1 / 12) * E * mu * t ^ 3
    * (f1 6) / ((1 - mu ^ 2) * a2) + (1 / 12) * E * t ^ 3 * (f0 6) / ((1 - mu ^ 2) * a2)) / a2,
  (1 / 12) * E * t ^ 3 * (1 / 2 - 1 / 2 * mu) * (f2 6) ^ 2 / ((1 - mu ^ 2) * a2 ^ 2) + (f1 6) * ((1 / 12) * E * mu * t ^ 3 * (f0 6)
    / ((1 - mu ^ 2) * a2) + (1 / 12) * E * t ^ 3 * (f1 6) / ((1 - mu ^ 2) * a2)) / a2 + (f0 6) * ((1 / 12) * E * mu * t ^ 3 * (f1
    6) / ((1 - mu ^ 2) * a2) + (1 / 12) * E * t ^ 3 * (f0 6) / ((1 - mu ^ 2) * a2)) / a2,
  (1 / 12) * E * t ^ 3 * (1 / 2 - 1 / 2 * mu) * (f2 6) * (f2 7) / ((1 - mu ^ 2) * a2 ^ 2) + (f1 7) * ((1 / 12) * E * mu * t ^ 3 *
    (f0 6) / ((1 - mu ^ 2) * a2) + (1 / 12) * E * t ^ 3 * (f1 6) / ((1 - mu ^ 2) * a2)) / a2 + (f0 7) * ((1 / 12) * E * mu * t ^ 3
    * (f1 6) / ((1 - mu ^ 2) * a2) + (1 / 12) * E * t ^ 3 * (f0 6) / ((1 - mu ^ 2) * a2)) / a2,
  (1 / 12) * E * t ^ 3 * (1 / 2 - 1 / 2 * mu) * (f2 6) * (f2 8) / ((1 - mu ^ 2) * a2 ^ 2) + (f1 8) * ((1 / 12) * E * mu * t ^ 3 *
    (f0 6) / ((1 - mu ^ 2) * a2) + (1 / 12) * E * t ^ 3 * (f1 6) / ((1 - mu ^ 2) * a2)) / a2 + (f0 8) * ((1 / 12) * E * mu * t ^ 3
    * (f1 6) / ((1 - mu ^ 2) * a2) + (1 / 12) * E * t ^ 3 * (f0 6) / ((1 - mu ^ 2) * a2)) / a2]

/-- `out[63]` to `out[71]`, metaDKT/wrapped_code_0.c 76-84 -/
noncomputable def out7 (E mu t a2 : ℝ) (f0 f1 f2 : Fin 9 → ℝ) : Fin 9 → ℝ := ![
  (1 / 12) * E * t ^ 3 * (1 / 2 - 1 / 2 * mu) * (f2 0) * (f2 7) / ((1 - mu ^ 2) * a2 ^ 2) + (f1 0) * ((1 / 12) * E * mu * t ^ 3 *
    (f0 7) / ((1 - mu ^ 2) * a2) + (1 / 12) * E * t ^ 3 * (f1 7) / ((1 - mu ^ 2) * a2)) / a2 + (f0 0) * ((1 / 12) * E * mu * t ^ 3
    * (f1 7) / ((1 - mu ^ 2) * a2) + (1 / 12) * E * t ^ 3 * (f0 7) / ((1 - mu ^ 2) * a2)) / a2,
  (1 / 12) * E * t ^ 3 * (1 / 2 - 1 / 2 * mu) * (f2 1) * (f2 7) / ((1 - mu ^ 2) * a2 ^ 2) + (f1 1) * ((1 / 12) * E * mu * t ^ 3 *
    (f0 7) / ((1 - mu ^ 2) * a2) + (1 / 12) * E * t ^ 3 * (f1 7) / ((1 - mu ^ 2) * a2)) / a2 + (f0 1) * ((1 / 12) * E * mu * t ^ 3
    * (f1 7) / ((1 - mu ^ 2) * a2) + (1 / 12) * E * t ^ 3 * (f0 7) / ((1 - mu ^ 2) * a2)) / a2,
  (1 / 12) * E * t ^ 3 * (1 / 2 - 1 / 2 * mu) * (f2 2) * (f2 7) / ((1 - mu ^ 2) * a2 ^ 2) + (f1 2) * ((1 / 12) * E * mu * t ^ 3 *
    (f0 7) / ((1 - mu ^ 2) * a2) + (1 / 12) * E * t ^ 3 * (f1 7) / ((1 - mu ^ 2) * a2)) / a2 + (f0 2) * ((1 / 12) * E * mu * t ^ 3
    * (f1 7) / ((1 - mu ^ 2) * a2) + (1 / 12) * E * t ^ 3 * (f0 7) / ((1 - mu ^ 2) * a2)) / a2,
  (1 / 12) * E * t ^ 3 * (1 / 2 - 1 / 2 * mu) * (f2 7) * (f2 3) / ((1 - mu ^ 2) * a2 ^ 2) + (f1 3) * ((1 / 12) * E * mu * t ^ 3 *
    (f0 7) / ((1 - mu ^ 2) * a2) + (1 / 12) * E * t ^ 3 * (f1 7) / ((1 - mu ^ 2) * a2)) / a2 + (f0 3) * ((1 / 12) * E * mu * t ^ 3
    * (f1 7) / ((1 - mu ^ 2) * a2) + (1 / 12) * E * t ^ 3 * (f0 7) / ((1 - mu ^ 2) * a2)) / a2,
  (1 / 12) * E * t ^ 3 * (1 / 2 - 1 / 2 * mu) * (f2 7) * (f2 4) / ((1 - mu ^ 2) * a2 ^ 2) + (f1 4) * ((1 / 12) * E * mu * t ^ 3 *
    (f0 7) / ((1 - mu ^ 2) * a2) + (1 / 12) * E * t ^ 3 * (f1 7) / ((1 - mu ^ 2) * a2)) / a2 + (f0 4) * ((1 / 12) * E * mu * t ^ 3
    * (f1 7) / ((1 - mu ^ 2) * a2) + (1 / 12) * E * t ^ 3 * (f0 7) / ((1 - mu ^ 2) * a2)) / a2,
  (1 / 12) * E * t ^ 3 * (1 / 2 - 1 / 2 * mu) * (f2 7) * (f2 5) / ((1 - mu ^ 2) * a2 ^ 2) + (f1 5) * ((1 / 12) * E * mu * t ^ 3 *
    (f0 7) / ((1 - mu ^ 2) * a2) + (1 / 12) * E * t ^ 3 * (f1 7) / ((1 - mu ^ 2) * a2)) / a2 + (f0 5) * ((1 / 12) * E * mu * t ^ 3
    * (f1 7) / ((1 - mu ^ 2) * a2) + (1 / 12) * E * t ^ 3 * (f0 7) / ((1 - mu ^ 2) * a2)) / a2,
  (1 / 12) * E * t ^ 3 * (1 / 2 - 1 / 2 * mu) * (f2 6) * (f2 7) / ((1 - mu ^ 2) * a2 ^ 2) + (f1 6) * ((1 / 12) * E * mu * t ^ 3 *
    (f0 7) / ((1 - mu ^ 2) * a2) + (1 / 12) * E * t ^ 3 * (f1 7) / ((1 - mu ^ 2) * a2)) / a2 + (f0 6) * ((1 / 12) * E * mu * t ^ 3
    * (f1 7) / ((1 - mu ^ 2) * a2) + (1 / 12) * E * t ^ 3 * (f0 7) / ((1 - mu ^ 2) * a2)) / a2,
  (1 / 12) * E * t ^ 3 * (1 / 2 - 1 / 2 * mu) * (f2 7) ^ 2 / ((1 - mu ^ 2) * a2 ^ 2) + (f1 7) * ((1 / 12) * E * mu * t ^ 3 * (f0 7)
    / ((1 - mu ^ 2) * a2) + (1 / 12) * E * t ^ 3 * (f1 7) / ((1 - mu ^ 2) * a2)) / a2 + (f0 7) * ((1 / 12) * E * mu * t ^ 3 * (f1
    7) / ((1 - mu ^ 2) * a2) + (1 / 12) * E * t ^ 3 * (f0 7) / ((1 - mu ^ 2) * a2)) / a2,
  (1 / 12) * E * t ^ 3 * (1 / 2 - 1 / 2 * mu) * (f2 8) * (f2 7) / ((1 - mu ^ 2) * a2 ^ 2) + (f1 8) * ((1 / 12) * E * mu * t ^ 3 *
    (f0 7) / ((1 - mu ^ 2) * a2) + (1 / 12) * E * t ^ 3 * (f1 7) / ((1 - mu ^ 2) * a2)) / a2 + (f0 8) * ((1 / 12) * E * mu * t ^ 3
    * (f1 7) / ((1 - mu ^ 2) * a2) + (1 / 12) * E * t ^ 3 * (f0 7) / ((1 - mu ^ 2) * a2)) / a2]

/-- `out[72]` to `out[80]`, metaDKT/wrapped_code_0.c 85-93 -/
noncomputable def out8 (E mu t a2 : ℝ) (f0 f1 f2 : Fin 9 → ℝ) : Fin 9 → ℝ := ![
  (1 / 12) * E * t ^ 3 * (1 / 2 - 1 / 2 * mu) * (f2 0) * (f2 8) / ((1 - mu ^ 2) * a2 ^ 2) + (f1 0) * ((1 / 12) * E * mu * t ^ 3 *
    (f0 8) / ((1 - mu ^ 2) * a2) + (1 / 12) * E * t ^ 3 * (f1 8) / ((1 - mu ^ 2) * a2)) / a2 + (f0 0) * ((1 / 12) * E * mu * t ^ 3
    * (f1 8) / ((1 - mu ^ 2) * a2) + (1 / 12) * E * t ^ 3 * (f0 8) / ((1 - mu ^ 2) * a2)) / a2,
  (1 / 12) * E * t ^ 3 * (1 / 2 - 1 / 2 * mu) * (f2 1) * (f2 8) / ((1 - mu ^ 2) * a2 ^ 2) + (f1 1) * ((1 / 12) * E * mu * t ^ 3 *
    (f0 8) / ((1 - mu ^ 2) * a2) + (1 / 12) * E * t ^ 3 * (f1 8) / ((1 - mu ^ 2) * a2)) / a2 + (f0 1) * ((1 / 12) * E * mu * t ^ 3
    * (f1 8) / ((1 - mu ^ 2) * a2) + (1 / 12) * E * t ^ 3 * (f0 8) / ((1 - mu ^ 2) * a2)) / a2,
  (1 / 12) * E * t ^ 3 * (1 / 2 - 1 / 2 * mu) * (f2 2) * (f2 8) / ((1 - mu ^ 2) * a2 ^ 2) + (f1 2) * ((1 / 12) * E * mu * t ^ 3 *
    (f0 8) / ((1 - mu ^ 2) * a2) + (1 / 12) * E * t ^ 3 * (f1 8) / ((1 - mu ^ 2) * a2)) / a2 + (f0 2) * ((1 / 12) * E * mu * t ^ 3
    * (f1 8) / ((1 - mu ^ 2) * a2) + (1 / 12) * E * t ^ 3 * (f0 8) / ((1 - mu ^ 2) * a2)) / a2,
  (1 / 12) * E * t ^ 3 * (1 / 2 - 1 / 2 * mu) * (f2 8) * (f2 3) / ((1 - mu ^ 2) * a2 ^ 2) + (f1 3) * ((1 / 12) * E * mu * t ^ 3 *
    (f0 8) / ((1 - mu ^ 2) * a2) + (1 / 12) * E * t ^ 3 * (f1 8) / ((1 - mu ^ 2) * a2)) / a2 + (f0 3) * ((1 / 12) * E * mu * t ^ 3
    * (f1 8) / ((1 - mu ^ 2) * a2) + (1 / 12) * E * t ^ 3 * (f0 8) / ((1 - mu ^ 2) * a2)) / a2,
  (1 / 12) * E * t ^ 3 * (1 / 2 - 1 / 2 * mu) * (f2 8) * (f2 4) / ((1 - mu ^ 2) * a2 ^ 2) + (f1 4) * ((1 / 12) * E * mu * t ^ 3 *
    (f0 8) / ((1 - mu ^ 2) * a2) + (1 / 12) * E * t ^ 3 * (f1 8) / ((1 - mu ^ 2) * a2)) / a2 + (f0 4) * ((1 / 12) * E * mu * t ^ 3
    * (f1 8) / ((1 - mu ^ 2) * a2) + (1 / 12) * E * t ^ 3 * (f0 8) / ((1 - mu ^ 2) * a2)) / a2,
  (1 / 12) * E * t ^ 3 * (1 / 2 - 1 / 2 * mu) * (f2 8) * (f2 5) / ((1 - mu ^ 2) * a2 ^ 2) + (f1 5) * ((1 / 12) * E * mu * t ^ 3 *
    (f0 8) / ((1 - mu ^ 2) * a2) + (1 / 12) * E * t ^ 3 * (f1 8) / ((1 - mu ^ 2) * a2)) / a2 + (f0 5) * ((1 / 12) * E * mu * t ^ 3
    * (f1 8) / ((1 - mu ^ 2) * a2) + (1 / 12) * E * t ^ 3 * (f0 8) / ((1 - mu ^ 2) * a2)) / a2,
  (1 / 12) * E * t ^ 3 * (1 / 2 - 1 / 2 * mu) * (f2 6) * (f2 8) / ((1 - mu ^ 2) * a2 ^ 2) + (f1 6) * ((1 / 12) * E * mu * t ^ 3 *
    (f0 8) / ((1 - mu ^ 2) * a2) + (1 / 12) * E * t ^ 3 * (f1 8) / ((1 - mu ^ 2) * a2)) / a2 + (f0 6) * ((1 / 12) * E * mu * t ^ 3
    * (f1 8) / ((1 - mu ^ 2) * a2) + (1 / 12) * E * t ^ 3 * (f0 8) / ((1 - mu ^ 2) * a2)) / a2,
  (1 / 12) * E * t ^ 3 * (1 / 2 - 1 / 2 * mu) * (f2 8) * (f2 7) / ((1 - mu ^ 2) * a2 ^ 2) + (f1 7) * ((1 / 12) * E * mu * t ^ 3 *
    (f0 8) / ((1 - mu ^ 2) * a2) + (1 / 12) * E * t ^ 3 * (f1 8) / ((1 - mu ^ 2) * a2)) / a2 + (f0 7) * ((1 / 12) * E * mu * t ^ 3
    * (f1 8) / ((1 - mu ^ 2) * a2) + (1 / 12) * E * t ^ 3 * (f0 8) / ((1 - mu ^ 2) * a2)) / a2,
  (1 / 12) * E * t ^ 3 * (1 / 2 - 1 / 2 * mu) * (f2 8) ^ 2 / ((1 - mu ^ 2) * a2 ^ 2) + (f1 8) * ((1 / 12) * E * mu * t ^ 3 * (f0 8)
    / ((1 - mu ^ 2) * a2) + (1 / 12) * E * t ^ 3 * (f1 8) / ((1 - mu ^ 2) * a2)) / a2 + (f0 8) * ((1 / 12) * E * mu * t ^ 3 * (f1
    8) / ((1 - mu ^ 2) * a2) + (1 / 12) * E * t ^ 3 * (f0 8) / ((1 - mu ^ 2) * a2)) / a2]

/-- `autofunc` metaDKT/wrapped_code_0.c 11-95: what is written to `out[n]`, `n = 9*i+j` -/
noncomputable def out (E mu t xi eta x1 y1 x2 y2 x3 y3 : ℝ) (n : ℕ) : ℝ :=
  let l12 := (x1 - x2) ^ 2 + (y1 - y2) ^ 2
  let l23 := (x2 - x3) ^ 2 + (y2 - y3) ^ 2
  let l31 := (-x1 + x3) ^ 2 + (-y1 + y3) ^ 2
  let a2 := (-x1 + x3) * (y1 - y2) - (x1 - x2) * (-y1 + y3)
  let f0 := row0 l12 l23 l31 xi eta x1 y1 x2 y2 x3 y3
  let f1 := row1 l12 l23 l31 xi eta x1 y1 x2 y2 x3 y3
  let f2 := row2 l12 l23 l31 xi eta x1 y1 x2 y2 x3 y3
  (![out0 E mu t a2 f0 f1 f2, out1 E mu t a2 f0 f1 f2, out2 E mu t a2 f0 f1 f2, out3 E mu t a2 f0 f1 f2, out4 E mu t a2 f0 f1 f2,
    out5 E mu t a2 f0 f1 f2, out6 E mu t a2 f0 f1 f2, out7 E mu t a2 f0 f1 f2, out8 E mu t a2 f0 f1 f2] : Fin 9 → Fin 9 → ℝ)
    (Fin.ofNat 9 (n / 9)) (Fin.ofNat 9 n)

/-- `autofunc_c` metaDKT.pyx 7-11, called as in DKT.py 31: a 9 by 9 array, filled by rows -/
noncomputable def autofunc_c (E mu t : ℝ) (x y : Fin 3 → ℝ) (ξ η : ℝ) : Matrix (Fin 3 × Fin 3) (Fin 3 × Fin 3) ℝ := fun k l =>
  out E mu t ξ η (x 0) (y 0) (x 1) (y 1) (x 2) (y 2) (9 * (3 * k.1.val + k.2.val) + (3 * l.1.val + l.2.val))

end DKTText

/-- `DKT.integrate_K` DKT.py 17-55 with the compiled routines -/
noncomputable def dktKCompiled (p : Scheme) (s : ShellSection) (area : ℝ) (x y : Fin 3 → ℝ) :
    Matrix (Fin 3 × Fin 6) (Fin 3 × Fin 6) ℝ :=
  let E := s.material.E
  let mu := s.material.mu
  let Kp := (2 * area) • p.integrate (DKTText.autofunc_c E mu s.t x y)
  let Km := (2 * s.t * area) • T9Text.autofunc_c E mu s.t x y
  spread triaSlot Km + spread plateSlot Kp

end Hyperstatic
