import Verif.Model.ShellK

/-
Model of the compiled routine of the 4-node plate: the C text in hyperstatic/core/fe_model/meta/plates/metaDKQ/wrapped_code_0.c and
the Cython wrapper metaDKQ.pyx.

The C expressions are copied mechanically: `pow(a, n)` is written `a ^ n`, `1.0` is written `1`, doubles are real numbers.  Expressions
that occur again and again (strains, divisors, the determinant) are named; everything else is as it stands there.
-/

namespace Hyperstatic
open Matrix

namespace DKQText

/-- the expression that stands for entry (0, 0) of the strain matrix; wherever it occurs in metaDKQ/wrapped_code_0.c 13-156 -/
noncomputable def num0_0 (dj n11 n12 _n21 _n22 l12 _l23 _l34 l41 xi eta x1 x2 _x3 x4 _y1 _y2 _y3 _y4 : ℝ) : ℝ :=
  (1.5 * eta * (1 - xi) * (x1 - x4) / l41 - 1.5 * (0.5 - 0.5 * xi ^ 2) * (-x1 + x2) / l12) * n12 / dj + (-1.5 * xi * (1 - eta) *
    (-x1 + x2) / l12 + 1.5 * (0.5 - 0.5 * eta ^ 2) * (x1 - x4) / l41) * n11 / dj

/-- the expression that stands for entry (0, 1) of the strain matrix; wherever it occurs in metaDKQ/wrapped_code_0.c 13-156 -/
noncomputable def num0_1 (dj n11 n12 _n21 _n22 l12 _l23 _l34 l41 xi eta x1 x2 _x3 x4 y1 y2 _y3 y4 : ℝ) : ℝ :=
  (-1 * eta * (1 - xi) * (-0.75 * x1 + 0.75 * x4) * (-y1 + y4) / l41 - (0.5 - 0.5 * xi ^ 2) * (0.75 * x1 - 0.75 * x2) * (y1 - y2) /
    l12) * n12 / dj + (-1 * xi * (1 - eta) * (0.75 * x1 - 0.75 * x2) * (y1 - y2) / l12 - (0.5 - 0.5 * eta ^ 2) * (-0.75 * x1 +
    0.75 * x4) * (-y1 + y4) / l41) * n11 / dj

/-- the expression that stands for entry (0, 2) of the strain matrix; wherever it occurs in metaDKQ/wrapped_code_0.c 13-156 -/
noncomputable def num0_2 (dj n11 n12 _n21 _n22 l12 _l23 _l34 l41 xi eta x1 x2 _x3 x4 y1 y2 _y3 y4 : ℝ) : ℝ :=
  (1 * eta * (1 - xi) * (0.25 * (-x1 + x4) ^ 2 - 0.5 * (-y1 + y4) ^ 2) / l41 + (0.25 - 0.25 * xi) * (eta + xi + 1) + (0.5 - 0.5 * xi
    ^ 2) * (0.25 * (x1 - x2) ^ 2 - 0.5 * (y1 - y2) ^ 2) / l12 + (1 - eta) * (0.25 * xi - 0.25)) * n12 / dj + (1 * xi * (1 - eta) *
    (0.25 * (x1 - x2) ^ 2 - 0.5 * (y1 - y2) ^ 2) / l12 + (0.25 - 0.25 * eta) * (eta + xi + 1) + (0.5 - 0.5 * eta ^ 2) * (0.25 *
    (-x1 + x4) ^ 2 - 0.5 * (-y1 + y4) ^ 2) / l41 + (1 - eta) * (0.25 * xi - 0.25)) * n11 / dj

/-- the expression that stands for entry (0, 3) of the strain matrix; wherever it occurs in metaDKQ/wrapped_code_0.c 13-156 -/
noncomputable def num0_3 (dj n11 n12 _n21 _n22 l12 l23 _l34 _l41 xi eta x1 x2 x3 _x4 _y1 _y2 _y3 _y4 : ℝ) : ℝ :=
  (-1.5 * eta * (-x2 + x3) * (xi + 1) / l23 + 1.5 * (0.5 - 0.5 * xi ^ 2) * (-x1 + x2) / l12) * n12 / dj + (1.5 * xi * (1 - eta) *
    (-x1 + x2) / l12 + 1.5 * (0.5 - 0.5 * eta ^ 2) * (-x2 + x3) / l23) * n11 / dj

/-- the expression that stands for entry (0, 4) of the strain matrix; wherever it occurs in metaDKQ/wrapped_code_0.c 13-156 -/
noncomputable def num0_4 (dj n11 n12 _n21 _n22 l12 l23 _l34 _l41 xi eta x1 x2 x3 _x4 y1 y2 y3 _y4 : ℝ) : ℝ :=
  (-1 * eta * (0.75 * x2 - 0.75 * x3) * (xi + 1) * (y2 - y3) / l23 - (0.5 - 0.5 * xi ^ 2) * (0.75 * x1 - 0.75 * x2) * (y1 - y2) /
    l12) * n12 / dj + (-1 * xi * (1 - eta) * (0.75 * x1 - 0.75 * x2) * (y1 - y2) / l12 + (0.5 - 0.5 * eta ^ 2) * (0.75 * x2 - 0.75
    * x3) * (y2 - y3) / l23) * n11 / dj

/-- the expression that stands for entry (0, 5) of the strain matrix; wherever it occurs in metaDKQ/wrapped_code_0.c 13-156 -/
noncomputable def num0_5 (dj n11 n12 _n21 _n22 l12 l23 _l34 _l41 xi eta x1 x2 x3 _x4 y1 y2 y3 _y4 : ℝ) : ℝ :=
  (1 * eta * (xi + 1) * (0.25 * (x2 - x3) ^ 2 - 0.5 * (y2 - y3) ^ 2) / l23 + (0.5 - 0.5 * xi ^ 2) * (0.25 * (x1 - x2) ^ 2 - 0.5 *
    (y1 - y2) ^ 2) / l12 + (1 - eta) * (-0.25 * xi - 0.25) + (0.25 * xi + 0.25) * (eta - xi + 1)) * n12 / dj + (1 * xi * (1 - eta)
    * (0.25 * (x1 - x2) ^ 2 - 0.5 * (y1 - y2) ^ 2) / l12 - (0.5 - 0.5 * eta ^ 2) * (0.25 * (x2 - x3) ^ 2 - 0.5 * (y2 - y3) ^ 2) /
    l23 - (1 - eta) * (-0.25 * xi - 0.25) + (0.25 * eta - 0.25) * (eta - xi + 1)) * n11 / dj

/-- the expression that stands for entry (0, 6) of the strain matrix; wherever it occurs in metaDKQ/wrapped_code_0.c 13-156 -/
noncomputable def num0_6 (dj n11 n12 _n21 _n22 _l12 l23 l34 _l41 xi eta _x1 x2 x3 x4 _y1 _y2 _y3 _y4 : ℝ) : ℝ :=
  (1.5 * eta * (-x2 + x3) * (xi + 1) / l23 + 1.5 * (0.5 - 0.5 * xi ^ 2) * (-x3 + x4) / l34) * n12 / dj + (-1.5 * xi * (eta + 1) *
    (-x3 + x4) / l34 - 1.5 * (0.5 - 0.5 * eta ^ 2) * (-x2 + x3) / l23) * n11 / dj

/-- the expression that stands for entry (0, 7) of the strain matrix; wherever it occurs in metaDKQ/wrapped_code_0.c 13-156 -/
noncomputable def num0_7 (dj n11 n12 _n21 _n22 _l12 l23 l34 _l41 xi eta _x1 x2 x3 x4 _y1 y2 y3 y4 : ℝ) : ℝ :=
  (-1 * eta * (0.75 * x2 - 0.75 * x3) * (xi + 1) * (y2 - y3) / l23 + (0.5 - 0.5 * xi ^ 2) * (0.75 * x3 - 0.75 * x4) * (y3 - y4) /
    l34) * n12 / dj + (-1 * xi * (eta + 1) * (0.75 * x3 - 0.75 * x4) * (y3 - y4) / l34 + (0.5 - 0.5 * eta ^ 2) * (0.75 * x2 - 0.75
    * x3) * (y2 - y3) / l23) * n11 / dj

/-- the expression that stands for entry (0, 8) of the strain matrix; wherever it occurs in metaDKQ/wrapped_code_0.c 13-156 -/
noncomputable def num0_8 (dj n11 n12 _n21 _n22 _l12 l23 l34 _l41 xi eta _x1 x2 x3 x4 _y1 y2 y3 y4 : ℝ) : ℝ :=
  (1 * eta * (xi + 1) * (0.25 * (x2 - x3) ^ 2 - 0.5 * (y2 - y3) ^ 2) / l23 - (0.5 - 0.5 * xi ^ 2) * (0.25 * (x3 - x4) ^ 2 - 0.5 *
    (y3 - y4) ^ 2) / l34 - (eta + 1) * (-0.25 * xi - 0.25) + (-0.25 * xi - 0.25) * (-eta - xi + 1)) * n12 / dj + (1 * xi * (eta +
    1) * (0.25 * (x3 - x4) ^ 2 - 0.5 * (y3 - y4) ^ 2) / l34 - (0.5 - 0.5 * eta ^ 2) * (0.25 * (x2 - x3) ^ 2 - 0.5 * (y2 - y3) ^ 2)
    / l23 + (-0.25 * eta - 0.25) * (-eta - xi + 1) - (eta + 1) * (-0.25 * xi - 0.25)) * n11 / dj

/-- the expression that stands for entry (0, 9) of the strain matrix; wherever it occurs in metaDKQ/wrapped_code_0.c 13-156 -/
noncomputable def num0_9 (dj n11 n12 _n21 _n22 _l12 _l23 l34 l41 xi eta x1 _x2 x3 x4 _y1 _y2 _y3 _y4 : ℝ) : ℝ :=
  (-1.5 * eta * (1 - xi) * (x1 - x4) / l41 - 1.5 * (0.5 - 0.5 * xi ^ 2) * (-x3 + x4) / l34) * n12 / dj + (1.5 * xi * (eta + 1) *
    (-x3 + x4) / l34 - 1.5 * (0.5 - 0.5 * eta ^ 2) * (x1 - x4) / l41) * n11 / dj

/-- the expression that stands for entry (0, 10) of the strain matrix; wherever it occurs in metaDKQ/wrapped_code_0.c 13-156 -/
noncomputable def num0_10 (dj n11 n12 _n21 _n22 _l12 _l23 l34 l41 xi eta x1 _x2 x3 x4 y1 _y2 y3 y4 : ℝ) : ℝ :=
  (-1 * eta * (1 - xi) * (-0.75 * x1 + 0.75 * x4) * (-y1 + y4) / l41 + (0.5 - 0.5 * xi ^ 2) * (0.75 * x3 - 0.75 * x4) * (y3 - y4) /
    l34) * n12 / dj + (-1 * xi * (eta + 1) * (0.75 * x3 - 0.75 * x4) * (y3 - y4) / l34 - (0.5 - 0.5 * eta ^ 2) * (-0.75 * x1 +
    0.75 * x4) * (-y1 + y4) / l41) * n11 / dj

/-- the expression that stands for entry (0, 11) of the strain matrix; wherever it occurs in metaDKQ/wrapped_code_0.c 13-156 -/
noncomputable def num0_11 (dj n11 n12 _n21 _n22 _l12 _l23 l34 l41 xi eta x1 _x2 x3 x4 y1 _y2 y3 y4 : ℝ) : ℝ :=
  (1 * eta * (1 - xi) * (0.25 * (-x1 + x4) ^ 2 - 0.5 * (-y1 + y4) ^ 2) / l41 - (0.5 - 0.5 * xi ^ 2) * (0.25 * (x3 - x4) ^ 2 - 0.5 *
    (y3 - y4) ^ 2) / l34 - (eta + 1) * (0.25 * xi - 0.25) + (0.25 * xi - 0.25) * (-eta + xi + 1)) * n12 / dj + (1 * xi * (eta + 1)
    * (0.25 * (x3 - x4) ^ 2 - 0.5 * (y3 - y4) ^ 2) / l34 + (0.5 - 0.5 * eta ^ 2) * (0.25 * (-x1 + x4) ^ 2 - 0.5 * (-y1 + y4) ^ 2)
    / l41 + (0.25 * eta + 0.25) * (-eta + xi + 1) + (eta + 1) * (0.25 * xi - 0.25)) * n11 / dj

/-- the expression that stands for entry (1, 0) of the strain matrix; wherever it occurs in metaDKQ/wrapped_code_0.c 13-156 -/
noncomputable def num1_0 (dj _n11 _n12 n21 n22 l12 _l23 _l34 l41 xi eta _x1 _x2 _x3 _x4 y1 y2 _y3 y4 : ℝ) : ℝ :=
  (1.5 * eta * (1 - xi) * (y1 - y4) / l41 - 1.5 * (0.5 - 0.5 * xi ^ 2) * (-y1 + y2) / l12) * n22 / dj + (-1.5 * xi * (1 - eta) *
    (-y1 + y2) / l12 + 1.5 * (0.5 - 0.5 * eta ^ 2) * (y1 - y4) / l41) * n21 / dj

/-- the expression that stands for entry (1, 1) of the strain matrix; wherever it occurs in metaDKQ/wrapped_code_0.c 13-156 -/
noncomputable def num1_1 (dj _n11 _n12 n21 n22 l12 _l23 _l34 l41 xi eta x1 x2 _x3 x4 y1 y2 _y3 y4 : ℝ) : ℝ :=
  (-1 * eta * (1 - xi) * (-0.5 * (-x1 + x4) ^ 2 + 0.25 * (-y1 + y4) ^ 2) / l41 - (0.5 - 0.5 * xi ^ 2) * (-0.5 * (x1 - x2) ^ 2 + 0.25
    * (y1 - y2) ^ 2) / l12 + (eta - 1) * (0.25 * xi - 0.25) + (0.25 * xi - 0.25) * (eta + xi + 1)) * n22 / dj + (-1 * xi * (1 -
    eta) * (-0.5 * (x1 - x2) ^ 2 + 0.25 * (y1 - y2) ^ 2) / l12 - (0.5 - 0.5 * eta ^ 2) * (-0.5 * (-x1 + x4) ^ 2 + 0.25 * (-y1 +
    y4) ^ 2) / l41 + (0.25 * eta - 0.25) * (eta + xi + 1) + (eta - 1) * (0.25 * xi - 0.25)) * n21 / dj

/-- the expression that stands for entry (1, 2) of the strain matrix; wherever it occurs in metaDKQ/wrapped_code_0.c 13-156 -/
noncomputable def num1_2 (dj _n11 _n12 n21 n22 l12 _l23 _l34 l41 xi eta x1 x2 _x3 x4 y1 y2 _y3 y4 : ℝ) : ℝ :=
  (1 * eta * (1 - xi) * (-0.75 * x1 + 0.75 * x4) * (-y1 + y4) / l41 + (0.5 - 0.5 * xi ^ 2) * (0.75 * x1 - 0.75 * x2) * (y1 - y2) /
    l12) * n22 / dj + (1 * xi * (1 - eta) * (0.75 * x1 - 0.75 * x2) * (y1 - y2) / l12 + (0.5 - 0.5 * eta ^ 2) * (-0.75 * x1 + 0.75
    * x4) * (-y1 + y4) / l41) * n21 / dj

/-- the expression that stands for entry (1, 3) of the strain matrix; wherever it occurs in metaDKQ/wrapped_code_0.c 13-156 -/
noncomputable def num1_3 (dj _n11 _n12 n21 n22 l12 l23 _l34 _l41 xi eta _x1 _x2 _x3 _x4 y1 y2 y3 _y4 : ℝ) : ℝ :=
  (-1.5 * eta * (xi + 1) * (-y2 + y3) / l23 + 1.5 * (0.5 - 0.5 * xi ^ 2) * (-y1 + y2) / l12) * n22 / dj + (1.5 * xi * (1 - eta) *
    (-y1 + y2) / l12 + 1.5 * (0.5 - 0.5 * eta ^ 2) * (-y2 + y3) / l23) * n21 / dj

/-- the expression that stands for entry (1, 4) of the strain matrix; wherever it occurs in metaDKQ/wrapped_code_0.c 13-156 -/
noncomputable def num1_4 (dj _n11 _n12 n21 n22 l12 l23 _l34 _l41 xi eta x1 x2 x3 _x4 y1 y2 y3 _y4 : ℝ) : ℝ :=
  (-1 * eta * (xi + 1) * (-0.5 * (x2 - x3) ^ 2 + 0.25 * (y2 - y3) ^ 2) / l23 - (0.5 - 0.5 * xi ^ 2) * (-0.5 * (x1 - x2) ^ 2 + 0.25 *
    (y1 - y2) ^ 2) / l12 + (eta - 1) * (-0.25 * xi - 0.25) + (-0.25 * xi - 0.25) * (eta - xi + 1)) * n22 / dj + (-1 * xi * (1 -
    eta) * (-0.5 * (x1 - x2) ^ 2 + 0.25 * (y1 - y2) ^ 2) / l12 + (0.25 - 0.25 * eta) * (eta - xi + 1) + (0.5 - 0.5 * eta ^ 2) *
    (-0.5 * (x2 - x3) ^ 2 + 0.25 * (y2 - y3) ^ 2) / l23 - (eta - 1) * (-0.25 * xi - 0.25)) * n21 / dj

/-- the expression that stands for entry (1, 5) of the strain matrix; wherever it occurs in metaDKQ/wrapped_code_0.c 13-156 -/
noncomputable def num1_5 (dj _n11 _n12 n21 n22 l12 l23 _l34 _l41 xi eta x1 x2 x3 _x4 y1 y2 y3 _y4 : ℝ) : ℝ :=
  (1 * eta * (0.75 * x2 - 0.75 * x3) * (xi + 1) * (y2 - y3) / l23 + (0.5 - 0.5 * xi ^ 2) * (0.75 * x1 - 0.75 * x2) * (y1 - y2) /
    l12) * n22 / dj + (1 * xi * (1 - eta) * (0.75 * x1 - 0.75 * x2) * (y1 - y2) / l12 - (0.5 - 0.5 * eta ^ 2) * (0.75 * x2 - 0.75
    * x3) * (y2 - y3) / l23) * n21 / dj

/-- the expression that stands for entry (1, 6) of the strain matrix; wherever it occurs in metaDKQ/wrapped_code_0.c 13-156 -/
noncomputable def num1_6 (dj _n11 _n12 n21 n22 _l12 l23 l34 _l41 xi eta _x1 _x2 _x3 _x4 _y1 y2 y3 y4 : ℝ) : ℝ :=
  (1.5 * eta * (xi + 1) * (-y2 + y3) / l23 + 1.5 * (0.5 - 0.5 * xi ^ 2) * (-y3 + y4) / l34) * n22 / dj + (-1.5 * xi * (eta + 1) *
    (-y3 + y4) / l34 - 1.5 * (0.5 - 0.5 * eta ^ 2) * (-y2 + y3) / l23) * n21 / dj

/-- the expression that stands for entry (1, 7) of the strain matrix; wherever it occurs in metaDKQ/wrapped_code_0.c 13-156 -/
noncomputable def num1_7 (dj _n11 _n12 n21 n22 _l12 l23 l34 _l41 xi eta _x1 x2 x3 x4 _y1 y2 y3 y4 : ℝ) : ℝ :=
  (-1 * eta * (xi + 1) * (-0.5 * (x2 - x3) ^ 2 + 0.25 * (y2 - y3) ^ 2) / l23 + (0.5 - 0.5 * xi ^ 2) * (-0.5 * (x3 - x4) ^ 2 + 0.25 *
    (y3 - y4) ^ 2) / l34 - (-eta - 1) * (-0.25 * xi - 0.25) + (0.25 * xi + 0.25) * (-eta - xi + 1)) * n22 / dj + (-1 * xi * (eta +
    1) * (-0.5 * (x3 - x4) ^ 2 + 0.25 * (y3 - y4) ^ 2) / l34 + (0.5 - 0.5 * eta ^ 2) * (-0.5 * (x2 - x3) ^ 2 + 0.25 * (y2 - y3) ^
    2) / l23 - (-eta - 1) * (-0.25 * xi - 0.25) + (0.25 * eta + 0.25) * (-eta - xi + 1)) * n21 / dj

/-- the expression that stands for entry (1, 8) of the strain matrix; wherever it occurs in metaDKQ/wrapped_code_0.c 13-156 -/
noncomputable def num1_8 (dj _n11 _n12 n21 n22 _l12 l23 l34 _l41 xi eta _x1 x2 x3 x4 _y1 y2 y3 y4 : ℝ) : ℝ :=
  (1 * eta * (0.75 * x2 - 0.75 * x3) * (xi + 1) * (y2 - y3) / l23 - (0.5 - 0.5 * xi ^ 2) * (0.75 * x3 - 0.75 * x4) * (y3 - y4) /
    l34) * n22 / dj + (1 * xi * (eta + 1) * (0.75 * x3 - 0.75 * x4) * (y3 - y4) / l34 - (0.5 - 0.5 * eta ^ 2) * (0.75 * x2 - 0.75
    * x3) * (y2 - y3) / l23) * n21 / dj

/-- the expression that stands for entry (1, 9) of the strain matrix; wherever it occurs in metaDKQ/wrapped_code_0.c 13-156 -/
noncomputable def num1_9 (dj _n11 _n12 n21 n22 _l12 _l23 l34 l41 xi eta _x1 _x2 _x3 _x4 y1 _y2 y3 y4 : ℝ) : ℝ :=
  (-1.5 * eta * (1 - xi) * (y1 - y4) / l41 - 1.5 * (0.5 - 0.5 * xi ^ 2) * (-y3 + y4) / l34) * n22 / dj + (1.5 * xi * (eta + 1) *
    (-y3 + y4) / l34 - 1.5 * (0.5 - 0.5 * eta ^ 2) * (y1 - y4) / l41) * n21 / dj

/-- the expression that stands for entry (1, 10) of the strain matrix; wherever it occurs in metaDKQ/wrapped_code_0.c 13-156 -/
noncomputable def num1_10 (dj _n11 _n12 n21 n22 _l12 _l23 l34 l41 xi eta x1 _x2 x3 x4 y1 _y2 y3 y4 : ℝ) : ℝ :=
  (-1 * eta * (1 - xi) * (-0.5 * (-x1 + x4) ^ 2 + 0.25 * (-y1 + y4) ^ 2) / l41 + (0.25 - 0.25 * xi) * (-eta + xi + 1) + (0.5 - 0.5 *
    xi ^ 2) * (-0.5 * (x3 - x4) ^ 2 + 0.25 * (y3 - y4) ^ 2) / l34 - (-eta - 1) * (0.25 * xi - 0.25)) * n22 / dj + (-1 * xi * (eta
    + 1) * (-0.5 * (x3 - x4) ^ 2 + 0.25 * (y3 - y4) ^ 2) / l34 - (0.5 - 0.5 * eta ^ 2) * (-0.5 * (-x1 + x4) ^ 2 + 0.25 * (-y1 +
    y4) ^ 2) / l41 + (-eta - 1) * (0.25 * xi - 0.25) + (-0.25 * eta - 0.25) * (-eta + xi + 1)) * n21 / dj

/-- the expression that stands for entry (1, 11) of the strain matrix; wherever it occurs in metaDKQ/wrapped_code_0.c 13-156 -/
noncomputable def num1_11 (dj _n11 _n12 n21 n22 _l12 _l23 l34 l41 xi eta x1 _x2 x3 x4 y1 _y2 y3 y4 : ℝ) : ℝ :=
  (1 * eta * (1 - xi) * (-0.75 * x1 + 0.75 * x4) * (-y1 + y4) / l41 - (0.5 - 0.5 * xi ^ 2) * (0.75 * x3 - 0.75 * x4) * (y3 - y4) /
    l34) * n22 / dj + (1 * xi * (eta + 1) * (0.75 * x3 - 0.75 * x4) * (y3 - y4) / l34 + (0.5 - 0.5 * eta ^ 2) * (-0.75 * x1 + 0.75
    * x4) * (-y1 + y4) / l41) * n21 / dj

/-- the expression that stands for entry (2, 0) of the strain matrix; wherever it occurs in metaDKQ/wrapped_code_0.c 13-156 -/
noncomputable def num2_0 (dj n11 n12 n21 n22 l12 _l23 _l34 l41 xi eta x1 x2 _x3 x4 y1 y2 _y3 y4 : ℝ) : ℝ :=
  (1.5 * eta * (1 - xi) * (x1 - x4) / l41 - 1.5 * (0.5 - 0.5 * xi ^ 2) * (-x1 + x2) / l12) * n22 / dj + (1.5 * eta * (1 - xi) * (y1
    - y4) / l41 - 1.5 * (0.5 - 0.5 * xi ^ 2) * (-y1 + y2) / l12) * n12 / dj + (-1.5 * xi * (1 - eta) * (-x1 + x2) / l12 + 1.5 *
    (0.5 - 0.5 * eta ^ 2) * (x1 - x4) / l41) * n21 / dj + (-1.5 * xi * (1 - eta) * (-y1 + y2) / l12 + 1.5 * (0.5 - 0.5 * eta ^ 2)
    * (y1 - y4) / l41) * n11 / dj

/-- the expression that stands for entry (2, 1) of the strain matrix; wherever it occurs in metaDKQ/wrapped_code_0.c 13-156 -/
noncomputable def num2_1 (dj n11 n12 n21 n22 l12 _l23 _l34 l41 xi eta x1 x2 _x3 x4 y1 y2 _y3 y4 : ℝ) : ℝ :=
  (-1 * eta * (1 - xi) * (-0.75 * x1 + 0.75 * x4) * (-y1 + y4) / l41 - (0.5 - 0.5 * xi ^ 2) * (0.75 * x1 - 0.75 * x2) * (y1 - y2) /
    l12) * n22 / dj + (-1 * xi * (1 - eta) * (0.75 * x1 - 0.75 * x2) * (y1 - y2) / l12 - (0.5 - 0.5 * eta ^ 2) * (-0.75 * x1 +
    0.75 * x4) * (-y1 + y4) / l41) * n21 / dj + (-1 * eta * (1 - xi) * (-0.5 * (-x1 + x4) ^ 2 + 0.25 * (-y1 + y4) ^ 2) / l41 -
    (0.5 - 0.5 * xi ^ 2) * (-0.5 * (x1 - x2) ^ 2 + 0.25 * (y1 - y2) ^ 2) / l12 + (eta - 1) * (0.25 * xi - 0.25) + (0.25 * xi -
    0.25) * (eta + xi + 1)) * n12 / dj + (-1 * xi * (1 - eta) * (-0.5 * (x1 - x2) ^ 2 + 0.25 * (y1 - y2) ^ 2) / l12 - (0.5 - 0.5 *
    eta ^ 2) * (-0.5 * (-x1 + x4) ^ 2 + 0.25 * (-y1 + y4) ^ 2) / l41 + (0.25 * eta - 0.25) * (eta + xi + 1) + (eta - 1) * (0.25 *
    xi - 0.25)) * n11 / dj

/-- the expression that stands for entry (2, 2) of the strain matrix; wherever it occurs in metaDKQ/wrapped_code_0.c 13-156 -/
noncomputable def num2_2 (dj n11 n12 n21 n22 l12 _l23 _l34 l41 xi eta x1 x2 _x3 x4 y1 y2 _y3 y4 : ℝ) : ℝ :=
  (1 * eta * (1 - xi) * (-0.75 * x1 + 0.75 * x4) * (-y1 + y4) / l41 + (0.5 - 0.5 * xi ^ 2) * (0.75 * x1 - 0.75 * x2) * (y1 - y2) /
    l12) * n12 / dj + (1 * xi * (1 - eta) * (0.75 * x1 - 0.75 * x2) * (y1 - y2) / l12 + (0.5 - 0.5 * eta ^ 2) * (-0.75 * x1 + 0.75
    * x4) * (-y1 + y4) / l41) * n11 / dj + (1 * eta * (1 - xi) * (0.25 * (-x1 + x4) ^ 2 - 0.5 * (-y1 + y4) ^ 2) / l41 + (0.25 -
    0.25 * xi) * (eta + xi + 1) + (0.5 - 0.5 * xi ^ 2) * (0.25 * (x1 - x2) ^ 2 - 0.5 * (y1 - y2) ^ 2) / l12 + (1 - eta) * (0.25 *
    xi - 0.25)) * n22 / dj + (1 * xi * (1 - eta) * (0.25 * (x1 - x2) ^ 2 - 0.5 * (y1 - y2) ^ 2) / l12 + (0.25 - 0.25 * eta) * (eta
    + xi + 1) + (0.5 - 0.5 * eta ^ 2) * (0.25 * (-x1 + x4) ^ 2 - 0.5 * (-y1 + y4) ^ 2) / l41 + (1 - eta) * (0.25 * xi - 0.25)) *
    n21 / dj

/-- the expression that stands for entry (2, 3) of the strain matrix; wherever it occurs in metaDKQ/wrapped_code_0.c 13-156 -/
noncomputable def num2_3 (dj n11 n12 n21 n22 l12 l23 _l34 _l41 xi eta x1 x2 x3 _x4 y1 y2 y3 _y4 : ℝ) : ℝ :=
  (-1.5 * eta * (-x2 + x3) * (xi + 1) / l23 + 1.5 * (0.5 - 0.5 * xi ^ 2) * (-x1 + x2) / l12) * n22 / dj + (-1.5 * eta * (xi + 1) *
    (-y2 + y3) / l23 + 1.5 * (0.5 - 0.5 * xi ^ 2) * (-y1 + y2) / l12) * n12 / dj + (1.5 * xi * (1 - eta) * (-x1 + x2) / l12 + 1.5
    * (0.5 - 0.5 * eta ^ 2) * (-x2 + x3) / l23) * n21 / dj + (1.5 * xi * (1 - eta) * (-y1 + y2) / l12 + 1.5 * (0.5 - 0.5 * eta ^
    2) * (-y2 + y3) / l23) * n11 / dj

/-- the expression that stands for entry (2, 4) of the strain matrix; wherever it occurs in metaDKQ/wrapped_code_0.c 13-156 -/
noncomputable def num2_4 (dj n11 n12 n21 n22 l12 l23 _l34 _l41 xi eta x1 x2 x3 _x4 y1 y2 y3 _y4 : ℝ) : ℝ :=
  (-1 * eta * (0.75 * x2 - 0.75 * x3) * (xi + 1) * (y2 - y3) / l23 - (0.5 - 0.5 * xi ^ 2) * (0.75 * x1 - 0.75 * x2) * (y1 - y2) /
    l12) * n22 / dj + (-1 * xi * (1 - eta) * (0.75 * x1 - 0.75 * x2) * (y1 - y2) / l12 + (0.5 - 0.5 * eta ^ 2) * (0.75 * x2 - 0.75
    * x3) * (y2 - y3) / l23) * n21 / dj + (-1 * eta * (xi + 1) * (-0.5 * (x2 - x3) ^ 2 + 0.25 * (y2 - y3) ^ 2) / l23 - (0.5 - 0.5
    * xi ^ 2) * (-0.5 * (x1 - x2) ^ 2 + 0.25 * (y1 - y2) ^ 2) / l12 + (eta - 1) * (-0.25 * xi - 0.25) + (-0.25 * xi - 0.25) * (eta
    - xi + 1)) * n12 / dj + (-1 * xi * (1 - eta) * (-0.5 * (x1 - x2) ^ 2 + 0.25 * (y1 - y2) ^ 2) / l12 + (0.25 - 0.25 * eta) *
    (eta - xi + 1) + (0.5 - 0.5 * eta ^ 2) * (-0.5 * (x2 - x3) ^ 2 + 0.25 * (y2 - y3) ^ 2) / l23 - (eta - 1) * (-0.25 * xi -
    0.25)) * n11 / dj

/-- the expression that stands for entry (2, 5) of the strain matrix; wherever it occurs in metaDKQ/wrapped_code_0.c 13-156 -/
noncomputable def num2_5 (dj n11 n12 n21 n22 l12 l23 _l34 _l41 xi eta x1 x2 x3 _x4 y1 y2 y3 _y4 : ℝ) : ℝ :=
  (1 * eta * (0.75 * x2 - 0.75 * x3) * (xi + 1) * (y2 - y3) / l23 + (0.5 - 0.5 * xi ^ 2) * (0.75 * x1 - 0.75 * x2) * (y1 - y2) /
    l12) * n12 / dj + (1 * xi * (1 - eta) * (0.75 * x1 - 0.75 * x2) * (y1 - y2) / l12 - (0.5 - 0.5 * eta ^ 2) * (0.75 * x2 - 0.75
    * x3) * (y2 - y3) / l23) * n11 / dj + (1 * eta * (xi + 1) * (0.25 * (x2 - x3) ^ 2 - 0.5 * (y2 - y3) ^ 2) / l23 + (0.5 - 0.5 *
    xi ^ 2) * (0.25 * (x1 - x2) ^ 2 - 0.5 * (y1 - y2) ^ 2) / l12 + (1 - eta) * (-0.25 * xi - 0.25) + (0.25 * xi + 0.25) * (eta -
    xi + 1)) * n22 / dj + (1 * xi * (1 - eta) * (0.25 * (x1 - x2) ^ 2 - 0.5 * (y1 - y2) ^ 2) / l12 - (0.5 - 0.5 * eta ^ 2) * (0.25
    * (x2 - x3) ^ 2 - 0.5 * (y2 - y3) ^ 2) / l23 - (1 - eta) * (-0.25 * xi - 0.25) + (0.25 * eta - 0.25) * (eta - xi + 1)) * n21 /
    dj

/-- the expression that stands for entry (2, 6) of the strain matrix; wherever it occurs in metaDKQ/wrapped_code_0.c 13-156 -/
noncomputable def num2_6 (dj n11 n12 n21 n22 _l12 l23 l34 _l41 xi eta _x1 x2 x3 x4 _y1 y2 y3 y4 : ℝ) : ℝ :=
  (1.5 * eta * (-x2 + x3) * (xi + 1) / l23 + 1.5 * (0.5 - 0.5 * xi ^ 2) * (-x3 + x4) / l34) * n22 / dj + (1.5 * eta * (xi + 1) *
    (-y2 + y3) / l23 + 1.5 * (0.5 - 0.5 * xi ^ 2) * (-y3 + y4) / l34) * n12 / dj + (-1.5 * xi * (eta + 1) * (-x3 + x4) / l34 - 1.5
    * (0.5 - 0.5 * eta ^ 2) * (-x2 + x3) / l23) * n21 / dj + (-1.5 * xi * (eta + 1) * (-y3 + y4) / l34 - 1.5 * (0.5 - 0.5 * eta ^
    2) * (-y2 + y3) / l23) * n11 / dj

/-- the expression that stands for entry (2, 7) of the strain matrix; wherever it occurs in metaDKQ/wrapped_code_0.c 13-156 -/
noncomputable def num2_7 (dj n11 n12 n21 n22 _l12 l23 l34 _l41 xi eta _x1 x2 x3 x4 _y1 y2 y3 y4 : ℝ) : ℝ :=
  (-1 * eta * (0.75 * x2 - 0.75 * x3) * (xi + 1) * (y2 - y3) / l23 + (0.5 - 0.5 * xi ^ 2) * (0.75 * x3 - 0.75 * x4) * (y3 - y4) /
    l34) * n22 / dj + (-1 * xi * (eta + 1) * (0.75 * x3 - 0.75 * x4) * (y3 - y4) / l34 + (0.5 - 0.5 * eta ^ 2) * (0.75 * x2 - 0.75
    * x3) * (y2 - y3) / l23) * n21 / dj + (-1 * eta * (xi + 1) * (-0.5 * (x2 - x3) ^ 2 + 0.25 * (y2 - y3) ^ 2) / l23 + (0.5 - 0.5
    * xi ^ 2) * (-0.5 * (x3 - x4) ^ 2 + 0.25 * (y3 - y4) ^ 2) / l34 - (-eta - 1) * (-0.25 * xi - 0.25) + (0.25 * xi + 0.25) *
    (-eta - xi + 1)) * n12 / dj + (-1 * xi * (eta + 1) * (-0.5 * (x3 - x4) ^ 2 + 0.25 * (y3 - y4) ^ 2) / l34 + (0.5 - 0.5 * eta ^
    2) * (-0.5 * (x2 - x3) ^ 2 + 0.25 * (y2 - y3) ^ 2) / l23 - (-eta - 1) * (-0.25 * xi - 0.25) + (0.25 * eta + 0.25) * (-eta - xi
    + 1)) * n11 / dj

/-- the expression that stands for entry (2, 8) of the strain matrix; wherever it occurs in metaDKQ/wrapped_code_0.c 13-156 -/
noncomputable def num2_8 (dj n11 n12 n21 n22 _l12 l23 l34 _l41 xi eta _x1 x2 x3 x4 _y1 y2 y3 y4 : ℝ) : ℝ :=
  (1 * eta * (0.75 * x2 - 0.75 * x3) * (xi + 1) * (y2 - y3) / l23 - (0.5 - 0.5 * xi ^ 2) * (0.75 * x3 - 0.75 * x4) * (y3 - y4) /
    l34) * n12 / dj + (1 * xi * (eta + 1) * (0.75 * x3 - 0.75 * x4) * (y3 - y4) / l34 - (0.5 - 0.5 * eta ^ 2) * (0.75 * x2 - 0.75
    * x3) * (y2 - y3) / l23) * n11 / dj + (1 * eta * (xi + 1) * (0.25 * (x2 - x3) ^ 2 - 0.5 * (y2 - y3) ^ 2) / l23 - (0.5 - 0.5 *
    xi ^ 2) * (0.25 * (x3 - x4) ^ 2 - 0.5 * (y3 - y4) ^ 2) / l34 - (eta + 1) * (-0.25 * xi - 0.25) + (-0.25 * xi - 0.25) * (-eta -
    xi + 1)) * n22 / dj + (1 * xi * (eta + 1) * (0.25 * (x3 - x4) ^ 2 - 0.5 * (y3 - y4) ^ 2) / l34 - (0.5 - 0.5 * eta ^ 2) * (0.25
    * (x2 - x3) ^ 2 - 0.5 * (y2 - y3) ^ 2) / l23 + (-0.25 * eta - 0.25) * (-eta - xi + 1) - (eta + 1) * (-0.25 * xi - 0.25)) * n21
    / dj

/-- the expression that stands for entry (2, 9) of the strain matrix; wherever it occurs in metaDKQ/wrapped_code_0.c 13-156 -/
noncomputable def num2_9 (dj n11 n12 n21 n22 _l12 _l23 l34 l41 xi eta x1 _x2 x3 x4 y1 _y2 y3 y4 : ℝ) : ℝ :=
  (-1.5 * eta * (1 - xi) * (x1 - x4) / l41 - 1.5 * (0.5 - 0.5 * xi ^ 2) * (-x3 + x4) / l34) * n22 / dj + (-1.5 * eta * (1 - xi) *
    (y1 - y4) / l41 - 1.5 * (0.5 - 0.5 * xi ^ 2) * (-y3 + y4) / l34) * n12 / dj + (1.5 * xi * (eta + 1) * (-x3 + x4) / l34 - 1.5 *
    (0.5 - 0.5 * eta ^ 2) * (x1 - x4) / l41) * n21 / dj + (1.5 * xi * (eta + 1) * (-y3 + y4) / l34 - 1.5 * (0.5 - 0.5 * eta ^ 2) *
    (y1 - y4) / l41) * n11 / dj

/-- the expression that stands for entry (2, 10) of the strain matrix; wherever it occurs in metaDKQ/wrapped_code_0.c 13-156 -/
noncomputable def num2_10 (dj n11 n12 n21 n22 _l12 _l23 l34 l41 xi eta x1 _x2 x3 x4 y1 _y2 y3 y4 : ℝ) : ℝ :=
  (-1 * eta * (1 - xi) * (-0.75 * x1 + 0.75 * x4) * (-y1 + y4) / l41 + (0.5 - 0.5 * xi ^ 2) * (0.75 * x3 - 0.75 * x4) * (y3 - y4) /
    l34) * n22 / dj + (-1 * xi * (eta + 1) * (0.75 * x3 - 0.75 * x4) * (y3 - y4) / l34 - (0.5 - 0.5 * eta ^ 2) * (-0.75 * x1 +
    0.75 * x4) * (-y1 + y4) / l41) * n21 / dj + (-1 * eta * (1 - xi) * (-0.5 * (-x1 + x4) ^ 2 + 0.25 * (-y1 + y4) ^ 2) / l41 +
    (0.25 - 0.25 * xi) * (-eta + xi + 1) + (0.5 - 0.5 * xi ^ 2) * (-0.5 * (x3 - x4) ^ 2 + 0.25 * (y3 - y4) ^ 2) / l34 - (-eta - 1)
    * (0.25 * xi - 0.25)) * n12 / dj + (-1 * xi * (eta + 1) * (-0.5 * (x3 - x4) ^ 2 + 0.25 * (y3 - y4) ^ 2) / l34 - (0.5 - 0.5 *
    eta ^ 2) * (-0.5 * (-x1 + x4) ^ 2 + 0.25 * (-y1 + y4) ^ 2) / l41 + (-eta - 1) * (0.25 * xi - 0.25) + (-0.25 * eta - 0.25) *
    (-eta + xi + 1)) * n11 / dj

/-- the expression that stands for entry (2, 11) of the strain matrix; wherever it occurs in metaDKQ/wrapped_code_0.c 13-156 -/
noncomputable def num2_11 (dj n11 n12 n21 n22 _l12 _l23 l34 l41 xi eta x1 _x2 x3 x4 y1 _y2 y3 y4 : ℝ) : ℝ :=
  (1 * eta * (1 - xi) * (-0.75 * x1 + 0.75 * x4) * (-y1 + y4) / l41 - (0.5 - 0.5 * xi ^ 2) * (0.75 * x3 - 0.75 * x4) * (y3 - y4) /
    l34) * n12 / dj + (1 * xi * (eta + 1) * (0.75 * x3 - 0.75 * x4) * (y3 - y4) / l34 + (0.5 - 0.5 * eta ^ 2) * (-0.75 * x1 + 0.75
    * x4) * (-y1 + y4) / l41) * n11 / dj + (1 * eta * (1 - xi) * (0.25 * (-x1 + x4) ^ 2 - 0.5 * (-y1 + y4) ^ 2) / l41 - (0.5 - 0.5
    * xi ^ 2) * (0.25 * (x3 - x4) ^ 2 - 0.5 * (y3 - y4) ^ 2) / l34 - (eta + 1) * (0.25 * xi - 0.25) + (0.25 * xi - 0.25) * (-eta +
    xi + 1)) * n22 / dj + (1 * xi * (eta + 1) * (0.25 * (x3 - x4) ^ 2 - 0.5 * (y3 - y4) ^ 2) / l34 + (0.5 - 0.5 * eta ^ 2) * (0.25
    * (-x1 + x4) ^ 2 - 0.5 * (-y1 + y4) ^ 2) / l41 + (0.25 * eta + 0.25) * (-eta + xi + 1) + (eta + 1) * (0.25 * xi - 0.25)) * n21
    / dj

/-- the expressions of row 0; wherever it occurs in metaDKQ/wrapped_code_0.c 13-156 -/
noncomputable def row0 (dj n11 n12 n21 n22 l12 l23 l34 l41 xi eta x1 x2 x3 x4 y1 y2 y3 y4 : ℝ) : Fin 12 → ℝ := ![
  num0_0 dj n11 n12 n21 n22 l12 l23 l34 l41 xi eta x1 x2 x3 x4 y1 y2 y3 y4,
  num0_1 dj n11 n12 n21 n22 l12 l23 l34 l41 xi eta x1 x2 x3 x4 y1 y2 y3 y4,
  num0_2 dj n11 n12 n21 n22 l12 l23 l34 l41 xi eta x1 x2 x3 x4 y1 y2 y3 y4,
  num0_3 dj n11 n12 n21 n22 l12 l23 l34 l41 xi eta x1 x2 x3 x4 y1 y2 y3 y4,
  num0_4 dj n11 n12 n21 n22 l12 l23 l34 l41 xi eta x1 x2 x3 x4 y1 y2 y3 y4,
  num0_5 dj n11 n12 n21 n22 l12 l23 l34 l41 xi eta x1 x2 x3 x4 y1 y2 y3 y4,
  num0_6 dj n11 n12 n21 n22 l12 l23 l34 l41 xi eta x1 x2 x3 x4 y1 y2 y3 y4,
  num0_7 dj n11 n12 n21 n22 l12 l23 l34 l41 xi eta x1 x2 x3 x4 y1 y2 y3 y4,
  num0_8 dj n11 n12 n21 n22 l12 l23 l34 l41 xi eta x1 x2 x3 x4 y1 y2 y3 y4,
  num0_9 dj n11 n12 n21 n22 l12 l23 l34 l41 xi eta x1 x2 x3 x4 y1 y2 y3 y4,
  num0_10 dj n11 n12 n21 n22 l12 l23 l34 l41 xi eta x1 x2 x3 x4 y1 y2 y3 y4,
  num0_11 dj n11 n12 n21 n22 l12 l23 l34 l41 xi eta x1 x2 x3 x4 y1 y2 y3 y4]

/-- the expressions of row 1; wherever it occurs in metaDKQ/wrapped_code_0.c 13-156 -/
noncomputable def row1 (dj n11 n12 n21 n22 l12 l23 l34 l41 xi eta x1 x2 x3 x4 y1 y2 y3 y4 : ℝ) : Fin 12 → ℝ := ![
  num1_0 dj n11 n12 n21 n22 l12 l23 l34 l41 xi eta x1 x2 x3 x4 y1 y2 y3 y4,
  num1_1 dj n11 n12 n21 n22 l12 l23 l34 l41 xi eta x1 x2 x3 x4 y1 y2 y3 y4,
  num1_2 dj n11 n12 n21 n22 l12 l23 l34 l41 xi eta x1 x2 x3 x4 y1 y2 y3 y4,
  num1_3 dj n11 n12 n21 n22 l12 l23 l34 l41 xi eta x1 x2 x3 x4 y1 y2 y3 y4,
  num1_4 dj n11 n12 n21 n22 l12 l23 l34 l41 xi eta x1 x2 x3 x4 y1 y2 y3 y4,
  num1_5 dj n11 n12 n21 n22 l12 l23 l34 l41 xi eta x1 x2 x3 x4 y1 y2 y3 y4,
  num1_6 dj n11 n12 n21 n22 l12 l23 l34 l41 xi eta x1 x2 x3 x4 y1 y2 y3 y4,
  num1_7 dj n11 n12 n21 n22 l12 l23 l34 l41 xi eta x1 x2 x3 x4 y1 y2 y3 y4,
  num1_8 dj n11 n12 n21 n22 l12 l23 l34 l41 xi eta x1 x2 x3 x4 y1 y2 y3 y4,
  num1_9 dj n11 n12 n21 n22 l12 l23 l34 l41 xi eta x1 x2 x3 x4 y1 y2 y3 y4,
  num1_10 dj n11 n12 n21 n22 l12 l23 l34 l41 xi eta x1 x2 x3 x4 y1 y2 y3 y4,
  num1_11 dj n11 n12 n21 n22 l12 l23 l34 l41 xi eta x1 x2 x3 x4 y1 y2 y3 y4]

/-- the expressions of row 2; wherever it occurs in metaDKQ/wrapped_code_0.c 13-156 -/
noncomputable def row2 (dj n11 n12 n21 n22 l12 l23 l34 l41 xi eta x1 x2 x3 x4 y1 y2 y3 y4 : ℝ) : Fin 12 → ℝ := ![
  num2_0 dj n11 n12 n21 n22 l12 l23 l34 l41 xi eta x1 x2 x3 x4 y1 y2 y3 y4,
  num2_1 dj n11 n12 n21 n22 l12 l23 l34 l41 xi eta x1 x2 x3 x4 y1 y2 y3 y4,
  num2_2 dj n11 n12 n21 n22 l12 l23 l34 l41 xi eta x1 x2 x3 x4 y1 y2 y3 y4,
  num2_3 dj n11 n12 n21 n22 l12 l23 l34 l41 xi eta x1 x2 x3 x4 y1 y2 y3 y4,
  num2_4 dj n11 n12 n21 n22 l12 l23 l34 l41 xi eta x1 x2 x3 x4 y1 y2 y3 y4,
  num2_5 dj n11 n12 n21 n22 l12 l23 l34 l41 xi eta x1 x2 x3 x4 y1 y2 y3 y4,
  num2_6 dj n11 n12 n21 n22 l12 l23 l34 l41 xi eta x1 x2 x3 x4 y1 y2 y3 y4,
  num2_7 dj n11 n12 n21 n22 l12 l23 l34 l41 xi eta x1 x2 x3 x4 y1 y2 y3 y4,
  num2_8 dj n11 n12 n21 n22 l12 l23 l34 l41 xi eta x1 x2 x3 x4 y1 y2 y3 y4,
  num2_9 dj n11 n12 n21 n22 l12 l23 l34 l41 xi eta x1 x2 x3 x4 y1 y2 y3 y4,
  num2_10 dj n11 n12 n21 n22 l12 l23 l34 l41 xi eta x1 x2 x3 x4 y1 y2 y3 y4,
  num2_11 dj n11 n12 n21 n22 l12 l23 l34 l41 xi eta x1 x2 x3 x4 y1 y2 y3 y4]

/-- `out[0]`, metaDKQ/wrapped_code_0.c 13 -/
noncomputable def o0_0 (E mu t dp : ℝ) (f0 f1 f2 : Fin 12 → ℝ) : ℝ :=
  ((1 / 12) * E * t ^ 3 * (1 / 2 - 1 / 2 * mu) * (f2 0) ^ 2 / (1 - mu ^ 2) + (f0 0) * ((1 / 12) * E * mu * t ^ 3 * (f1 0) / (1 - mu
    ^ 2) + (1 / 12) * E * t ^ 3 * (f0 0) / (1 - mu ^ 2)) + (f1 0) * ((1 / 12) * E * mu * t ^ 3 * (f0 0) / (1 - mu ^ 2) + (1 / 12)
    * E * t ^ 3 * (f1 0) / (1 - mu ^ 2))) * dp

/-- `out[1]`, metaDKQ/wrapped_code_0.c 14 -/
noncomputable def o0_1 (E mu t dp : ℝ) (f0 f1 f2 : Fin 12 → ℝ) : ℝ :=
  ((1 / 12) * E * t ^ 3 * (1 / 2 - 1 / 2 * mu) * (f2 0) * (f2 1) / (1 - mu ^ 2) + (f0 1) * ((1 / 12) * E * mu * t ^ 3 * (f1 0) / (1
    - mu ^ 2) + (1 / 12) * E * t ^ 3 * (f0 0) / (1 - mu ^ 2)) + (f1 1) * ((1 / 12) * E * mu * t ^ 3 * (f0 0) / (1 - mu ^ 2) + (1 /
    12) * E * t ^ 3 * (f1 0) / (1 - mu ^ 2))) * dp

/-- `out[2]`, metaDKQ/wrapped_code_0.c 15 -/
noncomputable def o0_2 (E mu t dp : ℝ) (f0 f1 f2 : Fin 12 → ℝ) : ℝ :=
  ((1 / 12) * E * t ^ 3 * (1 / 2 - 1 / 2 * mu) * (f2 0) * (f2 2) / (1 - mu ^ 2) + (f1 2) * ((1 / 12) * E * mu * t ^ 3 * (f0 0) / (1
    - mu ^ 2) + (1 / 12) * E * t ^ 3 * (f1 0) / (1 - mu ^ 2)) + (f0 2) * ((1 / 12) * E * mu * t ^ 3 * (f1 0) / (1 - mu ^ 2) + (1 /
    12) * E * t ^ 3 * (f0 0) / (1 - mu ^ 2))) * dp

/-- `out[3]`, metaDKQ/wrapped_code_0.c 16 -/
noncomputable def o0_3 (E mu t dp : ℝ) (f0 f1 f2 : Fin 12 → ℝ) : ℝ :=
  ((1 / 12) * E * t ^ 3 * (1 / 2 - 1 / 2 * mu) * (f2 0) * (f2 3) / (1 - mu ^ 2) + (f0 3) * ((1 / 12) * E * mu * t ^ 3 * (f1 0) / (1
    - mu ^ 2) + (1 / 12) * E * t ^ 3 * (f0 0) / (1 - mu ^ 2)) + (f1 3) * ((1 / 12) * E * mu * t ^ 3 * (f0 0) / (1 - mu ^ 2) + (1 /
    12) * E * t ^ 3 * (f1 0) / (1 - mu ^ 2))) * dp

/-- `out[4]`, metaDKQ/wrapped_code_0.c 17 -/
noncomputable def o0_4 (E mu t dp : ℝ) (f0 f1 f2 : Fin 12 → ℝ) : ℝ :=
  ((1 / 12) * E * t ^ 3 * (1 / 2 - 1 / 2 * mu) * (f2 0) * (f2 4) / (1 - mu ^ 2) + (f0 4) * ((1 / 12) * E * mu * t ^ 3 * (f1 0) / (1
    - mu ^ 2) + (1 / 12) * E * t ^ 3 * (f0 0) / (1 - mu ^ 2)) + (f1 4) * ((1 / 12) * E * mu * t ^ 3 * (f0 0) / (1 - mu ^ 2) + (1 /
    12) * E * t ^ 3 * (f1 0) / (1 - mu ^ 2))) * dp

/-- `out[5]`, metaDKQ/wrapped_code_0.c 18 -/
noncomputable def o0_5 (E mu t dp : ℝ) (f0 f1 f2 : Fin 12 → ℝ) : ℝ :=
  ((1 / 12) * E * t ^ 3 * (1 / 2 - 1 / 2 * mu) * (f2 0) * (f2 5) / (1 - mu ^ 2) + (f1 5) * ((1 / 12) * E * mu * t ^ 3 * (f0 0) / (1
    - mu ^ 2) + (1 / 12) * E * t ^ 3 * (f1 0) / (1 - mu ^ 2)) + (f0 5) * ((1 / 12) * E * mu * t ^ 3 * (f1 0) / (1 - mu ^ 2) + (1 /
    12) * E * t ^ 3 * (f0 0) / (1 - mu ^ 2))) * dp

/-- `out[6]`, metaDKQ/wrapped_code_0.c 19 -/
noncomputable def o0_6 (E mu t dp : ℝ) (f0 f1 f2 : Fin 12 → ℝ) : ℝ :=
  ((1 / 12) * E * t ^ 3 * (1 / 2 - 1 / 2 * mu) * (f2 0) * (f2 6) / (1 - mu ^ 2) + (f0 6) * ((1 / 12) * E * mu * t ^ 3 * (f1 0) / (1
    - mu ^ 2) + (1 / 12) * E * t ^ 3 * (f0 0) / (1 - mu ^ 2)) + (f1 6) * ((1 / 12) * E * mu * t ^ 3 * (f0 0) / (1 - mu ^ 2) + (1 /
    12) * E * t ^ 3 * (f1 0) / (1 - mu ^ 2))) * dp

/-- `out[7]`, metaDKQ/wrapped_code_0.c 20 -/
noncomputable def o0_7 (E mu t dp : ℝ) (f0 f1 f2 : Fin 12 → ℝ) : ℝ :=
  ((1 / 12) * E * t ^ 3 * (1 / 2 - 1 / 2 * mu) * (f2 0) * (f2 7) / (1 - mu ^ 2) + (f0 7) * ((1 / 12) * E * mu * t ^ 3 * (f1 0) / (1
    - mu ^ 2) + (1 / 12) * E * t ^ 3 * (f0 0) / (1 - mu ^ 2)) + (f1 7) * ((1 / 12) * E * mu * t ^ 3 * (f0 0) / (1 - mu ^ 2) + (1 /
    12) * E * t ^ 3 * (f1 0) / (1 - mu ^ 2))) * dp

/-- `out[8]`, metaDKQ/wrapped_code_0.c 21 -/
noncomputable def o0_8 (E mu t dp : ℝ) (f0 f1 f2 : Fin 12 → ℝ) : ℝ :=
  ((1 / 12) * E * t ^ 3 * (1 / 2 - 1 / 2 * mu) * (f2 0) * (f2 8) / (1 - mu ^ 2) + (f1 8) * ((1 / 12) * E * mu * t ^ 3 * (f0 0) / (1
    - mu ^ 2) + (1 / 12) * E * t ^ 3 * (f1 0) / (1 - mu ^ 2)) + (f0 8) * ((1 / 12) * E * mu * t ^ 3 * (f1 0) / (1 - mu ^ 2) + (1 /
    12) * E * t ^ 3 * (f0 0) / (1 - mu ^ 2))) * dp

/-- `out[9]`, metaDKQ/wrapped_code_0.c 22 -/
noncomputable def o0_9 (E mu t dp : ℝ) (f0 f1 f2 : Fin 12 → ℝ) : ℝ :=
  ((1 / 12) * E * t ^ 3 * (1 / 2 - 1 / 2 * mu) * (f2 9) * (f2 0) / (1 - mu ^ 2) + (f0 9) * ((1 / 12) * E * mu * t ^ 3 * (f1 0) / (1
    - mu ^ 2) + (1 / 12) * E * t ^ 3 * (f0 0) / (1 - mu ^ 2)) + (f1 9) * ((1 / 12) * E * mu * t ^ 3 * (f0 0) / (1 - mu ^ 2) + (1 /
    12) * E * t ^ 3 * (f1 0) / (1 - mu ^ 2))) * dp

/-- `out[10]`, metaDKQ/wrapped_code_0.c 23 -/
noncomputable def o0_10 (E mu t dp : ℝ) (f0 f1 f2 : Fin 12 → ℝ) : ℝ :=
  ((1 / 12) * E * t ^ 3 * (1 / 2 - 1 / 2 * mu) * (f2 0) * (f2 10) / (1 - mu ^ 2) + (f0 10) * ((1 / 12) * E * mu * t ^ 3 * (f1 0) /
    (1 - mu ^ 2) + (1 / 12) * E * t ^ 3 * (f0 0) / (1 - mu ^ 2)) + (f1 10) * ((1 / 12) * E * mu * t ^ 3 * (f0 0) / (1 - mu ^ 2) +
    (1 / 12) * E * t ^ 3 * (f1 0) / (1 - mu ^ 2))) * dp

/-- `out[11]`, metaDKQ/wrapped_code_0.c 24 -/
noncomputable def o0_11 (E mu t dp : ℝ) (f0 f1 f2 : Fin 12 → ℝ) : ℝ :=
  ((1 / 12) * E * t ^ 3 * (1 / 2 - 1 / 2 * mu) * (f2 0) * (f2 11) / (1 - mu ^ 2) + (f1 11) * ((1 / 12) * E * mu * t ^ 3 * (f0 0) /
    (1 - mu ^ 2) + (1 / 12) * E * t ^ 3 * (f1 0) / (1 - mu ^ 2)) + (f0 11) * ((1 / 12) * E * mu * t ^ 3 * (f1 0) / (1 - mu ^ 2) +
    (1 / 12) * E * t ^ 3 * (f0 0) / (1 - mu ^ 2))) * dp

/-- `out[0]` to `out[11]`, metaDKQ/wrapped_code_0.c 13-24 -/
noncomputable def out0 (E mu t dp : ℝ) (f0 f1 f2 : Fin 12 → ℝ) : Fin 12 → ℝ := ![
  o0_0 E mu t dp f0 f1 f2,
  o0_1 E mu t dp f0 f1 f2,
  o0_2 E mu t dp f0 f1 f2,
  o0_3 E mu t dp f0 f1 f2,
  o0_4 E mu t dp f0 f1 f2,
  o0_5 E mu t dp f0 f1 f2,
  o0_6 E mu t dp f0 f1 f2,
  o0_7 E mu t dp f0 f1 f2,
  o0_8 E mu t dp f0 f1 f2,
  o0_9 E mu t dp f0 f1 f2,
  o0_10 E mu t dp f0 f1 f2,
  o0_11 E mu t dp f0 f1 f2]

/-- `out[12]`, metaDKQ/wrapped_code_0.c 25 -/
noncomputable def o1_0 (E mu t dp : ℝ) (f0 f1 f2 : Fin 12 → ℝ) : ℝ :=
  ((1 / 12) * E * t ^ 3 * (1 / 2 - 1 / 2 * mu) * (f2 0) * (f2 1) / (1 - mu ^ 2) + (f0 0) * ((1 / 12) * E * mu * t ^ 3 * (f1 1) / (1
    - mu ^ 2) + (1 / 12) * E * t ^ 3 * (f0 1) / (1 - mu ^ 2)) + (f1 0) * ((1 / 12) * E * mu * t ^ 3 * (f0 1) / (1 - mu ^ 2) + (1 /
    12) * E * t ^ 3 * (f1 1) / (1 - mu ^ 2))) * dp

/-- `out[13]`, metaDKQ/wrapped_code_0.c 26 -/
noncomputable def o1_1 (E mu t dp : ℝ) (f0 f1 f2 : Fin 12 → ℝ) : ℝ :=
  ((1 / 12) * E * t ^ 3 * (1 / 2 - 1 / 2 * mu) * (f2 1) ^ 2 / (1 - mu ^ 2) + (f0 1) * ((1 / 12) * E * mu * t ^ 3 * (f1 1) / (1 - mu
    ^ 2) + (1 / 12) * E * t ^ 3 * (f0 1) / (1 - mu ^ 2)) + (f1 1) * ((1 / 12) * E * mu * t ^ 3 * (f0 1) / (1 - mu ^ 2) + (1 / 12)
    * E * t ^ 3 * (f1 1) / (1 - mu ^ 2))) * dp

/-- `out[14]`, metaDKQ/wrapped_code_0.c 27 -/
noncomputable def o1_2 (E mu t dp : ℝ) (f0 f1 f2 : Fin 12 → ℝ) : ℝ :=
  ((1 / 12) * E * t ^ 3 * (1 / 2 - 1 / 2 * mu) * (f2 1) * (f2 2) / (1 - mu ^ 2) + (f1 2) * ((1 / 12) * E * mu * t ^ 3 * (f0 1) / (1
    - mu ^ 2) + (1 / 12) * E * t ^ 3 * (f1 1) / (1 - mu ^ 2)) + (f0 2) * ((1 / 12) * E * mu * t ^ 3 * (f1 1) / (1 - mu ^ 2) + (1 /
    12) * E * t ^ 3 * (f0 1) / (1 - mu ^ 2))) * dp

/-- `out[15]`, metaDKQ/wrapped_code_0.c 28 -/
noncomputable def o1_3 (E mu t dp : ℝ) (f0 f1 f2 : Fin 12 → ℝ) : ℝ :=
  ((1 / 12) * E * t ^ 3 * (1 / 2 - 1 / 2 * mu) * (f2 3) * (f2 1) / (1 - mu ^ 2) + (f0 3) * ((1 / 12) * E * mu * t ^ 3 * (f1 1) / (1
    - mu ^ 2) + (1 / 12) * E * t ^ 3 * (f0 1) / (1 - mu ^ 2)) + (f1 3) * ((1 / 12) * E * mu * t ^ 3 * (f0 1) / (1 - mu ^ 2) + (1 /
    12) * E * t ^ 3 * (f1 1) / (1 - mu ^ 2))) * dp

/-- `out[16]`, metaDKQ/wrapped_code_0.c 29 -/
noncomputable def o1_4 (E mu t dp : ℝ) (f0 f1 f2 : Fin 12 → ℝ) : ℝ :=
  ((1 / 12) * E * t ^ 3 * (1 / 2 - 1 / 2 * mu) * (f2 1) * (f2 4) / (1 - mu ^ 2) + (f0 4) * ((1 / 12) * E * mu * t ^ 3 * (f1 1) / (1
    - mu ^ 2) + (1 / 12) * E * t ^ 3 * (f0 1) / (1 - mu ^ 2)) + (f1 4) * ((1 / 12) * E * mu * t ^ 3 * (f0 1) / (1 - mu ^ 2) + (1 /
    12) * E * t ^ 3 * (f1 1) / (1 - mu ^ 2))) * dp

/-- `out[17]`, metaDKQ/wrapped_code_0.c 30 -/
noncomputable def o1_5 (E mu t dp : ℝ) (f0 f1 f2 : Fin 12 → ℝ) : ℝ :=
  ((1 / 12) * E * t ^ 3 * (1 / 2 - 1 / 2 * mu) * (f2 1) * (f2 5) / (1 - mu ^ 2) + (f1 5) * ((1 / 12) * E * mu * t ^ 3 * (f0 1) / (1
    - mu ^ 2) + (1 / 12) * E * t ^ 3 * (f1 1) / (1 - mu ^ 2)) + (f0 5) * ((1 / 12) * E * mu * t ^ 3 * (f1 1) / (1 - mu ^ 2) + (1 /
    12) * E * t ^ 3 * (f0 1) / (1 - mu ^ 2))) * dp

/-- `out[18]`, metaDKQ/wrapped_code_0.c 31 -/
noncomputable def o1_6 (E mu t dp : ℝ) (f0 f1 f2 : Fin 12 → ℝ) : ℝ :=
  ((1 / 12) * E * t ^ 3 * (1 / 2 - 1 / 2 * mu) * (f2 6) * (f2 1) / (1 - mu ^ 2) + (f0 6) * ((1 / 12) * E * mu * t ^ 3 * (f1 1) / (1
    - mu ^ 2) + (1 / 12) * E * t ^ 3 * (f0 1) / (1 - mu ^ 2)) + (f1 6) * ((1 / 12) * E * mu * t ^ 3 * (f0 1) / (1 - mu ^ 2) + (1 /
    12) * E * t ^ 3 * (f1 1) / (1 - mu ^ 2))) * dp

/-- `out[19]`, metaDKQ/wrapped_code_0.c 32 -/
noncomputable def o1_7 (E mu t dp : ℝ) (f0 f1 f2 : Fin 12 → ℝ) : ℝ :=
  ((1 / 12) * E * t ^ 3 * (1 / 2 - 1 / 2 * mu) * (f2 1) * (f2 7) / (1 - mu ^ 2) + (f0 7) * ((1 / 12) * E * mu * t ^ 3 * (f1 1) / (1
    - mu ^ 2) + (1 / 12) * E * t ^ 3 * (f0 1) / (1 - mu ^ 2)) + (f1 7) * ((1 / 12) * E * mu * t ^ 3 * (f0 1) / (1 - mu ^ 2) + (1 /
    12) * E * t ^ 3 * (f1 1) / (1 - mu ^ 2))) * dp

/-- `out[20]`, metaDKQ/wrapped_code_0.c 33 -/
noncomputable def o1_8 (E mu t dp : ℝ) (f0 f1 f2 : Fin 12 → ℝ) : ℝ :=
  ((1 / 12) * E * t ^ 3 * (1 / 2 - 1 / 2 * mu) * (f2 1) * (f2 8) / (1 - mu ^ 2) + (f1 8) * ((1 / 12) * E * mu * t ^ 3 * (f0 1) / (1
    - mu ^ 2) + (1 / 12) * E * t ^ 3 * (f1 1) / (1 - mu ^ 2)) + (f0 8) * ((1 / 12) * E * mu * t ^ 3 * (f1 1) / (1 - mu ^ 2) + (1 /
    12) * E * t ^ 3 * (f0 1) / (1 - mu ^ 2))) * dp

/-- `out[21]`, metaDKQ/wrapped_code_0.c 34 -/
noncomputable def o1_9 (E mu t dp : ℝ) (f0 f1 f2 : Fin 12 → ℝ) : ℝ :=
  ((1 / 12) * E * t ^ 3 * (1 / 2 - 1 / 2 * mu) * (f2 9) * (f2 1) / (1 - mu ^ 2) + (f0 9) * ((1 / 12) * E * mu * t ^ 3 * (f1 1) / (1
    - mu ^ 2) + (1 / 12) * E * t ^ 3 * (f0 1) / (1 - mu ^ 2)) + (f1 9) * ((1 / 12) * E * mu * t ^ 3 * (f0 1) / (1 - mu ^ 2) + (1 /
    12) * E * t ^ 3 * (f1 1) / (1 - mu ^ 2))) * dp

/-- `out[22]`, metaDKQ/wrapped_code_0.c 35 -/
noncomputable def o1_10 (E mu t dp : ℝ) (f0 f1 f2 : Fin 12 → ℝ) : ℝ :=
  ((1 / 12) * E * t ^ 3 * (1 / 2 - 1 / 2 * mu) * (f2 1) * (f2 10) / (1 - mu ^ 2) + (f0 10) * ((1 / 12) * E * mu * t ^ 3 * (f1 1) /
    (1 - mu ^ 2) + (1 / 12) * E * t ^ 3 * (f0 1) / (1 - mu ^ 2)) + (f1 10) * ((1 / 12) * E * mu * t ^ 3 * (f0 1) / (1 - mu ^ 2) +
    (1 / 12) * E * t ^ 3 * (f1 1) / (1 - mu ^ 2))) * dp

/-- `out[23]`, metaDKQ/wrapped_code_0.c 36 -/
noncomputable def o1_11 (E mu t dp : ℝ) (f0 f1 f2 : Fin 12 → ℝ) : ℝ :=
  ((1 / 12) * E * t ^ 3 * (1 / 2 - 1 / 2 * mu) * (f2 1) * (f2 11) / (1 - mu ^ 2) + (f1 11) * ((1 / 12) * E * mu * t ^ 3 * (f0 1) /
    (1 - mu ^ 2) + (1 / 12) * E * t ^ 3 * (f1 1) / (1 - mu ^ 2)) + (f0 11) * ((1 / 12) * E * mu * t ^ 3 * (f1 1) / (1 - mu ^ 2) +
    (1 / 12) * E * t ^ 3 * (f0 1) / (1 - mu ^ 2))) * dp

/-- `out[12]` to `out[23]`, metaDKQ/wrapped_code_0.c 25-36 -/
noncomputable def out1 (E mu t dp : ℝ) (f0 f1 f2 : Fin 12 → ℝ) : Fin 12 → ℝ := ![
  o1_0 E mu t dp f0 f1 f2,
  o1_1 E mu t dp f0 f1 f2,
  o1_2 E mu t dp f0 f1 f2,
  o1_3 E mu t dp f0 f1 f2,
  o1_4 E mu t dp f0 f1 f2,
  o1_5 E mu t dp f0 f1 f2,
  o1_6 E mu t dp f0 f1 f2,
  o1_7 E mu t dp f0 f1 f2,
  o1_8 E mu t dp f0 f1 f2,
  o1_9 E mu t dp f0 f1 f2,
  o1_10 E mu t dp f0 f1 f2,
  o1_11 E mu t dp f0 f1 f2]

/-- `out[24]`, metaDKQ/wrapped_code_0.c 37 -/
noncomputable def o2_0 (E mu t dp : ℝ) (f0 f1 f2 : Fin 12 → ℝ) : ℝ :=
  ((1 / 12) * E * t ^ 3 * (1 / 2 - 1 / 2 * mu) * (f2 0) * (f2 2) / (1 - mu ^ 2) + (f0 0) * ((1 / 12) * E * mu * t ^ 3 * (f1 2) / (1
    - mu ^ 2) + (1 / 12) * E * t ^ 3 * (f0 2) / (1 - mu ^ 2)) + (f1 0) * ((1 / 12) * E * mu * t ^ 3 * (f0 2) / (1 - mu ^ 2) + (1 /
    12) * E * t ^ 3 * (f1 2) / (1 - mu ^ 2))) * dp

/-- `out[25]`, metaDKQ/wrapped_code_0.c 38 -/
noncomputable def o2_1 (E mu t dp : ℝ) (f0 f1 f2 : Fin 12 → ℝ) : ℝ :=
  ((1 / 12) * E * t ^ 3 * (1 / 2 - 1 / 2 * mu) * (f2 1) * (f2 2) / (1 - mu ^ 2) + (f0 1) * ((1 / 12) * E * mu * t ^ 3 * (f1 2) / (1
    - mu ^ 2) + (1 / 12) * E * t ^ 3 * (f0 2) / (1 - mu ^ 2)) + (f1 1) * ((1 / 12) * E * mu * t ^ 3 * (f0 2) / (1 - mu ^ 2) + (1 /
    12) * E * t ^ 3 * (f1 2) / (1 - mu ^ 2))) * dp

/-- `out[26]`, metaDKQ/wrapped_code_0.c 39 -/
noncomputable def o2_2 (E mu t dp : ℝ) (f0 f1 f2 : Fin 12 → ℝ) : ℝ :=
  ((1 / 12) * E * t ^ 3 * (1 / 2 - 1 / 2 * mu) * (f2 2) ^ 2 / (1 - mu ^ 2) + (f1 2) * ((1 / 12) * E * mu * t ^ 3 * (f0 2) / (1 - mu
    ^ 2) + (1 / 12) * E * t ^ 3 * (f1 2) / (1 - mu ^ 2)) + (f0 2) * ((1 / 12) * E * mu * t ^ 3 * (f1 2) / (1 - mu ^ 2) + (1 / 12)
    * E * t ^ 3 * (f0 2) / (1 - mu ^ 2))) * dp

/-- `out[27]`, metaDKQ/wrapped_code_0.c 40 -/
noncomputable def o2_3 (E mu t dp : ℝ) (f0 f1 f2 : Fin 12 → ℝ) : ℝ :=
  ((1 / 12) * E * t ^ 3 * (1 / 2 - 1 / 2 * mu) * (f2 3) * (f2 2) / (1 - mu ^ 2) + (f0 3) * ((1 / 12) * E * mu * t ^ 3 * (f1 2) / (1
    - mu ^ 2) + (1 / 12) * E * t ^ 3 * (f0 2) / (1 - mu ^ 2)) + (f1 3) * ((1 / 12) * E * mu * t ^ 3 * (f0 2) / (1 - mu ^ 2) + (1 /
    12) * E * t ^ 3 * (f1 2) / (1 - mu ^ 2))) * dp

/-- `out[28]`, metaDKQ/wrapped_code_0.c 41 -/
noncomputable def o2_4 (E mu t dp : ℝ) (f0 f1 f2 : Fin 12 → ℝ) : ℝ :=
  ((1 / 12) * E * t ^ 3 * (1 / 2 - 1 / 2 * mu) * (f2 2) * (f2 4) / (1 - mu ^ 2) + (f0 4) * ((1 / 12) * E * mu * t ^ 3 * (f1 2) / (1
    - mu ^ 2) + (1 / 12) * E * t ^ 3 * (f0 2) / (1 - mu ^ 2)) + (f1 4) * ((1 / 12) * E * mu * t ^ 3 * (f0 2) / (1 - mu ^ 2) + (1 /
    12) * E * t ^ 3 * (f1 2) / (1 - mu ^ 2))) * dp

/-- `out[29]`, metaDKQ/wrapped_code_0.c 42 -/
noncomputable def o2_5 (E mu t dp : ℝ) (f0 f1 f2 : Fin 12 → ℝ) : ℝ :=
  ((1 / 12) * E * t ^ 3 * (1 / 2 - 1 / 2 * mu) * (f2 2) * (f2 5) / (1 - mu ^ 2) + (f1 5) * ((1 / 12) * E * mu * t ^ 3 * (f0 2) / (1
    - mu ^ 2) + (1 / 12) * E * t ^ 3 * (f1 2) / (1 - mu ^ 2)) + (f0 5) * ((1 / 12) * E * mu * t ^ 3 * (f1 2) / (1 - mu ^ 2) + (1 /
    12) * E * t ^ 3 * (f0 2) / (1 - mu ^ 2))) * dp

/-- `out[30]`, metaDKQ/wrapped_code_0.c 43 -/
noncomputable def o2_6 (E mu t dp : ℝ) (f0 f1 f2 : Fin 12 → ℝ) : ℝ :=
  ((1 / 12) * E * t ^ 3 * (1 / 2 - 1 / 2 * mu) * (f2 6) * (f2 2) / (1 - mu ^ 2) + (f0 6) * ((1 / 12) * E * mu * t ^ 3 * (f1 2) / (1
    - mu ^ 2) + (1 / 12) * E * t ^ 3 * (f0 2) / (1 - mu ^ 2)) + (f1 6) * ((1 / 12) * E * mu * t ^ 3 * (f0 2) / (1 - mu ^ 2) + (1 /
    12) * E * t ^ 3 * (f1 2) / (1 - mu ^ 2))) * dp

/-- `out[31]`, metaDKQ/wrapped_code_0.c 44 -/
noncomputable def o2_7 (E mu t dp : ℝ) (f0 f1 f2 : Fin 12 → ℝ) : ℝ :=
  ((1 / 12) * E * t ^ 3 * (1 / 2 - 1 / 2 * mu) * (f2 2) * (f2 7) / (1 - mu ^ 2) + (f0 7) * ((1 / 12) * E * mu * t ^ 3 * (f1 2) / (1
    - mu ^ 2) + (1 / 12) * E * t ^ 3 * (f0 2) / (1 - mu ^ 2)) + (f1 7) * ((1 / 12) * E * mu * t ^ 3 * (f0 2) / (1 - mu ^ 2) + (1 /
    12) * E * t ^ 3 * (f1 2) / (1 - mu ^ 2))) * dp

/-- `out[32]`, metaDKQ/wrapped_code_0.c 45 -/
noncomputable def o2_8 (E mu t dp : ℝ) (f0 f1 f2 : Fin 12 → ℝ) : ℝ :=
  ((1 / 12) * E * t ^ 3 * (1 / 2 - 1 / 2 * mu) * (f2 2) * (f2 8) / (1 - mu ^ 2) + (f1 8) * ((1 / 12) * E * mu * t ^ 3 * (f0 2) / (1
    - mu ^ 2) + (1 / 12) * E * t ^ 3 * (f1 2) / (1 - mu ^ 2)) + (f0 8) * ((1 / 12) * E * mu * t ^ 3 * (f1 2) / (1 - mu ^ 2) + (1 /
    12) * E * t ^ 3 * (f0 2) / (1 - mu ^ 2))) * dp

/-- `out[33]`, metaDKQ/wrapped_code_0.c 46 -/
noncomputable def o2_9 (E mu t dp : ℝ) (f0 f1 f2 : Fin 12 → ℝ) : ℝ :=
  ((1 / 12) * E * t ^ 3 * (1 / 2 - 1 / 2 * mu) * (f2 9) * (f2 2) / (1 - mu ^ 2) + (f0 9) * ((1 / 12) * E * mu * t ^ 3 * (f1 2) / (1
    - mu ^ 2) + (1 / 12) * E * t ^ 3 * (f0 2) / (1 - mu ^ 2)) + (f1 9) * ((1 / 12) * E * mu * t ^ 3 * (f0 2) / (1 - mu ^ 2) + (1 /
    12) * E * t ^ 3 * (f1 2) / (1 - mu ^ 2))) * dp

/-- `out[34]`, metaDKQ/wrapped_code_0.c 47 -/
noncomputable def o2_10 (E mu t dp : ℝ) (f0 f1 f2 : Fin 12 → ℝ) : ℝ :=
  ((1 / 12) * E * t ^ 3 * (1 / 2 - 1 / 2 * mu) * (f2 10) * (f2 2) / (1 - mu ^ 2) + (f0 10) * ((1 / 12) * E * mu * t ^ 3 * (f1 2) /
    (1 - mu ^ 2) + (1 / 12) * E * t ^ 3 * (f0 2) / (1 - mu ^ 2)) + (f1 10) * ((1 / 12) * E * mu * t ^ 3 * (f0 2) / (1 - mu ^ 2) +
    (1 / 12) * E * t ^ 3 * (f1 2) / (1 - mu ^ 2))) * dp

/-- `out[35]`, metaDKQ/wrapped_code_0.c 48 -/
noncomputable def o2_11 (E mu t dp : ℝ) (f0 f1 f2 : Fin 12 → ℝ) : ℝ :=
  ((1 / 12) * E * t ^ 3 * (1 / 2 - 1 / 2 * mu) * (f2 2) * (f2 11) / (1 - mu ^ 2) + (f1 11) * ((1 / 12) * E * mu * t ^ 3 * (f0 2) /
    (1 - mu ^ 2) + (1 / 12) * E * t ^ 3 * (f1 2) / (1 - mu ^ 2)) + (f0 11) * ((1 / 12) * E * mu * t ^ 3 * (f1 2) / (1 - mu ^ 2) +
    (1 / 12) * E * t ^ 3 * (f0 2) / (1 - mu ^ 2))) * dp

/-- `out[24]` to `out[35]`, metaDKQ/wrapped_code_0.c 37-48 -/
noncomputable def out2 (E mu t dp : ℝ) (f0 f1 f2 : Fin 12 → ℝ) : Fin 12 → ℝ := ![
  o2_0 E mu t dp f0 f1 f2,
  o2_1 E mu t dp f0 f1 f2,
  o2_2 E mu t dp f0 f1 f2,
  o2_3 E mu t dp f0 f1 f2,
  o2_4 E mu t dp f0 f1 f2,
  o2_5 E mu t dp f0 f1 f2,
  o2_6 E mu t dp f0 f1 f2,
  o2_7 E mu t dp f0 f1 f2,
  o2_8 E mu t dp f0 f1 f2,
  o2_9 E mu t dp f0 f1 f2,
  o2_10 E mu t dp f0 f1 f2,
  o2_11 E mu t dp f0 f1 f2]

/-- `out[36]`, metaDKQ/wrapped_code_0.c 49 -/
noncomputable def o3_0 (E mu t dp : ℝ) (f0 f1 f2 : Fin 12 → ℝ) : ℝ :=
  ((1 / 12) * E * t ^ 3 * (1 / 2 - 1 / 2 * mu) * (f2 0) * (f2 3) / (1 - mu ^ 2) + (f0 0) * ((1 / 12) * E * mu * t ^ 3 * (f1 3) / (1
    - mu ^ 2) + (1 / 12) * E * t ^ 3 * (f0 3) / (1 - mu ^ 2)) + (f1 0) * ((1 / 12) * E * mu * t ^ 3 * (f0 3) / (1 - mu ^ 2) + (1 /
    12) * E * t ^ 3 * (f1 3) / (1 - mu ^ 2))) * dp

/-- `out[37]`, metaDKQ/wrapped_code_0.c 50 -/
noncomputable def o3_1 (E mu t dp : ℝ) (f0 f1 f2 : Fin 12 → ℝ) : ℝ :=
  ((1 / 12) * E * t ^ 3 * (1 / 2 - 1 / 2 * mu) * (f2 3) * (f2 1) / (1 - mu ^ 2) + (f0 1) * ((1 / 12) * E * mu * t ^ 3 * (f1 3) / (1
    - mu ^ 2) + (1 / 12) * E * t ^ 3 * (f0 3) / (1 - mu ^ 2)) + (f1 1) * ((1 / 12) * E * mu * t ^ 3 * (f0 3) / (1 - mu ^ 2) + (1 /
    12) * E * t ^ 3 * (f1 3) / (1 - mu ^ 2))) * dp

/-- `out[38]`, metaDKQ/wrapped_code_0.c 51 -/
noncomputable def o3_2 (E mu t dp : ℝ) (f0 f1 f2 : Fin 12 → ℝ) : ℝ :=
  ((1 / 12) * E * t ^ 3 * (1 / 2 - 1 / 2 * mu) * (f2 3) * (f2 2) / (1 - mu ^ 2) + (f1 2) * ((1 / 12) * E * mu * t ^ 3 * (f0 3) / (1
    - mu ^ 2) + (1 / 12) * E * t ^ 3 * (f1 3) / (1 - mu ^ 2)) + (f0 2) * ((1 / 12) * E * mu * t ^ 3 * (f1 3) / (1 - mu ^ 2) + (1 /
    12) * E * t ^ 3 * (f0 3) / (1 - mu ^ 2))) * dp

/-- `out[39]`, metaDKQ/wrapped_code_0.c 52 -/
noncomputable def o3_3 (E mu t dp : ℝ) (f0 f1 f2 : Fin 12 → ℝ) : ℝ :=
  ((1 / 12) * E * t ^ 3 * (1 / 2 - 1 / 2 * mu) * (f2 3) ^ 2 / (1 - mu ^ 2) + (f0 3) * ((1 / 12) * E * mu * t ^ 3 * (f1 3) / (1 - mu
    ^ 2) + (1 / 12) * E * t ^ 3 * (f0 3) / (1 - mu ^ 2)) + (f1 3) * ((1 / 12) * E * mu * t ^ 3 * (f0 3) / (1 - mu ^ 2) + (1 / 12)
    * E * t ^ 3 * (f1 3) / (1 - mu ^ 2))) * dp

/-- `out[40]`, metaDKQ/wrapped_code_0.c 53 -/
noncomputable def o3_4 (E mu t dp : ℝ) (f0 f1 f2 : Fin 12 → ℝ) : ℝ :=
  ((1 / 12) * E * t ^ 3 * (1 / 2 - 1 / 2 * mu) * (f2 3) * (f2 4) / (1 - mu ^ 2) + (f0 4) * ((1 / 12) * E * mu * t ^ 3 * (f1 3) / (1
    - mu ^ 2) + (1 / 12) * E * t ^ 3 * (f0 3) / (1 - mu ^ 2)) + (f1 4) * ((1 / 12) * E * mu * t ^ 3 * (f0 3) / (1 - mu ^ 2) + (1 /
    12) * E * t ^ 3 * (f1 3) / (1 - mu ^ 2))) * dp

/-- `out[41]`, metaDKQ/wrapped_code_0.c 54 -/
noncomputable def o3_5 (E mu t dp : ℝ) (f0 f1 f2 : Fin 12 → ℝ) : ℝ :=
  ((1 / 12) * E * t ^ 3 * (1 / 2 - 1 / 2 * mu) * (f2 3) * (f2 5) / (1 - mu ^ 2) + (f1 5) * ((1 / 12) * E * mu * t ^ 3 * (f0 3) / (1
    - mu ^ 2) + (1 / 12) * E * t ^ 3 * (f1 3) / (1 - mu ^ 2)) + (f0 5) * ((1 / 12) * E * mu * t ^ 3 * (f1 3) / (1 - mu ^ 2) + (1 /
    12) * E * t ^ 3 * (f0 3) / (1 - mu ^ 2))) * dp

/-- `out[42]`, metaDKQ/wrapped_code_0.c 55 -/
noncomputable def o3_6 (E mu t dp : ℝ) (f0 f1 f2 : Fin 12 → ℝ) : ℝ :=
  ((1 / 12) * E * t ^ 3 * (1 / 2 - 1 / 2 * mu) * (f2 3) * (f2 6) / (1 - mu ^ 2) + (f0 6) * ((1 / 12) * E * mu * t ^ 3 * (f1 3) / (1
    - mu ^ 2) + (1 / 12) * E * t ^ 3 * (f0 3) / (1 - mu ^ 2)) + (f1 6) * ((1 / 12) * E * mu * t ^ 3 * (f0 3) / (1 - mu ^ 2) + (1 /
    12) * E * t ^ 3 * (f1 3) / (1 - mu ^ 2))) * dp

/-- `out[43]`, metaDKQ/wrapped_code_0.c 56 -/
noncomputable def o3_7 (E mu t dp : ℝ) (f0 f1 f2 : Fin 12 → ℝ) : ℝ :=
  ((1 / 12) * E * t ^ 3 * (1 / 2 - 1 / 2 * mu) * (f2 3) * (f2 7) / (1 - mu ^ 2) + (f0 7) * ((1 / 12) * E * mu * t ^ 3 * (f1 3) / (1
    - mu ^ 2) + (1 / 12) * E * t ^ 3 * (f0 3) / (1 - mu ^ 2)) + (f1 7) * ((1 / 12) * E * mu * t ^ 3 * (f0 3) / (1 - mu ^ 2) + (1 /
    12) * E * t ^ 3 * (f1 3) / (1 - mu ^ 2))) * dp

/-- `out[44]`, metaDKQ/wrapped_code_0.c 57 -/
noncomputable def o3_8 (E mu t dp : ℝ) (f0 f1 f2 : Fin 12 → ℝ) : ℝ :=
  ((1 / 12) * E * t ^ 3 * (1 / 2 - 1 / 2 * mu) * (f2 3) * (f2 8) / (1 - mu ^ 2) + (f1 8) * ((1 / 12) * E * mu * t ^ 3 * (f0 3) / (1
    - mu ^ 2) + (1 / 12) * E * t ^ 3 * (f1 3) / (1 - mu ^ 2)) + (f0 8) * ((1 / 12) * E * mu * t ^ 3 * (f1 3) / (1 - mu ^ 2) + (1 /
    12) * E * t ^ 3 * (f0 3) / (1 - mu ^ 2))) * dp

/-- `out[45]`, metaDKQ/wrapped_code_0.c 58 -/
noncomputable def o3_9 (E mu t dp : ℝ) (f0 f1 f2 : Fin 12 → ℝ) : ℝ :=
  ((1 / 12) * E * t ^ 3 * (1 / 2 - 1 / 2 * mu) * (f2 9) * (f2 3) / (1 - mu ^ 2) + (f0 9) * ((1 / 12) * E * mu * t ^ 3 * (f1 3) / (1
    - mu ^ 2) + (1 / 12) * E * t ^ 3 * (f0 3) / (1 - mu ^ 2)) + (f1 9) * ((1 / 12) * E * mu * t ^ 3 * (f0 3) / (1 - mu ^ 2) + (1 /
    12) * E * t ^ 3 * (f1 3) / (1 - mu ^ 2))) * dp

/-- `out[46]`, metaDKQ/wrapped_code_0.c 59 -/
noncomputable def o3_10 (E mu t dp : ℝ) (f0 f1 f2 : Fin 12 → ℝ) : ℝ :=
  ((1 / 12) * E * t ^ 3 * (1 / 2 - 1 / 2 * mu) * (f2 3) * (f2 10) / (1 - mu ^ 2) + (f0 10) * ((1 / 12) * E * mu * t ^ 3 * (f1 3) /
    (1 - mu ^ 2) + (1 / 12) * E * t ^ 3 * (f0 3) / (1 - mu ^ 2)) + (f1 10) * ((1 / 12) * E * mu * t ^ 3 * (f0 3) / (1 - mu ^ 2) +
    (1 / 12) * E * t ^ 3 * (f1 3) / (1 - mu ^ 2))) * dp

/-- `out[47]`, metaDKQ/wrapped_code_0.c 60 -/
noncomputable def o3_11 (E mu t dp : ℝ) (f0 f1 f2 : Fin 12 → ℝ) : ℝ :=
  ((1 / 12) * E * t ^ 3 * (1 / 2 - 1 / 2 * mu) * (f2 3) * (f2 11) / (1 - mu ^ 2) + (f1 11) * ((1 / 12) * E * mu * t ^ 3 * (f0 3) /
    (1 - mu ^ 2) + (1 / 12) * E * t ^ 3 * (f1 3) / (1 - mu ^ 2)) + (f0 11) * ((1 / 12) * E * mu * t ^ 3 * (f1 3) / (1 - mu ^ 2) +
    (1 / 12) * E * t ^ 3 * (f0 3) / (1 - mu ^ 2))) * dp

/-- `out[36]` to `out[47]`, metaDKQ/wrapped_code_0.c 49-60 -/
noncomputable def out3 (E mu t dp : ℝ) (f0 f1 f2 : Fin 12 → ℝ) : Fin 12 → ℝ := ![
  o3_0 E mu t dp f0 f1 f2,
  o3_1 E mu t dp f0 f1 f2,
  o3_2 E mu t dp f0 f1 f2,
  o3_3 E mu t dp f0 f1 f2,
  o3_4 E mu t dp f0 f1 f2,
  o3_5 E mu t dp f0 f1 f2,
  o3_6 E mu t dp f0 f1 f2,
  o3_7 E mu t dp f0 f1 f2,
  o3_8 E mu t dp f0 f1 f2,
  o3_9 E mu t dp f0 f1 f2,
  o3_10 E mu t dp f0 f1 f2,
  o3_11 E mu t dp f0 f1 f2]

/-- `out[48]`, metaDKQ/wrapped_code_0.c 61 -/
noncomputable def o4_0 (E mu t dp : ℝ) (f0 f1 f2 : Fin 12 → ℝ) : ℝ :=
  ((1 / 12) * E * t ^ 3 * (1 / 2 - 1 / 2 * mu) * (f2 0) * (f2 4) / (1 - mu ^ 2) + (f0 0) * ((1 / 12) * E * mu * t ^ 3 * (f1 4) / (1
    - mu ^ 2) + (1 / 12) * E * t ^ 3 * (f0 4) / (1 - mu ^ 2)) + (f1 0) * ((1 / 12) * E * mu * t ^ 3 * (f0 4) / (1 - mu ^ 2) + (1 /
    12) * E * t ^ 3 * (f1 4) / (1 - mu ^ 2))) * dp

/-- `out[49]`, metaDKQ/wrapped_code_0.c 62 -/
noncomputable def o4_1 (E mu t dp : ℝ) (f0 f1 f2 : Fin 12 → ℝ) : ℝ :=
  ((1 / 12) * E * t ^ 3 * (1 / 2 - 1 / 2 * mu) * (f2 1) * (f2 4) / (1 - mu ^ 2) + (f0 1) * ((1 / 12) * E * mu * t ^ 3 * (f1 4) / (1
    - mu ^ 2) + (1 / 12) * E * t ^ 3 * (f0 4) / (1 - mu ^ 2)) + (f1 1) * ((1 / 12) * E * mu * t ^ 3 * (f0 4) / (1 - mu ^ 2) + (1 /
    12) * E * t ^ 3 * (f1 4) / (1 - mu ^ 2))) * dp

/-- `out[50]`, metaDKQ/wrapped_code_0.c 63 -/
noncomputable def o4_2 (E mu t dp : ℝ) (f0 f1 f2 : Fin 12 → ℝ) : ℝ :=
  ((1 / 12) * E * t ^ 3 * (1 / 2 - 1 / 2 * mu) * (f2 2) * (f2 4) / (1 - mu ^ 2) + (f1 2) * ((1 / 12) * E * mu * t ^ 3 * (f0 4) / (1
    - mu ^ 2) + (1 / 12) * E * t ^ 3 * (f1 4) / (1 - mu ^ 2)) + (f0 2) * ((1 / 12) * E * mu * t ^ 3 * (f1 4) / (1 - mu ^ 2) + (1 /
    12) * E * t ^ 3 * (f0 4) / (1 - mu ^ 2))) * dp

/-- `out[51]`, metaDKQ/wrapped_code_0.c 64 -/
noncomputable def o4_3 (E mu t dp : ℝ) (f0 f1 f2 : Fin 12 → ℝ) : ℝ :=
  ((1 / 12) * E * t ^ 3 * (1 / 2 - 1 / 2 * mu) * (f2 3) * (f2 4) / (1 - mu ^ 2) + (f0 3) * ((1 / 12) * E * mu * t ^ 3 * (f1 4) / (1
    - mu ^ 2) + (1 / 12) * E * t ^ 3 * (f0 4) / (1 - mu ^ 2)) + (f1 3) * ((1 / 12) * E * mu * t ^ 3 * (f0 4) / (1 - mu ^ 2) + (1 /
    12) * E * t ^ 3 * (f1 4) / (1 - mu ^ 2))) * dp

/-- `out[52]`, metaDKQ/wrapped_code_0.c 65 -/
noncomputable def o4_4 (E mu t dp : ℝ) (f0 f1 f2 : Fin 12 → ℝ) : ℝ :=
  ((1 / 12) * E * t ^ 3 * (1 / 2 - 1 / 2 * mu) * (f2 4) ^ 2 / (1 - mu ^ 2) + (f0 4) * ((1 / 12) * E * mu * t ^ 3 * (f1 4) / (1 - mu
    ^ 2) + (1 / 12) * E * t ^ 3 * (f0 4) / (1 - mu ^ 2)) + (f1 4) * ((1 / 12) * E * mu * t ^ 3 * (f0 4) / (1 - mu ^ 2) + (1 / 12)
    * E * t ^ 3 * (f1 4) / (1 - mu ^ 2))) * dp

/-- `out[53]`, metaDKQ/wrapped_code_0.c 66 -/
noncomputable def o4_5 (E mu t dp : ℝ) (f0 f1 f2 : Fin 12 → ℝ) : ℝ :=
  ((1 / 12) * E * t ^ 3 * (1 / 2 - 1 / 2 * mu) * (f2 4) * (f2 5) / (1 - mu ^ 2) + (f1 5) * ((1 / 12) * E * mu * t ^ 3 * (f0 4) / (1
    - mu ^ 2) + (1 / 12) * E * t ^ 3 * (f1 4) / (1 - mu ^ 2)) + (f0 5) * ((1 / 12) * E * mu * t ^ 3 * (f1 4) / (1 - mu ^ 2) + (1 /
    12) * E * t ^ 3 * (f0 4) / (1 - mu ^ 2))) * dp

/-- `out[54]`, metaDKQ/wrapped_code_0.c 67 -/
noncomputable def o4_6 (E mu t dp : ℝ) (f0 f1 f2 : Fin 12 → ℝ) : ℝ :=
  ((1 / 12) * E * t ^ 3 * (1 / 2 - 1 / 2 * mu) * (f2 6) * (f2 4) / (1 - mu ^ 2) + (f0 6) * ((1 / 12) * E * mu * t ^ 3 * (f1 4) / (1
    - mu ^ 2) + (1 / 12) * E * t ^ 3 * (f0 4) / (1 - mu ^ 2)) + (f1 6) * ((1 / 12) * E * mu * t ^ 3 * (f0 4) / (1 - mu ^ 2) + (1 /
    12) * E * t ^ 3 * (f1 4) / (1 - mu ^ 2))) * dp

/-- `out[55]`, metaDKQ/wrapped_code_0.c 68 -/
noncomputable def o4_7 (E mu t dp : ℝ) (f0 f1 f2 : Fin 12 → ℝ) : ℝ :=
  ((1 / 12) * E * t ^ 3 * (1 / 2 - 1 / 2 * mu) * (f2 4) * (f2 7) / (1 - mu ^ 2) + (f0 7) * ((1 / 12) * E * mu * t ^ 3 * (f1 4) / (1
    - mu ^ 2) + (1 / 12) * E * t ^ 3 * (f0 4) / (1 - mu ^ 2)) + (f1 7) * ((1 / 12) * E * mu * t ^ 3 * (f0 4) / (1 - mu ^ 2) + (1 /
    12) * E * t ^ 3 * (f1 4) / (1 - mu ^ 2))) * dp

/-- `out[56]`, metaDKQ/wrapped_code_0.c 69 -/
noncomputable def o4_8 (E mu t dp : ℝ) (f0 f1 f2 : Fin 12 → ℝ) : ℝ :=
  ((1 / 12) * E * t ^ 3 * (1 / 2 - 1 / 2 * mu) * (f2 4) * (f2 8) / (1 - mu ^ 2) + (f1 8) * ((1 / 12) * E * mu * t ^ 3 * (f0 4) / (1
    - mu ^ 2) + (1 / 12) * E * t ^ 3 * (f1 4) / (1 - mu ^ 2)) + (f0 8) * ((1 / 12) * E * mu * t ^ 3 * (f1 4) / (1 - mu ^ 2) + (1 /
    12) * E * t ^ 3 * (f0 4) / (1 - mu ^ 2))) * dp

/-- `out[57]`, metaDKQ/wrapped_code_0.c 70 -/
noncomputable def o4_9 (E mu t dp : ℝ) (f0 f1 f2 : Fin 12 → ℝ) : ℝ :=
  ((1 / 12) * E * t ^ 3 * (1 / 2 - 1 / 2 * mu) * (f2 9) * (f2 4) / (1 - mu ^ 2) + (f0 9) * ((1 / 12) * E * mu * t ^ 3 * (f1 4) / (1
    - mu ^ 2) + (1 / 12) * E * t ^ 3 * (f0 4) / (1 - mu ^ 2)) + (f1 9) * ((1 / 12) * E * mu * t ^ 3 * (f0 4) / (1 - mu ^ 2) + (1 /
    12) * E * t ^ 3 * (f1 4) / (1 - mu ^ 2))) * dp

/-- `out[58]`, metaDKQ/wrapped_code_0.c 71 -/
noncomputable def o4_10 (E mu t dp : ℝ) (f0 f1 f2 : Fin 12 → ℝ) : ℝ :=
  ((1 / 12) * E * t ^ 3 * (1 / 2 - 1 / 2 * mu) * (f2 10) * (f2 4) / (1 - mu ^ 2) + (f0 10) * ((1 / 12) * E * mu * t ^ 3 * (f1 4) /
    (1 - mu ^ 2) + (1 / 12) * E * t ^ 3 * (f0 4) / (1 - mu ^ 2)) + (f1 10) * ((1 / 12) * E * mu * t ^ 3 * (f0 4) / (1 - mu ^ 2) +
    (1 / 12) * E * t ^ 3 * (f1 4) / (1 - mu ^ 2))) * dp

/-- `out[59]`, metaDKQ/wrapped_code_0.c 72 -/
noncomputable def o4_11 (E mu t dp : ℝ) (f0 f1 f2 : Fin 12 → ℝ) : ℝ :=
  ((1 / 12) * E * t ^ 3 * (1 / 2 - 1 / 2 * mu) * (f2 11) * (f2 4) / (1 - mu ^ 2) + (f1 11) * ((1 / 12) * E * mu * t ^ 3 * (f0 4) /
    (1 - mu ^ 2) + (1 / 12) * E * t ^ 3 * (f1 4) / (1 - mu ^ 2)) + (f0 11) * ((1 / 12) * E * mu * t ^ 3 * (f1 4) / (1 - mu ^ 2) +
    (1 / 12) * E * t ^ 3 * (f0 4) / (1 - mu ^ 2))) * dp

/-- `out[48]` to `out[59]`, metaDKQ/wrapped_code_0.c 61-72 -/
noncomputable def out4 (E mu t dp : ℝ) (f0 f1 f2 : Fin 12 → ℝ) : Fin 12 → ℝ := ![
  o4_0 E mu t dp f0 f1 f2,
  o4_1 E mu t dp f0 f1 f2,
  o4_2 E mu t dp f0 f1 f2,
  o4_3 E mu t dp f0 f1 f2,
  o4_4 E mu t dp f0 f1 f2,
  o4_5 E mu t dp f0 f1 f2,
  o4_6 E mu t dp f0 f1 f2,
  o4_7 E mu t dp f0 f1 f2,
  o4_8 E mu t dp f0 f1 f2,
  o4_9 E mu t dp f0 f1 f2,
  o4_10 E mu t dp f0 f1 f2,
  o4_11 E mu t dp f0 f1 f2]

/-- `out[60]`, metaDKQ/wrapped_code_0.c 73 -/
noncomputable def o5_0 (E mu t dp : ℝ) (f0 f1 f2 : Fin 12 → ℝ) : ℝ :=
  ((1 / 12) * E * t ^ 3 * (1 / 2 - 1 / 2 * mu) * (f2 0) * (f2 5) / (1 - mu ^ 2) + (f0 0) * ((1 / 12) * E * mu * t ^ 3 * (f1 5) / (1
    - mu ^ 2) + (1 / 12) * E * t ^ 3 * (f0 5) / (1 - mu ^ 2)) + (f1 0) * ((1 / 12) * E * mu * t ^ 3 * (f0 5) / (1 - mu ^ 2) + (1 /
    12) * E * t ^ 3 * (f1 5) / (1 - mu ^ 2))) * dp

/-- `out[61]`, metaDKQ/wrapped_code_0.c 74 -/
noncomputable def o5_1 (E mu t dp : ℝ) (f0 f1 f2 : Fin 12 → ℝ) : ℝ :=
  ((1 / 12) * E * t ^ 3 * (1 / 2 - 1 / 2 * mu) * (f2 1) * (f2 5) / (1 - mu ^ 2) + (f0 1) * ((1 / 12) * E * mu * t ^ 3 * (f1 5) / (1
    - mu ^ 2) + (1 / 12) * E * t ^ 3 * (f0 5) / (1 - mu ^ 2)) + (f1 1) * ((1 / 12) * E * mu * t ^ 3 * (f0 5) / (1 - mu ^ 2) + (1 /
    12) * E * t ^ 3 * (f1 5) / (1 - mu ^ 2))) * dp

/-- `out[62]`, metaDKQ/wrapped_code_0.c 75 -/
noncomputable def o5_2 (E mu t dp : ℝ) (f0 f1 f2 : Fin 12 → ℝ) : ℝ :=
  ((1 / 12) * E * t ^ 3 * (1 / 2 - 1 / 2 * mu) * (f2 2) * (f2 5) / (1 - mu ^ 2) + (f1 2) * ((1 / 12) * E * mu * t ^ 3 * (f0 5) / (1
    - mu ^ 2) + (1 / 12) * E * t ^ 3 * (f1 5) / (1 - mu ^ 2)) + (f0 2) * ((1 / 12) * E * mu * t ^ 3 * (f1 5) / (1 - mu ^ 2) + (1 /
    12) * E * t ^ 3 * (f0 5) / (1 - mu ^ 2))) * dp

/-- `out[63]`, metaDKQ/wrapped_code_0.c 76 -/
noncomputable def o5_3 (E mu t dp : ℝ) (f0 f1 f2 : Fin 12 → ℝ) : ℝ :=
  ((1 / 12) * E * t ^ 3 * (1 / 2 - 1 / 2 * mu) * (f2 3) * (f2 5) / (1 - mu ^ 2) + (f0 3) * ((1 / 12) * E * mu * t ^ 3 * (f1 5) / (1
    - mu ^ 2) + (1 / 12) * E * t ^ 3 * (f0 5) / (1 - mu ^ 2)) + (f1 3) * ((1 / 12) * E * mu * t ^ 3 * (f0 5) / (1 - mu ^ 2) + (1 /
    12) * E * t ^ 3 * (f1 5) / (1 - mu ^ 2))) * dp

/-- `out[64]`, metaDKQ/wrapped_code_0.c 77 -/
noncomputable def o5_4 (E mu t dp : ℝ) (f0 f1 f2 : Fin 12 → ℝ) : ℝ :=
  ((1 / 12) * E * t ^ 3 * (1 / 2 - 1 / 2 * mu) * (f2 4) * (f2 5) / (1 - mu ^ 2) + (f0 4) * ((1 / 12) * E * mu * t ^ 3 * (f1 5) / (1
    - mu ^ 2) + (1 / 12) * E * t ^ 3 * (f0 5) / (1 - mu ^ 2)) + (f1 4) * ((1 / 12) * E * mu * t ^ 3 * (f0 5) / (1 - mu ^ 2) + (1 /
    12) * E * t ^ 3 * (f1 5) / (1 - mu ^ 2))) * dp

/-- `out[65]`, metaDKQ/wrapped_code_0.c 78 -/
noncomputable def o5_5 (E mu t dp : ℝ) (f0 f1 f2 : Fin 12 → ℝ) : ℝ :=
  ((1 / 12) * E * t ^ 3 * (1 / 2 - 1 / 2 * mu) * (f2 5) ^ 2 / (1 - mu ^ 2) + (f1 5) * ((1 / 12) * E * mu * t ^ 3 * (f0 5) / (1 - mu
    ^ 2) + (1 / 12) * E * t ^ 3 * (f1 5) / (1 - mu ^ 2)) + (f0 5) * ((1 / 12) * E * mu * t ^ 3 * (f1 5) / (1 - mu ^ 2) + (1 / 12)
    * E * t ^ 3 * (f0 5) / (1 - mu ^ 2))) * dp

/-- `out[66]`, metaDKQ/wrapped_code_0.c 79 -/
noncomputable def o5_6 (E mu t dp : ℝ) (f0 f1 f2 : Fin 12 → ℝ) : ℝ :=
  ((1 / 12) * E * t ^ 3 * (1 / 2 - 1 / 2 * mu) * (f2 6) * (f2 5) / (1 - mu ^ 2) + (f0 6) * ((1 / 12) * E * mu * t ^ 3 * (f1 5) / (1
    - mu ^ 2) + (1 / 12) * E * t ^ 3 * (f0 5) / (1 - mu ^ 2)) + (f1 6) * ((1 / 12) * E * mu * t ^ 3 * (f0 5) / (1 - mu ^ 2) + (1 /
    12) * E * t ^ 3 * (f1 5) / (1 - mu ^ 2))) * dp

/-- `out[67]`, metaDKQ/wrapped_code_0.c 80 -/
noncomputable def o5_7 (E mu t dp : ℝ) (f0 f1 f2 : Fin 12 → ℝ) : ℝ :=
  ((1 / 12) * E * t ^ 3 * (1 / 2 - 1 / 2 * mu) * (f2 7) * (f2 5) / (1 - mu ^ 2) + (f0 7) * ((1 / 12) * E * mu * t ^ 3 * (f1 5) / (1
    - mu ^ 2) + (1 / 12) * E * t ^ 3 * (f0 5) / (1 - mu ^ 2)) + (f1 7) * ((1 / 12) * E * mu * t ^ 3 * (f0 5) / (1 - mu ^ 2) + (1 /
    12) * E * t ^ 3 * (f1 5) / (1 - mu ^ 2))) * dp

/-- `out[68]`, metaDKQ/wrapped_code_0.c 81 -/
noncomputable def o5_8 (E mu t dp : ℝ) (f0 f1 f2 : Fin 12 → ℝ) : ℝ :=
  ((1 / 12) * E * t ^ 3 * (1 / 2 - 1 / 2 * mu) * (f2 5) * (f2 8) / (1 - mu ^ 2) + (f1 8) * ((1 / 12) * E * mu * t ^ 3 * (f0 5) / (1
    - mu ^ 2) + (1 / 12) * E * t ^ 3 * (f1 5) / (1 - mu ^ 2)) + (f0 8) * ((1 / 12) * E * mu * t ^ 3 * (f1 5) / (1 - mu ^ 2) + (1 /
    12) * E * t ^ 3 * (f0 5) / (1 - mu ^ 2))) * dp

/-- `out[69]`, metaDKQ/wrapped_code_0.c 82 -/
noncomputable def o5_9 (E mu t dp : ℝ) (f0 f1 f2 : Fin 12 → ℝ) : ℝ :=
  ((1 / 12) * E * t ^ 3 * (1 / 2 - 1 / 2 * mu) * (f2 9) * (f2 5) / (1 - mu ^ 2) + (f0 9) * ((1 / 12) * E * mu * t ^ 3 * (f1 5) / (1
    - mu ^ 2) + (1 / 12) * E * t ^ 3 * (f0 5) / (1 - mu ^ 2)) + (f1 9) * ((1 / 12) * E * mu * t ^ 3 * (f0 5) / (1 - mu ^ 2) + (1 /
    12) * E * t ^ 3 * (f1 5) / (1 - mu ^ 2))) * dp

/-- `out[70]`, metaDKQ/wrapped_code_0.c 83 -/
noncomputable def o5_10 (E mu t dp : ℝ) (f0 f1 f2 : Fin 12 → ℝ) : ℝ :=
  ((1 / 12) * E * t ^ 3 * (1 / 2 - 1 / 2 * mu) * (f2 10) * (f2 5) / (1 - mu ^ 2) + (f0 10) * ((1 / 12) * E * mu * t ^ 3 * (f1 5) /
    (1 - mu ^ 2) + (1 / 12) * E * t ^ 3 * (f0 5) / (1 - mu ^ 2)) + (f1 10) * ((1 / 12) * E * mu * t ^ 3 * (f0 5) / (1 - mu ^ 2) +
    (1 / 12) * E * t ^ 3 * (f1 5) / (1 - mu ^ 2))) * dp

/-- `out[71]`, metaDKQ/wrapped_code_0.c 84 -/
noncomputable def o5_11 (E mu t dp : ℝ) (f0 f1 f2 : Fin 12 → ℝ) : ℝ :=
  ((1 / 12) * E * t ^ 3 * (1 / 2 - 1 / 2 * mu) * (f2 11) * (f2 5) / (1 - mu ^ 2) + (f1 11) * ((1 / 12) * E * mu * t ^ 3 * (f0 5) /
    (1 - mu ^ 2) + (1 / 12) * E * t ^ 3 * (f1 5) / (1 - mu ^ 2)) + (f0 11) * ((1 / 12) * E * mu * t ^ 3 * (f1 5) / (1 - mu ^ 2) +
    (1 / 12) * E * t ^ 3 * (f0 5) / (1 - mu ^ 2))) * dp

/-- `out[60]` to `out[71]`, metaDKQ/wrapped_code_0.c 73-84 -/
noncomputable def out5 (E mu t dp : ℝ) (f0 f1 f2 : Fin 12 → ℝ) : Fin 12 → ℝ := ![
  o5_0 E mu t dp f0 f1 f2,
  o5_1 E mu t dp f0 f1 f2,
  o5_2 E mu t dp f0 f1 f2,
  o5_3 E mu t dp f0 f1 f2,
  o5_4 E mu t dp f0 f1 f2,
  o5_5 E mu t dp f0 f1 f2,
  o5_6 E mu t dp f0 f1 f2,
  o5_7 E mu t dp f0 f1 f2,
  o5_8 E mu t dp f0 f1 f2,
  o5_9 E mu t dp f0 f1 f2,
  o5_10 E mu t dp f0 f1 f2,
  o5_11 E mu t dp f0 f1 f2]

/-- `out[72]`, metaDKQ/wrapped_code_0.c 85 -/
noncomputable def o6_0 (E mu t dp : ℝ) (f0 f1 f2 : Fin 12 → ℝ) : ℝ :=
  ((1 / 12) * E * t ^ 3 * (1 / 2 - 1 / 2 * mu) * (f2 0) * (f2 6) / (1 - mu ^ 2) + (f0 0) * ((1 / 12) * E * mu * t ^ 3 * (f1 6) / (1
    - mu ^ 2) + (1 / 12) * E * t ^ 3 * (f0 6) / (1 - mu ^ 2)) + (f1 0) * ((1 / 12) * E * mu * t ^ 3 * (f0 6) / (1 - mu ^ 2) + (1 /
    12) * E * t ^ 3 * (f1 6) / (1 - mu ^ 2))) * dp

/-- `out[73]`, metaDKQ/wrapped_code_0.c 86 -/
noncomputable def o6_1 (E mu t dp : ℝ) (f0 f1 f2 : Fin 12 → ℝ) : ℝ :=
  ((1 / 12) * E * t ^ 3 * (1 / 2 - 1 / 2 * mu) * (f2 6) * (f2 1) / (1 - mu ^ 2) + (f0 1) * ((1 / 12) * E * mu * t ^ 3 * (f1 6) / (1
    - mu ^ 2) + (1 / 12) * E * t ^ 3 * (f0 6) / (1 - mu ^ 2)) + (f1 1) * ((1 / 12) * E * mu * t ^ 3 * (f0 6) / (1 - mu ^ 2) + (1 /
    12) * E * t ^ 3 * (f1 6) / (1 - mu ^ 2))) * dp

/-- `out[74]`, metaDKQ/wrapped_code_0.c 87 -/
noncomputable def o6_2 (E mu t dp : ℝ) (f0 f1 f2 : Fin 12 → ℝ) : ℝ :=
  ((1 / 12) * E * t ^ 3 * (1 / 2 - 1 / 2 * mu) * (f2 6) * (f2 2) / (1 - mu ^ 2) + (f1 2) * ((1 / 12) * E * mu * t ^ 3 * (f0 6) / (1
    - mu ^ 2) + (1 / 12) * E * t ^ 3 * (f1 6) / (1 - mu ^ 2)) + (f0 2) * ((1 / 12) * E * mu * t ^ 3 * (f1 6) / (1 - mu ^ 2) + (1 /
    12) * E * t ^ 3 * (f0 6) / (1 - mu ^ 2))) * dp

/-- `out[75]`, metaDKQ/wrapped_code_0.c 88 -/
noncomputable def o6_3 (E mu t dp : ℝ) (f0 f1 f2 : Fin 12 → ℝ) : ℝ :=
  ((1 / 12) * E * t ^ 3 * (1 / 2 - 1 / 2 * mu) * (f2 3) * (f2 6) / (1 - mu ^ 2) + (f0 3) * ((1 / 12) * E * mu * t ^ 3 * (f1 6) / (1
    - mu ^ 2) + (1 / 12) * E * t ^ 3 * (f0 6) / (1 - mu ^ 2)) + (f1 3) * ((1 / 12) * E * mu * t ^ 3 * (f0 6) / (1 - mu ^ 2) + (1 /
    12) * E * t ^ 3 * (f1 6) / (1 - mu ^ 2))) * dp

/-- `out[76]`, metaDKQ/wrapped_code_0.c 89 -/
noncomputable def o6_4 (E mu t dp : ℝ) (f0 f1 f2 : Fin 12 → ℝ) : ℝ :=
  ((1 / 12) * E * t ^ 3 * (1 / 2 - 1 / 2 * mu) * (f2 6) * (f2 4) / (1 - mu ^ 2) + (f0 4) * ((1 / 12) * E * mu * t ^ 3 * (f1 6) / (1
    - mu ^ 2) + (1 / 12) * E * t ^ 3 * (f0 6) / (1 - mu ^ 2)) + (f1 4) * ((1 / 12) * E * mu * t ^ 3 * (f0 6) / (1 - mu ^ 2) + (1 /
    12) * E * t ^ 3 * (f1 6) / (1 - mu ^ 2))) * dp

/-- `out[77]`, metaDKQ/wrapped_code_0.c 90 -/
noncomputable def o6_5 (E mu t dp : ℝ) (f0 f1 f2 : Fin 12 → ℝ) : ℝ :=
  ((1 / 12) * E * t ^ 3 * (1 / 2 - 1 / 2 * mu) * (f2 6) * (f2 5) / (1 - mu ^ 2) + (f1 5) * ((1 / 12) * E * mu * t ^ 3 * (f0 6) / (1
    - mu ^ 2) + (1 / 12) * E * t ^ 3 * (f1 6) / (1 - mu ^ 2)) + (f0 5) * ((1 / 12) * E * mu * t ^ 3 * (f1 6) / (1 - mu ^ 2) + (1 /
    12) * E * t ^ 3 * (f0 6) / (1 - mu ^ 2))) * dp

/-- `out[78]`, metaDKQ/wrapped_code_0.c 91 -/
noncomputable def o6_6 (E mu t dp : ℝ) (f0 f1 f2 : Fin 12 → ℝ) : ℝ :=
  ((1 / 12) * E * t ^ 3 * (1 / 2 - 1 / 2 * mu) * (f2 6) ^ 2 / (1 - mu ^ 2) + (f0 6) * ((1 / 12) * E * mu * t ^ 3 * (f1 6) / (1 - mu
    ^ 2) + (1 / 12) * E * t ^ 3 * (f0 6) / (1 - mu ^ 2)) + (f1 6) * ((1 / 12) * E * mu * t ^ 3 * (f0 6) / (1 - mu ^ 2) + (1 / 12)
    * E * t ^ 3 * (f1 6) / (1 - mu ^ 2))) * dp

/-- `out[79]`, metaDKQ/wrapped_code_0.c 92 -/
noncomputable def o6_7 (E mu t dp : ℝ) (f0 f1 f2 : Fin 12 → ℝ) : ℝ :=
  ((1 / 12) * E * t ^ 3 * (1 / 2 - 1 / 2 * mu) * (f2 6) * (f2 7) / (1 - mu ^ 2) + (f0 7) * ((1 / 12) * E * mu * t ^ 3 * (f1 6) / (1
    - mu ^ 2) + (1 / 12) * E * t ^ 3 * (f0 6) / (1 - mu ^ 2)) + (f1 7) * ((1 / 12) * E * mu * t ^ 3 * (f0 6) / (1 - mu ^ 2) + (1 /
    12) * E * t ^ 3 * (f1 6) / (1 - mu ^ 2))) * dp

/-- `out[80]`, metaDKQ/wrapped_code_0.c 93 -/
noncomputable def o6_8 (E mu t dp : ℝ) (f0 f1 f2 : Fin 12 → ℝ) : ℝ :=
  ((1 / 12) * E * t ^ 3 * (1 / 2 - 1 / 2 * mu) * (f2 6) * (f2 8) / (1 - mu ^ 2) + (f1 8) * ((1 / 12) * E * mu * t ^ 3 * (f0 6) / (1
    - mu ^ 2) + (1 / 12) * E * t ^ 3 * (f1 6) / (1 - mu ^ 2)) + (f0 8) * ((1 / 12) * E * mu * t ^ 3 * (f1 6) / (1 - mu ^ 2) + (1 /
    12) * E * t ^ 3 * (f0 6) / (1 - mu ^ 2))) * dp

/-- `out[81]`, metaDKQ/wrapped_code_0.c 94 -/
noncomputable def o6_9 (E mu t dp : ℝ) (f0 f1 f2 : Fin 12 → ℝ) : ℝ :=
  ((1 / 12) * E * t ^ 3 * (1 / 2 - 1 / 2 * mu) * (f2 9) * (f2 6) / (1 - mu ^ 2) + (f0 9) * ((1 / 12) * E * mu * t ^ 3 * (f1 6) / (1
    - mu ^ 2) + (1 / 12) * E * t ^ 3 * (f0 6) / (1 - mu ^ 2)) + (f1 9) * ((1 / 12) * E * mu * t ^ 3 * (f0 6) / (1 - mu ^ 2) + (1 /
    12) * E * t ^ 3 * (f1 6) / (1 - mu ^ 2))) * dp

/-- `out[82]`, metaDKQ/wrapped_code_0.c 95 -/
noncomputable def o6_10 (E mu t dp : ℝ) (f0 f1 f2 : Fin 12 → ℝ) : ℝ :=
  ((1 / 12) * E * t ^ 3 * (1 / 2 - 1 / 2 * mu) * (f2 6) * (f2 10) / (1 - mu ^ 2) + (f0 10) * ((1 / 12) * E * mu * t ^ 3 * (f1 6) /
    (1 - mu ^ 2) + (1 / 12) * E * t ^ 3 * (f0 6) / (1 - mu ^ 2)) + (f1 10) * ((1 / 12) * E * mu * t ^ 3 * (f0 6) / (1 - mu ^ 2) +
    (1 / 12) * E * t ^ 3 * (f1 6) / (1 - mu ^ 2))) * dp

/-- `out[83]`, metaDKQ/wrapped_code_0.c 96 -/
noncomputable def o6_11 (E mu t dp : ℝ) (f0 f1 f2 : Fin 12 → ℝ) : ℝ :=
  ((1 / 12) * E * t ^ 3 * (1 / 2 - 1 / 2 * mu) * (f2 6) * (f2 11) / (1 - mu ^ 2) + (f1 11) * ((1 / 12) * E * mu * t ^ 3 * (f0 6) /
    (1 - mu ^ 2) + (1 / 12) * E * t ^ 3 * (f1 6) / (1 - mu ^ 2)) + (f0 11) * ((1 / 12) * E * mu * t ^ 3 * (f1 6) / (1 - mu ^ 2) +
    (1 / 12) * E * t ^ 3 * (f0 6) / (1 - mu ^ 2))) * dp

/-- `out[72]` to `out[83]`, metaDKQ/wrapped_code_0.c 85-96 -/
noncomputable def out6 (E mu t dp : ℝ) (f0 f1 f2 : Fin 12 → ℝ) : Fin 12 → ℝ := ![
  o6_0 E mu t dp f0 f1 f2,
  o6_1 E mu t dp f0 f1 f2,
  o6_2 E mu t dp f0 f1 f2,
  o6_3 E mu t dp f0 f1 f2,
  o6_4 E mu t dp f0 f1 f2,
  o6_5 E mu t dp f0 f1 f2,
  o6_6 E mu t dp f0 f1 f2,
  o6_7 E mu t dp f0 f1 f2,
  o6_8 E mu t dp f0 f1 f2,
  o6_9 E mu t dp f0 f1 f2,
  o6_10 E mu t dp f0 f1 f2,
  o6_11 E mu t dp f0 f1 f2]

/-- `out[84]`, metaDKQ/wrapped_code_0.c 97 -/
noncomputable def o7_0 (E mu t dp : ℝ) (f0 f1 f2 : Fin 12 → ℝ) : ℝ :=
  ((1 / 12) * E * t ^ 3 * (1 / 2 - 1 / 2 * mu) * (f2 0) * (f2 7) / (1 - mu ^ 2) + (f0 0) * ((1 / 12) * E * mu * t ^ 3 * (f1 7) / (1
    - mu ^ 2) + (1 / 12) * E * t ^ 3 * (f0 7) / (1 - mu ^ 2)) + (f1 0) * ((1 / 12) * E * mu * t ^ 3 * (f0 7) / (1 - mu ^ 2) + (1 /
    12) * E * t ^ 3 * (f1 7) / (1 - mu ^ 2))) * dp

/-- `out[85]`, metaDKQ/wrapped_code_0.c 98 -/
noncomputable def o7_1 (E mu t dp : ℝ) (f0 f1 f2 : Fin 12 → ℝ) : ℝ :=
  ((1 / 12) * E * t ^ 3 * (1 / 2 - 1 / 2 * mu) * (f2 1) * (f2 7) / (1 - mu ^ 2) + (f0 1) * ((1 / 12) * E * mu * t ^ 3 * (f1 7) / (1
    - mu ^ 2) + (1 / 12) * E * t ^ 3 * (f0 7) / (1 - mu ^ 2)) + (f1 1) * ((1 / 12) * E * mu * t ^ 3 * (f0 7) / (1 - mu ^ 2) + (1 /
    12) * E * t ^ 3 * (f1 7) / (1 - mu ^ 2))) * dp

/-- `out[86]`, metaDKQ/wrapped_code_0.c 99 -/
noncomputable def o7_2 (E mu t dp : ℝ) (f0 f1 f2 : Fin 12 → ℝ) : ℝ :=
  ((1 / 12) * E * t ^ 3 * (1 / 2 - 1 / 2 * mu) * (f2 2) * (f2 7) / (1 - mu ^ 2) + (f1 2) * ((1 / 12) * E * mu * t ^ 3 * (f0 7) / (1
    - mu ^ 2) + (1 / 12) * E * t ^ 3 * (f1 7) / (1 - mu ^ 2)) + (f0 2) * ((1 / 12) * E * mu * t ^ 3 * (f1 7) / (1 - mu ^ 2) + (1 /
    12) * E * t ^ 3 * (f0 7) / (1 - mu ^ 2))) * dp

/-- `out[87]`, metaDKQ/wrapped_code_0.c 100 -/
noncomputable def o7_3 (E mu t dp : ℝ) (f0 f1 f2 : Fin 12 → ℝ) : ℝ :=
  ((1 / 12) * E * t ^ 3 * (1 / 2 - 1 / 2 * mu) * (f2 3) * (f2 7) / (1 - mu ^ 2) + (f0 3) * ((1 / 12) * E * mu * t ^ 3 * (f1 7) / (1
    - mu ^ 2) + (1 / 12) * E * t ^ 3 * (f0 7) / (1 - mu ^ 2)) + (f1 3) * ((1 / 12) * E * mu * t ^ 3 * (f0 7) / (1 - mu ^ 2) + (1 /
    12) * E * t ^ 3 * (f1 7) / (1 - mu ^ 2))) * dp

/-- `out[88]`, metaDKQ/wrapped_code_0.c 101 -/
noncomputable def o7_4 (E mu t dp : ℝ) (f0 f1 f2 : Fin 12 → ℝ) : ℝ :=
  ((1 / 12) * E * t ^ 3 * (1 / 2 - 1 / 2 * mu) * (f2 4) * (f2 7) / (1 - mu ^ 2) + (f0 4) * ((1 / 12) * E * mu * t ^ 3 * (f1 7) / (1
    - mu ^ 2) + (1 / 12) * E * t ^ 3 * (f0 7) / (1 - mu ^ 2)) + (f1 4) * ((1 / 12) * E * mu * t ^ 3 * (f0 7) / (1 - mu ^ 2) + (1 /
    12) * E * t ^ 3 * (f1 7) / (1 - mu ^ 2))) * dp

/-- `out[89]`, metaDKQ/wrapped_code_0.c 102 -/
noncomputable def o7_5 (E mu t dp : ℝ) (f0 f1 f2 : Fin 12 → ℝ) : ℝ :=
  ((1 / 12) * E * t ^ 3 * (1 / 2 - 1 / 2 * mu) * (f2 7) * (f2 5) / (1 - mu ^ 2) + (f1 5) * ((1 / 12) * E * mu * t ^ 3 * (f0 7) / (1
    - mu ^ 2) + (1 / 12) * E * t ^ 3 * (f1 7) / (1 - mu ^ 2)) + (f0 5) * ((1 / 12) * E * mu * t ^ 3 * (f1 7) / (1 - mu ^ 2) + (1 /
    12) * E * t ^ 3 * (f0 7) / (1 - mu ^ 2))) * dp

/-- `out[90]`, metaDKQ/wrapped_code_0.c 103 -/
noncomputable def o7_6 (E mu t dp : ℝ) (f0 f1 f2 : Fin 12 → ℝ) : ℝ :=
  ((1 / 12) * E * t ^ 3 * (1 / 2 - 1 / 2 * mu) * (f2 6) * (f2 7) / (1 - mu ^ 2) + (f0 6) * ((1 / 12) * E * mu * t ^ 3 * (f1 7) / (1
    - mu ^ 2) + (1 / 12) * E * t ^ 3 * (f0 7) / (1 - mu ^ 2)) + (f1 6) * ((1 / 12) * E * mu * t ^ 3 * (f0 7) / (1 - mu ^ 2) + (1 /
    12) * E * t ^ 3 * (f1 7) / (1 - mu ^ 2))) * dp

/-- `out[91]`, metaDKQ/wrapped_code_0.c 104 -/
noncomputable def o7_7 (E mu t dp : ℝ) (f0 f1 f2 : Fin 12 → ℝ) : ℝ :=
  ((1 / 12) * E * t ^ 3 * (1 / 2 - 1 / 2 * mu) * (f2 7) ^ 2 / (1 - mu ^ 2) + (f0 7) * ((1 / 12) * E * mu * t ^ 3 * (f1 7) / (1 - mu
    ^ 2) + (1 / 12) * E * t ^ 3 * (f0 7) / (1 - mu ^ 2)) + (f1 7) * ((1 / 12) * E * mu * t ^ 3 * (f0 7) / (1 - mu ^ 2) + (1 / 12)
    * E * t ^ 3 * (f1 7) / (1 - mu ^ 2))) * dp

/-- `out[92]`, metaDKQ/wrapped_code_0.c 105 -/
noncomputable def o7_8 (E mu t dp : ℝ) (f0 f1 f2 : Fin 12 → ℝ) : ℝ :=
  ((1 / 12) * E * t ^ 3 * (1 / 2 - 1 / 2 * mu) * (f2 7) * (f2 8) / (1 - mu ^ 2) + (f1 8) * ((1 / 12) * E * mu * t ^ 3 * (f0 7) / (1
    - mu ^ 2) + (1 / 12) * E * t ^ 3 * (f1 7) / (1 - mu ^ 2)) + (f0 8) * ((1 / 12) * E * mu * t ^ 3 * (f1 7) / (1 - mu ^ 2) + (1 /
    12) * E * t ^ 3 * (f0 7) / (1 - mu ^ 2))) * dp

/-- `out[93]`, metaDKQ/wrapped_code_0.c 106 -/
noncomputable def o7_9 (E mu t dp : ℝ) (f0 f1 f2 : Fin 12 → ℝ) : ℝ :=
  ((1 / 12) * E * t ^ 3 * (1 / 2 - 1 / 2 * mu) * (f2 9) * (f2 7) / (1 - mu ^ 2) + (f0 9) * ((1 / 12) * E * mu * t ^ 3 * (f1 7) / (1
    - mu ^ 2) + (1 / 12) * E * t ^ 3 * (f0 7) / (1 - mu ^ 2)) + (f1 9) * ((1 / 12) * E * mu * t ^ 3 * (f0 7) / (1 - mu ^ 2) + (1 /
    12) * E * t ^ 3 * (f1 7) / (1 - mu ^ 2))) * dp

/-- `out[94]`, metaDKQ/wrapped_code_0.c 107 -/
noncomputable def o7_10 (E mu t dp : ℝ) (f0 f1 f2 : Fin 12 → ℝ) : ℝ :=
  ((1 / 12) * E * t ^ 3 * (1 / 2 - 1 / 2 * mu) * (f2 10) * (f2 7) / (1 - mu ^ 2) + (f0 10) * ((1 / 12) * E * mu * t ^ 3 * (f1 7) /
    (1 - mu ^ 2) + (1 / 12) * E * t ^ 3 * (f0 7) / (1 - mu ^ 2)) + (f1 10) * ((1 / 12) * E * mu * t ^ 3 * (f0 7) / (1 - mu ^ 2) +
    (1 / 12) * E * t ^ 3 * (f1 7) / (1 - mu ^ 2))) * dp

/-- `out[95]`, metaDKQ/wrapped_code_0.c 108 -/
noncomputable def o7_11 (E mu t dp : ℝ) (f0 f1 f2 : Fin 12 → ℝ) : ℝ :=
  ((1 / 12) * E * t ^ 3 * (1 / 2 - 1 / 2 * mu) * (f2 11) * (f2 7) / (1 - mu ^ 2) + (f1 11) * ((1 / 12) * E * mu * t ^ 3 * (f0 7) /
    (1 - mu ^ 2) + (1 / 12) * E * t ^ 3 * (f1 7) / (1 - mu ^ 2)) + (f0 11) * ((1 / 12) * E * mu * t ^ 3 * (f1 7) / (1 - mu ^ 2) +
    (1 / 12) * E * t ^ 3 * (f0 7) / (1 - mu ^ 2))) * dp

/-- `out[84]` to `out[95]`, metaDKQ/wrapped_code_0.c 97-108 -/
noncomputable def out7 (E mu t dp : ℝ) (f0 f1 f2 : Fin 12 → ℝ) : Fin 12 → ℝ := ![
  o7_0 E mu t dp f0 f1 f2,
  o7_1 E mu t dp f0 f1 f2,
  o7_2 E mu t dp f0 f1 f2,
  o7_3 E mu t dp f0 f1 f2,
  o7_4 E mu t dp f0 f1 f2,
  o7_5 E mu t dp f0 f1 f2,
  o7_6 E mu t dp f0 f1 f2,
  o7_7 E mu t dp f0 f1 f2,
  o7_8 E mu t dp f0 f1 f2,
  o7_9 E mu t dp f0 f1 f2,
  o7_10 E mu t dp f0 f1 f2,
  o7_11 E mu t dp f0 f1 f2]

/-- `out[96]`, metaDKQ/wrapped_code_0.c 109 -/
noncomputable def o8_0 (E mu t dp : ℝ) (f0 f1 f2 : Fin 12 → ℝ) : ℝ :=
  ((1 / 12) * E * t ^ 3 * (1 / 2 - 1 / 2 * mu) * (f2 0) * (f2 8) / (1 - mu ^ 2) + (f0 0) * ((1 / 12) * E * mu * t ^ 3 * (f1 8) / (1
    - mu ^ 2) + (1 / 12) * E * t ^ 3 * (f0 8) / (1 - mu ^ 2)) + (f1 0) * ((1 / 12) * E * mu * t ^ 3 * (f0 8) / (1 - mu ^ 2) + (1 /
    12) * E * t ^ 3 * (f1 8) / (1 - mu ^ 2))) * dp

/-- `out[97]`, metaDKQ/wrapped_code_0.c 110 -/
noncomputable def o8_1 (E mu t dp : ℝ) (f0 f1 f2 : Fin 12 → ℝ) : ℝ :=
  ((1 / 12) * E * t ^ 3 * (1 / 2 - 1 / 2 * mu) * (f2 1) * (f2 8) / (1 - mu ^ 2) + (f0 1) * ((1 / 12) * E * mu * t ^ 3 * (f1 8) / (1
    - mu ^ 2) + (1 / 12) * E * t ^ 3 * (f0 8) / (1 - mu ^ 2)) + (f1 1) * ((1 / 12) * E * mu * t ^ 3 * (f0 8) / (1 - mu ^ 2) + (1 /
    12) * E * t ^ 3 * (f1 8) / (1 - mu ^ 2))) * dp

/-- `out[98]`, metaDKQ/wrapped_code_0.c 111 -/
noncomputable def o8_2 (E mu t dp : ℝ) (f0 f1 f2 : Fin 12 → ℝ) : ℝ :=
  ((1 / 12) * E * t ^ 3 * (1 / 2 - 1 / 2 * mu) * (f2 2) * (f2 8) / (1 - mu ^ 2) + (f1 2) * ((1 / 12) * E * mu * t ^ 3 * (f0 8) / (1
    - mu ^ 2) + (1 / 12) * E * t ^ 3 * (f1 8) / (1 - mu ^ 2)) + (f0 2) * ((1 / 12) * E * mu * t ^ 3 * (f1 8) / (1 - mu ^ 2) + (1 /
    12) * E * t ^ 3 * (f0 8) / (1 - mu ^ 2))) * dp

/-- `out[99]`, metaDKQ/wrapped_code_0.c 112 -/
noncomputable def o8_3 (E mu t dp : ℝ) (f0 f1 f2 : Fin 12 → ℝ) : ℝ :=
  ((1 / 12) * E * t ^ 3 * (1 / 2 - 1 / 2 * mu) * (f2 3) * (f2 8) / (1 - mu ^ 2) + (f0 3) * ((1 / 12) * E * mu * t ^ 3 * (f1 8) / (1
    - mu ^ 2) + (1 / 12) * E * t ^ 3 * (f0 8) / (1 - mu ^ 2)) + (f1 3) * ((1 / 12) * E * mu * t ^ 3 * (f0 8) / (1 - mu ^ 2) + (1 /
    12) * E * t ^ 3 * (f1 8) / (1 - mu ^ 2))) * dp

/-- `out[100]`, metaDKQ/wrapped_code_0.c 113 -/
noncomputable def o8_4 (E mu t dp : ℝ) (f0 f1 f2 : Fin 12 → ℝ) : ℝ :=
  ((1 / 12) * E * t ^ 3 * (1 / 2 - 1 / 2 * mu) * (f2 4) * (f2 8) / (1 - mu ^ 2) + (f0 4) * ((1 / 12) * E * mu * t ^ 3 * (f1 8) / (1
    - mu ^ 2) + (1 / 12) * E * t ^ 3 * (f0 8) / (1 - mu ^ 2)) + (f1 4) * ((1 / 12) * E * mu * t ^ 3 * (f0 8) / (1 - mu ^ 2) + (1 /
    12) * E * t ^ 3 * (f1 8) / (1 - mu ^ 2))) * dp

/-- `out[101]`, metaDKQ/wrapped_code_0.c 114 -/
noncomputable def o8_5 (E mu t dp : ℝ) (f0 f1 f2 : Fin 12 → ℝ) : ℝ :=
  ((1 / 12) * E * t ^ 3 * (1 / 2 - 1 / 2 * mu) * (f2 5) * (f2 8) / (1 - mu ^ 2) + (f1 5) * ((1 / 12) * E * mu * t ^ 3 * (f0 8) / (1
    - mu ^ 2) + (1 / 12) * E * t ^ 3 * (f1 8) / (1 - mu ^ 2)) + (f0 5) * ((1 / 12) * E * mu * t ^ 3 * (f1 8) / (1 - mu ^ 2) + (1 /
    12) * E * t ^ 3 * (f0 8) / (1 - mu ^ 2))) * dp

/-- `out[102]`, metaDKQ/wrapped_code_0.c 115 -/
noncomputable def o8_6 (E mu t dp : ℝ) (f0 f1 f2 : Fin 12 → ℝ) : ℝ :=
  ((1 / 12) * E * t ^ 3 * (1 / 2 - 1 / 2 * mu) * (f2 6) * (f2 8) / (1 - mu ^ 2) + (f0 6) * ((1 / 12) * E * mu * t ^ 3 * (f1 8) / (1
    - mu ^ 2) + (1 / 12) * E * t ^ 3 * (f0 8) / (1 - mu ^ 2)) + (f1 6) * ((1 / 12) * E * mu * t ^ 3 * (f0 8) / (1 - mu ^ 2) + (1 /
    12) * E * t ^ 3 * (f1 8) / (1 - mu ^ 2))) * dp

/-- `out[103]`, metaDKQ/wrapped_code_0.c 116 -/
noncomputable def o8_7 (E mu t dp : ℝ) (f0 f1 f2 : Fin 12 → ℝ) : ℝ :=
  ((1 / 12) * E * t ^ 3 * (1 / 2 - 1 / 2 * mu) * (f2 7) * (f2 8) / (1 - mu ^ 2) + (f0 7) * ((1 / 12) * E * mu * t ^ 3 * (f1 8) / (1
    - mu ^ 2) + (1 / 12) * E * t ^ 3 * (f0 8) / (1 - mu ^ 2)) + (f1 7) * ((1 / 12) * E * mu * t ^ 3 * (f0 8) / (1 - mu ^ 2) + (1 /
    12) * E * t ^ 3 * (f1 8) / (1 - mu ^ 2))) * dp

/-- `out[104]`, metaDKQ/wrapped_code_0.c 117 -/
noncomputable def o8_8 (E mu t dp : ℝ) (f0 f1 f2 : Fin 12 → ℝ) : ℝ :=
  ((1 / 12) * E * t ^ 3 * (1 / 2 - 1 / 2 * mu) * (f2 8) ^ 2 / (1 - mu ^ 2) + (f1 8) * ((1 / 12) * E * mu * t ^ 3 * (f0 8) / (1 - mu
    ^ 2) + (1 / 12) * E * t ^ 3 * (f1 8) / (1 - mu ^ 2)) + (f0 8) * ((1 / 12) * E * mu * t ^ 3 * (f1 8) / (1 - mu ^ 2) + (1 / 12)
    * E * t ^ 3 * (f0 8) / (1 - mu ^ 2))) * dp

/-- `out[105]`, metaDKQ/wrapped_code_0.c 118 -/
noncomputable def o8_9 (E mu t dp : ℝ) (f0 f1 f2 : Fin 12 → ℝ) : ℝ :=
  ((1 / 12) * E * t ^ 3 * (1 / 2 - 1 / 2 * mu) * (f2 9) * (f2 8) / (1 - mu ^ 2) + (f0 9) * ((1 / 12) * E * mu * t ^ 3 * (f1 8) / (1
    - mu ^ 2) + (1 / 12) * E * t ^ 3 * (f0 8) / (1 - mu ^ 2)) + (f1 9) * ((1 / 12) * E * mu * t ^ 3 * (f0 8) / (1 - mu ^ 2) + (1 /
    12) * E * t ^ 3 * (f1 8) / (1 - mu ^ 2))) * dp

/-- `out[106]`, metaDKQ/wrapped_code_0.c 119 -/
noncomputable def o8_10 (E mu t dp : ℝ) (f0 f1 f2 : Fin 12 → ℝ) : ℝ :=
  ((1 / 12) * E * t ^ 3 * (1 / 2 - 1 / 2 * mu) * (f2 10) * (f2 8) / (1 - mu ^ 2) + (f0 10) * ((1 / 12) * E * mu * t ^ 3 * (f1 8) /
    (1 - mu ^ 2) + (1 / 12) * E * t ^ 3 * (f0 8) / (1 - mu ^ 2)) + (f1 10) * ((1 / 12) * E * mu * t ^ 3 * (f0 8) / (1 - mu ^ 2) +
    (1 / 12) * E * t ^ 3 * (f1 8) / (1 - mu ^ 2))) * dp

/-- `out[107]`, metaDKQ/wrapped_code_0.c 120 -/
noncomputable def o8_11 (E mu t dp : ℝ) (f0 f1 f2 : Fin 12 → ℝ) : ℝ :=
  ((1 / 12) * E * t ^ 3 * (1 / 2 - 1 / 2 * mu) * (f2 11) * (f2 8) / (1 - mu ^ 2) + (f1 11) * ((1 / 12) * E * mu * t ^ 3 * (f0 8) /
    (1 - mu ^ 2) + (1 / 12) * E * t ^ 3 * (f1 8) / (1 - mu ^ 2)) + (f0 11) * ((1 / 12) * E * mu * t ^ 3 * (f1 8) / (1 - mu ^ 2) +
    (1 / 12) * E * t ^ 3 * (f0 8) / (1 - mu ^ 2))) * dp

/-- `out[96]` to `out[107]`, metaDKQ/wrapped_code_0.c 109-120 -/
noncomputable def out8 (E mu t dp : ℝ) (f0 f1 f2 : Fin 12 → ℝ) : Fin 12 → ℝ := ![
  o8_0 E mu t dp f0 f1 f2,
  o8_1 E mu t dp f0 f1 f2,
  o8_2 E mu t dp f0 f1 f2,
  o8_3 E mu t dp f0 f1 f2,
  o8_4 E mu t dp f0 f1 f2,
  o8_5 E mu t dp f0 f1 f2,
  o8_6 E mu t dp f0 f1 f2,
  o8_7 E mu t dp f0 f1 f2,
  o8_8 E mu t dp f0 f1 f2,
  o8_9 E mu t dp f0 f1 f2,
  o8_10 E mu t dp f0 f1 f2,
  o8_11 E mu t dp f0 f1 f2]

/-- `out[108]`, metaDKQ/wrapped_code_0.c 121 -/
noncomputable def o9_0 (E mu t dp : ℝ) (f0 f1 f2 : Fin 12 → ℝ) : ℝ :=
  ((1 / 12) * E * t ^ 3 * (1 / 2 - 1 / 2 * mu) * (f2 9) * (f2 0) / (1 - mu ^ 2) + (f0 0) * ((1 / 12) * E * mu * t ^ 3 * (f1 9) / (1
    - mu ^ 2) + (1 / 12) * E * t ^ 3 * (f0 9) / (1 - mu ^ 2)) + (f1 0) * ((1 / 12) * E * mu * t ^ 3 * (f0 9) / (1 - mu ^ 2) + (1 /
    12) * E * t ^ 3 * (f1 9) / (1 - mu ^ 2))) * dp

/-- `out[109]`, metaDKQ/wrapped_code_0.c 122 -/
noncomputable def o9_1 (E mu t dp : ℝ) (f0 f1 f2 : Fin 12 → ℝ) : ℝ :=
  ((1 / 12) * E * t ^ 3 * (1 / 2 - 1 / 2 * mu) * (f2 9) * (f2 1) / (1 - mu ^ 2) + (f0 1) * ((1 / 12) * E * mu * t ^ 3 * (f1 9) / (1
    - mu ^ 2) + (1 / 12) * E * t ^ 3 * (f0 9) / (1 - mu ^ 2)) + (f1 1) * ((1 / 12) * E * mu * t ^ 3 * (f0 9) / (1 - mu ^ 2) + (1 /
    12) * E * t ^ 3 * (f1 9) / (1 - mu ^ 2))) * dp

/-- `out[110]`, metaDKQ/wrapped_code_0.c 123 -/
noncomputable def o9_2 (E mu t dp : ℝ) (f0 f1 f2 : Fin 12 → ℝ) : ℝ :=
  ((1 / 12) * E * t ^ 3 * (1 / 2 - 1 / 2 * mu) * (f2 9) * (f2 2) / (1 - mu ^ 2) + (f1 2) * ((1 / 12) * E * mu * t ^ 3 * (f0 9) / (1
    - mu ^ 2) + (1 / 12) * E * t ^ 3 * (f1 9) / (1 - mu ^ 2)) + (f0 2) * ((1 / 12) * E * mu * t ^ 3 * (f1 9) / (1 - mu ^ 2) + (1 /
    12) * E * t ^ 3 * (f0 9) / (1 - mu ^ 2))) * dp

/-- `out[111]`, metaDKQ/wrapped_code_0.c 124 -/
noncomputable def o9_3 (E mu t dp : ℝ) (f0 f1 f2 : Fin 12 → ℝ) : ℝ :=
  ((1 / 12) * E * t ^ 3 * (1 / 2 - 1 / 2 * mu) * (f2 9) * (f2 3) / (1 - mu ^ 2) + (f0 3) * ((1 / 12) * E * mu * t ^ 3 * (f1 9) / (1
    - mu ^ 2) + (1 / 12) * E * t ^ 3 * (f0 9) / (1 - mu ^ 2)) + (f1 3) * ((1 / 12) * E * mu * t ^ 3 * (f0 9) / (1 - mu ^ 2) + (1 /
    12) * E * t ^ 3 * (f1 9) / (1 - mu ^ 2))) * dp

/-- `out[112]`, metaDKQ/wrapped_code_0.c 125 -/
noncomputable def o9_4 (E mu t dp : ℝ) (f0 f1 f2 : Fin 12 → ℝ) : ℝ :=
  ((1 / 12) * E * t ^ 3 * (1 / 2 - 1 / 2 * mu) * (f2 9) * (f2 4) / (1 - mu ^ 2) + (f0 4) * ((1 / 12) * E * mu * t ^ 3 * (f1 9) / (1
    - mu ^ 2) + (1 / 12) * E * t ^ 3 * (f0 9) / (1 - mu ^ 2)) + (f1 4) * ((1 / 12) * E * mu * t ^ 3 * (f0 9) / (1 - mu ^ 2) + (1 /
    12) * E * t ^ 3 * (f1 9) / (1 - mu ^ 2))) * dp

/-- `out[113]`, metaDKQ/wrapped_code_0.c 126 -/
noncomputable def o9_5 (E mu t dp : ℝ) (f0 f1 f2 : Fin 12 → ℝ) : ℝ :=
  ((1 / 12) * E * t ^ 3 * (1 / 2 - 1 / 2 * mu) * (f2 9) * (f2 5) / (1 - mu ^ 2) + (f1 5) * ((1 / 12) * E * mu * t ^ 3 * (f0 9) / (1
    - mu ^ 2) + (1 / 12) * E * t ^ 3 * (f1 9) / (1 - mu ^ 2)) + (f0 5) * ((1 / 12) * E * mu * t ^ 3 * (f1 9) / (1 - mu ^ 2) + (1 /
    12) * E * t ^ 3 * (f0 9) / (1 - mu ^ 2))) * dp

/-- `out[114]`, metaDKQ/wrapped_code_0.c 127 -/
noncomputable def o9_6 (E mu t dp : ℝ) (f0 f1 f2 : Fin 12 → ℝ) : ℝ :=
  ((1 / 12) * E * t ^ 3 * (1 / 2 - 1 / 2 * mu) * (f2 9) * (f2 6) / (1 - mu ^ 2) + (f0 6) * ((1 / 12) * E * mu * t ^ 3 * (f1 9) / (1
    - mu ^ 2) + (1 / 12) * E * t ^ 3 * (f0 9) / (1 - mu ^ 2)) + (f1 6) * ((1 / 12) * E * mu * t ^ 3 * (f0 9) / (1 - mu ^ 2) + (1 /
    12) * E * t ^ 3 * (f1 9) / (1 - mu ^ 2))) * dp

/-- `out[115]`, metaDKQ/wrapped_code_0.c 128 -/
noncomputable def o9_7 (E mu t dp : ℝ) (f0 f1 f2 : Fin 12 → ℝ) : ℝ :=
  ((1 / 12) * E * t ^ 3 * (1 / 2 - 1 / 2 * mu) * (f2 9) * (f2 7) / (1 - mu ^ 2) + (f0 7) * ((1 / 12) * E * mu * t ^ 3 * (f1 9) / (1
    - mu ^ 2) + (1 / 12) * E * t ^ 3 * (f0 9) / (1 - mu ^ 2)) + (f1 7) * ((1 / 12) * E * mu * t ^ 3 * (f0 9) / (1 - mu ^ 2) + (1 /
    12) * E * t ^ 3 * (f1 9) / (1 - mu ^ 2))) * dp

/-- `out[116]`, metaDKQ/wrapped_code_0.c 129 -/
noncomputable def o9_8 (E mu t dp : ℝ) (f0 f1 f2 : Fin 12 → ℝ) : ℝ :=
  ((1 / 12) * E * t ^ 3 * (1 / 2 - 1 / 2 * mu) * (f2 9) * (f2 8) / (1 - mu ^ 2) + (f1 8) * ((1 / 12) * E * mu * t ^ 3 * (f0 9) / (1
    - mu ^ 2) + (1 / 12) * E * t ^ 3 * (f1 9) / (1 - mu ^ 2)) + (f0 8) * ((1 / 12) * E * mu * t ^ 3 * (f1 9) / (1 - mu ^ 2) + (1 /
    12) * E * t ^ 3 * (f0 9) / (1 - mu ^ 2))) * dp

/-- `out[117]`, metaDKQ/wrapped_code_0.c 130 -/
noncomputable def o9_9 (E mu t dp : ℝ) (f0 f1 f2 : Fin 12 → ℝ) : ℝ :=
  ((1 / 12) * E * t ^ 3 * (1 / 2 - 1 / 2 * mu) * (f2 9) ^ 2 / (1 - mu ^ 2) + (f0 9) * ((1 / 12) * E * mu * t ^ 3 * (f1 9) / (1 - mu
    ^ 2) + (1 / 12) * E * t ^ 3 * (f0 9) / (1 - mu ^ 2)) + (f1 9) * ((1 / 12) * E * mu * t ^ 3 * (f0 9) / (1 - mu ^ 2) + (1 / 12)
    * E * t ^ 3 * (f1 9) / (1 - mu ^ 2))) * dp

/-- `out[118]`, metaDKQ/wrapped_code_0.c 131 -/
noncomputable def o9_10 (E mu t dp : ℝ) (f0 f1 f2 : Fin 12 → ℝ) : ℝ :=
  ((1 / 12) * E * t ^ 3 * (1 / 2 - 1 / 2 * mu) * (f2 9) * (f2 10) / (1 - mu ^ 2) + (f0 10) * ((1 / 12) * E * mu * t ^ 3 * (f1 9) /
    (1 - mu ^ 2) + (1 / 12) * E * t ^ 3 * (f0 9) / (1 - mu ^ 2)) + (f1 10) * ((1 / 12) * E * mu * t ^ 3 * (f0 9) / (1 - mu ^ 2) +
    (1 / 12) * E * t ^ 3 * (f1 9) / (1 - mu ^ 2))) * dp

/-- `out[119]`, metaDKQ/wrapped_code_0.c 132 -/
noncomputable def o9_11 (E mu t dp : ℝ) (f0 f1 f2 : Fin 12 → ℝ) : ℝ :=
  ((1 / 12) * E * t ^ 3 * (1 / 2 - 1 / 2 * mu) * (f2 9) * (f2 11) / (1 - mu ^ 2) + (f1 11) * ((1 / 12) * E * mu * t ^ 3 * (f0 9) /
    (1 - mu ^ 2) + (1 / 12) * E * t ^ 3 * (f1 9) / (1 - mu ^ 2)) + (f0 11) * ((1 / 12) * E * mu * t ^ 3 * (f1 9) / (1 - mu ^ 2) +
    (1 / 12) * E * t ^ 3 * (f0 9) / (1 - mu ^ 2))) * dp

/-- `out[108]` to `out[119]`, metaDKQ/wrapped_code_0.c 121-132 -/
noncomputable def out9 (E mu t dp : ℝ) (f0 f1 f2 : Fin 12 → ℝ) : Fin 12 → ℝ := ![
  o9_0 E mu t dp f0 f1 f2,
  o9_1 E mu t dp f0 f1 f2,
  o9_2 E mu t dp f0 f1 f2,
  o9_3 E mu t dp f0 f1 f2,
  o9_4 E mu t dp f0 f1 f2,
  o9_5 E mu t dp f0 f1 f2,
  o9_6 E mu t dp f0 f1 f2,
  o9_7 E mu t dp f0 f1 f2,
  o9_8 E mu t dp f0 f1 f2,
  o9_9 E mu t dp f0 f1 f2,
  o9_10 E mu t dp f0 f1 f2,
  o9_11 E mu t dp f0 f1 f2]

/-- `out[120]`, metaDKQ/wrapped_code_0.c 133 -/
noncomputable def o10_0 (E mu t dp : ℝ) (f0 f1 f2 : Fin 12 → ℝ) : ℝ :=
  ((1 / 12) * E * t ^ 3 * (1 / 2 - 1 / 2 * mu) * (f2 0) * (f2 10) / (1 - mu ^ 2) + (f0 0) * ((1 / 12) * E * mu * t ^ 3 * (f1 10) /
    (1 - mu ^ 2) + (1 / 12) * E * t ^ 3 * (f0 10) / (1 - mu ^ 2)) + (f1 0) * ((1 / 12) * E * mu * t ^ 3 * (f0 10) / (1 - mu ^ 2) +
    (1 / 12) * E * t ^ 3 * (f1 10) / (1 - mu ^ 2))) * dp

/-- `out[121]`, metaDKQ/wrapped_code_0.c 134 -/
noncomputable def o10_1 (E mu t dp : ℝ) (f0 f1 f2 : Fin 12 → ℝ) : ℝ :=
  ((1 / 12) * E * t ^ 3 * (1 / 2 - 1 / 2 * mu) * (f2 1) * (f2 10) / (1 - mu ^ 2) + (f0 1) * ((1 / 12) * E * mu * t ^ 3 * (f1 10) /
    (1 - mu ^ 2) + (1 / 12) * E * t ^ 3 * (f0 10) / (1 - mu ^ 2)) + (f1 1) * ((1 / 12) * E * mu * t ^ 3 * (f0 10) / (1 - mu ^ 2) +
    (1 / 12) * E * t ^ 3 * (f1 10) / (1 - mu ^ 2))) * dp

/-- `out[122]`, metaDKQ/wrapped_code_0.c 135 -/
noncomputable def o10_2 (E mu t dp : ℝ) (f0 f1 f2 : Fin 12 → ℝ) : ℝ :=
  ((1 / 12) * E * t ^ 3 * (1 / 2 - 1 / 2 * mu) * (f2 10) * (f2 2) / (1 - mu ^ 2) + (f1 2) * ((1 / 12) * E * mu * t ^ 3 * (f0 10) /
    (1 - mu ^ 2) + (1 / 12) * E * t ^ 3 * (f1 10) / (1 - mu ^ 2)) + (f0 2) * ((1 / 12) * E * mu * t ^ 3 * (f1 10) / (1 - mu ^ 2) +
    (1 / 12) * E * t ^ 3 * (f0 10) / (1 - mu ^ 2))) * dp

/-- `out[123]`, metaDKQ/wrapped_code_0.c 136 -/
noncomputable def o10_3 (E mu t dp : ℝ) (f0 f1 f2 : Fin 12 → ℝ) : ℝ :=
  ((1 / 12) * E * t ^ 3 * (1 / 2 - 1 / 2 * mu) * (f2 3) * (f2 10) / (1 - mu ^ 2) + (f0 3) * ((1 / 12) * E * mu * t ^ 3 * (f1 10) /
    (1 - mu ^ 2) + (1 / 12) * E * t ^ 3 * (f0 10) / (1 - mu ^ 2)) + (f1 3) * ((1 / 12) * E * mu * t ^ 3 * (f0 10) / (1 - mu ^ 2) +
    (1 / 12) * E * t ^ 3 * (f1 10) / (1 - mu ^ 2))) * dp

/-- `out[124]`, metaDKQ/wrapped_code_0.c 137 -/
noncomputable def o10_4 (E mu t dp : ℝ) (f0 f1 f2 : Fin 12 → ℝ) : ℝ :=
  ((1 / 12) * E * t ^ 3 * (1 / 2 - 1 / 2 * mu) * (f2 10) * (f2 4) / (1 - mu ^ 2) + (f0 4) * ((1 / 12) * E * mu * t ^ 3 * (f1 10) /
    (1 - mu ^ 2) + (1 / 12) * E * t ^ 3 * (f0 10) / (1 - mu ^ 2)) + (f1 4) * ((1 / 12) * E * mu * t ^ 3 * (f0 10) / (1 - mu ^ 2) +
    (1 / 12) * E * t ^ 3 * (f1 10) / (1 - mu ^ 2))) * dp

/-- `out[125]`, metaDKQ/wrapped_code_0.c 138 -/
noncomputable def o10_5 (E mu t dp : ℝ) (f0 f1 f2 : Fin 12 → ℝ) : ℝ :=
  ((1 / 12) * E * t ^ 3 * (1 / 2 - 1 / 2 * mu) * (f2 10) * (f2 5) / (1 - mu ^ 2) + (f1 5) * ((1 / 12) * E * mu * t ^ 3 * (f0 10) /
    (1 - mu ^ 2) + (1 / 12) * E * t ^ 3 * (f1 10) / (1 - mu ^ 2)) + (f0 5) * ((1 / 12) * E * mu * t ^ 3 * (f1 10) / (1 - mu ^ 2) +
    (1 / 12) * E * t ^ 3 * (f0 10) / (1 - mu ^ 2))) * dp

/-- `out[126]`, metaDKQ/wrapped_code_0.c 139 -/
noncomputable def o10_6 (E mu t dp : ℝ) (f0 f1 f2 : Fin 12 → ℝ) : ℝ :=
  ((1 / 12) * E * t ^ 3 * (1 / 2 - 1 / 2 * mu) * (f2 6) * (f2 10) / (1 - mu ^ 2) + (f0 6) * ((1 / 12) * E * mu * t ^ 3 * (f1 10) /
    (1 - mu ^ 2) + (1 / 12) * E * t ^ 3 * (f0 10) / (1 - mu ^ 2)) + (f1 6) * ((1 / 12) * E * mu * t ^ 3 * (f0 10) / (1 - mu ^ 2) +
    (1 / 12) * E * t ^ 3 * (f1 10) / (1 - mu ^ 2))) * dp

/-- `out[127]`, metaDKQ/wrapped_code_0.c 140 -/
noncomputable def o10_7 (E mu t dp : ℝ) (f0 f1 f2 : Fin 12 → ℝ) : ℝ :=
  ((1 / 12) * E * t ^ 3 * (1 / 2 - 1 / 2 * mu) * (f2 10) * (f2 7) / (1 - mu ^ 2) + (f0 7) * ((1 / 12) * E * mu * t ^ 3 * (f1 10) /
    (1 - mu ^ 2) + (1 / 12) * E * t ^ 3 * (f0 10) / (1 - mu ^ 2)) + (f1 7) * ((1 / 12) * E * mu * t ^ 3 * (f0 10) / (1 - mu ^ 2) +
    (1 / 12) * E * t ^ 3 * (f1 10) / (1 - mu ^ 2))) * dp

/-- `out[128]`, metaDKQ/wrapped_code_0.c 141 -/
noncomputable def o10_8 (E mu t dp : ℝ) (f0 f1 f2 : Fin 12 → ℝ) : ℝ :=
  ((1 / 12) * E * t ^ 3 * (1 / 2 - 1 / 2 * mu) * (f2 10) * (f2 8) / (1 - mu ^ 2) + (f1 8) * ((1 / 12) * E * mu * t ^ 3 * (f0 10) /
    (1 - mu ^ 2) + (1 / 12) * E * t ^ 3 * (f1 10) / (1 - mu ^ 2)) + (f0 8) * ((1 / 12) * E * mu * t ^ 3 * (f1 10) / (1 - mu ^ 2) +
    (1 / 12) * E * t ^ 3 * (f0 10) / (1 - mu ^ 2))) * dp

/-- `out[129]`, metaDKQ/wrapped_code_0.c 142 -/
noncomputable def o10_9 (E mu t dp : ℝ) (f0 f1 f2 : Fin 12 → ℝ) : ℝ :=
  ((1 / 12) * E * t ^ 3 * (1 / 2 - 1 / 2 * mu) * (f2 9) * (f2 10) / (1 - mu ^ 2) + (f0 9) * ((1 / 12) * E * mu * t ^ 3 * (f1 10) /
    (1 - mu ^ 2) + (1 / 12) * E * t ^ 3 * (f0 10) / (1 - mu ^ 2)) + (f1 9) * ((1 / 12) * E * mu * t ^ 3 * (f0 10) / (1 - mu ^ 2) +
    (1 / 12) * E * t ^ 3 * (f1 10) / (1 - mu ^ 2))) * dp

/-- `out[130]`, metaDKQ/wrapped_code_0.c 143 -/
noncomputable def o10_10 (E mu t dp : ℝ) (f0 f1 f2 : Fin 12 → ℝ) : ℝ :=
  ((1 / 12) * E * t ^ 3 * (1 / 2 - 1 / 2 * mu) * (f2 10) ^ 2 / (1 - mu ^ 2) + (f0 10) * ((1 / 12) * E * mu * t ^ 3 * (f1 10) / (1 -
    mu ^ 2) + (1 / 12) * E * t ^ 3 * (f0 10) / (1 - mu ^ 2)) + (f1 10) * ((1 / 12) * E * mu * t ^ 3 * (f0 10) / (1 - mu ^ 2) + (1
    / 12) * E * t ^ 3 * (f1 10) / (1 - mu ^ 2))) * dp

/-- `out[131]`, metaDKQ/wrapped_code_0.c 144 -/
noncomputable def o10_11 (E mu t dp : ℝ) (f0 f1 f2 : Fin 12 → ℝ) : ℝ :=
  ((1 / 12) * E * t ^ 3 * (1 / 2 - 1 / 2 * mu) * (f2 10) * (f2 11) / (1 - mu ^ 2) + (f1 11) * ((1 / 12) * E * mu * t ^ 3 * (f0 10) /
    (1 - mu ^ 2) + (1 / 12) * E * t ^ 3 * (f1 10) / (1 - mu ^ 2)) + (f0 11) * ((1 / 12) * E * mu * t ^ 3 * (f1 10) / (1 - mu ^ 2)
    + (1 / 12) * E * t ^ 3 * (f0 10) / (1 - mu ^ 2))) * dp

/-- `out[120]` to `out[131]`, metaDKQ/wrapped_code_0.c 133-144 -/
noncomputable def out10 (E mu t dp : ℝ) (f0 f1 f2 : Fin 12 → ℝ) : Fin 12 → ℝ := ![
  o10_0 E mu t dp f0 f1 f2,
  o10_1 E mu t dp f0 f1 f2,
  o10_2 E mu t dp f0 f1 f2,
  o10_3 E mu t dp f0 f1 f2,
  o10_4 E mu t dp f0 f1 f2,
  o10_5 E mu t dp f0 f1 f2,
  o10_6 E mu t dp f0 f1 f2,
  o10_7 E mu t dp f0 f1 f2,
  o10_8 E mu t dp f0 f1 f2,
  o10_9 E mu t dp f0 f1 f2,
  o10_10 E mu t dp f0 f1 f2,
  o10_11 E mu t dp f0 f1 f2]

/-- `out[132]`, metaDKQ/wrapped_code_0.c 145 -/
noncomputable def o11_0 (E mu t dp : ℝ) (f0 f1 f2 : Fin 12 → ℝ) : ℝ :=
  ((1 / 12) * E * t ^ 3 * (1 / 2 - 1 / 2 * mu) * (f2 0) * (f2 11) / (1 - mu ^ 2) + (f0 0) * ((1 / 12) * E * mu * t ^ 3 * (f1 11) /
    (1 - mu ^ 2) + (1 / 12) * E * t ^ 3 * (f0 11) / (1 - mu ^ 2)) + (f1 0) * ((1 / 12) * E * mu * t ^ 3 * (f0 11) / (1 - mu ^ 2) +
    (1 / 12) * E * t ^ 3 * (f1 11) / (1 - mu ^ 2))) * dp

/-- `out[133]`, metaDKQ/wrapped_code_0.c 146 -/
noncomputable def o11_1 (E mu t dp : ℝ) (f0 f1 f2 : Fin 12 → ℝ) : ℝ :=
  ((1 / 12) * E * t ^ 3 * (1 / 2 - 1 / 2 * mu) * (f2 1) * (f2 11) / (1 - mu ^ 2) + (f0 1) * ((1 / 12) * E * mu * t ^ 3 * (f1 11) /
    (1 - mu ^ 2) + (1 / 12) * E * t ^ 3 * (f0 11) / (1 - mu ^ 2)) + (f1 1) * ((1 / 12) * E * mu * t ^ 3 * (f0 11) / (1 - mu ^ 2) +
    (1 / 12) * E * t ^ 3 * (f1 11) / (1 - mu ^ 2))) * dp

/-- `out[134]`, metaDKQ/wrapped_code_0.c 147 -/
noncomputable def o11_2 (E mu t dp : ℝ) (f0 f1 f2 : Fin 12 → ℝ) : ℝ :=
  ((1 / 12) * E * t ^ 3 * (1 / 2 - 1 / 2 * mu) * (f2 2) * (f2 11) / (1 - mu ^ 2) + (f1 2) * ((1 / 12) * E * mu * t ^ 3 * (f0 11) /
    (1 - mu ^ 2) + (1 / 12) * E * t ^ 3 * (f1 11) / (1 - mu ^ 2)) + (f0 2) * ((1 / 12) * E * mu * t ^ 3 * (f1 11) / (1 - mu ^ 2) +
    (1 / 12) * E * t ^ 3 * (f0 11) / (1 - mu ^ 2))) * dp

/-- `out[135]`, metaDKQ/wrapped_code_0.c 148 -/
noncomputable def o11_3 (E mu t dp : ℝ) (f0 f1 f2 : Fin 12 → ℝ) : ℝ :=
  ((1 / 12) * E * t ^ 3 * (1 / 2 - 1 / 2 * mu) * (f2 3) * (f2 11) / (1 - mu ^ 2) + (f0 3) * ((1 / 12) * E * mu * t ^ 3 * (f1 11) /
    (1 - mu ^ 2) + (1 / 12) * E * t ^ 3 * (f0 11) / (1 - mu ^ 2)) + (f1 3) * ((1 / 12) * E * mu * t ^ 3 * (f0 11) / (1 - mu ^ 2) +
    (1 / 12) * E * t ^ 3 * (f1 11) / (1 - mu ^ 2))) * dp

/-- `out[136]`, metaDKQ/wrapped_code_0.c 149 -/
noncomputable def o11_4 (E mu t dp : ℝ) (f0 f1 f2 : Fin 12 → ℝ) : ℝ :=
  ((1 / 12) * E * t ^ 3 * (1 / 2 - 1 / 2 * mu) * (f2 11) * (f2 4) / (1 - mu ^ 2) + (f0 4) * ((1 / 12) * E * mu * t ^ 3 * (f1 11) /
    (1 - mu ^ 2) + (1 / 12) * E * t ^ 3 * (f0 11) / (1 - mu ^ 2)) + (f1 4) * ((1 / 12) * E * mu * t ^ 3 * (f0 11) / (1 - mu ^ 2) +
    (1 / 12) * E * t ^ 3 * (f1 11) / (1 - mu ^ 2))) * dp

/-- `out[137]`, metaDKQ/wrapped_code_0.c 150 -/
noncomputable def o11_5 (E mu t dp : ℝ) (f0 f1 f2 : Fin 12 → ℝ) : ℝ :=
  ((1 / 12) * E * t ^ 3 * (1 / 2 - 1 / 2 * mu) * (f2 11) * (f2 5) / (1 - mu ^ 2) + (f1 5) * ((1 / 12) * E * mu * t ^ 3 * (f0 11) /
    (1 - mu ^ 2) + (1 / 12) * E * t ^ 3 * (f1 11) / (1 - mu ^ 2)) + (f0 5) * ((1 / 12) * E * mu * t ^ 3 * (f1 11) / (1 - mu ^ 2) +
    (1 / 12) * E * t ^ 3 * (f0 11) / (1 - mu ^ 2))) * dp

/-- `out[138]`, metaDKQ/wrapped_code_0.c 151 -/
noncomputable def o11_6 (E mu t dp : ℝ) (f0 f1 f2 : Fin 12 → ℝ) : ℝ :=
  ((1 / 12) * E * t ^ 3 * (1 / 2 - 1 / 2 * mu) * (f2 6) * (f2 11) / (1 - mu ^ 2) + (f0 6) * ((1 / 12) * E * mu * t ^ 3 * (f1 11) /
    (1 - mu ^ 2) + (1 / 12) * E * t ^ 3 * (f0 11) / (1 - mu ^ 2)) + (f1 6) * ((1 / 12) * E * mu * t ^ 3 * (f0 11) / (1 - mu ^ 2) +
    (1 / 12) * E * t ^ 3 * (f1 11) / (1 - mu ^ 2))) * dp

/-- `out[139]`, metaDKQ/wrapped_code_0.c 152 -/
noncomputable def o11_7 (E mu t dp : ℝ) (f0 f1 f2 : Fin 12 → ℝ) : ℝ :=
  ((1 / 12) * E * t ^ 3 * (1 / 2 - 1 / 2 * mu) * (f2 11) * (f2 7) / (1 - mu ^ 2) + (f0 7) * ((1 / 12) * E * mu * t ^ 3 * (f1 11) /
    (1 - mu ^ 2) + (1 / 12) * E * t ^ 3 * (f0 11) / (1 - mu ^ 2)) + (f1 7) * ((1 / 12) * E * mu * t ^ 3 * (f0 11) / (1 - mu ^ 2) +
    (1 / 12) * E * t ^ 3 * (f1 11) / (1 - mu ^ 2))) * dp

/-- `out[140]`, metaDKQ/wrapped_code_0.c 153 -/
noncomputable def o11_8 (E mu t dp : ℝ) (f0 f1 f2 : Fin 12 → ℝ) : ℝ :=
  ((1 / 12) * E * t ^ 3 * (1 / 2 - 1 / 2 * mu) * (f2 11) * (f2 8) / (1 - mu ^ 2) + (f1 8) * ((1 / 12) * E * mu * t ^ 3 * (f0 11) /
    (1 - mu ^ 2) + (1 / 12) * E * t ^ 3 * (f1 11) / (1 - mu ^ 2)) + (f0 8) * ((1 / 12) * E * mu * t ^ 3 * (f1 11) / (1 - mu ^ 2) +
    (1 / 12) * E * t ^ 3 * (f0 11) / (1 - mu ^ 2))) * dp

/-- `out[141]`, metaDKQ/wrapped_code_0.c 154 -/
noncomputable def o11_9 (E mu t dp : ℝ) (f0 f1 f2 : Fin 12 → ℝ) : ℝ :=
  ((1 / 12) * E * t ^ 3 * (1 / 2 - 1 / 2 * mu) * (f2 9) * (f2 11) / (1 - mu ^ 2) + (f0 9) * ((1 / 12) * E * mu * t ^ 3 * (f1 11) /
    (1 - mu ^ 2) + (1 / 12) * E * t ^ 3 * (f0 11) / (1 - mu ^ 2)) + (f1 9) * ((1 / 12) * E * mu * t ^ 3 * (f0 11) / (1 - mu ^ 2) +
    (1 / 12) * E * t ^ 3 * (f1 11) / (1 - mu ^ 2))) * dp

/-- `out[142]`, metaDKQ/wrapped_code_0.c 155 -/
noncomputable def o11_10 (E mu t dp : ℝ) (f0 f1 f2 : Fin 12 → ℝ) : ℝ :=
  ((1 / 12) * E * t ^ 3 * (1 / 2 - 1 / 2 * mu) * (f2 10) * (f2 11) / (1 - mu ^ 2) + (f0 10) * ((1 / 12) * E * mu * t ^ 3 * (f1 11) /
    (1 - mu ^ 2) + (1 / 12) * E * t ^ 3 * (f0 11) / (1 - mu ^ 2)) + (f1 10) * ((1 / 12) * E * mu * t ^ 3 * (f0 11) / (1 - mu ^ 2)
    + (1 / 12) * E * t ^ 3 * (f1 11) / (1 - mu ^ 2))) * dp

/-- `out[143]`, metaDKQ/wrapped_code_0.c 156 -/
noncomputable def o11_11 (E mu t dp : ℝ) (f0 f1 f2 : Fin 12 → ℝ) : ℝ :=
  ((1 / 12) * E * t ^ 3 * (1 / 2 - 1 / 2 * mu) * (f2 11) ^ 2 / (1 - mu ^ 2) + (f1 11) * ((1 / 12) * E * mu * t ^ 3 * (f0 11) / (1 -
    mu ^ 2) + (1 / 12) * E * t ^ 3 * (f1 11) / (1 - mu ^ 2)) + (f0 11) * ((1 / 12) * E * mu * t ^ 3 * (f1 11) / (1 - mu ^ 2) + (1
    / 12) * E * t ^ 3 * (f0 11) / (1 - mu ^ 2))) * dp

/-- `out[132]` to `out[143]`, metaDKQ/wrapped_code_0.c 145-156 -/
noncomputable def out11 (E mu t dp : ℝ) (f0 f1 f2 : Fin 12 → ℝ) : Fin 12 → ℝ := ![
  o11_0 E mu t dp f0 f1 f2,
  o11_1 E mu t dp f0 f1 f2,
  o11_2 E mu t dp f0 f1 f2,
  o11_3 E mu t dp f0 f1 f2,
  o11_4 E mu t dp f0 f1 f2,
  o11_5 E mu t dp f0 f1 f2,
  o11_6 E mu t dp f0 f1 f2,
  o11_7 E mu t dp f0 f1 f2,
  o11_8 E mu t dp f0 f1 f2,
  o11_9 E mu t dp f0 f1 f2,
  o11_10 E mu t dp f0 f1 f2,
  o11_11 E mu t dp f0 f1 f2]

/-- `autofunc` metaDKQ/wrapped_code_0.c 11-158: what is written to `out[n]`, `n = 12*i+j` -/
noncomputable def out (E mu t xi eta x1 y1 x2 y2 x3 y3 x4 y4 : ℝ) (n : ℕ) : ℝ :=
  let l12 := (x1 - x2) ^ 2 + (y1 - y2) ^ 2
  let l23 := (x2 - x3) ^ 2 + (y2 - y3) ^ 2
  let l34 := (x3 - x4) ^ 2 + (y3 - y4) ^ 2
  let l41 := (-x1 + x4) ^ 2 + (-y1 + y4) ^ 2
  let n21 := 0.25 * x1 + 0.25 * x2 - 0.25 * x3 - 0.25 * x4 - 0.25 * xi * (x1 - x2 + x3 - x4)
  let n22 := 0.25 * xi * (y1 - y2 + y3 - y4) - 0.25 * y1 - 0.25 * y2 + 0.25 * y3 + 0.25 * y4
  let n11 := 0.25 * eta * (x1 - x2 + x3 - x4) - 0.25 * x1 + 0.25 * x2 + 0.25 * x3 - 0.25 * x4
  let n12 := -0.25 * eta * (y1 - y2 + y3 - y4) + 0.25 * y1 - 0.25 * y2 - 0.25 * y3 + 0.25 * y4
  let dj := (1 / 8) * eta * (-(-x1 + x4) * (-y2 + y3) + (-x2 + x3) * (-y1 + y4)) + (1 / 8) * xi * ((-x1 + x2) * (y3 - y4) - (x3 - x4) * (-y1 +
    y2)) + 0.125 * (-x1 + x3) * (-y2 + y4) - 0.125 * (-x2 + x4) * (-y1 + y3)
  let dp := -0.125 * eta * x1 * y2 + 0.125 * eta * x1 * y3 + 0.125 * eta * x2 * y1 - 0.125 * eta * x2 * y4 - 0.125 * eta * x3 * y1 + 0.125 *
    eta * x3 * y4 + 0.125 * eta * x4 * y2 - 0.125 * eta * x4 * y3 - 0.125 * x1 * xi * y3 + 0.125 * x1 * xi * y4 + 0.125 * x1 * y2
    - 0.125 * x1 * y4 + 0.125 * x2 * xi * y3 - 0.125 * x2 * xi * y4 - 0.125 * x2 * y1 + 0.125 * x2 * y3 + 0.125 * x3 * xi * y1 -
    0.125 * x3 * xi * y2 - 0.125 * x3 * y2 + 0.125 * x3 * y4 - 0.125 * x4 * xi * y1 + 0.125 * x4 * xi * y2 + 0.125 * x4 * y1 -
    0.125 * x4 * y3
  let f0 := row0 dj n11 n12 n21 n22 l12 l23 l34 l41 xi eta x1 x2 x3 x4 y1 y2 y3 y4
  let f1 := row1 dj n11 n12 n21 n22 l12 l23 l34 l41 xi eta x1 x2 x3 x4 y1 y2 y3 y4
  let f2 := row2 dj n11 n12 n21 n22 l12 l23 l34 l41 xi eta x1 x2 x3 x4 y1 y2 y3 y4
  (![out0 E mu t dp f0 f1 f2, out1 E mu t dp f0 f1 f2, out2 E mu t dp f0 f1 f2, out3 E mu t dp f0 f1 f2,
    out4 E mu t dp f0 f1 f2, out5 E mu t dp f0 f1 f2, out6 E mu t dp f0 f1 f2, out7 E mu t dp f0 f1 f2,
    out8 E mu t dp f0 f1 f2, out9 E mu t dp f0 f1 f2, out10 E mu t dp f0 f1 f2, out11 E mu t dp f0 f1 f2] : Fin 12 → Fin 12 → ℝ)
    (Fin.ofNat 12 (n / 12)) (Fin.ofNat 12 n)

/-- `autofunc_c` metaDKQ.pyx 7-11, called with the coordinates in the order `x1,y1,x2,y2,...` (DKGQ.py 47): a 12 by 12 array, filled by rows -/
noncomputable def autofunc_c (E mu t : ℝ) (x y : Fin 4 → ℝ) (ξ η : ℝ) : Matrix (Fin 4 × Fin 3) (Fin 4 × Fin 3) ℝ := fun k l =>
  out E mu t ξ η (x 0) (y 0) (x 1) (y 1) (x 2) (y 2) (x 3) (y 3) (12 * (3 * k.1.val + k.2.val) + (3 * l.1.val + l.2.val))

end DKQText

end Hyperstatic
