import Verif.Model.ThickPlate

/-
Model of a compiled routine of the thick plate, its shear part: the C text in hyperstatic/core/fe_model/meta/plates/TMQ/wrapped_code_1.c and the Cython
wrapper metaTMQs.pyx.

The C expressions are copied mechanically: `pow(a, n)` is written `a ^ n`, `1.0` is written `1`, doubles are real numbers; the doubles
0.83333333333333337 and 0.41666666666666669, nearest to 5/6 and 5/12, are written as these fractions (the definition has `5/6`, which
Python rounds to the same double).  Expressions that occur again and again (strains, divisors, the determinant) are named; everything else
is as it stands there.
-/

namespace Hyperstatic
open Matrix

namespace TMQsText

/-- the expression that stands for entry (0, 0) of the strain matrix; wherever it occurs in TMQ/wrapped_code_1.c 13-156 -/
noncomputable def num0_0 (q1 q2 _q3 q4 l12 _l23 _l34 l41 w12 _w23 _w34 w41 t xi eta _x1 _x2 _x3 _x4 y1 y2 y3 y4 : ℝ) : ℝ :=
  2 * t ^ 2 * ((0.25 - 0.25 * xi) * (1 - eta) * (-y1 + y2) / q1 + (0.25 - 0.25 * xi) * (eta + 1) * (y3 - y4) / q4) / (l41 * w41) - 2
    * t ^ 2 * ((0.25 - 0.25 * xi) * (1 - eta) * (-y1 + y4) / q1 + (1 - eta) * (0.25 * xi + 0.25) * (-y2 + y3) / q2) / (l12 * w12)

/-- the expression that stands for entry (0, 1) of the strain matrix; wherever it occurs in TMQ/wrapped_code_1.c 13-156 -/
noncomputable def num0_1 (q1 q2 _q3 q4 l12 _l23 _l34 l41 w12 _w23 _w34 w41 t xi eta x1 x2 _x3 x4 y1 y2 y3 y4 : ℝ) : ℝ :=
  t ^ 2 * (-x1 + x4) * ((0.25 - 0.25 * xi) * (1 - eta) * (-y1 + y2) / q1 + (0.25 - 0.25 * xi) * (eta + 1) * (y3 - y4) / q4) / (l41 *
    w41) + t ^ 2 * (x1 - x2) * ((0.25 - 0.25 * xi) * (1 - eta) * (-y1 + y4) / q1 + (1 - eta) * (0.25 * xi + 0.25) * (-y2 + y3) /
    q2) / (l12 * w12)

/-- the expression that stands for entry (0, 2) of the strain matrix; wherever it occurs in TMQ/wrapped_code_1.c 13-156 -/
noncomputable def num0_2 (q1 q2 _q3 q4 l12 _l23 _l34 l41 w12 _w23 _w34 w41 t xi eta _x1 _x2 _x3 _x4 y1 y2 y3 y4 : ℝ) : ℝ :=
  t ^ 2 * (-y1 + y4) * ((0.25 - 0.25 * xi) * (1 - eta) * (-y1 + y2) / q1 + (0.25 - 0.25 * xi) * (eta + 1) * (y3 - y4) / q4) / (l41 *
    w41) + t ^ 2 * (y1 - y2) * ((0.25 - 0.25 * xi) * (1 - eta) * (-y1 + y4) / q1 + (1 - eta) * (0.25 * xi + 0.25) * (-y2 + y3) /
    q2) / (l12 * w12)

/-- the expression that stands for entry (0, 3) of the strain matrix; wherever it occurs in TMQ/wrapped_code_1.c 13-156 -/
noncomputable def num0_3 (q1 q2 q3 _q4 l12 l23 _l34 _l41 w12 w23 _w34 _w41 t xi eta _x1 _x2 _x3 _x4 y1 y2 y3 y4 : ℝ) : ℝ :=
  2 * t ^ 2 * ((0.25 - 0.25 * xi) * (1 - eta) * (-y1 + y4) / q1 + (1 - eta) * (0.25 * xi + 0.25) * (-y2 + y3) / q2) / (l12 * w12) -
    2 * t ^ 2 * ((1 - eta) * (0.25 * xi + 0.25) * (y1 - y2) / q2 + (eta + 1) * (0.25 * xi + 0.25) * (-y3 + y4) / q3) / (l23 * w23)

/-- the expression that stands for entry (0, 4) of the strain matrix; wherever it occurs in TMQ/wrapped_code_1.c 13-156 -/
noncomputable def num0_4 (q1 q2 q3 _q4 l12 l23 _l34 _l41 w12 w23 _w34 _w41 t xi eta x1 x2 x3 _x4 y1 y2 y3 y4 : ℝ) : ℝ :=
  t ^ 2 * (x1 - x2) * ((0.25 - 0.25 * xi) * (1 - eta) * (-y1 + y4) / q1 + (1 - eta) * (0.25 * xi + 0.25) * (-y2 + y3) / q2) / (l12 *
    w12) + t ^ 2 * (x2 - x3) * ((1 - eta) * (0.25 * xi + 0.25) * (y1 - y2) / q2 + (eta + 1) * (0.25 * xi + 0.25) * (-y3 + y4) /
    q3) / (l23 * w23)

/-- the expression that stands for entry (0, 5) of the strain matrix; wherever it occurs in TMQ/wrapped_code_1.c 13-156 -/
noncomputable def num0_5 (q1 q2 q3 _q4 l12 l23 _l34 _l41 w12 w23 _w34 _w41 t xi eta _x1 _x2 _x3 _x4 y1 y2 y3 y4 : ℝ) : ℝ :=
  t ^ 2 * (y1 - y2) * ((0.25 - 0.25 * xi) * (1 - eta) * (-y1 + y4) / q1 + (1 - eta) * (0.25 * xi + 0.25) * (-y2 + y3) / q2) / (l12 *
    w12) + t ^ 2 * (y2 - y3) * ((1 - eta) * (0.25 * xi + 0.25) * (y1 - y2) / q2 + (eta + 1) * (0.25 * xi + 0.25) * (-y3 + y4) /
    q3) / (l23 * w23)

/-- the expression that stands for entry (0, 6) of the strain matrix; wherever it occurs in TMQ/wrapped_code_1.c 13-156 -/
noncomputable def num0_6 (_q1 q2 q3 q4 _l12 l23 l34 _l41 _w12 w23 w34 _w41 t xi eta _x1 _x2 _x3 _x4 y1 y2 y3 y4 : ℝ) : ℝ :=
  -2 * t ^ 2 * ((0.25 - 0.25 * xi) * (eta + 1) * (y1 - y4) / q4 + (eta + 1) * (0.25 * xi + 0.25) * (y2 - y3) / q3) / (l34 * w34) + 2
    * t ^ 2 * ((1 - eta) * (0.25 * xi + 0.25) * (y1 - y2) / q2 + (eta + 1) * (0.25 * xi + 0.25) * (-y3 + y4) / q3) / (l23 * w23)

/-- the expression that stands for entry (0, 7) of the strain matrix; wherever it occurs in TMQ/wrapped_code_1.c 13-156 -/
noncomputable def num0_7 (_q1 q2 q3 q4 _l12 l23 l34 _l41 _w12 w23 w34 _w41 t xi eta _x1 x2 x3 x4 y1 y2 y3 y4 : ℝ) : ℝ :=
  t ^ 2 * (x2 - x3) * ((1 - eta) * (0.25 * xi + 0.25) * (y1 - y2) / q2 + (eta + 1) * (0.25 * xi + 0.25) * (-y3 + y4) / q3) / (l23 *
    w23) + t ^ 2 * (x3 - x4) * ((0.25 - 0.25 * xi) * (eta + 1) * (y1 - y4) / q4 + (eta + 1) * (0.25 * xi + 0.25) * (y2 - y3) / q3)
    / (l34 * w34)

/-- the expression that stands for entry (0, 8) of the strain matrix; wherever it occurs in TMQ/wrapped_code_1.c 13-156 -/
noncomputable def num0_8 (_q1 q2 q3 q4 _l12 l23 l34 _l41 _w12 w23 w34 _w41 t xi eta _x1 _x2 _x3 _x4 y1 y2 y3 y4 : ℝ) : ℝ :=
  t ^ 2 * (y2 - y3) * ((1 - eta) * (0.25 * xi + 0.25) * (y1 - y2) / q2 + (eta + 1) * (0.25 * xi + 0.25) * (-y3 + y4) / q3) / (l23 *
    w23) + t ^ 2 * (y3 - y4) * ((0.25 - 0.25 * xi) * (eta + 1) * (y1 - y4) / q4 + (eta + 1) * (0.25 * xi + 0.25) * (y2 - y3) / q3)
    / (l34 * w34)

/-- the expression that stands for entry (0, 9) of the strain matrix; wherever it occurs in TMQ/wrapped_code_1.c 13-156 -/
noncomputable def num0_9 (q1 _q2 q3 q4 _l12 _l23 l34 l41 _w12 _w23 w34 w41 t xi eta _x1 _x2 _x3 _x4 y1 y2 y3 y4 : ℝ) : ℝ :=
  -2 * t ^ 2 * ((0.25 - 0.25 * xi) * (1 - eta) * (-y1 + y2) / q1 + (0.25 - 0.25 * xi) * (eta + 1) * (y3 - y4) / q4) / (l41 * w41) +
    2 * t ^ 2 * ((0.25 - 0.25 * xi) * (eta + 1) * (y1 - y4) / q4 + (eta + 1) * (0.25 * xi + 0.25) * (y2 - y3) / q3) / (l34 * w34)

/-- the expression that stands for entry (0, 10) of the strain matrix; wherever it occurs in TMQ/wrapped_code_1.c 13-156 -/
noncomputable def num0_10 (q1 _q2 q3 q4 _l12 _l23 l34 l41 _w12 _w23 w34 w41 t xi eta x1 _x2 x3 x4 y1 y2 y3 y4 : ℝ) : ℝ :=
  t ^ 2 * (-x1 + x4) * ((0.25 - 0.25 * xi) * (1 - eta) * (-y1 + y2) / q1 + (0.25 - 0.25 * xi) * (eta + 1) * (y3 - y4) / q4) / (l41 *
    w41) + t ^ 2 * (x3 - x4) * ((0.25 - 0.25 * xi) * (eta + 1) * (y1 - y4) / q4 + (eta + 1) * (0.25 * xi + 0.25) * (y2 - y3) / q3)
    / (l34 * w34)

/-- the expression that stands for entry (0, 11) of the strain matrix; wherever it occurs in TMQ/wrapped_code_1.c 13-156 -/
noncomputable def num0_11 (q1 _q2 q3 q4 _l12 _l23 l34 l41 _w12 _w23 w34 w41 t xi eta _x1 _x2 _x3 _x4 y1 y2 y3 y4 : ℝ) : ℝ :=
  t ^ 2 * (-y1 + y4) * ((0.25 - 0.25 * xi) * (1 - eta) * (-y1 + y2) / q1 + (0.25 - 0.25 * xi) * (eta + 1) * (y3 - y4) / q4) / (l41 *
    w41) + t ^ 2 * (y3 - y4) * ((0.25 - 0.25 * xi) * (eta + 1) * (y1 - y4) / q4 + (eta + 1) * (0.25 * xi + 0.25) * (y2 - y3) / q3)
    / (l34 * w34)

/-- the expression that stands for entry (1, 0) of the strain matrix; wherever it occurs in TMQ/wrapped_code_1.c 13-156 -/
noncomputable def num1_0 (q1 q2 _q3 q4 l12 _l23 _l34 l41 w12 _w23 _w34 w41 t xi eta x1 x2 x3 x4 _y1 _y2 _y3 _y4 : ℝ) : ℝ :=
  2 * t ^ 2 * ((0.25 - 0.25 * xi) * (1 - eta) * (x1 - x2) / q1 + (0.25 - 0.25 * xi) * (eta + 1) * (-x3 + x4) / q4) / (l41 * w41) - 2
    * t ^ 2 * ((0.25 - 0.25 * xi) * (1 - eta) * (x1 - x4) / q1 + (1 - eta) * (x2 - x3) * (0.25 * xi + 0.25) / q2) / (l12 * w12)

/-- the expression that stands for entry (1, 1) of the strain matrix; wherever it occurs in TMQ/wrapped_code_1.c 13-156 -/
noncomputable def num1_1 (q1 q2 _q3 q4 l12 _l23 _l34 l41 w12 _w23 _w34 w41 t xi eta x1 x2 x3 x4 _y1 _y2 _y3 _y4 : ℝ) : ℝ :=
  t ^ 2 * (-x1 + x4) * ((0.25 - 0.25 * xi) * (1 - eta) * (x1 - x2) / q1 + (0.25 - 0.25 * xi) * (eta + 1) * (-x3 + x4) / q4) / (l41 *
    w41) + t ^ 2 * (x1 - x2) * ((0.25 - 0.25 * xi) * (1 - eta) * (x1 - x4) / q1 + (1 - eta) * (x2 - x3) * (0.25 * xi + 0.25) / q2)
    / (l12 * w12)

/-- the expression that stands for entry (1, 2) of the strain matrix; wherever it occurs in TMQ/wrapped_code_1.c 13-156 -/
noncomputable def num1_2 (q1 q2 _q3 q4 l12 _l23 _l34 l41 w12 _w23 _w34 w41 t xi eta x1 x2 x3 x4 y1 y2 _y3 y4 : ℝ) : ℝ :=
  t ^ 2 * (-y1 + y4) * ((0.25 - 0.25 * xi) * (1 - eta) * (x1 - x2) / q1 + (0.25 - 0.25 * xi) * (eta + 1) * (-x3 + x4) / q4) / (l41 *
    w41) + t ^ 2 * (y1 - y2) * ((0.25 - 0.25 * xi) * (1 - eta) * (x1 - x4) / q1 + (1 - eta) * (x2 - x3) * (0.25 * xi + 0.25) / q2)
    / (l12 * w12)

/-- the expression that stands for entry (1, 3) of the strain matrix; wherever it occurs in TMQ/wrapped_code_1.c 13-156 -/
noncomputable def num1_3 (q1 q2 q3 _q4 l12 l23 _l34 _l41 w12 w23 _w34 _w41 t xi eta x1 x2 x3 x4 _y1 _y2 _y3 _y4 : ℝ) : ℝ :=
  2 * t ^ 2 * ((0.25 - 0.25 * xi) * (1 - eta) * (x1 - x4) / q1 + (1 - eta) * (x2 - x3) * (0.25 * xi + 0.25) / q2) / (l12 * w12) - 2
    * t ^ 2 * ((1 - eta) * (-x1 + x2) * (0.25 * xi + 0.25) / q2 + (eta + 1) * (x3 - x4) * (0.25 * xi + 0.25) / q3) / (l23 * w23)

/-- the expression that stands for entry (1, 4) of the strain matrix; wherever it occurs in TMQ/wrapped_code_1.c 13-156 -/
noncomputable def num1_4 (q1 q2 q3 _q4 l12 l23 _l34 _l41 w12 w23 _w34 _w41 t xi eta x1 x2 x3 x4 _y1 _y2 _y3 _y4 : ℝ) : ℝ :=
  t ^ 2 * (x1 - x2) * ((0.25 - 0.25 * xi) * (1 - eta) * (x1 - x4) / q1 + (1 - eta) * (x2 - x3) * (0.25 * xi + 0.25) / q2) / (l12 *
    w12) + t ^ 2 * (x2 - x3) * ((1 - eta) * (-x1 + x2) * (0.25 * xi + 0.25) / q2 + (eta + 1) * (x3 - x4) * (0.25 * xi + 0.25) /
    q3) / (l23 * w23)

/-- the expression that stands for entry (1, 5) of the strain matrix; wherever it occurs in TMQ/wrapped_code_1.c 13-156 -/
noncomputable def num1_5 (q1 q2 q3 _q4 l12 l23 _l34 _l41 w12 w23 _w34 _w41 t xi eta x1 x2 x3 x4 y1 y2 y3 _y4 : ℝ) : ℝ :=
  t ^ 2 * (y1 - y2) * ((0.25 - 0.25 * xi) * (1 - eta) * (x1 - x4) / q1 + (1 - eta) * (x2 - x3) * (0.25 * xi + 0.25) / q2) / (l12 *
    w12) + t ^ 2 * (y2 - y3) * ((1 - eta) * (-x1 + x2) * (0.25 * xi + 0.25) / q2 + (eta + 1) * (x3 - x4) * (0.25 * xi + 0.25) /
    q3) / (l23 * w23)

/-- the expression that stands for entry (1, 6) of the strain matrix; wherever it occurs in TMQ/wrapped_code_1.c 13-156 -/
noncomputable def num1_6 (_q1 q2 q3 q4 _l12 l23 l34 _l41 _w12 w23 w34 _w41 t xi eta x1 x2 x3 x4 _y1 _y2 _y3 _y4 : ℝ) : ℝ :=
  -2 * t ^ 2 * ((0.25 - 0.25 * xi) * (eta + 1) * (-x1 + x4) / q4 + (eta + 1) * (-x2 + x3) * (0.25 * xi + 0.25) / q3) / (l34 * w34) +
    2 * t ^ 2 * ((1 - eta) * (-x1 + x2) * (0.25 * xi + 0.25) / q2 + (eta + 1) * (x3 - x4) * (0.25 * xi + 0.25) / q3) / (l23 * w23)

/-- the expression that stands for entry (1, 7) of the strain matrix; wherever it occurs in TMQ/wrapped_code_1.c 13-156 -/
noncomputable def num1_7 (_q1 q2 q3 q4 _l12 l23 l34 _l41 _w12 w23 w34 _w41 t xi eta x1 x2 x3 x4 _y1 _y2 _y3 _y4 : ℝ) : ℝ :=
  t ^ 2 * (x2 - x3) * ((1 - eta) * (-x1 + x2) * (0.25 * xi + 0.25) / q2 + (eta + 1) * (x3 - x4) * (0.25 * xi + 0.25) / q3) / (l23 *
    w23) + t ^ 2 * (x3 - x4) * ((0.25 - 0.25 * xi) * (eta + 1) * (-x1 + x4) / q4 + (eta + 1) * (-x2 + x3) * (0.25 * xi + 0.25) /
    q3) / (l34 * w34)

/-- the expression that stands for entry (1, 8) of the strain matrix; wherever it occurs in TMQ/wrapped_code_1.c 13-156 -/
noncomputable def num1_8 (_q1 q2 q3 q4 _l12 l23 l34 _l41 _w12 w23 w34 _w41 t xi eta x1 x2 x3 x4 _y1 y2 y3 y4 : ℝ) : ℝ :=
  t ^ 2 * (y2 - y3) * ((1 - eta) * (-x1 + x2) * (0.25 * xi + 0.25) / q2 + (eta + 1) * (x3 - x4) * (0.25 * xi + 0.25) / q3) / (l23 *
    w23) + t ^ 2 * (y3 - y4) * ((0.25 - 0.25 * xi) * (eta + 1) * (-x1 + x4) / q4 + (eta + 1) * (-x2 + x3) * (0.25 * xi + 0.25) /
    q3) / (l34 * w34)

/-- the expression that stands for entry (1, 9) of the strain matrix; wherever it occurs in TMQ/wrapped_code_1.c 13-156 -/
noncomputable def num1_9 (q1 _q2 q3 q4 _l12 _l23 l34 l41 _w12 _w23 w34 w41 t xi eta x1 x2 x3 x4 _y1 _y2 _y3 _y4 : ℝ) : ℝ :=
  -2 * t ^ 2 * ((0.25 - 0.25 * xi) * (1 - eta) * (x1 - x2) / q1 + (0.25 - 0.25 * xi) * (eta + 1) * (-x3 + x4) / q4) / (l41 * w41) +
    2 * t ^ 2 * ((0.25 - 0.25 * xi) * (eta + 1) * (-x1 + x4) / q4 + (eta + 1) * (-x2 + x3) * (0.25 * xi + 0.25) / q3) / (l34 *
    w34)

/-- the expression that stands for entry (1, 10) of the strain matrix; wherever it occurs in TMQ/wrapped_code_1.c 13-156 -/
noncomputable def num1_10 (q1 _q2 q3 q4 _l12 _l23 l34 l41 _w12 _w23 w34 w41 t xi eta x1 x2 x3 x4 _y1 _y2 _y3 _y4 : ℝ) : ℝ :=
  t ^ 2 * (-x1 + x4) * ((0.25 - 0.25 * xi) * (1 - eta) * (x1 - x2) / q1 + (0.25 - 0.25 * xi) * (eta + 1) * (-x3 + x4) / q4) / (l41 *
    w41) + t ^ 2 * (x3 - x4) * ((0.25 - 0.25 * xi) * (eta + 1) * (-x1 + x4) / q4 + (eta + 1) * (-x2 + x3) * (0.25 * xi + 0.25) /
    q3) / (l34 * w34)

/-- the expression that stands for entry (1, 11) of the strain matrix; wherever it occurs in TMQ/wrapped_code_1.c 13-156 -/
noncomputable def num1_11 (q1 _q2 q3 q4 _l12 _l23 l34 l41 _w12 _w23 w34 w41 t xi eta x1 x2 x3 x4 y1 _y2 y3 y4 : ℝ) : ℝ :=
  t ^ 2 * (-y1 + y4) * ((0.25 - 0.25 * xi) * (1 - eta) * (x1 - x2) / q1 + (0.25 - 0.25 * xi) * (eta + 1) * (-x3 + x4) / q4) / (l41 *
    w41) + t ^ 2 * (y3 - y4) * ((0.25 - 0.25 * xi) * (eta + 1) * (-x1 + x4) / q4 + (eta + 1) * (-x2 + x3) * (0.25 * xi + 0.25) /
    q3) / (l34 * w34)

/-- the expressions of row 0; TMQ/wrapped_code_1.c 13-156 -/
noncomputable def row0 (q1 q2 q3 q4 l12 l23 l34 l41 w12 w23 w34 w41 t xi eta x1 x2 x3 x4 y1 y2 y3 y4 : ℝ) : Fin 12 → ℝ := ![
  num0_0 q1 q2 q3 q4 l12 l23 l34 l41 w12 w23 w34 w41 t xi eta x1 x2 x3 x4 y1 y2 y3 y4,
  num0_1 q1 q2 q3 q4 l12 l23 l34 l41 w12 w23 w34 w41 t xi eta x1 x2 x3 x4 y1 y2 y3 y4,
  num0_2 q1 q2 q3 q4 l12 l23 l34 l41 w12 w23 w34 w41 t xi eta x1 x2 x3 x4 y1 y2 y3 y4,
  num0_3 q1 q2 q3 q4 l12 l23 l34 l41 w12 w23 w34 w41 t xi eta x1 x2 x3 x4 y1 y2 y3 y4,
  num0_4 q1 q2 q3 q4 l12 l23 l34 l41 w12 w23 w34 w41 t xi eta x1 x2 x3 x4 y1 y2 y3 y4,
  num0_5 q1 q2 q3 q4 l12 l23 l34 l41 w12 w23 w34 w41 t xi eta x1 x2 x3 x4 y1 y2 y3 y4,
  num0_6 q1 q2 q3 q4 l12 l23 l34 l41 w12 w23 w34 w41 t xi eta x1 x2 x3 x4 y1 y2 y3 y4,
  num0_7 q1 q2 q3 q4 l12 l23 l34 l41 w12 w23 w34 w41 t xi eta x1 x2 x3 x4 y1 y2 y3 y4,
  num0_8 q1 q2 q3 q4 l12 l23 l34 l41 w12 w23 w34 w41 t xi eta x1 x2 x3 x4 y1 y2 y3 y4,
  num0_9 q1 q2 q3 q4 l12 l23 l34 l41 w12 w23 w34 w41 t xi eta x1 x2 x3 x4 y1 y2 y3 y4,
  num0_10 q1 q2 q3 q4 l12 l23 l34 l41 w12 w23 w34 w41 t xi eta x1 x2 x3 x4 y1 y2 y3 y4,
  num0_11 q1 q2 q3 q4 l12 l23 l34 l41 w12 w23 w34 w41 t xi eta x1 x2 x3 x4 y1 y2 y3 y4]

/-- the expressions of row 1; TMQ/wrapped_code_1.c 13-156 -/
noncomputable def row1 (q1 q2 q3 q4 l12 l23 l34 l41 w12 w23 w34 w41 t xi eta x1 x2 x3 x4 y1 y2 y3 y4 : ℝ) : Fin 12 → ℝ := ![
  num1_0 q1 q2 q3 q4 l12 l23 l34 l41 w12 w23 w34 w41 t xi eta x1 x2 x3 x4 y1 y2 y3 y4,
  num1_1 q1 q2 q3 q4 l12 l23 l34 l41 w12 w23 w34 w41 t xi eta x1 x2 x3 x4 y1 y2 y3 y4,
  num1_2 q1 q2 q3 q4 l12 l23 l34 l41 w12 w23 w34 w41 t xi eta x1 x2 x3 x4 y1 y2 y3 y4,
  num1_3 q1 q2 q3 q4 l12 l23 l34 l41 w12 w23 w34 w41 t xi eta x1 x2 x3 x4 y1 y2 y3 y4,
  num1_4 q1 q2 q3 q4 l12 l23 l34 l41 w12 w23 w34 w41 t xi eta x1 x2 x3 x4 y1 y2 y3 y4,
  num1_5 q1 q2 q3 q4 l12 l23 l34 l41 w12 w23 w34 w41 t xi eta x1 x2 x3 x4 y1 y2 y3 y4,
  num1_6 q1 q2 q3 q4 l12 l23 l34 l41 w12 w23 w34 w41 t xi eta x1 x2 x3 x4 y1 y2 y3 y4,
  num1_7 q1 q2 q3 q4 l12 l23 l34 l41 w12 w23 w34 w41 t xi eta x1 x2 x3 x4 y1 y2 y3 y4,
  num1_8 q1 q2 q3 q4 l12 l23 l34 l41 w12 w23 w34 w41 t xi eta x1 x2 x3 x4 y1 y2 y3 y4,
  num1_9 q1 q2 q3 q4 l12 l23 l34 l41 w12 w23 w34 w41 t xi eta x1 x2 x3 x4 y1 y2 y3 y4,
  num1_10 q1 q2 q3 q4 l12 l23 l34 l41 w12 w23 w34 w41 t xi eta x1 x2 x3 x4 y1 y2 y3 y4,
  num1_11 q1 q2 q3 q4 l12 l23 l34 l41 w12 w23 w34 w41 t xi eta x1 x2 x3 x4 y1 y2 y3 y4]

/-- `out[0]`, TMQ/wrapped_code_1.c 13 -/
noncomputable def o0_0 (E mu t dp : ℝ) (f0 f1 : Fin 12 → ℝ) : ℝ :=
  ((5 / 12) * E * t * (f1 0) ^ 2 / (mu + 1) + (5 / 12) * E * t * (f0 0) ^ 2 / (mu + 1)) * dp

/-- `out[1]`, TMQ/wrapped_code_1.c 14 -/
noncomputable def o0_1 (E mu t dp : ℝ) (f0 f1 : Fin 12 → ℝ) : ℝ :=
  ((5 / 12) * E * t * (f1 0) * (f1 1) / (mu + 1) + (5 / 12) * E * t * (f0 0) * (f0 1) / (mu + 1)) * dp

/-- `out[2]`, TMQ/wrapped_code_1.c 15 -/
noncomputable def o0_2 (E mu t dp : ℝ) (f0 f1 : Fin 12 → ℝ) : ℝ :=
  ((5 / 12) * E * t * (f1 0) * (f1 2) / (mu + 1) + (5 / 12) * E * t * (f0 0) * (f0 2) / (mu + 1)) * dp

/-- `out[3]`, TMQ/wrapped_code_1.c 16 -/
noncomputable def o0_3 (E mu t dp : ℝ) (f0 f1 : Fin 12 → ℝ) : ℝ :=
  ((5 / 12) * E * t * (f1 0) * (f1 3) / (mu + 1) + (5 / 12) * E * t * (f0 0) * (f0 3) / (mu + 1)) * dp

/-- `out[4]`, TMQ/wrapped_code_1.c 17 -/
noncomputable def o0_4 (E mu t dp : ℝ) (f0 f1 : Fin 12 → ℝ) : ℝ :=
  ((5 / 12) * E * t * (f1 0) * (f1 4) / (mu + 1) + (5 / 12) * E * t * (f0 0) * (f0 4) / (mu + 1)) * dp

/-- `out[5]`, TMQ/wrapped_code_1.c 18 -/
noncomputable def o0_5 (E mu t dp : ℝ) (f0 f1 : Fin 12 → ℝ) : ℝ :=
  ((5 / 12) * E * t * (f1 0) * (f1 5) / (mu + 1) + (5 / 12) * E * t * (f0 0) * (f0 5) / (mu + 1)) * dp

/-- `out[6]`, TMQ/wrapped_code_1.c 19 -/
noncomputable def o0_6 (E mu t dp : ℝ) (f0 f1 : Fin 12 → ℝ) : ℝ :=
  ((5 / 12) * E * t * (f1 0) * (f1 6) / (mu + 1) + (5 / 12) * E * t * (f0 0) * (f0 6) / (mu + 1)) * dp

/-- `out[7]`, TMQ/wrapped_code_1.c 20 -/
noncomputable def o0_7 (E mu t dp : ℝ) (f0 f1 : Fin 12 → ℝ) : ℝ :=
  ((5 / 12) * E * t * (f1 0) * (f1 7) / (mu + 1) + (5 / 12) * E * t * (f0 0) * (f0 7) / (mu + 1)) * dp

/-- `out[8]`, TMQ/wrapped_code_1.c 21 -/
noncomputable def o0_8 (E mu t dp : ℝ) (f0 f1 : Fin 12 → ℝ) : ℝ :=
  ((5 / 12) * E * t * (f1 0) * (f1 8) / (mu + 1) + (5 / 12) * E * t * (f0 0) * (f0 8) / (mu + 1)) * dp

/-- `out[9]`, TMQ/wrapped_code_1.c 22 -/
noncomputable def o0_9 (E mu t dp : ℝ) (f0 f1 : Fin 12 → ℝ) : ℝ :=
  ((5 / 12) * E * t * (f1 9) * (f1 0) / (mu + 1) + (5 / 12) * E * t * (f0 9) * (f0 0) / (mu + 1)) * dp

/-- `out[10]`, TMQ/wrapped_code_1.c 23 -/
noncomputable def o0_10 (E mu t dp : ℝ) (f0 f1 : Fin 12 → ℝ) : ℝ :=
  ((5 / 12) * E * t * (f1 0) * (f1 10) / (mu + 1) + (5 / 12) * E * t * (f0 0) * (f0 10) / (mu + 1)) * dp

/-- `out[11]`, TMQ/wrapped_code_1.c 24 -/
noncomputable def o0_11 (E mu t dp : ℝ) (f0 f1 : Fin 12 → ℝ) : ℝ :=
  ((5 / 12) * E * t * (f1 0) * (f1 11) / (mu + 1) + (5 / 12) * E * t * (f0 0) * (f0 11) / (mu + 1)) * dp

/-- `out[0]` to `out[11]`, TMQ/wrapped_code_1.c 13-24 -/
noncomputable def out0 (E mu t dp : ℝ) (f0 f1 : Fin 12 → ℝ) : Fin 12 → ℝ := ![
  o0_0 E mu t dp f0 f1,
  o0_1 E mu t dp f0 f1,
  o0_2 E mu t dp f0 f1,
  o0_3 E mu t dp f0 f1,
  o0_4 E mu t dp f0 f1,
  o0_5 E mu t dp f0 f1,
  o0_6 E mu t dp f0 f1,
  o0_7 E mu t dp f0 f1,
  o0_8 E mu t dp f0 f1,
  o0_9 E mu t dp f0 f1,
  o0_10 E mu t dp f0 f1,
  o0_11 E mu t dp f0 f1]

/-- `out[12]`, TMQ/wrapped_code_1.c 25 -/
noncomputable def o1_0 (E mu t dp : ℝ) (f0 f1 : Fin 12 → ℝ) : ℝ :=
  ((5 / 12) * E * t * (f1 0) * (f1 1) / (mu + 1) + (5 / 12) * E * t * (f0 0) * (f0 1) / (mu + 1)) * dp

/-- `out[13]`, TMQ/wrapped_code_1.c 26 -/
noncomputable def o1_1 (E mu t dp : ℝ) (f0 f1 : Fin 12 → ℝ) : ℝ :=
  ((5 / 12) * E * t * (f1 1) ^ 2 / (mu + 1) + (5 / 12) * E * t * (f0 1) ^ 2 / (mu + 1)) * dp

/-- `out[14]`, TMQ/wrapped_code_1.c 27 -/
noncomputable def o1_2 (E mu t dp : ℝ) (f0 f1 : Fin 12 → ℝ) : ℝ :=
  ((5 / 12) * E * t * (f1 1) * (f1 2) / (mu + 1) + (5 / 12) * E * t * (f0 1) * (f0 2) / (mu + 1)) * dp

/-- `out[15]`, TMQ/wrapped_code_1.c 28 -/
noncomputable def o1_3 (E mu t dp : ℝ) (f0 f1 : Fin 12 → ℝ) : ℝ :=
  ((5 / 12) * E * t * (f1 3) * (f1 1) / (mu + 1) + (5 / 12) * E * t * (f0 3) * (f0 1) / (mu + 1)) * dp

/-- `out[16]`, TMQ/wrapped_code_1.c 29 -/
noncomputable def o1_4 (E mu t dp : ℝ) (f0 f1 : Fin 12 → ℝ) : ℝ :=
  ((5 / 12) * E * t * (f1 1) * (f1 4) / (mu + 1) + (5 / 12) * E * t * (f0 1) * (f0 4) / (mu + 1)) * dp

/-- `out[17]`, TMQ/wrapped_code_1.c 30 -/
noncomputable def o1_5 (E mu t dp : ℝ) (f0 f1 : Fin 12 → ℝ) : ℝ :=
  ((5 / 12) * E * t * (f1 1) * (f1 5) / (mu + 1) + (5 / 12) * E * t * (f0 1) * (f0 5) / (mu + 1)) * dp

/-- `out[18]`, TMQ/wrapped_code_1.c 31 -/
noncomputable def o1_6 (E mu t dp : ℝ) (f0 f1 : Fin 12 → ℝ) : ℝ :=
  ((5 / 12) * E * t * (f1 6) * (f1 1) / (mu + 1) + (5 / 12) * E * t * (f0 6) * (f0 1) / (mu + 1)) * dp

/-- `out[19]`, TMQ/wrapped_code_1.c 32 -/
noncomputable def o1_7 (E mu t dp : ℝ) (f0 f1 : Fin 12 → ℝ) : ℝ :=
  ((5 / 12) * E * t * (f1 1) * (f1 7) / (mu + 1) + (5 / 12) * E * t * (f0 1) * (f0 7) / (mu + 1)) * dp

/-- `out[20]`, TMQ/wrapped_code_1.c 33 -/
noncomputable def o1_8 (E mu t dp : ℝ) (f0 f1 : Fin 12 → ℝ) : ℝ :=
  ((5 / 12) * E * t * (f1 1) * (f1 8) / (mu + 1) + (5 / 12) * E * t * (f0 1) * (f0 8) / (mu + 1)) * dp

/-- `out[21]`, TMQ/wrapped_code_1.c 34 -/
noncomputable def o1_9 (E mu t dp : ℝ) (f0 f1 : Fin 12 → ℝ) : ℝ :=
  ((5 / 12) * E * t * (f1 9) * (f1 1) / (mu + 1) + (5 / 12) * E * t * (f0 9) * (f0 1) / (mu + 1)) * dp

/-- `out[22]`, TMQ/wrapped_code_1.c 35 -/
noncomputable def o1_10 (E mu t dp : ℝ) (f0 f1 : Fin 12 → ℝ) : ℝ :=
  ((5 / 12) * E * t * (f1 1) * (f1 10) / (mu + 1) + (5 / 12) * E * t * (f0 1) * (f0 10) / (mu + 1)) * dp

/-- `out[23]`, TMQ/wrapped_code_1.c 36 -/
noncomputable def o1_11 (E mu t dp : ℝ) (f0 f1 : Fin 12 → ℝ) : ℝ :=
  ((5 / 12) * E * t * (f1 1) * (f1 11) / (mu + 1) + (5 / 12) * E * t * (f0 1) * (f0 11) / (mu + 1)) * dp

/-- `out[12]` to `out[23]`, TMQ/wrapped_code_1.c 25-36 -/
noncomputable def out1 (E mu t dp : ℝ) (f0 f1 : Fin 12 → ℝ) : Fin 12 → ℝ := ![
  o1_0 E mu t dp f0 f1,
  o1_1 E mu t dp f0 f1,
  o1_2 E mu t dp f0 f1,
  o1_3 E mu t dp f0 f1,
  o1_4 E mu t dp f0 f1,
  o1_5 E mu t dp f0 f1,
  o1_6 E mu t dp f0 f1,
  o1_7 E mu t dp f0 f1,
  o1_8 E mu t dp f0 f1,
  o1_9 E mu t dp f0 f1,
  o1_10 E mu t dp f0 f1,
  o1_11 E mu t dp f0 f1]

/-- `out[24]`, TMQ/wrapped_code_1.c 37 -/
noncomputable def o2_0 (E mu t dp : ℝ) (f0 f1 : Fin 12 → ℝ) : ℝ :=
  ((5 / 12) * E * t * (f1 0) * (f1 2) / (mu + 1) + (5 / 12) * E * t * (f0 0) * (f0 2) / (mu + 1)) * dp

/-- `out[25]`, TMQ/wrapped_code_1.c 38 -/
noncomputable def o2_1 (E mu t dp : ℝ) (f0 f1 : Fin 12 → ℝ) : ℝ :=
  ((5 / 12) * E * t * (f1 1) * (f1 2) / (mu + 1) + (5 / 12) * E * t * (f0 1) * (f0 2) / (mu + 1)) * dp

/-- `out[26]`, TMQ/wrapped_code_1.c 39 -/
noncomputable def o2_2 (E mu t dp : ℝ) (f0 f1 : Fin 12 → ℝ) : ℝ :=
  ((5 / 12) * E * t * (f1 2) ^ 2 / (mu + 1) + (5 / 12) * E * t * (f0 2) ^ 2 / (mu + 1)) * dp

/-- `out[27]`, TMQ/wrapped_code_1.c 40 -/
noncomputable def o2_3 (E mu t dp : ℝ) (f0 f1 : Fin 12 → ℝ) : ℝ :=
  ((5 / 12) * E * t * (f1 3) * (f1 2) / (mu + 1) + (5 / 12) * E * t * (f0 3) * (f0 2) / (mu + 1)) * dp

/-- `out[28]`, TMQ/wrapped_code_1.c 41 -/
noncomputable def o2_4 (E mu t dp : ℝ) (f0 f1 : Fin 12 → ℝ) : ℝ :=
  ((5 / 12) * E * t * (f1 4) * (f1 2) / (mu + 1) + (5 / 12) * E * t * (f0 4) * (f0 2) / (mu + 1)) * dp

/-- `out[29]`, TMQ/wrapped_code_1.c 42 -/
noncomputable def o2_5 (E mu t dp : ℝ) (f0 f1 : Fin 12 → ℝ) : ℝ :=
  ((5 / 12) * E * t * (f1 2) * (f1 5) / (mu + 1) + (5 / 12) * E * t * (f0 2) * (f0 5) / (mu + 1)) * dp

/-- `out[30]`, TMQ/wrapped_code_1.c 43 -/
noncomputable def o2_6 (E mu t dp : ℝ) (f0 f1 : Fin 12 → ℝ) : ℝ :=
  ((5 / 12) * E * t * (f1 6) * (f1 2) / (mu + 1) + (5 / 12) * E * t * (f0 6) * (f0 2) / (mu + 1)) * dp

/-- `out[31]`, TMQ/wrapped_code_1.c 44 -/
noncomputable def o2_7 (E mu t dp : ℝ) (f0 f1 : Fin 12 → ℝ) : ℝ :=
  ((5 / 12) * E * t * (f1 7) * (f1 2) / (mu + 1) + (5 / 12) * E * t * (f0 7) * (f0 2) / (mu + 1)) * dp

/-- `out[32]`, TMQ/wrapped_code_1.c 45 -/
noncomputable def o2_8 (E mu t dp : ℝ) (f0 f1 : Fin 12 → ℝ) : ℝ :=
  ((5 / 12) * E * t * (f1 2) * (f1 8) / (mu + 1) + (5 / 12) * E * t * (f0 2) * (f0 8) / (mu + 1)) * dp

/-- `out[33]`, TMQ/wrapped_code_1.c 46 -/
noncomputable def o2_9 (E mu t dp : ℝ) (f0 f1 : Fin 12 → ℝ) : ℝ :=
  ((5 / 12) * E * t * (f1 9) * (f1 2) / (mu + 1) + (5 / 12) * E * t * (f0 9) * (f0 2) / (mu + 1)) * dp

/-- `out[34]`, TMQ/wrapped_code_1.c 47 -/
noncomputable def o2_10 (E mu t dp : ℝ) (f0 f1 : Fin 12 → ℝ) : ℝ :=
  ((5 / 12) * E * t * (f1 10) * (f1 2) / (mu + 1) + (5 / 12) * E * t * (f0 10) * (f0 2) / (mu + 1)) * dp

/-- `out[35]`, TMQ/wrapped_code_1.c 48 -/
noncomputable def o2_11 (E mu t dp : ℝ) (f0 f1 : Fin 12 → ℝ) : ℝ :=
  ((5 / 12) * E * t * (f1 2) * (f1 11) / (mu + 1) + (5 / 12) * E * t * (f0 2) * (f0 11) / (mu + 1)) * dp

/-- `out[24]` to `out[35]`, TMQ/wrapped_code_1.c 37-48 -/
noncomputable def out2 (E mu t dp : ℝ) (f0 f1 : Fin 12 → ℝ) : Fin 12 → ℝ := ![
  o2_0 E mu t dp f0 f1,
  o2_1 E mu t dp f0 f1,
  o2_2 E mu t dp f0 f1,
  o2_3 E mu t dp f0 f1,
  o2_4 E mu t dp f0 f1,
  o2_5 E mu t dp f0 f1,
  o2_6 E mu t dp f0 f1,
  o2_7 E mu t dp f0 f1,
  o2_8 E mu t dp f0 f1,
  o2_9 E mu t dp f0 f1,
  o2_10 E mu t dp f0 f1,
  o2_11 E mu t dp f0 f1]

/-- `out[36]`, TMQ/wrapped_code_1.c 49 -/
noncomputable def o3_0 (E mu t dp : ℝ) (f0 f1 : Fin 12 → ℝ) : ℝ :=
  ((5 / 12) * E * t * (f1 0) * (f1 3) / (mu + 1) + (5 / 12) * E * t * (f0 0) * (f0 3) / (mu + 1)) * dp

/-- `out[37]`, TMQ/wrapped_code_1.c 50 -/
noncomputable def o3_1 (E mu t dp : ℝ) (f0 f1 : Fin 12 → ℝ) : ℝ :=
  ((5 / 12) * E * t * (f1 3) * (f1 1) / (mu + 1) + (5 / 12) * E * t * (f0 3) * (f0 1) / (mu + 1)) * dp

/-- `out[38]`, TMQ/wrapped_code_1.c 51 -/
noncomputable def o3_2 (E mu t dp : ℝ) (f0 f1 : Fin 12 → ℝ) : ℝ :=
  ((5 / 12) * E * t * (f1 3) * (f1 2) / (mu + 1) + (5 / 12) * E * t * (f0 3) * (f0 2) / (mu + 1)) * dp

/-- `out[39]`, TMQ/wrapped_code_1.c 52 -/
noncomputable def o3_3 (E mu t dp : ℝ) (f0 f1 : Fin 12 → ℝ) : ℝ :=
  ((5 / 12) * E * t * (f1 3) ^ 2 / (mu + 1) + (5 / 12) * E * t * (f0 3) ^ 2 / (mu + 1)) * dp

/-- `out[40]`, TMQ/wrapped_code_1.c 53 -/
noncomputable def o3_4 (E mu t dp : ℝ) (f0 f1 : Fin 12 → ℝ) : ℝ :=
  ((5 / 12) * E * t * (f1 3) * (f1 4) / (mu + 1) + (5 / 12) * E * t * (f0 3) * (f0 4) / (mu + 1)) * dp

/-- `out[41]`, TMQ/wrapped_code_1.c 54 -/
noncomputable def o3_5 (E mu t dp : ℝ) (f0 f1 : Fin 12 → ℝ) : ℝ :=
  ((5 / 12) * E * t * (f1 3) * (f1 5) / (mu + 1) + (5 / 12) * E * t * (f0 3) * (f0 5) / (mu + 1)) * dp

/-- `out[42]`, TMQ/wrapped_code_1.c 55 -/
noncomputable def o3_6 (E mu t dp : ℝ) (f0 f1 : Fin 12 → ℝ) : ℝ :=
  ((5 / 12) * E * t * (f1 3) * (f1 6) / (mu + 1) + (5 / 12) * E * t * (f0 3) * (f0 6) / (mu + 1)) * dp

/-- `out[43]`, TMQ/wrapped_code_1.c 56 -/
noncomputable def o3_7 (E mu t dp : ℝ) (f0 f1 : Fin 12 → ℝ) : ℝ :=
  ((5 / 12) * E * t * (f1 3) * (f1 7) / (mu + 1) + (5 / 12) * E * t * (f0 3) * (f0 7) / (mu + 1)) * dp

/-- `out[44]`, TMQ/wrapped_code_1.c 57 -/
noncomputable def o3_8 (E mu t dp : ℝ) (f0 f1 : Fin 12 → ℝ) : ℝ :=
  ((5 / 12) * E * t * (f1 3) * (f1 8) / (mu + 1) + (5 / 12) * E * t * (f0 3) * (f0 8) / (mu + 1)) * dp

/-- `out[45]`, TMQ/wrapped_code_1.c 58 -/
noncomputable def o3_9 (E mu t dp : ℝ) (f0 f1 : Fin 12 → ℝ) : ℝ :=
  ((5 / 12) * E * t * (f1 9) * (f1 3) / (mu + 1) + (5 / 12) * E * t * (f0 9) * (f0 3) / (mu + 1)) * dp

/-- `out[46]`, TMQ/wrapped_code_1.c 59 -/
noncomputable def o3_10 (E mu t dp : ℝ) (f0 f1 : Fin 12 → ℝ) : ℝ :=
  ((5 / 12) * E * t * (f1 3) * (f1 10) / (mu + 1) + (5 / 12) * E * t * (f0 3) * (f0 10) / (mu + 1)) * dp

/-- `out[47]`, TMQ/wrapped_code_1.c 60 -/
noncomputable def o3_11 (E mu t dp : ℝ) (f0 f1 : Fin 12 → ℝ) : ℝ :=
  ((5 / 12) * E * t * (f1 3) * (f1 11) / (mu + 1) + (5 / 12) * E * t * (f0 3) * (f0 11) / (mu + 1)) * dp

/-- `out[36]` to `out[47]`, TMQ/wrapped_code_1.c 49-60 -/
noncomputable def out3 (E mu t dp : ℝ) (f0 f1 : Fin 12 → ℝ) : Fin 12 → ℝ := ![
  o3_0 E mu t dp f0 f1,
  o3_1 E mu t dp f0 f1,
  o3_2 E mu t dp f0 f1,
  o3_3 E mu t dp f0 f1,
  o3_4 E mu t dp f0 f1,
  o3_5 E mu t dp f0 f1,
  o3_6 E mu t dp f0 f1,
  o3_7 E mu t dp f0 f1,
  o3_8 E mu t dp f0 f1,
  o3_9 E mu t dp f0 f1,
  o3_10 E mu t dp f0 f1,
  o3_11 E mu t dp f0 f1]

/-- `out[48]`, TMQ/wrapped_code_1.c 61 -/
noncomputable def o4_0 (E mu t dp : ℝ) (f0 f1 : Fin 12 → ℝ) : ℝ :=
  ((5 / 12) * E * t * (f1 0) * (f1 4) / (mu + 1) + (5 / 12) * E * t * (f0 0) * (f0 4) / (mu + 1)) * dp

/-- `out[49]`, TMQ/wrapped_code_1.c 62 -/
noncomputable def o4_1 (E mu t dp : ℝ) (f0 f1 : Fin 12 → ℝ) : ℝ :=
  ((5 / 12) * E * t * (f1 1) * (f1 4) / (mu + 1) + (5 / 12) * E * t * (f0 1) * (f0 4) / (mu + 1)) * dp

/-- `out[50]`, TMQ/wrapped_code_1.c 63 -/
noncomputable def o4_2 (E mu t dp : ℝ) (f0 f1 : Fin 12 → ℝ) : ℝ :=
  ((5 / 12) * E * t * (f1 4) * (f1 2) / (mu + 1) + (5 / 12) * E * t * (f0 4) * (f0 2) / (mu + 1)) * dp

/-- `out[51]`, TMQ/wrapped_code_1.c 64 -/
noncomputable def o4_3 (E mu t dp : ℝ) (f0 f1 : Fin 12 → ℝ) : ℝ :=
  ((5 / 12) * E * t * (f1 3) * (f1 4) / (mu + 1) + (5 / 12) * E * t * (f0 3) * (f0 4) / (mu + 1)) * dp

/-- `out[52]`, TMQ/wrapped_code_1.c 65 -/
noncomputable def o4_4 (E mu t dp : ℝ) (f0 f1 : Fin 12 → ℝ) : ℝ :=
  ((5 / 12) * E * t * (f1 4) ^ 2 / (mu + 1) + (5 / 12) * E * t * (f0 4) ^ 2 / (mu + 1)) * dp

/-- `out[53]`, TMQ/wrapped_code_1.c 66 -/
noncomputable def o4_5 (E mu t dp : ℝ) (f0 f1 : Fin 12 → ℝ) : ℝ :=
  ((5 / 12) * E * t * (f1 4) * (f1 5) / (mu + 1) + (5 / 12) * E * t * (f0 4) * (f0 5) / (mu + 1)) * dp

/-- `out[54]`, TMQ/wrapped_code_1.c 67 -/
noncomputable def o4_6 (E mu t dp : ℝ) (f0 f1 : Fin 12 → ℝ) : ℝ :=
  ((5 / 12) * E * t * (f1 6) * (f1 4) / (mu + 1) + (5 / 12) * E * t * (f0 6) * (f0 4) / (mu + 1)) * dp

/-- `out[55]`, TMQ/wrapped_code_1.c 68 -/
noncomputable def o4_7 (E mu t dp : ℝ) (f0 f1 : Fin 12 → ℝ) : ℝ :=
  ((5 / 12) * E * t * (f1 4) * (f1 7) / (mu + 1) + (5 / 12) * E * t * (f0 4) * (f0 7) / (mu + 1)) * dp

/-- `out[56]`, TMQ/wrapped_code_1.c 69 -/
noncomputable def o4_8 (E mu t dp : ℝ) (f0 f1 : Fin 12 → ℝ) : ℝ :=
  ((5 / 12) * E * t * (f1 4) * (f1 8) / (mu + 1) + (5 / 12) * E * t * (f0 4) * (f0 8) / (mu + 1)) * dp

/-- `out[57]`, TMQ/wrapped_code_1.c 70 -/
noncomputable def o4_9 (E mu t dp : ℝ) (f0 f1 : Fin 12 → ℝ) : ℝ :=
  ((5 / 12) * E * t * (f1 9) * (f1 4) / (mu + 1) + (5 / 12) * E * t * (f0 9) * (f0 4) / (mu + 1)) * dp

/-- `out[58]`, TMQ/wrapped_code_1.c 71 -/
noncomputable def o4_10 (E mu t dp : ℝ) (f0 f1 : Fin 12 → ℝ) : ℝ :=
  ((5 / 12) * E * t * (f1 10) * (f1 4) / (mu + 1) + (5 / 12) * E * t * (f0 10) * (f0 4) / (mu + 1)) * dp

/-- `out[59]`, TMQ/wrapped_code_1.c 72 -/
noncomputable def o4_11 (E mu t dp : ℝ) (f0 f1 : Fin 12 → ℝ) : ℝ :=
  ((5 / 12) * E * t * (f1 4) * (f1 11) / (mu + 1) + (5 / 12) * E * t * (f0 4) * (f0 11) / (mu + 1)) * dp

/-- `out[48]` to `out[59]`, TMQ/wrapped_code_1.c 61-72 -/
noncomputable def out4 (E mu t dp : ℝ) (f0 f1 : Fin 12 → ℝ) : Fin 12 → ℝ := ![
  o4_0 E mu t dp f0 f1,
  o4_1 E mu t dp f0 f1,
  o4_2 E mu t dp f0 f1,
  o4_3 E mu t dp f0 f1,
  o4_4 E mu t dp f0 f1,
  o4_5 E mu t dp f0 f1,
  o4_6 E mu t dp f0 f1,
  o4_7 E mu t dp f0 f1,
  o4_8 E mu t dp f0 f1,
  o4_9 E mu t dp f0 f1,
  o4_10 E mu t dp f0 f1,
  o4_11 E mu t dp f0 f1]

/-- `out[60]`, TMQ/wrapped_code_1.c 73 -/
noncomputable def o5_0 (E mu t dp : ℝ) (f0 f1 : Fin 12 → ℝ) : ℝ :=
  ((5 / 12) * E * t * (f1 0) * (f1 5) / (mu + 1) + (5 / 12) * E * t * (f0 0) * (f0 5) / (mu + 1)) * dp

/-- `out[61]`, TMQ/wrapped_code_1.c 74 -/
noncomputable def o5_1 (E mu t dp : ℝ) (f0 f1 : Fin 12 → ℝ) : ℝ :=
  ((5 / 12) * E * t * (f1 1) * (f1 5) / (mu + 1) + (5 / 12) * E * t * (f0 1) * (f0 5) / (mu + 1)) * dp

/-- `out[62]`, TMQ/wrapped_code_1.c 75 -/
noncomputable def o5_2 (E mu t dp : ℝ) (f0 f1 : Fin 12 → ℝ) : ℝ :=
  ((5 / 12) * E * t * (f1 2) * (f1 5) / (mu + 1) + (5 / 12) * E * t * (f0 2) * (f0 5) / (mu + 1)) * dp

/-- `out[63]`, TMQ/wrapped_code_1.c 76 -/
noncomputable def o5_3 (E mu t dp : ℝ) (f0 f1 : Fin 12 → ℝ) : ℝ :=
  ((5 / 12) * E * t * (f1 3) * (f1 5) / (mu + 1) + (5 / 12) * E * t * (f0 3) * (f0 5) / (mu + 1)) * dp

/-- `out[64]`, TMQ/wrapped_code_1.c 77 -/
noncomputable def o5_4 (E mu t dp : ℝ) (f0 f1 : Fin 12 → ℝ) : ℝ :=
  ((5 / 12) * E * t * (f1 4) * (f1 5) / (mu + 1) + (5 / 12) * E * t * (f0 4) * (f0 5) / (mu + 1)) * dp

/-- `out[65]`, TMQ/wrapped_code_1.c 78 -/
noncomputable def o5_5 (E mu t dp : ℝ) (f0 f1 : Fin 12 → ℝ) : ℝ :=
  ((5 / 12) * E * t * (f1 5) ^ 2 / (mu + 1) + (5 / 12) * E * t * (f0 5) ^ 2 / (mu + 1)) * dp

/-- `out[66]`, TMQ/wrapped_code_1.c 79 -/
noncomputable def o5_6 (E mu t dp : ℝ) (f0 f1 : Fin 12 → ℝ) : ℝ :=
  ((5 / 12) * E * t * (f1 6) * (f1 5) / (mu + 1) + (5 / 12) * E * t * (f0 6) * (f0 5) / (mu + 1)) * dp

/-- `out[67]`, TMQ/wrapped_code_1.c 80 -/
noncomputable def o5_7 (E mu t dp : ℝ) (f0 f1 : Fin 12 → ℝ) : ℝ :=
  ((5 / 12) * E * t * (f1 7) * (f1 5) / (mu + 1) + (5 / 12) * E * t * (f0 7) * (f0 5) / (mu + 1)) * dp

/-- `out[68]`, TMQ/wrapped_code_1.c 81 -/
noncomputable def o5_8 (E mu t dp : ℝ) (f0 f1 : Fin 12 → ℝ) : ℝ :=
  ((5 / 12) * E * t * (f1 5) * (f1 8) / (mu + 1) + (5 / 12) * E * t * (f0 5) * (f0 8) / (mu + 1)) * dp

/-- `out[69]`, TMQ/wrapped_code_1.c 82 -/
noncomputable def o5_9 (E mu t dp : ℝ) (f0 f1 : Fin 12 → ℝ) : ℝ :=
  ((5 / 12) * E * t * (f1 9) * (f1 5) / (mu + 1) + (5 / 12) * E * t * (f0 9) * (f0 5) / (mu + 1)) * dp

/-- `out[70]`, TMQ/wrapped_code_1.c 83 -/
noncomputable def o5_10 (E mu t dp : ℝ) (f0 f1 : Fin 12 → ℝ) : ℝ :=
  ((5 / 12) * E * t * (f1 10) * (f1 5) / (mu + 1) + (5 / 12) * E * t * (f0 10) * (f0 5) / (mu + 1)) * dp

/-- `out[71]`, TMQ/wrapped_code_1.c 84 -/
noncomputable def o5_11 (E mu t dp : ℝ) (f0 f1 : Fin 12 → ℝ) : ℝ :=
  ((5 / 12) * E * t * (f1 11) * (f1 5) / (mu + 1) + (5 / 12) * E * t * (f0 11) * (f0 5) / (mu + 1)) * dp

/-- `out[60]` to `out[71]`, TMQ/wrapped_code_1.c 73-84 -/
noncomputable def out5 (E mu t dp : ℝ) (f0 f1 : Fin 12 → ℝ) : Fin 12 → ℝ := ![
  o5_0 E mu t dp f0 f1,
  o5_1 E mu t dp f0 f1,
  o5_2 E mu t dp f0 f1,
  o5_3 E mu t dp f0 f1,
  o5_4 E mu t dp f0 f1,
  o5_5 E mu t dp f0 f1,
  o5_6 E mu t dp f0 f1,
  o5_7 E mu t dp f0 f1,
  o5_8 E mu t dp f0 f1,
  o5_9 E mu t dp f0 f1,
  o5_10 E mu t dp f0 f1,
  o5_11 E mu t dp f0 f1]

/-- `out[72]`, TMQ/wrapped_code_1.c 85 -/
noncomputable def o6_0 (E mu t dp : ℝ) (f0 f1 : Fin 12 → ℝ) : ℝ :=
  ((5 / 12) * E * t * (f1 0) * (f1 6) / (mu + 1) + (5 / 12) * E * t * (f0 0) * (f0 6) / (mu + 1)) * dp

/-- `out[73]`, TMQ/wrapped_code_1.c 86 -/
noncomputable def o6_1 (E mu t dp : ℝ) (f0 f1 : Fin 12 → ℝ) : ℝ :=
  ((5 / 12) * E * t * (f1 6) * (f1 1) / (mu + 1) + (5 / 12) * E * t * (f0 6) * (f0 1) / (mu + 1)) * dp

/-- `out[74]`, TMQ/wrapped_code_1.c 87 -/
noncomputable def o6_2 (E mu t dp : ℝ) (f0 f1 : Fin 12 → ℝ) : ℝ :=
  ((5 / 12) * E * t * (f1 6) * (f1 2) / (mu + 1) + (5 / 12) * E * t * (f0 6) * (f0 2) / (mu + 1)) * dp

/-- `out[75]`, TMQ/wrapped_code_1.c 88 -/
noncomputable def o6_3 (E mu t dp : ℝ) (f0 f1 : Fin 12 → ℝ) : ℝ :=
  ((5 / 12) * E * t * (f1 3) * (f1 6) / (mu + 1) + (5 / 12) * E * t * (f0 3) * (f0 6) / (mu + 1)) * dp

/-- `out[76]`, TMQ/wrapped_code_1.c 89 -/
noncomputable def o6_4 (E mu t dp : ℝ) (f0 f1 : Fin 12 → ℝ) : ℝ :=
  ((5 / 12) * E * t * (f1 6) * (f1 4) / (mu + 1) + (5 / 12) * E * t * (f0 6) * (f0 4) / (mu + 1)) * dp

/-- `out[77]`, TMQ/wrapped_code_1.c 90 -/
noncomputable def o6_5 (E mu t dp : ℝ) (f0 f1 : Fin 12 → ℝ) : ℝ :=
  ((5 / 12) * E * t * (f1 6) * (f1 5) / (mu + 1) + (5 / 12) * E * t * (f0 6) * (f0 5) / (mu + 1)) * dp

/-- `out[78]`, TMQ/wrapped_code_1.c 91 -/
noncomputable def o6_6 (E mu t dp : ℝ) (f0 f1 : Fin 12 → ℝ) : ℝ :=
  ((5 / 12) * E * t * (f1 6) ^ 2 / (mu + 1) + (5 / 12) * E * t * (f0 6) ^ 2 / (mu + 1)) * dp

/-- `out[79]`, TMQ/wrapped_code_1.c 92 -/
noncomputable def o6_7 (E mu t dp : ℝ) (f0 f1 : Fin 12 → ℝ) : ℝ :=
  ((5 / 12) * E * t * (f1 6) * (f1 7) / (mu + 1) + (5 / 12) * E * t * (f0 6) * (f0 7) / (mu + 1)) * dp

/-- `out[80]`, TMQ/wrapped_code_1.c 93 -/
noncomputable def o6_8 (E mu t dp : ℝ) (f0 f1 : Fin 12 → ℝ) : ℝ :=
  ((5 / 12) * E * t * (f1 6) * (f1 8) / (mu + 1) + (5 / 12) * E * t * (f0 6) * (f0 8) / (mu + 1)) * dp

/-- `out[81]`, TMQ/wrapped_code_1.c 94 -/
noncomputable def o6_9 (E mu t dp : ℝ) (f0 f1 : Fin 12 → ℝ) : ℝ :=
  ((5 / 12) * E * t * (f1 9) * (f1 6) / (mu + 1) + (5 / 12) * E * t * (f0 9) * (f0 6) / (mu + 1)) * dp

/-- `out[82]`, TMQ/wrapped_code_1.c 95 -/
noncomputable def o6_10 (E mu t dp : ℝ) (f0 f1 : Fin 12 → ℝ) : ℝ :=
  ((5 / 12) * E * t * (f1 6) * (f1 10) / (mu + 1) + (5 / 12) * E * t * (f0 6) * (f0 10) / (mu + 1)) * dp

/-- `out[83]`, TMQ/wrapped_code_1.c 96 -/
noncomputable def o6_11 (E mu t dp : ℝ) (f0 f1 : Fin 12 → ℝ) : ℝ :=
  ((5 / 12) * E * t * (f1 6) * (f1 11) / (mu + 1) + (5 / 12) * E * t * (f0 6) * (f0 11) / (mu + 1)) * dp

/-- `out[72]` to `out[83]`, TMQ/wrapped_code_1.c 85-96 -/
noncomputable def out6 (E mu t dp : ℝ) (f0 f1 : Fin 12 → ℝ) : Fin 12 → ℝ := ![
  o6_0 E mu t dp f0 f1,
  o6_1 E mu t dp f0 f1,
  o6_2 E mu t dp f0 f1,
  o6_3 E mu t dp f0 f1,
  o6_4 E mu t dp f0 f1,
  o6_5 E mu t dp f0 f1,
  o6_6 E mu t dp f0 f1,
  o6_7 E mu t dp f0 f1,
  o6_8 E mu t dp f0 f1,
  o6_9 E mu t dp f0 f1,
  o6_10 E mu t dp f0 f1,
  o6_11 E mu t dp f0 f1]

/-- `out[84]`, TMQ/wrapped_code_1.c 97 -/
noncomputable def o7_0 (E mu t dp : ℝ) (f0 f1 : Fin 12 → ℝ) : ℝ :=
  ((5 / 12) * E * t * (f1 0) * (f1 7) / (mu + 1) + (5 / 12) * E * t * (f0 0) * (f0 7) / (mu + 1)) * dp

/-- `out[85]`, TMQ/wrapped_code_1.c 98 -/
noncomputable def o7_1 (E mu t dp : ℝ) (f0 f1 : Fin 12 → ℝ) : ℝ :=
  ((5 / 12) * E * t * (f1 1) * (f1 7) / (mu + 1) + (5 / 12) * E * t * (f0 1) * (f0 7) / (mu + 1)) * dp

/-- `out[86]`, TMQ/wrapped_code_1.c 99 -/
noncomputable def o7_2 (E mu t dp : ℝ) (f0 f1 : Fin 12 → ℝ) : ℝ :=
  ((5 / 12) * E * t * (f1 7) * (f1 2) / (mu + 1) + (5 / 12) * E * t * (f0 7) * (f0 2) / (mu + 1)) * dp

/-- `out[87]`, TMQ/wrapped_code_1.c 100 -/
noncomputable def o7_3 (E mu t dp : ℝ) (f0 f1 : Fin 12 → ℝ) : ℝ :=
  ((5 / 12) * E * t * (f1 3) * (f1 7) / (mu + 1) + (5 / 12) * E * t * (f0 3) * (f0 7) / (mu + 1)) * dp

/-- `out[88]`, TMQ/wrapped_code_1.c 101 -/
noncomputable def o7_4 (E mu t dp : ℝ) (f0 f1 : Fin 12 → ℝ) : ℝ :=
  ((5 / 12) * E * t * (f1 4) * (f1 7) / (mu + 1) + (5 / 12) * E * t * (f0 4) * (f0 7) / (mu + 1)) * dp

/-- `out[89]`, TMQ/wrapped_code_1.c 102 -/
noncomputable def o7_5 (E mu t dp : ℝ) (f0 f1 : Fin 12 → ℝ) : ℝ :=
  ((5 / 12) * E * t * (f1 7) * (f1 5) / (mu + 1) + (5 / 12) * E * t * (f0 7) * (f0 5) / (mu + 1)) * dp

/-- `out[90]`, TMQ/wrapped_code_1.c 103 -/
noncomputable def o7_6 (E mu t dp : ℝ) (f0 f1 : Fin 12 → ℝ) : ℝ :=
  ((5 / 12) * E * t * (f1 6) * (f1 7) / (mu + 1) + (5 / 12) * E * t * (f0 6) * (f0 7) / (mu + 1)) * dp

/-- `out[91]`, TMQ/wrapped_code_1.c 104 -/
noncomputable def o7_7 (E mu t dp : ℝ) (f0 f1 : Fin 12 → ℝ) : ℝ :=
  ((5 / 12) * E * t * (f1 7) ^ 2 / (mu + 1) + (5 / 12) * E * t * (f0 7) ^ 2 / (mu + 1)) * dp

/-- `out[92]`, TMQ/wrapped_code_1.c 105 -/
noncomputable def o7_8 (E mu t dp : ℝ) (f0 f1 : Fin 12 → ℝ) : ℝ :=
  ((5 / 12) * E * t * (f1 7) * (f1 8) / (mu + 1) + (5 / 12) * E * t * (f0 7) * (f0 8) / (mu + 1)) * dp

/-- `out[93]`, TMQ/wrapped_code_1.c 106 -/
noncomputable def o7_9 (E mu t dp : ℝ) (f0 f1 : Fin 12 → ℝ) : ℝ :=
  ((5 / 12) * E * t * (f1 9) * (f1 7) / (mu + 1) + (5 / 12) * E * t * (f0 9) * (f0 7) / (mu + 1)) * dp

/-- `out[94]`, TMQ/wrapped_code_1.c 107 -/
noncomputable def o7_10 (E mu t dp : ℝ) (f0 f1 : Fin 12 → ℝ) : ℝ :=
  ((5 / 12) * E * t * (f1 10) * (f1 7) / (mu + 1) + (5 / 12) * E * t * (f0 10) * (f0 7) / (mu + 1)) * dp

/-- `out[95]`, TMQ/wrapped_code_1.c 108 -/
noncomputable def o7_11 (E mu t dp : ℝ) (f0 f1 : Fin 12 → ℝ) : ℝ :=
  ((5 / 12) * E * t * (f1 7) * (f1 11) / (mu + 1) + (5 / 12) * E * t * (f0 7) * (f0 11) / (mu + 1)) * dp

/-- `out[84]` to `out[95]`, TMQ/wrapped_code_1.c 97-108 -/
noncomputable def out7 (E mu t dp : ℝ) (f0 f1 : Fin 12 → ℝ) : Fin 12 → ℝ := ![
  o7_0 E mu t dp f0 f1,
  o7_1 E mu t dp f0 f1,
  o7_2 E mu t dp f0 f1,
  o7_3 E mu t dp f0 f1,
  o7_4 E mu t dp f0 f1,
  o7_5 E mu t dp f0 f1,
  o7_6 E mu t dp f0 f1,
  o7_7 E mu t dp f0 f1,
  o7_8 E mu t dp f0 f1,
  o7_9 E mu t dp f0 f1,
  o7_10 E mu t dp f0 f1,
  o7_11 E mu t dp f0 f1]

/-- `out[96]`, TMQ/wrapped_code_1.c 109 -/
noncomputable def o8_0 (E mu t dp : ℝ) (f0 f1 : Fin 12 → ℝ) : ℝ :=
  ((5 / 12) * E * t * (f1 0) * (f1 8) / (mu + 1) + (5 / 12) * E * t * (f0 0) * (f0 8) / (mu + 1)) * dp

/-- `out[97]`, TMQ/wrapped_code_1.c 110 -/
noncomputable def o8_1 (E mu t dp : ℝ) (f0 f1 : Fin 12 → ℝ) : ℝ :=
  ((5 / 12) * E * t * (f1 1) * (f1 8) / (mu + 1) + (5 / 12) * E * t * (f0 1) * (f0 8) / (mu + 1)) * dp

/-- `out[98]`, TMQ/wrapped_code_1.c 111 -/
noncomputable def o8_2 (E mu t dp : ℝ) (f0 f1 : Fin 12 → ℝ) : ℝ :=
  ((5 / 12) * E * t * (f1 2) * (f1 8) / (mu + 1) + (5 / 12) * E * t * (f0 2) * (f0 8) / (mu + 1)) * dp

/-- `out[99]`, TMQ/wrapped_code_1.c 112 -/
noncomputable def o8_3 (E mu t dp : ℝ) (f0 f1 : Fin 12 → ℝ) : ℝ :=
  ((5 / 12) * E * t * (f1 3) * (f1 8) / (mu + 1) + (5 / 12) * E * t * (f0 3) * (f0 8) / (mu + 1)) * dp

/-- `out[100]`, TMQ/wrapped_code_1.c 113 -/
noncomputable def o8_4 (E mu t dp : ℝ) (f0 f1 : Fin 12 → ℝ) : ℝ :=
  ((5 / 12) * E * t * (f1 4) * (f1 8) / (mu + 1) + (5 / 12) * E * t * (f0 4) * (f0 8) / (mu + 1)) * dp

/-- `out[101]`, TMQ/wrapped_code_1.c 114 -/
noncomputable def o8_5 (E mu t dp : ℝ) (f0 f1 : Fin 12 → ℝ) : ℝ :=
  ((5 / 12) * E * t * (f1 5) * (f1 8) / (mu + 1) + (5 / 12) * E * t * (f0 5) * (f0 8) / (mu + 1)) * dp

/-- `out[102]`, TMQ/wrapped_code_1.c 115 -/
noncomputable def o8_6 (E mu t dp : ℝ) (f0 f1 : Fin 12 → ℝ) : ℝ :=
  ((5 / 12) * E * t * (f1 6) * (f1 8) / (mu + 1) + (5 / 12) * E * t * (f0 6) * (f0 8) / (mu + 1)) * dp

/-- `out[103]`, TMQ/wrapped_code_1.c 116 -/
noncomputable def o8_7 (E mu t dp : ℝ) (f0 f1 : Fin 12 → ℝ) : ℝ :=
  ((5 / 12) * E * t * (f1 7) * (f1 8) / (mu + 1) + (5 / 12) * E * t * (f0 7) * (f0 8) / (mu + 1)) * dp

/-- `out[104]`, TMQ/wrapped_code_1.c 117 -/
noncomputable def o8_8 (E mu t dp : ℝ) (f0 f1 : Fin 12 → ℝ) : ℝ :=
  ((5 / 12) * E * t * (f1 8) ^ 2 / (mu + 1) + (5 / 12) * E * t * (f0 8) ^ 2 / (mu + 1)) * dp

/-- `out[105]`, TMQ/wrapped_code_1.c 118 -/
noncomputable def o8_9 (E mu t dp : ℝ) (f0 f1 : Fin 12 → ℝ) : ℝ :=
  ((5 / 12) * E * t * (f1 9) * (f1 8) / (mu + 1) + (5 / 12) * E * t * (f0 9) * (f0 8) / (mu + 1)) * dp

/-- `out[106]`, TMQ/wrapped_code_1.c 119 -/
noncomputable def o8_10 (E mu t dp : ℝ) (f0 f1 : Fin 12 → ℝ) : ℝ :=
  ((5 / 12) * E * t * (f1 10) * (f1 8) / (mu + 1) + (5 / 12) * E * t * (f0 10) * (f0 8) / (mu + 1)) * dp

/-- `out[107]`, TMQ/wrapped_code_1.c 120 -/
noncomputable def o8_11 (E mu t dp : ℝ) (f0 f1 : Fin 12 → ℝ) : ℝ :=
  ((5 / 12) * E * t * (f1 11) * (f1 8) / (mu + 1) + (5 / 12) * E * t * (f0 11) * (f0 8) / (mu + 1)) * dp

/-- `out[96]` to `out[107]`, TMQ/wrapped_code_1.c 109-120 -/
noncomputable def out8 (E mu t dp : ℝ) (f0 f1 : Fin 12 → ℝ) : Fin 12 → ℝ := ![
  o8_0 E mu t dp f0 f1,
  o8_1 E mu t dp f0 f1,
  o8_2 E mu t dp f0 f1,
  o8_3 E mu t dp f0 f1,
  o8_4 E mu t dp f0 f1,
  o8_5 E mu t dp f0 f1,
  o8_6 E mu t dp f0 f1,
  o8_7 E mu t dp f0 f1,
  o8_8 E mu t dp f0 f1,
  o8_9 E mu t dp f0 f1,
  o8_10 E mu t dp f0 f1,
  o8_11 E mu t dp f0 f1]

/-- `out[108]`, TMQ/wrapped_code_1.c 121 -/
noncomputable def o9_0 (E mu t dp : ℝ) (f0 f1 : Fin 12 → ℝ) : ℝ :=
  ((5 / 12) * E * t * (f1 9) * (f1 0) / (mu + 1) + (5 / 12) * E * t * (f0 9) * (f0 0) / (mu + 1)) * dp

/-- `out[109]`, TMQ/wrapped_code_1.c 122 -/
noncomputable def o9_1 (E mu t dp : ℝ) (f0 f1 : Fin 12 → ℝ) : ℝ :=
  ((5 / 12) * E * t * (f1 9) * (f1 1) / (mu + 1) + (5 / 12) * E * t * (f0 9) * (f0 1) / (mu + 1)) * dp

/-- `out[110]`, TMQ/wrapped_code_1.c 123 -/
noncomputable def o9_2 (E mu t dp : ℝ) (f0 f1 : Fin 12 → ℝ) : ℝ :=
  ((5 / 12) * E * t * (f1 9) * (f1 2) / (mu + 1) + (5 / 12) * E * t * (f0 9) * (f0 2) / (mu + 1)) * dp

/-- `out[111]`, TMQ/wrapped_code_1.c 124 -/
noncomputable def o9_3 (E mu t dp : ℝ) (f0 f1 : Fin 12 → ℝ) : ℝ :=
  ((5 / 12) * E * t * (f1 9) * (f1 3) / (mu + 1) + (5 / 12) * E * t * (f0 9) * (f0 3) / (mu + 1)) * dp

/-- `out[112]`, TMQ/wrapped_code_1.c 125 -/
noncomputable def o9_4 (E mu t dp : ℝ) (f0 f1 : Fin 12 → ℝ) : ℝ :=
  ((5 / 12) * E * t * (f1 9) * (f1 4) / (mu + 1) + (5 / 12) * E * t * (f0 9) * (f0 4) / (mu + 1)) * dp

/-- `out[113]`, TMQ/wrapped_code_1.c 126 -/
noncomputable def o9_5 (E mu t dp : ℝ) (f0 f1 : Fin 12 → ℝ) : ℝ :=
  ((5 / 12) * E * t * (f1 9) * (f1 5) / (mu + 1) + (5 / 12) * E * t * (f0 9) * (f0 5) / (mu + 1)) * dp

/-- `out[114]`, TMQ/wrapped_code_1.c 127 -/
noncomputable def o9_6 (E mu t dp : ℝ) (f0 f1 : Fin 12 → ℝ) : ℝ :=
  ((5 / 12) * E * t * (f1 9) * (f1 6) / (mu + 1) + (5 / 12) * E * t * (f0 9) * (f0 6) / (mu + 1)) * dp

/-- `out[115]`, TMQ/wrapped_code_1.c 128 -/
noncomputable def o9_7 (E mu t dp : ℝ) (f0 f1 : Fin 12 → ℝ) : ℝ :=
  ((5 / 12) * E * t * (f1 9) * (f1 7) / (mu + 1) + (5 / 12) * E * t * (f0 9) * (f0 7) / (mu + 1)) * dp

/-- `out[116]`, TMQ/wrapped_code_1.c 129 -/
noncomputable def o9_8 (E mu t dp : ℝ) (f0 f1 : Fin 12 → ℝ) : ℝ :=
  ((5 / 12) * E * t * (f1 9) * (f1 8) / (mu + 1) + (5 / 12) * E * t * (f0 9) * (f0 8) / (mu + 1)) * dp

/-- `out[117]`, TMQ/wrapped_code_1.c 130 -/
noncomputable def o9_9 (E mu t dp : ℝ) (f0 f1 : Fin 12 → ℝ) : ℝ :=
  ((5 / 12) * E * t * (f1 9) ^ 2 / (mu + 1) + (5 / 12) * E * t * (f0 9) ^ 2 / (mu + 1)) * dp

/-- `out[118]`, TMQ/wrapped_code_1.c 131 -/
noncomputable def o9_10 (E mu t dp : ℝ) (f0 f1 : Fin 12 → ℝ) : ℝ :=
  ((5 / 12) * E * t * (f1 9) * (f1 10) / (mu + 1) + (5 / 12) * E * t * (f0 9) * (f0 10) / (mu + 1)) * dp

/-- `out[119]`, TMQ/wrapped_code_1.c 132 -/
noncomputable def o9_11 (E mu t dp : ℝ) (f0 f1 : Fin 12 → ℝ) : ℝ :=
  ((5 / 12) * E * t * (f1 9) * (f1 11) / (mu + 1) + (5 / 12) * E * t * (f0 9) * (f0 11) / (mu + 1)) * dp

/-- `out[108]` to `out[119]`, TMQ/wrapped_code_1.c 121-132 -/
noncomputable def out9 (E mu t dp : ℝ) (f0 f1 : Fin 12 → ℝ) : Fin 12 → ℝ := ![
  o9_0 E mu t dp f0 f1,
  o9_1 E mu t dp f0 f1,
  o9_2 E mu t dp f0 f1,
  o9_3 E mu t dp f0 f1,
  o9_4 E mu t dp f0 f1,
  o9_5 E mu t dp f0 f1,
  o9_6 E mu t dp f0 f1,
  o9_7 E mu t dp f0 f1,
  o9_8 E mu t dp f0 f1,
  o9_9 E mu t dp f0 f1,
  o9_10 E mu t dp f0 f1,
  o9_11 E mu t dp f0 f1]

/-- `out[120]`, TMQ/wrapped_code_1.c 133 -/
noncomputable def o10_0 (E mu t dp : ℝ) (f0 f1 : Fin 12 → ℝ) : ℝ :=
  ((5 / 12) * E * t * (f1 0) * (f1 10) / (mu + 1) + (5 / 12) * E * t * (f0 0) * (f0 10) / (mu + 1)) * dp

/-- `out[121]`, TMQ/wrapped_code_1.c 134 -/
noncomputable def o10_1 (E mu t dp : ℝ) (f0 f1 : Fin 12 → ℝ) : ℝ :=
  ((5 / 12) * E * t * (f1 1) * (f1 10) / (mu + 1) + (5 / 12) * E * t * (f0 1) * (f0 10) / (mu + 1)) * dp

/-- `out[122]`, TMQ/wrapped_code_1.c 135 -/
noncomputable def o10_2 (E mu t dp : ℝ) (f0 f1 : Fin 12 → ℝ) : ℝ :=
  ((5 / 12) * E * t * (f1 10) * (f1 2) / (mu + 1) + (5 / 12) * E * t * (f0 10) * (f0 2) / (mu + 1)) * dp

/-- `out[123]`, TMQ/wrapped_code_1.c 136 -/
noncomputable def o10_3 (E mu t dp : ℝ) (f0 f1 : Fin 12 → ℝ) : ℝ :=
  ((5 / 12) * E * t * (f1 3) * (f1 10) / (mu + 1) + (5 / 12) * E * t * (f0 3) * (f0 10) / (mu + 1)) * dp

/-- `out[124]`, TMQ/wrapped_code_1.c 137 -/
noncomputable def o10_4 (E mu t dp : ℝ) (f0 f1 : Fin 12 → ℝ) : ℝ :=
  ((5 / 12) * E * t * (f1 10) * (f1 4) / (mu + 1) + (5 / 12) * E * t * (f0 10) * (f0 4) / (mu + 1)) * dp

/-- `out[125]`, TMQ/wrapped_code_1.c 138 -/
noncomputable def o10_5 (E mu t dp : ℝ) (f0 f1 : Fin 12 → ℝ) : ℝ :=
  ((5 / 12) * E * t * (f1 10) * (f1 5) / (mu + 1) + (5 / 12) * E * t * (f0 10) * (f0 5) / (mu + 1)) * dp

/-- `out[126]`, TMQ/wrapped_code_1.c 139 -/
noncomputable def o10_6 (E mu t dp : ℝ) (f0 f1 : Fin 12 → ℝ) : ℝ :=
  ((5 / 12) * E * t * (f1 6) * (f1 10) / (mu + 1) + (5 / 12) * E * t * (f0 6) * (f0 10) / (mu + 1)) * dp

/-- `out[127]`, TMQ/wrapped_code_1.c 140 -/
noncomputable def o10_7 (E mu t dp : ℝ) (f0 f1 : Fin 12 → ℝ) : ℝ :=
  ((5 / 12) * E * t * (f1 10) * (f1 7) / (mu + 1) + (5 / 12) * E * t * (f0 10) * (f0 7) / (mu + 1)) * dp

/-- `out[128]`, TMQ/wrapped_code_1.c 141 -/
noncomputable def o10_8 (E mu t dp : ℝ) (f0 f1 : Fin 12 → ℝ) : ℝ :=
  ((5 / 12) * E * t * (f1 10) * (f1 8) / (mu + 1) + (5 / 12) * E * t * (f0 10) * (f0 8) / (mu + 1)) * dp

/-- `out[129]`, TMQ/wrapped_code_1.c 142 -/
noncomputable def o10_9 (E mu t dp : ℝ) (f0 f1 : Fin 12 → ℝ) : ℝ :=
  ((5 / 12) * E * t * (f1 9) * (f1 10) / (mu + 1) + (5 / 12) * E * t * (f0 9) * (f0 10) / (mu + 1)) * dp

/-- `out[130]`, TMQ/wrapped_code_1.c 143 -/
noncomputable def o10_10 (E mu t dp : ℝ) (f0 f1 : Fin 12 → ℝ) : ℝ :=
  ((5 / 12) * E * t * (f1 10) ^ 2 / (mu + 1) + (5 / 12) * E * t * (f0 10) ^ 2 / (mu + 1)) * dp

/-- `out[131]`, TMQ/wrapped_code_1.c 144 -/
noncomputable def o10_11 (E mu t dp : ℝ) (f0 f1 : Fin 12 → ℝ) : ℝ :=
  ((5 / 12) * E * t * (f1 10) * (f1 11) / (mu + 1) + (5 / 12) * E * t * (f0 10) * (f0 11) / (mu + 1)) * dp

/-- `out[120]` to `out[131]`, TMQ/wrapped_code_1.c 133-144 -/
noncomputable def out10 (E mu t dp : ℝ) (f0 f1 : Fin 12 → ℝ) : Fin 12 → ℝ := ![
  o10_0 E mu t dp f0 f1,
  o10_1 E mu t dp f0 f1,
  o10_2 E mu t dp f0 f1,
  o10_3 E mu t dp f0 f1,
  o10_4 E mu t dp f0 f1,
  o10_5 E mu t dp f0 f1,
  o10_6 E mu t dp f0 f1,
  o10_7 E mu t dp f0 f1,
  o10_8 E mu t dp f0 f1,
  o10_9 E mu t dp f0 f1,
  o10_10 E mu t dp f0 f1,
  o10_11 E mu t dp f0 f1]

/-- `out[132]`, TMQ/wrapped_code_1.c 145 -/
noncomputable def o11_0 (E mu t dp : ℝ) (f0 f1 : Fin 12 → ℝ) : ℝ :=
  ((5 / 12) * E * t * (f1 0) * (f1 11) / (mu + 1) + (5 / 12) * E * t * (f0 0) * (f0 11) / (mu + 1)) * dp

/-- `out[133]`, TMQ/wrapped_code_1.c 146 -/
noncomputable def o11_1 (E mu t dp : ℝ) (f0 f1 : Fin 12 → ℝ) : ℝ :=
  ((5 / 12) * E * t * (f1 1) * (f1 11) / (mu + 1) + (5 / 12) * E * t * (f0 1) * (f0 11) / (mu + 1)) * dp

/-- `out[134]`, TMQ/wrapped_code_1.c 147 -/
noncomputable def o11_2 (E mu t dp : ℝ) (f0 f1 : Fin 12 → ℝ) : ℝ :=
  ((5 / 12) * E * t * (f1 2) * (f1 11) / (mu + 1) + (5 / 12) * E * t * (f0 2) * (f0 11) / (mu + 1)) * dp

/-- `out[135]`, TMQ/wrapped_code_1.c 148 -/
noncomputable def o11_3 (E mu t dp : ℝ) (f0 f1 : Fin 12 → ℝ) : ℝ :=
  ((5 / 12) * E * t * (f1 3) * (f1 11) / (mu + 1) + (5 / 12) * E * t * (f0 3) * (f0 11) / (mu + 1)) * dp

/-- `out[136]`, TMQ/wrapped_code_1.c 149 -/
noncomputable def o11_4 (E mu t dp : ℝ) (f0 f1 : Fin 12 → ℝ) : ℝ :=
  ((5 / 12) * E * t * (f1 4) * (f1 11) / (mu + 1) + (5 / 12) * E * t * (f0 4) * (f0 11) / (mu + 1)) * dp

/-- `out[137]`, TMQ/wrapped_code_1.c 150 -/
noncomputable def o11_5 (E mu t dp : ℝ) (f0 f1 : Fin 12 → ℝ) : ℝ :=
  ((5 / 12) * E * t * (f1 11) * (f1 5) / (mu + 1) + (5 / 12) * E * t * (f0 11) * (f0 5) / (mu + 1)) * dp

/-- `out[138]`, TMQ/wrapped_code_1.c 151 -/
noncomputable def o11_6 (E mu t dp : ℝ) (f0 f1 : Fin 12 → ℝ) : ℝ :=
  ((5 / 12) * E * t * (f1 6) * (f1 11) / (mu + 1) + (5 / 12) * E * t * (f0 6) * (f0 11) / (mu + 1)) * dp

/-- `out[139]`, TMQ/wrapped_code_1.c 152 -/
noncomputable def o11_7 (E mu t dp : ℝ) (f0 f1 : Fin 12 → ℝ) : ℝ :=
  ((5 / 12) * E * t * (f1 7) * (f1 11) / (mu + 1) + (5 / 12) * E * t * (f0 7) * (f0 11) / (mu + 1)) * dp

/-- `out[140]`, TMQ/wrapped_code_1.c 153 -/
noncomputable def o11_8 (E mu t dp : ℝ) (f0 f1 : Fin 12 → ℝ) : ℝ :=
  ((5 / 12) * E * t * (f1 11) * (f1 8) / (mu + 1) + (5 / 12) * E * t * (f0 11) * (f0 8) / (mu + 1)) * dp

/-- `out[141]`, TMQ/wrapped_code_1.c 154 -/
noncomputable def o11_9 (E mu t dp : ℝ) (f0 f1 : Fin 12 → ℝ) : ℝ :=
  ((5 / 12) * E * t * (f1 9) * (f1 11) / (mu + 1) + (5 / 12) * E * t * (f0 9) * (f0 11) / (mu + 1)) * dp

/-- `out[142]`, TMQ/wrapped_code_1.c 155 -/
noncomputable def o11_10 (E mu t dp : ℝ) (f0 f1 : Fin 12 → ℝ) : ℝ :=
  ((5 / 12) * E * t * (f1 10) * (f1 11) / (mu + 1) + (5 / 12) * E * t * (f0 10) * (f0 11) / (mu + 1)) * dp

/-- `out[143]`, TMQ/wrapped_code_1.c 156 -/
noncomputable def o11_11 (E mu t dp : ℝ) (f0 f1 : Fin 12 → ℝ) : ℝ :=
  ((5 / 12) * E * t * (f1 11) ^ 2 / (mu + 1) + (5 / 12) * E * t * (f0 11) ^ 2 / (mu + 1)) * dp

/-- `out[132]` to `out[143]`, TMQ/wrapped_code_1.c 145-156 -/
noncomputable def out11 (E mu t dp : ℝ) (f0 f1 : Fin 12 → ℝ) : Fin 12 → ℝ := ![
  o11_0 E mu t dp f0 f1,
  o11_1 E mu t dp f0 f1,
  o11_2 E mu t dp f0 f1,
  o11_3 E mu t dp f0 f1,
  o11_4 E mu t dp f0 f1,
  o11_5 E mu t dp f0 f1,
  o11_6 E mu t dp f0 f1,
  o11_7 E mu t dp f0 f1,
  o11_8 E mu t dp f0 f1,
  o11_9 E mu t dp f0 f1,
  o11_10 E mu t dp f0 f1,
  o11_11 E mu t dp f0 f1]

/-- `autofunc` TMQ/wrapped_code_1.c 11-158: what is written to `out[n]`, `n = 12*i+j` -/
noncomputable def out (E mu t xi eta x1 y1 x2 y2 x3 y3 x4 y4 : ℝ) (n : ℕ) : ℝ :=
  let l12 := (x1 - x2) ^ 2 + (y1 - y2) ^ 2
  let l23 := (x2 - x3) ^ 2 + (y2 - y3) ^ 2
  let l34 := (x3 - x4) ^ 2 + (y3 - y4) ^ 2
  let l41 := (-x1 + x4) ^ 2 + (-y1 + y4) ^ 2
  let q1 := (-x1 + x2) * (-y1 + y4) - (x1 - x4) * (y1 - y2)
  let q2 := -(-x1 + x2) * (y2 - y3) + (-x2 + x3) * (y1 - y2)
  let q3 := -(-x2 + x3) * (y3 - y4) + (-x3 + x4) * (y2 - y3)
  let q4 := (x1 - x4) * (y3 - y4) - (-x3 + x4) * (-y1 + y4)
  let w12 := -(5 / 6) * mu + 2 * t ^ 2 / l12 + (5 / 6)
  let w23 := -(5 / 6) * mu + 2 * t ^ 2 / l23 + (5 / 6)
  let w34 := -(5 / 6) * mu + 2 * t ^ 2 / l34 + (5 / 6)
  let w41 := -(5 / 6) * mu + 2 * t ^ 2 / l41 + (5 / 6)
  let dp := -0.125 * eta * x1 * y2 + 0.125 * eta * x1 * y3 + 0.125 * eta * x2 * y1 - 0.125 * eta * x2 * y4 - 0.125 * eta * x3 * y1 + 0.125 *
    eta * x3 * y4 + 0.125 * eta * x4 * y2 - 0.125 * eta * x4 * y3 - 0.125 * x1 * xi * y3 + 0.125 * x1 * xi * y4 + 0.125 * x1 * y2
    - 0.125 * x1 * y4 + 0.125 * x2 * xi * y3 - 0.125 * x2 * xi * y4 - 0.125 * x2 * y1 + 0.125 * x2 * y3 + 0.125 * x3 * xi * y1 -
    0.125 * x3 * xi * y2 - 0.125 * x3 * y2 + 0.125 * x3 * y4 - 0.125 * x4 * xi * y1 + 0.125 * x4 * xi * y2 + 0.125 * x4 * y1 -
    0.125 * x4 * y3
  let f0 := row0 q1 q2 q3 q4 l12 l23 l34 l41 w12 w23 w34 w41 t xi eta x1 x2 x3 x4 y1 y2 y3 y4
  let f1 := row1 q1 q2 q3 q4 l12 l23 l34 l41 w12 w23 w34 w41 t xi eta x1 x2 x3 x4 y1 y2 y3 y4
  (![out0 E mu t dp f0 f1, out1 E mu t dp f0 f1, out2 E mu t dp f0 f1, out3 E mu t dp f0 f1,
    out4 E mu t dp f0 f1, out5 E mu t dp f0 f1, out6 E mu t dp f0 f1, out7 E mu t dp f0 f1,
    out8 E mu t dp f0 f1, out9 E mu t dp f0 f1, out10 E mu t dp f0 f1, out11 E mu t dp f0 f1] : Fin 12 → Fin 12 → ℝ)
    (Fin.ofNat 12 (n / 12)) (Fin.ofNat 12 n)

/-- `autofunc_c` metaTMQs.pyx 7-11, called with the coordinates in the order `x1,y1,x2,y2,...` (TMQ.py 47): a 12 by 12 array, filled by rows -/
noncomputable def autofunc_c (E mu t : ℝ) (x y : Fin 4 → ℝ) (ξ η : ℝ) : Matrix (Fin 4 × Fin 3) (Fin 4 × Fin 3) ℝ := fun k l =>
  out E mu t ξ η (x 0) (y 0) (x 1) (y 1) (x 2) (y 2) (x 3) (y 3) (12 * (3 * k.1.val + k.2.val) + (3 * l.1.val + l.2.val))

end TMQsText

end Hyperstatic
