import Verif.Model.ShellK

/-
Model of the compiled routine of the 4-node membrane: the C text in hyperstatic/core/fe_model/meta/membranes/GQ12/wrapped_code_0.c and
the Cython wrapper metaGQ12.pyx.

The C expressions are copied mechanically: `pow(a, n)` is written `a ^ n`, `1.0` is written `1`, doubles are real numbers.  Expressions
that occur again and again (strains, divisors, the determinant) are named; everything else is as it stands there.
-/

namespace Hyperstatic
open Matrix

namespace GQ12Text

/-- the expression for the derivative of the shape function along the first axis of node 0; wherever it occurs in GQ12/wrapped_code_0.c 13-156 -/
noncomputable def gx0 (dj _xs _ys _xe ye _nxe nys xi eta _x1 _x2 _x3 _x4 _y1 _y2 _y3 _y4 : ℝ) : ℝ :=
  (0.25 - 0.25 * eta) * ye / dj + (-0.25 * xi - 0.25) * nys / dj

/-- the expression for the derivative of the shape function along the first axis of node 1; wherever it occurs in GQ12/wrapped_code_0.c 13-156 -/
noncomputable def gx1 (dj _xs _ys _xe ye _nxe nys xi eta _x1 _x2 _x3 _x4 _y1 _y2 _y3 _y4 : ℝ) : ℝ :=
  (0.25 * eta + 0.25) * ye / dj + (0.25 * xi + 0.25) * nys / dj

/-- the expression for the derivative of the shape function along the first axis of node 2; wherever it occurs in GQ12/wrapped_code_0.c 13-156 -/
noncomputable def gx2 (dj _xs _ys _xe ye _nxe nys xi eta _x1 _x2 _x3 _x4 _y1 _y2 _y3 _y4 : ℝ) : ℝ :=
  (0.25 - 0.25 * xi) * nys / dj + (-0.25 * eta - 0.25) * ye / dj

/-- the expression for the derivative of the shape function along the first axis of node 3; wherever it occurs in GQ12/wrapped_code_0.c 13-156 -/
noncomputable def gx3 (dj _xs _ys _xe ye _nxe nys xi eta _x1 _x2 _x3 _x4 _y1 _y2 _y3 _y4 : ℝ) : ℝ :=
  (0.25 * eta - 0.25) * ye / dj + (0.25 * xi - 0.25) * nys / dj

/-- the expression for the derivative of the shape function along the second axis of node 0; wherever it occurs in GQ12/wrapped_code_0.c 13-156 -/
noncomputable def gy0 (dj xs _ys _xe _ye nxe _nys xi eta _x1 _x2 _x3 _x4 _y1 _y2 _y3 _y4 : ℝ) : ℝ :=
  (0.25 - 0.25 * eta) * nxe / dj + (-0.25 * xi - 0.25) * xs / dj

/-- the expression for the derivative of the shape function along the second axis of node 1; wherever it occurs in GQ12/wrapped_code_0.c 13-156 -/
noncomputable def gy1 (dj xs _ys _xe _ye nxe _nys xi eta _x1 _x2 _x3 _x4 _y1 _y2 _y3 _y4 : ℝ) : ℝ :=
  (0.25 * eta + 0.25) * nxe / dj + (0.25 * xi + 0.25) * xs / dj

/-- the expression for the derivative of the shape function along the second axis of node 2; wherever it occurs in GQ12/wrapped_code_0.c 13-156 -/
noncomputable def gy2 (dj xs _ys _xe _ye nxe _nys xi eta _x1 _x2 _x3 _x4 _y1 _y2 _y3 _y4 : ℝ) : ℝ :=
  (0.25 - 0.25 * xi) * xs / dj + (-0.25 * eta - 0.25) * nxe / dj

/-- the expression for the derivative of the shape function along the second axis of node 3; wherever it occurs in GQ12/wrapped_code_0.c 13-156 -/
noncomputable def gy3 (dj xs _ys _xe _ye nxe _nys xi eta _x1 _x2 _x3 _x4 _y1 _y2 _y3 _y4 : ℝ) : ℝ :=
  (0.25 * eta - 0.25) * nxe / dj + (0.25 * xi - 0.25) * xs / dj

/-- the expression for the first strain of a rotation of node 0; wherever it occurs in GQ12/wrapped_code_0.c 13-156 -/
noncomputable def ex0 (dj _xs _ys _xe ye _nxe nys xi eta _x1 _x2 _x3 _x4 y1 y2 _y3 y4 : ℝ) : ℝ :=
  (2 * eta * ((1 / 8) * xi + 1 / 8) * (-1 / 2 * y1 + (1 / 2) * y2) - 1 / 8 * xi * (1 - xi ^ 2) * ((1 / 2) * y1 - 1 / 2 * y4)) * nys
    / dj + (-1 / 4 * xi ^ 2 * (1 - eta) * ((1 / 2) * y1 - 1 / 2 * y4) + (1 / 8 - 1 / 8 * eta) * (1 - xi ^ 2) * ((1 / 2) * y1 - 1 /
    2 * y4) + ((1 / 8) * eta ^ 2 - 1 / 8) * (-1 / 2 * y1 + (1 / 2) * y2)) * ye / dj

/-- the expression for the first strain of a rotation of node 1; wherever it occurs in GQ12/wrapped_code_0.c 13-156 -/
noncomputable def ex1 (dj _xs _ys _xe ye _nxe nys xi eta _x1 _x2 _x3 _x4 y1 y2 y3 _y4 : ℝ) : ℝ :=
  (-2 * eta * ((1 / 8) * xi + 1 / 8) * (-1 / 2 * y1 + (1 / 2) * y2) + (1 / 8) * xi * (1 - xi ^ 2) * ((1 / 2) * y2 - 1 / 2 * y3)) *
    nys / dj + (-1 / 4 * xi ^ 2 * (eta + 1) * ((1 / 2) * y2 - 1 / 2 * y3) + (1 / 8 - 1 / 8 * eta ^ 2) * (-1 / 2 * y1 + (1 / 2) *
    y2) + (1 - xi ^ 2) * ((1 / 8) * eta + 1 / 8) * ((1 / 2) * y2 - 1 / 2 * y3)) * ye / dj

/-- the expression for the first strain of a rotation of node 2; wherever it occurs in GQ12/wrapped_code_0.c 13-156 -/
noncomputable def ex2 (dj _xs _ys _xe ye _nxe nys xi eta _x1 _x2 _x3 _x4 _y1 y2 y3 y4 : ℝ) : ℝ :=
  (-2 * eta * (1 / 8 - 1 / 8 * xi) * ((1 / 2) * y3 - 1 / 2 * y4) + (1 / 8) * xi * (1 - xi ^ 2) * ((1 / 2) * y2 - 1 / 2 * y3)) * nys
    / dj + (-1 / 4 * xi ^ 2 * (eta + 1) * ((1 / 2) * y2 - 1 / 2 * y3) + (1 - xi ^ 2) * ((1 / 8) * eta + 1 / 8) * ((1 / 2) * y2 - 1
    / 2 * y3) + ((1 / 8) * eta ^ 2 - 1 / 8) * ((1 / 2) * y3 - 1 / 2 * y4)) * ye / dj

/-- the expression for the first strain of a rotation of node 3; wherever it occurs in GQ12/wrapped_code_0.c 13-156 -/
noncomputable def ex3 (dj _xs _ys _xe ye _nxe nys xi eta _x1 _x2 _x3 _x4 y1 _y2 y3 y4 : ℝ) : ℝ :=
  (2 * eta * (1 / 8 - 1 / 8 * xi) * ((1 / 2) * y3 - 1 / 2 * y4) - 1 / 8 * xi * (1 - xi ^ 2) * ((1 / 2) * y1 - 1 / 2 * y4)) * nys /
    dj + (-1 / 4 * xi ^ 2 * (1 - eta) * ((1 / 2) * y1 - 1 / 2 * y4) + (1 / 8 - 1 / 8 * eta) * (1 - xi ^ 2) * ((1 / 2) * y1 - 1 / 2
    * y4) + (1 / 8 - 1 / 8 * eta ^ 2) * ((1 / 2) * y3 - 1 / 2 * y4)) * ye / dj

/-- the expression for the second strain of a rotation of node 0; wherever it occurs in GQ12/wrapped_code_0.c 13-156 -/
noncomputable def ey0 (dj xs _ys _xe _ye nxe _nys xi eta x1 x2 _x3 x4 _y1 _y2 _y3 _y4 : ℝ) : ℝ :=
  (2 * eta * (-1 / 2 * x1 + (1 / 2) * x2) * (-1 / 8 * xi - 1 / 8) + (1 / 8) * xi * (1 - xi ^ 2) * ((1 / 2) * x1 - 1 / 2 * x4)) * xs
    / dj + ((1 / 4) * xi ^ 2 * (1 - eta) * ((1 / 2) * x1 - 1 / 2 * x4) + (1 / 8 - 1 / 8 * eta ^ 2) * (-1 / 2 * x1 + (1 / 2) * x2)
    + (1 - xi ^ 2) * ((1 / 8) * eta - 1 / 8) * ((1 / 2) * x1 - 1 / 2 * x4)) * nxe / dj

/-- the expression for the second strain of a rotation of node 1; wherever it occurs in GQ12/wrapped_code_0.c 13-156 -/
noncomputable def ey1 (dj xs _ys _xe _ye nxe _nys xi eta x1 x2 x3 _x4 _y1 _y2 _y3 _y4 : ℝ) : ℝ :=
  (-2 * eta * (-1 / 2 * x1 + (1 / 2) * x2) * (-1 / 8 * xi - 1 / 8) - 1 / 8 * xi * (1 - xi ^ 2) * ((1 / 2) * x2 - 1 / 2 * x3)) * xs /
    dj + ((1 / 4) * xi ^ 2 * (eta + 1) * ((1 / 2) * x2 - 1 / 2 * x3) + (1 - xi ^ 2) * (-1 / 8 * eta - 1 / 8) * ((1 / 2) * x2 - 1 /
    2 * x3) + ((1 / 8) * eta ^ 2 - 1 / 8) * (-1 / 2 * x1 + (1 / 2) * x2)) * nxe / dj

/-- the expression for the second strain of a rotation of node 2; wherever it occurs in GQ12/wrapped_code_0.c 13-156 -/
noncomputable def ey2 (dj xs _ys _xe _ye nxe _nys xi eta _x1 x2 x3 x4 _y1 _y2 _y3 _y4 : ℝ) : ℝ :=
  (-2 * eta * ((1 / 2) * x3 - 1 / 2 * x4) * ((1 / 8) * xi - 1 / 8) - 1 / 8 * xi * (1 - xi ^ 2) * ((1 / 2) * x2 - 1 / 2 * x3)) * xs /
    dj + ((1 / 4) * xi ^ 2 * (eta + 1) * ((1 / 2) * x2 - 1 / 2 * x3) + (1 / 8 - 1 / 8 * eta ^ 2) * ((1 / 2) * x3 - 1 / 2 * x4) +
    (1 - xi ^ 2) * (-1 / 8 * eta - 1 / 8) * ((1 / 2) * x2 - 1 / 2 * x3)) * nxe / dj

/-- the expression for the second strain of a rotation of node 3; wherever it occurs in GQ12/wrapped_code_0.c 13-156 -/
noncomputable def ey3 (dj xs _ys _xe _ye nxe _nys xi eta x1 _x2 x3 x4 _y1 _y2 _y3 _y4 : ℝ) : ℝ :=
  (2 * eta * ((1 / 2) * x3 - 1 / 2 * x4) * ((1 / 8) * xi - 1 / 8) + (1 / 8) * xi * (1 - xi ^ 2) * ((1 / 2) * x1 - 1 / 2 * x4)) * xs
    / dj + ((1 / 4) * xi ^ 2 * (1 - eta) * ((1 / 2) * x1 - 1 / 2 * x4) + (1 - xi ^ 2) * ((1 / 8) * eta - 1 / 8) * ((1 / 2) * x1 -
    1 / 2 * x4) + ((1 / 8) * eta ^ 2 - 1 / 8) * ((1 / 2) * x3 - 1 / 2 * x4)) * nxe / dj

/-- the expression for the shear strain of a rotation of node 0; wherever it occurs in GQ12/wrapped_code_0.c 13-156 -/
noncomputable def es0 (dj xs _ys _xe ye nxe nys xi eta x1 x2 _x3 x4 y1 y2 _y3 y4 : ℝ) : ℝ :=
  (2 * eta * (-1 / 2 * x1 + (1 / 2) * x2) * (-1 / 8 * xi - 1 / 8) + (1 / 8) * xi * (1 - xi ^ 2) * ((1 / 2) * x1 - 1 / 2 * x4)) * nys
    / dj + (2 * eta * ((1 / 8) * xi + 1 / 8) * (-1 / 2 * y1 + (1 / 2) * y2) - 1 / 8 * xi * (1 - xi ^ 2) * ((1 / 2) * y1 - 1 / 2 *
    y4)) * xs / dj + ((1 / 4) * xi ^ 2 * (1 - eta) * ((1 / 2) * x1 - 1 / 2 * x4) + (1 / 8 - 1 / 8 * eta ^ 2) * (-1 / 2 * x1 + (1 /
    2) * x2) + (1 - xi ^ 2) * ((1 / 8) * eta - 1 / 8) * ((1 / 2) * x1 - 1 / 2 * x4)) * ye / dj + (-1 / 4 * xi ^ 2 * (1 - eta) *
    ((1 / 2) * y1 - 1 / 2 * y4) + (1 / 8 - 1 / 8 * eta) * (1 - xi ^ 2) * ((1 / 2) * y1 - 1 / 2 * y4) + ((1 / 8) * eta ^ 2 - 1 / 8)
    * (-1 / 2 * y1 + (1 / 2) * y2)) * nxe / dj

/-- the expression for the shear strain of a rotation of node 1; wherever it occurs in GQ12/wrapped_code_0.c 13-156 -/
noncomputable def es1 (dj xs _ys _xe ye nxe nys xi eta x1 x2 x3 _x4 y1 y2 y3 _y4 : ℝ) : ℝ :=
  (-2 * eta * (-1 / 2 * x1 + (1 / 2) * x2) * (-1 / 8 * xi - 1 / 8) - 1 / 8 * xi * (1 - xi ^ 2) * ((1 / 2) * x2 - 1 / 2 * x3)) * nys
    / dj + (-2 * eta * ((1 / 8) * xi + 1 / 8) * (-1 / 2 * y1 + (1 / 2) * y2) + (1 / 8) * xi * (1 - xi ^ 2) * ((1 / 2) * y2 - 1 / 2
    * y3)) * xs / dj + ((1 / 4) * xi ^ 2 * (eta + 1) * ((1 / 2) * x2 - 1 / 2 * x3) + (1 - xi ^ 2) * (-1 / 8 * eta - 1 / 8) * ((1 /
    2) * x2 - 1 / 2 * x3) + ((1 / 8) * eta ^ 2 - 1 / 8) * (-1 / 2 * x1 + (1 / 2) * x2)) * ye / dj + (-1 / 4 * xi ^ 2 * (eta + 1) *
    ((1 / 2) * y2 - 1 / 2 * y3) + (1 / 8 - 1 / 8 * eta ^ 2) * (-1 / 2 * y1 + (1 / 2) * y2) + (1 - xi ^ 2) * ((1 / 8) * eta + 1 /
    8) * ((1 / 2) * y2 - 1 / 2 * y3)) * nxe / dj

/-- the expression for the shear strain of a rotation of node 2; wherever it occurs in GQ12/wrapped_code_0.c 13-156 -/
noncomputable def es2 (dj xs _ys _xe ye nxe nys xi eta _x1 x2 x3 x4 _y1 y2 y3 y4 : ℝ) : ℝ :=
  (-2 * eta * (1 / 8 - 1 / 8 * xi) * ((1 / 2) * y3 - 1 / 2 * y4) + (1 / 8) * xi * (1 - xi ^ 2) * ((1 / 2) * y2 - 1 / 2 * y3)) * xs /
    dj + (-2 * eta * ((1 / 2) * x3 - 1 / 2 * x4) * ((1 / 8) * xi - 1 / 8) - 1 / 8 * xi * (1 - xi ^ 2) * ((1 / 2) * x2 - 1 / 2 *
    x3)) * nys / dj + ((1 / 4) * xi ^ 2 * (eta + 1) * ((1 / 2) * x2 - 1 / 2 * x3) + (1 / 8 - 1 / 8 * eta ^ 2) * ((1 / 2) * x3 - 1
    / 2 * x4) + (1 - xi ^ 2) * (-1 / 8 * eta - 1 / 8) * ((1 / 2) * x2 - 1 / 2 * x3)) * ye / dj + (-1 / 4 * xi ^ 2 * (eta + 1) *
    ((1 / 2) * y2 - 1 / 2 * y3) + (1 - xi ^ 2) * ((1 / 8) * eta + 1 / 8) * ((1 / 2) * y2 - 1 / 2 * y3) + ((1 / 8) * eta ^ 2 - 1 /
    8) * ((1 / 2) * y3 - 1 / 2 * y4)) * nxe / dj

/-- the expression for the shear strain of a rotation of node 3; wherever it occurs in GQ12/wrapped_code_0.c 13-156 -/
noncomputable def es3 (dj xs _ys _xe ye nxe nys xi eta x1 _x2 x3 x4 y1 _y2 y3 y4 : ℝ) : ℝ :=
  (2 * eta * (1 / 8 - 1 / 8 * xi) * ((1 / 2) * y3 - 1 / 2 * y4) - 1 / 8 * xi * (1 - xi ^ 2) * ((1 / 2) * y1 - 1 / 2 * y4)) * xs / dj
    + (2 * eta * ((1 / 2) * x3 - 1 / 2 * x4) * ((1 / 8) * xi - 1 / 8) + (1 / 8) * xi * (1 - xi ^ 2) * ((1 / 2) * x1 - 1 / 2 * x4))
    * nys / dj + ((1 / 4) * xi ^ 2 * (1 - eta) * ((1 / 2) * x1 - 1 / 2 * x4) + (1 - xi ^ 2) * ((1 / 8) * eta - 1 / 8) * ((1 / 2) *
    x1 - 1 / 2 * x4) + ((1 / 8) * eta ^ 2 - 1 / 8) * ((1 / 2) * x3 - 1 / 2 * x4)) * ye / dj + (-1 / 4 * xi ^ 2 * (1 - eta) * ((1 /
    2) * y1 - 1 / 2 * y4) + (1 / 8 - 1 / 8 * eta) * (1 - xi ^ 2) * ((1 / 2) * y1 - 1 / 2 * y4) + (1 / 8 - 1 / 8 * eta ^ 2) * ((1 /
    2) * y3 - 1 / 2 * y4)) * nxe / dj

/-- the expressions for the derivative of the shape function along the first axis, all nodes; wherever it occurs in GQ12/wrapped_code_0.c 13-156 -/
noncomputable def gx (dj xs ys xe ye nxe nys xi eta x1 x2 x3 x4 y1 y2 y3 y4 : ℝ) : Fin 4 → ℝ := ![
  gx0 dj xs ys xe ye nxe nys xi eta x1 x2 x3 x4 y1 y2 y3 y4,
  gx1 dj xs ys xe ye nxe nys xi eta x1 x2 x3 x4 y1 y2 y3 y4,
  gx2 dj xs ys xe ye nxe nys xi eta x1 x2 x3 x4 y1 y2 y3 y4,
  gx3 dj xs ys xe ye nxe nys xi eta x1 x2 x3 x4 y1 y2 y3 y4]

/-- the expressions for the derivative of the shape function along the second axis, all nodes; wherever it occurs in GQ12/wrapped_code_0.c 13-156 -/
noncomputable def gy (dj xs ys xe ye nxe nys xi eta x1 x2 x3 x4 y1 y2 y3 y4 : ℝ) : Fin 4 → ℝ := ![
  gy0 dj xs ys xe ye nxe nys xi eta x1 x2 x3 x4 y1 y2 y3 y4,
  gy1 dj xs ys xe ye nxe nys xi eta x1 x2 x3 x4 y1 y2 y3 y4,
  gy2 dj xs ys xe ye nxe nys xi eta x1 x2 x3 x4 y1 y2 y3 y4,
  gy3 dj xs ys xe ye nxe nys xi eta x1 x2 x3 x4 y1 y2 y3 y4]

/-- the expressions for the first strain of rotations, all nodes; wherever it occurs in GQ12/wrapped_code_0.c 13-156 -/
noncomputable def ex (dj xs ys xe ye nxe nys xi eta x1 x2 x3 x4 y1 y2 y3 y4 : ℝ) : Fin 4 → ℝ := ![
  ex0 dj xs ys xe ye nxe nys xi eta x1 x2 x3 x4 y1 y2 y3 y4,
  ex1 dj xs ys xe ye nxe nys xi eta x1 x2 x3 x4 y1 y2 y3 y4,
  ex2 dj xs ys xe ye nxe nys xi eta x1 x2 x3 x4 y1 y2 y3 y4,
  ex3 dj xs ys xe ye nxe nys xi eta x1 x2 x3 x4 y1 y2 y3 y4]

/-- the expressions for the second strain of rotations, all nodes; wherever it occurs in GQ12/wrapped_code_0.c 13-156 -/
noncomputable def ey (dj xs ys xe ye nxe nys xi eta x1 x2 x3 x4 y1 y2 y3 y4 : ℝ) : Fin 4 → ℝ := ![
  ey0 dj xs ys xe ye nxe nys xi eta x1 x2 x3 x4 y1 y2 y3 y4,
  ey1 dj xs ys xe ye nxe nys xi eta x1 x2 x3 x4 y1 y2 y3 y4,
  ey2 dj xs ys xe ye nxe nys xi eta x1 x2 x3 x4 y1 y2 y3 y4,
  ey3 dj xs ys xe ye nxe nys xi eta x1 x2 x3 x4 y1 y2 y3 y4]

/-- the expressions for the shear strain of rotations, all nodes; wherever it occurs in GQ12/wrapped_code_0.c 13-156 -/
noncomputable def es (dj xs ys xe ye nxe nys xi eta x1 x2 x3 x4 y1 y2 y3 y4 : ℝ) : Fin 4 → ℝ := ![
  es0 dj xs ys xe ye nxe nys xi eta x1 x2 x3 x4 y1 y2 y3 y4,
  es1 dj xs ys xe ye nxe nys xi eta x1 x2 x3 x4 y1 y2 y3 y4,
  es2 dj xs ys xe ye nxe nys xi eta x1 x2 x3 x4 y1 y2 y3 y4,
  es3 dj xs ys xe ye nxe nys xi eta x1 x2 x3 x4 y1 y2 y3 y4]

/-- `out[0]`, GQ12/wrapped_code_0.c 13 -/
noncomputable def o0_0 (E mu t dp : ℝ) (gx gy _ex _ey _es : Fin 4 → ℝ) : ℝ :=
  t * (E * (1 / 2 - 1 / 2 * mu) * (gy 0) ^ 2 / (1 - mu ^ 2) + E * (gx 0) ^ 2 / (1 - mu ^ 2)) * dp

/-- `out[1]`, GQ12/wrapped_code_0.c 14 -/
noncomputable def o0_1 (E mu t dp : ℝ) (gx gy _ex _ey _es : Fin 4 → ℝ) : ℝ :=
  t * (E * mu * (gy 0) * (gx 0) / (1 - mu ^ 2) + E * (1 / 2 - 1 / 2 * mu) * (gy 0) * (gx 0) / (1 - mu ^ 2)) * dp

/-- `out[2]`, GQ12/wrapped_code_0.c 15 -/
noncomputable def o0_2 (E mu t dp : ℝ) (gx gy ex ey es : Fin 4 → ℝ) : ℝ :=
  t * (E * mu * (gx 0) * (ey 0) / (1 - mu ^ 2) + E * (1 / 2 - 1 / 2 * mu) * (gy 0) * (es 0) / (1 - mu ^ 2) + E * (gx 0) * (ex 0) /
    (1 - mu ^ 2)) * dp

/-- `out[3]`, GQ12/wrapped_code_0.c 16 -/
noncomputable def o0_3 (E mu t dp : ℝ) (gx gy _ex _ey _es : Fin 4 → ℝ) : ℝ :=
  t * (E * (1 / 2 - 1 / 2 * mu) * (gy 0) * (gy 1) / (1 - mu ^ 2) + E * (gx 0) * (gx 1) / (1 - mu ^ 2)) * dp

/-- `out[4]`, GQ12/wrapped_code_0.c 17 -/
noncomputable def o0_4 (E mu t dp : ℝ) (gx gy _ex _ey _es : Fin 4 → ℝ) : ℝ :=
  t * (E * mu * (gx 0) * (gy 1) / (1 - mu ^ 2) + E * (1 / 2 - 1 / 2 * mu) * (gy 0) * (gx 1) / (1 - mu ^ 2)) * dp

/-- `out[5]`, GQ12/wrapped_code_0.c 18 -/
noncomputable def o0_5 (E mu t dp : ℝ) (gx gy ex ey es : Fin 4 → ℝ) : ℝ :=
  t * (E * mu * (gx 0) * (ey 1) / (1 - mu ^ 2) + E * (1 / 2 - 1 / 2 * mu) * (gy 0) * (es 1) / (1 - mu ^ 2) + E * (gx 0) * (ex 1) /
    (1 - mu ^ 2)) * dp

/-- `out[6]`, GQ12/wrapped_code_0.c 19 -/
noncomputable def o0_6 (E mu t dp : ℝ) (gx gy _ex _ey _es : Fin 4 → ℝ) : ℝ :=
  t * (E * (1 / 2 - 1 / 2 * mu) * (gy 0) * (gy 2) / (1 - mu ^ 2) + E * (gx 0) * (gx 2) / (1 - mu ^ 2)) * dp

/-- `out[7]`, GQ12/wrapped_code_0.c 20 -/
noncomputable def o0_7 (E mu t dp : ℝ) (gx gy _ex _ey _es : Fin 4 → ℝ) : ℝ :=
  t * (E * mu * (gx 0) * (gy 2) / (1 - mu ^ 2) + E * (1 / 2 - 1 / 2 * mu) * (gy 0) * (gx 2) / (1 - mu ^ 2)) * dp

/-- `out[8]`, GQ12/wrapped_code_0.c 21 -/
noncomputable def o0_8 (E mu t dp : ℝ) (gx gy ex ey es : Fin 4 → ℝ) : ℝ :=
  t * (E * mu * (gx 0) * (ey 2) / (1 - mu ^ 2) + E * (1 / 2 - 1 / 2 * mu) * (gy 0) * (es 2) / (1 - mu ^ 2) + E * (gx 0) * (ex 2) /
    (1 - mu ^ 2)) * dp

/-- `out[9]`, GQ12/wrapped_code_0.c 22 -/
noncomputable def o0_9 (E mu t dp : ℝ) (gx gy _ex _ey _es : Fin 4 → ℝ) : ℝ :=
  t * (E * (1 / 2 - 1 / 2 * mu) * (gy 0) * (gy 3) / (1 - mu ^ 2) + E * (gx 0) * (gx 3) / (1 - mu ^ 2)) * dp

/-- `out[10]`, GQ12/wrapped_code_0.c 23 -/
noncomputable def o0_10 (E mu t dp : ℝ) (gx gy _ex _ey _es : Fin 4 → ℝ) : ℝ :=
  t * (E * mu * (gx 0) * (gy 3) / (1 - mu ^ 2) + E * (1 / 2 - 1 / 2 * mu) * (gy 0) * (gx 3) / (1 - mu ^ 2)) * dp

/-- `out[11]`, GQ12/wrapped_code_0.c 24 -/
noncomputable def o0_11 (E mu t dp : ℝ) (gx gy ex ey es : Fin 4 → ℝ) : ℝ :=
  t * (E * mu * (gx 0) * (ey 3) / (1 - mu ^ 2) + E * (1 / 2 - 1 / 2 * mu) * (gy 0) * (es 3) / (1 - mu ^ 2) + E * (gx 0) * (ex 3) /
    (1 - mu ^ 2)) * dp

/-- `out[0]` to `out[11]`, GQ12/wrapped_code_0.c 13-24 -/
noncomputable def out0 (E mu t dp : ℝ) (gx gy ex ey es : Fin 4 → ℝ) : Fin 12 → ℝ := ![
  o0_0 E mu t dp gx gy ex ey es,
  o0_1 E mu t dp gx gy ex ey es,
  o0_2 E mu t dp gx gy ex ey es,
  o0_3 E mu t dp gx gy ex ey es,
  o0_4 E mu t dp gx gy ex ey es,
  o0_5 E mu t dp gx gy ex ey es,
  o0_6 E mu t dp gx gy ex ey es,
  o0_7 E mu t dp gx gy ex ey es,
  o0_8 E mu t dp gx gy ex ey es,
  o0_9 E mu t dp gx gy ex ey es,
  o0_10 E mu t dp gx gy ex ey es,
  o0_11 E mu t dp gx gy ex ey es]

/-- `out[12]`, GQ12/wrapped_code_0.c 25 -/
noncomputable def o1_0 (E mu t dp : ℝ) (gx gy _ex _ey _es : Fin 4 → ℝ) : ℝ :=
  t * (E * mu * (gy 0) * (gx 0) / (1 - mu ^ 2) + E * (1 / 2 - 1 / 2 * mu) * (gy 0) * (gx 0) / (1 - mu ^ 2)) * dp

/-- `out[13]`, GQ12/wrapped_code_0.c 26 -/
noncomputable def o1_1 (E mu t dp : ℝ) (gx gy _ex _ey _es : Fin 4 → ℝ) : ℝ :=
  t * (E * (1 / 2 - 1 / 2 * mu) * (gx 0) ^ 2 / (1 - mu ^ 2) + E * (gy 0) ^ 2 / (1 - mu ^ 2)) * dp

/-- `out[14]`, GQ12/wrapped_code_0.c 27 -/
noncomputable def o1_2 (E mu t dp : ℝ) (gx gy ex ey es : Fin 4 → ℝ) : ℝ :=
  t * (E * mu * (gy 0) * (ex 0) / (1 - mu ^ 2) + E * (1 / 2 - 1 / 2 * mu) * (gx 0) * (es 0) / (1 - mu ^ 2) + E * (gy 0) * (ey 0) /
    (1 - mu ^ 2)) * dp

/-- `out[15]`, GQ12/wrapped_code_0.c 28 -/
noncomputable def o1_3 (E mu t dp : ℝ) (gx gy _ex _ey _es : Fin 4 → ℝ) : ℝ :=
  t * (E * mu * (gy 0) * (gx 1) / (1 - mu ^ 2) + E * (1 / 2 - 1 / 2 * mu) * (gx 0) * (gy 1) / (1 - mu ^ 2)) * dp

/-- `out[16]`, GQ12/wrapped_code_0.c 29 -/
noncomputable def o1_4 (E mu t dp : ℝ) (gx gy _ex _ey _es : Fin 4 → ℝ) : ℝ :=
  t * (E * (1 / 2 - 1 / 2 * mu) * (gx 0) * (gx 1) / (1 - mu ^ 2) + E * (gy 0) * (gy 1) / (1 - mu ^ 2)) * dp

/-- `out[17]`, GQ12/wrapped_code_0.c 30 -/
noncomputable def o1_5 (E mu t dp : ℝ) (gx gy ex ey es : Fin 4 → ℝ) : ℝ :=
  t * (E * mu * (gy 0) * (ex 1) / (1 - mu ^ 2) + E * (1 / 2 - 1 / 2 * mu) * (gx 0) * (es 1) / (1 - mu ^ 2) + E * (gy 0) * (ey 1) /
    (1 - mu ^ 2)) * dp

/-- `out[18]`, GQ12/wrapped_code_0.c 31 -/
noncomputable def o1_6 (E mu t dp : ℝ) (gx gy _ex _ey _es : Fin 4 → ℝ) : ℝ :=
  t * (E * mu * (gy 0) * (gx 2) / (1 - mu ^ 2) + E * (1 / 2 - 1 / 2 * mu) * (gx 0) * (gy 2) / (1 - mu ^ 2)) * dp

/-- `out[19]`, GQ12/wrapped_code_0.c 32 -/
noncomputable def o1_7 (E mu t dp : ℝ) (gx gy _ex _ey _es : Fin 4 → ℝ) : ℝ :=
  t * (E * (1 / 2 - 1 / 2 * mu) * (gx 0) * (gx 2) / (1 - mu ^ 2) + E * (gy 0) * (gy 2) / (1 - mu ^ 2)) * dp

/-- `out[20]`, GQ12/wrapped_code_0.c 33 -/
noncomputable def o1_8 (E mu t dp : ℝ) (gx gy ex ey es : Fin 4 → ℝ) : ℝ :=
  t * (E * mu * (gy 0) * (ex 2) / (1 - mu ^ 2) + E * (1 / 2 - 1 / 2 * mu) * (gx 0) * (es 2) / (1 - mu ^ 2) + E * (gy 0) * (ey 2) /
    (1 - mu ^ 2)) * dp

/-- `out[21]`, GQ12/wrapped_code_0.c 34 -/
noncomputable def o1_9 (E mu t dp : ℝ) (gx gy _ex _ey _es : Fin 4 → ℝ) : ℝ :=
  t * (E * mu * (gy 0) * (gx 3) / (1 - mu ^ 2) + E * (1 / 2 - 1 / 2 * mu) * (gx 0) * (gy 3) / (1 - mu ^ 2)) * dp

/-- `out[22]`, GQ12/wrapped_code_0.c 35 -/
noncomputable def o1_10 (E mu t dp : ℝ) (gx gy _ex _ey _es : Fin 4 → ℝ) : ℝ :=
  t * (E * (1 / 2 - 1 / 2 * mu) * (gx 0) * (gx 3) / (1 - mu ^ 2) + E * (gy 0) * (gy 3) / (1 - mu ^ 2)) * dp

/-- `out[23]`, GQ12/wrapped_code_0.c 36 -/
noncomputable def o1_11 (E mu t dp : ℝ) (gx gy ex ey es : Fin 4 → ℝ) : ℝ :=
  t * (E * mu * (gy 0) * (ex 3) / (1 - mu ^ 2) + E * (1 / 2 - 1 / 2 * mu) * (gx 0) * (es 3) / (1 - mu ^ 2) + E * (gy 0) * (ey 3) /
    (1 - mu ^ 2)) * dp

/-- `out[12]` to `out[23]`, GQ12/wrapped_code_0.c 25-36 -/
noncomputable def out1 (E mu t dp : ℝ) (gx gy ex ey es : Fin 4 → ℝ) : Fin 12 → ℝ := ![
  o1_0 E mu t dp gx gy ex ey es,
  o1_1 E mu t dp gx gy ex ey es,
  o1_2 E mu t dp gx gy ex ey es,
  o1_3 E mu t dp gx gy ex ey es,
  o1_4 E mu t dp gx gy ex ey es,
  o1_5 E mu t dp gx gy ex ey es,
  o1_6 E mu t dp gx gy ex ey es,
  o1_7 E mu t dp gx gy ex ey es,
  o1_8 E mu t dp gx gy ex ey es,
  o1_9 E mu t dp gx gy ex ey es,
  o1_10 E mu t dp gx gy ex ey es,
  o1_11 E mu t dp gx gy ex ey es]

/-- `out[24]`, GQ12/wrapped_code_0.c 37 -/
noncomputable def o2_0 (E mu t dp : ℝ) (gx gy ex ey es : Fin 4 → ℝ) : ℝ :=
  t * (E * (1 / 2 - 1 / 2 * mu) * (gy 0) * (es 0) / (1 - mu ^ 2) + (gx 0) * (E * mu * (ey 0) / (1 - mu ^ 2) + E * (ex 0) / (1 - mu ^
    2))) * dp

/-- `out[25]`, GQ12/wrapped_code_0.c 38 -/
noncomputable def o2_1 (E mu t dp : ℝ) (gx gy ex ey es : Fin 4 → ℝ) : ℝ :=
  t * (E * (1 / 2 - 1 / 2 * mu) * (gx 0) * (es 0) / (1 - mu ^ 2) + (gy 0) * (E * mu * (ex 0) / (1 - mu ^ 2) + E * (ey 0) / (1 - mu ^
    2))) * dp

/-- `out[26]`, GQ12/wrapped_code_0.c 39 -/
noncomputable def o2_2 (E mu t dp : ℝ) (_gx _gy ex ey es : Fin 4 → ℝ) : ℝ :=
  t * (E * (1 / 2 - 1 / 2 * mu) * (es 0) ^ 2 / (1 - mu ^ 2) + (ey 0) * (E * mu * (ex 0) / (1 - mu ^ 2) + E * (ey 0) / (1 - mu ^ 2))
    + (ex 0) * (E * mu * (ey 0) / (1 - mu ^ 2) + E * (ex 0) / (1 - mu ^ 2))) * dp

/-- `out[27]`, GQ12/wrapped_code_0.c 40 -/
noncomputable def o2_3 (E mu t dp : ℝ) (gx gy ex ey es : Fin 4 → ℝ) : ℝ :=
  t * (E * (1 / 2 - 1 / 2 * mu) * (gy 1) * (es 0) / (1 - mu ^ 2) + (gx 1) * (E * mu * (ey 0) / (1 - mu ^ 2) + E * (ex 0) / (1 - mu ^
    2))) * dp

/-- `out[28]`, GQ12/wrapped_code_0.c 41 -/
noncomputable def o2_4 (E mu t dp : ℝ) (gx gy ex ey es : Fin 4 → ℝ) : ℝ :=
  t * (E * (1 / 2 - 1 / 2 * mu) * (gx 1) * (es 0) / (1 - mu ^ 2) + (gy 1) * (E * mu * (ex 0) / (1 - mu ^ 2) + E * (ey 0) / (1 - mu ^
    2))) * dp

/-- `out[29]`, GQ12/wrapped_code_0.c 42 -/
noncomputable def o2_5 (E mu t dp : ℝ) (_gx _gy ex ey es : Fin 4 → ℝ) : ℝ :=
  t * (E * (1 / 2 - 1 / 2 * mu) * (es 1) * (es 0) / (1 - mu ^ 2) + (ey 1) * (E * mu * (ex 0) / (1 - mu ^ 2) + E * (ey 0) / (1 - mu ^
    2)) + (ex 1) * (E * mu * (ey 0) / (1 - mu ^ 2) + E * (ex 0) / (1 - mu ^ 2))) * dp

/-- `out[30]`, GQ12/wrapped_code_0.c 43 -/
noncomputable def o2_6 (E mu t dp : ℝ) (gx gy ex ey es : Fin 4 → ℝ) : ℝ :=
  t * (E * (1 / 2 - 1 / 2 * mu) * (gy 2) * (es 0) / (1 - mu ^ 2) + (gx 2) * (E * mu * (ey 0) / (1 - mu ^ 2) + E * (ex 0) / (1 - mu ^
    2))) * dp

/-- `out[31]`, GQ12/wrapped_code_0.c 44 -/
noncomputable def o2_7 (E mu t dp : ℝ) (gx gy ex ey es : Fin 4 → ℝ) : ℝ :=
  t * (E * (1 / 2 - 1 / 2 * mu) * (gx 2) * (es 0) / (1 - mu ^ 2) + (gy 2) * (E * mu * (ex 0) / (1 - mu ^ 2) + E * (ey 0) / (1 - mu ^
    2))) * dp

/-- `out[32]`, GQ12/wrapped_code_0.c 45 -/
noncomputable def o2_8 (E mu t dp : ℝ) (_gx _gy ex ey es : Fin 4 → ℝ) : ℝ :=
  t * (E * (1 / 2 - 1 / 2 * mu) * (es 2) * (es 0) / (1 - mu ^ 2) + (ex 2) * (E * mu * (ey 0) / (1 - mu ^ 2) + E * (ex 0) / (1 - mu ^
    2)) + (ey 2) * (E * mu * (ex 0) / (1 - mu ^ 2) + E * (ey 0) / (1 - mu ^ 2))) * dp

/-- `out[33]`, GQ12/wrapped_code_0.c 46 -/
noncomputable def o2_9 (E mu t dp : ℝ) (gx gy ex ey es : Fin 4 → ℝ) : ℝ :=
  t * (E * (1 / 2 - 1 / 2 * mu) * (gy 3) * (es 0) / (1 - mu ^ 2) + (gx 3) * (E * mu * (ey 0) / (1 - mu ^ 2) + E * (ex 0) / (1 - mu ^
    2))) * dp

/-- `out[34]`, GQ12/wrapped_code_0.c 47 -/
noncomputable def o2_10 (E mu t dp : ℝ) (gx gy ex ey es : Fin 4 → ℝ) : ℝ :=
  t * (E * (1 / 2 - 1 / 2 * mu) * (gx 3) * (es 0) / (1 - mu ^ 2) + (gy 3) * (E * mu * (ex 0) / (1 - mu ^ 2) + E * (ey 0) / (1 - mu ^
    2))) * dp

/-- `out[35]`, GQ12/wrapped_code_0.c 48 -/
noncomputable def o2_11 (E mu t dp : ℝ) (_gx _gy ex ey es : Fin 4 → ℝ) : ℝ :=
  t * (E * (1 / 2 - 1 / 2 * mu) * (es 3) * (es 0) / (1 - mu ^ 2) + (ex 3) * (E * mu * (ey 0) / (1 - mu ^ 2) + E * (ex 0) / (1 - mu ^
    2)) + (ey 3) * (E * mu * (ex 0) / (1 - mu ^ 2) + E * (ey 0) / (1 - mu ^ 2))) * dp

/-- `out[24]` to `out[35]`, GQ12/wrapped_code_0.c 37-48 -/
noncomputable def out2 (E mu t dp : ℝ) (gx gy ex ey es : Fin 4 → ℝ) : Fin 12 → ℝ := ![
  o2_0 E mu t dp gx gy ex ey es,
  o2_1 E mu t dp gx gy ex ey es,
  o2_2 E mu t dp gx gy ex ey es,
  o2_3 E mu t dp gx gy ex ey es,
  o2_4 E mu t dp gx gy ex ey es,
  o2_5 E mu t dp gx gy ex ey es,
  o2_6 E mu t dp gx gy ex ey es,
  o2_7 E mu t dp gx gy ex ey es,
  o2_8 E mu t dp gx gy ex ey es,
  o2_9 E mu t dp gx gy ex ey es,
  o2_10 E mu t dp gx gy ex ey es,
  o2_11 E mu t dp gx gy ex ey es]

/-- `out[36]`, GQ12/wrapped_code_0.c 49 -/
noncomputable def o3_0 (E mu t dp : ℝ) (gx gy _ex _ey _es : Fin 4 → ℝ) : ℝ :=
  t * (E * (1 / 2 - 1 / 2 * mu) * (gy 0) * (gy 1) / (1 - mu ^ 2) + E * (gx 0) * (gx 1) / (1 - mu ^ 2)) * dp

/-- `out[37]`, GQ12/wrapped_code_0.c 50 -/
noncomputable def o3_1 (E mu t dp : ℝ) (gx gy _ex _ey _es : Fin 4 → ℝ) : ℝ :=
  t * (E * mu * (gy 0) * (gx 1) / (1 - mu ^ 2) + E * (1 / 2 - 1 / 2 * mu) * (gx 0) * (gy 1) / (1 - mu ^ 2)) * dp

/-- `out[38]`, GQ12/wrapped_code_0.c 51 -/
noncomputable def o3_2 (E mu t dp : ℝ) (gx gy ex ey es : Fin 4 → ℝ) : ℝ :=
  t * (E * mu * (gx 1) * (ey 0) / (1 - mu ^ 2) + E * (1 / 2 - 1 / 2 * mu) * (gy 1) * (es 0) / (1 - mu ^ 2) + E * (gx 1) * (ex 0) /
    (1 - mu ^ 2)) * dp

/-- `out[39]`, GQ12/wrapped_code_0.c 52 -/
noncomputable def o3_3 (E mu t dp : ℝ) (gx gy _ex _ey _es : Fin 4 → ℝ) : ℝ :=
  t * (E * (1 / 2 - 1 / 2 * mu) * (gy 1) ^ 2 / (1 - mu ^ 2) + E * (gx 1) ^ 2 / (1 - mu ^ 2)) * dp

/-- `out[40]`, GQ12/wrapped_code_0.c 53 -/
noncomputable def o3_4 (E mu t dp : ℝ) (gx gy _ex _ey _es : Fin 4 → ℝ) : ℝ :=
  t * (E * mu * (gy 1) * (gx 1) / (1 - mu ^ 2) + E * (1 / 2 - 1 / 2 * mu) * (gy 1) * (gx 1) / (1 - mu ^ 2)) * dp

/-- `out[41]`, GQ12/wrapped_code_0.c 54 -/
noncomputable def o3_5 (E mu t dp : ℝ) (gx gy ex ey es : Fin 4 → ℝ) : ℝ :=
  t * (E * mu * (gx 1) * (ey 1) / (1 - mu ^ 2) + E * (1 / 2 - 1 / 2 * mu) * (gy 1) * (es 1) / (1 - mu ^ 2) + E * (gx 1) * (ex 1) /
    (1 - mu ^ 2)) * dp

/-- `out[42]`, GQ12/wrapped_code_0.c 55 -/
noncomputable def o3_6 (E mu t dp : ℝ) (gx gy _ex _ey _es : Fin 4 → ℝ) : ℝ :=
  t * (E * (1 / 2 - 1 / 2 * mu) * (gy 2) * (gy 1) / (1 - mu ^ 2) + E * (gx 2) * (gx 1) / (1 - mu ^ 2)) * dp

/-- `out[43]`, GQ12/wrapped_code_0.c 56 -/
noncomputable def o3_7 (E mu t dp : ℝ) (gx gy _ex _ey _es : Fin 4 → ℝ) : ℝ :=
  t * (E * mu * (gy 2) * (gx 1) / (1 - mu ^ 2) + E * (1 / 2 - 1 / 2 * mu) * (gx 2) * (gy 1) / (1 - mu ^ 2)) * dp

/-- `out[44]`, GQ12/wrapped_code_0.c 57 -/
noncomputable def o3_8 (E mu t dp : ℝ) (gx gy ex ey es : Fin 4 → ℝ) : ℝ :=
  t * (E * mu * (gx 1) * (ey 2) / (1 - mu ^ 2) + E * (1 / 2 - 1 / 2 * mu) * (gy 1) * (es 2) / (1 - mu ^ 2) + E * (gx 1) * (ex 2) /
    (1 - mu ^ 2)) * dp

/-- `out[45]`, GQ12/wrapped_code_0.c 58 -/
noncomputable def o3_9 (E mu t dp : ℝ) (gx gy _ex _ey _es : Fin 4 → ℝ) : ℝ :=
  t * (E * (1 / 2 - 1 / 2 * mu) * (gy 3) * (gy 1) / (1 - mu ^ 2) + E * (gx 3) * (gx 1) / (1 - mu ^ 2)) * dp

/-- `out[46]`, GQ12/wrapped_code_0.c 59 -/
noncomputable def o3_10 (E mu t dp : ℝ) (gx gy _ex _ey _es : Fin 4 → ℝ) : ℝ :=
  t * (E * mu * (gy 3) * (gx 1) / (1 - mu ^ 2) + E * (1 / 2 - 1 / 2 * mu) * (gx 3) * (gy 1) / (1 - mu ^ 2)) * dp

/-- `out[47]`, GQ12/wrapped_code_0.c 60 -/
noncomputable def o3_11 (E mu t dp : ℝ) (gx gy ex ey es : Fin 4 → ℝ) : ℝ :=
  t * (E * mu * (gx 1) * (ey 3) / (1 - mu ^ 2) + E * (1 / 2 - 1 / 2 * mu) * (gy 1) * (es 3) / (1 - mu ^ 2) + E * (gx 1) * (ex 3) /
    (1 - mu ^ 2)) * dp

/-- `out[36]` to `out[47]`, GQ12/wrapped_code_0.c 49-60 -/
noncomputable def out3 (E mu t dp : ℝ) (gx gy ex ey es : Fin 4 → ℝ) : Fin 12 → ℝ := ![
  o3_0 E mu t dp gx gy ex ey es,
  o3_1 E mu t dp gx gy ex ey es,
  o3_2 E mu t dp gx gy ex ey es,
  o3_3 E mu t dp gx gy ex ey es,
  o3_4 E mu t dp gx gy ex ey es,
  o3_5 E mu t dp gx gy ex ey es,
  o3_6 E mu t dp gx gy ex ey es,
  o3_7 E mu t dp gx gy ex ey es,
  o3_8 E mu t dp gx gy ex ey es,
  o3_9 E mu t dp gx gy ex ey es,
  o3_10 E mu t dp gx gy ex ey es,
  o3_11 E mu t dp gx gy ex ey es]

/-- `out[48]`, GQ12/wrapped_code_0.c 61 -/
noncomputable def o4_0 (E mu t dp : ℝ) (gx gy _ex _ey _es : Fin 4 → ℝ) : ℝ :=
  t * (E * mu * (gx 0) * (gy 1) / (1 - mu ^ 2) + E * (1 / 2 - 1 / 2 * mu) * (gy 0) * (gx 1) / (1 - mu ^ 2)) * dp

/-- `out[49]`, GQ12/wrapped_code_0.c 62 -/
noncomputable def o4_1 (E mu t dp : ℝ) (gx gy _ex _ey _es : Fin 4 → ℝ) : ℝ :=
  t * (E * (1 / 2 - 1 / 2 * mu) * (gx 0) * (gx 1) / (1 - mu ^ 2) + E * (gy 0) * (gy 1) / (1 - mu ^ 2)) * dp

/-- `out[50]`, GQ12/wrapped_code_0.c 63 -/
noncomputable def o4_2 (E mu t dp : ℝ) (gx gy ex ey es : Fin 4 → ℝ) : ℝ :=
  t * (E * mu * (gy 1) * (ex 0) / (1 - mu ^ 2) + E * (1 / 2 - 1 / 2 * mu) * (gx 1) * (es 0) / (1 - mu ^ 2) + E * (gy 1) * (ey 0) /
    (1 - mu ^ 2)) * dp

/-- `out[51]`, GQ12/wrapped_code_0.c 64 -/
noncomputable def o4_3 (E mu t dp : ℝ) (gx gy _ex _ey _es : Fin 4 → ℝ) : ℝ :=
  t * (E * mu * (gy 1) * (gx 1) / (1 - mu ^ 2) + E * (1 / 2 - 1 / 2 * mu) * (gy 1) * (gx 1) / (1 - mu ^ 2)) * dp

/-- `out[52]`, GQ12/wrapped_code_0.c 65 -/
noncomputable def o4_4 (E mu t dp : ℝ) (gx gy _ex _ey _es : Fin 4 → ℝ) : ℝ :=
  t * (E * (1 / 2 - 1 / 2 * mu) * (gx 1) ^ 2 / (1 - mu ^ 2) + E * (gy 1) ^ 2 / (1 - mu ^ 2)) * dp

/-- `out[53]`, GQ12/wrapped_code_0.c 66 -/
noncomputable def o4_5 (E mu t dp : ℝ) (gx gy ex ey es : Fin 4 → ℝ) : ℝ :=
  t * (E * mu * (gy 1) * (ex 1) / (1 - mu ^ 2) + E * (1 / 2 - 1 / 2 * mu) * (gx 1) * (es 1) / (1 - mu ^ 2) + E * (gy 1) * (ey 1) /
    (1 - mu ^ 2)) * dp

/-- `out[54]`, GQ12/wrapped_code_0.c 67 -/
noncomputable def o4_6 (E mu t dp : ℝ) (gx gy _ex _ey _es : Fin 4 → ℝ) : ℝ :=
  t * (E * mu * (gx 2) * (gy 1) / (1 - mu ^ 2) + E * (1 / 2 - 1 / 2 * mu) * (gy 2) * (gx 1) / (1 - mu ^ 2)) * dp

/-- `out[55]`, GQ12/wrapped_code_0.c 68 -/
noncomputable def o4_7 (E mu t dp : ℝ) (gx gy _ex _ey _es : Fin 4 → ℝ) : ℝ :=
  t * (E * (1 / 2 - 1 / 2 * mu) * (gx 2) * (gx 1) / (1 - mu ^ 2) + E * (gy 2) * (gy 1) / (1 - mu ^ 2)) * dp

/-- `out[56]`, GQ12/wrapped_code_0.c 69 -/
noncomputable def o4_8 (E mu t dp : ℝ) (gx gy ex ey es : Fin 4 → ℝ) : ℝ :=
  t * (E * mu * (gy 1) * (ex 2) / (1 - mu ^ 2) + E * (1 / 2 - 1 / 2 * mu) * (gx 1) * (es 2) / (1 - mu ^ 2) + E * (gy 1) * (ey 2) /
    (1 - mu ^ 2)) * dp

/-- `out[57]`, GQ12/wrapped_code_0.c 70 -/
noncomputable def o4_9 (E mu t dp : ℝ) (gx gy _ex _ey _es : Fin 4 → ℝ) : ℝ :=
  t * (E * mu * (gx 3) * (gy 1) / (1 - mu ^ 2) + E * (1 / 2 - 1 / 2 * mu) * (gy 3) * (gx 1) / (1 - mu ^ 2)) * dp

/-- `out[58]`, GQ12/wrapped_code_0.c 71 -/
noncomputable def o4_10 (E mu t dp : ℝ) (gx gy _ex _ey _es : Fin 4 → ℝ) : ℝ :=
  t * (E * (1 / 2 - 1 / 2 * mu) * (gx 3) * (gx 1) / (1 - mu ^ 2) + E * (gy 3) * (gy 1) / (1 - mu ^ 2)) * dp

/-- `out[59]`, GQ12/wrapped_code_0.c 72 -/
noncomputable def o4_11 (E mu t dp : ℝ) (gx gy ex ey es : Fin 4 → ℝ) : ℝ :=
  t * (E * mu * (gy 1) * (ex 3) / (1 - mu ^ 2) + E * (1 / 2 - 1 / 2 * mu) * (gx 1) * (es 3) / (1 - mu ^ 2) + E * (gy 1) * (ey 3) /
    (1 - mu ^ 2)) * dp

/-- `out[48]` to `out[59]`, GQ12/wrapped_code_0.c 61-72 -/
noncomputable def out4 (E mu t dp : ℝ) (gx gy ex ey es : Fin 4 → ℝ) : Fin 12 → ℝ := ![
  o4_0 E mu t dp gx gy ex ey es,
  o4_1 E mu t dp gx gy ex ey es,
  o4_2 E mu t dp gx gy ex ey es,
  o4_3 E mu t dp gx gy ex ey es,
  o4_4 E mu t dp gx gy ex ey es,
  o4_5 E mu t dp gx gy ex ey es,
  o4_6 E mu t dp gx gy ex ey es,
  o4_7 E mu t dp gx gy ex ey es,
  o4_8 E mu t dp gx gy ex ey es,
  o4_9 E mu t dp gx gy ex ey es,
  o4_10 E mu t dp gx gy ex ey es,
  o4_11 E mu t dp gx gy ex ey es]

/-- `out[60]`, GQ12/wrapped_code_0.c 73 -/
noncomputable def o5_0 (E mu t dp : ℝ) (gx gy ex ey es : Fin 4 → ℝ) : ℝ :=
  t * (E * (1 / 2 - 1 / 2 * mu) * (gy 0) * (es 1) / (1 - mu ^ 2) + (gx 0) * (E * mu * (ey 1) / (1 - mu ^ 2) + E * (ex 1) / (1 - mu ^
    2))) * dp

/-- `out[61]`, GQ12/wrapped_code_0.c 74 -/
noncomputable def o5_1 (E mu t dp : ℝ) (gx gy ex ey es : Fin 4 → ℝ) : ℝ :=
  t * (E * (1 / 2 - 1 / 2 * mu) * (gx 0) * (es 1) / (1 - mu ^ 2) + (gy 0) * (E * mu * (ex 1) / (1 - mu ^ 2) + E * (ey 1) / (1 - mu ^
    2))) * dp

/-- `out[62]`, GQ12/wrapped_code_0.c 75 -/
noncomputable def o5_2 (E mu t dp : ℝ) (_gx _gy ex ey es : Fin 4 → ℝ) : ℝ :=
  t * (E * (1 / 2 - 1 / 2 * mu) * (es 1) * (es 0) / (1 - mu ^ 2) + (ey 0) * (E * mu * (ex 1) / (1 - mu ^ 2) + E * (ey 1) / (1 - mu ^
    2)) + (ex 0) * (E * mu * (ey 1) / (1 - mu ^ 2) + E * (ex 1) / (1 - mu ^ 2))) * dp

/-- `out[63]`, GQ12/wrapped_code_0.c 76 -/
noncomputable def o5_3 (E mu t dp : ℝ) (gx gy ex ey es : Fin 4 → ℝ) : ℝ :=
  t * (E * (1 / 2 - 1 / 2 * mu) * (gy 1) * (es 1) / (1 - mu ^ 2) + (gx 1) * (E * mu * (ey 1) / (1 - mu ^ 2) + E * (ex 1) / (1 - mu ^
    2))) * dp

/-- `out[64]`, GQ12/wrapped_code_0.c 77 -/
noncomputable def o5_4 (E mu t dp : ℝ) (gx gy ex ey es : Fin 4 → ℝ) : ℝ :=
  t * (E * (1 / 2 - 1 / 2 * mu) * (gx 1) * (es 1) / (1 - mu ^ 2) + (gy 1) * (E * mu * (ex 1) / (1 - mu ^ 2) + E * (ey 1) / (1 - mu ^
    2))) * dp

/-- `out[65]`, GQ12/wrapped_code_0.c 78 -/
noncomputable def o5_5 (E mu t dp : ℝ) (_gx _gy ex ey es : Fin 4 → ℝ) : ℝ :=
  t * (E * (1 / 2 - 1 / 2 * mu) * (es 1) ^ 2 / (1 - mu ^ 2) + (ey 1) * (E * mu * (ex 1) / (1 - mu ^ 2) + E * (ey 1) / (1 - mu ^ 2))
    + (ex 1) * (E * mu * (ey 1) / (1 - mu ^ 2) + E * (ex 1) / (1 - mu ^ 2))) * dp

/-- `out[66]`, GQ12/wrapped_code_0.c 79 -/
noncomputable def o5_6 (E mu t dp : ℝ) (gx gy ex ey es : Fin 4 → ℝ) : ℝ :=
  t * (E * (1 / 2 - 1 / 2 * mu) * (gy 2) * (es 1) / (1 - mu ^ 2) + (gx 2) * (E * mu * (ey 1) / (1 - mu ^ 2) + E * (ex 1) / (1 - mu ^
    2))) * dp

/-- `out[67]`, GQ12/wrapped_code_0.c 80 -/
noncomputable def o5_7 (E mu t dp : ℝ) (gx gy ex ey es : Fin 4 → ℝ) : ℝ :=
  t * (E * (1 / 2 - 1 / 2 * mu) * (gx 2) * (es 1) / (1 - mu ^ 2) + (gy 2) * (E * mu * (ex 1) / (1 - mu ^ 2) + E * (ey 1) / (1 - mu ^
    2))) * dp

/-- `out[68]`, GQ12/wrapped_code_0.c 81 -/
noncomputable def o5_8 (E mu t dp : ℝ) (_gx _gy ex ey es : Fin 4 → ℝ) : ℝ :=
  t * (E * (1 / 2 - 1 / 2 * mu) * (es 2) * (es 1) / (1 - mu ^ 2) + (ex 2) * (E * mu * (ey 1) / (1 - mu ^ 2) + E * (ex 1) / (1 - mu ^
    2)) + (ey 2) * (E * mu * (ex 1) / (1 - mu ^ 2) + E * (ey 1) / (1 - mu ^ 2))) * dp

/-- `out[69]`, GQ12/wrapped_code_0.c 82 -/
noncomputable def o5_9 (E mu t dp : ℝ) (gx gy ex ey es : Fin 4 → ℝ) : ℝ :=
  t * (E * (1 / 2 - 1 / 2 * mu) * (gy 3) * (es 1) / (1 - mu ^ 2) + (gx 3) * (E * mu * (ey 1) / (1 - mu ^ 2) + E * (ex 1) / (1 - mu ^
    2))) * dp

/-- `out[70]`, GQ12/wrapped_code_0.c 83 -/
noncomputable def o5_10 (E mu t dp : ℝ) (gx gy ex ey es : Fin 4 → ℝ) : ℝ :=
  t * (E * (1 / 2 - 1 / 2 * mu) * (gx 3) * (es 1) / (1 - mu ^ 2) + (gy 3) * (E * mu * (ex 1) / (1 - mu ^ 2) + E * (ey 1) / (1 - mu ^
    2))) * dp

/-- `out[71]`, GQ12/wrapped_code_0.c 84 -/
noncomputable def o5_11 (E mu t dp : ℝ) (_gx _gy ex ey es : Fin 4 → ℝ) : ℝ :=
  t * (E * (1 / 2 - 1 / 2 * mu) * (es 3) * (es 1) / (1 - mu ^ 2) + (ex 3) * (E * mu * (ey 1) / (1 - mu ^ 2) + E * (ex 1) / (1 - mu ^
    2)) + (ey 3) * (E * mu * (ex 1) / (1 - mu ^ 2) + E * (ey 1) / (1 - mu ^ 2))) * dp

/-- `out[60]` to `out[71]`, GQ12/wrapped_code_0.c 73-84 -/
noncomputable def out5 (E mu t dp : ℝ) (gx gy ex ey es : Fin 4 → ℝ) : Fin 12 → ℝ := ![
  o5_0 E mu t dp gx gy ex ey es,
  o5_1 E mu t dp gx gy ex ey es,
  o5_2 E mu t dp gx gy ex ey es,
  o5_3 E mu t dp gx gy ex ey es,
  o5_4 E mu t dp gx gy ex ey es,
  o5_5 E mu t dp gx gy ex ey es,
  o5_6 E mu t dp gx gy ex ey es,
  o5_7 E mu t dp gx gy ex ey es,
  o5_8 E mu t dp gx gy ex ey es,
  o5_9 E mu t dp gx gy ex ey es,
  o5_10 E mu t dp gx gy ex ey es,
  o5_11 E mu t dp gx gy ex ey es]

/-- `out[72]`, GQ12/wrapped_code_0.c 85 -/
noncomputable def o6_0 (E mu t dp : ℝ) (gx gy _ex _ey _es : Fin 4 → ℝ) : ℝ :=
  t * (E * (1 / 2 - 1 / 2 * mu) * (gy 0) * (gy 2) / (1 - mu ^ 2) + E * (gx 0) * (gx 2) / (1 - mu ^ 2)) * dp

/-- `out[73]`, GQ12/wrapped_code_0.c 86 -/
noncomputable def o6_1 (E mu t dp : ℝ) (gx gy _ex _ey _es : Fin 4 → ℝ) : ℝ :=
  t * (E * mu * (gy 0) * (gx 2) / (1 - mu ^ 2) + E * (1 / 2 - 1 / 2 * mu) * (gx 0) * (gy 2) / (1 - mu ^ 2)) * dp

/-- `out[74]`, GQ12/wrapped_code_0.c 87 -/
noncomputable def o6_2 (E mu t dp : ℝ) (gx gy ex ey es : Fin 4 → ℝ) : ℝ :=
  t * (E * mu * (gx 2) * (ey 0) / (1 - mu ^ 2) + E * (1 / 2 - 1 / 2 * mu) * (gy 2) * (es 0) / (1 - mu ^ 2) + E * (gx 2) * (ex 0) /
    (1 - mu ^ 2)) * dp

/-- `out[75]`, GQ12/wrapped_code_0.c 88 -/
noncomputable def o6_3 (E mu t dp : ℝ) (gx gy _ex _ey _es : Fin 4 → ℝ) : ℝ :=
  t * (E * (1 / 2 - 1 / 2 * mu) * (gy 2) * (gy 1) / (1 - mu ^ 2) + E * (gx 2) * (gx 1) / (1 - mu ^ 2)) * dp

/-- `out[76]`, GQ12/wrapped_code_0.c 89 -/
noncomputable def o6_4 (E mu t dp : ℝ) (gx gy _ex _ey _es : Fin 4 → ℝ) : ℝ :=
  t * (E * mu * (gx 2) * (gy 1) / (1 - mu ^ 2) + E * (1 / 2 - 1 / 2 * mu) * (gy 2) * (gx 1) / (1 - mu ^ 2)) * dp

/-- `out[77]`, GQ12/wrapped_code_0.c 90 -/
noncomputable def o6_5 (E mu t dp : ℝ) (gx gy ex ey es : Fin 4 → ℝ) : ℝ :=
  t * (E * mu * (gx 2) * (ey 1) / (1 - mu ^ 2) + E * (1 / 2 - 1 / 2 * mu) * (gy 2) * (es 1) / (1 - mu ^ 2) + E * (gx 2) * (ex 1) /
    (1 - mu ^ 2)) * dp

/-- `out[78]`, GQ12/wrapped_code_0.c 91 -/
noncomputable def o6_6 (E mu t dp : ℝ) (gx gy _ex _ey _es : Fin 4 → ℝ) : ℝ :=
  t * (E * (1 / 2 - 1 / 2 * mu) * (gy 2) ^ 2 / (1 - mu ^ 2) + E * (gx 2) ^ 2 / (1 - mu ^ 2)) * dp

/-- `out[79]`, GQ12/wrapped_code_0.c 92 -/
noncomputable def o6_7 (E mu t dp : ℝ) (gx gy _ex _ey _es : Fin 4 → ℝ) : ℝ :=
  t * (E * mu * (gy 2) * (gx 2) / (1 - mu ^ 2) + E * (1 / 2 - 1 / 2 * mu) * (gy 2) * (gx 2) / (1 - mu ^ 2)) * dp

/-- `out[80]`, GQ12/wrapped_code_0.c 93 -/
noncomputable def o6_8 (E mu t dp : ℝ) (gx gy ex ey es : Fin 4 → ℝ) : ℝ :=
  t * (E * mu * (gx 2) * (ey 2) / (1 - mu ^ 2) + E * (1 / 2 - 1 / 2 * mu) * (gy 2) * (es 2) / (1 - mu ^ 2) + E * (gx 2) * (ex 2) /
    (1 - mu ^ 2)) * dp

/-- `out[81]`, GQ12/wrapped_code_0.c 94 -/
noncomputable def o6_9 (E mu t dp : ℝ) (gx gy _ex _ey _es : Fin 4 → ℝ) : ℝ :=
  t * (E * (1 / 2 - 1 / 2 * mu) * (gy 2) * (gy 3) / (1 - mu ^ 2) + E * (gx 2) * (gx 3) / (1 - mu ^ 2)) * dp

/-- `out[82]`, GQ12/wrapped_code_0.c 95 -/
noncomputable def o6_10 (E mu t dp : ℝ) (gx gy _ex _ey _es : Fin 4 → ℝ) : ℝ :=
  t * (E * mu * (gx 2) * (gy 3) / (1 - mu ^ 2) + E * (1 / 2 - 1 / 2 * mu) * (gy 2) * (gx 3) / (1 - mu ^ 2)) * dp

/-- `out[83]`, GQ12/wrapped_code_0.c 96 -/
noncomputable def o6_11 (E mu t dp : ℝ) (gx gy ex ey es : Fin 4 → ℝ) : ℝ :=
  t * (E * mu * (gx 2) * (ey 3) / (1 - mu ^ 2) + E * (1 / 2 - 1 / 2 * mu) * (gy 2) * (es 3) / (1 - mu ^ 2) + E * (gx 2) * (ex 3) /
    (1 - mu ^ 2)) * dp

/-- `out[72]` to `out[83]`, GQ12/wrapped_code_0.c 85-96 -/
noncomputable def out6 (E mu t dp : ℝ) (gx gy ex ey es : Fin 4 → ℝ) : Fin 12 → ℝ := ![
  o6_0 E mu t dp gx gy ex ey es,
  o6_1 E mu t dp gx gy ex ey es,
  o6_2 E mu t dp gx gy ex ey es,
  o6_3 E mu t dp gx gy ex ey es,
  o6_4 E mu t dp gx gy ex ey es,
  o6_5 E mu t dp gx gy ex ey es,
  o6_6 E mu t dp gx gy ex ey es,
  o6_7 E mu t dp gx gy ex ey es,
  o6_8 E mu t dp gx gy ex ey es,
  o6_9 E mu t dp gx gy ex ey es,
  o6_10 E mu t dp gx gy ex ey es,
  o6_11 E mu t dp gx gy ex ey es]

/-- `out[84]`, GQ12/wrapped_code_0.c 97 -/
noncomputable def o7_0 (E mu t dp : ℝ) (gx gy _ex _ey _es : Fin 4 → ℝ) : ℝ :=
  t * (E * mu * (gx 0) * (gy 2) / (1 - mu ^ 2) + E * (1 / 2 - 1 / 2 * mu) * (gy 0) * (gx 2) / (1 - mu ^ 2)) * dp

/-- `out[85]`, GQ12/wrapped_code_0.c 98 -/
noncomputable def o7_1 (E mu t dp : ℝ) (gx gy _ex _ey _es : Fin 4 → ℝ) : ℝ :=
  t * (E * (1 / 2 - 1 / 2 * mu) * (gx 0) * (gx 2) / (1 - mu ^ 2) + E * (gy 0) * (gy 2) / (1 - mu ^ 2)) * dp

/-- `out[86]`, GQ12/wrapped_code_0.c 99 -/
noncomputable def o7_2 (E mu t dp : ℝ) (gx gy ex ey es : Fin 4 → ℝ) : ℝ :=
  t * (E * mu * (gy 2) * (ex 0) / (1 - mu ^ 2) + E * (1 / 2 - 1 / 2 * mu) * (gx 2) * (es 0) / (1 - mu ^ 2) + E * (gy 2) * (ey 0) /
    (1 - mu ^ 2)) * dp

/-- `out[87]`, GQ12/wrapped_code_0.c 100 -/
noncomputable def o7_3 (E mu t dp : ℝ) (gx gy _ex _ey _es : Fin 4 → ℝ) : ℝ :=
  t * (E * mu * (gy 2) * (gx 1) / (1 - mu ^ 2) + E * (1 / 2 - 1 / 2 * mu) * (gx 2) * (gy 1) / (1 - mu ^ 2)) * dp

/-- `out[88]`, GQ12/wrapped_code_0.c 101 -/
noncomputable def o7_4 (E mu t dp : ℝ) (gx gy _ex _ey _es : Fin 4 → ℝ) : ℝ :=
  t * (E * (1 / 2 - 1 / 2 * mu) * (gx 2) * (gx 1) / (1 - mu ^ 2) + E * (gy 2) * (gy 1) / (1 - mu ^ 2)) * dp

/-- `out[89]`, GQ12/wrapped_code_0.c 102 -/
noncomputable def o7_5 (E mu t dp : ℝ) (gx gy ex ey es : Fin 4 → ℝ) : ℝ :=
  t * (E * mu * (gy 2) * (ex 1) / (1 - mu ^ 2) + E * (1 / 2 - 1 / 2 * mu) * (gx 2) * (es 1) / (1 - mu ^ 2) + E * (gy 2) * (ey 1) /
    (1 - mu ^ 2)) * dp

/-- `out[90]`, GQ12/wrapped_code_0.c 103 -/
noncomputable def o7_6 (E mu t dp : ℝ) (gx gy _ex _ey _es : Fin 4 → ℝ) : ℝ :=
  t * (E * mu * (gy 2) * (gx 2) / (1 - mu ^ 2) + E * (1 / 2 - 1 / 2 * mu) * (gy 2) * (gx 2) / (1 - mu ^ 2)) * dp

/-- `out[91]`, GQ12/wrapped_code_0.c 104 -/
noncomputable def o7_7 (E mu t dp : ℝ) (gx gy _ex _ey _es : Fin 4 → ℝ) : ℝ :=
  t * (E * (1 / 2 - 1 / 2 * mu) * (gx 2) ^ 2 / (1 - mu ^ 2) + E * (gy 2) ^ 2 / (1 - mu ^ 2)) * dp

/-- `out[92]`, GQ12/wrapped_code_0.c 105 -/
noncomputable def o7_8 (E mu t dp : ℝ) (gx gy ex ey es : Fin 4 → ℝ) : ℝ :=
  t * (E * mu * (gy 2) * (ex 2) / (1 - mu ^ 2) + E * (1 / 2 - 1 / 2 * mu) * (gx 2) * (es 2) / (1 - mu ^ 2) + E * (gy 2) * (ey 2) /
    (1 - mu ^ 2)) * dp

/-- `out[93]`, GQ12/wrapped_code_0.c 106 -/
noncomputable def o7_9 (E mu t dp : ℝ) (gx gy _ex _ey _es : Fin 4 → ℝ) : ℝ :=
  t * (E * mu * (gy 2) * (gx 3) / (1 - mu ^ 2) + E * (1 / 2 - 1 / 2 * mu) * (gx 2) * (gy 3) / (1 - mu ^ 2)) * dp

/-- `out[94]`, GQ12/wrapped_code_0.c 107 -/
noncomputable def o7_10 (E mu t dp : ℝ) (gx gy _ex _ey _es : Fin 4 → ℝ) : ℝ :=
  t * (E * (1 / 2 - 1 / 2 * mu) * (gx 2) * (gx 3) / (1 - mu ^ 2) + E * (gy 2) * (gy 3) / (1 - mu ^ 2)) * dp

/-- `out[95]`, GQ12/wrapped_code_0.c 108 -/
noncomputable def o7_11 (E mu t dp : ℝ) (gx gy ex ey es : Fin 4 → ℝ) : ℝ :=
  t * (E * mu * (gy 2) * (ex 3) / (1 - mu ^ 2) + E * (1 / 2 - 1 / 2 * mu) * (gx 2) * (es 3) / (1 - mu ^ 2) + E * (gy 2) * (ey 3) /
    (1 - mu ^ 2)) * dp

/-- `out[84]` to `out[95]`, GQ12/wrapped_code_0.c 97-108 -/
noncomputable def out7 (E mu t dp : ℝ) (gx gy ex ey es : Fin 4 → ℝ) : Fin 12 → ℝ := ![
  o7_0 E mu t dp gx gy ex ey es,
  o7_1 E mu t dp gx gy ex ey es,
  o7_2 E mu t dp gx gy ex ey es,
  o7_3 E mu t dp gx gy ex ey es,
  o7_4 E mu t dp gx gy ex ey es,
  o7_5 E mu t dp gx gy ex ey es,
  o7_6 E mu t dp gx gy ex ey es,
  o7_7 E mu t dp gx gy ex ey es,
  o7_8 E mu t dp gx gy ex ey es,
  o7_9 E mu t dp gx gy ex ey es,
  o7_10 E mu t dp gx gy ex ey es,
  o7_11 E mu t dp gx gy ex ey es]

/-- `out[96]`, GQ12/wrapped_code_0.c 109 -/
noncomputable def o8_0 (E mu t dp : ℝ) (gx gy ex ey es : Fin 4 → ℝ) : ℝ :=
  t * (E * (1 / 2 - 1 / 2 * mu) * (gy 0) * (es 2) / (1 - mu ^ 2) + (gx 0) * (E * mu * (ey 2) / (1 - mu ^ 2) + E * (ex 2) / (1 - mu ^
    2))) * dp

/-- `out[97]`, GQ12/wrapped_code_0.c 110 -/
noncomputable def o8_1 (E mu t dp : ℝ) (gx gy ex ey es : Fin 4 → ℝ) : ℝ :=
  t * (E * (1 / 2 - 1 / 2 * mu) * (gx 0) * (es 2) / (1 - mu ^ 2) + (gy 0) * (E * mu * (ex 2) / (1 - mu ^ 2) + E * (ey 2) / (1 - mu ^
    2))) * dp

/-- `out[98]`, GQ12/wrapped_code_0.c 111 -/
noncomputable def o8_2 (E mu t dp : ℝ) (_gx _gy ex ey es : Fin 4 → ℝ) : ℝ :=
  t * (E * (1 / 2 - 1 / 2 * mu) * (es 2) * (es 0) / (1 - mu ^ 2) + (ey 0) * (E * mu * (ex 2) / (1 - mu ^ 2) + E * (ey 2) / (1 - mu ^
    2)) + (ex 0) * (E * mu * (ey 2) / (1 - mu ^ 2) + E * (ex 2) / (1 - mu ^ 2))) * dp

/-- `out[99]`, GQ12/wrapped_code_0.c 112 -/
noncomputable def o8_3 (E mu t dp : ℝ) (gx gy ex ey es : Fin 4 → ℝ) : ℝ :=
  t * (E * (1 / 2 - 1 / 2 * mu) * (gy 1) * (es 2) / (1 - mu ^ 2) + (gx 1) * (E * mu * (ey 2) / (1 - mu ^ 2) + E * (ex 2) / (1 - mu ^
    2))) * dp

/-- `out[100]`, GQ12/wrapped_code_0.c 113 -/
noncomputable def o8_4 (E mu t dp : ℝ) (gx gy ex ey es : Fin 4 → ℝ) : ℝ :=
  t * (E * (1 / 2 - 1 / 2 * mu) * (gx 1) * (es 2) / (1 - mu ^ 2) + (gy 1) * (E * mu * (ex 2) / (1 - mu ^ 2) + E * (ey 2) / (1 - mu ^
    2))) * dp

/-- `out[101]`, GQ12/wrapped_code_0.c 114 -/
noncomputable def o8_5 (E mu t dp : ℝ) (_gx _gy ex ey es : Fin 4 → ℝ) : ℝ :=
  t * (E * (1 / 2 - 1 / 2 * mu) * (es 2) * (es 1) / (1 - mu ^ 2) + (ey 1) * (E * mu * (ex 2) / (1 - mu ^ 2) + E * (ey 2) / (1 - mu ^
    2)) + (ex 1) * (E * mu * (ey 2) / (1 - mu ^ 2) + E * (ex 2) / (1 - mu ^ 2))) * dp

/-- `out[102]`, GQ12/wrapped_code_0.c 115 -/
noncomputable def o8_6 (E mu t dp : ℝ) (gx gy ex ey es : Fin 4 → ℝ) : ℝ :=
  t * (E * (1 / 2 - 1 / 2 * mu) * (gy 2) * (es 2) / (1 - mu ^ 2) + (gx 2) * (E * mu * (ey 2) / (1 - mu ^ 2) + E * (ex 2) / (1 - mu ^
    2))) * dp

/-- `out[103]`, GQ12/wrapped_code_0.c 116 -/
noncomputable def o8_7 (E mu t dp : ℝ) (gx gy ex ey es : Fin 4 → ℝ) : ℝ :=
  t * (E * (1 / 2 - 1 / 2 * mu) * (gx 2) * (es 2) / (1 - mu ^ 2) + (gy 2) * (E * mu * (ex 2) / (1 - mu ^ 2) + E * (ey 2) / (1 - mu ^
    2))) * dp

/-- `out[104]`, GQ12/wrapped_code_0.c 117 -/
noncomputable def o8_8 (E mu t dp : ℝ) (_gx _gy ex ey es : Fin 4 → ℝ) : ℝ :=
  t * (E * (1 / 2 - 1 / 2 * mu) * (es 2) ^ 2 / (1 - mu ^ 2) + (ex 2) * (E * mu * (ey 2) / (1 - mu ^ 2) + E * (ex 2) / (1 - mu ^ 2))
    + (ey 2) * (E * mu * (ex 2) / (1 - mu ^ 2) + E * (ey 2) / (1 - mu ^ 2))) * dp

/-- `out[105]`, GQ12/wrapped_code_0.c 118 -/
noncomputable def o8_9 (E mu t dp : ℝ) (gx gy ex ey es : Fin 4 → ℝ) : ℝ :=
  t * (E * (1 / 2 - 1 / 2 * mu) * (gy 3) * (es 2) / (1 - mu ^ 2) + (gx 3) * (E * mu * (ey 2) / (1 - mu ^ 2) + E * (ex 2) / (1 - mu ^
    2))) * dp

/-- `out[106]`, GQ12/wrapped_code_0.c 119 -/
noncomputable def o8_10 (E mu t dp : ℝ) (gx gy ex ey es : Fin 4 → ℝ) : ℝ :=
  t * (E * (1 / 2 - 1 / 2 * mu) * (gx 3) * (es 2) / (1 - mu ^ 2) + (gy 3) * (E * mu * (ex 2) / (1 - mu ^ 2) + E * (ey 2) / (1 - mu ^
    2))) * dp

/-- `out[107]`, GQ12/wrapped_code_0.c 120 -/
noncomputable def o8_11 (E mu t dp : ℝ) (_gx _gy ex ey es : Fin 4 → ℝ) : ℝ :=
  t * (E * (1 / 2 - 1 / 2 * mu) * (es 2) * (es 3) / (1 - mu ^ 2) + (ex 3) * (E * mu * (ey 2) / (1 - mu ^ 2) + E * (ex 2) / (1 - mu ^
    2)) + (ey 3) * (E * mu * (ex 2) / (1 - mu ^ 2) + E * (ey 2) / (1 - mu ^ 2))) * dp

/-- `out[96]` to `out[107]`, GQ12/wrapped_code_0.c 109-120 -/
noncomputable def out8 (E mu t dp : ℝ) (gx gy ex ey es : Fin 4 → ℝ) : Fin 12 → ℝ := ![
  o8_0 E mu t dp gx gy ex ey es,
  o8_1 E mu t dp gx gy ex ey es,
  o8_2 E mu t dp gx gy ex ey es,
  o8_3 E mu t dp gx gy ex ey es,
  o8_4 E mu t dp gx gy ex ey es,
  o8_5 E mu t dp gx gy ex ey es,
  o8_6 E mu t dp gx gy ex ey es,
  o8_7 E mu t dp gx gy ex ey es,
  o8_8 E mu t dp gx gy ex ey es,
  o8_9 E mu t dp gx gy ex ey es,
  o8_10 E mu t dp gx gy ex ey es,
  o8_11 E mu t dp gx gy ex ey es]

/-- `out[108]`, GQ12/wrapped_code_0.c 121 -/
noncomputable def o9_0 (E mu t dp : ℝ) (gx gy _ex _ey _es : Fin 4 → ℝ) : ℝ :=
  t * (E * (1 / 2 - 1 / 2 * mu) * (gy 0) * (gy 3) / (1 - mu ^ 2) + E * (gx 0) * (gx 3) / (1 - mu ^ 2)) * dp

/-- `out[109]`, GQ12/wrapped_code_0.c 122 -/
noncomputable def o9_1 (E mu t dp : ℝ) (gx gy _ex _ey _es : Fin 4 → ℝ) : ℝ :=
  t * (E * mu * (gy 0) * (gx 3) / (1 - mu ^ 2) + E * (1 / 2 - 1 / 2 * mu) * (gx 0) * (gy 3) / (1 - mu ^ 2)) * dp

/-- `out[110]`, GQ12/wrapped_code_0.c 123 -/
noncomputable def o9_2 (E mu t dp : ℝ) (gx gy ex ey es : Fin 4 → ℝ) : ℝ :=
  t * (E * mu * (gx 3) * (ey 0) / (1 - mu ^ 2) + E * (1 / 2 - 1 / 2 * mu) * (gy 3) * (es 0) / (1 - mu ^ 2) + E * (gx 3) * (ex 0) /
    (1 - mu ^ 2)) * dp

/-- `out[111]`, GQ12/wrapped_code_0.c 124 -/
noncomputable def o9_3 (E mu t dp : ℝ) (gx gy _ex _ey _es : Fin 4 → ℝ) : ℝ :=
  t * (E * (1 / 2 - 1 / 2 * mu) * (gy 3) * (gy 1) / (1 - mu ^ 2) + E * (gx 3) * (gx 1) / (1 - mu ^ 2)) * dp

/-- `out[112]`, GQ12/wrapped_code_0.c 125 -/
noncomputable def o9_4 (E mu t dp : ℝ) (gx gy _ex _ey _es : Fin 4 → ℝ) : ℝ :=
  t * (E * mu * (gx 3) * (gy 1) / (1 - mu ^ 2) + E * (1 / 2 - 1 / 2 * mu) * (gy 3) * (gx 1) / (1 - mu ^ 2)) * dp

/-- `out[113]`, GQ12/wrapped_code_0.c 126 -/
noncomputable def o9_5 (E mu t dp : ℝ) (gx gy ex ey es : Fin 4 → ℝ) : ℝ :=
  t * (E * mu * (gx 3) * (ey 1) / (1 - mu ^ 2) + E * (1 / 2 - 1 / 2 * mu) * (gy 3) * (es 1) / (1 - mu ^ 2) + E * (gx 3) * (ex 1) /
    (1 - mu ^ 2)) * dp

/-- `out[114]`, GQ12/wrapped_code_0.c 127 -/
noncomputable def o9_6 (E mu t dp : ℝ) (gx gy _ex _ey _es : Fin 4 → ℝ) : ℝ :=
  t * (E * (1 / 2 - 1 / 2 * mu) * (gy 2) * (gy 3) / (1 - mu ^ 2) + E * (gx 2) * (gx 3) / (1 - mu ^ 2)) * dp

/-- `out[115]`, GQ12/wrapped_code_0.c 128 -/
noncomputable def o9_7 (E mu t dp : ℝ) (gx gy _ex _ey _es : Fin 4 → ℝ) : ℝ :=
  t * (E * mu * (gy 2) * (gx 3) / (1 - mu ^ 2) + E * (1 / 2 - 1 / 2 * mu) * (gx 2) * (gy 3) / (1 - mu ^ 2)) * dp

/-- `out[116]`, GQ12/wrapped_code_0.c 129 -/
noncomputable def o9_8 (E mu t dp : ℝ) (gx gy ex ey es : Fin 4 → ℝ) : ℝ :=
  t * (E * mu * (gx 3) * (ey 2) / (1 - mu ^ 2) + E * (1 / 2 - 1 / 2 * mu) * (gy 3) * (es 2) / (1 - mu ^ 2) + E * (gx 3) * (ex 2) /
    (1 - mu ^ 2)) * dp

/-- `out[117]`, GQ12/wrapped_code_0.c 130 -/
noncomputable def o9_9 (E mu t dp : ℝ) (gx gy _ex _ey _es : Fin 4 → ℝ) : ℝ :=
  t * (E * (1 / 2 - 1 / 2 * mu) * (gy 3) ^ 2 / (1 - mu ^ 2) + E * (gx 3) ^ 2 / (1 - mu ^ 2)) * dp

/-- `out[118]`, GQ12/wrapped_code_0.c 131 -/
noncomputable def o9_10 (E mu t dp : ℝ) (gx gy _ex _ey _es : Fin 4 → ℝ) : ℝ :=
  t * (E * mu * (gy 3) * (gx 3) / (1 - mu ^ 2) + E * (1 / 2 - 1 / 2 * mu) * (gy 3) * (gx 3) / (1 - mu ^ 2)) * dp

/-- `out[119]`, GQ12/wrapped_code_0.c 132 -/
noncomputable def o9_11 (E mu t dp : ℝ) (gx gy ex ey es : Fin 4 → ℝ) : ℝ :=
  t * (E * mu * (gx 3) * (ey 3) / (1 - mu ^ 2) + E * (1 / 2 - 1 / 2 * mu) * (gy 3) * (es 3) / (1 - mu ^ 2) + E * (gx 3) * (ex 3) /
    (1 - mu ^ 2)) * dp

/-- `out[108]` to `out[119]`, GQ12/wrapped_code_0.c 121-132 -/
noncomputable def out9 (E mu t dp : ℝ) (gx gy ex ey es : Fin 4 → ℝ) : Fin 12 → ℝ := ![
  o9_0 E mu t dp gx gy ex ey es,
  o9_1 E mu t dp gx gy ex ey es,
  o9_2 E mu t dp gx gy ex ey es,
  o9_3 E mu t dp gx gy ex ey es,
  o9_4 E mu t dp gx gy ex ey es,
  o9_5 E mu t dp gx gy ex ey es,
  o9_6 E mu t dp gx gy ex ey es,
  o9_7 E mu t dp gx gy ex ey es,
  o9_8 E mu t dp gx gy ex ey es,
  o9_9 E mu t dp gx gy ex ey es,
  o9_10 E mu t dp gx gy ex ey es,
  o9_11 E mu t dp gx gy ex ey es]

/-- `out[120]`, GQ12/wrapped_code_0.c 133 -/
noncomputable def o10_0 (E mu t dp : ℝ) (gx gy _ex _ey _es : Fin 4 → ℝ) : ℝ :=
  t * (E * mu * (gx 0) * (gy 3) / (1 - mu ^ 2) + E * (1 / 2 - 1 / 2 * mu) * (gy 0) * (gx 3) / (1 - mu ^ 2)) * dp

/-- `out[121]`, GQ12/wrapped_code_0.c 134 -/
noncomputable def o10_1 (E mu t dp : ℝ) (gx gy _ex _ey _es : Fin 4 → ℝ) : ℝ :=
  t * (E * (1 / 2 - 1 / 2 * mu) * (gx 0) * (gx 3) / (1 - mu ^ 2) + E * (gy 0) * (gy 3) / (1 - mu ^ 2)) * dp

/-- `out[122]`, GQ12/wrapped_code_0.c 135 -/
noncomputable def o10_2 (E mu t dp : ℝ) (gx gy ex ey es : Fin 4 → ℝ) : ℝ :=
  t * (E * mu * (gy 3) * (ex 0) / (1 - mu ^ 2) + E * (1 / 2 - 1 / 2 * mu) * (gx 3) * (es 0) / (1 - mu ^ 2) + E * (gy 3) * (ey 0) /
    (1 - mu ^ 2)) * dp

/-- `out[123]`, GQ12/wrapped_code_0.c 136 -/
noncomputable def o10_3 (E mu t dp : ℝ) (gx gy _ex _ey _es : Fin 4 → ℝ) : ℝ :=
  t * (E * mu * (gy 3) * (gx 1) / (1 - mu ^ 2) + E * (1 / 2 - 1 / 2 * mu) * (gx 3) * (gy 1) / (1 - mu ^ 2)) * dp

/-- `out[124]`, GQ12/wrapped_code_0.c 137 -/
noncomputable def o10_4 (E mu t dp : ℝ) (gx gy _ex _ey _es : Fin 4 → ℝ) : ℝ :=
  t * (E * (1 / 2 - 1 / 2 * mu) * (gx 3) * (gx 1) / (1 - mu ^ 2) + E * (gy 3) * (gy 1) / (1 - mu ^ 2)) * dp

/-- `out[125]`, GQ12/wrapped_code_0.c 138 -/
noncomputable def o10_5 (E mu t dp : ℝ) (gx gy ex ey es : Fin 4 → ℝ) : ℝ :=
  t * (E * mu * (gy 3) * (ex 1) / (1 - mu ^ 2) + E * (1 / 2 - 1 / 2 * mu) * (gx 3) * (es 1) / (1 - mu ^ 2) + E * (gy 3) * (ey 1) /
    (1 - mu ^ 2)) * dp

/-- `out[126]`, GQ12/wrapped_code_0.c 139 -/
noncomputable def o10_6 (E mu t dp : ℝ) (gx gy _ex _ey _es : Fin 4 → ℝ) : ℝ :=
  t * (E * mu * (gx 2) * (gy 3) / (1 - mu ^ 2) + E * (1 / 2 - 1 / 2 * mu) * (gy 2) * (gx 3) / (1 - mu ^ 2)) * dp

/-- `out[127]`, GQ12/wrapped_code_0.c 140 -/
noncomputable def o10_7 (E mu t dp : ℝ) (gx gy _ex _ey _es : Fin 4 → ℝ) : ℝ :=
  t * (E * (1 / 2 - 1 / 2 * mu) * (gx 2) * (gx 3) / (1 - mu ^ 2) + E * (gy 2) * (gy 3) / (1 - mu ^ 2)) * dp

/-- `out[128]`, GQ12/wrapped_code_0.c 141 -/
noncomputable def o10_8 (E mu t dp : ℝ) (gx gy ex ey es : Fin 4 → ℝ) : ℝ :=
  t * (E * mu * (gy 3) * (ex 2) / (1 - mu ^ 2) + E * (1 / 2 - 1 / 2 * mu) * (gx 3) * (es 2) / (1 - mu ^ 2) + E * (gy 3) * (ey 2) /
    (1 - mu ^ 2)) * dp

/-- `out[129]`, GQ12/wrapped_code_0.c 142 -/
noncomputable def o10_9 (E mu t dp : ℝ) (gx gy _ex _ey _es : Fin 4 → ℝ) : ℝ :=
  t * (E * mu * (gy 3) * (gx 3) / (1 - mu ^ 2) + E * (1 / 2 - 1 / 2 * mu) * (gy 3) * (gx 3) / (1 - mu ^ 2)) * dp

/-- `out[130]`, GQ12/wrapped_code_0.c 143 -/
noncomputable def o10_10 (E mu t dp : ℝ) (gx gy _ex _ey _es : Fin 4 → ℝ) : ℝ :=
  t * (E * (1 / 2 - 1 / 2 * mu) * (gx 3) ^ 2 / (1 - mu ^ 2) + E * (gy 3) ^ 2 / (1 - mu ^ 2)) * dp

/-- `out[131]`, GQ12/wrapped_code_0.c 144 -/
noncomputable def o10_11 (E mu t dp : ℝ) (gx gy ex ey es : Fin 4 → ℝ) : ℝ :=
  t * (E * mu * (gy 3) * (ex 3) / (1 - mu ^ 2) + E * (1 / 2 - 1 / 2 * mu) * (gx 3) * (es 3) / (1 - mu ^ 2) + E * (gy 3) * (ey 3) /
    (1 - mu ^ 2)) * dp

/-- `out[120]` to `out[131]`, GQ12/wrapped_code_0.c 133-144 -/
noncomputable def out10 (E mu t dp : ℝ) (gx gy ex ey es : Fin 4 → ℝ) : Fin 12 → ℝ := ![
  o10_0 E mu t dp gx gy ex ey es,
  o10_1 E mu t dp gx gy ex ey es,
  o10_2 E mu t dp gx gy ex ey es,
  o10_3 E mu t dp gx gy ex ey es,
  o10_4 E mu t dp gx gy ex ey es,
  o10_5 E mu t dp gx gy ex ey es,
  o10_6 E mu t dp gx gy ex ey es,
  o10_7 E mu t dp gx gy ex ey es,
  o10_8 E mu t dp gx gy ex ey es,
  o10_9 E mu t dp gx gy ex ey es,
  o10_10 E mu t dp gx gy ex ey es,
  o10_11 E mu t dp gx gy ex ey es]

/-- `out[132]`, GQ12/wrapped_code_0.c 145 -/
noncomputable def o11_0 (E mu t dp : ℝ) (gx gy ex ey es : Fin 4 → ℝ) : ℝ :=
  t * (E * (1 / 2 - 1 / 2 * mu) * (gy 0) * (es 3) / (1 - mu ^ 2) + (gx 0) * (E * mu * (ey 3) / (1 - mu ^ 2) + E * (ex 3) / (1 - mu ^
    2))) * dp

/-- `out[133]`, GQ12/wrapped_code_0.c 146 -/
noncomputable def o11_1 (E mu t dp : ℝ) (gx gy ex ey es : Fin 4 → ℝ) : ℝ :=
  t * (E * (1 / 2 - 1 / 2 * mu) * (gx 0) * (es 3) / (1 - mu ^ 2) + (gy 0) * (E * mu * (ex 3) / (1 - mu ^ 2) + E * (ey 3) / (1 - mu ^
    2))) * dp

/-- `out[134]`, GQ12/wrapped_code_0.c 147 -/
noncomputable def o11_2 (E mu t dp : ℝ) (_gx _gy ex ey es : Fin 4 → ℝ) : ℝ :=
  t * (E * (1 / 2 - 1 / 2 * mu) * (es 3) * (es 0) / (1 - mu ^ 2) + (ey 0) * (E * mu * (ex 3) / (1 - mu ^ 2) + E * (ey 3) / (1 - mu ^
    2)) + (ex 0) * (E * mu * (ey 3) / (1 - mu ^ 2) + E * (ex 3) / (1 - mu ^ 2))) * dp

/-- `out[135]`, GQ12/wrapped_code_0.c 148 -/
noncomputable def o11_3 (E mu t dp : ℝ) (gx gy ex ey es : Fin 4 → ℝ) : ℝ :=
  t * (E * (1 / 2 - 1 / 2 * mu) * (gy 1) * (es 3) / (1 - mu ^ 2) + (gx 1) * (E * mu * (ey 3) / (1 - mu ^ 2) + E * (ex 3) / (1 - mu ^
    2))) * dp

/-- `out[136]`, GQ12/wrapped_code_0.c 149 -/
noncomputable def o11_4 (E mu t dp : ℝ) (gx gy ex ey es : Fin 4 → ℝ) : ℝ :=
  t * (E * (1 / 2 - 1 / 2 * mu) * (gx 1) * (es 3) / (1 - mu ^ 2) + (gy 1) * (E * mu * (ex 3) / (1 - mu ^ 2) + E * (ey 3) / (1 - mu ^
    2))) * dp

/-- `out[137]`, GQ12/wrapped_code_0.c 150 -/
noncomputable def o11_5 (E mu t dp : ℝ) (_gx _gy ex ey es : Fin 4 → ℝ) : ℝ :=
  t * (E * (1 / 2 - 1 / 2 * mu) * (es 3) * (es 1) / (1 - mu ^ 2) + (ey 1) * (E * mu * (ex 3) / (1 - mu ^ 2) + E * (ey 3) / (1 - mu ^
    2)) + (ex 1) * (E * mu * (ey 3) / (1 - mu ^ 2) + E * (ex 3) / (1 - mu ^ 2))) * dp

/-- `out[138]`, GQ12/wrapped_code_0.c 151 -/
noncomputable def o11_6 (E mu t dp : ℝ) (gx gy ex ey es : Fin 4 → ℝ) : ℝ :=
  t * (E * (1 / 2 - 1 / 2 * mu) * (gy 2) * (es 3) / (1 - mu ^ 2) + (gx 2) * (E * mu * (ey 3) / (1 - mu ^ 2) + E * (ex 3) / (1 - mu ^
    2))) * dp

/-- `out[139]`, GQ12/wrapped_code_0.c 152 -/
noncomputable def o11_7 (E mu t dp : ℝ) (gx gy ex ey es : Fin 4 → ℝ) : ℝ :=
  t * (E * (1 / 2 - 1 / 2 * mu) * (gx 2) * (es 3) / (1 - mu ^ 2) + (gy 2) * (E * mu * (ex 3) / (1 - mu ^ 2) + E * (ey 3) / (1 - mu ^
    2))) * dp

/-- `out[140]`, GQ12/wrapped_code_0.c 153 -/
noncomputable def o11_8 (E mu t dp : ℝ) (_gx _gy ex ey es : Fin 4 → ℝ) : ℝ :=
  t * (E * (1 / 2 - 1 / 2 * mu) * (es 2) * (es 3) / (1 - mu ^ 2) + (ex 2) * (E * mu * (ey 3) / (1 - mu ^ 2) + E * (ex 3) / (1 - mu ^
    2)) + (ey 2) * (E * mu * (ex 3) / (1 - mu ^ 2) + E * (ey 3) / (1 - mu ^ 2))) * dp

/-- `out[141]`, GQ12/wrapped_code_0.c 154 -/
noncomputable def o11_9 (E mu t dp : ℝ) (gx gy ex ey es : Fin 4 → ℝ) : ℝ :=
  t * (E * (1 / 2 - 1 / 2 * mu) * (gy 3) * (es 3) / (1 - mu ^ 2) + (gx 3) * (E * mu * (ey 3) / (1 - mu ^ 2) + E * (ex 3) / (1 - mu ^
    2))) * dp

/-- `out[142]`, GQ12/wrapped_code_0.c 155 -/
noncomputable def o11_10 (E mu t dp : ℝ) (gx gy ex ey es : Fin 4 → ℝ) : ℝ :=
  t * (E * (1 / 2 - 1 / 2 * mu) * (gx 3) * (es 3) / (1 - mu ^ 2) + (gy 3) * (E * mu * (ex 3) / (1 - mu ^ 2) + E * (ey 3) / (1 - mu ^
    2))) * dp

/-- `out[143]`, GQ12/wrapped_code_0.c 156 -/
noncomputable def o11_11 (E mu t dp : ℝ) (_gx _gy ex ey es : Fin 4 → ℝ) : ℝ :=
  t * (E * (1 / 2 - 1 / 2 * mu) * (es 3) ^ 2 / (1 - mu ^ 2) + (ex 3) * (E * mu * (ey 3) / (1 - mu ^ 2) + E * (ex 3) / (1 - mu ^ 2))
    + (ey 3) * (E * mu * (ex 3) / (1 - mu ^ 2) + E * (ey 3) / (1 - mu ^ 2))) * dp

/-- `out[132]` to `out[143]`, GQ12/wrapped_code_0.c 145-156 -/
noncomputable def out11 (E mu t dp : ℝ) (gx gy ex ey es : Fin 4 → ℝ) : Fin 12 → ℝ := ![
  o11_0 E mu t dp gx gy ex ey es,
  o11_1 E mu t dp gx gy ex ey es,
  o11_2 E mu t dp gx gy ex ey es,
  o11_3 E mu t dp gx gy ex ey es,
  o11_4 E mu t dp gx gy ex ey es,
  o11_5 E mu t dp gx gy ex ey es,
  o11_6 E mu t dp gx gy ex ey es,
  o11_7 E mu t dp gx gy ex ey es,
  o11_8 E mu t dp gx gy ex ey es,
  o11_9 E mu t dp gx gy ex ey es,
  o11_10 E mu t dp gx gy ex ey es,
  o11_11 E mu t dp gx gy ex ey es]

/-- `autofunc` GQ12/wrapped_code_0.c 11-158: what is written to `out[n]`, `n = 12*i+j` -/
noncomputable def out (E mu t xi eta x1 y1 x2 y2 x3 y3 x4 y4 : ℝ) (n : ℕ) : ℝ :=
  let xs := x1 * (0.25 - 0.25 * eta) + x2 * (0.25 * eta + 0.25) + x3 * (-0.25 * eta - 0.25) + x4 * (0.25 * eta - 0.25)
  let ys := y1 * (0.25 - 0.25 * eta) + y2 * (0.25 * eta + 0.25) + y3 * (-0.25 * eta - 0.25) + y4 * (0.25 * eta - 0.25)
  let xe := x1 * (-0.25 * xi - 0.25) + x2 * (0.25 * xi + 0.25) + x3 * (0.25 - 0.25 * xi) + x4 * (0.25 * xi - 0.25)
  let ye := y1 * (-0.25 * xi - 0.25) + y2 * (0.25 * xi + 0.25) + y3 * (0.25 - 0.25 * xi) + y4 * (0.25 * xi - 0.25)
  let nxe := -x1 * (-0.25 * xi - 0.25) - x2 * (0.25 * xi + 0.25) - x3 * (0.25 - 0.25 * xi) - x4 * (0.25 * xi - 0.25)
  let nys := -y1 * (0.25 - 0.25 * eta) - y2 * (0.25 * eta + 0.25) - y3 * (-0.25 * eta - 0.25) - y4 * (0.25 * eta - 0.25)
  let dj := xs * ye - xe * ys
  let dp := -0.125 * eta * x1 * y3 + 0.125 * eta * x1 * y4 + 0.125 * eta * x2 * y3 - 0.125 * eta * x2 * y4 + 0.125 * eta * x3 * y1 - 0.125 *
    eta * x3 * y2 - 0.125 * eta * x4 * y1 + 0.125 * eta * x4 * y2 + 0.125 * x1 * xi * y2 - 0.125 * x1 * xi * y3 + 0.125 * x1 * y2
    - 0.125 * x1 * y4 - 0.125 * x2 * xi * y1 + 0.125 * x2 * xi * y4 - 0.125 * x2 * y1 + 0.125 * x2 * y3 + 0.125 * x3 * xi * y1 -
    0.125 * x3 * xi * y4 - 0.125 * x3 * y2 + 0.125 * x3 * y4 - 0.125 * x4 * xi * y2 + 0.125 * x4 * xi * y3 + 0.125 * x4 * y1 -
    0.125 * x4 * y3
  let gx := gx dj xs ys xe ye nxe nys xi eta x1 x2 x3 x4 y1 y2 y3 y4
  let gy := gy dj xs ys xe ye nxe nys xi eta x1 x2 x3 x4 y1 y2 y3 y4
  let ex := ex dj xs ys xe ye nxe nys xi eta x1 x2 x3 x4 y1 y2 y3 y4
  let ey := ey dj xs ys xe ye nxe nys xi eta x1 x2 x3 x4 y1 y2 y3 y4
  let es := es dj xs ys xe ye nxe nys xi eta x1 x2 x3 x4 y1 y2 y3 y4
  (![out0 E mu t dp gx gy ex ey es,
    out1 E mu t dp gx gy ex ey es,
    out2 E mu t dp gx gy ex ey es,
    out3 E mu t dp gx gy ex ey es,
    out4 E mu t dp gx gy ex ey es,
    out5 E mu t dp gx gy ex ey es,
    out6 E mu t dp gx gy ex ey es,
    out7 E mu t dp gx gy ex ey es,
    out8 E mu t dp gx gy ex ey es,
    out9 E mu t dp gx gy ex ey es,
    out10 E mu t dp gx gy ex ey es,
    out11 E mu t dp gx gy ex ey es] : Fin 12 → Fin 12 → ℝ)
    (Fin.ofNat 12 (n / 12)) (Fin.ofNat 12 n)

/-- `autofunc_c` metaGQ12.pyx 7-11, called with the coordinates in the order `x1,y1,x2,y2,...` (DKGQ.py 33): a 12 by 12 array, filled by rows -/
noncomputable def autofunc_c (E mu t : ℝ) (x y : Fin 4 → ℝ) (ξ η : ℝ) : Matrix (Fin 4 × Fin 3) (Fin 4 × Fin 3) ℝ := fun k l =>
  out E mu t ξ η (x 0) (y 0) (x 1) (y 1) (x 2) (y 2) (x 3) (y 3) (12 * (3 * k.1.val + k.2.val) + (3 * l.1.val + l.2.val))

end GQ12Text

end Hyperstatic
