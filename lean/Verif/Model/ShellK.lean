import Verif.Model.Assembly
import Mathlib.Analysis.Calculus.Deriv.Basic
import Mathlib.LinearAlgebra.Matrix.NonsingularInverse

/-
Model of the stiffness of the shell elements: hyperstatic/core/fe_model/element/quad/DKGQ.py, element/tria/DKT.py and the symbolic
definitions they are generated from, hyperstatic/core/fe_model/meta/{membranes,plates}.

The element code evaluates sympy-generated C.  What is modelled here is the sympy program that defines it; the generated C text is
in `Model/CompiledTria`, `Model/CompiledGQ12` and `Model/CompiledDKQ`, and C172 proves that it computes the same.  `syp.diff` is the derivative.  Rows and
columns `3*i+c` of element matrices are written as pairs `(i, c)` of node and component.  A quadpy scheme is a list of weighted points:
the integral it returns is the weighted sum of the values at the points, whatever they are.
-/

namespace Hyperstatic
open Matrix

/-- ∂/∂ξ of a function of the natural coordinates: `syp.diff(f,xi)` -/
noncomputable def dXi (f : ℝ → ℝ → ℝ) (ξ η : ℝ) : ℝ := deriv (fun x => f x η) ξ
/-- ∂/∂η of a function of the natural coordinates: `syp.diff(f,eta)` -/
noncomputable def dEta (f : ℝ → ℝ → ℝ) (ξ η : ℝ) : ℝ := deriv (fun x => f ξ x) η

/-- `D` up to its factor: GQ12/__init__.py 44-48, T9/__init__.py 33-37, metaDKQ/__init__.py 117-120, metaDKT/__init__.py 88-91. -/
noncomputable def isoD (mu : ℝ) : Matrix (Fin 3) (Fin 3) ℝ := !![1, mu, 0; mu, 1, 0; 0, 0, (1 - mu) / 2]

/-- membrane `D`, GQ12/__init__.py 44-49, T9/__init__.py 33-38 -/
noncomputable def membraneD (E mu : ℝ) : Matrix (Fin 3) (Fin 3) ℝ := (E / (1 - mu ^ 2)) • isoD mu

/-- bending `D`, metaDKQ/__init__.py 117-121, metaDKT/__init__.py 88-92 -/
noncomputable def bendingD (E mu t : ℝ) : Matrix (Fin 3) (Fin 3) ℝ := (E * t ^ 3 / 12 / (1 - mu ^ 2)) • isoD mu

/-- A quadrature scheme: weights (volume of the domain included) and points, `scheme.integrate` of quadpy. -/
abbrev Scheme := List (ℝ × ℝ × ℝ)

/-- `scheme.integrate(f, domain)` -/
noncomputable def Scheme.integrate {ι κ : Type} (s : Scheme) (f : ℝ → ℝ → Matrix ι κ ℝ) : Matrix ι κ ℝ :=
  (s.map fun p => p.1 • f p.2.1 p.2.2).sum

namespace GQ12

/-- `xi0` GQ12/__init__.py 13 -/
def xi0 : Fin 4 → ℝ := ![1, 1, -1, -1]
/-- `eta0` GQ12/__init__.py 14 -/
def eta0 : Fin 4 → ℝ := ![-1, 1, 1, -1]

/-- `sum([xi0[i]*x0[i] ...])/4`: `a1` of the x, `b1` of the y coordinates, GQ12/__init__.py 21, 24 -/
noncomputable def c1 (p : Fin 4 → ℝ) : ℝ := (∑ i, xi0 i * p i) / 4
/-- `a2`, `b2` GQ12/__init__.py 22, 25 -/
noncomputable def c2 (p : Fin 4 → ℝ) : ℝ := (∑ i, eta0 i * p i) / 4
/-- `a3`, `b3` GQ12/__init__.py 23, 26 -/
noncomputable def c3 (p : Fin 4 → ℝ) : ℝ := (∑ i, xi0 i * eta0 i * p i) / 4

/-- `N0[i]` GQ12/__init__.py 29 -/
noncomputable def N0 (i : Fin 4) (ξ η : ℝ) : ℝ := 1 / 4 * (1 + xi0 i * ξ) * (1 + eta0 i * η)

/-- The common form of `Nut[i]` (`p = y0`) and `-Nvt[i]` (`p = x0`), GQ12/__init__.py 30-31.  The first factor is the variable `xi`,
not the corner value `xi0[i]`. -/
noncomputable def Nt (p : Fin 4 → ℝ) (i : Fin 4) (ξ η : ℝ) : ℝ :=
  (ξ * (1 - ξ ^ 2) * (c1 p + c3 p * eta0 i) * (1 + eta0 i * η) +
    eta0 i * (1 - η ^ 2) * (c2 p + c3 p * xi0 i) * (1 + xi0 i * ξ)) / 8

/-- Row 0 of `N` GQ12/__init__.py 33-38: the u displacement. -/
noncomputable def Nu (y : Fin 4 → ℝ) (k : Fin 4 × Fin 3) (ξ η : ℝ) : ℝ :=
  match k.2 with
  | 0 => N0 k.1 ξ η
  | 1 => 0
  | 2 => Nt y k.1 ξ η

/-- Row 1 of `N` GQ12/__init__.py 33-38: the v displacement. -/
noncomputable def Nv (x : Fin 4 → ℝ) (k : Fin 4 × Fin 3) (ξ η : ℝ) : ℝ :=
  match k.2 with
  | 0 => 0
  | 1 => N0 k.1 ξ η
  | 2 => -Nt x k.1 ξ η

/-- `J=J2D(N0,X)` GQ12/__init__.py 51-52, jacobi.py 14-29 -/
noncomputable def J (x y : Fin 4 → ℝ) (ξ η : ℝ) : Matrix (Fin 2) (Fin 2) ℝ :=
  !![∑ i, dXi (N0 i) ξ η * x i, ∑ i, dXi (N0 i) ξ η * y i;
     ∑ i, dEta (N0 i) ξ η * x i, ∑ i, dEta (N0 i) ξ η * y i]

/-- `dnat(f)` GQ12/__init__.py 73-74: `inv(J)*[f_xi, f_eta]`.  (Where `det J = 0` the code divides by zero.) -/
noncomputable def dnat (x y : Fin 4 → ℝ) (f : ℝ → ℝ → ℝ) (ξ η : ℝ) : Vec 2 := (J x y ξ η)⁻¹ *ᵥ ![dXi f ξ η, dEta f ξ η]

/-- `B=operator_dot(L2iso(xi,eta),N)` GQ12/__init__.py 68-82, operator.py 26-37 -/
noncomputable def B (x y : Fin 4 → ℝ) (ξ η : ℝ) : Matrix (Fin 3) (Fin 4 × Fin 3) ℝ := fun r k =>
  match r with
  | 0 => dnat x y (Nu y k) ξ η 0
  | 1 => dnat x y (Nv x k) ξ η 1
  | 2 => dnat x y (Nu y k) ξ η 1 + dnat x y (Nv x k) ξ η 0

/-- `BDB_=t*BDB*det(J)` GQ12/__init__.py 83-84 -/
noncomputable def BDB (E mu t : ℝ) (x y : Fin 4 → ℝ) (ξ η : ℝ) : Matrix (Fin 4 × Fin 3) (Fin 4 × Fin 3) ℝ :=
  (t * (J x y ξ η).det) • ((B x y ξ η)ᵀ * membraneD E mu * B x y ξ η)

end GQ12

namespace DKQ

/-- the node after a node, counterclockwise; side `k` joins nodes `k` and `nx k` -/
def nx : Fin 4 → Fin 4 := ![1, 2, 3, 0]
/-- the node before a node; side `pv i` ends at node `i` -/
def pv : Fin 4 → Fin 4 := ![3, 0, 1, 2]

/-- `x=[x12,x23,x34,x41]` metaDKQ/__init__.py 9-19 (and `y`) -/
def side (p : Fin 4 → ℝ) (k : Fin 4) : ℝ := p k - p (nx k)

/-- `l2` metaDKQ/__init__.py 20 -/
def l2 (x y : Fin 4 → ℝ) (k : Fin 4) : ℝ := side x k ^ 2 + side y k ^ 2

/-- `a` metaDKQ/__init__.py 29 -/
noncomputable def a (x y : Fin 4 → ℝ) (k : Fin 4) : ℝ := -side x k / l2 x y k
/-- `b` metaDKQ/__init__.py 30 -/
noncomputable def b (x y : Fin 4 → ℝ) (k : Fin 4) : ℝ := 3 / 4 * side x k * side y k / l2 x y k
/-- `c` metaDKQ/__init__.py 31 -/
noncomputable def c (x y : Fin 4 → ℝ) (k : Fin 4) : ℝ := (1 / 4 * side x k ^ 2 - 1 / 2 * side y k ^ 2) / l2 x y k
/-- `d` metaDKQ/__init__.py 32 -/
noncomputable def d (x y : Fin 4 → ℝ) (k : Fin 4) : ℝ := -side y k / l2 x y k
/-- `e` metaDKQ/__init__.py 33 -/
noncomputable def e (x y : Fin 4 → ℝ) (k : Fin 4) : ℝ := (-1 / 2 * side x k ^ 2 + 1 / 4 * side y k ^ 2) / l2 x y k

/-- `N1`..`N4` metaDKQ/__init__.py 43-46 -/
noncomputable def N (i : Fin 4) (ξ η : ℝ) : ℝ :=
  match i with
  | 0 => -1 / 4 * (1 - ξ) * (1 - η) * (1 + ξ + η)
  | 1 => -1 / 4 * (1 + ξ) * (1 - η) * (1 - ξ + η)
  | 2 => -1 / 4 * (1 + ξ) * (1 + η) * (1 - ξ - η)
  | 3 => -1 / 4 * (1 - ξ) * (1 + η) * (1 + ξ - η)

/-- `N5`..`N8` metaDKQ/__init__.py 51-54, of sides 0..3 -/
noncomputable def M (k : Fin 4) (ξ η : ℝ) : ℝ :=
  match k with
  | 0 => 1 / 2 * (1 - ξ ^ 2) * (1 - η)
  | 1 => 1 / 2 * (1 - η ^ 2) * (1 + ξ)
  | 2 => 1 / 2 * (1 - ξ ^ 2) * (1 + η)
  | 3 => 1 / 2 * (1 - η ^ 2) * (1 - ξ)

/-- `Hx1`..`Hx12` metaDKQ/__init__.py 56-82: the four groups of three have the same form, with the side that starts and the side that
ends at the node. -/
noncomputable def Hx (x y : Fin 4 → ℝ) (k : Fin 4 × Fin 3) (ξ η : ℝ) : ℝ :=
  let i := k.1
  let p := pv i
  match k.2 with
  | 0 => 3 / 2 * (a x y i * M i ξ η - a x y p * M p ξ η)
  | 1 => b x y i * M i ξ η + b x y p * M p ξ η
  | 2 => N i ξ η - c x y i * M i ξ η - c x y p * M p ξ η

/-- `Hy1`..`Hy12` metaDKQ/__init__.py 56-82 -/
noncomputable def Hy (x y : Fin 4 → ℝ) (k : Fin 4 × Fin 3) (ξ η : ℝ) : ℝ :=
  let i := k.1
  let p := pv i
  match k.2 with
  | 0 => 3 / 2 * (d x y i * M i ξ η - d x y p * M p ξ η)
  | 1 => -N i ξ η + e x y i * M i ξ η + e x y p * M p ξ η
  | 2 => -b x y i * M i ξ η - b x y p * M p ξ η

/-- `J11` (`p = x`), `J12` (`p = y`) metaDKQ/__init__.py 97-98 -/
noncomputable def J1 (p : Fin 4 → ℝ) (η : ℝ) : ℝ := 1 / 4 * ((p 1 - p 0) + (p 2 - p 3) + η * ((p 0 - p 1) + (p 2 - p 3)))
/-- `J21` (`p = x`), `J22` (`p = y`) metaDKQ/__init__.py 99-100 -/
noncomputable def J2 (p : Fin 4 → ℝ) (ξ : ℝ) : ℝ := 1 / 4 * ((p 2 - p 1) + (p 3 - p 0) + ξ * ((p 0 - p 1) + (p 2 - p 3)))

/-- `det(J)` of the matrix `J`, metaDKQ/__init__.py 102, 147 -/
noncomputable def det (x y : Fin 4 → ℝ) (ξ η : ℝ) : ℝ := J1 x η * J2 y ξ - J1 y η * J2 x ξ

/-- `detJ` metaDKQ/__init__.py 104 -/
noncomputable def detJ (x y : Fin 4 → ℝ) (ξ η : ℝ) : ℝ :=
  1 / 8 * ((y 3 - y 1) * (x 2 - x 0) - (y 2 - y 0) * (x 3 - x 1)) +
    ξ / 8 * ((y 2 - y 3) * (x 1 - x 0) - (y 1 - y 0) * (x 2 - x 3)) +
    η / 8 * ((y 3 - y 0) * (x 2 - x 1) - (y 2 - y 1) * (x 3 - x 0))

/-- `B` metaDKQ/__init__.py 105-115, with `j11=J11/detJ`, `j12=-J12/detJ`, `j21=-J21/detJ`, `j22=J22/detJ` -/
noncomputable def B (x y : Fin 4 → ℝ) (ξ η : ℝ) : Matrix (Fin 3) (Fin 4 × Fin 3) ℝ := fun r k =>
  let j11 := J1 x η / detJ x y ξ η
  let j12 := -J1 y η / detJ x y ξ η
  let j21 := -J2 x ξ / detJ x y ξ η
  let j22 := J2 y ξ / detJ x y ξ η
  match r with
  | 0 => j11 * dXi (Hx x y k) ξ η + j12 * dEta (Hx x y k) ξ η
  | 1 => j21 * dXi (Hy x y k) ξ η + j22 * dEta (Hy x y k) ξ η
  | 2 => j11 * dXi (Hy x y k) ξ η + j12 * dEta (Hy x y k) ξ η + j21 * dXi (Hx x y k) ξ η + j22 * dEta (Hx x y k) ξ η

/-- `BDB=B.T*D*B*det(J)` metaDKQ/__init__.py 147 -/
noncomputable def BDB (E mu t : ℝ) (x y : Fin 4 → ℝ) (ξ η : ℝ) : Matrix (Fin 4 × Fin 3) (Fin 4 × Fin 3) ℝ :=
  det x y ξ η • ((B x y ξ η)ᵀ * bendingD E mu t * B x y ξ η)

end DKQ

namespace T9

/-- `A` T9/__init__.py 14-18: half the determinant of the rows `[1,x_i,y_i]` -/
noncomputable def A (x y : Fin 3 → ℝ) : ℝ :=
  (!![1, x 0, y 0; 1, x 1, y 1; 1, x 2, y 2] : Matrix (Fin 3) (Fin 3) ℝ).det / 2

/-- `x=[x1,y2,y3]` T9/__init__.py 12: two y coordinates stand among the x coordinates -/
def xs (x y : Fin 3 → ℝ) : Fin 3 → ℝ := ![x 0, y 1, y 2]

/-- `a[i]` T9/__init__.py 25 -/
noncomputable def a (x y : Fin 3 → ℝ) : Fin 3 → ℝ :=
  ![xs x y 1 * y 2 - xs x y 2 * y 1, xs x y 2 * y 0 - xs x y 0 * y 2, xs x y 0 * y 1 - xs x y 1 * y 0]
/-- `b[i]` T9/__init__.py 26 -/
def b (y : Fin 3 → ℝ) : Fin 3 → ℝ := ![y 1 - y 2, y 2 - y 0, y 0 - y 1]

/-- The shape function of node `i`, T9/__init__.py 29-31: `1/2/A*(a[i]+b[i]*xi+b[i]*eta)` (twice `b`; `c` is not used) -/
noncomputable def N (x y : Fin 3 → ℝ) (i : Fin 3) (ξ η : ℝ) : ℝ := 1 / 2 / A x y * (a x y i + b y i * ξ + b y i * η)

/-- `B=operator_dot(L2(xi,eta),N)` T9/__init__.py 40: `L2` differentiates with respect to `xi` and `eta`.  The expressions are linear,
so the point does not matter. -/
noncomputable def B (x y : Fin 3 → ℝ) (ξ η : ℝ) : Matrix (Fin 3) (Fin 3 × Fin 2) ℝ := fun r k =>
  match r, k.2 with
  | 0, 0 => dXi (N x y k.1) ξ η
  | 0, 1 => 0
  | 1, 0 => 0
  | 1, 1 => dEta (N x y k.1) ξ η
  | 2, 0 => dEta (N x y k.1) ξ η
  | 2, 1 => dXi (N x y k.1) ξ η

/-- `BDB` T9/__init__.py 41 -/
noncomputable def BDB (E mu : ℝ) (x y : Fin 3 → ℝ) : Matrix (Fin 3 × Fin 2) (Fin 3 × Fin 2) ℝ :=
  (B x y 0 0)ᵀ * membraneD E mu * B x y 0 0

end T9

namespace DKT

/-- `x=[x23,x31,x12]` metaDKT/__init__.py 7-15 (and `y`): sides 4, 5, 6 -/
def side (p : Fin 3 → ℝ) : Fin 3 → ℝ := ![p 1 - p 2, p 2 - p 0, p 0 - p 1]

/-- `l[ij]**2` with `l=sqrt(x**2+y**2)`, metaDKT/__init__.py 17 -/
noncomputable def l2 (x y : Fin 3 → ℝ) (k : Fin 3) : ℝ := Real.sqrt (side x k ^ 2 + side y k ^ 2) ^ 2

/-- `P` metaDKT/__init__.py 25 -/
noncomputable def P (x y : Fin 3 → ℝ) (k : Fin 3) : ℝ := -6 * side x k / l2 x y k
/-- `tt` metaDKT/__init__.py 26 -/
noncomputable def tt (x y : Fin 3 → ℝ) (k : Fin 3) : ℝ := -6 * side y k / l2 x y k
/-- `q` metaDKT/__init__.py 27 -/
noncomputable def q (x y : Fin 3 → ℝ) (k : Fin 3) : ℝ := 3 * side x k * side y k / l2 x y k
/-- `r` metaDKT/__init__.py 28 -/
noncomputable def r (x y : Fin 3 → ℝ) (k : Fin 3) : ℝ := 3 * side y k ^ 2 / l2 x y k

/-- `Hxxi` metaDKT/__init__.py 35-44; the values of `P`, `q`, `r` are passed -/
noncomputable def Hxxi (P q r : Fin 3 → ℝ) (ξ η : ℝ) (k : Fin 3 × Fin 3) : ℝ :=
  match k with
  | (0, 0) => P 2 * (1 - 2 * ξ) + (P 1 - P 2) * η
  | (0, 1) => q 2 * (1 - 2 * ξ) - (q 1 + q 2) * η
  | (0, 2) => -4 + 6 * (ξ + η) + r 2 * (1 - 2 * ξ) - η * (r 1 + r 2)
  | (1, 0) => -P 2 * (1 - 2 * ξ) + η * (P 0 + P 2)
  | (1, 1) => q 2 * (1 - 2 * ξ) - η * (q 2 - q 0)
  | (1, 2) => -2 + 6 * ξ + r 2 * (1 - 2 * ξ) + η * (r 0 - r 2)
  | (2, 0) => -η * (P 1 + P 0)
  | (2, 1) => η * (q 0 - q 1)
  | (2, 2) => -η * (r 1 - r 0)

/-- `Hyxi` metaDKT/__init__.py 46-56 -/
noncomputable def Hyxi (t q r : Fin 3 → ℝ) (ξ η : ℝ) (k : Fin 3 × Fin 3) : ℝ :=
  match k with
  | (0, 0) => t 2 * (1 - 2 * ξ) + η * (t 1 - t 2)
  | (0, 1) => 1 + r 2 * (1 - 2 * ξ) - η * (r 1 + r 2)
  | (0, 2) => -q 2 * (1 - 2 * ξ) + η * (q 1 + q 2)
  | (1, 0) => -t 2 * (1 - 2 * ξ) + η * (t 0 + t 2)
  | (1, 1) => -1 + r 2 * (1 - 2 * ξ) + η * (r 0 - r 2)
  | (1, 2) => -q 2 * (1 - 2 * ξ) - η * (q 0 - q 2)
  | (2, 0) => -η * (t 0 + t 1)
  | (2, 1) => η * (r 0 - r 1)
  | (2, 2) => -η * (q 0 - q 1)

/-- `Hxeta` metaDKT/__init__.py 58-68 -/
noncomputable def Hxeta (P q r : Fin 3 → ℝ) (ξ η : ℝ) (k : Fin 3 × Fin 3) : ℝ :=
  match k with
  | (0, 0) => -P 1 * (1 - 2 * η) - ξ * (P 2 - P 1)
  | (0, 1) => q 1 * (1 - 2 * η) - ξ * (q 1 + q 2)
  | (0, 2) => -4 + 6 * (ξ + η) + r 1 * (1 - 2 * η) - ξ * (r 1 + r 2)
  | (1, 0) => ξ * (P 0 + P 2)
  | (1, 1) => ξ * (q 0 - q 2)
  | (1, 2) => -ξ * (r 2 - r 0)
  | (2, 0) => P 1 * (1 - 2 * η) - ξ * (P 0 + P 1)
  | (2, 1) => q 1 * (1 - 2 * η) + ξ * (q 0 - q 1)
  | (2, 2) => -2 + 6 * η + r 1 * (1 - 2 * η) + ξ * (r 0 - r 1)

/-- `Hyeta` metaDKT/__init__.py 70-80 -/
noncomputable def Hyeta (t q r : Fin 3 → ℝ) (ξ η : ℝ) (k : Fin 3 × Fin 3) : ℝ :=
  match k with
  | (0, 0) => -t 1 * (1 - 2 * η) - ξ * (t 2 - t 1)
  | (0, 1) => 1 + r 1 * (1 - 2 * η) - ξ * (r 1 + r 2)
  | (0, 2) => -q 1 * (1 - 2 * η) + ξ * (q 1 + q 2)
  | (1, 0) => ξ * (t 0 + t 2)
  | (1, 1) => ξ * (r 0 - r 2)
  | (1, 2) => -ξ * (q 0 - q 2)
  | (2, 0) => t 1 * (1 - 2 * η) - ξ * (t 0 + t 1)
  | (2, 1) => -1 + r 1 * (1 - 2 * η) + ξ * (r 0 - r 1)
  | (2, 2) => -q 1 * (1 - 2 * η) - ξ * (q 0 - q 1)

/-- `B` metaDKT/__init__.py 82-86: sides `y31 = side y 1`, `y12 = side y 2` -/
noncomputable def B (x y : Fin 3 → ℝ) (ξ η : ℝ) : Matrix (Fin 3) (Fin 3 × Fin 3) ℝ := fun row k =>
  let hxx := Hxxi (P x y) (q x y) (r x y) ξ η k
  let hyx := Hyxi (tt x y) (q x y) (r x y) ξ η k
  let hxe := Hxeta (P x y) (q x y) (r x y) ξ η k
  let hye := Hyeta (tt x y) (q x y) (r x y) ξ η k
  let x31 := side x 1
  let x12 := side x 2
  let y31 := side y 1
  let y12 := side y 2
  (match row with
    | 0 => y31 * hxx + y12 * hxe
    | 1 => -x31 * hyx - x12 * hye
    | 2 => -x31 * hxx - x12 * hxe + y31 * hyx + y12 * hye) / (x31 * y12 - x12 * y31)

/-- `BDB` metaDKT/__init__.py 94 -/
noncomputable def BDB (E mu t : ℝ) (x y : Fin 3 → ℝ) (ξ η : ℝ) : Matrix (Fin 3 × Fin 3) (Fin 3 × Fin 3) ℝ :=
  (B x y ξ η)ᵀ * bendingD E mu t * B x y ξ η

end DKT

/-- Where the three components `i*6+2 .. i*6+4` of a node are found in a plate matrix: DKGQ.py 59, DKT.py 44 -/
def plateSlot : Fin 6 → Option (Fin 3) := ![none, none, some 0, some 1, some 2, none]
/-- Where the components `i*6`, `i*6+1`, `i*6+5` are found in a 4-node membrane matrix: DKGQ.py 60-63 -/
def quadSlot : Fin 6 → Option (Fin 3) := ![some 0, some 1, none, none, none, some 2]
/-- Where the components `i*6`, `i*6+1` are found in a 3-node membrane matrix: DKT.py 45 -/
def triaSlot : Fin 6 → Option (Fin 2) := ![some 0, some 1, none, none, none, none]

/-- Copy a matrix of one kind of components into the 6-component matrix, zero elsewhere (DKGQ.py 56-63, DKT.py 41-45). -/
def spread {n m : ℕ} (slot : Fin 6 → Option (Fin m)) (K : Matrix (Fin n × Fin m) (Fin n × Fin m) ℝ) :
    Matrix (Fin n × Fin 6) (Fin n × Fin 6) ℝ := fun p q =>
  match slot p.2, slot q.2 with
  | some c, some d => K (p.1, c) (q.1, d)
  | _, _ => 0

/-- Component number `6*i+c` of the element, as a pair. -/
def split6 (n : ℕ) (p : Fin (n * 6)) : Fin n × Fin 6 :=
  (⟨p.val / 6, (Nat.div_lt_iff_lt_mul (by decide)).mpr p.isLt⟩, ⟨p.val % 6, Nat.mod_lt _ (by decide)⟩)

/-- `transform_matrix` DKGQ.py 66-71, DKT.py 57-62: 3 by 3 blocks on the diagonal, for translations and rotations of each node. -/
noncomputable def shellT (n : ℕ) (c : Csys) : Matrix (Fin n × Fin 6) (Fin n × Fin 6) ℝ := fun p q =>
  if p.1 = q.1 ∧ p.2.val / 3 = q.2.val / 3 then
    c.T ⟨p.2.val % 3, Nat.mod_lt _ (by decide)⟩ ⟨q.2.val % 3, Nat.mod_lt _ (by decide)⟩
  else 0

/-- In-plane coordinates of the nodes, DKGQ.py 16-23: `(X-origin).dot(T.T)[:,:2]`. -/
noncomputable def planeX {n : ℕ} (c : Csys) (p : Fin n → V3) (i : Fin n) : ℝ := c.x.dot (p i - c.O)
/-- the second coordinate -/
noncomputable def planeY {n : ℕ} (c : Csys) (p : Fin n → V3) (i : Fin n) : ℝ := c.y.dot (p i - c.O)

/-- `DKGQ.integrate_K` DKGQ.py 15-64, with the schemes used for the membrane and plate parts -/
noncomputable def dkgqK (m p : Scheme) (s : ShellSection) (x y : Fin 4 → ℝ) : Matrix (Fin 4 × Fin 6) (Fin 4 × Fin 6) ℝ :=
  let E := s.material.E
  let mu := s.material.mu
  let Km := if s.eleType = "membrane" ∨ s.eleType = "shell" then m.integrate (GQ12.BDB E mu s.t x y) else 0
  let Kp := if s.eleType = "plate" ∨ s.eleType = "shell" then p.integrate (DKQ.BDB E mu s.t x y) else 0
  spread quadSlot Km + spread plateSlot Kp

/-- `DKT.integrate_K` DKT.py 17-55, given the value of `self.area` (the section type is not looked at) -/
noncomputable def dktK (p : Scheme) (s : ShellSection) (area : ℝ) (x y : Fin 3 → ℝ) : Matrix (Fin 3 × Fin 6) (Fin 3 × Fin 6) ℝ :=
  let E := s.material.E
  let mu := s.material.mu
  let Kp := (2 * area) • p.integrate (DKT.BDB E mu s.t x y)
  let Km := (2 * s.t * area) • T9.BDB E mu x y
  spread triaSlot Km + spread plateSlot Kp

/-- The quadrature schemes of the elements: `quadpy.c2.get_good_scheme(2)` for both parts of DKGQ, `quadpy.t2.get_good_scheme(12)`. -/
structure Schemes where
  quad : Scheme
  tria : Scheme

/-- `T.T*Ke*T` of a 4-node shell, assembly.py 135-137 -/
noncomputable def quadStiffness (q : Schemes) (s : ShellSection) (c : Csys) (p : Fin 4 → V3) :
    Matrix (Fin 4 × Fin 6) (Fin 4 × Fin 6) ℝ :=
  (shellT 4 c)ᵀ * dkgqK q.quad q.quad s (planeX c p) (planeY c p) * shellT 4 c

/-- `T.T*Ke*T` of a 3-node shell, assembly.py 135-137.  (DKT.py 24 omits the subtraction of the origin; only differences of the
coordinates are used: `T9.a` does not enter `B`.) -/
noncomputable def triaStiffness (q : Schemes) (s : ShellSection) (c : Csys) (p : Fin 3 → V3) :
    Matrix (Fin 3 × Fin 6) (Fin 3 × Fin 6) ℝ :=
  (shellT 3 c)ᵀ * dktK q.tria s (triaArea (p 0) (p 1) (p 2)) (fun i => c.x.dot (p i)) (fun i => c.y.dot (p i)) * shellT 3 c

/-- No divisor in the expressions of a 4-node shell is zero: `1-mu**2`, the determinants at the points of the scheme, the squared
lengths of the sides.  (Otherwise numpy computes inf or NaN.) -/
def quadRegular (q : Scheme) (s : ShellSection) (x y : Fin 4 → ℝ) : Prop :=
  1 - s.material.mu ^ 2 ≠ 0 ∧
  (s.eleType = "membrane" ∨ s.eleType = "shell" → ∀ w ∈ q, (GQ12.J x y w.2.1 w.2.2).det ≠ 0) ∧
  (s.eleType = "plate" ∨ s.eleType = "shell" → (∀ k, DKQ.l2 x y k ≠ 0) ∧ ∀ w ∈ q, DKQ.detJ x y w.2.1 w.2.2 ≠ 0)

/-- No divisor in the expressions of a 3-node shell is zero. -/
def triaRegular (s : ShellSection) (x y : Fin 3 → ℝ) : Prop :=
  1 - s.material.mu ^ 2 ≠ 0 ∧ T9.A x y ≠ 0 ∧ (∀ k, DKT.l2 x y k ≠ 0) ∧
  DKT.side x 1 * DKT.side y 2 - DKT.side x 2 * DKT.side y 1 ≠ 0

/-- The stiffness of a shell is computed without dividing by zero. -/
def ShellElm.regular (q : Schemes) (e : ShellElm) : Prop :=
  match e.csys, e.nodes with
  | some c, [n0, n1, n2] => triaRegular e.section_ (fun i => c.x.dot (![n0.2, n1.2, n2.2] i)) (fun i => c.y.dot (![n0.2, n1.2, n2.2] i))
  | some c, [n0, n1, n2, n3] =>
      quadRegular q.quad e.section_ (planeX c ![n0.2, n1.2, n2.2, n3.2]) (planeY c ![n0.2, n1.2, n2.2, n3.2])
  | _, _ => False

open Classical in
/-- The environment in which the stiffness of shells is the modelled one.  `nan4`, `nan3` stand for what numpy computes when it divides
by zero, in particular when the nodes are collinear and the local system is not defined. -/
noncomputable def shellEnv (q : Schemes) (nan4 : ShellElm → Matrix (Fin 24) (Fin 24) ℝ) (nan3 : ShellElm → Matrix (Fin 18) (Fin 18) ℝ)
    (solve : (n : ℕ) → Matrix (Fin n) (Fin n) ℝ → Vec n → Except PyErr (Vec n)) : Env where
  triaK := fun s => if s.regular q then (match s.csys, s.nodes with
    | some c, [n0, n1, n2] => (triaStiffness q s.section_ c ![n0.2, n1.2, n2.2]).submatrix (split6 3) (split6 3)
    | _, _ => nan3 s) else nan3 s
  quadK := fun s => if s.regular q then (match s.csys, s.nodes with
    | some c, [n0, n1, n2, n3] => (quadStiffness q s.section_ c ![n0.2, n1.2, n2.2, n3.2]).submatrix (split6 4) (split6 4)
    | _, _ => nan4 s) else nan4 s
  spsolve := solve

end Hyperstatic
