import Verif.Model.ShellK

/-
Model of the thick plate element: hyperstatic/core/fe_model/meta/plates/TMQ/__init__.py (the symbolic definition the C code is generated
from; the C text is in `Model/CompiledTMQs` and `Model/CompiledTMQb`, see C172), element/quad/TMQ.py and element/quad/TMGQ.py.

The components of the element are written as pairs `(i, c)` of node and component, `3*i+c` in the code.  Side `k` is the side numbered
`k+1` in the code: it goes from node `k+1` to node `k+2` (counted from 0, modulo 4).  Python floats are real numbers.
-/

namespace Hyperstatic
open Matrix

namespace TMQ

/-- `b1`..`b4` TMQ/__init__.py 17-20 -/
def b (y : Fin 4 → ℝ) : Fin 4 → ℝ := ![y 1 - y 2, y 2 - y 3, y 3 - y 0, y 0 - y 1]
/-- `c1`..`c4` TMQ/__init__.py 21-24 -/
def c (x : Fin 4 → ℝ) : Fin 4 → ℝ := ![x 2 - x 1, x 3 - x 2, x 0 - x 3, x 1 - x 0]

/-- `d1`..`d4` TMQ/__init__.py 26-29 -/
noncomputable def d (x y : Fin 4 → ℝ) : Fin 4 → ℝ :=
  ![Real.sqrt ((x 1 - x 2) ^ 2 + (y 1 - y 2) ^ 2), Real.sqrt ((x 2 - x 3) ^ 2 + (y 2 - y 3) ^ 2),
    Real.sqrt ((x 3 - x 0) ^ 2 + (y 3 - y 0) ^ 2), Real.sqrt ((x 0 - x 1) ^ 2 + (y 0 - y 1) ^ 2)]

/-- `delta1`..`delta4` TMQ/__init__.py 31-34: the four lines have the same form -/
noncomputable def delta (mu t : ℝ) (x y : Fin 4 → ℝ) (k : Fin 4) : ℝ :=
  (t / d x y k) ^ 2 / (5 / 6 * (1 - mu) + 2 * (t / d x y k) ^ 2)

/-- `Gamma` TMQ/__init__.py 37-61, one line for each pair of a side and a node of it -/
noncomputable def Gamma (mu t : ℝ) (x y : Fin 4 → ℝ) : Matrix (Fin 4) (Fin 4 × Fin 3) ℝ := fun k j =>
  let δ := delta mu t x y
  let b := b y
  let c := c x
  match k, j.1 with
  | 2, 0 => ![2 * δ 2, -c 2 * δ 2, b 2 * δ 2] j.2
  | 3, 0 => ![-2 * δ 3, -c 3 * δ 3, b 3 * δ 3] j.2
  | 0, 1 => ![-2 * δ 0, -c 0 * δ 0, b 0 * δ 0] j.2
  | 3, 1 => ![2 * δ 3, -c 3 * δ 3, b 3 * δ 3] j.2
  | 0, 2 => ![2 * δ 0, -c 0 * δ 0, b 0 * δ 0] j.2
  | 1, 2 => ![-2 * δ 1, -c 1 * δ 1, b 1 * δ 1] j.2
  | 1, 3 => ![2 * δ 1, -c 1 * δ 1, b 1 * δ 1] j.2
  | 2, 3 => ![-2 * δ 2, -c 2 * δ 2, b 2 * δ 2] j.2
  | _, _ => 0

/-- `Xs` TMQ/__init__.py 63, 66-73: rows are nodes, columns are sides -/
noncomputable def Xs (x y : Fin 4 → ℝ) : Matrix (Fin 4) (Fin 4) ℝ :=
  let b := b y
  let c := c x
  !![0, 0, -b 3 / (b 2 * c 3 - b 3 * c 2), b 2 / (b 2 * c 3 - b 3 * c 2);
     b 3 / (b 3 * c 0 - b 0 * c 3), 0, 0, -b 0 / (b 3 * c 0 - b 0 * c 3);
     -b 1 / (b 0 * c 1 - b 1 * c 0), b 0 / (b 0 * c 1 - b 1 * c 0), 0, 0;
     0, -b 2 / (b 1 * c 2 - b 2 * c 1), b 1 / (b 1 * c 2 - b 2 * c 1), 0]

/-- `Ys` TMQ/__init__.py 64, 75-82 -/
noncomputable def Ys (x y : Fin 4 → ℝ) : Matrix (Fin 4) (Fin 4) ℝ :=
  let b := b y
  let c := c x
  !![0, 0, -c 3 / (b 2 * c 3 - b 3 * c 2), c 2 / (b 2 * c 3 - b 3 * c 2);
     c 3 / (b 3 * c 0 - b 0 * c 3), 0, 0, -c 0 / (b 3 * c 0 - b 0 * c 3);
     -c 1 / (b 0 * c 1 - b 1 * c 0), c 0 / (b 0 * c 1 - b 1 * c 0), 0, 0;
     0, -c 2 / (b 1 * c 2 - b 2 * c 1), c 1 / (b 1 * c 2 - b 2 * c 1), 0]

/-- `N1`..`N4` and `N0` TMQ/__init__.py 100-109 -/
noncomputable def N0 (i : Fin 4) (ξ η : ℝ) : ℝ :=
  match i with
  | 0 => 0.25 * (1 - ξ) * (1 - η)
  | 1 => 0.25 * (1 + ξ) * (1 - η)
  | 2 => 0.25 * (1 + ξ) * (1 + η)
  | 3 => 0.25 * (1 - ξ) * (1 + η)

/-- `J=J2D(N0,X)` TMQ/__init__.py 111-112, jacobi.py 14-29 -/
noncomputable def J (x y : Fin 4 → ℝ) (ξ η : ℝ) : Matrix (Fin 2) (Fin 2) ℝ :=
  !![∑ i, dXi (N0 i) ξ η * x i, ∑ i, dXi (N0 i) ξ η * y i;
     ∑ i, dEta (N0 i) ξ η * x i, ∑ i, dEta (N0 i) ξ η * y i]

/-- `C=G*t/k*eye(2)` TMQ/__init__.py 114-116, with `G=E/2/(1+mu)` and `k=6/5` -/
noncomputable def C (E mu t : ℝ) : Matrix (Fin 2) (Fin 2) ℝ := (E / 2 / (1 + mu) * t / (6 / 5)) • (1 : Matrix (Fin 2) (Fin 2) ℝ)

/-- `Bs` TMQ/__init__.py 118-120 -/
noncomputable def Bs (mu t : ℝ) (x y : Fin 4 → ℝ) (ξ η : ℝ) : Matrix (Fin 2) (Fin 4 × Fin 3) ℝ := fun r =>
  match r with
  | 0 => (fun i => N0 i ξ η) ᵥ* (Xs x y * Gamma mu t x y)
  | 1 => (fun i => N0 i ξ η) ᵥ* (Ys x y * Gamma mu t x y)

/-- `BCBs=Bs.T*C*Bs*det(J)` TMQ/__init__.py 121 -/
noncomputable def BCBs (E mu t : ℝ) (x y : Fin 4 → ℝ) (ξ η : ℝ) : Matrix (Fin 4 × Fin 3) (Fin 4 × Fin 3) ℝ :=
  (J x y ξ η).det • ((Bs mu t x y ξ η)ᵀ * C E mu t * Bs mu t x y ξ η)

/-- `alpha` TMQ/__init__.py 14, 124-150, one line for each pair of a side and a node of it -/
noncomputable def alpha (mu t : ℝ) (x y : Fin 4 → ℝ) : Matrix (Fin 4) (Fin 4 × Fin 3) ℝ := fun k j =>
  let δ := delta mu t x y
  let b := b y
  let c := c x
  let d := d x y
  let u := fun k => 3 * c k / 2 / d k ^ 2 * (1 - 2 * δ k)
  let v := fun k => (b k ^ 2 - c k ^ 2 / 2 * (1 - 6 * δ k)) / 2 / d k ^ 2
  let w := fun k => 3 * b k * c k / 4 / d k ^ 2 * (1 - 2 * δ k)
  match k, j.1 with
  | 2, 0 => ![u 2, v 2, w 2] j.2
  | 3, 0 => ![-u 3, v 3, w 3] j.2
  | 3, 1 => ![u 3, v 3, w 3] j.2
  | 0, 1 => ![-u 0, v 0, w 0] j.2
  | 0, 2 => ![u 0, v 0, w 0] j.2
  | 1, 2 => ![-u 1, v 1, w 1] j.2
  | 1, 3 => ![u 1, v 1, w 1] j.2
  | 2, 3 => ![-u 2, v 2, w 2] j.2
  | _, _ => 0

/-- `beta` TMQ/__init__.py 15, 152-178 -/
noncomputable def beta (mu t : ℝ) (x y : Fin 4 → ℝ) : Matrix (Fin 4) (Fin 4 × Fin 3) ℝ := fun k j =>
  let δ := delta mu t x y
  let b := b y
  let c := c x
  let d := d x y
  let u := fun k => 3 * b k / 2 / d k ^ 2 * (1 - 2 * δ k)
  let v := fun k => 3 * b k * c k / 4 / d k ^ 2 * (1 - 2 * δ k)
  let w := fun k => (c k ^ 2 - b k ^ 2 / 2 * (1 - 6 * δ k)) / 2 / d k ^ 2
  match k, j.1 with
  | 2, 0 => ![-u 2, v 2, w 2] j.2
  | 3, 0 => ![u 3, v 3, w 3] j.2
  | 3, 1 => ![-u 3, v 3, w 3] j.2
  | 0, 1 => ![u 0, v 0, w 0] j.2
  | 0, 2 => ![-u 0, v 0, w 0] j.2
  | 1, 2 => ![u 1, v 1, w 1] j.2
  | 1, 3 => ![-u 1, v 1, w 1] j.2
  | 2, 3 => ![u 2, v 2, w 2] j.2
  | _, _ => 0

/-- `N1`..`N4` TMQ/__init__.py 180-183 -/
noncomputable def N (i : Fin 4) (ξ η : ℝ) : ℝ :=
  match i with
  | 0 => -0.25 * (1 - ξ) * (1 - η) * (1 + ξ + η)
  | 1 => -0.25 * (1 + ξ) * (1 - η) * (1 - ξ + η)
  | 2 => -0.25 * (1 + ξ) * (1 + η) * (1 - ξ - η)
  | 3 => -0.25 * (1 - ξ) * (1 + η) * (1 + ξ - η)

/-- `N5`..`N8` TMQ/__init__.py 184-187, of sides 0..3 -/
noncomputable def M (k : Fin 4) (ξ η : ℝ) : ℝ :=
  match k with
  | 0 => 0.5 * (1 - η ^ 2) * (1 + ξ)
  | 1 => 0.5 * (1 - ξ ^ 2) * (1 + η)
  | 2 => 0.5 * (1 - η ^ 2) * (1 - ξ)
  | 3 => 0.5 * (1 - ξ ^ 2) * (1 - η)

/-- `dnat(f)` TMQ/__init__.py 210-211: `inv(J)*[f_xi, f_eta]`; `ddx`, `ddy` are its components.  (Where `det J = 0` the code divides by
zero.) -/
noncomputable def dnat (x y : Fin 4 → ℝ) (f : ℝ → ℝ → ℝ) (ξ η : ℝ) : Vec 2 := (J x y ξ η)⁻¹ *ᵥ ![dXi f ξ η, dEta f ξ η]

/-- `H0=operator_dot(L0iso(xi,eta),N)` TMQ/__init__.py 205-217, 245-250, operator.py 26-37 -/
noncomputable def H0 (x y : Fin 4 → ℝ) (ξ η : ℝ) : Matrix (Fin 3) (Fin 4 × Fin 3) ℝ := fun r j =>
  match r, j.2 with
  | 0, 1 => dnat x y (N j.1) ξ η 0
  | 1, 2 => dnat x y (N j.1) ξ η 1
  | 2, 1 => dnat x y (N j.1) ξ η 1
  | 2, 2 => dnat x y (N j.1) ξ η 0
  | _, _ => 0

/-- `H1=operator_dot(L1iso(xi,eta),N)` TMQ/__init__.py 219-230, 252-257 -/
noncomputable def H1 (x y : Fin 4 → ℝ) (ξ η : ℝ) : Matrix (Fin 3) (Fin 4) ℝ := fun r k =>
  match r with
  | 0 => dnat x y (M k) ξ η 0
  | 1 => 0
  | 2 => dnat x y (M k) ξ η 1

/-- `H2=operator_dot(L2iso(xi,eta),N)` TMQ/__init__.py 232-243, 252-258 -/
noncomputable def H2 (x y : Fin 4 → ℝ) (ξ η : ℝ) : Matrix (Fin 3) (Fin 4) ℝ := fun r k =>
  match r with
  | 0 => 0
  | 1 => dnat x y (M k) ξ η 1
  | 2 => dnat x y (M k) ξ η 0

/-- `Bb` TMQ/__init__.py 266 -/
noncomputable def Bb (mu t : ℝ) (x y : Fin 4 → ℝ) (ξ η : ℝ) : Matrix (Fin 3) (Fin 4 × Fin 3) ℝ :=
  -(H0 x y ξ η + H1 x y ξ η * alpha mu t x y + H2 x y ξ η * beta mu t x y)

/-- `BDBb=Bb.T*D*Bb*det(J)` TMQ/__init__.py 260-268; `D` is the `bendingD` of the thin plates -/
noncomputable def BDBb (E mu t : ℝ) (x y : Fin 4 → ℝ) (ξ η : ℝ) : Matrix (Fin 4 × Fin 3) (Fin 4 × Fin 3) ℝ :=
  (J x y ξ η).det • ((Bb mu t x y ξ η)ᵀ * bendingD E mu t * Bb mu t x y ξ η)

end TMQ

/-- `TMQ.integrate_K` element/quad/TMQ.py 15-54 (which omits the subtraction of the origin: only differences of the coordinates are
used); the same sum is `Kp` of TMGQ.py 43-65.  The scheme is the same for both parts. -/
noncomputable def tmqK (q : Scheme) (s : ShellSection) (x y : Fin 4 → ℝ) : Matrix (Fin 4 × Fin 3) (Fin 4 × Fin 3) ℝ :=
  q.integrate (TMQ.BCBs s.material.E s.material.mu s.t x y) + q.integrate (TMQ.BDBb s.material.E s.material.mu s.t x y)

/-- `TMGQ.integrate_K` TMGQ.py 15-75: the membrane of the thin shell and the thick plate; the three components of the plate go to the
deflection and the two in-plane rotations, in this order. -/
noncomputable def tmgqK (q : Scheme) (s : ShellSection) (x y : Fin 4 → ℝ) : Matrix (Fin 4 × Fin 6) (Fin 4 × Fin 6) ℝ :=
  let Km := if s.eleType = "membrane" ∨ s.eleType = "shell" then q.integrate (GQ12.BDB s.material.E s.material.mu s.t x y) else 0
  let Kp := if s.eleType = "plate" ∨ s.eleType = "shell" then tmqK q s x y else 0
  spread quadSlot Km + spread plateSlot Kp

/-- The stiffness of a TMGQ element in the global system, `T.T*Ke*T` with `transform_matrix` TMGQ.py 77-82 (assembly.py 135-137 for
elements of the model; the API itself never creates this element). -/
noncomputable def tmgqStiffness (q : Scheme) (s : ShellSection) (cs : Csys) (p : Fin 4 → V3) :
    Matrix (Fin 4 × Fin 6) (Fin 4 × Fin 6) ℝ :=
  (shellT 4 cs)ᵀ * tmgqK q s (planeX cs p) (planeY cs p) * shellT 4 cs

end Hyperstatic
