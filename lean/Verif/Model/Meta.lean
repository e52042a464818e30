import Verif.Model.Interp
import Verif.Model.Beam
import Mathlib.MeasureTheory.Integral.IntervalIntegral.Basic
import Mathlib.Analysis.Calculus.Deriv.Basic

/-
Model of hyperstatic/core/fe_model/meta/beams/beam_eular/__init__.py (the functions `K` and `M`) and of the elasticity tensor of
hyperstatic/core/fe_model/meta/isotropy.py.  sympy's derivatives and integrals of polynomials are modelled by derivatives and integrals;
that the generated C functions compute the symbolic expressions is assumed.
-/

namespace Hyperstatic

/-- axial and torsional shape functions: beam_eular 9-10 and 61-62 -/
noncomputable def eulerN1 : Fin 2 → ℝ → ℝ := ![fun xi => 1 / 2 * (1 - xi), fun xi => 1 / 2 * (1 + xi)]

/-- bending shape functions about axis 2: beam_eular 27-30 (the same expressions as in Hermite.py) -/
noncomputable def eulerN2 (l : ℝ) : Fin 4 → ℝ → ℝ := ![H01, H02 l, H11, H12 l]

/-- bending shape functions about axis 3: beam_eular 46 -/
noncomputable def eulerN3 (l : ℝ) : Fin 4 → ℝ → ℝ := ![fun x => -H01 x, H02 l, fun x => -H11 x, H12 l]

/-- `bfuncK1(E,A,l)`: beam_eular 13-15, 20; `bfuncK3(G,J,l)`: 65-67, 71 -/
noncomputable def eulerK1 (E A l : ℝ) (i j : Fin 2) : ℝ :=
  2 * E * A / l * ∫ x in (-1 : ℝ)..1, deriv (eulerN1 i) x * deriv (eulerN1 j) x

/-- `bfuncM1(rho,A,l)`: beam_eular 16-18, 21; `bfuncM3(rho,J,l)`: 68-70, 72 -/
noncomputable def eulerM1 (rho A l : ℝ) (i j : Fin 2) : ℝ :=
  2 * rho * A / l * ∫ x in (-1 : ℝ)..1, eulerN1 i x * eulerN1 j x

/-- `bfuncK22(E,I,l)` and `bfuncK23(E,I,l)`: beam_eular 32-36, 42 and 47-51, 55 -/
noncomputable def eulerKb (N : Fin 4 → ℝ → ℝ) (E I l : ℝ) (i j : Fin 4) : ℝ :=
  E * I / l ^ 3 * ∫ x in (0 : ℝ)..1, deriv (deriv (N i)) x * deriv (deriv (N j)) x

/-- `bfuncM22(rho,I,l)` and `bfuncM23(rho,I,l)`: beam_eular 37-40, 43 and 52-54, 56 -/
noncomputable def eulerMb (N : Fin 4 → ℝ → ℝ) (rho I l : ℝ) (i j : Fin 4) : ℝ :=
  rho * I / l ^ 3 * ∫ x in (0 : ℝ)..1, N i x * N j x

/-- the double loops that append the entries of a block: beam_eular 82-101 and 112-131 -/
def blockEntries {n : ℕ} (B : Fin n → Fin n → ℝ) (pos : Fin n → Fin 12) : List (ℝ × Fin 12 × Fin 12) :=
  (List.finRange n).flatMap fun i => (List.finRange n).map fun j => (B i j, pos i, pos j)

/-- positions `i*6`, `i//2*6+i%2*4+1`, `i//2*6+i%2*2+2` and `i*6+3`: beam_eular 85-101 -/
def eulerEntries (B1 : Fin 2 → Fin 2 → ℝ) (B22 B23 : Fin 4 → Fin 4 → ℝ) (B3 : Fin 2 → Fin 2 → ℝ) : List (ℝ × Fin 12 × Fin 12) :=
  blockEntries B1 ![0, 6] ++ blockEntries B22 ![1, 5, 7, 11] ++ blockEntries B23 ![2, 4, 8, 10] ++ blockEntries B3 ![3, 9]

/-- `K(E,G,A,I2,I3,J,l)`: beam_eular 74-102 -/
noncomputable def eulerK (E G A I2 I3 J l : ℝ) : Matrix (Fin 12) (Fin 12) ℝ :=
  ofTriplets (eulerEntries (eulerK1 E A l) (eulerKb (eulerN2 l) E I2 l) (eulerKb (eulerN3 l) E I3 l) (eulerK1 G J l))

/-- `M(rho,A,I2,I3,J,l)`: beam_eular 104-132 -/
noncomputable def eulerM (rho A I2 I3 J l : ℝ) : Matrix (Fin 12) (Fin 12) ℝ :=
  ofTriplets (eulerEntries (eulerM1 rho A l) (eulerMb (eulerN2 l) rho I2 l) (eulerMb (eulerN3 l) rho I3 l) (eulerM1 rho J l))

/-- `D[i,j,k,l]`: meta/isotropy.py 8-21 with `G=E/2/(1+nu)` and `lamda=E*nu/(1+nu)/(1-2*nu)`.  The expressions are symbolic, so
no division is evaluated; the model evaluates them where the denominators do not vanish. -/
noncomputable def elasticity (E nu : ℝ) (i j k l : Fin 3) : ℝ :=
  2 * (E / 2 / (1 + nu)) * (if i = k then 1 else 0) * (if j = l then 1 else 0) +
    E * nu / (1 + nu) / (1 - 2 * nu) * (if i = j then 1 else 0) * (if k = l then 1 else 0)

/-- `eps`: meta/isotropy.py 24-27 -/
noncomputable def strainTensor (exx eyy ezz gxy gyz gzx : ℝ) : Fin 3 → Fin 3 → ℝ :=
  ![![exx, gxy / 2, gzx / 2], ![gxy / 2, eyy, gyz / 2], ![gzx / 2, gyz / 2, ezz]]

/-- `sig = np.tensordot(D, eps)`: meta/isotropy.py 30 (the last two indices are contracted) -/
noncomputable def stressTensor (E nu : ℝ) (eps : Fin 3 → Fin 3 → ℝ) (i j : Fin 3) : ℝ :=
  ∑ k, ∑ l, elasticity E nu i j k l * eps k l

end Hyperstatic
