import Verif.Spec.Frame

/-
Histories that differ only in their numbers, and only a little (C157).
-/

namespace Hyperstatic.Spec

/-- The same call with the same names, flags and counts, and every number changed by at most `δ`. -/
def Nearby (δ : ℝ) (c c' : Call) : Prop :=
  match c with
  | .addNode n x y z => ∃ x' y' z', c' = .addNode n x' y' z' ∧ |x' - x| ≤ δ ∧ |y' - y| ≤ δ ∧ |z' - z| ≤ δ
  | .setNodalMass n m => ∃ m', c' = .setNodalMass n m' ∧ ∀ r, |m' r - m r| ≤ δ
  | .addIsotropicMaterial n rho E mu a => ∃ rho' E' mu' a', c' = .addIsotropicMaterial n rho' E' mu' a' ∧
      |rho' - rho| ≤ δ ∧ |E' - E| ≤ δ ∧ |mu' - mu| ≤ δ ∧ |a' - a| ≤ δ
  | .addBeamSectionGeneral n m A As2 As3 I22 I33 J W22 W33 => ∃ A' As2' As3' I22' I33' J' W22' W33',
      c' = .addBeamSectionGeneral n m A' As2' As3' I22' I33' J' W22' W33' ∧ |A' - A| ≤ δ ∧ |As2' - As2| ≤ δ ∧ |As3' - As3| ≤ δ ∧
      |I22' - I22| ≤ δ ∧ |I33' - I33| ≤ δ ∧ |J' - J| ≤ δ ∧ |W22' - W22| ≤ δ ∧ |W33' - W33| ≤ δ
  | .addBeamSectionRectangle n m h b => ∃ h' b', c' = .addBeamSectionRectangle n m h' b' ∧ |h' - h| ≤ δ ∧ |b' - b| ≤ δ
  | .addBeamSectionI n m h b tw tf => ∃ h' b' tw' tf', c' = .addBeamSectionI n m h' b' tw' tf' ∧
      |h' - h| ≤ δ ∧ |b' - b| ≤ δ ∧ |tw' - tw| ≤ δ ∧ |tf' - tf| ≤ δ
  | .addBeamSectionBox n m h b tw tf => ∃ h' b' tw' tf', c' = .addBeamSectionBox n m h' b' tw' tf' ∧
      |h' - h| ≤ δ ∧ |b' - b| ≤ δ ∧ |tw' - tw| ≤ δ ∧ |tf' - tf| ≤ δ
  | .addBeamSectionCircle n m d => ∃ d', c' = .addBeamSectionCircle n m d' ∧ |d' - d| ≤ δ
  | .addBeamSectionPipe n m d t => ∃ d' t', c' = .addBeamSectionPipe n m d' t' ∧ |d' - d| ≤ δ ∧ |t' - t| ≤ δ
  | .addShellSection n m t e => ∃ t', c' = .addShellSection n m t' e ∧ |t' - t| ≤ δ
  | .addSimpleBeam b i j E mu A I2 I3 J rho => ∃ E' mu' A' I2' I3' J' rho', c' = .addSimpleBeam b i j E' mu' A' I2' I3' J' rho' ∧
      |E' - E| ≤ δ ∧ |mu' - mu| ≤ δ ∧ |A' - A| ≤ δ ∧ |I2' - I2| ≤ δ ∧ |I3' - I3| ≤ δ ∧ |J' - J| ≤ δ ∧ |rho' - rho| ≤ δ
  | .setNodalLoad p n F => ∃ F', c' = .setNodalLoad p n F' ∧ ∀ r, |F' r - F r| ≤ δ
  | .setBeamLoadDistributed p b pi pj qi2 qj2 qi3 qj3 ti tj => ∃ pi' pj' qi2' qj2' qi3' qj3' ti' tj',
      c' = .setBeamLoadDistributed p b pi' pj' qi2' qj2' qi3' qj3' ti' tj' ∧ |pi' - pi| ≤ δ ∧ |pj' - pj| ≤ δ ∧ |qi2' - qi2| ≤ δ ∧
      |qj2' - qj2| ≤ δ ∧ |qi3' - qi3| ≤ δ ∧ |qj3' - qj3| ≤ δ ∧ |ti' - ti| ≤ δ ∧ |tj' - tj| ≤ δ
  | .setBeamLoadConcentrated p b F1 F2 F3 M1 M2 M3 r => ∃ F1' F2' F3' M1' M2' M3' r',
      c' = .setBeamLoadConcentrated p b F1' F2' F3' M1' M2' M3' r' ∧ |F1' - F1| ≤ δ ∧ |F2' - F2| ≤ δ ∧ |F3' - F3| ≤ δ ∧
      |M1' - M1| ≤ δ ∧ |M2' - M2| ≤ δ ∧ |M3' - M3| ≤ δ ∧ |r' - r| ≤ δ
  | .addCasePattern k p f => ∃ f', c' = .addCasePattern k p f' ∧ |f' - f| ≤ δ
  | c => c' = c

/-- a call that defines a beam or a beam section -/
def definesBeam : Call → Bool
  | .addBeam .. | .addSimpleBeam .. | .addBeamSectionGeneral .. | .addBeamSectionRectangle .. | .addBeamSectionI .. | .addBeamSectionBox ..
  | .addBeamSectionCircle .. | .addBeamSectionPipe .. => true
  | _ => false

/-- Every call of the history that defines a beam or a beam section returns True. -/
def Accepted (env : Env) (pre : List Call) : Prop :=
  AllCalls env (fun w c => definesBeam c = true → (w.step env c).2 = true) World.init pre

end Hyperstatic.Spec
