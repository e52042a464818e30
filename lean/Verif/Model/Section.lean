import Verif.Model.Py
import Mathlib.Analysis.SpecialFunctions.Trigonometric.Basic

/-
Model of hyperstatic/core/fe_model/material/isotropy.py and
hyperstatic/core/fe_model/section/{beam_section,shell_section}.py.
-/

namespace Hyperstatic

/-- `IsotropicMaterial` isotropy.py 5-10 (base class material/__init__.py 1-5). -/
structure Material where
  name : String
  rho : ℝ
  E : ℝ
  mu : ℝ
  a : ℝ

/-- Python float division `a / b`: raises `ZeroDivisionError` for `b = 0`. -/
noncomputable def pyDiv (a b : ℝ) : Except PyErr ℝ :=
  if b = 0 then .error .zeroDivision else .ok (a / b)

/-- The shear modulus `E/2/(1+mu)` as evaluated by `IsotropicMaterial.G` (isotropy.py 33-36) and by
`SimpleBeam.integrate_K` (simple_beam.py 65); Python float division. -/
noncomputable def shearModulus (E mu : ℝ) : Except PyErr ℝ := pyDiv (E / 2) (1 + mu)

/-- `IsotropicMaterial.G` isotropy.py 32-36. -/
noncomputable def Material.G (m : Material) : Except PyErr ℝ := shearModulus m.E m.mu

/-- `IsotropicMaterial.lamda` isotropy.py 38-42: `E/(1+mu)/(1-2*mu)`. -/
noncomputable def Material.lamda (m : Material) : Except PyErr ℝ := do
  let q ← pyDiv m.E (1 + m.mu)
  pyDiv q (1 - 2 * m.mu)

/-- `BeamSection` beam_section.py 4-19.  The constructor overwrites `shape` with `'general'`; shape and
sizes are only kept for display and are not modelled. -/
structure BeamSection where
  name : String
  material : Material
  A : ℝ
  As2 : ℝ
  As3 : ℝ
  J : ℝ
  I22 : ℝ
  I33 : ℝ
  W22 : ℝ
  W33 : ℝ

/-- The literal `3.14159` of beam_section.py. -/
noncomputable def pi5 : ℝ := 314159 / 100000
/-- The literal `3.141592` of beam_section.py. -/
noncomputable def pi6 : ℝ := 3141592 / 1000000

/-- `range(1, 2*k, 2)`: the first `k` odd numbers. -/
def odds (k : ℕ) : List ℕ := (List.range k).map (fun i => 2 * i + 1)

/-- `sum([np.tanh(m*3.141592*s/2/d)/m**5 for m in range(1,2k,2)])` beam_section.py 143, 146, 177. -/
noncomputable def tanhSum (k : ℕ) (s d : ℝ) : ℝ :=
  ((odds k).map (fun m : ℕ => Real.tanh ((m : ℝ) * pi6 * s / 2 / d) / (m : ℝ) ^ 5)).sum

/-- `BoxSection.__init__` beam_section.py 105-120. -/
noncomputable def boxSection (name : String) (mat : Material) (h b tw tf : ℝ) :
    Except PyErr BeamSection := do
  let A := h * b - (h - 2 * tf) * (b - 2 * tw)
  let As2 := 2 * tw * h
  let As3 := 2 * tf * b
  let a1 ← pyDiv (b - tw) tf
  let a2 ← pyDiv (h - tf) tw
  let a := 2 * (a1 + a2)
  let Om := 2 * (h - tf) * (b - tw)
  let c ← pyDiv Om a
  let J := c * Om
  let I22 := h * b ^ 3 / 12 - (h - 2 * tf) * (b - 2 * tw) ^ 3 / 12
  let I33 := b * h ^ 3 / 12 - (b - 2 * tw) * (h - 2 * tf) ^ 3 / 12
  let W22 ← pyDiv I22 (b / 2)
  let W33 ← pyDiv I33 (h / 2)
  return ⟨name, mat, A, As2, As3, J, I22, I33, W22, W33⟩

/-- `PipeSection.__init__` beam_section.py 122-134. -/
noncomputable def pipeSection (name : String) (mat : Material) (d t : ℝ) :
    Except PyErr BeamSection := do
  let A := pi5 / 4 * (d ^ 2 - (d - 2 * t) ^ 2)
  let As := pi5 * t * (d - t) / 2
  let J := pi5 / 32 * (d ^ 4 - (d - 2 * t) ^ 4)
  let I := pi5 / 64 * (d ^ 4 - (d - 2 * t) ^ 4)
  let W22 ← pyDiv I (d / 2)
  let W33 ← pyDiv I (d / 2)
  return ⟨name, mat, A, As, As, J, I, I, W22, W33⟩

/-- `ISection.__init__` beam_section.py 136-155 (`range(1,30,2)` has 15 terms). -/
noncomputable def iSection (name : String) (mat : Material) (h b tw tf : ℝ) :
    Except PyErr BeamSection := do
  let A := b * h - (b - tw) * (h - 2 * tf)
  let As2 := tw * h
  let As3 := 5 / 3 * tf * b
  -- m*3.141592*tf/2/b
  let _ ← pyDiv (pi6 * tf / 2) b
  let s := tanhSum 15 tf b
  let q ← pyDiv (64 * b) (pi6 ^ 5 * tf)
  let beta := 1 / 3 - q * s
  let J := tf * b ^ 3 * beta * 2
  let _ ← pyDiv (pi6 * tw / 2) (h - 2 * tf)
  let s := tanhSum 15 tw (h - 2 * tf)
  let q ← pyDiv (64 * (h - 2 * tf)) (pi6 ^ 5 * tw)
  let beta := 1 / 3 - q * s
  let J := J + tw * (h - 2 * tf) ^ 3 * beta
  let I22 := 1 / 12 * tf * b ^ 3 * 2 + 1 / 12 * h * tw ^ 3
  let I33 := (b * h ^ 3 - (b - tw) * (h - 2 * tf) ^ 3) / 12
  let W22 ← pyDiv I22 (b / 2)
  let W33 ← pyDiv I33 (h / 2)
  return ⟨name, mat, A, As2, As3, J, I22, I33, W22, W33⟩

/-- `CircleSection.__init__` beam_section.py 157-169. -/
noncomputable def circleSection (name : String) (mat : Material) (d : ℝ) :
    Except PyErr BeamSection := do
  let A := pi5 / 4 * d ^ 2
  let As := pi5 * d ^ 2 / 4 * (9 / 10)
  let J := pi5 / 32 * d ^ 4
  let I := pi5 / 64 * d ^ 4
  let W22 ← pyDiv I (d / 2)
  let W33 ← pyDiv I (d / 2)
  return ⟨name, mat, A, As, As, J, I, I, W22, W33⟩

/-- `RectangleSection.__init__` beam_section.py 171-186 (`range(1,60,2)` has 30 terms). -/
noncomputable def rectangleSection (name : String) (mat : Material) (h b : ℝ) :
    Except PyErr BeamSection := do
  let A := b * h
  let As := 5 / 6 * h * b
  let _ ← pyDiv (pi6 * h / 2) b
  let s := tanhSum 30 h b
  let q ← pyDiv (64 * b) (pi6 ^ 5 * h)
  let beta := 1 / 3 - q * s
  let J := h * b ^ 3 * beta
  let I22 := h * b ^ 3 / 12
  let I33 := b * h ^ 3 / 12
  let W22 ← pyDiv I22 (b / 2)
  let W33 ← pyDiv I33 (h / 2)
  return ⟨name, mat, A, As, As, J, I22, I33, W22, W33⟩

/-- `BeamSection(name,mat,'general',[],A,As2,As3,J,I22,I33,W22,W33)` as called by
`Model.add_beam_section_general` model.py 108-111. -/
def generalSection (name : String) (mat : Material) (A As2 As3 I22 I33 J W22 W33 : ℝ) :
    BeamSection := ⟨name, mat, A, As2, As3, J, I22, I33, W22, W33⟩

/-- `ShellSection` shell_section.py 5-10. -/
structure ShellSection where
  name : String
  material : Material
  t : ℝ
  eleType : String

end Hyperstatic
