import Verif.Spec.Frame

/-
Changes of a frame that should not change its answer, or change it in a known way: a common factor on Young's modulus, a rotation of the
whole model about the vertical axis, the subdivision of a beam, the exchange of the ends of a beam.
-/

namespace Hyperstatic.Spec
open Matrix

/-- The same call with Young's modulus multiplied by `k`. -/
noncomputable def stiffCall (k : ℝ) : Call → Call
  | .addIsotropicMaterial n rho E mu a => .addIsotropicMaterial n rho (k * E) mu a
  | .addSimpleBeam b i j E mu A I2 I3 J rho => .addSimpleBeam b i j (k * E) mu A I2 I3 J rho
  | c => c

/-- rotation of a vector about the vertical axis -/
noncomputable def turn (α : ℝ) (a : V3) : V3 :=
  ⟨Real.cos α * a.x - Real.sin α * a.y, Real.sin α * a.x + Real.cos α * a.y, a.z⟩

/-- six components of a node from a translation and a rotation vector -/
def six (t r : V3) : Vec 6 := ![t.x, t.y, t.z, r.x, r.y, r.z]

/-- rotation of a displacement state about the vertical axis -/
noncomputable def turnState (α : ℝ) (u : State) : State := fun n => six (turn α (trans (u n))) (turn α (rot (u n)))

/-- a beam turned about the vertical axis -/
noncomputable def turnBeam (α : ℝ) (g : GivenBeam) : GivenBeam := { g with p := turn α g.p, q := turn α g.q }

/-- `P'` is `P` turned about the vertical axis by `α`: coordinates, supports and loads. -/
structure Turned (α : ℝ) (P P' : Problem) : Prop where
  nodes : P'.nodes = P.nodes
  beam : ∀ b, P'.frame.beam b = (P.frame.beam b).map (turnBeam α)
  fix : ∀ v, Obeys P'.fix (turnState α v) ↔ Obeys P.fix v
  load : ∀ v, P'.load (turnState α v) = P.load v

/-- vertical up to the tolerance, so that the local axes are taken from the global x axis -/
def Upright (p q : V3) : Prop := max |q.x - p.x| |q.y - p.y| < absTol

/-- the point of the axis of a beam at the fraction `t` of its length -/
noncomputable def GivenBeam.point (g : GivenBeam) (t : ℝ) : V3 := g.p + t • (g.q - g.p)

/-- displacement and rotation of the point of the axis at the fraction `t`, for given displacements of the ends -/
noncomputable def GivenBeam.moved (g : GivenBeam) (u : State) (t : ℝ) : Vec 6 :=
  let e := beamFrame g.p g.q
  let x := t * g.len
  six (g.axial u x • e.x + g.defl2 u x • e.y + g.defl3 u x • e.z)
    (g.twist u x • e.x + (- deriv (g.defl3 u) x) • e.y + deriv (g.defl2 u) x • e.z)

/-- the state in which node `m` moves with the point of beam `g` at the fraction `t` -/
noncomputable def carried (g : GivenBeam) (m : String) (t : ℝ) (u : State) : State := fun n => if n = m then g.moved u t else u n

/-- `P'` is `P` with a new node `m` on beam `b` at the fraction `t` of its length: `b` now ends at `m`, and a new beam `b'` with the same section
continues to the old end.  The new node is free, and the loads do the same work when it moves with the beam. -/
structure Subdivided (P P' : Problem) (b b' m : String) (g : GivenBeam) (t : ℝ) : Prop where
  pos : 0 < t
  lt : t < 1
  old : P.frame.beam b = some g
  first : P'.frame.beam b = some { g with stop := m, q := g.point t }
  second : P'.frame.beam b' = some { g with start := m, p := g.point t }
  ne : b' ≠ b
  new : P.frame.beam b' = none
  others : ∀ k, k ≠ b → k ≠ b' → P'.frame.beam k = P.frame.beam k
  fresh : m ∉ P.nodes
  nodes : ∀ n, n ∈ P'.nodes ↔ n ∈ P.nodes ∨ n = m
  fix : ∀ n, n ≠ m → P'.fix n = P.fix n
  free : ∀ f, P'.fix m = some f → ∀ r, f r = false
  load : ∀ v, P'.load (carried g m t v) = P.load v

/-- `P'` is `P` with the ends of beam `b` exchanged. -/
structure EndsSwapped (P P' : Problem) (b : String) (g : GivenBeam) : Prop where
  old : P.frame.beam b = some g
  new : P'.frame.beam b = some ⟨g.stop, g.start, g.q, g.p, g.sec⟩
  others : ∀ k, k ≠ b → P'.frame.beam k = P.frame.beam k
  nodes : P'.nodes = P.nodes
  fix : P'.fix = P.fix
  load : ∀ v, P'.load v = P.load v

end Hyperstatic.Spec
