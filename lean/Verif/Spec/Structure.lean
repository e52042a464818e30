import Verif.Spec.Beam
import Verif.Model.Api

/-
Structural mechanics at the level of node names, used to state what assembly and solution must compute.  A displacement state
gives every node name its six components in global axes.
-/

namespace Hyperstatic.Spec
open Matrix

/-- A displacement of the whole structure: three translations and three rotations for every node name. -/
abbrev State := String → Vec 6

/-- translations of a node -/
def trans (u : Vec 6) : V3 := ⟨u 0, u 1, u 2⟩
/-- rotations of a node -/
def rot (u : Vec 6) : V3 := ⟨u 3, u 4, u 5⟩

/-- The twelve end components along the axes of a local system: components along the three axes of the translation and
rotation of the start, then of the end. -/
noncomputable def localEnds (c : Csys) (ui uj : Vec 6) : Vec 12 :=
  ![c.x.dot (trans ui), c.y.dot (trans ui), c.z.dot (trans ui), c.x.dot (rot ui), c.y.dot (rot ui), c.z.dot (rot ui),
    c.x.dot (trans uj), c.y.dot (trans uj), c.z.dot (trans uj), c.x.dot (rot uj), c.y.dot (rot uj), c.z.dot (rot uj)]

/-- The local end components of a beam in a displacement state. -/
noncomputable def beamEnds (b : BeamElm) (u : State) : Vec 12 := localEnds b.csys (u b.startName) (u b.endName)

/-- Elastic constants of a beam: those of its section and material, or the ones given directly; `G = E / 2 / (1 + μ)`. -/
noncomputable def constsOf : BeamProp → BeamConsts
  | .sec s => ⟨s.material.E, s.material.E / 2 / (1 + s.material.mu), s.A, s.I22, s.I33, s.J, s.material.rho⟩
  | .simple E mu A I2 I3 J rho => ⟨E, E / 2 / (1 + mu), A, I2, I3, J, rho⟩

/-- Poisson's ratio of a beam's material -/
def muOf : BeamProp → ℝ
  | .sec s => s.material.mu
  | .simple _ mu _ _ _ _ _ => mu

/-- Internal virtual work of a beam. -/
noncomputable def beamInternal (b : BeamElm) (v u : State) : ℝ :=
  beamWork (constsOf b.prop) b.length (beamEnds b v) (beamEnds b u)

/-- The components of the nodes of a shell (24 for four nodes, 18 for three), in the order of its nodes. -/
def shellEnds {m : ℕ} (s : ShellElm) (u : State) : Vec m :=
  fun k => match s.nodes[k.val / 6]? with
    | some p => u p.1 ⟨k.val % 6, Nat.mod_lt _ (by decide)⟩
    | none => 0

/-- Internal virtual work of a shell with the stiffness delivered by the element code for four and for three nodes. -/
noncomputable def shellInternal (env : Env) (s : ShellElm) (v u : State) : ℝ :=
  if s.nodes.length = 4 then shellEnds s v ⬝ᵥ (env.quadK s *ᵥ shellEnds s u) else shellEnds s v ⬝ᵥ (env.triaK s *ᵥ shellEnds s u)

/-- Internal virtual work of a model: the sum over its elements. -/
noncomputable def internalWork (env : Env) (m : FeModel) (v u : State) : ℝ :=
  (m.beams.map fun p => beamInternal p.2 v u).sum + (m.shells.map fun p => shellInternal env p.2 v u).sum

/-- Virtual work of a load pattern: nodal loads on the nodal displacements, equivalent end forces of the beam loads (C33, C34)
on the end displacements of the beams. -/
noncomputable def patternWork (m : FeModel) (p : LoadPattern) (v : State) : ℝ :=
  (m.nodes.map fun q => ((p.nodalLoad.get? q.1).getD 0) ⬝ᵥ v q.1).sum +
  (m.beams.map fun q => (p.getBeamF q.1 q.2.length) ⬝ᵥ beamEnds q.2 v).sum

/-- The pattern objects of a load case with their factors. -/
def patternsOf (heap : PatHeap) (lc : LoadCase) : List (LoadPattern × ℝ) :=
  lc.loadFactor.filterMap fun q => match lc.pattern.get? q.1 with
    | some r => match heap[r]? with
      | some p => some (p, q.2)
      | none => none
    | none => none

/-- Virtual work of the loads of a case: factored sum over its patterns. -/
noncomputable def externalWork (m : FeModel) (heap : PatHeap) (lc : LoadCase) (v : State) : ℝ :=
  ((patternsOf heap lc).map fun q => q.2 * patternWork m q.1 v).sum

/-- The restraint table that governs a case: its own if it has one, otherwise the global one. -/
def governing (m : FeModel) (lc : LoadCase) : Dict Flags :=
  match lc.restraint with
  | [] => m.restraints
  | r => r

/-- A displacement state respects a restraint table: all restrained components vanish. -/
def Respects (t : Dict Flags) (u : State) : Prop :=
  ∀ n f, t.get? n = some f → ∀ r, f r = true → u n r = 0

/-- The displacement state with a unit at component `r` of node `n` and zeros elsewhere. -/
noncomputable def unitAt (n : String) (r : Fin 6) : State := fun n' r' => if n' = n ∧ r' = r then 1 else 0

/-- Small rigid motion of the whole model: translation `t`, rotation `ω` about the origin.  A node at `x` moves by
`t + ω × x` and turns by `ω`. -/
noncomputable def rigidState (loc : String → Option V3) (t ω : V3) : State := fun n =>
  match loc n with
  | some x => ![(t + V3.cross ω x).x, (t + V3.cross ω x).y, (t + V3.cross ω x).z, ω.x, ω.y, ω.z]
  | none => 0

/-- The beams of a model have admissible properties: `E ≥ 0`, `-1 < μ`, non-negative area and second moments. -/
def Admissible (m : FeModel) : Prop :=
  ∀ b be, m.beams.get? b = some be →
    0 ≤ (constsOf be.prop).E ∧ 0 ≤ (constsOf be.prop).G ∧ 0 ≤ (constsOf be.prop).A ∧ 0 ≤ (constsOf be.prop).I2 ∧
    0 ≤ (constsOf be.prop).I3 ∧ 0 ≤ (constsOf be.prop).J

/-- The element code delivers symmetric matrices for the shells of the model. -/
def ShellsSymm (env : Env) (m : FeModel) : Prop :=
  ∀ s se, m.shells.get? s = some se →
    (se.nodes.length = 4 → (env.quadK se)ᵀ = env.quadK se) ∧ (se.nodes.length = 3 → (env.triaK se)ᵀ = env.triaK se)

/-- The element code delivers positive semidefinite matrices for the shells of the model. -/
def ShellsPos (env : Env) (m : FeModel) : Prop :=
  ∀ s se, m.shells.get? s = some se →
    (se.nodes.length = 4 → ∀ z, 0 ≤ z ⬝ᵥ (env.quadK se *ᵥ z)) ∧ (se.nodes.length = 3 → ∀ z, 0 ≤ z ⬝ᵥ (env.triaK se *ᵥ z))

/-- The element code delivers matrices for the shells of the model that do not resist a common translation of all nodes. -/
def ShellsFree (env : Env) (m : FeModel) : Prop :=
  ∀ s se, m.shells.get? s = some se → ∀ t : V3,
    (se.nodes.length = 4 → env.quadK se *ᵥ shellEnds se (fun _ => ![t.x, t.y, t.z, 0, 0, 0]) = 0) ∧
    (se.nodes.length = 3 → env.triaK se *ᵥ shellEnds se (fun _ => ![t.x, t.y, t.z, 0, 0, 0]) = 0)

/-- Two patterns with the same loads on every node and beam. -/
def SameLoads (p p' : LoadPattern) : Prop :=
  (∀ n, p.nodalLoad.get? n = p'.nodalLoad.get? n) ∧ (∀ b, p.beamDist.get? b = p'.beamDist.get? b) ∧
  (∀ b, p.beamConc.get? b = p'.beamConc.get? b)

/-- The factor and the pattern object a case holds under a pattern name. -/
def casePattern (heap : PatHeap) (lc : LoadCase) (p : String) : Option (ℝ × LoadPattern) :=
  match lc.loadFactor.get? p, lc.pattern.get? p with
  | some φ, some r => heap[r]?.map fun q => (φ, q)
  | _, _ => none

/-- Two states of the API define the same structure and the same loads for case `c`, whatever the order of definition: the
same names, and under each name the same beam, shell, restraints and loads.  (The global restraints need only agree if the case
has none of its own.) -/
structure SameStructure (a a' : Api) (c : String) (lc lc' : LoadCase) : Prop where
  nodes : ∀ n, n ∈ a.model.nodes.keys ↔ n ∈ a'.model.nodes.keys
  beams : ∀ b, a.model.beams.get? b = a'.model.beams.get? b
  shells : ∀ s, a.model.shells.get? s = a'.model.shells.get? s
  restraints : lc.restraint = [] → ∀ n, a.model.restraints.get? n = a'.model.restraints.get? n
  case : a.loadcases.get? c = some lc
  case' : a'.loadcases.get? c = some lc'
  caseRestraints : ∀ n, lc.restraint.get? n = lc'.restraint.get? n
  factors : ∀ p φ q, casePattern a.heap lc p = some (φ, q) → ∃ q', casePattern a'.heap lc' p = some (φ, q') ∧ SameLoads q q'
  factors' : ∀ p φ q, casePattern a'.heap lc' p = some (φ, q) → ∃ q', casePattern a.heap lc p = some (φ, q') ∧ SameLoads q' q

/-- Node name and component of the `k`-th of the twelve end components of a beam. -/
def beamSlot (b : BeamElm) (k : Fin 12) : String × Fin 6 :=
  (if k.val < 6 then b.startName else b.endName, ⟨k.val % 6, Nat.mod_lt _ (by decide)⟩)

/-- Node name and component of the `k`-th of the 24 components of a four-node shell, or of the 18 of a three-node shell. -/
def shellSlot {m : ℕ} (s : ShellElm) (k : Fin m) : Option (String × Fin 6) :=
  s.nodes[k.val / 6]?.map fun p => (p.1, ⟨k.val % 6, Nat.mod_lt _ (by decide)⟩)

/-- A case has no restraints of its own, or at least one of its own flags is set, or no global flag is set. -/
def Unambiguous (m : FeModel) (lc : LoadCase) : Prop :=
  lc.restraint = [] ∨ (∃ n f r, lc.restraint.get? n = some f ∧ f r = true) ∨
    ∀ n f r, m.restraints.get? n = some f → f r = false

/-- Stability: a displacement of the nodes of the model that respects the restraints and costs no internal work is zero. -/
def Stable (env : Env) (m : FeModel) (t : Dict Flags) : Prop :=
  ∀ u : State, Respects t u → internalWork env m u u = 0 → ∀ n ∈ m.nodes.keys, u n = 0

end Hyperstatic.Spec
