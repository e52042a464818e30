import Verif.Spec.Frame
import Verif.Spec.Dynamic

/-
Vibration of a described frame: its inertia, its modes, and what a modal analysis reports.  In the numbers the user gave, except for the
rotary inertia of 1e-12 that the code adds at both ends of every beam.
-/

namespace Hyperstatic.Spec
open Matrix

/-- mass of a beam: density times area times length -/
noncomputable def GivenBeam.mass (g : GivenBeam) : ℝ := g.sec.mat.rho * g.sec.A * g.len

/-- Inertial work of a beam: half its mass on the translations of each end, and 1e-12 on the rotations of each end. -/
noncomputable def GivenBeam.inertial (g : GivenBeam) (v u : State) : ℝ :=
  (g.mass / 2 * (trans (v g.start)).dot (trans (u g.start)) + 1 / 10 ^ 12 * (rot (v g.start)).dot (rot (u g.start))) +
  (g.mass / 2 * (trans (v g.stop)).dot (trans (u g.stop)) + 1 / 10 ^ 12 * (rot (v g.stop)).dot (rot (u g.stop)))

/-- A frame as a vibrating system: the structure, its nodes, the restraints in force and the masses attached to the nodes. -/
structure Vibration where
  frame : Blueprint
  nodes : List String
  fix : String → Option Flags
  mass : String → Option (Vec 6)

/-- Inertial work for the accelerations `u` under the virtual displacement `v`: attached masses component by component, and beams. -/
noncomputable def Vibration.inertial (P : Vibration) (v u : State) : ℝ :=
  (P.nodes.map fun n => (P.mass n).elim 0 fun w => ∑ r, w r * (v n r * u n r)).sum +
  (P.frame.beams.map fun b => (P.frame.beam b).elim 0 fun g => g.inertial v u).sum

/-- `u` is a vibration mode with squared circular frequency `lam`: it obeys the restraints, is not zero, and the elastic forces balance
`lam` times the inertia forces. -/
def Vibration.Mode (P : Vibration) (lam : ℝ) (u : State) : Prop :=
  Obeys P.fix u ∧ (∃ n ∈ P.nodes, u n ≠ 0) ∧ ∀ v, Obeys P.fix v → P.frame.internal v u = lam * P.inertial v u

/-- Every displacement that obeys the restraints moves some mass. -/
def Vibration.Massive (P : Vibration) : Prop :=
  ∀ u, Obeys P.fix u → (∃ n ∈ P.nodes, u n ≠ 0) → 0 < P.inertial u u

/-- The components left free by the restraints: node by node, component by component. -/
def Vibration.free (P : Vibration) (u : State) : List ℝ :=
  P.nodes.flatMap fun n => (List.finRange 6).filterMap fun r =>
    match P.fix n with
    | some f => if f r then none else some (u n r)
    | none => some (u n r)

/-- `P` is the vibrating system the history `pre` describes for the modal case `lc`: the restraints of the case if it has any, otherwise
the global ones. -/
structure Shakes (pre : List Call) (lc : LoadCase) (P : Vibration) : Prop where
  frame : P.frame = (blueprint.run pre).cur
  nodes : P.nodes = (nodeReg.run pre).cur.names
  fix : P.fix = match lc.restraint with
    | [] => (restReg.run pre).cur.global
    | t => fun n => t.get? n
  mass : P.mass = (massReg.run pre).cur

/-- A modal analysis: a model without shells is built by the calls `pre`, no node being added twice; the assembly of it with cases among
which is `lc` is saved, `solve_eigen` with `n_modes = k` returns, and the resolver then reports the values `omega`; the file of mode
shapes holds the rows `shapes`. -/
structure ModalReport (env : Env) (dyn : DynEnv) (pre : List Call) (lc : LoadCase) (k : ℕ) (omega : List ℝ) (shapes : List (List ℝ)) :
    Prop where
  readd : NoReadd env World.init pre
  shells : (World.init.run env pre).getShellNames = []
  wf : lc.restraint.WF
  run : ∃ (cases : List LoadCase) (heap : PatHeap) (x : Assembly) (A : Type) (fs fs' : Dict (File A)) (filename : String) (r : ModalFrequency),
    Assembly.mk? (World.init.run env pre).api.model cases heap = .ok x ∧ x.cases.get? lc.name = some lc ∧
    openAssembly fs filename = .ok x ∧
    filename ∉ ["0.k.npy", "0.m.npy", lc.name ++ ".d" ++ ".npy", lc.name ++ ".o" ++ ".npy"] ∧
    solveEigen env dyn fs filename lc.name ⟨k, none⟩ = (fs', .ok ()) ∧
    resolveModalFrequency fs' filename lc.name = .ok r ∧ r.omega = omega ∧
    fs'.get? (lc.name ++ ".d" ++ ".npy") = some (.rows shapes)

/-- `P'` has the nodes and beams of `P` between the same ends, and no mass of it, attached or of a beam, is greater. -/
structure Lighter (P P' : Vibration) : Prop where
  nodes : P'.nodes = P.nodes
  beams : P'.frame.beams = P.frame.beams
  beam : ∀ b g, P.frame.beam b = some g → ∃ g', P'.frame.beam b = some g' ∧ g'.start = g.start ∧ g'.stop = g.stop ∧ g'.mass ≤ g.mass
  no : ∀ b, P.frame.beam b = none → P'.frame.beam b = none
  attached : ∀ n w, P.mass n = some w → ∃ w', P'.mass n = some w' ∧ ∀ r, w' r ≤ w r
  none : ∀ n, P.mass n = none → P'.mass n = none

/-- What `eigsh` promises with `sigma=0, which='LM'` for a symmetric matrix and a symmetric positive definite one: the eigenvectors are
orthogonal with respect to `M`, and the eigenvalues are the nearest to 0, that is, an eigenvector orthogonal to all those returned has
an eigenvalue at least as far from 0. -/
def EigNearest (d : DynEnv) : Prop :=
  ∀ n (K : Matrix (Fin n) (Fin n) ℝ) k (M : Matrix (Fin n) (Fin n) ℝ) l, d.eigsh n K k M = .ok l → Kᵀ = K → Mᵀ = M →
    (∀ z, z ≠ 0 → 0 < z ⬝ᵥ M *ᵥ z) →
    (l.Pairwise fun p q => p.2 ⬝ᵥ M *ᵥ q.2 = 0) ∧
    ∀ (μ : ℝ) (z : Vec n), z ≠ 0 → K *ᵥ z = μ • (M *ᵥ z) → (∀ p ∈ l, z ⬝ᵥ M *ᵥ p.2 = 0) → ∀ p ∈ l, |p.1| ≤ |μ|

/-- `eigsh` returns for every symmetric `K` without negative quadratic form and symmetric positive definite `M`, if fewer values than the
order are asked for. -/
def EigTotal (d : DynEnv) : Prop :=
  ∀ n (K : Matrix (Fin n) (Fin n) ℝ) k (M : Matrix (Fin n) (Fin n) ℝ), Kᵀ = K → Mᵀ = M → (∀ z, 0 ≤ z ⬝ᵥ K *ᵥ z) →
    (∀ z, z ≠ 0 → 0 < z ⬝ᵥ M *ᵥ z) → k < n → ∃ l, d.eigsh n K k M = .ok l

/-- how many of the values do not exceed `t` -/
noncomputable def upTo (t : ℝ) (l : List ℝ) : ℕ := (l.filter fun x => decide (x ≤ t)).length

end Hyperstatic.Spec
