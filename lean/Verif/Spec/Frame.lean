import Verif.Spec.Blueprint
import Mathlib.Logic.Relation

/-
Vocabulary for statements about whole frames: positive stiffness, connection to the ground, comparison of two frames, and the
displacements reported for a history.
-/

namespace Hyperstatic.Spec
open Matrix

/-- Positive stiffness: `E > 0`, `μ > -1`, positive area, second moments and torsion constant. -/
def GivenSec.Positive (g : GivenSec) : Prop :=
  0 < g.mat.E ∧ -1 < g.mat.mu ∧ 0 < g.A ∧ 0 < g.I2 ∧ 0 < g.I3 ∧ 0 < g.J

/-- All beams have positive stiffness. -/
def Blueprint.Positive (s : Blueprint) : Prop := ∀ b g, s.beam b = some g → g.sec.Positive

/-- Two nodes are the ends of a beam. -/
def Blueprint.Joined (s : Blueprint) (n m : String) : Prop :=
  ∃ b g, s.beam b = some g ∧ ((g.start = n ∧ g.stop = m) ∨ (g.start = m ∧ g.stop = n))

/-- All six components of a node are restrained. -/
def Clamped (t : String → Option Flags) (n : String) : Prop := ∃ f, t n = some f ∧ ∀ r, f r = true

/-- Every node is joined to a clamped node by a chain of beams (of any length, possibly none). -/
def Blueprint.Grounded (s : Blueprint) (nodes : List String) (t : String → Option Flags) : Prop :=
  ∀ n ∈ nodes, ∃ m, Clamped t m ∧ Relation.ReflTransGen s.Joined n m

/-- `names` lists the patterns of a case, each once. -/
def Lists (names : List String) (g : String → Option ℝ) : Prop := names.Nodup ∧ ∀ p, p ∈ names ↔ (g p).isSome

/-- A history that describes a plain frame: beams only, no node re-added, no load pattern re-created. -/
structure PlainFrame (env : Env) (pre : List Call) : Prop where
  readd : NoReadd env World.init pre
  recreate : NoRecreate env World.init pre
  shells : (World.init.run env pre).getShellNames = []

/-- the name of an `add_node` call -/
def addedNode : Call → Option String
  | .addNode n _ _ _ => some n
  | _ => none

/-- the name of an `add_loadpattern` call -/
def addedPattern : Call → Option String
  | .addLoadpattern p => some p
  | _ => none

/-- Calls that add every node and every load pattern once, and no shells. -/
def PlainCalls (pre : List Call) : Prop :=
  (pre.filterMap addedNode).Nodup ∧ (pre.filterMap addedPattern).Nodup ∧ ∀ b n1 n2 n3 n4 s, Call.addShell b n1 n2 n3 n4 s ∉ pre

/-- After the history `pre`, `assemble()` and then any calls `mid` other than `assemble()`, the call `solve_static(c)` returns True, and
then `result_get_nodal_displacement(n, c)` is `u n` for every node `n`. -/
structure Reports (env : Env) (pre mid : List Call) (c : String) (u : State) : Prop where
  later : ∀ k ∈ mid, k ≠ .assemble
  ret : (((World.init.run env pre).run env (.assemble :: mid)).step env (.solveStatic c)).2 = true
  disp : ∀ n ∈ (nodeReg.run pre).cur.names,
    (((World.init.run env pre).run env (.assemble :: mid)).step env (.solveStatic c)).1.resultGetNodalDisplacement n c =
      some (List.ofFn (u n))

/-- Everything that matters about a described load case: the structure, its nodes, the restraints in force in the case, and the work of its
loads on a displacement state. -/
structure Problem where
  frame : Blueprint
  nodes : List String
  fix : String → Option Flags
  load : State → ℝ

/-- `P` is the problem the history `pre` describes for case `c`. -/
structure Poses (pre : List Call) (c : String) (P : Problem) : Prop where
  frame : P.frame = (blueprint.run pre).cur
  nodes : P.nodes = (nodeReg.run pre).cur.names
  fix : P.fix = (restReg.run pre).cur.inForce c
  load : ∃ g names, (caseReg.run pre).cur.cases c = some g ∧ Lists names g ∧
    P.load = P.frame.caseWork P.nodes (caseReg.run pre).cur g names

/-- Total potential energy of a displacement state: half the internal work minus the work of the loads. -/
noncomputable def Problem.potential (P : Problem) (u : State) : ℝ := P.frame.internal u u / 2 - P.load u

/-- `s'` is `s` with stiffer beams or additional beams: every beam of `s` is present in `s'` between the same ends, with rigidities
`EA`, `EI`, `GJ` not smaller. -/
def Stiffer (s s' : Blueprint) : Prop :=
  ∀ b g, s.beam b = some g → ∃ g', s'.beam b = some g' ∧ g'.start = g.start ∧ g'.stop = g.stop ∧ g'.p = g.p ∧ g'.q = g.q ∧
    g.sec.mat.E * g.sec.A ≤ g'.sec.mat.E * g'.sec.A ∧ g.sec.mat.E * g.sec.I2 ≤ g'.sec.mat.E * g'.sec.I2 ∧
    g.sec.mat.E * g.sec.I3 ≤ g'.sec.mat.E * g'.sec.I3 ∧
    g.sec.mat.E / (2 * (1 + g.sec.mat.mu)) * g.sec.J ≤ g'.sec.mat.E / (2 * (1 + g'.sec.mat.mu)) * g'.sec.J

/-- The problem is a cantilever: two nodes, one beam `g` between them, its start clamped and its end free. -/
structure Cantilever (P : Problem) (g : GivenBeam) : Prop where
  nodes : ∀ n, n ∈ P.nodes ↔ n = g.start ∨ n = g.stop
  ne : g.start ≠ g.stop
  beam : ∃ b, P.frame.beams = [b] ∧ P.frame.beam b = some g
  clamped : Clamped P.fix g.start
  others : ∀ n f, P.fix n = some f → n = g.start ∨ ∀ r, f r = false

/-- The same call with the coordinates of the node moved by `d`. -/
def shiftCall (d : V3) : Call → Call
  | .addNode n x y z => .addNode n (x + d.x) (y + d.y) (z + d.z)
  | c => c

end Hyperstatic.Spec
