import Verif.Spec.FrameLaws

/-
Other names for the same things, and structures that are their own mirror image.
-/

namespace Hyperstatic.Spec
open Matrix

/-- New names for nodes, materials, sections, beams, load patterns and load cases. -/
structure Naming where
  node : String → String
  mat : String → String
  sec : String → String
  beam : String → String
  pat : String → String
  case : String → String

/-- Different things keep different names. -/
structure Naming.Distinct (ν : Naming) : Prop where
  node : Function.Injective ν.node
  mat : Function.Injective ν.mat
  sec : Function.Injective ν.sec
  beam : Function.Injective ν.beam
  pat : Function.Injective ν.pat
  case : Function.Injective ν.case

/-- The same call with the new names. -/
def renameCall (ν : Naming) : Call → Call
  | .addNode n x y z => .addNode (ν.node n) x y z
  | .setNodalMass n m => .setNodalMass (ν.node n) m
  | .addIsotropicMaterial m rho E mu a => .addIsotropicMaterial (ν.mat m) rho E mu a
  | .addBeamSectionGeneral n m A As2 As3 I22 I33 J W22 W33 => .addBeamSectionGeneral (ν.sec n) (ν.mat m) A As2 As3 I22 I33 J W22 W33
  | .addBeamSectionRectangle n m h b => .addBeamSectionRectangle (ν.sec n) (ν.mat m) h b
  | .addBeamSectionI n m h b tw tf => .addBeamSectionI (ν.sec n) (ν.mat m) h b tw tf
  | .addBeamSectionBox n m h b tw tf => .addBeamSectionBox (ν.sec n) (ν.mat m) h b tw tf
  | .addBeamSectionCircle n m d => .addBeamSectionCircle (ν.sec n) (ν.mat m) d
  | .addBeamSectionPipe n m d t => .addBeamSectionPipe (ν.sec n) (ν.mat m) d t
  | .addBeam b i j s => .addBeam (ν.beam b) (ν.node i) (ν.node j) (ν.sec s)
  | .addSimpleBeam b i j E mu A I2 I3 J rho => .addSimpleBeam (ν.beam b) (ν.node i) (ν.node j) E mu A I2 I3 J rho
  | .setBeamRelease b r => .setBeamRelease (ν.beam b) r
  | .addShellSection n m t e => .addShellSection n (ν.mat m) t e
  | .addShell s a b c d k => .addShell s (ν.node a) (ν.node b) (ν.node c) (ν.node d) k
  | .addLoadpattern p => .addLoadpattern (ν.pat p)
  | .setNodalRestraint n f => .setNodalRestraint (ν.node n) f
  | .setLoadcaseNodalRestraint c n f => .setLoadcaseNodalRestraint (ν.case c) (ν.node n) f
  | .setNodalLoad p n f => .setNodalLoad (ν.pat p) (ν.node n) f
  | .setBeamLoadDistributed p b pi pj qi2 qj2 qi3 qj3 ti tj => .setBeamLoadDistributed (ν.pat p) (ν.beam b) pi pj qi2 qj2 qi3 qj3 ti tj
  | .setBeamLoadConcentrated p b F1 F2 F3 M1 M2 M3 r => .setBeamLoadConcentrated (ν.pat p) (ν.beam b) F1 F2 F3 M1 M2 M3 r
  | .addStaticCase c => .addStaticCase (ν.case c)
  | .addModalCase c => .addModalCase (ν.case c)
  | .addCasePattern c p f => .addCasePattern (ν.case c) (ν.pat p) f
  | .solveStatic c => .solveStatic (ν.case c)
  | .solveModal c k => .solveModal (ν.case c) k
  | .assemble => .assemble
  | .save f => .save f
  | .load f => .load f
  | .clearWorkspace => .clearWorkspace

/-- The structure is its own mirror image: `σ` pairs the nodes and `τ` the beams.  The image of a beam may run the other way.  Supports and loads
are mirrored as well. -/
structure Symmetric (m : V3) (σ τ : String → String) (P : Problem) : Prop where
  pairs : ∀ n, σ (σ n) = n
  bpairs : ∀ b, τ (τ b) = b
  nodes : ∀ n ∈ P.nodes, σ n ∈ P.nodes
  beam : ∀ b g, P.frame.beam b = some g →
    P.frame.beam (τ b) = some ⟨σ g.start, σ g.stop, reflect m g.p, reflect m g.q, g.sec⟩ ∨
    P.frame.beam (τ b) = some ⟨σ g.stop, σ g.start, reflect m g.q, reflect m g.p, g.sec⟩
  fix : ∀ n r, Restrained P.fix (σ n) r ↔ Restrained P.fix n r
  load : ∀ v : State, P.load (fun n => flipSix m (v (σ n))) = P.load v

end Hyperstatic.Spec
