import Verif.Spec.FrameLaws

/-
Vocabulary for forces of supports: what they are, their resultants, and models in which supports are replaced by forces or forces by
supports.
-/

namespace Hyperstatic.Spec
open Matrix

/-- Work of nodal forces. -/
noncomputable def nodalWork (nodes : List String) (F : String → Vec 6) (v : State) : ℝ := (nodes.map fun n => F n ⬝ᵥ v n).sum

/-- `R` are the forces of the supports on the structure displaced by `u`: they act at restrained components only, and together with the loads
they are in equilibrium with the internal forces, also for displacements that move the supports. -/
structure SupportForces (P : Problem) (u : State) (R : String → Vec 6) : Prop where
  only : ∀ n ∈ P.nodes, ∀ r, R n r ≠ 0 → Restrained P.fix n r
  work : ∀ v : State, P.frame.internal v u = P.load v + nodalWork P.nodes R v

/-- Position of a node, `none` being taken for the origin. -/
noncomputable def Blueprint.at (s : Blueprint) (n : String) : V3 := (s.loc n).getD ⟨0, 0, 0⟩

/-- Resultant force of nodal forces. -/
noncomputable def forceSum (nodes : List String) (F : String → Vec 6) : V3 :=
  ⟨(nodes.map fun n => F n 0).sum, (nodes.map fun n => F n 1).sum, (nodes.map fun n => F n 2).sum⟩

/-- Resultant moment about the point `o`: moments of the forces and the nodal moments. -/
noncomputable def momentSum (s : Blueprint) (nodes : List String) (o : V3) (F : String → Vec 6) : V3 :=
  let m := fun n => (s.at n - o).cross (trans (F n)) + rot (F n)
  ⟨(nodes.map fun n => (m n).x).sum, (nodes.map fun n => (m n).y).sum, (nodes.map fun n => (m n).z).sum⟩

/-- `part` is a part of the structure that no beam connects to the rest. -/
def Separate (s : Blueprint) (part : String → Prop) : Prop := ∀ b g, s.beam b = some g → (part g.start ↔ part g.stop)

/-- The nodes of `part` move as in `u`, the others do not move. -/
noncomputable def within (part : String → Prop) (u : State) : State := fun n => open Classical in if part n then u n else 0

/-- `P'` is `P` with some supports taken away and nodal forces `F` added: what remains restrained was restrained before, and `F` is `R` wherever
`P'` has no support (at supports that remain it does not matter). -/
structure Replaced (P P' : Problem) (R F : String → Vec 6) : Prop where
  frame : P'.frame = P.frame
  nodes : P'.nodes = P.nodes
  keep : ∀ n r, Restrained P'.fix n r → Restrained P.fix n r
  force : ∀ n ∈ P.nodes, ∀ r, ¬ Restrained P'.fix n r → F n r = R n r
  load : ∀ v : State, P'.load v = P.load v + nodalWork P.nodes F v

/-- `P'` is `P` with the component `r` of node `n` restrained in addition. -/
structure Propped (P P' : Problem) (n : String) (r : Fin 6) : Prop where
  frame : P'.frame = P.frame
  nodes : P'.nodes = P.nodes
  fix : ∀ m q, Restrained P'.fix m q ↔ Restrained P.fix m q ∨ (m = n ∧ q = r)
  load : P'.load = P.load

/-- `P'` is the structure `P` under other loads. -/
structure OtherLoads (P P' : Problem) : Prop where
  frame : P'.frame = P.frame
  nodes : P'.nodes = P.nodes
  fix : P'.fix = P.fix

end Hyperstatic.Spec
