import Verif.Spec.Resultants

/-
Vocabulary for structures whose supports are statically determinate, and for parts that hang on a single node.
-/

namespace Hyperstatic.Spec
open Matrix

/-- The problem has a support at component `r` of node `n`. -/
def SupportAt (P : Problem) (n : String) (r : Fin 6) : Prop := n ∈ P.nodes ∧ Restrained P.fix n r

/-- The supports are statically determinate: forces at the supports that are in balance with each other vanish. -/
def Determinate (P : Problem) : Prop :=
  ∀ R : String → Vec 6, (∀ n r, R n r ≠ 0 → SupportAt P n r) → forceSum P.nodes R = 0 →
    momentSum P.frame P.nodes ⟨0, 0, 0⟩ R = 0 → ∀ n, R n = 0

/-- The two problems have supports at the same components of the same nodes, and these nodes have the same positions. -/
structure SameSupports (P P' : Problem) : Prop where
  same : ∀ n r, SupportAt P n r ↔ SupportAt P' n r
  place : ∀ n r, SupportAt P n r → P'.frame.loc n = P.frame.loc n

/-- `P'` is `P` with a branch: further nodes and beams connected to `P` at the node `k` only, free of supports and loads. -/
structure Branched (P P' : Problem) (k : String) : Prop where
  root : k ∈ P.nodes
  nodes : ∀ n ∈ P.nodes, n ∈ P'.nodes
  beam : ∀ b g, P.frame.beam b = some g → P'.frame.beam b = some g
  apart : ∀ b g, P.frame.beam b = none → P'.frame.beam b = some g → (g.start ∈ P.nodes → g.start = k) ∧ (g.stop ∈ P.nodes → g.stop = k)
  fix : ∀ n ∈ P.nodes, P'.fix n = P.fix n
  free : ∀ n r, n ∉ P.nodes → ¬ Restrained P'.fix n r
  load : ∀ v : State, P'.load v = P.load v

/-- Displacement of a node at `x` that moves rigidly with a node at `y` displaced by `d`: it turns by the same rotation `ω` and moves by the
displacement of that node plus `ω × (x - y)`. -/
noncomputable def rigidlyWith (d : Vec 6) (y x : V3) : Vec 6 :=
  let m := trans d + (rot d).cross (x - y)
  ![m.x, m.y, m.z, d 3, d 4, d 5]

end Hyperstatic.Spec
