import Verif.Model.Beam

/-
Nodes and beams used as objects, without the Api: hyperstatic/core/fe_model/node.py, element/line/{beam,simple_beam}.py.
-/

namespace Hyperstatic
open Matrix

/-- A `Beam` or `SimpleBeam` object with the number that its property `rotation` returns: `__rotation`, beam.py 17 / simple_beam.py 34. -/
structure BeamObj where
  elm : BeamElm
  rotation : ℝ

/-- what a caller can set on a beam object -/
inductive BeamSet
  | rotation (radian : ℝ)
  | releases (rls : Fin 12 → Bool)

namespace BeamObj

/-- `Beam.__init__` beam.py 13-19 / `SimpleBeam.__init__` simple_beam.py 11-35: `__rotation=0`. -/
noncomputable def mk? (name : String) (n0 n1 : Node) (p : BeamProp) : Except PyErr BeamObj := do
  let b ← BeamElm.mk? name n0 n1 p
  return ⟨b, 0⟩

/-- the setters beam.py 25-27, 33-36 / simple_beam.py 41-43, 49-52 -/
noncomputable def set (b : BeamObj) : BeamSet → BeamObj
  | .rotation radian => ⟨{ b.elm with csys := b.elm.csys.rotateX radian }, radian⟩
  | .releases rls => ⟨{ b.elm with releases := rls }, b.rotation⟩

/-- a sequence of assignments -/
noncomputable def sets (b : BeamObj) (ss : List BeamSet) : BeamObj := ss.foldl set b

/-- `T.T*integrate_K()*T` with `T=transform_matrix`: the stiffness in global axes, as assembly.py 124-131 forms it; without condensation. -/
noncomputable def globalK (b : BeamObj) : Except PyErr (Matrix (Fin 12) (Fin 12) ℝ) := do
  let K ← b.elm.K
  return b.elm.Tᵀ * K * b.elm.T

end BeamObj

/-- what a caller can do with a node object -/
inductive NodeSet
  | rotate1 (θ : ℝ) | rotate2 (θ : ℝ) | rotate3 (θ : ℝ) | align | mass (m : Vec 6)

namespace Node

/-- `rotate_about_1axis`, `rotate_about_2axis`, `rotate_about_3axis`, `initialize_csys` node.py 72-82 and the setter of `mass` 56-58 -/
noncomputable def set (n : Node) : NodeSet → Node
  | .rotate1 θ => { n with csys := n.csys.rotateX θ }
  | .rotate2 θ => { n with csys := n.csys.rotateY θ }
  | .rotate3 θ => { n with csys := n.csys.rotateZ θ }
  | .align => { n with csys := n.csys.alignWithGlobal }
  | .mass m => { n with mass := m }

/-- a sequence of them -/
noncomputable def sets (n : Node) (ss : List NodeSet) : Node := ss.foldl set n

/-- `Node.integrate_M` node.py 84-85 -/
def M (n : Node) : Matrix (Fin 6) (Fin 6) ℝ := Matrix.diagonal n.mass

end Node
end Hyperstatic
