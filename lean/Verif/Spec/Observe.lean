import Verif.Spec.History

/-
Observational equivalence of two worlds: no sequence of API calls and queries can tell them apart.
-/

namespace Hyperstatic.Spec

/-- The truth values returned by a sequence of calls. -/
noncomputable def outputs (env : Env) : World → List Call → List Bool
  | _, [] => []
  | w, c :: cs => (w.step env c).2 :: outputs env (w.step env c).1 cs

/-- All queries of the API give the same answers. -/
structure SameAnswers (w w' : World) : Prop where
  nodeNames : w.getNodeNames = w'.getNodeNames
  nodeLocation : ∀ n, w.getNodeLocation n = w'.getNodeLocation n
  nodeRestraints : ∀ c, w.getNodeRestraints c = w'.getNodeRestraints c
  beamNames : w.getBeamNames = w'.getBeamNames
  beamNodeNames : ∀ b, w.getBeamNodeNames b = w'.getBeamNodeNames b
  beamLocation : ∀ b, w.getBeamLocation b = w'.getBeamLocation b
  shellNames : w.getShellNames = w'.getShellNames
  shellNodeNames : ∀ s, w.getShellNodeNames s = w'.getShellNodeNames s
  shellLocation : ∀ s, w.getShellLocation s = w'.getShellLocation s
  nodalLoad : ∀ p n, w.getNodalLoad p n = w'.getNodalLoad p n
  allNodalLoad : ∀ p, w.getAllNodalLoad p = w'.getAllNodalLoad p
  structural : ∀ c, w.resultGetStructural c = w'.resultGetStructural c
  reaction : ∀ n c, w.resultGetNodalReaction n c = w'.resultGetNodalReaction n c
  displacement : ∀ n c, w.resultGetNodalDisplacement n c = w'.resultGetNodalDisplacement n c
  allDisplacement : ∀ c, w.resultGetAllNodalDisplacement c = w'.resultGetAllNodalDisplacement c
  endForce : ∀ b c, w.resultGetBeamEndForce b c = w'.resultGetBeamEndForce b c
  deformation : ∀ b l c, w.resultGetBeamDeformation b l c = w'.resultGetBeamDeformation b l c

/-- Whatever is done next, the two worlds return the same truth values and answer all queries alike. -/
def Indistinguishable (env : Env) (w w' : World) : Prop :=
  ∀ cs, outputs env w cs = outputs env w' cs ∧ SameAnswers (w.run env cs) (w'.run env cs)

end Hyperstatic.Spec
