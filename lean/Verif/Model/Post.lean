import Verif.Model.Solver

/-
Model of hyperstatic/core/fe_post/{__init__,node,beam}.py.
-/

namespace Hyperstatic

open Matrix

variable {A : Type}

/-- `np.load(os.path.join(path,casename+".d.npy"))[0,:]` fe_post/node.py 25, fe_post/beam.py 41. -/
def loadDisp (fs : Dict (File A)) (casename : String) : Except PyErr (List ℝ) :=
  match fs.get? (casename ++ ".d.npy") with
  | some (.disp d) => .ok d
  | some (.rows (d :: _)) => .ok d
  | some _ => .error .exception
  | none => .error .fileNotFound

/-- `NodeResultResolver(workpath,filename).resolve_nodal_displacement(name,casename,step=1)`
fe_post/node.py 8-27; the slice `d[hid*6:hid*6+6]` is truncated by Python at the end of the array. -/
def resolveNodalDisplacement (fs : Dict (File A)) (filename node casename : String) :
    Except PyErr (List ℝ) := do
  let a ← openAssembly fs filename
  let d ← loadDisp fs casename
  let hid ← a.model.getNodeHid node
  return (d.drop (hid * 6)).take 6

/-- The end displacement picked by `d[np.in1d(range(len(d)),mask)]` fe_post/beam.py 42-48: entries of the
two nodes in increasing order of index, not in the order start, end. -/
def pickEndDisp (d : List ℝ) (i j : ℕ) : List ℝ :=
  ((List.range d.length).filter (fun k =>
    decide (k ∈ (List.range 6).map (i * 6 + ·) ++ (List.range 6).map (j * 6 + ·)))).map
    (fun k => d.getD k 0)

/-- The six values computed in fe_post/beam.py 51-65 from the local end displacement. -/
noncomputable def beamDeformation (l loc : ℝ) (dd : Vec 12) : Vec 6 :=
  let N := beamInterpolate l loc
  let N_ := beamInterpolate1 l loc
  ![N 0 * dd 0 + N 1 * dd 6,
    N 2 * dd 1 + N 3 * dd 5 + N 4 * dd 7 + N 5 * dd 11,
    N 6 * dd 2 + N 7 * dd 4 + N 8 * dd 8 + N 9 * dd 10,
    N 10 * dd 3 + N 11 * dd 9,
    N_ 2 * dd 1 + N_ 3 * dd 5 + N_ 4 * dd 7 + N_ 5 * dd 11,
    N_ 6 * dd 2 + N_ 7 * dd 4 + N_ 8 * dd 8 + N_ 9 * dd 10]

/-- `BeamResultResolver(workpath,filename).resolve_beam_deformation(name,loc,casename,step=1)`
fe_post/beam.py 8-65.  `T.dot(dd)` raises when `dd` has not 12 entries. -/
noncomputable def resolveBeamDeformation (fs : Dict (File A)) (filename beam : String) (loc : ℝ)
    (casename : String) : Except PyErr (Vec 6) := do
  let a ← openAssembly fs filename
  let d ← loadDisp fs casename
  let (i, j) ← a.model.getBeamNodeHids beam
  let b ← a.model.beams.getItem beam
  let dd := pickEndDisp d i j
  if h : dd.length = 12 then
    return beamDeformation b.length loc (b.T *ᵥ (fun k => dd[k.val]'(by rw [h]; exact k.isLt)))
  else .error .valueError

/-- `NodeResultResolver(workpath).resolve_nodal_reaction(name,casename,step=1)` as called by core/__init__.py 858-859; the
constructor (fe_post/node.py 8) has the two parameters `workpath`, `filename`.  The body is fe_post/node.py 29-45; `np.load` refuses
to read the pickled matrix a solver writes to `*.k.npy`, `ValueError`. -/
def resolveNodalReaction (fs : Dict (File A)) (filename _node casename : String) : Except PyErr (List ℝ) := do
  checkArity 2 1
  let _ ← openAssembly fs filename
  let _ ← loadDisp fs casename
  match fs.get? (casename ++ ".k.npy") with
  | some _ => .error .valueError
  | none => .error .fileNotFound

/-- Attributes of a `BeamResultResolver`, fe_post/__init__.py 9-20, fe_post/beam.py 9-16. -/
def beamResolverAttributes : List String :=
  ["_ResultResolver__workpath", "_ResultResolver__assembly", "_BeamResultResolver__workpath", "_BeamResultResolver__assembly",
    "workpath", "assembly"]

/-- `BeamResultResolver(workpath,filename).resolve_beam_end_force(name,casename,step=1)` fe_post/beam.py 18-25: `self.__path` is
read first.  The product of the 12x12 matrix `K` with the list `dd` of two numbers raises `ValueError`. -/
def resolveBeamEndForce (fs : Dict (File A)) (filename beam casename : String) : Except PyErr (List ℝ) := do
  let a ← openAssembly fs filename
  checkAttr beamResolverAttributes "_BeamResultResolver__path"
  let _ ← loadDisp fs casename
  let _ ← a.model.getBeamNodeHids beam
  .error .valueError

end Hyperstatic
