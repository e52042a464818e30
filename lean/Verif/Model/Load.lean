import Verif.Model.Beam

/-
Model of hyperstatic/core/fe_model/load/{pattern,__init__,loadcase}.py.
-/

namespace Hyperstatic

/-- `LoadPattern` pattern.py 5-10. -/
structure LoadPattern where
  name : String
  nodalLoad : Dict (Vec 6)
  nodalDisp : Dict (Vec 6)
  beamDist : Dict (Vec 12)
  /-- `[F1,F2,F3,M1,M2,M3,r]` -/
  beamConc : Dict (Vec 7)

namespace LoadPattern

/-- `LoadPattern.__init__` pattern.py 5-10. -/
def new (name : String) : LoadPattern := ⟨name, [], [], [], []⟩

/-- `set_nodal_load` pattern.py 16-17. -/
def setNodalLoad (p : LoadPattern) (node : String) (f : Vec 6) : LoadPattern :=
  { p with nodalLoad := p.nodalLoad.set node f }

/-- `set_nodal_disp` pattern.py 19-20. -/
def setNodalDisp (p : LoadPattern) (node : String) (u : Vec 6) : LoadPattern :=
  { p with nodalDisp := p.nodalDisp.set node u }

/-- `set_beam_load_dist` pattern.py 22-23, arguments in the Python order. -/
def setBeamLoadDist (p : LoadPattern) (beam : String) (pi pj qi2 qj2 qi3 qj3 ti tj : ℝ) :
    LoadPattern :=
  { p with beamDist := p.beamDist.set beam ![pi, qi2, qi3, ti, 0, 0, pj, qj2, qj3, tj, 0, 0] }

/-- `set_beam_load_conc` pattern.py 25-26. -/
def setBeamLoadConc (p : LoadPattern) (beam : String) (F1 F2 F3 M1 M2 M3 r : ℝ) : LoadPattern :=
  { p with beamConc := p.beamConc.set beam ![F1, F2, F3, M1, M2, M3, r] }

/-- `get_nodal_f` pattern.py 28-32. -/
def getNodalF (p : LoadPattern) (node : String) : Option (Vec 6) := p.nodalLoad.get? node

/-- `get_nodal_f_dict` pattern.py 34-35. -/
def getNodalFDict (p : LoadPattern) : Dict (Vec 6) := p.nodalLoad

/-- `get_nodal_d` pattern.py 37-41. -/
def getNodalD (p : LoadPattern) (node : String) : Option (Vec 6) := p.nodalDisp.get? node

/-- `get_nodal_d_dict` pattern.py 43-44. -/
def getNodalDDict (p : LoadPattern) : Dict (Vec 6) := p.nodalDisp

/-- `get_beam_distributed` pattern.py 46-49. -/
def getBeamDistributed (p : LoadPattern) (beam : String) : Option (Vec 12) := p.beamDist.get? beam

/-- `get_beam_concentrated` pattern.py 51-54: reads the *distributed* table. -/
def getBeamConcentrated (p : LoadPattern) (beam : String) : Option (Vec 12) := p.beamDist.get? beam

end LoadPattern

/-- Equivalent end forces of a distributed load, pattern.py 58-104 (`v` as stored by
`set_beam_load_dist`). -/
noncomputable def distF (v : Vec 12) (l : ℝ) : Vec 12 :=
  -- axial
  let r0 := v 6 * l / 2 + 0.5 * (v 0 - v 6) * l * (2 / 3)
  let r6 := v 6 * l / 2 + 0.5 * (v 0 - v 6) * l * (1 / 3)
  -- axis 2
  let r1 := v 7 * l / 2 + 7 / 20 * (v 1 - v 7) * l
  let r5 := v 7 * l * l / 12 + (v 1 - v 7) * l * l / 20
  let r7 := v 7 * l / 2 + 3 / 20 * (v 1 - v 7) * l
  let r11 := -v 7 * l * l / 12 - (v 1 - v 7) * l * l / 30
  -- axis 3
  let r2 := v 8 * l / 2 + 7 / 20 * (v 2 - v 8) * l
  let r4 := -v 8 * l * l / 12 - (v 2 - v 8) * l * l / 20
  let r8 := v 8 * l / 2 + 3 / 20 * (v 2 - v 8) * l
  let r10 := v 8 * l * l / 12 + (v 2 - v 8) * l * l / 30
  -- torsion
  let r3 := v 9 * l / 2 + (v 3 - v 9) * l / 3
  let r9 := v 9 * l / 2 + (v 3 - v 9) * l / 6
  ![r0, r1, r2, r3, r4, r5, r6, r7, r8, r9, r10, r11]

/-- Equivalent end forces of a concentrated load, pattern.py 121-139 (`v` as stored by
`set_beam_load_conc`; `l ≠ 0`). -/
noncomputable def concF (v : Vec 7) (l : ℝ) : Vec 12 :=
  let a := l * v 6
  let b := l * (1 - v 6)
  ![v 0 * b / l,
    v 1 * b * b * (l + 2 * a) / l ^ 3 + v 5 * (-6 * a * b / l ^ 3),
    v 2 * b * b * (l + 2 * a) / l ^ 3 - v 4 * (-6 * a * b / l ^ 3),
    v 3 * b / l,
    -v 2 * a * b * b / l / l + v 4 * (-b * (3 * a - l) / l / l),
    v 1 * a * b * b / l / l + v 5 * (-b * (3 * a - l) / l / l),
    v 0 * a / l,
    v 1 * a * a * (l + 2 * b) / l ^ 3 - v 5 * (-6 * a * b / l ^ 3),
    v 2 * a * a * (l + 2 * b) / l ^ 3 + v 4 * (-6 * a * b / l ^ 3),
    v 3 * a / l,
    v 2 * a * a * b / l / l + v 4 * (-a * (3 * b - l) / l / l),
    -v 1 * a * a * b / l / l + v 5 * (-a * (3 * b - l) / l / l)]

/-- `LoadPattern.get_beam_f` pattern.py 56-140. -/
noncomputable def LoadPattern.getBeamF (p : LoadPattern) (beam : String) (l : ℝ) : Vec 12 :=
  let r : Vec 12 := fun _ => 0
  let r := match p.beamDist.get? beam with
    | some v => r + distF v l
    | none => r
  match p.beamConc.get? beam with
    | some v => r + concF v l
    | none => r

/-- Reference to a `LoadPattern` object. -/
abbrev PatRef := ℕ
/-- All `LoadPattern` objects ever created; objects are never freed. -/
abbrev PatHeap := List LoadPattern

/-- Dereference.  (References handed out by the API are always valid; the error branch is unreachable.) -/
def PatHeap.deref (h : PatHeap) (r : PatRef) : Except PyErr LoadPattern :=
  match h[r]? with
  | some p => .ok p
  | none => .error .exception

/-- The subclass of a load case, loadcase.py 7, 55, 98, 120. -/
inductive CaseKind
  | static
  | modal
  | responseSpectrum
  | timeHistory
  deriving DecidableEq

/-- `LoadCase` load/__init__.py 7-13 with the subclass tag.  A load curve is a 2-row array; only
row 1 is read, so only this row is stored. -/
structure LoadCase where
  name : String
  kind : CaseKind
  pattern : Dict PatRef
  loadFactor : Dict ℝ
  loadCurve : Dict (List ℝ)
  restraint : Dict Flags

namespace LoadCase

/-- `StaticCase(name)` / `ModalCase(name)` loadcase.py 8-11, 56-63. -/
def new (name : String) (kind : CaseKind) : LoadCase := ⟨name, kind, [], [], [], []⟩

/-- `LoadCase.add_pattern` load/__init__.py 19-25; `pname` is `pattern.name`.  Default curve
`[[0,1],[1,1]]`. -/
def addPattern (c : LoadCase) (pname : String) (ref : PatRef) (factor : ℝ)
    (curve : Option (List ℝ) := none) : LoadCase :=
  { c with
    pattern := c.pattern.set pname ref
    loadFactor := c.loadFactor.set pname factor
    loadCurve := c.loadCurve.set pname (curve.getD [1, 1]) }

/-- `set_pattern_factor` load/__init__.py 32-33. -/
def setPatternFactor (c : LoadCase) (pname : String) (factor : ℝ) : LoadCase :=
  { c with loadFactor := c.loadFactor.set pname factor }

/-- `set_nodal_restraint` load/__init__.py 35-36. -/
def setNodalRestraint (c : LoadCase) (node : String) (f : Flags) : LoadCase :=
  { c with restraint := c.restraint.set node f }

/-- `get_max_min_step` load/__init__.py 44-50; the initial minimum 1e20 is `none`. -/
def getMaxMinStep (c : LoadCase) : ℕ × Option ℕ :=
  c.loadCurve.values.foldl
    (fun acc v => (max acc.1 v.length,
      match acc.2 with | none => some v.length | some m => some (min m v.length))) (0, none)

/-- `curve[1, i]` -/
def curveAt (curve : List ℝ) (i : ℕ) : Except PyErr ℝ :=
  match curve[i]? with
  | some v => .ok v
  | none => .error .indexError

/-- `get_nodal_f` load/__init__.py 63-71. -/
def getNodalF (h : PatHeap) (c : LoadCase) (node : String) (timeStep : ℕ := 0) :
    Except PyErr (Vec 6) :=
  c.loadFactor.foldlM (fun fn (it : String × ℝ) => do
    let ref ← c.pattern.getItem it.1
    let pat ← h.deref ref
    match pat.getNodalF node with
    | none => pure fn
    | some f => do
        let curve ← c.loadCurve.getItem it.1
        let s ← curveAt curve timeStep
        pure (fn + fun i => f i * it.2 * s)) (fun _ => 0)

/-- `get_beam_f` load/__init__.py 133-141 (no load curve here). -/
noncomputable def getBeamF (h : PatHeap) (c : LoadCase) (beam : String) (l : ℝ) :
    Except PyErr (Vec 12) :=
  c.loadFactor.foldlM (fun fe (it : String × ℝ) => do
    let ref ← c.pattern.getItem it.1
    let pat ← h.deref ref
    let f := pat.getBeamF beam l
    pure (fe + fun i => f i * it.2)) (fun _ => 0)

/-- inner loop of `get_nodal_f_dict` load/__init__.py 95-99: the first load of a node only
initialises its entry with zeros. -/
def nodalFDictStep (factor : ℝ) (res : Dict (Vec 6)) (it : String × Vec 6) : Dict (Vec 6) :=
  match res.get? it.1 with
  | some cur => res.set it.1 (cur + fun i => it.2 i * factor)
  | none => res.set it.1 (fun _ => 0)

/-- `get_nodal_f_dict` load/__init__.py 91-100. -/
def getNodalFDict (h : PatHeap) (c : LoadCase) : Except PyErr (Dict (Vec 6)) :=
  c.pattern.foldlM (fun res (it : String × PatRef) => do
    let pat ← h.deref it.2
    -- `self.__load_factor[patname]` is evaluated only when a node is already present
    pat.getNodalFDict.foldlM (fun res (nl : String × Vec 6) =>
      match res.get? nl.1 with
      | some _ => do
          let fac ← c.loadFactor.getItem it.1
          pure (nodalFDictStep fac res nl)
      | none => pure (nodalFDictStep 0 res nl)) res) []

/-- `get_nodal_f_time_history` load/__init__.py 73-89: rows of a (max_length x 6) array.  numpy
broadcasting adds a (k x 6) array to a (n x 6) array only for `k = n` or `k = 1`. -/
def getNodalFTimeHistory (h : PatHeap) (c : LoadCase) (node : String) :
    Except PyErr (List (Vec 6)) :=
  let maxLength := c.loadCurve.values.foldl (fun m v => max v.length m) 0
  c.loadFactor.foldlM (fun fn (it : String × ℝ) => do
    let ref ← c.pattern.getItem it.1
    let pat ← h.deref ref
    let curve ← c.loadCurve.getItem it.1
    match pat.getNodalF node with
    | none => pure fn
    | some f =>
        let outer : List (Vec 6) := curve.map (fun s => fun i => s * f i * it.2)
        if outer.length = fn.length then pure (List.zipWith (fun a b => a + b) fn outer)
        else match outer with
          | [row] => pure (fn.map (fun a => a + row))
          | _ => .error .valueError) (List.replicate maxLength (fun _ => 0))

end LoadCase
end Hyperstatic
