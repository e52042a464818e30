import Verif.Model.Load

/-
The remaining queries of load case objects, hyperstatic/core/fe_model/load/__init__.py, and pattern and case objects used directly,
without the Api.
-/

namespace Hyperstatic

namespace LoadCase

/-- `get_nodal_d_dict` load/__init__.py 121-130: like `get_nodal_f_dict`, the first entry of a node is zeroed. -/
def getNodalDDict (h : PatHeap) (c : LoadCase) : Except PyErr (Dict (Vec 6)) :=
  c.pattern.foldlM (fun res (it : String × PatRef) => do
    let pat ← h.deref it.2
    pat.getNodalDDict.foldlM (fun res (nl : String × Vec 6) =>
      match res.get? nl.1 with
      | some _ => do
          let fac ← c.loadFactor.getItem it.1
          pure (nodalFDictStep fac res nl)
      | none => pure (nodalFDictStep 0 res nl)) res) []

/-- `get_beam_f_dict` load/__init__.py 143-152: the class `LoadPattern` has no method `get_beam_f_dict`. -/
def getBeamFDict (c : LoadCase) : Except PyErr (Dict (Vec 6)) :=
  match c.pattern with
  | [] => .ok []
  | _ :: _ => .error .attributeError

/-- `get_nodal_f_time_history_dict` load/__init__.py 102-119: the loop unpacks the *keys* of the table of curves; a name of two letters can
be unpacked, but a letter has no `shape`.  Without curves, a factor set without pattern fails at `self.__pattern[patname]`. -/
def getNodalFTimeHistoryDict (c : LoadCase) : Except PyErr (Dict (List (Vec 6))) :=
  match c.loadCurve with
  | (k, _) :: _ => if k.length = 2 then .error .attributeError else .error .valueError
  | [] =>
    match c.loadFactor with
    | [] => .ok []
    | _ :: _ => .error .keyError

end LoadCase

/-- What a program does with pattern objects and one case object.  A pattern object is referred to by its position in the order of
creation. -/
inductive CaseOp
  /-- `LoadPattern(name)` -/
  | newPattern (name : String)
  /-- `set_nodal_load` -/
  | nodalLoad (r : ℕ) (node : String) (f : Vec 6)
  /-- `set_nodal_disp` -/
  | nodalDisp (r : ℕ) (node : String) (u : Vec 6)
  /-- `set_beam_load_dist` -/
  | lineLoad (r : ℕ) (beam : String) (pi pj qi2 qj2 qi3 qj3 ti tj : ℝ)
  /-- `set_beam_load_conc` -/
  | pointLoad (r : ℕ) (beam : String) (F1 F2 F3 M1 M2 M3 ra : ℝ)
  /-- `add_pattern` of the case -/
  | add (r : ℕ) (v : ℝ) (curve : Option (List ℝ))
  /-- `set_pattern_factor` of the case -/
  | setFactor (name : String) (v : ℝ)
  /-- `set_nodal_restraint` of the case -/
  | hold (node : String) (f : Flags)

/-- One step, pattern.py 5-26 and load/__init__.py 19-36.  A program cannot refer to an object it has not created; such a step does
nothing. -/
noncomputable def CaseOp.step (s : PatHeap × LoadCase) : CaseOp → PatHeap × LoadCase
  | .newPattern name => (s.1 ++ [LoadPattern.new name], s.2)
  | .nodalLoad r n f => (s.1.modify r fun p => p.setNodalLoad n f, s.2)
  | .nodalDisp r n u => (s.1.modify r fun p => p.setNodalDisp n u, s.2)
  | .lineLoad r b pi pj qi2 qj2 qi3 qj3 ti tj => (s.1.modify r fun p => p.setBeamLoadDist b pi pj qi2 qj2 qi3 qj3 ti tj, s.2)
  | .pointLoad r b F1 F2 F3 M1 M2 M3 ra => (s.1.modify r fun p => p.setBeamLoadConc b F1 F2 F3 M1 M2 M3 ra, s.2)
  | .add r v curve => match s.1[r]? with
    | some p => (s.1, s.2.addPattern p.name r v curve)
    | none => s
  | .setFactor name v => (s.1, s.2.setPatternFactor name v)
  | .hold n f => (s.1, s.2.setNodalRestraint n f)

/-- A program. -/
noncomputable def CaseOp.run (name : String) (kind : CaseKind) (ops : List CaseOp) : PatHeap × LoadCase :=
  ops.foldl CaseOp.step ([], LoadCase.new name kind)

end Hyperstatic
