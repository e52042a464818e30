import Verif.Model.Post

/-
Model of hyperstatic/core/__init__.py (class `Api`).
-/

namespace Hyperstatic

/-- State of an `Api` object, core/__init__.py 22-40.  `heap` holds all pattern objects. -/
structure Api where
  model : FeModel
  loadcases : Dict LoadCase
  loadpatterns : Dict PatRef
  heap : PatHeap

namespace Api

/-- `Api.__init__` core/__init__.py 22-40 (with an existing or creatable work path). -/
def init : Api := ⟨FeModel.empty, [], [], []⟩

/-- `self.__filename` core/__init__.py 28. -/
def filename : String := ".asb"

end Api

/-- An `Api` object together with the files of its work path. -/
structure World where
  api : Api
  fs : Dict (File Api)

/-- A fresh `Api` on an empty work path. -/
def World.init : World := ⟨Api.init, []⟩

/-- The state-changing calls of `Api` (core/__init__.py), arguments in the order of the Python signatures. -/
inductive Call
  | addNode (name : String) (x y z : ℝ)
  | setNodalMass (name : String) (mass : Vec 6)
  | addIsotropicMaterial (name : String) (rho E mu a : ℝ)
  | addBeamSectionGeneral (name material : String) (A As2 As3 I22 I33 J W22 W33 : ℝ)
  | addBeamSectionRectangle (name material : String) (h b : ℝ)
  | addBeamSectionI (name material : String) (h b tw tf : ℝ)
  | addBeamSectionBox (name material : String) (h b tw tf : ℝ)
  | addBeamSectionCircle (name material : String) (d : ℝ)
  | addShellSection (name material : String) (t : ℝ) (eleType : String)
  | addBeamSectionPipe (name material : String) (d t : ℝ)
  | addBeam (name start stop sec : String)
  | addSimpleBeam (name start stop : String) (E mu A I2 I3 J rho : ℝ)
  | setBeamRelease (name : String) (rel : Fin 12 → Bool)
  /-- the last argument may be Python's `None` -/
  | addShell (name node1 node2 node3 node4 : String) (sec : Option String)
  | addLoadpattern (name : String)
  | setNodalRestraint (node : String) (flags : Flags)
  | setLoadcaseNodalRestraint (case node : String) (flags : Flags)
  | setNodalLoad (pattern node : String) (f : Vec 6)
  | setBeamLoadDistributed (pattern beam : String) (pi pj qi2 qj2 qi3 qj3 ti tj : ℝ)
  | setBeamLoadConcentrated (pattern beam : String) (F1 F2 F3 M1 M2 M3 r : ℝ)
  | addStaticCase (name : String)
  | addModalCase (name : String)
  | addCasePattern (case pattern : String) (factor : ℝ)
  | assemble
  | solveStatic (case : String)
  | solveModal (case : String) (num : ℕ)
  | save (filename : String)
  | load (filename : String)
  | clearWorkspace

namespace Api

/-- Apply a function to a pattern object of the table (`self.__loadpatterns[pattern].set_...`,
core/__init__.py 610, 673, 698). -/
def updPattern (a : Api) (pattern : String) (g : LoadPattern → LoadPattern) : Except PyErr Api := do
  let ref ← a.loadpatterns.getItem pattern
  let p ← a.heap.deref ref
  return { a with heap := a.heap.set ref (g p) }

/-- The editing methods as functions that may raise: the bodies inside the `try` blocks. -/
noncomputable def edit (a : Api) : Call → Except PyErr Api
  -- core/__init__.py 107-109
  | .addNode name x y z => do
      let (m, _) ← a.model.addNode name x y z
      return { a with model := m }
  -- core/__init__.py 176-178
  | .setNodalMass name mass => do
      let m ← a.model.setNodalMass name mass
      return { a with model := m }
  -- core/__init__.py 196-198
  | .addIsotropicMaterial name rho E mu al =>
      return { a with model := a.model.addMaterial name rho E mu al }
  -- core/__init__.py 221-223
  | .addBeamSectionGeneral name material A As2 As3 I22 I33 J W22 W33 => do
      let m ← a.model.addBeamSection name material
        (fun mat => .ok (generalSection name mat A As2 As3 I22 I33 J W22 W33))
      return { a with model := m }
  -- core/__init__.py 240-242
  | .addBeamSectionRectangle name material h b => do
      let m ← a.model.addBeamSection name material (fun mat => rectangleSection name mat h b)
      return { a with model := m }
  -- core/__init__.py 261-263
  | .addBeamSectionI name material h b tw tf => do
      let m ← a.model.addBeamSection name material (fun mat => iSection name mat h b tw tf)
      return { a with model := m }
  -- core/__init__.py 282-284
  | .addBeamSectionBox name material h b tw tf => do
      let m ← a.model.addBeamSection name material (fun mat => boxSection name mat h b tw tf)
      return { a with model := m }
  -- core/__init__.py 300-302
  | .addBeamSectionCircle name material d => do
      let m ← a.model.addBeamSection name material (fun mat => circleSection name mat d)
      return { a with model := m }
  -- core/__init__.py 319-321
  | .addShellSection name material t eleType => do
      let m ← a.model.addShellSection name material t eleType
      return { a with model := m }
  -- core/__init__.py 338-340: calls add_beam_section_rectangle(name,material,d,t)
  | .addBeamSectionPipe name material d t => do
      let m ← a.model.addBeamSection name material (fun mat => rectangleSection name mat d t)
      return { a with model := m }
  -- core/__init__.py 357-359
  | .addBeam name start stop sec => do
      let (m, _) ← a.model.addBeam name start stop sec
      return { a with model := m }
  -- core/__init__.py 384-386
  | .addSimpleBeam name start stop E mu A I2 I3 J rho => do
      let (m, _) ← a.model.addSimpleBeam name start stop E mu A I2 I3 J rho
      return { a with model := m }
  -- core/__init__.py 456-458
  | .setBeamRelease name rel => do
      let m ← a.model.setBeamReleases name rel
      return { a with model := m }
  -- core/__init__.py 477-479: model.add_shell(name,section,node0,node1,node2,node3) is called with
  -- (name,node1,node2,node3,node4,section)
  | .addShell name node1 node2 node3 node4 sec => do
      let (m, _) ← a.model.addShell name node1 node2 node3 node4 sec
      return { a with model := m }
  -- core/__init__.py 535-537
  | .addLoadpattern name =>
      return { a with
        heap := a.heap ++ [LoadPattern.new name]
        loadpatterns := a.loadpatterns.set name a.heap.length }
  -- core/__init__.py 559-561: the result of model.set_nodal_restraint is ignored
  | .setNodalRestraint node flags =>
      return { a with model := (a.model.setNodalRestraint node flags).1 }
  -- core/__init__.py 584-586
  | .setLoadcaseNodalRestraint case node flags => do
      let lc ← a.loadcases.getItem case
      return { a with loadcases := a.loadcases.set case (lc.setNodalRestraint node flags) }
  -- core/__init__.py 609-611
  | .setNodalLoad pattern node f => a.updPattern pattern (fun p => p.setNodalLoad node f)
  -- core/__init__.py 672-674
  | .setBeamLoadDistributed pattern beam pi pj qi2 qj2 qi3 qj3 ti tj =>
      a.updPattern pattern (fun p => p.setBeamLoadDist beam pi pj qi2 qj2 qi3 qj3 ti tj)
  -- core/__init__.py 697-699
  | .setBeamLoadConcentrated pattern beam F1 F2 F3 M1 M2 M3 r =>
      a.updPattern pattern (fun p => p.setBeamLoadConc beam F1 F2 F3 M1 M2 M3 r)
  -- core/__init__.py 713-715
  | .addStaticCase name =>
      return { a with loadcases := a.loadcases.set name (LoadCase.new name .static) }
  -- core/__init__.py 730-732
  | .addModalCase name =>
      return { a with loadcases := a.loadcases.set name (LoadCase.new name .modal) }
  -- core/__init__.py 748-752
  | .addCasePattern case pattern factor => do
      let lc ← a.loadcases.getItem case
      let ref ← a.loadpatterns.getItem pattern
      let pat ← a.heap.deref ref
      return { a with loadcases := a.loadcases.set case (lc.addPattern pat.name ref factor) }
  -- not editing calls; see `World.step`
  | .assemble => return a
  | .solveStatic _ => return a
  | .solveModal _ _ => return a
  | .save _ => return a
  | .load _ => return a
  | .clearWorkspace => return a

/-- `Assembly(model,lc)` in `assemble`, core/__init__.py 764-767. -/
def assembly (a : Api) : Except PyErr Assembly := Assembly.mk? a.model a.loadcases.values a.heap

end Api

namespace World

/-- One API call: the new world and the returned truth value. -/
noncomputable def step (env : Env) (w : World) : Call → World × Bool
  -- core/__init__.py 757-772, assembly.py 310-314
  | .assemble =>
      match w.api.assembly with
      | .ok asb => ({ w with fs := w.fs.set Api.filename (.asb asb) }, true)
      | .error _ => (w, false)
  -- core/__init__.py 774-794
  | .solveStatic case =>
      let r := solveLinear env w.fs Api.filename case
      ({ w with fs := r.1 }, tryBool r.2)
  -- core/__init__.py 796-814: `solver.solve_eigen(casename,num)`, defined as `solve_eigen(self,casename)` (dynamic.py 35).
  -- The body of solve_eigen is not part of this model.
  | .solveModal _ _ =>
      (w, tryBool (do
        let _ ← openAssembly w.fs Api.filename
        checkArity 1 2))
  -- core/__init__.py 43-58
  | .save filename => ({ w with fs := w.fs.set (filename ++ ".sep") (.sep w.api) }, true)
  -- core/__init__.py 60-74, `api = Api.load(workpath, filename)` when the result is not None
  | .load filename =>
      match w.fs.get? (filename ++ ".sep") with
      | some (.sep a) => ({ w with api := a }, true)
      | _ => (w, false)
  -- core/__init__.py 76-93: `os.remove(workpath)`, then `os.mkdir(workpath)`
  | .clearWorkspace =>
      match osRemove .directory with
      | .ok _ => ({ w with fs := [] }, true)
      | .error _ => (w, false)
  | c =>
      match w.api.edit c with
      | .ok a => ({ w with api := a }, true)
      | .error _ => (w, false)

/-- A history of calls. -/
noncomputable def run (env : Env) (w : World) (cs : List Call) : World :=
  cs.foldl (fun w c => (w.step env c).1) w

/-! Queries -/

/-- `get_node_names` core/__init__.py 114-124. -/
def getNodeNames (w : World) : List String := w.api.model.nodes.keys
/-- `get_node_location` core/__init__.py 126-139. -/
def getNodeLocation (w : World) (name : String) : Option V3 := tryOption (w.api.model.getNodeLocation name)
/-- `get_node_restraints(casename)` core/__init__.py 141-157. -/
def getNodeRestraints (w : World) (case : Option String) : Option (Dict Flags) :=
  match case with
  | none => some w.api.model.restraints
  | some c => tryOption (do
      let lc ← w.api.loadcases.getItem c
      return lc.restraint)
/-- `get_beam_names` core/__init__.py 391-401. -/
def getBeamNames (w : World) : List String := w.api.model.beams.keys
/-- `get_beam_node_names` core/__init__.py 403-416. -/
def getBeamNodeNames (w : World) (b : String) : Option (String × String) :=
  tryOption (w.api.model.getBeamConnection b)
/-- `get_beam_location` core/__init__.py 418-431. -/
def getBeamLocation (w : World) (b : String) : Option (V3 × V3) :=
  tryOption (w.api.model.getBeamLocation b)
/-- `get_shell_names` core/__init__.py 484-494. -/
def getShellNames (w : World) : List String := w.api.model.shells.keys
/-- `get_shell_node_names` core/__init__.py 496-509. -/
def getShellNodeNames (w : World) (s : String) : Option (String × String × String × String) :=
  tryOption (w.api.model.getShellConnection s)
/-- `get_shell_location` core/__init__.py 511-524. -/
def getShellLocation (w : World) (s : String) : Option (V3 × V3 × V3 × V3) :=
  tryOption (w.api.model.getShellLocation s)
/-- `get_nodal_load` core/__init__.py 616-635 (`tuple(None)` raises, so `None` for a node without load). -/
def getNodalLoad (w : World) (pattern node : String) : Option (Vec 6) :=
  tryOption (do
    let ref ← w.api.loadpatterns.getItem pattern
    let p ← w.api.heap.deref ref
    match p.getNodalF node with
    | some f => return f
    | none => .error .typeError)
/-- `get_all_nodal_load` core/__init__.py 637-651. -/
def getAllNodalLoad (w : World) (pattern : String) : Option (Dict (Vec 6)) :=
  tryOption (do
    let ref ← w.api.loadpatterns.getItem pattern
    let p ← w.api.heap.deref ref
    return p.getNodalFDict)
/-- `result_get_structural_reaction/period/vibration_mode` core/__init__.py 816-844: always `None`. -/
def resultGetStructural (_w : World) (_case : String) : Option (List ℝ) := none
/-- `result_get_nodal_reaction` core/__init__.py 846-863. -/
def resultGetNodalReaction (w : World) (node case : String) : Option (List ℝ) :=
  tryOption (resolveNodalReaction w.fs Api.filename node case)
/-- `result_get_nodal_displacement` core/__init__.py 865-882. -/
def resultGetNodalDisplacement (w : World) (node case : String) : Option (List ℝ) :=
  tryOption (resolveNodalDisplacement w.fs Api.filename node case)
/-- `result_get_all_nodal_displacement` core/__init__.py 884-900: the node names are those of the current
model, everything else comes from the files. -/
def resultGetAllNodalDisplacement (w : World) (case : String) : Option (Dict (List ℝ)) :=
  tryOption (do
    let _ ← openAssembly w.fs Api.filename
    let ps ← w.getNodeNames.mapM (fun n => do
      let d ← resolveNodalDisplacement w.fs Api.filename n case
      return (n, d))
    return ps)
/-- `result_get_beam_end_force` core/__init__.py 902-919. -/
def resultGetBeamEndForce (w : World) (beam case : String) : Option (List ℝ) :=
  tryOption (resolveBeamEndForce w.fs Api.filename beam case)
/-- `result_get_beam_deformation` core/__init__.py 921-939. -/
noncomputable def resultGetBeamDeformation (w : World) (beam : String) (loc : ℝ) (case : String) :
    Option (Vec 6) :=
  tryOption (resolveBeamDeformation w.fs Api.filename beam loc case)

end World
end Hyperstatic
