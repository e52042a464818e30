import Verif.Model.Api

/-
The scripts shipped with the library: README.md 28-75 (also doc/source/quickstart.md and example/core/static/cantilerver_beam.py),
example/core/static/simply_supported_beam.py and example/core/dynamic/cantilever_beam.py, with arbitrary numbers in place of those written there.

Simplified: `Api(path)` is a fresh api with an empty folder (`World.init`); what is printed is the number, not its six decimals; the truth values that
the calls return are ignored, as the scripts do.
-/

namespace Hyperstatic

/-- The methods of `Api`, core/__init__.py 22-921. -/
def apiMethods : List String :=
  ["save", "load", "clear_workspace", "add_node", "get_node_names", "get_node_location", "get_node_restraints", "set_nodal_mass",
    "add_isotropic_material", "add_beam_section_general", "add_beam_section_rectangle", "add_beam_section_I", "add_beam_section_box",
    "add_beam_section_circle", "add_shell_section", "add_beam_section_pipe", "add_beam", "add_simple_beam", "get_beam_names",
    "get_beam_node_names", "get_beam_location", "set_beam_release", "add_shell", "get_shell_names", "get_shell_node_names", "get_shell_location",
    "add_loadpattern", "set_nodal_restraint", "set_loadcase_nodal_restraint", "set_nodal_load", "get_nodal_load", "get_all_nodal_load",
    "set_beam_load_distributed", "set_beam_load_concentrated", "add_static_case", "add_modal_case", "add_case_pattern", "assemble",
    "solve_static", "solve_modal", "result_get_structural_reaction", "result_get_structural_period", "result_get_structural_vibration_mode",
    "result_get_nodal_reaction", "result_get_nodal_displacement", "result_get_all_nodal_displacement", "result_get_beam_end_force",
    "result_get_beam_deformation"]

/-- The numbers of a script: span, section and material, load. -/
structure ScriptData where
  L : ℝ
  E : ℝ
  mu : ℝ
  A : ℝ
  I2 : ℝ
  I3 : ℝ
  J : ℝ
  rho : ℝ
  F : ℝ

namespace ScriptData

/-- `print("..."%d[2])`, where `d` may be `None`. -/
def printed (d : Option (List ℝ)) : Except PyErr ℝ :=
  match d with
  | none => .error .typeError
  | some l => match l[2]? with
    | some x => .ok x
    | none => .error .indexError

/-- README.md 44-61: the node, beam, pattern, load, case and restraint; the load is set with the method `method` (`set_nodal_force` in the file). -/
noncomputable def cantilever (s : ScriptData) : List Call :=
  [.addNode "A" 0 0 0, .addNode "B" s.L 0 0, .addSimpleBeam "b" "A" "B" s.E s.mu s.A s.I2 s.I3 s.J s.rho, .addLoadpattern "pat1",
    .setNodalLoad "pat1" "B" ![0, 0, s.F, 0, 0, 0], .addStaticCase "case1", .addCasePattern "case1" "pat1" 1,
    .setLoadcaseNodalRestraint "case1" "A" (fun _ => true)]

/-- README.md: the whole script.  An attribute that does not exist stops it. -/
noncomputable def quickstart (s : ScriptData) (env : Env) (method : String) : Except PyErr ℝ := do
  checkAttr apiMethods method
  let w := World.init.run env s.cantilever
  let w := (w.step env .assemble).1
  let w := (w.step env (.solveStatic "case1")).1
  printed (w.resultGetNodalDisplacement "B" "case1")

/-- example/core/dynamic/cantilever_beam.py: `api.solve_modal("case1")`, defined as `solve_modal(self,casename,num)`; the call is not inside a `try`. -/
noncomputable def modal (s : ScriptData) (env : Env) (method : String) : Except PyErr ℝ := do
  checkAttr apiMethods method
  let w := World.init.run env s.cantilever
  let w := (w.step env .assemble).1
  checkArity 2 1
  printed (w.resultGetNodalDisplacement "B" "case1")

/-- simply_supported_beam.py 14-19 and 40-44: the two beams. -/
noncomputable def spans (s : ScriptData) : List Call :=
  [.addNode "A" 0 0 0, .addNode "B" (s.L / 2) 0 0, .addNode "C" s.L 0 0,
    .addSimpleBeam "b1" "A" "B" s.E s.mu s.A s.I2 s.I3 s.J s.rho, .addSimpleBeam "b2" "B" "C" s.E s.mu s.A s.I2 s.I3 s.J s.rho]

/-- simply_supported_beam.py 22-28 and 50-53: the load and the case. -/
noncomputable def spanLoad (s : ScriptData) : List Call :=
  [.addLoadpattern "pat1", .setNodalLoad "pat1" "B" ![0, 0, s.F, 0, 0, 0], .addStaticCase "case1", .addCasePattern "case1" "pat1" 1]

/-- simply_supported_beam.py 46-48: `set_beam_release("b1",r2i=True,r3i=True)` and `set_beam_release("b2",r2j=True,r3j=True)`. -/
def releases : List Call :=
  [.setBeamRelease "b1" (fun k => decide (k = 4 ∨ k = 5)), .setBeamRelease "b2" (fun k => decide (k = 10 ∨ k = 11))]

/-- simply_supported_beam.py 11-36: supports that hold the translations.  There is no `assemble`, and the arguments of the last call are the case and
the node, while the method takes the node first. -/
noncomputable def supported (s : ScriptData) (env : Env) (method : String) : Except PyErr ℝ := do
  checkAttr apiMethods method
  let w := World.init.run env (s.spans ++ s.spanLoad ++ [.setLoadcaseNodalRestraint "case1" "A" (fun r => decide (r < 3)),
    .setLoadcaseNodalRestraint "case1" "C" (fun r => decide (r < 3))])
  let w := (w.step env (.solveStatic "case1")).1
  printed (w.resultGetNodalDisplacement "case1" "B")

/-- the calls of simply_supported_beam.py 39-56: clamped supports and released ends -/
noncomputable def releasedCalls (s : ScriptData) : List Call :=
  s.spans ++ releases ++ s.spanLoad ++ [.setLoadcaseNodalRestraint "case1" "A" (fun _ => true), .setLoadcaseNodalRestraint "case1" "C" (fun _ => true)]

/-- simply_supported_beam.py 38-66: the second part, "should agree with simple supports". -/
noncomputable def released (s : ScriptData) (env : Env) (method : String) : Except PyErr ℝ := do
  checkAttr apiMethods method
  let w := World.init.run env s.releasedCalls
  let w := (w.step env .assemble).1
  let w := (w.step env (.solveStatic "case1")).1
  printed (w.resultGetNodalDisplacement "B" "case1")

end ScriptData

end Hyperstatic
