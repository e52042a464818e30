# Formal model of Hyperstatic in Lean 4 — design

Source: `/repo` (read only).  Lean project: `lean/`, library root `lean/Verif.lean`.

## 1. Layout

| directory | content |
|---|---|
| `Verif/Model/*.lean` | the model: one Lean definition per Python function, each with a `file:lines` citation and a note of every simplification |
| `Verif/Spec/*.lean` | small independent vocabulary used in the property statements (what "orthonormal", "virtual work", "last write" ... mean), no reference to the model's helpers |
| `Verif/Lemmas/*.lean` | proofs' helper lemmas |
| `Verif/Props/*.lean` | the property theorems, one section per property id, each followed by an `example` showing that its hypotheses are met by a concrete non-trivial case |

## 2. Modelling decisions

* **Numbers.** Python/numpy floats are modelled by the real numbers `ℝ` (rounding, overflow, NaN and
  signed zero are not modelled).  Python `float / 0` raises `ZeroDivisionError`; where the code divides Python
  floats the model has an explicit error branch.  numpy divisions by zero give NaN/inf instead; the model marks
  such places (degenerate shells) with an undefined frame instead of Lean's `x / 0 = 0`.
* **Exceptions** are values: `Except PyErr α`.  Every `Api` method is a `try … except Exception` wrapper, modelled
  as the conversion of an error to `False`/`None`.
* **`dict`** is an insertion-ordered association list (`Dict`), assignment updates in place or appends, as in CPython.
* **Object identity** matters only for `LoadPattern` (shared by the API's pattern table and by load cases), which
  lives in an explicit heap addressed by references.  `Node`, section and material objects are immutable except for
  the nodal mass, which only `Model.nodes` is read for, so they are modelled by value.
* **Files.**  The work path is a flat map from file names to contents; file names are real strings, so that the
  `np.save` suffix behaviour (`0.k` is written as `0.k.npy`) is visible.  Pickling is a deep copy.  File system
  errors and path separators in names are not modelled; several sessions and processes that die are in `Model/Office` only.
* **Sparse matrices** are COO triplet lists with a shape; duplicates add up, constructing one with an index
  outside the shape raises, as in SciPy.
* **External numerics** are parameters of the theorems (structure `Env`), not axioms: `spsolve` (only assumed to
  return a solution when the matrix is non-singular), the shell stiffness integrals (quadpy/sympy generated code).
* scipy `Rotation.from_quat/apply` are modelled by the normalised quaternion rotation formula.

## 3. What is modelled, what is not

| source (under `/repo/hyperstatic`) | model file | modelled | not modelled |
|---|---|---|---|
| `common/csys.py`, `common/tolerance.py` | `Model/Csys` | constructor, `create_by_normal`, all rotations, `align_with_global`, `set_by_3pts`, default tolerance | names/uuids; other tolerances are in `Model/Tolerance` |
| `core/__init__.py` | `Model/Api` | all methods of `Api` | logging |
| `core/fe_model/model.py` | `Model/FeModel`, `Model/Find` | all methods the API reaches, `check_dup` branches, `find` | mass source, constraints never used |
| `core/fe_model/node.py` | `Model/Beam` (`Node`), `Model/ElementObject` | location, mass, local system, its rotations and reset (no API call) | nothing |
| `core/fe_model/assembly.py` | `Model/Assembly`, `Model/Cases` | stiffness, mass (also the branch for a case), load vector, boundary reduction, restraint list, file | `assemble_KG`, prestress |
| `core/fe_model/load/*` | `Model/Load`, `Model/Cases`, `Model/CaseObject` | patterns, cases and their settings, curves, equivalent beam loads, time history, objects used without the Api | load combinations |
| `core/fe_model/section/*`, `material/isotropy.py` | `Model/Section` | five section classes and the general one, material constants | temperature, display sizes |
| `core/fe_model/element/line/*` | `Model/Beam`, `Model/ElementObject` | stiffness, both mass matrices, condensation, interpolation, frames, assignments to beam objects | `Link` (its constructor raises) |
| `core/fe_model/element/tria`, `quad` | `Model/Shell` | constructors, local systems, areas; triangles are reached by `add_shell` with `None` as last argument | display meshes |
| `core/fe_model/meta/membranes/{GQ12,T9}`, `plates/{metaDKQ,metaDKT}`, `element/quad/DKGQ.py`, `element/tria/DKT.py` | `Model/ShellK` | strain matrices as derivatives of the symbolic shape functions, constitutive matrices, quadrature sums, transformation to global axes; division by zero is an arbitrary matrix (`nan4`, `nan3`) | the weights and points of quadpy's schemes (an arbitrary list of weights and points) |
| `core/fe_model/meta/membranes/{GQ12,T9}/*.{c,pyx}`, `plates/{metaDKQ,metaDKT,TMQ}/*.{c,pyx}` | `Model/CompiledTria`, `Model/CompiledGQ12`, `Model/CompiledDKQ`, `Model/CompiledQuad`, `Model/CompiledTMQs`, `Model/CompiledTMQb`, `Model/CompiledThick` | every entry of the C arrays, copied mechanically with repeated expressions named, the order in which the arrays are filled, the stiffness of the shells from them | rounding of doubles (the constants 0.83333333333333337 and 0.41666666666666669 are read as 5/6 and 5/12), the compiler, the C file Cython makes of the wrapper |
| `core/fe_model/meta/plates/TMQ/__init__.py`, `element/quad/{TMQ,TMGQ}.py` | `Model/ThickPlate` | shear and bending strain matrices from the symbolic definition, both quadrature sums, the places of the components in the shell, transformation to global axes | quadpy's weights and points; no division by zero for convex shapes (C143 needs them convex) |
| `core/fe_model/element/quad/{GQ12,TMQ}.py` | `Model/SingleElement` | the elements on their own, from the corners to `T.T*K*T` | `element/tria/{T9,GT9}.py`, which always raise `TypeError` (wrong numbers of arguments) |
| `core/fe_solver/static.py` | `Model/Solver`, `Model/Solvers`, `Model/Cases` | `solve_linear` with the direct solver (`Model/Solver`) and with all its arguments (`Model/Solvers`), expansion loops of `solve_linear` and `solve_2nd_order`, `solve_2nd_order` (`Model/Cases`) | the libraries themselves (scipy, pypardiso, sksparse: parameters), the preconditioners (a parameter), `solve_3rd`, `solve_push_over`, `solve_buckling` (empty) |
| `core/fe_solver/dynamic.py` | `Model/Dynamic`, `Model/Response`, `Model/Cases` | the dispatch in `solve`, `solve_eigen`, direct time integration, Rayleigh damping, Newmark, Wilson; of the response spectrum solver (`Model/Response`) the reading of settings, periods, modal responses and both combinations | mode superposition; participation factors and interpolation of the spectrum (given numbers) |
| `core/fe_post/*` | `Model/Post`, `Model/Dynamic` | nodal displacement, beam deformation, reactions/end forces (always raise; the total reaction in `Model/Cases`), modal frequencies | mode shape export |
| `app/design/GB/seismic/spectrum.py`, `app/seismic/wave2spec.py` | `Model/Seismic` | `GB50010`, `GB50011_spectrum`, `amptitude`, `duhamel` (at least two times, 0 ≤ ζ < 1, ω > 0) | file reading, envelope `f`, wind factor, plots |
| `app/seismic/wave2spec.py` | `Model/Fourier` | `fft2spec` (nan and infinite numbers as `none`), `wave2spectrum` (bounds as for `duhamel`); the record is given as a list, Fourier transforms by their defining sums | rounding, `startline` (unused by the program) |
| `app/seismic/wave_selection.py` | `Model/Selection` | `square_err`, `select` (errors, order, champions, plotted spectra; the number in the file name is given) | mean curve, printing and drawing, order when an error is nan |
| `core/fe_model/meta/interpolate/*`, `common/curve.py` | `Model/Interp` | Hermite and Lagrange functions, sine and cosine curves | symbolic manipulation by sympy, rounding in `np.arange` |
| `core/fe_model/meta/beams/beam_eular`, `meta/isotropy.py` | `Model/Meta` | `K`, `M`, the elasticity tensor | symbolic manipulation and code generation by sympy |
| `app/general` (db.py, orm.py, environment, property, object, load) | `Model/General` | every editing and reading function, as functions of a session; the SQLAlchemy session as a machine with committed state, transaction, pending objects and failed flushes; open, save, close and crashes | `Model.__init__` (raises), `mesh` and `run` apart from what they read of restraints and loads, `io`, tables no function writes |
| `app/general/result/result.py`, start of `run` in `app/general/model.py` | `Model/Results` | the four readers of results on given tables; the statement of `run` at which it raises | writing of the tables, which is never reached; null entries |
| `app/scripts/grasshopper` | `Model/Grasshopper` | the components for points, curves, restraints, materials and general sections; `run/assemble.py`: merging, the calls it writes with six decimals, and running them | Rhino's geometry beyond points, the writing of the file and the subprocess, names with quotes, empty component files |
| `app/general/io/s2k.py` | `Model/S2k` | reading the text into tables (24-74), then the statement that raises (78) | everything after line 78, which is never reached; opening of the file |
| `app/general/io/dxf.py` | `Model/Dxf` | `import_dxf`, `export_dxf` on the list of entities of the drawing | ezdxf, opening and writing of the file |
| `core/__init__.py`, several objects | `Model/Office` | sessions with work paths, files left by a process that dies, `__workpath` of pickled objects, copies of folders | calls of different sessions that overlap in time (see `Model/Overlap`); names with path separators; relative paths |
| `core/__init__.py`, arrays handed out | `Model/Alias` | identity of the arrays of locations, restraints and nodal loads, and what writing into them does; all other models treat arrays as values, so their theorems are about scripts that do not write into returned arrays | arrays of other queries, which are made anew for each answer |
| `app/seismic/spec2wave.py` | `Model/Artificial` | everything that reaches the returned motion; the random phases are arbitrary numbers; numbers are reals, nan and infinity of numpy are `none` | the plots, the function `Sτ_` that nothing calls |
| `core/__init__.py`, several processes at once | `Model/Overlap` | every call as a sequence of file operations (read, empty, complete), any number of processes, any interleaving | reading of a file in pieces; two writers of one file (the last to complete it wins); copied folders |
| `app/viz/viz_core/{__init__,result_deformation,model_basic,model_load}.py` | `Model/Viewer` | the file read, nodes, beams, shells and supports drawn, the buttons and the slider as a machine, load arrows, size of the scene | vedo itself (assumptions at the head of the module), colours, camera |
| `app/viz/viz_core/{viz_core_model,viz_core_result_deformation}.py` | `Model/GhViewer` | the viewers that the scripts of `grasshopper/run/genviz.py` open: nodes, beams, shells, supports and arrows drawn, the buttons and the slider as a machine | as above; the scripts themselves (three lines each) and the buttons of `viz_core_model.py`, which only show and hide |
| `README.md`, `doc/source/quickstart.md`, `example/core/*` | `Model/Examples` | the scripts with arbitrary numbers | reading and printing of numbers |
| `core/__init__.py` with a failing disk | `Model/Trouble` | any file operation of a call may fail | partial writes that happen to be readable; folders that vanish |
| `common/logger.py` | `Model/Logger` | `info`, `write_file` | threads (each is waited for), files that exist and cannot be opened |
| `common/tolerance.py` with its setters | `Model/Tolerance` | the constructors of coordinate systems, lines, triangles and quadrilaterals with any tolerance | duplicate checks with other tolerances (no call of `Api` reaches them), `rel_tol` (read by nothing) |

Not modelled anywhere: the remaining GUI/plot code, logging, floating point rounding.  File system errors are modelled for `Api` (`Model/Trouble`), not for the desktop program and the exporters.

Parameters that stand for external code (universally quantified in the theorems, with explicit hypotheses where needed):
`Env.spsolve` (`SolverSound`: solves non-singular systems), `Env.triaK`, `Env.quadK` (C14–C29 state what they need of them,
`ShellsSymm`, `ShellsFree`, `ShellsPos`; `shellEnv` of `Model/ShellK` gives them the modelled values and C63–C68 prove those needs), `DynEnv.eigsh` (`EigSound`), `DynEnv.cg` (`CgSound`), `DynEnv.solve` (`SolveSound`).  `EigNearest` and `EigTotal` (C140) say that the values are the nearest to 0 and that `eigsh` returns.  Each hypothesis is shown
to be satisfiable by a concrete instance (`idealEnv_sound`, `exactCg_sound`, `pickEig_sound`, `idealEig_nearest`, `idealEig_total`).

Failures that Python raises before any statement of a body runs are modelled by small checks evaluated on the literal facts of the
source: `checkArity` (wrong number of arguments), `checkAttr` (attribute that does not exist after name mangling), `osRemove`
(`os.remove` of a directory).

## 4. Plan per property

| id | model | proof |
|---|---|---|
| C01 | `Model.add_node` with its `len(nodes)` numbering | false after re-adding a name: counterexample history; partial theorem for histories with distinct names (induction: numbers are 0..n-1 in order) |
| C02 | `Dict` registry | induction over histories, refinement to an abstract last-write map |
| C03 | every `Api` editing method | case analysis over all calls (no induction needed) |
| C04 | `Api.set_nodal_restraint` | false for unknown nodes: counterexample; partial for known nodes |
| C05 | `Line.__init__`, `Cartesian.__init__`, `Model.add_beam` | exact acceptance criterion with tolerance; negation of "distinct ends suffice" (near-vertical window); partial |
| C06 | beams keep the node object they were created with | counterexample by re-adding a node; partial by induction for distinct names |
| C07 | restraint dictionaries | induction over histories, refinement to last-write map |
| C08 | `Assembly.__init__` | induction over the restraint table |
| C09 | pattern heap | induction over histories |
| C10 | pattern heap, references in cases | counterexample for re-created patterns; partial by induction |
| C11 | `LoadCase.get_nodal_f`, `get_beam_f`, `assemble_f` | algebra over lists |
| C12 | `LoadCase.get_nodal_f_dict` | counterexample and exact characterisation |
| C13–C16 | `Assembly.assemble_K` on COO triplets | sums over lists; orthogonality of transforms; kernel lemma for beams |
| C17–C19 | drop/expand index loops | induction over index lists, order isomorphism with the free dofs |
| C20 | whole pipeline | combination of C13, C17–C19 in virtual-work form |
| C21 | the two restraint selections | counterexample for an all-`False` case table; partial otherwise |
| C22 | reduced matrix | positive semidefiniteness: zero energy iff kernel |
| C23 | name-level formulation of C20 + uniqueness C22 | uniqueness |
| C24–C28 | work path files | induction over histories / case analysis |
| C29 | C20 + C22 | linearity and uniqueness |
| C30, C31 | `Beam.integrate_K` | sum-of-squares identity; interval integrals |
| C32–C34 | `LoadPattern.get_beam_f` | algebra; interval integrals |
| C35 | `static_condensate(_f)` | single release: algebra; several releases: counterexample |
| C36 | `Api.set_beam_release` | proved to fail in every state |
| C37–C40 | `Cartesian` | vector algebra over ℝ; induction over rotation sequences |
| C41 | `Line` | from C37 |
| C42, C43 | `Tria`, `Quad` constructors | counterexamples; quad positive theorem |
| C44, C45 | `integrate_M`, `assemble_M` | sums; counterexample for the consistent matrix |
| C46 | `interpolate`, `resolve_beam_deformation` | counterexamples; exact partial statements |
| C47, C48 | section classes | algebra, counterexample |
| C49 | `Api.add_shell` | counterexample, exact behaviour |
| C50 | `IsotropicMaterial` | algebra, counterexample |
| C51, C52 | always failing methods | case analysis over all states |
| C53 | `np.insert` loop | induction for ascending order, counterexample otherwise |
| C54 | `rayleighA0/A1/C` | algebra; the bilinear forms of the reduced matrices of an assembled structure |
| C55 | `get_nodal_f_time_history` | induction over the patterns |
| C56, C60 | bodies of `solve_Newmark_beta`, `solve_Wilson_theta` (matrices as parameters: as written they refer to an undefined `self`) | induction over the steps; counterexample for the displacement relation (sign of `b3`) |
| C57 | `solve_eigen` + `resolve_modal_frequency` | reduced pencil in virtual-work form (C13, C17); counterexample: the resolver takes the eigenvalue for the frequency |
| C58, C59 | `solve_direct_time_integration` | induction over the steps; counterexamples: rows lag by one step, damping ratio unused |
| C61 | the whole edit surface of `Api` against the description machine `Spec.blueprint` (which reads only the arguments of the calls) | refinement by induction over the history; closed forms of the section constructors |
| C63 | `Model/ShellK`: B'DB integrals | symmetry of D, sums over the quadrature points; assembled matrix through C14 |
| C64 | same | D positive semidefinite, Jacobian positive on strictly convex quadrilaterals (bilinear in corner cross products); counterexample triangle |
| C65–C67 | same | exact strains of linear and quadratic nodal fields; counterexamples by evaluating the energy of one state for every proper rule |
| C68 | `assemble`, `solve_static` with `shellEnv` | C15, C20 with their shell hypotheses discharged |
| C62 | `assemble`, `solve_static`, `result_get_nodal_displacement` end to end | C20 composed with the refinements of the node, restraint, case and blueprint registries; integral form of the beam work (C31, C33, C34) |
| C69 | `Spec/Frame`: chains of beams to a clamped node | induction over the chain: a beam with zero energy and a resting end is at rest (C30); then C62 |
| C70–C72 | the virtual-work form of C62 | symmetry, positivity and monotonicity of the internal work |
| C73 | two histories | simulation relation between the description machines, equality of the mechanics, uniqueness |
| C74 | a history describing a cantilever (`Spec.Cantilever`) | the beam-theory answer is shown to be in equilibrium, C62 and uniqueness (C69) |
| C75 | two histories | simulation as for C73; the internal work is multiplied by the factor |
| C76 | two problems related by `Spec.Turned` | rotation commutes with the construction of local axes; a section with I2 = I3 has no preferred axis |
| C77 | two problems related by `Spec.Subdivided` | the work of the two parts on a virtual state carried by the beam does not depend on the new node; uniqueness |
| C78 | two problems related by `Spec.EndsSwapped` | the local axes 1 and 3 change sign, the internal work does not |
| C79 | `gb50010`, `gb50011`; curve described by `Spec.DesignCurve` | one closed form for all branches; uniqueness by continuity at the joint |
| C80 | `gb50010` | each term of the closed form is monotone |
| C81 | `gb50010` | rational bounds for the power 0.2^γ in three ranges of the damping ratio |
| C82 | `gb50010` | plateau monotone in the damping; counterexample at period 6 |
| C83 | `duhamel`; `Spec.IsImpulseResponse` | derivatives of the kernel, uniqueness by an energy argument |
| C84 | `amptitude` | the maximum of a list; counterexample 1, -2 |
| C85 | `hermite1`, `hermite2`; `Spec.bicubic` | derivatives of polynomials, then ring identities |
| C86 | `lagrange1`, `lagrange2` | ring identities and signs |
| C87 | `SampledCurve.sin`, `SampledCurve.cos` | number of entries of `arange` |
| C88 | `eulerK` (derivatives and integrals of the shape functions) | integrals of polynomials, comparison of bilinear forms; counterexample I2 ≠ I3 |
| C89 | `eulerM` | shape functions sum to one; counterexample l = 1 |
| C90 | `elasticity`, `stressTensor` | algebra; sum of squares; orthogonality relations |
| C91 | the session machine, `GCall` | step lemmas; invariant over successful calls |
| C92 | `guarded`, `undo` | the body of each call changes the committed state only in `add_frame_batch`; counterexample add_joint, delete_joint |
| C93 | `GDisk`, `gOpen`, `GAct`, `GEnd`, `gVisit` | the stored file changes only in a save; counterexample crash while copying |
| C94 | `Lived` | invariant over calls, saves, crashes and restarts |
| C95 | `gSetJointLoad`, `gJointLoads` | invariant: no load row has a value |
| C96 | `gSetJointRestraint`, `gSetJointRestraintBatch`, `gFixed` | projection of the session to the rows of one joint, invariant over histories |
| C97 | the delete functions | step lemmas; counterexample the load case of a new model |
| C98 | `gAddFrame`, `gFindOrAdd` | uuids are new in every life of a model (`Lived.new_id`); case analysis of found and new joints; counterexamples in a new model |
| C99 | `gMergeJoints`, `mergeMap`; the order of an ordered query is an assumption on the environment (`GEnv.Sorts`) | induction over the sorted list |
| C100 | `gSection` | integrals over the shapes of Spec/Section |
| C101 | `gAddMaterial`, `gSetMaterialIso`, `gAddAreaSection` | step lemmas |
| C102 | `gGetJointNameByCoor` | filter characterised through unique names |
| C103 | `gUpsertLoad` | case analysis insert or overwrite |
| C104 | `Spec.unitCall` on histories | simulation of all registries under the conversion; work scales by the unit of work; uniqueness |
| C105 | two problems related by `Spec.Mirrored`; `C105_loads` says which loads correspond | the local axes of the reflected beam are the reflected axes up to signs that cancel in the work |
| C106 | two problems related by `Spec.Beside` | virtual states that vanish outside the structure; uniqueness |
| C107 | `Spec.SupportLoaded`, `Spec.HeldWhereStill` | admissible virtual states do no work there; uniqueness |
| C108 | `Spec.TwoSupports` | the tabulated state satisfies the principle of virtual work; stability by C30; uniqueness |
| C109 | `placeSpecial`, `placeBeam` | invariant over the loops: points pairwise apart, prefix of the node list |
| C110 | `findPt`, `mergeDrawing` | `findPt` is the first near node; it does not change when nodes are appended |
| C111 | `generate`, `runScript`, registries of C02 and C61 | the calls of the script as segments; folds of the registries over each |
| C112 | `generateWith id` in both units | line by line |
| C113 | `fmt6` | rounding error; counterexample 1e4 mm4 |
| C114 | `materialComponent`, `materialLine` | the attribute is missing |
| C115 | `loadLine`, registry of C09 | drawn objects near a node are those written for it; fold of the registry |
| C116 | `restraintLine`, registry of C07 | as C115 |
| C117 | `sectionLine`, `runLines` | the first ill-typed line is before the nodes |
| C118 | `Spec.Deformation`, `ExactEquilibrium`: displacement fields along the beams | integration by parts on every beam: the element polynomials are the homogeneous solutions; particular solutions for distributed and concentrated loads by double integration; nodes by C104 |
| C119 | `Spec.ExactEquilibrium`, `resolveBeamDeformation` | a beam without load is the cubic: a bubble as virtual deformation, zero energy implies zero almost everywhere; then C46 and C118 |
| C120 | `Blueprint.fieldPotential` | quadratic in the step towards another deformation; C118 |
| C121 | `rayleighC`, restricted to the unrestrained components | C65 damping_dense, C54 coefficients; the witness by the energy forms of stiffness and mass |
| C122 | `newmarkBeta` | projection on a mode gives a 2x2 recurrence with determinant (1+3z)/(1+z); induction on the rows |
| C123 | `splitRow`, `joinLines`, `parseLines`, `s2kTables`, `importS2k` | printer and reader are inverse: invariants of the scanner state over the characters, induction on lines, rows and tables |
| C124 | `importDxf`, `exportDxf`, `gAddFrameBatch`, `mergeMap` | the loop over sorted joints keeps the first joint at each point: induction over the list with a representative; then the lists of joints and frames of a batch |
| C125 | `Office`, `Event`, `Office.step` over `World.step` | a session is changed by its own events only and a folder only by events in it; induction over the schedule gives a simulation of `World.run`; a relation between an empty and a used folder, kept by every call but `load` |
| C126 | `Office.leftBehind`, `Office.loadFrom` | every state a dying call leaves differs in the file being written only; induction over histories; C125's relation for the recovery |
| C127 | `Viewer.open?`, `Viewer.step`, `Sketch`, `Actor`; vedo assumed as stated in `Model/Viewer` | the loops over nodes and beams fill dictionaries given by functions on their keys; invariant: the actors in the plotter are the first one of the nodes and the current two; induction over clicks |
| C128 | `Panel.toggleBasic`, `Panel.toggleLoad`, `loadArrows`, `sceneRadius` | induction over presses with the parity of their number; maximum of a list |
| C129 | `fft2spec`, `maxResponse`, `fftAt`, `ifftAt`, `fftfreq`; specification `BandLimited`, `IsResponse`, `Repeats` | orthogonality of the roots of unity gives the inverse transform; the sum of the oscillations divided by the denominators solves the equation; an energy argument gives uniqueness of the steady response |
| C130 | the same | linearity of the transforms; cyclic shift of samples; witness: the alternating record |
| C131 | `wave2spectrum`, `duhamel`; specification of C83 | C83 for each period; maxima of lists with the same members |
| C132 | `select`, `selectStep`, `squareErr` | loop invariant: the design spectrum belongs to the current step; merge sort is a sorted permutation; slices of tabulated lists |
| C133–C135 | `Api.assemble`, `solveStatic`, displacement query | residual of the virtual-work equation on restrained components; rigid motions store no energy; superposition and uniqueness; derivative of a quadratic |
| C136 | all calls with names | simulation between the registries of the two histories, then the virtual-work equation of one is that of the other read with the old names |
| C137 | as C69 | the reflected state solves the same problem: internal work is permuted by the pairing of beams; uniqueness |
| C138 | as C68 | C20/C68 in terms of the described problem (Spec/Mixed); symmetric, non-negative and translation-free element work |
| C139 | as C138 | work of rigid rotations; C65 for shells parallel to the axis |
| C140 | `solve_eigen` on a described frame; inertia in the user's numbers | generalized eigenproblem in virtual-work form; spectral theorem of a pencil (Lemmas/Pencil, by minimising the quotient on a compact sphere); min-max by counting dimensions |
| C141 | the combination loops of `ResponseSpectrumSolver.solve` | Gram matrix of impulse responses: the integral's antiderivative is explicit and monotone |
| C142 | settings read by `ResponseSpectrumSolver.solve`; lines 110-152 from eigenvalues, factors and ordinates | no kind of case has the key; counterexamples with two modes |
| C143 | `meta/plates/TMQ/__init__.py`, `element/quad/TMQ.py` | strains of nodal values by sides and corners; vanishing shear at corners and vanishing curvature force equal slopes; strains that vanish at four points vanish everywhere, because shear and curvature times the determinant have the form `A + B ξ + C η + D ξ η` |
| C144 | the same, against `metaDKQ` | the shear parameter of a side is of the order of the square of the thickness |
| C145 | `element/quad/TMGQ.py` | constant shear over parallelograms |
| C146 | `core/__init__.py` and the solver and resolvers it calls, as sequences of file operations | simulation of one process by itself alone on the files others leave alone; invariant of the files of processes with one model |
| C147 | `app/general/environment/project.py`, `db.py` | invariant of the settings under all other calls |
| C148 | `app/general/result/result.py`, first statement of `run` | the query machine of `Model/General` with given result tables; algebra of units |
| C149 | `viewIds`, `viewFaces`, `viewCones`, the third actor of `Viewer` | numbers of nodes are their places in the list of names; the invariant of C127 with the actor of the shells |
| C150 | `StaticSettings`, `ModalSettings`, `TimeSettings`, `solveModal`, `solveTime`, `Assembly.assembleMFor` in `Model/Cases` | dispatch by cases; a modal run is equivalent to a `ModalReport` of C57/C140; the clamped post without loads refutes the masses |
| C151 | `solve2nd`, `solveCase2nd` | the reduced matrix is symmetric (C14) and injective (stability), so `cg` and `spsolve` agree; insertion equals expansion for increasing restraints |
| C152 | `resolveStructuralReaction`, `SolverRun` | invariant over histories: no array is stored under a name ending in `.k.npy` |
| C153 | `Ids`, `Shared`, `ScriptStep`, `Api.store` in `Model/Alias` | identities of arrays are injective and agree with the tables after every script (invariant over steps, also of saved files); restraints are copied when asked for, so the written array is in no table |
| C154 | `artEnvelope`, `npInterp`, `artDensity`, `artFit`, `artMotion` in `Model/Artificial` | monotonicity of the pieces of the envelope; `np.interp` on a decreasing table evaluates to an end of it; induction over the iterations |
| C155 | `GCall.run`, `Pend.flush` in `Model/General` | invariant along successful calls: the row is in the tables, or is waiting and nothing behind it deletes it; invariant of all calls: every name in the file, the transaction and the waiting rows comes from somewhere |
| C156 | `beamMConsistent` in `Model/Beam` | closed form of the polynomial integrals for the fields of C31, compared entry by entry; positivity by sums of squares |
| C157 | the model of C69 | sequences of histories with numbers closer and closer: convergence of the blueprint and the loads along the calls, of the work of every beam (local axes never change kind at an accepted beam), then of the solution of the linear system (determinant and adjugate) |
| C158 | the model of C133 | balance of loads and support forces (C133) gives the resultants of the support forces of both frames; their difference acts at the supports and is in balance. Number of supports: ranks of the resultants of forces at the supports and of the rigid motions at the supports |
| C159 | the model of C69 | the displacements of the frame, continued rigidly over the branch, do no internal work in its beams and solve the larger problem; stability gives uniqueness |
| C160 | the model of C20, with a solver that has a residual | every step of C20 from the solver on is repeated with the residual carried along: at the free components the work of the reported displacements differs from that of the loads by at most ε times a right hand side. The bound of the error multiplies the residual by the adjugate of the system over its determinant, as in C157. A backward error leaves a residual that also grows with the answer; the largest error then bounds itself, and for small ε it can be solved for. Models with shells: the same for any symmetric bilinear work that is stable; the model is that of a machine that knows no solver |
| C161 | `Model/GhViewer`: the two viewers started from Grasshopper, with the vedo assumptions of C127 | the invariant of C127 for the other machine: actors shown, buttons and picture agree after every click, except for the nodes after a reset; the supports by induction over the table of the case; the scripts of C111 contain no shells and no supports of a case |
| C162 | `Model/FeModel` with `checkDup = true` (`Spec/Merging`: same place, same line, models built with the check) | invariant by induction over the calls: stored nodes pairwise apart, stored beams pairwise on different lines, numbers agree with names |
| C163 | `Model/CaseObject`: programs over pattern objects (a heap) and one case object; the remaining tables of a case (`Spec/CaseObject`: a ledger that enters each call) | refinement of the ledger by induction over the program; programs with and without prescribed displacements run in lock step and give the same load vector and displacements |
| C164 | no new model: `Model/Dynamic.solveDirect` | the recurrence of C58 projected on a mode, a first integral by induction over the steps, a real root beyond -1 by the intermediate value theorem; the tapped free mass runs for every length and step |
| C165 | no new model: `Model/Dynamic.solveDirect`, `Model/Load.getNodalF`; `Spec/Histories.lean` states what a run saves | the recurrence of C58 with regular equations determines the rows; strong induction over the instants; load vectors split into a nodal part linear in the curves and a beam part that ignores them; witness: a clamped beam with an axial line load and curves of zeros |
| C166 | `Model/Solvers.lean`: `solve_linear` with `precase` and `use_solver`; the libraries are parameters (`LinEnv`) with the promises of `Spec/Solvers.lean` | the equations handed to the solver are those of virtual work on the free components (`solveBy_core`); each branch then follows from the promise of its library; witness: an iterative solver that returns its first iterate |
| C167 | `Model/ElementObject.lean`: beams and nodes as objects with what callers can assign | induction on the assignments: turns about the own first axis add up; in turned axes the chord rotations of the two planes are mixed by the rotation, from which the work of the end forces follows; orthogonality from C39 |
| C168 | `Model/Examples.lean`: the shipped scripts as call sequences with arbitrary numbers, and the names of the methods of `Api` | the problem each script poses is computed from its calls; solvability by C69; the printed value by C74 for the cantilever and by the uniqueness of the equilibrium for the clamped span; failures by cases |
| C169 | `Model/Trouble.lean`: the file operations of each call (`Model/Overlap`), any of which may fail; the `except` clauses return False or None | induction over the operations of a call; the run of the successful calls on a sound disk is simulated, with lost files |
| C170 | `Model/Tolerance.lean`: the class attributes and their setters, and the constructors of coordinate systems, lines, triangles and quadrilaterals with the tolerance as an argument | induction over the settings; the cross products of the constructors are computed and compared with the tolerance |
| C171 | `Model/Api.lean`, `Model/FeModel.lean`: the three queries about shells | the effect of each call on the dictionary of shells, then induction over the session |
| C172 | `Model/CompiledTria.lean`, `Model/CompiledGQ12.lean`, `Model/CompiledDKQ.lean`, `Model/CompiledQuad.lean`, `Model/CompiledTMQs.lean`, `Model/CompiledTMQb.lean`, `Model/CompiledThick.lean`: the C text of the compiled routines, the arrays they fill | the expressions in the text that stand for strains are compared with the strain matrix, then every entry of the product |
| C173 | `Model/SingleElement.lean`: the two elements from the corners to `T.T*K*T` | the axes of a level quadrilateral are the global ones or these turned over about the second; then the fields are followed through the change of axes and C143 and the strains of linear fields apply |
| C174 | `Model/Find.lean`: the recursive search, with `or` and the missing attribute | strong induction on the length of the list, first match of the two halves |
| C175 | `Model/Logger.lean`: the two functions on a screen and a table of files | induction over the calls |

Where the code does not have the property, the code is modelled as it is, the negation is proved with a concrete
witness (`…_false`), and the part that does hold is proved under a name ending in `_partial`.

## 5. Disagreements between the code and the properties

Each is a theorem (`Cxx_false`) with a witness built from API calls or literal data.

| id | what the code does |
|---|---|
| C01, C06 | re-adding a node name gives it the number of another node; beams keep the old node object |
| C04 | `set_nodal_restraint` reports success for unknown nodes and records nothing |
| C05 | beams with a horizontal offset between 1e-9 and about 1e-9/length are rejected although their ends differ |
| C10 | a pattern created again under the same name is not seen by the cases that use the old object |
| C12 | the case's load table drops every node's first contribution |
| C21 | a case table that sets no flag: reduction uses the case table, expansion the global one |
| C24 | the table of all displacements enumerates the current model, not the assembled one |
| C35 | of several releases only the last one is condensed |
| C36 | `set_beam_release` always fails (attribute `beams` does not exist) |
| C40 | `set_by_3pts` never changes the axes |
| C42 | a triangle whose normal is -z is rejected |
| C43 | triangle "area" is half a determinant with a row of ones; quadrilateral "area" is a quarter of the sum of four such halves, never the area of a parallelogram |
| C101 | `add_material_quick("Q345")` always finds the name taken (a new model has it and it can not be deleted), rolls back what was not saved and returns `None` as for success. `C101_quick_never`, material.py 49-65 |
| C45 | the consistent mass matrix lacks entry (6,0) |
| C46 | interpolation at the ends is not the end displacement; ends exchanged when numbered in descending order |
| C47 | weak-axis second moment of I sections counts the web over the full depth |
| C48 | `add_beam_section_pipe` defines a rectangle |
| C49 | `add_shell` passes its arguments in the wrong positions |
| C50 | `lamda` lacks the factor mu |
| C51, C52 | modal analysis, reactions, end forces and `clear_workspace` always fail; the three methods for structural results have no body and return `None` |
| C53 | zeros are inserted in table order, not ascending |
| C56, C60 | sign of the constant `b3` |
| C57 | the eigenvalue is reported as circular frequency |
| C58 | displacement rows lag by one step from the second step on |
| C59 | the damping ratio is read and never used |
| C64 | a triangle whose normal has a negative component sum has a negative "area" and releases energy |
| C65 | 4-node shells resist a rotation about their normal (`xi*(1-xi**2)` where `xi0[i]*(1-xi**2)` is meant); T9 triangles resist rigid motions |
| C66 | T9 triangles use the same coefficients for both derivatives and mix x and y coordinates |
| C67 | the inverse Jacobian of DKQ has two entries exchanged, so that rectangles other than squares fail the bending patch test; triangles are scaled by the component sum of the normal |
| C76 | the section of a vertical beam is oriented by the global x axis, so it does not turn with the model |
| C77 | an almost vertical beam: a part of it can fall below the verticality tolerance, which exchanges its section axes |
| C82 | the slope of the last branch falls with the damping, which outweighs the lower plateau at long periods |
| C83 | `duhamel` uses `exp(-ζ ω_d t)` instead of `exp(-ζ ω t)` |
| C84 | `amptitude` divides by `max(wave)`, not by the largest absolute value |
| C88 | the symbolic element takes I2 for bending in the 1-2 plane, `Beam` takes I3 |
| C89 | the mass integrals are multiplied by `2 rho A / l` and `rho I / l**3` instead of `rho A l / 2` and `rho A l` |
| C92 | `session.rollback()` in the handler undoes all edits since the last commit, not only those of the failing call |
| C93 | `shutil.copy` overwrites the stored file in place; a crash in between leaves no readable copy |
| C95 | `set_joint_load` assigns p1..m3, the columns are the attributes u1..r3 |
| C96 | the batch function inserts rows without looking for existing ones |
| C97 | the delete functions pass a query instead of a row to `session.delete`; deleting a material with elastic constants blanks out a primary key |
| C98 | only the first point is multiplied by the unit; joints are made before the ends are compared; ends are sorted by name |
| C99 | only neighbours in the sorted list are compared; `frm.pt0_name in pts_to_rmv` compares a string with joints |
| C100 | `sec` is None for four of the types; sizes 2 and 3 are copied from sizes 0 and 1; the torsion constant of a pipe has the dimension of an area |
| C101 | `set_material_isotropic_elastic` ignores the unit |
| C102 | the second inequality multiplies the stored coordinate instead of the given one |
| C103 | loads per length are multiplied by F and F·L instead of F/L and F |
| C104 | the verticality and minimum-length tests compare lengths with the number 1e-9, whatever the unit |
| C109 | both ends of a beam are searched before either is added |
| C110 | beams are numbered per component, connections are stored by name |
| C111 | points are numbered per component, nodes are defined by name |
| C112 | moments are scaled with the square of the force factor instead of force times length |
| C112 | the factor for kilonewtons is 0.001 instead of 1000: a force of 1 kN is written as 0.001 N, and moduli of elasticity are too small by a factor of 10⁶ |
| C113 | `%f` keeps six decimals of m4 |
| C114 | `material_isotropic.py` sets no attribute `a`, `assemble.py` reads it |
| C115 | `set_nodal_load` replaces |
| C116 | `set_nodal_restraint` replaces |
| C117 | circle and pipe are written as `add_beam_section_I` with too few arguments; the test for boxes repeats "I" |
| C119 | as C46 |
| C121 | The damping matrix is a0 M + a1 K with a1 = -0.02/(3 pi) < 0 for the hard-coded ratios and periods: all modes with a period below half a second are driven, not damped. |
| C122 | `b3` has the wrong sign (C56): the undamped free vibration grows by (1+3z)/(1+z) per step, z = (h omega)^2/4. |
| C123 | `params[-2] == '_'` does not ask for the blank before a continuation mark; line 78 opens a file named by an undefined variable, so no import ever succeeds. |
| C124 | `add_frame_batch` merges all joints of the model but corrects only the new frames, so an old frame whose joint is merged into another has no ends; `import_dxf` adds faces by `add_area_batch`, which always fails, after the frames have been committed. |
| C125 | Every `Api` writes its assembly to the file `.asb` of the work path, so two objects with one work path overwrite each other; `__workpath` is pickled, so `Api.load(path, name)` from a moved or copied folder returns an object that works in the old folder. |
| C126 | `Api.save` opens the file with `'wb+'`, which empties it, before pickling: a process that dies there, or an exception while pickling, loses the version saved before. |
| C127 | `ViewerBase` keeps the nodes under `actors['node']`, `ResultViewer` replaces `actors['nodes']`, and `reset()` shows all actors: once shown, the undeformed nodes come back with every deformation and cannot be hidden; `__reset_deformation` makes the nodes hidden although the button reads "hide nodes". |
| C127 | `ViewerBase.__init__` joins the work path to the name and `Api.load` joins it again: for a relative work path the viewer looks in `workpath/workpath`. |
| C128 | `LoadViewer.toggle_beam` switches on the shells instead of the beams: hidden beams never come back. |
| C129 | `fft2spec` computes `ωd=(1-ξ)**0.5*ωₙ` and uses it as the natural frequency of the oscillator: the ordinates belong to the period `T/√(1-ξ)`. |
| C130 | Only the first 4096 numbers of a record are transformed; longer records are cut without a message.  The record is divided by its largest number: reversing its sign changes the spectrum and may divide by zero. |
| C131 | `wave2spectrum` inherits the wrong decay of `duhamel` (C83). |
| C132 | The spectrum starts at period `dt`, the table of the design spectrum at period 0, and `select` compares entries with the same index: every ordinate is compared with the design spectrum at the period one step shorter.  The slice `domain[0]:domain[-1]` leaves out the last period. |
| C132 | The second loop of `select` computes the champions' spectra with the step of the last file instead of their own. |
| C139 | A horizontal triangle held at all components but one, loaded there by a force 2 at distance 1: the total moment of loads and supports is 2, not 0. Shells resist rigid rotation about their normal (see C65), so reported displacements violate moment equilibrium. |
| C142 | `ResponseSpectrumSolver.solve` reads settings `n`, `modal_damp` and `combo` that no case has: it always raises. Behind that: `T = 2π/√ω` instead of `2π/ω`, and the damping ratio of the last mode for all pairs |
| C144 | thin, TMQ agrees with theory and not with DKQ, whose inverse Jacobian has two entries exchanged (C67) |
| C145 | `TMGQ.integrate_K` puts the slopes of the thick plate at the places of the rotations `rx`, `ry` without exchanging and negating them: rigid rotations about axes in the plane are resisted |
| C146 | files are emptied and rewritten in place (`'wb+'`, `np.save`): a call that overlaps with `assemble`, `save` or a solution of the same case fails though it would succeed before and after |
| C147 | `set_description` stores into an attribute the table does not have (its column is `discription`) and reports success; `get_description` reads that attribute of another object, fails and answers `False` |
| C148 | `get_result_period` with a number asks a list for `.all()` and raises; `run` reads `fe_model.is_assembled`, which does not exist, and raises for every model |
| C149 | `init_shells` unpacks `get_shell_node_names`, which is `None` for a triangle: the constructor of every viewer raises `TypeError` for a model with a triangle |
| C149 | `init_restraints` asks for the global supports only; and the symbols are switched off and `toggle_restraints` is never called with `True` |
| C150 | `StaticCase.__init__` sets the order to 1 whatever is asked for |
| C150 | the solvers call `assemble_M()` without a case, so `use_load_as_mass` has no effect; with a case, `spr.diags` of a sparse column raises `TypeError` |
| C150 | `base_case` is assigned only if the setting is `None`: a modal or time history case with a base case raises `UnboundLocalError` |
| C150 | `TimeHistorySolver.solve` of a case without algorithm returns without doing anything; with modal decomposition it raises `TypeError` (eight parameters, one given) |
| C151 | `solve_2nd_order` inserts the zeros in the order of the restraint table: wrong place or `IndexError` unless that order is increasing; the axial forces do not enter |
| C152 | `resolve_structural_reaction` reads `<case>.k.npy`; the stiffness is saved as `0.k.npy`, as a pickled sparse matrix that `np.load` refuses |
| C153 | `get_node_location` returns the array of the node itself, `get_all_nodal_load` a new table of the same arrays: writing into them changes the model; a beam then keeps the axes of its old line |
| C154 | `np.interp` is given decreasing frequencies, so every component but the first takes the ordinate of the longest period (5.99 s), and fitting multiplies all of them by the same number; the density has `(1-r)/(ω td)` inside the inner logarithm and comes out too large for ω ≥ 5 |
| C155 | `add_area` and `add_area_batch` fail for every input (undefined `_add_joint`, `sorted_key[3]` of three keys, `str.join` of a list), so a model never has areas |
| C156 | the consistent mass matrix of a beam sets entry (0,6) but not (6,0): a beam moving along its axis has 5/6 of its mass |
| C161 | the viewer of results started from Grasshopper draws only the supports registered with the case "case1" itself (`get_node_restraints("case1")`), not those that hold in all cases; Grasshopper scripts register all supports for all cases, so none is ever drawn (viz_core_result_deformation.py 187) |
| C161 | taking a deformation back hides the nodes although the button still offers to hide them (viz_core_result_deformation.py 134-141) |
| C161 | the viewer of models raises `NameError` for models without shells, so it never opens for a model drawn in Grasshopper (viz_core_model.py 171-181) |
| C162 | the name under which a node was merged with an existing one is forgotten: `add_node("B",…,check_dup=True)` at the place of `A` returns the number of `A`, but adding a beam at `"B"` raises `KeyError`; `C162_name_false`, model.py 72-86 |
| C123 | a line of blanks inside a table of an s2k file, or after it, loses all rows of the table without an error; `C123_blank` |
| C163 | `set_pattern_factor` accepts a name under which no pattern was added; every later question for a load raises `KeyError`. `C163_unknown`, `C163_false`, load/__init__.py 32-33, 63-71 |
| C163 | displacements prescribed with `set_nodal_disp` take no part in any analysis: load vector and displacements are the same without them. `C163_ignored` |
| C163 | the table `get_nodal_d_dict` shows zero for what is prescribed by one pattern. `C163_table`, `C163_table_false`, load/__init__.py 121-130 |
| C163 | `get_beam_f_dict` and `get_nodal_f_time_history_dict` raise for every case with a pattern (a method that does not exist; keys unpacked as pairs), and `get_beam_concentrated` returns the line load. `C163_never`, load/__init__.py 102-119, 143-152, pattern.py 51-54 |
| C164 | a direct time integration diverges for every mode at every sufficiently small step, with alternating sign (rows are taken one step late): for a free mass without damping each row grows by the golden ratio. `C164_growth`, `C164_root`, `C164_small_steps`, `C164_false`, dynamic.py 216-237 |
| C165 | loads on beams ignore the load curve of their pattern: with a curve of zeros a line load still moves the structure, at its full size at every instant. `C165_false`, load/__init__.py 133-141 |
| C166 | with `use_solver='pcg'` an iteration that did not converge within thirty steps is saved and reported as success (only a warning is logged); with `'cholmod'` the matrix is shifted by -1e-20 times its largest entry, so the answer is never the equilibrium of a loaded structure; with a `precase` the method always raises. `C166_false`, `C166_cholmod_never`, `C166_refused`, static.py 36-43, 101-113 |
| C167 | the setter of `rotation` turns the axes on from where they are instead of from where the constructor put them; after two assignments the reported rotation is not that of the axes. `C167_false`, beam.py 33-36, simple_beam.py 49-52 |
| C168 | all shipped scripts (README, quickstart and examples) call `api.set_nodal_force`; the method is named `set_nodal_load`. The script for the modes calls `solve_modal` without the number of modes; that for the simply supported beam does not assemble and exchanges the arguments of `result_get_nodal_displacement`; its releases are not set (C36), so that its second part solves the clamped span. `C168_false`, README.md 54, example/core |
| C169 | a `save`, `assemble` or `solve_static` that fails while it writes its file (a full disk) has already emptied the old one: the earlier save, assembly or result is lost. `C169_false`, `C169_lost_partial`, core/__init__.py 53, assembly.py 313, static.py 135 |
| C170 | a beam whose ends are between one and two tolerances apart sideways is refused, however long it is, so that a finer tolerance may refuse what a coarser one takes; with the tolerance 0 vertical beams and slabs are accepted with axes of nan. `C170_false`, `C170_none_partial`, line/__init__.py 17, csys.py 26 |
| C171 | the location of a shell cannot be queried: `tuple(node)` raises for every node, and the query returns None. `C171_false`, model.py 312-313 |
| C174 | `find` does not pass its tolerance to the recursive calls, takes the identifier 0 for not found, and reads an attribute `hid` that `Node` does not have |
| C175 | nothing is ever written: `write_file` opens for reading, `info` ignores the file, and a missing file ends in `UnboundLocalError` |

## 6. Trusted base

* Lean 4.33.0 kernel; the axioms `propext`, `Classical.choice`, `Quot.sound` (Mathlib's real numbers). Every theorem named in MANIFEST.json depends on a subset of these three (`#print axioms`). No other axioms, no `sorry`, no `native_decide`/`bv_decide`.
* The faithfulness of the hand-written model to the Python text (each definition cites what it models).
* The modelling decisions of section 2.
* For shells: that the compiled C functions are the C texts modelled (the compiler, the wrapper made by Cython) and that doubles behave as real numbers; that the texts compute the symbolic definitions is proved (C172).  quadpy's schemes enter only as an arbitrary list of weights and points; theorems that need more of a rule (`ProperRule`, `LinearRule`, `TriangleRule`) say so.

## 7. Tests against wrong programs

`seeded/LOG.jsonl` has one line per attempt: the definition edited in a scratch copy of the model, the edit, the claim it breaks, the
declarations whose proofs failed and the theorems tightened as a consequence.

How to read it.  A declaration "fails" when its existing proof no longer checks; the harness then replaces that proof by a hole and
`failed_theorems` lists the theorems that depend on a hole.  Such a theorem is no longer proved; it has not been shown false.  `outcome`
separates the cases.  When a theorem of the claim fails itself this is good evidence.  When only a lemma below it fails, the
evidence is weaker: the lemma may merely describe the edited definition, and the theorem could still be true and too weak.  In the first five
batches (204 attempts) 39 are of the first kind.  The others include the survivors and the inconclusive runs.  The least informative are
those where only `edit_ok_iff` failed, since that lemma follows the program closely.  These were run again with the lemma edited to match the
wrong program (`lemma_edited_to_match`), so that only statements further up can fail.  Long lists of failed theorems are mostly due to
one invariant whose proof script does not survive an edit; they say nothing about each theorem in them.  A failing lemma whose name ends
in `_refined` equates tables of the program with the specification, which is stronger evidence.
