{"id": "C01", "title": "Every node owns its own six result slots", "statement": "After any sequence of API calls, two different nodes never share result slots and every node's six slots lie inside the solution vector, so a displacement reported for a node is that node's and no other's.", "quantifier": "all finite histories of API calls, all node names and coordinates", "why_tests_cant": "Only specific call orders (re-adding a name, then adding another node) break it; a test sees one order, the claim is about every history.", "anchors": ["hyperstatic/core/__init__.py: Api.add_node", "hyperstatic/core/fe_model/model.py: Model.add_node", "hyperstatic/core/fe_model/model.py: Model.get_node_hid"]}
{"id": "C02", "title": "Node registry is a last-write-wins map in first-insertion order", "statement": "get_node_names lists each added name exactly once in order of first addition, and get_node_location returns the coordinates of the most recent add_node for that name (None if never added).", "quantifier": "all finite histories of API calls", "why_tests_cant": "Needs induction over the whole history.", "anchors": ["hyperstatic/core/__init__.py: Api.add_node", "hyperstatic/core/__init__.py: Api.get_node_names", "hyperstatic/core/__init__.py: Api.get_node_location"]}
{"id": "C03", "title": "A call that reports failure changes nothing", "statement": "If a model-editing API call returns False, then every later query, assembly or solution behaves exactly as if the call had not been made.", "quantifier": "all reachable states, all editing calls and arguments", "why_tests_cant": "The unchanged state has to be checked for every state and every failing argument combination, including failures in the middle of a call.", "anchors": ["hyperstatic/core/__init__.py: Api.add_beam", "hyperstatic/core/__init__.py: Api.add_simple_beam", "hyperstatic/core/__init__.py: Api.add_shell", "hyperstatic/core/__init__.py: Api.set_nodal_mass", "hyperstatic/core/__init__.py: Api.add_beam_section_general", "hyperstatic/core/__init__.py: Api.set_beam_release"]}
{"id": "C04", "title": "A restraint call that reports success took effect", "statement": "If set_nodal_restraint returns True then get_node_restraints() afterwards maps that node to exactly the six flags given, and all other nodes' entries are unchanged.", "quantifier": "all reachable states, node names and flag vectors", "why_tests_cant": "Tests only use names that exist.", "anchors": ["hyperstatic/core/__init__.py: Api.set_nodal_restraint", "hyperstatic/core/__init__.py: Api.get_node_restraints", "hyperstatic/core/fe_model/model.py: Model.set_nodal_restraint"]}
{"id": "C05", "title": "A beam is accepted exactly when it is well defined", "statement": "add_beam (add_simple_beam) returns True if and only if both end nodes and (for add_beam) the section exist and the end points are geometrically distinct; on True the beam is listed once, with the given end names and the end nodes' locations.", "quantifier": "all reachable states, all names, all coordinates", "why_tests_cant": "Acceptance depends on real-valued geometry with a tolerance window; tests sample a few directions.", "anchors": ["hyperstatic/core/__init__.py: Api.add_beam", "hyperstatic/core/__init__.py: Api.add_simple_beam", "hyperstatic/core/__init__.py: Api.get_beam_node_names", "hyperstatic/core/__init__.py: Api.get_beam_location", "hyperstatic/core/fe_model/element/line/__init__.py: Line.__init__"]}
{"id": "C06", "title": "A beam stays attached to its end nodes", "statement": "At any time get_beam_location(b) equals the current get_node_location of the two names returned by get_beam_node_names(b).", "quantifier": "all finite histories of API calls", "why_tests_cant": "Holds until a node name is re-added after the beam was created; depends on call order.", "anchors": ["hyperstatic/core/__init__.py: Api.get_beam_location", "hyperstatic/core/__init__.py: Api.get_beam_node_names", "hyperstatic/core/__init__.py: Api.get_node_location"]}
{"id": "C07", "title": "Restraint table is last-write-wins and isolated per node and per case", "statement": "get_node_restraints() (or of a case) returns for each node the flags of the most recent successful setting for it, and setting one node, or one case, never changes the flags of another node, of another case, or the global table.", "quantifier": "all finite histories of API calls", "why_tests_cant": "Needs induction over histories mixing global and case level calls.", "anchors": ["hyperstatic/core/__init__.py: Api.set_nodal_restraint", "hyperstatic/core/__init__.py: Api.set_loadcase_nodal_restraint", "hyperstatic/core/__init__.py: Api.get_node_restraints"]}
{"id": "C08", "title": "Degree-of-freedom count", "statement": "After assembling, the reported number of free degrees of freedom equals six times the number of nodes minus the number of true global restraint flags, and equals the order of the reduced system for a case without own restraints.", "quantifier": "all reachable states in which names were added once", "why_tests_cant": "Quantifies over arbitrary models and flag tables.", "anchors": ["hyperstatic/core/fe_model/assembly.py: Assembly.__init__", "hyperstatic/core/fe_model/assembly.py: Assembly.DOF", "hyperstatic/core/fe_model/assembly.py: Assembly.assemble_boundary"]}
{"id": "C09", "title": "Nodal loads are last-write-wins and isolated", "statement": "get_nodal_load(p,n) returns exactly the six components of the most recent set_nodal_load(p,n,...) since the pattern was (re)created, get_all_nodal_load(p) agrees with it for every node, and setting a load on one node or pattern never changes another.", "quantifier": "all finite histories of API calls", "why_tests_cant": "Needs induction over histories.", "anchors": ["hyperstatic/core/__init__.py: Api.set_nodal_load", "hyperstatic/core/__init__.py: Api.get_nodal_load", "hyperstatic/core/__init__.py: Api.get_all_nodal_load", "hyperstatic/core/__init__.py: Api.add_loadpattern"]}
{"id": "C10", "title": "A load case sees later edits of its patterns", "statement": "Loads set on a pattern after the pattern was added to a case count in that case with the factor of the latest add_case_pattern; a pattern name contributes once, however often it is added.", "quantifier": "all finite histories of API calls", "why_tests_cant": "Aliasing between pattern and case objects; re-creating a pattern breaks the link only in some orders.", "anchors": ["hyperstatic/core/__init__.py: Api.add_case_pattern", "hyperstatic/core/__init__.py: Api.add_loadpattern", "hyperstatic/core/__init__.py: Api.set_nodal_load", "hyperstatic/core/fe_model/load/__init__.py: LoadCase.add_pattern"]}
{"id": "C11", "title": "Case load is the factored sum of its patterns", "statement": "The load vector of a case equals the sum over its patterns of factor times the pattern's load vector, for nodal loads and for beam loads; scaling all factors scales the vector.", "quantifier": "all models, patterns, factors; models built without re-adding an existing node name", "why_tests_cant": "Arbitrary number of patterns and loads.", "anchors": ["hyperstatic/core/fe_model/load/__init__.py: LoadCase.get_nodal_f", "hyperstatic/core/fe_model/load/__init__.py: LoadCase.get_beam_f", "hyperstatic/core/fe_model/assembly.py: Assembly.assemble_f"]}
{"id": "C12", "title": "Case load table agrees with per-node case loads", "statement": "For every node the case's table of nodal loads (get_nodal_f_dict) has the same six components as get_nodal_f for that node.", "quantifier": "all load cases", "why_tests_cant": "The table loses a contribution only in some configurations; a test of keys passes.", "anchors": ["hyperstatic/core/fe_model/load/__init__.py: LoadCase.get_nodal_f_dict", "hyperstatic/core/fe_model/load/__init__.py: LoadCase.get_nodal_f"]}
{"id": "C13", "title": "Global stiffness is the sum of the scattered element stiffnesses", "statement": "Each entry of the assembled stiffness matrix is the sum over elements of the element's global-axes stiffness at the matching node/component pair, zero when no element touches the pair; the order in which elements were added does not matter.", "quantifier": "all models whose node numbers are valid; models built without re-adding an existing node name", "why_tests_cant": "Arbitrary meshes and element orders.", "anchors": ["hyperstatic/core/fe_model/assembly.py: Assembly.assemble_K"]}
{"id": "C14", "title": "Global stiffness is symmetric", "statement": "The assembled stiffness matrix of beams is symmetric, hence symmetrising it before solving changes nothing.", "quantifier": "all beam models; models built without re-adding an existing node name", "why_tests_cant": "Arbitrary meshes.", "anchors": ["hyperstatic/core/fe_model/assembly.py: Assembly.assemble_K", "hyperstatic/core/fe_solver/static.py: StaticSolver.solve_linear"]}
{"id": "C15", "title": "Strain energy is never negative", "statement": "For non-negative section properties u^T K u >= 0 for every displacement vector, and equals the sum of the element energies.", "quantifier": "all beam models, all displacement vectors; models built without re-adding an existing node name", "why_tests_cant": "Real-valued quantification.", "anchors": ["hyperstatic/core/fe_model/assembly.py: Assembly.assemble_K", "hyperstatic/core/fe_model/element/line/beam.py: Beam.integrate_K"]}
{"id": "C16", "title": "Rigid motions cost no force", "statement": "Moving the whole model by an infinitesimal rigid translation/rotation produces zero nodal forces; equivalently the internal forces of any displacement are in global force and moment equilibrium.", "quantifier": "all beam models, all six rigid motions, all beam directions; models built without re-adding an existing node name", "why_tests_cant": "Depends on every beam's own local axes.", "anchors": ["hyperstatic/core/fe_model/assembly.py: Assembly.assemble_K", "hyperstatic/core/fe_model/element/line/__init__.py: Line.transform_matrix"]}
{"id": "C17", "title": "Eliminating restrained rows and columns keeps the right entries", "statement": "The reduced matrix is exactly the restriction of the full matrix to the free degrees of freedom in increasing order, whatever order the restraints were given in.", "quantifier": "all matrices, all duplicate-free restraint lists", "why_tests_cant": "Index renumbering loop over arbitrary index lists.", "anchors": ["hyperstatic/core/fe_model/assembly.py: Assembly.assemble_boundary", "hyperstatic/core/fe_model/assembly.py: Assembly.__drop_matrix_dof"]}
{"id": "C18", "title": "Reduced load and reduced stiffness use the same numbering", "statement": "Position k of the reduced load vector is the load of the same degree of freedom as row and column k of the reduced stiffness.", "quantifier": "all vectors, all duplicate-free restraint lists", "why_tests_cant": "Two different algorithms must agree for all index lists.", "anchors": ["hyperstatic/core/fe_model/assembly.py: Assembly.__drop_vector_dof", "hyperstatic/core/fe_model/assembly.py: Assembly.__drop_matrix_dof"]}
{"id": "C19", "title": "Expanding a reduced solution puts every value back in its place", "statement": "The stored displacement vector has zero at every restrained degree of freedom and the k-th solver value at the k-th free one; expansion followed by reduction is the identity.", "quantifier": "all solution vectors, all restraint lists", "why_tests_cant": "Index bookkeeping over arbitrary lists.", "anchors": ["hyperstatic/core/fe_solver/static.py: StaticSolver.solve_linear"]}
{"id": "C20", "title": "solve_static returns the equilibrium configuration", "statement": "If the structure is stable and solve_static returns True, the displacements reported by result_get_nodal_displacement are zero at restrained components and satisfy the principle of virtual work: for every virtual displacement that respects the restraints, internal virtual work equals the virtual work of the case's nodal loads and of the equivalent beam loads.", "quantifier": "all histories of API calls with distinct node names, all cases; models built without re-adding an existing node name", "why_tests_cant": "End-to-end claim over all models.", "anchors": ["hyperstatic/core/__init__.py: Api.assemble", "hyperstatic/core/__init__.py: Api.solve_static", "hyperstatic/core/__init__.py: Api.result_get_nodal_displacement"]}
{"id": "C21", "title": "Case restraints override the global ones", "statement": "When a case has restraints of its own the solution uses exactly these and none of the global ones; otherwise it uses the global ones.", "quantifier": "all models and restraint tables; models built without re-adding an existing node name", "why_tests_cant": "Two code paths decide it independently and disagree only for special tables.", "anchors": ["hyperstatic/core/__init__.py: Api.set_loadcase_nodal_restraint", "hyperstatic/core/fe_model/assembly.py: Assembly.assemble_boundary", "hyperstatic/core/fe_model/assembly.py: Assembly.restraintDOF", "hyperstatic/core/fe_solver/static.py: StaticSolver.solve_linear"]}
{"id": "C22", "title": "A stable structure has a uniquely determined answer", "statement": "The reduced system is non-singular exactly when no non-zero displacement respecting the restraints is free of strain energy.", "quantifier": "all beam models with positive properties; models built without re-adding an existing node name", "why_tests_cant": "Quantifies over all displacement fields.", "anchors": ["hyperstatic/core/fe_model/assembly.py: Assembly.assemble_K", "hyperstatic/core/fe_model/assembly.py: Assembly.assemble_boundary"]}
{"id": "C23", "title": "Results do not depend on the order of definition", "statement": "Two call histories that define the same nodes, beams, restraints and loads in different orders report the same displacements for every node name.", "quantifier": "all pairs of histories defining the same structure; models built without re-adding an existing node name", "why_tests_cant": "Quantifies over permutations of arbitrary models.", "anchors": ["hyperstatic/core/__init__.py: Api.add_node", "hyperstatic/core/__init__.py: Api.add_beam", "hyperstatic/core/__init__.py: Api.result_get_nodal_displacement"]}
{"id": "C24", "title": "Assembly is a snapshot", "statement": "Edits made after assemble() do not influence solve_static or results until assemble() is called again.", "quantifier": "all histories of edits between assemble and solve", "why_tests_cant": "Aliasing bugs show only for some edit sequences.", "anchors": ["hyperstatic/core/__init__.py: Api.assemble", "hyperstatic/core/__init__.py: Api.solve_static", "hyperstatic/core/fe_model/assembly.py: Assembly.save"]}
{"id": "C25", "title": "No stale stiffness", "statement": "What solve_static computes never depends on files left in the work path by earlier solutions.", "quantifier": "all histories of API calls starting with a work path without results", "why_tests_cant": "Cache staleness depends on histories.", "anchors": ["hyperstatic/core/fe_solver/static.py: StaticSolver.solve_linear"]}
{"id": "C26", "title": "Solving a case only touches that case's results", "statement": "solve_static(c) leaves the results of every other case as they were, and solving the same case again without re-assembling reproduces the same results.", "quantifier": "all histories, all case names", "why_tests_cant": "File name collisions and state leakage over arbitrary names.", "anchors": ["hyperstatic/core/__init__.py: Api.solve_static", "hyperstatic/core/fe_solver/static.py: StaticSolver.solve_linear"]}
{"id": "C27", "title": "Save and load round trip", "statement": "Api.load of a saved file gives back exactly the state at the time of the last save under that name, whatever happened in between.", "quantifier": "all histories between save and load", "why_tests_cant": "Quantifies over histories.", "anchors": ["hyperstatic/core/__init__.py: Api.save", "hyperstatic/core/__init__.py: Api.load"]}
{"id": "C28", "title": "All-nodes result table agrees with single-node results", "statement": "result_get_all_nodal_displacement(c) maps every node name to the value result_get_nodal_displacement returns for it, and is None only if one of them is None or nothing has been assembled.", "quantifier": "all reachable states", "why_tests_cant": "All states and node sets.", "anchors": ["hyperstatic/core/__init__.py: Api.result_get_all_nodal_displacement", "hyperstatic/core/__init__.py: Api.result_get_nodal_displacement"]}
{"id": "C29", "title": "Superposition", "statement": "For a stable structure and fixed restraints the displacements of a case are the factored sum of the displacements of its patterns.", "quantifier": "all stable models, patterns, factors; models built without re-adding an existing node name", "why_tests_cant": "Real-valued, arbitrary models.", "anchors": ["hyperstatic/core/__init__.py: Api.solve_static", "hyperstatic/core/__init__.py: Api.add_case_pattern"]}
{"id": "C30", "title": "Beam stiffness matrix: symmetric, positive semidefinite, exactly six rigid modes", "statement": "The 12x12 stiffness of a beam with positive properties is symmetric, its energy is a sum of squares, and a displacement has zero energy iff it is a rigid-body motion.", "quantifier": "all lengths and section properties, all displacement vectors", "why_tests_cant": "Real-valued.", "anchors": ["hyperstatic/core/fe_model/element/line/beam.py: Beam.integrate_K", "hyperstatic/core/fe_model/element/line/simple_beam.py: SimpleBeam.integrate_K"]}
{"id": "C31", "title": "Beam stiffness is the exact energy of the cubic shape functions", "statement": "d^T K d equals the integral over the length of EA u'^2 + EI3 w2''^2 + EI2 w3''^2 + GJ theta'^2 of the interpolated fields.", "quantifier": "all lengths, properties and end displacements", "why_tests_cant": "Real-valued integrals.", "anchors": ["hyperstatic/core/fe_model/element/line/beam.py: Beam.integrate_K"]}
{"id": "C32", "title": "Equivalent loads of distributed beam loads keep the resultant", "statement": "For every trapezoidal load the equivalent end forces have the same total force and the same total moment about each end as the distributed load.", "quantifier": "all load intensities and lengths", "why_tests_cant": "Real-valued.", "anchors": ["hyperstatic/core/fe_model/load/pattern.py: LoadPattern.get_beam_f", "hyperstatic/core/__init__.py: Api.set_beam_load_distributed"]}
{"id": "C33", "title": "Equivalent loads do the work of the distributed load", "statement": "For every end displacement the work of the equivalent end forces equals the integral of the load against the interpolated displacement.", "quantifier": "all intensities, lengths, end displacements", "why_tests_cant": "Real-valued integrals.", "anchors": ["hyperstatic/core/fe_model/load/pattern.py: LoadPattern.get_beam_f"]}
{"id": "C34", "title": "Equivalent loads of concentrated beam loads", "statement": "For a concentrated force/moment at relative position r the equivalent end forces keep resultant force and moment and do the work of the load on the interpolated displacement (and its slope) at r.", "quantifier": "all load components, lengths and positions", "why_tests_cant": "Real-valued.", "anchors": ["hyperstatic/core/fe_model/load/pattern.py: LoadPattern.get_beam_f", "hyperstatic/core/__init__.py: Api.set_beam_load_concentrated"]}
{"id": "C35", "title": "End releases are eliminated exactly", "statement": "With a set of released end components the condensed stiffness transmits no force at any released component and reproduces the stiffness of the other components when the released ones move freely; the condensed load likewise.", "quantifier": "all release patterns, all stiffness matrices with non-zero pivots", "why_tests_cant": "Subsets of 12 components times real matrices.", "anchors": ["hyperstatic/core/fe_model/element/line/beam.py: Beam.static_condensate", "hyperstatic/core/fe_model/element/line/beam.py: Beam.static_condensate_f"]}
{"id": "C36", "title": "End releases can be set", "statement": "set_beam_release on an existing beam returns True and makes the released components force-free.", "quantifier": "all reachable states, all release patterns", "why_tests_cant": "A negative claim over all states: it never succeeds.", "anchors": ["hyperstatic/core/__init__.py: Api.set_beam_release", "hyperstatic/core/fe_model/model.py: Model.set_beam_releases"]}
{"id": "C37", "title": "Local coordinate systems are right-handed and orthonormal", "statement": "A coordinate system built from three points is accepted unless they are collinear to tolerance, has unit, mutually orthogonal, right-handed axes, x from the first to the second point and the third point in the upper x-y half plane.", "quantifier": "all point triples", "why_tests_cant": "Real-valued.", "anchors": ["hyperstatic/common/csys.py: Cartesian.__init__"]}
{"id": "C38", "title": "Coordinate system by normal", "statement": "create_by_normal gives a right-handed orthonormal system whose z axis is the normalised normal and whose x axis is orthogonal to the guide, unless the normal is parallel to the guide.", "quantifier": "all normals and guides", "why_tests_cant": "Real-valued.", "anchors": ["hyperstatic/common/csys.py: Cartesian.create_by_normal"]}
{"id": "C39", "title": "Rotations keep coordinate systems orthonormal and right-handed", "statement": "Any sequence of rotations (about own axes, global axes or a vector, any angles) keeps the axes orthonormal and right-handed, leaves the rotation axis fixed, and rotating back restores the system.", "quantifier": "all sequences of rotations, all angles", "why_tests_cant": "Sequences of real rotations.", "anchors": ["hyperstatic/common/csys.py: Cartesian.rotate_about_x", "hyperstatic/common/csys.py: Cartesian.rotate_about_vec"]}
{"id": "C40", "title": "Resetting a coordinate system by three points takes effect", "statement": "After set_by_3pts the axes are those of the constructor for the same three points.", "quantifier": "all systems and point triples", "why_tests_cant": "Real-valued; needs a non-trivial change to notice.", "anchors": ["hyperstatic/common/csys.py: Cartesian.set_by_3pts"]}
{"id": "C41", "title": "Beam local axis 1 points from start to end and the transformation is orthogonal", "statement": "For every accepted beam the local 1-axis is the unit vector from the start to the end node and the 12x12 transformation matrix is orthogonal, so lengths, energies and resultants are the same in local and global axes. The local 2-axis lies in the plane of the beam and the global z axis (of the global x axis for a vertical beam), on the side of that axis.", "quantifier": "all beams", "why_tests_cant": "Real-valued.", "anchors": ["hyperstatic/core/fe_model/element/line/__init__.py: Line.transform_matrix"]}
{"id": "C42", "title": "A shell is accepted independently of its orientation", "statement": "If a triangle (quadrilateral) shell is accepted, so is the same shell with its nodes in reversed order.", "quantifier": "all non-degenerate node positions", "why_tests_cant": "Depends on the normal direction; tests use one orientation.", "anchors": ["hyperstatic/core/fe_model/element/tria/__init__.py: Tria.__init__", "hyperstatic/core/fe_model/element/quad/__init__.py: Quad.__init__"]}
{"id": "C43", "title": "Areas of shells", "statement": "The area of a triangular shell element equals half the norm of the cross product of two edges; that of a plane convex quadrilateral equals half the norm of the cross product of its diagonals.", "quantifier": "all triangles and all plane convex quadrilaterals", "why_tests_cant": "Coincides for special positions only.", "anchors": ["hyperstatic/core/fe_model/element/tria/__init__.py: Tria.__init__", "hyperstatic/core/fe_model/element/quad/__init__.py: Quad.__init__"]}
{"id": "C44", "title": "Mass is conserved", "statement": "The assembled mass matrix carries, in each translational direction, the total mass of the beams (density x area x length) plus the nodal masses.", "quantifier": "all models, all beam directions; models built without re-adding an existing node name", "why_tests_cant": "Arbitrary models.", "anchors": ["hyperstatic/core/fe_model/assembly.py: Assembly.assemble_M", "hyperstatic/core/fe_model/element/line/beam.py: Beam.integrate_M", "hyperstatic/core/__init__.py: Api.set_nodal_mass"]}
{"id": "C45", "title": "Mass matrices are symmetric", "statement": "Beam mass matrices (lumped and consistent) are symmetric.", "quantifier": "all beams", "why_tests_cant": "Real-valued entries.", "anchors": ["hyperstatic/core/fe_model/element/line/beam.py: Beam.integrate_M"]}
{"id": "C46", "title": "Beam deformation at an end is the end node's displacement", "statement": "result_get_beam_deformation at relative position 0 (1) returns the displacement of the beam's start (end) node in local axes.", "quantifier": "all solved models, all beams", "why_tests_cant": "Depends on node numbering and sign conventions.", "anchors": ["hyperstatic/core/__init__.py: Api.result_get_beam_deformation", "hyperstatic/core/fe_post/beam.py: BeamResultResolver.resolve_beam_deformation", "hyperstatic/core/fe_model/element/line/beam.py: Beam.interpolate"]}
{"id": "C47", "title": "Section properties match the section's geometry", "statement": "Area and second moments of rectangle, box, I, circle and pipe sections equal those of the cross-section shape (up to the approximation of pi), are positive for admissible sizes, and section moduli equal inertia over half depth.", "quantifier": "all admissible sizes", "why_tests_cant": "Real-valued formulas.", "anchors": ["hyperstatic/core/fe_model/section/beam_section.py: BoxSection", "hyperstatic/core/fe_model/section/beam_section.py: ISection", "hyperstatic/core/fe_model/section/beam_section.py: PipeSection", "hyperstatic/core/fe_model/section/beam_section.py: RectangleSection"]}
{"id": "C48", "title": "add_beam_section_pipe creates a pipe section", "statement": "After add_beam_section_pipe(name,mat,d,t) a beam with this section has the stiffness of a circular tube of diameter d and wall t.", "quantifier": "all sizes", "why_tests_cant": "Needs comparison over all sizes; the call itself succeeds.", "anchors": ["hyperstatic/core/__init__.py: Api.add_beam_section_pipe"]}
{"id": "C49", "title": "add_shell connects the given nodes with the given section", "statement": "If node1..node4 and the shell section exist and the nodes are in general position, add_shell(name,node1,node2,node3,node4,section) returns True and get_shell_node_names returns the four names in order.", "quantifier": "all reachable states", "why_tests_cant": "Argument order only shows for distinct names.", "anchors": ["hyperstatic/core/__init__.py: Api.add_shell", "hyperstatic/core/fe_model/model.py: Model.add_shell", "hyperstatic/core/__init__.py: Api.get_shell_node_names"]}
{"id": "C50", "title": "Isotropic elastic constants are consistent", "statement": "G and lamda of a material satisfy the isotropic relations with E and mu.", "quantifier": "all E, mu", "why_tests_cant": "Real-valued.", "anchors": ["hyperstatic/core/fe_model/material/isotropy.py: IsotropicMaterial.G", "hyperstatic/core/fe_model/material/isotropy.py: IsotropicMaterial.lamda"]}
{"id": "C51", "title": "Modal analysis and reactions are obtainable", "statement": "For some reachable state solve_modal returns True, and result_get_nodal_reaction / result_get_beam_end_force / result_get_structural_reaction, _period and _vibration_mode return a value after a successful solution.", "quantifier": "all reachable states (the code never does)", "why_tests_cant": "Never succeeding is a statement about all states.", "anchors": ["hyperstatic/core/__init__.py: Api.solve_modal", "hyperstatic/core/__init__.py: Api.result_get_nodal_reaction", "hyperstatic/core/__init__.py: Api.result_get_beam_end_force", "hyperstatic/core/__init__.py: Api.result_get_structural_reaction, Api.result_get_structural_period, Api.result_get_structural_vibration_mode"]}
{"id": "C52", "title": "clear_workspace empties the work path", "statement": "clear_workspace returns True and leaves an empty work path.", "quantifier": "all states of the work path", "why_tests_cant": "All states.", "anchors": ["hyperstatic/core/__init__.py: Api.clear_workspace"]}
{"id": "C53", "title": "Second-order solver restores restrained positions", "statement": "The vector stored by solve_2nd_order has zeros exactly at the restrained positions and the solver values, in order, elsewhere.", "quantifier": "all restraint tables in all definition orders", "why_tests_cant": "Correct only for increasing insertion order.", "anchors": ["hyperstatic/core/fe_solver/static.py: StaticSolver.solve_2nd_order"]}
{"id": "C54", "title": "Rayleigh damping meets its two target ratios", "statement": "The coefficients used for direct time integration give the two prescribed damping ratios at the two prescribed frequencies.", "quantifier": "all distinct positive frequencies and ratios", "why_tests_cant": "Real-valued.", "anchors": ["hyperstatic/core/fe_solver/dynamic.py: TimeHistorySolver.solve_direct_time_integration"]}
{"id": "C55", "title": "Time-history load equals the step loads", "statement": "Row t of a node's time-history load equals the node's case load at step t.", "quantifier": "all patterns, factors, curves of equal length", "why_tests_cant": "Arbitrary lengths.", "anchors": ["hyperstatic/core/fe_model/load/__init__.py: LoadCase.get_nodal_f_time_history", "hyperstatic/core/fe_model/load/__init__.py: LoadCase.get_nodal_f"]}
{"id": "C56", "title": "Implicit time stepping satisfies the equation of motion", "statement": "Every state produced by the Newmark scheme satisfies M a + C v + K u = f of that step and the Newmark update relations.", "quantifier": "all matrices, loads, step sizes, numbers of steps", "why_tests_cant": "Arbitrary number of steps.", "anchors": ["hyperstatic/core/fe_solver/dynamic.py: TimeHistorySolver.solve_Newmark_beta"]}
{"id": "C57", "title": "Reported modal frequencies are those of the eigenvalue problem", "statement": "For an eigenvalue omega^2 of the structure the resolver reports omega, f = omega/2pi and T = 2pi/omega.", "quantifier": "all eigenvalues", "why_tests_cant": "Agrees for omega in {0,1} only.", "anchors": ["hyperstatic/core/fe_post/structure.py: StructureResultResolver.resolve_modal_frequency", "hyperstatic/core/fe_solver/dynamic.py: ModalSolver.solve_eigen"]}
{"id": "C58", "title": "Direct time integration satisfies the central-difference equation", "statement": "The time history written by direct time integration starts from rest and satisfies M (u[t+1]-2u[t]+u[t-1])/dt^2 + C (u[t+1]-u[t-1])/(2dt) + K u[t] = f[t] at every step.", "quantifier": "all structures, load curves, step sizes, numbers of steps", "why_tests_cant": "Arbitrary number of steps and real-valued matrices.", "anchors": ["hyperstatic/core/fe_solver/dynamic.py: TimeHistorySolver.solve_direct_time_integration"]}
{"id": "C59", "title": "The damping ratio of a direct time integration takes effect", "statement": "The damping ratio given to a time-history case changes the computed response: two ratios give different histories for some structure.", "quantifier": "all structures, load curves and damping ratios", "why_tests_cant": "A statement about all inputs: no single test shows that a parameter never has an effect.", "anchors": ["hyperstatic/core/fe_solver/dynamic.py: TimeHistorySolver.solve_direct_time_integration", "hyperstatic/core/fe_model/load/loadcase.py: TimeHistoryCase.use_direct_time_integration"]}
{"id": "C60", "title": "Wilson's method satisfies the equation of motion", "statement": "Every state produced by Wilson's theta method satisfies the extrapolated equation of motion and the Newmark relations over the step.", "quantifier": "all matrices, loads, step sizes, numbers of steps", "why_tests_cant": "Arbitrary number of steps.", "anchors": ["hyperstatic/core/fe_solver/dynamic.py: TimeHistorySolver.solve_Wilson_theta"]}
{"id": "C61", "title": "The model holds the structure the calls describe", "statement": "After any sequence of calls the beam names, end nodes and coordinates reported are those of the last accepted definition of each name; the numbers of every material, section and beam (density, E, mu, A, I2, I3, J) are the ones given, or those of the named shape with the named material, as they were when the object was defined; and the local axes of a beam are a function of its two end coordinates only.", "quantifier": "all call histories, including rejected calls and redefinitions; all beams, sections, materials", "why_tests_cant": "Ranges over every history of definitions, redefinitions and rejected calls and over real-valued arguments.", "anchors": ["hyperstatic/core/__init__.py: Api.add_beam, add_simple_beam, add_beam_section_*, add_isotropic_material, get_beam_names, get_beam_node_names, get_beam_location", "hyperstatic/core/fe_model/section/beam_section.py", "hyperstatic/core/fe_model/element/line/beam.py", "hyperstatic/core/fe_model/element/line/simple_beam.py"]}
{"id": "C62", "title": "Reported displacements are the equilibrium of the described structure", "statement": "For a beam structure that is stable under the restraints in force, if solve_static(case) returns True after assemble(), the nodal displacements reported obey the restraints in force for the case (the case's own if it has any, the model's otherwise) and for every admissible virtual displacement the work of the Euler-Bernoulli beam stresses of the described beams equals the work of the described nodal, distributed and concentrated loads times the factors of the case; and the call does return True when something is free and no beam has mu = -1.", "quantifier": "all call histories that add each node name and pattern name once and build no shells; all calls between assembly and solution; all stable structures; all virtual displacements", "why_tests_cant": "Every structure, load, history and virtual displacement; real-valued.", "anchors": ["hyperstatic/core/__init__.py: Api.assemble, solve_static, result_get_nodal_displacement", "hyperstatic/core/fe_solver/static.py: StaticSolver.solve_linear", "hyperstatic/core/fe_model/assembly.py: Assembly", "hyperstatic/core/fe_model/element/line/beam.py"]}
{"id": "C63", "title": "Shell stiffness is reciprocal", "statement": "The stiffness of every 3- and 4-node shell is symmetric (the work of a first state on the forces of a second equals that of the second on the first), and so is the assembled stiffness matrix of any model built by API calls whose shells are not degenerate.", "quantifier": "all sections, node positions, axes, quadrature rules, pairs of nodal states, call histories", "why_tests_cant": "Real-valued geometry and every quadrature rule; matrices produced by generated code.", "anchors": ["hyperstatic/core/fe_model/element/quad/DKGQ.py", "hyperstatic/core/fe_model/element/tria/DKT.py", "hyperstatic/core/fe_model/meta/membranes", "hyperstatic/core/fe_model/meta/plates", "hyperstatic/core/fe_model/assembly.py: Assembly.assemble_K"]}
{"id": "C64", "title": "A shell never releases energy", "statement": "For an admissible material (E >= 0, -1 < mu < 1) and thickness the strain energy of a shell is never negative: for every convex quadrilateral and for every triangle.", "quantifier": "all admissible sections, convex quadrilaterals and triangles in any position, nodal states", "why_tests_cant": "Every geometry and every displacement state.", "anchors": ["hyperstatic/core/fe_model/element/quad/DKGQ.py", "hyperstatic/core/fe_model/element/tria/DKT.py", "hyperstatic/core/fe_model/meta/membranes", "hyperstatic/core/fe_model/meta/plates", "hyperstatic/core/fe_model/assembly.py: Assembly.assemble_K"]}
{"id": "C65", "title": "A shell does not resist a rigid motion", "statement": "A small rigid translation or rotation of all nodes of a plane shell costs no energy and causes no nodal forces.", "quantifier": "all plane shells, translations, rotations, virtual states", "why_tests_cant": "Every geometry, rotation axis and angle rate.", "anchors": ["hyperstatic/core/fe_model/element/quad/DKGQ.py", "hyperstatic/core/fe_model/element/tria/DKT.py", "hyperstatic/core/fe_model/meta/membranes", "hyperstatic/core/fe_model/meta/plates", "hyperstatic/core/fe_model/assembly.py: Assembly.assemble_K"]}
{"id": "C66", "title": "Shells reproduce constant membrane strain", "statement": "Nodal displacements of a uniform in-plane strain do the work of a sheet in plane stress under that strain: thickness times area times strain' D strain.", "quantifier": "all non-degenerate shells with membrane action, all strains, all rules exact on linear polynomials", "why_tests_cant": "The patch test must hold for every geometry and strain.", "anchors": ["hyperstatic/core/fe_model/element/quad/DKGQ.py", "hyperstatic/core/fe_model/element/tria/DKT.py", "hyperstatic/core/fe_model/meta/membranes", "hyperstatic/core/fe_model/meta/plates", "hyperstatic/core/fe_model/assembly.py: Assembly.assemble_K"]}
{"id": "C67", "title": "Shells reproduce constant curvature", "statement": "Nodal displacements and rotations of a uniform curvature do the work of a thin plate of bending stiffness E t^3/12/(1-mu^2) under that curvature.", "quantifier": "all plane convex shells with plate action, all curvatures", "why_tests_cant": "The bending patch test must hold for every geometry and curvature.", "anchors": ["hyperstatic/core/fe_model/element/quad/DKGQ.py", "hyperstatic/core/fe_model/element/tria/DKT.py", "hyperstatic/core/fe_model/meta/membranes", "hyperstatic/core/fe_model/meta/plates", "hyperstatic/core/fe_model/assembly.py: Assembly.assemble_K"]}
{"id": "C68", "title": "Models with shells are solved for equilibrium", "statement": "For a structure of beams and non-degenerate shells built by API calls that is stable under the restraints in force, solve_static(case) after assemble() returns True and the displacements reported obey the restraints and satisfy virtual work, the internal work being that of the beams and of the shell elements as the code integrates them; the assembled stiffness of convex shells and admissible beams never yields negative energy.", "quantifier": "all call histories adding each node once, all stable structures with shells, all quadrature rules, all virtual displacements", "why_tests_cant": "Every structure, history and virtual displacement; real-valued.", "anchors": ["hyperstatic/core/__init__.py: Api.assemble, solve_static, result_get_nodal_displacement", "hyperstatic/core/fe_model/element/quad/DKGQ.py", "hyperstatic/core/fe_model/element/tria/DKT.py", "hyperstatic/core/fe_model/meta/membranes", "hyperstatic/core/fe_model/meta/plates", "hyperstatic/core/fe_model/assembly.py: Assembly.assemble_K"]}
{"id": "C69", "title": "A frame connected to the ground is solved", "statement": "A frame of beams with positive stiffness (E, A, I2, I3, J > 0, mu > -1) in which every node is joined by a chain of beams to a fully restrained node is stable, and solve_static(case) after assemble() returns True and reports displacements in equilibrium with the loads of the case.", "quantifier": "all call histories adding nodes and patterns once and no shells, all frame topologies, chains of any length", "why_tests_cant": "Every topology and every size: the statement is an induction over chains of beams.", "anchors": ["hyperstatic/core/__init__.py: Api.assemble, solve_static, result_get_nodal_displacement", "hyperstatic/core/fe_model/assembly.py: Assembly", "hyperstatic/core/fe_model/element/line/beam.py: Beam", "hyperstatic/core/fe_solver/static.py: StaticSolver.solve_linear"]}
{"id": "C70", "title": "Reciprocal theorem", "statement": "For two load cases of one stable structure under the same restraints, the loads of the first do the same work on the displacements reported for the second as the loads of the second on the displacements reported for the first; for two single loads this is Maxwell's theorem.", "quantifier": "all stable frames, all pairs of load cases, all calls between the two solutions", "why_tests_cant": "Every structure and pair of loadings, over the reals.", "anchors": ["hyperstatic/core/__init__.py: Api.assemble, solve_static, result_get_nodal_displacement", "hyperstatic/core/fe_model/assembly.py: Assembly", "hyperstatic/core/fe_model/element/line/beam.py: Beam", "hyperstatic/core/fe_solver/static.py: StaticSolver.solve_linear"]}
{"id": "C71", "title": "The reported displacements minimise the potential energy", "statement": "Among all displacement states that obey the restraints, the reported one has the least total potential energy and is the only one with that energy; the work of the loads on it equals the internal work and is not negative.", "quantifier": "all stable frames of positive stiffness, all cases, all competing displacement states", "why_tests_cant": "Quantifies over all competing displacement states.", "anchors": ["hyperstatic/core/__init__.py: Api.assemble, solve_static, result_get_nodal_displacement", "hyperstatic/core/fe_model/assembly.py: Assembly", "hyperstatic/core/fe_model/element/line/beam.py: Beam", "hyperstatic/core/fe_solver/static.py: StaticSolver.solve_linear"]}
{"id": "C72", "title": "Stiffening a frame never increases the work of its loads", "statement": "If a second model has the same nodes and loads, stiffer or additional beams and the same or additional restraints, it is stable if the first is, and the loads do no more work on the displacements reported for it than for the first.", "quantifier": "all pairs of histories whose frames are comparable, all load cases", "why_tests_cant": "Compares all pairs of structures.", "anchors": ["hyperstatic/core/__init__.py: Api.assemble, solve_static, result_get_nodal_displacement", "hyperstatic/core/fe_model/assembly.py: Assembly", "hyperstatic/core/fe_model/element/line/beam.py: Beam", "hyperstatic/core/fe_solver/static.py: StaticSolver.solve_linear"]}
{"id": "C73", "title": "The position of the origin does not matter", "statement": "Issuing the same calls with all node coordinates moved by one vector gives the same reported displacements.", "quantifier": "all histories, all translation vectors, all load cases of stable frames", "why_tests_cant": "Every structure and every vector.", "anchors": ["hyperstatic/core/__init__.py: Api.assemble, solve_static, result_get_nodal_displacement", "hyperstatic/core/fe_model/assembly.py: Assembly", "hyperstatic/core/fe_model/element/line/beam.py: Beam", "hyperstatic/core/fe_solver/static.py: StaticSolver.solve_linear"]}
{"id": "C74", "title": "A cantilever deflects as beam theory says", "statement": "For a beam clamped at its start and free at its end, the reported displacements and rotations of the free end are those of beam theory, for any force and moment at the tip, any trapezoidal line load and any concentrated force or moment along the span, e.g. P L^3/(3 E I) and q L^4/(8 E I).", "quantifier": "all histories describing a cantilever, all positions and directions of the beam, all sections of positive stiffness, all loads of the three kinds", "why_tests_cant": "Every geometry, section and load; a test fixes one.", "anchors": ["hyperstatic/core/__init__.py: Api.assemble, solve_static, result_get_nodal_displacement", "hyperstatic/core/fe_model/assembly.py: Assembly", "hyperstatic/core/fe_model/element/line/beam.py: Beam", "hyperstatic/core/fe_solver/static.py: StaticSolver.solve_linear", "hyperstatic/core/fe_model/load/pattern.py: LoadPattern", "hyperstatic/core/fe_model/element/line/beam.py: Beam"]}
{"id": "C75", "title": "The modulus only scales the displacements", "statement": "Issuing the same calls with every Young's modulus multiplied by one non-zero factor divides all reported displacements by that factor.", "quantifier": "all histories describing stable frames, all factors, all load cases", "why_tests_cant": "Every structure and factor.", "anchors": ["hyperstatic/core/__init__.py: Api.assemble, solve_static, result_get_nodal_displacement", "hyperstatic/core/fe_model/assembly.py: Assembly", "hyperstatic/core/fe_model/element/line/beam.py: Beam", "hyperstatic/core/fe_model/element/line/__init__.py: Line", "hyperstatic/core/fe_solver/static.py: StaticSolver.solve_linear"]}
{"id": "C76", "title": "Turning the model turns the answer", "statement": "Turning a whole model (coordinates, supports, loads) about the vertical axis turns the reported displacements by the same angle.", "quantifier": "all pairs of histories describing a stable frame and the turned frame, all angles", "why_tests_cant": "Every structure and angle; fails only for vertical members with unequal second moments.", "anchors": ["hyperstatic/core/__init__.py: Api.assemble, solve_static, result_get_nodal_displacement", "hyperstatic/core/fe_model/assembly.py: Assembly", "hyperstatic/core/fe_model/element/line/beam.py: Beam", "hyperstatic/core/fe_model/element/line/__init__.py: Line", "hyperstatic/core/fe_solver/static.py: StaticSolver.solve_linear"]}
{"id": "C77", "title": "Subdividing a beam changes nothing", "statement": "Placing a free new node on a beam and replacing the beam by its two parts leaves the displacements reported for all other nodes unchanged.", "quantifier": "all pairs of histories describing a stable frame and its subdivision, all positions of the division, all loads that do the same work", "why_tests_cant": "Every structure and position; fails only near a tolerance.", "anchors": ["hyperstatic/core/__init__.py: Api.assemble, solve_static, result_get_nodal_displacement", "hyperstatic/core/fe_model/assembly.py: Assembly", "hyperstatic/core/fe_model/element/line/beam.py: Beam", "hyperstatic/core/fe_model/element/line/__init__.py: Line", "hyperstatic/core/fe_solver/static.py: StaticSolver.solve_linear"]}
{"id": "C78", "title": "The order of the ends of a beam does not matter", "statement": "Naming the two ends of a beam in the other order leaves all reported displacements unchanged, if the beam itself carries no loads.", "quantifier": "all pairs of histories describing a stable frame and the frame with one beam reversed", "why_tests_cant": "Every structure.", "anchors": ["hyperstatic/core/__init__.py: Api.assemble, solve_static, result_get_nodal_displacement", "hyperstatic/core/fe_model/assembly.py: Assembly", "hyperstatic/core/fe_model/element/line/beam.py: Beam", "hyperstatic/core/fe_model/element/line/__init__.py: Line", "hyperstatic/core/fe_solver/static.py: StaticSolver.solve_linear"]}
{"id": "C79", "title": "Both spectrum functions tabulate the prescribed curve", "statement": "GB50010(alpha_max, Tg, xi).spectrum and GB50011_spectrum(alpha_max, Tg, xi, dt) tabulate the same continuous curve: linear from 0.45 alpha_max to the plateau at 0.1 s, constant to Tg, a power of the period to 5 Tg, then linear.  The tables cover 0, 0.01, ..., 6 and all multiples of dt below 6.", "quantifier": "all maxima, all Tg >= 0.1, all damping ratios >= 0, all steps > 0", "why_tests_cant": "The parameters are real numbers; the joints between branches lie anywhere.", "anchors": ["hyperstatic/app/design/GB/seismic/spectrum.py: GB50010", "hyperstatic/app/seismic/wave2spec.py: GB50011_spectrum"]}
{"id": "C80", "title": "Shape of the design spectrum", "statement": "No ordinate exceeds the plateau, from 0.1 s on the ordinates never increase with the period, and they are proportional to alpha_max.", "quantifier": "all maxima >= 0, Tg >= 0.1, damping ratios >= 0; proportionality for all maxima and Tg", "why_tests_cant": "Real parameters, all pairs of periods.", "anchors": ["hyperstatic/app/design/GB/seismic/spectrum.py: GB50010"]}
{"id": "C81", "title": "Ordinates of the design spectrum are positive", "statement": "Every tabulated ordinate is positive, although the last branch falls linearly.", "quantifier": "all maxima > 0, Tg >= 0, damping ratios >= 0", "why_tests_cant": "The bound on the last branch must hold for every damping ratio.", "anchors": ["hyperstatic/app/design/GB/seismic/spectrum.py: GB50010"]}
{"id": "C82", "title": "More damping never increases the design spectrum", "statement": "Raising the damping ratio does not raise any tabulated ordinate.", "quantifier": "all maxima > 0, Tg >= 0.1, all pairs of damping ratios", "why_tests_cant": "All pairs of real damping ratios.", "anchors": ["hyperstatic/app/design/GB/seismic/spectrum.py: GB50010"]}
{"id": "C83", "title": "The oscillator response superposes impulse responses", "statement": "duhamel(w, zeta, t, p) gives the displacement of the damped oscillator with frequency w and damping ratio zeta as the sum of its responses to the impulses of the record; the velocities and accelerations are the displacements times the damped frequency once and twice; the response is linear in the record and does not depend on later values.", "quantifier": "all frequencies > 0, damping ratios in [0, 1), steps, lengths and records", "why_tests_cant": "All records of all lengths.", "anchors": ["hyperstatic/app/seismic/wave2spec.py: duhamel"]}
{"id": "C84", "title": "Scaling a record to a peak value", "statement": "amptitude(wave, a_max) multiplies the record by a positive factor so that its largest absolute value is a_max.", "quantifier": "all records that are not zero, all a_max > 0", "why_tests_cant": "All records.", "anchors": ["hyperstatic/app/seismic/wave2spec.py: amptitude"]}
{"id": "C85", "title": "Hermite functions reproduce cubics", "statement": "Combining Hermite.N1D with the end values and end slopes of a cubic on [0, l] gives that cubic everywhere; combining Hermite.N2D with values, slopes and mixed derivatives at the corners of the square of side l gives every polynomial that is cubic in each variable.", "quantifier": "all cubics and bicubics, all lengths, all points", "why_tests_cant": "All polynomials and all real points.", "anchors": ["hyperstatic/core/fe_model/meta/interpolate/Hermite.py: N1D, N2D"]}
{"id": "C86", "title": "Lagrange functions reproduce linear functions", "statement": "Lagrange.N1D and N2D reproduce every linear (bilinear) function from its values at the ends (corners); inside the element the weights are not negative and, in two variables, sum to one.", "quantifier": "all (bi)linear functions, all points", "why_tests_cant": "All functions and all real points.", "anchors": ["hyperstatic/core/fe_model/meta/interpolate/Lagrange.py: N1D, N2D"]}
{"id": "C87", "title": "Sampled sine and cosine curves", "statement": "Curve.sin(name, A, w, phi, dt, n) and Curve.cos succeed exactly when dt is not zero and return n samples at 0, dt, ..., (n-1) dt of the function; the cosine is the sine a quarter period ahead.", "quantifier": "all names, amplitudes, frequencies, phases, steps and numbers of samples", "why_tests_cant": "All real parameters and all lengths.", "anchors": ["hyperstatic/common/curve.py: Curve.sin, Curve.cos"]}
{"id": "C88", "title": "Stiffness of the symbolic Euler beam", "statement": "beam_eular.K(E, G, A, I2, I3, J, l), derived from shape functions, is the stiffness matrix of the Beam element with the same constants and length.", "quantifier": "all constants and positive lengths", "why_tests_cant": "All real constants; a test with I2 = I3 does not see an exchange.", "anchors": ["hyperstatic/core/fe_model/meta/beams/beam_eular/__init__.py: K", "hyperstatic/core/fe_model/element/line/beam.py: Beam.integrate_K"]}
{"id": "C89", "title": "Mass of the symbolic Euler beam", "statement": "In beam_eular.M(rho, A, I2, I3, J, l) a rigid translation in any direction moves the mass rho A l.", "quantifier": "all constants, positive lengths and directions", "why_tests_cant": "All real constants; with l = 2 the axial part is right.", "anchors": ["hyperstatic/core/fe_model/meta/beams/beam_eular/__init__.py: M"]}
{"id": "C90", "title": "Elasticity tensor", "statement": "meta.isotropy: the stresses sig belonging to the strains eps obey Hooke's law with E, nu and G = E/2/(1+nu) and are symmetric; the tensor D is the same in all rotated axes; the strain energy of a strain that is not zero is positive for E > 0 and -1 < nu < 1/2.", "quantifier": "all moduli, strains and rotations", "why_tests_cant": "All real strains and all rotations.", "anchors": ["hyperstatic/core/fe_model/meta/isotropy.py: D, eps, sig"]}
{"id": "C91", "title": "Coordinates of joints in the current unit", "statement": "set_joint_coordinate succeeds exactly on listed joints. A joint added with add_joint (SI) is listed and get_joint_coordinate gives its place in the current unit. After set_joint_coordinate in one unit and any calls that report no failure and do not move, merge or batch-add joints, get_joint_coordinate gives the same place in the unit in force then.", "quantifier": "all sessions, joints, coordinates, units and histories of calls", "why_tests_cant": "Histories of any length with changes of unit in between.", "anchors": ["hyperstatic/app/general/object/joint.py: add_joint, set_joint_coordinate, get_joint_coordinate", "hyperstatic/app/general/environment/project.py: set_unit"]}
{"id": "C92", "title": "A call that returns False changes nothing", "statement": "A function of the database front end that returns False leaves every answer of the model as it was.", "quantifier": "all sessions and all calls", "why_tests_cant": "Must hold whatever was edited before.", "anchors": ["hyperstatic/app/general/object/joint.py", "hyperstatic/app/general/object/frame.py", "hyperstatic/app/general/property/material.py"]}
{"id": "C93", "title": "What was saved is there after a restart", "statement": "After a successful save() the file opens to what was there when it was saved, whatever is done later without another successful save and however the program ends. Edits never saved are not there.", "quantifier": "all histories of calls and saves, all crash points", "why_tests_cant": "All histories and crash points.", "anchors": ["hyperstatic/app/general/db.py: open, save, close"]}
{"id": "C94", "title": "Names are unique and a frame has two ends", "statement": "In every life of a model (created, opened, edited, saved, closed or crashed any number of times) no listing function gives a name twice, and the ends named by get_frame_end_names are two different joints of the model.", "quantifier": "all histories of calls, saves, restarts and crashes", "why_tests_cant": "All histories.", "anchors": ["hyperstatic/app/general/orm.py", "hyperstatic/app/general/object/frame.py: add_frame, add_frame_batch, get_frame_end_names"]}
{"id": "C95", "title": "Loads on joints", "statement": "After a successful set_joint_load the analysis reads, for that load case, the given load at that joint in SI units.", "quantifier": "all histories, joints, load cases and loads", "why_tests_cant": "All histories and loads.", "anchors": ["hyperstatic/app/general/object/joint.py: set_joint_load", "hyperstatic/app/general/orm.py: JointLoad", "hyperstatic/app/general/model.py: apply_load"]}
{"id": "C96", "title": "Restraints of joints", "statement": "After a successful set_joint_restraint, and any calls that report no failure and do not set the restraints of that joint, the analysis fixes exactly the given degrees of freedom. set_joint_restraint_batch does the same for every listed joint.", "quantifier": "all sessions, joints, restraints and histories of calls", "why_tests_cant": "Histories of any length.", "anchors": ["hyperstatic/app/general/object/joint.py: set_joint_restraint, set_joint_restraint_batch", "hyperstatic/app/general/model.py: mesh"]}
{"id": "C97", "title": "Deleting objects", "statement": "Deleting a listed joint, frame, material, section or load case removes its name, and only its name, from the listing.", "quantifier": "all lives of a model, kinds of objects and names", "why_tests_cant": "All histories and kinds of objects.", "anchors": ["hyperstatic/app/general/object/joint.py: delete_joint", "hyperstatic/app/general/object/frame.py: delete_frame", "hyperstatic/app/general/property/material.py: delete_material", "hyperstatic/app/general/property/frame_section.py: delete_frame_section", "hyperstatic/app/general/property/area_section.py: delete_area_section", "hyperstatic/app/general/load/loadcase.py: delete_loadcase"]}
{"id": "C98", "title": "Ends of a frame", "statement": "After add_frame between two points, get_frame_end_coors gives the first point and then the second, up to the tolerance, in the current unit. add_frame succeeds when the section exists, the name is free and the points are apart. When it raises, the model answers as before.", "quantifier": "all lives of a model, points, units, names", "why_tests_cant": "All histories, points and units.", "anchors": ["hyperstatic/app/general/object/frame.py: add_frame, get_frame_end_coors"]}
{"id": "C99", "title": "Merging joints", "statement": "After merge_joints no two joints are nearer than the tolerance, every joint that is gone is linked to one that remains, remaining joints do not move, and every frame keeps its two ends.", "quantifier": "all lives of a model, sets of joints, tolerances", "why_tests_cant": "All configurations of joints.", "anchors": ["hyperstatic/app/general/object/joint.py: merge_joints"]}
{"id": "C100", "title": "Values of frame sections", "statement": "add_frame_section with a new name and an existing material stores the area and the second moments of the documented shape; for round sections the torsion constant is the polar moment.", "quantifier": "all models, units, types and sizes", "why_tests_cant": "All sizes.", "anchors": ["hyperstatic/app/general/property/frame_section.py: add_frame_section, Circle, Pipe, ISection, HollowBox"]}
{"id": "C101", "title": "Properties are stored in SI", "statement": "add_material, set_material_isotropic_elastic and add_area_section store density, elastic constants and thickness in SI, converted from the current unit, and change nothing else. add_material_quick adds the named material or reports that it did not.", "quantifier": "all models, units and values", "why_tests_cant": "All units and values.", "anchors": ["hyperstatic/app/general/property/material.py: add_material, add_material_quick, set_material_isotropic_elastic", "hyperstatic/app/general/property/area_section.py: add_area_section"]}
{"id": "C102", "title": "Look-up of joints by coordinates", "statement": "get_joint_name_by_coor lists exactly the joints whose coordinates, as get_joint_coordinate gives them, are nearer than the tolerance to those given; a coordinate that is not given does not matter.", "quantifier": "all lives of a model, coordinates and units", "why_tests_cant": "All configurations of joints.", "anchors": ["hyperstatic/app/general/object/joint.py: get_joint_name_by_coor, get_joint_coordinate"]}
{"id": "C103", "title": "Loads on frames", "statement": "The functions that set distributed, concentrated, strain and temperature loads store the given load in SI for that frame and load case, replacing an earlier one, and change no other load.", "quantifier": "all models, frames, load cases, loads and units", "why_tests_cant": "All units and loads.", "anchors": ["hyperstatic/app/general/object/frame.py: set_frame_load_distributed, set_frame_load_concentrated, set_frame_load_strain, set_frame_load_temperature"]}
{"id": "C104", "title": "Choice of units", "statement": "If every number given to the API (coordinates, moduli, section values, masses, loads) is converted to other units of length and force, the reported displacements are those of the first model in the new unit of length and the reported rotations are equal.", "quantifier": "all histories that describe a stable frame, all sections, loads and cases, all units", "why_tests_cant": "It relates two runs for all frames and all unit factors.", "anchors": ["hyperstatic/core/__init__.py: Api.assemble, solve_static, result_get_nodal_displacement", "hyperstatic/core/fe_model/assembly.py: Assembly", "hyperstatic/core/fe_model/element/line/beam.py: Beam", "hyperstatic/core/fe_model/element/line/__init__.py: Line", "hyperstatic/core/fe_solver/static.py: StaticSolver.solve_linear"]}
{"id": "C105", "title": "Reflection", "statement": "If a model is reflected in one or several coordinate planes (coordinates, forces, moments, with the same restrained components), the reported displacements are reflected as arrows and the rotations as senses of rotation.", "quantifier": "all stable frames, all eight combinations of reflections, all load cases", "why_tests_cant": "It relates two runs for all frames.", "anchors": ["hyperstatic/core/__init__.py: Api.assemble, solve_static, result_get_nodal_displacement", "hyperstatic/core/fe_model/assembly.py: Assembly", "hyperstatic/core/fe_model/element/line/beam.py: Beam", "hyperstatic/core/fe_model/element/line/__init__.py: Line", "hyperstatic/core/fe_solver/static.py: StaticSolver.solve_linear"]}
{"id": "C106", "title": "Unconnected structures do not interact", "statement": "Adding nodes and beams that are not connected to a structure, with their own supports and loads, changes none of its reported displacements.", "quantifier": "all pairs of histories of which one describes the other's structure and a separate one", "why_tests_cant": "It ranges over all structures and all others beside them.", "anchors": ["hyperstatic/core/__init__.py: Api.assemble, solve_static, result_get_nodal_displacement", "hyperstatic/core/fe_model/assembly.py: Assembly", "hyperstatic/core/fe_model/element/line/beam.py: Beam", "hyperstatic/core/fe_model/element/line/__init__.py: Line", "hyperstatic/core/fe_solver/static.py: StaticSolver.solve_linear"]}
{"id": "C107", "title": "Loads and supports without effect", "statement": "Nodal loads at restrained components change no reported displacement; nor does restraining further components whose reported displacement is zero.", "quantifier": "all stable frames, loads and restraints", "why_tests_cant": "All frames.", "anchors": ["hyperstatic/core/__init__.py: Api.assemble, solve_static, result_get_nodal_displacement", "hyperstatic/core/fe_model/assembly.py: Assembly", "hyperstatic/core/fe_model/element/line/beam.py: Beam", "hyperstatic/core/fe_model/element/line/__init__.py: Line", "hyperstatic/core/fe_solver/static.py: StaticSolver.solve_linear"]}
{"id": "C108", "title": "Beam on two supports", "statement": "A beam along x on a pinned and a sliding support, with a force and a torque at an inner node, has the displacements and rotations of the beam tables at all three nodes: F a² b² / (3 E I L) under the load, F L³ / (48 E I) at midspan.", "quantifier": "all positions, lengths, sections and loads", "why_tests_cant": "All real parameters; tests compare a few numbers.", "anchors": ["hyperstatic/core/__init__.py: Api.assemble, solve_static, result_get_nodal_displacement", "hyperstatic/core/fe_model/assembly.py: Assembly", "hyperstatic/core/fe_model/element/line/beam.py: Beam", "hyperstatic/core/fe_model/element/line/__init__.py: Line", "hyperstatic/core/fe_solver/static.py: StaticSolver.solve_linear"]}
{"id": "C109", "title": "Grasshopper: merged points", "statement": "The assembling component merges drawn points: different nodes of the assembled model lie at least the tolerance apart, and every node is a drawn point.", "quantifier": "all drawings and tolerances", "why_tests_cant": "All configurations of points.", "anchors": ["hyperstatic/app/scripts/grasshopper/run/assemble.py: find_pt, generating topology"]}
{"id": "C110", "title": "Grasshopper: ends, loads and supports find their nodes", "statement": "Each end of a drawn beam, each load and each support is attached to the first node nearer than the tolerance; beams that meet in a point share its node.", "quantifier": "all drawings with any number of beams, loads and supports", "why_tests_cant": "Depends on every earlier point of the drawing.", "anchors": ["hyperstatic/app/scripts/grasshopper/run/assemble.py: find_pt, generating topology"]}
{"id": "C111", "title": "Grasshopper: the structure of the script", "statement": "Running the script written for a drawing gives a structure with the merged nodes at their places in metres, the drawn beams between them, and their material and section constants in newtons and metres, up to the decimals written.", "quantifier": "all drawings with general sections for which a script is written", "why_tests_cant": "The whole script, for drawings of any size.", "anchors": ["hyperstatic/app/scripts/grasshopper/run/assemble.py", "hyperstatic/core/__init__.py: Workflow"]}
{"id": "C112", "title": "Grasshopper: units", "statement": "With numbers written exactly, the script of a drawing in another unit is the script of the same numbers in metres and newtons converted call by call.", "quantifier": "all drawings and both units of length and force", "why_tests_cant": "All drawings and units.", "anchors": ["hyperstatic/app/scripts/grasshopper/run/assemble.py: scale, fscale"]}
{"id": "C113", "title": "Grasshopper: rounding", "statement": "Numbers in the script are the intended ones to six decimals; a positive second moment of area stays positive.", "quantifier": "all numbers and drawings", "why_tests_cant": "All real values.", "anchors": ["hyperstatic/app/scripts/grasshopper/run/assemble.py: generate script"]}
{"id": "C114", "title": "Grasshopper: objects of the components", "statement": "A drawing made with the components for materials, sections and beams can be assembled.", "quantifier": "all such drawings", "why_tests_cant": "All drawings.", "anchors": ["hyperstatic/app/scripts/grasshopper/material/material_isotropic.py", "hyperstatic/app/scripts/grasshopper/cross_section/beam_section_general.py", "hyperstatic/app/scripts/grasshopper/run/assemble.py"]}
{"id": "C115", "title": "Grasshopper: loads at one node", "statement": "The load on a node of the structure is the sum of the loads drawn at it.", "quantifier": "all drawings for which a script is written, all nodes", "why_tests_cant": "All coincidences of points within the tolerance.", "anchors": ["hyperstatic/app/scripts/grasshopper/run/assemble.py: define load, apply load"]}
{"id": "C116", "title": "Grasshopper: supports at one node", "statement": "A component of a node is held when some restraint drawn at it holds it.", "quantifier": "all drawings for which a script is written, all nodes and components", "why_tests_cant": "All coincidences of points within the tolerance.", "anchors": ["hyperstatic/app/scripts/grasshopper/run/assemble.py: apply restraints", "hyperstatic/app/scripts/grasshopper/boundary/node_restraint.py"]}
{"id": "C117", "title": "Grasshopper: a written script defines the nodes", "statement": "When a script was written, running it defines the nodes of the drawing.", "quantifier": "all drawings for which a script is written", "why_tests_cant": "All drawings and shapes of sections.", "anchors": ["hyperstatic/app/scripts/grasshopper/run/assemble.py: define frame sections", "hyperstatic/core/__init__.py: add_beam_section_I"]}
{"id": "C118", "title": "Reported nodal displacements are exact", "statement": "For a frame whose supports prevent free motion, the nodal displacements solve_static reports are those of Euler-Bernoulli beam theory itself, in which the displacements along each beam are arbitrary functions rather than the polynomials of the element: every answer of beam theory has the reported displacements at the nodes, and for nodal, distributed and concentrated loads such an answer exists.", "quantifier": "all histories of calls defining a frame, all cases, all displacement fields along the beams", "why_tests_cant": "Compares the result with an infinite-dimensional problem, for all frames and loads.", "anchors": ["hyperstatic/core/__init__.py: Workflow.solve_static", "hyperstatic/core/fe_model/element/line/beam.py: Beam.integrate_K", "hyperstatic/core/fe_model/load/pattern.py: LoadPattern.set_beam_load_distributed, set_beam_load_concentrated"]}
{"id": "C119", "title": "Reported deformation of an unloaded beam", "statement": "For a beam that carries no load between its ends, result_get_beam_deformation at any relative position between 0 and 1 returns the axial displacement, the two deflections and the twist of exact beam theory at that position.", "quantifier": "all histories of calls defining a frame, all cases, all beams without loads of their own, all relative positions", "why_tests_cant": "A continuum of positions, compared with arbitrary displacement functions.", "anchors": ["hyperstatic/core/__init__.py: Api.result_get_beam_deformation", "hyperstatic/core/fe_post/beam.py: BeamResultResolver.resolve_beam_deformation", "hyperstatic/core/fe_model/element/line/beam.py: Beam.interpolate"]}
{"id": "C120", "title": "Least potential energy among all deformations", "statement": "A deformation of the frame, with arbitrary displacement functions along the beams, has the least potential energy of all deformations that respect the supports exactly when it is the answer of beam theory; every such deformation has the reported displacements at the nodes.", "quantifier": "all histories of calls defining a frame, all cases, all deformations", "why_tests_cant": "Minimum over an infinite-dimensional set.", "anchors": ["hyperstatic/core/__init__.py: Workflow.solve_static"]}
{"id": "C121", "title": "Damping takes energy out", "statement": "In a direct time integration the damping forces never do positive work on the structure: whatever the velocities, the power drawn by damping is not negative.", "quantifier": "all histories of calls, all time-history cases, all velocities of the unrestrained components", "why_tests_cant": "A quadratic form over all velocities, for every structure.", "anchors": ["hyperstatic/core/fe_solver/dynamic.py: TimeHistorySolver.solve_direct_time_integration", "hyperstatic/core/fe_model/__init__.py: Assembly.assemble_K, assemble_M"]}
{"id": "C122", "title": "Constant average acceleration keeps the energy", "statement": "With beta = 1/4 and gamma = 1/2, without damping and loads and from a state in equilibrium with its accelerations, every row of the table of Newmark's method has the same kinetic plus strain energy, for every time step and any number of steps.", "quantifier": "all symmetric stiffness and mass matrices, all initial states, all time steps, runs of any length", "why_tests_cant": "Any number of steps and any structure.", "anchors": ["hyperstatic/core/fe_solver/dynamic.py: TimeHistorySolver.solve_Newmark_beta"]}
{"id": "C123", "title": "Tables of an s2k file", "statement": "Importing an s2k file that was written in the format of SAP2000 succeeds, and what is read is every table with every row and every entry of the file, whatever the number of lines a row is spread over.", "quantifier": "all files of any number of tables, rows, lines per row and entries", "why_tests_cant": "All texts; depends on quoting and continuation of lines of any length.", "anchors": ["hyperstatic/app/general/io/s2k.py: import_s2k, split_row, parse_lines"]}
{"id": "C124", "title": "Drawings", "statement": "Importing a drawing makes one frame for each line of the chosen layers that has a length, between joints at the ends of the line, and lines that meet share a joint; frames that were there keep their ends; an import that reports a failure changes nothing. Exporting the imported model gives the lines again.", "quantifier": "all drawings, layers, units and models that can be reached, with any number of lines and joints", "why_tests_cant": "Depends on the order of all joints by x, y, z and on distances between all of them.", "anchors": ["hyperstatic/app/general/io/dxf.py: import_dxf, export_dxf", "hyperstatic/app/general/object/frame.py: add_frame_batch"]}
{"id": "C125", "title": "Sessions do not disturb one another", "statement": "An Api object answers queries and returns truth values as if it were the only one, whatever other Api objects, in the same or other processes, do in between; an object loaded from a folder works in that folder.", "quantifier": "all numbers of sessions, all work paths and all interleavings of starts, calls, loads, deaths and copies of folders", "why_tests_cant": "The number of interleavings is unbounded; a test runs one schedule.", "anchors": ["hyperstatic/core/__init__.py: Api.__init__, save, load, assemble, solve_static", "hyperstatic/core/fe_model/assembly.py: Assembly.save", "hyperstatic/core/fe_solver/static.py: solve_linear"]}
{"id": "C126", "title": "Processes that die", "statement": "When a process dies at any moment, also in the middle of a call, models saved before can still be loaded, and a new session in the same folder gets the results it would get in an empty folder.", "quantifier": "all histories, all calls in which a process dies and all points between the writes of that call", "why_tests_cant": "The point of death and the files left by earlier histories cannot be enumerated.", "anchors": ["hyperstatic/core/__init__.py: Api.save, Api.load, assemble, solve_static", "hyperstatic/core/fe_model/assembly.py: Assembly.save", "hyperstatic/core/fe_solver/static.py: solve_linear"]}
{"id": "C127", "title": "The result viewer draws the reported displacements", "statement": "Whatever buttons are pressed and wherever the slider is put, the result viewer of a saved model draws each beam once between its nodes, each node at its location moved by the reported displacement times the scale, and nothing else; the labels of the buttons say what is drawn.", "quantifier": "all models, all results and all sequences of clicks and slider moves", "why_tests_cant": "The sequences of clicks are unbounded; a test follows a few of them, and pictures are checked by eye.", "anchors": ["hyperstatic/app/viz/viz_core/__init__.py: ViewerBase", "hyperstatic/app/viz/viz_core/result_deformation.py: ResultViewer"]}
{"id": "C128", "title": "The viewers of models and loads", "statement": "In the viewers of models and of loads the label of a button offers to hide its part exactly if the part is drawn; load arrows end at their nodes, are parallel to the forces, in proportion to them, and the longest is a fifth of the size of the scene.", "quantifier": "all sequences of presses, all models and all loads", "why_tests_cant": "The sequences of presses and the loads are unbounded.", "anchors": ["hyperstatic/app/viz/viz_core/model_basic.py: BasicViewer", "hyperstatic/app/viz/viz_core/model_load.py: LoadViewer", "hyperstatic/app/viz/viz_core/__init__.py: scene_radius"]}
{"id": "C129", "title": "Response spectra by Fourier transforms", "statement": "fft2spec(file, dt, xi, a_max) returns for each period T = dt, 2 dt, ... up to 6 s the largest value, in g, of the steady response of an oscillator of natural period T and damping ratio xi to the record, scaled to the peak a_max.", "quantifier": "all records with a positive largest number, all steps, all damping ratios between 0 and 1", "why_tests_cant": "Records are arbitrary sequences and the oscillator is a differential equation; tests compare a few numbers with other programs.", "anchors": ["hyperstatic/app/seismic/wave2spec.py: fft2spec, read_wave"]}
{"id": "C130", "title": "How Fourier spectra depend on the record", "statement": "Multiplying a record by a positive number, adding quiet time before it and reversing its sign do not change the spectrum of fft2spec; the ordinates are proportional to a_max.", "quantifier": "all records, steps, damping ratios, peaks and lengths of quiet time", "why_tests_cant": "The records and lengths are unbounded.", "anchors": ["hyperstatic/app/seismic/wave2spec.py: fft2spec, read_wave"]}
{"id": "C131", "title": "Response spectra by superposed impulses", "statement": "wave2spectrum(file, dt, xi, a_max) returns for each period T the largest displacement of an oscillator of natural period T and damping ratio xi under the impulses of the record, the pseudo-velocity and the pseudo-acceleration; the ordinates are not negative, are proportional to a_max and do not depend on the unit of the record or on quiet time before it.", "quantifier": "all records of at least two numbers with a positive largest one, all steps and damping ratios", "why_tests_cant": "Records are arbitrary sequences and the oscillator is a differential equation.", "anchors": ["hyperstatic/app/seismic/wave2spec.py: wave2spectrum, duhamel"]}
{"id": "C132", "title": "Selection of records for a design spectrum", "statement": "select(files, amax, Tg, damp, sensitive, num_wave) orders the records by the squared distance between their response spectrum and the design spectrum over the periods of the sensitive interval, names the num_wave closest as champions and plots their spectra; what is reported of a record does not depend on the other records.", "quantifier": "all lists of files, records, steps, design spectra, sensitive intervals and numbers of champions", "why_tests_cant": "The lists of files and the records are unbounded.", "anchors": ["hyperstatic/app/seismic/wave_selection.py: select, square_err", "hyperstatic/app/seismic/wave2spec.py: fft2spec, GB50011_spectrum"]}
{"id": "C133", "title": "The forces of the supports are in equilibrium with the loads", "statement": "For the displacements reported for a stable frame there is exactly one set of forces on the restrained components that balances loads and member forces. Together with the loads they do no work in any rigid motion of the whole or of a part without connection to the rest, so the sums of forces and of moments about any point vanish; and replacing supports by these forces leaves the displacements unchanged.", "quantifier": "all histories that describe a frame, all cases, all stable structures, all rigid motions and reference points", "why_tests_cant": "Structures, supports and loads are unbounded.", "anchors": ["hyperstatic/core/__init__.py: Api.assemble, Api.solve_static, Api.result_get_nodal_displacement", "hyperstatic/core/fe_model/assembly.py: Assembly", "hyperstatic/core/fe_solver/static.py: StaticSolver"]}
{"id": "C134", "title": "An additional support acts as the force that brings its component to rest", "statement": "The displacements reported for a frame with one more restrained component are those without it, minus the multiple of those under a unit load at that component that brings the component to rest (force method). A unit load moves its own component in its own direction.", "quantifier": "all histories that describe two frames differing by one restrained component, all loads", "why_tests_cant": "Structures, loads and components are unbounded.", "anchors": ["hyperstatic/core/__init__.py: Api.assemble, Api.solve_static, Api.result_get_nodal_displacement", "hyperstatic/core/fe_model/assembly.py: Assembly", "hyperstatic/core/fe_solver/static.py: StaticSolver"]}
{"id": "C135", "title": "Strain energy of the reported displacements", "statement": "The strain energy at the reported displacements is half the work of the loads, and its derivative with respect to one nodal load is the reported displacement of the loaded component (Castigliano).", "quantifier": "all histories that describe a frame, all cases, all nodes and components", "why_tests_cant": "Loads and structures are unbounded; the derivative is a limit.", "anchors": ["hyperstatic/core/__init__.py: Api.assemble, Api.solve_static, Api.result_get_nodal_displacement", "hyperstatic/core/fe_model/assembly.py: Assembly", "hyperstatic/core/fe_solver/static.py: StaticSolver"]}
{"id": "C136", "title": "Names carry no meaning", "statement": "Giving other names to nodes, materials, sections, beams, load patterns and load cases, different ones to different things, leaves the reported displacements unchanged up to the names.", "quantifier": "all histories that describe a frame, all injective renamings, all cases", "why_tests_cant": "Names, histories and renamings are unbounded.", "anchors": ["hyperstatic/core/__init__.py: Api (all calls with names)", "hyperstatic/core/__init__.py: Api.assemble, Api.solve_static, Api.result_get_nodal_displacement", "hyperstatic/core/fe_model/assembly.py: Assembly", "hyperstatic/core/fe_solver/static.py: StaticSolver"]}
{"id": "C137", "title": "Symmetric structures have symmetric displacements", "statement": "If a structure with its supports and loads is its own mirror image in coordinate planes (beams may be described from either end), the reported displacements of paired nodes are mirror images of each other.", "quantifier": "all histories that describe a frame, all pairings of nodes and beams, all reflections in coordinate planes", "why_tests_cant": "Structures, pairings and loads are unbounded.", "anchors": ["hyperstatic/core/__init__.py: Api.assemble, Api.solve_static, Api.result_get_nodal_displacement", "hyperstatic/core/fe_model/assembly.py: Assembly", "hyperstatic/core/fe_solver/static.py: StaticSolver"]}
{"id": "C138", "title": "Reciprocity, least energy and equilibrium of forces of models with beams and shells", "statement": "For a stable model of beams and shells the solver reports displacements; the loads of one case do as much work on the displacements of another as the other way round; the reported displacements, and no others, minimise the total potential energy; there is exactly one set of support forces balancing loads and internal forces, and the sum of these and all loads is zero.", "quantifier": "all histories without repeated node or pattern names, all cases, all stable models with regular shells, all quadrature rules", "why_tests_cant": "Structures, supports and loads are unbounded.", "anchors": ["hyperstatic/core/__init__.py: Api.assemble, Api.solve_static, Api.result_get_nodal_displacement", "hyperstatic/core/fe_model/assembly.py: Assembly", "hyperstatic/core/fe_solver/static.py: StaticSolver", "hyperstatic/core/fe_model/element/quad/DKGQ.py: DKGQ"]}
{"id": "C139", "title": "The supports of models with shells balance the moments of the loads", "statement": "For a solved stable model of beams and shells the moments of all loads and of the support forces about any point add up to zero.", "quantifier": "all histories without repeated node or pattern names, all cases, all stable models with regular shells, all points", "why_tests_cant": "Structures, supports and loads are unbounded.", "anchors": ["hyperstatic/core/__init__.py: Api.assemble, Api.solve_static, Api.result_get_nodal_displacement", "hyperstatic/core/fe_model/assembly.py: Assembly", "hyperstatic/core/fe_solver/static.py: StaticSolver", "hyperstatic/core/fe_model/meta/membranes/T9/__init__.py", "hyperstatic/core/fe_model/meta/membranes/GQ12/__init__.py"]}
{"id": "C140", "title": "Laws of the vibration modes", "statement": "A modal analysis of a frame in which every free component carries mass returns for every n_modes below the number of free components. Its shapes are modes of the described structure with the reported squared frequencies: modes with different values are orthogonal with respect to inertia and elastic work; the values are never negative, and positive for a stable frame. The smallest reported value is the minimum of Rayleigh's quotient over all displacements that the restraints allow. Making beams stiffer or lighter, masses smaller, or adding restraints never raises the number of values below any threshold; multiplying every modulus by a factor multiplies all values by it.", "quantifier": "all histories without shells and repeated node names, all modal cases, all numbers of modes, all pairs of comparable structures, all thresholds", "why_tests_cant": "Structures, masses, restraints and numbers of modes are unbounded, and two whole analyses are compared.", "anchors": ["hyperstatic/core/fe_solver/dynamic.py: ModalSolver.solve_eigen", "hyperstatic/core/fe_model/assembly.py: Assembly.assemble_K, assemble_M, assemble_boundary", "hyperstatic/core/fe_post/structure.py: resolve_modal_frequency"]}
{"id": "C141", "title": "Combined modal responses form a norm", "statement": "The CQC and SRSS combinations of modal responses with a common positive damping ratio and positive periods are real numbers (never nan), not negative, at most the sum of the absolute values, subadditive and homogeneous; they depend neither on the order of the modes nor on the unit of time. SRSS is the root of the sum of squares. CQC is at least SRSS for responses of one sign, is the absolute sum for modes of one period, and is SRSS for undamped modes of different periods. Any other word raises.", "quantifier": "all numbers of modes, responses, positive periods and damping ratios", "why_tests_cant": "The quadratic form under the root must be non-negative for every number of modes: no sample shows it.", "anchors": ["hyperstatic/core/fe_solver/dynamic.py: ResponseSpectrumSolver.solve"]}
{"id": "C142", "title": "Response spectrum cases give the combined response of the modes", "statement": "Solving a response spectrum case of a saved assembly succeeds and combines the modal responses by the square root of the sum of squares or by the complete quadratic combination of the literature, with the damping ratios and frequencies of the modes.", "quantifier": "all assemblies, cases, numbers of modes, eigenvalues, damping ratios, spectra", "why_tests_cant": "All cases and all mode sets.", "anchors": ["hyperstatic/core/fe_solver/dynamic.py: ResponseSpectrumSolver.solve", "hyperstatic/core/fe_model/load/loadcase.py: ResponseSpectrumCase.get_settings"]}
{"id": "C143", "title": "Thick plates: energy, rigid motions, constant bending and shear", "statement": "The stiffness of the thick quadrilateral plate is symmetric and does no negative work; it does not resist rigid motions, and rigid motions are the only motions without strain anywhere in the element, and the only ones without energy when the quadrature has four points like those of Gauss; deflections of constant curvature do exactly the work of the plate over the area of the element, whatever the convex shape and the thickness; at its corners the shear along each side is the one Timoshenko's theory gives a strip of plate along that side.", "quantifier": "all convex quadrilaterals, thicknesses, materials, quadratures with non-negative weights, motions", "why_tests_cant": "All shapes, thicknesses and motions.", "anchors": ["hyperstatic/core/fe_model/meta/plates/TMQ/__init__.py: get_binary_BDB", "hyperstatic/core/fe_model/element/quad/TMQ.py: TMQ.integrate_K"]}
{"id": "C144", "title": "Thick plates do not lock and become thin plates", "statement": "Whatever the motion of its nodes, the energy of a thick plate over the cube of its thickness has a finite limit as the thickness goes to zero, to which shear does not contribute; the limit is the energy of the thin plate element of the same shape.", "quantifier": "all convex quadrilaterals, materials, quadratures, motions; limit over the thickness", "why_tests_cant": "A limit over all thicknesses.", "anchors": ["hyperstatic/core/fe_model/meta/plates/TMQ/__init__.py: get_binary_BDB", "hyperstatic/core/fe_model/element/quad/TMQ.py: TMQ.integrate_K", "hyperstatic/core/fe_model/meta/plates/metaDKQ/__init__.py: get_binary_BDB"]}
{"id": "C145", "title": "Shells of thick plates: rigid motions", "statement": "A rigid motion of a shell of thick plates that does not turn it in its own plane causes no nodal forces.", "quantifier": "all convex plane quadrilaterals in space, sections, rigid motions", "why_tests_cant": "All shapes, positions and motions.", "anchors": ["hyperstatic/core/fe_model/meta/plates/TMQ/__init__.py: get_binary_BDB", "hyperstatic/core/fe_model/element/quad/TMGQ.py: TMGQ.integrate_K, TMGQ.transform_matrix"]}
{"id": "C146", "title": "Calls that overlap in time", "statement": "Calls of several processes that overlap have the answers of the same calls made one after the other in some order: a process in a folder of its own, or about files nobody else writes, is answered as if it were alone; cases of an assembled model can be solved by several processes at once; processes that share a model never get a wrong displacement.", "quantifier": "all numbers of processes, sequences of calls, interleavings of their file operations, moments at which a process stops", "why_tests_cant": "All interleavings; a test runs one schedule.", "anchors": ["hyperstatic/core/__init__.py: Api.save, Api.load, Api.assemble, Api.solve_static, Api.result_get_nodal_displacement, Api.result_get_all_nodal_displacement, Api.result_get_beam_deformation", "hyperstatic/core/fe_model/assembly.py: Assembly.save", "hyperstatic/core/fe_solver/static.py: StaticSolver.solve_linear"]}
{"id": "C147", "title": "Settings of a project", "statement": "The name, author, unit and description last set by a call that reported success are what the getters answer after any calls that do not set them again; a value is accepted exactly when it is a documented one; a tolerance set in one unit is read as the same length in any other; a new project has the documented settings.", "quantifier": "all databases, values, units and sequences of other calls", "why_tests_cant": "All histories of calls between setting and reading.", "anchors": ["hyperstatic/app/general/environment/project.py: set_project_name, set_author, set_unit, set_description, set_tolerance and their getters", "hyperstatic/app/general/db.py: create", "hyperstatic/app/general/orm.py: Config"]}
{"id": "C148", "title": "Results kept in a project", "statement": "Results stored in a project are read back in the unit in force: displacements, reactions, forces of all segments of a frame in order, periods of a case, all or one by its order; nothing stored reads as None; answers in two units denote the same quantity; `run` computes them.", "quantifier": "all result tables, units, databases, names of joints, frames and cases", "why_tests_cant": "All tables and all units.", "anchors": ["hyperstatic/app/general/result/result.py: get_result_joint_displacement, get_result_joint_reaction, get_result_frame_force, get_result_period", "hyperstatic/app/general/model.py: Model.run, Model.scale"]}
{"id": "C149", "title": "Shells and supports are drawn where they are", "statement": "Every model with a node can be viewed. Whatever buttons are pressed, each shell is drawn once between the places of its nodes, moved with the deformation that is drawn; each component held by a support, also of the case that is shown, has one symbol with its tip at the node.", "quantifier": "all models with shells and supports, all sequences of clicks", "why_tests_cant": "The models and the sequences of clicks are unbounded; pictures are checked by eye.", "anchors": ["hyperstatic/app/viz/viz_core/__init__.py: init_shells, init_restraints, scene_radius", "hyperstatic/app/viz/viz_core/result_deformation.py: __reset_deformation, __show_result_deformation"]}
{"id": "C150", "title": "The settings of an analysis case govern its analysis", "statement": "A static case has the order it was created with, or the order set later, which must be 1, 2 or 3. A modal case is analysed for its number of modes, with the loads of the case as masses if use_load_as_mass is set. A case that starts from another case is analysed from there. A time history case is analysed by the algorithm chosen, and solve either raises or stores the motion.", "quantifier": "all projects, all cases and all settings", "why_tests_cant": "The settings combine freely with all models; a setting that is silently ignored still gives plausible results.", "anchors": ["hyperstatic/core/fe_model/load/loadcase.py: StaticCase, ModalCase, TimeHistoryCase", "hyperstatic/core/fe_solver/dynamic.py: ModalSolver.solve, solve_eigen, TimeHistorySolver.solve", "hyperstatic/core/fe_model/assembly.py: assemble_M"]}
{"id": "C151", "title": "Second-order analysis reports an equilibrium configuration", "statement": "Wherever the linear analysis of a stable frame answers, solve_2nd_order answers too, and the displacements it reports respect the supports and balance the loads. A run that is to start from a preceding case starts from it, or raises and leaves the files as they are.", "quantifier": "all histories, frames, cases and sound linear solvers", "why_tests_cant": "All structures, loads and orders in which supports are set.", "anchors": ["hyperstatic/core/fe_solver/static.py: solve_2nd_order"]}
{"id": "C152", "title": "The total reaction of a solved case can be read", "statement": "After a case has been solved, resolve_structural_reaction returns the reaction.", "quantifier": "all histories of calls and solver runs, all cases", "why_tests_cant": "Histories are unbounded.", "anchors": ["hyperstatic/core/fe_post/structure.py: StructureResultResolver.resolve_structural_reaction", "hyperstatic/core/fe_solver/static.py: np.save", "hyperstatic/core/fe_solver/dynamic.py: np.save"]}
{"id": "C153", "title": "What a query returns belongs to the caller", "statement": "Whatever a script writes into the arrays that get_node_location, get_node_restraints and get_all_nodal_load returned, every query goes on to answer as if it had not, and each beam is solved with the axes of the line between its ends.", "quantifier": "all histories of calls, queries and writes into the arrays returned so far, also across saving and loading", "why_tests_cant": "Whether a write reaches the model depends on which object is shared with which table at that time, over unbounded histories.", "anchors": ["hyperstatic/core/__init__.py: get_node_location, get_node_restraints, get_all_nodal_load, load", "hyperstatic/core/fe_model/model.py: get_node_location, get_nodal_restraint_dict", "hyperstatic/core/fe_model/node.py: Node.loc", "hyperstatic/core/fe_model/load/pattern.py: get_nodal_f_dict"]}
{"id": "C154", "title": "Artificial ground motions follow their target spectrum", "statement": "The script that makes an artificial motion takes for each component the ordinate of the target spectrum at the frequency of that component, gives it the spectral density that belongs to this ordinate, and scales each component by the ratio of the target to the spectrum of the motion. The envelope stays between 0 and 1, and no value of the motion exceeds the sum of the amplitudes.", "quantifier": "all phases, all frequencies and instants, any number of iterations", "why_tests_cant": "Phases are random, so a test sees one draw; the claims are about every draw and every frequency.", "anchors": ["hyperstatic/app/seismic/spec2wave.py: A_fit, ST, Sτ, f, fft2spec", "hyperstatic/app/seismic/wave2spec.py: GB50011_spectrum"]}
{"id": "C155", "title": "What was added is listed, and nothing else", "statement": "A joint, frame, material, section, load case or area that a call reports as added is in the list of its kind after any further calls that succeed, until it is deleted or merged; and every listed name was there when the model was opened, or was given to or drawn by a call since then.", "quantifier": "all sessions, all histories of calls, all kinds of objects and names", "why_tests_cant": "Rows wait to be written, are rolled back by later failures and are merged; which of them a list shows depends on the whole history.", "anchors": ["hyperstatic/app/general/model.py: Model", "hyperstatic/app/general/object/joint.py: add_joint, get_joint_names", "hyperstatic/app/general/object/frame.py: add_frame, add_frame_batch, get_frame_names", "hyperstatic/app/general/object/area.py: add_area, add_area_batch, get_area_names", "hyperstatic/app/general/property/material.py: add_material, get_material_names", "hyperstatic/app/general/load/loadcase.py: add_loadcase, get_loadcase_names"]}
{"id": "C156", "title": "The consistent mass of a beam is that of its moving shape", "statement": "For the consistent mass matrix M of a beam and any end velocities d, dᵀ M d is the integral along the beam of rho A times the squared velocities of the element's own displacement field plus rho J times the squared rate of twist; it is positive for every motion but rest.", "quantifier": "all beam constants with positive area, all lengths, all end velocities", "why_tests_cant": "The matrix is a list of literal entries; a wrong or missing one shows only for motions that combine the right two components.", "anchors": ["hyperstatic/core/fe_model/element/line/beam.py: Beam.integrate_M"]}
{"id": "C157", "title": "Slightly different numbers give slightly different displacements", "statement": "For a stable frame of positive stiffness and every ε > 0 there is a δ > 0 such that changing every number given in the calls (coordinates, material and section values, loads, factors) by at most δ changes every reported displacement component by less than ε, as long as the calls that define beams and sections are still accepted; and the changed frame is still stable.", "quantifier": "all histories describing plain frames, all changed histories with the same names, all cases, nodes and components, all ε", "why_tests_cant": "The code decides with tolerances (vertical or not, far enough apart), where results can jump; only a proof over all inputs shows that they do not.", "anchors": ["hyperstatic/core/__init__.py: Api.add_beam, Api.add_simple_beam, Api.solve_static, Api.result_get_nodal_displacement", "hyperstatic/core/fe_model/element/line/__init__.py: Line", "hyperstatic/common/csys.py: Cartesian"]}
{"id": "C158", "title": "Determinate supports do not depend on the structure between them", "statement": "If the supports of a frame are statically determinate (no forces at the supports are in balance with each other except zero), then every frame with the same supports, under loads with the same resultant force and moment, is held by the same support forces, whatever its beams, sections, materials and other nodes. Determinate supports are at most six restrained components; a frame with a unique answer has at least six of them in every part that is not connected to the rest.", "quantifier": "all pairs of histories describing plain frames, all load cases with the same resultants, all parts", "why_tests_cant": "The statement compares every structure that can be built between given supports.", "anchors": ["hyperstatic/core/__init__.py: Api.solve_static, Api.set_nodal_restraint, Api.add_beam, Api.add_simple_beam, Api.result_get_nodal_displacement"]}
{"id": "C159", "title": "A branch that carries nothing changes nothing", "statement": "Nodes and beams attached to a frame at a single node, without loads and supports, do not change any displacement reported for the frame; the nodes of the branch are reported to move as a rigid body with the node where the branch is attached (same rotation, displacement plus rotation times arm).", "quantifier": "all histories describing plain frames, all branches of any number of nodes and beams, all cases", "why_tests_cant": "The branch is arbitrary, and its stiffness enters the same matrix as that of the frame.", "anchors": ["hyperstatic/core/__init__.py: Api.solve_static, Api.set_nodal_restraint, Api.add_beam, Api.add_simple_beam, Api.result_get_nodal_displacement"]}
{"id": "C160", "title": "An inexact linear solver spoils the answers only in proportion", "statement": "If the sparse solver leaves in each equation a residual of at most ε times the largest right hand side, then solve_static still returns True for a stable frame; restrained components are reported as zero; the displacements reported are the exact answer for the given loads plus nodal forces of at most ε times the largest load, and differ from the exact answer by at most a constant times ε, where the constant depends on the frame and case but not on the solver. The same linear bound of the error, for ε small enough, and the same success hold for a solver with a small backward error: one that answers exactly for a matrix and a right hand side whose entries differ by at most ε times the largest one. Both also hold for models of beams and regular shells, whatever the quadrature. What is built by a history of calls does not depend on the solver or the quadrature at all.", "quantifier": "all plain frames and all models of beams and regular shells, all load cases, all ε ≥ 0, all solvers with residual within ε or backward error within ε", "why_tests_cant": "The solver is any function with small residuals; the bound must hold for every one of them and for systems of every size.", "anchors": ["hyperstatic/core/fe_solver/static.py: solve_linear", "hyperstatic/core/__init__.py: Api.solve_static, Api.result_get_nodal_displacement", "hyperstatic/core/fe_model/assembly.py: Assembly.assemble_K"]}
{"id": "C161", "title": "The viewers started from Grasshopper show the model, its supports and its deformation", "statement": "The viewer of results opens for every model with nodes, a case \"case1\" and results; whatever is clicked, it draws every beam between its end nodes moved by the reported displacements times the scale of the slider, draws the nodes exactly when the button offers to hide them, and draws every support that holds in the case. The viewer of models opens for every model with nodes and loads, and draws each load as one arrow that ends at its node, all to one scale.", "quantifier": "all models built by any sequence of calls, all sequences of clicks", "why_tests_cant": "The picture depends on the whole history of clicks and of calls; every sequence of them counts.", "anchors": ["hyperstatic/app/viz/viz_core/viz_core_model.py: Viewer", "hyperstatic/app/viz/viz_core/viz_core_result_deformation.py: Viewer", "hyperstatic/app/scripts/grasshopper/run/genviz.py"]}
{"id": "C162", "title": "The check for duplicates keeps a model free of them", "statement": "A model whose nodes and beams are all added with check_dup=True never has two nodes at the same place (within 1e-9) nor two beams joining the same places, in either order. Adding a node where there is one changes nothing and returns the number of that node; the same for beams. The name given can be used afterwards.", "quantifier": "all sequences of calls with the check, all places, names and properties", "why_tests_cant": "The duplicate can be any earlier node of a history of any length, and near-coincidence is not transitive.", "anchors": ["hyperstatic/core/fe_model/model.py: add_node, add_beam, add_simple_beam (check_dup=True)"]}
{"id": "C163", "title": "Pattern and case objects apply the latest loads with the latest factors", "statement": "Whatever a program does with pattern objects and a case object (loads set and changed before or after the pattern is added, factors changed with set_pattern_factor, curves), the case applies at each node and beam the latest loads of its patterns times the latest factors times the curve. Every change that is accepted can be evaluated afterwards. A prescribed displacement is the latest one given, appears in the table of the case and takes part in the analysis; the tables of a case can be asked for.", "quantifier": "all programs of any length over pattern objects and a case object, all curves, all instants", "why_tests_cant": "The loads depend on the whole history of aliased objects; no finite set of programs covers it.", "anchors": ["hyperstatic/core/fe_model/load/__init__.py: LoadCase.set_pattern_factor, get_nodal_f, get_beam_f, get_nodal_d_dict, get_beam_f_dict, get_nodal_f_time_history_dict", "hyperstatic/core/fe_model/load/pattern.py: LoadPattern.set_nodal_disp, get_nodal_d, get_beam_concentrated"]}
{"id": "C164", "title": "After a short push a direct time integration stays bounded when the steps are small", "statement": "When no motion draws power from the damping forces of a structure, and it is loaded at the first instant only, the displacements that a direct time integration saves stay below a bound that does not depend on how long the analysis goes on, provided the step is small enough.", "quantifier": "all structures, all modes, all step sizes below some size, all lengths of the analysis", "why_tests_cant": "The growth shows in the limit of long analyses and small steps; every single run is finite.", "anchors": ["hyperstatic/core/fe_solver/dynamic.py: TimeHistorySolver.solve_direct_time_integration"]}
{"id": "C165", "title": "Histories superpose, do not anticipate their loads, and follow a delay", "statement": "The displacements that a direct time integration saves depend linearly on the load curves: a weighted sum of curves gives the weighted sum of the histories, and multiplying the curves by a number multiplies the history by it. A displacement at an instant depends on the curves before that instant only. When the curves come some instants later, so does the history, and the structure is at rest until then.", "quantifier": "all structures, all loads, all curves, all weights, all instants, all step sizes with regular equations", "why_tests_cant": "These are relations between several runs over all curves; a test compares a few curves on one structure.", "anchors": ["hyperstatic/core/fe_solver/dynamic.py: TimeHistorySolver.solve_direct_time_integration", "hyperstatic/core/fe_model/load/__init__.py: LoadCase.get_nodal_f, get_beam_f"]}
{"id": "C166", "title": "The choice of the linear solver does not change the answer", "statement": "Whichever solver solve_linear is told to use, and whatever libraries are installed, either it raises and leaves all results as they were, or it saves displacements that respect the restraints and are in equilibrium with the loads.", "quantifier": "all stable structures, all cases, all words for the solver, all libraries that do what they promise", "why_tests_cant": "Equilibrium must hold for every structure and every solver; the libraries are not installed where the tests run.", "anchors": ["hyperstatic/core/fe_solver/static.py: StaticSolver.solve_linear"]}
{"id": "C167", "title": "A beam can be turned about its axis", "statement": "After any assignments to the rotation and the releases of a beam object its local axes are those of the constructor, turned about the axis of the beam by the rotation that the object reports; ends, length and section stay. A beam with equal inertias has the same stiffness in global axes however it is turned, any beam has after half turns, and a quarter turn has the effect of exchanging the inertias. Turning the coordinate system of a node leaves its location and mass, and its transformation stays orthogonal; initialize_csys makes it the identity.", "quantifier": "all beams and nodes, all sequences of assignments and rotations, all angles", "why_tests_cant": "The angles are real numbers and the assignments form sequences of any length.", "anchors": ["hyperstatic/core/fe_model/element/line/beam.py: Beam.rotation, Beam.releases, Beam.integrate_K", "hyperstatic/core/fe_model/element/line/simple_beam.py: SimpleBeam.rotation", "hyperstatic/core/fe_model/element/line/__init__.py: Line.transform_matrix", "hyperstatic/core/fe_model/node.py: Node.rotate_about_1axis, Node.rotate_about_2axis, Node.rotate_about_3axis, Node.initialize_csys, Node.transform_matrix"]}
{"id": "C168", "title": "The scripts shipped with the library print the deflections of beam theory", "statement": "The quickstart, with any span, section, material and load in place of its numbers, prints F L^3 / (3 E I3) for the tip of the cantilever. The script for the simply supported beam prints F L^3 / (48 E I3) twice: once for supports that hold the translations, once for clamped supports and released beam ends. The script for the modes runs to its end.", "quantifier": "all spans not shorter than a millimetre, all positive sections, all materials and loads", "why_tests_cant": "The claim is about all numbers a user may put into the scripts, and about the exact value printed.", "anchors": ["README.md", "doc/source/quickstart.md", "example/core/static/cantilerver_beam.py", "example/core/static/simply_supported_beam.py", "example/core/dynamic/cantilever_beam.py", "hyperstatic/core/__init__.py: Api.set_nodal_load, Api.solve_modal, Api.result_get_nodal_displacement, Api.set_beam_release"]}
{"id": "C169", "title": "A full disk or an unreadable file does no harm", "statement": "When a file cannot be opened, read or written, the call reports it with False or None and changes nothing: the model in memory, what was saved, assembled and solved before stay as they were. A call that reports success has all its effects. No answer is wrong, and repeating the call on a sound disk gives what it would have given at first.", "quantifier": "all models, all histories of calls and all choices of file operations that fail", "why_tests_cant": "Which of the file operations of a history fail is an arbitrary schedule.", "anchors": ["hyperstatic/core/__init__.py: Api.save, Api.load, Api.assemble, Api.solve_static, Api.result_get_nodal_displacement", "hyperstatic/core/fe_model/assembly.py: Assembly.save", "hyperstatic/core/fe_solver/static.py: StaticSolver.solve_linear"]}
{"id": "C170", "title": "The tolerance can be set", "statement": "After set_abs_tol(t) every new element is judged with the tolerance t, until the next set_abs_tol: a beam is made exactly when its ends are more than the tolerance apart, a finer tolerance refuses nothing that a coarser one takes, and the axes of what is made are right-handed and do not depend on the tolerance.", "quantifier": "all tolerances, all sequences of settings, all end points and corners", "why_tests_cant": "The claim is about every tolerance and every position of the ends, including the borders where the constructors change branch.", "anchors": ["hyperstatic/common/tolerance.py: Tolerance.set_abs_tol, Tolerance.abs_tol", "hyperstatic/common/csys.py: Cartesian.__init__, Cartesian.create_by_normal", "hyperstatic/core/fe_model/element/line/__init__.py: Line.__init__", "hyperstatic/core/fe_model/element/quad/__init__.py: Quad.__init__"]}
{"id": "C171", "title": "Shells are listed and located", "statement": "In a session that loads no project get_shell_names lists exactly the shells for which a call of add_shell has succeeded, each once and in the order of the first success; no other call changes the list or the nodes a shell reports, and get_shell_location gives the locations of these nodes.", "quantifier": "all sessions, all shell names, all kinds of calls", "why_tests_cant": "The list depends on the whole history of calls, with names used again and calls that fail in between.", "anchors": ["hyperstatic/core/__init__.py: Api.get_shell_names, Api.get_shell_node_names, Api.get_shell_location, Api.add_shell", "hyperstatic/core/fe_model/model.py: Model.get_shell_names, Model.get_shell_connection, Model.get_shell_location"]}
{"id": "C172", "title": "Compiled shell routines agree with their definitions", "statement": "The C routines shipped for the shell elements return, in every entry of the matrix, the value of the symbolic expression from which they are meant to be generated, for every material, thickness, position of the corners and point of the element; the stiffness matrix of a shell is therefore the same with either.", "quantifier": "all materials, thicknesses, corner coordinates and natural coordinates; every entry of the matrices", "why_tests_cant": "The routines are thousands of lines of generated arithmetic; a wrong term would show only for some shapes, and the text may be older than the definition.", "anchors": ["hyperstatic/core/fe_model/meta/membranes/T9/wrapped_code_0.c: autofunc", "hyperstatic/core/fe_model/meta/membranes/T9/metaT9.pyx: autofunc_c", "hyperstatic/core/fe_model/meta/membranes/T9/__init__.py: BDB", "hyperstatic/core/fe_model/meta/plates/metaDKT/wrapped_code_0.c: autofunc", "hyperstatic/core/fe_model/meta/plates/metaDKT/metaDKT.pyx: autofunc_c", "hyperstatic/core/fe_model/meta/plates/metaDKT/__init__.py: BDB", "hyperstatic/core/fe_model/element/tria/DKT.py: DKT.integrate_K", "hyperstatic/core/fe_model/meta/membranes/GQ12/wrapped_code_0.c: autofunc", "hyperstatic/core/fe_model/meta/membranes/GQ12/metaGQ12.pyx: autofunc_c", "hyperstatic/core/fe_model/meta/membranes/GQ12/__init__.py: BDB", "hyperstatic/core/fe_model/meta/plates/metaDKQ/wrapped_code_0.c: autofunc", "hyperstatic/core/fe_model/meta/plates/metaDKQ/metaDKQ.pyx: autofunc_c", "hyperstatic/core/fe_model/meta/plates/metaDKQ/__init__.py: BDB", "hyperstatic/core/fe_model/element/quad/DKGQ.py: DKGQ.integrate_K", "hyperstatic/core/fe_model/meta/plates/TMQ/wrapped_code_0.c: autofunc", "hyperstatic/core/fe_model/meta/plates/TMQ/metaTMQb.pyx: autofunc_c", "hyperstatic/core/fe_model/meta/plates/TMQ/wrapped_code_1.c: autofunc", "hyperstatic/core/fe_model/meta/plates/TMQ/metaTMQs.pyx: autofunc_c", "hyperstatic/core/fe_model/meta/plates/TMQ/__init__.py: BDBb, BCBs", "hyperstatic/core/fe_model/element/quad/TMQ.py: TMQ.integrate_K", "hyperstatic/core/fe_model/element/quad/TMGQ.py: TMGQ.integrate_K"]}
{"id": "C173", "title": "Single membrane and plate elements in a level plane", "statement": "A GQ12 membrane or a TMQ plate made on its own with the corners of a level convex quadrilateral, numbered either way round, can be used in global axes: T.T*K*T, with its transform_matrix T, is symmetric and never releases energy, deflections with constant curvatures and displacements with constant strains (nodes not rotated) have exactly the energy of the plate and of the membrane over the area of the quadrilateral, and the plate does not resist rigid motions, and resists every other motion when the quadrature has four points like those of Gauss.", "quantifier": "all convex quadrilaterals in a level plane and both orders of the corners, all sections, quadrature rules exact for linear functions, all curvatures, strains and rigid motions", "why_tests_cant": "The claim is about every shape and position; numbering the corners clockwise turns the local axes over, so that every component changes its meaning.", "anchors": ["hyperstatic/core/fe_model/element/quad/GQ12.py: GQ12.integrate_K, GQ12.transform_matrix", "hyperstatic/core/fe_model/element/quad/TMQ.py: TMQ.integrate_K, TMQ.transform_matrix", "hyperstatic/core/fe_model/element/quad/__init__.py: Quad.__init__"]}
{"id": "C174", "title": "Searching a list of nodes by position", "statement": "find(nodes,target,tol) returns the identifier of the first node of the list whose coordinates differ from those of the target by less than tol in total, or False if there is none.", "quantifier": "all lists of nodes, targets and tolerances", "why_tests_cant": "The search halves the list again and again; a tolerance lost in a recursive call or an identifier taken for False shows only for particular lengths, positions and identifiers.", "anchors": ["hyperstatic/core/fe_model/model.py: Model.find", "hyperstatic/core/fe_model/node.py: Node"]}
{"id": "C175", "title": "The log", "statement": "Messages given to info are printed with their time, each once and in order; a message whose target is a file, and a text given to write_file, is in the file afterwards.", "quantifier": "all sequences of calls, all targets and texts, whatever the files", "why_tests_cant": "The claim is about every sequence of calls, with failures in between.", "anchors": ["hyperstatic/common/logger.py: info, write_file"]}
