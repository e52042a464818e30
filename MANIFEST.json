{
 "claims": [
  {
   "property": "C01",
   "status": "partial",
   "theorems": [
    "Hyperstatic.C01_false",
    "Hyperstatic.C01_slots_partial"
   ],
   "note": "False after a node name is added twice (C01_false); proved for histories without re-added names."
  },
  {
   "property": "C02",
   "status": "proved",
   "theorems": [
    "Hyperstatic.C02_node_registry",
    "Hyperstatic.C02_readback"
   ],
   "note": ""
  },
  {
   "property": "C03",
   "status": "proved",
   "theorems": [
    "Hyperstatic.C03_failure_unobservable",
    "Hyperstatic.C03_failure_no_change"
   ],
   "note": ""
  },
  {
   "property": "C04",
   "status": "partial",
   "theorems": [
    "Hyperstatic.C04_false",
    "Hyperstatic.C04_restraint_effect_partial",
    "Hyperstatic.C04_restraint_success_iff"
   ],
   "note": "False for unknown nodes (C04_false: returns True, nothing recorded); proved for known nodes, and success is characterised."
  },
  {
   "property": "C05",
   "status": "partial",
   "theorems": [
    "Hyperstatic.C05_add_beam_iff_partial",
    "Hyperstatic.C05_add_simple_beam_iff_partial",
    "Hyperstatic.C05_tolerance_partial",
    "Hyperstatic.C05_acceptable_partial",
    "Hyperstatic.C05_false",
    "Hyperstatic.C05_listing_partial"
   ],
   "note": "False: nearly vertical beams with a tiny offset are rejected (C05_false); the exact acceptance condition is proved."
  },
  {
   "property": "C06",
   "status": "partial",
   "theorems": [
    "Hyperstatic.C06_false",
    "Hyperstatic.C06_attached_partial"
   ],
   "note": "False after a node is re-added (C06_false); proved for histories without re-added names."
  },
  {
   "property": "C07",
   "status": "proved",
   "theorems": [
    "Hyperstatic.C07_restraint_tables",
    "Hyperstatic.C07_case_readback"
   ],
   "note": ""
  },
  {
   "property": "C08",
   "status": "proved",
   "theorems": [
    "Hyperstatic.C08_dof_count"
   ],
   "note": ""
  },
  {
   "property": "C09",
   "status": "proved",
   "theorems": [
    "Hyperstatic.C09_nodal_loads",
    "Hyperstatic.C09_readback"
   ],
   "note": ""
  },
  {
   "property": "C10",
   "status": "partial",
   "theorems": [
    "Hyperstatic.C10_live_partial",
    "Hyperstatic.C10_false"
   ],
   "note": "Proved for all histories that do not create an existing pattern name again (C10_live_partial); without this restriction the code does not have the property (C10_false: the case keeps the old pattern object)."
  },
  {
   "property": "C11",
   "status": "proved",
   "theorems": [
    "Hyperstatic.C11_entries",
    "Hyperstatic.C11_sum",
    "Hyperstatic.C11_scaling"
   ],
   "note": ""
  },
  {
   "property": "C12",
   "status": "partial",
   "theorems": [
    "Hyperstatic.C12_exact_partial",
    "Hyperstatic.C12_false"
   ],
   "note": "The code does not have the property (C12_false); C12_exact_partial says exactly what the table contains: every node's sum without its first contribution."
  },
  {
   "property": "C13",
   "status": "proved",
   "theorems": [
    "Hyperstatic.C13_entries",
    "Hyperstatic.C13_work",
    "Hyperstatic.C13_untouched",
    "Hyperstatic.C13_order_irrelevant",
    "Hyperstatic.C13_succeeds"
   ],
   "note": ""
  },
  {
   "property": "C14",
   "status": "proved",
   "theorems": [
    "Hyperstatic.C14_symmetric",
    "Hyperstatic.C14_symmetrising"
   ],
   "note": ""
  },
  {
   "property": "C15",
   "status": "proved",
   "theorems": [
    "Hyperstatic.C15_energy_sum",
    "Hyperstatic.C15_nonneg"
   ],
   "note": ""
  },
  {
   "property": "C16",
   "status": "proved",
   "theorems": [
    "Hyperstatic.C16_rigid",
    "Hyperstatic.C16_equilibrium_work",
    "Hyperstatic.C16_equilibrium"
   ],
   "note": ""
  },
  {
   "property": "C17",
   "status": "proved",
   "theorems": [
    "Hyperstatic.C17_drop_matrix",
    "Hyperstatic.C17_order_irrelevant"
   ],
   "note": ""
  },
  {
   "property": "C18",
   "status": "proved",
   "theorems": [
    "Hyperstatic.C18_drop_vector",
    "Hyperstatic.C18_same_numbering"
   ],
   "note": ""
  },
  {
   "property": "C19",
   "status": "proved",
   "theorems": [
    "Hyperstatic.C19_expand"
   ],
   "note": ""
  },
  {
   "property": "C20",
   "status": "proved",
   "theorems": [
    "Hyperstatic.C20_equilibrium",
    "Hyperstatic.C20_succeeds",
    "Hyperstatic.C20_unique"
   ],
   "note": ""
  },
  {
   "property": "C21",
   "status": "partial",
   "theorems": [
    "Hyperstatic.C21_false",
    "Hyperstatic.C21_own_partial",
    "Hyperstatic.C21_global_partial",
    "Hyperstatic.C21_global_irrelevant_partial"
   ],
   "note": "False when the case's own table sets no flag: the system is reduced with the case table but expanded with the global one (C21_false); proved for structures stable under the case's own restraints."
  },
  {
   "property": "C22",
   "status": "proved",
   "theorems": [
    "Hyperstatic.C22_nonsingular_iff"
   ],
   "note": ""
  },
  {
   "property": "C23",
   "status": "proved",
   "theorems": [
    "Hyperstatic.C23_order_independent"
   ],
   "note": ""
  },
  {
   "property": "C24",
   "status": "partial",
   "theorems": [
    "Hyperstatic.C24_snapshot_partial",
    "Hyperstatic.C24_false",
    "Hyperstatic.C24_table_partial"
   ],
   "note": "False for result queries that enumerate the current model: result_get_all_nodal_displacement raises/returns None for nodes added after assembling (C24_false); proved for solve_static and single-node results, and for the table when no node was added."
  },
  {
   "property": "C25",
   "status": "proved",
   "theorems": [
    "Hyperstatic.C25_no_stale"
   ],
   "note": ""
  },
  {
   "property": "C26",
   "status": "proved",
   "theorems": [
    "Hyperstatic.C26_others",
    "Hyperstatic.C26_failed",
    "Hyperstatic.C26_again"
   ],
   "note": ""
  },
  {
   "property": "C27",
   "status": "proved",
   "theorems": [
    "Hyperstatic.C27_round_trip",
    "Hyperstatic.C27_never_saved"
   ],
   "note": ""
  },
  {
   "property": "C28",
   "status": "proved",
   "theorems": [
    "Hyperstatic.C28_table"
   ],
   "note": ""
  },
  {
   "property": "C29",
   "status": "proved",
   "theorems": [
    "Hyperstatic.C29_superposition"
   ],
   "note": ""
  },
  {
   "property": "C30",
   "status": "proved",
   "theorems": [
    "Hyperstatic.C30_symmetric_work",
    "Hyperstatic.C30_sum_of_squares",
    "Hyperstatic.C30_nonneg",
    "Hyperstatic.C30_rigid_modes"
   ],
   "note": ""
  },
  {
   "property": "C31",
   "status": "proved",
   "theorems": [
    "Hyperstatic.C31_energy_integral",
    "Hyperstatic.C31_fields_exist"
   ],
   "note": ""
  },
  {
   "property": "C32",
   "status": "proved",
   "theorems": [
    "Hyperstatic.C32_resultant"
   ],
   "note": ""
  },
  {
   "property": "C33",
   "status": "proved",
   "theorems": [
    "Hyperstatic.C33_work"
   ],
   "note": ""
  },
  {
   "property": "C34",
   "status": "proved",
   "theorems": [
    "Hyperstatic.C34_work",
    "Hyperstatic.C34_resultant",
    "Hyperstatic.C34_additive"
   ],
   "note": ""
  },
  {
   "property": "C35",
   "status": "partial",
   "theorems": [
    "Hyperstatic.C35_single_release_partial",
    "Hyperstatic.C35_no_release_partial",
    "Hyperstatic.C35_false"
   ],
   "note": "False for two or more releases (C35_false: only the last one is applied); proved for a single release and for none."
  },
  {
   "property": "C36",
   "status": "partial",
   "theorems": [
    "Hyperstatic.C36_never_partial",
    "Hyperstatic.C36_no_releases_partial",
    "Hyperstatic.C36_false"
   ],
   "note": "The code does not have the property: C36_false refutes the claim, C36_never_partial and C36_no_releases_partial say what holds instead (the call always returns False; no beam ever has a release)."
  },
  {
   "property": "C37",
   "status": "proved",
   "theorems": [
    "Hyperstatic.C37_accept_iff",
    "Hyperstatic.C37_axes"
   ],
   "note": ""
  },
  {
   "property": "C38",
   "status": "proved",
   "theorems": [
    "Hyperstatic.C38_by_normal"
   ],
   "note": ""
  },
  {
   "property": "C39",
   "status": "proved",
   "theorems": [
    "Hyperstatic.C39_rotation_formula",
    "Hyperstatic.C39_sequence",
    "Hyperstatic.C39_axis_fixed",
    "Hyperstatic.C39_rotate_back",
    "Hyperstatic.C39_align"
   ],
   "note": ""
  },
  {
   "property": "C40",
   "status": "partial",
   "theorems": [
    "Hyperstatic.C40_false",
    "Hyperstatic.C40_actual"
   ],
   "note": "False: set_by_3pts never changes the axes (C40_false); C40_actual gives the exact effect."
  },
  {
   "property": "C41",
   "status": "proved",
   "theorems": [
    "Hyperstatic.C41_local_axes",
    "Hyperstatic.C41_components",
    "Hyperstatic.C41_orientation"
   ],
   "note": ""
  },
  {
   "property": "C42",
   "status": "partial",
   "theorems": [
    "Hyperstatic.C42_quad_partial",
    "Hyperstatic.C42_tria_partial",
    "Hyperstatic.C42_false"
   ],
   "note": "False for triangles whose normal points down (C42_false); exact acceptance proved for triangles, and quadrilaterals are accepted in every node order."
  },
  {
   "property": "C43",
   "status": "partial",
   "theorems": [
    "Hyperstatic.C43_false",
    "Hyperstatic.C43_area_partial",
    "Hyperstatic.C43_quad_value",
    "Hyperstatic.C43_quad_parallelogram",
    "Hyperstatic.C43_quad_flat"
   ],
   "note": "False (C43_false: value can be negative); C43_area_partial gives the exact value and when it is right. For quadrilaterals the exact value is C43_quad_value; it is never the area of a parallelogram, wherever it lies (C43_quad_parallelogram), nor of a convex quadrilateral in a horizontal plane (C43_quad_flat)."
  },
  {
   "property": "C44",
   "status": "proved",
   "theorems": [
    "Hyperstatic.C44_entries",
    "Hyperstatic.C44_total_mass",
    "Hyperstatic.C44_symm_pos",
    "Hyperstatic.C44_nodal_masses"
   ],
   "note": ""
  },
  {
   "property": "C45",
   "status": "partial",
   "theorems": [
    "Hyperstatic.C45_false",
    "Hyperstatic.C45_symmetric_partial"
   ],
   "note": "False for the consistent matrix (C45_false); proved for the lumped one, and for all other pairs of the consistent one."
  },
  {
   "property": "C46",
   "status": "partial",
   "theorems": [
    "Hyperstatic.C46_reported_partial",
    "Hyperstatic.C46_ends_partial",
    "Hyperstatic.C46_false"
   ],
   "note": "False in the code: at position 0 the axial displacement and twist are the mean of both ends, deflection 3 has the wrong sign, and the ends are exchanged if the end node was added before the start node (C46_false). C46_reported_partial states exactly what is reported at every position; C46_ends_partial the two ends."
  },
  {
   "property": "C47",
   "status": "partial",
   "theorems": [
    "Hyperstatic.C47_rectangle",
    "Hyperstatic.C47_box",
    "Hyperstatic.C47_circle",
    "Hyperstatic.C47_pipe",
    "Hyperstatic.C47_i_partial",
    "Hyperstatic.C47_false"
   ],
   "note": "Holds for rectangles, boxes, circles and the pipe class, measured against the integral over the shape. False for I sections: the weak-axis second moment counts the web over the full depth (C47_false); C47_i_partial gives the exact excess."
  },
  {
   "property": "C48",
   "status": "partial",
   "theorems": [
    "Hyperstatic.C48_actual_partial",
    "Hyperstatic.C48_false"
   ],
   "note": "The code does not have the property: C48_false refutes it (d=1, t=1/4, area 0.25 against 0.589); C48_actual_partial says the call defines a solid d by t rectangle."
  },
  {
   "property": "C49",
   "status": "partial",
   "theorems": [
    "Hyperstatic.C49_actual_partial",
    "Hyperstatic.C49_tria_partial",
    "Hyperstatic.C49_false"
   ],
   "note": "False: the call passes its arguments to the model in the wrong positions (C49_false); C49_actual_partial gives the exact behaviour."
  },
  {
   "property": "C50",
   "status": "partial",
   "theorems": [
    "Hyperstatic.C50_shear_partial",
    "Hyperstatic.C50_false",
    "Hyperstatic.C50_lamda_partial"
   ],
   "note": "False for lamda (C50_false); proved for G, and lamda characterised."
  },
  {
   "property": "C51",
   "status": "partial",
   "theorems": [
    "Hyperstatic.C51_never_partial",
    "Hyperstatic.C51_false"
   ],
   "note": "The code does not have the property: C51_never_partial shows that the three calls fail in every state."
  },
  {
   "property": "C52",
   "status": "partial",
   "theorems": [
    "Hyperstatic.C52_never_partial",
    "Hyperstatic.C52_false"
   ],
   "note": "The code does not have the property: C52_never_partial shows that the call reports failure and keeps every file."
  },
  {
   "property": "C53",
   "status": "partial",
   "theorems": [
    "Hyperstatic.C53_false",
    "Hyperstatic.C53_insert_partial"
   ],
   "note": "False when the restraint table is not in ascending slot order (C53_false); proved for ascending order."
  },
  {
   "property": "C54",
   "status": "proved",
   "theorems": [
    "Hyperstatic.C54_target_ratios",
    "Hyperstatic.C54_in_use"
   ],
   "note": "C54_target_ratios: coefficients for all ratios and periods; C54_in_use: the reduced matrices of an assembled structure."
  },
  {
   "property": "C55",
   "status": "proved",
   "theorems": [
    "Hyperstatic.C55_rows",
    "Hyperstatic.C55_defined"
   ],
   "note": ""
  },
  {
   "property": "C56",
   "status": "partial",
   "theorems": [
    "Hyperstatic.C56_newmark_partial",
    "Hyperstatic.C56_displacement_partial",
    "Hyperstatic.C56_false"
   ],
   "note": "Equation of motion and velocity relation proved for every step. The displacement relation is false for the code (sign of b3) unless beta = 1/2, dt = 0 or zero acceleration; proved by C56_false."
  },
  {
   "property": "C57",
   "status": "partial",
   "theorems": [
    "Hyperstatic.C57_modes_partial",
    "Hyperstatic.C57_false"
   ],
   "note": "Modes, shapes and count proved (C57_modes_partial). The resolver reports the eigenvalue itself as omega instead of its square root: C57_false."
  },
  {
   "property": "C58",
   "status": "partial",
   "theorems": [
    "Hyperstatic.C58_recurrence_partial",
    "Hyperstatic.C58_false"
   ],
   "note": "The exact recurrence and the right first step are proved (C58_recurrence_partial); from the second step on the code uses displacements one step too old: C58_false."
  },
  {
   "property": "C59",
   "status": "partial",
   "theorems": [
    "Hyperstatic.C59_false"
   ],
   "note": "The damping ratio is read and not used; the negation of the claim is proved for every input (C59_false)."
  },
  {
   "property": "C60",
   "status": "partial",
   "theorems": [
    "Hyperstatic.C60_wilson_partial",
    "Hyperstatic.C60_false"
   ],
   "note": "Wilson's method inherits the wrong sign of b3; C60_false gives a witness. What holds is C60_wilson_partial."
  },
  {
   "property": "C61",
   "status": "proved",
   "theorems": [
    "Hyperstatic.C61_blueprint",
    "Hyperstatic.C61_general_section"
   ],
   "note": ""
  },
  {
   "property": "C62",
   "status": "proved",
   "theorems": [
    "Hyperstatic.C62_end_to_end",
    "Hyperstatic.C62_succeeds"
   ],
   "note": ""
  },
  {
   "property": "C63",
   "status": "proved",
   "theorems": [
    "Hyperstatic.C63_quad",
    "Hyperstatic.C63_tria",
    "Hyperstatic.C63_assembled"
   ],
   "note": ""
  },
  {
   "property": "C64",
   "status": "partial",
   "theorems": [
    "Hyperstatic.C64_quad_partial",
    "Hyperstatic.C64_tria_partial",
    "Hyperstatic.C64_false"
   ],
   "note": "4-node shells: all strictly convex ones (C64_quad_partial). Triangles: only if the components of the normal add up to a non-negative number (C64_tria_partial), because the area is computed from a determinant with a row of ones; C64_false gives a triangle with negative energy."
  },
  {
   "property": "C65",
   "status": "partial",
   "theorems": [
    "Hyperstatic.C65_quad_partial",
    "Hyperstatic.C65_tria_partial",
    "Hyperstatic.C65_quad_false",
    "Hyperstatic.C65_tria_false"
   ],
   "note": "Translations and rotations about in-plane axes (C65_quad_partial); rotation about the normal is resisted by 4-node shells (C65_quad_false, every proper rule) because the rotational shape functions use the variable xi for the nodal coordinate; T9 triangles: C65_tria_partial, C65_tria_false."
  },
  {
   "property": "C66",
   "status": "partial",
   "theorems": [
    "Hyperstatic.C66_quad_partial",
    "Hyperstatic.C66_quad_energy_partial",
    "Hyperstatic.C66_false"
   ],
   "note": "4-node shells: work against edge tractions and energy (C66_quad_partial, C66_quad_energy_partial). Triangles: C66_false, the T9 matrix mixes coordinates and uses the same derivative coefficients twice."
  },
  {
   "property": "C67",
   "status": "partial",
   "theorems": [
    "Hyperstatic.C67_tria_actual_partial",
    "Hyperstatic.C67_tria_partial",
    "Hyperstatic.C67_tria_false",
    "Hyperstatic.C67_quad_partial",
    "Hyperstatic.C67_quad_false"
   ],
   "note": "Triangles: exact factor (sum of the components of the normal) in C67_tria_actual_partial, true when it is 1. Quadrilaterals: parallelograms with equal axis components such as squares; false for a 2 x 1 rectangle (inverse Jacobian has two entries exchanged)."
  },
  {
   "property": "C68",
   "status": "proved",
   "theorems": [
    "Hyperstatic.C68_equilibrium",
    "Hyperstatic.C68_succeeds",
    "Hyperstatic.C68_nonneg"
   ],
   "note": "C20 and C15 with the modelled shell stiffness in place of their assumptions on it: C68_equilibrium, C68_succeeds, C68_nonneg. A concrete square sheet meets all hypotheses and is solved."
  },
  {
   "property": "C69",
   "status": "proved",
   "theorems": [
    "Hyperstatic.C69_grounded_stable",
    "Hyperstatic.C69_grounded_solved"
   ],
   "note": "Induction over the chain of beams; the example is a column with a beam and two load cases, solved for in the model."
  },
  {
   "property": "C70",
   "status": "proved",
   "theorems": [
    "Hyperstatic.C70_reciprocal",
    "Hyperstatic.C70_maxwell"
   ],
   "note": "Betti in the loads' own work functional (nodal, distributed and concentrated loads), Maxwell as a corollary."
  },
  {
   "property": "C71",
   "status": "proved",
   "theorems": [
    "Hyperstatic.C71_minimum",
    "Hyperstatic.C71_work"
   ],
   "note": "Minimum, strictness and Clapeyron."
  },
  {
   "property": "C72",
   "status": "proved",
   "theorems": [
    "Hyperstatic.C72_stiffening"
   ],
   "note": "Including stability of the stiffer model."
  },
  {
   "property": "C73",
   "status": "proved",
   "theorems": [
    "Hyperstatic.C73_translation"
   ],
   "note": "Simulation between the histories with and without the translation."
  },
  {
   "property": "C74",
   "status": "proved",
   "theorems": [
    "Hyperstatic.C74_tip_load",
    "Hyperstatic.C74_line_load",
    "Hyperstatic.C74_point_load"
   ],
   "note": "Closed forms for tip loads, trapezoidal line loads and concentrated loads in the beam's own axes; a concrete post with three load cases meets the hypotheses and is solved."
  },
  {
   "property": "C75",
   "status": "proved",
   "theorems": [
    "Hyperstatic.C75_modulus"
   ],
   "note": "Simulation between the two histories; internal work is homogeneous in E."
  },
  {
   "property": "C76",
   "status": "partial",
   "theorems": [
    "Hyperstatic.C76_turned_partial",
    "Hyperstatic.C76_false"
   ],
   "note": "Proved if every beam is away from the vertical or has I2 = I3 (C76_turned_partial). False in general (C76_false): a vertical post keeps the global x axis as reference, so its section does not turn with the model."
  },
  {
   "property": "C77",
   "status": "partial",
   "theorems": [
    "Hyperstatic.C77_subdivided_partial",
    "Hyperstatic.C77_line_load_partial",
    "Hyperstatic.C77_false"
   ],
   "note": "Proved if the verticality tolerance classifies the parts like the whole (C77_subdivided_partial), for nodal loads and for line loads continued over the parts (C77_line_load_partial). False in general (C77_false): the lower part of a post leaning by 6e-9 over a height of 3 counts as vertical, its section axes are exchanged."
  },
  {
   "property": "C78",
   "status": "proved",
   "theorems": [
    "Hyperstatic.C78_ends_swapped"
   ],
   "note": "For any frame and beam; the load hypothesis says that the loads do the same work."
  },
  {
   "property": "C79",
   "status": "proved",
   "theorems": [
    "Hyperstatic.C79_curve",
    "Hyperstatic.C79_unique"
   ],
   "note": ""
  },
  {
   "property": "C80",
   "status": "proved",
   "theorems": [
    "Hyperstatic.C80_shape",
    "Hyperstatic.C80_linear"
   ],
   "note": ""
  },
  {
   "property": "C81",
   "status": "proved",
   "theorems": [
    "Hyperstatic.C81_positive"
   ],
   "note": ""
  },
  {
   "property": "C82",
   "status": "partial",
   "theorems": [
    "Hyperstatic.C82_short_periods_partial",
    "Hyperstatic.C82_false"
   ],
   "note": "False for long periods; proved below the characteristic period."
  },
  {
   "property": "C83",
   "status": "partial",
   "theorems": [
    "Hyperstatic.C83_actual_partial",
    "Hyperstatic.C83_undamped_partial",
    "Hyperstatic.C83_false",
    "Hyperstatic.C83_superposition",
    "Hyperstatic.C83_causal",
    "Hyperstatic.C83_derived"
   ],
   "note": "False with damping: the decay uses the damped frequency.  Proved without damping; the oscillator that is computed is identified.  Linearity and causality hold always."
  },
  {
   "property": "C84",
   "status": "partial",
   "theorems": [
    "Hyperstatic.C84_scaled_partial",
    "Hyperstatic.C84_false"
   ],
   "note": "False when the extreme value is negative; proved when the largest value is also the largest absolute value."
  },
  {
   "property": "C85",
   "status": "proved",
   "theorems": [
    "Hyperstatic.C85_line",
    "Hyperstatic.C85_square"
   ],
   "note": ""
  },
  {
   "property": "C86",
   "status": "proved",
   "theorems": [
    "Hyperstatic.C86_line",
    "Hyperstatic.C86_square"
   ],
   "note": ""
  },
  {
   "property": "C87",
   "status": "proved",
   "theorems": [
    "Hyperstatic.C87_samples",
    "Hyperstatic.C87_phase"
   ],
   "note": "In exact arithmetic; np.arange with floats may return one more sample."
  },
  {
   "property": "C88",
   "status": "partial",
   "theorems": [
    "Hyperstatic.C88_exchanged_partial",
    "Hyperstatic.C88_false"
   ],
   "note": "False: K puts I2 where Beam puts I3 and the other way round (C88_false). Proved: K equals the beam stiffness with the two exchanged."
  },
  {
   "property": "C89",
   "status": "partial",
   "theorems": [
    "Hyperstatic.C89_actual_partial",
    "Hyperstatic.C89_false"
   ],
   "note": "False: the translations move 4 rho A / l, rho I2 / l^3 and rho I3 / l^3 (C89_actual_partial, C89_false)."
  },
  {
   "property": "C90",
   "status": "proved",
   "theorems": [
    "Hyperstatic.C90_hooke",
    "Hyperstatic.C90_positive",
    "Hyperstatic.C90_isotropic"
   ],
   "note": ""
  },
  {
   "property": "C91",
   "status": "proved",
   "theorems": [
    "Hyperstatic.C91_known",
    "Hyperstatic.C91_added",
    "Hyperstatic.C91_history"
   ],
   "note": ""
  },
  {
   "property": "C92",
   "status": "partial",
   "theorems": [
    "Hyperstatic.C92_back_to_save_partial",
    "Hyperstatic.C92_unchanged_partial",
    "Hyperstatic.C92_false"
   ],
   "note": "False: the handler rolls back every edit since the last save (C92_false). Proved: a failing call takes the model back to the last save, so it changes nothing right after one."
  },
  {
   "property": "C93",
   "status": "partial",
   "theorems": [
    "Hyperstatic.C93_saved",
    "Hyperstatic.C93_not_saved",
    "Hyperstatic.C93_false"
   ],
   "note": "False when the program stops while save() copies the file over the stored one: the model is lost (C93_false). Proved for every other end of the program."
  },
  {
   "property": "C94",
   "status": "proved",
   "theorems": [
    "Hyperstatic.C94_no_name_twice",
    "Hyperstatic.C94_two_ends"
   ],
   "note": ""
  },
  {
   "property": "C95",
   "status": "partial",
   "theorems": [
    "Hyperstatic.C95_entry_partial",
    "Hyperstatic.C95_false"
   ],
   "note": "False: the load is assigned to attributes that are not columns, so every load read in any life of a model is zero (C95_entry_partial, C95_false). Proved: an entry for the joint and case exists."
  },
  {
   "property": "C96",
   "status": "partial",
   "theorems": [
    "Hyperstatic.C96_last",
    "Hyperstatic.C96_batch_partial",
    "Hyperstatic.C96_false"
   ],
   "note": "Proved for set_joint_restraint along all histories (C96_last). False for the batch function: a joint that has a restraint makes the next query fail (C96_false). Proved for joints without restraint, none listed twice."
  },
  {
   "property": "C97",
   "status": "partial",
   "theorems": [
    "Hyperstatic.C97_material_partial",
    "Hyperstatic.C97_nothing_deleted",
    "Hyperstatic.C97_material_lost",
    "Hyperstatic.C97_false",
    "Hyperstatic.C97_standard_materials"
   ],
   "note": "False: only materials without elastic constants are ever deleted (C97_nothing_deleted, C97_material_lost, C97_false). Proved for those. The two materials of a new model can never be deleted (C97_standard_materials)."
  },
  {
   "property": "C98",
   "status": "partial",
   "theorems": [
    "Hyperstatic.C98_actual_partial",
    "Hyperstatic.C98_metre_partial",
    "Hyperstatic.C98_adds",
    "Hyperstatic.C98_false",
    "Hyperstatic.C98_raise_false",
    "Hyperstatic.C98_taken",
    "Hyperstatic.C98_named"
   ],
   "note": "False: the second point is not converted from the current unit (C98_false), and a call that raises can leave a joint (C98_raise_false). Proved in metres, up to the order of the ends; what happens in every unit is C98_actual_partial; C98_adds gives success. A name that is taken is refused and nothing changes (C98_taken)."
  },
  {
   "property": "C99",
   "status": "partial",
   "theorems": [
    "Hyperstatic.C99_neighbours_partial",
    "Hyperstatic.C99_false",
    "Hyperstatic.C99_frames_false"
   ],
   "note": "False: near joints that do not follow each other by x, y, z stay (C99_false); frames keep names of joints that are gone (C99_frames_false). Proved: exactly which joints go, that each is linked to a remaining one, that nothing else changes."
  },
  {
   "property": "C100",
   "status": "partial",
   "theorems": [
    "Hyperstatic.C100_i_actual",
    "Hyperstatic.C100_l_actual",
    "Hyperstatic.C100_round_partial",
    "Hyperstatic.C100_refused",
    "Hyperstatic.C100_thickness_ignored",
    "Hyperstatic.C100_false",
    "Hyperstatic.C100_circle_torsion_partial",
    "Hyperstatic.C100_torsion_false"
   ],
   "note": "False: boxes, T-, C- and Z-profiles are always refused, I-profiles ignore the thicknesses (C100_refused, C100_thickness_ignored, C100_false); the torsion constant of a pipe is wrong (C100_torsion_false). Proved for circles and pipes. What profiles store instead: C100_i_actual, C100_l_actual."
  },
  {
   "property": "C101",
   "status": "partial",
   "theorems": [
    "Hyperstatic.C101_quick_never",
    "Hyperstatic.C101_material",
    "Hyperstatic.C101_thickness",
    "Hyperstatic.C101_set_partial",
    "Hyperstatic.C101_false"
   ],
   "note": "Proved for add_material and add_area_section. False for set_material_isotropic_elastic, which does not convert (C101_false); proved there in N, m. add_material_quick never adds a material and never says so (C101_quick_never)."
  },
  {
   "property": "C102",
   "status": "partial",
   "theorems": [
    "Hyperstatic.C102_metre_partial",
    "Hyperstatic.C102_false"
   ],
   "note": "False in millimetres, where one test compares with the wrong side converted (C102_false). Proved in metres."
  },
  {
   "property": "C103",
   "status": "partial",
   "theorems": [
    "Hyperstatic.C103_concentrated",
    "Hyperstatic.C103_strain",
    "Hyperstatic.C103_temperature",
    "Hyperstatic.C103_distributed_partial",
    "Hyperstatic.C103_false"
   ],
   "note": "Proved for concentrated, strain and temperature loads. False for distributed loads in millimetres: converted as forces, not forces per length (C103_false); proved in metres."
  },
  {
   "property": "C104",
   "status": "partial",
   "theorems": [
    "Hyperstatic.C104_units_partial",
    "Hyperstatic.C104_false"
   ],
   "note": "False: the tolerance 1e-9 of the local axes is an absolute number, so that a nearly vertical beam can be vertical in one unit and not in another (C104_false). Proved for all histories in which the tolerance classifies the given points alike in both units."
  },
  {
   "property": "C105",
   "status": "proved",
   "theorems": [
    "Hyperstatic.C105_mirrored",
    "Hyperstatic.C105_loads"
   ],
   "note": ""
  },
  {
   "property": "C106",
   "status": "proved",
   "theorems": [
    "Hyperstatic.C106_beside"
   ],
   "note": ""
  },
  {
   "property": "C107",
   "status": "proved",
   "theorems": [
    "Hyperstatic.C107_support_loads",
    "Hyperstatic.C107_still_supports"
   ],
   "note": ""
  },
  {
   "property": "C108",
   "status": "proved",
   "theorems": [
    "Hyperstatic.C108_span",
    "Hyperstatic.C108_midspan"
   ],
   "note": ""
  },
  {
   "property": "C109",
   "status": "partial",
   "theorems": [
    "Hyperstatic.C109_apart_partial",
    "Hyperstatic.C109_drawn",
    "Hyperstatic.C109_false"
   ],
   "note": "False when a beam is shorter than the tolerance (C109_false): both its ends are searched before either is added. Proved when no beam is; every node is a drawn point in all cases (C109_drawn)."
  },
  {
   "property": "C110",
   "status": "partial",
   "theorems": [
    "Hyperstatic.C110_ends_partial",
    "Hyperstatic.C110_shared_partial",
    "Hyperstatic.C110_special",
    "Hyperstatic.C110_false"
   ],
   "note": "False: the beams of every beam component are called 0, 1, ..., and the table of connections is indexed by name (C110_false). Proved for differently named beams not shorter than the tolerance; loads and supports in all cases (C110_special)."
  },
  {
   "property": "C111",
   "status": "partial",
   "theorems": [
    "Hyperstatic.C111_generates",
    "Hyperstatic.C111_structure_partial",
    "Hyperstatic.C111_false",
    "Hyperstatic.C111_section"
   ],
   "note": "False: the points of every node component are called 1, 2, ...; with two components the later node replaces the earlier and beams are refused (C111_false). Proved when names of wrapped points mean one point. Kilonewtons are excluded: the code takes 1 kN for 0.001 N."
  },
  {
   "property": "C112",
   "status": "partial",
   "theorems": [
    "Hyperstatic.C112_units_partial",
    "Hyperstatic.C112_false",
    "Hyperstatic.C112_force_false"
   ],
   "note": "False: moments are multiplied by the square of the force factor (C112_false), and without moments 1 kN is written as 0.001 N (C112_force_false). Proved for newtons, in metres or without moments (C112_units_partial)."
  },
  {
   "property": "C113",
   "status": "partial",
   "theorems": [
    "Hyperstatic.C113_written",
    "Hyperstatic.C113_positive_partial",
    "Hyperstatic.C113_false"
   ],
   "note": "False: 10000 mm4 is written as 0 m4 (C113_false). Proved above half of 1e-6."
  },
  {
   "property": "C114",
   "status": "partial",
   "theorems": [
    "Hyperstatic.C114_never",
    "Hyperstatic.C114_false"
   ],
   "note": "False: the material component does not set the attribute a that is read; no such drawing is ever assembled (C114_never, C114_false). Proved when the attribute is set: C111_generates."
  },
  {
   "property": "C115",
   "status": "partial",
   "theorems": [
    "Hyperstatic.C115_single_partial",
    "Hyperstatic.C115_false"
   ],
   "note": "False: the last load replaces the others (C115_false). Proved for nodes with one load. Proved for newtons only."
  },
  {
   "property": "C116",
   "status": "partial",
   "theorems": [
    "Hyperstatic.C116_single_partial",
    "Hyperstatic.C116_false"
   ],
   "note": "False: the last restraint replaces the others (C116_false). Proved for nodes with one restraint."
  },
  {
   "property": "C117",
   "status": "partial",
   "theorems": [
    "Hyperstatic.C117_nodes_partial",
    "Hyperstatic.C117_stops",
    "Hyperstatic.C117_box",
    "Hyperstatic.C117_false"
   ],
   "note": "False for circles and pipes: the call written has too few arguments and the script stops before the first node (C117_stops, C117_false); boxes are not written at all (C117_box). Proved for general sections."
  },
  {
   "property": "C118",
   "status": "proved",
   "theorems": [
    "Hyperstatic.C118_exact",
    "Hyperstatic.C118_exists"
   ],
   "note": "Beam fields have bounded integrable strains and curvatures (which may jump). The deformation in the middle of a beam is not reported by the program and is not claimed."
  },
  {
   "property": "C119",
   "status": "partial",
   "theorems": [
    "Hyperstatic.C119_unloaded_partial",
    "Hyperstatic.C119_false"
   ],
   "note": "False: axial displacement and twist are interpolated with the functions of the interval [-1,1], deflection 3 has the opposite sign, ends are taken in order of node numbers (C119_false, see C46). Proved for beams whose start node was added first: deflection 2 and its slope are exact, deflection 3 and its slope exact up to sign, axial displacement and twist the stated means."
  },
  {
   "property": "C120",
   "status": "proved",
   "theorems": [
    "Hyperstatic.C120_least_energy",
    "Hyperstatic.C120_reported"
   ],
   "note": ""
  },
  {
   "property": "C121",
   "status": "partial",
   "theorems": [
    "Hyperstatic.C121_power_partial",
    "Hyperstatic.C121_slow_modes_partial",
    "Hyperstatic.C121_false"
   ],
   "note": "False: the coefficient of the stiffness is negative (C121_false: twist of a cantilever). Proved: the power drawn is exactly 0.02/(3 pi) times ((4 pi)^2 v.Mv - v.Kv), so a mode is damped exactly when its circular frequency is at most 4 pi (period at least 0.5 s)."
  },
  {
   "property": "C122",
   "status": "partial",
   "theorems": [
    "Hyperstatic.C122_growth_partial",
    "Hyperstatic.C122_blowup",
    "Hyperstatic.C122_half_partial",
    "Hyperstatic.C122_false"
   ],
   "note": "False because of the sign found in C56: C122_growth_partial gives the exact growth of every mode at each step, C122_blowup that it exceeds every bound for every time step. newmark_energy shows the claim follows from Newmark's relations; C122_half_partial gives a conserved form for beta = gamma = 1/2."
  },
  {
   "property": "C123",
   "status": "partial",
   "theorems": [
    "Hyperstatic.C123_read_partial",
    "Hyperstatic.C123_never_partial",
    "Hyperstatic.C123_false",
    "Hyperstatic.C123_blank"
   ],
   "note": "False: a row whose last value ends with an underscore is taken for one that goes on in the next line and is lost (C123_false), and the import raises on every file (C123_never_partial, undefined variable). Proved: reading is exact for all files without such rows and without the words TABLE: or END TABLE DATA inside rows."
  },
  {
   "property": "C124",
   "status": "partial",
   "theorems": [
    "Hyperstatic.C124_batch_partial",
    "Hyperstatic.C124_old_frames_partial",
    "Hyperstatic.C124_import_partial",
    "Hyperstatic.C124_export",
    "Hyperstatic.C124_there_and_back_partial",
    "Hyperstatic.C124_false",
    "Hyperstatic.C124_failure_false"
   ],
   "note": "False: a line that ends nearer than the tolerance before a joint removes the joint, and the frames on it lose their ends (C124_false); a drawing with a face is reported as failed although its lines were added (C124_failure_false). Proved: when different points are at least the tolerance apart, frames along the lines in order with one joint for each point (C124_batch_partial, C124_import_partial), frames that were there stay (C124_old_frames_partial), import into a model without frames succeeds and export gives the same lines up to direction (C124_there_and_back_partial); export writes exactly the frames (C124_export)."
  },
  {
   "property": "C125",
   "status": "partial",
   "theorems": [
    "Hyperstatic.C125_isolated_partial",
    "Hyperstatic.C125_turns_partial",
    "Hyperstatic.C125_false",
    "Hyperstatic.C125_place_partial",
    "Hyperstatic.C125_place_false"
   ],
   "note": "False for objects with the same work path: the assembly of one replaces that of the other (C125_false); false for copied folders: the loaded object goes on in the original folder (C125_place_false). Proved: objects with a folder of their own hold the same model, the same files and return the same values as alone under every schedule (C125_isolated_partial); in a shared folder with any past, as long as nobody else writes there, all results of an empty folder are reported (C125_turns_partial); without copies a loaded object works where it was loaded (C125_place_partial)."
  },
  {
   "property": "C126",
   "status": "partial",
   "theorems": [
    "Hyperstatic.C126_false",
    "Hyperstatic.C126_durable_partial",
    "Hyperstatic.C126_recovery",
    "Hyperstatic.C126_other_cases",
    "Hyperstatic.C126_moments"
   ],
   "note": "False: save empties the old file before it writes the new one, so dying there loses both (C126_false). Proved: otherwise a saved model can be loaded after any events and deaths until the name is used again (C126_durable_partial); a new session after any death reports all it would report in an empty folder (C126_recovery); dying in the solution of a case leaves reports on other cases alone and never leaves a mixture for the case itself (C126_other_cases). The file states a death can leave are those of the file-operation model (C126_moments)."
  },
  {
   "property": "C127",
   "status": "partial",
   "theorems": [
    "Hyperstatic.C127_opens",
    "Hyperstatic.C127_beams",
    "Hyperstatic.C127_buttons",
    "Hyperstatic.C127_nodes_partial",
    "Hyperstatic.C127_false",
    "Hyperstatic.C127_file_partial",
    "Hyperstatic.C127_file_false"
   ],
   "note": "Opens exactly if there is a node and no triangle (C127_opens). Proved for the beams and the labels (C127_beams, C127_buttons). False for the nodes: the first actor is kept under another key and comes back with every redraw (C127_false); proved when deformations are asked for with the nodes hidden (C127_nodes_partial). The file read is the one saved exactly for absolute or empty work paths (C127_file_partial, C127_file_false)."
  },
  {
   "property": "C128",
   "status": "partial",
   "theorems": [
    "Hyperstatic.C128_basic",
    "Hyperstatic.C128_false",
    "Hyperstatic.C128_hidden_beams",
    "Hyperstatic.C128_load_partial",
    "Hyperstatic.C128_arrows",
    "Hyperstatic.C128_no_arrows",
    "Hyperstatic.C128_radius"
   ],
   "note": "Proved for the viewer of models (C128_basic), for the arrows (C128_arrows, C128_no_arrows) and for the size of the scene (C128_radius). False for the viewer of loads: showing the beams again switches on the shells (C128_false); proved when the beam button is pressed at most once (C128_load_partial); beams once hidden never come back (C128_hidden_beams)."
  },
  {
   "property": "C129",
   "status": "partial",
   "theorems": [
    "Hyperstatic.C129_shifted_partial",
    "Hyperstatic.C129_false"
   ],
   "note": "False: the program uses sqrt(1-xi) times the frequency of the period as natural frequency (C129_false). C129_shifted_partial proves everything else, with that frequency: existence and uniqueness of the steady response, its largest sample, periods and scaling."
  },
  {
   "property": "C130",
   "status": "partial",
   "theorems": [
    "Hyperstatic.C130_scale",
    "Hyperstatic.C130_amax",
    "Hyperstatic.C130_cut",
    "Hyperstatic.C130_quiet_partial",
    "Hyperstatic.C130_quiet_false",
    "Hyperstatic.C130_polarity_false"
   ],
   "note": "Scaling proved (C130_scale, C130_amax). Quiet time proved when quiet time and record have at most 4096 numbers (C130_quiet_partial); false beyond, because only the first 4096 numbers are used (C130_quiet_false, C130_cut). Reversal is false: the record is divided by its largest number, not by its largest absolute value (C130_polarity_false)."
  },
  {
   "property": "C131",
   "status": "partial",
   "theorems": [
    "Hyperstatic.C131_actual_partial",
    "Hyperstatic.C131_undamped_partial",
    "Hyperstatic.C131_false",
    "Hyperstatic.C131_pseudo",
    "Hyperstatic.C131_scale",
    "Hyperstatic.C131_amax",
    "Hyperstatic.C131_quiet",
    "Hyperstatic.C131_nonneg"
   ],
   "note": "False with damping (C131_false), as duhamel uses the damped frequency in the decay. Proved for the oscillator the program uses (C131_actual_partial) and for the stated one without damping (C131_undamped_partial). The relations between the ordinates, their signs and the invariances are proved as stated (C131_pseudo, C131_nonneg, C131_scale, C131_amax, C131_quiet)."
  },
  {
   "property": "C132",
   "status": "partial",
   "theorems": [
    "Hyperstatic.C132_order",
    "Hyperstatic.C132_best",
    "Hyperstatic.C132_alone",
    "Hyperstatic.C132_shifted_partial",
    "Hyperstatic.C132_periods_false",
    "Hyperstatic.C132_plot_partial",
    "Hyperstatic.C132_plot_false"
   ],
   "note": "Order, champions and independence of the other files proved (C132_order, C132_best, C132_alone). The errors compare the ordinate at a period with the design spectrum one step before, and leave out one end of the interval (C132_periods_false; C132_shifted_partial gives the exact error). The champions are plotted with the step of the last file (C132_plot_false; proved for equal steps, C132_plot_partial)."
  },
  {
   "property": "C133",
   "status": "proved",
   "theorems": [
    "Hyperstatic.C133_all_loads",
    "Hyperstatic.C133_supports",
    "Hyperstatic.C133_balance",
    "Hyperstatic.C133_resultants",
    "Hyperstatic.C133_replaced"
   ],
   "note": "Support forces exist and are unique (C133_supports), are in equilibrium (C133_balance; C133_resultants for nodal loads; C133_all_loads for nodal, distributed and concentrated loads, whose resultants are integrals along the beams) and can replace the supports (C133_replaced)."
  },
  {
   "property": "C134",
   "status": "proved",
   "theorems": [
    "Hyperstatic.C134_prop",
    "Hyperstatic.C134_direction"
   ],
   "note": "C134_prop, C134_direction."
  },
  {
   "property": "C135",
   "status": "proved",
   "theorems": [
    "Hyperstatic.C135_energy",
    "Hyperstatic.C135_castigliano"
   ],
   "note": "C135_energy, C135_castigliano."
  },
  {
   "property": "C136",
   "status": "proved",
   "theorems": [
    "Hyperstatic.C136_names"
   ],
   "note": "For frames without shells; renames nodes, materials, sections, beams, patterns and cases, not files."
  },
  {
   "property": "C137",
   "status": "proved",
   "theorems": [
    "Hyperstatic.C137_symmetric"
   ],
   "note": "For frames; mirror images in any combination of coordinate planes, beams from either end."
  },
  {
   "property": "C138",
   "status": "proved",
   "theorems": [
    "Hyperstatic.C138_reciprocal",
    "Hyperstatic.C138_minimum",
    "Hyperstatic.C138_supports",
    "Hyperstatic.C138_forces",
    "Hyperstatic.C138_solved"
   ],
   "note": "C138_reciprocal, C138_minimum, C138_supports, C138_forces, C138_solved. The balance of moments is C139."
  },
  {
   "property": "C139",
   "status": "partial",
   "theorems": [
    "Hyperstatic.C139_partial",
    "Hyperstatic.C139_false"
   ],
   "note": "False (C139_false, every quadrature rule): shells resist rotation about their normal (C65), so a triangle loaded in its plane passes less moment to its supports than it receives. C139_partial: true of the components along axes to which all shells are parallel."
  },
  {
   "property": "C140",
   "status": "proved",
   "theorems": [
    "Hyperstatic.C140_modes",
    "Hyperstatic.C140_rayleigh",
    "Hyperstatic.C140_stiffening",
    "Hyperstatic.C140_modulus",
    "Hyperstatic.C140_succeeds"
   ],
   "note": "Over the reals, with an eigenvalue routine that keeps what scipy's eigsh promises for sigma=0 (EigSound: eigenpairs; EigNearest: M-orthogonal vectors, values nearest to 0; EigTotal for C140_succeeds). That such a routine exists is proved (idealEig). The values are those the code reports, i.e. squared circular frequencies (see C57). C140_stiffening compares structures with the same beams: an added beam also adds mass."
  },
  {
   "property": "C141",
   "status": "proved",
   "theorems": [
    "Hyperstatic.C141_defined",
    "Hyperstatic.C141_norm",
    "Hyperstatic.C141_order",
    "Hyperstatic.C141_unit",
    "Hyperstatic.C141_srss",
    "Hyperstatic.C141_one_sign",
    "Hyperstatic.C141_one_period",
    "Hyperstatic.C141_undamped",
    "Hyperstatic.C141_word"
   ],
   "note": "Over the reals; dynamic.py 136-152 modelled statement by statement, for one component of the displacements. That the sum under the root is never negative is proved by writing the coefficients as a Gram matrix of impulse responses (for all damping ratios)."
  },
  {
   "property": "C142",
   "status": "partial",
   "theorems": [
    "Hyperstatic.C142_never",
    "Hyperstatic.C142_false",
    "Hyperstatic.C142_partial",
    "Hyperstatic.C142_periods_false",
    "Hyperstatic.C142_damping_false",
    "Hyperstatic.C142_unknown_rule"
   ],
   "note": "False three ways: C142_false/C142_never (the settings have no key 'n', every case raises KeyError and nothing is written), C142_periods_false (periods are taken from the root of the frequency), C142_damping_false (the damping ratio of the last mode is used for all). C142_partial: for one common damping ratio SRSS is right and CQC is that of the rooted frequencies."
  },
  {
   "property": "C143",
   "status": "proved",
   "theorems": [
    "Hyperstatic.C143_modes",
    "Hyperstatic.C143_symmetric",
    "Hyperstatic.C143_energy",
    "Hyperstatic.C143_rigid",
    "Hyperstatic.C143_patch",
    "Hyperstatic.C143_only_rigid",
    "Hyperstatic.C143_shear"
   ],
   "note": "Over the reals, from the symbolic definition that the C code is generated from; any quadrature with non-negative weights (exact for linear functions in C143_patch); four points (±g, ±g) with positive weights in C143_modes."
  },
  {
   "property": "C144",
   "status": "partial",
   "theorems": [
    "Hyperstatic.C144_no_locking",
    "Hyperstatic.C144_shear_vanishes",
    "Hyperstatic.C144_partial",
    "Hyperstatic.C144_false"
   ],
   "note": "C144_no_locking and C144_shear_vanishes hold for all convex shapes; that the limit is the DKQ element is C144_partial for parallelograms like squares, and false for a rectangle (C144_false), where DKQ itself is wrong (C67)."
  },
  {
   "property": "C145",
   "status": "partial",
   "theorems": [
    "Hyperstatic.C145_partial",
    "Hyperstatic.C145_strained",
    "Hyperstatic.C145_false"
   ],
   "note": "C145_partial: translations, and membrane sections. C145_false: the plate wants slopes but is given rotation components, so a square turned about a side is strained; C145_strained: over parallelograms every rotation about an axis in the plane does work."
  },
  {
   "property": "C146",
   "status": "partial",
   "theorems": [
    "Hyperstatic.C146_undisturbed_partial",
    "Hyperstatic.C146_own_folder",
    "Hyperstatic.C146_parallel_cases",
    "Hyperstatic.C146_never_wrong",
    "Hyperstatic.C146_false"
   ],
   "note": "Interleavings of single file operations. C146_undisturbed_partial, C146_own_folder and C146_parallel_cases where nobody writes files another one uses; C146_never_wrong: with one shared model every answer is a failure or the proper one. C146_false: assembling again empties the file while another process reads it, so a solution fails that succeeds in every order of whole calls."
  },
  {
   "property": "C147",
   "status": "partial",
   "theorems": [
    "Hyperstatic.C147_last_partial",
    "Hyperstatic.C147_accepted",
    "Hyperstatic.C147_tolerance",
    "Hyperstatic.C147_new",
    "Hyperstatic.C147_no_description",
    "Hyperstatic.C147_false"
   ],
   "note": "C147_last_partial for name, author and unit, C147_accepted, C147_tolerance and C147_new as claimed. C147_false: set_description reports success but get_description answers False (C147_no_description)."
  },
  {
   "property": "C148",
   "status": "partial",
   "theorems": [
    "Hyperstatic.C148_displacement",
    "Hyperstatic.C148_reaction",
    "Hyperstatic.C148_frame_force",
    "Hyperstatic.C148_none",
    "Hyperstatic.C148_units",
    "Hyperstatic.C148_periods_partial",
    "Hyperstatic.C148_one_period",
    "Hyperstatic.C148_run",
    "Hyperstatic.C148_false"
   ],
   "note": "C148_displacement, C148_reaction, C148_frame_force, C148_none, C148_units as claimed; C148_periods_partial for all periods. C148_false: one period by its order raises AttributeError (C148_one_period), and run raises before anything is computed (C148_run)."
  },
  {
   "property": "C149",
   "status": "partial",
   "theorems": [
    "Hyperstatic.C149_shells",
    "Hyperstatic.C149_supports",
    "Hyperstatic.C149_false",
    "Hyperstatic.C149_case_false"
   ],
   "note": "C149_shells for all shells of all models that can be viewed, C149_supports for the supports that hold in all cases. C149_false: a model with a triangle cannot be viewed (the exact condition is C127_opens); C149_case_false: supports set for the case shown have no symbol."
  },
  {
   "property": "C150",
   "status": "partial",
   "theorems": [
    "Hyperstatic.C150_order_false",
    "Hyperstatic.C150_order_partial",
    "Hyperstatic.C150_modal_partial",
    "Hyperstatic.C150_mass_false",
    "Hyperstatic.C150_mass_raises",
    "Hyperstatic.C150_mass_case",
    "Hyperstatic.C150_base_stops",
    "Hyperstatic.C150_base_false",
    "Hyperstatic.C150_time_partial",
    "Hyperstatic.C150_time_false"
   ],
   "note": "Proved: the setter of the order (C150_order_partial), a modal run is exactly the analysis of C57/C140 with the number of modes of the case (C150_modal_partial, an equivalence), what each time history algorithm does (C150_time_partial). False: the order given at creation is dropped (C150_order_false), use_load_as_mass has no influence (C150_mass_false) and the branch of assemble_M for it always raises (C150_mass_raises), no case with a base case is ever analysed (C150_base_false, C150_base_stops), a time history case without algorithm is silently not analysed (C150_time_false)."
  },
  {
   "property": "C151",
   "status": "partial",
   "theorems": [
    "Hyperstatic.C151_precase_stops",
    "Hyperstatic.C151_same_partial",
    "Hyperstatic.C151_false"
   ],
   "note": "C151_same_partial: for supports set in the order of the nodes solve_2nd_order reports exactly the displacements of the linear analysis, for every sound spsolve and cg; so there is no second-order effect. C151_false: with the second node supported first it raises. Frames of beams."
  },
  {
   "property": "C152",
   "status": "partial",
   "theorems": [
    "Hyperstatic.C152_never",
    "Hyperstatic.C152_false"
   ],
   "note": "C152_never: after any calls and any runs of any solvers resolve_structural_reaction raises for every case, because no solver writes an array under the name it reads; nothing of the claim is left. C152_false is the special case of the claim."
  },
  {
   "property": "C153",
   "status": "partial",
   "theorems": [
    "Hyperstatic.C153_restraints_partial",
    "Hyperstatic.C153_location",
    "Hyperstatic.C153_loads",
    "Hyperstatic.C153_false",
    "Hyperstatic.C153_attached",
    "Hyperstatic.C153_axes_partial",
    "Hyperstatic.C153_axes_false",
    "Hyperstatic.C153_corners"
   ],
   "note": "Proved for scripts that write into restraints only (C153_restraints_partial, C153_axes_partial). False for locations (C153_false): writing into the answer of get_node_location moves the node and nothing else (C153_location), writing into an array of get_all_nodal_load changes that load (C153_loads). A beam follows its moved nodes (C153_attached), but keeps its old axes (C153_axes_false). Shells follow their nodes too (C153_corners)."
  },
  {
   "property": "C154",
   "status": "partial",
   "theorems": [
    "Hyperstatic.C154_envelope",
    "Hyperstatic.C154_bound",
    "Hyperstatic.C154_target_actual",
    "Hyperstatic.C154_target_false",
    "Hyperstatic.C154_density_actual",
    "Hyperstatic.C154_density_false",
    "Hyperstatic.C154_step_actual",
    "Hyperstatic.C154_fit_actual",
    "Hyperstatic.C154_motion_actual",
    "Hyperstatic.C154_power"
   ],
   "note": "Proved: the envelope (C154_envelope) and the bound on the motion (C154_bound). False: components do not take their own ordinate (C154_target_false; C154_target_actual says which one they take), the densities are not those of the ordinates (C154_density_false, C154_density_actual), and fitting multiplies all components but the first by one common number (C154_fit_actual, C154_motion_actual)."
  },
  {
   "property": "C155",
   "status": "partial",
   "theorems": [
    "Hyperstatic.C155_listed",
    "Hyperstatic.C155_only",
    "Hyperstatic.C155_no_areas"
   ],
   "note": "Proved for joints, frames, materials, sections and load cases (C155_listed, C155_only). Areas can never be added: every call answers False, in every session (C155_no_areas)."
  },
  {
   "property": "C156",
   "status": "partial",
   "theorems": [
    "Hyperstatic.C156_actual",
    "Hyperstatic.C156_false",
    "Hyperstatic.C156_partial",
    "Hyperstatic.C156_translations",
    "Hyperstatic.C156_positive"
   ],
   "note": "False as stated: entry (6,0), which couples the axial velocities of the two ends, is never set, so the integral is missed by rho A l/6 times their product (C156_actual, C156_false); a beam moving along its axis has 5/6 of its mass (C156_translations). The identity holds for all motions in which one end does not move along the axis (C156_partial), and the matrix is positive definite (C156_positive)."
  },
  {
   "property": "C157",
   "status": "proved",
   "theorems": [
    "Hyperstatic.C157_continuous",
    "Hyperstatic.C157_stays_stable"
   ],
   "note": "For histories whose beam and section calls are accepted before and after the change. The choice of the local axes of nearly vertical beams does not make results jump, because offsets between one and two tolerances are refused. Exactly on the limit of what is accepted a small change can have a call refused; such changes are excluded by hypothesis."
  },
  {
   "property": "C158",
   "status": "proved",
   "theorems": [
    "Hyperstatic.C158_supports",
    "Hyperstatic.C158_at_most_six",
    "Hyperstatic.C158_at_least_six"
   ],
   "note": "Support forces are those of C133 (reactions of the displacements reported); the API itself does not report them (C51)."
  },
  {
   "property": "C159",
   "status": "proved",
   "theorems": [
    "Hyperstatic.C159_branch"
   ],
   "note": ""
  },
  {
   "property": "C160",
   "status": "proved",
   "theorems": [
    "Hyperstatic.C160_backward",
    "Hyperstatic.C160_solved_backward",
    "Hyperstatic.C160_other_loads",
    "Hyperstatic.C160_close",
    "Hyperstatic.C160_solved",
    "Hyperstatic.C160_model",
    "Hyperstatic.C160_shells_close",
    "Hyperstatic.C160_shells_backward",
    "Hyperstatic.C160_shells_solved"
   ],
   "note": "Rounding in the rest of the computation (stiffness matrices, assembly) is not covered: arithmetic outside the solver is exact. C160_backward and C160_solved_backward are about solvers with a small backward error; the bound holds for ε up to a positive number that depends on the frame and the case only. C160_shells_close, C160_shells_backward and C160_shells_solved are the same for models of beams and shells; C160_model says that the solver has no influence on the model."
  },
  {
   "property": "C161",
   "status": "partial",
   "theorems": [
    "Hyperstatic.C161_opens",
    "Hyperstatic.C161_beams",
    "Hyperstatic.C161_buttons",
    "Hyperstatic.C161_nodes_partial",
    "Hyperstatic.C161_supports_partial",
    "Hyperstatic.C161_supports_false",
    "Hyperstatic.C161_grasshopper_supports",
    "Hyperstatic.C161_model_opens",
    "Hyperstatic.C161_model_never",
    "Hyperstatic.C161_model_false",
    "Hyperstatic.C161_nodes_false",
    "Hyperstatic.C161_arrows"
   ],
   "note": "Holds for the beams and buttons. Not for the supports: only those of the case itself are drawn, and Grasshopper scripts never give any (C161_supports_false, C161_grasshopper_supports). Not for the nodes: they vanish when a deformation is taken back (C161_nodes_false). The viewer of models never opens for a model drawn in Grasshopper (C161_model_false, C161_model_never)."
  },
  {
   "property": "C162",
   "status": "partial",
   "theorems": [
    "Hyperstatic.C162_apart",
    "Hyperstatic.C162_node",
    "Hyperstatic.C162_beam",
    "Hyperstatic.C162_section_beam",
    "Hyperstatic.C162_name_lost",
    "Hyperstatic.C162_name_false"
   ],
   "note": "Everything except the name: the name of a node that was merged is not known afterwards, and adding a beam to it raises KeyError (C162_name_false, C162_name_lost)."
  },
  {
   "property": "C163",
   "status": "partial",
   "theorems": [
    "Hyperstatic.C163_history",
    "Hyperstatic.C163_factor",
    "Hyperstatic.C163_unknown",
    "Hyperstatic.C163_false",
    "Hyperstatic.C163_disp",
    "Hyperstatic.C163_ignored",
    "Hyperstatic.C163_table",
    "Hyperstatic.C163_table_false",
    "Hyperstatic.C163_never"
   ],
   "note": "Loads and factors hold for all programs in which each factor belongs to an added pattern (C163_factor). A factor for an unknown name is accepted and makes every later question raise KeyError (C163_unknown, C163_false). Prescribed displacements are stored (C163_disp) but ignored by every analysis (C163_ignored), and shown as zero (C163_table, C163_table_false). Two tables always raise and the point load cannot be asked for (C163_never)."
  },
  {
   "property": "C164",
   "status": "partial",
   "theorems": [
    "Hyperstatic.C164_growth",
    "Hyperstatic.C164_root",
    "Hyperstatic.C164_small_steps",
    "Hyperstatic.C164_false"
   ],
   "note": "False (C164_false). What holds instead, for every structure, mode, step and length: the modal coordinate follows powers of the solutions of a cubic (C164_growth), one of which lies beyond -1 when lam h^2 + d h < 2 (C164_root), so for every mode all small steps diverge (C164_small_steps); larger steps are outside the range in which central differences are used."
  },
  {
   "property": "C165",
   "status": "partial",
   "theorems": [
    "Hyperstatic.C165_superposition_partial",
    "Hyperstatic.C165_causal",
    "Hyperstatic.C165_delay",
    "Hyperstatic.C165_false"
   ],
   "note": "The full claim is false because loads on beams ignore the load curves (C165_false). Proved: superposition for loads on nodes, or for any loads when the weights add up to one (C165_superposition_partial); causality for all loads (C165_causal); delay for loads on nodes (C165_delay). Missing: loads on beams, for which the claim fails."
  },
  {
   "property": "C166",
   "status": "partial",
   "theorems": [
    "Hyperstatic.C166_default",
    "Hyperstatic.C166_equilibrium_partial",
    "Hyperstatic.C166_cholmod",
    "Hyperstatic.C166_cholmod_never",
    "Hyperstatic.C166_pcg_partial",
    "Hyperstatic.C166_files",
    "Hyperstatic.C166_refused",
    "Hyperstatic.C166_false"
   ],
   "note": "False (C166_false): an iteration that has not converged is saved as a success. Proved: equilibrium with the direct solver and pypardiso (C166_equilibrium_partial); the exact error with CHOLMOD, which is never zero for a loaded structure (C166_cholmod, C166_cholmod_never); the error of converged iterations (C166_pcg_partial); which files change (C166_files); what is refused (C166_refused); the default is the direct solver of solve_static (C166_default). Missing: equilibrium with CHOLMOD and pcg, which fails."
  },
  {
   "property": "C167",
   "status": "partial",
   "theorems": [
    "Hyperstatic.C167_false",
    "Hyperstatic.C167_sequence_partial",
    "Hyperstatic.C167_once_partial",
    "Hyperstatic.C167_same",
    "Hyperstatic.C167_quarter",
    "Hyperstatic.C167_node"
   ],
   "note": "False (C167_false): assigning a rotation twice turns the beam twice while the object reports the second only. Proved: the axes are turned by the sum (C167_sequence_partial); the property holds when all rotations but the last are zero (C167_once_partial); the statements about stiffness, in terms of the total turn (C167_same, C167_quarter); nodes (C167_node). Missing: agreement of axes and reported rotation after several assignments, which fails."
  },
  {
   "property": "C168",
   "status": "partial",
   "theorems": [
    "Hyperstatic.C168_as_written_partial",
    "Hyperstatic.C168_quickstart_partial",
    "Hyperstatic.C168_modal_partial",
    "Hyperstatic.C168_supported_partial",
    "Hyperstatic.C168_released_partial",
    "Hyperstatic.C168_spin_partial",
    "Hyperstatic.C168_false"
   ],
   "note": "False (C168_false): as written all four scripts stop with an AttributeError, for any numbers (C168_as_written_partial). Proved with the existing method set_nodal_load in place of set_nodal_force: the quickstart prints F L^3/(3 E I3) (C168_quickstart_partial); the script for the modes stops with a TypeError (C168_modal_partial); the first part of the simply supported beam stops with a TypeError (C168_supported_partial), and its supports leave the beam free to spin about its axis (C168_spin_partial); the second part prints F L^3/(192 E I3), a quarter of what it should (C168_released_partial). Missing: the deflections of the simply supported beam and the end of the script for the modes, which the code does not deliver."
  },
  {
   "property": "C169",
   "status": "partial",
   "theorems": [
    "Hyperstatic.C169_all_or_nothing",
    "Hyperstatic.C169_confined",
    "Hyperstatic.C169_model",
    "Hyperstatic.C169_losses",
    "Hyperstatic.C169_retry",
    "Hyperstatic.C169_never_wrong",
    "Hyperstatic.C169_others",
    "Hyperstatic.C169_recovery",
    "Hyperstatic.C169_false",
    "Hyperstatic.C169_lost_partial"
   ],
   "note": "False as a whole (C169_false): the old file is emptied before the new one is written, so that a failed save, assemble or solve_static destroys what was there (C169_lost_partial). Proved for all histories and all failures: a call fails or has all its effects (C169_all_or_nothing), a failed call leaves the model in memory (C169_model) and all other files and answers (C169_confined, C169_others), a damaged file is unreadable, never wrong (C169_losses), repeating the call gives what it would have given (C169_retry), no answer is ever wrong (C169_never_wrong), and assembling and solving again gives the results of an empty folder (C169_recovery). Missing: that the file of a failed call survives, which the code does not deliver."
  },
  {
   "property": "C170",
   "status": "partial",
   "theorems": [
    "Hyperstatic.C170_setting",
    "Hyperstatic.C170_default",
    "Hyperstatic.C170_beam_partial",
    "Hyperstatic.C170_axes_partial",
    "Hyperstatic.C170_same_partial",
    "Hyperstatic.C170_false",
    "Hyperstatic.C170_finer_partial",
    "Hyperstatic.C170_none_partial",
    "Hyperstatic.C170_slab_partial"
   ],
   "note": "False (C170_false): a column that leans by 1.5 mm is taken with a tolerance of 2 mm and refused with one of 1 mm. Proved for every tolerance: the value last set is in force (C170_setting), at its default the constructors are those of the other models (C170_default), which beams are made (C170_beam_partial), their axes (C170_axes_partial), when the tolerance does not matter (C170_same_partial, C170_finer_partial), that without tolerance vertical beams and slabs get axes of nan instead of an exception (C170_none_partial, C170_slab_partial). Missing: the simple rule, which the code does not follow."
  },
  {
   "property": "C171",
   "status": "partial",
   "theorems": [
    "Hyperstatic.C171_location_partial",
    "Hyperstatic.C171_listing_partial",
    "Hyperstatic.C171_frame_partial",
    "Hyperstatic.C171_history_partial",
    "Hyperstatic.C171_false"
   ],
   "note": "False (C171_false): get_shell_location makes a tuple of a Node object, which raises, so that it returns None for every shell in every state (C171_location_partial). Proved: what a successful call does to the list and that it leaves other shells, nodes and beams alone (C171_listing_partial), that nothing else changes the list (C171_frame_partial), and which shells are listed after a session (C171_history_partial). Missing: the locations, which the code does not give. For what add_shell does with its arguments see C49."
  },
  {
   "property": "C172",
   "status": "proved",
   "theorems": [
    "Hyperstatic.C172_membrane4",
    "Hyperstatic.C172_plate4",
    "Hyperstatic.C172_quadrilateral",
    "Hyperstatic.C172_shear",
    "Hyperstatic.C172_bending",
    "Hyperstatic.C172_thick",
    "Hyperstatic.C172_membrane",
    "Hyperstatic.C172_plate",
    "Hyperstatic.C172_triangle"
   ],
   "note": "The text is copied mechanically into Lean, repeated expressions being named; doubles are real numbers. Triangles: C172_membrane, C172_plate, C172_triangle. Quadrilaterals: C172_membrane4, C172_plate4, C172_quadrilateral. Thick plates: C172_shear, C172_bending, C172_thick."
  },
  {
   "property": "C173",
   "status": "proved",
   "theorems": [
    "Hyperstatic.C173_plate",
    "Hyperstatic.C173_modes",
    "Hyperstatic.C173_membrane"
   ],
   "note": "Rotations of the nodes of the membrane about the normal are left out of the statement: it resists them even in a rigid rotation, as C65 records for the 4-node shells that contain it."
  },
  {
   "property": "C174",
   "status": "partial",
   "theorems": [
    "Hyperstatic.C174_first_partial",
    "Hyperstatic.C174_zero_partial",
    "Hyperstatic.C174_ignored_partial",
    "Hyperstatic.C174_nodes_partial",
    "Hyperstatic.C174_false",
    "Hyperstatic.C174_zero_false"
   ],
   "note": "True with the default tolerance (or at most one node) and identifiers other than 0. The tolerance is ignored for two or more nodes, a node with identifier 0 is passed over, and for objects of class Node, which have no identifier, the search raises as soon as a node is found."
  },
  {
   "property": "C175",
   "status": "partial",
   "theorems": [
    "Hyperstatic.C175_screen_partial",
    "Hyperstatic.C175_files_partial",
    "Hyperstatic.C175_raises_partial",
    "Hyperstatic.C175_false"
   ],
   "note": "The part about the screen holds. No call ever writes a file: info only prints, and write_file opens the file for reading; if there is no such file it raises because of an unbound variable."
  }
 ]
}