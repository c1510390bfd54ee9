{
 "claims": [
  {
   "property": "C01",
   "status": "proved",
   "theorems": [
    "Weac.C01_center_of_gravity"
   ],
   "note": "Integral form of the mass-weighted mean and strict bounds for any number of layers."
  },
  {
   "property": "C02",
   "status": "proved",
   "theorems": [
    "Weac.C02_reverse",
    "Weac.C02_split",
    "Weac.C02_scale",
    "Weac.C02_uniform"
   ],
   "note": "Reversal, splitting, density scaling, uniform density."
  },
  {
   "property": "C03",
   "status": "partial",
   "theorems": [
    "Weac.C03_wedge_partial",
    "Weac.C03_xs_correct_iff",
    "Weac.C03_xs_wrong_on_every_slope"
   ],
   "note": "w and zs proved against wedge integrals. xs is false in the code for every slab on every slope: C03_xs_wrong_on_every_slope (tan(phi/2) used instead of tan(phi)/2)."
  },
  {
   "property": "C04",
   "status": "proved",
   "theorems": [
    "Weac.C04_bergfeld",
    "Weac.C04_gerling",
    "Weac.C04_scapozza",
    "Weac.C04_tensile_strength"
   ],
   "note": "Positivity, strict monotonicity, reference values, units, unknown unit raises KeyError."
  },
  {
   "property": "C05",
   "status": "proved",
   "theorems": [
    "Weac.C05_ply_coordinates"
   ],
   "note": "For any number of layers."
  },
  {
   "property": "C06",
   "status": "proved",
   "theorems": [
    "Weac.C06_laminate_integrals",
    "Weac.C06_split",
    "Weac.C06_reverse"
   ],
   "note": "Spec = interval integrals of the piecewise profile."
  },
  {
   "property": "C07",
   "status": "proved",
   "theorems": [
    "Weac.C07_positive_definite"
   ],
   "note": "Strict Cauchy-Schwarz for any number of layers."
  },
  {
   "property": "C08",
   "status": "proved",
   "theorems": [
    "Weac.C08_foundation_stiffness",
    "Weac.C08_scaling"
   ],
   "note": ""
  },
  {
   "property": "C09",
   "status": "proved",
   "theorems": [
    "Weac.C09_field_quantities",
    "Weac.C09_dzdx_iff_equilibrium"
   ],
   "note": "Equivalence for every state, both directions; field quantities shown equal to the specification's."
  },
  {
   "property": "C10",
   "status": "proved",
   "theorems": [
    "Weac.C10_undisturbed",
    "Weac.C10_bedded_particular"
   ],
   "note": ""
  },
  {
   "property": "C11",
   "status": "proved",
   "theorems": [
    "Weac.C11_free_complementary",
    "Weac.C11_free_complete"
   ],
   "note": "Derivative, unloaded equilibrium and unique attainability at every position."
  },
  {
   "property": "C12",
   "status": "partial",
   "theorems": [
    "Weac.C12_free_particular_iff",
    "Weac.C12_free_particular_partial",
    "Weac.C12_free_particular_violated"
   ],
   "note": "True iff B11*pt = 0 (C12_free_particular_iff). The code is wrong for a surface load on a slope and a coupled slab: C12_free_particular_violated (zp row 5 lacks -(B11/A11)*pt)."
  },
  {
   "property": "C13",
   "status": "proved",
   "theorems": [
    "Weac.C13_columns",
    "Weac.C13_complete",
    "Weac.C13_distinct_eigenvalues",
    "Weac.C13_discriminant"
   ],
   "note": "Contract of numpy.linalg.eig as an explicit hypothesis (EigOk), met by a concrete solver for every matrix (stdEig_ok). Independence follows from distinct eigenvalues (C13_distinct_eigenvalues), shown for a concrete slab (demo_bedOk)."
  },
  {
   "property": "C14",
   "status": "proved",
   "theorems": [
    "Weac.C14_bedded_curve"
   ],
   "note": "First and second derivatives of the whole state, third derivatives of u and psi."
  },
  {
   "property": "C15",
   "status": "proved",
   "theorems": [
    "Weac.C15_decomposition",
    "Weac.C15_flat",
    "Weac.C15_parity",
    "Weac.C15_linear"
   ],
   "note": ""
  },
  {
   "property": "C16",
   "status": "proved",
   "theorems": [
    "Weac.C16_solution_meets_all_conditions"
   ],
   "note": "Any number of segments, both directions (rows_iff_meets), every system type and stage; object unchanged. Vertical faces in touchdown stages B/C are excluded, see C40. Concrete solved cases: pstDemo_solved, skierDemo_solved."
  },
  {
   "property": "C17",
   "status": "proved",
   "theorems": [
    "Weac.C17_rejects",
    "Weac.C17_accepts",
    "Weac.C17_single_ndarray"
   ],
   "note": "Exact domain of acceptance; in-place completion of one-segment lists; failure for arrays."
  },
  {
   "property": "C18",
   "status": "proved",
   "theorems": [
    "Weac.C18_held",
    "Weac.C18_unique_solution",
    "Weac.C18_only_equilibrium"
   ],
   "note": "Energy argument; the solver never raises on well-formed input and its field is the only one in equilibrium. Hypothesis on the eigensystem reduced to a non-vanishing discriminant by C13_discriminant. C18_held: with the fixed ends of a skier system no segment needs to be supported over a positive length."
  },
  {
   "property": "C19",
   "status": "proved",
   "theorems": [
    "Weac.C19_force_balance"
   ],
   "note": "Normal and tangential balance for any number of segments with free ends (PST in stage A), general ends in force_balance. Closed integrals of the solved field, weak-layer tractions only over supported segments."
  },
  {
   "property": "C20",
   "status": "proved",
   "theorems": [
    "Weac.C20_mirror",
    "Weac.C20_mirror_stresses"
   ],
   "note": "Any number of segments, every PST/skier system; whole state, stresses and energy release rates."
  },
  {
   "property": "C21",
   "status": "proved",
   "theorems": [
    "Weac.C21_splitting"
   ],
   "note": "Any segment of any problem cut at any position; same state at every coordinate. pstDemo_cut_solved gives a solved cut case."
  },
  {
   "property": "C22",
   "status": "proved",
   "theorems": [
    "Weac.C22_segments",
    "Weac.C22_skiers",
    "Weac.C22_unknown_system",
    "Weac.C22_accepted"
   ],
   "note": "Shapes, lengths, unsupported length, acceptance by assemble_and_solve, user lists of 'skiers', ValueError for unknown systems; proved for every outcome of the touchdown computation. Lists are modelled as given (bool defaults of the signature are not)."
  },
  {
   "property": "C23",
   "status": "partial",
   "theorems": [
    "Weac.C23_tc_of_previous_inclination",
    "Weac.C23_history_partial",
    "Weac.C23_repeat",
    "Weac.C23_no_touchdown",
    "Weac.C23_violated"
   ],
   "note": "Violated: set_touchdown_attributes computes tc before it stores the new inclination, so tc belongs to the previous call (C23_tc_of_previous_inclination, C23_violated). Proved: independence of everything else in the history (C23_history_partial), full independence of segments and stage without touchdown, and that a repeated call is correct and stable."
  },
  {
   "property": "C24",
   "status": "proved",
   "theorems": [
    "Weac.C24_stage_total",
    "Weac.C24_stage_monotone",
    "Weac.C24_touchdown_length",
    "Weac.C24_limits_ordered",
    "Weac.C24_computation_succeeds"
   ],
   "note": "Totality, order in the crack length, touchdown length, order of the limits, and success of the computation under explicit bracketing conditions, for every root finder that stays in its bracket."
  },
  {
   "property": "C25",
   "status": "proved",
   "theorems": [
    "Weac.C25_substitute_stiffness_frame",
    "Weac.C25_touchdown_mode_frame",
    "Weac.C25_touchdown_length_frame",
    "Weac.C25_touchdown_system_frame"
   ],
   "note": "Rotational and translational spring calls, touchdown mode, length and system leave every other attribute unchanged."
  },
  {
   "property": "C26",
   "status": "partial",
   "theorems": [
    "Weac.C26_rotational_spring",
    "Weac.C26_rotational_spring_load_independent",
    "Weac.C26_translational_spring_partial",
    "Weac.C26_trans_depends_on_load"
   ],
   "note": "Rotational spring equals the unique tip response and does not depend on load or inclination. The translational spring includes the settlement (qn+pn)/kn under self weight: C26_trans_depends_on_load refutes load independence; C26_translational_spring_partial states what holds."
  },
  {
   "property": "C27",
   "status": "proved",
   "theorems": [
    "Weac.C27_idempotent",
    "Weac.C27_latest_properties",
    "Weac.C27_update_flag",
    "Weac.C27_settings",
    "Weac.C27_latest_load"
   ],
   "note": "Arbitrary sequences of setters on an arbitrary object."
  },
  {
   "property": "C28",
   "status": "proved",
   "theorems": [
    "Weac.C28_runs",
    "Weac.C28_grid",
    "Weac.C28_size",
    "Weac.C28_field"
   ],
   "note": "For all inclinations, num>=1 and segment lists (lengths of either sign, zero lengths anywhere): success iff a nonzero length exists, start/end, strict increase, step bound, point count, all segment beginnings present, value of the own segment."
  },
  {
   "property": "C29",
   "status": "proved",
   "theorems": [
    "Weac.C29_mask",
    "Weac.C29_crack_tips"
   ],
   "note": "xb is the coordinate exactly on the closed supported stretches of nonzero length; both ends of every supported segment appear in xb."
  },
  {
   "property": "C30",
   "status": "proved",
   "theorems": [
    "Weac.C30_gdif",
    "Weac.C30_nonneg",
    "Weac.C30_no_tip",
    "Weac.C30_edge_crack",
    "Weac.C30_centre_crack",
    "Weac.C30_errors",
    "Weac.C30_either_side"
   ],
   "note": "Any number of segments, supports and units: rate per tip, factor one half for centre cracks, non-negative, zero without tip, errors (unknown unit; python list with several tips)."
  },
  {
   "property": "C31",
   "status": "partial",
   "theorems": [
    "Weac.C31_ginc_partial",
    "Weac.C31_no_advance",
    "Weac.C31_zero_length",
    "Weac.C31_violated",
    "Weac.C31_tolerance_partial"
   ],
   "note": "Violated for mode II: sign is negative (C31_violated, every slab on a slope). Proved: which segments count, mode I and the magnitude of mode II within the quadrature error, zero without crack advance, NaN for zero length. C31_tolerance_partial: the same with the mixed absolute and relative tolerance that quad is called with."
  },
  {
   "property": "C32",
   "status": "partial",
   "theorems": [
    "Weac.C32_normal",
    "Weac.C32_shear_partial",
    "Weac.C32_shear_violated",
    "Weac.C32_units",
    "Weac.C32_unknown_unit"
   ],
   "note": "Normal direction, units and unknown units proved in full. Violated for shear: tau = -kt t gamma (C32_shear_violated); C32_shear_partial has the exact relation."
  },
  {
   "property": "C33",
   "status": "proved",
   "theorems": [
    "Weac.C33_range",
    "Weac.C33_layers"
   ],
   "note": "Range, order, spacing, and a contiguous block per layer with its properties, number of points per layer; any layering and dz>0."
  },
  {
   "property": "C34",
   "status": "partial",
   "theorems": [
    "Weac.C34_shear_stress_partial",
    "Weac.C34_surfaces_partial",
    "Weac.C34_free_violated"
   ],
   "note": "Proved: exact through-depth shear at every mesh point for every dz over supported parts, zero at the top, tau - pt at the bottom. Violated over unsupported parts: the supported-beam derivative is used there too, so the free bottom carries shear (C34_free_violated)."
  },
  {
   "property": "C35",
   "status": "partial",
   "theorems": [
    "Weac.C35_axial_force_partial",
    "Weac.C35_axial_force_flat",
    "Weac.C35_violated",
    "Weac.C35_moment_partial"
   ],
   "note": "Violated on slopes: a mesh-dependent weight term is added, so the integral differs from N whenever sin(phi) is not 0 (C35_violated). Proved: exact on flat ground; in general within an explicit bound proportional to the mesh size of N and of M."
  },
  {
   "property": "C36",
   "status": "partial",
   "theorems": [
    "Weac.C36_slab",
    "Weac.C36_lengths",
    "Weac.C36_errors",
    "Weac.C36_slab_unit_independent",
    "Weac.C36_weak_layer",
    "Weac.C36_weak_layer_unit_partial",
    "Weac.C36_weak_layer_unit_violated"
   ],
   "note": "Eigenvalues, bounds, errors, unit independence for the slab. Violated for the weak layer: normalised value depends on the unit argument (C36_weak_layer_unit_violated)."
  },
  {
   "property": "C37",
   "status": "proved",
   "theorems": [
    "Weac.C37_shear",
    "Weac.C37_normal",
    "Weac.C37_modes_agree",
    "Weac.C37_rasterized"
   ],
   "note": "Both outputs, both modes, unit and length errors, and the combination with rasterize_solution."
  },
  {
   "property": "C38",
   "status": "partial",
   "theorems": [
    "Weac.C38_layered_init_partial",
    "Weac.C38_array_violated",
    "Weac.C38_segments_solved_partial",
    "Weac.C38_layered_workflow_partial",
    "Weac.C38_skiers_partial",
    "Weac.C38_inverse_init_partial",
    "Weac.C38_inverse_default_violated",
    "Weac.C38_constructed",
    "Weac.C38_inverse_segments_violated",
    "Weac.C38_inverse_pst_violated"
   ],
   "note": "Proved: Layered objects with default, list or string layers run calc_segments and assemble_and_solve in every documented system (generic eigenvalues, shear condition); what a constructed object contains (C38_constructed). Violated: numpy layers are rejected by Layered (C38_array_violated), Inverse() fails with default layers, no Inverse object has calc_segments, and an Inverse PST with a crack at an end is not solved."
  },
  {
   "property": "C39",
   "status": "proved",
   "theorems": [
    "Weac.C39_case_insensitive",
    "Weac.C39_known_ids",
    "Weac.C39_consistent",
    "Weac.C39_profiles",
    "Weac.C39_separators",
    "Weac.C39_last_word",
    "Weac.C39_blank",
    "Weac.C39_slab"
   ],
   "note": "Domain, case, content, relations between profiles, last word, blank strings, slab of a named profile."
  },
  {
   "property": "C40",
   "status": "partial",
   "theorems": [
    "Weac.C40_vertical_face_partial",
    "Weac.C40_deflection_not_prescribed",
    "Weac.C40_violated"
   ],
   "note": "Violated: with a vertical face the touchdown deflection is not prescribed (C40_deflection_not_prescribed, C40_violated). The partial theorem states which conditions the end does meet."
  },
  {
   "property": "C41",
   "status": "partial",
   "theorems": [
    "Weac.C41_transverse_stress_partial",
    "Weac.C41_surfaces_partial",
    "Weac.C41_free_violated"
   ],
   "note": "Supported parts: every mesh point within an explicit bound quadratic in the mesh size of the exact double integral; surface values. Violated over unsupported parts (C41_free_violated)."
  },
  {
   "property": "C42",
   "status": "proved",
   "theorems": [
    "Weac.C42_displacement",
    "Weac.C42_deflection",
    "Weac.C42_rotation",
    "Weac.C42_mean",
    "Weac.C42_rejects"
   ],
   "note": "Exact values for every unit and location; an unknown angle unit raises UnboundLocalError instead of KeyError."
  },
  {
   "property": "C43",
   "status": "proved",
   "theorems": [
    "Weac.C43_first_contact",
    "Weac.C43_contact_force",
    "Weac.C43_full_contact",
    "Weac.C43_touchdown_length",
    "Weac.C43_reported_limits"
   ],
   "note": "All three functions, for every crack length; existence and uniqueness of the deflected shape; columns of any length."
  },
  {
   "property": "C44",
   "status": "partial",
   "theorems": [
    "Weac.C44_calls",
    "Weac.C44_level_partial",
    "Weac.C44_slope_violated",
    "Weac.C44_array_violated",
    "Weac.C44_default_layers"
   ],
   "note": "Proved: on level ground all three results belong to one column, with bounds; what is computed on a slope. Violated: on a slope the first two results use the collapse height of level ground, the third that of the slope (C44_slope_violated); numpy layers are rejected (C44_array_violated)."
  },
  {
   "property": "C45",
   "status": "partial",
   "theorems": [
    "Weac.C45_total",
    "Weac.C45_external_partial",
    "Weac.C45_other_systems",
    "Weac.C45_internal_partial",
    "Weac.C45_internal_violated",
    "Weac.C45_homogeneous"
   ],
   "note": "Proved: convergence at rate 1/num of both potentials to explicit integrals. Violated: the limit of the internal potential scales the weak-layer energy by L over the supported length, leaves out tension-bending coupling and the rotation of the weak layer (excess terms in C45_internal_partial) and takes M psi^2/2 for the end spring, so it can be negative (C45_internal_violated); the shear part of the surface load acts at the centre of gravity (term in C45_external_partial); other systems end in UnboundLocalError."
  },
  {
   "property": "C46",
   "status": "partial",
   "theorems": [
    "Weac.C46_adam",
    "Weac.C46_schottner",
    "Weac.C46_meaning",
    "Weac.C46_convex",
    "Weac.C46_denser",
    "Weac.C46_unknown",
    "Weac.C46_curve_partial",
    "Weac.C46_curve_schottner",
    "Weac.C46_curve_violated",
    "Weac.C46_mede_partial",
    "Weac.C46_mede_violated",
    "Weac.C46_mede_high_violated",
    "Weac.C46_mede_curves"
   ],
   "note": "Proved: default and depth hoar envelopes in full; the plotted curve for depth hoar, and for the default with scaling between 0.55 and 1. Violated: the default curve outside that range (C46_curve_violated); Mede envelopes reverse the verdict at low compression and give tau_T^2 on the curve at high compression."
  },
  {
   "property": "C47",
   "status": "partial",
   "theorems": [
    "Weac.C47_basic",
    "Weac.C47_mono",
    "Weac.C47_pure",
    "Weac.C47_curve_partial",
    "Weac.C47_curve_violated",
    "Weac.C47_integers_violated"
   ],
   "note": "Proved: the criterion. Violated: the plotted curve uses exponent 2.2 where the criterion uses 1/0.45, so it lies strictly inside the criterion's boundary; arrays of integers give a curve of zeros."
  },
  {
   "property": "C48",
   "status": "partial",
   "theorems": [
    "Weac.C48_adam",
    "Weac.C48_schottner",
    "Weac.C48_mede_partial",
    "Weac.C48_chandel_partial",
    "Weac.C48_jump_violated",
    "Weac.C48_unknown",
    "Weac.C48_integers_violated"
   ],
   "note": "Proved for arrays of floats. Violated: arrays of integers truncate the curve (C48_integers_violated); the curve of Chandel's sample FCsf jumps at zero normal stress (C48_jump_violated)."
  },
  {
   "property": "C49",
   "status": "partial",
   "theorems": [
    "Weac.C49_located",
    "Weac.C49_beyond",
    "Weac.C49_single",
    "Weac.C49_split_partial",
    "Weac.C49_split_violated"
   ],
   "note": "Proved: locating, and splitting unless the middle lies in the first segment. Violated: otherwise the beam becomes longer by half (C49_split_violated)."
  },
  {
   "property": "C50",
   "status": "partial",
   "theorems": [
    "Weac.C50_position_partial",
    "Weac.C50_position_violated",
    "Weac.C50_solution_partial"
   ],
   "note": "Proved for beams with a boundary at or beyond the middle: the load acts on the first such boundary (in the middle if there is one there). Violated: IndexError if the middle lies in the last segment (C50_position_violated)."
  },
  {
   "property": "C51",
   "status": "proved",
   "theorems": [
    "Weac.C51_superposition"
   ],
   "note": "All sites and beams that create_skier_object accepts, with and without a crack."
  },
  {
   "property": "C52",
   "status": "partial",
   "theorems": [
    "Weac.C52_convex",
    "Weac.C52_slab_alone",
    "Weac.C52_threshold",
    "Weac.C52_exists",
    "Weac.C52_returned",
    "Weac.C52_least_partial",
    "Weac.C52_level",
    "Weac.C52_found",
    "Weac.C52_usual",
    "Weac.C52_gives_up_violated"
   ],
   "note": "Proved: convexity, the distance of the slab alone, uniqueness of the critical weight, its existence on level ground, and termination with a weight whose distance is 1 up to 0.01, hence with an error bound on the weight. C52_found and C52_usual: the iteration does not give up if the critical weight is not too large or small (1 to 400 kg for slabs up to a tenth of the way to failure). Violated: C52_gives_up_violated is a slab of 2 m that leaves 3 % of the strength; its critical weight is above 5 kg, yet weight 0 is returned together with the solution of another weight. If the whole beam is outside the envelope with 1 kg, 1 kg is returned at once; C52_found states this as its alternative."
  },
  {
   "property": "C53",
   "status": "partial",
   "theorems": [
    "Weac.C53_crack_partial",
    "Weac.C53_level_partial",
    "Weac.C53_none",
    "Weac.C53_all",
    "Weac.C53_crossings",
    "Weac.C53_single_violated",
    "Weac.C53_ends_partial",
    "Weac.C53_accurate_partial",
    "Weac.C53_level_ends_partial",
    "Weac.C53_caught"
   ],
   "note": "Proved for sampled points off the envelope, the ends of the beam inside and the verdict the same on both sides of the load (always so on level ground); in full if all samples are inside or all outside. For a root finder of accuracy d (C53_ends_partial) the crack also ends within d of points where the stresses reach the envelope, if the verdict at the sampled points holds within 2 d. On level ground neither the condition under the load nor a condition on where samples lie is needed (C53_level_ends_partial, C53_accurate_partial). Violated: with a single crossing nothing is cracked (C53_single_violated). Missing: a verdict that changes under the load, where the shear stress jumps and the root finder is given the stress of one side only."
  },
  {
   "property": "C54",
   "status": "partial",
   "theorems": [
    "Weac.C54_slab_alone_dampened",
    "Weac.C54_collapse",
    "Weac.C54_one_state_partial",
    "Weac.C54_dampened",
    "Weac.C54_short_crack",
    "Weac.C54_bracket",
    "Weac.C54_two_states",
    "Weac.C54_slab_alone",
    "Weac.C54_doubled",
    "Weac.C54_next_weight",
    "Weac.C54_tolerance",
    "Weac.C54_missed_violated"
   ],
   "note": "Proved: one state whenever the returned weight is among the listed ones, and always for the dampened version; the order of the weights; the slab that fails alone. The fallback that drops the density is shown to be unreachable. Missing or violated: if the weak layer cracks over the whole beam at the next weight, weight and crack length belong to another state than solution and energy (C54_two_states); after 25 passes the weak layer has the default thickness of 30 mm; a critical weight below 1 kg is reported as no anticrack (C54_slab_alone), and so is a slab for which the search for the least weight gives up (C54_missed_violated). C54_tolerance: the tolerance asked of the quadrature (1e-3 absolute) exceeds the toughness for a crack of one millimetre, so for every slab and weight some quadrature within it finds enough energy; the theorems take the error as a parameter. C54_short_crack: an anticrack found in the first pass belongs to a crack of one millimetre in the middle. C54_collapse: on level ground a weak layer weaker than the stress of the snow, less what one kilogram can relieve, is reported to collapse without a skier by both versions, with 1 kg as critical weight. C54_slab_alone_dampened: the dampened version judges the slab without a crack in the same way. C54_bracket and C54_two_states have no worked case, since a run of the search over several passes was not computed in Lean: that the situation of C54_two_states occurs is not shown, only what the result is if it does."
  },
  {
   "property": "C55",
   "status": "proved",
   "theorems": [
    "Weac.C55_continuous",
    "Weac.C55_family"
   ],
   "note": "For every object whose weak layer has a complete set of solutions, all systems; the vertically cut face keeps its angle. C55_family includes existence."
  },
  {
   "property": "C56",
   "status": "partial",
   "theorems": [
    "Weac.C56_value",
    "Weac.C56_continuous_weight",
    "Weac.C56_continuous_length",
    "Weac.C56_search_partial",
    "Weac.C56_search_found",
    "Weac.C56_long_crack",
    "Weac.C56_short_crack"
   ],
   "note": "Proved: value and verdict, continuity, short and long cracks, what the search returns and when it raises. Missing: that the length found is the smallest critical one; the code takes any crossing in the interval."
  },
  {
   "property": "C57",
   "status": "partial",
   "theorems": [
    "Weac.C57_slab",
    "Weac.C57_depth",
    "Weac.C57_full_view",
    "Weac.C57_window",
    "Weac.C57_visible_partial",
    "Weac.C57_weak_partial",
    "Weac.C57_weak_gone_violated",
    "Weac.C57_weak_shifted_violated",
    "Weac.C57_outlines",
    "Weac.C57_draws_field",
    "Weac.C57_draws",
    "Weac.C57_cropped_violated",
    "Weac.C57_rasterized",
    "Weac.C57_weak_outline"
   ],
   "note": "Proved for the positions of slab, base line, outlines and axes; for the weak layer if the slab of a skier system is supported at its first point and its end. Violated: with an unsupported first point of a skier system no weak layer is drawn (C57_weak_gone_violated), with an unsupported end it is shifted against the slab (C57_weak_shifted_violated); parts that move up by more than the padding are cropped (C57_cropped_violated)."
  },
  {
   "property": "C58",
   "status": "partial",
   "theorems": [
    "Weac.C58_levels_partial",
    "Weac.C58_factor",
    "Weac.C58_complete",
    "Weac.C58_displacements",
    "Weac.C58_shear",
    "Weac.C58_saturates_violated",
    "Weac.C58_zero_violated",
    "Weac.C58_stresses",
    "Weac.C58_principal",
    "Weac.C58_unknown",
    "Weac.C58_draws"
   ],
   "note": "Proved: symmetric equally spaced levels, bound within half a unit of its digit, every value below 1.5 times the bound. Violated: values may exceed the scale (C58_saturates_violated, 1.4 against 1); a vanishing field raises OverflowError (C58_zero_violated). If the field is missing at unsupported points of the weak layer (Txz, Szz) the weak layer does not enter the bound; principal stresses enter it also where they are not drawn."
  },
  {
   "property": "C59",
   "status": "proved",
   "theorems": [
    "Weac.C59_outline"
   ],
   "note": ""
  },
  {
   "property": "C60",
   "status": "proved",
   "theorems": [
    "Weac.C60_line",
    "Weac.C60_colours"
   ],
   "note": ""
  },
  {
   "property": "C61",
   "status": "partial",
   "theorems": [
    "Weac.C61_values",
    "Weac.C61_shape",
    "Weac.C61_number_partial"
   ],
   "note": "Proved: values, order, symmetry, ends, growth of the steps. Violated: their number is 2*floor(samples/2)-1 instead of samples (C61_number_partial)."
  },
  {
   "property": "C62",
   "status": "proved",
   "theorems": [
    "Weac.C62_profile",
    "Weac.C62_coordinates"
   ],
   "note": ""
  },
  {
   "property": "C63",
   "status": "partial",
   "theorems": [
    "Weac.C63_forces",
    "Weac.C63_criterion",
    "Weac.C63_labelpos",
    "Weac.C63_dotted",
    "Weac.C63_right",
    "Weac.C63_solid",
    "Weac.C63_segments",
    "Weac.C63_labels_partial",
    "Weac.C63_few_samples_violated",
    "Weac.C63_coarse_violated",
    "Weac.C63_label_violated",
    "Weac.C63_fea_violated",
    "Weac.C63_displacements",
    "Weac.C63_stresses",
    "Weac.C63_energies"
   ],
   "note": "Proved: shaded intervals, lines, curves and units; labels if floor(0.95 n) > 10 times the number of curves. Violated: IndexError for few samples (C63_few_samples_violated, C63_coarse_violated), a label between last and first point for 22 samples (C63_label_violated), and fea_disp and fea_stress always raise TypeError (C63_fea_violated)."
  },
  {
   "property": "C64",
   "status": "partial",
   "theorems": [
    "Weac.C64_released_partial",
    "Weac.C64_ginc_partial",
    "Weac.C64_departure",
    "Weac.C64_clapeyron_partial",
    "Weac.C64_clapeyron_violated"
   ],
   "note": "Proved up to the work of the shear traction on the shear strain of the slab (term `departure` or `excess`), which is bounded by c times the stored energy for kt*t^2 <= 16*c^2*kA55 (C64_departure; 3.5 % for the slab of the examples). Violated: on every undisturbed slope the work of the weight is less than twice the stored energy (C64_clapeyron_violated): the shear traction turns the slab with lever arm (h+t)/2, but the slip of the weak layer counts h/2*psi - t/2*w'. Mode II of ginc enters with the wrong sign (C64_ginc_partial)."
  },
  {
   "property": "C65",
   "status": "partial",
   "theorems": [
    "Weac.C65_workflow_partial",
    "Weac.C65_left_partial",
    "Weac.C65_right_partial",
    "Weac.C65_both_partial",
    "Weac.C65_saw_partial",
    "Weac.C65_centre_partial"
   ],
   "note": "Proved for left tips, right tips and both tips with exact quadrature, no weight at a tip, and a fixed state of the object; C65_workflow_partial starts from the constructor and the calls of calc_segments. Violated for mode II: it tends to minus mode II of gdif (sign, C31), so the total tends to mode I minus mode II. With a quadrature error e the quotient has the error e/(2 da), see C31."
  },
  {
   "property": "C66",
   "status": "proved",
   "theorems": [
    "Weac.C66_bound"
   ],
   "note": "Proved on level ground with a boundary in the middle, by energy bounds along the chain of segments. The concrete case is deepSite_stress: at most 5 kg on 2 m of snow change the normal stress by at most 0.0385 kPa."
  },
  {
   "property": "C67",
   "status": "proved",
   "theorems": [
    "Weac.C67_ends",
    "Weac.C67_skier"
   ],
   "note": "Proved with explicit decay length (Beam.reach) and constants. The strain energy counts the weak layer as in C64. Concrete cases: skierDemo, and 80 kg on 2 m of snow (less than 0.003 kPa at a distance of 200 m)."
  },
  {
   "property": "C68",
   "status": "proved",
   "theorems": [
    "Weac.C68_long_ends"
   ],
   "note": "Proved for systems with skiers: existence and uniqueness of the infinite slab and exponential convergence to it. The constants K and B depend on slab, slope and arrangement and are not explicit."
  },
  {
   "property": "C69",
   "status": "proved",
   "theorems": [
    "Weac.C69_same_solution",
    "Weac.C69_same_evaluation",
    "Weac.C69_same_touchdown",
    "Weac.C69_same_verdict",
    "Weac.C69_split"
   ],
   "note": "Proved for profiles given as rows with positive densities and thicknesses, by a relation between runs that all methods preserve (Lemmas/Alike.lean). Slab stresses on the through-thickness mesh are not included: the mesh points differ."
  },
  {
   "property": "C70",
   "status": "partial",
   "theorems": [
    "Weac.C70_solution_partial",
    "Weac.C70_solvable",
    "Weac.C70_fields",
    "Weac.C70_grid",
    "Weac.C70_gdif",
    "Weac.C70_ginc",
    "Weac.C70_mesh",
    "Weac.C70_slab_stresses",
    "Weac.C70_results_partial",
    "Weac.C70_stresses_partial",
    "Weac.C70_input",
    "Weac.C70_translation_violated"
   ],
   "note": "Proved for given touchdown lengths in proportion (PST, cut face and skier systems, every stage), with exact quadrature for ginc; C70_input says what the user has to enter. Violated: the translational substitute spring of the touchdown model adds a unit force to the weight of the slab, so it does not scale like a stiffness (C70_translation_violated; see C26), and neither do the stage limits computed from it. Normalisation by tensile strength is not included: the strength is a fixed power of the density."
  },
  {
   "property": "C71",
   "status": "proved",
   "theorems": [
    "Weac.C71_backward",
    "Weac.C71_nearly",
    "Weac.C71_residual",
    "Weac.C71_stresses",
    "Weac.C71_weights"
   ],
   "note": "Proved for all systems in which some segment is supported (vertical cut faces without touchdown, as in C16), by energy bounds for the difference of two chains (Lemmas/Stability.lean). The solver is a parameter of the model (assembleAndSolveBy); the rotational spring of the touchdown model and the eigensystem are computed exactly. K is not explicit. C71_backward: the same for changed coefficients, as by rounding in the set-up of the system or by a backward stable solver; the changed system stays solvable while K*delta <= 1."
  },
  {
   "property": "C72",
   "status": "partial",
   "theorems": [
    "Weac.C72_grid_partial",
    "Weac.C72_under_skier",
    "Weac.C72_grid_violated",
    "Weac.C72_gdif",
    "Weac.C72_propagation",
    "Weac.C72_create_partial"
   ],
   "note": "Proved except for the slope of the slab, and with it the shear stress, where a skier stands: rasterize_solution stores the limit from the right, so mirrored runs report different shear stresses there (C72_under_skier gives the difference, C72_grid_violated says it is not zero). Criteria that take the largest distance over these arrays inherit this. gdif and the propagation criterion need that no skier stands at a crack tip."
  },
  {
   "property": "C73",
   "status": "proved",
   "theorems": [
    "Weac.C73_superposition",
    "Weac.C73_stresses",
    "Weac.C73_rates",
    "Weac.C73_arrays",
    "Weac.C73_skiers",
    "Weac.C73_proportional"
   ],
   "note": "Proved for all systems (vertical cut faces without touchdown, as in C16) at a given touchdown stage. calc_segments chooses the stage and the depth from the loads, so whole runs with touchdown are combinations only as far as stage and touchdown length agree; the depth tc may differ between load cases. A single segment is completed by the solver; the statement is about two segments or more."
  },
  {
   "property": "C74",
   "status": "proved",
   "theorems": [
    "Weac.C74_dense",
    "Weac.C74_extremes",
    "Weac.C74_curves"
   ],
   "note": "Density and bounds are proved for every object and any constants; the curves for every successful run with a complete set of solutions (BedOk, ShearOk). The constants are not explicit. Stresses are sampled from the right where a skier stands (C72), so the statement about curves is about displacements and rotation."
  },
  {
   "property": "C75",
   "status": "proved",
   "theorems": [
    "Weac.C75_states",
    "Weac.C75_rates",
    "Weac.C75_mirror"
   ],
   "note": "Proved at a given touchdown stage, touchdown length and depth tc (vertical cut faces without touchdown, as in C16), by a bound for all lengths (Lemmas/Stability.lean) and decay of the power of the section forces (Lemmas/Column.lean). calc_segments computes stage and touchdown length from springs of the supported part; their dependence on the length is the subject of C76. C75_rates is stated for the crack on the right; C72_gdif mirrors it. The constants are not explicit."
  },
  {
   "property": "C76",
   "status": "proved",
   "theorems": [
    "Weac.C76_rotational_spring",
    "Weac.C76_vertical_spring",
    "Weac.C76_limits",
    "Weac.C76_too_long",
    "Weac.C76_stage",
    "Weac.C76_saw_test",
    "Weac.C76_saw_test_mirror"
   ],
   "note": "The root finder is an oracle with the contract Spec.BrentFinds (a sign change within delta of the result). The touchdown length of stage C (calc_lC), whose function calls the spring of the part lying on the collapsed layer, is not covered. C76_saw_test is stated for the system pst-, C76_saw_test_mirror for its mirror image. C76_too_long: the search for a1 starts at a thousandth of the column, so that columns of hundreds of metres raise ValueError instead of giving the limit of long columns."
  },
  {
   "property": "C77",
   "status": "partial",
   "theorems": [
    "Weac.C77_gap_partial",
    "Weac.C77_first_contact_violated",
    "Weac.C77_touches_iff",
    "Weac.C77_sinks_violated",
    "Weac.C77_computed_partial"
   ],
   "note": "Proved: the exact difference of the free end's deflection and tc (C77_gap_partial) in terms of the function calc_a1 sets to zero, the settlement under the slab's weight, and the cross compliance of the supported part (rotation under a unit force, deflection under a unit moment). Violated: calc_a1 leaves the last two out. For a given supported length the free end is at tc for at most one crack length (C77_first_contact_violated), and for short cracks it is below the collapsed layer by more than half the settlement (C77_sinks_violated). Missing: slopes, the sign of the cross compliance (so the direction of the error for long cracks), the limit of stage B."
  },
  {
   "property": "C78",
   "status": "partial",
   "theorems": [
    "Weac.C78_limits_exist",
    "Weac.C78_reported_limit",
    "Weac.C78_past_contact_violated",
    "Weac.C78_succeeds_partial"
   ],
   "note": "Proved: both limits exist as exact roots, first contact before full contact (C78_limits_exist), what an accurate root finder reports is close to one (C78_reported_limit), and the computation succeeds up to the limit of stage B and well beyond it (C78_succeeds_partial). Violated: calc_lC searches the free length only up to 0.999 times the crack length; just beyond the limit of stage B it is longer than that, both ends of the search have the same sign and calc_segments raises ValueError (C78_past_contact_violated), for every root finder whose result is close to the exact limit. The bound soft (ratio*kn*L^2 <= 140000*kA55) keeps the spring of a thousandth of the crack length weak."
  },
  {
   "property": "C79",
   "status": "proved",
   "theorems": [
    "Weac.C79_range",
    "Weac.C79_shift_needed",
    "Weac.C79_constants",
    "Weac.C79_well_conditioned"
   ],
   "note": "Proved in the maximum norm for all systems (vertical cut faces without touchdown, as in C16). The bound of the entries of the complementary solution is explicit (sum of the moduli of the eigenvectors' components); the constant of the linear system is not. Rounding itself is not modelled; together with C71 the statement bounds its effect."
  },
  {
   "property": "C80",
   "status": "proved",
   "theorems": [
    "Weac.C80_weights_monotone",
    "Weac.C80_weights_strict",
    "Weac.C80_heavier_sinks"
   ],
   "note": "Proved for all systems except the auxiliary problems of the springs, which carry no weights; vertical cut faces without touchdown, as in C16. The strict part needs segments of positive length: weights of opposite sign at one place would cancel."
  },
  {
   "property": "C81",
   "status": "proved",
   "theorems": [
    "Weac.C81_sag",
    "Weac.C81_sag_strict",
    "Weac.C81_mean_sag"
   ],
   "note": "Proved for skier systems, saw tests with free ends (without contact) and vertical faces. Rests on ShearOk (kt*t^2 < 16*kA55), as C18."
  },
  {
   "property": "C82",
   "status": "proved",
   "theorems": [
    "Weac.C82_segments",
    "Weac.C82_segments_iff",
    "Weac.C82_either_side"
   ],
   "note": "Segments and errors: for all systems and any root finder. Solution and energy release rates: saw tests with 0 <= a < L, with a root finder that stays within its bracket; in stage C the springs need distinct eigenvalues of the collapsed layer (RestOk), as in C18."
  },
  {
   "property": "C83",
   "status": "proved",
   "theorems": [
    "Weac.C83_released",
    "Weac.C83_positive",
    "Weac.C83_ginc"
   ],
   "note": "Proved for skier systems, saw tests with free ends and vertical faces without touchdown; needs B11*pt = 0 (no surface load along a slab with coupling), as C64, and ShearOk. The statement on the rates subtracts mode II because ginc reports it with the wrong sign (C31)."
  },
  {
   "property": "C84",
   "status": "proved",
   "theorems": [
    "Weac.C84_energy_grows",
    "Weac.C84_sufficient",
    "Weac.C84_doubling_ends",
    "Weac.C84_dampened_ends",
    "Weac.C84_ends"
   ],
   "note": "Sound sites as in C50 (distinct eigenvalues, ShearOk); for the main version also with the default weak layer of 30 mm, which its fallback uses. The number of rounds is not bounded uniformly. The quadrature is taken to have an absolute error bound; Romberg integration has a relative one too."
  },
  {
   "property": "C85",
   "status": "partial",
   "theorems": [
    "Weac.C85_layered",
    "Weac.C85_default_layered",
    "Weac.C85_complete_partial",
    "Weac.C85_almost_all",
    "Weac.C85_soft",
    "Weac.C85_incomplete_violated",
    "Weac.C85_unsolved_violated",
    "Weac.C85_one_layer",
    "Weac.C85_default_layer",
    "Weac.C85_any_slab"
   ],
   "note": "Proved: for every slab, thickness and Poisson ratio only finitely many moduli of the weak layer are exceptional (C85_almost_all), none of them small (C85_soft, C85_any_slab); explicit criteria on the stiffnesses (C85_complete_partial), for one layer (C85_one_layer), and for densities from 200 kg/m3 and thicknesses from 90 mm to 1.8 m on the default weak layer (C85_default_layer); for any number of layers when the weak layer is at most a third as thick as the slab and soft compared with the softest layer (C85_layered), in particular for layers of at least 300 kg/m3 and 90 to 900 mm in total on the default weak layer (C85_default_layered). There all hypotheses of the criterion theorems (SiteOk) hold. Violated: for every slab some modulus gives a double eigenvalue with one eigenvector; columns of zh are then parallel, states are out of reach (C85_incomplete_violated) and assemble_and_solve raises LinAlgError for all segments in exact arithmetic (C85_unsolved_violated)."
  },
  {
   "property": "C86",
   "status": "proved",
   "theorems": [
    "Weac.C86_same_solution",
    "Weac.C86_same_touchdown",
    "Weac.C86_same_verdict"
   ],
   "note": "Proved for whole sessions: segments, both solutions, rasterised displacements, differential and incremental energy release rates, potential and the object without eigensystem (C86_same_solution), the touchdown distances (C86_same_touchdown) and all criteria (C86_same_verdict). The hypothesis is the contract of the eigenvalue solver for both libraries and the same root finder. A library that reverses and rescales the eigenvectors is the example."
  },
  {
   "property": "C87",
   "status": "proved",
   "theorems": [
    "Weac.C87_reciprocity",
    "Weac.C87_two_places"
   ],
   "note": "Proved for any two changes of the weights (C87_reciprocity) and for one weight at two places (C87_two_places), without integrals: a combination of the flux of work and the mixed flux is monotone along every segment."
  },
  {
   "property": "C88",
   "status": "proved",
   "theorems": [
    "Weac.C88_center_of_gravity",
    "Weac.C88_weight",
    "Weac.C88_foundation",
    "Weac.C88_modulus",
    "Weac.C88_stiffness",
    "Weac.C88_determinant",
    "Weac.C88_face_weight"
   ],
   "note": "Proved in the standard model of floating-point arithmetic without overflow and underflow, with every operation of the code rounded in the order of the code (Model/Rounded). The rounding function is arbitrary. C88_face_weight covers the weight of the wedge at a vertical face, given the tangent from the library (Model/RoundedFace); the position of its centre of gravity is not covered."
  },
  {
   "property": "C89",
   "status": "proved",
   "theorems": [
    "Weac.C89_solution",
    "Weac.C89_workflow",
    "Weac.C89_touchdown",
    "Weac.C89_firm"
   ],
   "note": "Proved for objects in a fixed stage that vary in any continuous way, including the substitute spring of stage C (C89_solution), for the whole workflow from layers without touchdown (C89_workflow), and without conditions on the eigensystem for stiff slabs (C89_firm). With touchdown (C89_touchdown) the stage must not change, and in stage C the touchdown length that the root finder returns has to be continuous."
  },
  {
   "property": "C90",
   "status": "proved",
   "theorems": [
    "Weac.C90_loads",
    "Weac.C90_state",
    "Weac.C90_section",
    "Weac.C90_weak_layer",
    "Weac.C90_results",
    "Weac.C90_forces"
   ],
   "note": "Proved in the standard model of floating-point arithmetic without overflow and underflow, with every operation of the code rounded in the order of the code (Model/RoundedFields). Stored attributes, eigenvalues, eigenvectors and constants are taken as given numbers; errors of the constants are the subject of C71 and C79, those of the set-up of C88."
  },
  {
   "property": "C91",
   "status": "proved",
   "theorems": [
    "Weac.C91_face_forces",
    "Weac.C91_saw_system",
    "Weac.C91_saw_solution",
    "Weac.C91_matrix",
    "Weac.C91_system",
    "Weac.C91_solution"
   ],
   "note": "Proved in the standard model of floating-point arithmetic without overflow and underflow (Model/RoundedSystem). C91_matrix: all systems, with the spring of stage C as found; C91_system and C91_solution: skier systems; C91_saw_system and C91_saw_solution: saw tests in all stages, with a spring of given error (the right-hand side of vertical faces is not modelled in floating point). The factor of the unit roundoff grows with the phase of oscillating solutions over a segment (SystemScale). Eigenvalues and eigenvectors are taken as exact; the constant is that of C71_backward and not explicit. C91_face_forces bounds the forces of the wedge at a vertical face, given the tangent from the library; its moment is not covered."
  },
  {
   "property": "C92",
   "status": "proved",
   "theorems": [
    "Weac.C92_skier",
    "Weac.C92_saw",
    "Weac.C92_results"
   ],
   "note": "Proved in the standard model of floating-point arithmetic without overflow and underflow. C92_skier and C92_saw give the error D of the state (stateError), C92_results the errors of the results of a state that is off by D. Starting point are the stored attributes: rounding in the set-up of the slab is C88; eigenvalues and eigenvectors are taken as exact. The constant K is that of C71 and C79 and not explicit."
  }
 ]
}