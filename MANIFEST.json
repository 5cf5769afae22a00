{
 "claims": [
  {
   "property": "C01",
   "status": "proved",
   "theorems": [
    "Shgpy.C01_construction_normal_form"
   ],
   "note": ""
  },
  {
   "property": "C02",
   "status": "proved",
   "theorems": [
    "Shgpy.C02_construction_preserves_points",
    "Shgpy.C02_int_radians_truncated"
   ],
   "note": "Second theorem: integer-dtype arrays given in radians are truncated (outside the property's quantifier)."
  },
  {
   "property": "C03",
   "status": "partial",
   "theorems": [
    "Shgpy.C03_no_duplicate_angles_partial",
    "Shgpy.C03_survivors",
    "Shgpy.C03_duplicates_can_survive"
   ],
   "note": "Property is false of the code (witness theorem); holds when all input angles lie in [0,2pi). C03_survivors says exactly which points survive, when there is a warning, and gives the exact condition under which the angles are distinct."
  },
  {
   "property": "C04",
   "status": "proved",
   "theorems": [
    "Shgpy.C04_acceptance"
   ],
   "note": ""
  },
  {
   "property": "C05",
   "status": "proved",
   "theorems": [
    "Shgpy.C05_normal_form_invariant"
   ],
   "note": ""
  },
  {
   "property": "C06",
   "status": "proved",
   "theorems": [
    "Shgpy.C06_scale_phase_bookkeeping",
    "Shgpy.C06_recorded",
    "Shgpy.C06_untouched",
    "Shgpy.C06_units"
   ],
   "note": ""
  },
  {
   "property": "C07",
   "status": "partial",
   "theorems": [
    "Shgpy.C07_offset_bookkeeping_partial",
    "Shgpy.C07_exact",
    "Shgpy.C07_right_iff",
    "Shgpy.C07_offset_not_rescaled"
   ],
   "note": "Property is false of the code when scale_data follows subtract_min (witness); holds when scalings precede subtractions. C07_exact gives the recorded offset for every history without filter; C07_right_iff the exact condition under which it is right."
  },
  {
   "property": "C08",
   "status": "proved",
   "theorems": [
    "Shgpy.C08_phase_shift_compose",
    "Shgpy.C08_phase_shift_inverse",
    "Shgpy.C08_phase_shift_units_and_turns"
   ],
   "note": ""
  },
  {
   "property": "C09",
   "status": "proved",
   "theorems": [
    "Shgpy.C09_maxval",
    "Shgpy.C09_minval",
    "Shgpy.C09_pc_extrema"
   ],
   "note": ""
  },
  {
   "property": "C10",
   "status": "proved",
   "theorems": [
    "Shgpy.C10_subtract_min",
    "Shgpy.C10_normalize",
    "Shgpy.C10_calls"
   ],
   "note": ""
  },
  {
   "property": "C11",
   "status": "proved",
   "theorems": [
    "Shgpy.C11_rejected_operations",
    "Shgpy.C11_rejected_fdata_operations"
   ],
   "note": "DataContainer and fDataContainer; a zero maximum (division by zero) is the degenerate case"
  },
  {
   "property": "C12",
   "status": "proved",
   "theorems": [
    "Shgpy.C12_degrees",
    "Shgpy.C12_rebuild"
   ],
   "note": ""
  },
  {
   "property": "C13",
   "status": "proved",
   "theorems": [
    "Shgpy.C13_normal_to_oblique"
   ],
   "note": "For data of float dtype (or degrees) with angles distinct modulo 2pi."
  },
  {
   "property": "C14",
   "status": "proved",
   "theorems": [
    "Shgpy.C14_subtract",
    "Shgpy.C14_add",
    "Shgpy.C14_rejects",
    "Shgpy.C14_subtract_then_add",
    "Shgpy.C14_subtract_self",
    "Shgpy.C14_add_comm"
   ],
   "note": "numbers are exact; np.isclose with default tolerances; distinct angles in the first container are a hypothesis (the constructor removes repeated angles)"
  },
  {
   "property": "C15",
   "status": "partial",
   "theorems": [
    "Shgpy.C15_isolation_partial",
    "Shgpy.C15_getter_contents",
    "Shgpy.C15_live_arrays",
    "Shgpy.C15_live_items",
    "Shgpy.C15_fdata_isolation_partial",
    "Shgpy.C15_fdata_live_arrays",
    "Shgpy.C15_fform_isolation_partial",
    "Shgpy.C15_fform_getter_contents",
    "Shgpy.C15_fform_live_arrays"
   ],
   "note": "Isolation proved for every history that does not ask for get_items/get_values in radians (DataContainer) or get_items/get_values (fDataContainer, fFormContainer); those getters return live arrays, proved by C15_live_arrays, C15_live_items, C15_fdata_live_arrays and C15_fform_live_arrays."
  },
  {
   "property": "C16",
   "status": "partial",
   "theorems": [
    "Shgpy.C16_form_copy",
    "Shgpy.C16_fform_copy_partial",
    "Shgpy.C16_fform_copy_independent",
    "Shgpy.C16_fdata_copy_partial",
    "Shgpy.C16_fdata_copy_phase_broken",
    "Shgpy.C16_data_copy_broken"
   ],
   "note": "Holds for FormContainer and for fFormContainers without numeric arrays; that an fFormContainer and its copy share no array is C16_fform_copy_independent, on a heap of arrays. Violated by the code elsewhere, proved: DataContainer.copy always raises AttributeError, the fDataContainer copy has a tuple as phase shift, and an fFormContainer with an all-number combination cannot be copied."
  },
  {
   "property": "C17",
   "status": "proved",
   "theorems": [
    "Shgpy.C17_history_closed_form",
    "Shgpy.C17_recorded",
    "Shgpy.C17_units"
   ],
   "note": "exact complex arithmetic"
  },
  {
   "property": "C18",
   "status": "proved",
   "theorems": [
    "Shgpy.C18_acceptance",
    "Shgpy.C18_indexing"
   ],
   "note": "M is a natural number"
  },
  {
   "property": "C19",
   "status": "proved",
   "theorems": [
    "Shgpy.C19_maxval",
    "Shgpy.C19_pc_maxval",
    "Shgpy.C19_normalize",
    "Shgpy.C19_phase_shift_magnitudes"
   ],
   "note": "exact arithmetic; for d = 0 every component becomes 0"
  },
  {
   "property": "C20",
   "status": "proved",
   "theorems": [
    "Shgpy.C20_inverse_sampling",
    "Shgpy.C20_grid",
    "Shgpy.C20_zero_points"
   ],
   "note": "N = 0 raises ValueError (C20_zero_points)."
  },
  {
   "property": "C21",
   "status": "proved",
   "theorems": [
    "Shgpy.C21_discrete_transform",
    "Shgpy.C21_aliasing",
    "Shgpy.C21_round_trip",
    "Shgpy.C21_real_round_trip",
    "Shgpy.C21_single_point"
   ],
   "note": "The interpolant is a parameter assumed to reproduce its nodes; rounding to complex64 is not modelled. N = 1 raises (C21_single_point)."
  },
  {
   "property": "C22",
   "status": "partial",
   "theorems": [
    "Shgpy.C22_phase_shift_partial",
    "Shgpy.C22_directions_disagree"
   ],
   "note": "False as stated: the two phase shifts go in opposite directions (C22_directions_disagree). Proved with the sign of the Fourier-space shift reversed."
  },
  {
   "property": "C23",
   "status": "proved",
   "theorems": [
    "Shgpy.C23_fdata",
    "Shgpy.C23_fform_form"
   ],
   "note": "For every shift expression; Fourier coefficients containing phi itself are excluded (CoefficientsFree)."
  },
  {
   "property": "C24",
   "status": "proved",
   "theorems": [
    "Shgpy.C24_table_exact"
   ],
   "note": "The whole generated table; all complex angles; Fourier integrals over [0, 2 pi]."
  },
  {
   "property": "C25",
   "status": "proved",
   "theorems": [
    "Shgpy.C25_expanded_sums"
   ],
   "note": "For every sound automatic evaluation of sympy."
  },
  {
   "property": "C26",
   "status": "partial",
   "theorems": [
    "Shgpy.C26_supported_partial",
    "Shgpy.C26_exact",
    "Shgpy.C26_sums",
    "Shgpy.C26_single_cosine_broken",
    "Shgpy.C26_bare_power_broken",
    "Shgpy.C26_bare_symbol_broken"
   ],
   "note": "False of the code: x*cos(phi), bare powers and bare symbols in sums are transformed wrongly (refutations proved). The partial theorem covers the supported shapes. C26_exact says for every readable formula which formula is transformed in its place, and C26_sums which sums are readable."
  },
  {
   "property": "C27",
   "status": "proved",
   "theorems": [
    "Shgpy.C27_independent_of_M",
    "Shgpy.C27_above_16",
    "Shgpy.C27_constant_formulas"
   ],
   "note": "For M > 16 the exception is KeyError instead of IndexError when an unsupported formula is met first."
  },
  {
   "property": "C28",
   "status": "partial",
   "theorems": [
    "Shgpy.C28_series",
    "Shgpy.C28_round_trip",
    "Shgpy.C28_coefficients_partial",
    "Shgpy.C28_second_half_broken"
   ],
   "note": "First half proved for all supported forms. Second half false of the code (KeyError), refuted with a witness; its semantic content (coefficients of the written formulas) is proved."
  },
  {
   "property": "C29",
   "status": "proved",
   "theorems": [
    "Shgpy.C29_values",
    "Shgpy.C29_missing_symbol",
    "Shgpy.C29_independent",
    "Shgpy.C29_other_M",
    "Shgpy.C29_numeric_array"
   ],
   "note": "Containers without a purely numeric array (those raise AttributeError, C29_numeric_array)."
  },
  {
   "property": "C30",
   "status": "proved",
   "theorems": [
    "Shgpy.C30_only_phi",
    "Shgpy.C30_samples",
    "Shgpy.C30_agree",
    "Shgpy.C30_depends"
   ],
   "note": "Supported forms as in C26; lambdify/complex conversion modelled as exact evaluation."
  },
  {
   "property": "C31",
   "status": "proved",
   "theorems": [
    "Shgpy.C31_form_free_symbols",
    "Shgpy.C31_fform_free_symbols",
    "Shgpy.C31_order_independent",
    "Shgpy.C31_form_order_independent"
   ],
   "note": "For fFormContainer the case of a numeric array (AttributeError) is covered explicitly."
  },
  {
   "property": "C32",
   "status": "proved",
   "theorems": [
    "Shgpy.C32_form_history",
    "Shgpy.C32_fform_step",
    "Shgpy.C32_fform_history"
   ],
   "note": "Symbols only as substitution targets; simplify/expand are arbitrary value-preserving rewritings."
  },
  {
   "property": "C33",
   "status": "partial",
   "theorems": [
    "Shgpy.C33_round_trip_partial",
    "Shgpy.C33_numeric_arrays_partial",
    "Shgpy.C33_other_M",
    "Shgpy.C33_files"
   ],
   "note": "Holds for M = 16; C33_other_M proves that for M != 16 loading raises ValueError (or returns M = 16 for an empty container)."
  },
  {
   "property": "C34",
   "status": "proved",
   "theorems": [
    "Shgpy.C34_merge",
    "Shgpy.C34_distinct",
    "Shgpy.C34_injective",
    "Shgpy.C34_numbered",
    "Shgpy.C34_mixed_types",
    "Shgpy.C34_other_M",
    "Shgpy.C34_fdata_other_M",
    "Shgpy.C34_numbered_clash"
   ],
   "note": "Data containers with pairwise distinct angles, Fourier containers with M = 16 without numeric arrays; the exceptions for the others are proved. C34_numbered: the mapping of the documentation has no clashes when the keys have equal length."
  },
  {
   "property": "C35",
   "status": "partial",
   "theorems": [
    "Shgpy.C35_read_csv",
    "Shgpy.C35_pipeline_partial",
    "Shgpy.C35_dark_pipeline_partial",
    "Shgpy.C35_composition",
    "Shgpy.C35_scale_broken"
   ],
   "note": "Proved for scale = 1; C35_scale_broken proves that no call with another scale returns."
  },
  {
   "property": "C36",
   "status": "proved",
   "theorems": [
    "Shgpy.C36_contract",
    "Shgpy.C36_indices",
    "Shgpy.C36_tuples",
    "Shgpy.C36_order",
    "Shgpy.C36_swap",
    "Shgpy.C36_errors"
   ],
   "note": "Over every commutative semiring, all ranks, dimensions and lists of disjoint pairs."
  },
  {
   "property": "C37",
   "status": "proved",
   "theorems": [
    "Shgpy.C37_formula",
    "Shgpy.C37_rank_zero",
    "Shgpy.C37_identity",
    "Shgpy.C37_composition",
    "Shgpy.C37_linear",
    "Shgpy.C37_congr",
    "Shgpy.C37_orthogonal"
   ],
   "note": "Over every commutative semiring; all positive ranks and all dimensions. Rank 0 raises IndexError (C37_rank_zero)."
  },
  {
   "property": "C38",
   "status": "partial",
   "theorems": [
    "Shgpy.C38_rotation_partial",
    "Shgpy.C38_orientation",
    "Shgpy.C38_zero_angle",
    "Shgpy.C38_additive",
    "Shgpy.C38_direction",
    "Shgpy.C38_zero_axis",
    "Shgpy.C38_integer_axis_broken",
    "Shgpy.C38_integer_coordinate_axis",
    "Shgpy.C38_integer_axis",
    "Shgpy.C38_integer_rotation_iff",
    "Shgpy.C38_symbolic",
    "Shgpy.C38_symbolic_zero_axis",
    "Shgpy.C38_symbolic_integer"
   ],
   "note": "Proved for lists and floating arrays over exact reals, and for symbolic axes and angles (rotation_matrix3symb). Refuted for axes given as arrays of integer dtype, whose normalized components are truncated: the result is a rotation exactly when the axis is along a coordinate axis or cos t = 1 (C38_integer_rotation_iff); rotation_matrix3symb behaves in the same way (C38_symbolic_integer)."
  },
  {
   "property": "C39",
   "status": "partial",
   "theorems": [
    "Shgpy.C39_rotation_partial",
    "Shgpy.C39_exact_partial",
    "Shgpy.C39_accuracy",
    "Shgpy.C39_accuracy_broken",
    "Shgpy.C39_antiparallel_broken",
    "Shgpy.C39_zero_vector"
   ],
   "note": "Proved for directions that are not opposite and positive accuracies, up to the rounding of the matrix; refuted for opposite directions, where the code returns minus the identity (determinant -1), and for accuracies that are not positive, where it returns the rotation by the opposite angle, sometimes without a warning."
  },
  {
   "property": "C40",
   "status": "proved",
   "theorems": [
    "Shgpy.C40_levi_civita",
    "Shgpy.C40_cross_product",
    "Shgpy.C40_components"
   ],
   "note": "Over every ring."
  },
  {
   "property": "C41",
   "status": "proved",
   "theorems": [
    "Shgpy.C41_union"
   ],
   "note": ""
  },
  {
   "property": "C42",
   "status": "proved",
   "theorems": [
    "Shgpy.C42_last_two",
    "Shgpy.C42_all",
    "Shgpy.C42_unchanged",
    "Shgpy.C42_idempotent",
    "Shgpy.C42_no_solution",
    "Shgpy.C42_keeps",
    "Shgpy.C42_all_shapes",
    "Shgpy.C42_last_two_shapes"
   ],
   "note": "The solver is a parameter assumed sound. Three-dimensional tensors (the code hard-codes range(3)) of every rank at least 2; idempotence in the sense that a result in normal form is returned unchanged by any solver. When the solver returns no solution, IndexError. C42_keeps: with a solver that is complete for linear equations no symmetric value of the tensor is lost. C42_all_shapes and C42_last_two_shapes: arrays that are not three-dimensional (IndexError for too short axes; beyond the third index the last-two mode forces zeros)."
  },
  {
   "property": "C43",
   "status": "proved",
   "theorems": [
    "Shgpy.C43_complex",
    "Shgpy.C43_complex_accepted",
    "Shgpy.C43_real",
    "Shgpy.C43_declared",
    "Shgpy.C43_other_assumptions_broken",
    "Shgpy.C43_map_to_real"
   ],
   "note": "For symbols made by sp.symbols(name) or with real=True; symbols with other assumptions that leave realness open are not replaced (C43_other_assumptions_broken). C43_declared: symbols known to be real, or known not to be, are left alone."
  },
  {
   "property": "C44",
   "status": "proved",
   "theorems": [
    "Shgpy.C44_formgen",
    "Shgpy.C44_real_nonneg",
    "Shgpy.C44_fields",
    "Shgpy.C44_p_component"
   ],
   "note": "For every sound automatic evaluation and expansion (parameters Sympy, Rewriting)."
  },
  {
   "property": "C45",
   "status": "proved",
   "theorems": [
    "Shgpy.C45_rotation",
    "Shgpy.C45_periodic"
   ],
   "note": "Tensors transformed by the model of transform()."
  },
  {
   "property": "C46",
   "status": "proved",
   "theorems": [
    "Shgpy.C46_just_dipole",
    "Shgpy.C46_dipole_quadrupole"
   ],
   "note": "formgen_dipole_quadrupole additionally requires theta to be known real; otherwise it raises ValueError, which formgen does not."
  },
  {
   "property": "C47",
   "status": "proved",
   "theorems": [
    "Shgpy.C47_quadratic",
    "Shgpy.C47_phase"
   ],
   "note": ""
  },
  {
   "property": "C48",
   "status": "proved",
   "theorems": [
    "Shgpy.C48_degree"
   ],
   "note": ""
  },
  {
   "property": "C49",
   "status": "proved",
   "theorems": [
    "Shgpy.C49_normal_incidence"
   ],
   "note": ""
  },
  {
   "property": "C50",
   "status": "proved",
   "theorems": [
    "Shgpy.C50_symmetric_part",
    "Shgpy.C50_idempotent"
   ],
   "note": ""
  },
  {
   "property": "C51",
   "status": "proved",
   "theorems": [
    "Shgpy.C51_errors"
   ],
   "note": "For tensors of the documented shapes."
  },
  {
   "property": "C52",
   "status": "proved",
   "theorems": [
    "Shgpy.C52_components",
    "Shgpy.C52_symbolic",
    "Shgpy.C52_reuse",
    "Shgpy.C52_errors",
    "Shgpy.C52_names"
   ],
   "note": "With M=16 the two fformgen functions succeed for all valid tensors and all (numerical or symbolic) angles, and the loaded container holds the Fourier coefficients of the intensity in fformgen's own geometry (half a turn from formgen's). Errors characterised."
  },
  {
   "property": "C53",
   "status": "partial",
   "theorems": [
    "Shgpy.C53_half_turn_partial",
    "Shgpy.C53_exact",
    "Shgpy.C53_normal_partial",
    "Shgpy.C53_broken"
   ],
   "note": "False as stated: the odd components differ in sign because fformgen's geometry is turned by pi (C53_broken, concrete crystal). What holds: keys, M and components up to (-1)^m; the two agree exactly when the odd components of the first vanish (C53_exact), in particular at normal incidence (C53_normal_partial). Assumes the easy way meets the table (SupportedForms), shown satisfiable by C67_expanding."
  },
  {
   "property": "C54",
   "status": "partial",
   "theorems": [
    "Shgpy.C54_sixteen_partial",
    "Shgpy.C54_small_M_broken",
    "Shgpy.C54_large_M_broken",
    "Shgpy.C54_broken"
   ],
   "note": "False for every M != 16: M>16 raises IndexError, M from 1 to 15 gives zero components (all for M<=14, from -4 on for M=15). M=16 is right."
  },
  {
   "property": "C55",
   "status": "proved",
   "theorems": [
    "Shgpy.C55_dipole",
    "Shgpy.C55_surface",
    "Shgpy.C55_quadrupole",
    "Shgpy.C55_particularized"
   ],
   "note": "For all 32 point groups (31 and Isotropic for quadrupole); the axis setting is the one of Spec.pointGroups and Spec.quadrupoleGroups. C55_particularized: after particularize, exactly the invariant tensors that are symmetric in the last two indices."
  },
  {
   "property": "C56",
   "status": "proved",
   "theorems": [
    "Shgpy.C56_surface"
   ],
   "note": ""
  },
  {
   "property": "C57",
   "status": "proved",
   "theorems": [
    "Shgpy.C57_cost",
    "Shgpy.C57_zero_iff"
   ],
   "note": "Exact real arithmetic; data components are rational (floats)."
  },
  {
   "property": "C58",
   "status": "partial",
   "theorems": [
    "Shgpy.C58_chunked_cost",
    "Shgpy.C58_model",
    "Shgpy.C58_files",
    "Shgpy.C58_loaded_model_partial",
    "Shgpy.C58_zero_terms",
    "Shgpy.C58_negative_terms",
    "Shgpy.FitCases.C58_underscore_broken",
    "Shgpy.FitCases.C58_negative_terms_broken",
    "Shgpy.C58_glob"
   ],
   "note": "Chunked cost, generated model and the number of terms per file: full. Loaded model: for combination names without _ * ? [ / and libraries not loaded before in the process; with underscores the property is false (C58_underscore_broken), and so it is for negative chunk sizes (C58_negative_terms_broken).  C58_glob: the model of glob accepts exactly the matching names."
  },
  {
   "property": "C59",
   "status": "partial",
   "theorems": [
    "Shgpy.C58_loaded_model_partial",
    "Shgpy.C59_cost_partial",
    "Shgpy.C59_gradient_partial",
    "Shgpy.FitCases.C59_reload",
    "Shgpy.FitCases.C59_reload_broken",
    "Shgpy.FitCases.C59_bare_name_broken",
    "Shgpy.FitCases.C59_stale_gradient",
    "Shgpy.FitCases.C59_stale_gradient_broken"
   ],
   "note": "Holds for paths with a slash that the process has not loaded before and, for gradients, no leftover file numbered like the number of parameters. Refuted otherwise."
  },
  {
   "property": "C60",
   "status": "proved",
   "theorems": [
    "Shgpy.C60_least_squares",
    "Shgpy.C60_dual_annealing",
    "Shgpy.C60_basinhopping",
    "Shgpy.C60_basinhopping_with_bounds",
    "Shgpy.C60_basinhopping_jac",
    "Shgpy.C60_basinhopping_jac_with_bounds",
    "Shgpy.C60_no_parameters",
    "Shgpy.C60_missing_guess",
    "Shgpy.C60_missing_guess_jac",
    "Shgpy.C60_repeated_options",
    "Shgpy.C60_repeated_options_jac",
    "Shgpy.C60_missing_bounds",
    "Shgpy.C60_missing_bounds_jac",
    "Shgpy.C60_names"
   ],
   "note": "For any optimizer; the cost is generated from formula and data or loaded from a file with the right function."
  },
  {
   "property": "C61",
   "status": "partial",
   "theorems": [
    "Shgpy.C61_least_squares",
    "Shgpy.C61_dual_annealing",
    "Shgpy.C61_basinhopping_partial",
    "Shgpy.C60_basinhopping",
    "Shgpy.C60_basinhopping_with_bounds",
    "Shgpy.C60_basinhopping_jac",
    "Shgpy.C60_basinhopping_jac_with_bounds",
    "Shgpy.FitCases.C61_basinhopping_broken"
   ],
   "note": "The basinhopping fits remove the entry minimizer_kwargs from the caller's dictionary."
  },
  {
   "property": "C62",
   "status": "partial",
   "theorems": [
    "Shgpy.C57_cost",
    "Shgpy.C62_shifted_partial",
    "Shgpy.C62_smaller_raises",
    "Shgpy.FitCases.C62_broken"
   ],
   "note": "True for equal M; raises when the data have a smaller M; false when they have a larger M."
  },
  {
   "property": "C63",
   "status": "partial",
   "theorems": [
    "Shgpy.C63_layout",
    "Shgpy.C63_errors",
    "Shgpy.C63_no_combination_broken",
    "Shgpy.C63_undrawn_broken"
   ],
   "note": "proved for one or more combinations; refuted for an empty list of combinations (four empty cells) and when there are fewer parameter dictionaries than containers (the rest is silently not drawn)"
  },
  {
   "property": "C64",
   "status": "proved",
   "theorems": [
    "Shgpy.C64_fform_validation",
    "Shgpy.C64_fform_contents",
    "Shgpy.C64_form_validation"
   ],
   "note": ""
  },
  {
   "property": "C65",
   "status": "partial",
   "theorems": [
    "Shgpy.C65_fields_to_form_partial",
    "Shgpy.C65_just_dipole_broken"
   ],
   "note": "The code violates the property for a dipole alone: gen_P_just_dipole returns the number 0 for the quadrupole moment and make_form_from_P_and_Q raises AttributeError."
  },
  {
   "property": "C66",
   "status": "proved",
   "theorems": [
    "Shgpy.C66_symbols"
   ],
   "note": ""
  },
  {
   "property": "C67",
   "status": "proved",
   "theorems": [
    "Shgpy.C67_monomials",
    "Shgpy.C67_easy_way",
    "Shgpy.C67_expanding"
   ],
   "note": "Formulas of formgen are sums of monomials covered by the table, for every sympy evaluation; with an expanding sympy the hypothesis of the easy way is met for all valid tensors."
  },
  {
   "property": "C68",
   "status": "proved",
   "theorems": [
    "Shgpy.C68_names",
    "Shgpy.C68_parameters"
   ],
   "note": ""
  },
  {
   "property": "C69",
   "status": "partial",
   "theorems": [
    "Shgpy.C69_same_setting_partial",
    "Shgpy.C69_C_3v_broken",
    "Shgpy.C69_D_3_broken",
    "Shgpy.C69_quarter_turn"
   ],
   "note": "Proved for all common groups except C_3v and D_3, where it is refuted: the quadrupole entries are turned by 90 degrees about z.  C69_quarter_turn proves that transforming the quadrupole entry by that rotation gives the setting of the dipole entry."
  },
  {
   "property": "C70",
   "status": "proved",
   "theorems": [
    "Shgpy.C70_gradient",
    "Shgpy.C70_gradient_or_constant",
    "Shgpy.C70_no_parameters",
    "Shgpy.C70_chunked",
    "Shgpy.C60_basinhopping_jac",
    "Shgpy.C60_basinhopping_jac_with_bounds"
   ],
   "note": "C70_gradient_or_constant covers every cost; C70_gradient says that the function exists whenever the cost is not constant."
  },
  {
   "property": "C71",
   "status": "partial",
   "theorems": [
    "Shgpy.C58_loaded_model_partial",
    "Shgpy.FitCases.C71_missing_folder_broken"
   ],
   "note": "False: a missing folder gives the zero function for every formula. The partial theorem covers the folder that gen_model_func wrote."
  },
  {
   "property": "C72",
   "status": "proved",
   "theorems": [
    "Shgpy.C72_filter",
    "Shgpy.C72_filter_error"
   ],
   "note": ""
  },
  {
   "property": "C73",
   "status": "partial",
   "theorems": [
    "Shgpy.C73_polar_partial",
    "Shgpy.C73_errors",
    "Shgpy.C73_single_broken"
   ],
   "note": "proved for two or more combinations; a single combination raises AttributeError"
  },
  {
   "property": "C74",
   "status": "partial",
   "theorems": [
    "Shgpy.C74_data_none",
    "Shgpy.C74_data_multi_exact",
    "Shgpy.C74_data_multi_partial",
    "Shgpy.C74_data_multi_broken",
    "Shgpy.C74_data_errors",
    "Shgpy.C74_fdata",
    "Shgpy.C74_fform",
    "Shgpy.C74_form",
    "Shgpy.C74_names"
   ],
   "note": "True for fData, fForm, Form and for index='none'. For DataContainer with index='multi' the code uses the first combination's angles for all: exact characterization, the part that holds, and a counterexample."
  },
  {
   "property": "C75",
   "status": "proved",
   "theorems": [
    "Shgpy.C75_cost",
    "Shgpy.C75_gradient",
    "Shgpy.C75_model",
    "Shgpy.C75_load",
    "Shgpy.C75_fits",
    "Shgpy.C75_fit_saves"
   ],
   "note": "Temporary build directories of sympy are outside the model."
  },
  {
   "property": "C76",
   "status": "partial",
   "theorems": [
    "Shgpy.C76_components_partial",
    "Shgpy.C76_other_M_broken",
    "Shgpy.C76_missing_symbol"
   ],
   "note": "Holds for M = 16; for any other M the call never succeeds on a nonempty container, because fform_to_fdat drops M."
  },
  {
   "property": "C77",
   "status": "proved",
   "theorems": [
    "Shgpy.C77_data",
    "Shgpy.C77_units",
    "Shgpy.C77_fdata",
    "Shgpy.C77_fform",
    "Shgpy.C77_form"
   ],
   "note": ""
  },
  {
   "property": "C78",
   "status": "partial",
   "theorems": [
    "Shgpy.C78_cost_steps",
    "Shgpy.C78_gradient_steps",
    "Shgpy.C78_model_steps",
    "Shgpy.C78_cost",
    "Shgpy.C78_gradient_partial",
    "Shgpy.C78_model_partial",
    "Shgpy.C78_interrupted_model",
    "Shgpy.C78_interrupted_gradient",
    "Shgpy.FitCases.C78_model_broken",
    "Shgpy.FitCases.C78_gradient_broken"
   ],
   "note": "Proved for the cost function; refuted for models (missing files are not noticed) and gradients (mixture of new cost and old gradient); what holds for them is proved as _partial."
  },
  {
   "property": "C79",
   "status": "partial",
   "theorems": [
    "Shgpy.C79_cost_partial",
    "Shgpy.C79_gradient",
    "Shgpy.C79_model_lost",
    "Shgpy.FitCases.C79_chunks_broken",
    "Shgpy.FitCases.C79_model_broken"
   ],
   "note": "Proved for gradients and for costs except chunked costs of an empty container; refuted for models."
  },
  {
   "property": "C80",
   "status": "proved",
   "theorems": [
    "Shgpy.C80_calls",
    "Shgpy.C80_stable",
    "Shgpy.C80_lazy_call",
    "Shgpy.C80_first_call",
    "Shgpy.C80_model"
   ],
   "note": "The dynamic loader returns the library it already has for a path (model of dlopen)."
  },
  {
   "property": "C81",
   "status": "proved",
   "theorems": [
    "Shgpy.C81_rounding",
    "Shgpy.C81_exact",
    "Shgpy.C81_multiplied",
    "Shgpy.C81_patterns",
    "Shgpy.C81_patterns_symb"
   ],
   "note": "C81_rounding is the whole statement for any rewriting used as expand(); C81_multiplied discharges the hypothesis on the expanded formula for a concrete multiplying-out. Numbers are exact: the binary representation of the rounded numbers is left out, and so are negative ndigits. C81_patterns and C81_patterns_symb: for multiplying-out and angles with few digits, the pattern of the rounded formulas differs from the intensity of the crystal by at most a constant times 10^-n, with a constant that does not depend on n. The constant is uniform for symbols of bounded size."
  },
  {
   "property": "C82",
   "status": "proved",
   "theorems": [
    "Shgpy.C82_rotation",
    "Shgpy.C82_mirror",
    "Shgpy.C82_inversion",
    "Shgpy.C82_selection",
    "Shgpy.C82_even"
   ],
   "note": "End-to-end composition of the tables, particularize, make_tensor_real/complex, formgen and both ways to Fourier formulas. For tensors made symmetric by particularize (with or without permute_all_indices) GoodSolver is assumed of the solver. The easy way is included for formulas of a shape that the table of Fourier transforms covers (see C67)."
  },
  {
   "property": "C83",
   "status": "proved",
   "theorems": [
    "Shgpy.C83_simulated",
    "Shgpy.C83_sampled"
   ],
   "note": "End-to-end composition. In the sampled version the interpolation passes through the samples and the Fourier series are real (components m and -m conjugate)."
  },
  {
   "property": "C84",
   "status": "proved",
   "theorems": [
    "Shgpy.C84_phase",
    "Shgpy.C84_sign",
    "Shgpy.C84_turned"
   ],
   "note": "Also for tensors made symmetric by particularize (GoodSolver assumed of the solver). The easy way to Fourier formulas is included for formulas of a shape that the table of Fourier transforms covers (see C67)."
  },
  {
   "property": "C85",
   "status": "partial",
   "theorems": [
    "Shgpy.C85_exact",
    "Shgpy.C85_range_partial",
    "Shgpy.C85_turn_broken",
    "Shgpy.C85_shift_partial",
    "Shgpy.C85_shift_broken"
   ],
   "note": "The code violates the property: for tiny negative angles x, x % (2*np.pi) rounds up to 2*np.pi itself (-1e-17 % (2*np.pi) == 2*np.pi in Python), so the angle of a constructed or shifted container can be a full turn, and building a container again from its data changes it to 0. Proved for every precision and tie rule (C85_turn_broken, C85_shift_broken). What holds (closed interval, sorted, nearest, exact for angles >= 0) is in the _partial theorems; C85_exact ties the model to that of C01-C04. Overflow, underflow and NaN are not modelled."
  },
  {
   "property": "C86",
   "status": "partial",
   "theorems": [
    "Shgpy.C86_cost_partial",
    "Shgpy.C86_model",
    "Shgpy.FitCases.C86_slice_broken",
    "Shgpy.FitCases.C86_integers_broken",
    "Shgpy.FitCases.C86_short_broken"
   ],
   "note": "Cost functions read the memory at the address of the array: proved for contiguous float64 arrays with enough elements, refuted for slices with gaps, integer arrays and short arrays. Model functions convert the array and are right for every array."
  },
  {
   "property": "C87",
   "status": "partial",
   "theorems": [
    "Shgpy.C87_filter",
    "Shgpy.C87_pure",
    "Shgpy.C87_failed_broken"
   ],
   "note": "Proved for successful calls and for all combinations but the offending one; a failing call can change the offending combination."
  },
  {
   "property": "C88",
   "status": "partial",
   "theorems": [
    "Shgpy.C88_collection",
    "Shgpy.C88_iterator_names",
    "Shgpy.C88_iterator_broken",
    "Shgpy.C88_form_subs_broken",
    "Shgpy.C88_fform_subs_broken"
   ],
   "note": "Proved for collections. Iterators are silently taken as empty by the constructors, and used up by the first expression in subs; both stated for all contents."
  },
  {
   "property": "C89",
   "status": "proved",
   "theorems": [
    "Shgpy.C89_transform",
    "Shgpy.C89_real",
    "Shgpy.C89_energy"
   ],
   "note": "The interpolation of scipy is a parameter: any function of the angle it returns."
  },
  {
   "property": "C90",
   "status": "proved",
   "theorems": [
    "Shgpy.C90_least_squares",
    "Shgpy.C90_rounded"
   ],
   "note": "For exact Fourier components, and with an error bound for components rounded to machine numbers. Examples with four points and three components."
  },
  {
   "property": "C91",
   "status": "proved",
   "theorems": [
    "Shgpy.C91_separate",
    "Shgpy.C91_finished",
    "Shgpy.C91_cost_files",
    "Shgpy.C91_gradient_files",
    "Shgpy.C91_cost_calls",
    "Shgpy.C91_prefixes",
    "Shgpy.C91_prefix_clash"
   ],
   "note": "Byte-level file system with inodes; one step per byte, so every division of shutil.copy into pieces is covered. C91_prefix_clash shows why prefixes may not end in a digit."
  },
  {
   "property": "C92",
   "status": "partial",
   "theorems": [
    "Shgpy.C92_in_turn_partial",
    "Shgpy.C92_removed_broken",
    "Shgpy.C92_mixture_broken"
   ],
   "note": "Proved for calls that do not overlap; refuted for overlapping calls, for all names and libraries."
  },
  {
   "property": "C93",
   "status": "partial",
   "theorems": [
    "Shgpy.C93_finite",
    "Shgpy.C93_maxval",
    "Shgpy.C93_minval",
    "Shgpy.C93_extrema_partial",
    "Shgpy.C93_normalize_partial",
    "Shgpy.C93_nan_first_broken",
    "Shgpy.C93_zero_broken",
    "Shgpy.C93_inf_broken",
    "Shgpy.C93_hidden_broken",
    "Shgpy.C93_arithmetic"
   ],
   "note": "Exact characterization of the extrema; the full property is refuted. C93_finite shows that the model agrees with the model of the other properties on finite values."
  },
  {
   "property": "C94",
   "status": "proved",
   "theorems": [
    "Shgpy.C94_merged_cost"
   ],
   "note": "M = 16 because merging does not pass M on (C34_other_M)."
  },
  {
   "property": "C95",
   "status": "proved",
   "theorems": [
    "Shgpy.C95_orientation"
   ],
   "note": ""
  },
  {
   "property": "C96",
   "status": "partial",
   "theorems": [
    "Shgpy.C96_in_use_partial",
    "Shgpy.C96_same_file_broken"
   ],
   "note": "Proved when no file is saved by two processes (one process may save its file again and again); refuted when two processes save the same file, for all new files and libraries."
  },
  {
   "property": "C97",
   "status": "proved",
   "theorems": [
    "Shgpy.C97_scale",
    "Shgpy.C97_subtract_min",
    "Shgpy.C97_combine",
    "Shgpy.C97_scale_default",
    "Shgpy.C97_subtract_min_default",
    "Shgpy.C97_combine_default"
   ],
   "note": "Exact arithmetic. C97_scale, C97_subtract_min and C97_combine hold for every interpolation that is a weighted sum of the values with weights that depend on the angles only (LinearInterp); the theorems with the suffix _default are for SciPy's cubic interpolation as modelled in C137, without a hypothesis on the interpolation, and only ask that dat_to_fdat succeeds."
  },
  {
   "property": "C98",
   "status": "proved",
   "theorems": [
    "Shgpy.C98_accuracy",
    "Shgpy.C98_single",
    "Shgpy.C98_fit"
   ],
   "note": "Products, sums and storing are rounded; overflow and underflow are not modelled.  The accuracy of np.linspace, np.exp and of the step enters as the hypothesis Accurate; the interpolated values are taken as given."
  },
  {
   "property": "C99",
   "status": "proved",
   "theorems": [
    "Shgpy.C99_turned",
    "Shgpy.C99_tables",
    "Shgpy.C99_rotation",
    "Shgpy.C99_mirror",
    "Shgpy.C99_selection"
   ],
   "note": "The dipole and the quadrupole tensor may be turned by different matrices.  Formulas without magnetic dipole.  Also for tensors made symmetric by particularize (GoodSolver assumed of the solver).  C99_selection: Fourier components of the turned crystal, for both ways to Fourier formulas."
  },
  {
   "property": "C100",
   "status": "partial",
   "theorems": [
    "Shgpy.C100_exact",
    "Shgpy.C100_subtract_min",
    "Shgpy.C100_normalize_partial",
    "Shgpy.C100_normalize_broken",
    "Shgpy.C100_scale_history"
   ],
   "note": "The maximum after normalize_data(d) is not always d: with 53 digits and the maximum 49, normalize_data(1) leaves 1 - 2^-53 (C100_normalize_broken). Proved: it differs by at most the relative error of two roundings. Overflow, underflow, infinities and NaN are not modelled here."
  },
  {
   "property": "C101",
   "status": "proved",
   "theorems": [
    "Shgpy.C101_model_fit"
   ],
   "note": "For combination names without special characters and folders not loaded before in the process, as in C58.  The comment of the example says that the turn can be applied to the formula as well; it is then by -psi."
  },
  {
   "property": "C102",
   "status": "proved",
   "theorems": [
    "Shgpy.C102_selection",
    "Shgpy.C102_other_M",
    "Shgpy.C102_cost",
    "Shgpy.C102_split"
   ],
   "note": "Machine-checked for the statement as given."
  },
  {
   "property": "C103",
   "status": "proved",
   "theorems": [
    "Shgpy.C103_least_squares",
    "Shgpy.C103_dual_annealing",
    "Shgpy.C103_basinhopping",
    "Shgpy.C103_basinhopping_with_bounds",
    "Shgpy.C103_basinhopping_jac",
    "Shgpy.C103_basinhopping_jac_with_bounds",
    "Shgpy.C103_curve"
   ],
   "note": "What the optimizer finds is a hypothesis (scipy is not modelled); the components of the Fourier data are machine numbers, as in C57; C90_rounded has the effect of their rounding."
  },
  {
   "property": "C104",
   "status": "proved",
   "theorems": [
    "Shgpy.C104_real",
    "Shgpy.C104_complex",
    "Shgpy.C104_tensors",
    "Shgpy.C104_crystals",
    "Shgpy.C104_patterns",
    "Shgpy.C104_cost",
    "Shgpy.C104_never_worse"
   ],
   "note": "The tensors may have been made symmetric by particularize (GoodSolver assumed of the solver), the original one with or without permute_all_indices, the new one without. The new parameters have to be different symbols from those of the other tensor and of the angle of incidence, and the names of real and imaginary parts have to differ (hypotheses SeparateParameters and ClearNames). For formulas made by form_to_fform both have to be of the supported shape, as in C82."
  },
  {
   "property": "C105",
   "status": "proved",
   "theorems": [
    "Shgpy.C105_symbols",
    "Shgpy.C105_patterns",
    "Shgpy.C105_cost"
   ],
   "note": "Assumes of sympy's solve (GoodSolver), for the linear equations in question, that the first solution solves the equations, excludes no solution and expresses some symbols by other symbols of the equations. permute_all_indices = False; with True patterns are lost (Kleinman symmetry is a restriction). Separate parameters and clear names as in C104."
  },
  {
   "property": "C106",
   "status": "proved",
   "theorems": [
    "Shgpy.C106_matrix",
    "Shgpy.C106_axis",
    "Shgpy.C106_mirror"
   ],
   "note": "Composition of rotation_matrix_from_two_vectors, the tables, particularize, make_tensor_real/complex, transform, formgen and both ways to Fourier formulas. The numbers of the matrix are exact reals (no rounding: ndigits large); the matrix of expressions given to transform has these numbers as values. GoodSolver is assumed of the solver where particularize is used."
  },
  {
   "property": "C107",
   "status": "proved",
   "theorems": [
    "Shgpy.C107_size",
    "Shgpy.C107_tensors",
    "Shgpy.C107_matrix",
    "Shgpy.C107_axis"
   ],
   "note": "The arithmetic of sympy is exact in the model; rounding enters through the values of the tensor elements and of the matrix."
  },
  {
   "property": "C108",
   "status": "proved",
   "theorems": [
    "Shgpy.C108_cost",
    "Shgpy.C108_least_squares",
    "Shgpy.C108_dual_annealing",
    "Shgpy.C108_basinhopping_with_bounds"
   ],
   "note": "That the optimizer finds the minimum up to eps is a hypothesis (LeastSquaresTo, AnnealsTo, HopsTo). The pattern is bounded, not the parameters: different parameters can have the same pattern (C84)."
  },
  {
   "property": "C109",
   "status": "proved",
   "theorems": [
    "Shgpy.C109_multiplied",
    "Shgpy.C109_scaled",
    "Shgpy.C109_best"
   ],
   "note": "The scale is rational because the literals of the cost expression are (MachineNumber); C109_best assumes that no symbol of the angle of incidence occurs in the tensors."
  },
  {
   "property": "C110",
   "status": "proved",
   "theorems": [
    "Shgpy.C110_dict",
    "Shgpy.C110_contracted",
    "Shgpy.C110_rounded"
   ],
   "note": "Assumes that sympify(srepr(e)) is e (Repr)."
  },
  {
   "property": "C111",
   "status": "proved",
   "theorems": [
    "Shgpy.C111_bounded",
    "Shgpy.C111_stationary",
    "Shgpy.C111_least_squares",
    "Shgpy.C111_dual_annealing",
    "Shgpy.FitCases.C111_unbounded"
   ],
   "note": "Real arithmetic; the optimizer is a parameter."
  },
  {
   "property": "C112",
   "status": "partial",
   "theorems": [
    "Shgpy.C112_cost_partial",
    "Shgpy.C112_gradient_partial",
    "Shgpy.C112_model_partial",
    "Shgpy.C112_expression",
    "Shgpy.C112_real_powers",
    "Shgpy.C112_unique",
    "Shgpy.C112_empty",
    "Shgpy.FitCases.C112_complex_power_broken"
   ],
   "note": "False for formulas with powers, cosines or sines of quantities that are not real: pow, cos and sin of <math.h> see the real part only, so the compiled cost of (a + I b)² and the data 0 is a⁴ and not (a² + b²)². Proved for expressions of the cost without such powers. How sympy writes an expression is a parameter; exact arithmetic."
  },
  {
   "property": "C113",
   "status": "proved",
   "theorems": [
    "Shgpy.C113_fit",
    "Shgpy.C113_partial_formula"
   ],
   "note": "The optimizer and the interpolation are parameters; floats come in at two places (the Fourier components are rounded by at most δ, and the optimizer returns rational numbers), real arithmetic elsewhere; the figure is not modelled."
  },
  {
   "property": "C114",
   "status": "proved",
   "theorems": [
    "Shgpy.C114_two_processes",
    "Shgpy.C114_invalid_name"
   ],
   "note": "The optimizer, lmfit's check of names and the interpolation are parameters; both scripts name the library in the same way; real arithmetic except that the Fourier components are rounded by at most δ and the optimizer returns rational numbers; the figure is not modelled."
  },
  {
   "property": "C115",
   "status": "proved",
   "theorems": [
    "Shgpy.C115_formula",
    "Shgpy.C115_orientation",
    "Shgpy.C115_best_tensor",
    "Shgpy.C115_curves"
   ],
   "note": "sympy's solver is any sound and complete one, and its success on the equations at hand is assumed; that sp.expand brings the formulas into the shape of the table is a hypothesis (met by a sympy that expands everything); the angle pi/18 of the script is any number; real arithmetic as in C113; figures are not modelled."
  },
  {
   "property": "C116",
   "status": "proved",
   "theorems": [
    "Shgpy.C116_symbols",
    "Shgpy.C116_symbols_symb",
    "Shgpy.C116_symbols_rounded"
   ],
   "note": "M = 16 as in C52; sympy's simplification is assumed to add no symbols."
  },
  {
   "property": "C117",
   "status": "proved",
   "theorems": [
    "Shgpy.C117_dipole",
    "Shgpy.C117_quadrupole",
    "Shgpy.C117_best_dipole",
    "Shgpy.C117_best_quadrupole"
   ],
   "note": "For expand() as multiplying-out, an exact angle of incidence with at most n digits, and solutions of particularize without cosines and sines (which the tables do not contain). Exact numbers, as in C81 and C113; minima are up to the tolerance of the optimizer."
  },
  {
   "property": "C118",
   "status": "proved",
   "theorems": [
    "Shgpy.C118_two_processes",
    "Shgpy.C118_missing",
    "Shgpy.C118_best_tensor"
   ],
   "note": "The optimizer (lmfit.minimize with dual_annealing) is a parameter that returns a point within the bounds, at most epsilon above the lowest cost. Exact numbers; the figure is not modelled. The two scripts name different formula files in /repo; here both read the same one."
  },
  {
   "property": "C119",
   "status": "proved",
   "theorems": [
    "Shgpy.C119_figures",
    "Shgpy.C119_figures_errors",
    "Shgpy.C119_frames",
    "Shgpy.C119_printed"
   ],
   "note": "matplotlib and pandas are assumed to accept their arguments; sp.simplify(sp.expand(.)) is any function that keeps the value of expressions. Exact numbers."
  },
  {
   "property": "C120",
   "status": "proved",
   "theorems": [
    "Shgpy.C120_exact",
    "Shgpy.C120_products",
    "Shgpy.C120_accuracy",
    "Shgpy.C120_double",
    "Shgpy.C120_round_trip"
   ],
   "note": "Sums and products are rounded; overflow and underflow are not modelled. The accuracy of np.linspace, np.cos and np.sin enters as the hypothesis AccurateSynth; C120_products shows that its part about products holds for rounded and for fused operations."
  },
  {
   "property": "C121",
   "status": "proved",
   "theorems": [
    "Shgpy.C121_dat_to_fdat",
    "Shgpy.C121_fdat_to_dat",
    "Shgpy.C121_form_to_fform",
    "Shgpy.C121_fform_to_form",
    "Shgpy.C121_fform_to_fdat",
    "Shgpy.C121_fform_to_dat",
    "Shgpy.C121_form_to_dat",
    "Shgpy.C121_form_to_dat_clash"
   ],
   "note": "Equality of the containers, with all their fields. The Fourier containers have the default M = 16 (merging others raises ValueError, C34) and the data containers distinct angles."
  },
  {
   "property": "C122",
   "status": "proved",
   "theorems": [
    "Shgpy.C122_expression",
    "Shgpy.C122_cost",
    "Shgpy.C122_minimum",
    "Shgpy.C122_gradient",
    "Shgpy.C122_units",
    "Shgpy.C122_products"
   ],
   "note": "The C code is modelled by the expression it is generated from, with every operation rounded; overflow and underflow are not modelled. The accuracy of written numbers, pow, cos and sin (four roundings) enters as the hypothesis AccurateC; C122_products shows its part about products. Formulas with powers of complex quantities are excluded, see C112."
  },
  {
   "property": "C123",
   "status": "proved",
   "theorems": [
    "Shgpy.C123_used",
    "Shgpy.C123_unused",
    "Shgpy.C123_container"
   ],
   "note": "That numpy has no deg2rad and no remainder for complex numbers (both raise TypeError) is part of the model."
  },
  {
   "property": "C124",
   "status": "proved",
   "theorems": [
    "Shgpy.C124_pipeline",
    "Shgpy.C124_double"
   ],
   "note": "The number of points is the same for all combinations. Accuracy of NumPy's functions (Accurate) and of the C library (AccurateC) are hypotheses; overflow and underflow are not modelled; the interpolated values are taken as given."
  },
  {
   "property": "C125",
   "status": "proved",
   "theorems": [
    "Shgpy.C125_container",
    "Shgpy.C125_operations",
    "Shgpy.C125_fourier",
    "Shgpy.C125_cost",
    "Shgpy.C125_fits",
    "Shgpy.C125_files",
    "Shgpy.C125_loading",
    "Shgpy.C125_scripts"
   ],
   "note": "With normal_to_oblique the keys must stand for different combinations (otherwise the last one wins, C06). In exact arithmetic: in floating point, degrees and radians differ by roundings (C98). When a direction occurs twice the first point is kept, so that the order matters (C02)."
  },
  {
   "property": "C126",
   "status": "proved",
   "theorems": [
    "Shgpy.C126_reversed",
    "Shgpy.C126_other_side",
    "Shgpy.C126_transform",
    "Shgpy.C126_both_sides",
    "Shgpy.C126_generators",
    "Shgpy.C126_files"
   ],
   "note": "C126_generators says what the two generators, which disagree by half a turn for the same angle (C53), do agree on."
  },
  {
   "property": "C127",
   "status": "proved",
   "theorems": [
    "Shgpy.C127_components",
    "Shgpy.C127_curve",
    "Shgpy.C127_sampled"
   ],
   "note": "Easy way for formulas of a shape that the table of Fourier transforms covers (C67). In exact arithmetic."
  },
  {
   "property": "C128",
   "status": "proved",
   "theorems": [
    "Shgpy.C128_separate",
    "Shgpy.C128_finished",
    "Shgpy.C128_libraries",
    "Shgpy.C128_calls",
    "Shgpy.C128_loaded"
   ],
   "note": "One step per removed file and two per copied library; a file that is being copied counts as incomplete. Loading as in C58: plain names, nothing loaded from the folder before."
  },
  {
   "property": "C129",
   "status": "partial",
   "theorems": [
    "Shgpy.C129_in_turn_partial",
    "Shgpy.C129_same_folder_broken",
    "Shgpy.C129_mixture_broken",
    "Shgpy.FitCases.C129_mixture_loaded_broken"
   ],
   "note": "Proved for calls that do not overlap; refuted for overlapping calls."
  },
  {
   "property": "C130",
   "status": "partial",
   "theorems": [
    "Shgpy.C130_still",
    "Shgpy.C130_cost",
    "Shgpy.C130_gradient_partial",
    "Shgpy.C130_model_partial",
    "Shgpy.C130_gradient_missing",
    "Shgpy.FitCases.C130_gradient_broken",
    "Shgpy.FitCases.C130_model_broken"
   ],
   "note": "Proved for cost functions; refuted for gradients and models, for which the origin of every single library is proved. The process that loads has loaded nothing before (otherwise C80)."
  },
  {
   "property": "C131",
   "status": "proved",
   "theorems": [
    "Shgpy.C131_unseen",
    "Shgpy.C131_seen",
    "Shgpy.C131_formulas",
    "Shgpy.C131_cost",
    "Shgpy.C131_normal",
    "Shgpy.C131_oblique"
   ],
   "note": "Elements that differ in the order of the last two indices are seen together (C50). The cost is that of Fourier formulas of dipole and quadrupole tensors, made in either of the two ways, restricted to the chosen combinations."
  },
  {
   "property": "C132",
   "status": "partial",
   "theorems": [
    "Shgpy.C132_whole",
    "Shgpy.C132_contraction",
    "Shgpy.C132_interrupted",
    "Shgpy.C132_fresh_partial",
    "Shgpy.C132_same_angle_partial",
    "Shgpy.C132_repair",
    "Shgpy.C132_formulas_file",
    "Shgpy.C132_saved",
    "Shgpy.C132_mixture_broken"
   ],
   "note": "False when the prefix has been used for another angle of incidence: after an interruption between two files, contracting gives formulas that belong to no angle of incidence, without an exception (C132_mixture_broken; C132_interrupted says exactly which combination has which angle). Proved for a new prefix, for a prefix used with the same angle, for repeating the call and for the file of contracted formulas."
  },
  {
   "property": "C133",
   "status": "partial",
   "theorems": [
    "Shgpy.C133_separate",
    "Shgpy.C133_during",
    "Shgpy.C133_during_fresh_partial",
    "Shgpy.C133_same_prefix_broken",
    "Shgpy.C133_during_broken"
   ],
   "note": "False for the same prefix: two processes that both end can leave formulas that belong to no angle of incidence (C133_same_prefix_broken), and so can contracting while arrays are replaced (C133_during_broken; C133_during says exactly which combination has which angle). Proved for different prefixes, and for contracting while the arrays of a new prefix are written."
  },
  {
   "property": "C134",
   "status": "partial",
   "theorems": [
    "Shgpy.C134_completed",
    "Shgpy.C134_data_partial",
    "Shgpy.C134_shift_partial",
    "Shgpy.C134_shift_repair",
    "Shgpy.C134_history",
    "Shgpy.C134_fdata_partial",
    "Shgpy.C134_formulas",
    "Shgpy.C134_rewrite",
    "Shgpy.C134_formula_scale_partial",
    "Shgpy.C134_scale_broken",
    "Shgpy.C134_subtract_broken",
    "Shgpy.C134_shift_broken",
    "Shgpy.C134_fdata_broken",
    "Shgpy.C134_formula_scale_broken"
   ],
   "note": "True for substitutions and phase shifts of formulas (C134_formulas), and up to the form of the formulas for simplify and expand (C134_rewrite). False for the other methods: scale_data leaves scaled data with the old scale (C134_scale_broken), subtract_min any number of combinations treated (C134_subtract_broken), phase_shift_data unsorted points (C134_shift_broken), phase_shift_fdata and apply_arbitrary_scale some combinations changed and others not (C134_fdata_broken, C134_formula_scale_broken). The partial theorems say exactly what can be left; C134_history says what holds in every history, and C134_shift_repair how turned data are repaired."
  },
  {
   "property": "C135",
   "status": "proved",
   "theorems": [
    "Shgpy.C135_interpolation",
    "Shgpy.C135_fourier",
    "Shgpy.C135_turned",
    "Shgpy.C135_fit",
    "Shgpy.Unequal.C135_inexact"
   ],
   "note": "Exact arithmetic. SciPy's interpolation of kind 'linear' with extrapolation is modelled from its documented behaviour (line through the ends of the interval, continued outside the angles). C135_interpolation shows that what the theorems about any interpolation suppose (Reproduces, LinearInterp) holds for it; C135_inexact that the error is really there."
  },
  {
   "property": "C136",
   "status": "partial",
   "theorems": [
    "Shgpy.C136_in_turns",
    "Shgpy.C136_shape",
    "Shgpy.C136_values_partial",
    "Shgpy.C136_lost_update_broken",
    "Shgpy.C136_order_broken"
   ],
   "note": "The full property is false without a lock (C136_lost_update_broken, C136_order_broken). Proved: it holds with a lock (C136_in_turns); what holds in every interleaving (C136_shape for all calls, C136_values_partial for scalings and phase shifts). Single accesses to attributes and dictionary items are atomic, as in CPython with the global interpreter lock; numbers are exact."
  },
  {
   "property": "C137",
   "status": "proved",
   "theorems": [
    "Shgpy.C137_interpolation",
    "Shgpy.C137_fourier",
    "Shgpy.C137_turned",
    "Shgpy.C137_fit",
    "Shgpy.C137_spline",
    "Shgpy.C137_grid",
    "Shgpy.C137_round_trip",
    "Shgpy.C137_shift",
    "Shgpy.C137_simulated"
   ],
   "note": "SciPy's cubic interpolation is modelled by the equations of the not-a-knot cubic spline in exact arithmetic (cubicInterp); C137_spline shows that the model is the spline as defined without these equations. C137_grid, C137_round_trip, C137_shift and C137_simulated are C21, C22 (with the sign found there) and C83 for the default interpolation, without any hypothesis about it."
  },
  {
   "property": "C138",
   "status": "partial",
   "theorems": [
    "Shgpy.C138_combination_partial",
    "Shgpy.C138_record",
    "Shgpy.C138_whole_partial",
    "Shgpy.C138_scales",
    "Shgpy.C138_last",
    "Shgpy.C138_subtract_broken",
    "Shgpy.C138_scale_broken",
    "Shgpy.C138_order_broken"
   ],
   "note": "False as stated for all combinations together (C138_subtract_broken), for data with the scale (C138_scale_broken) and for the order of points (C138_order_broken); the parts that hold are proved for every list of calls. One writing thread; several writers are C136."
  },
  {
   "property": "C139",
   "status": "partial",
   "theorems": [
    "Shgpy.C139_domain",
    "Shgpy.C139_operations",
    "Shgpy.C139_raw",
    "Shgpy.C139_within_turn_partial",
    "Shgpy.C139_scan_broken"
   ],
   "note": "False as stated (C139_scan_broken: a scan from -180 to 180 degrees); the exact condition is C139_domain on the container and C139_raw on the raw arrays. That SciPy's cubic interpolation raises ValueError for fewer than four points and for equal angles is part of its model cubicInterp."
  },
  {
   "property": "C140",
   "status": "partial",
   "theorems": [
    "Shgpy.C140_fdata_partial",
    "Shgpy.C140_record",
    "Shgpy.C140_scales",
    "Shgpy.C140_shape",
    "Shgpy.C140_formula_partial",
    "Shgpy.C140_formula_whole",
    "Shgpy.C140_rewrite",
    "Shgpy.C140_last",
    "Shgpy.C140_fdata_broken",
    "Shgpy.C140_scale_broken"
   ],
   "note": "False as stated for all combinations together during phase_shift_fdata (C140_fdata_broken) and apply_arbitrary_scale (C140_scale_broken); the parts that hold are proved for every list of calls. One writing thread."
  },
  {
   "property": "C141",
   "status": "proved",
   "theorems": [
    "Shgpy.C141_fourier",
    "Shgpy.C141_fit"
   ],
   "note": "Without normal_to_oblique_scale and with scale = 1 (other scales raise, C35_scale_broken). Dark files are given for the same combinations in the same order. The fit needs Fourier components that are machine numbers, as in C137_fit."
  },
  {
   "property": "C142",
   "status": "proved",
   "theorems": [
    "Shgpy.C142_values",
    "Shgpy.C142_interpolation",
    "Shgpy.C142_fourier",
    "Shgpy.C142_fit"
   ],
   "note": "SciPy's interp1d for these kinds is modelled in real arithmetic; where its value is not a number (no measured point on the required side of an equally spaced angle) the model raises. The fit needs Fourier components that are machine numbers, as in C137_fit."
  },
  {
   "property": "C143",
   "status": "partial",
   "theorems": [
    "Shgpy.C143_in_turns",
    "Shgpy.C143_values_partial",
    "Shgpy.C143_lost_update_broken",
    "Shgpy.C143_torn_broken"
   ],
   "note": "The full property is false without a lock (C143_lost_update_broken, C143_torn_broken). Proved: it holds with a lock (C143_in_turns); what holds in every interleaving, for all calls (C143_values_partial). Single accesses to attributes and dictionary items, and list() of a dictionary, are atomic, as in CPython with the global interpreter lock; numbers are exact."
  },
  {
   "property": "C144",
   "status": "partial",
   "theorems": [
    "Shgpy.C144_formula_in_turns",
    "Shgpy.C144_fourier_in_turns",
    "Shgpy.C144_formula_values_partial",
    "Shgpy.C144_fourier_values_partial",
    "Shgpy.C144_lost_substitution_broken",
    "Shgpy.C144_torn_component_broken"
   ],
   "note": "The full property is false without a lock (C144_lost_substitution_broken, C144_torn_component_broken). Proved: it holds with a lock (C144_formula_in_turns, C144_fourier_in_turns); what holds in every interleaving, for all calls (C144_formula_values_partial, C144_fourier_values_partial). Single accesses to attributes and dictionary items, and list() of a dictionary, are atomic, as in CPython with the global interpreter lock; sympy is a parameter with recorded assumptions."
  },
  {
   "property": "C145",
   "status": "proved",
   "theorems": [
    "Shgpy.C145_quarter",
    "Shgpy.C145_crystal",
    "Shgpy.C145_exact",
    "Shgpy.C145_fit",
    "Shgpy.C145_files",
    "Shgpy.C145_files_exact",
    "Shgpy.C145_files_fit",
    "Shgpy.C145_min",
    "Shgpy.C145_files_min",
    "Shgpy.C145_dark",
    "Shgpy.C145_files_dark"
   ],
   "note": "The container is that of the constructor with normal_to_oblique=True on float data (or degrees); all arrays have the same angles 2 pi j/N. The crystal is any triple of tensors of Spec/Intensity.lean, with which C44 identifies the formulas of formgen. SciPy's default interpolation is modelled as in C137. C145_exact: without errors of the values and for N a multiple of four the components are exactly those of the crystal; C145_fit: a fit of a formula that describes the crystal finds its patterns with a corresponding error; C145_files, C145_files_exact and C145_files_fit: the same from files with load_data_and_fourier_transform; C145_min and C145_files_min: with subtract_min and min_subtract=True, where the intensities are lowered by the least measured value; C145_dark and C145_files_dark: with a dark measurement of the same combinations."
  }
 ]
}
