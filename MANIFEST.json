{
 "claims": [
  {
   "property": "C01",
   "status": "proved",
   "theorems": [
    "Verif.Memo.C01_memoizeLast_invisible"
   ],
   "note": "Non-throwing functions; all histories of enable/disable/copy/call."
  },
  {
   "property": "C02",
   "status": "partial",
   "theorems": [
    "Verif.Memo.C02_memoizeLast_nonthrowing_calls_partial",
    "Verif.Memo.C02_memoizeLast_throw_then_stale"
   ],
   "note": "False of the code for arguments that throw (C02_memoizeLast_throw_then_stale); proved for all other calls."
  },
  {
   "property": "C03",
   "status": "proved",
   "theorems": [
    "Verif.Memo.C03_memoize_invisible",
    "Verif.Memo.C03_memoize_evaluates_once",
    "Verif.Memo.C03_memoize_evaluations"
   ],
   "note": "Includes that each argument is evaluated at most once per memoized object while enabled."
  },
  {
   "property": "C04",
   "status": "partial",
   "theorems": [
    "Verif.Memo.C04_memoizeLastUsingRef_nondefault_partial",
    "Verif.Memo.C04_memoizeLastUsingRef_always_enabled_partial",
    "Verif.Memo.C04_memoizeLastUsingRef_stale_default"
   ],
   "note": "False of the code for default-constructed arguments when the first call is made while memoization is disabled (C04_memoizeLastUsingRef_stale_default); proved for all other calls, and for all calls if memoization is never disabled."
  },
  {
   "property": "C05",
   "status": "partial",
   "theorems": [
    "Verif.ModelMemo.C05_model_reflects_params_partial",
    "Verif.ModelMemo.C05_copy_after_call_stale",
    "Verif.ModelMemo.C05_undeclared_param_stale",
    "Verif.ModelMemo.C05_default_arguments_throw"
   ],
   "note": "False of the code for copies of models already called, undeclared parameters and default arguments (counterexamples proved); proved for all other programs."
  },
  {
   "property": "C06",
   "status": "proved",
   "theorems": [
    "Verif.Param.C06_param_sharing",
    "Verif.Param.C06_copy_shares",
    "Verif.Param.C06_clone_independent"
   ],
   "note": "Refinement of the heap of Param records to a heap-free specification, all programs."
  },
  {
   "property": "C07",
   "status": "partial",
   "theorems": [
    "Verif.Strings.C07_makeunique_extends",
    "Verif.Strings.C07_makeunique_keeps_distinct",
    "Verif.Strings.C07_makeunique_distinct_partial",
    "Verif.Strings.C07_makeunique_collision"
   ],
   "note": "False of the code when a word already ends with the suffix of another (C07_makeunique_collision); distinctness and exact numbering proved otherwise; length, suffix-only extension and preservation of distinct words proved for all inputs."
  },
  {
   "property": "C08",
   "status": "proved",
   "theorems": [
    "Verif.Strings.C08_split_fields",
    "Verif.Strings.C08_split_words",
    "Verif.Strings.C08_join_intercalate",
    "Verif.Strings.C08_split_join",
    "Verif.Strings.C08_trim"
   ],
   "note": "Complete characterisation of split (maximal runs), join, trim and the round trip."
  },
  {
   "property": "C09",
   "status": "proved",
   "theorems": [
    "Verif.Strings.C09_stringList_join",
    "Verif.Strings.C09_stringList_tokens"
   ],
   "note": "Join round trip for all strings; tokens balanced and free of top-level separators for balanced strings."
  },
  {
   "property": "C10",
   "status": "proved",
   "theorems": [
    "Verif.FormulaParser.C10_parse_formula",
    "Verif.FormulaParser.C10_hydrate_misread",
    "Verif.FormulaParser.C10_unmatched_parenthesis_ub"
   ],
   "note": "All formula trees with decimal coefficients followed by a charge text. Hydrates and unmatched parentheses shown misread/undefined (C10_hydrate_misread, C10_unmatched_parenthesis_ub)."
  },
  {
   "property": "C11",
   "status": "partial",
   "theorems": [
    "Verif.ChargeParser.C11_repeated_signs",
    "Verif.ChargeParser.C11_brackets",
    "Verif.ChargeParser.C11_sign_number",
    "Verif.ChargeParser.C11_neutral",
    "Verif.ChargeParser.C11_single_character_ub",
    "Verif.ChargeParser.C11_opposite_sign_throws"
   ],
   "note": "Three notations and neutral formulas with optional suffix proved; false for one-character formulas (out-of-bounds read) and for bodies with the opposite sign in the sign-number notation."
  },
  {
   "property": "C12",
   "status": "partial",
   "theorems": [
    "Verif.ReactionEquation.C12_coefficient",
    "Verif.ReactionEquation.C12_equal_iff",
    "Verif.ReactionEquation.C12_order_irrelevant",
    "Verif.ReactionEquation.C12_parse_equation",
    "Verif.ReactionEquation.C12_printing_garbled"
   ],
   "note": "Coefficients, equality by content, order irrelevance and parsing of well-written equations proved for all equations; printing is false of the code (C12_printing_garbled)."
  },
  {
   "property": "C13",
   "status": "proved",
   "theorems": [
    "Verif.AggregateState.C13_parse_print",
    "Verif.AggregateState.C13_parse_other",
    "Verif.AggregateState.C13_identify_suffix",
    "Verif.AggregateState.C13_identify_unknown_suffix",
    "Verif.AggregateState.C13_identify_no_suffix",
    "Verif.AggregateState.C13_upper_case_suffix_ignored"
   ],
   "note": "Print/parse for all states; suffix identification for all names, with and without codes."
  },
  {
   "property": "C14",
   "status": "proved",
   "theorems": [
    "Verif.Units.C14_temperature_scales",
    "Verif.Units.C14_temperature_consistent",
    "Verif.Units.C14_example"
   ],
   "note": "All temperatures and all pairs/triples of accepted units."
  },
  {
   "property": "C15",
   "status": "partial",
   "theorems": [
    "Verif.Units.C15_parts",
    "Verif.Units.C15_convert",
    "Verif.Units.C15_identity",
    "Verif.Units.C15_round_trip",
    "Verif.Units.C15_compose",
    "Verif.Units.C15_convertible_iff",
    "Verif.Units.C15_compound_temperature_rejected",
    "Verif.Units.C15_wrong_dimensions",
    "Verif.Units.C15_unknown_unit_accepted"
   ],
   "note": "Conversion, identity, round trip, composition and convertible proved; false of the code for temperature units inside compound units, the tesla and the unit 1 (C15_compound_temperature_rejected, C15_wrong_dimensions)."
  },
  {
   "property": "C16",
   "status": "partial",
   "theorems": [
    "Verif.Units.C16_parse_unit",
    "Verif.Units.C16_interpretations_exist",
    "Verif.Units.C16_malformed"
   ],
   "note": "All expressions of symbols, products, quotients and parentheses; integer powers exist only as table symbols (m2, m^2). Malformed texts are misread or undefined (C16_malformed)."
  },
  {
   "property": "C17",
   "status": "partial",
   "theorems": [
    "Verif.Lagrange.C17_no_out_of_range",
    "Verif.Lagrange.C17_nodes",
    "Verif.Lagrange.C17_polynomial_exact_partial",
    "Verif.Lagrange.C17_constant_outside",
    "Verif.Lagrange.C17_not_exact_in_last_interval",
    "Verif.Lagrange.C17_lengths_wrong"
   ],
   "note": "Never out of range, exact at nodes, polynomial exactness up to the last full window, constant outside; exactness is false in the last intervals (C17_not_exact_in_last_interval), and tables of different sizes are not rejected (C17_lengths_wrong)."
  },
  {
   "property": "C18",
   "status": "proved",
   "theorems": [
    "Verif.Bilinear.C18_cell",
    "Verif.Bilinear.C18_between",
    "Verif.Bilinear.C18_grid_points",
    "Verif.Bilinear.C18_bilinear_exact",
    "Verif.Bilinear.C18_outside_throws",
    "Verif.Bilinear.C18_tabulated_function",
    "Verif.Bilinear.C18_single_coordinate_ub",
    "Verif.Bilinear.C18_any_cell",
    "Verif.Bilinear.C18_error",
    "Verif.Bilinear.C18_several",
    "Verif.Bilinear.C18_continuous",
    "Verif.Bilinear.C18_rising",
    "Verif.Bilinear.C18_falling",
    "Verif.Bilinear.C18_rising_second"
   ],
   "note": "All grids with two or more points per axis, all data, all arguments. A single coordinate on one axis is outside the quantifier and undefined (C18_single_coordinate_ub)."
  },
  {
   "property": "C19",
   "status": "proved",
   "theorems": [
    "Verif.ShermanMorrison.C19_inverse",
    "Verif.ShermanMorrison.C19_defined_iff",
    "Verif.ShermanMorrison.C19_intermediate_singular"
   ],
   "note": "All sizes and fields; C19_defined_iff says exactly when the denominators do not vanish."
  },
  {
   "property": "C20",
   "status": "partial",
   "theorems": [
    "Verif.Farey.C20_farey",
    "Verif.Farey.C20_farey_exact",
    "Verif.Farey.C20_rationalize_small",
    "Verif.Farey.C20_rationalize_large",
    "Verif.Farey.C20_zero_denominator",
    "Verif.Farey.C20_integers_destroyed",
    "Verif.Farey.C20_not_closest"
   ],
   "note": "Denominator bound, lowest terms, Dirichlet error bound and exactness proved; \"closest\" and \"positive denominator\" are false of the code (C20_not_closest, C20_zero_denominator)."
  },
  {
   "property": "C21",
   "status": "partial",
   "theorems": [
    "Verif.Cardano.C21_roots_partial",
    "Verif.Cardano.C21_backward_error",
    "Verif.Cardano.C21_not_roots_in_band",
    "Verif.Cardano.C21_real_roots_partial",
    "Verif.Cardano.C21_ascending"
   ],
   "note": "Factorization proved outside the tolerance band and at zero discriminant, with a backward-error bound for all coefficients; inside the band the returned numbers need not be roots (C21_not_roots_in_band)."
  },
  {
   "property": "C22",
   "status": "proved",
   "theorems": [
    "Verif.MoleFractions.C22_sum_one",
    "Verif.MoleFractions.C22_nonneg",
    "Verif.MoleFractions.C22_scale",
    "Verif.MoleFractions.C22_jacobian",
    "Verif.MoleFractions.C22_ln_jacobian"
   ],
   "note": "All numbers of species and amounts; derivatives as HasDerivAt."
  },
  {
   "property": "C23",
   "status": "partial",
   "theorems": [
    "Verif.ArraySerialization.C23_serialize",
    "Verif.ArraySerialization.C23_round_trip",
    "Verif.ArraySerialization.C23_wrong_length_partial",
    "Verif.ArraySerialization.C23_short_array_release"
   ],
   "note": "Stored contents, length and round trip proved; reading a short array is safe only with assertions (C23_wrong_length_partial, C23_short_array_release)."
  },
  {
   "property": "C24",
   "status": "proved",
   "theorems": [
    "Verif.ArraySerialization.C24_round_trip"
   ],
   "note": "All numbers of species and phases, all values."
  },
  {
   "property": "C25",
   "status": "proved",
   "theorems": [
    "Verif.Database.C25_database",
    "Verif.Database.C25_calls_return"
   ],
   "note": "All sequences of addElement, addSpecies and clear, including calls that throw."
  },
  {
   "property": "C26",
   "status": "partial",
   "theorems": [
    "Verif.DatabaseYAML.C26_load_partial",
    "Verif.DatabaseYAML.C26_to_database",
    "Verif.DatabaseYAML.C26_terminates",
    "Verif.DatabaseYAML.C26_well_formed_loads",
    "Verif.DatabaseYAML.C26_cycle_never_loads",
    "Verif.DatabaseYAML.C26_cycle_not_reported"
   ],
   "note": "Contents, order, first occurrence, termination and acceptance of well-formed documents proved for all documents; \"fails with an error\" on cycles is false (C26_cycle_not_reported)."
  },
  {
   "property": "C27",
   "status": "proved",
   "theorems": [
    "Verif.ChemicalSystem.C27_system_exists",
    "Verif.ChemicalSystem.C27_species_index",
    "Verif.ChemicalSystem.C27_index_partition",
    "Verif.ChemicalSystem.C27_out_of_range"
   ],
   "note": "All systems built from phases with species, all indices."
  },
  {
   "property": "C28",
   "status": "partial",
   "theorems": [
    "Verif.ChemicalSystem.C28_distinct_names_partial",
    "Verif.ChemicalSystem.C28_agree_iff",
    "Verif.ChemicalSystem.C28_collision",
    "Verif.ChemicalSystem.C28_phase_keeps_old_name",
    "Verif.ChemicalSystem.C28_species_collision"
   ],
   "note": "Distinct names proved when no name extends another with exclamation marks; agreement of phase and system names is false after renaming (C28_agree_iff, C28_phase_keeps_old_name)."
  },
  {
   "property": "C29",
   "status": "partial",
   "theorems": [
    "Verif.ChemicalSystem.C29_elements",
    "Verif.ChemicalSystem.C29_totals_partial",
    "Verif.ChemicalSystem.C29_repeated_element"
   ],
   "note": "Element rows and totals proved when no species lists an element twice; false otherwise (C29_repeated_element)."
  },
  {
   "property": "C30",
   "status": "partial",
   "theorems": [
    "Verif.Phases.C30_common_state",
    "Verif.Phases.C30_definition",
    "Verif.Phases.C30_requested_unique",
    "Verif.Phases.C30_exclude_partial",
    "Verif.Phases.C30_convert_partial",
    "Verif.Phases.C30_missing_species",
    "Verif.Phases.C30_exclude_several_tags",
    "Verif.Phases.C30_empty_selection_ub",
    "Verif.Phases.C30_generator_splits_names"
   ],
   "note": "Selection proved for all definitions; several excluded tags, empty selections and generator names with spaces behave otherwise (counterexamples)."
  },
  {
   "property": "C31",
   "status": "partial",
   "theorems": [
    "Verif.ChemicalState.C31_read",
    "Verif.ChemicalState.C31_effects",
    "Verif.ChemicalState.C31_debug",
    "Verif.ChemicalState.C31_release_partial",
    "Verif.ChemicalState.C31_temperature_pressure",
    "Verif.ChemicalState.C31_read_back_amount",
    "Verif.ChemicalState.C31_read_back_mass",
    "Verif.ChemicalState.C31_set_temperature",
    "Verif.ChemicalState.C31_release_negative_amount",
    "Verif.ChemicalState.C31_zero_mass_aborts"
   ],
   "note": "Debug builds: proved. Release builds accept negative amounts and arrays of another size, and a zero mass aborts debug builds (C31_release_negative_amount, C31_zero_mass_aborts)."
  },
  {
   "property": "C32",
   "status": "partial",
   "theorems": [
    "Verif.ChemicalProps.C32_update",
    "Verif.ChemicalProps.C32_blocks",
    "Verif.ChemicalProps.C32_amounts",
    "Verif.ChemicalProps.C32_defined",
    "Verif.ChemicalProps.C32_positive",
    "Verif.ChemicalProps.C32_throw_mixes"
   ],
   "note": "Proved for updates that return; an update that throws leaves new and old blocks mixed (C32_throw_mixes)."
  },
  {
   "property": "C33",
   "status": "partial",
   "theorems": [
    "Verif.ChemicalProps.C33_phase_standard",
    "Verif.ChemicalProps.C33_species",
    "Verif.ChemicalProps.C33_phase",
    "Verif.ChemicalProps.C33_system",
    "Verif.ChemicalProps.C33_gibbs_potentials",
    "Verif.ChemicalProps.C33_sums",
    "Verif.ChemicalProps.C33_ideal_mixing_missing"
   ],
   "note": "All identities proved; G = sum of n mu only when the excess Gibbs energy agrees with the activities, which fails for the ideal models (C33_ideal_mixing_missing)."
  },
  {
   "property": "C34",
   "status": "partial",
   "theorems": [
    "Verif.ReactionThermo.C34_last_call",
    "Verif.ReactionThermo.C34_last_volume_partial",
    "Verif.ReactionThermo.C34_product",
    "Verif.ReactionThermo.C34_throws",
    "Verif.ReactionThermo.C34_product_volume_ignored",
    "Verif.ReactionThermo.C34_equilibrium_constant",
    "Verif.ReactionThermo.C34_stoichiometry"
   ],
   "note": "Proved; the constant standard volume given for the product is ignored and the heat capacity is always zero (C34_product_volume_ignored)."
  },
  {
   "property": "C35",
   "status": "partial",
   "theorems": [
    "Verif.EquilibriumSpecs.C35_names",
    "Verif.EquilibriumSpecs.C35_names_wrong",
    "Verif.EquilibriumSpecs.C35_invariant",
    "Verif.EquilibriumSpecs.C35_titrants",
    "Verif.EquilibriumSpecs.C35_numbers",
    "Verif.EquilibriumSpecs.C35_temperature_input_and_unknown"
   ],
   "note": "Proved for all histories when no titrant lists an element twice; temperature can be both an input and unknown (C35_temperature_input_and_unknown). Names of control variables are distinct if titrants with the same text are the same formula (C35_names); formulas with given elements can share a text (C35_names_wrong)."
  },
  {
   "property": "C36",
   "status": "partial",
   "theorems": [
    "Verif.EquilibriumSpecs.C36_accepted",
    "Verif.EquilibriumSpecs.C36_unchanged_partial",
    "Verif.EquilibriumSpecs.C36_effect_of_throw",
    "Verif.EquilibriumSpecs.C36_rejected_call_leaves_input",
    "Verif.EquilibriumSpecs.C36_rejected_temperature"
   ],
   "note": "Proved for openTo, addConstraint and addInput, and the exact effect of a throwing call for all; the full claim is false (C36_rejected_call_leaves_input)."
  },
  {
   "property": "C37",
   "status": "proved",
   "theorems": [
    "Verif.EquilibriumSpecs.C37_accepted_iff",
    "Verif.EquilibriumSpecs.C37_equation_constraints",
    "Verif.EquilibriumSpecs.C37_potentials",
    "Verif.EquilibriumSpecs.C37_no_out_of_range",
    "Verif.EquilibriumSpecs.C37_check_needed"
   ],
   "note": "All reachable specifications, with the meaning of every constraint."
  },
  {
   "property": "C38",
   "status": "partial",
   "theorems": [
    "Verif.Conditions.C38_setter_partial",
    "Verif.Conditions.C38_start_keeps_inputs",
    "Verif.Conditions.C38_last_wins_partial",
    "Verif.Conditions.C38_Eh_unit_ignored",
    "Verif.Conditions.C38_initial_values",
    "Verif.Conditions.C38_initial_condition",
    "Verif.Conditions.C38_component_amounts"
   ],
   "note": "All setters and histories; the unit of an Eh input is ignored (C38_Eh_unit_ignored)."
  },
  {
   "property": "C39",
   "status": "proved",
   "theorems": [
    "Verif.Restrictions.C39_last_wins",
    "Verif.Restrictions.C39_throw_unchanged",
    "Verif.Restrictions.C39_exclusive"
   ],
   "note": "All histories of restriction calls."
  },
  {
   "property": "C40",
   "status": "partial",
   "theorems": [
    "Verif.Restrictions.C40_lower_bounds",
    "Verif.Restrictions.C40_upper_bounds",
    "Verif.Restrictions.C40_within_partial",
    "Verif.Restrictions.C40_fixed_zero_must_increase",
    "Verif.Restrictions.C40_bounds_cross"
   ],
   "note": "Exact bounds proved; initial amounts below epsilon or user bounds that exclude them are counterexamples (C40_fixed_zero_must_increase, C40_bounds_cross)."
  },
  {
   "property": "C41",
   "status": "partial",
   "theorems": [
    "Verif.EquilibriumSetup.C41_conservation_partial",
    "Verif.EquilibriumSetup.C41_closed",
    "Verif.EquilibriumSetup.C41_titrant_elements",
    "Verif.EquilibriumSetup.C41_repeated_element"
   ],
   "note": "Conservation for all feasible points when species and titrants list no element twice, otherwise false (C41_repeated_element)."
  },
  {
   "property": "C42",
   "status": "partial",
   "theorems": [
    "Verif.EquilibriumProps.C42_update_partial",
    "Verif.EquilibriumProps.C42_throw_keeps_inputs",
    "Verif.EquilibriumProps.C42_jacobian"
   ],
   "note": "Updates that return use exactly the given values and restore nothing else; when the evaluation throws, parameters keep the input values (C42_throw_keeps_inputs)."
  },
  {
   "property": "C43",
   "status": "partial",
   "theorems": [
    "Verif.EquilibriumHessian.C43_diagonal_partial",
    "Verif.EquilibriumHessian.C43_exact_partial",
    "Verif.EquilibriumHessian.C43_partiallyExact_partial",
    "Verif.EquilibriumHessian.C43_exact_ignores_argument",
    "Verif.EquilibriumHessian.C43_second_call",
    "Verif.EquilibriumHessian.C43_approx_zero"
   ],
   "note": "Diagonal, exact and partially exact matrices for a first call; the argument is ignored, a second call is polluted, the approximation is zero (C43_exact_ignores_argument, C43_second_call, C43_approx_zero)."
  },
  {
   "property": "C44",
   "status": "partial",
   "theorems": [
    "Verif.EquilibriumPredictor.C44_failed",
    "Verif.EquilibriumPredictor.C44_reference",
    "Verif.EquilibriumPredictor.C44_affine",
    "Verif.EquilibriumPredictor.C44_conservation",
    "Verif.EquilibriumPredictor.C44_temperature_pressure_partial",
    "Verif.EquilibriumPredictor.C44_pressure_from_temperature",
    "Verif.EquilibriumPredictor.C44_record_is_reference",
    "Verif.EquilibriumPredictor.C44_negative_amount",
    "Verif.EquilibriumPredictor.C44_no_reference",
    "Verif.Sensitivity.C44_first_order"
   ],
   "note": "Reference, affinity and conservation proved; the error is of smaller order than the change if the sensitivities are derivatives (C44_first_order, with C117); temperature and pressure agree with the specification unless temperature is input and unknown (C44_pressure_from_temperature); the record keeps the reference inputs (C44_record_is_reference)."
  },
  {
   "property": "C45",
   "status": "partial",
   "theorems": [
    "Verif.EquilibriumSolver.C45_chain_rule",
    "Verif.EquilibriumSolver.C45_balance",
    "Verif.EquilibriumSolver.C45_getter_partial",
    "Verif.EquilibriumSolver.C45_getter_unknown",
    "Verif.EquilibriumSolver.C45_setter"
   ],
   "note": "Chain rule, balance, getters by known name and setters proved; unknown names are not rejected (C45_getter_unknown)."
  },
  {
   "property": "C46",
   "status": "partial",
   "theorems": [
    "Verif.CubicEOS.C46_equation_of_state",
    "Verif.CubicEOS.C46_mixture",
    "Verif.CubicEOS.C46_coefficients",
    "Verif.CubicEOS.C46_Z_derivatives",
    "Verif.CubicEOS.C46_branch",
    "Verif.CubicEOS.C46_root_partial",
    "Verif.CubicEOS.C46_physical_root",
    "Verif.CubicEOS.C46_negative_root",
    "Verif.CubicEOS.C46_critical"
   ],
   "note": "Equation of state, coefficients, mixture parameters, derivatives and existence of branches proved for all states; the root is that of the cubic outside the tolerance band of the solver (C46_root_partial); for liquids the smallest root is negative at high pressures (C46_negative_root)."
  },
  {
   "property": "C47",
   "status": "partial",
   "theorems": [
    "Verif.CubicEOS.C47_closed_form",
    "Verif.CubicEOS.C47_sum",
    "Verif.CubicEOS.C47_error",
    "Verif.CubicEOS.C47_textbook_partial",
    "Verif.CubicEOS.C47_wrong",
    "Verif.CubicEOS.C47_partial_molar"
   ],
   "note": "The sum rule is proved; the coefficients computed are not the partial molar properties for species whose co-volume differs from the mixture (C47_error, C47_wrong); the textbook formula is (C47_partial_molar)."
  },
  {
   "property": "C48",
   "status": "partial",
   "theorems": [
    "Verif.CubicEOS.C48_others_partial",
    "Verif.CubicEOS.C48_volume",
    "Verif.CubicEOS.C48_alternates",
    "Verif.CubicEOS.C48_wrong",
    "Verif.CubicEOS.C48_stale"
   ],
   "note": "False of the code: reported residual volumes alternate (C48_alternates) and rejected states keep old values (C48_stale); all other properties are independent of the history (C48_others_partial)."
  },
  {
   "property": "C49",
   "status": "proved",
   "theorems": [
    "Verif.Aqueous.C49_water_functions",
    "Verif.Aqueous.C49_no_water",
    "Verif.Aqueous.C49_partition",
    "Verif.Aqueous.C49_molalities",
    "Verif.Aqueous.C49_ionic_strength",
    "Verif.Aqueous.C49_non_negative",
    "Verif.Aqueous.C49_charge",
    "Verif.Aqueous.C49_default_reactions"
   ],
   "note": "All mixtures that contain water; every amount vector."
  },
  {
   "property": "C50",
   "status": "partial",
   "theorems": [
    "Verif.Aqueous.C50_construct",
    "Verif.Aqueous.C50_species_molality",
    "Verif.Aqueous.C50_element_molality",
    "Verif.Aqueous.C50_pH",
    "Verif.Aqueous.C50_ionic_strength_zero",
    "Verif.Aqueous.C50_wrong",
    "Verif.Aqueous.C50_pE",
    "Verif.Aqueous.C50_pE_undefined",
    "Verif.Aqueous.C50_alkalinity"
   ],
   "note": "Molalities proved for every history; pH, ionic strength and pE are wrong in the code (C50_pH, C50_ionic_strength_zero, C50_wrong, C50_pE, C50_pE_undefined)."
  },
  {
   "property": "C51",
   "status": "proved",
   "theorems": [
    "Verif.Activity.C51_two_species",
    "Verif.Activity.C51_sum_rule",
    "Verif.Activity.C51_partial_molar",
    "Verif.Activity.C51_gibbs_duhem",
    "Verif.Activity.C51_pure",
    "Verif.Activity.C51_enthalpy",
    "Verif.Activity.C51_stale"
   ],
   "note": "Sum rule, partial molar quantities, Gibbs-Duhem and the pure limit proved; the excess enthalpy is set to the excess Gibbs energy (C51_enthalpy) and the other excess properties are not set (C51_stale)."
  },
  {
   "property": "C52",
   "status": "partial",
   "theorems": [
    "Verif.ModelsYAML.C52_chain",
    "Verif.ReactionThermo.C52_const_lgk",
    "Verif.ReactionThermo.C52_vant_hoff",
    "Verif.ReactionThermo.C52_gems",
    "Verif.ReactionThermo.C52_phreeqc",
    "Verif.ReactionThermo.C52_pressure_corrections",
    "Verif.ReactionThermo.C52_lgk",
    "Verif.ReactionThermo.C52_pressure_derivative",
    "Verif.ReactionThermo.C52_product",
    "Verif.ReactionThermo.C52_temperature_dependent_volume"
   ],
   "note": "Van t Hoff and Gibbs-Helmholtz proved for all models; with a volume change that depends on temperature the pressure correction breaks the relation (C52_temperature_dependent_volume)."
  },
  {
   "property": "C53",
   "status": "partial",
   "theorems": [
    "Verif.StandardModels.C53_maierKelley_mayer",
    "Verif.StandardModels.C53_hollandPowell_mayer_wrong",
    "Verif.StandardModels.C53_mineral_exact",
    "Verif.StandardModels.C53_mineral_volume",
    "Verif.StandardModels.C53_mineral_partial",
    "Verif.StandardModels.C53_mineral_crossed_wrong",
    "Verif.StandardModels.C53_mineral_cold",
    "Verif.StandardModels.C53_mineral_cold_wrong",
    "Verif.StandardModels.C53_mineral_jump",
    "Verif.StandardModels.C53_mineral_continuous_partial",
    "Verif.StandardModels.C53_mineral_continuous_wrong",
    "Verif.StandardModels.C53_mineral_below_wrong",
    "Verif.StandardModels.C53_mineral_pairing_wrong",
    "Verif.StandardModels.C53_maierKelley",
    "Verif.StandardModels.C53_maierKelley_reference",
    "Verif.StandardModels.C53_maierKelley_entropy",
    "Verif.StandardModels.C53_hollandPowell_volume",
    "Verif.StandardModels.C53_hollandPowell_exact",
    "Verif.StandardModels.C53_hollandPowell_partial",
    "Verif.StandardModels.C53_hollandPowell_wrong",
    "Verif.StandardModels.C53_hollandPowell_reference",
    "Verif.StandardModels.C53_hollandPowell_reference_wrong"
   ],
   "note": "Maier-Kelley is proved in full; Holland-Powell without thermal expansion; minerals above the reference temperature with no boundary crossed, and continuity at the reference pressure. The remaining cases are false: exact derivatives in C53_hollandPowell_exact, C53_mineral_exact and C53_mineral_jump, counterexamples in the theorems named wrong."
  },
  {
   "property": "C54",
   "status": "partial",
   "theorems": [
    "Verif.Registries.C54_with_tags",
    "Verif.Registries.C54_append",
    "Verif.Registries.C54_registered",
    "Verif.Registries.C54_unrelated",
    "Verif.Registries.C54_critical_partial",
    "Verif.Registries.C54_default_substances",
    "Verif.Registries.C54_stale",
    "Verif.Registries.C54_alias_lost",
    "Verif.Registries.C54_radon",
    "Verif.Registries.C54_alternatives",
    "Verif.Registries.C54_case",
    "Verif.Registries.C54_set_positive",
    "Verif.Registries.C54_elements",
    "Verif.Registries.C54_default_elements",
    "Verif.Registries.C54_setters",
    "Verif.Registries.C54_dissociation_last",
    "Verif.Registries.C54_last_unique",
    "Verif.Registries.C54_coefficient",
    "Verif.Registries.C54_default_parses",
    "Verif.Registries.C54_default_balanced",
    "Verif.Registries.C54_default_wellformed",
    "Verif.Registries.C54_parsed_once"
   ],
   "note": "Proved for histories in which each registration clashes with at most one earlier entry; an overwrite that clashes with several entries leaves stale ones (C54_stale, C54_alias_lost), and radon is registered under a wrong alias (C54_radon)."
  },
  {
   "property": "C55",
   "status": "partial",
   "theorems": [
    "Verif.EquilibriumSetup.C55_mass_action",
    "Verif.EquilibriumSetup.C55_gradient_partial",
    "Verif.EquilibriumSetup.C55_gradient_titrants"
   ],
   "note": "Mass action for all stationary points; gradient equals derivative for species; false for implicit titrants (C55_gradient_titrants)."
  },
  {
   "property": "C56",
   "status": "partial",
   "theorems": [
    "Verif.EquilibriumSolver.C56_conservation",
    "Verif.EquilibriumSolver.C56_restrictions",
    "Verif.EquilibriumSolver.C56_temperature_pressure",
    "Verif.EquilibriumSolver.C56_initial_guess",
    "Verif.EquilibriumSolver.C56_uninitialized",
    "Verif.EquilibriumSolver.C56_closed",
    "Verif.EquilibriumSolver.C56_titrant_amounts_shifted"
   ],
   "note": "Conservation, restrictions, temperature and pressure, rejection proved for every optimizer; amounts of explicit titrants reported by the state are shifted when temperature or pressure is unknown (C56_titrant_amounts_shifted)."
  },
  {
   "property": "C57",
   "status": "proved",
   "theorems": [
    "Verif.CubicEOS.C57_enthalpy",
    "Verif.CubicEOS.C57_volume",
    "Verif.CubicEOS.C57_Cv"
   ],
   "note": ""
  },
  {
   "property": "C58",
   "status": "partial",
   "theorems": [
    "Verif.CubicEOS.C58_stationary",
    "Verif.CubicEOS.C58_one_root",
    "Verif.CubicEOS.C58_gibbs",
    "Verif.CubicEOS.C58_exactly_one",
    "Verif.CubicEOS.C58_volume",
    "Verif.CubicEOS.C58_unphysical"
   ],
   "note": "Stationary points, comparison of Gibbs energies, exactly one phase, and volume method proved; with an unphysical smallest root a liquid is always identified (C58_unphysical), and identification can throw."
  },
  {
   "property": "C59",
   "status": "partial",
   "theorems": [
    "Verif.Activity.C59_resets",
    "Verif.Activity.C59_ideal",
    "Verif.Activity.C59_aqueous"
   ],
   "note": "Resetting is proved for the three models; Gibbs-Duhem holds for solutions and gases, and fails for the ideal aqueous model (C59_aqueous)."
  },
  {
   "property": "C60",
   "status": "partial",
   "theorems": [
    "Verif.Activity.C60_dilution_partial",
    "Verif.Activity.C60_neutral",
    "Verif.Activity.C60_neutral_wrong",
    "Verif.Activity.C60_exchange",
    "Verif.Activity.C60_exchange_wrong"
   ],
   "note": "Proved for neutral solutions of ions along all dilution paths; neutral solutes do not enter the activity of water (C60_neutral, C60_neutral_wrong). When one ion replaces another of the same charge Gibbs-Duhem holds if and only if the two contribute equally to the osmotic coefficient (C60_exchange), and it fails at every high enough ionic strength when their radii differ (C60_exchange_wrong)."
  },
  {
   "property": "C61",
   "status": "partial",
   "theorems": [
    "Verif.Activity.C61_activities",
    "Verif.Activity.C61_neutral",
    "Verif.Activity.C61_water",
    "Verif.Activity.C61_dilution_partial",
    "Verif.Activity.C61_wrong",
    "Verif.Activity.C61_dilute_limit"
   ],
   "note": "The ion activity coefficients and their limit are proved; the activity of water is not the one Gibbs-Duhem gives: exact error in C61_water, violation in C61_wrong."
  },
  {
   "property": "C62",
   "status": "proved",
   "theorems": [
    "Verif.Activity.C62_chain",
    "Verif.Activity.C62_chain_single",
    "Verif.Activity.C62_needs_base",
    "Verif.Activity.C62_frame"
   ],
   "note": ""
  },
  {
   "property": "C63",
   "status": "partial",
   "theorems": [
    "Verif.Activity.C63_formulas",
    "Verif.Activity.C63_first_partial",
    "Verif.Activity.C63_history",
    "Verif.Activity.C63_wrong",
    "Verif.Activity.C63_inconsistent",
    "Verif.Activity.C63_given_parameters"
   ],
   "note": "Proved for the first evaluation in a process and for phases with the same positions of ions; false in general (C63_wrong, C63_inconsistent)."
  },
  {
   "property": "C64",
   "status": "proved",
   "theorems": [
    "Verif.Water.C64_wagnerPruss"
   ],
   "note": ""
  },
  {
   "property": "C65",
   "status": "partial",
   "theorems": [
    "Verif.Water.C65_hgk_partial",
    "Verif.Water.C65_hgk_exact",
    "Verif.Water.C65_hgk_TTT_wrong",
    "Verif.Water.C65_hgk_TDD_wrong"
   ],
   "note": "All derivatives but two are proved; hTTT and hTDD are wrong: exact errors in C65_hgk_exact, counterexamples in C65_hgk_TTT_wrong and C65_hgk_TDD_wrong."
  },
  {
   "property": "C66",
   "status": "partial",
   "theorems": [
    "Verif.Water.C66_thermoState",
    "Verif.Water.C66_pressure",
    "Verif.Water.C66_cv",
    "Verif.Water.C66_wagnerPruss",
    "Verif.Water.C66_hgk_partial"
   ],
   "note": "Proved for every Helmholtz model with correct derivatives, and so for Wagner-Pruss; for Haar-Gallagher-Kell all but densityTT and densityTP, which use the wrong hTDD (C65). At the density maximum the code divides by zero."
  },
  {
   "property": "C67",
   "status": "partial",
   "theorems": [
    "Verif.Water.C67_wagnerPruss",
    "Verif.Water.C67_hgk",
    "Verif.Water.C67_gasConstant",
    "Verif.Water.C67_pressure_wrong",
    "Verif.Water.C67_pressure_hgk"
   ],
   "note": "The ideal gas limit is proved for both equations of state; the pressure function named after Wagner and Pruss evaluates Haar-Gallagher-Kell (C67_pressure_wrong)."
  },
  {
   "property": "C68",
   "status": "partial",
   "theorems": [
    "Verif.Water.C68_states_partial",
    "Verif.Water.C68_iterate_partial",
    "Verif.Water.C68_positive",
    "Verif.Water.C68_pressure_partial",
    "Verif.Water.C68_state",
    "Verif.Water.C68_wrong"
   ],
   "note": "Proved: the density is one more iterate from a density whose step or residual met the tolerance, is positive, and its residual is bounded when the slope between the last two iterates is. Without that the pressure is not checked (C68_wrong)."
  },
  {
   "property": "C69",
   "status": "partial",
   "theorems": [
    "Verif.Water.C69_electroState_partial",
    "Verif.Water.C69_first",
    "Verif.Water.C69_wagnerPruss_partial",
    "Verif.Water.C69_zero_division"
   ],
   "note": "Proved wherever none of the four functions of temperature vanishes; the code divides by them and one vanishes near 511 K (C69_zero_division)."
  },
  {
   "property": "C70",
   "status": "partial",
   "theorems": [
    "Verif.HKF.C70_g_partial",
    "Verif.HKF.C70_g_jump_wrong",
    "Verif.HKF.C70_born",
    "Verif.HKF.C70_born_reference",
    "Verif.HKF.C70_solute",
    "Verif.HKF.C70_water",
    "Verif.HKF.C70_partial",
    "Verif.HKF.C70_water_wagnerPruss",
    "Verif.HKF.C70_one_water"
   ],
   "note": "Proved away from the densities and the temperature where the g function changes formula; at 355 C the g function jumps (C70_g_jump_wrong)."
  },
  {
   "property": "C71",
   "status": "partial",
   "theorems": [
    "Verif.ModelsYAML.C71_lgk",
    "Verif.ModelsYAML.C71_reaction",
    "Verif.ModelsYAML.C71_standard",
    "Verif.ModelsYAML.C71_standard_params",
    "Verif.ModelsYAML.C71_hkf_Tmax_wrong",
    "Verif.ModelsYAML.C71_hollandPowell_params_wrong",
    "Verif.ModelsYAML.C71_not_saved_wrong",
    "Verif.ModelsYAML.C71_reaction_read",
    "Verif.ModelsYAML.C71_standard_read",
    "Verif.ModelsYAML.C71_standard_function"
   ],
   "note": "Proved for all models with a serializer. The parameter Tmax of HKF and some Holland-Powell parameters are lost without effect on the properties; chains, pressure corrections and functions are written as nothing and cannot be read back."
  },
  {
   "property": "C72",
   "status": "partial",
   "theorems": [
    "Verif.NumberText.C72_number",
    "Verif.NumberText.C72_exact_iff",
    "Verif.NumberText.C72_pairs",
    "Verif.NumberText.C72_pairs_repeated",
    "Verif.NumberText.C72_composition_partial",
    "Verif.NumberText.C72_exact_wrong",
    "Verif.ParseReaction.C72_reaction",
    "Verif.ParseReaction.C72_reaction_wrong"
   ],
   "note": "Numbers are written with six significant digits: exact if and only if these are enough, otherwise the nearest such number. Repeated names are merged, names with spaces are excluded. The parser of reactions reads all texts whose words have a number and a name (C72_reaction), and memory beyond the parts of a word for all others (C72_reaction_wrong)."
  },
  {
   "property": "C73",
   "status": "partial",
   "theorems": [
    "Verif.DatabaseSave.C73_built_partial",
    "Verif.DatabaseSave.C73_loaded_complete",
    "Verif.DatabaseSave.C73_loaded_partial",
    "Verif.DatabaseSave.C73_unsaved_model_wrong",
    "Verif.DatabaseSave.C73_order_wrong",
    "Verif.DatabaseSave.C73_formula_wrong",
    "Verif.DatabaseSave.C73_reaction_partial",
    "Verif.DatabaseSave.C73_volume_wrong"
   ],
   "note": "Proved for loaded documents and for complete databases whose models can be saved and whose coefficients have six digits. A model that cannot be saved makes the document unloadable, standard volumes of products are lost, the order changes if a product comes before its reactants, and formulas lose a suffix as in `H2O(aq)`."
  },
  {
   "property": "C74",
   "status": "partial",
   "theorems": [
    "Verif.ThermoProps.C74_update_partial",
    "Verif.ThermoProps.C74_fresh_partial",
    "Verif.ThermoProps.C74_stale_wrong",
    "Verif.ThermoProps.C74_throw_wrong",
    "Verif.ThermoProps.C74_zero_wrong",
    "Verif.ThermoProps.C74_getters"
   ],
   "note": "Proved for constant parameters and for conditions not used before. False otherwise: after a change of parameters, or after an exception, an update to the same temperature and pressure does nothing and returns normally."
  },
  {
   "property": "C75",
   "status": "partial",
   "theorems": [
    "Verif.Phreeqc.C75_load_partway",
    "Verif.Phreeqc.C75_species",
    "Verif.Phreeqc.C75_phase_reactants",
    "Verif.Phreeqc.C75_reactants_partial",
    "Verif.Phreeqc.C75_acyclic",
    "Verif.Phreeqc.C75_returns",
    "Verif.Phreeqc.C75_nested_wrong",
    "Verif.Phreeqc.C75_load_throw",
    "Verif.Phreeqc.C75_load"
   ],
   "note": "Reactions of species are proved when every species comes after the non-master species of its reaction. In other orders they are wrong: the position of a missing reactant is looked up before it is added, and its own reactants may take that position."
  },
  {
   "property": "C76",
   "status": "partial",
   "theorems": [
    "Verif.Phreeqc.C76_species_partial",
    "Verif.Phreeqc.C76_phases_partial",
    "Verif.Phreeqc.C76_enthalpy_partial",
    "Verif.Phreeqc.C76_nested_wrong",
    "Verif.Phreeqc.C76_water_volume"
   ],
   "note": "Proved for databases in which every species comes after the non-master species of its reaction; in other orders reactions, and hence equilibrium constants, are wrong. The enthalpy follows from the equilibrium constant at 1 atm."
  },
  {
   "property": "C77",
   "status": "partial",
   "theorems": [
    "Verif.Phreeqc.C77_compressibility_partial",
    "Verif.Phreeqc.C77_below_saturation_wrong",
    "Verif.Phreeqc.C77_born_partial",
    "Verif.Phreeqc.C77_debye_huckel_partial"
   ],
   "note": "Proved above the saturation pressure, where density and dielectric constant are not replaced by limits. Below the saturation pressure the density is constant but the compressibility is not zero."
  },
  {
   "property": "C78",
   "status": "proved",
   "theorems": [
    "Verif.Activity.C78_consistent",
    "Verif.Activity.C78_virial",
    "Verif.Activity.C78_fugacity",
    "Verif.Activity.C78_activity",
    "Verif.Activity.C78_ideal_limit",
    "Verif.Activity.C78_order",
    "Verif.Activity.C78_supported"
   ],
   "note": ""
  },
  {
   "property": "C79",
   "status": "partial",
   "theorems": [
    "Verif.Activity.C79_volume_partial",
    "Verif.Activity.C79_carbon_dioxide_partial",
    "Verif.Activity.C79_water_wrong",
    "Verif.Activity.C79_volume_wrong",
    "Verif.Activity.C79_stale_wrong"
   ],
   "note": "Proved: the volume, its stability, and the fugacity coefficient of CO2, at all temperatures and pressures outside the tolerance of the cubic solver. Wrong in the code: the excess volume mixes units, the fugacity coefficient of H2O has the covolume of water in one logarithm, and the other properties keep old values."
  },
  {
   "property": "C80",
   "status": "partial",
   "theorems": [
    "Verif.Pitzer.C80_gibbs_partial",
    "Verif.Pitzer.C80_exact_functions",
    "Verif.Pitzer.C80_tables",
    "Verif.Pitzer.C80_gibbs_wrong",
    "Verif.Pitzer.C80_triplets_wrong",
    "Verif.Pitzer.C80_outputs",
    "Verif.Pitzer.C80_domain",
    "Verif.Pitzer.C80_one_sign_wrong",
    "Verif.Pitzer.C80_symmetric",
    "Verif.Pitzer.C80_spelling_wrong",
    "Verif.Pitzer.C80_lines",
    "Verif.Pitzer.C80_temperature",
    "Verif.Pitzer.C80_formulas",
    "Verif.Pitzer.C80_salts",
    "Verif.Pitzer.C80_mixtures"
   ],
   "note": "Proved for solutions with one charge of each sign and no triplet entries for neutral solutes, and for all charges with exact electrostatic functions. Wrong in the code: the electrostatic functions are step functions, the triplet entries of neutral solutes are missing for ions, some parameters depend on the spelling, and solutions without cations or anions give undefined behaviour."
  },
  {
   "property": "C81",
   "status": "partial",
   "theorems": [
    "Verif.Supcrt.C81_water_partial",
    "Verif.Supcrt.C81_solvent",
    "Verif.Supcrt.C81_born",
    "Verif.Supcrt.C81_solute",
    "Verif.Supcrt.C81_solute_volume",
    "Verif.Supcrt.C81_solute_volume_wrong",
    "Verif.Supcrt.C81_solute_consistent_wrong",
    "Verif.Supcrt.C81_gas",
    "Verif.Supcrt.C81_temperature",
    "Verif.Supcrt.C81_gas_consistent",
    "Verif.Supcrt.C81_energies_solute",
    "Verif.Supcrt.C81_energies_gas_wrong",
    "Verif.Supcrt.C81_energies_mineral_wrong",
    "Verif.Supcrt.C81_energies_solvent",
    "Verif.Supcrt.C81_history",
    "Verif.Supcrt.C81_history_wrong",
    "Verif.Supcrt.C81_history_solute_wrong",
    "Verif.Supcrt.C81_solute_inconsistent_wrong",
    "Verif.Supcrt.C81_mineral",
    "Verif.Supcrt.C81_mineral_volume_wrong",
    "Verif.Supcrt.C81_mineral_entropy"
   ],
   "note": "Gibbs energies, enthalpies, heat capacities and temperature limits are proved, volumes of the solvent, gases and minerals too, and independence of history while water has a solution. Wrong in the code: the electrostatic volume of solutes is 1e5 times too small, the pressure integral of minerals has a factor 1.0000383, the internal energies of gases and minerals mix units, and after a failure of the water model stale values are returned."
  },
  {
   "property": "C82",
   "status": "partial",
   "theorems": [
    "Verif.SupcrtDb.C82_numbers",
    "Verif.SupcrtDb.C82_contents",
    "Verif.SupcrtDb.C82_mineral_tables",
    "Verif.SupcrtDb.C82_missing_wrong",
    "Verif.SupcrtDb.C82_charge_wrong",
    "Verif.SupcrtDb.C82_elements_wrong",
    "Verif.SupcrtDb.C82_unknown_element",
    "Verif.SupcrtDb.C82_names",
    "Verif.SupcrtDb.C82_failures",
    "Verif.SupcrtDb.C82_locale",
    "Verif.SupcrtDb.C82_shipped_wrong"
   ],
   "note": "Proved for complete documents, and tables, names, unknown elements and the locale for all. Missing numbers are not reported but become 999999 (40 minerals of the shipped databases), a missing charge makes an ion of charge 999999, a missing composition is undefined behaviour."
  },
  {
   "property": "C83",
   "status": "partial",
   "theorems": [
    "Verif.LU.C83_history",
    "Verif.LU.C83_factors_partial",
    "Verif.LU.C83_factors_wrong",
    "Verif.LU.C83_solve",
    "Verif.LU.C83_trsolve",
    "Verif.LU.C83_empty_wrong",
    "Verif.LU.C83_unset_wrong",
    "Verif.LU.C83_solve_wrong"
   ],
   "note": "History, both solvers and the factors without weights are proved for all matrices, with Eigen's full pivoting algorithm part of the model. Wrong in the code: U has too many rows for weighted matrices with more rows than columns, empty is inverted, a first empty matrix leaves the rank unset, and matrices with pivots below the threshold of Eigen are not solved."
  },
  {
   "property": "C84",
   "status": "partial",
   "theorems": [
    "Verif.Derivatives.C84_forward",
    "Verif.Derivatives.C84_backward",
    "Verif.Derivatives.C84_central",
    "Verif.Derivatives.C84_vector",
    "Verif.Derivatives.C84_domain",
    "Verif.Derivatives.C84_domain_wrong"
   ],
   "note": "Error bounds and agreement of the versions are proved for exact arithmetic. At coordinates equal to zero the backward and central schemes leave the domain of non-negative coordinates (C84_domain_wrong)."
  },
  {
   "property": "C85",
   "status": "partial",
   "theorems": [
    "Verif.Mineral.C85_catalyst",
    "Verif.Mineral.C85_mechanism",
    "Verif.Mineral.C85_documented_wrong",
    "Verif.Mineral.C85_incomplete_wrong",
    "Verif.Mineral.C85_garbage_wrong",
    "Verif.Mineral.C85_setCatalysts_wrong",
    "Verif.Mineral.C85_equality_wrong",
    "Verif.Mineral.C85_setCatalysts_partial"
   ],
   "note": "Reading of well formed texts is proved. Wrong in the code: the documented texts (commas) are rejected, incomplete options read outside of vectors, values that are not numbers are zero, and equality compares one member only."
  },
  {
   "property": "C86",
   "status": "partial",
   "theorems": [
    "Verif.Naming.C86_listed",
    "Verif.Naming.C86_listed_neutral",
    "Verif.Naming.C86_split",
    "Verif.Naming.C86_conventional",
    "Verif.Naming.C86_alternative",
    "Verif.Naming.C86_symmetric",
    "Verif.Naming.C86_neutral",
    "Verif.Naming.C86_neutral_alternative",
    "Verif.Naming.C86_documented_wrong",
    "Verif.Naming.C86_uncharged_wrong",
    "Verif.Naming.C86_malformed_wrong",
    "Verif.Naming.C86_neutral_wrong",
    "Verif.Naming.C86_water_partial",
    "Verif.Naming.C86_water_wrong"
   ],
   "note": "All forms, all charges and all histories are proved. Wrong in the code: the form Mg[+2] of the documentation is refused, a name without charge is read out of its bounds, malformed names get charges, and different names with the same text before a mark count as one species."
  },
  {
   "property": "C87",
   "status": "partial",
   "theorems": [
    "Verif.EquilibriumRecord.C87_values",
    "Verif.EquilibriumRecord.C87_last",
    "Verif.EquilibriumRecord.C87_partition_partial",
    "Verif.EquilibriumRecord.C87_partition_wrong",
    "Verif.EquilibriumRecord.C87_optima",
    "Verif.EquilibriumRecord.C87_setP",
    "Verif.EquilibriumRecord.C87_setQ_wrong",
    "Verif.EquilibriumRecord.C87_sizes",
    "Verif.EquilibriumRecord.C87_history"
   ],
   "note": "Proved for all programs and setters. Wrong in the code: a number of primary species above the length of the list is accepted and then read outside of it, and setting q does not change the state from which the next calculation starts."
  },
  {
   "property": "C88",
   "status": "partial",
   "theorems": [
    "Verif.StateObjects.C88_values",
    "Verif.StateObjects.C88_rock_partial",
    "Verif.StateObjects.C88_rock_wrong"
   ],
   "note": "Proved for chemical states. Wrong in the code: a copy of a porous rock state, and the target of an assignment, is reset to 25 C, 1 bar and zero amounts."
  },
  {
   "property": "C89",
   "status": "partial",
   "theorems": [
    "Verif.Outputter.C89_aligned_partial",
    "Verif.Outputter.C89_short_partial",
    "Verif.Outputter.C89_silent",
    "Verif.Outputter.C89_lines",
    "Verif.Outputter.C89_separator_wrong",
    "Verif.Outputter.C89_inactive_wrong"
   ],
   "note": "Proved without separators and for short names. Wrong in the code: separators shift the columns after a long name, and values given while the output is off are kept and make the next line fail."
  },
  {
   "property": "C90",
   "status": "partial",
   "theorems": [
    "Verif.Newton.C90_points",
    "Verif.Newton.C90_residual_partial",
    "Verif.Newton.C90_distance",
    "Verif.Newton.C90_convex",
    "Verif.Newton.C90_residual_wrong"
   ],
   "note": "The test, the distance to the root and convergence for convex functions are proved. Wrong in the code: the value returned is one step after the point that was tested, so that its residual can be arbitrarily large."
  },
  {
   "property": "C91",
   "status": "partial",
   "theorems": [
    "Verif.Params.C91_lookup",
    "Verif.Params.C91_clone",
    "Verif.Params.C91_shared",
    "Verif.Params.C91_twice_wrong",
    "Verif.Params.C91_values",
    "Verif.Params.C91_set"
   ],
   "note": "Look-up, sharing and clones are proved for all programs. Wrong in the code: a parameter that is twice in a list becomes two parameters in a clone."
  },
  {
   "property": "C92",
   "status": "partial",
   "theorems": [
    "Verif.ActivityCubicEOS.C92_build",
    "Verif.ActivityCubicEOS.C92_missing",
    "Verif.ActivityCubicEOS.C92_mixed_wrong",
    "Verif.ActivityCubicEOS.C92_empty_wrong",
    "Verif.ActivityCubicEOS.C92_relabel",
    "Verif.ActivityCubicEOS.C92_fugacity",
    "Verif.ActivityCubicEOS.C92_excess",
    "Verif.ActivityCubicEOS.C92_uninitialised_wrong",
    "Verif.ActivityCubicEOS.C92_ideal_gas"
   ],
   "note": "Proved for all fluids. Wrong in the code: only the first species decides between gas and liquid, so that mixed phases are accepted; an empty list is read; and the first evaluation of a phase without substance returns uninitialised activity coefficients."
  },
  {
   "property": "C93",
   "status": "partial",
   "theorems": [
    "Verif.PhreeqcEngine.C93_species",
    "Verif.PhreeqcEngine.C93_phases",
    "Verif.PhreeqcEngine.C93_formula",
    "Verif.PhreeqcEngine.C93_entry",
    "Verif.PhreeqcEngine.C93_mass",
    "Verif.PhreeqcEngine.C93_reactions",
    "Verif.PhreeqcEngine.C93_stoichiometric",
    "Verif.PhreeqcEngine.C93_conserved",
    "Verif.PhreeqcEngine.C93_redox_wrong",
    "Verif.PhreeqcEngine.C93_electron_wrong",
    "Verif.PhreeqcEngine.C93_gas_wrong"
   ],
   "note": "Proved for all states of the engine, with conservation of the total of each element. Wrong in the code: single oxidation states are not conserved (dissolved and gaseous nitrogen are counted differently), electrons that are only in reactions of minerals or gases are written outside of the matrix, and gases without a phase of the same name are null pointers."
  },
  {
   "property": "C94",
   "status": "partial",
   "theorems": [
    "Verif.PhreeqcState.C94_set",
    "Verif.PhreeqcState.C94_history",
    "Verif.PhreeqcState.C94_setTP",
    "Verif.PhreeqcState.C94_gibbs",
    "Verif.PhreeqcState.C94_mass_action",
    "Verif.PhreeqcState.C94_fresh_wrong",
    "Verif.PhreeqcState.C94_execute_wrong",
    "Verif.PhreeqcState.C94_setTP_wrong",
    "Verif.PhreeqcState.C94_lnK_wrong",
    "Verif.PhreeqcState.C94_absent_wrong",
    "Verif.PhreeqcState.C94_dry",
    "Verif.PhreeqcState.C94_dry_wrong"
   ],
   "note": "Proved for all histories that end with set(T, P, n) with water. Wrong in the code: activities after set(T, P) mix two temperatures, equilibrium constants after set(T, P, n) do not belong to the Gibbs energies, without water the properties depend on the history, absent aqueous species have activity one, a script without gases cannot follow one with gases, and a new object cannot be set."
  },
  {
   "property": "C95",
   "status": "partial",
   "theorems": [
    "Verif.Supcrtbl.C95_solvent_partial",
    "Verif.Supcrtbl.C95_solvent_wrong",
    "Verif.Supcrtbl.C95_solute_partial",
    "Verif.Supcrtbl.C95_solute_exact",
    "Verif.Supcrtbl.C95_solute_wrong",
    "Verif.Supcrtbl.C95_fluid_partial",
    "Verif.Supcrtbl.C95_fluid_derivatives",
    "Verif.Supcrtbl.C95_fluid_cp_wrong",
    "Verif.Supcrtbl.C95_fluid_volume_wrong",
    "Verif.Supcrtbl.C95_mineral_exact",
    "Verif.Supcrtbl.C95_mineral_partial",
    "Verif.Supcrtbl.C95_mineral_entropy",
    "Verif.Supcrtbl.C95_mineral_wrong"
   ],
   "note": "Proved for the default solvent, for solutes without entropy and Born coefficient, for fluids and minerals without volume and without the coefficient b, and what is computed in all cases. Wrong in the code: solvent parameters are ignored; entropies and Born coefficients of solutes are not converted; heat capacities of fluids are a thousandth and their volumes zero; volumes of minerals enter the Gibbs energy a thousand times too large, moduli in kbar are used as bar, and the factors 1e5 of b and alpha are not removed."
  },
  {
   "property": "C96",
   "status": "partial",
   "theorems": [
    "Verif.ValueObjects.C96_molar_mass",
    "Verif.ValueObjects.C96_values",
    "Verif.ValueObjects.C96_with_keeps",
    "Verif.ValueObjects.C96_element_attribs",
    "Verif.ValueObjects.C96_element_masses",
    "Verif.ValueObjects.C96_species_attribs",
    "Verif.ValueObjects.C96_species_formula",
    "Verif.ValueObjects.C96_species_with",
    "Verif.ValueObjects.C96_species_with_fails",
    "Verif.ValueObjects.C96_default_wrong",
    "Verif.ValueObjects.C96_phases",
    "Verif.ValueObjects.C96_phase_states",
    "Verif.ValueObjects.C96_phase_empty_wrong",
    "Verif.ValueObjects.C96_reactions"
   ],
   "note": "Proved for all programs and all classes of this kind; attributes of species with name, substance and aggregate state. Wrong in the code: the aggregate state of a default-constructed species is not initialised, and an empty list of species for a phase is read out of range."
  },
  {
   "property": "C97",
   "status": "partial",
   "theorems": [
    "Verif.ThermoFun.C97_state_wrong",
    "Verif.ThermoFun.C97_contents_partial",
    "Verif.ThermoFun.C97_memory_wrong",
    "Verif.ThermoFun.C97_props",
    "Verif.ThermoFun.C97_derivatives_wrong"
   ],
   "note": "Proved for values, and for the contents when the uninitialised aggregate states happen to hold a value. Wrong in the code: loading any file with substances reads uninitialised aggregate states, so that the groups of species depend on the contents of memory; derivatives with respect to temperature and pressure are always zero."
  },
  {
   "property": "C98",
   "status": "partial",
   "theorems": [
    "Verif.Chem.C98_with_tags",
    "Verif.ChemicalSystem.C98_find_phases",
    "Verif.Lists.C98_species_of_formulas",
    "Verif.Lists.C98_elements",
    "Verif.Lists.C98_species_names",
    "Verif.Lists.C98_species_substances",
    "Verif.Lists.C98_species_tags",
    "Verif.Lists.C98_species_elements",
    "Verif.Lists.C98_species_elements_of",
    "Verif.Lists.C98_electron_wrong",
    "Verif.Lists.C98_formulas_partial",
    "Verif.Lists.C98_formulas_read",
    "Verif.Lists.C98_formulas_wrong",
    "Verif.Lists.C98_species_formulas",
    "Verif.Lists.C98_phases",
    "Verif.Lists.C98_phases_species",
    "Verif.Lists.C98_range",
    "Verif.Lists.C98_range_wrong",
    "Verif.Lists.C98_sum",
    "Verif.Lists.C98_sets",
    "Verif.Lists.C98_range_numbers_partial"
   ],
   "note": "Proved for all lists, for formulas without repeated elements, and for ranges of integers. Wrong in the code: formulas with an element listed twice are equivalent to formulas with other elements, in one direction; species without elements are selected by every list of elements although the documentation asks for one or more; ranges of floating-point numbers with a step other than one have a wrong number of items."
  },
  {
   "property": "C99",
   "status": "partial",
   "theorems": [
    "Verif.Saturation.C99_pressure",
    "Verif.Saturation.C99_liquid",
    "Verif.Saturation.C99_vapour_partial",
    "Verif.Saturation.C99_vapour_wrong"
   ],
   "note": "Pressure and liquid density proved in full. The density of the vapour is wrong in the code: its exponent has an extra factor (critical temperature over temperature), so that it is smaller than the published value at every temperature below the critical one; its sign, limits and monotonicity are proved."
  },
  {
   "property": "C100",
   "status": "partial",
   "theorems": [
    "Verif.EquilibriumDerivatives.C100_given",
    "Verif.EquilibriumDerivatives.C100_residue",
    "Verif.EquilibriumDerivatives.C100_state_partial",
    "Verif.EquilibriumDerivatives.C100_without_sensitivities",
    "Verif.EquilibriumDerivatives.C100_state_wrong",
    "Verif.EquilibriumDerivatives.C100_recorded"
   ],
   "note": "Proved for inputs given as numbers after any history, and for inputs taken from the state in histories that leave no derivative in it (all calculations without sensitivities at given temperature and pressure). Wrong in the code: a calculation with sensitivities leaves a derivative in the pressure (or temperature) of the state, and the next calculation from that state gets derivatives with the pressure derivative added."
  },
  {
   "property": "C101",
   "status": "partial",
   "theorems": [
    "Verif.AqueousParams.C101_assigned_partial",
    "Verif.AqueousParams.C101_assigned_wrong",
    "Verif.AqueousParams.C101_lookup",
    "Verif.AqueousParams.C101_spelling",
    "Verif.AqueousParams.C101_unreadable",
    "Verif.AqueousParams.C101_published",
    "Verif.AqueousParams.C101_phreeqc",
    "Verif.AqueousParams.C101_wateq4f",
    "Verif.AqueousParams.C101_limiting_law",
    "Verif.AqueousParams.C101_kielland_partial",
    "Verif.AqueousParams.C101_kielland_wrong",
    "Verif.AqueousParams.C101_sizes",
    "Verif.AqueousParams.C101_collect",
    "Verif.AqueousParams.C101_histories",
    "Verif.AqueousParams.C101_neutrals",
    "Verif.AqueousParams.C101_radius_partial",
    "Verif.AqueousParams.C101_radius_unique",
    "Verif.AqueousParams.C101_radius_positive",
    "Verif.AqueousParams.C101_radius_wrong",
    "Verif.AqueousParams.C101_hkf_range",
    "Verif.AqueousParams.C101_hkf_nodes",
    "Verif.AqueousParams.C101_A_falls"
   ],
   "note": "Proved for formulas without repeated elements and for whole charges, against tables written with compositions and charges. Wrong in the code: in the table of Kielland zirconium(IV) is misspelled as zinc, and in the table of effective radii gallium(III) is misspelled as calcium, so that these ions get the default size zero and an estimated radius; the estimate is negative for charges between -1 and 0. setPHREEQC and setWATEQ4F keep the defaults set before (stated in C101_histories). A parameter that a user gives to a species of a table has no effect if the formula is not spelled as in the table and comes after it in the order of the keys (C101_assigned_wrong); otherwise it is the one used (C101_assigned_partial). The numbers of the tables are those of the source: they were not compared with the publications."
  },
  {
   "property": "C102",
   "status": "partial",
   "theorems": [
    "Verif.PhaseBuilders.C102_definition",
    "Verif.PhaseBuilders.C102_construct",
    "Verif.PhaseBuilders.C102_program",
    "Verif.PhaseBuilders.C102_convert_partial",
    "Verif.PhaseBuilders.C102_succeeds_partial",
    "Verif.PhaseBuilders.C102_no_model",
    "Verif.PhaseBuilders.C102_aqueous_exclude",
    "Verif.PhaseBuilders.C102_mineral_partial",
    "Verif.PhaseBuilders.C102_mineral_wrong"
   ],
   "note": "Proved for all programs, with the exceptions of C30: several excluded tags, and species names with white space in generators. Wrong in the code: a mineral phase whose name has a space takes the first word as its name and requests each word as a species; a blank name reads the first name of an empty list. An aqueous phase defined only by excluded tags is restricted to hydrogen and oxygen (C102_aqueous_exclude), as in the tests of the repository."
  },
  {
   "property": "C103",
   "status": "partial",
   "theorems": [
    "Verif.SolverSessions.C103_program_partial",
    "Verif.SolverSessions.C103_options_history",
    "Verif.SolverSessions.C103_overloads",
    "Verif.SolverSessions.C103_other_objects",
    "Verif.SolverSessions.C103_start_partial",
    "Verif.SolverSessions.C103_flags_wrong",
    "Verif.SolverSessions.C103_refused_wrong",
    "Verif.SolverSessions.C103_start_wrong"
   ],
   "note": "Proved for all programs in which no options are refused, and for starting points if specifications with the same number of implicit titrants have the same number of other unknowns. Wrong in the code: refused options stay in effect for bounds and barrier while the optimiser keeps the old ones (C103_refused_wrong); a state calculated at given temperature and pressure and then at given volume begins without an entry for the unknown pressure (C103_start_wrong); the options warmstart and hessian have no effect (C103_flags_wrong)."
  },
  {
   "property": "C104",
   "status": "partial",
   "theorems": [
    "Verif.ShippedData.C104_names",
    "Verif.ShippedData.C104_loads",
    "Verif.ShippedData.C104_composition_partial",
    "Verif.ShippedData.C104_gibbs_partial",
    "Verif.ShippedData.C104_composition_wrong",
    "Verif.ShippedData.C104_gibbs_wrong",
    "Verif.ShippedData.C104_embedded_partial",
    "Verif.ShippedData.C104_embedded_wrong"
   ],
   "note": "Proved: all files load, names are unique, all species carry what is written. Composition and Gibbs energy: exactly the listed species are wrong (14, 17, 22 and 5 compositions, e.g. EuF2(aq) with one fluorine; 40 minerals and three solutes without Gibbs energy), the others are right. XML: a repeated symbol (NH4(Succ)-) is counted once."
  },
  {
   "property": "C105",
   "status": "partial",
   "theorems": [
    "Verif.IdealEquilibrium.C105_minimum_partial",
    "Verif.IdealEquilibrium.C105_unique_properties_partial",
    "Verif.IdealEquilibrium.C105_unique_amounts_partial",
    "Verif.IdealEquilibrium.C105_phase_rule",
    "Verif.IdealEquilibrium.C105_ideal_stable",
    "Verif.IdealEquilibrium.C105_positive",
    "Verif.IdealEquilibrium.C105_start_partial",
    "Verif.IdealEquilibrium.C105_amounts_wrong",
    "Verif.IdealEquilibrium.C105_aqueous_wrong",
    "Verif.SolutionStability.C105_redlichKister_stable",
    "Verif.SolutionStability.C105_redlichKister_small",
    "Verif.SolutionStability.C105_regular_solution",
    "Verif.SolutionStability.C105_miscibility_gap"
   ],
   "note": "Proved for phases that meet Gibbs' criterion, in particular ideal solutions, ideal gases and pure phases; without barrier the amounts are unique under the phase rule (and a counterexample otherwise). False for the ideal model of aqueous solutions: a solution and a hydrate with two equilibrium states, also with default options. For the Redlich-Kister model it holds if and only if the Gibbs energy of mixing is strictly convex (C105_redlichKister_stable, C105_redlichKister_small); for regular solutions if and only if a0 <= 2, and above that two compositions coexist (C105_regular_solution, C105_miscibility_gap)."
  },
  {
   "property": "C106",
   "status": "partial",
   "theorems": [
    "Verif.MathUtils.C106_clean_value",
    "Verif.MathUtils.C106_cols",
    "Verif.MathUtils.C106_rows",
    "Verif.MathUtils.C106_cols_into",
    "Verif.MathUtils.C106_rows_into",
    "Verif.MathUtils.C106_no_columns_wrong",
    "Verif.MathUtils.C106_cols_wrong",
    "Verif.MathUtils.C106_clean_partial",
    "Verif.MathUtils.C106_clean_block_wrong",
    "Verif.MathUtils.C106_dot3p",
    "Verif.MathUtils.C106_dot3p_short",
    "Verif.MathUtils.C106_residual3p"
   ],
   "note": "Independence is proved for all matrices; the other columns are combinations up to min(m, n) machine epsilons of the longest column (an independent column below that is missed, C106_cols_wrong). Wrong in the code: matrices without columns, output matrices that do not have the right size already, and blocks of matrices, of which cleanRationalNumbers changes other numbers (C106_clean_block_wrong)."
  },
  {
   "property": "C107",
   "status": "partial",
   "theorems": [
    "Verif.Scaling.C107_phases",
    "Verif.Scaling.C107_system",
    "Verif.Scaling.C107_equilibrium_partial",
    "Verif.Scaling.C107_epsilon_wrong"
   ],
   "note": "Properties: proved for all models, amounts and factors. Equilibria: proved if the bounds and the option epsilon are multiplied too; with a fixed epsilon (the default) the barrier term makes the composition depend on the size of the system (C107_epsilon_wrong)."
  },
  {
   "property": "C108",
   "status": "partial",
   "theorems": [
    "Verif.Imposed.C108_activity_partial",
    "Verif.Imposed.C108_redox_partial",
    "Verif.Imposed.C108_potential_partial",
    "Verif.Imposed.C108_barrier_wrong",
    "Verif.Imposed.C108_bound_wrong"
   ],
   "note": "Proved for all species that are not at a bound, up to the barrier term epsilon * logarithm_barrier_factor / amount. The value is never exactly the one asked for while epsilon is positive (C108_barrier_wrong), and it is missed by any margin if the species is at its lower bound (C108_bound_wrong: pH 20 asked, pH 16 obtained)."
  },
  {
   "property": "C109",
   "status": "proved",
   "theorems": [
    "Verif.Reference.C109_properties",
    "Verif.Reference.C109_equilibrium",
    "Verif.Reference.C109_same",
    "Verif.Reference.C109_reactions",
    "Verif.Reference.C109_activities",
    "Verif.Reference.C109_electron"
   ],
   "note": "C109_properties, C109_equilibrium, C109_same, C109_reactions and C109_activities; C109_electron shows that calls of pE and Eh must be excluded."
  },
  {
   "property": "C110",
   "status": "proved",
   "theorems": [
    "Verif.Repeat.C110_repeat",
    "Verif.Repeat.C110_continue",
    "Verif.Repeat.C110_closed",
    "Verif.Repeat.C110_unique"
   ],
   "note": "C110_repeat, C110_continue, C110_closed and C110_unique, about exact numbers; an equilibrium state is one that satisfies the balances, the bounds and the optimality conditions of the problem that the solver makes (C105)."
  },
  {
   "property": "C111",
   "status": "proved",
   "theorems": [
    "Verif.PhaseOrder.C111_properties",
    "Verif.PhaseOrder.C111_equilibrium",
    "Verif.PhaseOrder.C111_same",
    "Verif.PhaseOrder.C111_system",
    "Verif.PhaseOrder.C111_names_wrong",
    "Verif.PhaseOrder.C111_elements_wrong"
   ],
   "note": "C111_system, C111_properties, C111_equilibrium and C111_same. C111_names_wrong and C111_elements_wrong show that the conditions are needed."
  },
  {
   "property": "C112",
   "status": "partial",
   "theorems": [
    "Verif.SpeciesOrder.C112_order",
    "Verif.SpeciesOrder.C112_redlichKister",
    "Verif.SpeciesOrder.C112_redlichKister_wrong",
    "Verif.SpeciesOrder.C112_static_wrong",
    "Verif.SpeciesOrder.C112_cubic",
    "Verif.SpeciesOrder.C112_cubic_wrong",
    "Verif.SpeciesOrder.C112_activity",
    "Verif.SpeciesOrder.C112_phase",
    "Verif.SpeciesOrder.C112_equilibrium"
   ],
   "note": "C112_order (every model in Listed, and chains of them), C112_cubic, C112_activity, C112_phase and C112_equilibrium. The property is false in four cases: C112_redlichKister_wrong (the sign of a parameter depends on which species is the first; C112_redlichKister says how), C112_static_wrong (indices kept in static variables from another phase), C112_cubic_wrong (the first species decides the kind of fluid), and in C112_order a formula that the model looks up must not be that of two species. Amounts, bounds and balances enter through their columns."
  },
  {
   "property": "C113",
   "status": "partial",
   "theorems": [
    "Verif.Response.C113_matter",
    "Verif.Response.C113_species",
    "Verif.Response.C113_together",
    "Verif.Response.C113_temperature",
    "Verif.Response.C113_pressure",
    "Verif.Response.C113_ideal_temperature",
    "Verif.Response.C113_ideal_pressure",
    "Verif.Response.C113_aqueous_wrong"
   ],
   "note": "C113_matter, C113_species, C113_together, C113_temperature and C113_pressure for phases that meet Gibbs' criterion; C113_ideal_temperature and C113_ideal_pressure for systems of ideal phases, with hypotheses on the standard models only. C113_aqueous_wrong: the property fails for a phase with the ideal aqueous model, whose activities do not derive from a Gibbs energy. Equilibrium states are those that meet the first-order conditions of the objective that the solver is given."
  },
  {
   "property": "C114",
   "status": "partial",
   "theorems": [
    "Verif.Existence.C114_exists_partial",
    "Verif.Existence.C114_bounded",
    "Verif.Existence.C114_system_bounded",
    "Verif.Existence.C114_state_partial",
    "Verif.Existence.C114_unique_partial",
    "Verif.Existence.C114_ideal",
    "Verif.Existence.C114_aqueous",
    "Verif.Existence.C114_redlichKister",
    "Verif.Existence.C114_missing",
    "Verif.Existence.C114_missing_wrong",
    "Verif.Existence.C114_open_wrong",
    "Verif.Existence.C114_debyeHuckel",
    "Verif.Existence.C114_hkf",
    "Verif.Existence.C114_dissociation",
    "Verif.Existence.C114_pitzer_partial",
    "Verif.Pitzer.C114_pitzer_wrong"
   ],
   "note": "C114_exists_partial for every bounded problem with feasible amounts, C114_state_partial for closed systems in terms of the given state, C114_unique_partial with Gibbs' criterion, C114_ideal, C114_aqueous, C114_redlichKister, C114_debyeHuckel, C114_hkf and, for solutions with one charge of each sign, C114_pitzer_partial for the continuity of these models, the last three followed by any of the models for dissolved species. C114_missing and C114_missing_wrong: if less of an element is given than all species hold with the amount epsilon each, there is nothing to find. C114_open_wrong: with an imposed pH there may be feasible amounts and no equilibrium state. The cubic equations of state are not shown to be continuous (they are not where phases change), and the model of Pitzer is not where there are several charges of one sign (C114_pitzer_wrong: the activity coefficient of a sodium ion in a brine with calcium jumps at an ionic strength). Equilibrium states are those that meet the first-order conditions of the objective that the solver is given."
  },
  {
   "property": "C115",
   "status": "proved",
   "theorems": [
    "Verif.Subsystems.C115_part",
    "Verif.Subsystems.C115_together",
    "Verif.Subsystems.C115_apart",
    "Verif.Subsystems.C115_saturation",
    "Verif.Subsystems.C115_unsaturated",
    "Verif.Subsystems.C115_supersaturated"
   ],
   "note": "C115_part, C115_together, C115_apart, C115_saturation, C115_unsaturated and C115_supersaturated. Equilibrium states are those that meet the first-order conditions of the objective that the solver is given; the growth of a supersaturated phase is shown with the logarithmic barrier on, as it is by default."
  },
  {
   "property": "C116",
   "status": "proved",
   "theorems": [
    "Verif.Components.C116_same",
    "Verif.Components.C116_order",
    "Verif.Components.C116_dependent",
    "Verif.Components.C116_system"
   ],
   "note": "C116_same for balances that are combinations of each other, C116_order and C116_system for the order of elements, C116_dependent for balances that follow from others. Equilibrium states are those that meet the first-order conditions of the objective that the solver is given; how the optimiser treats dependent rows is not modelled."
  },
  {
   "property": "C117",
   "status": "proved",
   "theorems": [
    "Verif.Sensitivity.C117_scale",
    "Verif.Sensitivity.C117_sensitivities",
    "Verif.Sensitivity.C117_regular",
    "Verif.Sensitivity.C117_solvable",
    "Verif.Sensitivity.C117_ideal"
   ],
   "note": "C117_sensitivities, by the implicit function theorem, from the derivatives that the program gives to the optimiser after any history (C100) and its chain rule for the properties (C45); C117_solvable: the equations for the derivatives then have a solution; C117_regular and C117_ideal give conditions for there being one; C117_scale: dn/db gives back the amounts when the potentials do not depend on the size of the system. The optimiser is assumed to return a point that meets the first-order conditions and derivatives that meet their linearisation. With solve(state) inputs can have left-over derivatives and the claim fails (C100_state_wrong)."
  },
  {
   "property": "C118",
   "status": "partial",
   "theorems": [
    "Verif.PhreeqcImport.C118_not_given",
    "Verif.PhreeqcImport.C118_critical",
    "Verif.PhreeqcImport.C118_given_partial",
    "Verif.PhreeqcImport.C118_given_zero_wrong",
    "Verif.PhreeqcImport.C118_table_partial",
    "Verif.PhreeqcImport.C118_table_wrong",
    "Verif.PhreeqcImport.C118_amounts",
    "Verif.PhreeqcImport.C118_set_partial",
    "Verif.PhreeqcImport.C118_reread_partial",
    "Verif.PhreeqcImport.C118_second_script_wrong",
    "Verif.PhreeqcImport.C118_unknowns_partial",
    "Verif.PhreeqcImport.C118_both_wrong",
    "Verif.PhreeqcImport.C118_history"
   ],
   "note": "C118_amounts (what is read), C118_set_partial and C118_reread_partial (what is written is read again, if no phase is both a gas and a mineral), C118_unknowns_partial (minerals, if PHREEQC leaves no amount in the phase), C118_critical, C118_given_partial, C118_history. False in the code: a second script takes the amounts of minerals that the first one left in PHREEQC unless PHREEQC itself clears them (C118_second_script_wrong), a phase that is both gas and mineral gets one amount twice (C118_both_wrong), a given acentric factor of zero is replaced (C118_given_zero_wrong), and the table differs from the registry for neon, while the registry has radon under the symbol of radium (C118_table_wrong; the others agree: C118_table_partial)."
  },
  {
   "property": "C119",
   "status": "partial",
   "theorems": [
    "Verif.DatabaseObjects.C119_usable_partial",
    "Verif.DatabaseObjects.C119_independent",
    "Verif.DatabaseObjects.C119_values",
    "Verif.DatabaseObjects.C119_kept_partial",
    "Verif.DatabaseObjects.C119_kept_wrong",
    "Verif.DatabaseObjects.C119_system_wrong",
    "Verif.DatabaseObjects.C119_load",
    "Verif.DatabaseObjects.C119_load_extends_wrong",
    "Verif.DatabaseObjects.C119_text",
    "Verif.DatabaseObjects.C119_missing_wrong",
    "Verif.DatabaseObjects.C119_names"
   ],
   "note": "C119_usable_partial (programs that reach species through databases and systems made from them), C119_kept_partial (lists of species, while their database is left alone), C119_independent, C119_values, C119_load, C119_text, C119_names. False in the code: species kept in a list, put into another database or into the phases of a system of another database, or left in a database with other attached data, read a deleted instance of PHREEQC (C119_kept_wrong, C119_system_wrong); load does not extend the database, as its documentation says (C119_load_extends_wrong); a path that does not exist is read as an empty text (C119_missing_wrong)."
  },
  {
   "property": "C120",
   "status": "partial",
   "theorems": [
    "Verif.Comparisons.C120_ordered",
    "Verif.Comparisons.C120_elements_partial",
    "Verif.Comparisons.C120_elements_wrong",
    "Verif.Comparisons.C120_unique",
    "Verif.Comparisons.C120_unique_elements_wrong",
    "Verif.Comparisons.C120_equivalent_partial",
    "Verif.Comparisons.C120_equivalent_texts",
    "Verif.Comparisons.C120_equivalent_wrong",
    "Verif.Comparisons.C120_equations_partial",
    "Verif.Comparisons.C120_equations_wrong"
   ],
   "note": "C120_ordered (species, phases, reactions, formulas, catalysts), C120_elements_partial, C120_unique, C120_equivalent_partial and C120_equivalent_texts (formulas that list no element twice, in particular all that are read from texts), C120_equations_partial. False in the code: elements with the same symbol and other attributes are neither equal nor ordered (C120_elements_wrong), so that duplicates may be kept (C120_unique_elements_wrong); equivalence of formulas with given elements is not symmetric if one is listed twice (C120_equivalent_wrong); equality of equations has a tolerance and is not transitive, their order looks at the first species only and is undefined for empty ones (C120_equations_wrong)."
  },
  {
   "property": "C121",
   "status": "partial",
   "theorems": [
    "Verif.Copies.C121_divided_partial",
    "Verif.Copies.C121_joined_partial",
    "Verif.Copies.C121_alike_partial",
    "Verif.Copies.C121_barrier_wrong"
   ],
   "note": "C121_divided_partial and C121_joined_partial: true without the barrier term for species away from their bounds. With the barrier, which is on by default, both copies have the same amounts (C121_alike_partial) and the composition changes: a divided equilibrium is no equilibrium, in any ratio (C121_barrier_wrong)."
  },
  {
   "property": "C122",
   "status": "partial",
   "theorems": [
    "Verif.CoreYAML.C122_document",
    "Verif.CoreYAML.C122_elements_partial",
    "Verif.CoreYAML.C122_attributes",
    "Verif.CoreYAML.C122_lists_partial",
    "Verif.CoreYAML.C122_elements_wrong",
    "Verif.CoreYAML.C122_states",
    "Verif.CoreYAML.C122_formulas_partial",
    "Verif.CoreYAML.C122_formulas_wrong",
    "Verif.CoreYAML.C122_parameters_partial",
    "Verif.CoreYAML.C122_parameter_partial",
    "Verif.CoreYAML.C122_parameters_wrong"
   ],
   "note": "C122_document, C122_states and C122_attributes hold as stated (elements made from attributes are read back). Elements changed later are read back if and only if they have a symbol, a name and no negative molar mass (C122_elements_partial); a list if and only if it is not empty besides (C122_lists_partial; the empty list cannot be read, C122_elements_wrong). Formulas made from a text are read back (C122_formulas_partial), but elements given to a formula are lost (C122_formulas_wrong). Parameters keep values and order and lose identifiers and bounds (C122_parameters_partial, C122_parameters_wrong)."
  },
  {
   "property": "C123",
   "status": "partial",
   "theorems": [
    "Verif.Constants.C123_gas",
    "Verif.Constants.C123_reference",
    "Verif.Constants.C123_water",
    "Verif.Constants.C123_atmosphere",
    "Verif.Constants.C123_water_mass_partial",
    "Verif.Constants.C123_water_mass_wrong",
    "Verif.Constants.C123_ln10"
   ],
   "note": "Gas constant, Faraday constant, reference state, constant molar mass of water and factor for atmospheres agree (C123_gas, C123_reference, C123_water, C123_atmosphere, C123_ln10). The molar mass of a species of water by the table of elements differs from the constant (C123_water_mass_wrong), by less than one part in a million (C123_water_mass_partial)."
  },
  {
   "property": "C124",
   "status": "partial",
   "theorems": [
    "Verif.SeededProps.C124_memoized_values",
    "Verif.SeededProps.C124_memoized_wrong",
    "Verif.SeededProps.C124_values",
    "Verif.SeededProps.C124_derivatives_partial",
    "Verif.SeededProps.C124_derivatives_wrong",
    "Verif.SeededProps.C124_other_variable_wrong",
    "Verif.SeededProps.C124_with_derivatives",
    "Verif.SeededProps.C124_caller"
   ],
   "note": "Values are right after every history (C124_values), and variables are unseeded (C124_caller). Whether derivatives are right depends on the operator == of autodiff, which is outside the repository: if it compares values, derivatives are right if the call before had another temperature or pressure (C124_derivatives_partial), and otherwise they are zero or belong to another variable (C124_derivatives_wrong, C124_other_variable_wrong), because the update is skipped; if it compares derivatives too, they are always right (C124_with_derivatives). Memoized functions likewise: values are right (C124_memoized_values), a call with the arguments of the call before gives its derivatives (C124_memoized_wrong; by C01 memoization is invisible if derivatives are compared)."
  }
 ]
}