claim("C01", "proved", ["C01_velocities_agree"], "all column lengths")
claim("C02", "proved", ["C02_moduli_round_trip", "C02_velocity_round_trip"], "")
claim("C03", "proved", ["C03_no_negative_property", "C03_negative_argument_rejected", "C03_given_arguments_kept"], "all 32 argument subsets, all values incl. nan/inf")
claim("C04", "partial", ["C04_refuted_nan", "C04_refuted_zero_density", "C04_partial"], "the code violates it: nan passes every check, zero density gives nan velocities; holds for finite arguments and positive density")
claim("C05", "proved", ["C05_derived_ratios"], "")
claim("C06", "proved", ["C06_insufficient_rejected", "C06_sufficient_accepted"], "")
claim("C08", "proved", ["C08_between_constituents"], "")
claim("C09", "proved", ["C09_C12_bounds_ordered"], "")
claim("C10", "proved", ["C10_end_points"], "")
claim("C11", "proved", ["C11_symmetric"], "")
claim("C12", "proved", ["C09_C12_bounds_ordered"], "")
claim("C13", "proved", ["C13_bad_ratio_rejected", "C13_bad_bound_rejected", "C13_ratio_accepted_iff", "C13_bound_and_average_accepted_iff"], "")
claim("C14", "proved", ["C14_monotone_in_ratio"], "")
claim("C15", "proved", ["C15_bound_is_walpole", "C15_average"], "")
claim("C16", "partial", ["C16_partial", "C16_refuted"], "the code violates it when two or more saturations are all zero (each is kept as 1); holds for every total >= 1e-15")
claim("C17", "proved", ["C17_wood_is_reuss"], "any number of fluids")
claim("C18", "proved", ["C18_wood_order_irrelevant", "C18_wood_scale_irrelevant"], "")
claim("C19", "proved", ["C19_brie_end_points_and_range", "C19_brie_monotone"], "")
claim("C20", "proved", ["C20_length_mismatch", "C20_no_constituents", "C20_one_phase"], "")
claim("C21", "proved", ["C21_gassmann_equation"], "")
claim("C22", "proved", ["C22_saturated_between", "C22_monotone"], "")
claim("C23", "proved", ["C23_shear_and_density", "C23_empty_fluid", "C23_empty_fluid_any"], "")
claim("C24", "proved", ["C24_invertible", "C24_injective"], "")
claim("C25", "partial", ["C25_partial", "C25_refuted"], "the code accepts some dry rocks stiffer than their mineral; C25_partial gives the exact acceptance condition")
claim("C26", "proved", ["C26_pressure_law", "C26_zero_increasing_ratio"], "")
claim("C27", "proved", ["C27_density_and_range", "C27_zero_pressure"], "pressure 0 raises ZeroDivisionError")
claim("C28", "partial", ["C28_rejects_exactly", "C28_partial", "C28_sand_porosity_one", "C28_refuted"], "the code violates it at the single point sand = cemented porosity = 1 (nan); proved everywhere else")
claim("C29", "proved", ["C29_between_friable_and_cemented"], "finite, physically meaningful arguments (PatchyIn); with nan arguments 'between' has no meaning")
claim("C30", "proved", ["C30_friable_monotone", "C30_patchy_monotone"], "")
claim("C31", "proved", ["C31_murphy"], "")
claim("C32", "proved", ["C32_end_points", "C32_end_points_defined"], "")
claim("C74", "proved", ["C74_contact_cement_defined"], "")
claim("C75", "proved", ["C75_patchy_cement_defined"], "")
claim("C33", "proved", ["C33_one_missing_filled", "C33_none_missing_kept", "C33_rejected"], "")
claim("C34", "proved", ["C34_density_weighted_average"], "any number of minerals")
claim("C35", "proved", ["C35_within_constituents"], "any number of minerals")
claim("C36", "partial", ["C36_partial", "C36_refuted"], "the code violates it: three minerals in another order give another bulk modulus; holds for two minerals and for density")
claim("C37", "proved", ["C37_zero_fraction_ignored"], "")
claim("C76", "proved", ["C76_minerals_accepted"], "")
claim("C45", "proved", ["C45_moduli_fit", "C45_velocity_fit", "C45_identity", "C45_invalid_rejected"], "any coefficient matrix size")
claim("C59", "partial", ["C59_blend", "C59_ends", "C59_continuous", "C59_refuted", "C59_usual_range_partial"], "the code violates it: live oil is evaluated even where it has no weight, and its negative velocity makes hot light oil without gas (300 C, 700 kg/m3, no pressure) raise although dead_oil accepts it. Proved wherever live oil is accepted, in particular for 0..150 C, 0..100 MPa, gas-oil ratios up to 400")
claim("C60", "proved", ["C60_rate_is_derivative"], "")
claim("C61", "proved", ["C61_gas_density_units"], "")
claim("C62", "partial", ["C62_partial", "C62_refuted"], "the code violates it for density: water() returns g/cc, brine() kg/m3; velocities agree and densities agree up to exactly 1000")
claim("C63", "proved", ["C63_bubble_point_trends"], "")
claim("C64", "proved", ["C64_dead_oil_trends"], "")
claim("C65", "proved", ["C65_no_shear", "CO2.C65_carbon_dioxide"], "")
claim("C77", "partial", ["C77_refuted", "C77_partial"], "the code violates it: density is exactly 10^12 too large, velocity exactly 1/sqrt(1000) too small")
claim("C78", "proved", ["C78_dead_oil_defined"], "")
claim("C79", "proved", ["C79_oil_defined"], "above the range live oil can be rejected, see C59_refuted")
claim("C80", "proved", ["C80_brine_defined"], "Bernstein coefficients on the box are positive")
claim("C38", "partial", ["C38_partial", "C38_pressure_afterwards", "C38_refuted"], "the code violates it: Span-Wagner CO2 divides pressure.fluid by 1e6 in place; exact side effect proved, and the claim proved for sections without Span-Wagner CO2")
claim("C39", "proved", ["C39_own_model_wins", "C39_unsupported", "C39_explicit_materials"], "")
claim("C40", "proved", ["C40_brie_selection", "C40_default_gases", "C40_given_gases", "C40_out_of_range"], "")
claim("C41", "partial", ["C41_effective_pressures", "C41_refuted"], "all but one clause proved; the code accepts a section with neither fluid nor rock pressure (C41_refuted)")
claim("C42", "partial", ["C42_partial", "C42_powerfit_partial", "C42_refuted"], "proved for polyfit, expfit, logfit, friable, patchy; the code violates it for powerfit, which compares the plain rock pressure with the effective reference pressure")
claim("C43", "proved", ["C43_no_adjustment", "C43_append", "C43_first_error", "C43_dry_rock_material"], "")
claim("C44", "partial", ["C44_partial", "C44_refuted"], "the code violates it: max_depth never has an effect (np.clip result dropped)")
claim("C46", "partial", ["C46_friable_accepts_exactly", "C46_patchy_accepts_exactly", "C46_polyfit_accepts", "C46_friable_partial", "C46_patchy_partial", "C46_refuted"], "acceptance is characterised exactly; the second half is violated by negative porosities, which are accepted but cannot be evaluated")
claim("C81", "proved", ["C81_chain"], "")
claim("C82", "proved", ["C82_friable", "C82_patchy"], "")
claim("C49", "proved", ["C49_replaces_exactly", "C49_no_reference_left", "C49_idempotent", "C49_fails_iff", "C49_missing_column"], "configurations of any depth and breadth")
claim("C50", "proved", ["C50_reference_needs_data"], "configurations of any depth and breadth")
claim("C07", "proved", ["C07_input_row_wise", "C07_calculation_row_wise", "C07_row_wise", "CO2.C07_carbon_dioxide_row_wise", "CO2.C07_row_wise_span_wagner"], "from sections to result table, including the Span-Wagner CO2 model of the code for every root finder and table")
claim("C51", "proved", ["Main.C51_exit_codes"], "all outcomes of YAML, CSV, parsing, calculation, writing and calibration are arbitrary")
claim("C52", "proved", ["Main.C52_threshold_rows", "Main.C52_no_rows", "Main.C52_no_data"], "in exact arithmetic; rounding is C83. With no successful row the code is -1, with no rows -1")
claim("C53", "proved", ["Main.C53_modes_agree", "Main.C53_yaml"], "whole outcome equal, with double rounding of the percentage; C53_yaml starts from the YAML tree and CSV rows; configurations with column references in global parameters or lists for per-row parameters are excluded (C88)")
claim("C54", "partial", ["Main.C54_refuted", "Main.C54_partial"], "the code violates it: InputError escapes from run_with_threshold; with readable files no exception escapes")
claim("C55", "partial", ["Main.C55_refuted", "Main.C55_partial"], "the code violates it: failed rows are dropped from the output")
claim("C56", "proved", ["Main.C56_threshold_argument"], "float() is a parameter")
claim("C57", "proved", ["Main.C57_written_once"], "")
claim("C58", "proved", ["Main.C58_statistics", "Main.C58_prints", "Main.C58_missing_column", "Main.C58_compared_columns"], "rows are aligned with the calibration file by label")
claim("C83", "partial", ["Main.C83_refuted", "Main.C83_partial"], "the code violates it: 1 success in 10 rows does not reach a threshold of 10 in double arithmetic; extremes are exact")
claim("C84", "proved", ["C84_friable_run"], "")
claim("C47", "proved", ["Parse.C47_material", "Parse.C47_accepted", "Parse.C47_order_irrelevant", "Parse.C47_sandstone", "Parse.C47_pressure_dependency"], "mappings; for lists see C147")
claim("C48", "proved", ["Parse.C48_coefficients", "Parse.C48_list", "Parse.C48_mixed_rejected", "Parse.C48_none_missing", "Parse.C48_defaults"], "")
claim("C85", "proved", ["Parse.C85_pressure", "Parse.C85_fluid_types", "Parse.C85_sandstone", "Parse.C85_fluids", "Parse.C85_dry_rock", "Parse.C85_constituent", "Parse.C85_depth_trend", "Parse.C85_pressure_dependency", "Parse.C85_empty"], "")
claim("C86", "proved", ["Parse.C86_unknown_keys", "Parse.C86_top_level", "Shipped.C86_section_in_file"], "")
claim("C87", "proved", ["Parse.C87_reading_row_wise", "Main.C87_row_wise"], "")
claim("C88", "partial", ["Main.C88_modes_accept_alike_refuted", "Main.C88_modes_accept_alike_refuted_lists", "Main.C53_yaml"], "the code violates it for brie_constant: {column: x} and for lists of values; proved when global parameters do not refer to columns and per-row parameters are not lists (C53_yaml)")
claim("C66", "proved", ["CO2.C66_ideal_gas_derivatives"], "")
claim("C67", "proved", ["CO2.C67_residual_derivatives", "CO2.C67_pressure_derivative"], "reduced density or temperature exactly 1, where the code moves the value by 1e-15, is excluded from the derivative statements")
claim("C71", "proved", ["CO2.C71_isentropic_ge_isothermal", "CO2.C71_speed_of_sound", "CO2.C71_dilute"], "")
claim("C89", "proved", ["CO2.C89_ideal_gas_limit"], "")
claim("C68", "proved", ["CO2.C68_curves_meet", "CO2.C68_order", "CO2.C68_monotone", "CO2.C68_defined"], "")
claim("C69", "proved", ["CO2.C69_bracket", "CO2.C69_solution", "CO2.C69_solution_reachable", "CO2.C69_no_value_error", "CO2.C69_search_error", "CO2.C69_cold_bracket_empty"], "the root finder is a parameter with a bracketing contract; far below the triple point the bracket is empty (C69_cold_bracket_empty)")
claim("C70", "proved", ["CO2.C70_lookup", "CO2.C70_given_density"], "scipy's nearest rule is modelled; the table file is a parameter")
claim("C72", "partial", ["CO2.C72_refuted", "CO2.C72_partial"], "the code violates it: elements equal to 1 of the caller's arrays are changed to 1-1e-15; nothing else changes")
claim("C90", "proved", ["CO2.C90_certified", "CO2.C90_numbers"], "Newton's method and the starting values are parameters")
claim("C91", "partial", ["CO2.C91_refuted", "CO2.C91_refuted_in_range", "CO2.C91_partial"], "the code violates it: the pressure grid ends at 1.01 times the largest temperature")
claim("C92", "partial", ["CO2.C92_refuted", "CO2.C92_partial"], "the code violates it for order (0,0): the ideal gas part of the first density is used for all")
claim("C73", "partial", ["Shapes.C73_single_is_column_partial", "Shapes.C73_polyfit_single", "Shapes.C73_refuted_patchy", "Shapes.C73_refuted_patchy_example", "Shapes.C73_refuted_patchy_zero", "Shapes.C73_refuted_patchy_zero_example", "Shapes.C73_refuted_friable_dependency", "Shapes.C73_refuted_friable_example", "Shapes.C73_refuted_depth_trend", "Shapes.C73_refuted_depth_example"], "the code violates it: patchy cement with single porosity but a column of lower-bound pressures or coordination numbers (IndexError), patchy cement with a single porosity of zero but a column of cement fractions (ValueError), friable/patchy pressure dependency with single porosity but a pressure column (ValueError), single depth with a column of reference depths (ValueError). Proved for the dry rock whenever the porosity is a column, and for the other combinations listed in the theorem")
claim("C93", "proved", ["C93_water_and_brine"], "")
claim("C94", "proved", ["C94_oil"], "")
claim("C95", "proved", ["C95_gas"], "")
claim("C96", "proved", ["C96_hashin_shtrikman"], "")
claim("C97", "proved", ["C97_friable_sand"], "")
claim("C98", "proved", ["C98_contact_and_constant_cement"], "")
claim("C99", "proved", ["C99_patchy_cement"], "")
claim("C100", "proved", ["C100_mineral_mixture"], "")
claim("C101", "proved", ["C101_trends", "C101_power"], "")
claim("C102", "proved", ["C102_friable", "C102_patchy", "C102_default_polyfit"], "")
claim("C103", "proved", ["C103_constituents"], "")
claim("C104", "proved", ["C104_mixing_and_gassmann"], "")
claim("C105", "proved", ["C105_friable", "C105_patchy", "C105_polyfit", "C105_friable_softer", "C105_patchy_softer"], "carbon dioxide, depth trends, velocity trends and missing fractions are covered by other properties")
claim("C106", "proved", ["C106_empty_configuration"], "the default dry rock moduli are 2510 and 1460 Pa")
claim("C107", "proved", ["C107_fluids", "C107_minerals"], "an exact characterisation with the values of the accepted section")
claim("C108", "proved", ["CO2.C108_helmholtz", "CO2.C108_pressure", "CO2.C108_bulk_modulus", "CO2.C108_bulk_modulus_reachable", "CO2.C108_phase_boundaries", "CO2.C108_density", "CO2.C108_material"], "independent specification in Spec/Co2.lean with Mathlib derivatives; at the critical temperature or density the residual part is taken at 1 - 1e-15 (C108_helmholtz); the bulk modulus where the second temperature derivative is not zero; the root finder is a parameter with a bracketing contract")
claim("C109", "proved", ["C109_all_dry_rocks_and_adjustments"], "hypotheses met by exAdjusted_ok (velocity trend, power trend, friable-sand dependency and depth trend in one list)")
claim("C110", "proved", ["C110_omitted_fractions"], "")
claim("C111", "proved", ["C111_carbon_dioxide"], "the root finder is a parameter with the bracketing contract Brackets; whenever the densities are found")
claim("C112", "proved", ["Shipped.C112_friable_sand", "Shipped.C112_patchy_cement", "Shipped.C112_example1", "Shipped.C112_example2", "Shipped.C112_example3"], "the yaml terms in Model/Shipped.lean are generated from the files by tools/make_examples.py; ranges: porosity in (0, 0.3], fluid pressure up to 73 MPa, rock pressure below overburden; example 2: porosity in (0, 1), rock pressure from 1 MPa, depth 0 to 1e6; example 3: porosity in (0, 0.3], rock pressure in [0, 50 MPa)")
claim("C113", "partial", ["Shipped.C113_readme_tutorial_refuted", "Shipped.C113_getting_started_refuted", "Shipped.C113_packaged_tutorial", "Shipped.C113_docs_minerals", "Shipped.C113_docs_columns", "Shipped.C113_docs_adjusting"], "the code violates it: both README configurations, and the fluids and dry rock blocks of the getting started guide, have keys the code forbids, and are rejected whatever the data; proved for the tutorial of the package and the four other blocks")
claim("C114", "proved", ["Doc.C114_says", "Doc.C114_says_no_data"], "the format is Spec/Document.lean, independent of the reader; example: examples/example2.yaml and the empty file satisfy it (Props/Document6)")
claim("C115", "proved", ["Schema.C115_schema"], "the necessary format is Spec/Schema.lean; contents of coefficient arrays are not described there (C48, C85)")
claim("C116", "proved", ["Parse.C116_key_order", "Main.C116_run"], "")
claim("C117", "proved", ["Cli.C117_only_outputs_change", "Cli.C117_success"], "yaml, csv and text rendering are parameters; the argument - (standard streams) is not modelled")
claim("C118", "partial", ["Cli.C118_refuted", "Cli.C118_partial"], "the code violates it: output files are opened for writing while arguments are parsed, so they are emptied whenever a later argument or the configuration is bad; proved: nothing but an empty file or the old one is left")
claim("C119", "proved", ["Cli.C119_tutorial", "Cli.C119_nothing_lost"], "files have their directories (Disk.WellFormed)")
claim("C120", "proved", ["Cli.C120_invalid_arguments"], "")
claim("C121", "proved", ["CO2.C121_orientation", "CO2.C121_interpolated"], "the table as the script generate_span_wagner_tables.py writes it; the shipped binary file itself is not read; hypotheses met by C121_reachable")
claim("C122", "partial", ["CO2.C122_refuted", "CO2.C122_partial", "CO2.C122_low_pressure", "CO2.C122_low_pressure_nan"], "the code violates it: the search begins at 0.095 kg/m3, so dilute gas (below about 7 kPa at 400 K) raises ValueError; proved: found and correct above the critical temperature from 0.02 to 800 MPa; subcritical states are open")
claim("C123", "partial", ["C123_refuted", "C123_partial"], "the code violates its documentation: without a gas all constituents are liquids and the mixture is Wood's")
claim("C124", "partial", ["C124_refuted", "C124_partial"], "the code violates it: a second negative index is looked up in the shortened list ([-1, -2] with two constituents raises IndexError); proved for one index")
claim("C125", "proved", ["C125_fluids_leave_rock"], "")
claim("C126", "proved", ["C126_saturated_within_reuss_voigt", "C126_attained"], "")
claim("C127", "proved", ["C127_no_jump", "C127_empty_fluid_jumps"], "with an empty fluid (modulus 0) there is a jump at porosity 0, shown by the second theorem")
claim("C128", "proved", ["C128_mixture_within_reuss_voigt"], "")
claim("C129", "proved", ["C129_mix_of_two", "C129_mixture_of_minerals", "C129_wood_mix", "C129_stiffer_mineral"], "")
claim("C130", "proved", ["C130_mix_of_two", "C130_hertz_mindlin", "C130_friable_sand", "C130_contact_cement", "C130_constant_cement", "C130_patchy_cement", "C130_minerals", "C130_wood", "C130_brie", "C130_fluid_substitution", "C130_calculation"], "")
claim("C131", "partial", ["C131_refuted", "C131_partial"], "the code violates its documentation: rows of the coefficient matrices multiply powers of the property, columns powers of the depth, so the documented example adds 1.5*depth to the bulk modulus instead of scaling it by 1.5; proved: the documented polynomial is computed for the transposed matrices while max_depth is not exceeded (C44)")
claim("C132", "partial", ["C132_refuted", "C132_partial", "C132_friable_twice", "C132_reference_unused"], "the code violates its documentation: the dry rock is computed at the rock pressure, so a pressure dependency applies the pressure effect twice (K(rock)^2/K(reference)); proved for rock pressure = reference pressure")
claim("C133", "partial", ["C133_refuted", "C133_partial"], "the code violates its documentation: it computes c1 * p^c2; proved for c1 = 1 (what it does for every c1 is C101)")
claim("C134", "proved", ["Main.C134_lower_threshold", "Main.C134_higher_threshold"], "")
claim("C135", "proved", ["Main.C135_rows_alone_count", "Main.C135_yaml", "Main.C135_threshold"], "")
claim("C136", "proved", ["Main.C136_unused_columns", "Main.C136_reading"], "")
claim("C137", "proved", ["C137_brine_density_trends", "C137_gas_density_pressure"], "")
claim("C138", "proved", ["C138_friable", "C138_constant_cement", "C138_fluid_substitution", "C138_calculation"], "")
claim("C139", "partial", ["C139_fluids", "C139_minerals_partial", "C139_refuted"], "proved for fluids (Wood, Brie) and for minerals that come first or are no stiffer than every earlier one; false of the code for a mineral stiffer than an earlier one (C139_refuted)")
claim("C140", "proved", ["C140_mix_of_two", "C140_friable", "C140_cement", "C140_patchy", "C140_saturated"], "")
claim("C141", "proved", ["Parse.C141_list_is_column", "Main.C141_run"], "")
claim("C142", "partial", ["C142_mass_partial", "C142_cemented_mass_partial", "C142_cemented_mass_refuted"], "proved for grain pack, friable and patchy sand; for contact and constant cement exactly when cement is as dense as the grains or the counted volume happens to be right; false of the code otherwise (C142_cemented_mass_refuted)")
claim("C143", "proved", ["C143_friable", "C143_patchy"], "")
claim("C144", "proved", ["Registry.C144_import", "Registry.C144_clash", "Registry.C144_selection", "Registry.C144_order", "Registry.C144_bundled"], "")
claim("C145", "partial", ["Registry.C145_selectable_partial", "Registry.C145_default_shadowed", "Registry.C145_refuted"], "proved for every name but default; a plug-in named default is loaded and then silently replaced (C145_default_shadowed)")
claim("C146", "partial", ["Parse.C146_indices_partial", "Parse.C146_refuted"], "proved for whole numbers; a number with decimals is accepted and loses them (C146_refuted)")
claim("C147", "proved", ["Parse.C147_sections", "Parse.C147_file", "Parse.C147_materials"], "the reading of lists is pydantic v1 behaviour (_validate_dataclass), modelled as Parse.named")
claim("C148", "proved", ["C148_moved", "C148_gas_for_liquid", "C148_moved_given", "C148_gas_for_liquid_given"], "gases told by type, or named by position in brie_gases (the _given theorems)")
claim("C149", "partial", ["C149_partial", "C149_shown", "C149_refuted", "C149_refuted_brine"], "holds when no carbon dioxide is listed before an oil or a brine; C149_shown says what is shown in general; refuted: behind carbon dioxide the pressure is a million times too small, so oil is warned about although above its bubble point and brine at 120 MPa is not. Assumed: Python's default warning filter")
claim("C150", "proved", ["Main.C150_missing_entries", "C150_calculation", "Parse.C150_reading", "C150_carbon_dioxide"], "carbon dioxide: for a root finder that raises when the function has no number at the lower end of its bracket (scipy's toms748 does; CO2.ChecksStart). Rows are those read_csv returns (it skips a line that is blank altogether)")
claim("C151", "proved", ["Main.C151_program", "Main.C151_threshold_mode", "C151_missing_porosity", "Parse.reading_emptied"], "")
claim("C152", "proved", ["Parse.C152_per_row", "Parse.C152_fluid_settings", "Parse.C152_switch", "Parse.C152_coefficients", "Parse.C152_vectors", "Parse.C152_vector_lengths", "Parse.C152_readers"], "what each value means is Spec/Reading.lean; Python's float(text) and int(text) are parameters. Lists of a length other than the number of rows: see the simplification at toCol (C48)")
claim("C153", "proved", ["Objects.C153_fractions"], "that a section refers to the constituent objects it is given and that an assignment runs the validators of the field only is pydantic v1 behaviour, modelled in Model/Objects.lean")
claim("C154", "partial", ["Objects.C154_given_partial", "Objects.C154_material", "Objects.C154_refuted"], "proved for constituents with a fraction, over all histories; false of the code for an omitted fraction, which is filled in in the object itself, so that a second section with it is refused (C154_refuted)")
claim("C155", "partial", ["Objects.C155_built_partial", "Objects.C155_replaced_partial", "Objects.C155_refuted"], "proved: the section is that of the values (mkFluids) and stays so until its constituents are assigned to; after an assignment of a fraction the sum can exceed 1 (C155_refuted)")
claim("C156", "partial", ["Objects.C156_raising_partial", "Objects.C156_refuted"], "proved for everything but minerals sections with a missing (NaN) fraction; there the omitted fraction is filled in before the sum is checked (C156_refuted)")
claim("C157", "proved", ["Main.C157_missing_fluid_data", "Main.C157_threshold_mode", "Main.C157_threshold_table", "C157_calculation"], "with carbon dioxide among the fluids the emptied columns must not feed the temperature (the Span-Wagner solver is a parameter of the model, about which nothing is known at missing arguments); that rows without emptied entries are unchanged needs every parameter to be a single value or a column (PerRow), as literal lists do not belong to rows")
claim("C158", "partial", ["C158_calculating_again_partial", "C158_exactly", "C158_rock_again", "C158_sections_kept", "C158_refuted"], "proved without Span-Wagner carbon dioxide, and for the rock columns in every case; with carbon dioxide every calculation divides the fluid pressure of the input by 10^6 (C158_exactly), which C158_refuted shows in the results")
claim("C159", "partial", ["C159_absent_fluid_partial", "C159_absent_given_partial", "C159_in_a_row_partial", "C159_refuted", "C159_refuted_brie"], "proved for a constituent with positive bulk modulus and density that is not carbon dioxide, if another fluid of its phase is left (Brie, gases told by type or named by positions, which are then renumbered) or it is the only gas and the liquids fill the pores; false for carbon dioxide with saturation 0, which changes the pressure the following constituents see (C159_refuted), and for a lone gas with Brie mixing when the liquids sum to less than 1 (C159_refuted_brie)")
claim("C160", "partial", ["Rocks.C160_built_partial", "Rocks.C160_given", "Rocks.C160_refuted"], "the material is proved (depth trends with all their coefficients given); building does not change given values (C160_given), but it fills coefficients that are None in the user's objects, so a depth trend sharing them stops raising TypeError (C160_refuted)")
claim("C161", "partial", ["Rocks.C161_default_cement_partial", "Rocks.C161_refuted"], "proved as long as nothing is assigned to the default cement object; all models without a cement share it, so an assignment to the cement of one changes the others (C161_refuted)")
claim("C162", "partial", ["Rocks.C162_velocities_partial", "Rocks.C162_velocities_unused", "Rocks.C162_refuted"], "velocities: until something is assigned to the material; after an assignment they are stale (C162_refuted); the results are proved not to depend on them, except for a polynomial dry rock model over velocities, which reads the velocities of the mineral")
claim("C163", "partial", ["Rocks.C163_porosity_fits_partial", "Rocks.C163_refuted"], "proved until a porosity is assigned: the root validators of the dry rock do not run on assignment (C163_refuted)")
claim("C164", "proved", ["C164_constituents", "C164_mixture"], "oil, brine and gas in the ranges of VariesAs; real arithmetic")
claim("C165", "proved", ["C165_all_dry_rocks_and_adjustments", "C165_friable", "C165_patchy"], "patchy cement: as long as the lower bound is softer than the upper bound wherever there are pores (elsewhere the model divides by the difference of the two)")
claim("C166", "proved", ["C166_wood", "C166_brie"], "against the published formulas; saturations of at least 2e-15 in all; exponent range of doubles unbounded in the model")
claim("C167", "proved", ["C167_gassmann", "C167_density"], "against the published formula")
claim("C168", "proved", ["C168_velocities"], "")
claim("C169", "proved", ["C169_fluids", "C169_minerals", "C169_left_out"], "")
claim("C170", "proved", ["C170_bounds"], "against the published formulas")
claim("C171", "proved", ["C171_row"], "the dry rock's moduli are the input of this row; against the published formulas")
claim("C172", "proved", ["C172_minerals"], "against the published formulas")
claim("C173", "proved", ["C173_hertz_mindlin", "C173_friable"], "against the published formulas; without rounding the model is the exact one (double_hertzMindlin_model, double_friableSand_exact)")
claim("C174", "proved", ["C174_row"], "against the published formulas; example with 500 as contrast of quartz and its grain pack at 20 MPa")
claim("C175", "proved", ["C175_row", "C175_friable_row", "C175_brie_row", "C175_brie_friable_row"], "nothing is assumed about rounding outside the range of normal numbers; exists_bounded: such functions exist, also ones that lose everything outside; examples with quartz, clay, brine and gas")
claim("C176", "proved", ["C176_row", "C176_friable_row"], "against the published formulas; the example in Rounding21 (through C175_brie_friable_row) has brine and gas in quartz sand")
claim("C177", "proved", ["C177_brie_mix", "C177_sand", "C177_calculation"], "examples: gassy brine, clay-like against calcite-like grains, and a whole run with stiffer grains and brine")
claim("C178", "proved", ["C178_brine_stiffness_trends", "C178_not_beyond"], "temperature has no trend (water is fastest near 70 C) and is left out; C178_not_beyond shows the 300 C limit for pressure is needed")
claim("C179", "proved", ["C179_dead_oil_stiffness_trends"], "density is C64; the 73 MPa limit is where the published density stops growing with pressure")
claim("C180", "proved", ["C180_calculation"], "brine within 0..350 C, 0..100 MPa, 0..300000 ppm (C178, C137)")
claim("C181", "proved", ["GasStiffness.C181_gas_bulk_pressure"], "")
claim("C182", "proved", ["C182_calculation"], "brine and gas within 0..300 C, oil up to 73 MPa, the ranges of C137, C178, C179, C181; CO2 is not among the constituents")
claim("C183", "proved", ["GasHeat.C183_gas_density"], "the correlations do not keep this order beyond the range: the compressibility of light hot gas falls faster than the temperature rises")
claim("C184", "proved", ["Double.C184_polynomial"], "")
claim("C185", "proved", ["Double.C185_brine"], "")
claim("C186", "proved", ["C186_row"], "")
claim("C187", "proved", ["Double.C187_deadOil", "Double.double_deadOil_exact"], "the mathematical library's power is assumed accurate to one unit in the last place")
claim("C188", "proved", ["Double.C188_gas", "Double.double_gas_exact"], "the mathematical library's power and exponential are assumed accurate to one unit in the last place")
claim("C189", "proved", ["C189_row"], "")
claim("C190", "proved", ["Double.C190_oil", "Double.double_oil_exact"], "the mathematical library's power is assumed accurate to one unit in the last place")
claim("C191", "proved", ["C191_row"], "")
claim("C192", "proved", ["C192_contact_cement", "double_contactCement_exact"], "")
claim("C193", "proved", ["C193_constant_cement", "double_constantCement_exact"], "")
claim("C194", "proved", ["C194_patchy_cement", "double_patchyCement_exact"], "")
