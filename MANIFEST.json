{
 "claims": [
  {
   "property": "C01",
   "status": "proved",
   "theorems": [
    "OPE.C01_velocities_agree"
   ],
   "note": "all column lengths"
  },
  {
   "property": "C02",
   "status": "proved",
   "theorems": [
    "OPE.C02_moduli_round_trip",
    "OPE.C02_velocity_round_trip"
   ],
   "note": ""
  },
  {
   "property": "C03",
   "status": "proved",
   "theorems": [
    "OPE.C03_no_negative_property",
    "OPE.C03_negative_argument_rejected",
    "OPE.C03_given_arguments_kept"
   ],
   "note": "all 32 argument subsets, all values incl. nan/inf"
  },
  {
   "property": "C04",
   "status": "partial",
   "theorems": [
    "OPE.C04_refuted_nan",
    "OPE.C04_refuted_zero_density",
    "OPE.C04_partial"
   ],
   "note": "the code violates it: nan passes every check, zero density gives nan velocities; holds for finite arguments and positive density"
  },
  {
   "property": "C05",
   "status": "proved",
   "theorems": [
    "OPE.C05_derived_ratios"
   ],
   "note": ""
  },
  {
   "property": "C06",
   "status": "proved",
   "theorems": [
    "OPE.C06_insufficient_rejected",
    "OPE.C06_sufficient_accepted"
   ],
   "note": ""
  },
  {
   "property": "C08",
   "status": "proved",
   "theorems": [
    "OPE.C08_between_constituents"
   ],
   "note": ""
  },
  {
   "property": "C09",
   "status": "proved",
   "theorems": [
    "OPE.C09_C12_bounds_ordered"
   ],
   "note": ""
  },
  {
   "property": "C10",
   "status": "proved",
   "theorems": [
    "OPE.C10_end_points"
   ],
   "note": ""
  },
  {
   "property": "C11",
   "status": "proved",
   "theorems": [
    "OPE.C11_symmetric"
   ],
   "note": ""
  },
  {
   "property": "C12",
   "status": "proved",
   "theorems": [
    "OPE.C09_C12_bounds_ordered"
   ],
   "note": ""
  },
  {
   "property": "C13",
   "status": "proved",
   "theorems": [
    "OPE.C13_bad_ratio_rejected",
    "OPE.C13_bad_bound_rejected",
    "OPE.C13_ratio_accepted_iff",
    "OPE.C13_bound_and_average_accepted_iff"
   ],
   "note": ""
  },
  {
   "property": "C14",
   "status": "proved",
   "theorems": [
    "OPE.C14_monotone_in_ratio"
   ],
   "note": ""
  },
  {
   "property": "C15",
   "status": "proved",
   "theorems": [
    "OPE.C15_bound_is_walpole",
    "OPE.C15_average"
   ],
   "note": ""
  },
  {
   "property": "C16",
   "status": "partial",
   "theorems": [
    "OPE.C16_partial",
    "OPE.C16_refuted"
   ],
   "note": "the code violates it when two or more saturations are all zero (each is kept as 1); holds for every total >= 1e-15"
  },
  {
   "property": "C17",
   "status": "proved",
   "theorems": [
    "OPE.C17_wood_is_reuss"
   ],
   "note": "any number of fluids"
  },
  {
   "property": "C18",
   "status": "proved",
   "theorems": [
    "OPE.C18_wood_order_irrelevant",
    "OPE.C18_wood_scale_irrelevant"
   ],
   "note": ""
  },
  {
   "property": "C19",
   "status": "proved",
   "theorems": [
    "OPE.C19_brie_end_points_and_range",
    "OPE.C19_brie_monotone"
   ],
   "note": ""
  },
  {
   "property": "C20",
   "status": "proved",
   "theorems": [
    "OPE.C20_length_mismatch",
    "OPE.C20_no_constituents",
    "OPE.C20_one_phase"
   ],
   "note": ""
  },
  {
   "property": "C21",
   "status": "proved",
   "theorems": [
    "OPE.C21_gassmann_equation"
   ],
   "note": ""
  },
  {
   "property": "C22",
   "status": "proved",
   "theorems": [
    "OPE.C22_saturated_between",
    "OPE.C22_monotone"
   ],
   "note": ""
  },
  {
   "property": "C23",
   "status": "proved",
   "theorems": [
    "OPE.C23_shear_and_density",
    "OPE.C23_empty_fluid",
    "OPE.C23_empty_fluid_any"
   ],
   "note": ""
  },
  {
   "property": "C24",
   "status": "proved",
   "theorems": [
    "OPE.C24_invertible",
    "OPE.C24_injective"
   ],
   "note": ""
  },
  {
   "property": "C25",
   "status": "partial",
   "theorems": [
    "OPE.C25_partial",
    "OPE.C25_refuted"
   ],
   "note": "the code accepts some dry rocks stiffer than their mineral; C25_partial gives the exact acceptance condition"
  },
  {
   "property": "C26",
   "status": "proved",
   "theorems": [
    "OPE.C26_pressure_law",
    "OPE.C26_zero_increasing_ratio"
   ],
   "note": ""
  },
  {
   "property": "C27",
   "status": "proved",
   "theorems": [
    "OPE.C27_density_and_range",
    "OPE.C27_zero_pressure"
   ],
   "note": "pressure 0 raises ZeroDivisionError"
  },
  {
   "property": "C28",
   "status": "partial",
   "theorems": [
    "OPE.C28_rejects_exactly",
    "OPE.C28_partial",
    "OPE.C28_sand_porosity_one",
    "OPE.C28_refuted"
   ],
   "note": "the code violates it at the single point sand = cemented porosity = 1 (nan); proved everywhere else"
  },
  {
   "property": "C29",
   "status": "proved",
   "theorems": [
    "OPE.C29_between_friable_and_cemented"
   ],
   "note": "finite, physically meaningful arguments (PatchyIn); with nan arguments 'between' has no meaning"
  },
  {
   "property": "C30",
   "status": "proved",
   "theorems": [
    "OPE.C30_friable_monotone",
    "OPE.C30_patchy_monotone"
   ],
   "note": ""
  },
  {
   "property": "C31",
   "status": "proved",
   "theorems": [
    "OPE.C31_murphy"
   ],
   "note": ""
  },
  {
   "property": "C32",
   "status": "proved",
   "theorems": [
    "OPE.C32_end_points",
    "OPE.C32_end_points_defined"
   ],
   "note": ""
  },
  {
   "property": "C74",
   "status": "proved",
   "theorems": [
    "OPE.C74_contact_cement_defined"
   ],
   "note": ""
  },
  {
   "property": "C75",
   "status": "proved",
   "theorems": [
    "OPE.C75_patchy_cement_defined"
   ],
   "note": ""
  },
  {
   "property": "C33",
   "status": "proved",
   "theorems": [
    "OPE.C33_one_missing_filled",
    "OPE.C33_none_missing_kept",
    "OPE.C33_rejected"
   ],
   "note": ""
  },
  {
   "property": "C34",
   "status": "proved",
   "theorems": [
    "OPE.C34_density_weighted_average"
   ],
   "note": "any number of minerals"
  },
  {
   "property": "C35",
   "status": "proved",
   "theorems": [
    "OPE.C35_within_constituents"
   ],
   "note": "any number of minerals"
  },
  {
   "property": "C36",
   "status": "partial",
   "theorems": [
    "OPE.C36_partial",
    "OPE.C36_refuted"
   ],
   "note": "the code violates it: three minerals in another order give another bulk modulus; holds for two minerals and for density"
  },
  {
   "property": "C37",
   "status": "proved",
   "theorems": [
    "OPE.C37_zero_fraction_ignored"
   ],
   "note": ""
  },
  {
   "property": "C76",
   "status": "proved",
   "theorems": [
    "OPE.C76_minerals_accepted"
   ],
   "note": ""
  },
  {
   "property": "C45",
   "status": "proved",
   "theorems": [
    "OPE.C45_moduli_fit",
    "OPE.C45_velocity_fit",
    "OPE.C45_identity",
    "OPE.C45_invalid_rejected"
   ],
   "note": "any coefficient matrix size"
  },
  {
   "property": "C59",
   "status": "partial",
   "theorems": [
    "OPE.C59_blend",
    "OPE.C59_ends",
    "OPE.C59_continuous",
    "OPE.C59_refuted",
    "OPE.C59_usual_range_partial"
   ],
   "note": "the code violates it: live oil is evaluated even where it has no weight, and its negative velocity makes hot light oil without gas (300 C, 700 kg/m3, no pressure) raise although dead_oil accepts it. Proved wherever live oil is accepted, in particular for 0..150 C, 0..100 MPa, gas-oil ratios up to 400"
  },
  {
   "property": "C60",
   "status": "proved",
   "theorems": [
    "OPE.C60_rate_is_derivative"
   ],
   "note": ""
  },
  {
   "property": "C61",
   "status": "proved",
   "theorems": [
    "OPE.C61_gas_density_units"
   ],
   "note": ""
  },
  {
   "property": "C62",
   "status": "partial",
   "theorems": [
    "OPE.C62_partial",
    "OPE.C62_refuted"
   ],
   "note": "the code violates it for density: water() returns g/cc, brine() kg/m3; velocities agree and densities agree up to exactly 1000"
  },
  {
   "property": "C63",
   "status": "proved",
   "theorems": [
    "OPE.C63_bubble_point_trends"
   ],
   "note": ""
  },
  {
   "property": "C64",
   "status": "proved",
   "theorems": [
    "OPE.C64_dead_oil_trends"
   ],
   "note": ""
  },
  {
   "property": "C65",
   "status": "proved",
   "theorems": [
    "OPE.C65_no_shear",
    "OPE.CO2.C65_carbon_dioxide"
   ],
   "note": ""
  },
  {
   "property": "C77",
   "status": "partial",
   "theorems": [
    "OPE.C77_refuted",
    "OPE.C77_partial"
   ],
   "note": "the code violates it: density is exactly 10^12 too large, velocity exactly 1/sqrt(1000) too small"
  },
  {
   "property": "C78",
   "status": "proved",
   "theorems": [
    "OPE.C78_dead_oil_defined"
   ],
   "note": ""
  },
  {
   "property": "C79",
   "status": "proved",
   "theorems": [
    "OPE.C79_oil_defined"
   ],
   "note": "above the range live oil can be rejected, see C59_refuted"
  },
  {
   "property": "C80",
   "status": "proved",
   "theorems": [
    "OPE.C80_brine_defined"
   ],
   "note": "Bernstein coefficients on the box are positive"
  },
  {
   "property": "C38",
   "status": "partial",
   "theorems": [
    "OPE.C38_partial",
    "OPE.C38_pressure_afterwards",
    "OPE.C38_refuted"
   ],
   "note": "the code violates it: Span-Wagner CO2 divides pressure.fluid by 1e6 in place; exact side effect proved, and the claim proved for sections without Span-Wagner CO2"
  },
  {
   "property": "C39",
   "status": "proved",
   "theorems": [
    "OPE.C39_own_model_wins",
    "OPE.C39_unsupported",
    "OPE.C39_explicit_materials"
   ],
   "note": ""
  },
  {
   "property": "C40",
   "status": "proved",
   "theorems": [
    "OPE.C40_brie_selection",
    "OPE.C40_default_gases",
    "OPE.C40_given_gases",
    "OPE.C40_out_of_range"
   ],
   "note": ""
  },
  {
   "property": "C41",
   "status": "partial",
   "theorems": [
    "OPE.C41_effective_pressures",
    "OPE.C41_refuted"
   ],
   "note": "all but one clause proved; the code accepts a section with neither fluid nor rock pressure (C41_refuted)"
  },
  {
   "property": "C42",
   "status": "partial",
   "theorems": [
    "OPE.C42_partial",
    "OPE.C42_powerfit_partial",
    "OPE.C42_refuted"
   ],
   "note": "proved for polyfit, expfit, logfit, friable, patchy; the code violates it for powerfit, which compares the plain rock pressure with the effective reference pressure"
  },
  {
   "property": "C43",
   "status": "proved",
   "theorems": [
    "OPE.C43_no_adjustment",
    "OPE.C43_append",
    "OPE.C43_first_error",
    "OPE.C43_dry_rock_material"
   ],
   "note": ""
  },
  {
   "property": "C44",
   "status": "partial",
   "theorems": [
    "OPE.C44_partial",
    "OPE.C44_refuted"
   ],
   "note": "the code violates it: max_depth never has an effect (np.clip result dropped)"
  },
  {
   "property": "C46",
   "status": "partial",
   "theorems": [
    "OPE.C46_friable_accepts_exactly",
    "OPE.C46_patchy_accepts_exactly",
    "OPE.C46_polyfit_accepts",
    "OPE.C46_friable_partial",
    "OPE.C46_patchy_partial",
    "OPE.C46_refuted"
   ],
   "note": "acceptance is characterised exactly; the second half is violated by negative porosities, which are accepted but cannot be evaluated"
  },
  {
   "property": "C81",
   "status": "proved",
   "theorems": [
    "OPE.C81_chain"
   ],
   "note": ""
  },
  {
   "property": "C82",
   "status": "proved",
   "theorems": [
    "OPE.C82_friable",
    "OPE.C82_patchy"
   ],
   "note": ""
  },
  {
   "property": "C49",
   "status": "proved",
   "theorems": [
    "OPE.C49_replaces_exactly",
    "OPE.C49_no_reference_left",
    "OPE.C49_idempotent",
    "OPE.C49_fails_iff",
    "OPE.C49_missing_column"
   ],
   "note": "configurations of any depth and breadth"
  },
  {
   "property": "C50",
   "status": "proved",
   "theorems": [
    "OPE.C50_reference_needs_data"
   ],
   "note": "configurations of any depth and breadth"
  },
  {
   "property": "C07",
   "status": "proved",
   "theorems": [
    "OPE.C07_input_row_wise",
    "OPE.C07_calculation_row_wise",
    "OPE.C07_row_wise",
    "OPE.CO2.C07_carbon_dioxide_row_wise",
    "OPE.CO2.C07_row_wise_span_wagner"
   ],
   "note": "from sections to result table, including the Span-Wagner CO2 model of the code for every root finder and table"
  },
  {
   "property": "C51",
   "status": "proved",
   "theorems": [
    "OPE.Main.C51_exit_codes"
   ],
   "note": "all outcomes of YAML, CSV, parsing, calculation, writing and calibration are arbitrary"
  },
  {
   "property": "C52",
   "status": "proved",
   "theorems": [
    "OPE.Main.C52_threshold_rows",
    "OPE.Main.C52_no_rows",
    "OPE.Main.C52_no_data"
   ],
   "note": "in exact arithmetic; rounding is C83. With no successful row the code is -1, with no rows -1"
  },
  {
   "property": "C53",
   "status": "proved",
   "theorems": [
    "OPE.Main.C53_modes_agree",
    "OPE.Main.C53_yaml"
   ],
   "note": "whole outcome equal, with double rounding of the percentage; C53_yaml starts from the YAML tree and CSV rows; configurations with column references in global parameters or lists for per-row parameters are excluded (C88)"
  },
  {
   "property": "C54",
   "status": "partial",
   "theorems": [
    "OPE.Main.C54_refuted",
    "OPE.Main.C54_partial"
   ],
   "note": "the code violates it: InputError escapes from run_with_threshold; with readable files no exception escapes"
  },
  {
   "property": "C55",
   "status": "partial",
   "theorems": [
    "OPE.Main.C55_refuted",
    "OPE.Main.C55_partial"
   ],
   "note": "the code violates it: failed rows are dropped from the output"
  },
  {
   "property": "C56",
   "status": "proved",
   "theorems": [
    "OPE.Main.C56_threshold_argument"
   ],
   "note": "float() is a parameter"
  },
  {
   "property": "C57",
   "status": "proved",
   "theorems": [
    "OPE.Main.C57_written_once"
   ],
   "note": ""
  },
  {
   "property": "C58",
   "status": "proved",
   "theorems": [
    "OPE.Main.C58_statistics",
    "OPE.Main.C58_prints",
    "OPE.Main.C58_missing_column",
    "OPE.Main.C58_compared_columns"
   ],
   "note": "rows are aligned with the calibration file by label"
  },
  {
   "property": "C83",
   "status": "partial",
   "theorems": [
    "OPE.Main.C83_refuted",
    "OPE.Main.C83_partial"
   ],
   "note": "the code violates it: 1 success in 10 rows does not reach a threshold of 10 in double arithmetic; extremes are exact"
  },
  {
   "property": "C84",
   "status": "proved",
   "theorems": [
    "OPE.C84_friable_run"
   ],
   "note": ""
  },
  {
   "property": "C47",
   "status": "proved",
   "theorems": [
    "OPE.Parse.C47_material",
    "OPE.Parse.C47_accepted",
    "OPE.Parse.C47_order_irrelevant",
    "OPE.Parse.C47_sandstone",
    "OPE.Parse.C47_pressure_dependency"
   ],
   "note": "mappings; for lists see C147"
  },
  {
   "property": "C48",
   "status": "proved",
   "theorems": [
    "OPE.Parse.C48_coefficients",
    "OPE.Parse.C48_list",
    "OPE.Parse.C48_mixed_rejected",
    "OPE.Parse.C48_none_missing",
    "OPE.Parse.C48_defaults"
   ],
   "note": ""
  },
  {
   "property": "C85",
   "status": "proved",
   "theorems": [
    "OPE.Parse.C85_pressure",
    "OPE.Parse.C85_fluid_types",
    "OPE.Parse.C85_sandstone",
    "OPE.Parse.C85_fluids",
    "OPE.Parse.C85_dry_rock",
    "OPE.Parse.C85_constituent",
    "OPE.Parse.C85_depth_trend",
    "OPE.Parse.C85_pressure_dependency",
    "OPE.Parse.C85_empty"
   ],
   "note": ""
  },
  {
   "property": "C86",
   "status": "proved",
   "theorems": [
    "OPE.Parse.C86_unknown_keys",
    "OPE.Parse.C86_top_level",
    "OPE.Shipped.C86_section_in_file"
   ],
   "note": ""
  },
  {
   "property": "C87",
   "status": "proved",
   "theorems": [
    "OPE.Parse.C87_reading_row_wise",
    "OPE.Main.C87_row_wise"
   ],
   "note": ""
  },
  {
   "property": "C88",
   "status": "partial",
   "theorems": [
    "OPE.Main.C88_modes_accept_alike_refuted",
    "OPE.Main.C88_modes_accept_alike_refuted_lists",
    "OPE.Main.C53_yaml"
   ],
   "note": "the code violates it for brie_constant: {column: x} and for lists of values; proved when global parameters do not refer to columns and per-row parameters are not lists (C53_yaml)"
  },
  {
   "property": "C66",
   "status": "proved",
   "theorems": [
    "OPE.CO2.C66_ideal_gas_derivatives"
   ],
   "note": ""
  },
  {
   "property": "C67",
   "status": "proved",
   "theorems": [
    "OPE.CO2.C67_residual_derivatives",
    "OPE.CO2.C67_pressure_derivative"
   ],
   "note": "reduced density or temperature exactly 1, where the code moves the value by 1e-15, is excluded from the derivative statements"
  },
  {
   "property": "C71",
   "status": "proved",
   "theorems": [
    "OPE.CO2.C71_isentropic_ge_isothermal",
    "OPE.CO2.C71_speed_of_sound",
    "OPE.CO2.C71_dilute"
   ],
   "note": ""
  },
  {
   "property": "C89",
   "status": "proved",
   "theorems": [
    "OPE.CO2.C89_ideal_gas_limit"
   ],
   "note": ""
  },
  {
   "property": "C68",
   "status": "proved",
   "theorems": [
    "OPE.CO2.C68_curves_meet",
    "OPE.CO2.C68_order",
    "OPE.CO2.C68_monotone",
    "OPE.CO2.C68_defined"
   ],
   "note": ""
  },
  {
   "property": "C69",
   "status": "proved",
   "theorems": [
    "OPE.CO2.C69_bracket",
    "OPE.CO2.C69_solution",
    "OPE.CO2.C69_solution_reachable",
    "OPE.CO2.C69_no_value_error",
    "OPE.CO2.C69_search_error",
    "OPE.CO2.C69_cold_bracket_empty"
   ],
   "note": "the root finder is a parameter with a bracketing contract; far below the triple point the bracket is empty (C69_cold_bracket_empty)"
  },
  {
   "property": "C70",
   "status": "proved",
   "theorems": [
    "OPE.CO2.C70_lookup",
    "OPE.CO2.C70_given_density"
   ],
   "note": "scipy's nearest rule is modelled; the table file is a parameter"
  },
  {
   "property": "C72",
   "status": "partial",
   "theorems": [
    "OPE.CO2.C72_refuted",
    "OPE.CO2.C72_partial"
   ],
   "note": "the code violates it: elements equal to 1 of the caller's arrays are changed to 1-1e-15; nothing else changes"
  },
  {
   "property": "C90",
   "status": "proved",
   "theorems": [
    "OPE.CO2.C90_certified",
    "OPE.CO2.C90_numbers"
   ],
   "note": "Newton's method and the starting values are parameters"
  },
  {
   "property": "C91",
   "status": "partial",
   "theorems": [
    "OPE.CO2.C91_refuted",
    "OPE.CO2.C91_refuted_in_range",
    "OPE.CO2.C91_partial"
   ],
   "note": "the code violates it: the pressure grid ends at 1.01 times the largest temperature"
  },
  {
   "property": "C92",
   "status": "partial",
   "theorems": [
    "OPE.CO2.C92_refuted",
    "OPE.CO2.C92_partial"
   ],
   "note": "the code violates it for order (0,0): the ideal gas part of the first density is used for all"
  },
  {
   "property": "C73",
   "status": "partial",
   "theorems": [
    "OPE.Shapes.C73_single_is_column_partial",
    "OPE.Shapes.C73_polyfit_single",
    "OPE.Shapes.C73_refuted_patchy",
    "OPE.Shapes.C73_refuted_patchy_example",
    "OPE.Shapes.C73_refuted_patchy_zero",
    "OPE.Shapes.C73_refuted_patchy_zero_example",
    "OPE.Shapes.C73_refuted_friable_dependency",
    "OPE.Shapes.C73_refuted_friable_example",
    "OPE.Shapes.C73_refuted_depth_trend",
    "OPE.Shapes.C73_refuted_depth_example"
   ],
   "note": "the code violates it: patchy cement with single porosity but a column of lower-bound pressures or coordination numbers (IndexError), patchy cement with a single porosity of zero but a column of cement fractions (ValueError), friable/patchy pressure dependency with single porosity but a pressure column (ValueError), single depth with a column of reference depths (ValueError). Proved for the dry rock whenever the porosity is a column, and for the other combinations listed in the theorem"
  },
  {
   "property": "C93",
   "status": "proved",
   "theorems": [
    "OPE.C93_water_and_brine"
   ],
   "note": ""
  },
  {
   "property": "C94",
   "status": "proved",
   "theorems": [
    "OPE.C94_oil"
   ],
   "note": ""
  },
  {
   "property": "C95",
   "status": "proved",
   "theorems": [
    "OPE.C95_gas"
   ],
   "note": ""
  },
  {
   "property": "C96",
   "status": "proved",
   "theorems": [
    "OPE.C96_hashin_shtrikman"
   ],
   "note": ""
  },
  {
   "property": "C97",
   "status": "proved",
   "theorems": [
    "OPE.C97_friable_sand"
   ],
   "note": ""
  },
  {
   "property": "C98",
   "status": "proved",
   "theorems": [
    "OPE.C98_contact_and_constant_cement"
   ],
   "note": ""
  },
  {
   "property": "C99",
   "status": "proved",
   "theorems": [
    "OPE.C99_patchy_cement"
   ],
   "note": ""
  },
  {
   "property": "C100",
   "status": "proved",
   "theorems": [
    "OPE.C100_mineral_mixture"
   ],
   "note": ""
  },
  {
   "property": "C101",
   "status": "proved",
   "theorems": [
    "OPE.C101_trends",
    "OPE.C101_power"
   ],
   "note": ""
  },
  {
   "property": "C102",
   "status": "proved",
   "theorems": [
    "OPE.C102_friable",
    "OPE.C102_patchy",
    "OPE.C102_default_polyfit"
   ],
   "note": ""
  },
  {
   "property": "C103",
   "status": "proved",
   "theorems": [
    "OPE.C103_constituents"
   ],
   "note": ""
  },
  {
   "property": "C104",
   "status": "proved",
   "theorems": [
    "OPE.C104_mixing_and_gassmann"
   ],
   "note": ""
  },
  {
   "property": "C105",
   "status": "proved",
   "theorems": [
    "OPE.C105_friable",
    "OPE.C105_patchy",
    "OPE.C105_polyfit",
    "OPE.C105_friable_softer",
    "OPE.C105_patchy_softer"
   ],
   "note": "carbon dioxide, depth trends, velocity trends and missing fractions are covered by other properties"
  },
  {
   "property": "C106",
   "status": "proved",
   "theorems": [
    "OPE.C106_empty_configuration"
   ],
   "note": "the default dry rock moduli are 2510 and 1460 Pa"
  },
  {
   "property": "C107",
   "status": "proved",
   "theorems": [
    "OPE.C107_fluids",
    "OPE.C107_minerals"
   ],
   "note": "an exact characterisation with the values of the accepted section"
  },
  {
   "property": "C108",
   "status": "proved",
   "theorems": [
    "OPE.CO2.C108_helmholtz",
    "OPE.CO2.C108_pressure",
    "OPE.CO2.C108_bulk_modulus",
    "OPE.CO2.C108_bulk_modulus_reachable",
    "OPE.CO2.C108_phase_boundaries",
    "OPE.CO2.C108_density",
    "OPE.CO2.C108_material"
   ],
   "note": "independent specification in Spec/Co2.lean with Mathlib derivatives; at the critical temperature or density the residual part is taken at 1 - 1e-15 (C108_helmholtz); the bulk modulus where the second temperature derivative is not zero; the root finder is a parameter with a bracketing contract"
  },
  {
   "property": "C109",
   "status": "proved",
   "theorems": [
    "OPE.C109_all_dry_rocks_and_adjustments"
   ],
   "note": "hypotheses met by exAdjusted_ok (velocity trend, power trend, friable-sand dependency and depth trend in one list)"
  },
  {
   "property": "C110",
   "status": "proved",
   "theorems": [
    "OPE.C110_omitted_fractions"
   ],
   "note": ""
  },
  {
   "property": "C111",
   "status": "proved",
   "theorems": [
    "OPE.C111_carbon_dioxide"
   ],
   "note": "the root finder is a parameter with the bracketing contract Brackets; whenever the densities are found"
  },
  {
   "property": "C112",
   "status": "proved",
   "theorems": [
    "OPE.Shipped.C112_friable_sand",
    "OPE.Shipped.C112_patchy_cement",
    "OPE.Shipped.C112_example1",
    "OPE.Shipped.C112_example2",
    "OPE.Shipped.C112_example3"
   ],
   "note": "the yaml terms in Model/Shipped.lean are generated from the files by tools/make_examples.py; ranges: porosity in (0, 0.3], fluid pressure up to 73 MPa, rock pressure below overburden; example 2: porosity in (0, 1), rock pressure from 1 MPa, depth 0 to 1e6; example 3: porosity in (0, 0.3], rock pressure in [0, 50 MPa)"
  },
  {
   "property": "C113",
   "status": "partial",
   "theorems": [
    "OPE.Shipped.C113_readme_tutorial_refuted",
    "OPE.Shipped.C113_getting_started_refuted",
    "OPE.Shipped.C113_packaged_tutorial",
    "OPE.Shipped.C113_docs_minerals",
    "OPE.Shipped.C113_docs_columns",
    "OPE.Shipped.C113_docs_adjusting"
   ],
   "note": "the code violates it: both README configurations, and the fluids and dry rock blocks of the getting started guide, have keys the code forbids, and are rejected whatever the data; proved for the tutorial of the package and the four other blocks"
  },
  {
   "property": "C114",
   "status": "proved",
   "theorems": [
    "OPE.Doc.C114_says",
    "OPE.Doc.C114_says_no_data"
   ],
   "note": "the format is Spec/Document.lean, independent of the reader; example: examples/example2.yaml and the empty file satisfy it (Props/Document6)"
  },
  {
   "property": "C115",
   "status": "proved",
   "theorems": [
    "OPE.Schema.C115_schema"
   ],
   "note": "the necessary format is Spec/Schema.lean; contents of coefficient arrays are not described there (C48, C85)"
  },
  {
   "property": "C116",
   "status": "proved",
   "theorems": [
    "OPE.Parse.C116_key_order",
    "OPE.Main.C116_run"
   ],
   "note": ""
  },
  {
   "property": "C117",
   "status": "proved",
   "theorems": [
    "OPE.Cli.C117_only_outputs_change",
    "OPE.Cli.C117_success"
   ],
   "note": "yaml, csv and text rendering are parameters; the argument - (standard streams) is not modelled"
  },
  {
   "property": "C118",
   "status": "partial",
   "theorems": [
    "OPE.Cli.C118_refuted",
    "OPE.Cli.C118_partial"
   ],
   "note": "the code violates it: output files are opened for writing while arguments are parsed, so they are emptied whenever a later argument or the configuration is bad; proved: nothing but an empty file or the old one is left"
  },
  {
   "property": "C119",
   "status": "proved",
   "theorems": [
    "OPE.Cli.C119_tutorial",
    "OPE.Cli.C119_nothing_lost"
   ],
   "note": "files have their directories (Disk.WellFormed)"
  },
  {
   "property": "C120",
   "status": "proved",
   "theorems": [
    "OPE.Cli.C120_invalid_arguments"
   ],
   "note": ""
  },
  {
   "property": "C121",
   "status": "proved",
   "theorems": [
    "OPE.CO2.C121_orientation",
    "OPE.CO2.C121_interpolated"
   ],
   "note": "the table as the script generate_span_wagner_tables.py writes it; the shipped binary file itself is not read; hypotheses met by C121_reachable"
  },
  {
   "property": "C122",
   "status": "partial",
   "theorems": [
    "OPE.CO2.C122_refuted",
    "OPE.CO2.C122_partial",
    "OPE.CO2.C122_low_pressure",
    "OPE.CO2.C122_low_pressure_nan"
   ],
   "note": "the code violates it: the search begins at 0.095 kg/m3, so dilute gas (below about 7 kPa at 400 K) raises ValueError; proved: found and correct above the critical temperature from 0.02 to 800 MPa; subcritical states are open"
  },
  {
   "property": "C123",
   "status": "partial",
   "theorems": [
    "OPE.C123_refuted",
    "OPE.C123_partial"
   ],
   "note": "the code violates its documentation: without a gas all constituents are liquids and the mixture is Wood's"
  },
  {
   "property": "C124",
   "status": "partial",
   "theorems": [
    "OPE.C124_refuted",
    "OPE.C124_partial"
   ],
   "note": "the code violates it: a second negative index is looked up in the shortened list ([-1, -2] with two constituents raises IndexError); proved for one index"
  },
  {
   "property": "C125",
   "status": "proved",
   "theorems": [
    "OPE.C125_fluids_leave_rock"
   ],
   "note": ""
  },
  {
   "property": "C126",
   "status": "proved",
   "theorems": [
    "OPE.C126_saturated_within_reuss_voigt",
    "OPE.C126_attained"
   ],
   "note": ""
  },
  {
   "property": "C127",
   "status": "proved",
   "theorems": [
    "OPE.C127_no_jump",
    "OPE.C127_empty_fluid_jumps"
   ],
   "note": "with an empty fluid (modulus 0) there is a jump at porosity 0, shown by the second theorem"
  },
  {
   "property": "C128",
   "status": "proved",
   "theorems": [
    "OPE.C128_mixture_within_reuss_voigt"
   ],
   "note": ""
  },
  {
   "property": "C129",
   "status": "proved",
   "theorems": [
    "OPE.C129_mix_of_two",
    "OPE.C129_mixture_of_minerals",
    "OPE.C129_wood_mix",
    "OPE.C129_stiffer_mineral"
   ],
   "note": ""
  },
  {
   "property": "C130",
   "status": "proved",
   "theorems": [
    "OPE.C130_mix_of_two",
    "OPE.C130_hertz_mindlin",
    "OPE.C130_friable_sand",
    "OPE.C130_contact_cement",
    "OPE.C130_constant_cement",
    "OPE.C130_patchy_cement",
    "OPE.C130_minerals",
    "OPE.C130_wood",
    "OPE.C130_brie",
    "OPE.C130_fluid_substitution",
    "OPE.C130_calculation"
   ],
   "note": ""
  },
  {
   "property": "C131",
   "status": "partial",
   "theorems": [
    "OPE.C131_refuted",
    "OPE.C131_partial"
   ],
   "note": "the code violates its documentation: rows of the coefficient matrices multiply powers of the property, columns powers of the depth, so the documented example adds 1.5*depth to the bulk modulus instead of scaling it by 1.5; proved: the documented polynomial is computed for the transposed matrices while max_depth is not exceeded (C44)"
  },
  {
   "property": "C132",
   "status": "partial",
   "theorems": [
    "OPE.C132_refuted",
    "OPE.C132_partial",
    "OPE.C132_friable_twice",
    "OPE.C132_reference_unused"
   ],
   "note": "the code violates its documentation: the dry rock is computed at the rock pressure, so a pressure dependency applies the pressure effect twice (K(rock)^2/K(reference)); proved for rock pressure = reference pressure"
  },
  {
   "property": "C133",
   "status": "partial",
   "theorems": [
    "OPE.C133_refuted",
    "OPE.C133_partial"
   ],
   "note": "the code violates its documentation: it computes c1 * p^c2; proved for c1 = 1 (what it does for every c1 is C101)"
  },
  {
   "property": "C134",
   "status": "proved",
   "theorems": [
    "OPE.Main.C134_lower_threshold",
    "OPE.Main.C134_higher_threshold"
   ],
   "note": ""
  },
  {
   "property": "C135",
   "status": "proved",
   "theorems": [
    "OPE.Main.C135_rows_alone_count",
    "OPE.Main.C135_yaml",
    "OPE.Main.C135_threshold"
   ],
   "note": ""
  },
  {
   "property": "C136",
   "status": "proved",
   "theorems": [
    "OPE.Main.C136_unused_columns",
    "OPE.Main.C136_reading"
   ],
   "note": ""
  },
  {
   "property": "C137",
   "status": "proved",
   "theorems": [
    "OPE.C137_brine_density_trends",
    "OPE.C137_gas_density_pressure"
   ],
   "note": ""
  },
  {
   "property": "C138",
   "status": "proved",
   "theorems": [
    "OPE.C138_friable",
    "OPE.C138_constant_cement",
    "OPE.C138_fluid_substitution",
    "OPE.C138_calculation"
   ],
   "note": ""
  },
  {
   "property": "C139",
   "status": "partial",
   "theorems": [
    "OPE.C139_fluids",
    "OPE.C139_minerals_partial",
    "OPE.C139_refuted"
   ],
   "note": "proved for fluids (Wood, Brie) and for minerals that come first or are no stiffer than every earlier one; false of the code for a mineral stiffer than an earlier one (C139_refuted)"
  },
  {
   "property": "C140",
   "status": "proved",
   "theorems": [
    "OPE.C140_mix_of_two",
    "OPE.C140_friable",
    "OPE.C140_cement",
    "OPE.C140_patchy",
    "OPE.C140_saturated"
   ],
   "note": ""
  },
  {
   "property": "C141",
   "status": "proved",
   "theorems": [
    "OPE.Parse.C141_list_is_column",
    "OPE.Main.C141_run"
   ],
   "note": ""
  },
  {
   "property": "C142",
   "status": "partial",
   "theorems": [
    "OPE.C142_mass_partial",
    "OPE.C142_cemented_mass_partial",
    "OPE.C142_cemented_mass_refuted"
   ],
   "note": "proved for grain pack, friable and patchy sand; for contact and constant cement exactly when cement is as dense as the grains or the counted volume happens to be right; false of the code otherwise (C142_cemented_mass_refuted)"
  },
  {
   "property": "C143",
   "status": "proved",
   "theorems": [
    "OPE.C143_friable",
    "OPE.C143_patchy"
   ],
   "note": ""
  },
  {
   "property": "C144",
   "status": "proved",
   "theorems": [
    "OPE.Registry.C144_import",
    "OPE.Registry.C144_clash",
    "OPE.Registry.C144_selection",
    "OPE.Registry.C144_order",
    "OPE.Registry.C144_bundled"
   ],
   "note": ""
  },
  {
   "property": "C145",
   "status": "partial",
   "theorems": [
    "OPE.Registry.C145_selectable_partial",
    "OPE.Registry.C145_default_shadowed",
    "OPE.Registry.C145_refuted"
   ],
   "note": "proved for every name but default; a plug-in named default is loaded and then silently replaced (C145_default_shadowed)"
  },
  {
   "property": "C146",
   "status": "partial",
   "theorems": [
    "OPE.Parse.C146_indices_partial",
    "OPE.Parse.C146_refuted"
   ],
   "note": "proved for whole numbers; a number with decimals is accepted and loses them (C146_refuted)"
  },
  {
   "property": "C147",
   "status": "proved",
   "theorems": [
    "OPE.Parse.C147_sections",
    "OPE.Parse.C147_file",
    "OPE.Parse.C147_materials"
   ],
   "note": "the reading of lists is pydantic v1 behaviour (_validate_dataclass), modelled as Parse.named"
  },
  {
   "property": "C148",
   "status": "proved",
   "theorems": [
    "OPE.C148_moved",
    "OPE.C148_gas_for_liquid",
    "OPE.C148_moved_given",
    "OPE.C148_gas_for_liquid_given"
   ],
   "note": "gases told by type, or named by position in brie_gases (the _given theorems)"
  },
  {
   "property": "C149",
   "status": "partial",
   "theorems": [
    "OPE.C149_partial",
    "OPE.C149_shown",
    "OPE.C149_refuted",
    "OPE.C149_refuted_brine"
   ],
   "note": "holds when no carbon dioxide is listed before an oil or a brine; C149_shown says what is shown in general; refuted: behind carbon dioxide the pressure is a million times too small, so oil is warned about although above its bubble point and brine at 120 MPa is not. Assumed: Python's default warning filter"
  },
  {
   "property": "C150",
   "status": "proved",
   "theorems": [
    "OPE.Main.C150_missing_entries",
    "OPE.C150_calculation",
    "OPE.Parse.C150_reading",
    "OPE.C150_carbon_dioxide"
   ],
   "note": "carbon dioxide: for a root finder that raises when the function has no number at the lower end of its bracket (scipy's toms748 does; CO2.ChecksStart). Rows are those read_csv returns (it skips a line that is blank altogether)"
  },
  {
   "property": "C151",
   "status": "proved",
   "theorems": [
    "OPE.Main.C151_program",
    "OPE.Main.C151_threshold_mode",
    "OPE.C151_missing_porosity",
    "OPE.Parse.reading_emptied"
   ],
   "note": ""
  },
  {
   "property": "C152",
   "status": "proved",
   "theorems": [
    "OPE.Parse.C152_per_row",
    "OPE.Parse.C152_fluid_settings",
    "OPE.Parse.C152_switch",
    "OPE.Parse.C152_coefficients",
    "OPE.Parse.C152_vectors",
    "OPE.Parse.C152_vector_lengths",
    "OPE.Parse.C152_readers"
   ],
   "note": "what each value means is Spec/Reading.lean; Python's float(text) and int(text) are parameters. Lists of a length other than the number of rows: see the simplification at toCol (C48)"
  },
  {
   "property": "C153",
   "status": "proved",
   "theorems": [
    "OPE.Objects.C153_fractions"
   ],
   "note": "that a section refers to the constituent objects it is given and that an assignment runs the validators of the field only is pydantic v1 behaviour, modelled in Model/Objects.lean"
  },
  {
   "property": "C154",
   "status": "partial",
   "theorems": [
    "OPE.Objects.C154_given_partial",
    "OPE.Objects.C154_material",
    "OPE.Objects.C154_refuted"
   ],
   "note": "proved for constituents with a fraction, over all histories; false of the code for an omitted fraction, which is filled in in the object itself, so that a second section with it is refused (C154_refuted)"
  },
  {
   "property": "C155",
   "status": "partial",
   "theorems": [
    "OPE.Objects.C155_built_partial",
    "OPE.Objects.C155_replaced_partial",
    "OPE.Objects.C155_refuted"
   ],
   "note": "proved: the section is that of the values (mkFluids) and stays so until its constituents are assigned to; after an assignment of a fraction the sum can exceed 1 (C155_refuted)"
  },
  {
   "property": "C156",
   "status": "partial",
   "theorems": [
    "OPE.Objects.C156_raising_partial",
    "OPE.Objects.C156_refuted"
   ],
   "note": "proved for everything but minerals sections with a missing (NaN) fraction; there the omitted fraction is filled in before the sum is checked (C156_refuted)"
  },
  {
   "property": "C157",
   "status": "proved",
   "theorems": [
    "OPE.Main.C157_missing_fluid_data",
    "OPE.Main.C157_threshold_mode",
    "OPE.Main.C157_threshold_table",
    "OPE.C157_calculation"
   ],
   "note": "with carbon dioxide among the fluids the emptied columns must not feed the temperature (the Span-Wagner solver is a parameter of the model, about which nothing is known at missing arguments); that rows without emptied entries are unchanged needs every parameter to be a single value or a column (PerRow), as literal lists do not belong to rows"
  },
  {
   "property": "C158",
   "status": "partial",
   "theorems": [
    "OPE.C158_calculating_again_partial",
    "OPE.C158_exactly",
    "OPE.C158_rock_again",
    "OPE.C158_sections_kept",
    "OPE.C158_refuted"
   ],
   "note": "proved without Span-Wagner carbon dioxide, and for the rock columns in every case; with carbon dioxide every calculation divides the fluid pressure of the input by 10^6 (C158_exactly), which C158_refuted shows in the results"
  },
  {
   "property": "C159",
   "status": "partial",
   "theorems": [
    "OPE.C159_absent_fluid_partial",
    "OPE.C159_absent_given_partial",
    "OPE.C159_in_a_row_partial",
    "OPE.C159_refuted",
    "OPE.C159_refuted_brie"
   ],
   "note": "proved for a constituent with positive bulk modulus and density that is not carbon dioxide, if another fluid of its phase is left (Brie, gases told by type or named by positions, which are then renumbered) or it is the only gas and the liquids fill the pores; false for carbon dioxide with saturation 0, which changes the pressure the following constituents see (C159_refuted), and for a lone gas with Brie mixing when the liquids sum to less than 1 (C159_refuted_brie)"
  },
  {
   "property": "C160",
   "status": "partial",
   "theorems": [
    "OPE.Rocks.C160_built_partial",
    "OPE.Rocks.C160_given",
    "OPE.Rocks.C160_refuted"
   ],
   "note": "the material is proved (depth trends with all their coefficients given); building does not change given values (C160_given), but it fills coefficients that are None in the user's objects, so a depth trend sharing them stops raising TypeError (C160_refuted)"
  },
  {
   "property": "C161",
   "status": "partial",
   "theorems": [
    "OPE.Rocks.C161_default_cement_partial",
    "OPE.Rocks.C161_refuted"
   ],
   "note": "proved as long as nothing is assigned to the default cement object; all models without a cement share it, so an assignment to the cement of one changes the others (C161_refuted)"
  },
  {
   "property": "C162",
   "status": "partial",
   "theorems": [
    "OPE.Rocks.C162_velocities_partial",
    "OPE.Rocks.C162_velocities_unused",
    "OPE.Rocks.C162_refuted"
   ],
   "note": "velocities: until something is assigned to the material; after an assignment they are stale (C162_refuted); the results are proved not to depend on them, except for a polynomial dry rock model over velocities, which reads the velocities of the mineral"
  },
  {
   "property": "C163",
   "status": "partial",
   "theorems": [
    "OPE.Rocks.C163_porosity_fits_partial",
    "OPE.Rocks.C163_refuted"
   ],
   "note": "proved until a porosity is assigned: the root validators of the dry rock do not run on assignment (C163_refuted)"
  },
  {
   "property": "C164",
   "status": "proved",
   "theorems": [
    "OPE.C164_constituents",
    "OPE.C164_mixture"
   ],
   "note": "oil, brine and gas in the ranges of VariesAs; real arithmetic"
  },
  {
   "property": "C165",
   "status": "proved",
   "theorems": [
    "OPE.C165_all_dry_rocks_and_adjustments",
    "OPE.C165_friable",
    "OPE.C165_patchy"
   ],
   "note": "patchy cement: as long as the lower bound is softer than the upper bound wherever there are pores (elsewhere the model divides by the difference of the two)"
  },
  {
   "property": "C166",
   "status": "proved",
   "theorems": [
    "OPE.C166_wood",
    "OPE.C166_brie"
   ],
   "note": "against the published formulas; saturations of at least 2e-15 in all; exponent range of doubles unbounded in the model"
  },
  {
   "property": "C167",
   "status": "proved",
   "theorems": [
    "OPE.C167_gassmann",
    "OPE.C167_density"
   ],
   "note": "against the published formula"
  },
  {
   "property": "C168",
   "status": "proved",
   "theorems": [
    "OPE.C168_velocities"
   ],
   "note": ""
  },
  {
   "property": "C169",
   "status": "proved",
   "theorems": [
    "OPE.C169_fluids",
    "OPE.C169_minerals",
    "OPE.C169_left_out"
   ],
   "note": ""
  },
  {
   "property": "C170",
   "status": "proved",
   "theorems": [
    "OPE.C170_bounds"
   ],
   "note": "against the published formulas"
  },
  {
   "property": "C171",
   "status": "proved",
   "theorems": [
    "OPE.C171_row"
   ],
   "note": "the dry rock's moduli are the input of this row; against the published formulas"
  },
  {
   "property": "C172",
   "status": "proved",
   "theorems": [
    "OPE.C172_minerals"
   ],
   "note": "against the published formulas"
  },
  {
   "property": "C173",
   "status": "proved",
   "theorems": [
    "OPE.C173_hertz_mindlin",
    "OPE.C173_friable"
   ],
   "note": "against the published formulas; without rounding the model is the exact one (double_hertzMindlin_model, double_friableSand_exact)"
  },
  {
   "property": "C174",
   "status": "proved",
   "theorems": [
    "OPE.C174_row"
   ],
   "note": "against the published formulas; example with 500 as contrast of quartz and its grain pack at 20 MPa"
  },
  {
   "property": "C175",
   "status": "proved",
   "theorems": [
    "OPE.C175_row",
    "OPE.C175_friable_row",
    "OPE.C175_brie_row",
    "OPE.C175_brie_friable_row"
   ],
   "note": "nothing is assumed about rounding outside the range of normal numbers; exists_bounded: such functions exist, also ones that lose everything outside; examples with quartz, clay, brine and gas"
  },
  {
   "property": "C176",
   "status": "proved",
   "theorems": [
    "OPE.C176_row",
    "OPE.C176_friable_row"
   ],
   "note": "against the published formulas; the example in Rounding21 (through C175_brie_friable_row) has brine and gas in quartz sand"
  },
  {
   "property": "C177",
   "status": "proved",
   "theorems": [
    "OPE.C177_brie_mix",
    "OPE.C177_sand",
    "OPE.C177_calculation"
   ],
   "note": "examples: gassy brine, clay-like against calcite-like grains, and a whole run with stiffer grains and brine"
  },
  {
   "property": "C178",
   "status": "proved",
   "theorems": [
    "OPE.C178_brine_stiffness_trends",
    "OPE.C178_not_beyond"
   ],
   "note": "temperature has no trend (water is fastest near 70 C) and is left out; C178_not_beyond shows the 300 C limit for pressure is needed"
  },
  {
   "property": "C179",
   "status": "proved",
   "theorems": [
    "OPE.C179_dead_oil_stiffness_trends"
   ],
   "note": "density is C64; the 73 MPa limit is where the published density stops growing with pressure"
  },
  {
   "property": "C180",
   "status": "proved",
   "theorems": [
    "OPE.C180_calculation"
   ],
   "note": "brine within 0..350 C, 0..100 MPa, 0..300000 ppm (C178, C137)"
  },
  {
   "property": "C181",
   "status": "proved",
   "theorems": [
    "OPE.GasStiffness.C181_gas_bulk_pressure"
   ],
   "note": ""
  },
  {
   "property": "C182",
   "status": "proved",
   "theorems": [
    "OPE.C182_calculation"
   ],
   "note": "brine and gas within 0..300 C, oil up to 73 MPa, the ranges of C137, C178, C179, C181; CO2 is not among the constituents"
  },
  {
   "property": "C183",
   "status": "proved",
   "theorems": [
    "OPE.GasHeat.C183_gas_density"
   ],
   "note": "the correlations do not keep this order beyond the range: the compressibility of light hot gas falls faster than the temperature rises"
  },
  {
   "property": "C184",
   "status": "proved",
   "theorems": [
    "OPE.Double.C184_polynomial"
   ],
   "note": ""
  },
  {
   "property": "C185",
   "status": "proved",
   "theorems": [
    "OPE.Double.C185_brine"
   ],
   "note": ""
  },
  {
   "property": "C186",
   "status": "proved",
   "theorems": [
    "OPE.C186_row"
   ],
   "note": ""
  },
  {
   "property": "C187",
   "status": "proved",
   "theorems": [
    "OPE.Double.C187_deadOil",
    "OPE.Double.double_deadOil_exact"
   ],
   "note": "the mathematical library's power is assumed accurate to one unit in the last place"
  },
  {
   "property": "C188",
   "status": "proved",
   "theorems": [
    "OPE.Double.C188_gas",
    "OPE.Double.double_gas_exact"
   ],
   "note": "the mathematical library's power and exponential are assumed accurate to one unit in the last place"
  },
  {
   "property": "C189",
   "status": "proved",
   "theorems": [
    "OPE.C189_row"
   ],
   "note": ""
  },
  {
   "property": "C190",
   "status": "proved",
   "theorems": [
    "OPE.Double.C190_oil",
    "OPE.Double.double_oil_exact"
   ],
   "note": "the mathematical library's power is assumed accurate to one unit in the last place"
  },
  {
   "property": "C191",
   "status": "proved",
   "theorems": [
    "OPE.C191_row"
   ],
   "note": ""
  },
  {
   "property": "C192",
   "status": "proved",
   "theorems": [
    "OPE.C192_contact_cement",
    "OPE.double_contactCement_exact"
   ],
   "note": ""
  },
  {
   "property": "C193",
   "status": "proved",
   "theorems": [
    "OPE.C193_constant_cement",
    "OPE.double_constantCement_exact"
   ],
   "note": ""
  },
  {
   "property": "C194",
   "status": "proved",
   "theorems": [
    "OPE.C194_patchy_cement",
    "OPE.double_patchyCement_exact"
   ],
   "note": ""
  }
 ]
}