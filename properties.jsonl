{"id": "C01", "title": "Material velocities and moduli agree", "statement": "Material(bulk_modulus=K, shear_modulus=G, density=rho) with K,G >= 0 and rho > 0 always succeeds and exposes velocities with rho*Vp^2 = K + 4/3 G, rho*Vs^2 = G, Vp,Vs >= 0.", "quantifier": "all real K,G>=0, rho>0, and all columns of such rows", "why_tests_cant": "the inputs form a continuum; a test samples a few points of it", "anchors": ["src/open_petro_elastic/material/material.py:Material", "src/open_petro_elastic/material/seismic_velocity.py"]}
{"id": "C02", "title": "Moduli/velocity round trip", "statement": "Building a Material from velocities and rebuilding it from the resulting moduli (or the other way round) returns the same five properties.", "quantifier": "all densities > 0 and all admissible velocities / moduli", "why_tests_cant": "the inputs form a continuum; a test samples a few points of it", "anchors": ["src/open_petro_elastic/material/material.py:Material.set_defaults", "src/open_petro_elastic/material/seismic_velocity.py"]}
{"id": "C03", "title": "No negative property survives construction", "statement": "Whatever five arguments are given (including NaN and infinities), if the constructor returns then no row of density, moduli or velocities is negative and no row has Vp < sqrt(4/3) Vs; if some row is negative the constructor raises ValueError.", "quantifier": "all combinations of given/omitted arguments, all column lengths, all values incl. NaN/inf", "why_tests_cant": "the claim is over every column length and every position of a bad row", "anchors": ["src/open_petro_elastic/material/material.py:Material.__init__"]}
{"id": "C04", "title": "Material never carries an undefined number", "statement": "A Material that was constructed without an error carries no NaN and no infinity in any property.", "quantifier": "all arguments incl. NaN, inf and zero density", "why_tests_cant": "a test can only show one NaN case", "anchors": ["src/open_petro_elastic/material/material.py:Material.__init__"]}
{"id": "C05", "title": "Derived ratios are physical", "statement": "For every constructed material with non-negative finite moduli, not both zero: -1 <= poisson_ratio <= 1/2, primary_wave_modulus = rho*Vp^2, and impedances are velocity times density.", "quantifier": "all real moduli >= 0, rho > 0", "why_tests_cant": "the inputs form a continuum; a test samples a few points of it", "anchors": ["src/open_petro_elastic/material/material.py:poisson_ratio", "src/open_petro_elastic/material/material.py:primary_wave_modulus"]}
{"id": "C06", "title": "Which argument combinations are accepted", "statement": "The constructor accepts exactly the argument combinations from which all of bulk, shear, Vp and Vs are given or derivable and density is given; every other combination raises (ValueError, or TypeError when only density is missing).", "quantifier": "all 32 subsets of given arguments, all values", "why_tests_cant": "the table must hold for every value in the given slots", "anchors": ["src/open_petro_elastic/material/material.py:Material.set_defaults"]}
{"id": "C07", "title": "Whole calculation is row-wise", "statement": "Running the calculation (mineral mix, fluid mix, dry rock, Gassmann) on columns succeeds iff it succeeds on every row separately, and row i of the result is the result of row i alone; rows never influence each other.", "quantifier": "all column lengths, all row contents, every row", "why_tests_cant": "must hold for every length and content; a cross-row leak can hide in any row combination", "anchors": ["src/open_petro_elastic/__main__.py:calculate_results", "src/open_petro_elastic/material/hashin_shtrikman.py", "src/open_petro_elastic/material/fluid.py", "src/open_petro_elastic/material/sandstone"]}
{"id": "C08", "title": "Hashin-Shtrikman-Walpole stays between its constituents", "statement": "For both bounds the bulk modulus, shear modulus and density of the mix lie between those of the two constituents.", "quantifier": "all positive moduli/densities, all ratios in [0,1], both bounds", "why_tests_cant": "the inputs form a continuum; a test samples a few points of it", "anchors": ["src/open_petro_elastic/material/hashin_shtrikman.py:hashin_shtrikman_walpole"]}
{"id": "C09", "title": "Lower bound below upper bound", "statement": "hashin_shtrikman_walpole(..,'lower') never exceeds (..,'upper') in bulk or shear modulus and both have the same density.", "quantifier": "all positive materials and ratios in [0,1]", "why_tests_cant": "existing property test samples ratio 0.5 only", "anchors": ["src/open_petro_elastic/material/hashin_shtrikman.py:hashin_shtrikman_walpole"]}
{"id": "C10", "title": "Walpole mix end points", "statement": "Ratio 1 gives material1, ratio 0 gives material2, exactly, for both bounds.", "quantifier": "all positive materials", "why_tests_cant": "the inputs form a continuum; a test samples a few points of it", "anchors": ["src/open_petro_elastic/material/hashin_shtrikman.py:hashin_shtrikman_walpole"]}
{"id": "C11", "title": "Walpole mix is symmetric", "statement": "Swapping the materials and complementing the ratio gives the same mix.", "quantifier": "all positive materials and ratios in [0,1], both bounds", "why_tests_cant": "the inputs form a continuum; a test samples a few points of it", "anchors": ["src/open_petro_elastic/material/hashin_shtrikman.py:hashin_shtrikman_walpole"]}
{"id": "C12", "title": "Walpole bounds are tighter than Voigt/Reuss", "statement": "Reuss average <= lower bound <= upper bound <= Voigt average, for bulk and shear.", "quantifier": "all positive materials and ratios in [0,1]", "why_tests_cant": "the inputs form a continuum; a test samples a few points of it", "anchors": ["src/open_petro_elastic/material/hashin_shtrikman.py:hashin_shtrikman_walpole"]}
{"id": "C13", "title": "Ratio check", "statement": "All three Hashin-Shtrikman functions raise ValueError when any row of the ratio is below -1e-5 or above 1+1e-5 and no such error is raised otherwise; an unknown bound name raises ValueError.", "quantifier": "all ratios incl. NaN, all column lengths, all materials", "why_tests_cant": "boundary and row position are unbounded", "anchors": ["src/open_petro_elastic/material/hashin_shtrikman.py:check_is_ratio"]}
{"id": "C14", "title": "Walpole mix is monotone in the ratio", "statement": "Adding more of the constituent with the larger modulus never lowers the modulus of the mix.", "quantifier": "all positive materials and pairs of ratios in [0,1]", "why_tests_cant": "two-point monotonicity over a continuum", "anchors": ["src/open_petro_elastic/material/hashin_shtrikman.py:hashin_shtrikman_walpole"]}
{"id": "C15", "title": "Hashin-Shtrikman bound and average", "statement": "hashin_shtrikman_bound equals the Walpole lower (upper) bound when material1 is the softer (stiffer) in shear and bulk; hashin_shtrikman_average is the mean of the two, is symmetric and lies between the constituents.", "quantifier": "all positive materials and ratios in [0,1]", "why_tests_cant": "the inputs form a continuum; a test samples a few points of it", "anchors": ["src/open_petro_elastic/material/hashin_shtrikman.py:hashin_shtrikman_bound", "src/open_petro_elastic/material/hashin_shtrikman.py:hashin_shtrikman_average"]}
{"id": "C16", "title": "Saturations are normalised", "statement": "wood_fluid_mixing rescales the given saturations so that they sum to one.", "quantifier": "all lists of non-negative saturations of any length", "why_tests_cant": "list length and values unbounded", "anchors": ["src/open_petro_elastic/material/fluid.py:sum_saturations_to_one"]}
{"id": "C17", "title": "Wood mixing stays between its fluids", "statement": "The mixed bulk modulus is the Reuss average and lies between the smallest and largest fluid modulus; the mixed density lies between the smallest and largest density; shear modulus is 0.", "quantifier": "any number (>=1) of fluids with positive moduli, any non-negative saturations with total >= 1e-15", "why_tests_cant": "number of fluids unbounded", "anchors": ["src/open_petro_elastic/material/fluid.py:wood_fluid_mixing"]}
{"id": "C18", "title": "Wood mixing ignores order and scale", "statement": "Permuting the (fluid, saturation) pairs or multiplying all saturations by a positive constant does not change the mixture.", "quantifier": "any number of fluids, any permutation, any positive scale (totals >= 1e-15)", "why_tests_cant": "all permutations of all lists", "anchors": ["src/open_petro_elastic/material/fluid.py:wood_fluid_mixing"]}
{"id": "C19", "title": "Brie mixing end points and range", "statement": "With liquid fraction 1 Brie mixing gives the liquid mix, with liquid fraction 0 the gas mix; for a liquid stiffer than the gas and exponent > 0 the bulk modulus lies between gas and liquid and grows with liquid fraction.", "quantifier": "all liquid/gas lists, saturations in [0,1], exponents > 0", "why_tests_cant": "the inputs form a continuum; a test samples a few points of it", "anchors": ["src/open_petro_elastic/material/fluid.py:brie_fluid_mixing"]}
{"id": "C20", "title": "Brie mixing argument errors", "statement": "brie_fluid_mixing raises ValueError on mismatched list lengths and on zero constituents; with no gases it equals Wood mixing of the liquids, with no liquids Wood mixing of the gases.", "quantifier": "all list lengths and contents", "why_tests_cant": "list lengths unbounded", "anchors": ["src/open_petro_elastic/material/fluid.py:brie_fluid_mixing"]}
{"id": "C21", "title": "Gassmann's equation holds", "statement": "The saturated bulk modulus solves Ksat/(Kmin-Ksat) = Kdry/(Kmin-Kdry) + Kfl/(phi (Kmin-Kfl)) and equals the classical closed form Kdry + (1-Kdry/Kmin)^2/(phi/Kfl+(1-phi)/Kmin-Kdry/Kmin^2).", "quantifier": "0 < phi, 0 <= Kdry < Kmin, 0 < Kfl < Kmin", "why_tests_cant": "the inputs form a continuum; a test samples a few points of it", "anchors": ["src/open_petro_elastic/material/fluid.py:fluid_substitution"]}
{"id": "C22", "title": "Saturation stiffens within bounds", "statement": "Kdry <= Ksat <= Kmin, and Ksat is non-decreasing in the fluid modulus and in the dry modulus.", "quantifier": "0 < phi, 0 <= Kdry < Kmin, 0 <= Kfl < Kmin", "why_tests_cant": "the inputs form a continuum; a test samples a few points of it", "anchors": ["src/open_petro_elastic/material/fluid.py:fluid_substitution"]}
{"id": "C23", "title": "Fluid substitution leaves shear alone and adds fluid mass", "statement": "The saturated shear modulus is the dry one, density is dry density + porosity * fluid density; at zero porosity the bulk modulus is the mineral's; an empty (K=0) fluid leaves the dry bulk modulus.", "quantifier": "all inputs on which the call succeeds", "why_tests_cant": "the inputs form a continuum; a test samples a few points of it", "anchors": ["src/open_petro_elastic/material/fluid.py:fluid_substitution"]}
{"id": "C24", "title": "Fluid substitution is reversible", "statement": "Two dry rocks that give the same saturated bulk modulus with the same mineral, fluid and porosity have the same bulk modulus; the dry modulus is recoverable from the saturated one by the inverse formula.", "quantifier": "0 < phi, 0 <= Kdry < Kmin, 0 <= Kfl < Kmin", "why_tests_cant": "the inputs form a continuum; a test samples a few points of it", "anchors": ["src/open_petro_elastic/material/fluid.py:fluid_substitution"]}
{"id": "C25", "title": "Unsuitable moduli are rejected", "statement": "fluid_substitution raises ValueError whenever the dry rock is stiffer than the mineral it is made of (0 < porosity).", "quantifier": "all moduli", "why_tests_cant": "the accepted set is a continuum region", "anchors": ["src/open_petro_elastic/material/fluid.py:fluid_substitution"]}
{"id": "C26", "title": "Hertz-Mindlin pressure law", "statement": "Grain moduli scale as pressure^(1/3), vanish at zero pressure, increase strictly with pressure, and their ratio does not depend on pressure.", "quantifier": "all positive minerals, porosity in [0,1), n > 0, pressure >= 0", "why_tests_cant": "the inputs form a continuum; a test samples a few points of it", "anchors": ["src/open_petro_elastic/material/sandstone/hertz_mindlin.py:hertz_mindlin"]}
{"id": "C27", "title": "Friable sand density and end points", "statement": "friable_sand has density mineral*(1-porosity); at porosity 0 it is the mineral, at critical porosity it is the Hertz-Mindlin grain pack; moduli lie between the two.", "quantifier": "all positive minerals, 0 <= porosity <= critical porosity < 1, pressure > 0", "why_tests_cant": "the inputs form a continuum; a test samples a few points of it", "anchors": ["src/open_petro_elastic/material/sandstone/friable_sand.py:friable_sand"]}
{"id": "C28", "title": "Cement radius ratio", "statement": "cement_radius_ratio is in [0,1], 0 iff no cement was added, non-increasing in the cemented porosity; it raises ValueError exactly on porosities outside [0,1] or a cemented porosity above the sand porosity.", "quantifier": "all porosities", "why_tests_cant": "the inputs form a continuum; a test samples a few points of it", "anchors": ["src/open_petro_elastic/material/sandstone/contact_cement.py:cement_radius_ratio"]}
{"id": "C29", "title": "Patchy cement lies between friable sand and the cemented upper bound", "statement": "Bulk and shear modulus of patchy_cement lie between those of the friable sand at the given pressure and those of the constant-cement upper bound; density is (1-phi-c)*sand + c*cement.", "quantifier": "all finite, physically meaningful inputs on which the call succeeds", "why_tests_cant": "the inputs form a continuum; a test samples a few points of it", "anchors": ["src/open_petro_elastic/material/sandstone/patchy_cement.py:patchy_cement"]}
{"id": "C30", "title": "Patchy cement grows with pressure", "statement": "Raising the pressure (all else equal) never lowers the bulk or shear modulus of patchy_cement or of friable_sand.", "quantifier": "all positive materials, admissible porosities, pressures p1 <= p2", "why_tests_cant": "two-point monotonicity through a chain of five models", "anchors": ["src/open_petro_elastic/material/sandstone/patchy_cement.py:patchy_cement", "src/open_petro_elastic/material/sandstone/friable_sand.py:friable_sand"]}
{"id": "C31", "title": "Murphy coordination number", "statement": "murphy_coordination_number is positive for every porosity and strictly decreasing on [0, 0.84].", "quantifier": "all real porosities", "why_tests_cant": "the inputs form a continuum; a test samples a few points of it", "anchors": ["src/open_petro_elastic/material/sandstone/murphy_coordination_number.py"]}
{"id": "C32", "title": "Constant cement end points", "statement": "At porosity 0 constant_cement is the dense packing of sand and cement, at the contact-cement porosity it is the contact-cemented sand.", "quantifier": "all inputs on which the parts are defined", "why_tests_cant": "the inputs form a continuum; a test samples a few points of it", "anchors": ["src/open_petro_elastic/material/sandstone/constant_cement.py:constant_cement"]}
{"id": "C33", "title": "One missing fraction is filled", "statement": "For a composite with at most one omitted fraction the omitted one becomes 1 - sum(others) and the fractions then sum to one; sums above 1+1e-5 or more than one omission raise ValueError; given fractions are not changed.", "quantifier": "any number of constituents, any fractions", "why_tests_cant": "number of constituents unbounded", "anchors": ["src/open_petro_elastic/config/constituent.py:fix_one_fraction"]}
{"id": "C34", "title": "Mineral mix density is the weighted average", "statement": "Minerals.as_mixture has density sum(fraction_i * density_i)/sum(fraction_i), for any number of minerals.", "quantifier": "any number of constituents with non-negative fractions, positive total", "why_tests_cant": "induction over the number of minerals; the test uses three", "anchors": ["src/open_petro_elastic/config/minerals.py:Minerals.as_mixture"]}
{"id": "C35", "title": "Mineral mix stays within its constituents", "statement": "Bulk and shear modulus of Minerals.as_mixture lie between the smallest and largest constituent modulus.", "quantifier": "any number of minerals", "why_tests_cant": "number of minerals unbounded", "anchors": ["src/open_petro_elastic/config/minerals.py:Minerals.as_mixture"]}
{"id": "C36", "title": "Mineral mix does not depend on the order", "statement": "Listing the minerals in another order gives the same mixture.", "quantifier": "all lists of minerals, all permutations", "why_tests_cant": "all permutations of all lists", "anchors": ["src/open_petro_elastic/config/minerals.py:Minerals.as_mixture"]}
{"id": "C37", "title": "Zero-fraction minerals do not matter", "statement": "A mineral with fraction 0 anywhere in the list does not change the mixture.", "quantifier": "any list, any position", "why_tests_cant": "positions and lengths unbounded", "anchors": ["src/open_petro_elastic/config/minerals.py:Minerals.as_mixture"]}
{"id": "C38", "title": "Mixing fluids has no side effects and no order dependence", "statement": "Fluids.as_mixture does not change the Pressure it is given, gives the same result when called again, and (wood) does not depend on the order of the constituents.", "quantifier": "all constituent lists, all histories of calls", "why_tests_cant": "all call histories and all orders", "anchors": ["src/open_petro_elastic/config/fluids.py:Fluids.as_mixture", "src/open_petro_elastic/config/fluid_model_providers.py:SpanWagnerFluidModelProvider.carbon_dioxide"]}
{"id": "C39", "title": "Fluid model selection", "statement": "A constituent's own fluid_model wins over the one of the fluids section; materials the selected provider does not support raise NotImplementedError; explicit materials are used as given.", "quantifier": "all constituent lists and provider choices", "why_tests_cant": "finite table lifted over lists", "anchors": ["src/open_petro_elastic/config/constituent.py:Constituent.as_material", "src/open_petro_elastic/config/fluid_model_providers.py"]}
{"id": "C40", "title": "Brie gas selection", "statement": "In Brie mode the constituents at the gas indices become the gases and all others the liquids, in unchanged relative pairing of material with fraction; nothing is lost or duplicated.", "quantifier": "all lists, all duplicate-free in-range index lists", "why_tests_cant": "lists and index sets unbounded", "anchors": ["src/open_petro_elastic/config/fluids.py:Fluids.as_mixture"]}
{"id": "C41", "title": "Effective pressures", "statement": "effective = overburden - pore pressure; truncated <= max_effective and truncated <= effective, equal to effective when max_effective is absent or not exceeded; an omitted rock pressure equals fluid pressure and vice versa; omitting both is rejected.", "quantifier": "all pressures, all column lengths", "why_tests_cant": "the inputs form a continuum; a test samples a few points of it", "anchors": ["src/open_petro_elastic/config/pressure.py:Pressure"]}
{"id": "C42", "title": "Pressure dependency is the identity at reference pressure", "statement": "When the rock pressure equals the reference pressure, a pressure_dependency adjustment returns the material unchanged.", "quantifier": "all models, coefficients, materials and pressures with nonzero reference fit", "why_tests_cant": "the inputs form a continuum; a test samples a few points of it", "anchors": ["src/open_petro_elastic/config/pressure_dependency.py", "src/open_petro_elastic/config/model.py:AbstractPressureDependencyModel.pressure_dependency", "src/open_petro_elastic/config/model.py:PowerfitModel"]}
{"id": "C43", "title": "Adjustments compose in list order", "statement": "Adjustments are applied left to right: none is the identity, and a list a++b equals applying a then b; the first failing adjustment's error is the result.", "quantifier": "all lists of adjustments", "why_tests_cant": "lists unbounded", "anchors": ["src/open_petro_elastic/config/dry_rock.py:DryRock.adjust_material"]}
{"id": "C44", "title": "Depth trend honours max_depth", "statement": "The depth used by a depth_trend is min(depth, max_depth) - reference_depth.", "quantifier": "all depths", "why_tests_cant": "the inputs form a continuum; a test samples a few points of it", "anchors": ["src/open_petro_elastic/config/depth_trend.py:DepthTrend.effective_depth"]}
{"id": "C45", "title": "2-d polynomial fit", "statement": "polyval_material evaluates sum_ij c[i][j] property^i value^j per row; the identity coefficients [[0,0],[1,0]] leave the material unchanged for every value; an invalid result raises ValueError.", "quantifier": "all coefficient matrices of any size, all values", "why_tests_cant": "matrix sizes unbounded", "anchors": ["src/open_petro_elastic/material/material.py:polyval_material"]}
{"id": "C46", "title": "Porosity validation", "statement": "DryRock accepts exactly porosities below critical porosity minus 1e-5 (and, for patchy cement, not above critical minus upper-bound cement fraction plus 1e-5); every accepted porosity can be evaluated by the chosen sandstone model.", "quantifier": "all porosities and model parameters", "why_tests_cant": "the inputs form a continuum; a test samples a few points of it", "anchors": ["src/open_petro_elastic/config/dry_rock.py:DryRock", "src/open_petro_elastic/config/model.py"]}
{"id": "C47", "title": "Type tag decides which section is parsed", "statement": "A material/model section (a mapping) with a type tag is parsed as that type or rejected, never as another type, independently of declaration order; sections without tag resolve to the first alternative whose required keys are present and has no unknown key.", "quantifier": "all sets of keys", "why_tests_cant": "all subsets of an unbounded key universe", "anchors": ["src/open_petro_elastic/config/material_type.py:MaterialType", "src/open_petro_elastic/config/model.py:SandstoneModel", "src/open_petro_elastic/config/pydantic_config.py"]}
{"id": "C48", "title": "Coefficients are either moduli or velocities", "statement": "Coefficient sections naming any velocity resolve to velocity coefficients, mixing moduli and velocities is rejected, coefficients written as a list are those of density, bulk modulus and shear modulus, and after building a polyfit DryRock no coefficient is missing while given ones are kept.", "quantifier": "all coefficient sections", "why_tests_cant": "all subsets of keys and all values", "anchors": ["src/open_petro_elastic/config/coefficients.py", "src/open_petro_elastic/config/dry_rock.py:DryRock.__post_init_post_parse__"]}
{"id": "C49", "title": "CSV columns are inserted everywhere and only there", "statement": "insert_from_dataframe replaces exactly the dictionaries whose only key is 'column' by that column, at any depth, keeps everything else (keys, order, lengths), leaves no reference behind, is idempotent, and fails with ColumnInsertionError iff a referenced column is missing.", "quantifier": "all nested configs of any depth, all tables", "why_tests_cant": "depth and breadth unbounded", "anchors": ["src/open_petro_elastic/config/input.py:insert_from_dataframe"]}
{"id": "C50", "title": "Column references need data", "statement": "Without a data file an input is rejected iff it contains a column reference at any depth.", "quantifier": "all nested configs", "why_tests_cant": "depth unbounded", "anchors": ["src/open_petro_elastic/config/input.py:Input.check_no_column_reference"]}
{"id": "C51", "title": "Exit codes", "statement": "Without success_threshold, run returns 0 iff reading, calculation, writing and (if requested) calibration all succeeded, -2 iff the input was bad, -3 iff the calculation raised ValueError, -4 iff calibration failed, -1 on any other error; no exception escapes.", "quantifier": "all outcomes of the four stages", "why_tests_cant": "all combinations of stage outcomes", "anchors": ["src/open_petro_elastic/__main__.py:run"]}
{"id": "C52", "title": "Threshold mode keeps exactly the successful rows", "statement": "With success_threshold the output consists of the results of the rows that succeed alone, in input order, each exactly once; exit code 0 requires successes/rows*100 >= threshold, otherwise -5 and nothing is written.", "quantifier": "all row lists, all patterns of failures, all thresholds", "why_tests_cant": "2^n failure patterns for every n", "anchors": ["src/open_petro_elastic/__main__.py:run_with_threshold", "src/open_petro_elastic/__main__.py:make_per_row_input"]}
{"id": "C53", "title": "Threshold mode equals normal mode when every row succeeds", "statement": "If every row succeeds, both modes write the same table.", "quantifier": "all row lists", "why_tests_cant": "all lengths and contents", "anchors": ["src/open_petro_elastic/__main__.py:run_with_threshold", "src/open_petro_elastic/__main__.py:calculate_results"]}
{"id": "C54", "title": "Threshold mode reports bad input", "statement": "With success_threshold a malformed config or data file yields exit code -2 like without it.", "quantifier": "all malformed inputs", "why_tests_cant": "all inputs", "anchors": ["src/open_petro_elastic/__main__.py:run_with_threshold"]}
{"id": "C55", "title": "Failed rows appear as NaN rows", "statement": "As the help text says, unsuccessful rows are given as NaN, so output row count equals input row count.", "quantifier": "all failure patterns with reached threshold", "why_tests_cant": "all patterns", "anchors": ["src/open_petro_elastic/__main__.py:make_parser", "src/open_petro_elastic/__main__.py:run_with_threshold"]}
{"id": "C56", "title": "Threshold argument", "statement": "--success_threshold accepts exactly the numbers in [0,100]; NaN, infinities and non-numbers are rejected.", "quantifier": "all argument strings / floats", "why_tests_cant": "infinite domain", "anchors": ["src/open_petro_elastic/__main__.py:percentage"]}
{"id": "C57", "title": "Output is written only for a complete result", "statement": "The result table is written exactly once, after the calculation of all rows succeeded, and never on exit codes -2, -3 and -5.", "quantifier": "all stage outcomes in both modes", "why_tests_cant": "all combinations", "anchors": ["src/open_petro_elastic/__main__.py:run", "src/open_petro_elastic/__main__.py:run_with_threshold"]}
{"id": "C58", "title": "Calibration error", "statement": "calibration prints (calculated-calibrated)/calibrated statistics for kmin, kdry, ksat, kmin_fls in that order; it is zero iff the columns agree; a missing column gives exit -4 after the output was written.", "quantifier": "all tables", "why_tests_cant": "all tables", "anchors": ["src/open_petro_elastic/__main__.py:run_calibration", "src/open_petro_elastic/__main__.py:calibration_error"]}
{"id": "C59", "title": "Oil blends dead and live oil", "statement": "oil equals dead oil at gas-oil ratio 0, live oil at ratio >= 1, and for ratios between a convex combination of their densities and velocities, continuously.", "quantifier": "all ratios and conditions", "why_tests_cant": "the inputs form a continuum; a test samples a few points of it", "anchors": ["src/open_petro_elastic/material/batzle_wang/oil_properties.py:oil"]}
{"id": "C60", "title": "Gas compressibility derivative", "statement": "compressability_rate_per_pseudoreduced_pressure is the derivative of compressability_factor with respect to pseudo-reduced pressure.", "quantifier": "all temperatures, gravities and positive pressures", "why_tests_cant": "a derivative identity holds on a continuum", "anchors": ["src/open_petro_elastic/material/batzle_wang/hydro_carbon_gas.py"]}
{"id": "C61", "title": "Gas units are consistent", "statement": "gas(T,P,G) density is the ideal gas density P M/(R T) divided by the compressibility, in kg/m3 for P in Pa and T in Celsius.", "quantifier": "all T, P, G > 0", "why_tests_cant": "the inputs form a continuum; a test samples a few points of it", "anchors": ["src/open_petro_elastic/material/batzle_wang/hydro_carbon_gas.py", "src/open_petro_elastic/material/batzle_wang/ideal_gas.py"]}
{"id": "C62", "title": "Fresh brine is water", "statement": "brine with salinity 0 is water: same velocity and same density at the same conditions.", "quantifier": "all temperatures and pressures", "why_tests_cant": "the inputs form a continuum; a test samples a few points of it", "anchors": ["src/open_petro_elastic/material/batzle_wang/brine_properties.py", "src/open_petro_elastic/material/batzle_wang/water_properties.py"]}
{"id": "C63", "title": "Bubble point trends", "statement": "oil_bubble_point is 0 without gas, increases with gas-oil ratio and temperature, decreases with gas gravity and increases with oil density.", "quantifier": "all positive arguments", "why_tests_cant": "the inputs form a continuum; a test samples a few points of it", "anchors": ["src/open_petro_elastic/material/batzle_wang/oil_properties.py:oil_bubble_point"]}
{"id": "C64", "title": "Dead oil trends", "statement": "Dead oil density decreases with temperature (above -17.78 C) and increases with pressure up to 73 MPa.", "quantifier": "all reference densities > 0", "why_tests_cant": "the inputs form a continuum; a test samples a few points of it", "anchors": ["src/open_petro_elastic/material/batzle_wang/oil_properties.py:dead_oil_density"]}
{"id": "C65", "title": "Fluids do not carry shear", "statement": "Every fluid function (brine, water, gas, oil, CO2, Wood, Brie) returns shear modulus 0 and shear velocity 0 (density nonzero).", "quantifier": "all arguments on which it returns", "why_tests_cant": "the inputs form a continuum; a test samples a few points of it", "anchors": ["src/open_petro_elastic/material/fluid.py:fluid_material", "src/open_petro_elastic/material/batzle_wang", "src/open_petro_elastic/material/span_wagner"]}
{"id": "C66", "title": "Ideal-gas Helmholtz derivatives", "statement": "The hand-written tau/delta derivatives of ideal_gas_helmholtz_energy are the derivatives of its (0,0) value; unsupported orders raise NotImplementedError.", "quantifier": "all delta, tau > 0", "why_tests_cant": "the inputs form a continuum; a test samples a few points of it", "anchors": ["src/open_petro_elastic/material/span_wagner/carbon_dioxide.py:ideal_gas_helmholtz_energy"]}
{"id": "C67", "title": "CO2 pressure derivative", "statement": "carbon_dioxide_pressure(d_density=1) is the density derivative of carbon_dioxide_pressure, and pressure is rho^2 times the density derivative of the Helmholtz energy.", "quantifier": "all T, rho > 0 and every twice differentiable residual term", "why_tests_cant": "the inputs form a continuum; a test samples a few points of it", "anchors": ["src/open_petro_elastic/material/span_wagner/carbon_dioxide.py:carbon_dioxide_pressure"]}
{"id": "C68", "title": "Phase curves meet", "statement": "Melting and sublimation pressure meet at the triple point, vapour pressure ends at the critical pressure, saturated liquid and vapour densities meet at the critical density, vapour <= critical <= liquid below.", "quantifier": "all temperatures in range", "why_tests_cant": "the inputs form a continuum; a test samples a few points of it", "anchors": ["src/open_petro_elastic/material/span_wagner/carbon_dioxide.py"]}
{"id": "C69", "title": "CO2 density bracket", "statement": "The density bracket used to solve for CO2 density lies on the phase side chosen (vapour <= saturated vapour, liquid >= saturated liquid, supercritical unrestricted) and is a proper interval for every temperature above the triple point.", "quantifier": "all temperatures, pressures, force_vapor choices", "why_tests_cant": "the inputs form a continuum; a test samples a few points of it", "anchors": ["src/open_petro_elastic/material/span_wagner/carbon_dioxide.py:_determine_density_bounds"]}
{"id": "C70", "title": "Tabulated CO2 density", "statement": "Interpolated density at a grid node is the tabulated value, off-node the value of a nearest node, NaN outside the table; a given density takes precedence over pressure.", "quantifier": "all grids, tables and query points", "why_tests_cant": "all grids and points", "anchors": ["src/open_petro_elastic/material/span_wagner/tables/lookup_table.py", "src/open_petro_elastic/material/span_wagner/carbon_dioxide.py:carbon_dioxide"]}
{"id": "C71", "title": "Isentropic CO2 modulus", "statement": "The isentropic bulk modulus is at least the isothermal one wherever the second tau-derivative of the Helmholtz energy is negative, and the speed-of-sound formula of Table 3 is what is computed.", "quantifier": "all T, rho > 0", "why_tests_cant": "the inputs form a continuum; a test samples a few points of it", "anchors": ["src/open_petro_elastic/material/span_wagner/carbon_dioxide.py:carbon_dioxide_bulk_modulus"]}
{"id": "C72", "title": "CO2 energy functions do not modify their inputs", "statement": "Evaluating the CO2 Helmholtz energy leaves the caller's arrays unchanged.", "quantifier": "all arrays", "why_tests_cant": "aliasing bug visible only at exact value 1.0", "anchors": ["src/open_petro_elastic/material/span_wagner/carbon_dioxide.py:co2_residual_helmholtz_energy"]}
{"id": "C73", "title": "One value is used for all rows", "statement": "Giving a single value where other inputs are columns is the same as giving a column of that value, for every parameter.", "quantifier": "all parameters, all column lengths", "why_tests_cant": "each subset of scalar/column parameters is a separate case", "anchors": ["src/open_petro_elastic/material/sandstone/patchy_cement.py", "src/open_petro_elastic/config/model.py:PatchyCementModel.eval"]}
{"id": "C74", "title": "Contact cement is defined on its textbook domain", "statement": "contact_cement never raises and returns positive moduli and density for a sand with non-negative Poisson ratio and a cement whose shear modulus is at least 0.04*pi of the sand's, porosities 0 <= cemented <= sand < 1.", "quantifier": "all such materials and porosities, coordination number > 0, shear reduction >= 0", "why_tests_cant": "the stiffness polynomials have negative coefficients; their sign on a continuum is not testable", "anchors": ["src/open_petro_elastic/material/sandstone/contact_cement.py:contact_cement"]}
{"id": "C75", "title": "Patchy cement is defined on its textbook domain", "statement": "patchy_cement never raises and returns positive moduli and density when porosity <= contact-cement and upper-bound porosity <= critical porosity < 1, pressures > 0 and the materials are as in the contact-cement property.", "quantifier": "all such materials, porosities, pressures", "why_tests_cant": "six nested models, a continuum of inputs", "anchors": ["src/open_petro_elastic/material/sandstone/patchy_cement.py:patchy_cement"]}
{"id": "C76", "title": "Accepted mineral sections", "statement": "A mineral section that is accepted has at least one mineral, keeps the materials and the given fractions in input order (an omitted one is filled in at its place), and its fractions are numbers between -1e-5 and 1+1e-5 whose sum is within 2e-5 of one in every row.", "quantifier": "all mineral lists", "why_tests_cant": "any number of constituents", "anchors": ["src/open_petro_elastic/config/minerals.py:Minerals", "src/open_petro_elastic/config/constituent.py:fix_one_fraction"]}
{"id": "C77", "title": "Ideal gas units", "statement": "ideal_gas(T [K], P [Pa], G) has density P M/(R T) in kg/m3 and velocity sqrt(R T/M) in m/s, with M = 28.8 G g/mol, as its documentation says.", "quantifier": "all T, P, G > 0", "why_tests_cant": "the inputs form a continuum; a test samples a few points of it", "anchors": ["src/open_petro_elastic/material/batzle_wang/ideal_gas.py:ideal_gas"]}
{"id": "C78", "title": "Dead oil is defined on its usual range", "statement": "dead_oil never raises and returns positive density, bulk modulus and velocity for temperatures 0..300 C, pressures 0..100 MPa and reference densities 700..1000 kg/m3.", "quantifier": "all temperatures, pressures and reference densities in the range", "why_tests_cant": "negative velocity or division by zero could hide anywhere in a three-dimensional box", "anchors": ["src/open_petro_elastic/material/batzle_wang/oil_properties.py:dead_oil"]}
{"id": "C79", "title": "Oil is defined on its usual range", "statement": "oil never raises and returns positive density, bulk modulus and velocity for temperatures 0..150 C, pressures 0..100 MPa, reference densities 700..1000 kg/m3, gas-oil ratios 0..400 and gas gravities 0..1.", "quantifier": "all five arguments in the range", "why_tests_cant": "a five-dimensional box", "anchors": ["src/open_petro_elastic/material/batzle_wang/oil_properties.py:oil"]}
{"id": "C80", "title": "Water and brine are defined on their usual range", "statement": "water and brine never raise and return positive density and velocity for temperatures 0..350 C, pressures 0..100 MPa and salinities 0..300000 ppm; adding salt never makes the density lower than that of water.", "quantifier": "all temperatures, pressures and salinities in the range", "why_tests_cant": "the velocity polynomials have 20+ terms of both signs on a three-dimensional box", "anchors": ["src/open_petro_elastic/material/batzle_wang/brine_properties.py:brine", "src/open_petro_elastic/material/batzle_wang/water_properties.py:water"]}
{"id": "C81", "title": "Pressure adjustments chain", "statement": "For ratio models with moduli coefficients, adjusting a dry rock from reference pressure a to b and then from b to q is the same as adjusting it from a to q.", "quantifier": "all models, coefficients, pressures and materials with finite nonzero fits", "why_tests_cant": "a functional equation over a continuum of pressures", "anchors": ["src/open_petro_elastic/config/model.py:AbstractPressureDependencyModel.pressure_dependency"]}
{"id": "C82", "title": "Friable and patchy pressure dependency", "statement": "A friable_sand or patchy_cement pressure dependency never changes density, and raising the effective pressure above the reference never lowers bulk or shear modulus.", "quantifier": "all positive minerals and cements, porosities from 0 to the critical porosity and pressures at which the model itself exceeds 1e-20 at the reference", "why_tests_cant": "the inputs form a continuum; a test samples a few points of it", "anchors": ["src/open_petro_elastic/config/model.py:FriableSandModel", "src/open_petro_elastic/config/model.py:PatchyCementModel", "src/open_petro_elastic/config/pressure_dependency.py:PressureDependency.adjust_material"]}
{"id": "C83", "title": "Threshold is compared exactly", "statement": "A run in which exactly the threshold percentage of the rows succeed is accepted: the success percentage, as computed in double precision, is never below the threshold when successes*100/rows is not.", "quantifier": "all numbers of rows, failures and thresholds", "why_tests_cant": "rounding errors show up only for particular pairs of row and failure counts", "anchors": ["src/open_petro_elastic/__main__.py:run_with_threshold"]}
{"id": "C84", "title": "A complete friable-sand calculation succeeds", "statement": "With positive minerals whose fractions sum to one, friable sand between porosity 0 and critical porosity, rock pressure below overburden and explicit fluids softer than the minerals (Wood mixing), and a grain pack softer than the mineral, the calculation raises no error; every number in the table is finite, 0 <= kdry <= ksat <= kmin = kmin_fls, mysat > 0, and rsat is the porosity-weighted average of mineral and fluid densities.", "quantifier": "all numbers of minerals, fluids and rows, all such values", "why_tests_cant": "the run chains six models; each intermediate must stay in the next one's domain for every input", "anchors": ["src/open_petro_elastic/__main__.py:calculate_results"]}
{"id": "C85", "title": "Given values are used, omitted ones take the documented defaults", "statement": "Every value written in an accepted configuration is the one used under that key, and every omitted key gets its documented default (a section written as a list gives the values of its first keys); an empty configuration is accepted and is the documented default configuration.", "quantifier": "all configuration trees", "why_tests_cant": "all combinations of given and omitted keys in all sections", "anchors": ["src/open_petro_elastic/config/fluids.py:Fluids", "src/open_petro_elastic/config/dry_rock.py:DryRock", "src/open_petro_elastic/config/pressure.py:Pressure", "src/open_petro_elastic/config/minerals.py:Minerals", "src/open_petro_elastic/config/model.py", "src/open_petro_elastic/config/material_type.py"]}
{"id": "C86", "title": "Unknown keys are rejected", "statement": "A configuration with an unknown key at the top level or in any section, constituent, material, model or adjustment is rejected: a misspelled parameter is never silently ignored.", "quantifier": "all configuration trees", "why_tests_cant": "all keys at all places of trees of any size", "anchors": ["src/open_petro_elastic/config/pydantic_config.py", "src/open_petro_elastic/config/input.py:Input"]}
{"id": "C87", "title": "Results row by row from the files", "statement": "For every configuration whose global parameters (brie_constant, brie_gases, coefficients) do not refer to columns and whose per-row parameters and sections are not written as lists, reading and calculating a data file with n rows succeeds iff it does for every row alone, and row i of the result is the result of row i alone.", "quantifier": "all configurations of any depth, all data files", "why_tests_cant": "all nestings of column references and all file lengths", "anchors": ["src/open_petro_elastic/config/input.py:Input", "src/open_petro_elastic/__main__.py:make_input", "src/open_petro_elastic/__main__.py:calculate_results"]}
{"id": "C88", "title": "Both modes accept the same configurations", "statement": "A configuration and data file all of whose rows are accepted with success_threshold are accepted without it, and conversely.", "quantifier": "all configurations and data files", "why_tests_cant": "a parameter that must be a single number meets arrays of length one only in threshold mode", "anchors": ["src/open_petro_elastic/__main__.py:make_per_row_input", "src/open_petro_elastic/config/fluids.py:Fluids"]}
{"id": "C89", "title": "CO2 becomes an ideal gas when dilute", "statement": "At every temperature the ratio of carbon_dioxide_pressure to rho R T tends to 1 as the density goes to 0.", "quantifier": "all temperatures > 0, all sufficiently small densities", "why_tests_cant": "a limit cannot be tested", "anchors": ["src/open_petro_elastic/material/span_wagner/carbon_dioxide.py:carbon_dioxide_pressure"]}
{"id": "C90", "title": "Array densities are certified", "statement": "Every element of a result of array_carbon_dioxide_density is either the density carbon_dioxide_density gives for that row, or lies in the bracket of the row and has a pressure within 1e-5 MPa of the given one.", "quantifier": "all arrays, all behaviours of Newton's method", "why_tests_cant": "Newton's method may return anything for some inputs", "anchors": ["src/open_petro_elastic/material/span_wagner/carbon_dioxide.py:array_carbon_dioxide_density"]}
{"id": "C91", "title": "Array densities in the documented range", "statement": "array_carbon_dioxide_density accepts all temperatures 216-1100 K and pressures 0-800 MPa.", "quantifier": "all temperatures and pressures in the documented range", "why_tests_cant": "the limit depends on the relation between two inputs", "anchors": ["src/open_petro_elastic/material/span_wagner/carbon_dioxide.py:_find_initial_density_values"]}
{"id": "C92", "title": "Helmholtz energy of several densities at one temperature", "statement": "co2_helmholtz_energy with an array of densities and a single temperature gives for every density the value it has alone.", "quantifier": "all arrays, temperatures, orders", "why_tests_cant": "only a mix of scalar and array shows it", "anchors": ["src/open_petro_elastic/material/span_wagner/carbon_dioxide.py:ideal_gas_helmholtz_energy", "src/open_petro_elastic/material/span_wagner/carbon_dioxide.py:co2_helmholtz_energy"]}
{"id": "C93", "title": "Water and brine follow Batzle and Wang", "statement": "water and brine give the density and velocity of the published Batzle-Wang (1992) equations 27-29, with brine taking Pa and ppm.", "quantifier": "all temperatures, pressures and salinities >= 0 on which they return", "why_tests_cant": "the inputs form a continuum; a test samples a few points of it", "anchors": ["src/open_petro_elastic/material/batzle_wang/brine_properties.py", "src/open_petro_elastic/material/batzle_wang/water_properties.py"]}
{"id": "C94", "title": "Oil follows Batzle and Wang", "statement": "Dead, live and blended oil have the density and velocity of the published equations 18-24, bubble point of equation 21.", "quantifier": "all temperatures above -17.78 C, reference densities up to 1049 kg/m3, gas-oil ratios and gravities", "why_tests_cant": "the inputs form a continuum; a test samples a few points of it", "anchors": ["src/open_petro_elastic/material/batzle_wang/oil_properties.py"]}
{"id": "C95", "title": "Gas follows Batzle and Wang", "statement": "gas never raises on its usual range and has the density and adiabatic bulk modulus of the published equations 9-11, the derivative of the compressibility being the true partial derivative.", "quantifier": "temperatures 0..300 C, pressures > 0, gravities 0.29..1.4", "why_tests_cant": "the inputs form a continuum; a test samples a few points of it", "anchors": ["src/open_petro_elastic/material/batzle_wang/hydro_carbon_gas.py"]}
{"id": "C96", "title": "Hashin-Shtrikman bounds follow the handbook", "statement": "hashin_shtrikman_walpole returns the published lower and upper bound, the first material having the given fraction; hashin_shtrikman_bound uses the first material as comparison.", "quantifier": "all positive materials and fractions in [0,1]", "why_tests_cant": "the inputs form a continuum; a test samples a few points of it", "anchors": ["src/open_petro_elastic/material/hashin_shtrikman.py"]}
{"id": "C97", "title": "Friable sand follows the handbook", "statement": "hertz_mindlin and friable_sand return the published Hertz-Mindlin moduli and the published modified lower bound between mineral and grain pack.", "quantifier": "all positive minerals, porosities up to critical, pressures", "why_tests_cant": "the inputs form a continuum; a test samples a few points of it", "anchors": ["src/open_petro_elastic/material/sandstone/friable_sand.py", "src/open_petro_elastic/material/sandstone/hertz_mindlin.py"]}
{"id": "C98", "title": "Cemented sand follows the handbook", "statement": "contact_cement and constant_cement return the published Dvorkin-Nur cemented sand and the published bound between it and the mineral.", "quantifier": "all grains and cements on the textbook domain", "why_tests_cant": "the inputs form a continuum; a test samples a few points of it", "anchors": ["src/open_petro_elastic/material/sandstone/contact_cement.py", "src/open_petro_elastic/material/sandstone/constant_cement.py"]}
{"id": "C99", "title": "Patchy cement follows its publication", "statement": "patchy_cement returns the interpolation between friable sand and constant cement weighted by the position of the contact cement line, with density from cement and sand volumes.", "quantifier": "all sands, cements, porosities and pressures on the textbook domain", "why_tests_cant": "the inputs form a continuum; a test samples a few points of it", "anchors": ["src/open_petro_elastic/material/sandstone/patchy_cement.py"]}
{"id": "C100", "title": "Mineral mixtures follow the published rule", "statement": "The mixture of a minerals section is built by adding the minerals in input order, each by the published lower Hashin-Shtrikman-Walpole bound weighted by its share of the total so far, with the volume-weighted density.", "quantifier": "any number of positive minerals with fractions of total at most 1", "why_tests_cant": "the inputs form a continuum; a test samples a few points of it", "anchors": ["src/open_petro_elastic/config/minerals.py:Minerals.as_mixture"]}
{"id": "C101", "title": "Pressure-trend adjustments follow their formulas", "statement": "A polyfit, expfit or logfit pressure dependency multiplies density and the two moduli (or velocities) by the ratio of the documented trend at rock and reference effective pressure, and is rejected iff a trend at the reference is within 1e-20 of zero; powerfit adds the difference of the trends to bulk modulus, velocity ratio and density.", "quantifier": "all coefficients, pressures and finite materials", "why_tests_cant": "the inputs form a continuum; a test samples a few points of it", "anchors": ["src/open_petro_elastic/config/model.py:PolyfitModel", "src/open_petro_elastic/config/model.py:ExpfitModel", "src/open_petro_elastic/config/model.py:LogfitModel", "src/open_petro_elastic/config/model.py:PowerfitModel", "src/open_petro_elastic/config/pressure_dependency.py:PressureDependency"]}
{"id": "C102", "title": "Dry rock sections follow their formulas", "statement": "A friable_sand, patchy_cement or polyfit dry rock section evaluates to the published friable sand, the published patchy cement, or the porosity polynomial of its coefficients, at the section's porosity and truncated effective pressure, coordination numbers defaulting to Murphy's formula.", "quantifier": "all sections on the textbook domain", "why_tests_cant": "the inputs form a continuum; a test samples a few points of it", "anchors": ["src/open_petro_elastic/config/model.py:FriableSandModel", "src/open_petro_elastic/config/model.py:PatchyCementModel", "src/open_petro_elastic/config/model.py:PolyfitModel", "src/open_petro_elastic/config/dry_rock.py:DryRock"]}
{"id": "C103", "title": "Constituent fluids follow Batzle and Wang", "statement": "Brine, oil and gas constituents evaluate to the published fluids at the section temperature (C) and fluid pressure (Pa) with their own parameters; an explicit material is itself; carbon dioxide with the span_wagner provider is evaluated at absolute temperature and pressure in MPa.", "quantifier": "all parameters, temperatures and pressures on the usual ranges", "why_tests_cant": "the inputs form a continuum; a test samples a few points of it", "anchors": ["src/open_petro_elastic/config/fluids.py", "src/open_petro_elastic/config/fluid_model_providers.py"]}
{"id": "C104", "title": "Fluid mixing and substitution follow the handbook", "statement": "Wood's law of any number of fluids, Brie's law of any number of liquids and gases (also in rows without gas or without liquid) and Gassmann's substitution return the published formulas.", "quantifier": "any numbers of fluids, all saturations and positive fluids", "why_tests_cant": "the inputs form a continuum; a test samples a few points of it", "anchors": ["src/open_petro_elastic/material/fluid.py:wood_fluid_mixing", "src/open_petro_elastic/material/fluid.py:brie_fluid_mixing", "src/open_petro_elastic/material/fluid.py:fluid_substitution"]}
{"id": "C105", "title": "The whole calculation follows the published formulas", "statement": "For any number of minerals, pore fluids of any mix of explicit materials, brine, oil and gas, Wood or Brie mixing (given or default gases), a friable-sand, patchy-cement or polynomial dry rock and any list of moduli-trend pressure dependencies, the result table is exactly the published one: mixed mineral, dry rock at effective rock pressure scaled by the trends, fluids at temperature and fluid pressure, Gassmann with the dense packing.", "quantifier": "all tables, all numbers of constituents and adjustments, all values on the textbook domain", "why_tests_cant": "the run chains six models with many wirings (rock/fluid pressure, mineral/dense packing, dry/saturated); each wiring must be right for every input", "anchors": ["src/open_petro_elastic/__main__.py:calculate_results", "src/open_petro_elastic/config/input.py:Input"]}
{"id": "C106", "title": "The empty configuration", "statement": "An empty configuration, with or without data file, is calculated without error, and its table is the published one of the documented defaults (two minerals, oil, brine and gas, polynomial dry rock).", "quantifier": "all data files and row counts", "why_tests_cant": "must hold for every data file", "anchors": ["src/open_petro_elastic/__main__.py:make_input", "src/open_petro_elastic/__main__.py:calculate_results"]}
{"id": "C107", "title": "Which fractions are accepted", "statement": "A fluids (minerals) section with numeric fractions is accepted iff it has at least one constituent, every given fraction is between 0 and 1 and their total at most 1 (tolerance 1e-5), at most one fraction is omitted and, for minerals with nothing omitted, the total is 1 within 2e-5; otherwise ValueError. In an accepted section the constituents keep their order and given fractions, and the omitted one is 1 minus the total.", "quantifier": "all numbers of constituents and rows, all fractions", "why_tests_cant": "any number of constituents with any mix of given and omitted fractions", "anchors": ["src/open_petro_elastic/config/constituent.py:fix_one_fraction", "src/open_petro_elastic/config/constituent.py:Constituent", "src/open_petro_elastic/config/fluids.py:Fluids", "src/open_petro_elastic/config/minerals.py:Minerals"]}
{"id": "C108", "title": "Carbon dioxide follows Span & Wagner (1996)", "statement": "The reduced Helmholtz energy and its derivatives up to order two, the pressure, the isentropic bulk modulus (density times squared speed of sound), the saturation densities and the vapour, sublimation and melting pressures of the carbon dioxide model are those published by Span & Wagner (1996), with the published constants and all 42 residual terms; a calculated density reproduces the given pressure and is on the right side of the vapour pressure curve.", "quantifier": "all positive temperatures and densities (densities: from the triple point temperature on)", "why_tests_cant": "the inputs form a continuum; a test samples a few points of it", "anchors": ["src/open_petro_elastic/material/span_wagner/carbon_dioxide.py:carbon_dioxide_pressure", "src/open_petro_elastic/material/span_wagner/equations.py:residual_helmholtz_energy", "src/open_petro_elastic/material/span_wagner/coefficients.py"]}
{"id": "C109", "title": "All dry rocks and adjustments follow their formulas", "statement": "For minerals given by moduli or by velocities, any pore fluids, every kind of dry rock (friable sand, patchy cement, polynomials of moduli or of velocities) and any list of pressure dependencies (polyfit, expfit, logfit by moduli or velocities, powerfit, friable sand, patchy cement) and depth trends (moduli or velocities), the result table is: mineral mixture; dry rock at porosity and effective rock pressure; the adjustments by their formulas in the order of the list; Gassmann's substitution with the mixed fluid and the dense packing.", "quantifier": "all numbers of rows, minerals, fluids and adjustments, all parameters for which every adjusted rock has positive moduli and density", "why_tests_cant": "all combinations and orders of adjustments on a continuum of parameters", "anchors": ["src/open_petro_elastic/config/dry_rock.py:DryRock.material", "src/open_petro_elastic/config/pressure_dependency.py", "src/open_petro_elastic/config/depth_trend.py", "src/open_petro_elastic/config/model.py", "src/open_petro_elastic/__main__.py:calculate_results"]}
{"id": "C110", "title": "Omitted fractions", "statement": "Omitting the fraction of one mineral and of one fluid gives exactly the result (table or error) of writing down the fraction that the others leave.", "quantifier": "all configurations with at most one omission per list, all rows", "why_tests_cant": "any number of constituents and rows, including those that fail", "anchors": ["src/open_petro_elastic/config/constituent.py:fix_one_fraction", "src/open_petro_elastic/config/minerals.py:Minerals", "src/open_petro_elastic/config/fluids.py:Fluids"]}
{"id": "C111", "title": "Carbon dioxide in the calculation", "statement": "With carbon dioxide among the pore fluids (no pressure-dependent fluid after it) the table is the published one with carbon dioxide of a density that reproduces the fluid pressure by Span & Wagner's equation at the section's temperature, on the right side of the vapour pressure curve, and of bulk modulus density times squared published speed of sound.", "quantifier": "all numbers of rows and constituents, all temperatures from the triple point on except the critical one, all dry rocks and adjustments", "why_tests_cant": "the inputs form a continuum; a test samples a few points of it", "anchors": ["src/open_petro_elastic/config/fluid_model_providers.py:SpanWagner.carbon_dioxide", "src/open_petro_elastic/material/span_wagner/carbon_dioxide.py:carbon_dioxide", "src/open_petro_elastic/__main__.py:calculate_results"]}
{"id": "C112", "title": "The shipped examples", "statement": "Read from its file and calculated, each shipped example configuration (friable sand, patchy cement, examples 1, 2 and 3) gives without error the table of the published formulas with the numbers written in the file, whatever the data (columns in the documented physical ranges); in particular no Gassmann or porosity check fails.", "quantifier": "all data files with the columns in range, all numbers of rows", "why_tests_cant": "the numbers of every row go through nonlinear models whose validity conditions must hold for each of them", "anchors": ["examples/", "src/open_petro_elastic/config/input.py:Input", "src/open_petro_elastic/__main__.py:calculate_results"]}
{"id": "C113", "title": "The documented configurations are accepted", "statement": "The configurations README.md links to, the packaged tutorial and the configuration blocks of the documentation (each completed by the defaults) are read and calculated without error.", "quantifier": "all documented configurations, all data files", "why_tests_cant": "must hold for every data file the configuration is used with", "anchors": ["README.md", "tutorial_config/", "docs/getting_started_with_the_config_file_format.md", "docs/adjusting_with_depth_and_pressure.md", "src/open_petro_elastic/tutorial_config", "src/open_petro_elastic/config/input.py:Input"]}
{"id": "C114", "title": "A configuration is read as what it says", "statement": "Reading a configuration file that follows the documented format gives exactly the materials, fractions, models, coefficients, adjustments, pressures and options written in it, with the documented default for everything left out, column references replaced by the values of the data rows, whatever the order of the keys, with or without a data file.", "quantifier": "all documents that follow the documented format, all data files, all numbers of rows", "why_tests_cant": "the documents are an infinite family and the Union types are resolved by trial and error", "anchors": ["src/open_petro_elastic/config/input.py:Input", "src/open_petro_elastic/config/material_type.py", "src/open_petro_elastic/config/constituent.py", "src/open_petro_elastic/config/fluids.py", "src/open_petro_elastic/config/dry_rock.py", "src/open_petro_elastic/config/model.py", "src/open_petro_elastic/config/coefficients.py", "src/open_petro_elastic/config/pressure.py", "src/open_petro_elastic/config/depth_trend.py", "src/open_petro_elastic/config/pressure_dependency.py"]}
{"id": "C115", "title": "An accepted configuration has only documented keys and names", "statement": "If a configuration file is accepted then at every level of it there are only documented keys and all required ones (where a section is a list: at most as many entries as the section has keys, each fit for its key), types, fluid models, mixing methods and adjustments have documented names, and every parameter is a number, a list of numbers or a reference to a numeric column present in every row.", "quantifier": "all documents, all data files", "why_tests_cant": "a misspelling may occur anywhere in a document of any size", "anchors": ["src/open_petro_elastic/config/input.py:Input", "src/open_petro_elastic/config/pydantic_config.py", "src/open_petro_elastic/config/model.py", "src/open_petro_elastic/config/fluid_model_providers.py"]}
{"id": "C116", "title": "The order of keys does not matter", "statement": "Two configuration files that differ only in the order in which keys are written, at any level, are accepted or rejected alike, are read as the same input, and the program run with either writes the same table, prints the same statistics and succeeds alike.", "quantifier": "all documents, all reorderings of their keys, all data files", "why_tests_cant": "infinitely many documents and reorderings; the Union types and column insertion walk through the keys in order", "anchors": ["src/open_petro_elastic/config/input.py:Input", "src/open_petro_elastic/config/pydantic_config.py", "src/open_petro_elastic/__main__.py:run"]}
{"id": "C117", "title": "Only the output file changes, and it holds the table", "statement": "Whatever the arguments, the program changes no file other than the output files named on the command line; configuration, data and calibration file are as before. When it ends with exit code 0, the last output file named (or standard output if none is) holds the table of the run described by the arguments and the contents of the named files before the program started.", "quantifier": "all argument lists in all orders, with repetitions, all file contents", "why_tests_cant": "all argument lists and file systems", "anchors": ["src/open_petro_elastic/__main__.py:main", "src/open_petro_elastic/__main__.py:parse_arguments", "src/open_petro_elastic/__main__.py:run"]}
{"id": "C118", "title": "A failed run leaves an existing output file alone", "statement": "If the program does not write a table, an output file that existed before is as it was.", "quantifier": "all argument lists, all file contents, all ways to fail", "why_tests_cant": "every point of failure", "anchors": ["src/open_petro_elastic/__main__.py:make_parser", "src/open_petro_elastic/__main__.py:run"]}
{"id": "C119", "title": "Generating the tutorial overwrites nothing", "statement": "With --generate-tutorial a directory or file that exists is refused with exit code -4 and nothing changes; otherwise the directory contains afterwards all files of the packaged tutorial. Whatever the arguments, a file that was there before and is not named as output is there afterwards with the same contents.", "quantifier": "all argument lists, all file systems", "why_tests_cant": "all file systems and argument orders", "anchors": ["src/open_petro_elastic/__main__.py:generate_tutorial", "src/open_petro_elastic/__main__.py:GenerateTutorialAction"]}
{"id": "C120", "title": "Invalid arguments", "statement": "The exit code is 2 exactly if there is not exactly one configuration argument, or a file to read is missing or unreadable, or an output file is a directory or not writable, or the threshold is not a number from 0 to 100; then no table is written.", "quantifier": "all argument lists without --version and --generate-tutorial in which no file is both read and written, all file systems", "why_tests_cant": "all argument lists and file systems", "anchors": ["src/open_petro_elastic/__main__.py:make_parser", "src/open_petro_elastic/__main__.py:percentage", "src/open_petro_elastic/__main__.py:parse_arguments"]}
{"id": "C121", "title": "Interpolated carbon dioxide densities", "statement": "With the table the generating script writes, the interpolated density of every row from 0 to 200 C and 0.5 to 100 MPa is the calculated density at a temperature at most 0.025 K away (0.25 K above 50 C) and a pressure at most 0.005 MPa away (0.05 MPa above 10 MPa); rows outside are NaN. Row and column of the table are never confused.", "quantifier": "all tables of rows, all root finders that keep to their bracket", "why_tests_cant": "all temperatures and pressures; the table has 2.4 million entries", "anchors": ["src/open_petro_elastic/material/span_wagner/tables/lookup_table.py:generate_lookup_table", "src/open_petro_elastic/material/span_wagner/tables/lookup_table.py:load_lookup_table_interpolator", "src/open_petro_elastic/material/span_wagner/carbon_dioxide.py:carbon_dioxide_density"]}
{"id": "C122", "title": "Carbon dioxide density is found in the documented range", "statement": "For every temperature from 216 to 1100 K and pressure from 0 to 800 MPa the density is found: carbon_dioxide_density does not raise.", "quantifier": "all temperatures and pressures in the documented range, all root finders that find a change of sign", "why_tests_cant": "a continuum of states; whether the search bracket contains the density depends on the equation of state", "anchors": ["src/open_petro_elastic/material/span_wagner/carbon_dioxide.py:carbon_dioxide", "src/open_petro_elastic/material/span_wagner/carbon_dioxide.py:_calculate_carbon_dioxide_density", "src/open_petro_elastic/material/span_wagner/carbon_dioxide.py:_determine_density_bounds"]}
{"id": "C123", "title": "Brie mixing without a gas", "statement": "In Brie mode without given gases and without a constituent of type gas the first constituent is the gas, as documented.", "quantifier": "all lists of constituents", "why_tests_cant": "lists unbounded", "anchors": ["src/open_petro_elastic/config/fluids.py:Fluids"]}
{"id": "C124", "title": "Negative gas indices", "statement": "Entries of brie_gases from -k to k-1 (k constituents) name constituents as Python list indices, whatever their order.", "quantifier": "all lists of constituents, all index lists without duplicates", "why_tests_cant": "lists and index lists unbounded", "anchors": ["src/open_petro_elastic/config/fluids.py:Fluids.as_mixture"]}
{"id": "C125", "title": "Pore fluids do not change the rock", "statement": "Two configurations with the same minerals, dry rock and rock pressure but different fluids (any types, mixing method, temperature; the fluid pressure too if the rock pressure is given) have the same mineral, dry rock and dense packing bulk moduli and the same shear modulus of the saturated rock.", "quantifier": "all pairs of configurations that differ in the fluids, all numbers of rows", "why_tests_cant": "all fluids sections", "anchors": ["src/open_petro_elastic/__main__.py:calculate_results", "src/open_petro_elastic/config/dry_rock.py:DryRock.material", "src/open_petro_elastic/material/fluid.py:fluid_substitution"]}
{"id": "C126", "title": "Saturated rock between Reuss and Voigt", "statement": "The saturated bulk modulus is at least the Reuss average of fluid and mineral (porosity the fraction of fluid), and at most their Voigt average if the dry rock is at most (1-porosity) times the mineral; both are attained.", "quantifier": "0 < phi <= 1, 0 <= Kdry < Kmin, 0 < Kfl < Kmin", "why_tests_cant": "the inputs form a continuum", "anchors": ["src/open_petro_elastic/material/fluid.py:fluid_substitution"]}
{"id": "C127", "title": "Fluid substitution has no jumps", "statement": "For a given mineral and fluid the saturated bulk modulus is a continuous function of porosity and dry modulus together, including the special cases porosity 0 and dry rock equal to mineral.", "quantifier": "all mineral and fluid moduli 0 < Kfl < Kmin, all porosities and dry moduli from 0 to Kmin", "why_tests_cant": "continuity is about infinitely many neighbouring inputs", "anchors": ["src/open_petro_elastic/material/fluid.py:fluid_substitution"]}
{"id": "C128", "title": "Mineral mixtures between Reuss and Voigt", "statement": "Bulk and shear modulus of a mixture of any number of minerals lie between the Reuss and the Voigt average of all constituents.", "quantifier": "all lists of minerals of any length", "why_tests_cant": "lists unbounded, values a continuum", "anchors": ["src/open_petro_elastic/config/minerals.py:Minerals.as_mixture", "src/open_petro_elastic/material/hashin_shtrikman.py:hashin_shtrikman_walpole"]}
{"id": "C129", "title": "Stiffer constituents never soften the mixture", "statement": "If constituents get stiffer (bulk or shear), the Hashin-Shtrikman-Walpole mix of two materials (either bound), the mixture of any number of minerals, the Wood mix of any number of fluids and, for a stiffer mineral, the saturated rock do not get softer.", "quantifier": "all pairs of constituent lists of which one is at least as stiff as the other", "why_tests_cant": "lists unbounded, values a continuum", "anchors": ["src/open_petro_elastic/material/hashin_shtrikman.py:hashin_shtrikman_walpole", "src/open_petro_elastic/config/minerals.py:Minerals.as_mixture", "src/open_petro_elastic/material/fluid.py:wood_fluid_mixing", "src/open_petro_elastic/material/fluid.py:fluid_substitution"]}
{"id": "C130", "title": "Results do not depend on the units", "statement": "Expressing all moduli and pressures in another unit and all densities in another unit changes the outputs of the mixing laws, of the sandstone models, of fluid substitution and of a whole calculation (friable sand or patchy cement, fluids given as materials, no empirical adjustments) by exactly these factors; failures stay the same failures.", "quantifier": "all factors, all inputs including nan and infinities", "why_tests_cant": "all inputs and factors", "anchors": ["src/open_petro_elastic/material/hashin_shtrikman.py:hashin_shtrikman_walpole", "src/open_petro_elastic/material/sandstone/hertz_mindlin.py:hertz_mindlin", "src/open_petro_elastic/material/sandstone/friable_sand.py:friable_sand", "src/open_petro_elastic/material/sandstone/contact_cement.py:contact_cement", "src/open_petro_elastic/material/sandstone/constant_cement.py:constant_cement", "src/open_petro_elastic/material/sandstone/patchy_cement.py:patchy_cement", "src/open_petro_elastic/material/fluid.py:brie_fluid_mixing", "src/open_petro_elastic/__main__.py:calculate_results"]}
{"id": "C131", "title": "The documented depth polynomial", "statement": "A depth trend adjusts each property X to sum_ij c[i][j] * delta_depth^i * X^j with delta_depth = min(depth - reference_depth, max_depth), as the documentation and the docstring say.", "quantifier": "all coefficient matrices of any size, all depths, all materials, any number of rows", "why_tests_cant": "polynomials of any size over a continuum", "anchors": ["src/open_petro_elastic/config/depth_trend.py:DepthTrend.adjust_material", "src/open_petro_elastic/material/material.py:polyval_material", "docs/adjusting_with_depth_and_pressure.md"]}
{"id": "C132", "title": "The dry rock is computed at the reference pressure", "statement": "As documented, the dry rock is computed at the effective reference pressure and a pressure dependency then moves it to the effective rock pressure; in particular a friable dry rock with a friable pressure dependency of the same parameters is the friable sand at the effective rock pressure.", "quantifier": "all minerals, porosities, model parameters and pressures, any number of rows", "why_tests_cant": "values range over a continuum", "anchors": ["src/open_petro_elastic/config/dry_rock.py:DryRock.material", "src/open_petro_elastic/config/pressure_dependency.py:PressureDependency.adjust_material", "docs/adjusting_with_depth_and_pressure.md"]}
{"id": "C133", "title": "The documented power fit", "statement": "A powerfit pressure dependency with coefficients [c1, c2] adds f(rock pressure) - f(effective reference pressure) with f(p) = c1 + p^c2 to bulk modulus and velocity ratio, as documented.", "quantifier": "all coefficients, materials and pressures, any number of rows", "why_tests_cant": "values range over a continuum", "anchors": ["src/open_petro_elastic/config/model.py:PowerfitModel", "docs/adjusting_with_depth_and_pressure.md"]}
{"id": "C134", "title": "Lowering the success threshold changes nothing but acceptance", "statement": "If a run with a success threshold meets it, every lower threshold gives exactly the same table, printed statistics and exit code; if it fails, every higher threshold fails with -5 and nothing written.", "quantifier": "all configurations, data files, outcomes of reading, calculating, writing and calibrating, all pairs of thresholds, any rounding", "why_tests_cant": "all worlds and thresholds", "anchors": ["src/open_petro_elastic/__main__.py:run_with_threshold", "src/open_petro_elastic/__main__.py:run"]}
{"id": "C135", "title": "Rows are processed for themselves", "statement": "Once a data file is processed completely, every data file made of rows of it (any selection, order, repetition) is processed completely, labelled 0, 1, ..., and equal rows have equal results. With a success threshold, whether a row appears in the table and with which values depends on the configuration and that row only.", "quantifier": "all configurations (normal mode: whose global parameters do not refer to columns and whose per-row parameters are not lists), all data files", "why_tests_cant": "all pairs of data files of any length", "anchors": ["src/open_petro_elastic/__main__.py:run", "src/open_petro_elastic/__main__.py:run_with_threshold", "src/open_petro_elastic/__main__.py:make_per_row_input", "src/open_petro_elastic/config/input.py:insert_from_dataframe"]}
{"id": "C136", "title": "Columns that are not mentioned have no influence", "statement": "Changing, adding or removing columns of the data file that no column reference of the configuration mentions changes nothing the program does, in either mode.", "quantifier": "all configurations, all pairs of data files that agree in the mentioned columns", "why_tests_cant": "all trees and data files", "anchors": ["src/open_petro_elastic/config/input.py:insert_from_dataframe", "src/open_petro_elastic/__main__.py:run"]}
{"id": "C137", "title": "Densities of brine and gas move the right way", "statement": "Brine gets lighter when heated, heavier under pressure and heavier when saltier; hydrocarbon gas gets denser under pressure.", "quantifier": "brine: all pairs of conditions in 0..350 C, 0..100 MPa, 0..300000 ppm; gas: 0..300 C, gravity 0.29..1.4, all pairs of positive pressures", "why_tests_cant": "pairs of values from a continuum", "anchors": ["src/open_petro_elastic/material/batzle_wang/brine_properties.py:brine", "src/open_petro_elastic/material/batzle_wang/hydro_carbon_gas.py:gas"]}
{"id": "C138", "title": "More pores never stiffen a sand", "statement": "All else equal, a larger porosity never gives a larger bulk modulus, shear modulus or density: for friable sand, constant cement, fluid substitution and the whole calculation of a friable sand (dry and saturated).", "quantifier": "all minerals, fluids, parameters and pairs of porosities in the valid range (grain pack softer than the mineral), any number of rows", "why_tests_cant": "pairs of values from a continuum", "anchors": ["src/open_petro_elastic/material/sandstone/friable_sand.py:friable_sand", "src/open_petro_elastic/material/sandstone/constant_cement.py:constant_cement", "src/open_petro_elastic/material/fluid.py:fluid_substitution", "src/open_petro_elastic/config/dry_rock.py:DryRock.material"]}
{"id": "C139", "title": "Listing a constituent in two parts changes nothing", "statement": "Listing the same constituent in two entries whose fractions (saturations) add up to the original one gives the same mixture.", "quantifier": "all lists of fluids and of minerals, all positions, all splits", "why_tests_cant": "lists of any length over a continuum", "anchors": ["src/open_petro_elastic/config/fluids.py:Fluids.as_mixture", "src/open_petro_elastic/config/minerals.py:Minerals.as_mixture", "src/open_petro_elastic/material/fluid.py:wood_fluid_mixing", "src/open_petro_elastic/material/fluid.py:brie_fluid_mixing"]}
{"id": "C140", "title": "No jumps in the rock models", "statement": "If all inputs vary continuously (with depth, say), so do all numbers of the result of mixing two materials, Hertz-Mindlin, friable sand, contact cement, constant cement, patchy cement and fluid substitution, including at the values that the code treats as special cases.", "quantifier": "all continuous families of inputs over any topological space in the valid range (patchy cement: lower bound softer than upper bound wherever there are pores)", "why_tests_cant": "continuity quantifies over all neighbourhoods", "anchors": ["src/open_petro_elastic/material/hashin_shtrikman.py:hashin_shtrikman_walpole", "src/open_petro_elastic/material/sandstone/friable_sand.py:friable_sand", "src/open_petro_elastic/material/sandstone/contact_cement.py:contact_cement", "src/open_petro_elastic/material/sandstone/constant_cement.py:constant_cement", "src/open_petro_elastic/material/fluid.py:fluid_substitution"]}
{"id": "C141", "title": "A list of values is a column", "statement": "Writing, for a parameter, the values of a column into the configuration as a list, one for each row, instead of referring to the column of the data file changes nothing: the configuration is read as the same input or refused with the same error, and without success threshold the program exits, writes and prints the same.", "quantifier": "all configurations, all subsets of their column references that are values of per-row parameters written by name, all data files", "why_tests_cant": "all nestings of references and all file lengths", "anchors": ["src/open_petro_elastic/config/input.py:insert_from_dataframe", "src/open_petro_elastic/config/vector_type.py", "src/open_petro_elastic/config/input.py:Input", "src/open_petro_elastic/__main__.py:run"]}
{"id": "C142", "title": "The density of a dry rock is the mass of its grains and cement", "statement": "The density of the dry rock of each sandstone model is the mass of its grains and of the cement deposited between them, per volume; empty pores weigh nothing.", "quantifier": "all grain and cement materials and all model parameters in the valid range", "why_tests_cant": "a continuum of inputs", "anchors": ["src/open_petro_elastic/material/sandstone/contact_cement.py:contact_cement", "src/open_petro_elastic/material/sandstone/constant_cement.py:constant_cement", "src/open_petro_elastic/material/sandstone/friable_sand.py:friable_sand", "src/open_petro_elastic/material/sandstone/hertz_mindlin.py:hertz_mindlin", "src/open_petro_elastic/material/sandstone/patchy_cement.py:patchy_cement"]}
{"id": "C143", "title": "Loading stiffens the rock", "statement": "Raising the effective pressure of any rows (more overburden, less rock pressure, a higher limit) while the fluids stay the same never lowers the dry bulk modulus, the shear modulus or the saturated bulk modulus, and leaves mineral and density unchanged.", "quantifier": "all friable and patchy sections without adjustments whose packs and fluid are softer than their solid, all pairs of pressure sections", "why_tests_cant": "a continuum of inputs and all lists of minerals and fluids", "anchors": ["src/open_petro_elastic/__main__.py:calculate_results", "src/open_petro_elastic/config/pressure.py:Pressure.truncated_rock", "src/open_petro_elastic/material/sandstone/hertz_mindlin.py:hertz_mindlin", "src/open_petro_elastic/material/fluid.py:fluid_substitution"]}
{"id": "C144", "title": "Fluid model plug-ins", "statement": "Importing the package succeeds exactly if the installed fluid model plug-ins have different names, all load, and batzle_wang and span_wagner are among them; a clash of names is reported with the clashing names. After that fluid_model accepts exactly the installed names and default, a name other than default selects what the plug-in installed under it provides, default selects what batzle_wang provides, the order of installation does not matter, and without third-party plug-ins these are the three documented names.", "quantifier": "all sets of installed plug-ins in all orders", "why_tests_cant": "third-party plug-ins are unknown when the tests are written", "anchors": ["src/open_petro_elastic/config/fluid_model_providers.py:fluid_model_providers", "src/open_petro_elastic/config/fluids.py:Fluids", "src/open_petro_elastic/config/constituent.py:Constituent", "src/open_petro_elastic/config/material_type.py"]}
{"id": "C145", "title": "Every installed plug-in can be selected", "statement": "Whenever the import succeeds, every installed fluid model plug-in can be selected by writing its name as fluid_model.", "quantifier": "all sets of installed plug-ins", "why_tests_cant": "third-party plug-ins are unknown when the tests are written", "anchors": ["src/open_petro_elastic/config/fluid_model_providers.py:fluid_model_providers"]}
{"id": "C146", "title": "Gas indices are used as written", "statement": "The numbers written as brie_gases in an accepted fluids section are the indices used, in the order written.", "quantifier": "all lists of numbers", "why_tests_cant": "a continuum of inputs", "anchors": ["src/open_petro_elastic/config/fluids.py:Fluids"]}
{"id": "C147", "title": "Sections written as lists", "statement": "A section written as a YAML list is read exactly as the mapping of its first keys, in the order of their declaration, to the entries of the list, with a data file and without one; a list with more entries than the section has keys is refused. A material that is a list of one number is always a gas, of three numbers always a material of that density, bulk modulus and shear modulus, of two numbers refused.", "quantifier": "all configurations, all sections, all lists", "why_tests_cant": "lists of every length with entries of every kind", "anchors": ["src/open_petro_elastic/config/pydantic_config.py", "src/open_petro_elastic/config/input.py:Input", "src/open_petro_elastic/config/material_type.py:MaterialType", "src/open_petro_elastic/config/pressure.py:Pressure", "src/open_petro_elastic/config/fluids.py:Fluids", "src/open_petro_elastic/config/minerals.py:Minerals", "src/open_petro_elastic/config/dry_rock.py:DryRock"]}
{"id": "C148", "title": "Replacing a pore fluid by a softer one", "statement": "Moving saturation from one pore fluid to a softer one (Wood's mixing; among the liquids or among the gases of Brie's), or replacing the same share of every liquid (maybe all of it) by gas in Brie's mixing, also where there was no gas before, when no gas is stiffer than a liquid, never raises the bulk modulus of the saturated rock; minerals, dry rock, dense packing and shear modulus stay the same, and the rock gets lighter where the replacing fluid is lighter and heavier where it is heavier.", "quantifier": "all configurations for which the published calculation is defined (any minerals, fluids incl. carbon dioxide, dry rock and adjustments), all moved saturations", "why_tests_cant": "a continuum of saturations and all lists of fluids", "anchors": ["src/open_petro_elastic/material/fluid.py:wood_fluid_mixing", "src/open_petro_elastic/material/fluid.py:brie_fluid_mixing", "src/open_petro_elastic/material/fluid.py:fluid_substitution", "src/open_petro_elastic/__main__.py:calculate_results"]}
{"id": "C149", "title": "Warnings appear exactly when due", "statement": "A finished calculation warns that the pressure is below the bubble point of oil if and only if some oil is, in some row, at a fluid pressure below its bubble point; warns about the water velocity for exactly the fluid pressures above 100 MPa if there is a brine, naming them; warns about adjustments if and only if there is a second pressure dependency, or a second depth trend; and prints each text once.", "quantifier": "all finished calculations, any number of rows, fluids and adjustments", "why_tests_cant": "all lists of fluids and adjustments over a continuum of pressures", "anchors": ["src/open_petro_elastic/material/batzle_wang/oil_properties.py:live_oil", "src/open_petro_elastic/material/batzle_wang/water_properties.py:water_primary_velocity", "src/open_petro_elastic/config/dry_rock.py:DryRock.warn_if_duplicate_adjustment", "src/open_petro_elastic/__main__.py:warn_without_traceback"]}
{"id": "C150", "title": "Missing entries never change a number", "statement": "Emptying entries of a data file (they are then read as missing numbers) never changes a number of the result: whenever the program writes a table for the data file and for the data file with entries emptied, a row that is in both tables has in each column the same number as before, or the number is missing there; in both modes, for every configuration and every column.", "quantifier": "all configurations, all data files, all sets of emptied numeric entries, both modes", "why_tests_cant": "all subsets of entries of arbitrary data files over all configurations", "anchors": ["src/open_petro_elastic/__main__.py:calculate_results", "src/open_petro_elastic/__main__.py:run", "src/open_petro_elastic/__main__.py:run_with_threshold", "src/open_petro_elastic/config/input.py:Input", "src/open_petro_elastic/material/material.py:Material"]}
{"id": "C151", "title": "A missing porosity does not stop the calculation", "statement": "If the porosity, and nothing else, is taken from a column of the data file, then emptying that column in any rows of a data file for which the calculation goes through leaves it going through (in normal mode the program still writes a table with the same rows): rows that were not emptied are unchanged, and in an emptied row the density is missing, the mineral moduli are unchanged and each other column is unchanged or missing; in threshold mode a table is still written too and no row is lost.", "quantifier": "all configurations (any minerals, fluids, dry rock models and adjustments), all data files, all sets of emptied rows", "why_tests_cant": "all subsets of rows of arbitrary data files over all configurations", "anchors": ["src/open_petro_elastic/__main__.py:calculate_results", "src/open_petro_elastic/material/hashin_shtrikman.py:hashin_shtrikman_walpole", "src/open_petro_elastic/material/fluid.py:fluid_substitution", "src/open_petro_elastic/config/dry_rock.py:DryRock", "src/open_petro_elastic/material/material.py:Material"]}
{"id": "C152", "title": "How written values are read", "statement": "A parameter with a value per row accepts exactly a number, true or false (as 1 and 0), a text Python reads as a number, a column of the data file all of whose entries are such, or a list with one such entry (or null, a missing value) per row, and takes these values; everything else is refused with a ValueError. A single number, a whole number (decimals dropped), a yes/no switch (true/false, 1/0 or one of twelve words in any case), the mixing method, the fluid model, and coefficient vectors and matrices (a number is a constant, a vector a polynomial in the first variable, rows must have equal length, all finite; in a pressure dependency the three vectors must have the same length, at least 1 for polyfit, 2 for logfit and powerfit, 3 for expfit) are read likewise, and accepted exactly if they are of that form.", "quantifier": "all written values of any nesting, all data columns", "why_tests_cant": "values of every kind and nesting, over all texts and a continuum of numbers", "anchors": ["src/open_petro_elastic/config/vector_type.py:Array.validate_type", "src/open_petro_elastic/config/fluids.py:Fluids", "src/open_petro_elastic/config/material_type.py:CarbonDioxideMaterial", "src/open_petro_elastic/config/coefficients.py:ModuliCoefficients", "src/open_petro_elastic/config/model.py"]}
{"id": "C153", "title": "Fractions stay fractions", "statement": "After any history of building constituents, fluids and minerals sections from them, filling in omitted fractions and assigning fractions and constituents, with or without exceptions on the way, no constituent has a fraction below 0 or above 1 (up to the tolerance 1e-5).", "quantifier": "all histories of operations on library objects, of any length, with constituents shared between sections", "why_tests_cant": "all histories", "anchors": ["src/open_petro_elastic/config/constituent.py:Constituent", "src/open_petro_elastic/config/constituent.py:fix_one_fraction", "src/open_petro_elastic/config/fluids.py:Fluids", "src/open_petro_elastic/config/minerals.py:Minerals"]}
{"id": "C154", "title": "Building a section does not affect other sections", "statement": "Building a fluids or minerals section leaves the constituents it is given as they were: whether a section can be built does not depend on which other sections were built before from the same constituents.", "quantifier": "all histories of operations on library objects, of any length, with constituents shared between sections", "why_tests_cant": "all histories", "anchors": ["src/open_petro_elastic/config/constituent.py:fix_one_fraction", "src/open_petro_elastic/config/fluids.py:Fluids", "src/open_petro_elastic/config/minerals.py:Minerals"]}
{"id": "C155", "title": "A built section stays valid", "statement": "A fluids section built from constituent objects mixes the fractions it was given, the omitted one filled in, and whatever is done afterwards, its fractions never sum to more than 1 (up to the tolerance).", "quantifier": "all histories of operations on library objects, of any length, with constituents shared between sections", "why_tests_cant": "all histories", "anchors": ["src/open_petro_elastic/config/fluids.py:Fluids", "src/open_petro_elastic/config/constituent.py:Constituent", "src/open_petro_elastic/config/pydantic_config.py"]}
{"id": "C156", "title": "An operation that raises changes nothing", "statement": "Building a constituent or a section, or assigning to one, that raises an exception leaves all objects as they were.", "quantifier": "all histories of operations on library objects, of any length, with constituents shared between sections", "why_tests_cant": "all histories and points of failure", "anchors": ["src/open_petro_elastic/config/constituent.py:fix_one_fraction", "src/open_petro_elastic/config/minerals.py:Minerals", "src/open_petro_elastic/config/fluids.py:Fluids"]}
{"id": "C157", "title": "Missing pore fluid data do not stop the calculation", "statement": "If some columns of the data file are used for the pore fluids only (saturations, oil, gas and brine properties, temperature), then emptying any of their entries in a data file for which the program writes a table leaves it writing a table with the same rows: mineral, dense packing and dry rock moduli and the shear modulus are unchanged, bulk modulus and density of the saturated rock are unchanged or missing, and rows in which nothing was emptied are unchanged; in threshold mode a table is still written and no row is lost either. (With carbon dioxide among the fluids the temperature must not be in an emptied column.)", "quantifier": "all configurations (any minerals, fluids, mixing, dry rock models and adjustments), all data files, all sets of columns and emptied entries, both modes", "why_tests_cant": "all subsets of entries of arbitrary data files over all configurations", "anchors": ["src/open_petro_elastic/__main__.py:calculate_results", "src/open_petro_elastic/config/fluids.py:Fluids", "src/open_petro_elastic/material/batzle_wang/oil_properties.py:live_oil", "src/open_petro_elastic/material/batzle_wang/hydro_carbon_gas.py", "src/open_petro_elastic/material/fluid.py:fluid_substitution", "src/open_petro_elastic/material/fluid.py"]}
{"id": "C158", "title": "Calculating again gives the same result", "statement": "Calling calculate_results any number of times with the same input object gives the same table every time and leaves the input as it was.", "quantifier": "all inputs, all numbers of repetitions", "why_tests_cant": "all inputs and histories of any length", "anchors": ["src/open_petro_elastic/__main__.py:calculate_results", "src/open_petro_elastic/config/fluid_model_providers.py", "src/open_petro_elastic/config/fluids.py:Fluids", "src/open_petro_elastic/config/pressure.py:Pressure"]}
{"id": "C159", "title": "A pore fluid with saturation zero does not matter", "statement": "A constituent of the pore fluids that has saturation 0 can be left out of the configuration: the calculation goes through with it exactly if it goes through without it, and all results are the same.", "quantifier": "all configurations and data, with Wood and Brie mixing, at every position in the list of constituents, also in single rows", "why_tests_cant": "all configurations with a constituent added", "anchors": ["src/open_petro_elastic/config/fluids.py:Fluids", "src/open_petro_elastic/material/fluid.py:wood_fluid_mixing", "src/open_petro_elastic/material/fluid.py:brie_fluid_mixing", "src/open_petro_elastic/material/fluid.py:sum_saturations_to_one", "src/open_petro_elastic/config/fluid_model_providers.py"]}
{"id": "C160", "title": "Dry rocks built from shared objects", "statement": "A dry rock built from model, cement, coefficient and depth trend objects - which may be shared with other dry rocks - gives the material of the dry rock built from the values of these objects, until one of them is assigned to; building a dry rock does not change the objects given for it.", "quantifier": "all sessions of building and assigning such objects, in any order and number; all minerals and pressures", "why_tests_cant": "all histories of any length", "anchors": ["src/open_petro_elastic/config/dry_rock.py:DryRock", "src/open_petro_elastic/config/coefficients.py", "src/open_petro_elastic/config/depth_trend.py:DepthTrend", "src/open_petro_elastic/config/model.py"]}
{"id": "C161", "title": "An omitted cement is the documented cement", "statement": "A patchy cement model that is built without a cement has the documented default cement, whatever was done before and is done later with other objects.", "quantifier": "all sessions of building and assigning objects, all parameters of the model", "why_tests_cant": "all histories of any length", "anchors": ["src/open_petro_elastic/config/model.py:PatchyCementModel", "src/open_petro_elastic/config/material_type.py:ArbitraryMaterial"]}
{"id": "C162", "title": "Velocities of a material object are those of its moduli and density", "statement": "A material object built from moduli and density always has the velocities of its moduli and density; and the results of a calculation do not depend on the velocities that explicitly given minerals, fluids and cements carry besides their moduli and density.", "quantifier": "all sessions of building and assigning materials; all configurations", "why_tests_cant": "all histories of any length, all configurations", "anchors": ["src/open_petro_elastic/config/material_type.py:ArbitraryMaterial", "src/open_petro_elastic/material/material.py:Material", "src/open_petro_elastic/__main__.py:calculate_results"]}
{"id": "C163", "title": "Porosity of a dry rock object stays below the critical porosity", "statement": "Every dry rock object has a porosity below the critical porosity of its sandstone model and, for patchy cement, within the upper cement bound, at every moment after it was built.", "quantifier": "all sessions of building and assigning objects", "why_tests_cant": "all histories of any length", "anchors": ["src/open_petro_elastic/config/dry_rock.py:DryRock", "src/open_petro_elastic/config/model.py:FriableSandModel", "src/open_petro_elastic/config/model.py:PatchyCementModel"]}
{"id": "C164", "title": "No jumps in the pore fluid", "statement": "Bulk modulus and density of a brine, an oil (heavier or lighter, live or dead), a gas, and of a mixture of any number of such constituents by Wood's or Brie's law, change continuously when temperature, pressure, salinity, oil density, gas-oil ratio, gas gravity, saturations and Brie's constant change continuously within their usual ranges: no branch of the code makes them jump.", "quantifier": "all continuous changes (over any topological space) of all properties at once; any number of constituents", "why_tests_cant": "a statement about all paths through the input space; a test sees finitely many points and no jump between them", "anchors": ["src/open_petro_elastic/material/batzle_wang/brine_properties.py", "src/open_petro_elastic/material/batzle_wang/oil_properties.py", "src/open_petro_elastic/material/batzle_wang/hydro_carbon_gas.py", "src/open_petro_elastic/material/fluid.py:wood_fluid_mixing", "src/open_petro_elastic/material/fluid.py:brie_fluid_mixing", "src/open_petro_elastic/config/fluids.py:Fluids"]}
{"id": "C165", "title": "No jumps in the results", "statement": "For every kind of dry rock (friable sand, patchy cement, polynomials for moduli or velocities), with any number of minerals and pore fluids and any list of pressure and depth adjustments, the six columns of the result change continuously when all the numbers of the configuration change continuously (coefficients of polynomials and trends are kept), as long as every rock on the way has positive properties, the dry rock is no stiffer than the mineral and the fluid is softer. Minerals and fluids that appear or vanish (fraction 0) and pores that close (porosity 0) are no exception.", "quantifier": "all continuous changes (over any topological space) of all numbers of the configuration at once; any number of minerals, fluids and trends", "why_tests_cant": "a statement about all paths through the input space; the code's special cases (zero fractions, zero porosity, stiff frames) are exactly where a jump would hide", "anchors": ["src/open_petro_elastic/__main__.py:calculate_results", "src/open_petro_elastic/config/minerals.py:Minerals", "src/open_petro_elastic/material/fluid.py:fluid_substitution", "src/open_petro_elastic/material/sandstone/friable_sand.py", "src/open_petro_elastic/material/sandstone/patchy_cement.py"]}
{"id": "C166", "title": "Fluid mixing is accurate in double arithmetic", "statement": "Computed in double arithmetic, the bulk modulus and density of n pore fluids mixed by Wood's law differ from the exact values by at most 2n+3 units of 2^-52, relatively, and by Brie's law (exponent up to m, liquids heavier and stiffer than gases) by at most 2n(m+1)+12 and 4n+7: saturations that are rescaled to sum to 1, and the order of summation, cost no more.", "quantifier": "all double rounding functions (round to nearest, unbounded exponent range) and all power functions accurate to one unit in the last place; any number of fluids", "why_tests_cant": "a test compares a few computed values with a tolerance chosen by hand; a bound on the rounding error for every input needs a proof", "anchors": ["src/open_petro_elastic/material/fluid.py:sum_saturations_to_one", "src/open_petro_elastic/material/fluid.py:wood_fluid_mixing", "src/open_petro_elastic/material/fluid.py:brie_fluid_mixing"]}
{"id": "C167", "title": "Fluid substitution does not amplify rounding", "statement": "Computed in double arithmetic, Gassmann's saturated bulk modulus of the given moduli differs from the exact one by at most 9 units of 2^-52, relatively, and the density by 2, whenever the dry rock and the fluid are softer than the mineral: however close the moduli are to one another and however small the porosity, so the differences in the formula do not cancel.", "quantifier": "all double rounding functions (round to nearest, unbounded exponent range) and all power functions accurate to one unit in the last place; all porosities > 0 and all moduli Kdry < Kmin, 0 < Kfl < Kmin", "why_tests_cant": "a test compares a few computed values with a tolerance chosen by hand; a bound on the rounding error for every input needs a proof", "anchors": ["src/open_petro_elastic/material/fluid.py:fluid_substitution"]}
{"id": "C168", "title": "Velocities are accurate in double arithmetic", "statement": "Computed in double arithmetic, the primary velocity differs from the exact one by at most 7 units of 2^-52, relatively, and the secondary velocity by at most 4.", "quantifier": "all double rounding functions (round to nearest, unbounded exponent range) and all power functions accurate to one unit in the last place; all positive bulk moduli and densities, all shear moduli >= 0", "why_tests_cant": "a test compares a few computed values with a tolerance chosen by hand; a bound on the rounding error for every input needs a proof", "anchors": ["src/open_petro_elastic/material/seismic_velocity.py:calculate_primary_velocity", "src/open_petro_elastic/material/seismic_velocity.py:calculate_secondary_velocity"]}
{"id": "C169", "title": "Rounding does not decide whether fractions are accepted", "statement": "Fractions of up to a million minerals or fluids whose exact sum lies more than 1e-9 inside the tolerated interval (minerals: 1-2e-5 to 1+1e-5; fluids: up to 1+1e-5) are accepted, and those more than 1e-9 outside are rejected, however the additions are rounded: thus ten times 0.1 is accepted. A fraction left out is filled in with 1 minus the others, up to 1e-9, and then the set is accepted.", "quantifier": "all double rounding functions and all lists of up to 10^6 fractions >= 0, the left-out one at any place", "why_tests_cant": "the sum of doubles depends on the rounding of every partial sum; a test tries a few lists", "anchors": ["src/open_petro_elastic/config/constituent.py:fix_one_fraction", "src/open_petro_elastic/config/minerals.py:Minerals", "src/open_petro_elastic/config/fluids.py:Fluids"]}
{"id": "C170", "title": "Hashin-Shtrikman bounds are accurate in double arithmetic", "statement": "Computed in double arithmetic, the Hashin-Shtrikman-Walpole bounds of two minerals differ from the exact ones by at most 64 R^2 (bulk) and 104 S^2 (shear) units of 2^-52, relatively, where R and S bound the ratio of the first mineral's modulus to the second's; the density by at most 3: the reciprocal of the difference of nearly equal moduli does no harm.", "quantifier": "all double rounding functions (round to nearest, unbounded exponent range) and all power functions accurate to one unit in the last place; all pairs of minerals and all ratios", "why_tests_cant": "a test compares a few computed values with a tolerance chosen by hand; a bound on the rounding error for every input needs a proof", "anchors": ["src/open_petro_elastic/material/hashin_shtrikman.py:hashin_shtrikman_walpole"]}
{"id": "C171", "title": "A whole row is accurate in double arithmetic", "statement": "Computed in double arithmetic from the minerals (m+1 of them, none of whose properties is more than R times that of another) and n fluids mixed by Wood's law, with a dry rock and a fluid at least 1 % softer than the mineral mixture, the saturated bulk modulus differs from the exact one by at most 1672 m^2 R^2 + 2n + 12 units of 2^-52, relatively; density, Vp and Vs by at most 2n+4, 1672 m^2 R^2 + 4n + 21 and 2n+8. For ordinary input this is below 1e-9.", "quantifier": "all double rounding functions (round to nearest, unbounded exponent range) and all power functions accurate to one unit in the last place; any number of minerals (up to 101) and fluids (up to 10^6)", "why_tests_cant": "a test compares a few computed values with a tolerance chosen by hand; a bound on the rounding error for every input needs a proof", "anchors": ["src/open_petro_elastic/__main__.py:calculate_results", "src/open_petro_elastic/config/minerals.py:Minerals", "src/open_petro_elastic/material/fluid.py:fluid_substitution"]}
{"id": "C172", "title": "The mineral mixture is accurate in double arithmetic", "statement": "Computed in double arithmetic, bulk modulus, shear modulus and density of the mixture of m+1 minerals differ from the exact ones by at most 1672 m^2 R^2 units of 2^-52, relatively, when none of their properties is more than R times that of another: errors of earlier minerals are not amplified by later ones.", "quantifier": "all double rounding functions (round to nearest, unbounded exponent range) and all power functions accurate to one unit in the last place; up to 101 minerals with any fractions >= 0 (the first a double), R up to 1000", "why_tests_cant": "a test compares a few computed values with a tolerance chosen by hand; a bound on the rounding error for every input needs a proof", "anchors": ["src/open_petro_elastic/config/minerals.py:Minerals", "src/open_petro_elastic/material/hashin_shtrikman.py:hashin_shtrikman_walpole"]}
{"id": "C173", "title": "Hertz-Mindlin and friable sand are accurate in double arithmetic", "statement": "Computed in double arithmetic, the Hertz-Mindlin bulk and shear moduli of a grain pack differ from the exact ones by at most 78 units of 2^-52, relatively, and its density by at most 2: neither the difference 3K-2G in Poisson's ratio (which may vanish) nor the inexact exponent 1/3 does harm. Bulk modulus, shear modulus and density of friable sand differ by at most 78 + 1672 R^2, where R bounds the contrast between the mineral and the grain pack.", "quantifier": "all double rounding functions (round to nearest, unbounded exponent range) and all power functions accurate to one unit in the last place; all positive minerals, all porosities up to the critical porosity, all pressures between 1e-28 and 1e28 times C(1-phi)G, all shear reductions >= 0; R up to 500000", "why_tests_cant": "a test compares a few computed values with a tolerance chosen by hand; a bound on the rounding error for every input needs a proof", "anchors": ["src/open_petro_elastic/material/sandstone/hertz_mindlin.py:hertz_mindlin", "src/open_petro_elastic/material/sandstone/friable_sand.py:friable_sand", "src/open_petro_elastic/material/material.py:poisson_ratio"]}
{"id": "C174", "title": "A whole row with friable sand is accurate in double arithmetic", "statement": "Computed in double arithmetic from m+1 minerals (contrasts up to R) mixed, the mixture taken as the grains of a friable sand (contrast between mixture and grain pack up to S), and n fluids mixed by Wood's law, with the sand and the fluid at least 1 % softer than the mineral mixture, nothing is rejected and saturated bulk modulus, shear modulus, density, Vp and Vs differ from the exact ones by at most D+2n+12, D, D+2n+4, 2D+4n+21 and 2D+2n+8 units of 2^-52, relatively, where D = 6*1672 m^2 R^2 + 78 + 1672 S^2.", "quantifier": "all double rounding functions (round to nearest, unbounded exponent range) and all power functions accurate to one unit in the last place; up to 51 minerals with contrasts up to 500, up to 10^6 fluids, S up to 100000, all porosities up to the critical porosity", "why_tests_cant": "a test compares a few computed values with a tolerance chosen by hand; a bound on the rounding error for every input needs a proof", "anchors": ["src/open_petro_elastic/__main__.py:calculate_results", "src/open_petro_elastic/material/sandstone/friable_sand.py:friable_sand", "src/open_petro_elastic/config/minerals.py:Minerals", "src/open_petro_elastic/material/fluid.py:fluid_substitution"]}
{"id": "C175", "title": "Ordinary input neither overflows nor underflows", "statement": "If every number of a row (moduli, densities, fractions, saturations, porosities, pressure, coordination number, shear reduction) is a double that is zero or has a magnitude between 2^-40 and 2^40, then in double arithmetic with its bounded exponent range no intermediate result of mixing the minerals, mixing the fluids by Wood's law or Brie's law (exponent up to 8), friable sand, fluid substitution and velocities overflows or becomes subnormal, and the results are as accurate as for an unbounded exponent range (C171 and C176 for given dry rock moduli, C174 and C176 for friable sand).", "quantifier": "all functions that round to nearest where the result is 0 or has a magnitude between 2^-1022 and 2^1023, and do anything elsewhere; all power functions accurate to one unit in the last place in that range; up to 101 minerals (51 with friable sand), up to 10^6 fluids", "why_tests_cant": "overflow and loss of digits near zero happen for combinations of extreme inputs no test tries; that none is left needs a bound on every intermediate result", "anchors": ["src/open_petro_elastic/__main__.py:calculate_results", "src/open_petro_elastic/material/sandstone/friable_sand.py:friable_sand", "src/open_petro_elastic/material/sandstone/hertz_mindlin.py:hertz_mindlin", "src/open_petro_elastic/material/hashin_shtrikman.py:hashin_shtrikman_walpole", "src/open_petro_elastic/config/minerals.py:Minerals", "src/open_petro_elastic/material/fluid.py:fluid_substitution"]}
{"id": "C176", "title": "A whole row with Brie mixing is accurate in double arithmetic", "statement": "Computed in double arithmetic from m+1 minerals (contrasts up to R), a dry rock with given moduli or a friable sand of the mixed minerals (contrast between mixture and grain pack up to S), and at most n liquids and n gases mixed by Brie's law with an exponent up to e (liquids together not softer and not lighter than gases together), with dry rock and fluid at least 1 % softer than the mineral mixture, nothing is rejected and saturated bulk modulus, density, Vp and Vs differ from the exact ones by at most D+B+9, D+B+2, 2D+2B+16 and 2D+B+6 units of 2^-52, relatively, where B = 16n(e+1)+48 and D = 1672 m^2 R^2 for given moduli (shear modulus exact), D = 6*1672 m^2 R^2 + 78 + 1672 S^2 for friable sand (shear modulus within D).", "quantifier": "all double rounding functions (round to nearest, unbounded exponent range) and all power functions accurate to one unit in the last place; up to 101 minerals (51 with friable sand), up to 1000 liquids and gases, exponents up to 1000", "why_tests_cant": "a test compares a few computed values with a tolerance chosen by hand; a bound on the rounding error for every input needs a proof", "anchors": ["src/open_petro_elastic/__main__.py:calculate_results", "src/open_petro_elastic/material/fluid.py:brie_fluid_mixing", "src/open_petro_elastic/material/sandstone/friable_sand.py:friable_sand", "src/open_petro_elastic/config/minerals.py:Minerals", "src/open_petro_elastic/material/fluid.py:fluid_substitution"]}
{"id": "C177", "title": "Stiffer ingredients never soften a sand", "statement": "If minerals get stiffer in bulk or shear, the grains get more contacts or slip less, the effective pressure rises, or the pore fluid gets stiffer, with porosity, critical porosity and all fractions unchanged, then neither the moduli of the grain pack and of friable sand, nor the bulk modulus of a Brie mixture, nor mineral, dry, shear and saturated bulk modulus of the whole calculation with a friable sand get smaller.", "quantifier": "all pairs of inputs ordered this way, any number of minerals, fluids and rows, Wood or Brie mixing, any kinds of fluids; grain pack and fluid softer than the mineral mixture", "why_tests_cant": "a test compares a few pairs; that no combination of simultaneous changes softens the rock needs a proof of monotonicity in all arguments jointly", "anchors": ["src/open_petro_elastic/material/sandstone/hertz_mindlin.py:hertz_mindlin", "src/open_petro_elastic/material/sandstone/friable_sand.py:friable_sand", "src/open_petro_elastic/config/minerals.py:Minerals", "src/open_petro_elastic/material/fluid.py:fluid_substitution", "src/open_petro_elastic/__main__.py:calculate_results"]}
{"id": "C178", "title": "Brine gets stiffer under pressure and with salt", "statement": "Brine under more pressure or with more salt (and no less of the other), at the same temperature, carries sound strictly faster and has a strictly larger bulk modulus.", "quantifier": "all pairs of conditions in 0..350 C (0..300 C where the pressures differ), 0..100 MPa, 0..300000 ppm, any number of rows", "why_tests_cant": "pairs of values from a continuum", "anchors": ["src/open_petro_elastic/material/batzle_wang/brine_properties.py:brine"]}
{"id": "C179", "title": "Dead oil gets softer with heat and stiffer under pressure", "statement": "Of two conditions on which dead_oil returns, the hotter one at no more pressure, or the one under less pressure and no colder, has strictly smaller P-wave velocity and bulk modulus.", "quantifier": "all reference densities 450..1049 kg/m3, all pairs of temperatures in 0..400 C and pressures up to 73 MPa", "why_tests_cant": "pairs of values from a continuum", "anchors": ["src/open_petro_elastic/material/batzle_wang/oil_properties.py:dead_oil"]}
{"id": "C180", "title": "Fresher brine or a softer given fluid never stiffens the rock", "statement": "In a run that goes through, making brine less salty, or an explicitly given pore fluid softer and lighter, in any constituents and rows and leaving everything else, gives a run that goes through too, in which the saturated bulk modulus and density are no larger in any row and mineral, dry rock and dense packing moduli and the shear modulus are the same.", "quantifier": "all configurations with any dry rock model and adjustments, any number of constituents of any kind and rows, Wood or Brie mixing (gases by type or by position); pore fluid softer than the dense packing", "why_tests_cant": "all configurations and all pairs of salinities, a continuum; that mixing and substitution preserve the order needs a proof", "anchors": ["src/open_petro_elastic/__main__.py:calculate_results", "src/open_petro_elastic/config/fluids.py:Fluids", "src/open_petro_elastic/material/fluid.py:fluid_substitution", "src/open_petro_elastic/material/batzle_wang/brine_properties.py:brine"]}
{"id": "C181", "title": "Gas gets stiffer under pressure", "statement": "Of two pressures at the same temperature and gravity, gas at the larger one has the strictly larger bulk modulus.", "quantifier": "all temperatures 0..300 C, gas gravities 0.29..1.4 and all pairs of positive pressures", "why_tests_cant": "pairs of values from a continuum, and the pressure is unbounded", "anchors": ["src/open_petro_elastic/material/batzle_wang/hydro_carbon_gas.py:gas"]}
{"id": "C182", "title": "Depleting the fluid pressure never stiffens the rock", "statement": "In a run that goes through with the rock pressure given, lowering the fluid pressure in any rows and leaving everything else gives a run that goes through too, in which the saturated bulk modulus and density are no larger in any row and mineral, dry rock and dense packing moduli and the shear modulus are the same.", "quantifier": "all configurations with any dry rock model and adjustments, any number of constituents (given materials, brine, oil, gas) and rows, Wood or Brie mixing; pore fluid softer than the dense packing", "why_tests_cant": "all configurations and all pairs of pressures, a continuum; that every fluid model, mixing and substitution preserve the order needs a proof", "anchors": ["src/open_petro_elastic/__main__.py:calculate_results", "src/open_petro_elastic/config/pressure.py:Pressure", "src/open_petro_elastic/config/fluids.py:Fluids", "src/open_petro_elastic/material/fluid.py:fluid_substitution"]}
{"id": "C183", "title": "Gas gets lighter with heat and heavier with gravity and pressure", "statement": "Of two conditions, gas that is no colder, under no more pressure and of no larger gravity, one of these strictly so, has strictly smaller density.", "quantifier": "all pairs of conditions in 0..280 C, up to 100 MPa, gas gravity 0.55..1.4", "why_tests_cant": "pairs of values from a continuum, changing in all three inputs at once", "anchors": ["src/open_petro_elastic/material/batzle_wang/hydro_carbon_gas.py:gas"]}
{"id": "C184", "title": "Polynomial fits are backward stable in double arithmetic", "statement": "Computed in double arithmetic, a polynomial in two variables of degrees r and s (as used for depth trends, polynomial fits, water and brine) differs from its exact value by at most 2r+2s+2 units of 2^-52 of the sum of the magnitudes of its terms.", "quantifier": "all double rounding functions (round to nearest, unbounded exponent range), all degrees, coefficients and arguments", "why_tests_cant": "a test compares a few computed values with a tolerance chosen by hand; a bound on the rounding error for every input needs a proof", "anchors": ["src/open_petro_elastic/material/material.py:polyval_material", "src/open_petro_elastic/material/batzle_wang/water_properties.py:water_density"]}
{"id": "C185", "title": "Brine is accurate in double arithmetic", "statement": "Computed in double arithmetic, the density and bulk modulus of brine differ from Batzle and Wang's exact values by at most 1e-13 and 1e-11, relatively, although the polynomials have terms of both signs up to 100 times as large as their sum.", "quantifier": "all double rounding functions (round to nearest, unbounded exponent range), all temperatures 0..350 C, pressures 0..100 MPa, salinities 0..300000 ppm", "why_tests_cant": "a test compares a few computed values with a tolerance chosen by hand; cancellation is worst at corners of the range that no test need touch", "anchors": ["src/open_petro_elastic/material/batzle_wang/brine_properties.py:brine"]}
{"id": "C186", "title": "A whole sand row with brine computed from conditions is accurate in double arithmetic", "statement": "Computed in double arithmetic, the bulk and shear modulus, density and both velocities of a friable sand of mixed minerals, filled with Wood-mixed fluids each of which is given outright or is brine computed from temperature, pressure and salinity, differ from their exact values by at most a stated number of units of 2^-52 that depends only on the number of minerals and fluids, the ratio between the stiffest and softest mineral and the ratio between grains and packing.", "quantifier": "all double rounding functions (round to nearest, unbounded exponent range), all power functions accurate to one unit, all mineral and fluid lists, porosities up to critical, stresses and coordination numbers, whose dry rock and fluid are no stiffer than 0.99 of the mineral", "why_tests_cant": "a test compares a few computed values with a tolerance chosen by hand; how errors grow through the chain of models for every input needs a proof", "anchors": ["src/open_petro_elastic/__main__.py:calculate_results", "src/open_petro_elastic/material/batzle_wang/brine_properties.py:brine", "src/open_petro_elastic/material/fluid.py:fluid_substitution"]}
{"id": "C187", "title": "Dead oil is accurate in double arithmetic", "statement": "Computed in double arithmetic, the density of dead oil differs from the published formula by at most 2e-14 of it and the bulk modulus by at most 1e-12 of it.", "quantifier": "all double rounding functions (round to nearest, unbounded exponent range), all power functions accurate to one unit, temperatures from 0 to 250 C, pressures up to 100 MPa, reference densities from 700 to 1000 kg/m3", "why_tests_cant": "a test compares a few computed values with a tolerance chosen by hand; cancellation in the velocity for some conditions can only be excluded by a proof", "anchors": ["src/open_petro_elastic/material/batzle_wang/oil_properties.py:dead_oil"]}
{"id": "C188", "title": "Gas is accurate in double arithmetic", "statement": "Computed in double arithmetic, the density of gas differs from the published formula by at most 1e-11 of it and the bulk modulus by at most 5e-8 of it.", "quantifier": "all double rounding functions (round to nearest, unbounded exponent range), all power and exponential functions accurate to one unit, temperatures from 0 to 300 C, pressures from 0.1 to 100 MPa, gravities from 0.55 to 1", "why_tests_cant": "the bulk modulus divides by a difference that could cancel for some conditions; tests on samples do not show that it never does", "anchors": ["src/open_petro_elastic/material/batzle_wang/hydro_carbon_gas.py:gas"]}
{"id": "C189", "title": "A whole sand row with brine, oil and gas computed from conditions is accurate in double arithmetic", "statement": "Computed in double arithmetic, the bulk and shear modulus, density and both velocities of a friable sand of mixed minerals, filled with Wood-mixed fluids each of which is given outright or is brine, dead or live oil or gas computed from temperature, pressure and composition, differ from their exact values by at most a stated number of units of 2^-52 that depends only on the kinds of fluids, the number of minerals and fluids, the ratio between the stiffest and softest mineral and the ratio between grains and packing.", "quantifier": "all double rounding functions (round to nearest, unbounded exponent range), all power and exponential functions accurate to one unit, all mineral and fluid lists, porosities up to critical, stresses and coordination numbers, whose dry rock and fluid are no stiffer than 0.99 of the mineral", "why_tests_cant": "a test compares a few computed values with a tolerance chosen by hand; how errors grow through the chain of models for every input needs a proof", "anchors": ["src/open_petro_elastic/__main__.py:calculate_results", "src/open_petro_elastic/material/batzle_wang/oil_properties.py:dead_oil", "src/open_petro_elastic/material/batzle_wang/hydro_carbon_gas.py:gas", "src/open_petro_elastic/material/fluid.py:fluid_substitution"]}
{"id": "C190", "title": "Oil with dissolved gas is accurate in double arithmetic", "statement": "Computed in double arithmetic, the density of oil with any gas-oil ratio, including the transition between dead and live oil, differs from the exact formulas by at most 1e-13 of it and the bulk modulus by at most 2e-10 of it.", "quantifier": "all double rounding functions (round to nearest, unbounded exponent range), all power functions accurate to one unit, temperatures from 0 to 150 C, pressures up to 100 MPa, reference densities from 700 to 1000 kg/m3, gas-oil ratios from 0 to 300, gas gravities from 0.55 to 1", "why_tests_cant": "a test compares a few computed values with a tolerance chosen by hand; that no condition in the range makes the differences in the velocity and in the window lose accuracy needs a proof", "anchors": ["src/open_petro_elastic/material/batzle_wang/oil_properties.py:oil", "src/open_petro_elastic/material/batzle_wang/oil_properties.py:live_oil"]}
{"id": "C191", "title": "A whole sand row with Brie's mixture of computed liquids and gases is accurate in double arithmetic", "statement": "Computed in double arithmetic, the bulk and shear modulus, density and both velocities of a friable sand of mixed minerals, filled with Brie's mixture of liquids and gases each of which is given outright or is brine, oil or gas computed from temperature, pressure and composition, differ from their exact values by at most a stated number of units of 2^-52 that depends only on the kinds and numbers of fluids, Brie's exponent, the number of minerals, the ratio between the stiffest and softest mineral and the ratio between grains and packing.", "quantifier": "all double rounding functions (round to nearest, unbounded exponent range), all power and exponential functions accurate to one unit, all mineral, liquid and gas lists, Brie exponents, porosities up to critical, stresses and coordination numbers, whose gas is at most 0.99 as stiff and as dense as the liquid, and whose dry rock and fluid are no stiffer than 0.99 of the mineral", "why_tests_cant": "a test compares a few computed values with a tolerance chosen by hand; how errors grow through the chain of models for every input needs a proof", "anchors": ["src/open_petro_elastic/__main__.py:calculate_results", "src/open_petro_elastic/material/fluid.py:brie_fluid_mixing", "src/open_petro_elastic/material/fluid.py:fluid_substitution"]}
{"id": "C192", "title": "Contact cement is accurate in double arithmetic", "statement": "Computed in double arithmetic with polynomials of Poisson's ratio, powers of approximate exponents and the difference of two terms, bulk and shear modulus of a contact-cemented sand differ from their exact values by at most 20000 units of 2^-52 (5e-12 of the value) and its density by at most 200.", "quantifier": "all double rounding functions (round to nearest, unbounded exponent range), all power functions accurate to one unit, all cements and grains with Poisson's ratios from 0 to 0.4, cement between a tenth of and ten times as stiff in shear as the grains and not lighter than a quarter of them, all cemented porosities below that of the grain pack, which is below 1, all coordination numbers and shear reductions not negative", "why_tests_cant": "a test compares a few computed values with a tolerance chosen by hand; whether the subtraction in the stiffness polynomials cancels for some input needs a proof", "anchors": ["src/open_petro_elastic/material/sandstone/contact_cement.py:contact_cement", "src/open_petro_elastic/material/sandstone/contact_cement.py:shear_stiffness", "src/open_petro_elastic/material/sandstone/contact_cement.py:normal_stiffness", "src/open_petro_elastic/material/sandstone/contact_cement.py:cement_radius_ratio"]}
{"id": "C193", "title": "Constant cement is accurate in double arithmetic", "statement": "Computed in double arithmetic, bulk modulus, shear modulus and density of a constant-cement sand differ from their exact values by at most 18050 + 1672 (R^2 + S^2) units of 2^-52, where R bounds the ratio between cement and grains and S the ratio between their mix and the contact-cemented sand.", "quantifier": "all double rounding functions (round to nearest, unbounded exponent range), all power functions accurate to one unit, all cements and grains as in C192, all porosities from zero to the cemented porosity, contrasts R and S up to 100000", "why_tests_cant": "a test compares a few computed values with a tolerance chosen by hand; how the errors of contact cement grow through two averages for every input needs a proof", "anchors": ["src/open_petro_elastic/material/sandstone/constant_cement.py:constant_cement", "src/open_petro_elastic/material/sandstone/contact_cement.py:contact_cement", "src/open_petro_elastic/material/hashin_shtrikman.py:hashin_shtrikman_walpole"]}
{"id": "C194", "title": "Patchy cement is accurate in double arithmetic", "statement": "Computed in double arithmetic, bulk and shear modulus of a patchy-cement sand, which interpolates between a friable sand and its upper bound with a clipped ratio of differences, differ from their exact values by at most 200 (18050 + 10032 R^2 + 1672 S^2) T units of 2^-52, and the density by at most 122: the differences in the weight do not spoil the result even where they cancel. R bounds the ratio between cement and grains, S those between their mix and the end members, T how much stiffer the upper bound and the cemented line are than the friable sand.", "quantifier": "all double rounding functions (round to nearest, unbounded exponent range), all power functions accurate to one unit, all cements and grains as in C192, all porosities, pressures, coordination numbers and shear reductions for which the friable sand lies between the two bounds, all R, S and T with a stated product below 2^50", "why_tests_cant": "the weight divides one small difference by another; whether its rounding error reaches the result for some input, near the point where the bounds meet, needs a proof", "anchors": ["src/open_petro_elastic/material/sandstone/patchy_cement.py:patchy_cement", "src/open_petro_elastic/material/sandstone/constant_cement.py:constant_cement", "src/open_petro_elastic/material/sandstone/friable_sand.py:friable_sand"]}
