import json
S="src/open_petro_elastic/"
P=[]
def p(title, statement, quant, why, *anchors):
    P.append(dict(id="C%02d"%(len(P)+1), title=title, statement=statement, quantifier=quant, why_tests_cant=why, anchors=list(anchors)))
cont="the inputs form a continuum; a test samples a few points of it"
p("Material velocities and moduli agree","Material(bulk_modulus=K, shear_modulus=G, density=rho) with K,G >= 0 and rho > 0 always succeeds and exposes velocities with rho*Vp^2 = K + 4/3 G, rho*Vs^2 = G, Vp,Vs >= 0.","all real K,G>=0, rho>0, and all columns of such rows",cont,S+"material/material.py:Material",S+"material/seismic_velocity.py")
p("Moduli/velocity round trip","Building a Material from velocities and rebuilding it from the resulting moduli (or the other way round) returns the same five properties.","all densities > 0 and all admissible velocities / moduli",cont,S+"material/material.py:Material.set_defaults",S+"material/seismic_velocity.py")
p("No negative property survives construction","Whatever five arguments are given (including NaN and infinities), if the constructor returns then no row of density, moduli or velocities is negative and no row has Vp < sqrt(4/3) Vs; if some row is negative the constructor raises ValueError.","all combinations of given/omitted arguments, all column lengths, all values incl. NaN/inf","the claim is over every column length and every position of a bad row",S+"material/material.py:Material.__init__")
p("Material never carries an undefined number","A Material that was constructed without an error carries no NaN and no infinity in any property.","all arguments incl. NaN, inf and zero density","a test can only show one NaN case",S+"material/material.py:Material.__init__")
p("Derived ratios are physical","For every constructed material with non-negative finite moduli, not both zero: -1 <= poisson_ratio <= 1/2, primary_wave_modulus = rho*Vp^2, and impedances are velocity times density.","all real moduli >= 0, rho > 0",cont,S+"material/material.py:poisson_ratio",S+"material/material.py:primary_wave_modulus")
p("Which argument combinations are accepted","The constructor accepts exactly the argument combinations from which all of bulk, shear, Vp and Vs are given or derivable and density is given; every other combination raises (ValueError, or TypeError when only density is missing).","all 32 subsets of given arguments, all values","the table must hold for every value in the given slots",S+"material/material.py:Material.set_defaults")
p("Whole calculation is row-wise","Running the calculation (mineral mix, fluid mix, dry rock, Gassmann) on columns succeeds iff it succeeds on every row separately, and row i of the result is the result of row i alone; rows never influence each other.","all column lengths, all row contents, every row","must hold for every length and content; a cross-row leak can hide in any row combination",S+"__main__.py:calculate_results",S+"material/hashin_shtrikman.py",S+"material/fluid.py",S+"material/sandstone")
p("Hashin-Shtrikman-Walpole stays between its constituents","For both bounds the bulk modulus, shear modulus and density of the mix lie between those of the two constituents.","all positive moduli/densities, all ratios in [0,1], both bounds",cont,S+"material/hashin_shtrikman.py:hashin_shtrikman_walpole")
p("Lower bound below upper bound","hashin_shtrikman_walpole(..,'lower') never exceeds (..,'upper') in bulk or shear modulus and both have the same density.","all positive materials and ratios in [0,1]","existing property test samples ratio 0.5 only",S+"material/hashin_shtrikman.py:hashin_shtrikman_walpole")
p("Walpole mix end points","Ratio 1 gives material1, ratio 0 gives material2, exactly, for both bounds.","all positive materials",cont,S+"material/hashin_shtrikman.py:hashin_shtrikman_walpole")
p("Walpole mix is symmetric","Swapping the materials and complementing the ratio gives the same mix.","all positive materials and ratios in [0,1], both bounds",cont,S+"material/hashin_shtrikman.py:hashin_shtrikman_walpole")
p("Walpole bounds are tighter than Voigt/Reuss","Reuss average <= lower bound <= upper bound <= Voigt average, for bulk and shear.","all positive materials and ratios in [0,1]",cont,S+"material/hashin_shtrikman.py:hashin_shtrikman_walpole")
p("Ratio check","All three Hashin-Shtrikman functions raise ValueError when any row of the ratio is below -1e-5 or above 1+1e-5 and no such error is raised otherwise; an unknown bound name raises ValueError.","all ratios incl. NaN, all column lengths, all materials","boundary and row position are unbounded",S+"material/hashin_shtrikman.py:check_is_ratio")
p("Walpole mix is monotone in the ratio","Adding more of the constituent with the larger modulus never lowers the modulus of the mix.","all positive materials and pairs of ratios in [0,1]","two-point monotonicity over a continuum",S+"material/hashin_shtrikman.py:hashin_shtrikman_walpole")
p("Hashin-Shtrikman bound and average","hashin_shtrikman_bound equals the Walpole lower (upper) bound when material1 is the softer (stiffer) in shear and bulk; hashin_shtrikman_average is the mean of the two, is symmetric and lies between the constituents.","all positive materials and ratios in [0,1]",cont,S+"material/hashin_shtrikman.py:hashin_shtrikman_bound",S+"material/hashin_shtrikman.py:hashin_shtrikman_average")
p("Saturations are normalised","wood_fluid_mixing rescales the given saturations so that they sum to one.","all lists of non-negative saturations of any length","list length and values unbounded",S+"material/fluid.py:sum_saturations_to_one")
p("Wood mixing stays between its fluids","The mixed bulk modulus is the Reuss average and lies between the smallest and largest fluid modulus; the mixed density lies between the smallest and largest density; shear modulus is 0.","any number (>=1) of fluids with positive moduli, any non-negative saturations with total >= 1e-15","number of fluids unbounded",S+"material/fluid.py:wood_fluid_mixing")
p("Wood mixing ignores order and scale","Permuting the (fluid, saturation) pairs or multiplying all saturations by a positive constant does not change the mixture.","any number of fluids, any permutation, any positive scale (totals >= 1e-15)","all permutations of all lists",S+"material/fluid.py:wood_fluid_mixing")
p("Brie mixing end points and range","With liquid fraction 1 Brie mixing gives the liquid mix, with liquid fraction 0 the gas mix; for a liquid stiffer than the gas and exponent > 0 the bulk modulus lies between gas and liquid and grows with liquid fraction.","all liquid/gas lists, saturations in [0,1], exponents > 0",cont,S+"material/fluid.py:brie_fluid_mixing")
p("Brie mixing argument errors","brie_fluid_mixing raises ValueError on mismatched list lengths and on zero constituents; with no gases it equals Wood mixing of the liquids, with no liquids Wood mixing of the gases.","all list lengths and contents","list lengths unbounded",S+"material/fluid.py:brie_fluid_mixing")
p("Gassmann's equation holds","The saturated bulk modulus solves Ksat/(Kmin-Ksat) = Kdry/(Kmin-Kdry) + Kfl/(phi (Kmin-Kfl)) and equals the classical closed form Kdry + (1-Kdry/Kmin)^2/(phi/Kfl+(1-phi)/Kmin-Kdry/Kmin^2).","0 < phi, 0 <= Kdry < Kmin, 0 < Kfl < Kmin",cont,S+"material/fluid.py:fluid_substitution")
p("Saturation stiffens within bounds","Kdry <= Ksat <= Kmin, and Ksat is non-decreasing in the fluid modulus and in the dry modulus.","0 < phi, 0 <= Kdry < Kmin, 0 <= Kfl < Kmin",cont,S+"material/fluid.py:fluid_substitution")
p("Fluid substitution leaves shear alone and adds fluid mass","The saturated shear modulus is the dry one, density is dry density + porosity * fluid density; at zero porosity the bulk modulus is the mineral's; an empty (K=0) fluid leaves the dry bulk modulus.","all inputs on which the call succeeds",cont,S+"material/fluid.py:fluid_substitution")
p("Fluid substitution is reversible","Two dry rocks that give the same saturated bulk modulus with the same mineral, fluid and porosity have the same bulk modulus; the dry modulus is recoverable from the saturated one by the inverse formula.","0 < phi, 0 <= Kdry < Kmin, 0 <= Kfl < Kmin",cont,S+"material/fluid.py:fluid_substitution")
p("Unsuitable moduli are rejected","fluid_substitution raises ValueError whenever the dry rock is stiffer than the mineral it is made of (0 < porosity).","all moduli","the accepted set is a continuum region",S+"material/fluid.py:fluid_substitution")
p("Hertz-Mindlin pressure law","Grain moduli scale as pressure^(1/3), vanish at zero pressure, increase strictly with pressure, and their ratio does not depend on pressure.","all positive minerals, porosity in [0,1), n > 0, pressure >= 0",cont,S+"material/sandstone/hertz_mindlin.py:hertz_mindlin")
p("Friable sand density and end points","friable_sand has density mineral*(1-porosity); at porosity 0 it is the mineral, at critical porosity it is the Hertz-Mindlin grain pack; moduli lie between the two.","all positive minerals, 0 <= porosity <= critical porosity < 1, pressure > 0",cont,S+"material/sandstone/friable_sand.py:friable_sand")
p("Cement radius ratio","cement_radius_ratio is in [0,1], 0 iff no cement was added, non-increasing in the cemented porosity; it raises ValueError exactly on porosities outside [0,1] or a cemented porosity above the sand porosity.","all porosities",cont,S+"material/sandstone/contact_cement.py:cement_radius_ratio")
p("Patchy cement lies between friable sand and the cemented upper bound","Bulk and shear modulus of patchy_cement lie between those of the friable sand at the given pressure and those of the constant-cement upper bound; density is (1-phi-c)*sand + c*cement.","all finite, physically meaningful inputs on which the call succeeds",cont,S+"material/sandstone/patchy_cement.py:patchy_cement")
p("Patchy cement grows with pressure","Raising the pressure (all else equal) never lowers the bulk or shear modulus of patchy_cement or of friable_sand.","all positive materials, admissible porosities, pressures p1 <= p2","two-point monotonicity through a chain of five models",S+"material/sandstone/patchy_cement.py:patchy_cement",S+"material/sandstone/friable_sand.py:friable_sand")
p("Murphy coordination number","murphy_coordination_number is positive for every porosity and strictly decreasing on [0, 0.84].","all real porosities",cont,S+"material/sandstone/murphy_coordination_number.py")
p("Constant cement end points","At porosity 0 constant_cement is the dense packing of sand and cement, at the contact-cement porosity it is the contact-cemented sand.","all inputs on which the parts are defined",cont,S+"material/sandstone/constant_cement.py:constant_cement")
p("One missing fraction is filled","For a composite with at most one omitted fraction the omitted one becomes 1 - sum(others) and the fractions then sum to one; sums above 1+1e-5 or more than one omission raise ValueError; given fractions are not changed.","any number of constituents, any fractions","number of constituents unbounded",S+"config/constituent.py:fix_one_fraction")
p("Mineral mix density is the weighted average","Minerals.as_mixture has density sum(fraction_i * density_i)/sum(fraction_i), for any number of minerals.","any number of constituents with non-negative fractions, positive total","induction over the number of minerals; the test uses three",S+"config/minerals.py:Minerals.as_mixture")
p("Mineral mix stays within its constituents","Bulk and shear modulus of Minerals.as_mixture lie between the smallest and largest constituent modulus.","any number of minerals","number of minerals unbounded",S+"config/minerals.py:Minerals.as_mixture")
p("Mineral mix does not depend on the order","Listing the minerals in another order gives the same mixture.","all lists of minerals, all permutations","all permutations of all lists",S+"config/minerals.py:Minerals.as_mixture")
p("Zero-fraction minerals do not matter","A mineral with fraction 0 anywhere in the list does not change the mixture.","any list, any position","positions and lengths unbounded",S+"config/minerals.py:Minerals.as_mixture")
p("Mixing fluids has no side effects and no order dependence","Fluids.as_mixture does not change the Pressure it is given, gives the same result when called again, and (wood) does not depend on the order of the constituents.","all constituent lists, all histories of calls","all call histories and all orders",S+"config/fluids.py:Fluids.as_mixture",S+"config/fluid_model_providers.py:SpanWagnerFluidModelProvider.carbon_dioxide")
p("Fluid model selection","A constituent's own fluid_model wins over the one of the fluids section; materials the selected provider does not support raise NotImplementedError; explicit materials are used as given.","all constituent lists and provider choices","finite table lifted over lists",S+"config/constituent.py:Constituent.as_material",S+"config/fluid_model_providers.py")
p("Brie gas selection","In Brie mode the constituents at the gas indices become the gases and all others the liquids, in unchanged relative pairing of material with fraction; nothing is lost or duplicated.","all lists, all duplicate-free in-range index lists","lists and index sets unbounded",S+"config/fluids.py:Fluids.as_mixture")
p("Effective pressures","effective = overburden - pore pressure; truncated <= max_effective and truncated <= effective, equal to effective when max_effective is absent or not exceeded; an omitted rock pressure equals fluid pressure and vice versa; omitting both is rejected.","all pressures, all column lengths",cont,S+"config/pressure.py:Pressure")
p("Pressure dependency is the identity at reference pressure","When the rock pressure equals the reference pressure, a pressure_dependency adjustment returns the material unchanged.","all models, coefficients, materials and pressures with nonzero reference fit",cont,S+"config/pressure_dependency.py",S+"config/model.py:AbstractPressureDependencyModel.pressure_dependency",S+"config/model.py:PowerfitModel")
p("Adjustments compose in list order","Adjustments are applied left to right: none is the identity, and a list a++b equals applying a then b; the first failing adjustment's error is the result.","all lists of adjustments","lists unbounded",S+"config/dry_rock.py:DryRock.adjust_material")
p("Depth trend honours max_depth","The depth used by a depth_trend is min(depth, max_depth) - reference_depth.","all depths",cont,S+"config/depth_trend.py:DepthTrend.effective_depth")
p("2-d polynomial fit","polyval_material evaluates sum_ij c[i][j] property^i value^j per row; the identity coefficients [[0,0],[1,0]] leave the material unchanged for every value; an invalid result raises ValueError.","all coefficient matrices of any size, all values","matrix sizes unbounded",S+"material/material.py:polyval_material")
p("Porosity validation","DryRock accepts exactly porosities below critical porosity minus 1e-5 (and, for patchy cement, not above critical minus upper-bound cement fraction plus 1e-5); every accepted porosity can be evaluated by the chosen sandstone model.","all porosities and model parameters",cont,S+"config/dry_rock.py:DryRock",S+"config/model.py")
p("Type tag decides which section is parsed","A material/model section (a mapping) with a type tag is parsed as that type or rejected, never as another type, independently of declaration order; sections without tag resolve to the first alternative whose required keys are present and has no unknown key.","all sets of keys","all subsets of an unbounded key universe",S+"config/material_type.py:MaterialType",S+"config/model.py:SandstoneModel",S+"config/pydantic_config.py")
p("Coefficients are either moduli or velocities","Coefficient sections naming any velocity resolve to velocity coefficients, mixing moduli and velocities is rejected, coefficients written as a list are those of density, bulk modulus and shear modulus, and after building a polyfit DryRock no coefficient is missing while given ones are kept.","all coefficient sections","all subsets of keys and all values",S+"config/coefficients.py",S+"config/dry_rock.py:DryRock.__post_init_post_parse__")
p("CSV columns are inserted everywhere and only there","insert_from_dataframe replaces exactly the dictionaries whose only key is 'column' by that column, at any depth, keeps everything else (keys, order, lengths), leaves no reference behind, is idempotent, and fails with ColumnInsertionError iff a referenced column is missing.","all nested configs of any depth, all tables","depth and breadth unbounded",S+"config/input.py:insert_from_dataframe")
p("Column references need data","Without a data file an input is rejected iff it contains a column reference at any depth.","all nested configs","depth unbounded",S+"config/input.py:Input.check_no_column_reference")
p("Exit codes","Without success_threshold, run returns 0 iff reading, calculation, writing and (if requested) calibration all succeeded, -2 iff the input was bad, -3 iff the calculation raised ValueError, -4 iff calibration failed, -1 on any other error; no exception escapes.","all outcomes of the four stages","all combinations of stage outcomes",S+"__main__.py:run")
p("Threshold mode keeps exactly the successful rows","With success_threshold the output consists of the results of the rows that succeed alone, in input order, each exactly once; exit code 0 requires successes/rows*100 >= threshold, otherwise -5 and nothing is written.","all row lists, all patterns of failures, all thresholds","2^n failure patterns for every n",S+"__main__.py:run_with_threshold",S+"__main__.py:make_per_row_input")
p("Threshold mode equals normal mode when every row succeeds","If every row succeeds, both modes write the same table.","all row lists","all lengths and contents",S+"__main__.py:run_with_threshold",S+"__main__.py:calculate_results")
p("Threshold mode reports bad input","With success_threshold a malformed config or data file yields exit code -2 like without it.","all malformed inputs","all inputs",S+"__main__.py:run_with_threshold")
p("Failed rows appear as NaN rows","As the help text says, unsuccessful rows are given as NaN, so output row count equals input row count.","all failure patterns with reached threshold","all patterns",S+"__main__.py:make_parser",S+"__main__.py:run_with_threshold")
p("Threshold argument","--success_threshold accepts exactly the numbers in [0,100]; NaN, infinities and non-numbers are rejected.","all argument strings / floats","infinite domain",S+"__main__.py:percentage")
p("Output is written only for a complete result","The result table is written exactly once, after the calculation of all rows succeeded, and never on exit codes -2, -3 and -5.","all stage outcomes in both modes","all combinations",S+"__main__.py:run",S+"__main__.py:run_with_threshold")
p("Calibration error","calibration prints (calculated-calibrated)/calibrated statistics for kmin, kdry, ksat, kmin_fls in that order; it is zero iff the columns agree; a missing column gives exit -4 after the output was written.","all tables","all tables",S+"__main__.py:run_calibration",S+"__main__.py:calibration_error")
p("Oil blends dead and live oil","oil equals dead oil at gas-oil ratio 0, live oil at ratio >= 1, and for ratios between a convex combination of their densities and velocities, continuously.","all ratios and conditions",cont,S+"material/batzle_wang/oil_properties.py:oil")
p("Gas compressibility derivative","compressability_rate_per_pseudoreduced_pressure is the derivative of compressability_factor with respect to pseudo-reduced pressure.","all temperatures, gravities and positive pressures","a derivative identity holds on a continuum",S+"material/batzle_wang/hydro_carbon_gas.py")
p("Gas units are consistent","gas(T,P,G) density is the ideal gas density P M/(R T) divided by the compressibility, in kg/m3 for P in Pa and T in Celsius.","all T, P, G > 0",cont,S+"material/batzle_wang/hydro_carbon_gas.py",S+"material/batzle_wang/ideal_gas.py")
p("Fresh brine is water","brine with salinity 0 is water: same velocity and same density at the same conditions.","all temperatures and pressures",cont,S+"material/batzle_wang/brine_properties.py",S+"material/batzle_wang/water_properties.py")
p("Bubble point trends","oil_bubble_point is 0 without gas, increases with gas-oil ratio and temperature, decreases with gas gravity and increases with oil density.","all positive arguments",cont,S+"material/batzle_wang/oil_properties.py:oil_bubble_point")
p("Dead oil trends","Dead oil density decreases with temperature (above -17.78 C) and increases with pressure up to 73 MPa.","all reference densities > 0",cont,S+"material/batzle_wang/oil_properties.py:dead_oil_density")
p("Fluids do not carry shear","Every fluid function (brine, water, gas, oil, CO2, Wood, Brie) returns shear modulus 0 and shear velocity 0 (density nonzero).","all arguments on which it returns",cont,S+"material/fluid.py:fluid_material",S+"material/batzle_wang",S+"material/span_wagner")
p("Ideal-gas Helmholtz derivatives","The hand-written tau/delta derivatives of ideal_gas_helmholtz_energy are the derivatives of its (0,0) value; unsupported orders raise NotImplementedError.","all delta, tau > 0",cont,S+"material/span_wagner/carbon_dioxide.py:ideal_gas_helmholtz_energy")
p("CO2 pressure derivative","carbon_dioxide_pressure(d_density=1) is the density derivative of carbon_dioxide_pressure, and pressure is rho^2 times the density derivative of the Helmholtz energy.","all T, rho > 0 and every twice differentiable residual term",cont,S+"material/span_wagner/carbon_dioxide.py:carbon_dioxide_pressure")
p("Phase curves meet","Melting and sublimation pressure meet at the triple point, vapour pressure ends at the critical pressure, saturated liquid and vapour densities meet at the critical density, vapour <= critical <= liquid below.","all temperatures in range",cont,S+"material/span_wagner/carbon_dioxide.py")
p("CO2 density bracket","The density bracket used to solve for CO2 density lies on the phase side chosen (vapour <= saturated vapour, liquid >= saturated liquid, supercritical unrestricted) and is a proper interval for every temperature above the triple point.","all temperatures, pressures, force_vapor choices",cont,S+"material/span_wagner/carbon_dioxide.py:_determine_density_bounds")
p("Tabulated CO2 density","Interpolated density at a grid node is the tabulated value, off-node the value of a nearest node, NaN outside the table; a given density takes precedence over pressure.","all grids, tables and query points","all grids and points",S+"material/span_wagner/tables/lookup_table.py",S+"material/span_wagner/carbon_dioxide.py:carbon_dioxide")
p("Isentropic CO2 modulus","The isentropic bulk modulus is at least the isothermal one wherever the second tau-derivative of the Helmholtz energy is negative, and the speed-of-sound formula of Table 3 is what is computed.","all T, rho > 0",cont,S+"material/span_wagner/carbon_dioxide.py:carbon_dioxide_bulk_modulus")
p("CO2 energy functions do not modify their inputs","Evaluating the CO2 Helmholtz energy leaves the caller's arrays unchanged.","all arrays","aliasing bug visible only at exact value 1.0",S+"material/span_wagner/carbon_dioxide.py:co2_residual_helmholtz_energy")
p("One value is used for all rows","Giving a single value where other inputs are columns is the same as giving a column of that value, for every parameter.","all parameters, all column lengths","each subset of scalar/column parameters is a separate case",S+"material/sandstone/patchy_cement.py",S+"config/model.py:PatchyCementModel.eval")
p("Contact cement is defined on its textbook domain","contact_cement never raises and returns positive moduli and density for a sand with non-negative Poisson ratio and a cement whose shear modulus is at least 0.04*pi of the sand's, porosities 0 <= cemented <= sand < 1.","all such materials and porosities, coordination number > 0, shear reduction >= 0","the stiffness polynomials have negative coefficients; their sign on a continuum is not testable",S+"material/sandstone/contact_cement.py:contact_cement")
p("Patchy cement is defined on its textbook domain","patchy_cement never raises and returns positive moduli and density when porosity <= contact-cement and upper-bound porosity <= critical porosity < 1, pressures > 0 and the materials are as in the contact-cement property.","all such materials, porosities, pressures","six nested models, a continuum of inputs",S+"material/sandstone/patchy_cement.py:patchy_cement")
p("Accepted mineral sections","A mineral section that is accepted has at least one mineral, keeps the materials and the given fractions in input order (an omitted one is filled in at its place), and its fractions are numbers between -1e-5 and 1+1e-5 whose sum is within 2e-5 of one in every row.","all mineral lists","any number of constituents",S+"config/minerals.py:Minerals",S+"config/constituent.py:fix_one_fraction")
p("Ideal gas units","ideal_gas(T [K], P [Pa], G) has density P M/(R T) in kg/m3 and velocity sqrt(R T/M) in m/s, with M = 28.8 G g/mol, as its documentation says.","all T, P, G > 0",cont,S+"material/batzle_wang/ideal_gas.py:ideal_gas")
p("Dead oil is defined on its usual range","dead_oil never raises and returns positive density, bulk modulus and velocity for temperatures 0..300 C, pressures 0..100 MPa and reference densities 700..1000 kg/m3.","all temperatures, pressures and reference densities in the range","negative velocity or division by zero could hide anywhere in a three-dimensional box",S+"material/batzle_wang/oil_properties.py:dead_oil")
p("Oil is defined on its usual range","oil never raises and returns positive density, bulk modulus and velocity for temperatures 0..150 C, pressures 0..100 MPa, reference densities 700..1000 kg/m3, gas-oil ratios 0..400 and gas gravities 0..1.","all five arguments in the range","a five-dimensional box",S+"material/batzle_wang/oil_properties.py:oil")
p("Water and brine are defined on their usual range","water and brine never raise and return positive density and velocity for temperatures 0..350 C, pressures 0..100 MPa and salinities 0..300000 ppm; adding salt never makes the density lower than that of water.","all temperatures, pressures and salinities in the range","the velocity polynomials have 20+ terms of both signs on a three-dimensional box",S+"material/batzle_wang/brine_properties.py:brine",S+"material/batzle_wang/water_properties.py:water")
p("Pressure adjustments chain","For ratio models with moduli coefficients, adjusting a dry rock from reference pressure a to b and then from b to q is the same as adjusting it from a to q.","all models, coefficients, pressures and materials with finite nonzero fits","a functional equation over a continuum of pressures",S+"config/model.py:AbstractPressureDependencyModel.pressure_dependency")
p("Friable and patchy pressure dependency","A friable_sand or patchy_cement pressure dependency never changes density, and raising the effective pressure above the reference never lowers bulk or shear modulus.","all positive minerals and cements, porosities from 0 to the critical porosity and pressures at which the model itself exceeds 1e-20 at the reference",cont,S+"config/model.py:FriableSandModel",S+"config/model.py:PatchyCementModel",S+"config/pressure_dependency.py:PressureDependency.adjust_material")
p("Threshold is compared exactly","A run in which exactly the threshold percentage of the rows succeed is accepted: the success percentage, as computed in double precision, is never below the threshold when successes*100/rows is not.","all numbers of rows, failures and thresholds","rounding errors show up only for particular pairs of row and failure counts",S+"__main__.py:run_with_threshold")
p("A complete friable-sand calculation succeeds","With positive minerals whose fractions sum to one, friable sand between porosity 0 and critical porosity, rock pressure below overburden and explicit fluids softer than the minerals (Wood mixing), and a grain pack softer than the mineral, the calculation raises no error; every number in the table is finite, 0 <= kdry <= ksat <= kmin = kmin_fls, mysat > 0, and rsat is the porosity-weighted average of mineral and fluid densities.","all numbers of minerals, fluids and rows, all such values","the run chains six models; each intermediate must stay in the next one's domain for every input",S+"__main__.py:calculate_results")
p("Given values are used, omitted ones take the documented defaults","Every value written in an accepted configuration is the one used under that key, and every omitted key gets its documented default (a section written as a list gives the values of its first keys); an empty configuration is accepted and is the documented default configuration.","all configuration trees","all combinations of given and omitted keys in all sections",S+"config/fluids.py:Fluids",S+"config/dry_rock.py:DryRock",S+"config/pressure.py:Pressure",S+"config/minerals.py:Minerals",S+"config/model.py",S+"config/material_type.py")
p("Unknown keys are rejected","A configuration with an unknown key at the top level or in any section, constituent, material, model or adjustment is rejected: a misspelled parameter is never silently ignored.","all configuration trees","all keys at all places of trees of any size",S+"config/pydantic_config.py",S+"config/input.py:Input")
p("Results row by row from the files","For every configuration whose global parameters (brie_constant, brie_gases, coefficients) do not refer to columns and whose per-row parameters and sections are not written as lists, reading and calculating a data file with n rows succeeds iff it does for every row alone, and row i of the result is the result of row i alone.","all configurations of any depth, all data files","all nestings of column references and all file lengths",S+"config/input.py:Input",S+"__main__.py:make_input",S+"__main__.py:calculate_results")
p("Both modes accept the same configurations","A configuration and data file all of whose rows are accepted with success_threshold are accepted without it, and conversely.","all configurations and data files","a parameter that must be a single number meets arrays of length one only in threshold mode",S+"__main__.py:make_per_row_input",S+"config/fluids.py:Fluids")
p("CO2 becomes an ideal gas when dilute","At every temperature the ratio of carbon_dioxide_pressure to rho R T tends to 1 as the density goes to 0.","all temperatures > 0, all sufficiently small densities","a limit cannot be tested",S+"material/span_wagner/carbon_dioxide.py:carbon_dioxide_pressure")
p("Array densities are certified","Every element of a result of array_carbon_dioxide_density is either the density carbon_dioxide_density gives for that row, or lies in the bracket of the row and has a pressure within 1e-5 MPa of the given one.","all arrays, all behaviours of Newton's method","Newton's method may return anything for some inputs",S+"material/span_wagner/carbon_dioxide.py:array_carbon_dioxide_density")
p("Array densities in the documented range","array_carbon_dioxide_density accepts all temperatures 216-1100 K and pressures 0-800 MPa.","all temperatures and pressures in the documented range","the limit depends on the relation between two inputs",S+"material/span_wagner/carbon_dioxide.py:_find_initial_density_values")
p("Helmholtz energy of several densities at one temperature","co2_helmholtz_energy with an array of densities and a single temperature gives for every density the value it has alone.","all arrays, temperatures, orders","only a mix of scalar and array shows it",S+"material/span_wagner/carbon_dioxide.py:ideal_gas_helmholtz_energy",S+"material/span_wagner/carbon_dioxide.py:co2_helmholtz_energy")
p("Water and brine follow Batzle and Wang","water and brine give the density and velocity of the published Batzle-Wang (1992) equations 27-29, with brine taking Pa and ppm.","all temperatures, pressures and salinities >= 0 on which they return",cont,S+"material/batzle_wang/brine_properties.py",S+"material/batzle_wang/water_properties.py")
p("Oil follows Batzle and Wang","Dead, live and blended oil have the density and velocity of the published equations 18-24, bubble point of equation 21.","all temperatures above -17.78 C, reference densities up to 1049 kg/m3, gas-oil ratios and gravities",cont,S+"material/batzle_wang/oil_properties.py")
p("Gas follows Batzle and Wang","gas never raises on its usual range and has the density and adiabatic bulk modulus of the published equations 9-11, the derivative of the compressibility being the true partial derivative.","temperatures 0..300 C, pressures > 0, gravities 0.29..1.4",cont,S+"material/batzle_wang/hydro_carbon_gas.py")
p("Hashin-Shtrikman bounds follow the handbook","hashin_shtrikman_walpole returns the published lower and upper bound, the first material having the given fraction; hashin_shtrikman_bound uses the first material as comparison.","all positive materials and fractions in [0,1]",cont,S+"material/hashin_shtrikman.py")
p("Friable sand follows the handbook","hertz_mindlin and friable_sand return the published Hertz-Mindlin moduli and the published modified lower bound between mineral and grain pack.","all positive minerals, porosities up to critical, pressures",cont,S+"material/sandstone/friable_sand.py",S+"material/sandstone/hertz_mindlin.py")
p("Cemented sand follows the handbook","contact_cement and constant_cement return the published Dvorkin-Nur cemented sand and the published bound between it and the mineral.","all grains and cements on the textbook domain",cont,S+"material/sandstone/contact_cement.py",S+"material/sandstone/constant_cement.py")
p("Patchy cement follows its publication","patchy_cement returns the interpolation between friable sand and constant cement weighted by the position of the contact cement line, with density from cement and sand volumes.","all sands, cements, porosities and pressures on the textbook domain",cont,S+"material/sandstone/patchy_cement.py")
p("Mineral mixtures follow the published rule","The mixture of a minerals section is built by adding the minerals in input order, each by the published lower Hashin-Shtrikman-Walpole bound weighted by its share of the total so far, with the volume-weighted density.","any number of positive minerals with fractions of total at most 1",cont,S+"config/minerals.py:Minerals.as_mixture")
p("Pressure-trend adjustments follow their formulas","A polyfit, expfit or logfit pressure dependency multiplies density and the two moduli (or velocities) by the ratio of the documented trend at rock and reference effective pressure, and is rejected iff a trend at the reference is within 1e-20 of zero; powerfit adds the difference of the trends to bulk modulus, velocity ratio and density.","all coefficients, pressures and finite materials",cont,S+"config/model.py:PolyfitModel",S+"config/model.py:ExpfitModel",S+"config/model.py:LogfitModel",S+"config/model.py:PowerfitModel",S+"config/pressure_dependency.py:PressureDependency")
p("Dry rock sections follow their formulas","A friable_sand, patchy_cement or polyfit dry rock section evaluates to the published friable sand, the published patchy cement, or the porosity polynomial of its coefficients, at the section's porosity and truncated effective pressure, coordination numbers defaulting to Murphy's formula.","all sections on the textbook domain",cont,S+"config/model.py:FriableSandModel",S+"config/model.py:PatchyCementModel",S+"config/model.py:PolyfitModel",S+"config/dry_rock.py:DryRock")
p("Constituent fluids follow Batzle and Wang","Brine, oil and gas constituents evaluate to the published fluids at the section temperature (C) and fluid pressure (Pa) with their own parameters; an explicit material is itself; carbon dioxide with the span_wagner provider is evaluated at absolute temperature and pressure in MPa.","all parameters, temperatures and pressures on the usual ranges",cont,S+"config/fluids.py",S+"config/fluid_model_providers.py")
p("Fluid mixing and substitution follow the handbook","Wood's law of any number of fluids, Brie's law of any number of liquids and gases (also in rows without gas or without liquid) and Gassmann's substitution return the published formulas.","any numbers of fluids, all saturations and positive fluids",cont,S+"material/fluid.py:wood_fluid_mixing",S+"material/fluid.py:brie_fluid_mixing",S+"material/fluid.py:fluid_substitution")
p("The whole calculation follows the published formulas","For any number of minerals, pore fluids of any mix of explicit materials, brine, oil and gas, Wood or Brie mixing (given or default gases), a friable-sand, patchy-cement or polynomial dry rock and any list of moduli-trend pressure dependencies, the result table is exactly the published one: mixed mineral, dry rock at effective rock pressure scaled by the trends, fluids at temperature and fluid pressure, Gassmann with the dense packing.","all tables, all numbers of constituents and adjustments, all values on the textbook domain","the run chains six models with many wirings (rock/fluid pressure, mineral/dense packing, dry/saturated); each wiring must be right for every input",S+"__main__.py:calculate_results",S+"config/input.py:Input")
p("The empty configuration","An empty configuration, with or without data file, is calculated without error, and its table is the published one of the documented defaults (two minerals, oil, brine and gas, polynomial dry rock).","all data files and row counts","must hold for every data file",S+"__main__.py:make_input",S+"__main__.py:calculate_results")
p("Which fractions are accepted",
  "A fluids (minerals) section with numeric fractions is accepted iff it has at least one constituent, every given fraction is between 0 and 1 and their total at most 1 (tolerance 1e-5), at most one fraction is omitted and, for minerals with nothing omitted, the total is 1 within 2e-5; otherwise ValueError. In an accepted section the constituents keep their order and given fractions, and the omitted one is 1 minus the total.",
  "all numbers of constituents and rows, all fractions", "any number of constituents with any mix of given and omitted fractions",
  S+"config/constituent.py:fix_one_fraction", S+"config/constituent.py:Constituent", S+"config/fluids.py:Fluids", S+"config/minerals.py:Minerals")

p("Carbon dioxide follows Span & Wagner (1996)",
  "The reduced Helmholtz energy and its derivatives up to order two, the pressure, the isentropic bulk modulus (density times squared speed of sound), the saturation densities and the vapour, sublimation and melting pressures of the carbon dioxide model are those published by Span & Wagner (1996), with the published constants and all 42 residual terms; a calculated density reproduces the given pressure and is on the right side of the vapour pressure curve.",
  "all positive temperatures and densities (densities: from the triple point temperature on)", cont,
  S+"material/span_wagner/carbon_dioxide.py:carbon_dioxide_pressure", S+"material/span_wagner/equations.py:residual_helmholtz_energy", S+"material/span_wagner/coefficients.py")

p("All dry rocks and adjustments follow their formulas",
  "For minerals given by moduli or by velocities, any pore fluids, every kind of dry rock (friable sand, patchy cement, polynomials of moduli or of velocities) and any list of pressure dependencies (polyfit, expfit, logfit by moduli or velocities, powerfit, friable sand, patchy cement) and depth trends (moduli or velocities), the result table is: mineral mixture; dry rock at porosity and effective rock pressure; the adjustments by their formulas in the order of the list; Gassmann's substitution with the mixed fluid and the dense packing.",
  "all numbers of rows, minerals, fluids and adjustments, all parameters for which every adjusted rock has positive moduli and density", "all combinations and orders of adjustments on a continuum of parameters",
  S+"config/dry_rock.py:DryRock.material", S+"config/pressure_dependency.py", S+"config/depth_trend.py", S+"config/model.py", S+"__main__.py:calculate_results")

p("Omitted fractions",
  "Omitting the fraction of one mineral and of one fluid gives exactly the result (table or error) of writing down the fraction that the others leave.",
  "all configurations with at most one omission per list, all rows", "any number of constituents and rows, including those that fail",
  S+"config/constituent.py:fix_one_fraction", S+"config/minerals.py:Minerals", S+"config/fluids.py:Fluids")

p("Carbon dioxide in the calculation",
  "With carbon dioxide among the pore fluids (no pressure-dependent fluid after it) the table is the published one with carbon dioxide of a density that reproduces the fluid pressure by Span & Wagner's equation at the section's temperature, on the right side of the vapour pressure curve, and of bulk modulus density times squared published speed of sound.",
  "all numbers of rows and constituents, all temperatures from the triple point on except the critical one, all dry rocks and adjustments", cont,
  S+"config/fluid_model_providers.py:SpanWagner.carbon_dioxide", S+"material/span_wagner/carbon_dioxide.py:carbon_dioxide", S+"__main__.py:calculate_results")

p("The shipped examples",
  "Read from its file and calculated, each shipped example configuration (friable sand, patchy cement, examples 1, 2 and 3) gives without error the table of the published formulas with the numbers written in the file, whatever the data (columns in the documented physical ranges); in particular no Gassmann or porosity check fails.",
  "all data files with the columns in range, all numbers of rows", "the numbers of every row go through nonlinear models whose validity conditions must hold for each of them",
  "examples/", S+"config/input.py:Input", S+"__main__.py:calculate_results")

p("The documented configurations are accepted",
  "The configurations README.md links to, the packaged tutorial and the configuration blocks of the documentation (each completed by the defaults) are read and calculated without error.",
  "all documented configurations, all data files", "must hold for every data file the configuration is used with",
  "README.md", "tutorial_config/", "docs/getting_started_with_the_config_file_format.md", "docs/adjusting_with_depth_and_pressure.md", S+"tutorial_config", S+"config/input.py:Input")

p("A configuration is read as what it says",
  "Reading a configuration file that follows the documented format gives exactly the materials, fractions, models, coefficients, adjustments, pressures and options written in it, with the documented default for everything left out, column references replaced by the values of the data rows, whatever the order of the keys, with or without a data file.",
  "all documents that follow the documented format, all data files, all numbers of rows", "the documents are an infinite family and the Union types are resolved by trial and error",
  S+"config/input.py:Input", S+"config/material_type.py", S+"config/constituent.py", S+"config/fluids.py", S+"config/dry_rock.py", S+"config/model.py", S+"config/coefficients.py", S+"config/pressure.py", S+"config/depth_trend.py", S+"config/pressure_dependency.py")

p("An accepted configuration has only documented keys and names",
  "If a configuration file is accepted then at every level of it there are only documented keys and all required ones (where a section is a list: at most as many entries as the section has keys, each fit for its key), types, fluid models, mixing methods and adjustments have documented names, and every parameter is a number, a list of numbers or a reference to a numeric column present in every row.",
  "all documents, all data files", "a misspelling may occur anywhere in a document of any size",
  S+"config/input.py:Input", S+"config/pydantic_config.py", S+"config/model.py", S+"config/fluid_model_providers.py")

p("The order of keys does not matter",
  "Two configuration files that differ only in the order in which keys are written, at any level, are accepted or rejected alike, are read as the same input, and the program run with either writes the same table, prints the same statistics and succeeds alike.",
  "all documents, all reorderings of their keys, all data files", "infinitely many documents and reorderings; the Union types and column insertion walk through the keys in order",
  S+"config/input.py:Input", S+"config/pydantic_config.py", S+"__main__.py:run")

p("Only the output file changes, and it holds the table",
  "Whatever the arguments, the program changes no file other than the output files named on the command line; configuration, data and calibration file are as before. When it ends with exit code 0, the last output file named (or standard output if none is) holds the table of the run described by the arguments and the contents of the named files before the program started.",
  "all argument lists in all orders, with repetitions, all file contents", "all argument lists and file systems",
  S+"__main__.py:main", S+"__main__.py:parse_arguments", S+"__main__.py:run")

p("A failed run leaves an existing output file alone",
  "If the program does not write a table, an output file that existed before is as it was.",
  "all argument lists, all file contents, all ways to fail", "every point of failure",
  S+"__main__.py:make_parser", S+"__main__.py:run")

p("Generating the tutorial overwrites nothing",
  "With --generate-tutorial a directory or file that exists is refused with exit code -4 and nothing changes; otherwise the directory contains afterwards all files of the packaged tutorial. Whatever the arguments, a file that was there before and is not named as output is there afterwards with the same contents.",
  "all argument lists, all file systems", "all file systems and argument orders",
  S+"__main__.py:generate_tutorial", S+"__main__.py:GenerateTutorialAction")

p("Invalid arguments",
  "The exit code is 2 exactly if there is not exactly one configuration argument, or a file to read is missing or unreadable, or an output file is a directory or not writable, or the threshold is not a number from 0 to 100; then no table is written.",
  "all argument lists without --version and --generate-tutorial in which no file is both read and written, all file systems", "all argument lists and file systems",
  S+"__main__.py:make_parser", S+"__main__.py:percentage", S+"__main__.py:parse_arguments")

p("Interpolated carbon dioxide densities",
  "With the table the generating script writes, the interpolated density of every row from 0 to 200 C and 0.5 to 100 MPa is the calculated density at a temperature at most 0.025 K away (0.25 K above 50 C) and a pressure at most 0.005 MPa away (0.05 MPa above 10 MPa); rows outside are NaN. Row and column of the table are never confused.",
  "all tables of rows, all root finders that keep to their bracket", "all temperatures and pressures; the table has 2.4 million entries",
  S+"material/span_wagner/tables/lookup_table.py:generate_lookup_table", S+"material/span_wagner/tables/lookup_table.py:load_lookup_table_interpolator", S+"material/span_wagner/carbon_dioxide.py:carbon_dioxide_density")

p("Carbon dioxide density is found in the documented range",
  "For every temperature from 216 to 1100 K and pressure from 0 to 800 MPa the density is found: carbon_dioxide_density does not raise.",
  "all temperatures and pressures in the documented range, all root finders that find a change of sign", "a continuum of states; whether the search bracket contains the density depends on the equation of state",
  S+"material/span_wagner/carbon_dioxide.py:carbon_dioxide", S+"material/span_wagner/carbon_dioxide.py:_calculate_carbon_dioxide_density", S+"material/span_wagner/carbon_dioxide.py:_determine_density_bounds")

p("Brie mixing without a gas",
  "In Brie mode without given gases and without a constituent of type gas the first constituent is the gas, as documented.",
  "all lists of constituents", "lists unbounded",
  S+"config/fluids.py:Fluids")

p("Negative gas indices",
  "Entries of brie_gases from -k to k-1 (k constituents) name constituents as Python list indices, whatever their order.",
  "all lists of constituents, all index lists without duplicates", "lists and index lists unbounded",
  S+"config/fluids.py:Fluids.as_mixture")

p("Pore fluids do not change the rock",
  "Two configurations with the same minerals, dry rock and rock pressure but different fluids (any types, mixing method, temperature; the fluid pressure too if the rock pressure is given) have the same mineral, dry rock and dense packing bulk moduli and the same shear modulus of the saturated rock.",
  "all pairs of configurations that differ in the fluids, all numbers of rows", "all fluids sections",
  S+"__main__.py:calculate_results", S+"config/dry_rock.py:DryRock.material", S+"material/fluid.py:fluid_substitution")

p("Saturated rock between Reuss and Voigt",
  "The saturated bulk modulus is at least the Reuss average of fluid and mineral (porosity the fraction of fluid), and at most their Voigt average if the dry rock is at most (1-porosity) times the mineral; both are attained.",
  "0 < phi <= 1, 0 <= Kdry < Kmin, 0 < Kfl < Kmin", "the inputs form a continuum",
  S+"material/fluid.py:fluid_substitution")

p("Fluid substitution has no jumps",
  "For a given mineral and fluid the saturated bulk modulus is a continuous function of porosity and dry modulus together, including the special cases porosity 0 and dry rock equal to mineral.",
  "all mineral and fluid moduli 0 < Kfl < Kmin, all porosities and dry moduli from 0 to Kmin", "continuity is about infinitely many neighbouring inputs",
  S+"material/fluid.py:fluid_substitution")

p("Mineral mixtures between Reuss and Voigt",
  "Bulk and shear modulus of a mixture of any number of minerals lie between the Reuss and the Voigt average of all constituents.",
  "all lists of minerals of any length", "lists unbounded, values a continuum",
  S+"config/minerals.py:Minerals.as_mixture", S+"material/hashin_shtrikman.py:hashin_shtrikman_walpole")

p("Stiffer constituents never soften the mixture",
  "If constituents get stiffer (bulk or shear), the Hashin-Shtrikman-Walpole mix of two materials (either bound), the mixture of any number of minerals, the Wood mix of any number of fluids and, for a stiffer mineral, the saturated rock do not get softer.",
  "all pairs of constituent lists of which one is at least as stiff as the other", "lists unbounded, values a continuum",
  S+"material/hashin_shtrikman.py:hashin_shtrikman_walpole", S+"config/minerals.py:Minerals.as_mixture", S+"material/fluid.py:wood_fluid_mixing", S+"material/fluid.py:fluid_substitution")

p("Results do not depend on the units",
  "Expressing all moduli and pressures in another unit and all densities in another unit changes the outputs of the mixing laws, of the sandstone models, of fluid substitution and of a whole calculation (friable sand or patchy cement, fluids given as materials, no empirical adjustments) by exactly these factors; failures stay the same failures.",
  "all factors, all inputs including nan and infinities", "all inputs and factors",
  S+"material/hashin_shtrikman.py:hashin_shtrikman_walpole", S+"material/sandstone/hertz_mindlin.py:hertz_mindlin", S+"material/sandstone/friable_sand.py:friable_sand", S+"material/sandstone/contact_cement.py:contact_cement", S+"material/sandstone/constant_cement.py:constant_cement", S+"material/sandstone/patchy_cement.py:patchy_cement", S+"material/fluid.py:brie_fluid_mixing", S+"__main__.py:calculate_results")

p("The documented depth polynomial",
  "A depth trend adjusts each property X to sum_ij c[i][j] * delta_depth^i * X^j with delta_depth = min(depth - reference_depth, max_depth), as the documentation and the docstring say.",
  "all coefficient matrices of any size, all depths, all materials, any number of rows", "polynomials of any size over a continuum",
  S+"config/depth_trend.py:DepthTrend.adjust_material", S+"material/material.py:polyval_material", "docs/adjusting_with_depth_and_pressure.md")

p("The dry rock is computed at the reference pressure",
  "As documented, the dry rock is computed at the effective reference pressure and a pressure dependency then moves it to the effective rock pressure; in particular a friable dry rock with a friable pressure dependency of the same parameters is the friable sand at the effective rock pressure.",
  "all minerals, porosities, model parameters and pressures, any number of rows", "values range over a continuum",
  S+"config/dry_rock.py:DryRock.material", S+"config/pressure_dependency.py:PressureDependency.adjust_material", "docs/adjusting_with_depth_and_pressure.md")

p("The documented power fit",
  "A powerfit pressure dependency with coefficients [c1, c2] adds f(rock pressure) - f(effective reference pressure) with f(p) = c1 + p^c2 to bulk modulus and velocity ratio, as documented.",
  "all coefficients, materials and pressures, any number of rows", "values range over a continuum",
  S+"config/model.py:PowerfitModel", "docs/adjusting_with_depth_and_pressure.md")

p("Lowering the success threshold changes nothing but acceptance",
  "If a run with a success threshold meets it, every lower threshold gives exactly the same table, printed statistics and exit code; if it fails, every higher threshold fails with -5 and nothing written.",
  "all configurations, data files, outcomes of reading, calculating, writing and calibrating, all pairs of thresholds, any rounding", "all worlds and thresholds",
  S+"__main__.py:run_with_threshold", S+"__main__.py:run")

p("Rows are processed for themselves",
  "Once a data file is processed completely, every data file made of rows of it (any selection, order, repetition) is processed completely, labelled 0, 1, ..., and equal rows have equal results. With a success threshold, whether a row appears in the table and with which values depends on the configuration and that row only.",
  "all configurations (normal mode: whose global parameters do not refer to columns and whose per-row parameters are not lists), all data files", "all pairs of data files of any length",
  S+"__main__.py:run", S+"__main__.py:run_with_threshold", S+"__main__.py:make_per_row_input", S+"config/input.py:insert_from_dataframe")

p("Columns that are not mentioned have no influence",
  "Changing, adding or removing columns of the data file that no column reference of the configuration mentions changes nothing the program does, in either mode.",
  "all configurations, all pairs of data files that agree in the mentioned columns", "all trees and data files",
  S+"config/input.py:insert_from_dataframe", S+"__main__.py:run")

p("Densities of brine and gas move the right way",
  "Brine gets lighter when heated, heavier under pressure and heavier when saltier; hydrocarbon gas gets denser under pressure.",
  "brine: all pairs of conditions in 0..350 C, 0..100 MPa, 0..300000 ppm; gas: 0..300 C, gravity 0.29..1.4, all pairs of positive pressures", "pairs of values from a continuum",
  S+"material/batzle_wang/brine_properties.py:brine", S+"material/batzle_wang/hydro_carbon_gas.py:gas")

p("More pores never stiffen a sand",
  "All else equal, a larger porosity never gives a larger bulk modulus, shear modulus or density: for friable sand, constant cement, fluid substitution and the whole calculation of a friable sand (dry and saturated).",
  "all minerals, fluids, parameters and pairs of porosities in the valid range (grain pack softer than the mineral), any number of rows", "pairs of values from a continuum",
  S+"material/sandstone/friable_sand.py:friable_sand", S+"material/sandstone/constant_cement.py:constant_cement", S+"material/fluid.py:fluid_substitution", S+"config/dry_rock.py:DryRock.material")

p("Listing a constituent in two parts changes nothing",
  "Listing the same constituent in two entries whose fractions (saturations) add up to the original one gives the same mixture.",
  "all lists of fluids and of minerals, all positions, all splits", "lists of any length over a continuum",
  S+"config/fluids.py:Fluids.as_mixture", S+"config/minerals.py:Minerals.as_mixture", S+"material/fluid.py:wood_fluid_mixing", S+"material/fluid.py:brie_fluid_mixing")

p("No jumps in the rock models",
  "If all inputs vary continuously (with depth, say), so do all numbers of the result of mixing two materials, Hertz-Mindlin, friable sand, contact cement, constant cement, patchy cement and fluid substitution, including at the values that the code treats as special cases.",
  "all continuous families of inputs over any topological space in the valid range (patchy cement: lower bound softer than upper bound wherever there are pores)", "continuity quantifies over all neighbourhoods",
  S+"material/hashin_shtrikman.py:hashin_shtrikman_walpole", S+"material/sandstone/friable_sand.py:friable_sand", S+"material/sandstone/contact_cement.py:contact_cement", S+"material/sandstone/constant_cement.py:constant_cement", S+"material/fluid.py:fluid_substitution")

p("A list of values is a column",
  "Writing, for a parameter, the values of a column into the configuration as a list, one for each row, instead of referring to the column of the data file changes nothing: the configuration is read as the same input or refused with the same error, and without success threshold the program exits, writes and prints the same.",
  "all configurations, all subsets of their column references that are values of per-row parameters written by name, all data files", "all nestings of references and all file lengths",
  S+"config/input.py:insert_from_dataframe", S+"config/vector_type.py", S+"config/input.py:Input", S+"__main__.py:run")

p("The density of a dry rock is the mass of its grains and cement",
  "The density of the dry rock of each sandstone model is the mass of its grains and of the cement deposited between them, per volume; empty pores weigh nothing.",
  "all grain and cement materials and all model parameters in the valid range", "a continuum of inputs",
  S+"material/sandstone/contact_cement.py:contact_cement", S+"material/sandstone/constant_cement.py:constant_cement", S+"material/sandstone/friable_sand.py:friable_sand", S+"material/sandstone/hertz_mindlin.py:hertz_mindlin", S+"material/sandstone/patchy_cement.py:patchy_cement")

p("Loading stiffens the rock",
  "Raising the effective pressure of any rows (more overburden, less rock pressure, a higher limit) while the fluids stay the same never lowers the dry bulk modulus, the shear modulus or the saturated bulk modulus, and leaves mineral and density unchanged.",
  "all friable and patchy sections without adjustments whose packs and fluid are softer than their solid, all pairs of pressure sections", "a continuum of inputs and all lists of minerals and fluids",
  S+"__main__.py:calculate_results", S+"config/pressure.py:Pressure.truncated_rock", S+"material/sandstone/hertz_mindlin.py:hertz_mindlin", S+"material/fluid.py:fluid_substitution")

p("Fluid model plug-ins",
  "Importing the package succeeds exactly if the installed fluid model plug-ins have different names, all load, and batzle_wang and span_wagner are among them; a clash of names is reported with the clashing names. After that fluid_model accepts exactly the installed names and default, a name other than default selects what the plug-in installed under it provides, default selects what batzle_wang provides, the order of installation does not matter, and without third-party plug-ins these are the three documented names.",
  "all sets of installed plug-ins in all orders", "third-party plug-ins are unknown when the tests are written",
  S+"config/fluid_model_providers.py:fluid_model_providers", S+"config/fluids.py:Fluids", S+"config/constituent.py:Constituent", S+"config/material_type.py")

p("Every installed plug-in can be selected",
  "Whenever the import succeeds, every installed fluid model plug-in can be selected by writing its name as fluid_model.",
  "all sets of installed plug-ins", "third-party plug-ins are unknown when the tests are written",
  S+"config/fluid_model_providers.py:fluid_model_providers")

p("Gas indices are used as written",
  "The numbers written as brie_gases in an accepted fluids section are the indices used, in the order written.",
  "all lists of numbers", "a continuum of inputs",
  S+"config/fluids.py:Fluids")

p("Sections written as lists",
  "A section written as a YAML list is read exactly as the mapping of its first keys, in the order of their declaration, to the entries of the list, with a data file and without one; a list with more entries than the section has keys is refused. A material that is a list of one number is always a gas, of three numbers always a material of that density, bulk modulus and shear modulus, of two numbers refused.",
  "all configurations, all sections, all lists", "lists of every length with entries of every kind",
  S+"config/pydantic_config.py", S+"config/input.py:Input", S+"config/material_type.py:MaterialType", S+"config/pressure.py:Pressure", S+"config/fluids.py:Fluids", S+"config/minerals.py:Minerals", S+"config/dry_rock.py:DryRock")

p("Replacing a pore fluid by a softer one",
  "Moving saturation from one pore fluid to a softer one (Wood's mixing; among the liquids or among the gases of Brie's), or replacing the same share of every liquid (maybe all of it) by gas in Brie's mixing, also where there was no gas before, when no gas is stiffer than a liquid, never raises the bulk modulus of the saturated rock; minerals, dry rock, dense packing and shear modulus stay the same, and the rock gets lighter where the replacing fluid is lighter and heavier where it is heavier.",
  "all configurations for which the published calculation is defined (any minerals, fluids incl. carbon dioxide, dry rock and adjustments), all moved saturations", "a continuum of saturations and all lists of fluids",
  S+"material/fluid.py:wood_fluid_mixing", S+"material/fluid.py:brie_fluid_mixing", S+"material/fluid.py:fluid_substitution", S+"__main__.py:calculate_results")

p("Warnings appear exactly when due",
  "A finished calculation warns that the pressure is below the bubble point of oil if and only if some oil is, in some row, at a fluid pressure below its bubble point; warns about the water velocity for exactly the fluid pressures above 100 MPa if there is a brine, naming them; warns about adjustments if and only if there is a second pressure dependency, or a second depth trend; and prints each text once.",
  "all finished calculations, any number of rows, fluids and adjustments", "all lists of fluids and adjustments over a continuum of pressures",
  S+"material/batzle_wang/oil_properties.py:live_oil", S+"material/batzle_wang/water_properties.py:water_primary_velocity", S+"config/dry_rock.py:DryRock.warn_if_duplicate_adjustment", S+"__main__.py:warn_without_traceback")

p("Missing entries never change a number",
  "Emptying entries of a data file (they are then read as missing numbers) never changes a number of the result: whenever the program writes a table for the data file and for the data file with entries emptied, a row that is in both tables has in each column the same number as before, or the number is missing there; in both modes, for every configuration and every column.",
  "all configurations, all data files, all sets of emptied numeric entries, both modes", "all subsets of entries of arbitrary data files over all configurations",
  S+"__main__.py:calculate_results", S+"__main__.py:run", S+"__main__.py:run_with_threshold", S+"config/input.py:Input", S+"material/material.py:Material")

p("A missing porosity does not stop the calculation",
  "If the porosity, and nothing else, is taken from a column of the data file, then emptying that column in any rows of a data file for which the calculation goes through leaves it going through (in normal mode the program still writes a table with the same rows): rows that were not emptied are unchanged, and in an emptied row the density is missing, the mineral moduli are unchanged and each other column is unchanged or missing; in threshold mode a table is still written too and no row is lost.",
  "all configurations (any minerals, fluids, dry rock models and adjustments), all data files, all sets of emptied rows", "all subsets of rows of arbitrary data files over all configurations",
  S+"__main__.py:calculate_results", S+"material/hashin_shtrikman.py:hashin_shtrikman_walpole", S+"material/fluid.py:fluid_substitution", S+"config/dry_rock.py:DryRock", S+"material/material.py:Material")

p("How written values are read",
  "A parameter with a value per row accepts exactly a number, true or false (as 1 and 0), a text Python reads as a number, a column of the data file all of whose entries are such, or a list with one such entry (or null, a missing value) per row, and takes these values; everything else is refused with a ValueError. A single number, a whole number (decimals dropped), a yes/no switch (true/false, 1/0 or one of twelve words in any case), the mixing method, the fluid model, and coefficient vectors and matrices (a number is a constant, a vector a polynomial in the first variable, rows must have equal length, all finite; in a pressure dependency the three vectors must have the same length, at least 1 for polyfit, 2 for logfit and powerfit, 3 for expfit) are read likewise, and accepted exactly if they are of that form.",
  "all written values of any nesting, all data columns", "values of every kind and nesting, over all texts and a continuum of numbers",
  S+"config/vector_type.py:Array.validate_type", S+"config/fluids.py:Fluids", S+"config/material_type.py:CarbonDioxideMaterial", S+"config/coefficients.py:ModuliCoefficients", S+"config/model.py")

p("Fractions stay fractions",
  "After any history of building constituents, fluids and minerals sections from them, filling in omitted fractions and assigning fractions and constituents, with or without exceptions on the way, no constituent has a fraction below 0 or above 1 (up to the tolerance 1e-5).",
  "all histories of operations on library objects, of any length, with constituents shared between sections", "all histories",
  S+"config/constituent.py:Constituent", S+"config/constituent.py:fix_one_fraction", S+"config/fluids.py:Fluids", S+"config/minerals.py:Minerals")

p("Building a section does not affect other sections",
  "Building a fluids or minerals section leaves the constituents it is given as they were: whether a section can be built does not depend on which other sections were built before from the same constituents.",
  "all histories of operations on library objects, of any length, with constituents shared between sections", "all histories",
  S+"config/constituent.py:fix_one_fraction", S+"config/fluids.py:Fluids", S+"config/minerals.py:Minerals")

p("A built section stays valid",
  "A fluids section built from constituent objects mixes the fractions it was given, the omitted one filled in, and whatever is done afterwards, its fractions never sum to more than 1 (up to the tolerance).",
  "all histories of operations on library objects, of any length, with constituents shared between sections", "all histories",
  S+"config/fluids.py:Fluids", S+"config/constituent.py:Constituent", S+"config/pydantic_config.py")

p("An operation that raises changes nothing",
  "Building a constituent or a section, or assigning to one, that raises an exception leaves all objects as they were.",
  "all histories of operations on library objects, of any length, with constituents shared between sections", "all histories and points of failure",
  S+"config/constituent.py:fix_one_fraction", S+"config/minerals.py:Minerals", S+"config/fluids.py:Fluids")

p("Missing pore fluid data do not stop the calculation",
  "If some columns of the data file are used for the pore fluids only (saturations, oil, gas and brine properties, temperature), then emptying any of their entries in a data file for which the program writes a table leaves it writing a table with the same rows: mineral, dense packing and dry rock moduli and the shear modulus are unchanged, bulk modulus and density of the saturated rock are unchanged or missing, and rows in which nothing was emptied are unchanged; in threshold mode a table is still written and no row is lost either. (With carbon dioxide among the fluids the temperature must not be in an emptied column.)",
  "all configurations (any minerals, fluids, mixing, dry rock models and adjustments), all data files, all sets of columns and emptied entries, both modes", "all subsets of entries of arbitrary data files over all configurations",
  S+"__main__.py:calculate_results", S+"config/fluids.py:Fluids", S+"material/batzle_wang/oil_properties.py:live_oil", S+"material/batzle_wang/hydro_carbon_gas.py", S+"material/fluid.py:fluid_substitution", S+"material/fluid.py")

p("Calculating again gives the same result",
  "Calling calculate_results any number of times with the same input object gives the same table every time and leaves the input as it was.",
  "all inputs, all numbers of repetitions", "all inputs and histories of any length",
  S+"__main__.py:calculate_results", S+"config/fluid_model_providers.py", S+"config/fluids.py:Fluids", S+"config/pressure.py:Pressure")

p("A pore fluid with saturation zero does not matter",
  "A constituent of the pore fluids that has saturation 0 can be left out of the configuration: the calculation goes through with it exactly if it goes through without it, and all results are the same.",
  "all configurations and data, with Wood and Brie mixing, at every position in the list of constituents, also in single rows", "all configurations with a constituent added",
  S+"config/fluids.py:Fluids", S+"material/fluid.py:wood_fluid_mixing", S+"material/fluid.py:brie_fluid_mixing", S+"material/fluid.py:sum_saturations_to_one", S+"config/fluid_model_providers.py")

p("Dry rocks built from shared objects",
  "A dry rock built from model, cement, coefficient and depth trend objects - which may be shared with other dry rocks - gives the material of the dry rock built from the values of these objects, until one of them is assigned to; building a dry rock does not change the objects given for it.",
  "all sessions of building and assigning such objects, in any order and number; all minerals and pressures", "all histories of any length",
  S+"config/dry_rock.py:DryRock", S+"config/coefficients.py", S+"config/depth_trend.py:DepthTrend", S+"config/model.py")

p("An omitted cement is the documented cement",
  "A patchy cement model that is built without a cement has the documented default cement, whatever was done before and is done later with other objects.",
  "all sessions of building and assigning objects, all parameters of the model", "all histories of any length",
  S+"config/model.py:PatchyCementModel", S+"config/material_type.py:ArbitraryMaterial")

p("Velocities of a material object are those of its moduli and density",
  "A material object built from moduli and density always has the velocities of its moduli and density; and the results of a calculation do not depend on the velocities that explicitly given minerals, fluids and cements carry besides their moduli and density.",
  "all sessions of building and assigning materials; all configurations", "all histories of any length, all configurations",
  S+"config/material_type.py:ArbitraryMaterial", S+"material/material.py:Material", S+"__main__.py:calculate_results")

p("Porosity of a dry rock object stays below the critical porosity",
  "Every dry rock object has a porosity below the critical porosity of its sandstone model and, for patchy cement, within the upper cement bound, at every moment after it was built.",
  "all sessions of building and assigning objects", "all histories of any length",
  S+"config/dry_rock.py:DryRock", S+"config/model.py:FriableSandModel", S+"config/model.py:PatchyCementModel")

p("No jumps in the pore fluid",
  "Bulk modulus and density of a brine, an oil (heavier or lighter, live or dead), a gas, and of a mixture of any number of such constituents by Wood's or Brie's law, change continuously when temperature, pressure, salinity, oil density, gas-oil ratio, gas gravity, saturations and Brie's constant change continuously within their usual ranges: no branch of the code makes them jump.",
  "all continuous changes (over any topological space) of all properties at once; any number of constituents", "a statement about all paths through the input space; a test sees finitely many points and no jump between them",
  S+"material/batzle_wang/brine_properties.py", S+"material/batzle_wang/oil_properties.py", S+"material/batzle_wang/hydro_carbon_gas.py", S+"material/fluid.py:wood_fluid_mixing", S+"material/fluid.py:brie_fluid_mixing", S+"config/fluids.py:Fluids")

p("No jumps in the results",
  "For every kind of dry rock (friable sand, patchy cement, polynomials for moduli or velocities), with any number of minerals and pore fluids and any list of pressure and depth adjustments, the six columns of the result change continuously when all the numbers of the configuration change continuously (coefficients of polynomials and trends are kept), as long as every rock on the way has positive properties, the dry rock is no stiffer than the mineral and the fluid is softer. Minerals and fluids that appear or vanish (fraction 0) and pores that close (porosity 0) are no exception.",
  "all continuous changes (over any topological space) of all numbers of the configuration at once; any number of minerals, fluids and trends", "a statement about all paths through the input space; the code's special cases (zero fractions, zero porosity, stiff frames) are exactly where a jump would hide",
  S+"__main__.py:calculate_results", S+"config/minerals.py:Minerals", S+"material/fluid.py:fluid_substitution", S+"material/sandstone/friable_sand.py", S+"material/sandstone/patchy_cement.py")

p("Fluid mixing is accurate in double arithmetic",
  "Computed in double arithmetic, the bulk modulus and density of n pore fluids mixed by Wood's law differ from the exact values by at most 2n+3 units of 2^-52, relatively, and by Brie's law (exponent up to m, liquids heavier and stiffer than gases) by at most 2n(m+1)+12 and 4n+7: saturations that are rescaled to sum to 1, and the order of summation, cost no more.",
  "all double rounding functions (round to nearest, unbounded exponent range) and all power functions accurate to one unit in the last place; any number of fluids", "a test compares a few computed values with a tolerance chosen by hand; a bound on the rounding error for every input needs a proof",
  S+"material/fluid.py:sum_saturations_to_one", S+"material/fluid.py:wood_fluid_mixing", S+"material/fluid.py:brie_fluid_mixing")

p("Fluid substitution does not amplify rounding",
  "Computed in double arithmetic, Gassmann's saturated bulk modulus of the given moduli differs from the exact one by at most 9 units of 2^-52, relatively, and the density by 2, whenever the dry rock and the fluid are softer than the mineral: however close the moduli are to one another and however small the porosity, so the differences in the formula do not cancel.",
  "all double rounding functions (round to nearest, unbounded exponent range) and all power functions accurate to one unit in the last place; all porosities > 0 and all moduli Kdry < Kmin, 0 < Kfl < Kmin", "a test compares a few computed values with a tolerance chosen by hand; a bound on the rounding error for every input needs a proof",
  S+"material/fluid.py:fluid_substitution")

p("Velocities are accurate in double arithmetic",
  "Computed in double arithmetic, the primary velocity differs from the exact one by at most 7 units of 2^-52, relatively, and the secondary velocity by at most 4.",
  "all double rounding functions (round to nearest, unbounded exponent range) and all power functions accurate to one unit in the last place; all positive bulk moduli and densities, all shear moduli >= 0", "a test compares a few computed values with a tolerance chosen by hand; a bound on the rounding error for every input needs a proof",
  S+"material/seismic_velocity.py:calculate_primary_velocity", S+"material/seismic_velocity.py:calculate_secondary_velocity")

p("Rounding does not decide whether fractions are accepted",
  "Fractions of up to a million minerals or fluids whose exact sum lies more than 1e-9 inside the tolerated interval (minerals: 1-2e-5 to 1+1e-5; fluids: up to 1+1e-5) are accepted, and those more than 1e-9 outside are rejected, however the additions are rounded: thus ten times 0.1 is accepted. A fraction left out is filled in with 1 minus the others, up to 1e-9, and then the set is accepted.",
  "all double rounding functions and all lists of up to 10^6 fractions >= 0, the left-out one at any place", "the sum of doubles depends on the rounding of every partial sum; a test tries a few lists",
  S+"config/constituent.py:fix_one_fraction", S+"config/minerals.py:Minerals", S+"config/fluids.py:Fluids")

p("Hashin-Shtrikman bounds are accurate in double arithmetic",
  "Computed in double arithmetic, the Hashin-Shtrikman-Walpole bounds of two minerals differ from the exact ones by at most 64 R^2 (bulk) and 104 S^2 (shear) units of 2^-52, relatively, where R and S bound the ratio of the first mineral's modulus to the second's; the density by at most 3: the reciprocal of the difference of nearly equal moduli does no harm.",
  "all double rounding functions (round to nearest, unbounded exponent range) and all power functions accurate to one unit in the last place; all pairs of minerals and all ratios", "a test compares a few computed values with a tolerance chosen by hand; a bound on the rounding error for every input needs a proof",
  S+"material/hashin_shtrikman.py:hashin_shtrikman_walpole")

p("A whole row is accurate in double arithmetic",
  "Computed in double arithmetic from the minerals (m+1 of them, none of whose properties is more than R times that of another) and n fluids mixed by Wood's law, with a dry rock and a fluid at least 1 % softer than the mineral mixture, the saturated bulk modulus differs from the exact one by at most 1672 m^2 R^2 + 2n + 12 units of 2^-52, relatively; density, Vp and Vs by at most 2n+4, 1672 m^2 R^2 + 4n + 21 and 2n+8. For ordinary input this is below 1e-9.",
  "all double rounding functions (round to nearest, unbounded exponent range) and all power functions accurate to one unit in the last place; any number of minerals (up to 101) and fluids (up to 10^6)", "a test compares a few computed values with a tolerance chosen by hand; a bound on the rounding error for every input needs a proof",
  S+"__main__.py:calculate_results", S+"config/minerals.py:Minerals", S+"material/fluid.py:fluid_substitution")

p("The mineral mixture is accurate in double arithmetic",
  "Computed in double arithmetic, bulk modulus, shear modulus and density of the mixture of m+1 minerals differ from the exact ones by at most 1672 m^2 R^2 units of 2^-52, relatively, when none of their properties is more than R times that of another: errors of earlier minerals are not amplified by later ones.",
  "all double rounding functions (round to nearest, unbounded exponent range) and all power functions accurate to one unit in the last place; up to 101 minerals with any fractions >= 0 (the first a double), R up to 1000", "a test compares a few computed values with a tolerance chosen by hand; a bound on the rounding error for every input needs a proof",
  S+"config/minerals.py:Minerals", S+"material/hashin_shtrikman.py:hashin_shtrikman_walpole")

p("Hertz-Mindlin and friable sand are accurate in double arithmetic",
  "Computed in double arithmetic, the Hertz-Mindlin bulk and shear moduli of a grain pack differ from the exact ones by at most 78 units of 2^-52, relatively, and its density by at most 2: neither the difference 3K-2G in Poisson's ratio (which may vanish) nor the inexact exponent 1/3 does harm. Bulk modulus, shear modulus and density of friable sand differ by at most 78 + 1672 R^2, where R bounds the contrast between the mineral and the grain pack.",
  "all double rounding functions (round to nearest, unbounded exponent range) and all power functions accurate to one unit in the last place; all positive minerals, all porosities up to the critical porosity, all pressures between 1e-28 and 1e28 times C(1-phi)G, all shear reductions >= 0; R up to 500000", "a test compares a few computed values with a tolerance chosen by hand; a bound on the rounding error for every input needs a proof",
  S+"material/sandstone/hertz_mindlin.py:hertz_mindlin", S+"material/sandstone/friable_sand.py:friable_sand", S+"material/material.py:poisson_ratio")

p("A whole row with friable sand is accurate in double arithmetic",
  "Computed in double arithmetic from m+1 minerals (contrasts up to R) mixed, the mixture taken as the grains of a friable sand (contrast between mixture and grain pack up to S), and n fluids mixed by Wood's law, with the sand and the fluid at least 1 % softer than the mineral mixture, nothing is rejected and saturated bulk modulus, shear modulus, density, Vp and Vs differ from the exact ones by at most D+2n+12, D, D+2n+4, 2D+4n+21 and 2D+2n+8 units of 2^-52, relatively, where D = 6*1672 m^2 R^2 + 78 + 1672 S^2.",
  "all double rounding functions (round to nearest, unbounded exponent range) and all power functions accurate to one unit in the last place; up to 51 minerals with contrasts up to 500, up to 10^6 fluids, S up to 100000, all porosities up to the critical porosity", "a test compares a few computed values with a tolerance chosen by hand; a bound on the rounding error for every input needs a proof",
  S+"__main__.py:calculate_results", S+"material/sandstone/friable_sand.py:friable_sand", S+"config/minerals.py:Minerals", S+"material/fluid.py:fluid_substitution")

p("Ordinary input neither overflows nor underflows",
  "If every number of a row (moduli, densities, fractions, saturations, porosities, pressure, coordination number, shear reduction) is a double that is zero or has a magnitude between 2^-40 and 2^40, then in double arithmetic with its bounded exponent range no intermediate result of mixing the minerals, mixing the fluids by Wood's law or Brie's law (exponent up to 8), friable sand, fluid substitution and velocities overflows or becomes subnormal, and the results are as accurate as for an unbounded exponent range (C171 and C176 for given dry rock moduli, C174 and C176 for friable sand).",
  "all functions that round to nearest where the result is 0 or has a magnitude between 2^-1022 and 2^1023, and do anything elsewhere; all power functions accurate to one unit in the last place in that range; up to 101 minerals (51 with friable sand), up to 10^6 fluids", "overflow and loss of digits near zero happen for combinations of extreme inputs no test tries; that none is left needs a bound on every intermediate result",
  S+"__main__.py:calculate_results", S+"material/sandstone/friable_sand.py:friable_sand", S+"material/sandstone/hertz_mindlin.py:hertz_mindlin", S+"material/hashin_shtrikman.py:hashin_shtrikman_walpole", S+"config/minerals.py:Minerals", S+"material/fluid.py:fluid_substitution")

p("A whole row with Brie mixing is accurate in double arithmetic",
  "Computed in double arithmetic from m+1 minerals (contrasts up to R), a dry rock with given moduli or a friable sand of the mixed minerals (contrast between mixture and grain pack up to S), and at most n liquids and n gases mixed by Brie's law with an exponent up to e (liquids together not softer and not lighter than gases together), with dry rock and fluid at least 1 % softer than the mineral mixture, nothing is rejected and saturated bulk modulus, density, Vp and Vs differ from the exact ones by at most D+B+9, D+B+2, 2D+2B+16 and 2D+B+6 units of 2^-52, relatively, where B = 16n(e+1)+48 and D = 1672 m^2 R^2 for given moduli (shear modulus exact), D = 6*1672 m^2 R^2 + 78 + 1672 S^2 for friable sand (shear modulus within D).",
  "all double rounding functions (round to nearest, unbounded exponent range) and all power functions accurate to one unit in the last place; up to 101 minerals (51 with friable sand), up to 1000 liquids and gases, exponents up to 1000", "a test compares a few computed values with a tolerance chosen by hand; a bound on the rounding error for every input needs a proof",
  S+"__main__.py:calculate_results", S+"material/fluid.py:brie_fluid_mixing", S+"material/sandstone/friable_sand.py:friable_sand", S+"config/minerals.py:Minerals", S+"material/fluid.py:fluid_substitution")

p("Stiffer ingredients never soften a sand",
  "If minerals get stiffer in bulk or shear, the grains get more contacts or slip less, the effective pressure rises, or the pore fluid gets stiffer, with porosity, critical porosity and all fractions unchanged, then neither the moduli of the grain pack and of friable sand, nor the bulk modulus of a Brie mixture, nor mineral, dry, shear and saturated bulk modulus of the whole calculation with a friable sand get smaller.",
  "all pairs of inputs ordered this way, any number of minerals, fluids and rows, Wood or Brie mixing, any kinds of fluids; grain pack and fluid softer than the mineral mixture", "a test compares a few pairs; that no combination of simultaneous changes softens the rock needs a proof of monotonicity in all arguments jointly",
  S+"material/sandstone/hertz_mindlin.py:hertz_mindlin", S+"material/sandstone/friable_sand.py:friable_sand", S+"config/minerals.py:Minerals", S+"material/fluid.py:fluid_substitution", S+"__main__.py:calculate_results")

p("Brine gets stiffer under pressure and with salt",
  "Brine under more pressure or with more salt (and no less of the other), at the same temperature, carries sound strictly faster and has a strictly larger bulk modulus.",
  "all pairs of conditions in 0..350 C (0..300 C where the pressures differ), 0..100 MPa, 0..300000 ppm, any number of rows", "pairs of values from a continuum",
  S+"material/batzle_wang/brine_properties.py:brine")

p("Dead oil gets softer with heat and stiffer under pressure",
  "Of two conditions on which dead_oil returns, the hotter one at no more pressure, or the one under less pressure and no colder, has strictly smaller P-wave velocity and bulk modulus.",
  "all reference densities 450..1049 kg/m3, all pairs of temperatures in 0..400 C and pressures up to 73 MPa", "pairs of values from a continuum",
  S+"material/batzle_wang/oil_properties.py:dead_oil")

p("Fresher brine or a softer given fluid never stiffens the rock",
  "In a run that goes through, making brine less salty, or an explicitly given pore fluid softer and lighter, in any constituents and rows and leaving everything else, gives a run that goes through too, in which the saturated bulk modulus and density are no larger in any row and mineral, dry rock and dense packing moduli and the shear modulus are the same.",
  "all configurations with any dry rock model and adjustments, any number of constituents of any kind and rows, Wood or Brie mixing (gases by type or by position); pore fluid softer than the dense packing", "all configurations and all pairs of salinities, a continuum; that mixing and substitution preserve the order needs a proof",
  S+"__main__.py:calculate_results", S+"config/fluids.py:Fluids", S+"material/fluid.py:fluid_substitution", S+"material/batzle_wang/brine_properties.py:brine")

p("Gas gets stiffer under pressure",
  "Of two pressures at the same temperature and gravity, gas at the larger one has the strictly larger bulk modulus.",
  "all temperatures 0..300 C, gas gravities 0.29..1.4 and all pairs of positive pressures", "pairs of values from a continuum, and the pressure is unbounded",
  S+"material/batzle_wang/hydro_carbon_gas.py:gas")

p("Depleting the fluid pressure never stiffens the rock",
  "In a run that goes through with the rock pressure given, lowering the fluid pressure in any rows and leaving everything else gives a run that goes through too, in which the saturated bulk modulus and density are no larger in any row and mineral, dry rock and dense packing moduli and the shear modulus are the same.",
  "all configurations with any dry rock model and adjustments, any number of constituents (given materials, brine, oil, gas) and rows, Wood or Brie mixing; pore fluid softer than the dense packing", "all configurations and all pairs of pressures, a continuum; that every fluid model, mixing and substitution preserve the order needs a proof",
  S+"__main__.py:calculate_results", S+"config/pressure.py:Pressure", S+"config/fluids.py:Fluids", S+"material/fluid.py:fluid_substitution")

p("Gas gets lighter with heat and heavier with gravity and pressure",
  "Of two conditions, gas that is no colder, under no more pressure and of no larger gravity, one of these strictly so, has strictly smaller density.",
  "all pairs of conditions in 0..280 C, up to 100 MPa, gas gravity 0.55..1.4", "pairs of values from a continuum, changing in all three inputs at once",
  S+"material/batzle_wang/hydro_carbon_gas.py:gas")

p("Polynomial fits are backward stable in double arithmetic",
  "Computed in double arithmetic, a polynomial in two variables of degrees r and s (as used for depth trends, polynomial fits, water and brine) differs from its exact value by at most 2r+2s+2 units of 2^-52 of the sum of the magnitudes of its terms.",
  "all double rounding functions (round to nearest, unbounded exponent range), all degrees, coefficients and arguments", "a test compares a few computed values with a tolerance chosen by hand; a bound on the rounding error for every input needs a proof",
  S+"material/material.py:polyval_material", S+"material/batzle_wang/water_properties.py:water_density")

p("Brine is accurate in double arithmetic",
  "Computed in double arithmetic, the density and bulk modulus of brine differ from Batzle and Wang's exact values by at most 1e-13 and 1e-11, relatively, although the polynomials have terms of both signs up to 100 times as large as their sum.",
  "all double rounding functions (round to nearest, unbounded exponent range), all temperatures 0..350 C, pressures 0..100 MPa, salinities 0..300000 ppm", "a test compares a few computed values with a tolerance chosen by hand; cancellation is worst at corners of the range that no test need touch",
  S+"material/batzle_wang/brine_properties.py:brine")

p("A whole sand row with brine computed from conditions is accurate in double arithmetic",
  "Computed in double arithmetic, the bulk and shear modulus, density and both velocities of a friable sand of mixed minerals, filled with Wood-mixed fluids each of which is given outright or is brine computed from temperature, pressure and salinity, differ from their exact values by at most a stated number of units of 2^-52 that depends only on the number of minerals and fluids, the ratio between the stiffest and softest mineral and the ratio between grains and packing.",
  "all double rounding functions (round to nearest, unbounded exponent range), all power functions accurate to one unit, all mineral and fluid lists, porosities up to critical, stresses and coordination numbers, whose dry rock and fluid are no stiffer than 0.99 of the mineral", "a test compares a few computed values with a tolerance chosen by hand; how errors grow through the chain of models for every input needs a proof",
  S+"__main__.py:calculate_results", S+"material/batzle_wang/brine_properties.py:brine", S+"material/fluid.py:fluid_substitution")

p("Dead oil is accurate in double arithmetic",
  "Computed in double arithmetic, the density of dead oil differs from the published formula by at most 2e-14 of it and the bulk modulus by at most 1e-12 of it.",
  "all double rounding functions (round to nearest, unbounded exponent range), all power functions accurate to one unit, temperatures from 0 to 250 C, pressures up to 100 MPa, reference densities from 700 to 1000 kg/m3", "a test compares a few computed values with a tolerance chosen by hand; cancellation in the velocity for some conditions can only be excluded by a proof",
  S+"material/batzle_wang/oil_properties.py:dead_oil")

p("Gas is accurate in double arithmetic",
  "Computed in double arithmetic, the density of gas differs from the published formula by at most 1e-11 of it and the bulk modulus by at most 5e-8 of it.",
  "all double rounding functions (round to nearest, unbounded exponent range), all power and exponential functions accurate to one unit, temperatures from 0 to 300 C, pressures from 0.1 to 100 MPa, gravities from 0.55 to 1", "the bulk modulus divides by a difference that could cancel for some conditions; tests on samples do not show that it never does",
  S+"material/batzle_wang/hydro_carbon_gas.py:gas")

p("A whole sand row with brine, oil and gas computed from conditions is accurate in double arithmetic",
  "Computed in double arithmetic, the bulk and shear modulus, density and both velocities of a friable sand of mixed minerals, filled with Wood-mixed fluids each of which is given outright or is brine, dead or live oil or gas computed from temperature, pressure and composition, differ from their exact values by at most a stated number of units of 2^-52 that depends only on the kinds of fluids, the number of minerals and fluids, the ratio between the stiffest and softest mineral and the ratio between grains and packing.",
  "all double rounding functions (round to nearest, unbounded exponent range), all power and exponential functions accurate to one unit, all mineral and fluid lists, porosities up to critical, stresses and coordination numbers, whose dry rock and fluid are no stiffer than 0.99 of the mineral", "a test compares a few computed values with a tolerance chosen by hand; how errors grow through the chain of models for every input needs a proof",
  S+"__main__.py:calculate_results", S+"material/batzle_wang/oil_properties.py:dead_oil", S+"material/batzle_wang/hydro_carbon_gas.py:gas", S+"material/fluid.py:fluid_substitution")

p("Oil with dissolved gas is accurate in double arithmetic",
  "Computed in double arithmetic, the density of oil with any gas-oil ratio, including the transition between dead and live oil, differs from the exact formulas by at most 1e-13 of it and the bulk modulus by at most 2e-10 of it.",
  "all double rounding functions (round to nearest, unbounded exponent range), all power functions accurate to one unit, temperatures from 0 to 150 C, pressures up to 100 MPa, reference densities from 700 to 1000 kg/m3, gas-oil ratios from 0 to 300, gas gravities from 0.55 to 1", "a test compares a few computed values with a tolerance chosen by hand; that no condition in the range makes the differences in the velocity and in the window lose accuracy needs a proof",
  S+"material/batzle_wang/oil_properties.py:oil", S+"material/batzle_wang/oil_properties.py:live_oil")

p("A whole sand row with Brie's mixture of computed liquids and gases is accurate in double arithmetic",
  "Computed in double arithmetic, the bulk and shear modulus, density and both velocities of a friable sand of mixed minerals, filled with Brie's mixture of liquids and gases each of which is given outright or is brine, oil or gas computed from temperature, pressure and composition, differ from their exact values by at most a stated number of units of 2^-52 that depends only on the kinds and numbers of fluids, Brie's exponent, the number of minerals, the ratio between the stiffest and softest mineral and the ratio between grains and packing.",
  "all double rounding functions (round to nearest, unbounded exponent range), all power and exponential functions accurate to one unit, all mineral, liquid and gas lists, Brie exponents, porosities up to critical, stresses and coordination numbers, whose gas is at most 0.99 as stiff and as dense as the liquid, and whose dry rock and fluid are no stiffer than 0.99 of the mineral", "a test compares a few computed values with a tolerance chosen by hand; how errors grow through the chain of models for every input needs a proof",
  S+"__main__.py:calculate_results", S+"material/fluid.py:brie_fluid_mixing", S+"material/fluid.py:fluid_substitution")

p("Contact cement is accurate in double arithmetic",
  "Computed in double arithmetic with polynomials of Poisson's ratio, powers of approximate exponents and the difference of two terms, bulk and shear modulus of a contact-cemented sand differ from their exact values by at most 20000 units of 2^-52 (5e-12 of the value) and its density by at most 200.",
  "all double rounding functions (round to nearest, unbounded exponent range), all power functions accurate to one unit, all cements and grains with Poisson's ratios from 0 to 0.4, cement between a tenth of and ten times as stiff in shear as the grains and not lighter than a quarter of them, all cemented porosities below that of the grain pack, which is below 1, all coordination numbers and shear reductions not negative", "a test compares a few computed values with a tolerance chosen by hand; whether the subtraction in the stiffness polynomials cancels for some input needs a proof",
  S+"material/sandstone/contact_cement.py:contact_cement", S+"material/sandstone/contact_cement.py:shear_stiffness", S+"material/sandstone/contact_cement.py:normal_stiffness", S+"material/sandstone/contact_cement.py:cement_radius_ratio")

p("Constant cement is accurate in double arithmetic",
  "Computed in double arithmetic, bulk modulus, shear modulus and density of a constant-cement sand differ from their exact values by at most 18050 + 1672 (R^2 + S^2) units of 2^-52, where R bounds the ratio between cement and grains and S the ratio between their mix and the contact-cemented sand.",
  "all double rounding functions (round to nearest, unbounded exponent range), all power functions accurate to one unit, all cements and grains as in C192, all porosities from zero to the cemented porosity, contrasts R and S up to 100000", "a test compares a few computed values with a tolerance chosen by hand; how the errors of contact cement grow through two averages for every input needs a proof",
  S+"material/sandstone/constant_cement.py:constant_cement", S+"material/sandstone/contact_cement.py:contact_cement", S+"material/hashin_shtrikman.py:hashin_shtrikman_walpole")

p("Patchy cement is accurate in double arithmetic",
  "Computed in double arithmetic, bulk and shear modulus of a patchy-cement sand, which interpolates between a friable sand and its upper bound with a clipped ratio of differences, differ from their exact values by at most 200 (18050 + 10032 R^2 + 1672 S^2) T units of 2^-52, and the density by at most 122: the differences in the weight do not spoil the result even where they cancel. R bounds the ratio between cement and grains, S those between their mix and the end members, T how much stiffer the upper bound and the cemented line are than the friable sand.",
  "all double rounding functions (round to nearest, unbounded exponent range), all power functions accurate to one unit, all cements and grains as in C192, all porosities, pressures, coordination numbers and shear reductions for which the friable sand lies between the two bounds, all R, S and T with a stated product below 2^50", "the weight divides one small difference by another; whether its rounding error reaches the result for some input, near the point where the bounds meet, needs a proof",
  S+"material/sandstone/patchy_cement.py:patchy_cement", S+"material/sandstone/constant_cement.py:constant_cement", S+"material/sandstone/friable_sand.py:friable_sand")

with open("/verif/properties.jsonl","w") as f:
    for x in P: f.write(json.dumps(x)+"\n")
print(len(P))
