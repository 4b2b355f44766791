# Formal model of open_petro_elastic in Lean 4

The model is about 3 000 lines under `lean/Verif/Model`, one file per part of the code, each definition
with the file and lines it models.  Specifications that a reader needs to understand the theorem
statements, and that do not use the model's helpers, are under `lean/Verif/Spec`.  Property theorems
are under `lean/Verif/Props`, named `Cnn_…` after the entries of `properties.jsonl`; everything else in
these files is helper lemmas.  Beside each theorem stands an `example` (or an `_example`/`_reachable`
theorem) that meets its hypotheses.

## 1. What every theorem rests on

* **Numbers** (`Verif/Num.lean`).  `Num` = the exact real numbers plus `+inf`, `-inf`, `nan`, with the IEEE
  rules for the special values: x/0 = ±inf, 0/0 = nan, every comparison with nan is false, `np.minimum`
  propagates nan, a negative base to a fractional power is nan.  **Not modelled:** rounding, overflow,
  underflow and the sign of zero (x/0 takes the sign of x).  All theorems are about the program in exact
  arithmetic; a claim such as `a <= b` may fail by a last-bit rounding error in the real program.
  Exceptions: the success percentage of `--success_threshold`, whose double rounding is the
  parameter `World.fl` constrained by `Spec/Float.lean` (C53, C83); and `Model/Rounding.lean`, which repeats one
  row of the mixing laws, fluid substitution, velocities, fraction checks, Hertz-Mindlin and friable sand in
  double arithmetic (C166-C176), and `Model/RoundingPoly.lean` likewise for polynomials and brine and `Model/RoundingFluids.lean` for oil and gas and `Model/RoundingCement.lean` for cemented sand (C184-C194):
  every operation rounds to nearest (`RoundsToNearest`, unbounded exponent range, so no overflow and no
  subnormal numbers; C175 replaces this by the bounded range, `RoundsInRange`, for ordinary input) and the power function of the library is accurate to one unit in the last place
  (`PowerAccurate`), likewise the exponential function (`ExpAccurate`).  With no rounding it is the exact model: `double_*_exact`, `walpole_exact`, `mixLoop_exact`.
* **Columns** (`Verif/Col.lean`).  `Col n = Fin n → Num` is a numpy column of `n` rows; `np.any` is "there is a
  row".  A single value next to columns is a constant column (broadcasting).  Where the *shape* of a
  value matters (patchy cement masks, `np.transpose([...])`, in-place subtraction) `Model/Shapes.lean`
  repeats the dry-rock code over values with shapes (C73).
* **Vectorised kernels** (`float_vectorize`, `vec`).  numpy hands Python floats to the kernel, so division by
  zero raises `ZeroDivisionError` (`pyDiv`) and a negative base to a fractional power is a complex number
  (the next comparison raises `TypeError`); the first failing row decides the exception.  Outside kernels
  numpy rules apply.
* **Exceptions** are values: `Except Err`, `Err` being the Python exception class; messages are dropped.
* **In-place changes** are explicit: functions that mutate an argument return its new value (C38, C72).

## 2. Trusted base

* Lean's kernel.  Axioms: every theorem depends on at most `propext`, `Classical.choice`, `Quot.sound`
  (`#print axioms`, and `vcheck`, on every theorem in `MANIFEST.json`).  No axioms of our own, no compiled
  evaluation.
* The reading of /repo, and of Python, numpy (>= 1.24), pandas, pydantic v1, sympy and scipy as recorded in
  the comments at each definition.
* The specifications: `Spec/Published.lean` (Batzle-Wang 1992; Mavko et al., Rock Physics Handbook:
  Hashin-Shtrikman, Hertz-Mindlin, Dvorkin-Nur contact cement, constant cement, patchy cement, Wood, Brie,
  Gassmann; trends), `Spec/Co2.lean` (Span & Wagner 1996), `Spec/Main.lean` (command line), `Spec/Config.lean`
  (column references), `Spec/Parse.lean`, `Spec/ParseRows.lean` (which configurations, rows of a data file),
  `Spec/RowWise.lean` (rows of sections and results), `Spec/Float.lean`, `Spec/Mixing.lean`,
  `Spec/SpanWagner.lean`, `Spec/Order.lean` (reordered keys), `Spec/Schema.lean` (documented keys),
  `Spec/Document.lean` (writing a description as YAML), `Spec/Rows.lean`, `Spec/Adjust.lean`, `Spec/Listed.lean` (columns written as
  lists), `Spec/Mass.lean`, `Spec/Missing.lean`, `Spec/MissingPorosity.lean`, `Spec/MissingFluids.lean` (data files with missing entries), `Spec/Absent.lean`.  The published coefficients were transcribed from memory of the papers and compared with
  the code; one Span-Wagner coefficient (0.143387157568781) is quoted from the code and has one digit more
  than the 14-digit table of the paper.

Evidence that the specifications mean what the tool computes (not part of any proof): `tools/compare_recorded.py`
transliterates `Spec/Published.lean` and `Spec/Co2.lean` into Python and compares them with the outputs recorded in
`/repo/examples/*_calibration.csv` (example1, example2, example3, friable sand, patchy cement, carbon dioxide):
largest relative difference 1.5e-11.

### Parameters (external behaviour that is arbitrary, or constrained by a stated contract)

| parameter | stands for | contract |
|---|---|---|
| `Main.World` | YAML, CSV, parsing, calculation, writing, calibration outcomes | none (C51, C54, C57, C58) |
| `World.fl` | double rounding of the success percentage | `RoundsToNearest` (Spec/Float.lean) |
| `float()` of the argument parser | Python's `float` | none (C56) |
| `Conv` | pydantic's string → float/bool/… conversions | none |
| `CO2.RootFinder` | `scipy.optimize.root_scalar` (method toms748) | for C69, C90, C108, C111: `Brackets` - with a sign change on the bracket it returns a point of the bracket whose function value is within the tolerance |
| Newton and its starting values | `scipy.optimize.newton` on arrays | none (C90 holds for any result) |
| density table | `tables/*.npz` | none (C70) |
| `CO2Model` | what a Span-Wagner constituent evaluates to | none in C07, C38; instantiated by the model of the code (`spanWagner`) in C07_row_wise_span_wagner, C103, C108 |

## 3. What is modelled and what is not

| file | modelled as | left out |
|---|---|---|
| `float_vectorize.py` | `vec` in Col.lean | `np.vectorize` with a signature on zero rows (raises in numpy): expfit/logfit/powerfit on 0 rows |
| `material/material.py`, `seismic_velocity.py`, `conversions.py` | Model/Material.lean | `__repr__`/`__str__` |
| `material/hashin_shtrikman.py` | Model/HashinShtrikman.lean | – |
| `material/fluid.py` | Model/Fluid.lean | – |
| `material/sandstone/*.py` | Model/Sandstone.lean | – (shapes: Model/Shapes.lean; for n = 1 and equal bounds the mask of patchy cement is left open) |
| `material/batzle_wang/*.py` | Model/BatzleWang.lean | `brine` and `oil` return materials, whose constructor checks are modelled |
| `material/span_wagner/*.py` | Model/SpanWagner.lean | sympy's rewriting of the derivative (`powsimp`, `Abs`): `diff` is modelled by a symbolic derivative proved equal to Mathlib's `deriv`; numerical internals of scipy. `generate_span_wagner_tables.py` is Model/LookupTable.lean (reading and writing the binary file left out) |
| `config/dry_rock.py`, `coefficients.py`, `depth_trend.py`, `model.py`, `material_type.py` as objects shared and assigned to | Model/RockObjects.lean | assignments to other attributes than those listed there |
| `config/constituent.py`, `minerals.py`, `fluids.py`, `fluid_model_providers.py` | Model/Minerals.lean, Model/Fluids.lean, Model/Registry.lean, Model/Objects.lean (objects shared between sections) | what third-party providers compute (their registration and selection is Model/Registry.lean) |
| `config/pressure.py`, `model.py`, `pressure_dependency.py`, `depth_trend.py`, `dry_rock.py`, `coefficients.py` | Model/DryRock.lean, Model/Poly.lean | – |
| `config/input.py` (calculation), `__main__.py:make_result…` | Model/Pipeline.lean | – |
| `config/*.py` as pydantic dataclasses, `material_type.py`, `vector_type.py` | Model/Parse.lean | a literal list for a per-row parameter whose length is not the number of rows (refused at once; the code fails later, or broadcasts a list of length one); a reference to several columns where one is needed; bool-mask column lists; non-string keys.  Malformed or non-finite coefficients and fluid types among the minerals are rejected while parsing instead of during the calculation |
| `config/input.py` (column insertion) | Model/Config.lean | – |
| `__main__.calculate_results` called again with the same input | Model/Repeat.lean | |
| warnings of the fluid models (`batzle_wang/*.py`, `span_wagner/*.py`), their display in `__main__.py` | Model/Warnings.lean | the text after the prefix `Warning: `; numpy's own RuntimeWarnings |
| `__main__.py` | Model/Main.lean, Model/CommandLine.lean | argparse's usage output; the text of messages; logging |

pydantic v1 facts used: `validate_all`, `validate_assignment`, `extra = forbid`; a pre root validator sees all
fields; a `Union` takes the first accepting alternative; `ColumnInsertionError` is an `IndexError` and passes
through pydantic unwrapped, `ValidationError` is a `ValueError`, and a `TypeError`/`ValueError`/
`AssertionError` inside a validator is wrapped into it.  `pandas.read_csv` gives row labels 0, 1, ….

## 4. Where the code does not do what it says

Every item is a theorem (`_refuted` with a concrete witness); the largest true part is proved beside it under
`_partial`.  Full statements stay in `properties.jsonl`.

| id | what happens |
|---|---|
| C04 | nan passes every check of `Material`; zero density gives nan velocities |
| C16 | saturations that are all zero are each kept as 1 |
| C25 | some dry rocks stiffer than their mineral are accepted by `fluid_substitution` |
| C28 | sand porosity = cemented porosity = 1 gives nan |
| C36 | three minerals in another order give another bulk modulus |
| C38 | the Span-Wagner CO2 constituent divides `pressure.fluid` by 1e6 in place |
| C41 | a pressure section with neither fluid nor rock pressure is accepted |
| C42 | powerfit compares plain rock pressure with the effective reference pressure |
| C44 | `max_depth` never has an effect (the result of `np.clip` is dropped) |
| C46 | negative porosities are accepted but cannot be evaluated |
| C54 | `InputError` escapes from threshold mode |
| C55 | failed rows are dropped instead of given as NaN |
| C59 | `oil()` evaluates live oil even for gas-oil ratio 0, and hot light live oil has a negative velocity: `ValueError` where `dead_oil()` succeeds |
| C62 | `water()` returns g/cc, `brine()` kg/m3 |
| C72 | elements equal to 1 of the caller's arrays are changed to 1 - 1e-15 |
| C73 | a single value next to columns raises IndexError/ValueError in four places |
| C77 | `ideal_gas` density is 1e12 too large, velocity 1/sqrt(1000) too small |
| C83 | 1 success in 10 rows does not reach a threshold of 10 in double arithmetic |
| C88 | `brie_constant: {column: x}` is accepted only in threshold mode; a list of values, one per row, only in normal mode |
| C91 | the pressure grid of `array_carbon_dioxide_density` ends at 1.01 times the largest temperature |
| C92 | with an array of densities and one temperature the ideal-gas part of the first density is used for all |
| C113 | both configurations in `tutorial_config/` (linked from README.md) and the fluids block of the getting started guide are rejected: the fluids section forbids `pressure`; so is its dry rock block: the power fit forbids the pressures |
| C118 | the output file is opened for writing when its argument is parsed: a bad configuration, data file or later argument leaves it empty |
| C122 | the density search begins at 0.095 kg/m3: dilute carbon dioxide (400 K, 1 kPa) raises ValueError inside the documented range |
| C123 | documented: without a gas the first constituent is the gas; the code then mixes all constituents as liquids |
| C124 | `brie_gases: [-1, -2]`: the second negative index is resolved after the first constituent was removed |
| C131 | documented `c[i][j] * delta_depth^i * X^j`; the code computes `c[i][j] * X^i * delta_depth^j` |
| C132 | documented: dry rock at the effective reference pressure; the code computes it at the effective rock pressure, so pressure dependencies act twice |
| C133 | documented powerfit `c1 + p^c2`; the code computes `c1 * p^c2` |
| C139 | a mineral stiffer than an earlier one, listed in two entries instead of one, changes the mixture: the effective medium takes its bounds from the partial mixture so far |
| C142 | the density of the contact cement model takes the ratio of cement layer radius to grain radius for the volume fraction of cement (porosity 0.40 to 0.364: 12.72 percent counted, 3.6 percent deposited) |
| C145 | a plug-in named `default` passes the collision check, is loaded, and is then overwritten by the Batzle-Wang provider without a word |
| C146 | `brie_gases: [1.7]` is accepted and index 1 is used (pydantic's `int` truncates) |
| C149 | behind a carbon dioxide (which divides the pressure array by 1e6) an oil far above its bubble point is warned about and a brine at 120 MPa is not |
| C154 | an omitted fraction is filled in in the constituent object given by the user: a second section with it is refused or mixes another amount |
| C155 | assigning a fraction of a constituent does not re-check the sections that use it: fractions 0.9 and 0.7 are mixed |
| C156 | a minerals section with a NaN fraction is refused after the omitted fraction has been filled in |
| C158 | with Span-Wagner carbon dioxide every calculation divides the fluid pressure stored in the input by 10^6: the next one with the same input gives other results |
| C159 | carbon dioxide with saturation 0 changes the pressure seen by the constituents after it; with Brie mixing a lone gas with saturation 0 fills whatever the liquids leave |
| C160 | `DryRock` assigns the default coefficients to the coefficient object given by the user where they are None: a depth trend that shares the object gets them too |
| C161 | `DEFAULT_CEMENT` is one object used by all patchy cement models without a cement: assigning to the cement of one changes the default for all |
| C162 | assigning moduli or density of a material leaves its velocities as they were |
| C163 | assigning the porosity of a dry rock is not compared with the critical porosity |

Other observations (covered by proved theorems, not by a refuted property): an untagged `friable_sand` section is read as
patchy cement and an untagged `{coefficients}` pressure dependency never as polyfit/expfit (C47); the coordination
number of patchy cement is used for its friable part only (C99, C102); `cement_radius_ratio` calls `np.clip`
with swapped bounds, which makes it `minimum(1, ·)` (C28); far below the triple point the CO2 density
bracket is empty (C69); the default configuration has dry moduli of 2510 and 1460 **Pa** (C106); nan fractions pass
every fraction check (C107 is stated for numbers); the docstring of `DryRock` has the exponents of the
coefficient matrix the other way round than the code (C45, C102 state what the code does).

## 5. Plan and method per property

| id | property | modelled | proof | status and theorems (prefix `OPE.`) |
|---|---|---|---|---|
| C01 | Material velocities and moduli agree | `Material.__init__`, `set_defaults`, seismic_velocity.py, all 32 argument subsets (Model/Material) | algebra on reals, case split on which arguments are given; witness for C04 | proved: `C01_velocities_agree` - all column lengths |
| C02 | Moduli/velocity round trip | `Material.__init__`, `set_defaults`, seismic_velocity.py, all 32 argument subsets (Model/Material) | algebra on reals, case split on which arguments are given; witness for C04 | proved: `C02_moduli_round_trip`, `C02_velocity_round_trip` |
| C03 | No negative property survives construction | `Material.__init__`, `set_defaults`, seismic_velocity.py, all 32 argument subsets (Model/Material) | algebra on reals, case split on which arguments are given; witness for C04 | proved: `C03_no_negative_property`, `C03_negative_argument_rejected`, `C03_given_arguments_kept` - all 32 argument subsets, all values incl. nan/inf |
| C04 | Material never carries an undefined number | `Material.__init__`, `set_defaults`, seismic_velocity.py, all 32 argument subsets (Model/Material) | algebra on reals, case split on which arguments are given; witness for C04 | partial: `C04_refuted_nan`, `C04_refuted_zero_density`, `C04_partial` - the code violates it: nan passes every check, zero density gives nan velocities; holds for finite arguments and positive density |
| C05 | Derived ratios are physical | `Material.__init__`, `set_defaults`, seismic_velocity.py, all 32 argument subsets (Model/Material) | algebra on reals, case split on which arguments are given; witness for C04 | proved: `C05_derived_ratios` |
| C06 | Which argument combinations are accepted | `Material.__init__`, `set_defaults`, seismic_velocity.py, all 32 argument subsets (Model/Material) | algebra on reals, case split on which arguments are given; witness for C04 | proved: `C06_insufficient_rejected`, `C06_sufficient_accepted` |
| C07 | Whole calculation is row-wise | every function from sections to result table (Model/Pipeline) | naturality: each function commutes with taking a row; `vec` succeeds iff every row does | proved: `C07_input_row_wise`, `C07_calculation_row_wise`, `C07_row_wise`, `CO2.C07_carbon_dioxide_row_wise`, `CO2.C07_row_wise_span_wagner` - from sections to result table, including the Span-Wagner CO2 model of the code for every root finder and table |
| C08 | Hashin-Shtrikman-Walpole stays between its constituents | hashin_shtrikman.py (Model/HashinShtrikman) | closed form (f1/(k1+z)+f2/(k2+z))^-1 - z, monotone in z | proved: `C08_between_constituents` |
| C09 | Lower bound below upper bound | hashin_shtrikman.py (Model/HashinShtrikman) | closed form (f1/(k1+z)+f2/(k2+z))^-1 - z, monotone in z | proved: `C09_C12_bounds_ordered` |
| C10 | Walpole mix end points | hashin_shtrikman.py (Model/HashinShtrikman) | closed form (f1/(k1+z)+f2/(k2+z))^-1 - z, monotone in z | proved: `C10_end_points` |
| C11 | Walpole mix is symmetric | hashin_shtrikman.py (Model/HashinShtrikman) | closed form (f1/(k1+z)+f2/(k2+z))^-1 - z, monotone in z | proved: `C11_symmetric` |
| C12 | Walpole bounds are tighter than Voigt/Reuss | hashin_shtrikman.py (Model/HashinShtrikman) | closed form (f1/(k1+z)+f2/(k2+z))^-1 - z, monotone in z | proved: `C09_C12_bounds_ordered` |
| C13 | Ratio check | hashin_shtrikman.py (Model/HashinShtrikman) | closed form (f1/(k1+z)+f2/(k2+z))^-1 - z, monotone in z | proved: `C13_bad_ratio_rejected`, `C13_bad_bound_rejected`, `C13_ratio_accepted_iff`, `C13_bound_and_average_accepted_iff` |
| C14 | Walpole mix is monotone in the ratio | hashin_shtrikman.py (Model/HashinShtrikman) | closed form (f1/(k1+z)+f2/(k2+z))^-1 - z, monotone in z | proved: `C14_monotone_in_ratio` |
| C15 | Hashin-Shtrikman bound and average | hashin_shtrikman.py (Model/HashinShtrikman) | closed form (f1/(k1+z)+f2/(k2+z))^-1 - z, monotone in z | proved: `C15_bound_is_walpole`, `C15_average` |
| C16 | Saturations are normalised | fluid.py, Wood and Brie mixing (Model/Fluid) | induction over lists of fluids, permutation lemmas; witness for C16 | partial: `C16_partial`, `C16_refuted` - the code violates it when two or more saturations are all zero (each is kept as 1); holds for every total >= 1e-15 |
| C17 | Wood mixing stays between its fluids | fluid.py, Wood and Brie mixing (Model/Fluid) | induction over lists of fluids, permutation lemmas; witness for C16 | proved: `C17_wood_is_reuss` - any number of fluids |
| C18 | Wood mixing ignores order and scale | fluid.py, Wood and Brie mixing (Model/Fluid) | induction over lists of fluids, permutation lemmas; witness for C16 | proved: `C18_wood_order_irrelevant`, `C18_wood_scale_irrelevant` |
| C19 | Brie mixing end points and range | fluid.py, Wood and Brie mixing (Model/Fluid) | induction over lists of fluids, permutation lemmas; witness for C16 | proved: `C19_brie_end_points_and_range`, `C19_brie_monotone` |
| C20 | Brie mixing argument errors | fluid.py, Wood and Brie mixing (Model/Fluid) | induction over lists of fluids, permutation lemmas; witness for C16 | proved: `C20_length_mismatch`, `C20_no_constituents`, `C20_one_phase` |
| C21 | Gassmann's equation holds | `fluid_substitution` (Model/Fluid) | algebra; C25 exact acceptance condition and witness | proved: `C21_gassmann_equation` |
| C22 | Saturation stiffens within bounds | `fluid_substitution` (Model/Fluid) | algebra; C25 exact acceptance condition and witness | proved: `C22_saturated_between`, `C22_monotone` |
| C23 | Fluid substitution leaves shear alone and adds fluid mass | `fluid_substitution` (Model/Fluid) | algebra; C25 exact acceptance condition and witness | proved: `C23_shear_and_density`, `C23_empty_fluid`, `C23_empty_fluid_any` |
| C24 | Fluid substitution is reversible | `fluid_substitution` (Model/Fluid) | algebra; C25 exact acceptance condition and witness | proved: `C24_invertible`, `C24_injective` |
| C25 | Unsuitable moduli are rejected | `fluid_substitution` (Model/Fluid) | algebra; C25 exact acceptance condition and witness | partial: `C25_partial`, `C25_refuted` - the code accepts some dry rocks stiffer than their mineral; C25_partial gives the exact acceptance condition |
| C26 | Hertz-Mindlin pressure law | sandstone/*.py (Model/Sandstone) | rpow lemmas, monotonicity of the Walpole bound in its second material; contact-cement polynomials bounded below | proved: `C26_pressure_law`, `C26_zero_increasing_ratio` |
| C27 | Friable sand density and end points | sandstone/*.py (Model/Sandstone) | rpow lemmas, monotonicity of the Walpole bound in its second material; contact-cement polynomials bounded below | proved: `C27_density_and_range`, `C27_zero_pressure` - pressure 0 raises ZeroDivisionError |
| C28 | Cement radius ratio | sandstone/*.py (Model/Sandstone) | rpow lemmas, monotonicity of the Walpole bound in its second material; contact-cement polynomials bounded below | partial: `C28_rejects_exactly`, `C28_partial`, `C28_sand_porosity_one`, `C28_refuted` - the code violates it at the single point sand = cemented porosity = 1 (nan); proved everywhere else |
| C29 | Patchy cement lies between friable sand and the cemented upper bound | sandstone/*.py (Model/Sandstone) | rpow lemmas, monotonicity of the Walpole bound in its second material; contact-cement polynomials bounded below | proved: `C29_between_friable_and_cemented` - finite, physically meaningful arguments (PatchyIn); with nan arguments 'between' has no meaning |
| C30 | Patchy cement grows with pressure | sandstone/*.py (Model/Sandstone) | rpow lemmas, monotonicity of the Walpole bound in its second material; contact-cement polynomials bounded below | proved: `C30_friable_monotone`, `C30_patchy_monotone` |
| C31 | Murphy coordination number | sandstone/*.py (Model/Sandstone) | rpow lemmas, monotonicity of the Walpole bound in its second material; contact-cement polynomials bounded below | proved: `C31_murphy` |
| C32 | Constant cement end points | sandstone/*.py (Model/Sandstone) | rpow lemmas, monotonicity of the Walpole bound in its second material; contact-cement polynomials bounded below | proved: `C32_end_points`, `C32_end_points_defined` |
| C33 | One missing fraction is filled | constituent.py, minerals.py (Model/Minerals) | induction over the constituent list; three-mineral witness for C36 | proved: `C33_one_missing_filled`, `C33_none_missing_kept`, `C33_rejected` |
| C34 | Mineral mix density is the weighted average | constituent.py, minerals.py (Model/Minerals) | induction over the constituent list; three-mineral witness for C36 | proved: `C34_density_weighted_average` - any number of minerals |
| C35 | Mineral mix stays within its constituents | constituent.py, minerals.py (Model/Minerals) | induction over the constituent list; three-mineral witness for C36 | proved: `C35_within_constituents` - any number of minerals |
| C36 | Mineral mix does not depend on the order | constituent.py, minerals.py (Model/Minerals) | induction over the constituent list; three-mineral witness for C36 | partial: `C36_partial`, `C36_refuted` - the code violates it: three minerals in another order give another bulk modulus; holds for two minerals and for density |
| C37 | Zero-fraction minerals do not matter | constituent.py, minerals.py (Model/Minerals) | induction over the constituent list; three-mineral witness for C36 | proved: `C37_zero_fraction_ignored` |
| C38 | Mixing fluids has no side effects and no order dependence | fluids.py, fluid_model_providers.py, pressure section as state (Model/Fluids) | state-passing model, list lemmas; witness for C38 | partial: `C38_partial`, `C38_pressure_afterwards`, `C38_refuted` - the code violates it: Span-Wagner CO2 divides pressure.fluid by 1e6 in place; exact side effect proved, and the claim proved for sections without Span-Wagner CO2 |
| C39 | Fluid model selection | fluids.py, fluid_model_providers.py, pressure section as state (Model/Fluids) | state-passing model, list lemmas; witness for C38 | proved: `C39_own_model_wins`, `C39_unsupported`, `C39_explicit_materials` |
| C40 | Brie gas selection | fluids.py, fluid_model_providers.py, pressure section as state (Model/Fluids) | state-passing model, list lemmas; witness for C38 | proved: `C40_brie_selection`, `C40_default_gases`, `C40_given_gases`, `C40_out_of_range` |
| C41 | Effective pressures | pressure.py, model.py, pressure_dependency.py, depth_trend.py, dry_rock.py (Model/DryRock) | algebra, fold laws, inequalities; witnesses | partial: `C41_effective_pressures`, `C41_refuted` - all but one clause proved; the code accepts a section with neither fluid nor rock pressure (C41_refuted) |
| C42 | Pressure dependency is the identity at reference pressure | pressure.py, model.py, pressure_dependency.py, depth_trend.py, dry_rock.py (Model/DryRock) | algebra, fold laws, inequalities; witnesses | partial: `C42_partial`, `C42_powerfit_partial`, `C42_refuted` - proved for polyfit, expfit, logfit, friable, patchy; the code violates it for powerfit, which compares the plain rock pressure with the effective reference pressure |
| C43 | Adjustments compose in list order | pressure.py, model.py, pressure_dependency.py, depth_trend.py, dry_rock.py (Model/DryRock) | algebra, fold laws, inequalities; witnesses | proved: `C43_no_adjustment`, `C43_append`, `C43_first_error`, `C43_dry_rock_material` |
| C44 | Depth trend honours max_depth | pressure.py, model.py, pressure_dependency.py, depth_trend.py, dry_rock.py (Model/DryRock) | algebra, fold laws, inequalities; witnesses | partial: `C44_partial`, `C44_refuted` - the code violates it: max_depth never has an effect (np.clip result dropped) |
| C45 | 2-d polynomial fit | polyval2d as numpy's Horner scheme, `polyval_material` (Model/Poly) | induction over coefficient rows | proved: `C45_moduli_fit`, `C45_velocity_fit`, `C45_identity`, `C45_invalid_rejected` - any coefficient matrix size |
| C46 | Porosity validation | pressure.py, model.py, pressure_dependency.py, depth_trend.py, dry_rock.py (Model/DryRock) | algebra, fold laws, inequalities; witnesses | partial: `C46_friable_accepts_exactly`, `C46_patchy_accepts_exactly`, `C46_polyfit_accepts`, `C46_friable_partial`, `C46_patchy_partial`, `C46_refuted` - acceptance is characterised exactly; the second half is violated by negative porosities, which are accepted but cannot be evaluated |
| C47 | Type tag decides which section is parsed | pydantic dataclasses and unions over configuration trees (Model/Parse) | case analysis on keys, list lookup lemmas; expected values given by Spec/Parse | proved: `Parse.C47_material`, `Parse.C47_accepted`, `Parse.C47_order_irrelevant`, `Parse.C47_sandstone`, `Parse.C47_pressure_dependency` - mappings; for lists see C147 |
| C48 | Coefficients are either moduli or velocities | pydantic dataclasses and unions over configuration trees (Model/Parse) | case analysis on keys, list lookup lemmas; expected values given by Spec/Parse | proved: `Parse.C48_coefficients`, `Parse.C48_list`, `Parse.C48_mixed_rejected`, `Parse.C48_none_missing`, `Parse.C48_defaults` |
| C49 | CSV columns are inserted everywhere and only there | `insert_from_dataframe` on nested trees (Model/Config) | structural induction against Spec/Config | proved: `C49_replaces_exactly`, `C49_no_reference_left`, `C49_idempotent`, `C49_fails_iff`, `C49_missing_column` - configurations of any depth and breadth |
| C50 | Column references need data | `insert_from_dataframe` on nested trees (Model/Config) | structural induction against Spec/Config | proved: `C50_reference_needs_data` - configurations of any depth and breadth |
| C51 | Exit codes | `__main__.py` with outcomes as parameters (Model/Main) | case analysis, induction over row lists against Spec/Main; witnesses | proved: `Main.C51_exit_codes` - all outcomes of YAML, CSV, parsing, calculation, writing and calibration are arbitrary |
| C52 | Threshold mode keeps exactly the successful rows | `__main__.py` with outcomes as parameters (Model/Main) | case analysis, induction over row lists against Spec/Main; witnesses | proved: `Main.C52_threshold_rows`, `Main.C52_no_rows`, `Main.C52_no_data` - in exact arithmetic; rounding is C83. With no successful row the code is -1, with no rows -1 |
| C53 | Threshold mode equals normal mode when every row succeeds | `__main__.py` with outcomes as parameters (Model/Main) | case analysis, induction over row lists against Spec/Main; witnesses | proved: `Main.C53_modes_agree`, `Main.C53_yaml` - whole outcome equal, with double rounding of the percentage; C53_yaml starts from the YAML tree and CSV rows; configurations with column references in global parameters or lists for per-row parameters are excluded (C88) |
| C54 | Threshold mode reports bad input | `__main__.py` with outcomes as parameters (Model/Main) | case analysis, induction over row lists against Spec/Main; witnesses | partial: `Main.C54_refuted`, `Main.C54_partial` - the code violates it: InputError escapes from run_with_threshold; with readable files no exception escapes |
| C55 | Failed rows appear as NaN rows | `__main__.py` with outcomes as parameters (Model/Main) | case analysis, induction over row lists against Spec/Main; witnesses | partial: `Main.C55_refuted`, `Main.C55_partial` - the code violates it: failed rows are dropped from the output |
| C56 | Threshold argument | `__main__.py` with outcomes as parameters (Model/Main) | case analysis, induction over row lists against Spec/Main; witnesses | proved: `Main.C56_threshold_argument` - float() is a parameter |
| C57 | Output is written only for a complete result | `__main__.py` with outcomes as parameters (Model/Main) | case analysis, induction over row lists against Spec/Main; witnesses | proved: `Main.C57_written_once` |
| C58 | Calibration error | `__main__.py` with outcomes as parameters (Model/Main) | case analysis, induction over row lists against Spec/Main; witnesses | proved: `Main.C58_statistics`, `Main.C58_prints`, `Main.C58_missing_column`, `Main.C58_compared_columns` - rows are aligned with the calibration file by label |
| C59 | Oil blends dead and live oil | batzle_wang/*.py (Model/BatzleWang) | algebra, HasDerivAt, monotonicity of rpow/exp, interval bounds, Bernstein forms of the water polynomials; witnesses for C59, C62, C77 | partial: `C59_blend`, `C59_ends`, `C59_continuous`, `C59_refuted`, `C59_usual_range_partial` - the code violates it: live oil is evaluated even where it has no weight, and its negative velocity makes hot light oil without gas (300 C, 700 kg/m3, no pressure) raise although dead_oil accepts it. Proved wherever live oil is accepted, in particular for 0..150 C, 0..100 MPa, gas-oil ratios up to 400 |
| C60 | Gas compressibility derivative | batzle_wang/*.py (Model/BatzleWang) | algebra, HasDerivAt, monotonicity of rpow/exp, interval bounds, Bernstein forms of the water polynomials; witnesses for C59, C62, C77 | proved: `C60_rate_is_derivative` |
| C61 | Gas units are consistent | batzle_wang/*.py (Model/BatzleWang) | algebra, HasDerivAt, monotonicity of rpow/exp, interval bounds, Bernstein forms of the water polynomials; witnesses for C59, C62, C77 | proved: `C61_gas_density_units` |
| C62 | Fresh brine is water | batzle_wang/*.py (Model/BatzleWang) | algebra, HasDerivAt, monotonicity of rpow/exp, interval bounds, Bernstein forms of the water polynomials; witnesses for C59, C62, C77 | partial: `C62_partial`, `C62_refuted` - the code violates it for density: water() returns g/cc, brine() kg/m3; velocities agree and densities agree up to exactly 1000 |
| C63 | Bubble point trends | batzle_wang/*.py (Model/BatzleWang) | algebra, HasDerivAt, monotonicity of rpow/exp, interval bounds, Bernstein forms of the water polynomials; witnesses for C59, C62, C77 | proved: `C63_bubble_point_trends` |
| C64 | Dead oil trends | batzle_wang/*.py (Model/BatzleWang) | algebra, HasDerivAt, monotonicity of rpow/exp, interval bounds, Bernstein forms of the water polynomials; witnesses for C59, C62, C77 | proved: `C64_dead_oil_trends` |
| C65 | Fluids do not carry shear | batzle_wang/*.py (Model/BatzleWang) | algebra, HasDerivAt, monotonicity of rpow/exp, interval bounds, Bernstein forms of the water polynomials; witnesses for C59, C62, C77 | proved: `C65_no_shear`, `CO2.C65_carbon_dioxide` |
| C66 | Ideal-gas Helmholtz derivatives | equations.py, coefficients.py, Helmholtz energy with in-place change of arguments (Model/SpanWagner) | symbolic derivative = Mathlib derivative; limits; witnesses | proved: `CO2.C66_ideal_gas_derivatives` |
| C67 | CO2 pressure derivative | equations.py, coefficients.py, Helmholtz energy with in-place change of arguments (Model/SpanWagner) | symbolic derivative = Mathlib derivative; limits; witnesses | proved: `CO2.C67_residual_derivatives`, `CO2.C67_pressure_derivative` - reduced density or temperature exactly 1, where the code moves the value by 1e-15, is excluded from the derivative statements |
| C68 | Phase curves meet | phase curves, density brackets, root finding, table lookup (Model/SpanWagner) | monotonicity and numeric bounds; root finder as parameter with contract | proved: `CO2.C68_curves_meet`, `CO2.C68_order`, `CO2.C68_monotone`, `CO2.C68_defined` |
| C69 | CO2 density bracket | phase curves, density brackets, root finding, table lookup (Model/SpanWagner) | monotonicity and numeric bounds; root finder as parameter with contract | proved: `CO2.C69_bracket`, `CO2.C69_solution`, `CO2.C69_solution_reachable`, `CO2.C69_no_value_error`, `CO2.C69_search_error`, `CO2.C69_cold_bracket_empty` - the root finder is a parameter with a bracketing contract; far below the triple point the bracket is empty (C69_cold_bracket_empty) |
| C70 | Tabulated CO2 density | phase curves, density brackets, root finding, table lookup (Model/SpanWagner) | monotonicity and numeric bounds; root finder as parameter with contract | proved: `CO2.C70_lookup`, `CO2.C70_given_density` - scipy's nearest rule is modelled; the table file is a parameter |
| C71 | Isentropic CO2 modulus | equations.py, coefficients.py, Helmholtz energy with in-place change of arguments (Model/SpanWagner) | symbolic derivative = Mathlib derivative; limits; witnesses | proved: `CO2.C71_isentropic_ge_isothermal`, `CO2.C71_speed_of_sound`, `CO2.C71_dilute` |
| C72 | CO2 energy functions do not modify their inputs | equations.py, coefficients.py, Helmholtz energy with in-place change of arguments (Model/SpanWagner) | symbolic derivative = Mathlib derivative; limits; witnesses | partial: `CO2.C72_refuted`, `CO2.C72_partial` - the code violates it: elements equal to 1 of the caller's arrays are changed to 1-1e-15; nothing else changes |
| C73 | One value is used for all rows | dry rock with shapes (Model/Shapes) | erasing shapes commutes where no mask/stack/in-place operation is involved; witnesses | partial: `Shapes.C73_single_is_column_partial`, `Shapes.C73_polyfit_single`, `Shapes.C73_refuted_patchy`, `Shapes.C73_refuted_patchy_example`, `Shapes.C73_refuted_patchy_zero`, `Shapes.C73_refuted_patchy_zero_example`, `Shapes.C73_refuted_friable_dependency`, `Shapes.C73_refuted_friable_example`, `Shapes.C73_refuted_depth_trend`, `Shapes.C73_refuted_depth_example` - the code violates it: patchy cement with single porosity but a column of lower-bound pressures or coordination numbers (IndexError), patchy cement with a single porosity of zero but a column of cement fractions (ValueError), friable/patchy pressure dependency with single porosity but a pressure column (ValueError), single depth with a column of reference depths (ValueError). Proved for the dry rock whenever the porosity is a column, and for the other combinations listed in the theorem |
| C74 | Contact cement is defined on its textbook domain | sandstone/*.py (Model/Sandstone) | rpow lemmas, monotonicity of the Walpole bound in its second material; contact-cement polynomials bounded below | proved: `C74_contact_cement_defined` |
| C75 | Patchy cement is defined on its textbook domain | sandstone/*.py (Model/Sandstone) | rpow lemmas, monotonicity of the Walpole bound in its second material; contact-cement polynomials bounded below | proved: `C75_patchy_cement_defined` |
| C76 | Accepted mineral sections | constituent.py, minerals.py (Model/Minerals) | induction over the constituent list; three-mineral witness for C36 | proved: `C76_minerals_accepted` |
| C77 | Ideal gas units | batzle_wang/*.py (Model/BatzleWang) | algebra, HasDerivAt, monotonicity of rpow/exp, interval bounds, Bernstein forms of the water polynomials; witnesses for C59, C62, C77 | partial: `C77_refuted`, `C77_partial` - the code violates it: density is exactly 10^12 too large, velocity exactly 1/sqrt(1000) too small |
| C78 | Dead oil is defined on its usual range | batzle_wang/*.py (Model/BatzleWang) | algebra, HasDerivAt, monotonicity of rpow/exp, interval bounds, Bernstein forms of the water polynomials; witnesses for C59, C62, C77 | proved: `C78_dead_oil_defined` |
| C79 | Oil is defined on its usual range | batzle_wang/*.py (Model/BatzleWang) | algebra, HasDerivAt, monotonicity of rpow/exp, interval bounds, Bernstein forms of the water polynomials; witnesses for C59, C62, C77 | proved: `C79_oil_defined` - above the range live oil can be rejected, see C59_refuted |
| C80 | Water and brine are defined on their usual range | batzle_wang/*.py (Model/BatzleWang) | algebra, HasDerivAt, monotonicity of rpow/exp, interval bounds, Bernstein forms of the water polynomials; witnesses for C59, C62, C77 | proved: `C80_brine_defined` - Bernstein coefficients on the box are positive |
| C81 | Pressure adjustments chain | pressure.py, model.py, pressure_dependency.py, depth_trend.py, dry_rock.py (Model/DryRock) | algebra, fold laws, inequalities; witnesses | proved: `C81_chain` |
| C82 | Friable and patchy pressure dependency | pressure.py, model.py, pressure_dependency.py, depth_trend.py, dry_rock.py (Model/DryRock) | algebra, fold laws, inequalities; witnesses | proved: `C82_friable`, `C82_patchy` |
| C83 | Threshold is compared exactly | `__main__.py` with outcomes as parameters (Model/Main) | case analysis, induction over row lists against Spec/Main; witnesses | partial: `Main.C83_refuted`, `Main.C83_partial` - the code violates it: 1 success in 10 rows does not reach a threshold of 10 in double arithmetic; extremes are exact |
| C84 | A complete friable-sand calculation succeeds | the whole friable-sand calculation (Model/Pipeline) | chain of the acceptance theorems of each part | proved: `C84_friable_run` |
| C85 | Given values are used, omitted ones take the documented defaults | pydantic dataclasses and unions over configuration trees (Model/Parse) | case analysis on keys, list lookup lemmas; expected values given by Spec/Parse | proved: `Parse.C85_pressure`, `Parse.C85_fluid_types`, `Parse.C85_sandstone`, `Parse.C85_fluids`, `Parse.C85_dry_rock`, `Parse.C85_constituent`, `Parse.C85_depth_trend`, `Parse.C85_pressure_dependency`, `Parse.C85_empty` |
| C86 | Unknown keys are rejected | pydantic dataclasses and unions over configuration trees (Model/Parse) | case analysis on keys, list lookup lemmas; expected values given by Spec/Parse | proved: `Parse.C86_unknown_keys`, `Parse.C86_top_level`, `Shipped.C86_section_in_file` |
| C87 | Results row by row from the files | parsing and calculation from YAML tree and CSV rows (Model/Parse, Model/Main) | row-wise parsing by induction on trees, then C07; witness | proved: `Parse.C87_reading_row_wise`, `Main.C87_row_wise` |
| C88 | Both modes accept the same configurations | parsing and calculation from YAML tree and CSV rows (Model/Parse, Model/Main) | row-wise parsing by induction on trees, then C07; witness | partial: `Main.C88_modes_accept_alike_refuted`, `Main.C88_modes_accept_alike_refuted_lists`, `Main.C53_yaml` - the code violates it for brie_constant: {column: x} and for lists of values; proved when global parameters do not refer to columns and per-row parameters are not lists (C53_yaml) |
| C89 | CO2 becomes an ideal gas when dilute | equations.py, coefficients.py, Helmholtz energy with in-place change of arguments (Model/SpanWagner) | symbolic derivative = Mathlib derivative; limits; witnesses | proved: `CO2.C89_ideal_gas_limit` |
| C90 | Array densities are certified | phase curves, density brackets, root finding, table lookup (Model/SpanWagner) | monotonicity and numeric bounds; root finder as parameter with contract | proved: `CO2.C90_certified`, `CO2.C90_numbers` - Newton's method and the starting values are parameters |
| C91 | Array densities in the documented range | phase curves, density brackets, root finding, table lookup (Model/SpanWagner) | monotonicity and numeric bounds; root finder as parameter with contract | partial: `CO2.C91_refuted`, `CO2.C91_refuted_in_range`, `CO2.C91_partial` - the code violates it: the pressure grid ends at 1.01 times the largest temperature |
| C92 | Helmholtz energy of several densities at one temperature | equations.py, coefficients.py, Helmholtz energy with in-place change of arguments (Model/SpanWagner) | symbolic derivative = Mathlib derivative; limits; witnesses | partial: `CO2.C92_refuted`, `CO2.C92_partial` - the code violates it for order (0,0): the ideal gas part of the first density is used for all |
| C93 | Water and brine follow Batzle and Wang | batzle_wang/*.py against Spec/Published | each kernel unfolded to the published equation, derivative by HasDerivAt | proved: `C93_water_and_brine` |
| C94 | Oil follows Batzle and Wang | batzle_wang/*.py against Spec/Published | each kernel unfolded to the published equation, derivative by HasDerivAt | proved: `C94_oil` |
| C95 | Gas follows Batzle and Wang | batzle_wang/*.py against Spec/Published | each kernel unfolded to the published equation, derivative by HasDerivAt | proved: `C95_gas` |
| C96 | Hashin-Shtrikman bounds follow the handbook | hashin_shtrikman.py, sandstone/*.py against Spec/Published | algebra | proved: `C96_hashin_shtrikman` |
| C97 | Friable sand follows the handbook | hashin_shtrikman.py, sandstone/*.py against Spec/Published | algebra | proved: `C97_friable_sand` |
| C98 | Cemented sand follows the handbook | hashin_shtrikman.py, sandstone/*.py against Spec/Published | algebra | proved: `C98_contact_and_constant_cement` |
| C99 | Patchy cement follows its publication | hashin_shtrikman.py, sandstone/*.py against Spec/Published | algebra | proved: `C99_patchy_cement` |
| C100 | Mineral mixtures follow the published rule | sections of the configuration against Spec/Published | induction over lists; polynomial evaluation | proved: `C100_mineral_mixture` |
| C101 | Pressure-trend adjustments follow their formulas | sections of the configuration against Spec/Published | induction over lists; polynomial evaluation | proved: `C101_trends`, `C101_power` |
| C102 | Dry rock sections follow their formulas | sections of the configuration against Spec/Published | induction over lists; polynomial evaluation | proved: `C102_friable`, `C102_patchy`, `C102_default_polyfit` |
| C103 | Constituent fluids follow Batzle and Wang | sections of the configuration against Spec/Published | induction over lists; polynomial evaluation | proved: `C103_constituents` |
| C104 | Fluid mixing and substitution follow the handbook | sections of the configuration against Spec/Published | induction over lists; polynomial evaluation | proved: `C104_mixing_and_gassmann` |
| C105 | The whole calculation follows the published formulas | whole calculation, and the empty configuration, against Spec/Published | composition of C93-C104 | proved: `C105_friable`, `C105_patchy`, `C105_polyfit`, `C105_friable_softer`, `C105_patchy_softer` - carbon dioxide, depth trends, velocity trends and missing fractions are covered by other properties |
| C106 | The empty configuration | whole calculation, and the empty configuration, against Spec/Published | composition of C93-C104 | proved: `C106_empty_configuration` - the default dry rock moduli are 2510 and 1460 Pa |
| C107 | Which fractions are accepted | fraction checks of fluids and minerals (Model/Minerals, Model/Fluids) | induction over the constituent list with the filled fraction | proved: `C107_fluids`, `C107_minerals` - an exact characterisation with the values of the accepted section |
| C108 | Carbon dioxide follows Span & Wagner (1996) | carbon dioxide against Spec/Co2 with Mathlib derivatives | symbolic derivative theorem, term-by-term comparison of the 42 residual terms | proved: `CO2.C108_helmholtz`, `CO2.C108_pressure`, `CO2.C108_bulk_modulus`, `CO2.C108_bulk_modulus_reachable`, `CO2.C108_phase_boundaries`, `CO2.C108_density`, `CO2.C108_material` - independent specification in Spec/Co2.lean with Mathlib derivatives; at the critical temperature or density the residual part is taken at 1 - 1e-15 (C108_helmholtz); the bulk modulus where the second temperature derivative is not zero; the root finder is a parameter with a bracketing contract |
| C109 | All dry rocks and adjustments follow their formulas | every dry rock model and every list of adjustments (Model/DryRock, Model/Poly) against Spec/Adjust, Spec/Published | induction over the adjustment list; the intermediate material is determined by its moduli and density (Mat.Coherent) | proved: `C109_all_dry_rocks_and_adjustments` - hypotheses met by exAdjusted_ok (velocity trend, power trend, friable-sand dependency and depth trend in one list) |
| C110 | Omitted fractions | fraction filling in the whole calculation | both sections evaluate to the same constituents | proved: `C110_omitted_fractions` |
| C111 | Carbon dioxide in the calculation | carbon dioxide constituent in the whole calculation against Spec/Co2 | composition of C108 and C109 | proved: `C111_carbon_dioxide` - the root finder is a parameter with the bracketing contract Brackets; whenever the densities are found |
| C112 | The shipped examples | the example files as YAML terms (Model/Shipped, generated), read by Model/Parse and calculated | evaluation of the reader; numeric bounds for every model in the file (fluid softer than dense packing, porosity below critical); C105 | proved: `Shipped.C112_friable_sand`, `Shipped.C112_patchy_cement`, `Shipped.C112_example1`, `Shipped.C112_example2`, `Shipped.C112_example3` - the yaml terms in Model/Shipped.lean are generated from the files by tools/make_examples.py; ranges: porosity in (0, 0.3], fluid pressure up to 73 MPa, rock pressure below overburden; example 2: porosity in (0, 1), rock pressure from 1 MPa, depth 0 to 1e6; example 3: porosity in (0, 0.3], rock pressure in [0, 50 MPa) |
| C113 | The documented configurations are accepted | README and tutorial files as YAML terms | refuted: C86 at file level | partial: `Shipped.C113_readme_tutorial_refuted`, `Shipped.C113_getting_started_refuted`, `Shipped.C113_packaged_tutorial`, `Shipped.C113_docs_minerals`, `Shipped.C113_docs_columns`, `Shipped.C113_docs_adjusting` - the code violates it: both README configurations, and the fluids and dry rock blocks of the getting started guide, have keys the code forbids, and are rejected whatever the data; proved for the tutorial of the package and the four other blocks |
| C114 | A configuration is read as what it says | Model/Parse, Model/Config against the declarative format of Spec/Document | for each kind of mapping: insertion and arguments of a mapping in any key order; earlier alternatives of a Union fail by their type tag or by an unknown key; induction over lists, vectors, matrices | proved: `Doc.C114_says`, `Doc.C114_says_no_data` - the format is Spec/Document.lean, independent of the reader; example: examples/example2.yaml and the empty file satisfy it (Props/Document6) |
| C115 | An accepted configuration has only documented keys and names | Model/Parse, Model/Config against Spec/Schema | inversion of every reader; insertion keeps keys | proved: `Schema.C115_schema` - the necessary format is Spec/Schema.lean; contents of coefficient arrays are not described there (C48, C85) |
| C116 | The order of keys does not matter | Model/Parse, Model/Config, Model/Main against Spec/Order | every reader gives the same on documents equal up to key order; insertion preserves it | proved: `Parse.C116_key_order`, `Main.C116_run` |
| C117 | Only the output file changes, and it holds the table | Model/CommandLine: argparse actions from left to right on an abstract disk, then Model/Main | induction over the argument list with a frame condition; C118 refuted by an invalid configuration | proved: `Cli.C117_only_outputs_change`, `Cli.C117_success` - yaml, csv and text rendering are parameters; the argument - (standard streams) is not modelled |
| C118 | A failed run leaves an existing output file alone | Model/CommandLine: argparse actions from left to right on an abstract disk, then Model/Main | induction over the argument list with a frame condition; C118 refuted by an invalid configuration | partial: `Cli.C118_refuted`, `Cli.C118_partial` - the code violates it: output files are opened for writing while arguments are parsed, so they are emptied whenever a later argument or the configuration is bad; proved: nothing but an empty file or the old one is left |
| C119 | Generating the tutorial overwrites nothing | Model/CommandLine: argparse actions from left to right on an abstract disk, then Model/Main | induction over the argument list with a frame condition; C118 refuted by an invalid configuration | proved: `Cli.C119_tutorial`, `Cli.C119_nothing_lost` - files have their directories (Disk.WellFormed) |
| C120 | Invalid arguments | Model/CommandLine: argparse actions from left to right on an abstract disk, then Model/Main | induction over the argument list with a frame condition; C118 refuted by an invalid configuration | proved: `Cli.C120_invalid_arguments` |
| C121 | Interpolated carbon dioxide densities | Model/LookupTable: grid, meshgrid, flatten, reshape, nearest lookup | row-major index arithmetic; the two-spacing axes are increasing and dense; C108 at grid points | proved: `CO2.C121_orientation`, `CO2.C121_interpolated` - the table as the script generate_span_wagner_tables.py writes it; the shipped binary file itself is not read; hypotheses met by C121_reachable |
| C122 | Carbon dioxide density is found in the documented range | Model/SpanWagner density search with root finder contract Searches | numeric bounds on every term of the residual Helmholtz energy at both ends of the bracket; continuity; refuted at 400 K, 1 kPa | partial: `CO2.C122_refuted`, `CO2.C122_partial`, `CO2.C122_low_pressure`, `CO2.C122_low_pressure_nan` - the code violates it: the search begins at 0.095 kg/m3, so dilute gas (below about 7 kPa at 400 K) raises ValueError; proved: found and correct above the critical temperature from 0.02 to 800 MPa; subcritical states are open |
| C123 | Brie mixing without a gas | Model/Fluids: default and given gases | refuted on two liquids / two constituents; otherwise induction over pops | partial: `C123_refuted`, `C123_partial` - the code violates its documentation: without a gas all constituents are liquids and the mixture is Wood's |
| C124 | Negative gas indices | Model/Fluids: default and given gases | refuted on two liquids / two constituents; otherwise induction over pops | partial: `C124_refuted`, `C124_partial` - the code violates it: a second negative index is looked up in the shortened list ([-1, -2] with two constituents raises IndexError); proved for one index |
| C125 | Pore fluids do not change the rock | Model/Pipeline on two configurations | the calculation reads the fluids section only in fluid substitution | proved: `C125_fluids_leave_rock` |
| C126 | Saturated rock between Reuss and Voigt | Model/Fluid, Model/HashinShtrikman, Model/Minerals on reals | algebra of the closed forms; continuity of the quotient on the closed quadrant; induction over constituents | proved: `C126_saturated_within_reuss_voigt`, `C126_attained` |
| C127 | Fluid substitution has no jumps | Model/Fluid, Model/HashinShtrikman, Model/Minerals on reals | algebra of the closed forms; continuity of the quotient on the closed quadrant; induction over constituents | proved: `C127_no_jump`, `C127_empty_fluid_jumps` - with an empty fluid (modulus 0) there is a jump at porosity 0, shown by the second theorem |
| C128 | Mineral mixtures between Reuss and Voigt | Model/Fluid, Model/HashinShtrikman, Model/Minerals on reals | algebra of the closed forms; continuity of the quotient on the closed quadrant; induction over constituents | proved: `C128_mixture_within_reuss_voigt` |
| C129 | Stiffer constituents never soften the mixture | Model/Fluid, Model/HashinShtrikman, Model/Minerals on reals | algebra of the closed forms; continuity of the quotient on the closed quadrant; induction over constituents | proved: `C129_mix_of_two`, `C129_mixture_of_minerals`, `C129_wood_mix`, `C129_stiffer_mineral` |
| C130 | Results do not depend on the units | all of Model/ except empirical fits | scaling commutes with every operation of Num, then structurally with every function, including failures | proved: `C130_mix_of_two`, `C130_hertz_mindlin`, `C130_friable_sand`, `C130_contact_cement`, `C130_constant_cement`, `C130_patchy_cement`, `C130_minerals`, `C130_wood`, `C130_brie`, `C130_fluid_substitution`, `C130_calculation` |
| C131 | The documented depth polynomial | Model/DryRock against the formulas of docs/adjusting_with_depth_and_pressure.md, written down in Props/Documented | refuted for the documentation's own coefficients (C131), for every porous friable sand (C132), for every factor other than 1 (C133); the agreeing cases from C45, C101 | partial: `C131_refuted`, `C131_partial` - the code violates its documentation: rows of the coefficient matrices multiply powers of the property, columns powers of the depth, so the documented example adds 1.5*depth to the bulk modulus instead of scaling it by 1.5; proved: the documented polynomial is computed for the transposed matrices while max_depth is not exceeded (C44) |
| C132 | The dry rock is computed at the reference pressure | Model/DryRock against the formulas of docs/adjusting_with_depth_and_pressure.md, written down in Props/Documented | refuted for the documentation's own coefficients (C131), for every porous friable sand (C132), for every factor other than 1 (C133); the agreeing cases from C45, C101 | partial: `C132_refuted`, `C132_partial`, `C132_friable_twice`, `C132_reference_unused` - the code violates its documentation: the dry rock is computed at the rock pressure, so a pressure dependency applies the pressure effect twice (K(rock)^2/K(reference)); proved for rock pressure = reference pressure |
| C133 | The documented power fit | Model/DryRock against the formulas of docs/adjusting_with_depth_and_pressure.md, written down in Props/Documented | refuted for the documentation's own coefficients (C131), for every porous friable sand (C132), for every factor other than 1 (C133); the agreeing cases from C45, C101 | partial: `C133_refuted`, `C133_partial` - the code violates its documentation: it computes c1 * p^c2; proved for c1 = 1 (what it does for every c1 is C101) |
| C134 | Lowering the success threshold changes nothing but acceptance | Model/Main with Model/Parse and Model/Pipeline | case analysis on the threshold test; row-wise semantics (C07, C87) applied to both files; induction over the configuration tree: insertion looks at mentioned columns only | proved: `Main.C134_lower_threshold`, `Main.C134_higher_threshold` |
| C135 | Rows are processed for themselves | Model/Main with Model/Parse and Model/Pipeline | case analysis on the threshold test; row-wise semantics (C07, C87) applied to both files; induction over the configuration tree: insertion looks at mentioned columns only | proved: `Main.C135_rows_alone_count`, `Main.C135_yaml`, `Main.C135_threshold` |
| C136 | Columns that are not mentioned have no influence | Model/Main with Model/Parse and Model/Pipeline | case analysis on the threshold test; row-wise semantics (C07, C87) applied to both files; induction over the configuration tree: insertion looks at mentioned columns only | proved: `Main.C136_unused_columns`, `Main.C136_reading` |
| C137 | Densities of brine and gas move the right way | Model/BatzleWang through the published correlations (C93, C95) | sign of the polynomial difference quotient; monotone compressibility quotient | proved: `C137_brine_density_trends`, `C137_gas_density_pressure` |
| C138 | More pores never stiffen a sand | Model/Sandstone, Model/Fluid, Model/Pipeline on reals | monotonicity of the Hashin-Shtrikman closed form and of the saturated modulus | proved: `C138_friable`, `C138_constant_cement`, `C138_fluid_substitution`, `C138_calculation` |
| C139 | Listing a constituent in two parts changes nothing | Model/Fluid, Model/Minerals | sums of harmonic terms split; shells of the same material merge; refuted by a stiff mineral after a soft one | partial: `C139_fluids`, `C139_minerals_partial`, `C139_refuted` - proved for fluids (Wood, Brie) and for minerals that come first or are no stiffer than every earlier one; false of the code for a mineral stiffer than an earlier one (C139_refuted) |
| C140 | No jumps in the rock models | Model/HashinShtrikman, Model/Sandstone, Model/Cement, Model/Fluid through the published formulas | continuity of the closed forms, denominators bounded away from 0 or squeezed at the corner | proved: `C140_mix_of_two`, `C140_friable`, `C140_cement`, `C140_patchy`, `C140_saturated` |
| C141 | A list of values is a column | Model/Parse, Model/Main | induction over the configuration: insertion gives values that differ only in lists for columns; every parser reads both alike | proved: `Parse.C141_list_is_column`, `Main.C141_run` |
| C142 | The density of a dry rock is the mass of its grains and cement | Model/Sandstone through the published formulas; Spec/Mass | algebra on the densities; refuted for calcite cement in quartz sand | partial: `C142_mass_partial`, `C142_cemented_mass_partial`, `C142_cemented_mass_refuted` - proved for grain pack, friable and patchy sand; for contact and constant cement exactly when cement is as dense as the grains or the counted volume happens to be right; false of the code otherwise (C142_cemented_mass_refuted) |
| C143 | Loading stiffens the rock | Model/Pipeline through the published formulas | monotonicity of Hertz-Mindlin, of the lower bound and of Gassmann in the frame; softness at the heavier load implies it at the lighter | proved: `C143_friable`, `C143_patchy` |
| C144 | Fluid model plug-ins | Model/Registry (fluid_model_providers.py:64-90, the Literal types of fluids.py and constituent.py) | induction over the entry points; a dict as an association list with unique keys | proved: `Registry.C144_import`, `Registry.C144_clash`, `Registry.C144_selection`, `Registry.C144_order`, `Registry.C144_bundled` |
| C145 | Every installed plug-in can be selected | Model/Registry (fluid_model_providers.py:64-90, the Literal types of fluids.py and constituent.py) | induction over the entry points; a dict as an association list with unique keys | partial: `Registry.C145_selectable_partial`, `Registry.C145_default_shadowed`, `Registry.C145_refuted` - proved for every name but default; a plug-in named default is loaded and then silently replaced (C145_default_shadowed) |
| C146 | Gas indices are used as written | Model/Parse | truncation characterised by abs z <= abs x and abs (x-z) < 1; induction over the list | partial: `Parse.C146_indices_partial`, `Parse.C146_refuted` - proved for whole numbers; a number with decimals is accepted and loses them (C146_refuted) |
| C147 | Sections written as lists | Model/Parse (named: pydantic v1 _validate_dataclass) | insertion commutes with naming the entries; every section parser goes through args | proved: `Parse.C147_sections`, `Parse.C147_file`, `Parse.C147_materials` - the reading of lists is pydantic v1 behaviour (_validate_dataclass), modelled as Parse.named |
| C148 | Replacing a pore fluid by a softer one | Model/Fluid, Fluids, Pipeline | Wood's sum of compliances changes by d/S (1/Kb - 1/Ka); Brie's power is monotone in the liquid saturation; Gassmann is monotone in the fluid | proved: `C148_moved`, `C148_gas_for_liquid`, `C148_moved_given`, `C148_gas_for_liquid_given` - gases told by type, or named by position in brie_gases (the _given theorems) |
| C149 | Warnings appear exactly when due | Model/Warnings | each call's warning in the order of the calls; invariant: the pressure a constituent sees is divided by 1e6 for each carbon dioxide before it; counting for adjustments | partial: `C149_partial`, `C149_shown`, `C149_refuted`, `C149_refuted_brine` - holds when no carbon dioxide is listed before an oil or a brine; C149_shown says what is shown in general; refuted: behind carbon dioxide the pressure is a million times too small, so oil is warned about although above its bubble point and brine at 120 MPa is not. Assumed: Python's default warning filter |
| C150 | Missing entries never change a number | all models of the calculation, Parse, Main | relation x lacks y (NaN or equal) carried through every formula, parser and mode; NaN makes every comparison false, so no branch gives another number | proved: `Main.C150_missing_entries`, `C150_calculation`, `Parse.C150_reading`, `C150_carbon_dioxide` - carbon dioxide: for a root finder that raises when the function has no number at the lower end of its bracket (scipy's toms748 does; CO2.ChecksStart). Rows are those read_csv returns (it skips a line that is blank altogether) |
| C151 | A missing porosity does not stop the calculation | Model/Sandstone, DryRock, Fluid, Pipeline, Parse | one direction of the relation also carries success: every check passes NaN; row-wise (C07) reduces to one emptied row; the reader changes only the porosity column | proved: `Main.C151_program`, `Main.C151_threshold_mode`, `C151_missing_porosity`, `Parse.reading_emptied` |
| C152 | How written values are read | Model/Parse (readers) | relations of written values to meanings, defined without the readers; equivalence by cases, and induction over nested lists for shapes | proved: `Parse.C152_per_row`, `Parse.C152_fluid_settings`, `Parse.C152_switch`, `Parse.C152_coefficients`, `Parse.C152_vectors`, `Parse.C152_vector_lengths`, `Parse.C152_readers` - what each value means is Spec/Reading.lean; Python's float(text) and int(text) are parameters. Lists of a length other than the number of rows: see the simplification at toCol (C48) |
| C153 | Fractions stay fractions | Model/Objects | a session is the list of objects; invariant over operations, by induction on the history | proved: `Objects.C153_fractions` - that a section refers to the constituent objects it is given and that an assignment runs the validators of the field only is pydantic v1 behaviour, modelled in Model/Objects.lean |
| C154 | Building a section does not affect other sections | Model/Objects | filling changes only omitted fractions; induction on the history; counterexample history for the rest | partial: `Objects.C154_given_partial`, `Objects.C154_material`, `Objects.C154_refuted` - proved for constituents with a fraction, over all histories; false of the code for an omitted fraction, which is filled in in the object itself, so that a second section with it is refused (C154_refuted) |
| C155 | A built section stays valid | Model/Objects, Fluids | the built object looks up the values mkFluids computes, and no later operation but an assignment changes them; counterexample history for the rest | partial: `Objects.C155_built_partial`, `Objects.C155_replaced_partial`, `Objects.C155_refuted` - proved: the section is that of the values (mkFluids) and stays so until its constituents are assigned to; after an assignment of a fraction the sum can exceed 1 (C155_refuted) |
| C156 | An operation that raises changes nothing | Model/Objects | by cases of the operation; fractions in range have finite sums, so the filled-in section sums to one; counterexample with NaN | partial: `Objects.C156_raising_partial`, `Objects.C156_refuted` - proved for everything but minerals sections with a missing (NaN) fraction; there the omitted fraction is filled in before the sum is checked (C156_refuted) |
| C157 | Missing pore fluid data do not stop the calculation | Model/Parse, Fluid, Pipeline | success is downward closed under missing numbers (Down) for every reader of the fluids section, every fluid model and mixing law and Gassmann; rock columns from C125; row-wise (C07, C87) for untouched rows | proved: `Main.C157_missing_fluid_data`, `Main.C157_threshold_mode`, `Main.C157_threshold_table`, `C157_calculation` - with carbon dioxide among the fluids the emptied columns must not feed the temperature (the Span-Wagner solver is a parameter of the model, about which nothing is known at missing arguments); that rows without emptied entries are unchanged needs every parameter to be a single value or a column (PerRow), as literal lists do not belong to rows |
| C158 | Calculating again gives the same result | Model/Repeat | induction on the number of calculations; the only array written to is the fluid pressure, unchanged without carbon dioxide (C38); counterexample with brine after carbon dioxide | partial: `C158_calculating_again_partial`, `C158_exactly`, `C158_rock_again`, `C158_sections_kept`, `C158_refuted` - proved without Span-Wagner carbon dioxide, and for the rock columns in every case; with carbon dioxide every calculation divides the fluid pressure of the input by 10^6 (C158_exactly), which C158_refuted shows in the results |
| C159 | A pore fluid with saturation zero does not matter | Model/Fluid, Fluids, Pipeline | Wood's and Brie's sums without a zero term, acceptance of the section characterised (mkFluids_iff), materials of the other constituents unchanged; rows through C07; counterexamples | partial: `C159_absent_fluid_partial`, `C159_absent_given_partial`, `C159_in_a_row_partial`, `C159_refuted`, `C159_refuted_brie` - proved for a constituent with positive bulk modulus and density that is not carbon dioxide, if another fluid of its phase is left (Brie, gases told by type or named by positions, which are then renumbered) or it is the only gas and the liquids fill the pores; false for carbon dioxide with saturation 0, which changes the pressure the following constituents see (C159_refuted), and for a lone gas with Brie mixing when the liquids sum to less than 1 (C159_refuted_brie) |
| C160 | Dry rocks built from shared objects | Model/RockObjects | invariants of the object heap under every operation, induction on the history; counterexample with shared coefficients | partial: `Rocks.C160_built_partial`, `Rocks.C160_given`, `Rocks.C160_refuted` - the material is proved (depth trends with all their coefficients given); building does not change given values (C160_given), but it fills coefficients that are None in the user's objects, so a depth trend sharing them stops raising TypeError (C160_refuted) |
| C161 | An omitted cement is the documented cement | Model/RockObjects | object 0 is unchanged by every operation that does not assign to it; counterexample | partial: `Rocks.C161_default_cement_partial`, `Rocks.C161_refuted` - proved as long as nothing is assigned to the default cement object; all models without a cement share it, so an assignment to the cement of one changes the others (C161_refuted) |
| C162 | Velocities of a material object are those of its moduli and density | Model/RockObjects, Pipeline | object unchanged until assigned; the calculation commutes with forgetting the velocities, function by function; counterexample | partial: `Rocks.C162_velocities_partial`, `Rocks.C162_velocities_unused`, `Rocks.C162_refuted` - velocities: until something is assigned to the material; after an assignment they are stale (C162_refuted); the results are proved not to depend on them, except for a polynomial dry rock model over velocities, which reads the velocities of the mineral |
| C163 | Porosity of a dry rock object stays below the critical porosity | Model/RockObjects | invariant over the operations, induction on the history; counterexample | partial: `Rocks.C163_porosity_fits_partial`, `Rocks.C163_refuted` - proved until a porosity is assigned: the root validators of the dry rock do not run on assignment (C163_refuted) |
| C164 | No jumps in the pore fluid | Model/Fluids, Spec/Published | the published formulas are continuous on their ranges; the branches of Brie's law meet; the split into liquids and gases is the same along the path | proved: `C164_constituents`, `C164_mixture` - oil, brine and gas in the ranges of VariesAs; real arithmetic |
| C165 | No jumps in the results | Model/Pipeline, Sandstone | induction over the minerals: where a fraction vanishes the Hashin-Shtrikman bound is squeezed between Reuss and Voigt averages; Gassmann's quotient at zero porosity; induction over the adjustments; composition | proved: `C165_all_dry_rocks_and_adjustments`, `C165_friable`, `C165_patchy` - patchy cement: as long as the lower bound is softer than the upper bound wherever there are pores (elsewhere the model divides by the difference of the two) |
| C166 | Fluid mixing is accurate in double arithmetic | Model/Rounding, Spec/Accuracy, Spec/Published | calculus of relative errors (Near k) closed under sum of nonnegatives, product, quotient; Brie's difference of moduli and the power by convexity | proved: `C166_wood`, `C166_brie` - against the published formulas; saturations of at least 2e-15 in all; exponent range of doubles unbounded in the model |
| C167 | Fluid substitution does not amplify rounding | Model/Rounding | Gassmann's quotient is increasing and concave in the factor F = Kd/(Km-Kd) + Kf/(phi (Km-Kf)); its differences are of inputs, so each is accurate | proved: `C167_gassmann`, `C167_density` - against the published formula |
| C168 | Velocities are accurate in double arithmetic | Model/Rounding | Near calculus; square root halves relative errors | proved: `C168_velocities` |
| C169 | Rounding does not decide whether fractions are accepted | Model/Rounding | near_sum: rounding error of a left-to-right sum of n nonnegative terms; case analysis of the checks | proved: `C169_fluids`, `C169_minerals`, `C169_left_out` |
| C170 | Hashin-Shtrikman bounds are accurate in double arithmetic | Model/Rounding | the reciprocal of the difference of two inputs is accurate; the correction is at most R times the result | proved: `C170_bounds` - against the published formulas |
| C171 | A whole row is accurate in double arithmetic | Model/Rounding | variational form of Gassmann's modulus (it moves at most with the largest relative change of its arguments), composed with C166, C168, C172 | proved: `C171_row` - the dry rock's moduli are the input of this row; against the published formulas |
| C172 | The mineral mixture is accurate in double arithmetic | Model/Rounding | variational form of the Hashin-Shtrikman bound (monotone, homogeneous), so errors add up over the loop instead of multiplying; induction over the minerals | proved: `C172_minerals` - against the published formulas |
| C173 | Hertz-Mindlin and friable sand are accurate in double arithmetic | Model/Rounding | Poisson's ratio has an absolute error of 7 roundings of 1 - nu although 3K-2G may cancel; the exponent error acts through the logarithm of the base (at most 72); then the bound of C170 with errors in every argument | proved: `C173_hertz_mindlin`, `C173_friable` - against the published formulas; without rounding the model is the exact one (double_hertzMindlin_model, double_friableSand_exact) |
| C174 | A whole row with friable sand is accurate in double arithmetic | Model/Rounding | 1-nu and 2-nu are quotients of positive linear forms, so Hertz-Mindlin amplifies errors of the mineral at most sixfold; composed with C172, C173, C166, C171's form of Gassmann | proved: `C174_row` - against the published formulas; example with 500 as contrast of quartz and its grain pack at 20 MPa |
| C175 | Ordinary input neither overflows nor underflows | Model/Rounding, Spec/FloatRange | calculus of binary magnitudes: products and quotients add exponents, a difference of doubles is 0 or at least the last bit of the smaller one; where this grows too far the accuracy theorems reset the magnitude; then rounding in the range agrees with one without bounds and C171, C174 apply | proved: `C175_row`, `C175_friable_row`, `C175_brie_row`, `C175_brie_friable_row` - nothing is assumed about rounding outside the range of normal numbers; exists_bounded: such functions exist, also ones that lose everything outside; examples with quartz, clay, brine and gas |
| C176 | A whole row with Brie mixing is accurate in double arithmetic | Model/Rounding | C166 (Brie) composed with C172, C173 and the variational form of Gassmann's modulus for inputs that all carry errors | proved: `C176_row`, `C176_friable_row` - against the published formulas; the example in Rounding21 (through C175_brie_friable_row) has brine and gas in quartz sand |
| C177 | Stiffer ingredients never soften a sand | Model/Sandstone, Model/Pipeline, Model/Fluid | Hertz-Mindlin moduli split into powers of G/(1-nu) and G(1-nu)^2/(2-nu)^3-type factors, each monotone in both moduli; Hashin-Shtrikman, Wood, Brie and Gassmann monotone in all moduli jointly | proved: `C177_brie_mix`, `C177_sand`, `C177_calculation` - examples: gassy brine, clay-like against calcite-like grains, and a whole run with stiffer grains and brine |
| C178 | Brine gets stiffer under pressure and with salt | Model/BatzleWang | C93 to published equations; divided differences as Simpson means of slopes, slopes positive by Bernstein forms on the box | proved: `C178_brine_stiffness_trends`, `C178_not_beyond` - temperature has no trend (water is fastest near 70 C) and is left out; C178_not_beyond shows the 300 C limit for pressure is needed |
| C179 | Dead oil gets softer with heat and stiffer under pressure | Model/BatzleWang | C94 to published equations; both slopes of equation 20a bounded, product with C64 | proved: `C179_dead_oil_stiffness_trends` - density is C64; the 73 MPa limit is where the published density stops growing with pressure |
| C180 | Fresher brine or a softer given fluid never stiffens the rock | Model/Pipeline, Model/Fluids, Model/BatzleWang | C178 and C137 row by row; Wood's and Brie's laws monotone in moduli and densities; Gassmann monotone in the fluid (softer_fluid) | proved: `C180_calculation` - brine within 0..350 C, 0..100 MPa, 0..300000 ppm (C178, C137) |
| C181 | Gas gets stiffer under pressure | Model/BatzleWang | logarithmic derivative in pressure of gamma0 and of P over (1 minus the elasticity of Z); pseudo-reduced pressure below and above 2.5 treated apart | proved: `GasStiffness.C181_gas_bulk_pressure` |
| C182 | Depleting the fluid pressure never stiffens the rock | Model/Pipeline, Model/Fluids, Model/BatzleWang | C137, C178, C181 and equation 20a row by row; the dry rock sees only the rock pressure; softer_fluid as in C180 | proved: `C182_calculation` - brine and gas within 0..300 C, oil up to 73 MPa, the ranges of C137, C178, C179, C181; CO2 is not among the constituents |
| C183 | Gas gets lighter with heat and heavier with gravity and pressure | Model/BatzleWang | density as a function of pseudo-reduced temperature and pressure; t*Z strictly increasing in t by its derivative (Bernstein bounds, x exp(-x) at most 1/e); C137 for pressure | proved: `GasHeat.C183_gas_density` - the correlations do not keep this order beyond the range: the compressibility of light hot gas falls faster than the temperature rises |
| C184 | Polynomial fits are backward stable in double arithmetic | Model/RoundingPoly | calculus of errors relative to the sum of magnitudes (Within), closed under sum, product, rounding; induction along Horner's rule | proved: `Double.C184_polynomial` |
| C185 | Brine is accurate in double arithmetic | Model/RoundingPoly, Spec/Published | C184's calculus with the magnitudes bounded on the range, and C80's lower bounds of density and velocity | proved: `Double.C185_brine` |
| C186 | A whole sand row with brine computed from conditions is accurate in double arithmetic | Model/Rounding, Model/RoundingPoly, Spec/Published | chain of C185, the mineral loop, friable sand, Wood and Gassmann with their error budgets added up | proved: `C186_row` |
| C187 | Dead oil is accurate in double arithmetic | Model/RoundingFluids, Spec/Published, Spec/Accuracy | relative errors carried through the density, absolute errors in boxes through the velocity, and a lower bound of the velocity | proved: `Double.C187_deadOil`, `Double.double_deadOil_exact` - the mathematical library's power is assumed accurate to one unit in the last place |
| C188 | Gas is accurate in double arithmetic | Model/RoundingFluids, Spec/Published, Spec/Accuracy | boxes of absolute errors through compressibility factor and rate, lower bounds of both denominators | proved: `Double.C188_gas`, `Double.double_gas_exact` - the mathematical library's power and exponential are assumed accurate to one unit in the last place |
| C189 | A whole sand row with brine, oil and gas computed from conditions is accurate in double arithmetic | Model/Rounding, Model/RoundingPoly, Model/RoundingFluids, Spec/Published | chain of C185, C187, C188, C190, the mineral loop, friable sand, Wood and Gassmann with their error budgets added up | proved: `C189_row` |
| C190 | Oil with dissolved gas is accurate in double arithmetic | Model/RoundingFluids, Spec/Published, Spec/Accuracy | relative errors through volume factor, pseudo-density and density, boxes of absolute errors through velocity and window, lower bounds of velocity and density | proved: `Double.C190_oil`, `Double.double_oil_exact` - the mathematical library's power is assumed accurate to one unit in the last place |
| C191 | A whole sand row with Brie's mixture of computed liquids and gases is accurate in double arithmetic | Model/Rounding, Model/RoundingPoly, Model/RoundingFluids, Spec/Published, Spec/Accuracy | C176 applied to the computed fluids taken as exact, plus the effect of their errors on Wood's and Brie's laws, which are convex combinations | proved: `C191_row` |
| C192 | Contact cement is accurate in double arithmetic | Model/RoundingCement, Spec/Published, Spec/Accuracy | intervals for the polynomials of Poisson's ratio, relative errors for the powers, and the negative term is at most 0.8 of the positive one | proved: `C192_contact_cement`, `double_contactCement_exact` |
| C193 | Constant cement is accurate in double arithmetic | Model/RoundingCement, Spec/Published, Spec/Accuracy | C192 for the end member and twice the effect of errors on the lower bound (as in C173); without rounding the same model is the published formula | proved: `C193_constant_cement`, `double_constantCement_exact` |
| C194 | Patchy cement is accurate in double arithmetic | Model/RoundingCement, Spec/Published, Spec/Accuracy | C173, C192 and C193 for the end members; the error of the weight times the distance between the bounds is small, and where that distance is small so is what the weight multiplies | proved: `C194_patchy_cement`, `double_patchyCement_exact` |

## 6. How the result is checked

* `lake build` in `lean/`, from a fresh checkout; `vcheck` for the whole gate.
* `tools/make_properties.py`, `tools/make_manifest.py`, `tools/make_design.py` regenerate `properties.jsonl`,
  `MANIFEST.json` and this file.
* Wrong programs: a scratch copy of the model is edited the way a realistic bug would change the program and
  all modules that the theorems of the broken claim need are recompiled; a theorem counts as failed when it, or a
  lemma it uses, no longer compiles.  `seeded/LOG.jsonl` has one line per attempt: the definition, the edit,
  the claim it breaks, the theorems that failed and the theorems that were added or tightened because an
  earlier version of the theorems had not noticed the edit.
