# Formal model of open_petro_elastic in Lean 4

The model is about 3 000 lines under `lean/Verif/Model`, one file per part of the code, each definition
with the file and lines it models.  Specifications that a reader needs to understand the theorem
statements, and that do not use the model's helpers, are under `lean/Verif/Spec`.  Property theorems
are under `lean/Verif/Props`, named `Cnn_…` after the entries of `properties.jsonl`; everything else in
these files is helper lemmas.  Beside each theorem stands an `example` (or an `_example`/`_reachable`
theorem) that meets its hypotheses.

## 1. What every theorem rests on

* **Numbers** (`Verif/Num.lean`).  `Num` = the exact real numbers plus `+inf`, `-inf`, `nan`, with the IEEE
  rules for the special values: x/0 = ±inf, 0/0 = nan, every comparison with nan is false, `np.minimum`
  propagates nan, a negative base to a fractional power is nan.  **Not modelled:** rounding, overflow,
  underflow and the sign of zero (x/0 takes the sign of x).  All theorems are about the program in exact
  arithmetic; a claim such as `a <= b` may fail by a last-bit rounding error in the real program.
  Exceptions: the success percentage of `--success_threshold`, whose double rounding is the
  parameter `World.fl` constrained by `Spec/Float.lean` (C53, C83); and `Model/Rounding.lean`, which repeats one
  row of the mixing laws, fluid substitution, velocities, fraction checks, Hertz-Mindlin and friable sand in
  double arithmetic (C166-C176), and `Model/RoundingPoly.lean` likewise for polynomials and brine and `Model/RoundingFluids.lean` for oil and gas and `Model/RoundingCement.lean` for cemented sand (C184-C194):
  every operation rounds to nearest (`RoundsToNearest`, unbounded exponent range, so no overflow and no
  subnormal numbers; C175 replaces this by the bounded range, `RoundsInRange`, for ordinary input) and the power function of the library is accurate to one unit in the last place
  (`PowerAccurate`), likewise the exponential function (`ExpAccurate`).  With no rounding it is the exact model: `double_*_exact`, `walpole_exact`, `mixLoop_exact`.
* **Columns** (`Verif/Col.lean`).  `Col n = Fin n → Num` is a numpy column of `n` rows; `np.any` is "there is a
  row".  A single value next to columns is a constant column (broadcasting).  Where the *shape* of a
  value matters (patchy cement masks, `np.transpose([...])`, in-place subtraction) `Model/Shapes.lean`
  repeats the dry-rock code over values with shapes (C73).
* **Vectorised kernels** (`float_vectorize`, `vec`).  numpy hands Python floats to the kernel, so division by
  zero raises `ZeroDivisionError` (`pyDiv`) and a negative base to a fractional power is a complex number
  (the next comparison raises `TypeError`); the first failing row decides the exception.  Outside kernels
  numpy rules apply.
* **Exceptions** are values: `Except Err`, `Err` being the Python exception class; messages are dropped.
* **In-place changes** are explicit: functions that mutate an argument return its new value (C38, C72).

## 2. Trusted base

* Lean's kernel.  Axioms: every theorem depends on at most `propext`, `Classical.choice`, `Quot.sound`
  (`#print axioms`, and `vcheck`, on every theorem in `MANIFEST.json`).  No axioms of our own, no compiled
  evaluation.
* The reading of /repo, and of Python, numpy (>= 1.24), pandas, pydantic v1, sympy and scipy as recorded in
  the comments at each definition.
* The specifications: `Spec/Published.lean` (Batzle-Wang 1992; Mavko et al., Rock Physics Handbook:
  Hashin-Shtrikman, Hertz-Mindlin, Dvorkin-Nur contact cement, constant cement, patchy cement, Wood, Brie,
  Gassmann; trends), `Spec/Co2.lean` (Span & Wagner 1996), `Spec/Main.lean` (command line), `Spec/Config.lean`
  (column references), `Spec/Parse.lean`, `Spec/ParseRows.lean` (which configurations, rows of a data file),
  `Spec/RowWise.lean` (rows of sections and results), `Spec/Float.lean`, `Spec/Mixing.lean`,
  `Spec/SpanWagner.lean`, `Spec/Order.lean` (reordered keys), `Spec/Schema.lean` (documented keys),
  `Spec/Document.lean` (writing a description as YAML), `Spec/Rows.lean`, `Spec/Adjust.lean`, `Spec/Listed.lean` (columns written as
  lists), `Spec/Mass.lean`, `Spec/Missing.lean`, `Spec/MissingPorosity.lean`, `Spec/MissingFluids.lean` (data files with missing entries), `Spec/Absent.lean`.  The published coefficients were transcribed from memory of the papers and compared with
  the code; one Span-Wagner coefficient (0.143387157568781) is quoted from the code and has one digit more
  than the 14-digit table of the paper.

Evidence that the specifications mean what the tool computes (not part of any proof): `tools/compare_recorded.py`
transliterates `Spec/Published.lean` and `Spec/Co2.lean` into Python and compares them with the outputs recorded in
`/repo/examples/*_calibration.csv` (example1, example2, example3, friable sand, patchy cement, carbon dioxide):
largest relative difference 1.5e-11.

### Parameters (external behaviour that is arbitrary, or constrained by a stated contract)

| parameter | stands for | contract |
|---|---|---|
| `Main.World` | YAML, CSV, parsing, calculation, writing, calibration outcomes | none (C51, C54, C57, C58) |
| `World.fl` | double rounding of the success percentage | `RoundsToNearest` (Spec/Float.lean) |
| `float()` of the argument parser | Python's `float` | none (C56) |
| `Conv` | pydantic's string → float/bool/… conversions | none |
| `CO2.RootFinder` | `scipy.optimize.root_scalar` (method toms748) | for C69, C90, C108, C111: `Brackets` - with a sign change on the bracket it returns a point of the bracket whose function value is within the tolerance |
| Newton and its starting values | `scipy.optimize.newton` on arrays | none (C90 holds for any result) |
| density table | `tables/*.npz` | none (C70) |
| `CO2Model` | what a Span-Wagner constituent evaluates to | none in C07, C38; instantiated by the model of the code (`spanWagner`) in C07_row_wise_span_wagner, C103, C108 |

## 3. What is modelled and what is not

| file | modelled as | left out |
|---|---|---|
| `float_vectorize.py` | `vec` in Col.lean | `np.vectorize` with a signature on zero rows (raises in numpy): expfit/logfit/powerfit on 0 rows |
| `material/material.py`, `seismic_velocity.py`, `conversions.py` | Model/Material.lean | `__repr__`/`__str__` |
| `material/hashin_shtrikman.py` | Model/HashinShtrikman.lean | – |
| `material/fluid.py` | Model/Fluid.lean | – |
| `material/sandstone/*.py` | Model/Sandstone.lean | – (shapes: Model/Shapes.lean; for n = 1 and equal bounds the mask of patchy cement is left open) |
| `material/batzle_wang/*.py` | Model/BatzleWang.lean | `brine` and `oil` return materials, whose constructor checks are modelled |
| `material/span_wagner/*.py` | Model/SpanWagner.lean | sympy's rewriting of the derivative (`powsimp`, `Abs`): `diff` is modelled by a symbolic derivative proved equal to Mathlib's `deriv`; numerical internals of scipy. `generate_span_wagner_tables.py` is Model/LookupTable.lean (reading and writing the binary file left out) |
| `config/dry_rock.py`, `coefficients.py`, `depth_trend.py`, `model.py`, `material_type.py` as objects shared and assigned to | Model/RockObjects.lean | assignments to other attributes than those listed there |
| `config/constituent.py`, `minerals.py`, `fluids.py`, `fluid_model_providers.py` | Model/Minerals.lean, Model/Fluids.lean, Model/Registry.lean, Model/Objects.lean (objects shared between sections) | what third-party providers compute (their registration and selection is Model/Registry.lean) |
| `config/pressure.py`, `model.py`, `pressure_dependency.py`, `depth_trend.py`, `dry_rock.py`, `coefficients.py` | Model/DryRock.lean, Model/Poly.lean | – |
| `config/input.py` (calculation), `__main__.py:make_result…` | Model/Pipeline.lean | – |
| `config/*.py` as pydantic dataclasses, `material_type.py`, `vector_type.py` | Model/Parse.lean | a literal list for a per-row parameter whose length is not the number of rows (refused at once; the code fails later, or broadcasts a list of length one); a reference to several columns where one is needed; bool-mask column lists; non-string keys.  Malformed or non-finite coefficients and fluid types among the minerals are rejected while parsing instead of during the calculation |
| `config/input.py` (column insertion) | Model/Config.lean | – |
| `__main__.calculate_results` called again with the same input | Model/Repeat.lean | |
| warnings of the fluid models (`batzle_wang/*.py`, `span_wagner/*.py`), their display in `__main__.py` | Model/Warnings.lean | the text after the prefix `Warning: `; numpy's own RuntimeWarnings |
| `__main__.py` | Model/Main.lean, Model/CommandLine.lean | argparse's usage output; the text of messages; logging |

pydantic v1 facts used: `validate_all`, `validate_assignment`, `extra = forbid`; a pre root validator sees all
fields; a `Union` takes the first accepting alternative; `ColumnInsertionError` is an `IndexError` and passes
through pydantic unwrapped, `ValidationError` is a `ValueError`, and a `TypeError`/`ValueError`/
`AssertionError` inside a validator is wrapped into it.  `pandas.read_csv` gives row labels 0, 1, ….

## 4. Where the code does not do what it says

Every item is a theorem (`_refuted` with a concrete witness); the largest true part is proved beside it under
`_partial`.  Full statements stay in `properties.jsonl`.

| id | what happens |
|---|---|
| C04 | nan passes every check of `Material`; zero density gives nan velocities |
| C16 | saturations that are all zero are each kept as 1 |
| C25 | some dry rocks stiffer than their mineral are accepted by `fluid_substitution` |
| C28 | sand porosity = cemented porosity = 1 gives nan |
| C36 | three minerals in another order give another bulk modulus |
| C38 | the Span-Wagner CO2 constituent divides `pressure.fluid` by 1e6 in place |
| C41 | a pressure section with neither fluid nor rock pressure is accepted |
| C42 | powerfit compares plain rock pressure with the effective reference pressure |
| C44 | `max_depth` never has an effect (the result of `np.clip` is dropped) |
| C46 | negative porosities are accepted but cannot be evaluated |
| C54 | `InputError` escapes from threshold mode |
| C55 | failed rows are dropped instead of given as NaN |
| C59 | `oil()` evaluates live oil even for gas-oil ratio 0, and hot light live oil has a negative velocity: `ValueError` where `dead_oil()` succeeds |
| C62 | `water()` returns g/cc, `brine()` kg/m3 |
| C72 | elements equal to 1 of the caller's arrays are changed to 1 - 1e-15 |
| C73 | a single value next to columns raises IndexError/ValueError in four places |
| C77 | `ideal_gas` density is 1e12 too large, velocity 1/sqrt(1000) too small |
| C83 | 1 success in 10 rows does not reach a threshold of 10 in double arithmetic |
| C88 | `brie_constant: {column: x}` is accepted only in threshold mode; a list of values, one per row, only in normal mode |
| C91 | the pressure grid of `array_carbon_dioxide_density` ends at 1.01 times the largest temperature |
| C92 | with an array of densities and one temperature the ideal-gas part of the first density is used for all |
| C113 | both configurations in `tutorial_config/` (linked from README.md) and the fluids block of the getting started guide are rejected: the fluids section forbids `pressure`; so is its dry rock block: the power fit forbids the pressures |
| C118 | the output file is opened for writing when its argument is parsed: a bad configuration, data file or later argument leaves it empty |
| C122 | the density search begins at 0.095 kg/m3: dilute carbon dioxide (400 K, 1 kPa) raises ValueError inside the documented range |
| C123 | documented: without a gas the first constituent is the gas; the code then mixes all constituents as liquids |
| C124 | `brie_gases: [-1, -2]`: the second negative index is resolved after the first constituent was removed |
| C131 | documented `c[i][j] * delta_depth^i * X^j`; the code computes `c[i][j] * X^i * delta_depth^j` |
| C132 | documented: dry rock at the effective reference pressure; the code computes it at the effective rock pressure, so pressure dependencies act twice |
| C133 | documented powerfit `c1 + p^c2`; the code computes `c1 * p^c2` |
| C139 | a mineral stiffer than an earlier one, listed in two entries instead of one, changes the mixture: the effective medium takes its bounds from the partial mixture so far |
| C142 | the density of the contact cement model takes the ratio of cement layer radius to grain radius for the volume fraction of cement (porosity 0.40 to 0.364: 12.72 percent counted, 3.6 percent deposited) |
| C145 | a plug-in named `default` passes the collision check, is loaded, and is then overwritten by the Batzle-Wang provider without a word |
| C146 | `brie_gases: [1.7]` is accepted and index 1 is used (pydantic's `int` truncates) |
| C149 | behind a carbon dioxide (which divides the pressure array by 1e6) an oil far above its bubble point is warned about and a brine at 120 MPa is not |
| C154 | an omitted fraction is filled in in the constituent object given by the user: a second section with it is refused or mixes another amount |
| C155 | assigning a fraction of a constituent does not re-check the sections that use it: fractions 0.9 and 0.7 are mixed |
| C156 | a minerals section with a NaN fraction is refused after the omitted fraction has been filled in |
| C158 | with Span-Wagner carbon dioxide every calculation divides the fluid pressure stored in the input by 10^6: the next one with the same input gives other results |
| C159 | carbon dioxide with saturation 0 changes the pressure seen by the constituents after it; with Brie mixing a lone gas with saturation 0 fills whatever the liquids leave |
| C160 | `DryRock` assigns the default coefficients to the coefficient object given by the user where they are None: a depth trend that shares the object gets them too |
| C161 | `DEFAULT_CEMENT` is one object used by all patchy cement models without a cement: assigning to the cement of one changes the default for all |
| C162 | assigning moduli or density of a material leaves its velocities as they were |
| C163 | assigning the porosity of a dry rock is not compared with the critical porosity |

Other observations (covered by proved theorems, not by a refuted property): an untagged `friable_sand` section is read as
patchy cement and an untagged `{coefficients}` pressure dependency never as polyfit/expfit (C47); the coordination
number of patchy cement is used for its friable part only (C99, C102); `cement_radius_ratio` calls `np.clip`
with swapped bounds, which makes it `minimum(1, ·)` (C28); far below the triple point the CO2 density
bracket is empty (C69); the default configuration has dry moduli of 2510 and 1460 **Pa** (C106); nan fractions pass
every fraction check (C107 is stated for numbers); the docstring of `DryRock` has the exponents of the
coefficient matrix the other way round than the code (C45, C102 state what the code does).

## 5. Plan and method per property

