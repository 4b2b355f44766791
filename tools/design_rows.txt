C01 C02 C03 C04 C05 C06|`Material.__init__`, `set_defaults`, seismic_velocity.py, all 32 argument subsets (Model/Material)|algebra on reals, case split on which arguments are given; witness for C04
C07|every function from sections to result table (Model/Pipeline)|naturality: each function commutes with taking a row; `vec` succeeds iff every row does
C08 C09 C10 C11 C12 C13 C14 C15|hashin_shtrikman.py (Model/HashinShtrikman)|closed form (f1/(k1+z)+f2/(k2+z))^-1 - z, monotone in z
C16 C17 C18 C19 C20|fluid.py, Wood and Brie mixing (Model/Fluid)|induction over lists of fluids, permutation lemmas; witness for C16
C21 C22 C23 C24 C25|`fluid_substitution` (Model/Fluid)|algebra; C25 exact acceptance condition and witness
C26 C27 C28 C29 C30 C31 C32 C74 C75|sandstone/*.py (Model/Sandstone)|rpow lemmas, monotonicity of the Walpole bound in its second material; contact-cement polynomials bounded below
C33 C34 C35 C36 C37 C76|constituent.py, minerals.py (Model/Minerals)|induction over the constituent list; three-mineral witness for C36
C38 C39 C40|fluids.py, fluid_model_providers.py, pressure section as state (Model/Fluids)|state-passing model, list lemmas; witness for C38
C41 C42 C43 C44 C46 C81 C82|pressure.py, model.py, pressure_dependency.py, depth_trend.py, dry_rock.py (Model/DryRock)|algebra, fold laws, inequalities; witnesses
C45|polyval2d as numpy's Horner scheme, `polyval_material` (Model/Poly)|induction over coefficient rows
C47 C48 C85 C86|pydantic dataclasses and unions over configuration trees (Model/Parse)|case analysis on keys, list lookup lemmas; expected values given by Spec/Parse
C49 C50|`insert_from_dataframe` on nested trees (Model/Config)|structural induction against Spec/Config
C51 C52 C53 C54 C55 C56 C57 C58 C83|`__main__.py` with outcomes as parameters (Model/Main)|case analysis, induction over row lists against Spec/Main; witnesses
C59 C60 C61 C62 C63 C64 C65 C77 C78 C79 C80|batzle_wang/*.py (Model/BatzleWang)|algebra, HasDerivAt, monotonicity of rpow/exp, interval bounds, Bernstein forms of the water polynomials; witnesses for C59, C62, C77
C66 C67 C71 C72 C89 C92|equations.py, coefficients.py, Helmholtz energy with in-place change of arguments (Model/SpanWagner)|symbolic derivative = Mathlib derivative; limits; witnesses
C68 C69 C70 C90 C91|phase curves, density brackets, root finding, table lookup (Model/SpanWagner)|monotonicity and numeric bounds; root finder as parameter with contract
C73|dry rock with shapes (Model/Shapes)|erasing shapes commutes where no mask/stack/in-place operation is involved; witnesses
C84|the whole friable-sand calculation (Model/Pipeline)|chain of the acceptance theorems of each part
C87 C88|parsing and calculation from YAML tree and CSV rows (Model/Parse, Model/Main)|row-wise parsing by induction on trees, then C07; witness
C93 C94 C95|batzle_wang/*.py against Spec/Published|each kernel unfolded to the published equation, derivative by HasDerivAt
C96 C97 C98 C99|hashin_shtrikman.py, sandstone/*.py against Spec/Published|algebra
C100 C101 C102 C103 C104|sections of the configuration against Spec/Published|induction over lists; polynomial evaluation
C105 C106|whole calculation, and the empty configuration, against Spec/Published|composition of C93-C104
C107|fraction checks of fluids and minerals (Model/Minerals, Model/Fluids)|induction over the constituent list with the filled fraction
C108|carbon dioxide against Spec/Co2 with Mathlib derivatives|symbolic derivative theorem, term-by-term comparison of the 42 residual terms
C109|every dry rock model and every list of adjustments (Model/DryRock, Model/Poly) against Spec/Adjust, Spec/Published|induction over the adjustment list; the intermediate material is determined by its moduli and density (Mat.Coherent)
C110|fraction filling in the whole calculation|both sections evaluate to the same constituents
C111|carbon dioxide constituent in the whole calculation against Spec/Co2|composition of C108 and C109
C112|the example files as YAML terms (Model/Shipped, generated), read by Model/Parse and calculated|evaluation of the reader; numeric bounds for every model in the file (fluid softer than dense packing, porosity below critical); C105
C113|README and tutorial files as YAML terms|refuted: C86 at file level
C114|Model/Parse, Model/Config against the declarative format of Spec/Document|for each kind of mapping: insertion and arguments of a mapping in any key order; earlier alternatives of a Union fail by their type tag or by an unknown key; induction over lists, vectors, matrices
C115|Model/Parse, Model/Config against Spec/Schema|inversion of every reader; insertion keeps keys
C116|Model/Parse, Model/Config, Model/Main against Spec/Order|every reader gives the same on documents equal up to key order; insertion preserves it
C117 C118 C119 C120|Model/CommandLine: argparse actions from left to right on an abstract disk, then Model/Main|induction over the argument list with a frame condition; C118 refuted by an invalid configuration
C121|Model/LookupTable: grid, meshgrid, flatten, reshape, nearest lookup|row-major index arithmetic; the two-spacing axes are increasing and dense; C108 at grid points
C122|Model/SpanWagner density search with root finder contract Searches|numeric bounds on every term of the residual Helmholtz energy at both ends of the bracket; continuity; refuted at 400 K, 1 kPa
C123 C124|Model/Fluids: default and given gases|refuted on two liquids / two constituents; otherwise induction over pops
C125|Model/Pipeline on two configurations|the calculation reads the fluids section only in fluid substitution
C126 C127 C128 C129|Model/Fluid, Model/HashinShtrikman, Model/Minerals on reals|algebra of the closed forms; continuity of the quotient on the closed quadrant; induction over constituents
C130|all of Model/ except empirical fits|scaling commutes with every operation of Num, then structurally with every function, including failures
C131 C132 C133|Model/DryRock against the formulas of docs/adjusting_with_depth_and_pressure.md, written down in Props/Documented|refuted for the documentation's own coefficients (C131), for every porous friable sand (C132), for every factor other than 1 (C133); the agreeing cases from C45, C101
C134 C135 C136|Model/Main with Model/Parse and Model/Pipeline|case analysis on the threshold test; row-wise semantics (C07, C87) applied to both files; induction over the configuration tree: insertion looks at mentioned columns only
C137|Model/BatzleWang through the published correlations (C93, C95)|sign of the polynomial difference quotient; monotone compressibility quotient
C138|Model/Sandstone, Model/Fluid, Model/Pipeline on reals|monotonicity of the Hashin-Shtrikman closed form and of the saturated modulus
C139|Model/Fluid, Model/Minerals|sums of harmonic terms split; shells of the same material merge; refuted by a stiff mineral after a soft one
C140|Model/HashinShtrikman, Model/Sandstone, Model/Cement, Model/Fluid through the published formulas|continuity of the closed forms, denominators bounded away from 0 or squeezed at the corner
C141|Model/Parse, Model/Main|induction over the configuration: insertion gives values that differ only in lists for columns; every parser reads both alike
C142|Model/Sandstone through the published formulas; Spec/Mass|algebra on the densities; refuted for calcite cement in quartz sand
C143|Model/Pipeline through the published formulas|monotonicity of Hertz-Mindlin, of the lower bound and of Gassmann in the frame; softness at the heavier load implies it at the lighter
C144 C145|Model/Registry (fluid_model_providers.py:64-90, the Literal types of fluids.py and constituent.py)|induction over the entry points; a dict as an association list with unique keys
C146|Model/Parse|truncation characterised by abs z <= abs x and abs (x-z) < 1; induction over the list
C147|Model/Parse (named: pydantic v1 _validate_dataclass)|insertion commutes with naming the entries; every section parser goes through args
C148|Model/Fluid, Fluids, Pipeline|Wood's sum of compliances changes by d/S (1/Kb - 1/Ka); Brie's power is monotone in the liquid saturation; Gassmann is monotone in the fluid
C149|Model/Warnings|each call's warning in the order of the calls; invariant: the pressure a constituent sees is divided by 1e6 for each carbon dioxide before it; counting for adjustments
C150|all models of the calculation, Parse, Main|relation x lacks y (NaN or equal) carried through every formula, parser and mode; NaN makes every comparison false, so no branch gives another number
C151|Model/Sandstone, DryRock, Fluid, Pipeline, Parse|one direction of the relation also carries success: every check passes NaN; row-wise (C07) reduces to one emptied row; the reader changes only the porosity column
C152|Model/Parse (readers)|relations of written values to meanings, defined without the readers; equivalence by cases, and induction over nested lists for shapes
C153|Model/Objects|a session is the list of objects; invariant over operations, by induction on the history
C154|Model/Objects|filling changes only omitted fractions; induction on the history; counterexample history for the rest
C155|Model/Objects, Fluids|the built object looks up the values mkFluids computes, and no later operation but an assignment changes them; counterexample history for the rest
C156|Model/Objects|by cases of the operation; fractions in range have finite sums, so the filled-in section sums to one; counterexample with NaN
C157|Model/Parse, Fluid, Pipeline|success is downward closed under missing numbers (Down) for every reader of the fluids section, every fluid model and mixing law and Gassmann; rock columns from C125; row-wise (C07, C87) for untouched rows
C158|Model/Repeat|induction on the number of calculations; the only array written to is the fluid pressure, unchanged without carbon dioxide (C38); counterexample with brine after carbon dioxide
C159|Model/Fluid, Fluids, Pipeline|Wood's and Brie's sums without a zero term, acceptance of the section characterised (mkFluids_iff), materials of the other constituents unchanged; rows through C07; counterexamples
C160|Model/RockObjects|invariants of the object heap under every operation, induction on the history; counterexample with shared coefficients
C161|Model/RockObjects|object 0 is unchanged by every operation that does not assign to it; counterexample
C162|Model/RockObjects, Pipeline|object unchanged until assigned; the calculation commutes with forgetting the velocities, function by function; counterexample
C163|Model/RockObjects|invariant over the operations, induction on the history; counterexample
C164|Model/Fluids, Spec/Published|the published formulas are continuous on their ranges; the branches of Brie's law meet; the split into liquids and gases is the same along the path
C165|Model/Pipeline, Sandstone|induction over the minerals: where a fraction vanishes the Hashin-Shtrikman bound is squeezed between Reuss and Voigt averages; Gassmann's quotient at zero porosity; induction over the adjustments; composition
C166|Model/Rounding, Spec/Accuracy, Spec/Published|calculus of relative errors (Near k) closed under sum of nonnegatives, product, quotient; Brie's difference of moduli and the power by convexity
C167|Model/Rounding|Gassmann's quotient is increasing and concave in the factor F = Kd/(Km-Kd) + Kf/(phi (Km-Kf)); its differences are of inputs, so each is accurate
C168|Model/Rounding|Near calculus; square root halves relative errors
C169|Model/Rounding|near_sum: rounding error of a left-to-right sum of n nonnegative terms; case analysis of the checks
C170|Model/Rounding|the reciprocal of the difference of two inputs is accurate; the correction is at most R times the result
C171|Model/Rounding|variational form of Gassmann's modulus (it moves at most with the largest relative change of its arguments), composed with C166, C168, C172
C172|Model/Rounding|variational form of the Hashin-Shtrikman bound (monotone, homogeneous), so errors add up over the loop instead of multiplying; induction over the minerals
C173|Model/Rounding|Poisson's ratio has an absolute error of 7 roundings of 1 - nu although 3K-2G may cancel; the exponent error acts through the logarithm of the base (at most 72); then the bound of C170 with errors in every argument
C174|Model/Rounding|1-nu and 2-nu are quotients of positive linear forms, so Hertz-Mindlin amplifies errors of the mineral at most sixfold; composed with C172, C173, C166, C171's form of Gassmann
C175|Model/Rounding, Spec/FloatRange|calculus of binary magnitudes: products and quotients add exponents, a difference of doubles is 0 or at least the last bit of the smaller one; where this grows too far the accuracy theorems reset the magnitude; then rounding in the range agrees with one without bounds and C171, C174 apply
C176|Model/Rounding|C166 (Brie) composed with C172, C173 and the variational form of Gassmann's modulus for inputs that all carry errors
C177|Model/Sandstone, Model/Pipeline, Model/Fluid|Hertz-Mindlin moduli split into powers of G/(1-nu) and G(1-nu)^2/(2-nu)^3-type factors, each monotone in both moduli; Hashin-Shtrikman, Wood, Brie and Gassmann monotone in all moduli jointly
C178|Model/BatzleWang|C93 to published equations; divided differences as Simpson means of slopes, slopes positive by Bernstein forms on the box
C179|Model/BatzleWang|C94 to published equations; both slopes of equation 20a bounded, product with C64
C180|Model/Pipeline, Model/Fluids, Model/BatzleWang|C178 and C137 row by row; Wood's and Brie's laws monotone in moduli and densities; Gassmann monotone in the fluid (softer_fluid)
C181|Model/BatzleWang|logarithmic derivative in pressure of gamma0 and of P over (1 minus the elasticity of Z); pseudo-reduced pressure below and above 2.5 treated apart
C182|Model/Pipeline, Model/Fluids, Model/BatzleWang|C137, C178, C181 and equation 20a row by row; the dry rock sees only the rock pressure; softer_fluid as in C180
C183|Model/BatzleWang|density as a function of pseudo-reduced temperature and pressure; t*Z strictly increasing in t by its derivative (Bernstein bounds, x exp(-x) at most 1/e); C137 for pressure
C184|Model/RoundingPoly|calculus of errors relative to the sum of magnitudes (Within), closed under sum, product, rounding; induction along Horner's rule
C185|Model/RoundingPoly, Spec/Published|C184's calculus with the magnitudes bounded on the range, and C80's lower bounds of density and velocity
C186|Model/Rounding, Model/RoundingPoly, Spec/Published|chain of C185, the mineral loop, friable sand, Wood and Gassmann with their error budgets added up
C187|Model/RoundingFluids, Spec/Published, Spec/Accuracy|relative errors carried through the density, absolute errors in boxes through the velocity, and a lower bound of the velocity
C188|Model/RoundingFluids, Spec/Published, Spec/Accuracy|boxes of absolute errors through compressibility factor and rate, lower bounds of both denominators
C189|Model/Rounding, Model/RoundingPoly, Model/RoundingFluids, Spec/Published|chain of C185, C187, C188, C190, the mineral loop, friable sand, Wood and Gassmann with their error budgets added up
C190|Model/RoundingFluids, Spec/Published, Spec/Accuracy|relative errors through volume factor, pseudo-density and density, boxes of absolute errors through velocity and window, lower bounds of velocity and density
C191|Model/Rounding, Model/RoundingPoly, Model/RoundingFluids, Spec/Published, Spec/Accuracy|C176 applied to the computed fluids taken as exact, plus the effect of their errors on Wood's and Brie's laws, which are convex combinations
C192|Model/RoundingCement, Spec/Published, Spec/Accuracy|intervals for the polynomials of Poisson's ratio, relative errors for the powers, and the negative term is at most 0.8 of the positive one
C193|Model/RoundingCement, Spec/Published, Spec/Accuracy|C192 for the end member and twice the effect of errors on the lower bound (as in C173); without rounding the same model is the published formula
C194|Model/RoundingCement, Spec/Published, Spec/Accuracy|C173, C192 and C193 for the end members; the error of the weight times the distance between the bounds is small, and where that distance is small so is what the weight multiplies
