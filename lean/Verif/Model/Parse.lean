import Verif.Model.Config
import Verif.Model.Pipeline

/-!
# Parsing of a configuration tree into sections (config/*.py as pydantic v1 dataclasses)

The tree is what `yaml.safe_load` returns, after column insertion (`Model/Config.lean`).  pydantic
reports every rejection (unknown or missing key, wrong literal, conversion error, failing validator) as a
`ValidationError`, a `ValueError`; so does this model.

Simplifications:
* a literal list given for a per-row parameter is a column of its own if it has one entry per row; a list of
  another length is rejected here (in the code the first operation with, or the output of, columns of another
  length raises `ValueError`; numpy repeats a list of one entry next to columns);
* a reference to several columns at once is rejected where a column is needed;
* polynomial/fit coefficients that have a shape or a missing part that makes numpy raise during the
  calculation, or that are not finite, are rejected here.
-/

namespace OPE.Parse

open Classical

/-- YAML scalars other than strings. -/
inductive Scalar where
  | num (x : Num)
  | bool (b : Bool)
  | null
  | other                    -- dates and other objects that are not numbers

/-- One entry of a CSV file as `read_csv` returns it (an empty entry is NaN). -/
inductive Cell where
  | num (x : Num)
  | text (s : String)

/-- An array taken from a table with `n` rows: one column, or several. -/
inductive Arr (n : ℕ) where
  | col (x : Fin n → Cell)
  | cols (xs : List (Fin n → Cell))

/-- A configuration value after column insertion. -/
abbrev Val (n : ℕ) := Cfg Scalar (Arr n)

/-- Python's conversions of strings: `float(s)` and `int(s)`; `none` raises `ValueError`. -/
structure Conv where
  floatOf : String → Option Num
  intOf : String → Option ℤ

variable {n : ℕ}

/-- Rejection of a value: pydantic's `ValidationError`. -/
abbrev reject {α : Type} : Except Err α := .error .valueError

/-- An optional result as acceptance or rejection. -/
def orReject {α : Type} : Option α → Except Err α
  | none => reject
  | some a => .ok a

/-! ## Conversions of single values -/

/-- `float(x)` of a scalar. -/
noncomputable def Scalar.toNum : Scalar → Option Num
  | .num x => some x
  | .bool b => some (Num.fin (if b then 1 else 0))
  | _ => none

/-- `float(x)` of a CSV entry. -/
def Cell.toNum (conv : Conv) : Cell → Option Num
  | .num x => some x
  | .text s => conv.floatOf s

/-- An entry of a list in `np.array(list, dtype=float)`: null becomes NaN. -/
noncomputable def Entry.toNum (conv : Conv) : Val n → Option Num
  | .scalar .null => some .nan
  | .scalar s => s.toNum
  | .str s => conv.floatOf s
  | _ => none

/-- vector_type.py:14-30 `Array.validate_type` with dtype float for a per-row parameter: a single value is
used for all rows, a list has one entry per row.  Simplified: a list of any other length is refused here; the code
accepts it and fails later, with a ValueError, when arrays of different lengths meet or the table is built
(rock_physics_model.py:56-73), except that a list of one entry is accepted if numpy can broadcast it. -/
noncomputable def toCol (conv : Conv) : Val n → Except Err (Col n)
  | .scalar s => (orReject s.toNum) >>= fun x => .ok fun _ => x
  | .str s => (orReject (conv.floatOf s)) >>= fun x => .ok fun _ => x
  | .arr (.col x) => vec fun i => orReject ((x i).toNum conv)
  | .list xs => if h : xs.length = n then vec fun i : Fin n => orReject (Entry.toNum conv (xs[i.val]'(by omega)))
    else reject
  | _ => reject

/-- pydantic's `float` (fluids.py:59 `brie_constant`); an array is converted if it has one element. -/
noncomputable def toFloat (conv : Conv) : Val n → Except Err Num
  | .scalar s => orReject s.toNum
  | .str s => orReject (conv.floatOf s)
  | .arr (.col x) => if h : n = 1 then orReject ((x ⟨0, by omega⟩).toNum conv) else reject
  | _ => reject

/-- `int(x)` of a float: truncation towards zero; infinities and NaN raise. -/
noncomputable def numToInt : Num → Option ℤ
  | .fin x => some (if 0 ≤ x then ⌊x⌋ else ⌈x⌉)
  | _ => none

/-- pydantic's `int` (fluids.py:60 `brie_gases`). -/
noncomputable def toInt (conv : Conv) : Val n → Except Err ℤ
  | .scalar s => orReject (s.toNum.bind numToInt)
  | .str s => orReject (conv.intOf s)
  | .arr (.col x) => if h : n = 1 then orReject (match x ⟨0, by omega⟩ with
      | .num y => numToInt y
      | .text s => conv.intOf s) else reject
  | _ => reject

/-- pydantic's `bool` (material_type.py:108 `interpolate_density`). -/
noncomputable def toBool : Val n → Except Err Bool
  | .scalar (.bool b) => .ok b
  | .scalar (.num x) => if x = Num.fin 1 then .ok true else if x = Num.fin 0 then .ok false else reject
  | .str s =>
    if s.toLower ∈ ["1", "on", "t", "true", "y", "yes"] then .ok true
    else if s.toLower ∈ ["0", "off", "f", "false", "n", "no"] then .ok false
    else reject
  | _ => reject

/-- A `Literal` with one value. -/
def literal (tag : String) : Val n → Except Err Unit
  | .str s => if s = tag then .ok () else reject
  | _ => reject

/-- fluid_model_providers.py:83-90: the names of the providers (without third-party plug-ins). -/
def toProvider : Val n → Except Err Provider
  | .str s =>
    if s = "default" then .ok .default
    else if s = "batzle_wang" then .ok .batzleWang
    else if s = "span_wagner" then .ok .spanWagner
    else reject
  | _ => reject

/-- fluids.py:58 `Literal["wood", "brie"]`. -/
def toMethod : Val n → Except Err MixMethod
  | .str s => if s = "wood" then .ok .wood else if s = "brie" then .ok .brie else reject
  | _ => reject

/-- `Optional[…]`: null is `None`. -/
def optional {α : Type} (p : Val n → Except Err α) : Val n → Except Err (Option α)
  | .scalar .null => .ok none
  | v => (p v) >>= fun a => .ok (some a)

/-- `List[…]`, all elements. -/
def eachOf {α : Type} (p : Val n → Except Err α) : List (Val n) → Except Err (List α)
  | [] => .ok []
  | x :: xs => do
    let y ← p x
    let ys ← eachOf p xs
    .ok (y :: ys)

/-- `List[…]`. -/
def listOf {α : Type} (p : Val n → Except Err α) : Val n → Except Err (List α)
  | .list xs => eachOf p xs
  | _ => reject

/-! ## Dataclasses -/

/-- Keyword arguments of a dataclass constructor. -/
abbrev Args (n : ℕ) := String → Option (Val n)

/-- pydantic v1 `_validate_dataclass`: a section written as a list is `cls(*v)`, its entries are the values
of the fields in the order of their declaration (`fields`); too many of them are a `TypeError`, which
pydantic reports as a rejection.  A mapping is `cls(**v)`. -/
def named (fields : List String) : Val n → Val n
  | .list vs => if vs.length ≤ fields.length then .dict (fields.zip vs) else .list vs
  | v => v

/-- pydantic_config.py:1-5 `extra = "forbid"`: a mapping all of whose keys are fields. -/
def args (fields : List String) (v : Val n) : Except Err (Args n) :=
  match named fields v with
  | .dict xs => if xs.all (fun x => decide (x.1 ∈ fields)) then .ok (fun k => xs.lookup k) else reject
  | _ => reject

/-- A field without default. -/
def required {α : Type} (a : Args n) (key : String) (p : Val n → Except Err α) : Except Err α :=
  match a key with
  | none => reject
  | some v => p v

/-- A field with default. -/
def defaulted {α : Type} (a : Args n) (key : String) (p : Val n → Except Err α) (d : α) : Except Err α :=
  match a key with
  | none => .ok d
  | some v => p v

/-- A field `type: Literal[tag] = tag`. -/
def tagged (a : Args n) (tag : String) : Except Err Unit := defaulted a "type" (literal tag) ()

/-- pydantic's `Union`: the first alternative that accepts the value. -/
def firstOf {α : Type} : List (Val n → Except Err α) → Val n → Except Err α
  | [], _ => reject
  | p :: ps, v => match p v with
    | .ok a => .ok a
    | .error _ => firstOf ps v

/-! ## config/material_type.py -/

/-- material_type.py:17-30 `ArbitraryMaterial`: `set_defaults` derives what is missing; the checks of
`Material.__init__` are not run. -/
noncomputable def parseArbitrary (conv : Conv) (v : Val n) : Except Err (Mat n) := do
  let a ← args ["density", "bulk_modulus", "shear_modulus", "secondary_velocity", "primary_velocity",
    "type"] v
  tagged a "material"
  let density ← required a "density" (toCol conv)
  let bulk ← defaulted a "bulk_modulus" (optional (toCol conv)) none
  let shear ← defaulted a "shear_modulus" (optional (toCol conv)) none
  let vs ← defaulted a "secondary_velocity" (optional (toCol conv)) none
  let vp ← defaulted a "primary_velocity" (optional (toCol conv)) none
  let m ← setDefaults bulk shear (some density) vs vp
  .ok ⟨m.1, m.2.1, density, m.2.2.2.2, m.2.2.2.1⟩

/-- material_type.py:17-30 as an alternative of `MaterialType`. -/
noncomputable def parseMaterial (conv : Conv) (v : Val n) : Except Err (FluidKind n) := do
  let m ← parseArbitrary conv v
  .ok (.material m)

/-- material_type.py:56-69 `GasMaterial`. -/
noncomputable def parseGas (conv : Conv) (v : Val n) : Except Err (FluidKind n) := do
  let a ← args ["gas_gravity", "type"] v
  tagged a "gas"
  let g ← required a "gas_gravity" (toCol conv)
  .ok (.gas g)

/-- material_type.py:33-53 `OilMaterial`. -/
noncomputable def parseOil (conv : Conv) (v : Val n) : Except Err (FluidKind n) := do
  let a ← args ["reference_density", "gas_oil_ratio", "gas_gravity", "type"] v
  tagged a "oil"
  let r ← required a "reference_density" (toCol conv)
  let o ← required a "gas_oil_ratio" (toCol conv)
  let g ← required a "gas_gravity" (toCol conv)
  .ok (.oil r o g)

/-- material_type.py:70-81 `BrineMaterial`. -/
noncomputable def parseBrine (conv : Conv) (v : Val n) : Except Err (FluidKind n) := do
  let a ← args ["salinity", "type"] v
  tagged a "brine"
  let s ← required a "salinity" (toCol conv)
  .ok (.brine s)

/-- material_type.py:84-103 `CondensateMaterial`. -/
noncomputable def parseCondensate (conv : Conv) (v : Val n) : Except Err (FluidKind n) := do
  let a ← args ["oil_reference_density", "gas_oil_ratio", "gas_gravity", "type"] v
  tagged a "condensate"
  let r ← required a "oil_reference_density" (toCol conv)
  let o ← required a "gas_oil_ratio" (toCol conv)
  let g ← required a "gas_gravity" (toCol conv)
  .ok (.condensate r o g)

/-- material_type.py:106-118 `CarbonDioxideMaterial`. -/
noncomputable def parseCO2 (v : Val n) : Except Err (FluidKind n) := do
  let a ← args ["type", "interpolate_density"] v
  tagged a "carbon_dioxide"
  let b ← defaulted a "interpolate_density" toBool true
  .ok (.carbonDioxide b)

/-- material_type.py:121-128 `MaterialType`: the alternatives in declaration order. -/
noncomputable def materialAlternatives (conv : Conv) : List (Val n → Except Err (FluidKind n)) :=
  [parseMaterial conv, parseGas conv, parseOil conv, parseBrine conv, parseCondensate conv, parseCO2]

/-- material_type.py:121-128. -/
noncomputable def parseMaterialType (conv : Conv) (v : Val n) : Except Err (FluidKind n) :=
  firstOf (materialAlternatives conv) v

/-! ## config/constituent.py, config/minerals.py, config/fluids.py -/

/-- constituent.py:20-32 `Constituent` (the range check of the fraction, :49-57, is part of `mkMinerals`
and `mkFluids`). -/
noncomputable def parseConstituent (conv : Conv) (v : Val n) : Except Err (FluidSpec n) := do
  let a ← args ["material", "fraction", "fluid_model"] v
  let kind ← required a "material" (parseMaterialType conv)
  let fraction ← defaulted a "fraction" (optional (toCol conv)) none
  let model ← defaulted a "fluid_model" (optional toProvider) none
  .ok ⟨kind, model, fraction⟩

/-- A material given by moduli and density only (`wrap_a_material`, constituent.py:59-67, followed by
`set_defaults`). -/
noncomputable def moduliMat (bulk shear density : ℝ) : Mat n :=
  ⟨c bulk, c shear, c density, calcVp (c bulk) (c shear) (c density), calcVs (c shear) (c density)⟩

/-- minerals.py:19-20, 29-36: the default minerals. -/
noncomputable def defaultMinerals : List (FluidSpec n) :=
  [⟨.material (moduliMat 36.8e9 44e9 2650), none, some (c 0.5)⟩,
   ⟨.material (moduliMat 25e9 12e9 2650), none, some (c 0.5)⟩]

/-- minerals.py:23-36 `Minerals`. -/
noncomputable def parseMinerals (conv : Conv) (v : Val n) : Except Err (List (FluidSpec n)) := do
  let a ← args ["constituents"] v
  defaulted a "constituents" (listOf (parseConstituent conv)) defaultMinerals

/-- fluids.py:24-33, 48-56: the default fluids. -/
noncomputable def defaultFluids : List (FluidSpec n) :=
  [⟨.oil (c 850) (c 100) (c 0.7), none, some (c 0.3)⟩,
   ⟨.brine (c 50000), none, some (c 0.3)⟩,
   ⟨.gas (c 0.7), none, some (c 0.4)⟩]

/-- The fields of a fluids section (fluids.py:47-61). -/
structure FluidsIn (n : ℕ) where
  temperature : Col n
  constituents : List (FluidSpec n)
  method : MixMethod
  brieConstant : Num
  brieGases : Option (List ℤ)
  model : Provider

/-- fluids.py:36-61 `Fluids`. -/
noncomputable def parseFluids (conv : Conv) (v : Val n) : Except Err (FluidsIn n) := do
  let a ← args ["temperature", "constituents", "mix_method", "brie_constant", "brie_gases",
    "fluid_model"] v
  let temperature ← defaulted a "temperature" (toCol conv) (c 80)
  let constituents ← defaulted a "constituents" (listOf (parseConstituent conv)) defaultFluids
  let method ← defaulted a "mix_method" toMethod .wood
  let brieConstant ← defaulted a "brie_constant" (toFloat conv) (Num.fin 3)
  let brieGases ← defaulted a "brie_gases" (optional (listOf (toInt conv))) none
  let model ← defaulted a "fluid_model" toProvider .default
  .ok ⟨temperature, constituents, method, brieConstant, brieGases, model⟩

/-! ## config/coefficients.py -/

mutual
/-- The shape of `np.array(v, dtype=float)`; `none` if numpy raises. -/
noncomputable def shape (conv : Conv) : Val n → Option (List ℕ)
  | .scalar .null => some []                     -- NaN inside a list
  | .scalar s => s.toNum.map fun _ => []
  | .str s => (conv.floatOf s).map fun _ => []
  | .arr (.col x) => if ∀ i, ((x i).toNum conv).isSome then some [n] else none
  | .arr (.cols xs) => if ∀ x ∈ xs, ∀ i, ((x i).toNum conv).isSome then some [n, xs.length] else none
  | .list xs => shapes conv xs
  | .dict _ => none
/-- The shape of a list. -/
noncomputable def shapes (conv : Conv) : List (Val n) → Option (List ℕ)
  | [] => some [0]
  | x :: xs => match shape conv x, shapes conv xs with
    | some s, some (k :: t) => if k = 0 ∨ s = t then some ((k + 1) :: s) else none
    | _, _ => none
end

/-- An `Array[float]` of any shape. -/
noncomputable def anyArray (conv : Conv) (v : Val n) : Except Err (Val n) :=
  match shape conv v with
  | none => reject
  | some _ => .ok v

/-- Coefficients before their shapes are looked at: `use_moduli`, and density, primary and secondary
coefficients as far as given. -/
structure CoefIn (n : ℕ) where
  useModuli : Bool
  coef : Coef3 (Option (Val n))

/-- coefficients.py:14-36 `ModuliCoefficients`. -/
noncomputable def parseModuliCoef (conv : Conv) (v : Val n) : Except Err (CoefIn n) := do
  let a ← args ["density", "bulk_modulus", "shear_modulus"] v
  let d ← defaulted a "density" (optional (anyArray conv)) none
  let k ← defaulted a "bulk_modulus" (optional (anyArray conv)) none
  let g ← defaulted a "shear_modulus" (optional (anyArray conv)) none
  .ok ⟨true, d, k, g⟩

/-- coefficients.py:39-61 `VelocityCoefficients`. -/
noncomputable def parseVelocityCoef (conv : Conv) (v : Val n) : Except Err (CoefIn n) := do
  let a ← args ["density", "secondary_velocity", "primary_velocity"] v
  let d ← defaulted a "density" (optional (anyArray conv)) none
  let s ← defaulted a "secondary_velocity" (optional (anyArray conv)) none
  let p ← defaulted a "primary_velocity" (optional (anyArray conv)) none
  .ok ⟨false, d, p, s⟩

/-- coefficients.py:64-72 `VpOverVsCoefficients` (`as_list`: density, bulk modulus, vp/vs). -/
noncomputable def parseVpOverVsCoef (conv : Conv) (v : Val n) : Except Err (CoefIn n) := do
  let a ← args ["density", "vp_over_vs", "bulk_modulus"] v
  let d ← defaulted a "density" (optional (anyArray conv)) none
  let r ← defaulted a "vp_over_vs" (optional (anyArray conv)) none
  let k ← defaulted a "bulk_modulus" (optional (anyArray conv)) none
  .ok ⟨true, d, k, r⟩

/-- coefficients.py:75 `PolyfitCoefficients`. -/
noncomputable def parsePolyfitCoef (conv : Conv) (v : Val n) : Except Err (CoefIn n) :=
  firstOf [parseModuliCoef conv, parseVelocityCoef conv] v

/-- A finite number. -/
noncomputable def Num.toReal? : Num → Option ℝ
  | .fin x => some x
  | _ => none

/-- A single finite coefficient. -/
noncomputable def toReal? (conv : Conv) : Val n → Option ℝ
  | .scalar s => s.toNum.bind Num.toReal?
  | .str s => (conv.floatOf s).bind Num.toReal?
  | _ => none

/-- All elements of a list, or nothing. -/
def allSome {α β : Type} (f : α → Option β) : List α → Option (List β)
  | [] => some []
  | x :: xs => match f x, allSome f xs with
    | some y, some ys => some (y :: ys)
    | _, _ => none

/-- A vector of coefficients. -/
noncomputable def toVector? (conv : Conv) : Val n → Option (List ℝ)
  | .list xs => allSome (toReal? conv) xs
  | .arr (.col x) => allSome (fun y => (Cell.toNum conv y).bind Num.toReal?) (List.ofFn x)
  | _ => none

/-- The matrix with these rows (of equal length). -/
def matrixOf (rows : List (List ℝ)) : Coeffs :=
  ⟨rows.length - 1, (rows.headD []).length - 1, fun i j => (rows.getD i []).getD j 0⟩

/-- Coefficients of a 2-d polynomial: a matrix; a vector is a polynomial in the first variable (numpy's
`polyval2d`), a number a constant. -/
noncomputable def toCoeffs? (conv : Conv) (v : Val n) : Option Coeffs :=
  match toReal? conv v with
  | some x => some (matrixOf [[x]])
  | none => match toVector? conv v with
    | some xs => if xs = [] then none else some (matrixOf (xs.map fun x => [x]))
    | none => match v with
      | .list xs => match allSome (toVector? conv) xs with
        | some rows => if (rows.headD []) = [] ∨ ∃ r ∈ rows, r.length ≠ (rows.headD []).length then none
            else some (matrixOf rows)
        | none => none
      | _ => none

/-- An optional coefficient matrix. -/
noncomputable def coeffsOf (conv : Conv) : Option (Val n) → Except Err (Option Coeffs)
  | none => .ok none
  | some v => (orReject (toCoeffs? conv v)) >>= fun a => .ok (some a)

/-- A coefficient matrix that has to be given. -/
noncomputable def needCoeffsOf (conv : Conv) : Option (Val n) → Except Err Coeffs
  | none => reject
  | some v => orReject (toCoeffs? conv v)

/-- A coefficient vector that has to be given. -/
noncomputable def needVectorOf (conv : Conv) : Option (Val n) → Except Err (List ℝ)
  | none => reject
  | some v => orReject (toVector? conv v)

/-! ## config/model.py -/

/-- model.py:208-228 `FriableSandModel`. -/
noncomputable def parseFriable (conv : Conv) (v : Val n) : Except Err (FriableModel n) := do
  let a ← args ["critical_porosity", "shear_reduction", "coordination_number", "type"] v
  tagged a "friable_sand"
  let phi ← defaulted a "critical_porosity" (toCol conv) (c 0.4)
  let red ← defaulted a "shear_reduction" (toCol conv) (c 1)
  let coord ← defaulted a "coordination_number" (optional (toCol conv)) none
  .ok (mkFriableModel phi red coord)

/-- model.py:255-258 `DEFAULT_CEMENT`. -/
noncomputable def defaultCement : Mat n := moduliMat 36.8e9 44e9 2650

/-- model.py:261-290 `PatchyCementModel`. -/
noncomputable def parsePatchy (conv : Conv) (v : Val n) : Except Err (PatchyModel n) := do
  let a ← args ["type", "cement", "critical_porosity", "cement_fraction", "lower_bound_pressure",
    "upper_bound_cement_fraction", "coordination_number", "shear_reduction"] v
  tagged a "patchy_cement"
  let cement ← defaulted a "cement" (parseArbitrary conv) defaultCement
  let phi ← defaulted a "critical_porosity" (toCol conv) (c 0.4)
  let frac ← defaulted a "cement_fraction" (toCol conv) (c 0.04)
  let lower ← defaulted a "lower_bound_pressure" (toCol conv) (c 20e6)
  let upper ← defaulted a "upper_bound_cement_fraction" (toCol conv) (c 0.1)
  let coord ← defaulted a "coordination_number" (optional (toCol conv)) none
  let red ← defaulted a "shear_reduction" (toCol conv) (c 1)
  .ok (mkPatchyModel cement phi frac lower upper coord red)

/-- model.py:184-205 `Polyfit2dModel` (omitted coefficients are filled in by `mkDryRock`;
dry_rock.py:57-65: no coefficients at all are the default moduli coefficients). -/
noncomputable def parsePolyfit2d (conv : Conv) (v : Val n) : Except Err (SandModel n) := do
  let a ← args ["coefficients", "type"] v
  tagged a "polyfit"
  let co ← defaulted a "coefficients" (optional (parsePolyfitCoef conv)) none
  match co with
  | none => .ok (.polyfit true ⟨none, none, none⟩)
  | some k => do
    let d ← coeffsOf conv k.coef.density
    let p ← coeffsOf conv k.coef.primary
    let s ← coeffsOf conv k.coef.secondary
    .ok (.polyfit k.useModuli ⟨d, p, s⟩)

/-- A result put into another type. -/
def into {α β : Type} (f : α → β) (p : Val n → Except Err α) (v : Val n) : Except Err β :=
  (p v) >>= fun a => .ok (f a)

/-- model.py:346 `SandstoneModel`. -/
noncomputable def parseSandstone (conv : Conv) (v : Val n) : Except Err (SandModel n) :=
  firstOf [into .patchy (parsePatchy conv), into .friable (parseFriable conv), parsePolyfit2d conv] v

/-- The four fits of a pressure dependency. -/
inductive FitKind where
  | powerfit | logfit | polyfit | expfit
  deriving DecidableEq

/-- A parsed pressure dependency model, before the shapes of its coefficients are looked at. -/
inductive PDIn (n : ℕ) where
  | patchy (f : PatchyModel n)
  | friable (f : FriableModel n)
  | fit (kind : FitKind) (coef : CoefIn n)

/-- The `type` of each fit (model.py:84, 104, 124, 142). -/
def FitKind.tag : FitKind → String
  | .powerfit => "powerfit"
  | .logfit => "logfit"
  | .polyfit => "polyfit"
  | .expfit => "expfit"

/-- model.py:81-84 `PolyfitModel`, :101-104 `ExpfitModel`, :121-124 `LogfitModel`, :139-142
`PowerfitModel`. -/
noncomputable def parseFit (conv : Conv) (kind : FitKind) (v : Val n) : Except Err (PDIn n) := do
  let a ← args ["coefficients", "type"] v
  tagged a kind.tag
  let co ← required a "coefficients" (match kind with
    | .powerfit => parseVpOverVsCoef conv
    | _ => parsePolyfitCoef conv)
  .ok (.fit kind co)

/-- model.py:337-344 `PressureDependencyModel`. -/
noncomputable def parsePDModel (conv : Conv) (v : Val n) : Except Err (PDIn n) :=
  firstOf [into .patchy (parsePatchy conv), into .friable (parseFriable conv),
    parseFit conv .powerfit, parseFit conv .logfit, parseFit conv .polyfit, parseFit conv .expfit] v

/-- The first two coefficients (model.py:133, 178 use `coeff[:, 0]` and `coeff[:, 1]`). -/
def firstTwo : List ℝ → Except Err (ℝ × ℝ)
  | a :: b :: _ => .ok (a, b)
  | _ => reject

/-- The first three coefficients (model.py:115). -/
def firstThree : List ℝ → Except Err (ℝ × ℝ × ℝ)
  | a :: b :: d :: _ => .ok (a, b, d)
  | _ => reject

/-- The model with its coefficients; the three vectors need the same length (numpy raises otherwise). -/
noncomputable def PDIn.toModel (conv : Conv) : PDIn n → Except Err (PDModel n)
  | .patchy f => .ok (.patchy f)
  | .friable f => .ok (.friable f)
  | .fit kind co => do
    let d ← needVectorOf conv co.coef.density
    let p ← needVectorOf conv co.coef.primary
    let s ← needVectorOf conv co.coef.secondary
    failIf (p.length ≠ d.length ∨ s.length ≠ d.length ∨ d = []) .valueError
    match kind with
    | .polyfit => .ok (.polyfit co.useModuli ⟨d, p, s⟩)
    | .expfit => do
      let d ← firstThree d
      let p ← firstThree p
      let s ← firstThree s
      .ok (.expfit co.useModuli ⟨d, p, s⟩)
    | .logfit => do
      let d ← firstTwo d
      let p ← firstTwo p
      let s ← firstTwo s
      .ok (.logfit co.useModuli ⟨d, p, s⟩)
    | .powerfit => do
      let d ← firstTwo d
      let p ← firstTwo p
      let s ← firstTwo s
      .ok (.powerfit ⟨d, p, s⟩)

/-! ## config/pressure_dependency.py, config/depth_trend.py, config/dry_rock.py, config/pressure.py -/

/-- pressure_dependency.py:28-29 `PressureDependency`. -/
noncomputable def parsePressureDependency (conv : Conv) (v : Val n) : Except Err (Adjustment n) := do
  let a ← args ["model", "type"] v
  tagged a "pressure_dependency"
  let m ← required a "model" (parsePDModel conv)
  let m ← m.toModel conv
  .ok (.pressureDependency m)

/-- depth_trend.py:28-33 `DepthTrend`. -/
noncomputable def parseDepthTrend (conv : Conv) (v : Val n) : Except Err (Adjustment n) := do
  let a ← args ["depth", "coefficients", "type", "reference_depth", "max_depth"] v
  tagged a "depth_trend"
  let depth ← required a "depth" (toCol conv)
  let co ← required a "coefficients" (parsePolyfitCoef conv)
  let reference ← defaulted a "reference_depth" (optional (toCol conv)) none
  let maxDepth ← defaulted a "max_depth" (optional (toCol conv)) none
  let d ← needCoeffsOf conv co.coef.density
  let p ← needCoeffsOf conv co.coef.primary
  let s ← needCoeffsOf conv co.coef.secondary
  .ok (.depthTrend ⟨depth, reference, maxDepth, co.useModuli, ⟨d, p, s⟩⟩)

/-- dry_rock.py:53 `Union[DepthTrend, PressureDependency]`. -/
noncomputable def parseAdjustment (conv : Conv) (v : Val n) : Except Err (Adjustment n) :=
  firstOf [parseDepthTrend conv, parsePressureDependency conv] v

/-- The fields of a dry rock section (dry_rock.py:48-55). -/
structure DryRockIn (n : ℕ) where
  model : SandModel n
  porosity : Col n
  adjustments : List (Adjustment n)

/-- dry_rock.py:27-31 `DEFAULT_COEFFICIENTS` in the default model (:48-50). -/
def defaultSandstone : SandModel n :=
  .polyfit true ⟨some defaultDensity, some (rowCoeffs 2900 (-1300)), some (rowCoeffs 1700 (-800))⟩

/-- dry_rock.py:34-55 `DryRock`. -/
noncomputable def parseDryRock (conv : Conv) (v : Val n) : Except Err (DryRockIn n) := do
  let a ← args ["model", "porosity", "adjustments"] v
  let model ← defaulted a "model" (parseSandstone conv) defaultSandstone
  let porosity ← defaulted a "porosity" (toCol conv) (c 0.3)
  let adjustments ← defaulted a "adjustments" (listOf (parseAdjustment conv)) []
  .ok ⟨model, porosity, adjustments⟩

/-- The fields of a pressure section (pressure.py:17-22). -/
structure PressureIn (n : ℕ) where
  overburden : Col n
  reference : Col n
  fluid : Option (Col n)
  maxEffective : Option (Col n)
  rock : Option (Col n)

/-- pressure.py:16-22 `Pressure`. -/
noncomputable def parsePressure (conv : Conv) (v : Val n) : Except Err (PressureIn n) := do
  let a ← args ["overburden", "reference", "fluid", "max_effective", "rock"] v
  let overburden ← defaulted a "overburden" (toCol conv) (c 100e6)
  let reference ← defaulted a "reference" (toCol conv) (c 30e6)
  let fluid ← defaulted a "fluid" (optional (toCol conv)) (some (c 70e6))
  let maxEffective ← defaulted a "max_effective" (optional (toCol conv)) none
  let rock ← defaulted a "rock" (optional (toCol conv)) none
  .ok ⟨overburden, reference, fluid, maxEffective, rock⟩

/-! ## config/input.py -/

/-- A constituent of the minerals section as used by the calculation.  A fluid type has no moduli:
`AttributeError`.  Simplification: the code raises it during the calculation. -/
def toMineral (x : FluidSpec n) : Except Err (MineralIn n) :=
  match x.kind with
  | .material m => .ok ⟨m, x.fraction⟩
  | _ => .error .attributeError

/-- The minerals of a section. -/
def toMinerals : List (FluidSpec n) → Except Err (List (MineralIn n))
  | [] => .ok []
  | x :: xs => do
    let y ← toMineral x
    let ys ← toMinerals xs
    .ok (y :: ys)

/-- The four sections after column insertion (a missing section is built from its defaults, like an empty
one: input.py:52-55). -/
noncomputable def parseSections (conv : Conv) (minerals fluids dryRock pressure : Val n) :
    Except Err (Sections n) := do
  let m ← parseMinerals conv minerals
  let f ← parseFluids conv fluids
  let d ← parseDryRock conv dryRock
  let p ← parsePressure conv pressure
  let m ← toMinerals m
  .ok { minerals := m, temperature := f.temperature, fluids := f.constituents, mixMethod := f.method
        brieConstant := f.brieConstant, brieGases := f.brieGases, fluidModel := f.model
        sandModel := d.model, porosity := d.porosity, adjustments := d.adjustments
        overburden := p.overburden, reference := p.reference, fluidPressure := p.fluid
        maxEffective := p.maxEffective, rockPressure := p.rock }

/-- A YAML document: no arrays in it. -/
abbrev Yaml := Cfg Scalar Empty

mutual
/-- The same tree with the arrays replaced. -/
def mapArr {S A B : Type} (f : A → B) : Cfg S A → Cfg S B
  | .scalar s => .scalar s
  | .str s => .str s
  | .arr a => .arr (f a)
  | .list xs => .list (mapArrList f xs)
  | .dict xs => .dict (mapArrDict f xs)
def mapArrList {S A B : Type} (f : A → B) : List (Cfg S A) → List (Cfg S B)
  | [] => []
  | x :: xs => mapArr f x :: mapArrList f xs
def mapArrDict {S A B : Type} (f : A → B) : List (String × Cfg S A) → List (String × Cfg S B)
  | [] => []
  | (k, x) :: xs => (k, mapArr f x) :: mapArrDict f xs
end

/-- A row of a data file: its entries by column name. -/
abbrev DataRow := String → Option Cell

/-- The table with given rows. -/
noncomputable def frameOf (rows : Fin n → DataRow) : Frame (Arr n) where
  column s := if h : ∀ i, (rows i s).isSome then some (.col fun i => (rows i s).get (h i)) else none
  columns ss := .cols (ss.map fun s i => (rows i s).getD (.num .nan))

/-- input.py:49-62: the top level of the configuration has the four sections and the data (which `make_input`
overwrites); columns are inserted into every section before anything is parsed. -/
noncomputable def readWith (conv : Conv) (data : Option (Frame (Arr n))) (cfg : Yaml) :
    Except Err (Sections n) :=
  match cfg with
  | .dict xs => do
    failIf (∃ x ∈ xs, x.1 ∉ ["data", "minerals", "fluids", "dry_rock", "pressure"]) .valueError
    let sec := fun key => insertDataframe data (mapArr Empty.elim ((xs.lookup key).getD (.dict [])))
    let minerals ← sec "minerals"
    let fluids ← sec "fluids"
    let dryRock ← sec "dry_rock"
    let pressure ← sec "pressure"
    parseSections conv minerals fluids dryRock pressure
  | _ => reject

/-- Reading a configuration with data rows. -/
noncomputable def reading (conv : Conv) (cfg : Yaml) (n : ℕ) (rows : Fin n → DataRow) :
    Except Err (Sections n) :=
  readWith conv (some (frameOf rows)) cfg

/-- Reading a configuration without a data file: one row. -/
noncomputable def readingNoData (conv : Conv) (cfg : Yaml) : Except Err (Sections 1) :=
  readWith conv none cfg

end OPE.Parse
