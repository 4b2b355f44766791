import Verif.Model.Parse

/-!
# Specification vocabulary for parsed sections (C47, C48)

Everything is stated on the mapping a user writes: which keys it has and with which values.  A section
can also be written as a list, of the values of its first fields: `named fields v` is the mapping it
stands for.
-/

namespace OPE.Parse

variable {n : ℕ}

/-- `v` is a mapping with value `x` for `key`. -/
def Given (v : Val n) (key : String) (x : Val n) : Prop := ∃ xs, v = .dict xs ∧ xs.lookup key = some x

/-- `v` is a mapping that has the key. -/
def Has (v : Val n) (key : String) : Prop := ∃ x, Given v key x

/-- `v` is a mapping with no other keys than these. -/
def OnlyKeys (v : Val n) (keys : List String) : Prop := ∃ xs, v = .dict xs ∧ ∀ x ∈ xs, x.1 ∈ keys

/-- `v` is not a list: as a section it is a mapping, or refused. -/
def NotList (v : Val n) : Prop := ∀ vs, v ≠ .list vs

/-- `v` has all these keys. -/
def AllKeys (v : Val n) (keys : List String) : Prop := ∀ key ∈ keys, Has v key

/-- A value that can be used as a per-row number. -/
def Numeric (conv : Conv) (v : Val n) : Prop := ∃ x, toCol conv v = .ok x

/-- The names of coefficients for moduli, and for velocities, in the order of their declaration. -/
abbrev moduliKeys : List String := ["density", "bulk_modulus", "shear_modulus"]
abbrev velocityKeys : List String := ["density", "secondary_velocity", "primary_velocity"]
abbrev coefKeys (useModuli : Bool) : List String := if useModuli then moduliKeys else velocityKeys
abbrev vpVsKeys : List String := ["density", "vp_over_vs", "bulk_modulus"]

/-- The keys of the four sections, of constituents, fits and adjustments, in the order of their
declaration. -/
abbrev mineralsKeys : List String := ["constituents"]
abbrev fluidsKeys : List String :=
  ["temperature", "constituents", "mix_method", "brie_constant", "brie_gases", "fluid_model"]
abbrev dryRockKeys : List String := ["model", "porosity", "adjustments"]
abbrev constituentKeys : List String := ["material", "fraction", "fluid_model"]
abbrev depthTrendKeys : List String := ["depth", "coefficients", "type", "reference_depth", "max_depth"]
abbrev pressureKeys : List String := ["overburden", "reference", "fluid", "max_effective", "rock"]
abbrev fitKeys : List String := ["coefficients", "type"]
abbrev pressureDependencyKeys : List String := ["model", "type"]

/-- The material types of the documentation, with the keys each of them accepts and needs. -/
inductive MatType where
  | material | gas | oil | brine | condensate | carbonDioxide
  deriving DecidableEq

def MatType.name : MatType → String
  | .material => "material"
  | .gas => "gas"
  | .oil => "oil"
  | .brine => "brine"
  | .condensate => "condensate"
  | .carbonDioxide => "carbon_dioxide"

def MatType.accepts : MatType → List String
  | .material => ["density", "bulk_modulus", "shear_modulus", "secondary_velocity", "primary_velocity", "type"]
  | .gas => ["gas_gravity", "type"]
  | .oil => ["reference_density", "gas_oil_ratio", "gas_gravity", "type"]
  | .brine => ["salinity", "type"]
  | .condensate => ["oil_reference_density", "gas_oil_ratio", "gas_gravity", "type"]
  | .carbonDioxide => ["type", "interpolate_density"]

def MatType.needs : MatType → List String
  | .material => ["density"]
  | .gas => ["gas_gravity"]
  | .oil => ["reference_density", "gas_oil_ratio", "gas_gravity"]
  | .brine => ["salinity"]
  | .condensate => ["oil_reference_density", "gas_oil_ratio", "gas_gravity"]
  | .carbonDioxide => []

/-- The `type` of a dry rock model. -/
def _root_.OPE.SandModel.typeName : SandModel n → String
  | .patchy _ => "patchy_cement"
  | .friable _ => "friable_sand"
  | .polyfit _ _ => "polyfit"

/-- The `type` of a pressure dependency model. -/
def _root_.OPE.PDModel.typeName : PDModel n → String
  | .patchy _ => "patchy_cement"
  | .friable _ => "friable_sand"
  | .powerfit _ => "powerfit"
  | .logfit _ _ => "logfit"
  | .polyfit _ _ => "polyfit"
  | .expfit _ _ => "expfit"

/-- A per-row parameter: the value given under its key, or its default. -/
def Field (conv : Conv) (v : Val n) (key : String) (default x : Col n) : Prop :=
  (∀ y, Given v key y → toCol conv y = .ok x) ∧ (¬ Has v key → x = default)

/-- A per-row parameter without default. -/
def NeededField (conv : Conv) (v : Val n) (key : String) (x : Col n) : Prop :=
  ∃ y, Given v key y ∧ toCol conv y = .ok x

/-- A per-row parameter that may be left open (`null`). -/
def OpenField (conv : Conv) (v : Val n) (key : String) (default x : Option (Col n)) : Prop :=
  (Given v key (.scalar .null) → x = none) ∧
  (∀ y, Given v key y → y ≠ .scalar .null → ∃ z, x = some z ∧ toCol conv y = .ok z) ∧
  (¬ Has v key → x = default)

/-- The parameters of a friable sand section. -/
def FriableFields (conv : Conv) (v : Val n) (f : FriableModel n) : Prop :=
  ∃ coord, Field conv v "critical_porosity" (c 0.4) f.criticalPorosity ∧
    Field conv v "shear_reduction" (c 1) f.shearReduction ∧
    OpenField conv v "coordination_number" none coord ∧
    f.coordinationNumber = coord.getD (murphyCoordinationNumber f.criticalPorosity)

/-- The parameters of a patchy cement section. -/
def PatchyFields (conv : Conv) (v : Val n) (f : PatchyModel n) : Prop :=
  ∃ coord, Field conv v "critical_porosity" (c 0.4) f.criticalPorosity ∧
    Field conv v "cement_fraction" (c 0.04) f.cementFraction ∧
    Field conv v "lower_bound_pressure" (c 20e6) f.lowerBoundPressure ∧
    Field conv v "upper_bound_cement_fraction" (c 0.1) f.upperBoundCementFraction ∧
    Field conv v "shear_reduction" (c 1) f.shearReduction ∧
    OpenField conv v "coordination_number" none coord ∧
    f.coordinationNumber = coord.getD (murphyCoordinationNumber f.criticalPorosity) ∧
    (∀ y, Given v "cement" y → parseArbitrary conv y = .ok f.cement) ∧
    (¬ Has v "cement" → f.cement.bulk = c 36.8e9 ∧ f.cement.shear = c 44e9 ∧ f.cement.density = c 2650)

/-- A coefficient vector is the one written under its key. -/
def VectorField (conv : Conv) (v : Val n) (key : String) (xs : List ℝ) : Prop :=
  ∃ y, Given v key y ∧ toVector? conv y = some xs

end OPE.Parse
