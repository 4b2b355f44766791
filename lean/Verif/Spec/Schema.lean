import Verif.Spec.Document

/-!
# What an accepted configuration file looks like (specification)

Necessary conditions: at every level of the document only documented keys, every required key, only documented
names of models, methods and types, and parameters that are numbers or references to numeric columns.
-/

namespace OPE.Schema

open Parse Doc

variable {n : ℕ}

/-- `xs` has the given fields and no other keys. -/
def Fields (F : List Field) (xs : List (String × Yaml)) : Prop :=
  (∀ x ∈ xs, x.1 ∈ F.map Prod.fst) ∧ ∀ f ∈ F, f.2 (xs.lookup f.1)

/-- A section: a mapping with the given fields and no other keys, or a list of the values of its first fields (as
many as it has entries). -/
def Shape (F : List Field) (y : Yaml) : Prop :=
  (∃ xs, y = .dict xs ∧ Fields F xs) ∨
  ∃ vs, y = .list vs ∧ vs.length ≤ F.length ∧ Fields F ((F.map Prod.fst).zip vs)

/-- A list. -/
def ListOf (R : Yaml → Prop) (y : Yaml) : Prop := ∃ ys, y = .list ys ∧ ∀ z ∈ ys, R z

/-- A field that may be left out. -/
def opt (key : String) (R : Yaml → Prop) : Field := may key True R

/-- One of some names. -/
def Name (names : List String) (y : Yaml) : Prop := ∃ s ∈ names, y = .str s

/-- An entry of a data file that is a number. -/
def Numeric (conv : Conv) (x : Cell) : Prop := (∃ a, x = .num a) ∨ ∃ s a, x = .text s ∧ conv.floatOf s = some a

/-- A number, a boolean, a string that Python's `float` accepts, or null. -/
def Plain (conv : Conv) (y : Yaml) : Prop :=
  (∃ a, y = .scalar (.num a)) ∨ (∃ b, y = .scalar (.bool b)) ∨ (∃ s a, y = .str s ∧ conv.floatOf s = some a) ∨ y = null

/-- A parameter: a number, a boolean, a string that Python's `float` accepts, the name of a column that all rows have
and in which all entries are numbers, or a list with one plain value per row. -/
def Value (conv : Conv) (rows : Fin n → DataRow) (y : Yaml) : Prop :=
  (∃ a, y = .scalar (.num a)) ∨ (∃ b, y = .scalar (.bool b)) ∨ (∃ s a, y = .str s ∧ conv.floatOf s = some a) ∨
  (∃ name, y = .dict [("column", .str name)] ∧ ∀ i, ∃ x, rows i name = some x ∧ Numeric conv x) ∨
  ∃ xs, y = .list xs ∧ xs.length = n ∧ ∀ x ∈ xs, Plain conv x

/-- A parameter or null. -/
def Value? (conv : Conv) (rows : Fin n → DataRow) (y : Yaml) : Prop := y = null ∨ Value conv rows y

/-- Anything. -/
def Any : Yaml → Prop := fun _ => True

/-- A solid material. -/
def Solid (conv : Conv) (rows : Fin n → DataRow) : Yaml → Prop :=
  Shape [need "density" (Value conv rows), opt "bulk_modulus" (Value? conv rows),
    opt "shear_modulus" (Value? conv rows), opt "secondary_velocity" (Value? conv rows),
    opt "primary_velocity" (Value? conv rows), opt "type" (Name ["material"])]

/-- A material of a constituent. -/
def Material (conv : Conv) (rows : Fin n → DataRow) (y : Yaml) : Prop :=
  Solid conv rows y ∨
  Shape [need "gas_gravity" (Value conv rows), opt "type" (Name ["gas"])] y ∨
  Shape [need "reference_density" (Value conv rows), need "gas_oil_ratio" (Value conv rows),
    need "gas_gravity" (Value conv rows), opt "type" (Name ["oil"])] y ∨
  Shape [need "salinity" (Value conv rows), opt "type" (Name ["brine"])] y ∨
  Shape [need "oil_reference_density" (Value conv rows), need "gas_oil_ratio" (Value conv rows),
    need "gas_gravity" (Value conv rows), opt "type" (Name ["condensate"])] y ∨
  Shape [opt "type" (Name ["carbon_dioxide"]), opt "interpolate_density" Any] y

/-- The fluid models. -/
def fluidModels : List String := ["default", "batzle_wang", "span_wagner"]

/-- A constituent with a material as described. -/
def Constituent (conv : Conv) (rows : Fin n → DataRow) (M : Yaml → Prop) : Yaml → Prop :=
  Shape [need "material" M, opt "fraction" (Value? conv rows), opt "fluid_model" fun y => y = null ∨ Name fluidModels y]

/-- Coefficients of moduli or of velocities. -/
def Coefficients (y : Yaml) : Prop :=
  Shape [opt "density" Any, opt "bulk_modulus" Any, opt "shear_modulus" Any] y ∨
  Shape [opt "density" Any, opt "secondary_velocity" Any, opt "primary_velocity" Any] y

/-- Patchy cement. -/
def Patchy (conv : Conv) (rows : Fin n → DataRow) : Yaml → Prop :=
  Shape [opt "type" (Name ["patchy_cement"]), opt "cement" (Solid conv rows), opt "critical_porosity" (Value conv rows),
    opt "cement_fraction" (Value conv rows), opt "lower_bound_pressure" (Value conv rows),
    opt "upper_bound_cement_fraction" (Value conv rows), opt "coordination_number" (Value? conv rows),
    opt "shear_reduction" (Value conv rows)]

/-- Friable sand. -/
def Friable (conv : Conv) (rows : Fin n → DataRow) : Yaml → Prop :=
  Shape [opt "critical_porosity" (Value conv rows), opt "shear_reduction" (Value conv rows),
    opt "coordination_number" (Value? conv rows), opt "type" (Name ["friable_sand"])]

/-- The models of the dry rock. -/
def Sandstone (conv : Conv) (rows : Fin n → DataRow) (y : Yaml) : Prop :=
  Patchy conv rows y ∨ Friable conv rows y ∨
  Shape [opt "coefficients" (fun y => y = null ∨ Coefficients y), opt "type" (Name ["polyfit"])] y

/-- The models of a pressure dependency. -/
def Dependency (conv : Conv) (rows : Fin n → DataRow) (y : Yaml) : Prop :=
  Patchy conv rows y ∨ Friable conv rows y ∨
  Shape [need "coefficients" (Shape [opt "density" Any, opt "vp_over_vs" Any, opt "bulk_modulus" Any]),
    opt "type" (Name ["powerfit"])] y ∨
  Shape [need "coefficients" Coefficients, opt "type" (Name ["logfit", "polyfit", "expfit"])] y

/-- An adjustment. -/
def Adjusted (conv : Conv) (rows : Fin n → DataRow) (y : Yaml) : Prop :=
  Shape [need "depth" (Value conv rows), need "coefficients" Coefficients, opt "type" (Name ["depth_trend"]),
    opt "reference_depth" (Value? conv rows), opt "max_depth" (Value? conv rows)] y ∨
  Shape [need "model" (Dependency conv rows), opt "type" (Name ["pressure_dependency"])] y

/-- A configuration file: a mapping. -/
def Configuration (conv : Conv) (rows : Fin n → DataRow) (y : Yaml) : Prop :=
  ∃ xs, y = .dict xs ∧ Fields [opt "data" Any,
    opt "minerals" (Shape [opt "constituents" (ListOf (Constituent conv rows (Solid conv rows)))]),
    opt "fluids" (Shape [opt "temperature" (Value conv rows), opt "constituents" (ListOf (Constituent conv rows (Material conv rows))),
      opt "mix_method" (Name ["wood", "brie"]), opt "brie_constant" Any, opt "brie_gases" Any,
      opt "fluid_model" (Name fluidModels)]),
    opt "dry_rock" (Shape [opt "model" (Sandstone conv rows), opt "porosity" (Value conv rows),
      opt "adjustments" (ListOf (Adjusted conv rows))]),
    opt "pressure" (Shape [opt "overburden" (Value conv rows), opt "reference" (Value conv rows),
      opt "fluid" (Value? conv rows), opt "max_effective" (Value? conv rows), opt "rock" (Value? conv rows)])] xs

end OPE.Schema
