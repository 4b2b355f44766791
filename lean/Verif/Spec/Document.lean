import Verif.Model.Parse

/-!
# What a configuration file says (specification, independent of the parser)

A declarative description of the YAML configuration files of docs/ and examples/: which mappings describe which
material, model, adjustment and section.  Keys may come in any order; every key is one of the listed ones; a
parameter is a number, a reference to a column of the data file, or a list of numbers.  Nothing of `Model/Parse.lean` is used but the
type of YAML documents and of the sections they are read into.
-/

namespace OPE.Doc

open Parse

variable {n : ℕ}

/-- A YAML number. -/
noncomputable def number (x : ℝ) : Yaml := .scalar (.num (Num.fin x))

/-- A YAML null. -/
def null : Yaml := .scalar .null

/-- A field of a mapping: its key, and what has to hold of the entry (or of its absence). -/
abbrev Field := String × (Option Yaml → Prop)

/-- A field that has to be given. -/
def need (key : String) (P : Yaml → Prop) : Field := (key, fun o => ∃ y, o = some y ∧ P y)

/-- A field that may be left out. -/
def may (key : String) (absent : Prop) (P : Yaml → Prop) : Field :=
  (key, fun o => (o = none ∧ absent) ∨ ∃ y, o = some y ∧ P y)

/-- A mapping with the given fields: different keys, no other keys than theirs, in any order. -/
def Mapping (F : List Field) (y : Yaml) : Prop :=
  ∃ xs, y = .dict xs ∧ (xs.map Prod.fst).Nodup ∧ (∀ x ∈ xs, x.1 ∈ F.map Prod.fst) ∧ ∀ f ∈ F, f.2 (xs.lookup f.1)

/-- A list of descriptions. -/
def Listing {α : Type} (R : Yaml → α → Prop) (y : Yaml) (xs : List α) : Prop :=
  ∃ ys, y = .list ys ∧ List.Forall₂ R ys xs

/-- Null, or a description. -/
def Maybe {α : Type} (R : Yaml → α → Prop) (y : Yaml) (x : Option α) : Prop :=
  (y = null ∧ x = none) ∨ ∃ a, R y a ∧ x = some a

/-- A parameter: a number for all rows, a numeric column of the data file, or a list of one number per row. -/
inductive Parameter (rows : Fin n → DataRow) : Yaml → Col n → Prop
  | number (a : ℝ) : Parameter rows (number a) (finC fun _ => a)
  | column (name : String) (x : Fin n → ℝ) (h : ∀ i, rows i name = some (.num (Num.fin (x i)))) :
      Parameter rows (.dict [("column", .str name)]) (finC x)
  | list (x : Fin n → ℝ) : Parameter rows (.list (List.ofFn fun i => Doc.number (x i))) (finC x)

/-! ## Materials and constituents -/

/-- docs: the materials. -/
inductive Material (rows : Fin n → DataRow) : Yaml → FluidKind n → Prop
  | moduli (y : Yaml) (K G ρ : Fin n → ℝ) (hK : ∀ i, 0 ≤ K i) (hG : ∀ i, 0 ≤ G i) (hρ : ∀ i, 0 < ρ i)
      (h : Mapping [may "type" True (· = .str "material"), need "bulk_modulus" (Parameter rows · (finC K)),
        need "shear_modulus" (Parameter rows · (finC G)), need "density" (Parameter rows · (finC ρ))] y) :
      Material rows y (.material (Mat.ofReal K G ρ))
  | velocities (y : Yaml) (vp vs ρ : Fin n → ℝ)
      (h : Mapping [may "type" True (· = .str "material"), need "primary_velocity" (Parameter rows · (finC vp)),
        need "secondary_velocity" (Parameter rows · (finC vs)), need "density" (Parameter rows · (finC ρ))] y) :
      Material rows y (.material ⟨finC fun i => vp i ^ 2 * ρ i - 4 / 3 * (vs i ^ 2 * ρ i), finC fun i => vs i ^ 2 * ρ i,
        finC ρ, finC vp, finC vs⟩)
  | gas (y : Yaml) (g : Col n)
      (h : Mapping [need "type" (· = .str "gas"), need "gas_gravity" (Parameter rows · g)] y) :
      Material rows y (.gas g)
  | oil (y : Yaml) (r o g : Col n)
      (h : Mapping [need "type" (· = .str "oil"), need "reference_density" (Parameter rows · r),
        need "gas_oil_ratio" (Parameter rows · o), need "gas_gravity" (Parameter rows · g)] y) :
      Material rows y (.oil r o g)
  | brine (y : Yaml) (s : Col n)
      (h : Mapping [need "type" (· = .str "brine"), need "salinity" (Parameter rows · s)] y) :
      Material rows y (.brine s)
  | condensate (y : Yaml) (r o g : Col n)
      (h : Mapping [need "type" (· = .str "condensate"), need "oil_reference_density" (Parameter rows · r),
        need "gas_oil_ratio" (Parameter rows · o), need "gas_gravity" (Parameter rows · g)] y) :
      Material rows y (.condensate r o g)
  | carbonDioxide (y : Yaml) (b : Bool)
      (h : Mapping [need "type" (· = .str "carbon_dioxide"),
        may "interpolate_density" (b = true) (· = .scalar (.bool b))] y) :
      Material rows y (.carbonDioxide b)

/-- The names of the fluid models. -/
inductive Model : Yaml → Provider → Prop
  | default : Model (.str "default") .default
  | batzleWang : Model (.str "batzle_wang") .batzleWang
  | spanWagner : Model (.str "span_wagner") .spanWagner

/-- The names of the mixing laws. -/
inductive Method : Yaml → MixMethod → Prop
  | wood : Method (.str "wood") .wood
  | brie : Method (.str "brie") .brie

/-- A constituent of minerals or fluids. -/
def Constituent (rows : Fin n → DataRow) (y : Yaml) (x : FluidSpec n) : Prop :=
  Mapping [need "material" (Material rows · x.kind), may "fraction" (x.fraction = none) (Maybe (Parameter rows) · x.fraction),
    may "fluid_model" (x.model = none) (Maybe Model · x.model)] y

/-- The same for minerals, which are materials. -/
def Mineral (rows : Fin n → DataRow) (y : Yaml) (x : MineralIn n) : Prop :=
  Constituent rows y ⟨.material x.mat, none, x.fraction⟩

/-! ## Coefficients -/

/-- A vector of numbers. -/
def Vector (y : Yaml) (xs : List ℝ) : Prop := y = .list (xs.map number)

/-- The matrix with entry `val i j` in row `i` and column `j`, written as a list of rows. -/
def Matrix (y : Yaml) (a : Coeffs) : Prop :=
  y = .list (List.ofFn fun i => .list (List.ofFn fun j => number (a.val i j)))

/-- Three vectors under three keys. -/
def Vectors (density primary secondary : String) (k : Coef3 (List ℝ)) (y : Yaml) : Prop :=
  Mapping [need density (Vector · k.density), need primary (Vector · k.primary), need secondary (Vector · k.secondary)] y

/-- Three matrices under three keys. -/
def Matrices (density primary secondary : String) (k : Coef3 Coeffs) (y : Yaml) : Prop :=
  Mapping [need density (Matrix · k.density), need primary (Matrix · k.primary), need secondary (Matrix · k.secondary)] y

/-- Up to three matrices under three keys. -/
def SomeMatrices (density primary secondary : String) (k : Coef3 (Option Coeffs)) (y : Yaml) : Prop :=
  Mapping [may density (k.density = none) (Maybe Matrix · k.density),
    may primary (k.primary = none) (Maybe Matrix · k.primary),
    may secondary (k.secondary = none) (Maybe Matrix · k.secondary)] y

/-- The key of the primary coefficients: bulk modulus or P velocity. -/
def primaryKey (useModuli : Bool) : String := if useModuli then "bulk_modulus" else "primary_velocity"

/-- The key of the secondary coefficients: shear modulus or S velocity. -/
def secondaryKey (useModuli : Bool) : String := if useModuli then "shear_modulus" else "secondary_velocity"

/-! ## Sand models -/

/-- Friable sand; without coordination number it is that of the critical porosity. -/
def Friable (rows : Fin n → DataRow) (y : Yaml) (φc f : Col n) (N : Option (Col n)) : Prop :=
  Mapping [need "type" (· = .str "friable_sand"),
    may "critical_porosity" (φc = finC fun _ => 0.4) (Parameter rows · φc),
    may "shear_reduction" (f = finC fun _ => 1) (Parameter rows · f),
    may "coordination_number" (N = none) (Maybe (Parameter rows) · N)] y

/-- Patchy cement. -/
def Patchy (rows : Fin n → DataRow) (y : Yaml) (cement : Mat n) (φc cf plb u : Col n) (N : Option (Col n)) (f : Col n) :
    Prop :=
  Mapping [need "type" (· = .str "patchy_cement"),
    may "cement" (cement = Mat.ofReal (fun _ => 36.8e9) (fun _ => 44e9) (fun _ => 2650)) (Material rows · (.material cement)),
    may "critical_porosity" (φc = finC fun _ => 0.4) (Parameter rows · φc),
    may "cement_fraction" (cf = finC fun _ => 0.04) (Parameter rows · cf),
    may "lower_bound_pressure" (plb = finC fun _ => 20e6) (Parameter rows · plb),
    may "upper_bound_cement_fraction" (u = finC fun _ => 0.1) (Parameter rows · u),
    may "coordination_number" (N = none) (Maybe (Parameter rows) · N),
    may "shear_reduction" (f = finC fun _ => 1) (Parameter rows · f)] y

/-- The models of the dry rock. -/
inductive Sandstone (rows : Fin n → DataRow) : Yaml → SandModel n → Prop
  | friable (y : Yaml) (φc f : Col n) (N : Option (Col n)) (h : Friable rows y φc f N) :
      Sandstone rows y (.friable (mkFriableModel φc f N))
  | patchy (y : Yaml) (cement : Mat n) (φc cf plb u : Col n) (N : Option (Col n)) (f : Col n)
      (h : Patchy rows y cement φc cf plb u N f) : Sandstone rows y (.patchy (mkPatchyModel cement φc cf plb u N f))
  | polyfit (y : Yaml) (useModuli : Bool) (k : Coef3 (Option Coeffs))
      (h : Mapping [need "type" (· = .str "polyfit"),
        need "coefficients" (SomeMatrices "density" (primaryKey useModuli) (secondaryKey useModuli) k)] y)
      (hu : k.primary ≠ none ∨ k.secondary ≠ none ∨ useModuli = true) :
      Sandstone rows y (.polyfit useModuli k)
  | default (y : Yaml) (h : Mapping [need "type" (· = .str "polyfit")] y) :
      Sandstone rows y (.polyfit true ⟨none, none, none⟩)

/-- The models of a pressure dependency. -/
inductive Dependency (rows : Fin n → DataRow) : Yaml → PDModel n → Prop
  | friable (y : Yaml) (φc f : Col n) (N : Option (Col n)) (h : Friable rows y φc f N) :
      Dependency rows y (.friable (mkFriableModel φc f N))
  | patchy (y : Yaml) (cement : Mat n) (φc cf plb u : Col n) (N : Option (Col n)) (f : Col n)
      (h : Patchy rows y cement φc cf plb u N f) : Dependency rows y (.patchy (mkPatchyModel cement φc cf plb u N f))
  | polyfit (y : Yaml) (useModuli : Bool) (k : Coef3 (List ℝ)) (h0 : k.density ≠ [])
      (hp : k.primary.length = k.density.length) (hs : k.secondary.length = k.density.length)
      (h : Mapping [need "type" (· = .str "polyfit"),
        need "coefficients" (Vectors "density" (primaryKey useModuli) (secondaryKey useModuli) k)] y) :
      Dependency rows y (.polyfit useModuli k)
  | expfit (y : Yaml) (useModuli : Bool) (k : Coef3 (ℝ × ℝ × ℝ))
      (h : Mapping [need "type" (· = .str "expfit"),
        need "coefficients" (Vectors "density" (primaryKey useModuli) (secondaryKey useModuli)
          ⟨[k.density.1, k.density.2.1, k.density.2.2], [k.primary.1, k.primary.2.1, k.primary.2.2],
            [k.secondary.1, k.secondary.2.1, k.secondary.2.2]⟩)] y) :
      Dependency rows y (.expfit useModuli k)
  | logfit (y : Yaml) (useModuli : Bool) (k : Coef3 (ℝ × ℝ))
      (h : Mapping [need "type" (· = .str "logfit"),
        need "coefficients" (Vectors "density" (primaryKey useModuli) (secondaryKey useModuli)
          ⟨[k.density.1, k.density.2], [k.primary.1, k.primary.2], [k.secondary.1, k.secondary.2]⟩)] y) :
      Dependency rows y (.logfit useModuli k)
  | powerfit (y : Yaml) (k : Coef3 (ℝ × ℝ))
      (h : Mapping [need "type" (· = .str "powerfit"),
        need "coefficients" (Vectors "density" "bulk_modulus" "vp_over_vs"
          ⟨[k.density.1, k.density.2], [k.primary.1, k.primary.2], [k.secondary.1, k.secondary.2]⟩)] y) :
      Dependency rows y (.powerfit k)

/-- The adjustments of the dry rock. -/
inductive Adjusted (rows : Fin n → DataRow) : Yaml → Adjustment n → Prop
  | pressure (y : Yaml) (m : PDModel n)
      (h : Mapping [need "type" (· = .str "pressure_dependency"), need "model" (Dependency rows · m)] y) :
      Adjusted rows y (.pressureDependency m)
  | depth (y : Yaml) (z : Col n) (z0 mx : Option (Col n)) (useModuli : Bool) (k : Coef3 Coeffs)
      (h : Mapping [need "type" (· = .str "depth_trend"), need "depth" (Parameter rows · z),
        need "coefficients" (Matrices "density" (primaryKey useModuli) (secondaryKey useModuli) k),
        may "reference_depth" (z0 = none) (Maybe (Parameter rows) · z0),
        may "max_depth" (mx = none) (Maybe (Parameter rows) · mx)] y) :
      Adjusted rows y (.depthTrend ⟨z, z0, mx, useModuli, k⟩)

/-! ## Sections -/

/-- The minerals section; two halves of quartz and clay by default. -/
def Minerals (rows : Fin n → DataRow) (y : Yaml) (ms : List (MineralIn n)) : Prop :=
  Mapping [may "constituents" (ms = [⟨Mat.ofReal (fun _ => 36.8e9) (fun _ => 44e9) (fun _ => 2650), some (finC fun _ => 0.5)⟩,
    ⟨Mat.ofReal (fun _ => 25e9) (fun _ => 12e9) (fun _ => 2650), some (finC fun _ => 0.5)⟩])
    (Listing (Mineral rows) · ms)] y

/-- The fluids section. -/
def Fluids (rows : Fin n → DataRow) (y : Yaml) (s : Sections n) : Prop :=
  Mapping [may "temperature" (s.temperature = finC fun _ => 80) (Parameter rows · s.temperature),
    may "constituents" (s.fluids = [⟨.oil (finC fun _ => 850) (finC fun _ => 100) (finC fun _ => 0.7), none, some (finC fun _ => 0.3)⟩,
      ⟨.brine (finC fun _ => 50000), none, some (finC fun _ => 0.3)⟩, ⟨.gas (finC fun _ => 0.7), none, some (finC fun _ => 0.4)⟩])
      (Listing (Constituent rows) · s.fluids),
    may "mix_method" (s.mixMethod = .wood) (Method · s.mixMethod),
    may "brie_constant" (s.brieConstant = Num.fin 3) (fun y => ∃ e : ℝ, y = number e ∧ s.brieConstant = Num.fin e),
    may "brie_gases" (s.brieGases = none) (Maybe (fun y zs => y = .list (zs.map fun z : ℤ => number z)) · s.brieGases),
    may "fluid_model" (s.fluidModel = .default) (Model · s.fluidModel)] y

/-- The dry rock section; by default the polynomials of dry_rock.py. -/
def DryRock (rows : Fin n → DataRow) (y : Yaml) (s : Sections n) : Prop :=
  Mapping [may "model" (s.sandModel = .polyfit true ⟨some ⟨1, 1, ![![0, 0], ![1, -1]]⟩,
      some ⟨0, 1, ![![2900, -1300]]⟩, some ⟨0, 1, ![![1700, -800]]⟩⟩) (Sandstone rows · s.sandModel),
    may "porosity" (s.porosity = finC fun _ => 0.3) (Parameter rows · s.porosity),
    may "adjustments" (s.adjustments = []) (Listing (Adjusted rows) · s.adjustments)] y

/-- The pressure section. -/
def Pressures (rows : Fin n → DataRow) (y : Yaml) (s : Sections n) : Prop :=
  Mapping [may "overburden" (s.overburden = finC fun _ => 100e6) (Parameter rows · s.overburden),
    may "reference" (s.reference = finC fun _ => 30e6) (Parameter rows · s.reference),
    may "fluid" (s.fluidPressure = some (finC fun _ => 70e6)) (Maybe (Parameter rows) · s.fluidPressure),
    may "max_effective" (s.maxEffective = none) (Maybe (Parameter rows) · s.maxEffective),
    may "rock" (s.rockPressure = none) (Maybe (Parameter rows) · s.rockPressure)] y

/-- A section that is left out is an empty one. -/
def orEmpty (P : Yaml → Prop) : Prop := P (.dict [])

/-- What a configuration file says. -/
def Configuration (rows : Fin n → DataRow) (y : Yaml) (s : Sections n) : Prop :=
  Mapping [may "minerals" (orEmpty (Minerals rows · s.minerals)) (Minerals rows · s.minerals),
    may "fluids" (orEmpty (Fluids rows · s)) (Fluids rows · s),
    may "dry_rock" (orEmpty (DryRock rows · s)) (DryRock rows · s),
    may "pressure" (orEmpty (Pressures rows · s)) (Pressures rows · s)] y

end OPE.Doc
