import Verif.Model.Parse
import Verif.Model.Main
import Verif.Model.SpanWagner

/-!
# Specification: a table with some of its numbers missing (C150)

A missing number is NaN (`read_csv` reads an empty entry as NaN).  `x ⊑ y` says that `x` is `y` with some numbers
missing: nothing else differs, and no number is another number.
-/

namespace OPE

variable {n : ℕ}

/-- Things that can have missing numbers. -/
class Missing (α : Type) where
  /-- `lacks x y`: `x` is `y` with some numbers missing. -/
  lacks : α → α → Prop

@[inherit_doc] infix:50 " ⊑ " => Missing.lacks

/-- A number: missing, or the same. -/
instance : Missing Num := ⟨fun x y => x = Num.nan ∨ x = y⟩

/-- A column: in every row. -/
instance {ι α : Type} [Missing α] : Missing (ι → α) := ⟨fun x y => ∀ i, x i ⊑ y i⟩

/-- Something that may be absent: absent on both sides, or present on both. -/
instance {α : Type} [Missing α] : Missing (Option α) := ⟨fun x y => Option.Rel (· ⊑ ·) x y⟩

/-- A list: entry by entry. -/
instance {α : Type} [Missing α] : Missing (List α) := ⟨fun x y => List.Forall₂ (· ⊑ ·) x y⟩

instance {α β : Type} [Missing α] [Missing β] : Missing (α × β) := ⟨fun x y => x.1 ⊑ y.1 ∧ x.2 ⊑ y.2⟩

instance : Missing (Mat n) := ⟨fun x y => x.bulk ⊑ y.bulk ∧ x.shear ⊑ y.shear ∧ x.density ⊑ y.density ∧
  x.vp ⊑ y.vp ∧ x.vs ⊑ y.vs⟩

instance : Missing (MineralIn n) := ⟨fun x y => x.mat ⊑ y.mat ∧ x.fraction ⊑ y.fraction⟩

/-- A material type: the same type, its parameters with numbers missing. -/
def FluidKind.Lacks : FluidKind n → FluidKind n → Prop
  | .material m, .material m' => m ⊑ m'
  | .oil r g G, .oil r' g' G' => r ⊑ r' ∧ g ⊑ g' ∧ G ⊑ G'
  | .gas G, .gas G' => G ⊑ G'
  | .brine s, .brine s' => s ⊑ s'
  | .condensate r g G, .condensate r' g' G' => r ⊑ r' ∧ g ⊑ g' ∧ G ⊑ G'
  | .carbonDioxide b, .carbonDioxide b' => b = b'
  | _, _ => False

instance : Missing (FluidKind n) := ⟨FluidKind.Lacks⟩

instance : Missing (FluidSpec n) := ⟨fun x y => x.kind ⊑ y.kind ∧ x.model = y.model ∧ x.fraction ⊑ y.fraction⟩

instance : Missing (FriableModel n) := ⟨fun x y => x.criticalPorosity ⊑ y.criticalPorosity ∧
  x.shearReduction ⊑ y.shearReduction ∧ x.coordinationNumber ⊑ y.coordinationNumber⟩

instance : Missing (PatchyModel n) := ⟨fun x y => x.cement ⊑ y.cement ∧ x.criticalPorosity ⊑ y.criticalPorosity ∧
  x.cementFraction ⊑ y.cementFraction ∧ x.lowerBoundPressure ⊑ y.lowerBoundPressure ∧
  x.upperBoundCementFraction ⊑ y.upperBoundCementFraction ∧ x.coordinationNumber ⊑ y.coordinationNumber ∧
  x.shearReduction ⊑ y.shearReduction⟩

/-- A pressure dependency: the same model and coefficients. -/
def PDModel.Lacks : PDModel n → PDModel n → Prop
  | .friable f, .friable f' => f ⊑ f'
  | .patchy f, .patchy f' => f ⊑ f'
  | x, y => x = y

instance : Missing (PDModel n) := ⟨PDModel.Lacks⟩

instance : Missing (DepthTrend n) := ⟨fun x y => x.depth ⊑ y.depth ∧ x.referenceDepth ⊑ y.referenceDepth ∧
  x.maxDepth ⊑ y.maxDepth ∧ x.useModuli = y.useModuli ∧ x.coefficients = y.coefficients⟩

/-- An adjustment of the same kind. -/
def Adjustment.Lacks : Adjustment n → Adjustment n → Prop
  | .pressureDependency m, .pressureDependency m' => m ⊑ m'
  | .depthTrend t, .depthTrend t' => t ⊑ t'
  | _, _ => False

instance : Missing (Adjustment n) := ⟨Adjustment.Lacks⟩

/-- A sandstone model: the same model and coefficients. -/
def SandModel.Lacks : SandModel n → SandModel n → Prop
  | .friable f, .friable f' => f ⊑ f'
  | .patchy f, .patchy f' => f ⊑ f'
  | x, y => x = y

instance : Missing (SandModel n) := ⟨SandModel.Lacks⟩

/-- The sections of a configuration. -/
structure Sections.Lacks (s t : Sections n) : Prop where
  minerals : s.minerals ⊑ t.minerals
  temperature : s.temperature ⊑ t.temperature
  fluids : s.fluids ⊑ t.fluids
  mixMethod : s.mixMethod = t.mixMethod
  brieConstant : s.brieConstant ⊑ t.brieConstant
  brieGases : s.brieGases = t.brieGases
  fluidModel : s.fluidModel = t.fluidModel
  sandModel : s.sandModel ⊑ t.sandModel
  porosity : s.porosity ⊑ t.porosity
  adjustments : s.adjustments ⊑ t.adjustments
  overburden : s.overburden ⊑ t.overburden
  reference : s.reference ⊑ t.reference
  fluidPressure : s.fluidPressure ⊑ t.fluidPressure
  maxEffective : s.maxEffective ⊑ t.maxEffective
  rockPressure : s.rockPressure ⊑ t.rockPressure

instance : Missing (Sections n) := ⟨Sections.Lacks⟩

instance : Missing (Result n) := ⟨fun x y => x.ksat ⊑ y.ksat ∧ x.kmin ⊑ y.kmin ∧ x.kdry ⊑ y.kdry ∧
  x.mysat ⊑ y.mysat ∧ x.rsat ⊑ y.rsat ∧ x.kminFls ⊑ y.kminFls⟩

/-- A row of the table that is written. -/
instance : Missing Main.Row := ⟨fun x y => x.ksat ⊑ y.ksat ∧ x.kmin ⊑ y.kmin ∧ x.kdry ⊑ y.kdry ∧
  x.mysat ⊑ y.mysat ∧ x.rsat ⊑ y.rsat ∧ x.kminFls ⊑ y.kminFls⟩

/-- The data row `r` is `r'` with some entries emptied: an emptied entry was a number (or text that reads as one)
and is now missing. -/
def Parse.Emptied (conv : Parse.Conv) (r r' : Parse.DataRow) : Prop :=
  ∀ name, r name = r' name ∨
    (r name = some (.num .nan) ∧ ∃ cell x, r' name = some cell ∧ cell.toNum conv = some x)

/-- A carbon dioxide model in which missing temperatures or pressures do not change numbers. -/
def CO2Missing (co2 : CO2Model n) : Prop :=
  ∀ (T T' P P' : Col n) (b : Bool) (m m' : Mat n), T ⊑ T' → P ⊑ P' → co2 T P b = .ok m → co2 T' P' b = .ok m' →
    m ⊑ m'

/-- A bracketing root finder that evaluates the function at the lower end of the bracket and returns nothing when
it raises there or has no number there (scipy's `toms748` raises `ValueError` for a function value that is not
finite). -/
def CO2.ChecksStart (solve : CO2.RootFinder) : Prop :=
  ∀ f lo hi r, solve f lo hi = .ok r → ∃ y, f lo = .ok y ∧ y ≠ .nan

end OPE
