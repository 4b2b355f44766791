import Verif.Model.Pipeline

/-!
# Specification: a table computation that treats its rows separately (C07)

`row i` of a table is the one-row table with row `i` only.  For every kind of table occurring as input
or result of the calculation it is defined here column by column.
-/

namespace OPE

variable {n : ℕ}

/-- The table computation `x` succeeds exactly when the computation `y i` of every row does, and then
row `i` of its result is the result of `y i`. -/
def RowBy {α β : Type} (row : α → Fin n → β) (x : Except Err α) (y : Fin n → Except Err β) : Prop :=
  (∀ r, x = .ok r → ∀ i, y i = .ok (row r i)) ∧ ((∀ i, ∃ b, y i = .ok b) → ∃ r, x = .ok r)

def Mat.row (m : Mat n) (i : Fin n) : Mat 1 :=
  ⟨m.bulk.row i, m.shear.row i, m.density.row i, m.vp.row i, m.vs.row i⟩

def Option.colRow (x : Option (Col n)) (i : Fin n) : Option (Col 1) := x.map (·.row i)

def MineralIn.row (m : MineralIn n) (i : Fin n) : MineralIn 1 := ⟨m.mat.row i, Option.colRow m.fraction i⟩

def FluidKind.row (k : FluidKind n) (i : Fin n) : FluidKind 1 :=
  match k with
  | .material m => .material (m.row i)
  | .oil r g G => .oil (r.row i) (g.row i) (G.row i)
  | .gas G => .gas (G.row i)
  | .brine s => .brine (s.row i)
  | .condensate r g G => .condensate (r.row i) (g.row i) (G.row i)
  | .carbonDioxide b => .carbonDioxide b

def FluidSpec.row (x : FluidSpec n) (i : Fin n) : FluidSpec 1 :=
  ⟨x.kind.row i, x.model, Option.colRow x.fraction i⟩

def FluidConst.row (x : FluidConst n) (i : Fin n) : FluidConst 1 :=
  ⟨x.kind.row i, x.model, x.fraction.row i⟩

def Fluids.row (x : Fluids n) (i : Fin n) : Fluids 1 :=
  { temperature := x.temperature.row i
    constituents := x.constituents.map (·.row i)
    method := x.method
    brieConstant := x.brieConstant
    brieGases := x.brieGases
    model := x.model }

def FriableModel.row (x : FriableModel n) (i : Fin n) : FriableModel 1 :=
  ⟨x.criticalPorosity.row i, x.shearReduction.row i, x.coordinationNumber.row i⟩

def PatchyModel.row (x : PatchyModel n) (i : Fin n) : PatchyModel 1 :=
  ⟨x.cement.row i, x.criticalPorosity.row i, x.cementFraction.row i, x.lowerBoundPressure.row i,
    x.upperBoundCementFraction.row i, x.coordinationNumber.row i, x.shearReduction.row i⟩

def PDModel.row (m : PDModel n) (i : Fin n) : PDModel 1 :=
  match m with
  | .polyfit b a => .polyfit b a
  | .expfit b a => .expfit b a
  | .logfit b a => .logfit b a
  | .powerfit a => .powerfit a
  | .friable f => .friable (f.row i)
  | .patchy f => .patchy (f.row i)

def DepthTrend.row (t : DepthTrend n) (i : Fin n) : DepthTrend 1 :=
  ⟨t.depth.row i, Option.colRow t.referenceDepth i, Option.colRow t.maxDepth i, t.useModuli, t.coefficients⟩

def Adjustment.row (a : Adjustment n) (i : Fin n) : Adjustment 1 :=
  match a with
  | .pressureDependency m => .pressureDependency (m.row i)
  | .depthTrend t => .depthTrend (t.row i)

def SandModel.row (m : SandModel n) (i : Fin n) : SandModel 1 :=
  match m with
  | .polyfit b a => .polyfit b a
  | .friable f => .friable (f.row i)
  | .patchy f => .patchy (f.row i)

def DryRock.row (d : DryRock n) (i : Fin n) : DryRock 1 :=
  ⟨d.model.row i, d.porosity.row i, d.adjustments.map (·.row i)⟩

def Pressure.row (p : Pressure n) (i : Fin n) : Pressure 1 :=
  ⟨p.overburden.row i, p.reference.row i, Option.colRow p.fluid i, Option.colRow p.maxEffective i,
    Option.colRow p.rock i⟩

def Input.row (x : Input n) (i : Fin n) : Input 1 :=
  { minerals := x.minerals.map fun m => (m.1.row i, m.2.row i)
    fluids := x.fluids.row i
    dryRock := x.dryRock.row i
    pressure := x.pressure.row i }

def Sections.row (s : Sections n) (i : Fin n) : Sections 1 :=
  { minerals := s.minerals.map (·.row i)
    temperature := s.temperature.row i
    fluids := s.fluids.map (·.row i)
    mixMethod := s.mixMethod
    brieConstant := s.brieConstant
    brieGases := s.brieGases
    fluidModel := s.fluidModel
    sandModel := s.sandModel.row i
    porosity := s.porosity.row i
    adjustments := s.adjustments.map (·.row i)
    overburden := s.overburden.row i
    reference := s.reference.row i
    fluidPressure := Option.colRow s.fluidPressure i
    maxEffective := Option.colRow s.maxEffective i
    rockPressure := Option.colRow s.rockPressure i }

def Result.row (r : Result n) (i : Fin n) : Result 1 :=
  ⟨r.ksat.row i, r.kmin.row i, r.kdry.row i, r.mysat.row i, r.rsat.row i, r.kminFls.row i⟩

/-- A carbon dioxide model (one per table length) that treats rows separately. -/
def CO2RowWise (co2 : ∀ n, CO2Model n) : Prop :=
  ∀ (n : ℕ) [NeZero n] (T P : Col n) (b : Bool),
    RowBy Mat.row (co2 n T P b) fun i => co2 1 (T.row i) (P.row i) b

end OPE
