import Verif.Model.Fluids
import Verif.Model.DryRock

/-!
# The calculation: sections → `Input` → result table (`__main__.calculate_results`, config/input.py)
-/

namespace OPE

open Classical

variable {n : ℕ}

/-- The parsed sections of a configuration for a table of `n` rows, before the cross-field checks of
each section run: `minerals` (minerals.py:28-36), `fluids` (fluids.py:36-61), `dry_rock`
(dry_rock.py:46-55) and `pressure` (pressure.py:16-22).  A value given once for all rows is a constant
column; without a data file the table has one row. -/
structure Sections (n : ℕ) where
  minerals : List (MineralIn n)
  temperature : Col n
  fluids : List (FluidSpec n)
  mixMethod : MixMethod
  brieConstant : Num
  brieGases : Option (List ℤ)
  fluidModel : Provider
  sandModel : SandModel n
  porosity : Col n
  adjustments : List (Adjustment n)
  overburden : Col n
  reference : Col n
  fluidPressure : Option (Col n)
  maxEffective : Option (Col n)
  rockPressure : Option (Col n)

/-- input.py:49-55 `Input`: the four accepted sections. -/
structure Input (n : ℕ) where
  minerals : List (Mat n × Col n)
  fluids : Fluids n
  dryRock : DryRock n
  pressure : Pressure n

/-- Construction of the four sections in field order (input.py:49-55).  pydantic collects the errors of
all sections; every one of them is reported as a `ValueError`, as here. -/
noncomputable def mkInput (s : Sections n) : Except Err (Input n) := do
  let minerals ← mkMinerals s.minerals
  let fluids ← mkFluids s.temperature s.fluids s.mixMethod s.brieConstant s.brieGases s.fluidModel
  let dryRock ← mkDryRock s.sandModel s.porosity s.adjustments
  let pressure ← mkPressure s.overburden s.reference s.fluidPressure s.maxEffective s.rockPressure
  .ok ⟨minerals, fluids, dryRock, pressure⟩

/-- The result table of `calculate_results` (__main__.py:56-65). -/
@[ext] structure Result (n : ℕ) where
  ksat : Col n
  kmin : Col n
  kdry : Col n
  mysat : Col n
  rsat : Col n
  kminFls : Col n

/-- `fluids.as_mixture(inp.pressure)`: the mixture together with the pressure section as it is left
behind (`pressure.fluid` is overwritten in place, see `FluidKind.asMaterial`).  Simplification: a missing
fluid pressure raises `TypeError` here; the code may get to the same error only in
`dry_rock.material` (the rock pressure is missing too in that case), or raise `NotImplementedError`
first. -/
noncomputable def mixFluids (co2 : CO2Model n) (f : Fluids n) (p : Pressure n) :
    Except Err (Mat n × Pressure n) := do
  let fluid ← needCol p.fluid
  match f.asMixture co2 fluid with
  | (.error e, _) => .error e
  | (.ok m, p') => .ok (m, { p with fluid := some p' })

/-- __main__.py:42-66 `calculate_results`. -/
noncomputable def calculateResults (co2 : CO2Model n) (inp : Input n) : Except Err (Result n) := do
  let mixedMineral ← mineralMixture inp.minerals
  let (mixedFluid, pressure) ← mixFluids co2 inp.fluids inp.pressure
  let dryRock ← inp.dryRock.material mixedMineral pressure
  let densePacking ← inp.dryRock.model.nonporous mixedMineral
  let saturated ← fluidSubstitution dryRock densePacking mixedFluid inp.dryRock.porosity
  .ok { ksat := saturated.bulk, kmin := mixedMineral.bulk, kdry := dryRock.bulk
        mysat := saturated.shear, rsat := saturated.density, kminFls := densePacking.bulk }

/-- From parsed sections to the result table. -/
noncomputable def calculate (co2 : CO2Model n) (s : Sections n) : Except Err (Result n) := do
  let inp ← mkInput s
  calculateResults co2 inp

end OPE
