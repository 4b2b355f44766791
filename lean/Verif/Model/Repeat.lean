import Verif.Model.Pipeline

/-!
# Calculating again with the same `Input` object (`__main__.calculate_results`)
-/

namespace OPE

open Classical

variable {n : ℕ}

/-- __main__.py:42-66 `calculate_results(inp)`: the table (or exception) and the `Input` as the call leaves it
behind.  `minerals.as_mixture`, `dry_rock.material`, `dry_rock.nonporous` and `fluid_substitution` compute new arrays;
the only array of the input that is written to is `pressure.fluid` (fluid_model_providers.py:54), also when a later
step raises.  `pressure.rock` is an array of its own (vector_type.py:24 copies on assignment, pressure.py:25-28).
Fluids and minerals keep their lists (fluids.py:101-106 pops from lists made in the call). -/
noncomputable def calculateLeaving (co2 : CO2Model n) (inp : Input n) : Except Err (Result n) × Input n :=
  match mineralMixture inp.minerals with
  | .error e => (.error e, inp)
  | .ok mixedMineral =>
    match inp.pressure.fluid with
    | none => (.error .typeError, inp)
    | some fluid =>
      let (mixedFluid, fluid') := inp.fluids.asMixture co2 fluid
      let pressure : Pressure n := { inp.pressure with fluid := some fluid' }
      ((do
        let mixedFluid ← mixedFluid
        let dryRock ← inp.dryRock.material mixedMineral pressure
        let densePacking ← inp.dryRock.model.nonporous mixedMineral
        let saturated ← fluidSubstitution dryRock densePacking mixedFluid inp.dryRock.porosity
        .ok { ksat := saturated.bulk, kmin := mixedMineral.bulk, kdry := dryRock.bulk
              mysat := saturated.shear, rsat := saturated.density, kminFls := densePacking.bulk }),
        { inp with pressure := pressure })

/-- The `Input` after `k` calculations. -/
noncomputable def inputAfter (co2 : CO2Model n) (inp : Input n) : ℕ → Input n
  | 0 => inp
  | k + 1 => (calculateLeaving co2 (inputAfter co2 inp k)).2

/-- The table of calculation number `k` (from 0) with the same `Input`. -/
noncomputable def calculation (co2 : CO2Model n) (inp : Input n) (k : ℕ) : Except Err (Result n) :=
  (calculateLeaving co2 (inputAfter co2 inp k)).1

end OPE
