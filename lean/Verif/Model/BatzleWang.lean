import Verif.Model.Poly
import Verif.Model.Fluid

/-!
# material/batzle_wang (oil, gas, brine, water)

Number-level formulas first (they are applied elementwise), then the functions returning materials.
Simplification: a Python float argument that makes a divisor exactly zero raises ZeroDivisionError, and
a negative base under a fractional power gives a Python complex; the model follows the numpy-array
behaviour there (infinity / nan).  Theorems restrict arguments to where neither happens.  Warnings
(bubble point, pressure above 100 MPa) have no effect on results; they are modelled in Model/Warnings.
-/

namespace OPE

open Classical

variable {n : ℕ}

/-- fluid.py:12-16 `fluid_material(density=…, primary_velocity=…)`. -/
noncomputable def fluidVelocity (density vp : Col n) : Except Err (Mat n) :=
  mkMaterial none (some (c 0)) (some density) none (some vp)

/-! ## oil_properties.py -/

/-- oil_properties.py:207-267 `oil_bubble_point`. -/
noncomputable def oilBubblePoint (density gor gravity temperature : Num) : Num :=
  let ratio := gor / gravity
  let denominator := Num.exp (.fin 4072 / density - .fin 0.00377 * temperature)
  .fin 24469793.9134 * Num.pow ratio (.fin 0.83) / denominator

/-- oil_properties.py:270-286 `pressure_adjusted_dead_oil_density`. -/
noncomputable def pressureAdjustedDeadOilDensity (pressure ref : Num) : Num :=
  ref + (.fin 0.00277 * pressure - .fin (1.71e-7) * Num.powi pressure 3) *
    Num.powi (ref - .fin 1.15) 2 + .fin (3.49e-4) * pressure

/-- oil_properties.py:289-299 `temperature_adjusted_dead_oil_density`. -/
noncomputable def temperatureAdjustedDeadOilDensity (temperature density : Num) : Num :=
  density / (.fin 0.972 + .fin (3.81e-4) * Num.pow (temperature + .fin 17.78) (.fin 1.175))

/-- oil_properties.py:302-315 `dead_oil_density`. -/
noncomputable def deadOilDensity (temperature pressure ref : Num) : Num :=
  temperatureAdjustedDeadOilDensity temperature (pressureAdjustedDeadOilDensity pressure ref)

/-- oil_properties.py:318-338 `dead_oil_primary_velocity`. -/
noncomputable def deadOilVelocity (temperature pressure ref : Num) : Num :=
  .fin 2096 * Num.sqrt (ref / (.fin 2.6 - ref)) - .fin 3.7 * temperature + .fin 4.64 * pressure +
    .fin 0.0115 * (.fin 4.12 * Num.sqrt (.fin 1.08 * Num.powi ref (-1) - .fin 1) - .fin 1) *
      temperature * pressure

/-- oil_properties.py:341-358 `dead_oil`. -/
noncomputable def deadOil (temperature pressure ref : Col n) : Except Err (Mat n) :=
  fluidVelocity
    (fun i => deadOilDensity (temperature i) (pressure i * .fin 1e-6) (ref i / .fin 1000) * .fin 1000)
    (fun i => deadOilVelocity (temperature i) (pressure i * .fin 1e-6) (ref i / .fin 1000))

/-- oil_properties.py:361-380 `live_oil_volume_factor`. -/
noncomputable def liveOilVolumeFactor (temperature ref gor gravity : Num) : Num :=
  .fin 0.972 + .fin 0.00038 *
    Num.pow (.fin 2.4 * gor * Num.sqrt (gravity / ref) + temperature + .fin 17.8) (.fin 1.175)

/-- oil_properties.py:383-401 `live_oil_pseudo_density`. -/
noncomputable def liveOilPseudoDensity (temperature ref gor gravity : Num) : Num :=
  ref / liveOilVolumeFactor temperature ref gor gravity / (.fin 1 + .fin 0.001 * gor)

/-- oil_properties.py:404-423 `live_oil_density` (its `pressure` argument is not used). -/
noncomputable def liveOilDensity (temperature ref gor gravity : Num) : Num :=
  (ref + .fin 0.0012 * gravity * gor) / liveOilVolumeFactor temperature ref gor gravity

/-- oil_properties.py:426-445 `live_oil_primary_velocity`. -/
noncomputable def liveOilVelocity (temperature pressure ref gor gravity : Num) : Num :=
  deadOilVelocity temperature pressure (liveOilPseudoDensity temperature ref gor gravity)

/-- oil_properties.py:448-482 `live_oil`. -/
noncomputable def liveOil (temperature pressure ref gor gravity : Col n) : Except Err (Mat n) :=
  fluidVelocity
    (fun i => liveOilDensity (temperature i) (ref i / .fin 1000) (gor i) (gravity i) * .fin 1000)
    (fun i => liveOilVelocity (temperature i) (pressure i * .fin 1e-6) (ref i / .fin 1000) (gor i)
      (gravity i))

/-- oil_properties.py:499-512 `triangular_window` with `length=2`. -/
noncomputable def triangularWindow (x : Num) : Num :=
  if .fin (2 / 2) < x then .fin 0
  else if x < .fin (-2 / 2) then .fin 0
  else Num.abs ((Num.abs x - .fin (2 / 2)) / .fin (2 / 2))

/-- oil_properties.py:485-523 `oil` on scalars (the window branches on its argument). -/
noncomputable def oil (temperature pressure ref gor gravity : Num) : Except Err (Mat 1) := do
  let l ← liveOil (fun _ => temperature) (fun _ => pressure) (fun _ => ref) (fun _ => gor)
    (fun _ => gravity)
  let d ← deadOil (fun _ => temperature) (fun _ => pressure) (fun _ => ref)
  let window : Col 1 := fun _ => triangularWindow gor
  fluidVelocity (d.density * window + (c 1 - window) * l.density)
    (d.vp * window + (c 1 - window) * l.vp)

/-! ## ideal_gas.py, hydro_carbon_gas.py -/

/-- `scipy.constants.gas_constant` (CODATA 2018). -/
noncomputable def gasConstant : ℝ := 8.314462618

/-- ideal_gas.py:10,13-19 `molecular_weight`. -/
noncomputable def molecularWeight (gravity : Num) : Num := gravity * .fin 28.8

/-- ideal_gas.py:22-29 `molar_volume`. -/
noncomputable def molarVolume (absT pressure : Num) : Num := .fin gasConstant * absT / pressure

/-- ideal_gas.py:32-40 `ideal_gas_density`. -/
noncomputable def idealGasDensity (absT pressure gravity : Num) : Num :=
  molecularWeight gravity / molarVolume absT pressure

/-- ideal_gas.py:43-49 `ideal_gas_primary_velocity`. -/
noncomputable def idealGasVelocity (absT gravity : Num) : Num :=
  Num.sqrt (.fin gasConstant * absT / molecularWeight gravity)

/-- ideal_gas.py:52-63 `ideal_gas`. -/
noncomputable def idealGas (absT pressure gravity : Col n) : Except Err (Mat n) :=
  fluidVelocity
    (fun i => idealGasDensity (absT i) (pressure i * .fin 1e6) (gravity i) * .fin 1000)
    (fun i => idealGasVelocity (absT i) (gravity i))

/-- conversions.py:6-10 `celsius_to_kelvin`. -/
noncomputable def celsiusToKelvin (t : Num) : Num := t + .fin 273.15

/-- hydro_carbon_gas.py:103-120 `pseudoreduced_temperature`. -/
noncomputable def pseudoreducedTemperature (absT gravity : Num) : Num :=
  absT / (.fin 94.72 + .fin 170.75 * gravity)

/-- hydro_carbon_gas.py:123-137 `pseudoreduced_pressure`. -/
noncomputable def pseudoreducedPressure (pressure gravity : Num) : Num :=
  pressure / (.fin 4.892 - .fin 0.4048 * gravity)

/-- hydro_carbon_gas.py:140-161 `compressability_factor`. -/
noncomputable def compressabilityFactor (absT pressure gravity : Num) : Num :=
  let tpr := pseudoreducedTemperature absT gravity
  let ppr := pseudoreducedPressure pressure gravity
  (.fin 0.03 + .fin 0.00527 * Num.powi (.fin 3.5 - tpr) 3) * ppr + .fin 0.642 * tpr
    - .fin 0.007 * Num.powi tpr 4 - .fin 0.52
    + .fin 0.109 * Num.powi (.fin 3.85 - tpr) 2 /
      Num.exp ((.fin 0.45 + .fin 8 * Num.powi (.fin 0.56 - .fin 1 / tpr) 2) *
        Num.pow ppr (.fin 1.2) / tpr)

/-- hydro_carbon_gas.py:164-175 `gas_density`.  The intermediate `ideal_gas` material is checked like
every material. -/
noncomputable def gasDensity (absT pressure gravity : Col n) : Except Err (Col n) := do
  let m ← idealGas absT (fun i => pressure i * .fin 1e-6) gravity
  .ok (m.density / fun i => compressabilityFactor (absT i) (pressure i) (gravity i))

/-- hydro_carbon_gas.py:178-202 `compressability_rate_per_pseudoreduced_pressure`. -/
noncomputable def compressabilityRate (absT pressure gravity : Num) : Num :=
  let tpr := pseudoreducedTemperature absT gravity
  let ppr := pseudoreducedPressure pressure gravity
  .fin 0.03 + .fin 0.00527 * Num.powi (.fin 3.5 - tpr) 3
    - (.fin 0.1308 * (.fin 0.45 + .fin 8 * Num.powi (.fin 0.56 - Num.powi tpr (-1)) 2)
        * Num.powi (.fin 3.85 - tpr) 2 * Num.pow ppr (.fin 0.2))
      / (Num.exp ((.fin 0.45 + .fin 8 * Num.powi (.fin 0.56 - Num.powi tpr (-1)) 2)
          * Num.pow ppr (.fin 1.2) / tpr) * tpr)

/-- hydro_carbon_gas.py:205-229 `gas_bulk_modulus`. -/
noncomputable def gasBulkModulus (absT pressure gravity : Num) : Num :=
  let z := compressabilityFactor absT pressure gravity
  let dz := compressabilityRate absT pressure gravity
  let ppr := pseudoreducedPressure pressure gravity
  let gamma0 := .fin 0.85 + .fin 5.6 / (ppr + .fin 2) + .fin 27.1 / Num.powi (ppr + .fin 3.5) 2
    - .fin 8.7 * Num.exp (.fin (-0.65) * (ppr + .fin 1))
  gamma0 * pressure / (.fin 1 - dz * ppr / z)

/-- hydro_carbon_gas.py:232-247 `gas`. -/
noncomputable def gas (temperature pressure gravity : Col n) : Except Err (Mat n) := do
  let absT : Col n := fun i => celsiusToKelvin (temperature i)
  let p : Col n := fun i => pressure i * .fin 1e-6
  let density ← gasDensity absT p gravity
  fluidMaterial (fun i => gasBulkModulus (absT i) (p i) (gravity i) * .fin 1e6) density

/-! ## water_properties.py, brine_properties.py -/

/-- water_properties.py:46-59 `water_density`. -/
noncomputable def waterDensity (temperature pressure : Num) : Num :=
  polyval2d temperature pressure (r := 3) (s := 2)
    ![![1.0, 489e-6, -333e-9],
      ![-8e-5, -2e-6, -2e-09],
      ![-33e-7, 16e-9, 0.0],
      ![1.75e-9, -13e-12, 0.0]]

/-- water_properties.py:62-83 `water_primary_velocity`. -/
noncomputable def waterVelocity (temperature pressure : Num) : Num :=
  polyval2d temperature pressure (r := 4) (s := 3)
    ![![1402.85, 1.524, 3.437e-3, -1.197e-5],
      ![4.871, -1.11e-2, 1.739e-4, -1.628e-6],
      ![-4.783e-2, 2.747e-4, -2.135e-6, 1.237e-8],
      ![1.487e-4, -6.503e-7, -1.455e-8, 1.327e-10],
      ![-2.197e-7, 7.987e-10, 5.23e-11, -4.614e-13]]

/-- water_properties.py:86-95 `water` (pressure in MPa). -/
noncomputable def water (temperature pressure : Col n) : Except Err (Mat n) :=
  fluidVelocity (fun i => waterDensity (temperature i) (pressure i))
    (fun i => waterVelocity (temperature i) (pressure i))

/-- brine_properties.py:111-126 `brine_density`. -/
noncomputable def brineDensity (temperature pressure salinity : Num) : Num :=
  waterDensity temperature pressure + salinity *
    polyval3d salinity temperature pressure (r := 1) (s := 2) (t := 1)
      ![![![0.668, 3e-4], ![8e-5, -13e-6], ![3e-6, 0.0]],
        ![![0.44, -24e-4], ![-33e-4, 47e-6], ![0.0, 0.0]]]

/-- brine_properties.py:129-154 `brine_primary_velocity`. -/
noncomputable def brineVelocity (temperature pressure salinity : Num) : Num :=
  waterVelocity temperature pressure + salinity *
    polyval3d (Num.sqrt salinity) temperature pressure (r := 2) (s := 3) (t := 2)
      ![![![1170, 2.6, -0.0476], ![-9.6, -29e-4, 0], ![0.055, 0, 0], ![-8.5e-5, 0, 0]],
        ![![780, -10, 0.16], ![0, 0, 0], ![0, 0, 0], ![0, 0, 0]],
        ![![-820, 0, 0], ![0, 0, 0], ![0, 0, 0], ![0, 0, 0]]]

/-- brine_properties.py:157-169 `brine`. -/
noncomputable def brine (temperature pressure salinity : Col n) : Except Err (Mat n) :=
  fluidVelocity
    (fun i => brineDensity (temperature i) (pressure i * .fin 1e-6) (salinity i * .fin 1e-6) * .fin 1000)
    (fun i => brineVelocity (temperature i) (pressure i * .fin 1e-6) (salinity i * .fin 1e-6))

end OPE
