import Verif.Model.RoundingPoly
import Mathlib.Analysis.SpecialFunctions.Pow.Real

/-!
# Oil and gas in double arithmetic

As in Model/Rounding.lean: one row, the result of every operation is rounded (`fl`), powers are those of the mathematical
library (`pw`), and so is the exponential function (`ex`).  Decimal literals are rounded too.  A square is the rounded
product (numpy and the libraries agree on that), a square root is correctly rounded.
-/

namespace OPE.Double

variable (fl : ℝ → ℝ) (pw : ℝ → ℝ → ℝ) (ex : ℝ → ℝ)

/-- seismic_velocity.py:42-52 with shear modulus 0, and the density (material.py:155-180 for a fluid given by density and
velocity). -/
noncomputable def fluidOf (density vp : ℝ) : ℝ × ℝ :=
  (fl (fl (fl (vp ^ 2) * density) - fl (fl (4 / 3) * 0)), density)

/-! ## oil_properties.py -/

/-- oil_properties.py:270-286 `pressure_adjusted_dead_oil_density`; `10 ** (-7)` is a power of the library. -/
noncomputable def pressureAdjusted (pressure ref : ℝ) : ℝ :=
  fl (fl (ref + fl (fl (fl (fl 0.00277 * pressure) - fl (fl (fl 1.71 * pw 10 (-7)) * pw pressure 3)) *
    fl (fl (ref - fl 1.15) ^ 2))) + fl (fl (fl 3.49 * pw 10 (-4)) * pressure))

/-- oil_properties.py:289-299 `temperature_adjusted_dead_oil_density`. -/
noncomputable def temperatureAdjusted (temperature density : ℝ) : ℝ :=
  fl (density / fl (fl 0.972 + fl (fl (fl 3.81 * pw 10 (-4)) * pw (fl (temperature + fl 17.78)) (fl 1.175))))

/-- oil_properties.py:302-315 `dead_oil_density`. -/
noncomputable def deadOilDensity (temperature pressure ref : ℝ) : ℝ :=
  temperatureAdjusted fl pw temperature (pressureAdjusted fl pw pressure ref)

/-- oil_properties.py:318-338 `dead_oil_primary_velocity`. -/
noncomputable def deadOilVelocity (temperature pressure ref : ℝ) : ℝ :=
  fl (fl (fl (fl (2096 * fl (Real.sqrt (fl (ref / fl (fl 2.6 - ref))))) - fl (fl 3.7 * temperature)) + fl (fl 4.64 * pressure)) +
    fl (fl (fl (fl 0.0115 * fl (fl (fl 4.12 * fl (Real.sqrt (fl (fl (fl 1.08 * pw ref (-1)) - 1)))) - 1)) * temperature) * pressure))

/-- oil_properties.py:341-358 `dead_oil`: bulk modulus and density. -/
noncomputable def deadOil (temperature pressure ref : ℝ) : ℝ × ℝ :=
  let p := fl (pressure * fl 1e-6)
  let r := fl (ref / 1000)
  fluidOf fl (fl (deadOilDensity fl pw temperature p r * 1000)) (deadOilVelocity fl pw temperature p r)

/-- oil_properties.py:361-380 `live_oil_volume_factor`. -/
noncomputable def volumeFactor (temperature ref gor gravity : ℝ) : ℝ :=
  fl (fl 0.972 + fl (fl 0.00038 * pw (fl (fl (fl (fl (fl 2.4 * gor) * fl (Real.sqrt (fl (gravity / ref)))) + temperature) + fl 17.8))
    (fl 1.175)))

/-- oil_properties.py:383-401 `live_oil_pseudo_density`. -/
noncomputable def pseudoDensity (temperature ref gor gravity : ℝ) : ℝ :=
  fl (fl (ref / volumeFactor fl pw temperature ref gor gravity) / fl (1 + fl (fl 0.001 * gor)))

/-- oil_properties.py:404-423 `live_oil_density`. -/
noncomputable def liveOilDensity (temperature ref gor gravity : ℝ) : ℝ :=
  fl (fl (ref + fl (fl (fl 0.0012 * gravity) * gor)) / volumeFactor fl pw temperature ref gor gravity)

/-- oil_properties.py:499-512 `triangular_window` with length 2. -/
noncomputable def window (x : ℝ) : ℝ := if 1 < x then 0 else if x < -1 then 0 else |fl (fl (|x| - 1) / 1)|

/-- oil_properties.py:426-523 `live_oil` and `oil`: bulk modulus and density. A material keeps the velocity and density it is given, so those of
live and dead oil go into the mean unchanged. -/
noncomputable def oil (temperature pressure ref gor gravity : ℝ) : ℝ × ℝ :=
  let p := fl (pressure * fl 1e-6)
  let r := fl (ref / 1000)
  let w := window fl gor
  fluidOf fl
    (fl (fl (fl (deadOilDensity fl pw temperature p r * 1000) * w)
      + fl (fl (1 - w) * fl (liveOilDensity fl pw temperature r gor gravity * 1000))))
    (fl (fl (deadOilVelocity fl pw temperature p r * w)
      + fl (fl (1 - w) * deadOilVelocity fl pw temperature p (pseudoDensity fl pw temperature r gor gravity))))

/-! ## ideal_gas.py, hydro_carbon_gas.py -/

/-- ideal_gas.py:22-40,52-63: the density of `ideal_gas`. -/
noncomputable def idealGasDensity (absT pressure gravity : ℝ) : ℝ :=
  fl (fl (fl (gravity * fl 28.8) / fl (fl (fl 8.314462618 * absT) / fl (pressure * 1e6))) * 1000)

/-- hydro_carbon_gas.py:103-120 `pseudoreduced_temperature`. -/
noncomputable def gasTpr (absT gravity : ℝ) : ℝ := fl (absT / fl (fl 94.72 + fl (fl 170.75 * gravity)))

/-- hydro_carbon_gas.py:123-137 `pseudoreduced_pressure`. -/
noncomputable def gasPpr (pressure gravity : ℝ) : ℝ := fl (pressure / fl (fl 4.892 - fl (fl 0.4048 * gravity)))

/-- hydro_carbon_gas.py:140-161 `compressability_factor` from the pseudo-reduced values. -/
noncomputable def gasZ (t p : ℝ) : ℝ :=
  fl (fl (fl (fl (fl (fl (fl 0.03 + fl (fl 0.00527 * pw (fl (3.5 - t)) 3)) * p) + fl (fl 0.642 * t))
    - fl (fl 0.007 * pw t 4)) - fl 0.52)
    + fl (fl (fl 0.109 * fl (fl (fl 3.85 - t) ^ 2)) /
      ex (fl (fl (fl (fl 0.45 + fl (8 * fl (fl (fl 0.56 - fl (1 / t)) ^ 2))) * pw p (fl 1.2)) / t))))

/-- hydro_carbon_gas.py:164-175 `gas_density`. -/
noncomputable def gasDensity (absT pressure gravity : ℝ) : ℝ :=
  fl (idealGasDensity fl absT (fl (pressure * fl 1e-6)) gravity /
    gasZ fl pw ex (gasTpr fl absT gravity) (gasPpr fl pressure gravity))

/-- hydro_carbon_gas.py:178-202 `compressability_rate_per_pseudoreduced_pressure` from the pseudo-reduced values. -/
noncomputable def gasRate (t p : ℝ) : ℝ :=
  let h := fl (fl 0.45 + fl (8 * fl (fl (fl 0.56 - pw t (-1)) ^ 2)))
  fl (fl (fl 0.03 + fl (fl 0.00527 * pw (fl (3.5 - t)) 3))
    - fl (fl (fl (fl (fl 0.1308 * h) * fl (fl (fl 3.85 - t) ^ 2)) * pw p (fl 0.2))
      / fl (ex (fl (fl (h * pw p (fl 1.2)) / t)) * t)))

/-- hydro_carbon_gas.py:205-229 `gas_bulk_modulus`. -/
noncomputable def gasBulk (absT pressure gravity : ℝ) : ℝ :=
  let t := gasTpr fl absT gravity
  let p := gasPpr fl pressure gravity
  let gamma := fl (fl (fl (fl 0.85 + fl (fl 5.6 / fl (p + 2))) + fl (fl 27.1 / fl (fl (p + 3.5) ^ 2)))
    - fl (fl 8.7 * ex (fl (fl (-0.65) * fl (p + 1)))))
  fl (fl (gamma * pressure) / fl (1 - fl (fl (gasRate fl pw ex t p * p) / gasZ fl pw ex t p)))

/-- hydro_carbon_gas.py:232-247 `gas`: bulk modulus and density. -/
noncomputable def gas (temperature pressure gravity : ℝ) : ℝ × ℝ :=
  let absT := fl (temperature + fl 273.15)
  let p := fl (pressure * fl 1e-6)
  (fl (gasBulk fl pw ex absT p gravity * 1e6), gasDensity fl pw ex absT p gravity)

end OPE.Double
