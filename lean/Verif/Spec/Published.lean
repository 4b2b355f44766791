import Mathlib.Analysis.SpecialFunctions.Pow.Real
import Mathlib.Analysis.SpecialFunctions.Trigonometric.Basic
import Mathlib.Analysis.Calculus.Deriv.Basic
import Mathlib.Algebra.BigOperators.Fin
import Mathlib.Analysis.SpecialFunctions.Log.Base

/-!
# Published formulas (specification, independent of the model)

Correlations and effective-medium formulas as they are printed in the literature, over the real numbers:

* Batzle & Wang (1992), *Seismic properties of pore fluids*, Geophysics 57 (equation numbers "BW");
* Mavko, Mukerji & Dvorkin, *The Rock Physics Handbook* ("RPH").

Temperature in °C, pressure in MPa, densities in g/cm³, salinity as a weight fraction, velocities in m/s.
-/

namespace OPE.Published

/-! ## Batzle–Wang -/

/-- BW 27a: density of fresh water. -/
noncomputable def waterDensity (T P : ℝ) : ℝ :=
  1 + 1e-6 * (-80 * T - 3.3 * T ^ 2 + 0.00175 * T ^ 3 + 489 * P - 2 * T * P + 0.016 * T ^ 2 * P
    - 1.3e-5 * T ^ 3 * P - 0.333 * P ^ 2 - 0.002 * T * P ^ 2)

/-- BW 27b: density of brine. -/
noncomputable def brineDensity (T P S : ℝ) : ℝ :=
  waterDensity T P + S * (0.668 + 0.44 * S + 1e-6 * (300 * P - 2400 * P * S
    + T * (80 + 3 * T - 3300 * S - 13 * P + 47 * P * S)))

/-- BW 28 with table 1: velocity in fresh water, `Σ w i j T^i P^j`. -/
noncomputable def waterVelocity (T P : ℝ) : ℝ :=
  1402.85 + 4.871 * T - 0.04783 * T ^ 2 + 1.487e-4 * T ^ 3 - 2.197e-7 * T ^ 4
  + (1.524 - 0.0111 * T + 2.747e-4 * T ^ 2 - 6.503e-7 * T ^ 3 + 7.987e-10 * T ^ 4) * P
  + (3.437e-3 + 1.739e-4 * T - 2.135e-6 * T ^ 2 - 1.455e-8 * T ^ 3 + 5.230e-11 * T ^ 4) * P ^ 2
  + (-1.197e-5 - 1.628e-6 * T + 1.237e-8 * T ^ 2 + 1.327e-10 * T ^ 3 - 4.614e-13 * T ^ 4) * P ^ 3

/-- BW 29: velocity in brine. -/
noncomputable def brineVelocity (T P S : ℝ) : ℝ :=
  waterVelocity T P
  + S * (1170 - 9.6 * T + 0.055 * T ^ 2 - 8.5e-5 * T ^ 3 + 2.6 * P - 0.0029 * T * P - 0.0476 * P ^ 2)
  + S ^ (1.5 : ℝ) * (780 - 10 * P + 0.16 * P ^ 2) - 820 * S ^ 2

/-- BW 18 and 19: density of dead oil of reference density `ρ`. -/
noncomputable def deadOilDensity (T P ρ : ℝ) : ℝ :=
  (ρ + (0.00277 * P - 1.71e-7 * P ^ 3) * (ρ - 1.15) ^ 2 + 3.49e-4 * P)
    / (0.972 + 3.81e-4 * (T + 17.78) ^ (1.175 : ℝ))

/-- BW 20a: velocity in oil of reference density `ρ`. -/
noncomputable def oilVelocity (T P ρ : ℝ) : ℝ :=
  2096 * (ρ / (2.6 - ρ)) ^ (1 / 2 : ℝ) - 3.7 * T + 4.64 * P
    + 0.0115 * (4.12 * (1.08 / ρ - 1) ^ (1 / 2 : ℝ) - 1) * T * P

/-- BW 23: oil volume factor with gas–oil ratio `R` (litre/litre) and gas gravity `G`. -/
noncomputable def volumeFactor (T ρ R G : ℝ) : ℝ :=
  0.972 + 0.00038 * (2.4 * R * (G / ρ) ^ (1 / 2 : ℝ) + T + 17.8) ^ (1.175 : ℝ)

/-- BW 24: density of live oil. -/
noncomputable def liveOilDensity (T ρ R G : ℝ) : ℝ :=
  (ρ + 0.0012 * G * R) / volumeFactor T ρ R G

/-- BW 22: pseudo-density of live oil, to be used in 20a. -/
noncomputable def pseudoDensity (T ρ R G : ℝ) : ℝ :=
  ρ / volumeFactor T ρ R G * (1 + 0.001 * R)⁻¹

/-- BW 21a (Standing): bubble point pressure in Pa of oil of density `ρ` in kg/m³, with the degrees API
rewritten as `141500/ρ - 131.5` and the constant factors collected (rounded as in the code's comments). -/
noncomputable def bubblePoint (T ρ R G : ℝ) : ℝ :=
  24469793.9134 * (R / G) ^ (0.83 : ℝ) * Real.exp (0.00377 * T - 4072 / ρ)

/-- The weight of dead oil in the transition between dead and live oil at a gas–oil ratio `R`. -/
noncomputable def deadWeight (R : ℝ) : ℝ := max 0 (1 - |R|)

/-- BW 9a: pseudo-reduced temperature of gas of gravity `G` at absolute temperature `T`. -/
noncomputable def gasTpr (T G : ℝ) : ℝ := T / (94.72 + 170.75 * G)

/-- BW 9b: pseudo-reduced pressure. -/
noncomputable def gasPpr (P G : ℝ) : ℝ := P / (4.892 - 0.4048 * G)

/-- BW 10b, 10c: compressibility. -/
noncomputable def gasZ (t p : ℝ) : ℝ :=
  (0.03 + 0.00527 * (3.5 - t) ^ 3) * p + (0.642 * t - 0.007 * t ^ 4 - 0.52)
    + 0.109 * (3.85 - t) ^ 2 * Real.exp (-(0.45 + 8 * (0.56 - 1 / t) ^ 2) * p ^ (1.2 : ℝ) / t)

/-- BW 11b. -/
noncomputable def gasGamma (p : ℝ) : ℝ :=
  0.85 + 5.6 / (p + 2) + 27.1 / (p + 3.5) ^ 2 - 8.7 * Real.exp (-0.65 * (p + 1))

/-- BW 10a: density in kg/m³ of gas of gravity `G` (molar mass of air 28.8 g/mol) at absolute temperature
`T` and pressure `P` in MPa. -/
noncomputable def gasDensity (T P G : ℝ) : ℝ :=
  1e6 * P * (28.8e-3 * G) / (8.314462618 * T * gasZ (gasTpr T G) (gasPpr P G))

/-- BW 11a: adiabatic bulk modulus in Pa at absolute temperature `T` and pressure `P` in MPa; the partial
derivative is at constant temperature. -/
noncomputable def gasBulk (T P G : ℝ) : ℝ :=
  1e6 * (P / (1 - gasPpr P G / gasZ (gasTpr T G) (gasPpr P G) * deriv (gasZ (gasTpr T G)) (gasPpr P G))
    * gasGamma (gasPpr P G))

/-! ## Effective media -/

/-- Poisson's ratio of moduli `K`, `G`. -/
noncomputable def poisson (K G : ℝ) : ℝ := (3 * K - 2 * G) / (2 * (3 * K + G))

/-- RPH 5.4: Hertz–Mindlin bulk modulus of a pack of grains with moduli `K`, `G`, coordination number `C`,
porosity `φ`, under pressure `P`. -/
noncomputable def hertzMindlinBulk (K G φ P C : ℝ) : ℝ :=
  (C ^ 2 * (1 - φ) ^ 2 * G ^ 2 * P / (18 * Real.pi ^ 2 * (1 - poisson K G) ^ 2)) ^ (1 / 3 : ℝ)

/-- RPH 5.4: Hertz–Mindlin shear modulus with a fraction `f` of no-slip contacts. -/
noncomputable def hertzMindlinShear (K G φ P C f : ℝ) : ℝ :=
  (2 + 3 * f - poisson K G * (1 + 3 * f)) / (5 * (2 - poisson K G))
    * (3 * C ^ 2 * (1 - φ) ^ 2 * G ^ 2 * P / (2 * Real.pi ^ 2 * (1 - poisson K G) ^ 2)) ^ (1 / 3 : ℝ)

/-- RPH 4.1 (Berryman's notation): the Hashin–Shtrikman(–Walpole) average of `a` and `b` with volume
fractions `f` and `1 - f` and comparison constant `z`. -/
noncomputable def hashinShtrikman (a b f z : ℝ) : ℝ := (f / (a + z) + (1 - f) / (b + z))⁻¹ - z

/-- RPH 4.1: the comparison constant of the shear bounds. -/
noncomputable def zeta (K G : ℝ) : ℝ := G / 6 * ((9 * K + 8 * G) / (K + 2 * G))

/-- RPH 5.2 (Dvorkin & Nur 1996): normal stiffness of cemented contacts.  `α` is the radius of the cement
layer relative to the grain radius. -/
noncomputable def cementNormal (ν νc G Gc α : ℝ) : ℝ :=
  let Λ := 2 * Gc / (Real.pi * G) * ((1 - ν) * (1 - νc) / (1 - 2 * νc))
  (-0.024153) * Λ ^ (-1.3646 : ℝ) * α ^ 2 + 0.20405 * Λ ^ (-0.89008 : ℝ) * α
    + 0.00024649 * Λ ^ (-1.9864 : ℝ)

/-- RPH 5.2 (Dvorkin & Nur 1996): tangential stiffness of cemented contacts. -/
noncomputable def cementTangential (ν G Gc α : ℝ) : ℝ :=
  let Λ := Gc / (Real.pi * G)
  (-1e-2) * (2.26 * ν ^ 2 + 2.07 * ν + 2.3) * Λ ^ (0.079 * ν ^ 2 + 0.1754 * ν - 1.342) * α ^ 2
    + (0.0573 * ν ^ 2 + 0.0937 * ν + 0.202) * Λ ^ (0.0274 * ν ^ 2 + 0.0529 * ν - 0.8765) * α
    + 1e-4 * (9.654 * ν ^ 2 + 4.945 * ν + 3.1) * Λ ^ (0.01867 * ν ^ 2 + 0.4011 * ν - 1.8186)

/-- RPH 5.2, all cement evenly on the grain surfaces: radius ratio `α`. -/
noncomputable def cementRadius (φc φ : ℝ) : ℝ := (2 * (φc - φ) / (3 * (1 - φc))) ^ (1 / 2 : ℝ)

/-- RPH 5.2: bulk modulus of cemented sand; grains `K`, `G`, cement `Kc`, `Gc`, grain pack porosity `φc`. -/
noncomputable def cementedBulk (K G Kc Gc φc α C : ℝ) : ℝ :=
  1 / 6 * C * (1 - φc) * (Kc + 4 / 3 * Gc) * cementNormal (poisson K G) (poisson Kc Gc) G Gc α

/-- RPH 5.2: shear modulus of cemented sand, the tangential part reduced by `f`. -/
noncomputable def cementedShear (K G Kc Gc φc α C f : ℝ) : ℝ :=
  3 / 5 * cementedBulk K G Kc Gc φc α C
    + f * (3 / 20 * C * (1 - φc) * Gc * cementTangential (poisson K G) G Gc α)

/-! ## Rocks -/

/-- Bulk modulus, shear modulus and density of a rock or mineral. -/
structure Rock where
  K : ℝ
  G : ℝ
  ρ : ℝ

/-- RPH 4.1: the lower Hashin–Shtrikman–Walpole bound of `a` and `b`, `a` with volume fraction `f`. -/
noncomputable def lowerBound (a b : Rock) (f : ℝ) : Rock :=
  ⟨hashinShtrikman a.K b.K f (4 / 3 * min a.G b.G),
   hashinShtrikman a.G b.G f (zeta (min a.K b.K) (min a.G b.G)),
   f * a.ρ + (1 - f) * b.ρ⟩

/-- RPH 4.1: the upper bound. -/
noncomputable def upperBound (a b : Rock) (f : ℝ) : Rock :=
  ⟨hashinShtrikman a.K b.K f (4 / 3 * max a.G b.G),
   hashinShtrikman a.G b.G f (zeta (max a.K b.K) (max a.G b.G)),
   f * a.ρ + (1 - f) * b.ρ⟩

/-- RPH 5.4: Hertz–Mindlin grain pack. -/
noncomputable def hertzMindlin (a : Rock) (φ P C f : ℝ) : Rock :=
  ⟨hertzMindlinBulk a.K a.G φ P C, hertzMindlinShear a.K a.G φ P C f, a.ρ * (1 - φ)⟩

/-- RPH 5.3: friable (unconsolidated) sand, the modified lower bound between the mineral and the grain
pack at critical porosity `φc`. -/
noncomputable def friableSand (a : Rock) (φ φc P C f : ℝ) : Rock :=
  lowerBound a (hertzMindlin a φc P C f) (1 - φ / φc)

/-- The radius ratio the package uses, never above 1. -/
noncomputable def radiusRatio (φc φ : ℝ) : ℝ := min 1 (cementRadius φc φ)

/-- RPH 5.2: contact-cemented sand at cemented porosity `φ`, grain pack porosity `φc`. -/
noncomputable def contactCement (cement grain : Rock) (φ φc f C : ℝ) : Rock :=
  ⟨cementedBulk grain.K grain.G cement.K cement.G φc (radiusRatio φc φ) C,
   cementedShear grain.K grain.G cement.K cement.G φc (radiusRatio φc φ) C f,
   (1 - φ) * (radiusRatio φc φ * cement.ρ + (1 - radiusRatio φc φ) * grain.ρ)⟩

/-- Constant cement: the lower bound between the mineral–cement mix and contact-cemented sand. -/
noncomputable def constantCement (sand cement : Rock) (φ φcem φc f C : ℝ) : Rock :=
  lowerBound (lowerBound cement sand (φc - φcem)) (contactCement cement sand φcem φc f C) (1 - φ / φcem)

/-- Patchy cement: how far `x` is on the way from `lo` to `up`. -/
noncomputable def weight (x lo up : ℝ) : ℝ :=
  if up = lo then 1 else min 1 (max 0 ((x - lo) / (up - lo)))

/-- Avseth et al. (2016) patchy cement.  `φ` porosity, `φcem` porosity at the given cement content, `φub`
porosity of the upper bound, `P` pressure, `Plb` pressure of the lower bound, `φc` critical porosity, `f`
shear reduction, `Cf` and `Cc` coordination numbers of the friable and the cemented end member. -/
noncomputable def patchyCement (sand cement : Rock) (φ φcem φub P Plb φc f Cf Cc : ℝ) : Rock :=
  let mix := lowerBound cement sand (φc - φub)
  let loose := friableSand mix φ φc P Cf f
  let lower := friableSand mix φ φc Plb Cf f
  let upper := constantCement sand cement φ φub φc f Cc
  let line := lowerBound mix (contactCement cement sand φcem φc f Cc) (1 - φ / φcem)
  ⟨loose.K + weight line.K lower.K upper.K * (upper.K - loose.K),
   loose.G + weight line.G lower.G upper.G * (upper.G - loose.G),
   (1 - φ - (φc - φcem)) * sand.ρ + (φc - φcem) * cement.ρ⟩

end OPE.Published

namespace OPE.Published

/-! ## Composite minerals -/

/-- Average of any number of minerals with their volume fractions, two at a time: `a` has the volume `t`,
the next mineral is added to it by the lower bound. -/
noncomputable def addMinerals (a : Rock) (t : ℝ) : List (Rock × ℝ) → Rock
  | [] => a
  | (b, f) :: l => addMinerals (lowerBound a b (if t + f = 0 then 1 else t / (t + f))) (t + f) l

/-! ## Pressure trends -/

/-- Polynomial in the pressure, highest power first. -/
noncomputable def polyFit (a : List ℝ) (p : ℝ) : ℝ :=
  ∑ k : Fin a.length, a[k] * p ^ (a.length - 1 - k)

/-- Exponential trend. -/
noncomputable def expFit (a : ℝ × ℝ × ℝ) (p : ℝ) : ℝ := a.1 + a.2.1 * Real.exp (p / a.2.2)

/-- Logarithmic trend. -/
noncomputable def logFit (a : ℝ × ℝ) (p : ℝ) : ℝ := a.1 + a.2 * Real.logb 10 p

/-- Power trend. -/
noncomputable def powerFit (a : ℝ × ℝ) (p : ℝ) : ℝ := a.1 * p ^ a.2

/-- Effective pressure of overburden `ob` and pore pressure `x`, at most `max`. -/
noncomputable def effective (max : Option ℝ) (ob x : ℝ) : ℝ :=
  match max with
  | none => ob - x
  | some m => min (ob - x) m

/-- Murphy's coordination number at porosity `φ` (quadratic fit of Murphy 1982). -/
noncomputable def murphy (φ : ℝ) : ℝ := 25.98805 * φ ^ 2 - 43.7622 * φ + 21.6719

/-! ## Pore fluids -/

/-- Bulk modulus and density of a fluid. -/
structure Fluid where
  K : ℝ
  ρ : ℝ

/-- Brine at temperature `T` (°C), pressure `P` (Pa), salinity `S` (ppm). -/
noncomputable def brine (T P S : ℝ) : Fluid :=
  let ρ := 1000 * brineDensity T (P * 1e-6) (S * 1e-6)
  ⟨ρ * brineVelocity T (P * 1e-6) (S * 1e-6) ^ 2, ρ⟩

/-- Oil of reference density `r` (kg/m³), gas–oil ratio `R`, gas gravity `G` at `T` (°C), `P` (Pa). -/
noncomputable def oil (T P r R G : ℝ) : Fluid :=
  let w := deadWeight R
  let ρ := 1000 * (w * deadOilDensity T (P * 1e-6) (r / 1000) + (1 - w) * liveOilDensity T (r / 1000) R G)
  let v := w * oilVelocity T (P * 1e-6) (r / 1000)
    + (1 - w) * oilVelocity T (P * 1e-6) (pseudoDensity T (r / 1000) R G)
  ⟨ρ * v ^ 2, ρ⟩

/-- Gas of gravity `G` at `T` (°C), `P` (Pa). -/
noncomputable def gas (T P G : ℝ) : Fluid :=
  ⟨gasBulk (T + 273.15) (P * 1e-6) G, gasDensity (T + 273.15) (P * 1e-6) G⟩

/-- RPH 6.8 (Wood): fluids with saturations, which are rescaled to sum to one. -/
noncomputable def wood (L : List (Fluid × ℝ)) : Fluid :=
  let S := (L.map fun x => x.2).sum
  ⟨(L.map fun x => x.2 / S / x.1.K).sum⁻¹, (L.map fun x => x.2 / S * x.1.ρ).sum⟩

/-- RPH 6.8 (Brie): `e` is Brie's exponent. -/
noncomputable def brie (liquids gases : List (Fluid × ℝ)) (e : ℝ) : Fluid :=
  let S := (liquids.map fun x => x.2).sum
  ⟨((wood liquids).K - (wood gases).K) * S ^ e + (wood gases).K,
   S * (wood liquids).ρ + (1 - S) * (wood gases).ρ⟩

/-- RPH 6.3 (Gassmann): bulk modulus of the saturated rock. -/
noncomputable def gassmann (Kd Km Kf φ : ℝ) : ℝ :=
  Kd + (1 - Kd / Km) ^ 2 / (φ / Kf + (1 - φ) / Km - Kd / Km ^ 2)

end OPE.Published
