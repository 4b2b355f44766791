import Mathlib.Analysis.SpecialFunctions.Pow.Real
import Mathlib.Analysis.SpecialFunctions.Log.Basic
import Mathlib.Analysis.Calculus.Deriv.Basic

/-!
# Specification: carbon dioxide after Span & Wagner (1996) (C108)

R. Span, W. Wagner: A New Equation of State for Carbon Dioxide Covering the Fluid Region from the Triple-Point
Temperature to 1100 K at Pressures up to 800 MPa.  J. Phys. Chem. Ref. Data 25(6), 1996.

This file does not mention the model.  All derivatives are Mathlib's `deriv`.
-/

namespace OPE.Published.CO2

/-- Specific gas constant, J/(kg K). -/
noncomputable def R : ℝ := 188.9241
/-- Critical temperature, K. -/
noncomputable def Tc : ℝ := 304.1282
/-- Critical density, kg/m³. -/
noncomputable def rhoc : ℝ := 467.6
/-- Critical pressure, MPa. -/
noncomputable def pc : ℝ := 7.3773
/-- Triple point temperature, K. -/
noncomputable def Tt : ℝ := 216.592
/-- Triple point pressure, MPa. -/
noncomputable def pt : ℝ := 0.51795

/-- The ideal gas part of the reduced Helmholtz energy, equation 6.3 with Table 27. -/
noncomputable def phi0 (δ τ : ℝ) : ℝ :=
  Real.log δ + 8.37304456 - 3.70454304 * τ + 2.5 * Real.log τ
  + 1.99427042 * Real.log (1 - Real.exp (-3.15163 * τ))
  + 0.62105248 * Real.log (1 - Real.exp (-6.11190 * τ))
  + 0.41195293 * Real.log (1 - Real.exp (-6.77708 * τ))
  + 1.04028922 * Real.log (1 - Real.exp (-11.32384 * τ))
  + 0.08327678 * Real.log (1 - Real.exp (-27.08792 * τ))

/-- Terms 1 to 7 of equation 6.5: `n δ^d τ^t`. -/
noncomputable def poly (n : ℝ) (d : ℕ) (t : ℝ) (δ τ : ℝ) : ℝ := n * δ ^ d * τ ^ t

/-- Terms 8 to 34: `n δ^d τ^t exp(-δ^c)`. -/
noncomputable def expo (n : ℝ) (d : ℕ) (t : ℝ) (c : ℕ) (δ τ : ℝ) : ℝ :=
  n * δ ^ d * τ ^ t * Real.exp (-δ ^ c)

/-- Terms 35 to 39 (all with `ε = 1`): `n δ^d τ^t exp(-α (δ-1)² - β (τ-γ)²)`. -/
noncomputable def gauss (n : ℝ) (d : ℕ) (t : ℝ) (α β γ : ℝ) (δ τ : ℝ) : ℝ :=
  n * δ ^ d * τ ^ t * Real.exp (-α * (δ - 1) ^ 2 - β * (τ - γ) ^ 2)

/-- Terms 40 to 42 (all with `β = 0.3`, `A = 0.7`, `D = 275`): `n Δ^b δ Ψ`, with
`Δ = ((1-τ) + A ((δ-1)²)^(1/(2β)))² + B ((δ-1)²)^a` and `Ψ = exp(-C (δ-1)² - D (τ-1)²)`. -/
noncomputable def crit (n a b B C : ℝ) (δ τ : ℝ) : ℝ :=
  n * (((1 - τ) + 0.7 * ((δ - 1) ^ 2) ^ ((1 : ℝ) / (2 * 0.3))) ^ 2 + B * ((δ - 1) ^ 2) ^ a) ^ b * δ *
    Real.exp (-C * (δ - 1) ^ 2 - 275 * (τ - 1) ^ 2)

/-- The residual part of the reduced Helmholtz energy, equation 6.5 with the 42 terms of Table 31. -/
noncomputable def phir (δ τ : ℝ) : ℝ :=
  poly 0.38856823203161 1 0 δ τ
  + poly 2.9385475942740 1 0.75 δ τ
  + poly (-5.5867188534934) 1 1 δ τ
  + poly (-0.76753199592477) 1 2 δ τ
  + poly 0.31729005580416 2 0.75 δ τ
  + poly 0.54803315897767 2 2 δ τ
  + poly 0.12279411220335 3 0.75 δ τ
  + expo 2.1658961543220 1 1.5 1 δ τ
  + expo 1.5841735109724 2 1.5 1 δ τ
  + expo (-0.23132705405503) 4 2.5 1 δ τ
  + expo 0.058116916431436 5 0 1 δ τ
  + expo (-0.55369137205382) 5 1.5 1 δ τ
  + expo 0.48946615909422 5 2 1 δ τ
  + expo (-0.024275739843501) 6 0 1 δ τ
  + expo 0.062494790501678 6 1 1 δ τ
  + expo (-0.12175860225246) 6 2 1 δ τ
  + expo (-0.37055685270086) 1 3 2 δ τ
  + expo (-0.016775879700426) 1 6 2 δ τ
  + expo (-0.11960736637987) 4 3 2 δ τ
  + expo (-0.045619362508778) 4 6 2 δ τ
  + expo 0.035612789270346 4 8 2 δ τ
  + expo (-0.0074427727132052) 7 6 2 δ τ
  + expo (-0.0017395704902432) 8 0 2 δ τ
  + expo (-0.021810121289527) 2 7 3 δ τ
  + expo 0.024332166559236 3 12 3 δ τ
  + expo (-0.037440133423463) 3 16 3 δ τ
  + expo 0.143387157568781 5 22 4 δ τ
  + expo (-0.13491969083286) 5 24 4 δ τ
  + expo (-0.023151225053480) 6 16 4 δ τ
  + expo 0.012363125492901 7 24 4 δ τ
  + expo 0.0021058321972940 8 8 4 δ τ
  + expo (-0.00033958519026368) 10 2 4 δ τ
  + expo 0.0055993651771592 4 28 5 δ τ
  + expo (-0.00030335118055646) 8 14 6 δ τ
  + gauss (-213.65488688320) 2 1 25 325 1.16 δ τ
  + gauss 26641.569149272 2 0 25 300 1.19 δ τ
  + gauss (-24027.212204557) 2 1 25 300 1.19 δ τ
  + gauss (-283.41603423999) 3 3 15 275 1.25 δ τ
  + gauss 212.47284400179 3 3 20 275 1.22 δ τ
  + crit (-0.66642276540751) 3.5 0.875 0.3 10 δ τ
  + crit 0.72608632349897 3.5 0.925 0.3 10 δ τ
  + crit 0.055068668612842 3 0.875 1 12.5 δ τ

/-- Partial derivative in the reduced density. -/
noncomputable def dδ (f : ℝ → ℝ → ℝ) (δ τ : ℝ) : ℝ := deriv (fun x => f x τ) δ

/-- Partial derivative in the inverse reduced temperature. -/
noncomputable def dτ (f : ℝ → ℝ → ℝ) (δ τ : ℝ) : ℝ := deriv (fun x => f δ x) τ

/-- Derivative of order `j` in the reduced density and `k` in the inverse reduced temperature. -/
noncomputable def D (j k : ℕ) (f : ℝ → ℝ → ℝ) : ℝ → ℝ → ℝ := dτ^[k] (dδ^[j] f)

/-- Pressure in MPa at temperature `T` (K) and density `ρ` (kg/m³), Table 3:
`p = ρ R T (1 + δ φʳ_δ)`. -/
noncomputable def pressure (T ρ : ℝ) : ℝ :=
  ρ * R * T * (1 + ρ / rhoc * dδ phir (ρ / rhoc) (Tc / T)) / 1e6

/-- Square of the speed of sound in m²/s², Table 3: with `φ = φ⁰ + φʳ`,
`w² = R T (1 + 2 δ φʳ_δ + δ² φʳ_δδ - (1 + δ φʳ_δ - δ τ φʳ_δτ)² / (τ² φ_ττ))`. -/
noncomputable def soundSpeedSq (T ρ : ℝ) : ℝ :=
  R * T * (1 + 2 * (ρ / rhoc) * dδ phir (ρ / rhoc) (Tc / T)
    + (ρ / rhoc) ^ 2 * dδ (dδ phir) (ρ / rhoc) (Tc / T)
    - (1 + ρ / rhoc * dδ phir (ρ / rhoc) (Tc / T)
        - ρ / rhoc * (Tc / T) * dτ (dδ phir) (ρ / rhoc) (Tc / T)) ^ 2
      / ((Tc / T) ^ 2 * dτ (dτ fun δ τ => phi0 δ τ + phir δ τ) (ρ / rhoc) (Tc / T)))

/-- Saturated liquid density, equation 3.14. -/
noncomputable def liquidDensity (T : ℝ) : ℝ :=
  rhoc * Real.exp (1.9245108 * (1 - T / Tc) ^ (0.34 : ℝ) - 0.62385555 * (1 - T / Tc) ^ (1 / 2 : ℝ)
    - 0.32731127 * (1 - T / Tc) ^ (10 / 6 : ℝ) + 0.39245142 * (1 - T / Tc) ^ (11 / 6 : ℝ))

/-- Saturated vapour density, equation 3.15. -/
noncomputable def vaporDensity (T : ℝ) : ℝ :=
  rhoc * Real.exp (-1.7074879 * (1 - T / Tc) ^ (0.34 : ℝ) - 0.82274670 * (1 - T / Tc) ^ (1 / 2 : ℝ)
    - 4.6008549 * (1 - T / Tc) - 10.111178 * (1 - T / Tc) ^ (7 / 3 : ℝ)
    - 29.742252 * (1 - T / Tc) ^ (14 / 3 : ℝ))

/-- Vapour pressure, equation 3.13. -/
noncomputable def vaporPressure (T : ℝ) : ℝ :=
  pc * Real.exp (Tc / T * (-7.0602087 * (1 - T / Tc) + 1.9391218 * (1 - T / Tc) ^ (1.5 : ℝ)
    - 1.6463597 * (1 - T / Tc) ^ 2 - 3.2995634 * (1 - T / Tc) ^ 4))

/-- Sublimation pressure, equation 3.12. -/
noncomputable def sublimationPressure (T : ℝ) : ℝ :=
  pt * Real.exp (Tt / T * (-14.740846 * (1 - T / Tt) + 2.4327015 * (1 - T / Tt) ^ (1.9 : ℝ)
    - 5.3061778 * (1 - T / Tt) ^ (2.9 : ℝ)))

/-- Melting pressure, equation 3.10. -/
noncomputable def meltingPressure (T : ℝ) : ℝ :=
  pt * (1 + 1955.5390 * (T / Tt - 1) + 2055.4593 * (T / Tt - 1) ^ 2)

end OPE.Published.CO2
