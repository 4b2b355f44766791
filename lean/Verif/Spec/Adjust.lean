import Verif.Spec.Published

/-!
# Dry rock adjustments (specification, independent of the model)

The adjustments of docs/adjusting_with_depth_and_pressure.md: trends in pressure that scale moduli or
velocities, power trends that are added, and polynomials in depth.
-/

namespace OPE.Published

/-- Velocity of P waves. -/
noncomputable def Rock.vp (r : Rock) : ℝ := Real.sqrt ((r.K + 4 / 3 * r.G) / r.ρ)

/-- Velocity of S waves. -/
noncomputable def Rock.vs (r : Rock) : ℝ := Real.sqrt (r.G / r.ρ)

/-- The rock of density `ρ` with velocities `vp` and `vs`. -/
noncomputable def ofVelocities (ρ vp vs : ℝ) : Rock := ⟨ρ * (vp ^ 2 - 4 / 3 * vs ^ 2), ρ * vs ^ 2, ρ⟩

/-- All properties are positive. -/
def Rock.Valid (r : Rock) : Prop := 0 < r.K ∧ 0 < r.G ∧ 0 < r.ρ

/-- Density and moduli multiplied by factors. -/
noncomputable def scaleModuli (r : Rock) (d k g : ℝ) : Rock := ⟨r.K * k, r.G * g, r.ρ * d⟩

/-- Density and velocities multiplied by factors. -/
noncomputable def scaleVelocities (r : Rock) (d p s : ℝ) : Rock := ofVelocities (r.ρ * d) (r.vp * p) (r.vs * s)

/-- Power trends of density, bulk modulus and velocity ratio, of which the difference between the pressures
`p` and `p0` is added. -/
noncomputable def addPower (r : Rock) (density bulk ratio : ℝ × ℝ) (p p0 : ℝ) : Rock :=
  let K := r.K + (powerFit bulk p - powerFit bulk p0)
  let v := r.vp / r.vs + (powerFit ratio p - powerFit ratio p0)
  ⟨K, K / (v ^ 2 - 4 / 3), r.ρ + (powerFit density p - powerFit density p0)⟩

end OPE.Published
