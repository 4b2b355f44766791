import Verif.Model.SpanWagner

/-!
# Specification: the equation of state of Span and Wagner as real functions (C66, C67, C71)
-/

namespace OPE.CO2

/-- Sum over a table of coefficients. -/
noncomputable def sumOver {α : Type} (l : List α) (f : α → ℝ) : ℝ := (l.map f).sum

/-- The residual part of the Helmholtz energy, equation 6.5 of Span & Wagner: polynomial, exponential,
Gaussian and critical-region terms. -/
noncomputable def phiResidual (δ τ : ℝ) : ℝ :=
  sumOver group1 (fun k => k.n * δ ^ k.d * τ ^ k.t)
  + sumOver group2 (fun k => k.n * δ ^ k.d * τ ^ k.t * Real.exp (-δ ^ k.c))
  + sumOver group3 (fun k => k.n * δ ^ k.d * τ ^ k.t *
      Real.exp (-k.alpha * (δ - k.epsilon) ^ 2 - k.beta * (τ - k.gamma) ^ 2))
  + sumOver group4 (fun k => k.n *
      (((1 - τ) + k.A * ((δ - 1) ^ 2) ^ (1 / (2 * k.beta))) ^ 2 + k.B * ((δ - 1) ^ 2) ^ k.a) ^ k.b * δ *
      Real.exp (-k.C * (δ - 1) ^ 2 - k.D * (τ - 1) ^ 2))

/-- The ideal gas part, equation 2.3 (6.3) of Span & Wagner. -/
noncomputable def phiIdeal (δ τ : ℝ) : ℝ :=
  Real.log δ + a1 + a2 * τ + a3 * Real.log τ
  + sumOver einstein (fun k => k.1 * Real.log (1 - Real.exp (-k.2 * τ)))

end OPE.CO2
