import Verif.Spec.Accuracy

/-!
# Specification: double arithmetic with its bounded exponent range

What IEEE 754 promises only for results in the range of normal numbers: outside, numbers overflow to infinity or lose
digits (subnormal numbers), and nothing is assumed here.
-/

namespace OPE

/-- Zero, or between the smallest normal double and half of the limit of overflow. -/
def InRange (x : ℝ) : Prop := x = 0 ∨ ((2 ^ 1022)⁻¹ ≤ |x| ∧ |x| ≤ 2 ^ 1023)

/-- Rounding to nearest, with any rule for ties, of numbers in the range. -/
def RoundsInRange (fl : ℝ → ℝ) : Prop :=
  ∀ x, InRange x → IsDouble (fl x) ∧ ∀ y, IsDouble y → |fl x - x| ≤ |y - x|

/-- A power function that is accurate to one unit in the last place where base and result are in the range. -/
def PowerInRange (pw : ℝ → ℝ → ℝ) : Prop :=
  ∀ x y : ℝ, 0 < x → InRange x → InRange (x ^ y) → IsDouble (pw x y) ∧ Accurate 1 (x ^ y) (pw x y)

/-- A double that is zero or has a magnitude between `2⁻⁴⁰` and `2⁴⁰` (about `1e-12` and `1e12`). -/
def Ordinary (x : ℝ) : Prop := IsDouble x ∧ (x = 0 ∨ ((2 ^ 40)⁻¹ ≤ |x| ∧ |x| ≤ 2 ^ 40))

/-- Bulk modulus, shear modulus and density are ordinary. -/
def OrdinaryRock (a : Published.Rock) : Prop := Ordinary a.K ∧ Ordinary a.G ∧ Ordinary a.ρ

/-- Bulk modulus and density are ordinary. -/
def OrdinaryFluid (a : Published.Fluid) : Prop := Ordinary a.K ∧ Ordinary a.ρ

end OPE
