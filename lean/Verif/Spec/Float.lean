import Mathlib.Data.Real.Basic

/-!
# Specification: rounding to nearest double (IEEE 754, exponent range ignored)
-/

namespace OPE

/-- A binary floating point number with at most 53 significant bits. -/
def IsDouble (x : ℝ) : Prop := ∃ m e : ℤ, |m| < 2 ^ 53 ∧ x = m * 2 ^ e

/-- Rounding to nearest, with any rule for ties. -/
def RoundsToNearest (fl : ℝ → ℝ) : Prop :=
  ∀ x, IsDouble (fl x) ∧ ∀ y, IsDouble y → |fl x - x| ≤ |y - x|

end OPE
