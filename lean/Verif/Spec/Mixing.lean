import Mathlib.Data.Real.Basic
import Mathlib.Tactic.Linarith

/-!
# Textbook mixing laws (specification, independent of the model)
-/

namespace OPE.Spec

/-- Reuss (harmonic, iso-stress) average of two moduli, `f` = volume fraction of the first. -/
noncomputable def reuss (a b f : ℝ) : ℝ := (f / a + (1 - f) / b)⁻¹

/-- Voigt (arithmetic, iso-strain) average of two moduli. -/
def voigt (a b f : ℝ) : ℝ := f * a + (1 - f) * b

/-- `x` lies between `a` and `b`, in whichever order. -/
def Between (a b x : ℝ) : Prop := min a b ≤ x ∧ x ≤ max a b

end OPE.Spec
