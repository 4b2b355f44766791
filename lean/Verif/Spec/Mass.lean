import Mathlib.Data.Real.Basic

/-!
# Mass of a dry rock (specification)

One unit of volume of a dry rock is made of pores (volume `pores`), cement (volume `cement`) and grains (the
rest).  Empty pores have no mass.  This file uses nothing of the model.
-/

namespace OPE.Spec

/-- The mass of one unit of volume of a dry rock with grains of density `ρg` and cement of density `ρc`. -/
def dryMass (pores cement ρg ρc : ℝ) : ℝ := (1 - pores - cement) * ρg + cement * ρc

end OPE.Spec
