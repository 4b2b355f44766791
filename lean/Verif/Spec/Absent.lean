import Verif.Model.Pipeline

/-!
# Specification: a pore fluid that is not there (C159)
-/

namespace OPE

open Classical

variable {n : ℕ}

/-- The saturation a constituent of the list `L` has: the given one, or what the given ones leave. -/
noncomputable def usedSaturation (L : List (FluidSpec n)) (x : FluidSpec n) : Col n :=
  x.fraction.getD (c 1 - sumCols (L.filterMap (·.fraction)))

/-- The total saturation of the constituents of `L` that are `p`. -/
noncomputable def totalSaturation (L : List (FluidSpec n)) (p : FluidSpec n → Prop) : Col n :=
  sumCols ((L.filter fun x => p x).map (usedSaturation L))

/-- Gas or carbon dioxide. -/
def FluidSpec.Gaseous (x : FluidSpec n) : Prop := x.kind.type = "gas" ∨ x.kind.type = "carbon_dioxide"

/-- The material has positive numbers for bulk modulus and density. -/
def Mat.Ordinary (m : Mat n) : Prop :=
  ∀ i, ∃ k d : ℝ, 0 < k ∧ 0 < d ∧ m.bulk i = Num.fin k ∧ m.density i = Num.fin d

/-- The fluid pressure the constituents after the list `L` see when the first one of `L` sees `p`: carbon dioxide leaves
a millionth of it (fluid_model_providers.py:54 divides the array in place). -/
noncomputable def pressureAfter : List (FluidSpec n) → Col n → Col n
  | [], p => p
  | y :: L, p => pressureAfter L (if y.kind.type = "carbon_dioxide" then fun i => p i / Num.fin 1e6 else p)

/-- The constituent `x` of the pore fluids `A ++ x :: B` has saturation 0; it is not carbon dioxide, and an ordinary
fluid at the pressure it sees; and without it there are pore fluids still: with Wood's law any, with Brie's (the
gases being told by their type) at least one of the same phase, or, if `x` is the only gas, liquids that fill the
pores. -/
structure Absent (co2 : CO2Model n) (s : Sections n) (A : List (FluidSpec n)) (x : FluidSpec n)
    (B : List (FluidSpec n)) : Prop where
  fluids : s.fluids = A ++ x :: B
  saturation : x.fraction = some (c 0)
  noCO2 : x.kind.type ≠ "carbon_dioxide"
  ordinary : ∀ p, s.fluidPressure.or s.rockPressure = some p →
    ∃ m, (x.kind.asMaterial co2 (x.model.getD s.fluidModel) s.temperature (pressureAfter A p)).1 = .ok m ∧ m.Ordinary
  others : A ++ B ≠ []
  mixing :
    (s.mixMethod = .wood ∧ ∀ i, Num.fin 0 < totalSaturation (A ++ B) (fun _ => True) i) ∨
    (s.mixMethod = .brie ∧ s.brieGases = none ∧ (∃ y ∈ A ++ B, y.Gaseous ↔ x.Gaseous) ∧
      ∀ i, Num.fin 0 < totalSaturation (A ++ B) (fun y => y.Gaseous ↔ x.Gaseous) i) ∨
    (s.mixMethod = .brie ∧ s.brieGases = none ∧ x.Gaseous ∧ (∀ y ∈ A ++ B, ¬ y.Gaseous) ∧
      (∃ e : ℝ, s.brieConstant = Num.fin e) ∧
      ∀ i, totalSaturation (A ++ B) (fun _ => True) i = Num.fin 1)

/-- The total saturation of the constituents of `L` at the positions that are `p`. -/
noncomputable def totalSaturationAt (L : List (FluidSpec n)) (p : ℕ → Prop) : Col n :=
  sumCols ((L.zipIdx.filter fun y => p y.2).map fun y => usedSaturation L y.1)

/-- The positions `gases` of a list, when the entry at position `k` of that list is taken out, are `gases'`: those
before `k` stay and those after `k` count one less. -/
def Renumbered (k : ℕ) (gases gases' : List ℕ) : Prop :=
  gases'.Nodup ∧ (∀ j < k, j ∈ gases' ↔ j ∈ gases) ∧ ∀ j ≥ k, j ∈ gases' ↔ j + 1 ∈ gases

/-- As `Absent`, for Brie's law with the gases named by their positions (`brie_gases`), `gases` in `A ++ x :: B` and
`gases'` in `A ++ B`: at least one fluid of the same phase is left, or, if `x` is the only gas, liquids that fill the
pores. -/
structure AbsentGiven (co2 : CO2Model n) (s : Sections n) (A : List (FluidSpec n)) (x : FluidSpec n)
    (B : List (FluidSpec n)) (gases gases' : List ℕ) : Prop where
  fluids : s.fluids = A ++ x :: B
  saturation : x.fraction = some (c 0)
  noCO2 : x.kind.type ≠ "carbon_dioxide"
  ordinary : ∀ p, s.fluidPressure.or s.rockPressure = some p →
    ∃ m, (x.kind.asMaterial co2 (x.model.getD s.fluidModel) s.temperature (pressureAfter A p)).1 = .ok m ∧ m.Ordinary
  others : A ++ B ≠ []
  method : s.mixMethod = .brie
  given : s.brieGases = some (gases.map fun j : ℕ => (j : ℤ))
  nodup : gases.Nodup
  inside : ∀ j ∈ gases, j < s.fluids.length
  renumbered : Renumbered A.length gases gases'
  mixing :
    ((∃ j < (A ++ B).length, j ∈ gases' ↔ A.length ∈ gases) ∧
      ∀ i, Num.fin 0 < totalSaturationAt (A ++ B) (fun j => j ∈ gases' ↔ A.length ∈ gases) i) ∨
    (A.length ∈ gases ∧ gases' = [] ∧ (∃ e : ℝ, s.brieConstant = Num.fin e) ∧
      ∀ i, totalSaturation (A ++ B) (fun _ => True) i = Num.fin 1)

end OPE
