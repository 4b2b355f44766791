import Verif.Spec.Rows
import Verif.Spec.Missing

/-!
# Specification: columns that feed the pore fluids only (C157)
-/

namespace OPE.Parse

/-- The configuration has a mapping under `fluids`, and the columns `cols` of the data file are referred to in that
section only, and not in its list `brie_gases` (of numbers of constituents). -/
structure FluidColumns (cfg : Yaml) (cols : String → Prop) : Prop where
  fluids : ∃ xs ys, cfg = .dict xs ∧ xs.lookup "fluids" = some (.dict ys) ∧
    (∀ x, ys.lookup "brie_gases" = some x → ∀ col, cols col → ¬ Main.Mentions x col) ∧
    ∀ key x, key ≠ "fluids" → xs.lookup key = some x → ∀ col, cols col → ¬ Main.Mentions x col

/-- The columns `cols` are not used for the temperature of the pore fluids. -/
def TemperatureKnown (cfg : Yaml) (cols : String → Prop) : Prop :=
  ∀ xs ys x, cfg = .dict xs → xs.lookup "fluids" = some (.dict ys) → ys.lookup "temperature" = some x →
    ∀ col, cols col → ¬ Main.Mentions x col

/-- The data row `r` is `r'` with some entries in the columns `cols` emptied. -/
def EmptiedIn (conv : Conv) (cols : String → Prop) (r r' : DataRow) : Prop :=
  Emptied conv r r' ∧ ∀ name, ¬ cols name → r name = r' name

end OPE.Parse
