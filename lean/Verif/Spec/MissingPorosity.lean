import Verif.Spec.Rows
import Verif.Model.Parse

/-!
# Specification: a configuration that takes only the porosity from a column (C151)
-/

namespace OPE.Parse

/-- The configuration has `dry_rock: {porosity: {column: col}, …}`, and nothing else in it refers to the column
`col`.  (Keys of the dry rock section are distinct: a YAML mapping.) -/
structure PorosityColumn (cfg : Yaml) (col : String) : Prop where
  /-- The column is the porosity, … -/
  porosity : ∃ xs ys, cfg = .dict xs ∧ xs.lookup "dry_rock" = some (.dict ys) ∧ (ys.map Prod.fst).Nodup ∧
    ("porosity", .dict [("column", .str col)]) ∈ ys ∧
    -- … no other field of the dry rock section refers to it, …
    (∀ e ∈ ys, e.1 ≠ "porosity" → ¬ Main.Mentions e.2 col) ∧
    -- … and no other section does.
    ∀ key x, key ≠ "dry_rock" → xs.lookup key = some x → ¬ Main.Mentions x col

/-- The data rows with the entry of column `col` emptied in some of them. -/
noncomputable def emptyIn {n : ℕ} (col : String) (emptied : Fin n → Prop) [DecidablePred emptied]
    (rows : Fin n → DataRow) : Fin n → DataRow :=
  fun i s => if s = col ∧ emptied i then some (.num .nan) else rows i s

end OPE.Parse
