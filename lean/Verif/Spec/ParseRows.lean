import Verif.Spec.Config
import Verif.Spec.RowWise
import Verif.Model.Parse

/-!
# Specification: one row of a configuration with inserted columns (C87)
-/

namespace OPE.Parse

variable {n : ℕ}

/-- Row `i` of an array. -/
def Arr.row (a : Arr n) (i : Fin n) : Arr 1 :=
  match a with
  | .col x => .col fun _ => x i
  | .cols xs => .cols (xs.map fun x _ => x i)

/-- The same configuration value for row `i` only. -/
def valRow (v : Val n) (i : Fin n) : Val 1 := mapArr (fun a => a.row i) v

/-- The parameters that hold one value (or one set of coefficients) for all rows. -/
def globalKeys : List String := ["brie_constant", "brie_gases", "coefficients"]

/-- No column reference below a key of a parameter that is global to all rows. -/
def NoColumnInGlobals {S A : Type} (cfg : Cfg S A) : Prop :=
  ∀ (p : List ℕ) (xs : List (String × Cfg S A)), Spec.at? cfg p = some (.dict xs) →
    ∀ e ∈ xs, e.1 ∈ globalKeys → ∀ q name, ¬ Spec.RefAt e.2 q name

/-- `y` is part of `x`, not below a key of a parameter that is global to all rows. -/
inductive Within {S A : Type} : Cfg S A → Cfg S A → Prop
  | here (x : Cfg S A) : Within x x
  | list {xs : List (Cfg S A)} {x y : Cfg S A} (hx : x ∈ xs) (h : Within x y) : Within (.list xs) y
  | dict {xs : List (String × Cfg S A)} {k : String} {x y : Cfg S A} (hx : (k, x) ∈ xs) (hk : k ∉ globalKeys)
      (h : Within x y) : Within (.dict xs) y

/-- The parameters that are lists of mappings (minerals, fluids, adjustments). -/
def listKeys : List String := ["constituents", "adjustments"]

/-- No per-row parameter and no section is written as a list: outside the global parameters the lists are those
of minerals, fluids and adjustments, and they hold mappings. -/
def NoListedValues {S A : Type} (cfg : Cfg S A) : Prop :=
  (∀ xs, cfg ≠ .list xs) ∧
  ∀ d, Within cfg (.dict d) → ∀ e ∈ d, e.1 ∉ globalKeys → ∀ xs, e.2 = .list xs →
    e.1 ∈ listKeys ∧ ∀ x ∈ xs, ∃ d, x = .dict d

/-- Configurations in which every parameter is one value for all rows or a column of the data file. -/
def PerRow {S A : Type} (cfg : Cfg S A) : Prop := NoColumnInGlobals cfg ∧ NoListedValues cfg

end OPE.Parse
