import Verif.Spec.ParseRows

/-!
# Specification: columns written as lists (C141)
-/

namespace OPE.Parse

variable {n : ℕ}

/-- An entry of a data file as it is written in YAML. -/
def Cell.yaml {A : Type} : Cell → Cfg Scalar A
  | .num x => .scalar (.num x)
  | .text s => .str s

/-- The keys whose values are sections or lists of sections, not parameters. -/
def nestedKeys : List String :=
  ["minerals", "fluids", "dry_rock", "pressure", "constituents", "material", "model", "cement", "adjustments"]

/-- `y'` is `y` with some (or no) references to columns of the data file replaced by the list of the entries of
that column.  The references replaced are values of parameters written by name: `place` is the key `y` is the
value of (`none` for the whole configuration, or an entry of a list).  Global parameters, and the names of
columns, are the same. -/
inductive Listed (rows : Fin n → DataRow) : (place : Option String) → Yaml → Yaml → Prop
  | same (place : Option String) (y : Yaml) : Listed rows place y y
  | column (key : String) (hkey : key ∉ "column" :: globalKeys ++ nestedKeys)
      (name : String) (x : Fin n → Cell) (h : ∀ i, rows i name = some (x i)) :
      Listed rows (some key) (.dict [("column", .str name)]) (.list (List.ofFn fun i => (x i).yaml))
  | list (key : String) (hkey : key ∈ listKeys) (xs ys : List Yaml) (hlen : xs.length = ys.length)
      (h : ∀ (i : ℕ) x y, xs[i]? = some x → ys[i]? = some y → Listed rows none x y) :
      Listed rows (some key) (.list xs) (.list ys)
  | dict (place : Option String) (hplace : ∀ key, place = some key → key ∉ "column" :: globalKeys)
      (xs ys : List (String × Yaml)) (hkeys : xs.map Prod.fst = ys.map Prod.fst)
      (h : ∀ (i : ℕ) x y, xs[i]? = some x → ys[i]? = some y → Listed rows (some x.1) x.2 y.2) :
      Listed rows place (.dict xs) (.dict ys)

end OPE.Parse
