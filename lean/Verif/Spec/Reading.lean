import Verif.Model.Parse

/-!
# Specification of how single values of a configuration are read (C152)

Relations between what is written and what it means, without reference to the readers.
-/

namespace OPE.Parse

variable {n : ℕ}

/-- The number a single written value means: a number itself, true and false as 1 and 0, and a text that is a
number to Python.  Nothing else means a number. -/
inductive Means (conv : Conv) : Val n → Num → Prop
  | number (x : Num) : Means conv (.scalar (.num x)) x
  | true : Means conv (.scalar (.bool Bool.true)) (.fin 1)
  | false : Means conv (.scalar (.bool Bool.false)) (.fin 0)
  | text {s : String} {x : Num} (h : conv.floatOf s = some x) : Means conv (.str s) x

/-- The number an entry of the data file means. -/
inductive CellMeans (conv : Conv) : Cell → Num → Prop
  | number (x : Num) : CellMeans conv (.num x) x
  | text {s : String} {x : Num} (h : conv.floatOf s = some x) : CellMeans conv (.text s) x

/-- The number an entry of a written list means: null is a missing value. -/
inductive EntryMeans (conv : Conv) : Val n → Num → Prop
  | missing : EntryMeans conv (.scalar .null) .nan
  | value {v : Val n} {x : Num} (h : Means conv v x) : EntryMeans conv v x

/-- What a parameter with one value per row takes from what is written: the same number for every row, a
column of the data file, or a list with one entry per row. -/
inductive PerRowMeans (conv : Conv) : Val n → Col n → Prop
  | single {v : Val n} {x : Num} (h : Means conv v x) : PerRowMeans conv v fun _ => x
  | column {cells : Fin n → Cell} {x : Col n} (h : ∀ i, CellMeans conv (cells i) (x i)) :
      PerRowMeans conv (.arr (.col cells)) x
  | list {entries : Fin n → Val n} {x : Col n} (h : ∀ i, EntryMeans conv (entries i) (x i)) :
      PerRowMeans conv (.list (List.ofFn entries)) x

/-- What a parameter that is one number takes: a number, or the only entry of a column. -/
inductive NumberMeans (conv : Conv) : Val n → Num → Prop
  | single {v : Val n} {x : Num} (h : Means conv v x) : NumberMeans conv v x
  | column {cells : Fin n → Cell} {x : Num} (h : n = 1) (hx : ∀ i, CellMeans conv (cells i) x) :
      NumberMeans conv (.arr (.col cells)) x

/-- `z` is the finite number `x` without its decimals. -/
def Truncated (x : Num) (z : ℤ) : Prop := ∃ r : ℝ, x = .fin r ∧ |(z : ℝ)| ≤ |r| ∧ |r - z| < 1

/-- What a parameter that is a whole number takes. -/
inductive WholeMeans (conv : Conv) : Val n → ℤ → Prop
  | number {x : Num} {z : ℤ} (h : Truncated x z) : WholeMeans conv (.scalar (.num x)) z
  | true : WholeMeans conv (.scalar (.bool Bool.true)) 1
  | false : WholeMeans conv (.scalar (.bool Bool.false)) 0
  | text {s : String} {z : ℤ} (h : conv.intOf s = some z) : WholeMeans conv (.str s) z
  | cellNumber {cells : Fin n → Cell} {x : Num} {z : ℤ} (h : n = 1) (hc : ∀ i, cells i = .num x)
      (hx : Truncated x z) : WholeMeans conv (.arr (.col cells)) z
  | cellText {cells : Fin n → Cell} {s : String} {z : ℤ} (h : n = 1) (hc : ∀ i, cells i = .text s)
      (hx : conv.intOf s = some z) : WholeMeans conv (.arr (.col cells)) z

/-- The words for yes and no, whatever the case of their letters. -/
abbrev yesWords : List String := ["1", "on", "t", "true", "y", "yes"]
abbrev noWords : List String := ["0", "off", "f", "false", "n", "no"]

/-- What a parameter that is true or false takes. -/
inductive YesNoMeans : Val n → Bool → Prop
  | bool (b : Bool) : YesNoMeans (.scalar (.bool b)) b
  | one : YesNoMeans (.scalar (.num (.fin 1))) true
  | zero : YesNoMeans (.scalar (.num (.fin 0))) false
  | yes {s : String} (h : s.toLower ∈ yesWords) : YesNoMeans (.str s) true
  | no {s : String} (h : s.toLower ∈ noWords) : YesNoMeans (.str s) false

/-- The mixing methods. -/
inductive MethodMeans : Val n → MixMethod → Prop
  | wood : MethodMeans (.str "wood") .wood
  | brie : MethodMeans (.str "brie") .brie

/-- The fluid models that come with the program. -/
inductive ProviderMeans : Val n → Provider → Prop
  | default : ProviderMeans (.str "default") .default
  | batzleWang : ProviderMeans (.str "batzle_wang") .batzleWang
  | spanWagner : ProviderMeans (.str "span_wagner") .spanWagner

/-- `v` is what numpy makes an array of the shape `s` of: all entries of a list have the same shape. -/
inductive HasShape (conv : Conv) : Val n → List ℕ → Prop
  | missing : HasShape conv (.scalar .null) []
  | single {v : Val n} {x : Num} (h : Means conv v x) : HasShape conv v []
  | column {cells : Fin n → Cell} (h : ∀ i, ∃ x, CellMeans conv (cells i) x) :
      HasShape conv (.arr (.col cells)) [n]
  | columns {cols : List (Fin n → Cell)} (h : ∀ cells ∈ cols, ∀ i, ∃ x, CellMeans conv (cells i) x) :
      HasShape conv (.arr (.cols cols)) [n, cols.length]
  | empty : HasShape conv (.list []) [0]
  | list {vs : List (Val n)} {s : List ℕ} (hne : vs ≠ []) (h : ∀ v ∈ vs, HasShape conv v s) :
      HasShape conv (.list vs) (vs.length :: s)

/-- `v` is a list of these finite numbers, or a column of the data file with them. -/
inductive VectorMeans (conv : Conv) : Val n → List ℝ → Prop
  | list {vs : List (Val n)} {xs : List ℝ} (h : List.Forall₂ (fun v x => Means conv v (.fin x)) vs xs) :
      VectorMeans conv (.list vs) xs
  | column {cells : Fin n → Cell} {x : Fin n → ℝ} (h : ∀ i, CellMeans conv (cells i) (.fin (x i))) :
      VectorMeans conv (.arr (.col cells)) (List.ofFn x)

/-- `v` is the matrix with `r` rows and `k` columns (at least one each) of these finite numbers: a number is a
matrix of one entry, a list of numbers a matrix with one column. -/
inductive MatrixMeans (conv : Conv) : Val n → (r k : ℕ) → (ℕ → ℕ → ℝ) → Prop
  | number {v : Val n} {x : ℝ} (h : Means conv v (.fin x)) : MatrixMeans conv v 1 1 fun _ _ => x
  | vector {v : Val n} {r : ℕ} {a : ℕ → ℝ} (hr : 0 < r) (h : VectorMeans conv v (List.ofFn fun i : Fin r => a i)) :
      MatrixMeans conv v r 1 fun i _ => a i
  | matrix {r k : ℕ} {a : ℕ → ℕ → ℝ} {rows : Fin r → Val n} (hr : 0 < r) (hk : 0 < k)
      (h : ∀ i, VectorMeans conv (rows i) (List.ofFn fun j : Fin k => a i j)) :
      MatrixMeans conv (.list (List.ofFn rows)) r k a

end OPE.Parse
