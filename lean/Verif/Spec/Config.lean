import Verif.Model.Config

/-!
# Specification vocabulary for configuration trees (C49, C50)

Places in a tree are described by paths; nothing here refers to how insertion is implemented.
-/

namespace OPE.Spec

variable {S A : Type}

/-- The subtree one step down: the `i`-th element of a list or the `i`-th value of a dictionary (whose
key is the `i`-th key). -/
def child : Cfg S A → ℕ → Option (Cfg S A)
  | .dict xs, i => xs[i]?.map Prod.snd
  | .list xs, i => xs[i]?
  | _, _ => none

/-- The subtree at a path. -/
def at? : Cfg S A → List ℕ → Option (Cfg S A)
  | x, [] => some x
  | x, s :: p => (child x s).bind fun y => at? y p

/-- A column reference: a dictionary whose only key is "column". -/
def IsRef (x : Cfg S A) (name : Cfg S A) : Prop := x = .dict [("column", name)]

/-- `x` at path `p` of `root` is a column reference with that name. -/
def RefAt (root : Cfg S A) (p : List ℕ) (name : Cfg S A) : Prop :=
  ∃ x, at? root p = some x ∧ IsRef x name

/-- No proper prefix of `p` is a column reference (`p` is not inside a reference). -/
def Outside (root : Cfg S A) (p : List ℕ) : Prop :=
  ∀ q s r name, p = q ++ s :: r → ¬ RefAt root q name

/-- Two values have the same outermost form: same scalar, string or array, same keys in the same order,
same length. -/
def SameForm : Cfg S A → Cfg S A → Prop
  | .scalar s, .scalar s' => s = s'
  | .str s, .str s' => s = s'
  | .arr a, .arr a' => a = a'
  | .list xs, .list ys => xs.length = ys.length
  | .dict xs, .dict ys => xs.map Prod.fst = ys.map Prod.fst
  | _, _ => False

/-- What the value of a column reference selects from a data table: a string the column of that name, a list of
strings the columns of these names in that order, all of which the table has to have; nothing else selects
anything. -/
inductive Selects (t : Frame A) : Cfg S A → A → Prop
  | one {name : String} {a : A} (h : t.column name = some a) : Selects t (.str name) a
  | several {names : List String} (h : ∀ name ∈ names, t.column name ≠ none) :
    Selects t (.list (names.map .str)) (t.columns names)

/-- The value of a column reference is a name or a list of names. -/
inductive Names : Cfg S A → List String → Prop
  | one (name : String) : Names (.str name) [name]
  | several (names : List String) : Names (.list (names.map .str)) names

end OPE.Spec
