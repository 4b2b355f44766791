import Verif.Col
import Mathlib.Data.List.Basic

/-!
# config/input.py: column references in a configuration tree
-/

namespace OPE

open Classical

/-- A configuration as `yaml.safe_load` returns it, plus the arrays that column insertion puts in.
`A` is the type of numpy arrays, `S` that of scalars other than strings (numbers, booleans, null,
dates …).  Simplification: dictionary keys are strings. -/
inductive Cfg (S A : Type) where
  | scalar (s : S)
  | str (s : String)
  | arr (a : A)
  | list (xs : List (Cfg S A))
  | dict (xs : List (String × Cfg S A))

variable {S A : Type}

/-- A pandas DataFrame, as far as `dataframe[name].to_numpy()` is concerned: its columns by name
(unique: `read_csv` renames duplicates), and selection of several columns. -/
structure Frame (A : Type) where
  column : String → Option A
  columns : List String → A

/-- The strings of a list of configuration values, if all are strings. -/
def Cfg.strings : List (Cfg S A) → Option (List String)
  | [] => some []
  | .str s :: xs => (Cfg.strings xs).map (s :: ·)
  | _ :: _ => none

/-- `dataframe[key].to_numpy()` for a YAML value `key`: a string selects a column (`KeyError` if
missing), a list of strings several columns, a dictionary is unhashable (`TypeError`), any other scalar
is not a column name (`KeyError`).  Simplification: a list containing non-strings (pandas would
treat a list of booleans as a row mask) is a `KeyError`, an array is a `TypeError`. -/
def Frame.get (t : Frame A) : Cfg S A → Except Err A
  | .str s => match t.column s with
    | some a => .ok a
    | none => .error .keyError
  | .list xs => match Cfg.strings xs with
    | some ss => if ss.all (fun s => (t.column s).isSome) then .ok (t.columns ss) else .error .keyError
    | none => .error .keyError
  | .dict _ => .error .typeError
  | .arr _ => .error .typeError
  | .scalar _ => .error .keyError

/-- input.py:37-42: `KeyError`, `ValueError` and `IndexError` become `ColumnInsertionError`. -/
def wrapColumnError {α : Type} : Except Err α → Except Err α
  | .error .keyError => .error .columnInsertion
  | .error .valueError => .error .columnInsertion
  | .error .indexError => .error .columnInsertion
  | x => x

mutual
/-- input.py:23-46 `insert_from_dataframe`. -/
def insertFrame (t : Frame A) : Cfg S A → Except Err (Cfg S A)
  | .scalar s => .ok (.scalar s)                       -- :32-33
  | .str s => .ok (.str s)
  | .arr a => .ok (.arr a)
  | .list xs => do                                     -- :34-35
    let ys ← insertFrameList t xs
    .ok (.list ys)
  | .dict [(k, v)] =>                                  -- :36-42
    if k = "column" then (wrapColumnError (t.get v)) >>= fun a => .ok (.arr a)
    else do
      let w ← insertFrame t v
      .ok (.dict [(k, w)])
  | .dict xs => do                                     -- :43-46
    let ys ← insertFrameDict t xs
    .ok (.dict ys)
/-- The list comprehension :35. -/
def insertFrameList (t : Frame A) : List (Cfg S A) → Except Err (List (Cfg S A))
  | [] => .ok []
  | x :: xs => do
    let y ← insertFrame t x
    let ys ← insertFrameList t xs
    .ok (y :: ys)
/-- The loop :44-45. -/
def insertFrameDict (t : Frame A) : List (String × Cfg S A) → Except Err (List (String × Cfg S A))
  | [] => .ok []
  | (k, x) :: xs => do
    let y ← insertFrame t x
    let ys ← insertFrameDict t xs
    .ok ((k, y) :: ys)
end

mutual
/-- input.py:64-78 `check_no_column_reference`. -/
def checkNoReference : Cfg S A → Except Err Unit
  | .list xs => checkNoReferenceList xs
  | .dict [(k, v)] => if k = "column" then .error .columnInsertion else checkNoReference v
  | .dict xs => checkNoReferenceDict xs
  | _ => .ok ()
/-- The loop :66-67. -/
def checkNoReferenceList : List (Cfg S A) → Except Err Unit
  | [] => .ok ()
  | x :: xs => do
    checkNoReference x
    checkNoReferenceList xs
/-- The loop :77-78. -/
def checkNoReferenceDict : List (String × Cfg S A) → Except Err Unit
  | [] => .ok ()
  | (_, x) :: xs => do
    checkNoReference x
    checkNoReferenceDict xs
end

/-- input.py:56-62 `Input.insert_dataframe`. -/
def insertDataframe (data : Option (Frame A)) (values : Cfg S A) : Except Err (Cfg S A) :=
  match data with
  | some t => insertFrame t values
  | none => do
    checkNoReference values
    .ok values

end OPE
