import Verif.Model.Main
import Verif.Spec.RowWise

/-!
# Specification vocabulary for the command line tool (C51–C58)

Stated on the outcomes of the outside world only.
-/

namespace OPE.Main

variable {K D I : Type}

/-- The rows of a data file with their numbers 0, 1, … -/
def numbered (rows : List D) : List (ℕ × D) := (List.range rows.length).zip rows

/-- The data handed to the parser: none without a data file, else the rows numbered 0, 1, …  -/
def HasData (w : World K D I) (d : Option (List (ℕ × D))) : Prop :=
  (w.data = none ∧ d = none) ∨ ∃ rows, w.data = some (.ok rows) ∧ d = some (numbered rows)

/-- Configuration and data are readable and consistent, giving input `inp`. -/
def Reads (w : World K D I) (inp : I) : Prop :=
  ∃ k d, w.config = .ok (some k) ∧ HasData w d ∧ w.parse k d = .ok inp

/-- The input is bad: malformed YAML or no dictionary, malformed or empty data file, a missing column or
inconsistent values. -/
def BadInput (w : World K D I) : Prop :=
  (w.config = .error .yamlError ∨ w.config = .error .inputError ∨ w.config = .ok none) ∨
  (∃ k, w.config = .ok (some k) ∧ ((∃ e, w.data = some (.error e) ∧
    (e = .parserError ∨ e = .emptyDataError ∨ e = .inputError)) ∨
    ∃ d e, HasData w d ∧ w.parse k d = .error e ∧ (e = .columnInsertion ∨ e.isValueError)))

/-- The calibration file can be read and has all four columns. -/
def CalibrationUsable (file : Except PyExc Calibration) : Prop :=
  ∃ cal, file = .ok cal ∧ ∀ key ∈ ["kmin", "kdry", "ksat", "kmin_fls"], ∃ col, cal key = some col

/-- The calibration file is malformed, empty or lacks one of the four columns. -/
def CalibrationBad (file : Except PyExc Calibration) : Prop :=
  (∃ e, file = .error e ∧ (e = .parserError ∨ e = .emptyDataError ∨ e = .keyError ∨ e = .indexError ∨
    e = .columnInsertion ∨ e = .calibrationError)) ∨
  ∃ cal, file = .ok cal ∧ ∃ key ∈ ["kmin", "kdry", "ksat", "kmin_fls"], cal key = none

/-- The table of one data row processed alone, if that succeeds. -/
def rowAlone (w : World K D I) (k : K) (x : ℕ × D) : Option Table :=
  match w.parse k (some [x]) with
  | .error _ => none
  | .ok inp => match w.calculate inp with
    | .error _ => none
    | .ok t => some t

/-- Python's name for an exception of the calculation. -/
def _root_.OPE.Err.toPy : Err → PyExc
  | .valueError => .valueError
  | .columnInsertion => .columnInsertion
  | .keyError => .keyError
  | .indexError => .indexError
  | _ => .other

def liftErr {α : Type} : Except Err α → Except PyExc α
  | .error e => .error e.toPy
  | .ok a => .ok a

/-- Row `i` of a result table. -/
def _root_.OPE.Result.at {n : ℕ} (r : Result n) (i : Fin n) : Row :=
  ⟨r.ksat i, r.kmin i, r.kdry i, r.mysat i, r.rsat i, r.kminFls i⟩

/-- A world in which parsing and calculation are those of the model: the configuration `k` turns data rows
into sections (`reading`), which are then processed by `mkInput` and `calculateResults`.  Without data the
table has one row with label 0. -/
noncomputable def pipeline (co2 : ∀ n, CO2Model n)
    (reading : K → ∀ n, (Fin n → D) → Except Err (Sections n))
    (readingNoData : K → Except Err (Sections 1))
    (w : World K D (Σ n, (Fin n → ℕ) × Input n)) : World K D (Σ n, (Fin n → ℕ) × Input n) :=
  { w with
    parse := fun k d => match d with
      | none => liftErr (readingNoData k >>= mkInput) >>= fun inp => .ok ⟨1, fun _ => 0, inp⟩
      | some l => liftErr (reading k l.length (fun i => (l.get i).2) >>= mkInput) >>= fun inp =>
          .ok ⟨l.length, fun i => (l.get i).1, inp⟩
    calculate := fun x => liftErr (calculateResults (co2 x.1) x.2.2) >>= fun r =>
      .ok (List.ofFn fun i => (x.2.1 i, r.at i)) }

/-- Reading the configuration treats data rows separately (column references select the row's entry). -/
def ReadingRowWise (reading : K → ∀ n, (Fin n → D) → Except Err (Sections n)) (k : K) : Prop :=
  ∀ (n : ℕ) [NeZero n] (rows : Fin n → D),
    RowBy Sections.row (reading k n rows) fun i => reading k 1 fun _ => rows i

end OPE.Main
