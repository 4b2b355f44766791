import Verif.Model.Pipeline

/-!
# `__main__.py`: reading, running, writing, calibrating

Files, YAML, CSV and pydantic parsing enter as arbitrary outcomes (`World`), so every statement about
`run` holds for all of them.
-/

namespace OPE.Main

open Classical

/-- Python exceptions as far as the `except` clauses of `__main__.py` tell them apart. -/
inductive PyExc where
  | yamlError
  | parserError          -- pd.errors.ParserError, a ValueError
  | emptyDataError       -- pd.errors.EmptyDataError, a ValueError
  | columnInsertion      -- input.py:19, an IndexError
  | valueError           -- ValueError and its other subclasses (pydantic's ValidationError, …)
  | keyError
  | indexError
  | inputError           -- __main__.py:84 `InputError(ValueError)`
  | calibrationError     -- __main__.py:154 `CalibrationError(ValueError)`
  | other
  deriving DecidableEq

/-- `isinstance(e, ValueError)`. -/
def PyExc.isValueError : PyExc → Bool
  | .valueError | .parserError | .emptyDataError | .inputError | .calibrationError => true
  | _ => false

/-- One row of the result table (__main__.py:56-65). -/
structure Row where
  ksat : Num
  kmin : Num
  kdry : Num
  mysat : Num
  rsat : Num
  kminFls : Num

/-- A result DataFrame: rows with their index labels. -/
abbrev Table := List (ℕ × Row)

/-- `results[key]`. -/
def Row.get? (r : Row) : String → Option Num
  | "ksat" => some r.ksat
  | "kmin" => some r.kmin
  | "kdry" => some r.kdry
  | "mysat" => some r.mysat
  | "rsat" => some r.rsat
  | "kmin_fls" => some r.kminFls
  | _ => none

/-- The columns of a calibration file (labels 0, 1, … as `read_csv` assigns them). -/
abbrev Calibration := String → Option (List Num)

/-- Everything outside `__main__.py` that a run depends on.  `K` is the type of configurations, `D` of data
rows and `I` of `Input` objects. -/
structure World (K D I : Type) where
  /-- `yaml.safe_load(config_file)`; `none` if the document is not a dictionary -/
  config : Except PyExc (Option K)
  /-- `pd.read_csv(data_file)` if a data file is given -/
  data : Option (Except PyExc (List D))
  /-- `parse_obj_as(Input, config)` with `config["data"]` set to labelled rows or `None` -/
  parse : K → Option (List (ℕ × D)) → Except PyExc I
  /-- `calculate_results` (__main__.py:42-66) -/
  calculate : I → Except PyExc Table
  /-- `results.to_csv(output_file)` -/
  write : Table → Except PyExc Unit
  /-- `pd.read_csv(calibration_file)` if one is given -/
  calibration : Option (Except PyExc Calibration)
  /-- `args.success_threshold` -/
  threshold : Option ℝ
  /-- rounding of one floating point operation (the identity in exact arithmetic) -/
  fl : ℝ → ℝ

/-- Minimum, mean and maximum (__main__.py:32-39). -/
structure Stats where
  min : Num
  mean : Num
  max : Num

/-- What a run does: exit code (or an exception that escapes), tables handed to `to_csv`, calibration
statistics printed. -/
structure Outcome where
  code : Except PyExc ℤ
  written : List Table
  printed : List (String × Stats)

variable {K D I : Type}

/-- __main__.py:88-103 `load_config_from_yaml`. -/
def loadConfig (w : World K D I) : Except PyExc K :=
  match w.config with
  | .error .yamlError => .error .inputError
  | .error e => .error e
  | .ok none => .error .inputError
  | .ok (some k) => .ok k

/-- __main__.py:106-113 `load_data_from_csv`. -/
def loadData (w : World K D I) : Except PyExc (Option (List D)) :=
  match w.data with
  | none => .ok none
  | some (.error .parserError) => .error .inputError
  | some (.error .emptyDataError) => .error .inputError
  | some (.error e) => .error e
  | some (.ok rows) => .ok (some rows)

/-- The rows of a data file with the labels `read_csv` gives them. -/
def labelled (rows : List D) : List (ℕ × D) := rows.zipIdx.map fun x => (x.2, x.1)

/-- The `except` clauses of __main__.py:126-131. -/
def wrapParse {α : Type} : Except PyExc α → Except PyExc α
  | .error .columnInsertion => .error .inputError
  | .error e => if e.isValueError then .error .inputError else .error e
  | x => x

/-- __main__.py:116-131 `make_input`. -/
def makeInput (w : World K D I) : Except PyExc I := do
  let config ← loadConfig w
  let data ← loadData w
  wrapParse (w.parse config (data.map labelled))

/-- The values of one key of the table and of the calibration file at the labels both have, and their
relative error (__main__.py:28-29: `(calculated - calibrated) / calibrated` on pandas Series, aligned by
label; labels that only one side has give NaN, which `min`, `mean` and `max` skip). -/
noncomputable def calibrationErrors (t : Table) (key : String) (calibrated : List Num) : List Num :=
  t.filterMap fun x => (x.2.get? key).bind fun r => calibrated[x.1]?.map fun k => (r - k) / k

/-- pandas drops NaN before taking minimum, mean and maximum. -/
noncomputable def dropNan (l : List Num) : List Num := l.filter fun x => decide (x ≠ Num.nan)

/-- __main__.py:32-39: `np.min`, `np.mean`, `np.max` of a Series. -/
noncomputable def stats (errors : List Num) : Stats :=
  match dropNan errors with
  | [] => ⟨.nan, .nan, .nan⟩
  | x :: xs => ⟨xs.foldl Num.minimum x, (xs.foldl (· + ·) x) / Num.fin (xs.length + 1),
      xs.foldl Num.maximum x⟩

/-- The loop __main__.py:161-165: statistics printed so far, and a `KeyError` at the first key the
calibration file does not have. -/
noncomputable def calibrationLoop (t : Table) (cal : Calibration) :
    List String → List (String × Stats) × Except PyExc Unit
  | [] => ([], .ok ())
  | key :: keys =>
    match cal key with
    | none => ([], .error .keyError)
    | some col =>
      let rest := calibrationLoop t cal keys
      ((key, stats (calibrationErrors t key col)) :: rest.1, rest.2)

/-- The `except` clauses __main__.py:166-173. -/
def wrapCalibration : Except PyExc Unit → Except PyExc Unit
  | .error .parserError | .error .emptyDataError | .error .keyError | .error .indexError
  | .error .columnInsertion => .error .calibrationError
  | x => x

/-- __main__.py:158-173 `run_calibration`. -/
noncomputable def runCalibration (file : Except PyExc Calibration) (t : Table) :
    List (String × Stats) × Except PyExc Unit :=
  match file with
  | .error e => ([], wrapCalibration (.error e))
  | .ok cal =>
    let r := calibrationLoop t cal ["kmin", "kdry", "ksat", "kmin_fls"]
    (r.1, wrapCalibration r.2)

/-- Writing and calibration, the same in both modes (__main__.py:198-219 after `pd.concat`, and :243-262). -/
noncomputable def writeAndCalibrate (w : World K D I) (t : Table) : Outcome :=
  match w.write t with
  | .error _ => ⟨.ok (-1), [t], []⟩
  | .ok () =>
    match w.calibration with
    | none => ⟨.ok 0, [t], []⟩
    | some file =>
      let r := runCalibration file t
      match r.2 with
      | .error .calibrationError => ⟨.ok (-4), [t], r.1⟩
      | .error _ => ⟨.ok (-1), [t], r.1⟩
      | .ok () => ⟨.ok 0, [t], r.1⟩

/-- __main__.py:134-151 `make_per_row_input`: `none` for a row whose input is bad.  With no data file
`None.iterrows()` would raise; the only caller excludes that. -/
def makePerRowInput (w : World K D I) : Except PyExc (List (Option I)) := do
  let config ← loadConfig w
  let data ← loadData w
  match data with
  | none => .error .other
  | some rows => .ok ((labelled rows).map fun x => (w.parse config (some [x])).toOption)

/-- The results of the rows that succeed, in row order (__main__.py:181-191). -/
def rowResults (w : World K D I) (inputs : List (Option I)) : List Table :=
  inputs.filterMap fun inp => inp.bind fun inp => (w.calculate inp).toOption

/-- __main__.py:192-195: the success percentage with `failures` of `total` rows failed. -/
noncomputable def successPercentage (fl : ℝ → ℝ) (failures total : ℕ) : ℝ :=
  if total = 0 then 100 else fl (fl (1 - fl (failures / total)) * 100)

/-- __main__.py:176-219 `run_with_threshold`. -/
noncomputable def runWithThreshold (w : World K D I) (threshold : ℝ) : Outcome :=
  if w.data.isNone then ⟨.ok (-5), [], []⟩
  else match makePerRowInput w with
    | .error e => ⟨.error e, [], []⟩                     -- :180 is outside any `try`
    | .ok inputs =>
      let results := rowResults w inputs
      let failures := inputs.length - results.length
      if successPercentage w.fl failures inputs.length < threshold then ⟨.ok (-5), [], []⟩
      else if results.isEmpty then ⟨.ok (-1), [], []⟩     -- `pd.concat([])` raises ValueError
      else writeAndCalibrate w results.flatten

/-- __main__.py:222-262 `run`. -/
noncomputable def run (w : World K D I) : Outcome :=
  match w.threshold with
  | some t => runWithThreshold w t
  | none =>
    match makeInput w with
    | .error .inputError => ⟨.ok (-2), [], []⟩
    | .error _ => ⟨.ok (-1), [], []⟩
    | .ok inp =>
      match w.calculate inp with
      | .error e => if e.isValueError then ⟨.ok (-3), [], []⟩ else ⟨.ok (-1), [], []⟩
      | .ok t => writeAndCalibrate w t

/-- `float(s)`: a conversion of argument strings to floats; `none` raises `ValueError`/`TypeError`. -/
abbrev ToFloat := String → Option Num

/-- __main__.py:281-288 `percentage`; `none` is `ArgumentTypeError`. -/
noncomputable def percentage (toFloat : ToFloat) (s : String) : Option Num :=
  match toFloat s with
  | none => none
  | some v => if Num.fin 0 ≤ v ∧ v ≤ Num.fin 100 then some v else none

end OPE.Main
