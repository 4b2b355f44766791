import Verif.Model.Main

/-!
# `__main__.py`: the command line and the files it names

Argument strings are taken as already split into options and values (`argparse` accepts them in any order,
interleaved with the positional argument, and processes them from left to right).  A file argument is opened as
soon as it is processed (`argparse.FileType`), for writing that means emptied or created; it is read or written
when the run comes to it.

Simplifications: the argument `-` (standard input and output) is not modelled; a calibration file that is also
the output file is read as if the table had not been flushed to it.
-/

namespace OPE.Cli

open Classical OPE.Main

abbrev Path := String

/-- The files and directories the program sees. -/
structure Disk where
  file : Path → Option String
  dir : Path → Bool

/-- The disk with the contents of one file replaced. -/
def Disk.put (d : Disk) (p : Path) (s : String) : Disk :=
  { d with file := fun q => if q = p then some s else d.file q }

/-- Everything outside `__main__.py` that a run of the program depends on. -/
structure System (K D I : Type) where
  /-- `yaml.safe_load`; `none` for a document that is not a dictionary -/
  yaml : String → Except PyExc (Option K)
  /-- `pd.read_csv` of a data file -/
  csv : String → Except PyExc (List D)
  /-- `pd.read_csv` of a calibration file -/
  calibrationCsv : String → Except PyExc Calibration
  parse : K → Option (List (ℕ × D)) → Except PyExc I
  calculate : I → Except PyExc Table
  fl : ℝ → ℝ
  /-- the text `to_csv` writes -/
  render : Table → String
  /-- what arrives in the file of a text that is written, and whether writing raised no exception -/
  store : String → String × Bool
  readable : Path → Bool
  writable : Path → Bool
  toFloat : ToFloat
  /-- the packaged tutorial: names and contents of its files -/
  package : List (String × String)

variable {K D I : Type}

/-- One command line argument (__main__.py:298-338). -/
inductive Arg where
  | config (p : Path)
  | dataFile (p : Path)
  | calibration (p : Path)
  | output (p : Path)
  | threshold (s : String)
  | version
  | tutorial (dir : Path)

/-- The namespace `argparse` fills; `extra`: there was a second positional argument. -/
structure Options where
  config : Option Path := none
  dataFile : Option Path := none
  calibration : Option Path := none
  output : Option Path := none
  threshold : Option ℝ := none
  extra : Bool := false

/-- `argparse.FileType("r")`. -/
def canOpen (sys : System K D I) (d : Disk) (p : Path) : Bool := (d.file p).isSome && sys.readable p

/-- `argparse.FileType("w")` can open it. -/
def canCreate (sys : System K D I) (d : Disk) (p : Path) : Bool := !d.dir p && sys.writable p

/-- The files of the tutorial copied into a directory. -/
def copyInto (dir : Path) : List (String × String) → Disk → Disk
  | [], d => d
  | (name, text) :: fs, d => copyInto dir fs (d.put (dir ++ "/" ++ name) text)

/-- __main__.py:265-268 `generate_tutorial`: `shutil.copytree` raises `FileExistsError` if the directory (or a
file of that name) exists. -/
def generateTutorial (sys : System K D I) (dir : Path) (d : Disk) : Option Disk :=
  if d.dir dir || (d.file dir).isSome || !sys.writable dir then none
  else some (copyInto dir sys.package { d with dir := fun q => q = dir || d.dir q })

/-- One argument: the namespace and the disk after it, or an exit code and the disk at that moment.  A file that
cannot be opened and an invalid threshold are argument errors, exit code 2; `--version` (:323-325) exits with 0;
`--generate-tutorial` (:271-278) exits with 0 or −4. -/
noncomputable def step (sys : System K D I) (o : Options) (d : Disk) : Arg → Except (ℤ × Disk) (Options × Disk)
  | .config p =>
    if o.config.isSome then .ok ({ o with extra := true }, d)
    else if canOpen sys d p then .ok ({ o with config := some p }, d) else .error (2, d)
  | .dataFile p => if canOpen sys d p then .ok ({ o with dataFile := some p }, d) else .error (2, d)
  | .calibration p => if canOpen sys d p then .ok ({ o with calibration := some p }, d) else .error (2, d)
  | .output p => if canCreate sys d p then .ok ({ o with output := some p }, d.put p "") else .error (2, d)
  | .threshold s =>
    match percentage sys.toFloat s with
    | some (.fin x) => .ok ({ o with threshold := some x }, d)
    | _ => .error (2, d)
  | .version => .error (0, d)
  | .tutorial dir =>
    match generateTutorial sys dir d with
    | none => .error (-4, d)
    | some d => .error (0, d)

/-- The arguments from left to right. -/
noncomputable def steps (sys : System K D I) : List Arg → Options → Disk → Except (ℤ × Disk) (Options × Disk)
  | [], o, d => .ok (o, d)
  | a :: as, o, d =>
    match step sys o d a with
    | .error e => .error e
    | .ok (o, d) => steps sys as o d

/-- __main__.py:341-343 `parse_arguments`: a missing or a second positional argument is an error. -/
noncomputable def parseArguments (sys : System K D I) (as : List Arg) (d : Disk) :
    Except (ℤ × Disk) (Path × Options × Disk) :=
  match steps sys as {} d with
  | .error e => .error e
  | .ok (o, d) =>
    match o.config with
    | none => .error (2, d)
    | some p => if o.extra then .error (2, d) else .ok (p, o, d)

/-- The contents of a file that was opened. -/
def Disk.text (d : Disk) (p : Path) : String := (d.file p).getD ""

/-- What the run depends on: the contents of the named files after all arguments are processed. -/
def world (sys : System K D I) (config : Path) (o : Options) (d : Disk) : World K D I where
  config := sys.yaml (d.text config)
  data := o.dataFile.map fun p => sys.csv (d.text p)
  parse := sys.parse
  calculate := sys.calculate
  write := fun t => match o.output with
    | none => .ok ()
    | some _ => if (sys.store (sys.render t)).2 then .ok () else .error .other
  calibration := o.calibration.map fun p => sys.calibrationCsv (d.text p)
  threshold := o.threshold
  fl := sys.fl

/-- What the program does: its exit code (or an exception that escapes), the disk afterwards, the tables written
to standard output. -/
structure Effect where
  code : Except PyExc ℤ
  disk : Disk
  stdout : List Table

/-- The tables handed to `to_csv`, on disk. -/
def putTables (sys : System K D I) (p : Path) : List Table → Disk → Disk
  | [], d => d
  | t :: ts, d => putTables sys p ts (d.put p (sys.store (sys.render t)).1)

/-- __main__.py:346-348 `main`. -/
noncomputable def main (sys : System K D I) (as : List Arg) (d : Disk) : Effect :=
  match parseArguments sys as d with
  | .error (code, d) => ⟨.ok code, d, []⟩
  | .ok (config, o, d) =>
    let r := run (world sys config o d)
    match o.output with
    | none => ⟨r.code, d, r.written⟩
    | some p => ⟨r.code, putTables sys p r.written d, []⟩

end OPE.Cli
