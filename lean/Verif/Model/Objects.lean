import Verif.Model.Fluids

/-!
# Sections built from objects (config/__init__.py: "it is possible to construct directly")

A library user builds `Constituent`, `Fluids` and `Minerals` objects and may use the same constituent in several
sections.  pydantic v1 keeps an instance that is passed for a dataclass field as it is
(`_validate_dataclass`: `if isinstance(v, cls): return v`), so sections refer to the user's constituents, and an
assignment to a field runs the validators of that field only
(`_dataclass_validate_assignment_setattr`), no root validator and no `__post_init_post_parse__`.
A session is the list of objects made so far; constituents are referred to by their number in it.
-/

namespace OPE.Objects

open Classical

variable {n : ℕ}

/-- fluids.py:36-61: a `Fluids` object; its constituents are references. -/
structure FluidsObj (n : ℕ) where
  temperature : Col n
  refs : List ℕ
  method : MixMethod
  brieConstant : Num
  brieGases : List ℤ
  model : Provider

/-- The objects of a session. -/
structure Session (n : ℕ) where
  constituents : List (FluidSpec n)
  fluids : List (FluidsObj n)
  minerals : List (List ℕ)

/-- The session before anything is done. -/
def Session.start : Session n := ⟨[], [], []⟩

/-- What a user can do. -/
inductive Op (n : ℕ) where
  /-- `Constituent(material, fraction, fluid_model)` -/
  | constituent (x : FluidSpec n)
  /-- `constituents[i].fraction = f` -/
  | assignFraction (i : ℕ) (f : Option (Col n))
  /-- `Fluids(temperature, [constituents[i] for i in refs], …)` -/
  | newFluids (temperature : Col n) (refs : List ℕ) (method : MixMethod) (brieConstant : Num)
      (brieGases : Option (List ℤ)) (model : Provider)
  /-- `Minerals([constituents[i] for i in refs])` -/
  | newMinerals (refs : List ℕ)
  /-- `fluids[k].constituents = [constituents[i] for i in refs]` -/
  | assignConstituents (k : ℕ) (refs : List ℕ)

/-- The constituents with these numbers. -/
def Session.specs (s : Session n) (refs : List ℕ) : List (FluidSpec n) := refs.filterMap (s.constituents[·]?)

/-- The references are to existing objects. -/
def Session.Knows (s : Session n) (refs : List ℕ) : Prop := ∀ i ∈ refs, i < s.constituents.length

/-- `constituents[i].fraction = f` (without validation). -/
def Session.write (s : Session n) (i : ℕ) (f : Option (Col n)) : Session n :=
  { s with constituents := s.constituents.modify i fun x => { x with fraction := f } }

/-- The omitted fractions of these constituents become `m`. -/
def Session.fill (s : Session n) (refs : List ℕ) (m : Col n) : Session n :=
  { s with constituents := s.constituents.mapIdx fun j x =>
      if j ∈ refs ∧ x.fraction = none then { x with fraction := some m } else x }

/-- constituent.py:70-89 `fix_one_fraction` on objects: only the constituent without a fraction is changed (there
is at most one then), and nothing is changed if an exception is raised (the assignment is the last statement). -/
noncomputable def Session.fix (s : Session n) (refs : List ℕ) : Except Err (Session n) := do
  let fs := (s.specs refs).map (·.fraction)
  let _ ← fixOneFraction fs
  .ok (s.fill refs (c 1 - sumCols (givenFractions fs)))

/-- Validation of a fraction (constituent.py:49-57). -/
noncomputable def checkFraction : Option (Col n) → Except Err Unit
  | none => .ok ()
  | some f => fractionIsRatio f

/-- One operation: its exception, if any, and the session after it.  References to objects that do not exist
cannot be written in Python; they are an `indexError` here. -/
noncomputable def step (s : Session n) : Op n → Except Err Unit × Session n
  | .constituent x => match checkFraction x.fraction with                          -- constituent.py:20-57
    | .error e => (.error e, s)
    | .ok _ => (.ok (), { s with constituents := s.constituents ++ [x] })
  | .assignFraction i f => if s.constituents.length ≤ i then (.error .indexError, s) else
      match checkFraction f with                                                    -- `validate_assignment`
      | .error e => (.error e, s)
      | .ok _ => (.ok (), s.write i f)
  | .newFluids temperature refs method brieConstant brieGases model =>
      if ¬ s.Knows refs then (.error .indexError, s) else
      if refs.length < 1 then (.error .valueError, s) else                          -- fluids.py:48 `conlist`
      if ∃ i, Num.fin (1 + 1e-5) < sumCols (givenFractions ((s.specs refs).map (·.fraction))) i then
        (.error .valueError, s) else                                                -- fluids.py:72-78
      match s.fix refs with                                                         -- fluids.py:64
      | .error e => (.error e, s)
      | .ok s' => (.ok (), { s' with fluids := s'.fluids ++
          [⟨temperature, refs, method, brieConstant, brieGases.getD (defaultBrieGases (s.specs refs)), model⟩] })
  | .newMinerals refs =>
      if ¬ s.Knows refs then (.error .indexError, s) else
      if refs.length < 1 then (.error .valueError, s) else                          -- minerals.py:29 `conlist`
      match s.fix refs with                                                         -- minerals.py:47
      | .error e => (.error e, s)
      | .ok s' =>
        if ¬ ∀ i, isCloseToOne (sumCols (givenFractions ((s'.specs refs).map (·.fraction))) i) then
          (.error .valueError, s')                                                  -- minerals.py:48-49
        else (.ok (), { s' with minerals := s'.minerals ++ [refs] })
  | .assignConstituents k refs =>
      if ¬ s.Knows refs ∨ s.fluids.length ≤ k then (.error .indexError, s) else
      if refs.length < 1 then (.error .valueError, s) else
      if ∃ i, Num.fin (1 + 1e-5) < sumCols (givenFractions ((s.specs refs).map (·.fraction))) i then
        (.error .valueError, s) else
      (.ok (), { s with fluids := s.fluids.modify k fun f => { f with refs } })

/-- A history: the operations one after the other; exceptions are caught by the user. -/
noncomputable def run (s : Session n) : List (Op n) → Session n
  | [] => s
  | op :: ops => run (step s op).2 ops

/-- fluids.py:83-99: what a section passes to the mixing, looked up at the time of the call; a constituent without
fraction makes the mixing raise. -/
noncomputable def Session.fluidsNow (s : Session n) (f : FluidsObj n) : Option (Fluids n) :=
  let cs := s.specs f.refs
  if (cs.map (·.fraction)).count none = 0 then
    some { temperature := f.temperature, method := f.method, brieConstant := f.brieConstant, model := f.model,
           brieGases := f.brieGases
           constituents := cs.zipWith (fun x g => ⟨x.kind, x.model, g⟩) (givenFractions (cs.map (·.fraction))) }
  else none

end OPE.Objects
