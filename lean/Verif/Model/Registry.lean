import Verif.Model.Parse

/-!
# The registry of fluid model providers

Model of config/fluid_model_providers.py:64-90 and of the two places where its keys become the values of
`fluid_model` (config/fluids.py:61, config/constituent.py:32).  `P` is the type of provider objects.
What is installed is the list of entry points of group `open_petro_elastic.fluid_model_providers` in the
order `importlib.metadata` yields them; both passes over the group (:64-69 and :84-88) are assumed to see
the same list.  Loading an entry point and calling it gives a provider or raises.
-/

namespace OPE.Registry

/-- An installed entry point: its name and what `entry_point.load()()` does. -/
structure EntryPoint (E P : Type) where
  name : String
  load : Except E P

/-- What importing `open_petro_elastic.config` can raise in this module. -/
inductive ImportFailure (E : Type)
  /-- fluid_model_providers.py:75-80 `ImportError`, with the duplicated names. -/
  | duplicates (names : List String)
  /-- An entry point raised. -/
  | plugin (e : E)
  /-- `KeyError` of fluid_model_providers.py:90 or material_type.py:114. -/
  | missing (name : String)
  deriving DecidableEq

variable {E P : Type}

/-- A Python dict: keys in insertion order, later values replace earlier ones in place. -/
abbrev Dict (P : Type) := List (String × P)

/-- `d[k]`, `none` for `KeyError`. -/
def Dict.get? (d : Dict P) (k : String) : Option P := (d.find? fun x => x.1 == k).map (·.2)

/-- `d[k] = v`. -/
def Dict.set (d : Dict P) (k : String) (v : P) : Dict P :=
  if d.any fun x => x.1 == k then d.map fun x => if x.1 == k then (k, v) else x else d ++ [(k, v)]

/-- fluid_model_providers.py:71-73: `Counter` keeps first-occurrence order. -/
def duplicateNames (names : List String) : List String :=
  names.reverse.dedup.reverse.filter fun s => 1 < names.count s

/-- fluid_model_providers.py:83-88: the dict comprehension. -/
def build (es : List (EntryPoint E P)) : Except (ImportFailure E) (Dict P) :=
  es.foldlM (fun d e => match e.load with
    | .ok p => .ok (Dict.set d e.name p)
    | .error x => .error (.plugin x)) []

/-- fluid_model_providers.py:64-90, followed by the lookup of `span_wagner` in material_type.py:114. -/
def importProviders (es : List (EntryPoint E P)) : Except (ImportFailure E) (Dict P) :=
  let duplicates := duplicateNames (es.map (·.name))
  if duplicates ≠ [] then .error (.duplicates duplicates) else
  match build es with
  | .error e => .error e
  | .ok d =>
    match d.get? "batzle_wang" with
    | none => .error (.missing "batzle_wang")
    | some p =>
      let d := d.set "default" p
      match d.get? "span_wagner" with
      | none => .error (.missing "span_wagner")
      | some _ => .ok d

/-- config/fluids.py:61, config/constituent.py:32: `Literal[tuple(fluid_model_providers.keys())]`, and
fluids.py:87 / constituent.py:43 `fluid_model_providers[self.fluid_model]`.  A value that is not one of
the keys is refused. -/
def select {n : ℕ} (d : Dict P) : Parse.Val n → Except Err P
  | .str s => if s ∈ d.map (·.1) then
      match d.get? s with
      | some p => .ok p
      | none => .error .keyError
    else Parse.reject
  | _ => Parse.reject

/-- pyproject.toml:69-71: the entry points of open_petro_elastic itself. -/
def bundled : List (EntryPoint E Provider) :=
  [⟨"batzle_wang", .ok .batzleWang⟩, ⟨"span_wagner", .ok .spanWagner⟩]

end OPE.Registry
