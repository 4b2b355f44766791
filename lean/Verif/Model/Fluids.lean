import Verif.Model.BatzleWang
import Verif.Model.Minerals
import Mathlib.Data.List.Sort

/-!
# config/fluids.py, config/fluid_model_providers.py, config/material_type.py (fluid types)
-/

namespace OPE

open Classical

variable {n : ℕ}

/-- Names of the fluid model providers (pyproject.toml:69-71, fluid_model_providers.py:83-90;
third-party plug-ins are not modelled). -/
inductive Provider where
  | default
  | batzleWang
  | spanWagner
  deriving DecidableEq

/-- material_type.py:17-128: the material types a constituent can have, with their parameters. -/
inductive FluidKind (n : ℕ) where
  | material (m : Mat n)
  | oil (referenceDensity gasOilRatio gasGravity : Col n)
  | gas (gasGravity : Col n)
  | brine (salinity : Col n)
  | condensate (oilReferenceDensity gasOilRatio gasGravity : Col n)
  | carbonDioxide (interpolateDensity : Bool)

/-- The field `type` (material_type.py:24, 38, 58, 72, 88, 107). -/
def FluidKind.type : FluidKind n → String
  | .material _ => "material"
  | .oil _ _ _ => "oil"
  | .gas _ => "gas"
  | .brine _ => "brine"
  | .condensate _ _ _ => "condensate"
  | .carbonDioxide _ => "carbon_dioxide"

/-- `span_wagner.carbon_dioxide` as a function of absolute temperature, pressure (MPa) and the
interpolation flag.  It is a parameter of the fluid mixing model. -/
abbrev CO2Model (n : ℕ) := Col n → Col n → Bool → Except Err (Mat n)

/-- A call that sees the fluid-pressure array and may overwrite it in place: result and array
afterwards. -/
abbrev Effect (n : ℕ) (α : Type) := Except Err α × Col n

/-- fluid_model_providers.py:10-61 (methods of the two providers) with material_type.py:29-128
(`as_material`).  `pressure /= 1e6` (:54) overwrites the caller's array.
The default provider is the batzle_wang provider (:90). -/
noncomputable def FluidKind.asMaterial (co2 : CO2Model n) (provider : Provider)
    (temperature pressure : Col n) : FluidKind n → Effect n (Mat n)
  | .material m => (.ok m, pressure)                                          -- material_type.py:29-30
  | .oil r g G => match provider with
    | .spanWagner => (.error .notImplemented, pressure)                       -- :36-37
    | _ => (vectorizeMaterial fun i => OPE.oil (temperature i) (pressure i) (r i) (g i) (G i), pressure)
  | .gas G => match provider with
    | .spanWagner => (.error .notImplemented, pressure)                       -- :39-40
    | _ => (vectorizeMaterial fun i => OPE.gas (temperature.row i) (pressure.row i) (G.row i), pressure)
  | .brine s => match provider with
    | .spanWagner => (.error .notImplemented, pressure)                       -- :42-45
    | _ => (vectorizeMaterial fun i => OPE.brine (temperature.row i) (pressure.row i) (s.row i), pressure)
  | .condensate _ _ _ => (.error .notImplemented, pressure)                   -- :22-27, 47-50
  | .carbonDioxide interp => match provider with
    | .spanWagner =>                                                          -- :52-61
      let kelvin : Col n := fun i => celsiusToKelvin (temperature i)
      let mpa : Col n := fun i => pressure i / Num.fin 1e6
      (co2 kelvin mpa interp, mpa)
    | _ => (.error .notImplemented, pressure)                                 -- :29-32

/-- A constituent as configured (constituent.py:20-32). -/
structure FluidSpec (n : ℕ) where
  kind : FluidKind n
  model : Option Provider
  fraction : Option (Col n)

/-- A constituent of an accepted section: its fraction is known. -/
structure FluidConst (n : ℕ) where
  kind : FluidKind n
  model : Option Provider
  fraction : Col n

inductive MixMethod where
  | wood
  | brie
  deriving DecidableEq

/-- An accepted `fluids` section (fluids.py:36-61). -/
structure Fluids (n : ℕ) where
  temperature : Col n
  constituents : List (FluidConst n)
  method : MixMethod
  brieConstant : Num
  brieGases : List ℤ
  model : Provider

/-- Indices of the constituents of type gas or carbon dioxide (fluids.py:65-70). -/
def defaultBrieGases (cs : List (FluidSpec n)) : List ℤ :=
  (cs.zipIdx.filter fun x => x.1.kind.type = "carbon_dioxide" ∨ x.1.kind.type = "gas").map
    fun x => (x.2 : ℤ)

/-- fluids.py:36-78: construction of a `Fluids` section from its parsed fields. -/
noncomputable def mkFluids (temperature : Col n) (cs : List (FluidSpec n)) (method : MixMethod)
    (brieConstant : Num) (brieGases : Option (List ℤ)) (model : Provider) : Except Err (Fluids n) := do
  cs.forM fun x => match x.fraction with            -- constituent.py:49-57
    | none => (.ok () : Except Err Unit)
    | some f => fractionIsRatio f
  failIf (cs.length < 1) .valueError               -- `conlist(min_items=1)`
  failIf (∃ i, Num.fin (1 + 1e-5) < sumCols (givenFractions (cs.map (·.fraction))) i) .valueError  -- :72-78
  let fs ← fixOneFraction (cs.map (·.fraction))    -- :64
  .ok { temperature, method, brieConstant, model
        constituents := cs.zipWith (fun x f => ⟨x.kind, x.model, f⟩) (givenFractions fs)
        brieGases := brieGases.getD (defaultBrieGases cs) }

/-- constituent.py:34-47 `Constituent.as_material`. -/
noncomputable def FluidConst.asMaterial (co2 : CO2Model n) (section_ : Provider)
    (temperature pressure : Col n) (x : FluidConst n) : Effect n (Mat n) :=
  x.kind.asMaterial co2 (x.model.getD section_) temperature pressure

/-- fluids.py:88-95: the list comprehension, left to right on the same pressure array; the first
exception ends it. -/
noncomputable def materialsOf (co2 : CO2Model n) (section_ : Provider) (temperature : Col n) :
    List (FluidConst n) → Col n → Effect n (List (Mat n))
  | [], p => (.ok [], p)
  | x :: xs, p =>
    match x.asMaterial co2 section_ temperature p with
    | (.error e, p') => (.error e, p')
    | (.ok m, p') =>
      match materialsOf co2 section_ temperature xs p' with
      | (.error e, p'') => (.error e, p'')
      | (.ok ms, p'') => (.ok (m :: ms), p'')

/-- Python's `list.pop(i)`: negative indices count from the end, out of range raises `IndexError`.
Result: the element and the remaining list. -/
def pyPop {α : Type} (l : List α) (i : ℤ) : Except Err (α × List α) :=
  let j : ℤ := if i < 0 then i + l.length else i
  if j < 0 then .error .indexError
  else match l[j.toNat]? with
    | none => .error .indexError
    | some x => .ok (x, l.eraseIdx j.toNat)

/-- `[xs.pop(i) for i in indices]`: the popped elements and the remaining list. -/
def popAll {α : Type} : List ℤ → List α → Except Err (List α × List α)
  | [], l => .ok ([], l)
  | i :: is, l => do
    let (x, l') ← pyPop l i
    let (xs, l'') ← popAll is l'
    .ok (x :: xs, l'')

/-- fluids.py:96-116: mixing of the evaluated materials. -/
noncomputable def Fluids.mix (f : Fluids n) (materials : List (Mat n)) : Except Err (Mat n) :=
  let fractions := f.constituents.map (·.fraction)
  match f.method with
  | .wood => wood materials fractions
  | .brie => do
    let order := f.brieGases.mergeSort (fun a b => decide (b ≤ a))   -- `sorted(…, reverse=True)`
    let (gasMaterials, materials) ← popAll order materials
    let (gasSaturations, fractions) ← popAll order fractions
    brie materials fractions gasMaterials gasSaturations (fun _ => f.brieConstant)

/-- fluids.py:83-116 `as_mixture(pressure)`: the mixture and the content of `pressure.fluid` afterwards. -/
noncomputable def Fluids.asMixture (co2 : CO2Model n) (f : Fluids n) (pressure : Col n) :
    Effect n (Mat n) :=
  match materialsOf co2 f.model f.temperature f.constituents pressure with
  | (.error e, p) => (.error e, p)
  | (.ok ms, p) => (f.mix ms, p)

end OPE
