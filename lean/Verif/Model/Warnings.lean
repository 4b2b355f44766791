import Verif.Model.Pipeline

/-!
# Warnings (`warnings.warn`) of the package

material/batzle_wang/oil_properties.py:458-465, water_properties.py:69-75, config/dry_rock.py:67-83 and
__main__.py:23-25,347.  Not modelled: warnings raised inside numpy and scipy (overflow, invalid value), and warning
filters other than Python's default one.
-/

namespace OPE

open Classical

variable {n : ℕ}

/-- The texts the package warns with; the water text carries the pressure in MPa. -/
inductive Warning where
  | bubblePoint
  | waterPressure (mpa : Num)
  | pressureDependencies
  | depthTrends

/-- oil_properties.py:458-465, in a call for one row (fluid_model_providers.py:11-14). -/
noncomputable def oilWarnings (temperature pressure ref gor gravity : Num) : List Warning :=
  if pressure < oilBubblePoint ref gor gravity temperature then [.bubblePoint] else []

/-- water_properties.py:69-75, called for one row by brine_primary_velocity (brine_properties.py:152, 166-168). -/
noncomputable def brineWarnings (pressure : Num) : List Warning :=
  let mpa := pressure * Num.fin 1e-6
  if Num.fin 100 < mpa then [.waterPressure mpa] else []

/-- `np.vectorize` calls row after row and ends with the first exception: the rows that are called. -/
def rowsCalled {α : Type} (f : Fin n → Except Err α) : List (Fin n) → List (Fin n)
  | [] => []
  | i :: is => i :: match f i with
    | .ok _ => rowsCalled f is
    | .error _ => []

/-- Warnings of `Constituent.as_material` (fluid_model_providers.py:10-61): only oil and brine of the batzle_wang
provider warn. -/
noncomputable def FluidKind.warnings (provider : Provider) (temperature pressure : Col n) : FluidKind n → List Warning
  | .oil r g G => match provider with
    | .spanWagner => []
    | _ => (rowsCalled (fun i => OPE.oil (temperature i) (pressure i) (r i) (g i) (G i)) (List.finRange n)).flatMap
        fun i => oilWarnings (temperature i) (pressure i) (r i) (g i) (G i)
  | .brine s => match provider with
    | .spanWagner => []
    | _ => (rowsCalled (fun i => OPE.brine (temperature.row i) (pressure.row i) (s.row i)) (List.finRange n)).flatMap
        fun i => brineWarnings (pressure i)
  | _ => []

/-- fluids.py:88-95: constituent after constituent until the first exception, on the pressure array as the earlier
ones leave it. -/
noncomputable def fluidWarnings (co2 : CO2Model n) (section_ : Provider) (temperature : Col n) :
    List (FluidConst n) → Col n → List Warning
  | [], _ => []
  | x :: xs, p =>
    x.kind.warnings (x.model.getD section_) temperature p ++
      match x.asMaterial co2 section_ temperature p with
      | (.error _, _) => []
      | (.ok _, p') => fluidWarnings co2 section_ temperature xs p'

/-- dry_rock.py:67-83. -/
noncomputable def adjustmentWarnings (adjustments : List (Adjustment n)) : List Warning :=
  let pressure := adjustments.countP fun | .pressureDependency _ => true | .depthTrend _ => false
  let depth := adjustments.countP fun | .pressureDependency _ => false | .depthTrend _ => true
  (if pressure > 1 then [.pressureDependencies] else []) ++ (if depth > 1 then [.depthTrends] else [])

/-- Everything warned about from the sections to the table (input.py, __main__.py:42-66), in order.  The validator of
dry_rock.py:67 runs whatever becomes of the other sections. -/
noncomputable def warningsOf (co2 : CO2Model n) (s : Sections n) : List Warning :=
  adjustmentWarnings s.adjustments ++
    match mkInput s with
    | .error _ => []
    | .ok inp => match mineralMixture inp.minerals with
      | .error _ => []
      | .ok _ => match inp.pressure.fluid with
        | none => []
        | some p => fluidWarnings co2 inp.fluids.model inp.fluids.temperature inp.fluids.constituents p

/-- __main__.py:23-25,347 under Python's default filter: every text is printed at its first occurrence only. -/
noncomputable def warningsShown (co2 : CO2Model n) (s : Sections n) : List Warning :=
  (warningsOf co2 s).reverse.dedup.reverse

end OPE
