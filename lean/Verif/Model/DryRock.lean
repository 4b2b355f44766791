import Verif.Model.Poly
import Verif.Model.Sandstone

/-!
# config/pressure.py, config/model.py, config/pressure_dependency.py, config/depth_trend.py,
config/dry_rock.py
-/

namespace OPE

open Classical

variable {n : ℕ}

/-! ## config/pressure.py -/

/-- A `Pressure` section (pressure.py:16-22) after construction.  `rock` and `fluid` can still be
`None` when both were given as `None`. -/
structure Pressure (n : ℕ) where
  overburden : Col n
  reference : Col n
  fluid : Option (Col n)
  maxEffective : Option (Col n)
  rock : Option (Col n)

/-- pressure.py:24-34: construction.  The root validator (:30-34) tests whether the *keys* `fluid` and
`rock` are missing; both fields have defaults, so the keys are always there and it never raises.
Each field has its own copy of the array (`validate_assignment` copies). -/
def mkPressure (overburden reference : Col n) (fluid maxEffective rock : Option (Col n)) :
    Except Err (Pressure n) :=
  let rock := match rock with | none => fluid | some r => some r      -- :25-26
  let fluid := match fluid with | none => rock | some f => some f      -- :27-28
  .ok ⟨overburden, reference, fluid, maxEffective, rock⟩

/-- `None` in arithmetic raises `TypeError`. -/
def needCol (x : Option (Col n)) : Except Err (Col n) :=
  match x with
  | none => .error .typeError
  | some x => .ok x

/-- `np.clip(x, None, hi)` if a maximum is given (pressure.py:40-64). -/
noncomputable def truncate (maxEffective : Option (Col n)) (x : Col n) : Col n :=
  match maxEffective with
  | none => x
  | some hi => fun i => Num.minimum (x i) (hi i)

/-- pressure.py:36-38. -/
def Pressure.effectiveFluid (p : Pressure n) : Except Err (Col n) := do
  let f ← needCol p.fluid
  .ok (p.overburden - f)

/-- pressure.py:40-44. -/
noncomputable def Pressure.truncatedFluid (p : Pressure n) : Except Err (Col n) := do
  let e ← p.effectiveFluid
  .ok (truncate p.maxEffective e)

/-- pressure.py:46-48. -/
def Pressure.effectiveReference (p : Pressure n) : Col n := p.overburden - p.reference

/-- pressure.py:50-54. -/
noncomputable def Pressure.truncatedReference (p : Pressure n) : Col n :=
  truncate p.maxEffective p.effectiveReference

/-- pressure.py:56-58. -/
def Pressure.effectiveRock (p : Pressure n) : Except Err (Col n) := do
  let r ← needCol p.rock
  .ok (p.overburden - r)

/-- pressure.py:60-64. -/
noncomputable def Pressure.truncatedRock (p : Pressure n) : Except Err (Col n) := do
  let e ← p.effectiveRock
  .ok (truncate p.maxEffective e)

/-! ## config/model.py -/

/-- `np.polyval(p, x)`: `y = 0; for c in p: y = y*x + c` (highest coefficient first). -/
noncomputable def npPolyval (p : List ℝ) (x : Num) : Num :=
  p.foldl (fun y a => y * x + Num.fin a) (Num.fin 0)

/-- model.py:208-228 `FriableSandModel` after construction (:224-228 fills the coordination number). -/
structure FriableModel (n : ℕ) where
  criticalPorosity : Col n
  shearReduction : Col n
  coordinationNumber : Col n

/-- model.py:224-228 `__post_init_post_parse__`. -/
noncomputable def mkFriableModel (criticalPorosity shearReduction : Col n)
    (coordinationNumber : Option (Col n)) : FriableModel n :=
  ⟨criticalPorosity, shearReduction, coordinationNumber.getD (murphyCoordinationNumber criticalPorosity)⟩

/-- model.py:261-290 `PatchyCementModel` after construction. -/
structure PatchyModel (n : ℕ) where
  cement : Mat n
  criticalPorosity : Col n
  cementFraction : Col n
  lowerBoundPressure : Col n
  upperBoundCementFraction : Col n
  coordinationNumber : Col n
  shearReduction : Col n

/-- model.py:286-290 `__post_init_post_parse__`. -/
noncomputable def mkPatchyModel (cement : Mat n) (criticalPorosity cementFraction lowerBoundPressure
    upperBoundCementFraction : Col n) (coordinationNumber : Option (Col n)) (shearReduction : Col n) :
    PatchyModel n :=
  ⟨cement, criticalPorosity, cementFraction, lowerBoundPressure, upperBoundCementFraction,
    coordinationNumber.getD (murphyCoordinationNumber criticalPorosity), shearReduction⟩

/-- model.py:244-252 `FriableSandModel.eval_material`. -/
noncomputable def FriableModel.evalMaterial (f : FriableModel n) (pressure porosity : Col n)
    (mineral : Mat n) : Except Err (Mat n) :=
  friableSand mineral porosity f.criticalPorosity pressure f.coordinationNumber f.shearReduction

/-- model.py:322-334 `PatchyCementModel.eval_material` with :292-304 (the two porosities).  The
coordination number is passed for the friable part only; the cemented part keeps its default 9. -/
noncomputable def PatchyModel.evalMaterial (f : PatchyModel n) (pressure porosity : Col n)
    (mineral : Mat n) : Except Err (Mat n) :=
  patchyCement mineral f.cement porosity (f.criticalPorosity - f.cementFraction)
    (f.criticalPorosity - f.upperBoundCementFraction) pressure f.lowerBoundPressure f.criticalPorosity
    f.shearReduction f.coordinationNumber (c 9)

/-- model.py:306-313 `PatchyCementModel.nonporous`. -/
noncomputable def PatchyModel.nonporous (f : PatchyModel n) (mineral : Mat n) : Except Err (Mat n) :=
  hsw f.cement mineral f.upperBoundCementFraction "lower"

/-- Three coefficient vectors (`as_list`, coefficients.py:19-52): density, then bulk modulus or primary
velocity, then shear modulus or secondary velocity (or vp/vs).  Simplification: all three are given and,
for polyfit, non-empty and of equal length (otherwise numpy raises). -/
structure Coef3 (α : Type) where
  density : α
  primary : α
  secondary : α

/-- The models of a pressure dependency (model.py:337-344) with their `coefficients`; `useModuli` is
true for moduli coefficients, false for velocity coefficients. -/
inductive PDModel (n : ℕ) where
  | polyfit (useModuli : Bool) (a : Coef3 (List ℝ))
  | expfit (useModuli : Bool) (a : Coef3 (ℝ × ℝ × ℝ))
  | logfit (useModuli : Bool) (a : Coef3 (ℝ × ℝ))
  | powerfit (a : Coef3 (ℝ × ℝ))        -- density, bulk modulus, vp over vs
  | friable (f : FriableModel n)
  | patchy (f : PatchyModel n)

/-- `eval` of a pressure dependency model: density, primary and secondary value per row. -/
abbrev Fit (n : ℕ) := Coef3 (Col n)

/-- model.py:89-99 (polyfit), :112-118 (expfit), :130-136 (logfit), :175-181 (powerfit), :240-242
(friable), :318-320 (patchy): `eval(pressure, porosity, mineral)`. -/
noncomputable def PDModel.eval (m : PDModel n) (pressure porosity : Col n) (mineral : Mat n) :
    Except Err (Fit n) :=
  match m with
  | .polyfit _ a => .ok ⟨fun i => npPolyval a.density (pressure i), fun i => npPolyval a.primary (pressure i),
      fun i => npPolyval a.secondary (pressure i)⟩
  | .expfit _ a =>
    let f : ℝ × ℝ × ℝ → Col n := fun k i =>
      Num.fin k.1 + Num.fin k.2.1 * Num.exp (pressure i / Num.fin k.2.2)
    .ok ⟨f a.density, f a.primary, f a.secondary⟩
  | .logfit _ a =>
    let f : ℝ × ℝ → Col n := fun k i => Num.fin k.1 + Num.fin k.2 * Num.log10 (pressure i)
    .ok ⟨f a.density, f a.primary, f a.secondary⟩
  | .powerfit a =>
    let f : ℝ × ℝ → Col n := fun k i => Num.fin k.1 * Num.pow (pressure i) (Num.fin k.2)
    .ok ⟨f a.density, f a.primary, f a.secondary⟩
  | .friable f => do
    let m ← f.evalMaterial pressure porosity mineral
    .ok ⟨m.density, m.bulk, m.shear⟩
  | .patchy f => do
    let m ← f.evalMaterial pressure porosity mineral
    .ok ⟨m.density, m.bulk, m.shear⟩

/-- `use_moduli()` (model.py:86-87, 109-110, 127-128, 146-147, 237-238, 315-316). -/
def PDModel.useModuli : PDModel n → Bool
  | .polyfit b _ => b
  | .expfit b _ => b
  | .logfit b _ => b
  | _ => true

/-- model.py:31-55 `AbstractPressureDependencyModel.pressure_dependency`. -/
noncomputable def ratioDependency (m : PDModel n) (material : Mat n) (pressure reference porosity : Col n)
    (mineral : Mat n) : Except Err (Mat n) := do
  let ref ← m.eval reference porosity mineral
  let eff ← m.eval pressure porosity mineral
  failIf (∃ i, Num.abs (ref.density i) ≤ Num.fin 1e-20 ∨ Num.abs (ref.primary i) ≤ Num.fin 1e-20 ∨
    Num.abs (ref.secondary i) ≤ Num.fin 1e-20) .valueError
  let density := material.density * (eff.density / ref.density)
  if m.useModuli then
    mkModuli (material.bulk * (eff.primary / ref.primary)) (material.shear * (eff.secondary / ref.secondary)) density
  else
    mkVelocities density (material.vp * (eff.primary / ref.primary)) (material.vs * (eff.secondary / ref.secondary))

/-- model.py:149-168 `PowerfitModel.pressure_dependency`. -/
noncomputable def powerDependency (a : Coef3 (ℝ × ℝ)) (material : Mat n) (pressure reference : Col n) :
    Except Err (Mat n) := do
  let ref ← (PDModel.powerfit a : PDModel n).eval reference (c 0) material   -- porosity, mineral unused
  let eff ← (PDModel.powerfit a : PDModel n).eval pressure (c 0) material
  let vpOverVs : Col n := material.vp / material.vs + (eff.secondary - ref.secondary)
  let bmod : Col n := material.bulk + (eff.primary - ref.primary)
  let reduction : Col n := fun i => Num.powi (vpOverVs i) 2 - Num.fin (4/3)
  failIf (∃ i, reduction i ≤ Num.fin 1e-20) .valueError
  mkModuli bmod (bmod / reduction) (material.density + (eff.density - ref.density))

/-- The method `pressure_dependency` of each model. -/
noncomputable def PDModel.pressureDependency (m : PDModel n) (material : Mat n)
    (pressure reference porosity : Col n) (mineral : Mat n) : Except Err (Mat n) :=
  match m with
  | .powerfit a => powerDependency a material pressure reference
  | m => ratioDependency m material pressure reference porosity mineral

/-! ## config/pressure_dependency.py, config/depth_trend.py -/

/-- pressure_dependency.py:31-48 `PressureDependency.adjust_material` (powerfit uses the plain rock
pressure, the other models the truncated effective rock pressure). -/
noncomputable def pressureDependency (m : PDModel n) (material : Mat n) (pressure : Pressure n)
    (porosity : Col n) (mineral : Mat n) : Except Err (Mat n) := do
  let effective ← pressure.truncatedRock
  let effective ← match m with
    | .powerfit _ => needCol pressure.rock
    | _ => .ok effective
  m.pressureDependency material effective pressure.truncatedReference porosity mineral

/-- depth_trend.py:17-34 `DepthTrend`.  Simplification: all three coefficient matrices are given. -/
structure DepthTrend (n : ℕ) where
  depth : Col n
  referenceDepth : Option (Col n)
  maxDepth : Option (Col n)
  useModuli : Bool
  coefficients : Coef3 Coeffs

/-- depth_trend.py:35-42 `effective_depth`.  The result of `np.clip` (:39) is not assigned, so
`max_depth` has no effect. -/
noncomputable def DepthTrend.effectiveDepth (t : DepthTrend n) : Col n :=
  let result := t.depth
  match t.referenceDepth with
  | none => result
  | some r => result - r

/-- depth_trend.py:44-57 `adjust_material` with coefficients.py:28-36, 53-61 `polyfit`. -/
noncomputable def DepthTrend.adjustMaterial (t : DepthTrend n) (material : Mat n) : Except Err (Mat n) :=
  polyvalMaterial t.effectiveDepth material t.coefficients.density t.coefficients.primary
    t.coefficients.secondary t.useModuli

/-! ## config/dry_rock.py -/

/-- The sandstone models (model.py:346). -/
inductive SandModel (n : ℕ) where
  | polyfit (useModuli : Bool) (a : Coef3 (Option Coeffs))
  | friable (f : FriableModel n)
  | patchy (f : PatchyModel n)

/-- dry_rock.py:53: an adjustment. -/
inductive Adjustment (n : ℕ) where
  | pressureDependency (m : PDModel n)
  | depthTrend (t : DepthTrend n)

/-- dry_rock.py:34-55 `DryRock` after construction. -/
structure DryRock (n : ℕ) where
  model : SandModel n
  porosity : Col n
  adjustments : List (Adjustment n)

/-- A one-row coefficient matrix `[[a, b]]`. -/
def rowCoeffs (a b : ℝ) : Coeffs := ⟨0, 1, ![![a, b]]⟩

/-- dry_rock.py:25 `DEFAULT_DENSITY_COEFFICIENTS = [[0, 0], [1, -1]]`. -/
def defaultDensity : Coeffs := ⟨1, 1, ![![0, 0], ![1, -1]]⟩

/-- dry_rock.py:57-65, 116-133: omitted polynomial coefficients are filled with defaults (:20-25). -/
def SandModel.fillDefaults : SandModel n → SandModel n
  | .polyfit useModuli a => .polyfit useModuli
      ⟨some (a.density.getD defaultDensity),
       some (a.primary.getD (if useModuli then rowCoeffs 2900 (-1300) else rowCoeffs 20 (-40))),
       some (a.secondary.getD (if useModuli then rowCoeffs 1700 (-800) else rowCoeffs 12 (-20)))⟩
  | m => m

/-- dry_rock.py:34-133: construction with its root validators (:85-100 patchy bound, :102-114 critical
porosity) and defaults.  (`warn_if_duplicate_adjustment` only warns.) -/
noncomputable def mkDryRock (model : SandModel n) (porosity : Col n) (adjustments : List (Adjustment n)) :
    Except Err (DryRock n) := do
  match model with
  | .patchy f => do
    failIf (∃ i, (f.criticalPorosity - f.upperBoundCementFraction) i < porosity i - Num.fin 1e-5) .valueError
    failIf (∃ i, f.criticalPorosity i < porosity i + Num.fin 1e-5) .valueError
  | .friable f => failIf (∃ i, f.criticalPorosity i < porosity i + Num.fin 1e-5) .valueError
  | .polyfit _ _ => .ok ()
  .ok ⟨model.fillDefaults, porosity, adjustments⟩

/-- A coefficient matrix that is `None` makes numpy raise `TypeError`. -/
def needCoeffs (x : Option Coeffs) : Except Err Coeffs :=
  match x with
  | none => .error .typeError
  | some x => .ok x

/-- `eval_material(pressure, porosity, mineral)` of the sandstone models (model.py:199-205, 244-252,
322-334). -/
noncomputable def SandModel.evalMaterial (m : SandModel n) (pressure porosity : Col n) (mineral : Mat n) :
    Except Err (Mat n) :=
  match m with
  | .polyfit useModuli a => do
    let d ← needCoeffs a.density
    let p ← needCoeffs a.primary
    let s ← needCoeffs a.secondary
    polyvalMaterial porosity mineral d p s useModuli
  | .friable f => f.evalMaterial pressure porosity mineral
  | .patchy f => f.evalMaterial pressure porosity mineral

/-- `nonporous(mineral)` (model.py:192-197, 230-235, 306-313). -/
noncomputable def SandModel.nonporous (m : SandModel n) (mineral : Mat n) : Except Err (Mat n) :=
  match m with
  | .patchy f => f.nonporous mineral
  | _ => .ok mineral

/-- One adjustment. -/
noncomputable def Adjustment.adjust (a : Adjustment n) (material : Mat n) (pressure : Pressure n)
    (porosity : Col n) (mineral : Mat n) : Except Err (Mat n) :=
  match a with
  | .pressureDependency m => OPE.pressureDependency m material pressure porosity mineral
  | .depthTrend t => t.adjustMaterial material

/-- dry_rock.py:142-145 `adjust_material`: the adjustments in list order. -/
noncomputable def adjustAll (pressure : Pressure n) (porosity : Col n) (mineral : Mat n) :
    List (Adjustment n) → Mat n → Except Err (Mat n)
  | [], m => .ok m
  | a :: as, m => do
    let m ← a.adjust m pressure porosity mineral
    adjustAll pressure porosity mineral as m

/-- dry_rock.py:147-155 `material(mineral, pressure)`. -/
noncomputable def DryRock.material (d : DryRock n) (mineral : Mat n) (pressure : Pressure n) :
    Except Err (Mat n) := do
  let p ← pressure.truncatedRock
  let m ← d.model.evalMaterial p d.porosity mineral
  adjustAll pressure d.porosity mineral d.adjustments m

end OPE
