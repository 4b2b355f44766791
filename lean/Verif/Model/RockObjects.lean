import Verif.Model.Parse

/-!
# Dry rocks built from objects

As in `Model/Objects.lean`: an instance passed for a dataclass field is kept by reference, an assignment validates
the assigned field only.  A session is the list of the objects made so far: materials, coefficient objects, sandstone
models, depth trends and dry rocks, each referred to by its number.
-/

namespace OPE.Rocks

open Classical

variable {n : ℕ}

/-- The attributes of a material that can be assigned (material.py:119-139, material_type.py:17-24). -/
inductive Attr where
  | bulk | shear | density | vp | vs

/-- `material.attr = x`: nothing else changes (`set_defaults` is run at construction only, material_type.py:26-27). -/
def Attr.set (x : Col n) (m : Mat n) : Attr → Mat n
  | .bulk => { m with bulk := x }
  | .shear => { m with shear := x }
  | .density => { m with density := x }
  | .vp => { m with vp := x }
  | .vs => { m with vs := x }

/-- coefficients.py:14-61: a `ModuliCoefficients` or `VelocityCoefficients` object. -/
structure CoeffObj where
  useModuli : Bool
  values : Coef3 (Option Coeffs)

/-- The three coefficient matrices. -/
inductive Which where
  | density | primary | secondary

/-- `coefficients.density = x` etc. -/
def Which.set (x : Option Coeffs) (a : Coef3 (Option Coeffs)) : Which → Coef3 (Option Coeffs)
  | .density => { a with density := x }
  | .primary => { a with primary := x }
  | .secondary => { a with secondary := x }

/-- One of the three coefficient matrices. -/
def Which.get (a : Coef3 (Option Coeffs)) : Which → Option Coeffs
  | .density => a.density
  | .primary => a.primary
  | .secondary => a.secondary

/-- dry_rock.py:116-133: the coefficients that are `None` are assigned their default. -/
def CoeffObj.fill (o : CoeffObj) : CoeffObj :=
  ⟨o.useModuli,
   ⟨some (o.values.density.getD defaultDensity),
    some (o.values.primary.getD (if o.useModuli then rowCoeffs 2900 (-1300) else rowCoeffs 20 (-40))),
    some (o.values.secondary.getD (if o.useModuli then rowCoeffs 1700 (-800) else rowCoeffs 12 (-20)))⟩⟩

/-- dry_rock.py:27-31 `DEFAULT_COEFFICIENTS` as an object: the dictionary is validated, which makes a new object with
copies of the arrays (vector_type.py:26), so the module's dictionary is never shared. -/
def defaultCoeffs : CoeffObj := ⟨true, ⟨some defaultDensity, some (rowCoeffs 2900 (-1300)), some (rowCoeffs 1700 (-800))⟩⟩

/-- model.py:184-334: a sandstone model object; coefficients and cement are references.  The parameters of friable
sand and the other parameters of patchy cement are values (assignments to them are not modelled). -/
inductive ModelObj (n : ℕ) where
  | polyfit (coefficients : Option ℕ)
  | friable (f : FriableModel n)
  | patchy (cement : ℕ) (criticalPorosity cementFraction lowerBoundPressure upperBoundCementFraction
      coordinationNumber shearReduction : Col n)

/-- depth_trend.py:17-34: a depth trend object (`max_depth` has no effect). -/
structure TrendObj (n : ℕ) where
  depth : Col n
  coefficients : ℕ
  referenceDepth : Option (Col n)

/-- An adjustment of a dry rock: a depth trend object, or a pressure dependency (given by value). -/
inductive AdjObj (n : ℕ) where
  | trend (k : ℕ)
  | pressure (m : PDModel n)

/-- dry_rock.py:34-55: a dry rock object. -/
structure RockObj (n : ℕ) where
  model : ℕ
  porosity : Col n
  adjustments : List (AdjObj n)

/-- The objects of a session. -/
structure Session (n : ℕ) where
  materials : List (Mat n)
  coefficients : List CoeffObj
  models : List (ModelObj n)
  trends : List (TrendObj n)
  rocks : List (RockObj n)

/-- After `import open_petro_elastic`: the module's `DEFAULT_CEMENT` (model.py:255-258) is object 0. -/
noncomputable def Session.start : Session n := ⟨[Parse.defaultCement], [], [], [], []⟩

/-- What a user can do. -/
inductive Op (n : ℕ) where
  /-- `ArbitraryMaterial(density, bulk_modulus, …)` -/
  | material (bulk shear : Option (Col n)) (density : Col n) (vs vp : Option (Col n))
  /-- `ModuliCoefficients(…)`, `VelocityCoefficients(…)` -/
  | coefficients (o : CoeffObj)
  /-- `Polyfit2dModel(coefficients)` -/
  | polyfitModel (coefficients : Option ℕ)
  /-- `FriableSandModel(critical_porosity, shear_reduction, coordination_number)` -/
  | friableModel (criticalPorosity shearReduction : Col n) (coordinationNumber : Option (Col n))
  /-- `PatchyCementModel(cement=…, …)` -/
  | patchyModel (cement : Option ℕ) (criticalPorosity cementFraction lowerBoundPressure
      upperBoundCementFraction : Col n) (coordinationNumber : Option (Col n)) (shearReduction : Col n)
  /-- `DepthTrend(depth, coefficients, reference_depth=…)` -/
  | depthTrend (depth : Col n) (coefficients : ℕ) (referenceDepth : Option (Col n))
  /-- `DryRock(model, porosity, adjustments)` -/
  | dryRock (model : Option ℕ) (porosity : Col n) (adjustments : List (AdjObj n))
  /-- `materials[i].attr = x` -/
  | assignMaterial (i : ℕ) (attr : Attr) (x : Col n)
  /-- `coefficients[i].which = x` -/
  | assignCoefficient (i : ℕ) (which : Which) (x : Option Coeffs)
  /-- `rocks[k].porosity = x` -/
  | assignPorosity (k : ℕ) (x : Col n)

/-- The values of a sandstone model object at this moment. -/
def Session.modelNow (s : Session n) (j : ℕ) : Option (SandModel n) :=
  match s.models[j]? with
  | none => none
  | some (.polyfit none) => some (.polyfit true ⟨none, none, none⟩)
  | some (.polyfit (some i)) => s.coefficients[i]?.map fun o => .polyfit o.useModuli o.values
  | some (.friable f) => some (.friable f)
  | some (.patchy i φc cf plb u N sr) => s.materials[i]?.map fun m => .patchy ⟨m, φc, cf, plb, u, N, sr⟩

/-- dry_rock.py:57-65 (a model without coefficients gets the default ones) and :116-133 (coefficients without some
matrix get the default one), on the objects. -/
def Session.fillModel (s : Session n) (j : ℕ) : Session n :=
  match s.models[j]? with
  | some (.polyfit none) => { s with
      coefficients := s.coefficients ++ [defaultCoeffs]
      models := s.models.set j (.polyfit (some s.coefficients.length)) }
  | some (.polyfit (some i)) => { s with coefficients := s.coefficients.modify i CoeffObj.fill }
  | _ => s

/-- An adjustment refers to an object that does not exist. -/
def Session.Misses (s : Session n) (adjustments : List (AdjObj n)) : Prop :=
  ∃ a ∈ adjustments, ∃ k, a = .trend k ∧ s.trends.length ≤ k

/-- One operation: its exception, if any, and the session after it.  References to objects that do not exist cannot
be written in Python; they are an `indexError` here. -/
noncomputable def step (s : Session n) : Op n → Except Err Unit × Session n
  | .material bulk shear density vs vp => match setDefaults bulk shear (some density) vs vp with
    | .error e => (.error e, s)
    | .ok m => (.ok (), { s with materials := s.materials ++ [⟨m.1, m.2.1, density, m.2.2.2.2, m.2.2.2.1⟩] })
  | .coefficients o => (.ok (), { s with coefficients := s.coefficients ++ [o] })
  | .polyfitModel none => (.ok (), { s with models := s.models ++ [.polyfit none] })
  | .polyfitModel (some i) => if s.coefficients.length ≤ i then (.error .indexError, s) else
      (.ok (), { s with models := s.models ++ [.polyfit (some i)] })
  | .friableModel φc sr N => (.ok (), { s with models := s.models ++ [.friable (mkFriableModel φc sr N)] })
  | .patchyModel cement φc cf plb u N sr =>
      if s.materials.length ≤ cement.getD 0 then (.error .indexError, s) else       -- model.py:277 `default_factory`
      (.ok (), { s with models := s.models ++
        [.patchy (cement.getD 0) φc cf plb u (N.getD (murphyCoordinationNumber φc)) sr] })   -- model.py:286-290
  | .depthTrend depth i ref => if s.coefficients.length ≤ i then (.error .indexError, s) else
      (.ok (), { s with trends := s.trends ++ [⟨depth, i, ref⟩] })
  | .dryRock none φ adjustments =>                                                   -- dry_rock.py:48-50
      if s.Misses adjustments then (.error .indexError, s) else
      (.ok (), { s with
        coefficients := s.coefficients ++ [defaultCoeffs]
        models := s.models ++ [.polyfit (some s.coefficients.length)]
        rocks := s.rocks ++ [⟨s.models.length, φ, adjustments⟩] })
  | .dryRock (some j) φ adjustments =>
      if s.Misses adjustments then (.error .indexError, s) else
      match s.modelNow j with
      | none => (.error .indexError, s)
      | some v => match mkDryRock v φ [] with                                        -- dry_rock.py:85-114
        | .error e => (.error e, s)
        | .ok _ => (.ok (), { s.fillModel j with rocks := s.rocks ++ [⟨j, φ, adjustments⟩] })
  | .assignMaterial i attr x => if s.materials.length ≤ i then (.error .indexError, s) else
      (.ok (), { s with materials := s.materials.modify i fun m => attr.set x m })
  | .assignCoefficient i which x => if s.coefficients.length ≤ i then (.error .indexError, s) else
      (.ok (), { s with coefficients := s.coefficients.modify i fun o => ⟨o.useModuli, which.set x o.values⟩ })
  | .assignPorosity k x => if s.rocks.length ≤ k then (.error .indexError, s) else
      (.ok (), { s with rocks := s.rocks.modify k fun r => { r with porosity := x } })

/-- A history: the operations one after the other; exceptions are caught by the user. -/
noncomputable def run (s : Session n) : List (Op n) → Session n
  | [] => s
  | op :: ops => run (step s op).2 ops

/-- `trend.adjust_material(material)` (depth_trend.py:44-57, coefficients.py:28-36, 53-61); a coefficient that is
`None` makes numpy raise `TypeError`. -/
noncomputable def Session.adjustByTrend (s : Session n) (k : ℕ) (material : Mat n) : Except Err (Mat n) :=
  match s.trends[k]? with
  | none => .error .indexError
  | some t => match s.coefficients[t.coefficients]? with
    | none => .error .indexError
    | some o => do
      let d ← needCoeffs o.values.density
      let p ← needCoeffs o.values.primary
      let q ← needCoeffs o.values.secondary
      (DepthTrend.mk t.depth t.referenceDepth none o.useModuli ⟨d, p, q⟩).adjustMaterial material

/-- dry_rock.py:142-145 `adjust_material` on objects. -/
noncomputable def Session.adjustAll (s : Session n) (pressure : Pressure n) (porosity : Col n) (mineral : Mat n) :
    List (AdjObj n) → Mat n → Except Err (Mat n)
  | [], m => .ok m
  | .trend k :: as, m => do
    let m ← s.adjustByTrend k m
    s.adjustAll pressure porosity mineral as m
  | .pressure q :: as, m => do
    let m ← pressureDependency q m pressure porosity mineral
    s.adjustAll pressure porosity mineral as m

/-- dry_rock.py:147-155: `rocks[k].material(mineral, pressure)` with the values of the objects at this moment. -/
noncomputable def Session.rockMaterial (s : Session n) (k : ℕ) (mineral : Mat n) (pressure : Pressure n) :
    Except Err (Mat n) :=
  match s.rocks[k]? with
  | none => .error .indexError
  | some r => match s.modelNow r.model with
    | none => .error .indexError
    | some v => do
      let p ← pressure.truncatedRock
      let m ← v.evalMaterial p r.porosity mineral
      s.adjustAll pressure r.porosity mineral r.adjustments m

end OPE.Rocks
