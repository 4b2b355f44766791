import Verif.Model.DryRock

/-!
# Single values next to columns

The rest of the model treats a value that is given once as the constant column (numpy broadcasting).
Three places of the code depend on the *shape* of a value, not only on its entries:

* `patchy_cement.py:99-108` indexes 0-dimensional arrays with a row mask,
* `model.py:240-242, 318-320` stacks three values with `np.transpose([…])`, which needs equal shapes,
* `depth_trend.py:41` subtracts in place (`result -= reference_depth`).

This file models the dry rock with shapes: a `Val n` is a numpy value together with the fact whether it
is a column of `n` rows or a single value (0-dimensional).  Arithmetic gives a column iff one operand is
one.  The definitions repeat those of `Sandstone.lean` and `DryRock.lean` over `Val`.
-/

namespace OPE.Shapes

open OPE Classical

variable {n : ℕ}

/-- A numpy value: `isCol` tells a column of `n` rows from a single value; `val` is its broadcast. -/
structure Val (n : ℕ) where
  isCol : Bool
  val : Col n

/-- A Python number in the source. -/
def lit (x : ℝ) : Val n := ⟨false, c x⟩

/-- A column. -/
def column (x : Col n) : Val n := ⟨true, x⟩

/-- A single number. -/
def single (x : ℝ) : Val n := ⟨false, c x⟩

instance : Add (Val n) := ⟨fun x y => ⟨x.isCol || y.isCol, x.val + y.val⟩⟩
instance : Sub (Val n) := ⟨fun x y => ⟨x.isCol || y.isCol, x.val - y.val⟩⟩
noncomputable instance : Mul (Val n) := ⟨fun x y => ⟨x.isCol || y.isCol, x.val * y.val⟩⟩
noncomputable instance : Div (Val n) := ⟨fun x y => ⟨x.isCol || y.isCol, x.val / y.val⟩⟩

/-- `x ** y`. -/
noncomputable def Val.pow (x y : Val n) : Val n := ⟨x.isCol || y.isCol, Col.pow x.val y.val⟩

/-- `x ** 2`. -/
noncomputable def Val.sq (x : Val n) : Val n := ⟨x.isCol, x.val.sq⟩

/-- A material whose five properties have shapes (material.py:104-112). -/
structure SMat (n : ℕ) where
  bulk : Val n
  shear : Val n
  density : Val n
  vp : Val n
  vs : Val n

/-- The material with every single value broadcast. -/
def SMat.toMat (m : SMat n) : Mat n := ⟨m.bulk.val, m.shear.val, m.density.val, m.vp.val, m.vs.val⟩

/-- `Material(bulk_modulus=…, shear_modulus=…, density=…)` (material.py:114-180): moduli and density keep
their shapes, the velocities are computed from them. -/
noncomputable def mkModuliS (bulk shear density : Val n) : Except Err (SMat n) := do
  let m ← mkModuli bulk.val shear.val density.val
  .ok ⟨bulk, shear, density, ⟨bulk.isCol || shear.isCol || density.isCol, m.vp⟩,
    ⟨shear.isCol || density.isCol, m.vs⟩⟩

/-- `Material(density=…, primary_velocity=…, secondary_velocity=…)` (material.py:114-180). -/
noncomputable def mkVelocitiesS (density vp vs : Val n) : Except Err (SMat n) := do
  let m ← mkVelocities density.val vp.val vs.val
  .ok ⟨⟨vp.isCol || vs.isCol || density.isCol, m.bulk⟩, ⟨vs.isCol || density.isCol, m.shear⟩, density,
    vp, vs⟩

/-- material.py:182-192 `poisson_ratio`. -/
noncomputable def SMat.poisson (m : SMat n) : Val n :=
  (lit 3 * m.bulk - lit 2 * m.shear) / (lit 2 * (lit 3 * m.bulk + m.shear))

/-- material.py:195-203 `primary_wave_modulus`. -/
noncomputable def SMat.pModulus (m : SMat n) : Val n := m.bulk + lit (4/3) * m.shear

/-- hashin_shtrikman.py:130-200 `hashin_shtrikman_walpole` with bound "lower".  `np.vectorize` gives a
column iff one argument of the kernel is a column: density from both densities and the ratio (:191),
bulk modulus from both bulk moduli, `mum` and the ratio (:192-194), shear modulus from both shear moduli,
`km`, `mum` and the ratio (:195-197). -/
noncomputable def hswS (m1 m2 : SMat n) (ratio : Val n) : Except Err (SMat n) := do
  checkIsRatio ratio.val
  let ratio2 : Val n := lit 1 - ratio
  let km : Val n := ⟨m1.bulk.isCol || m2.bulk.isCol,
    fun i => Num.minimum (m1.bulk.val i) (m2.bulk.val i)⟩
  let mum : Val n := ⟨m1.shear.isCol || m2.shear.isCol,
    fun i => Num.minimum (m1.shear.val i) (m2.shear.val i)⟩
  let d ← vec fun i => hswDensity (m1.density.val i) (m2.density.val i) (ratio.val i) (ratio2.val i)
  let k ← vec fun i => hswBulk (m1.bulk.val i) (m2.bulk.val i) (mum.val i) (ratio.val i) (ratio2.val i)
  let g ← vec fun i => hswShear (m1.shear.val i) (m2.shear.val i) (km.val i) (mum.val i) (ratio.val i)
    (ratio2.val i)
  mkModuliS ⟨m1.bulk.isCol || m2.bulk.isCol || mum.isCol || ratio.isCol || ratio2.isCol, k⟩
    ⟨m1.shear.isCol || m2.shear.isCol || km.isCol || mum.isCol || ratio.isCol || ratio2.isCol, g⟩
    ⟨m1.density.isCol || m2.density.isCol || ratio.isCol || ratio2.isCol, d⟩

/-- hertz_mindlin.py:11-56. -/
noncomputable def hertzMindlinS (mineral : SMat n) (porosity pressure shearReduction
    coordinationNumber : Val n) : Except Err (SMat n) :=
  let v := mineral.poisson
  let mu := mineral.shear
  let n' := coordinationNumber
  let phi := porosity
  let p := pressure
  let a : Val n := Val.pow ((lit 3 * lit Real.pi * (lit 1 - v) * p) /
    (lit 2 * n' * (lit 1 - phi) * mu)) (lit (1/3))
  let sn : Val n := (lit 4 * a * mu) / (lit 1 - v)
  let st : Val n := (lit 8 * a * mu) / (lit 2 - v)
  let kEff : Val n := (n' * (lit 1 - phi) / (lit 12 * lit Real.pi)) * sn
  let muEff : Val n := (n' * (lit 1 - phi) / (lit 20 * lit Real.pi)) *
    (sn + lit 1.5 * st * shearReduction)
  mkModuliS kEff muEff (mineral.density * (lit 1 - porosity))

/-- friable_sand.py:10-51. -/
noncomputable def friableSandS (mineral : SMat n) (porosity criticalPorosity effectivePressure
    coordinationNumber shearReduction : Val n) : Except Err (SMat n) := do
  let critical ← hertzMindlinS mineral criticalPorosity effectivePressure shearReduction
    coordinationNumber
  let fraction : Val n := lit 1 - porosity / criticalPorosity
  hswS mineral critical fraction

/-- contact_cement.py:11-43 `shear_stiffness`. -/
noncomputable def shearStiffnessS (cementShear grainShear poiss alpha : Val n) : Val n :=
  let aat : Val n := cementShear / (lit Real.pi * grainShear)
  let at_ : Val n := lit (-1e-2) * (lit 2.26 * poiss.sq + lit 2.07 * poiss + lit 2.3) *
    Val.pow aat (lit 0.079 * poiss.sq + lit 0.1754 * poiss - lit 1.342)
  let bt : Val n := (lit 0.0573 * poiss.sq + lit 0.0937 * poiss + lit 0.202) *
    Val.pow aat (lit 0.0274 * poiss.sq + lit 0.0529 * poiss - lit 0.8765)
  let ct : Val n := lit 1e-4 * (lit 9.654 * poiss.sq + lit 4.945 * poiss + lit 3.1) *
    Val.pow aat (lit 0.01867 * poiss.sq + lit 0.4011 * poiss - lit 1.8186)
  at_ * alpha.sq + bt * alpha + ct

/-- contact_cement.py:46-75 `normal_stiffness`. -/
noncomputable def normalStiffnessS (poiss poissC muCem muGr alpha : Val n) : Val n :=
  let aan : Val n := (lit 2 * muCem / (lit Real.pi * muGr)) *
    ((lit 1 - poiss) * (lit 1 - poissC) / (lit 1 - lit 2 * poissC))
  let cn : Val n := lit 0.00024649 * Val.pow aan (lit (-1.9864))
  let bn : Val n := lit 0.20405 * Val.pow aan (lit (-0.89008))
  let an : Val n := lit (-0.024153) * Val.pow aan (lit (-1.3646))
  an * alpha.sq + bn * alpha + cn

/-- contact_cement.py:78-101 `cement_radius_ratio`. -/
noncomputable def cementRadiusRatioS (cemented grain : Val n) : Except Err (Val n) := do
  let r ← cementRadiusRatio cemented.val grain.val
  .ok ⟨cemented.isCol || grain.isCol, r⟩

/-- contact_cement.py:104-178 `contact_cement`. -/
noncomputable def contactCementS (cement mineral : SMat n) (cementedPorosity sandPorosity
    shearReduction coordinationNumber : Val n) : Except Err (SMat n) := do
  checkPorosities cementedPorosity.val sandPorosity.val
  let alpha ← cementRadiusRatioS cementedPorosity sandPorosity
  let st := shearStiffnessS cement.shear mineral.shear mineral.poisson alpha
  let sn := normalStiffnessS mineral.poisson cement.poisson cement.shear mineral.shear alpha
  let kEff : Val n := lit (1/6) * coordinationNumber * (lit 1 - sandPorosity) * cement.pModulus * sn
  let muEff : Val n := lit (3/5) * kEff +
    shearReduction * lit (3/20) * coordinationNumber * (lit 1 - sandPorosity) * cement.shear * st
  mkModuliS kEff muEff
    ((lit 1 - cementedPorosity) * (alpha * cement.density + (lit 1 - alpha) * mineral.density))

/-- constant_cement.py:10-59 `constant_cement`. -/
noncomputable def constantCementS (sand cement : SMat n) (porosity contactCementPorosity sandPorosity
    coordinationNumber shearReduction : Val n) : Except Err (SMat n) := do
  let dense ← hswS cement sand (sandPorosity - contactCementPorosity)
  let cc ← contactCementS cement sand contactCementPorosity sandPorosity shearReduction
    coordinationNumber
  let fraction : Val n := lit 1 - porosity / contactCementPorosity
  hswS dense cc fraction

/-- patchy_cement.py:99-112, one modulus: `w = np.ones(con.shape); m = ~(up == low);
w[m] = (con[m] - low[m]) / (up[m] - low[m]); np.clip(w, 0, 1)`.

If `up` or `low` is a column, so is the mask `m`, and indexing a 0-dimensional array with it raises
`IndexError`.  If both are 0-dimensional, `m` is one truth value: for `True` every index adds an axis and
the assignment broadcasts; for `False` all operands are empty, and for a column `con` of two or more rows
the shapes (0, n) and (0,) do not broadcast: `ValueError`.  (For one row we do not know what numpy does;
no theorem below depends on it.) -/
noncomputable def patchyWeightS (con low up : Val n) : Except Err (Val n) := do
  failIf ((low.isCol ∨ up.isCol) ∧ ¬ (con.isCol ∧ low.isCol ∧ up.isCol)) .indexError
  failIf (¬ low.isCol ∧ ¬ up.isCol ∧ con.isCol ∧ 2 ≤ n ∧ ∃ i, Num.eq (up.val i) (low.val i)) .valueError
  .ok ⟨con.isCol, patchyWeight con.val low.val up.val⟩

/-- patchy_cement.py:15-122 `patchy_cement`. -/
noncomputable def patchyCementS (sand cement : SMat n) (porosity contactCementPorosity
    upperBoundPorosity pressure lowerBoundPressure criticalPorosity shearReduction
    friableCoordinationNumber cementCoordinationNumber : Val n) : Except Err (SMat n) := do
  let dense ← hswS cement sand (criticalPorosity - upperBoundPorosity)
  let friable ← friableSandS dense porosity criticalPorosity pressure friableCoordinationNumber
    shearReduction
  let lower ← friableSandS dense porosity criticalPorosity lowerBoundPressure
    friableCoordinationNumber shearReduction
  let upper ← constantCementS sand cement porosity upperBoundPorosity criticalPorosity
    cementCoordinationNumber shearReduction
  let contact ← contactCementS cement sand contactCementPorosity criticalPorosity shearReduction
    cementCoordinationNumber
  let constant ← hswS dense contact (lit 1 - porosity / contactCementPorosity)
  let wk ← patchyWeightS constant.bulk lower.bulk upper.bulk
  let wmu ← patchyWeightS constant.shear lower.shear upper.shear
  let cementFraction : Val n := criticalPorosity - contactCementPorosity
  let kps : Val n := friable.bulk + wk * (upper.bulk - friable.bulk)
  let mups : Val n := friable.shear + wmu * (upper.shear - friable.shear)
  let rps : Val n := (lit 1 - porosity - cementFraction) * sand.density
    + cementFraction * cement.density
  mkModuliS kps mups rps

/-- material.py:17-101 `polyval_material`: `np.vectorize` gives an array of materials, from which a
material is rebuilt (:87-96), iff one of the four arguments is a column; otherwise it gives the one
material as it was built (:97-100). -/
noncomputable def polyvalMaterialS (value : Val n) (m : SMat n) (dc pc sc : Coeffs) (useModuli : Bool) :
    Except Err (SMat n) :=
  let p := if useModuli then m.bulk else m.vp
  let s := if useModuli then m.shear else m.vs
  if m.density.isCol || p.isCol || s.isCol || value.isCol then do
    let r ← polyvalMaterial value.val m.toMat dc pc sc useModuli
    .ok ⟨⟨true, r.bulk⟩, ⟨true, r.shear⟩, ⟨true, r.density⟩, ⟨true, r.vp⟩, ⟨true, r.vs⟩⟩
  else
    -- one call of the kernel on the single values (the same in every row)
    let a : Val n := ⟨false, fun i => dc.eval (m.density.val i) (value.val i)⟩
    let b : Val n := ⟨false, fun i => pc.eval (p.val i) (value.val i)⟩
    let e : Val n := ⟨false, fun i => sc.eval (s.val i) (value.val i)⟩
    if useModuli then mkModuliS b e a else mkVelocitiesS a b e

/-! ## Configuration -/

/-- A `Pressure` section (pressure.py:16-22) after construction. -/
structure SPressure (n : ℕ) where
  overburden : Val n
  reference : Val n
  fluid : Option (Val n)
  maxEffective : Option (Val n)
  rock : Option (Val n)

/-- Broadcast. -/
def SPressure.erase (p : SPressure n) : Pressure n :=
  ⟨p.overburden.val, p.reference.val, p.fluid.map Val.val, p.maxEffective.map Val.val,
    p.rock.map Val.val⟩

/-- `None` in arithmetic raises `TypeError`. -/
def needVal (x : Option (Val n)) : Except Err (Val n) :=
  match x with
  | none => .error .typeError
  | some x => .ok x

/-- `np.clip(x, None, hi)` (pressure.py:40-64). -/
noncomputable def truncateS (maxEffective : Option (Val n)) (x : Val n) : Val n :=
  match maxEffective with
  | none => x
  | some hi => ⟨x.isCol || hi.isCol, fun i => Num.minimum (x.val i) (hi.val i)⟩

/-- pressure.py:46-54. -/
noncomputable def SPressure.truncatedReference (p : SPressure n) : Val n :=
  truncateS p.maxEffective (p.overburden - p.reference)

/-- pressure.py:56-64. -/
noncomputable def SPressure.truncatedRock (p : SPressure n) : Except Err (Val n) := do
  let r ← needVal p.rock
  .ok (truncateS p.maxEffective (p.overburden - r))

/-- model.py:208-228 `FriableSandModel`. -/
structure SFriable (n : ℕ) where
  criticalPorosity : Val n
  shearReduction : Val n
  coordinationNumber : Val n

/-- model.py:261-290 `PatchyCementModel`. -/
structure SPatchy (n : ℕ) where
  cement : SMat n
  criticalPorosity : Val n
  cementFraction : Val n
  lowerBoundPressure : Val n
  upperBoundCementFraction : Val n
  coordinationNumber : Val n
  shearReduction : Val n

/-- Broadcast. -/
def SFriable.erase (f : SFriable n) : FriableModel n :=
  ⟨f.criticalPorosity.val, f.shearReduction.val, f.coordinationNumber.val⟩

/-- Broadcast. -/
def SPatchy.erase (f : SPatchy n) : PatchyModel n :=
  ⟨f.cement.toMat, f.criticalPorosity.val, f.cementFraction.val, f.lowerBoundPressure.val,
    f.upperBoundCementFraction.val, f.coordinationNumber.val, f.shearReduction.val⟩

/-- model.py:244-252. -/
noncomputable def SFriable.evalMaterial (f : SFriable n) (pressure porosity : Val n)
    (mineral : SMat n) : Except Err (SMat n) :=
  friableSandS mineral porosity f.criticalPorosity pressure f.coordinationNumber f.shearReduction

/-- model.py:292-304, 322-334. -/
noncomputable def SPatchy.evalMaterial (f : SPatchy n) (pressure porosity : Val n)
    (mineral : SMat n) : Except Err (SMat n) :=
  patchyCementS mineral f.cement porosity (f.criticalPorosity - f.cementFraction)
    (f.criticalPorosity - f.upperBoundCementFraction) pressure f.lowerBoundPressure f.criticalPorosity
    f.shearReduction f.coordinationNumber (lit 9)

/-- The models of a pressure dependency (model.py:337-344); coefficients are numbers. -/
inductive SPDModel (n : ℕ) where
  | polyfit (useModuli : Bool) (a : Coef3 (List ℝ))
  | expfit (useModuli : Bool) (a : Coef3 (ℝ × ℝ × ℝ))
  | logfit (useModuli : Bool) (a : Coef3 (ℝ × ℝ))
  | powerfit (a : Coef3 (ℝ × ℝ))
  | friable (f : SFriable n)
  | patchy (f : SPatchy n)

/-- Broadcast. -/
def SPDModel.erase : SPDModel n → PDModel n
  | .polyfit b a => .polyfit b a
  | .expfit b a => .expfit b a
  | .logfit b a => .logfit b a
  | .powerfit a => .powerfit a
  | .friable f => .friable f.erase
  | .patchy f => .patchy f.erase

/-- `np.transpose([m.density, m.bulk_modulus, m.shear_modulus])` (model.py:240-242, 318-320): values of
different shapes cannot be stacked (`ValueError`; numpy ≥ 1.24). -/
def stackMaterial (m : SMat n) : Except Err (Bool × Fit n) :=
  if m.density.isCol = m.bulk.isCol ∧ m.bulk.isCol = m.shear.isCol then
    .ok (m.density.isCol, ⟨m.density.val, m.bulk.val, m.shear.val⟩)
  else .error .valueError

/-- `eval(pressure, porosity, mineral)`: the three fits and whether they are columns.  The fits of
polyfit, expfit, logfit and powerfit (model.py:89-99, 112-118, 130-136, 175-181) are columns iff the
pressure is one. -/
noncomputable def SPDModel.eval (m : SPDModel n) (pressure porosity : Val n) (mineral : SMat n) :
    Except Err (Bool × Fit n) :=
  match m with
  | .friable f => do stackMaterial (← f.evalMaterial pressure porosity mineral)
  | .patchy f => do stackMaterial (← f.evalMaterial pressure porosity mineral)
  | m => do
    let r ← m.erase.eval pressure.val porosity.val mineral.toMat
    .ok (pressure.isCol, r)

/-- model.py:31-55 `AbstractPressureDependencyModel.pressure_dependency`. -/
noncomputable def ratioDependencyS (m : SPDModel n) (material : SMat n)
    (pressure reference porosity : Val n) (mineral : SMat n) : Except Err (SMat n) := do
  let (rc, ref) ← m.eval reference porosity mineral
  let (ec, eff) ← m.eval pressure porosity mineral
  failIf (∃ i, Num.abs (ref.density i) ≤ Num.fin 1e-20 ∨ Num.abs (ref.primary i) ≤ Num.fin 1e-20 ∨
    Num.abs (ref.secondary i) ≤ Num.fin 1e-20) .valueError
  let d : Val n := ⟨rc || ec, eff.density / ref.density⟩
  let p : Val n := ⟨rc || ec, eff.primary / ref.primary⟩
  let s : Val n := ⟨rc || ec, eff.secondary / ref.secondary⟩
  if m.erase.useModuli then
    mkModuliS (material.bulk * p) (material.shear * s) (material.density * d)
  else
    mkVelocitiesS (material.density * d) (material.vp * p) (material.vs * s)

/-- model.py:149-168 `PowerfitModel.pressure_dependency`. -/
noncomputable def powerDependencyS (a : Coef3 (ℝ × ℝ)) (material : SMat n) (pressure reference : Val n) :
    Except Err (SMat n) := do
  let ref ← (PDModel.powerfit a : PDModel n).eval reference.val (c 0) material.toMat
  let eff ← (PDModel.powerfit a : PDModel n).eval pressure.val (c 0) material.toMat
  let b := reference.isCol || pressure.isCol
  let vpOverVs : Val n := material.vp / material.vs + ⟨b, eff.secondary - ref.secondary⟩
  let bmod : Val n := material.bulk + ⟨b, eff.primary - ref.primary⟩
  let reduction : Val n := ⟨vpOverVs.isCol, fun i => Num.powi (vpOverVs.val i) 2 - Num.fin (4/3)⟩
  failIf (∃ i, reduction.val i ≤ Num.fin 1e-20) .valueError
  mkModuliS bmod (bmod / reduction) (material.density + ⟨b, eff.density - ref.density⟩)

/-- pressure_dependency.py:31-48 `PressureDependency.adjust_material`. -/
noncomputable def pressureDependencyS (m : SPDModel n) (material : SMat n) (pressure : SPressure n)
    (porosity : Val n) (mineral : SMat n) : Except Err (SMat n) := do
  let effective ← pressure.truncatedRock
  match m with
  | .powerfit a => do
    let rock ← needVal pressure.rock
    powerDependencyS a material rock pressure.truncatedReference
  | m => ratioDependencyS m material effective pressure.truncatedReference porosity mineral

/-- depth_trend.py:17-34 `DepthTrend`. -/
structure SDepthTrend (n : ℕ) where
  depth : Val n
  referenceDepth : Option (Val n)
  maxDepth : Option (Val n)
  useModuli : Bool
  coefficients : Coef3 Coeffs

/-- Broadcast. -/
def SDepthTrend.erase (t : SDepthTrend n) : DepthTrend n :=
  ⟨t.depth.val, t.referenceDepth.map Val.val, t.maxDepth.map Val.val, t.useModuli, t.coefficients⟩

/-- depth_trend.py:35-42 `effective_depth`: `result -= reference_depth` writes into the copy of `depth`;
a 0-dimensional array cannot take a column (`ValueError`). -/
noncomputable def SDepthTrend.effectiveDepth (t : SDepthTrend n) : Except Err (Val n) :=
  match t.referenceDepth with
  | none => .ok t.depth
  | some r => do
    failIf (¬ t.depth.isCol ∧ r.isCol) .valueError
    .ok ⟨t.depth.isCol, t.depth.val - r.val⟩

/-- depth_trend.py:44-57. -/
noncomputable def SDepthTrend.adjustMaterial (t : SDepthTrend n) (material : SMat n) :
    Except Err (SMat n) := do
  let d ← t.effectiveDepth
  polyvalMaterialS d material t.coefficients.density t.coefficients.primary t.coefficients.secondary
    t.useModuli

/-- The sandstone models (model.py:346). -/
inductive SSandModel (n : ℕ) where
  | polyfit (useModuli : Bool) (a : Coef3 Coeffs)
  | friable (f : SFriable n)
  | patchy (f : SPatchy n)

/-- Broadcast. -/
def SSandModel.erase : SSandModel n → SandModel n
  | .polyfit b a => .polyfit b ⟨some a.density, some a.primary, some a.secondary⟩
  | .friable f => .friable f.erase
  | .patchy f => .patchy f.erase

/-- dry_rock.py:53: an adjustment. -/
inductive SAdjustment (n : ℕ) where
  | pressureDependency (m : SPDModel n)
  | depthTrend (t : SDepthTrend n)

/-- Broadcast. -/
def SAdjustment.erase : SAdjustment n → Adjustment n
  | .pressureDependency m => .pressureDependency m.erase
  | .depthTrend t => .depthTrend t.erase

/-- dry_rock.py:34-55 `DryRock` after construction. -/
structure SDryRock (n : ℕ) where
  model : SSandModel n
  porosity : Val n
  adjustments : List (SAdjustment n)

/-- The dry rock with every single value replaced by the column of that value. -/
def SDryRock.erase (d : SDryRock n) : DryRock n :=
  ⟨d.model.erase, d.porosity.val, d.adjustments.map SAdjustment.erase⟩

/-- `eval_material(pressure, porosity, mineral)` (model.py:199-205, 244-252, 322-334). -/
noncomputable def SSandModel.evalMaterial (m : SSandModel n) (pressure porosity : Val n)
    (mineral : SMat n) : Except Err (SMat n) :=
  match m with
  | .polyfit useModuli a => polyvalMaterialS porosity mineral a.density a.primary a.secondary useModuli
  | .friable f => f.evalMaterial pressure porosity mineral
  | .patchy f => f.evalMaterial pressure porosity mineral

/-- One adjustment. -/
noncomputable def SAdjustment.adjust (a : SAdjustment n) (material : SMat n) (pressure : SPressure n)
    (porosity : Val n) (mineral : SMat n) : Except Err (SMat n) :=
  match a with
  | .pressureDependency m => pressureDependencyS m material pressure porosity mineral
  | .depthTrend t => t.adjustMaterial material

/-- dry_rock.py:142-145 `adjust_material`. -/
noncomputable def adjustAllS (pressure : SPressure n) (porosity : Val n) (mineral : SMat n) :
    List (SAdjustment n) → SMat n → Except Err (SMat n)
  | [], m => .ok m
  | a :: as, m => do
    let m ← a.adjust m pressure porosity mineral
    adjustAllS pressure porosity mineral as m

/-- dry_rock.py:147-155 `material(mineral, pressure)`. -/
noncomputable def SDryRock.material (d : SDryRock n) (mineral : SMat n) (pressure : SPressure n) :
    Except Err (SMat n) := do
  let p ← pressure.truncatedRock
  let m ← d.model.evalMaterial p d.porosity mineral
  adjustAllS pressure d.porosity mineral d.adjustments m

end OPE.Shapes
