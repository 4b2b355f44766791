import Verif.Model.Fluids
import Mathlib.Data.Nat.Find

/-!
# material/span_wagner: carbon dioxide

Modelled element by element; numpy evaluates every expression for each element separately.
-/

namespace OPE.CO2

open Classical

/-! ## Constants (carbon_dioxide.py:20-25) -/

/-- carbon_dioxide.py:20, J/(kg K). -/
def gasConstant : ℝ := 0.1889241 * 1e3
/-- carbon_dioxide.py:21, K. -/
def criticalTemperature : ℝ := 304.1282
/-- carbon_dioxide.py:22, kg/m³. -/
def criticalDensity : ℝ := 467.6
/-- carbon_dioxide.py:23, MPa. -/
def criticalPressure : ℝ := 7.3773
/-- carbon_dioxide.py:24, K. -/
def tripleTemperature : ℝ := 216.592
/-- carbon_dioxide.py:25, MPa. -/
def triplePressure : ℝ := 0.51795

/-! ## Symbolic expressions (equations.py uses sympy) -/

/-- The sympy expressions that occur in equations.py, in the variables `delta` and `tau`; coefficient symbols
are replaced by their values (equations.py:89-95 passes them as arguments). -/
inductive Expr where
  | num (x : ℝ)
  | delta
  | tau
  | add (a b : Expr)
  | mul (a b : Expr)
  | npow (a : Expr) (k : ℕ)
  | pow (a : Expr) (x : ℝ)
  | exp (a : Expr)

/-- The two variables. -/
inductive Var where
  | delta
  | tau

/-- `Expr.diff` of sympy: sum, product, power and chain rule (for a power with constant exponent sympy
gives `self * (dbase * exp / base)`). -/
def Expr.diff (v : Var) : Expr → Expr
  | .num _ => .num 0
  | .delta => match v with
    | .delta => .num 1
    | .tau => .num 0
  | .tau => match v with
    | .delta => .num 0
    | .tau => .num 1
  | .add a b => .add (a.diff v) (b.diff v)
  | .mul a b => .add (.mul (a.diff v) b) (.mul a (b.diff v))
  | .npow a k => .mul (.mul (.num k) (.npow a (k - 1))) (a.diff v)
  | .pow a x => .mul (.mul (.num x) (.mul (.pow a x) (.pow a (-1)))) (a.diff v)
  | .exp a => .mul (.exp a) (a.diff v)

/-- equations.py:84-87: `expr.diff(delta, …, tau, …)`.  Simplification: `powsimp` (:88), which rewrites
products of powers without changing their value for positive bases, and sympy's rewriting of
`((delta-1)**2)**x` to `Abs(delta-1)**(2*x)` (the same for `delta ≠ 1`) are not modelled. -/
def Expr.diffs (dd dt : ℕ) (e : Expr) : Expr := (Expr.diff .tau)^[dt] ((Expr.diff .delta)^[dd] e)

/-- The lambdified expression (equations.py:90-95) evaluated by numpy for one element. -/
noncomputable def Expr.eval (e : Expr) (delta tau : Num) : Num :=
  match e with
  | .num x => Num.fin x
  | .delta => delta
  | .tau => tau
  | .add a b => a.eval delta tau + b.eval delta tau
  | .mul a b => a.eval delta tau * b.eval delta tau
  | .npow a k => Num.powi (a.eval delta tau) k
  | .pow a x => Num.pow (a.eval delta tau) (Num.fin x)
  | .exp a => Num.exp (a.eval delta tau)

/-! ## The residual part (equations.py:67-82, coefficients.py:37-165) -/

/-- One column of the first group of coefficients (coefficients.py:40-54). -/
structure Group1 where
  (n d t : ℝ)
/-- One column of the second group (coefficients.py:57-128). -/
structure Group2 where
  (n d t c : ℝ)
/-- One column of the third group (coefficients.py:131-147). -/
structure Group3 where
  (n d t alpha beta gamma epsilon : ℝ)
/-- One column of the fourth group (coefficients.py:150-165). -/
structure Group4 where
  (n a b beta A B C D : ℝ)

/-- equations.py:69 `s1`. -/
def s1 (k : Group1) : Expr := .mul (.mul (.num k.n) (.pow .delta k.d)) (.pow .tau k.t)

/-- equations.py:70 `s2`. -/
def s2 (k : Group2) : Expr :=
  .mul (.mul (.mul (.num k.n) (.pow .delta k.d)) (.pow .tau k.t))
    (.exp (.mul (.num (-1)) (.pow .delta k.c)))

/-- equations.py:71-76 `s3`. -/
def s3 (k : Group3) : Expr :=
  .mul (.mul (.mul (.num k.n) (.pow .delta k.d)) (.pow .tau k.t))
    (.exp (.add (.mul (.num (-k.alpha)) (.npow (.add .delta (.num (-k.epsilon))) 2))
      (.mul (.num (-k.beta)) (.npow (.add .tau (.num (-k.gamma))) 2))))

/-- `(delta - 1)**2`. -/
def deltaOff : Expr := .npow (.add .delta (.num (-1))) 2

/-- equations.py:78 `theta_expr`. -/
noncomputable def thetaExpr (k : Group4) : Expr :=
  .add (.add (.num 1) (.mul (.num (-1)) .tau)) (.mul (.num k.A) (.pow deltaOff (1 / (2 * k.beta))))

/-- equations.py:79 `bigdelta_expr`. -/
noncomputable def bigDeltaExpr (k : Group4) : Expr :=
  .add (.npow (thetaExpr k) 2) (.mul (.num k.B) (.pow deltaOff k.a))

/-- equations.py:80 `bigphi_expr`. -/
def bigPhiExpr (k : Group4) : Expr :=
  .exp (.add (.mul (.num (-k.C)) deltaOff)
    (.mul (.num (-k.D)) (.npow (.add .tau (.num (-1))) 2)))

/-- equations.py:81 `s4`. -/
noncomputable def s4 (k : Group4) : Expr :=
  .mul (.mul (.mul (.num k.n) (.pow (bigDeltaExpr k) k.b)) .delta) (bigPhiExpr k)

/-- coefficients.py:40-54. -/
def group1 : List Group1 := [
  ⟨0.38856823203161, 1, 0.00⟩,
  ⟨2.9385475942740, 1, 0.75⟩,
  ⟨-5.5867188534934, 1, 1.00⟩,
  ⟨-0.76753199592477, 1, 2.00⟩,
  ⟨0.31729005580416, 2, 0.75⟩,
  ⟨0.54803315897767, 2, 2.00⟩,
  ⟨0.12279411220335, 3, 0.75⟩]

/-- coefficients.py:57-128. -/
def group2 : List Group2 := [
  ⟨2.1658961543220, 1, 1.50, 1⟩,
  ⟨1.5841735109724, 2, 1.50, 1⟩,
  ⟨-0.23132705405503, 4, 2.50, 1⟩,
  ⟨0.058116916431436, 5, 0.00, 1⟩,
  ⟨-0.55369137205382, 5, 1.50, 1⟩,
  ⟨0.48946615909422, 5, 2.00, 1⟩,
  ⟨-0.024275739843501, 6, 0.00, 1⟩,
  ⟨0.062494790501678, 6, 1.00, 1⟩,
  ⟨-0.12175860225246, 6, 2.00, 1⟩,
  ⟨-0.37055685270086, 1, 3.00, 2⟩,
  ⟨-0.016775879700426, 1, 6.00, 2⟩,
  ⟨-0.11960736637987, 4, 3.00, 2⟩,
  ⟨-0.045619362508778, 4, 6.00, 2⟩,
  ⟨0.035612789270346, 4, 8.00, 2⟩,
  ⟨-0.0074427727132052, 7, 6.00, 2⟩,
  ⟨-0.0017395704902432, 8, 0.00, 2⟩,
  ⟨-0.021810121289527, 2, 7.00, 3⟩,
  ⟨0.024332166559236, 3, 12.00, 3⟩,
  ⟨-0.037440133423463, 3, 16.00, 3⟩,
  ⟨0.143387157568781, 5, 22.00, 4⟩,
  ⟨-0.13491969083286, 5, 24.00, 4⟩,
  ⟨-0.023151225053480, 6, 16.00, 4⟩,
  ⟨0.012363125492901, 7, 24.00, 4⟩,
  ⟨0.0021058321972940, 8, 8.00, 4⟩,
  ⟨-0.00033958519026368, 10, 2.00, 4⟩,
  ⟨0.0055993651771592, 4, 28.00, 5⟩,
  ⟨-0.00030335118055646, 8, 14.00, 6⟩]

/-- coefficients.py:131-147. -/
def group3 : List Group3 := [
  ⟨-213.65488688320, 2, 1.00, 25, 325, 1.16, 1.00⟩,
  ⟨26641.569149272, 2, 0.00, 25, 300, 1.19, 1.00⟩,
  ⟨-24027.212204557, 2, 1.00, 25, 300, 1.19, 1.00⟩,
  ⟨-283.41603423999, 3, 3.00, 15, 275, 1.25, 1.00⟩,
  ⟨212.47284400179, 3, 3.00, 20, 275, 1.22, 1.00⟩]

/-- coefficients.py:150-165. -/
def group4 : List Group4 := [
  ⟨-0.66642276540751, 3.500, 0.875, 0.300, 0.700, 0.3, 10.0, 275⟩,
  ⟨0.72608632349897, 3.500, 0.925, 0.300, 0.700, 0.3, 10.0, 275⟩,
  ⟨0.055068668612842, 3.000, 0.875, 0.300, 0.700, 1.0, 12.5, 275⟩]

/-- The 42 terms. -/
noncomputable def terms : List Expr :=
  group1.map s1 ++ group2.map s2 ++ group3.map s3 ++ group4.map s4

/-- equations.py:12-39 `residual_helmholtz_energy` for one element and orders `dd + dt ≤ 2`. -/
noncomputable def residualAt (dd dt : ℕ) (delta tau : Num) : Num :=
  (terms.map fun e => (e.diffs dd dt).eval delta tau).foldl (· + ·) (Num.fin 0)

/-- carbon_dioxide.py:97-98: the value 1 is moved a little. -/
noncomputable def nudge (x : Num) : Num := if Num.eq x (Num.fin 1) then x - Num.fin 1e-15 else x

/-- carbon_dioxide.py:86-105 `co2_residual_helmholtz_energy`: other orders are no key of the dictionary
(equations.py:98-104). -/
noncomputable def residual (delta tau : Num) (dd dt : ℕ) : Except Err Num :=
  if dd + dt ≤ 2 then .ok (residualAt dd dt (nudge delta) (nudge tau)) else .error .keyError

/-! ## The ideal gas part (carbon_dioxide.py:42-83, coefficients.py:11-34) -/

/-- coefficients.py:12-25, first three entries. -/
def a1 : ℝ := 8.37304456
/-- coefficients.py:12-25, first three entries. -/
def a2 : ℝ := -3.70454304
/-- coefficients.py:12-25, first three entries. -/
def a3 : ℝ := 2.5

/-- coefficients.py:12-34: the remaining entries of `a0` with `theta0`. -/
def einstein : List (ℝ × ℝ) :=
  [(1.99427042, 3.15163), (0.62105248, 6.11190), (0.41195293, 6.77708), (1.04028922, 11.32384),
   (0.08327678, 27.08792)]

/-- `np.sum` of a function of the entries. -/
noncomputable def einsteinSum (f : ℝ × ℝ → Num) : Num := (einstein.map f).foldl (· + ·) (Num.fin 0)

/-- `1 - np.exp(-theta0 * tau)`. -/
noncomputable def oneMinusExp (theta : ℝ) (tau : Num) : Num :=
  Num.fin 1 - Num.exp (Num.fin (-theta) * tau)

/-- carbon_dioxide.py:42-83 `ideal_gas_helmholtz_energy` for one element (`dd`, `dt` are the orders).
Simplification: for a scalar `tau` and an array `delta` the code returns only the first element of the
(0,0) result (:80-81), see `idealGasMixed`. -/
noncomputable def idealGas (delta tau : Num) (dd dt : ℕ) : Except Err Num :=
  match dd, dt with
  | 0, 0 => .ok (Num.log delta + Num.fin a1 + Num.fin a2 * tau + Num.fin a3 * Num.log tau
      + einsteinSum fun k => Num.fin k.1 * Num.log (oneMinusExp k.2 tau))
  | 0, 1 => .ok (Num.fin a2 + Num.fin a3 / tau
      + einsteinSum fun k => Num.fin k.1 * Num.fin k.2 * (Num.powi (oneMinusExp k.2 tau) (-1) - Num.fin 1))
  | 1, 0 => .ok (Num.fin 1 / delta)
  | 0, 2 => .ok (-Num.fin a3 / Num.powi tau 2
      - einsteinSum fun k => Num.fin k.1 * Num.powi (Num.fin k.2) 2 * Num.exp (Num.fin (-k.2) * tau)
          * Num.powi (oneMinusExp k.2 tau) (-2))
  | 2, 0 => .ok (-Num.fin 1 / Num.powi delta 2)
  | 1, 1 => .ok (Num.fin 0)
  | _, _ => .error .notImplemented

/-- carbon_dioxide.py:50, 80-83 with a scalar `tau` and an array `delta`: the (0,0) result has one element
per density, but `result[0]` is returned. -/
noncomputable def idealGasMixed {n : ℕ} [NeZero n] (delta : Col n) (tau : Num) : Except Err Num :=
  idealGas (delta 0) tau 0 0

/-- carbon_dioxide.py:28-39 `co2_helmholtz_energy`. -/
noncomputable def helmholtz (delta tau : Num) (dd dt : ℕ) : Except Err Num := do
  let i ← idealGas delta tau dd dt
  let r ← residual delta tau dd dt
  .ok (i + r)

/-- carbon_dioxide.py:28-39 `co2_helmholtz_energy` for densities `delta` at a single (scalar) temperature:
for order (0,0) the ideal gas part is the value of the first density (`idealGasMixed`), added to every
residual; for the other orders it is a value per density (`1/delta`, `-1/delta**2`) or does not depend on
the density. -/
noncomputable def helmholtzMixed {n : ℕ} [NeZero n] (delta : Col n) (tau : Num) (dd dt : ℕ) :
    Except Err (Col n) :=
  vec fun i => do
    let g ← if dd = 0 ∧ dt = 0 then idealGasMixed delta tau else idealGas (delta i) tau dd dt
    let r ← residual (delta i) tau dd dt
    .ok (g + r)

/-! ## Pressure and bulk modulus (carbon_dioxide.py:108-148, 397-404) -/

/-- Whether the arguments are numpy arrays (which `co2_residual_helmholtz_energy` changes in place) or
single Python floats (which it does not, and whose division by zero raises). -/
inductive Kind where
  | array
  | single
  deriving DecidableEq

/-- Division by an argument. -/
noncomputable def Kind.div (k : Kind) (a b : Num) : Except Err Num :=
  match k with
  | .array => .ok (a / b)
  | .single => pyDiv a b

/-- A variable after `co2_residual_helmholtz_energy` was called with it. -/
noncomputable def Kind.after (k : Kind) (x : Num) : Num :=
  match k with
  | .array => nudge x
  | .single => x

/-- carbon_dioxide.py:120-148 for `d_density=0`, in MPa. -/
noncomputable def pressure0 (k : Kind) (temperature density : Num) : Except Err Num := do
  let tau ← k.div (Num.fin criticalTemperature) temperature
  let delta := density / Num.fin criticalDensity
  let r ← residual delta tau 1 0
  .ok (density * Num.fin gasConstant * temperature * (Num.fin 1 + k.after delta * r) / Num.fin 1e6)

/-- carbon_dioxide.py:132-148 for `d_density=1`.  `2 * delta` (:133) is evaluated before the first call
that may move `delta`, everything else after it. -/
noncomputable def pressure1 (k : Kind) (isentropic : Bool) (temperature density : Num) : Except Err Num := do
  let tau0 ← k.div (Num.fin criticalTemperature) temperature
  let delta0 := density / Num.fin criticalDensity
  let r10 ← residual delta0 tau0 1 0
  let first := Num.fin 2 * delta0 * r10
  let delta := k.after delta0
  let tau := k.after tau0
  let r20 ← residual delta tau 2 0
  let second := Num.powi delta 2 * r20
  let third ← if isentropic then do
      let s10 ← residual delta tau 1 0
      let s11 ← residual delta tau 1 1
      let nom := Num.powi (Num.fin 1 + delta * s10 - delta * tau * s11) 2
      let h02 ← helmholtz delta tau 0 2
      let den := Num.powi tau 2 * h02
      .ok (-nom / den)
    else .ok (Num.fin 0)
  .ok (temperature * Num.fin gasConstant * (Num.fin 1 + first + second + third) / Num.fin 1e6)

/-- carbon_dioxide.py:108-148 `carbon_dioxide_pressure`; for other orders of the density derivative the
function ends without a value (`None`). -/
noncomputable def pressure (k : Kind) (temperature density : Num) (dDensity dTemperature : ℕ)
    (isentropic : Bool) : Except Err (Option Num) := do
  let _ ← k.div (Num.fin criticalTemperature) temperature
  failIf (dTemperature ≠ 0) .notImplemented
  match dDensity with
  | 0 => (pressure0 k temperature density) >>= fun p => .ok (some p)
  | 1 => (pressure1 k isentropic temperature density) >>= fun p => .ok (some p)
  | _ => .ok none

/-- carbon_dioxide.py:397-404 `carbon_dioxide_bulk_modulus`, in Pa. -/
noncomputable def bulkModulus (k : Kind) (temperature density : Num) : Except Err Num := do
  let d ← pressure1 k true temperature density
  .ok (density * d * Num.fin 1e6)

/-! ## Phase boundaries (carbon_dioxide.py:151-230) -/

/-- carbon_dioxide.py:151-164 `saturated_liquid_density`. -/
noncomputable def saturatedLiquid (T : Num) : Num :=
  let t := Num.fin 1 - T / Num.fin criticalTemperature
  Num.fin criticalDensity * Num.exp (Num.fin 1.9245108 * Num.pow t (Num.fin 0.34)
    + Num.fin (-0.62385555) * Num.pow t (Num.fin 0.5) + Num.fin (-0.32731127) * Num.pow t (Num.fin (10/6))
    + Num.fin 0.39245142 * Num.pow t (Num.fin (11/6)))

/-- carbon_dioxide.py:167-188 `saturated_vapor_density`. -/
noncomputable def saturatedVapor (T : Num) : Num :=
  let t := Num.fin 1 - T / Num.fin criticalTemperature
  Num.fin criticalDensity * Num.exp (Num.fin (-1.7074879) * Num.pow t (Num.fin 0.34)
    + Num.fin (-0.82274670) * Num.pow t (Num.fin 0.5) + Num.fin (-4.6008549) * t
    + Num.fin (-10.111178) * Num.pow t (Num.fin (7/3)) + Num.fin (-29.742252) * Num.pow t (Num.fin (14/3)))

/-- carbon_dioxide.py:191-202 `sublimation_pressure`. -/
noncomputable def sublimationPressure (T : Num) : Num :=
  let t := Num.fin 1 - T / Num.fin tripleTemperature
  Num.fin triplePressure * Num.exp ((Num.fin (-14.740846) * t + Num.fin 2.4327015 * Num.pow t (Num.fin 1.9)
    + Num.fin (-5.3061778) * Num.pow t (Num.fin 2.9)) / (Num.fin 1 - t))

/-- carbon_dioxide.py:205-218 `vapor_pressure`. -/
noncomputable def vaporPressure (T : Num) : Num :=
  let t := Num.fin 1 - T / Num.fin criticalTemperature
  Num.fin criticalPressure * Num.exp ((Num.fin (-7.0602087) * Num.pow t (Num.fin 1)
    + Num.fin 1.9391218 * Num.pow t (Num.fin 1.5) + Num.fin (-1.6463597) * Num.pow t (Num.fin 2)
    + Num.fin (-3.2995634) * Num.pow t (Num.fin 4)) / (Num.fin 1 - t))

/-- carbon_dioxide.py:221-230 `melting_pressure`. -/
noncomputable def meltingPressure (T : Num) : Num :=
  let t := T / Num.fin tripleTemperature - Num.fin 1
  Num.fin triplePressure * (Num.fin 1 + Num.fin 1955.5390 * t + Num.fin 2055.4593 * Num.powi t 2)

/-! ## Density (carbon_dioxide.py:233-261, 330-394) -/

/-- The argument `force_vapor`: `True`, `False` or anything else ("auto"). -/
inductive Phase where
  | vapor
  | liquid
  | auto

/-- carbon_dioxide.py:233-261 `_determine_density_bounds` for one element: lower and upper bound. -/
noncomputable def densityBounds (T P : Num) (phase : Phase) : Num × Num :=
  if T < Num.fin tripleTemperature then (Num.fin 0.1, saturatedVapor T)
  else if T < Num.fin criticalTemperature then
    match phase with
    | .vapor => (Num.fin 0.1, saturatedVapor T)
    | .liquid => (saturatedLiquid T, Num.fin 1500)
    | .auto => if P < vaporPressure T then (Num.fin 0.1, saturatedVapor T)
        else (saturatedLiquid T, Num.fin 1500)
  else (Num.fin 0.1, Num.fin 1500)

/-- `scipy.optimize.root_scalar(f, method="toms748", bracket=[lo, hi])`: a parameter.  `f` may raise. -/
abbrev RootFinder := (Num → Except Err Num) → Num → Num → Except Err Num

/-- carbon_dioxide.py:330-369 `_calculate_carbon_dioxide_density` for one element. -/
noncomputable def calculateDensity (solve : RootFinder) (T P : Num) (phase : Phase) (raiseError : Bool) :
    Except Err Num :=
  let bounds := densityBounds T P phase
  match solve (fun x => (pressure0 .single T x) >>= fun p => .ok (p - P))
      (bounds.1 * Num.fin 0.95) (bounds.2 * Num.fin 1.05) with
  | .error .valueError => if raiseError then .error .valueError else .ok .nan
  | r => r

/-- The table file: the grid points `x 0 … x nx`, `y 0 … y ny` and the values (lookup_table.py:7-13). -/
structure Table where
  nx : ℕ
  ny : ℕ
  x : ℕ → ℝ
  y : ℕ → ℝ
  z : ℕ → ℕ → Num

/-- scipy's `nearest` rule on one axis with points `g 0 … g m`: the interval that contains `v`, then its
lower end up to the middle and its upper end above. -/
noncomputable def nearest (g : ℕ → ℝ) (m : ℕ) (v : ℝ) : ℕ :=
  let i := Nat.findGreatest (fun i => g i ≤ v) (m - 1)
  if (v - g i) / (g (i + 1) - g i) ≤ 1 / 2 then i else i + 1

/-- lookup_table.py:16-34: `RegularGridInterpolator(method="nearest", bounds_error=False)` for one point;
outside the grid (and for a point that is not finite) the fill value NaN. -/
noncomputable def Table.lookup (t : Table) (T P : Num) : Num :=
  match T, P with
  | .fin T, .fin P =>
    if T < t.x 0 ∨ t.x t.nx < T ∨ P < t.y 0 ∨ t.y t.ny < P then .nan
    else t.z (nearest t.x t.nx T) (nearest t.y t.ny P)
  | _, _ => .nan

/-- carbon_dioxide.py:372-394 `carbon_dioxide_density` with `force_vapor="auto"` (the only way the fluid
model calls it, fluid_model_providers.py:55-61): interpolation in the table, or `np.vectorize` of the
calculation. -/
noncomputable def densityOf {n : ℕ} (solve : RootFinder) (table : Table) (T P : Col n)
    (interpolate : Bool) : Except Err (Col n) :=
  if interpolate then .ok fun i => table.lookup (T i) (P i)
  else vec fun i => calculateDensity solve (T i) (P i) .auto true

/-- `np.max` of a column without NaN. -/
def IsMax {n : ℕ} (T : Col n) (m : Num) : Prop := (∃ i, T i = m) ∧ ∀ i, T i ≤ m

/-- `np.isclose(a, b, atol=1e-5, rtol=0)` for numbers. -/
def isClose (a b : Num) : Prop := Num.abs (a - b) ≤ Num.fin 1e-5

/-- carbon_dioxide.py:287-327 `array_carbon_dioxide_density`.  The interpolation table of the starting values
ends at 1.01 times the largest *temperature* (:274-276), and the interpolator raises `ValueError` for a
pressure outside it (:281).  Parameters: `start`, the remaining computation of the starting values, which only
`newton` sees; `newton`, `scipy.optimize.newton` with at most 10 iterations; `solve`, the bracketing root
finder of the robust method. -/
noncomputable def arrayDensity {n : ℕ} (solve : RootFinder) (start : Col n → Col n → Except Err (Col n))
    (newton : (Col n → Except Err (Col n)) → Col n → Except Err (Col n)) (T P : Col n) (phase : Phase) :
    Except Err (Col n) := do
  failIf (∃ m i, IsMax T m ∧ m * Num.fin 1.01 < P i) .valueError
  let x0 ← start T P
  let root ← newton (fun x => vec fun i => (pressure0 .array (T i) (x i)) >>= fun p => .ok (p - P i)) x0
  let p ← vec fun i => pressure0 .array (T i) (root i)
  vec fun i =>
    let b := densityBounds (T i) (P i) phase
    if ¬ isClose (p i) (P i) ∨ root i < b.1 ∨ b.2 < root i ∨ root i = .nan then
      calculateDensity solve (T i) (P i) phase true
    else .ok (root i)

/-- carbon_dioxide.py:407-418 `carbon_dioxide(absolute_temperature, pressure, density)` on arrays. -/
noncomputable def carbonDioxide {n : ℕ} (solve : RootFinder) (table : Table) (T P : Col n)
    (density : Option (Col n)) (interpolate : Bool) : Except Err (Mat n) := do
  let density ← match density with
    | some d => .ok d
    | none => densityOf solve table T P interpolate
  let bulk ← vec fun i => bulkModulus .array (T i) (density i)
  fluidMaterial bulk density

/-- The carbon dioxide model used by the `span_wagner` provider (fluid_model_providers.py:52-61). -/
noncomputable def spanWagner (solve : RootFinder) (table : Table) : ∀ n, CO2Model n :=
  fun _ T P interpolate => carbonDioxide solve table T P none interpolate

end OPE.CO2
