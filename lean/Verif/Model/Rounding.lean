import Mathlib.Analysis.SpecialFunctions.Pow.Real

/-!
# One row of the code in double arithmetic

The result of every operation is rounded (`fl`), and powers are those of the mathematical library (`pw`).  Same code as in
Model/Fluid.lean, Model/HashinShtrikman.lean, Model/Material.lean and Model/Minerals.lean (which have exact arithmetic and
the special values); here one row at a time, for finite values.  Simplifications: the exponent range is unbounded (no
overflow, no subnormal numbers); Python's `sum` adds from left to right, beginning with 0 (CPython 3.12 compensates only
sums of plain floats, here the elements are numpy arrays).
-/

namespace OPE.Double

open Classical

variable (fl : ℝ → ℝ) (pw : ℝ → ℝ → ℝ)

/-- Python's `sum`: from left to right, beginning with 0. -/
noncomputable def sum (xs : List ℝ) : ℝ := xs.foldl (fun a x => fl (a + x)) 0

/-- fluid.py:19-25 `sum_saturations_to_one`. -/
noncomputable def sumToOne (s : List ℝ) : List ℝ :=
  let total := sum fl s
  let adjusted := max total (fl 1e-15)
  s.map fun x => fl ((if 0 < total then x else fl 1e-15) / adjusted)

/-- fluid.py:28-31 `mix_densities`; pairs of density and saturation. -/
noncomputable def mixDensities (L : List (ℝ × ℝ)) : ℝ := sum fl (L.map fun x => fl (x.1 * x.2))

/-- fluid.py:34-35 `mix_bulk_moduli`; pairs of bulk modulus and saturation. -/
noncomputable def mixBulk (L : List (ℝ × ℝ)) : ℝ := fl (1 / sum fl (L.map fun x => fl (x.2 / x.1)))

/-- fluid.py:38-52 `wood_fluid_mixing`: bulk modulus and density.  `L`: bulk modulus, density and saturation of each
fluid. -/
noncomputable def wood (L : List (ℝ × ℝ × ℝ)) : ℝ × ℝ :=
  let s := sumToOne fl (L.map fun x => x.2.2)
  (mixBulk fl ((L.map fun x => x.1).zip s), mixDensities fl ((L.map fun x => x.2.1).zip s))

/-- fluid.py:91-96, the case of liquids and gases in `brie_fluid_mixing`. -/
noncomputable def brie (liquids gases : List (ℝ × ℝ × ℝ)) (e : ℝ) : ℝ × ℝ :=
  let l := wood fl liquids
  let g := wood fl gases
  let total := sum fl (liquids.map fun x => x.2.2)
  (fl (fl (fl (l.1 - g.1) * pw total e) + g.1), mixDensities fl [(l.2, total), (g.2, fl (1 - total))])

/-- fluid.py:115-147 kernel `gassman_equation`; `none`: ValueError. -/
noncomputable def gassmann (kd km kf φ : ℝ) : Option ℝ :=
  if φ = 0 then some km
  else if kd = km then some km
  else
    let factor := fl (fl (kd / fl (km - kd)) + fl (kf / fl (fl (km - kf) * φ)))
    if factor < 0 then none else some (fl (fl (factor / fl (1 + factor)) * km))

/-- fluid.py:153, density of the saturated rock. -/
noncomputable def saturatedDensity (ρd ρf φ : ℝ) : ℝ := fl (ρd + fl (φ * ρf))

/-- seismic_velocity.py:55-65 `calculate_primary_velocity`. -/
noncomputable def primaryVelocity (k g ρ : ℝ) : ℝ := pw (fl (fl (k + fl (fl (4 / 3) * g)) / ρ)) 0.5

/-- seismic_velocity.py:68-78 `calculate_secondary_velocity`. -/
noncomputable def secondaryVelocity (g ρ : ℝ) : ℝ := pw (fl (g / ρ)) 0.5

/-- constituent.py:49-57 `fraction_is_ratio`: accepted. -/
def fractionIsRatio (f : ℝ) : Prop := ¬ f < -fl 1e-5 ∧ ¬ fl (1 + fl 1e-5) < f

/-- constituent.py:70-91 `fix_one_fraction`, for one row: `none` where ValueError is raised. -/
noncomputable def fixOneFraction (fs : List (Option ℝ)) : Option (List (Option ℝ)) :=
  let sumRest := sum fl (fs.filterMap id)
  if fl (1 + fl 1e-5) < sumRest then none
  else if fs.count none = 0 then some fs
  else if 1 < fs.count none then none
  else
    let missing := fl (1 - sumRest)
    if fractionIsRatio fl missing then some (fs.map fun f => some (f.getD missing)) else none

/-- minerals.py:47-50 (and the validators of the constituents): are these fractions accepted?  `np.isclose(x, 1.0,
atol=1e-5)` is `|x - 1| <= 1e-5 + 1e-5 * 1`. -/
noncomputable def mineralsAccepted (fs : List (Option ℝ)) : Prop :=
  (∀ f ∈ fs.filterMap id, fractionIsRatio fl f) ∧ ∃ gs, fixOneFraction fl fs = some gs ∧
    |fl (sum fl (gs.filterMap id) - 1)| ≤ fl (fl 1e-5 + fl (fl 1e-5 * 1))

/-- fluids.py:63-78 (and the validators of the constituents): are these fractions accepted? -/
noncomputable def fluidsAccepted (fs : List (Option ℝ)) : Prop :=
  (∀ f ∈ fs.filterMap id, fractionIsRatio fl f) ∧ ¬ fl (1 + fl 1e-5) < sum fl (fs.filterMap id) ∧
    ∃ gs, fixOneFraction fl fs = some gs

/-- `x ** -1` (the sign of the base passes to the result). -/
noncomputable def reciprocal (x : ℝ) : ℝ := if x < 0 then -pw (-x) (-1) else pw x (-1)

/-- hashin_shtrikman.py:166-182, what the kernels `calc_bulk_modulus` and `calc_shear_modulus` of `hashin_shtrikman_walpole`
have in common: `f1` the given ratio, `f2` = `1 - f1` (line 184), `z` the term added to `x1`. -/
noncomputable def walpole (x1 x2 z f1 : ℝ) : ℝ :=
  if x1 = x2 then x1
  else fl (x1 + fl (fl (1 - f1) / fl (reciprocal pw (fl (x2 - x1)) + fl (f1 * reciprocal pw (fl (x1 + z))))))

/-- hashin_shtrikman.py:166-172 kernel `calc_bulk_modulus`. -/
noncomputable def walpoleBulk (k1 k2 mum f1 : ℝ) : ℝ := walpole fl pw k1 k2 (fl (fl (4 / 3) * mum)) f1

/-- hashin_shtrikman.py:174-182 kernel `calc_shear_modulus`. -/
noncomputable def walpoleShear (mu1 mu2 km mum f1 : ℝ) : ℝ :=
  walpole fl pw mu1 mu2 (fl (fl (fl (mum / 6) * fl (fl (9 * km) + fl (8 * mum))) / fl (km + fl (2 * mum)))) f1

/-- hashin_shtrikman.py:159-164 kernel `calc_density`. -/
noncomputable def walpoleDensity (r1 r2 f1 : ℝ) : ℝ :=
  if r1 = r2 then r2 else fl (fl (f1 * r1) + fl (fl (1 - f1) * r2))

/-- minerals.py:66-76, the loop of `as_mixture`: `a` the mixture so far (bulk modulus, shear modulus, density), `t` its share;
the minerals still to come with their fractions. -/
noncomputable def mixLoop (a : ℝ × ℝ × ℝ) (t : ℝ) : List ((ℝ × ℝ × ℝ) × ℝ) → ℝ × ℝ × ℝ
  | [] => a
  | (b, f) :: rest =>
    let total := fl (t + f)
    let r := if total = 0 then 1 else fl (t / total)
    mixLoop (walpoleBulk fl pw a.1 b.1 (min a.2.1 b.2.1) r, walpoleShear fl pw a.2.1 b.2.1 (min a.1 b.1) (min a.2.1 b.2.1) r,
      walpoleDensity fl a.2.2 b.2.2 r) total rest

/-- fluid.py:149-154 with material.py:155-180: bulk modulus, shear modulus, density and velocities of the saturated rock. -/
noncomputable def saturate (dry : ℝ × ℝ × ℝ) (km : ℝ) (fluid : ℝ × ℝ) (φ : ℝ) : Option (ℝ × ℝ × ℝ × ℝ × ℝ) :=
  (gassmann fl dry.1 km fluid.1 φ).map fun k =>
    let ρ := saturatedDensity fl dry.2.2 fluid.2 φ
    (k, dry.2.1, ρ, primaryVelocity fl pw k dry.2.1 ρ, secondaryVelocity fl pw dry.2.1 ρ)

/-- material.py:182-192 `poisson_ratio`. -/
noncomputable def poisson (k g : ℝ) : ℝ := fl (fl (fl (3 * k) - fl (2 * g)) / fl (2 * fl (fl (3 * k) + g)))

/-- hertz_mindlin.py:39-56 `hertz_mindlin`: bulk modulus, shear modulus and density (`np.pi` is the double nearest to π, and
so is `1 / 3`). -/
noncomputable def hertzMindlin (mineral : ℝ × ℝ × ℝ) (φ p sr n : ℝ) : ℝ × ℝ × ℝ :=
  let v := poisson fl mineral.1 mineral.2.1
  let mu := mineral.2.1
  let a := pw (fl (fl (fl (fl (3 * fl Real.pi) * fl (1 - v)) * p) / fl (fl (fl (2 * n) * fl (1 - φ)) * mu))) (fl (1 / 3))
  let sn := fl (fl (fl (4 * a) * mu) / fl (1 - v))
  let st := fl (fl (fl (8 * a) * mu) / fl (2 - v))
  (fl (fl (fl (n * fl (1 - φ)) / fl (12 * fl Real.pi)) * sn),
    fl (fl (fl (n * fl (1 - φ)) / fl (20 * fl Real.pi)) * fl (sn + fl (fl (1.5 * st) * sr))),
    fl (mineral.2.2 * fl (1 - φ)))

/-- friable_sand.py:35-51 `friable_sand`. -/
noncomputable def friableSand (mineral : ℝ × ℝ × ℝ) (φ φc p n sr : ℝ) : ℝ × ℝ × ℝ :=
  let pack := hertzMindlin fl pw mineral φc p sr n
  let fraction := fl (1 - fl (φ / φc))
  (walpoleBulk fl pw mineral.1 pack.1 (min mineral.2.1 pack.2.1) fraction,
    walpoleShear fl pw mineral.2.1 pack.2.1 (min mineral.1 pack.1) (min mineral.2.1 pack.2.1) fraction,
    walpoleDensity fl mineral.2.2 pack.2.2 fraction)

end OPE.Double
