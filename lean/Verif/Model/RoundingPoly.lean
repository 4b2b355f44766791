import Mathlib.Analysis.Real.Sqrt

/-!
# Polynomials and brine in double arithmetic

As in Model/Rounding.lean: one row, the result of every operation is rounded (`fl`).  Decimal literals are rounded too.
-/

namespace OPE.Double

variable (fl : ℝ → ℝ)

/-- `numpy.polynomial.polynomial.polyval(x, c)`: Horner's rule, begun with `c[-1] + x*0`, as `horner` in Model/Poly.lean. -/
noncomputable def horner (x : ℝ) : {r : ℕ} → (Fin (r + 1) → ℝ) → ℝ
  | 0, a => fl (a 0 + fl (x * 0))
  | _ + 1, a => fl (a 0 + fl (horner x (fun i => a i.succ) * x))

/-- `polyval2d(x, y, c)`, as in Model/Poly.lean. -/
noncomputable def polyval2d (x y : ℝ) {r s : ℕ} (a : Fin (r + 1) → Fin (s + 1) → ℝ) : ℝ :=
  horner fl y fun j => horner fl x fun i => a i j

/-- `polyval3d(x, y, z, c)`, as in Model/Poly.lean. -/
noncomputable def polyval3d (x y z : ℝ) {r s t : ℕ} (a : Fin (r + 1) → Fin (s + 1) → Fin (t + 1) → ℝ) : ℝ :=
  horner fl z fun k => horner fl y fun j => horner fl x fun i => a i j k

/-- water_properties.py:46-59 `water_density`. -/
noncomputable def waterDensity (temperature pressure : ℝ) : ℝ :=
  polyval2d fl temperature pressure (r := 3) (s := 2) fun i j => fl
    ((![![1, 489e-6, -333e-9],
      ![-8e-5, -2e-6, -2e-09],
      ![-33e-7, 16e-9, 0],
      ![1.75e-9, -13e-12, 0]] : Fin 4 → Fin 3 → ℝ) i j)

/-- water_properties.py:62-83 `water_primary_velocity`. -/
noncomputable def waterVelocity (temperature pressure : ℝ) : ℝ :=
  polyval2d fl temperature pressure (r := 4) (s := 3) fun i j => fl
    ((![![1402.85, 1.524, 3.437e-3, -1.197e-5],
      ![4.871, -1.11e-2, 1.739e-4, -1.628e-6],
      ![-4.783e-2, 2.747e-4, -2.135e-6, 1.237e-8],
      ![1.487e-4, -6.503e-7, -1.455e-8, 1.327e-10],
      ![-2.197e-7, 7.987e-10, 5.23e-11, -4.614e-13]] : Fin 5 → Fin 4 → ℝ) i j)

/-- brine_properties.py:111-126 `brine_density`. -/
noncomputable def brineDensity (temperature pressure salinity : ℝ) : ℝ :=
  fl (waterDensity fl temperature pressure + fl (salinity *
    polyval3d fl salinity temperature pressure (r := 1) (s := 2) (t := 1) fun i j k => fl
      ((![![![0.668, 3e-4], ![8e-5, -13e-6], ![3e-6, 0]],
        ![![0.44, -24e-4], ![-33e-4, 47e-6], ![0, 0]]] : Fin 2 → Fin 3 → Fin 2 → ℝ) i j k)))

/-- brine_properties.py:129-154 `brine_primary_velocity`; `numpy.sqrt` is correctly rounded. -/
noncomputable def brineVelocity (temperature pressure salinity : ℝ) : ℝ :=
  fl (waterVelocity fl temperature pressure + fl (salinity *
    polyval3d fl (fl (Real.sqrt salinity)) temperature pressure (r := 2) (s := 3) (t := 2) fun i j k => fl
      ((![![![1170, 2.6, -0.0476], ![-9.6, -29e-4, 0], ![0.055, 0, 0], ![-8.5e-5, 0, 0]],
        ![![780, -10, 0.16], ![0, 0, 0], ![0, 0, 0], ![0, 0, 0]],
        ![![-820, 0, 0], ![0, 0, 0], ![0, 0, 0], ![0, 0, 0]]] : Fin 3 → Fin 4 → Fin 3 → ℝ) i j k)))

/-- brine_properties.py:157-169 `brine`: bulk modulus and density.  The bulk modulus is that of seismic_velocity.py:42-52
with shear modulus 0. -/
noncomputable def brine (temperature pressure salinity : ℝ) : ℝ × ℝ :=
  let p := fl (pressure * fl 1e-6)
  let s := fl (salinity * fl 1e-6)
  let density := fl (brineDensity fl temperature p s * 1000)
  let vp := brineVelocity fl temperature p s
  (fl (fl (fl (vp ^ 2) * density) - fl (fl (4 / 3) * 0)), density)

end OPE.Double
