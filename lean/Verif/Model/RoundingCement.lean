import Verif.Model.Rounding

/-!
# Contact cement in double arithmetic

As in Model/Rounding.lean: one row, the result of every operation is rounded (`fl`), powers are those of the mathematical
library (`pw`), decimal literals are rounded.
-/

namespace OPE.Double

variable (fl : ℝ → ℝ) (pw : ℝ → ℝ → ℝ)

/-- The polynomials of contact_cement.py:29-41, `a ν² + b ν + c`. -/
noncomputable def quadratic (a b c ν : ℝ) : ℝ := fl (fl (fl (a * fl (ν ^ 2)) + fl (b * ν)) + c)

/-- contact_cement.py:11-43 `shear_stiffness`. -/
noncomputable def shearStiffness (cement grain ν α : ℝ) : ℝ :=
  let aat := fl (cement / fl (fl Real.pi * grain))
  let at' := fl (fl (-fl 1e-2 * quadratic fl (fl 2.26) (fl 2.07) (fl 2.3) ν) *
    pw aat (fl (fl (fl (fl 0.079 * fl (ν ^ 2)) + fl (fl 0.1754 * ν)) - fl 1.342)))
  let bt := fl (quadratic fl (fl 0.0573) (fl 0.0937) (fl 0.202) ν *
    pw aat (fl (fl (fl (fl 0.0274 * fl (ν ^ 2)) + fl (fl 0.0529 * ν)) - fl 0.8765)))
  let ct := fl (fl (fl 1e-4 * quadratic fl (fl 9.654) (fl 4.945) (fl 3.1) ν) *
    pw aat (fl (fl (fl (fl 0.01867 * fl (ν ^ 2)) + fl (fl 0.4011 * ν)) - fl 1.8186)))
  fl (fl (fl (at' * fl (α ^ 2)) + fl (bt * α)) + ct)

/-- contact_cement.py:46-75 `normal_stiffness`. -/
noncomputable def normalStiffness (ν νc cement grain α : ℝ) : ℝ :=
  let aan := fl (fl (fl (2 * cement) / fl (fl Real.pi * grain)) *
    fl (fl (fl (1 - ν) * fl (1 - νc)) / fl (1 - fl (2 * νc))))
  let cn := fl (fl 0.00024649 * pw aan (-fl 1.9864))
  let bn := fl (fl 0.20405 * pw aan (-fl 0.89008))
  let an := fl (-fl 0.024153 * pw aan (-fl 1.3646))
  fl (fl (fl (an * fl (α ^ 2)) + fl (bn * α)) + cn)

/-- contact_cement.py:78-101 `cement_radius_ratio`; `np.clip(0.0, 1.0, x)` is `min 1 x`. -/
noncomputable def radiusRatio (φ φc : ℝ) : ℝ := min 1 (pw (fl (fl (2 * fl (φc - φ)) / fl (3 * fl (1 - φc)))) 0.5)

/-- contact_cement.py:104-178 `contact_cement`, material.py:195-205 `primary_wave_modulus`: bulk modulus, shear modulus and
density.  The checks of the porosities are left out. -/
noncomputable def contactCement (cement grain : ℝ × ℝ × ℝ) (φ φc f n : ℝ) : ℝ × ℝ × ℝ :=
  let α := radiusRatio fl pw φ φc
  let st := shearStiffness fl pw cement.2.1 grain.2.1 (poisson fl grain.1 grain.2.1) α
  let sn := normalStiffness fl pw (poisson fl grain.1 grain.2.1) (poisson fl cement.1 cement.2.1) cement.2.1 grain.2.1 α
  let k := fl (fl (fl (fl (fl (1 / 6) * n) * fl (1 - φc)) * fl (cement.1 + fl (fl (4 / 3) * cement.2.1))) * sn)
  (k,
    fl (fl (fl (3 / 5) * k) + fl (fl (fl (fl (fl (f * fl (3 / 20)) * n) * fl (1 - φc)) * cement.2.1) * st)),
    fl (fl (1 - φ) * fl (fl (α * cement.2.2) + fl (fl (1 - α) * grain.2.2))))

/-- hashin_shtrikman.py:130-198 `hashin_shtrikman_walpole` with the lower bound, for one row: `f` the share of the first
material. -/
noncomputable def lowerBound (a b : ℝ × ℝ × ℝ) (f : ℝ) : ℝ × ℝ × ℝ :=
  (walpoleBulk fl pw a.1 b.1 (min a.2.1 b.2.1) f, walpoleShear fl pw a.2.1 b.2.1 (min a.1 b.1) (min a.2.1 b.2.1) f,
    walpoleDensity fl a.2.2 b.2.2 f)

/-- constant_cement.py:10-59 `constant_cement`. -/
noncomputable def constantCement (sand cement : ℝ × ℝ × ℝ) (φ φcem φc f n : ℝ) : ℝ × ℝ × ℝ :=
  lowerBound fl pw (lowerBound fl pw cement sand (fl (φc - φcem))) (contactCement fl pw cement sand φcem φc f n)
    (fl (1 - fl (φ / φcem)))

/-- patchy_cement.py:102-112, the weight of one modulus: 1 where the bounds agree, else the clipped ratio. -/
noncomputable def patchyWeight (x lo up : ℝ) : ℝ :=
  if up = lo then 1 else min 1 (max 0 (fl (fl (x - lo) / fl (up - lo))))

/-- patchy_cement.py:116-117, one modulus. -/
noncomputable def patchyModulus (loose line lo up : ℝ) : ℝ :=
  fl (loose + fl (patchyWeight fl line lo up * fl (up - loose)))

/-- patchy_cement.py:15-122 `patchy_cement`: bulk modulus, shear modulus and density. -/
noncomputable def patchyCement (sand cement : ℝ × ℝ × ℝ) (φ φcem φub p plb φc f nf nc : ℝ) : ℝ × ℝ × ℝ :=
  let mix := lowerBound fl pw cement sand (fl (φc - φub))
  let loose := friableSand fl pw mix φ φc p nf f
  let lower := friableSand fl pw mix φ φc plb nf f
  let upper := constantCement fl pw sand cement φ φub φc f nc
  let line := lowerBound fl pw mix (contactCement fl pw cement sand φcem φc f nc) (fl (1 - fl (φ / φcem)))
  let share := fl (φc - φcem)
  (patchyModulus fl loose.1 line.1 lower.1 upper.1, patchyModulus fl loose.2.1 line.2.1 lower.2.1 upper.2.1,
    fl (fl (fl (fl (1 - φ) - share) * sand.2.2) + fl (share * cement.2.2)))

end OPE.Double
