import Verif.Props.Rounding25
import Verif.Props.Rounding11

/-!
# C187: dead oil in double arithmetic
-/

namespace OPE.Double

open Classical

variable {fl : ℝ → ℝ} {pw : ℝ → ℝ → ℝ}

theorem pressureAdjusted_near (hf : RoundsToNearest fl) (hp : PowerAccurate pw) {p p' r r' : ℝ} (hp0 : 0 < p) (hp1 : p ≤ 100)
    (hr : 0.7 ≤ r) (hr1 : r ≤ 1) (np : Near 2 p p') (nr : Near 1 r r') :
    Near 26 (r + (0.00277 * p - 1.71e-7 * p ^ 3) * (r - 1.15) ^ 2 + 3.49e-4 * p) (pressureAdjusted fl pw p' r') ∧
    0.7 ≤ r + (0.00277 * p - 1.71e-7 * p ^ 3) * (r - 1.15) ^ 2 + 3.49e-4 * p := by
  have t7 : (10:ℝ) ^ (-7:ℝ) = 1e-7 := by
    rw [Real.rpow_neg (by norm_num), show (7:ℝ) = ((7:ℕ):ℝ) by norm_num, Real.rpow_natCast]; norm_num
  have t4 : (10:ℝ) ^ (-4:ℝ) = 1e-4 := by
    rw [Real.rpow_neg (by norm_num), show (4:ℝ) = ((4:ℕ):ℝ) by norm_num, Real.rpow_natCast]; norm_num
  have c7 : 1.71 * (10:ℝ) ^ (-7:ℝ) ≤ 1.72e-7 := by rw [t7]; norm_num
  have c4 : 3.49 * (10:ℝ) ^ (-4:ℝ) ≤ 3.5e-4 := by rw [t4]; norm_num
  have hp3 : p ^ 3 ≤ 1e6 := (pow_le_pow_left₀ hp0.le hp1 3).trans (by norm_num)
  have h45 : |r - 1.15| ≤ 0.45 := by rw [abs_le]; norm_num at hr ⊢; constructor <;> linarith
  have hρ' : 0.7 ≤ r + (0.00277 * p - 1.71e-7 * p ^ 3) * (r - 1.15) ^ 2 + 3.49e-4 * p := by
    have h1 : 0 ≤ 0.00277 * p - 1.71e-7 * p ^ 3 := by
      have : p ^ 2 ≤ 100 ^ 2 := pow_le_pow_left₀ hp0.le hp1 2
      have : 0.00277 * p - 1.71e-7 * p ^ 3 = p * (0.00277 - 1.71e-7 * p ^ 2) := by ring
      rw [this]
      refine mul_nonneg hp0.le ?_
      norm_num; linarith
    have h2 := mul_nonneg h1 (sq_nonneg (r - 1.15))
    have h3 : 0 ≤ 3.49e-4 * p := by positivity
    linarith
  have hρ : 0.7 ≤ r + (0.00277 * p - 1.71 * (10:ℝ) ^ (-7:ℝ) * p ^ 3) * (r - 1.15) ^ 2 + 3.49 * (10:ℝ) ^ (-4:ℝ) * p := by
    rw [t7, t4]
    norm_num at hρ' ⊢
    exact hρ'
  have n3 := (np.box (A := 100) hp1 (by norm_num)).wider (A' := 1.001e2) (e' := 4.461e-14) (by norm_num) (by norm_num)
  have n4 := (nr.box (A := 1) hr1 (by norm_num)).wider (A' := 1.001e0) (e' := 2.231e-16) (by norm_num) (by norm_num)
  have n5 := (Box.literal hf (x := 0.00277) (A := 0.00277) (by norm_num [abs_of_nonneg, abs_of_neg])).wider (A' := 2.771e-3) (e' := 3.103e-19) (by norm_num) (by norm_num)
  have n6 := ((n5.mul n3).rounded hf).wider (A' := 2.774e-1) (e' := 1.858e-16) (by norm_num) (by norm_num)
  have n7 := Near.fl0 hf (by norm_num : (0:ℝ) ≤ 1.71)
  have n8 := pw_near hp (by norm_num : (0:ℝ) < 10) (-7)
  have n9 := (n7.mul n8).fl hf
  have n10 := (n9.box (A := 1.72e-7) c7 (by norm_num)).wider (A' := 1.721e-7) (e' := 1.918e-22) (by norm_num) (by norm_num)
  have n11 := (power_int hp np hp0).1
  have n12 := (n11.box (A := 1e6) hp3 (by norm_num)).wider (A' := 1.001e6) (e' := 2.008e-9) (by norm_num) (by norm_num)
  have n13 := ((n10.mul n12).rounded hf).wider (A' := 1.723e-1) (e' := 5.569e-16) (by norm_num) (by norm_num)
  have n14 := ((n6.sub n13).rounded hf).wider (A' := 4.498e-1) (e' := 7.931e-16) (by norm_num) (by norm_num)
  have n15 := (Box.literal hf (x := 1.15) (A := 1.15) (by norm_num [abs_of_nonneg, abs_of_neg])).wider (A' := 1.151e0) (e' := 1.289e-16) (by norm_num) (by norm_num)
  have n16 := ((n4.sub n15).rounded hf).wider (A' := 2.153e0) (e' := 5.931e-16) (by norm_num) (by norm_num)
  have n17 := n16.tight (B := 0.45) h45
  have n18 := (n17.sq.rounded hf).wider (A' := 2.026e-1) (e' := 5.565e-16) (by norm_num) (by norm_num)
  have n19 := ((n14.mul n18).rounded hf).wider (A' := 9.113e-2) (e' := 4.213e-16) (by norm_num) (by norm_num)
  have n20 := ((n4.add n19).rounded hf).wider (A' := 1.093e0) (e' := 7.668e-16) (by norm_num) (by norm_num)
  have n21 := Near.fl0 hf (by norm_num : (0:ℝ) ≤ 3.49)
  have n22 := pw_near hp (by norm_num : (0:ℝ) < 10) (-4)
  have n23 := (n21.mul n22).fl hf
  have n24 := (n23.box (A := 3.5e-4) c4 (by norm_num)).wider (A' := 3.501e-4) (e' := 3.903e-19) (by norm_num) (by norm_num)
  have n25 := ((n24.mul n3).rounded hf).wider (A' := 3.505e-2) (e' := 5.862e-17) (by norm_num) (by norm_num)
  have n26 := ((n20.add n25).rounded hf).wider (A' := 1.129e0) (e' := 9.518e-16) (by norm_num) (by norm_num)
  have n27 := n26.near (m := 0.7) 26 hρ (by norm_num) (by norm_num) (by norm_num)
  refine ⟨?_, hρ'⟩
  rw [t7, t4] at n27
  norm_num at n27 ⊢
  convert n27 using 1
  unfold pressureAdjusted
  norm_num

theorem temperatureFactor_near (hf : RoundsToNearest fl) (hp : PowerAccurate pw) {T : ℝ} (hT : 0 ≤ T) (hT1 : T ≤ 350) :
    Near 25 (0.972 + 3.81e-4 * (T + 17.78) ^ (1.175:ℝ))
      (fl (fl 0.972 + fl (fl (fl 3.81 * pw 10 (-4)) * pw (fl (T + fl 17.78)) (fl 1.175)))) := by
  have t4 : (10:ℝ) ^ (-4:ℝ) = 1e-4 := by
    rw [Real.rpow_neg (by norm_num), show (4:ℝ) = ((4:ℕ):ℝ) by norm_num, Real.rpow_natCast]; norm_num
  have n1 := ((Near.refl 0 hT).add (Near.fl0 hf (by norm_num : (0:ℝ) ≤ 17.78))).fl hf
  have n2 := power_near hf hp n1 (e := 1.175) (by norm_num; linarith) (by norm_num; linarith) (by norm_num) (by norm_num)
  have n3 := ((Near.fl0 hf (by norm_num : (0:ℝ) ≤ 3.81)).mul (pw_near hp (by norm_num : (0:ℝ) < 10) (-4))).fl hf
  have n4 := ((Near.fl0 hf (by norm_num : (0:ℝ) ≤ 0.972)).add ((n3.mul n2).fl hf)).fl hf
  rw [t4, show (3.81:ℝ) * 1e-4 = 3.81e-4 by norm_num] at n4
  exact n4.mono (by norm_num)

theorem deadOilDensity_near (hf : RoundsToNearest fl) (hp : PowerAccurate pw) {T p p' r r' : ℝ} (hT : 0 ≤ T) (hT1 : T ≤ 350)
    (hp0 : 0 < p) (hp1 : p ≤ 100) (hr : 0.7 ≤ r) (hr1 : r ≤ 1) (np : Near 2 p p') (nr : Near 1 r r') :
    Near 52 (Published.deadOilDensity T p r) (deadOilDensity fl pw T p' r') := by
  have h0 : 0 < 0.972 + 3.81e-4 * (T + 17.78) ^ (1.175:ℝ) := by positivity
  unfold deadOilDensity temperatureAdjusted Published.deadOilDensity
  exact ((pressureAdjusted_near hf hp hp0 hp1 hr hr1 np nr).1.div (temperatureFactor_near hf hp hT hT1) h0).fl hf

theorem deadOilVelocity_close (hf : RoundsToNearest fl) (hp : PowerAccurate pw) {T p p' r r' : ℝ} (hT : 0 ≤ T) (hT1 : T ≤ 250)
    (hp0 : 0 < p) (hp1 : p ≤ 100) (hr : 0.7 ≤ r) (hr1 : r ≤ 1) (np : Near 2 p p') (nr : Near 1 r r') :
    |deadOilVelocity fl pw T p' r' - Published.oilVelocity T p r| ≤ 1.17e-10 := by
  have hr0 : 0 < r := lt_of_lt_of_le (by norm_num) hr
  have hT' : |T| ≤ 250 := by rw [abs_of_nonneg hT]; exact hT1
  have hq : 1.6 ≤ 2.6 - r := by norm_num; linarith
  have hq0 : 0 < 2.6 - r := lt_of_lt_of_le (by norm_num) hq
  have hs0 : 0 < r / (2.6 - r) := div_pos hr0 hq0
  have hs1 : 2096 * √(r / (2.6 - r)) ≤ 1660 := by
    have : √(r / (2.6 - r)) ≤ 0.791 := by
      rw [Real.sqrt_le_left (by norm_num), div_le_iff₀ hq0]
      norm_num; linarith
    norm_num at this ⊢; linarith
  have hw : 1.08 * r⁻¹ ≤ 1.55 := by
    rw [← div_eq_mul_inv, div_le_iff₀ hr0]
    norm_num at hr ⊢; linarith
  have hw0 : 0.079 ≤ 1.08 * r⁻¹ - 1 := by
    have : 1.08 ≤ 1.08 * r⁻¹ := by
      rw [← div_eq_mul_inv, le_div_iff₀ hr0]
      norm_num; linarith
    norm_num at this ⊢; linarith
  have hw1 : 0 < 1.08 * r⁻¹ - 1 := lt_of_lt_of_le (by norm_num) hw0
  have hw2 : 4.12 * √(1.08 * r⁻¹ - 1) ≤ 3.1 := by
    have : √(1.08 * r⁻¹ - 1) ≤ 0.75 := by
      rw [Real.sqrt_le_left (by norm_num)]
      norm_num at hw ⊢; linarith
    norm_num at this ⊢; linarith
  have n1 := (np.box (A := 100) hp1 (by norm_num)).wider (A' := 1.001e2) (e' := 4.461e-14) (by norm_num) (by norm_num)
  have n2 := (nr.box (A := 1) hr1 (by norm_num)).wider (A' := 1.001e0) (e' := 2.231e-16) (by norm_num) (by norm_num)
  have n3 := (Box.literal hf (x := 2.6) (A := 2.6) (by norm_num [abs_of_nonneg, abs_of_neg])).wider (A' := 2.601e0) (e' := 2.913e-16) (by norm_num) (by norm_num)
  have n4 := ((n3.sub n2).rounded hf).wider (A' := 3.603e0) (e' := 9.179e-16) (by norm_num) (by norm_num)
  have n5 := n4.near (m := 1.6) 12 hq (by norm_num) (by norm_num) (by norm_num)
  have n6 := (nr.div n5 hq0).fl hf
  have n7 := (n6.sqrt hs0).fl hf
  have n8 := Near.refl 0 (x := 2096) (by norm_num)
  have n9 := (n8.mul n7).fl hf
  have n10 := (n9.box (A := 1660) hs1 (by norm_num)).wider (A' := 1.661e3) (e' := 5.923e-12) (by norm_num) (by norm_num)
  have n11 := (Box.literal hf (x := 3.7) (A := 3.7) (by norm_num [abs_of_nonneg, abs_of_neg])).wider (A' := 3.701e0) (e' := 4.145e-16) (by norm_num) (by norm_num)
  have n12 := Box.exact (x := T) (A := 250) hT'
  have n13 := ((n11.mul n12).rounded hf).wider (A' := 9.253e2) (e' := 2.073e-13) (by norm_num) (by norm_num)
  have n14 := (Box.literal hf (x := 4.64) (A := 4.64) (by norm_num [abs_of_nonneg, abs_of_neg])).wider (A' := 4.641e0) (e' := 5.197e-16) (by norm_num) (by norm_num)
  have n15 := ((n14.mul n1).rounded hf).wider (A' := 4.646e2) (e' := 3.111e-13) (by norm_num) (by norm_num)
  have n16 := ((n10.sub n13).rounded hf).wider (A' := 2.587e3) (e' := 6.420e-12) (by norm_num) (by norm_num)
  have n17 := ((n16.add n15).rounded hf).wider (A' := 3.052e3) (e' := 7.073e-12) (by norm_num) (by norm_num)
  have n18 := Near.fl0 hf (by norm_num : (0:ℝ) ≤ 1.08)
  have n19 := (power_int hp nr hr0).2.2
  have n20 := (n18.mul n19).fl hf
  have n21 := (n20.box (A := 1.55) hw (by norm_num)).wider (A' := 1.551e0) (e' := 2.074e-15) (by norm_num) (by norm_num)
  have n22 := Box.exact (x := 1) (A := 1) (by norm_num)
  have n23 := ((n21.sub n22).rounded hf).wider (A' := 2.552e0) (e' := 2.360e-15) (by norm_num) (by norm_num)
  have n24 := n23.near (m := 0.079) 540 hw0 (by norm_num) (by norm_num) (by norm_num)
  have n25 := (n24.sqrt hw1).fl hf
  have n26 := Near.fl0 hf (by norm_num : (0:ℝ) ≤ 4.12)
  have n27 := (n26.mul n25).fl hf
  have n28 := (n27.box (A := 3.1) hw2 (by norm_num)).wider (A' := 3.101e0) (e' := 3.754e-13) (by norm_num) (by norm_num)
  have n29 := Box.exact (x := 1) (A := 1) (by norm_num)
  have n30 := ((n28.sub n29).rounded hf).wider (A' := 4.102e0) (e' := 3.759e-13) (by norm_num) (by norm_num)
  have n31 := (Box.literal hf (x := 0.0115) (A := 0.0115) (by norm_num [abs_of_nonneg, abs_of_neg])).wider (A' := 1.151e-2) (e' := 1.289e-18) (by norm_num) (by norm_num)
  have n32 := ((n31.mul n30).rounded hf).wider (A' := 4.722e-2) (e' := 4.338e-15) (by norm_num) (by norm_num)
  have n33 := Box.exact (x := T) (A := 250) hT'
  have n34 := ((n32.mul n33).rounded hf).wider (A' := 1.181e1) (e' := 1.086e-12) (by norm_num) (by norm_num)
  have n35 := ((n34.mul n1).rounded hf).wider (A' := 1.183e3) (e' := 1.094e-10) (by norm_num) (by norm_num)
  have n36 := ((n17.add n35).rounded hf).wider (A' := 4.236e3) (e' := 1.170e-10) (by norm_num) (by norm_num)
  have := n36.2
  unfold Published.oilVelocity deadOilVelocity
  rw [← Real.sqrt_eq_rpow, ← Real.sqrt_eq_rpow, div_eq_mul_inv 1.08 r]
  refine this.trans (by norm_num)

theorem oilVelocity_ge {T p r : ℝ} (hT : 0 ≤ T) (hT1 : T ≤ 250) (hp0 : 0 < p) (hr : 0.7 ≤ r) (hr1 : r ≤ 1) :
    340 ≤ Published.oilVelocity T p r := by
  have hr0 : 0 < r := lt_of_lt_of_le (by norm_num) hr
  have hq0 : 0 < 2.6 - r := by norm_num; linarith
  have h1 : 0.606 ≤ √(r / (2.6 - r)) := by
    refine Real.le_sqrt_of_sq_le ?_
    rw [le_div_iff₀ hq0]
    norm_num at hr ⊢; linarith
  have h2 : 0.25 ≤ √(1.08 / r - 1) := by
    refine Real.le_sqrt_of_sq_le ?_
    have : 1.08 ≤ 1.08 / r := by rw [le_div_iff₀ hr0]; norm_num; linarith
    norm_num at this ⊢; linarith
  unfold Published.oilVelocity
  rw [← Real.sqrt_eq_rpow, ← Real.sqrt_eq_rpow]
  have h3 : 0 ≤ 0.0115 * (4.12 * √(1.08 / r - 1) - 1) * T * p := by
    have : 0 ≤ 4.12 * √(1.08 / r - 1) - 1 := by norm_num at h2 ⊢; linarith
    positivity
  have h4 : 0 ≤ 4.64 * p := by positivity
  norm_num at h1 h3 h4 ⊢
  linarith

/-- **C187.** Density and bulk modulus of dead oil from temperature, pressure and reference density, in double arithmetic. -/
theorem C187_deadOil (hf : RoundsToNearest fl) (hp : PowerAccurate pw) {T P R : ℝ} (hT : 0 ≤ T ∧ T ≤ 250)
    (hP : 0 < P ∧ P ≤ 100e6) (hR : 700 ≤ R ∧ R ≤ 1000) :
    let ρ := 1000 * Published.deadOilDensity T (P * 1e-6) (R / 1000)
    let K := ρ * Published.oilVelocity T (P * 1e-6) (R / 1000) ^ 2
    |(deadOil fl pw T P R).2 - ρ| ≤ 2e-14 * ρ ∧ |(deadOil fl pw T P R).1 - K| ≤ 1e-12 * K := by
  intro ρ K
  have hp0 : 0 < P * 1e-6 := mul_pos hP.1 (by norm_num)
  have hp1 : P * 1e-6 ≤ 100 := by have := hP.2; norm_num at this ⊢; linarith
  have hr0 : 0.7 ≤ R / 1000 := by have := hR.1; norm_num; linarith
  have hr1 : R / 1000 ≤ 1 := by linarith [hR.2]
  have np : Near 2 (P * 1e-6) (fl (P * fl 1e-6)) :=
    ((Near.refl 0 hP.1.le).mul (Near.fl0 hf (by norm_num : (0:ℝ) ≤ 1e-6))).fl hf
  have nr : Near 1 (R / 1000) (fl (R / 1000)) := Near.fl0 hf (by linarith [hR.1])
  have nd := ((deadOilDensity_near hf hp hT.1 (by linarith [hT.2]) hp0 hp1 hr0 hr1 np nr).mul
    (Near.refl 0 (by norm_num : (0:ℝ) ≤ 1000))).fl hf
  have hρ0 : 0 ≤ ρ := by
    have := nd.1
    show 0 ≤ 1000 * _
    linarith
  have d1 : |(deadOil fl pw T P R).2 - ρ| ≤ 2e-14 * ρ := by
    have a := nd.accurate (by norm_num)
    unfold Accurate at a
    rw [show Published.deadOilDensity T (P * 1e-6) (R / 1000) * 1000 = ρ from mul_comm _ _, abs_of_nonneg hρ0] at a
    refine a.trans (mul_le_mul_of_nonneg_right (by norm_num) hρ0)
  refine ⟨d1, ?_⟩
  have v0 := oilVelocity_ge hT.1 hT.2 hp0 hr0 hr1
  have hv := deadOilVelocity_close hf hp hT.1 hT.2 hp0 hp1 hr0 hr1 np nr
  have hv' : |deadOilVelocity fl pw T (fl (P * fl 1e-6)) (fl (R / 1000)) - Published.oilVelocity T (P * 1e-6) (R / 1000)|
      ≤ 4e-13 * Published.oilVelocity T (P * 1e-6) (R / 1000) := by
    refine hv.trans ?_
    norm_num at v0 ⊢
    linarith
  have eK : (deadOil fl pw T P R).1 = fl (fl (fl (deadOilVelocity fl pw T (fl (P * fl 1e-6)) (fl (R / 1000)) ^ 2)
      * (deadOil fl pw T P R).2)) := by
    unfold deadOil fluidOf
    dsimp only
    rw [mul_zero, hf.zero, sub_zero]
  have hv0 : 0 ≤ Published.oilVelocity T (P * 1e-6) (R / 1000) := le_trans (by norm_num) v0
  have m := relative_fl hf (by positivity) (relative_fl hf (by positivity)
    (relative_mul (by positivity) hρ0 (relative_fl hf (by positivity) (relative_mul hv0 hv0 hv' hv')) d1))
  have hK : K = Published.oilVelocity T (P * 1e-6) (R / 1000) * Published.oilVelocity T (P * 1e-6) (R / 1000) * ρ := by
    show ρ * _ = _; ring
  rw [eK, hK, pow_two]
  refine m.trans (mul_le_mul_of_nonneg_right ?_ (by positivity))
  unfold unit
  norm_num

/-- Oil of 32 degrees API at 75 °C and 20 MPa. -/
example (hf : RoundsToNearest fl) := C187_deadOil hf (pw := fun x y => x ^ y) exists_double.2 (T := 75) (P := 20e6) (R := 865)
  (by norm_num) (by norm_num) (by norm_num)

end OPE.Double
