import Verif.Props.Rounding30
import Verif.Props.Published
import Verif.Props.Continuity2

/-!
# Oil, gas and brine without rounding are the published formulas
-/

namespace OPE.Double

theorem deadOilDensity_id (T p r : ℝ) :
    deadOilDensity id (fun x y => x ^ y) T p r = Published.deadOilDensity T p r := by
  have t7 : (10:ℝ) ^ (-7:ℝ) = 1e-7 := by
    rw [Real.rpow_neg (by norm_num), show (7:ℝ) = ((7:ℕ):ℝ) by norm_num, Real.rpow_natCast]; norm_num
  have t4 : (10:ℝ) ^ (-4:ℝ) = 1e-4 := by
    rw [Real.rpow_neg (by norm_num), show (4:ℝ) = ((4:ℕ):ℝ) by norm_num, Real.rpow_natCast]; norm_num
  have p3 : p ^ (3:ℝ) = p ^ 3 := by rw [show (3:ℝ) = ((3:ℕ):ℝ) by norm_num, Real.rpow_natCast]
  unfold deadOilDensity temperatureAdjusted pressureAdjusted Published.deadOilDensity
  simp only [id, t7, t4, p3]
  norm_num

theorem deadOilVelocity_id {T p r : ℝ} :
    deadOilVelocity id (fun x y => x ^ y) T p r = Published.oilVelocity T p r := by
  unfold deadOilVelocity Published.oilVelocity
  simp only [id, Real.sqrt_eq_rpow, Real.rpow_neg_one, div_eq_mul_inv 1.08 r]

theorem double_deadOil_exact (T P R : ℝ) :
    deadOil id (fun x y => x ^ y) T P R =
      (1000 * Published.deadOilDensity T (P * 1e-6) (R / 1000) * Published.oilVelocity T (P * 1e-6) (R / 1000) ^ 2,
        1000 * Published.deadOilDensity T (P * 1e-6) (R / 1000)) := by
  unfold deadOil fluidOf
  simp only [id, deadOilDensity_id T (P * 1e-6) (R / 1000), deadOilVelocity_id (T := T) (p := P * 1e-6) (r := R / 1000)]
  refine Prod.ext ?_ ?_
  · simp only []; ring
  · simp only []; ring

theorem volumeFactor_id (T r R G : ℝ) :
    volumeFactor id (fun x y => x ^ y) T r R G = Published.volumeFactor T r R G := by
  unfold volumeFactor Published.volumeFactor
  simp only [id, Real.sqrt_eq_rpow]

theorem window_id (R : ℝ) : window id R = Published.deadWeight R := by
  unfold window Published.deadWeight
  simp only [id, div_one]
  split_ifs with h1 h2
  · rw [abs_of_pos (by linarith), max_eq_left (by linarith)]
  · rw [abs_of_neg (by linarith), max_eq_left (by linarith)]
  · have : |R| ≤ 1 := abs_le.mpr ⟨by linarith, by linarith⟩
    rw [abs_of_nonpos (by linarith), max_eq_right (by linarith)]; ring

theorem double_oil_exact (T P r R G : ℝ) :
    oil id (fun x y => x ^ y) T P r R G = ((Published.oil T P r R G).K, (Published.oil T P r R G).ρ) := by
  have hl : liveOilDensity id (fun x y => x ^ y) T (r / 1000) R G = Published.liveOilDensity T (r / 1000) R G := by
    unfold liveOilDensity Published.liveOilDensity
    rw [volumeFactor_id]; rfl
  have hq : pseudoDensity id (fun x y => x ^ y) T (r / 1000) R G = Published.pseudoDensity T (r / 1000) R G := by
    unfold pseudoDensity Published.pseudoDensity
    rw [volumeFactor_id, ← div_eq_mul_inv]; rfl
  have hd := deadOilDensity_id T (P * 1e-6) (r / 1000)
  have hv := deadOilVelocity_id (T := T) (p := P * 1e-6) (r := r / 1000)
  have hv' := deadOilVelocity_id (T := T) (p := P * 1e-6) (r := Published.pseudoDensity T (r / 1000) R G)
  rw [← hq] at hv'
  unfold oil fluidOf Published.oil
  simp only [id, hl, hd, hv, hv', window_id]
  simp only [hq]
  refine Prod.ext ?_ ?_
  · simp only []; ring
  · simp only []; ring

theorem gasZ_id {t p : ℝ} :
    gasZ id (fun x y => x ^ y) Real.exp t p = Published.gasZ t p := by
  have c3 : ∀ x : ℝ, x ^ (3:ℝ) = x ^ 3 := fun x => by rw [show (3:ℝ) = ((3:ℕ):ℝ) by norm_num, Real.rpow_natCast]
  have c4 : ∀ x : ℝ, x ^ (4:ℝ) = x ^ 4 := fun x => by rw [show (4:ℝ) = ((4:ℕ):ℝ) by norm_num, Real.rpow_natCast]
  unfold gasZ Published.gasZ
  simp only [id, c3, c4]
  rw [neg_mul, neg_div, Real.exp_neg]
  ring

theorem gasRate_id {t p : ℝ} (hp : 0 < p) :
    gasRate id (fun x y => x ^ y) Real.exp t p = deriv (Published.gasZ t) p := by
  have c3 : ∀ x : ℝ, x ^ (3:ℝ) = x ^ 3 := fun x => by rw [show (3:ℝ) = ((3:ℕ):ℝ) by norm_num, Real.rpow_natCast]
  rw [gasZ_deriv hp]
  unfold gasRate
  simp only [id, c3, Real.rpow_neg_one]
  rw [div_eq_mul_inv, mul_inv, ← Real.exp_neg]
  simp only [neg_mul, neg_div, one_div]
  ring

theorem double_gas_exact {T P G : ℝ} (hP : 0 < Published.gasPpr (P * 1e-6) G) :
    gas id (fun x y => x ^ y) Real.exp T P G = ((Published.gas T P G).K, (Published.gas T P G).ρ) := by
  unfold gas gasBulk gasDensity idealGasDensity Published.gas Published.gasBulk Published.gasDensity
  have ht : gasTpr id (id (T + id 273.15)) G = Published.gasTpr (T + 273.15) G := rfl
  have hp : gasPpr id (id (P * id 1e-6)) G = Published.gasPpr (P * 1e-6) G := rfl
  simp only [ht, hp, gasZ_id, gasRate_id hP]
  simp only [id, Published.gasGamma]
  refine Prod.ext ?_ ?_
  · simp only [neg_mul]
    ring
  · simp only []
    rw [div_div_eq_mul_div]
    field_simp
    norm_num
    ring

end OPE.Double
