import Verif.Props.SpanWagner2
import Mathlib.Analysis.Convex.SpecificFunctions.Basic
import Mathlib.Analysis.Complex.ExponentialBounds

/-!
# Carbon dioxide: phase boundaries and the density bracket (C68, C69)
-/

namespace OPE.CO2

open Classical

/-! ### Powers -/

/-- A power `≥ 1` grows at most `p` times as fast as its argument on `[0, 1]`. -/
theorem rpow_sub_le {s t p : ℝ} (hs : 0 ≤ s) (hst : s ≤ t) (ht : t ≤ 1) (hp : 1 ≤ p) :
    t ^ p - s ^ p ≤ p * (t - s) := by
  rcases hst.eq_or_lt with rfl | hlt
  · simp
  have ht0 : 0 < t := lt_of_le_of_lt hs hlt
  have hb := one_add_mul_self_le_rpow_one_add (s := s / t - 1) (by have := div_nonneg hs ht0.le; linarith) hp
  rw [add_sub_cancel, Real.div_rpow hs ht0.le, le_div_iff₀ (Real.rpow_pos_of_pos ht0 p)] at hb
  have h1 : t ^ p = t ^ (p - 1) * t := by rw [← Real.rpow_add_one ht0.ne', sub_add_cancel]
  have h2 : t ^ (p - 1) ≤ 1 := Real.rpow_le_one ht0.le ht (by linarith)
  have h3 : (1 + p * (s / t - 1)) * t ^ p = t ^ p - p * t ^ (p - 1) * (t - s) := by
    rw [h1]; field_simp; ring
  rw [h3] at hb
  have h4 : p * t ^ (p - 1) * (t - s) ≤ p * 1 * (t - s) := by
    apply mul_le_mul_of_nonneg_right _ (by linarith)
    exact mul_le_mul_of_nonneg_left h2 (by linarith)
  linarith

/-- The same with a bound `M` on `t ^ (p - 1)`. -/
theorem rpow_sub_le' {s t p M : ℝ} (hs : 0 ≤ s) (hst : s ≤ t) (hp : 1 ≤ p) (hM : t ^ (p - 1) ≤ M) :
    t ^ p - s ^ p ≤ p * M * (t - s) := by
  rcases hst.eq_or_lt with rfl | hlt
  · simp
  have ht0 : 0 < t := lt_of_le_of_lt hs hlt
  have hb := one_add_mul_self_le_rpow_one_add (s := s / t - 1) (by have := div_nonneg hs ht0.le; linarith) hp
  rw [add_sub_cancel, Real.div_rpow hs ht0.le, le_div_iff₀ (Real.rpow_pos_of_pos ht0 p)] at hb
  have h1 : t ^ p = t ^ (p - 1) * t := by rw [← Real.rpow_add_one ht0.ne', sub_add_cancel]
  have h3 : (1 + p * (s / t - 1)) * t ^ p = t ^ p - p * t ^ (p - 1) * (t - s) := by
    rw [h1]; field_simp; ring
  rw [h3] at hb
  have h4 : p * t ^ (p - 1) * (t - s) ≤ p * M * (t - s) := by
    apply mul_le_mul_of_nonneg_right _ (by linarith)
    exact mul_le_mul_of_nonneg_left hM (by linarith)
  linarith

/-- `x ≤ b` from `x ^ q ≤ b ^ q`-like bounds: a fractional power of `t ≤ a` is at most `b`. -/
theorem rpow_frac_le {t a b : ℝ} {p q : ℕ} (ht : 0 ≤ t) (hta : t ≤ a) (hb : 0 ≤ b) (hq : q ≠ 0)
    (h : a ^ p ≤ b ^ q) : t ^ ((p : ℝ) / q) ≤ b := by
  have h1 : t ^ ((p : ℝ) / q) = (t ^ p) ^ ((q : ℝ)⁻¹) := by
    rw [← Real.rpow_natCast t p, ← Real.rpow_mul ht, div_eq_mul_inv]
  rw [h1]
  have h2 : t ^ p ≤ b ^ q := (pow_le_pow_left₀ ht hta p).trans h
  have h3 := Real.rpow_le_rpow (pow_nonneg ht p) h2 (inv_nonneg.mpr (Nat.cast_nonneg q))
  rwa [Real.pow_rpow_inv_natCast hb hq] at h3

theorem le_rpow_frac {t a b : ℝ} {p q : ℕ} (ha : 0 ≤ a) (hta : a ≤ t) (hb : 0 ≤ b) (hq : q ≠ 0)
    (h : b ^ q ≤ a ^ p) : b ≤ t ^ ((p : ℝ) / q) := by
  have ht := ha.trans hta
  have h1 : t ^ ((p : ℝ) / q) = (t ^ p) ^ ((q : ℝ)⁻¹) := by
    rw [← Real.rpow_natCast t p, ← Real.rpow_mul ht, div_eq_mul_inv]
  rw [h1]
  have h2 : b ^ q ≤ t ^ p := h.trans (pow_le_pow_left₀ ha hta p)
  have h3 := Real.rpow_le_rpow (pow_nonneg hb q) h2 (inv_nonneg.mpr (Nat.cast_nonneg q))
  rwa [Real.pow_rpow_inv_natCast hb hq] at h3

/-! ### The curves over the reals -/

/-- Exponent of the saturated liquid density, as a function of `t = 1 - T/Tc`. -/
noncomputable def liquidExp (t : ℝ) : ℝ :=
  1.9245108 * t ^ (0.34 : ℝ) + -0.62385555 * t ^ (0.5 : ℝ) + -0.32731127 * t ^ (10/6 : ℝ)
    + 0.39245142 * t ^ (11/6 : ℝ)

/-- Exponent of the saturated vapour density. -/
noncomputable def vaporExp (t : ℝ) : ℝ :=
  -1.7074879 * t ^ (0.34 : ℝ) + -0.82274670 * t ^ (0.5 : ℝ) + -4.6008549 * t
    + -10.111178 * t ^ (7/3 : ℝ) + -29.742252 * t ^ (14/3 : ℝ)

/-- Numerator of the exponent of the vapour pressure. -/
noncomputable def vaporPExp (t : ℝ) : ℝ :=
  -7.0602087 * t ^ (1 : ℝ) + 1.9391218 * t ^ (1.5 : ℝ) + -1.6463597 * t ^ (2 : ℝ) + -3.2995634 * t ^ (4 : ℝ)

/-- Numerator of the exponent of the sublimation pressure. -/
noncomputable def sublExp (t : ℝ) : ℝ :=
  -14.740846 * t + 2.4327015 * t ^ (1.9 : ℝ) + -5.3061778 * t ^ (2.9 : ℝ)

theorem critT_pos : (0:ℝ) < criticalTemperature := by norm_num [criticalTemperature]
theorem critD_pos : (0:ℝ) < criticalDensity := by norm_num [criticalDensity]
theorem critP_pos : (0:ℝ) < criticalPressure := by norm_num [criticalPressure]
theorem tripT_pos : (0:ℝ) < tripleTemperature := by norm_num [tripleTemperature]
theorem tripP_pos : (0:ℝ) < triplePressure := by norm_num [triplePressure]

theorem reduced_nonneg {T c : ℝ} (hc : 0 < c) (hT : T ≤ c) : 0 ≤ 1 - T / c := by
  have := (div_le_one hc).mpr hT; linarith

theorem liquid_fin {T : ℝ} (hT : T ≤ criticalTemperature) : saturatedLiquid (Num.fin T) =
    Num.fin (criticalDensity * Real.exp (liquidExp (1 - T / criticalTemperature))) := by
  have ht := reduced_nonneg critT_pos hT
  simp only [saturatedLiquid, Num.fin_div _ critT_pos.ne', Num.fin_sub]
  rw [Num.fin_pow_nonneg ht (by norm_num), Num.fin_pow_nonneg ht (by norm_num),
    Num.fin_pow_nonneg ht (by norm_num), Num.fin_pow_nonneg ht (by norm_num)]
  simp only [Num.fin_mul, Num.fin_add, Num.fin_exp]
  rfl

theorem vapor_fin {T : ℝ} (hT : T ≤ criticalTemperature) : saturatedVapor (Num.fin T) =
    Num.fin (criticalDensity * Real.exp (vaporExp (1 - T / criticalTemperature))) := by
  have ht := reduced_nonneg critT_pos hT
  simp only [saturatedVapor, Num.fin_div _ critT_pos.ne', Num.fin_sub]
  rw [Num.fin_pow_nonneg ht (by norm_num), Num.fin_pow_nonneg ht (by norm_num),
    Num.fin_pow_nonneg ht (by norm_num), Num.fin_pow_nonneg ht (by norm_num)]
  simp only [Num.fin_mul, Num.fin_add, Num.fin_exp]
  rfl

theorem vaporP_fin {T : ℝ} (h0 : 0 < T) (hT : T ≤ criticalTemperature) : vaporPressure (Num.fin T) =
    Num.fin (criticalPressure * Real.exp (vaporPExp (1 - T / criticalTemperature)
      / (1 - (1 - T / criticalTemperature)))) := by
  have ht := reduced_nonneg critT_pos hT
  have hne : (1 - (1 - T / criticalTemperature)) ≠ 0 := by
    rw [sub_sub_cancel]; exact (div_pos h0 critT_pos).ne'
  simp only [vaporPressure, Num.fin_div _ critT_pos.ne', Num.fin_sub]
  rw [Num.fin_pow_nonneg ht (by norm_num), Num.fin_pow_nonneg ht (by norm_num),
    Num.fin_pow_nonneg ht (by norm_num), Num.fin_pow_nonneg ht (by norm_num)]
  simp only [Num.fin_mul, Num.fin_add, Num.fin_div _ hne, Num.fin_exp]
  rfl

theorem subl_fin {T : ℝ} (h0 : 0 < T) (hT : T ≤ tripleTemperature) : sublimationPressure (Num.fin T) =
    Num.fin (triplePressure * Real.exp (sublExp (1 - T / tripleTemperature)
      / (1 - (1 - T / tripleTemperature)))) := by
  have ht := reduced_nonneg tripT_pos hT
  have hne : (1 - (1 - T / tripleTemperature)) ≠ 0 := by
    rw [sub_sub_cancel]; exact (div_pos h0 tripT_pos).ne'
  simp only [sublimationPressure, Num.fin_div _ tripT_pos.ne', Num.fin_sub]
  rw [Num.fin_pow_nonneg ht (by norm_num), Num.fin_pow_nonneg ht (by norm_num)]
  simp only [Num.fin_mul, Num.fin_add, Num.fin_div _ hne, Num.fin_exp]
  rfl

theorem melting_fin (T : ℝ) : meltingPressure (Num.fin T) =
    Num.fin (triplePressure * (1 + 1955.5390 * (T / tripleTemperature - 1)
      + 2055.4593 * (T / tripleTemperature - 1) ^ 2)) := by
  simp only [meltingPressure, Num.fin_div _ tripT_pos.ne', Num.fin_sub, Num.fin_mul, Num.fin_powi_two,
    Num.fin_add]

/-! ### C68 -/

/-- **C68.** Melting and sublimation curve meet at the triple point; the vapour pressure ends at the critical
pressure; both saturated densities end at the critical density. -/
theorem C68_curves_meet :
    meltingPressure (Num.fin tripleTemperature) = Num.fin triplePressure ∧
    sublimationPressure (Num.fin tripleTemperature) = Num.fin triplePressure ∧
    vaporPressure (Num.fin criticalTemperature) = Num.fin criticalPressure ∧
    saturatedLiquid (Num.fin criticalTemperature) = Num.fin criticalDensity ∧
    saturatedVapor (Num.fin criticalTemperature) = Num.fin criticalDensity := by
  refine ⟨?_, ?_, ?_, ?_, ?_⟩
  · rw [melting_fin, div_self tripT_pos.ne']; norm_num
  · rw [subl_fin tripT_pos le_rfl, div_self tripT_pos.ne']
    norm_num [sublExp]
  · rw [vaporP_fin critT_pos le_rfl, div_self critT_pos.ne']
    norm_num [vaporPExp]
  · rw [liquid_fin le_rfl, div_self critT_pos.ne']
    norm_num [liquidExp]
  · rw [vapor_fin le_rfl, div_self critT_pos.ne']
    norm_num [vaporExp]

theorem reduced_pos {T c : ℝ} (hc : 0 < c) (hT : T < c) : 0 < 1 - T / c := by
  have := (div_lt_one hc).mpr hT; linarith

/-- **C68, order.** Below the critical temperature the saturated vapour is lighter, and the saturated liquid
heavier, than the fluid at the critical point. -/
theorem C68_order {T : ℝ} (h0 : 0 ≤ T) (hT : T < criticalTemperature) : ∃ v l : ℝ,
    saturatedVapor (Num.fin T) = Num.fin v ∧ saturatedLiquid (Num.fin T) = Num.fin l ∧
    0 < v ∧ v < criticalDensity ∧ criticalDensity < l := by
  have ht := reduced_pos critT_pos hT
  have ht1 : 1 - T / criticalTemperature ≤ 1 := by
    have := div_nonneg h0 critT_pos.le; linarith
  refine ⟨_, _, vapor_fin hT.le, liquid_fin hT.le, mul_pos critD_pos (Real.exp_pos _), ?_, ?_⟩
  · have : Real.exp (vaporExp (1 - T / criticalTemperature)) < 1 := by
      rw [Real.exp_lt_one_iff]
      unfold vaporExp
      generalize 1 - T / criticalTemperature = t at ht
      have h1 := Real.rpow_pos_of_pos ht 0.34
      have h2 := Real.rpow_pos_of_pos ht 0.5
      have h3 := Real.rpow_pos_of_pos ht (7/3)
      have h4 := Real.rpow_pos_of_pos ht (14/3)
      linarith
    have := mul_lt_mul_of_pos_left this critD_pos
    linarith
  · have : 1 < Real.exp (liquidExp (1 - T / criticalTemperature)) := by
      rw [Real.one_lt_exp_iff]
      unfold liquidExp
      generalize 1 - T / criticalTemperature = t at ht ht1
      have h1 := Real.rpow_pos_of_pos ht 0.34
      have h2 := Real.rpow_le_rpow_of_exponent_ge ht ht1 (show (0.34:ℝ) ≤ 0.5 by norm_num)
      have h3 := Real.rpow_le_rpow_of_exponent_ge ht ht1 (show (0.34:ℝ) ≤ 10/6 by norm_num)
      have h4 := Real.rpow_pos_of_pos ht (11/6)
      linarith
    have := mul_lt_mul_of_pos_left this critD_pos
    linarith

/-- A quotient `N t / (1 - t)` of a strictly growing nonnegative numerator grows. -/
theorem quotient_lt {a b s t : ℝ} (ha : 0 ≤ a) (hab : a < b) (hst : s < t) (ht : t < 1) :
    a / (1 - s) < b / (1 - t) := by
  rw [div_lt_div_iff₀ (by linarith) (by linarith)]
  nlinarith

theorem vaporPExp_anti {s t : ℝ} (hs : 0 ≤ s) (hst : s < t) (ht : t ≤ 1) : vaporPExp t < vaporPExp s := by
  unfold vaporPExp
  have h1 := rpow_sub_le hs hst.le ht (show (1:ℝ) ≤ 1.5 by norm_num)
  have h2 := Real.rpow_le_rpow hs hst.le (show (0:ℝ) ≤ 2 by norm_num)
  have h3 := Real.rpow_le_rpow hs hst.le (show (0:ℝ) ≤ 4 by norm_num)
  rw [Real.rpow_one, Real.rpow_one]
  linarith

theorem sublExp_anti {s t : ℝ} (hs : 0 ≤ s) (hst : s < t) (ht : t ≤ 1) : sublExp t < sublExp s := by
  unfold sublExp
  have h1 := rpow_sub_le hs hst.le ht (show (1:ℝ) ≤ 1.9 by norm_num)
  have h3 := Real.rpow_le_rpow hs hst.le (show (0:ℝ) ≤ 2.9 by norm_num)
  linarith

theorem reduced_anti {S T c : ℝ} (hc : 0 < c) (h : S < T) : 1 - T / c < 1 - S / c := by
  have := div_lt_div_of_pos_right h hc; linarith

theorem quotientExp_lt {N : ℝ → ℝ} (hN : ∀ {s t : ℝ}, 0 ≤ s → s < t → t ≤ 1 → N t < N s) (hN0 : N 0 = 0)
    {S T c : ℝ} (hc : 0 < c) (h0 : 0 < S) (h : S < T) (hT : T ≤ c) :
    N (1 - S / c) / (1 - (1 - S / c)) < N (1 - T / c) / (1 - (1 - T / c)) := by
  have h1 := reduced_anti hc h
  have h2 := reduced_nonneg hc hT
  have h3 : 1 - S / c < 1 := by have := div_pos h0 hc; linarith
  have h4 := hN h2 h1 h3.le
  have h5 : N (1 - T / c) ≤ 0 := by
    rcases h2.eq_or_lt with h | h
    · rw [← h, hN0]
    · have := hN le_rfl h (by linarith); linarith
  have := quotient_lt (a := -N (1 - T / c)) (b := -N (1 - S / c)) (by linarith) (by linarith) h1 h3
  rw [neg_div, neg_div] at this
  linarith

/-- **C68, monotone.** Along each curve pressure rises strictly with temperature, saturated vapour becomes
denser, and (above the triple point) saturated liquid less dense. -/
theorem C68_monotone {S T s t : ℝ} (h : S < T) :
    (tripleTemperature ≤ S → meltingPressure (Num.fin S) = Num.fin s → meltingPressure (Num.fin T) = Num.fin t →
      s < t) ∧
    (0 < S → T ≤ tripleTemperature → sublimationPressure (Num.fin S) = Num.fin s →
      sublimationPressure (Num.fin T) = Num.fin t → s < t) ∧
    (0 < S → T ≤ criticalTemperature → vaporPressure (Num.fin S) = Num.fin s →
      vaporPressure (Num.fin T) = Num.fin t → s < t) ∧
    (0 ≤ S → T ≤ criticalTemperature → saturatedVapor (Num.fin S) = Num.fin s →
      saturatedVapor (Num.fin T) = Num.fin t → s < t) ∧
    (tripleTemperature ≤ S → T ≤ criticalTemperature → saturatedLiquid (Num.fin S) = Num.fin s →
      saturatedLiquid (Num.fin T) = Num.fin t → t < s) := by
  refine ⟨?_, ?_, ?_, ?_, ?_⟩
  · intro h0 hs ht
    rw [melting_fin, Num.fin_inj] at hs ht
    subst hs ht
    apply mul_lt_mul_of_pos_left _ tripP_pos
    have h1 := div_lt_div_of_pos_right h tripT_pos
    have h2 := (one_le_div tripT_pos).mpr h0
    nlinarith
  · intro h0 hT hs ht
    rw [subl_fin h0 (h.le.trans hT), Num.fin_inj] at hs
    rw [subl_fin (h0.trans h) hT, Num.fin_inj] at ht
    subst hs ht
    apply mul_lt_mul_of_pos_left _ tripP_pos
    rw [Real.exp_lt_exp]
    exact quotientExp_lt sublExp_anti (by norm_num [sublExp]) tripT_pos h0 h hT
  · intro h0 hT hs ht
    rw [vaporP_fin h0 (h.le.trans hT), Num.fin_inj] at hs
    rw [vaporP_fin (h0.trans h) hT, Num.fin_inj] at ht
    subst hs ht
    apply mul_lt_mul_of_pos_left _ critP_pos
    rw [Real.exp_lt_exp]
    exact quotientExp_lt vaporPExp_anti (by norm_num [vaporPExp]) critT_pos h0 h hT
  · intro h0 hT hs ht
    rw [vapor_fin (h.le.trans hT), Num.fin_inj] at hs
    rw [vapor_fin hT, Num.fin_inj] at ht
    subst hs ht
    apply mul_lt_mul_of_pos_left _ critD_pos
    rw [Real.exp_lt_exp]
    have h1 := reduced_anti critT_pos h
    have h2 := reduced_nonneg critT_pos hT
    unfold vaporExp
    generalize 1 - T / criticalTemperature = b at h1 h2
    generalize 1 - S / criticalTemperature = a at h1
    have e1 := Real.rpow_le_rpow h2 h1.le (show (0:ℝ) ≤ 0.34 by norm_num)
    have e2 := Real.rpow_le_rpow h2 h1.le (show (0:ℝ) ≤ 0.5 by norm_num)
    have e3 := Real.rpow_le_rpow h2 h1.le (show (0:ℝ) ≤ 7/3 by norm_num)
    have e4 := Real.rpow_le_rpow h2 h1.le (show (0:ℝ) ≤ 14/3 by norm_num)
    linarith
  · intro h0 hT hs ht
    rw [liquid_fin (h.le.trans hT), Num.fin_inj] at hs
    rw [liquid_fin hT, Num.fin_inj] at ht
    subst hs ht
    apply mul_lt_mul_of_pos_left _ critD_pos
    rw [Real.exp_lt_exp]
    have h1 := reduced_anti critT_pos h
    have h2 := reduced_nonneg critT_pos hT
    have h3 : 1 - S / criticalTemperature ≤ 0.3 := by
      have : tripleTemperature / criticalTemperature ≤ S / criticalTemperature :=
        div_le_div_of_nonneg_right h0 critT_pos.le
      have e : (0.7:ℝ) ≤ tripleTemperature / criticalTemperature := by
        norm_num [tripleTemperature, criticalTemperature]
      linarith
    unfold liquidExp
    generalize 1 - T / criticalTemperature = b at h1 h2
    generalize 1 - S / criticalTemperature = a at h1 h3
    have ha : 0 ≤ a := h2.trans h1.le
    have hu : b ^ (0.34:ℝ) ≤ a ^ (0.34:ℝ) := Real.rpow_le_rpow h2 h1.le (by norm_num)
    have hub : 0 ≤ b ^ (0.34:ℝ) := Real.rpow_nonneg h2 _
    have hua : a ^ (0.34:ℝ) ≤ 1 := Real.rpow_le_one ha (by linarith) (by norm_num)
    have e1 := rpow_sub_le hub hu hua (show (1:ℝ) ≤ 25/17 by norm_num)
    rw [← Real.rpow_mul ha, ← Real.rpow_mul h2, show (0.34:ℝ) * (25/17) = 0.5 by norm_num] at e1
    have e2 := rpow_sub_le hub hu hua (show (1:ℝ) ≤ 50/17 by norm_num)
    rw [← Real.rpow_mul ha, ← Real.rpow_mul h2, show (0.34:ℝ) * (50/17) = 1 by norm_num, Real.rpow_one,
      Real.rpow_one] at e2
    have hm : a ^ ((10/6:ℝ) - 1) ≤ 0.45 := by
      have := rpow_frac_le (t := a) (a := 0.3) (b := 0.45) (p := 2) (q := 3) ha h3 (by norm_num) (by norm_num)
        (by norm_num)
      convert this using 2
      norm_num
    have e3 := rpow_sub_le' h2 h1.le (show (1:ℝ) ≤ 10/6 by norm_num) hm
    have e4 := Real.rpow_le_rpow h2 h1.le (show (0:ℝ) ≤ 11/6 by norm_num)
    linarith

/-- The hypotheses are met: all five curves have numbers as values on their ranges. -/
theorem C68_defined {T : ℝ} :
    (∃ x, meltingPressure (Num.fin T) = Num.fin x) ∧
    (0 < T → T ≤ tripleTemperature → ∃ x, sublimationPressure (Num.fin T) = Num.fin x ∧ 0 < x) ∧
    (0 < T → T ≤ criticalTemperature → ∃ x, vaporPressure (Num.fin T) = Num.fin x ∧ 0 < x) ∧
    (T ≤ criticalTemperature → ∃ x, saturatedVapor (Num.fin T) = Num.fin x ∧ 0 < x) ∧
    (T ≤ criticalTemperature → ∃ x, saturatedLiquid (Num.fin T) = Num.fin x ∧ 0 < x) :=
  ⟨⟨_, melting_fin T⟩, fun h0 h => ⟨_, subl_fin h0 h, mul_pos tripP_pos (Real.exp_pos _)⟩,
    fun h0 h => ⟨_, vaporP_fin h0 h, mul_pos critP_pos (Real.exp_pos _)⟩,
    fun h => ⟨_, vapor_fin h, mul_pos critD_pos (Real.exp_pos _)⟩,
    fun h => ⟨_, liquid_fin h, mul_pos critD_pos (Real.exp_pos _)⟩⟩

/-! ### C69 -/

theorem reduced_le {T : ℝ} (h0 : tripleTemperature ≤ T) : 1 - T / criticalTemperature ≤ 0.29 := by
  have : tripleTemperature / criticalTemperature ≤ T / criticalTemperature :=
    div_le_div_of_nonneg_right h0 critT_pos.le
  have e : (0.71:ℝ) ≤ tripleTemperature / criticalTemperature := by
    norm_num [tripleTemperature, criticalTemperature]
  linarith

theorem vapor_gt {T : ℝ} (h0 : tripleTemperature ≤ T) (hT : T ≤ criticalTemperature) :
    1 < criticalDensity * Real.exp (vaporExp (1 - T / criticalTemperature)) := by
  have h1 := reduced_le h0
  have h2 := reduced_nonneg critT_pos hT
  generalize 1 - T / criticalTemperature = t at h1 h2
  have h3 : -5 ≤ vaporExp t := by
    unfold vaporExp
    have e1 : t ^ (0.34:ℝ) ≤ 1 := Real.rpow_le_one h2 (by linarith) (by norm_num)
    have e2 : t ^ (0.5:ℝ) ≤ 1 := Real.rpow_le_one h2 (by linarith) (by norm_num)
    have e3 : t ^ (7/3:ℝ) ≤ 0.0841 := by
      have := rpow_frac_le (t := t) (a := 0.29) (b := 0.0841) (p := 7) (q := 3) h2 h1 (by norm_num) (by norm_num)
        (by norm_num)
      exact_mod_cast this
    have e4 : t ^ (14/3:ℝ) ≤ 0.00708 := by
      have := rpow_frac_le (t := t) (a := 0.29) (b := 0.00708) (p := 14) (q := 3) h2 h1 (by norm_num) (by norm_num)
        (by norm_num)
      exact_mod_cast this
    linarith
  have h4 : Real.exp (-5) ≤ Real.exp (vaporExp t) := Real.exp_le_exp.mpr h3
  have h5 : (1/243:ℝ) ≤ Real.exp (-5) := by
    rw [Real.exp_neg, ← one_div]
    apply one_div_le_one_div_of_le (Real.exp_pos 5)
    have : Real.exp 5 = Real.exp 1 ^ 5 := by rw [← Real.exp_nat_mul]; norm_num
    rw [this]
    have := Real.exp_one_lt_d9
    calc Real.exp 1 ^ 5 ≤ 3 ^ 5 := pow_le_pow_left₀ (Real.exp_pos 1).le (by linarith) 5
      _ = 243 := by norm_num
  have : (1:ℝ) < criticalDensity * (1/243) := by norm_num [criticalDensity]
  have := mul_le_mul_of_nonneg_left (h5.trans h4) critD_pos.le
  linarith

theorem liquid_lt {T : ℝ} (h0 : tripleTemperature ≤ T) (hT : T ≤ criticalTemperature) :
    criticalDensity * Real.exp (liquidExp (1 - T / criticalTemperature)) < 1500 := by
  have h1 := reduced_le h0
  have h2 := reduced_nonneg critT_pos hT
  generalize 1 - T / criticalTemperature = t at h1 h2
  have h3 : liquidExp t ≤ 1.14 := by
    unfold liquidExp
    have e3 : t ^ (11/6:ℝ) ≤ t ^ (10/6:ℝ) := by
      rcases h2.eq_or_lt with h | h
      · rw [← h, Real.zero_rpow (by norm_num), Real.zero_rpow (by norm_num)]
      · exact Real.rpow_le_rpow_of_exponent_ge h (by linarith) (by norm_num)
    have e4 : t ^ (10/6:ℝ) ≤ 0.29 := by
      have := rpow_frac_le (t := t) (a := 0.29) (b := 0.29) (p := 10) (q := 6) h2 h1 (by norm_num) (by norm_num)
        (by norm_num)
      exact_mod_cast this
    have e0 : 0 ≤ t ^ (0.5:ℝ) := Real.rpow_nonneg h2 _
    rcases le_total t 0.2 with h | h
    · have e1 : t ^ (0.34:ℝ) ≤ 0.58 := by
        have := rpow_frac_le (t := t) (a := 0.2) (b := 0.58) (p := 17) (q := 50) h2 h (by norm_num) (by norm_num)
          (by norm_num)
        convert this using 2
        norm_num
      linarith
    · have e1 : t ^ (0.34:ℝ) ≤ 0.66 := by
        have := rpow_frac_le (t := t) (a := 0.29) (b := 0.66) (p := 17) (q := 50) h2 h1 (by norm_num) (by norm_num)
          (by norm_num)
        convert this using 2
        norm_num
      have e2 : 0.44 ≤ t ^ (0.5:ℝ) := by
        have := le_rpow_frac (t := t) (a := 0.2) (b := 0.44) (p := 1) (q := 2) (by norm_num) h (by norm_num)
          (by norm_num) (by norm_num)
        convert this using 2
        norm_num
      linarith
  have h4 : Real.exp (liquidExp t) ≤ Real.exp 1 * Real.exp 0.14 := by
    rw [← Real.exp_add]; exact Real.exp_le_exp.mpr (by linarith)
  have h5 : Real.exp 0.14 ≤ 1 / (1 - 0.14) := by
    have := Real.exp_bound_div_one_sub_of_interval (x := 0.14) (by norm_num) (by norm_num)
    exact this
  have h6 := Real.exp_one_lt_d9
  have h7 : Real.exp 1 * Real.exp 0.14 ≤ 2.7182818286 * (1 / (1 - 0.14)) :=
    mul_le_mul h6.le h5 (Real.exp_pos _).le (by norm_num)
  have h8 := mul_le_mul_of_nonneg_left (h4.trans h7) critD_pos.le
  have : criticalDensity * (2.7182818286 * (1 / (1 - 0.14))) < 1500 := by norm_num [criticalDensity]
  linarith

/-- **C69.** For every temperature from the triple point on the bracket is a proper interval of positive
densities.  Between triple and critical temperature it ends at the saturated vapour when vapour is chosen and
starts at the saturated liquid when liquid is chosen; "auto" chooses vapour exactly below the vapour
pressure.  From the critical temperature on the choice has no effect. -/
theorem C69_bracket {T : ℝ} (h0 : tripleTemperature ≤ T) (P : ℝ) :
    (∀ phase, ∃ lo hi : ℝ, densityBounds (Num.fin T) (Num.fin P) phase = (Num.fin lo, Num.fin hi) ∧
      0 < lo ∧ lo < hi) ∧
    (T < criticalTemperature → ∃ v l p lo hi : ℝ, saturatedVapor (Num.fin T) = Num.fin v ∧
      saturatedLiquid (Num.fin T) = Num.fin l ∧ vaporPressure (Num.fin T) = Num.fin p ∧
      densityBounds (Num.fin T) (Num.fin P) .vapor = (Num.fin lo, Num.fin v) ∧
      densityBounds (Num.fin T) (Num.fin P) .liquid = (Num.fin l, Num.fin hi) ∧
      densityBounds (Num.fin T) (Num.fin P) .auto =
        if P < p then (Num.fin lo, Num.fin v) else (Num.fin l, Num.fin hi)) ∧
    (criticalTemperature ≤ T → ∃ lo hi : ℝ, lo ≤ 0.1 ∧ 1500 ≤ hi ∧
      ∀ phase, densityBounds (Num.fin T) (Num.fin P) phase = (Num.fin lo, Num.fin hi)) := by
  have hT0 : 0 < T := lt_of_lt_of_le tripT_pos h0
  have hn : ¬ (Num.fin T < Num.fin tripleTemperature) := by simpa using h0
  have key : T < criticalTemperature →
      densityBounds (Num.fin T) (Num.fin P) .vapor = (Num.fin 0.1, saturatedVapor (Num.fin T)) ∧
      densityBounds (Num.fin T) (Num.fin P) .liquid = (saturatedLiquid (Num.fin T), Num.fin 1500) ∧
      densityBounds (Num.fin T) (Num.fin P) .auto =
        if Num.fin P < vaporPressure (Num.fin T) then (Num.fin 0.1, saturatedVapor (Num.fin T))
        else (saturatedLiquid (Num.fin T), Num.fin 1500) := by
    intro hc
    have hc' : Num.fin T < Num.fin criticalTemperature := hc
    simp only [densityBounds, if_neg hn, if_pos hc', and_self]
  have key2 : criticalTemperature ≤ T → ∀ phase,
      densityBounds (Num.fin T) (Num.fin P) phase = (Num.fin 0.1, Num.fin 1500) := by
    intro hc phase
    have hc' : ¬ (Num.fin T < Num.fin criticalTemperature) := by simpa using hc
    simp only [densityBounds, if_neg hn, if_neg hc']
  refine ⟨fun phase => ?_, fun hc => ?_, fun hc => ⟨0.1, 1500, le_rfl, le_rfl, key2 hc⟩⟩
  · rcases lt_or_ge T criticalTemperature with hc | hc
    · obtain ⟨k1, k2, k3⟩ := key hc
      rw [vapor_fin hc.le] at k1 k3
      rw [liquid_fin hc.le] at k2 k3
      have hv := vapor_gt h0 hc.le
      have hl := liquid_lt h0 hc.le
      have hl0 := mul_pos critD_pos (Real.exp_pos (liquidExp (1 - T / criticalTemperature)))
      have A : ∃ lo hi : ℝ, (Num.fin 0.1, Num.fin (criticalDensity * Real.exp
          (vaporExp (1 - T / criticalTemperature)))) = (Num.fin lo, Num.fin hi) ∧ 0 < lo ∧ lo < hi :=
        ⟨_, _, rfl, by norm_num, by linarith⟩
      have B : ∃ lo hi : ℝ, (Num.fin (criticalDensity * Real.exp
          (liquidExp (1 - T / criticalTemperature))), Num.fin 1500) = (Num.fin lo, Num.fin hi) ∧ 0 < lo ∧ lo < hi :=
        ⟨_, _, rfl, hl0, hl⟩
      cases phase
      · rw [k1]; exact A
      · rw [k2]; exact B
      · rw [k3]; split
        · exact A
        · exact B
    · rw [key2 hc]; exact ⟨_, _, rfl, by norm_num, by norm_num⟩
  · obtain ⟨k1, k2, k3⟩ := key hc
    rw [vapor_fin hc.le] at k1 k3
    rw [liquid_fin hc.le] at k2 k3
    rw [vaporP_fin hT0 hc.le] at k3
    exact ⟨_, _, _, _, _, vapor_fin hc.le, liquid_fin hc.le, vaporP_fin hT0 hc.le, k1, k2, k3⟩

/-- The contract of a bracketing root finder: a result lies in the bracket and is a root up to a tolerance
in the function value. -/
def Brackets (solve : RootFinder) (tol : ℝ) : Prop :=
  ∀ f lo hi x, solve f lo hi = .ok x → lo ≤ x ∧ x ≤ hi ∧ ∃ e : ℝ, f x = .ok (Num.fin e) ∧ |e| ≤ tol

theorem le_fin_fin {x : Num} {a b : ℝ} (h1 : Num.fin a ≤ x) (h2 : x ≤ Num.fin b) : ∃ r, x = Num.fin r := by
  cases x with
  | fin r => exact ⟨r, rfl⟩
  | posInf => rcases h2 with h | h <;> cases h
  | negInf => rcases h1 with h | h <;> cases h
  | nan => rcases h1 with h | h <;> cases h

/-- **C69, solution.** With a root finder that keeps to its bracket, a calculated density is a number within
5 % of the bracket whose pressure is the given pressure, up to the tolerance of the root finder. -/
theorem C69_solution {solve : RootFinder} {tol : ℝ} (hs : Brackets solve tol) {T : ℝ} (h0 : tripleTemperature ≤ T) (P : ℝ)
    (phase : Phase) {x : Num} (h : calculateDensity solve (Num.fin T) (Num.fin P) phase true = .ok x) :
    ∃ lo hi ρ : ℝ, densityBounds (Num.fin T) (Num.fin P) phase = (Num.fin lo, Num.fin hi) ∧ x = Num.fin ρ ∧
      0.95 * lo ≤ ρ ∧ ρ ≤ 1.05 * hi ∧ 0 < ρ ∧
      ∃ p : ℝ, pressure .single (Num.fin T) x 0 0 false = .ok (some (Num.fin p)) ∧ |p - P| ≤ tol := by
  obtain ⟨lo, hi, hb, hlo, hlt⟩ := (C69_bracket h0 P).1 phase
  unfold calculateDensity at h
  simp only [hb, Num.fin_mul] at h
  have hx : solve (fun x => (pressure0 .single (Num.fin T) x) >>= fun p => .ok (p - Num.fin P))
      (Num.fin (lo * 0.95)) (Num.fin (hi * 1.05)) = .ok x := by
    revert h
    generalize solve _ _ _ = r
    intro h
    cases r with
    | ok y => simpa using h
    | error e => cases e <;> simp at h
  obtain ⟨h1, h2, e, h3, he⟩ := hs _ _ _ _ hx
  obtain ⟨ρ, rfl⟩ := le_fin_fin h1 h2
  rw [Num.fin_le] at h1 h2
  have hT0 : T ≠ 0 := (lt_of_lt_of_le tripT_pos h0).ne'
  obtain ⟨p, hp, hq⟩ := bind_eq_ok.mp h3
  injection hq with hq
  have hp' : p = Num.fin (e + P) := by
    cases p with
    | fin r => rw [Num.fin_sub, Num.fin_inj] at hq; rw [← hq, sub_add_cancel]
    | posInf => cases hq
    | negInf => cases hq
    | nan => cases hq
  refine ⟨lo, hi, ρ, hb, rfl, by linarith, by linarith, by nlinarith, e + P, ?_, by rwa [add_sub_cancel_right]⟩
  unfold pressure
  have hk : Kind.single.div (Num.fin criticalTemperature) (Num.fin T) =
      .ok (Num.fin (criticalTemperature / T)) := by simp [Kind.div, hT0]
  rw [hk, bind_ok, failIf_false (by simp), bind_ok]
  change (pressure0 .single (Num.fin T) (Num.fin ρ) >>= fun p => .ok (some p)) = _
  rw [hp, bind_ok, hp']

/-- A root finder that meets the contract with tolerance 0 and finds a root whenever there is one. -/
noncomputable def idealFinder : RootFinder := fun f lo hi =>
  if h : ∃ x, lo ≤ x ∧ x ≤ hi ∧ f x = .ok (Num.fin 0) then .ok h.choose else .error .valueError

theorem idealFinder_brackets : Brackets idealFinder 0 := by
  intro f lo hi x h
  unfold idealFinder at h
  split at h
  · rename_i hx
    injection h with h
    subst h
    obtain ⟨h1, h2, h3⟩ := hx.choose_spec
    exact ⟨h1, h2, 0, h3, by simp⟩
  · cases h

/-- The hypotheses of `C69_solution` are met: at every supercritical temperature, the pressure of every density
between 0.1 and 1500 kg/m³ has a calculated density. -/
theorem C69_solution_reachable {T ρ : ℝ} (hT : criticalTemperature ≤ T) (h1 : 0.1 ≤ ρ) (h2 : ρ ≤ 1500)
    (phase : Phase) : ∃ (P : ℝ) (x : Num),
      pressure0 .single (Num.fin T) (Num.fin ρ) = .ok (Num.fin P) ∧
      calculateDensity idealFinder (Num.fin T) (Num.fin P) phase true = .ok x := by
  have htr : tripleTemperature ≤ T := le_trans (by norm_num [tripleTemperature, criticalTemperature]) hT
  have hT0 : 0 < T := lt_of_lt_of_le tripT_pos htr
  have hp := pressure0_fin .single hT0 (show 0 < ρ by linarith)
  obtain ⟨lo, hi, hlo, hhi, hb⟩ := (C69_bracket htr (pR .single T ρ)).2.2 hT
  have hex : ∃ x, Num.fin lo * Num.fin 0.95 ≤ x ∧ x ≤ Num.fin hi * Num.fin 1.05 ∧
      (pressure0 .single (Num.fin T) x >>= fun p => .ok (p - Num.fin (pR .single T ρ))) = .ok (Num.fin 0) := by
    refine ⟨Num.fin ρ, ?_, ?_, ?_⟩
    · rw [Num.fin_mul, Num.fin_le]; linarith
    · rw [Num.fin_mul, Num.fin_le]; linarith
    · rw [hp, bind_ok, Num.fin_sub, sub_self]
  refine ⟨_, hex.choose, hp, ?_⟩
  unfold calculateDensity
  simp only [hb]
  unfold idealFinder
  rw [dif_pos hex]

/-- **C69, no exception.** With `raise_error=False` a failing search gives NaN instead of `ValueError`. -/
theorem C69_no_value_error (solve : RootFinder) (T P : Num) (phase : Phase) :
    calculateDensity solve T P phase false ≠ .error .valueError ∧
    (calculateDensity solve T P phase true = .error .valueError →
      calculateDensity solve T P phase false = .ok .nan) ∧
    (calculateDensity solve T P phase true ≠ .error .valueError →
      calculateDensity solve T P phase false = calculateDensity solve T P phase true) := by
  unfold calculateDensity
  simp only
  generalize solve _ _ _ = r
  cases r with
  | ok y => simp
  | error e => cases e <;> simp

/-- Far below the triple point the bracket is empty: at 100 K its upper end lies below its lower end. -/
theorem C69_cold_bracket_empty (P : ℝ) (phase : Phase) : ∃ lo hi : ℝ,
    densityBounds (Num.fin 100) (Num.fin P) phase = (Num.fin lo, Num.fin hi) ∧ hi * 1.05 < lo * 0.95 := by
  have h1 : (Num.fin 100 : Num) < Num.fin tripleTemperature := by
    rw [Num.fin_lt]; norm_num [tripleTemperature]
  have hT : (100:ℝ) ≤ criticalTemperature := by norm_num [criticalTemperature]
  refine ⟨0.1, criticalDensity * Real.exp (vaporExp (1 - 100 / criticalTemperature)), ?_, ?_⟩
  · unfold densityBounds
    rw [if_pos h1, vapor_fin hT]
  · have ht : (0.67:ℝ) ≤ 1 - 100 / criticalTemperature := by norm_num [criticalTemperature]
    generalize 1 - 100 / criticalTemperature = t at ht
    have h2 : vaporExp t ≤ -9 := by
      unfold vaporExp
      have e1 : 0.5 ≤ t ^ (0.34:ℝ) := by
        have := le_rpow_frac (t := t) (a := 0.67) (b := 0.5) (p := 17) (q := 50) (by norm_num) ht (by norm_num)
          (by norm_num) (by norm_num)
        convert this using 2
        norm_num
      have e2 : 0.5 ≤ t ^ (0.5:ℝ) := by
        have := le_rpow_frac (t := t) (a := 0.67) (b := 0.5) (p := 1) (q := 2) (by norm_num) ht (by norm_num)
          (by norm_num) (by norm_num)
        convert this using 2
        norm_num
      have e3 : 0.39 ≤ t ^ (7/3:ℝ) := by
        have := le_rpow_frac (t := t) (a := 0.67) (b := 0.39) (p := 7) (q := 3) (by norm_num) ht (by norm_num)
          (by norm_num) (by norm_num)
        exact_mod_cast this
      have e4 : 0.15 ≤ t ^ (14/3:ℝ) := by
        have := le_rpow_frac (t := t) (a := 0.67) (b := 0.15) (p := 14) (q := 3) (by norm_num) ht (by norm_num)
          (by norm_num) (by norm_num)
        exact_mod_cast this
      linarith
    have h3 : Real.exp (vaporExp t) ≤ Real.exp (-9) := Real.exp_le_exp.mpr h2
    have h4 : Real.exp (-9) ≤ 1 / 7000 := by
      rw [Real.exp_neg, ← one_div]
      apply one_div_le_one_div_of_le (by norm_num)
      have : Real.exp 9 = Real.exp 1 ^ 9 := by rw [← Real.exp_nat_mul]; norm_num
      rw [this]
      have := Real.exp_one_gt_d9
      calc (7000:ℝ) ≤ 2.7 ^ 9 := by norm_num
        _ ≤ Real.exp 1 ^ 9 := pow_le_pow_left₀ (by norm_num) (by linarith) 9
    have h5 := mul_le_mul_of_nonneg_left (h3.trans h4) critD_pos.le
    have : criticalDensity * (1 / 7000) * 1.05 < 0.1 * 0.95 := by norm_num [criticalDensity]
    linarith

end OPE.CO2
