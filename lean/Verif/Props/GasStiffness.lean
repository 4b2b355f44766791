import Verif.Props.Trends
import Verif.Props.Continuity2

/-!
# C181: gas gets stiffer under pressure
-/

namespace OPE.GasStiffness

open OPE

/-- The slope of the published `gasGamma`. -/
noncomputable def slope (p : ℝ) : ℝ :=
  -(5.6 / (p + 2) ^ 2) - 54.2 / (p + 3.5) ^ 3 + 5.655 * Real.exp (-0.65 * (p + 1))

theorem gamma_hasDeriv {p : ℝ} (hp : 0 < p) : HasDerivAt Published.gasGamma (slope p) p := by
  have h1 : HasDerivAt (fun x : ℝ => x + 2) 1 p := (hasDerivAt_id p).add_const 2
  have h2 : HasDerivAt (fun x : ℝ => x + 3.5) 1 p := (hasDerivAt_id p).add_const 3.5
  have n1 : p + 2 ≠ 0 := by positivity
  have n2 : p + 3.5 ≠ 0 := by positivity
  have h3 : HasDerivAt (fun x : ℝ => -0.65 * (x + 1)) (-0.65 * 1) p :=
    ((hasDerivAt_id p).add_const 1).const_mul (-0.65)
  have h := ((((hasDerivAt_const p (5.6:ℝ)).div h1 n1).const_add 0.85).add
    ((hasDerivAt_const p (27.1:ℝ)).div (h2.pow 2) (pow_ne_zero 2 n2))).sub (h3.exp.const_mul 8.7)
  refine (h.congr_deriv ?_)
  unfold slope
  simp only [Pi.pow_apply, Nat.cast_ofNat, zero_mul, mul_one, zero_sub, Nat.reduceSub, pow_one]
  field_simp
  ring

theorem slope_nonneg {p : ℝ} (hp : 0 < p) (hp2 : p ≤ 2.5) : 0 ≤ slope p := by
  obtain ⟨q, hq⟩ : ∃ q, q = 2.5 - p := ⟨_, rfl⟩
  have hq0 : 0 ≤ q := by rw [hq]; linarith
  have e1 : (0.1026:ℝ) ≤ Real.exp (-2.275) := by
    have g := Real.exp_bound' (x := 0.325) (by norm_num) (by norm_num) (n := 6) (by norm_num)
    have g2 : Real.exp 0.325 ≤ 1.38405 := g.trans (by norm_num [Finset.sum_range_succ, Nat.factorial])
    rw [Real.exp_neg, show (2.275:ℝ) = (7:ℕ) * 0.325 by norm_num, Real.exp_nat_mul]
    have := pow_le_pow_left₀ (Real.exp_pos _).le g2 7
    rw [le_inv_comm₀ (by norm_num) (by positivity)]
    exact this.trans (by norm_num)
  have e2 : 1 + 0.65 * q + (0.65 * q) ^ 2 / 2 + (0.65 * q) ^ 3 / 6 ≤ Real.exp (0.65 * q) := by
    have := Real.sum_le_exp_of_nonneg (x := 0.65 * q) (by positivity) 4
    simp only [Finset.sum_range_succ, Finset.sum_range_zero, Nat.factorial] at this
    norm_num at this ⊢
    linarith
  have e3 : Real.exp (-0.65 * (p + 1)) = Real.exp (-2.275) * Real.exp (0.65 * q) := by
    rw [← Real.exp_add, hq]; congr 1; ring
  have e4 : 0.1026 * (1 + 0.65 * q + (0.65 * q) ^ 2 / 2 + (0.65 * q) ^ 3 / 6) ≤ Real.exp (-0.65 * (p + 1)) := by
    rw [e3]; exact mul_le_mul e1 e2 (by positivity) (Real.exp_pos _).le
  have e5 : 5.6 / (p + 2) ^ 2 + 54.2 / (p + 3.5) ^ 3
      ≤ 5.655 * (0.1026 * (1 + 0.65 * q + (0.65 * q) ^ 2 / 2 + (0.65 * q) ^ 3 / 6)) := by
    rw [div_add_div _ _ (by positivity) (by positivity), div_le_iff₀ (by positivity), ← sub_nonneg]
    have h : 0 ≤ (14009086131/3125000000000) * p ^ 0 * q ^ 8 + (2102741891971/6250000000000) * p ^ 1 * q ^ 7 + (130990248244099/50000000000000) * p ^ 2 * q ^ 6 + (107605272644279/12500000000000) * p ^ 3 * q ^ 5 + (9219792543379/625000000000) * p ^ 4 * q ^ 4 + (10856536786189/781250000000) * p ^ 5 * q ^ 3 + (689716337509/97656250000) * p ^ 6 * q ^ 2 + (10834619067/6103515625) * p ^ 7 * q ^ 1 + (922631688/6103515625) * p ^ 8 * q ^ 0 := by positivity
    refine le_of_le_of_eq h ?_
    rw [hq]; ring
  unfold slope
  linarith

theorem slope_ge {p : ℝ} (hp : 2.5 ≤ p) : -0.51 * Published.gasGamma p ≤ p * slope p := by
  obtain ⟨x, hx⟩ : ∃ x, x = p - 2.5 := ⟨_, rfl⟩
  have hx0 : 0 ≤ x := by rw [hx]; linarith
  obtain rfl : p = x + 2.5 := by rw [hx]; ring
  have hE := Real.exp_pos (-0.65 * (x + 2.5 + 1))
  have hE2 : 0 ≤ (5.655 * (x + 2.5) - 0.51 * 8.7) * Real.exp (-0.65 * (x + 2.5 + 1)) :=
    mul_nonneg (by norm_num; linarith) hE.le
  have key : 0 ≤ 0.51 * 0.85 + (0.51 * 5.6 / (x + 2.5 + 2) - (x + 2.5) * 5.6 / (x + 2.5 + 2) ^ 2)
      + (0.51 * 27.1 / (x + 2.5 + 3.5) ^ 2 - (x + 2.5) * 54.2 / (x + 2.5 + 3.5) ^ 3) := by
    have : 0.51 * 0.85 + (0.51 * 5.6 / (x + 2.5 + 2) - (x + 2.5) * 5.6 / (x + 2.5 + 2) ^ 2)
      + (0.51 * 27.1 / (x + 2.5 + 3.5) ^ 2 - (x + 2.5) * 54.2 / (x + 2.5 + 3.5) ^ 3)
      = (583.5375 - 216.74025 * x - 59.99225 * x ^ 2 + 34.904375 * x ^ 3 + 8.9605 * x ^ 4 + 0.4335 * x ^ 5)
        / ((x + 2.5 + 2) ^ 2 * (x + 2.5 + 3.5) ^ 3) := by
      field_simp; ring
    rw [this]
    apply div_nonneg _ (by positivity)
    have : 0 ≤ 583.5375 - 216.74025 * x - 59.99225 * x ^ 2 + 34.904375 * x ^ 3 + 8.9605 * x ^ 4 := by
      norm_num
      nlinarith [mul_nonneg hx0 (sq_nonneg (x - 2)), sq_nonneg (x - 2), sq_nonneg (x ^ 2 - 3),
        pow_nonneg hx0 3]
    have := pow_nonneg hx0 5
    linarith
  unfold slope Published.gasGamma
  have e : ∀ E : ℝ, (x + 2.5) * (-(5.6 / (x + 2.5 + 2) ^ 2) - 54.2 / (x + 2.5 + 3.5) ^ 3 + 5.655 * E)
      - -0.51 * (0.85 + 5.6 / (x + 2.5 + 2) + 27.1 / (x + 2.5 + 3.5) ^ 2 - 8.7 * E)
      = (0.51 * 0.85 + (0.51 * 5.6 / (x + 2.5 + 2) - (x + 2.5) * 5.6 / (x + 2.5 + 2) ^ 2)
      + (0.51 * 27.1 / (x + 2.5 + 3.5) ^ 2 - (x + 2.5) * 54.2 / (x + 2.5 + 3.5) ^ 3))
      + (5.655 * (x + 2.5) - 0.51 * 8.7) * E := by intro E; ring
  rw [← sub_nonneg, e]
  linarith

/-! ## The compressibility -/

/-- The factor of `p ^ 1.2` in the exponent of BW 10c. -/
noncomputable def rateB (t : ℝ) : ℝ := (0.45 + 8 * (0.56 - 1 / t) ^ 2) / t

theorem rateB_eq (t : ℝ) : rateB t = 1 / t * (0.45 + 8 * (0.56 - 1 / t) ^ 2) := by
  unfold rateB; ring

theorem cubic_mono {s s' : ℝ} (h : 0.51 ≤ s) (hs : s ≤ s') :
    s * (0.45 + 8 * (0.56 - s) ^ 2) ≤ s' * (0.45 + 8 * (0.56 - s') ^ 2) := by
  norm_num at h
  have q : 0 ≤ 2.9588 - 8.96 * (s + s') + 8 * (s ^ 2 + s * s' + s' ^ 2) := by
    norm_num
    nlinarith [mul_nonneg (sub_nonneg.mpr h) (sub_nonneg.mpr (h.trans hs)), sq_nonneg (s - 51/100),
      sq_nonneg (s' - 51/100)]
  have := mul_nonneg (sub_nonneg.mpr hs) q
  rw [← sub_nonneg]
  refine le_of_le_of_eq this ?_
  ring

/-- Lower bounds for cold gas. -/
theorem rateB_ge {t u : ℝ} (ht : 0 < t) (htu : t ≤ u) (hu : u ≤ 1.9) : rateB u ≤ rateB t := by
  rw [rateB_eq, rateB_eq]
  apply cubic_mono
  · rw [le_div_iff₀ (by linarith)]; norm_num at hu ⊢; linarith
  · exact one_div_le_one_div_of_le ht htu

theorem rateB_pos {t : ℝ} (ht : 0 < t) : 0 < rateB t := by unfold rateB; positivity

theorem rateB_le_cold {t : ℝ} (ht : 0.815 ≤ t) : rateB t ≤ 4.92 := by
  have ht0 : 0 < t := lt_of_lt_of_le (by norm_num) ht
  rcases le_total t 1.9 with h | h
  · refine (rateB_ge (by norm_num) ht h).trans ?_
    unfold rateB; norm_num
  · rw [rateB_eq]
    have s0 : 0 < 1 / t := by positivity
    have s1 : 1 / t ≤ 0.53 := by
      rw [div_le_iff₀ ht0]; norm_num at h ⊢; linarith
    generalize 1 / t = s at *
    have : (0.56 - s) ^ 2 ≤ 0.56 ^ 2 := by
      apply pow_le_pow_left₀ <;> · norm_num at s1 ⊢; linarith
    nlinarith [sq_nonneg (0.56 - s)]

theorem rateB_le_hot {t : ℝ} (ht : 1.1 ≤ t) : rateB t ≤ 1.3 := by
  have ht0 : 0 < t := lt_of_lt_of_le (by norm_num) ht
  rcases le_total t 1.9 with h | h
  · refine (rateB_ge (by norm_num) ht h).trans ?_
    unfold rateB; norm_num
  · rw [rateB_eq]
    have s0 : 0 < 1 / t := by positivity
    have s1 : 1 / t ≤ 0.53 := by
      rw [div_le_iff₀ ht0]; norm_num at h ⊢; linarith
    generalize 1 / t = s at *
    norm_num at s1 ⊢
    nlinarith [mul_nonneg s0.le (sub_nonneg.mpr s1), mul_nonneg (mul_nonneg s0.le (sub_nonneg.mpr s1)) s0.le]

theorem pow_le_of_le {p : ℝ} (hp : 0 < p) (h : p ≤ 2.5) : p ^ (1.2:ℝ) ≤ 3.003 := by
  refine (Real.rpow_le_rpow hp.le h (by norm_num)).trans ?_
  have h5 : ((2.5:ℝ) ^ (1.2:ℝ)) ^ 5 = 2.5 ^ 6 := by
    rw [← Real.rpow_natCast, ← Real.rpow_mul (by norm_num)]
    rw [show (1.2:ℝ) * ((5:ℕ):ℝ) = ((6:ℕ):ℝ) by norm_num, Real.rpow_natCast]
  by_contra hc
  push Not at hc
  have := pow_lt_pow_left₀ hc (by norm_num) (n := 5) (by norm_num)
  rw [h5] at this
  norm_num at this

theorem le_pow_of_le {p : ℝ} (h : 2.5 ≤ p) : 3 ≤ p ^ (1.2:ℝ) := by
  refine le_trans ?_ (Real.rpow_le_rpow (by norm_num) h (by norm_num))
  have h5 : ((2.5:ℝ) ^ (1.2:ℝ)) ^ 5 = 2.5 ^ 6 := by
    rw [← Real.rpow_natCast, ← Real.rpow_mul (by norm_num)]
    rw [show (1.2:ℝ) * ((5:ℕ):ℝ) = ((6:ℕ):ℝ) by norm_num, Real.rpow_natCast]
  by_contra hc
  push Not at hc
  have := pow_lt_pow_left₀ hc (by positivity) (n := 5) (by norm_num)
  rw [h5] at this
  norm_num at this

/-- `(u - c) e^(-u)` is largest at `u = c + 1` and decreases from there. -/
theorem tail_le {c u u0 : ℝ} (h0 : c + 1 ≤ u0) (h : u0 ≤ u) :
    (u - c) * Real.exp (-u) ≤ (u0 - c) * Real.exp (-u0) := by
  have e : Real.exp (-u0) = Real.exp (-u) * Real.exp (u - u0) := by rw [← Real.exp_add]; congr 1; ring
  have g := Real.add_one_le_exp (u - u0)
  rw [e, mul_comm (Real.exp (-u)), ← mul_assoc]
  apply mul_le_mul_of_nonneg_right _ (Real.exp_pos _).le
  have : (u0 - c) * (u - u0 + 1) ≤ (u0 - c) * Real.exp (u - u0) :=
    mul_le_mul_of_nonneg_left g (by linarith)
  nlinarith

theorem peak_le {c u : ℝ} : (u - c) * Real.exp (-u) ≤ Real.exp (-(c + 1)) := by
  have e : Real.exp (-(c + 1)) = Real.exp (-u) * Real.exp (u - (c + 1)) := by
    rw [← Real.exp_add]; congr 1; ring
  have g := Real.add_one_le_exp (u - (c + 1))
  rw [e, mul_comm (Real.exp (-u))]
  exact mul_le_mul_of_nonneg_right (by linarith) (Real.exp_pos _).le

theorem exp_neg_le_of {x y : ℝ} (hy : 0 < y) (h : 1 / y ≤ Real.exp x) : Real.exp (-x) ≤ y := by
  rw [Real.exp_neg, inv_le_comm₀ (Real.exp_pos _) hy, ← one_div]; exact h

theorem exp_14 : Real.exp (-1.4) ≤ 0.2467 := by
  apply exp_neg_le_of (by norm_num)
  refine le_trans ?_ (Real.sum_le_exp_of_nonneg (by norm_num) 9)
  norm_num [Finset.sum_range_succ, Nat.factorial]

theorem exp_184 : Real.exp (-1.84) ≤ 0.159 := by
  apply exp_neg_le_of (by norm_num)
  refine le_trans ?_ (Real.sum_le_exp_of_nonneg (by norm_num) 10)
  norm_num [Finset.sum_range_succ, Nat.factorial]

theorem exp_26 : Real.exp (-2.6) ≤ 0.0745 := by
  apply exp_neg_le_of (by norm_num)
  refine le_trans ?_ (Real.sum_le_exp_of_nonneg (by norm_num) 12)
  norm_num [Finset.sum_range_succ, Nat.factorial]

theorem exp_41 : Real.exp (-4.1) ≤ 0.0166 := by
  apply exp_neg_le_of (by norm_num)
  refine le_trans ?_ (Real.sum_le_exp_of_nonneg (by norm_num) 16)
  norm_num [Finset.sum_range_succ, Nat.factorial]

theorem exp_59 : Real.exp (-5.9) ≤ 0.0029 := by
  apply exp_neg_le_of (by norm_num)
  refine le_trans ?_ (Real.sum_le_exp_of_nonneg (by norm_num) 18)
  norm_num [Finset.sum_range_succ, Nat.factorial]

/-- Above a pseudo-reduced pressure of 2.5 the exponential is small beside the rest of `Z`. -/
theorem exponential_small {t p : ℝ} (ht : 0.815 ≤ t) (ht4 : t ≤ 4) (hp : 2.5 ≤ p) :
    (1.2 * (rateB t * p ^ (1.2:ℝ)) - 0.48) * (0.109 * (3.85 - t) ^ 2 * Real.exp (-(rateB t * p ^ (1.2:ℝ))))
      < 0.48 * ((0.03 + 0.00527 * (3.5 - t) ^ 3) * p + (0.642 * t - 0.007 * t ^ 4 - 0.52)) := by
  have ht0 : 0 < t := lt_of_lt_of_le (by norm_num) ht
  have ha : 0 ≤ 0.03 + 0.00527 * (3.5 - t) ^ 3 := by
    have : (-0.5:ℝ) ≤ 3.5 - t := by norm_num; linarith
    nlinarith [sq_nonneg (3.5 - t), sq_nonneg (3.5 - t + 0.25)]
  have hap : (0.03 + 0.00527 * (3.5 - t) ^ 3) * 2.5 ≤ (0.03 + 0.00527 * (3.5 - t) ^ 3) * p :=
    mul_le_mul_of_nonneg_left hp ha
  have hB := rateB_pos ht0
  have hu : ∀ {v : ℝ}, v ≤ rateB t → 3 * v ≤ rateB t * p ^ (1.2:ℝ) := by
    intro v hv
    nlinarith [le_pow_of_le hp, mul_nonneg (sub_nonneg.mpr (le_pow_of_le hp)) hB.le]
  have step : ∀ {k : ℝ}, (rateB t * p ^ (1.2:ℝ) - 0.4) * Real.exp (-(rateB t * p ^ (1.2:ℝ))) ≤ k →
      1.2 * k * (0.109 * (3.85 - t) ^ 2) < 0.48 * ((0.03 + 0.00527 * (3.5 - t) ^ 3) * 2.5
        + (0.642 * t - 0.007 * t ^ 4 - 0.52)) →
      (1.2 * (rateB t * p ^ (1.2:ℝ)) - 0.48) * (0.109 * (3.85 - t) ^ 2 * Real.exp (-(rateB t * p ^ (1.2:ℝ))))
        < 0.48 * ((0.03 + 0.00527 * (3.5 - t) ^ 3) * p + (0.642 * t - 0.007 * t ^ 4 - 0.52)) := by
    intro k hk h
    have h1 := mul_le_mul_of_nonneg_right hk (by positivity : 0 ≤ 1.2 * (0.109 * (3.85 - t) ^ 2))
    refine lt_of_le_of_lt (le_of_eq_of_le ?_ h1) ?_
    · ring
    · refine lt_of_eq_of_lt ?_ (h.trans_le ?_)
      · ring
      · linarith
  have mid : ∀ {v k : ℝ}, 1.4 ≤ 3 * v → v ≤ rateB t → (3 * v - 0.4) * Real.exp (-(3 * v)) ≤ k →
      (rateB t * p ^ (1.2:ℝ) - 0.4) * Real.exp (-(rateB t * p ^ (1.2:ℝ))) ≤ k := by
    intro v k h1 h2 h3
    exact (tail_le (by linarith) (hu h2)).trans h3
  rcases le_total t 1 with h1 | h1
  · refine step (k := 0.01595) (mid (v := 5.9/3) (by norm_num) ?_ ?_) ?_
    · refine le_trans ?_ (rateB_ge ht0 h1 (by norm_num)); unfold rateB; norm_num
    · have := exp_59; norm_num at this ⊢; linarith
    · norm_num at ht ⊢
      nlinarith [mul_nonneg (sub_nonneg.mpr ht) (sub_nonneg.mpr h1), pow_pos ht0 3, pow_pos ht0 2]
  rcases le_total t 1.2 with h2 | h2
  · refine step (k := 0.1639) (mid (v := 2.6/3) (by norm_num) ?_ ?_) ?_
    · refine le_trans ?_ (rateB_ge ht0 h2 (by norm_num)); unfold rateB; norm_num
    · have := exp_26; norm_num at this ⊢; linarith
    · norm_num at h2 ⊢
      nlinarith [mul_nonneg (sub_nonneg.mpr h1) (sub_nonneg.mpr h2),
        mul_nonneg (mul_nonneg (sub_nonneg.mpr h1) (sub_nonneg.mpr h2)) ht0.le,
        mul_nonneg (mul_nonneg (sub_nonneg.mpr h1) (sub_nonneg.mpr h2)) (sq_nonneg t)]
  rcases le_total t 1.3 with h3 | h3
  · refine step (k := 0.229) (mid (v := 1.84/3) (by norm_num) ?_ ?_) ?_
    · refine le_trans ?_ (rateB_ge ht0 h3 (by norm_num)); unfold rateB; norm_num
    · have := exp_184; norm_num at this ⊢; linarith
    · norm_num at h2 h3 ⊢
      nlinarith [mul_nonneg (sub_nonneg.mpr h2) (sub_nonneg.mpr h3),
        mul_nonneg (mul_nonneg (sub_nonneg.mpr h2) (sub_nonneg.mpr h3)) ht0.le,
        mul_nonneg (mul_nonneg (sub_nonneg.mpr h2) (sub_nonneg.mpr h3)) (sq_nonneg t)]
  · refine step (k := 0.2467) (peak_le.trans ?_) ?_
    · have := exp_14; norm_num at this ⊢; linarith
    · norm_num at h3 ⊢
      nlinarith [mul_nonneg (sub_nonneg.mpr h3) (sub_nonneg.mpr ht4),
        mul_nonneg (mul_nonneg (sub_nonneg.mpr h3) (sub_nonneg.mpr ht4)) ht0.le,
        mul_nonneg (mul_nonneg (sub_nonneg.mpr h3) (sub_nonneg.mpr ht4)) (sq_nonneg t)]

/-- Below a pseudo-reduced pressure of 2.5, a large exponent makes the exponential small beside the linear
term of `Z`. -/
theorem exponential_small' {t p : ℝ} (ht : 0.815 ≤ t) (ht4 : t ≤ 4) (hp : 0 < p) (hp2 : p ≤ 2.5)
    (hu : 4.1 ≤ rateB t * p ^ (1.2:ℝ)) :
    1.2 * (rateB t * p ^ (1.2:ℝ)) * (0.109 * (3.85 - t) ^ 2 * Real.exp (-(rateB t * p ^ (1.2:ℝ))))
      ≤ (0.03 + 0.00527 * (3.5 - t) ^ 3) * p := by
  have ht0 : 0 < t := lt_of_lt_of_le (by norm_num) ht
  have hB := rateB_pos ht0
  have hx : 0 < p ^ (1.2:ℝ) := Real.rpow_pos_of_pos hp _
  have ht1 : t ≤ 1.1 := by
    by_contra hc
    push Not at hc
    have := mul_le_mul (rateB_le_hot hc.le) (pow_le_of_le hp hp2) hx.le (by norm_num)
    norm_num at this hu
    linarith
  have hp1 : 0.833 ≤ p := by
    by_contra hc
    push Not at hc
    have h1 : p ^ (1.2:ℝ) ≤ p ^ (1:ℝ) :=
      Real.rpow_le_rpow_of_exponent_ge hp (by norm_num at hc ⊢; linarith) (by norm_num)
    rw [Real.rpow_one] at h1
    have := mul_le_mul (rateB_le_cold ht) h1 hx.le (by norm_num)
    norm_num at this hu hc
    linarith
  have hA : 0.109 * (3.85 - t) ^ 2 ≤ 1.0041 := by
    norm_num at ht ⊢
    nlinarith [mul_nonneg (sub_nonneg.mpr ht) (sub_nonneg.mpr ht4)]
  have ha : 0.1028 ≤ 0.03 + 0.00527 * (3.5 - t) ^ 3 := by
    have h1 : (2.4:ℝ) ≤ 3.5 - t := by norm_num at ht1 ⊢; linarith
    have := pow_le_pow_left₀ (by norm_num) h1 3
    norm_num at this ⊢
    linarith
  have hU := tail_le (c := 0) (by norm_num : (0:ℝ) + 1 ≤ 4.1) hu
  simp only [sub_zero] at hU
  have h1 : rateB t * p ^ (1.2:ℝ) * Real.exp (-(rateB t * p ^ (1.2:ℝ))) ≤ 0.06806 := by
    have := exp_41; norm_num at this hU ⊢; linarith
  have h2 := mul_le_mul h1 hA (by positivity) (by norm_num)
  have h3 := mul_le_mul ha hp1 (by norm_num) (by linarith)
  norm_num at h2 h3 ⊢
  linarith

/-- The elasticity of the bulk modulus with respect to pressure, without the part of `gasGamma`:
`Z = a p + b + E`, `D = Z - p ∂Z/∂p = b + E (1 + v)` with `v = 1.2 u`. -/
theorem elasticity_low {Z D E b v ap : ℝ} (hb : 0 < b) (hE : 0 ≤ E) (hap : 0 ≤ ap) (hv : 0 ≤ v)
    (hZ : Z = ap + b + E) (hD : D = b + E * (1 + v)) (h : v ≤ 4.92 ∨ v * E ≤ ap) :
    0 < 2 - D / Z - v * E * (0.2 - v) / D := by
  have hZ0 : 0 < Z := by rw [hZ]; positivity
  have hD0 : 0 < D := by rw [hD]; positivity
  have hvE : 0 ≤ v * E := mul_nonneg hv hE
  rcases le_or_gt v 4.92 with h | h4
  · have e : 2 - D / Z - v * E * (0.2 - v) / D = (Z * (2 * D - v * E * (0.2 - v)) - D * D) / (Z * D) := by
      field_simp
      ring
    rw [e]
    apply div_pos _ (mul_pos hZ0 hD0)
    have h1 : (b + E) * (2 * D - v * E * (0.2 - v)) ≤ Z * (2 * D - v * E * (0.2 - v)) := by
      apply mul_le_mul_of_nonneg_right
      · rw [hZ]; linarith
      · rw [hD]; norm_num at h ⊢; nlinarith [mul_nonneg hvE hv]
    have h2 : (b + E) * (2 * D - v * E * (0.2 - v)) - D * D = (b + E) ^ 2 - 0.2 * (v * E) * (b + E) + v * (v * E) * b := by
      rw [hD]; ring
    have h3 : v * E ≤ 4.92 * (b + E) := by
      have := mul_le_mul_of_nonneg_right h hE
      norm_num at this ⊢; linarith
    have h4 := mul_le_mul_of_nonneg_right h3 (by positivity : 0 ≤ 0.2 * (b + E))
    have h5 : 0 ≤ v * (v * E) * b := by positivity
    have h6 : 0 < (b + E) ^ 2 := by positivity
    norm_num at h4 h2
    nlinarith
  · have hle : v * E ≤ ap := by
      rcases h with h | h
      · linarith
      · exact h
    have h1 : D / Z ≤ 1 := by
      rw [div_le_one hZ0, hZ, hD]; linarith
    have h2 : v * E * (0.2 - v) / D ≤ 0 := by
      apply div_nonpos_of_nonpos_of_nonneg _ hD0.le
      apply mul_nonpos_of_nonneg_of_nonpos hvE
      norm_num at h4 ⊢; linarith
    linarith

theorem elasticity_high {Z D E b v ap : ℝ} (hb : 0 < b) (hE : 0 ≤ E) (hap : 0 ≤ ap) (hv : 0 ≤ v)
    (hZ : Z = ap + b + E) (hD : D = b + E * (1 + v)) (h : (v - 0.48) * E < 0.48 * (ap + b)) :
    0.51 < 2 - D / Z - v * E * (0.2 - v) / D := by
  have hZ0 : 0 < Z := by rw [hZ]; positivity
  have hD0 : 0 < D := by rw [hD]; positivity
  have h1 : D / Z < 1.48 := by
    rw [div_lt_iff₀ hZ0, hZ, hD]; norm_num at h ⊢; linarith
  have h2 : v * E * (0.2 - v) / D ≤ 0.01 := by
    rw [div_le_iff₀ hD0, hD]
    have : v * (0.2 - v) ≤ 0.01 := by norm_num; nlinarith [sq_nonneg (v - 1/10)]
    have := mul_le_mul_of_nonneg_right this hE
    have := mul_nonneg hv hE
    norm_num at *
    linarith
  norm_num at h1 h2 ⊢
  linarith

/-- The derivative of the logarithm of the bulk modulus is positive. -/
theorem bulk_strictMono {t : ℝ} (ht : 0.815 ≤ t) (ht4 : t ≤ 4) :
    StrictMonoOn (fun p : ℝ => p * Published.gasGamma p * Published.gasZ t p
      / (Published.gasZ t p - p * deriv (Published.gasZ t) p)) (Set.Ioi 0) := by
  have ht0 : 0 < t := lt_of_lt_of_le (by norm_num) ht
  obtain ⟨a, ha⟩ : ∃ a, a = 0.03 + 0.00527 * (3.5 - t) ^ 3 := ⟨_, rfl⟩
  obtain ⟨b, hb⟩ : ∃ b, b = 0.642 * t - 0.007 * t ^ 4 - 0.52 := ⟨_, rfl⟩
  obtain ⟨A, hA⟩ : ∃ A, A = 0.109 * (3.85 - t) ^ 2 := ⟨_, rfl⟩
  obtain ⟨B, hB⟩ : ∃ B, B = rateB t := ⟨_, rfl⟩
  have hb0 : 0 < b := by
    rw [hb]
    norm_num at ht ⊢
    nlinarith [mul_nonneg (sub_nonneg.mpr ht) (sub_nonneg.mpr ht4), sq_nonneg t,
      mul_nonneg (mul_nonneg (sub_nonneg.mpr ht) (sub_nonneg.mpr ht4)) ht0.le,
      mul_nonneg (mul_nonneg (sub_nonneg.mpr ht) (sub_nonneg.mpr ht4)) (sq_nonneg t)]
  have ha0 : 0 ≤ a := by
    rw [ha]
    have : (-0.5:ℝ) ≤ 3.5 - t := by norm_num; linarith
    nlinarith [sq_nonneg (3.5 - t), sq_nonneg (3.5 - t + 0.25)]
  have hA0 : 0 ≤ A := by rw [hA]; positivity
  have hB0 : 0 < B := hB ▸ rateB_pos ht0
  have hZ : ∀ x, Published.gasZ t x = a * x + b + A * Real.exp (-(B * x ^ (1.2:ℝ))) := by
    intro x; unfold Published.gasZ; rw [ha, hb, hA, hB]; unfold rateB; congr 3; ring
  have hpx : ∀ {x : ℝ}, 0 < x → x * x ^ (0.2:ℝ) = x ^ (1.2:ℝ) := by
    intro x hx
    rw [show (1.2:ℝ) = 1 + 0.2 by norm_num, Real.rpow_add hx, Real.rpow_one]
  have hD : ∀ x, 0 < x → Published.gasZ t x - x * deriv (Published.gasZ t) x
      = b + A * Real.exp (-(B * x ^ (1.2:ℝ))) * (1 + 1.2 * (B * x ^ (1.2:ℝ))) := by
    intro x hx
    rw [hZ, gasZ_deriv hx, ← ha, ← hA, show (0.45 + 8 * (0.56 - 1 / t) ^ 2) / t = B from hB.symm, ← hpx hx]
    ring
  -- the function and its logarithm
  have hpos : ∀ x, 0 < x → 0 < a * x + b + A * Real.exp (-(B * x ^ (1.2:ℝ))) ∧
      0 < b + A * Real.exp (-(B * x ^ (1.2:ℝ))) * (1 + 1.2 * (B * x ^ (1.2:ℝ))) := by
    intro x hx
    have := mul_nonneg ha0 hx.le
    constructor <;> positivity
  have hder : ∀ x ∈ Set.Ioi (0:ℝ), HasDerivAt (fun p : ℝ => Real.log p + Real.log (Published.gasGamma p)
      + Real.log (a * p + b + A * Real.exp (-(B * p ^ (1.2:ℝ))))
      - Real.log (b + A * Real.exp (-(B * p ^ (1.2:ℝ))) * (1 + 1.2 * (B * p ^ (1.2:ℝ)))))
      (x⁻¹ + slope x / Published.gasGamma x
        + (a + A * (Real.exp (-(B * x ^ (1.2:ℝ))) * -(B * (1.2 * x ^ (0.2:ℝ)))))
          / (a * x + b + A * Real.exp (-(B * x ^ (1.2:ℝ))))
        - (A * (Real.exp (-(B * x ^ (1.2:ℝ))) * -(B * (1.2 * x ^ (0.2:ℝ)))) * (1 + 1.2 * (B * x ^ (1.2:ℝ)))
            + A * Real.exp (-(B * x ^ (1.2:ℝ))) * (1.2 * (B * (1.2 * x ^ (0.2:ℝ)))))
          / (b + A * Real.exp (-(B * x ^ (1.2:ℝ))) * (1 + 1.2 * (B * x ^ (1.2:ℝ))))) x := by
    intro x hx
    have hx0 : 0 < x := hx
    have hpow : HasDerivAt (fun x : ℝ => x ^ (1.2:ℝ)) (1.2 * x ^ (0.2:ℝ)) x := by
      have := Real.hasDerivAt_rpow_const (x := x) (p := 1.2) (Or.inl hx0.ne')
      norm_num at this ⊢; exact this
    have hE : HasDerivAt (fun x : ℝ => A * Real.exp (-(B * x ^ (1.2:ℝ))))
        (A * (Real.exp (-(B * x ^ (1.2:ℝ))) * -(B * (1.2 * x ^ (0.2:ℝ))))) x :=
      (((hpow.const_mul B).neg).exp).const_mul A
    have hL : HasDerivAt (fun x : ℝ => a * x + b) a x := by
      simpa using ((hasDerivAt_id x).const_mul a).add_const b
    have hV : HasDerivAt (fun x : ℝ => 1 + 1.2 * (B * x ^ (1.2:ℝ))) (1.2 * (B * (1.2 * x ^ (0.2:ℝ)))) x :=
      ((hpow.const_mul B).const_mul 1.2).const_add 1
    exact (((Real.hasDerivAt_log hx0.ne').add ((gamma_hasDeriv hx0).log (gasGamma_pos hx0.le).ne')).add
      ((hL.add hE).log (hpos x hx0).1.ne')).sub (((hE.mul hV).const_add b).log (hpos x hx0).2.ne')
  have hmono : StrictMonoOn (fun p : ℝ => Real.log p + Real.log (Published.gasGamma p)
      + Real.log (a * p + b + A * Real.exp (-(B * p ^ (1.2:ℝ))))
      - Real.log (b + A * Real.exp (-(B * p ^ (1.2:ℝ))) * (1 + 1.2 * (B * p ^ (1.2:ℝ))))) (Set.Ioi 0) := by
    refine strictMonoOn_of_deriv_pos (convex_Ioi 0)
      (fun x hx => (hder x hx).continuousAt.continuousWithinAt) ?_
    intro x hx
    rw [interior_Ioi] at hx
    rw [(hder x hx).deriv]
    have hx0 : 0 < x := hx
    have hu0 : 0 ≤ B * x ^ (1.2:ℝ) := by positivity
    obtain ⟨E, hE⟩ : ∃ E, E = A * Real.exp (-(B * x ^ (1.2:ℝ))) := ⟨_, rfl⟩
    obtain ⟨v, hv⟩ : ∃ v, v = 1.2 * (B * x ^ (1.2:ℝ)) := ⟨_, rfl⟩
    have hE0 : 0 ≤ E := by rw [hE]; positivity
    have hv0 : 0 ≤ v := by rw [hv]; positivity
    have hax : 0 ≤ a * x := mul_nonneg ha0 hx0.le
    obtain ⟨Z, hZe⟩ : ∃ Z, Z = a * x + b + E := ⟨_, rfl⟩
    obtain ⟨D, hDe⟩ : ∃ D, D = b + E * (1 + v) := ⟨_, rfl⟩
    have hZ0 : 0 < Z := by rw [hZe]; positivity
    have hD0 : 0 < D := by rw [hDe]; positivity
    have hγ := gasGamma_pos hx0.le
    -- the sum of elasticities
    have hsum : 0 < x * slope x / Published.gasGamma x + (2 - D / Z - v * E * (0.2 - v) / D) := by
      rcases le_total x 2.5 with h | h
      · have h1 : 0 ≤ x * slope x / Published.gasGamma x :=
          div_nonneg (mul_nonneg hx0.le (slope_nonneg hx0 h)) hγ.le
        have h2 := elasticity_low hb0 hE0 hax hv0 hZe hDe (by
          rcases le_total v 4.92 with h' | h'
          · exact Or.inl h'
          · right
            have := exponential_small' ht ht4 hx0 h (by
              rw [← hB]; rw [hv] at h'; norm_num at h' ⊢; linarith)
            rw [hv, hE]
            rw [← hB, ← ha, ← hA] at this
            exact this)
        linarith
      · have h1 : -0.51 ≤ x * slope x / Published.gasGamma x := by
          rw [le_div_iff₀ hγ]; exact slope_ge h
        have h2 := elasticity_high hb0 hE0 hax hv0 hZe hDe (by
          have := exponential_small ht ht4 h
          rw [hv, hE]
          rw [← hB, ← ha, ← hA, ← hb] at this
          exact this)
        norm_num at h1 h2
        linarith
    have e : x⁻¹ + slope x / Published.gasGamma x
        + (a + A * (Real.exp (-(B * x ^ (1.2:ℝ))) * -(B * (1.2 * x ^ (0.2:ℝ)))))
          / (a * x + b + A * Real.exp (-(B * x ^ (1.2:ℝ))))
        - (A * (Real.exp (-(B * x ^ (1.2:ℝ))) * -(B * (1.2 * x ^ (0.2:ℝ)))) * (1 + 1.2 * (B * x ^ (1.2:ℝ)))
            + A * Real.exp (-(B * x ^ (1.2:ℝ))) * (1.2 * (B * (1.2 * x ^ (0.2:ℝ)))))
          / (b + A * Real.exp (-(B * x ^ (1.2:ℝ))) * (1 + 1.2 * (B * x ^ (1.2:ℝ))))
        = (x * slope x / Published.gasGamma x + (2 - D / Z - v * E * (0.2 - v) / D)) / x := by
      rw [← hE, ← hv, ← hDe, ← hZe]
      have h1 : (a + A * (Real.exp (-(B * x ^ (1.2:ℝ))) * -(B * (1.2 * x ^ (0.2:ℝ))))) = (Z - D) / x := by
        rw [eq_div_iff hx0.ne', hZe, hDe, hv, hE, ← hpx hx0]; ring
      have h2 : (A * (Real.exp (-(B * x ^ (1.2:ℝ))) * -(B * (1.2 * x ^ (0.2:ℝ)))) * (1 + v)
            + E * (1.2 * (B * (1.2 * x ^ (0.2:ℝ))))) = v * E * (0.2 - v) / x := by
        rw [eq_div_iff hx0.ne', hv, hE, ← hpx hx0]; ring
      rw [h1, h2]
      field_simp
      ring
    rw [e]
    exact div_pos hsum hx0
  intro x hx y hy hxy
  have hx0 : 0 < x := hx
  have hy0 : 0 < y := hy
  have h := hmono hx hy hxy
  dsimp only at h ⊢
  rw [hD x hx0, hD y hy0, hZ, hZ]
  have l : ∀ p, 0 < p → Real.log (p * Published.gasGamma p * (a * p + b + A * Real.exp (-(B * p ^ (1.2:ℝ))))
      / (b + A * Real.exp (-(B * p ^ (1.2:ℝ))) * (1 + 1.2 * (B * p ^ (1.2:ℝ)))))
      = Real.log p + Real.log (Published.gasGamma p)
      + Real.log (a * p + b + A * Real.exp (-(B * p ^ (1.2:ℝ))))
      - Real.log (b + A * Real.exp (-(B * p ^ (1.2:ℝ))) * (1 + 1.2 * (B * p ^ (1.2:ℝ)))) := by
    intro p hp
    have g := gasGamma_pos hp.le
    have z := (hpos p hp).1
    rw [Real.log_div (by positivity) (hpos p hp).2.ne', Real.log_mul (by positivity) z.ne',
      Real.log_mul hp.ne' g.ne']
  rw [← l x hx0, ← l y hy0] at h
  have q : ∀ p, 0 < p → 0 < p * Published.gasGamma p * (a * p + b + A * Real.exp (-(B * p ^ (1.2:ℝ))))
      / (b + A * Real.exp (-(B * p ^ (1.2:ℝ))) * (1 + 1.2 * (B * p ^ (1.2:ℝ)))) := by
    intro p hp
    exact div_pos (mul_pos (mul_pos hp (gasGamma_pos hp.le)) (hpos p hp).1) (hpos p hp).2
  exact (Real.log_lt_log_iff (q x hx0) (q y hy0)).mp h

/-- **C181.** For every temperature 0 … 300 °C and gas gravity 0.29 … 1.4, the bulk modulus of `gas` strictly
increases with (positive) pressure. -/
theorem C181_gas_bulk_pressure {T P P' G : ℝ} (hT : 0 ≤ T) (hT' : T ≤ 300) (hP : 0 < P) (hPP : P < P')
    (hG : 0.29 ≤ G) (hG' : G ≤ 1.4) :
    ∃ m m' : Mat 1, gas (c T) (c P) (c G) = .ok m ∧ gas (c T) (c P') (c G) = .ok m' ∧
      m.bulk 0 < m'.bulk 0 := by
  obtain ⟨m, h, -, d, -⟩ := C95_gas (n := 1) (fun _ => T) (fun _ => P) (fun _ => G) (fun _ => ⟨hT, hT'⟩)
    (fun _ => hP) (fun _ => ⟨hG, hG'⟩)
  obtain ⟨m', h', -, d', -⟩ := C95_gas (n := 1) (fun _ => T) (fun _ => P') (fun _ => G) (fun _ => ⟨hT, hT'⟩)
    (fun _ => hP.trans hPP) (fun _ => ⟨hG, hG'⟩)
  refine ⟨m, m', h, h', ?_⟩
  rw [d, d']
  simp only [finC_apply, Num.fin_lt]
  have hG0 : 0 < G := by norm_num at hG; linarith
  have hd : 0 < 94.72 + 170.75 * G := by positivity
  have hc : 0 < 4.892 - 0.4048 * G := by norm_num at hG' ⊢; linarith
  have t1 : 0.815 ≤ Published.gasTpr (T + 273.15) G := by
    unfold Published.gasTpr; rw [le_div_iff₀ hd]; norm_num at hG hG' ⊢; linarith
  have t2 : Published.gasTpr (T + 273.15) G ≤ 4 := by
    unfold Published.gasTpr; rw [div_le_iff₀ hd]; norm_num at hG hG' ⊢; linarith
  have k : (0:ℝ) < 1e-6 := by norm_num
  have p0 : ∀ {x : ℝ}, 0 < x → 0 < Published.gasPpr (x * 1e-6) G := by
    intro x hx; unfold Published.gasPpr; positivity
  have hr := bulk_strictMono t1 t2 (Set.mem_Ioi.mpr (p0 hP)) (Set.mem_Ioi.mpr (p0 (hP.trans hPP)))
    (by unfold Published.gasPpr; exact div_lt_div_of_pos_right (mul_lt_mul_of_pos_right hPP k) hc)
  have e : ∀ x : ℝ, 0 < x → Published.gasBulk (T + 273.15) (x * 1e-6) G =
      (1e6 * (4.892 - 0.4048 * G)) * (Published.gasPpr (x * 1e-6) G
        * Published.gasGamma (Published.gasPpr (x * 1e-6) G)
        * Published.gasZ (Published.gasTpr (T + 273.15) G) (Published.gasPpr (x * 1e-6) G)
        / (Published.gasZ (Published.gasTpr (T + 273.15) G) (Published.gasPpr (x * 1e-6) G)
          - Published.gasPpr (x * 1e-6) G
            * deriv (Published.gasZ (Published.gasTpr (T + 273.15) G)) (Published.gasPpr (x * 1e-6) G))) := by
    intro x hx
    unfold Published.gasBulk
    have hpp : x * 1e-6 = Published.gasPpr (x * 1e-6) G * (4.892 - 0.4048 * G) := by
      unfold Published.gasPpr; field_simp
    obtain ⟨z0, dd0⟩ := gasZ_pos t1 t2 (p0 hx)
    generalize deriv (Published.gasZ (Published.gasTpr (T + 273.15) G)) (Published.gasPpr (x * 1e-6) G) = dz at *
    generalize Published.gasZ (Published.gasTpr (T + 273.15) G) (Published.gasPpr (x * 1e-6) G) = z at *
    generalize Published.gasGamma (Published.gasPpr (x * 1e-6) G) = g at *
    generalize Published.gasPpr (x * 1e-6) G = p at *
    rw [hpp]
    have e1 : 1 - p / z * dz = (z - p * dz) / z := by field_simp
    rw [e1]
    have := dd0.ne'
    field_simp
  rw [e P hP, e P' (hP.trans hPP)]
  exact mul_lt_mul_of_pos_left hr (by positivity)

/-- Methane at 60 °C, 10 and 30 MPa. -/
example := C181_gas_bulk_pressure (T := 60) (P := 10e6) (P' := 30e6) (G := 0.6) (by norm_num) (by norm_num)
  (by norm_num) (by norm_num) (by norm_num) (by norm_num)

end OPE.GasStiffness
