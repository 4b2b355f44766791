import Verif.Props.Trends

/-!
# C178: trends of the brine velocity and bulk modulus

The model of `brine` (`Model/BatzleWang.lean`, /repo/src/open_petro_elastic/material/batzle_wang/) is connected to
the published equations by C93; here the direction in which velocity and bulk modulus move with pressure and
salinity is settled for every pair of conditions in a stated range.  Temperature is left out on purpose: the
velocity in water rises to a maximum near 70 °C and falls beyond it, so there is no trend to prove.
-/

namespace OPE
variable {n : ℕ}

set_option maxHeartbeats 1000000 in
/-- Bernstein form on 0 … 300 °C, 0 … 100 MPa: the pressure slope of the velocity in water exceeds the most that
salt can take away from it. -/
theorem waterVelocity_slope {T P : ℝ} (hT : 0 ≤ T) (hT' : T ≤ 300) (hP : 0 ≤ P) (hP' : P ≤ 100) :
    0 < (327 / 500) + (7237 / 500000) * P + (-3591 / 100000000) * P ^ 2 + (-1197 / 100000) * T
      + (1739 / 5000000) * T * P + (-1221 / 250000000) * T * P ^ 2 + (2747 / 10000000) * T ^ 2
      + (-427 / 100000000) * T ^ 2 * P + (3711 / 100000000000) * T ^ 2 * P ^ 2
      + (-6503 / 10000000000) * T ^ 3 + (-291 / 10000000000) * T ^ 3 * P
      + (3981 / 10000000000000) * T ^ 3 * P ^ 2 + (7987 / 10000000000000) * T ^ 4
      + (523 / 5000000000000) * T ^ 4 * P + (-6921 / 5000000000000000) * T ^ 4 * P ^ 2 := by
  obtain ⟨a, ha⟩ : ∃ y, y = 300 - T := ⟨_, rfl⟩
  obtain ⟨b, hb⟩ : ∃ y, y = 100 - P := ⟨_, rfl⟩
  have ha0 : 0 ≤ a := by linarith
  have hb0 : 0 ≤ b := by linarith
  have h : 0 ≤ (161 / 5467500000000000000000000000000000) * a ^ 7 * b ^ 7
      + (29777 / 109350000000000000000000000000000000) * a ^ 7 * P ^ 1 * b ^ 6
      + (24277 / 24300000000000000000000000000000000) * a ^ 7 * P ^ 2 * b ^ 5
      + (84911 / 43740000000000000000000000000000000) * a ^ 7 * P ^ 3 * b ^ 4
      + (47897 / 21870000000000000000000000000000000) * a ^ 7 * P ^ 4 * b ^ 3
      + (293 / 202500000000000000000000000000000) * a ^ 7 * P ^ 5 * b ^ 2
      + (113969 / 218700000000000000000000000000000000) * a ^ 7 * P ^ 6 * b ^ 1
      + (17323 / 218700000000000000000000000000000000) * a ^ 7 * P ^ 7
      + (917 / 21870000000000000000000000000000000) * T ^ 1 * a ^ 6 * b ^ 7
      + (33731 / 27337500000000000000000000000000000) * T ^ 1 * a ^ 6 * P ^ 1 * b ^ 6
      + (139429 / 24300000000000000000000000000000000) * T ^ 1 * a ^ 6 * P ^ 2 * b ^ 5
      + (509507 / 43740000000000000000000000000000000) * T ^ 1 * a ^ 6 * P ^ 3 * b ^ 4
      + (135877 / 10935000000000000000000000000000000) * T ^ 1 * a ^ 6 * P ^ 4 * b ^ 3
      + (1927 / 270000000000000000000000000000000) * T ^ 1 * a ^ 6 * P ^ 5 * b ^ 2
      + (439853 / 218700000000000000000000000000000000) * T ^ 1 * a ^ 6 * P ^ 6 * b ^ 1
      + (43171 / 218700000000000000000000000000000000) * T ^ 1 * a ^ 6 * P ^ 7
      + (5567 / 7290000000000000000000000000000000) * T ^ 2 * a ^ 5 * b ^ 7
      + (142897 / 18225000000000000000000000000000000) * T ^ 2 * a ^ 5 * P ^ 1 * b ^ 6
      + (228179 / 8100000000000000000000000000000000) * T ^ 2 * a ^ 5 * P ^ 2 * b ^ 5
      + (728537 / 14580000000000000000000000000000000) * T ^ 2 * a ^ 5 * P ^ 3 * b ^ 4
      + (175897 / 3645000000000000000000000000000000) * T ^ 2 * a ^ 5 * P ^ 4 * b ^ 3
      + (20323 / 810000000000000000000000000000000) * T ^ 2 * a ^ 5 * P ^ 5 * b ^ 2
      + (446843 / 72900000000000000000000000000000000) * T ^ 2 * a ^ 5 * P ^ 6 * b ^ 1
      + (30721 / 72900000000000000000000000000000000) * T ^ 2 * a ^ 5 * P ^ 7
      + (747319 / 218700000000000000000000000000000000) * T ^ 3 * a ^ 4 * b ^ 7
      + (4595723 / 218700000000000000000000000000000000) * T ^ 3 * a ^ 4 * P ^ 1 * b ^ 6
      + (683443 / 12150000000000000000000000000000000) * T ^ 3 * a ^ 4 * P ^ 2 * b ^ 5
      + (1873019 / 21870000000000000000000000000000000) * T ^ 3 * a ^ 4 * P ^ 3 * b ^ 4
      + (3531863 / 43740000000000000000000000000000000) * T ^ 3 * a ^ 4 * P ^ 4 * b ^ 3
      + (14231 / 300000000000000000000000000000000) * T ^ 3 * a ^ 4 * P ^ 5 * b ^ 2
      + (220303 / 13668750000000000000000000000000000) * T ^ 3 * a ^ 4 * P ^ 6 * b ^ 1
      + (66643 / 27337500000000000000000000000000000) * T ^ 3 * a ^ 4 * P ^ 7
      + (13418707 / 2187000000000000000000000000000000000) * T ^ 4 * a ^ 3 * b ^ 7
      + (58479449 / 2187000000000000000000000000000000000) * T ^ 4 * a ^ 3 * P ^ 1 * b ^ 6
      + (11522753 / 243000000000000000000000000000000000) * T ^ 4 * a ^ 3 * P ^ 2 * b ^ 5
      + (22197379 / 437400000000000000000000000000000000) * T ^ 4 * a ^ 3 * P ^ 3 * b ^ 4
      + (21366809 / 437400000000000000000000000000000000) * T ^ 4 * a ^ 3 * P ^ 4 * b ^ 3
      + (3564061 / 81000000000000000000000000000000000) * T ^ 4 * a ^ 3 * P ^ 5 * b ^ 2
      + (54326599 / 2187000000000000000000000000000000000) * T ^ 4 * a ^ 3 * P ^ 6 * b ^ 1
      + (12588137 / 2187000000000000000000000000000000000) * T ^ 4 * a ^ 3 * P ^ 7
      + (4031627 / 729000000000000000000000000000000000) * T ^ 5 * a ^ 2 * b ^ 7
      + (14400169 / 729000000000000000000000000000000000) * T ^ 5 * a ^ 2 * P ^ 1 * b ^ 6
      + (1730873 / 81000000000000000000000000000000000) * T ^ 5 * a ^ 2 * P ^ 2 * b ^ 5
      + (598739 / 145800000000000000000000000000000000) * T ^ 5 * a ^ 2 * P ^ 3 * b ^ 4
      + (618529 / 145800000000000000000000000000000000) * T ^ 5 * a ^ 2 * P ^ 4 * b ^ 3
      + (1750663 / 81000000000000000000000000000000000) * T ^ 5 * a ^ 2 * P ^ 5 * b ^ 2
      + (14499119 / 729000000000000000000000000000000000) * T ^ 5 * a ^ 2 * P ^ 6 * b ^ 1
      + (4051417 / 729000000000000000000000000000000000) * T ^ 5 * a ^ 2 * P ^ 7
      + (5575301 / 2187000000000000000000000000000000000) * T ^ 6 * a ^ 1 * b ^ 7
      + (21075487 / 2187000000000000000000000000000000000) * T ^ 6 * a ^ 1 * P ^ 1 * b ^ 6
      + (2931919 / 243000000000000000000000000000000000) * T ^ 6 * a ^ 1 * P ^ 2 * b ^ 5
      + (2187917 / 437400000000000000000000000000000000) * T ^ 6 * a ^ 1 * P ^ 3 * b ^ 4
      + (1251967 / 437400000000000000000000000000000000) * T ^ 6 * a ^ 1 * P ^ 4 * b ^ 3
      + (665323 / 81000000000000000000000000000000000) * T ^ 6 * a ^ 1 * P ^ 5 * b ^ 2
      + (16395737 / 2187000000000000000000000000000000000) * T ^ 6 * a ^ 1 * P ^ 6 * b ^ 1
      + (4639351 / 2187000000000000000000000000000000000) * T ^ 6 * a ^ 1 * P ^ 7
      + (1068737 / 2187000000000000000000000000000000000) * T ^ 7 * b ^ 7
      + (5441899 / 2187000000000000000000000000000000000) * T ^ 7 * P ^ 1 * b ^ 6
      + (1287043 / 243000000000000000000000000000000000) * T ^ 7 * P ^ 2 * b ^ 5
      + (2738849 / 437400000000000000000000000000000000) * T ^ 7 * P ^ 3 * b ^ 4
      + (2075059 / 437400000000000000000000000000000000) * T ^ 7 * P ^ 4 * b ^ 3
      + (207751 / 81000000000000000000000000000000000) * T ^ 7 * P ^ 5 * b ^ 2
      + (2122949 / 2187000000000000000000000000000000000) * T ^ 7 * P ^ 6 * b ^ 1
      + (404947 / 2187000000000000000000000000000000000) * T ^ 7 * P ^ 7 := by
    positivity
  refine lt_of_lt_of_eq (lt_of_lt_of_le (by norm_num : (0:ℝ) < 0.01) (le_add_of_nonneg_left h)) ?_
  rw [ha, hb]
  ring

set_option maxHeartbeats 1000000 in
/-- Bernstein form on 0 … 350 °C, 0 … 100 MPa, square root of the salinity up to 0.5478: half the slope of the
velocity in the square root of the salinity, divided by that root, is positive. -/
theorem brineVelocity_slope_S {T P s : ℝ} (hT : 0 ≤ T) (hT' : T ≤ 350) (hP : 0 ≤ P) (hP' : P ≤ 100)
    (hs : 0 ≤ s) (hs' : s ≤ 0.5478) :
    0 < (1170) + (13 / 5) * P + (-119 / 2500) * P ^ 2 + (-48 / 5) * T + (-29 / 10000) * T * P
      + (11 / 200) * T ^ 2 + (-17 / 200000) * T ^ 3 + (1170) * s + (-15) * P * s + (6 / 25) * P ^ 2 * s
      + (-1640) * s ^ 2 := by
  obtain ⟨a, ha⟩ : ∃ y, y = 350 - T := ⟨_, rfl⟩
  obtain ⟨b, hb⟩ : ∃ y, y = 100 - P := ⟨_, rfl⟩
  obtain ⟨d, hd⟩ : ∃ y, y = 0.5478 - s := ⟨_, rfl⟩
  have ha0 : 0 ≤ a := by linarith
  have hb0 : 0 ≤ b := by linarith
  have hd0 : 0 ≤ d := by linarith
  have h : 0 ≤ (167 / 6433068757500) * a ^ 4 * b ^ 2 * d ^ 2 + (1489463 / 22515740651250000) * a ^ 4 * b ^ 2 * s ^ 1 * d ^ 1
      + (823616789 / 28144675814062500000) * a ^ 4 * b ^ 2 * s ^ 2
      + (433 / 7505246883750) * a ^ 4 * P ^ 1 * b ^ 1 * d ^ 2
      + (235673 / 1876311720937500) * a ^ 4 * P ^ 1 * b ^ 1 * s ^ 1 * d ^ 1
      + (216028513 / 4690779302343750000) * a ^ 4 * P ^ 1 * b ^ 1 * s ^ 2
      + (953 / 45031481302500) * a ^ 4 * P ^ 2 * d ^ 2 + (217139 / 3216534378750000) * a ^ 4 * P ^ 2 * s ^ 1 * d ^ 1
      + (996754289 / 28144675814062500000) * a ^ 4 * P ^ 2 * s ^ 2
      + (47 / 1608267189375) * T ^ 1 * a ^ 3 * b ^ 2 * d ^ 2
      + (649463 / 5628935162812500) * T ^ 1 * a ^ 3 * b ^ 2 * s ^ 1 * d ^ 1
      + (298616789 / 7036168953515625000) * T ^ 1 * a ^ 3 * b ^ 2 * s ^ 2
      + (7141 / 90062962605000) * T ^ 1 * a ^ 3 * P ^ 1 * b ^ 1 * d ^ 2
      + (1122701 / 5628935162812500) * T ^ 1 * a ^ 3 * P ^ 1 * b ^ 1 * s ^ 1 * d ^ 1
      + (230311703 / 7036168953515625000) * T ^ 1 * a ^ 3 * P ^ 1 * b ^ 1 * s ^ 2
      + (701 / 90062962605000) * T ^ 1 * a ^ 3 * P ^ 2 * d ^ 2
      + (46757 / 402066797343750) * T ^ 1 * a ^ 3 * P ^ 2 * s ^ 1 * d ^ 1
      + (227947457 / 3518084476757812500) * T ^ 1 * a ^ 3 * P ^ 2 * s ^ 2
      + (1049 / 12866137515000) * T ^ 2 * a ^ 2 * b ^ 2 * d ^ 2
      + (2797139 / 11257870325625000) * T ^ 2 * a ^ 2 * b ^ 2 * s ^ 1 * d ^ 1
      + (1426319117 / 14072337907031250000) * T ^ 2 * a ^ 2 * b ^ 2 * s ^ 2
      + (17197 / 90062962605000) * T ^ 2 * a ^ 2 * P ^ 1 * b ^ 1 * d ^ 2
      + (2494739 / 5628935162812500) * T ^ 2 * a ^ 2 * P ^ 1 * b ^ 1 * s ^ 1 * d ^ 1
      + (426073621 / 3518084476757812500) * T ^ 2 * a ^ 2 * P ^ 1 * b ^ 1 * s ^ 2
      + (2071 / 45031481302500) * T ^ 2 * a ^ 2 * P ^ 2 * d ^ 2
      + (390917 / 1608267189375000) * T ^ 2 * a ^ 2 * P ^ 2 * s ^ 1 * d ^ 1
      + (1850575367 / 14072337907031250000) * T ^ 2 * a ^ 2 * P ^ 2 * s ^ 2
      + (5059 / 51464550060000) * T ^ 3 * a ^ 1 * b ^ 2 * d ^ 2
      + (5708477 / 22515740651250000) * T ^ 3 * a ^ 1 * b ^ 2 * s ^ 1 * d ^ 1
      + (3138607781 / 28144675814062500000) * T ^ 3 * a ^ 1 * b ^ 2 * s ^ 2
      + (2557 / 12008395014000) * T ^ 3 * a ^ 1 * P ^ 1 * b ^ 1 * d ^ 2
      + (1751509 / 3752623441875000) * T ^ 3 * a ^ 1 * P ^ 1 * b ^ 1 * s ^ 1 * d ^ 1
      + (780442177 / 4690779302343750000) * T ^ 3 * a ^ 1 * P ^ 1 * b ^ 1 * s ^ 2
      + (5213 / 72050370084000) * T ^ 3 * a ^ 1 * P ^ 2 * d ^ 2
      + (789431 / 3216534378750000) * T ^ 3 * a ^ 1 * P ^ 2 * s ^ 1 * d ^ 1
      + (3640845281 / 28144675814062500000) * T ^ 3 * a ^ 1 * P ^ 2 * s ^ 2
      + (1031 / 51464550060000) * T ^ 4 * b ^ 2 * d ^ 2
      + (305647 / 5628935162812500) * T ^ 4 * b ^ 2 * s ^ 1 * d ^ 1
      + (328409957 / 14072337907031250000) * T ^ 4 * b ^ 2 * s ^ 2
      + (2617 / 60041975070000) * T ^ 4 * P ^ 1 * b ^ 1 * d ^ 2
      + (365471 / 3752623441875000) * T ^ 4 * P ^ 1 * b ^ 1 * s ^ 1 * d ^ 1
      + (74928319 / 2345389651171875000) * T ^ 4 * P ^ 1 * b ^ 1 * s ^ 2
      + (1559 / 120083950140000) * T ^ 4 * P ^ 2 * d ^ 2 + (3917 / 76584151875000) * T ^ 4 * P ^ 2 * s ^ 1 * d ^ 1
      + (127753319 / 4690779302343750000) * T ^ 4 * P ^ 2 * s ^ 2 := by
    positivity
  refine lt_of_lt_of_eq (lt_of_lt_of_le one_pos (le_add_of_nonneg_left h)) ?_
  rw [ha, hb, hd]
  ring

/-- `S ^ 1.5` is the cube of the square root. -/
theorem rpow_three_halves_sqrt {S : ℝ} (hS : 0 ≤ S) : S ^ (1.5 : ℝ) = Real.sqrt S ^ 3 := by
  rw [Real.sqrt_eq_rpow, ← Real.rpow_natCast, ← Real.rpow_mul hS]
  norm_num

/-- The velocity in brine strictly increases with pressure up to 300 °C. -/
theorem brineVelocity_P {T P P' S : ℝ} (hT : 0 ≤ T) (hT' : T ≤ 300) (hP : 0 ≤ P) (hPP : P < P') (hP' : P' ≤ 100)
    (hS : 0 ≤ S) (hS' : S ≤ 0.3) : Published.brineVelocity T P S < Published.brineVelocity T P' S := by
  have hsq : Real.sqrt S ^ 2 = S := Real.sq_sqrt hS
  obtain ⟨s, hs⟩ : ∃ s, s = Real.sqrt S := ⟨_, rfl⟩
  have hs0 : 0 ≤ s := by rw [hs]; exact Real.sqrt_nonneg _
  rw [← hs] at hsq
  have hs2 : s ^ 2 ≤ 0.3 := hsq ▸ hS'
  have hs1 : s ≤ 0.5478 := by
    by_contra h
    rw [not_le] at h
    norm_num at h hs2
    nlinarith
  -- what salt takes away at the two ends of the pressure range
  have low : -0.87 ≤ 2.6 * s ^ 2 - 10 * s ^ 3 := by
    have : s ^ 3 ≤ 0.5478 * s ^ 2 := by nlinarith [sq_nonneg s]
    norm_num at *
    linarith
  have high : -0.11 ≤ -6.92 * s ^ 2 + 22 * s ^ 3 := by
    norm_num
    nlinarith [mul_nonneg (add_nonneg hs0 hs0) (sq_nonneg (s - 0.21)), mul_nonneg hs0 (sq_nonneg (s - 0.21)),
      sq_nonneg (s - 0.21)]
  have slope : ∀ p, 0 ≤ p → p ≤ 100 → 0 <
      (1.524 - 0.0111 * T + 2.747e-4 * T ^ 2 - 6.503e-7 * T ^ 3 + 7.987e-10 * T ^ 4)
      + 2 * (3.437e-3 + 1.739e-4 * T - 2.135e-6 * T ^ 2 - 1.455e-8 * T ^ 3 + 5.230e-11 * T ^ 4) * p
      + 3 * (-1.197e-5 - 1.628e-6 * T + 1.237e-8 * T ^ 2 + 1.327e-10 * T ^ 3 - 4.614e-13 * T ^ 4) * p ^ 2
      + s ^ 2 * (2.6 - 0.0029 * T - 0.0952 * p) + s ^ 3 * (-10 + 0.32 * p) := by
    intro p p0 p1
    have h := waterVelocity_slope hT hT' p0 p1
    have k1 := mul_nonneg (sub_nonneg.mpr p1) (sub_nonneg.mpr low)
    have k2 := mul_nonneg p0 (sub_nonneg.mpr high)
    have k3 := mul_nonneg hT (sub_nonneg.mpr hs2)
    have k := add_pos_of_pos_of_nonneg h (add_nonneg (mul_nonneg (by norm_num : (0:ℝ) ≤ 1 / 100) (add_nonneg k1 k2))
      (mul_nonneg (by norm_num : (0:ℝ) ≤ 0.0029) k3))
    refine lt_of_lt_of_eq k ?_
    ring
  have h1 := slope P hP (by linarith)
  have h2 := slope ((P + P') / 2) (by linarith) (by linarith)
  have h3 := slope P' (by linarith) hP'
  have k := mul_pos (mul_pos (sub_pos.mpr hPP) (by norm_num : (0:ℝ) < 1 / 6))
    (add_pos (add_pos h1 (mul_pos (by norm_num : (0:ℝ) < 4) h2)) h3)
  refine sub_pos.mp (lt_of_lt_of_eq k ?_)
  unfold Published.brineVelocity Published.waterVelocity
  rw [rpow_three_halves_sqrt hS, ← hs, ← hsq]
  ring

/-- The velocity in brine strictly increases with salinity. -/
theorem brineVelocity_S {T P S S' : ℝ} (hT : 0 ≤ T) (hT' : T ≤ 350) (hP : 0 ≤ P) (hP' : P ≤ 100)
    (hS : 0 ≤ S) (hSS : S < S') (hS' : S' ≤ 0.3) :
    Published.brineVelocity T P S < Published.brineVelocity T P S' := by
  have hS0 : 0 ≤ S' := hS.trans hSS.le
  have q : Real.sqrt S ^ 2 = S := Real.sq_sqrt hS
  have q' : Real.sqrt S' ^ 2 = S' := Real.sq_sqrt hS0
  have hlt : Real.sqrt S < Real.sqrt S' := Real.sqrt_lt_sqrt hS hSS
  have hs0 := Real.sqrt_nonneg S
  unfold Published.brineVelocity
  rw [rpow_three_halves_sqrt hS, rpow_three_halves_sqrt hS0]
  obtain ⟨s, hs⟩ : ∃ s, s = Real.sqrt S := ⟨_, rfl⟩
  obtain ⟨s', hs'⟩ : ∃ s, s = Real.sqrt S' := ⟨_, rfl⟩
  rw [← hs] at hs0 hlt q ⊢
  rw [← hs'] at hlt q' ⊢
  have hs1 : s' ≤ 0.5478 := by
    by_contra h
    rw [not_le] at h
    norm_num at h hS'
    nlinarith
  have h1 := brineVelocity_slope_S hT hT' hP hP' hs0 (hlt.le.trans hs1)
  have h2 := brineVelocity_slope_S (s := (s + s') / 2) hT hT' hP hP' (by linarith) (by linarith)
  have h3 := brineVelocity_slope_S hT hT' hP hP' (hs0.trans hlt.le) hs1
  have k := mul_pos (mul_pos (sub_pos.mpr hlt) (by norm_num : (0:ℝ) < 1 / 6))
    (add_pos_of_nonneg_of_pos (add_nonneg (mul_nonneg (mul_nonneg (by norm_num : (0:ℝ) ≤ 2) hs0) h1.le)
      (mul_nonneg (mul_nonneg (by norm_num : (0:ℝ) ≤ 4) (by linarith : 0 ≤ s + s')) h2.le))
      (mul_pos (mul_pos (by norm_num : (0:ℝ) < 2) (lt_of_le_of_lt hs0 hlt)) h3))
  refine sub_pos.mp (lt_of_lt_of_eq k ?_)
  rw [← q, ← q']
  ring

/-- **C178.** For all conditions in 0 … 350 °C, 0 … 100 MPa and 0 … 300 000 ppm, row by row: `brine` returns, and
a brine under more pressure or with more salt (and no less of the other) carries sound strictly faster and has a
strictly larger bulk modulus, at equal temperature; where the pressures differ the temperature must not exceed
300 °C. -/
theorem C178_brine_stiffness_trends (T P P' S S' : Fin n → ℝ) (hT : ∀ i, 0 ≤ T i ∧ T i ≤ 350)
    (hP : ∀ i, 0 ≤ P i ∧ P i ≤ P' i ∧ P' i ≤ 100e6) (hS : ∀ i, 0 ≤ S i ∧ S i ≤ S' i ∧ S' i ≤ 300000)
    (hTP : ∀ i, P i < P' i → T i ≤ 300) :
    ∃ m m', brine (finC T) (finC P) (finC S) = .ok m ∧ brine (finC T) (finC P') (finC S') = .ok m' ∧
      ∀ i, (P i < P' i ∨ S i < S' i → m.vp i < m'.vp i ∧ m.bulk i < m'.bulk i) := by
  obtain ⟨_, m, _, _, ρ, v, _, h, _, _, e1, e2, b⟩ := C80_brine_defined T P S hT
    (fun i => ⟨(hP i).1, (hP i).2.1.trans (hP i).2.2⟩) (fun i => ⟨(hS i).1, (hS i).2.1.trans (hS i).2.2⟩)
  obtain ⟨_, m', _, _, _, _, _, h', _, _, _, _, _⟩ := C80_brine_defined T P' S' hT
    (fun i => ⟨(hP i).1.trans (hP i).2.1, (hP i).2.2⟩) (fun i => ⟨(hS i).1.trans (hS i).2.1, (hS i).2.2⟩)
  refine ⟨m, m', h, h', fun i hi => ?_⟩
  obtain ⟨d, w, k⟩ := (C93_water_and_brine T P S m).1 (fun i => (hS i).1) h
  obtain ⟨d', w', k'⟩ := (C93_water_and_brine T P' S' m').1 (fun i => (hS i).1.trans (hS i).2.1) h'
  have rpos : 0 < 1000 * Published.brineDensity (T i) (P i * 1e-6) (S i * 1e-6) := by
    have := congrFun (e1.symm.trans d) i
    simp only [finC_apply, Num.fin_inj] at this
    rw [← this]
    have := b i
    norm_num at this
    linarith [this.1, this.2.2.1]
  have vpos : 0 < Published.brineVelocity (T i) (P i * 1e-6) (S i * 1e-6) := by
    have := congrFun (e2.symm.trans w) i
    simp only [finC_apply, Num.fin_inj] at this
    rw [← this]
    linarith [(b i).2.2.2]
  rw [w, w', k, k']
  simp only [finC_apply, Num.fin_lt]
  have u : (0:ℝ) < 1e-6 := by norm_num
  obtain ⟨p0, pp, p1⟩ := hP i
  obtain ⟨s0, ss, s1⟩ := hS i
  have p0' : 0 ≤ P i * 1e-6 := mul_nonneg p0 u.le
  have s0' : 0 ≤ S i * 1e-6 := mul_nonneg s0 u.le
  have pp' : P i * 1e-6 ≤ P' i * 1e-6 := mul_le_mul_of_nonneg_right pp u.le
  have ss' : S i * 1e-6 ≤ S' i * 1e-6 := mul_le_mul_of_nonneg_right ss u.le
  have p1' : P' i * 1e-6 ≤ 100 := by norm_num at p1 ⊢; linarith
  have s1' : S' i * 1e-6 ≤ 0.3 := by norm_num at s1 ⊢; linarith
  -- first the pressure, then the salinity
  have v1 : Published.brineVelocity (T i) (P i * 1e-6) (S i * 1e-6)
      ≤ Published.brineVelocity (T i) (P' i * 1e-6) (S i * 1e-6) := by
    rcases pp.lt_or_eq with q | q
    · exact (brineVelocity_P (hT i).1 (hTP i q) p0' (mul_lt_mul_of_pos_right q u) p1' s0' (ss'.trans s1')).le
    · rw [q]
  have v2 : Published.brineVelocity (T i) (P' i * 1e-6) (S i * 1e-6)
      ≤ Published.brineVelocity (T i) (P' i * 1e-6) (S' i * 1e-6) := by
    rcases ss.lt_or_eq with q | q
    · exact (brineVelocity_S (hT i).1 (hT i).2 (p0'.trans pp') p1' s0' (mul_lt_mul_of_pos_right q u) s1').le
    · rw [q]
  have r1 : Published.brineDensity (T i) (P i * 1e-6) (S i * 1e-6)
      ≤ Published.brineDensity (T i) (P' i * 1e-6) (S i * 1e-6) := by
    rcases pp.lt_or_eq with q | q
    · exact (brineDensity_P (hT i).1 (hT i).2 p0' (mul_lt_mul_of_pos_right q u) p1' s0' (ss'.trans s1')).le
    · rw [q]
  have r2 : Published.brineDensity (T i) (P' i * 1e-6) (S i * 1e-6)
      ≤ Published.brineDensity (T i) (P' i * 1e-6) (S' i * 1e-6) := by
    rcases ss.lt_or_eq with q | q
    · exact (brineDensity_S (hT i).1 (hT i).2 (p0'.trans pp') p1' s0' (mul_lt_mul_of_pos_right q u) s1').le
    · rw [q]
  have v3 : Published.brineVelocity (T i) (P i * 1e-6) (S i * 1e-6)
      < Published.brineVelocity (T i) (P' i * 1e-6) (S' i * 1e-6) := by
    rcases hi with q | q
    · exact (brineVelocity_P (hT i).1 (hTP i q) p0' (mul_lt_mul_of_pos_right q u) p1' s0'
        (ss'.trans s1')).trans_le v2
    · exact v1.trans_lt (brineVelocity_S (hT i).1 (hT i).2 (p0'.trans pp') p1' s0'
        (mul_lt_mul_of_pos_right q u) s1')
  refine ⟨v3, ?_⟩
  calc 1000 * Published.brineDensity (T i) (P i * 1e-6) (S i * 1e-6)
        * Published.brineVelocity (T i) (P i * 1e-6) (S i * 1e-6) ^ 2
      < 1000 * Published.brineDensity (T i) (P i * 1e-6) (S i * 1e-6)
        * Published.brineVelocity (T i) (P' i * 1e-6) (S' i * 1e-6) ^ 2 :=
        mul_lt_mul_of_pos_left (pow_lt_pow_left₀ v3 vpos.le (by norm_num)) rpos
    _ ≤ _ := mul_le_mul_of_nonneg_right (mul_le_mul_of_nonneg_left (r1.trans r2) (by norm_num)) (sq_nonneg _)

/-- The limit of 300 °C is not an artefact: at 350 °C a rise from 95 to 100 MPa lowers the velocity in fresh
water. -/
theorem C178_not_beyond : Published.brineVelocity 350 100 0 < Published.brineVelocity 350 95 0 := by
  unfold Published.brineVelocity Published.waterVelocity
  rw [Real.zero_rpow (by norm_num)]
  norm_num

/-- Witness: sea water at 80 °C, from 20 to 40 MPa. -/
example : ∃ m m', brine (finC fun _ : Fin 1 => (80:ℝ)) (finC fun _ => (20e6:ℝ)) (finC fun _ => (35000:ℝ)) = .ok m ∧
    brine (finC fun _ : Fin 1 => (80:ℝ)) (finC fun _ => (40e6:ℝ)) (finC fun _ => (35000:ℝ)) = .ok m' ∧
    m.vp 0 < m'.vp 0 ∧ m.bulk 0 < m'.bulk 0 := by
  obtain ⟨m, m', h, h', k⟩ := C178_brine_stiffness_trends (n := 1) (fun _ => 80) (fun _ => 20e6) (fun _ => 40e6)
    (fun _ => 35000) (fun _ => 35000) (fun _ => by norm_num) (fun _ => by norm_num) (fun _ => by norm_num)
    (fun _ _ => by norm_num)
  exact ⟨m, m', h, h', k 0 (.inl (by norm_num))⟩

end OPE
