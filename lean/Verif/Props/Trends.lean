import Verif.Props.Published

/-!
# C137: trends of the brine and gas densities

The model (`Model/BatzleWang.lean`, /repo/src/open_petro_elastic/material/batzle_wang/) is connected to the
published correlations by C93 and C95; here the direction in which their densities move is settled for every
pair of conditions in a stated range.
-/

namespace OPE
variable {n : ℕ}

/-- Bernstein form on the range 0 … 350 °C, 0 … 100 MPa, salinity 0 … 0.3: minus the temperature derivative of a million
times the brine density is positive. -/
theorem brineDensity_slope_T {T P S : ℝ} (hT : 0 ≤ T) (hT' : T ≤ 350) (hP : 0 ≤ P) (hP' : P ≤ 100)
    (hS : 0 ≤ S) (hS' : S ≤ 0.3) : 0 < (80) + (2) * P + (1 / 500) * P ^ 2 + (33 / 5) * T + (-4 / 125) * T * P + (-21 / 4000) * T ^ 2
      + (39 / 1000000) * T ^ 2 * P + (-80) * S + (13) * P * S + (-6) * T * S + (3300) * S ^ 2
      + (-47) * P * S ^ 2 := by
  obtain ⟨a, ha⟩ : ∃ y, y = 350 - T := ⟨_, rfl⟩
  obtain ⟨b, hb⟩ : ∃ y, y = 100 - P := ⟨_, rfl⟩
  obtain ⟨d, hd⟩ : ∃ y, y = 0.3 - S := ⟨_, rfl⟩
  have ha0 : 0 ≤ a := by linarith
  have hb0 : 0 ≤ b := by linarith
  have hd0 : 0 ≤ d := by linarith
  have h : 0 ≤ (79 / 110250000) * a ^ 2 * b ^ 2 * d ^ 2 + (67 / 55125000) * a ^ 2 * b ^ 2 * S ^ 1 * d ^ 1
      + (22 / 6890625) * a ^ 2 * b ^ 2 * S ^ 2 + (179 / 55125000) * a ^ 2 * P ^ 1 * b ^ 1 * d ^ 2
      + (529 / 55125000) * a ^ 2 * P ^ 1 * b ^ 1 * S ^ 1 * d ^ 1 + (871 / 110250000) * a ^ 2 * P ^ 1 * b ^ 1 * S ^ 2
      + (299 / 110250000) * a ^ 2 * P ^ 2 * d ^ 2 + (241 / 27562500) * a ^ 2 * P ^ 2 * S ^ 1 * d ^ 1
      + (11 / 2250000) * a ^ 2 * P ^ 2 * S ^ 2 + (617 / 27562500) * T ^ 1 * a ^ 1 * b ^ 2 * d ^ 2
      + (2129 / 55125000) * T ^ 1 * a ^ 1 * b ^ 2 * S ^ 1 * d ^ 1 + (149 / 6890625) * T ^ 1 * a ^ 1 * b ^ 2 * S ^ 2
      + (527 / 13781250) * T ^ 1 * a ^ 1 * P ^ 1 * b ^ 1 * d ^ 2
      + (491 / 6890625) * T ^ 1 * a ^ 1 * P ^ 1 * b ^ 1 * S ^ 1 * d ^ 1
      + (1991 / 55125000) * T ^ 1 * a ^ 1 * P ^ 1 * b ^ 1 * S ^ 2 + (149 / 9187500) * T ^ 1 * a ^ 1 * P ^ 2 * d ^ 2
      + (613 / 18375000) * T ^ 1 * a ^ 1 * P ^ 2 * S ^ 1 * d ^ 1 + (13 / 875000) * T ^ 1 * a ^ 1 * P ^ 2 * S ^ 2
      + (13967 / 882000000) * T ^ 2 * b ^ 2 * d ^ 2 + (11351 / 441000000) * T ^ 2 * b ^ 2 * S ^ 1 * d ^ 1
      + (11111 / 882000000) * T ^ 2 * b ^ 2 * S ^ 2 + (2033 / 73500000) * T ^ 2 * P ^ 1 * b ^ 1 * d ^ 2
      + (1727 / 36750000) * T ^ 2 * P ^ 1 * b ^ 1 * S ^ 1 * d ^ 1 + (307 / 14700000) * T ^ 2 * P ^ 1 * b ^ 1 * S ^ 2
      + (10589 / 882000000) * T ^ 2 * P ^ 2 * d ^ 2 + (9533 / 441000000) * T ^ 2 * P ^ 2 * S ^ 1 * d ^ 1
      + (1067 / 126000000) * T ^ 2 * P ^ 2 * S ^ 2 := by
    positivity
  refine lt_of_lt_of_eq (lt_of_lt_of_le one_pos (le_add_of_nonneg_left h)) ?_
  rw [ha, hb, hd]
  ring

/-- Bernstein form on the range 0 … 350 °C, 0 … 100 MPa, salinity 0 … 0.3: the pressure derivative of a million
times the brine density is positive. -/
theorem brineDensity_slope_P {T P S : ℝ} (hT : 0 ≤ T) (hT' : T ≤ 350) (hP : 0 ≤ P) (hP' : P ≤ 100)
    (hS : 0 ≤ S) (hS' : S ≤ 0.3) : 0 < (489) + (-333 / 500) * P + (-2) * T + (-1 / 250) * T * P + (2 / 125) * T ^ 2
      + (-13 / 1000000) * T ^ 3 + (300) * S + (-13) * T * S + (-2400) * S ^ 2 + (47) * T * S ^ 2 := by
  obtain ⟨a, ha⟩ : ∃ y, y = 350 - T := ⟨_, rfl⟩
  obtain ⟨b, hb⟩ : ∃ y, y = 100 - P := ⟨_, rfl⟩
  obtain ⟨d, hd⟩ : ∃ y, y = 0.3 - S := ⟨_, rfl⟩
  have ha0 : 0 ≤ a := by linarith
  have hb0 : 0 ≤ b := by linarith
  have hd0 : 0 ≤ d := by linarith
  have h : 0 ≤ (61 / 16882031250) * a ^ 4 * b ^ 1 * d ^ 2 + (533 / 67528125000) * a ^ 4 * b ^ 1 * S ^ 1 * d ^ 1
      + (181 / 67528125000) * a ^ 4 * b ^ 1 * S ^ 2 + (43 / 13781250000) * a ^ 4 * P ^ 1 * d ^ 2
      + (583 / 84410156250) * a ^ 4 * P ^ 1 * S ^ 1 * d ^ 1 + (211 / 96468750000) * a ^ 4 * P ^ 1 * S ^ 2
      + (313 / 33764062500) * T ^ 1 * a ^ 3 * b ^ 1 * d ^ 2
      + (1499 / 135056250000) * T ^ 1 * a ^ 3 * b ^ 1 * S ^ 1 * d ^ 1
      + (1727 / 270112500000) * T ^ 1 * a ^ 3 * b ^ 1 * S ^ 2 + (151 / 24117187500) * T ^ 1 * a ^ 3 * P ^ 1 * d ^ 2
      + (3431 / 675281250000) * T ^ 1 * a ^ 3 * P ^ 1 * S ^ 1 * d ^ 1
      + (653 / 192937500000) * T ^ 1 * a ^ 3 * P ^ 1 * S ^ 2 + (697 / 33764062500) * T ^ 2 * a ^ 2 * b ^ 1 * d ^ 2
      + (2021 / 135056250000) * T ^ 2 * a ^ 2 * b ^ 1 * S ^ 1 * d ^ 1
      + (4757 / 270112500000) * T ^ 2 * a ^ 2 * b ^ 1 * S ^ 2 + (703 / 48234375000) * T ^ 2 * a ^ 2 * P ^ 1 * d ^ 2
      + (1909 / 675281250000) * T ^ 2 * a ^ 2 * P ^ 1 * S ^ 1 * d ^ 1
      + (2227 / 192937500000) * T ^ 2 * a ^ 2 * P ^ 1 * S ^ 2
      + (25717 / 1080450000000) * T ^ 3 * a ^ 1 * b ^ 1 * d ^ 2
      + (10777 / 540225000000) * T ^ 3 * a ^ 1 * b ^ 1 * S ^ 1 * d ^ 1
      + (24457 / 1080450000000) * T ^ 3 * a ^ 1 * b ^ 1 * S ^ 2
      + (14447 / 771750000000) * T ^ 3 * a ^ 1 * P ^ 1 * d ^ 2
      + (26429 / 2701125000000) * T ^ 3 * a ^ 1 * P ^ 1 * S ^ 1 * d ^ 1
      + (13547 / 771750000000) * T ^ 3 * a ^ 1 * P ^ 1 * S ^ 2 + (127 / 14406000000) * T ^ 4 * b ^ 1 * d ^ 2
      + (59 / 7203000000) * T ^ 4 * b ^ 1 * S ^ 1 * d ^ 1 + (1049 / 120050000000) * T ^ 4 * b ^ 1 * S ^ 2
      + (5623 / 771750000000) * T ^ 4 * P ^ 1 * d ^ 2 + (13861 / 2701125000000) * T ^ 4 * P ^ 1 * S ^ 1 * d ^ 1
      + (5563 / 771750000000) * T ^ 4 * P ^ 1 * S ^ 2 := by
    positivity
  refine lt_of_lt_of_eq (lt_of_lt_of_le one_pos (le_add_of_nonneg_left h)) ?_
  rw [ha, hb, hd]
  ring

/-- Bernstein form on the range 0 … 350 °C, 0 … 100 MPa, salinity 0 … 0.3: the salinity derivative of a million
times the brine density is positive. -/
theorem brineDensity_slope_S {T P S : ℝ} (hT : 0 ≤ T) (hT' : T ≤ 350) (hP : 0 ≤ P) (hP' : P ≤ 100)
    (hS : 0 ≤ S) (hS' : S ≤ 0.3) : 0 < (668000) + (300) * P + (80) * T + (-13) * T * P + (3) * T ^ 2 + (880000) * S + (-4800) * P * S
      + (-6600) * T * S + (94) * T * P * S := by
  obtain ⟨a, ha⟩ : ∃ y, y = 350 - T := ⟨_, rfl⟩
  obtain ⟨b, hb⟩ : ∃ y, y = 100 - P := ⟨_, rfl⟩
  obtain ⟨d, hd⟩ : ∃ y, y = 0.3 - S := ⟨_, rfl⟩
  have ha0 : 0 ≤ a := by linarith
  have hb0 : 0 ≤ b := by linarith
  have hd0 : 0 ≤ d := by linarith
  have h : 0 ≤ (667999 / 3675000) * a ^ 2 * b ^ 1 * d ^ 1 + (931999 / 3675000) * a ^ 2 * b ^ 1 * S ^ 1
      + (697999 / 3675000) * a ^ 2 * P ^ 1 * d ^ 1 + (116857 / 525000) * a ^ 2 * P ^ 1 * S ^ 1
      + (227333 / 612500) * T ^ 1 * a ^ 1 * b ^ 1 * d ^ 1 + (199833 / 612500) * T ^ 1 * a ^ 1 * b ^ 1 * S ^ 1
      + (484499 / 1837500) * T ^ 1 * a ^ 1 * P ^ 1 * d ^ 1 + (107357 / 262500) * T ^ 1 * a ^ 1 * P ^ 1 * S ^ 1
      + (1063499 / 3675000) * T ^ 2 * b ^ 1 * d ^ 1 + (634499 / 3675000) * T ^ 2 * b ^ 1 * S ^ 1
      + (212833 / 1225000) * T ^ 2 * P ^ 1 * d ^ 1 + (50119 / 175000) * T ^ 2 * P ^ 1 * S ^ 1 := by
    positivity
  refine lt_of_lt_of_eq (lt_of_lt_of_le one_pos (le_add_of_nonneg_left h)) ?_
  rw [ha, hb, hd]
  ring

/-- Brine density strictly decreases with temperature: a cubic's divided difference is Simpson's mean of its
slopes. -/
theorem brineDensity_T {T T' P S : ℝ} (hT : 0 ≤ T) (hTT : T < T') (hT' : T' ≤ 350) (hP : 0 ≤ P) (hP' : P ≤ 100)
    (hS : 0 ≤ S) (hS' : S ≤ 0.3) : Published.brineDensity T' P S < Published.brineDensity T P S := by
  have h1 := brineDensity_slope_T hT (hTT.le.trans hT') hP hP' hS hS'
  have h2 := brineDensity_slope_T (T := (T + T') / 2) (by linarith) (by linarith) hP hP' hS hS'
  have h3 := brineDensity_slope_T (hT.trans hTT.le) hT' hP hP' hS hS'
  have k := mul_pos (mul_pos (sub_pos.mpr hTT) (by norm_num : (0:ℝ) < 1e-6 / 6))
    (add_pos (add_pos h1 (mul_pos (by norm_num : (0:ℝ) < 4) h2)) h3)
  refine sub_pos.mp (lt_of_lt_of_eq k ?_)
  unfold Published.brineDensity Published.waterDensity
  ring

/-- Brine density strictly increases with pressure: a quadratic's divided difference is its slope in the
middle. -/
theorem brineDensity_P {T P P' S : ℝ} (hT : 0 ≤ T) (hT' : T ≤ 350) (hP : 0 ≤ P) (hPP : P < P') (hP' : P' ≤ 100)
    (hS : 0 ≤ S) (hS' : S ≤ 0.3) : Published.brineDensity T P S < Published.brineDensity T P' S := by
  have h := brineDensity_slope_P (P := (P + P') / 2) hT hT' (by linarith) (by linarith) hS hS'
  have k := mul_pos (mul_pos (sub_pos.mpr hPP) (by norm_num : (0:ℝ) < 1e-6)) h
  refine sub_pos.mp (lt_of_lt_of_eq k ?_)
  unfold Published.brineDensity Published.waterDensity
  ring

/-- Brine density strictly increases with salinity. -/
theorem brineDensity_S {T P S S' : ℝ} (hT : 0 ≤ T) (hT' : T ≤ 350) (hP : 0 ≤ P) (hP' : P ≤ 100)
    (hS : 0 ≤ S) (hSS : S < S') (hS' : S' ≤ 0.3) :
    Published.brineDensity T P S < Published.brineDensity T P S' := by
  have h := brineDensity_slope_S (S := (S + S') / 2) hT hT' hP hP' (by linarith) (by linarith)
  have k := mul_pos (mul_pos (sub_pos.mpr hSS) (by norm_num : (0:ℝ) < 1e-6)) h
  refine sub_pos.mp (lt_of_lt_of_eq k ?_)
  unfold Published.brineDensity Published.waterDensity
  ring

/-- **C137.** In the range 0 … 350 °C, 0 … 100 MPa, 0 … 300 000 ppm, whenever `brine` returns for two
conditions: if the second is at least as hot, at no more pressure and no more saline, and differs in one of the
three, its density is strictly smaller. -/
theorem C137_brine_density_trends {T T' P P' S S' : ℝ} {m m' : Mat 1} (hT : 0 ≤ T) (hTT : T ≤ T') (hT' : T' ≤ 350)
    (hP' : 0 ≤ P') (hPP : P' ≤ P) (hP : P ≤ 100e6) (hS' : 0 ≤ S') (hSS : S' ≤ S) (hS : S ≤ 300000)
    (hlt : T < T' ∨ P' < P ∨ S' < S)
    (h : brine (c T) (c P) (c S) = .ok m) (h' : brine (c T') (c P') (c S') = .ok m') :
    m'.density 0 < m.density 0 := by
  rw [((C93_water_and_brine (n := 1) (fun _ => T) (fun _ => P) (fun _ => S) m).1
      (fun _ => hS'.trans hSS) h).1,
    ((C93_water_and_brine (n := 1) (fun _ => T') (fun _ => P') (fun _ => S') m').1 (fun _ => hS') h').1]
  simp only [finC_apply, Num.fin_lt]
  apply mul_lt_mul_of_pos_left _ (by norm_num)
  have k : (0:ℝ) < 1e-6 := by norm_num
  have p0 : 0 ≤ P' * 1e-6 := by positivity
  have s0 : 0 ≤ S' * 1e-6 := by positivity
  have pp : P' * 1e-6 ≤ P * 1e-6 := mul_le_mul_of_nonneg_right hPP k.le
  have ss : S' * 1e-6 ≤ S * 1e-6 := mul_le_mul_of_nonneg_right hSS k.le
  have p1 : P * 1e-6 ≤ 100 := by norm_num at hP ⊢; linarith
  have s1 : S * 1e-6 ≤ 0.3 := by norm_num at hS ⊢; linarith
  have aT : Published.brineDensity T' (P' * 1e-6) (S' * 1e-6) ≤ Published.brineDensity T (P' * 1e-6) (S' * 1e-6) := by
    rcases hTT.lt_or_eq with q | q
    · exact (brineDensity_T hT q hT' p0 (pp.trans p1) s0 (ss.trans s1)).le
    · rw [q]
  have aP : Published.brineDensity T (P' * 1e-6) (S' * 1e-6) ≤ Published.brineDensity T (P * 1e-6) (S' * 1e-6) := by
    rcases pp.lt_or_eq with q | q
    · exact (brineDensity_P hT (hTT.trans hT') p0 q p1 s0 (ss.trans s1)).le
    · rw [q]
  have aS : Published.brineDensity T (P * 1e-6) (S' * 1e-6) ≤ Published.brineDensity T (P * 1e-6) (S * 1e-6) := by
    rcases ss.lt_or_eq with q | q
    · exact (brineDensity_S hT (hTT.trans hT') (p0.trans pp) p1 s0 q s1).le
    · rw [q]
  rcases hlt with q | q | q
  · have := brineDensity_T hT q hT' p0 (pp.trans p1) s0 (ss.trans s1); linarith
  · have := brineDensity_P hT (hTT.trans hT') p0 (mul_lt_mul_of_pos_right q k) p1 s0 (ss.trans s1); linarith
  · have := brineDensity_S hT (hTT.trans hT') (p0.trans pp) p1 s0 (mul_lt_mul_of_pos_right q k) s1; linarith

/-- Cold, compressed, salty brine and hot, less compressed, fresher brine: both conditions return. -/
example : ∃ m m' : Mat 1, brine (c 15) (c 45e6) (c 150000) = .ok m ∧ brine (c 90) (c 10e6) (c 35000) = .ok m' ∧
    m'.density 0 < m.density 0 := by
  obtain ⟨w, b, _, _, _, _, -, h, -⟩ := C80_brine_defined (n := 1) (fun _ => 15) (fun _ => 45e6) (fun _ => 150000)
    (by norm_num) (by norm_num) (by norm_num)
  obtain ⟨w', b', _, _, _, _, -, h', -⟩ := C80_brine_defined (n := 1) (fun _ => 90) (fun _ => 10e6) (fun _ => 35000)
    (by norm_num) (by norm_num) (by norm_num)
  exact ⟨b, b', h, h', C137_brine_density_trends (by norm_num) (by norm_num) (by norm_num) (by norm_num)
    (by norm_num) (by norm_num) (by norm_num) (by norm_num) (by norm_num) (Or.inl (by norm_num)) h h'⟩

/-- `p / Z` strictly increases with pressure. -/
theorem gasZ_ratio {t p p' : ℝ} (ht : 0.815 ≤ t) (ht4 : t ≤ 4) (hp : 0 < p) (hpp : p < p') :
    p / Published.gasZ t p < p' / Published.gasZ t p' := by
  have ht0 : 0 < t := lt_of_lt_of_le (by norm_num) ht
  have hp' := hp.trans hpp
  rw [div_lt_div_iff₀ (gasZ_pos ht ht4 hp).1 (gasZ_pos ht ht4 hp').1]
  have hb : 0 < 0.642 * t - 0.007 * t ^ 4 - 0.52 := by
    norm_num at ht ⊢
    nlinarith [mul_nonneg (sub_nonneg.mpr ht) (sub_nonneg.mpr ht4), sq_nonneg t,
      mul_nonneg (mul_nonneg (sub_nonneg.mpr ht) (sub_nonneg.mpr ht4)) ht0.le,
      mul_nonneg (mul_nonneg (sub_nonneg.mpr ht) (sub_nonneg.mpr ht4)) (sq_nonneg t)]
  unfold Published.gasZ
  set k := (0.45 + 8 * (0.56 - 1 / t) ^ 2) with hk
  have hk0 : 0 < k := by positivity
  have hE : Real.exp (-k * p' ^ (1.2:ℝ) / t) ≤ Real.exp (-k * p ^ (1.2:ℝ) / t) := by
    apply Real.exp_le_exp.mpr
    apply div_le_div_of_nonneg_right _ ht0.le
    have := Real.rpow_le_rpow hp.le hpp.le (by norm_num : (0:ℝ) ≤ 1.2)
    nlinarith
  have h1 : p * Real.exp (-k * p' ^ (1.2:ℝ) / t) ≤ p' * Real.exp (-k * p ^ (1.2:ℝ) / t) :=
    mul_le_mul hpp.le hE (Real.exp_pos _).le hp'.le
  have hc : 0 ≤ 0.109 * (3.85 - t) ^ 2 := by positivity
  have h2 := mul_le_mul_of_nonneg_left h1 hc
  have h3 := mul_lt_mul_of_pos_right hpp hb
  linarith

/-- **C137.** For every temperature 0 … 300 °C and gas gravity 0.29 … 1.4, the density of `gas` strictly increases
with (positive) pressure. -/
theorem C137_gas_density_pressure {T P P' G : ℝ} (hT : 0 ≤ T) (hT' : T ≤ 300) (hP : 0 < P) (hPP : P < P')
    (hG : 0.29 ≤ G) (hG' : G ≤ 1.4) :
    ∃ m m' : Mat 1, gas (c T) (c P) (c G) = .ok m ∧ gas (c T) (c P') (c G) = .ok m' ∧
      m.density 0 < m'.density 0 := by
  obtain ⟨m, h, d, -⟩ := C95_gas (n := 1) (fun _ => T) (fun _ => P) (fun _ => G) (fun _ => ⟨hT, hT'⟩)
    (fun _ => hP) (fun _ => ⟨hG, hG'⟩)
  obtain ⟨m', h', d', -⟩ := C95_gas (n := 1) (fun _ => T) (fun _ => P') (fun _ => G) (fun _ => ⟨hT, hT'⟩)
    (fun _ => hP.trans hPP) (fun _ => ⟨hG, hG'⟩)
  refine ⟨m, m', h, h', ?_⟩
  rw [d, d']
  simp only [finC_apply, Num.fin_lt]
  have hG0 : 0 < G := by norm_num at hG; linarith
  have hd : 0 < 94.72 + 170.75 * G := by positivity
  have hc : 0 < 4.892 - 0.4048 * G := by norm_num at hG' ⊢; linarith
  have hT0 : 0 < T + 273.15 := by positivity
  have t1 : 0.815 ≤ Published.gasTpr (T + 273.15) G := by
    unfold Published.gasTpr; rw [le_div_iff₀ hd]; norm_num at hG hG' ⊢; linarith
  have t2 : Published.gasTpr (T + 273.15) G ≤ 4 := by
    unfold Published.gasTpr; rw [div_le_iff₀ hd]; norm_num at hG hG' ⊢; linarith
  have k : (0:ℝ) < 1e-6 := by norm_num
  have hr := gasZ_ratio t1 t2 (p := Published.gasPpr (P * 1e-6) G) (p' := Published.gasPpr (P' * 1e-6) G)
    (by unfold Published.gasPpr; positivity)
    (by unfold Published.gasPpr; exact div_lt_div_of_pos_right (mul_lt_mul_of_pos_right hPP k) hc)
  have e : ∀ x : ℝ, Published.gasDensity (T + 273.15) (x * 1e-6) G =
      (1e6 * (28.8e-3 * G) * (4.892 - 0.4048 * G) / (8.314462618 * (T + 273.15)))
        * (Published.gasPpr (x * 1e-6) G / Published.gasZ (Published.gasTpr (T + 273.15) G)
          (Published.gasPpr (x * 1e-6) G)) := by
    intro x
    unfold Published.gasDensity
    have : Published.gasPpr (x * 1e-6) G * (4.892 - 0.4048 * G) = x * 1e-6 := by
      unfold Published.gasPpr; field_simp
    rw [div_mul_div_comm]
    congr 1
    linear_combination (-(1e6 * (28.8e-3 * G))) * this
  rw [e, e]
  exact mul_lt_mul_of_pos_left hr (by positivity)

end OPE
