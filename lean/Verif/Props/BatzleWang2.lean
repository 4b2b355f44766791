import Verif.Props.BatzleWang

/-!
# Properties of the Batzle–Wang fluids, continued: existence of oils, gas, water, trends
-/

namespace OPE

open Classical

variable {n : ℕ}

/-! ### C78, C79: oils exist on their usual range -/

theorem velR_pos {T p r : ℝ} (hT0 : 0 ≤ T) (hp : 0 ≤ p) (hr : 0 < r) (hr1 : r ≤ 1)
    {s : ℝ} (hs2 : s ^ 2 * (2.6 - r) ≤ r) (hT : 3.7 * T < 2096 * s) : 0 < velR T p r := by
  have h26 : 0 < 2.6 - r := by norm_num at *; linarith
  have h1 : s ≤ Real.sqrt (r / (2.6 - r)) := by
    apply Real.le_sqrt_of_sq_le
    rw [le_div_iff₀ h26]; exact hs2
  have h2 : (0.25:ℝ) ≤ Real.sqrt (1.08 * r⁻¹ - 1) := by
    apply Real.le_sqrt_of_sq_le
    have : 1 ≤ r⁻¹ := (one_le_inv₀ hr).mpr hr1
    norm_num; linarith
  unfold velR
  have h3 : 0 ≤ 0.0115 * (4.12 * Real.sqrt (1.08 * r⁻¹ - 1) - 1) := by
    apply mul_nonneg (by norm_num); norm_num at h2 ⊢; linarith
  have h4 : 0 ≤ 0.0115 * (4.12 * Real.sqrt (1.08 * r⁻¹ - 1) - 1) * T * p :=
    mul_nonneg (mul_nonneg h3 hT0) hp
  have h5 : 0 ≤ 4.64 * p := by positivity
  have h6 : 2096 * s ≤ 2096 * Real.sqrt (r / (2.6 - r)) := by linarith
  linarith

/-- Dead oil density, g/cc and MPa. -/
noncomputable def deadR (T p r : ℝ) : ℝ :=
  (r + (0.00277 * p - 1.71e-7 * p ^ 3) * (r - 1.15) ^ 2 + 3.49e-4 * p)
    / (0.972 + 3.81e-4 * (T + 17.78) ^ (1.175:ℝ))

theorem deadDen_pos {T : ℝ} (hT : -17.78 ≤ T) : 0 < 0.972 + 3.81e-4 * (T + 17.78) ^ (1.175:ℝ) := by
  have := Real.rpow_nonneg (by linarith : 0 ≤ T + 17.78) 1.175; positivity

theorem deadOilDensity_fin {T : ℝ} (hT : -17.78 ≤ T) (p r : ℝ) :
    deadOilDensity (.fin T) (.fin p) (.fin r) = .fin (deadR T p r) := by
  have hT0 : 0 ≤ T + 17.78 := by linarith
  unfold deadOilDensity temperatureAdjustedDeadOilDensity pressureAdjustedDeadOilDensity deadR
  simp only [Num.fin_mul, Num.fin_add, Num.fin_sub, Num.fin_powi_three, Num.fin_powi_two,
    Num.fin_pow_nonneg hT0 (by norm_num : (0:ℝ) < 1.175), Num.fin_div _ (deadDen_pos hT).ne']

theorem deadNum_pos {p r : ℝ} (hr : 0 < r) (hp0 : 0 ≤ p) (hp : p ≤ 100) :
    0 < r + (0.00277 * p - 1.71e-7 * p ^ 3) * (r - 1.15) ^ 2 + 3.49e-4 * p := by
  have h1 : 0 ≤ 0.00277 * p - 1.71e-7 * p ^ 3 := by
    have : p ^ 2 ≤ 100 ^ 2 := pow_le_pow_left₀ hp0 hp 2
    have e : 0.00277 * p - 1.71e-7 * p ^ 3 = p * (0.00277 - 1.71e-7 * p ^ 2) := by ring
    rw [e]; apply mul_nonneg hp0; norm_num at this ⊢; linarith
  have := mul_nonneg h1 (sq_nonneg (r - 1.15))
  positivity

/-- **C78.** `dead_oil` never raises for 0..300 C, 0..100 MPa and reference densities 700..1000 kg/m3;
the result has positive finite density, velocity and bulk modulus. -/
theorem C78_dead_oil_defined (T P R : Fin n → ℝ) (hT : ∀ i, 0 ≤ T i ∧ T i ≤ 300)
    (hP : ∀ i, 0 ≤ P i ∧ P i ≤ 100e6) (hR : ∀ i, 700 ≤ R i ∧ R i ≤ 1000) :
    ∃ m ρ v K, deadOil (finC T) (finC P) (finC R) = .ok m ∧ m.density = finC ρ ∧ m.vp = finC v ∧
      m.bulk = finC K ∧ ∀ i, 0 < ρ i ∧ 0 < v i ∧ 0 < K i := by
  have hv : ∀ i, 0 < velR (T i) (P i * 1e-6) (R i / 1000) := by
    intro i
    refine velR_pos (hT i).1 (by have := (hP i).1; positivity) (by have := (hR i).1; linarith)
      (by have := (hR i).2; linarith) (s := 0.606) ?_ ?_
    · have := (hR i).1; norm_num; linarith
    · have := (hT i).2; norm_num; linarith
  have hd : ∀ i, 0 < deadR (T i) (P i * 1e-6) (R i / 1000) * 1000 := by
    intro i
    refine mul_pos (div_pos (deadNum_pos (by have := (hR i).1; linarith)
      (by have := (hP i).1; positivity) (by have := (hP i).2; norm_num at this ⊢; linarith))
      (deadDen_pos (by have := (hT i).1; norm_num at this ⊢; linarith))) (by norm_num)
  refine ⟨fluidOf _ _, _, _, _, ?_, rfl, rfl, rfl, fun i => ⟨hd i, hv i, by have := hd i; have := hv i; positivity⟩⟩
  rw [← fluidVelocity_fin hd (fun i => (hv i).le)]
  unfold deadOil
  congr 1
  · funext i
    simp only [finC_apply, Num.fin_mul, Num.fin_div _ (by norm_num : (1000:ℝ) ≠ 0)]
    rw [deadOilDensity_fin (by have := (hT i).1; norm_num at this ⊢; linarith), Num.fin_mul]
  · funext i
    simp only [finC_apply, Num.fin_mul, Num.fin_div _ (by norm_num : (1000:ℝ) ≠ 0)]
    rw [deadOilVelocity_fin (by have := (hR i).1; linarith) (by have := (hR i).2; norm_num at this ⊢; linarith)]

theorem rpow_bound {x : ℝ} (h0 : 0 ≤ x) (h : x ≤ 1316) : x ^ (1.175:ℝ) ≤ 4690 := by
  have h1 : x ^ (1.175:ℝ) ≤ (3.311 ^ 6) ^ (1.175:ℝ) :=
    Real.rpow_le_rpow h0 (by norm_num at h ⊢; linarith) (by norm_num)
  have h2 : ((3.311:ℝ) ^ 6) ^ (1.175:ℝ) ≤ (3.311 ^ 6) ^ (47/40:ℝ) :=
    Real.rpow_le_rpow_of_exponent_le (by norm_num) (by norm_num)
  have h3 : ((3.311:ℝ) ^ 6) ^ (47/40:ℝ) ≤ 4690 := by
    rw [← Real.rpow_natCast, ← Real.rpow_mul (by norm_num)]
    have e : (4690:ℝ) = (4690 ^ (20:ℕ)) ^ ((20:ℕ):ℝ)⁻¹ := (Real.pow_rpow_inv_natCast (by norm_num) (by norm_num)).symm
    have e2 : (3.311:ℝ) ^ (((6:ℕ):ℝ) * (47/40)) = (3.311 ^ (141:ℕ)) ^ ((20:ℕ):ℝ)⁻¹ := by
      rw [← Real.rpow_natCast, ← Real.rpow_mul (by norm_num)]
      norm_num
    rw [e2, e]
    apply Real.rpow_le_rpow (by positivity) (by norm_num) (by norm_num)
  linarith

/-- The bulk modulus of a mixed oil is density times squared velocity. -/
theorem oil_bulk {T P R g G : Num} {m : Mat 1} {ρ v : ℝ} (h : oil T P R g G = .ok m)
    (h1 : m.density 0 = .fin ρ) (h2 : m.vp 0 = .fin v) : m.bulk 0 = .fin (v ^ 2 * ρ) := by
  unfold oil at h
  obtain ⟨d, -, h⟩ := bind_eq_ok.mp h
  obtain ⟨l, -, h⟩ := bind_eq_ok.mp h
  obtain ⟨e1, e2, -, e4, -⟩ := fluidVelocity_ok h
  rw [e4, ← e1, ← e2]
  simp [calcBulk, h1, h2]

/-- **C79.** `oil` never raises for 0..150 C, 0..100 MPa, reference densities 700..1000 kg/m3, gas-oil
ratios 0..400 and gas gravities 0..1; the result has positive finite density, velocity and bulk modulus. -/
theorem C79_oil_defined (T P R g G : ℝ) (hT : 0 ≤ T ∧ T ≤ 150) (hP : 0 ≤ P ∧ P ≤ 100e6)
    (hR : 700 ≤ R ∧ R ≤ 1000) (hg : 0 ≤ g ∧ g ≤ 400) (hG : 0 ≤ G ∧ G ≤ 1) :
    ∃ l d m ρl vl ρd vd ρ v K,
      liveOil (fun _ : Fin 1 => .fin T) (fun _ => .fin P) (fun _ => .fin R) (fun _ => .fin g)
        (fun _ => .fin G) = .ok l ∧
      deadOil (fun _ : Fin 1 => .fin T) (fun _ => .fin P) (fun _ => .fin R) = .ok d ∧
      oil (.fin T) (.fin P) (.fin R) (.fin g) (.fin G) = .ok m ∧
      l.density 0 = .fin ρl ∧ l.vp 0 = .fin vl ∧ d.density 0 = .fin ρd ∧ d.vp 0 = .fin vd ∧
      m.density 0 = .fin ρ ∧ m.vp 0 = .fin v ∧
      0 < ρl ∧ 0 < vl ∧ 0 < ρd ∧ 0 < vd ∧ 0 < ρ ∧ 0 < v ∧
      m.bulk 0 = .fin K ∧ 0 < K := by
  have hr : 0 < R / 1000 := by linarith
  have hT' : (-17.8:ℝ) ≤ T := by norm_num; linarith
  obtain ⟨f1, f2, f3⟩ := liveOil_formulas (T := T) (P := P) (by linarith : 0 < R) (by linarith)
    hg.1 hG.1 hT'
  obtain ⟨-, hv972⟩ := liveOilVolumeFactor_fin (T := T) hr hg.1 hG.1 hT'
  have hsq : Real.sqrt (G / (R / 1000)) ≤ 1.1953 := by
    apply Real.sqrt_le_iff.mpr ⟨by norm_num, ?_⟩
    rw [div_le_iff₀ hr]; norm_num; linarith
  have hbase : 2.4 * g * Real.sqrt (G / (R / 1000)) + T + 17.8 ≤ 1316 := by
    have h1 : 2.4 * g * Real.sqrt (G / (R / 1000)) ≤ 2.4 * 400 * 1.1953 := by
      apply mul_le_mul (by linarith) hsq (Real.sqrt_nonneg _) (by norm_num)
    norm_num at h1 ⊢; linarith
  have hb0 : volR T (R / 1000) g G ≤ 2.755 := by
    have := rpow_bound (by have := Real.sqrt_nonneg (G / (R / 1000)); have := hg.1; have := hT.1; positivity) hbase
    unfold volR; norm_num at this ⊢; linarith
  have hv0 : 0 < volR T (R / 1000) g G := lt_of_lt_of_le (by norm_num) hv972
  have h1g : 1 ≤ 1 + 0.001 * g := by have := hg.1; norm_num; linarith
  have h1g' : 1 + 0.001 * g ≤ 1.4 := by have := hg.2; norm_num; linarith
  have hden : 0 < volR T (R / 1000) g G * (1 + 0.001 * g) := by positivity
  have hps0 : 0.181 ≤ R / 1000 / volR T (R / 1000) g G / (1 + 0.001 * g) := by
    rw [div_div, le_div_iff₀ hden]
    have : volR T (R / 1000) g G * (1 + 0.001 * g) ≤ 2.755 * 1.4 :=
      mul_le_mul hb0 h1g' (by linarith) (by norm_num)
    norm_num at this ⊢; linarith
  have hvl : 0 < velR T (P * 1e-6) (R / 1000 / volR T (R / 1000) g G / (1 + 0.001 * g)) := by
    by_cases hle : R / 1000 / volR T (R / 1000) g G / (1 + 0.001 * g) ≤ 1
    · refine velR_pos hT.1 (by have := hP.1; positivity) (by norm_num at hps0 ⊢; linarith) hle (s := 0.273)
        ?_ ?_
      · norm_num at hps0 ⊢; linarith
      · have := hT.2; norm_num; linarith
    · -- pseudo density above 1 g/cc: only for very cold heavy oil; the velocity is dominated by the first term
      push Not at hle
      set r := R / 1000 / volR T (R / 1000) g G / (1 + 0.001 * g) with hrdef
      have hr108 : r ≤ 1.0289 := by
        rw [hrdef, div_div, div_le_iff₀ hden]
        have : 0.972 * 1 ≤ volR T (R / 1000) g G * (1 + 0.001 * g) :=
          mul_le_mul hv972 h1g (by norm_num) hv0.le
        norm_num at this ⊢; linarith
      have h26 : 0 < 2.6 - r := by norm_num at hr108 ⊢; linarith
      have hs1 : (0.79:ℝ) ≤ Real.sqrt (r / (2.6 - r)) := by
        apply Real.le_sqrt_of_sq_le
        rw [le_div_iff₀ h26]; norm_num; linarith
      have hs2 := Real.sqrt_nonneg (1.08 * r⁻¹ - 1)
      have hp : 0 ≤ P * 1e-6 ∧ P * 1e-6 ≤ 100 := by
        constructor
        · have := hP.1; positivity
        · have := hP.2; norm_num at this ⊢; linarith
      have hTp : T * (P * 1e-6) ≤ 150 * (P * 1e-6) := mul_le_mul_of_nonneg_right hT.2 hp.1
      have hTp0 : 0 ≤ T * (P * 1e-6) := mul_nonneg hT.1 hp.1
      have hkey : -0.0115 * (T * (P * 1e-6)) ≤
          0.0115 * (4.12 * Real.sqrt (1.08 * r⁻¹ - 1) - 1) * T * (P * 1e-6) := by
        have : 0 ≤ 0.0115 * 4.12 * Real.sqrt (1.08 * r⁻¹ - 1) * (T * (P * 1e-6)) := by positivity
        have e : 0.0115 * (4.12 * Real.sqrt (1.08 * r⁻¹ - 1) - 1) * T * (P * 1e-6)
          = 0.0115 * 4.12 * Real.sqrt (1.08 * r⁻¹ - 1) * (T * (P * 1e-6)) - 0.0115 * (T * (P * 1e-6)) := by
          ring
        rw [e]; linarith
      have hp1 := hp.1
      have hT2 := hT.2
      unfold velR
      norm_num at hs1 hkey hTp hp1 ⊢
      linarith
  obtain ⟨d, ρd, vd, Kd, hd, hd1, hd2, -, hd3⟩ := C78_dead_oil_defined (n := 1) (fun _ => T) (fun _ => P)
    (fun _ => R) (fun _ => ⟨hT.1, by linarith⟩) (fun _ => hP) (fun _ => hR)
  have hl : liveOil (fun _ : Fin 1 => .fin T) (fun _ => .fin P) (fun _ => .fin R) (fun _ => .fin g)
      (fun _ => .fin G) = .ok (fluidOf (fun _ => (R / 1000 + 0.0012 * G * g) / volR T (R / 1000) g G * 1000)
        (fun _ => velR T (P * 1e-6) (R / 1000 / volR T (R / 1000) g G / (1 + 0.001 * g)))) := by
    rw [← fluidVelocity_fin (fun _ => f3) (fun _ => hvl.le)]
    unfold liveOil
    congr 1
    · funext i; exact f1
    · funext i; exact f2
  obtain ⟨m, w, hm, -, w0, w1, h1, h2⟩ := C59_blend (.fin T) (.fin P) (.fin R) (.fin G) g _ d _ _ (ρd 0) (vd 0) hl hd
    rfl rfl f3 (by rw [hd1]; rfl) (by rw [hd2]; rfl) (hd3 0).1
  have p1 : 0 < w * ρd 0 + (1 - w) * ((R / 1000 + 0.0012 * G * g) / volR T (R / 1000) g G * 1000) := by
    have a := (hd3 0).1
    rcases w0.eq_or_lt with h | h
    · rw [← h]; linarith
    · have := mul_pos h a
      have : 0 ≤ (1 - w) * ((R / 1000 + 0.0012 * G * g) / volR T (R / 1000) g G * 1000) :=
        mul_nonneg (by linarith) f3.le
      linarith
  have p2 : 0 < w * vd 0 + (1 - w) * velR T (P * 1e-6) (R / 1000 / volR T (R / 1000) g G / (1 + 0.001 * g)) := by
    have a := (hd3 0).2.1
    rcases w0.eq_or_lt with h | h
    · rw [← h]; linarith
    · have := mul_pos h a
      have := mul_nonneg (by linarith : 0 ≤ 1 - w) hvl.le
      linarith
  refine ⟨_, d, m, _, _, ρd 0, vd 0, _, _, _, hl, hd, hm, rfl, rfl, by rw [hd1]; rfl, by rw [hd2]; rfl, h1, h2,
    f3, hvl, (hd3 0).1, (hd3 0).2.1, p1, p2, oil_bulk hm h1 h2, by positivity⟩

/-- Non-vacuity of C59: live and dead oil exist for a common oil. -/
example : ∃ m, oil (.fin 80) (.fin 50e6) (.fin 850) (.fin 0) (.fin 0.7) = .ok m := by
  obtain ⟨l, d, m, _, _, _, _, _, _, _, -, -, hm, -⟩ := C79_oil_defined 80 50e6 850 0 0.7 (by norm_num) (by norm_num)
    (by norm_num) (by norm_num) (by norm_num)
  exact ⟨m, hm⟩

/-! ### C60 -/

/-- Compressibility at pseudo-reduced temperature `t` and pressure `p`. -/
noncomputable def zR (t p : ℝ) : ℝ :=
  (0.03 + 0.00527 * (3.5 - t) ^ 3) * p + 0.642 * t - 0.007 * t ^ 4 - 0.52
    + 0.109 * (3.85 - t) ^ 2 / Real.exp ((0.45 + 8 * (0.56 - 1 / t) ^ 2) * p ^ (1.2:ℝ) / t)

theorem compressability_fin {T p G : ℝ} (hT : 0 < T) (hG : 0 ≤ G) (hG1 : 4.892 - 0.4048 * G ≠ 0)
    (hp : 0 ≤ p / (4.892 - 0.4048 * G)) :
    compressabilityFactor (.fin T) (.fin p) (.fin G)
      = .fin (zR (T / (94.72 + 170.75 * G)) (p / (4.892 - 0.4048 * G))) := by
  have h1 : 94.72 + 170.75 * G ≠ 0 := by positivity
  have h2 : T / (94.72 + 170.75 * G) ≠ 0 := by positivity
  unfold compressabilityFactor pseudoreducedTemperature pseudoreducedPressure zR
  simp only [Num.fin_mul, Num.fin_add, Num.fin_sub, Num.fin_div _ h1, Num.fin_div _ hG1,
    Num.fin_powi_three, Num.fin_powi_two, Num.fin_powi_four, Num.fin_div _ h2,
    Num.fin_pow_nonneg hp (by norm_num : (0:ℝ) < 1.2), Num.fin_exp, Num.fin_div _ (Real.exp_pos _).ne']

/-- **C60.** At fixed absolute temperature `T > 0` and gravity `G >= 0` (with a nonzero pseudo-critical
pressure `4.892 - 0.4048 G`) the compressibility factor is a finite function `z` of the pseudo-reduced
pressure `p > 0` and the rate function is its derivative. -/
theorem C60_rate_is_derivative (T G : ℝ) (hT : 0 < T) (hG : 0 ≤ G) (hG1 : 4.892 - 0.4048 * G ≠ 0) :
    ∃ z : ℝ → ℝ,
      (∀ p > 0, compressabilityFactor (.fin T) (.fin (p * (4.892 - 0.4048 * G))) (.fin G) = .fin (z p)) ∧
      ∀ p > 0, ∃ r, compressabilityRate (.fin T) (.fin (p * (4.892 - 0.4048 * G))) (.fin G) = .fin r ∧
        HasDerivAt z r p := by
  have h1 : 94.72 + 170.75 * G ≠ 0 := by positivity
  have ht : 0 < T / (94.72 + 170.75 * G) := by positivity
  set t := T / (94.72 + 170.75 * G) with htdef
  refine ⟨fun p => zR t p, ?_, ?_⟩
  · intro p hp
    have e : p * (4.892 - 0.4048 * G) / (4.892 - 0.4048 * G) = p := mul_div_cancel_right₀ _ hG1
    rw [compressability_fin hT hG hG1 (by rw [e]; exact hp.le), e]
  · intro p hp
    have e : p * (4.892 - 0.4048 * G) / (4.892 - 0.4048 * G) = p := mul_div_cancel_right₀ _ hG1
    refine ⟨0.03 + 0.00527 * (3.5 - t) ^ 3 - (0.1308 * (0.45 + 8 * (0.56 - t⁻¹) ^ 2) * (3.85 - t) ^ 2
      * p ^ (0.2:ℝ)) / (Real.exp ((0.45 + 8 * (0.56 - t⁻¹) ^ 2) * p ^ (1.2:ℝ) / t) * t), ?_, ?_⟩
    · unfold compressabilityRate pseudoreducedTemperature pseudoreducedPressure
      have hne : Real.exp ((0.45 + 8 * (0.56 - t⁻¹) ^ 2) * p ^ (1.2:ℝ) / t) * t ≠ 0 :=
        mul_ne_zero (Real.exp_pos _).ne' ht.ne'
      simp only [Num.fin_mul, Num.fin_add, Num.fin_sub, Num.fin_div _ h1, Num.fin_div _ hG1, e,
        ← htdef, Num.fin_powi_three, Num.fin_powi_two, Num.fin_powi_neg_one ht.ne',
        Num.fin_pow_nonneg hp.le (by norm_num : (0:ℝ) < 1.2),
        Num.fin_pow_nonneg hp.le (by norm_num : (0:ℝ) < 0.2), Num.fin_div _ ht.ne', Num.fin_exp,
        Num.fin_div _ hne]
    · set a := 0.45 + 8 * (0.56 - t⁻¹) ^ 2 with ha
      have hpow : HasDerivAt (fun x : ℝ => x ^ (1.2:ℝ)) (1.2 * p ^ (0.2:ℝ)) p := by
        have := Real.hasDerivAt_rpow_const (x := p) (p := 1.2) (Or.inl hp.ne')
        norm_num at this ⊢; exact this
      have hexp : HasDerivAt (fun x : ℝ => Real.exp (-(a * x ^ (1.2:ℝ) / t)))
          (Real.exp (-(a * p ^ (1.2:ℝ) / t)) * -(a * (1.2 * p ^ (0.2:ℝ)) / t)) p :=
        (((hpow.const_mul a).div_const t).neg).exp
      have hlin : HasDerivAt (fun x : ℝ => (0.03 + 0.00527 * (3.5 - t) ^ 3) * x + 0.642 * t
          - 0.007 * t ^ 4 - 0.52) (0.03 + 0.00527 * (3.5 - t) ^ 3) p := by
        simpa using ((((hasDerivAt_id p).const_mul (0.03 + 0.00527 * (3.5 - t) ^ 3)).add_const
          (0.642 * t)).sub_const (0.007 * t ^ 4)).sub_const 0.52
      have htot := hlin.add (hexp.const_mul (0.109 * (3.85 - t) ^ 2))
      have hfun : (fun p => zR t p) = (fun x : ℝ => (0.03 + 0.00527 * (3.5 - t) ^ 3) * x + 0.642 * t
          - 0.007 * t ^ 4 - 0.52) + fun x => 0.109 * (3.85 - t) ^ 2 * Real.exp (-(a * x ^ (1.2:ℝ) / t)) := by
        funext x
        simp only [zR, Pi.add_apply, ha, one_mul, Real.exp_neg, div_eq_mul_inv]
      rw [hfun]
      refine htot.congr_deriv ?_
      rw [Real.exp_neg]
      have := (Real.exp_pos (a * p ^ (1.2:ℝ) / t)).ne'
      have := ht.ne'
      field_simp
      ring

example : (0:ℝ) < 350 ∧ (0:ℝ) ≤ 0.7 ∧ (4.892 - 0.4048 * 0.7 : ℝ) ≠ 0 := by norm_num

end OPE
