import Verif.Spec.Published
import Verif.Props.BatzleWang4
import Verif.Props.Material

/-!
# The Batzle–Wang fluids are the published correlations (C93 – C95)
-/

namespace OPE

open Classical

variable {n : ℕ}

/-! ### C93 water and brine -/

theorem waterDensity_published (T P : ℝ) :
    waterDensity (.fin T) (.fin P) = .fin (Published.waterDensity T P) := by
  rw [waterDensity_fin, Num.fin_inj]; unfold Published.waterDensity; ring

theorem waterVelocity_published (T P : ℝ) :
    waterVelocity (.fin T) (.fin P) = .fin (Published.waterVelocity T P) := by
  rw [waterVelocity_fin, Num.fin_inj]; unfold Published.waterVelocity; ring

theorem brineDensity_published (T P S : ℝ) :
    brineDensity (.fin T) (.fin P) (.fin S) = .fin (Published.brineDensity T P S) := by
  rw [brineDensity_fin, Num.fin_inj]; unfold Published.brineDensity Published.waterDensity; ring

theorem brineVelocity_published {S : ℝ} (hS : 0 ≤ S) (T P : ℝ) :
    brineVelocity (.fin T) (.fin P) (.fin S) = .fin (Published.brineVelocity T P S) := by
  rw [brineVelocity_fin hS, Num.fin_inj]; unfold Published.brineVelocity Published.waterVelocity
  have : S ^ (1.5:ℝ) = S * Real.sqrt S := by
    rw [show (1.5:ℝ) = 1 + 1/2 by norm_num, Real.rpow_add' hS (by norm_num), Real.rpow_one,
      Real.sqrt_eq_rpow]
  rw [this]; ring

/-- **C93.** `brine(T [°C], P [Pa], S [ppm])` has the published density (in kg/m³) and velocity at
`P·10⁻⁶` MPa and weight fraction `S·10⁻⁶`, and bulk modulus `ρ·Vp²`; `water(T [°C], P [MPa])` has
the published density in g/cm³ and the published velocity. -/
theorem C93_water_and_brine (T P S : Fin n → ℝ) (m : Mat n) :
    ((∀ i, 0 ≤ S i) → brine (finC T) (finC P) (finC S) = .ok m →
      m.density = finC (fun i => 1000 * Published.brineDensity (T i) (P i * 1e-6) (S i * 1e-6)) ∧
      m.vp = finC (fun i => Published.brineVelocity (T i) (P i * 1e-6) (S i * 1e-6)) ∧
      m.bulk = finC (fun i => 1000 * Published.brineDensity (T i) (P i * 1e-6) (S i * 1e-6) *
        Published.brineVelocity (T i) (P i * 1e-6) (S i * 1e-6) ^ 2)) ∧
    (water (finC T) (finC P) = .ok m →
      m.density = finC (fun i => Published.waterDensity (T i) (P i)) ∧
      m.vp = finC (fun i => Published.waterVelocity (T i) (P i)) ∧
      m.bulk = finC (fun i => Published.waterDensity (T i) (P i) *
        Published.waterVelocity (T i) (P i) ^ 2)) := by
  constructor
  · intro hS h
    unfold brine at h
    obtain ⟨h1, h2, -, h4, -⟩ := fluidVelocity_ok h
    have e1 : m.density = finC (fun i => 1000 * Published.brineDensity (T i) (P i * 1e-6) (S i * 1e-6)) := by
      rw [h1]; funext i
      simp only [finC_apply, Num.fin_mul, brineDensity_published, Num.fin_inj]; ring
    have e2 : m.vp = finC (fun i => Published.brineVelocity (T i) (P i * 1e-6) (S i * 1e-6)) := by
      rw [h2]; funext i
      simp only [finC_apply, Num.fin_mul,
        brineVelocity_published (mul_nonneg (hS i) (by norm_num : (0:ℝ) ≤ 1e-6))]
    refine ⟨e1, e2, ?_⟩
    rw [h4, ← h1, ← h2, e1, e2]; funext i
    simp only [calcBulk, finC_apply, c_apply, Num.fin_powi_two, Num.fin_mul, Num.fin_sub, Num.fin_inj]
    ring
  · intro h
    unfold water at h
    obtain ⟨h1, h2, -, h4, -⟩ := fluidVelocity_ok h
    have e1 : m.density = finC (fun i => Published.waterDensity (T i) (P i)) := by
      rw [h1]; funext i; simp only [finC_apply, waterDensity_published]
    have e2 : m.vp = finC (fun i => Published.waterVelocity (T i) (P i)) := by
      rw [h2]; funext i; simp only [finC_apply, waterVelocity_published]
    refine ⟨e1, e2, ?_⟩
    rw [h4, ← h1, ← h2, e1, e2]; funext i
    simp only [calcBulk, finC_apply, c_apply, Num.fin_powi_two, Num.fin_mul, Num.fin_sub, Num.fin_inj]
    ring

/-- The hypotheses are met: 80 °C, 50 MPa, 50 000 ppm. -/
example : ∃ m : Mat 1, brine (c 80) (c 50e6) (c 50000) = .ok m := by
  obtain ⟨w, b, _, _, _, _, -, h, -⟩ := C80_brine_defined (n := 1) (fun _ => 80) (fun _ => 50e6)
    (fun _ => 50000) (by intro; norm_num) (by intro; norm_num) (by intro; norm_num)
  exact ⟨b, h⟩

/-! ### C94 oil -/

theorem velR_published (T p r : ℝ) : velR T p r = Published.oilVelocity T p r := by
  unfold velR Published.oilVelocity
  rw [Real.sqrt_eq_rpow, Real.sqrt_eq_rpow, div_eq_mul_inv 1.08]

theorem volR_published (T r g G : ℝ) : volR T r g G = Published.volumeFactor T r g G := by
  unfold volR Published.volumeFactor
  rw [Real.sqrt_eq_rpow]

theorem deadOil_published {T P R : Fin n → ℝ} {m : Mat n} (hT : ∀ i, -17.78 ≤ T i)
    (hR : ∀ i, 0 < R i ∧ R i ≤ 1049) (h : deadOil (finC T) (finC P) (finC R) = .ok m) :
    m.density = finC (fun i => 1000 * Published.deadOilDensity (T i) (P i * 1e-6) (R i / 1000)) ∧
    m.vp = finC (fun i => Published.oilVelocity (T i) (P i * 1e-6) (R i / 1000)) := by
  unfold deadOil at h
  obtain ⟨h1, h2, -⟩ := fluidVelocity_ok h
  constructor
  · rw [h1]; funext i
    simp only [finC_apply, Num.fin_mul, Num.fin_div _ (by norm_num : (1000:ℝ) ≠ 0),
      deadOilDensity_fin (hT i), Num.fin_inj]
    unfold deadR Published.deadOilDensity; ring
  · rw [h2]; funext i
    simp only [finC_apply, Num.fin_mul, Num.fin_div _ (by norm_num : (1000:ℝ) ≠ 0)]
    rw [deadOilVelocity_fin (by have := (hR i).1; positivity)
      (by have := (hR i).2; norm_num; linarith), velR_published]

theorem liveOil_published {T P R g G : Fin n → ℝ} {m : Mat n} (hT : ∀ i, -17.78 ≤ T i)
    (hR : ∀ i, 0 < R i ∧ R i ≤ 1049) (hg : ∀ i, 0 ≤ g i) (hG : ∀ i, 0 ≤ G i)
    (h : liveOil (finC T) (finC P) (finC R) (finC g) (finC G) = .ok m) :
    m.density = finC (fun i => 1000 * Published.liveOilDensity (T i) (R i / 1000) (g i) (G i)) ∧
    m.vp = finC (fun i => Published.oilVelocity (T i) (P i * 1e-6)
      (Published.pseudoDensity (T i) (R i / 1000) (g i) (G i))) := by
  unfold liveOil at h
  obtain ⟨h1, h2, -⟩ := fluidVelocity_ok h
  have hT' : ∀ i, (-17.8:ℝ) ≤ T i := fun i => by have := hT i; norm_num at this ⊢; linarith
  constructor
  · rw [h1]; funext i
    simp only [finC_apply]
    rw [(liveOil_formulas (P := P i) (hR i).1 (hR i).2 (hg i) (hG i) (hT' i)).1, Num.fin_inj, volR_published]
    unfold Published.liveOilDensity; ring
  · rw [h2]; funext i
    simp only [finC_apply]
    rw [(liveOil_formulas (hR i).1 (hR i).2 (hg i) (hG i) (hT' i)).2.1, Num.fin_inj, volR_published,
      velR_published]
    unfold Published.pseudoDensity; rw [div_eq_mul_inv _ (1 + 0.001 * g i)]

/-- **C94.** `dead_oil` and `live_oil` (°C, Pa, kg/m³, litre/litre) have the published density and
velocity; `oil` mixes the two linearly with the weight of the transition window; `oil_bubble_point` is
Standing's correlation. -/
theorem C94_oil (T P R g G : Fin n → ℝ) (hT : ∀ i, -17.78 ≤ T i) (hR : ∀ i, 0 < R i ∧ R i ≤ 1049)
    (hg : ∀ i, 0 ≤ g i) (hG : ∀ i, 0 ≤ G i) (m : Mat n) :
    (deadOil (finC T) (finC P) (finC R) = .ok m →
      m.density = finC (fun i => 1000 * Published.deadOilDensity (T i) (P i * 1e-6) (R i / 1000)) ∧
      m.vp = finC (fun i => Published.oilVelocity (T i) (P i * 1e-6) (R i / 1000))) ∧
    (liveOil (finC T) (finC P) (finC R) (finC g) (finC G) = .ok m →
      m.density = finC (fun i => 1000 * Published.liveOilDensity (T i) (R i / 1000) (g i) (G i)) ∧
      m.vp = finC (fun i => Published.oilVelocity (T i) (P i * 1e-6)
        (Published.pseudoDensity (T i) (R i / 1000) (g i) (G i)))) ∧
    (∀ i, ∀ o : Mat 1, oil (.fin (T i)) (.fin (P i)) (.fin (R i)) (.fin (g i)) (.fin (G i)) = .ok o →
      o.density 0 = .fin (1000 * (
        Published.deadWeight (g i) * Published.deadOilDensity (T i) (P i * 1e-6) (R i / 1000)
        + (1 - Published.deadWeight (g i)) * Published.liveOilDensity (T i) (R i / 1000) (g i) (G i))) ∧
      o.vp 0 = .fin (
        Published.deadWeight (g i) * Published.oilVelocity (T i) (P i * 1e-6) (R i / 1000)
        + (1 - Published.deadWeight (g i)) * Published.oilVelocity (T i) (P i * 1e-6)
          (Published.pseudoDensity (T i) (R i / 1000) (g i) (G i)))) ∧
    (∀ i, 0 < G i → oilBubblePoint (.fin (R i)) (.fin (g i)) (.fin (G i)) (.fin (T i))
      = .fin (Published.bubblePoint (T i) (R i) (g i) (G i))) := by
  refine ⟨deadOil_published hT hR, liveOil_published hT hR hg hG, fun i o h => ?_, fun i h => ?_⟩
  · have h' := h
    unfold oil at h'
    obtain ⟨l, hl, h'⟩ := bind_eq_ok.mp h'
    obtain ⟨d, hd, h'⟩ := bind_eq_ok.mp h'
    obtain ⟨l1, l2⟩ := liveOil_published (n := 1) (T := fun _ => T i) (P := fun _ => P i)
      (R := fun _ => R i) (g := fun _ => g i) (G := fun _ => G i) (fun _ => hT i) (fun _ => hR i)
      (fun _ => hg i) (fun _ => hG i) hl
    obtain ⟨d1, d2⟩ := deadOil_published (n := 1) (T := fun _ => T i) (P := fun _ => P i)
      (R := fun _ => R i) (fun _ => hT i) (fun _ => hR i) hd
    obtain ⟨o1, o2, -⟩ := fluidVelocity_ok h'
    rw [o1, o2, l1, l2, d1, d2]
    simp only [Pi.add_apply, Pi.mul_apply, Pi.sub_apply, finC_apply, c_apply, triangularWindow_fin,
      Num.fin_add, Num.fin_mul, Num.fin_sub, Num.fin_inj]
    unfold Published.deadWeight
    constructor <;> ring
  · rw [oilBubblePoint_fin (hR i).1 (hg i) h, Num.fin_inj]
    unfold Published.bubblePoint
    rw [div_eq_mul_inv, ← Real.exp_neg]; congr 2; ring

/-- The hypotheses are met: 80 °C, 50 MPa, 850 kg/m³, ratio 0.5, gravity 0.7. -/
example : ∃ m : Mat 1, oil (.fin 80) (.fin 50e6) (.fin 850) (.fin 0.5) (.fin 0.7) = .ok m := by
  obtain ⟨l, d, m, _, _, _, _, _, _, _, -, -, hm, -⟩ := C79_oil_defined 80 50e6 850 0.5 0.7 (by norm_num)
    (by norm_num) (by norm_num) (by norm_num) (by norm_num)
  exact ⟨m, hm⟩

/-! ### C95 gas -/

theorem zR_published (t p : ℝ) : zR t p = Published.gasZ t p := by
  unfold zR Published.gasZ
  rw [neg_mul, neg_div, Real.exp_neg]
  ring

theorem compressability_published {T P G : ℝ} (hT : 0 < T) (hP : 0 ≤ P) (hG : 0 ≤ G) (hG1 : G ≤ 12) :
    compressabilityFactor (.fin T) (.fin P) (.fin G)
      = .fin (Published.gasZ (Published.gasTpr T G) (Published.gasPpr P G)) := by
  have h : 0 < 4.892 - 0.4048 * G := by norm_num; linarith
  rw [compressability_fin hT hG h.ne' (by positivity), zR_published]; rfl

theorem rate_published {T P G : ℝ} (hT : 0 < T) (hP : 0 < P) (hG : 0 ≤ G) (hG1 : G ≤ 12) :
    compressabilityRate (.fin T) (.fin P) (.fin G)
      = .fin (deriv (Published.gasZ (Published.gasTpr T G)) (Published.gasPpr P G)) := by
  have h : 0 < 4.892 - 0.4048 * G := by norm_num; linarith
  obtain ⟨z, hz, hr⟩ := C60_rate_is_derivative T G hT hG h.ne'
  have hp : 0 < Published.gasPpr P G := by unfold Published.gasPpr; positivity
  have e : Published.gasPpr P G * (4.892 - 0.4048 * G) = P := by
    unfold Published.gasPpr; field_simp
  obtain ⟨r, h1, h2⟩ := hr _ hp
  rw [e] at h1
  rw [h1, Num.fin_inj]
  refine (HasDerivAt.deriv ?_).symm
  refine h2.congr_of_eventuallyEq ?_
  filter_upwards [lt_mem_nhds hp] with x hx
  have := hz x hx
  rw [compressability_published hT (by positivity) hG hG1, Num.fin_inj] at this
  rw [← this]; congr 1
  unfold Published.gasPpr; field_simp

theorem gasBulkModulus_published {T P G : ℝ} (hT : 0 < T) (hP : 0 < P) (hG : 0 ≤ G) (hG1 : G ≤ 12)
    (hz : Published.gasZ (Published.gasTpr T G) (Published.gasPpr P G) ≠ 0)
    (hd : 1 - Published.gasPpr P G / Published.gasZ (Published.gasTpr T G) (Published.gasPpr P G)
      * deriv (Published.gasZ (Published.gasTpr T G)) (Published.gasPpr P G) ≠ 0) :
    gasBulkModulus (.fin T) (.fin P) (.fin G) * .fin 1e6 = .fin (Published.gasBulk T P G) := by
  have h : 0 < 4.892 - 0.4048 * G := by norm_num; linarith
  have hp : 0 < Published.gasPpr P G := by unfold Published.gasPpr; positivity
  have e : pseudoreducedPressure (.fin P) (.fin G) = .fin (Published.gasPpr P G) := by
    simp only [pseudoreducedPressure, Num.fin_mul, Num.fin_sub, Num.fin_div _ h.ne', Published.gasPpr]
  unfold gasBulkModulus
  dsimp only
  rw [compressability_published hT hP.le hG hG1, rate_published hT hP hG hG1, e]
  unfold Published.gasBulk Published.gasGamma
  generalize Published.gasPpr P G = p at *
  generalize Published.gasZ (Published.gasTpr T G) p = z at *
  generalize deriv (Published.gasZ (Published.gasTpr T G)) p = d at *
  have h1 : p + 2 ≠ 0 := by positivity
  have h2 : (p + 3.5) ^ 2 ≠ 0 := by positivity
  have h3 : 1 - d * p / z ≠ 0 := by
    intro h; apply hd; rw [← h]; ring
  simp only [Num.fin_add, Num.fin_mul, Num.fin_sub, Num.fin_powi_two, Num.fin_exp, Num.fin_div _ h1,
    Num.fin_div _ h2, Num.fin_div _ hz, Num.fin_div _ h3, Num.fin_inj]
  rw [show p / z * d = d * p / z by ring]
  ring

/-- `Z - p ∂Z/∂p`, and positivity of everything involved for pseudo-reduced temperatures 0.815 … 4. -/
theorem gasZ_pos {t p : ℝ} (ht : 0.815 ≤ t) (ht4 : t ≤ 4) (hp : 0 < p) :
    0 < Published.gasZ t p ∧ 0 < Published.gasZ t p - p * deriv (Published.gasZ t) p := by
  have ht0 : 0 < t := lt_of_lt_of_le (by norm_num) ht
  have hb : 0 < 0.642 * t - 0.007 * t ^ 4 - 0.52 := by
    norm_num at ht ⊢
    nlinarith [mul_nonneg (sub_nonneg.mpr ht) (sub_nonneg.mpr ht4), sq_nonneg t,
      mul_nonneg (mul_nonneg (sub_nonneg.mpr ht) (sub_nonneg.mpr ht4)) ht0.le,
      mul_nonneg (mul_nonneg (sub_nonneg.mpr ht) (sub_nonneg.mpr ht4)) (sq_nonneg t)]
  have ha : 0 ≤ 0.03 + 0.00527 * (3.5 - t) ^ 3 := by
    have : (-0.5:ℝ) ≤ 3.5 - t := by norm_num; linarith
    nlinarith [sq_nonneg (3.5 - t), sq_nonneg (3.5 - t + 0.25)]
  set k := (0.45 + 8 * (0.56 - 1 / t) ^ 2) / t with hk
  have hk0 : 0 < k := by positivity
  have hE : ∀ x : ℝ, Published.gasZ t x = (0.03 + 0.00527 * (3.5 - t) ^ 3) * x
      + (0.642 * t - 0.007 * t ^ 4 - 0.52) + 0.109 * (3.85 - t) ^ 2 * Real.exp (-(k * x ^ (1.2:ℝ))) := by
    intro x; unfold Published.gasZ; rw [hk]; congr 3; ring
  have hpow : HasDerivAt (fun x : ℝ => x ^ (1.2:ℝ)) (1.2 * p ^ (0.2:ℝ)) p := by
    have := Real.hasDerivAt_rpow_const (x := p) (p := 1.2) (Or.inl hp.ne')
    norm_num at this ⊢; exact this
  have hD : HasDerivAt (Published.gasZ t) ((0.03 + 0.00527 * (3.5 - t) ^ 3)
      + 0.109 * (3.85 - t) ^ 2 * (Real.exp (-(k * p ^ (1.2:ℝ))) * -(k * (1.2 * p ^ (0.2:ℝ))))) p := by
    have h1 := (((hasDerivAt_id p).const_mul (0.03 + 0.00527 * (3.5 - t) ^ 3)).add_const
      (0.642 * t - 0.007 * t ^ 4 - 0.52)).add
      ((((hpow.const_mul k).neg).exp).const_mul (0.109 * (3.85 - t) ^ 2))
    rw [funext hE]
    exact h1.congr_deriv (by simp)
  have hexp := Real.exp_pos (-(k * p ^ (1.2:ℝ)))
  have hp2 : 0 ≤ p ^ (0.2:ℝ) := Real.rpow_nonneg hp.le _
  rw [hD.deriv, hE]
  constructor
  · have := mul_nonneg ha hp.le
    positivity
  · have : 0 ≤ 0.109 * (3.85 - t) ^ 2 * Real.exp (-(k * p ^ (1.2:ℝ))) * (1 + p * (k * (1.2 * p ^ (0.2:ℝ)))) := by
      positivity
    linarith

theorem gasGamma_pos {p : ℝ} (hp : 0 ≤ p) : 0 < Published.gasGamma p := by
  unfold Published.gasGamma
  have h1 : 1.86 * (1 + 0.65 * p) ≤ Real.exp (0.65 * (p + 1)) := by
    rw [show 0.65 * (p + 1) = 0.65 + 0.65 * p by ring, Real.exp_add]
    apply mul_le_mul
    · refine le_trans ?_ (Real.quadratic_le_exp_of_nonneg (by norm_num)); norm_num
    · linarith [Real.add_one_le_exp (0.65 * p)]
    · positivity
    · positivity
  have h2 : Real.exp (-0.65 * (p + 1)) ≤ 1 / (1.86 * (1 + 0.65 * p)) := by
    rw [neg_mul, Real.exp_neg, ← one_div]
    exact one_div_le_one_div_of_le (by positivity) h1
  have h3 : 8.7 * (1 / (1.86 * (1 + 0.65 * p))) < 0.85 + 5.6 / (p + 2) + 27.1 / (p + 3.5) ^ 2 := by
    rw [← sub_pos]
    have : 0.85 + 5.6 / (p + 2) + 27.1 / (p + 3.5) ^ 2 - 8.7 * (1 / (1.86 * (1 + 0.65 * p)))
      = ((0.85 * ((p + 2) * (p + 3.5) ^ 2) + 5.6 * (p + 3.5) ^ 2 + 27.1 * (p + 2)) * (1.86 * (1 + 0.65 * p))
        - 8.7 * ((p + 2) * (p + 3.5) ^ 2)) / ((p + 2) * (p + 3.5) ^ 2 * (1.86 * (1 + 0.65 * p))) := by
      field_simp
    rw [this]
    apply div_pos _ (by positivity)
    ring_nf
    positivity
  linarith

/-- **C95.** `gas(T [°C], P [Pa], G)` never raises for 0 … 300 °C, any positive pressure and gravities
0.29 … 1.4, and has the published density and bulk modulus, both positive; the code's hand-written rate is
the derivative of `Z`. -/
theorem C95_gas (T P G : Fin n → ℝ) (hT : ∀ i, 0 ≤ T i ∧ T i ≤ 300) (hP : ∀ i, 0 < P i)
    (hG : ∀ i, 0.29 ≤ G i ∧ G i ≤ 1.4) :
    ∃ m, gas (finC T) (finC P) (finC G) = .ok m ∧
      m.density = finC (fun i => Published.gasDensity (T i + 273.15) (P i * 1e-6) (G i)) ∧
      m.bulk = finC (fun i => Published.gasBulk (T i + 273.15) (P i * 1e-6) (G i)) ∧
      ∀ i, 0 < Published.gasDensity (T i + 273.15) (P i * 1e-6) (G i) ∧
        0 < Published.gasBulk (T i + 273.15) (P i * 1e-6) (G i) := by
  have hT0 : ∀ i, 0 < T i + 273.15 := fun i => by have := (hT i).1; positivity
  have hP0 : ∀ i, 0 < P i * 1e-6 := fun i => by have := hP i; positivity
  have hG0 : ∀ i, 0 < G i := fun i => by have := (hG i).1; norm_num at this; linarith
  have hG2 : ∀ i, G i ≤ 12 := fun i => by have := (hG i).2; norm_num at this; linarith
  have hpp : ∀ i, 0 < Published.gasPpr (P i * 1e-6) (G i) := fun i => by
    have : 0 < 4.892 - 0.4048 * G i := by have := (hG i).2; norm_num at this ⊢; linarith
    have := hP0 i; unfold Published.gasPpr; positivity
  have hd : ∀ i, 0 < 94.72 + 170.75 * G i := fun i => by have := hG0 i; positivity
  have hZ : ∀ i, 0 < Published.gasZ (Published.gasTpr (T i + 273.15) (G i)) (Published.gasPpr (P i * 1e-6) (G i))
      ∧ 0 < Published.gasZ (Published.gasTpr (T i + 273.15) (G i)) (Published.gasPpr (P i * 1e-6) (G i))
        - Published.gasPpr (P i * 1e-6) (G i)
          * deriv (Published.gasZ (Published.gasTpr (T i + 273.15) (G i))) (Published.gasPpr (P i * 1e-6) (G i)) := by
    intro i
    have h1 := hT i; have h2 := hG i
    refine gasZ_pos ?_ ?_ (hpp i)
    · unfold Published.gasTpr; rw [le_div_iff₀ (hd i)]; norm_num at h1 h2 ⊢; linarith
    · unfold Published.gasTpr; rw [div_le_iff₀ (hd i)]; norm_num at h1 h2 ⊢; linarith
  have hden : ∀ i, 0 < 1 - Published.gasPpr (P i * 1e-6) (G i)
      / Published.gasZ (Published.gasTpr (T i + 273.15) (G i)) (Published.gasPpr (P i * 1e-6) (G i))
      * deriv (Published.gasZ (Published.gasTpr (T i + 273.15) (G i))) (Published.gasPpr (P i * 1e-6) (G i)) := by
    intro i
    have := div_pos (hZ i).2 (hZ i).1
    rw [sub_div, div_self (hZ i).1.ne'] at this
    linarith [show Published.gasPpr (P i * 1e-6) (G i)
      * deriv (Published.gasZ (Published.gasTpr (T i + 273.15) (G i))) (Published.gasPpr (P i * 1e-6) (G i))
      / Published.gasZ (Published.gasTpr (T i + 273.15) (G i)) (Published.gasPpr (P i * 1e-6) (G i))
      = Published.gasPpr (P i * 1e-6) (G i)
      / Published.gasZ (Published.gasTpr (T i + 273.15) (G i)) (Published.gasPpr (P i * 1e-6) (G i))
      * deriv (Published.gasZ (Published.gasTpr (T i + 273.15) (G i))) (Published.gasPpr (P i * 1e-6) (G i)) by ring]
  have hK : ∀ i, 0 < Published.gasBulk (T i + 273.15) (P i * 1e-6) (G i) := by
    intro i
    unfold Published.gasBulk
    have := hden i; have := hP0 i; have := gasGamma_pos (hpp i).le
    positivity
  have hρ : ∀ i, 0 < Published.gasDensity (T i + 273.15) (P i * 1e-6) (G i) := by
    intro i
    unfold Published.gasDensity
    have := (hZ i).1; have := hP0 i; have := hT0 i; have := hG0 i
    positivity
  obtain ⟨ig, hig, higd, -⟩ := C77_refuted (fun i => T i + 273.15) (fun i => P i * 1e-6 * 1e-6) G hT0
    (fun i => by have := hP0 i; positivity) hG0
  obtain ⟨m, hm, hmb, -, hmd, -⟩ := C01_velocities_agree
    (fun i => Published.gasBulk (T i + 273.15) (P i * 1e-6) (G i))
    (fun _ : Fin n => 0) (fun i => Published.gasDensity (T i + 273.15) (P i * 1e-6) (G i))
    (fun i => (hK i).le) (fun _ => le_rfl) hρ
  refine ⟨m, ?_, hmd, hmb, fun i => ⟨hρ i, hK i⟩⟩
  have ea : (fun i => celsiusToKelvin (finC T i)) = finC fun i => T i + 273.15 := by
    funext i; simp [celsiusToKelvin]
  have eb : (fun i => finC P i * Num.fin 1e-6 * Num.fin 1e-6) = finC fun i => P i * 1e-6 * 1e-6 := by
    funext i; simp
  have ec : (fun i => gasBulkModulus (celsiusToKelvin (finC T i)) (finC P i * .fin 1e-6) (finC G i) * .fin 1e6)
      = finC (fun i => Published.gasBulk (T i + 273.15) (P i * 1e-6) (G i)) := by
    funext i
    simp only [finC_apply, celsiusToKelvin, Num.fin_mul, Num.fin_add]
    exact gasBulkModulus_published (hT0 i) (hP0 i) (hG0 i).le (hG2 i) (hZ i).1.ne' (hden i).ne'
  have ed : (ig.density / fun i => compressabilityFactor (celsiusToKelvin (finC T i))
      (finC P i * .fin 1e-6) (finC G i))
      = finC (fun i => Published.gasDensity (T i + 273.15) (P i * 1e-6) (G i)) := by
    rw [higd]
    funext i
    simp only [Pi.div_apply, finC_apply, celsiusToKelvin, Num.fin_mul, Num.fin_add,
      compressability_published (hT0 i) (hP0 i).le (hG0 i).le (hG2 i), Num.fin_div _ (hZ i).1.ne', Num.fin_inj]
    unfold Published.gasDensity gasConstant
    have := (hZ i).1.ne'; have := (hT0 i).ne'
    field_simp
    ring
  have eg : gasDensity (fun i => celsiusToKelvin (finC T i)) (fun i => finC P i * .fin 1e-6) (finC G)
      = .ok (finC fun i => Published.gasDensity (T i + 273.15) (P i * 1e-6) (G i)) := by
    unfold gasDensity
    rw [eb]
    rw [show idealGas (fun i => celsiusToKelvin (finC T i)) (finC fun i => P i * 1e-6 * 1e-6) (finC G)
      = .ok ig by rw [ea]; exact hig]
    simp only [bind_ok]
    rw [ed]
  unfold gas
  dsimp only
  rw [eg]
  simp only [bind_ok]
  rw [ec]
  exact hm

/-- The hypotheses are met: 80 °C, 50 MPa, gravity 0.6. -/
example : ∃ m : Mat 1, gas (c 80) (c 50e6) (c 0.6) = .ok m := by
  obtain ⟨m, h, -⟩ := C95_gas (n := 1) (fun _ => 80) (fun _ => 50e6) (fun _ => 0.6) (by intro; norm_num)
    (by intro; norm_num) (by intro; norm_num)
  exact ⟨m, h⟩

end OPE
