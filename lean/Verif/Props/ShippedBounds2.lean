import Verif.Props.ShippedBounds

/-!
# C112: the fluids of the shipped examples are softer than their rocks
-/

namespace OPE.Shipped

variable {n : ℕ}

/-- Oil, brine and gas at 75 °C. -/
noncomputable def oil1 (P : ℝ) : Published.Fluid := Published.oil 75 P 800 153 0.5
noncomputable def brine1 (P : ℝ) : Published.Fluid := Published.brine 75 P 45000
noncomputable def gas1 (P : ℝ) : Published.Fluid := Published.gas 75 P 0.5

theorem brine1_soft {P : ℝ} (h : 0 ≤ P ∧ P ≤ 73e6) : (brine1 P).K ≤ 10e9 := by
  have key : ∀ p : ℝ, 0 ≤ p → p ≤ 73 → Published.brineDensity 75 p (45000 * 1e-6) ≤ 1.5 ∧
      0 ≤ Published.brineVelocity 75 p (45000 * 1e-6) ∧ Published.brineVelocity 75 p (45000 * 1e-6) ≤ 2500 := by
    intro p h0 h1
    have s0 : 0 ≤ (45000 * 1e-6 : ℝ) ^ (1.5 : ℝ) := Real.rpow_nonneg (by norm_num) _
    have s1 : (45000 * 1e-6 : ℝ) ^ (1.5 : ℝ) ≤ 0.045 := by
      have := Real.rpow_le_rpow_of_exponent_ge (x := (45000 * 1e-6 : ℝ)) (by norm_num) (by norm_num)
        (show (1 : ℝ) ≤ 1.5 by norm_num)
      rw [Real.rpow_one] at this
      exact this.trans (by norm_num)
    have p2 : p ^ 2 ≤ 73 * p := by nlinarith
    have p3 : p ^ 3 ≤ 73 * p ^ 2 := by nlinarith [sq_nonneg p]
    have p3' : 0 ≤ p ^ 3 := by positivity
    have p2' : 0 ≤ p ^ 2 := by positivity
    refine ⟨?_, ?_, ?_⟩
    · simp only [Published.brineDensity, Published.waterDensity]
      norm_num
      nlinarith
    all_goals
      simp only [Published.brineVelocity, Published.waterVelocity]
      generalize (45000 * 1e-6 : ℝ) ^ (1.5 : ℝ) = s at *
      have t0 : 0 ≤ 780 - 10 * p + 0.16 * p ^ 2 := by nlinarith [sq_nonneg (p - 31.25)]
      have t1 : 780 - 10 * p + 0.16 * p ^ 2 ≤ 2000 := by nlinarith
      have t2 : s * (780 - 10 * p + 0.16 * p ^ 2) ≤ 0.045 * 2000 := mul_le_mul s1 t1 t0 (by norm_num)
      have t3 := mul_nonneg s0 t0
      norm_num at *
      nlinarith
  obtain ⟨k1, k2, k3⟩ := key (P * 1e-6) (by nlinarith [h.1]) (by linarith [h.2])
  show 1000 * Published.brineDensity 75 (P * 1e-6) (45000 * 1e-6) * Published.brineVelocity 75 (P * 1e-6) (45000 * 1e-6) ^ 2 ≤ _
  have v2 : Published.brineVelocity 75 (P * 1e-6) (45000 * 1e-6) ^ 2 ≤ 2500 ^ 2 := by gcongr
  calc _ ≤ 1000 * 1.5 * (2500 : ℝ) ^ 2 := mul_le_mul (by linarith) v2 (by positivity) (by norm_num)
    _ ≤ _ := by norm_num

theorem oil1_soft {P : ℝ} (h : 0 ≤ P ∧ P ≤ 73e6) : (oil1 P).K ≤ 10e9 := by
  have hw : Published.deadWeight 153 = 0 := by norm_num [Published.deadWeight]
  show 1000 * (Published.deadWeight 153 * _ + (1 - Published.deadWeight 153) * Published.liveOilDensity 75 (800 / 1000) 153 0.5)
    * (Published.deadWeight 153 * _ + (1 - Published.deadWeight 153) *
      Published.oilVelocity 75 (P * 1e-6) (Published.pseudoDensity 75 (800 / 1000) 153 0.5)) ^ 2 ≤ 10e9
  rw [hw]
  simp only [zero_mul, zero_add, sub_zero, one_mul, Published.liveOilDensity, Published.pseudoDensity]
  have B : 0.972 ≤ Published.volumeFactor 75 (800 / 1000) 153 0.5 ∧ Published.volumeFactor 75 (800 / 1000) 153 0.5 ≤ 4.1 := by
    unfold Published.volumeFactor
    have s0 : (0.5 / (800 / 1000) : ℝ) ^ (1 / 2 : ℝ) ≤ 0.8 := by
      rw [← Real.sqrt_eq_rpow]
      exact (Real.sqrt_le_left (by norm_num)).mpr (by norm_num)
    have s1 : (0 : ℝ) ≤ (0.5 / (800 / 1000) : ℝ) ^ (1 / 2 : ℝ) := by positivity
    generalize (0.5 / (800 / 1000) : ℝ) ^ (1 / 2 : ℝ) = s at *
    have x0 : 1 ≤ 2.4 * 153 * s + 75 + 17.8 := by linarith
    have x1 : 2.4 * 153 * s + 75 + 17.8 ≤ 400 := by linarith
    generalize 2.4 * 153 * s + 75 + 17.8 = x at *
    have y0 : 0 ≤ x ^ (1.175 : ℝ) := Real.rpow_nonneg (by linarith) _
    have y1 : x ^ (1.175 : ℝ) ≤ 8000 := by
      calc x ^ (1.175 : ℝ) ≤ x ^ (1.5 : ℝ) := Real.rpow_le_rpow_of_exponent_le x0 (by norm_num)
        _ ≤ 400 ^ (1.5 : ℝ) := Real.rpow_le_rpow (by linarith) x1 (by norm_num)
        _ = ((20 : ℝ) ^ (2 : ℝ)) ^ (1.5 : ℝ) := by norm_num
        _ = 8000 := by rw [← Real.rpow_mul (by norm_num)]; norm_num
    constructor <;> linarith
  generalize Published.volumeFactor 75 (800 / 1000) 153 0.5 = b at B
  have hb : 0 < b := by linarith [B.1]
  have r0 : (800 / 1000 + 0.0012 * 0.5 * 153) / b ≤ 1 := by
    rw [div_le_one hb]; norm_num; linarith [B.1]
  have r1 : 0 ≤ (800 / 1000 + 0.0012 * 0.5 * 153) / b := by positivity
  have q0 : 800 / 1000 / b * (1 + 0.001 * 153)⁻¹ ≤ 0.8 := by
    have : (800 / 1000 : ℝ) / b ≤ 0.9 := by rw [div_le_iff₀ hb]; linarith [B.1]
    norm_num at *; linarith
  have q1 : 0.16 ≤ 800 / 1000 / b * (1 + 0.001 * 153)⁻¹ := by
    have : 0.19 ≤ (800 / 1000 : ℝ) / b := by rw [le_div_iff₀ hb]; linarith [B.2]
    norm_num at *; linarith
  generalize 800 / 1000 / b * (1 + 0.001 * 153)⁻¹ = q at *
  have v : |Published.oilVelocity 75 (P * 1e-6) q| ≤ 3000 := by
    unfold Published.oilVelocity
    have a0 : (q / (2.6 - q)) ^ (1 / 2 : ℝ) ≤ 1 :=
      Real.rpow_le_one (by apply div_nonneg <;> linarith) (by rw [div_le_one (by linarith)]; linarith) (by norm_num)
    have a1 : 0 ≤ (q / (2.6 - q)) ^ (1 / 2 : ℝ) := Real.rpow_nonneg (by apply div_nonneg <;> linarith) _
    have d0 : 0 ≤ 1.08 / q - 1 := by rw [sub_nonneg, one_le_div (by linarith)]; linarith
    have d1 : 1.08 / q - 1 ≤ 6.25 := by
      rw [sub_le_iff_le_add, div_le_iff₀ (by linarith)]; linarith
    have c0 : (1.08 / q - 1) ^ (1 / 2 : ℝ) ≤ 2.5 := by
      rw [← Real.sqrt_eq_rpow]
      exact (Real.sqrt_le_left (by norm_num)).mpr (by norm_num at *; linarith)
    have c1 : 0 ≤ (1.08 / q - 1) ^ (1 / 2 : ℝ) := Real.rpow_nonneg d0 _
    generalize (q / (2.6 - q)) ^ (1 / 2 : ℝ) = x at *
    generalize (1.08 / q - 1) ^ (1 / 2 : ℝ) = y at *
    have g0 : 0 ≤ P * 1e-6 := by nlinarith [h.1]
    have g1 : P * 1e-6 ≤ 73 := by linarith [h.2]
    generalize P * 1e-6 = p at *
    have f1 : y * p ≤ 2.5 * 73 := by gcongr
    have f0 : 0 ≤ y * p := by positivity
    rw [abs_le]
    norm_num at *
    constructor <;> nlinarith
  have v2 : Published.oilVelocity 75 (P * 1e-6) q ^ 2 ≤ 3000 ^ 2 := sq_le_sq' (by linarith [(abs_le.mp v).1]) (abs_le.mp v).2
  calc _ ≤ 1000 * 1 * (3000 : ℝ) ^ 2 := mul_le_mul (by linarith) v2 (by positivity) (by norm_num)
    _ ≤ _ := by norm_num

/-- Bounds on `Z` and `Z - p ∂Z/∂p`. -/
theorem gasZ_bounds {t p : ℝ} (ht : 0.815 ≤ t) (hp : 0 < p) :
    Published.gasZ t p ≤ (0.03 + 0.00527 * (3.5 - t) ^ 3) * p + (0.642 * t - 0.007 * t ^ 4 - 0.52)
      + 0.109 * (3.85 - t) ^ 2 ∧
    0.642 * t - 0.007 * t ^ 4 - 0.52 ≤ Published.gasZ t p - p * deriv (Published.gasZ t) p := by
  have ht0 : 0 < t := lt_of_lt_of_le (by norm_num) ht
  set k := (0.45 + 8 * (0.56 - 1 / t) ^ 2) / t with hk
  have hk0 : 0 < k := by positivity
  have hE : ∀ x : ℝ, Published.gasZ t x = (0.03 + 0.00527 * (3.5 - t) ^ 3) * x
      + (0.642 * t - 0.007 * t ^ 4 - 0.52) + 0.109 * (3.85 - t) ^ 2 * Real.exp (-(k * x ^ (1.2:ℝ))) := by
    intro x; unfold Published.gasZ; rw [hk]; congr 3; ring
  have hpow : HasDerivAt (fun x : ℝ => x ^ (1.2:ℝ)) (1.2 * p ^ (0.2:ℝ)) p := by
    have := Real.hasDerivAt_rpow_const (x := p) (p := 1.2) (Or.inl hp.ne')
    norm_num at this ⊢; exact this
  have hD : HasDerivAt (Published.gasZ t) ((0.03 + 0.00527 * (3.5 - t) ^ 3)
      + 0.109 * (3.85 - t) ^ 2 * (Real.exp (-(k * p ^ (1.2:ℝ))) * -(k * (1.2 * p ^ (0.2:ℝ))))) p := by
    have h1 := (((hasDerivAt_id p).const_mul (0.03 + 0.00527 * (3.5 - t) ^ 3)).add_const
      (0.642 * t - 0.007 * t ^ 4 - 0.52)).add
      ((((hpow.const_mul k).neg).exp).const_mul (0.109 * (3.85 - t) ^ 2))
    rw [funext hE]
    exact h1.congr_deriv (by simp)
  have hexp := Real.exp_pos (-(k * p ^ (1.2:ℝ)))
  have hp1 : 0 ≤ p ^ (1.2:ℝ) := Real.rpow_nonneg hp.le _
  have hp2 : 0 ≤ p ^ (0.2:ℝ) := Real.rpow_nonneg hp.le _
  have hexp1 : Real.exp (-(k * p ^ (1.2:ℝ))) ≤ 1 := by
    rw [Real.exp_le_one_iff]
    have := mul_nonneg hk0.le hp1
    linarith
  rw [hD.deriv, hE]
  constructor
  · have : 0.109 * (3.85 - t) ^ 2 * Real.exp (-(k * p ^ (1.2:ℝ))) ≤ 0.109 * (3.85 - t) ^ 2 * 1 := by gcongr
    linarith
  · have : 0 ≤ 0.109 * (3.85 - t) ^ 2 * Real.exp (-(k * p ^ (1.2:ℝ))) * (1 + p * (k * (1.2 * p ^ (0.2:ℝ)))) := by
      positivity
    linarith

theorem gasGamma_le {p : ℝ} (hp : 0 ≤ p) : Published.gasGamma p ≤ 6 := by
  unfold Published.gasGamma
  have h1 : 5.6 / (p + 2) ≤ 5.6 / 2 := div_le_div_of_nonneg_left (by norm_num) (by norm_num) (by linarith)
  have h2 : 27.1 / (p + 3.5) ^ 2 ≤ 27.1 / 3.5 ^ 2 :=
    div_le_div_of_nonneg_left (by norm_num) (by norm_num) (by gcongr; linarith)
  have h3 := Real.exp_pos (-0.65 * (p + 1))
  norm_num at *
  linarith

theorem gas1_soft {P : ℝ} (h : 0 < P ∧ P ≤ 73e6) : (gas1 P).K ≤ 10e9 := by
  show Published.gasBulk (75 + 273.15) (P * 1e-6) 0.5 ≤ 10e9
  unfold Published.gasBulk
  have t0 : 1.93 ≤ Published.gasTpr (75 + 273.15) 0.5 ∧ Published.gasTpr (75 + 273.15) 0.5 ≤ 1.94 := by
    norm_num [Published.gasTpr]
  generalize Published.gasTpr (75 + 273.15) 0.5 = t at t0
  have g0 : 0 < P * 1e-6 := mul_pos h.1 (by norm_num)
  have g1 : P * 1e-6 ≤ 73 := by linarith [h.2]
  have q0 : 0 < Published.gasPpr (P * 1e-6) 0.5 := by
    unfold Published.gasPpr; norm_num; linarith
  have q1 : Published.gasPpr (P * 1e-6) 0.5 ≤ 16 := by
    unfold Published.gasPpr
    rw [div_le_iff₀ (by norm_num)]; norm_num at *; linarith
  generalize Published.gasPpr (P * 1e-6) 0.5 = p at *
  generalize P * 1e-6 = P' at *
  have b1 := gasZ_bounds (t := t) (by linarith [t0.1]) q0
  have b2 := gasZ_pos (t := t) (by linarith [t0.1]) (by linarith [t0.2]) q0
  have b3 := gasGamma_le q0.le
  have b4 := gasGamma_pos q0.le
  have t2 : t ^ 2 ≤ 1.94 ^ 2 := by nlinarith [t0.1, t0.2]
  have c1 : 0.6 ≤ 0.642 * t - 0.007 * t ^ 4 - 0.52 := by
    have : t ^ 4 ≤ 1.94 ^ 4 := by
      have := t0.1; have := t0.2
      gcongr
    norm_num at *; linarith
  have c2 : 0.642 * t - 0.007 * t ^ 4 - 0.52 ≤ 1 := by
    have : 0 ≤ t ^ 4 := by positivity
    norm_num at *; linarith
  have c3 : 0.03 + 0.00527 * (3.5 - t) ^ 3 ≤ 0.06 := by
    have : (3.5 - t) ^ 3 ≤ 1.57 ^ 3 := by
      have := t0.1
      have : 0 ≤ 3.5 - t := by linarith [t0.2]
      gcongr; linarith
    norm_num at *; linarith
  have c4 : (3.85 - t) ^ 2 ≤ 4 := by
    have := t0.1
    have : 0 ≤ 3.85 - t := by linarith [t0.2]
    nlinarith
  generalize Published.gasZ t p = z at *
  generalize deriv (Published.gasZ t) p = d at *
  have hz : z ≤ 3 := by
    have : (0.03 + 0.00527 * (3.5 - t) ^ 3) * p ≤ 0.06 * 16 := by
      apply mul_le_mul c3 q1 q0.le (by norm_num)
    linarith [b1.1]
  have hd : 0.2 ≤ 1 - p / z * d := by
    have : 1 - p / z * d = (z - p * d) / z := by have := b2.1; field_simp
    rw [this, le_div_iff₀ b2.1]
    linarith [b1.2]
  have e1 : P' / (1 - p / z * d) ≤ 365 := by
    rw [div_le_iff₀ (by linarith)]; linarith
  have e2 : P' / (1 - p / z * d) * Published.gasGamma p ≤ 365 * 6 := by
    apply mul_le_mul e1 b3 b4.le (by norm_num)
  linarith

theorem oil1_pos {P : ℝ} (h : 0 ≤ P ∧ P ≤ 73e6) : 0 < (oil1 P).K := by
  obtain ⟨m, -, hm⟩ := oil_constituent (n := 1) (fun _ _ _ => .error .valueError) (pv := .default) (by simp) (fun _ => 75) (fun _ => P)
    (fun _ => 800) (fun _ => 153) (fun _ => 0.5) (fun _ => by norm_num) (fun _ => ⟨h.1, h.2.trans (by norm_num)⟩) (fun _ => by norm_num)
    (fun _ => by norm_num) (fun _ => by norm_num)
  exact (hm.2.2.2 0).1

theorem brine1_pos {P : ℝ} (h : 0 ≤ P ∧ P ≤ 73e6) : 0 < (brine1 P).K := by
  obtain ⟨m, -, hm⟩ := brine_constituent (n := 1) (fun _ _ _ => .error .valueError) (pv := .default) (by simp) (fun _ => 75) (fun _ => P)
    (fun _ => 45000) (fun _ => by norm_num) (fun _ => ⟨h.1, h.2.trans (by norm_num)⟩) (fun _ => by norm_num)
  exact (hm.2.2.2 0).1

theorem gas1_pos {P : ℝ} (h : 0 < P) : 0 < (gas1 P).K := by
  obtain ⟨m, -, hm⟩ := gas_constituent (n := 1) (fun _ _ _ => .error .valueError) (pv := .default) (by simp) (fun _ => 75) (fun _ => P)
    (fun _ => 0.5) (fun _ => by norm_num) (fun _ => h) (fun _ => by norm_num)
  exact (hm.2.2.2 0).1

/-- A mixture is not stiffer than its stiffest constituent. -/
theorem wood_soft {L : List (Published.Fluid × ℝ)} {M : ℝ} (hK : ∀ x ∈ L, 0 < x.1.K ∧ x.1.K ≤ M)
    (hs : ∀ x ∈ L, 0 ≤ x.2) (hS : 0 < (L.map fun x => x.2).sum) : (Published.wood L).K ≤ M := by
  have hM : 0 < M := by
    cases L with
    | nil => simp at hS
    | cons x L => have := hK x (by simp); linarith
  show ((L.map fun x => x.2 / (L.map fun x => x.2).sum / x.1.K).sum)⁻¹ ≤ M
  generalize hS' : (L.map fun x => x.2).sum = S at hS
  have key : ∀ L' : List (Published.Fluid × ℝ), (∀ x ∈ L', 0 < x.1.K ∧ x.1.K ≤ M) → (∀ x ∈ L', 0 ≤ x.2) →
      (L'.map fun x => x.2).sum / S / M ≤ (L'.map fun x => x.2 / S / x.1.K).sum := by
    intro L'
    induction L' with
    | nil => intro _ _; simp
    | cons x L' ih =>
      intro h1 h2
      simp only [List.map_cons, List.sum_cons, add_div]
      refine add_le_add ?_ (ih (fun y hy => h1 y (by simp [hy])) (fun y hy => h2 y (by simp [hy])))
      have := h1 x (by simp)
      exact div_le_div_of_nonneg_left (div_nonneg (h2 x (by simp)) hS.le) this.1 this.2
  have := key L hK hs
  rw [hS', div_self hS.ne'] at this
  have p : 0 < 1 / M := by positivity
  have := inv_anti₀ p this
  rwa [one_div, inv_inv] at this

end OPE.Shipped
