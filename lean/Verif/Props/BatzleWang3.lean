import Verif.Props.BatzleWang2

/-!
# Properties of the Batzle–Wang fluids: gas units, water and brine, trends (C61 – C64, C77, C80)
-/

namespace OPE

open Classical

variable {n : ℕ}

/-! ### C61, C77 -/

/-- **C61.** Density of `gas(T [C], P [Pa], G)`, whenever it returns, is the density of an ideal gas of
molar mass `28.8 G` g/mol, `P M / (R (T + 273.15))` in kg/m3 (M in kg/mol), divided by the
compressibility `z` that the code evaluates at the same conditions (P in MPa). -/
theorem C61_gas_density_units {T P G z : Fin n → ℝ} {m : Mat n}
    (hT : ∀ i, -273.15 < T i) (hP : ∀ i, 0 < P i)
    (hz : ∀ i, compressabilityFactor (.fin (T i + 273.15)) (.fin (P i * 1e-6)) (.fin (G i)) = .fin (z i))
    (hz0 : ∀ i, z i ≠ 0) (h : gas (finC T) (finC P) (finC G) = .ok m) :
    m.density = finC fun i => P i * (28.8e-3 * G i) / (8.314462618 * (T i + 273.15)) / z i := by
  unfold gas at h
  dsimp only at h
  obtain ⟨d, hd, h⟩ := bind_eq_ok.mp h
  obtain ⟨-, -, g3, -, -⟩ := C03_given_arguments_kept _ _ _ _ _ m h
  rw [g3 _ rfl]
  unfold gasDensity at hd
  obtain ⟨x, hx, hd⟩ := bind_eq_ok.mp hd
  injection hd with hd
  rw [← hd, (fluidVelocity_ok hx).1]
  funext i
  have hTi : T i + 273.15 ≠ 0 := by have := hT i; intro h; linarith
  have hPi : P i * 1e-6 * 1e-6 * 1e6 ≠ 0 := by have := hP i; positivity
  have hRT : gasConstant * (T i + 273.15) / (P i * 1e-6 * 1e-6 * 1e6) ≠ 0 :=
    div_ne_zero (mul_ne_zero (by unfold gasConstant; norm_num) hTi) hPi
  simp only [Pi.div_apply, celsiusToKelvin, idealGasDensity, molecularWeight, molarVolume, finC_apply,
    Num.fin_add, Num.fin_mul, Num.fin_div _ hPi, Num.fin_div _ hRT, hz i, Num.fin_div _ (hz0 i), Num.fin_inj]
  unfold gasConstant
  have := (hP i).ne'
  have := hz0 i
  field_simp
  ring

/-- **C77 is false of the code.** `ideal_gas(T [K], P [Pa], G)` returns a density 10^12 times the ideal
gas density and a velocity `1/sqrt 1000` times the isothermal sound speed `sqrt (R T / M)` in m/s
(exactly, at all positive arguments). -/
theorem C77_refuted (T P G : Fin n → ℝ) (hT : ∀ i, 0 < T i) (hP : ∀ i, 0 < P i) (hG : ∀ i, 0 < G i) :
    ∃ m, idealGas (finC T) (finC P) (finC G) = .ok m ∧
      m.density = finC (fun i => 1e12 * (P i * (28.8e-3 * G i) / (gasConstant * T i))) ∧
      m.vp = finC (fun i => Real.sqrt (gasConstant * T i / (28.8e-3 * G i)) / Real.sqrt 1000) := by
  have hR : 0 < gasConstant := by unfold gasConstant; norm_num
  have e1 : ∀ i, idealGasDensity (.fin (T i)) (.fin (P i) * .fin 1e6) (.fin (G i)) * .fin 1000
      = .fin (1e12 * (P i * (28.8e-3 * G i) / (gasConstant * T i))) := by
    intro i
    have hP' : P i * 1e6 ≠ 0 := by have := hP i; positivity
    have hRT : gasConstant * T i / (P i * 1e6) ≠ 0 := by
      have := hP i; have := hT i; positivity
    simp only [idealGasDensity, molecularWeight, molarVolume, Num.fin_mul, Num.fin_div _ hP',
      Num.fin_div _ hRT, Num.fin_inj]
    have := (hP i).ne'; have := (hT i).ne'; have := hR.ne'
    field_simp
    norm_num
    ring
  have e2 : ∀ i, idealGasVelocity (.fin (T i)) (.fin (G i))
      = .fin (Real.sqrt (gasConstant * T i / (28.8e-3 * G i)) / Real.sqrt 1000) := by
    intro i
    have hG' : G i * 28.8 ≠ 0 := by have := hG i; positivity
    have h0 : 0 ≤ gasConstant * T i / (G i * 28.8) := by have := hT i; have := hG i; positivity
    have h1 : 0 ≤ gasConstant * T i / (28.8e-3 * G i) := by have := hT i; have := hG i; positivity
    simp only [idealGasVelocity, molecularWeight, Num.fin_mul, Num.fin_div _ hG', Num.fin_sqrt h0,
      Num.fin_inj]
    rw [← Real.sqrt_div h1]
    congr 1
    have := (hG i).ne'
    field_simp
    norm_num
    ring
  refine ⟨fluidOf (fun i => 1e12 * (P i * (28.8e-3 * G i) / (gasConstant * T i)))
    (fun i => Real.sqrt (gasConstant * T i / (28.8e-3 * G i)) / Real.sqrt 1000), ?_, rfl, rfl⟩
  rw [← fluidVelocity_fin]
  · unfold idealGas; congr 1
    · funext i; exact e1 i
    · funext i; exact e2 i
  · intro i; have := hP i; have := hT i; have := hG i; positivity
  · intro i; positivity

/-! ### C62 -/

theorem polyval3d_times_zero {r s t : ℕ} (T P : ℝ) (a : Fin (r + 1) → Fin (s + 1) → Fin (t + 1) → ℝ)
    (x : Num) (hx : x = .fin 0) :
    Num.fin 0 * polyval3d x (.fin T) (.fin P) a = .fin 0 := by
  rw [hx, polyval3d_fin]; simp

/-- **C62, the part that holds.** Whenever `brine` with salinity 0 and `water` (pressure given in Pa
and MPa) both return, velocities agree and the brine density is exactly 1000 times the water density
(kg/m3 against g/cc); and `brine` returns whenever `water` does. -/
theorem C62_partial (T P : Fin n → ℝ) :
    (∀ w b, water (finC T) (finC fun i => P i * 1e-6) = .ok w → brine (finC T) (finC P) (c 0) = .ok b →
      b.vp = w.vp ∧ b.density = fun i => w.density i * .fin 1000) ∧
    (∀ w, (∀ i, w.density i ≠ .fin 0) → water (finC T) (finC fun i => P i * 1e-6) = .ok w →
      ∃ b, brine (finC T) (finC P) (c 0) = .ok b) := by
  have e0 : (Num.fin 0 * Num.fin 1e-6) = Num.fin 0 := by simp
  have es : Num.sqrt (Num.fin 0) = Num.fin 0 := by simp
  have ed : ∀ t p : ℝ, brineDensity (.fin t) (.fin p) (.fin 0) = waterDensity (.fin t) (.fin p) := by
    intro t p
    unfold brineDensity
    rw [polyval3d_times_zero _ _ _ _ rfl, Num.add_comm', Num.zero_add']
  have ev : ∀ t p : ℝ, brineVelocity (.fin t) (.fin p) (.fin 0) = waterVelocity (.fin t) (.fin p) := by
    intro t p
    unfold brineVelocity
    rw [polyval3d_times_zero _ _ _ _ es, Num.add_comm', Num.zero_add']
  have hb : brine (finC T) (finC P) (c 0) = fluidVelocity
      (fun i => waterDensity (.fin (T i)) (.fin (P i * 1e-6)) * .fin 1000)
      (fun i => waterVelocity (.fin (T i)) (.fin (P i * 1e-6))) := by
    unfold brine
    simp only [finC_apply, c_apply, e0, Num.fin_mul (P _) _, ed, ev]
  constructor
  · intro w b hw hbr
    rw [hb] at hbr
    obtain ⟨w1, w2, -⟩ := fluidVelocity_ok hw
    obtain ⟨b1, b2, -⟩ := fluidVelocity_ok hbr
    exact ⟨by rw [b2, w2]; rfl, by rw [b1, w1]; rfl⟩
  · intro w hw0 hw
    rw [hb]
    have hfd : ∃ d : Fin n → ℝ, ∀ i, waterDensity (.fin (T i)) (.fin (P i * 1e-6)) = .fin (d i) :=
      ⟨_, fun i => polyval2d_fin _ _ _⟩
    have hfv : ∃ v : Fin n → ℝ, ∀ i, waterVelocity (.fin (T i)) (.fin (P i * 1e-6)) = .fin (v i) :=
      ⟨_, fun i => polyval2d_fin _ _ _⟩
    obtain ⟨d, hd⟩ := hfd
    obtain ⟨v, hv⟩ := hfv
    have hwe : water (finC T) (finC fun i => P i * 1e-6) = fluidVelocity (finC d) (finC v) := by
      unfold water; congr 1
      · funext i; exact hd i
      · funext i; exact hv i
    rw [hwe] at hw
    have hnn := fluidVelocity_ok_nonneg hw
    have hne : ∀ i, d i ≠ 0 := by
      intro i h
      apply hw0 i
      rw [(fluidVelocity_ok hw).1, finC_apply, h]
    refine ⟨fluidOf (fun i => d i * 1000) v, ?_⟩
    · rw [← fluidVelocity_fin (fun i => mul_pos (lt_of_le_of_ne (hnn i).1 (hne i).symm) (by norm_num))
        (fun i => (hnn i).2)]
      congr 1
      · funext i; rw [hd i]; simp
      · funext i; rw [hv i]; rfl

theorem waterDensity_fin (T P : ℝ) : waterDensity (.fin T) (.fin P) = .fin
    (1 + 489e-6 * P - 333e-9 * P ^ 2 + T * (-8e-5 - 2e-6 * P - 2e-9 * P ^ 2)
      + T ^ 2 * (-33e-7 + 16e-9 * P) + T ^ 3 * (1.75e-9 - 13e-12 * P)) := by
  unfold waterDensity
  rw [polyval2d_fin]
  congr 1
  simp only [Fin.sum_univ_succ, Finset.univ_eq_empty, Finset.sum_empty, Fin.val_zero, Fin.val_succ,
    Matrix.cons_val_zero, Matrix.cons_val_succ]
  norm_num
  ring

theorem waterVelocity_fin (T P : ℝ) : waterVelocity (.fin T) (.fin P) = .fin
    (1402.85 + 1.524 * P + 3.437e-3 * P ^ 2 - 1.197e-5 * P ^ 3
      + T * (4.871 - 1.11e-2 * P + 1.739e-4 * P ^ 2 - 1.628e-6 * P ^ 3)
      + T ^ 2 * (-4.783e-2 + 2.747e-4 * P - 2.135e-6 * P ^ 2 + 1.237e-8 * P ^ 3)
      + T ^ 3 * (1.487e-4 - 6.503e-7 * P - 1.455e-8 * P ^ 2 + 1.327e-10 * P ^ 3)
      + T ^ 4 * (-2.197e-7 + 7.987e-10 * P + 5.23e-11 * P ^ 2 - 4.614e-13 * P ^ 3)) := by
  unfold waterVelocity
  rw [polyval2d_fin]
  congr 1
  simp only [Fin.sum_univ_succ, Finset.univ_eq_empty, Finset.sum_empty, Fin.val_zero, Fin.val_succ,
    Matrix.cons_val_zero, Matrix.cons_val_succ]
  norm_num
  ring

/-- **C62 is false of the code**: at 0 C and 0 Pa `brine` with salinity 0 has density 1000 while
`water` has density 1. -/
theorem C62_refuted : ∃ w b : Mat 1, water (c 0) (c 0) = .ok w ∧ brine (c 0) (c 0) (c 0) = .ok b ∧
    w.density = c 1 ∧ b.density = c 1000 := by
  have hw : water (c 0 : Col 1) (c 0) = .ok (fluidOf (fun _ => 1) (fun _ => 1402.85)) := by
    rw [← fluidVelocity_fin (fun _ => by norm_num) (fun _ => by norm_num)]
    unfold water; congr 1
    · funext i; rw [c_apply, waterDensity_fin, finC_apply]; norm_num
    · funext i; rw [c_apply, waterVelocity_fin, finC_apply]; norm_num
  have hz : (finC (fun _ => (0:ℝ)) : Col 1) = c 0 := rfl
  have hz' : (finC (fun i => (fun _ => (0:ℝ)) i * 1e-6) : Col 1) = c 0 := by funext i; simp
  obtain ⟨h1, h2⟩ := C62_partial (n := 1) (fun _ => 0) (fun _ => 0)
  rw [hz', hz] at h1 h2
  obtain ⟨b, hb⟩ := h2 _ (fun i => by simp [fluidOf]) hw
  refine ⟨_, b, hw, hb, rfl, ?_⟩
  rw [(h1 _ _ hw hb).2]
  funext i; simp [fluidOf]

/-! ### C63 -/

theorem oilBubblePoint_fin {ρ g G T : ℝ} (hρ : 0 < ρ) (hg : 0 ≤ g) (hG : 0 < G) :
    oilBubblePoint (.fin ρ) (.fin g) (.fin G) (.fin T)
      = .fin (24469793.9134 * (g / G) ^ (0.83:ℝ) / Real.exp (4072 / ρ - 0.00377 * T)) := by
  unfold oilBubblePoint
  simp only [Num.fin_div _ hG.ne', Num.fin_div _ hρ.ne', Num.fin_mul, Num.fin_sub, Num.fin_exp,
    Num.fin_pow_nonneg (div_nonneg hg hG.le) (by norm_num : (0:ℝ) < 0.83),
    Num.fin_div _ (Real.exp_pos _).ne']

/-- **C63.** The bubble point is 0 without gas, and strictly increases with the gas-oil ratio, with
temperature and with oil density, and strictly decreases with gas gravity. -/
theorem C63_bubble_point_trends {ρ g G T : ℝ} (hρ : 0 < ρ) (hg : 0 ≤ g) (hG : 0 < G) :
    oilBubblePoint (.fin ρ) (.fin 0) (.fin G) (.fin T) = .fin 0 ∧
    (∀ g', g < g' → oilBubblePoint (.fin ρ) (.fin g) (.fin G) (.fin T)
      < oilBubblePoint (.fin ρ) (.fin g') (.fin G) (.fin T)) ∧
    (0 < g → ∀ T', T < T' → oilBubblePoint (.fin ρ) (.fin g) (.fin G) (.fin T)
      < oilBubblePoint (.fin ρ) (.fin g) (.fin G) (.fin T')) ∧
    (0 < g → ∀ G', G < G' → oilBubblePoint (.fin ρ) (.fin g) (.fin G') (.fin T)
      < oilBubblePoint (.fin ρ) (.fin g) (.fin G) (.fin T)) ∧
    (0 < g → ∀ ρ', ρ < ρ' → oilBubblePoint (.fin ρ) (.fin g) (.fin G) (.fin T)
      < oilBubblePoint (.fin ρ') (.fin g) (.fin G) (.fin T)) := by
  refine ⟨?_, ?_, ?_, ?_, ?_⟩
  · rw [oilBubblePoint_fin hρ le_rfl hG, zero_div, Real.zero_rpow (by norm_num)]; simp
  · intro g' h
    rw [oilBubblePoint_fin hρ hg hG, oilBubblePoint_fin hρ (hg.trans h.le) hG, Num.fin_lt]
    apply div_lt_div_of_pos_right _ (Real.exp_pos _)
    apply mul_lt_mul_of_pos_left _ (by norm_num)
    exact Real.rpow_lt_rpow (by positivity) (div_lt_div_of_pos_right h hG) (by norm_num)
  · intro hg0 T' h
    rw [oilBubblePoint_fin hρ hg hG, oilBubblePoint_fin hρ hg hG, Num.fin_lt]
    apply div_lt_div_of_pos_left (by positivity) (Real.exp_pos _)
    apply Real.exp_lt_exp.mpr; linarith
  · intro hg0 G' h
    rw [oilBubblePoint_fin hρ hg hG, oilBubblePoint_fin hρ hg (hG.trans h), Num.fin_lt]
    apply div_lt_div_of_pos_right _ (Real.exp_pos _)
    apply mul_lt_mul_of_pos_left _ (by norm_num)
    exact Real.rpow_lt_rpow (div_nonneg hg (hG.trans h).le) (div_lt_div_of_pos_left hg0 hG h) (by norm_num)
  · intro hg0 ρ' h
    rw [oilBubblePoint_fin hρ hg hG, oilBubblePoint_fin (hρ.trans h) hg hG, Num.fin_lt]
    apply div_lt_div_of_pos_left (by positivity) (Real.exp_pos _)
    apply Real.exp_lt_exp.mpr
    have := div_lt_div_of_pos_left (by norm_num : (0:ℝ) < 4072) hρ h
    linarith

/-! ### C64 -/

/-- **C64.** Dead oil density (API level: C, Pa, kg/m3) strictly decreases with temperature and strictly
increases with pressure up to 73 MPa, whenever `dead_oil` returns. -/
theorem C64_dead_oil_trends {T T' P P' R : ℝ} {m m' : Mat 1} (hR : 0 < R) (hP : 0 ≤ P) (hT : -17.78 ≤ T)
    (hTT : T ≤ T') (hPP : P' ≤ P) (hP1 : P ≤ 73e6) (hlt : T < T' ∨ P' < P) (hP' : 0 ≤ P')
    (h : deadOil (c T) (c P) (c R) = .ok m) (h' : deadOil (c T') (c P') (c R) = .ok m') :
    m'.density 0 < m.density 0 := by
  have hr : 0 < R / 1000 := by positivity
  rw [(fluidVelocity_ok h).1, (fluidVelocity_ok h').1]
  simp only [c_apply, Num.fin_mul, Num.fin_div _ (by norm_num : (1000:ℝ) ≠ 0)]
  rw [deadOilDensity_fin hT, deadOilDensity_fin (hT.trans hTT), Num.fin_mul, Num.fin_mul, Num.fin_lt]
  apply mul_lt_mul_of_pos_right _ (by norm_num)
  set p := P * 1e-6 with hp
  set p' := P' * 1e-6 with hp'
  have hp0 : 0 ≤ p' := by rw [hp']; positivity
  have hpp : p' ≤ p := by rw [hp, hp']; norm_num; linarith
  have hp1 : p ≤ 73 := by rw [hp]; norm_num at hP1 ⊢; linarith
  have hnum' := deadNum_pos (r := R / 1000) hr hp0 (hpp.trans (hp1.trans (by norm_num)))
  have hnum := deadNum_pos (r := R / 1000) hr (hp0.trans hpp) (hp1.trans (by norm_num))
  have hden := deadDen_pos hT
  have hden' := deadDen_pos (hT.trans hTT)
  -- the numerator grows with pressure
  have hcub : (0.00277 * p' - 1.71e-7 * p' ^ 3) ≤ (0.00277 * p - 1.71e-7 * p ^ 3) := by
    have e : (0.00277 * p - 1.71e-7 * p ^ 3) - (0.00277 * p' - 1.71e-7 * p' ^ 3)
        = (p - p') * (0.00277 - 1.71e-7 * (p ^ 2 + p * p' + p' ^ 2)) := by ring
    have h1 : p ^ 2 + p * p' + p' ^ 2 ≤ 3 * 73 ^ 2 := by nlinarith
    have h2 : 0 ≤ 0.00277 - 1.71e-7 * (p ^ 2 + p * p' + p' ^ 2) := by norm_num at h1 ⊢; linarith
    have := mul_nonneg (by linarith : 0 ≤ p - p') h2
    linarith
  have hcub2 := mul_le_mul_of_nonneg_right hcub (sq_nonneg (R / 1000 - 1.15))
  have hpow : (T + 17.78) ^ (1.175:ℝ) ≤ (T' + 17.78) ^ (1.175:ℝ) :=
    Real.rpow_le_rpow (by linarith) (by linarith) (by norm_num)
  unfold deadR
  rcases hlt with hlt | hlt
  · have hpow2 : (T + 17.78) ^ (1.175:ℝ) < (T' + 17.78) ^ (1.175:ℝ) :=
      Real.rpow_lt_rpow (by linarith) (by linarith) (by norm_num)
    calc _ < _ := div_lt_div_of_pos_left hnum' hden (by linarith)
      _ ≤ _ := div_le_div_of_nonneg_right (by linarith) hden.le
  · have hlt' : p' < p := by rw [hp, hp']; norm_num; linarith
    calc _ ≤ _ := div_le_div_of_nonneg_left hnum'.le hden (by linarith)
      _ < _ := div_lt_div_of_pos_right (by linarith) hden

example : ∃ m m' : Mat 1, deadOil (c 20) (c 50e6) (c 850) = .ok m ∧ deadOil (c 90) (c 10e6) (c 850) = .ok m' := by
  obtain ⟨m, _, _, _, h, -⟩ := C78_dead_oil_defined (n := 1) (fun _ => 20) (fun _ => 50e6) (fun _ => 850)
    (fun _ => by norm_num) (fun _ => by norm_num) (fun _ => by norm_num)
  obtain ⟨m', _, _, _, h', -⟩ := C78_dead_oil_defined (n := 1) (fun _ => 90) (fun _ => 10e6) (fun _ => 850)
    (fun _ => by norm_num) (fun _ => by norm_num) (fun _ => by norm_num)
  exact ⟨m, m', h, h'⟩

end OPE
