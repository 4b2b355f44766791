import Verif.Props.BatzleWang2

/-!
# Oil outside the usual range (C59, C79)

`oil` evaluates live oil even where dead oil has all the weight; the velocity of hot, light live oil is negative, which is
rejected.
-/

namespace OPE

/-- Volume factor of oil without gas at 300 °C and above. -/
theorem hot_volume {T r g G : ℝ} (hT : 300 ≤ T) (hg : 0 ≤ g) : 1.277 ≤ volR T r g G := by
  have h0 : 0 ≤ 2.4 * g * Real.sqrt (G / r) := by positivity
  have h1 : ((2.6:ℝ) ^ 6) ^ (7/6:ℝ) ≤ (2.4 * g * Real.sqrt (G / r) + T + 17.8) ^ (1.175:ℝ) := by
    refine (Real.rpow_le_rpow_of_exponent_le (by norm_num) (by norm_num : (7/6:ℝ) ≤ 1.175)).trans ?_
    refine Real.rpow_le_rpow (by norm_num) ?_ (by norm_num)
    norm_num at h0 ⊢
    linarith
  have h2 : ((2.6:ℝ) ^ 6) ^ (7/6:ℝ) = 2.6 ^ 7 := by
    rw [← Real.rpow_natCast, ← Real.rpow_natCast, ← Real.rpow_mul (by norm_num)]
    norm_num
  rw [h2] at h1
  unfold volR
  norm_num at h1 ⊢
  linarith

/-- Live oil of 700 kg/m³ at 300 °C or more and no pressure has a negative velocity, which is rejected. -/
theorem hot_live_oil {T g G : ℝ} (hT : 300 ≤ T) (hg : 0 ≤ g) (hG : 0 ≤ G) :
    liveOil (fun _ : Fin 1 => .fin T) (fun _ => .fin 0) (fun _ => .fin 700) (fun _ => .fin g) (fun _ => .fin G)
      = .error .valueError := by
  have hT' : (-17.8:ℝ) ≤ T := by norm_num; linarith
  obtain ⟨-, f2, -⟩ := liveOil_formulas (T := T) (P := 0) (R := 700) (g := g) (G := G) (by norm_num) (by norm_num) hg hG hT'
  have hv := hot_volume (r := 700 / 1000) (G := G) hT hg
  have hv0 : 0 < volR T (700 / 1000) g G := lt_of_lt_of_le (by norm_num) hv
  have hg1 : 1 ≤ 1 + 0.001 * g := by norm_num; linarith
  set r : ℝ := 700 / 1000 / volR T (700 / 1000) g G / (1 + 0.001 * g) with hr
  have hr1 : r ≤ 0.55 := by
    rw [hr, div_div, div_le_iff₀ (by positivity)]
    have : 1.277 * 1 ≤ volR T (700 / 1000) g G * (1 + 0.001 * g) := mul_le_mul hv hg1 zero_le_one hv0.le
    norm_num at this ⊢
    linarith
  have hneg : velR T (0 * 1e-6) r < 0 := by
    have h26 : 0 < 2.6 - r := by norm_num at hr1 ⊢; linarith
    have hs : Real.sqrt (r / (2.6 - r)) ≤ 0.5286 := by
      apply Real.sqrt_le_iff.mpr ⟨by norm_num, ?_⟩
      rw [div_le_iff₀ h26]
      norm_num at hr1 ⊢
      linarith
    unfold velR
    norm_num at hs ⊢
    linarith
  unfold liveOil fluidVelocity
  refine C03_negative_argument_rejected _ _ _ _ _ 0 (.inr (.inr (.inr (.inr ⟨_, rfl, ?_⟩))))
  change liveOilVelocity (.fin T) (.fin 0 * .fin 1e-6) (.fin 700 / .fin 1000) (.fin g) (.fin G) < _
  rw [f2]
  exact Num.fin_lt.mpr hneg

/-- **C59 is false.** At 300 °C and no pressure an oil of 700 kg/m³ without dissolved gas is rejected, although `dead_oil`
accepts it (and `oil` is documented to be dead oil for gas-oil ratio 0). -/
theorem C59_refuted {G : ℝ} (hG : 0 ≤ G) :
    (∃ d : Mat 1, deadOil (fun _ => .fin 300) (fun _ => .fin 0) (fun _ => .fin 700) = .ok d) ∧
    oil (.fin 300) (.fin 0) (.fin 700) (.fin 0) (.fin G) = .error .valueError := by
  constructor
  · obtain ⟨d, -, -, -, h, -⟩ := C78_dead_oil_defined (n := 1) (fun _ => 300) (fun _ => 0) (fun _ => 700)
      (fun _ => by norm_num) (fun _ => by norm_num) (fun _ => by norm_num)
    exact ⟨d, h⟩
  · unfold oil
    rw [hot_live_oil le_rfl le_rfl hG, bind_error]

/-- **C59 in the usual range.** Up to 150 °C oil without dissolved gas is dead oil, and oil with a gas-oil ratio from 1 to
400 is live oil. -/
theorem C59_usual_range_partial {T P R G : ℝ} (hT : 0 ≤ T ∧ T ≤ 150) (hP : 0 ≤ P ∧ P ≤ 100e6) (hR : 700 ≤ R ∧ R ≤ 1000)
    (hG : 0 ≤ G ∧ G ≤ 1) :
    (∃ d : Mat 1, deadOil (fun _ => .fin T) (fun _ => .fin P) (fun _ => .fin R) = .ok d ∧
      oil (.fin T) (.fin P) (.fin R) (.fin 0) (.fin G) = .ok d) ∧
    ∀ g, 1 ≤ g → g ≤ 400 → ∃ l : Mat 1,
      liveOil (fun _ => .fin T) (fun _ => .fin P) (fun _ => .fin R) (fun _ => .fin g) (fun _ => .fin G) = .ok l ∧
      oil (.fin T) (.fin P) (.fin R) (.fin g) (.fin G) = .ok l := by
  constructor
  · obtain ⟨l, d, m, ρl, vl, ρd, vd, ρ, v, K, hl, hd, hm, a1, a2, a3, a4, -, -, b1, -, b3, -⟩ :=
      C79_oil_defined T P R 0 G hT hP hR (by norm_num) hG
    exact ⟨d, hd, (C59_ends _ _ _ _ 0 l d ρl vl ρd vd hl hd a1 a2 b1 a3 a4 b3).1 rfl⟩
  · intro g hg hg4
    obtain ⟨l, d, m, ρl, vl, ρd, vd, ρ, v, K, hl, hd, hm, a1, a2, a3, a4, -, -, b1, -, b3, -⟩ :=
      C79_oil_defined T P R g G hT hP hR ⟨by linarith, hg4⟩ hG
    exact ⟨l, hl, (C59_ends _ _ _ _ g l d ρl vl ρd vd hl hd a1 a2 b1 a3 a4 b3).2 hg⟩

/-- Oil of 850 kg/m³ with 120 litres of gas per litre at 120 °C and 45 MPa is live oil. -/
example : ∃ l : Mat 1, oil (.fin 120) (.fin 45e6) (.fin 850) (.fin 120) (.fin 0.7) = .ok l := by
  obtain ⟨l, -, h⟩ := (C59_usual_range_partial (T := 120) (P := 45e6) (R := 850) (G := 0.7) (by norm_num) (by norm_num)
    (by norm_num) (by norm_num)).2 120 (by norm_num) (by norm_num)
  exact ⟨l, h⟩

end OPE
