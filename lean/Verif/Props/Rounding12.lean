import Verif.Props.Rounding10
import Verif.Props.Published2
import Mathlib.Analysis.Complex.ExponentialBounds

/-!
# Double arithmetic: Hertz-Mindlin and friable sand (C173)
-/

namespace OPE

variable {fl : ℝ → ℝ} {pw : ℝ → ℝ → ℝ}

theorem unit_small : unit ≤ 1.2e-16 := by unfold unit; norm_num

/-- Poisson's ratio of the given moduli. -/
theorem poisson_error (hfl : RoundsToNearest fl) {K G : ℝ} (hK : 0 < K) (hG : 0 < G) :
    |Double.poisson fl K G - nuR K G| ≤ 7 * unit * (1 - nuR K G) := by
  have hu := unit_pos
  have hu1 := unit_small
  set u := unit with hud
  have e1 := hfl.error (3 * K)
  have e2 := hfl.error (2 * G)
  rw [abs_of_pos (by positivity : 0 < 3 * K)] at e1
  rw [abs_of_pos (by positivity : 0 < 2 * G)] at e2
  set A := fl (3 * K)
  set B := fl (2 * G)
  set S := 3 * K + 2 * G with hS
  have hS0 : 0 < S := by positivity
  have e3 : |A - B - (3 * K - 2 * G)| ≤ u * S := by
    have : A - B - (3 * K - 2 * G) = (A - 3 * K) - (B - 2 * G) := by ring
    rw [this]
    refine (abs_sub _ _).trans ?_
    rw [hS]; linarith
  have hN : |3 * K - 2 * G| ≤ S := by rw [abs_le]; constructor <;> (rw [hS]; linarith)
  have e4 : |A - B| ≤ (1 + u) * S := by
    have := abs_sub_abs_le_abs_sub (A - B) (3 * K - 2 * G)
    linarith
  have e5 := hfl.error (A - B)
  set N := fl (A - B)
  have e6 : |N - (3 * K - 2 * G)| ≤ 2.1 * u * S := by
    have h1 := abs_sub_le N (A - B) (3 * K - 2 * G)
    have h2 : u * |A - B| ≤ u * ((1 + u) * S) := mul_le_mul_of_nonneg_left e4 hu.le
    have h3 : u * (u * S) ≤ 0.1 * (u * S) := mul_le_mul_of_nonneg_right (by norm_num at hu1 ⊢; linarith) (by positivity)
    linarith
  -- the denominator
  have nD : Near 3 (2 * (3 * K + G)) (fl (2 * fl (A + G))) := by
    have h1 : Near 2 (3 * K + G) (fl (A + G)) :=
      ((Near.fl0 hfl (by positivity)).add (Near.refl 0 hG.le)).fl hfl
    exact (((Near.refl 0 (by norm_num : (0:ℝ) ≤ 2)).mul h1).fl hfl).mono (by norm_num)
  set D := 2 * (3 * K + G) with hD
  have hD0 : 0 < D := by positivity
  set D' := fl (2 * fl (A + G))
  have hD0' : 0 < D' := nD.pos hD0
  have hp3 : 1 - 3 * u ≤ (1 - u) ^ 3 := by exact_mod_cast Near.sub_one_pow 3
  have d1 : (1 - 3 * u) * D ≤ D' := (mul_le_mul_of_nonneg_right hp3 hD0.le).trans nD.2.1
  have d2 : (1 - 3 * u) * D' ≤ D := (mul_le_mul_of_nonneg_right hp3 hD0'.le).trans nD.2.2
  have hfin : ∀ y : ℝ, 0 ≤ y → u * (u * y) ≤ 0.001 * (u * y) := fun y hy =>
    mul_le_mul_of_nonneg_right (by norm_num at hu1 ⊢; linarith) (by positivity)
  have e7 : |N / D' - (3 * K - 2 * G) / D| ≤ 5.4 * u * (S / D) := by
    have : N / D' - (3 * K - 2 * G) / D = (N - (3 * K - 2 * G)) / D' + (3 * K - 2 * G) * (D - D') / (D * D') := by
      field_simp
      ring
    rw [this]
    refine (abs_add_le _ _).trans ?_
    rw [abs_div, abs_div, abs_mul, abs_of_pos hD0', abs_of_pos (mul_pos hD0 hD0')]
    have h1 : |N - (3 * K - 2 * G)| / D' ≤ 2.15 * u * (S / D) := by
      rw [div_le_iff₀ hD0']
      have q : 2.1 * u * S ≤ 2.15 * u * (S / D) * ((1 - 3 * u) * D) := by
        have : 2.15 * u * (S / D) * ((1 - 3 * u) * D) = 2.15 * u * S * (1 - 3 * u) := by field_simp
        rw [this]
        have := hfin S hS0.le
        nlinarith
      refine e6.trans (q.trans (mul_le_mul_of_nonneg_left d1 (by positivity)))
    have h2 : |3 * K - 2 * G| * |D - D'| / (D * D') ≤ 3.2 * u * (S / D) := by
      have h3 : |D - D'| ≤ 3.1 * u * D' := by
        have h4 : 0 ≤ u * D' := by positivity
        rw [abs_le]; constructor
        · linarith
        · have h5 := hfin D hD0.le
          have h6 : D ≤ 1.01 * D' := by nlinarith
          nlinarith
      rw [div_le_iff₀ (mul_pos hD0 hD0')]
      calc |3 * K - 2 * G| * |D - D'| ≤ S * (3.1 * u * D') := mul_le_mul hN h3 (abs_nonneg _) hS0.le
        _ ≤ S * (3.2 * u * D') := by
          refine mul_le_mul_of_nonneg_left ?_ hS0.le
          have : 0 ≤ u * D' := by positivity
          linarith
        _ = 3.2 * u * (S / D) * (D * D') := by field_simp
    have h0 : 0 ≤ u * (S / D) := by positivity
    linarith
  have e8 := hfl.error (N / D')
  have hv : |N / D'| ≤ 1.01 * (S / D) := by
    have h1 : |(3 * K - 2 * G) / D| ≤ S / D := by
      rw [abs_div, abs_of_pos hD0]
      exact div_le_div_of_nonneg_right hN hD0.le
    have h2 := abs_sub_abs_le_abs_sub (N / D') ((3 * K - 2 * G) / D)
    have h3 : 5.4 * u * (S / D) ≤ 0.01 * (S / D) := mul_le_mul_of_nonneg_right (by norm_num at hu1 ⊢; linarith) (by positivity)
    linarith
  have e9 : |fl (N / D') - (3 * K - 2 * G) / D| ≤ 6.5 * u * (S / D) := by
    have h1 := abs_sub_le (fl (N / D')) (N / D') ((3 * K - 2 * G) / D)
    have h2 : u * |N / D'| ≤ u * (1.01 * (S / D)) := mul_le_mul_of_nonneg_left hv hu.le
    have h3 : 0 ≤ u * (S / D) := by positivity
    linarith
  have hnu : 1 - nuR K G = (3 * K + 4 * G) / D := by
    unfold nuR
    rw [hD]
    field_simp
    ring
  have hlast : S / D ≤ 1 - nuR K G := by
    rw [hnu]
    exact div_le_div_of_nonneg_right (by rw [hS]; linarith) hD0.le
  have : Double.poisson fl K G - nuR K G = fl (N / D') - (3 * K - 2 * G) / D := rfl
  rw [this]
  refine e9.trans ?_
  have h4 : 0 ≤ S / D := by positivity
  calc 6.5 * u * (S / D) ≤ 7 * u * (S / D) := by nlinarith
    _ ≤ 7 * u * (1 - nuR K G) := mul_le_mul_of_nonneg_left hlast (by positivity)

theorem one_sub_poisson_near (hfl : RoundsToNearest fl) {K G : ℝ} (hK : 0 < K) (hG : 0 < G) :
    Near 15 (1 - nuR K G) (fl (1 - Double.poisson fl K G)) ∧ Near 15 (2 - nuR K G) (fl (2 - Double.poisson fl K G)) := by
  have hu := unit_pos
  have hu1 := unit_small
  have hν := (nuR_lt K G hK hG).1
  have e := poisson_error hfl hK hG
  have key : ∀ x : ℝ, 1 - nuR K G ≤ x - nuR K G → Near 15 (x - nuR K G) (fl (x - Double.poisson fl K G)) := by
    intro x hx
    have h0 : 0 ≤ x - nuR K G := by linarith
    refine Near.fl hfl (k := 14) (Near.of_relative (ε := 7 * unit) h0 ?_ ?_ ?_ (by positivity))
    · have : x - Double.poisson fl K G - (x - nuR K G) = -(Double.poisson fl K G - nuR K G) := by ring
      rw [this, abs_neg]
      exact e.trans (mul_le_mul_of_nonneg_left hx (by positivity))
    · norm_num at hu1 ⊢; linarith
    · push_cast; linarith
  exact ⟨key 1 le_rfl, key 2 (by linarith)⟩

/-- The double nearest to 1/3 as exponent instead of 1/3. -/
theorem third_near (hfl : RoundsToNearest fl) {x : ℝ} (hx0 : 0 < x) (hx : |Real.log x| ≤ 72) :
    Near 24 (x ^ (1 / 3 : ℝ)) (x ^ fl (1 / 3)) := by
  have hu := unit_pos
  have e := hfl.error (1 / 3)
  rw [abs_of_pos (by norm_num : (0:ℝ) < 1 / 3)] at e
  set δ := fl (1 / 3) - 1 / 3 with hδ
  have hb : |Real.log x * δ| ≤ 24 * unit := by
    rw [abs_mul]
    calc |Real.log x| * |δ| ≤ 72 * (unit * (1 / 3)) := mul_le_mul hx e (abs_nonneg _) (by norm_num)
      _ = 24 * unit := by ring
  have hpow : x ^ fl (1 / 3) = x ^ (1 / 3 : ℝ) * Real.exp (Real.log x * δ) := by
    rw [← Real.rpow_def_of_pos hx0, ← Real.rpow_add hx0]
    congr 1
    rw [hδ]; ring
  have hX : 0 < x ^ (1 / 3 : ℝ) := Real.rpow_pos_of_pos hx0 _
  have hq : (1 - unit) ^ 24 ≤ Real.exp (-(24 * unit)) := by
    have h1 : 1 - unit ≤ Real.exp (-unit) := by
      have := Real.add_one_le_exp (-unit)
      linarith
    calc (1 - unit) ^ 24 ≤ Real.exp (-unit) ^ 24 := pow_le_pow_left₀ Near.one_sub.1.le h1 24
      _ = Real.exp (-(24 * unit)) := by rw [← Real.exp_nat_mul]; congr 1; push_cast; ring
  obtain ⟨b1, b2⟩ := abs_le.mp hb
  refine ⟨hX.le, ?_, ?_⟩
  · rw [hpow, mul_comm]
    exact mul_le_mul_of_nonneg_left (hq.trans (Real.exp_le_exp.mpr b1)) hX.le
  · rw [hpow]
    have h1 : (1 - unit) ^ 24 * Real.exp (Real.log x * δ) ≤ 1 := by
      calc (1 - unit) ^ 24 * Real.exp (Real.log x * δ) ≤ Real.exp (-(24 * unit)) * Real.exp (24 * unit) :=
            mul_le_mul hq (Real.exp_le_exp.mpr b2) (Real.exp_pos _).le (Real.exp_pos _).le
        _ = 1 := by rw [← Real.exp_add]; simp
    calc (1 - unit) ^ 24 * (x ^ (1 / 3 : ℝ) * Real.exp (Real.log x * δ)) =
          x ^ (1 / 3 : ℝ) * ((1 - unit) ^ 24 * Real.exp (Real.log x * δ)) := by ring
      _ ≤ x ^ (1 / 3 : ℝ) * 1 := mul_le_mul_of_nonneg_left h1 hX.le
      _ = _ := mul_one _

/-- Slightly wider than `Sensible`. -/
def Sane (G φ P C : ℝ) : Prop := 1e-29 * (C * (1 - φ) * G) ≤ P ∧ P ≤ 1e29 * (C * (1 - φ) * G)

theorem Sensible.sane {G φ P C : ℝ} (hG : 0 < G) (hφ : φ < 1) (hC : 0 < C) (h : Sensible G φ P C) : Sane G φ P C := by
  have hq : 0 < C * (1 - φ) * G := mul_pos (mul_pos hC (by linarith)) hG
  constructor
  · refine le_trans (mul_le_mul_of_nonneg_right ?_ hq.le) h.1
    norm_num
  · refine h.2.trans (mul_le_mul_of_nonneg_right ?_ hq.le)
    norm_num

theorem hmA_base {K G φ P C : ℝ} (hK : 0 < K) (hG : 0 < G) (hφ : φ < 1) (hC : 0 < C) (h : Sane G φ P C) :
    0 < P ∧ 0 < 3 * Real.pi * (1 - nuR K G) * P / (2 * C * (1 - φ) * G) ∧
      1e-30 ≤ 3 * Real.pi * (1 - nuR K G) * P / (2 * C * (1 - φ) * G) ∧
      3 * Real.pi * (1 - nuR K G) * P / (2 * C * (1 - φ) * G) ≤ 1e30 := by
  obtain ⟨h1, h2⟩ := nuR_lt K G hK hG
  have hq : 0 < C * (1 - φ) * G := mul_pos (mul_pos hC (by linarith)) hG
  have hP : 0 < P := lt_of_lt_of_le (by positivity) h.1
  have hpi := Real.pi_gt_three
  have hpi' := Real.pi_lt_four
  have e : 3 * Real.pi * (1 - nuR K G) * P / (2 * C * (1 - φ) * G) =
      3 / 2 * Real.pi * (1 - nuR K G) * (P / (C * (1 - φ) * G)) := by
    have : 2 * C * (1 - φ) * G = 2 * (C * (1 - φ) * G) := by ring
    rw [this]
    field_simp
  have q1 : 1e-29 ≤ P / (C * (1 - φ) * G) := (le_div_iff₀ hq).mpr h.1
  have q2 : P / (C * (1 - φ) * G) ≤ 1e29 := (div_le_iff₀ hq).mpr h.2
  have f1 : 3 / 2 * 3 * (1 / 2) ≤ 3 / 2 * Real.pi * (1 - nuR K G) := by
    refine mul_le_mul (by linarith) (by linarith) (by norm_num) (by positivity)
  have f2 : 3 / 2 * Real.pi * (1 - nuR K G) ≤ 3 / 2 * 4 * 2 * 0.8 := by
    have hp2 : Real.pi < 3.2 := by have := Real.pi_lt_d2; linarith
    calc 3 / 2 * Real.pi * (1 - nuR K G) ≤ 3 / 2 * 3.2 * 2 :=
          mul_le_mul (by linarith) (by linarith) (by linarith) (by norm_num)
      _ = _ := by norm_num
  have hp1 : 0 < 1 - nuR K G := by linarith
  rw [e]
  refine ⟨hP, by positivity, ?_, ?_⟩
  · calc (1e-30 : ℝ) ≤ 3 / 2 * 3 * (1 / 2) * 1e-29 := by norm_num
      _ ≤ _ := mul_le_mul f1 q1 (by norm_num) (le_trans (by norm_num) f1)
  · calc 3 / 2 * Real.pi * (1 - nuR K G) * (P / (C * (1 - φ) * G)) ≤ 3 / 2 * 4 * 2 * 0.8 * 1e29 :=
          mul_le_mul f2 q2 (by positivity) (by norm_num)
      _ ≤ 1e30 := by norm_num

theorem log_bound {x : ℝ} (h1 : 1e-31 ≤ x) (h2 : x ≤ 1e31) : |Real.log x| ≤ 72 := by
  have h0 : 0 < x := lt_of_lt_of_le (by norm_num) h1
  have he : (1e31 : ℝ) ≤ Real.exp 72 := by
    have := Real.exp_one_gt_d9
    have h3 : Real.exp 72 = Real.exp 1 ^ 72 := by rw [← Real.exp_nat_mul]; norm_num
    rw [h3]
    calc (1e31 : ℝ) ≤ 2.7182818283 ^ 72 := by norm_num
      _ ≤ _ := pow_le_pow_left₀ (by norm_num) this.le 72
  rw [abs_le]
  constructor
  · rw [Real.le_log_iff_exp_le h0, Real.exp_neg]
    refine le_trans ?_ h1
    rw [show (1e-31 : ℝ) = (1e31 : ℝ)⁻¹ by norm_num]
    exact inv_anti₀ (by norm_num) he
  · rw [Real.log_le_iff_le_exp h0]
    exact h2.trans he

set_option maxHeartbeats 1000000 in
theorem hertzMindlin_near (hfl : RoundsToNearest fl) (hp : PowerAccurate pw) {K G ρ φ P C f : ℝ} (hK : 0 < K) (hG : 0 < G)
    (hρ : 0 < ρ) (hφ : φ < 1) (hC : 0 < C) (hf : 0 ≤ f) (h : Sane G φ P C) :
    Near 78 (hmK K G φ P C) (Double.hertzMindlin fl pw (K, G, ρ) φ P f C).1 ∧
      Near 78 (hmG K G φ P C f) (Double.hertzMindlin fl pw (K, G, ρ) φ P f C).2.1 ∧
      Near 2 (ρ * (1 - φ)) (Double.hertzMindlin fl pw (K, G, ρ) φ P f C).2.2 := by
  obtain ⟨hP, hx0, hx1, hx2⟩ := hmA_base hK hG hφ hC h
  have hν := nuR_lt K G hK hG
  have h1φ : 0 < 1 - φ := by linarith
  have hπ := Real.pi_pos
  obtain ⟨n1, n2⟩ := one_sub_poisson_near hfl hK hG
  set v := Double.poisson fl K G with hv
  set w1 := fl (1 - v)
  set w2 := fl (2 - v)
  have p1 : 0 < 1 - nuR K G := by linarith [hν.1]
  have p2 : 0 < 2 - nuR K G := by linarith [hν.1]
  have nφ : Near 1 (1 - φ) (fl (1 - φ)) := Near.fl0 hfl h1φ.le
  set ψ := fl (1 - φ)
  have nπ : Near 1 Real.pi (fl Real.pi) := Near.fl0 hfl hπ.le
  set π' := fl Real.pi
  -- the cube of the contact radius
  have m1 : Near 2 (3 * Real.pi) (fl (3 * π')) := ((Near.refl 0 (by norm_num : (0:ℝ) ≤ 3)).mul nπ).fl hfl
  have m2 : Near 19 (3 * Real.pi * (1 - nuR K G) * P) (fl (fl (fl (3 * π') * w1) * P)) :=
    ((((m1.mul n1).fl hfl).mul (Near.refl 0 hP.le)).fl hfl)
  have m3 : Near 4 (2 * C * (1 - φ) * G) (fl (fl (fl (2 * C) * ψ) * G)) :=
    ((((Near.fl0 hfl (by positivity : 0 ≤ 2 * C)).mul nφ).fl hfl).mul (Near.refl 0 hG.le)).fl hfl
  have m4 := (m2.div m3 (by positivity)).fl hfl
  set x := 3 * Real.pi * (1 - nuR K G) * P / (2 * C * (1 - φ) * G) with hx
  set x' := fl (fl (fl (fl (3 * π') * w1) * P) / fl (fl (fl (2 * C) * ψ) * G))
  have hx0' : 0 < x' := m4.pos hx0
  obtain ⟨b1, b2⟩ := m4.le_two (by norm_num)
  have hlog : |Real.log x'| ≤ 72 := log_bound (by norm_num at *; linarith) (by norm_num at *; linarith)
  have m5 : Near 51 (hmA K G φ P C) (pw x' (fl (1 / 3))) := by
    have q1 := m4.rpow hx0 (p := 1 / 3) (by norm_num) (by norm_num)
    have q2 := third_near hfl hx0' hlog
    have q3 := Near.of_accurate (Real.rpow_nonneg hx0'.le _) (hp x' (fl (1 / 3)) hx0')
    exact (q1.trans q2).trans q3
  set a := hmA K G φ P C with ha
  set a' := pw x' (fl (1 / 3))
  have ha0 : 0 ≤ a := m5.1
  have s1 : Near 69 (4 * a * G / (1 - nuR K G)) (fl (fl (fl (4 * a') * G) / w1)) :=
    (((((((Near.refl 0 (by norm_num : (0:ℝ) ≤ 4)).mul m5).fl hfl).mul (Near.refl 0 hG.le)).fl hfl).div n1 p1).fl hfl)
  have s2 : Near 69 (8 * a * G / (2 - nuR K G)) (fl (fl (fl (8 * a') * G) / w2)) :=
    (((((((Near.refl 0 (by norm_num : (0:ℝ) ≤ 8)).mul m5).fl hfl).mul (Near.refl 0 hG.le)).fl hfl).div n2 p2).fl hfl)
  have nc : Near 2 (C * (1 - φ)) (fl (C * ψ)) := ((Near.refl 0 hC.le).mul nφ).fl hfl
  have k12 : Near 2 (12 * Real.pi) (fl (12 * π')) := ((Near.refl 0 (by norm_num : (0:ℝ) ≤ 12)).mul nπ).fl hfl
  have k20 : Near 2 (20 * Real.pi) (fl (20 * π')) := ((Near.refl 0 (by norm_num : (0:ℝ) ≤ 20)).mul nπ).fl hfl
  refine ⟨?_, ?_, ?_⟩
  · exact (((((nc.div k12 (by positivity)).fl hfl).mul s1).fl hfl)).mono (by norm_num)
  · have t1 : Near 71 (1.5 * (8 * a * G / (2 - nuR K G)) * f) (fl (fl (1.5 * fl (fl (fl (8 * a') * G) / w2)) * f)) :=
      ((((Near.refl 0 (by norm_num : (0:ℝ) ≤ 1.5)).mul s2).fl hfl).mul (Near.refl 0 hf)).fl hfl
    have t2 := (s1.add t1).fl hfl
    exact (((((nc.div k20 (by positivity)).fl hfl).mul t2).fl hfl)).mono (by norm_num)
  · exact (((Near.refl 0 hρ.le).mul nφ).fl hfl).mono (by norm_num)

/-- **C173, Hertz-Mindlin.** In double arithmetic the moduli of a grain pack are accurate to 78 units of `2⁻⁵²`, its density
to 2, for all positive moduli of the grains, all porosities below 1 and all sensible pressures. -/
theorem C173_hertz_mindlin (hfl : RoundsToNearest fl) (hp : PowerAccurate pw) (a : Published.Rock)
    (ha : 0 < a.K ∧ 0 < a.G ∧ 0 < a.ρ) {φ P C f : ℝ} (hφ : φ < 1) (hC : 0 < C) (hf : 0 ≤ f) (h : Sensible a.G φ P C) :
    Accurate 78 (Published.hertzMindlin a φ P C f).K (Double.hertzMindlin fl pw (tri a) φ P f C).1 ∧
      Accurate 78 (Published.hertzMindlin a φ P C f).G (Double.hertzMindlin fl pw (tri a) φ P f C).2.1 ∧
      Accurate 2 (Published.hertzMindlin a φ P C f).ρ (Double.hertzMindlin fl pw (tri a) φ P f C).2.2 := by
  have h := h.sane ha.2.1 hφ hC
  have hP := (hmA_base ha.1 ha.2.1 hφ hC h).1
  obtain ⟨e1, e2⟩ := hm_published ha.1 ha.2.1 hφ hP.le hC f
  obtain ⟨n1, n2, n3⟩ := hertzMindlin_near hfl hp ha.1 ha.2.1 ha.2.2 hφ hC hf h
  rw [e1] at n1
  rw [e2] at n2
  exact ⟨by exact_mod_cast n1.accurate (by norm_num), by exact_mod_cast n2.accurate (by norm_num),
    by exact_mod_cast n3.accurate (by norm_num)⟩

end OPE
