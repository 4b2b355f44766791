import Verif.Props.Shipped5

/-!
# Lower bounds of the cemented sand of example 3
-/

namespace OPE.Shipped

open Parse

variable {n : ℕ}

theorem one_sub_poisson_le {K G : ℝ} (hK : 0 < K) (hG : 0 < G) : 1 - Published.poisson K G ≤ 2 := by
  unfold Published.poisson
  have : -1 ≤ (3 * K - 2 * G) / (2 * (3 * K + G)) := by rw [le_div_iff₀ (by positivity)]; linarith
  linarith

theorem cube_root_ge {x : ℝ} (h : 1e21 ≤ x) : 1e7 ≤ x ^ (1 / 3 : ℝ) := by
  have e : (1e7 : ℝ) = ((1e7 : ℝ) ^ (3 : ℕ)) ^ (1 / 3 : ℝ) := by
    rw [← Real.rpow_natCast, ← Real.rpow_mul (by norm_num)]; norm_num
  rw [e]
  exact Real.rpow_le_rpow (by norm_num) (le_trans (by norm_num) h) (by norm_num)

/-- A pack of grains under 20 MPa has moduli of at least 2 MPa. -/
theorem hertzMindlin_stiff {m : Published.Rock} {f : ℝ} (hK : 0 < m.K) (hG : 4.5e9 ≤ m.G) (hf : 0 ≤ f) :
    1e7 ≤ (Published.hertzMindlin m 0.4 20e6 (Published.murphy 0.4) f).K ∧
      2e6 ≤ (Published.hertzMindlin m 0.4 20e6 (Published.murphy 0.4) f).G := by
  have hpi := Real.pi_gt_three
  have hpi4 := Real.pi_lt_d2
  have hG0 : 0 < m.G := by linarith
  have q1 := half_le_one_sub_poisson hK hG0
  have q2 := one_sub_poisson_le hK hG0
  have hN : (6 : ℝ) ≤ Published.murphy 0.4 := by norm_num [Published.murphy]
  have core : ∀ a b : ℝ, 1 ≤ a → 0 < b → b ≤ 18 →
      1e21 ≤ a * Published.murphy 0.4 ^ 2 * (1 - 0.4) ^ 2 * m.G ^ 2 * 20e6 / (b * Real.pi ^ 2 * (1 - Published.poisson m.K m.G) ^ 2) := by
    intro a b ha hb hb'
    generalize 1 - Published.poisson m.K m.G = q at q1 q2
    generalize Published.murphy 0.4 = N at hN
    rw [le_div_iff₀ (by positivity)]
    have t1 : b * Real.pi ^ 2 * q ^ 2 ≤ 18 * 3.15 ^ 2 * 2 ^ 2 := by gcongr
    have t2 : (1 : ℝ) * 6 ^ 2 * (1 - 0.4) ^ 2 * 4.5e9 ^ 2 * 20e6 ≤ a * N ^ 2 * (1 - 0.4) ^ 2 * m.G ^ 2 * 20e6 := by gcongr
    refine (mul_le_mul_of_nonneg_left t1 (by norm_num)).trans (le_trans ?_ t2)
    norm_num
  constructor
  · have := core 1 18 le_rfl (by norm_num) le_rfl
    rw [one_mul] at this
    exact cube_root_ge this
  · have := cube_root_ge (core 3 2 (by norm_num) (by norm_num) (by norm_num))
    show 2e6 ≤ (2 + 3 * f - Published.poisson m.K m.G * (1 + 3 * f)) / (5 * (2 - Published.poisson m.K m.G)) * _
    have hd : 0 < 5 * (2 - Published.poisson m.K m.G) := by linarith
    have : (1 / 5 : ℝ) ≤ (2 + 3 * f - Published.poisson m.K m.G * (1 + 3 * f)) / (5 * (2 - Published.poisson m.K m.G)) := by
      rw [le_div_iff₀ hd]; nlinarith
    calc (2e6 : ℝ) = 1 / 5 * 1e7 := by norm_num
      _ ≤ _ := by gcongr

/-- Ten per cent of cement between the grains: at least 60 MPa. -/
theorem contactCement_stiff {m : Published.Rock} {f : ℝ} (hK : 11e9 ≤ m.K ∧ m.K ≤ 36e9) (hG : 4.5e9 ≤ m.G ∧ m.G ≤ 44e9)
    (hν : 2 * m.G ≤ 3 * m.K) (hf : 0 ≤ f) :
    1e8 ≤ (Published.contactCement cement m (0.4 - 0.1) 0.4 f 9).K ∧
      6e7 ≤ (Published.contactCement cement m (0.4 - 0.1) 0.4 f 9).G := by
  have hpi := Real.pi_gt_three
  have hpi4 := Real.pi_lt_d2
  have hn : Published.poisson 36.8e9 44e9 = 28 / 386 := by norm_num [Published.poisson]
  have hG0 : 0 < m.G := by linarith [hG.1]
  have hK0 : 0 < m.K := by linarith [hK.1]
  have hα : Published.cementRadius 0.4 (0.4 - 0.1) = 1 / 3 := by
    unfold Published.cementRadius
    rw [show (2 * (0.4 - (0.4 - 0.1)) / (3 * (1 - 0.4)) : ℝ) = (1 / 3) ^ (2 : ℕ) by norm_num, ← Real.rpow_natCast,
      ← Real.rpow_mul (by norm_num)]
    norm_num
  have hα' : Published.radiusRatio 0.4 (0.4 - 0.1) = 1 / 3 := by
    unfold Published.radiusRatio; rw [hα]; norm_num
  have bulk : 1e8 ≤ Published.cementedBulk m.K m.G 36.8e9 44e9 0.4 (1 / 3) 9 := by
    simp only [Published.cementedBulk, Published.cementNormal, hn]
    have q1 := half_le_one_sub_poisson hK0 hG0
    have q2 := one_sub_poisson_le hK0 hG0
    generalize 1 - Published.poisson m.K m.G = q at q1 q2
    set Λ : ℝ := 2 * 44e9 / (Real.pi * m.G) * (q * (1 - 28 / 386) / (1 - 2 * (28 / 386))) with hΛ
    have h0 : 0 < Λ := by rw [hΛ]; norm_num; positivity
    have h1 : 0.2 ≤ Λ := by
      rw [hΛ, div_mul_eq_mul_div, le_div_iff₀ (by positivity)]
      have : Real.pi * m.G ≤ 3.15 * 44e9 := by
        calc Real.pi * m.G ≤ 3.15 * m.G := by gcongr
          _ ≤ _ := by linarith [hG.2]
      norm_num at this ⊢
      linarith
    have h2 : Λ ≤ 15 := by
      rw [hΛ, div_mul_eq_mul_div, div_le_iff₀ (by positivity)]
      have : 3 * 4.5e9 ≤ Real.pi * m.G := by nlinarith [hG.1]
      norm_num at this ⊢
      linarith
    have e1 : Λ ^ (-1.3646 : ℝ) ≤ 5 * Λ ^ (-0.89008 : ℝ) := by
      rw [show (-1.3646 : ℝ) = -0.47452 + -0.89008 by norm_num, Real.rpow_add h0]
      refine mul_le_mul_of_nonneg_right ?_ (Real.rpow_nonneg h0.le _)
      refine (Real.rpow_le_rpow_of_nonpos (by norm_num) h1 (by norm_num)).trans ?_
      rw [show (0.2 : ℝ) = 5⁻¹ by norm_num, Real.inv_rpow (by norm_num), ← Real.rpow_neg (by norm_num)]
      refine (Real.rpow_le_rpow_of_exponent_le (by norm_num) (show (- -0.47452 : ℝ) ≤ 1 by norm_num)).trans ?_
      rw [Real.rpow_one]
    have e2 : 1 / 15 ≤ Λ ^ (-0.89008 : ℝ) := by
      refine le_trans ?_ (Real.rpow_le_rpow_of_nonpos h0 h2 (by norm_num))
      rw [Real.rpow_neg (by norm_num), one_div]
      refine inv_anti₀ (by positivity) ?_
      have := Real.rpow_le_rpow_of_exponent_le (x := 15) (by norm_num) (show (0.89008 : ℝ) ≤ 1 by norm_num)
      simpa using this
    have e3 : 0 ≤ Λ ^ (-1.9864 : ℝ) := Real.rpow_nonneg h0.le _
    generalize Λ ^ (-1.3646 : ℝ) = A at *
    generalize Λ ^ (-0.89008 : ℝ) = B at *
    generalize Λ ^ (-1.9864 : ℝ) = C at *
    norm_num
    linarith
  have tang : 0 < Published.cementTangential (Published.poisson m.K m.G) m.G 44e9 (1 / 3) := by
    rw [← stR_published]
    refine stR_pos ?_ ?_ (by norm_num) hG0 (cement_range hG) (by norm_num) (by norm_num)
    · unfold Published.poisson; exact div_nonneg (by linarith) (by positivity)
    · unfold Published.poisson; rw [div_lt_iff₀ (by positivity)]; linarith
  simp only [Published.contactCement, cement, hα']
  refine ⟨bulk, ?_⟩
  simp only [Published.cementedShear]
  have : 0 ≤ f * (3 / 20 * 9 * (1 - 0.4) * 44e9 * Published.cementTangential (Published.poisson m.K m.G) m.G 44e9 (1 / 3)) := by
    refine mul_nonneg hf (mul_nonneg (by norm_num) tang.le)
  linarith

theorem weight_range (x lo up : ℝ) : 0 ≤ Published.weight x lo up ∧ Published.weight x lo up ≤ 1 := by
  unfold Published.weight
  split
  · norm_num
  · exact ⟨le_min zero_le_one (le_max_left _ _), min_le_left _ _⟩

theorem between {a b w lo hi : ℝ} (hw : 0 ≤ w ∧ w ≤ 1) (ha : lo ≤ a ∧ a ≤ hi) (hb : lo ≤ b ∧ b ≤ hi) :
    lo ≤ a + w * (b - a) ∧ a + w * (b - a) ≤ hi := by
  obtain ⟨w0, w1⟩ := hw
  obtain ⟨a0, a1⟩ := ha
  obtain ⟨b0, b1⟩ := hb
  constructor <;> nlinarith

theorem lowerBound_ge {a b : Published.Rock} {f klo glo : ℝ} (h0 : 0 ≤ f) (h1 : f ≤ 1) (hk : 0 < klo)
    (hg : 0 < glo) (ha : klo ≤ a.K) (hb : klo ≤ b.K) (ha' : glo ≤ a.G) (hb' : glo ≤ b.G) :
    klo ≤ (Published.lowerBound a b f).K ∧ (Published.lowerBound a b f).K ≤ max a.K b.K ∧
      glo ≤ (Published.lowerBound a b f).G := by
  have := lowerBound_bounds (khi := max a.K b.K) (ghi := max a.G b.G) h0 h1 hk hg ⟨ha, le_max_left _ _⟩ ⟨hb, le_max_right _ _⟩
    ⟨ha', le_max_left _ _⟩ ⟨hb', le_max_right _ _⟩
  exact ⟨this.1.1, this.1.2, this.2.1⟩

theorem hertzMindlin_nonneg {m : Published.Rock} {φ P C f : ℝ} (hK : 0 < m.K) (hG : 0 < m.G) (hP : 0 < P) (hφ : φ < 1)
    (hC : 0 < C) (hf : 0 ≤ f) :
    0 < (Published.hertzMindlin m φ P C f).K ∧ 0 < (Published.hertzMindlin m φ P C f).G := by
  have q1 := half_le_one_sub_poisson hK hG
  have : 0 < 1 - φ := by linarith
  have : 0 < 1 - Published.poisson m.K m.G := by linarith
  refine ⟨Real.rpow_pos_of_pos (by positivity) _, mul_pos (div_pos ?_ (by linarith)) (Real.rpow_pos_of_pos (by positivity) _)⟩
  nlinarith

/-- The cemented sand of example 3 at 20 MPa is not soft. -/
theorem cementedSand_stiff {m : Published.Rock} {φ : ℝ} (hK : 11e9 ≤ m.K ∧ m.K ≤ 36e9) (hG : 4.5e9 ≤ m.G ∧ m.G ≤ 44e9)
    (hν : 2 * m.G ≤ 3 * m.K) (hρ : 0 < m.ρ) (hφ : 0 < φ ∧ φ ≤ 0.3) :
    1e7 ≤ (cementedSand m φ 20e6 1 (Published.murphy 0.4)).K ∧ 2e6 ≤ (cementedSand m φ 20e6 1 (Published.murphy 0.4)).G ∧
      100 ≤ (cementedSand m φ 20e6 1 (Published.murphy 0.4)).ρ := by
  have hd := dense_bounds hK hG
  have f1 : 0 ≤ 1 - φ / 0.4 ∧ 1 - φ / 0.4 ≤ 1 := by
    constructor
    · rw [sub_nonneg, div_le_one (by norm_num)]; linarith [hφ.2]
    · have : 0 ≤ φ / 0.4 := div_nonneg hφ.1.le (by norm_num)
      linarith
  have f2 : 0 ≤ 1 - φ / (0.4 - 0.1) ∧ 1 - φ / (0.4 - 0.1) ≤ 1 := by
    constructor
    · rw [sub_nonneg, div_le_one (by norm_num)]; linarith [hφ.2]
    · have : 0 ≤ φ / (0.4 - 0.1) := div_nonneg hφ.1.le (by norm_num)
      linarith
  have mix : (0.4 - (0.4 - 0.1) : ℝ) = 0.1 := by norm_num
  have hm := hertzMindlin_stiff (m := Published.lowerBound cement m 0.1) (f := 1) (by linarith [hd.1]) hd.2.1 (by norm_num)
  have cc := contactCement_stiff (f := 1) hK hG hν (by norm_num)
  have loose := lowerBound_ge (a := Published.lowerBound cement m 0.1) (klo := 1e7) (glo := 2e6) f1.1 f1.2 (by norm_num) (by norm_num) (by linarith [hd.1]) hm.1 (by linarith [hd.2.1]) hm.2
  have upper := lowerBound_ge (a := Published.lowerBound cement m 0.1) (klo := 1e7) (glo := 2e6) f2.1 f2.2 (by norm_num) (by norm_num) (by linarith [hd.1]) (by linarith [cc.1])
    (by linarith [hd.2.1]) (by linarith [cc.2] : (2e6 : ℝ) ≤ (Published.contactCement cement m (0.4 - 0.1) 0.4 1 9).G)
  simp only [cementedSand, Published.patchyCement, Published.friableSand, Published.constantCement, mix]
  refine ⟨(between (weight_range _ _ _) ⟨loose.1, le_max_left _ _⟩ ⟨upper.1, le_max_right _ _⟩).1,
    (between (weight_range _ _ _) ⟨loose.2.2, le_max_left _ _⟩ ⟨upper.2.2, le_max_right _ _⟩).1, ?_⟩
  simp only [cement]
  have : 0 ≤ (1 - φ - (0.4 - (0.4 - 0.04))) * m.ρ := mul_nonneg (by linarith [hφ.2]) hρ.le
  norm_num at this ⊢
  linarith

/-- Whatever the pressure, the cemented sand of example 3 is softer than quartz. -/
theorem cementedSand_soft {m : Published.Rock} {φ p : ℝ} (hK : 11e9 ≤ m.K ∧ m.K ≤ 36e9) (hG : 4.5e9 ≤ m.G ∧ m.G ≤ 44e9)
    (hν : 2 * m.G ≤ 3 * m.K) (hφ : 0 < φ ∧ φ ≤ 0.3) (hp : 0 < p ∧ p ≤ 1e8) :
    (cementedSand m φ p 1 (Published.murphy 0.4)).K ≤ 36.8e9 := by
  have hd := dense_bounds hK hG
  have hd' := (lowerBound_bounds (a := cement) (b := m) (f := 0.1) (klo := 11e9) (khi := 36.8e9) (glo := 4.5e9) (ghi := 44e9)
    (by norm_num) (by norm_num) (by norm_num) (by norm_num)
    (by norm_num [cement]) ⟨hK.1, by linarith [hK.2]⟩ (by norm_num [cement]) hG).1.2
  have f1 : 0 ≤ 1 - φ / 0.4 ∧ 1 - φ / 0.4 ≤ 1 := by
    constructor
    · rw [sub_nonneg, div_le_one (by norm_num)]; linarith [hφ.2]
    · have : 0 ≤ φ / 0.4 := div_nonneg hφ.1.le (by norm_num)
      linarith
  have f2 : 0 ≤ 1 - φ / (0.4 - 0.1) ∧ 1 - φ / (0.4 - 0.1) ≤ 1 := by
    constructor
    · rw [sub_nonneg, div_le_one (by norm_num)]; linarith [hφ.2]
    · have : 0 ≤ φ / (0.4 - 0.1) := div_nonneg hφ.1.le (by norm_num)
      linarith
  have mix : (0.4 - (0.4 - 0.1) : ℝ) = 0.1 := by norm_num
  set X := Published.lowerBound cement m 0.1 with hX
  have hN : (0 : ℝ) < Published.murphy 0.4 ∧ Published.murphy 0.4 ≤ 12 := by norm_num [Published.murphy]
  have pos := hertzMindlin_nonneg (m := X) (φ := 0.4) (P := p) (C := Published.murphy 0.4) (f := 1) (by linarith [hd.1])
    (by linarith [hd.2.1]) hp.1 (by norm_num) hN.1 (by norm_num)
  have soft := hertzMindlin_softer (m := X) (φ := 0.4) (P := p) (C := Published.murphy 0.4) (f := 1) (by linarith [hd.1])
    ⟨by linarith [hd.2.1], hd.2.2⟩ (by norm_num) ⟨hp.1.le, hp.2⟩ hN
  have cc := contactCement_stiff (f := 1) hK hG hν (by norm_num)
  have cs := contactCement_soft (f := 1) hK hG
  have loose := lowerBound_ge (a := X) (b := Published.hertzMindlin X 0.4 p (Published.murphy 0.4) 1)
    (klo := min X.K (Published.hertzMindlin X 0.4 p (Published.murphy 0.4) 1).K)
    (glo := min X.G (Published.hertzMindlin X 0.4 p (Published.murphy 0.4) 1).G) f1.1 f1.2
    (lt_min (by linarith [hd.1]) pos.1) (lt_min (by linarith [hd.2.1]) pos.2) (min_le_left _ _) (min_le_right _ _)
    (min_le_left _ _) (min_le_right _ _)
  have upper := lowerBound_ge (klo := 1e7) (glo := 2e6) f2.1 f2.2 (by norm_num) (by norm_num) (by linarith [hd.1]) (by linarith [cc.1])
    (by linarith [hd.2.1]) (by linarith [cc.2] : (2e6 : ℝ) ≤ (Published.contactCement cement m (0.4 - 0.1) 0.4 1 9).G) (a := X)
  simp only [cementedSand, Published.patchyCement, Published.friableSand, Published.constantCement, mix, ← hX]
  refine (between (lo := min X.K (min (Published.hertzMindlin X 0.4 p (Published.murphy 0.4) 1).K 1e7)) (weight_range _ _ _) ⟨?_, ?_⟩ ⟨?_, ?_⟩).2
  · exact le_trans (le_min (min_le_left _ _) ((min_le_right _ _).trans (min_le_left _ _))) loose.1
  · exact loose.2.1.trans (max_le hd' (soft.le.trans hd'))
  · exact le_trans ((min_le_right _ _).trans (min_le_right _ _)) upper.1
  · refine upper.2.1.trans (max_le hd' (cs.le.trans ?_)); norm_num

end OPE.Shipped
