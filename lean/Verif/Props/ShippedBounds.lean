import Verif.Props.Shipped2

/-!
# C112: bounds on the rocks of the shipped examples
-/

namespace OPE.Shipped

open Parse

variable {n : ℕ}

/-- Sand, shale and cement of the examples. -/
noncomputable def sand : Published.Rock := ⟨36e9, 44e9, 2650⟩
noncomputable def shale : Published.Rock := ⟨11e9, 4.5e9, 1⟩
noncomputable def cement : Published.Rock := ⟨36.8e9, 44e9, 2650⟩

/-- Sand with the given fraction, shale otherwise. -/
noncomputable def sandShale (f : ℝ) : Published.Rock := Published.lowerBound sand shale f

theorem hs_bounds {a b f z lo hi : ℝ} (h0 : 0 ≤ f) (h1 : f ≤ 1) (hz : 0 < lo + z) (ha : lo ≤ a ∧ a ≤ hi)
    (hb : lo ≤ b ∧ b ≤ hi) : lo ≤ Published.hashinShtrikman a b f z ∧ Published.hashinShtrikman a b f z ≤ hi := by
  have ha' : 0 < a + z := by linarith [ha.1]
  have hb' : 0 < b + z := by linarith [hb.1]
  have hh' : 0 < hi + z := by linarith [ha.1, ha.2]
  have e1 : f / (a + z) + (1 - f) / (b + z) ≤ 1 / (lo + z) := by
    have t1 : f / (a + z) ≤ f / (lo + z) := div_le_div_of_nonneg_left h0 hz (by linarith [ha.1])
    have t2 : (1 - f) / (b + z) ≤ (1 - f) / (lo + z) := div_le_div_of_nonneg_left (by linarith) hz (by linarith [hb.1])
    calc _ ≤ f / (lo + z) + (1 - f) / (lo + z) := add_le_add t1 t2
      _ = _ := by rw [← add_div]; ring_nf
  have e2 : 1 / (hi + z) ≤ f / (a + z) + (1 - f) / (b + z) := by
    have t1 : f / (hi + z) ≤ f / (a + z) := div_le_div_of_nonneg_left h0 ha' (by linarith [ha.2])
    have t2 : (1 - f) / (hi + z) ≤ (1 - f) / (b + z) := div_le_div_of_nonneg_left (by linarith) hb' (by linarith [hb.2])
    calc _ = f / (hi + z) + (1 - f) / (hi + z) := by rw [← add_div]; ring_nf
      _ ≤ _ := add_le_add t1 t2
  have p : 0 < f / (a + z) + (1 - f) / (b + z) := lt_of_lt_of_le (by positivity) e2
  unfold Published.hashinShtrikman
  constructor
  · have := one_div_le_one_div_of_le p e1
    rw [one_div_one_div, one_div] at this; linarith
  · have := one_div_le_one_div_of_le (by positivity) e2
    rw [one_div_one_div, one_div] at this; linarith

theorem zeta_pos {K G : ℝ} (hK : 0 < K) (hG : 0 < G) : 0 < Published.zeta K G := by
  unfold Published.zeta; positivity

theorem lowerBound_bounds {a b : Published.Rock} {f klo khi glo ghi : ℝ} (h0 : 0 ≤ f) (h1 : f ≤ 1) (hk : 0 < klo)
    (hg : 0 < glo) (ha : klo ≤ a.K ∧ a.K ≤ khi) (hb : klo ≤ b.K ∧ b.K ≤ khi) (ha' : glo ≤ a.G ∧ a.G ≤ ghi)
    (hb' : glo ≤ b.G ∧ b.G ≤ ghi) :
    (klo ≤ (Published.lowerBound a b f).K ∧ (Published.lowerBound a b f).K ≤ khi) ∧
      glo ≤ (Published.lowerBound a b f).G ∧ (Published.lowerBound a b f).G ≤ ghi := by
  have hmG : 0 < min a.G b.G := lt_min (by linarith [ha'.1]) (by linarith [hb'.1])
  have hmK : 0 < min a.K b.K := lt_min (by linarith [ha.1]) (by linarith [hb.1])
  exact ⟨hs_bounds h0 h1 (by positivity) ha hb, hs_bounds h0 h1 (by have := zeta_pos hmK hmG; positivity) ha' hb'⟩

theorem sandShale_bounds {f : ℝ} (h : 0 ≤ f ∧ f ≤ 1) :
    (11e9 ≤ (sandShale f).K ∧ (sandShale f).K ≤ 36e9) ∧ 4.5e9 ≤ (sandShale f).G ∧ (sandShale f).G ≤ 44e9 :=
  lowerBound_bounds h.1 h.2 (by norm_num) (by norm_num) (by norm_num [sand]) (by norm_num [shale])
    (by norm_num [sand]) (by norm_num [shale])

/-- The Poisson ratio of the mixture is not negative. -/
theorem sandShale_poisson {f : ℝ} (h : 0 ≤ f ∧ f ≤ 1) : 2 * (sandShale f).G ≤ 3 * (sandShale f).K := by
  obtain ⟨h0, h1⟩ := h
  simp only [sandShale, sand, shale, Published.lowerBound, Published.hashinShtrikman, Published.zeta]
  rw [min_eq_right (by norm_num : (4.5e9 : ℝ) ≤ 44e9), min_eq_right (by norm_num : (11e9 : ℝ) ≤ 36e9)]
  norm_num
  have e1 : f / 42000000000 + (1 - f) / 17000000000 = (42 - 25 * f) / 714000000000 := by ring
  have e2 : f / 49062500000 + (1 - f) / 9562500000 = (98125 - 79000 * f) / 938320312500000 := by ring
  rw [e1, e2]
  rw [inv_div, inv_div]
  have p1 : 0 < 42 - 25 * f := by linarith
  have p2 : 0 < 98125 - 79000 * f := by linarith
  have e3 : 2 * (938320312500000 / (98125 - 79000 * f)) ≤ 3 * (714000000000 / (42 - 25 * f)) - 7875000000 := by
    rw [mul_div_assoc', mul_div_assoc', div_le_iff₀ p2, sub_mul, div_mul_eq_mul_div, le_sub_iff_add_le, le_div_iff₀ p1]
    nlinarith [mul_nonneg h0 (sub_nonneg.mpr h1)]
  linarith

theorem half_le_one_sub_poisson {K G : ℝ} (hK : 0 < K) (hG : 0 < G) : 1 / 2 ≤ 1 - Published.poisson K G := by
  unfold Published.poisson
  rw [le_sub_iff_add_le, ← le_sub_iff_add_le', div_le_iff₀ (by positivity)]
  linarith

/-- A grain pack under up to 100 MPa is softer than its grains. -/
theorem hertzMindlin_softer {m : Published.Rock} {φ P C f : ℝ} (hK : 11e9 ≤ m.K) (hG : 0 < m.G ∧ m.G ≤ 44e9)
    (hφ : 0 ≤ φ ∧ φ < 1) (hP : 0 ≤ P ∧ P ≤ 1e8) (hC : 0 < C ∧ C ≤ 12) : (Published.hertzMindlin m φ P C f).K < m.K := by
  have hpi := Real.pi_gt_three
  have hν := half_le_one_sub_poisson (by linarith : 0 < m.K) hG.1
  show (C ^ 2 * (1 - φ) ^ 2 * m.G ^ 2 * P / (18 * Real.pi ^ 2 * (1 - Published.poisson m.K m.G) ^ 2)) ^ (1 / 3 : ℝ) < m.K
  generalize 1 - Published.poisson m.K m.G = q at hν
  have d : (40 : ℝ) ≤ 18 * Real.pi ^ 2 * q ^ 2 := by
    have t1 : (9 : ℝ) ≤ Real.pi ^ 2 := by nlinarith
    have t2 : (1 / 4 : ℝ) ≤ q ^ 2 := by nlinarith
    calc (40 : ℝ) ≤ 18 * 9 * (1 / 4) := by norm_num
      _ ≤ _ := by gcongr
  have num0 : 0 ≤ C ^ 2 * (1 - φ) ^ 2 * m.G ^ 2 * P := by have := hP.1; positivity
  have num : C ^ 2 * (1 - φ) ^ 2 * m.G ^ 2 * P ≤ 12 ^ 2 * 1 ^ 2 * 44e9 ^ 2 * 1e8 := by
    have := hP.1
    have := hC.1
    have : 0 ≤ 1 - φ := by linarith [hφ.2]
    have : 1 - φ ≤ 1 := by linarith [hφ.1]
    gcongr
    · exact hC.2
    · exact hG.1.le
    · exact hG.2
    · exact hP.2
  have quot : C ^ 2 * (1 - φ) ^ 2 * m.G ^ 2 * P / (18 * Real.pi ^ 2 * q ^ 2) < m.K ^ (3 : ℕ) := by
    have t : C ^ 2 * (1 - φ) ^ 2 * m.G ^ 2 * P / (18 * Real.pi ^ 2 * q ^ 2) ≤ 12 ^ 2 * 1 ^ 2 * 44e9 ^ 2 * 1e8 / 40 :=
      div_le_div₀ (by norm_num) num (by norm_num) d
    have k : (11e9 : ℝ) ^ 3 ≤ m.K ^ 3 := by gcongr
    refine lt_of_le_of_lt t (lt_of_lt_of_le ?_ k)
    norm_num
  have : m.K = (m.K ^ (3 : ℕ)) ^ (1 / 3 : ℝ) := by
    rw [← Real.rpow_natCast, ← Real.rpow_mul (by linarith)]; norm_num
  rw [this]
  exact Real.rpow_lt_rpow (div_nonneg num0 (by linarith)) quot (by norm_num)

/-- The densest packing of cement and grains. -/
theorem dense_bounds {m : Published.Rock} (hK : 11e9 ≤ m.K ∧ m.K ≤ 36e9) (hG : 4.5e9 ≤ m.G ∧ m.G ≤ 44e9) :
    11.8e9 ≤ (Published.lowerBound cement m 0.1).K ∧ 4.5e9 ≤ (Published.lowerBound cement m 0.1).G ∧
      (Published.lowerBound cement m 0.1).G ≤ 44e9 := by
  refine ⟨?_, (lowerBound_bounds (klo := 11e9) (khi := 36.8e9) (by norm_num) (by norm_num) (by norm_num) (by norm_num)
    (by norm_num [cement]) ⟨hK.1, by linarith [hK.2]⟩ (by norm_num [cement]) hG).2⟩
  show 11.8e9 ≤ Published.hashinShtrikman 36.8e9 m.K 0.1 (4 / 3 * min 44e9 m.G)
  have hz : 0 < 4 / 3 * min 44e9 m.G := mul_pos (by norm_num) (lt_min (by norm_num) (by linarith [hG.1]))
  generalize 4 / 3 * min 44e9 m.G = z at hz
  unfold Published.hashinShtrikman
  have hm : 0 < m.K + z := by linarith [hK.1]
  have e : 0.1 / (36.8e9 + z) + (1 - 0.1) / (m.K + z) ≤ 1 / (11.8e9 + z) := by
    have t : (1 - 0.1) / (m.K + z) ≤ (1 - 0.1) / (11e9 + z) :=
      div_le_div_of_nonneg_left (by norm_num) (by positivity) (by linarith [hK.1])
    refine (add_le_add_right t _).trans ?_
    rw [div_add_div _ _ (by positivity) (by positivity), div_le_div_iff₀ (by positivity) (by positivity)]
    nlinarith
  have p : 0 < 0.1 / (36.8e9 + z) + (1 - 0.1) / (m.K + z) :=
    add_pos (by positivity) (div_pos (by norm_num) hm)
  have := one_div_le_one_div_of_le p e
  rw [one_div_one_div, one_div] at this; linarith

/-- Ten per cent of the cement between grains of sand, shale or a mixture: softer than 11.8 GPa. -/
theorem contactCement_soft {m : Published.Rock} {f : ℝ} (hK : 11e9 ≤ m.K ∧ m.K ≤ 36e9) (hG : 4.5e9 ≤ m.G ∧ m.G ≤ 44e9) :
    (Published.contactCement cement m (0.4 - 0.1) 0.4 f 9).K < 11.8e9 := by
  have hpi := Real.pi_gt_three
  have hpi4 := Real.pi_lt_d2
  have hn : Published.poisson 36.8e9 44e9 = 28 / 386 := by norm_num [Published.poisson]
  have hα : Published.cementRadius 0.4 (0.4 - 0.1) = 1 / 3 := by
    unfold Published.cementRadius
    rw [show (2 * (0.4 - (0.4 - 0.1)) / (3 * (1 - 0.4)) : ℝ) = (1 / 3) ^ (2 : ℕ) by norm_num, ← Real.rpow_natCast,
      ← Real.rpow_mul (by norm_num)]
    norm_num
  have hα' : Published.radiusRatio 0.4 (0.4 - 0.1) = 1 / 3 := by
    unfold Published.radiusRatio; rw [hα]; norm_num
  simp only [Published.contactCement, cement, hα']
  simp only [Published.cementedBulk, Published.cementNormal, hn]
  have hG0 : 0 < m.G := by linarith [hG.1]
  set Λ : ℝ := 2 * 44e9 / (Real.pi * m.G) * ((1 - Published.poisson m.K m.G) * (1 - 28 / 386) / (1 - 2 * (28 / 386))) with hΛ
  have h1 : 1 / 2 ≤ Λ := by
    have ν : 1 - Published.poisson m.K m.G = (3 * m.K + 4 * m.G) / (2 * (3 * m.K + m.G)) := by
      unfold Published.poisson
      have : 0 < 3 * m.K + m.G := by linarith [hK.1, hG.1]
      field_simp; ring
    have ν1 : (108e9 + 4 * m.G) / (2 * (108e9 + m.G)) ≤ 1 - Published.poisson m.K m.G := by
      rw [ν, div_le_div_iff₀ (by linarith) (by linarith [hK.1])]
      nlinarith [hK.2]
    have ν2 : 1 / 55 * (m.G / 1e9) ≤ (108e9 + 4 * m.G) / (2 * (108e9 + m.G)) := by
      rw [le_div_iff₀ (by linarith)]
      nlinarith [hG.2]
    rw [hΛ, div_mul_eq_mul_div, le_div_iff₀ (by positivity)]
    have : Real.pi * m.G ≤ 3.15 * m.G := by nlinarith
    norm_num at ν1 ν2 ⊢
    nlinarith
  have p0 : 0 ≤ Λ ^ (-1.3646 : ℝ) := Real.rpow_nonneg (by linarith) _
  have bound : ∀ x : ℝ, 0 ≤ x → Λ ^ (-x) ≤ 2 ^ x := by
    intro x hx
    have : Λ ^ (-x) ≤ (1 / 2 : ℝ) ^ (-x) := Real.rpow_le_rpow_of_nonpos (by norm_num) h1 (by linarith)
    rwa [one_div, Real.inv_rpow (by norm_num), ← Real.rpow_neg (by norm_num), neg_neg] at this
  have p1 : Λ ^ (-0.89008 : ℝ) ≤ 2 := (bound 0.89008 (by norm_num)).trans (by
    have := Real.rpow_le_rpow_of_exponent_le (x := 2) (by norm_num) (show (0.89008 : ℝ) ≤ 1 by norm_num)
    simpa using this)
  have p2 : Λ ^ (-1.9864 : ℝ) ≤ 4 := (bound 1.9864 (by norm_num)).trans (by
    have := Real.rpow_le_rpow_of_exponent_le (x := 2) (by norm_num) (show (1.9864 : ℝ) ≤ 2 by norm_num)
    norm_num at this ⊢
    exact this)
  generalize Λ ^ (-1.3646 : ℝ) = A at *
  generalize Λ ^ (-0.89008 : ℝ) = B at *
  generalize Λ ^ (-1.9864 : ℝ) = C at *
  norm_num
  linarith

end OPE.Shipped
