import Verif.Props.Density

/-!
# Bounds on the pressure at the ends of the density bracket (C122), continued
-/

namespace OPE.CO2

open Classical OPE.Published.CO2

theorem rpow_unit {τ t : ℝ} (h0 : 0 < τ) (h1 : τ ≤ 1) (ht : 0 ≤ t) : 0 ≤ τ ^ t ∧ τ ^ t ≤ 1 :=
  ⟨Real.rpow_nonneg h0.le t, Real.rpow_le_one h0.le h1 ht⟩

/-- `e⁻ˣ ≤ 0.3679ⁿ` for `x ≥ n`. -/
theorem exp_neg_le {x : ℝ} (n : ℕ) (h : (n : ℝ) ≤ x) : Real.exp (-x) ≤ 0.3679 ^ n := by
  have h1 : Real.exp (-1) ≤ 0.3679 := by
    rw [Real.exp_neg, inv_le_comm₀ (Real.exp_pos 1) (by norm_num)]
    have := Real.exp_one_gt_d9
    norm_num at this ⊢
    linarith
  calc Real.exp (-x) ≤ Real.exp (n * (-1)) := Real.exp_le_exp.mpr (by linarith)
    _ = Real.exp (-1) ^ n := by rw [Real.exp_nat_mul]
    _ ≤ 0.3679 ^ n := pow_le_pow_left₀ (Real.exp_pos _).le h1 n

theorem polyD_abs {n : ℝ} {d : ℕ} {t δ τ a : ℝ} (ht : 0 ≤ t) (h0 : 0 < δ) (h1 : δ ≤ a) (hτ : 0 < τ) (hτ1 : τ ≤ 1) :
    |polyD n d t δ τ| ≤ |n| * d * a ^ d := by
  obtain ⟨e1, e2⟩ := rpow_unit hτ hτ1 ht
  unfold polyD
  rw [abs_mul, abs_mul, abs_mul, abs_of_nonneg e1, abs_of_nonneg (pow_nonneg h0.le d),
    abs_of_nonneg (Nat.cast_nonneg (α := ℝ) d)]
  have h2 : δ ^ d ≤ a ^ d := pow_le_pow_left₀ h0.le h1 d
  calc |n| * d * δ ^ d * τ ^ t ≤ |n| * d * δ ^ d * 1 := mul_le_mul_of_nonneg_left e2 (by positivity)
    _ ≤ |n| * d * a ^ d := by rw [mul_one]; exact mul_le_mul_of_nonneg_left h2 (by positivity)

theorem expoD_abs {n : ℝ} {d : ℕ} {t : ℝ} {c : ℕ} {δ τ a E : ℝ} (ht : 0 ≤ t) (h0 : 0 < δ) (h1 : δ ≤ a) (hτ : 0 < τ)
    (hτ1 : τ ≤ 1) (hE : Real.exp (-δ ^ c) ≤ E) :
    |expoD n d t c δ τ| ≤ |n| * a ^ d * E * (d + c * a ^ c) := by
  obtain ⟨e1, e2⟩ := rpow_unit hτ hτ1 ht
  have h2 : δ ^ d ≤ a ^ d := pow_le_pow_left₀ h0.le h1 d
  have h3 : δ ^ c ≤ a ^ c := pow_le_pow_left₀ h0.le h1 c
  have h4 : |(d : ℝ) - c * δ ^ c| ≤ d + c * a ^ c := by
    have hc : (0:ℝ) ≤ c := Nat.cast_nonneg c
    have hd : (0:ℝ) ≤ d := Nat.cast_nonneg d
    have := mul_le_mul_of_nonneg_left h3 hc
    have := mul_nonneg hc (pow_nonneg h0.le c)
    exact abs_le.mpr ⟨by linarith, by linarith⟩
  have ha : 0 ≤ a := h0.le.trans h1
  have hE0 : 0 ≤ E := (Real.exp_pos _).le.trans hE
  unfold expoD
  rw [abs_mul, abs_mul, abs_mul, abs_mul, abs_of_nonneg e1, abs_of_nonneg (pow_nonneg h0.le d), abs_of_pos (Real.exp_pos _)]
  calc |n| * δ ^ d * τ ^ t * Real.exp (-δ ^ c) * |(d : ℝ) - c * δ ^ c|
      ≤ |n| * a ^ d * 1 * E * (d + c * a ^ c) := by gcongr
    _ = _ := by ring

theorem gaussD_abs {n : ℝ} {d : ℕ} {t α β γ δ τ a E w : ℝ} (ht : 0 ≤ t) (h0 : 0 < δ) (h1 : δ ≤ a) (hτ : 0 < τ)
    (hτ1 : τ ≤ 1) (hα : 0 ≤ α) (hβ : 0 ≤ β) (hw : |δ - 1| ≤ w) (hE : Real.exp (-(α * (δ - 1) ^ 2)) ≤ E) :
    |gaussD n d t α β γ δ τ| ≤ |n| * a ^ d * E * (d + 2 * α * a * w) := by
  obtain ⟨e1, e2⟩ := rpow_unit hτ hτ1 ht
  have h2 : δ ^ d ≤ a ^ d := pow_le_pow_left₀ h0.le h1 d
  have ha : 0 ≤ a := h0.le.trans h1
  have h4 : |(d : ℝ) - 2 * α * δ * (δ - 1)| ≤ d + 2 * α * a * w := by
    refine (abs_sub _ _).trans ?_
    rw [abs_of_nonneg (Nat.cast_nonneg (α := ℝ) d), abs_mul, abs_of_nonneg (by positivity : 0 ≤ 2 * α * δ)]
    gcongr
  have h5 : Real.exp (-α * (δ - 1) ^ 2 - β * (τ - γ) ^ 2) ≤ E := by
    refine le_trans (Real.exp_le_exp.mpr ?_) hE
    have : 0 ≤ β * (τ - γ) ^ 2 := by positivity
    linarith
  have hE0 : 0 ≤ E := (Real.exp_pos _).le.trans hE
  unfold gaussD
  rw [abs_mul, abs_mul, abs_mul, abs_mul, abs_of_nonneg e1, abs_of_nonneg (pow_nonneg h0.le d), abs_of_pos (Real.exp_pos _)]
  calc |n| * δ ^ d * τ ^ t * Real.exp (-α * (δ - 1) ^ 2 - β * (τ - γ) ^ 2) * |(d : ℝ) - 2 * α * δ * (δ - 1)|
      ≤ |n| * a ^ d * 1 * E * (d + 2 * α * a * w) := by gcongr
    _ = _ := by ring

theorem rpow_bound {u M p : ℝ} (k : ℕ) (h0 : 0 < u) (h1 : u ≤ M) (hM : 1 ≤ M) (hp : 0 ≤ p) (hk : p ≤ k) :
    0 < u ^ p ∧ u ^ p ≤ M ^ k := by
  refine ⟨Real.rpow_pos_of_pos h0 p, ?_⟩
  calc u ^ p ≤ M ^ p := Real.rpow_le_rpow h0.le h1 hp
    _ ≤ M ^ (k : ℝ) := Real.rpow_le_rpow_of_exponent_le hM hk
    _ = M ^ k := Real.rpow_natCast M k

theorem critD_abs {n a b B C δ τ A M E : ℝ} (h0 : 0 < δ) (h1 : δ ≤ A) (hτ : 0 < τ) (hτ1 : τ ≤ 1)
    (ha : 1 ≤ a) (ha4 : a ≤ 4) (hb : 0 ≤ b) (hb1 : b ≤ 1) (hB : 0 < B) (hB1 : B ≤ 1) (hC : 0 ≤ C)
    (hu : 0.99 ≤ (δ - 1) ^ 2) (huM : (δ - 1) ^ 2 ≤ M) (hM : 1 ≤ M) (hE : Real.exp (-(C * (δ - 1) ^ 2)) ≤ E) :
    |critD n a b B C δ τ| ≤ |n| * E * (4 * M ^ 4 * A * (1 + 2 * C * A * M) + 36 * M ^ 4 * A ^ 2) := by
  set u := (δ - 1) ^ 2 with hudef
  have hu0 : 0 < u := by linarith
  have hA : 0 ≤ A := h0.le.trans h1
  have hp : ((1 : ℝ) / (2 * 0.3)) = 5 / 3 := by norm_num
  obtain ⟨w0, w1⟩ := rpow_bound (p := 5 / 3) 2 hu0 huM hM (by norm_num) (by norm_num)
  obtain ⟨v0, v1⟩ := rpow_bound (p := 2 / 3) 1 hu0 huM hM (by norm_num) (by norm_num)
  obtain ⟨x0, x1⟩ := rpow_bound (p := a) 4 hu0 huM hM (by linarith) (by norm_num; linarith)
  obtain ⟨y0, y1⟩ := rpow_bound (p := a - 1) 3 hu0 huM hM (by linarith) (by norm_num; linarith)
  have wlow : 0.98 ≤ u ^ (5 / 3 : ℝ) := by
    calc (0.98 : ℝ) ≤ 0.99 ^ (2 : ℝ) := by norm_num
      _ ≤ 0.99 ^ (5 / 3 : ℝ) := Real.rpow_le_rpow_of_exponent_ge (by norm_num) (by norm_num) (by norm_num)
      _ ≤ u ^ (5 / 3 : ℝ) := Real.rpow_le_rpow (by norm_num) hu (by norm_num)
  have hdm : |δ - 1| ≤ M := by
    have : |δ - 1| ^ 2 ≤ M ^ 2 := by
      rw [sq_abs]
      calc (δ - 1) ^ 2 ≤ M := huM
        _ = M * 1 := (mul_one M).symm
        _ ≤ M * M := mul_le_mul_of_nonneg_left hM (by linarith)
        _ = M ^ 2 := (sq M).symm
    exact (pow_le_pow_iff_left₀ (abs_nonneg _) (by linarith) (by norm_num)).mp this
  have hM2 : 1 ≤ M ^ 2 := one_le_pow₀ hM
  have hM4 : 1 ≤ M ^ 4 := one_le_pow₀ hM
  set th := (1 - τ) + 0.7 * u ^ (5 / 3 : ℝ) with hth
  have th0 : 0.686 ≤ th := by rw [hth]; linarith
  have th1 : th ≤ 1.7 * M ^ 2 := by rw [hth]; linarith
  have hbase : critBase a B δ τ = th ^ 2 + B * u ^ a := by
    unfold critBase; rw [hp]
  have hbase0 : 0.47 ≤ critBase a B δ τ := by
    rw [hbase]
    have h2 := mul_pos hB x0
    have h3 := pow_le_pow_left₀ (by norm_num) th0 2
    norm_num at h3 ⊢
    linarith
  have hbase1 : critBase a B δ τ ≤ 4 * M ^ 4 := by
    rw [hbase]
    have h2 : B * u ^ a ≤ 1 * M ^ 4 := mul_le_mul hB1 x1 x0.le (by norm_num)
    have h3 : th ^ 2 ≤ (1.7 * M ^ 2) ^ 2 := pow_le_pow_left₀ (by linarith) th1 2
    have e : (1.7 * M ^ 2) ^ 2 = 2.89 * M ^ 4 := by ring
    rw [e] at h3
    linarith
  have hb2 : 0 ≤ critBase a B δ τ ^ b ∧ critBase a B δ τ ^ b ≤ 4 * M ^ 4 := by
    refine ⟨Real.rpow_nonneg (by linarith) b, ?_⟩
    calc critBase a B δ τ ^ b ≤ (4 * M ^ 4) ^ b := Real.rpow_le_rpow (by linarith) hbase1 hb
      _ ≤ (4 * M ^ 4) ^ (1 : ℝ) := Real.rpow_le_rpow_of_exponent_le (by linarith) hb1
      _ = _ := Real.rpow_one _
  have hb3 : 0 ≤ critBase a B δ τ ^ (b - 1) ∧ critBase a B δ τ ^ (b - 1) ≤ 2.2 := by
    refine ⟨Real.rpow_nonneg (by linarith) _, ?_⟩
    calc critBase a B δ τ ^ (b - 1) ≤ 0.47 ^ (b - 1) :=
          Real.rpow_le_rpow_of_nonpos (by norm_num) hbase0 (by linarith)
      _ ≤ 0.47 ^ (-1 : ℝ) := Real.rpow_le_rpow_of_exponent_ge (by norm_num) (by norm_num) (by linarith)
      _ ≤ 2.2 := by rw [Real.rpow_neg_one]; norm_num
  have hbd : |critBaseD a B δ τ| ≤ 16 * M ^ 4 := by
    unfold critBaseD
    rw [hp, show (5 / 3 : ℝ) - 1 = 2 / 3 by norm_num]
    refine (abs_add_le _ _).trans ?_
    have e1 : |2 * th * (0.7 * (5 / 3 * u ^ (2 / 3 : ℝ) * (2 * (δ - 1))))|
        = (14 / 3) * (th * u ^ (2 / 3 : ℝ) * |δ - 1|) := by
      rw [show 2 * th * (0.7 * (5 / 3 * u ^ (2 / 3 : ℝ) * (2 * (δ - 1))))
        = (14 / 3) * (th * u ^ (2 / 3 : ℝ)) * (δ - 1) by ring, abs_mul,
        abs_of_nonneg (by have : 0 ≤ th := by linarith
                          positivity)]
      ring
    have e2 : |B * (a * u ^ (a - 1) * (2 * (δ - 1)))| = 2 * (B * a * u ^ (a - 1) * |δ - 1|) := by
      rw [show B * (a * u ^ (a - 1) * (2 * (δ - 1))) = (2 * (B * a * u ^ (a - 1))) * (δ - 1) by ring, abs_mul,
        abs_of_nonneg (by positivity)]
      ring
    rw [e1, e2]
    have hthn : 0 ≤ th := by linarith
    have b1 : th * u ^ (2 / 3 : ℝ) * |δ - 1| ≤ (1.7 * M ^ 2) * M ^ 1 * M := by gcongr
    have b2 : B * a * u ^ (a - 1) * |δ - 1| ≤ 1 * 4 * M ^ 3 * M := by gcongr
    have e3 : (1.7 * M ^ 2) * M ^ 1 * M = 1.7 * M ^ 4 := by ring
    have e4 : 1 * 4 * M ^ 3 * M = 4 * M ^ 4 := by ring
    rw [e3] at b1
    rw [e4] at b2
    linarith
  have hexp : Real.exp (-C * u - 275 * (τ - 1) ^ 2) ≤ E := by
    refine le_trans (Real.exp_le_exp.mpr ?_) hE
    have : 0 ≤ 275 * (τ - 1) ^ 2 := by positivity
    linarith
  have hE0 : 0 ≤ E := (Real.exp_pos _).le.trans hE
  unfold critD
  rw [abs_mul, abs_mul, abs_of_pos (Real.exp_pos _)]
  refine mul_le_mul (mul_le_mul_of_nonneg_left hexp (abs_nonneg n)) ?_ (abs_nonneg _) (by positivity)
  refine (abs_add_le _ _).trans (add_le_add ?_ ?_)
  · rw [abs_mul, abs_mul, abs_of_nonneg hb2.1, abs_of_pos h0]
    have h6 : |1 - 2 * C * δ * (δ - 1)| ≤ 1 + 2 * C * A * M := by
      refine (abs_sub _ _).trans ?_
      rw [abs_one, abs_mul, abs_of_nonneg (by positivity : 0 ≤ 2 * C * δ)]
      gcongr
    have := hb2.2
    gcongr
  · rw [abs_mul, abs_mul, abs_mul, abs_of_nonneg hb, abs_of_nonneg hb3.1, abs_of_nonneg (sq_nonneg δ)]
    have h7 : δ ^ 2 ≤ A ^ 2 := pow_le_pow_left₀ h0.le h1 2
    calc b * critBase a B δ τ ^ (b - 1) * |critBaseD a B δ τ| * δ ^ 2
        ≤ 1 * 2.2 * (16 * M ^ 4) * A ^ 2 := by
          have := hb3.2
          gcongr
      _ ≤ 36 * M ^ 4 * A ^ 2 := by
          have : 0 ≤ M ^ 4 * A ^ 2 := by positivity
          nlinarith

theorem abs_add_bound {a b c d : ℝ} (h1 : |a| ≤ c) (h2 : |b| ≤ d) : |a + b| ≤ c + d :=
  (abs_add_le a b).trans (add_le_add h1 h2)

attribute [local irreducible] polyD expoD gaussD critD

/-- At very low density the residual part is negligible. -/
theorem low_bound {δ τ : ℝ} (h0 : 0 < δ) (h1 : δ ≤ 0.000204) (hτ : 0 < τ) (hτ1 : τ ≤ 1) : |phirD δ τ| ≤ 0.005 := by
  have hw : |δ - 1| ≤ 1 := abs_le.mpr ⟨by linarith, by linarith⟩
  have hu : 0.999 ≤ (δ - 1) ^ 2 := by nlinarith
  have hu1 : (δ - 1) ^ 2 ≤ 1 := by nlinarith
  have P : ∀ (n : ℝ) (d : ℕ) (t : ℝ), 0 ≤ t → |polyD n d t δ τ| ≤ |n| * d * 0.000204 ^ d :=
    fun n d t ht => polyD_abs ht h0 h1 hτ hτ1
  have X : ∀ (n : ℝ) (d : ℕ) (t : ℝ) (c : ℕ), 0 ≤ t →
      |expoD n d t c δ τ| ≤ |n| * 0.000204 ^ d * 1 * (d + c * 0.000204 ^ c) :=
    fun n d t c ht => expoD_abs ht h0 h1 hτ hτ1 (by
      rw [Real.exp_le_one_iff]; exact neg_nonpos.mpr (pow_nonneg h0.le c))
  have Gs : ∀ (n : ℝ) (d : ℕ) (t α β γ : ℝ), 0 ≤ t → 15 ≤ α → 0 ≤ β →
      |gaussD n d t α β γ δ τ| ≤ |n| * 0.000204 ^ d * 0.3679 ^ 14 * (d + 2 * α * 0.000204 * 1) :=
    fun n d t α β γ ht hα hβ => gaussD_abs ht h0 h1 hτ hτ1 (by linarith) hβ hw
      (exp_neg_le 14 (by norm_num; nlinarith))
  have Cr : ∀ (n a b B C : ℝ), 1 ≤ a → a ≤ 4 → 0 ≤ b → b ≤ 1 → 0 < B → B ≤ 1 → 0 ≤ C →
      |critD n a b B C δ τ| ≤ |n| * 1 * (4 * 1 ^ 4 * 0.000204 * (1 + 2 * C * 0.000204 * 1) + 36 * 1 ^ 4 * 0.000204 ^ 2) :=
    fun n a b B C h2 h3 h4 h5 h6 h7 h8 => critD_abs h0 h1 hτ hτ1 h2 h3 h4 h5 h6 h7 h8 (by linarith) hu1 le_rfl (by
      rw [Real.exp_le_one_iff]; nlinarith)
  apply le_trans
  · unfold phirD
    repeat' first
      | apply abs_add_bound
      | exact P _ _ _ (by norm_num)
      | exact X _ _ _ _ (by norm_num)
      | exact Gs _ _ _ _ _ _ (by norm_num) (by norm_num) (by norm_num)
      | exact Cr _ _ _ _ _ (by norm_num) (by norm_num) (by norm_num) (by norm_num) (by norm_num) (by norm_num)
          (by norm_num)
  · norm_num [abs_of_pos, abs_of_neg]

end OPE.CO2
