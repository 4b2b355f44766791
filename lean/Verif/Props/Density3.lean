import Verif.Props.Density2

/-!
# Bounds on the pressure at the ends of the density bracket (C122), continued
-/

namespace OPE.CO2

open Classical OPE.Published.CO2

/-- The upper end of the bracket, reduced. -/
noncomputable def dmax : ℝ := 1575 / 467.6

theorem dmax_bounds : 3.3682 ≤ dmax ∧ dmax ≤ 3.3683 := by unfold dmax; norm_num

theorem exp_dmax : 0.0344 ≤ Real.exp (-dmax) ∧ Real.exp (-dmax) ≤ 0.0345 := by
  have e3 : Real.exp 3 = Real.exp 1 ^ 3 := by rw [← Real.exp_nat_mul]; norm_num
  have g1 := Real.exp_one_gt_d9
  have g2 := Real.exp_one_lt_d9
  have l3 : 20.085 ≤ Real.exp 3 := by
    rw [e3]
    calc (20.085 : ℝ) ≤ 2.7182818283 ^ 3 := by norm_num
      _ ≤ _ := pow_le_pow_left₀ (by norm_num) g1.le 3
  have u3 : Real.exp 3 ≤ 20.086 := by
    rw [e3]
    calc Real.exp 1 ^ 3 ≤ 2.7182818286 ^ 3 := pow_le_pow_left₀ (Real.exp_pos 1).le g2.le 3
      _ ≤ 20.086 := by norm_num
  obtain ⟨d1, d2⟩ := dmax_bounds
  have lx : 1.4448 ≤ Real.exp (dmax - 3) := by
    refine le_trans ?_ (Real.exp_le_exp.mpr (show (0.3682 : ℝ) ≤ dmax - 3 by linarith))
    refine le_trans ?_ (Real.sum_le_exp_of_nonneg (by norm_num) 5)
    simp [Finset.sum_range_succ, Nat.factorial]
    norm_num
  have ux : Real.exp (dmax - 3) ≤ 1.4457 := by
    refine le_trans (Real.exp_le_exp.mpr (show dmax - 3 ≤ (0.3683 : ℝ) by linarith)) ?_
    refine le_trans (Real.exp_bound' (by norm_num) (by norm_num) (n := 5) (by norm_num)) ?_
    simp [Finset.sum_range_succ, Nat.factorial]
    norm_num
  have hx : Real.exp dmax = Real.exp 3 * Real.exp (dmax - 3) := by rw [← Real.exp_add]; congr 1; ring
  have hl : 29.018 ≤ Real.exp dmax := by rw [hx]; nlinarith [Real.exp_pos 3]
  have hu : Real.exp dmax ≤ 29.039 := by rw [hx]; nlinarith [Real.exp_pos 3]
  rw [Real.exp_neg]
  constructor
  · rw [le_inv_comm₀ (by norm_num) (Real.exp_pos _)]; refine hu.trans (by norm_num)
  · rw [inv_le_comm₀ (Real.exp_pos _) (by norm_num)]; refine le_trans (by norm_num) hl

/-- The terms that are negligible at the upper end. -/
noncomputable def restD (δ τ : ℝ) : ℝ :=
  expoD (-0.37055685270086) 1 3 2 δ τ
  + expoD (-0.016775879700426) 1 6 2 δ τ
  + expoD (-0.11960736637987) 4 3 2 δ τ
  + expoD (-0.045619362508778) 4 6 2 δ τ
  + expoD 0.035612789270346 4 8 2 δ τ
  + expoD (-0.0074427727132052) 7 6 2 δ τ
  + expoD (-0.0017395704902432) 8 0 2 δ τ
  + expoD (-0.021810121289527) 2 7 3 δ τ
  + expoD 0.024332166559236 3 12 3 δ τ
  + expoD (-0.037440133423463) 3 16 3 δ τ
  + expoD 0.143387157568781 5 22 4 δ τ
  + expoD (-0.13491969083286) 5 24 4 δ τ
  + expoD (-0.023151225053480) 6 16 4 δ τ
  + expoD 0.012363125492901 7 24 4 δ τ
  + expoD 0.0021058321972940 8 8 4 δ τ
  + expoD (-0.00033958519026368) 10 2 4 δ τ
  + expoD 0.0055993651771592 4 28 5 δ τ
  + expoD (-0.00030335118055646) 8 14 6 δ τ
  + gaussD (-213.65488688320) 2 1 25 325 1.16 δ τ
  + gaussD 26641.569149272 2 0 25 300 1.19 δ τ
  + gaussD (-24027.212204557) 2 1 25 300 1.19 δ τ
  + gaussD (-283.41603423999) 3 3 15 275 1.25 δ τ
  + gaussD 212.47284400179 3 3 20 275 1.22 δ τ
  + critD (-0.66642276540751) 3.5 0.875 0.3 10 δ τ
  + critD 0.72608632349897 3.5 0.925 0.3 10 δ τ
  + critD 0.055068668612842 3 0.875 1 12.5 δ τ

/-- The others. -/
noncomputable def mainD (δ τ : ℝ) : ℝ :=
  polyD 0.38856823203161 1 0 δ τ
  + polyD 2.9385475942740 1 0.75 δ τ
  + polyD (-5.5867188534934) 1 1 δ τ
  + polyD (-0.76753199592477) 1 2 δ τ
  + polyD 0.31729005580416 2 0.75 δ τ
  + polyD 0.54803315897767 2 2 δ τ
  + polyD 0.12279411220335 3 0.75 δ τ
  + expoD 2.1658961543220 1 1.5 1 δ τ
  + expoD 1.5841735109724 2 1.5 1 δ τ
  + expoD (-0.23132705405503) 4 2.5 1 δ τ
  + expoD 0.058116916431436 5 0 1 δ τ
  + expoD (-0.55369137205382) 5 1.5 1 δ τ
  + expoD 0.48946615909422 5 2 1 δ τ
  + expoD (-0.024275739843501) 6 0 1 δ τ
  + expoD 0.062494790501678 6 1 1 δ τ
  + expoD (-0.12175860225246) 6 2 1 δ τ

theorem main_bound {τ : ℝ} (hτ : 0 < τ) (hτ1 : τ ≤ 1) : 8.85 * τ + 0.1 ≤ 1 + mainD dmax τ := by
  obtain ⟨E1, E2⟩ := exp_dmax
  set s := τ ^ (1 / 4 : ℝ) with hs
  have s0 : 0 < s := Real.rpow_pos_of_pos hτ _
  have s1 : s ≤ 1 := Real.rpow_le_one hτ.le hτ1 (by norm_num)
  have hpow : ∀ k : ℕ, τ ^ ((k : ℝ) / 4) = s ^ k := by
    intro k
    rw [hs, ← Real.rpow_natCast (τ ^ (1 / 4 : ℝ)) k, ← Real.rpow_mul hτ.le]
    congr 1; ring
  have p0 : τ ^ (0 : ℝ) = 1 := Real.rpow_zero τ
  have p3 : τ ^ (0.75 : ℝ) = s ^ 3 := by rw [← hpow 3]; norm_num
  have p4 : τ ^ (1 : ℝ) = s ^ 4 := by rw [← hpow 4]; norm_num
  have p6 : τ ^ (1.5 : ℝ) = s ^ 6 := by rw [← hpow 6]; norm_num
  have p8 : τ ^ (2 : ℝ) = s ^ 8 := by rw [← hpow 8]; norm_num
  have p10 : τ ^ (2.5 : ℝ) = s ^ 10 := by rw [← hpow 10]; norm_num
  have pt : τ = s ^ 4 := by rw [← p4, Real.rpow_one]
  unfold mainD polyD expoD
  rw [p0, p3, p4, p6, p8, p10]
  simp only [pow_one]
  generalize Real.exp (-dmax) = E at E1 E2 ⊢
  rw [pt]
  clear_value s
  clear p0 p3 p4 p6 p8 p10 pt hpow hs hτ hτ1 τ
  obtain ⟨k0, h0⟩ : ∃ k, k = 1 + 0.38856823203161 * dmax + E * (0.058116916431436 * dmax ^ 5 * (5 - dmax)
      - 0.024275739843501 * dmax ^ 6 * (6 - dmax)) := ⟨_, rfl⟩
  obtain ⟨k3, h3⟩ : ∃ k, k = 2.9385475942740 * dmax + 0.31729005580416 * 2 * dmax ^ 2
      + 0.12279411220335 * 3 * dmax ^ 3 := ⟨_, rfl⟩
  obtain ⟨k4, h4⟩ : ∃ k, k = -5.5867188534934 * dmax + E * (0.062494790501678 * dmax ^ 6 * (6 - dmax)) := ⟨_, rfl⟩
  obtain ⟨k6, h6⟩ : ∃ k, k = E * (2.1658961543220 * dmax * (1 - dmax) + 1.5841735109724 * dmax ^ 2 * (2 - dmax)
      - 0.55369137205382 * dmax ^ 5 * (5 - dmax)) := ⟨_, rfl⟩
  obtain ⟨k8, h8⟩ : ∃ k, k = -0.76753199592477 * dmax + 0.54803315897767 * 2 * dmax ^ 2
      + E * (0.48946615909422 * dmax ^ 5 * (5 - dmax) - 0.12175860225246 * dmax ^ 6 * (6 - dmax)) := ⟨_, rfl⟩
  obtain ⟨k10, h10⟩ : ∃ k, k = E * (-0.23132705405503 * dmax ^ 4 * (4 - dmax)) := ⟨_, rfl⟩
  have b0 : 0.5 ≤ k0 := by rw [h0]; unfold dmax; norm_num; linarith
  have b3 : 31.1 ≤ k3 := by rw [h3]; unfold dmax; norm_num
  have b4 : -10.6 ≤ k4 := by rw [h4]; unfold dmax; norm_num; linarith
  have b6 : -15 ≤ k6 := by rw [h6]; unfold dmax; norm_num; linarith
  have b8 : 5.6 ≤ k8 := by rw [h8]; unfold dmax; norm_num; linarith
  have b10 : -0.66 ≤ k10 := by rw [h10]; unfold dmax; norm_num; linarith
  have poly_ineq : 8.85 * s ^ 4 + 0.1 ≤ 0.5 + 31.1 * s ^ 3 + (-10.6) * s ^ 4 + (-15) * s ^ 6 + 5.6 * s ^ 8
      + (-0.66) * s ^ 10 := by
    have v0 : 0 ≤ s ^ 2 := sq_nonneg s
    have v1 : s ^ 2 ≤ 1 := pow_le_one₀ s0.le s1
    have w1 : s ^ 3 ≤ s ^ 2 := pow_le_pow_of_le_one s0.le s1 (by norm_num)
    have w7 : s ^ 7 ≤ 1 := pow_le_one₀ s0.le s1
    have q1 : s ^ 3 * (15 - 5.6 * s ^ 2) ≤ s ^ 2 * (15 - 5.6 * s ^ 2) :=
      mul_le_mul_of_nonneg_right w1 (by linarith)
    have q2 : s ^ 2 * (15 - 5.6 * s ^ 2) ≤ 9.4 := by nlinarith
    have Q : 0 ≤ 31.1 - 19.45 * s - s ^ 3 * (15 - 5.6 * s ^ 2) - 0.66 * s ^ 7 := by linarith
    have := mul_nonneg (pow_nonneg s0.le 3) Q
    nlinarith
  have m3 := mul_le_mul_of_nonneg_right b3 (pow_nonneg s0.le 3)
  have m4 := mul_le_mul_of_nonneg_right b4 (pow_nonneg s0.le 4)
  have m6 := mul_le_mul_of_nonneg_right b6 (pow_nonneg s0.le 6)
  have m8 := mul_le_mul_of_nonneg_right b8 (pow_nonneg s0.le 8)
  have m10 := mul_le_mul_of_nonneg_right b10 (pow_nonneg s0.le 10)
  have e := add_le_add (add_le_add (add_le_add (add_le_add (add_le_add b0 m3) m4) m6) m8) m10
  refine (poly_ineq.trans e).trans (le_of_eq ?_)
  rw [h0, h3, h4, h6, h8, h10]
  push_cast
  ring

attribute [local irreducible] polyD expoD gaussD critD

theorem rest_bound {τ : ℝ} (hτ : 0 < τ) (hτ1 : τ ≤ 1) : |restD dmax τ| ≤ 0.1 := by
  obtain ⟨d1, d2⟩ := dmax_bounds
  have h0 : 0 < dmax := by linarith
  have hw : |dmax - 1| ≤ 2.4 := abs_le.mpr ⟨by linarith, by linarith⟩
  have hu : 5.6 ≤ (dmax - 1) ^ 2 := by nlinarith
  have hu1 : (dmax - 1) ^ 2 ≤ 6 := by nlinarith
  have X2 : ∀ (n : ℝ) (d : ℕ) (t : ℝ), 0 ≤ t →
      |expoD n d t 2 dmax τ| ≤ |n| * 3.3683 ^ d * 0.3679 ^ 11 * (d + (2 : ℕ) * 3.3683 ^ 2) :=
    fun n d t ht => expoD_abs ht h0 d2 hτ hτ1 (exp_neg_le 11 (by
      have := pow_le_pow_left₀ (by norm_num) d1 2
      norm_num at this ⊢; linarith))
  have X : ∀ (n : ℝ) (d : ℕ) (t : ℝ) (c : ℕ), 0 ≤ t → 3 ≤ c →
      |expoD n d t c dmax τ| ≤ |n| * 3.3683 ^ d * 0.3679 ^ 38 * (d + c * 3.3683 ^ c) :=
    fun n d t c ht hc => expoD_abs ht h0 d2 hτ hτ1 (exp_neg_le 38 (by
      have h1 := pow_le_pow_left₀ (by norm_num) d1 3
      have h2 : dmax ^ 3 ≤ dmax ^ c := pow_le_pow_right₀ (by linarith) hc
      norm_num at h1 ⊢; linarith))
  have Gs : ∀ (n : ℝ) (d : ℕ) (t α β γ : ℝ), 0 ≤ t → 15 ≤ α → 0 ≤ β →
      |gaussD n d t α β γ dmax τ| ≤ |n| * 3.3683 ^ d * 0.3679 ^ 80 * (d + 2 * α * 3.3683 * 2.4) :=
    fun n d t α β γ ht hα hβ => gaussD_abs ht h0 d2 hτ hτ1 (by linarith) hβ hw
      (exp_neg_le 80 (by norm_num; nlinarith))
  have Cr : ∀ (n a b B C : ℝ), 1 ≤ a → a ≤ 4 → 0 ≤ b → b ≤ 1 → 0 < B → B ≤ 1 → 10 ≤ C →
      |critD n a b B C dmax τ| ≤ |n| * 0.3679 ^ 50 * (4 * 6 ^ 4 * 3.3683 * (1 + 2 * C * 3.3683 * 6) + 36 * 6 ^ 4 * 3.3683 ^ 2) :=
    fun n a b B C h2 h3 h4 h5 h6 h7 h8 => critD_abs h0 d2 hτ hτ1 h2 h3 h4 h5 h6 h7 (by linarith) (by linarith) hu1
      (by norm_num) (exp_neg_le 50 (by norm_num; nlinarith))
  apply le_trans
  · unfold restD
    repeat' first
      | apply abs_add_bound
      | exact X2 _ _ _ (by norm_num)
      | exact X _ _ _ _ (by norm_num) (by norm_num)
      | exact Gs _ _ _ _ _ _ (by norm_num) (by norm_num) (by norm_num)
      | exact Cr _ _ _ _ _ (by norm_num) (by norm_num) (by norm_num) (by norm_num) (by norm_num) (by norm_num)
          (by norm_num)
  · norm_num [abs_of_pos, abs_of_neg]

/-- At the upper end of the bracket, for supercritical temperatures. -/
theorem high_bound {τ : ℝ} (hτ : 0 < τ) (hτ1 : τ ≤ 1) : 8.85 * τ ≤ 1 + phirD dmax τ := by
  have e : phirD dmax τ = mainD dmax τ + restD dmax τ := by unfold phirD mainD restD; ring
  have h1 := main_bound hτ hτ1
  have h2 := (abs_le.mp (rest_bound hτ hτ1)).1
  rw [e]; linarith

end OPE.CO2
