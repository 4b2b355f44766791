import Verif.Props.Main3

/-!
# The success percentage in double arithmetic (C83)
-/

namespace OPE

open Classical

/-- A double of at least one half is a multiple of 2⁻⁵³. -/
theorem isDouble_grid {y : ℝ} (h : IsDouble y) (hy : 1 / 2 ≤ y) :
    ∃ N : ℤ, y = N / 2 ^ 53 := by
  obtain ⟨m, e, hm, rfl⟩ := h
  have hm1 : ((m : ℤ) : ℝ) < 2 ^ 53 := by
    have : m < 2 ^ 53 := lt_of_le_of_lt (le_abs_self m) hm
    exact_mod_cast this
  have hpe : (0 : ℝ) < 2 ^ e := by positivity
  have he : -53 ≤ e := by
    by_contra hlt
    push Not at hlt
    have h1 : (2 : ℝ) ^ e ≤ 2 ^ (-54 : ℤ) := zpow_le_zpow_right₀ (by norm_num) (by omega)
    have h2 : (m : ℝ) * 2 ^ e < 2 ^ 53 * 2 ^ e := by nlinarith
    have h3 : (2 : ℝ) ^ 53 * 2 ^ e ≤ 2 ^ 53 * 2 ^ (-54 : ℤ) := by nlinarith
    have h4 : (2 : ℝ) ^ 53 * 2 ^ (-54 : ℤ) = 1 / 2 := by norm_num
    exact absurd (lt_of_lt_of_le h2 (h3.trans h4.le)) (not_lt.mpr hy)
  obtain ⟨j, hj⟩ := Int.eq_ofNat_of_zero_le (a := e + 53) (by omega)
  refine ⟨m * 2 ^ j, ?_⟩
  have : e = (j : ℤ) - 53 := by omega
  rw [this, zpow_sub₀ (by norm_num)]
  push_cast
  norm_num
  ring

theorem abs_mul_zpow_sub (a x : ℝ) (e : ℤ) : |a * 2 ^ e - x| = |a - x / 2 ^ e| * 2 ^ e := by
  have hp : (0 : ℝ) < 2 ^ e := by positivity
  rw [← abs_of_pos hp, ← abs_mul, abs_of_pos hp, sub_mul, div_mul_cancel₀ _ hp.ne']

/-- Rounding to nearest exists. -/
theorem exists_rounding : ∃ fl, RoundsToNearest fl := by
  suffices h : ∀ x : ℝ, ∃ z, IsDouble z ∧ ∀ y, IsDouble y → |z - x| ≤ |y - x| by
    choose fl hfl using h
    exact ⟨fl, hfl⟩
  intro x
  by_cases hx : x = 0
  · exact ⟨0, ⟨0, 0, by norm_num, by simp⟩, fun y _ => by rw [hx]; simp⟩
  have hax : 0 < |x| := abs_pos.mpr hx
  obtain ⟨e, he1, he2⟩ : ∃ e : ℤ, (2 : ℝ) ^ 52 * 2 ^ e ≤ |x| ∧ |x| < 2 ^ 53 * 2 ^ e := by
    have h1 := Int.zpow_log_le_self (b := 2) (by norm_num) hax
    have h2 := Int.lt_zpow_succ_log_self (b := 2) (by norm_num) |x|
    refine ⟨Int.log 2 |x| - 52, ?_, ?_⟩
    · calc (2 : ℝ) ^ 52 * 2 ^ (Int.log 2 |x| - 52) = 2 ^ (Int.log 2 |x|) := by
            rw [zpow_sub₀ (by norm_num)]; field_simp
        _ ≤ |x| := by exact_mod_cast h1
    · calc |x| < (2 : ℝ) ^ (Int.log 2 |x| + 1) := by exact_mod_cast h2
        _ = 2 ^ 53 * 2 ^ (Int.log 2 |x| - 52) := by
            rw [zpow_sub₀ (by norm_num), zpow_add₀ (by norm_num)]; field_simp
  have hp : (0 : ℝ) < 2 ^ e := by positivity
  set q := x / 2 ^ e with hq
  have hqa : |q| = |x| / 2 ^ e := by rw [hq, abs_div, abs_of_pos hp]
  have hq1 : (2 : ℝ) ^ 52 ≤ |q| := by rw [hqa, le_div_iff₀ hp]; exact he1
  have hq2 : |q| < 2 ^ 53 := by rw [hqa, div_lt_iff₀ hp]; exact he2
  -- best among the multiples of 2 ^ e
  have hbest : ∀ k : ℤ, |(round q : ℝ) - q| ≤ |(k : ℝ) - q| := by
    intro k
    have := round_le q k
    rwa [abs_sub_comm, abs_sub_comm q] at this
  refine ⟨(round q : ℝ) * 2 ^ e, ?_, ?_⟩
  · have hr : |round q| ≤ 2 ^ 53 := by
      have h1 : |(round q : ℝ)| ≤ |q| + 1 / 2 := by
        have := abs_sub_round q
        have h3 := abs_sub_abs_le_abs_sub (round q : ℝ) q
        rw [abs_sub_comm] at this
        linarith
      have h2 : (|round q| : ℝ) < ((2 ^ 53 + 1 : ℤ) : ℝ) := by push_cast; linarith
      have h3 : |round q| < 2 ^ 53 + 1 := by exact_mod_cast h2
      omega
    rcases lt_or_eq_of_le hr with h | h
    · exact ⟨_, e, h, rfl⟩
    · rcases abs_eq (by norm_num : (0 : ℤ) ≤ 2 ^ 53) |>.mp h with h | h
      · refine ⟨2 ^ 52, e + 1, by norm_num, ?_⟩
        rw [h, zpow_add₀ (by norm_num)]; push_cast; ring
      · refine ⟨-2 ^ 52, e + 1, by norm_num, ?_⟩
        rw [h, zpow_add₀ (by norm_num)]; push_cast; ring
  · rintro y ⟨m, e', hm, rfl⟩
    rw [abs_mul_zpow_sub]
    by_cases hle : e ≤ e'
    · obtain ⟨j, hj⟩ := Int.eq_ofNat_of_zero_le (a := e' - e) (by omega)
      have : (m : ℝ) * 2 ^ e' = ((m * 2 ^ j : ℤ) : ℝ) * 2 ^ e := by
        rw [show e' = j + e by omega, zpow_add₀ (by norm_num)]
        push_cast; rw [zpow_natCast]; ring
      rw [this, abs_mul_zpow_sub]
      exact mul_le_mul_of_nonneg_right (hbest _) hp.le
    · push Not at hle
      -- then |y| < 2 ^ 52 * 2 ^ e ≤ |x|
      have hm1 : |(m : ℝ)| ≤ 2 ^ 53 := by
        have : |m| ≤ 2 ^ 53 := hm.le
        exact_mod_cast this
      have hy : |(m : ℝ) * 2 ^ e'| ≤ 2 ^ 52 * 2 ^ e := by
        rw [abs_mul, abs_of_pos (by positivity : (0 : ℝ) < 2 ^ e')]
        have h1 : (2 : ℝ) ^ e' ≤ 2 ^ (e - 1) := zpow_le_zpow_right₀ (by norm_num) (by omega)
        calc |(m : ℝ)| * 2 ^ e' ≤ 2 ^ 53 * 2 ^ (e - 1) :=
              mul_le_mul hm1 h1 (by positivity) (by positivity)
          _ = 2 ^ 52 * 2 ^ e := by rw [zpow_sub₀ (by norm_num)]; ring
      have h2 : |x| - 2 ^ 52 * 2 ^ e ≤ |(m : ℝ) * 2 ^ e' - x| := by
        have := abs_sub_abs_le_abs_sub x ((m : ℝ) * 2 ^ e')
        rw [abs_sub_comm] at this
        linarith
      refine le_trans ?_ h2
      have h3 : ∃ k : ℤ, |(k : ℝ) - q| = |q| - 2 ^ 52 := by
        rcases le_total 0 q with h | h
        · refine ⟨2 ^ 52, ?_⟩
          rw [abs_of_nonneg h] at hq1 ⊢
          push_cast
          rw [abs_sub_comm, abs_of_nonneg (by linarith)]; norm_num
        · refine ⟨-2 ^ 52, ?_⟩
          rw [abs_of_nonpos h] at hq1 ⊢
          push_cast
          rw [abs_of_nonneg (by linarith)]; ring
      obtain ⟨k, hk⟩ := h3
      have h4 := hbest k
      rw [hk] at h4
      calc |(round q : ℝ) - q| * 2 ^ e ≤ (|q| - 2 ^ 52) * 2 ^ e :=
            mul_le_mul_of_nonneg_right h4 hp.le
        _ = |x| - 2 ^ 52 * 2 ^ e := by rw [hqa, sub_mul, div_mul_cancel₀ _ hp.ne']

/-- 0.9 is rounded up. -/
theorem fl_nine_tenths {fl : ℝ → ℝ} (h : RoundsToNearest fl) :
    fl (9 / 10) = 8106479329266893 / 2 ^ 53 := by
  obtain ⟨h1, h2⟩ := h (9 / 10)
  have h3 := h2 (8106479329266893 / 2 ^ 53) ⟨8106479329266893, -53, by norm_num, by norm_num⟩
  rw [show |(8106479329266893 / 2 ^ 53 : ℝ) - 9 / 10| = 1 / 5 / 2 ^ 53 by norm_num [abs_of_pos]] at h3
  obtain ⟨h4, h5⟩ := abs_le.mp h3
  obtain ⟨N, hN⟩ := isDouble_grid h1 (by norm_num at h4 ⊢; linarith)
  rw [hN] at h4 h5 ⊢
  have h6 : ((8106479329266892 : ℤ) : ℝ) < N := by norm_num at h4 ⊢; linarith
  have h7 : (N : ℝ) < ((8106479329266894 : ℤ) : ℝ) := by norm_num at h5 ⊢; linarith
  have h6' : (8106479329266892 : ℤ) < N := by exact_mod_cast h6
  have h7' : N < (8106479329266894 : ℤ) := by exact_mod_cast h7
  have : N = 8106479329266893 := by omega
  rw [this]; norm_num

theorem successPercentage_one_of_ten {fl : ℝ → ℝ} (h : RoundsToNearest fl) :
    Main.successPercentage fl 9 10 < 10 := by
  unfold Main.successPercentage
  rw [if_neg (by norm_num)]
  rw [show ((9 : ℕ) : ℝ) / ((10 : ℕ) : ℝ) = 9 / 10 by norm_num, fl_nine_tenths h]
  have h1 : fl (1 - 8106479329266893 / 2 ^ 53) = 900719925474099 / 2 ^ 53 := by
    rw [show (1 : ℝ) - 8106479329266893 / 2 ^ 53 = 900719925474099 / 2 ^ 53 by norm_num]
    exact h.exact ⟨900719925474099, -53, by norm_num, by norm_num⟩
  rw [h1]
  obtain ⟨-, h2⟩ := h (900719925474099 / 2 ^ 53 * 100)
  have h3 := h2 (5629499534213119 / 2 ^ 49) ⟨5629499534213119, -49, by norm_num, by norm_num⟩
  rw [show |(5629499534213119 / 2 ^ 49 : ℝ) - 900719925474099 / 2 ^ 53 * 100| = 4 / 2 ^ 53 by
    norm_num [abs_of_pos]] at h3
  obtain ⟨h4, h5⟩ := abs_le.mp h3
  norm_num at h5 ⊢
  linarith

namespace Main

variable {K D I : Type}

/-- **C83, refuted.** In double arithmetic with rounding to nearest, one success in ten rows does not
reach a threshold of 10 percent: exit code −5 and no output, although exactly 10 percent succeeded. -/
theorem C83_refuted (w : World K D I) (k : K) (rows : List D)
    (ht : w.threshold = some 10) (hk : w.config = .ok (some k)) (hd : w.data = some (.ok rows))
    (hfl : RoundsToNearest w.fl) (hrows : rows.length = 10)
    (hgood : ((numbered rows).filterMap (rowAlone w k)).length = 1) :
    run w = ⟨.ok (-5), [], []⟩ := by
  have hrun : run w = runWithThreshold w 10 := by unfold run; rw [ht]
  rw [hrun, runWithThreshold_eq w k rows 10 hk hd, hgood, hrows, if_pos]
  exact successPercentage_one_of_ten hfl

/-- **C83, the part that holds.** With any rounding to nearest: full success reaches every threshold up
to 100, and with no success only the threshold 0 is reached. -/
theorem C83_partial {fl : ℝ → ℝ} (h : RoundsToNearest fl) (total : ℕ) (hpos : total ≠ 0) :
    successPercentage fl 0 total = 100 ∧ successPercentage fl total total = 0 := by
  have e0 : fl 0 = 0 := h.exact ⟨0, 0, by norm_num, by simp⟩
  have e1 : fl 1 = 1 := h.exact ⟨1, 0, by norm_num, by simp⟩
  have e2 : fl 100 = 100 := h.exact ⟨100, 0, by norm_num, by simp⟩
  unfold successPercentage
  rw [if_neg hpos, if_neg hpos]
  have hp : (total : ℝ) ≠ 0 := by exact_mod_cast hpos
  constructor
  · rw [Nat.cast_zero, zero_div, e0, sub_zero, e1, one_mul, e2]
  · rw [div_self hp, e1, sub_self, e0, zero_mul, e0]

/-- A world with ten rows of which exactly the one carrying `true` succeeds. -/
noncomputable def tenRows (fl : ℝ → ℝ) : World Unit Bool Bool where
  config := .ok (some ())
  data := some (.ok [true, false, false, false, false, false, false, false, false, false])
  parse := fun _ d => match d with
    | some [(_, b)] => .ok b
    | _ => .error .valueError
  calculate := fun b => if b then .ok [(0, ⟨.fin 1, .fin 1, .fin 1, .fin 1, .fin 1, .fin 1⟩)] else .error .valueError
  write := fun _ => .ok ()
  calibration := none
  threshold := some 10
  fl := fl

example (fl : ℝ → ℝ) (h : RoundsToNearest fl) : run (tenRows fl) = ⟨.ok (-5), [], []⟩ :=
  C83_refuted (tenRows fl) () _ rfl rfl rfl h rfl
    (by simp [← labelled_eq, labelled, rowAlone, tenRows])

/-- In exact arithmetic the same run succeeds. -/
example : (run (tenRows id)).code = .ok 0 := by
  obtain ⟨-, -, h⟩ := C52_threshold_rows (tenRows id) () _ 10 rfl rfl rfl rfl (by simp)
    [[(0, ⟨.fin 1, .fin 1, .fin 1, .fin 1, .fin 1, .fin 1⟩)]]
    (by simp [← labelled_eq, labelled, rowAlone, tenRows])
  obtain ⟨-, code, h1, -, h2, -⟩ := h (by norm_num) (by simp)
  rw [h1, h2.mpr ⟨rfl, by simp [tenRows]⟩]

end Main

end OPE
