import Verif.Props.Main4
import Verif.Spec.Accuracy
import Verif.Spec.Published
import Verif.Model.Rounding

/-!
# Counting rounding errors
-/

namespace OPE

open Classical

/-- Half the distance from 1 to the next double. -/
noncomputable def unit : ℝ := 1 / 2 ^ 53

theorem unit_pos : 0 < unit := by unfold unit; positivity

theorem unit_lt : unit < 1 := by unfold unit; norm_num

/-- Rounding to nearest is accurate to `2⁻⁵³`. -/
theorem RoundsToNearest.error {fl : ℝ → ℝ} (h : RoundsToNearest fl) (x : ℝ) : |fl x - x| ≤ unit * |x| := by
  by_cases hx : x = 0
  · have := (h x).2 0 ⟨0, 0, by norm_num, by simp⟩
    rw [hx] at this ⊢
    simpa using this
  have hax : 0 < |x| := abs_pos.mpr hx
  obtain ⟨e, he1, he2⟩ : ∃ e : ℤ, (2 : ℝ) ^ 52 * 2 ^ e ≤ |x| ∧ |x| < 2 ^ 53 * 2 ^ e := by
    have h1 := Int.zpow_log_le_self (b := 2) (by norm_num) hax
    have h2 := Int.lt_zpow_succ_log_self (b := 2) (by norm_num) |x|
    refine ⟨Int.log 2 |x| - 52, ?_, ?_⟩
    · calc (2 : ℝ) ^ 52 * 2 ^ (Int.log 2 |x| - 52) = 2 ^ (Int.log 2 |x|) := by
            rw [zpow_sub₀ (by norm_num)]; field_simp
        _ ≤ |x| := by exact_mod_cast h1
    · calc |x| < (2 : ℝ) ^ (Int.log 2 |x| + 1) := by exact_mod_cast h2
        _ = 2 ^ 53 * 2 ^ (Int.log 2 |x| - 52) := by
            rw [zpow_sub₀ (by norm_num), zpow_add₀ (by norm_num)]; field_simp
  have hp : (0 : ℝ) < 2 ^ e := by positivity
  set q := x / 2 ^ e with hq
  have hqa : |q| = |x| / 2 ^ e := by rw [hq, abs_div, abs_of_pos hp]
  have hq2 : |q| < 2 ^ 53 := by rw [hqa, div_lt_iff₀ hp]; exact he2
  have hd : IsDouble ((round q : ℝ) * 2 ^ e) := by
    have hr : |round q| ≤ 2 ^ 53 := by
      have h1 : |(round q : ℝ)| ≤ |q| + 1 / 2 := by
        have := abs_sub_round q
        have h3 := abs_sub_abs_le_abs_sub (round q : ℝ) q
        rw [abs_sub_comm] at this
        linarith
      have h2 : (|round q| : ℝ) < ((2 ^ 53 + 1 : ℤ) : ℝ) := by push_cast; linarith
      have h3 : |round q| < 2 ^ 53 + 1 := by exact_mod_cast h2
      omega
    rcases lt_or_eq_of_le hr with h | h
    · exact ⟨_, e, h, rfl⟩
    · rcases abs_eq (by norm_num : (0 : ℤ) ≤ 2 ^ 53) |>.mp h with h | h
      · refine ⟨2 ^ 52, e + 1, by norm_num, ?_⟩
        rw [h, zpow_add₀ (by norm_num)]; push_cast; ring
      · refine ⟨-2 ^ 52, e + 1, by norm_num, ?_⟩
        rw [h, zpow_add₀ (by norm_num)]; push_cast; ring
  refine ((h x).2 _ hd).trans ?_
  rw [abs_mul_zpow_sub]
  have h1 : |(round q : ℝ) - q| ≤ 1 / 2 := by rw [abs_sub_comm]; exact abs_sub_round q
  calc |(round q : ℝ) - q| * 2 ^ e ≤ 1 / 2 * 2 ^ e := mul_le_mul_of_nonneg_right h1 hp.le
    _ = unit * (2 ^ 52 * 2 ^ e) := by unfold unit; ring
    _ ≤ unit * |x| := mul_le_mul_of_nonneg_left he1 unit_pos.le

/-- `y` is the non-negative number `x` up to `k` rounding errors. -/
def Near (k : ℕ) (x y : ℝ) : Prop := 0 ≤ x ∧ (1 - unit) ^ k * x ≤ y ∧ (1 - unit) ^ k * y ≤ x

namespace Near

theorem one_sub : 0 < 1 - unit ∧ 1 - unit ≤ 1 := ⟨by linarith [unit_lt], by linarith [unit_pos]⟩

theorem pow_pos' (k : ℕ) : 0 < (1 - unit) ^ k := pow_pos one_sub.1 k

theorem pow_le (k : ℕ) : (1 - unit) ^ k ≤ 1 := pow_le_one₀ one_sub.1.le one_sub.2

variable {k l : ℕ} {x y a b : ℝ}

theorem nonneg (h : Near k x y) : 0 ≤ y := le_trans (mul_nonneg (pow_pos' k).le h.1) h.2.1

theorem pos (h : Near k x y) (hx : 0 < x) : 0 < y := lt_of_lt_of_le (mul_pos (pow_pos' k) hx) h.2.1

theorem refl (k : ℕ) (hx : 0 ≤ x) : Near k x x :=
  ⟨hx, by nlinarith [pow_le k], by nlinarith [pow_le k]⟩

theorem mono (h : Near k x y) (hkl : k ≤ l) : Near l x y := by
  have hp : (1 - unit) ^ l ≤ (1 - unit) ^ k := pow_le_pow_of_le_one one_sub.1.le one_sub.2 hkl
  exact ⟨h.1, (mul_le_mul_of_nonneg_right hp h.1).trans h.2.1, (mul_le_mul_of_nonneg_right hp h.nonneg).trans h.2.2⟩

theorem trans {z : ℝ} (h : Near k x y) (h' : Near l y z) : Near (k + l) x z := by
  refine ⟨h.1, ?_, ?_⟩
  · rw [pow_add, mul_comm ((1 - unit) ^ k), mul_assoc]
    exact (mul_le_mul_of_nonneg_left h.2.1 (pow_pos' l).le).trans h'.2.1
  · rw [pow_add, mul_assoc]
    exact (mul_le_mul_of_nonneg_left h'.2.2 (pow_pos' k).le).trans h.2.2

theorem symm (h : Near k x y) : Near k y x := ⟨h.nonneg, h.2.2, h.2.1⟩

/-- Relative errors of at most `2⁻⁵³`. -/
theorem of_error (hx : 0 ≤ x) (h : |y - x| ≤ unit * |x|) : Near 1 x y := by
  rw [abs_of_nonneg hx] at h
  have := abs_le.mp h
  have hu := one_sub
  refine ⟨hx, by rw [pow_one]; linarith [this.1], ?_⟩
  rw [pow_one]
  have : (1 - unit) * y ≤ (1 - unit) * ((1 + unit) * x) := mul_le_mul_of_nonneg_left (by linarith [this.2]) hu.1.le
  nlinarith [mul_nonneg (mul_nonneg unit_pos.le unit_pos.le) hx]

theorem fl {f : ℝ → ℝ} (hf : RoundsToNearest f) (h : Near k x y) : Near (k + 1) x (f y) :=
  h.trans (of_error h.nonneg (hf.error y))

theorem fl0 {f : ℝ → ℝ} (hf : RoundsToNearest f) (hx : 0 ≤ x) : Near 1 x (f x) := of_error hx (hf.error x)

theorem mul (h : Near k x y) (h' : Near l a b) : Near (k + l) (x * a) (y * b) := by
  refine ⟨mul_nonneg h.1 h'.1, ?_, ?_⟩
  · calc (1 - unit) ^ (k + l) * (x * a) = ((1 - unit) ^ k * x) * ((1 - unit) ^ l * a) := by rw [pow_add]; ring
      _ ≤ y * b := mul_le_mul h.2.1 h'.2.1 (mul_nonneg (pow_pos' l).le h'.1) h.nonneg
  · calc (1 - unit) ^ (k + l) * (y * b) = ((1 - unit) ^ k * y) * ((1 - unit) ^ l * b) := by rw [pow_add]; ring
      _ ≤ x * a := mul_le_mul h.2.2 h'.2.2 (mul_nonneg (pow_pos' l).le h'.nonneg) h.1

theorem inv (h : Near k x y) (hx : 0 < x) : Near k x⁻¹ y⁻¹ := by
  have hy := h.pos hx
  refine ⟨inv_nonneg.mpr hx.le, ?_, ?_⟩
  · rw [← div_eq_mul_inv, div_le_iff₀ hx, inv_mul_eq_div, le_div_iff₀ hy]; exact h.2.2
  · rw [← div_eq_mul_inv, div_le_iff₀ hy, inv_mul_eq_div, le_div_iff₀ hx]; exact h.2.1

theorem div (h : Near k x y) (h' : Near l a b) (ha : 0 < a) : Near (k + l) (x / a) (y / b) := by
  rw [div_eq_mul_inv, div_eq_mul_inv]
  exact h.mul (h'.inv ha)

theorem add (h : Near k x y) (h' : Near l a b) : Near (max k l) (x + a) (y + b) := by
  have h := h.mono (le_max_left k l)
  have h' := h'.mono (le_max_right k l)
  exact ⟨add_nonneg h.1 h'.1, by rw [mul_add]; exact add_le_add h.2.1 h'.2.1, by rw [mul_add]; exact add_le_add h.2.2 h'.2.2⟩

/-- Powers with an exponent from 0 to 1 do not enlarge errors. -/
theorem rpow (h : Near k x y) (hx : 0 < x) {p : ℝ} (h0 : 0 ≤ p) (h1 : p ≤ 1) : Near k (x ^ p) (y ^ p) := by
  have key : ∀ {s : ℝ}, 0 < s → s ≤ 1 → s ≤ s ^ p := fun hs hs1 => by
    have := Real.rpow_le_rpow_of_exponent_ge hs hs1 h1
    rwa [Real.rpow_one] at this
  have hs := key (pow_pos' k) (pow_le k)
  have hy := h.pos hx
  refine ⟨Real.rpow_nonneg hx.le p, ?_, ?_⟩
  · calc (1 - unit) ^ k * x ^ p ≤ ((1 - unit) ^ k) ^ p * x ^ p := mul_le_mul_of_nonneg_right hs (Real.rpow_nonneg hx.le p)
      _ = ((1 - unit) ^ k * x) ^ p := (Real.mul_rpow (pow_pos' k).le hx.le).symm
      _ ≤ y ^ p := Real.rpow_le_rpow (mul_nonneg (pow_pos' k).le hx.le) h.2.1 h0
  · calc (1 - unit) ^ k * y ^ p ≤ ((1 - unit) ^ k) ^ p * y ^ p := mul_le_mul_of_nonneg_right hs (Real.rpow_nonneg hy.le p)
      _ = ((1 - unit) ^ k * y) ^ p := (Real.mul_rpow (pow_pos' k).le hy.le).symm
      _ ≤ x ^ p := Real.rpow_le_rpow (mul_nonneg (pow_pos' k).le hy.le) h.2.2 h0

theorem sub_one_pow (k : ℕ) : 1 - k * unit ≤ (1 - unit) ^ k := by
  have := one_add_mul_le_pow (a := -unit) (by linarith [unit_lt, unit_pos]) k
  rw [← sub_eq_add_neg] at this
  linarith

/-- What `k` rounding errors mean for the result. -/
theorem accurate (h : Near k x y) (hk : k ≤ 2 ^ 52) : Accurate k x y := by
  unfold Accurate
  rw [abs_of_nonneg h.1, abs_le]
  have hb := sub_one_pow k
  have hu : (k : ℝ) * unit ≤ 1 / 2 := by
    have : (k : ℝ) ≤ 2 ^ 52 := by exact_mod_cast hk
    calc (k : ℝ) * unit ≤ 2 ^ 52 * unit := mul_le_mul_of_nonneg_right this unit_pos.le
      _ = 1 / 2 := by unfold unit; norm_num
  have e : (k : ℝ) / 2 ^ 52 = 2 * (k * unit) := by unfold unit; ring
  rw [e]
  have hx := h.1
  have h1 : (1 - k * unit) * x ≤ y := (mul_le_mul_of_nonneg_right hb hx).trans h.2.1
  have h2 : (1 - k * unit) * y ≤ x := (mul_le_mul_of_nonneg_right hb h.nonneg).trans h.2.2
  have hku : 0 ≤ (k : ℝ) * unit := mul_nonneg (Nat.cast_nonneg k) unit_pos.le
  generalize (k : ℝ) * unit = t at *
  constructor
  · nlinarith
  · have : y ≤ (1 + 2 * t) * x := by
      have h3 : (1 + 2 * t) * ((1 - t) * y) ≤ (1 + 2 * t) * x := mul_le_mul_of_nonneg_left h2 (by linarith)
      have h4 : 0 ≤ t * (1 - 2 * t) * y := mul_nonneg (mul_nonneg hku (by linarith)) h.nonneg
      nlinarith
    linarith

/-- Accuracy within one unit of the last place is worth two rounding errors. -/
theorem of_accurate (hx : 0 ≤ x) (h : Accurate 1 x y) : Near 3 x y := by
  unfold Accurate at h
  rw [abs_of_nonneg hx, show (1:ℝ) / 2 ^ 52 = 2 * unit by unfold unit; norm_num] at h
  have hb := abs_le.mp h
  have hu := unit_pos
  have hu1 : unit ≤ 1 / 100 := by unfold unit; norm_num
  have e3 : (1 - unit) ^ 3 ≤ 1 - 2 * unit := by
    have : (1 - unit) ^ 3 = 1 - 3 * unit + 3 * unit ^ 2 - unit ^ 3 := by ring
    rw [this]
    nlinarith [pow_pos hu 3, mul_pos hu hu]
  refine ⟨hx, (mul_le_mul_of_nonneg_right e3 hx).trans (by linarith [hb.1]), ?_⟩
  have hy : 0 ≤ y := by nlinarith [hb.1]
  have h1 : (1 - unit) ^ 3 * y ≤ (1 - 2 * unit) * y := mul_le_mul_of_nonneg_right e3 hy
  have h2 : (1 - 2 * unit) * y ≤ (1 - 2 * unit) * ((1 + 2 * unit) * x) :=
    mul_le_mul_of_nonneg_left (by linarith [hb.2]) (by linarith)
  nlinarith [mul_nonneg (mul_nonneg hu.le hu.le) hx]

end Near

/-- `fl 0 = 0` -/
theorem RoundsToNearest.zero {f : ℝ → ℝ} (h : RoundsToNearest f) : f 0 = 0 := h.exact ⟨0, 0, by norm_num, by simp⟩

theorem RoundsToNearest.one {f : ℝ → ℝ} (h : RoundsToNearest f) : f 1 = 1 := h.exact ⟨1, 0, by norm_num, by simp⟩

/-- Sums of non-negative numbers: one error per term besides those of the terms. -/
theorem near_sum {f : ℝ → ℝ} (hf : RoundsToNearest f) {α : Type*} (L : List α) {g g' : α → ℝ} {k : ℕ}
    (h : ∀ a ∈ L, Near k (g a) (g' a)) : Near (k + L.length) (L.map g).sum (Double.sum f (L.map g')) := by
  have key : ∀ (L : List α), (∀ a ∈ L, Near k (g a) (g' a)) → ∀ {j : ℕ} {x y : ℝ}, k ≤ j → Near j x y →
      Near (j + L.length) (x + (L.map g).sum) ((L.map g').foldl (fun a x => f (a + x)) y) := by
    intro L
    induction L with
    | nil => intro _ j x y _ hxy; simpa using hxy
    | cons a L ih =>
      intro h j x y hj hxy
      have h1 : Near (j + 1) (x + g a) (f (y + g' a)) :=
        ((hxy.add (h a List.mem_cons_self)).mono (by rw [max_eq_left hj])).fl hf
      have h2 := ih (fun b hb => h b (List.mem_cons_of_mem _ hb)) (j := j + 1) (by omega) h1
      simp only [List.map_cons, List.sum_cons, List.foldl_cons, List.length_cons]
      rw [← add_assoc x (g a), show j + (L.length + 1) = j + 1 + L.length by omega]
      exact h2
  have := key L h le_rfl (Near.refl k (le_refl (0:ℝ)))
  rw [zero_add] at this
  exact this

end OPE
