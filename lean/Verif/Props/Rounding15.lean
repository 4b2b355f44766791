import Verif.Spec.FloatRange
import Verif.Props.Rounding13

/-!
# Magnitudes in double arithmetic

The magnitude of every intermediate result, without regard to accuracy: a difference of doubles that is not zero is not
smaller than the last bit of the smaller one.
-/

namespace OPE

open Classical

/-- Zero, or of a magnitude between `2⁻ᵃ` and `2ᵃ`. -/
def Mag (a : ℕ) (x : ℝ) : Prop := x = 0 ∨ ((2 ^ a)⁻¹ ≤ |x| ∧ |x| ≤ 2 ^ a)

/-- A double of that kind. -/
def Sz (a : ℕ) (x : ℝ) : Prop := IsDouble x ∧ Mag a x

theorem two_pow_pos' (a : ℕ) : (0:ℝ) < 2 ^ a := by positivity

theorem one_le_two_pow' (a : ℕ) : (1:ℝ) ≤ 2 ^ a := one_le_pow₀ (by norm_num)

theorem two_pow_mono' {a b : ℕ} (h : a ≤ b) : (2:ℝ) ^ a ≤ 2 ^ b := pow_le_pow_right₀ (by norm_num) h

theorem Mag.mono {a b : ℕ} {x : ℝ} (h : Mag a x) (hab : a ≤ b) : Mag b x := by
  rcases h with h | ⟨h1, h2⟩
  · exact .inl h
  · exact .inr ⟨(inv_anti₀ (two_pow_pos' a) (two_pow_mono' hab)).trans h1, h2.trans (two_pow_mono' hab)⟩

theorem Sz.mono {a b : ℕ} {x : ℝ} (h : Sz a x) (hab : a ≤ b) : Sz b x := ⟨h.1, h.2.mono hab⟩

theorem Mag.neg {a : ℕ} {x : ℝ} (h : Mag a x) : Mag a (-x) := by
  rcases h with h | h
  · exact .inl (by rw [h, neg_zero])
  · exact .inr (by rwa [abs_neg])

theorem Mag.mul {a b : ℕ} {x y : ℝ} (h : Mag a x) (h' : Mag b y) : Mag (a + b) (x * y) := by
  rcases h with h | ⟨h1, h2⟩
  · exact .inl (by rw [h, zero_mul])
  rcases h' with h' | ⟨h3, h4⟩
  · exact .inl (by rw [h', mul_zero])
  refine .inr ⟨?_, ?_⟩
  · rw [pow_add, mul_inv, abs_mul]
    exact mul_le_mul h1 h3 (by positivity) (abs_nonneg _)
  · rw [pow_add, abs_mul]
    exact mul_le_mul h2 h4 (abs_nonneg _) (by positivity)

theorem Mag.inv {a : ℕ} {x : ℝ} (h : Mag a x) : Mag a x⁻¹ := by
  rcases h with h | ⟨h1, h2⟩
  · exact .inl (by rw [h, inv_zero])
  have h0 : 0 < |x| := lt_of_lt_of_le (by positivity) h1
  refine .inr ⟨?_, ?_⟩
  · rw [abs_inv]; exact inv_anti₀ h0 h2
  · rw [abs_inv, inv_le_comm₀ h0 (two_pow_pos' a)]; exact h1

theorem Mag.div {a b : ℕ} {x y : ℝ} (h : Mag a x) (h' : Mag b y) : Mag (a + b) (x / y) := by
  rw [div_eq_mul_inv]; exact h.mul h'.inv

theorem Mag.add_nonneg {a : ℕ} {x y : ℝ} (h : Mag a x) (h' : Mag a y) (hx : 0 ≤ x) (hy : 0 ≤ y) : Mag (a + 1) (x + y) := by
  rcases h with h | ⟨h1, h2⟩
  · rw [h, zero_add]; exact h'.mono (by omega)
  rcases h' with h' | ⟨h3, h4⟩
  · rw [h', add_zero]; exact Mag.mono (.inr ⟨h1, h2⟩) (by omega)
  rw [abs_of_nonneg hx] at h1 h2
  rw [abs_of_nonneg hy] at h3 h4
  refine .inr ⟨?_, ?_⟩
  · rw [abs_of_nonneg (by linarith)]
    have := inv_anti₀ (two_pow_pos' a) (two_pow_mono' (Nat.le_succ a))
    rw [Nat.succ_eq_add_one] at this
    linarith
  · rw [abs_of_nonneg (by linarith), pow_succ]; linarith

/-- A double of at least `2⁻ᵃ` is a multiple of `2⁻⁽ᵃ⁺⁵²⁾`. -/
theorem IsDouble.multiple {a : ℕ} {x : ℝ} (hx : IsDouble x) (h : Mag a x) : ∃ k : ℤ, x = k * (2 ^ (a + 52))⁻¹ := by
  rcases h with h | ⟨h, -⟩
  · exact ⟨0, by rw [h]; simp⟩
  obtain ⟨m, e, hm, rfl⟩ := hx
  have he : -((a:ℤ) + 52) ≤ e := by
    by_contra hc
    have hc : e ≤ -((a:ℤ) + 53) := by omega
    have h1 : |(m:ℝ) * 2 ^ e| < 2 ^ 53 * 2 ^ (-((a:ℤ) + 53)) := by
      rw [abs_mul, abs_of_pos (zpow_pos (by norm_num : (0:ℝ) < 2) e)]
      have h2 : |(m:ℝ)| < 2 ^ 53 := by exact_mod_cast hm
      have h3 : (2:ℝ) ^ e ≤ 2 ^ (-((a:ℤ) + 53)) := zpow_le_zpow_right₀ (by norm_num) hc
      exact mul_lt_mul h2 h3 (zpow_pos (by norm_num) _) (by positivity)
    have h4 : (2:ℝ) ^ 53 * 2 ^ (-((a:ℤ) + 53)) = (2 ^ a)⁻¹ := by
      rw [neg_add, zpow_add₀ (by norm_num), zpow_neg, zpow_neg, zpow_natCast]
      have : (2:ℝ) ^ (53:ℤ) = 2 ^ 53 := by norm_cast
      rw [this]
      field_simp
    rw [h4] at h1
    exact absurd h (not_le.mpr h1)
  obtain ⟨j, hj⟩ : ∃ j : ℕ, e = -((a:ℤ) + 52) + j := ⟨(e + (a + 52)).toNat, by omega⟩
  refine ⟨m * 2 ^ j, ?_⟩
  rw [hj, zpow_add₀ (by norm_num), zpow_natCast, zpow_neg]
  have : (2:ℝ) ^ ((a:ℤ) + 52) = 2 ^ (a + 52) := by norm_cast
  rw [this]
  push_cast
  ring

theorem Mag.of_multiple {a b : ℕ} {x : ℝ} (h : ∃ k : ℤ, x = k * (2 ^ a)⁻¹) (hx : |x| ≤ 2 ^ b) (hab : b ≤ a) : Mag a x := by
  obtain ⟨k, rfl⟩ := h
  rcases eq_or_ne k 0 with h0 | h0
  · exact .inl (by rw [h0]; simp)
  refine .inr ⟨?_, hx.trans (two_pow_mono' hab)⟩
  rw [abs_mul, abs_of_pos (inv_pos.mpr (two_pow_pos' a))]
  have : (1:ℝ) ≤ |(k:ℝ)| := by exact_mod_cast Int.one_le_abs h0
  nlinarith [inv_pos.mpr (two_pow_pos' a)]

theorem Mag.abs_le {a : ℕ} {x : ℝ} (h : Mag a x) : |x| ≤ 2 ^ a := by
  rcases h with h | h
  · rw [h, abs_zero]; positivity
  · exact h.2

/-- No difference of doubles vanishes unnoticed. -/
theorem Sz.sub_fit {a : ℕ} {x y : ℝ} (h : Sz a x) (h' : Sz a y) : Mag (a + 52) (x - y) := by
  obtain ⟨k, hk⟩ := h.1.multiple h.2
  obtain ⟨l, hl⟩ := h'.1.multiple h'.2
  refine Mag.of_multiple (b := a + 1) ⟨k - l, by rw [hk, hl]; push_cast; ring⟩ ?_ (by omega)
  have := h.2.abs_le
  have := h'.2.abs_le
  rw [pow_succ]
  linarith [abs_sub x y]

theorem IsDouble.neg {x : ℝ} (h : IsDouble x) : IsDouble (-x) := by
  obtain ⟨m, e, hm, rfl⟩ := h
  exact ⟨-m, e, by rwa [abs_neg], by push_cast; ring⟩

theorem Sz.neg {a : ℕ} {x : ℝ} (h : Sz a x) : Sz a (-x) := ⟨h.1.neg, h.2.neg⟩

theorem Sz.add_fit {a : ℕ} {x y : ℝ} (h : Sz a x) (h' : Sz a y) : Mag (a + 52) (x + y) := by
  have := h.sub_fit h'.neg
  rwa [sub_neg_eq_add] at this

theorem isDouble_pow (a : ℕ) : IsDouble ((2:ℝ) ^ a) := ⟨1, a, by norm_num, by simp⟩

theorem isDouble_inv_pow (a : ℕ) : IsDouble (((2:ℝ) ^ a)⁻¹) := ⟨1, -a, by norm_num, by simp⟩

theorem isDouble_nat (n : ℕ) (h : n < 2 ^ 53) : IsDouble (n : ℝ) := ⟨n, 0, by rw [Nat.abs_cast]; exact_mod_cast h, by simp⟩

/-- Rounding keeps the magnitude. -/
theorem Mag.round {fl : ℝ → ℝ} (hf : RoundsToNearest fl) {a : ℕ} {x : ℝ} (h : Mag a x) : Sz a (fl x) := by
  refine ⟨(hf x).1, ?_⟩
  rcases h with h | ⟨h1, h2⟩
  · rw [h, hf.zero]; exact .inl rfl
  have p := inv_pos.mpr (two_pow_pos' a)
  rcases le_total 0 x with hx | hx
  · rw [abs_of_nonneg hx] at h1 h2
    have l := hf.ge_double (isDouble_inv_pow a) h1
    have u := hf.le_double (isDouble_pow a) h2
    exact .inr (by rw [abs_of_pos (by linarith)]; exact ⟨l, u⟩)
  · rw [abs_of_nonpos hx] at h1 h2
    have u := hf.le_double (isDouble_inv_pow a).neg (x := x) (by linarith)
    have l := hf.ge_double (isDouble_pow a).neg (x := x) (by linarith)
    exact .inr (by rw [abs_of_neg (by linarith)]; exact ⟨by linarith, by linarith⟩)

theorem Mag.inRange {a : ℕ} {x : ℝ} (h : Mag a x) (ha : a ≤ 1022) : InRange x := by
  rcases h with h | ⟨h1, h2⟩
  · exact .inl h
  · exact .inr ⟨(inv_anti₀ (two_pow_pos' a) (two_pow_mono' ha)).trans h1, h2.trans (two_pow_mono' (by omega))⟩

theorem Ordinary.sz {x : ℝ} (h : Ordinary x) : Sz 40 x := h

/-- Rounding functions and power functions that agree in the range; the second of each is defined without bounds. -/
structure Same (fl fl' : ℝ → ℝ) (pw pw' : ℝ → ℝ → ℝ) : Prop where
  rounds : RoundsToNearest fl'
  round : ∀ x, InRange x → fl x = fl' x
  accurate : PowerAccurate pw'
  power : ∀ x y, 0 < x → InRange x → InRange (x ^ y) → pw x y = pw' x y ∧ IsDouble (pw' x y)

theorem same_exists {fl : ℝ → ℝ} {pw : ℝ → ℝ → ℝ} (hf : RoundsInRange fl) (hp : PowerInRange pw) :
    ∃ fl' pw', Same fl fl' pw pw' := by
  obtain ⟨g, hg⟩ := exists_rounding
  refine ⟨fun x => if InRange x then fl x else g x, fun x y => if 0 < x ∧ InRange x ∧ InRange (x ^ y) then pw x y else x ^ y,
    fun x => ?_, fun x h => by rw [if_pos h], fun x y h => ?_, fun x y h h1 h2 => ?_⟩
  · split_ifs with h
    · exact hf x h
    · exact hg x
  · split_ifs with h'
    · exact (hp x y h'.1 h'.2.1 h'.2.2).2
    · unfold Accurate; rw [sub_self, abs_zero]; positivity
  · rw [if_pos ⟨h, h1, h2⟩]
    exact ⟨rfl, (hp x y h h1 h2).1⟩

namespace Same

variable {fl fl' : ℝ → ℝ} {pw pw' : ℝ → ℝ → ℝ} (h : Same fl fl' pw pw')
include h

theorem fit {a c : ℕ} {x : ℝ} (hx : Mag a x) (hc : a ≤ c := by omega) (hr : c ≤ 1022 := by omega) :
    fl x = fl' x ∧ Sz c (fl' x) :=
  ⟨h.round x (hx.inRange (hc.trans hr)), (hx.mono hc).round h.rounds⟩

theorem mul {a b c : ℕ} {x y : ℝ} (hx : Sz a x) (hy : Sz b y) (hc : a + b ≤ c := by omega) (hr : c ≤ 1022 := by omega) :
    fl (x * y) = fl' (x * y) ∧ Sz c (fl' (x * y)) := h.fit (hx.2.mul hy.2) hc hr

theorem div {a b c : ℕ} {x y : ℝ} (hx : Sz a x) (hy : Sz b y) (hc : a + b ≤ c := by omega) (hr : c ≤ 1022 := by omega) :
    fl (x / y) = fl' (x / y) ∧ Sz c (fl' (x / y)) := h.fit (hx.2.div hy.2) hc hr

theorem sub {a b d c : ℕ} {x y : ℝ} (hx : Sz a x) (hy : Sz b y) (ha : a ≤ d := by omega) (hb : b ≤ d := by omega)
    (hc : d + 52 ≤ c := by omega) (hr : c ≤ 1022 := by omega) : fl (x - y) = fl' (x - y) ∧ Sz c (fl' (x - y)) :=
  h.fit ((hx.mono ha).sub_fit (hy.mono hb)) hc hr

theorem add {a b d c : ℕ} {x y : ℝ} (hx : Sz a x) (hy : Sz b y) (ha : a ≤ d := by omega) (hb : b ≤ d := by omega)
    (hc : d + 52 ≤ c := by omega) (hr : c ≤ 1022 := by omega) : fl (x + y) = fl' (x + y) ∧ Sz c (fl' (x + y)) :=
  h.fit ((hx.mono ha).add_fit (hy.mono hb)) hc hr

theorem add0 {a b d c : ℕ} {x y : ℝ} (hx : Sz a x) (hy : Sz b y) (px : 0 ≤ x) (py : 0 ≤ y) (ha : a ≤ d := by omega)
    (hb : b ≤ d := by omega) (hc : d + 1 ≤ c := by omega) (hr : c ≤ 1022 := by omega) :
    fl (x + y) = fl' (x + y) ∧ Sz c (fl' (x + y)) :=
  h.fit ((hx.2.mono ha).add_nonneg (hy.2.mono hb) px py) hc hr

theorem nonneg {x : ℝ} (hx : 0 ≤ x) : 0 ≤ fl' x := (Near.fl0 h.rounds hx).nonneg

theorem pos {x : ℝ} (hx : 0 < x) : 0 < fl' x := (Near.fl0 h.rounds hx.le).pos hx

/-- Powers with exponents between -1 and 1. -/
theorem pow {a c : ℕ} {x y : ℝ} (hx : Mag a x) (h0 : 0 < x) (hy : |y| ≤ 1) (hc : a + 1 ≤ c := by omega)
    (hr : c ≤ 1022 := by omega) : pw x y = pw' x y ∧ Sz c (pw' x y) := by
  rcases hx with hx | ⟨h1, h2⟩
  · exact absurd hx h0.ne'
  rw [abs_of_pos h0] at h1 h2
  have hx' : (2:ℝ) ^ (-(a:ℝ)) ≤ x ∧ x ≤ (2:ℝ) ^ (a:ℝ) := by
    rw [Real.rpow_neg (by norm_num), Real.rpow_natCast]; exact ⟨h1, h2⟩
  have hl : |Real.log x| ≤ a * Real.log 2 := by
    rw [_root_.abs_le]
    constructor
    · have := Real.log_le_log (by positivity) hx'.1
      rw [Real.log_rpow (by norm_num)] at this
      linarith
    · have := Real.log_le_log h0 hx'.2
      rwa [Real.log_rpow (by norm_num)] at this
  have hly : |Real.log x * y| ≤ a * Real.log 2 := by
    rw [abs_mul]
    calc |Real.log x| * |y| ≤ (a * Real.log 2) * 1 := mul_le_mul hl hy (abs_nonneg _) (le_trans (abs_nonneg _) hl)
      _ = _ := mul_one _
  obtain ⟨b1, b2⟩ := _root_.abs_le.mp hly
  have e2 : Real.exp (a * Real.log 2) = 2 ^ a := by rw [mul_comm, ← Real.rpow_def_of_pos (by norm_num), Real.rpow_natCast]
  have r1 : (2 ^ a)⁻¹ ≤ x ^ y := by
    rw [Real.rpow_def_of_pos h0, ← e2, ← Real.exp_neg]; exact Real.exp_le_exp.mpr (by linarith)
  have r2 : x ^ y ≤ 2 ^ a := by
    rw [Real.rpow_def_of_pos h0, ← e2]; exact Real.exp_le_exp.mpr b2
  have hp0 : 0 < x ^ y := Real.rpow_pos_of_pos h0 y
  have f : Mag a (x ^ y) := .inr (by rw [abs_of_pos hp0]; exact ⟨r1, r2⟩)
  have fx : Mag a x := .inr (by rw [abs_of_pos h0]; exact ⟨h1, h2⟩)
  obtain ⟨e, hd⟩ := h.power x y h0 (fx.inRange (by omega)) (f.inRange (by omega))
  refine ⟨e, hd, Mag.mono (a := a + 1) ?_ hc⟩
  have n := Near.of_accurate hp0.le (h.accurate x y h0)
  obtain ⟨n1, n2⟩ := n.le_two (by norm_num)
  have := n.pos hp0
  refine .inr ?_
  rw [abs_of_pos this, pow_succ, mul_inv]
  constructor <;> linarith

theorem pow_pos {x : ℝ} (h0 : 0 < x) (y : ℝ) : 0 < pw' x y :=
  (Near.of_accurate (Real.rpow_nonneg h0.le y) (h.accurate x y h0)).pos (Real.rpow_pos_of_pos h0 y)

theorem recip {a c : ℕ} {x : ℝ} (hx : Sz a x) (h0 : x ≠ 0) (hc : a + 1 ≤ c := by omega) (hr : c ≤ 1022 := by omega) :
    Double.reciprocal pw x = Double.reciprocal pw' x ∧ Sz c (Double.reciprocal pw' x) := by
  unfold Double.reciprocal
  split_ifs with hn
  · obtain ⟨e, s⟩ := h.pow hx.neg.2 (by linarith) (y := -1) (by norm_num) hc hr
    exact ⟨by rw [e], s.neg⟩
  · exact h.pow hx.2 (lt_of_le_of_ne (not_lt.mp hn) (Ne.symm h0)) (by norm_num) hc hr

omit h in
theorem one : Sz 0 (1:ℝ) := ⟨by simpa using isDouble_pow 0, .inr (by norm_num)⟩

end Same

end OPE
