import Verif.Props.Rounding23
import Verif.Props.Rounding8
import Verif.Model.RoundingFluids
import Mathlib.Analysis.SpecialFunctions.Log.Deriv
import Mathlib.Analysis.Complex.ExponentialBounds

/-!
# Numerical bounds of rounding errors

`Box A e x y`: the exact value `x` is at most `A` in magnitude and the computed value `y` is off by at most `e`.
-/

namespace OPE

variable {fl : ℝ → ℝ} {pw : ℝ → ℝ → ℝ}

def Box (A e x y : ℝ) : Prop := |x| ≤ A ∧ |y - x| ≤ e

theorem unit_le : unit ≤ 1.12e-16 := by unfold unit; norm_num

namespace Box

variable {A e x y B d a b : ℝ}

theorem nonneg (h : Box A e x y) : 0 ≤ A ∧ 0 ≤ e := ⟨(abs_nonneg _).trans h.1, (abs_nonneg _).trans h.2⟩

theorem wider (h : Box A e x y) {A' e' : ℝ} (hA : A ≤ A') (he : e ≤ e') : Box A' e' x y := ⟨h.1.trans hA, h.2.trans he⟩

theorem tight (h : Box A e x y) {B : ℝ} (hB : |x| ≤ B) : Box B e x y := ⟨hB, h.2⟩

theorem congr (h : Box A e x y) {x' : ℝ} (hx : x = x') : Box A e x' y := hx ▸ h

theorem exact (h : |x| ≤ A) : Box A 0 x x := ⟨h, by simp⟩

theorem rounded (hf : RoundsToNearest fl) (h : Box A e x y) : Box A (e + 1.12e-16 * (A + e)) x (fl y) := by
  refine ⟨h.1, ?_⟩
  have E := hf.error y
  have t : |fl y - x| ≤ |fl y - y| + |y - x| := by
    have := abs_add_le (fl y - y) (y - x)
    rwa [sub_add_sub_cancel] at this
  have u : |y| ≤ |y - x| + |x| := by have := abs_add_le (y - x) x; rwa [sub_add_cancel] at this
  have h1 := h.1
  have h2 := h.2
  have : unit * |y| ≤ 1.12e-16 * (A + e) := mul_le_mul unit_le (by linarith) (abs_nonneg _) (by norm_num)
  linarith

theorem literal (hf : RoundsToNearest fl) (h : |x| ≤ A) : Box A (1.12e-16 * A) x (fl x) := by
  have := (exact h).rounded hf
  simpa using this

theorem add (h : Box A e x y) (h' : Box B d a b) : Box (A + B) (e + d) (x + a) (y + b) := by
  refine ⟨(abs_add_le x a).trans (add_le_add h.1 h'.1), ?_⟩
  have : y + b - (x + a) = (y - x) + (b - a) := by ring
  rw [this]
  exact (abs_add_le _ _).trans (add_le_add h.2 h'.2)

theorem sub (h : Box A e x y) (h' : Box B d a b) : Box (A + B) (e + d) (x - a) (y - b) := by
  refine ⟨(abs_sub x a).trans (add_le_add h.1 h'.1), ?_⟩
  have : y - b - (x - a) = (y - x) - (b - a) := by ring
  rw [this]
  exact (abs_sub _ _).trans (add_le_add h.2 h'.2)

theorem mul (h : Box A e x y) (h' : Box B d a b) : Box (A * B) (A * d + B * e + e * d) (x * a) (y * b) := by
  refine ⟨by rw [abs_mul]; exact mul_le_mul h.1 h'.1 (abs_nonneg _) h.nonneg.1, ?_⟩
  have : y * b - x * a = x * (b - a) + a * (y - x) + (y - x) * (b - a) := by ring
  rw [this]
  refine (abs_add_three _ _ _).trans ?_
  rw [abs_mul, abs_mul, abs_mul]
  have p1 := mul_le_mul h.1 h'.2 (abs_nonneg _) h.nonneg.1
  have p2 := mul_le_mul h'.1 h.2 (abs_nonneg _) h'.nonneg.1
  have p3 := mul_le_mul h.2 h'.2 (abs_nonneg _) h.nonneg.2
  linarith

theorem sq (h : Box A e x y) : Box (A * A) (A * e + A * e + e * e) (x ^ 2) (y ^ 2) := by
  rw [pow_two, pow_two]; exact h.mul h

/-- A value that is bounded below has a small relative error. -/
theorem near (h : Box A e x y) {m : ℝ} (j : ℕ) (hm : m ≤ x) (h0 : 0 < m) (he : e ≤ j * 1.11e-16 / 2 * m) (hj : j ≤ 2 ^ 52) :
    Near j x y := by
  have hx := h0.trans_le hm
  refine Near.of_relative (ε := e / m) hx.le ?_ ?_ ?_ (div_nonneg h.nonneg.2 h0.le)
  · refine h.2.trans ?_
    rw [div_mul_eq_mul_div, le_div_iff₀ h0]
    exact mul_le_mul_of_nonneg_left hm h.nonneg.2
  · have : (j:ℝ) ≤ 2 ^ 52 := by exact_mod_cast hj
    have hu : unit * 2 ^ 53 = 1 := by unfold unit; norm_num
    have := mul_le_mul_of_nonneg_right this unit_pos.le
    linarith
  · rw [div_le_iff₀ h0]
    refine he.trans ?_
    have : (1.11e-16:ℝ) ≤ unit := by unfold unit; norm_num
    have h3 : (j:ℝ) * 1.11e-16 ≤ j * unit := mul_le_mul_of_nonneg_left this (Nat.cast_nonneg j)
    nlinarith

theorem as_div {z : ℝ} (h : Box A e x (y * z⁻¹)) : Box A e x (y / z) := by rwa [div_eq_mul_inv]

/-- A library cube of a positive computed value. -/
theorem power3 (hp : PowerAccurate pw) (h : Box A e (x * x * x) (y * y * y)) (hy : 0 < y) :
    Box A (e + 6.7e-16 * (A + e)) (x * x * x) (pw y 3) := by
  refine ⟨h.1, ?_⟩
  have a := hp y 3 hy
  unfold Accurate at a
  rw [show ((3:ℝ)) = ((3:ℕ):ℝ) by norm_num, Real.rpow_natCast, show y ^ 3 = y * y * y by ring] at a
  have t : |pw y ((3:ℕ):ℝ) - x * x * x| ≤ |pw y ((3:ℕ):ℝ) - y * y * y| + |y * y * y - x * x * x| := by
    have := abs_add_le (pw y ((3:ℕ):ℝ) - y * y * y) (y * y * y - x * x * x)
    rwa [sub_add_sub_cancel] at this
  have u : |y * y * y| ≤ |y * y * y - x * x * x| + |x * x * x| := by
    have := abs_add_le (y * y * y - x * x * x) (x * x * x); rwa [sub_add_cancel] at this
  have h1 := h.1
  have h2 := h.2
  have : (1:ℝ) / 2 ^ 52 * |y * y * y| ≤ 6.7e-16 * (A + e) :=
    mul_le_mul (by norm_num) (by linarith) (abs_nonneg _) (by norm_num)
  rw [show ((3:ℝ)) = ((3:ℕ):ℝ) by norm_num]
  exact t.trans ((add_le_add (a.trans this) h2).trans (le_of_eq (add_comm _ _)))

end Box

namespace Near

variable {k : ℕ} {x y A : ℝ}

theorem box (h : Near k x y) (hA : x ≤ A) (hk : k ≤ 2 ^ 52) : Box A (k * 2.23e-16 * A) x y := by
  have a := h.accurate hk
  unfold Accurate at a
  rw [abs_of_nonneg h.1] at a
  refine ⟨by rw [abs_of_nonneg h.1]; exact hA, a.trans ?_⟩
  refine mul_le_mul ?_ hA h.1 (by positivity)
  have : (0:ℝ) ≤ k := Nat.cast_nonneg k
  norm_num
  linarith

theorem exp_growth (m : ℕ) {d : ℝ} (hd : |d| ≤ m * unit) : Near m 1 (Real.exp d) := by
  have hb := _root_.abs_le.mp hd
  have key : (1 - unit) ^ m ≤ Real.exp (-(m * unit)) := by
    have := Real.add_one_le_exp (-unit)
    calc (1 - unit) ^ m ≤ Real.exp (-unit) ^ m := by
          apply pow_le_pow_left₀ one_sub.1.le; linarith
      _ = Real.exp (-(m * unit)) := by rw [← Real.exp_nat_mul]; congr 1; ring
  refine ⟨zero_le_one, ?_, ?_⟩
  · rw [mul_one]; exact key.trans (Real.exp_le_exp.mpr (by linarith))
  · calc (1 - unit) ^ m * Real.exp d ≤ Real.exp (-(m * unit)) * Real.exp d :=
          mul_le_mul_of_nonneg_right key (Real.exp_pos _).le
      _ = Real.exp (-(m * unit) + d) := (Real.exp_add _ _).symm
      _ ≤ 1 := by rw [Real.exp_le_one_iff]; linarith

theorem pow3 (h : Near k x y) : Near (3 * k) (x ^ 3) (y ^ 3) := by
  have := (h.mul h).mul h
  rw [show x ^ 3 = x * x * x by ring, show y ^ 3 = y * y * y by ring]
  exact this.mono (by omega)

theorem sq (h : Near k x y) : Near (2 * k) (x ^ 2) (y ^ 2) := by
  rw [pow_two, pow_two]
  exact (h.mul h).mono (by omega)

theorem pow4 (h : Near k x y) : Near (4 * k) (x ^ 4) (y ^ 4) := by
  have := ((h.mul h).mul h).mul h
  rw [show x ^ 4 = x * x * x * x by ring, show y ^ 4 = y * y * y * y by ring]
  exact this.mono (by omega)

theorem sqrt (h : Near k x y) (hx : 0 < x) : Near k (√x) (√y) := by
  rw [Real.sqrt_eq_rpow, Real.sqrt_eq_rpow]
  exact h.rpow hx (by norm_num) (by norm_num)

theorem rpow_two (h : Near k x y) (hx : 0 < x) {p : ℝ} (h0 : 0 ≤ p) (h1 : p ≤ 2) : Near (2 * k) (x ^ p) (y ^ p) := by
  have hy := h.pos hx
  have := (h.rpow hx (p := p / 2) (by linarith) (by linarith))
  have := this.mul this
  rw [← Real.rpow_add hx, ← Real.rpow_add hy, add_halves] at this
  exact this.mono (by omega)

end Near

theorem pw_near (hp : PowerAccurate pw) {x : ℝ} (hx : 0 < x) (y : ℝ) : Near 3 (x ^ y) (pw x y) :=
  Near.of_accurate (Real.rpow_pos_of_pos hx y).le (hp x y hx)

/-- A power with a decimal exponent, which is rounded. -/
theorem power_near (hf : RoundsToNearest fl) (hp : PowerAccurate pw) {k : ℕ} {x x' e : ℝ} (h : Near k x x')
    (h0 : 1 / 2 ^ 6 ≤ x) (h1 : x ≤ 2 ^ 9) (he : 0 ≤ e) (he1 : e ≤ 1.5) : Near (2 * k + 13) (x ^ e) (pw x' (fl e)) := by
  have hx : 0 < x := lt_of_lt_of_le (by norm_num) h0
  have hx' := h.pos hx
  have hl2 := Real.log_two_lt_d9
  have l1 : Real.log x ≤ 6.3 := by
    refine (Real.log_le_log hx h1).trans ?_
    rw [Real.log_pow]; norm_num at hl2 ⊢; linarith
  have l2 : -6.3 ≤ Real.log x := by
    refine le_trans ?_ (Real.log_le_log (by norm_num) h0)
    rw [one_div, Real.log_inv, Real.log_pow]; norm_num at hl2 ⊢; linarith
  have E := hf.error e
  rw [abs_of_nonneg he] at E
  have hu := unit_pos
  have d : |Real.log x * (fl e - e)| ≤ (10:ℕ) * unit := by
    rw [abs_mul]
    have a1 : |Real.log x| ≤ 6.3 := abs_le.mpr ⟨l2, l1⟩
    have a2 : |fl e - e| ≤ 1.5 * unit := E.trans (by nlinarith)
    refine (mul_le_mul a1 a2 (abs_nonneg _) (by norm_num)).trans ?_
    norm_num; linarith
  have g := (Near.refl 0 (Real.rpow_pos_of_pos hx e).le).mul (Near.exp_growth 10 d)
  rw [mul_one, Real.rpow_def_of_pos hx, ← Real.exp_add, ← mul_add, add_sub_cancel, ← Real.rpow_def_of_pos hx,
    ← Real.rpow_def_of_pos hx] at g
  have hb := abs_le.mp E
  have c0 : 0 ≤ fl e := (Near.fl0 hf he).nonneg
  have c2 : fl e ≤ 2 := by
    have := unit_le
    have : unit * e ≤ 0.1 := by nlinarith
    norm_num at he1 this
    linarith
  exact ((g.trans (h.rpow_two hx c0 c2)).trans (pw_near hp hx' (fl e))).mono (by omega)

theorem power_int (hp : PowerAccurate pw) {k : ℕ} {x x' : ℝ} (h : Near k x x') (hx : 0 < x) :
    Near (3 * k + 3) (x ^ 3) (pw x' 3) ∧ Near (4 * k + 3) (x ^ 4) (pw x' 4) ∧ Near (k + 3) x⁻¹ (pw x' (-1)) := by
  have hx' := h.pos hx
  refine ⟨?_, ?_, ?_⟩
  · have := pw_near hp hx' 3
    rw [show ((3:ℝ)) = ((3:ℕ):ℝ) by norm_num, Real.rpow_natCast] at this
    exact_mod_cast h.pow3.trans this
  · have := pw_near hp hx' 4
    rw [show ((4:ℝ)) = ((4:ℕ):ℝ) by norm_num, Real.rpow_natCast] at this
    exact_mod_cast h.pow4.trans this
  · have := pw_near hp hx' (-1)
    rw [Real.rpow_neg_one] at this
    exact (h.inv hx).trans this

/-- `exp (-E)` is off by no more than the relative error of `E`, however large `E` is. -/
theorem exp_neg_close {δ E E' : ℝ} (hE : 0 ≤ E) (h : |E' - E| ≤ δ * E) (hδ : 0 ≤ δ) (hδ1 : δ ≤ 1 / 2) :
    |Real.exp (-E') - Real.exp (-E)| ≤ δ := by
  have hb := abs_le.mp h
  have key : ∀ {u v : ℝ}, u ≤ v → E / 2 ≤ u → v - u ≤ δ * E → Real.exp (-u) - Real.exp (-v) ≤ δ := by
    intro u v huv hu hd
    have e1 : Real.exp (-v) = Real.exp (-u) * Real.exp (-(v - u)) := by rw [← Real.exp_add]; congr 1; ring
    have g := Real.add_one_le_exp (-(v - u))
    have p := Real.exp_pos (-u)
    have s1 : Real.exp (-u) - Real.exp (-v) ≤ Real.exp (-u) * (v - u) := by
      rw [e1]; nlinarith
    have s2 : Real.exp (-u) * (v - u) ≤ Real.exp (-(E / 2)) * (δ * E) :=
      mul_le_mul (Real.exp_le_exp.mpr (by linarith)) hd (by linarith) (Real.exp_pos _).le
    have s3 : Real.exp (-(E / 2)) * E ≤ 1 := by
      -- `E / 2 ≤ exp (E / 2 - 1)`
      have q := Real.add_one_le_exp (E / 2 - 1)
      have q2 : E ≤ 2 * Real.exp (E / 2 - 1) := by linarith
      have q3 : Real.exp (-(E / 2)) * Real.exp (E / 2 - 1) = Real.exp (-1) := by rw [← Real.exp_add]; congr 1; ring
      have q4 : Real.exp (-1) ≤ 1 / 2 := by
        have := Real.exp_neg_one_lt_d9
        norm_num at this ⊢; linarith
      have := mul_le_mul_of_nonneg_left q2 (Real.exp_pos (-(E / 2))).le
      nlinarith
    nlinarith
  have hδE : δ * E ≤ E / 2 := by nlinarith
  rw [abs_le]
  rcases le_total E E' with h1 | h1
  · have := key h1 (by linarith) (by linarith)
    have m : Real.exp (-E') ≤ Real.exp (-E) := Real.exp_le_exp.mpr (by linarith)
    constructor <;> linarith
  · have := key h1 (by linarith) (by linarith)
    have m : Real.exp (-E) ≤ Real.exp (-E') := Real.exp_le_exp.mpr (by linarith)
    constructor <;> linarith

variable {ex : ℝ → ℝ}

theorem exp_near_of (he : ExpAccurate ex) (x : ℝ) : Near 3 (Real.exp x) (ex x) := Near.of_accurate (Real.exp_pos x).le (he x)

theorem exp_neg_shift {j : ℕ} {E E' : ℝ} (h : Near j E E') (hj : j ≤ 2 ^ 51) :
    |Real.exp (-E') - Real.exp (-E)| ≤ j * 2.23e-16 := by
  have a := h.accurate (hj.trans (by norm_num))
  unfold Accurate at a
  rw [abs_of_nonneg h.1] at a
  have hj' : (j:ℝ) ≤ 2 ^ 51 := by exact_mod_cast hj
  have j0 : (0:ℝ) ≤ j := Nat.cast_nonneg j
  refine (exp_neg_close h.1 a (by positivity) ?_).trans ?_
  · rw [div_le_iff₀ (by positivity)]; norm_num at hj' ⊢; linarith
  · norm_num; linarith

theorem exp_neg_box (he : ExpAccurate ex) {j : ℕ} {E x' : ℝ} (h : Near j E (-x')) (hj : j ≤ 2 ^ 51) :
    Box 1 ((j + 4) * 2.23e-16) (Real.exp (-E)) (ex x') := by
  have e1 : ∀ {z : ℝ}, 0 ≤ z → Real.exp (-z) ≤ 1 := fun hz => by rw [Real.exp_le_one_iff]; linarith
  refine ⟨by rw [abs_of_pos (Real.exp_pos _)]; exact e1 h.1, ?_⟩
  have s := exp_neg_shift h hj
  rw [neg_neg] at s
  have hx := h.nonneg
  have b := ((exp_near_of he x').box (A := 1) (by have := e1 hx; rwa [neg_neg] at this) (by norm_num)).2
  have t : |ex x' - Real.exp (-E)| ≤ |ex x' - Real.exp x'| + |Real.exp x' - Real.exp (-E)| := by
    have := abs_add_le (ex x' - Real.exp x') (Real.exp x' - Real.exp (-E))
    rwa [sub_add_sub_cancel] at this
  norm_num at b s ⊢
  linarith

theorem exp_inv_box (he : ExpAccurate ex) {j : ℕ} {E E' : ℝ} (h : Near j E E') (hj : j ≤ 2 ^ 51) :
    Box 1 ((j + 4) * 2.23e-16) (Real.exp (-E)) (ex E')⁻¹ := by
  have e1 : ∀ {z : ℝ}, 0 ≤ z → Real.exp (-z) ≤ 1 := fun hz => by rw [Real.exp_le_one_iff]; linarith
  refine ⟨by rw [abs_of_pos (Real.exp_pos _)]; exact e1 h.1, ?_⟩
  have s := exp_neg_shift h hj
  have b := (((exp_near_of he E').inv (Real.exp_pos _)).box (A := 1)
    (by rw [← Real.exp_neg]; exact e1 h.nonneg) (by norm_num)).2
  rw [← Real.exp_neg] at b
  have t : |(ex E')⁻¹ - Real.exp (-E)| ≤ |(ex E')⁻¹ - Real.exp (-E')| + |Real.exp (-E') - Real.exp (-E)| := by
    have := abs_add_le ((ex E')⁻¹ - Real.exp (-E')) (Real.exp (-E') - Real.exp (-E))
    rwa [sub_add_sub_cancel] at this
  norm_num at b s ⊢
  linarith

theorem exp_inv_box' (hf : RoundsToNearest fl) (he : ExpAccurate ex) {j k : ℕ} {E E' t t' : ℝ} (h : Near j E E')
    (ht : Near k t t') (h1 : 1 ≤ t) (hj : j ≤ 2 ^ 51) (hk : k ≤ 2 ^ 51) :
    Box 1 ((j + k + 6) * 2.23e-16) (Real.exp (-E) * t⁻¹) (fl (ex E' * t'))⁻¹ := by
  have e1 : ∀ {z : ℝ}, 0 ≤ z → Real.exp (-z) ≤ 1 := fun hz => by rw [Real.exp_le_one_iff]; linarith
  have t0 : 0 < t := lt_of_lt_of_le one_pos h1
  have ti : t⁻¹ ≤ 1 := inv_le_one_of_one_le₀ h1
  have ti0 : 0 < t⁻¹ := inv_pos.mpr t0
  refine ⟨?_, ?_⟩
  · rw [abs_of_pos (mul_pos (Real.exp_pos _) ti0)]
    exact mul_le_one₀ (e1 h.1) ti0.le ti
  have s := exp_neg_shift h hj
  have m := ((((exp_near_of he E').mul ht).fl hf).inv (mul_pos (Real.exp_pos _) t0))
  rw [mul_inv, ← Real.exp_neg] at m
  have b := (m.box (A := 1) (mul_le_one₀ (e1 h.nonneg) ti0.le ti) (by omega)).2
  have c : |Real.exp (-E') * t⁻¹ - Real.exp (-E) * t⁻¹| ≤ j * 2.23e-16 := by
    rw [← sub_mul, abs_mul, abs_of_pos ti0]
    have := mul_le_mul s ti ti0.le ((abs_nonneg _).trans s)
    linarith
  have t : |(fl (ex E' * t'))⁻¹ - Real.exp (-E) * t⁻¹| ≤ |(fl (ex E' * t'))⁻¹ - Real.exp (-E') * t⁻¹|
      + |Real.exp (-E') * t⁻¹ - Real.exp (-E) * t⁻¹| := by
    have := abs_add_le ((fl (ex E' * t'))⁻¹ - Real.exp (-E') * t⁻¹) (Real.exp (-E') * t⁻¹ - Real.exp (-E) * t⁻¹)
    rwa [sub_add_sub_cancel] at this
  push_cast at b
  norm_num at b c ⊢
  linarith

/-- The argument `-0.65 * (p + 1)` of an exponential. -/
theorem neg_near (hf : RoundsToNearest fl) {k : ℕ} {x y : ℝ} (h : Near k x y) :
    Near (k + 2) (0.65 * x) (-(fl (fl (-0.65) * y))) := by
  have n1 : Near 1 (0.65:ℝ) (-(fl (-0.65))) := by
    refine Near.of_error (by norm_num) ?_
    have := hf.error (-0.65)
    rw [abs_neg, ← abs_neg] at this
    convert this using 2
    ring
  have n2 := n1.mul h
  rw [neg_mul] at n2
  have n3 : Near 1 (-(fl (-0.65) * y)) (-(fl (fl (-0.65) * y))) := by
    refine Near.of_error n2.nonneg ?_
    have := hf.error (fl (-0.65) * y)
    rw [abs_neg, ← abs_neg]
    convert this using 2
    ring
  exact (n2.trans n3).mono (by omega)

end OPE
