import Verif.Model.RoundingPoly
import Verif.Props.Rounding2
import Verif.Props.Published5

/-!
# C184, C185: polynomials and brine in double arithmetic
-/

namespace OPE.Double

open Classical

/-- `y` comes from `x` by `k` roundings, along a computation whose terms sum to `X` in magnitude. -/
def Within (k : ℕ) (x X y : ℝ) : Prop := |x| ≤ X ∧ |y - x| ≤ ((1 + unit) ^ k - 1) * X

namespace Within

variable {k l : ℕ} {x X y a A b : ℝ} {fl : ℝ → ℝ}

theorem growth (k : ℕ) : 0 ≤ (1 + unit) ^ k - 1 :=
  sub_nonneg.mpr (one_le_pow₀ (by linarith [unit_pos]))

theorem nonneg (h : Within k x X y) : 0 ≤ X := (abs_nonneg x).trans h.1

theorem exact (h : |x| ≤ X) : Within 0 x X x := ⟨h, by simp⟩

theorem mono (h : Within k x X y) (hkl : k ≤ l) : Within l x X y := by
  refine ⟨h.1, h.2.trans (mul_le_mul_of_nonneg_right ?_ h.nonneg)⟩
  have : (1 + unit) ^ k ≤ (1 + unit) ^ l := pow_le_pow_right₀ (by linarith [unit_pos]) hkl
  linarith

theorem abs_le (h : Within k x X y) : |y| ≤ (1 + unit) ^ k * X := by
  have : |y| ≤ |y - x| + |x| := by have := abs_add_le (y - x) x; rwa [sub_add_cancel] at this
  linarith [h.1, h.2]

theorem rounded (hf : RoundsToNearest fl) (h : Within k x X y) : Within (k + 1) x X (fl y) := by
  refine ⟨h.1, ?_⟩
  have e := hf.error y
  have t : |fl y - x| ≤ |fl y - y| + |y - x| := by
    have := abs_add_le (fl y - y) (y - x)
    rwa [sub_add_sub_cancel] at this
  have := mul_le_mul_of_nonneg_left h.abs_le unit_pos.le
  have e2 : ((1 + unit) ^ (k + 1) - 1) * X = unit * ((1 + unit) ^ k * X) + ((1 + unit) ^ k - 1) * X := by ring
  rw [e2]
  linarith [h.2]

theorem literal (hf : RoundsToNearest fl) (h : |x| ≤ X) : Within 1 x X (fl x) := (exact h).rounded hf

theorem add (h : Within k x X y) (h' : Within l a A b) : Within (max k l) (x + a) (X + A) (y + b) := by
  have h := h.mono (le_max_left k l)
  have h' := h'.mono (le_max_right k l)
  refine ⟨(abs_add_le x a).trans (add_le_add h.1 h'.1), ?_⟩
  have : y + b - (x + a) = (y - x) + (b - a) := by ring
  rw [this, mul_add]
  exact (abs_add_le _ _).trans (add_le_add h.2 h'.2)

theorem mul (h : Within k x X y) (h' : Within l a A b) : Within (k + l) (x * a) (X * A) (y * b) := by
  refine ⟨by rw [abs_mul]; exact mul_le_mul h.1 h'.1 (abs_nonneg _) h.nonneg, ?_⟩
  have : y * b - x * a = (y - x) * (b - a) + (y - x) * a + x * (b - a) := by ring
  rw [this]
  refine (abs_add_three _ _ _).trans ?_
  rw [abs_mul, abs_mul, abs_mul]
  have g := growth k
  have g' := growth l
  have p1 := mul_le_mul h.2 h'.2 (abs_nonneg _) (mul_nonneg g h.nonneg)
  have p2 := mul_le_mul h.2 h'.1 (abs_nonneg _) (mul_nonneg g h.nonneg)
  have p3 := mul_le_mul h.1 h'.2 (abs_nonneg _) h.nonneg
  have e : ((1 + unit) ^ (k + l) - 1) * (X * A) = ((1 + unit) ^ k - 1) * X * (((1 + unit) ^ l - 1) * A)
      + ((1 + unit) ^ k - 1) * X * A + X * (((1 + unit) ^ l - 1) * A) := by rw [pow_add]; ring
  linarith

/-- The square root halves relative errors; here it is enough that it does not enlarge them. -/
theorem sqrt (h : Within k x x y) (hy : 0 ≤ y) : Within k (√x) (√x) (√y) := by
  have hx := h.nonneg
  refine ⟨(abs_of_nonneg (Real.sqrt_nonneg x)).le, ?_⟩
  have e := h.2
  rcases hx.eq_or_lt with h0 | h0
  · subst h0
    simp only [sub_zero, mul_zero, abs_nonpos_iff] at e
    subst e
    simp
  · have s0 := Real.sqrt_pos.mpr h0
    have t0 := Real.sqrt_nonneg y
    have f : y - x = (√y - √x) * (√y + √x) := by
      linear_combination -Real.mul_self_sqrt hy + Real.mul_self_sqrt hx
    rw [f, abs_mul, abs_of_pos (by positivity : 0 < √y + √x)] at e
    have e' : ((1 + unit) ^ k - 1) * x = ((1 + unit) ^ k - 1) * √x * √x := by
      rw [mul_assoc, Real.mul_self_sqrt hx]
    rw [e'] at e
    have d0 := abs_nonneg (√y - √x)
    have : |√y - √x| * √x ≤ ((1 + unit) ^ k - 1) * √x * √x := by nlinarith
    exact le_of_mul_le_mul_right this s0

theorem le {Y : ℝ} (h : Within k x X y) (hX : X ≤ Y) : Within k x Y y :=
  ⟨h.1.trans hX, h.2.trans (mul_le_mul_of_nonneg_left hX (growth k))⟩

theorem growth_le {k : ℕ} (hk : k ≤ 2 ^ 52) : (1 + unit) ^ k - 1 ≤ k / 2 ^ 52 := by
  have h1 : 1 - k * unit ≤ (1 - unit) ^ k := Near.sub_one_pow k
  have h2 : (1 + unit) ^ k * (1 - unit) ^ k ≤ 1 := by
    rw [← mul_pow]
    exact pow_le_one₀ (by nlinarith [unit_pos, unit_lt]) (by nlinarith [unit_pos])
  have hu : (k:ℝ) * unit ≤ 1 / 2 := by
    have : (k:ℝ) ≤ 2 ^ 52 := by exact_mod_cast hk
    unfold unit
    rw [mul_one_div, div_le_iff₀ (by norm_num)]
    norm_num at this ⊢
    linarith
  have e : (k:ℝ) / 2 ^ 52 = 2 * (k * unit) := by unfold unit; ring
  have g : 1 ≤ (1 + unit) ^ k := one_le_pow₀ (by linarith [unit_pos])
  rw [e]
  have k0 : 0 ≤ (k:ℝ) * unit := mul_nonneg (Nat.cast_nonneg k) unit_pos.le
  generalize (k:ℝ) * unit = z at *
  have : (1 + unit) ^ k * (1 - z) ≤ 1 := (mul_le_mul_of_nonneg_left h1 (by linarith)).trans h2
  nlinarith

end Within

theorem horner_within {fl : ℝ → ℝ} (hf : RoundsToNearest fl) {j k : ℕ} {x X x' : ℝ} (hx : Within j x X x') :
    ∀ {r : ℕ} {a A a' : Fin (r + 1) → ℝ}, (∀ i, Within k (a i) (A i) (a' i)) →
    Within (k + 1 + (j + 2) * r) (∑ i, a i * x ^ (i : ℕ)) (∑ i, A i * X ^ (i : ℕ)) (horner fl x' a') := by
  intro r
  induction r with
  | zero =>
    intro a A a' h
    simp only [horner, mul_zero, hf.zero, add_zero, Fin.sum_univ_succ, Finset.univ_eq_empty, Finset.sum_empty,
      Fin.val_zero, pow_zero, mul_one]
    exact (h 0).rounded hf
  | succ r ih =>
    intro a A a' h
    rw [horner]
    have i := ih (fun i => h i.succ)
    have m := (((h 0).add ((i.mul hx).rounded hf)).rounded hf).mono
      (l := k + 1 + (j + 2) * (r + 1)) (by
        have : (j + 2) * (r + 1) = (j + 2) * r + j + 2 := by ring
        rw [this]
        omega)
    have e : ∀ (b : Fin (r + 2) → ℝ) (z : ℝ), ∑ i, b i * z ^ (i : ℕ)
        = b 0 + (∑ i : Fin (r + 1), b i.succ * z ^ (i : ℕ)) * z := by
      intro b z
      rw [Fin.sum_univ_succ, Finset.sum_mul]
      simp [pow_succ, mul_assoc]
    rw [e, e]
    exact m

theorem polyval2d_within {fl : ℝ → ℝ} (hf : RoundsToNearest fl) {j l k : ℕ} {x X x' y Y y' : ℝ} (hx : Within j x X x')
    (hy : Within l y Y y') {r s : ℕ} {a A a' : Fin (r + 1) → Fin (s + 1) → ℝ}
    (h : ∀ i j, Within k (a i j) (A i j) (a' i j)) :
    Within (k + 1 + (j + 2) * r + 1 + (l + 2) * s) (∑ j, (∑ i, a i j * x ^ (i : ℕ)) * y ^ (j : ℕ))
      (∑ j, (∑ i, A i j * X ^ (i : ℕ)) * Y ^ (j : ℕ)) (polyval2d fl x' y' a') :=
  horner_within hf hy fun j => horner_within hf hx fun i => h i j

theorem polyval3d_within {fl : ℝ → ℝ} (hf : RoundsToNearest fl) {j l m k : ℕ} {x X x' y Y y' z Z z' : ℝ}
    (hx : Within j x X x') (hy : Within l y Y y') (hz : Within m z Z z') {r s t : ℕ}
    {a A a' : Fin (r + 1) → Fin (s + 1) → Fin (t + 1) → ℝ} (h : ∀ i j q, Within k (a i j q) (A i j q) (a' i j q)) :
    Within (k + 1 + (j + 2) * r + 1 + (l + 2) * s + 1 + (m + 2) * t)
      (∑ q, (∑ j, (∑ i, a i j q * x ^ (i : ℕ)) * y ^ (j : ℕ)) * z ^ (q : ℕ))
      (∑ q, (∑ j, (∑ i, A i j q * X ^ (i : ℕ)) * Y ^ (j : ℕ)) * Z ^ (q : ℕ)) (polyval3d fl x' y' z' a') :=
  horner_within hf hz fun q => horner_within hf hy fun j => horner_within hf hx fun i => h i j q

/-- **C184.** -/
theorem C184_polynomial {fl : ℝ → ℝ} (hf : RoundsToNearest fl) (x y : ℝ) {r s : ℕ} (a : Fin (r + 1) → Fin (s + 1) → ℝ)
    (hrs : 2 * r + 2 * s + 2 ≤ 2 ^ 52) :
    |polyval2d fl x y a - ∑ i, ∑ j, a i j * x ^ (i : ℕ) * y ^ (j : ℕ)|
      ≤ (2 * r + 2 * s + 2) / 2 ^ 52 * ∑ i, ∑ j, |a i j| * |x| ^ (i : ℕ) * |y| ^ (j : ℕ) := by
  have h := (polyval2d_within hf (Within.exact le_rfl) (Within.exact le_rfl) (a := a) (A := fun i j => |a i j|)
    (x := x) (X := |x|) (y := y) (Y := |y|) fun i j => Within.exact le_rfl).2
  have e : ∀ (b : Fin (r + 1) → Fin (s + 1) → ℝ) (u v : ℝ), ∑ j, (∑ i, b i j * u ^ (i : ℕ)) * v ^ (j : ℕ)
      = ∑ i, ∑ j, b i j * u ^ (i : ℕ) * v ^ (j : ℕ) := by
    intro b u v
    rw [Finset.sum_comm]
    exact Finset.sum_congr rfl fun j _ => by rw [Finset.sum_mul]
  rw [e, e] at h
  refine h.trans (mul_le_mul_of_nonneg_right ?_ ?_)
  · have g := Within.growth_le (k := 0 + 1 + (0 + 2) * r + 1 + (0 + 2) * s) (by omega)
    refine g.trans (le_of_eq ?_)
    push_cast
    ring
  · exact Finset.sum_nonneg fun i _ => Finset.sum_nonneg fun j _ => by positivity

/-- A quadratic in depth with coefficients of mixed signs. -/
example {fl : ℝ → ℝ} (hf : RoundsToNearest fl) := C184_polynomial hf 2500 1 (r := 2) (s := 0)
  (fun i _ => (![2200, 0.25, -3e-5] : Fin 3 → ℝ) i) (by norm_num)

end OPE.Double
