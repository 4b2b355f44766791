import Mathlib.Analysis.SpecialFunctions.Pow.Real
import Mathlib.Analysis.SpecialFunctions.Log.Base
import Mathlib.Tactic.Linarith
import Mathlib.Tactic.NormNum
import Mathlib.Tactic.Ring
import Mathlib.Tactic.FieldSimp
import Mathlib.Tactic.Positivity

/-!
# Numbers

`Num` models a float64 without rounding: an exact real, an infinity, or not-a-number.
The special values follow IEEE 754 as numpy exposes it.  Simplifications (see DESIGN.md):
no rounding, no overflow/underflow, zero has no sign (division by zero takes the
sign of the numerator).
-/

namespace OPE

open Classical

/-- A float64 without rounding. -/
inductive Num where
  | fin (x : ℝ)
  | posInf
  | negInf
  | nan

/-- Python exception classes that the modelled code can raise. -/
inductive Err where
  | valueError
  | typeError
  | zeroDivision
  | notImplemented
  | columnInsertion   -- config/input.py:19 `ColumnInsertionError(IndexError)`
  | attributeError
  | indexError
  | keyError
  | assertionError
  deriving DecidableEq, Repr

namespace Num

/-- IEEE negation. -/
def neg : Num → Num
  | fin x => fin (-x)
  | posInf => negInf
  | negInf => posInf
  | nan => nan

/-- IEEE addition: opposite infinities give nan. -/
def add : Num → Num → Num
  | fin a, fin b => fin (a + b)
  | nan, _ => nan
  | _, nan => nan
  | posInf, negInf => nan
  | negInf, posInf => nan
  | posInf, _ => posInf
  | negInf, _ => negInf
  | _, posInf => posInf
  | _, negInf => negInf

/-- The infinity with the sign of `a`, nan if `a = 0` (rule for `a * inf`). -/
noncomputable def infSigned (a : ℝ) : Num :=
  if 0 < a then posInf else if a < 0 then negInf else nan

/-- IEEE multiplication: `0 * inf = nan`. -/
noncomputable def mul : Num → Num → Num
  | fin a, fin b => fin (a * b)
  | nan, _ => nan
  | _, nan => nan
  | posInf, posInf => posInf
  | posInf, negInf => negInf
  | negInf, posInf => negInf
  | negInf, negInf => posInf
  | posInf, fin b => infSigned b
  | negInf, fin b => infSigned (-b)
  | fin a, posInf => infSigned a
  | fin a, negInf => infSigned (-a)

/-- numpy float division: `x/0` is an infinity with the sign of `x`, `0/0 = nan`. -/
noncomputable def div : Num → Num → Num
  | fin a, fin b => if b = 0 then infSigned a else fin (a / b)
  | nan, _ => nan
  | _, nan => nan
  | posInf, fin b => if b < 0 then negInf else posInf
  | negInf, fin b => if b < 0 then posInf else negInf
  | fin _, posInf => fin 0
  | fin _, negInf => fin 0
  | posInf, posInf => nan
  | posInf, negInf => nan
  | negInf, posInf => nan
  | negInf, negInf => nan

instance : Neg Num := ⟨neg⟩
instance : Add Num := ⟨add⟩
instance : Sub Num := ⟨fun a b => add a (neg b)⟩
noncomputable instance : Mul Num := ⟨mul⟩
noncomputable instance : Div Num := ⟨div⟩

/-- IEEE `<`: false as soon as a nan is involved. -/
def lt : Num → Num → Prop
  | fin a, fin b => a < b
  | negInf, fin _ => True
  | negInf, posInf => True
  | fin _, posInf => True
  | _, _ => False

/-- IEEE `==`. -/
def eq : Num → Num → Prop
  | fin a, fin b => a = b
  | posInf, posInf => True
  | negInf, negInf => True
  | _, _ => False

/-- IEEE `<=`. -/
def le (a b : Num) : Prop := lt a b ∨ eq a b

instance : LT Num := ⟨lt⟩
instance : LE Num := ⟨le⟩

/-- `np.minimum`: nan if either argument is nan. -/
noncomputable def minimum (a b : Num) : Num :=
  match a, b with
  | nan, _ => nan
  | _, nan => nan
  | a, b => if a ≤ b then a else b

/-- `np.maximum`: nan if either argument is nan. -/
noncomputable def maximum (a b : Num) : Num :=
  match a, b with
  | nan, _ => nan
  | _, nan => nan
  | a, b => if b ≤ a then a else b

/-- `np.clip(x, lo, hi)`, which numpy defines as `minimum(maximum(x, lo), hi)`. -/
noncomputable def clip (x lo hi : Num) : Num := minimum (maximum x lo) hi

/-- `np.abs`. -/
noncomputable def abs : Num → Num
  | fin a => fin |a|
  | posInf => posInf
  | negInf => posInf
  | nan => nan

/-- `x ** k` for an integer literal `k` (numpy floats: `0.0 ** -1 = inf`). -/
noncomputable def powi : Num → ℤ → Num
  | fin a, k => if a = 0 ∧ k < 0 then posInf else fin (a ^ k)
  | posInf, k => if 0 < k then posInf else if k = 0 then fin 1 else fin 0
  | negInf, k =>
      if k = 0 then fin 1 else if k < 0 then fin 0 else if Even k then posInf else negInf
  | nan, k => if k = 0 then fin 1 else nan

/-- `x ** y` for float exponents, IEEE `pow` without signed zeros: a negative base with a
non-integer exponent is nan. -/
noncomputable def pow : Num → Num → Num
  | fin a, fin b =>
      if 0 < a then fin (a ^ b)
      else if a = 0 then (if 0 < b then fin 0 else if b = 0 then fin 1 else posInf)
      else if ∃ k : ℤ, b = (k : ℝ) then fin (a ^ b) else nan
  | posInf, fin b => if 0 < b then posInf else if b = 0 then fin 1 else fin 0
  | negInf, fin b =>
      if b = 0 then fin 1 else if b < 0 then fin 0
      else if ∃ k : ℤ, b = (2 * k + 1 : ℝ) then negInf else posInf
  | nan, fin b => if b = 0 then fin 1 else nan
  | fin a, posInf => if |a| < 1 then fin 0 else if |a| = 1 then fin 1 else posInf
  | fin a, negInf => if |a| < 1 then posInf else if |a| = 1 then fin 1 else fin 0
  | fin a, nan => if a = 1 then fin 1 else nan
  | posInf, posInf => posInf
  | posInf, negInf => fin 0
  | negInf, posInf => posInf
  | negInf, negInf => fin 0
  | posInf, nan => nan
  | negInf, nan => nan
  | nan, _ => nan

/-- `np.sqrt`. -/
noncomputable def sqrt : Num → Num
  | fin a => if a < 0 then nan else fin (Real.sqrt a)
  | posInf => posInf
  | negInf => nan
  | nan => nan

/-- `np.exp`. -/
noncomputable def exp : Num → Num
  | fin a => fin (Real.exp a)
  | posInf => posInf
  | negInf => fin 0
  | nan => nan

/-- `np.log`. -/
noncomputable def log : Num → Num
  | fin a => if a < 0 then nan else if a = 0 then negInf else fin (Real.log a)
  | posInf => posInf
  | negInf => nan
  | nan => nan

/-- `np.log10`. -/
noncomputable def log10 : Num → Num
  | fin a => if a < 0 then nan else if a = 0 then negInf else fin (Real.logb 10 a)
  | posInf => posInf
  | negInf => nan
  | nan => nan

/-! ## Evaluation on finite numbers -/

@[simp] theorem fin_inj {a b : ℝ} : fin a = fin b ↔ a = b := by
  constructor
  · intro h; injection h
  · rintro rfl; rfl

@[simp] theorem fin_add (a b : ℝ) : fin a + fin b = fin (a + b) := rfl
@[simp] theorem fin_neg (a : ℝ) : -fin a = fin (-a) := rfl
@[simp] theorem fin_sub (a b : ℝ) : fin a - fin b = fin (a - b) := by
  show add (fin a) (neg (fin b)) = _
  simp [add, neg, sub_eq_add_neg]
@[simp] theorem fin_mul (a b : ℝ) : fin a * fin b = fin (a * b) := rfl
theorem fin_div_eq (a b : ℝ) : fin a / fin b = if b = 0 then infSigned a else fin (a / b) := rfl
@[simp] theorem fin_div (a : ℝ) {b : ℝ} (h : b ≠ 0) : fin a / fin b = fin (a / b) := by
  rw [fin_div_eq, if_neg h]
@[simp] theorem fin_lt {a b : ℝ} : fin a < fin b ↔ a < b := Iff.rfl
@[simp] theorem fin_eq {a b : ℝ} : eq (fin a) (fin b) ↔ a = b := Iff.rfl
@[simp] theorem fin_le {a b : ℝ} : fin a ≤ fin b ↔ a ≤ b := by
  show (lt _ _ ∨ eq _ _) ↔ _
  simp only [lt, eq]; exact le_iff_lt_or_eq.symm

@[simp] theorem fin_minimum (a b : ℝ) : minimum (fin a) (fin b) = fin (min a b) := by
  simp only [minimum, fin_le]
  split
  · rename_i h; rw [min_eq_left h]
  · rename_i h; rw [min_eq_right (le_of_not_ge h)]
@[simp] theorem fin_maximum (a b : ℝ) : maximum (fin a) (fin b) = fin (max a b) := by
  simp only [maximum, fin_le]
  split
  · rename_i h; rw [max_eq_left h]
  · rename_i h; rw [max_eq_right (le_of_not_ge h)]
@[simp] theorem fin_abs (a : ℝ) : abs (fin a) = fin |a| := rfl
@[simp] theorem fin_exp (a : ℝ) : exp (fin a) = fin (Real.exp a) := rfl
@[simp] theorem fin_sqrt {a : ℝ} (h : 0 ≤ a) : sqrt (fin a) = fin (Real.sqrt a) := by
  simp [sqrt, not_lt.mpr h]
@[simp] theorem fin_log {a : ℝ} (h : 0 < a) : log (fin a) = fin (Real.log a) := by
  simp [log, not_lt.mpr h.le, h.ne']
@[simp] theorem fin_log10 {a : ℝ} (h : 0 < a) : log10 (fin a) = fin (Real.logb 10 a) := by
  simp [log10, not_lt.mpr h.le, h.ne']
@[simp] theorem fin_powi {a : ℝ} (h : a ≠ 0) (k : ℤ) : powi (fin a) k = fin (a ^ k) := by
  simp [powi, h]
@[simp] theorem fin_powi_nat (a : ℝ) (k : ℕ) : powi (fin a) (k : ℤ) = fin (a ^ k) := by
  simp [powi]
@[simp] theorem fin_powi_two (a : ℝ) : powi (fin a) 2 = fin (a ^ 2) := fin_powi_nat a 2
@[simp] theorem fin_powi_three (a : ℝ) : powi (fin a) 3 = fin (a ^ 3) := fin_powi_nat a 3
@[simp] theorem fin_powi_four (a : ℝ) : powi (fin a) 4 = fin (a ^ 4) := fin_powi_nat a 4
theorem fin_powi_neg_one {a : ℝ} (h : a ≠ 0) : powi (fin a) (-1) = fin a⁻¹ := by
  rw [fin_powi h, zpow_neg_one]
theorem fin_pow {a : ℝ} (h : 0 < a) (b : ℝ) : pow (fin a) (fin b) = fin (a ^ b) := by
  simp [pow, h]
theorem fin_pow_nonneg {a b : ℝ} (h : 0 ≤ a) (hb : 0 < b) : pow (fin a) (fin b) = fin (a ^ b) := by
  rcases h.eq_or_lt with h | h
  · subst h; simp [pow, hb, Real.zero_rpow hb.ne']
  · exact fin_pow h b
theorem fin_pow_half {a : ℝ} (h : 0 ≤ a) : pow (fin a) (fin (1/2)) = fin (Real.sqrt a) := by
  rw [fin_pow_nonneg h (by norm_num), Real.sqrt_eq_rpow]
theorem fin_pow_neg_base {a b : ℝ} (h : a < 0) (hb : ¬ ∃ k : ℤ, b = (k : ℝ)) :
    pow (fin a) (fin b) = nan := by
  have h1 : ¬ 0 < a := not_lt.mpr h.le
  simp only [pow, if_neg h1, if_neg h.ne, if_neg hb]

/-- A number is finite: neither infinite nor nan. -/
def IsFin (x : Num) : Prop := ∃ r : ℝ, x = fin r

theorem isFin_fin (r : ℝ) : IsFin (fin r) := ⟨r, rfl⟩

end Num
end OPE
