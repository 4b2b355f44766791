import Verif.Num
import Mathlib.Data.Fin.Tuple.Basic
import Mathlib.Logic.Equiv.Basic

/-!
# Columns

A numpy column of `n` rows is `Fin n → Num`; arithmetic is pointwise (`Pi` instances).  A Python /
numpy scalar next to a column is broadcast, i.e. it is the constant column.  One row is `Col 1`.
-/

namespace OPE

open Classical

/-- A numpy float column of `n` rows. -/
abbrev Col (n : ℕ) := Fin n → Num

/-- A scalar literal, broadcast to every row. -/
def c {n : ℕ} (x : ℝ) : Col n := fun _ => Num.fin x

/-- A column of finite numbers. -/
def finC {n : ℕ} (x : Fin n → ℝ) : Col n := fun i => Num.fin (x i)

@[simp] theorem c_apply {n} (x : ℝ) (i : Fin n) : (c x : Col n) i = Num.fin x := rfl
@[simp] theorem finC_apply {n} (x : Fin n → ℝ) (i : Fin n) : finC x i = Num.fin (x i) := rfl

theorem finC_injective {n} {x y : Fin n → ℝ} (h : finC x = finC y) : x = y := by
  funext i; have := congrFun h i; simpa using this

/-- `if np.any(p): raise e`. -/
noncomputable def failIf (p : Prop) (e : Err) : Except Err Unit :=
  if p then .error e else .ok ()

@[simp] theorem failIf_true {p : Prop} {e : Err} (h : p) : failIf p e = .error e := if_pos h
@[simp] theorem failIf_false {p : Prop} {e : Err} (h : ¬ p) : failIf p e = .ok () := if_neg h

theorem failIf_ok_iff {p : Prop} {e : Err} : failIf p e = .ok () ↔ ¬ p := by
  unfold failIf; split <;> simp_all

/-- `np.vectorize(kernel)(…)` (float_vectorize.py:4-5): the kernel is called once per row in row
order; the first exception propagates. -/
def vec {α : Type} : {n : ℕ} → (Fin n → Except Err α) → Except Err (Fin n → α)
  | 0, _ => .ok Fin.elim0
  | _ + 1, f => do
      let x ← f 0
      let xs ← vec (fun i => f i.succ)
      .ok (Fin.cons x xs)

/-- Division inside a vectorized kernel: its arguments are Python floats, so a zero divisor raises
`ZeroDivisionError` instead of giving an infinity. -/
noncomputable def pyDiv (a b : Num) : Except Err Num :=
  if b = Num.fin 0 then .error .zeroDivision else .ok (a / b)

/-- `x ** -1` on a Python float: `0.0 ** -1` raises `ZeroDivisionError`. -/
noncomputable def pyInv (a : Num) : Except Err Num :=
  if a = Num.fin 0 then .error .zeroDivision else .ok (Num.powi a (-1))

/-! ## Lemmas about `Except` and `vec` -/

@[simp] theorem bind_ok {α β : Type} (a : α) (f : α → Except Err β) :
    ((Except.ok a : Except Err α) >>= f) = f a := rfl
@[simp] theorem bind_error {α β : Type} (e : Err) (f : α → Except Err β) :
    ((Except.error e : Except Err α) >>= f) = .error e := rfl
@[simp] theorem pure_eq_ok {α : Type} (a : α) : (pure a : Except Err α) = .ok a := rfl

theorem bind_eq_ok {α β : Type} {x : Except Err α} {f : α → Except Err β} {b : β} :
    (x >>= f) = .ok b ↔ ∃ a, x = .ok a ∧ f a = .ok b := by
  cases x with
  | error e => simp
  | ok a => simp

theorem failIf_bind_ok {α : Type} {p : Prop} {e : Err} {f : Unit → Except Err α} {r : α} :
    (failIf p e >>= f) = .ok r ↔ ¬ p ∧ f () = .ok r := by
  unfold failIf; split <;> simp_all

theorem failIf_bind_error {α : Type} {p : Prop} {e e' : Err} {f : Unit → Except Err α} :
    (failIf p e >>= f) = .error e' → (p ∧ e = e') ∨ f () = .error e' := by
  unfold failIf; split
  · intro h; left; simp at h; exact ⟨by assumption, h⟩
  · intro h; right; simpa using h

theorem vec_ok_iff {α : Type} {n : ℕ} {f : Fin n → Except Err α} {r : Fin n → α} :
    vec f = .ok r ↔ ∀ i, f i = .ok (r i) := by
  induction n with
  | zero =>
    constructor
    · intro _ i; exact i.elim0
    · intro _; simp only [vec]; congr; funext i; exact i.elim0
  | succ n ih =>
    simp only [vec, bind_eq_ok]
    constructor
    · rintro ⟨x, hx, xs, hxs, h⟩
      injection h with h
      subst h
      have := ih.mp hxs
      intro i
      refine Fin.cases ?_ ?_ i
      · simpa using hx
      · intro j; simpa using this j
    · intro h
      refine ⟨r 0, h 0, fun i => r i.succ, ih.mpr (fun i => h i.succ), ?_⟩
      congr 1
      funext i
      refine Fin.cases ?_ ?_ i
      · rfl
      · intro j; rfl

theorem vec_ok {α : Type} {n : ℕ} {f : Fin n → Except Err α} {r : Fin n → α}
    (h : ∀ i, f i = .ok (r i)) : vec f = .ok r := vec_ok_iff.mpr h

/-- The error of a vectorized call is the error of one of its rows. -/
theorem vec_error {α : Type} {n : ℕ} {f : Fin n → Except Err α} {e : Err}
    (h : vec f = .error e) : ∃ i, f i = .error e := by
  induction n with
  | zero => simp [vec] at h
  | succ n ih =>
    simp only [vec] at h
    cases h0 : f 0 with
    | error e' => rw [h0] at h; simp at h; subst h; exact ⟨0, h0⟩
    | ok x =>
      rw [h0] at h
      simp only [bind_ok] at h
      cases h1 : vec (fun i => f i.succ) with
      | error e' => rw [h1] at h; simp at h; subst h; obtain ⟨i, hi⟩ := ih h1; exact ⟨_, hi⟩
      | ok xs => rw [h1] at h; simp at h

@[simp] theorem pyDiv_fin (a : ℝ) {b : ℝ} (h : b ≠ 0) :
    pyDiv (Num.fin a) (Num.fin b) = .ok (Num.fin (a / b)) := by
  simp [pyDiv, h]

@[simp] theorem pyInv_fin {a : ℝ} (h : a ≠ 0) : pyInv (Num.fin a) = .ok (Num.fin a⁻¹) := by
  simp [pyInv, h]

/-! ## Rows -/

/-- Row `i` of a column, as a one-row column. -/
def Col.row {n : ℕ} (x : Col n) (i : Fin n) : Col 1 := fun _ => x i

/-- Families of tables that are determined by their rows. -/
class Rows (A : ℕ → Type) where
  /-- the `i`-th row as a one-row table -/
  row : {n : ℕ} → A n → Fin n → A 1
  /-- a table with given rows -/
  glue : {n : ℕ} → (Fin n → A 1) → A n
  row_glue : ∀ {n} (f : Fin n → A 1) i, row (glue f) i = f i
  ext : ∀ {n} {a b : A n}, (∀ i, row a i = row b i) → a = b

instance : Rows Col where
  row := Col.row
  glue f i := f i 0
  row_glue f i := by
    funext j; rw [Subsingleton.elim j 0]; rfl
  ext h := by funext i; exact congrFun (h i) 0

instance : Rows (fun _ => Unit) where
  row _ _ := ()
  glue _ := ()
  row_glue _ _ := rfl
  ext _ := rfl

/-- Columns of an arbitrary element type. -/
instance {α : Type} : Rows (fun n => Fin n → α) where
  row a i := fun _ => a i
  glue f i := f i 0
  row_glue f i := by
    funext j; rw [Subsingleton.elim j 0]
  ext h := by funext i; exact congrFun (h i) 0

/-- `RowWise x y`: the table computation `x` succeeds exactly when each row computation `y i`
does, and row `i` of its result is the result of `y i`. -/
def RowWise {A : ℕ → Type} [Rows A] {n : ℕ} (x : Except Err (A n))
    (y : Fin n → Except Err (A 1)) : Prop :=
  ∀ r : A n, x = .ok r ↔ ∀ i, y i = .ok (Rows.row r i)

namespace RowWise

variable {A B : ℕ → Type} [Rows A] [Rows B] {n : ℕ}

theorem ok {a : A n} : RowWise (.ok a) (fun i => .ok (Rows.row a i)) := by
  intro r
  constructor
  · intro h i; injection h with h; rw [h]
  · intro h; congr 1; apply Rows.ext; intro i; have := h i; injection this

theorem ok' {a : A n} {b : Fin n → A 1} (h : ∀ i, b i = Rows.row a i) :
    RowWise (.ok a) (fun i => .ok (b i)) := by
  have : b = fun i => Rows.row a i := funext h
  rw [this]; exact ok

theorem bind {x : Except Err (A n)} {y : Fin n → Except Err (A 1)}
    {g : A n → Except Err (B n)} {g1 : Fin n → A 1 → Except Err (B 1)}
    (hx : RowWise x y) (hg : ∀ a, RowWise (g a) (fun i => g1 i (Rows.row a i))) :
    RowWise (x >>= g) (fun i => y i >>= g1 i) := by
  intro r
  constructor
  · intro h i
    obtain ⟨a, ha, hr⟩ := bind_eq_ok.mp h
    have h1 := (hx a).mp ha i
    have h2 := (hg a r).mp hr i
    show (y i >>= g1 i) = _
    rw [h1]; exact h2
  · intro h
    have h' : ∀ i, ∃ a, y i = .ok a ∧ g1 i a = .ok (Rows.row r i) :=
      fun i => bind_eq_ok.mp (h i)
    choose b hb hb2 using h'
    have hx' : x = .ok (Rows.glue b) := (hx _).mpr (fun i => by rw [hb i, Rows.row_glue])
    rw [hx']
    exact (hg _ r).mpr (fun i => by
      show g1 i (Rows.row (Rows.glue b) i) = _
      rw [Rows.row_glue]; exact hb2 i)

/-- A check with `np.any` fails exactly when it fails in some row. -/
theorem failIf {p : Prop} {q : Fin n → Prop} {e : Err} (h : p ↔ ∃ i, q i) :
    RowWise (A := fun _ => Unit) (OPE.failIf p e) (fun i => OPE.failIf (q i) e) := by
  intro r
  cases r
  show OPE.failIf p e = .ok () ↔ ∀ i, OPE.failIf (q i) e = .ok ()
  simp only [failIf_ok_iff, h]
  push Not; rfl

theorem vec {α : Type} {f : Fin n → Except Err α} {g : Fin n → Fin 1 → Except Err α}
    (h : ∀ i, g i 0 = f i) :
    RowWise (A := fun n => Fin n → α) (OPE.vec f) (fun i => OPE.vec (g i)) := by
  intro r
  rw [vec_ok_iff]
  constructor
  · intro hr i
    refine vec_ok (fun j => ?_)
    rw [Subsingleton.elim j 0, h i]; exact hr i
  · intro hr i
    rw [← h i]
    exact vec_ok_iff.mp (hr i) 0

theorem vecCol {f : Fin n → Except Err Num} {g : Fin n → Fin 1 → Except Err Num}
    (h : ∀ i, g i 0 = f i) :
    RowWise (A := Col) (OPE.vec f) (fun i => OPE.vec (g i)) := vec h

/-- If a table computation fails, some row fails alone. -/
theorem error_iff {x : Except Err (A n)} {y : Fin n → Except Err (A 1)} (h : RowWise x y) :
    (∃ e, x = .error e) ↔ ∃ i e, y i = .error e := by
  constructor
  · rintro ⟨e, he⟩
    by_contra hc
    push Not at hc
    have : ∀ i, ∃ a, y i = .ok a := by
      intro i
      cases hy : y i with
      | error e => exact absurd hy (hc i e)
      | ok a => exact ⟨a, rfl⟩
    choose b hb using this
    have : x = .ok (Rows.glue b) := (h _).mpr (fun i => by rw [hb i, Rows.row_glue])
    rw [this] at he; cases he
  · rintro ⟨i, e, he⟩
    cases hx : x with
    | error e => exact ⟨e, rfl⟩
    | ok a => have := (h a).mp hx i; rw [he] at this; cases this

end RowWise
end OPE
