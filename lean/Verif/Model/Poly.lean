import Verif.Model.Material
import Mathlib.Algebra.BigOperators.Fin
import Mathlib.Data.Fin.VecNotation

/-!
# numpy.polynomial (polyval2d, polyval3d) and material.py `polyval_material`
-/

namespace OPE

open Classical

variable {n : ℕ}

/-- `numpy.polynomial.polynomial.polyval(x, c)`: Horner's rule, lowest coefficient first, started with
`c[-1] + x*0`.  The coefficient axis has `r+1` entries (numpy raises on an empty axis). -/
noncomputable def horner (x : Num) : {r : ℕ} → (Fin (r + 1) → Num) → Num
  | 0, a => a 0 + x * Num.fin 0
  | _ + 1, a => a 0 + horner x (fun i => a i.succ) * x

/-- `polyval2d(x, y, c)`: `polyval(y, polyval(x, c))`; the inner call runs along the first axis. -/
noncomputable def polyval2d (x y : Num) {r s : ℕ} (a : Fin (r + 1) → Fin (s + 1) → ℝ) : Num :=
  horner y fun j => horner x fun i => Num.fin (a i j)

/-- `polyval3d(x, y, z, c)`: `polyval(z, polyval(y, polyval(x, c)))`. -/
noncomputable def polyval3d (x y z : Num) {r s t : ℕ}
    (a : Fin (r + 1) → Fin (s + 1) → Fin (t + 1) → ℝ) : Num :=
  horner z fun k => horner y fun j => horner x fun i => Num.fin (a i j k)

/-- Coefficients of one 2-d polynomial: a non-empty rectangular matrix of any size. -/
structure Coeffs where
  rows : ℕ
  cols : ℕ
  val : Fin (rows + 1) → Fin (cols + 1) → ℝ

/-- `polyval2d` with a coefficient matrix. -/
noncomputable def Coeffs.eval (a : Coeffs) (x y : Num) : Num := polyval2d x y a.val

/-- material.py:41-58, the row kernel `fit` of `polyval_material`. -/
noncomputable def polyfitRow (useModuli : Bool) (dc pc sc : Coeffs) (d p s v : Num) :
    Except Err (Mat 1) :=
  let a : Col 1 := fun _ => dc.eval d v
  let b : Col 1 := fun _ => pc.eval p v
  let e : Col 1 := fun _ => sc.eval s v
  if useModuli then mkModuli b e a else mkVelocities a b e

/-- material.py:17-73 `polyval_material` (arguments in the order of the signature). -/
noncomputable def polyvalMaterial (value : Col n) (m : Mat n) (dc pc sc : Coeffs) (useModuli : Bool) :
    Except Err (Mat n) :=
  vectorizeMaterial fun i =>
    if useModuli then polyfitRow true dc pc sc (m.density i) (m.bulk i) (m.shear i) (value i)
    else polyfitRow false dc pc sc (m.density i) (m.vp i) (m.vs i) (value i)

/-! ## Evaluation -/

theorem horner_fin (x : ℝ) {r : ℕ} (a : Fin (r + 1) → ℝ) :
    horner (.fin x) (fun i => .fin (a i)) = .fin (∑ i, a i * x ^ (i : ℕ)) := by
  induction r with
  | zero => simp [horner]
  | succ r ih =>
    rw [horner, ih (fun i => a i.succ)]
    conv_rhs => rw [Fin.sum_univ_succ]
    simp only [Num.fin_mul, Num.fin_add, Num.fin_inj, Fin.val_zero, pow_zero, mul_one, Fin.val_succ,
      Finset.sum_mul]
    congr 1
    apply Finset.sum_congr rfl
    intro i _; ring

/-- The value of a 2-d polynomial on finite arguments. -/
theorem polyval2d_fin (x y : ℝ) {r s : ℕ} (a : Fin (r + 1) → Fin (s + 1) → ℝ) :
    polyval2d (.fin x) (.fin y) a = .fin (∑ i, ∑ j, a i j * x ^ (i : ℕ) * y ^ (j : ℕ)) := by
  unfold polyval2d
  simp only [horner_fin]
  rw [Finset.sum_comm]
  congr 1
  apply Finset.sum_congr rfl
  intro j _
  rw [Finset.sum_mul]

/-- The value of a 3-d polynomial on finite arguments. -/
theorem polyval3d_fin (x y z : ℝ) {r s t : ℕ}
    (a : Fin (r + 1) → Fin (s + 1) → Fin (t + 1) → ℝ) :
    polyval3d (.fin x) (.fin y) (.fin z) a
      = .fin (∑ k, (∑ j, (∑ i, a i j k * x ^ (i : ℕ)) * y ^ (j : ℕ)) * z ^ (k : ℕ)) := by
  unfold polyval3d
  simp only [horner_fin]

/-- The mathematical value of a coefficient matrix. -/
noncomputable def Coeffs.poly (a : Coeffs) (x y : ℝ) : ℝ :=
  ∑ i, ∑ j, a.val i j * x ^ (i : ℕ) * y ^ (j : ℕ)

theorem Coeffs.eval_fin (a : Coeffs) (x y : ℝ) : a.eval (.fin x) (.fin y) = .fin (a.poly x y) :=
  polyval2d_fin x y a.val

end OPE
