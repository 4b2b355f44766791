import Verif.Model.SpanWagner

/-!
# generate_span_wagner_tables.py and tables/lookup_table.py: how the density table is made

Arrays of two dimensions are functions of two indices; numpy's row-major order of `flatten` and `reshape` is
explicit.  The grid is computed with real numbers.  Writing the file (`np.savez`) and reading it (`np.load`) are
taken to give back what was written.
-/

namespace OPE.CO2

/-- `numpy.arange(a, b, step=s)`. -/
noncomputable def arange (a b s : ℝ) : List ℝ := (List.range ⌈(b - a) / s⌉₊).map fun i : ℕ => a + i * s

/-- generate_span_wagner_tables.py:13-15 `t_density`. -/
noncomputable def tDensity : List ℝ := (arange 0 50 0.05 ++ arange 50 200.1 0.5).map (273.15 + ·)

/-- generate_span_wagner_tables.py:16 `p_density`. -/
noncomputable def pDensity : List ℝ := arange 0.5 10 0.01 ++ arange 10 100.1 0.1

/-- `ndarray.flatten()`: the element at position `p` is in row `p / k`, column `p % k`. -/
def flatten {α : Type} {m k : ℕ} (g : Fin m → Fin k → α) : Fin (m * k) → α := fun p => g p.divNat p.modNat

/-- `ndarray.reshape((m, k))`: row `i`, column `j` is the element at position `i * k + j`. -/
def reshape {α : Type} {m k : ℕ} (z : Fin (m * k) → α) : Fin m → Fin k → α :=
  fun i j => z ⟨i * k + j, by
    have h1 := i.isLt
    have h2 := j.isLt
    calc (i : ℕ) * k + j < i * k + k := by omega
      _ = (i + 1) * k := by ring
      _ ≤ m * k := Nat.mul_le_mul_right k h1⟩

/-- lookup_table.py:7-13 `generate_lookup_table`: the values on the grid. -/
def generateValues {m k : ℕ} (func : Col (m * k) → Col (m * k) → Except Err (Col (m * k)))
    (x : Fin m → Num) (y : Fin k → Num) : Except Err (Fin m → Fin k → Num) := do
  -- np.meshgrid(x, y, indexing="ij")
  let g1 : Fin m → Fin k → Num := fun i _ => x i
  let g2 : Fin m → Fin k → Num := fun _ j => y j
  let z ← func (flatten g1) (flatten g2)
  .ok (reshape z)

/-- lookup_table.py:12, :17-21: the file written and loaded again. -/
def tableFile (x y : List ℝ) (z : Fin x.length → Fin y.length → Num) : Table where
  nx := x.length - 1
  ny := y.length - 1
  x := fun i => x.getD i 0
  y := fun j => y.getD j 0
  z := fun i j => if h : i < x.length ∧ j < y.length then z ⟨i, h.1⟩ ⟨j, h.2⟩ else .nan

/-- generate_span_wagner_tables.py:19-28 `run`, for any grid. -/
noncomputable def generateTable (solve : RootFinder) (x y : List ℝ) : Except Err Table := do
  let z ← generateValues (fun T P => vec fun i => calculateDensity solve (T i) (P i) .auto true)
    (fun i => Num.fin (x.get i)) (fun j => Num.fin (y.get j))
  .ok (tableFile x y z)

/-- generate_span_wagner_tables.py:19-28 `run`. -/
noncomputable def shippedTable (solve : RootFinder) : Except Err Table := generateTable solve tDensity pDensity

end OPE.CO2
