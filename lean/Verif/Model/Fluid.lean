import Verif.Model.Material
import Mathlib.Algebra.BigOperators.Group.List.Basic
import Mathlib.Algebra.Order.BigOperators.Group.List

/-!
# material/fluid.py
-/

namespace OPE

open Classical

variable {n : ℕ}

/-- fluid.py:12-16 `fluid_material(bulk_modulus=…, density=…)`: a Material with shear modulus 0. -/
noncomputable def fluidMaterial (bulk density : Col n) : Except Err (Mat n) :=
  mkMaterial (some bulk) (some (c 0)) (some density) none none

/-- Python's `sum` of a list of columns (starts from 0, left to right). -/
def sumCols (xs : List (Col n)) : Col n := xs.foldl (· + ·) (c 0)

/-- fluid.py:19-25 `sum_saturations_to_one`. -/
noncomputable def sumSaturationsToOne (sats : List (Col n)) : List (Col n) :=
  let total := sumCols sats
  let adjusted : Col n := fun i => Num.maximum (total i) (Num.fin 1e-15)
  sats.map fun s => fun i =>
    (if Num.fin 0 < total i then s i else Num.fin 1e-15) / adjusted i

/-- fluid.py:28-31 `mix_densities` (`zip` stops at the shorter list). -/
noncomputable def mixDensities (fluids : List (Mat n)) (sats : List (Col n)) : Col n :=
  sumCols ((fluids.zip sats).map fun p => p.1.density * p.2)

/-- fluid.py:34-35 `mix_bulk_moduli`: `1.0 / sum(s / f.bulk_modulus)`.  With nothing to sum the
divisor is the Python integer 0 and Python raises `ZeroDivisionError`. -/
noncomputable def mixBulkModuli (fluids : List (Mat n)) (sats : List (Col n)) :
    Except Err (Col n) :=
  if (sats.zip fluids).isEmpty then .error .zeroDivision
  else .ok (c 1 / sumCols ((sats.zip fluids).map fun p => p.1 / p.2.bulk))

/-- fluid.py:38-52 `wood_fluid_mixing`. -/
noncomputable def wood (fluids : List (Mat n)) (sats : List (Col n)) : Except Err (Mat n) := do
  let sats := sumSaturationsToOne sats
  let bulk ← mixBulkModuli fluids sats
  fluidMaterial bulk (mixDensities fluids sats)

/-- fluid.py:55-96 `brie_fluid_mixing` (`exponent` defaults to 3.0 in the signature). -/
noncomputable def brie (fluids : List (Mat n)) (fluidSats : List (Col n)) (gases : List (Mat n))
    (gasSats : List (Col n)) (exponent : Col n) : Except Err (Mat n) := do
  failIf (fluids.length ≠ fluidSats.length) .valueError
  failIf (gases.length ≠ gasSats.length) .valueError
  -- :79-82: the mixes are computed when the lists are non-empty, liquid first
  if fluids.length ≠ 0 then
    let liquid ← wood fluids fluidSats
    if gases.length ≠ 0 then
      let gas ← wood gases gasSats
      let totalFluid := sumCols fluidSats
      let bulkMix : Col n :=
        (liquid.bulk - gas.bulk) * (fun i => Num.pow (totalFluid i) (exponent i)) + gas.bulk
      let densityMix := mixDensities [liquid, gas] [totalFluid, c 1 - totalFluid]
      fluidMaterial bulkMix densityMix
    else
      .ok liquid
  else if gases.length ≠ 0 then
    wood gases gasSats
  else
    .error .valueError

/-- fluid.py:115-147 kernel `gassman_equation`. -/
noncomputable def gassmann (kd km kf phi : Num) : Except Err Num :=
  if Num.eq phi (Num.fin 0) then .ok km
  else if Num.eq kd km then .ok km
  else do
    let a ← pyDiv kd (km - kd)
    let b ← pyDiv kf ((km - kf) * phi)
    let factor := a + b
    failIf (factor < Num.fin 0) .valueError
    let q ← pyDiv factor (Num.fin 1 + factor)
    .ok (q * km)

/-- fluid.py:99-154 `fluid_substitution`. -/
noncomputable def fluidSubstitution (dry mineral fluid : Mat n) (porosity : Col n) :
    Except Err (Mat n) := do
  let k ← vec fun i => gassmann (dry.bulk i) (mineral.bulk i) (fluid.bulk i) (porosity i)
  mkModuli k dry.shear (dry.density + porosity * fluid.density)

/-! ## Lemmas -/

theorem Num.add_comm' (a b : Num) : a + b = b + a := by
  cases a <;> cases b <;> first | rfl | (simp; exact add_comm _ _)

theorem Num.add_assoc' (a b d : Num) : a + b + d = a + (b + d) := by
  cases a <;> cases b <;> cases d <;> first | rfl | (simp; exact add_assoc _ _ _)

theorem Num.zero_add' (a : Num) : Num.fin 0 + a = a := by
  cases a <;> first | rfl | simp

instance : Zero Num := ⟨Num.fin 0⟩

instance : AddCommMonoid Num where
  add_assoc := Num.add_assoc'
  zero_add := Num.zero_add'
  add_zero a := by rw [Num.add_comm']; exact Num.zero_add' _
  add_comm := Num.add_comm'
  nsmul := nsmulRec

theorem sumCols_eq_sum (xs : List (Col n)) : sumCols xs = xs.sum := by
  rw [List.sum_eq_foldl]; rfl

theorem sumCols_perm {xs ys : List (Col n)} (h : xs.Perm ys) : sumCols xs = sumCols ys := by
  rw [sumCols_eq_sum, sumCols_eq_sum]; exact h.sum_eq

theorem sumCols_fin {α : Type} (L : List α) (g : α → Fin n → ℝ) :
    sumCols (L.map fun x => finC (g x)) = finC (fun i => (L.map (fun x => g x i)).sum) := by
  rw [sumCols_eq_sum]
  induction L with
  | nil => rfl
  | cons x L ih =>
    simp only [List.map_cons, List.sum_cons]
    rw [ih]; funext i; rfl

theorem fluidMaterial_ofReal {K ρ : Fin n → ℝ} (hK : ∀ i, 0 ≤ K i) (hρ : ∀ i, 0 < ρ i) :
    fluidMaterial (finC K) (finC ρ) = .ok (Mat.ofReal K (fun _ => 0) ρ) :=
  mkModuli_ofReal hK (fun _ => le_refl _) hρ

/-- A fluid with finite bulk modulus and density together with its saturation. -/
structure FluidIn (n : ℕ) where
  mat : Mat n
  K : Fin n → ℝ
  ρ : Fin n → ℝ
  s : Fin n → ℝ
  bulk : mat.bulk = finC K
  density : mat.density = finC ρ

namespace FluidIn

/-- Total saturation of row `i`. -/
def total (L : List (FluidIn n)) (i : Fin n) : ℝ := (L.map fun x => x.s i).sum

/-- The weight the code gives to a fluid in row `i`. -/
noncomputable def weight (L : List (FluidIn n)) (x : FluidIn n) (i : Fin n) : ℝ :=
  if 0 < total L i then x.s i / max (total L i) 1e-15 else 1

/-- wood_fluid_mixing on the list. -/
noncomputable def wood (L : List (FluidIn n)) : Except Err (Mat n) :=
  OPE.wood (L.map (·.mat)) (L.map fun x => finC x.s)

theorem sumSaturations (L : List (FluidIn n)) :
    sumSaturationsToOne (L.map fun x => finC x.s) = L.map fun x => finC (weight L x) := by
  unfold sumSaturationsToOne
  simp only [sumCols_fin L (fun x => x.s), List.map_map]
  apply List.map_congr_left
  intro x _
  funext i
  simp only [Function.comp, finC_apply, Num.fin_lt, Num.fin_maximum]
  have hm : max ((L.map fun x => x.s i).sum) (1e-15 : ℝ) ≠ 0 :=
    (lt_of_lt_of_le (by norm_num) (le_max_right _ _)).ne'
  unfold weight total
  split
  · rw [Num.fin_div _ hm]
  · rename_i h
    rw [Num.fin_div _ hm, max_eq_right (le_trans (not_lt.mp h) (by norm_num)), div_self (by norm_num)]

theorem mixDensities (L : List (FluidIn n)) (w : FluidIn n → Fin n → ℝ) :
    OPE.mixDensities (L.map (·.mat)) (L.map fun x => finC (w x))
      = finC fun i => (L.map fun x => x.ρ i * w x i).sum := by
  unfold OPE.mixDensities
  rw [List.zip_map', List.map_map, ← sumCols_fin L (fun x i => x.ρ i * w x i)]
  congr 1
  apply List.map_congr_left
  intro x _
  simp only [Function.comp, x.density]; funext i; simp

theorem mixBulk {L : List (FluidIn n)} (hne : L ≠ []) (hK : ∀ x ∈ L, ∀ i, x.K i ≠ 0)
    (w : FluidIn n → Fin n → ℝ) :
    OPE.mixBulkModuli (L.map (·.mat)) (L.map fun x => finC (w x))
      = .ok (c 1 / finC fun i => (L.map fun x => w x i / x.K i).sum) := by
  unfold OPE.mixBulkModuli
  rw [List.zip_map', if_neg (by cases L <;> simp at hne ⊢), List.map_map,
    ← sumCols_fin L (fun x i => w x i / x.K i)]
  congr 3
  apply List.map_congr_left
  intro x hx
  simp only [Function.comp, x.bulk]; funext i; simp [hK x hx i]

theorem sum_pos_of_exists {α : Type} {L : List α} {g : α → ℝ} (h0 : ∀ x ∈ L, 0 ≤ g x)
    (h : ∃ x ∈ L, 0 < g x) : 0 < (L.map g).sum := by
  induction L with
  | nil => obtain ⟨x, hx, _⟩ := h; simp at hx
  | cons y L ih =>
    simp only [List.map_cons, List.sum_cons]
    have hL : 0 ≤ (L.map g).sum := by
      apply List.sum_nonneg; intro a ha
      obtain ⟨x, hx, rfl⟩ := List.mem_map.mp ha
      exact h0 x (List.mem_cons_of_mem _ hx)
    obtain ⟨x, hx, hp⟩ := h
    rcases List.mem_cons.mp hx with rfl | hx
    · linarith
    · have := ih (fun x hx => h0 x (List.mem_cons_of_mem _ hx)) ⟨x, hx, hp⟩
      have := h0 y List.mem_cons_self
      linarith

theorem exists_pos_of_sum_pos {α : Type} {L : List α} {g : α → ℝ} (h : 0 < (L.map g).sum) :
    ∃ x ∈ L, 0 < g x := by
  by_contra hc
  push Not at hc
  have : (L.map g).sum ≤ 0 := by
    clear h
    induction L with
    | nil => simp
    | cons y L ih =>
      simp only [List.map_cons, List.sum_cons]
      have := hc y List.mem_cons_self
      have := ih (fun x hx => hc x (List.mem_cons_of_mem _ hx))
      linarith
  linarith

variable {L : List (FluidIn n)}

theorem weight_nonneg (hs : ∀ x ∈ L, ∀ i, 0 ≤ x.s i) {x : FluidIn n} (hx : x ∈ L) (i : Fin n) :
    0 ≤ weight L x i := by
  unfold weight; split
  · exact div_nonneg (hs x hx i) (le_trans (by norm_num) (le_max_right _ _))
  · norm_num

theorem weight_exists_pos (hne : L ≠ []) (i : Fin n) :
    ∃ x ∈ L, 0 < weight L x i := by
  unfold weight
  by_cases h : 0 < total L i
  · obtain ⟨x, hx, hp⟩ := exists_pos_of_sum_pos h
    refine ⟨x, hx, ?_⟩
    rw [if_pos h]
    exact div_pos hp (lt_of_lt_of_le (by norm_num) (le_max_right _ _))
  · obtain ⟨x, hx⟩ := List.exists_mem_of_ne_nil L hne
    exact ⟨x, hx, by rw [if_neg h]; norm_num⟩

/-- Evaluation of Wood's law for any non-empty list of stiff fluids and non-negative saturations. -/
theorem wood_fin (hne : L ≠ []) (hK : ∀ x ∈ L, ∀ i, 0 < x.K i) (hρ : ∀ x ∈ L, ∀ i, 0 < x.ρ i)
    (hs : ∀ x ∈ L, ∀ i, 0 ≤ x.s i) :
    wood L = .ok (Mat.ofReal (fun i => ((L.map fun x => weight L x i / x.K i).sum)⁻¹)
      (fun _ => 0) (fun i => (L.map fun x => x.ρ i * weight L x i).sum)) ∧
    (∀ i, 0 < (L.map fun x => weight L x i / x.K i).sum) ∧
    (∀ i, 0 < (L.map fun x => x.ρ i * weight L x i).sum) := by
  have p1 : ∀ i, 0 < (L.map fun x => weight L x i / x.K i).sum := fun i => by
    apply sum_pos_of_exists
    · intro x hx; exact div_nonneg (weight_nonneg hs hx i) (hK x hx i).le
    · obtain ⟨x, hx, hp⟩ := weight_exists_pos hne i
      exact ⟨x, hx, div_pos hp (hK x hx i)⟩
  have p2 : ∀ i, 0 < (L.map fun x => x.ρ i * weight L x i).sum := fun i => by
    apply sum_pos_of_exists
    · intro x hx; exact mul_nonneg (hρ x hx i).le (weight_nonneg hs hx i)
    · obtain ⟨x, hx, hp⟩ := weight_exists_pos hne i
      exact ⟨x, hx, mul_pos (hρ x hx i) hp⟩
  refine ⟨?_, p1, p2⟩
  unfold wood OPE.wood
  simp only [sumSaturations, mixDensities]
  rw [mixBulk hne (fun x hx i => (hK x hx i).ne'), bind_ok,
    ← fluidMaterial_ofReal (fun i => (inv_pos.mpr (p1 i)).le) p2]
  congr 1
  funext i
  simp [(p1 i).ne']

end FluidIn
end OPE
