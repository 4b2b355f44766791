import Verif.Col

/-!
# Material (material/material.py, material/seismic_velocity.py)
-/

namespace OPE

open Classical

variable {n : ℕ}

/-- A `Material` instance: five columns (material.py:104-112, attributes set in 133-137). -/
@[ext] structure Mat (n : ℕ) where
  bulk : Col n
  shear : Col n
  density : Col n
  vp : Col n
  vs : Col n

/-- seismic_velocity.py:30-39 `calculate_shear_modulus`: `secondary_velocity**2 * density`. -/
noncomputable def calcShear (vs density : Col n) : Col n :=
  fun i => Num.powi (vs i) 2 * density i

/-- seismic_velocity.py:42-52 `calculate_bulk_modulus`:
`primary_velocity**2 * density - 4/3 * shear_modulus`. -/
noncomputable def calcBulk (vp shear density : Col n) : Col n :=
  fun i => Num.powi (vp i) 2 * density i - Num.fin (4/3) * shear i

/-- seismic_velocity.py:55-65 `calculate_primary_velocity`:
`((bulk + 4/3 shear) / density) ** 0.5`.  `x ** 0.5` is numpy's square root. -/
noncomputable def calcVp (bulk shear density : Col n) : Col n :=
  fun i => Num.sqrt ((bulk i + Num.fin (4/3) * shear i) / density i)

/-- seismic_velocity.py:68-78 `calculate_secondary_velocity`: `(shear / density) ** 0.5`. -/
noncomputable def calcVs (shear density : Col n) : Col n :=
  fun i => Num.sqrt (shear i / density i)

/-- material.py:155-180 `set_defaults`: shear first, then bulk, then vp, then vs.  The result is the
five attributes; only `density` can still be `None`. -/
noncomputable def setDefaults (bulk shear density vs vp : Option (Col n)) :
    Except Err (Col n × Col n × Option (Col n) × Col n × Col n) := do
  let shear ← match shear with            -- :156-161
    | some g => .ok g
    | none => match vs, density with
      | some s, some d => .ok (calcShear s d)
      | _, _ => .error .valueError
  let bulk ← match bulk with              -- :162-167
    | some k => .ok k
    | none => match vp, density with
      | some p, some d => .ok (calcBulk p shear d)
      | _, _ => .error .valueError
  let vp ← match vp with                  -- :168-173
    | some p => .ok p
    | none => match density with
      | some d => .ok (calcVp bulk shear d)
      | none => .error .valueError
  let vs ← match vs with                  -- :174-179
    | some s => .ok s
    | none => match density with
      | some d => .ok (calcVs shear d)
      | none => .error .valueError
  .ok (bulk, shear, density, vs, vp)

/-- material.py:140-153: the checks after `set_defaults`, in order. -/
noncomputable def checkMaterial (m : Mat n) : Except Err Unit := do
  failIf (∃ i, m.density i < Num.fin 0) .valueError
  failIf (∃ i, m.bulk i < Num.fin 0) .valueError
  failIf (∃ i, m.shear i < Num.fin 0) .valueError
  failIf (∃ i, m.vp i < Num.fin 0) .valueError
  failIf (∃ i, m.vs i < Num.fin 0) .valueError
  failIf (∃ i, m.vp i < Num.fin (Real.sqrt (4/3)) * m.vs i) .valueError

/-- material.py:114-153 `Material.__init__` (arguments in the order of the signature).
`None < 0` on a missing density raises `TypeError` (:140). -/
noncomputable def mkMaterial (bulk shear density vs vp : Option (Col n)) : Except Err (Mat n) := do
  let (bulk, shear, density, vs, vp) ← setDefaults bulk shear density vs vp
  match density with
  | none => .error .typeError
  | some d =>
    let m : Mat n := ⟨bulk, shear, d, vp, vs⟩
    checkMaterial m
    .ok m

/-- `Material(bulk_modulus=…, shear_modulus=…, density=…)`, the form used by all models. -/
noncomputable def mkModuli (bulk shear density : Col n) : Except Err (Mat n) :=
  mkMaterial (some bulk) (some shear) (some density) none none

/-- `Material(density=…, primary_velocity=…, secondary_velocity=…)`. -/
noncomputable def mkVelocities (density vp vs : Col n) : Except Err (Mat n) :=
  mkMaterial none none (some density) (some vs) (some vp)

/-- material.py:182-192 `poisson_ratio`. -/
noncomputable def Mat.poisson (m : Mat n) : Col n :=
  (c 3 * m.bulk - c 2 * m.shear) / (c 2 * (c 3 * m.bulk + m.shear))

/-- material.py:195-203 `primary_wave_modulus`. -/
noncomputable def Mat.pModulus (m : Mat n) : Col n := m.bulk + c (4/3) * m.shear

/-- material.py:206-207 `acoustic_impedance`. -/
noncomputable def Mat.acousticImpedance (m : Mat n) : Col n := m.vp * m.density

/-- material.py:210-211 `shear_impedance`. -/
noncomputable def Mat.shearImpedance (m : Mat n) : Col n := m.vs * m.density

/-- material.py:76-101 `vectorize_material`: `f` is called once per row (each call builds a
one-row `Material`), then a `Material` is rebuilt from density and velocities of the rows.
(The scalar case, which returns the single material unchanged, is `vectorizeMaterialScalar`.) -/
noncomputable def vectorizeMaterial (f : Fin n → Except Err (Mat 1)) : Except Err (Mat n) := do
  let ms ← vec f
  mkVelocities (fun i => (ms i).density 0) (fun i => (ms i).vp 0) (fun i => (ms i).vs 0)

/-- material.py:97-98: for scalar arguments the material is returned as built. -/
def vectorizeMaterialScalar (f : Except Err (Mat 1)) : Except Err (Mat 1) := f

/-! ## Finite materials -/

/-- The material with finite moduli `K`, `G` and density `ρ` and derived velocities. -/
noncomputable def Mat.ofReal (K G ρ : Fin n → ℝ) : Mat n where
  bulk := finC K
  shear := finC G
  density := finC ρ
  vp := finC (fun i => Real.sqrt ((K i + 4/3 * G i) / ρ i))
  vs := finC (fun i => Real.sqrt (G i / ρ i))

@[simp] theorem Mat.ofReal_bulk (K G ρ : Fin n → ℝ) : (Mat.ofReal K G ρ).bulk = finC K := rfl
@[simp] theorem Mat.ofReal_shear (K G ρ : Fin n → ℝ) : (Mat.ofReal K G ρ).shear = finC G := rfl
@[simp] theorem Mat.ofReal_density (K G ρ : Fin n → ℝ) : (Mat.ofReal K G ρ).density = finC ρ := rfl

/-- `m` has finite bulk modulus `K`, shear modulus `G` and density `ρ` (velocities unconstrained). -/
def Mat.Has (m : Mat n) (K G ρ : Fin n → ℝ) : Prop :=
  m.bulk = finC K ∧ m.shear = finC G ∧ m.density = finC ρ

theorem Mat.ofReal_has (K G ρ : Fin n → ℝ) : (Mat.ofReal K G ρ).Has K G ρ := ⟨rfl, rfl, rfl⟩

theorem not_exists_lt_zero {x : Fin n → ℝ} (h : ∀ i, 0 ≤ x i) :
    ¬ ∃ i, finC x i < Num.fin 0 := by
  rintro ⟨i, hi⟩
  simp only [finC_apply, Num.fin_lt] at hi
  exact absurd hi (not_lt.mpr (h i))

/-- The constructor succeeds on non-negative moduli and positive density. -/
theorem mkModuli_ofReal {K G ρ : Fin n → ℝ} (hK : ∀ i, 0 ≤ K i) (hG : ∀ i, 0 ≤ G i)
    (hρ : ∀ i, 0 < ρ i) :
    mkModuli (finC K) (finC G) (finC ρ) = .ok (Mat.ofReal K G ρ) := by
  have hvp : calcVp (finC K) (finC G) (finC ρ)
      = finC (fun i => Real.sqrt ((K i + 4/3 * G i) / ρ i)) := by
    funext i
    have h1 : 0 ≤ (K i + 4/3 * G i) / ρ i :=
      div_nonneg (add_nonneg (hK i) (mul_nonneg (by norm_num) (hG i))) (hρ i).le
    simp [calcVp, (hρ i).ne', h1]
  have hvs : calcVs (finC G) (finC ρ) = finC (fun i => Real.sqrt (G i / ρ i)) := by
    funext i
    have h1 : 0 ≤ G i / ρ i := div_nonneg (hG i) (hρ i).le
    simp [calcVs, (hρ i).ne', h1]
  have hlast : ¬ ∃ i, finC (fun i => Real.sqrt ((K i + 4/3 * G i) / ρ i)) i
      < Num.fin (Real.sqrt (4/3)) * finC (fun i => Real.sqrt (G i / ρ i)) i := by
    rintro ⟨i, hi⟩
    simp only [finC_apply, Num.fin_mul, Num.fin_lt] at hi
    rw [← Real.sqrt_mul (by norm_num)] at hi
    refine absurd hi (not_lt.mpr (Real.sqrt_le_sqrt ?_))
    have : 0 ≤ K i / ρ i := div_nonneg (hK i) (hρ i).le
    have e : (K i + 4/3 * G i) / ρ i = K i / ρ i + 4/3 * (G i / ρ i) := by ring
    rw [e]; linarith
  simp only [mkModuli, mkMaterial, setDefaults, bind_ok, hvp, hvs, checkMaterial,
    failIf_false (not_exists_lt_zero (fun i => (hρ i).le)), failIf_false (not_exists_lt_zero hK),
    failIf_false (not_exists_lt_zero hG),
    failIf_false (not_exists_lt_zero (x := fun i => Real.sqrt ((K i + 4/3 * G i) / ρ i))
      (fun i => Real.sqrt_nonneg _)),
    failIf_false (not_exists_lt_zero (x := fun i => Real.sqrt (G i / ρ i))
      (fun i => Real.sqrt_nonneg _)), failIf_false hlast]
  rfl

end OPE
