import Verif.Model.Poly
import Verif.Props.Material

/-!
# Properties of polynomial fits (C45)
-/

namespace OPE

open Classical

variable {n : ℕ}

theorem mkModuli_row {K G ρ : ℝ} (hK : 0 ≤ K) (hG : 0 ≤ G) (hρ : 0 < ρ) :
    mkModuli (fun _ : Fin 1 => .fin K) (fun _ => .fin G) (fun _ => .fin ρ)
      = .ok (Mat.ofReal (fun _ => K) (fun _ => G) (fun _ => ρ)) :=
  mkModuli_ofReal (K := fun _ => K) (G := fun _ => G) (ρ := fun _ => ρ) (fun _ => hK) (fun _ => hG)
    (fun _ => hρ)

/-- Rebuilding a finite material from density and velocities gives the material. -/
theorem mkVelocities_of_ofReal {K G ρ : Fin n → ℝ} (hK : ∀ i, 0 ≤ K i) (hG : ∀ i, 0 ≤ G i)
    (hρ : ∀ i, 0 < ρ i) :
    mkVelocities (Mat.ofReal K G ρ).density (Mat.ofReal K G ρ).vp (Mat.ofReal K G ρ).vs
      = .ok (Mat.ofReal K G ρ) := by
  obtain ⟨m, h1, h2⟩ := C02_moduli_round_trip K G ρ hK hG hρ
  have e := mkModuli_ofReal hK hG hρ
  unfold mkModuli at e
  rw [e] at h1
  injection h1 with h1
  subst h1
  exact h2

/-- The rows of a vectorized material function are re-assembled. -/
theorem vectorizeMaterial_ofReal {f : Fin n → Except Err (Mat 1)} {K G ρ : Fin n → ℝ}
    (hf : ∀ i, f i = .ok (Mat.ofReal (fun _ => K i) (fun _ => G i) (fun _ => ρ i)))
    (hK : ∀ i, 0 ≤ K i) (hG : ∀ i, 0 ≤ G i) (hρ : ∀ i, 0 < ρ i) :
    vectorizeMaterial f = .ok (Mat.ofReal K G ρ) := by
  unfold vectorizeMaterial
  rw [vec_ok hf, bind_ok]
  exact mkVelocities_of_ofReal hK hG hρ

/-- **C45, moduli.** With `use_moduli` the fit is, per row, the mathematical polynomial
`sum_ij c[i][j] property^i value^j` of density, bulk and shear modulus, whenever that is physical. -/
theorem C45_moduli_fit {m : Mat n} {K G ρ v : Fin n → ℝ} (hm : m.Has K G ρ) (dc pc sc : Coeffs)
    (hd : ∀ i, 0 < ∑ a, ∑ b, dc.val a b * ρ i ^ (a : ℕ) * v i ^ (b : ℕ))
    (hp : ∀ i, 0 ≤ ∑ a, ∑ b, pc.val a b * K i ^ (a : ℕ) * v i ^ (b : ℕ))
    (hs : ∀ i, 0 ≤ ∑ a, ∑ b, sc.val a b * G i ^ (a : ℕ) * v i ^ (b : ℕ)) :
    ∃ r, polyvalMaterial (finC v) m dc pc sc true = .ok r ∧
      r.density = finC (fun i => ∑ a, ∑ b, dc.val a b * ρ i ^ (a : ℕ) * v i ^ (b : ℕ)) ∧
      r.bulk = finC (fun i => ∑ a, ∑ b, pc.val a b * K i ^ (a : ℕ) * v i ^ (b : ℕ)) ∧
      r.shear = finC (fun i => ∑ a, ∑ b, sc.val a b * G i ^ (a : ℕ) * v i ^ (b : ℕ)) := by
  refine ⟨Mat.ofReal (fun i => pc.poly (K i) (v i)) (fun i => sc.poly (G i) (v i))
    (fun i => dc.poly (ρ i) (v i)), ?_, rfl, rfl, rfl⟩
  unfold polyvalMaterial
  refine vectorizeMaterial_ofReal (fun i => ?_) hp hs hd
  simp only [if_true, polyfitRow, hm.1, hm.2.1, hm.2.2, finC_apply, Coeffs.eval_fin]
  exact mkModuli_row (hp i) (hs i) (hd i)

/-- **C45, velocities.** Without `use_moduli` the polynomials are applied to density and velocities. -/
theorem C45_velocity_fit {m : Mat n} {ρ vp vs v : Fin n → ℝ} (h1 : m.density = finC ρ)
    (h2 : m.vp = finC vp) (h3 : m.vs = finC vs) (dc pc sc : Coeffs)
    (hd : ∀ i, 0 < ∑ a, ∑ b, dc.val a b * ρ i ^ (a : ℕ) * v i ^ (b : ℕ))
    (hs : ∀ i, 0 ≤ ∑ a, ∑ b, sc.val a b * vs i ^ (a : ℕ) * v i ^ (b : ℕ))
    (hp : ∀ i, Real.sqrt (4/3) * ∑ a, ∑ b, sc.val a b * vs i ^ (a : ℕ) * v i ^ (b : ℕ)
      ≤ ∑ a, ∑ b, pc.val a b * vp i ^ (a : ℕ) * v i ^ (b : ℕ)) :
    ∃ r, polyvalMaterial (finC v) m dc pc sc false = .ok r ∧
      r.density = finC (fun i => ∑ a, ∑ b, dc.val a b * ρ i ^ (a : ℕ) * v i ^ (b : ℕ)) ∧
      r.vp = finC (fun i => ∑ a, ∑ b, pc.val a b * vp i ^ (a : ℕ) * v i ^ (b : ℕ)) ∧
      r.vs = finC (fun i => ∑ a, ∑ b, sc.val a b * vs i ^ (a : ℕ) * v i ^ (b : ℕ)) := by
  unfold polyvalMaterial vectorizeMaterial
  have hrow : ∀ i, (if False then polyfitRow true dc pc sc (m.density i) (m.bulk i) (m.shear i)
        (finC v i) else polyfitRow false dc pc sc (m.density i) (m.vp i) (m.vs i) (finC v i)) =
      .ok ⟨fun _ => .fin (pc.poly (vp i) (v i) ^ 2 * dc.poly (ρ i) (v i)
          - 4/3 * (sc.poly (vs i) (v i) ^ 2 * dc.poly (ρ i) (v i))),
        fun _ => .fin (sc.poly (vs i) (v i) ^ 2 * dc.poly (ρ i) (v i)),
        fun _ => .fin (dc.poly (ρ i) (v i)), fun _ => .fin (pc.poly (vp i) (v i)),
        fun _ => .fin (sc.poly (vs i) (v i))⟩ := by
    intro i
    simp only [if_false, polyfitRow, h1, h2, h3, finC_apply, Coeffs.eval_fin, Bool.false_eq_true]
    exact mkVelocities_ofReal (n := 1) (ρ := fun _ => dc.poly (ρ i) (v i))
      (vp := fun _ => pc.poly (vp i) (v i)) (vs := fun _ => sc.poly (vs i) (v i))
      (fun _ => hd i) (fun _ => hs i) (fun _ => hp i)
  simp only [Bool.false_eq_true]
  rw [vec_ok hrow, bind_ok]
  exact ⟨_, mkVelocities_ofReal (ρ := fun i => dc.poly (ρ i) (v i))
      (vp := fun i => pc.poly (vp i) (v i)) (vs := fun i => sc.poly (vs i) (v i)) hd hs hp,
    rfl, rfl, rfl⟩

/-- The identity coefficients `[[0, 0], [1, 0]]`. -/
def identityCoeffs : Coeffs := ⟨1, 1, ![![0, 0], ![1, 0]]⟩

theorem identityCoeffs_poly (x y : ℝ) : identityCoeffs.poly x y = x := by
  show ∑ i : Fin 2, ∑ j : Fin 2, (![![0, 0], ![1, 0]] : Fin 2 → Fin 2 → ℝ) i j * x ^ (i : ℕ)
    * y ^ (j : ℕ) = x
  simp [Fin.sum_univ_two]

/-- **C45, identity.** The identity coefficients leave every (physical) material unchanged, for
moduli and for velocities and for every value. -/
theorem C45_identity (K G ρ v : Fin n → ℝ) (hK : ∀ i, 0 ≤ K i) (hG : ∀ i, 0 ≤ G i)
    (hρ : ∀ i, 0 < ρ i) (useModuli : Bool) :
    polyvalMaterial (finC v) (Mat.ofReal K G ρ) identityCoeffs identityCoeffs identityCoeffs useModuli
      = .ok (Mat.ofReal K G ρ) := by
  unfold polyvalMaterial
  refine vectorizeMaterial_ofReal (fun i => ?_) hK hG hρ
  cases useModuli with
  | true =>
    simp only [if_true, polyfitRow, Mat.ofReal_bulk, Mat.ofReal_shear, Mat.ofReal_density, finC_apply,
      Coeffs.eval_fin, identityCoeffs_poly]
    exact mkModuli_row (hK i) (hG i) (hρ i)
  | false =>
    simp only [Bool.false_eq_true, if_false, polyfitRow, Mat.ofReal, finC_apply, Coeffs.eval_fin,
      identityCoeffs_poly]
    exact mkVelocities_of_ofReal (n := 1) (K := fun _ => K i) (G := fun _ => G i) (ρ := fun _ => ρ i)
      (fun _ => hK i) (fun _ => hG i) (fun _ => hρ i)

/-- **C45, rejection.** If in some row the fitted density or modulus (velocity) is negative, or the
fitted velocities violate vp >= sqrt(4/3) vs, the fit raises ValueError. -/
theorem C45_invalid_rejected {m : Mat n} {x y z v : Fin n → ℝ} (dc pc sc : Coeffs) (useModuli : Bool)
    (h1 : m.density = finC x) (h2 : (if useModuli then m.bulk else m.vp) = finC y)
    (h3 : (if useModuli then m.shear else m.vs) = finC z)
    (hbad : ∃ i, ∑ a, ∑ b, dc.val a b * x i ^ (a : ℕ) * v i ^ (b : ℕ) < 0 ∨
      ∑ a, ∑ b, pc.val a b * y i ^ (a : ℕ) * v i ^ (b : ℕ) < 0 ∨
      ∑ a, ∑ b, sc.val a b * z i ^ (a : ℕ) * v i ^ (b : ℕ) < 0 ∨
      (useModuli = false ∧ ∑ a, ∑ b, pc.val a b * y i ^ (a : ℕ) * v i ^ (b : ℕ) <
        Real.sqrt (4/3) * ∑ a, ∑ b, sc.val a b * z i ^ (a : ℕ) * v i ^ (b : ℕ))) :
    polyvalMaterial (finC v) m dc pc sc useModuli = .error .valueError := by
  obtain ⟨i, hi⟩ := hbad
  -- every row fails, if it fails, with ValueError
  have herr : ∀ (d p s w : Num) (e : Err), polyfitRow useModuli dc pc sc d p s w = .error e →
      e = .valueError := by
    intro d p s w e h
    unfold polyfitRow at h
    cases useModuli
    · exact mkMaterial_density_error h
    · exact mkMaterial_density_error h
  have hrow : ∀ j, (if useModuli then polyfitRow true dc pc sc (m.density j) (m.bulk j) (m.shear j)
      (finC v j) else polyfitRow false dc pc sc (m.density j) (m.vp j) (m.vs j) (finC v j)) =
      polyfitRow useModuli dc pc sc (.fin (x j)) (.fin (y j)) (.fin (z j)) (.fin (v j)) := by
    intro j
    cases useModuli <;> simp only [Bool.false_eq_true, if_false, if_true] at h2 h3 ⊢ <;>
      rw [h1, h2, h3] <;> rfl
  have hbad : polyfitRow useModuli dc pc sc (.fin (x i)) (.fin (y i)) (.fin (z i)) (.fin (v i))
      = .error .valueError := by
    cases hr : polyfitRow useModuli dc pc sc (.fin (x i)) (.fin (y i)) (.fin (z i)) (.fin (v i)) with
    | error e => rw [herr _ _ _ _ _ hr]
    | ok r =>
      exfalso
      unfold polyfitRow at hr
      simp only [Coeffs.eval_fin] at hr
      change dc.poly _ _ < 0 ∨ pc.poly _ _ < 0 ∨ sc.poly _ _ < 0 ∨ (useModuli = false ∧
        pc.poly _ _ < Real.sqrt (4/3) * sc.poly _ _) at hi
      cases useModuli with
      | true =>
        simp only [if_true, mkModuli] at hr
        obtain ⟨k1, k2, k3, -, -, -⟩ := C03_no_negative_property _ _ _ _ _ r hr 0
        obtain ⟨g1, g2, g3, -, -⟩ := C03_given_arguments_kept _ _ _ _ _ r hr
        rw [g3 _ rfl] at k1; rw [g1 _ rfl] at k2; rw [g2 _ rfl] at k3
        simp only [Num.fin_lt, not_lt] at k1 k2 k3
        rcases hi with h | h | h | ⟨h, -⟩ <;> first | linarith | cases h
      | false =>
        simp only [Bool.false_eq_true, if_false, mkVelocities] at hr
        obtain ⟨k1, -, -, k4, k5, k6⟩ := C03_no_negative_property _ _ _ _ _ r hr 0
        obtain ⟨-, -, g3, g4, g5⟩ := C03_given_arguments_kept _ _ _ _ _ r hr
        rw [g3 _ rfl] at k1; rw [g5 _ rfl] at k4; rw [g4 _ rfl] at k5
        rw [g5 _ rfl, g4 _ rfl] at k6
        simp only [Num.fin_lt, not_lt, Num.fin_mul] at k1 k4 k5 k6
        rcases hi with h | h | h | ⟨-, h⟩ <;> linarith
  unfold polyvalMaterial vectorizeMaterial
  simp only [hrow]
  cases hv : vec (fun j => polyfitRow useModuli dc pc sc (.fin (x j)) (.fin (y j)) (.fin (z j))
      (.fin (v j))) with
  | ok r => have := vec_ok_iff.mp hv i; rw [hbad] at this; cases this
  | error e =>
    obtain ⟨j, hj⟩ := vec_error hv
    rw [herr _ _ _ _ _ hj]; rfl

/-- Non-vacuity: the default dry-rock moduli coefficients (dry_rock.py:20-25) on a mineral. -/
example : ∃ r, polyvalMaterial (finC fun _ : Fin 2 => 0.25)
    (Mat.ofReal (fun _ => 36) (fun _ => 44) (fun _ => 2650))
    ⟨1, 1, ![![0, 0], ![1, -1]]⟩ ⟨0, 1, ![![2900, -1300]]⟩ ⟨0, 1, ![![1700, -800]]⟩ true = .ok r := by
  obtain ⟨r, hr, -⟩ := C45_moduli_fit (n := 2) (v := fun _ => 0.25)
    (Mat.ofReal_has (fun _ => 36) (fun _ => 44) (fun _ => 2650))
    ⟨1, 1, ![![0, 0], ![1, -1]]⟩ ⟨0, 1, ![![2900, -1300]]⟩ ⟨0, 1, ![![1700, -800]]⟩
    (fun _ => by simp [Fin.sum_univ_succ]; norm_num) (fun _ => by simp [Fin.sum_univ_succ]; norm_num)
    (fun _ => by simp [Fin.sum_univ_succ]; norm_num)
  exact ⟨r, hr⟩

end OPE
