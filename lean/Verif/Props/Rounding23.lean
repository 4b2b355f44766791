import Verif.Props.Rounding22

/-!
# C185: brine in double arithmetic
-/

namespace OPE.Double

open Classical

variable {fl : ℝ → ℝ}

theorem Within.to {k l : ℕ} {x X y x' X' : ℝ} (h : Within k x X y) (hx : x = x') (hX : X ≤ X') (hk : k ≤ l) :
    Within l x' X' y := hx ▸ (h.le hX).mono hk

theorem waterDensity_within (hf : RoundsToNearest fl) {T P P' : ℝ} (hx : Within 0 T 350 T) (hP : Within 2 P 100 P') :
    Within 17 (Published.waterDensity T P) 2 (waterDensity fl T P') := by
  refine (polyval2d_within hf hx hP (r := 3) (s := 2) fun i j => Within.literal hf (le_refl
    |(![![1, 489e-6, -333e-9], ![-8e-5, -2e-6, -2e-09], ![-33e-7, 16e-9, 0], ![1.75e-9, -13e-12, 0]] :
      Fin 4 → Fin 3 → ℝ) i j|)).to ?_ ?_ (by norm_num)
  · unfold Published.waterDensity
    simp only [Fin.sum_univ_succ, Finset.univ_eq_empty, Finset.sum_empty, Fin.val_zero, Fin.val_succ,
      Matrix.cons_val_zero, Matrix.cons_val_succ]
    ring
  · simp only [Fin.sum_univ_succ, Finset.univ_eq_empty, Finset.sum_empty, Fin.val_zero, Fin.val_succ,
      Matrix.cons_val_zero, Matrix.cons_val_succ]
    norm_num [abs_of_nonneg, abs_of_neg, abs_neg]

theorem waterVelocity_within (hf : RoundsToNearest fl) {T P P' : ℝ} (hx : Within 0 T 350 T) (hP : Within 2 P 100 P') :
    Within 23 (Published.waterVelocity T P) 60000 (waterVelocity fl T P') := by
  refine (polyval2d_within hf hx hP (r := 4) (s := 3) fun i j => Within.literal hf (le_refl
    |(![![1402.85, 1.524, 3.437e-3, -1.197e-5], ![4.871, -1.11e-2, 1.739e-4, -1.628e-6],
      ![-4.783e-2, 2.747e-4, -2.135e-6, 1.237e-8], ![1.487e-4, -6.503e-7, -1.455e-8, 1.327e-10],
      ![-2.197e-7, 7.987e-10, 5.23e-11, -4.614e-13]] : Fin 5 → Fin 4 → ℝ) i j|)).to ?_ ?_ (by norm_num)
  · unfold Published.waterVelocity
    simp only [Fin.sum_univ_succ, Finset.univ_eq_empty, Finset.sum_empty, Fin.val_zero, Fin.val_succ,
      Matrix.cons_val_zero, Matrix.cons_val_succ]
    ring
  · simp only [Fin.sum_univ_succ, Finset.univ_eq_empty, Finset.sum_empty, Fin.val_zero, Fin.val_succ,
      Matrix.cons_val_zero, Matrix.cons_val_succ]
    norm_num [abs_of_nonneg, abs_of_neg, abs_neg]

theorem brineDensity_within (hf : RoundsToNearest fl) {T P P' S S' : ℝ} (hx : Within 0 T 350 T)
    (hP : Within 2 P 100 P') (hS : Within 2 S 0.3 S') :
    Within 24 (Published.brineDensity T P S) 3 (brineDensity fl T P' S') := by
  have p := polyval3d_within hf hS hx hP (r := 1) (s := 2) (t := 1) fun i j k => Within.literal hf (le_refl
    |(![![![0.668, 3e-4], ![8e-5, -13e-6], ![3e-6, 0]], ![![0.44, -24e-4], ![-33e-4, 47e-6], ![0, 0]]] :
      Fin 2 → Fin 3 → Fin 2 → ℝ) i j k|)
  refine (((waterDensity_within hf hx hP).add ((hS.mul p).rounded hf)).rounded hf).to ?_ ?_ (by norm_num)
  · unfold Published.brineDensity
    simp only [Fin.sum_univ_succ, Finset.univ_eq_empty, Finset.sum_empty, Fin.val_zero, Fin.val_succ,
      Matrix.cons_val_zero, Matrix.cons_val_succ]
    ring
  · simp only [Fin.sum_univ_succ, Finset.univ_eq_empty, Finset.sum_empty, Fin.val_zero, Fin.val_succ,
      Matrix.cons_val_zero, Matrix.cons_val_succ]
    norm_num [abs_of_nonneg, abs_of_neg, abs_neg]

theorem brineVelocity_within (hf : RoundsToNearest fl) {T P P' S S' : ℝ} (hx : Within 0 T 350 T)
    (hP : Within 2 P 100 P') (hS : Within 2 S S S') (h3 : S ≤ 0.3) (hS' : 0 ≤ S') :
    Within 40 (Published.brineVelocity T P S) 66000 (brineVelocity fl T P' S') := by
  have hS0 := hS.nonneg
  have hq : Within 3 (√S) 0.55 (fl (√S')) := ((hS.sqrt hS').rounded hf).le (by
    rw [Real.sqrt_le_left (by norm_num)]
    norm_num at h3 ⊢
    linarith)
  have p := polyval3d_within hf hq hx hP (r := 2) (s := 3) (t := 2) fun i j k => Within.literal hf (le_refl
    |(![![![1170, 2.6, -0.0476], ![-9.6, -29e-4, 0], ![0.055, 0, 0], ![-8.5e-5, 0, 0]],
        ![![780, -10, 0.16], ![0, 0, 0], ![0, 0, 0], ![0, 0, 0]],
        ![![-820, 0, 0], ![0, 0, 0], ![0, 0, 0], ![0, 0, 0]]] : Fin 3 → Fin 4 → Fin 3 → ℝ) i j k|)
  refine (((waterVelocity_within hf hx hP).add (((hS.le h3).mul p).rounded hf)).rounded hf).to ?_ ?_ (by norm_num)
  · unfold Published.brineVelocity
    have e1 : S ^ (1.5:ℝ) = S * √S := by
      rw [show (1.5:ℝ) = 1 + 1/2 by norm_num, Real.rpow_add' hS0 (by norm_num), Real.rpow_one, Real.sqrt_eq_rpow]
    have e2 : √S ^ 2 = S := Real.sq_sqrt hS0
    rw [e1]
    simp only [Fin.sum_univ_succ, Finset.univ_eq_empty, Finset.sum_empty, Fin.val_zero, Fin.val_succ,
      Matrix.cons_val_zero, Matrix.cons_val_succ]
    linear_combination -820 * S * e2
  · simp only [Fin.sum_univ_succ, Finset.univ_eq_empty, Finset.sum_empty, Fin.val_zero, Fin.val_succ,
      Matrix.cons_val_zero, Matrix.cons_val_succ]
    norm_num [abs_of_nonneg, abs_of_neg, abs_neg]

/-- Relative errors multiply up. -/
theorem relative_mul {a b x y x' y' : ℝ} (hx : 0 ≤ x) (hy : 0 ≤ y) (ha : |x' - x| ≤ a * x) (hb : |y' - y| ≤ b * y) :
    |x' * y' - x * y| ≤ ((1 + a) * (1 + b) - 1) * (x * y) := by
  have : x' * y' - x * y = (x' - x) * (y' - y) + (x' - x) * y + x * (y' - y) := by ring
  rw [this]
  refine (abs_add_three _ _ _).trans ?_
  rw [abs_mul, abs_mul, abs_mul, abs_of_nonneg hx, abs_of_nonneg hy]
  have p1 := mul_le_mul ha hb (abs_nonneg _) ((abs_nonneg _).trans ha)
  have p2 := mul_le_mul_of_nonneg_right ha hy
  have p3 := mul_le_mul_of_nonneg_left hb hx
  linarith

theorem relative_fl (hf : RoundsToNearest fl) {a x x' : ℝ} (hx : 0 ≤ x) (ha : |x' - x| ≤ a * x) :
    |fl x' - x| ≤ ((1 + a) * (1 + unit) - 1) * x := by
  have e := hf.error x'
  have t : |fl x' - x| ≤ |fl x' - x'| + |x' - x| := by
    have := abs_add_le (fl x' - x') (x' - x)
    rwa [sub_add_sub_cancel] at this
  have u : |x'| ≤ |x' - x| + x := by
    have := abs_add_le (x' - x) x
    rwa [sub_add_cancel, abs_of_nonneg hx] at this
  have := mul_le_mul_of_nonneg_left (u.trans (add_le_add_left ha x)) unit_pos.le
  linarith

theorem brine_bounds {T P S : ℝ} (hT : 0 ≤ T ∧ T ≤ 350) (hP : 0 ≤ P ∧ P ≤ 100) (hS : 0 ≤ S ∧ S ≤ 0.3) :
    0.6 ≤ Published.brineDensity T P S ∧ 200 ≤ Published.brineVelocity T P S := by
  have a := waterDensity_pos hT hP
  have b := brineDensity_pos hT hP hS
  have d := waterVelocity_pos hT hP
  have e := brineVelocity_pos hT hP hS
  have f := (brineDensity_published T P S).symm.trans (brineDensity_fin T P S)
  have g := (brineVelocity_published hS.1 T P).symm.trans (brineVelocity_fin hS.1)
  rw [Num.fin_inj] at f g
  rw [f, g]
  constructor <;> linarith

/-- **C185.** -/
theorem C185_brine (hf : RoundsToNearest fl) {T P S : ℝ} (hT : 0 ≤ T ∧ T ≤ 350) (hP : 0 ≤ P ∧ P ≤ 100e6)
    (hS : 0 ≤ S ∧ S ≤ 300000) :
    |(brine fl T P S).2 - (Published.brine T P S).ρ| ≤ 1e-13 * (Published.brine T P S).ρ ∧
    |(brine fl T P S).1 - (Published.brine T P S).K| ≤ 1e-11 * (Published.brine T P S).K := by
  have hP0 : 0 ≤ P * 1e-6 := mul_nonneg hP.1 (by norm_num)
  have hP1 : P * 1e-6 ≤ 100 := by have := hP.2; norm_num at this ⊢; linarith
  have hS0 : 0 ≤ S * 1e-6 := mul_nonneg hS.1 (by norm_num)
  have hS1 : S * 1e-6 ≤ 0.3 := by have := hS.2; norm_num at this ⊢; linarith
  obtain ⟨r0, v0⟩ := brine_bounds hT ⟨hP0, hP1⟩ ⟨hS0, hS1⟩
  have hx : Within 0 T 350 T := Within.exact (by rw [abs_of_nonneg hT.1]; exact hT.2)
  have l6 : Within 1 (1e-6:ℝ) 1e-6 (fl 1e-6) := Within.literal hf (by norm_num [abs_of_nonneg])
  have wP : Within 2 (P * 1e-6) 100 (fl (P * fl 1e-6)) :=
    (((Within.exact (abs_of_nonneg hP.1).le).mul l6).rounded hf).to rfl hP1 le_rfl
  have wS : Within 2 (S * 1e-6) (S * 1e-6) (fl (S * fl 1e-6)) :=
    (((Within.exact (abs_of_nonneg hS.1).le).mul l6).rounded hf).to rfl le_rfl le_rfl
  have s0 : 0 ≤ fl (S * fl 1e-6) :=
    (Near.fl0 hf (mul_nonneg hS.1 (Near.fl0 hf (by norm_num : (0:ℝ) ≤ 1e-6)).nonneg)).nonneg
  have d := ((brineDensity_within hf hx wP (wS.le hS1)).mul (Within.exact (le_refl |(1000:ℝ)|))).rounded hf
  have v := brineVelocity_within hf hx wP wS hS1 s0
  have eK : (brine fl T P S).1 = fl (fl (fl (brineVelocity fl T (fl (P * fl 1e-6)) (fl (S * fl 1e-6)) ^ 2)
      * (brine fl T P S).2)) := by
    unfold brine
    dsimp only
    rw [mul_zero, hf.zero, sub_zero]
  rw [eK]
  have e2 : (brine fl T P S).2 = fl (brineDensity fl T (fl (P * fl 1e-6)) (fl (S * fl 1e-6)) * 1000) := rfl
  rw [← e2] at d
  have d' : |(brine fl T P S).2 - (Published.brine T P S).ρ| ≤ 1e-13 * (Published.brine T P S).ρ := by
    have g := Within.growth_le (k := 24 + 0 + 1) (by norm_num)
    have := d.2
    have hρ : (Published.brine T P S).ρ = Published.brineDensity T (P * 1e-6) (S * 1e-6) * 1000 := mul_comm _ _
    rw [hρ]
    rw [abs_of_nonneg (by norm_num : (0:ℝ) ≤ 1000)] at this
    refine this.trans ?_
    norm_num at g r0 ⊢
    linarith
  refine ⟨d', ?_⟩
  have hv : |brineVelocity fl T (fl (P * fl 1e-6)) (fl (S * fl 1e-6)) - Published.brineVelocity T (P * 1e-6) (S * 1e-6)|
      ≤ 4e-12 * Published.brineVelocity T (P * 1e-6) (S * 1e-6) := by
    have g := Within.growth_le (k := 40) (by norm_num)
    refine v.2.trans ?_
    norm_num at g v0 ⊢
    linarith
  have hK : (Published.brine T P S).K = Published.brineVelocity T (P * 1e-6) (S * 1e-6)
      * Published.brineVelocity T (P * 1e-6) (S * 1e-6) * (Published.brine T P S).ρ := by
    unfold Published.brine; ring
  have hρ0 : 0 ≤ (Published.brine T P S).ρ := by
    have : (Published.brine T P S).ρ = 1000 * Published.brineDensity T (P * 1e-6) (S * 1e-6) := rfl
    rw [this]
    have : (0:ℝ) ≤ Published.brineDensity T (P * 1e-6) (S * 1e-6) := le_trans (by norm_num) r0
    positivity
  have hv0 : 0 ≤ Published.brineVelocity T (P * 1e-6) (S * 1e-6) := le_trans (by norm_num) v0
  have m := relative_fl hf (by positivity) (relative_fl hf (by positivity)
    (relative_mul (by positivity) hρ0 (relative_fl hf (by positivity) (relative_mul hv0 hv0 hv hv)) d'))
  rw [hK, pow_two]
  refine m.trans (mul_le_mul_of_nonneg_right ?_ (by positivity))
  unfold unit
  norm_num

/-- Seawater at 20 °C and 10 MPa (rounding functions: `exists_rounding`). -/
example (hf : RoundsToNearest fl) := C185_brine hf (T := 20) (P := 10e6) (S := 35000) (by norm_num) (by norm_num) (by norm_num)

end OPE.Double
