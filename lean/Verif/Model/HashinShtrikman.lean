import Verif.Model.Material

/-!
# material/hashin_shtrikman.py
-/

namespace OPE

open Classical

variable {n : ℕ}

/-- hashin_shtrikman.py:21-43 `check_is_ratio` with its default `epsilon = 1e-5`. -/
noncomputable def checkIsRatio (ratio : Col n) : Except Err Unit := do
  failIf (∃ i, Num.fin (1 + 1e-5) < ratio i) .valueError
  failIf (∃ i, ratio i < Num.fin (0 - 1e-5)) .valueError

/-- hashin_shtrikman.py:46-84 `hashin_shtrikman_bound` (numpy arithmetic, no kernels). -/
noncomputable def hsBound (m1 m2 : Mat n) (ratio : Col n) : Except Err (Mat n) := do
  checkIsRatio ratio
  let k1 := m1.bulk
  let k2 := m2.bulk
  let mu1 := m1.shear
  let mu2 := m2.shear
  let f := ratio
  let k : Col n := k1 + (c 1 - f) * (k2 - k1) /
    (c 1 + (k2 - k1) * f * (fun i => Num.powi (k1 i + Num.fin (4/3) * mu1 i) (-1)))
  let mu : Col n := mu1 + (c 1 - f) * (mu2 - mu1) /
    (c 1 + c 2 * (mu2 - mu1) * f * (k1 + c 2 * mu1) / (c 5 * mu1 * (k1 + c (4/3) * mu1)))
  mkModuli k mu (ratio * m1.density + (c 1 - ratio) * m2.density)

/-- hashin_shtrikman.py:87-127 `hashin_shtrikman_average`. -/
noncomputable def hsAverage (m1 m2 : Mat n) (ratio : Col n) : Except Err (Mat n) := do
  checkIsRatio ratio
  let b1 ← hsBound m1 m2 ratio
  let b2 ← hsBound m2 m1 (c 1 - ratio)
  mkModuli ((b1.bulk + b2.bulk) / c 2) ((b1.shear + b2.shear) / c 2)
    (ratio * m1.density + (c 1 - ratio) * m2.density)

/-- hashin_shtrikman.py:159-164 kernel `calc_density`. -/
noncomputable def hswDensity (r1 r2 f1 f2 : Num) : Except Err Num :=
  if Num.eq r1 r2 then .ok r2 else .ok (f1 * r1 + f2 * r2)

/-- hashin_shtrikman.py:166-172 kernel `calc_bulk_modulus`. -/
noncomputable def hswBulk (k1 k2 mum f1 f2 : Num) : Except Err Num :=
  if Num.eq k1 k2 then .ok k1
  else do
    let a ← pyInv (k2 - k1)
    let b ← pyInv (k1 + Num.fin (4/3) * mum)
    let q ← pyDiv f2 (a + f1 * b)
    .ok (k1 + q)

/-- hashin_shtrikman.py:174-182 kernel `calc_shear_modulus`. -/
noncomputable def hswShear (mu1 mu2 km mum f1 f2 : Num) : Except Err Num :=
  if Num.eq mu1 mu2 then .ok mu1
  else do
    let a ← pyInv (mu2 - mu1)
    let z ← pyDiv (mum / Num.fin 6 * (Num.fin 9 * km + Num.fin 8 * mum)) (km + Num.fin 2 * mum)
    let b ← pyInv (mu1 + z)
    let q ← pyDiv f2 (a + f1 * b)
    .ok (mu1 + q)

/-- hashin_shtrikman.py:130-200 `hashin_shtrikman_walpole`. -/
noncomputable def hsw (m1 m2 : Mat n) (ratio : Col n) (bound : String) : Except Err (Mat n) := do
  checkIsRatio ratio
  failIf (bound ≠ "lower" ∧ bound ≠ "upper") .valueError
  let ratio2 : Col n := c 1 - ratio
  let km : Col n := fun i => if bound = "lower" then Num.minimum (m1.bulk i) (m2.bulk i)
    else Num.maximum (m1.bulk i) (m2.bulk i)
  let mum : Col n := fun i => if bound = "lower" then Num.minimum (m1.shear i) (m2.shear i)
    else Num.maximum (m1.shear i) (m2.shear i)
  let d ← vec fun i => hswDensity (m1.density i) (m2.density i) (ratio i) (ratio2 i)
  let k ← vec fun i => hswBulk (m1.bulk i) (m2.bulk i) (mum i) (ratio i) (ratio2 i)
  let g ← vec fun i => hswShear (m1.shear i) (m2.shear i) (km i) (mum i) (ratio i) (ratio2 i)
  mkModuli k g d

/-! ## Evaluation on finite numbers -/

/-- Simplified closed form of the Walpole mix: `((a+z)(b+z)) / ((1-f)(a+z) + f(b+z)) - z`. -/
noncomputable def hsReal (a b z f : ℝ) : ℝ :=
  (a + z) * (b + z) / ((1 - f) * (a + z) + f * (b + z)) - z

/-- Comparison medium of the shear bound. -/
noncomputable def zShear (km mum : ℝ) : ℝ := mum / 6 * (9 * km + 8 * mum) / (km + 2 * mum)

/-- min for the lower bound, max for the upper. -/
noncomputable def pick (bound : String) (a b : ℝ) : ℝ := if bound = "lower" then min a b else max a b

theorem hsReal_core {a b z f : ℝ} (hne : a ≠ b) (hA : 0 < a + z)
    (hD : 0 < (1 - f) * (a + z) + f * (b + z)) :
    (b - a)⁻¹ + f * (a + z)⁻¹ ≠ 0 ∧
    a + (1 - f) / ((b - a)⁻¹ + f * (a + z)⁻¹) = hsReal a b z f := by
  have h1 : b - a ≠ 0 := sub_ne_zero.mpr (Ne.symm hne)
  have hA' := hA.ne'
  have e : (b - a)⁻¹ + f * (a + z)⁻¹
      = ((1 - f) * (a + z) + f * (b + z)) / ((b - a) * (a + z)) := by
    field_simp; ring
  rw [e]
  refine ⟨div_ne_zero hD.ne' (mul_ne_zero h1 hA'), ?_⟩
  unfold hsReal
  have hD' := hD.ne'
  field_simp
  ring

theorem hsReal_self {a z f : ℝ} (hA : a + z ≠ 0) : hsReal a a z f = a := by
  unfold hsReal
  have : (1 - f) * (a + z) + f * (a + z) = a + z := by ring
  rw [this]; field_simp; ring

theorem hswBulk_fin {k1 k2 mum f : ℝ} (hA : 0 < k1 + 4/3 * mum)
    (hD : 0 < (1 - f) * (k1 + 4/3 * mum) + f * (k2 + 4/3 * mum)) :
    hswBulk (.fin k1) (.fin k2) (.fin mum) (.fin f) (.fin (1 - f))
      = .ok (.fin (hsReal k1 k2 (4/3 * mum) f)) := by
  unfold hswBulk
  by_cases h : k1 = k2
  · subst h; simp [hsReal_self hA.ne']
  · obtain ⟨h1, h2⟩ := hsReal_core h hA hD
    have h3 : k2 - k1 ≠ 0 := sub_ne_zero.mpr (Ne.symm h)
    simp [h, h3, hA.ne', h1, h2]

theorem hswShear_fin {g1 g2 km mum f : ℝ} (hz : km + 2 * mum ≠ 0) (hA : 0 < g1 + zShear km mum)
    (hD : 0 < (1 - f) * (g1 + zShear km mum) + f * (g2 + zShear km mum)) :
    hswShear (.fin g1) (.fin g2) (.fin km) (.fin mum) (.fin f) (.fin (1 - f))
      = .ok (.fin (hsReal g1 g2 (zShear km mum) f)) := by
  unfold hswShear
  by_cases h : g1 = g2
  · subst h; simp [hsReal_self hA.ne']
  · obtain ⟨h1, h2⟩ := hsReal_core h hA hD
    have h3 : g2 - g1 ≠ 0 := sub_ne_zero.mpr (Ne.symm h)
    unfold zShear at h1 h2 hA ⊢
    simp [h, h3, hA.ne', h1, h2, hz]

theorem hswDensity_fin (r1 r2 f : ℝ) :
    hswDensity (.fin r1) (.fin r2) (.fin f) (.fin (1 - f))
      = .ok (.fin (f * r1 + (1 - f) * r2)) := by
  unfold hswDensity
  by_cases h : r1 = r2
  · subst h; simp; ring
  · simp [h]

theorem checkIsRatio_fin {f : Fin n → ℝ} (h0 : ∀ i, 0 ≤ f i) (h1 : ∀ i, f i ≤ 1) :
    checkIsRatio (finC f) = .ok () := by
  unfold checkIsRatio
  rw [failIf_false, bind_ok, failIf_false]
  · rintro ⟨i, hi⟩; simp only [finC_apply, Num.fin_lt] at hi; have := h0 i; norm_num at hi; linarith
  · rintro ⟨i, hi⟩; simp only [finC_apply, Num.fin_lt] at hi; have := h1 i; norm_num at hi; linarith

/-- Evaluation of the Walpole mix on finite numbers.  The conditions say that no kernel division is
by zero. -/
theorem hsw_fin {m1 m2 : Mat n} {K1 G1 R1 K2 G2 R2 f : Fin n → ℝ} {bound : String}
    (h1 : m1.Has K1 G1 R1) (h2 : m2.Has K2 G2 R2)
    (hb : bound = "lower" ∨ bound = "upper")
    (hf0 : ∀ i, 0 ≤ f i) (hf1 : ∀ i, f i ≤ 1)
    (hz : ∀ i, pick bound (K1 i) (K2 i) + 2 * pick bound (G1 i) (G2 i) ≠ 0)
    (hKA : ∀ i, 0 < K1 i + 4/3 * pick bound (G1 i) (G2 i))
    (hKD : ∀ i, 0 < (1 - f i) * (K1 i + 4/3 * pick bound (G1 i) (G2 i))
      + f i * (K2 i + 4/3 * pick bound (G1 i) (G2 i)))
    (hGA : ∀ i, 0 < G1 i + zShear (pick bound (K1 i) (K2 i)) (pick bound (G1 i) (G2 i)))
    (hGD : ∀ i, 0 < (1 - f i) * (G1 i + zShear (pick bound (K1 i) (K2 i)) (pick bound (G1 i) (G2 i)))
      + f i * (G2 i + zShear (pick bound (K1 i) (K2 i)) (pick bound (G1 i) (G2 i)))) :
    hsw m1 m2 (finC f) bound = mkModuli
      (finC fun i => hsReal (K1 i) (K2 i) (4/3 * pick bound (G1 i) (G2 i)) (f i))
      (finC fun i => hsReal (G1 i) (G2 i)
        (zShear (pick bound (K1 i) (K2 i)) (pick bound (G1 i) (G2 i))) (f i))
      (finC fun i => f i * R1 i + (1 - f i) * R2 i) := by
  obtain ⟨hk1, hg1, hr1⟩ := h1
  obtain ⟨hk2, hg2, hr2⟩ := h2
  unfold hsw
  rw [checkIsRatio_fin hf0 hf1, bind_ok, failIf_false (by rcases hb with h | h <;> simp [h]), bind_ok]
  have hp : ∀ a b : ℝ, (if bound = "lower" then Num.minimum (.fin a) (.fin b)
      else Num.maximum (.fin a) (.fin b)) = .fin (pick bound a b) := by
    intro a b; unfold pick; split <;> simp
  simp only [hk1, hg1, hr1, hk2, hg2, hr2, finC_apply, hp, Pi.sub_apply, c_apply, Num.fin_sub]
  rw [vec_ok (fun i => hswDensity_fin (R1 i) (R2 i) (f i)), bind_ok,
    vec_ok (fun i => hswBulk_fin (hKA i) (hKD i)), bind_ok,
    vec_ok (fun i => hswShear_fin (hz i) (hGA i) (hGD i)), bind_ok]
  rfl

/-! ### The closed form as a function of real numbers -/

section hsReal

variable {a b z f : ℝ}

theorem hsReal_D (hA : 0 < a + z) (hB : 0 < b + z) (h0 : 0 ≤ f) (h1 : f ≤ 1) :
    0 < (1 - f) * (a + z) + f * (b + z) := by
  rcases h0.eq_or_lt with h | h
  · subst h; simpa using hA
  · have := mul_pos h hB
    have := mul_nonneg (sub_nonneg.mpr h1) hA.le
    linarith

/-- `hsReal = (ab + z (f a + (1-f) b)) / (z + (1-f) a + f b)`. -/
theorem hsReal_eq (hD : (1 - f) * (a + z) + f * (b + z) ≠ 0) :
    hsReal a b z f = (a * b + z * (f * a + (1 - f) * b)) / ((1 - f) * (a + z) + f * (b + z)) := by
  unfold hsReal; rw [eq_div_iff hD, sub_mul, div_mul_cancel₀ _ hD]; ring

theorem hsReal_symm : hsReal a b z f = hsReal b a z (1 - f) := by
  unfold hsReal; congr 1; congr 1
  · ring
  · ring

theorem hsReal_one (hA : b + z ≠ 0) : hsReal a b z 1 = a := by
  unfold hsReal; simp; field_simp; ring

theorem hsReal_zero (hA : a + z ≠ 0) : hsReal a b z 0 = b := by
  unfold hsReal; simp; field_simp; ring

theorem hsReal_ge_left (hA : 0 ≤ a + z) (hD : 0 < (1 - f) * (a + z) + f * (b + z))
    (h1 : f ≤ 1) (hab : a ≤ b) : a ≤ hsReal a b z f := by
  unfold hsReal
  rw [le_sub_iff_add_le, le_div_iff₀ hD]
  nlinarith [mul_nonneg (mul_nonneg (sub_nonneg.mpr h1) (sub_nonneg.mpr hab)) hA]

theorem hsReal_le_left (hA : 0 ≤ a + z) (hD : 0 < (1 - f) * (a + z) + f * (b + z))
    (h1 : f ≤ 1) (hab : b ≤ a) : hsReal a b z f ≤ a := by
  unfold hsReal
  rw [sub_le_iff_le_add, div_le_iff₀ hD]
  nlinarith [mul_nonneg (mul_nonneg (sub_nonneg.mpr h1) (sub_nonneg.mpr hab)) hA]

theorem hsReal_le_right (hB : 0 ≤ b + z) (hD : 0 < (1 - f) * (a + z) + f * (b + z))
    (h0 : 0 ≤ f) (hab : a ≤ b) : hsReal a b z f ≤ b := by
  rw [hsReal_symm]
  exact hsReal_le_left hB (by simpa [add_comm] using hD) (by linarith) hab

theorem hsReal_ge_right (hB : 0 ≤ b + z) (hD : 0 < (1 - f) * (a + z) + f * (b + z))
    (h0 : 0 ≤ f) (hab : b ≤ a) : b ≤ hsReal a b z f := by
  rw [hsReal_symm]
  exact hsReal_ge_left hB (by simpa [add_comm] using hD) (by linarith) hab

theorem hsReal_between (hA : 0 ≤ a + z) (hB : 0 ≤ b + z)
    (hD : 0 < (1 - f) * (a + z) + f * (b + z)) (h0 : 0 ≤ f) (h1 : f ≤ 1) :
    min a b ≤ hsReal a b z f ∧ hsReal a b z f ≤ max a b := by
  rcases le_total a b with h | h
  · rw [min_eq_left h, max_eq_right h]
    exact ⟨hsReal_ge_left hA hD h1 h, hsReal_le_right hB hD h0 h⟩
  · rw [min_eq_right h, max_eq_left h]
    exact ⟨hsReal_ge_right hB hD h0 h, hsReal_le_left hA hD h1 h⟩

/-- Monotone in the comparison medium. -/
theorem hsReal_mono_z {z' : ℝ} (hA : 0 < a + z) (hB : 0 < b + z) (h0 : 0 ≤ f) (h1 : f ≤ 1)
    (hz : z ≤ z') : hsReal a b z f ≤ hsReal a b z' f := by
  have hD := hsReal_D hA hB h0 h1
  have hD' := hsReal_D (z := z') (by linarith : 0 < a + z') (by linarith : 0 < b + z') h0 h1
  rw [hsReal_eq hD.ne', hsReal_eq hD'.ne', div_le_div_iff₀ hD hD']
  have key : 0 ≤ f * (1 - f) * (a - b) ^ 2 * (z' - z) :=
    mul_nonneg (mul_nonneg (mul_nonneg h0 (sub_nonneg.mpr h1)) (sq_nonneg _)) (sub_nonneg.mpr hz)
  nlinarith [key]

/-- Never above the Voigt (arithmetic) average. -/
theorem hsReal_le_voigt (hA : 0 < a + z) (hB : 0 < b + z) (h0 : 0 ≤ f) (h1 : f ≤ 1) :
    hsReal a b z f ≤ f * a + (1 - f) * b := by
  have hD := hsReal_D hA hB h0 h1
  rw [hsReal_eq hD.ne', div_le_iff₀ hD]
  nlinarith [mul_nonneg (mul_nonneg h0 (sub_nonneg.mpr h1)) (sq_nonneg (a - b))]

/-- Never below the Reuss (harmonic) average. -/
theorem reuss_le_hsReal (ha : 0 < a) (hb : 0 < b) (hz : 0 ≤ z) (h0 : 0 ≤ f) (h1 : f ≤ 1) :
    a * b / ((1 - f) * a + f * b) ≤ hsReal a b z f := by
  have := hsReal_mono_z (z := 0) (z' := z) (by simpa using ha) (by simpa using hb) h0 h1 hz
  simpa [hsReal] using this

/-- Monotone in the fraction of the stiffer material. -/
theorem hsReal_mono_f {f' : ℝ} (hA : 0 < a + z) (hB : 0 < b + z) (h0 : 0 ≤ f) (hff : f ≤ f')
    (h1 : f' ≤ 1) (hab : b ≤ a) : hsReal a b z f ≤ hsReal a b z f' := by
  have hD := hsReal_D hA hB h0 (hff.trans h1)
  have hD' := hsReal_D hA hB (h0.trans hff) h1
  unfold hsReal
  apply sub_le_sub_right
  apply div_le_div_of_nonneg_left (mul_pos hA hB).le hD'
  nlinarith [mul_nonneg (sub_nonneg.mpr hff) (sub_nonneg.mpr hab)]

/-- Monotone in the second modulus. -/
theorem hsReal_mono_b {b' : ℝ} (hA : 0 < a + z) (hB : 0 ≤ b + z)
    (hD : 0 < (1 - f) * (a + z) + f * (b + z)) (h0 : 0 ≤ f) (h1 : f ≤ 1)
    (hbb : b ≤ b') : hsReal a b z f ≤ hsReal a b' z f := by
  have hD' : 0 < (1 - f) * (a + z) + f * (b' + z) := by nlinarith
  unfold hsReal
  apply sub_le_sub_right
  rw [div_le_div_iff₀ hD hD']
  nlinarith [mul_nonneg (mul_nonneg (mul_nonneg (sub_nonneg.mpr h1) hA.le) hA.le)
    (sub_nonneg.mpr hbb)]

end hsReal

theorem zShear_nonneg {km mum : ℝ} (hk : 0 ≤ km) (hm : 0 ≤ mum) : 0 ≤ zShear km mum := by
  unfold zShear; positivity

theorem zShear_mono {k k' m m' : ℝ} (hk : 0 < k) (hm : 0 ≤ m) (hkk : k ≤ k') (hmm : m ≤ m') :
    zShear k m ≤ zShear k' m' := by
  have hk' : 0 < k' := by linarith
  have hm' : 0 ≤ m' := by linarith
  have s1 : zShear k m ≤ zShear k' m := by
    unfold zShear
    rw [div_le_div_iff₀ (by positivity) (by positivity)]
    nlinarith [mul_nonneg (mul_nonneg hm hm) (sub_nonneg.mpr hkk)]
  have s2 : zShear k' m ≤ zShear k' m' := by
    unfold zShear
    rw [div_le_div_iff₀ (by positivity) (by positivity)]
    have h1 := sub_nonneg.mpr hmm
    nlinarith [mul_nonneg (mul_nonneg hk'.le hk'.le) h1, mul_nonneg (mul_nonneg hk'.le hm) h1,
      mul_nonneg (mul_nonneg hk'.le hm') h1, mul_nonneg (mul_nonneg hm hm') h1]
  exact s1.trans s2

theorem pick_pos {bound : String} {a b : ℝ} (ha : 0 < a) (hb : 0 < b) : 0 < pick bound a b := by
  unfold pick; split
  · exact lt_min ha hb
  · exact lt_max_of_lt_left ha

theorem pick_comm (bound : String) (a b : ℝ) : pick bound a b = pick bound b a := by
  unfold pick; split
  · exact min_comm _ _
  · exact max_comm _ _

theorem pick_lower_le_upper (a b : ℝ) : pick "lower" a b ≤ pick "upper" a b := by
  simp [pick]

end OPE
