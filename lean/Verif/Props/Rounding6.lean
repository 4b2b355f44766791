import Verif.Props.Rounding4

/-!
# C170: Hashin–Shtrikman–Walpole bounds in double arithmetic
-/

namespace OPE

open Classical

variable {fl : ℝ → ℝ} {pw : ℝ → ℝ → ℝ}

theorem reciprocal_near (hp : PowerAccurate pw) {k : ℕ} {x y : ℝ} (h : Near k x y) (hx : 0 < x) :
    Near (k + 3) x⁻¹ (Double.reciprocal pw y) := by
  have hy := h.pos hx
  unfold Double.reciprocal
  rw [if_neg (not_lt.mpr hy.le)]
  have h1 := Near.of_accurate (Real.rpow_nonneg hy.le _) (hp y (-1) hy)
  rw [Real.rpow_neg_one] at h1
  exact (h.inv hx).trans h1

/-- The other way of writing the bound. -/
theorem hashinShtrikman_eq {x1 x2 z f : ℝ} (h1 : 0 < x1) (h2 : 0 < x2) (hz : 0 ≤ z) (hf0 : 0 ≤ f) (hf1 : f ≤ 1) (hne : x1 ≠ x2) :
    Published.hashinShtrikman x1 x2 f z = x1 + (1 - f) / ((x2 - x1)⁻¹ + f * (x1 + z)⁻¹) := by
  unfold Published.hashinShtrikman
  have a1 : 0 < x1 + z := by linarith
  have a2 : 0 < x2 + z := by linarith
  have hd : x2 - x1 ≠ 0 := sub_ne_zero.mpr hne.symm
  have hN : 0 < f * (x2 + z) + (1 - f) * (x1 + z) := by
    rcases hf0.eq_or_lt with h | h
    · rw [← h]; linarith
    · have := mul_pos h a2; have := mul_nonneg (sub_nonneg.mpr hf1) a1.le; linarith
  have hN2 : x1 + z + f * (x2 - x1) = f * (x2 + z) + (1 - f) * (x1 + z) := by ring
  have e1 : f / (x1 + z) + (1 - f) / (x2 + z) = (f * (x2 + z) + (1 - f) * (x1 + z)) / ((x1 + z) * (x2 + z)) := by
    field_simp
  have e2 : (x2 - x1)⁻¹ + f * (x1 + z)⁻¹ = (f * (x2 + z) + (1 - f) * (x1 + z)) / ((x2 - x1) * (x1 + z)) := by
    rw [← hN2]; field_simp
  rw [e1, e2, inv_div, div_div_eq_mul_div]
  have e3 : (x1 + z) * (x2 + z) / (f * (x2 + z) + (1 - f) * (x1 + z)) =
      (x1 + z) + (1 - f) * ((x2 - x1) * (x1 + z)) / (f * (x2 + z) + (1 - f) * (x1 + z)) := by
    rw [div_eq_iff hN.ne', add_mul (x1 + z), div_mul_cancel₀ _ hN.ne']; ring
  rw [e3]; ring

theorem hashinShtrikman_bounds {x1 x2 z f : ℝ} (h1 : 0 < x1) (h2 : 0 < x2) (hz : 0 ≤ z) (hf0 : 0 ≤ f) (hf1 : f ≤ 1)
    (h : x2 ≤ x1) : x2 ≤ Published.hashinShtrikman x1 x2 f z := by
  unfold Published.hashinShtrikman
  have a1 : 0 < x1 + z := by linarith
  have a2 : 0 < x2 + z := by linarith
  have hs : f / (x1 + z) + (1 - f) / (x2 + z) ≤ (x2 + z)⁻¹ := by
    have : f / (x1 + z) ≤ f / (x2 + z) := by gcongr
    calc f / (x1 + z) + (1 - f) / (x2 + z) ≤ f / (x2 + z) + (1 - f) / (x2 + z) := by linarith
      _ = (x2 + z)⁻¹ := by field_simp; ring
  have hpos : 0 < f / (x1 + z) + (1 - f) / (x2 + z) := by
    rcases hf0.eq_or_lt with h | h
    · rw [← h]; simp only [zero_div, zero_add, sub_zero]; positivity
    · have := div_pos h a1; have := div_nonneg (sub_nonneg.mpr hf1) a2.le; linarith
  have := inv_anti₀ hpos hs
  rw [inv_inv] at this
  linarith

set_option maxHeartbeats 1000000 in
theorem walpole_near (hfl : RoundsToNearest fl) (hp : PowerAccurate pw) {x1 x2 z z' f R : ℝ} {k : ℕ} (h1 : 0 < x1) (h2 : 0 < x2)
    (hz : Near k z z') (hf0 : 0 ≤ f) (hf1 : f ≤ 1) (hR1 : 1 ≤ R) (hR : x1 ≤ R * x2) (hk : (k + 6) * R ≤ 2 ^ 40) :
    Accurate (8 * (k + 6) * R ^ 2) (Published.hashinShtrikman x1 x2 f z) (Double.walpole fl pw x1 x2 z' f) := by
  have hu := unit_pos
  have hz0 := hz.1
  have hk0 : (0 : ℝ) ≤ k := Nat.cast_nonneg k
  have hkR : (k + 6 : ℝ) ≤ 2 ^ 40 := le_trans (by nlinarith) hk
  have hk40 : k ≤ 2 ^ 40 := by
    have : (k : ℝ) ≤ 2 ^ 40 := by linarith
    exact_mod_cast this
  have hRR : 1 ≤ R ^ 2 := one_le_pow₀ hR1
  unfold Double.walpole
  by_cases he : x1 = x2
  · rw [if_pos he]
    subst he
    have : Published.hashinShtrikman x1 x1 f z = x1 := by
      unfold Published.hashinShtrikman
      rw [← add_div, show f + (1 - f) = 1 by ring, one_div, inv_inv]; ring
    rw [this]
    unfold Accurate
    rw [sub_self, abs_zero]; positivity
  rw [if_neg he, hashinShtrikman_eq h1 h2 hz0 hf0 hf1 he]
  have hB : Near (k + 5) (f * (x1 + z)⁻¹) (fl (f * Double.reciprocal pw (fl (x1 + z')))) := by
    have h3 : Near (k + 1) (x1 + z) (fl (x1 + z')) := by
      have := ((Near.refl 0 h1.le).add hz).fl hfl
      rwa [Nat.zero_max] at this
    have h4 := ((Near.refl 0 hf0).mul (reciprocal_near hp h3 (by linarith))).fl hfl
    rw [zero_add] at h4
    exact h4
  set B := f * (x1 + z)⁻¹ with hBd
  set B' := fl (f * Double.reciprocal pw (fl (x1 + z'))) with hB'd
  have hF : Near 1 (1 - f) (fl (1 - f)) := Near.fl0 hfl (by linarith)
  rcases lt_or_gt_of_ne he with hlt | hgt
  · -- the second one is stiffer: everything is positive
    have hA : Near 4 (x2 - x1)⁻¹ (Double.reciprocal pw (fl (x2 - x1))) :=
      reciprocal_near hp (Near.fl0 hfl (by linarith)) (by linarith)
    have hD : Near (k + 6) ((x2 - x1)⁻¹ + B) (fl (Double.reciprocal pw (fl (x2 - x1)) + B')) := by
      have := (hA.add hB).fl hfl
      rwa [max_eq_right (by omega)] at this
    have hDpos : 0 < (x2 - x1)⁻¹ + B := add_pos_of_pos_of_nonneg (inv_pos.mpr (by linarith)) hB.1
    have hT := (hF.div hD hDpos).fl hfl
    have hW := ((Near.refl 0 h1.le).add hT).fl hfl
    rw [Nat.zero_max] at hW
    have := hW.accurate (by omega)
    refine this.mono ?_
    push_cast
    nlinarith
  · -- the first one is stiffer
    set A := (x1 - x2)⁻¹ with hAd
    have hxd : 0 < x1 - x2 := by linarith
    have hA0 : 0 < A := inv_pos.mpr hxd
    have hAneg : (x2 - x1)⁻¹ = -A := by rw [hAd, ← neg_sub x1 x2, inv_neg]
    have hR0 : 0 < R := by linarith
    obtain ⟨A', hA', hA'e⟩ : ∃ A', Near 4 A A' ∧ Double.reciprocal pw (fl (x2 - x1)) = -A' := by
      have hd : Near 1 (x1 - x2) (-fl (x2 - x1)) := by
        refine Near.of_error hxd.le ?_
        have := hfl.error (x2 - x1)
        rw [← abs_neg (x2 - x1)] at this
        rw [← abs_neg]
        convert this using 2 <;> ring
      have hneg : fl (x2 - x1) < 0 := by have := hd.pos hxd; linarith
      refine ⟨pw (-fl (x2 - x1)) (-1), ?_, ?_⟩
      · have h5 := reciprocal_near hp hd hxd
        unfold Double.reciprocal at h5
        rwa [if_neg (by linarith)] at h5
      · unfold Double.reciprocal; rw [if_pos hneg]
    rw [hA'e, hAneg]
    have hBA : B ≤ A := by
      rw [hBd, hAd]
      calc f * (x1 + z)⁻¹ ≤ 1 * (x1 + z)⁻¹ := by gcongr
        _ ≤ (x1 - x2)⁻¹ := by rw [one_mul]; exact inv_anti₀ hxd (by linarith)
    -- the difference is not small in comparison
    set E := A - B with hE
    have hAE : A ≤ R * E := by
      have e : f * (x1 - x2) / (x1 + z) ≤ 1 - (x2 + z) / (x1 + z) := by
        rw [le_sub_iff_add_le, ← add_div, div_le_one (by linarith)]
        nlinarith
      have e2 : 1 / R ≤ (x2 + z) / (x1 + z) := by
        rw [div_le_div_iff₀ hR0 (by linarith)]
        nlinarith
      have e3 : E = A * (1 - f * (x1 - x2) / (x1 + z)) := by
        rw [hE, hAd, hBd]; field_simp
      have e4 : 1 / R ≤ 1 - f * (x1 - x2) / (x1 + z) := by linarith
      rw [e3]
      calc A = R * (A * (1 / R)) := by field_simp
        _ ≤ _ := by gcongr
    have hE0 : 0 < E := by
      by_contra hc
      have : R * E ≤ 0 := mul_nonpos_of_nonneg_of_nonpos hR0.le (not_lt.mp hc)
      linarith
    have eA := hA'.abs_le (by norm_num)
    have eB := hB.abs_le (by omega)
    push_cast at eA eB
    set η := (k + 5) * (4 * unit) * R with hη
    have hη1 : η ≤ 1 / 1000 := by
      have : η ≤ 2 ^ 40 * (4 * unit) := by
        rw [hη]
        calc (k + 5 : ℝ) * (4 * unit) * R ≤ (k + 6) * (4 * unit) * R := by gcongr; linarith
          _ = (k + 6) * R * (4 * unit) := by ring
          _ ≤ _ := by gcongr
      refine this.trans ?_
      unfold unit; norm_num
    have hη0 : 0 ≤ η := by positivity
    have eE : |A' - B' - E| ≤ η * E := by
      have e : A' - B' - E = (A' - A) - (B' - B) := by rw [hE]; ring
      rw [e]
      refine (abs_sub _ _).trans ?_
      have s1 : (4 : ℝ) * (2 * unit) * A ≤ (k + 5) * (2 * unit) * A := by gcongr; linarith
      have s2 : (k + 5 : ℝ) * (2 * unit) * B ≤ (k + 5) * (2 * unit) * A := by gcongr
      have s3 : (k + 5 : ℝ) * (4 * unit) * A ≤ (k + 5) * (4 * unit) * (R * E) := by gcongr
      calc _ ≤ (k + 5 : ℝ) * (2 * unit) * A + (k + 5) * (2 * unit) * A := add_le_add (eA.trans s1) (eB.trans s2)
        _ = (k + 5) * (4 * unit) * A := by ring
        _ ≤ _ := s3
        _ = η * E := by rw [hη]; ring
    have u0 : unit ≤ 2e-16 := by unfold unit; norm_num
    -- the quotient
    set D' := fl (-A' + B') with hD'
    have eD : |D' + E| ≤ (η + 1.01 * unit) * E := by
      have h3 := hfl.error (-A' + B')
      have h4 : |-A' + B'| ≤ 1.01 * E := by
        have e : -A' + B' = -((A' - B' - E) + E) := by ring
        rw [e, abs_neg]
        refine (abs_add_le _ _).trans ?_
        rw [abs_of_pos hE0]
        nlinarith
      have h5 := h3.trans (mul_le_mul_of_nonneg_left h4 hu.le)
      have e : D' + E = (D' - (-A' + B')) + -(A' - B' - E) := by ring
      rw [e]
      refine (abs_add_le _ _).trans ?_
      rw [abs_neg]
      linarith
    have hDb := abs_le.mp eD
    set θ := η + 1.01 * unit with hθ
    have hθ1 : θ ≤ 1 / 900 := by rw [hθ]; norm_num at *; linarith
    have hθ0 : 0 ≤ θ := by rw [hθ]; positivity
    have hDneg : 0.9 * E ≤ -D' := by
      have := hDb.2
      norm_num at *
      nlinarith
    have hDpos : 0 < -D' := lt_of_lt_of_le (by positivity) hDneg
    set F := 1 - f with hFd
    set F' := fl (1 - f) with hF'd
    have eF := hF.abs_le (by norm_num)
    have hF0 : 0 ≤ F := hF.1
    have hF'0 := hF.nonneg
    set t := F / E with ht
    have ht0 : 0 ≤ t := div_nonneg hF0 hE0.le
    have hF't : F = t * E := by rw [ht]; field_simp
    have eq1 : |F' / D' + t| ≤ (1.2 * θ + 3 * unit) * t := by
      have e : F' / D' + t = ((F' - F) + t * (D' + E)) / D' := by
        have : D' ≠ 0 := by linarith
        rw [hF't]; field_simp; ring
      rw [e, abs_div, abs_of_neg (by linarith : D' < 0), div_le_iff₀ hDpos]
      refine (abs_add_le _ _).trans ?_
      rw [abs_mul, abs_of_nonneg ht0]
      push_cast at eF
      have a1 : |F' - F| ≤ 2 * unit * (t * E) := by rw [← hF't]; linarith
      have a2 : t * |D' + E| ≤ t * (θ * E) := mul_le_mul_of_nonneg_left eD ht0
      have a3 : (1.2 * θ + 3 * unit) * t * (0.9 * E) ≤ (1.2 * θ + 3 * unit) * t * -D' :=
        mul_le_mul_of_nonneg_left hDneg (by positivity)
      have a4 : 0 ≤ t * E := by positivity
      have a5 := mul_nonneg hθ0 a4
      have a6 := mul_nonneg hu.le a4
      refine le_trans ?_ a3
      norm_num at *
      linarith
    -- the value and its size
    set W := x1 - t with hW
    have hWe : x1 + F / (-A + B) = W := by
      rw [hW, ht, hE, show -A + B = -(A - B) by ring, div_neg]; ring
    have hWlow : x2 ≤ W := by
      rw [← hWe, ← hAneg, hFd, hBd, ← hashinShtrikman_eq h1 h2 hz0 hf0 hf1 he]
      exact hashinShtrikman_bounds h1 h2 hz0 hf0 hf1 hgt.le
    have hW0 : 0 < W := by linarith
    have hxW : x1 ≤ R * W := hR.trans (by gcongr)
    have htW : t ≤ R * W := le_trans (by rw [hW] at hW0; linarith) hxW
    rw [hWe]
    set T' := fl (F' / D') with hT'
    have eq2 : |T' + t| ≤ (1.3 * θ + 5 * unit) * t := by
      have h3 := hfl.error (F' / D')
      have h4 : |F' / D'| ≤ 1.01 * t := by
        have e : F' / D' = (F' / D' + t) + -t := by ring
        rw [e]
        refine (abs_add_le _ _).trans ?_
        rw [abs_neg, abs_of_nonneg ht0]
        have : 1.2 * θ + 3 * unit ≤ 0.01 := by norm_num at *; linarith
        have := mul_le_mul_of_nonneg_right this ht0
        norm_num at *
        linarith
      have h5 := h3.trans (mul_le_mul_of_nonneg_left h4 hu.le)
      have e : T' + t = (T' - F' / D') + (F' / D' + t) := by ring
      rw [e]
      refine (abs_add_le _ _).trans ((add_le_add h5 eq1).trans ?_)
      have a1 := mul_nonneg hθ0 ht0
      have a2 := mul_nonneg hu.le ht0
      norm_num at *
      linarith
    have eq3 : |x1 + T' - W| ≤ (1.3 * θ + 5 * unit) * (R * W) := by
      have e : x1 + T' - W = T' + t := by rw [hW]; ring
      rw [e]
      exact eq2.trans (mul_le_mul_of_nonneg_left htW (by positivity))
    have h6 := hfl.error (x1 + T')
    have h7 : |x1 + T'| ≤ 1.1 * (R * W) := by
      have e : x1 + T' = (x1 - t) + (T' + t) := by ring
      rw [e]
      refine (abs_add_le _ _).trans ?_
      rw [← hW, abs_of_pos hW0]
      have : 1.3 * θ + 5 * unit ≤ 0.1 := by norm_num at *; linarith
      have h8 := eq2.trans (mul_le_mul this htW ht0 (by norm_num))
      have h9 : W ≤ R * W := by nlinarith
      norm_num at *
      linarith
    have eq4 : |fl (x1 + T') - W| ≤ (1.3 * θ + 7 * unit) * (R * W) := by
      have e : fl (x1 + T') - W = (fl (x1 + T') - (x1 + T')) + (x1 + T' - W) := by ring
      rw [e]
      have h8 := h6.trans (mul_le_mul_of_nonneg_left h7 hu.le)
      refine (abs_add_le _ _).trans ((add_le_add h8 eq3).trans ?_)
      have a2 : 0 ≤ unit * (R * W) := by positivity
      norm_num at *
      linarith
    unfold Accurate
    rw [abs_of_pos hW0]
    refine eq4.trans ?_
    have hRW : 0 ≤ R * W := by positivity
    have hc : 1.3 * θ + 7 * unit ≤ 8 * (k + 6) * R * (2 * unit) := by
      rw [hθ, hη]
      have b1 : unit ≤ unit * R := le_mul_of_one_le_right hu.le hR1
      have b2 : 0 ≤ k * (unit * R) := by positivity
      norm_num
      nlinarith
    calc (1.3 * θ + 7 * unit) * (R * W) ≤ 8 * (k + 6) * R * (2 * unit) * (R * W) := mul_le_mul_of_nonneg_right hc hRW
      _ = 8 * (k + 6) * R ^ 2 / 2 ^ 52 * W := by unfold unit; ring

/-- **C170.** In double arithmetic the lower and the upper Hashin–Shtrikman–Walpole bound of two minerals (`u` below tells which)
are accurate to `64 R²` (bulk modulus, `R` the ratio of the bulk moduli), `104 R²` (shear modulus) and 3 (density) units of
`2⁻⁵²`, at every fraction. -/
theorem C170_bounds (hfl : RoundsToNearest fl) (hp : PowerAccurate pw) (a b : Published.Rock) {f R S : ℝ}
    (ha : 0 < a.K ∧ 0 < a.G ∧ 0 < a.ρ) (hb : 0 < b.K ∧ 0 < b.G ∧ 0 < b.ρ) (hf0 : 0 ≤ f) (hf1 : f ≤ 1)
    (hR1 : 1 ≤ R) (hR2 : R ≤ 1e10) (hR : a.K ≤ R * b.K) (hS1 : 1 ≤ S) (hS2 : S ≤ 1e10) (hS : a.G ≤ S * b.G) :
    (Accurate (64 * R ^ 2) (Published.lowerBound a b f).K (Double.walpoleBulk fl pw a.K b.K (min a.G b.G) f) ∧
      Accurate (104 * S ^ 2) (Published.lowerBound a b f).G
        (Double.walpoleShear fl pw a.G b.G (min a.K b.K) (min a.G b.G) f) ∧
      Accurate 3 (Published.lowerBound a b f).ρ (Double.walpoleDensity fl a.ρ b.ρ f)) ∧
    (Accurate (64 * R ^ 2) (Published.upperBound a b f).K (Double.walpoleBulk fl pw a.K b.K (max a.G b.G) f) ∧
      Accurate (104 * S ^ 2) (Published.upperBound a b f).G
        (Double.walpoleShear fl pw a.G b.G (max a.K b.K) (max a.G b.G) f) ∧
      Accurate 3 (Published.upperBound a b f).ρ (Double.walpoleDensity fl a.ρ b.ρ f)) := by
  have bulk : ∀ {G : ℝ}, 0 < G →
      Accurate (64 * R ^ 2) (Published.hashinShtrikman a.K b.K f (4 / 3 * G)) (Double.walpoleBulk fl pw a.K b.K G f) := by
    intro G hG
    have hz : Near 2 (4 / 3 * G) (fl (fl (4 / 3) * G)) :=
      ((Near.fl0 hfl (by norm_num : (0:ℝ) ≤ 4 / 3)).mul (Near.refl 0 hG.le)).fl hfl
    have := walpole_near hfl hp ha.1 hb.1 hz hf0 hf1 hR1 hR (by norm_num at *; linarith)
    exact this.mono (by norm_num)
  have shear : ∀ {K G : ℝ}, 0 < K → 0 < G →
      Accurate (104 * S ^ 2) (Published.hashinShtrikman a.G b.G f (Published.zeta K G))
        (Double.walpoleShear fl pw a.G b.G K G f) := by
    intro K G hK hG
    have hz : Near 7 (Published.zeta K G)
        (fl (fl (fl (G / 6) * fl (fl (9 * K) + fl (8 * G))) / fl (K + fl (2 * G)))) := by
      have z1 : Near 1 (G / 6) (fl (G / 6)) := Near.fl0 hfl (by positivity)
      have z2 : Near 2 (9 * K + 8 * G) (fl (fl (9 * K) + fl (8 * G))) :=
        ((Near.fl0 hfl (by positivity)).add (Near.fl0 hfl (by positivity))).fl hfl
      have z3 : Near 2 (K + 2 * G) (fl (K + fl (2 * G))) :=
        ((Near.refl 0 hK.le).add (Near.fl0 hfl (by positivity))).fl hfl
      have := (((z1.mul z2).fl hfl).div z3 (by positivity)).fl hfl
      unfold Published.zeta
      rwa [← mul_div_assoc]
    have := walpole_near hfl hp ha.2.1 hb.2.1 hz hf0 hf1 hS1 hS (by norm_num at *; linarith)
    exact this.mono (by norm_num)
  have dens : Accurate 3 (f * a.ρ + (1 - f) * b.ρ) (Double.walpoleDensity fl a.ρ b.ρ f) := by
    unfold Double.walpoleDensity
    split_ifs with h
    · rw [h, show f * b.ρ + (1 - f) * b.ρ = b.ρ by ring]
      unfold Accurate; rw [sub_self, abs_zero]; positivity
    · have := (((Near.fl0 hfl (mul_nonneg hf0 ha.2.2.le)).add
        (((Near.fl0 hfl (sub_nonneg.mpr hf1)).mul (Near.refl 0 hb.2.2.le)).fl hfl)).fl hfl).accurate (by norm_num)
      exact_mod_cast this
  exact ⟨⟨bulk (lt_min ha.2.1 hb.2.1), shear (lt_min ha.1 hb.1) (lt_min ha.2.1 hb.2.1), dens⟩,
    bulk (lt_max_of_lt_left ha.2.1), shear (lt_max_of_lt_left ha.1) (lt_max_of_lt_left ha.2.1), dens⟩

end OPE
