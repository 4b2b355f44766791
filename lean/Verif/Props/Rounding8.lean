import Verif.Props.Rounding6
import Verif.Props.Rounding7

/-!
# C170 (several minerals), C171: mixtures of minerals and whole rows
-/

namespace OPE

open Classical

variable {fl : ℝ → ℝ} {pw : ℝ → ℝ → ℝ}

/-- A relative error in units of rounding errors. -/
theorem Near.of_relative {j : ℕ} {x y ε : ℝ} (hx : 0 ≤ x) (h : |y - x| ≤ ε * x) (hj : (j : ℝ) * unit ≤ 1)
    (hε : ε ≤ j * unit / 2) (hε0 : 0 ≤ ε) : Near j x y := by
  have hu := unit_pos
  have hb := _root_.abs_le.mp h
  set w := (j : ℝ) * unit with hw
  have hw0 : 0 ≤ w := by positivity
  have h1 : (1 + unit) ^ j * (1 - unit) ^ j ≤ 1 := by
    rw [← mul_pow]
    exact pow_le_one₀ (mul_nonneg (by linarith) Near.one_sub.1.le) (by nlinarith)
  have h2 : 1 + w ≤ (1 + unit) ^ j := by
    have := one_add_mul_le_pow (a := unit) (by linarith) j
    linarith
  have h3 : (1 - unit) ^ j ≤ 1 - w / 2 := by
    have h4 : (1 + w) * (1 - unit) ^ j ≤ 1 := le_trans (mul_le_mul_of_nonneg_right h2 (Near.pow_pos' j).le) h1
    have h5 : 1 ≤ (1 + w) * (1 - w / 2) := by nlinarith
    have := h4.trans h5
    exact le_of_mul_le_mul_left this (by linarith)
  have h4 : (1 - unit) ^ j ≤ 1 - ε := by linarith
  have hy : 0 ≤ y := by nlinarith [hb.1]
  refine ⟨hx, (mul_le_mul_of_nonneg_right h4 hx).trans (by linarith [hb.1]), ?_⟩
  have h5 : (1 - ε) * y ≤ (1 - ε) * ((1 + ε) * x) := mul_le_mul_of_nonneg_left (by linarith [hb.2]) (by linarith)
  refine (mul_le_mul_of_nonneg_right h4 hy).trans (h5.trans ?_)
  nlinarith [mul_nonneg (mul_nonneg hε0 hε0) hx]

/-! ## The bounds are well conditioned in the moduli -/

/-- The average is the least of a family of non-negative combinations of the moduli and the comparison constant. -/
theorem hs_variational {x1 x2 z f : ℝ} (h1 : 0 < x1) (h2 : 0 < x2) (hz : 0 ≤ z) (hf0 : 0 ≤ f) (hf1 : f ≤ 1) :
    (∀ s t, f * s + (1 - f) * t = 1 →
      Published.hashinShtrikman x1 x2 f z ≤ f * s ^ 2 * x1 + (1 - f) * t ^ 2 * x2 + (f * s ^ 2 + (1 - f) * t ^ 2 - 1) * z) ∧
    ∃ s t, f * s + (1 - f) * t = 1 ∧
      Published.hashinShtrikman x1 x2 f z = f * s ^ 2 * x1 + (1 - f) * t ^ 2 * x2 + (f * s ^ 2 + (1 - f) * t ^ 2 - 1) * z := by
  have a1 : 0 < x1 + z := by linarith
  have a2 : 0 < x2 + z := by linarith
  set S := f / (x1 + z) + (1 - f) / (x2 + z) with hS
  have hg0 : 0 ≤ 1 - f := by linarith
  have hS0 : 0 < S := by
    rcases hf0.eq_or_lt with h | h
    · rw [hS, ← h]; simp only [zero_div, zero_add, sub_zero]; positivity
    · have := div_pos h a1; have := div_nonneg hg0 a2.le; linarith
  constructor
  · intro s t hst
    unfold Published.hashinShtrikman
    rw [← hS]
    -- Cauchy–Schwarz
    have key : 1 ≤ S * (f * s ^ 2 * (x1 + z) + (1 - f) * t ^ 2 * (x2 + z)) := by
      have e : S * (f * s ^ 2 * (x1 + z) + (1 - f) * t ^ 2 * (x2 + z)) - (f * s + (1 - f) * t) ^ 2 =
          f * (1 - f) / ((x1 + z) * (x2 + z)) * (s * (x1 + z) - t * (x2 + z)) ^ 2 := by
        rw [hS]; field_simp; ring
      have : 0 ≤ f * (1 - f) / ((x1 + z) * (x2 + z)) * (s * (x1 + z) - t * (x2 + z)) ^ 2 := by positivity
      rw [hst] at e
      linarith
    have h3 : S⁻¹ ≤ f * s ^ 2 * (x1 + z) + (1 - f) * t ^ 2 * (x2 + z) := by
      rw [inv_le_iff_one_le_mul₀ hS0, mul_comm]; exact key
    linarith
  · refine ⟨S⁻¹ / (x1 + z), S⁻¹ / (x2 + z), ?_, ?_⟩
    · have : f * (S⁻¹ / (x1 + z)) + (1 - f) * (S⁻¹ / (x2 + z)) = S⁻¹ * S := by rw [hS]; ring
      rw [this, inv_mul_cancel₀ hS0.ne']
    · unfold Published.hashinShtrikman
      rw [← hS]
      have e1 : f * (S⁻¹ / (x1 + z)) ^ 2 * (x1 + z) = S⁻¹ ^ 2 * (f / (x1 + z)) := by field_simp
      have e2 : (1 - f) * (S⁻¹ / (x2 + z)) ^ 2 * (x2 + z) = S⁻¹ ^ 2 * ((1 - f) / (x2 + z)) := by field_simp
      have e3 : S⁻¹ ^ 2 * S = S⁻¹ := by rw [sq, mul_assoc, inv_mul_cancel₀ hS0.ne', mul_one]
      have : S⁻¹ ^ 2 * (f / (x1 + z)) + S⁻¹ ^ 2 * ((1 - f) / (x2 + z)) = S⁻¹ := by rw [← mul_add, ← hS, e3]
      linarith

theorem hs_pos {x1 x2 z f : ℝ} (h1 : 0 < x1) (h2 : 0 < x2) (hz : 0 ≤ z) (hf0 : 0 ≤ f) (hf1 : f ≤ 1) :
    min x1 x2 ≤ Published.hashinShtrikman x1 x2 f z ∧ Published.hashinShtrikman x1 x2 f z ≤ max x1 x2 := by
  constructor
  · obtain ⟨s, t, hst, he⟩ := (hs_variational h1 h2 hz hf0 hf1).2
    rw [he]
    have hg0 : 0 ≤ 1 - f := by linarith
    have e : f * s ^ 2 + (1 - f) * t ^ 2 - 1 = f * (s - 1) ^ 2 + (1 - f) * (t - 1) ^ 2 := by
      have : f * (s - 1) ^ 2 + (1 - f) * (t - 1) ^ 2 = f * s ^ 2 + (1 - f) * t ^ 2 - 2 * (f * s + (1 - f) * t) + 1 := by ring
      rw [this, hst]; ring
    have h0 : 0 ≤ f * s ^ 2 + (1 - f) * t ^ 2 - 1 := by rw [e]; positivity
    have hmin : 0 < min x1 x2 := lt_min h1 h2
    have b1 : f * s ^ 2 * min x1 x2 ≤ f * s ^ 2 * x1 := mul_le_mul_of_nonneg_left (min_le_left _ _) (by positivity)
    have b2 : (1 - f) * t ^ 2 * min x1 x2 ≤ (1 - f) * t ^ 2 * x2 := mul_le_mul_of_nonneg_left (min_le_right _ _) (by positivity)
    nlinarith [mul_nonneg h0 hz, mul_nonneg h0 hmin.le]
  · have := (hs_variational h1 h2 hz hf0 hf1).1 1 1 (by ring)
    refine this.trans ?_
    have b1 : f * x1 ≤ f * max x1 x2 := mul_le_mul_of_nonneg_left (le_max_left _ _) hf0
    have b2 : (1 - f) * x2 ≤ (1 - f) * max x1 x2 := mul_le_mul_of_nonneg_left (le_max_right _ _) (by linarith)
    nlinarith

/-- Relative errors of the moduli and of the comparison constant are not amplified. -/
theorem hs_near {x1 x2 z f x1' x2' z' : ℝ} {k : ℕ} (h1 : 0 < x1) (h2 : 0 < x2) (hf0 : 0 ≤ f) (hf1 : f ≤ 1)
    (n1 : Near k x1 x1') (n2 : Near k x2 x2') (nz : Near k z z') :
    Near k (Published.hashinShtrikman x1 x2 f z) (Published.hashinShtrikman x1' x2' f z') := by
  have h1' := n1.pos h1
  have h2' := n2.pos h2
  have v := hs_variational h1 h2 nz.1 hf0 hf1
  have v' := hs_variational h1' h2' nz.nonneg hf0 hf1
  have hg0 : 0 ≤ 1 - f := by linarith
  have step : ∀ {a b w a' b' w' p : ℝ} (s t : ℝ), f * s + (1 - f) * t = 1 → p * a ≤ a' → p * b ≤ b' → p * w ≤ w' →
      p * (f * s ^ 2 * a + (1 - f) * t ^ 2 * b + (f * s ^ 2 + (1 - f) * t ^ 2 - 1) * w) ≤
        f * s ^ 2 * a' + (1 - f) * t ^ 2 * b' + (f * s ^ 2 + (1 - f) * t ^ 2 - 1) * w' := by
    intro a b w a' b' w' p s t hst ha hb hw
    have e : f * s ^ 2 + (1 - f) * t ^ 2 - 1 = f * (s - 1) ^ 2 + (1 - f) * (t - 1) ^ 2 := by
      have : f * (s - 1) ^ 2 + (1 - f) * (t - 1) ^ 2 = f * s ^ 2 + (1 - f) * t ^ 2 - 2 * (f * s + (1 - f) * t) + 1 := by ring
      rw [this, hst]; ring
    have h0 : 0 ≤ f * s ^ 2 + (1 - f) * t ^ 2 - 1 := by rw [e]; positivity
    have b1 := mul_le_mul_of_nonneg_left ha (by positivity : 0 ≤ f * s ^ 2)
    have b2 := mul_le_mul_of_nonneg_left hb (by positivity : 0 ≤ (1 - f) * t ^ 2)
    have b3 := mul_le_mul_of_nonneg_left hw h0
    linarith
  refine ⟨le_trans (lt_min h1 h2).le (hs_pos h1 h2 nz.1 hf0 hf1).1, ?_, ?_⟩
  · obtain ⟨s, t, hst, he⟩ := v'.2
    rw [he]
    exact (mul_le_mul_of_nonneg_left (v.1 s t hst) (Near.pow_pos' k).le).trans (step s t hst n1.2.1 n2.2.1 nz.2.1)
  · obtain ⟨s, t, hst, he⟩ := v.2
    rw [he]
    exact (mul_le_mul_of_nonneg_left (v'.1 s t hst) (Near.pow_pos' k).le).trans (step s t hst n1.2.2 n2.2.2 nz.2.2)

/-- Errors of the fraction. -/
theorem hs_fraction {x1 x2 z f f' R : ℝ} (h1 : 0 < x1) (h2 : 0 < x2) (hz : 0 ≤ z) (hf0 : 0 ≤ f) (hf1 : f ≤ 1)
    (hf0' : 0 ≤ f') (hf1' : f' ≤ 1) (hR : 1 ≤ R) (h12 : x1 ≤ R * x2) (h21 : x2 ≤ R * x1) :
    |Published.hashinShtrikman x1 x2 f' z - Published.hashinShtrikman x1 x2 f z| ≤
      |f' - f| * R ^ 2 * Published.hashinShtrikman x1 x2 f z := by
  have a1 : 0 < x1 + z := by linarith
  have a2 : 0 < x2 + z := by linarith
  have hS : ∀ {g : ℝ}, 0 ≤ g → g ≤ 1 → 0 < g / (x1 + z) + (1 - g) / (x2 + z) := by
    intro g hg0 hg1
    rcases hg0.eq_or_lt with h | h
    · rw [← h]; simp only [zero_div, zero_add, sub_zero]; positivity
    · have := div_pos h a1; have := div_nonneg (sub_nonneg.mpr hg1) a2.le; linarith
  have up : ∀ {g : ℝ}, 0 ≤ g → g ≤ 1 → (g / (x1 + z) + (1 - g) / (x2 + z))⁻¹ ≤ max x1 x2 + z := by
    intro g hg0 hg1
    have := (hs_pos h1 h2 hz hg0 hg1).2
    unfold Published.hashinShtrikman at this
    linarith
  have low := (hs_pos h1 h2 hz hf0 hf1).1
  set W := Published.hashinShtrikman x1 x2 f z with hW
  have e : Published.hashinShtrikman x1 x2 f' z - W =
      (f - f') * (x2 - x1) / ((x1 + z) * (x2 + z)) * ((f / (x1 + z) + (1 - f) / (x2 + z))⁻¹ *
        (f' / (x1 + z) + (1 - f') / (x2 + z))⁻¹) := by
    have k1 := (hS hf0 hf1).ne'
    have k2 := (hS hf0' hf1').ne'
    have d : (f / (x1 + z) + (1 - f) / (x2 + z)) - (f' / (x1 + z) + (1 - f') / (x2 + z)) =
        (f - f') * (x2 - x1) / ((x1 + z) * (x2 + z)) := by field_simp; ring
    rw [hW, ← d]
    unfold Published.hashinShtrikman
    generalize f / (x1 + z) + (1 - f) / (x2 + z) = a at *
    generalize f' / (x1 + z) + (1 - f') / (x2 + z) = b at *
    field_simp
    ring
  rw [e]
  set i1 := (f / (x1 + z) + (1 - f) / (x2 + z))⁻¹ with hi1
  set i2 := (f' / (x1 + z) + (1 - f') / (x2 + z))⁻¹ with hi2
  have p1 : 0 < i1 := inv_pos.mpr (hS hf0 hf1)
  have p2 : 0 < i2 := inv_pos.mpr (hS hf0' hf1')
  have u1 : i1 ≤ max x1 x2 + z := up hf0 hf1
  have u2 : i2 ≤ max x1 x2 + z := up hf0' hf1'
  rw [abs_mul, abs_div, abs_mul, abs_of_pos (mul_pos a1 a2), abs_of_pos (mul_pos p1 p2), abs_sub_comm f f']
  have hR0 : 0 < R := by linarith
  have hmin : 0 < min x1 x2 := lt_min h1 h2
  have q1 : i1 * i2 ≤ R * ((x1 + z) * (x2 + z)) := by
    have h3 : i1 * i2 ≤ (max x1 x2 + z) * (max x1 x2 + z) := mul_le_mul u1 u2 p2.le (by positivity)
    refine h3.trans ?_
    rcases le_total x1 x2 with h | h
    · rw [max_eq_right h]
      have : x2 + z ≤ R * (x1 + z) := by nlinarith
      calc (x2 + z) * (x2 + z) ≤ R * (x1 + z) * (x2 + z) := mul_le_mul_of_nonneg_right this a2.le
        _ = _ := by ring
    · rw [max_eq_left h]
      have : x1 + z ≤ R * (x2 + z) := by nlinarith
      calc (x1 + z) * (x1 + z) ≤ R * (x2 + z) * (x1 + z) := mul_le_mul_of_nonneg_right this a1.le
        _ = _ := by ring
  have q2 : |x2 - x1| ≤ R * W := by
    refine le_trans ?_ (mul_le_mul_of_nonneg_left low hR0.le)
    rcases le_total x1 x2 with h | h
    · rw [min_eq_left h, abs_of_nonneg (by linarith)]; linarith
    · rw [min_eq_right h, abs_of_nonpos (by linarith)]; linarith
  have hW0 : 0 < W := lt_of_lt_of_le hmin low
  calc |f' - f| * |x2 - x1| / ((x1 + z) * (x2 + z)) * (i1 * i2)
      ≤ |f' - f| * |x2 - x1| / ((x1 + z) * (x2 + z)) * (R * ((x1 + z) * (x2 + z))) :=
        mul_le_mul_of_nonneg_left q1 (by positivity)
    _ = |f' - f| * (|x2 - x1| * R) := by field_simp
    _ ≤ |f' - f| * (R * W * R) := by gcongr
    _ = _ := by ring

/-! ## Any number of minerals -/

theorem Near.min {k : ℕ} {x y a b : ℝ} (h : Near k x y) (h' : Near k a b) : Near k (min x a) (min y b) := by
  refine ⟨le_min h.1 h'.1, le_min ?_ ?_, le_min ?_ ?_⟩
  · exact (mul_le_mul_of_nonneg_left (min_le_left _ _) (Near.pow_pos' k).le).trans h.2.1
  · exact (mul_le_mul_of_nonneg_left (min_le_right _ _) (Near.pow_pos' k).le).trans h'.2.1
  · exact (mul_le_mul_of_nonneg_left (min_le_left _ _) (Near.pow_pos' k).le).trans h.2.2
  · exact (mul_le_mul_of_nonneg_left (min_le_right _ _) (Near.pow_pos' k).le).trans h'.2.2

theorem zeta_mono {K G K' G' : ℝ} (hK : 0 < K) (hG : 0 < G) (h1 : K ≤ K') (h2 : G ≤ G') :
    Published.zeta K G ≤ Published.zeta K' G' := by
  unfold Published.zeta
  have hK' : 0 < K' := by linarith
  have hG' : 0 < G' := by linarith
  have step1 : G / 6 * ((9 * K + 8 * G) / (K + 2 * G)) ≤ G / 6 * ((9 * K' + 8 * G) / (K' + 2 * G)) := by
    refine mul_le_mul_of_nonneg_left ?_ (by positivity)
    rw [div_le_div_iff₀ (by positivity) (by positivity)]
    nlinarith [mul_le_mul_of_nonneg_right h1 hG.le]
  refine step1.trans ?_
  rw [← mul_div_assoc, ← mul_div_assoc, div_le_div_iff₀ (by positivity) (by positivity)]
  have d : 0 ≤ G' - G := by linarith
  nlinarith [mul_nonneg d (mul_pos hK' hK').le, mul_nonneg d (mul_pos hK' hG).le, mul_nonneg d (mul_pos hK' hG').le,
    mul_nonneg d (mul_pos hG hG').le]

theorem zeta_scale {K G s : ℝ} (hs : 0 < s) (hK : 0 < K) (hG : 0 < G) :
    Published.zeta (s * K) (s * G) = s * Published.zeta K G := by
  unfold Published.zeta
  field_simp

theorem zeta_near {K G K' G' : ℝ} {k : ℕ} (hK : 0 < K) (hG : 0 < G) (nK : Near k K K') (nG : Near k G G') :
    Near k (Published.zeta K G) (Published.zeta K' G') := by
  have hK' := nK.pos hK
  have hG' := nG.pos hG
  have hs := Near.pow_pos' k
  refine ⟨by unfold Published.zeta; positivity, ?_, ?_⟩
  · rw [← zeta_scale hs hK hG]
    exact zeta_mono (mul_pos hs hK) (mul_pos hs hG) nK.2.1 nG.2.1
  · rw [← zeta_scale hs hK' hG']
    exact zeta_mono (mul_pos hs hK') (mul_pos hs hG') nK.2.2 nG.2.2

/-- Rounding keeps the side of a double. -/
theorem RoundsToNearest.ge_double (hf : RoundsToNearest fl) {d x : ℝ} (hd : IsDouble d) (h : d ≤ x) : d ≤ fl x := by
  by_contra hc
  push Not at hc
  have := (hf x).2 d hd
  rw [abs_of_nonpos (by linarith), abs_of_nonpos (by linarith)] at this
  linarith

theorem RoundsToNearest.le_double (hf : RoundsToNearest fl) {d x : ℝ} (hd : IsDouble d) (h : x ≤ d) : fl x ≤ d := by
  by_contra hc
  push Not at hc
  have := (hf x).2 d hd
  rw [abs_of_nonneg (by linarith), abs_of_nonneg (by linarith)] at this
  linarith

theorem Near.of_zero {k : ℕ} {y : ℝ} (h : Near k 0 y) : y = 0 := by
  have h1 := h.2.2
  have h2 := h.nonneg
  have hs := Near.pow_pos' k
  by_contra hc
  have : 0 < y := lt_of_le_of_ne h2 (Ne.symm hc)
  have := mul_pos hs this
  linarith

theorem Near.le_two {k : ℕ} {x y : ℝ} (h : Near k x y) (hk : k ≤ 2 ^ 50) : y ≤ 2 * x ∧ x ≤ 2 * y := by
  have h1 : (1 : ℝ) / 2 ≤ (1 - unit) ^ k := by
    refine le_trans ?_ (Near.sub_one_pow k)
    have : (k : ℝ) * unit ≤ 2 ^ 50 * unit := mul_le_mul_of_nonneg_right (by exact_mod_cast hk) unit_pos.le
    have e : (2 : ℝ) ^ 50 * unit = 1 / 8 := by unfold unit; norm_num
    linarith
  have h2 := h.2.1
  have h3 := h.2.2
  have := mul_le_mul_of_nonneg_right h1 h.1
  have := mul_le_mul_of_nonneg_right h1 h.nonneg
  constructor <;> linarith

/-- One average in double arithmetic from inputs that already carry errors. -/
theorem walpole_step (hfl : RoundsToNearest fl) (hp : PowerAccurate pw) {x1 x2 z x1' z' z'' r r' : ℝ} {R j i : ℕ}
    (h1 : 0 < x1) (h2 : 0 < x2) (hR : 1 ≤ R) (h12 : x1 ≤ R * x2) (h21 : x2 ≤ R * x1) (n1 : Near j x1 x1')
    (nz : Near j z z') {k : ℕ} (nz' : Near k z' z'') (hk : k ≤ 7) (hr0 : 0 ≤ r) (hr1 : r ≤ 1) (hr0' : 0 ≤ r') (hr1' : r' ≤ 1)
    (nr : Near (2 * i + 2) r r') (hR2 : R ≤ 2 ^ 30) (hsmall : j + (8 * (i + 1) + 1664) * R ^ 2 ≤ 2 ^ 50) :
    Near (j + (8 * (i + 1) + 1664) * R ^ 2) (Published.hashinShtrikman x1 x2 r z) (Double.walpole fl pw x1' x2 z'' r') := by
  have hu := unit_pos
  have hR' : (1 : ℝ) ≤ R := by exact_mod_cast hR
  have hb : (8 * (i + 1) + 1664) * R ^ 2 ≤ 2 ^ 50 := le_trans (Nat.le_add_left _ _) hsmall
  have hunit : (2 : ℝ) ^ 50 * unit ≤ 1 := by unfold unit; norm_num
  have hRR : 1 ≤ R ^ 2 := Nat.one_le_pow _ _ hR
  have hib : 2 * i + 2 ≤ 2 ^ 50 := by
    have : (8 * (i + 1) + 1664) * 1 ≤ (8 * (i + 1) + 1664) * R ^ 2 := Nat.mul_le_mul_left _ hRR
    omega
  have hz0 := nz.1
  -- the fraction
  have s1 : Near (8 * (i + 1) * R ^ 2) (Published.hashinShtrikman x1 x2 r z) (Published.hashinShtrikman x1 x2 r' z) := by
    have hpos : 0 ≤ Published.hashinShtrikman x1 x2 r z := le_trans (lt_min h1 h2).le (hs_pos h1 h2 hz0 hr0 hr1).1
    refine Near.of_relative (ε := |r' - r| * R ^ 2) hpos (hs_fraction h1 h2 hz0 hr0 hr1 hr0' hr1' hR' h12 h21) ?_ ?_ (by positivity)
    · refine le_trans (mul_le_mul_of_nonneg_right ?_ hu.le) hunit
      have : 8 * (i + 1) * R ^ 2 ≤ 2 ^ 50 := le_trans (Nat.mul_le_mul_right _ (by omega)) hb
      exact_mod_cast this
    · have h3 := nr.abs_le (by omega)
      have h4 : |r' - r| ≤ (2 * i + 2) * (2 * unit) := by
        refine h3.trans ?_
        push_cast
        calc (2 * i + 2 : ℝ) * (2 * unit) * r ≤ (2 * i + 2 : ℝ) * (2 * unit) * 1 := by gcongr
          _ = _ := by ring
      calc |r' - r| * (R : ℝ) ^ 2 ≤ (2 * i + 2) * (2 * unit) * (R : ℝ) ^ 2 := by gcongr
        _ = _ := by push_cast; ring
  -- the moduli
  have s2 : Near j (Published.hashinShtrikman x1 x2 r' z) (Published.hashinShtrikman x1' x2 r' z') :=
    hs_near h1 h2 hr0' hr1' n1 (Near.refl j h2.le) nz
  have h1' := n1.pos h1
  have hj : j ≤ 2 ^ 50 := le_trans (Nat.le_add_right _ _) hsmall
  -- the roundings of this average
  have s3 : Near (1664 * R ^ 2) (Published.hashinShtrikman x1' x2 r' z') (Double.walpole fl pw x1' x2 z'' r') := by
    have hk' : (k : ℝ) ≤ 7 := by exact_mod_cast hk
    have hR30 : (R : ℝ) ≤ 2 ^ 30 := by exact_mod_cast hR2
    have acc := walpole_near hfl hp h1' h2 nz' hr0' hr1' (R := 2 * R) (by linarith)
      ((n1.le_two hj).1.trans (by linarith)) (by
        calc ((k : ℝ) + 6) * (2 * R) ≤ (7 + 6) * (2 * 2 ^ 30) := by gcongr
          _ ≤ 2 ^ 40 := by norm_num)
    have hpos : 0 ≤ Published.hashinShtrikman x1' x2 r' z' := s2.nonneg
    unfold Accurate at acc
    rw [abs_of_nonneg hpos] at acc
    refine Near.of_relative (ε := 832 * (R : ℝ) ^ 2 * unit) hpos (acc.trans (mul_le_mul_of_nonneg_right ?_ hpos)) ?_ ?_ (by positivity)
    · calc 8 * ((k : ℝ) + 6) * (2 * R) ^ 2 / 2 ^ 52 ≤ 8 * (7 + 6) * (2 * R) ^ 2 / 2 ^ 52 := by gcongr
        _ = 832 * (R : ℝ) ^ 2 * unit := by unfold unit; ring
    · refine le_trans (mul_le_mul_of_nonneg_right ?_ hu.le) hunit
      have : 1664 * R ^ 2 ≤ 2 ^ 50 := le_trans (Nat.mul_le_mul_right _ (by omega)) hb
      exact_mod_cast this
    · push_cast; linarith
  refine ((s1.trans s2).trans s3).mono ?_
  have : (8 * (i + 1) + 1664) * R ^ 2 = 8 * (i + 1) * R ^ 2 + 1664 * R ^ 2 := by ring
  omega

end OPE
