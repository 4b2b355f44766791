import Verif.Props.Rounding4

/-!
# C171: rounding errors through a whole row

Gassmann's compliance is the smallest of a family of non-negative combinations of the compliances of mineral, dry rock and
fluid, so relative errors of the moduli are not amplified.
-/

namespace OPE

open Classical

/-- A member of the family. -/
noncomputable def comb (t φ xm xd xf : ℝ) : ℝ := (1 - t ^ 2 - φ * (1 - t) ^ 2) * xm + t ^ 2 * xd + φ * (1 - t) ^ 2 * xf

theorem comb_coeff {t φ : ℝ} (h0 : 0 ≤ t) (h1 : t ≤ 1) (hφ : 0 ≤ φ) (hφ1 : φ ≤ 1) : 0 ≤ 1 - t ^ 2 - φ * (1 - t) ^ 2 := by
  have : φ * (1 - t) ^ 2 ≤ 1 * (1 - t) ^ 2 := mul_le_mul_of_nonneg_right hφ1 (sq_nonneg _)
  nlinarith

theorem comb_mono {t φ xm xd xf ym yd yf s : ℝ} (h0 : 0 ≤ t) (h1 : t ≤ 1) (hφ : 0 ≤ φ) (hφ1 : φ ≤ 1)
    (hm : s * ym ≤ xm) (hd : s * yd ≤ xd) (hf : s * yf ≤ xf) : s * comb t φ ym yd yf ≤ comb t φ xm xd xf := by
  unfold comb
  have a := mul_le_mul_of_nonneg_left hm (comb_coeff h0 h1 hφ hφ1)
  have b := mul_le_mul_of_nonneg_left hd (sq_nonneg t)
  have d := mul_le_mul_of_nonneg_left hf (mul_nonneg hφ (sq_nonneg (1 - t)))
  linarith

theorem satReal_pos {Kd Km Kf φ : ℝ} (hφ : 0 < φ) (hd0 : 0 < Kd) (hd : Kd < Km) (hf0 : 0 < Kf) (hf : Kf < Km) :
    0 < satReal Kd Km Kf φ := by
  rw [← satReal_eq hφ hd0.le hd hf0 hf]
  have h1 : 0 < gFactor Kd Km Kf φ := by
    unfold gFactor
    have : 0 < Km - Kd := by linarith
    have : 0 < Km - Kf := by linarith
    positivity
  have : 0 < Km := by linarith
  positivity

/-- The compliance of the saturated rock is the least member. -/
theorem satReal_compliance {Kd Km Kf φ : ℝ} (hφ : 0 < φ) (hd0 : 0 < Kd) (hd : Kd < Km) (hf0 : 0 < Kf) (hf : Kf < Km) :
    (∀ t, (satReal Kd Km Kf φ)⁻¹ ≤ comb t φ Km⁻¹ Kd⁻¹ Kf⁻¹) ∧
      ∃ t, 0 ≤ t ∧ t ≤ 1 ∧ (satReal Kd Km Kf φ)⁻¹ = comb t φ Km⁻¹ Kd⁻¹ Kf⁻¹ := by
  have hm : 0 < Km := by linarith
  set p := Kd⁻¹ - Km⁻¹ with hp
  set q := φ * (Kf⁻¹ - Km⁻¹) with hq
  have hp0 : 0 < p := sub_pos.mpr (inv_strictAnti₀ hd0 hd)
  have hq0 : 0 < q := mul_pos hφ (sub_pos.mpr (inv_strictAnti₀ hf0 hf))
  have hval : (satReal Kd Km Kf φ)⁻¹ = Km⁻¹ + p * q / (p + q) := by
    rw [← satReal_eq hφ hd0.le hd hf0 hf]
    have a1 : 0 < Km - Kd := by linarith
    have a2 : 0 < Km - Kf := by linarith
    have hg : gFactor Kd Km Kf φ = Km⁻¹ * (p⁻¹ + q⁻¹) := by
      unfold gFactor
      rw [hp, hq]
      have e1 : Kd⁻¹ - Km⁻¹ = (Km - Kd) / (Kd * Km) := by field_simp
      have e2 : Kf⁻¹ - Km⁻¹ = (Km - Kf) / (Kf * Km) := by field_simp
      rw [e1, e2]
      field_simp
    rw [hg]
    have : 0 < p + q := by linarith
    field_simp
    ring
  have hc : ∀ t, comb t φ Km⁻¹ Kd⁻¹ Kf⁻¹ = Km⁻¹ + (t ^ 2 * p + (1 - t) ^ 2 * q) := by
    intro t; rw [hp, hq]; unfold comb; ring
  have hpq : 0 < p + q := by linarith
  constructor
  · intro t
    rw [hval, hc]
    have : p * q / (p + q) ≤ t ^ 2 * p + (1 - t) ^ 2 * q := by
      rw [div_le_iff₀ hpq]
      nlinarith [sq_nonneg (t * (p + q) - q)]
    linarith
  · refine ⟨q / (p + q), by positivity, by rw [div_le_one hpq]; linarith, ?_⟩
    rw [hval, hc]
    field_simp
    ring

/-- Relative errors of the moduli reach the saturated modulus undiminished at most. -/
theorem satReal_near {Kd Km Kf φ Kd' Km' Kf' : ℝ} {k : ℕ} (hφ : 0 < φ) (hφ1 : φ ≤ 1) (hd0 : 0 < Kd) (hd : Kd < Km)
    (hf0 : 0 < Kf) (hf : Kf < Km) (hd' : Kd' < Km') (hf' : Kf' < Km') (nd : Near k Kd Kd') (nm : Near k Km Km')
    (nf : Near k Kf Kf') : Near k (satReal Kd Km Kf φ) (satReal Kd' Km' Kf' φ) := by
  have hd0' := nd.pos hd0
  have hf0' := nf.pos hf0
  have hm : 0 < Km := by linarith
  have c1 := satReal_compliance hφ hd0 hd hf0 hf
  have c2 := satReal_compliance hφ hd0' hd' hf0' hf'
  have p1 := satReal_pos hφ hd0 hd hf0 hf
  have p2 := satReal_pos hφ hd0' hd' hf0' hf'
  have id' := nd.inv hd0
  have im' := nm.inv hm
  have if' := nf.inv hf0
  have h : Near k (satReal Kd Km Kf φ)⁻¹ (satReal Kd' Km' Kf' φ)⁻¹ := by
    refine ⟨(inv_pos.mpr p1).le, ?_, ?_⟩
    · obtain ⟨t, ht0, ht1, he⟩ := c2.2
      rw [he]
      exact (mul_le_mul_of_nonneg_left (c1.1 t) (Near.pow_pos' k).le).trans
        (comb_mono ht0 ht1 hφ.le hφ1 im'.2.1 id'.2.1 if'.2.1)
    · obtain ⟨t, ht0, ht1, he⟩ := c1.2
      rw [he]
      exact (mul_le_mul_of_nonneg_left (c2.1 t) (Near.pow_pos' k).le).trans
        (comb_mono ht0 ht1 hφ.le hφ1 im'.2.2 id'.2.2 if'.2.2)
  have := h.inv (inv_pos.mpr p1)
  rwa [inv_inv, inv_inv] at this

end OPE
