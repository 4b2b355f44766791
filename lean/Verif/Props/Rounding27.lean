import Verif.Props.Rounding26
import Verif.Props.Continuity2

/-!
# C188: gas in double arithmetic
-/

namespace OPE.Double

open Classical

variable {fl : ℝ → ℝ} {pw : ℝ → ℝ → ℝ} {ex : ℝ → ℝ}

theorem gas_a {t : ℝ} (ht : 1.028 ≤ t) (ht1 : t ≤ 3.05) :
    0 < 0.03 + 0.00527 * (3.5 - t) ^ 3 ∧ 0.03 + 0.00527 * (3.5 - t) ^ 3 ≤ 0.11 := by
  have h0 : 0 ≤ 3.5 - t := by norm_num at ht1 ⊢; linarith
  have h1 : 3.5 - t ≤ 2.472 := by norm_num at ht ⊢; linarith
  have h2 := pow_le_pow_left₀ h0 h1 3
  have h3 := pow_nonneg h0 3
  constructor
  · positivity
  · norm_num at h2 ⊢; linarith

theorem gas_b {t : ℝ} (ht : 1.028 ≤ t) (ht1 : t ≤ 3.05) :
    0.13 ≤ 0.642 * t - 0.007 * t ^ 4 - 0.52 ∧ 0.642 * t - 0.007 * t ^ 4 - 0.52 ≤ 0.85 := by
  norm_num at ht ht1
  constructor
  · have h1 : 0 ≤ (t - 257/250) * (61/20 - t) := mul_nonneg (by linarith) (by linarith)
    have h2 : 0 ≤ (t - 257/250) * (61/20 - t) * (t ^ 2 + 4 * t + 13) := mul_nonneg h1 (by positivity)
    norm_num
    nlinarith
  · norm_num
    nlinarith [sq_nonneg (t - 71/25), mul_nonneg (sq_nonneg (t - 71/25)) (sq_nonneg (t + 71/25))]

theorem gamma_ge {p : ℝ} (hp : 0 ≤ p) : 0.5 ≤ Published.gasGamma p := by
  unfold Published.gasGamma
  have h1 : 1.86 * (1 + 0.65 * p) ≤ Real.exp (0.65 * (p + 1)) := by
    rw [show 0.65 * (p + 1) = 0.65 + 0.65 * p by ring, Real.exp_add]
    apply mul_le_mul
    · refine le_trans ?_ (Real.quadratic_le_exp_of_nonneg (by norm_num)); norm_num
    · linarith [Real.add_one_le_exp (0.65 * p)]
    · positivity
    · positivity
  have h2 : Real.exp (-0.65 * (p + 1)) ≤ 1 / (1.86 * (1 + 0.65 * p)) := by
    rw [neg_mul, Real.exp_neg, ← one_div]
    exact one_div_le_one_div_of_le (by positivity) h1
  have h3 : 8.7 * (1 / (1.86 * (1 + 0.65 * p))) < 0.35 + 5.6 / (p + 2) + 27.1 / (p + 3.5) ^ 2 := by
    rw [← sub_pos]
    have : 0.35 + 5.6 / (p + 2) + 27.1 / (p + 3.5) ^ 2 - 8.7 * (1 / (1.86 * (1 + 0.65 * p)))
      = ((0.35 * ((p + 2) * (p + 3.5) ^ 2) + 5.6 * (p + 3.5) ^ 2 + 27.1 * (p + 2)) * (1.86 * (1 + 0.65 * p))
        - 8.7 * ((p + 2) * (p + 3.5) ^ 2)) / ((p + 2) * (p + 3.5) ^ 2 * (1.86 * (1 + 0.65 * p))) := by
      field_simp
    rw [this]
    apply div_pos _ (by positivity)
    ring_nf
    positivity
  norm_num at h2 h3 ⊢
  linarith

/-- Bounds of the exact values: compressibility, and its logarithmic derivative. -/
theorem gas_bounds {t p : ℝ} (ht : 1.028 ≤ t) (ht1 : t ≤ 3.05) (hp : 0 < p) (hp1 : p ≤ 22.4) :
    0.13 ≤ Published.gasZ t p ∧ Published.gasZ t p ≤ 4.25 ∧ |deriv (Published.gasZ t) p * p| ≤ 2.5 ∧
    0.03 ≤ 1 - deriv (Published.gasZ t) p * p * (Published.gasZ t p)⁻¹ := by
  have ht0 : 0 < t := lt_of_lt_of_le (by norm_num) ht
  obtain ⟨a0, a1⟩ := gas_a ht ht1
  obtain ⟨b0, b1⟩ := gas_b ht ht1
  set a := 0.03 + 0.00527 * (3.5 - t) ^ 3 with ha
  set b := 0.642 * t - 0.007 * t ^ 4 - 0.52 with hb
  set k := (0.45 + 8 * (0.56 - 1 / t) ^ 2) / t with hk
  have hk0 : 0 < k := by rw [hk]; positivity
  set u := k * p ^ (1.2:ℝ) with hu
  have hu0 : 0 < u := mul_pos hk0 (Real.rpow_pos_of_pos hp _)
  set w := 0.109 * (3.85 - t) ^ 2 with hw
  have w0 : 0 ≤ w := by positivity
  have w1 : w ≤ 0.87 := by
    have h0 : 0 ≤ 3.85 - t := by norm_num at ht1 ⊢; linarith
    have h1 : 3.85 - t ≤ 2.822 := by norm_num at ht ⊢; linarith
    have := pow_le_pow_left₀ h0 h1 2
    rw [hw]; norm_num at this ⊢; linarith
  have hZ : Published.gasZ t p = a * p + b + w * Real.exp (-u) := by
    unfold Published.gasZ; rw [ha, hb, hw, hu, hk]; congr 3; ring
  have e0 := Real.exp_pos (-u)
  have e1 : Real.exp (-u) ≤ 1 := by rw [Real.exp_le_one_iff]; linarith
  have ue : u * Real.exp (-u) ≤ 1 := by
    have := Real.add_one_le_exp u
    rw [Real.exp_neg, ← div_eq_mul_inv, div_le_one (Real.exp_pos u)]
    linarith
  have hD : deriv (Published.gasZ t) p * p = a * p - 1.2 * w * (u * Real.exp (-u)) := by
    have q : p ^ (0.2:ℝ) * p = p ^ (1.2:ℝ) := by
      rw [show (1.2:ℝ) = 0.2 + 1 by norm_num, Real.rpow_add hp, Real.rpow_one]
    rw [gasZ_deriv hp, ← ha, ← hk, ← hw, ← hu]
    have : u = k * (p ^ (0.2:ℝ) * p) := by rw [q]
    calc (a + w * (Real.exp (-u) * -(k * (1.2 * p ^ (0.2:ℝ))))) * p
        = a * p - 1.2 * w * (k * (p ^ (0.2:ℝ) * p) * Real.exp (-u)) := by ring
      _ = _ := by rw [← this]
  have ap0 : 0 ≤ a * p := by positivity
  have ap1 : a * p ≤ 0.11 * 22.4 := mul_le_mul a1 hp1 hp.le (by norm_num)
  have we0 : 0 ≤ w * Real.exp (-u) := by positivity
  have we1 : w * Real.exp (-u) ≤ 0.87 := by nlinarith
  have wu0 : 0 ≤ w * (u * Real.exp (-u)) := by positivity
  have wu1 : w * (u * Real.exp (-u)) ≤ 0.87 := by nlinarith
  have z0 : 0.13 ≤ Published.gasZ t p := by rw [hZ]; linarith
  have z1 : Published.gasZ t p ≤ 4.25 := by rw [hZ]; norm_num at b1 ap1 we1 ⊢; linarith
  have zp : 0 < Published.gasZ t p := lt_of_lt_of_le (by norm_num) z0
  refine ⟨z0, z1, ?_, ?_⟩
  · rw [hD, abs_le]
    norm_num at ap1 wu1 ⊢
    constructor <;> linarith
  · have : 1 - deriv (Published.gasZ t) p * p * (Published.gasZ t p)⁻¹
        = (Published.gasZ t p - deriv (Published.gasZ t) p * p) / Published.gasZ t p := by field_simp
    rw [this, le_div_iff₀ zp, hD]
    nth_rewrite 2 [hZ]
    norm_num at b0 z1 ⊢
    linarith

/-- The compressibility factor. -/
theorem gasZ_box (hf : RoundsToNearest fl) (hp : PowerAccurate pw) (he : ExpAccurate ex) {t t' p p' : ℝ} (ht : 1.028 ≤ t)
    (ht1 : t ≤ 3.05) (hp0 : 1 / 2 ^ 6 ≤ p) (hp1 : p ≤ 22.4) (nt : Near 6 t t') (np : Near 11 p p') :
    Box 4.25 1.436e-13 (Published.gasZ t p) (gasZ fl pw ex t' p') := by
  have ht0 : 0 < t := lt_of_lt_of_le (by norm_num) ht
  have htt : 1 ≤ t := le_trans (by norm_num) ht
  have hu2 : |3.5 - t| ≤ 2.48 := by rw [abs_le]; norm_num at ht ht1 ⊢; constructor <;> linarith
  have hu : 0.45 ≤ 3.5 - t := by norm_num at ht1 ⊢; linarith
  have hu0 : 0 < 3.5 - t := lt_of_lt_of_le (by norm_num) hu
  have ha : |0.03 + 0.00527 * ((3.5 - t) * (3.5 - t) * (3.5 - t))| ≤ 0.111 := by
    have := (gas_a ht ht1).2
    rw [show (3.5 - t) * (3.5 - t) * (3.5 - t) = (3.5 - t) ^ 3 by ring, abs_of_pos (gas_a ht ht1).1]
    exact this.trans (by norm_num)
  have hp9 : p ≤ 2 ^ 9 := hp1.trans (by norm_num)
  have hw : |3.85 - t| ≤ 2.84 := by rw [abs_le]; norm_num at ht ht1 ⊢; constructor <;> linarith
  have hi : 0.32 ≤ 1 / t ∧ 1 / t ≤ 0.98 := by
    constructor
    · rw [le_div_iff₀ ht0]; norm_num at ht1 ⊢; linarith
    · rw [div_le_iff₀ ht0]; norm_num at ht ⊢; linarith
  have hq : |0.56 - 1 / t| ≤ 0.43 := by
    obtain ⟨h1, h2⟩ := hi
    rw [abs_le]; norm_num at h1 h2 ⊢; constructor <;> linarith
  have hh0 : 0.45 ≤ 0.45 + 8 * (0.56 - 1 / t) ^ 2 := by linarith [sq_nonneg (0.56 - 1 / t)]
  have hh : |0.45 + 8 * (0.56 - 1 / t) ^ 2| ≤ 1.93 := by
    rw [abs_of_nonneg (by linarith)]
    have := (sq_le_sq' (abs_le.mp hq).1 (abs_le.mp hq).2)
    norm_num at this ⊢; linarith
  have hs : 1 / t ≤ 1 := hi.2.trans (by norm_num)
  have ht4 : t ^ 4 ≤ 86.6 := (pow_le_pow_left₀ ht0.le ht1 4).trans (by norm_num)
  have hZe : (0.03 + 0.00527 * ((3.5 - t) * (3.5 - t) * (3.5 - t))) * p + 0.642 * t - 0.007 * t ^ 4 - 0.52
      + 0.109 * (3.85 - t) ^ 2 * Real.exp (-((0.45 + 8 * (0.56 - 1 / t) ^ 2) * p ^ (1.2:ℝ) / t)) = Published.gasZ t p := by
    unfold Published.gasZ
    rw [show -(0.45 + 8 * (0.56 - 1 / t) ^ 2) * p ^ (1.2:ℝ) / t = -((0.45 + 8 * (0.56 - 1 / t) ^ 2) * p ^ (1.2:ℝ) / t) by ring]
    ring
  have hZ : |(0.03 + 0.00527 * ((3.5 - t) * (3.5 - t) * (3.5 - t))) * p + 0.642 * t - 0.007 * t ^ 4 - 0.52
      + 0.109 * (3.85 - t) ^ 2 * Real.exp (-((0.45 + 8 * (0.56 - 1 / t) ^ 2) * p ^ (1.2:ℝ) / t))| ≤ 4.25 := by
    rw [hZe]
    obtain ⟨z0, z1, -⟩ := gas_bounds ht ht1 (lt_of_lt_of_le (by norm_num) hp0) hp1
    rw [abs_of_nonneg (le_trans (by norm_num) z0)]
    exact z1
  have n1 := (nt.box (A := 3.05) ht1 (by norm_num)).wider (A' := 3.051e0) (e' := 4.081e-15) (by norm_num) (by norm_num)
  have n2 := (np.box (A := 22.4) hp1 (by norm_num)).wider (A' := 2.241e1) (e' := 5.495e-14) (by norm_num) (by norm_num)
  have n3 := Box.exact (x := 3.5) (A := 3.5) (by norm_num)
  have n4 := ((n3.sub n1).rounded hf).wider (A' := 6.552e0) (e' := 4.815e-15) (by norm_num) (by norm_num)
  have n5 := n4.tight (B := 2.48) hu2
  have n6 := n5.near (m := 0.45) 194 hu (by norm_num) (by norm_num) (by norm_num)
  have n7 := ((n5.mul n5)).wider (A' := 6.151e0) (e' := 2.389e-14) (by norm_num) (by norm_num)
  have n8 := ((n7.mul n5)).wider (A' := 1.526e1) (e' := 8.887e-14) (by norm_num) (by norm_num)
  have n9 := (n8.power3 hp (n6.pos hu0)).wider (A' := 1.527e1) (e' := 9.910e-14) (by norm_num) (by norm_num)
  have n10 := (Box.literal hf (x := 0.03) (A := 0.03) (by norm_num [abs_of_nonneg, abs_of_neg])).wider (A' := 3.001e-2) (e' := 3.361e-18) (by norm_num) (by norm_num)
  have n11 := (Box.literal hf (x := 0.00527) (A := 0.00527) (by norm_num [abs_of_nonneg, abs_of_neg])).wider (A' := 5.271e-3) (e' := 5.903e-19) (by norm_num) (by norm_num)
  have n12 := ((n11.mul n9).rounded hf).wider (A' := 8.049e-2) (e' := 5.404e-16) (by norm_num) (by norm_num)
  have n13 := ((n10.add n12).rounded hf).wider (A' := 1.106e-1) (e' := 5.562e-16) (by norm_num) (by norm_num)
  have n14 := n13.tight (B := 0.111) ha
  have n15 := ((n14.mul n2).rounded hf).wider (A' := 2.488e0) (e' := 1.885e-14) (by norm_num) (by norm_num)
  have n16 := (Box.literal hf (x := 0.642) (A := 0.642) (by norm_num [abs_of_nonneg, abs_of_neg])).wider (A' := 6.421e-1) (e' := 7.191e-17) (by norm_num) (by norm_num)
  have n17 := ((n16.mul n1).rounded hf).wider (A' := 1.960e0) (e' := 3.060e-15) (by norm_num) (by norm_num)
  have n18 := ((n15.add n17).rounded hf).wider (A' := 4.449e0) (e' := 2.241e-14) (by norm_num) (by norm_num)
  have n19 := (power_int hp nt ht0).2.1
  have n20 := (n19.box (A := 86.6) ht4 (by norm_num)).wider (A' := 8.661e1) (e' := 5.215e-13) (by norm_num) (by norm_num)
  have n21 := (Box.literal hf (x := 0.007) (A := 0.007) (by norm_num [abs_of_nonneg, abs_of_neg])).wider (A' := 7.001e-3) (e' := 7.841e-19) (by norm_num) (by norm_num)
  have n22 := ((n21.mul n20).rounded hf).wider (A' := 6.064e-1) (e' := 3.787e-15) (by norm_num) (by norm_num)
  have n23 := ((n18.sub n22).rounded hf).wider (A' := 5.056e0) (e' := 2.677e-14) (by norm_num) (by norm_num)
  have n24 := (Box.literal hf (x := 0.52) (A := 0.52) (by norm_num [abs_of_nonneg, abs_of_neg])).wider (A' := 5.201e-1) (e' := 5.825e-17) (by norm_num) (by norm_num)
  have n25 := ((n23.sub n24).rounded hf).wider (A' := 5.577e0) (e' := 2.746e-14) (by norm_num) (by norm_num)
  have n26 := (Box.literal hf (x := 3.85) (A := 3.85) (by norm_num [abs_of_nonneg, abs_of_neg])).wider (A' := 3.851e0) (e' := 4.313e-16) (by norm_num) (by norm_num)
  have n27 := ((n26.sub n1).rounded hf).wider (A' := 6.903e0) (e' := 5.286e-15) (by norm_num) (by norm_num)
  have n28 := n27.tight (B := 2.84) hw
  have n29 := (Box.literal hf (x := 0.109) (A := 0.109) (by norm_num [abs_of_nonneg, abs_of_neg])).wider (A' := 1.091e-1) (e' := 1.221e-17) (by norm_num) (by norm_num)
  have n30 := (n28.sq.rounded hf).wider (A' := 8.066e0) (e' := 3.093e-14) (by norm_num) (by norm_num)
  have n31 := ((n29.mul n30).rounded hf).wider (A' := 8.801e-1) (e' := 3.572e-15) (by norm_num) (by norm_num)
  have n32 := Near.refl 0 (x := 1) (by norm_num)
  have n33 := (n32.div nt ht0).fl hf
  have n34 := (n33.box (A := 1) hs (by norm_num)).wider (A' := 1.001e0) (e' := 1.562e-15) (by norm_num) (by norm_num)
  have n35 := (Box.literal hf (x := 0.56) (A := 0.56) (by norm_num [abs_of_nonneg, abs_of_neg])).wider (A' := 5.601e-1) (e' := 6.273e-17) (by norm_num) (by norm_num)
  have n36 := ((n35.sub n34).rounded hf).wider (A' := 1.562e0) (e' := 1.800e-15) (by norm_num) (by norm_num)
  have n37 := n36.tight (B := 0.43) hq
  have n38 := (Box.literal hf (x := 0.45) (A := 0.45) (by norm_num [abs_of_nonneg, abs_of_neg])).wider (A' := 4.501e-1) (e' := 5.041e-17) (by norm_num) (by norm_num)
  have n39 := Box.exact (x := 8) (A := 8) (by norm_num)
  have n40 := (n37.sq.rounded hf).wider (A' := 1.850e-1) (e' := 1.569e-15) (by norm_num) (by norm_num)
  have n41 := ((n39.mul n40).rounded hf).wider (A' := 1.481e0) (e' := 1.272e-14) (by norm_num) (by norm_num)
  have n42 := ((n38.add n41).rounded hf).wider (A' := 1.932e0) (e' := 1.299e-14) (by norm_num) (by norm_num)
  have n43 := n42.tight (B := 1.93) hh
  have n44 := n43.near (m := 0.45) 522 hh0 (by norm_num) (by norm_num) (by norm_num)
  have n45 := power_near hf hp np (e := 1.2) hp0 hp9 (by norm_num) (by norm_num)
  have n46 := (n44.mul n45).fl hf
  have n47 := (n46.div nt ht0).fl hf
  have n48 := (exp_inv_box he n47 (by norm_num)).wider (A' := 1.001e0) (e' := 1.269e-13) (by norm_num) (by norm_num)
  have n49 := ((n31.mul n48).as_div.rounded hf).wider (A' := 8.810e-1) (e' := 1.154e-13) (by norm_num) (by norm_num)
  have n50 := ((n25.add n49).rounded hf).wider (A' := 6.459e0) (e' := 1.436e-13) (by norm_num) (by norm_num)
  have n51 := n50.tight (B := 4.25) hZ
  exact n51.congr hZe

/-- The hand-written derivative. -/
theorem gasRate_box (hf : RoundsToNearest fl) (hp : PowerAccurate pw) (he : ExpAccurate ex) {t t' p p' : ℝ} (ht : 1.028 ≤ t)
    (ht1 : t ≤ 3.05) (hp0 : 1 / 2 ^ 6 ≤ p) (hp1 : p ≤ 22.4) (nt : Near 6 t t') (np : Near 11 p p') :
    Box 3.931 6.753e-13 (deriv (Published.gasZ t) p) (gasRate fl pw ex t' p') := by
  have ht0 : 0 < t := lt_of_lt_of_le (by norm_num) ht
  have htt : 1 ≤ t := le_trans (by norm_num) ht
  have hu2 : |3.5 - t| ≤ 2.48 := by rw [abs_le]; norm_num at ht ht1 ⊢; constructor <;> linarith
  have hu : 0.45 ≤ 3.5 - t := by norm_num at ht1 ⊢; linarith
  have hu0 : 0 < 3.5 - t := lt_of_lt_of_le (by norm_num) hu
  have ha : |0.03 + 0.00527 * ((3.5 - t) * (3.5 - t) * (3.5 - t))| ≤ 0.111 := by
    have := (gas_a ht ht1).2
    rw [show (3.5 - t) * (3.5 - t) * (3.5 - t) = (3.5 - t) ^ 3 by ring, abs_of_pos (gas_a ht ht1).1]
    exact this.trans (by norm_num)
  have hp9 : p ≤ 2 ^ 9 := hp1.trans (by norm_num)
  have hw : |3.85 - t| ≤ 2.84 := by rw [abs_le]; norm_num at ht ht1 ⊢; constructor <;> linarith
  have hi : 0.32 ≤ 1 / t ∧ 1 / t ≤ 0.98 := by
    constructor
    · rw [le_div_iff₀ ht0]; norm_num at ht1 ⊢; linarith
    · rw [div_le_iff₀ ht0]; norm_num at ht ⊢; linarith
  have hq : |0.56 - 1 / t| ≤ 0.43 := by
    obtain ⟨h1, h2⟩ := hi
    rw [abs_le]; norm_num at h1 h2 ⊢; constructor <;> linarith
  have hh0 : 0.45 ≤ 0.45 + 8 * (0.56 - 1 / t) ^ 2 := by linarith [sq_nonneg (0.56 - 1 / t)]
  have hh : |0.45 + 8 * (0.56 - 1 / t) ^ 2| ≤ 1.93 := by
    rw [abs_of_nonneg (by linarith)]
    have := (sq_le_sq' (abs_le.mp hq).1 (abs_le.mp hq).2)
    norm_num at this ⊢; linarith
  have hs : t⁻¹ ≤ 1 := by rw [← one_div]; exact hi.2.trans (by norm_num)
  rw [one_div] at hq hh0 hh
  have hpp : 0 < p := lt_of_lt_of_le (by norm_num) hp0
  have hp2 : p ^ (0.2:ℝ) ≤ 1.87 := by
    refine (Real.rpow_le_rpow hpp.le hp1 (by norm_num)).trans ?_
    have h5 : ((22.4:ℝ) ^ (0.2:ℝ)) ^ 5 = 22.4 := by
      rw [← Real.rpow_natCast, ← Real.rpow_mul (by norm_num)]
      norm_num
    by_contra hc
    push Not at hc
    have := pow_lt_pow_left₀ hc (by norm_num) (n := 5) (by norm_num)
    rw [h5] at this
    norm_num at this
  have n1 := (nt.box (A := 3.05) ht1 (by norm_num)).wider (A' := 3.051e0) (e' := 4.081e-15) (by norm_num) (by norm_num)
  have n2 := (np.box (A := 22.4) hp1 (by norm_num)).wider (A' := 2.241e1) (e' := 5.495e-14) (by norm_num) (by norm_num)
  have n3 := Box.exact (x := 3.5) (A := 3.5) (by norm_num)
  have n4 := ((n3.sub n1).rounded hf).wider (A' := 6.552e0) (e' := 4.815e-15) (by norm_num) (by norm_num)
  have n5 := n4.tight (B := 2.48) hu2
  have n6 := n5.near (m := 0.45) 194 hu (by norm_num) (by norm_num) (by norm_num)
  have n7 := ((n5.mul n5)).wider (A' := 6.151e0) (e' := 2.389e-14) (by norm_num) (by norm_num)
  have n8 := ((n7.mul n5)).wider (A' := 1.526e1) (e' := 8.887e-14) (by norm_num) (by norm_num)
  have n9 := (n8.power3 hp (n6.pos hu0)).wider (A' := 1.527e1) (e' := 9.910e-14) (by norm_num) (by norm_num)
  have n10 := (Box.literal hf (x := 0.03) (A := 0.03) (by norm_num [abs_of_nonneg, abs_of_neg])).wider (A' := 3.001e-2) (e' := 3.361e-18) (by norm_num) (by norm_num)
  have n11 := (Box.literal hf (x := 0.00527) (A := 0.00527) (by norm_num [abs_of_nonneg, abs_of_neg])).wider (A' := 5.271e-3) (e' := 5.903e-19) (by norm_num) (by norm_num)
  have n12 := ((n11.mul n9).rounded hf).wider (A' := 8.049e-2) (e' := 5.404e-16) (by norm_num) (by norm_num)
  have n13 := ((n10.add n12).rounded hf).wider (A' := 1.106e-1) (e' := 5.562e-16) (by norm_num) (by norm_num)
  have n14 := n13.tight (B := 0.111) ha
  have n15 := (Box.literal hf (x := 3.85) (A := 3.85) (by norm_num [abs_of_nonneg, abs_of_neg])).wider (A' := 3.851e0) (e' := 4.313e-16) (by norm_num) (by norm_num)
  have n16 := ((n15.sub n1).rounded hf).wider (A' := 6.903e0) (e' := 5.286e-15) (by norm_num) (by norm_num)
  have n17 := n16.tight (B := 2.84) hw
  have n18 := (power_int hp nt ht0).2.2
  have n19 := (n18.box (A := 1) hs (by norm_num)).wider (A' := 1.001e0) (e' := 2.008e-15) (by norm_num) (by norm_num)
  have n20 := (Box.literal hf (x := 0.56) (A := 0.56) (by norm_num [abs_of_nonneg, abs_of_neg])).wider (A' := 5.601e-1) (e' := 6.273e-17) (by norm_num) (by norm_num)
  have n21 := ((n20.sub n19).rounded hf).wider (A' := 1.562e0) (e' := 2.246e-15) (by norm_num) (by norm_num)
  have n22 := n21.tight (B := 0.43) hq
  have n23 := (Box.literal hf (x := 0.45) (A := 0.45) (by norm_num [abs_of_nonneg, abs_of_neg])).wider (A' := 4.501e-1) (e' := 5.041e-17) (by norm_num) (by norm_num)
  have n24 := Box.exact (x := 8) (A := 8) (by norm_num)
  have n25 := (n22.sq.rounded hf).wider (A' := 1.850e-1) (e' := 1.953e-15) (by norm_num) (by norm_num)
  have n26 := ((n24.mul n25).rounded hf).wider (A' := 1.481e0) (e' := 1.579e-14) (by norm_num) (by norm_num)
  have n27 := ((n23.add n26).rounded hf).wider (A' := 1.932e0) (e' := 1.606e-14) (by norm_num) (by norm_num)
  have n28 := n27.tight (B := 1.93) hh
  have n29 := n28.near (m := 0.45) 645 hh0 (by norm_num) (by norm_num) (by norm_num)
  have n30 := (Box.literal hf (x := 0.1308) (A := 0.1308) (by norm_num [abs_of_nonneg, abs_of_neg])).wider (A' := 1.309e-1) (e' := 1.465e-17) (by norm_num) (by norm_num)
  have n31 := ((n30.mul n28).rounded hf).wider (A' := 2.527e-1) (e' := 2.159e-15) (by norm_num) (by norm_num)
  have n32 := (n17.sq.rounded hf).wider (A' := 8.066e0) (e' := 3.093e-14) (by norm_num) (by norm_num)
  have n33 := ((n31.mul n32).rounded hf).wider (A' := 2.039e0) (e' := 2.546e-14) (by norm_num) (by norm_num)
  have n34 := power_near hf hp np (e := 0.2) hp0 hp9 (by norm_num) (by norm_num)
  have n35 := (n34.box (A := 1.87) hp2 (by norm_num)).wider (A' := 1.871e0) (e' := 1.460e-14) (by norm_num) (by norm_num)
  have n36 := ((n33.mul n35).rounded hf).wider (A' := 3.815e0) (e' := 7.784e-14) (by norm_num) (by norm_num)
  have n37 := power_near hf hp np (e := 1.2) hp0 hp9 (by norm_num) (by norm_num)
  have n38 := (n29.mul n37).fl hf
  have n39 := (n38.div nt ht0).fl hf
  have n40 := (exp_inv_box' hf he n39 nt htt (by norm_num) (by norm_num)).wider (A' := 1.001e0) (e' := 1.562e-13) (by norm_num) (by norm_num)
  have n41 := ((n36.mul n40).as_div.rounded hf).wider (A' := 3.819e0) (e' := 6.743e-13) (by norm_num) (by norm_num)
  have n42 := ((n14.sub n41).rounded hf).wider (A' := 3.931e0) (e' := 6.753e-13) (by norm_num) (by norm_num)
  refine n42.congr ?_
  rw [gasZ_deriv hpp, one_div]
  rw [show -((0.45 + 8 * (0.56 - t⁻¹) ^ 2) / t * p ^ (1.2:ℝ)) = -((0.45 + 8 * (0.56 - t⁻¹) ^ 2) * p ^ (1.2:ℝ) / t) by ring]
  ring

end OPE.Double
