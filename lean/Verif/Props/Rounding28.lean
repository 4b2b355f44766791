import Verif.Props.Rounding27

/-!
# C188: gas in double arithmetic
-/

namespace OPE.Double

open Classical

variable {fl : ℝ → ℝ} {pw : ℝ → ℝ → ℝ} {ex : ℝ → ℝ}

/-- Pseudo-reduced temperature and pressure: their ranges and errors. -/
theorem gas_reduced (hf : RoundsToNearest fl) {T P P' G : ℝ} (hT : 0 ≤ T ∧ T ≤ 300) (hP : 0.1 ≤ P ∧ P ≤ 100)
    (hG : 0.55 ≤ G ∧ G ≤ 1) (nP : Near 2 P P') :
    (1.028 ≤ Published.gasTpr (T + 273.15) G ∧ Published.gasTpr (T + 273.15) G ≤ 3.05) ∧
    (1 / 2 ^ 6 ≤ Published.gasPpr P G ∧ Published.gasPpr P G ≤ 22.4) ∧
    Near 6 (Published.gasTpr (T + 273.15) G) (gasTpr fl (fl (T + fl 273.15)) G) ∧
    Near 11 (Published.gasPpr P G) (gasPpr fl P' G) := by
  obtain ⟨T0, T1⟩ := hT
  obtain ⟨P0, P1⟩ := hP
  obtain ⟨G0, G1⟩ := hG
  have g0 : 0 ≤ G := le_trans (by norm_num) G0
  have d1 : 0 < 94.72 + 170.75 * G := by positivity
  have d2 : 4.48 ≤ 4.892 - 0.4048 * G := by norm_num; linarith
  have d3 : 0 < 4.892 - 0.4048 * G := lt_of_lt_of_le (by norm_num) d2
  refine ⟨⟨?_, ?_⟩, ⟨?_, ?_⟩, ?_, ?_⟩
  · unfold Published.gasTpr; rw [le_div_iff₀ d1]; norm_num; linarith
  · unfold Published.gasTpr; rw [div_le_iff₀ d1]; norm_num at G0 ⊢; linarith
  · unfold Published.gasPpr; rw [le_div_iff₀ d3]; norm_num at P0 ⊢; linarith
  · unfold Published.gasPpr; rw [div_le_iff₀ d3]; norm_num; linarith
  · unfold Published.gasTpr gasTpr
    have n1 := ((Near.refl 0 T0).add (Near.fl0 hf (by norm_num : (0:ℝ) ≤ 273.15))).fl hf
    have n2 := ((Near.fl0 hf (by norm_num : (0:ℝ) ≤ 170.75)).mul (Near.refl 0 g0)).fl hf
    have n3 := ((Near.fl0 hf (by norm_num : (0:ℝ) ≤ 94.72)).add n2).fl hf
    exact ((n1.div n3 d1).fl hf).mono (by norm_num)
  · unfold Published.gasPpr gasPpr
    have b1 := ((Box.literal hf (x := 0.4048) (A := 0.4048) (by norm_num [abs_of_nonneg])).mul
      (Box.exact (x := G) (A := 1) (by rw [abs_of_nonneg g0]; exact G1))).rounded hf
    have b2 := (((Box.literal hf (x := 4.892) (A := 4.892) (by norm_num [abs_of_nonneg])).sub b1).rounded hf)
    have n3 := b2.near (m := 4.48) 8 d2 (by norm_num) (by norm_num) (by norm_num)
    exact ((nP.div n3 d3).fl hf).mono (by norm_num)

/-- The factor between pressure and adiabatic bulk modulus. -/
theorem gasFactor_near (hf : RoundsToNearest fl) (hp : PowerAccurate pw) (he : ExpAccurate ex) {t t' p p' : ℝ}
    (ht : 1.028 ≤ t) (ht1 : t ≤ 3.05) (hp0 : 1 / 2 ^ 6 ≤ p) (hp1 : p ≤ 22.4) (nt : Near 6 t t') (np : Near 11 p p') :
    Near 122462464 (1 - deriv (Published.gasZ t) p * p * (Published.gasZ t p)⁻¹)
      (fl (1 - fl (fl (gasRate fl pw ex t' p' * p') / gasZ fl pw ex t' p'))) ∧
    Near 2229 (Published.gasGamma p) (fl (fl (fl (fl 0.85 + fl (fl 5.6 / fl (p' + 2))) + fl (fl 27.1 / fl (fl (p' + 3.5) ^ 2)))
      - fl (fl 8.7 * ex (fl (fl (-0.65) * fl (p' + 1)))))) ∧
    Near 19904 (Published.gasZ t p) (gasZ fl pw ex t' p') := by
  have hpp : 0 < p := lt_of_lt_of_le (by norm_num) hp0
  obtain ⟨hZ0, hZ1, hdp, hD⟩ := gas_bounds ht ht1 hpp hp1
  have hZp : 0 < Published.gasZ t p := lt_of_lt_of_le (by norm_num) hZ0
  have hzi : (Published.gasZ t p)⁻¹ ≤ 7.7 := by
    rw [inv_le_comm₀ hZp (by norm_num)]
    exact le_trans (by norm_num) hZ0
  have bd := gasRate_box hf hp he ht ht1 hp0 hp1 nt np
  have bz := gasZ_box hf hp he ht ht1 hp0 hp1 nt np
  have hg1 : 0 < p + 2 := by linarith
  have hg2 : 5.6 / (p + 2) ≤ 2.8 := by rw [div_le_iff₀ hg1]; norm_num; linarith
  have hg3 : 0 < (p + 3.5) ^ 2 := by positivity
  have hg4 : 27.1 / (p + 3.5) ^ 2 ≤ 2.22 := by
    rw [div_le_iff₀ hg3]
    have : (3.5:ℝ) ^ 2 ≤ (p + 3.5) ^ 2 := pow_le_pow_left₀ (by norm_num) (by linarith) 2
    norm_num at this ⊢; linarith
  have hge : 0.85 + 5.6 / (p + 2) + 27.1 / (p + 3.5) ^ 2 - 8.7 * Real.exp (-(0.65 * (p + 1))) = Published.gasGamma p := by
    unfold Published.gasGamma; rw [neg_mul]
  have hγ : 0.5 ≤ 0.85 + 5.6 / (p + 2) + 27.1 / (p + 3.5) ^ 2 - 8.7 * Real.exp (-(0.65 * (p + 1))) := by
    rw [hge]; exact gamma_ge hpp.le
  have n1 := (np.box (A := 22.4) hp1 (by norm_num)).wider (A' := 2.241e1) (e' := 5.495e-14) (by norm_num) (by norm_num)
  have n2 := bd
  have n3 := bz
  have n4 := ((n2.mul n1).rounded hf).wider (A' := 8.810e1) (e' := 1.536e-11) (by norm_num) (by norm_num)
  have n5 := n4.tight (B := 2.5) hdp
  have n6 := n3.near (m := 0.13) 19904 hZ0 (by norm_num) (by norm_num) (by norm_num)
  have n7 := n6.inv hZp
  have n8 := (n7.box (A := 7.7) hzi (by norm_num)).wider (A' := 7.701e0) (e' := 3.418e-11) (by norm_num) (by norm_num)
  have n9 := ((n5.mul n8).as_div.rounded hf).wider (A' := 1.926e1) (e' := 2.038e-10) (by norm_num) (by norm_num)
  have n10 := Box.exact (x := 1) (A := 1) (by norm_num)
  have n11 := ((n10.sub n9).rounded hf).wider (A' := 2.027e1) (e' := 2.039e-10) (by norm_num) (by norm_num)
  have n12 := n11.near (m := 0.03) 122462464 hD (by norm_num) (by norm_num) (by norm_num)
  have n13 := Near.fl0 hf (by norm_num : (0:ℝ) ≤ 5.6)
  have n14 := Near.refl 0 (x := 2) (by norm_num)
  have n15 := (np.add n14).fl hf
  have n16 := (n13.div n15 hg1).fl hf
  have n17 := (n16.box (A := 2.8) hg2 (by norm_num)).wider (A' := 2.801e0) (e' := 8.742e-15) (by norm_num) (by norm_num)
  have n18 := Near.refl 0 (x := 3.5) (by norm_num)
  have n19 := (np.add n18).fl hf
  have n20 := n19.sq.fl hf
  have n21 := Near.fl0 hf (by norm_num : (0:ℝ) ≤ 27.1)
  have n22 := (n21.div n20 hg3).fl hf
  have n23 := (n22.box (A := 2.22) hg4 (by norm_num)).wider (A' := 2.221e0) (e' := 1.337e-14) (by norm_num) (by norm_num)
  have n24 := (Box.literal hf (x := 0.85) (A := 0.85) (by norm_num [abs_of_nonneg, abs_of_neg])).wider (A' := 8.501e-1) (e' := 9.521e-17) (by norm_num) (by norm_num)
  have n25 := ((n24.add n17).rounded hf).wider (A' := 3.652e0) (e' := 9.247e-15) (by norm_num) (by norm_num)
  have n26 := ((n25.add n23).rounded hf).wider (A' := 5.874e0) (e' := 2.328e-14) (by norm_num) (by norm_num)
  have n27 := Near.refl 0 (x := 1) (by norm_num)
  have n28 := (np.add n27).fl hf
  have n29 := neg_near hf n28
  have n30 := (exp_neg_box he n29 (by norm_num)).wider (A' := 1.001e0) (e' := 4.015e-15) (by norm_num) (by norm_num)
  have n31 := (Box.literal hf (x := 8.7) (A := 8.7) (by norm_num [abs_of_nonneg, abs_of_neg])).wider (A' := 8.701e0) (e' := 9.745e-16) (by norm_num) (by norm_num)
  have n32 := ((n31.mul n30).rounded hf).wider (A' := 8.710e0) (e' := 3.689e-14) (by norm_num) (by norm_num)
  have n33 := ((n26.sub n32).rounded hf).wider (A' := 1.459e1) (e' := 6.181e-14) (by norm_num) (by norm_num)
  have n34 := n33.near (m := 0.5) 2229 hγ (by norm_num) (by norm_num) (by norm_num)
  rw [hge] at n34
  exact ⟨n12, n34, n6⟩

/-- **C188.** Density and bulk modulus of gas from temperature, pressure and gravity, in double arithmetic. -/
theorem C188_gas (hf : RoundsToNearest fl) (hp : PowerAccurate pw) (he : ExpAccurate ex) {T P G : ℝ} (hT : 0 ≤ T ∧ T ≤ 300)
    (hP : 0.1e6 ≤ P ∧ P ≤ 100e6) (hG : 0.55 ≤ G ∧ G ≤ 1) :
    |(gas fl pw ex T P G).2 - (Published.gas T P G).ρ| ≤ 1e-11 * (Published.gas T P G).ρ ∧
    |(gas fl pw ex T P G).1 - (Published.gas T P G).K| ≤ 5e-8 * (Published.gas T P G).K := by
  have P0 : 0 < P := lt_of_lt_of_le (by norm_num) hP.1
  have g0 : 0 < G := lt_of_lt_of_le (by norm_num) hG.1
  have hP' : 0.1 ≤ P * 1e-6 ∧ P * 1e-6 ≤ 100 := by
    obtain ⟨h1, h2⟩ := hP
    constructor <;> norm_num at h1 h2 ⊢ <;> linarith
  have p0 : 0 < P * 1e-6 := by positivity
  have l6 := Near.fl0 hf (by norm_num : (0:ℝ) ≤ 1e-6)
  have nP : Near 2 (P * 1e-6) (fl (P * fl 1e-6)) := ((Near.refl 0 P0.le).mul l6).fl hf
  have nT := ((Near.refl 0 hT.1).add (Near.fl0 hf (by norm_num : (0:ℝ) ≤ 273.15))).fl hf
  have T0 : 0 < T + 273.15 := by linarith [hT.1]
  obtain ⟨⟨t1, t2⟩, ⟨q1, q2⟩, nt, np⟩ := gas_reduced hf hT hP' hG nP
  obtain ⟨nd, ng, nz⟩ := gasFactor_near hf hp he t1 t2 q1 q2 nt np
  have hpp : 0 < Published.gasPpr (P * 1e-6) G := lt_of_lt_of_le (by norm_num) q1
  obtain ⟨z0, -, -, hD⟩ := gas_bounds t1 t2 hpp q2
  have zp : 0 < Published.gasZ (Published.gasTpr (T + 273.15) G) (Published.gasPpr (P * 1e-6) G) :=
    lt_of_lt_of_le (by norm_num) z0
  constructor
  · have n1 := ((Near.refl 0 g0.le).mul (Near.fl0 hf (by norm_num : (0:ℝ) ≤ 28.8))).fl hf
    have n2 := ((((nP.mul l6).fl hf).mul (Near.refl 0 (by norm_num : (0:ℝ) ≤ 1e6))).fl hf)
    have m2 : 0 < P * 1e-6 * 1e-6 * 1e6 := by positivity
    have n3 := ((((Near.fl0 hf (by norm_num : (0:ℝ) ≤ 8.314462618)).mul nT).fl hf).div n2 m2).fl hf
    have m3 : 0 < 8.314462618 * (T + 273.15) / (P * 1e-6 * 1e-6 * 1e6) := by positivity
    have n4 := ((((n1.div n3 m3).fl hf).mul (Near.refl 0 (by norm_num : (0:ℝ) ≤ 1000))).fl hf)
    have n5 := (n4.div nz zp).fl hf
    have e : G * 28.8 / (8.314462618 * (T + 273.15) / (P * 1e-6 * 1e-6 * 1e6)) * 1000
        / Published.gasZ (Published.gasTpr (T + 273.15) G) (Published.gasPpr (P * 1e-6) G) = (Published.gas T P G).ρ := by
      show _ = 1e6 * (P * 1e-6) * (28.8e-3 * G) / (8.314462618 * (T + 273.15)
        * Published.gasZ (Published.gasTpr (T + 273.15) G) (Published.gasPpr (P * 1e-6) G))
      field_simp
      norm_num
    rw [e] at n5
    have h := n5.accurate (by norm_num)
    unfold Accurate at h
    rw [abs_of_nonneg n5.1] at h
    exact h.trans (mul_le_mul_of_nonneg_right (by norm_num) n5.1)
  · have n1 := (((ng.mul nP).fl hf).div nd (lt_of_lt_of_le (by norm_num) hD)).fl hf
    have n2 := (n1.mul (Near.refl 0 (by norm_num : (0:ℝ) ≤ 1e6))).fl hf
    have e : Published.gasGamma (Published.gasPpr (P * 1e-6) G) * (P * 1e-6) /
        (1 - deriv (Published.gasZ (Published.gasTpr (T + 273.15) G)) (Published.gasPpr (P * 1e-6) G)
          * Published.gasPpr (P * 1e-6) G
          * (Published.gasZ (Published.gasTpr (T + 273.15) G) (Published.gasPpr (P * 1e-6) G))⁻¹) * 1e6
        = (Published.gas T P G).K := by
      show _ = 1e6 * (P * 1e-6 / (1 - Published.gasPpr (P * 1e-6) G
        / Published.gasZ (Published.gasTpr (T + 273.15) G) (Published.gasPpr (P * 1e-6) G)
        * deriv (Published.gasZ (Published.gasTpr (T + 273.15) G)) (Published.gasPpr (P * 1e-6) G))
        * Published.gasGamma (Published.gasPpr (P * 1e-6) G))
      rw [show ∀ x y z : ℝ, x / y * z = z * x * y⁻¹ from fun x y z => by rw [div_eq_mul_inv]; ring]
      ring
    rw [e] at n2
    have h := n2.accurate (by norm_num)
    unfold Accurate at h
    rw [abs_of_nonneg n2.1] at h
    exact h.trans (mul_le_mul_of_nonneg_right (by norm_num) n2.1)

/-- Methane-rich gas at 75 °C and 20 MPa; the exact exponential is accurate. -/
example (hf : RoundsToNearest fl) := C188_gas hf (pw := fun x y => x ^ y) (ex := Real.exp) exists_double.2
  (fun x => by unfold Accurate; rw [sub_self, abs_zero]; positivity) (T := 75) (P := 20e6) (G := 0.6)
  (by norm_num) (by norm_num) (by norm_num)

end OPE.Double
