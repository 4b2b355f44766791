import Verif.Props.Rounding26

/-!
# C190: oil with dissolved gas in double arithmetic
-/

namespace OPE

variable {fl : ℝ → ℝ} {pw : ℝ → ℝ → ℝ}

/-- As `power_near`, for larger values. -/
theorem power_near_wide (hf : RoundsToNearest fl) (hp : PowerAccurate pw) {k : ℕ} {x x' e : ℝ} (h : Near k x x')
    (h0 : 1 ≤ x) (h1 : x ≤ 2 ^ 11) (he : 0 ≤ e) (he1 : e ≤ 1.5) : Near (2 * k + 15) (x ^ e) (pw x' (fl e)) := by
  have hx : 0 < x := lt_of_lt_of_le (by norm_num) h0
  have hx' := h.pos hx
  have hl2 := Real.log_two_lt_d9
  have l1 : Real.log x ≤ 7.7 := by
    refine (Real.log_le_log hx h1).trans ?_
    rw [Real.log_pow]; norm_num at hl2 ⊢; linarith
  have l2 : -7.7 ≤ Real.log x := le_trans (by norm_num) (Real.log_nonneg h0)
  have E := hf.error e
  rw [abs_of_nonneg he] at E
  have hu := unit_pos
  have d : |Real.log x * (fl e - e)| ≤ (12:ℕ) * unit := by
    rw [abs_mul]
    have a1 : |Real.log x| ≤ 7.7 := abs_le.mpr ⟨l2, l1⟩
    have a2 : |fl e - e| ≤ 1.5 * unit := E.trans (by nlinarith)
    refine (mul_le_mul a1 a2 (abs_nonneg _) (by norm_num)).trans ?_
    norm_num; linarith
  have g := (Near.refl 0 (Real.rpow_pos_of_pos hx e).le).mul (Near.exp_growth 12 d)
  rw [mul_one, Real.rpow_def_of_pos hx, ← Real.exp_add, ← mul_add, add_sub_cancel, ← Real.rpow_def_of_pos hx,
    ← Real.rpow_def_of_pos hx] at g
  have hb := abs_le.mp E
  have c0 : 0 ≤ fl e := (Near.fl0 hf he).nonneg
  have c2 : fl e ≤ 2 := by
    have := unit_le
    have : unit * e ≤ 0.1 := by nlinarith
    norm_num at he1 this
    linarith
  exact ((g.trans (h.rpow_two hx c0 c2)).trans (pw_near hp hx' (fl e))).mono (by omega)

namespace Double

/-- Bounds of the volume factor. -/
theorem volumeFactor_bounds {T r R G : ℝ} (hT : 0 ≤ T ∧ T ≤ 150) (hr : 0.7 ≤ r ∧ r ≤ 1) (hR : 0 ≤ R ∧ R ≤ 300)
    (hG : 0.55 ≤ G ∧ G ≤ 1) :
    (17.8 ≤ 2.4 * R * √(G / r) + T + 17.8 ∧ 2.4 * R * √(G / r) + T + 17.8 ≤ 1028.5) ∧
    0.9831 ≤ Published.volumeFactor T r R G ∧ Published.volumeFactor T r R G ≤ 2.288 := by
  have r0 : 0 < r := lt_of_lt_of_le (by norm_num) hr.1
  have s0 := Real.sqrt_nonneg (G / r)
  have s1 : √(G / r) ≤ 1.1953 := by
    rw [Real.sqrt_le_left (by norm_num), div_le_iff₀ r0]
    have := hr.1; have := hG.2
    norm_num at *; linarith
  have m : R * √(G / r) ≤ 300 * 1.1953 := mul_le_mul hR.2 s1 s0 (by norm_num)
  have m0 : 0 ≤ R * √(G / r) := mul_nonneg hR.1 s0
  have b0 : 17.8 ≤ 2.4 * R * √(G / r) + T + 17.8 := by have := hT.1; norm_num at *; linarith
  have b1 : 2.4 * R * √(G / r) + T + 17.8 ≤ 1028.5 := by have := hT.2; norm_num at *; linarith
  refine ⟨⟨b0, b1⟩, ?_⟩
  have e : (1.175:ℝ) = (47:ℕ) * (40:ℝ)⁻¹ := by norm_num
  have p0 : (29.4:ℝ) ≤ (17.8:ℝ) ^ (1.175:ℝ) := by
    rw [e, Real.rpow_mul (by norm_num), Real.rpow_natCast,
      show (40:ℝ)⁻¹ = ((40:ℕ):ℝ)⁻¹ by norm_num]
    refine (Real.le_rpow_inv_iff_of_pos (by norm_num) (by positivity) (by norm_num)).mpr ?_
    rw [Real.rpow_natCast]; norm_num
  have p1 : (1028.5:ℝ) ^ (1.175:ℝ) ≤ 3463 := by
    rw [e, Real.rpow_mul (by norm_num), Real.rpow_natCast,
      show (40:ℝ)⁻¹ = ((40:ℕ):ℝ)⁻¹ by norm_num]
    refine (Real.rpow_inv_le_iff_of_pos (by positivity) (by norm_num) (by norm_num)).mpr ?_
    rw [Real.rpow_natCast]; norm_num
  have q0 := p0.trans (Real.rpow_le_rpow (by norm_num) b0 (by norm_num : (0:ℝ) ≤ 1.175))
  have q1 := (Real.rpow_le_rpow (le_trans (by norm_num) b0) b1 (by norm_num : (0:ℝ) ≤ 1.175)).trans p1
  unfold Published.volumeFactor
  rw [← Real.sqrt_eq_rpow]
  constructor
  · have := mul_le_mul_of_nonneg_left q0 (by norm_num : (0:ℝ) ≤ 0.00038)
    refine le_trans ?_ (add_le_add_right this _)
    norm_num
  · have := mul_le_mul_of_nonneg_left q1 (by norm_num : (0:ℝ) ≤ 0.00038)
    refine le_trans (add_le_add_right this _) ?_
    norm_num

theorem volumeFactor_near (hf : RoundsToNearest fl) (hp : PowerAccurate pw) {T r r' R G : ℝ} (hT : 0 ≤ T ∧ T ≤ 150)
    (hr : 0.7 ≤ r ∧ r ≤ 1) (hR : 0 ≤ R ∧ R ≤ 300) (hG : 0.55 ≤ G ∧ G ≤ 1) (nr : Near 1 r r') :
    Near 34 (Published.volumeFactor T r R G) (volumeFactor fl pw T r' R G) := by
  obtain ⟨⟨b0, b1⟩, -⟩ := volumeFactor_bounds hT hr hR hG
  have r0 : 0 < r := lt_of_lt_of_le (by norm_num) hr.1
  have g0 : 0 < G := lt_of_lt_of_le (by norm_num) hG.1
  have n1 := ((Near.fl0 hf (by norm_num : (0:ℝ) ≤ 2.4)).mul (Near.refl 0 hR.1)).fl hf
  have n2 := ((((Near.refl 0 g0.le).div nr r0).fl hf).sqrt (div_pos g0 r0)).fl hf
  have n3 := (((((n1.mul n2).fl hf).add (Near.refl 0 hT.1)).fl hf).add (Near.fl0 hf (by norm_num : (0:ℝ) ≤ 17.8))).fl hf
  have n4 := power_near_wide hf hp n3 (e := 1.175) (le_trans (by norm_num) b0) (b1.trans (by norm_num)) (by norm_num) (by norm_num)
  have n5 := ((Near.fl0 hf (by norm_num : (0:ℝ) ≤ 0.972)).add
    (((Near.fl0 hf (by norm_num : (0:ℝ) ≤ 0.00038)).mul n4).fl hf)).fl hf
  unfold Published.volumeFactor volumeFactor
  rw [← Real.sqrt_eq_rpow]
  exact n5.mono (by norm_num)

theorem pseudoDensity_bounds {T r R G : ℝ} (hT : 0 ≤ T ∧ T ≤ 150) (hr : 0.7 ≤ r ∧ r ≤ 1) (hR : 0 ≤ R ∧ R ≤ 300)
    (hG : 0.55 ≤ G ∧ G ≤ 1) :
    0.235 ≤ Published.pseudoDensity T r R G ∧ Published.pseudoDensity T r R G ≤ 1.0175 := by
  obtain ⟨-, v0, v1⟩ := volumeFactor_bounds hT hr hR hG
  have r0 : 0 < r := lt_of_lt_of_le (by norm_num) hr.1
  have vp : 0 < Published.volumeFactor T r R G := lt_of_lt_of_le (by norm_num) v0
  have c0 : 1 ≤ 1 + 0.001 * R := by have := hR.1; norm_num; linarith
  have c1 : 1 + 0.001 * R ≤ 1.3 := by have := hR.2; norm_num; linarith
  have cp : 0 < 1 + 0.001 * R := lt_of_lt_of_le one_pos c0
  have e : Published.pseudoDensity T r R G = r / (Published.volumeFactor T r R G * (1 + 0.001 * R)) := by
    unfold Published.pseudoDensity; rw [← div_eq_mul_inv, div_div]
  rw [e]
  constructor
  · rw [le_div_iff₀ (by positivity)]
    have := mul_le_mul v1 c1 cp.le (by norm_num)
    have := hr.1
    norm_num at *; linarith
  · rw [div_le_iff₀ (by positivity)]
    have := mul_le_mul v0 c0 (by norm_num) vp.le
    have := hr.2
    norm_num at *; linarith

theorem pseudoDensity_near (hf : RoundsToNearest fl) (hp : PowerAccurate pw) {T r r' R G : ℝ} (hT : 0 ≤ T ∧ T ≤ 150)
    (hr : 0.7 ≤ r ∧ r ≤ 1) (hR : 0 ≤ R ∧ R ≤ 300) (hG : 0.55 ≤ G ∧ G ≤ 1) (nr : Near 1 r r') :
    Near 40 (Published.pseudoDensity T r R G) (pseudoDensity fl pw T r' R G) := by
  obtain ⟨-, v0, -⟩ := volumeFactor_bounds hT hr hR hG
  have vp : 0 < Published.volumeFactor T r R G := lt_of_lt_of_le (by norm_num) v0
  have c0 : 0 < 1 + 0.001 * R := by have := hR.1; norm_num; linarith
  have n1 := (nr.div (volumeFactor_near hf hp hT hr hR hG nr) vp).fl hf
  have n2 := ((Near.refl 0 zero_le_one).add (((Near.fl0 hf (by norm_num : (0:ℝ) ≤ 0.001)).mul (Near.refl 0 hR.1)).fl hf)).fl hf
  have n3 := (n1.div n2 c0).fl hf
  unfold Published.pseudoDensity pseudoDensity
  rw [← div_eq_mul_inv]
  exact n3.mono (by norm_num)

theorem liveOilDensity_near (hf : RoundsToNearest fl) (hp : PowerAccurate pw) {T r r' R G : ℝ} (hT : 0 ≤ T ∧ T ≤ 150)
    (hr : 0.7 ≤ r ∧ r ≤ 1) (hR : 0 ≤ R ∧ R ≤ 300) (hG : 0.55 ≤ G ∧ G ≤ 1) (nr : Near 1 r r') :
    Near 39 (Published.liveOilDensity T r R G) (liveOilDensity fl pw T r' R G) ∧
    0.3 ≤ Published.liveOilDensity T r R G ∧ Published.liveOilDensity T r R G ≤ 1.4 := by
  obtain ⟨-, v0, v1⟩ := volumeFactor_bounds hT hr hR hG
  have vp : 0 < Published.volumeFactor T r R G := lt_of_lt_of_le (by norm_num) v0
  have g0 : 0 ≤ G := le_trans (by norm_num) hG.1
  have n1 := (((((Near.fl0 hf (by norm_num : (0:ℝ) ≤ 0.0012)).mul (Near.refl 0 g0)).fl hf).mul (Near.refl 0 hR.1)).fl hf)
  have n2 := (((nr.add n1).fl hf).div (volumeFactor_near hf hp hT hr hR hG nr) vp).fl hf
  have m0 : 0 ≤ G * R := mul_nonneg g0 hR.1
  have m1 : G * R ≤ 1 * 300 := mul_le_mul hG.2 hR.2 hR.1 zero_le_one
  refine ⟨n2.mono (by norm_num), ?_, ?_⟩
  · unfold Published.liveOilDensity
    rw [le_div_iff₀ vp]
    have := hr.1
    norm_num at *; linarith
  · unfold Published.liveOilDensity
    rw [div_le_iff₀ vp]
    have := hr.2
    norm_num at *; linarith

theorem oilVelocity_close_wide (hf : RoundsToNearest fl) (hp : PowerAccurate pw) {T p p' r r' : ℝ} (hT : 0 ≤ T) (hT1 : T ≤ 150)
    (hp0 : 0 < p) (hp1 : p ≤ 100) (hr : 0.235 ≤ r) (hr1 : r ≤ 1.0175) (np : Near 2 p p') (nr : Near 40 r r') :
    Box 4.3e3 4.235e-9 (Published.oilVelocity T p r) (deadOilVelocity fl pw T p' r') ∧ 100 ≤ Published.oilVelocity T p r := by
  have hr0 : 0 < r := lt_of_lt_of_le (by norm_num) hr
  have hT' : |T| ≤ 150 := by rw [abs_of_nonneg hT]; exact hT1
  have hq : 1.58 ≤ 2.6 - r := by norm_num at *; linarith
  have hq0 : 0 < 2.6 - r := lt_of_lt_of_le (by norm_num) hq
  have hs0 : 0 < r / (2.6 - r) := div_pos hr0 hq0
  have hs1 : 2096 * √(r / (2.6 - r)) ≤ 1682 := by
    have : √(r / (2.6 - r)) ≤ 0.802 := by
      rw [Real.sqrt_le_left (by norm_num), div_le_iff₀ hq0]
      norm_num at *; linarith
    norm_num at this ⊢; linarith
  have hs2 : 0.3151 ≤ √(r / (2.6 - r)) := by
    refine Real.le_sqrt_of_sq_le ?_
    rw [le_div_iff₀ hq0]
    norm_num at hr ⊢; linarith
  have hw : 1.08 * r⁻¹ ≤ 4.6 := by
    rw [← div_eq_mul_inv, div_le_iff₀ hr0]
    norm_num at hr ⊢; linarith
  have hw0 : 0.061 ≤ 1.08 * r⁻¹ - 1 := by
    have : 1.061 ≤ 1.08 * r⁻¹ := by
      rw [← div_eq_mul_inv, le_div_iff₀ hr0]
      norm_num at *; linarith
    norm_num at this ⊢; linarith
  have hw1 : 0 < 1.08 * r⁻¹ - 1 := lt_of_lt_of_le (by norm_num) hw0
  have hw2 : 4.12 * √(1.08 * r⁻¹ - 1) ≤ 7.82 := by
    have : √(1.08 * r⁻¹ - 1) ≤ 1.898 := by
      rw [Real.sqrt_le_left (by norm_num)]
      norm_num at hw ⊢; linarith
    norm_num at this ⊢; linarith
  have hw3 : 0.245 ≤ √(1.08 * r⁻¹ - 1) := by
    refine Real.le_sqrt_of_sq_le ?_
    norm_num at hw0 ⊢; linarith
  have n1 := (np.box (A := 100) hp1 (by norm_num)).wider (A' := 1.001e2) (e' := 4.461e-14) (by norm_num) (by norm_num)
  have n2 := (nr.box (A := 1.0175) hr1 (by norm_num)).wider (A' := 1.018e0) (e' := 9.077e-15) (by norm_num) (by norm_num)
  have n3 := (Box.literal hf (x := 2.6) (A := 2.6) (by norm_num [abs_of_nonneg, abs_of_neg])).wider (A' := 2.601e0) (e' := 2.913e-16) (by norm_num) (by norm_num)
  have n4 := ((n3.sub n2).rounded hf).wider (A' := 3.620e0) (e' := 9.774e-15) (by norm_num) (by norm_num)
  have n5 := n4.near (m := 1.58) 113 hq (by norm_num) (by norm_num) (by norm_num)
  have n6 := (nr.div n5 hq0).fl hf
  have n7 := (n6.sqrt hs0).fl hf
  have n8 := Near.refl 0 (x := 2096) (by norm_num)
  have n9 := (n8.mul n7).fl hf
  have n10 := (n9.box (A := 1682) hs1 (by norm_num)).wider (A' := 1.683e3) (e' := 5.852e-11) (by norm_num) (by norm_num)
  have n11 := (Box.literal hf (x := 3.7) (A := 3.7) (by norm_num [abs_of_nonneg, abs_of_neg])).wider (A' := 3.701e0) (e' := 4.145e-16) (by norm_num) (by norm_num)
  have n12 := Box.exact (x := T) (A := 150) hT'
  have n13 := ((n11.mul n12).rounded hf).wider (A' := 5.552e2) (e' := 1.244e-13) (by norm_num) (by norm_num)
  have n14 := (Box.literal hf (x := 4.64) (A := 4.64) (by norm_num [abs_of_nonneg, abs_of_neg])).wider (A' := 4.641e0) (e' := 5.197e-16) (by norm_num) (by norm_num)
  have n15 := ((n14.mul n1).rounded hf).wider (A' := 4.646e2) (e' := 3.111e-13) (by norm_num) (by norm_num)
  have n16 := ((n10.sub n13).rounded hf).wider (A' := 2.239e3) (e' := 5.890e-11) (by norm_num) (by norm_num)
  have n17 := ((n16.add n15).rounded hf).wider (A' := 2.704e3) (e' := 5.952e-11) (by norm_num) (by norm_num)
  have n18 := Near.fl0 hf (by norm_num : (0:ℝ) ≤ 1.08)
  have n19 := (power_int hp nr hr0).2.2
  have n20 := (n18.mul n19).fl hf
  have n21 := (n20.box (A := 4.6) hw (by norm_num)).wider (A' := 4.601e0) (e' := 4.617e-14) (by norm_num) (by norm_num)
  have n22 := Box.exact (x := 1) (A := 1) (by norm_num)
  have n23 := ((n21.sub n22).rounded hf).wider (A' := 5.602e0) (e' := 4.680e-14) (by norm_num) (by norm_num)
  have n24 := n23.near (m := 0.061) 13825 hw0 (by norm_num) (by norm_num) (by norm_num)
  have n25 := (n24.sqrt hw1).fl hf
  have n26 := Near.fl0 hf (by norm_num : (0:ℝ) ≤ 4.12)
  have n27 := (n26.mul n25).fl hf
  have n28 := (n27.box (A := 7.82) hw2 (by norm_num)).wider (A' := 7.821e0) (e' := 2.412e-11) (by norm_num) (by norm_num)
  have n29 := Box.exact (x := 1) (A := 1) (by norm_num)
  have n30 := ((n28.sub n29).rounded hf).wider (A' := 8.822e0) (e' := 2.413e-11) (by norm_num) (by norm_num)
  have n31 := (Box.literal hf (x := 0.0115) (A := 0.0115) (by norm_num [abs_of_nonneg, abs_of_neg])).wider (A' := 1.151e-2) (e' := 1.289e-18) (by norm_num) (by norm_num)
  have n32 := ((n31.mul n30).rounded hf).wider (A' := 1.016e-1) (e' := 2.778e-13) (by norm_num) (by norm_num)
  have n33 := Box.exact (x := T) (A := 150) hT'
  have n34 := ((n32.mul n33).rounded hf).wider (A' := 1.525e1) (e' := 4.168e-11) (by norm_num) (by norm_num)
  have n35 := ((n34.mul n1).rounded hf).wider (A' := 1.527e3) (e' := 4.174e-9) (by norm_num) (by norm_num)
  have n36 := ((n17.add n35).rounded hf).wider (A' := 4.232e3) (e' := 4.234e-9) (by norm_num) (by norm_num)
  have c : 0 ≤ 0.0115 * (4.12 * √(1.08 * r⁻¹ - 1) - 1) * T * p := by
    have : 0 ≤ 4.12 * √(1.08 * r⁻¹ - 1) - 1 := by norm_num at hw3 ⊢; linarith
    positivity
  have c' : 0 ≤ 4.64 * p := by positivity
  unfold Published.oilVelocity deadOilVelocity
  rw [← Real.sqrt_eq_rpow, ← Real.sqrt_eq_rpow, div_eq_mul_inv 1.08 r]
  refine ⟨n36.wider (by norm_num) (by norm_num), ?_⟩
  norm_num at hs2 c c' ⊢
  linarith

theorem window_box (hf : RoundsToNearest fl) {R : ℝ} (hR : 0 ≤ R) :
    Box 1 3.4e-16 (Published.deadWeight R) (window fl R) ∧ 0 ≤ Published.deadWeight R := by
  unfold Published.deadWeight window
  rw [abs_of_nonneg hR]
  by_cases h : 1 < R
  · rw [if_pos h, max_eq_left (by linarith)]
    exact ⟨(Box.exact (A := 1) (by norm_num)).wider le_rfl (by norm_num), le_rfl⟩
  · have h' : R ≤ 1 := not_lt.mp h
    rw [if_neg h, if_neg (by linarith), max_eq_right (by linarith), div_one]
    refine ⟨?_, by linarith⟩
    have b := ((((Box.exact (x := R - 1) (A := 1) (abs_le.mpr ⟨by linarith, by linarith⟩)).rounded hf).rounded hf).wider
      (A' := 1) (e' := 3.4e-16) le_rfl (by norm_num))
    refine ⟨abs_le.mpr ⟨by linarith, by linarith⟩, ?_⟩
    have : 1 - R = |R - 1| := by rw [abs_of_nonpos (by linarith)]; ring
    rw [this]
    exact (abs_abs_sub_abs_le _ _).trans b.2

theorem deadOilDensity_bounds {T p r : ℝ} (hT : 0 ≤ T ∧ T ≤ 150) (hp0 : 0 < p) (hp1 : p ≤ 100) (hr : 0.7 ≤ r) (hr1 : r ≤ 1) :
    0.3 ≤ Published.deadOilDensity T p r ∧ Published.deadOilDensity T p r ≤ 1.2 := by
  have p3 : p ^ 3 ≤ p * 100 ^ 2 := by nlinarith [mul_nonneg hp0.le (show 0 ≤ 100 ^ 2 - p ^ 2 by nlinarith)]
  have p30 : 0 < p ^ 3 := by positivity
  have a0 : 0 ≤ 0.00277 * p - 1.71e-7 * p ^ 3 := by norm_num at *; linarith
  have a1 : 0.00277 * p - 1.71e-7 * p ^ 3 ≤ 0.277 := by norm_num at *; linarith
  have s0 : 0 ≤ (r - 1.15) ^ 2 := sq_nonneg _
  have s1 : (r - 1.15) ^ 2 ≤ 0.2025 := by norm_num at *; nlinarith
  have m0 := mul_nonneg a0 s0
  have m1 := mul_le_mul a1 s1 s0 (by norm_num)
  have t0 : 0 < T + 17.78 := by linarith [hT.1]
  have t1 : T + 17.78 ≤ 1028.5 := by have := hT.2; norm_num at *; linarith
  have q0 := Real.rpow_pos_of_pos t0 1.175
  have q1 : (T + 17.78) ^ (1.175:ℝ) ≤ (T + 17.78) ^ (2:ℝ) :=
    Real.rpow_le_rpow_of_exponent_le (by have := hT.1; norm_num; linarith) (by norm_num)
  have q2 : (T + 17.78) ^ (1.175:ℝ) ≤ 3463 := by
    refine (Real.rpow_le_rpow t0.le t1 (by norm_num)).trans ?_
    rw [show (1.175:ℝ) = (47:ℕ) * (40:ℝ)⁻¹ by norm_num, Real.rpow_mul (by norm_num), Real.rpow_natCast,
      show (40:ℝ)⁻¹ = ((40:ℕ):ℝ)⁻¹ by norm_num]
    refine (Real.rpow_inv_le_iff_of_pos (by positivity) (by norm_num) (by norm_num)).mpr ?_
    rw [Real.rpow_natCast]; norm_num
  have b0 : 0.972 ≤ 0.972 + 3.81e-4 * (T + 17.78) ^ (1.175:ℝ) := le_add_of_nonneg_right (by positivity)
  have b1 : 0.972 + 3.81e-4 * (T + 17.78) ^ (1.175:ℝ) ≤ 2.3 := by norm_num at *; linarith
  have bp : 0 < 0.972 + 3.81e-4 * (T + 17.78) ^ (1.175:ℝ) := lt_of_lt_of_le (by norm_num) b0
  unfold Published.deadOilDensity
  constructor
  · rw [le_div_iff₀ bp]
    norm_num at *; linarith
  · rw [div_le_iff₀ bp]
    norm_num at *; linarith

/-- Density and velocity of dead and live oil, averaged. -/
theorem oil_parts (hf : RoundsToNearest fl) (hp : PowerAccurate pw) {T P r R G : ℝ} (hT : 0 ≤ T ∧ T ≤ 150)
    (hP : 0 < P ∧ P ≤ 100e6) (hr : 700 ≤ r ∧ r ≤ 1000) (hR : 0 ≤ R ∧ R ≤ 300) (hG : 0.55 ≤ G ∧ G ≤ 1) :
    ∃ v' : ℝ, oil fl pw T P r R G = fluidOf fl (oil fl pw T P r R G).2 v' ∧ ∃ v : ℝ,
    (Published.oil T P r R G).K = v * v * (Published.oil T P r R G).ρ ∧ 100 ≤ v ∧ 300 ≤ (Published.oil T P r R G).ρ ∧
    |v' - v| ≤ 8.476e-9 ∧ |(oil fl pw T P r R G).2 - (Published.oil T P r R G).ρ| ≤ 2.875e-11 := by
  have hp0 : 0 < P * 1e-6 := mul_pos hP.1 (by norm_num)
  have hp1 : P * 1e-6 ≤ 100 := by have := hP.2; norm_num at this ⊢; linarith
  have hr0 : 0.7 ≤ r / 1000 := by have := hr.1; norm_num; linarith
  have hr1 : r / 1000 ≤ 1 := by linarith [hr.2]
  have rp : 0 < r / 1000 := by linarith [hr.1]
  have np : Near 2 (P * 1e-6) (fl (P * fl 1e-6)) :=
    ((Near.refl 0 hP.1.le).mul (Near.fl0 hf (by norm_num : (0:ℝ) ≤ 1e-6))).fl hf
  have nr : Near 1 (r / 1000) (fl (r / 1000)) := Near.fl0 hf rp.le
  obtain ⟨bw, w0⟩ := window_box hf hR.1
  have w1 : Published.deadWeight R ≤ 1 := (le_abs_self _).trans bw.1
  have hu : |1 - Published.deadWeight R| ≤ 1 := abs_le.mpr ⟨by linarith, by linarith⟩
  obtain ⟨q0, q1⟩ := pseudoDensity_bounds hT ⟨hr0, hr1⟩ hR hG
  obtain ⟨vl, l0⟩ := oilVelocity_close_wide hf hp hT.1 hT.2 hp0 hp1 q0 q1 np (pseudoDensity_near hf hp hT ⟨hr0, hr1⟩ hR hG nr)
  obtain ⟨vd, d0⟩ := oilVelocity_close_wide hf hp hT.1 hT.2 hp0 hp1 (le_trans (by norm_num) hr0) (hr1.trans (by norm_num)) np
    (nr.mono (by norm_num))
  obtain ⟨nl, e0, e1⟩ := liveOilDensity_near hf hp hT ⟨hr0, hr1⟩ hR hG nr
  have nl' := (nl.mul (Near.refl 0 (by norm_num : (0:ℝ) ≤ 1000))).fl hf
  have nd' := ((deadOilDensity_near hf hp hT.1 (by linarith [hT.2]) hp0 hp1 hr0 hr1 np nr).mul
    (Near.refl 0 (by norm_num : (0:ℝ) ≤ 1000))).fl hf
  obtain ⟨f0, f1⟩ : 0.3 ≤ Published.deadOilDensity T (P * 1e-6) (r / 1000) ∧
      Published.deadOilDensity T (P * 1e-6) (r / 1000) ≤ 1.2 := deadOilDensity_bounds hT hp0 hp1 hr0 hr1
  have bd := (nd'.box (A := 1200) (by linarith) (by norm_num)).wider (A' := 1200) (e' := 1.446e-11) (by norm_num) (by norm_num)
  have bl := (nl'.box (A := 1400) (by linarith) (by norm_num)).wider (A' := 1400) (e' := 1.249e-11) (by norm_num) (by norm_num)
  have n1 := Box.exact (x := 1) (A := 1) (by norm_num)
  have n2 := ((n1.sub bw).rounded hf).wider (A' := 2.001e0) (e' := 5.641e-16) (by norm_num) (by norm_num)
  have n3 := n2.tight (B := 1) hu
  have n4 := ((bd.mul bw).rounded hf).wider (A' := 1.201e3) (e' := 1.501e-11) (by norm_num) (by norm_num)
  have n5 := ((n3.mul bl).rounded hf).wider (A' := 1.401e3) (e' := 1.344e-11) (by norm_num) (by norm_num)
  have n6 := ((n4.add n5).rounded hf).wider (A' := 2.603e3) (e' := 2.875e-11) (by norm_num) (by norm_num)
  have n7 := ((vd.mul bw).rounded hf).wider (A' := 4.301e3) (e' := 4.237e-9) (by norm_num) (by norm_num)
  have n8 := ((n3.mul vl).rounded hf).wider (A' := 4.301e3) (e' := 4.238e-9) (by norm_num) (by norm_num)
  have n9 := ((n7.add n8).rounded hf).wider (A' := 8.603e3) (e' := 8.476e-9) (by norm_num) (by norm_num)
  refine ⟨_, rfl, _, ?_, ?_, ?_, n9.2, ?_⟩
  · show (1000 * _) * _ ^ 2 = _ * _ * (1000 * _)
    ring
  · nlinarith
  · show 300 ≤ 1000 * _
    nlinarith
  · refine le_trans (le_of_eq ?_) n6.2
    congr 2
    show 1000 * _ = _
    ring

/-- **C190.** Density and bulk modulus of oil with dissolved gas from temperature, pressure, reference density, gas-oil ratio and gas
gravity, in double arithmetic. -/
theorem C190_oil (hf : RoundsToNearest fl) (hp : PowerAccurate pw) {T P r R G : ℝ} (hT : 0 ≤ T ∧ T ≤ 150)
    (hP : 0 < P ∧ P ≤ 100e6) (hr : 700 ≤ r ∧ r ≤ 1000) (hR : 0 ≤ R ∧ R ≤ 300) (hG : 0.55 ≤ G ∧ G ≤ 1) :
    |(oil fl pw T P r R G).2 - (Published.oil T P r R G).ρ| ≤ 1e-13 * (Published.oil T P r R G).ρ ∧
    |(oil fl pw T P r R G).1 - (Published.oil T P r R G).K| ≤ 2e-10 * (Published.oil T P r R G).K := by
  obtain ⟨v', h1, v, hK, v0, ρ0, ev, eρ⟩ := oil_parts hf hp hT hP hr hR hG
  have d1 : |(oil fl pw T P r R G).2 - (Published.oil T P r R G).ρ| ≤ 1e-13 * (Published.oil T P r R G).ρ := by
    refine eρ.trans ?_
    norm_num at ρ0 ⊢; linarith
  refine ⟨d1, ?_⟩
  have d2 : |v' - v| ≤ 8.477e-11 * v := by
    refine ev.trans ?_
    norm_num at v0 ⊢; linarith
  have hv0 : 0 ≤ v := le_trans (by norm_num) v0
  have hρ0 : 0 ≤ (Published.oil T P r R G).ρ := le_trans (by norm_num) ρ0
  have eK : (oil fl pw T P r R G).1 = fl (fl (fl (v' ^ 2) * (oil fl pw T P r R G).2)) := by
    rw [h1]
    unfold fluidOf
    dsimp only
    rw [mul_zero, hf.zero, sub_zero]
  have m := relative_fl hf (by positivity) (relative_fl hf (by positivity)
    (relative_mul (by positivity) hρ0 (relative_fl hf (by positivity) (relative_mul hv0 hv0 d2 d2)) d1))
  rw [eK, hK, pow_two]
  refine m.trans (mul_le_mul_of_nonneg_right ?_ (by positivity))
  unfold unit
  norm_num

/-- Oil of 32 degrees API with 120 l/l of gas at 75 °C and 20 MPa. -/
example (hf : RoundsToNearest fl) := C190_oil hf (pw := fun x y => x ^ y) exists_double.2 (T := 75) (P := 20e6) (r := 865) (R := 120)
  (G := 0.7) (by norm_num) (by norm_num) (by norm_num) (by norm_num) (by norm_num)

/-- Nearly dead oil, in the window. -/
example (hf : RoundsToNearest fl) := C190_oil hf (pw := fun x y => x ^ y) exists_double.2 (T := 75) (P := 20e6) (r := 865) (R := 0.3)
  (G := 0.7) (by norm_num) (by norm_num) (by norm_num) (by norm_num) (by norm_num)

end Double

end OPE
