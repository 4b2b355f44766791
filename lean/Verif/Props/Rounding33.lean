import Verif.Props.Rounding25
import Verif.Props.Rounding20
import Verif.Props.Rounding12
import Verif.Props.Rounding13
import Verif.Model.RoundingCement

/-!
# C192: contact cement in double arithmetic
-/

namespace OPE

variable {fl : ℝ → ℝ} {pw : ℝ → ℝ → ℝ}

/-- Rounding read upside down is rounding. -/
theorem neg_rounds (hf : RoundsToNearest fl) : RoundsToNearest fun x => -fl (-x) := by
  intro x
  obtain ⟨⟨m, e, hm, he⟩, h⟩ := hf (-x)
  refine ⟨⟨-m, e, by rwa [abs_neg], by push_cast; rw [he]; ring⟩, fun y hy => ?_⟩
  obtain ⟨m', e', hm', he'⟩ := hy
  have := h (-y) ⟨-m', e', by rwa [abs_neg], by push_cast; rw [he']; ring⟩
  have a1 : -fl (-x) - x = -(fl (-x) - -x) := by ring
  have a2 : -y - -x = -(y - x) := by ring
  rw [a1, abs_neg]
  rwa [a2, abs_neg] at this

theorem Box.negate {A e x y : ℝ} (h : Box A e x y) : Box A e (-x) (-y) := by
  refine ⟨by rw [abs_neg]; exact h.1, ?_⟩
  have : -y - -x = -(y - x) := by ring
  rw [this, abs_neg]; exact h.2

/-- A power of either sign whose exponent is known only approximately. -/
theorem power_near_box (hp : PowerAccurate pw) {k : ℕ} {x x' e e' : ℝ} (h : Near k x x')
    (h0 : 1 / 2 ^ 5 ≤ x) (h1 : x ≤ 2 ^ 5) (he : Box 2 1.3e-15 e e') (he1 : |e| ≤ 1.99) :
    Near (2 * k + 45) (x ^ e) (pw x' e') := by
  have hx : 0 < x := lt_of_lt_of_le (by norm_num) h0
  have hx' := h.pos hx
  have hl2 := Real.log_two_lt_d9
  have l1 : Real.log x ≤ 3.47 := by
    refine (Real.log_le_log hx h1).trans ?_
    rw [Real.log_pow]; norm_num at hl2 ⊢; linarith
  have l2 : -3.47 ≤ Real.log x := by
    refine le_trans ?_ (Real.log_le_log (by norm_num) h0)
    rw [one_div, Real.log_inv, Real.log_pow]; norm_num at hl2 ⊢; linarith
  have d : |Real.log x * (e' - e)| ≤ (42:ℕ) * unit := by
    rw [abs_mul]
    refine (mul_le_mul (abs_le.mpr ⟨l2, l1⟩) he.2 (abs_nonneg _) (by norm_num)).trans ?_
    unfold unit; norm_num
  have g := (Near.refl 0 (Real.rpow_pos_of_pos hx e).le).mul (Near.exp_growth 42 d)
  rw [mul_one, Real.rpow_def_of_pos hx, ← Real.exp_add, ← mul_add, add_sub_cancel, ← Real.rpow_def_of_pos hx,
    ← Real.rpow_def_of_pos hx] at g
  have hb := abs_le.mp he.2
  have hc := abs_le.mp he1
  have r : Near (2 * k) (x ^ e') (x' ^ e') := by
    rcases le_total 0 e' with s | s
    · exact h.rpow_two hx s (by norm_num at hb hc ⊢; linarith)
    · have := (h.rpow_two hx (p := -e') (by linarith) (by norm_num at hb hc ⊢; linarith)).inv (Real.rpow_pos_of_pos hx _)
      rwa [Real.rpow_neg hx.le, inv_inv, Real.rpow_neg hx'.le, inv_inv] at this
  exact ((g.trans r).trans (pw_near hp hx' e')).mono (by omega)

/-- Subtracting something that is at most 0.8 of the other. -/
theorem sub_near {k : ℕ} {a b a' b' : ℝ} (ha : Near k a a') (hb : Near k b b') (h : a ≤ 0.8 * b) (hk : k ≤ 2 ^ 40) :
    Near (36 * k) (b - a) (b' - a') := by
  have hu := unit_pos
  have h0 := ha.1
  have hb0 := hb.1
  have hk' : (k : ℝ) ≤ 2 ^ 40 := by exact_mod_cast hk
  have e1 := ha.abs_le (hk.trans (by norm_num))
  have e2 := hb.abs_le (hk.trans (by norm_num))
  refine Near.of_relative (ε := 18 * (k * unit)) (by linarith) ?_ ?_ ?_ (by positivity)
  · have t : |b' - a' - (b - a)| ≤ |b' - b| + |a' - a| := by
      have : b' - a' - (b - a) = (b' - b) - (a' - a) := by ring
      rw [this]; exact abs_sub _ _
    have ku : 0 ≤ k * unit := by positivity
    have : 0 ≤ (k * unit) * (0.8 * b - a) := mul_nonneg ku (by linarith)
    nlinarith
  · push_cast
    have : unit = 1 / 2 ^ 53 := by unfold unit; norm_num
    rw [this]
    have : (k : ℝ) ≤ 1099511627776 := hk'.trans (by norm_num)
    norm_num; linarith
  · push_cast; linarith

/-- A small negative power of something that is not small. -/
theorem power_le_six {x p : ℝ} (hx : 1 / 2 ^ 5 ≤ x) (h0 : p ≤ 0) (h1 : -(1/2) ≤ p) : x ^ p ≤ 5.66 := by
  have a := Real.rpow_le_rpow_of_nonpos (by norm_num : (0:ℝ) < 1 / 2 ^ 5) hx h0
  refine a.trans ?_
  have e : (1 / 2 ^ 5 : ℝ) ^ p = (32:ℝ) ^ (-p) := by
    rw [one_div, Real.inv_rpow (by norm_num), ← Real.rpow_neg (by norm_num)]; norm_num
  rw [e]
  refine (Real.rpow_le_rpow_of_exponent_le (by norm_num) (by linarith : -p ≤ 1/2)).trans ?_
  rw [← Real.sqrt_eq_rpow, Real.sqrt_le_left (by norm_num)]
  norm_num

theorem cement_q1 (hf : RoundsToNearest fl) {ν ν' : ℝ} (h0 : 0 ≤ ν) (hv : Box 0.4 7.85e-16 ν ν') :
    Near 34 (2.26 * ν ^ 2 + 2.07 * ν + 2.3) (Double.quadratic fl (fl 2.26) (fl 2.07) (fl 2.3) ν') := by
  have n2 := (Box.literal hf (x := 2.26) (A := 2.26) (by norm_num [abs_of_nonneg, abs_of_neg])).wider (A' := 2.261e0) (e' := 2.532e-16) (by norm_num) (by norm_num)
  have n3 := (Box.literal hf (x := 2.07) (A := 2.07) (by norm_num [abs_of_nonneg, abs_of_neg])).wider (A' := 2.071e0) (e' := 2.319e-16) (by norm_num) (by norm_num)
  have n4 := (Box.literal hf (x := 2.3) (A := 2.3) (by norm_num [abs_of_nonneg, abs_of_neg])).wider (A' := 2.301e0) (e' := 2.577e-16) (by norm_num) (by norm_num)
  have n5 := (hv.sq.rounded hf).wider (A' := 1.601e-1) (e' := 6.460e-16) (by norm_num) (by norm_num)
  have n6 := ((n2.mul n5).rounded hf).wider (A' := 3.620e-1) (e' := 1.542e-15) (by norm_num) (by norm_num)
  have n7 := ((n3.mul hv).rounded hf).wider (A' := 8.285e-1) (e' := 1.812e-15) (by norm_num) (by norm_num)
  have n8 := ((n6.add n7).rounded hf).wider (A' := 1.191e0) (e' := 3.488e-15) (by norm_num) (by norm_num)
  have n9 := ((n8.add n4).rounded hf).wider (A' := 3.493e0) (e' := 4.137e-15) (by norm_num) (by norm_num)
  have n10 := n9.near (m := 2.3) 34 (by nlinarith [mul_nonneg h0 h0]) (by norm_num) (by norm_num) (by norm_num)
  exact n10

theorem cement_q2 (hf : RoundsToNearest fl) {ν ν' : ℝ} (h0 : 0 ≤ ν) (hv : Box 0.4 7.85e-16 ν ν') :
    Near 17 (0.0573 * ν ^ 2 + 0.0937 * ν + 0.202) (Double.quadratic fl (fl 0.0573) (fl 0.0937) (fl 0.202) ν') := by
  have n2 := (Box.literal hf (x := 0.0573) (A := 0.0573) (by norm_num [abs_of_nonneg, abs_of_neg])).wider (A' := 5.731e-2) (e' := 6.418e-18) (by norm_num) (by norm_num)
  have n3 := (Box.literal hf (x := 0.0937) (A := 0.0937) (by norm_num [abs_of_nonneg, abs_of_neg])).wider (A' := 9.371e-2) (e' := 1.050e-17) (by norm_num) (by norm_num)
  have n4 := (Box.literal hf (x := 0.202) (A := 0.202) (by norm_num [abs_of_nonneg, abs_of_neg])).wider (A' := 2.021e-1) (e' := 2.263e-17) (by norm_num) (by norm_num)
  have n5 := (hv.sq.rounded hf).wider (A' := 1.601e-1) (e' := 6.460e-16) (by norm_num) (by norm_num)
  have n6 := ((n2.mul n5).rounded hf).wider (A' := 9.176e-3) (e' := 3.908e-17) (by norm_num) (by norm_num)
  have n7 := ((n3.mul hv).rounded hf).wider (A' := 3.749e-2) (e' := 8.197e-17) (by norm_num) (by norm_num)
  have n8 := ((n6.add n7).rounded hf).wider (A' := 4.667e-2) (e' := 1.263e-16) (by norm_num) (by norm_num)
  have n9 := ((n8.add n4).rounded hf).wider (A' := 2.488e-1) (e' := 1.768e-16) (by norm_num) (by norm_num)
  have n10 := n9.near (m := 0.202) 17 (by nlinarith [mul_nonneg h0 h0]) (by norm_num) (by norm_num) (by norm_num)
  exact n10

theorem cement_q3 (hf : RoundsToNearest fl) {ν ν' : ℝ} (h0 : 0 ≤ ν) (hv : Box 0.4 7.85e-16 ν ν') :
    Near 74 (9.654 * ν ^ 2 + 4.945 * ν + 3.1) (Double.quadratic fl (fl 9.654) (fl 4.945) (fl 3.1) ν') := by
  have n2 := (Box.literal hf (x := 9.654) (A := 9.654) (by norm_num [abs_of_nonneg, abs_of_neg])).wider (A' := 9.655e0) (e' := 1.082e-15) (by norm_num) (by norm_num)
  have n3 := (Box.literal hf (x := 4.945) (A := 4.945) (by norm_num [abs_of_nonneg, abs_of_neg])).wider (A' := 4.946e0) (e' := 5.539e-16) (by norm_num) (by norm_num)
  have n4 := (Box.literal hf (x := 3.1) (A := 3.1) (by norm_num [abs_of_nonneg, abs_of_neg])).wider (A' := 3.101e0) (e' := 3.473e-16) (by norm_num) (by norm_num)
  have n5 := (hv.sq.rounded hf).wider (A' := 1.601e-1) (e' := 6.460e-16) (by norm_num) (by norm_num)
  have n6 := ((n2.mul n5).rounded hf).wider (A' := 1.546e0) (e' := 6.584e-15) (by norm_num) (by norm_num)
  have n7 := ((n3.mul hv).rounded hf).wider (A' := 1.979e0) (e' := 4.326e-15) (by norm_num) (by norm_num)
  have n8 := ((n6.add n7).rounded hf).wider (A' := 3.526e0) (e' := 1.131e-14) (by norm_num) (by norm_num)
  have n9 := ((n8.add n4).rounded hf).wider (A' := 6.628e0) (e' := 1.240e-14) (by norm_num) (by norm_num)
  have n10 := n9.near (m := 3.1) 74 (by nlinarith [mul_nonneg h0 h0]) (by norm_num) (by norm_num) (by norm_num)
  exact n10

theorem cement_e1 (hf : RoundsToNearest fl) {ν ν' : ℝ} (h0 : 0 ≤ ν) (h1 : ν ≤ 0.4) (hv : Box 0.4 7.85e-16 ν ν') :
    Box 1.9 1.3e-15 (0.079 * ν ^ 2 + 0.1754 * ν - 1.342) (fl (fl (fl (fl 0.079 * fl (ν' ^ 2)) + fl (fl 0.1754 * ν')) - fl 1.342)) := by
  have n2 := (Box.literal hf (x := 0.079) (A := 0.079) (by norm_num [abs_of_nonneg, abs_of_neg])).wider (A' := 7.901e-2) (e' := 8.849e-18) (by norm_num) (by norm_num)
  have n3 := (Box.literal hf (x := 0.1754) (A := 0.1754) (by norm_num [abs_of_nonneg, abs_of_neg])).wider (A' := 1.755e-1) (e' := 1.965e-17) (by norm_num) (by norm_num)
  have n4 := (Box.literal hf (x := 1.342) (A := 1.342) (by norm_num [abs_of_nonneg, abs_of_neg])).wider (A' := 1.343e0) (e' := 1.504e-16) (by norm_num) (by norm_num)
  have n5 := (hv.sq.rounded hf).wider (A' := 1.601e-1) (e' := 6.460e-16) (by norm_num) (by norm_num)
  have n6 := ((n2.mul n5).rounded hf).wider (A' := 1.265e-2) (e' := 5.388e-17) (by norm_num) (by norm_num)
  have n7 := ((n3.mul hv).rounded hf).wider (A' := 7.021e-2) (e' := 1.535e-16) (by norm_num) (by norm_num)
  have n8 := ((n6.add n7).rounded hf).wider (A' := 8.287e-2) (e' := 2.167e-16) (by norm_num) (by norm_num)
  have n9 := ((n8.sub n4).rounded hf).wider (A' := 1.426e0) (e' := 5.268e-16) (by norm_num) (by norm_num)
  refine (n9.tight (B := 1.9) ?_).wider le_rfl (by norm_num)
  rw [abs_le]; constructor <;> nlinarith [mul_nonneg h0 h0, mul_le_mul h1 h1 h0 (by norm_num)]

theorem cement_e2 (hf : RoundsToNearest fl) {ν ν' : ℝ} (h0 : 0 ≤ ν) (h1 : ν ≤ 0.4) (hv : Box 0.4 7.85e-16 ν ν') :
    Box 1.9 1.3e-15 (0.0274 * ν ^ 2 + 0.0529 * ν - 0.8765) (fl (fl (fl (fl 0.0274 * fl (ν' ^ 2)) + fl (fl 0.0529 * ν')) - fl 0.8765)) := by
  have n2 := (Box.literal hf (x := 0.0274) (A := 0.0274) (by norm_num [abs_of_nonneg, abs_of_neg])).wider (A' := 2.741e-2) (e' := 3.069e-18) (by norm_num) (by norm_num)
  have n3 := (Box.literal hf (x := 0.0529) (A := 0.0529) (by norm_num [abs_of_nonneg, abs_of_neg])).wider (A' := 5.291e-2) (e' := 5.925e-18) (by norm_num) (by norm_num)
  have n4 := (Box.literal hf (x := 0.8765) (A := 0.8765) (by norm_num [abs_of_nonneg, abs_of_neg])).wider (A' := 8.766e-1) (e' := 9.817e-17) (by norm_num) (by norm_num)
  have n5 := (hv.sq.rounded hf).wider (A' := 1.601e-1) (e' := 6.460e-16) (by norm_num) (by norm_num)
  have n6 := ((n2.mul n5).rounded hf).wider (A' := 4.389e-3) (e' := 1.869e-17) (by norm_num) (by norm_num)
  have n7 := ((n3.mul hv).rounded hf).wider (A' := 2.117e-2) (e' := 4.628e-17) (by norm_num) (by norm_num)
  have n8 := ((n6.add n7).rounded hf).wider (A' := 2.556e-2) (e' := 6.784e-17) (by norm_num) (by norm_num)
  have n9 := ((n8.sub n4).rounded hf).wider (A' := 9.022e-1) (e' := 2.671e-16) (by norm_num) (by norm_num)
  refine (n9.tight (B := 1.9) ?_).wider le_rfl (by norm_num)
  rw [abs_le]; constructor <;> nlinarith [mul_nonneg h0 h0, mul_le_mul h1 h1 h0 (by norm_num)]

theorem cement_e3 (hf : RoundsToNearest fl) {ν ν' : ℝ} (h0 : 0 ≤ ν) (h1 : ν ≤ 0.4) (hv : Box 0.4 7.85e-16 ν ν') :
    Box 1.9 1.3e-15 (0.01867 * ν ^ 2 + 0.4011 * ν - 1.8186) (fl (fl (fl (fl 0.01867 * fl (ν' ^ 2)) + fl (fl 0.4011 * ν')) - fl 1.8186)) := by
  have n2 := (Box.literal hf (x := 0.01867) (A := 0.01867) (by norm_num [abs_of_nonneg, abs_of_neg])).wider (A' := 1.868e-2) (e' := 2.092e-18) (by norm_num) (by norm_num)
  have n3 := (Box.literal hf (x := 0.4011) (A := 0.4011) (by norm_num [abs_of_nonneg, abs_of_neg])).wider (A' := 4.012e-1) (e' := 4.493e-17) (by norm_num) (by norm_num)
  have n4 := (Box.literal hf (x := 1.8186) (A := 1.8186) (by norm_num [abs_of_nonneg, abs_of_neg])).wider (A' := 1.819e0) (e' := 2.037e-16) (by norm_num) (by norm_num)
  have n5 := (hv.sq.rounded hf).wider (A' := 1.601e-1) (e' := 6.460e-16) (by norm_num) (by norm_num)
  have n6 := ((n2.mul n5).rounded hf).wider (A' := 2.991e-3) (e' := 1.274e-17) (by norm_num) (by norm_num)
  have n7 := ((n3.mul hv).rounded hf).wider (A' := 1.605e-1) (e' := 3.509e-16) (by norm_num) (by norm_num)
  have n8 := ((n6.add n7).rounded hf).wider (A' := 1.635e-1) (e' := 3.820e-16) (by norm_num) (by norm_num)
  have n9 := ((n8.sub n4).rounded hf).wider (A' := 1.983e0) (e' := 8.078e-16) (by norm_num) (by norm_num)
  refine (n9.tight (B := 1.9) ?_).wider le_rfl (by norm_num)
  rw [abs_le]; constructor <;> nlinarith [mul_nonneg h0 h0, mul_le_mul h1 h1 h0 (by norm_num)]

/-- `1 - 2 ν` of a computed Poisson's ratio. -/
theorem one_sub_two_near (hf : RoundsToNearest fl) {ν ν' : ℝ} (h1 : ν ≤ 0.4) (hv : Box 0.4 7.85e-16 ν ν') :
    Near 175 (1 - 2 * ν) (fl (1 - fl (2 * ν'))) := by
  have t := (Box.exact (x := 2) (A := 2) (by norm_num)).mul hv |>.rounded hf
  have o := (Box.exact (x := 1) (A := 1) (by norm_num)).sub t |>.rounded hf
  exact o.near (m := 0.2) 175 (by linarith) (by norm_num) (by norm_num) (by norm_num)

/-- `-a x² + b x + c` in double arithmetic. -/
theorem stiffness_near (hf : RoundsToNearest fl) {k l : ℕ} {a a' b b' c c' α α' : ℝ} (ha : Near k a a') (hb : Near k b b')
    (hc : Near l c c') (hα : Near 8 α α') (h1 : α ≤ 1) (h : a ≤ 0.8 * b) (hk : k ≤ 2 ^ 30) :
    Near (max (36 * (k + 18) + 1) l + 1) (-a * α ^ 2 + b * α + c)
      (fl (fl (fl (-a' * fl (α' ^ 2)) + fl (b' * α')) + c')) := by
  have g := neg_rounds hf
  have n1 : Near (k + 18) (a * α ^ 2) (-fl (-(a' * fl (α' ^ 2)))) := ((ha.mul (hα.sq.fl hf)).fl g).mono (by omega)
  have n2 : Near (k + 18) (b * α) (fl (b' * α')) := ((hb.mul hα).fl hf).mono (by omega)
  have hα0 := hα.1
  have hs := sub_near n1 n2 (by
    have a1 : a * α ^ 2 ≤ a * α := by
      have := mul_nonneg ha.1 (mul_nonneg hα0 (by linarith : 0 ≤ 1 - α))
      nlinarith
    have a2 := mul_le_mul_of_nonneg_right h hα0
    linarith) (by omega)
  have r := (((hs.fl hf).add hc).fl hf)
  have e1 : fl (-a' * fl (α' ^ 2)) + fl (b' * α') = fl (b' * α') - -fl (-(a' * fl (α' ^ 2))) := by
    rw [neg_mul]; ring
  have e2 : -a * α ^ 2 + b * α + c = b * α - a * α ^ 2 + c := by ring
  rw [e1, e2]
  exact r

/-- The normal stiffness of cemented contacts. -/
theorem normal_near (hf : RoundsToNearest fl) (hp : PowerAccurate pw) {ν ν' νc νc' G Gc α α' : ℝ}
    (hν0 : 0 ≤ ν) (hν1 : ν ≤ 0.4) (hc0 : 0 ≤ νc) (hc1 : νc ≤ 0.4) (nν : Near 15 (1 - ν) (fl (1 - ν')))
    (nνc : Near 15 (1 - νc) (fl (1 - νc'))) (bνc : Box 0.4 7.85e-16 νc νc') (hG : 0 < G) (h1 : 0.1 * G ≤ Gc)
    (h2 : Gc ≤ 10 * G) (hα : Near 8 α α') (hα1 : α ≤ 1) :
    Near 18000 (Published.cementNormal ν νc G Gc α) (Double.normalStiffness fl pw ν' νc' Gc G α') := by
  have hGc : 0 < Gc := by linarith
  have hπ := Real.pi_pos
  have p3 := Real.pi_gt_three
  have p4 := Real.pi_lt_d2
  set Λ := 2 * Gc / (Real.pi * G) * ((1 - ν) * (1 - νc) / (1 - 2 * νc)) with hΛ
  have hd : 0 < 1 - 2 * νc := by linarith
  have nΛ : Near 214 Λ (fl (fl (fl (2 * Gc) / fl (fl Real.pi * G)) * fl (fl (fl (1 - ν') * fl (1 - νc')) / fl (1 - fl (2 * νc'))))) := by
    have m1 : Near 1 (2 * Gc) (fl (2 * Gc)) := Near.fl0 hf (by linarith)
    have m2 := ((Near.fl0 hf hπ.le).mul (Near.refl 0 hG.le)).fl hf
    have m3 := (m1.div m2 (by positivity)).fl hf
    have m4 := (((nν.mul nνc).fl hf).div (one_sub_two_near hf hc1 bνc) hd).fl hf
    exact ((m3.mul m4).fl hf).mono (by omega)
  have q1 : 0.6 ≤ (1 - ν) * (1 - νc) / (1 - 2 * νc) := by
    rw [le_div_iff₀ hd]; nlinarith
  have q2 : (1 - ν) * (1 - νc) / (1 - 2 * νc) ≤ 3 := by
    rw [div_le_iff₀ hd]; nlinarith
  have r1 : 0.06 ≤ 2 * Gc / (Real.pi * G) := by
    rw [le_div_iff₀ (by positivity)]
    have := mul_lt_mul_of_pos_right p4 hG
    norm_num at this h1 ⊢; linarith
  have r2 : 2 * Gc / (Real.pi * G) ≤ 20 / 3 := by
    rw [div_le_iff₀ (by positivity)]
    have := mul_lt_mul_of_pos_right p3 hG
    linarith
  have hΛ0 : 1 / 2 ^ 5 ≤ Λ := by
    have := mul_le_mul r1 q1 (by norm_num) (by linarith)
    norm_num at this ⊢; linarith
  have hΛ1 : Λ ≤ 2 ^ 5 := by
    have := mul_le_mul r2 q2 (by linarith) (by norm_num)
    norm_num at this ⊢; linarith
  have hΛp : 0 < Λ := lt_of_lt_of_le (by norm_num) hΛ0
  set A := fl (fl (fl (2 * Gc) / fl (fl Real.pi * G)) * fl (fl (fl (1 - ν') * fl (1 - νc')) / fl (1 - fl (2 * νc')))) with hA
  have lits : ∀ x : ℝ, 0 ≤ x → x ≤ 1.99 → Near 473 (Λ ^ (-x)) (pw A (-fl x)) := by
    intro x x0 x1
    have b : Box 1.99 (1.12e-16 * 1.99) x (fl x) := Box.literal hf (by rw [abs_of_nonneg x0]; exact x1)
    have b2 : Box 2 1.3e-15 (-x) (-fl x) := b.negate.wider (by norm_num) (by norm_num)
    have ab : |(-x)| ≤ 1.99 := by rw [abs_neg, abs_of_nonneg x0]; exact x1
    have r := power_near_box (pw := pw) hp nΛ hΛ0 hΛ1 b2 ab
    exact r.mono (by norm_num)
  have n1 : Near 480 (0.024153 * Λ ^ (-1.3646 : ℝ)) (-fl (-(fl 0.024153 * pw A (-fl 1.3646)))) :=
    (((Near.fl0 hf (by norm_num)).mul (lits 1.3646 (by norm_num) (by norm_num))).fl (neg_rounds hf)).mono (by omega)
  have n2 : Near 480 (0.20405 * Λ ^ (-0.89008 : ℝ)) (fl (fl 0.20405 * pw A (-fl 0.89008))) :=
    (((Near.fl0 hf (by norm_num)).mul (lits 0.89008 (by norm_num) (by norm_num))).fl hf).mono (by omega)
  have n3 : Near 480 (0.00024649 * Λ ^ (-1.9864 : ℝ)) (fl (fl 0.00024649 * pw A (-fl 1.9864))) :=
    (((Near.fl0 hf (by norm_num)).mul (lits 1.9864 (by norm_num) (by norm_num))).fl hf).mono (by omega)
  have key := stiffness_near hf n1 n2 n3 hα hα1 (by
    have s : Λ ^ (-1.3646 : ℝ) = Λ ^ (-0.89008 : ℝ) * Λ ^ (-0.47452 : ℝ) := by
      rw [← Real.rpow_add hΛp]; norm_num
    have six := power_le_six (p := -0.47452) hΛ0 (by norm_num) (by norm_num)
    have pp := Real.rpow_pos_of_pos hΛp (-0.89008)
    have := mul_le_mul_of_nonneg_left six pp.le
    rw [s]
    norm_num at this pp ⊢; linarith) (by norm_num)
  have e1 : Double.normalStiffness fl pw ν' νc' Gc G α' =
      fl (fl (fl (-(-fl (-(fl 0.024153 * pw A (-fl 1.3646)))) * fl (α' ^ 2)) +
        fl (fl (fl 0.20405 * pw A (-fl 0.89008)) * α')) + fl (fl 0.00024649 * pw A (-fl 1.9864))) := by
    rw [neg_neg]
    simp only [Double.normalStiffness, ← hA, neg_mul]
  have e2 : Published.cementNormal ν νc G Gc α = -(0.024153 * Λ ^ (-1.3646 : ℝ)) * α ^ 2 +
      0.20405 * Λ ^ (-0.89008 : ℝ) * α + 0.00024649 * Λ ^ (-1.9864 : ℝ) := by
    unfold Published.cementNormal
    simp only [← hΛ]; ring
  rw [e1, e2]
  exact key.mono (by norm_num)

/-- The tangential stiffness of cemented contacts. -/
theorem tangential_near (hf : RoundsToNearest fl) (hp : PowerAccurate pw) {ν ν' G Gc α α' : ℝ}
    (hν0 : 0 ≤ ν) (hν1 : ν ≤ 0.4) (bν : Box 0.4 7.85e-16 ν ν') (hG : 0 < G) (h1 : 0.1 * G ≤ Gc)
    (h2 : Gc ≤ 10 * G) (hα : Near 8 α α') (hα1 : α ≤ 1) :
    Near 4000 (Published.cementTangential ν G Gc α) (Double.shearStiffness fl pw Gc G ν' α') := by
  have hGc : 0 < Gc := by linarith
  have hπ := Real.pi_pos
  have p3 := Real.pi_gt_three
  have p4 := Real.pi_lt_d2
  set Λ := Gc / (Real.pi * G) with hΛ
  have nΛ : Near 3 Λ (fl (Gc / fl (fl Real.pi * G))) := by
    have m2 := ((Near.fl0 hf hπ.le).mul (Near.refl 0 hG.le)).fl hf
    exact (((Near.refl 0 hGc.le).div m2 (by positivity)).fl hf).mono (by omega)
  have hΛ0 : 1 / 2 ^ 5 ≤ Λ := by
    rw [hΛ, le_div_iff₀ (by positivity)]
    have := mul_lt_mul_of_pos_right p4 hG
    norm_num at this h1 ⊢; linarith
  have hΛ1 : Λ ≤ 2 ^ 5 := by
    rw [hΛ, div_le_iff₀ (by positivity)]
    have := mul_lt_mul_of_pos_right p3 hG
    norm_num; linarith
  have hΛp : 0 < Λ := lt_of_lt_of_le (by norm_num) hΛ0
  set A := fl (Gc / fl (fl Real.pi * G)) with hA
  have pows : ∀ e e' : ℝ, Box 1.9 1.3e-15 e e' → Near 51 (Λ ^ e) (pw A e') := fun e e' b =>
    (power_near_box hp nΛ hΛ0 hΛ1 (b.wider (by norm_num) le_rfl) (b.1.trans (by norm_num))).mono (by omega)
  set E1 := 0.079 * ν ^ 2 + 0.1754 * ν - 1.342 with hE1
  set E2 := 0.0274 * ν ^ 2 + 0.0529 * ν - 0.8765 with hE2
  set E3 := 0.01867 * ν ^ 2 + 0.4011 * ν - 1.8186 with hE3
  have w1 := pows E1 _ (cement_e1 hf hν0 hν1 bν)
  have w2 := pows E2 _ (cement_e2 hf hν0 hν1 bν)
  have w3 := pows E3 _ (cement_e3 hf hν0 hν1 bν)
  have g := neg_rounds hf
  have k1 := cement_q1 hf hν0 bν
  have k2 := cement_q2 hf hν0 bν
  have k3 := cement_q3 hf hν0 bν
  set Q1 := Double.quadratic fl (fl 2.26) (fl 2.07) (fl 2.3) ν' with hQ1
  set Q2 := Double.quadratic fl (fl 0.0573) (fl 0.0937) (fl 0.202) ν' with hQ2
  set Q3 := Double.quadratic fl (fl 9.654) (fl 4.945) (fl 3.1) ν' with hQ3
  set P1 := pw A (fl (fl (fl (fl 0.079 * fl (ν' ^ 2)) + fl (fl 0.1754 * ν')) - fl 1.342))
  set P2 := pw A (fl (fl (fl (fl 0.0274 * fl (ν' ^ 2)) + fl (fl 0.0529 * ν')) - fl 0.8765))
  set P3 := pw A (fl (fl (fl (fl 0.01867 * fl (ν' ^ 2)) + fl (fl 0.4011 * ν')) - fl 1.8186))
  have n1 : Near 88 (0.01 * (2.26 * ν ^ 2 + 2.07 * ν + 2.3) * Λ ^ E1) (-fl (-(-fl (-(fl 1e-2 * Q1)) * P1))) := by
    have := (((Near.fl0 hf (by norm_num : (0:ℝ) ≤ 1e-2)).mul k1).fl g)
    have := ((this.mul w1).fl g).mono (l := 88) (by omega)
    norm_num at this ⊢; exact this
  have n2 : Near 88 ((0.0573 * ν ^ 2 + 0.0937 * ν + 0.202) * Λ ^ E2) (fl (Q2 * P2)) :=
    ((k2.mul w2).fl hf).mono (by omega)
  have n3 : Near 130 (1e-4 * (9.654 * ν ^ 2 + 4.945 * ν + 3.1) * Λ ^ E3) (fl (fl (fl 1e-4 * Q3) * P3)) :=
    (((((Near.fl0 hf (by norm_num : (0:ℝ) ≤ 1e-4)).mul k3).fl hf).mul w3).fl hf).mono (by omega)
  have key := stiffness_near hf n1 n2 n3 hα hα1 (by
    have s : Λ ^ E1 = Λ ^ E2 * Λ ^ (E1 - E2) := by
      rw [← Real.rpow_add hΛp, add_sub_cancel]
    have v2 : ν ^ 2 ≤ 0.16 := by nlinarith
    have v0 := sq_nonneg ν
    have six := power_le_six (p := E1 - E2) hΛ0 (by rw [hE1, hE2]; norm_num at v2 hν1 ⊢; linarith)
      (by rw [hE1, hE2]; norm_num; linarith)
    have pp := Real.rpow_pos_of_pos hΛp E2
    have q : 0.01 * (2.26 * ν ^ 2 + 2.07 * ν + 2.3) * 5.66 ≤ 0.8 * (0.0573 * ν ^ 2 + 0.0937 * ν + 0.202) := by
      norm_num at v2 hν1 ⊢; linarith
    have q0 : 0 ≤ 0.01 * (2.26 * ν ^ 2 + 2.07 * ν + 2.3) := by positivity
    have := (mul_le_mul_of_nonneg_left six q0).trans q
    have := mul_le_mul_of_nonneg_right this pp.le
    rw [s]
    linarith) (by norm_num)
  have e1 : Double.shearStiffness fl pw Gc G ν' α' =
      fl (fl (fl (-(-fl (-(-fl (-(fl 1e-2 * Q1)) * P1))) * fl (α' ^ 2)) + fl (fl (Q2 * P2) * α')) +
        fl (fl (fl 1e-4 * Q3) * P3)) := by
    simp only [neg_neg, neg_mul]
    simp only [Double.shearStiffness, neg_mul]
    rfl
  have e2 : Published.cementTangential ν G Gc α = -(0.01 * (2.26 * ν ^ 2 + 2.07 * ν + 2.3) * Λ ^ E1) * α ^ 2 +
      (0.0573 * ν ^ 2 + 0.0937 * ν + 0.202) * Λ ^ E2 * α + 1e-4 * (9.654 * ν ^ 2 + 4.945 * ν + 3.1) * Λ ^ E3 := by
    unfold Published.cementTangential
    simp only [← hΛ, ← hE1, ← hE2, ← hE3]; norm_num
  rw [e1, e2]
  exact key.mono (by norm_num)

/-- The radius ratio. -/
theorem radius_near (hf : RoundsToNearest fl) (hp : PowerAccurate pw) {φ φc : ℝ} (h : φ < φc) (hc : φc < 1) :
    Near 8 (Published.radiusRatio φc φ) (Double.radiusRatio fl pw φ φc) ∧ 0 < Published.radiusRatio φc φ ∧
      Published.radiusRatio φc φ ≤ 1 := by
  have p1 : 0 < φc - φ := by linarith
  have p2 : 0 < 1 - φc := by linarith
  have n1 := ((Near.refl 0 (x := (2:ℝ)) (by norm_num)).mul (Near.fl0 hf p1.le)).fl hf
  have n2 := ((Near.refl 0 (x := (3:ℝ)) (by norm_num)).mul (Near.fl0 hf p2.le)).fl hf
  have n3 := (n1.div n2 (by positivity)).fl hf
  have p3 : 0 < 2 * (φc - φ) / (3 * (1 - φc)) := by positivity
  have n4 := (n3.rpow p3 (p := 0.5) (by norm_num) (by norm_num)).trans (pw_near hp (n3.pos p3) 0.5)
  have e : Published.cementRadius φc φ = (2 * (φc - φ) / (3 * (1 - φc))) ^ (0.5 : ℝ) := by
    unfold Published.cementRadius; norm_num
  refine ⟨?_, lt_min one_pos (by rw [e]; exact Real.rpow_pos_of_pos p3 _), min_le_left _ _⟩
  unfold Published.radiusRatio Double.radiusRatio
  rw [e]
  exact Near.min (Near.refl 8 zero_le_one) (n4.mono (by omega))

/-- The density of cemented sand: the weight of the grains may vanish. -/
theorem cement_density_near (hf : RoundsToNearest fl) {α α' a b : ℝ} (hα : Near 8 α α') (h1 : α ≤ 1) (ha : 0 < a) (hb : 0 < b)
    (hab : b ≤ 4 * a) : Near 181 (α * a + (1 - α) * b) (fl (fl (α' * a) + fl (fl (1 - α') * b))) := by
  have hu := unit_pos
  have hu1 := unit_le
  have hα0 := hα.1
  have e0 := hα.abs_le (by norm_num)
  norm_num at e0
  have m1 := ((hα.mul (Near.refl 0 ha.le)).fl hf).abs_le (by norm_num)
  norm_num at m1
  have e1 := hf.error (1 - α')
  have t1 : |1 - α'| ≤ |α' - α| + (1 - α) := by
    have : 1 - α' = -(α' - α) + (1 - α) := by ring
    rw [this]
    refine (abs_add_le _ _).trans ?_
    rw [abs_neg, abs_of_nonneg (by linarith : 0 ≤ 1 - α)]
  have uα : 0 ≤ unit * α := by positivity
  have uu : unit * (unit * α) ≤ 1e-6 * (unit * α) := mul_le_mul_of_nonneg_right (hu1.trans (by norm_num)) uα
  have uβ : 0 ≤ unit * (1 - α) := mul_nonneg hu.le (by linarith)
  have uuβ : unit * (unit * (1 - α)) ≤ 1e-6 * (unit * (1 - α)) := mul_le_mul_of_nonneg_right (hu1.trans (by norm_num)) uβ
  have w : |fl (1 - α') - (1 - α)| ≤ 17 * (unit * α) + unit * (1 - α) := by
    have : fl (1 - α') - (1 - α) = (fl (1 - α') - (1 - α')) + -(α' - α) := by ring
    rw [this]
    refine (abs_add_le _ _).trans ?_
    rw [abs_neg]
    have q := mul_le_mul_of_nonneg_left (t1.trans (add_le_add_left e0 _)) hu.le
    norm_num at uu
    linarith
  set v := fl (1 - α')
  have e2 := hf.error (v * b)
  have t2 : |v * b| ≤ (17 * (unit * α) + unit * (1 - α) + (1 - α)) * b := by
    rw [abs_mul, abs_of_pos hb]
    refine mul_le_mul_of_nonneg_right ?_ hb.le
    have := abs_add_le (v - (1 - α)) (1 - α)
    rw [sub_add_cancel, abs_of_nonneg (by linarith : 0 ≤ 1 - α)] at this
    linarith
  have m2 : |fl (v * b) - (1 - α) * b| ≤ (18 * (unit * α) + 3 * (unit * (1 - α))) * b := by
    have : fl (v * b) - (1 - α) * b = (fl (v * b) - v * b) + (v - (1 - α)) * b := by ring
    rw [this]
    refine (abs_add_le _ _).trans ?_
    have s1 : |(v - (1 - α)) * b| ≤ (17 * (unit * α) + unit * (1 - α)) * b := by
      rw [abs_mul, abs_of_pos hb]; exact mul_le_mul_of_nonneg_right w hb.le
    have s2 := e2.trans (mul_le_mul_of_nonneg_left t2 hu.le)
    have c1 : unit * ((17 * (unit * α) + unit * (1 - α) + (1 - α)) * b) ≤ (unit * α + 2 * (unit * (1 - α))) * b := by
      rw [← mul_assoc]
      refine mul_le_mul_of_nonneg_right ?_ hb.le
      norm_num at uu uuβ
      linarith
    linarith
  have B := mul_le_mul_of_nonneg_left hab uα
  have S : 0 ≤ α * a + (1 - α) * b := add_nonneg (by positivity) (mul_nonneg (by linarith) hb.le)
  refine Near.fl hf (k := 180) (Near.of_relative (ε := 90 * unit) S ?_ ?_ ?_ (by positivity))
  · have : fl (α' * a) + fl (v * b) - (α * a + (1 - α) * b) = (fl (α' * a) - α * a) + (fl (v * b) - (1 - α) * b) := by ring
    rw [this]
    refine (abs_add_le _ _).trans ?_
    have := mul_nonneg uβ hb.le
    have := mul_nonneg uα ha.le
    linarith
  · norm_num at hu1 ⊢; linarith
  · push_cast; linarith

/-- Contact cement in double arithmetic. -/
theorem contactCement_near (hf : RoundsToNearest fl) (hp : PowerAccurate pw) {cement grain : Published.Rock} {φ φc f C : ℝ}
    (hc : 0 < cement.K ∧ 0 < cement.G ∧ 0 < cement.ρ) (hg : 0 < grain.K ∧ 0 < grain.G ∧ 0 < grain.ρ)
    (hφ : φ < φc) (hφc : φc < 1) (hC : 0 ≤ C) (hf0 : 0 ≤ f)
    (hν : 0 ≤ Published.poisson grain.K grain.G ∧ Published.poisson grain.K grain.G ≤ 0.4)
    (hνc : 0 ≤ Published.poisson cement.K cement.G ∧ Published.poisson cement.K cement.G ≤ 0.4)
    (h1 : 0.1 * grain.G ≤ cement.G) (h2 : cement.G ≤ 10 * grain.G) (hρ : grain.ρ ≤ 4 * cement.ρ) :
    NearRock 18050 (Published.contactCement cement grain φ φc f C)
      (Double.contactCement fl pw (tri cement) (tri grain) φ φc f C) ∧
    Near 183 (Published.contactCement cement grain φ φc f C).ρ
      (Double.contactCement fl pw (tri cement) (tri grain) φ φc f C).2.2 := by
  obtain ⟨nα, α0, α1⟩ := radius_near hf hp hφ hφc
  have bx : ∀ {K G : ℝ}, 0 < K → 0 < G → 0 ≤ Published.poisson K G → Published.poisson K G ≤ 0.4 →
      Box 0.4 7.85e-16 (Published.poisson K G) (Double.poisson fl K G) := by
    intro K G hK hG a b
    refine ⟨by rw [abs_of_nonneg a]; exact b, (poisson_error hf hK hG).trans ?_⟩
    change 7 * unit * (1 - Published.poisson K G) ≤ _
    have u : 7 * unit ≤ 7.85e-16 := by unfold unit; norm_num
    exact (mul_le_of_le_one_right (by have := unit_pos; positivity) (by linarith)).trans u
  have nn := normal_near hf hp hν.1 hν.2 hνc.1 hνc.2 (one_sub_poisson_near hf hg.1 hg.2.1).1
    (one_sub_poisson_near hf hc.1 hc.2.1).1 (bx hc.1 hc.2.1 hνc.1 hνc.2) hg.2.1 h1 h2 nα α1
  have nt := tangential_near hf hp hν.1 hν.2 (bx hg.1 hg.2.1 hν.1 hν.2) hg.2.1 h1 h2 nα α1
  have nψ : Near 1 (1 - φc) (fl (1 - φc)) := Near.fl0 hf (by linarith)
  have n6 := ((Near.fl0 hf (by norm_num : (0:ℝ) ≤ 1 / 6)).mul (Near.refl 0 hC)).fl hf
  have n7 := (n6.mul nψ).fl hf
  have n8 := ((Near.refl 0 hc.1.le).add (((Near.fl0 hf (by norm_num : (0:ℝ) ≤ 4 / 3)).mul (Near.refl 0 hc.2.1.le)).fl hf)).fl hf
  have nk := (((n7.mul n8).fl hf).mul nn).fl hf
  have m1 := ((Near.fl0 hf (by norm_num : (0:ℝ) ≤ 3 / 5)).mul nk).fl hf
  have m2 := ((Near.refl 0 hf0).mul (Near.fl0 hf (by norm_num : (0:ℝ) ≤ 3 / 20))).fl hf
  have m3 := ((((m2.mul (Near.refl 0 hC)).fl hf).mul nψ).fl hf)
  have m4 := ((((m3.mul (Near.refl 0 hc.2.1.le)).fl hf).mul nt).fl hf)
  have nm := (m1.add m4).fl hf
  have nρ := ((Near.fl0 hf (by linarith : (0:ℝ) ≤ 1 - φ)).mul (cement_density_near hf nα α1 hc.2.2 hg.2.2 hρ)).fl hf
  have eG : (Published.contactCement cement grain φ φc f C).G = 3 / 5 * (1 / 6 * C * (1 - φc) * (cement.K + 4 / 3 * cement.G) *
      Published.cementNormal (Published.poisson grain.K grain.G) (Published.poisson cement.K cement.G) grain.G cement.G
        (Published.radiusRatio φc φ)) + f * (3 / 20) * C * (1 - φc) * cement.G *
      Published.cementTangential (Published.poisson grain.K grain.G) grain.G cement.G (Published.radiusRatio φc φ) := by
    simp only [Published.contactCement, Published.cementedShear, Published.cementedBulk]; ring
  refine ⟨⟨nk.mono (by norm_num), ?_, nρ.mono (by norm_num)⟩, nρ.mono (by norm_num)⟩
  rw [eG]
  exact nm.mono (by norm_num)

/-- **C192.** Contact cement in double arithmetic: bulk and shear modulus to 20000 units of `2⁻⁵²` (less than 5e-12 of the value),
density to 200. -/
theorem C192_contact_cement (hfl : RoundsToNearest fl) (hp : PowerAccurate pw) {cement grain : Published.Rock} {φ φc f C : ℝ}
    (hc : 0 < cement.K ∧ 0 < cement.G ∧ 0 < cement.ρ) (hg : 0 < grain.K ∧ 0 < grain.G ∧ 0 < grain.ρ)
    (hφ : φ < φc) (hφc : φc < 1) (hC : 0 ≤ C) (hf : 0 ≤ f)
    (hν : 0 ≤ Published.poisson grain.K grain.G ∧ Published.poisson grain.K grain.G ≤ 0.4)
    (hνc : 0 ≤ Published.poisson cement.K cement.G ∧ Published.poisson cement.K cement.G ≤ 0.4)
    (h1 : 0.1 * grain.G ≤ cement.G) (h2 : cement.G ≤ 10 * grain.G) (hρ : grain.ρ ≤ 4 * cement.ρ) :
    Accurate 20000 (Published.contactCement cement grain φ φc f C).K
        (Double.contactCement fl pw (tri cement) (tri grain) φ φc f C).1 ∧
      Accurate 20000 (Published.contactCement cement grain φ φc f C).G
        (Double.contactCement fl pw (tri cement) (tri grain) φ φc f C).2.1 ∧
      Accurate 200 (Published.contactCement cement grain φ φc f C).ρ
        (Double.contactCement fl pw (tri cement) (tri grain) φ φc f C).2.2 := by
  obtain ⟨⟨a, b, -⟩, d⟩ := contactCement_near hfl hp hc hg hφ hφc hC hf hν hνc h1 h2 hρ
  refine ⟨?_, ?_, ?_⟩
  · exact_mod_cast (a.mono (by norm_num : 18050 ≤ 20000)).accurate (by norm_num)
  · exact_mod_cast (b.mono (by norm_num : 18050 ≤ 20000)).accurate (by norm_num)
  · exact_mod_cast (d.mono (by norm_num : 183 ≤ 200)).accurate (by norm_num)

/-- Quartz grains with calcite cement (moduli in GPa, density in g/cm³), grain pack porosity 0.4, cemented porosity 0.35. -/
example : ∃ (cement grain : Published.Rock) (φ φc f C : ℝ), (0 < cement.K ∧ 0 < cement.G ∧ 0 < cement.ρ) ∧
    (0 < grain.K ∧ 0 < grain.G ∧ 0 < grain.ρ) ∧ φ < φc ∧ φc < 1 ∧ 0 ≤ C ∧ 0 ≤ f ∧
    (0 ≤ Published.poisson grain.K grain.G ∧ Published.poisson grain.K grain.G ≤ 0.4) ∧
    (0 ≤ Published.poisson cement.K cement.G ∧ Published.poisson cement.K cement.G ≤ 0.4) ∧
    0.1 * grain.G ≤ cement.G ∧ cement.G ≤ 10 * grain.G ∧ grain.ρ ≤ 4 * cement.ρ :=
  ⟨⟨76.8, 32, 2.71⟩, ⟨36.6, 45, 2.65⟩, 0.35, 0.4, 1, 9, by norm_num, by norm_num, by norm_num, by norm_num, by norm_num, by norm_num,
    by norm_num [Published.poisson], by norm_num [Published.poisson], by norm_num, by norm_num, by norm_num⟩

end OPE
