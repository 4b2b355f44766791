import Verif.Props.Trends2
import Verif.Props.BatzleWang3

/-!
# C179: trends of the dead oil velocity and bulk modulus

Model: `deadOil` of `Model/BatzleWang.lean` (oil_properties.py:270-358).
-/

namespace OPE
variable {n : ℕ}

/-- The root in equation 20a is at most 1.2 for reference densities from 450 kg/m³ on. -/
theorem oil_root_bound {r : ℝ} (hr : 0.45 ≤ r) (hr' : r ≤ 1.08) :
    0 ≤ (1.08 / r - 1) ^ (1 / 2 : ℝ) ∧ (1.08 / r - 1) ^ (1 / 2 : ℝ) ≤ 1.2 := by
  have h0 : 0 < r := by norm_num at hr; linarith
  refine ⟨Real.rpow_nonneg (sub_nonneg.mpr ((one_le_div h0).mpr hr')) _, ?_⟩
  rw [← Real.sqrt_eq_rpow]
  refine Real.sqrt_le_iff.mpr ⟨by norm_num, ?_⟩
  rw [sub_le_iff_le_add, div_le_iff₀ h0]
  norm_num at hr ⊢
  linarith

/-- Equation 20a: hotter oil is slower, oil under more pressure is faster, strictly. -/
theorem oilVelocity_trend {T T' P P' r : ℝ} (hr : 0.45 ≤ r) (hr' : r ≤ 1.08) (hT : 0 ≤ T) (hTT : T ≤ T')
    (hT' : T' ≤ 400) (hP' : 0 ≤ P') (hPP : P' ≤ P) (hP : P ≤ 80) (hlt : T < T' ∨ P' < P) :
    Published.oilVelocity T' P' r < Published.oilVelocity T P r := by
  obtain ⟨q0, q1⟩ := oil_root_bound hr hr'
  unfold Published.oilVelocity
  generalize (1.08 / r - 1) ^ (1 / 2 : ℝ) = q at q0 q1 ⊢
  have k1 : 0 < 3.7 - 0.0115 * (4.12 * q - 1) * P' := by
    have : (4.12 * q - 1) * P' ≤ 3.944 * 80 :=
      mul_le_mul (by norm_num at q1 ⊢; linarith) (hPP.trans hP) hP' (by norm_num)
    norm_num at this ⊢
    linarith
  have k2 : 0 < 4.64 + 0.0115 * (4.12 * q - 1) * T := by
    have : 0 ≤ q * T := mul_nonneg q0 hT
    norm_num
    linarith
  have key : 0 < (T' - T) * (3.7 - 0.0115 * (4.12 * q - 1) * P')
      + (P - P') * (4.64 + 0.0115 * (4.12 * q - 1) * T) := by
    rcases hlt with h | h
    · exact add_pos_of_pos_of_nonneg (mul_pos (sub_pos.mpr h) k1) (mul_nonneg (sub_nonneg.mpr hPP) k2.le)
    · exact add_pos_of_nonneg_of_pos (mul_nonneg (sub_nonneg.mpr hTT) k1.le) (mul_pos (sub_pos.mpr h) k2)
  refine sub_pos.mp (lt_of_lt_of_eq key ?_)
  ring

/-- **C179.** Dead oil of reference density 450 … 1049 kg/m³ between 0 and 400 °C and up to 73 MPa: whenever
`dead_oil` returns for two conditions of which the second is no colder and under no more pressure, and differs in
one of them, the second carries sound strictly slower and has a strictly smaller bulk modulus. -/
theorem C179_dead_oil_stiffness_trends {T T' P P' R : ℝ} {m m' : Mat 1} (hR : 450 ≤ R) (hR' : R ≤ 1049)
    (hT : 0 ≤ T) (hTT : T ≤ T') (hT' : T' ≤ 400) (hP' : 0 ≤ P') (hPP : P' ≤ P) (hP : P ≤ 73e6)
    (hlt : T < T' ∨ P' < P)
    (h : deadOil (c T) (c P) (c R) = .ok m) (h' : deadOil (c T') (c P') (c R) = .ok m') :
    m'.vp 0 < m.vp 0 ∧ m'.bulk 0 < m.bulk 0 := by
  have hd := C64_dead_oil_trends (by linarith) (hP'.trans hPP) (by linarith) hTT hPP hP hlt hP' h h'
  obtain ⟨d, v⟩ := (C94_oil (n := 1) (fun _ => T) (fun _ => P) (fun _ => R) (fun _ => 0) (fun _ => 0)
    (fun _ => by linarith) (fun _ => ⟨by linarith, hR'⟩) (fun _ => le_rfl) (fun _ => le_rfl) m).1 h
  obtain ⟨d', v'⟩ := (C94_oil (n := 1) (fun _ => T') (fun _ => P') (fun _ => R) (fun _ => 0) (fun _ => 0)
    (fun _ => by linarith) (fun _ => ⟨by linarith, hR'⟩) (fun _ => le_rfl) (fun _ => le_rfl) m').1 h'
  have e := fluidVelocity_ok h
  have e' := fluidVelocity_ok h'
  have nn := fluidVelocity_ok_nonneg (n := 1) (m := m')
    (ρ := fun _ => 1000 * Published.deadOilDensity T' (P' * 1e-6) (R / 1000))
    (v := fun _ => Published.oilVelocity T' (P' * 1e-6) (R / 1000)) (by
      have : deadOil (c T') (c P') (c R) = fluidVelocity m'.density m'.vp := by rw [e'.1, e'.2.1]; rfl
      rw [← d', ← v', ← this, h']) 0
  have u : (0:ℝ) < 1e-6 := by norm_num
  have lt : Published.oilVelocity T' (P' * 1e-6) (R / 1000) < Published.oilVelocity T (P * 1e-6) (R / 1000) := by
    apply oilVelocity_trend (by linarith) (by norm_num; linarith) hT hTT hT' (mul_nonneg hP' u.le)
      (mul_le_mul_of_nonneg_right hPP u.le) (by norm_num at hP ⊢; linarith)
    rcases hlt with q | q
    · exact .inl q
    · exact .inr (mul_lt_mul_of_pos_right q u)
  rw [d, d'] at hd
  rw [v, v']
  refine ⟨by simpa using lt, ?_⟩
  rw [e.2.2.2.1, e'.2.2.2.1, ← e.1, ← e'.1, ← e.2.1, ← e'.2.1, d, d', v, v']
  simp only [calcBulk, finC_apply, c_apply, Num.fin_powi_two, Num.fin_mul, Num.fin_sub, Num.fin_lt] at hd ⊢
  have := mul_lt_mul'' hd (pow_lt_pow_left₀ lt nn.2 (by norm_num : 2 ≠ 0)) nn.1 (sq_nonneg _)
  linarith

/-- Witness: an 850 kg/m³ oil brought from 20 °C and 50 MPa to 90 °C and 10 MPa. -/
example : ∃ m m' : Mat 1, deadOil (c 20) (c 50e6) (c 850) = .ok m ∧ deadOil (c 90) (c 10e6) (c 850) = .ok m' ∧
    m'.vp 0 < m.vp 0 ∧ m'.bulk 0 < m.bulk 0 := by
  obtain ⟨m, _, _, _, h, -⟩ := C78_dead_oil_defined (n := 1) (fun _ => 20) (fun _ => 50e6) (fun _ => 850)
    (fun _ => by norm_num) (fun _ => by norm_num) (fun _ => by norm_num)
  obtain ⟨m', _, _, _, h', -⟩ := C78_dead_oil_defined (n := 1) (fun _ => 90) (fun _ => 10e6) (fun _ => 850)
    (fun _ => by norm_num) (fun _ => by norm_num) (fun _ => by norm_num)
  exact ⟨m, m', h, h', C179_dead_oil_stiffness_trends (by norm_num) (by norm_num) (by norm_num) (by norm_num)
    (by norm_num) (by norm_num) (by norm_num) (by norm_num) (.inl (by norm_num)) h h'⟩

end OPE
