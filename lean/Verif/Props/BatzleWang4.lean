import Verif.Props.BatzleWang3

/-!
# Water and brine are defined on their usual range (C80)
-/

namespace OPE

open Classical

variable {n : ℕ}

theorem waterDensity_pos {T P : ℝ} (hT : 0 ≤ T ∧ T ≤ 350) (hP : 0 ≤ P ∧ P ≤ 100) :
    0.6 ≤ 1 + 489e-6 * P - 333e-9 * P ^ 2 + T * (-8e-5 - 2e-6 * P - 2e-9 * P ^ 2)
      + T ^ 2 * (-33e-7 + 16e-9 * P) + T ^ 3 * (1.75e-9 - 13e-12 * P) := by
  obtain ⟨hT0, hT1⟩ := hT
  obtain ⟨hP0, hP1⟩ := hP
  obtain ⟨a, ha⟩ : ∃ a, a = 350 - T := ⟨_, rfl⟩
  obtain ⟨b, hb⟩ : ∃ b, b = 100 - P := ⟨_, rfl⟩
  have ha0 : 0 ≤ a := by linarith
  have hb0 : 0 ≤ b := by linarith
  -- Bernstein form on the range
  have h : 0 ≤ (1 / 1071875000000) * a ^ 3 * b ^ 2
      + (8489 / 4287500000000000) * a ^ 3 * P ^ 1 * b ^ 1
      + (44557 / 42875000000000000) * a ^ 3 * P ^ 2
      + (293 / 107187500000000) * T ^ 1 * a ^ 2 * b ^ 2
      + (24207 / 4287500000000000) * T ^ 1 * a ^ 2 * P ^ 1 * b ^ 1
      + (123171 / 42875000000000000) * T ^ 1 * a ^ 2 * P ^ 2
      + (2959 / 1715000000000000) * T ^ 2 * a ^ 1 * b ^ 2
      + (8411 / 2143750000000000) * T ^ 2 * a ^ 1 * P ^ 1 * b ^ 1
      + (45923 / 21437500000000000) * T ^ 2 * a ^ 1 * P ^ 2
      + (1369 / 13720000000000000) * T ^ 3 * b ^ 2
      + (8189 / 17150000000000000) * T ^ 3 * P ^ 1 * b ^ 1
      + (121291 / 343000000000000000) * T ^ 3 * P ^ 2 := by positivity
  refine sub_nonneg.mp (le_of_le_of_eq h ?_)
  rw [ha, hb]
  ring

theorem waterVelocity_pos {T P : ℝ} (hT : 0 ≤ T ∧ T ≤ 350) (hP : 0 ≤ P ∧ P ≤ 100) :
    300 ≤ 1402.85 + 1.524 * P + 3.437e-3 * P ^ 2 - 1.197e-5 * P ^ 3
      + T * (4.871 - 1.11e-2 * P + 1.739e-4 * P ^ 2 - 1.628e-6 * P ^ 3)
      + T ^ 2 * (-4.783e-2 + 2.747e-4 * P - 2.135e-6 * P ^ 2 + 1.237e-8 * P ^ 3)
      + T ^ 3 * (1.487e-4 - 6.503e-7 * P - 1.455e-8 * P ^ 2 + 1.327e-10 * P ^ 3)
      + T ^ 4 * (-2.197e-7 + 7.987e-10 * P + 5.23e-11 * P ^ 2 - 4.614e-13 * P ^ 3) := by
  obtain ⟨hT0, hT1⟩ := hT
  obtain ⟨hP0, hP1⟩ := hP
  obtain ⟨a, ha⟩ : ∃ a, a = 350 - T := ⟨_, rfl⟩
  obtain ⟨b, hb⟩ : ∃ b, b = 100 - P := ⟨_, rfl⟩
  have ha0 : 0 ≤ a := by linarith
  have hb0 : 0 ≤ b := by linarith
  have h : 0 ≤ (3151 / 42875000000000000) * a ^ 4 * b ^ 3
      + (69219 / 300125000000000000) * a ^ 4 * P ^ 1 * b ^ 2
      + (91193 / 375156250000000000) * a ^ 4 * P ^ 2 * b ^ 1
      + (25553 / 300125000000000000) * a ^ 4 * P ^ 3
      + (699 / 1715000000000000) * T ^ 1 * a ^ 3 * b ^ 3
      + (371397 / 300125000000000000) * T ^ 1 * a ^ 3 * P ^ 1 * b ^ 2
      + (488427 / 375156250000000000) * T ^ 1 * a ^ 3 * P ^ 2 * b ^ 1
      + (32329 / 75031250000000000) * T ^ 1 * a ^ 3 * P ^ 3
      + (33557 / 85750000000000000) * T ^ 2 * a ^ 2 * b ^ 3
      + (103657 / 75031250000000000) * T ^ 2 * a ^ 2 * P ^ 1 * b ^ 2
      + (2326217 / 1500625000000000000) * T ^ 2 * a ^ 2 * P ^ 2 * b ^ 1
      + (162747 / 300125000000000000) * T ^ 2 * a ^ 2 * P ^ 3
      + (47807 / 171500000000000000) * T ^ 3 * a ^ 1 * b ^ 3
      + (12748341 / 12005000000000000000) * T ^ 3 * a ^ 1 * P ^ 1 * b ^ 2
      + (3926353 / 6002500000000000000) * T ^ 3 * a ^ 1 * P ^ 2 * b ^ 1
      + (4021161 / 12005000000000000000) * T ^ 3 * a ^ 1 * P ^ 3
      + (887 / 490000000000000000) * T ^ 4 * b ^ 3
      + (25933697 / 240100000000000000000) * T ^ 4 * P ^ 1 * b ^ 2
      + (11191281 / 60025000000000000000) * T ^ 4 * P ^ 2 * b ^ 1
      + (14452997 / 240100000000000000000) * T ^ 4 * P ^ 3 := by positivity
  refine sub_nonneg.mp (le_of_le_of_eq h ?_)
  rw [ha, hb]
  ring

/-- What `brine_density` adds to water. -/
theorem brineDensity_fin (T P S : ℝ) : brineDensity (.fin T) (.fin P) (.fin S) = .fin
    ((1 + 489e-6 * P - 333e-9 * P ^ 2 + T * (-8e-5 - 2e-6 * P - 2e-9 * P ^ 2)
      + T ^ 2 * (-33e-7 + 16e-9 * P) + T ^ 3 * (1.75e-9 - 13e-12 * P))
      + S * (0.668 + 3e-4 * P + T * (8e-5 - 13e-6 * P) + 3e-6 * T ^ 2
        + S * (0.44 - 24e-4 * P + T * (-33e-4 + 47e-6 * P)))) := by
  unfold brineDensity
  rw [waterDensity_fin, polyval3d_fin, Num.fin_mul, Num.fin_add]
  congr 2
  simp only [Fin.sum_univ_succ, Finset.univ_eq_empty, Finset.sum_empty, Fin.val_zero, Fin.val_succ,
    Matrix.cons_val_zero, Matrix.cons_val_succ]
  norm_num
  left
  ring

theorem brineVelocity_fin {T P S : ℝ} (hS : 0 ≤ S) : brineVelocity (.fin T) (.fin P) (.fin S) = .fin
    ((1402.85 + 1.524 * P + 3.437e-3 * P ^ 2 - 1.197e-5 * P ^ 3
      + T * (4.871 - 1.11e-2 * P + 1.739e-4 * P ^ 2 - 1.628e-6 * P ^ 3)
      + T ^ 2 * (-4.783e-2 + 2.747e-4 * P - 2.135e-6 * P ^ 2 + 1.237e-8 * P ^ 3)
      + T ^ 3 * (1.487e-4 - 6.503e-7 * P - 1.455e-8 * P ^ 2 + 1.327e-10 * P ^ 3)
      + T ^ 4 * (-2.197e-7 + 7.987e-10 * P + 5.23e-11 * P ^ 2 - 4.614e-13 * P ^ 3))
      + (S * (1170 + 2.6 * P - 0.0476 * P ^ 2 - 9.6 * T - 29e-4 * T * P + 0.055 * T ^ 2 - 8.5e-5 * T ^ 3)
        + S * Real.sqrt S * (780 - 10 * P + 0.16 * P ^ 2) - 820 * S ^ 2)) := by
  unfold brineVelocity
  rw [waterVelocity_fin, Num.fin_sqrt hS, polyval3d_fin, Num.fin_mul, Num.fin_add]
  congr 2
  have hs : Real.sqrt S ^ 2 = S := Real.sq_sqrt hS
  simp only [Fin.sum_univ_succ, Finset.univ_eq_empty, Finset.sum_empty, Fin.val_zero, Fin.val_succ,
    Matrix.cons_val_zero, Matrix.cons_val_succ]
  norm_num [hs]
  ring

theorem brineDensity_pos {T P S : ℝ} (hT : 0 ≤ T ∧ T ≤ 350) (hP : 0 ≤ P ∧ P ≤ 100) (hS : 0 ≤ S ∧ S ≤ 0.3) :
    0 ≤ S * (0.668 + 3e-4 * P + T * (8e-5 - 13e-6 * P) + 3e-6 * T ^ 2
        + S * (0.44 - 24e-4 * P + T * (-33e-4 + 47e-6 * P))) := by
  obtain ⟨hT0, hT1⟩ := hT
  obtain ⟨hP0, hP1⟩ := hP
  obtain ⟨hS0, hS1⟩ := hS
  obtain ⟨a, ha⟩ : ∃ a, a = 350 - T := ⟨_, rfl⟩
  obtain ⟨b, hb⟩ : ∃ b, b = 100 - P := ⟨_, rfl⟩
  obtain ⟨d, hd⟩ : ∃ d, d = 0.3 - S := ⟨_, rfl⟩
  have ha0 : 0 ≤ a := by linarith
  have hb0 : 0 ≤ b := by linarith
  have hd0 : 0 ≤ d := by linarith
  apply mul_nonneg hS0
  have h : 0 ≤ (167 / 918750000) * a ^ 2 * b ^ 1 * d ^ 1
      + (1 / 4593750) * a ^ 2 * b ^ 1 * S ^ 1
      + (349 / 1837500000) * a ^ 2 * P ^ 1 * d ^ 1
      + (379 / 1837500000) * a ^ 2 * P ^ 1 * S ^ 1
      + (341 / 918750000) * T ^ 1 * a ^ 1 * b ^ 1 * d ^ 1
      + (2563 / 7350000000) * T ^ 1 * a ^ 1 * b ^ 1 * S ^ 1
      + (323 / 1225000000) * T ^ 1 * a ^ 1 * P ^ 1 * d ^ 1
      + (103 / 306250000) * T ^ 1 * a ^ 1 * P ^ 1 * S ^ 1
      + (709 / 2450000000) * T ^ 2 * b ^ 1 * d ^ 1
      + (283 / 1225000000) * T ^ 2 * b ^ 1 * S ^ 1
      + (1277 / 7350000000) * T ^ 2 * P ^ 1 * d ^ 1
      + (1691 / 7350000000) * T ^ 2 * P ^ 1 * S ^ 1 := by positivity
  refine le_of_le_of_eq h ?_
  rw [ha, hb, hd]
  ring

theorem brineVelocity_pos {T P S : ℝ} (hT : 0 ≤ T ∧ T ≤ 350) (hP : 0 ≤ P ∧ P ≤ 100) (hS : 0 ≤ S ∧ S ≤ 0.3) :
    -100 ≤ (S * (1170 + 2.6 * P - 0.0476 * P ^ 2 - 9.6 * T - 29e-4 * T * P + 0.055 * T ^ 2 - 8.5e-5 * T ^ 3)
        + S * Real.sqrt S * (780 - 10 * P + 0.16 * P ^ 2) - 820 * S ^ 2) := by
  obtain ⟨hT0, hT1⟩ := hT
  obtain ⟨hP0, hP1⟩ := hP
  obtain ⟨hS0, hS1⟩ := hS
  have a1 : 0 ≤ 1170 + 2.6 * P - 0.0476 * P ^ 2 - 9.6 * T - 29e-4 * T * P + 0.055 * T ^ 2 - 8.5e-5 * T ^ 3 := by
    obtain ⟨a, ha⟩ : ∃ a, a = 350 - T := ⟨_, rfl⟩
    obtain ⟨b, hb⟩ : ∃ b, b = 100 - P := ⟨_, rfl⟩
    have ha0 : 0 ≤ a := by linarith
    have hb0 : 0 ≤ b := by linarith
    have h : 0 ≤ (117 / 5252187500000000) * a ^ 5 * b ^ 2
      + (13 / 262609375000000) * a ^ 5 * P ^ 1 * b ^ 1
      + (477 / 26260937500000000) * a ^ 5 * P ^ 2
      + (249 / 5252187500000000) * T ^ 1 * a ^ 4 * b ^ 2
      + (12357 / 105043750000000000) * T ^ 1 * a ^ 4 * P ^ 1 * b ^ 1
      + (2617 / 105043750000000000) * T ^ 1 * a ^ 4 * P ^ 2
      + (1999 / 21008750000000000) * T ^ 2 * a ^ 3 * b ^ 2
      + (12189 / 52521875000000000) * T ^ 2 * a ^ 3 * P ^ 1 * b ^ 1
      + (4863 / 105043750000000000) * T ^ 2 * a ^ 3 * P ^ 2
      + (12973 / 84035000000000000) * T ^ 3 * a ^ 2 * b ^ 2
      + (72829 / 210087500000000000) * T ^ 3 * a ^ 2 * P ^ 1 * b ^ 1
      + (42713 / 420175000000000000) * T ^ 3 * a ^ 2 * P ^ 2
      + (4267 / 42017500000000000) * T ^ 4 * a ^ 1 * b ^ 2
      + (23123 / 105043750000000000) * T ^ 4 * a ^ 1 * P ^ 1 * b ^ 1
      + (15391 / 210087500000000000) * T ^ 4 * a ^ 1 * P ^ 2
      + (289 / 16807000000000000) * T ^ 5 * b ^ 2
      + (7859 / 210087500000000000) * T ^ 5 * P ^ 1 * b ^ 1
      + (937 / 84035000000000000) * T ^ 5 * P ^ 2 := by positivity
    refine le_of_le_of_eq h ?_
    rw [ha, hb]
    ring
  have a2 : 0 ≤ 780 - 10 * P + 0.16 * P ^ 2 := by
    have : 0 ≤ (P - 31) ^ 2 := sq_nonneg _
    norm_num at *
    linarith
  have a3 : S ^ 2 ≤ 0.09 := by norm_num at *; nlinarith
  have b1 := mul_nonneg hS0 a1
  have b2 := mul_nonneg (mul_nonneg hS0 (Real.sqrt_nonneg S)) a2
  norm_num at *
  linarith

/-- **C80.** For 0..350 C, 0..100 MPa and (brine) 0..300000 ppm salinity, `water` (MPa) and `brine` (Pa)
return, with densities of at least 0.6 g/cc and 600 kg/m3 and velocities of at least 200 m/s; salt
never makes the brine lighter than fresh water. -/
theorem C80_brine_defined (T P S : Fin n → ℝ) (hT : ∀ i, 0 ≤ T i ∧ T i ≤ 350)
    (hP : ∀ i, 0 ≤ P i ∧ P i ≤ 100e6) (hS : ∀ i, 0 ≤ S i ∧ S i ≤ 300000) :
    ∃ w b ρw vw ρb vb, water (finC T) (finC fun i => P i * 1e-6) = .ok w ∧
      brine (finC T) (finC P) (finC S) = .ok b ∧
      w.density = finC ρw ∧ w.vp = finC vw ∧ b.density = finC ρb ∧ b.vp = finC vb ∧
      ∀ i, 0.6 ≤ ρw i ∧ 300 ≤ vw i ∧ 1000 * ρw i ≤ ρb i ∧ 200 ≤ vb i := by
  have hP' : ∀ i, 0 ≤ P i * 1e-6 ∧ P i * 1e-6 ≤ 100 := fun i => by
    have := hP i; norm_num at *; constructor <;> linarith
  have hS' : ∀ i, 0 ≤ S i * 1e-6 ∧ S i * 1e-6 ≤ 0.3 := fun i => by
    have := hS i; norm_num at *; constructor <;> linarith
  obtain ⟨ρw, hρw⟩ : ∃ f : Fin n → ℝ, ∀ i, waterDensity (.fin (T i)) (.fin (P i * 1e-6)) = .fin (f i) ∧
      0.6 ≤ f i := ⟨_, fun i => ⟨waterDensity_fin _ _, waterDensity_pos (hT i) (hP' i)⟩⟩
  obtain ⟨vw, hvw⟩ : ∃ f : Fin n → ℝ, ∀ i, waterVelocity (.fin (T i)) (.fin (P i * 1e-6)) = .fin (f i) ∧
      300 ≤ f i := ⟨_, fun i => ⟨waterVelocity_fin _ _, waterVelocity_pos (hT i) (hP' i)⟩⟩
  obtain ⟨ρb, hρb⟩ : ∃ f : Fin n → ℝ, ∀ i, brineDensity (.fin (T i)) (.fin (P i * 1e-6)) (.fin (S i * 1e-6))
      = .fin (f i) ∧ ρw i ≤ f i := by
    refine ⟨_, fun i => ⟨brineDensity_fin _ _ _, ?_⟩⟩
    have e := (hρw i).1
    rw [waterDensity_fin, Num.fin_inj] at e
    rw [← e]
    exact le_add_of_nonneg_right (brineDensity_pos (hT i) (hP' i) (hS' i))
  obtain ⟨vb, hvb⟩ : ∃ f : Fin n → ℝ, ∀ i, brineVelocity (.fin (T i)) (.fin (P i * 1e-6)) (.fin (S i * 1e-6))
      = .fin (f i) ∧ 200 ≤ f i := by
    refine ⟨_, fun i => ⟨brineVelocity_fin (hS' i).1, ?_⟩⟩
    have a := waterVelocity_pos (hT i) (hP' i)
    have b := brineVelocity_pos (hT i) (hP' i) (hS' i)
    linarith
  refine ⟨fluidOf ρw vw, fluidOf (fun i => ρb i * 1000) vb, ρw, vw, fun i => ρb i * 1000, vb, ?_, ?_,
    rfl, rfl, rfl, rfl, ?_⟩
  · rw [← fluidVelocity_fin (fun i => by linarith [(hρw i).2]) (fun i => by linarith [(hvw i).2])]
    unfold water; congr 1
    · funext i; exact (hρw i).1
    · funext i; exact (hvw i).1
  · rw [← fluidVelocity_fin (fun i => by linarith [(hρw i).2, (hρb i).2]) (fun i => by linarith [(hvb i).2])]
    unfold brine; congr 1
    · funext i; simp only [finC_apply, Num.fin_mul, (hρb i).1]
    · funext i; simp only [finC_apply, Num.fin_mul, (hvb i).1]
  · intro i
    have h1 := hρw i; have h2 := hvw i; have h3 := hρb i; have h4 := hvb i
    refine ⟨h1.2, by linarith [h2.2], by linarith [h3.2], h4.2⟩

example : ∃ b : Mat 2, brine (finC ![15, 160]) (finC ![10e6, 45e6]) (finC ![35000, 0]) = .ok b := by
  obtain ⟨w, b, _, _, _, _, -, h, -⟩ := C80_brine_defined (n := 2) ![15, 160] ![10e6, 45e6] ![35000, 0]
    (by intro i; fin_cases i <;> norm_num) (by intro i; fin_cases i <;> norm_num)
    (by intro i; fin_cases i <;> norm_num)
  exact ⟨b, h⟩

end OPE
