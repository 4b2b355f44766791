import Verif.Props.Published8

/-!
# C109: a calculation with every kind of adjustment
-/

namespace OPE

open Classical

variable {n : ℕ}

theorem lowerBound_above {a b : Published.Rock} (ha : a.Valid) (hb : b.Valid) {f e : ℝ} (h0 : 0 ≤ f) (h1 : f ≤ 1)
    (hK : e < a.K ∧ e < b.K) (hG : e < a.G ∧ e < b.G) :
    e < (Published.lowerBound a b f).K ∧ e < (Published.lowerBound a b f).G := by
  obtain ⟨a1, a2, -⟩ := ha
  obtain ⟨b1, b2, -⟩ := hb
  have z1 : 0 < 4 / 3 * min a.G b.G := mul_pos (by norm_num) (lt_min a2 b2)
  have z2 : 0 ≤ Published.zeta (min a.K b.K) (min a.G b.G) := by
    rw [← zShear_published]; exact zShear_nonneg (lt_min a1 b1).le (lt_min a2 b2).le
  constructor
  · show e < Published.hashinShtrikman a.K b.K f (4 / 3 * min a.G b.G)
    rw [← hsReal_published (by linarith) (by linarith) h0 h1]
    have hD := hsReal_D (a := a.K) (b := b.K) (z := 4 / 3 * min a.G b.G) (by linarith) (by linarith) h0 h1
    rcases le_total a.K b.K with h | h
    · exact lt_of_lt_of_le hK.1 (hsReal_ge_left (by linarith) hD h1 h)
    · exact lt_of_lt_of_le hK.2 (hsReal_ge_right (by linarith) hD h0 h)
  · show e < Published.hashinShtrikman a.G b.G f (Published.zeta (min a.K b.K) (min a.G b.G))
    rw [← hsReal_published (by linarith) (by linarith) h0 h1]
    have hD := hsReal_D (a := a.G) (b := b.G) (z := Published.zeta (min a.K b.K) (min a.G b.G)) (by linarith)
      (by linarith) h0 h1
    rcases le_total a.G b.G with h | h
    · exact lt_of_lt_of_le hG.1 (hsReal_ge_left (by linarith) hD h1 h)
    · exact lt_of_lt_of_le hG.2 (hsReal_ge_right (by linarith) hD h0 h)

theorem cbrt_above {x e : ℝ} (he : 0 ≤ e) (h : e ^ 3 < x) : e < x ^ (1 / 3 : ℝ) := by
  have : e = (e ^ (3 : ℕ)) ^ (1 / 3 : ℝ) := by
    rw [one_div, show ((3 : ℝ))⁻¹ = ((3 : ℕ) : ℝ)⁻¹ by norm_num, Real.pow_rpow_inv_natCast he (by norm_num)]
  rw [this]
  exact Real.rpow_lt_rpow (by positivity) h (by norm_num)

theorem polyFit_one (a p : ℝ) : Published.polyFit [a] p = a := by
  show ∑ k : Fin 1, ([a] : List ℝ)[k] * p ^ (1 - 1 - (k : ℕ)) = a
  simp

theorem polyFit_two (a b p : ℝ) : Published.polyFit [a, b] p = a * p + b := by
  show ∑ k : Fin 2, ([a, b] : List ℝ)[k] * p ^ (2 - 1 - (k : ℕ)) = _
  simp [Fin.sum_univ_two]

/-- Quartz. -/
noncomputable def quartzRock : Published.Rock := ⟨36.8e9, 44e9, 2650⟩

theorem exSand_large {p : ℝ} (hp : 20e6 ≤ p) :
    1e-20 < (Published.friableSand quartzRock 0.2 0.4 p 9 0.5).ρ ∧
    1e-20 < (Published.friableSand quartzRock 0.2 0.4 p 9 0.5).K ∧
    1e-20 < (Published.friableSand quartzRock 0.2 0.4 p 9 0.5).G := by
  have hn : Published.poisson 36.8e9 44e9 = 28 / 386 := by norm_num [Published.poisson]
  have hpi := Real.pi_pos
  have hpi4 := Real.pi_lt_four
  have hp0 : 0 < p := lt_of_lt_of_le (by norm_num) hp
  have hsq : Real.pi ^ 2 < 16 := by nlinarith
  have hK : 1 < (Published.hertzMindlin quartzRock 0.4 p 9 0.5).K := by
    show 1 < Published.hertzMindlinBulk 36.8e9 44e9 0.4 p 9
    unfold Published.hertzMindlinBulk
    apply cbrt_above (by norm_num)
    rw [hn, lt_div_iff₀ (by positivity)]
    nlinarith
  have hG : 0.01 < (Published.hertzMindlin quartzRock 0.4 p 9 0.5).G := by
    show 0.01 < Published.hertzMindlinShear 36.8e9 44e9 0.4 p 9 0.5
    unfold Published.hertzMindlinShear
    have : 1 < (3 * (9:ℝ) ^ 2 * (1 - 0.4) ^ 2 * 44e9 ^ 2 * p / (2 * Real.pi ^ 2 * (1 - Published.poisson 36.8e9 44e9) ^ 2)) ^ (1 / 3 : ℝ) := by
      apply cbrt_above (by norm_num)
      rw [hn, lt_div_iff₀ (by positivity)]
      nlinarith
    rw [hn] at this ⊢
    norm_num at this ⊢
    nlinarith
  have hq : quartzRock.Valid := by norm_num [Published.Rock.Valid, quartzRock]
  have hv : (Published.hertzMindlin quartzRock 0.4 p 9 0.5).Valid :=
    ⟨by linarith, by linarith, by norm_num [Published.hertzMindlin, quartzRock]⟩
  obtain ⟨h1, h2⟩ := lowerBound_above hq hv (f := 1 - 0.2 / 0.4) (e := 1e-20) (by norm_num) (by norm_num)
    ⟨by norm_num [quartzRock], by norm_num at hK ⊢; linarith⟩ ⟨by norm_num [quartzRock], by norm_num at hG ⊢; linarith⟩
  refine ⟨?_, h1, h2⟩
  norm_num [Published.friableSand, Published.lowerBound, Published.hertzMindlin, quartzRock]

/-- Quartz with one fluid; a dry rock of 12 GPa, 10 GPa and 2000 kg/m³, adjusted by a velocity trend, a power
trend, a friable-sand pressure dependency and a depth trend. -/
noncomputable def exAdjusted : Sections 2 where
  minerals := [⟨Mat.ofReal (fun _ => 36.8e9) (fun _ => 44e9) (fun _ => 2650), some (finC fun _ => 1)⟩]
  temperature := finC fun _ => 75
  fluids := [⟨.material (Mat.ofReal (fun _ => 2.8e9) (fun _ => 0) (fun _ => 1030)), none, some (finC fun _ => 1)⟩]
  mixMethod := .wood
  brieConstant := .fin 3
  brieGases := none
  fluidModel := .default
  sandModel := .polyfit true ⟨some (rowCoeffs 2000 0), some (rowCoeffs 12e9 0), some (rowCoeffs 10e9 0)⟩
  porosity := finC fun _ => 0.2
  adjustments := [.pressureDependency (.polyfit false ⟨[1], [1, 10e6], [1, 20e6]⟩),
    .pressureDependency (.powerfit ⟨(0, 1), (0.5, 1), (1e-8, 1)⟩),
    .pressureDependency (.friable (mkFriableModel (finC fun _ => 0.4) (finC fun _ => 0.5) (some (finC fun _ => 9)))),
    .depthTrend ⟨finC ![2000, 2100], some (finC fun _ => 1900), none, true,
      ⟨rowCoeffs 1900 0.2, rowCoeffs 10e9 1e6, rowCoeffs 9e9 1e6⟩⟩]
  overburden := finC fun _ => 60e6
  reference := finC fun _ => 40e6
  fluidPressure := some (finC fun _ => 30e6)
  maxEffective := none
  rockPressure := none

theorem exAdjusted_ok (co2 : CO2Model 2) : calculate co2 exAdjusted = .ok (tableOf (fun _ => quartzRock)
    ![⟨10.1e9, 9.1e9, 1920⟩, ⟨10.2e9, 9.2e9, 1940⟩] (fun _ => quartzRock) (fun _ => ⟨2.8e9, 1030⟩) fun _ => 0.2) := by
  have eff : effectiveAt (n := 2) none (fun _ => 60e6) (fun _ => 30e6) = fun _ => 30e6 := by
    funext i; norm_num [effectiveAt, Published.effective]
  have ref : effectiveAt (n := 2) none (fun _ => 60e6) (fun _ => 40e6) = fun _ => 20e6 := by
    funext i; norm_num [effectiveAt, Published.effective]
  have hq : quartzRock.Valid := by norm_num [Published.Rock.Valid, quartzRock]
  have row : ∀ a b x y : ℝ, surface (rowCoeffs a b) x y = a + b * y := rowCoeffs_sum
  have hsand : surfaceModuli (rowCoeffs 2000 0) (rowCoeffs 12e9 0) (rowCoeffs 10e9 0) quartzRock 0.2
      = ⟨12e9, 10e9, 2000⟩ := by simp only [surfaceModuli, row, zero_mul, add_zero]
  have hv1 : (⟨12e9, 10e9, 2000⟩ : Published.Rock).Valid := by norm_num [Published.Rock.Valid]
  -- after the velocity trend
  obtain ⟨r1, e1⟩ : ∃ r, r = Published.scaleVelocities ⟨12e9, 10e9, 2000⟩ 1 (4 / 3) (5 / 4) := ⟨_, rfl⟩
  have v1 : r1.Valid := by
    subst e1
    have h1 := Published.Rock.vp_sq hv1
    have h2 := Published.Rock.vs_sq hv1
    simp only [Published.scaleVelocities, Published.ofVelocities, Published.Rock.Valid, mul_pow, h1, h2]
    norm_num
  -- after the power trend
  obtain ⟨r2, e2⟩ : ∃ r, r = Published.addPower r1 (0, 1) (0.5, 1) (1e-8, 1) 30e6 20e6 := ⟨_, rfl⟩
  have hv : r1.K / r1.G < (r1.vp / r1.vs + (Published.powerFit (1e-8, 1) 30e6 - Published.powerFit (1e-8, 1) 20e6)) ^ 2
      - 4 / 3 := by
    have h1 := div_pos (Published.Rock.vp_pos v1) (Published.Rock.vs_pos v1)
    have h2 : (r1.vp / r1.vs) ^ 2 = r1.K / r1.G + 4 / 3 := by
      rw [div_pow, Published.Rock.vp_sq v1, Published.Rock.vs_sq v1]
      have := v1.2.1.ne'; have := v1.2.2.ne'
      field_simp
    simp only [Published.powerFit, Real.rpow_one]
    rw [show (1e-8 * 30e6 - 1e-8 * 20e6 : ℝ) = 0.1 by norm_num, add_sq]
    nlinarith
  have hKG : 1e-20 < r1.K / r1.G := by
    subst e1
    have h1 := Published.Rock.vp_sq hv1
    have h2 := Published.Rock.vs_sq hv1
    simp only [Published.scaleVelocities, Published.ofVelocities, mul_pow, h1, h2]
    norm_num
  have v2 : r2.Valid := by
    subst e2
    have h0 : (0:ℝ) < 1e-20 := by norm_num
    have hK : 0 < r1.K + (Published.powerFit (0.5, 1) 30e6 - Published.powerFit (0.5, 1) 20e6) := by
      have := v1.1
      simp only [Published.powerFit, Real.rpow_one]
      norm_num; linarith
    refine ⟨hK, div_pos hK (by linarith), ?_⟩
    have := v1.2.2
    simpa only [Published.addPower, Published.powerFit, zero_mul, sub_zero, add_zero] using this
  -- after the friable-sand dependency
  obtain ⟨g, hg⟩ : ∃ g : ℝ → Published.Rock, g = fun p => Published.friableSand quartzRock 0.2 0.4 p 9 0.5 := ⟨_, rfl⟩
  obtain ⟨r3, e3⟩ : ∃ r, r = Published.scaleModuli r2 ((g 30e6).ρ / (g 20e6).ρ) ((g 30e6).K / (g 20e6).K)
    ((g 30e6).G / (g 20e6).G) := ⟨_, rfl⟩
  have pos : ∀ x : ℝ, 1e-20 < x → 0 < x := fun x hx => lt_trans (by norm_num) hx
  have v3 : r3.Valid := by
    subst e3 hg
    obtain ⟨a1, a2, a3⟩ := exSand_large (p := 20e6) le_rfl
    obtain ⟨b1, b2, b3⟩ := exSand_large (p := 30e6) (by norm_num)
    exact ⟨mul_pos v2.1 (div_pos (pos _ b2) (pos _ a2)), mul_pos v2.2.1 (div_pos (pos _ b3) (pos _ a3)),
      mul_pos v2.2.2 (div_pos (pos _ b1) (pos _ a1))⟩
  have hmin : mineralAt (n := 2) (Mat.ofReal (fun _ => 36.8e9) (fun _ => 44e9) (fun _ => 2650),
      (fun _ => quartzRock), fun _ => 1) [] = fun _ => quartzRock := rfl
  refine C109_all_dry_rocks_and_adjustments co2 (s := exAdjusted)
    (x := (Mat.ofReal (fun _ => 36.8e9) (fun _ => 44e9) (fun _ => 2650), (fun _ => quartzRock), fun _ => 1))
    (L := []) (ob := fun _ => 60e6) (rf := fun _ => 40e6) (rk := fun _ => 30e6) (P := fun _ => 30e6) (mx := none)
    ⟨rfl, ?_, fun _ => by norm_num, rfl, rfl, rfl, rfl, rfl⟩
    (mkModuli_coherent (mkModuli_rock (n := 2) (r := fun _ => quartzRock) fun _ => hq)) (T := fun _ => 75)
    (pores := [⟨.material (Mat.ofReal (fun _ => 2.8e9) (fun _ => 0) (fun _ => 1030)), none, fun _ => ⟨2.8e9, 1030⟩,
      fun _ => 1⟩]) ⟨rfl, rfl, by simp, ?_, ?_, ?_, fun i => by norm_num [poreTotal]⟩ ?_
    (φ := fun _ => 0.2) rfl (sand := fun _ => ⟨12e9, 10e9, 2000⟩) ?_ (fun _ => hv1) ?_ ?_
  · intro y hy
    rw [List.mem_singleton.mp hy]
    exact ⟨⟨rfl, rfl, rfl, fun _ => hq⟩, fun _ => by norm_num⟩
  · intro y hy
    rw [List.mem_singleton.mp hy]
    exact .material _ _ ⟨rfl, rfl, rfl, fun _ => by norm_num⟩
  · intro y hy
    rw [List.mem_singleton.mp hy]
    simp [exAdjusted]
  · intro y hy
    rw [List.mem_singleton.mp hy]
    norm_num
  · have := Sections.Mixes.wood (s := exAdjusted) rfl (L := [⟨.material (Mat.ofReal (fun _ => 2.8e9) (fun _ => 0) (fun _ => 1030)), none,
      fun _ => ⟨2.8e9, 1030⟩, fun _ => 1⟩]) ⟨by simp, fun i => by norm_num [poreTotal]⟩
    have e : (fun i : Fin 2 => Published.wood (poreRow (n := 2) [⟨.material (Mat.ofReal (fun _ => 2.8e9) (fun _ => 0) (fun _ => 1030)), none,
      fun _ => ⟨2.8e9, 1030⟩, fun _ => 1⟩] i)) = fun _ => ⟨2.8e9, 1030⟩ := by
      funext i; norm_num [Published.wood, poreRow]
    rwa [e] at this
  · have := SandModel.Gives.moduli (a := fun _ : Fin 2 => quartzRock) (φ := fun _ => 0.2)
      (p := effectiveAt none (fun _ => 60e6) (fun _ => 30e6)) (some (rowCoeffs 2000 0)) (some (rowCoeffs 12e9 0))
      (some (rowCoeffs 10e9 0))
    simp only [Option.getD_some, hsand] at this
    exact this
  · rw [eff, ref, hmin]
    refine .cons (r' := fun _ => r1) ?_ (fun _ => v1) (.cons (r' := fun _ => r2) ?_ (fun _ => v2)
      (.cons (r' := fun _ => r3) ?_ (fun _ => v3) (.cons ?_ ?_ (.nil _))))
    · have := Adjustment.Gives.velocityTrend (a := fun _ : Fin 2 => quartzRock) (φ := fun _ => 0.2) (eff := fun _ => 30e6)
        (ref := fun _ => 20e6) (rk := fun _ => 30e6) (r := fun _ => ⟨12e9, 10e9, 2000⟩)
        (.polyfit false ⟨[1], [1, 10e6], [1, 20e6]⟩) _ rfl (by simp [PDModel.OfModuli]) trivial trivial
        (fun _ => by norm_num [polyFit_one, polyFit_two]) (fun _ => by norm_num [polyFit_one, polyFit_two])
      convert this using 2
      rw [e1]
      congr 1 <;> norm_num [polyFit_one, polyFit_two]
    · subst e2
      exact .power ⟨(0, 1), (0.5, 1), (1e-8, 1)⟩ (fun _ => by norm_num) (fun _ => by norm_num) fun _ => hKG.trans hv
    · subst e3 hg
      exact .sand _ _ (.friable (fun _ => 0.4) (fun _ => 0.5) (some fun _ => 9) (fun _ => by norm_num) (fun _ => by norm_num)
        (fun _ => by norm_num) (fun _ => by norm_num) (fun _ => by norm_num) (fun _ => by norm_num [coordination]))
        (fun _ => by norm_num) (fun _ => by norm_num) fun _ => exSand_large le_rfl
    · have := Adjustment.Gives.moduliDepth (a := fun _ : Fin 2 => quartzRock) (φ := fun _ => 0.2) (eff := fun _ => 30e6)
        (ref := fun _ => 20e6) (rk := fun _ => 30e6) (r := fun _ => r3) ![2000, 2100] (some fun _ => 1900) none
        (rowCoeffs 1900 0.2) (rowCoeffs 10e9 1e6) (rowCoeffs 9e9 1e6)
      have e : ![⟨10.1e9, 9.1e9, 1920⟩, ⟨10.2e9, 9.2e9, 1940⟩] = fun i : Fin 2 => surfaceModuli (rowCoeffs 1900 0.2)
          (rowCoeffs 10e9 1e6) (rowCoeffs 9e9 1e6) r3 ((![2000, 2100] : Fin 2 → ℝ) i - 1900) := by
        funext i
        fin_cases i <;> norm_num [surfaceModuli, row]
      rw [e]
      exact this
    · intro i
      fin_cases i <;> norm_num [Published.Rock.Valid]
  · intro i
    fin_cases i <;> norm_num [quartzRock]

end OPE
