import Verif.Props.Shipped4

/-!
# C112: examples 2 and 3
-/

namespace OPE.Shipped

open Parse

variable {n : ℕ}

/-- The porous rock of the default polynomials. -/
noncomputable def porous (m : Published.Rock) (φ : ℝ) : Published.Rock :=
  ⟨2900 - 1300 * φ, 1700 - 800 * φ, m.ρ * (1 - φ)⟩

/-- The depth trend of the examples. -/
noncomputable def buried (r : Published.Rock) (d : ℝ) : Published.Rock :=
  ⟨r.K + 1.5 * d, r.G + 1.2 * d, r.ρ + 1.35 * d⟩

theorem matrixOf_sum (a b d e x y : ℝ) :
    surface (matrixOf [[a, b], [d, e]]) x y = a + b * y + d * x + e * x * y := by
  show (∑ i : Fin 2, ∑ j : Fin 2, ((([[a, b], [d, e]] : List (List ℝ)).getD i []).getD j 0) * x ^ (i : ℕ) * y ^ (j : ℕ)) = _
  simp [Fin.sum_univ_two]; ring

theorem porous_eq (m : Published.Rock) (φ : ℝ) :
    surfaceModuli defaultDensity (rowCoeffs 2900 (-1300)) (rowCoeffs 1700 (-800)) m φ = porous m φ := by
  have h : ∀ a b x y : ℝ, surface (rowCoeffs a b) x y = a + b * y := rowCoeffs_sum
  have h' : ∀ x y : ℝ, surface defaultDensity x y = (1 - y) * x := defaultDensity_sum
  simp only [surfaceModuli, porous, h, h']
  congr 1 <;> ring

theorem buried_eq (r : Published.Rock) (d : ℝ) :
    surfaceModuli (matrixOf [[0, 1.35], [1, 0]]) (matrixOf [[0, 1.5], [1, 0]]) (matrixOf [[0, 1.2], [1, 0]]) r (d - 0)
      = buried r d := by
  simp only [surfaceModuli, buried, matrixOf_sum]
  congr 1 <;> ring

theorem porous_bounds {m : Published.Rock} {φ : ℝ} (hm : 0 < m.ρ) (h : 0 < φ ∧ φ < 1) :
    (1600 ≤ (porous m φ).K ∧ (porous m φ).K ≤ 2900) ∧ (900 ≤ (porous m φ).G ∧ (porous m φ).G ≤ 1700) ∧
      0 < (porous m φ).ρ := by
  simp only [porous]
  exact ⟨⟨by linarith [h.2], by linarith [h.1]⟩, ⟨by linarith [h.2], by linarith [h.1]⟩, mul_pos hm (by linarith [h.2])⟩

theorem small_power {p : ℝ} (hp : 1e6 ≤ p) :
    (0 ≤ Published.powerFit (20e9, -46) p ∧ Published.powerFit (20e9, -46) p ≤ 1e-3) ∧
      0 ≤ Published.powerFit (12, -26) p ∧ Published.powerFit (12, -26) p ≤ 1e-3 := by
  have p0 : 0 < p := by linarith
  have key : ∀ k : ℕ, 0 ≤ p ^ (-(k : ℝ)) ∧ p ^ (-(k : ℝ)) ≤ ((1e6 : ℝ) ^ k)⁻¹ := by
    intro k
    rw [Real.rpow_neg p0.le, Real.rpow_natCast]
    refine ⟨by positivity, inv_anti₀ (by positivity) ?_⟩
    gcongr
  have k1 := key 46
  have k2 := key 26
  simp only [Published.powerFit]
  norm_num at k1 k2 ⊢
  refine ⟨⟨k1.1, ?_⟩, k2.1, ?_⟩
  · have := mul_le_mul_of_nonneg_left k1.2 (show (0:ℝ) ≤ 20000000000 by norm_num)
    refine this.trans ?_
    norm_num
  · have := mul_le_mul_of_nonneg_left k2.2 (show (0:ℝ) ≤ 12 by norm_num)
    refine this.trans ?_
    norm_num

theorem ratio_sq {r : Published.Rock} (h : r.Valid) : (r.vp / r.vs) ^ 2 = r.K / r.G + 4 / 3 ∧ 0 < r.vp / r.vs := by
  refine ⟨?_, div_pos (Published.Rock.vp_pos h) (Published.Rock.vs_pos h)⟩
  rw [div_pow, Published.Rock.vp_sq h, Published.Rock.vs_sq h]
  have := h.2.1; have := h.2.2
  field_simp

/-- Under more than 1 MPa the pressure dependency of example 2 changes next to nothing. -/
theorem powered_bounds {r : Published.Rock} {p : ℝ} (hK : 1600 ≤ r.K ∧ r.K ≤ 2900) (hG : 900 ≤ r.G ∧ r.G ≤ 1700)
    (hρ : 0 < r.ρ) (hp : 1e6 ≤ p) :
    1e-20 < (r.vp / r.vs + (Published.powerFit (12, -26) p - Published.powerFit (12, -26) 20e6)) ^ 2 - 4 / 3 ∧
    (Published.addPower r (1, 0) (20e9, -46) (12, -26) p 20e6).Valid ∧
    (Published.addPower r (1, 0) (20e9, -46) (12, -26) p 20e6).K ≤ 3000 := by
  have a := small_power hp
  have b := small_power (p := 20e6) (by norm_num)
  have hv : r.Valid := ⟨by linarith [hK.1], by linarith [hG.1], hρ⟩
  obtain ⟨s1, s2⟩ := ratio_sq hv
  have q : 0.9 ≤ r.K / r.G := by rw [le_div_iff₀ hv.2.1]; linarith [hK.1, hG.2]
  have t : 1.4 ≤ r.vp / r.vs := by
    by_contra hlt
    nlinarith
  have v : 0.5 ≤ (r.vp / r.vs + (Published.powerFit (12, -26) p - Published.powerFit (12, -26) 20e6)) ^ 2 - 4 / 3 := by
    set x := r.vp / r.vs
    have : x - 0.001 ≤ x + (Published.powerFit (12, -26) p - Published.powerFit (12, -26) 20e6) := by
      linarith [a.2.1, b.2.2]
    nlinarith
  have kpos : 1000 ≤ r.K + (Published.powerFit (20e9, -46) p - Published.powerFit (20e9, -46) 20e6) := by
    linarith [a.1.1, b.1.2, hK.1]
  refine ⟨by linarith, ⟨?_, ?_, ?_⟩, ?_⟩
  · show 0 < r.K + (Published.powerFit (20e9, -46) p - Published.powerFit (20e9, -46) 20e6); linarith
  · exact div_pos (by linarith : 0 < r.K + (Published.powerFit (20e9, -46) p - Published.powerFit (20e9, -46) 20e6))
      (by linarith)
  · show 0 < r.ρ + (Published.powerFit (1, 0) p - Published.powerFit (1, 0) 20e6)
    simpa [Published.powerFit] using hρ
  · show r.K + (Published.powerFit (20e9, -46) p - Published.powerFit (20e9, -46) 20e6) ≤ 3000
    linarith [a.1.2, b.1.1, hK.2]

/-- Oil and brine of examples 2 and 3 (no gas, so Brie's law is Wood's). -/
noncomputable def poreFluid2 (P sb : ℝ) : Published.Fluid :=
  Published.wood [(oil1 P, 1 - sb), (brine1 P, sb)]

theorem poreFluid2_soft {P sb : ℝ} (h : 0 ≤ P ∧ P ≤ 73e6) (hb : 0 ≤ sb ∧ sb ≤ 1) :
    (poreFluid2 P sb).K ≤ 10e9 := by
  refine wood_soft ?_ ?_ ?_
  · intro x hx
    simp only [List.mem_cons, List.not_mem_nil, or_false] at hx
    rcases hx with rfl | rfl
    · exact ⟨oil1_pos h, oil1_soft h⟩
    · exact ⟨brine1_pos h, brine1_soft h⟩
  · intro x hx
    simp only [List.mem_cons, List.not_mem_nil, or_false] at hx
    rcases hx with rfl | rfl
    · exact sub_nonneg.mpr hb.2
    · exact hb.1
  · simp only [List.map_cons, List.map_nil, List.sum_cons, List.sum_nil]
    norm_num


/-- What examples 2 and 3 say about minerals and pressures. -/
theorem example23_says (dep : Adjustment n) {sf sb φ fp rp d : Fin n → ℝ} (hsf : ∀ i, 0 ≤ sf i ∧ sf i ≤ 1) :
    ((example23Sections dep sf sb φ fp rp d).writeOut
      [⟨Mat.ofReal (fun _ => 36e9) (fun _ => 44e9) (fun _ => 2650), some sf⟩,
        ⟨Mat.ofReal (fun _ => 11e9) (fun _ => 4.5e9) (fun _ => 1), none⟩]
      [⟨.oil (c 800) (c 153) (c 0.5), none, none⟩, ⟨.brine (c 45000), none, some sb⟩]).Says
      (Mat.ofReal (fun _ => 36e9) (fun _ => 44e9) (fun _ => 2650), (fun _ => sand), sf)
      [(Mat.ofReal (fun _ => 11e9) (fun _ => 4.5e9) (fun _ => 1), (fun _ => shale), fun i => 1 - sf i)]
      (fun _ => 50e6) (fun _ => 30e6) rp fp (some fun _ => 100e6) :=
  ⟨by simp [Sections.writeOut, filledFraction, givenTotal], by
    intro y hy
    simp only [List.mem_cons, List.not_mem_nil, or_false] at hy
    rcases hy with rfl | rfl
    · exact ⟨sand_isRock, fun i => (hsf i).1⟩
    · exact ⟨shale_isRock, fun i => sub_nonneg.mpr (hsf i).2⟩,
    fun _ => by norm_num, rfl, rfl, rfl, rfl, rfl⟩

/-- The pore fluids of examples 2 and 3. -/
theorem example23_pores (dep : Adjustment n) {sf sb φ fp rp d : Fin n → ℝ} (hsb : ∀ i, 0 ≤ sb i ∧ sb i ≤ 1)
    (hfp : ∀ i, 0 ≤ fp i ∧ fp i ≤ 73e6) :
    ((example23Sections dep sf sb φ fp rp d).writeOut
      [⟨Mat.ofReal (fun _ => 36e9) (fun _ => 44e9) (fun _ => 2650), some sf⟩,
        ⟨Mat.ofReal (fun _ => 11e9) (fun _ => 4.5e9) (fun _ => 1), none⟩]
      [⟨.oil (c 800) (c 153) (c 0.5), none, none⟩, ⟨.brine (c 45000), none, some sb⟩]).Pores (fun _ => 75) fp
      [⟨.oil (c 800) (c 153) (c 0.5), none, fun i => oil1 (fp i), fun i => 1 - sb i⟩,
        ⟨.brine (c 45000), none, fun i => brine1 (fp i), sb⟩] :=
  ⟨by simp [Sections.writeOut, filledFraction, givenTotal], rfl, by simp, by
      intro y hy
      simp only [List.mem_cons, List.not_mem_nil, or_false] at hy
      rcases hy with rfl | rfl
      · exact .oil (fun _ => 800) (fun _ => 153) (fun _ => 0.5) (fun _ => by norm_num) (fun i => ⟨(hfp i).1, (hfp i).2.trans (by norm_num)⟩) (fun _ => by norm_num)
          (fun _ => by norm_num) (fun _ => by norm_num)
      · exact .brine (fun _ => 45000) (fun _ => by norm_num) (fun i => ⟨(hfp i).1, (hfp i).2.trans (by norm_num)⟩) (fun _ => by norm_num),
      by simp [Sections.writeOut, example23Sections], by
      intro y hy i
      simp only [List.mem_cons, List.not_mem_nil, or_false] at hy
      rcases hy with rfl | rfl
      · exact sub_nonneg.mpr (hsb i).2
      · exact (hsb i).1,
      fun i => by simp only [poreTotal, List.map_cons, List.map_nil, List.sum_cons, List.sum_nil]; norm_num⟩

theorem example23_mixes (dep : Adjustment n) {sf sb φ fp rp d : Fin n → ℝ} :
    ((example23Sections dep sf sb φ fp rp d).writeOut
      [⟨Mat.ofReal (fun _ => 36e9) (fun _ => 44e9) (fun _ => 2650), some sf⟩,
        ⟨Mat.ofReal (fun _ => 11e9) (fun _ => 4.5e9) (fun _ => 1), none⟩]
      [⟨.oil (c 800) (c 153) (c 0.5), none, none⟩, ⟨.brine (c 45000), none, some sb⟩]).Mixes
      [⟨.oil (c 800) (c 153) (c 0.5), none, fun i => oil1 (fp i), fun i => 1 - sb i⟩,
        ⟨.brine (c 45000), none, fun i => brine1 (fp i), sb⟩] fun i => poreFluid2 (fp i) (sb i) :=
  .brieNoGas rfl 3 rfl rfl (by
    intro y hy
    simp only [List.mem_cons, List.not_mem_nil, or_false] at hy
    rcases hy with rfl | rfl <;> simp [FluidKind.IsGas, FluidKind.type]) ⟨by simp, fun i => by
      simp only [poreTotal, List.map_cons, List.map_nil, List.sum_cons, List.sum_nil]; norm_num⟩

theorem ref23 : effectiveAt (n := n) (some fun _ => 100e6) (fun _ => 50e6) (fun _ => 30e6) = fun _ => 20e6 := by
  funext i; simp only [effectiveAt, Published.effective, Option.map_some]; norm_num

theorem ofReal_coherent {K G ρ : ℝ} (hK : 0 < K) (hG : 0 < G) (hρ : 0 < ρ) :
    (Mat.ofReal (n := n) (fun _ => K) (fun _ => G) (fun _ => ρ)).Coherent :=
  mkModuli_coherent (mkModuli_rock (n := n) (r := fun _ => ⟨K, G, ρ⟩) fun _ => ⟨hK, hG, hρ⟩)

/-- **C112, example 2.** Whatever the data, as long as the columns are in range: the minerals are mixed, the
polynomial rock gets the power trend of pressure and the depth trend, and is filled with oil and brine. -/
theorem C112_example2 (co2 : CO2Model n) (conv : Conv) {rows : Fin n → DataRow} {sf sb φ fp rp d : Fin n → ℝ}
    (h1 : HasColumn rows "sand_fraction" sf) (h2 : HasColumn rows "brine_saturation" sb)
    (h4 : HasColumn rows "porosity" φ)
    (h5 : HasColumn rows "fluid_pressure" fp) (h6 : HasColumn rows "rock_pressure" rp) (h7 : HasColumn rows "depth" d)
    (hsf : ∀ i, 0 ≤ sf i ∧ sf i ≤ 1) (hsb : ∀ i, 0 ≤ sb i ∧ sb i ≤ 1)
    (hφ : ∀ i, 0 < φ i ∧ φ i < 1) (hfp : ∀ i, 0 ≤ fp i ∧ fp i ≤ 73e6) (hrp : ∀ i, 1e6 ≤ rp i)
    (hd : ∀ i, 0 ≤ d i ∧ d i ≤ 1e6) :
    (reading conv example2 n rows >>= calculate co2) = .ok (tableOf (fun i => sandShale (sf i))
      (fun i => buried (Published.addPower (porous (sandShale (sf i)) (φ i)) (1, 0) (20e9, -46) (12, -26) (rp i) 20e6) (d i))
      (fun i => sandShale (sf i)) (fun i => poreFluid2 (fp i) (sb i)) φ) := by
  rw [read_example2 conv h1 h2 h4 h5 h6 h7, bind_ok]
  rw [C110_omitted_fractions co2 (example23Sections _ sf sb φ fp rp d)
    [⟨Mat.ofReal (fun _ => 36e9) (fun _ => 44e9) (fun _ => 2650), some sf⟩,
      ⟨Mat.ofReal (fun _ => 11e9) (fun _ => 4.5e9) (fun _ => 1), none⟩]
    [⟨.oil (c 800) (c 153) (c 0.5), none, none⟩, ⟨.brine (c 45000), none, some sb⟩]
    rfl rfl (by simp) (by simp)]
  have hmin : mineralAt (n := n) (Mat.ofReal (fun _ => 36e9) (fun _ => 44e9) (fun _ => 2650), (fun _ => sand), sf)
      [(Mat.ofReal (fun _ => 11e9) (fun _ => 4.5e9) (fun _ => 1), (fun _ => shale), fun i => 1 - sf i)]
      = fun i => sandShale (sf i) := funext fun i => sandShale_eq (sf i)
  have hm : ∀ i, (mineralAt (n := n) (Mat.ofReal (fun _ => 36e9) (fun _ => 44e9) (fun _ => 2650), (fun _ => sand), sf)
      [(Mat.ofReal (fun _ => 11e9) (fun _ => 4.5e9) (fun _ => 1), (fun _ => shale), fun i => 1 - sf i)] i).Valid :=
    mineralAt_pos (example23_says (.pressureDependency (.powerfit ⟨(1, 0), (20e9, -46), (12, -26)⟩)) (sb := sb) (φ := φ) (fp := fp) (rp := rp) (d := d) hsf)
  rw [hmin] at hm
  have hb := fun i => sandShale_bounds (hsf i)
  have ha := fun i => porous_bounds (hm i).2.2 (hφ i)
  have hp := fun i => powered_bounds (ha i).1 (ha i).2.1 (ha i).2.2 (hrp i)
  have h := C109_all_dry_rocks_and_adjustments co2
    (example23_says (.pressureDependency (.powerfit ⟨(1, 0), (20e9, -46), (12, -26)⟩)) (sb := sb) (φ := φ) (fp := fp) (rp := rp) (d := d) hsf)
    (ofReal_coherent (by norm_num) (by norm_num) (by norm_num)) (T := fun _ => 75)
    (example23_pores _ hsb hfp) (example23_mixes _) (φ := φ) rfl
    (sand := fun i => porous (sandShale (sf i)) (φ i))
    (dry := fun i => buried (Published.addPower (porous (sandShale (sf i)) (φ i)) (1, 0) (20e9, -46) (12, -26) (rp i) 20e6) (d i))
    (dense := fun i => sandShale (sf i))
    (by
      rw [hmin]
      have := SandModel.Gives.moduli (a := fun i => sandShale (sf i)) (φ := φ) (p := effectiveAt (some fun _ => 100e6) (fun _ => 50e6) rp) none none none
      simp only [Option.getD_none, porous_eq] at this
      exact this)
    (fun i => ⟨by linarith [(ha i).1.1], by linarith [(ha i).2.1.1], (ha i).2.2⟩)
    (by
      rw [hmin, ref23]
      refine .cons (.power ⟨(1, 0), (20e9, -46), (12, -26)⟩ (fun i => by linarith [hrp i]) (fun _ => by norm_num) fun i => (hp i).1)
        (fun i => (hp i).2.1) ?_
      have := Adjustment.Gives.moduliDepth (a := fun i => sandShale (sf i)) (φ := φ) (eff := effectiveAt (some fun _ => 100e6) (fun _ => 50e6) rp)
        (ref := fun _ => 20e6) (rk := rp)
        (r := fun i => Published.addPower (porous (sandShale (sf i)) (φ i)) (1, 0) (20e9, -46) (12, -26) (rp i) 20e6)
        d (some fun _ => 0) (some (c 4000)) (matrixOf [[0, 1.35], [1, 0]]) (matrixOf [[0, 1.5], [1, 0]]) (matrixOf [[0, 1.2], [1, 0]])
      simp only [Option.elim_some, buried_eq] at this
      refine .cons this (fun i => ?_) (.nil _)
      obtain ⟨-, ⟨v1, v2, v3⟩, -⟩ := hp i
      have := (hd i).1
      exact ⟨by simp only [buried]; positivity, by simp only [buried]; positivity, by simp only [buried]; positivity⟩)
    (fun i => ⟨(hφ i).1, by
      have := (hp i).2.2; have := (hd i).2; have := (hb i).1.1
      simp only [buried]; linarith, by
      have := poreFluid2_soft (hfp i) (hsb i); have := (hb i).1.1
      linarith⟩)
  rw [hmin] at h
  exact h

end OPE.Shipped
