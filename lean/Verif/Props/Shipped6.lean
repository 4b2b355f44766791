import Verif.Props.ShippedBounds3

/-!
# C112: example 3
-/

namespace OPE.Shipped

open Parse

variable {n : ℕ}

theorem defaultCement_isRock : (defaultCement (n := n)).IsRock fun _ => cement :=
  ⟨rfl, rfl, rfl, fun _ => by norm_num [cement]⟩

/-- **C112, example 3.** Whatever the data, as long as the columns are in range: the minerals are mixed, the
polynomial rock is scaled by the ratio of the cemented sand at effective rock pressure and at effective
reference pressure, gets the depth trend, and is filled with oil and brine. -/
theorem C112_example3 (co2 : CO2Model n) (conv : Conv) {rows : Fin n → DataRow} {sf sb φ fp rp d : Fin n → ℝ}
    (h1 : HasColumn rows "sand_fraction" sf) (h2 : HasColumn rows "brine_saturation" sb)
    (h4 : HasColumn rows "porosity" φ)
    (h5 : HasColumn rows "fluid_pressure" fp) (h6 : HasColumn rows "rock_pressure" rp) (h7 : HasColumn rows "depth" d)
    (hsf : ∀ i, 0 ≤ sf i ∧ sf i ≤ 1) (hsb : ∀ i, 0 ≤ sb i ∧ sb i ≤ 1)
    (hφ : ∀ i, 0 < φ i ∧ φ i ≤ 0.3) (hfp : ∀ i, 0 ≤ fp i ∧ fp i ≤ 73e6) (hrp : ∀ i, 0 ≤ rp i ∧ rp i < 50e6)
    (hd : ∀ i, 0 ≤ d i ∧ d i ≤ 1e6) :
    (reading conv example3 n rows >>= calculate co2) = .ok (tableOf (fun i => sandShale (sf i))
      (fun i => buried (Published.scaleModuli (porous (sandShale (sf i)) (φ i))
        ((cementedSand (sandShale (sf i)) (φ i) (50e6 - rp i) 1 (Published.murphy 0.4)).ρ /
          (cementedSand (sandShale (sf i)) (φ i) 20e6 1 (Published.murphy 0.4)).ρ)
        ((cementedSand (sandShale (sf i)) (φ i) (50e6 - rp i) 1 (Published.murphy 0.4)).K /
          (cementedSand (sandShale (sf i)) (φ i) 20e6 1 (Published.murphy 0.4)).K)
        ((cementedSand (sandShale (sf i)) (φ i) (50e6 - rp i) 1 (Published.murphy 0.4)).G /
          (cementedSand (sandShale (sf i)) (φ i) 20e6 1 (Published.murphy 0.4)).G)) (d i))
      (fun i => sandShale (sf i)) (fun i => poreFluid2 (fp i) (sb i)) φ) := by
  rw [read_example3 conv h1 h2 h4 h5 h6 h7, bind_ok]
  rw [C110_omitted_fractions co2 (example23Sections _ sf sb φ fp rp d)
    [⟨Mat.ofReal (fun _ => 36e9) (fun _ => 44e9) (fun _ => 2650), some sf⟩,
      ⟨Mat.ofReal (fun _ => 11e9) (fun _ => 4.5e9) (fun _ => 1), none⟩]
    [⟨.oil (c 800) (c 153) (c 0.5), none, none⟩, ⟨.brine (c 45000), none, some sb⟩]
    rfl rfl (by simp) (by simp)]
  have hmin : mineralAt (n := n) (Mat.ofReal (fun _ => 36e9) (fun _ => 44e9) (fun _ => 2650), (fun _ => sand), sf)
      [(Mat.ofReal (fun _ => 11e9) (fun _ => 4.5e9) (fun _ => 1), (fun _ => shale), fun i => 1 - sf i)]
      = fun i => sandShale (sf i) := funext fun i => sandShale_eq (sf i)
  have heff : effectiveAt (n := n) (some fun _ => 100e6) (fun _ => 50e6) rp = fun i => 50e6 - rp i := by
    funext i
    simp only [effectiveAt, Published.effective, Option.map_some]
    exact min_eq_left (by linarith [(hrp i).1])
  have hsay := example23_says (n := n) (.pressureDependency (.patchy (mkPatchyModel defaultCement (c 0.4) (c 0.04) (c 20e6) (c 0.1) none (c 1))))
    (sb := sb) (φ := φ) (fp := fp) (rp := rp) (d := d) hsf
  have hm := mineralAt_pos hsay
  rw [hmin] at hm
  have hb := fun i => sandShale_bounds (hsf i)
  have hν := fun i => sandShale_poisson (hsf i)
  have ha := fun i => porous_bounds (hm i).2.2 (hφ i |>.imp id fun h => lt_of_le_of_lt h (by norm_num))
  have hg : (PDModel.patchy (mkPatchyModel defaultCement (c 0.4) (c 0.04) (c 20e6) (c 0.1) none (c 1))).Sand
      (fun i => sandShale (sf i)) φ fun p i => cementedSand (sandShale (sf i)) (φ i) (p i) 1 (Published.murphy 0.4) :=
    PDModel.Sand.patchy (a := fun i => sandShale (sf i)) (φ := φ) defaultCement (fun _ => cement) (fun _ => 0.4) (fun _ => 0.04)
      (fun _ => 0.1) (fun _ => 20e6) (fun _ => 1) none defaultCement_isRock (fun i => ⟨hν i, cement_range (hb i).2⟩)
      (fun i => (hφ i).1.le) (fun i => (hφ i).2.trans (by norm_num)) (fun i => (hφ i).2.trans (by norm_num)) (fun _ => by norm_num)
      (fun _ => by norm_num) (fun _ => by norm_num) (fun _ => by norm_num) (fun _ => by norm_num)
      (fun _ => by norm_num [coordination, Published.murphy])
  have hp : ∀ i, 0 < (50e6 - rp i : ℝ) := fun i => sub_pos.mpr (hrp i).2
  have heffv := (hg.eval hm (p := fun i => 50e6 - rp i) hp).2
  have hst := fun i => cementedSand_stiff (hb i).1 (hb i).2 (hν i) (hm i).2.2 (hφ i)
  have hso := fun i => cementedSand_soft (p := 50e6 - rp i) (hb i).1 (hb i).2 (hν i) (hφ i) ⟨hp i, by linarith [(hrp i).1]⟩
  have h := C109_all_dry_rocks_and_adjustments co2 hsay
    (ofReal_coherent (by norm_num) (by norm_num) (by norm_num)) (T := fun _ => 75)
    (example23_pores _ hsb hfp) (example23_mixes _) (φ := φ) rfl
    (sand := fun i => porous (sandShale (sf i)) (φ i))
    (dry := fun i => buried (Published.scaleModuli (porous (sandShale (sf i)) (φ i))
        ((cementedSand (sandShale (sf i)) (φ i) (50e6 - rp i) 1 (Published.murphy 0.4)).ρ /
          (cementedSand (sandShale (sf i)) (φ i) 20e6 1 (Published.murphy 0.4)).ρ)
        ((cementedSand (sandShale (sf i)) (φ i) (50e6 - rp i) 1 (Published.murphy 0.4)).K /
          (cementedSand (sandShale (sf i)) (φ i) 20e6 1 (Published.murphy 0.4)).K)
        ((cementedSand (sandShale (sf i)) (φ i) (50e6 - rp i) 1 (Published.murphy 0.4)).G /
          (cementedSand (sandShale (sf i)) (φ i) 20e6 1 (Published.murphy 0.4)).G)) (d i))
    (dense := fun i => sandShale (sf i))
    (by
      rw [hmin]
      have := SandModel.Gives.moduli (a := fun i => sandShale (sf i)) (φ := φ) (p := effectiveAt (some fun _ => 100e6) (fun _ => 50e6) rp) none none none
      simp only [Option.getD_none, porous_eq] at this
      exact this)
    (fun i => ⟨by linarith [(ha i).1.1], by linarith [(ha i).2.1.1], (ha i).2.2⟩)
    (by
      rw [hmin, ref23, heff]
      have big : ∀ i, (Published.scaleModuli (porous (sandShale (sf i)) (φ i))
        ((cementedSand (sandShale (sf i)) (φ i) (50e6 - rp i) 1 (Published.murphy 0.4)).ρ /
          (cementedSand (sandShale (sf i)) (φ i) 20e6 1 (Published.murphy 0.4)).ρ)
        ((cementedSand (sandShale (sf i)) (φ i) (50e6 - rp i) 1 (Published.murphy 0.4)).K /
          (cementedSand (sandShale (sf i)) (φ i) 20e6 1 (Published.murphy 0.4)).K)
        ((cementedSand (sandShale (sf i)) (φ i) (50e6 - rp i) 1 (Published.murphy 0.4)).G /
          (cementedSand (sandShale (sf i)) (φ i) 20e6 1 (Published.murphy 0.4)).G)).Valid := fun i =>
        ⟨mul_pos (by linarith [(ha i).1.1]) (div_pos (heffv i).1 (by linarith [(hst i).1])),
          mul_pos (by linarith [(ha i).2.1.1]) (div_pos (heffv i).2.1 (by linarith [(hst i).2.1])),
          mul_pos (ha i).2.2 (div_pos (heffv i).2.2 (by linarith [(hst i).2.2]))⟩
      refine .cons (.sand _ _ hg hp (fun _ => by norm_num) fun i =>
        ⟨by linarith [(hst i).2.2], by linarith [(hst i).1], by linarith [(hst i).2.1]⟩) big ?_
      have := Adjustment.Gives.moduliDepth (a := fun i => sandShale (sf i)) (φ := φ) (eff := fun i => 50e6 - rp i)
        (ref := fun _ => 20e6) (rk := rp)
        (r := fun i => Published.scaleModuli (porous (sandShale (sf i)) (φ i))
        ((cementedSand (sandShale (sf i)) (φ i) (50e6 - rp i) 1 (Published.murphy 0.4)).ρ /
          (cementedSand (sandShale (sf i)) (φ i) 20e6 1 (Published.murphy 0.4)).ρ)
        ((cementedSand (sandShale (sf i)) (φ i) (50e6 - rp i) 1 (Published.murphy 0.4)).K /
          (cementedSand (sandShale (sf i)) (φ i) 20e6 1 (Published.murphy 0.4)).K)
        ((cementedSand (sandShale (sf i)) (φ i) (50e6 - rp i) 1 (Published.murphy 0.4)).G /
          (cementedSand (sandShale (sf i)) (φ i) 20e6 1 (Published.murphy 0.4)).G))
        d (some fun _ => 0) (some (c 4000)) (matrixOf [[0, 1.35], [1, 0]]) (matrixOf [[0, 1.5], [1, 0]]) (matrixOf [[0, 1.2], [1, 0]])
      simp only [Option.elim_some, buried_eq] at this
      refine .cons this (fun i => ?_) (.nil _)
      obtain ⟨v1, v2, v3⟩ := big i
      have := (hd i).1
      exact ⟨by simp only [buried]; positivity, by simp only [buried]; positivity, by simp only [buried]; positivity⟩)
    (fun i => ⟨(hφ i).1, by
      have a1 := (ha i).1; have a2 := (hd i).2; have a3 := (hb i).1.1
      have a4 : (cementedSand (sandShale (sf i)) (φ i) (50e6 - rp i) 1 (Published.murphy 0.4)).K /
          (cementedSand (sandShale (sf i)) (φ i) 20e6 1 (Published.murphy 0.4)).K ≤ 36.8e9 / 1e7 :=
        div_le_div₀ (by norm_num) (hso i) (by norm_num) (hst i).1
      have a5 := mul_le_mul a1.2 a4 (div_nonneg (heffv i).1.le (by linarith [(hst i).1])) (by norm_num)
      simp only [buried, Published.scaleModuli]
      norm_num at *
      linarith, by
      have := poreFluid2_soft (hfp i) (hsb i); have := (hb i).1.1
      linarith⟩)
  rw [hmin] at h
  exact h

end OPE.Shipped
