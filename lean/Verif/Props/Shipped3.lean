import Verif.Props.ShippedBounds2

/-!
# C112: the shipped examples give the published tables

`read_*` (Shipped2) evaluates the reading of the shipped files; here the calculation that follows is shown to give the
table of the published formulas, for every data file in the stated ranges: nothing about softness or definedness is
assumed, it is proved from the numbers in the files.
-/

namespace OPE.Shipped

open Parse

variable {n : ℕ}

theorem sandShale_eq (f : ℝ) :
    Published.addMinerals sand f [(shale, 1 - f)] = sandShale f := by
  show Published.lowerBound sand shale (if f + (1 - f) = 0 then 1 else f / (f + (1 - f))) = _
  rw [if_neg (by norm_num), show f + (1 - f) = 1 by ring, div_one]
  rfl

theorem ofReal_isRock {K G ρ : ℝ} (hK : 0 < K) (hG : 0 < G) (hρ : 0 < ρ) :
    (Mat.ofReal (fun _ : Fin n => K) (fun _ => G) (fun _ => ρ)).IsRock fun _ => ⟨K, G, ρ⟩ :=
  ⟨rfl, rfl, rfl, fun _ => ⟨hK, hG, hρ⟩⟩

theorem sand_isRock : (Mat.ofReal (fun _ : Fin n => 36e9) (fun _ => 44e9) (fun _ => 2650)).IsRock fun _ => sand :=
  ofReal_isRock (by norm_num) (by norm_num) (by norm_num)

theorem shale_isRock : (Mat.ofReal (fun _ : Fin n => 11e9) (fun _ => 4.5e9) (fun _ => 1)).IsRock fun _ => shale :=
  ofReal_isRock (by norm_num) (by norm_num) (by norm_num)

theorem cement_isRock : (Mat.ofReal (fun _ : Fin n => 36.8e9) (fun _ => 44e9) (fun _ => 2650)).IsRock fun _ => cement :=
  ofReal_isRock (by norm_num) (by norm_num) (by norm_num)

/-- The fluid of the two single-fluid examples. -/
noncomputable def liquid : Published.Fluid := ⟨2.3e9, 994.5⟩

theorem wood_single (F : Published.Fluid) : Published.wood [(F, 1)] = F := by
  simp [Published.wood]

theorem liquid_isFluid : (Mat.ofReal (fun _ : Fin n => 2.3e9) (fun _ => 0) (fun _ => 994.5)).IsFluid fun _ => liquid :=
  ⟨rfl, rfl, rfl, fun _ => by norm_num [liquid]⟩

/-- **C112, friable_sand_example.yaml.** Whatever the data file, the calculation gives, in every row, the published
friable sand of porosity 0.3 under 30 MPa, filled with the given liquid. -/
theorem C112_friable_sand (co2 : CO2Model n) (conv : Conv) (data : Option (Frame (Arr n))) :
    (readWith conv data friableSand >>= calculate co2) = .ok (tableOf (fun _ => sand)
      (fun _ => Published.friableSand sand 0.3 0.4 30e6 9 1) (fun _ => sand) (fun _ => liquid) (fun _ => 0.3)) := by
  rw [read_friableSand conv data, bind_ok]
  rw [C110_omitted_fractions co2 friableSections
    [⟨Mat.ofReal (fun _ => 36e9) (fun _ => 44e9) (fun _ => 2650), some fun _ => 1⟩]
    [⟨.material (Mat.ofReal (fun _ => 2.3e9) (fun _ => 0) (fun _ => 994.5)), none, none⟩]
    rfl rfl (by simp) (by simp)]
  have hmin : mineralAt (n := n) (Mat.ofReal (fun _ => 36e9) (fun _ => 44e9) (fun _ => 2650), (fun _ => sand), fun _ => 1)
      [] = fun _ => sand := rfl
  have heff : effectiveAt (n := n) none (fun _ => 100e6) (fun _ => 70e6) = fun _ => 30e6 := by
    funext i; simp only [effectiveAt, Published.effective, Option.map_none]; norm_num
  have h := C105_friable_softer co2
    (s := friableSections.writeOut
      [⟨Mat.ofReal (fun _ => 36e9) (fun _ => 44e9) (fun _ => 2650), some fun _ => 1⟩]
      [⟨.material (Mat.ofReal (fun _ => 2.3e9) (fun _ => 0) (fun _ => 994.5)), none, none⟩])
    (x := (Mat.ofReal (fun _ => 36e9) (fun _ => 44e9) (fun _ => 2650), (fun _ => sand), fun _ => 1)) (L := [])
    (ob := fun _ => 100e6) (rf := fun _ => 30e6) (rk := fun _ => 70e6) (P := fun _ => 70e6) (mx := none)
    ⟨by simp [Sections.writeOut, filledFraction], by
      intro y hy
      simp only [List.mem_singleton] at hy
      subst hy
      exact ⟨sand_isRock, fun i => zero_le_one⟩, fun _ => by norm_num, rfl, rfl, rfl, rfl, rfl⟩
    (T := fun _ => 80)
    (pores := [⟨.material (Mat.ofReal (fun _ => 2.3e9) (fun _ => 0) (fun _ => 994.5)), none, fun _ => liquid, fun _ => 1⟩])
    ⟨by simp [Sections.writeOut, filledFraction, givenTotal], rfl, by simp, by
      intro y hy
      simp only [List.mem_singleton] at hy
      subst hy
      exact .material _ _ liquid_isFluid, by simp [Sections.writeOut, friableSections], by simp,
      fun i => by norm_num [poreTotal]⟩
    (.wood rfl ⟨by simp, fun i => by norm_num [poreTotal]⟩)
    (φ := fun _ => 0.3) (φc := fun _ => 0.4) (f := fun _ => 1) (N := some fun _ => 9) rfl rfl rfl
    (fun _ => by norm_num) (fun _ => by norm_num) (fun _ => by norm_num) (fun i => by rw [heff]; norm_num)
    (fun _ => by norm_num) (fun _ => by norm_num [coordination])
    (fun i => by
      rw [hmin, heff]
      refine ⟨hertzMindlin_softer (by norm_num [sand]) (by norm_num [sand]) (by norm_num) (by norm_num)
        (by norm_num [coordination]), ?_⟩
      show (Published.wood [(liquid, 1)]).K < _
      rw [wood_single]
      norm_num [liquid, sand])
  rw [hmin, heff] at h
  refine h.trans ?_
  show Except.ok (tableOf (n := n) (fun _ => sand) (fun _ => Published.friableSand sand 0.3 0.4 30e6 9 1) (fun _ => sand)
    (fun _ => Published.wood [(liquid, 1)]) fun _ => 0.3) = _
  rw [wood_single]

/-- The sections of examples/patchy_cement_example.yaml. -/
noncomputable def patchySections : Sections n where
  minerals := [⟨Mat.ofReal (fun _ => 36e9) (fun _ => 44e9) (fun _ => 2650), some (c 1)⟩]
  temperature := c 80
  fluids := [⟨.material (Mat.ofReal (fun _ => 2.3e9) (fun _ => 0) (fun _ => 994.5)), none, none⟩]
  mixMethod := .wood
  brieConstant := Num.fin 3
  brieGases := none
  fluidModel := .default
  sandModel := .patchy (mkPatchyModel (Mat.ofReal (fun _ => 36.8e9) (fun _ => 44e9) (fun _ => 2650)) (c 0.4) (c 0.04)
    (c 20e6) (c 0.1) (some (c 9)) (c 1))
  porosity := c 0.3
  adjustments := []
  overburden := c 100e6
  reference := c 30e6
  fluidPressure := some (c 70e6)
  maxEffective := none
  rockPressure := none

theorem read_patchyCement (conv : Conv) (data : Option (Frame (Arr n))) :
    readWith conv data patchyCement = .ok patchySections := by
  have h1 := read_material (n := n) conv 36e9 44e9 2650 (by norm_num) (by norm_num) (by norm_num)
  have h2 := read_material (n := n) conv 2.3e9 0 994.5 (by norm_num) (by norm_num) (by norm_num)
  have h3 := Main.exRead_arbitrary (n := n) conv 36.8e9 44e9 2650 (by norm_num) (by norm_num) (by norm_num)
  unfold Main.num at h3
  have h4 : parseSandstone conv (.dict [("type", .str "patchy_cement"),
      ("cement", .dict [("bulk_modulus", .scalar (.num (Num.fin 36.8e9))),
      ("shear_modulus", .scalar (.num (Num.fin 44e9))), ("density", .scalar (.num (Num.fin 2650)))]),
      ("cement_fraction", .scalar (.num (Num.fin 0.04))), ("lower_bound_pressure", .scalar (.num (Num.fin 20e6))),
      ("upper_bound_cement_fraction", .scalar (.num (Num.fin 0.1))), ("coordination_number", .scalar (.num (Num.fin 9))),
      ("critical_porosity", .scalar (.num (Num.fin 0.4))), ("shear_reduction", .scalar (.num (Num.fin 1)))] : Val n)
      = .ok (.patchy (mkPatchyModel (Mat.ofReal (fun _ => 36.8e9) (fun _ => 44e9) (fun _ => 2650)) (c 0.4) (c 0.04)
        (c 20e6) (c 0.1) (some (c 9)) (c 1))) := by
    simp [parseSandstone, firstOf, into, parsePatchy, args, named, tagged, defaulted, List.lookup, literal, h3, toCol, orReject,
      Scalar.toNum, Parse.optional]
    rfl
  cases data <;>
  simp [readWith, patchyCement, insertDataframe, List.lookup, mapArr, mapArrDict, mapArrList,
    insertFrame, insertFrameDict, insertFrameList, num, checkNoReference, checkNoReferenceDict, checkNoReferenceList,
    parseSections, parseMinerals, args, named, defaulted, listOf, eachOf, parseFluids,
    parseDryRock, parsePressure, toMinerals, toMineral, toMethod, parseConstituent, required, h1, h2, h4,
    Parse.optional, toCol, orReject, Scalar.toNum, Cell.toNum, reject] <;>
  rfl

/-- The dry rock of the patchy cement examples: porosity `φ`, effective pressure `p`, grains `m`, shear reduction `f`,
coordination number `C`. -/
noncomputable def cementedSand (m : Published.Rock) (φ p f C : ℝ) : Published.Rock :=
  Published.patchyCement m cement φ (0.4 - 0.04) (0.4 - 0.1) p 20e6 0.4 f C 9

/-- The densest packing of the grains `m` and a tenth of cement. -/
noncomputable def densePack (m : Published.Rock) : Published.Rock := Published.lowerBound cement m 0.1

theorem cement_range {m : Published.Rock} (hG : 4.5e9 ≤ m.G ∧ m.G ≤ 44e9) : 0.04 * (Real.pi * m.G) ≤ cement.G := by
  have hpi := Real.pi_lt_d2
  have : Real.pi * m.G ≤ 4 * 44e9 := mul_le_mul (by linarith) hG.2 (by linarith [hG.1]) (by norm_num)
  simp only [cement]
  norm_num at *
  linarith

/-- **C112, patchy_cement_example.yaml.** -/
theorem C112_patchy_cement (co2 : CO2Model n) (conv : Conv) (data : Option (Frame (Arr n))) :
    (readWith conv data patchyCement >>= calculate co2) = .ok (tableOf (fun _ => sand)
      (fun _ => cementedSand sand 0.3 30e6 1 9) (fun _ => densePack sand) (fun _ => liquid) (fun _ => 0.3)) := by
  rw [read_patchyCement conv data, bind_ok]
  rw [C110_omitted_fractions co2 patchySections
    [⟨Mat.ofReal (fun _ => 36e9) (fun _ => 44e9) (fun _ => 2650), some fun _ => 1⟩]
    [⟨.material (Mat.ofReal (fun _ => 2.3e9) (fun _ => 0) (fun _ => 994.5)), none, none⟩]
    rfl rfl (by simp) (by simp)]
  have hmin : mineralAt (n := n) (Mat.ofReal (fun _ => 36e9) (fun _ => 44e9) (fun _ => 2650), (fun _ => sand), fun _ => 1)
      [] = fun _ => sand := rfl
  have heff : effectiveAt (n := n) none (fun _ => 100e6) (fun _ => 70e6) = fun _ => 30e6 := by
    funext i; simp only [effectiveAt, Published.effective, Option.map_none]; norm_num
  have hK : 11e9 ≤ sand.K ∧ sand.K ≤ 36e9 := by norm_num [sand]
  have hG : 4.5e9 ≤ sand.G ∧ sand.G ≤ 44e9 := by norm_num [sand]
  have hd := dense_bounds hK hG
  have h := C105_patchy_softer co2
    (s := patchySections.writeOut
      [⟨Mat.ofReal (fun _ => 36e9) (fun _ => 44e9) (fun _ => 2650), some fun _ => 1⟩]
      [⟨.material (Mat.ofReal (fun _ => 2.3e9) (fun _ => 0) (fun _ => 994.5)), none, none⟩])
    (x := (Mat.ofReal (fun _ => 36e9) (fun _ => 44e9) (fun _ => 2650), (fun _ => sand), fun _ => 1)) (L := [])
    (ob := fun _ => 100e6) (rf := fun _ => 30e6) (rk := fun _ => 70e6) (P := fun _ => 70e6) (mx := none)
    ⟨by simp [Sections.writeOut, filledFraction], by
      intro y hy
      simp only [List.mem_singleton] at hy
      subst hy
      exact ⟨sand_isRock, fun i => zero_le_one⟩, fun _ => by norm_num, rfl, rfl, rfl, rfl, rfl⟩
    (T := fun _ => 80)
    (pores := [⟨.material (Mat.ofReal (fun _ => 2.3e9) (fun _ => 0) (fun _ => 994.5)), none, fun _ => liquid, fun _ => 1⟩])
    ⟨by simp [Sections.writeOut, filledFraction, givenTotal], rfl, by simp, by
      intro y hy
      simp only [List.mem_singleton] at hy
      subst hy
      exact .material _ _ liquid_isFluid, by simp [Sections.writeOut, patchySections], by simp,
      fun i => by norm_num [poreTotal]⟩
    (.wood rfl ⟨by simp, fun i => by norm_num [poreTotal]⟩)
    (φ := fun _ => 0.3) (φc := fun _ => 0.4) (cf := fun _ => 0.04) (u := fun _ => 0.1) (plb := fun _ => 20e6)
    (f := fun _ => 1) (N := some fun _ => 9) rfl cement_isRock rfl rfl
    (fun i => ⟨by rw [hmin]; norm_num [sand], by rw [hmin]; exact cement_range hG⟩)
    (fun _ => by norm_num) (fun _ => by norm_num) (fun _ => by norm_num) (fun _ => by norm_num) (fun _ => by norm_num)
    (fun _ => by norm_num) (fun _ => by norm_num) (fun i => by rw [heff]; norm_num) (fun _ => by norm_num)
    (fun _ => by norm_num) (fun _ => by norm_num [coordination])
    (fun i => by
      rw [hmin, heff]
      refine ⟨hertzMindlin_softer (by linarith [hd.1]) ⟨by linarith [hd.2.1], hd.2.2⟩ (by norm_num) (by norm_num)
        (by norm_num [coordination]), lt_of_lt_of_le (contactCement_soft hK hG) hd.1, ?_⟩
      show (Published.wood [(liquid, 1)]).K < _
      rw [wood_single]
      refine lt_of_lt_of_le ?_ hd.1
      norm_num [liquid])
  rw [hmin, heff] at h
  refine h.trans ?_
  show Except.ok (tableOf (n := n) (fun _ => sand) (fun _ => cementedSand sand 0.3 30e6 1 9) (fun _ => densePack sand)
    (fun _ => Published.wood [(liquid, 1)]) fun _ => 0.3) = _
  rw [wood_single]

/-- Oil, brine and gas of example 1. -/
noncomputable def poreFluid1 (P sb sg : ℝ) : Published.Fluid :=
  Published.wood [(oil1 P, 1 - (sb + sg)), (brine1 P, sb), (gas1 P, sg)]

theorem poreFluid1_soft {P sb sg : ℝ} (h : 0 < P ∧ P ≤ 73e6) (hb : 0 ≤ sb) (hg : 0 ≤ sg) (hs : sb + sg ≤ 1) :
    (poreFluid1 P sb sg).K ≤ 10e9 := by
  have h' : 0 ≤ P ∧ P ≤ 73e6 := ⟨h.1.le, h.2⟩
  refine wood_soft ?_ ?_ ?_
  · intro x hx
    simp only [List.mem_cons, List.not_mem_nil, or_false] at hx
    rcases hx with rfl | rfl | rfl
    · exact ⟨oil1_pos h', oil1_soft h'⟩
    · exact ⟨brine1_pos h', brine1_soft h'⟩
    · exact ⟨gas1_pos h.1, gas1_soft h⟩
  · intro x hx
    simp only [List.mem_cons, List.not_mem_nil, or_false] at hx
    rcases hx with rfl | rfl | rfl
    · exact sub_nonneg.mpr hs
    · exact hb
    · exact hg
  · simp only [List.map_cons, List.map_nil, List.sum_cons, List.sum_nil]
    norm_num

/-- **C112, example1.yaml.** For every data file with sand fractions and saturations between 0 and 1, porosities up to
0.3, fluid pressures up to 73 MPa and rock pressures below the overburden, the calculation gives in every row the
published patchy cement of sand and shale, filled with oil, brine and gas by Wood's law. -/
theorem C112_example1 (co2 : CO2Model n) (conv : Conv) {rows : Fin n → DataRow} {sf sb sg φ fp rp : Fin n → ℝ}
    (h1 : HasColumn rows "sand_fraction" sf) (h2 : HasColumn rows "brine_saturation" sb)
    (h3 : HasColumn rows "gas_saturation" sg) (h4 : HasColumn rows "porosity" φ)
    (h5 : HasColumn rows "fluid_pressure" fp) (h6 : HasColumn rows "rock_pressure" rp)
    (hsf : ∀ i, 0 ≤ sf i ∧ sf i ≤ 1) (hsat : ∀ i, 0 ≤ sb i ∧ 0 ≤ sg i ∧ sb i + sg i ≤ 1)
    (hφ : ∀ i, 0 < φ i ∧ φ i ≤ 0.3) (hfp : ∀ i, 0 < fp i ∧ fp i ≤ 73e6) (hrp : ∀ i, 0 ≤ rp i ∧ rp i < 50e6) :
    (reading conv example1 n rows >>= calculate co2) = .ok (tableOf (fun i => sandShale (sf i))
      (fun i => cementedSand (sandShale (sf i)) (φ i) (50e6 - rp i) 0.5 (Published.murphy 0.4))
      (fun i => densePack (sandShale (sf i)))
      (fun i => poreFluid1 (fp i) (sb i) (sg i)) φ) := by
  rw [read_example1 conv h1 h2 h3 h4 h5 h6, bind_ok]
  rw [C110_omitted_fractions co2 (example1Sections sf sb sg φ fp rp)
    [⟨Mat.ofReal (fun _ => 36e9) (fun _ => 44e9) (fun _ => 2650), some sf⟩,
      ⟨Mat.ofReal (fun _ => 11e9) (fun _ => 4.5e9) (fun _ => 1), none⟩]
    [⟨.oil (c 800) (c 153) (c 0.5), none, none⟩, ⟨.brine (c 45000), none, some sb⟩, ⟨.gas (c 0.5), none, some sg⟩]
    rfl rfl (by simp) (by simp)]
  have hmin : mineralAt (n := n) (Mat.ofReal (fun _ => 36e9) (fun _ => 44e9) (fun _ => 2650), (fun _ => sand), sf)
      [(Mat.ofReal (fun _ => 11e9) (fun _ => 4.5e9) (fun _ => 1), (fun _ => shale), fun i => 1 - sf i)]
      = fun i => sandShale (sf i) := funext fun i => sandShale_eq (sf i)
  have heff : effectiveAt (n := n) none (fun _ => 50e6) rp = fun i => 50e6 - rp i := rfl
  have h := C105_patchy_softer co2
    (s := (example1Sections sf sb sg φ fp rp).writeOut
      [⟨Mat.ofReal (fun _ => 36e9) (fun _ => 44e9) (fun _ => 2650), some sf⟩,
        ⟨Mat.ofReal (fun _ => 11e9) (fun _ => 4.5e9) (fun _ => 1), none⟩]
      [⟨.oil (c 800) (c 153) (c 0.5), none, none⟩, ⟨.brine (c 45000), none, some sb⟩, ⟨.gas (c 0.5), none, some sg⟩])
    (x := (Mat.ofReal (fun _ => 36e9) (fun _ => 44e9) (fun _ => 2650), (fun _ => sand), sf))
    (L := [(Mat.ofReal (fun _ => 11e9) (fun _ => 4.5e9) (fun _ => 1), (fun _ => shale), fun i => 1 - sf i)])
    (ob := fun _ => 50e6) (rf := fun _ => 30e6) (rk := rp) (P := fp) (mx := none)
    ⟨by simp [Sections.writeOut, filledFraction, givenTotal], by
      intro y hy
      simp only [List.mem_cons, List.not_mem_nil, or_false] at hy
      rcases hy with rfl | rfl
      · exact ⟨sand_isRock, fun i => (hsf i).1⟩
      · exact ⟨shale_isRock, fun i => sub_nonneg.mpr (hsf i).2⟩,
      fun _ => by norm_num, rfl, rfl, rfl, rfl, rfl⟩
    (T := fun _ => 75)
    (pores := [⟨.oil (c 800) (c 153) (c 0.5), none, fun i => oil1 (fp i), fun i => 1 - (sb i + sg i)⟩,
      ⟨.brine (c 45000), none, fun i => brine1 (fp i), sb⟩, ⟨.gas (c 0.5), none, fun i => gas1 (fp i), sg⟩])
    ⟨by simp [Sections.writeOut, filledFraction, givenTotal], rfl, by simp, by
      intro y hy
      simp only [List.mem_cons, List.not_mem_nil, or_false] at hy
      rcases hy with rfl | rfl | rfl
      · exact .oil (fun _ => 800) (fun _ => 153) (fun _ => 0.5) (fun _ => by norm_num) (fun i => ⟨(hfp i).1.le, (hfp i).2.trans (by norm_num)⟩) (fun _ => by norm_num)
          (fun _ => by norm_num) (fun _ => by norm_num)
      · exact .brine (fun _ => 45000) (fun _ => by norm_num) (fun i => ⟨(hfp i).1.le, (hfp i).2.trans (by norm_num)⟩) (fun _ => by norm_num)
      · exact .gas (fun _ => 0.5) (fun _ => by norm_num) (fun i => (hfp i).1) (fun _ => by norm_num),
      by simp [Sections.writeOut, example1Sections], by
      intro y hy i
      simp only [List.mem_cons, List.not_mem_nil, or_false] at hy
      rcases hy with rfl | rfl | rfl
      · exact sub_nonneg.mpr (hsat i).2.2
      · exact (hsat i).1
      · exact (hsat i).2.1,
      fun i => by simp only [poreTotal, List.map_cons, List.map_nil, List.sum_cons, List.sum_nil]; norm_num⟩
    (.wood rfl ⟨by simp, fun i => by
      simp only [poreTotal, List.map_cons, List.map_nil, List.sum_cons, List.sum_nil]; norm_num⟩)
    (φ := φ) (φc := fun _ => 0.4) (cf := fun _ => 0.04) (u := fun _ => 0.1) (plb := fun _ => 20e6)
    (f := fun _ => 0.5) (N := none) rfl cement_isRock rfl rfl
    (fun i => ⟨by rw [hmin]; exact sandShale_poisson (hsf i), by
      rw [hmin]; exact cement_range (sandShale_bounds (hsf i)).2⟩)
    (fun i => (hφ i).1) (fun i => (hφ i).2.trans (by norm_num)) (fun i => (hφ i).2.trans (by norm_num))
    (fun i => (hφ i).2.trans (by norm_num)) (fun _ => by norm_num) (fun _ => by norm_num) (fun _ => by norm_num)
    (fun i => by rw [heff]; exact sub_pos.mpr (hrp i).2) (fun _ => by norm_num) (fun _ => by norm_num)
    (fun _ => by norm_num [coordination, Published.murphy])
    (fun i => by
      rw [hmin, heff]
      have hb := sandShale_bounds (hsf i)
      have hd := dense_bounds hb.1 hb.2
      refine ⟨hertzMindlin_softer (by linarith [hd.1]) ⟨by linarith [hd.2.1], hd.2.2⟩ (by norm_num)
        ⟨by linarith [(hrp i).2], by linarith [(hrp i).1]⟩
        (by norm_num [coordination, Published.murphy]), lt_of_lt_of_le (contactCement_soft hb.1 hb.2) hd.1, ?_⟩
      refine lt_of_le_of_lt (poreFluid1_soft (hfp i) (hsat i).1 (hsat i).2.1 (hsat i).2.2) (lt_of_lt_of_le ?_ hd.1)
      norm_num)
  rw [hmin, heff] at h
  exact h

end OPE.Shipped
