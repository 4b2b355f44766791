import Verif.Props.Shipped6

/-!
# C113: the packaged tutorial
-/

namespace OPE.Shipped

open Parse

variable {n : ℕ}

/-- The sections of tutorial_config/tutorial_config.yaml of the package. -/
noncomputable def tutorialSections (sf sb : Fin n → ℝ) : Sections n where
  minerals := [⟨Mat.ofReal (fun _ => 36e9) (fun _ => 44e9) (fun _ => 2650), some (finC sf)⟩,
    ⟨Mat.ofReal (fun _ => 11e9) (fun _ => 4.5e9) (fun _ => 1), none⟩]
  temperature := c 75
  fluids := [⟨.oil (c 800) (c 153) (c 0.5), none, none⟩, ⟨.brine (c 45000), none, some (finC sb)⟩]
  mixMethod := .wood
  brieConstant := Num.fin 3
  brieGases := none
  fluidModel := .default
  sandModel := .patchy (mkPatchyModel (Mat.ofReal (fun _ => 36.8e9) (fun _ => 44e9) (fun _ => 2650)) (c 0.4) (c 0.04)
    (c 20e6) (c 0.1) (some (c 9)) (c 1))
  porosity := c 0.3
  adjustments := []
  overburden := c 50e6
  reference := c 30e6
  fluidPressure := some (c 40e6)
  maxEffective := some (c 100e6)
  rockPressure := some (c 42e6)

theorem read_tutorial (conv : Conv) {rows : Fin n → DataRow} {sf sb : Fin n → ℝ}
    (h1 : HasColumn rows "sand_fraction" sf) (h2 : HasColumn rows "brine_saturation" sb) :
    reading conv tutorial n rows = .ok (tutorialSections sf sb) := by
  have m1 := read_material (n := n) conv 36e9 44e9 2650 (by norm_num) (by norm_num) (by norm_num)
  have m2 := read_material (n := n) conv 11e9 4.5e9 1 (by norm_num) (by norm_num) (by norm_num)
  have m3 := Main.exRead_arbitrary (n := n) conv 36.8e9 44e9 2650 (by norm_num) (by norm_num) (by norm_num)
  have m4 := read_oil (n := n) conv 800 153 0.5
  have m5 := read_brine (n := n) conv 45000
  unfold Main.num at m3
  have m7 : parseSandstone conv (.dict [("type", .str "patchy_cement"),
      ("cement", .dict [("bulk_modulus", .scalar (.num (Num.fin 36.8e9))),
      ("shear_modulus", .scalar (.num (Num.fin 44e9))), ("density", .scalar (.num (Num.fin 2650)))]),
      ("cement_fraction", .scalar (.num (Num.fin 0.04))), ("lower_bound_pressure", .scalar (.num (Num.fin 20e6))),
      ("upper_bound_cement_fraction", .scalar (.num (Num.fin 0.1))), ("coordination_number", .scalar (.num (Num.fin 9))),
      ("critical_porosity", .scalar (.num (Num.fin 0.4))), ("shear_reduction", .scalar (.num (Num.fin 1)))] : Val n)
      = .ok (.patchy (mkPatchyModel (Mat.ofReal (fun _ => 36.8e9) (fun _ => 44e9) (fun _ => 2650)) (c 0.4) (c 0.04)
        (c 20e6) (c 0.1) (some (c 9)) (c 1))) := by
    simp [parseSandstone, firstOf, into, parsePatchy, args, named, tagged, defaulted, List.lookup, literal, m3, toCol, orReject,
      Scalar.toNum, Parse.optional]
    rfl
  simp [reading, readWith, tutorial, insertDataframe, List.lookup, mapArr, mapArrDict, mapArrList,
    insertFrame, insertFrameDict, insertFrameList, num, Frame.get, wrapColumnError, h1.frame, h2.frame,
    parseSections, parseMinerals, args, named, defaulted, listOf, eachOf, parseFluids,
    parseDryRock, parsePressure, toMinerals, toMineral, toMethod, parseConstituent, required, m1, m2, m4, m5, m7,
    Parse.optional, toCol, orReject, Scalar.toNum, Cell.toNum, reject, vec_fin]
  rfl

/-- **C113, the tutorial of the package.** It is read and calculated for all data with the two columns it refers
to, each between 0 and 1. -/
theorem C113_packaged_tutorial (co2 : CO2Model n) (conv : Conv) {rows : Fin n → DataRow} {sf sb : Fin n → ℝ}
    (h1 : HasColumn rows "sand_fraction" sf) (h2 : HasColumn rows "brine_saturation" sb)
    (hsf : ∀ i, 0 ≤ sf i ∧ sf i ≤ 1) (hsb : ∀ i, 0 ≤ sb i ∧ sb i ≤ 1) :
    (reading conv tutorial n rows >>= calculate co2) = .ok (tableOf (fun i => sandShale (sf i))
      (fun i => cementedSand (sandShale (sf i)) 0.3 8e6 1 9) (fun i => densePack (sandShale (sf i)))
      (fun i => poreFluid2 40e6 (sb i)) fun _ => 0.3) := by
  rw [read_tutorial conv h1 h2, bind_ok]
  rw [C110_omitted_fractions co2 (tutorialSections sf sb)
    [⟨Mat.ofReal (fun _ => 36e9) (fun _ => 44e9) (fun _ => 2650), some sf⟩,
      ⟨Mat.ofReal (fun _ => 11e9) (fun _ => 4.5e9) (fun _ => 1), none⟩]
    [⟨.oil (c 800) (c 153) (c 0.5), none, none⟩, ⟨.brine (c 45000), none, some sb⟩]
    rfl rfl (by simp) (by simp)]
  have hmin : mineralAt (n := n) (Mat.ofReal (fun _ => 36e9) (fun _ => 44e9) (fun _ => 2650), (fun _ => sand), sf)
      [(Mat.ofReal (fun _ => 11e9) (fun _ => 4.5e9) (fun _ => 1), (fun _ => shale), fun i => 1 - sf i)]
      = fun i => sandShale (sf i) := funext fun i => sandShale_eq (sf i)
  have heff : effectiveAt (n := n) (some fun _ => 100e6) (fun _ => 50e6) (fun _ => 42e6) = fun _ => 8e6 := by
    funext i; simp only [effectiveAt, Published.effective, Option.map_some]; norm_num
  have h := C105_patchy_softer co2
    (s := (tutorialSections sf sb).writeOut
      [⟨Mat.ofReal (fun _ => 36e9) (fun _ => 44e9) (fun _ => 2650), some sf⟩,
        ⟨Mat.ofReal (fun _ => 11e9) (fun _ => 4.5e9) (fun _ => 1), none⟩]
      [⟨.oil (c 800) (c 153) (c 0.5), none, none⟩, ⟨.brine (c 45000), none, some sb⟩])
    (x := (Mat.ofReal (fun _ => 36e9) (fun _ => 44e9) (fun _ => 2650), (fun _ => sand), sf))
    (L := [(Mat.ofReal (fun _ => 11e9) (fun _ => 4.5e9) (fun _ => 1), (fun _ => shale), fun i => 1 - sf i)])
    (ob := fun _ => 50e6) (rf := fun _ => 30e6) (rk := fun _ => 42e6) (P := fun _ => 40e6) (mx := some fun _ => 100e6)
    ⟨by simp [Sections.writeOut, filledFraction, givenTotal], by
      intro y hy
      simp only [List.mem_cons, List.not_mem_nil, or_false] at hy
      rcases hy with rfl | rfl
      · exact ⟨sand_isRock, fun i => (hsf i).1⟩
      · exact ⟨shale_isRock, fun i => sub_nonneg.mpr (hsf i).2⟩,
      fun _ => by norm_num, rfl, rfl, rfl, rfl, rfl⟩
    (T := fun _ => 75)
    (pores := [⟨.oil (c 800) (c 153) (c 0.5), none, fun _ => oil1 40e6, fun i => 1 - sb i⟩,
      ⟨.brine (c 45000), none, fun _ => brine1 40e6, sb⟩])
    ⟨by simp [Sections.writeOut, filledFraction, givenTotal], rfl, by simp, by
      intro y hy
      simp only [List.mem_cons, List.not_mem_nil, or_false] at hy
      rcases hy with rfl | rfl
      · exact .oil (fun _ => 800) (fun _ => 153) (fun _ => 0.5) (fun _ => by norm_num) (fun i => by norm_num) (fun _ => by norm_num)
          (fun _ => by norm_num) (fun _ => by norm_num)
      · exact .brine (fun _ => 45000) (fun _ => by norm_num) (fun i => by norm_num) (fun _ => by norm_num),
      by simp [Sections.writeOut, tutorialSections], by
      intro y hy i
      simp only [List.mem_cons, List.not_mem_nil, or_false] at hy
      rcases hy with rfl | rfl
      · exact sub_nonneg.mpr (hsb i).2
      · exact (hsb i).1,
      fun i => by simp only [poreTotal, List.map_cons, List.map_nil, List.sum_cons, List.sum_nil]; norm_num⟩
    (.wood rfl ⟨by simp, fun i => by
      simp only [poreTotal, List.map_cons, List.map_nil, List.sum_cons, List.sum_nil]; norm_num⟩)
    (φ := fun _ => 0.3) (φc := fun _ => 0.4) (cf := fun _ => 0.04) (u := fun _ => 0.1) (plb := fun _ => 20e6)
    (f := fun _ => 1) (N := some fun _ => 9) rfl cement_isRock rfl rfl
    (fun i => ⟨by rw [hmin]; exact sandShale_poisson (hsf i), by
      rw [hmin]; exact cement_range (sandShale_bounds (hsf i)).2⟩)
    (fun _ => by norm_num) (fun _ => by norm_num) (fun _ => by norm_num) (fun _ => by norm_num) (fun _ => by norm_num)
    (fun _ => by norm_num) (fun _ => by norm_num)
    (fun i => by rw [heff]; norm_num) (fun _ => by norm_num) (fun _ => by norm_num)
    (fun _ => by norm_num [coordination])
    (fun i => by
      rw [hmin, heff]
      have hb := sandShale_bounds (hsf i)
      have hd := dense_bounds hb.1 hb.2
      refine ⟨hertzMindlin_softer (by linarith [hd.1]) ⟨by linarith [hd.2.1], hd.2.2⟩ (by norm_num) (by norm_num)
        (by norm_num [coordination]), lt_of_lt_of_le (contactCement_soft hb.1 hb.2) hd.1, ?_⟩
      refine lt_of_le_of_lt (poreFluid2_soft (P := 40e6) (sb := sb i) (by norm_num) (hsb i)) (lt_of_lt_of_le ?_ hd.1)
      norm_num)
  rw [hmin, heff] at h
  exact h

/-- tutorial_config/tutorial_data.csv of the package. -/
noncomputable def tutorialData : Fin 3 → DataRow := fun i name =>
  match name with
  | "sand_fraction" => some (.num (Num.fin (![0.3, 0.5, 0.6] i)))
  | "brine_saturation" => some (.num (Num.fin (![0.1, 0.2, 0.3] i)))
  | "porosity" => some (.num (Num.fin (![0.24, 0.25, 0.26] i)))
  | _ => none

/-- The packaged tutorial on the packaged data. -/
example (co2 : CO2Model 3) (conv : Conv) : ∃ r, (reading conv tutorial 3 tutorialData >>= calculate co2) = .ok r :=
  ⟨_, C113_packaged_tutorial co2 conv (sf := ![0.3, 0.5, 0.6]) (sb := ![0.1, 0.2, 0.3]) (fun _ => rfl) (fun _ => rfl)
    (fun i => by fin_cases i <;> norm_num) (fun i => by fin_cases i <;> norm_num)⟩

/-- One row of examples/example1.csv, examples/example2.csv and example3.csv (rounded). -/
noncomputable def exampleData : Fin 1 → DataRow := fun _ name =>
  match name with
  | "sand_fraction" => some (.num (Num.fin 0.8372))
  | "brine_saturation" => some (.num (Num.fin 0.4))
  | "gas_saturation" => some (.num (Num.fin 0.1))
  | "porosity" => some (.num (Num.fin 0.0431))
  | "fluid_pressure" => some (.num (Num.fin 29e6))
  | "rock_pressure" => some (.num (Num.fin 29e6))
  | "depth" => some (.num (Num.fin 3000))
  | _ => none

example (co2 : CO2Model 1) (conv : Conv) : ∃ r, (reading conv example1 1 exampleData >>= calculate co2) = .ok r :=
  ⟨_, C112_example1 co2 conv (sf := fun _ => 0.8372) (sb := fun _ => 0.4) (sg := fun _ => 0.1) (φ := fun _ => 0.0431)
    (fp := fun _ => 29e6) (rp := fun _ => 29e6) (fun _ => rfl) (fun _ => rfl) (fun _ => rfl) (fun _ => rfl) (fun _ => rfl)
    (fun _ => rfl) (fun _ => by norm_num) (fun _ => by norm_num) (fun _ => by norm_num) (fun _ => by norm_num) (fun _ => by norm_num)⟩

example (co2 : CO2Model 1) (conv : Conv) : ∃ r, (reading conv example2 1 exampleData >>= calculate co2) = .ok r :=
  ⟨_, C112_example2 co2 conv (sf := fun _ => 0.8372) (sb := fun _ => 0.4) (φ := fun _ => 0.0431)
    (fp := fun _ => 29e6) (rp := fun _ => 29e6) (d := fun _ => 3000) (fun _ => rfl) (fun _ => rfl) (fun _ => rfl) (fun _ => rfl)
    (fun _ => rfl) (fun _ => rfl)
    (fun _ => by norm_num) (fun _ => by norm_num) (fun _ => by norm_num) (fun _ => by norm_num) (fun _ => by norm_num) (fun _ => by norm_num)⟩

example (co2 : CO2Model 1) (conv : Conv) : ∃ r, (reading conv example3 1 exampleData >>= calculate co2) = .ok r :=
  ⟨_, C112_example3 co2 conv (sf := fun _ => 0.8372) (sb := fun _ => 0.4) (φ := fun _ => 0.0431)
    (fp := fun _ => 29e6) (rp := fun _ => 29e6) (d := fun _ => 3000) (fun _ => rfl) (fun _ => rfl) (fun _ => rfl) (fun _ => rfl)
    (fun _ => rfl) (fun _ => rfl)
    (fun _ => by norm_num) (fun _ => by norm_num) (fun _ => by norm_num) (fun _ => by norm_num) (fun _ => by norm_num) (fun _ => by norm_num)⟩

end OPE.Shipped
