import Verif.Props.Shipped7
import Verif.Props.Schema2
import Verif.Props.Document5

/-!
# C113: the configuration blocks of the documentation
-/

namespace OPE.Shipped

open Parse

variable {n : ℕ}

/-! ### The blocks that are refused -/

theorem shape_dict {F : List Doc.Field} {xs : List (String × Yaml)} (h : Schema.Shape F (.dict xs)) :
    Schema.Fields F xs := by
  rcases h with ⟨ys, hy, h⟩ | ⟨vs, hv, -⟩
  · injection hy with hy; subst hy; exact h
  · cases hv

theorem shape_opt {F : List Doc.Field} {xs : List (String × Yaml)} {key : String} {P : Yaml → Prop} {y : Yaml}
    (h : Schema.Shape F (.dict xs)) (hm : Schema.opt key P ∈ F) (hl : xs.lookup key = some y) : P y := by
  have hf := (shape_dict h).2
  have h1 := hf _ hm
  change (xs.lookup key = none ∧ True) ∨ ∃ z, xs.lookup key = some z ∧ P z at h1
  rw [hl] at h1
  rcases h1 with ⟨h1, -⟩ | ⟨z, h1, h2⟩
  · cases h1
  · injection h1 with h1; subst h1; exact h2

theorem shape_need {F : List Doc.Field} {xs : List (String × Yaml)} {key : String} {P : Yaml → Prop} {y : Yaml}
    (h : Schema.Shape F (.dict xs)) (hm : Doc.need key P ∈ F) (hl : xs.lookup key = some y) : P y := by
  have hf := (shape_dict h).2
  have h1 := hf _ hm
  change ∃ z, xs.lookup key = some z ∧ P z at h1
  rw [hl] at h1
  obtain ⟨z, h1, h2⟩ := h1
  injection h1 with h1; subst h1; exact h2

theorem shape_only {F : List Doc.Field} {xs : List (String × Yaml)} (h : Schema.Shape F (.dict xs)) (k : String)
    (hk : k ∈ xs.map Prod.fst) (hu : k ∉ F.map Prod.fst) : False := by
  have ho := (shape_dict h).1
  obtain ⟨x, hx, rfl⟩ := List.mem_map.mp hk
  exact hu (ho x hx)

/-- **C113, refuted for two blocks of the getting started guide.** A configuration with the fluids section, or with
the dry rock section, of docs/getting_started_with_the_config_file_format.md is rejected whatever the other sections
and the data: the fluids section has the key `pressure`, and the pressure dependency of the dry rock has the keys
`overburden_pressure`, `pressure` and `reference_pressure`, which are all unknown. -/
theorem C113_getting_started_refuted (conv : Conv) (rows : Fin n → DataRow) (xs : List (String × Yaml)) (section_ : Yaml) :
    (docFluids = .dict [("fluids", section_)] → xs.lookup "fluids" = some section_ →
      ∀ s, reading conv (.dict xs) n rows ≠ .ok s) ∧
    (docDryRock = .dict [("dry_rock", section_)] → xs.lookup "dry_rock" = some section_ →
      ∀ s, reading conv (.dict xs) n rows ≠ .ok s) := by
  constructor
  · intro hd hx s h
    obtain rfl : _ = section_ := by
      unfold docFluids at hd; simpa only [Cfg.dict.injEq, List.cons.injEq, Prod.mk.injEq, true_and, and_true] using hd
    exact C86_section_in_file conv _ _ _ (name := "fluids") (k := "pressure") (by simp) hx (by simp)
      (by simp [sectionKeys]) s h
  · intro hd hx s h
    obtain rfl : _ = section_ := by
      unfold docDryRock at hd; simpa only [Cfg.dict.injEq, List.cons.injEq, Prod.mk.injEq, true_and, and_true] using hd
    have hc := Schema.C115_schema conv rows _ s h
    have h1 := shape_opt (.inl hc) (key := "dry_rock") (.tail _ (.tail _ (.tail _ (.head _)))) hx
    have h2 := shape_opt h1 (key := "adjustments") (.tail _ (.tail _ (.head _))) rfl
    obtain ⟨ys, hy, hl⟩ := h2
    injection hy with hy
    subst hy
    rcases hl _ (List.mem_cons_self ..) with h3 | h3
    · exact shape_only h3 "model" (by simp) (by simp [Schema.opt, Doc.may, Doc.need])
    · have h4 := shape_need h3 (key := "model") (.head _) rfl
      rcases h4 with h4 | h4 | h4 | h4 <;>
        exact shape_only h4 "overburden_pressure" (by simp) (by simp [Schema.opt, Doc.may, Doc.need])

/-! ### The blocks that are accepted -/

theorem defaultOil_soft : (Published.oil 80 70e6 850 100 0.7).K ≤ 4e9 := by
  have hw : Published.deadWeight 100 = 0 := by norm_num [Published.deadWeight]
  show 1000 * (Published.deadWeight 100 * _ + (1 - Published.deadWeight 100) * Published.liveOilDensity 80 (850 / 1000) 100 0.7)
    * (Published.deadWeight 100 * _ + (1 - Published.deadWeight 100) *
      Published.oilVelocity 80 (70e6 * 1e-6) (Published.pseudoDensity 80 (850 / 1000) 100 0.7)) ^ 2 ≤ 4e9
  rw [hw]
  simp only [zero_mul, zero_add, sub_zero, one_mul, Published.liveOilDensity, Published.pseudoDensity]
  have B : 0.972 ≤ Published.volumeFactor 80 (850 / 1000) 100 0.7 ∧ Published.volumeFactor 80 (850 / 1000) 100 0.7 ≤ 3.2 := by
    unfold Published.volumeFactor
    have s0 : (0.7 / (850 / 1000) : ℝ) ^ (1 / 2 : ℝ) ≤ 0.91 := by
      rw [← Real.sqrt_eq_rpow]
      exact (Real.sqrt_le_left (by norm_num)).mpr (by norm_num)
    have s1 : (0 : ℝ) ≤ (0.7 / (850 / 1000) : ℝ) ^ (1 / 2 : ℝ) := by positivity
    generalize (0.7 / (850 / 1000) : ℝ) ^ (1 / 2 : ℝ) = s at *
    have x0 : 1 ≤ 2.4 * 100 * s + 80 + 17.8 := by linarith
    have x1 : 2.4 * 100 * s + 80 + 17.8 ≤ 324 := by linarith
    generalize 2.4 * 100 * s + 80 + 17.8 = x at *
    have y0 : 0 ≤ x ^ (1.175 : ℝ) := Real.rpow_nonneg (by linarith) _
    have y1 : x ^ (1.175 : ℝ) ≤ 5832 := by
      calc x ^ (1.175 : ℝ) ≤ x ^ (1.5 : ℝ) := Real.rpow_le_rpow_of_exponent_le x0 (by norm_num)
        _ ≤ 324 ^ (1.5 : ℝ) := Real.rpow_le_rpow (by linarith) x1 (by norm_num)
        _ = ((18 : ℝ) ^ (2 : ℝ)) ^ (1.5 : ℝ) := by norm_num
        _ = 5832 := by rw [← Real.rpow_mul (by norm_num)]; norm_num
    constructor <;> linarith
  generalize Published.volumeFactor 80 (850 / 1000) 100 0.7 = b at B
  have hb : 0 < b := by linarith [B.1]
  have r0 : (850 / 1000 + 0.0012 * 0.7 * 100) / b ≤ 1 := by
    rw [div_le_one hb]; norm_num; linarith [B.1]
  have r1 : 0 ≤ (850 / 1000 + 0.0012 * 0.7 * 100) / b := by positivity
  have q0 : 850 / 1000 / b * (1 + 0.001 * 100)⁻¹ ≤ 0.8 := by
    have : (850 / 1000 : ℝ) / b ≤ 0.88 := by rw [div_le_iff₀ hb]; linarith [B.1]
    norm_num at *; linarith
  have q1 : 0.24 ≤ 850 / 1000 / b * (1 + 0.001 * 100)⁻¹ := by
    have : 0.265 ≤ (850 / 1000 : ℝ) / b := by rw [le_div_iff₀ hb]; linarith [B.2]
    norm_num at *; linarith
  generalize 850 / 1000 / b * (1 + 0.001 * 100)⁻¹ = q at *
  have v : |Published.oilVelocity 80 (70e6 * 1e-6) q| ≤ 2000 := by
    unfold Published.oilVelocity
    have a0 : (q / (2.6 - q)) ^ (1 / 2 : ℝ) ≤ 0.67 := by
      rw [← Real.sqrt_eq_rpow]
      refine (Real.sqrt_le_left (by norm_num)).mpr ?_
      rw [div_le_iff₀ (by linarith)]
      norm_num at *; linarith
    have a1 : 0 ≤ (q / (2.6 - q)) ^ (1 / 2 : ℝ) := Real.rpow_nonneg (by apply div_nonneg <;> linarith) _
    have d0 : 0 ≤ 1.08 / q - 1 := by rw [sub_nonneg, one_le_div (by linarith)]; linarith
    have d1 : 1.08 / q - 1 ≤ 3.61 := by
      rw [sub_le_iff_le_add, div_le_iff₀ (by linarith)]; linarith
    have c0 : (1.08 / q - 1) ^ (1 / 2 : ℝ) ≤ 1.9 := by
      rw [← Real.sqrt_eq_rpow]
      exact (Real.sqrt_le_left (by norm_num)).mpr (by norm_num at *; linarith)
    have c1 : 0 ≤ (1.08 / q - 1) ^ (1 / 2 : ℝ) := Real.rpow_nonneg d0 _
    generalize (q / (2.6 - q)) ^ (1 / 2 : ℝ) = x at *
    generalize (1.08 / q - 1) ^ (1 / 2 : ℝ) = y at *
    rw [abs_le]
    norm_num at *
    constructor <;> linarith
  have v2 : Published.oilVelocity 80 (70e6 * 1e-6) q ^ 2 ≤ 2000 ^ 2 := sq_le_sq' (by linarith [(abs_le.mp v).1]) (abs_le.mp v).2
  calc _ ≤ 1000 * 1 * (2000 : ℝ) ^ 2 := mul_le_mul (by linarith) v2 (by positivity) (by norm_num)
    _ ≤ _ := by norm_num

/-- The default pore fluid is softer than 8 GPa. -/
theorem defaultFluid_soft : defaultFluid.K < 8e9 := by
  obtain ⟨b1, b2⟩ := defaultBrine_K
  have o4 := defaultOil_soft
  have none1 : CO2Model 1 := fun _ _ _ => .error .notImplemented
  obtain ⟨-, -, o1, -, -, o2⟩ := (FluidKind.Describes.oil (n := 1) (T := fun _ => 80) (P := fun _ => 70e6)
    (fun _ => 850) (fun _ => 100) (fun _ => 0.7) (fun _ => by norm_num) (fun _ => by norm_num)
    (fun _ => by norm_num) (fun _ => by norm_num) (fun _ => by norm_num)).asMaterial none1 (pv := .default) (by simp)
  obtain ⟨-, -, g1, -, -, g2⟩ := (FluidKind.Describes.gas (n := 1) (T := fun _ => 80) (P := fun _ => 70e6)
    (fun _ => 0.7) (fun _ => by norm_num) (fun _ => by norm_num) (fun _ => by norm_num)).asMaterial none1
    (pv := .default) (by simp)
  have o3 : 0 < (Published.oil 80 70e6 850 100 0.7).K := (o2 0).1
  have g3 : 0 < (Published.gas 80 70e6 0.7).K := (g2 0).1
  simp only [defaultFluid, Published.wood, List.map_cons, List.map_nil, List.sum_cons, List.sum_nil]
  norm_num only
  have p1 : 3 / 10 / 4e9 ≤ 3 / 10 / (Published.oil 80 70e6 850 100 0.7).K := by gcongr
  have p2 : 0 < 2 / 5 / (Published.gas 80 70e6 0.7).K := by positivity
  have p3 : 3 / 10 / 6e9 ≤ 3 / 10 / (Published.brine 80 70e6 50000).K := by gcongr
  norm_num only at o3 g3 p1 p2 p3 b1 b2 ⊢
  rw [inv_lt_comm₀ (by linarith) (by norm_num)]
  norm_num only
  linarith

/-- The default sections with other minerals and another dry rock. -/
noncomputable def withDefaults (M : List (MineralIn n)) (sm : SandModel n) (φ : Fin n → ℝ) (as : List (Adjustment n)) : Sections n :=
  { (defaultSections : Sections n) with minerals := M, sandModel := sm, porosity := finC φ, adjustments := as }

/-- With the default fluids and pressures, all minerals stiffer than 8 GPa will do. -/
theorem default_calculates (co2 : CO2Model n) {x : Mat n × (Fin n → Published.Rock) × (Fin n → ℝ)} {L : RockList n}
    (hr : ∀ y ∈ x :: L, y.1.IsRock y.2.1 ∧ ∀ i, 0 ≤ y.2.2 i) (hf : ∀ i, |((x :: L).map fun y => y.2.2 i).sum - 1| ≤ 1e-5)
    (hx : x.1.Coherent) {sm : SandModel n} {φ : Fin n → ℝ} {as : List (Adjustment n)} {sand dry : Fin n → Published.Rock}
    (hmodel : sm.Gives (mineralAt x L) φ (fun _ => 30e6) sand (mineralAt x L)) (hv : ∀ i, (sand i).Valid)
    (hadj : Adjusts (mineralAt x L) φ (fun _ => 30e6) (fun _ => 70e6) (fun _ => 70e6) as sand dry)
    (hrow : ∀ i, 0 < φ i ∧ (dry i).K < (mineralAt x L i).K ∧ 8e9 ≤ (mineralAt x L i).K) :
    calculate co2 (withDefaults ((x :: L).map fun y => ⟨y.1, some (finC y.2.2)⟩) sm φ as) =
      .ok (tableOf (mineralAt x L) dry (mineralAt x L) (fun _ => defaultFluid) φ) := by
  have hpores : Sections.Pores (withDefaults ((x :: L).map fun y => ⟨y.1, some (finC y.2.2)⟩) sm φ as) (fun _ => 80) (fun _ => 70e6)
      [⟨.oil (finC fun _ => 850) (finC fun _ => 100) (finC fun _ => 0.7), none,
          fun _ => Published.oil 80 70e6 850 100 0.7, fun _ => 0.3⟩,
        ⟨.brine (finC fun _ => 50000), none, fun _ => Published.brine 80 70e6 50000, fun _ => 0.3⟩,
        ⟨.gas (finC fun _ => 0.7), none, fun _ => Published.gas 80 70e6 0.7, fun _ => 0.4⟩] := by
    refine ⟨rfl, rfl, by simp, ?_, ?_, ?_, fun i => by norm_num [poreTotal]⟩
    · intro y hy
      simp only [List.mem_cons, List.not_mem_nil, or_false] at hy
      rcases hy with rfl | rfl | rfl
      · exact .oil _ _ _ (fun _ => by norm_num) (fun _ => by norm_num) (fun _ => by norm_num)
          (fun _ => by norm_num) (fun _ => by norm_num)
      · exact .brine _ (fun _ => by norm_num) (fun _ => by norm_num) (fun _ => by norm_num)
      · exact .gas _ (fun _ => by norm_num) (fun _ => by norm_num) (fun _ => by norm_num)
    · intro y hy
      simp only [List.mem_cons, List.not_mem_nil, or_false] at hy
      rcases hy with rfl | rfl | rfl <;> simp [withDefaults, Parse.defaultSections]
    · intro y hy
      simp only [List.mem_cons, List.not_mem_nil, or_false] at hy
      rcases hy with rfl | rfl | rfl <;> norm_num
  have hmix : Sections.Mixes (withDefaults ((x :: L).map fun y => ⟨y.1, some (finC y.2.2)⟩) sm φ as) _ (fun _ => defaultFluid) :=
    Sections.Mixes.wood rfl
    (L := [⟨.oil (finC fun _ => 850) (finC fun _ => 100) (finC fun _ => 0.7), none,
          fun _ => Published.oil 80 70e6 850 100 0.7, fun _ => 0.3⟩,
        ⟨.brine (finC fun _ => 50000), none, fun _ => Published.brine 80 70e6 50000, fun _ => 0.3⟩,
        ⟨.gas (finC fun _ => 0.7), none, fun _ => Published.gas 80 70e6 0.7, fun _ => 0.4⟩])
    ⟨by simp, fun i => by norm_num [poreTotal]⟩
  have heff : effectiveAt (n := n) none (fun _ => 100e6) (fun _ => 70e6) = fun _ => 30e6 := by
    funext i; simp only [effectiveAt, Published.effective, Option.map_none]; norm_num
  have href : effectiveAt (n := n) none (fun _ => 100e6) (fun _ => 30e6) = fun _ => 70e6 := by
    funext i; simp only [effectiveAt, Published.effective, Option.map_none]; norm_num
  exact C109_all_dry_rocks_and_adjustments co2 (ob := fun _ => 100e6) (rf := fun _ => 30e6) (rk := fun _ => 70e6)
    (P := fun _ => 70e6) (mx := none) ⟨rfl, hr, hf, rfl, rfl, rfl, rfl, rfl⟩ hx hpores hmix rfl
    (by rw [heff]; exact hmodel) hv (by rw [heff, href]; exact hadj)
    fun i => ⟨(hrow i).1, (hrow i).2.1, defaultFluid_soft.trans_le (hrow i).2.2⟩

/-- The fluids of the defaults, as written. -/
noncomputable def defaultGiven : List (FluidGiven n) :=
  [⟨.oil (c 850) (c 100) (c 0.7), none, some fun _ => 0.3⟩, ⟨.brine (c 50000), none, some fun _ => 0.3⟩,
    ⟨.gas (c 0.7), none, some fun _ => 0.4⟩]

/-- The default polynomial rock. -/
noncomputable def defaultModel : SandModel n := (defaultSections : Sections n).sandModel

theorem defaultModel_gives (a : Fin n → Published.Rock) (φ p : Fin n → ℝ) :
    (defaultModel : SandModel n).Gives a φ p (fun i => porous (a i) (φ i)) a := by
  have := SandModel.Gives.moduli (a := a) (φ := φ) (p := p) (some defaultDensity) (some (rowCoeffs 2900 (-1300)))
    (some (rowCoeffs 1700 (-800)))
  simp only [Option.getD_some, porous_eq] at this
  exact this

theorem read_docMinerals (conv : Conv) (rows : Fin n → DataRow) :
    reading conv docMinerals n rows = .ok (withDefaults [⟨Mat.ofReal (fun _ => 36e9) (fun _ => 44e9) (fun _ => 2650), some (finC fun _ => 0.5)⟩,
      ⟨Mat.ofReal (fun _ => 11e9) (fun _ => 4.5e9) (fun _ => 1), none⟩] defaultModel (fun _ => 0.3) []) := by
  have m1 := read_material (n := n) conv 36e9 44e9 2650 (by norm_num) (by norm_num) (by norm_num)
  have m2 := read_material (n := n) conv 11e9 4.5e9 1 (by norm_num) (by norm_num) (by norm_num)
  simp [reading, readWith, docMinerals, insertDataframe, List.lookup, mapArr, mapArrDict, mapArrList,
    insertFrame, insertFrameDict, insertFrameList, num,
    parseSections, parseMinerals, args, named, defaulted, listOf, eachOf, parseFluids,
    parseDryRock, parsePressure, toMinerals, toMineral, parseConstituent, required, m1, m2,
    Parse.optional, toCol, orReject, Scalar.toNum, reject]
  rfl

/-- **C113, the minerals of the getting started guide.** The block is a configuration by itself; it is read and
calculated with every data file (all else has its default). -/
theorem C113_docs_minerals (co2 : CO2Model n) (conv : Conv) (rows : Fin n → DataRow) :
    (reading conv docMinerals n rows >>= calculate co2) = .ok (tableOf (fun _ => sandShale 0.5)
      (fun _ => porous (sandShale 0.5) 0.3) (fun _ => sandShale 0.5) (fun _ => defaultFluid) fun _ => 0.3) := by
  rw [read_docMinerals, bind_ok]
  rw [C110_omitted_fractions co2 _
    [⟨Mat.ofReal (fun _ => 36e9) (fun _ => 44e9) (fun _ => 2650), some fun _ => 0.5⟩,
      ⟨Mat.ofReal (fun _ => 11e9) (fun _ => 4.5e9) (fun _ => 1), none⟩] defaultGiven rfl rfl (by simp) (by simp [defaultGiven])]
  have hmin : mineralAt (n := n) (Mat.ofReal (fun _ => 36e9) (fun _ => 44e9) (fun _ => 2650), (fun _ => sand), fun _ => 0.5)
      [(Mat.ofReal (fun _ => 11e9) (fun _ => 4.5e9) (fun _ => 1), (fun _ => shale), fun _ => 1 - 0.5)]
      = fun _ => sandShale 0.5 := funext fun i => sandShale_eq 0.5
  have hb := sandShale_bounds (f := 0.5) (by norm_num)
  have h := default_calculates co2
    (x := (Mat.ofReal (fun _ => 36e9) (fun _ => 44e9) (fun _ => 2650), (fun _ => sand), fun _ => 0.5))
    (L := [(Mat.ofReal (fun _ => 11e9) (fun _ => 4.5e9) (fun _ => 1), (fun _ => shale), fun _ => 1 - 0.5)])
    (by
      intro y hy
      simp only [List.mem_cons, List.not_mem_nil, or_false] at hy
      rcases hy with rfl | rfl
      · exact ⟨sand_isRock, fun i => by norm_num⟩
      · exact ⟨shale_isRock, fun i => by norm_num⟩)
    (fun i => by norm_num) (ofReal_coherent (by norm_num) (by norm_num) (by norm_num))
    (defaultModel_gives _ (fun _ => 0.3) _)
    (by
      rw [hmin]
      have hρ : 0 < (sandShale 0.5).ρ := by simp only [sandShale, Published.lowerBound, sand, shale]; norm_num
      have := porous_bounds (φ := 0.3) hρ (by norm_num)
      exact fun i => ⟨by linarith [this.1.1], by linarith [this.2.1.1], this.2.2⟩)
    (.nil _)
    (by
      rw [hmin]
      exact fun i => ⟨by norm_num, by simp only [porous]; linarith [hb.1.1], by linarith [hb.1.1]⟩)
  rw [hmin] at h
  rw [← h]
  congr 1
  simp only [withDefaults, Sections.writeOut, defaultSections, defaultGiven, List.map_cons, List.map_nil, filledFraction, givenTotal]
  norm_num
  refine ⟨?_, rfl, rfl⟩
  funext i
  simp [finC]
  norm_num

theorem read_columns (conv : Conv) {K G ρ : Fin n → ℝ} (hK : ∀ i, 0 ≤ K i) (hG : ∀ i, 0 ≤ G i) (hρ : ∀ i, 0 < ρ i) {v : Val n}
    (hv : toCol conv v = .ok (finC ρ)) (hn : v ≠ .scalar .null) :
    parseMaterialType conv (.dict [("bulk_modulus", .arr (.col fun i => .num (Num.fin (K i)))),
      ("shear_modulus", .arr (.col fun i => .num (Num.fin (G i)))), ("density", v)] : Val n)
      = .ok (.material (Mat.ofReal K G ρ)) := by
  have hvp : calcVp (finC K) (finC G) (finC ρ) = finC (fun i => Real.sqrt ((K i + 4/3 * G i) / ρ i)) := by
    funext i
    have h1 : 0 ≤ (K i + 4/3 * G i) / ρ i :=
      div_nonneg (add_nonneg (hK i) (mul_nonneg (by norm_num) (hG i))) (hρ i).le
    simp [calcVp, (hρ i).ne', h1]
  have hvs : calcVs (finC G) (finC ρ) = finC (fun i => Real.sqrt (G i / ρ i)) := by
    funext i
    have h1 : 0 ≤ G i / ρ i := div_nonneg (hG i) (hρ i).le
    simp [calcVs, (hρ i).ne', h1]
  have h : parseArbitrary conv (.dict [("bulk_modulus", .arr (.col fun i => .num (Num.fin (K i)))),
      ("shear_modulus", .arr (.col fun i => .num (Num.fin (G i)))), ("density", v)] : Val n) = .ok (Mat.ofReal K G ρ) := by
    have e : ∀ x : Fin n → ℝ, toCol conv (.arr (.col fun i => .num (Num.fin (x i))) : Val n) = .ok (finC x) := by
      intro x
      simp only [toCol, Cell.toNum, orReject, vec_fin]
    simp [parseArbitrary, args, named, tagged, defaulted, required, Parse.optional, hv, e,
      List.lookup, setDefaults, hvp, hvs]
    rfl
  unfold parseMaterialType materialAlternatives firstOf parseMaterial
  rw [h]
  rfl

/-- **C113, the column references of the getting started guide.** Both blocks are configurations by themselves; with
every data file that has the columns, with bulk moduli from 8 GPa, they are read and calculated, with the mineral
properties of each row: of the second block, density 1000 in all rows. -/
theorem C113_docs_columns (co2 : CO2Model n) (conv : Conv) {rows : Fin n → DataRow} {k g ρ : Fin n → ℝ}
    (h1 : HasColumn rows "shale_k" k) (h2 : HasColumn rows "shale_s" g) (h3 : HasColumn rows "shale_r" ρ)
    (hk : ∀ i, 8e9 ≤ k i) (hg : ∀ i, 0 < g i) (hρ : ∀ i, 0 < ρ i) :
    (reading conv docColumns n rows >>= calculate co2) = .ok (tableOf (fun i => ⟨k i, g i, ρ i⟩)
      (fun i => porous ⟨k i, g i, ρ i⟩ 0.3) (fun i => ⟨k i, g i, ρ i⟩) (fun _ => defaultFluid) fun _ => 0.3) ∧
    (reading conv docColumns1000 n rows >>= calculate co2) = .ok (tableOf (fun i => ⟨k i, g i, 1000⟩)
      (fun i => porous ⟨k i, g i, 1000⟩ 0.3) (fun i => ⟨k i, g i, 1000⟩) (fun _ => defaultFluid) fun _ => 0.3) := by
  have key : ∀ r : Fin n → ℝ, (∀ i, 0 < r i) →
      calculate co2 (withDefaults [⟨Mat.ofReal k g r, none⟩] defaultModel (fun _ => 0.3) []) =
      .ok (tableOf (fun i => ⟨k i, g i, r i⟩)
      (fun i => porous ⟨k i, g i, r i⟩ 0.3) (fun i => ⟨k i, g i, r i⟩) (fun _ => defaultFluid) fun _ => 0.3) := by
    intro r hr
    rw [C110_omitted_fractions co2 _ [⟨Mat.ofReal k g r, none⟩] defaultGiven rfl rfl (by simp) (by simp [defaultGiven])]
    have hv : ∀ i, Published.Rock.Valid ⟨k i, g i, r i⟩ := fun i => ⟨by show 0 < k i; linarith [hk i], hg i, hr i⟩
    have hmin : mineralAt (n := n) (Mat.ofReal k g r, (fun i => ⟨k i, g i, r i⟩), fun _ => 1) []
      = fun i => ⟨k i, g i, r i⟩ := rfl
    have h := default_calculates co2
      (x := (Mat.ofReal k g r, (fun i => ⟨k i, g i, r i⟩), fun _ => 1)) (L := [])
      (by
        intro y hy
        simp only [List.mem_cons, List.not_mem_nil, or_false] at hy
        subst hy
        exact ⟨⟨rfl, rfl, rfl, hv⟩, fun i => by norm_num⟩)
      (fun i => by norm_num)
      (mkModuli_coherent (mkModuli_rock (n := n) (r := fun i => ⟨k i, g i, r i⟩) hv))
      (defaultModel_gives _ (fun _ => 0.3) _)
      (by
        rw [hmin]
        intro i
        have := porous_bounds (m := ⟨k i, g i, r i⟩) (φ := 0.3) (hr i) (by norm_num)
        exact ⟨by linarith [this.1.1], by linarith [this.2.1.1], this.2.2⟩)
      (.nil _)
      (by
        rw [hmin]
        exact fun i => ⟨by norm_num, by simp only [porous]; linarith [hk i], hk i⟩)
    rw [hmin] at h
    rw [← h]
    congr 1
    simp only [withDefaults, Sections.writeOut, defaultSections, defaultGiven, List.map_cons, List.map_nil, filledFraction, givenTotal]
    norm_num
    exact ⟨rfl, rfl⟩
  have hk0 : ∀ i, 0 ≤ k i := fun i => by linarith [hk i]
  constructor
  · have m := read_columns conv hk0 (fun i => (hg i).le) hρ (v := .arr (.col fun i => .num (Num.fin (ρ i))))
      (by simp only [toCol, Cell.toNum, orReject, vec_fin]) (by simp)
    have hread : reading conv docColumns n rows = .ok (withDefaults [⟨Mat.ofReal k g ρ, none⟩] defaultModel (fun _ => 0.3) []) := by
      simp [reading, readWith, docColumns, insertDataframe, List.lookup, mapArr, mapArrDict, mapArrList,
        insertFrame, insertFrameDict, insertFrameList, Frame.get, wrapColumnError, h1.frame, h2.frame, h3.frame,
        parseSections, parseMinerals, args, named, defaulted, listOf, eachOf, parseFluids,
        parseDryRock, parsePressure, toMinerals, toMineral, parseConstituent, required, m, reject]
      rfl
    rw [hread, bind_ok, key ρ hρ]
  · have m := read_columns conv hk0 (fun i => (hg i).le) (ρ := fun _ => 1000) (fun _ => by norm_num) (v := num 1000) rfl
      (by simp [num])
    unfold num at m
    have hread : reading conv docColumns1000 n rows = .ok (withDefaults [⟨Mat.ofReal k g fun _ => 1000, none⟩] defaultModel (fun _ => 0.3) []) := by
      simp [reading, readWith, docColumns1000, insertDataframe, List.lookup, mapArr, mapArrDict, mapArrList,
        insertFrame, insertFrameDict, insertFrameList, Frame.get, wrapColumnError, h1.frame, h2.frame, num,
        parseSections, parseMinerals, args, named, defaulted, listOf, eachOf, parseFluids,
        parseDryRock, parsePressure, toMinerals, toMineral, parseConstituent, required, m, reject]
      rfl
    rw [hread, bind_ok, key _ fun _ => by norm_num]

/-- The three rows of the data file in the guide. -/
example : ∀ i : Fin 3, (8e9 : ℝ) ≤ ![10e9, 8e9, 9e9] i := by
  intro i; fin_cases i <;> norm_num

theorem read_docAdjusting (conv : Conv) {rows : Fin n → DataRow} {φ d : Fin n → ℝ}
    (h1 : HasColumn rows "porosity" φ) (h2 : HasColumn rows "depth" d) :
    reading conv docAdjusting n rows = .ok (withDefaults (defaultSections : Sections n).minerals (.polyfit true ⟨none, none, none⟩) φ
      [.pressureDependency (.powerfit ⟨(1, 0), (20e9, -46), (12, -26)⟩), depthTrend d]) := by
  have m6 := read_depthTrend (n := n) conv d
  have m7 := read_powerfit (n := n) conv
  have m8 : parseSandstone conv (.dict [("type", .str "polyfit")] : Val n) = .ok (.polyfit true ⟨none, none, none⟩) := by
    simp [parseSandstone, firstOf, into, parsePatchy, parseFriable, parsePolyfit2d, args, named, tagged, defaulted, List.lookup, literal,
      reject, bind_ok, bind_error]
  simp [reading, readWith, docAdjusting, insertDataframe, List.lookup, mapArr, mapArrDict, mapArrList,
    insertFrame, insertFrameDict, insertFrameList, num, Frame.get, wrapColumnError, h1.frame, h2.frame,
    parseSections, parseMinerals, args, named, defaulted, listOf, eachOf, parseFluids,
    parseDryRock, parsePressure, m6, m7, m8,
    toCol, orReject, Cell.toNum, reject, vec_fin]
  rfl

/-- Under the reference pressure the power trend changes nothing. -/
theorem addPower_same {r : Published.Rock} (h : r.Valid) (a b v : ℝ × ℝ) (p : ℝ) : Published.addPower r a b v p p = r := by
  obtain ⟨s1, -⟩ := ratio_sq h
  simp only [Published.addPower, sub_self, add_zero, s1, add_sub_cancel_right]
  have := h.1; have := h.2.1
  rw [div_div_cancel₀ h.1.ne']

/-- **C113, the guide to adjustments.** The block is a configuration by itself; with every data file that has
porosities between 0 and 1 and depths up to a million metres it is read and calculated.  The rock pressure and the
reference pressure are the defaults, under which the effective reference pressure and the pore pressure are equal, so
that the power trend changes nothing. -/
theorem C113_docs_adjusting (co2 : CO2Model n) (conv : Conv) {rows : Fin n → DataRow} {φ d : Fin n → ℝ}
    (h1 : HasColumn rows "porosity" φ) (h2 : HasColumn rows "depth" d)
    (hφ : ∀ i, 0 < φ i ∧ φ i < 1) (hd : ∀ i, 0 ≤ d i ∧ d i ≤ 1e6) :
    (reading conv docAdjusting n rows >>= calculate co2) = .ok (tableOf (fun _ => defaultRock)
      (fun i => buried (porous defaultRock (φ i)) (d i)) (fun _ => defaultRock) (fun _ => defaultFluid) φ) := by
  rw [read_docAdjusting conv h1 h2, bind_ok]
  have hmin : mineralAt (n := n)
      (Parse.moduliMat 36.8e9 44e9 2650, (fun _ => ⟨36.8e9, 44e9, 2650⟩), fun _ => 0.5)
      [(Parse.moduliMat 25e9 12e9 2650, (fun _ => ⟨25e9, 12e9, 2650⟩), fun _ => 0.5)] = fun _ => defaultRock := by
    funext i
    show Published.lowerBound _ _ (if (0.5 : ℝ) + 0.5 = 0 then 1 else 0.5 / (0.5 + 0.5)) = _
    rw [if_neg (by norm_num), show (0.5 : ℝ) / (0.5 + 0.5) = 1 / 2 by norm_num]
    rfl
  obtain ⟨r1, r2⟩ := defaultRock_eq
  have hb := fun i => porous_bounds (m := defaultRock) (by rw [r1]; norm_num) (hφ i)
  have hv : ∀ i, (porous defaultRock (φ i)).Valid := fun i =>
    ⟨by linarith [(hb i).1.1], by linarith [(hb i).2.1.1], (hb i).2.2⟩
  have hco : (Parse.moduliMat 36.8e9 44e9 2650 : Mat n).Coherent := by
    have := ofReal_coherent (n := n) (K := 36.8e9) (G := 44e9) (ρ := 2650) (by norm_num) (by norm_num) (by norm_num)
    rwa [← Doc.moduliMat_ofReal (by norm_num) (by norm_num) (by norm_num)] at this
  have h := default_calculates co2
    (x := (Parse.moduliMat 36.8e9 44e9 2650, (fun _ => ⟨36.8e9, 44e9, 2650⟩), fun _ => 0.5))
    (L := [(Parse.moduliMat 25e9 12e9 2650, (fun _ => ⟨25e9, 12e9, 2650⟩), fun _ => 0.5)])
    (sm := .polyfit true ⟨none, none, none⟩) (φ := φ)
    (as := [.pressureDependency (.powerfit ⟨(1, 0), (20e9, -46), (12, -26)⟩), depthTrend d])
    (sand := fun i => porous defaultRock (φ i)) (dry := fun i => buried (porous defaultRock (φ i)) (d i))
    (by
      intro y hy
      simp only [List.mem_cons, List.not_mem_nil, or_false] at hy
      rcases hy with rfl | rfl <;> exact ⟨⟨rfl, rfl, rfl, fun _ => by norm_num⟩, fun _ => by norm_num⟩)
    (fun i => by norm_num) hco
    (by
      rw [hmin]
      have := SandModel.Gives.moduli (a := fun _ => defaultRock) (φ := φ) (p := fun _ => 30e6) none none none
      simp only [Option.getD_none, porous_eq] at this
      exact this)
    hv
    (by
      rw [hmin]
      have hsame := fun i => addPower_same (hv i) (1, 0) (20e9, -46) (12, -26) 70e6
      have hpow := Adjustment.Gives.power (a := fun _ => defaultRock) (φ := φ) (eff := fun _ => 30e6) (ref := fun _ => 70e6)
        (rk := fun _ => 70e6) (r := fun i => porous defaultRock (φ i)) ⟨(1, 0), (20e9, -46), (12, -26)⟩
        (fun i => by norm_num) (fun _ => by norm_num) (fun i => by
          obtain ⟨s1, -⟩ := ratio_sq (hv i)
          simp only [sub_self, add_zero, s1, add_sub_cancel_right]
          have : 0.9 ≤ (porous defaultRock (φ i)).K / (porous defaultRock (φ i)).G := by
            rw [le_div_iff₀ (hv i).2.1]; linarith [(hb i).1.1, (hb i).2.1.2]
          linarith)
      simp only [hsame] at hpow
      refine .cons hpow hv ?_
      have := Adjustment.Gives.moduliDepth (a := fun _ => defaultRock) (φ := φ) (eff := fun _ => 30e6)
        (ref := fun _ => 70e6) (rk := fun _ => 70e6)
        (r := fun i => porous defaultRock (φ i))
        d (some fun _ => 0) (some (c 4000)) (matrixOf [[0, 1.35], [1, 0]]) (matrixOf [[0, 1.5], [1, 0]]) (matrixOf [[0, 1.2], [1, 0]])
      simp only [Option.elim_some, buried_eq] at this
      refine .cons this (fun i => ?_) (.nil _)
      obtain ⟨v1, v2, v3⟩ := hv i
      have := (hd i).1
      exact ⟨by simp only [buried]; positivity, by simp only [buried]; positivity, by simp only [buried]; positivity⟩)
    (by
      rw [hmin]
      exact fun i => ⟨(hφ i).1, by simp only [buried]; linarith [(hb i).1.2, (hd i).2], by linarith⟩)
  rw [hmin] at h
  exact h

end OPE.Shipped
