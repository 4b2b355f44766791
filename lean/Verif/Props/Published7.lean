import Verif.Props.Published6
import Verif.Props.Parse2

/-!
# C105 (polyfit dry rock), C106 the empty configuration
-/

namespace OPE

open Classical

variable {n : ℕ}

/-- The value of a coefficient matrix: `Σ a i j · property^i · porosity^j`. -/
noncomputable def surface (k : Coeffs) (property porosity : ℝ) : ℝ :=
  ∑ i, ∑ j, k.val i j * property ^ (i : ℕ) * porosity ^ (j : ℕ)

/-- **C105, polynomial dry rock.** The same for a dry rock given by polynomials in porosity and the properties
of the mineral. -/
theorem C105_polyfit (co2 : CO2Model n) {s : Sections n}
    {x : Mat n × (Fin n → Published.Rock) × (Fin n → ℝ)} {L : RockList n} {ob rf rk P : Fin n → ℝ}
    {mx : Option (Fin n → ℝ)} (hs : s.Says x L ob rf rk P mx) {T : Fin n → ℝ} {pores : List (Pore n)}
    (hp : s.Pores T P pores) {F : Fin n → Published.Fluid} (hF : s.Mixes pores F)
    {φ : Fin n → ℝ} (hφ : s.porosity = finC φ) {kd kb ks : Coeffs}
    (hmodel : s.sandModel = .polyfit true ⟨some kd, some kb, some ks⟩) {A : TrendList n}
    (hadj : s.adjustments = A.map fun a => .pressureDependency a.1)
    (hA : A.Good (effectiveAt mx ob rk) (effectiveAt mx ob rf)) (hφ0 : ∀ i, 0 < φ i) :
    let fit : Fin n → Published.Rock := fun i => ⟨surface kb (mineralAt x L i).K (φ i),
      surface ks (mineralAt x L i).G (φ i), surface kd (mineralAt x L i).ρ (φ i)⟩
    let dry := fun i => A.scale (effectiveAt mx ob rk i) (effectiveAt mx ob rf i) (fit i)
    (∀ i, 0 < (fit i).K ∧ 0 < (fit i).G ∧ 0 < (fit i).ρ) →
    (∀ i, (dry i).K < (mineralAt x L i).K ∧ (F i).K < (mineralAt x L i).K) →
    calculate co2 s = .ok (tableOf (mineralAt x L) dry (mineralAt x L) F φ) := by
  intro fit dry hfit hrow
  have hd : mkDryRock s.sandModel s.porosity s.adjustments = .ok ⟨.polyfit true ⟨some kd, some kb, some ks⟩, finC φ,
      A.map fun a => .pressureDependency a.1⟩ := by rw [hmodel, hφ, hadj]; rfl
  refine calculate_published co2 hs hp hF hφ hd (fun mineral pr _ h1 h2 => ?_) fun i => ⟨hφ0 i, hrow i⟩
  obtain ⟨r, r1, r2, r3, r4⟩ := C45_moduli_fit (v := φ) ⟨h1.1, h1.2.1, h1.2.2.1⟩ kd kb ks
    (fun i => (hfit i).2.2) (fun i => (hfit i).1.le) (fun i => (hfit i).2.1.le)
  have hr : r.IsRock fit := ⟨r3, r4, r2, hfit⟩
  obtain ⟨r', r5, r6⟩ := adjustAll_trends h2 (finC φ) mineral A hA hr
  refine ⟨⟨r', ?_, r6⟩, mineral, rfl, h1⟩
  unfold DryRock.material
  rw [h2.truncatedRock, bind_ok]
  show (polyvalMaterial (finC φ) mineral kd kb ks true >>= _) = _
  rw [r1, bind_ok]
  exact r5

/-- The default mineral: equal parts of sand and shale. -/
noncomputable def defaultRock : Published.Rock :=
  Published.lowerBound ⟨36.8e9, 44e9, 2650⟩ ⟨25e9, 12e9, 2650⟩ (1 / 2)

/-- The default pore fluid at 80 °C and 70 MPa. -/
noncomputable def defaultFluid : Published.Fluid :=
  Published.wood [(Published.oil 80 70e6 850 100 0.7, 0.3), (Published.brine 80 70e6 50000, 0.3),
    (Published.gas 80 70e6 0.7, 0.4)]

theorem defaultBrine_K : 0 < (Published.brine 80 70e6 50000).K ∧ (Published.brine 80 70e6 50000).K < 6e9 := by
  have h0 : (0 : ℝ) ≤ (0.05 : ℝ) ^ (1.5 : ℝ) := Real.rpow_nonneg (by norm_num) _
  have h1 : (0.05 : ℝ) ^ (1.5 : ℝ) ≤ 0.05 := by
    have := Real.rpow_le_rpow_of_exponent_ge (x := (0.05 : ℝ)) (by norm_num) (by norm_num) (show (1 : ℝ) ≤ 1.5 by norm_num)
    simpa using this
  simp only [Published.brine, Published.brineDensity, Published.brineVelocity, Published.waterDensity,
    Published.waterVelocity]
  rw [show (50000 * 1e-6 : ℝ) = 0.05 by norm_num]
  generalize (0.05 : ℝ) ^ (1.5 : ℝ) = z at h0 h1
  norm_num
  constructor
  · exact pow_pos (by linarith) 2
  · nlinarith [mul_nonneg h0 h0, mul_nonneg h0 (sub_nonneg.mpr h1)]

theorem defaultRock_eq : defaultRock.ρ = 2650 ∧ 25e9 ≤ defaultRock.K := by
  constructor
  · simp only [defaultRock, Published.lowerBound]; norm_num
  · simp only [defaultRock, Published.lowerBound, Published.hashinShtrikman]
    norm_num

/-- **C106.** The empty configuration, with or without a data file, is calculated without error, and the table
is: the lower bound of equal parts of default sand and shale; dry bulk and shear modulus 2510 and 1460 Pa,
density 70 % of the mineral's; Wood's mixture of default oil, brine and gas; Gassmann's substitution at
porosity 0.3. -/
theorem C106_empty_configuration (co2 : CO2Model n) (conv : Parse.Conv) (data : Option (Frame (Parse.Arr n))) :
    (Parse.readWith conv data (.dict []) >>= calculate co2) = .ok
      { ksat := finC fun _ => Published.gassmann 2510 defaultRock.K defaultFluid.K 0.3
        kmin := finC fun _ => defaultRock.K
        kdry := finC fun _ => 2510
        mysat := finC fun _ => 1460
        rsat := finC fun _ => 0.7 * 2650 + 0.3 * defaultFluid.ρ
        kminFls := finC fun _ => defaultRock.K } := by
  rw [Parse.C85_empty, bind_ok]
  have hpores : Sections.Pores (n := n) Parse.defaultSections (fun _ => 80) (fun _ => 70e6)
      [⟨.oil (finC fun _ => 850) (finC fun _ => 100) (finC fun _ => 0.7), none,
          fun _ => Published.oil 80 70e6 850 100 0.7, fun _ => 0.3⟩,
        ⟨.brine (finC fun _ => 50000), none, fun _ => Published.brine 80 70e6 50000, fun _ => 0.3⟩,
        ⟨.gas (finC fun _ => 0.7), none, fun _ => Published.gas 80 70e6 0.7, fun _ => 0.4⟩] := by
    refine ⟨rfl, rfl, by simp, ?_, ?_, ?_, fun i => by norm_num [poreTotal]⟩
    · intro y hy
      simp only [List.mem_cons, List.not_mem_nil, or_false] at hy
      rcases hy with rfl | rfl | rfl
      · exact .oil _ _ _ (fun _ => by norm_num) (fun _ => by norm_num) (fun _ => by norm_num)
          (fun _ => by norm_num) (fun _ => by norm_num)
      · exact .brine _ (fun _ => by norm_num) (fun _ => by norm_num) (fun _ => by norm_num)
      · exact .gas _ (fun _ => by norm_num) (fun _ => by norm_num) (fun _ => by norm_num)
    · intro y hy
      simp only [List.mem_cons, List.not_mem_nil, or_false] at hy
      rcases hy with rfl | rfl | rfl <;> simp [Parse.defaultSections]
    · intro y hy
      simp only [List.mem_cons, List.not_mem_nil, or_false] at hy
      rcases hy with rfl | rfl | rfl <;> norm_num
  have hsays : Sections.Says (n := n) Parse.defaultSections
      (Parse.moduliMat 36.8e9 44e9 2650, (fun _ => ⟨36.8e9, 44e9, 2650⟩), fun _ => 0.5)
      [(Parse.moduliMat 25e9 12e9 2650, (fun _ => ⟨25e9, 12e9, 2650⟩), fun _ => 0.5)]
      (fun _ => 100e6) (fun _ => 30e6) (fun _ => 70e6) (fun _ => 70e6) none := by
    refine ⟨rfl, ?_, fun _ => by norm_num, rfl, rfl, rfl, rfl, rfl⟩
    intro y hy
    simp only [List.mem_cons, List.not_mem_nil, or_false] at hy
    rcases hy with rfl | rfl <;> exact ⟨⟨rfl, rfl, rfl, fun _ => by norm_num⟩, fun _ => by norm_num⟩
  have hmix : Sections.Mixes (Parse.defaultSections : Sections n) _ (fun _ => defaultFluid) :=
    Sections.Mixes.wood rfl
    (L := [⟨.oil (finC fun _ => 850) (finC fun _ => 100) (finC fun _ => 0.7), none,
          fun _ => Published.oil 80 70e6 850 100 0.7, fun _ => 0.3⟩,
        ⟨.brine (finC fun _ => 50000), none, fun _ => Published.brine 80 70e6 50000, fun _ => 0.3⟩,
        ⟨.gas (finC fun _ => 0.7), none, fun _ => Published.gas 80 70e6 0.7, fun _ => 0.4⟩])
    ⟨by simp, fun i => by norm_num [poreTotal]⟩
  have hmin : ∀ i : Fin n, mineralAt (n := n)
      (Parse.moduliMat 36.8e9 44e9 2650, (fun _ => ⟨36.8e9, 44e9, 2650⟩), fun _ => 0.5)
      [(Parse.moduliMat 25e9 12e9 2650, (fun _ => ⟨25e9, 12e9, 2650⟩), fun _ => 0.5)] i = defaultRock := by
    intro i
    show Published.lowerBound _ _ (if (0.5 : ℝ) + 0.5 = 0 then 1 else 0.5 / (0.5 + 0.5)) = _
    rw [if_neg (by norm_num), show (0.5 : ℝ) / (0.5 + 0.5) = 1 / 2 by norm_num]
    rfl
  have s1 : ∀ y : ℝ, surface ⟨0, 1, ![![2900, -1300]]⟩ y 0.3 = 2510 := fun y =>
    (rowCoeffs_sum 2900 (-1300) y 0.3).trans (by norm_num)
  have s2 : ∀ y : ℝ, surface ⟨0, 1, ![![1700, -800]]⟩ y 0.3 = 1460 := fun y =>
    (rowCoeffs_sum 1700 (-800) y 0.3).trans (by norm_num)
  have s3 : ∀ y : ℝ, surface ⟨1, 1, ![![0, 0], ![1, -1]]⟩ y 0.3 = 0.7 * y := fun y =>
    (defaultDensity_sum y 0.3).trans (by norm_num)
  obtain ⟨r1, r2⟩ := defaultRock_eq
  have h := C105_polyfit co2 hsays hpores hmix (φ := fun _ => 0.3) rfl rfl (A := []) rfl
    (by simp [TrendList.Good]) (fun _ => by norm_num)
  simp only [scale_nil, hmin, s1, s2, s3, r1] at h
  -- the fluid is softer than the mineral
  have hfl : defaultFluid.K < defaultRock.K := by
    refine lt_of_lt_of_le ?_ r2
    obtain ⟨b1, b2⟩ := defaultBrine_K
    have none1 : CO2Model 1 := fun _ _ _ => .error .notImplemented
    obtain ⟨-, -, o1, -, -, o2⟩ := (FluidKind.Describes.oil (n := 1) (T := fun _ => 80) (P := fun _ => 70e6)
      (fun _ => 850) (fun _ => 100) (fun _ => 0.7) (fun _ => by norm_num) (fun _ => by norm_num)
      (fun _ => by norm_num) (fun _ => by norm_num) (fun _ => by norm_num)).asMaterial none1 (pv := .default) (by simp)
    obtain ⟨-, -, g1, -, -, g2⟩ := (FluidKind.Describes.gas (n := 1) (T := fun _ => 80) (P := fun _ => 70e6)
      (fun _ => 0.7) (fun _ => by norm_num) (fun _ => by norm_num) (fun _ => by norm_num)).asMaterial none1
      (pv := .default) (by simp)
    have o3 : 0 < (Published.oil 80 70e6 850 100 0.7).K := (o2 0).1
    have g3 : 0 < (Published.gas 80 70e6 0.7).K := (g2 0).1
    simp only [defaultFluid, Published.wood, List.map_cons, List.map_nil, List.sum_cons, List.sum_nil]
    norm_num only
    have p1 : 0 < 3 / 10 / (Published.oil 80 70e6 850 100 0.7).K := by positivity
    have p2 : 0 < 2 / 5 / (Published.gas 80 70e6 0.7).K := by positivity
    have p3 : 3 / 10 / 6e9 ≤ 3 / 10 / (Published.brine 80 70e6 50000).K := by gcongr
    norm_num only at o3 g3 p1 p2 p3 b1 b2 ⊢
    rw [inv_lt_comm₀ (by linarith) (by norm_num)]
    norm_num only
    linarith
  rw [h (fun _ => by norm_num) (fun _ => ⟨by linarith, hfl⟩)]
  unfold tableOf
  congr 2 <;> funext i <;> simp [hmin]

end OPE
