import Verif.Props.Shipped
import Verif.Props.Published10
import Verif.Props.Published7
import Verif.Props.Fractions2
import Verif.Props.MainRaw

/-!
# C112: the shipped examples
-/

namespace OPE.Shipped

open Parse

variable {n : ℕ}

/-! ### Reading -/

/-- A material by moduli, as in the shipped files. -/
theorem read_material (conv : Conv) (K G ρ : ℝ) (hK : 0 ≤ K) (hG : 0 ≤ G) (hρ : 0 < ρ) :
    parseMaterialType conv (.dict [("bulk_modulus", .scalar (.num (Num.fin K))),
      ("shear_modulus", .scalar (.num (Num.fin G))), ("density", .scalar (.num (Num.fin ρ)))] : Val n)
      = .ok (.material (Mat.ofReal (fun _ => K) (fun _ => G) (fun _ => ρ))) := by
  have h := Main.exRead_arbitrary (n := n) conv K G ρ hK hG hρ
  unfold Main.num at h
  unfold parseMaterialType materialAlternatives firstOf parseMaterial
  rw [h]
  rfl

theorem read_oil (conv : Conv) (r o g : ℝ) :
    parseMaterialType conv (.dict [("type", .str "oil"), ("gas_gravity", .scalar (.num (Num.fin g))),
      ("reference_density", .scalar (.num (Num.fin r))), ("gas_oil_ratio", .scalar (.num (Num.fin o)))] : Val n)
      = .ok (.oil (c r) (c o) (c g)) := by
  rfl

theorem read_brine (conv : Conv) (s : ℝ) :
    parseMaterialType conv (.dict [("type", .str "brine"), ("salinity", .scalar (.num (Num.fin s)))] : Val n)
      = .ok (.brine (c s)) := by
  rfl

theorem read_gas (conv : Conv) (g : ℝ) :
    parseMaterialType conv (.dict [("type", .str "gas"), ("gas_gravity", .scalar (.num (Num.fin g)))] : Val n)
      = .ok (.gas (c g)) := by
  rfl

/-- The sections of examples/friable_sand_example.yaml. -/
noncomputable def friableSections : Sections n where
  minerals := [⟨Mat.ofReal (fun _ => 36e9) (fun _ => 44e9) (fun _ => 2650), some (c 1)⟩]
  temperature := c 80
  fluids := [⟨.material (Mat.ofReal (fun _ => 2.3e9) (fun _ => 0) (fun _ => 994.5)), none, none⟩]
  mixMethod := .wood
  brieConstant := Num.fin 3
  brieGases := none
  fluidModel := .default
  sandModel := .friable (mkFriableModel (c 0.4) (c 1) (some (c 9)))
  porosity := c 0.3
  adjustments := []
  overburden := c 100e6
  reference := c 30e6
  fluidPressure := some (c 70e6)
  maxEffective := none
  rockPressure := none


theorem read_friableSand (conv : Conv) (data : Option (Frame (Arr n))) :
    readWith conv data friableSand = .ok friableSections := by
  have h1 := read_material (n := n) conv 36e9 44e9 2650 (by norm_num) (by norm_num) (by norm_num)
  have h2 := read_material (n := n) conv 2.3e9 0 994.5 (by norm_num) (by norm_num) (by norm_num)
  have h3 : parseSandstone conv (.dict [("type", .str "friable_sand"), ("coordination_number", .scalar (.num (Num.fin 9))),
      ("critical_porosity", .scalar (.num (Num.fin 0.4))), ("shear_reduction", .scalar (.num (Num.fin 1)))] : Val n)
      = .ok (.friable (mkFriableModel (c 0.4) (c 1) (some (c 9)))) := rfl
  cases data <;>
  simp [readWith, friableSand, insertDataframe, List.lookup, mapArr, mapArrDict, mapArrList,
    insertFrame, insertFrameDict, insertFrameList, num, checkNoReference, checkNoReferenceDict, checkNoReferenceList,
    parseSections, parseMinerals, args, named, defaulted, listOf, eachOf, parseFluids,
    parseDryRock, parsePressure, toMinerals, toMineral, toMethod, parseConstituent, required, h1, h2, h3,
    Parse.optional, toCol, orReject, Scalar.toNum, Cell.toNum, reject] <;>
  rfl


/-- The rows have a numeric column `name` with values `x`. -/
def HasColumn (rows : Fin n → DataRow) (name : String) (x : Fin n → ℝ) : Prop :=
  ∀ i, rows i name = some (.num (Num.fin (x i)))

theorem HasColumn.frame {rows : Fin n → DataRow} {name : String} {x : Fin n → ℝ} (h : HasColumn rows name x) :
    (frameOf rows).column name = some (.col fun i => .num (Num.fin (x i))) := by
  have h' : ∀ i, rows i name = some (.num (Num.fin (x i))) := h
  simp [frameOf, h']

theorem vec_fin (x : Fin n → ℝ) : (vec fun i => Except.ok (Num.fin (x i))) = Except.ok (ε := Err) (finC x) :=
  vec_ok fun _ => rfl

/-- The sections of examples/example1.yaml. -/
noncomputable def example1Sections (sf sb sg φ fp rp : Fin n → ℝ) : Sections n where
  minerals := [⟨Mat.ofReal (fun _ => 36e9) (fun _ => 44e9) (fun _ => 2650), some (finC sf)⟩,
    ⟨Mat.ofReal (fun _ => 11e9) (fun _ => 4.5e9) (fun _ => 1), none⟩]
  temperature := c 75
  fluids := [⟨.oil (c 800) (c 153) (c 0.5), none, none⟩, ⟨.brine (c 45000), none, some (finC sb)⟩,
    ⟨.gas (c 0.5), none, some (finC sg)⟩]
  mixMethod := .wood
  brieConstant := Num.fin 3
  brieGases := none
  fluidModel := .default
  sandModel := .patchy (mkPatchyModel (Mat.ofReal (fun _ => 36.8e9) (fun _ => 44e9) (fun _ => 2650)) (c 0.4) (c 0.04)
    (c 20e6) (c 0.1) none (c 0.5))
  porosity := finC φ
  adjustments := []
  overburden := c 50e6
  reference := c 30e6
  fluidPressure := some (finC fp)
  maxEffective := none
  rockPressure := some (finC rp)

theorem read_patchy (conv : Conv) (f : ℝ) (hcem : parseArbitrary conv (.dict [("bulk_modulus", .scalar (.num (Num.fin 36.8e9))),
      ("shear_modulus", .scalar (.num (Num.fin 44e9))), ("density", .scalar (.num (Num.fin 2650)))] : Val n) =
      .ok (Mat.ofReal (fun _ => 36.8e9) (fun _ => 44e9) (fun _ => 2650))) :
    parseSandstone conv (.dict [("type", .str "patchy_cement"), ("lower_bound_pressure", .scalar (.num (Num.fin 20e6))),
      ("upper_bound_cement_fraction", .scalar (.num (Num.fin 0.1))),
      ("cement", .dict [("bulk_modulus", .scalar (.num (Num.fin 36.8e9))),
      ("shear_modulus", .scalar (.num (Num.fin 44e9))), ("density", .scalar (.num (Num.fin 2650)))]),
      ("shear_reduction", .scalar (.num (Num.fin f))), ("cement_fraction", .scalar (.num (Num.fin 0.04))),
      ("critical_porosity", .scalar (.num (Num.fin 0.4)))] : Val n)
      = .ok (.patchy (mkPatchyModel (Mat.ofReal (fun _ => 36.8e9) (fun _ => 44e9) (fun _ => 2650)) (c 0.4) (c 0.04)
    (c 20e6) (c 0.1) none (c f))) := by
  simp [parseSandstone, firstOf, into, parsePatchy, args, named, tagged, defaulted, List.lookup, literal, hcem, toCol, orReject,
    Scalar.toNum]
  rfl

theorem read_example1 (conv : Conv) {rows : Fin n → DataRow} {sf sb sg φ fp rp : Fin n → ℝ}
    (h1 : HasColumn rows "sand_fraction" sf) (h2 : HasColumn rows "brine_saturation" sb)
    (h3 : HasColumn rows "gas_saturation" sg) (h4 : HasColumn rows "porosity" φ)
    (h5 : HasColumn rows "fluid_pressure" fp) (h6 : HasColumn rows "rock_pressure" rp) :
    reading conv example1 n rows = .ok (example1Sections sf sb sg φ fp rp) := by
  have m1 := read_material (n := n) conv 36e9 44e9 2650 (by norm_num) (by norm_num) (by norm_num)
  have m2 := read_material (n := n) conv 11e9 4.5e9 1 (by norm_num) (by norm_num) (by norm_num)
  have m3 := Main.exRead_arbitrary (n := n) conv 36.8e9 44e9 2650 (by norm_num) (by norm_num) (by norm_num)
  have m4 := read_oil (n := n) conv 800 153 0.5
  have m5 := read_brine (n := n) conv 45000
  have m6 := read_gas (n := n) conv 0.5
  unfold Main.num at m3
  have m7 := read_patchy conv 0.5 m3
  simp [reading, readWith, example1, insertDataframe, List.lookup, mapArr, mapArrDict, mapArrList,
    insertFrame, insertFrameDict, insertFrameList, num, Frame.get, wrapColumnError, h1.frame, h2.frame, h3.frame, h4.frame, h5.frame,
    h6.frame,
    parseSections, parseMinerals, args, named, defaulted, listOf, eachOf, parseFluids,
    parseDryRock, parsePressure, toMinerals, toMineral, toMethod, parseConstituent, required, m1, m2, m4, m5, m6, m7,
    Parse.optional, toCol, orReject, Scalar.toNum, Cell.toNum, reject, vec_fin]
  rfl

end OPE.Shipped
