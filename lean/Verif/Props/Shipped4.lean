import Verif.Props.Shipped3

namespace OPE.Shipped

open Parse

variable {n : ℕ}

/-- The depth trend of examples 2 and 3. -/
noncomputable def depthTrend (d : Fin n → ℝ) : Adjustment n :=
  .depthTrend ⟨finC d, some (c 0), some (c 4000), true,
    ⟨matrixOf [[0, 1.35], [1, 0]], matrixOf [[0, 1.5], [1, 0]], matrixOf [[0, 1.2], [1, 0]]⟩⟩

theorem read_matrix (conv : Conv) (a b d e : ℝ) :
    shape conv (.list [.list [.scalar (.num (Num.fin a)), .scalar (.num (Num.fin b))],
      .list [.scalar (.num (Num.fin d)), .scalar (.num (Num.fin e))]] : Val n) = some [2, 2] ∧
    toCoeffs? conv (.list [.list [.scalar (.num (Num.fin a)), .scalar (.num (Num.fin b))],
      .list [.scalar (.num (Num.fin d)), .scalar (.num (Num.fin e))]] : Val n) = some (matrixOf [[a, b], [d, e]]) := by
  constructor
  · simp [shape, shapes, Scalar.toNum]
  · simp [toCoeffs?, toReal?, toVector?, allSome, Scalar.toNum, Parse.Num.toReal?]

theorem read_vector (conv : Conv) (a b : ℝ) :
    shape conv (.list [.scalar (.num (Num.fin a)), .scalar (.num (Num.fin b))] : Val n) = some [2] ∧
    toVector? conv (.list [.scalar (.num (Num.fin a)), .scalar (.num (Num.fin b))] : Val n) = some [a, b] := by
  constructor
  · simp [shape, shapes, Scalar.toNum]
  · simp [toVector?, toReal?, allSome, Scalar.toNum, Parse.Num.toReal?]

theorem read_depthTrend (conv : Conv) (d : Fin n → ℝ) :
    parseAdjustment conv (.dict [("type", .str "depth_trend"), ("depth", .arr (.col fun i => .num (Num.fin (d i)))),
      ("reference_depth", .scalar (.num (Num.fin 0))), ("max_depth", .scalar (.num (Num.fin 4000))),
      ("coefficients", .dict [
          ("bulk_modulus", .list [.list [.scalar (.num (Num.fin 0)), .scalar (.num (Num.fin 1.5))], .list [.scalar (.num (Num.fin 1)), .scalar (.num (Num.fin 0))]]),
          ("shear_modulus", .list [.list [.scalar (.num (Num.fin 0)), .scalar (.num (Num.fin 1.2))], .list [.scalar (.num (Num.fin 1)), .scalar (.num (Num.fin 0))]]),
          ("density", .list [.list [.scalar (.num (Num.fin 0)), .scalar (.num (Num.fin 1.35))], .list [.scalar (.num (Num.fin 1)), .scalar (.num (Num.fin 0))]])])])
      = .ok (depthTrend d) := by
  have m := fun a b d e => read_matrix (n := n) conv a b d e
  simp [parseAdjustment, firstOf, parseDepthTrend, args, named, tagged, defaulted, required, List.lookup, literal,
    parsePolyfitCoef, parseModuliCoef, Parse.optional, anyArray, (m _ _ _ _).1, (m _ _ _ _).2, needCoeffsOf, toCol, orReject,
    Scalar.toNum, Cell.toNum, vec_fin, depthTrend]
  exact ⟨rfl, rfl⟩

theorem read_powerfit (conv : Conv) :
    parseAdjustment conv (.dict [("type", .str "pressure_dependency"),
      ("model", .dict [("type", .str "powerfit"), ("coefficients", .dict [
            ("bulk_modulus", .list [.scalar (.num (Num.fin 20e9)), .scalar (.num (Num.fin (-46)))]),
            ("vp_over_vs", .list [.scalar (.num (Num.fin 12)), .scalar (.num (Num.fin (-26)))]),
            ("density", .list [.scalar (.num (Num.fin 1)), .scalar (.num (Num.fin 0))])])])] : Val n)
      = .ok (.pressureDependency (.powerfit ⟨(1, 0), (20e9, -46), (12, -26)⟩)) := by
  have m := fun a b => read_vector (n := n) conv a b
  simp [parseAdjustment, firstOf, parseDepthTrend, parsePressureDependency, parsePDModel, parsePatchy, parseFriable, parseFit, into,
    args, named, tagged, defaulted, required, List.lookup, literal, reject, FitKind.tag,
    parseVpOverVsCoef, Parse.optional, anyArray, (m _ _).1, (m _ _).2, PDIn.toModel, needVectorOf, orReject, firstTwo, bind_ok, bind_error,
    failIf]

theorem read_patchyDependency (conv : Conv) :
    parseAdjustment conv (.dict [("type", .str "pressure_dependency"),
      ("model", .dict [("type", .str "patchy_cement")])] : Val n)
      = .ok (.pressureDependency (.patchy (mkPatchyModel defaultCement (c 0.4) (c 0.04) (c 20e6) (c 0.1) none (c 1)))) := by
  simp [parseAdjustment, firstOf, parseDepthTrend, parsePressureDependency, parsePDModel, parsePatchy, parseFriable, parseFit, into,
    args, named, tagged, defaulted, required, List.lookup, literal, reject, FitKind.tag,
    Parse.optional, PDIn.toModel, orReject, bind_ok, bind_error]

/-- The sections of examples/example2.yaml and example3.yaml, with their pressure dependency. -/
noncomputable def example23Sections (dep : Adjustment n) (sf sb φ fp rp d : Fin n → ℝ) : Sections n where
  minerals := [⟨Mat.ofReal (fun _ => 36e9) (fun _ => 44e9) (fun _ => 2650), some (finC sf)⟩,
    ⟨Mat.ofReal (fun _ => 11e9) (fun _ => 4.5e9) (fun _ => 1), none⟩]
  temperature := c 75
  fluids := [⟨.oil (c 800) (c 153) (c 0.5), none, none⟩, ⟨.brine (c 45000), none, some (finC sb)⟩]
  mixMethod := .brie
  brieConstant := Num.fin 3
  brieGases := none
  fluidModel := .default
  sandModel := .polyfit true ⟨none, none, none⟩
  porosity := finC φ
  adjustments := [dep, depthTrend d]
  overburden := c 50e6
  reference := c 30e6
  fluidPressure := some (finC fp)
  maxEffective := some (c 100e6)
  rockPressure := some (finC rp)

theorem read_example2 (conv : Conv) {rows : Fin n → DataRow} {sf sb φ fp rp d : Fin n → ℝ}
    (h1 : HasColumn rows "sand_fraction" sf) (h2 : HasColumn rows "brine_saturation" sb)
    (h4 : HasColumn rows "porosity" φ)
    (h5 : HasColumn rows "fluid_pressure" fp) (h6 : HasColumn rows "rock_pressure" rp) (h7 : HasColumn rows "depth" d) :
    reading conv example2 n rows = .ok (example23Sections
      (.pressureDependency (.powerfit ⟨(1, 0), (20e9, -46), (12, -26)⟩)) sf sb φ fp rp d) := by
  have m1 := read_material (n := n) conv 36e9 44e9 2650 (by norm_num) (by norm_num) (by norm_num)
  have m2 := read_material (n := n) conv 11e9 4.5e9 1 (by norm_num) (by norm_num) (by norm_num)
  have m4 := read_oil (n := n) conv 800 153 0.5
  have m5 := read_brine (n := n) conv 45000
  have m6 := read_depthTrend (n := n) conv d
  have m7 := read_powerfit (n := n) conv
  have m8 : parseSandstone conv (.dict [("type", .str "polyfit")] : Val n) = .ok (.polyfit true ⟨none, none, none⟩) := by
    simp [parseSandstone, firstOf, into, parsePatchy, parseFriable, parsePolyfit2d, args, named, tagged, defaulted, List.lookup, literal,
      reject, bind_ok, bind_error]
  simp [reading, readWith, example2, insertDataframe, List.lookup, mapArr, mapArrDict, mapArrList,
    insertFrame, insertFrameDict, insertFrameList, num, Frame.get, wrapColumnError, h1.frame, h2.frame, h4.frame, h5.frame,
    h6.frame, h7.frame,
    parseSections, parseMinerals, args, named, defaulted, listOf, eachOf, parseFluids,
    parseDryRock, parsePressure, toMinerals, toMineral, toMethod, parseConstituent, required, m1, m2, m4, m5, m6, m7, m8,
    Parse.optional, toCol, toFloat, orReject, Scalar.toNum, Cell.toNum, reject, vec_fin]
  rfl

theorem read_example3 (conv : Conv) {rows : Fin n → DataRow} {sf sb φ fp rp d : Fin n → ℝ}
    (h1 : HasColumn rows "sand_fraction" sf) (h2 : HasColumn rows "brine_saturation" sb)
    (h4 : HasColumn rows "porosity" φ)
    (h5 : HasColumn rows "fluid_pressure" fp) (h6 : HasColumn rows "rock_pressure" rp) (h7 : HasColumn rows "depth" d) :
    reading conv example3 n rows = .ok (example23Sections
      (.pressureDependency (.patchy (mkPatchyModel defaultCement (c 0.4) (c 0.04) (c 20e6) (c 0.1) none (c 1)))) sf sb φ fp rp d) := by
  have m1 := read_material (n := n) conv 36e9 44e9 2650 (by norm_num) (by norm_num) (by norm_num)
  have m2 := read_material (n := n) conv 11e9 4.5e9 1 (by norm_num) (by norm_num) (by norm_num)
  have m4 := read_oil (n := n) conv 800 153 0.5
  have m5 := read_brine (n := n) conv 45000
  have m6 := read_depthTrend (n := n) conv d
  have m7 := read_patchyDependency (n := n) conv
  have m8 : parseSandstone conv (.dict [("type", .str "polyfit")] : Val n) = .ok (.polyfit true ⟨none, none, none⟩) := by
    simp [parseSandstone, firstOf, into, parsePatchy, parseFriable, parsePolyfit2d, args, named, tagged, defaulted, List.lookup, literal,
      reject, bind_ok, bind_error]
  simp [reading, readWith, example3, insertDataframe, List.lookup, mapArr, mapArrDict, mapArrList,
    insertFrame, insertFrameDict, insertFrameList, num, Frame.get, wrapColumnError, h1.frame, h2.frame, h4.frame, h5.frame,
    h6.frame, h7.frame,
    parseSections, parseMinerals, args, named, defaulted, listOf, eachOf, parseFluids,
    parseDryRock, parsePressure, toMinerals, toMineral, toMethod, parseConstituent, required, m1, m2, m4, m5, m6, m7, m8,
    Parse.optional, toCol, toFloat, orReject, Scalar.toNum, Cell.toNum, reject, vec_fin]
  rfl

end OPE.Shipped
