import Verif.Props.ParseRows3
import Verif.Props.MainExample

/-!
# From YAML tree and data file to result table (C07, C53, C87, C88)
-/

namespace OPE.Main

open Classical Parse

variable {n : ℕ}

/-- **C87.** Every row of the result depends on the configuration and on that row of the data file only:
the calculation succeeds exactly when it does for every row alone, and gives the same numbers. -/
theorem C87_row_wise [NeZero n] {co2 : ∀ n, CO2Model n} (hco2 : CO2RowWise co2) (conv : Conv) (cfg : Yaml)
    (hcfg : PerRow cfg) (rows : Fin n → DataRow) :
    RowBy Result.row (reading conv cfg n rows >>= calculate (co2 n))
      (fun i => (reading conv cfg 1 fun _ => rows i) >>= calculate (co2 1)) :=
  .bind (C87_reading_row_wise conv cfg hcfg rows) fun s _ => C07_row_wise hco2 s

/-- **C53.** For every configuration whose parameters are single values or (the per-row ones) columns, and every data file
all of whose rows succeed alone, both modes of the program do exactly the same. -/
theorem C53_yaml (co2 : ∀ n, CO2Model n) (hco2 : CO2RowWise co2) (conv : Conv)
    (w : World Yaml DataRow (Σ n, (Fin n → ℕ) × Input n)) (cfg : Yaml) (hcfg : PerRow cfg)
    (rows : List DataRow) (T : ℝ) (hT : T ≤ 100)
    (hfl : RoundsToNearest w.fl) (hk : w.config = .ok (some cfg)) (hd : w.data = some (.ok rows))
    (hrows : rows ≠ [])
    (hall : ∀ x ∈ rows, ∃ r, (do calculate (co2 1) (← reading conv cfg 1 fun _ => x)) = .ok r) :
    run (pipeline co2 (reading conv) (readingNoData conv) { w with threshold := some T }) =
      run (pipeline co2 (reading conv) (readingNoData conv) { w with threshold := none }) :=
  (C53_modes_agree co2 hco2 (reading conv) (readingNoData conv) w cfg rows T hT
    (fun n _ rows => C87_reading_row_wise conv cfg hcfg rows) hfl hk hd hrows hall).1

/-! ### A concrete configuration -/

noncomputable def num {A : Type} (x : ℝ) : Cfg Scalar A := .scalar (.num (Num.fin x))

/-- Quartz sand with brine as a user would write it, porosity from column `phi`. -/
noncomputable def exYaml (brie : Yaml) : Yaml := .dict [
  ("minerals", .dict [("constituents", .list [.dict [
    ("material", .dict [("bulk_modulus", num 36.8), ("shear_modulus", num 44), ("density", num 2650)]),
    ("fraction", num 1)]])]),
  ("fluids", .dict [("constituents", .list [.dict [
    ("material", .dict [("bulk_modulus", num 2.8), ("shear_modulus", num 0), ("density", num 1030)]),
    ("fraction", num 1)]]), ("brie_constant", brie)]),
  ("dry_rock", .dict [
    ("model", .dict [("type", .str "friable_sand"), ("critical_porosity", num 0.4),
      ("shear_reduction", num 0.5), ("coordination_number", num 9)]),
    ("porosity", .dict [("column", .str "phi")])]),
  ("pressure", .dict [("overburden", num 0.04), ("reference", num 0.03), ("fluid", num 0.02),
    ("rock", num 0.02)])]

/-- A data row with a porosity and a Brie exponent. -/
noncomputable def exRow (phi b : ℝ) : DataRow := fun s =>
  if s = "phi" then some (.num (Num.fin phi)) else if s = "b" then some (.num (Num.fin b)) else none


theorem exRead_arbitrary (conv : Conv) (K G ρ : ℝ) (hK : 0 ≤ K) (hG : 0 ≤ G) (hρ : 0 < ρ) :
    parseArbitrary conv (.dict [("bulk_modulus", num K), ("shear_modulus", num G), ("density", num ρ)] : Val n)
      = .ok (Mat.ofReal (fun _ => K) (fun _ => G) (fun _ => ρ)) := by
  have hvp : calcVp (finC fun _ : Fin n => K) (finC fun _ => G) (finC fun _ => ρ)
      = finC (fun _ => Real.sqrt ((K + 4/3 * G) / ρ)) := by
    funext i
    have h1 : 0 ≤ (K + 4/3 * G) / ρ :=
      div_nonneg (add_nonneg hK (mul_nonneg (by norm_num) hG)) hρ.le
    simp [calcVp, hρ.ne', h1]
  have hvs : calcVs (finC fun _ : Fin n => G) (finC fun _ => ρ) = finC (fun _ => Real.sqrt (G / ρ)) := by
    funext i
    have h1 : 0 ≤ G / ρ := div_nonneg hG hρ.le
    simp [calcVs, hρ.ne', h1]
  have e : ∀ x : ℝ, (fun _ : Fin n => Num.fin x) = finC fun _ => x := fun x => rfl
  simp [parseArbitrary, args, named, num, tagged, defaulted, required, Parse.optional, toCol, orReject, Scalar.toNum,
    List.lookup, setDefaults, e, hvp, hvs]
  rfl


theorem exRead_material (conv : Conv) (K G ρ : ℝ) (hK : 0 ≤ K) (hG : 0 ≤ G) (hρ : 0 < ρ) :
    parseConstituent conv (.dict [("material", .dict [("bulk_modulus", num K), ("shear_modulus", num G),
      ("density", num ρ)]), ("fraction", num 1)] : Val n)
      = .ok ⟨.material (Mat.ofReal (fun _ => K) (fun _ => G) (fun _ => ρ)), none, some (c 1)⟩ := by
  have h : parseMaterialType conv (.dict [("bulk_modulus", num K), ("shear_modulus", num G),
      ("density", num ρ)] : Val n) = .ok (.material (Mat.ofReal (fun _ => K) (fun _ => G) (fun _ => ρ))) := by
    unfold parseMaterialType materialAlternatives firstOf parseMaterial
    rw [exRead_arbitrary conv K G ρ hK hG hρ]
    rfl
  unfold num at h ⊢
  simp [parseConstituent, args, named, required, defaulted, h, Parse.optional, toCol, orReject, Scalar.toNum,
    List.lookup]
  rfl

theorem exRead_sandstone (conv : Conv) :
    parseSandstone conv (.dict [("type", .str "friable_sand"), ("critical_porosity", num 0.4),
      ("shear_reduction", num 0.5), ("coordination_number", num 9)] : Val n) =
      .ok (.friable ⟨finC fun _ => 0.4, finC fun _ => 0.5, finC fun _ => 9⟩) := by
  have h1 : parsePatchy conv (.dict [("type", .str "friable_sand"), ("critical_porosity", num 0.4),
      ("shear_reduction", num 0.5), ("coordination_number", num 9)] : Val n) = .error .valueError := by
    unfold parsePatchy args
    simp only [named]
    rw [if_pos (by rfl)]
    rfl
  have h2 : parseFriable conv (.dict [("type", .str "friable_sand"), ("critical_porosity", num 0.4),
      ("shear_reduction", num 0.5), ("coordination_number", num 9)] : Val n) =
      .ok ⟨finC fun _ => 0.4, finC fun _ => 0.5, finC fun _ => 9⟩ := by
    unfold parseFriable args
    simp only [named]
    rw [if_pos (by rfl)]
    rfl
  unfold parseSandstone firstOf into
  rw [h1]
  dsimp only [bind_error]
  unfold firstOf
  dsimp only
  rw [h2]
  rfl

theorem exRead (conv : Conv) (brie : Yaml) (phi b : Fin n → ℝ)
    (hb : ∀ v : Val n, insertFrame (frameOf fun i => exRow (phi i) (b i)) (mapArr Empty.elim brie) = .ok v →
      toFloat conv v = .ok (Num.fin 3)) 
    (hb' : ∃ v : Val n, insertFrame (frameOf fun i => exRow (phi i) (b i)) (mapArr Empty.elim brie) = .ok v) :
    reading conv (exYaml brie) n (fun i => exRow (phi i) (b i)) = .ok (exSections phi) := by
  obtain ⟨v, hv⟩ := hb'
  have hphi : (frameOf fun i => exRow (phi i) (b i)).column "phi"
      = some (.col fun i => .num (Num.fin (phi i))) := by
    simp [frameOf, exRow]
  simp [reading, readWith, exYaml, insertDataframe, List.lookup, mapArr, mapArrDict, mapArrList,
    insertFrame, insertFrameDict, insertFrameList, hv, num, Frame.get, hphi, wrapColumnError]
  have h1 := exRead_material (n := n) conv 36.8 44 2650 (by norm_num) (by norm_num) (by norm_num)
  have h2 := exRead_material (n := n) conv 2.8 0 1030 (by norm_num) (by norm_num) (by norm_num)
  have h4 := exRead_sandstone (n := n) conv
  unfold num at h1 h2 h4
  have h3 := hb v hv
  simp [parseSections, parseMinerals, args, named, defaulted, List.lookup, listOf, eachOf, h1, parseFluids, h2, h3,
    parseDryRock, parsePressure, toMinerals, toMineral, toMethod, h4, Parse.optional, toCol, orReject, Scalar.toNum, Cell.toNum, reject]
  rw [show (vec fun i => Except.ok (Num.fin (phi i))) = .ok (finC phi) from vec_ok fun i => rfl]
  rfl


theorem exFrame_b (phi b : Fin n → ℝ) : (frameOf fun i => exRow (phi i) (b i)).column "b"
      = some (.col fun i => .num (Num.fin (b i))) := by
  simp [frameOf, exRow]

/-- With a plain number for the Brie exponent. -/
theorem exRead_num (conv : Conv) (phi b : Fin n → ℝ) :
    reading conv (exYaml (num 3)) n (fun i => exRow (phi i) (b i)) = .ok (exSections phi) :=
  exRead conv _ phi b (fun v hv => by injection hv with hv; subst hv; rfl) ⟨_, rfl⟩

/-- With the Brie exponent from a column, one row. -/
theorem exRead_one (conv : Conv) (phi : ℝ) :
    reading conv (exYaml (.dict [("column", .str "b")])) 1 (fun _ => exRow phi 3)
      = .ok (exSections fun _ => phi) := by
  have h : insertFrame (frameOf fun _ : Fin 1 => exRow phi 3)
      (mapArr Empty.elim (.dict [("column", .str "b")] : Yaml)) = .ok (.arr (.col fun _ => .num (Num.fin 3))) := by
    simp [mapArr, mapArrDict, insertFrame, Frame.get, exFrame_b, wrapColumnError]
  refine exRead conv _ (fun _ => phi) (fun _ => 3) (fun v hv => ?_) ⟨_, h⟩
  rw [h] at hv
  injection hv with hv
  subst hv
  rfl

/-- With the Brie exponent from a column, several rows. -/
theorem exRead_more (conv : Conv) (hn : n ≠ 1) (phi b : Fin n → ℝ) :
    reading conv (exYaml (.dict [("column", .str "b")])) n (fun i => exRow (phi i) (b i))
      = .error .valueError := by
  have hphi : (frameOf fun i => exRow (phi i) (b i)).column "phi"
      = some (.col fun i => .num (Num.fin (phi i))) := by
    simp [frameOf, exRow]
  simp [reading, readWith, exYaml, insertDataframe, List.lookup, mapArr, mapArrDict, mapArrList,
    insertFrame, insertFrameDict, insertFrameList, num, Frame.get, hphi, exFrame_b, wrapColumnError]
  have h1 := exRead_material (n := n) conv 36.8 44 2650 (by norm_num) (by norm_num) (by norm_num)
  have h2 := exRead_material (n := n) conv 2.8 0 1030 (by norm_num) (by norm_num) (by norm_num)
  unfold num at h1 h2
  simp [parseSections, parseMinerals, args, named, defaulted, List.lookup, listOf, eachOf, h1, parseFluids, h2,
    toFloat, hn, reject]


theorem noColumn_scalar {S A : Type} (s : S) : NoColumnInGlobals (.scalar s : Cfg S A) := by
  rintro (_ | ⟨k, p⟩) xs h
  · simp [Spec.at?] at h
  · simp [Spec.at?, Spec.child] at h

theorem noColumn_str {S A : Type} (s : String) : NoColumnInGlobals (.str s : Cfg S A) := by
  rintro (_ | ⟨k, p⟩) xs h
  · simp [Spec.at?] at h
  · simp [Spec.at?, Spec.child] at h

theorem noColumn_list {S A : Type} {xs : List (Cfg S A)} (hx : ∀ x ∈ xs, NoColumnInGlobals x) :
    NoColumnInGlobals (.list xs) := by
  rintro (_ | ⟨k, p⟩) ys h
  · simp [Spec.at?] at h
  · simp only [Spec.at?, Spec.child, Option.bind_eq_some_iff] at h
    obtain ⟨y, hy, h⟩ := h
    exact hx y (List.mem_of_getElem? hy) p ys h

theorem noColumn_dict {S A : Type} {xs : List (String × Cfg S A)}
    (hx : ∀ e ∈ xs, NoColumnInGlobals e.2 ∧ (e.1 ∈ globalKeys → ∀ q name, ¬ Spec.RefAt e.2 q name)) :
    NoColumnInGlobals (.dict xs) := by
  rintro (_ | ⟨k, p⟩) ys h
  · injection h with h
    injection h with h
    subst h
    exact fun e he => (hx e he).2
  · simp only [Spec.at?, Spec.child, Option.bind_eq_some_iff] at h
    obtain ⟨y, hy, h⟩ := h
    obtain ⟨e, he, rfl⟩ := Option.map_eq_some_iff.mp hy
    exact (hx e (List.mem_of_getElem? he)).1 p ys h

theorem noRef_scalar {S A : Type} (s : S) (q : List ℕ) (name : Cfg S A) :
    ¬ Spec.RefAt (.scalar s : Cfg S A) q name := by
  rintro ⟨x, hx, h⟩
  unfold Spec.IsRef at h
  subst h
  cases q <;> simp [Spec.at?, Spec.child] at hx

theorem exYaml_noColumn : NoColumnInGlobals (exYaml (num 3)) := by
  have hs : ∀ x : ℝ, NoColumnInGlobals (num x : Yaml) := fun x => noColumn_scalar _
  unfold exYaml
  repeat' first
    | exact hs _
    | exact noColumn_str _
    | exact noRef_scalar _ _ _
    | (refine noColumn_list ?_; simp only [List.forall_mem_cons, List.forall_mem_nil, List.forall_mem_singleton])
    | (refine noColumn_dict ?_; simp only [List.forall_mem_cons, List.forall_mem_singleton])
    | constructor
    | (intro hk; simp [globalKeys] at hk; done)
    | (intro hk q name; exact noRef_scalar _ _ _)
    | trivial
    | (simp; done)

theorem noListed_scalar {S A : Type} (s : S) : NoListedValues (.scalar s : Cfg S A) :=
  ⟨fun _ h => by (cases h), fun d h => by (cases h)⟩

theorem noListed_str {S A : Type} (s : String) : NoListedValues (.str s : Cfg S A) :=
  ⟨fun _ h => by (cases h), fun d h => by (cases h)⟩

theorem noListed_of_dict {S A : Type} {xs : List (String × Cfg S A)}
    (hx : ∀ e ∈ xs, e.1 ∈ globalKeys ∨ NoListedValues e.2 ∨
      e.1 ∈ listKeys ∧ ∃ ys, e.2 = .list ys ∧ ∀ y ∈ ys, NoListedValues y ∧ ∃ d, y = .dict d) :
    NoListedValues (.dict xs) := by
  refine ⟨fun _ h => by (cases h), fun d h => ?_⟩
  cases h with
  | here =>
    intro e he hg zs hz
    rcases hx e he with hk | hk | ⟨hk, ys, hy, h⟩
    · exact absurd hk hg
    · exact absurd hz (hk.1 zs)
    · rw [hz] at hy
      injection hy with hy
      subst hy
      exact ⟨hk, fun x hx => (h x hx).2⟩
  | dict h1 h2 h3 =>
    rcases hx _ h1 with hk | hk | ⟨-, ys, hy, h⟩
    · exact absurd hk h2
    · exact hk.2 d h3
    · dsimp only at hy
      subst hy
      cases h3 with
      | list h4 h5 => exact (h _ h4).1.2 d h5

theorem exYaml_perRow : PerRow (exYaml (num 3)) := by
  refine ⟨exYaml_noColumn, ?_⟩
  have hs : ∀ x : ℝ, NoListedValues (num x : Yaml) := fun x => noListed_scalar _
  have hm : ∀ K G ρ : ℝ, NoListedValues (.dict [("material", .dict [("bulk_modulus", num K),
      ("shear_modulus", num G), ("density", num ρ)]), ("fraction", num 1)] : Yaml) := by
    intro K G ρ
    refine noListed_of_dict ?_
    simp only [List.forall_mem_cons, List.not_mem_nil, IsEmpty.forall_iff, implies_true, and_true]
    refine ⟨.inr (.inl (noListed_of_dict ?_)), .inr (.inl (hs _))⟩
    simp only [List.forall_mem_cons, List.not_mem_nil, IsEmpty.forall_iff, implies_true, and_true]
    exact ⟨.inr (.inl (hs _)), .inr (.inl (hs _)), .inr (.inl (hs _))⟩
  unfold exYaml
  refine noListed_of_dict ?_
  simp only [List.forall_mem_cons, List.not_mem_nil, IsEmpty.forall_iff, implies_true, and_true]
  refine ⟨.inr (.inl (noListed_of_dict ?_)), .inr (.inl (noListed_of_dict ?_)), .inr (.inl (noListed_of_dict ?_)),
    .inr (.inl (noListed_of_dict ?_))⟩ <;>
    simp only [List.forall_mem_cons, List.not_mem_nil, IsEmpty.forall_iff, implies_true, and_true]
  · exact .inr (.inr ⟨by simp [listKeys], _, rfl, by simpa using hm _ _ _⟩)
  · exact ⟨.inr (.inr ⟨by simp [listKeys], _, rfl, by simpa using hm _ _ _⟩), .inr (.inl (hs _))⟩
  · refine ⟨.inr (.inl (noListed_of_dict ?_)), .inr (.inl (noListed_of_dict ?_))⟩ <;>
      simp only [List.forall_mem_cons, List.not_mem_nil, IsEmpty.forall_iff, implies_true, and_true]
    · exact ⟨.inr (.inl (noListed_str _)), .inr (.inl (hs _)), .inr (.inl (hs _)), .inr (.inl (hs _))⟩
    · exact .inr (.inl (noListed_str _))
  · exact ⟨.inr (.inl (hs _)), .inr (.inl (hs _)), .inr (.inl (hs _)), .inr (.inl (hs _))⟩

theorem exRow_por {x : DataRow} (hx : x ∈ [exRow 0.2 3, exRow 0.3 3]) :
    ∃ phi : ℝ, x = exRow phi 3 ∧ 0 < phi ∧ phi ≤ 0.39 := by
  simp only [List.mem_cons, List.not_mem_nil, or_false] at hx
  rcases hx with rfl | rfl
  · exact ⟨0.2, rfl, by norm_num, by norm_num⟩
  · exact ⟨0.3, rfl, by norm_num, by norm_num⟩

theorem exRun_ok (co2 : CO2Model n) (phi : ℝ) (h0 : 0 < phi) (h1 : phi ≤ 0.39) :
    ∃ r, calculate co2 (exSections fun _ : Fin n => phi) = .ok r := by
  obtain ⟨r, -, -, -, -, -, hr, -⟩ := exSections_ok co2 (fun _ => phi) (fun _ => h0) (fun _ => h1)
  exact ⟨r, hr⟩

/-- Both modes do the same on the concrete configuration with a two-row data file. -/
example (conv : Conv) (w : World Yaml DataRow (Σ n, (Fin n → ℕ) × Input n)) (hfl : RoundsToNearest w.fl)
    (hk : w.config = .ok (some (exYaml (num 3)))) (hd : w.data = some (.ok [exRow 0.2 3, exRow 0.3 3])) :
    run (pipeline (fun _ _ _ _ => .error .notImplemented) (reading conv) (readingNoData conv)
        { w with threshold := some 90 }) =
      run (pipeline (fun _ _ _ _ => .error .notImplemented) (reading conv) (readingNoData conv)
        { w with threshold := none }) := by
  refine C53_yaml _ noCO2 conv w _ exYaml_perRow _ 90 (by norm_num) hfl hk hd (by simp) ?_
  intro x hx
  obtain ⟨phi, rfl, h0, h1⟩ := exRow_por hx
  rw [exRead_num conv (fun _ : Fin 1 => phi) (fun _ => 3), bind_ok]
  exact exRun_ok _ phi h0 h1

/-- The two rows give a table (C87 on a run that succeeds). -/
example (conv : Conv) : ∃ r, (reading conv (exYaml (num 3)) 2 (fun i => exRow (![0.2, 0.3] i) 3)
    >>= calculate (fun _ _ _ => .error .notImplemented)) = .ok r := by
  rw [exRead_num conv ![0.2, 0.3] fun _ => 3, bind_ok]
  obtain ⟨r, -, -, -, -, -, hr, -⟩ := exSections_ok (fun _ _ _ => .error .notImplemented) ![0.2, 0.3]
    (fun i => (exPor_range i).1) fun i => (exPor_range i).2
  exact ⟨r, hr⟩

/-- **C88, refuted.** There are a configuration and a data file such that, with any threshold up to 100,
the program writes all rows and exits with 0, while without threshold it rejects the input (−2) and writes
nothing: a column reference for a parameter that must be a single number is only accepted when rows are
processed one at a time. -/
theorem C88_modes_accept_alike_refuted (co2 : ∀ n, CO2Model n) (conv : Conv) :
    ∃ (cfg : Yaml) (rows : List DataRow), rows.length = 2 ∧
      ∀ (w : World Yaml DataRow (Σ n, (Fin n → ℕ) × Input n)) (T : ℝ), T ≤ 100 → RoundsToNearest w.fl →
        w.config = .ok (some cfg) → w.data = some (.ok rows) → (∀ t, w.write t = .ok ()) →
        w.calibration = none →
        (∃ t, run (pipeline co2 (reading conv) (readingNoData conv) { w with threshold := some T })
            = ⟨.ok 0, [t], []⟩ ∧ t.map Prod.fst = [0, 1]) ∧
        run (pipeline co2 (reading conv) (readingNoData conv) { w with threshold := none })
            = ⟨.ok (-2), [], []⟩ := by
  refine ⟨exYaml (.dict [("column", .str "b")]), [exRow 0.2 3, exRow 0.3 3], rfl, ?_⟩
  intro w T hT hfl hk hd hw hcal
  constructor
  · set W := pipeline co2 (reading conv) (readingNoData conv) { w with threshold := some T } with hW
    have hone : ∀ (j : ℕ) x, x ∈ [exRow 0.2 3, exRow 0.3 3] → ∃ row : Row,
        rowAlone W (exYaml (.dict [("column", .str "b")])) (j, x) = some [(j, row)] := by
      intro j x hx
      obtain ⟨phi, rfl, h0, h1⟩ := exRow_por hx
      obtain ⟨r, hr⟩ := exRun_ok (co2 1) phi h0 h1
      refine ⟨r.at 0, ?_⟩
      rw [hW, pipeline_parse_one]
      dsimp only
      rw [exRead_one conv phi, bind_ok, hr]
    obtain ⟨r0, h0⟩ := hone 0 (exRow 0.2 3) (by simp)
    obtain ⟨r1, h1⟩ := hone 1 (exRow 0.3 3) (by simp)
    refine ⟨[(0, r0), (1, r1)], ?_, rfl⟩
    have hrun : run W = runWithThreshold W T := by unfold run; rfl
    rw [hrun, runWithThreshold_eq W _ _ T hk hd]
    have hl : numbered [exRow 0.2 3, exRow 0.3 3] = [(0, exRow 0.2 3), (1, exRow 0.3 3)] := rfl
    have hf : (numbered [exRow 0.2 3, exRow 0.3 3]).filterMap
        (rowAlone W (exYaml (.dict [("column", .str "b")]))) = [[(0, r0)], [(1, r1)]] := by
      rw [hl]; simp [h0, h1]
    rw [hf]
    have hz : successPercentage W.fl (2 - 2) 2 = 100 := by
      unfold successPercentage
      rw [if_neg (by norm_num)]
      have e0 : w.fl 0 = 0 := hfl.exact ⟨0, 0, by norm_num, by simp⟩
      have e1 : w.fl 1 = 1 := hfl.exact ⟨1, 0, by norm_num, by simp⟩
      have e2 : w.fl 100 = 100 := hfl.exact ⟨100, 0, by norm_num, by simp⟩
      change w.fl (w.fl (1 - w.fl ((0 : ℕ) / ((2 : ℕ) : ℝ))) * 100) = 100
      rw [Nat.cast_zero, zero_div, e0, sub_zero, e1, one_mul, e2]
    change (if successPercentage W.fl (2 - 2) 2 < T then _ else _) = _
    rw [hz, if_neg (not_lt.mpr hT)]
    have hw' : W.write [(0, r0), (1, r1)] = .ok () := hw _
    have hc' : W.calibration = none := hcal
    change writeAndCalibrate W [(0, r0), (1, r1)] = _
    unfold writeAndCalibrate
    rw [hw', hc']
  · have hp : (reading conv (exYaml (.dict [("column", .str "b")])) 2
        (fun i => ([(0, exRow 0.2 3), (1, exRow 0.3 3)].get i).2)) = .error .valueError := by
      have := exRead_more conv (n := 2) (by norm_num) ![0.2, 0.3] (fun _ => 3)
      rw [← this]
      congr 1
      funext i
      fin_cases i <;> rfl
    set V := pipeline co2 (reading conv) (readingNoData conv) { w with threshold := none } with hV
    have hm : makeInput V = .error .inputError := by
      have h1 : loadConfig V = .ok (exYaml (.dict [("column", .str "b")])) := by
        unfold loadConfig; rw [show V.config = _ from hk]
      have h2 : loadData V = .ok (some [exRow 0.2 3, exRow 0.3 3]) := by
        unfold loadData; rw [show V.data = _ from hd]
      have h3 : V.parse (exYaml (.dict [("column", .str "b")]))
          (some [(0, exRow 0.2 3), (1, exRow 0.3 3)]) = .error .valueError := by
        change (liftErr (reading conv (exYaml (.dict [("column", .str "b")])) 2
          (fun i => ([(0, exRow 0.2 3), (1, exRow 0.3 3)].get i).2) >>= mkInput) >>= _) = _
        rw [hp]
        rfl
      unfold makeInput
      rw [h1, h2]
      change wrapParse (V.parse _ (some [(0, exRow 0.2 3), (1, exRow 0.3 3)])) = _
      rw [h3]
      rfl
    unfold run
    rw [show V.threshold = none from rfl, hm]

end OPE.Main
