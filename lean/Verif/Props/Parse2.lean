import Verif.Props.Parse

/-!
# Acceptance (C47), sections with their defaults (C85), unknown keys (C86)
-/

namespace OPE.Parse

open Classical

variable {n : ℕ}

theorem mem_alternatives (conv : Conv) (t : MatType) :
    (altOf conv t : Val n → Except Err (FluidKind n)) ∈ materialAlternatives conv := by
  cases t <;> simp [altOf, materialAlternatives]

/-- What one alternative accepts is the result of the union. -/
theorem parse_of_alt {conv : Conv} {t : MatType} {v : Val n} (hl : NotList v) {k : FluidKind n}
    (h : altOf conv t v = .ok k) : parseMaterialType conv v = .ok k := by
  obtain ⟨s, hs, hf, -⟩ := alternative_fits (mem_alternatives conv t) h
  cases hp : parseMaterialType conv v with
  | error e =>
    obtain ⟨e', he⟩ := (firstOf_error hp).2 _ (mem_alternatives conv t)
    rw [h] at he; cases he
  | ok k' =>
    obtain ⟨p, hpm, hpk⟩ := firstOf_mem hp
    obtain ⟨u, rfl, hu, -⟩ := alternative_fits hpm hpk
    rw [named_of_not_list hl] at hf hu
    obtain rfl : s = u := types_exclusive hf.only hf.all hu.only hu.all
    rw [← hs, h] at hpk
    injection hpk with hpk; rw [hpk]

theorem needed_of {conv : Conv} {fields : List String} {v : Val n} {a : Args n}
    (ha : args fields v = .ok a) {key : String} (hk : Has (named fields v) key)
    (hn : ∀ y, Given (named fields v) key y → Numeric conv y) : ∃ x, required a key (toCol conv) = .ok x := by
  obtain ⟨y, hy⟩ := hk
  obtain ⟨x, hx⟩ := hn y hy
  exact ⟨x, required_ok.mpr ⟨y, (args_given ha).mpr hy, hx⟩⟩

theorem optional_of {conv : Conv} {fields : List String} {v : Val n} {a : Args n}
    (ha : args fields v = .ok a) {key : String}
    (hn : ∀ y, Given (named fields v) key y → Numeric conv y) :
    ∃ x, defaulted a key (optional (toCol conv)) none = .ok x ∧ (Has (named fields v) key ↔ x.isSome) := by
  by_cases hk : Has (named fields v) key
  · obtain ⟨y, hy⟩ := hk
    obtain ⟨x, hx⟩ := hn y hy
    refine ⟨some x, defaulted_ok.mpr (.inr ⟨y, (args_given ha).mpr hy, ?_⟩), ⟨fun _ => rfl, fun _ => ⟨y, hy⟩⟩⟩
    have hne : y ≠ .scalar .null := by rintro rfl; cases hx
    unfold optional
    split
    · exact absurd rfl hne
    · rw [hx]; rfl
  · exact ⟨none, defaulted_ok.mpr (.inl ⟨not_given_of_not_has ha hk, rfl⟩),
      ⟨fun h => absurd h hk, fun h => (nomatch h)⟩⟩

theorem tagged_of {fields : List String} {v : Val n} {a : Args n} (ha : args fields v = .ok a)
    {tag : String} (ht : ∀ x, Given (named fields v) "type" x → x = .str tag) : tagged a tag = .ok () := by
  rw [tagged_ok]
  cases hk : a "type" with
  | none => exact .inl rfl
  | some x => right; rw [ht x ((args_given ha).mp hk)]

/-- **C47.** Conversely every section that has the keys a type needs, no other keys than it accepts, its tag
or none, and usable values, is accepted as that type.  (A material also needs a bulk modulus or primary
velocity, and a shear modulus or secondary velocity.) -/
theorem C47_accepted (conv : Conv) (v : Val n) (t : MatType) (ho : OnlyKeys v t.accepts)
    (ha : AllKeys v t.needs) (ht : ∀ x, Given v "type" x → x = .str t.name)
    (hv : ∀ key y, key ≠ "type" → Given v key y →
      if t = .carbonDioxide then ∃ b, toBool y = .ok b else Numeric conv y)
    (hm : t = .material → (Has v "bulk_modulus" ∨ Has v "primary_velocity") ∧
      (Has v "shear_modulus" ∨ Has v "secondary_velocity")) :
    ∃ k, parseMaterialType conv v = .ok k ∧ k.type = t.name := by
  have hl : NotList v := by rintro vs rfl; obtain ⟨xs, hx, -⟩ := ho; cases hx
  have hn : ∀ fields : List String, named fields v = v := named_of_not_list hl
  suffices h : ∃ k, altOf conv t v = .ok k ∧ k.type = t.name by
    obtain ⟨k, hk, hkt⟩ := h
    exact ⟨k, parse_of_alt hl hk, hkt⟩
  obtain ⟨a, haa⟩ := args_of_only (v := v) (fields := t.accepts) (by rw [hn]; exact ho)
  have htag := tagged_of haa (by rw [hn]; exact ht)
  have ha : AllKeys (named t.accepts v) t.needs := by rw [hn]; exact ha
  have hv : ∀ key y, key ≠ "type" → Given (named t.accepts v) key y →
      if t = .carbonDioxide then ∃ b, toBool y = .ok b else Numeric conv y := by rw [hn]; exact hv
  have hm : t = .material → (Has (named t.accepts v) "bulk_modulus" ∨ Has (named t.accepts v) "primary_velocity") ∧
      (Has (named t.accepts v) "shear_modulus" ∨ Has (named t.accepts v) "secondary_velocity") := by
    rw [hn]; exact hm
  clear hn
  cases t with
  | material =>
    have hn : ∀ key, key ≠ "type" → ∀ y, Given (named MatType.material.accepts v) key y → Numeric conv y := fun key hk y hy => by
      simpa using hv key y hk hy
    obtain ⟨x1, h1⟩ := needed_of haa (ha "density" (by simp [MatType.needs])) (hn "density" (by decide))
    obtain ⟨x2, h2, e2⟩ := optional_of (conv := conv) haa (hn "bulk_modulus" (by decide))
    obtain ⟨x3, h3, e3⟩ := optional_of (conv := conv) haa (hn "shear_modulus" (by decide))
    obtain ⟨x4, h4, e4⟩ := optional_of (conv := conv) haa (hn "secondary_velocity" (by decide))
    obtain ⟨x5, h5, e5⟩ := optional_of (conv := conv) haa (hn "primary_velocity" (by decide))
    obtain ⟨hb, hs⟩ := hm rfl
    rw [e2, e5] at hb
    rw [e3, e4] at hs
    have h6 : ∃ r, setDefaults x2 x3 (some x1) x4 x5 = .ok r := by
      clear h2 h3 h4 h5 e2 e3 e4 e5
      rcases x2 with _ | x2 <;> rcases x3 with _ | x3 <;> rcases x4 with _ | x4 <;>
        rcases x5 with _ | x5 <;> first | exact ⟨_, rfl⟩ | (exfalso; simp at hb hs)
    obtain ⟨r, h6⟩ := h6
    refine ⟨.material ⟨r.1, r.2.1, x1, r.2.2.2.2, r.2.2.2.1⟩, ?_, rfl⟩
    change args _ v = .ok a at haa
    change tagged a "material" = .ok () at htag
    change parseMaterial conv v = _
    unfold parseMaterial parseArbitrary
    rw [show args ["density", "bulk_modulus", "shear_modulus", "secondary_velocity", "primary_velocity",
      "type"] v = .ok a from haa, bind_ok, htag, bind_ok, h1, bind_ok, h2, bind_ok, h3, bind_ok, h4, bind_ok,
      h5, bind_ok, h6, bind_ok, bind_ok]
  | gas =>
    obtain ⟨x1, h1⟩ := needed_of (conv := conv) haa (ha "gas_gravity" (by simp [MatType.needs])) (fun y hy => by
      simpa using hv "gas_gravity" y (by decide) hy)
    refine ⟨.gas x1, ?_, rfl⟩
    change tagged a "gas" = .ok () at htag
    change parseGas conv v = _
    unfold parseGas
    rw [show args ["gas_gravity", "type"] v = .ok a from haa, bind_ok, htag, bind_ok, h1, bind_ok]
  | oil =>
    obtain ⟨x1, h1⟩ := needed_of (conv := conv) haa (ha "reference_density" (by simp [MatType.needs])) (fun y hy => by
      simpa using hv "reference_density" y (by decide) hy)
    obtain ⟨x2, h2⟩ := needed_of (conv := conv) haa (ha "gas_oil_ratio" (by simp [MatType.needs])) (fun y hy => by
      simpa using hv "gas_oil_ratio" y (by decide) hy)
    obtain ⟨x3, h3⟩ := needed_of (conv := conv) haa (ha "gas_gravity" (by simp [MatType.needs])) (fun y hy => by
      simpa using hv "gas_gravity" y (by decide) hy)
    refine ⟨.oil x1 x2 x3, ?_, rfl⟩
    change tagged a "oil" = .ok () at htag
    change parseOil conv v = _
    unfold parseOil
    rw [show args ["reference_density", "gas_oil_ratio", "gas_gravity", "type"] v = .ok a from haa, bind_ok,
      htag, bind_ok, h1, bind_ok, h2, bind_ok, h3, bind_ok]
  | brine =>
    obtain ⟨x1, h1⟩ := needed_of (conv := conv) haa (ha "salinity" (by simp [MatType.needs])) (fun y hy => by
      simpa using hv "salinity" y (by decide) hy)
    refine ⟨.brine x1, ?_, rfl⟩
    change tagged a "brine" = .ok () at htag
    change parseBrine conv v = _
    unfold parseBrine
    rw [show args ["salinity", "type"] v = .ok a from haa, bind_ok, htag, bind_ok, h1, bind_ok]
  | condensate =>
    obtain ⟨x1, h1⟩ := needed_of (conv := conv) haa (ha "oil_reference_density" (by simp [MatType.needs])) (fun y hy => by
      simpa using hv "oil_reference_density" y (by decide) hy)
    obtain ⟨x2, h2⟩ := needed_of (conv := conv) haa (ha "gas_oil_ratio" (by simp [MatType.needs])) (fun y hy => by
      simpa using hv "gas_oil_ratio" y (by decide) hy)
    obtain ⟨x3, h3⟩ := needed_of (conv := conv) haa (ha "gas_gravity" (by simp [MatType.needs])) (fun y hy => by
      simpa using hv "gas_gravity" y (by decide) hy)
    refine ⟨.condensate x1 x2 x3, ?_, rfl⟩
    change tagged a "condensate" = .ok () at htag
    change parseCondensate conv v = _
    unfold parseCondensate
    rw [show args ["oil_reference_density", "gas_oil_ratio", "gas_gravity", "type"] v = .ok a from haa,
      bind_ok, htag, bind_ok, h1, bind_ok, h2, bind_ok, h3, bind_ok]
  | carbonDioxide =>
    have hb : ∃ b, defaulted a "interpolate_density" toBool true = .ok b := by
      by_cases hk : Has (named MatType.carbonDioxide.accepts v) "interpolate_density"
      · obtain ⟨y, hy⟩ := hk
        have := hv "interpolate_density" y (by decide) hy
        rw [if_pos rfl] at this
        obtain ⟨b, hb⟩ := this
        exact ⟨b, defaulted_ok.mpr (.inr ⟨y, (args_given haa).mpr hy, hb⟩)⟩
      · exact ⟨true, defaulted_ok.mpr (.inl ⟨not_given_of_not_has haa hk, rfl⟩)⟩
    obtain ⟨b, hb⟩ := hb
    refine ⟨.carbonDioxide b, ?_, rfl⟩
    change tagged a "carbon_dioxide" = .ok () at htag
    change parseCO2 v = _
    unfold parseCO2
    rw [show args ["type", "interpolate_density"] v = .ok a from haa, bind_ok, htag, bind_ok, hb, bind_ok]

/-- A gas section without tag, its gravity taken from a column. -/
example (conv : Conv) : ∃ k, parseMaterialType conv
    (.dict [("gas_gravity", .arr (.col ![.num (Num.fin 0.6), .num (Num.fin 0.7)]))] : Val 2) = .ok k ∧
      k.type = "gas" := by
  refine C47_accepted conv _ .gas ⟨_, rfl, by simp [MatType.accepts]⟩ ?_ ?_ ?_ (fun h => (nomatch h))
  · intro key hk
    simp only [MatType.needs, List.mem_singleton] at hk
    subst hk
    exact ⟨_, _, rfl, rfl⟩
  · rintro x ⟨xs, h, hx⟩
    injection h with h; subst h
    simp [List.lookup] at hx
  · rintro key y - ⟨xs, h, hx⟩
    injection h with h; subst h
    rw [if_neg (by decide)]
    by_cases hk : key = "gas_gravity"
    · subst hk
      simp [List.lookup] at hx
      subst hx
      refine ⟨![Num.fin 0.6, Num.fin 0.7], vec_ok fun i => ?_⟩
      fin_cases i <;> rfl
    · have hb : (key == "gas_gravity") = false := by simpa using hk
      simp [List.lookup, hb] at hx

/-- A friable sand section without its tag becomes patchy cement. -/
example (conv : Conv) (m : SandModel 1)
    (h : parseSandstone conv (.dict [("critical_porosity", .scalar (.num (Num.fin 0.4)))] : Val 1) = .ok m) :
    m.typeName = "patchy_cement" := by
  have := (C47_sandstone conv _ (by intro vs hv; cases hv) m h).2 (by
    rintro ⟨x, xs, h, hx⟩
    injection h with h; subst h
    simp [List.lookup] at hx)
  rw [this, if_neg]
  rintro ⟨x, xs, h, hx⟩
  injection h with h; subst h
  simp [List.lookup] at hx

example (conv : Conv) :
    ∃ m, parseSandstone conv (.dict [("critical_porosity", .scalar (.num (Num.fin 0.4)))] : Val 1) = .ok m :=
  ⟨_, rfl⟩

/-! ### Sections -/

/-- **C85.** The fluids section. -/
theorem C85_fluids (conv : Conv) (v : Val n) (f : FluidsIn n) (h : parseFluids conv v = .ok f) :
    Field conv (named fluidsKeys v) "temperature" (c 80) f.temperature ∧
    (∀ y, Given (named fluidsKeys v) "constituents" y → listOf (parseConstituent conv) y = .ok f.constituents) ∧
    (¬ Has (named fluidsKeys v) "constituents" → f.constituents =
      [⟨.oil (c 850) (c 100) (c 0.7), none, some (c 0.3)⟩, ⟨.brine (c 50000), none, some (c 0.3)⟩,
       ⟨.gas (c 0.7), none, some (c 0.4)⟩]) ∧
    (∀ y, Given (named fluidsKeys v) "mix_method" y → (y = .str "wood" ∧ f.method = .wood) ∨ (y = .str "brie" ∧ f.method = .brie)) ∧
    (¬ Has (named fluidsKeys v) "mix_method" → f.method = .wood) ∧
    (∀ y, Given (named fluidsKeys v) "brie_constant" y → toFloat conv y = .ok f.brieConstant) ∧
    (¬ Has (named fluidsKeys v) "brie_constant" → f.brieConstant = Num.fin 3) ∧
    (∀ y, Given (named fluidsKeys v) "brie_gases" y → y ≠ .scalar .null →
      ∃ l, f.brieGases = some l ∧ listOf (toInt conv) y = .ok l) ∧
    ((∀ y, Given (named fluidsKeys v) "brie_gases" y → y = .scalar .null) → f.brieGases = none) ∧
    (∀ y, Given (named fluidsKeys v) "fluid_model" y → toProvider y = .ok f.model) ∧
    (¬ Has (named fluidsKeys v) "fluid_model" → f.model = .default) := by
  unfold parseFluids at h
  obtain ⟨a, ha, h⟩ := bind_eq_ok.mp h
  obtain ⟨x1, h1, h⟩ := bind_eq_ok.mp h
  obtain ⟨x2, h2, h⟩ := bind_eq_ok.mp h
  obtain ⟨x3, h3, h⟩ := bind_eq_ok.mp h
  obtain ⟨x4, h4, h⟩ := bind_eq_ok.mp h
  obtain ⟨x5, h5, h⟩ := bind_eq_ok.mp h
  obtain ⟨x6, h6, h⟩ := bind_eq_ok.mp h
  injection h with h; subst h
  have giv : ∀ {α : Type} {key : String} {p : Val n → Except Err α} {d x : α},
      defaulted a key p d = .ok x → (∀ y, Given (named fluidsKeys v) key y → p y = .ok x) ∧ (¬ Has (named fluidsKeys v) key → x = d) := by
    intro α key p d x h
    rcases defaulted_ok.mp h with ⟨hk, rfl⟩ | ⟨y, hk, hy⟩
    · refine ⟨fun y hy => ?_, fun _ => rfl⟩
      rw [← args_given ha, hk] at hy; cases hy
    · refine ⟨fun z hz => ?_, fun hh => absurd ⟨y, (args_given ha).mp hk⟩ hh⟩
      rw [← args_given ha, hk] at hz; injection hz with hz; subst hz; exact hy
  refine ⟨field_of ha h1, (giv h2).1, (giv h2).2, fun y hy => ?_, (giv h3).2, (giv h4).1, (giv h4).2,
    fun y hy hne => ?_, fun hall => ?_, (giv h6).1, (giv h6).2⟩
  · have := (giv h3).1 y hy
    cases y with
    | str s =>
      simp only [toMethod] at this
      split at this
      · rename_i hs; injection this with this; exact .inl ⟨by rw [hs], this.symm⟩
      · split at this
        · rename_i hs; injection this with this; exact .inr ⟨by rw [hs], this.symm⟩
        · cases this
    | _ => cases this
  · rcases optional_given ((giv h5).1 y hy) with ⟨h, -⟩ | ⟨-, l, hl, h⟩
    · exact absurd h hne
    · exact ⟨l, h, hl⟩
  · by_cases hk : Has (named fluidsKeys v) "brie_gases"
    · obtain ⟨y, hy⟩ := hk
      rcases optional_given ((giv h5).1 y hy) with ⟨-, h⟩ | ⟨h, -⟩
      · exact h
      · exact absurd (hall y hy) h
    · exact (giv h5).2 hk

/-- **C85.** The dry rock section. -/
theorem C85_dry_rock (conv : Conv) (v : Val n) (d : DryRockIn n) (h : parseDryRock conv v = .ok d) :
    Field conv (named dryRockKeys v) "porosity" (c 0.3) d.porosity ∧
    (∀ y, Given (named dryRockKeys v) "model" y → parseSandstone conv y = .ok d.model) ∧
    (¬ Has (named dryRockKeys v) "model" → d.model = .polyfit true ⟨some ⟨1, 1, ![![0, 0], ![1, -1]]⟩,
      some ⟨0, 1, ![![2900, -1300]]⟩, some ⟨0, 1, ![![1700, -800]]⟩⟩) ∧
    (∀ y, Given (named dryRockKeys v) "adjustments" y → listOf (parseAdjustment conv) y = .ok d.adjustments) ∧
    (¬ Has (named dryRockKeys v) "adjustments" → d.adjustments = []) := by
  unfold parseDryRock at h
  obtain ⟨a, ha, h⟩ := bind_eq_ok.mp h
  obtain ⟨x1, h1, h⟩ := bind_eq_ok.mp h
  obtain ⟨x2, h2, h⟩ := bind_eq_ok.mp h
  obtain ⟨x3, h3, h⟩ := bind_eq_ok.mp h
  injection h with h; subst h
  have giv : ∀ {α : Type} {key : String} {p : Val n → Except Err α} {d x : α},
      defaulted a key p d = .ok x → (∀ y, Given (named dryRockKeys v) key y → p y = .ok x) ∧ (¬ Has (named dryRockKeys v) key → x = d) := by
    intro α key p d x h
    rcases defaulted_ok.mp h with ⟨hk, rfl⟩ | ⟨y, hk, hy⟩
    · refine ⟨fun y hy => ?_, fun _ => rfl⟩
      rw [← args_given ha, hk] at hy; cases hy
    · refine ⟨fun z hz => ?_, fun hh => absurd ⟨y, (args_given ha).mp hk⟩ hh⟩
      rw [← args_given ha, hk] at hz; injection hz with hz; subst hz; exact hy
  exact ⟨field_of ha h2, (giv h1).1, (giv h1).2, (giv h3).1, (giv h3).2⟩

/-- **C85.** A constituent. -/
theorem C85_constituent (conv : Conv) (v : Val n) (x : FluidSpec n) (h : parseConstituent conv v = .ok x) :
    (∃ y, Given (named constituentKeys v) "material" y ∧ parseMaterialType conv y = .ok x.kind) ∧
    OpenField conv (named constituentKeys v) "fraction" none x.fraction ∧
    (∀ y, Given (named constituentKeys v) "fluid_model" y → y ≠ .scalar .null → ∃ m, x.model = some m ∧ toProvider y = .ok m) ∧
    (¬ Has (named constituentKeys v) "fluid_model" → x.model = none) := by
  unfold parseConstituent at h
  obtain ⟨a, ha, h⟩ := bind_eq_ok.mp h
  obtain ⟨x1, h1, h⟩ := bind_eq_ok.mp h
  obtain ⟨x2, h2, h⟩ := bind_eq_ok.mp h
  obtain ⟨x3, h3, h⟩ := bind_eq_ok.mp h
  injection h with h; subst h
  obtain ⟨y, hy, hy1⟩ := required_ok.mp h1
  refine ⟨⟨y, (args_given ha).mp hy, hy1⟩, openField_of ha h2, fun z hz hne => ?_, fun hh => ?_⟩
  · rw [← args_given ha] at hz
    rcases defaulted_ok.mp h3 with ⟨hk, -⟩ | ⟨w, hk, hw⟩
    · rw [hk] at hz; cases hz
    · rw [hk] at hz; injection hz with hz; subst hz
      rcases optional_given hw with ⟨h, -⟩ | ⟨-, m, hm, h⟩
      · exact absurd h hne
      · exact ⟨m, h, hm⟩
  · rcases defaulted_ok.mp h3 with ⟨-, h⟩ | ⟨w, hk, -⟩
    · exact h
    · exact absurd ⟨w, (args_given ha).mp hk⟩ hh

/-- **C85.** The depth trend. -/
theorem C85_depth_trend (conv : Conv) (v : Val n) (t : DepthTrend n)
    (h : parseDepthTrend conv v = .ok (.depthTrend t)) :
    NeededField conv (named depthTrendKeys v) "depth" t.depth ∧ OpenField conv (named depthTrendKeys v) "reference_depth" none t.referenceDepth ∧
    OpenField conv (named depthTrendKeys v) "max_depth" none t.maxDepth ∧
    ∃ w, Given (named depthTrendKeys v) "coefficients" w ∧
      (NotList w → (t.useModuli = false ↔ Has w "primary_velocity" ∨ Has w "secondary_velocity")) ∧
      (∀ y, Given (named (coefKeys t.useModuli) w) "density" y → y ≠ .scalar .null → toCoeffs? conv y = some t.coefficients.density) ∧
      (∀ y, Given (named (coefKeys t.useModuli) w) (if t.useModuli then "bulk_modulus" else "primary_velocity") y → y ≠ .scalar .null →
        toCoeffs? conv y = some t.coefficients.primary) ∧
      (∀ y, Given (named (coefKeys t.useModuli) w) (if t.useModuli then "shear_modulus" else "secondary_velocity") y → y ≠ .scalar .null →
        toCoeffs? conv y = some t.coefficients.secondary) := by
  unfold parseDepthTrend at h
  obtain ⟨a, ha, h⟩ := bind_eq_ok.mp h
  obtain ⟨_, -, h⟩ := bind_eq_ok.mp h
  obtain ⟨x1, h1, h⟩ := bind_eq_ok.mp h
  obtain ⟨k, hk, h⟩ := bind_eq_ok.mp h
  obtain ⟨x3, h3, h⟩ := bind_eq_ok.mp h
  obtain ⟨x4, h4, h⟩ := bind_eq_ok.mp h
  obtain ⟨d, hd, h⟩ := bind_eq_ok.mp h
  obtain ⟨p, hp, h⟩ := bind_eq_ok.mp h
  obtain ⟨s, hs, h⟩ := bind_eq_ok.mp h
  injection h with h; injection h with h; subst h
  obtain ⟨w, hw, hk⟩ := required_ok.mp hk
  obtain ⟨c1, c3, c4, c5⟩ := coefs_of hk
  have key : ∀ {x : Option (Val n)} {r : Coeffs} {key : String},
      CoefField (named (coefKeys k.useModuli) w) key x → needCoeffsOf conv x = .ok r →
      ∀ u, Given (named (coefKeys k.useModuli) w) key u → u ≠ .scalar .null → toCoeffs? conv u = some r := by
    intro x r key hf hr u hu hun
    rw [hf.1 u hu hun] at hr
    unfold needCoeffsOf orReject at hr
    dsimp only at hr
    split at hr
    · cases hr
    · rename_i b hb; injection hr with hr; subst hr; exact hb
  exact ⟨neededField_of ha h1, openField_of ha h3, openField_of ha h4, w, (args_given ha).mp hw, c1,
    key c3 hd, key c4 hp, key c5 hs⟩

/-! ### Unknown keys -/

theorem eachOf_ok {α : Type} {p : Val n → Except Err α} {xs : List (Val n)} {ys : List α}
    (h : eachOf p xs = .ok ys) : ∀ x ∈ xs, ∃ y ∈ ys, p x = .ok y := by
  induction xs generalizing ys with
  | nil => simp
  | cons x xs ih =>
    unfold eachOf at h
    obtain ⟨y, hy, h⟩ := bind_eq_ok.mp h
    obtain ⟨ys', hys, h⟩ := bind_eq_ok.mp h
    injection h with h; subst h
    intro z hz
    rcases List.mem_cons.mp hz with rfl | hz
    · exact ⟨y, List.mem_cons_self, hy⟩
    · obtain ⟨w, hw, hw'⟩ := ih hys z hz
      exact ⟨w, List.mem_cons_of_mem _ hw, hw'⟩

theorem listOf_ok {α : Type} {p : Val n → Except Err α} {v : Val n} {ys : List α}
    (h : listOf p v = .ok ys) : ∃ xs, v = .list xs ∧ ∀ x ∈ xs, ∃ y ∈ ys, p x = .ok y := by
  cases v with
  | list xs => exact ⟨xs, rfl, eachOf_ok h⟩
  | _ => cases h

/-- Every constituent of a list, and every material in it, has known keys only. -/
def ConstituentKeys (v : Val n) : Prop :=
  ∃ xs, v = .list xs ∧ ∀ x ∈ xs, OnlyKeys (named constituentKeys x) constituentKeys ∧
    ∀ m, Given (named constituentKeys x) "material" m → ∃ t : MatType, OnlyKeys (named t.accepts m) t.accepts

/-- Known keys of coefficients. -/
def CoefficientKeys (v : Val n) : Prop :=
  ∃ keys ∈ [moduliKeys, velocityKeys, vpVsKeys], OnlyKeys (named keys v) keys

/-- Known keys of the models of a dry rock and of a pressure dependency. -/
def ModelKeys (v : Val n) : Prop :=
  (OnlyKeys (named patchyKeys v) patchyKeys ∧
    ∀ m, Given (named patchyKeys v) "cement" m →
      OnlyKeys (named MatType.material.accepts m) MatType.material.accepts) ∨
  OnlyKeys (named friableKeys v) friableKeys ∨
  (OnlyKeys (named fitKeys v) fitKeys ∧
    ∀ m, Given (named fitKeys v) "coefficients" m → m = .scalar .null ∨ CoefficientKeys m)

/-- Known keys of an adjustment. -/
def AdjustmentKeys (v : Val n) : Prop :=
  (OnlyKeys (named depthTrendKeys v) depthTrendKeys ∧
    ∀ m, Given (named depthTrendKeys v) "coefficients" m → CoefficientKeys m) ∨
  (OnlyKeys (named pressureDependencyKeys v) pressureDependencyKeys ∧
    ∀ m, Given (named pressureDependencyKeys v) "model" m → ModelKeys m)

theorem constituents_keys {conv : Conv} {v : Val n} {l : List (FluidSpec n)}
    (h : listOf (parseConstituent conv) v = .ok l) : ConstituentKeys v := by
  obtain ⟨xs, rfl, hx⟩ := listOf_ok h
  refine ⟨xs, rfl, fun x hm => ?_⟩
  obtain ⟨y, -, hy⟩ := hx x hm
  obtain ⟨⟨m, hm1, hm2⟩, -⟩ := C85_constituent conv x y hy
  unfold parseConstituent at hy
  obtain ⟨a, ha, -⟩ := bind_eq_ok.mp hy
  refine ⟨args_only ha, fun m' hm' => ?_⟩
  have : m' = m := by
    replace hm1 := (args_given ha).mpr hm1
    rw [(args_given ha).mpr hm'] at hm1; injection hm1
  subst this
  obtain ⟨t, -, ht, -⟩ := C47_material conv m' _ hm2
  exact ⟨t, ht⟩

theorem patchy_keys {conv : Conv} {v : Val n} {f : PatchyModel n} (h : parsePatchy conv v = .ok f) :
    ModelKeys v := by
  refine .inl ⟨(parsePatchy_fits h).1, fun m hm => ?_⟩
  obtain ⟨_, -, -, -, -, -, -, -, h, -⟩ := patchyFields_of h
  have := h m hm
  unfold parseArbitrary at this
  obtain ⟨a, ha, -⟩ := bind_eq_ok.mp this
  exact args_only ha

theorem coefficient_keys {conv : Conv} {v : Val n} {k : CoefIn n} (h : parsePolyfitCoef conv v = .ok k) :
    CoefficientKeys v := by
  rcases parsePolyfitCoef_cases h with hm | ⟨-, hv⟩
  · exact ⟨_, by simp, (parseModuliCoef_spec hm).1⟩
  · exact ⟨velocityKeys, by simp, (parseVelocityCoef_spec hv).1⟩

theorem polyfit2d_keys {conv : Conv} {v : Val n} {m : SandModel n} (h : parsePolyfit2d conv v = .ok m) :
    ModelKeys v := by
  refine .inr (.inr ⟨(parsePolyfit2d_fits h).1, fun w hw => ?_⟩)
  unfold parsePolyfit2d at h
  obtain ⟨a, ha, h⟩ := bind_eq_ok.mp h
  obtain ⟨_, ht, h⟩ := bind_eq_ok.mp h
  obtain ⟨co, hco, h⟩ := bind_eq_ok.mp h
  rw [← args_given ha] at hw
  rcases defaulted_ok.mp hco with ⟨hk, -⟩ | ⟨y, hk, hy⟩
  · rw [hk] at hw; cases hw
  · rw [hk] at hw; injection hw with hw; subst hw
    rcases optional_given hy with ⟨h, -⟩ | ⟨-, k, hk, -⟩
    · exact .inl h
    · exact .inr (coefficient_keys hk)

theorem modelKeys_pd {conv : Conv} {v : Val n} {m : PDIn n} (h : parsePDModel conv v = .ok m) :
    ModelKeys v := by
  rcases parsePDModel_cases h with ⟨f, hf, -⟩ | ⟨-, f, hf, -⟩ | ⟨kind, hf, -⟩
  · exact patchy_keys hf
  · exact .inr (.inl (parseFriable_fits hf).1)
  · obtain ⟨hk, -, -, co, rfl⟩ := parseFit_fits hf
    refine .inr (.inr ⟨hk, fun w hw => .inr ?_⟩)
    obtain ⟨u, hu, hc⟩ := parseFit_given hf
    obtain ⟨ys, e, hw⟩ := hw
    obtain ⟨zs, e', hu⟩ := hu
    rw [e] at e'
    injection e' with e'; subst e'
    rw [hu] at hw; injection hw with hw; subst hw
    split at hc
    · exact ⟨vpVsKeys, by simp, (parseVpOverVsCoef_spec hc).1⟩
    · exact coefficient_keys hc

theorem adjustment_keys {conv : Conv} {v : Val n} {x : Adjustment n} (h : parseAdjustment conv v = .ok x) :
    AdjustmentKeys v := by
  obtain ⟨p, hp, hx⟩ := firstOf_mem h
  simp only [List.mem_cons, List.not_mem_nil, or_false] at hp
  rcases hp with rfl | rfl
  · unfold parseDepthTrend at hx
    obtain ⟨a, ha, hx⟩ := bind_eq_ok.mp hx
    obtain ⟨_, -, hx⟩ := bind_eq_ok.mp hx
    obtain ⟨_, -, hx⟩ := bind_eq_ok.mp hx
    obtain ⟨co, hco, -⟩ := bind_eq_ok.mp hx
    obtain ⟨w, hw, hm⟩ := required_ok.mp hco
    refine .inl ⟨args_only ha, fun m' hm' => ?_⟩
    rw [← args_given ha, hw] at hm'
    injection hm' with e; subst e
    exact coefficient_keys hm
  · unfold parsePressureDependency at hx
    obtain ⟨a, ha, hx⟩ := bind_eq_ok.mp hx
    obtain ⟨_, -, hx⟩ := bind_eq_ok.mp hx
    obtain ⟨m, hm, -⟩ := bind_eq_ok.mp hx
    obtain ⟨w, hw, hm⟩ := required_ok.mp hm
    refine .inr ⟨args_only ha, fun m' hm' => ?_⟩
    rw [← args_given ha, hw] at hm'
    injection hm' with e; subst e
    exact modelKeys_pd hm

/-- **C86.** A configuration that is accepted has no unknown key in any section, constituent, material, model
or adjustment: a misspelled key is never silently ignored. -/
theorem C86_unknown_keys (conv : Conv) (minerals fluids dryRock pressure : Val n) (s : Sections n)
    (h : parseSections conv minerals fluids dryRock pressure = .ok s) :
    let minerals := named mineralsKeys minerals
    let fluids := named fluidsKeys fluids
    let dryRock := named dryRockKeys dryRock
    let pressure := named pressureKeys pressure
    OnlyKeys minerals mineralsKeys ∧ (∀ x, Given minerals "constituents" x → ConstituentKeys x) ∧
    OnlyKeys fluids fluidsKeys ∧ (∀ x, Given fluids "constituents" x → ConstituentKeys x) ∧
    OnlyKeys dryRock dryRockKeys ∧ (∀ x, Given dryRock "model" x → ModelKeys x) ∧
    (∀ x, Given dryRock "adjustments" x → ∃ xs, x = .list xs ∧ ∀ y ∈ xs, AdjustmentKeys y) ∧
    OnlyKeys pressure pressureKeys := by
  intro minerals' fluids' dryRock' pressure'
  unfold parseSections at h
  obtain ⟨m, hm, h⟩ := bind_eq_ok.mp h
  obtain ⟨f, hf, h⟩ := bind_eq_ok.mp h
  obtain ⟨d, hd, h⟩ := bind_eq_ok.mp h
  obtain ⟨p, hp, h⟩ := bind_eq_ok.mp h
  have hf' := C85_fluids conv fluids f hf
  have hd' := C85_dry_rock conv dryRock d hd
  unfold parseMinerals at hm
  obtain ⟨a, ha, hm⟩ := bind_eq_ok.mp hm
  unfold parseFluids at hf
  obtain ⟨b, hb, -⟩ := bind_eq_ok.mp hf
  unfold parseDryRock at hd
  obtain ⟨e, he, -⟩ := bind_eq_ok.mp hd
  unfold parsePressure at hp
  obtain ⟨g, hg, -⟩ := bind_eq_ok.mp hp
  refine ⟨args_only ha, fun x hx => ?_, args_only hb, fun x hx => constituents_keys (hf'.2.1 x hx),
    args_only he, fun x hx => ?_, fun x hx => ?_, args_only hg⟩
  · replace hx := (args_given ha).mpr hx
    rcases defaulted_ok.mp hm with ⟨hk, -⟩ | ⟨y, hk, hy⟩
    · rw [hk] at hx; cases hx
    · rw [hk] at hx; injection hx with hx; subst hx; exact constituents_keys hy
  · rcases parseSandstone_cases (hd'.2.1 x hx) with ⟨f, hf, -⟩ | ⟨-, f, hf, -⟩ | ⟨-, -, hf⟩
    · exact patchy_keys hf
    · exact .inr (.inl (parseFriable_fits hf).1)
    · exact polyfit2d_keys hf
  · obtain ⟨xs, rfl, h2⟩ := listOf_ok (hd'.2.2.2.1 x hx)
    exact ⟨xs, rfl, fun y hy => by
      obtain ⟨z, -, hz⟩ := h2 y hy
      exact adjustment_keys hz⟩

/-- **C86.** An unknown top-level key is rejected, whatever else the file contains. -/
theorem C86_top_level (conv : Conv) (data : Option (Frame (Arr n))) (xs : List (String × Yaml))
    (x : String × Yaml) (hx : x ∈ xs)
    (hk : x.1 ∉ ["data", "minerals", "fluids", "dry_rock", "pressure"]) :
    readWith conv data (.dict xs) = .error .valueError := by
  unfold readWith
  dsimp only
  rw [failIf_true ⟨x, hx, hk⟩]; rfl

/-- The sections of an empty configuration. -/
noncomputable def defaultSections : Sections n where
  minerals := [⟨moduliMat 36.8e9 44e9 2650, some (c 0.5)⟩, ⟨moduliMat 25e9 12e9 2650, some (c 0.5)⟩]
  temperature := c 80
  fluids := [⟨.oil (c 850) (c 100) (c 0.7), none, some (c 0.3)⟩, ⟨.brine (c 50000), none, some (c 0.3)⟩,
    ⟨.gas (c 0.7), none, some (c 0.4)⟩]
  mixMethod := .wood
  brieConstant := Num.fin 3
  brieGases := none
  fluidModel := .default
  sandModel := .polyfit true ⟨some ⟨1, 1, ![![0, 0], ![1, -1]]⟩, some ⟨0, 1, ![![2900, -1300]]⟩,
    some ⟨0, 1, ![![1700, -800]]⟩⟩
  porosity := c 0.3
  adjustments := []
  overburden := c 100e6
  reference := c 30e6
  fluidPressure := some (c 70e6)
  maxEffective := none
  rockPressure := none

/-- **C85.** An empty configuration is accepted, with and without data, and gives the documented defaults. -/
theorem C85_empty (conv : Conv) (data : Option (Frame (Arr n))) :
    readWith conv data (.dict []) = .ok defaultSections := by
  unfold readWith
  dsimp only
  rw [failIf_false (by simp), bind_ok]
  have hi : ∀ key, insertDataframe data (mapArr (S := Scalar) Empty.elim ((([] : List (String × Yaml)).lookup key).getD (.dict [])))
      = .ok (.dict []) := by
    intro key
    cases data <;> rfl
  simp only [hi, bind_ok]
  rfl

end OPE.Parse
