import Verif.Props.Document4

/-!
# C114: a configuration is read as what it says
-/

namespace OPE.Doc

open Parse

variable {n : ℕ}

/-- A mineral as a constituent. -/
def asConstituent (x : MineralIn n) : FluidSpec n := ⟨.material x.mat, none, x.fraction⟩

theorem toMinerals_map (ms : List (MineralIn n)) : toMinerals (ms.map asConstituent) = .ok ms := by
  induction ms with
  | nil => rfl
  | cons m ms ih => simp only [List.map_cons, toMinerals, toMineral, asConstituent, ih, bind_ok]

theorem Listing.minerals {rows : Source n} {y : Yaml} {ms : List (MineralIn n)} (h : Listing (Mineral rows) y ms) :
    Listing (Constituent rows) y (ms.map asConstituent) := by
  obtain ⟨ys, rfl, h⟩ := h
  refine ⟨ys, rfl, ?_⟩
  induction h with
  | nil => exact .nil
  | cons h _ ih => exact .cons h ih

theorem moduliMat_ofReal {K G ρ : ℝ} (hK : 0 ≤ K) (hG : 0 ≤ G) (hρ : 0 < ρ) :
    (moduliMat K G ρ : Mat n) = Mat.ofReal (fun _ => K) (fun _ => G) (fun _ => ρ) := by
  have h := setDefaults_moduli (n := n) (K := fun _ => K) (G := fun _ => G) (ρ := fun _ => ρ) (fun _ => hK) (fun _ => hG) (fun _ => hρ)
  simp only [setDefaults, bind_ok, Except.ok.injEq, Prod.mk.injEq, true_and] at h
  unfold moduliMat
  show (⟨finC fun _ => K, finC fun _ => G, finC fun _ => ρ, calcVp (finC fun _ => K) (finC fun _ => G) (finC fun _ => ρ),
    calcVs (finC fun _ => G) (finC fun _ => ρ)⟩ : Mat n) = _
  rw [h.1, h.2]
  rfl

theorem Minerals.reads {rows : Source n} {y : Yaml} {ms : List (MineralIn n)} (conv : Conv) (h : Minerals rows y ms) :
    Reads rows (parseMinerals conv) y (ms.map asConstituent) := by
  obtain ⟨v, a, hv, ha, hn, hf⟩ := Mapping.holds (rows := rows) h ["constituents"] (by simp [may]) (by decide) (by
    simp only [List.mem_cons, List.not_mem_nil, or_false]
    rintro f rfl z hz
    exact reads_ins ((Listing.minerals (may_some.mp hz)).reads fun y a _ h => Constituent.reads conv h))
  simp only [List.forall_mem_cons] at hf
  refine ⟨v, hv, ?_⟩
  unfold parseMinerals
  rw [ha, bind_ok]
  refine hf.1.may (fun h => ?_) fun y hy => (Listing.minerals hy).reads fun y a _ h => Constituent.reads conv h
  subst h
  unfold defaultMinerals
  rw [moduliMat_ofReal (by norm_num) (by norm_num) (by norm_num), moduliMat_ofReal (by norm_num) (by norm_num) (by norm_num)]
  rfl

theorem gases_read (rows : Source n) (conv : Conv) (zs : List ℤ) :
    Reads rows (listOf (toInt conv)) (.list (zs.map fun z : ℤ => number z)) zs :=
  Listing.reads (R := fun y (z : ℤ) => y = number z) (fun y z _ h => ⟨.scalar (.num (Num.fin z)), by rw [h]; exact ins_number rows z, by
    simp [toInt, Scalar.toNum, numToInt, orReject]⟩)
    ⟨_, rfl, by
      induction zs with
      | nil => exact .nil
      | cons z zs ih => exact .cons rfl ih⟩

theorem Fluids.reads {rows : Source n} {y : Yaml} {s : Sections n} (conv : Conv) (h : Fluids rows y s) :
    Reads rows (parseFluids conv) y ⟨s.temperature, s.fluids, s.mixMethod, s.brieConstant, s.brieGases, s.fluidModel⟩ := by
  have hgas : ∀ y, Maybe (fun y zs => y = .list (zs.map fun z : ℤ => number z)) y s.brieGases →
      Reads rows (Parse.optional (listOf (toInt conv))) y s.brieGases := fun y hy => by
    refine Maybe.reads (fun y zs h => ?_) hy
    subst h
    refine ⟨gases_read rows conv zs, fun v hv e => ?_⟩
    obtain ⟨w, hw, hr⟩ := gases_read rows conv zs
    rw [hv] at hw; injection hw with hw; subst hw; subst e
    cases hr
  have hcon : ∀ y, Listing (Constituent rows) y s.fluids → Reads rows (listOf (parseConstituent conv)) y s.fluids :=
    fun y hy => hy.reads fun y a _ h => Constituent.reads conv h
  have hbrie : ∀ y, (∃ e : ℝ, y = number e ∧ s.brieConstant = Num.fin e) → Reads rows (toFloat conv) y s.brieConstant := by
    rintro y ⟨e, rfl, he⟩
    exact ⟨_, ins_number rows e, by rw [he]; rfl⟩
  obtain ⟨v, a, hv, ha, hn, hf⟩ := Mapping.holds (rows := rows) h ["temperature", "constituents", "mix_method", "brie_constant",
    "brie_gases", "fluid_model"] (by simp [may]) (by decide) (by
    simp only [List.mem_cons, List.not_mem_nil, or_false]
    rintro f (rfl | rfl | rfl | rfl | rfl | rfl) z hz
    · exact (may_some.mp hz).ins
    · exact reads_ins (hcon z (may_some.mp hz))
    · exact reads_ins (may_some.mp hz).reads
    · exact reads_ins (hbrie z (may_some.mp hz))
    · exact reads_ins (hgas z (may_some.mp hz))
    · exact reads_ins (may_some.mp hz).reads.1)
  simp only [List.forall_mem_cons] at hf
  obtain ⟨h1, h2, h3, h4, h5, h6, -⟩ := hf
  refine ⟨v, hv, ?_⟩
  unfold parseFluids
  rw [ha, bind_ok, h1.mayParam (x0 := c 80) conv (fun h => h), bind_ok, h2.may (x0 := defaultFluids) (fun h => h) hcon, bind_ok,
    h3.may (x0 := .wood) (fun h => h) (fun y hy => hy.reads), bind_ok, h4.may (x0 := Num.fin 3) (fun h => h) hbrie, bind_ok,
    h5.may (x0 := none) (fun h => h) hgas, bind_ok, h6.may (x0 := .default) (fun h => h) (fun y hy => hy.reads.1), bind_ok]

theorem defaultSandstone_eq : (defaultSandstone : SandModel n) = .polyfit true ⟨some ⟨1, 1, ![![0, 0], ![1, -1]]⟩,
    some ⟨0, 1, ![![2900, -1300]]⟩, some ⟨0, 1, ![![1700, -800]]⟩⟩ := by
  rfl

theorem DryRock.reads {rows : Source n} {y : Yaml} {s : Sections n} (conv : Conv) (h : DryRock rows y s) :
    Reads rows (parseDryRock conv) y ⟨s.sandModel, s.porosity, s.adjustments⟩ := by
  have hadj : ∀ y, Listing (Adjusted rows) y s.adjustments → Reads rows (listOf (parseAdjustment conv)) y s.adjustments :=
    fun y hy => hy.reads fun y a _ h => Adjusted.reads conv h
  obtain ⟨v, a, hv, ha, hn, hf⟩ := Mapping.holds (rows := rows) h ["model", "porosity", "adjustments"] (by simp [may]) (by decide) (by
    simp only [List.mem_cons, List.not_mem_nil, or_false]
    rintro f (rfl | rfl | rfl) z hz
    · exact reads_ins ((may_some.mp hz).reads conv)
    · exact (may_some.mp hz).ins
    · exact reads_ins (hadj z (may_some.mp hz)))
  simp only [List.forall_mem_cons] at hf
  obtain ⟨h1, h2, h3, -⟩ := hf
  refine ⟨v, hv, ?_⟩
  unfold parseDryRock
  rw [ha, bind_ok, h1.may (x0 := defaultSandstone) (fun h => h.trans defaultSandstone_eq.symm) (fun y hy => hy.reads conv), bind_ok,
    h2.mayParam (x0 := c 0.3) conv (fun h => h), bind_ok, h3.may (x0 := []) (fun h => h) hadj, bind_ok]

theorem Pressures.reads {rows : Source n} {y : Yaml} {s : Sections n} (conv : Conv) (h : Pressures rows y s) :
    Reads rows (parsePressure conv) y ⟨s.overburden, s.reference, s.fluidPressure, s.maxEffective, s.rockPressure⟩ := by
  obtain ⟨v, a, hv, ha, hn, hf⟩ := Mapping.holds (rows := rows) h ["overburden", "reference", "fluid", "max_effective", "rock"]
    (by simp [may]) (by decide) (by
    simp only [List.mem_cons, List.not_mem_nil, or_false]
    rintro f (rfl | rfl | rfl | rfl | rfl) z hz
    · exact (may_some.mp hz).ins
    · exact (may_some.mp hz).ins
    · exact maybe_parameter_ins (may_some.mp hz)
    · exact maybe_parameter_ins (may_some.mp hz)
    · exact maybe_parameter_ins (may_some.mp hz))
  simp only [List.forall_mem_cons] at hf
  obtain ⟨h1, h2, h3, h4, h5, -⟩ := hf
  refine ⟨v, hv, ?_⟩
  unfold parsePressure
  rw [ha, bind_ok, h1.mayParam (x0 := c 100e6) conv (fun h => h), bind_ok, h2.mayParam (x0 := c 30e6) conv (fun h => h), bind_ok,
    h3.maybeParam (x0 := some (c 70e6)) conv (fun h => h), bind_ok, h4.maybeParam conv (fun h => h), bind_ok,
    h5.maybeParam conv (fun h => h), bind_ok]

theorem may_orEmpty {key : String} {R : Yaml → Prop} {o : Option Yaml} (h : (may key (orEmpty R) R).2 o) :
    R (o.getD (.dict [])) := by
  rcases h with ⟨rfl, h⟩ | ⟨y, rfl, h⟩
  · exact h
  · exact h

/-- Reading a configuration whose columns come from `src`. -/
theorem reads_configuration (conv : Conv) (src : Source n) (y : Yaml) (s : Sections n) (h : Configuration src.rows y s) :
    readWith conv src.frame y = .ok s := by
  obtain ⟨xs, rfl, h1, h2, h3⟩ := h
  simp only [List.forall_mem_cons] at h3
  obtain ⟨hm, hf, hd, hp, -⟩ := h3
  obtain ⟨vm, im, rm⟩ := Minerals.reads (rows := src) conv (may_orEmpty hm)
  obtain ⟨vf, if_, rf⟩ := Fluids.reads (rows := src) conv (may_orEmpty hf)
  obtain ⟨vd, id_, rd⟩ := DryRock.reads (rows := src) conv (may_orEmpty hd)
  obtain ⟨vp, ip, rp⟩ := Pressures.reads (rows := src) conv (may_orEmpty hp)
  dsimp only [may, ins] at im if_ id_ ip
  unfold readWith
  dsimp only
  have hk : (failIf (∃ x ∈ xs, x.1 ∉ ["data", "minerals", "fluids", "dry_rock", "pressure"]) .valueError : Except Err Unit) = .ok () := by
    refine failIf_ok_iff.mpr ?_
    rintro ⟨x, hx, hn⟩
    have := h2 x hx
    simp only [List.map_cons, List.map_nil, may] at this
    apply hn
    simp only [List.mem_cons, List.not_mem_nil, or_false] at this ⊢
    exact .inr this
  rw [hk, bind_ok, im, bind_ok, if_, bind_ok, id_, bind_ok, ip, bind_ok]
  unfold parseSections
  rw [rm, bind_ok, rf, bind_ok, rd, bind_ok, rp, bind_ok, toMinerals_map, bind_ok]

/-- **C114.** Whatever a configuration file says (Spec/Document.lean), reading it with the rows of the data file gives
exactly the sections it describes: every number, column, option and omitted key, whatever the order of the keys. -/
theorem C114_says (conv : Conv) (rows : Fin n → DataRow) (y : Yaml) (s : Sections n) (h : Configuration rows y s) :
    reading conv y n rows = .ok s :=
  reads_configuration conv ⟨some (frameOf rows), rows, .inl rfl⟩ y s h

/-- **C114, without a data file.** A configuration without column references is read as what it says, for one row. -/
theorem C114_says_no_data (conv : Conv) (y : Yaml) (s : Sections 1) (h : Configuration (fun _ _ => none) y s) :
    readingNoData conv y = .ok s :=
  reads_configuration conv ⟨none, fun _ _ => none, .inr ⟨rfl, one_pos, fun _ _ => rfl⟩⟩ y s h

end OPE.Doc
