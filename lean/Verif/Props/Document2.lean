import Verif.Props.Document
import Verif.Props.MainRaw

/-!
# C114: materials, constituents and coefficients of a configuration
-/

namespace OPE.Doc

open Parse

variable {n : ℕ}

/-- A mapping, with columns inserted, and what its arguments hold. -/
theorem Mapping.holds {rows : Source n} {F : List Field} {y : Yaml} (h : Mapping F y) (fields : List String)
    (hF : ∀ f ∈ F, f.1 ∈ fields) (hc : "column" ∉ fields)
    (hi : ∀ f ∈ F, ∀ z, f.2 (some z) → ∃ v, ins rows z = .ok v) :
    ∃ v a, ins rows y = .ok v ∧ Parse.args fields v = .ok a ∧ (NotList v ∧ ∀ key, key ∉ F.map Prod.fst → a key = none) ∧
      ∀ f ∈ F, Holds rows a f := by
  obtain ⟨v, a, h1, h2, h0, h3, h4⟩ := h.args fields hF hc hi
  exact ⟨v, a, h1, h2, ⟨h0, h3⟩, h4⟩

theorem given_of_args {v : Val n} (hv : NotList v) {fields : List String} {a : Args n}
    (ha : Parse.args fields v = .ok a) {key : String} {x : Val n} (h : a key = some x) : Given v key x := by
  have := (args_given ha).mp h
  rwa [named_of_not_list hv] at this

theorem firstOf_this {α : Type} {p : Val n → Except Err α} {ps : List (Val n → Except Err α)} {v : Val n} {x : α}
    (h : p v = .ok x) : firstOf (p :: ps) v = .ok x := by
  simp [firstOf, h]

theorem firstOf_next {α : Type} {p : Val n → Except Err α} {ps : List (Val n → Except Err α)} {v : Val n} {x : α}
    (h : ∃ e, p v = .error e) (hx : firstOf ps v = .ok x) : firstOf (p :: ps) v = .ok x := by
  obtain ⟨e, h⟩ := h
  simp [firstOf, h, hx]

/-- A section of another type is not accepted. -/
theorem other_type {α : Type} {v : Val n} {tag t : String} (hv : Given v "type" (.str t)) (ht : t ≠ tag)
    (fields : List String) (k : Args n → Except Err α) :
    ∃ e, ((args fields v) >>= fun a => (tagged a tag) >>= fun _ => k a) = .error e := by
  cases ha : args fields v with
  | error e => exact ⟨e, rfl⟩
  | ok a =>
    have : tagged a tag = .error .valueError := by
      unfold tagged defaulted
      rw [(args_given ha).mpr (by rw [hv.named]; exact hv)]
      simp [literal, ht]
    refine ⟨.valueError, ?_⟩
    rw [bind_ok, this, bind_error]

/-- A section with a key that is no field is not accepted. -/
theorem other_key {α : Type} {v : Val n} {key : String} (hv : ∃ x, Given v key x) {fields : List String} (hk : key ∉ fields)
    (k : Args n → Except Err α) : ∃ e, ((args fields v) >>= k) = .error e := by
  cases ha : args fields v with
  | error e => exact ⟨e, rfl⟩
  | ok a =>
    obtain ⟨x, hx⟩ := hv
    exact absurd ((args_only ha).mem ⟨x, by rw [hx.named]; exact hx⟩) hk

theorem Parameter.ins {rows : Source n} {y : Yaml} {x : Col n} (h : Parameter rows y x) : ∃ v, ins rows y = .ok v :=
  reads_ins (h.reads ⟨fun _ => none, fun _ => none⟩).1

theorem maybe_parameter_ins {rows : Source n} {y : Yaml} {x : Option (Col n)} (h : Maybe (Parameter rows) y x) :
    ∃ v, Doc.ins rows y = .ok v :=
  reads_ins (h.parameter ⟨fun _ => none, fun _ => none⟩)

theorem str_ins {rows : Source n} (s : String) {y : Yaml} (h : y = .str s) : ∃ v, ins rows y = .ok v := by
  subst h; exact ⟨_, ins_str rows s⟩

theorem Holds.param {rows : Source n} {a : Args n} {key : String} {x : Col n} (conv : Conv)
    (h : Holds rows a (Doc.need key (Parameter rows · x))) : required a key (toCol conv) = .ok x :=
  h.need fun _ hy => (hy.reads conv).1

theorem Holds.mayParam {rows : Source n} {a : Args n} {key : String} {d : Prop} {x x0 : Col n} (conv : Conv)
    (h : Holds rows a (Doc.may key d (Parameter rows · x))) (hd : d → x = x0) :
    defaulted a key (toCol conv) x0 = .ok x :=
  h.may hd fun _ hy => (hy.reads conv).1

theorem Holds.maybeParam {rows : Source n} {a : Args n} {key : String} {d : Prop} {x x0 : Option (Col n)}
    (conv : Conv) (h : Holds rows a (Doc.may key d (Maybe (Parameter rows) · x))) (hd : d → x = x0) :
    defaulted a key (Parse.optional (toCol conv)) x0 = .ok x :=
  h.may hd fun _ hy => hy.parameter conv

theorem Holds.param_opt {rows : Source n} {a : Args n} {key : String} {x : Col n} (conv : Conv)
    (h : Holds rows a (Doc.need key (Parameter rows · x))) :
    defaulted a key (Parse.optional (toCol conv)) none = .ok (some x) := by
  have : Holds rows a (Doc.may key False (Maybe (Parameter rows) · (some x))) := by
    rcases h with ⟨⟨z, hz, -⟩, -⟩ | ⟨z, v, ⟨y, hy, hR⟩, hv, ha⟩
    · cases hz
    · exact .inr ⟨z, v, .inr ⟨y, hy, .inr ⟨x, hR, rfl⟩⟩, hv, ha⟩
  exact this.maybeParam conv False.elim

theorem Holds.mayType {rows : Source n} {a : Args n} {tag : String}
    (h : Holds rows a (Doc.may "type" True (· = .str tag))) : tagged a tag = .ok () :=
  h.may (fun _ => rfl) fun _ hy => literal_reads hy

/-! ### Materials -/

theorem setDefaults_moduli {K G ρ : Fin n → ℝ} (hK : ∀ i, 0 ≤ K i) (hG : ∀ i, 0 ≤ G i) (hρ : ∀ i, 0 < ρ i) :
    setDefaults (some (finC K)) (some (finC G)) (some (finC ρ)) none none =
      .ok (finC K, finC G, some (finC ρ), (Mat.ofReal K G ρ).vs, (Mat.ofReal K G ρ).vp) := by
  have hvp : calcVp (finC K) (finC G) (finC ρ) = (Mat.ofReal K G ρ).vp := by
    funext i
    have h1 : 0 ≤ (K i + 4/3 * G i) / ρ i :=
      div_nonneg (add_nonneg (hK i) (mul_nonneg (by norm_num) (hG i))) (hρ i).le
    simp [calcVp, (hρ i).ne', h1, Mat.ofReal]
  have hvs : calcVs (finC G) (finC ρ) = (Mat.ofReal K G ρ).vs := by
    funext i
    have h1 : 0 ≤ G i / ρ i := div_nonneg (hG i) (hρ i).le
    simp [calcVs, (hρ i).ne', h1, Mat.ofReal]
  simp only [setDefaults, bind_ok, hvp, hvs]

theorem setDefaults_velocities (vp vs ρ : Fin n → ℝ) :
    setDefaults none none (some (finC ρ)) (some (finC vs)) (some (finC vp)) =
      .ok (finC fun i => vp i ^ 2 * ρ i - 4 / 3 * (vs i ^ 2 * ρ i), finC fun i => vs i ^ 2 * ρ i, some (finC ρ), finC vs,
        finC vp) := by
  have hs : calcShear (finC vs) (finC ρ) = finC fun i => vs i ^ 2 * ρ i := by
    funext i; simp [calcShear]
  have hb : calcBulk (finC vp) (finC fun i => vs i ^ 2 * ρ i) (finC ρ) =
      finC fun i => vp i ^ 2 * ρ i - 4 / 3 * (vs i ^ 2 * ρ i) := by
    funext i; simp [calcBulk]
  simp only [setDefaults, bind_ok, hs, hb]

theorem Material.arbitrary {rows : Source n} {y : Yaml} {m : Mat n} (conv : Conv)
    (h : Material rows y (.material m)) : Reads rows (parseArbitrary conv) y m := by
  cases h with
  | moduli K G ρ hK hG hρ h =>
    obtain ⟨v, a, hv, ha, hn, hf⟩ := h.holds (rows := rows) ["density", "bulk_modulus", "shear_modulus", "secondary_velocity",
      "primary_velocity", "type"] (by simp [may, need]) (by decide) (by
        simp only [List.mem_cons, List.not_mem_nil, or_false]
        rintro f (rfl | rfl | rfl | rfl) z hz
        · exact str_ins "material" (by have := may_some.mp hz; exact this)
        all_goals exact (need_some.mp hz).ins)
    simp only [List.forall_mem_cons] at hf
    obtain ⟨h1, h2, h3, h4, -⟩ := hf
    refine ⟨v, hv, ?_⟩
    unfold parseArbitrary
    rw [ha, bind_ok, h1.mayType, bind_ok,
      h4.param conv, bind_ok,
      h2.param_opt conv, bind_ok,
      h3.param_opt conv, bind_ok,
      absent_default (hn.2 "secondary_velocity" (by simp [may, need])), bind_ok,
      absent_default (hn.2 "primary_velocity" (by simp [may, need])), bind_ok, setDefaults_moduli hK hG hρ, bind_ok]
    rfl
  | velocities vp vs ρ h =>
    obtain ⟨v, a, hv, ha, hn, hf⟩ := h.holds (rows := rows) ["density", "bulk_modulus", "shear_modulus", "secondary_velocity",
      "primary_velocity", "type"] (by simp [may, need]) (by decide) (by
        simp only [List.mem_cons, List.not_mem_nil, or_false]
        rintro f (rfl | rfl | rfl | rfl) z hz
        · exact str_ins "material" (by have := may_some.mp hz; exact this)
        all_goals exact (need_some.mp hz).ins)
    simp only [List.forall_mem_cons] at hf
    obtain ⟨h1, h2, h3, h4, -⟩ := hf
    refine ⟨v, hv, ?_⟩
    unfold parseArbitrary
    rw [ha, bind_ok, h1.mayType, bind_ok,
      h4.param conv, bind_ok,
      absent_default (hn.2 "bulk_modulus" (by simp [may, need])), bind_ok,
      absent_default (hn.2 "shear_modulus" (by simp [may, need])), bind_ok,
      h3.param_opt conv, bind_ok,
      h2.param_opt conv, bind_ok, setDefaults_velocities, bind_ok]

/-- Fields given by type and parameters. -/
theorem Mapping.typed {rows : Source n} {tag : String} {ps : List (String × Col n)} {y : Yaml}
    (h : Mapping (need "type" (· = .str tag) :: ps.map fun p => need p.1 (Parameter rows · p.2)) y) (fields : List String)
    (hF : "type" ∈ fields ∧ ∀ p ∈ ps, p.1 ∈ fields) (hc : "column" ∉ fields) (conv : Conv) :
    ∃ v a, ins rows y = .ok v ∧ Parse.args fields v = .ok a ∧ Given v "type" (.str tag) ∧ tagged a tag = .ok () ∧
      ∀ p ∈ ps, required a p.1 (toCol conv) = .ok p.2 := by
  obtain ⟨v, a, hv, ha, hn, hf⟩ := h.holds (rows := rows) fields (by
    intro f hf
    rcases List.mem_cons.mp hf with rfl | hf
    · exact hF.1
    · obtain ⟨p, hp, rfl⟩ := List.mem_map.mp hf
      exact hF.2 p hp) hc (by
    intro f hf z hz
    rcases List.mem_cons.mp hf with rfl | hf
    · exact str_ins tag (by have := need_some.mp hz; exact this)
    · obtain ⟨p, hp, rfl⟩ := List.mem_map.mp hf
      exact (need_some.mp hz).ins)
  have ht := Holds.type (hf (need "type" (· = .str tag)) List.mem_cons_self)
  exact ⟨v, a, hv, ha, given_of_args hn.1 ha ht.2, ht.1, fun p hp =>
    (hf (need p.1 (Parameter rows · p.2)) (List.mem_cons_of_mem _ (List.mem_map.mpr ⟨p, hp, rfl⟩))).param conv⟩

theorem Material.reads {rows : Source n} {y : Yaml} {k : FluidKind n} (conv : Conv) (h : Material rows y k) :
    Reads rows (parseMaterialType conv) y k := by
  cases h with
  | moduli K G ρ hK hG hρ h =>
    obtain ⟨v, hv, hp⟩ := Material.arbitrary conv (.moduli y K G ρ hK hG hρ h)
    exact ⟨v, hv, firstOf_this (by unfold parseMaterial; rw [hp, bind_ok])⟩
  | velocities vp vs ρ h =>
    obtain ⟨v, hv, hp⟩ := Material.arbitrary conv (.velocities y vp vs ρ h)
    exact ⟨v, hv, firstOf_this (by unfold parseMaterial; rw [hp, bind_ok])⟩
  | gas g h =>
    obtain ⟨v, a, hv, ha, ht, hta, hr⟩ := Mapping.typed (ps := [("gas_gravity", g)]) h ["gas_gravity", "type"] (by simp) (by decide) conv
    refine ⟨v, hv, firstOf_next ?_ (firstOf_this ?_)⟩
    · obtain ⟨e, he⟩ := other_type ht (by decide : "gas" ≠ "material") _ _
      exact ⟨e, by unfold parseMaterial parseArbitrary; rw [he, bind_error]⟩
    · unfold parseGas
      rw [ha, bind_ok, hta, bind_ok, hr ("gas_gravity", g) (by simp), bind_ok]
  | oil r o g h =>
    obtain ⟨v, a, hv, ha, ht, hta, hr⟩ := Mapping.typed (ps := [("reference_density", r), ("gas_oil_ratio", o), ("gas_gravity", g)]) h
      ["reference_density", "gas_oil_ratio", "gas_gravity", "type"] (by simp) (by decide) conv
    refine ⟨v, hv, firstOf_next ?_ (firstOf_next ?_ (firstOf_this ?_))⟩
    · obtain ⟨e, he⟩ := other_type ht (by decide : "oil" ≠ "material") _ _
      exact ⟨e, by unfold parseMaterial parseArbitrary; rw [he, bind_error]⟩
    · exact other_type ht (by decide : "oil" ≠ "gas") _ _
    · unfold parseOil
      rw [ha, bind_ok, hta, bind_ok, hr ("reference_density", r) (by simp), bind_ok, hr ("gas_oil_ratio", o) (by simp), bind_ok,
        hr ("gas_gravity", g) (by simp), bind_ok]
  | brine s h =>
    obtain ⟨v, a, hv, ha, ht, hta, hr⟩ := Mapping.typed (ps := [("salinity", s)]) h ["salinity", "type"] (by simp) (by decide) conv
    refine ⟨v, hv, firstOf_next ?_ (firstOf_next ?_ (firstOf_next ?_ (firstOf_this ?_)))⟩
    · obtain ⟨e, he⟩ := other_type ht (by decide : "brine" ≠ "material") _ _
      exact ⟨e, by unfold parseMaterial parseArbitrary; rw [he, bind_error]⟩
    · exact other_type ht (by decide : "brine" ≠ "gas") _ _
    · exact other_type ht (by decide : "brine" ≠ "oil") _ _
    · unfold parseBrine
      rw [ha, bind_ok, hta, bind_ok, hr ("salinity", s) (by simp), bind_ok]
  | condensate r o g h =>
    obtain ⟨v, a, hv, ha, ht, hta, hr⟩ := Mapping.typed (ps := [("oil_reference_density", r), ("gas_oil_ratio", o), ("gas_gravity", g)]) h
      ["oil_reference_density", "gas_oil_ratio", "gas_gravity", "type"] (by simp) (by decide) conv
    refine ⟨v, hv, firstOf_next ?_ (firstOf_next ?_ (firstOf_next ?_ (firstOf_next ?_ (firstOf_this ?_))))⟩
    · obtain ⟨e, he⟩ := other_type ht (by decide : "condensate" ≠ "material") _ _
      exact ⟨e, by unfold parseMaterial parseArbitrary; rw [he, bind_error]⟩
    · exact other_type ht (by decide : "condensate" ≠ "gas") _ _
    · exact other_type ht (by decide : "condensate" ≠ "oil") _ _
    · exact other_type ht (by decide : "condensate" ≠ "brine") _ _
    · unfold parseCondensate
      rw [ha, bind_ok, hta, bind_ok, hr ("oil_reference_density", r) (by simp), bind_ok, hr ("gas_oil_ratio", o) (by simp), bind_ok,
        hr ("gas_gravity", g) (by simp), bind_ok]
  | carbonDioxide b h =>
    obtain ⟨v, a, hv, ha, hn, hf⟩ := h.holds (rows := rows) ["type", "interpolate_density"] (by simp [may, need]) (by decide) (by
        simp only [List.mem_cons, List.not_mem_nil, or_false]
        rintro f (rfl | rfl) z hz
        · exact str_ins "carbon_dioxide" (by have := need_some.mp hz; exact this)
        · have := may_some.mp hz
          subst this
          exact ⟨_, ins_bool rows b⟩)
    simp only [List.forall_mem_cons] at hf
    obtain ⟨h1, h2, -⟩ := hf
    have ht := Holds.type h1
    have hg := given_of_args hn.1 ha ht.2
    refine ⟨v, hv, firstOf_next ?_ (firstOf_next ?_ (firstOf_next ?_ (firstOf_next ?_ (firstOf_next ?_ (firstOf_this ?_)))))⟩
    · obtain ⟨e, he⟩ := other_type hg (by decide : "carbon_dioxide" ≠ "material") _ _
      exact ⟨e, by unfold parseMaterial parseArbitrary; rw [he, bind_error]⟩
    · exact other_type hg (by decide : "carbon_dioxide" ≠ "gas") _ _
    · exact other_type hg (by decide : "carbon_dioxide" ≠ "oil") _ _
    · exact other_type hg (by decide : "carbon_dioxide" ≠ "brine") _ _
    · exact other_type hg (by decide : "carbon_dioxide" ≠ "condensate") _ _
    · unfold parseCO2
      rw [ha, bind_ok, ht.1, bind_ok, Holds.may h2 (fun h => h)
        (p := toBool) (fun y hy => ⟨.scalar (.bool b), by rw [hy]; exact ins_bool rows b, rfl⟩), bind_ok]

/-! ### Constituents -/

theorem Constituent.reads {rows : Source n} {y : Yaml} {x : FluidSpec n} (conv : Conv) (h : Constituent rows y x) :
    Reads rows (parseConstituent conv) y x := by
  obtain ⟨v, a, hv, ha, hn, hf⟩ := Mapping.holds (rows := rows) h ["material", "fraction", "fluid_model"] (by simp [may, need]) (by decide) (by
    simp only [List.mem_cons, List.not_mem_nil, or_false]
    rintro f (rfl | rfl | rfl) z hz
    · exact reads_ins ((need_some.mp hz).reads conv)
    · exact maybe_parameter_ins (may_some.mp hz)
    · exact reads_ins ((may_some.mp hz).reads fun y p hp => hp.reads))
  simp only [List.forall_mem_cons] at hf
  obtain ⟨h1, h2, h3, -⟩ := hf
  refine ⟨v, hv, ?_⟩
  unfold parseConstituent
  rw [ha, bind_ok, Holds.need h1 (fun y hy => Material.reads conv hy), bind_ok,
    Holds.maybeParam conv h2 (fun h => h), bind_ok,
    Holds.may h3 (fun h => h) (fun y hy => Maybe.reads (fun _ _ hp => Model.reads hp) hy), bind_ok]

end OPE.Doc
