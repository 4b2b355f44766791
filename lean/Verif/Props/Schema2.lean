import Verif.Props.Schema

/-!
# C115: an accepted configuration has only documented keys and names
-/

namespace OPE.Schema

open Parse Doc

variable {n : ℕ}

theorem firstOf_some {α : Type} {ps : List (Val n → Except Err α)} {v : Val n} {r : α} (h : firstOf ps v = .ok r) :
    ∃ p ∈ ps, p v = .ok r := firstOf_mem h

/-! ### Materials -/

theorem solid_of {conv : Conv} {rows : Fin n → DataRow} {y : Yaml} {v : Val n} {m : Mat n} (hy : ins rows y = .ok v)
    (h : parseArbitrary conv v = .ok m) : Solid conv rows y := by
  unfold parseArbitrary at h
  obtain ⟨a, ha, h⟩ := bind_eq_ok.mp h
  obtain ⟨_, ht, h⟩ := bind_eq_ok.mp h
  obtain ⟨x1, h1, h⟩ := bind_eq_ok.mp h
  obtain ⟨x2, h2, h⟩ := bind_eq_ok.mp h
  obtain ⟨x3, h3, h⟩ := bind_eq_ok.mp h
  obtain ⟨x4, h4, h⟩ := bind_eq_ok.mp h
  obtain ⟨x5, h5, h⟩ := bind_eq_ok.mp h
  refine shape hy ha _ rfl fun xs hx => ?_
  simp only [List.forall_mem_cons]
  exact ⟨hx.need h1 fun _ _ => value_of, hx.opt h2 fun _ _ => value?_of,
    hx.opt h3 fun _ _ => value?_of, hx.opt h4 fun _ _ => value?_of, hx.opt h5 fun _ _ => value?_of,
    type_of hx ht _ (by simp), by simp⟩

theorem material_of {conv : Conv} {rows : Fin n → DataRow} {y : Yaml} {v : Val n} {k : FluidKind n} (hy : ins rows y = .ok v)
    (h : parseMaterialType conv v = .ok k) : Material conv rows y ∧ ∀ m, k = .material m → Solid conv rows y := by
  obtain ⟨p, hp, h⟩ := firstOf_some h
  simp only [materialAlternatives, List.mem_cons, List.not_mem_nil, or_false] at hp
  rcases hp with rfl | rfl | rfl | rfl | rfl | rfl
  · unfold parseMaterial at h
    obtain ⟨m, hm, h⟩ := bind_eq_ok.mp h
    exact ⟨.inl (solid_of hy hm), fun _ _ => solid_of hy hm⟩
  · unfold parseGas at h
    obtain ⟨a, ha, h⟩ := bind_eq_ok.mp h
    obtain ⟨_, ht, h⟩ := bind_eq_ok.mp h
    obtain ⟨x1, h1, h⟩ := bind_eq_ok.mp h
    refine ⟨.inr (.inl (shape hy ha _ rfl fun xs hx => ?_)), fun m e => by rw [e] at h; cases h⟩
    simp only [List.forall_mem_cons]
    exact ⟨hx.need h1 fun _ _ => value_of, type_of hx ht _ (by simp), by simp⟩
  · unfold parseOil at h
    obtain ⟨a, ha, h⟩ := bind_eq_ok.mp h
    obtain ⟨_, ht, h⟩ := bind_eq_ok.mp h
    obtain ⟨x1, h1, h⟩ := bind_eq_ok.mp h
    obtain ⟨x2, h2, h⟩ := bind_eq_ok.mp h
    obtain ⟨x3, h3, h⟩ := bind_eq_ok.mp h
    refine ⟨.inr (.inr (.inl (shape hy ha _ rfl fun xs hx => ?_))), fun m e => by rw [e] at h; cases h⟩
    simp only [List.forall_mem_cons]
    exact ⟨hx.need h1 fun _ _ => value_of, hx.need h2 fun _ _ => value_of, hx.need h3 fun _ _ => value_of,
      type_of hx ht _ (by simp), by simp⟩
  · unfold parseBrine at h
    obtain ⟨a, ha, h⟩ := bind_eq_ok.mp h
    obtain ⟨_, ht, h⟩ := bind_eq_ok.mp h
    obtain ⟨x1, h1, h⟩ := bind_eq_ok.mp h
    refine ⟨.inr (.inr (.inr (.inl (shape hy ha _ rfl fun xs hx => ?_)))), fun m e => by rw [e] at h; cases h⟩
    simp only [List.forall_mem_cons]
    exact ⟨hx.need h1 fun _ _ => value_of, type_of hx ht _ (by simp), by simp⟩
  · unfold parseCondensate at h
    obtain ⟨a, ha, h⟩ := bind_eq_ok.mp h
    obtain ⟨_, ht, h⟩ := bind_eq_ok.mp h
    obtain ⟨x1, h1, h⟩ := bind_eq_ok.mp h
    obtain ⟨x2, h2, h⟩ := bind_eq_ok.mp h
    obtain ⟨x3, h3, h⟩ := bind_eq_ok.mp h
    refine ⟨.inr (.inr (.inr (.inr (.inl (shape hy ha _ rfl fun xs hx => ?_))))), fun m e => by rw [e] at h; cases h⟩
    simp only [List.forall_mem_cons]
    exact ⟨hx.need h1 fun _ _ => value_of, hx.need h2 fun _ _ => value_of, hx.need h3 fun _ _ => value_of,
      type_of hx ht _ (by simp), by simp⟩
  · unfold parseCO2 at h
    obtain ⟨a, ha, h⟩ := bind_eq_ok.mp h
    obtain ⟨_, ht, h⟩ := bind_eq_ok.mp h
    obtain ⟨x1, h1, h⟩ := bind_eq_ok.mp h
    refine ⟨.inr (.inr (.inr (.inr (.inr (shape hy ha _ rfl fun xs hx => ?_))))), fun m e => by rw [e] at h; cases h⟩
    simp only [List.forall_mem_cons]
    exact ⟨type_of hx ht _ (by simp), hx.any _, by simp⟩

theorem constituent_of {conv : Conv} {rows : Fin n → DataRow} {y : Yaml} {v : Val n} {x : FluidSpec n} (hy : ins rows y = .ok v)
    (h : parseConstituent conv v = .ok x) :
    Constituent conv rows (Material conv rows) y ∧ ∀ m, x.kind = .material m → Constituent conv rows (Solid conv rows) y := by
  unfold parseConstituent at h
  obtain ⟨a, ha, h⟩ := bind_eq_ok.mp h
  obtain ⟨x1, h1, h⟩ := bind_eq_ok.mp h
  obtain ⟨x2, h2, h⟩ := bind_eq_ok.mp h
  obtain ⟨x3, h3, h⟩ := bind_eq_ok.mp h
  injection h with h; subst h
  have h3' : ∀ xs, At rows xs a → (opt "fluid_model" fun y => y = null ∨ Name fluidModels y).2 (xs.lookup "fluid_model") :=
    fun xs hx => hx.opt h3 fun z w hz hw => (optional_null hz hw).imp_right fun ⟨p, _, hp⟩ => provider_of hz hp
  refine ⟨shape hy ha _ rfl fun xs hx => ?_, fun m hm => shape hy ha _ rfl fun xs hx => ?_⟩
  · simp only [List.forall_mem_cons]
    exact ⟨hx.need h1 fun _ _ hz hw => (material_of hz hw).1, hx.opt h2 fun _ _ => value?_of, h3' xs hx, by simp⟩
  · simp only [List.forall_mem_cons]
    exact ⟨hx.need h1 fun _ _ hz hw => (material_of hz hw).2 m hm, hx.opt h2 fun _ _ => value?_of, h3' xs hx, by simp⟩

/-! ### Models -/

theorem coefficients_of {conv : Conv} {rows : Fin n → DataRow} {y : Yaml} {v : Val n} {k : CoefIn n} (hy : ins rows y = .ok v)
    (h : parsePolyfitCoef conv v = .ok k) : Coefficients y := by
  obtain ⟨p, hp, h⟩ := firstOf_some h
  simp only [List.mem_cons, List.not_mem_nil, or_false] at hp
  rcases hp with rfl | rfl
  · unfold parseModuliCoef at h
    obtain ⟨a, ha, h⟩ := bind_eq_ok.mp h
    refine .inl (shape hy ha _ rfl fun xs hx => ?_)
    simp only [List.forall_mem_cons]
    exact ⟨hx.any _, hx.any _, hx.any _, by simp⟩
  · unfold parseVelocityCoef at h
    obtain ⟨a, ha, h⟩ := bind_eq_ok.mp h
    refine .inr (shape hy ha _ rfl fun xs hx => ?_)
    simp only [List.forall_mem_cons]
    exact ⟨hx.any _, hx.any _, hx.any _, by simp⟩

theorem patchy_of {conv : Conv} {rows : Fin n → DataRow} {y : Yaml} {v : Val n} {f : PatchyModel n} (hy : ins rows y = .ok v)
    (h : parsePatchy conv v = .ok f) : Patchy conv rows y := by
  unfold parsePatchy at h
  obtain ⟨a, ha, h⟩ := bind_eq_ok.mp h
  obtain ⟨_, ht, h⟩ := bind_eq_ok.mp h
  obtain ⟨x1, h1, h⟩ := bind_eq_ok.mp h
  obtain ⟨x2, h2, h⟩ := bind_eq_ok.mp h
  obtain ⟨x3, h3, h⟩ := bind_eq_ok.mp h
  obtain ⟨x4, h4, h⟩ := bind_eq_ok.mp h
  obtain ⟨x5, h5, h⟩ := bind_eq_ok.mp h
  obtain ⟨x6, h6, h⟩ := bind_eq_ok.mp h
  obtain ⟨x7, h7, h⟩ := bind_eq_ok.mp h
  refine shape hy ha _ rfl fun xs hx => ?_
  simp only [List.forall_mem_cons]
  exact ⟨type_of hx ht _ (by simp), hx.opt h1 fun _ _ => solid_of, hx.opt h2 fun _ _ => value_of, hx.opt h3 fun _ _ => value_of,
    hx.opt h4 fun _ _ => value_of, hx.opt h5 fun _ _ => value_of, hx.opt h6 fun _ _ => value?_of, hx.opt h7 fun _ _ => value_of, by simp⟩

theorem friable_of {conv : Conv} {rows : Fin n → DataRow} {y : Yaml} {v : Val n} {f : FriableModel n} (hy : ins rows y = .ok v)
    (h : parseFriable conv v = .ok f) : Friable conv rows y := by
  unfold parseFriable at h
  obtain ⟨a, ha, h⟩ := bind_eq_ok.mp h
  obtain ⟨_, ht, h⟩ := bind_eq_ok.mp h
  obtain ⟨x1, h1, h⟩ := bind_eq_ok.mp h
  obtain ⟨x2, h2, h⟩ := bind_eq_ok.mp h
  obtain ⟨x3, h3, h⟩ := bind_eq_ok.mp h
  refine shape hy ha _ rfl fun xs hx => ?_
  simp only [List.forall_mem_cons]
  exact ⟨hx.opt h1 fun _ _ => value_of, hx.opt h2 fun _ _ => value_of, hx.opt h3 fun _ _ => value?_of,
    type_of hx ht _ (by simp), by simp⟩

theorem sandstone_of {conv : Conv} {rows : Fin n → DataRow} {y : Yaml} {v : Val n} {m : SandModel n} (hy : ins rows y = .ok v)
    (h : parseSandstone conv v = .ok m) : Sandstone conv rows y := by
  obtain ⟨p, hp, h⟩ := firstOf_some h
  simp only [List.mem_cons, List.not_mem_nil, or_false] at hp
  rcases hp with rfl | rfl | rfl
  · obtain ⟨f, hf, -⟩ := into_ok.mp h
    exact .inl (patchy_of hy hf)
  · obtain ⟨f, hf, -⟩ := into_ok.mp h
    exact .inr (.inl (friable_of hy hf))
  · unfold parsePolyfit2d at h
    obtain ⟨a, ha, h⟩ := bind_eq_ok.mp h
    obtain ⟨_, ht, h⟩ := bind_eq_ok.mp h
    obtain ⟨x1, h1, h⟩ := bind_eq_ok.mp h
    refine .inr (.inr (shape hy ha _ rfl fun xs hx => ?_))
    simp only [List.forall_mem_cons]
    exact ⟨hx.opt h1 fun z w hz hw =>
      (optional_null hz hw).imp_right fun ⟨p, _, hp⟩ => coefficients_of hz hp, type_of hx ht _ (by simp), by simp⟩

theorem dependency_of {conv : Conv} {rows : Fin n → DataRow} {y : Yaml} {v : Val n} {m : PDIn n} (hy : ins rows y = .ok v)
    (h : parsePDModel conv v = .ok m) : Dependency conv rows y := by
  obtain ⟨p, hp, h⟩ := firstOf_some h
  simp only [List.mem_cons, List.not_mem_nil, or_false] at hp
  have fit : ∀ kind : FitKind, kind ≠ .powerfit → parseFit conv kind v = .ok m → Dependency conv rows y := by
    intro kind hk h
    unfold parseFit at h
    obtain ⟨a, ha, h⟩ := bind_eq_ok.mp h
    obtain ⟨_, ht, h⟩ := bind_eq_ok.mp h
    obtain ⟨x1, h1, h⟩ := bind_eq_ok.mp h
    refine .inr (.inr (.inr (shape hy ha _ rfl fun xs hx => ?_)))
    simp only [List.forall_mem_cons]
    refine ⟨hx.need h1 fun z w hz hw => ?_, type_of hx ht _ ?_, by simp⟩
    · cases kind <;> first | exact absurd rfl hk | exact coefficients_of hz hw
    · cases kind <;> first | exact absurd rfl hk | simp [FitKind.tag]
  rcases hp with rfl | rfl | rfl | rfl | rfl | rfl
  · obtain ⟨f, hf, -⟩ := into_ok.mp h
    exact .inl (patchy_of hy hf)
  · obtain ⟨f, hf, -⟩ := into_ok.mp h
    exact .inr (.inl (friable_of hy hf))
  · unfold parseFit at h
    obtain ⟨a, ha, h⟩ := bind_eq_ok.mp h
    obtain ⟨_, ht, h⟩ := bind_eq_ok.mp h
    obtain ⟨x1, h1, h⟩ := bind_eq_ok.mp h
    refine .inr (.inr (.inl (shape hy ha _ rfl fun xs hx => ?_)))
    simp only [List.forall_mem_cons]
    refine ⟨hx.need h1 fun z w hz hw => ?_, type_of hx ht _ (by simp [FitKind.tag]), by simp⟩
    dsimp only at hw
    unfold parseVpOverVsCoef at hw
    obtain ⟨a, ha, h⟩ := bind_eq_ok.mp hw
    refine shape hz ha _ rfl fun xs hx => ?_
    simp only [List.forall_mem_cons]
    exact ⟨hx.any _, hx.any _, hx.any _, by simp⟩
  · exact fit _ (by simp) h
  · exact fit _ (by simp) h
  · exact fit _ (by simp) h

theorem adjusted_of {conv : Conv} {rows : Fin n → DataRow} {y : Yaml} {v : Val n} {m : Adjustment n} (hy : ins rows y = .ok v)
    (h : parseAdjustment conv v = .ok m) : Adjusted conv rows y := by
  obtain ⟨p, hp, h⟩ := firstOf_some h
  simp only [List.mem_cons, List.not_mem_nil, or_false] at hp
  rcases hp with rfl | rfl
  · unfold parseDepthTrend at h
    obtain ⟨a, ha, h⟩ := bind_eq_ok.mp h
    obtain ⟨_, ht, h⟩ := bind_eq_ok.mp h
    obtain ⟨x1, h1, h⟩ := bind_eq_ok.mp h
    obtain ⟨x2, h2, h⟩ := bind_eq_ok.mp h
    obtain ⟨x3, h3, h⟩ := bind_eq_ok.mp h
    obtain ⟨x4, h4, h⟩ := bind_eq_ok.mp h
    refine .inl (shape hy ha _ rfl fun xs hx => ?_)
    simp only [List.forall_mem_cons]
    exact ⟨hx.need h1 fun _ _ => value_of, hx.need h2 fun _ _ => coefficients_of, type_of hx ht _ (by simp),
      hx.opt h3 fun _ _ => value?_of, hx.opt h4 fun _ _ => value?_of, by simp⟩
  · unfold parsePressureDependency at h
    obtain ⟨a, ha, h⟩ := bind_eq_ok.mp h
    obtain ⟨_, ht, h⟩ := bind_eq_ok.mp h
    obtain ⟨x1, h1, h⟩ := bind_eq_ok.mp h
    refine .inr (shape hy ha _ rfl fun xs hx => ?_)
    simp only [List.forall_mem_cons]
    exact ⟨hx.need h1 fun _ _ => dependency_of, type_of hx ht _ (by simp), by simp⟩

/-! ### The file -/

theorem toMinerals_material {xs : List (FluidSpec n)} {ms : List (MineralIn n)} (h : toMinerals xs = .ok ms) :
    ∀ x ∈ xs, ∃ m, x.kind = .material m := by
  induction xs generalizing ms with
  | nil => intro x hx; cases hx
  | cons x xs ih =>
    unfold toMinerals at h
    obtain ⟨m, hm, h⟩ := bind_eq_ok.mp h
    obtain ⟨ms', hms, h⟩ := bind_eq_ok.mp h
    intro x' hx'
    rcases List.mem_cons.mp hx' with rfl | hx'
    · unfold toMineral at hm
      split at hm
      · rename_i k hk; exact ⟨k, hk⟩
      · cases hm
    · exact ih hms x' hx'

theorem opt_section {xs : List (String × Yaml)} {key : String} {R : Yaml → Prop} (h : R ((xs.lookup key).getD (.dict []))) :
    (opt key R).2 (xs.lookup key) := by
  cases hx : xs.lookup key with
  | none => exact .inl ⟨rfl, trivial⟩
  | some z => rw [hx] at h; exact .inr ⟨z, rfl, h⟩

/-- **C115.** An accepted configuration file has, at every level, only documented keys, all required keys, only the
documented names of types, models and methods, and only numbers or numeric columns as parameters. -/
theorem C115_schema (conv : Conv) (rows : Fin n → DataRow) (y : Yaml) (s : Sections n) (h : reading conv y n rows = .ok s) :
    Configuration conv rows y := by
  unfold reading readWith at h
  cases y with
  | dict xs =>
    dsimp only at h
    obtain ⟨hk, h⟩ := failIf_bind_ok.mp h
    obtain ⟨vm, im, h⟩ := bind_eq_ok.mp h
    obtain ⟨vf, if_, h⟩ := bind_eq_ok.mp h
    obtain ⟨vd, id_, h⟩ := bind_eq_ok.mp h
    obtain ⟨vp, ip, h⟩ := bind_eq_ok.mp h
    unfold parseSections at h
    obtain ⟨m, hm, h⟩ := bind_eq_ok.mp h
    obtain ⟨f, hf, h⟩ := bind_eq_ok.mp h
    obtain ⟨d, hd, h⟩ := bind_eq_ok.mp h
    obtain ⟨p, hp, h⟩ := bind_eq_ok.mp h
    obtain ⟨ms, hms, h⟩ := bind_eq_ok.mp h
    have im : ins rows ((xs.lookup "minerals").getD (.dict [])) = .ok vm := im
    have if_ : ins rows ((xs.lookup "fluids").getD (.dict [])) = .ok vf := if_
    have id_ : ins rows ((xs.lookup "dry_rock").getD (.dict [])) = .ok vd := id_
    have ip : ins rows ((xs.lookup "pressure").getD (.dict [])) = .ok vp := ip
    refine ⟨xs, rfl, fun x hx => ?_, ?_⟩
    · by_contra hn
      exact hk ⟨x, hx, hn⟩
    simp only [List.forall_mem_cons]
    refine ⟨?_, opt_section ?_, opt_section ?_, opt_section ?_, opt_section ?_, by simp⟩
    · cases hx : xs.lookup "data" with
      | none => exact .inl ⟨hx, trivial⟩
      | some z => exact .inr ⟨z, hx, trivial⟩
    · unfold parseMinerals at hm
      obtain ⟨a, ha, hm⟩ := bind_eq_ok.mp hm
      refine shape im ha _ rfl fun xs hx => ?_
      simp only [List.forall_mem_cons]
      exact ⟨hx.opt hm fun z w hz hw => listOf_of hz hw fun z w c hc hz hw => by
        obtain ⟨m, hm⟩ := toMinerals_material hms c hc
        exact (constituent_of hz hw).2 m hm, by simp⟩
    · unfold parseFluids at hf
      obtain ⟨a, ha, h⟩ := bind_eq_ok.mp hf
      obtain ⟨x1, h1, h⟩ := bind_eq_ok.mp h
      obtain ⟨x2, h2, h⟩ := bind_eq_ok.mp h
      obtain ⟨x3, h3, h⟩ := bind_eq_ok.mp h
      obtain ⟨x4, h4, h⟩ := bind_eq_ok.mp h
      obtain ⟨x5, h5, h⟩ := bind_eq_ok.mp h
      obtain ⟨x6, h6, h⟩ := bind_eq_ok.mp h
      refine shape if_ ha _ rfl fun xs hx => ?_
      simp only [List.forall_mem_cons]
      exact ⟨hx.opt h1 fun _ _ => value_of, hx.opt h2 fun z w hz hw => listOf_of hz hw fun z w c hc hz hw => (constituent_of hz hw).1,
        hx.opt h3 fun _ _ => method_of, hx.any _, hx.any _, hx.opt h6 fun _ _ => provider_of, by simp⟩
    · unfold parseDryRock at hd
      obtain ⟨a, ha, h⟩ := bind_eq_ok.mp hd
      obtain ⟨x1, h1, h⟩ := bind_eq_ok.mp h
      obtain ⟨x2, h2, h⟩ := bind_eq_ok.mp h
      obtain ⟨x3, h3, h⟩ := bind_eq_ok.mp h
      refine shape id_ ha _ rfl fun xs hx => ?_
      simp only [List.forall_mem_cons]
      exact ⟨hx.opt h1 fun _ _ => sandstone_of, hx.opt h2 fun _ _ => value_of,
        hx.opt h3 fun z w hz hw => listOf_of hz hw fun z w c hc hz hw => adjusted_of hz hw, by simp⟩
    · unfold parsePressure at hp
      obtain ⟨a, ha, h⟩ := bind_eq_ok.mp hp
      obtain ⟨x1, h1, h⟩ := bind_eq_ok.mp h
      obtain ⟨x2, h2, h⟩ := bind_eq_ok.mp h
      obtain ⟨x3, h3, h⟩ := bind_eq_ok.mp h
      obtain ⟨x4, h4, h⟩ := bind_eq_ok.mp h
      obtain ⟨x5, h5, h⟩ := bind_eq_ok.mp h
      refine shape ip ha _ rfl fun xs hx => ?_
      simp only [List.forall_mem_cons]
      exact ⟨hx.opt h1 fun _ _ => value_of, hx.opt h2 fun _ _ => value_of, hx.opt h3 fun _ _ => value?_of,
        hx.opt h4 fun _ _ => value?_of, hx.opt h5 fun _ _ => value?_of, by simp⟩
  | _ => cases h

/-- A misspelt fluid model is rejected, whatever the data. -/
example (conv : Conv) (rows : Fin n → DataRow) (s : Sections n) :
    reading conv (.dict [("fluids", .dict [("fluid_model", .str "batzle_wnag")])]) n rows ≠ .ok s := by
  intro h
  obtain ⟨xs, hxs, -, hf⟩ := C115_schema conv rows _ s h
  injection hxs with hxs; subst hxs
  simp only [List.forall_mem_cons] at hf
  rcases may_some.mp hf.2.2.1 with ⟨xs, hxs, -, hf⟩ | ⟨vs, hvs, -⟩
  swap
  · cases hvs
  injection hxs with hxs; subst hxs
  simp only [List.forall_mem_cons] at hf
  obtain ⟨name, hn, e⟩ := may_some.mp hf.2.2.2.2.2.1
  injection e with e; subst e
  revert hn; decide

end OPE.Schema
