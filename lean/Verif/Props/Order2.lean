import Verif.Props.Order

/-!
# The order of keys does not matter (C116): the parsers
-/

namespace OPE.Parse

open Classical OPE.Order

variable {n : ℕ} {α β : Type}

/-- A parser that does not look at the order of keys. -/
def Inv (p : Val n → Except Err α) : Prop := ∀ v v', SameDoc v v' → p v = p v'

/-- Keyword arguments that are the same up to the order of keys inside. -/
def SameArgs (a a' : Args n) : Prop := ∀ k, SameOpt (a k) (a' k)

theorem required_same {a a' : Args n} (h : SameArgs a a') {p : Val n → Except Err α} (hp : Inv p)
    (key : String) : required a key p = required a' key p := by
  unfold required
  have := h key
  revert this
  rcases a key with _ | x <;> rcases a' key with _ | y <;> intro this
  · rfl
  · exact this.elim
  · exact this.elim
  · exact hp x y this

theorem defaulted_same {a a' : Args n} (h : SameArgs a a') {p : Val n → Except Err α} (hp : Inv p)
    (key : String) (d : α) : defaulted a key p d = defaulted a' key p d := by
  unfold defaulted
  have := h key
  revert this
  rcases a key with _ | x <;> rcases a' key with _ | y <;> intro this
  · rfl
  · exact this.elim
  · exact this.elim
  · exact hp x y this

theorem inv_literal (tag : String) : Inv (literal (n := n) tag) := by
  intro v v' h; cases h <;> rfl

theorem tagged_same {a a' : Args n} (h : SameArgs a a') (tag : String) : tagged a tag = tagged a' tag :=
  defaulted_same h (inv_literal tag) _ _

theorem zip_lookup_same (fields : List String) : ∀ (vs ws : List (Val n)) (_ : vs.length = ws.length)
    (_ : ∀ (i : ℕ) x y, vs[i]? = some x → ws[i]? = some y → SameDoc x y) (k : String),
    SameOpt ((fields.zip vs).lookup k) ((fields.zip ws).lookup k) := by
  induction fields with
  | nil => intro vs ws _ _ k; simp [List.lookup, SameOpt]
  | cons f fields ih =>
    intro vs ws hl h k
    match vs, ws with
    | [], [] => simp [List.lookup, SameOpt]
    | [], _ :: _ => simp at hl
    | _ :: _, [] => simp at hl
    | v :: vs, w :: ws =>
      rw [List.zip_cons_cons, List.zip_cons_cons, List.lookup_cons, List.lookup_cons]
      cases hb : k == f with
      | true => exact h 0 v w rfl rfl
      | false => exact ih vs ws (by simpa using hl) (fun i x y hx hy => h (i + 1) x y (by simpa using hx) (by simpa using hy)) k

theorem args_same (fields : List String) {v v' : Val n} (h : SameDoc v v') :
    (∃ e, args fields v = .error e ∧ args fields v' = .error e) ∨
    ∃ a a', args fields v = .ok a ∧ args fields v' = .ok a' ∧ SameArgs a a' := by
  cases h with
  | scalar | str | arr => exact .inl ⟨_, rfl, rfl⟩
  | list xs ys hl h =>
    have all : ∀ zs : List (Val n), (fields.zip zs).all (fun x => decide (x.1 ∈ fields)) = true := by
      intro zs
      rw [List.all_eq_true]
      rintro ⟨k, x⟩ hm
      exact decide_eq_true (List.of_mem_zip hm).1
    by_cases hc : ys.length ≤ fields.length
    · refine .inr ⟨fun k => (fields.zip xs).lookup k, fun k => (fields.zip ys).lookup k, ?_, ?_,
        fun k => zip_lookup_same fields xs ys hl h k⟩
      · unfold args named; dsimp only; rw [if_pos (hl ▸ hc)]; dsimp only; rw [if_pos (all xs)]
      · unfold args named; dsimp only; rw [if_pos hc]; dsimp only; rw [if_pos (all ys)]
    · refine .inl ⟨.valueError, ?_, ?_⟩
      · unfold args named; dsimp only; rw [if_neg (hl ▸ hc)]
      · unfold args named; dsimp only; rw [if_neg hc]
  | dict xs ys hx hy hk h =>
    have e : xs.all (fun x => decide (x.1 ∈ fields)) = ys.all (fun x => decide (x.1 ∈ fields)) := by
      rw [Bool.eq_iff_iff, List.all_eq_true, List.all_eq_true]
      constructor
      · rintro hh ⟨k, y⟩ hm
        obtain ⟨x, hxm⟩ := mem_keys_iff.mp ((hk k).mpr (mem_keys_iff.mpr ⟨y, hm⟩))
        exact hh (k, x) hxm
      · rintro hh ⟨k, x⟩ hm
        obtain ⟨y, hym⟩ := mem_keys_iff.mp ((hk k).mp (mem_keys_iff.mpr ⟨x, hm⟩))
        exact hh (k, y) hym
    unfold args
    simp only [named]
    rw [e]
    by_cases hc : ys.all (fun x => decide (x.1 ∈ fields))
    · rw [if_pos hc, if_pos hc]
      exact .inr ⟨_, _, rfl, rfl, fun k => lookup_same hk h k⟩
    · rw [if_neg hc, if_neg hc]; exact .inl ⟨_, rfl, rfl⟩

/-- A dataclass: what is built from the keyword arguments does not depend on the order of keys. -/
theorem inv_dataclass (fields : List String) (g : Args n → Except Err α)
    (hg : ∀ a a', SameArgs a a' → g a = g a') : Inv fun v => (args fields v) >>= g := by
  intro v v' h
  rcases args_same fields h with ⟨e, h1, h2⟩ | ⟨a, a', h1, h2, h3⟩
  · dsimp only; rw [h1, h2, bind_error]
  · dsimp only; rw [h1, h2, bind_ok, bind_ok, hg a a' h3]

theorem inv_firstOf {ps : List (Val n → Except Err α)} (h : ∀ p ∈ ps, Inv p) : Inv (firstOf ps) := by
  intro v v' hv
  induction ps with
  | nil => rfl
  | cons p ps ih =>
    simp only [firstOf]
    rw [h p List.mem_cons_self v v' hv, ih fun q hq => h q (List.mem_cons_of_mem _ hq)]

theorem inv_into {f : α → β} {p : Val n → Except Err α} (h : Inv p) : Inv (into f p) := by
  intro v v' hv; unfold into; rw [h v v' hv]

theorem inv_optional {p : Val n → Except Err α} (h : Inv p) : Inv (optional p) := by
  intro v v' hv
  have e := h v v' hv
  cases hv with
  | scalar | str | arr => rfl
  | list | dict => unfold optional; dsimp only; rw [e]

theorem inv_listOf {p : Val n → Except Err α} (h : Inv p) : Inv (listOf p) := by
  intro v v' hv
  cases hv with
  | scalar | str | arr => rfl
  | dict => rfl
  | list xs ys hlen hs =>
    unfold listOf
    dsimp only
    induction xs generalizing ys with
    | nil =>
      cases ys with
      | nil => rfl
      | cons => cases hlen
    | cons x xs ih =>
      cases ys with
      | nil => cases hlen
      | cons y ys =>
        simp only [eachOf]
        rw [h x y (hs 0 x y rfl rfl), ih ys (by simpa using hlen) fun i x y hx hy =>
          hs (i + 1) x y (by simpa using hx) (by simpa using hy)]

/-! ### Single values -/

theorem entry_same (conv : Conv) {v v' : Val n} (h : SameDoc v v') : Entry.toNum conv v = Entry.toNum conv v' := by
  cases h <;> rfl

theorem inv_toCol (conv : Conv) : Inv (toCol (n := n) conv) := by
  intro v v' h
  cases h with
  | scalar | str | arr => rfl
  | dict => rfl
  | list xs ys hlen hs =>
    unfold toCol
    dsimp only
    by_cases hx : xs.length = n
    · rw [dif_pos hx, dif_pos (hlen ▸ hx)]
      congr 1
      funext i
      rw [entry_same conv (hs i.val _ _ (List.getElem?_eq_getElem (by omega)) (List.getElem?_eq_getElem (by omega)))]
    · rw [dif_neg hx, dif_neg (hlen ▸ hx)]

theorem inv_toFloat (conv : Conv) : Inv (toFloat (n := n) conv) := by
  intro v v' h; cases h <;> rfl

theorem inv_toInt (conv : Conv) : Inv (toInt (n := n) conv) := by
  intro v v' h; cases h <;> rfl

theorem inv_toBool : Inv (toBool (n := n)) := by
  intro v v' h; cases h <;> rfl

theorem inv_toProvider : Inv (toProvider (n := n)) := by
  intro v v' h; cases h <;> rfl

theorem inv_toMethod : Inv (toMethod (n := n)) := by
  intro v v' h; cases h <;> rfl

/-! ### Coefficients have no mappings in them -/

theorem shape_same (conv : Conv) {v v' : Val n} (h : SameDoc v v') :
    shape conv v = shape conv v' ∧ ((shape conv v).isSome → v = v') := by
  induction h with
  | scalar | str | arr => exact ⟨rfl, fun _ => rfl⟩
  | dict => exact ⟨by simp [shape], fun h => by simp [shape] at h⟩
  | list xs ys hlen h ih =>
    have : shapes conv xs = shapes conv ys ∧ ((shapes conv xs).isSome → xs = ys) := by
      clear h
      induction xs generalizing ys with
      | nil =>
        cases ys with
        | nil => exact ⟨rfl, fun _ => rfl⟩
        | cons => cases hlen
      | cons x xs jh =>
        cases ys with
        | nil => cases hlen
        | cons y ys =>
          obtain ⟨h1, h2⟩ := ih 0 x y rfl rfl
          obtain ⟨h3, h4⟩ := jh ys (by simpa using hlen) fun i x y hx hy =>
            ih (i + 1) x y (by simpa using hx) (by simpa using hy)
          refine ⟨by simp only [shapes, h1, h3], fun hs => ?_⟩
          have h5 : (shape conv x).isSome := by
            by_contra hc
            rw [Option.not_isSome_iff_eq_none] at hc
            simp [shapes, hc] at hs
          have h6 : (shapes conv xs).isSome := by
            by_contra hc
            rw [Option.not_isSome_iff_eq_none] at hc
            simp [shapes, hc] at hs
          rw [h2 h5, h4 h6]
    simp only [shape]
    exact ⟨this.1, fun hs => by rw [this.2 hs]⟩

theorem inv_anyArray (conv : Conv) : Inv (anyArray (n := n) conv) := by
  intro v v' h
  obtain ⟨h1, h2⟩ := shape_same conv h
  by_cases hs : (shape conv v).isSome
  · rw [h2 hs]
  · rw [Option.not_isSome_iff_eq_none] at hs
    unfold anyArray
    rw [← h1, hs]

/-! ### The sections -/

theorem inv_moduliCoef (conv : Conv) : Inv (parseModuliCoef (n := n) conv) :=
  inv_dataclass _ _ fun a a' h => by
    simp only [defaulted_same h (inv_optional (inv_anyArray conv))]

theorem inv_velocityCoef (conv : Conv) : Inv (parseVelocityCoef (n := n) conv) :=
  inv_dataclass _ _ fun a a' h => by
    simp only [defaulted_same h (inv_optional (inv_anyArray conv))]

theorem inv_vpOverVsCoef (conv : Conv) : Inv (parseVpOverVsCoef (n := n) conv) :=
  inv_dataclass _ _ fun a a' h => by
    simp only [defaulted_same h (inv_optional (inv_anyArray conv))]

theorem inv_polyfitCoef (conv : Conv) : Inv (parsePolyfitCoef (n := n) conv) :=
  inv_firstOf (by
    simp only [List.forall_mem_cons]
    exact ⟨inv_moduliCoef conv, inv_velocityCoef conv, by simp⟩)

theorem inv_arbitrary (conv : Conv) : Inv (parseArbitrary (n := n) conv) :=
  inv_dataclass _ _ fun a a' h => by
    simp only [tagged_same h, required_same h (inv_toCol conv), defaulted_same h (inv_optional (inv_toCol conv))]

theorem inv_material (conv : Conv) : Inv (parseMaterial (n := n) conv) := by
  intro v v' h; unfold parseMaterial; rw [inv_arbitrary conv v v' h]

theorem inv_gas (conv : Conv) : Inv (parseGas (n := n) conv) :=
  inv_dataclass _ _ fun a a' h => by simp only [tagged_same h, required_same h (inv_toCol conv)]

theorem inv_oil (conv : Conv) : Inv (parseOil (n := n) conv) :=
  inv_dataclass _ _ fun a a' h => by simp only [tagged_same h, required_same h (inv_toCol conv)]

theorem inv_brine (conv : Conv) : Inv (parseBrine (n := n) conv) :=
  inv_dataclass _ _ fun a a' h => by simp only [tagged_same h, required_same h (inv_toCol conv)]

theorem inv_condensate (conv : Conv) : Inv (parseCondensate (n := n) conv) :=
  inv_dataclass _ _ fun a a' h => by simp only [tagged_same h, required_same h (inv_toCol conv)]

theorem inv_co2 : Inv (parseCO2 (n := n)) :=
  inv_dataclass _ _ fun a a' h => by simp only [tagged_same h, defaulted_same h inv_toBool]

theorem inv_materialType (conv : Conv) : Inv (parseMaterialType (n := n) conv) :=
  inv_firstOf (by
    simp only [materialAlternatives, List.forall_mem_cons]
    exact ⟨inv_material conv, inv_gas conv, inv_oil conv, inv_brine conv, inv_condensate conv, inv_co2, by simp⟩)

theorem inv_constituent (conv : Conv) : Inv (parseConstituent (n := n) conv) :=
  inv_dataclass _ _ fun a a' h => by
    simp only [required_same h (inv_materialType conv), defaulted_same h (inv_optional (inv_toCol conv)),
      defaulted_same h (inv_optional inv_toProvider)]

theorem inv_minerals (conv : Conv) : Inv (parseMinerals (n := n) conv) :=
  inv_dataclass _ _ fun a a' h => by simp only [defaulted_same h (inv_listOf (inv_constituent conv))]

theorem inv_fluids (conv : Conv) : Inv (parseFluids (n := n) conv) :=
  inv_dataclass _ _ fun a a' h => by
    simp only [defaulted_same h (inv_listOf (inv_constituent conv)), defaulted_same h (inv_toCol conv),
      defaulted_same h inv_toMethod, defaulted_same h (inv_toFloat conv),
      defaulted_same h (inv_optional (inv_listOf (inv_toInt conv))), defaulted_same h inv_toProvider]

theorem inv_friable (conv : Conv) : Inv (parseFriable (n := n) conv) :=
  inv_dataclass _ _ fun a a' h => by
    simp only [tagged_same h, defaulted_same h (inv_toCol conv), defaulted_same h (inv_optional (inv_toCol conv))]

theorem inv_patchy (conv : Conv) : Inv (parsePatchy (n := n) conv) :=
  inv_dataclass _ _ fun a a' h => by
    simp only [tagged_same h, defaulted_same h (inv_toCol conv), defaulted_same h (inv_arbitrary conv),
      defaulted_same h (inv_optional (inv_toCol conv))]

theorem inv_polyfit2d (conv : Conv) : Inv (parsePolyfit2d (n := n) conv) :=
  inv_dataclass _ _ fun a a' h => by
    rw [tagged_same h, defaulted_same h (inv_optional (inv_polyfitCoef conv))]

theorem inv_sandstone (conv : Conv) : Inv (parseSandstone (n := n) conv) :=
  inv_firstOf (by
    simp only [List.forall_mem_cons]
    exact ⟨inv_into (inv_patchy conv), inv_into (inv_friable conv), inv_polyfit2d conv, by simp⟩)

theorem inv_fit (conv : Conv) (kind : FitKind) : Inv (parseFit (n := n) conv kind) :=
  inv_dataclass _ _ fun a a' h => by
    rw [tagged_same h, required_same h]
    cases kind
    · exact inv_vpOverVsCoef conv
    all_goals exact inv_polyfitCoef conv

theorem inv_pdModel (conv : Conv) : Inv (parsePDModel (n := n) conv) :=
  inv_firstOf (by
    simp only [List.forall_mem_cons]
    exact ⟨inv_into (inv_patchy conv), inv_into (inv_friable conv), inv_fit conv _, inv_fit conv _,
      inv_fit conv _, inv_fit conv _, by simp⟩)

theorem inv_pressureDependency (conv : Conv) : Inv (parsePressureDependency (n := n) conv) :=
  inv_dataclass _ _ fun a a' h => by rw [tagged_same h, required_same h (inv_pdModel conv)]

theorem inv_depthTrend (conv : Conv) : Inv (parseDepthTrend (n := n) conv) :=
  inv_dataclass _ _ fun a a' h => by
    simp only [tagged_same h, required_same h (inv_toCol conv), required_same h (inv_polyfitCoef conv),
      defaulted_same h (inv_optional (inv_toCol conv))]

theorem inv_adjustment (conv : Conv) : Inv (parseAdjustment (n := n) conv) :=
  inv_firstOf (by
    simp only [List.forall_mem_cons]
    exact ⟨inv_depthTrend conv, inv_pressureDependency conv, by simp⟩)

theorem inv_dryRock (conv : Conv) : Inv (parseDryRock (n := n) conv) :=
  inv_dataclass _ _ fun a a' h => by
    simp only [defaulted_same h (inv_sandstone conv), defaulted_same h (inv_toCol conv),
      defaulted_same h (inv_listOf (inv_adjustment conv))]

theorem inv_pressure (conv : Conv) : Inv (parsePressure (n := n) conv) :=
  inv_dataclass _ _ fun a a' h => by
    simp only [defaulted_same h (inv_toCol conv), defaulted_same h (inv_optional (inv_toCol conv))]

/-! ### The whole document -/

theorem mapArrDict_eq {S A B : Type} (f : A → B) (xs : List (String × Cfg S A)) :
    mapArrDict f xs = xs.map fun p => (p.1, mapArr f p.2) := by
  induction xs with
  | nil => rfl
  | cons p xs ih => obtain ⟨k, x⟩ := p; simp [mapArrDict, ih]

theorem mapArrList_eq {S A B : Type} (f : A → B) (xs : List (Cfg S A)) : mapArrList f xs = xs.map (mapArr f) := by
  induction xs with
  | nil => rfl
  | cons x xs ih => simp [mapArrList, ih]

theorem mapArr_same {S A B : Type} (f : A → B) {v v' : Cfg S A} (h : SameDoc v v') :
    SameDoc (mapArr f v) (mapArr f v') := by
  induction h with
  | scalar s => simp only [mapArr]; exact .scalar s
  | str s => simp only [mapArr]; exact .str s
  | arr a => simp only [mapArr]; exact .arr (f a)
  | list xs ys hlen h ih =>
    simp only [mapArr, mapArrList_eq]
    refine .list _ _ (by simpa using hlen) fun i x y hx hy => ?_
    rw [List.getElem?_map, Option.map_eq_some_iff] at hx hy
    obtain ⟨x', hx', rfl⟩ := hx
    obtain ⟨y', hy', rfl⟩ := hy
    exact ih i x' y' hx' hy'
  | dict xs ys hx hy hk h ih =>
    simp only [mapArr, mapArrDict_eq]
    have hm : ∀ zs : List (String × Cfg S A),
        (zs.map fun p => (p.1, mapArr f p.2)).map Prod.fst = zs.map Prod.fst := by
      intro zs; rw [List.map_map]; rfl
    refine .dict _ _ (by rwa [hm]) (by rwa [hm]) (by intro k; rw [hm, hm]; exact hk k) fun k x y hx hy => ?_
    obtain ⟨⟨k1, x'⟩, hx', e1⟩ := List.mem_map.mp hx
    obtain ⟨⟨k2, y'⟩, hy', e2⟩ := List.mem_map.mp hy
    injection e1 with e1 e1'; injection e2 with e2 e2'
    dsimp only at e1 e1' e2 e2'
    subst e1; subst e2; subst e1'; subst e2'
    exact ih _ x' y' hx' hy'

theorem readWith_same (conv : Conv) (data : Option (Frame (Arr n))) {y y' : Yaml} (h : SameDoc y y')
    {s : Sections n} (hs : readWith conv data y = .ok s) : readWith conv data y' = .ok s := by
  cases h with
  | scalar | str | arr => exact hs
  | list => cases hs
  | dict xs ys hx hy hk h =>
    unfold readWith at hs ⊢
    dsimp only at hs ⊢
    obtain ⟨hf, hs⟩ := failIf_bind_ok.mp hs
    have sec : ∀ key w, insertDataframe data (mapArr Empty.elim ((xs.lookup key).getD (.dict []))) = .ok w →
        ∃ w', insertDataframe data (mapArr Empty.elim ((ys.lookup key).getD (.dict []))) = .ok w' ∧
          SameDoc w w' := by
      intro key w hw
      refine insertDataframe_same data (mapArr_same _ ?_) hw
      have := lookup_same hk h key
      revert this
      rcases xs.lookup key with _ | x <;> rcases ys.lookup key with _ | y <;> intro this
      · exact .dict [] [] (by simp) (by simp) (by simp) (by simp)
      · exact this.elim
      · exact this.elim
      · exact this
    obtain ⟨m, hm, hs⟩ := bind_eq_ok.mp hs
    obtain ⟨f, hff, hs⟩ := bind_eq_ok.mp hs
    obtain ⟨d, hd, hs⟩ := bind_eq_ok.mp hs
    obtain ⟨p, hp, hs⟩ := bind_eq_ok.mp hs
    obtain ⟨m', hm', sm⟩ := sec _ _ hm
    obtain ⟨f', hf', sf⟩ := sec _ _ hff
    obtain ⟨d', hd', sd⟩ := sec _ _ hd
    obtain ⟨p', hp', sp⟩ := sec _ _ hp
    refine failIf_bind_ok.mpr ⟨?_, ?_⟩
    · rintro ⟨⟨k, y⟩, hm, hk'⟩
      obtain ⟨x, hxm⟩ := mem_keys_iff.mp ((hk k).mpr (mem_keys_iff.mpr ⟨y, hm⟩))
      exact hf ⟨(k, x), hxm, hk'⟩
    · rw [hm', bind_ok, hf', bind_ok, hd', bind_ok, hp', bind_ok]
      unfold parseSections at hs ⊢
      rw [← inv_minerals conv m m' sm, ← inv_fluids conv f f' sf, ← inv_dryRock conv d d' sd,
        ← inv_pressure conv p p' sp]
      exact hs

/-- **C116.** Two configuration files that differ only in the order in which keys are written are read as the
same sections, with data or without: one is accepted exactly when the other is. -/
theorem C116_key_order (conv : Conv) {y y' : Yaml} (h : SameDoc y y') (n : ℕ) (rows : Fin n → DataRow)
    (s : Sections n) (s1 : Sections 1) :
    (reading conv y n rows = .ok s ↔ reading conv y' n rows = .ok s) ∧
    (readingNoData conv y = .ok s1 ↔ readingNoData conv y' = .ok s1) :=
  ⟨⟨readWith_same conv _ h, readWith_same conv _ h.symm⟩, readWith_same conv _ h, readWith_same conv _ h.symm⟩

/-- A case: sections and fields of a section in another order. -/
example : SameDoc
    (.dict [("dry_rock", .dict [("porosity", .scalar (.num (Num.fin 0.2))),
      ("model", .dict [("type", .str "friable_sand")])]), ("fluids", .dict [("temperature", .dict [("column", .str "t")])])]
      : Yaml)
    (.dict [("fluids", .dict [("temperature", .dict [("column", .str "t")])]), ("dry_rock", .dict [
      ("model", .dict [("type", .str "friable_sand")]), ("porosity", .scalar (.num (Num.fin 0.2)))])]) := by
  have h1 : SameDoc (.dict [("column", .str "t")] : Yaml) (.dict [("column", .str "t")]) :=
    .dict _ _ (by simp) (by simp) (by simp) fun k x y hx hy => by
      simp only [List.mem_singleton, Prod.mk.injEq] at hx hy
      obtain ⟨rfl, rfl⟩ := hx; obtain ⟨-, rfl⟩ := hy; exact .str "t"
  have h2 : SameDoc (.dict [("temperature", .dict [("column", .str "t")])] : Yaml)
      (.dict [("temperature", .dict [("column", .str "t")])]) :=
    .dict _ _ (by simp) (by simp) (by simp) fun k x y hx hy => by
      simp only [List.mem_singleton, Prod.mk.injEq] at hx hy
      obtain ⟨rfl, rfl⟩ := hx; obtain ⟨-, rfl⟩ := hy; exact h1
  have h3 : SameDoc (.dict [("type", .str "friable_sand")] : Yaml) (.dict [("type", .str "friable_sand")]) :=
    .dict _ _ (by simp) (by simp) (by simp) fun k x y hx hy => by
      simp only [List.mem_singleton, Prod.mk.injEq] at hx hy
      obtain ⟨rfl, rfl⟩ := hx; obtain ⟨-, rfl⟩ := hy; exact .str _
  have h4 : SameDoc (.dict [("porosity", .scalar (.num (Num.fin 0.2))), ("model", .dict [("type", .str "friable_sand")])]
      : Yaml) (.dict [("model", .dict [("type", .str "friable_sand")]), ("porosity", .scalar (.num (Num.fin 0.2)))]) :=
    .dict _ _ (by simp) (by simp) (fun k => by simp [or_comm]) fun k x y hx hy => by
      simp only [List.mem_cons, List.not_mem_nil, or_false, Prod.mk.injEq] at hx hy
      rcases hx with ⟨rfl, rfl⟩ | ⟨rfl, rfl⟩ <;> rcases hy with ⟨e, rfl⟩ | ⟨e, rfl⟩
      · exact absurd e (by decide)
      · exact .scalar _
      · exact h3
      · exact absurd e (by decide)
  refine .dict _ _ (by simp) (by simp) (fun k => by simp [or_comm]) fun k x y hx hy => ?_
  simp only [List.mem_cons, List.not_mem_nil, or_false, Prod.mk.injEq] at hx hy
  rcases hx with ⟨rfl, rfl⟩ | ⟨rfl, rfl⟩ <;> rcases hy with ⟨e, rfl⟩ | ⟨e, rfl⟩
  · exact absurd e (by decide)
  · exact h4
  · exact h2
  · exact absurd e (by decide)

end OPE.Parse
