import Verif.Spec.MissingFluids
import Verif.Props.MissingFluids
import Verif.Props.MissingPorosity2

/-!
# Missing pore fluid data do not stop the program (C157)
-/

namespace OPE

open Classical

variable {n : ℕ}

/-- **C157, calculation.** Two inputs that differ in pore fluid data only, the first lacking some numbers of the
second (saturations, fluid properties, temperature, Brie's exponent; the fluid pressure if the rock has a pressure of
its own).  Without carbon dioxide, or with temperature and fluid pressure known: if the calculation goes through with
all the numbers, it goes through without them; mineral, dense packing and dry rock moduli and the shear modulus are
the same, saturated bulk modulus and density are the same or missing, and rows that lack nothing are the same. -/
theorem C157_calculation {co2 : ∀ n, CO2Model n} (hco2 : CO2RowWise co2) {s t : Sections n} (hrock : SameRock t s)
    (ht : s.temperature ⊑ t.temperature) (hfl : s.fluids ⊑ t.fluids) (hm : s.mixMethod = t.mixMethod)
    (hb : s.brieConstant ⊑ t.brieConstant) (hg : s.brieGases = t.brieGases) (hmo : s.fluidModel = t.fluidModel)
    (hp : s.fluidPressure ⊑ t.fluidPressure)
    (hc : (∀ x ∈ t.fluids, x.kind.type ≠ "carbon_dioxide") ∨
      s.temperature = t.temperature ∧ s.fluidPressure = t.fluidPressure)
    {r : Result n} (h : calculate (co2 n) t = .ok r) :
    ∃ r', calculate (co2 n) s = .ok r' ∧ r'.kmin = r.kmin ∧ r'.kminFls = r.kminFls ∧ r'.kdry = r.kdry ∧
      r'.mysat = r.mysat ∧
      (∀ i, (r'.ksat i = r.ksat i ∨ r'.ksat i = Num.nan) ∧ (r'.rsat i = r.rsat i ∨ r'.rsat i = Num.nan)) ∧
      ∀ i, s.row i = t.row i → r'.at i = r.at i := by
  obtain ⟨r', hr', hl⟩ := calculate_fluids_down hrock ht hfl hm hb hg hmo hp hc r h
  obtain ⟨h1, h2, h3, h4⟩ := C125_fluids_leave_rock hrock h hr'
  refine ⟨r', hr', h1, h3, h2, h4, fun i => ⟨(hl.1 i).symm, (hl.2.2.2.2.1 i).symm⟩, fun i hi => ?_⟩
  haveI : NeZero n := ⟨(Nat.pos_of_ne_zero fun e => by subst e; exact i.elim0).ne'⟩
  have e1 := (C07_row_wise hco2 t).1 r h i
  have e2 := (C07_row_wise hco2 s).1 r' hr' i
  dsimp only at e1 e2
  rw [hi, e1] at e2
  injection e2 with e2
  have f := fun (g : Result 1 → Col 1) => congrFun (congrArg g e2.symm) 0
  unfold Result.at
  rw [Main.Row.mk.injEq]
  exact ⟨f Result.ksat, f Result.kmin, f Result.kdry, f Result.mysat, f Result.rsat, f Result.kminFls⟩

end OPE

namespace OPE.Parse

open Classical Main

variable {n : ℕ} {conv : Conv}

/-! ### Inserting columns -/

theorem frame_down {rows rows' : Fin n → DataRow} (h : ∀ i, Emptied conv (rows i) (rows' i)) {S : Type}
    (v : Cfg S (Arr n)) : Down (ArrLacks conv) (Frame.get (frameOf rows) v) (Frame.get (frameOf rows') v) := by
  have hcol : ∀ s, (∀ i, (rows i s).isSome) ↔ ∀ i, (rows' i s).isSome := fun s =>
    forall_congr' fun i => by rw [emptied_isSome (h i)]
  have hsome : ∀ s, ((frameOf rows).column s).isSome = ((frameOf rows').column s).isSome := by
    intro s
    unfold frameOf
    by_cases hs : ∀ i, (rows i s).isSome
    · simp only [dif_pos hs, dif_pos ((hcol s).mp hs), Option.isSome_some]
    · simp only [dif_neg hs, dif_neg (fun h' => hs ((hcol s).mpr h')), Option.isSome_none]
  intro b hb
  suffices ∃ a, Frame.get (frameOf rows) v = .ok a by
    obtain ⟨a, ha⟩ := this
    exact ⟨a, ha, frame_lacks h v a b ha hb⟩
  unfold Frame.get at hb ⊢
  cases v with
  | str s =>
    dsimp only at hb ⊢
    have := hsome s
    rcases h1 : (frameOf rows).column s with _ | x
    · rw [h1] at this
      rcases h2 : (frameOf rows').column s with _ | y
      · rw [h2] at hb; cases hb
      · rw [h2] at this; cases this
    · exact ⟨_, rfl⟩
  | list xs =>
    dsimp only at hb ⊢
    cases hx : Cfg.strings xs with
    | none => rw [hx] at hb; cases hb
    | some ss =>
      rw [hx] at hb
      dsimp only at hb ⊢
      simp only [hsome] at hb ⊢
      split at hb
      · rename_i hall
        rw [if_pos hall]
        exact ⟨_, rfl⟩
      · cases hb
  | _ => cases hb

theorem wrapColumn_down {α β : Type} {R : α → β → Prop} {x : Except Err α} {y : Except Err β} (h : Down R x y) :
    Down R (wrapColumnError x) (wrapColumnError y) := by
  intro b hb
  have e1 : y = .ok b := by
    unfold wrapColumnError at hb
    split at hb <;> first | exact hb | cases hb
  obtain ⟨a, ha, hab⟩ := h b e1
  exact ⟨a, by rw [ha]; rfl, hab⟩

mutual
theorem insert_down {rows rows' : Fin n → DataRow} (h : ∀ i, Emptied conv (rows i) (rows' i)) :
    (x : Val n) → Down (VLacks conv) (insertFrame (frameOf rows) x) (insertFrame (frameOf rows') x)
  | .scalar s => .ok (.scalar s)
  | .str s => .ok (.str s)
  | .arr a => .ok (.arr (arrLacks_refl a))
  | .list xs => by
    unfold insertFrame
    exact .bind (insertL_down h xs) fun a b hab => .ok (.list hab)
  | .dict [] => .ok (.dict .nil)
  | .dict [(k, v)] => by
    unfold insertFrame
    by_cases hk : k = "column"
    · subst hk
      rw [if_pos rfl, if_pos rfl]
      exact .bind (wrapColumn_down (frame_down h v)) fun a b hab => .ok (.arr hab)
    · rw [if_neg hk, if_neg hk]
      exact .bind (insert_down h v) fun a b hab => .ok (.dict (.cons hab .nil))
  | .dict (a :: b :: xs) => by
    unfold insertFrame
    exact .bind (insertD_down h (a :: b :: xs)) fun a b hab => .ok (.dict hab)
theorem insertL_down {rows rows' : Fin n → DataRow} (h : ∀ i, Emptied conv (rows i) (rows' i)) :
    (xs : List (Val n)) →
      Down (VLacksL conv) (insertFrameList (frameOf rows) xs) (insertFrameList (frameOf rows') xs)
  | [] => .ok .nil
  | x :: xs => by
    unfold insertFrameList
    exact .bind (insert_down h x) fun a b hab => .bind (insertL_down h xs) fun as bs habs => .ok (.cons hab habs)
theorem insertD_down {rows rows' : Fin n → DataRow} (h : ∀ i, Emptied conv (rows i) (rows' i)) :
    (xs : List (String × Val n)) →
      Down (VLacksD conv) (insertFrameDict (frameOf rows) xs) (insertFrameDict (frameOf rows') xs)
  | [] => .ok .nil
  | (k, x) :: xs => by
    unfold insertFrameDict
    exact .bind (insert_down h x) fun a b hab => .bind (insertD_down h xs) fun as bs habs => .ok (.cons hab habs)
end

/-- Reading the pore fluids section if `brie_gases` is the same. -/
theorem parseFluids_down {x y : Val n} (h : VLacks conv x y)
    (hg : ∀ a b, args ["temperature", "constituents", "mix_method", "brie_constant", "brie_gases", "fluid_model"] x
      = .ok a → args ["temperature", "constituents", "mix_method", "brie_constant", "brie_gases", "fluid_model"] y
      = .ok b → a "brie_gases" = b "brie_gases") :
    Down FluidsLacks (parseFluids conv x) (parseFluids conv y) := by
  unfold parseFluids
  refine .bind (R := fun a b => ArgsLacks conv a b ∧ a "brie_gases" = b "brie_gases") ?_ ?_
  · intro b hb
    obtain ⟨a, ha, hab⟩ := (args_lacks _ h).down b hb
    exact ⟨a, ha, hab, hg a b ha hb⟩
  · rintro a b ⟨hab, e⟩
    exact .bind (defaulted_both hab _ col_lacks (Col.lacks_refl _)).down fun t t' ht =>
      .bind (R := (· ⊑ ·)) (defaulted_both (R := (· ⊑ ·)) hab _
        (fun _ _ h => listOf_both parseConstituent_lacks h) (specs_lacks_refl _)).down fun k k' hk =>
      .bind (defaulted_both (R := (· = ·)) hab _ (fun _ _ h => toMethod_lacks h) rfl).down fun m m' hm =>
      .bind (defaulted_both (R := (· ⊑ ·)) hab _ (fun _ _ h => toFloat_lacks h) (Num.lacks_refl _)).down fun u u' he =>
      .bind (R := (· = ·)) (fun g hg => ⟨g, by rw [← hg]; unfold defaulted; rw [e], rfl⟩) fun g g' hg =>
      .bind (defaulted_both (R := (· = ·)) hab _ (fun _ _ h => toProvider_lacks h) rfl).down fun p p' hp =>
      .ok ⟨ht, hk, hm, he, hg, hp⟩

theorem parseFluids_temperature {x y : Val n} {f g : FluidsIn n} (hf : parseFluids conv x = .ok f)
    (hg : parseFluids conv y = .ok g) (h : ∀ a b,
      args ["temperature", "constituents", "mix_method", "brie_constant", "brie_gases", "fluid_model"] x
      = .ok a → args ["temperature", "constituents", "mix_method", "brie_constant", "brie_gases", "fluid_model"] y
      = .ok b → a "temperature" = b "temperature") : f.temperature = g.temperature := by
  unfold parseFluids at hf hg
  obtain ⟨a, ha, hf⟩ := bind_eq_ok.mp hf
  obtain ⟨b, hb, hg⟩ := bind_eq_ok.mp hg
  have e := h a b ha hb
  obtain ⟨t, ht, hf⟩ := bind_eq_ok.mp hf
  obtain ⟨t', ht', hg⟩ := bind_eq_ok.mp hg
  unfold defaulted at ht ht'
  rw [e, ht'] at ht
  injection ht with ht
  subst ht
  repeat (obtain ⟨_, _, hf⟩ := bind_eq_ok.mp hf)
  repeat (obtain ⟨_, _, hg⟩ := bind_eq_ok.mp hg)
  injection hf with hf
  injection hg with hg
  rw [← hf, ← hg]

/-- Reading a configuration with pore fluid data emptied: the same rock, and pore fluids that lack some numbers. -/
theorem reading_fluids {cfg : Yaml} {cols : String → Prop} (hcfg : FluidColumns cfg cols)
    {rows rows' : Fin n → DataRow} (hrows : ∀ i, EmptiedIn conv cols (rows' i) (rows i)) {t : Sections n}
    (h : reading conv cfg n rows = .ok t) :
    ∃ f, reading conv cfg n rows' = .ok { t with
        temperature := f.temperature, fluids := f.constituents, mixMethod := f.method, brieConstant := f.brieConstant
        brieGases := f.brieGases, fluidModel := f.model } ∧
      FluidsLacks f ⟨t.temperature, t.fluids, t.mixMethod, t.brieConstant, t.brieGases, t.fluidModel⟩ ∧
      (TemperatureKnown cfg cols → f.temperature = t.temperature) := by
  obtain ⟨xs, ys, rfl, hys, hgas, hother⟩ := hcfg.fluids
  unfold reading readWith at h ⊢
  dsimp only at h ⊢
  obtain ⟨⟨⟩, hkeys, h⟩ := bind_eq_ok.mp h
  have same : ∀ x : Yaml, (∀ col, cols col → ¬ Mentions x col) →
      insertFrame (frameOf rows') (mapArr Empty.elim x : Val n) = insertFrame (frameOf rows) (mapArr Empty.elim x) := by
    intro x hx
    refine insert_congr _ fun s hs i => (hrows i).2 s fun hc => hx s hc (mentions_mapArr hs)
  have hsec : ∀ key, key ≠ "fluids" →
      insertDataframe (some (frameOf rows')) (mapArr Empty.elim ((xs.lookup key).getD (.dict [])) : Val n)
        = insertDataframe (some (frameOf rows)) (mapArr Empty.elim ((xs.lookup key).getD (.dict []))) := by
    intro key hkey
    unfold insertDataframe
    dsimp only
    cases hl : xs.lookup key with
    | none => rfl
    | some x => exact same x (hother key x hkey hl)
  rw [hkeys, bind_ok, hsec "minerals" (by decide), hsec "dry_rock" (by decide), hsec "pressure" (by decide)]
  obtain ⟨mi, hmi, h⟩ := bind_eq_ok.mp h
  obtain ⟨fl, hfl, h⟩ := bind_eq_ok.mp h
  obtain ⟨dr, hdr, h⟩ := bind_eq_ok.mp h
  obtain ⟨pr, hpr, h⟩ := bind_eq_ok.mp h
  rw [hys] at hfl ⊢
  unfold insertDataframe at hfl
  dsimp only [Option.getD_some] at hfl ⊢
  obtain ⟨fl', hfl', hlack⟩ := insert_down (fun i => (hrows i).1) _ fl hfl
  rw [hmi, bind_ok, show insertDataframe (some (frameOf rows')) (mapArr Empty.elim (.dict ys : Yaml) : Val n)
    = .ok fl' from hfl', bind_ok, hdr, bind_ok, hpr, bind_ok]
  have hkey : ∀ key, (∀ x, ys.lookup key = some x → ∀ col, cols col → ¬ Main.Mentions x col) → ∀ a b : Args n,
      args ["temperature", "constituents", "mix_method", "brie_constant", "brie_gases", "fluid_model"] fl' = .ok a →
      args ["temperature", "constituents", "mix_method", "brie_constant", "brie_gases", "fluid_model"] fl = .ok b →
      a key = b key := by
    intro key hno a b ha hb
    by_cases hcol : ∃ name, ys = [("column", name)]
    · exfalso
      obtain ⟨name, rfl⟩ := hcol
      simp only [mapArr, mapArrDict, insertFrame, if_true] at hfl
      obtain ⟨arr, -, hfl⟩ := bind_eq_ok.mp hfl
      injection hfl with hfl
      subst hfl
      simp [args, named, reject] at hb
    · have hnoref : ∀ name, mapArrDict Empty.elim ys ≠ ([("column", name)] : List (String × Val n)) := by
        intro name e
        apply hcol
        match ys, e with
        | [(k, x)], e =>
          simp only [mapArrDict, List.cons.injEq, Prod.mk.injEq, and_true] at e
          exact ⟨x, by rw [e.1]⟩
        | _ :: _ :: _, e => simp [mapArrDict] at e
      have hform : ∀ t : Frame (Arr n), insertFrame t (mapArr Empty.elim (.dict ys : Yaml) : Val n)
          = (insertFrameDict t (mapArrDict Empty.elim ys) >>= fun vs => .ok (.dict vs)) := fun t =>
        OPE.insertFrame_dict t _ hnoref
      rw [hform] at hfl hfl'
      obtain ⟨vs, hvs, hfl⟩ := bind_eq_ok.mp hfl
      obtain ⟨vs', hvs', hfl'⟩ := bind_eq_ok.mp hfl'
      injection hfl with hfl
      injection hfl' with hfl'
      subst hfl hfl'
      rw [args_dict] at ha hb
      split at ha
      · split at hb
        · injection ha with ha
          injection hb with hb
          subst ha hb
          dsimp only
          rcases Schema.insertFrameDict_lookup hvs key with ⟨e1, e2⟩ | ⟨z, w, e1, e2, e3⟩ <;>
          rcases Schema.insertFrameDict_lookup hvs' key with ⟨e1', e2'⟩ | ⟨z', w', e1', e2', e3'⟩
          · rw [e2, e2']
          · rw [e1] at e1'; cases e1'
          · rw [e1] at e1'; cases e1'
          · rw [e1] at e1'
            injection e1' with e1'
            subst e1'
            rw [same z (hno z e1), e3] at e3'
            injection e3' with e3'
            rw [e2, e2', e3']
        · cases hb
      · cases ha
  unfold parseSections at h ⊢
  obtain ⟨m, hm, h⟩ := bind_eq_ok.mp h
  obtain ⟨f, hf, h⟩ := bind_eq_ok.mp h
  obtain ⟨d, hd, h⟩ := bind_eq_ok.mp h
  obtain ⟨p, hp, h⟩ := bind_eq_ok.mp h
  obtain ⟨m', hm', h⟩ := bind_eq_ok.mp h
  injection h with hres
  obtain ⟨f', hf', hlf⟩ := parseFluids_down hlack (hkey "brie_gases" hgas) f hf
  rw [hm, bind_ok, hf', bind_ok, hd, bind_ok, hp, bind_ok, hm', bind_ok]
  subst hres
  exact ⟨f', rfl, hlf, fun hT => parseFluids_temperature hf' hf (hkey "temperature" fun x hx =>
    hT xs ys x rfl hys hx)⟩

end OPE.Parse

namespace OPE.Main

open Classical Parse

/-- What C157 says of a row of the table: `x'` after emptying, `x` before. -/
theorem emptied_row {co2 : ∀ n, CO2Model n} (hco2 : CO2RowWise co2) {conv : Conv} {cfg : Yaml}
    {cols : String → Prop} (hcfg : FluidColumns cfg cols) {n : ℕ} {rows rows' : Fin n → DataRow}
    (hrows : ∀ i, EmptiedIn conv cols (rows' i) (rows i)) {t : Sections n} (h : reading conv cfg n rows = .ok t)
    (hc : (∀ x ∈ t.fluids, x.kind.type ≠ "carbon_dioxide") ∨ TemperatureKnown cfg cols)
    {r : Result n} (hr : calculate (co2 n) t = .ok r) :
    ∃ s r', reading conv cfg n rows' = .ok s ∧ calculate (co2 n) s = .ok r' ∧ ∀ i,
      (r'.at i).kmin = (r.at i).kmin ∧ (r'.at i).kminFls = (r.at i).kminFls ∧ (r'.at i).kdry = (r.at i).kdry ∧
      (r'.at i).mysat = (r.at i).mysat ∧ ((r'.at i).ksat = (r.at i).ksat ∨ (r'.at i).ksat = Num.nan) ∧
      ((r'.at i).rsat = (r.at i).rsat ∨ (r'.at i).rsat = Num.nan) ∧
      (PerRow cfg → rows' i = rows i → r'.at i = r.at i) := by
  obtain ⟨f, hs, ⟨h1, h2, h3, h4, h5, h6⟩, hT⟩ := reading_fluids hcfg hrows h
  obtain ⟨r', hr', a1, a2, a3, a4, a5, a6⟩ := C157_calculation hco2
    (s := { t with
      temperature := f.temperature, fluids := f.constituents, mixMethod := f.method, brieConstant := f.brieConstant
      brieGases := f.brieGases, fluidModel := f.model }) (t := t)
    ⟨rfl, rfl, rfl, rfl, rfl, rfl, rfl, rfl, fun _ => rfl⟩ h1 h2 h3 h4 h5 h6 (Option.lacks_refl _)
    (hc.imp id fun k => ⟨hT k, rfl⟩) hr
  refine ⟨_, r', hs, hr', fun i => ⟨congrFun a1 i, congrFun a2 i, congrFun a3 i, congrFun a4 i, (a5 i).1, (a5 i).2,
    fun hp hi => a6 i ?_⟩⟩
  haveI : NeZero n := ⟨(Nat.pos_of_ne_zero fun e => by subst e; exact i.elim0).ne'⟩
  have e1 := (C87_reading_row_wise conv cfg hp rows).1 t h i
  have e2 := (C87_reading_row_wise conv cfg hp rows').1 _ hs i
  dsimp only at e1 e2
  rw [hi, e1] at e2
  injection e2 with e2
  exact e2.symm

/-- **C157.** The program, normal mode, with a configuration in which some columns feed the pore fluids only
(saturations, oil, gas and brine properties, temperature).  Emptying any entries of these columns in a data file for
which a table is written, a table is written still, with the same rows; in every row the mineral, dense packing and dry
rock moduli and the shear modulus are unchanged and the bulk modulus and density of the saturated rock are unchanged or
missing; and rows in which nothing was emptied are unchanged, if every parameter is a single value or a column.  There
must be no carbon dioxide, or the temperature must not be in an emptied column. -/
theorem C157_missing_fluid_data (co2 : ∀ n, CO2Model n) (hco2 : CO2RowWise co2) (conv : Conv)
    (w : World Yaml DataRow (Σ n, (Fin n → ℕ) × Input n)) (cfg : Yaml) (cols : String → Prop)
    (hcfg : FluidColumns cfg cols) (hk : w.config = .ok (some cfg)) (ht : w.threshold = none)
    (hc : (∀ n rows s, reading conv cfg n rows = .ok s → ∀ x ∈ s.fluids, x.kind.type ≠ "carbon_dioxide") ∨
      TemperatureKnown cfg cols)
    (rows rows' : List DataRow) (hrows : List.Forall₂ (EmptiedIn conv cols) rows' rows) (t : Table)
    (hw : (run (pipeline co2 (reading conv) (readingNoData conv)
      { w with data := some (.ok rows) })).written = [t]) :
    ∃ t' : Table, (run (pipeline co2 (reading conv) (readingNoData conv)
        { w with data := some (.ok rows') })).written = [t'] ∧
      List.Forall₂ (fun x' x => x'.1 = x.1 ∧ x'.2.kmin = x.2.kmin ∧ x'.2.kminFls = x.2.kminFls ∧
        x'.2.kdry = x.2.kdry ∧ x'.2.mysat = x.2.mysat ∧ (x'.2.ksat = x.2.ksat ∨ x'.2.ksat = Num.nan) ∧
        (x'.2.rsat = x.2.rsat ∨ x'.2.rsat = Num.nan) ∧
        (PerRow cfg → rows'[x.1]? = rows[x.1]? → x'.2 = x.2)) t' t := by
  obtain ⟨m, g, s, r, hg, hs, hr, rfl⟩ := normal_written co2 _ _ w cfg hk rows ht t hw
  obtain ⟨hm, hgi⟩ := numbered_ofFn hg
  have hlen : rows'.length = m := by rw [hm]; exact List.Forall₂.length_eq hrows
  set g' : Fin m → ℕ × DataRow := fun i => ((g i).1, rows'[(i : ℕ)]'(by omega)) with hg'
  have hE : ∀ i : Fin m, EmptiedIn conv cols (g' i).2 (g i).2 := by
    intro i
    have := forall₂_get (R := EmptiedIn conv cols) hrows i
    rw [(hgi i).2, List.getElem?_eq_getElem (by omega)] at this
    cases this with
    | some h => exact h
  obtain ⟨s', r', hs', hr', hrow⟩ := emptied_row (n := m) hco2 hcfg hE hs (hc.imp (fun h => h m _ s hs) id) hr
  refine ⟨_, normal_writes co2 _ _ w cfg hk rows' ht g' ?_ s' r' hs' hr', ?_⟩
  · apply List.ext_getElem
    · simp [length_numbered, hlen]
    · intro i h1 h2
      rw [List.length_ofFn] at h2
      simp only [numbered, List.getElem_zip, List.getElem_range, List.getElem_ofFn, hg']
      rw [(hgi ⟨i, h2⟩).1]
  · rw [List.forall₂_iff_get]
    refine ⟨by simp, fun i h1 h2 => ?_⟩
    rw [List.length_ofFn] at h2
    obtain ⟨a1, a2, a3, a4, a5, a6, a7⟩ := hrow ⟨i, h2⟩
    simp only [List.get_eq_getElem, List.getElem_ofFn, (hgi ⟨i, h2⟩).1, hg', true_and]
    refine ⟨a1, a2, a3, a4, a5, a6, fun hp he => a7 hp ?_⟩
    have e1 := (hgi ⟨i, h2⟩).2
    rw [e1, List.getElem?_eq_getElem (by omega)] at he
    exact Option.some.inj he

/-- **C157, threshold mode.** Every row of the table is a row of the table with fluid data emptied, if that is
written, with the same rock columns and the other two the same or missing. -/
theorem C157_threshold_mode (co2 : ∀ n, CO2Model n) (hco2 : CO2RowWise co2) (conv : Conv)
    (w : World Yaml DataRow (Σ n, (Fin n → ℕ) × Input n)) (cfg : Yaml) (cols : String → Prop)
    (hcfg : FluidColumns cfg cols) (hk : w.config = .ok (some cfg)) (T : ℝ) (ht : w.threshold = some T)
    (hc : (∀ n rows s, reading conv cfg n rows = .ok s → ∀ x ∈ s.fluids, x.kind.type ≠ "carbon_dioxide") ∨
      TemperatureKnown cfg cols)
    (rows rows' : List DataRow) (hrows : List.Forall₂ (EmptiedIn conv cols) rows' rows) (t t' : Table)
    (hw : (run (pipeline co2 (reading conv) (readingNoData conv)
      { w with data := some (.ok rows) })).written = [t])
    (hw' : (run (pipeline co2 (reading conv) (readingNoData conv)
      { w with data := some (.ok rows') })).written = [t'])
    (label : ℕ) (x : Row) (hx : (label, x) ∈ t) :
    ∃ x', (label, x') ∈ t' ∧ x'.kmin = x.kmin ∧ x'.kminFls = x.kminFls ∧ x'.kdry = x.kdry ∧ x'.mysat = x.mysat ∧
      (x'.ksat = x.ksat ∨ x'.ksat = Num.nan) ∧ (x'.rsat = x.rsat ∨ x'.rsat = Num.nan) ∧
      (rows'[label]? = rows[label]? → x' = x) := by
  have hlen := List.Forall₂.length_eq hrows
  have e : ∀ d, ({ w with data := d } : World Yaml DataRow (Σ n, (Fin n → ℕ) × Input n)) =
      { w with data := d, threshold := some T } := by
    intro d; rw [← ht]
  rw [e] at hw hw'
  have hl : label < rows.length := threshold_label hk hw hx
  have hl' : label < rows'.length := hlen ▸ hl
  obtain ⟨r, hr, rfl⟩ := (threshold_written co2 _ _ w cfg hk rows T t hw label rows[label]
    (List.getElem?_eq_getElem hl) x).mp hx
  obtain ⟨s, hs, hr⟩ := bind_eq_ok.mp hr
  have hE : EmptiedIn conv cols rows'[label] rows[label] := by
    have := forall₂_get (R := EmptiedIn conv cols) hrows label
    rw [List.getElem?_eq_getElem hl, List.getElem?_eq_getElem hl'] at this
    cases this with
    | some h => exact h
  obtain ⟨s', r', hs', hr', hrow⟩ := emptied_row (n := 1) hco2 hcfg (fun _ => hE) hs
    (hc.imp (fun h => h 1 _ s hs) id) hr
  obtain ⟨a1, a2, a3, a4, a5, a6, -⟩ := hrow 0
  refine ⟨r'.at 0, (threshold_written co2 _ _ w cfg hk rows' T t' hw' label rows'[label]
    (List.getElem?_eq_getElem hl') _).mpr ⟨r', by rw [hs', bind_ok, hr'], rfl⟩, a1, a2, a3, a4, a5, a6, fun he => ?_⟩
  rw [List.getElem?_eq_getElem hl, List.getElem?_eq_getElem hl'] at he
  rw [Option.some.inj he, hs] at hs'
  injection hs' with hs'
  subst hs'
  rw [hr] at hr'
  injection hr' with hr'
  rw [hr']

end OPE.Main

/-! ### The hypotheses are met: quartz sand with brine, the saturation from a column -/

namespace OPE.Main

open Classical Parse

/-- Quartz sand with brine, porosity and saturation from columns. -/
noncomputable def exYamlSw : Yaml := .dict [
  ("minerals", .dict [("constituents", .list [.dict [
    ("material", .dict [("bulk_modulus", num 36.8), ("shear_modulus", num 44), ("density", num 2650)]),
    ("fraction", num 1)]])]),
  ("fluids", .dict [("constituents", .list [.dict [
    ("material", .dict [("bulk_modulus", num 2.8), ("shear_modulus", num 0), ("density", num 1030)]),
    ("fraction", .dict [("column", .str "sw")])]])]),
  ("dry_rock", .dict [
    ("model", .dict [("type", .str "friable_sand"), ("critical_porosity", num 0.4),
      ("shear_reduction", num 0.5), ("coordination_number", num 9)]),
    ("porosity", .dict [("column", .str "phi")])]),
  ("pressure", .dict [("overburden", num 0.04), ("reference", num 0.03), ("fluid", num 0.02),
    ("rock", num 0.02)])]

noncomputable def exRowSw (phi : ℝ) : DataRow := fun s =>
  if s = "phi" then some (.num (Num.fin phi)) else if s = "sw" then some (.num (Num.fin 1)) else none

theorem exReadSw {n : ℕ} (conv : Conv) (phi : Fin n → ℝ) :
    reading conv exYamlSw n (fun i => exRowSw (phi i)) = .ok (exSections phi) := by
  have hphi : (frameOf fun i => exRowSw (phi i)).column "phi"
      = some (.col fun i => .num (Num.fin (phi i))) := by
    simp [frameOf, exRowSw]
  have hsw : (frameOf fun i => exRowSw (phi i)).column "sw"
      = some (.col fun i => .num (Num.fin 1)) := by
    simp [frameOf, exRowSw]
  simp [reading, readWith, exYamlSw, insertDataframe, List.lookup, mapArr, mapArrDict, mapArrList,
    insertFrame, insertFrameDict, insertFrameList, num, Frame.get, hphi, hsw, wrapColumnError]
  have h1 := exRead_material (n := n) conv 36.8 44 2650 (by norm_num) (by norm_num) (by norm_num)
  have h2 : parseConstituent conv (.dict [("material", .dict [("bulk_modulus", num 2.8), ("shear_modulus", num 0),
      ("density", num 1030)]), ("fraction", .arr (.col fun _ => .num (Num.fin 1)))] : Val n)
      = .ok ⟨.material (Mat.ofReal (fun _ => 2.8) (fun _ => 0) (fun _ => 1030)), none, some (c 1)⟩ := by
    have h : parseMaterialType conv (.dict [("bulk_modulus", num 2.8), ("shear_modulus", num 0),
        ("density", num 1030)] : Val n) = .ok (.material (Mat.ofReal (fun _ => 2.8) (fun _ => 0) (fun _ => 1030))) := by
      unfold parseMaterialType materialAlternatives firstOf parseMaterial
      rw [exRead_arbitrary conv 2.8 0 1030 (by norm_num) (by norm_num) (by norm_num)]
      rfl
    have hv : (vec fun _ : Fin n => (Except.ok (Num.fin 1) : Except Err Num)) = .ok (c 1) := vec_ok fun i => rfl
    unfold num at h ⊢
    simp [parseConstituent, args, named, required, defaulted, h, Parse.optional, toCol, orReject, Cell.toNum,
      List.lookup, hv]
  have h4 := exRead_sandstone (n := n) conv
  unfold num at h1 h2 h4
  simp [parseSections, parseMinerals, args, named, defaulted, List.lookup, listOf, eachOf, h1, parseFluids, h2,
    parseDryRock, parsePressure, toMinerals, toMineral, h4, Parse.optional, toCol, orReject, Scalar.toNum, Cell.toNum]
  rw [show (vec fun i => Except.ok (Num.fin (phi i))) = .ok (finC phi) from vec_ok fun i => rfl]
  rfl

theorem exYamlSw_columns : FluidColumns exYamlSw (· = "sw") := by
  refine ⟨_, _, rfl, rfl, ?_, ?_⟩
  · intro x hx
    cases hx
  · intro key x hk hl col hcol
    subst hcol
    simp only [List.lookup_cons, List.lookup_nil] at hl
    repeat' split at hl
    all_goals first
      | (injection hl with hl; subst hl
         simp [mentions_dict, mentions_list, mentions_str, mentions_scalar, num, refNames]; done)
      | (rename_i h; simp at h; exact absurd h hk)
      | (rename_i h _; simp at h; exact absurd h hk)
      | cases hl

/-- C157 on it: two rows, the saturation of the first emptied. -/
example (conv : Conv) (w : World Yaml DataRow (Σ n, (Fin n → ℕ) × Input n))
    (hk : w.config = .ok (some exYamlSw)) (ht : w.threshold = none) :
    ∃ t t' : Table, (run (pipeline (fun _ _ _ _ => .error .notImplemented) (reading conv) (readingNoData conv)
        { w with data := some (.ok [exRowSw 0.2, exRowSw 0.3]) })).written = [t] ∧
      (run (pipeline (fun _ _ _ _ => .error .notImplemented) (reading conv) (readingNoData conv)
        { w with data := some (.ok [fun s => if s = "sw" then some (.num .nan) else exRowSw 0.2 s,
          exRowSw 0.3]) })).written = [t'] ∧
      List.Forall₂ (fun x' x => x'.2.kdry = x.2.kdry ∧ (x'.2.ksat = x.2.ksat ∨ x'.2.ksat = Num.nan)) t' t := by
  obtain ⟨r, -, -, -, -, -, hr, -⟩ := exSections_ok (fun _ _ _ => .error .notImplemented) ![0.2, 0.3]
    (fun i => (exPor_range i).1) fun i => (exPor_range i).2
  have h1 := normal_writes (fun _ _ _ _ => .error .notImplemented) (reading conv) (readingNoData conv) w _ hk
    [exRowSw 0.2, exRowSw 0.3] ht (fun i : Fin 2 => ((i : ℕ), exRowSw (![0.2, 0.3] i)))
    (by simp [numbered, List.range_succ, List.ofFn_succ]) _ r (exReadSw conv ![0.2, 0.3]) hr
  obtain ⟨t', h2, h3⟩ := C157_missing_fluid_data _ noCO2 conv w exYamlSw (· = "sw") exYamlSw_columns hk ht
    (.inr fun xs ys x hc hys hx => by
      have : xs.lookup "fluids" = some (.dict ys) := hys
      unfold exYamlSw at hc
      injection hc with hc
      subst hc
      simp only [List.lookup_cons, List.lookup_nil] at hys
      simp at hys
      subst hys
      cases hx) _
    [fun s => if s = "sw" then some (.num .nan) else exRowSw 0.2 s, exRowSw 0.3] (by
      refine .cons ⟨fun name => ?_, fun name hn => if_neg hn⟩ (.cons ⟨fun _ => .inl rfl, fun _ _ => rfl⟩ .nil)
      by_cases hn : name = "sw"
      · subst hn
        exact .inr ⟨rfl, .num (Num.fin 1), Num.fin 1, by simp [exRowSw], rfl⟩
      · exact .inl (if_neg hn)) _ h1
  refine ⟨_, t', h1, h2, h3.imp fun a b h => ⟨h.2.2.2.1, h.2.2.2.2.2.1⟩⟩

end OPE.Main
