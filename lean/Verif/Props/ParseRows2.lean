import Verif.Props.ParseRows

/-!
# Row-wise parsing of every section (C87)
-/

namespace OPE.Parse

open Classical Spec

variable {n : ℕ} [NeZero n]

/-! ### Keys of a row -/

omit [NeZero n] in
theorem valRow_eq_dict {v : Val n} {i : Fin n} {ys : List (String × Val 1)} (h : valRow v i = .dict ys) :
    ∃ xs, v = .dict xs ∧ ys = dictRow xs i := by
  cases v with
  | dict xs => rw [valRow_dict] at h; injection h with h; exact ⟨xs, rfl, h.symm⟩
  | scalar s => rw [valRow, mapArr] at h; cases h
  | str s => rw [valRow, mapArr] at h; cases h
  | arr s => rw [valRow, mapArr] at h; cases h
  | list s => rw [valRow, mapArr] at h; cases h

omit [NeZero n] in
theorem given_row {v : Val n} {i : Fin n} {key : String} {y : Val 1} :
    Given (valRow v i) key y ↔ ∃ x, Given v key x ∧ y = valRow x i := by
  constructor
  · rintro ⟨ys, h, hy⟩
    obtain ⟨xs, rfl, rfl⟩ := valRow_eq_dict h
    rw [dictRow, mapArrDict_lookup] at hy
    cases hx : xs.lookup key with
    | none => rw [hx] at hy; cases hy
    | some x => rw [hx] at hy; injection hy with hy; exact ⟨x, ⟨xs, rfl, hx⟩, hy.symm⟩
  · rintro ⟨x, ⟨xs, rfl, hx⟩, rfl⟩
    exact ⟨_, valRow_dict xs i, by rw [dictRow, mapArrDict_lookup, hx]; rfl⟩

omit [NeZero n] in
theorem has_row {v : Val n} {i : Fin n} {key : String} : Has (valRow v i) key ↔ Has v key := by
  constructor
  · rintro ⟨y, hy⟩
    obtain ⟨x, hx, -⟩ := given_row.mp hy
    exact ⟨x, hx⟩
  · rintro ⟨x, hx⟩
    exact ⟨_, given_row.mpr ⟨x, hx, rfl⟩⟩

omit [NeZero n] in
theorem only_row {v : Val n} {i : Fin n} {keys : List String} :
    OnlyKeys (valRow v i) keys ↔ OnlyKeys v keys := by
  have key : ∀ xs : List (String × Val n), (∀ x ∈ dictRow xs i, x.1 ∈ keys) ↔ ∀ x ∈ xs, x.1 ∈ keys := by
    intro xs
    have : ∀ {T : Type} (l : List (String × T)), (∀ x ∈ l, x.1 ∈ keys) ↔ ∀ k ∈ l.map Prod.fst, k ∈ keys := by
      intro T l; simp
    rw [this, this, dictRow, mapArrDict_keys]
  constructor
  · rintro ⟨ys, h, hy⟩
    obtain ⟨xs, rfl, rfl⟩ := valRow_eq_dict h
    exact ⟨xs, rfl, (key xs).mp hy⟩
  · rintro ⟨xs, rfl, hx⟩
    exact ⟨_, valRow_dict xs i, (key xs).mpr hx⟩

omit [NeZero n] in
theorem all_row {v : Val n} {i : Fin n} {keys : List String} :
    AllKeys (valRow v i) keys ↔ AllKeys v keys :=
  ⟨fun h k hk => has_row.mp (h k hk), fun h k hk => has_row.mpr (h k hk)⟩

omit [NeZero n] in
/-- Accepted tags are strings, the same in every row. -/
theorem tag_row {v : Val n} {i j : Fin n} {s t : String}
    (hi : ∀ x, Given (valRow v i) "type" x → x = .str s) (hj : ∀ x, Given (valRow v j) "type" x → x = .str t)
    (hne : s ≠ t) : ¬ Has v "type" := by
  rintro ⟨x, hx⟩
  have h1 := hi _ (given_row.mpr ⟨x, hx, rfl⟩)
  have h2 := hj _ (given_row.mpr ⟨x, hx, rfl⟩)
  cases x with
  | str u =>
    rw [valRow, mapArr] at h1 h2
    injection h1 with h1; injection h2 with h2
    exact hne (h1.symm.trans h2)
  | scalar s => rw [valRow, mapArr] at h1; cases h1
  | arr s => rw [valRow, mapArr] at h1; cases h1
  | list s => rw [valRow, mapArr] at h1; cases h1
  | dict s => rw [valRow, mapArr] at h1; cases h1

/-! ### Unions -/

/-- pydantic's `Union` is row-wise if the alternatives are and rows cannot disagree about the choice. -/
theorem firstOf_row {α β : Type} {rowA : α → Fin n → β}
    (ps : List ((Val n → Except Err α) × (Val 1 → Except Err β))) (v : Val n)
    (hp : ∀ x ∈ ps, RowBy rowA (x.1 v) (fun i => x.2 (valRow v i)))
    (hE : ps.Pairwise fun x y => ∀ i j a b, y.2 (valRow v i) = .ok a → x.2 (valRow v j) = .ok b →
      ∃ c, x.2 (valRow v i) = .ok c) :
    RowBy rowA (firstOf (ps.map Prod.fst) v) (fun i => firstOf (ps.map Prod.snd) (valRow v i)) := by
  induction ps with
  | nil => exact .error fun i => ⟨_, rfl⟩
  | cons x ps ih =>
    rw [List.pairwise_cons] at hE
    simp only [List.map_cons, firstOf]
    refine choice (q := firstOf (ps.map Prod.fst)) (q1 := firstOf (ps.map Prod.snd))
      (hp x List.mem_cons_self) (ih (fun y hy => hp y (List.mem_cons_of_mem _ hy)) hE.2) ?_
    intro i j a b ha hb
    obtain ⟨q, hq, hqa⟩ := firstOf_mem ha
    rw [List.mem_map] at hq
    obtain ⟨y, hy, rfl⟩ := hq
    exact hE.1 y hy i j a b hqa hb

theorem intoBy {α β γ δ : Type} {rowA : α → Fin n → β} {rowB : γ → Fin n → δ} {f : α → γ} {f1 : β → δ}
    {p : Val n → Except Err α} {p1 : Val 1 → Except Err β} {v : Val n}
    (h : RowBy rowA (p v) (fun i => p1 (valRow v i))) (hf : ∀ a i, f1 (rowA a i) = rowB (f a) i) :
    RowBy rowB (into f p v) (fun i => into f1 p1 (valRow v i)) := by
  unfold into
  exact .bind h fun a _ => .ok fun i => by rw [hf]

/-! ### Materials -/

theorem rw_arbitrary (conv : Conv) : Rw (n := n) Mat.row (parseArbitrary conv) (parseArbitrary conv) := by
  intro v hv hl
  unfold parseArbitrary
  refine .bind (rw_args _ v) fun a ha => ?_
  have hc := args_clean hv hl ha
  refine .seq (rw_tagged hc _) ?_
  refine .bind (rw_required (rw_toCol conv) hc _) fun d _ => ?_
  refine .bind (rw_defaulted (rw_optional (rw_toCol conv)) hc _ fun _ => rfl) fun k _ => ?_
  refine .bind (rw_defaulted (rw_optional (rw_toCol conv)) hc _ fun _ => rfl) fun g _ => ?_
  refine .bind (rw_defaulted (rw_optional (rw_toCol conv)) hc _ fun _ => rfl) fun vs _ => ?_
  refine .bind (rw_defaulted (rw_optional (rw_toCol conv)) hc _ fun _ => rfl) fun vp _ => ?_
  refine .bind (setDefaults_row k g (some d) vs vp) fun m _ => ?_
  exact .ok fun i => rfl

theorem rw_material (conv : Conv) : Rw (n := n) FluidKind.row (parseMaterial conv) (parseMaterial conv) := by
  intro v hv hl
  unfold parseMaterial
  exact .bind (rw_arbitrary conv v hv hl) fun m _ => .ok fun i => rfl

theorem rw_gas (conv : Conv) : Rw (n := n) FluidKind.row (parseGas conv) (parseGas conv) := by
  intro v hv hl
  unfold parseGas
  refine .bind (rw_args _ v) fun a ha => ?_
  have hc := args_clean hv hl ha
  refine .seq (rw_tagged hc _) ?_
  exact .bind (rw_required (rw_toCol conv) hc _) fun d _ => .ok fun i => rfl

theorem rw_brine (conv : Conv) : Rw (n := n) FluidKind.row (parseBrine conv) (parseBrine conv) := by
  intro v hv hl
  unfold parseBrine
  refine .bind (rw_args _ v) fun a ha => ?_
  have hc := args_clean hv hl ha
  refine .seq (rw_tagged hc _) ?_
  exact .bind (rw_required (rw_toCol conv) hc _) fun d _ => .ok fun i => rfl

theorem rw_oil (conv : Conv) : Rw (n := n) FluidKind.row (parseOil conv) (parseOil conv) := by
  intro v hv hl
  unfold parseOil
  refine .bind (rw_args _ v) fun a ha => ?_
  have hc := args_clean hv hl ha
  refine .seq (rw_tagged hc _) ?_
  exact .bind (rw_required (rw_toCol conv) hc _) fun d _ =>
    .bind (rw_required (rw_toCol conv) hc _) fun d _ =>
    .bind (rw_required (rw_toCol conv) hc _) fun d _ => .ok fun i => rfl

theorem rw_condensate (conv : Conv) : Rw (n := n) FluidKind.row (parseCondensate conv) (parseCondensate conv) := by
  intro v hv hl
  unfold parseCondensate
  refine .bind (rw_args _ v) fun a ha => ?_
  have hc := args_clean hv hl ha
  refine .seq (rw_tagged hc _) ?_
  exact .bind (rw_required (rw_toCol conv) hc _) fun d _ =>
    .bind (rw_required (rw_toCol conv) hc _) fun d _ =>
    .bind (rw_required (rw_toCol conv) hc _) fun d _ => .ok fun i => rfl

/-- Values that do not depend on the row. -/
abbrev fixed {α : Type} : α → Fin n → α := fun a _ => a

theorem fixedBy {α : Type} {x : Except Err α} : RowBy (fixed (n := n)) x (fun _ => x) :=
  constBy (fun _ h _ => h) fun e h => ⟨e, h⟩

theorem rw_bool : Rw (n := n) fixed toBool toBool := by
  intro v _ hl
  cases v with
  | scalar s =>
    have hv : ∀ i, valRow (.scalar s : Val n) i = .scalar s := fun i => by rw [valRow, mapArr]
    simp only [hv]
    cases s <;> simp only [toBool] <;> exact fixedBy
  | str s =>
    have hv : ∀ i, valRow (.str s : Val n) i = .str s := fun i => by rw [valRow, mapArr]
    simp only [hv, toBool]
    exact fixedBy
  | arr s => exact .error fun i => ⟨_, by rw [valRow, mapArr]; rfl⟩
  | dict s => exact .error fun i => ⟨_, by rw [valRow, mapArr]; rfl⟩
  | list s => exact .error fun i => ⟨_, by rw [valRow, mapArr]; rfl⟩

theorem rw_provider : Rw (n := n) fixed toProvider toProvider := by
  intro v _ hl
  cases v with
  | str s =>
    have hv : ∀ i, valRow (.str s : Val n) i = .str s := fun i => by rw [valRow, mapArr]
    simp only [hv, toProvider]
    exact fixedBy
  | scalar s => exact .error fun i => ⟨_, by rw [valRow, mapArr]; rfl⟩
  | arr s => exact .error fun i => ⟨_, by rw [valRow, mapArr]; rfl⟩
  | dict s => exact .error fun i => ⟨_, by rw [valRow, mapArr]; rfl⟩
  | list s => exact .error fun i => ⟨_, by rw [valRow, mapArr]; rfl⟩

theorem rw_method : Rw (n := n) fixed toMethod toMethod := by
  intro v _ hl
  cases v with
  | str s =>
    have hv : ∀ i, valRow (.str s : Val n) i = .str s := fun i => by rw [valRow, mapArr]
    simp only [hv, toMethod]
    exact fixedBy
  | scalar s => exact .error fun i => ⟨_, by rw [valRow, mapArr]; rfl⟩
  | arr s => exact .error fun i => ⟨_, by rw [valRow, mapArr]; rfl⟩
  | dict s => exact .error fun i => ⟨_, by rw [valRow, mapArr]; rfl⟩
  | list s => exact .error fun i => ⟨_, by rw [valRow, mapArr]; rfl⟩

theorem rw_co2 : Rw (n := n) FluidKind.row parseCO2 parseCO2 := by
  intro v hv hl
  unfold parseCO2
  refine .bind (rw_args _ v) fun a ha => ?_
  have hc := args_clean hv hl ha
  refine .seq (rw_tagged hc _) ?_
  exact .bind (rw_defaulted rw_bool hc _ fun _ => rfl) fun b _ => .ok fun i => rfl

theorem rw_materialType (conv : Conv) :
    Rw (n := n) FluidKind.row (parseMaterialType conv) (parseMaterialType conv) := by
  intro v hv hl
  have := firstOf_row (rowA := FluidKind.row (n := n))
    [(parseMaterial conv, parseMaterial conv), (parseGas conv, parseGas conv), (parseOil conv, parseOil conv),
     (parseBrine conv, parseBrine conv), (parseCondensate conv, parseCondensate conv), (parseCO2, parseCO2)] v
    (by
      intro x hx
      simp only [List.mem_cons, List.not_mem_nil, or_false] at hx
      rcases hx with rfl | rfl | rfl | rfl | rfl | rfl
      · exact rw_material conv v hv hl
      · exact rw_gas conv v hv hl
      · exact rw_oil conv v hv hl
      · exact rw_brine conv v hv hl
      · exact rw_condensate conv v hv hl
      · exact rw_co2 v hv hl)
    (by
      apply List.pairwise_iff_forall_sublist.mpr
      intro x y hxy i j a b ha hb
      have hmem : ∀ z ∈ [x, y], z.2 ∈ (materialAlternatives conv : List (Val 1 → _)) := by
        intro z hz
        have := hxy.subset hz
        simp only [List.mem_cons, List.not_mem_nil, or_false] at this
        rcases this with rfl | rfl | rfl | rfl | rfl | rfl <;> simp [materialAlternatives]
      obtain ⟨t, ht, hft, -⟩ := alternative_fits (hmem y (by simp)) ha
      obtain ⟨u, hu, hfu, -⟩ := alternative_fits (hmem x (by simp)) hb
      rw [named_row, named_of_not_list hl] at hft hfu
      obtain rfl : t = u := types_exclusive (only_row.mp hft.only) (all_row.mp hft.all)
        (only_row.mp hfu.only) (all_row.mp hfu.all)
      exact ⟨a, by rw [hu, ← ht]; exact ha⟩)
  exact this

theorem rw_constituent (conv : Conv) :
    Rw (n := n) FluidSpec.row (parseConstituent conv) (parseConstituent conv) := by
  intro v hv hl
  unfold parseConstituent
  refine .bind (rw_args _ v) fun a ha => ?_
  have hc := args_clean hv hl ha
  exact .bind (rw_required (rw_materialType conv) hc _) fun k _ =>
    .bind (rw_defaulted (rw_optional (rw_toCol conv)) hc _ fun _ => rfl) fun f _ =>
    .bind (rw_defaulted (rw_optional rw_provider) hc _ fun _ => rfl) fun m _ => .ok fun i => by
      cases m <;> rfl

theorem rw_minerals (conv : Conv) :
    Rw (n := n) (fun (x : List (FluidSpec n)) i => x.map (·.row i)) (parseMinerals conv) (parseMinerals conv) := by
  intro v hv hl
  unfold parseMinerals
  refine .bind (rw_args _ v) fun a ha => ?_
  exact rw_defaulted_list (rw_listOf (rw_constituent conv)) (args_clean hv hl ha) _ fun i => rfl

def FluidsIn.row (f : FluidsIn n) (i : Fin n) : FluidsIn 1 :=
  ⟨f.temperature.row i, f.constituents.map (·.row i), f.method, f.brieConstant, f.brieGases, f.model⟩

theorem free_float (conv : Conv) : RwFree (n := n) fixed (toFloat conv) (toFloat conv) := by
  intro v hv
  cases v with
  | scalar s =>
    have hv : ∀ i, valRow (.scalar s : Val n) i = .scalar s := fun i => by rw [valRow, mapArr]
    simp only [hv, toFloat]
    exact fixedBy
  | str s =>
    have hv : ∀ i, valRow (.str s : Val n) i = .str s := fun i => by rw [valRow, mapArr]
    simp only [hv, toFloat]
    exact fixedBy
  | arr a => rw [ArrFree] at hv; exact hv.elim
  | dict s => exact .error fun i => ⟨_, by rw [valRow, mapArr]; rfl⟩
  | list s => exact .error fun i => ⟨_, by rw [valRow, mapArr]; rfl⟩

theorem free_int (conv : Conv) : RwFree (n := n) fixed (toInt conv) (toInt conv) := by
  intro v hv
  cases v with
  | scalar s =>
    have hv : ∀ i, valRow (.scalar s : Val n) i = .scalar s := fun i => by rw [valRow, mapArr]
    simp only [hv, toInt]
    exact fixedBy
  | str s =>
    have hv : ∀ i, valRow (.str s : Val n) i = .str s := fun i => by rw [valRow, mapArr]
    simp only [hv, toInt]
    exact fixedBy
  | arr a => rw [ArrFree] at hv; exact hv.elim
  | dict s => exact .error fun i => ⟨_, by rw [valRow, mapArr]; rfl⟩
  | list s => exact .error fun i => ⟨_, by rw [valRow, mapArr]; rfl⟩

theorem free_ints (conv : Conv) : RwFree (n := n) fixed (listOf (toInt conv)) (listOf (toInt conv)) := by
  intro v hv
  cases v with
  | list xs =>
    rw [ArrFree] at hv
    simp only [valRow_list, listOf]
    induction xs with
    | nil => exact .ok fun i => rfl
    | cons x xs ih =>
      rw [ArrFreeList] at hv
      simp only [listRow_cons, eachOf]
      exact .bind (free_int conv x hv.1) fun y _ => .bind (ih hv.2) fun ys _ => .ok fun i => rfl
  | scalar s => exact .error fun i => ⟨_, by rw [valRow, mapArr]; rfl⟩
  | str s => exact .error fun i => ⟨_, by rw [valRow, mapArr]; rfl⟩
  | arr a => rw [ArrFree] at hv; exact hv.elim
  | dict s => exact .error fun i => ⟨_, by rw [valRow, mapArr]; rfl⟩

theorem rw_fluids (conv : Conv) : Rw (n := n) FluidsIn.row (parseFluids conv) (parseFluids conv) := by
  intro v hv hl
  unfold parseFluids
  refine .bind (rw_args _ v) fun a ha => ?_
  have hc := args_clean hv hl ha
  exact .bind (rw_defaulted (rw_toCol conv) hc _ fun i => rfl) fun t _ =>
    .bind (rw_defaulted_list (rw_listOf (rw_constituent conv)) hc _ fun i => rfl) fun cs _ =>
    .bind (rw_defaulted rw_method hc _ fun i => rfl) fun m _ =>
    .bind (free_defaulted (free_float conv) hc _ (by decide) fun i => rfl) fun b _ =>
    .bind (rowA := fun (x : Option (List ℤ)) _ => x.map fun a => a)
      (free_defaulted (fun v hv => optionalBy (free_ints conv v hv)) hc _ (by decide) fun i => rfl) fun g _ =>
    .bind (rw_defaulted rw_provider hc _ fun i => rfl) fun p _ => .ok fun i => by cases g <;> rfl

end OPE.Parse
