import Verif.Props.ParseRows2

/-!
# Row-wise parsing of coefficients, models and the whole configuration (C87)
-/

namespace OPE.Parse

open Classical Spec

variable {n : ℕ} [NeZero n]

/-! ### Coefficients -/

omit [NeZero n] in
mutual
theorem shape_free (conv : Conv) (i : Fin n) : (v : Val n) → ArrFree v → shape conv (valRow v i) = shape conv v
  | .scalar .null, _ => by simp only [valRow, mapArr, shape]
  | .scalar (.num _), _ => by simp only [valRow, mapArr, shape]
  | .scalar (.bool _), _ => by simp only [valRow, mapArr, shape]
  | .scalar .other, _ => by simp only [valRow, mapArr, shape]
  | .str s, _ => by simp only [valRow, mapArr, shape]
  | .arr _, h => by rw [ArrFree] at h; exact h.elim
  | .list xs, h => by
    rw [ArrFree] at h
    rw [valRow_list, shape, shape]
    exact shapes_free conv i xs h
  | .dict xs, h => by rw [valRow_dict, shape, shape]
theorem shapes_free (conv : Conv) (i : Fin n) : (xs : List (Val n)) → ArrFreeList xs →
    shapes conv (listRow xs i) = shapes conv xs
  | [], _ => by simp only [listRow, mapArrList, shapes]
  | x :: xs, h => by
    rw [ArrFreeList] at h
    rw [listRow_cons, shapes, shapes, shape_free conv i x h.1, shapes_free conv i xs h.2]
end

omit [NeZero n] in
theorem valRow_eq {v : Val n} (h : ArrFree v) (i j : Fin n) : valRow v i = valRow v j := mapArr_congr _ _ v h

theorem free_anyArray (conv : Conv) : RwFree (n := n) valRow (anyArray conv) (anyArray conv) := by
  intro v hv
  unfold anyArray
  simp only [shape_free conv _ v hv]
  cases shape conv v with
  | none => exact .error fun i => ⟨_, rfl⟩
  | some s => exact .ok fun i => rfl

def CoefIn.row (k : CoefIn n) (i : Fin n) : CoefIn 1 :=
  ⟨k.useModuli, k.coef.density.map (valRow · i), k.coef.primary.map (valRow · i),
    k.coef.secondary.map (valRow · i)⟩

omit [NeZero n] in
theorem arrFree_lookup {xs : List (String × Val n)} (h : ArrFreeDict xs) {key : String} {x : Val n}
    (hx : xs.lookup key = some x) : ArrFree x := by
  induction xs with
  | nil => cases hx
  | cons y xs ih =>
    obtain ⟨k, y⟩ := y
    rw [ArrFreeDict] at h
    rw [List.lookup] at hx
    cases hk : key == k
    · rw [hk] at hx; exact ih h.2 hx
    · rw [hk] at hx
      injection hx with hx; subst hx
      exact h.1

/-- Keyword arguments without any array. -/
def FreeArgs (a : Args n) : Prop := ∀ key x, a key = some x → ArrFree x

omit [NeZero n] in
theorem named_free {fields : List String} {v : Val n} (hv : ArrFree v) : ArrFree (named fields v) := by
  cases v with
  | list vs =>
    unfold named
    dsimp only
    split
    · rw [ArrFree] at hv
      show ArrFreeDict _
      rename_i hle; clear hle
      induction fields generalizing vs with
      | nil => trivial
      | cons f fields ih =>
        cases vs with
        | nil => trivial
        | cons v vs =>
          rw [ArrFreeList] at hv
          rw [List.zip_cons_cons, ArrFreeDict]
          exact ⟨hv.1, ih vs hv.2⟩
    · exact hv
  | _ => exact hv

omit [NeZero n] in
theorem args_free {fields : List String} {v : Val n} {a : Args n} (hv : ArrFree v) (ha : args fields v = .ok a) :
    FreeArgs a := by
  obtain ⟨xs, hx, -, rfl⟩ := args_ok.mp ha
  have hv' : ArrFree (named fields v) := named_free hv
  rw [hx, ArrFree] at hv'
  exact fun key x hx => arrFree_lookup hv' hx

theorem free_coef (conv : Conv) {a : Args n} (ha : FreeArgs a) (key : String) :
    RowBy (fun (x : Option (Val n)) i => x.map (valRow · i))
      (defaulted a key (optional (anyArray conv)) none)
      (fun i => defaulted (argsRow a i) key (optional (anyArray conv)) none) := by
  unfold defaulted argsRow
  cases hk : a key with
  | none => exact .ok fun i => rfl
  | some v => exact optionalBy (free_anyArray conv v (ha key v hk))

omit [NeZero n] in
theorem coef_free {conv : Conv} {a : Args n} (ha : FreeArgs a) {key : String} {x : Option (Val n)}
    (h : defaulted a key (optional (anyArray conv)) none = .ok x) : ∀ v, x = some v → ArrFree v := by
  intro v hx; subst hx
  rcases defaulted_ok.mp h with ⟨-, h⟩ | ⟨y, hy, h⟩
  · cases h
  · rcases optional_given h with ⟨-, h⟩ | ⟨-, z, hz, h⟩
    · cases h
    · injection h with h; subst h
      obtain rfl := anyArray_ok hz
      exact ha key v hy

theorem free_moduli (conv : Conv) : RwFree (n := n) CoefIn.row (parseModuliCoef conv) (parseModuliCoef conv) := by
  intro v hv
  unfold parseModuliCoef
  refine .bind (rw_args _ v) fun a ha => ?_
  have hc := args_free hv ha
  exact .bind (free_coef conv hc _) fun d _ => .bind (free_coef conv hc _) fun d _ =>
    .bind (free_coef conv hc _) fun d _ => .ok fun i => rfl

theorem free_velocity (conv : Conv) :
    RwFree (n := n) CoefIn.row (parseVelocityCoef conv) (parseVelocityCoef conv) := by
  intro v hv
  unfold parseVelocityCoef
  refine .bind (rw_args _ v) fun a ha => ?_
  have hc := args_free hv ha
  exact .bind (free_coef conv hc _) fun d _ => .bind (free_coef conv hc _) fun d _ =>
    .bind (free_coef conv hc _) fun d _ => .ok fun i => rfl

theorem free_vpOverVs (conv : Conv) :
    RwFree (n := n) CoefIn.row (parseVpOverVsCoef conv) (parseVpOverVsCoef conv) := by
  intro v hv
  unfold parseVpOverVsCoef
  refine .bind (rw_args _ v) fun a ha => ?_
  have hc := args_free hv ha
  exact .bind (free_coef conv hc _) fun d _ => .bind (free_coef conv hc _) fun d _ =>
    .bind (free_coef conv hc _) fun d _ => .ok fun i => rfl

theorem free_polyfitCoef (conv : Conv) :
    RwFree (n := n) CoefIn.row (parsePolyfitCoef conv) (parsePolyfitCoef conv) := by
  intro v hv
  exact firstOf_row (rowA := CoefIn.row (n := n))
    [(parseModuliCoef conv, parseModuliCoef conv), (parseVelocityCoef conv, parseVelocityCoef conv)] v
    (by
      intro x hx
      simp only [List.mem_cons, List.not_mem_nil, or_false] at hx
      rcases hx with rfl | rfl
      · exact free_moduli conv v hv
      · exact free_velocity conv v hv)
    (by
      apply List.pairwise_iff_forall_sublist.mpr
      intro x y _ i j a b ha hb
      exact ⟨b, by rw [valRow_eq hv i j]; exact hb⟩)

/-- Coefficients without arrays. -/
def CoefIn.Free (k : CoefIn n) : Prop :=
  (∀ v, k.coef.density = some v → ArrFree v) ∧ (∀ v, k.coef.primary = some v → ArrFree v) ∧
    ∀ v, k.coef.secondary = some v → ArrFree v

omit [NeZero n] in
theorem moduli_free {conv : Conv} {v : Val n} (hv : ArrFree v) {k : CoefIn n}
    (h : parseModuliCoef conv v = .ok k) : k.Free := by
  unfold parseModuliCoef at h
  obtain ⟨a, ha, h⟩ := bind_eq_ok.mp h
  obtain ⟨d, hd, h⟩ := bind_eq_ok.mp h
  obtain ⟨p, hp, h⟩ := bind_eq_ok.mp h
  obtain ⟨s, hs, h⟩ := bind_eq_ok.mp h
  injection h with h; subst h
  have hc := args_free hv ha
  exact ⟨coef_free hc hd, coef_free hc hp, coef_free hc hs⟩

omit [NeZero n] in
theorem velocity_free {conv : Conv} {v : Val n} (hv : ArrFree v) {k : CoefIn n}
    (h : parseVelocityCoef conv v = .ok k) : k.Free := by
  unfold parseVelocityCoef at h
  obtain ⟨a, ha, h⟩ := bind_eq_ok.mp h
  obtain ⟨d, hd, h⟩ := bind_eq_ok.mp h
  obtain ⟨p, hp, h⟩ := bind_eq_ok.mp h
  obtain ⟨s, hs, h⟩ := bind_eq_ok.mp h
  injection h with h; subst h
  have hc := args_free hv ha
  exact ⟨coef_free hc hd, coef_free hc hs, coef_free hc hp⟩

omit [NeZero n] in
theorem vpOverVs_free {conv : Conv} {v : Val n} (hv : ArrFree v) {k : CoefIn n}
    (h : parseVpOverVsCoef conv v = .ok k) : k.Free := by
  unfold parseVpOverVsCoef at h
  obtain ⟨a, ha, h⟩ := bind_eq_ok.mp h
  obtain ⟨d, hd, h⟩ := bind_eq_ok.mp h
  obtain ⟨p, hp, h⟩ := bind_eq_ok.mp h
  obtain ⟨s, hs, h⟩ := bind_eq_ok.mp h
  injection h with h; subst h
  have hc := args_free hv ha
  exact ⟨coef_free hc hd, coef_free hc hs, coef_free hc hp⟩

omit [NeZero n] in
theorem polyfitCoef_free {conv : Conv} {v : Val n} (hv : ArrFree v) {k : CoefIn n}
    (h : parsePolyfitCoef conv v = .ok k) : k.Free := by
  rcases parsePolyfitCoef_cases h with hm | ⟨-, hv'⟩
  · exact moduli_free hv hm
  · exact velocity_free hv hv'

omit [NeZero n] in
theorem toReal_free (conv : Conv) (i : Fin n) (v : Val n) (hv : ArrFree v) :
    toReal? conv (valRow v i) = toReal? conv v := by
  cases v with
  | arr a => rw [ArrFree] at hv; exact hv.elim
  | scalar s => simp only [valRow, mapArr, toReal?]
  | str s => simp only [valRow, mapArr, toReal?]
  | list s => simp only [valRow_list, toReal?]
  | dict s => simp only [valRow_dict, toReal?]

omit [NeZero n] in
theorem allSome_free {β : Type} {f : Val n → Option β} {g : Val 1 → Option β} (i : Fin n)
    (h : ∀ v, ArrFree v → g (valRow v i) = f v) (xs : List (Val n)) (hx : ArrFreeList xs) :
    allSome g (listRow xs i) = allSome f xs := by
  induction xs with
  | nil => rfl
  | cons x xs ih =>
    rw [ArrFreeList] at hx
    rw [listRow_cons, allSome, allSome, h x hx.1, ih hx.2]

omit [NeZero n] in
theorem toVector_free (conv : Conv) (i : Fin n) (v : Val n) (hv : ArrFree v) :
    toVector? conv (valRow v i) = toVector? conv v := by
  cases v with
  | arr a => rw [ArrFree] at hv; exact hv.elim
  | scalar s => simp only [valRow, mapArr, toVector?]
  | str s => simp only [valRow, mapArr, toVector?]
  | list s =>
    rw [ArrFree] at hv
    simp only [valRow_list, toVector?]
    exact allSome_free i (fun v hv => toReal_free conv i v hv) s hv
  | dict s => simp only [valRow_dict, toVector?]

omit [NeZero n] in
theorem toCoeffs_free (conv : Conv) (i : Fin n) (v : Val n) (hv : ArrFree v) :
    toCoeffs? conv (valRow v i) = toCoeffs? conv v := by
  unfold toCoeffs?
  rw [toReal_free conv i v hv, toVector_free conv i v hv]
  cases v with
  | arr a => rw [ArrFree] at hv; exact hv.elim
  | scalar s => simp only [valRow, mapArr]
  | str s => simp only [valRow, mapArr]
  | list s =>
    rw [ArrFree] at hv
    simp only [valRow_list]
    rw [allSome_free i (fun v hv => toVector_free conv i v hv) s hv]
  | dict s => simp only [valRow_dict]

theorem free_coeffsOf (conv : Conv) (x : Option (Val n)) (hx : ∀ v, x = some v → ArrFree v) :
    RowBy fixed (coeffsOf conv x) (fun i => coeffsOf conv (x.map (valRow · i))) := by
  cases x with
  | none => exact .ok fun i => rfl
  | some v =>
    simp only [Option.map_some, coeffsOf, toCoeffs_free conv _ v (hx v rfl)]
    exact fixedBy

theorem free_needCoeffsOf (conv : Conv) (x : Option (Val n)) (hx : ∀ v, x = some v → ArrFree v) :
    RowBy fixed (needCoeffsOf conv x) (fun i => needCoeffsOf conv (x.map (valRow · i))) := by
  cases x with
  | none => exact .error fun i => ⟨_, rfl⟩
  | some v =>
    simp only [Option.map_some, needCoeffsOf, toCoeffs_free conv _ v (hx v rfl)]
    exact fixedBy

theorem free_needVectorOf (conv : Conv) (x : Option (Val n)) (hx : ∀ v, x = some v → ArrFree v) :
    RowBy fixed (needVectorOf conv x) (fun i => needVectorOf conv (x.map (valRow · i))) := by
  cases x with
  | none => exact .error fun i => ⟨_, rfl⟩
  | some v =>
    simp only [Option.map_some, needVectorOf, toVector_free conv _ v (hx v rfl)]
    exact fixedBy

/-! ### Models -/

theorem rw_friable (conv : Conv) : Rw (n := n) FriableModel.row (parseFriable conv) (parseFriable conv) := by
  intro v hv hl
  unfold parseFriable
  refine .bind (rw_args _ v) fun a ha => ?_
  have hc := args_clean hv hl ha
  refine .seq (rw_tagged hc _) ?_
  exact .bind (rw_defaulted (rw_toCol conv) hc _ fun i => rfl) fun t _ =>
    .bind (rw_defaulted (rw_toCol conv) hc _ fun i => rfl) fun t _ =>
    .bind (rw_defaulted (rw_optional (rw_toCol conv)) hc _ fun _ => rfl) fun f _ => .ok fun i => by
      cases f <;> rfl

theorem rw_patchy (conv : Conv) : Rw (n := n) PatchyModel.row (parsePatchy conv) (parsePatchy conv) := by
  intro v hv hl
  unfold parsePatchy
  refine .bind (rw_args _ v) fun a ha => ?_
  have hc := args_clean hv hl ha
  refine .seq (rw_tagged hc _) ?_
  exact .bind (rw_defaulted (rw_arbitrary conv) hc _ fun i => rfl) fun t _ =>
    .bind (rw_defaulted (rw_toCol conv) hc _ fun i => rfl) fun t _ =>
    .bind (rw_defaulted (rw_toCol conv) hc _ fun i => rfl) fun t _ =>
    .bind (rw_defaulted (rw_toCol conv) hc _ fun i => rfl) fun t _ =>
    .bind (rw_defaulted (rw_toCol conv) hc _ fun i => rfl) fun t _ =>
    .bind (rw_defaulted (rw_optional (rw_toCol conv)) hc _ fun _ => rfl) fun f _ =>
    .bind (rw_defaulted (rw_toCol conv) hc _ fun i => rfl) fun t _ => .ok fun i => by
      cases f <;> rfl

theorem rw_polyfit2d (conv : Conv) : Rw (n := n) SandModel.row (parsePolyfit2d conv) (parsePolyfit2d conv) := by
  intro v hv hl
  unfold parsePolyfit2d
  refine .bind (rw_args _ v) fun a ha => ?_
  have hc := args_clean hv hl ha
  refine .seq (rw_tagged hc _) ?_
  refine .bind (rowA := fun (x : Option (CoefIn n)) i => x.map (CoefIn.row · i))
    (free_defaulted (fun v hv => optionalBy (free_polyfitCoef conv v hv)) hc _ (by decide) fun i => rfl)
    fun co hco => ?_
  cases co with
  | none => exact .ok fun i => rfl
  | some k =>
    have hk : k.Free := by
      rcases defaulted_ok.mp hco with ⟨-, h⟩ | ⟨y, hy, h⟩
      · cases h
      · rcases optional_given h with ⟨-, h⟩ | ⟨-, z, hz, h⟩
        · cases h
        · injection h with h; subst h
          exact polyfitCoef_free ((hc _ y hy).1 (by decide)) hz
    exact .bind (free_coeffsOf conv _ hk.1) fun d _ => .bind (free_coeffsOf conv _ hk.2.1) fun d _ =>
      .bind (free_coeffsOf conv _ hk.2.2) fun d _ => .ok fun i => rfl

omit [NeZero n] in
/-- A mapping without any key is accepted by the friable sand model. -/
theorem friable_of_empty {conv : Conv} {v : Val n} (h : OnlyKeys v []) :
    ∃ g, parseFriable conv v = .ok g := by
  obtain ⟨xs, rfl, hx⟩ := h
  cases xs with
  | nil => exact ⟨_, rfl⟩
  | cons x xs => exact absurd (hx x List.mem_cons_self) (by simp)

omit [NeZero n] in
theorem only_empty {v : Val n} {ks ls : List String} (h1 : OnlyKeys v ks) (h2 : OnlyKeys v ls)
    (hk : ∀ k ∈ ks, k ∈ ls → k = "type") (hu : ¬ Has v "type") : OnlyKeys v [] := by
  obtain ⟨xs, rfl, hx⟩ := h1
  obtain ⟨ys, hy, h2⟩ := h2
  injection hy with hy; subst hy
  refine ⟨xs, rfl, fun x hm => ?_⟩
  exfalso
  have := hk _ (hx x hm) (h2 x hm)
  exact hu (this ▸ has_of_mem hm)

omit [NeZero n] in
theorem no_type_row {v : Val n} {i : Fin n} (h : ¬ Has v "type") : ¬ Has (valRow v i) "type" :=
  fun hh => h (has_row.mp hh)

omit [NeZero n] in
theorem notList_row {v : Val n} (hl : NotList v) (i : Fin n) : NotList (valRow v i) := by
  cases v with
  | list vs => exact absurd rfl (hl vs)
  | _ => rw [valRow, mapArr]; exact fun vs h => (nomatch h)

omit [NeZero n] in
theorem patchy_friable_rows {conv : Conv} {v : Val n} (hl : NotList v) {i j : Fin n} {f : FriableModel 1} {g : PatchyModel 1}
    (hf : parseFriable conv (valRow v i) = .ok f) (hg : parsePatchy conv (valRow v j) = .ok g) :
    ∃ g, parsePatchy conv (valRow v i) = .ok g := by
  have h1 := (parseFriable_fits hf).2
  have h2 := (parsePatchy_fits hg).2
  rw [named_of_not_list (notList_row hl _)] at h1 h2
  exact patchy_of_friable (notList_row hl i) hf (no_type_row (tag_row h1 h2 (by decide)))

theorem rw_sandstone (conv : Conv) : Rw (n := n) SandModel.row (parseSandstone conv) (parseSandstone conv) := by
  intro v hv hl
  refine firstOf_row (rowA := SandModel.row (n := n))
    [(into .patchy (parsePatchy conv), into .patchy (parsePatchy conv)),
     (into .friable (parseFriable conv), into .friable (parseFriable conv)),
     (parsePolyfit2d conv, parsePolyfit2d conv)] v ?_ ?_
  · intro x hx
    simp only [List.mem_cons, List.not_mem_nil, or_false] at hx
    rcases hx with rfl | rfl | rfl
    · exact intoBy (rw_patchy conv v hv hl) fun a i => rfl
    · exact intoBy (rw_friable conv v hv hl) fun a i => rfl
    · exact rw_polyfit2d conv v hv hl
  · simp only [List.pairwise_cons, List.mem_cons, List.not_mem_nil, or_false, forall_eq_or_imp, forall_eq,
      List.Pairwise.nil, and_true, IsEmpty.forall_iff, implies_true]
    refine ⟨⟨fun i j a b ha hb => ?_, fun i j a b ha hb => ?_⟩, fun i j a b ha hb => ?_⟩
    · obtain ⟨f, hf, -⟩ := into_ok.mp ha
      obtain ⟨g, hg, -⟩ := into_ok.mp hb
      obtain ⟨g', hg'⟩ := patchy_friable_rows hl hf hg
      exact ⟨_, into_ok.mpr ⟨g', hg', rfl⟩⟩
    · obtain ⟨g, hg, -⟩ := into_ok.mp hb
      obtain ⟨h1, h2, -⟩ := parsePolyfit2d_fits ha
      obtain ⟨h3, h4⟩ := parsePatchy_fits hg
      rw [named_of_not_list (notList_row hl _)] at h1 h2 h3 h4
      obtain ⟨g', hg'⟩ := patchy_of_empty (conv := conv) (v := valRow v i) (only_empty h1
        (only_row.mpr (only_row.mp h3)) (by decide) (no_type_row (tag_row h2 h4 (by decide))))
      exact ⟨_, into_ok.mpr ⟨g', hg', rfl⟩⟩
    · obtain ⟨g, hg, -⟩ := into_ok.mp hb
      obtain ⟨h1, h2, -⟩ := parsePolyfit2d_fits ha
      obtain ⟨h3, h4⟩ := parseFriable_fits hg
      rw [named_of_not_list (notList_row hl _)] at h1 h2 h3 h4
      obtain ⟨g', hg'⟩ := friable_of_empty (conv := conv) (v := valRow v i) (only_empty h1
        (only_row.mpr (only_row.mp h3)) (by decide) (no_type_row (tag_row h2 h4 (by decide))))
      exact ⟨_, into_ok.mpr ⟨g', hg', rfl⟩⟩

def PDIn.row (m : PDIn n) (i : Fin n) : PDIn 1 :=
  match m with
  | .patchy f => .patchy (f.row i)
  | .friable f => .friable (f.row i)
  | .fit kind k => .fit kind (k.row i)

theorem rw_fit (conv : Conv) (kind : FitKind) : Rw (n := n) PDIn.row (parseFit conv kind) (parseFit conv kind) := by
  intro v hv hl
  unfold parseFit
  refine .bind (rw_args _ v) fun a ha => ?_
  have hc := args_clean hv hl ha
  refine .seq (rw_tagged hc _) ?_
  refine .bind (rowA := CoefIn.row (n := n)) (free_required ?_ hc _ (by decide)) fun k _ => .ok fun i => rfl
  cases kind
  · exact free_vpOverVs conv
  · exact free_polyfitCoef conv
  · exact free_polyfitCoef conv
  · exact free_polyfitCoef conv

omit [NeZero n] in
theorem args_row (fields : List String) (v : Val n) (i : Fin n) :
    args fields (valRow v i) = (args fields v >>= fun a => .ok (argsRow a i)) := by
  unfold args
  rw [named_row]
  generalize named fields v = v
  cases v with
  | dict xs =>
    simp only [valRow_dict]
    have hkeys : ((dictRow xs i).all fun x => decide (x.1 ∈ fields)) = xs.all fun x => decide (x.1 ∈ fields) := by
      have : ∀ {T : Type} (l : List (String × T)), (l.all fun x => decide (x.1 ∈ fields))
          = (l.map Prod.fst).all fun k => decide (k ∈ fields) := fun l => by
        rw [List.all_map]; rfl
      rw [this, this, dictRow, mapArrDict_keys]
    rw [hkeys]
    by_cases hx : (xs.all fun x => decide (x.1 ∈ fields)) = true
    · rw [if_pos hx, if_pos hx, bind_ok]
      congr 1
      funext k
      rw [dictRow, mapArrDict_lookup]; rfl
    · rw [if_neg hx, if_neg hx]; rfl
  | scalar s => rw [valRow, mapArr]; rfl
  | str s => rw [valRow, mapArr]; rfl
  | arr s => rw [valRow, mapArr]; rfl
  | list s => rw [valRow, mapArr]; rfl

omit [NeZero n] in
theorem tagged_row (a : Args n) (tag : String) (i : Fin n) : tagged (argsRow a i) tag = tagged a tag := by
  unfold tagged defaulted argsRow
  cases a "type" with
  | none => rfl
  | some x => cases x <;> simp only [Option.map_some, valRow, mapArr, literal]

/-- A fit section reads the same in every row. -/
theorem fit_same (conv : Conv) (kind : FitKind) (v : Val n) (hv : Clean v) (hl : NotList v) (i j : Fin n) :
    parseFit conv kind (valRow v i) = parseFit conv kind (valRow v j) := by
  unfold parseFit
  rw [args_row, args_row]
  cases ha : args ["coefficients", "type"] v with
  | error e => rfl
  | ok a =>
    simp only [bind_ok, tagged_row]
    have : argsRow a i "coefficients" = argsRow a j "coefficients" := by
      unfold argsRow
      cases hk : a "coefficients" with
      | none => rfl
      | some x => exact congrArg some (valRow_eq ((args_clean hv hl ha _ x hk).1 (by decide)) i j)
    unfold required
    rw [this]

theorem rw_pdModel (conv : Conv) : Rw (n := n) PDIn.row (parsePDModel conv) (parsePDModel conv) := by
  intro v hv hl
  refine firstOf_row (rowA := PDIn.row (n := n))
    [(into .patchy (parsePatchy conv), into .patchy (parsePatchy conv)),
     (into .friable (parseFriable conv), into .friable (parseFriable conv)),
     (parseFit conv .powerfit, parseFit conv .powerfit), (parseFit conv .logfit, parseFit conv .logfit),
     (parseFit conv .polyfit, parseFit conv .polyfit), (parseFit conv .expfit, parseFit conv .expfit)] v ?_ ?_
  · intro x hx
    simp only [List.mem_cons, List.not_mem_nil, or_false] at hx
    rcases hx with rfl | rfl | rfl | rfl | rfl | rfl
    · exact intoBy (rw_patchy conv v hv hl) fun a i => rfl
    · exact intoBy (rw_friable conv v hv hl) fun a i => rfl
    · exact rw_fit conv _ v hv hl
    · exact rw_fit conv _ v hv hl
    · exact rw_fit conv _ v hv hl
    · exact rw_fit conv _ v hv hl
  · have hpf : ∀ (kind : FitKind) (i j : Fin n) (a b : PDIn 1), parseFit conv kind (valRow v i) = .ok a →
        into PDIn.patchy (parsePatchy conv) (valRow v j) = .ok b →
        ∃ c, into PDIn.patchy (parsePatchy conv) (valRow v i) = .ok c := by
      intro kind i j a b ha hb
      obtain ⟨g, hg, -⟩ := into_ok.mp hb
      have h1 := (parsePatchy_fits hg).1
      have h2 := (parseFit_fits ha).2.2.1
      rw [named_of_not_list (notList_row hl _)] at h1 h2
      exact absurd ((only_row.mp h1).mem (has_row.mp h2)) (by decide)
    have hff : ∀ (kind : FitKind) (i j : Fin n) (a b : PDIn 1), parseFit conv kind (valRow v i) = .ok a →
        into PDIn.friable (parseFriable conv) (valRow v j) = .ok b →
        ∃ c, into PDIn.friable (parseFriable conv) (valRow v i) = .ok c := by
      intro kind i j a b ha hb
      obtain ⟨g, hg, -⟩ := into_ok.mp hb
      have h1 := (parseFriable_fits hg).1
      have h2 := (parseFit_fits ha).2.2.1
      rw [named_of_not_list (notList_row hl _)] at h1 h2
      exact absurd ((only_row.mp h1).mem (has_row.mp h2)) (by decide)
    have hkk : ∀ (k1 k2 : FitKind) (i j : Fin n) (a b : PDIn 1), parseFit conv k2 (valRow v i) = .ok a →
        parseFit conv k1 (valRow v j) = .ok b → ∃ c, parseFit conv k1 (valRow v i) = .ok c :=
      fun k1 k2 i j a b _ hb => ⟨b, by rw [fit_same conv k1 v hv hl i j]; exact hb⟩
    simp only [List.pairwise_cons, List.mem_cons, List.not_mem_nil, or_false, forall_eq_or_imp, forall_eq,
      List.Pairwise.nil, and_true, IsEmpty.forall_iff, implies_true]
    refine ⟨⟨fun i j a b ha hb => ?_, hpf _, hpf _, hpf _, hpf _⟩, ⟨hff _, hff _, hff _, hff _⟩,
      ⟨hkk _ _, hkk _ _, hkk _ _⟩, ⟨hkk _ _, hkk _ _⟩, hkk _ _⟩
    obtain ⟨f, hf, -⟩ := into_ok.mp ha
    obtain ⟨g, hg, -⟩ := into_ok.mp hb
    obtain ⟨g', hg'⟩ := patchy_friable_rows hl hf hg
    exact ⟨_, into_ok.mpr ⟨g', hg', rfl⟩⟩

omit [NeZero n] in
theorem pdModel_free {conv : Conv} {v : Val n} (hv : Clean v) (hl : NotList v) {kind : FitKind} {k : CoefIn n}
    (h : parsePDModel conv v = .ok (.fit kind k)) : k.Free := by
  rcases parsePDModel_cases h with ⟨f, hf, e⟩ | ⟨-, f, hf, e⟩ | ⟨kind', hf, -⟩
  · cases e
  · cases e
  · obtain ⟨-, -, -, co, e⟩ := parseFit_fits hf
    injection e with e1 e2; subst e1; subst e2
    obtain ⟨u, hu, hc⟩ := parseFit_given hf
    rw [named_of_not_list hl] at hu
    obtain ⟨xs, rfl, hx⟩ := hu
    rw [Clean] at hv
    have hfree := (cleanDict_lookup hv hx).1 (by decide)
    split at hc
    · exact vpOverVs_free hfree hc
    · exact polyfitCoef_free hfree hc

theorem toModel_row (conv : Conv) (m : PDIn n) (hm : ∀ kind k, m = .fit kind k → k.Free) :
    RowBy PDModel.row (m.toModel conv) (fun i => (m.row i).toModel conv) := by
  cases m with
  | patchy f => exact .ok fun i => rfl
  | friable f => exact .ok fun i => rfl
  | fit kind k =>
    obtain ⟨h1, h2, h3⟩ := hm kind k rfl
    unfold PDIn.toModel
    dsimp only [PDIn.row]
    refine .bind (free_needVectorOf conv _ h1) fun d _ => .bind (free_needVectorOf conv _ h2) fun p _ =>
      .bind (free_needVectorOf conv _ h3) fun s _ => .seq .const ?_
    cases kind with
    | polyfit => exact .ok fun i => rfl
    | expfit =>
      exact .bind fixedBy fun d _ => .bind fixedBy fun p _ => .bind fixedBy fun s _ => .ok fun i => rfl
    | logfit =>
      exact .bind fixedBy fun d _ => .bind fixedBy fun p _ => .bind fixedBy fun s _ => .ok fun i => rfl
    | powerfit =>
      exact .bind fixedBy fun d _ => .bind fixedBy fun p _ => .bind fixedBy fun s _ => .ok fun i => rfl

theorem rw_pressureDependency (conv : Conv) :
    Rw (n := n) Adjustment.row (parsePressureDependency conv) (parsePressureDependency conv) := by
  intro v hv hl
  unfold parsePressureDependency
  refine .bind (rw_args _ v) fun a ha => ?_
  have hc := args_clean hv hl ha
  refine .seq (rw_tagged hc _) ?_
  refine .bind (rw_required (rw_pdModel conv) hc _) fun m hm => ?_
  refine .bind (toModel_row conv m ?_) fun m' _ => .ok fun i => rfl
  rintro kind k rfl
  obtain ⟨w, hw, hm⟩ := required_ok.mp hm
  exact pdModel_free ((hc "model" w hw).2 (by decide)).1 (((hc "model" w hw).2 (by decide)).2 (by decide)) hm

theorem rw_depthTrend (conv : Conv) :
    Rw (n := n) Adjustment.row (parseDepthTrend conv) (parseDepthTrend conv) := by
  intro v hv hl
  unfold parseDepthTrend
  refine .bind (rw_args _ v) fun a ha => ?_
  have hc := args_clean hv hl ha
  refine .seq (rw_tagged hc _) ?_
  refine .bind (rw_required (rw_toCol conv) hc _) fun d _ => ?_
  refine .bind (free_required (free_polyfitCoef conv) hc _ (by decide)) fun k hk => ?_
  have hkf : k.Free := by
    obtain ⟨w, hw, hk⟩ := required_ok.mp hk
    exact polyfitCoef_free ((hc _ w hw).1 (by decide)) hk
  exact .bind (rw_defaulted (rw_optional (rw_toCol conv)) hc _ fun _ => rfl) fun r _ =>
    .bind (rw_defaulted (rw_optional (rw_toCol conv)) hc _ fun _ => rfl) fun m _ =>
    .bind (free_needCoeffsOf conv _ hkf.1) fun d _ => .bind (free_needCoeffsOf conv _ hkf.2.1) fun d _ =>
    .bind (free_needCoeffsOf conv _ hkf.2.2) fun d _ => .ok fun i => rfl

theorem rw_adjustment (conv : Conv) :
    Rw (n := n) Adjustment.row (parseAdjustment conv) (parseAdjustment conv) := by
  intro v hv hl
  refine firstOf_row (rowA := Adjustment.row (n := n))
    [(parseDepthTrend conv, parseDepthTrend conv),
     (parsePressureDependency conv, parsePressureDependency conv)] v ?_ ?_
  · intro x hx
    simp only [List.mem_cons, List.not_mem_nil, or_false] at hx
    rcases hx with rfl | rfl
    · exact rw_depthTrend conv v hv hl
    · exact rw_pressureDependency conv v hv hl
  · simp only [List.pairwise_cons, List.mem_cons, List.not_mem_nil, or_false, forall_eq_or_imp, forall_eq,
      List.Pairwise.nil, and_true, IsEmpty.forall_iff, implies_true]
    intro i j a b ha hb
    exfalso
    unfold parsePressureDependency at ha
    obtain ⟨x, hx, ha⟩ := bind_eq_ok.mp ha
    obtain ⟨_, -, ha⟩ := bind_eq_ok.mp ha
    obtain ⟨m, hm, -⟩ := bind_eq_ok.mp ha
    obtain ⟨w, hw, -⟩ := required_ok.mp hm
    unfold parseDepthTrend at hb
    obtain ⟨y, hy, -⟩ := bind_eq_ok.mp hb
    have h1 := (args_given hx).mp hw
    have h2 := args_only hy
    rw [named_of_not_list (notList_row hl _)] at h1 h2
    exact absurd ((only_row.mp h2).mem (has_row.mp ⟨w, h1⟩)) (by decide)

def DryRockIn.row (d : DryRockIn n) (i : Fin n) : DryRockIn 1 :=
  ⟨d.model.row i, d.porosity.row i, d.adjustments.map (·.row i)⟩

theorem rw_dryRock (conv : Conv) : Rw (n := n) DryRockIn.row (parseDryRock conv) (parseDryRock conv) := by
  intro v hv hl
  unfold parseDryRock
  refine .bind (rw_args _ v) fun a ha => ?_
  have hc := args_clean hv hl ha
  exact .bind (rw_defaulted (rw_sandstone conv) hc _ fun i => rfl) fun m _ =>
    .bind (rw_defaulted (rw_toCol conv) hc _ fun i => rfl) fun p _ =>
    .bind (rw_defaulted_list (rw_listOf (rw_adjustment conv)) hc _ fun i => rfl) fun l _ => .ok fun i => rfl

def PressureIn.row (p : PressureIn n) (i : Fin n) : PressureIn 1 :=
  ⟨p.overburden.row i, p.reference.row i, Option.colRow p.fluid i, Option.colRow p.maxEffective i,
    Option.colRow p.rock i⟩

theorem rw_pressure (conv : Conv) : Rw (n := n) PressureIn.row (parsePressure conv) (parsePressure conv) := by
  intro v hv hl
  unfold parsePressure
  refine .bind (rw_args _ v) fun a ha => ?_
  have hc := args_clean hv hl ha
  exact .bind (rw_defaulted (rw_toCol conv) hc _ fun i => rfl) fun m _ =>
    .bind (rw_defaulted (rw_toCol conv) hc _ fun i => rfl) fun p _ =>
    .bind (rw_defaulted (rw_optional (rw_toCol conv)) hc _ fun _ => rfl) fun r _ =>
    .bind (rw_defaulted (rw_optional (rw_toCol conv)) hc _ fun _ => rfl) fun r _ =>
    .bind (rw_defaulted (rw_optional (rw_toCol conv)) hc _ fun _ => rfl) fun m _ => .ok fun i => rfl

theorem toMinerals_row (xs : List (FluidSpec n)) :
    RowBy (fun (x : List (MineralIn n)) i => x.map (·.row i)) (toMinerals xs)
      (fun i => toMinerals (xs.map (·.row i))) := by
  induction xs with
  | nil => exact .ok fun i => rfl
  | cons x xs ih =>
    simp only [List.map_cons, toMinerals]
    refine .bind (rowA := MineralIn.row (n := n)) ?_ fun y _ => .bind ih fun ys _ => .ok fun i => rfl
    unfold toMineral
    obtain ⟨k, m, f⟩ := x
    cases k with
    | material m => exact .ok fun i => rfl
    | _ => exact .error fun i => ⟨_, rfl⟩

theorem parseSections_row (conv : Conv) (m f d p : Val n) (hm : Clean m ∧ NotList m) (hf : Clean f ∧ NotList f)
    (hd : Clean d ∧ NotList d) (hp : Clean p ∧ NotList p) : RowBy Sections.row (parseSections conv m f d p)
      (fun i => parseSections conv (valRow m i) (valRow f i) (valRow d i) (valRow p i)) := by
  unfold parseSections
  exact .bind (rw_minerals conv m hm.1 hm.2) fun m _ => .bind (rw_fluids conv f hf.1 hf.2) fun f _ =>
    .bind (rw_dryRock conv d hd.1 hd.2) fun d _ => .bind (rw_pressure conv p hp.1 hp.2) fun p _ =>
    .bind (toMinerals_row m) fun m _ => .ok fun i => rfl

/-! ### The whole configuration -/

omit [NeZero n] in
theorem valRow_raw (x : Yaml) (i : Fin n) :
    valRow (mapArr Empty.elim x : Val n) i = mapArr Empty.elim x := by
  rw [valRow, mapArr_comp]
  congr 1
  funext e; exact e.elim

omit [NeZero n] in
theorem noColumn_lookup {xs : List (String × Yaml)} (h : NoColumnInGlobals (.dict xs : Yaml)) (key : String) :
    NoColumnInGlobals ((xs.lookup key).getD (.dict [])) := by
  cases hl : xs.lookup key with
  | none =>
    intro p ys hp e he
    match p with
    | [] => simp only [at?, Option.getD_none] at hp; injection hp with hp; injection hp with hp; subst hp; cases he
    | i :: p => simp [at?, child] at hp
  | some x =>
    obtain ⟨i, hi⟩ : ∃ i : ℕ, child (.dict xs : Yaml) i = some x := by
      clear h
      induction xs with
      | nil => cases hl
      | cons y ys ih =>
        obtain ⟨k, y⟩ := y
        rw [List.lookup] at hl
        cases hk : key == k
        · rw [hk] at hl
          obtain ⟨i, hi⟩ := ih hl
          exact ⟨i + 1, hi⟩
        · rw [hk] at hl
          exact ⟨0, hl⟩
    exact noColumn_child h hi

omit [NeZero n] in
theorem noListed_lookup {xs : List (String × Yaml)} (h : NoListedValues (.dict xs : Yaml)) (key : String)
    (hkey : key ∉ globalKeys) (hkey2 : key ∉ listKeys) : NoListedValues ((xs.lookup key).getD (.dict [])) := by
  cases hl : xs.lookup key with
  | none =>
    rw [Option.getD_none]
    refine ⟨fun _ h => (nomatch h), fun d hd e he => ?_⟩
    cases hd with
    | here => cases he
    | dict hx => cases hx
  | some x =>
    have hm : (key, x) ∈ xs := by
      clear h
      induction xs with
      | nil => cases hl
      | cons y ys ih =>
        obtain ⟨k, y⟩ := y
        rw [List.lookup] at hl
        cases hk : key == k
        · rw [hk] at hl
          exact List.mem_cons_of_mem _ (ih hl)
        · rw [hk] at hl
          injection hl with hl
          rw [beq_iff_eq] at hk
          subst hl; subst hk
          exact List.mem_cons_self
    have := noListed_dict h.listsHoldMaps _ hm hkey
    exact ⟨this.2 hkey2, this.1.2⟩

omit [NeZero n] in
theorem within_mapArr {A B : Type} {f : A → B} {x : Cfg Scalar A} {y : Cfg Scalar B}
    (h : Within (mapArr f x) y) : ∃ z, Within x z ∧ y = mapArr f z := by
  generalize hw : mapArr f x = w at h
  induction h generalizing x with
  | here => exact ⟨x, .here _, hw.symm⟩
  | list hx _ ih =>
    cases x with
    | list xs =>
      rw [mapArr] at hw
      injection hw with hw
      subst hw
      obtain ⟨i, hi⟩ := List.getElem?_of_mem hx
      rw [mapArrList_get] at hi
      obtain ⟨a, ha, hi⟩ := Option.map_eq_some_iff.mp hi
      obtain ⟨z, hz, rfl⟩ := ih hi
      exact ⟨z, .list (List.mem_of_getElem? ha) hz, rfl⟩
    | _ => rw [mapArr] at hw; cases hw
  | dict hx hk _ ih =>
    cases x with
    | dict xs =>
      rw [mapArr] at hw
      injection hw with hw
      subst hw
      obtain ⟨i, hi⟩ := List.getElem?_of_mem hx
      rw [mapArrDict_get] at hi
      obtain ⟨a, ha, hi⟩ := Option.map_eq_some_iff.mp hi
      injection hi with h1 h2
      subst h1
      obtain ⟨z, hz, rfl⟩ := ih h2
      exact ⟨z, .dict (List.mem_of_getElem? ha) hk hz, rfl⟩
    | _ => rw [mapArr] at hw; cases hw

omit [NeZero n] in
theorem noListed_mapArr {A B : Type} {f : A → B} {x : Cfg Scalar A} (h : NoListedValues x) :
    NoListedValues (mapArr f x) := by
  refine ⟨fun ys hy => ?_, fun d hd e he hk ys hy => ?_⟩
  · cases x with
    | list xs => exact h.1 xs rfl
    | _ => rw [mapArr] at hy; cases hy
  · obtain ⟨z, hz, e'⟩ := within_mapArr hd
    cases z with
    | dict zs =>
      rw [mapArr] at e'
      injection e' with e'
      subst e'
      obtain ⟨i, hi⟩ := List.getElem?_of_mem he
      rw [mapArrDict_get] at hi
      obtain ⟨a, ha, rfl⟩ := Option.map_eq_some_iff.mp hi
      dsimp only at hk hy ⊢
      cases hv : a.2 with
      | list vs =>
        obtain ⟨h1, h2⟩ := h.2 zs hz a (List.mem_of_getElem? ha) hk vs hv
        refine ⟨h1, ?_⟩
        rw [hv, mapArr] at hy
        injection hy with hy; subst hy
        intro y hy
        obtain ⟨i, hi⟩ := List.getElem?_of_mem hy
        rw [mapArrList_get] at hi
        obtain ⟨b, hb, rfl⟩ := Option.map_eq_some_iff.mp hi
        obtain ⟨d, rfl⟩ := h2 b (List.mem_of_getElem? hb)
        exact ⟨_, by rw [mapArr]⟩
      | _ => rw [hv, mapArr] at hy; cases hy
    | _ => rw [mapArr] at e'; cases e'

/-- **C87.** Reading a configuration with a data file treats the rows separately: it succeeds exactly when
reading with every single row does, and row `i` of what is read is what is read from row `i` alone.  Global
parameters must not refer to columns, and no per-row parameter or section may be written as a list. -/
theorem C87_reading_row_wise (conv : Conv) (cfg : Yaml) (hcfg : PerRow cfg) (rows : Fin n → DataRow) :
    RowBy Sections.row (reading conv cfg n rows) (fun i => reading conv cfg 1 fun _ => rows i) := by
  unfold reading readWith
  cases cfg with
  | dict xs =>
    dsimp only
    refine .seq .const ?_
    have hsec : ∀ key, RowBy valRow (insertFrame (frameOf rows)
        (mapArr Empty.elim ((xs.lookup key).getD (.dict []))))
        (fun i => insertFrame (frameOf (n := 1) fun _ => rows i)
          (mapArr Empty.elim ((xs.lookup key).getD (.dict [])))) := by
      intro key
      have := insert_row rows (mapArr Empty.elim ((xs.lookup key).getD (.dict [])))
      simpa only [valRow_raw] using this
    have hcl : ∀ key, key ∉ globalKeys → key ∉ listKeys → ∀ y,
        insertFrame (frameOf rows) (mapArr Empty.elim ((xs.lookup key).getD (.dict []))) = .ok y →
        Clean y ∧ NotList y := fun key hkey hkey2 y hy =>
      have hn := noListed_mapArr (f := fun e : Empty => (e.elim : Arr n)) (noListed_lookup hcfg.2 key hkey hkey2)
      ⟨insert_clean _ _ (arrFree_empty _ _) (noColumn_mapArr (noColumn_lookup hcfg.1 key)) hn.listsHoldMaps y hy,
        insert_not_list hn.1 hy⟩
    exact .bind (hsec _) fun m hm => .bind (hsec _) fun f hf => .bind (hsec _) fun d hd =>
      .bind (hsec _) fun p hp =>
        parseSections_row conv m f d p (hcl _ (by decide) (by decide) m hm) (hcl _ (by decide) (by decide) f hf)
          (hcl _ (by decide) (by decide) d hd) (hcl _ (by decide) (by decide) p hp)
  | _ => exact .error fun i => ⟨_, rfl⟩

end OPE.Parse
