import Verif.Spec.Listed
import Verif.Props.Order2
import Verif.Props.MainRaw

/-!
# A list of values is a column (C141)
-/

namespace OPE.Parse

open Classical OPE.Order

variable {n : ℕ} {α β : Type}

/-- After column insertion: some columns of the left value are lists in the right one. -/
inductive ListedV : Option String → Val n → Val n → Prop
  | same (place : Option String) (v : Val n) : ListedV place v v
  | col (key : String) (hkey : key ∉ globalKeys ++ nestedKeys) (x : Fin n → Cell) :
      ListedV (some key) (.arr (.col x)) (.list (List.ofFn fun i => (x i).yaml))
  | list (key : String) (hkey : key ∈ listKeys) (xs ys : List (Val n)) (hlen : xs.length = ys.length)
      (h : ∀ (i : ℕ) x y, xs[i]? = some x → ys[i]? = some y → ListedV none x y) :
      ListedV (some key) (.list xs) (.list ys)
  | dict (place : Option String) (hplace : ∀ key, place = some key → key ∉ globalKeys)
      (xs ys : List (String × Val n)) (hkeys : xs.map Prod.fst = ys.map Prod.fst)
      (h : ∀ (i : ℕ) x y, xs[i]? = some x → ys[i]? = some y → ListedV (some x.1) x.2 y.2) :
      ListedV place (.dict xs) (.dict ys)

theorem ListedV.global {key : String} (hk : key ∈ globalKeys) {v v' : Val n} (h : ListedV (some key) v v') : v = v' := by
  cases h with
  | same => rfl
  | col _ hkey => exact absurd (List.mem_append_left _ hk) hkey
  | list _ hkey =>
    simp only [globalKeys, listKeys, List.mem_cons, List.not_mem_nil, or_false] at hk hkey
    rcases hkey with rfl | rfl <;> simp at hk
  | dict _ hplace => exact absurd hk (hplace key rfl)

/-- Below a key that names a section a relation is one of sections. -/
theorem ListedV.section {key : String} (hn : key ∈ nestedKeys) (hl : key ∉ listKeys) {v v' : Val n}
    (h : ListedV (some key) v v') : ListedV none v v' := by
  cases h with
  | same => exact .same _ _
  | col _ hkey => exact absurd (List.mem_append_right _ hn) hkey
  | list _ hkey => exact absurd hkey hl
  | dict _ hplace xs ys hkeys h => exact .dict _ (by simp) xs ys hkeys h

/-! ### Column insertion -/

theorem insert_cell (t : Frame (Arr n)) (x : Cell) : insertFrame t (x.yaml : Val n) = .ok x.yaml := by
  cases x <;> simp only [Cell.yaml, insertFrame]

theorem insert_cells (t : Frame (Arr n)) (xs : List Cell) :
    insertFrameList t (xs.map Cell.yaml : List (Val n)) = .ok (xs.map Cell.yaml) := by
  induction xs with
  | nil => simp [insertFrameList]
  | cons x xs ih => simp only [List.map_cons, insertFrameList, insert_cell, bind_ok, ih]

/-- Equal errors, or related values. -/
def RelE {γ : Type} (R : γ → γ → Prop) (x y : Except Err γ) : Prop :=
  (∃ e, x = .error e ∧ y = .error e) ∨ ∃ a b, x = .ok a ∧ y = .ok b ∧ R a b

theorem RelE.bind {γ δ : Type} {R : γ → γ → Prop} {Q : δ → δ → Prop} {x y : Except Err γ} {f g : γ → Except Err δ}
    (h : RelE R x y) (hf : ∀ a b, R a b → RelE Q (f a) (g b)) : RelE Q (x >>= f) (y >>= g) := by
  rcases h with ⟨e, h1, h2⟩ | ⟨a, b, h1, h2, h3⟩
  · rw [h1, h2]; exact .inl ⟨e, rfl, rfl⟩
  · rw [h1, h2, bind_ok, bind_ok]; exact hf a b h3

theorem RelE.pure {γ : Type} {R : γ → γ → Prop} {a b : γ} (h : R a b) : RelE R (.ok a) (.ok b) :=
  .inr ⟨a, b, rfl, rfl, h⟩

theorem RelE.rfl' {γ : Type} {R : γ → γ → Prop} (hR : ∀ a, R a a) (x : Except Err γ) : RelE R x x := by
  cases x with
  | error e => exact .inl ⟨e, rfl, rfl⟩
  | ok a => exact .pure (hR a)

/-- Related lists of values. -/
def LList (xs ys : List (Val n)) : Prop :=
  xs.length = ys.length ∧ ∀ (i : ℕ) x y, xs[i]? = some x → ys[i]? = some y → ListedV none x y

/-- Related mappings. -/
def LDict (xs ys : List (String × Val n)) : Prop :=
  xs.map Prod.fst = ys.map Prod.fst ∧
  ∀ (i : ℕ) x y, xs[i]? = some x → ys[i]? = some y → ListedV (some x.1) x.2 y.2

theorem LList.cons {x y : Val n} {xs ys : List (Val n)} (h : ListedV none x y) (hs : LList xs ys) :
    LList (x :: xs) (y :: ys) := by
  refine ⟨by simp [hs.1], fun i a b ha hb => ?_⟩
  cases i with
  | zero => simp at ha hb; subst ha; subst hb; exact h
  | succ i => exact hs.2 i a b (by simpa using ha) (by simpa using hb)

theorem LDict.cons {k : String} {x y : Val n} {xs ys : List (String × Val n)} (h : ListedV (some k) x y)
    (hs : LDict xs ys) : LDict ((k, x) :: xs) ((k, y) :: ys) := by
  refine ⟨by simp [hs.1], fun i a b ha hb => ?_⟩
  cases i with
  | zero => simp at ha hb; subst ha; subst hb; exact h
  | succ i => exact hs.2 i a b (by simpa using ha) (by simpa using hb)

theorem insertList_listed (t : Frame (Arr n)) {xs ys : List Yaml} (hlen : xs.length = ys.length)
    (h : ∀ (i : ℕ) x y, xs[i]? = some x → ys[i]? = some y →
      RelE (ListedV none) (insertFrame t (mapArr Empty.elim x)) (insertFrame t (mapArr Empty.elim y))) :
    RelE LList (insertFrameList t (mapArrList Empty.elim xs)) (insertFrameList t (mapArrList Empty.elim ys)) := by
  induction xs generalizing ys with
  | nil =>
    cases ys with
    | nil => simp only [mapArrList, insertFrameList]; exact .pure ⟨rfl, fun i x y hx => by simp at hx⟩
    | cons => cases hlen
  | cons x xs ih =>
    cases ys with
    | nil => cases hlen
    | cons y ys =>
      simp only [mapArrList, insertFrameList]
      exact .bind (h 0 x y rfl rfl) fun a b hab => .bind (ih (by simpa using hlen) fun i x y hx hy =>
        h (i + 1) x y (by simpa using hx) (by simpa using hy)) fun as bs hs => .pure (.cons hab hs)

theorem insertDict_listed (t : Frame (Arr n)) {xs ys : List (String × Yaml)}
    (hkeys : xs.map Prod.fst = ys.map Prod.fst)
    (h : ∀ (i : ℕ) x y, xs[i]? = some x → ys[i]? = some y →
      RelE (ListedV (some x.1)) (insertFrame t (mapArr Empty.elim x.2)) (insertFrame t (mapArr Empty.elim y.2))) :
    RelE LDict (insertFrameDict t (mapArrDict Empty.elim xs)) (insertFrameDict t (mapArrDict Empty.elim ys)) := by
  induction xs generalizing ys with
  | nil =>
    cases ys with
    | nil =>
      simp only [mapArrDict, insertFrameDict]
      exact .pure ⟨rfl, fun i x y hx => by simp at hx⟩
    | cons => cases hkeys
  | cons x xs ih =>
    cases ys with
    | nil => cases hkeys
    | cons y ys =>
      obtain ⟨k, x⟩ := x
      obtain ⟨k', y⟩ := y
      simp only [List.map_cons, List.cons.injEq] at hkeys
      obtain ⟨rfl, hkeys⟩ := hkeys
      simp only [mapArrDict, insertFrameDict]
      have hx := h 0 (k, x) (k, y) rfl rfl
      dsimp only at hx
      have ih' := ih hkeys fun i x y hx hy => h (i + 1) x y (by simpa using hx) (by simpa using hy)
      exact .bind hx fun a b hab => .bind ih' fun as bs hs => .pure (.cons hab hs)

theorem insert_listed (rows : Fin n → DataRow) {place : Option String} {y y' : Yaml} (h : Listed rows place y y') :
    RelE (ListedV place) (insertFrame (frameOf rows) (mapArr Empty.elim y))
      (insertFrame (frameOf rows) (mapArr Empty.elim y')) := by
  induction h with
  | same p y => exact .rfl' (.same _) _
  | column key hkey name x h =>
    have hc : (frameOf rows).column name = some (.col x) := by
      simp [frameOf, h]
    have h1 : insertFrame (frameOf rows) (mapArr Empty.elim (.dict [("column", .str name)] : Yaml))
        = .ok (.arr (.col x)) := by
      simp [mapArr, mapArrDict, insertFrame, Frame.get, hc, wrapColumnError]
    have h2 : (mapArrList Empty.elim (List.ofFn fun i => (x i).yaml) : List (Val n))
        = (List.ofFn x).map Cell.yaml := by
      rw [mapArrList_eq, List.map_ofFn, List.map_ofFn]
      congr 1
      funext i
      simp only [Function.comp]
      cases x i <;> simp only [Cell.yaml, mapArr]
    rw [h1]
    simp only [mapArr, insertFrame]
    rw [h2, insert_cells, bind_ok]
    refine .pure ?_
    rw [List.map_ofFn]
    exact .col key (fun hk => hkey (List.mem_cons_of_mem _ hk)) x
  | list key hkey xs ys hlen _ ih =>
    simp only [mapArr, insertFrame]
    exact .bind (insertList_listed _ hlen ih) fun a b hab => .pure (.list key hkey a b hab.1 hab.2)
  | dict place hplace xs ys hkeys hr ih =>
    have hplace' : ∀ key, place = some key → key ∉ globalKeys :=
      fun key hk hg => hplace key hk (List.mem_cons_of_mem _ hg)
    have gen : RelE (ListedV place)
        ((insertFrameDict (frameOf rows) (mapArrDict Empty.elim xs)) >>= fun a => .ok (.dict a))
        ((insertFrameDict (frameOf rows) (mapArrDict Empty.elim ys)) >>= fun a => .ok (.dict a)) :=
      .bind (insertDict_listed _ hkeys ih) fun a b hab => .pure (.dict place hplace' a b hab.1 hab.2)
    match xs, ys, hkeys with
    | [], [], _ => simpa only [mapArr, mapArrDict, insertFrame] using gen
    | [(k, x)], [(k', y)], hkeys =>
      simp only [List.map_cons, List.map_nil, List.cons.injEq, and_true] at hkeys
      subst hkeys
      by_cases hk : k = "column"
      · have e : x = y := by
          have := hr 0 (k, x) (k, y) rfl rfl
          dsimp only at this
          subst hk
          cases this with
          | same => rfl
          | column _ hkey => simp at hkey
          | list _ hkey => simp [listKeys] at hkey
          | dict _ hp => exact absurd (by simp) (hp _ rfl)
        subst e
        exact .rfl' (.same _) _
      · have e : ∀ z : Yaml, insertFrame (frameOf rows) (mapArr Empty.elim (.dict [(k, z)])) =
            ((insertFrameDict (frameOf rows) (mapArrDict Empty.elim [(k, z)])) >>= fun a => .ok (.dict a)) := by
          intro z
          simp only [mapArr, mapArrDict, insertFrame, insertFrameDict, if_neg hk]
          cases insertFrame (frameOf rows) (mapArr Empty.elim z) <;> rfl
        rw [e, e]; exact gen
    | x1 :: x2 :: xs, y1 :: y2 :: ys, _ =>
      obtain ⟨k1, x1⟩ := x1; obtain ⟨k2, x2⟩ := x2; obtain ⟨l1, y1⟩ := y1; obtain ⟨l2, y2⟩ := y2
      simpa only [mapArr, mapArrDict, insertFrame] using gen

/-! ### The parsers -/

/-- A parser that does not distinguish a column from a list, for the value of a key. -/
def InvK (key : String) (p : Val n → Except Err α) : Prop := ∀ v v', ListedV (some key) v v' → p v = p v'

/-- A parser of a section that does not distinguish columns from lists in it. -/
def InvL (p : Val n → Except Err α) : Prop := ∀ v v', ListedV none v v' → p v = p v'

/-- Related optional values. -/
def LOpt (key : String) : Option (Val n) → Option (Val n) → Prop
  | none, none => True
  | some x, some y => ListedV (some key) x y
  | _, _ => False

/-- Keyword arguments that are the same but for columns written as lists. -/
def LArgs (a a' : Args n) : Prop := ∀ k, LOpt k (a k) (a' k)

theorem required_listed {a a' : Args n} (h : LArgs a a') {key : String} {p : Val n → Except Err α} (hp : InvK key p) :
    required a key p = required a' key p := by
  unfold required
  have := h key
  revert this
  rcases a key with _ | x <;> rcases a' key with _ | y <;> intro this
  · rfl
  · exact this.elim
  · exact this.elim
  · exact hp x y this

theorem defaulted_listed {a a' : Args n} (h : LArgs a a') {key : String} {p : Val n → Except Err α} (hp : InvK key p)
    (d : α) : defaulted a key p d = defaulted a' key p d := by
  unfold defaulted
  have := h key
  revert this
  rcases a key with _ | x <;> rcases a' key with _ | y <;> intro this
  · rfl
  · exact this.elim
  · exact this.elim
  · exact hp x y this

theorem invK_global {key : String} (hk : key ∈ globalKeys) (p : Val n → Except Err α) : InvK key p := by
  intro v v' h; rw [h.global hk]

theorem invK_section {key : String} (hn : key ∈ nestedKeys) (hl : key ∉ listKeys) {p : Val n → Except Err α}
    (h : InvL p) : InvK key p := fun v v' hv => h v v' (hv.section hn hl)

theorem invK_literal (key tag : String) : InvK key (literal (n := n) tag) := by
  intro v v' h; cases h <;> rfl

theorem tagged_listed {a a' : Args n} (h : LArgs a a') (tag : String) : tagged a tag = tagged a' tag :=
  defaulted_listed h (invK_literal _ tag) _

theorem lookup_listed {xs ys : List (String × Val n)} (h : LDict xs ys) (k : String) :
    LOpt k (xs.lookup k) (ys.lookup k) := by
  induction xs generalizing ys with
  | nil =>
    cases ys with
    | nil => trivial
    | cons => cases h.1
  | cons x xs ih =>
    cases ys with
    | nil => cases h.1
    | cons y ys =>
      obtain ⟨hk, hr⟩ := h
      obtain ⟨k1, x⟩ := x
      obtain ⟨k2, y⟩ := y
      simp only [List.map_cons, List.cons.injEq] at hk
      obtain ⟨rfl, hk⟩ := hk
      simp only [List.lookup]
      by_cases he : k = k1
      · subst he
        simp only [BEq.rfl]
        exact hr 0 _ _ rfl rfl
      · have : (k == k1) = false := by simpa using he
        rw [this]
        exact ih ⟨hk, fun i x y hx hy => hr (i + 1) x y (by simpa using hx) (by simpa using hy)⟩

theorem args_listed (fields : List String) {v v' : Val n} (h : ListedV none v v') :
    (∃ e, args fields v = .error e ∧ args fields v' = .error e) ∨
    ∃ a a', args fields v = .ok a ∧ args fields v' = .ok a' ∧ LArgs a a' := by
  cases h with
  | same =>
    cases hv : args fields v with
    | error e => exact .inl ⟨e, rfl, rfl⟩
    | ok a =>
      refine .inr ⟨a, a, rfl, rfl, fun k => ?_⟩
      cases a k with
      | none => trivial
      | some x => exact .same _ x
  | dict _ _ xs ys hk h =>
    have e : ∀ zs : List (String × Val n), zs.all (fun x => decide (x.1 ∈ fields))
        = (zs.map Prod.fst).all fun k => decide (k ∈ fields) := fun zs => by rw [List.all_map]; rfl
    unfold args
    simp only [named]
    rw [e xs, e ys, hk]
    split
    · exact .inr ⟨_, _, rfl, rfl, fun k => lookup_listed ⟨hk, h⟩ k⟩
    · exact .inl ⟨_, rfl, rfl⟩

theorem invL_dataclass (fields : List String) (g : Args n → Except Err α)
    (hg : ∀ a a', LArgs a a' → g a = g a') : InvL fun v => (args fields v) >>= g := by
  intro v v' h
  rcases args_listed fields h with ⟨e, h1, h2⟩ | ⟨a, a', h1, h2, h3⟩
  · dsimp only; rw [h1, h2, bind_error]
  · dsimp only; rw [h1, h2, bind_ok, bind_ok, hg a a' h3]

theorem invL_firstOf {ps : List (Val n → Except Err α)} (h : ∀ p ∈ ps, InvL p) : InvL (firstOf ps) := by
  intro v v' hv
  induction ps with
  | nil => rfl
  | cons p ps ih =>
    simp only [firstOf]
    rw [h p List.mem_cons_self v v' hv, ih fun q hq => h q (List.mem_cons_of_mem _ hq)]

theorem invL_into {f : α → β} {p : Val n → Except Err α} (h : InvL p) : InvL (into f p) := by
  intro v v' hv; unfold into; rw [h v v' hv]

theorem invK_optional {key : String} {p : Val n → Except Err α} (h : InvK key p) : InvK key (optional p) := by
  intro v v' hv
  have e := h v v' hv
  cases hv with
  | same => rfl
  | col => unfold optional; dsimp only; rw [e]
  | list | dict => unfold optional; dsimp only; rw [e]

theorem invK_listOf {key : String} (hk : key ∈ listKeys) {p : Val n → Except Err α} (h : InvL p) :
    InvK key (listOf p) := by
  intro v v' hv
  cases hv with
  | same => rfl
  | col _ hkey x =>
    exfalso
    simp only [listKeys, List.mem_cons, List.not_mem_nil, or_false] at hk
    rcases hk with rfl | rfl <;> simp [nestedKeys, globalKeys] at hkey
  | dict => rfl
  | list _ _ xs ys hlen hr =>
    unfold listOf
    dsimp only
    induction xs generalizing ys with
    | nil =>
      cases ys with
      | nil => rfl
      | cons => cases hlen
    | cons x xs ih =>
      cases ys with
      | nil => cases hlen
      | cons y ys =>
        simp only [eachOf]
        rw [h x y (hr 0 x y rfl rfl), ih ys (by simpa using hlen) fun i x y hx hy =>
          hr (i + 1) x y (by simpa using hx) (by simpa using hy)]

theorem invK_toCol {key : String} (hk : key ∉ listKeys) (conv : Conv) : InvK key (toCol (n := n) conv) := by
  intro v v' h
  cases h with
  | same => rfl
  | dict => rfl
  | col _ _ x =>
    unfold toCol
    dsimp only
    rw [dif_pos (by simp)]
    congr 1
    funext i
    simp only [List.getElem_ofFn]
    cases x i <;> rfl
  | list _ hkey => exact absurd hkey hk

theorem invK_toBool (key : String) : InvK key (toBool (n := n)) := by
  intro v v' h; cases h <;> rfl

theorem invK_toProvider (key : String) : InvK key (toProvider (n := n)) := by
  intro v v' h; cases h <;> rfl

theorem invK_toMethod (key : String) : InvK key (toMethod (n := n)) := by
  intro v v' h; cases h <;> rfl

section
variable {a a' : Args n} (h : LArgs a a') (conv : Conv)
include h

/-- The three ways a per-row parameter is read. -/
theorem required_col (key : String) (hk : key ∉ listKeys := by decide) :
    required a key (toCol conv) = required a' key (toCol conv) := required_listed h (invK_toCol hk conv)

theorem defaulted_col (key : String) (d : Col n) (hk : key ∉ listKeys := by decide) :
    defaulted a key (toCol conv) d = defaulted a' key (toCol conv) d := defaulted_listed h (invK_toCol hk conv) d

theorem defaulted_opt (key : String) (d : Option (Col n)) (hk : key ∉ listKeys := by decide) :
    defaulted a key (optional (toCol conv)) d = defaulted a' key (optional (toCol conv)) d :=
  defaulted_listed h (invK_optional (invK_toCol hk conv)) d

end

theorem invL_arbitrary (conv : Conv) : InvL (parseArbitrary (n := n) conv) :=
  invL_dataclass _ _ fun a a' h => by
    simp only [tagged_listed h, required_col h conv "density", defaulted_opt h conv "bulk_modulus",
      defaulted_opt h conv "shear_modulus", defaulted_opt h conv "secondary_velocity",
      defaulted_opt h conv "primary_velocity"]

theorem invL_material (conv : Conv) : InvL (parseMaterial (n := n) conv) := by
  intro v v' h; unfold parseMaterial; rw [invL_arbitrary conv v v' h]

theorem invL_gas (conv : Conv) : InvL (parseGas (n := n) conv) :=
  invL_dataclass _ _ fun a a' h => by simp only [tagged_listed h, required_col h conv "gas_gravity"]

theorem invL_oil (conv : Conv) : InvL (parseOil (n := n) conv) :=
  invL_dataclass _ _ fun a a' h => by
    simp only [tagged_listed h, required_col h conv "reference_density", required_col h conv "gas_oil_ratio",
      required_col h conv "gas_gravity"]

theorem invL_brine (conv : Conv) : InvL (parseBrine (n := n) conv) :=
  invL_dataclass _ _ fun a a' h => by simp only [tagged_listed h, required_col h conv "salinity"]

theorem invL_condensate (conv : Conv) : InvL (parseCondensate (n := n) conv) :=
  invL_dataclass _ _ fun a a' h => by
    simp only [tagged_listed h, required_col h conv "oil_reference_density", required_col h conv "gas_oil_ratio",
      required_col h conv "gas_gravity"]

theorem invL_co2 : InvL (parseCO2 (n := n)) :=
  invL_dataclass _ _ fun a a' h => by simp only [tagged_listed h, defaulted_listed h (invK_toBool _)]

theorem invL_materialType (conv : Conv) : InvL (parseMaterialType (n := n) conv) :=
  invL_firstOf (by
    simp only [materialAlternatives, List.forall_mem_cons]
    exact ⟨invL_material conv, invL_gas conv, invL_oil conv, invL_brine conv, invL_condensate conv, invL_co2, by simp⟩)

theorem invL_constituent (conv : Conv) : InvL (parseConstituent (n := n) conv) :=
  invL_dataclass _ _ fun a a' h => by
    simp only [required_listed h (invK_section (key := "material") (by decide) (by decide) (invL_materialType conv)),
      defaulted_opt h conv "fraction", defaulted_listed h (invK_optional (invK_toProvider _))]

theorem invL_minerals (conv : Conv) : InvL (parseMinerals (n := n) conv) :=
  invL_dataclass _ _ fun a a' h => by
    simp only [defaulted_listed h (invK_listOf (key := "constituents") (by decide) (invL_constituent conv))]

theorem invL_fluids (conv : Conv) : InvL (parseFluids (n := n) conv) :=
  invL_dataclass _ _ fun a a' h => by
    simp only [defaulted_listed h (invK_listOf (key := "constituents") (by decide) (invL_constituent conv)),
      defaulted_col h conv "temperature", defaulted_listed h (invK_toMethod _), defaulted_listed h (invK_toProvider _),
      defaulted_listed h (invK_global (key := "brie_constant") (by decide) (toFloat conv)),
      defaulted_listed h (invK_global (key := "brie_gases") (by decide) (optional (listOf (toInt conv))))]

theorem invL_friable (conv : Conv) : InvL (parseFriable (n := n) conv) :=
  invL_dataclass _ _ fun a a' h => by
    simp only [tagged_listed h, defaulted_col h conv "critical_porosity", defaulted_col h conv "shear_reduction",
      defaulted_opt h conv "coordination_number"]

theorem invL_patchy (conv : Conv) : InvL (parsePatchy (n := n) conv) :=
  invL_dataclass _ _ fun a a' h => by
    simp only [tagged_listed h, defaulted_listed h (invK_section (key := "cement") (by decide) (by decide) (invL_arbitrary conv)),
      defaulted_col h conv "critical_porosity", defaulted_col h conv "cement_fraction",
      defaulted_col h conv "lower_bound_pressure", defaulted_col h conv "upper_bound_cement_fraction",
      defaulted_opt h conv "coordination_number", defaulted_col h conv "shear_reduction"]

theorem invL_polyfit2d (conv : Conv) : InvL (parsePolyfit2d (n := n) conv) :=
  invL_dataclass _ _ fun a a' h => by
    rw [tagged_listed h, defaulted_listed h (invK_global (key := "coefficients") (by decide) _)]

theorem invL_sandstone (conv : Conv) : InvL (parseSandstone (n := n) conv) :=
  invL_firstOf (by
    simp only [List.forall_mem_cons]
    exact ⟨invL_into (invL_patchy conv), invL_into (invL_friable conv), invL_polyfit2d conv, by simp⟩)

theorem invL_fit (conv : Conv) (kind : FitKind) : InvL (parseFit (n := n) conv kind) :=
  invL_dataclass _ _ fun a a' h => by
    rw [tagged_listed h, required_listed h (invK_global (key := "coefficients") (by decide) _)]

theorem invL_pdModel (conv : Conv) : InvL (parsePDModel (n := n) conv) :=
  invL_firstOf (by
    simp only [List.forall_mem_cons]
    exact ⟨invL_into (invL_patchy conv), invL_into (invL_friable conv), invL_fit conv _, invL_fit conv _,
      invL_fit conv _, invL_fit conv _, by simp⟩)

theorem invL_pressureDependency (conv : Conv) : InvL (parsePressureDependency (n := n) conv) :=
  invL_dataclass _ _ fun a a' h => by
    rw [tagged_listed h, required_listed h (invK_section (key := "model") (by decide) (by decide) (invL_pdModel conv))]

theorem invL_depthTrend (conv : Conv) : InvL (parseDepthTrend (n := n) conv) :=
  invL_dataclass _ _ fun a a' h => by
    simp only [tagged_listed h, required_col h conv "depth",
      required_listed h (invK_global (key := "coefficients") (by decide) (parsePolyfitCoef conv)),
      defaulted_opt h conv "reference_depth", defaulted_opt h conv "max_depth"]

theorem invL_adjustment (conv : Conv) : InvL (parseAdjustment (n := n) conv) :=
  invL_firstOf (by
    simp only [List.forall_mem_cons]
    exact ⟨invL_depthTrend conv, invL_pressureDependency conv, by simp⟩)

theorem invL_dryRock (conv : Conv) : InvL (parseDryRock (n := n) conv) :=
  invL_dataclass _ _ fun a a' h => by
    simp only [defaulted_listed h (invK_section (key := "model") (by decide) (by decide) (invL_sandstone conv)),
      defaulted_col h conv "porosity",
      defaulted_listed h (invK_listOf (key := "adjustments") (by decide) (invL_adjustment conv))]

theorem invL_pressure (conv : Conv) : InvL (parsePressure (n := n) conv) :=
  invL_dataclass _ _ fun a a' h => by
    simp only [defaulted_col h conv "overburden", defaulted_col h conv "reference", defaulted_opt h conv "fluid",
      defaulted_opt h conv "max_effective", defaulted_opt h conv "rock"]

/-! ### The whole document -/

theorem listed_lookup {rows : Fin n → DataRow} {xs ys : List (String × Yaml)}
    (hkeys : xs.map Prod.fst = ys.map Prod.fst)
    (h : ∀ (i : ℕ) x y, xs[i]? = some x → ys[i]? = some y → Listed rows (some x.1) x.2 y.2) (k : String) :
    Listed rows (some k) ((xs.lookup k).getD (.dict [])) ((ys.lookup k).getD (.dict [])) := by
  induction xs generalizing ys with
  | nil =>
    cases ys with
    | nil => exact .same _ _
    | cons => cases hkeys
  | cons x xs ih =>
    cases ys with
    | nil => cases hkeys
    | cons y ys =>
      obtain ⟨k1, x⟩ := x
      obtain ⟨k2, y⟩ := y
      simp only [List.map_cons, List.cons.injEq] at hkeys
      obtain ⟨rfl, hk⟩ := hkeys
      simp only [List.lookup]
      by_cases he : k = k1
      · subst he
        simp only [BEq.rfl]
        exact h 0 _ _ rfl rfl
      · have : (k == k1) = false := by simpa using he
        rw [this]
        exact ih hk fun i x y hx hy => h (i + 1) x y (by simpa using hx) (by simpa using hy)

/-- **C141.** Writing the values of a column into the configuration as a list, instead of referring to the column
of the data file, changes nothing: the configuration is read as the same input, or refused with the same error. -/
theorem C141_list_is_column (conv : Conv) (rows : Fin n → DataRow) {y y' : Yaml} (h : Listed rows none y y') :
    reading conv y n rows = reading conv y' n rows := by
  unfold reading readWith
  cases h with
  | same => rfl
  | dict _ _ xs ys hkeys h =>
    dsimp only
    have hf : (∃ x ∈ xs, x.1 ∉ ["data", "minerals", "fluids", "dry_rock", "pressure"]) ↔
        ∃ x ∈ ys, x.1 ∉ ["data", "minerals", "fluids", "dry_rock", "pressure"] := by
      have e : ∀ zs : List (String × Yaml), (∃ x ∈ zs, x.1 ∉ ["data", "minerals", "fluids", "dry_rock", "pressure"]) ↔
          ∃ k ∈ zs.map Prod.fst, k ∉ ["data", "minerals", "fluids", "dry_rock", "pressure"] := by
        intro zs; simp
      rw [e, e, hkeys]
    rw [show failIf (∃ x ∈ xs, x.1 ∉ ["data", "minerals", "fluids", "dry_rock", "pressure"]) Err.valueError
      = failIf (∃ x ∈ ys, x.1 ∉ ["data", "minerals", "fluids", "dry_rock", "pressure"]) Err.valueError by
        by_cases hx : ∃ x ∈ xs, x.1 ∉ ["data", "minerals", "fluids", "dry_rock", "pressure"]
        · rw [failIf_true hx, failIf_true (hf.1 hx)]
        · rw [failIf_false hx, failIf_false fun h => hx (hf.2 h)]]
    congr 1
    funext _
    have sec := fun key => insert_listed rows (listed_lookup hkeys h key)
    unfold insertDataframe
    dsimp only
    rcases sec "minerals" with ⟨e, h1, h2⟩ | ⟨m, m', h1, h2, hm⟩
    · rw [h1, h2]; rfl
    rw [h1, h2, bind_ok, bind_ok]
    rcases sec "fluids" with ⟨e, h1, h2⟩ | ⟨f, f', h1, h2, hf⟩
    · rw [h1, h2]; rfl
    rw [h1, h2, bind_ok, bind_ok]
    rcases sec "dry_rock" with ⟨e, h1, h2⟩ | ⟨d, d', h1, h2, hd⟩
    · rw [h1, h2]; rfl
    rw [h1, h2, bind_ok, bind_ok]
    rcases sec "pressure" with ⟨e, h1, h2⟩ | ⟨p, p', h1, h2, hp⟩
    · rw [h1, h2]; rfl
    rw [h1, h2, bind_ok, bind_ok]
    unfold parseSections
    rw [invL_minerals conv m m' (hm.section (by decide) (by decide)),
      invL_fluids conv f f' (hf.section (by decide) (by decide)),
      invL_dryRock conv d d' (hd.section (by decide) (by decide)),
      invL_pressure conv p p' (hp.section (by decide) (by decide))]

end OPE.Parse

namespace OPE.Main

open OPE.Parse

/-- **C141.** The run: without threshold, with the same data file, the program does the same for both
configurations: exit code, files written and text printed. -/
theorem C141_run (co2 : ∀ n, CO2Model n) (conv : Conv) (w : World Yaml DataRow (Σ n, (Fin n → ℕ) × Input n))
    (rows : List DataRow) (hd : w.data = some (.ok rows)) (ht : w.threshold = none)
    (cfg cfg' : Yaml) (h : Listed (fun i : Fin rows.length => rows.get i) none cfg cfg') :
    run (pipeline co2 (reading conv) (readingNoData conv) { w with config := .ok (some cfg) }) =
      run (pipeline co2 (reading conv) (readingNoData conv) { w with config := .ok (some cfg') }) := by
  have key : ∀ l : List (ℕ × DataRow), l.map Prod.snd = rows →
      reading conv cfg l.length (fun i => (l.get i).2) = reading conv cfg' l.length (fun i => (l.get i).2) := by
    rintro l rfl
    have hl : (l.map Prod.snd).length = l.length := List.length_map _
    have : ∀ (m : ℕ) (hm : (l.map Prod.snd).length = m) (f : Fin m → DataRow)
        (_ : ∀ i : Fin m, f i = (l.map Prod.snd).get (i.cast hm.symm)),
        reading conv cfg m f = reading conv cfg' m f := by
      rintro m rfl f hf
      have : f = fun i => (l.map Prod.snd).get i := funext fun i => hf i
      subst this
      exact C141_list_is_column conv _ h
    exact this _ hl _ fun i => by simp
  have hm : makeInput (pipeline co2 (reading conv) (readingNoData conv) { w with config := .ok (some cfg) }) =
      makeInput (pipeline co2 (reading conv) (readingNoData conv) { w with config := .ok (some cfg') }) := by
    unfold makeInput
    rw [show loadConfig (pipeline co2 (reading conv) (readingNoData conv) { w with config := .ok (some cfg) })
        = .ok cfg from rfl,
      show loadConfig (pipeline co2 (reading conv) (readingNoData conv) { w with config := .ok (some cfg') })
        = .ok cfg' from rfl]
    have e : ∀ c : Yaml, loadData (pipeline co2 (reading conv) (readingNoData conv)
        { w with config := .ok (some c) }) = .ok (some rows) := by
      intro c
      unfold loadData
      rw [show (pipeline co2 (reading conv) (readingNoData conv) { w with config := .ok (some c) }).data
        = some (.ok rows) from hd]
    rw [e, e]
    change wrapParse (liftErr (reading conv cfg _ _ >>= mkInput) >>= _)
      = wrapParse (liftErr (reading conv cfg' _ _ >>= mkInput) >>= _)
    rw [key (labelled rows) (by simp [labelled, Function.comp_def])]
  unfold run
  rw [show (pipeline co2 (reading conv) (readingNoData conv) { w with config := .ok (some cfg) }).threshold
      = none from ht,
    show (pipeline co2 (reading conv) (readingNoData conv) { w with config := .ok (some cfg') }).threshold
      = none from ht]
  dsimp only
  rw [hm]
  rfl

/-- The example configuration with the porosities given in place. -/
noncomputable def exListed (phi : List ℝ) : Yaml := .dict [
  ("minerals", .dict [("constituents", .list [.dict [
    ("material", .dict [("bulk_modulus", num 36.8), ("shear_modulus", num 44), ("density", num 2650)]),
    ("fraction", num 1)]])]),
  ("fluids", .dict [("constituents", .list [.dict [
    ("material", .dict [("bulk_modulus", num 2.8), ("shear_modulus", num 0), ("density", num 1030)]),
    ("fraction", num 1)]]), ("brie_constant", num 3)]),
  ("dry_rock", .dict [
    ("model", .dict [("type", .str "friable_sand"), ("critical_porosity", num 0.4),
      ("shear_reduction", num 0.5), ("coordination_number", num 9)]),
    ("porosity", .list (phi.map num))]),
  ("pressure", .dict [("overburden", num 0.04), ("reference", num 0.03), ("fluid", num 0.02),
    ("rock", num 0.02)])]

/-- A dictionary in which one entry is changed. -/
theorem listed_entry {n : ℕ} (rows : Fin n → DataRow) (place : Option String)
    (hplace : ∀ key, place = some key → key ∉ "column" :: globalKeys)
    (pre post : List (String × Yaml)) (k : String) (x y : Yaml) (h : Listed rows (some k) x y) :
    Listed rows place (.dict (pre ++ (k, x) :: post)) (.dict (pre ++ (k, y) :: post)) := by
  refine .dict _ hplace _ _ (by simp) ?_
  intro i a b ha hb
  rcases lt_trichotomy i pre.length with hi | hi | hi
  · rw [List.getElem?_append_left hi] at ha hb
    obtain rfl : a = b := by rw [ha] at hb; exact Option.some.inj hb
    exact .same _ _
  · subst hi
    simp only [List.getElem?_append_right (le_refl _), Nat.sub_self, List.getElem?_cons_zero,
      Option.some.injEq] at ha hb
    subst ha hb
    exact h
  · rw [List.getElem?_append_right hi.le] at ha hb
    obtain ⟨j, hj⟩ : ∃ j, i - pre.length = j + 1 := ⟨i - pre.length - 1, by omega⟩
    rw [hj, List.getElem?_cons_succ] at ha hb
    obtain rfl : a = b := by rw [ha] at hb; exact Option.some.inj hb
    exact .same _ _

theorem exListed_listed {n : ℕ} (phi : Fin n → ℝ) (b : Fin n → ℝ) :
    Listed (fun i => exRow (phi i) (b i)) none (exYaml (num 3)) (exListed (List.ofFn phi)) := by
  refine listed_entry _ _ (by simp) [_, _] [_] "dry_rock" _ _ ?_
  refine listed_entry _ _ (by simp [globalKeys]) [_] [] "porosity" _ _ ?_
  have := Listed.column (rows := fun i => exRow (phi i) (b i)) "porosity" (by simp [globalKeys, nestedKeys])
    "phi" (fun i => .num (Num.fin (phi i))) (fun i => by simp [exRow])
  rw [List.map_ofFn]
  exact this

/-- Both configurations of the example are accepted, and describe the same rock. -/
example (conv : Conv) : reading conv (exListed (List.ofFn ![0.2, 0.3])) 2 (fun i => exRow (![0.2, 0.3] i) 3) =
    .ok (exSections ![0.2, 0.3]) := by
  rw [← C141_list_is_column conv _ (exListed_listed ![0.2, 0.3] fun _ => 3)]
  exact exRead_num conv ![0.2, 0.3] fun _ => 3

/-- One row alone is refused if the configuration gives two porosities. -/
theorem exListed_alone (conv : Conv) (x : DataRow) :
    reading conv (exListed [0.2, 0.3]) 1 (fun _ => x) = .error .valueError := by
  simp [reading, readWith, exListed, insertDataframe, List.lookup, mapArr, mapArrDict, mapArrList,
    insertFrame, insertFrameDict, insertFrameList, num]
  have h1 := exRead_material (n := 1) conv 36.8 44 2650 (by norm_num) (by norm_num) (by norm_num)
  have h2 := exRead_material (n := 1) conv 2.8 0 1030 (by norm_num) (by norm_num) (by norm_num)
  have h4 := exRead_sandstone (n := 1) conv
  unfold num at h1 h2 h4
  simp [parseSections, parseMinerals, args, named, defaulted, List.lookup, listOf, eachOf, h1, parseFluids, h2,
    parseDryRock, parsePressure, h4, Parse.optional, toCol, orReject, Scalar.toNum,
    toFloat, reject, bind_error]

/-- **C88, refuted the other way round.** There are a configuration and a data file that the program processes
completely without threshold (all rows written, exit code 0), while with any positive threshold all rows fail
and it exits with −5, writing nothing: porosities listed in the configuration, one for each row of the data file. -/
theorem C88_modes_accept_alike_refuted_lists (co2 : ∀ n, CO2Model n) (conv : Conv) :
    ∃ (cfg : Yaml) (rows : List DataRow), rows.length = 2 ∧
      ∀ (w : World Yaml DataRow (Σ n, (Fin n → ℕ) × Input n)) (T : ℝ), 0 < T → RoundsToNearest w.fl →
        w.config = .ok (some cfg) → w.data = some (.ok rows) → (∀ t, w.write t = .ok ()) →
        w.calibration = none →
        run (pipeline co2 (reading conv) (readingNoData conv) { w with threshold := some T })
          = ⟨.ok (-5), [], []⟩ ∧
        ∃ t, run (pipeline co2 (reading conv) (readingNoData conv) { w with threshold := none })
          = ⟨.ok 0, [t], []⟩ ∧ t.length = 2 := by
  refine ⟨exListed [0.2, 0.3], [exRow 0.2 3, exRow 0.3 3], rfl, ?_⟩
  intro w T hT hfl hk hd hw hcal
  constructor
  · set W := pipeline co2 (reading conv) (readingNoData conv) { w with threshold := some T } with hW
    have hone : ∀ x, rowAlone W (exListed [0.2, 0.3]) x = none := by
      intro x
      rw [hW, pipeline_parse_one]
      rw [exListed_alone, bind_error]
    have hrun : run W = runWithThreshold W T := by unfold run; rfl
    rw [hrun, runWithThreshold_eq W _ _ T hk hd]
    rw [List.filterMap_eq_nil_iff.mpr fun x _ => hone x]
    have hz : successPercentage W.fl (2 - 0) 2 = 0 := by
      unfold successPercentage
      rw [if_neg (by norm_num)]
      have e0 : w.fl 0 = 0 := hfl.exact ⟨0, 0, by norm_num, by simp⟩
      have e1 : w.fl 1 = 1 := hfl.exact ⟨1, 0, by norm_num, by simp⟩
      change w.fl (w.fl (1 - w.fl ((2 : ℕ) / ((2 : ℕ) : ℝ))) * 100) = 0
      rw [div_self (by norm_num), e1, sub_self, e0, zero_mul, e0]
    change (if successPercentage W.fl (2 - 0) 2 < T then _ else _) = _
    rw [hz, if_pos hT]
  · obtain ⟨r, -, -, -, -, -, hr, -⟩ := exSections_ok (co2 2) ![0.2, 0.3]
      (fun i => (exPor_range i).1) fun i => (exPor_range i).2
    have hp : reading conv (exListed [0.2, 0.3]) 2
        (fun i => ([(0, exRow 0.2 3), (1, exRow 0.3 3)].get i).2) = .ok (exSections ![0.2, 0.3]) := by
      have := C141_list_is_column conv _ (exListed_listed ![0.2, 0.3] fun _ => 3)
      rw [exRead_num conv ![0.2, 0.3] fun _ => 3] at this
      rw [this]
      congr 1
      · funext i; fin_cases i <;> rfl
    set V := pipeline co2 (reading conv) (readingNoData conv) { w with threshold := none } with hV
    unfold calculate at hr
    obtain ⟨inp, h1, h2⟩ := bind_eq_ok.mp hr
    refine ⟨List.ofFn fun i => ((i : ℕ), r.at i), ?_, by simp⟩
    have hm : makeInput V = .ok ⟨2, fun i => ([(0, exRow 0.2 3), (1, exRow 0.3 3)].get i).1, inp⟩ := by
      have e1 : loadConfig V = .ok (exListed [0.2, 0.3]) := by
        unfold loadConfig; rw [show V.config = _ from hk]
      have e2 : loadData V = .ok (some [exRow 0.2 3, exRow 0.3 3]) := by
        unfold loadData; rw [show V.data = _ from hd]
      unfold makeInput
      rw [e1, e2]
      change wrapParse (liftErr (reading conv (exListed [0.2, 0.3]) 2
          (fun i => ([(0, exRow 0.2 3), (1, exRow 0.3 3)].get i).2) >>= mkInput) >>= _) = _
      rw [hp, bind_ok, h1]
      rfl
    have hc : V.calculate ⟨2, fun i => ([(0, exRow 0.2 3), (1, exRow 0.3 3)].get i).1, inp⟩
        = .ok (List.ofFn fun i => ((i : ℕ), r.at i)) := by
      change (liftErr (calculateResults (co2 2) inp) >>= _) = _
      rw [h2]
      change Except.ok _ = Except.ok _
      congr 2
      funext i
      fin_cases i <;> rfl
    unfold run
    rw [show V.threshold = none from rfl, hm]
    dsimp only
    rw [hc]
    dsimp only
    unfold writeAndCalibrate
    rw [show V.write _ = _ from hw _, show V.calibration = none from hcal]

end OPE.Main
