import Verif.Props.MissingCO2
import Verif.Props.Rows

/-!
# Missing numbers never change other numbers: reading a configuration (C150)
-/

namespace OPE.Parse

open Classical

variable {n : ℕ} {conv : Conv}

/-! ### Both accept or both refuse -/

/-- Both computations succeed with related results, or both fail. -/
def Both {α β : Type} (R : α → β → Prop) (x : Except Err α) (y : Except Err β) : Prop :=
  (∃ a b, x = .ok a ∧ y = .ok b ∧ R a b) ∨ ((∃ e, x = .error e) ∧ ∃ e, y = .error e)

abbrev BothM {α : Type} [Missing α] (x y : Except Err α) : Prop := Both (· ⊑ ·) x y

namespace Both

variable {α β γ δ : Type} {R : α → β → Prop} {S : γ → δ → Prop}

theorem ok {a : α} {b : β} (h : R a b) : Both R (.ok a) (.ok b) := .inl ⟨a, b, rfl, rfl, h⟩

theorem error {e e' : Err} : Both R (.error e) (.error e') := .inr ⟨⟨e, rfl⟩, e', rfl⟩

theorem bind {x : Except Err α} {y : Except Err β} {f : α → Except Err γ} {g : β → Except Err δ}
    (hx : Both R x y) (hf : ∀ a b, R a b → Both S (f a) (g b)) : Both S (x >>= f) (y >>= g) := by
  rcases hx with ⟨a, b, rfl, rfl, h⟩ | ⟨⟨e, rfl⟩, e', rfl⟩
  · exact hf a b h
  · exact error

theorem upto {x : Except Err α} {y : Except Err β} (h : Both R x y) : Upto R x y := by
  rintro a b rfl rfl
  rcases h with ⟨a, b, ha, hb, h⟩ | ⟨⟨e, he⟩, -⟩
  · cases ha; cases hb; exact h
  · cases he

theorem vec {f : Fin n → Except Err α} {g : Fin n → Except Err β} (h : ∀ i, Both R (f i) (g i)) :
    Both (fun x y => ∀ i, R (x i) (y i)) (OPE.vec f) (OPE.vec g) := by
  by_cases hok : ∀ i, ∃ a b, f i = .ok a ∧ g i = .ok b ∧ R a b
  · choose a b ha hb hab using hok
    exact .inl ⟨a, b, vec_ok_iff.mpr ha, vec_ok_iff.mpr hb, hab⟩
  · push Not at hok
    obtain ⟨i, hi⟩ := hok
    rcases h i with ⟨a, b, ha, hb, hab⟩ | ⟨⟨e, he⟩, e', he'⟩
    · exact absurd hab (hi a b ha hb)
    · refine .inr ⟨?_, ?_⟩
      · cases hf : OPE.vec f with
        | error e => exact ⟨e, rfl⟩
        | ok a => rw [vec_ok_iff.mp hf i] at he; cases he
      · cases hf : OPE.vec g with
        | error e => exact ⟨e, rfl⟩
        | ok a => rw [vec_ok_iff.mp hf i] at he'; cases he'

theorem mono {R' : α → β → Prop} {x : Except Err α} {y : Except Err β} (h : Both R x y)
    (hR : ∀ a b, R a b → R' a b) : Both R' x y := by
  rcases h with ⟨a, b, ha, hb, h⟩ | h
  · exact .inl ⟨a, b, ha, hb, hR a b h⟩
  · exact .inr h

end Both

theorem orReject_both {α β : Type} {R : α → β → Prop} {x : Option α} {y : Option β} (h : Option.Rel R x y) :
    Both R (orReject x) (orReject y) := by
  cases h with
  | none => exact .error
  | some h => exact .ok h

/-! ### Values with emptied entries -/

/-- An entry: the same, or emptied. -/
def CellLacks (conv : Conv) (x y : Cell) : Prop := x = y ∨ (x = .num .nan ∧ ∃ a, y.toNum conv = some a)

/-- An array: entry by entry. -/
def ArrLacks (conv : Conv) : Arr n → Arr n → Prop
  | .col x, .col y => ∀ i, CellLacks conv (x i) (y i)
  | .cols xs, .cols ys => List.Forall₂ (fun x y => ∀ i, CellLacks conv (x i) (y i)) xs ys
  | _, _ => False

mutual
/-- A configuration value: the same, with entries of its arrays emptied. -/
inductive VLacks (conv : Conv) : Val n → Val n → Prop
  | scalar (s : Scalar) : VLacks conv (.scalar s) (.scalar s)
  | str (s : String) : VLacks conv (.str s) (.str s)
  | arr {a b : Arr n} (h : ArrLacks conv a b) : VLacks conv (.arr a) (.arr b)
  | list {xs ys : List (Val n)} (h : VLacksL conv xs ys) : VLacks conv (.list xs) (.list ys)
  | dict {xs ys : List (String × Val n)} (h : VLacksD conv xs ys) : VLacks conv (.dict xs) (.dict ys)
inductive VLacksL (conv : Conv) : List (Val n) → List (Val n) → Prop
  | nil : VLacksL conv [] []
  | cons {x y : Val n} {xs ys : List (Val n)} (h : VLacks conv x y) (hs : VLacksL conv xs ys) :
      VLacksL conv (x :: xs) (y :: ys)
inductive VLacksD (conv : Conv) : List (String × Val n) → List (String × Val n) → Prop
  | nil : VLacksD conv [] []
  | cons {k : String} {x y : Val n} {xs ys : List (String × Val n)} (h : VLacks conv x y) (hs : VLacksD conv xs ys) :
      VLacksD conv ((k, x) :: xs) ((k, y) :: ys)
end

theorem cell_lacks {x y : Cell} (h : CellLacks conv x y) : Option.Rel (· ⊑ ·) (x.toNum conv) (y.toNum conv) := by
  rcases h with rfl | ⟨rfl, a, ha⟩
  · cases x.toNum conv with
    | none => exact .none
    | some x => exact .some (Num.lacks_refl x)
  · rw [ha]
    exact .some (Num.nan_lacks a)

theorem optionRel_refl {α : Type} {R : α → α → Prop} (h : ∀ a, R a a) (x : Option α) : Option.Rel R x x := by
  cases x with
  | none => exact .none
  | some x => exact .some (h x)

theorem VLacksL.length {xs ys : List (Val n)} (h : VLacksL conv xs ys) : xs.length = ys.length := by
  match xs, ys, h with
  | _, _, .nil => rfl
  | _, _, .cons _ hs => simp [VLacksL.length hs]

theorem VLacksL.get {xs ys : List (Val n)} (h : VLacksL conv xs ys) (i : ℕ) (hi : i < xs.length) (hi' : i < ys.length) :
    VLacks conv xs[i] ys[i] := by
  match xs, ys, h, i with
  | _, _, .cons h _, 0 => exact h
  | _, _, .cons _ hs, i + 1 => exact VLacksL.get hs i (by simpa using hi) (by simpa using hi')

/-! ### Single values -/

theorem entry_lacks {x y : Val n} (h : VLacks conv x y) :
    Option.Rel (· ⊑ ·) (Entry.toNum conv x) (Entry.toNum conv y) := by
  cases h with
  | scalar s => exact optionRel_refl Num.lacks_refl _
  | str s => exact optionRel_refl Num.lacks_refl _
  | _ => exact .none

theorem toCol_lacks {x y : Val n} (h : VLacks conv x y) : BothM (toCol conv x) (toCol conv y) := by
  cases h with
  | scalar s => exact .bind (orReject_both (optionRel_refl Num.lacks_refl _)) fun a b hab => .ok fun _ => hab
  | str s => exact .bind (orReject_both (optionRel_refl Num.lacks_refl _)) fun a b hab => .ok fun _ => hab
  | @arr a b h => match a, b, h with
    | .col x, .col y, h => exact .vec fun i => orReject_both (cell_lacks (h i))
    | .cols xs, .cols ys, _ => exact .error
  | @list xs ys h =>
    unfold toCol
    dsimp only
    by_cases hl : xs.length = n
    · have hl' : ys.length = n := by rw [← h.length]; exact hl
      rw [dif_pos hl, dif_pos hl']
      exact .vec fun i => orReject_both (entry_lacks (h.get _ _ _))
    · rw [dif_neg hl, dif_neg (by rw [← h.length]; exact hl)]
      exact .error
  | dict h => exact .error

theorem toFloat_lacks {x y : Val n} (h : VLacks conv x y) : BothM (toFloat conv x) (toFloat conv y) := by
  cases h with
  | scalar s => exact orReject_both (optionRel_refl Num.lacks_refl _)
  | str s => exact orReject_both (optionRel_refl Num.lacks_refl _)
  | @arr a b h => match a, b, h with
    | .col x, .col y, h =>
      unfold toFloat
      by_cases hn : n = 1
      · simp only [dif_pos hn]
        exact orReject_both (cell_lacks (h _))
      · simp only [dif_neg hn]
        exact .error
    | .cols xs, .cols ys, _ => exact .error
  | list h => exact .error
  | dict h => exact .error

theorem Upto.eq_of {α : Type} (x : Except Err α) : Upto (· = ·) x x := by
  intro a b ha hb
  rw [ha] at hb
  cases hb
  rfl

theorem Both.eq_of {α : Type} (x : Except Err α) : Both (· = ·) x x := by
  cases x with
  | ok a => exact .ok rfl
  | error e => exact .error

theorem toInt_lacks {x y : Val n} (h : VLacks conv x y) : Upto (· = ·) (toInt conv x) (toInt conv y) := by
  cases h with
  | scalar s => exact Upto.eq_of _
  | str s => exact Upto.eq_of _
  | @arr a b h => match a, b, h with
    | .col x, .col y, h =>
      unfold toInt
      by_cases hn : n = 1
      · simp only [dif_pos hn]
        rcases h ⟨0, by omega⟩ with he | ⟨he, -⟩
        · rw [he]; exact Upto.eq_of _
        · rw [he]; exact Upto.error_left
      · simp only [dif_neg hn]
        exact Upto.error_left
    | .cols xs, .cols ys, _ => exact Upto.error_left
  | list h => exact Upto.error_left
  | dict h => exact Upto.error_left

theorem toBool_lacks {x y : Val n} (h : VLacks conv x y) : Both (· = ·) (toBool x) (toBool y) := by
  cases h with
  | scalar s => exact .eq_of _
  | str s => exact .eq_of _
  | _ => exact .error

theorem literal_lacks (tag : String) {x y : Val n} (h : VLacks conv x y) :
    Both (fun _ _ => True) (literal tag x) (literal tag y) := by
  cases h with
  | scalar s => exact .error
  | str s => exact (Both.eq_of _).mono fun _ _ _ => trivial
  | _ => exact .error

theorem toProvider_lacks {x y : Val n} (h : VLacks conv x y) : Both (· = ·) (toProvider x) (toProvider y) := by
  cases h with
  | scalar s => exact .error
  | str s => exact .eq_of _
  | _ => exact .error

theorem toMethod_lacks {x y : Val n} (h : VLacks conv x y) : Both (· = ·) (toMethod x) (toMethod y) := by
  cases h with
  | scalar s => exact .error
  | str s => exact .eq_of _
  | _ => exact .error

/-! ### Combinators -/

section Combinators

variable {α : Type} {R : α → α → Prop} {p q : Val n → Except Err α}

theorem optional_both (hp : ∀ x y, VLacks conv x y → Both R (p x) (p y)) {x y : Val n} (h : VLacks conv x y) :
    Both (Option.Rel R) (optional p x) (optional p y) := by
  cases h with
  | scalar s =>
    cases s with
    | null => exact .ok .none
    | _ => exact .bind (hp _ _ (.scalar _)) fun a b hab => .ok (.some hab)
  | str s => exact .bind (hp _ _ (.str s)) fun a b hab => .ok (.some hab)
  | arr h => exact .bind (hp _ _ (.arr h)) fun a b hab => .ok (.some hab)
  | list h => exact .bind (hp _ _ (.list h)) fun a b hab => .ok (.some hab)
  | dict h => exact .bind (hp _ _ (.dict h)) fun a b hab => .ok (.some hab)

theorem optional_upto (hp : ∀ x y, VLacks conv x y → Upto R (p x) (p y)) {x y : Val n} (h : VLacks conv x y) :
    Upto (Option.Rel R) (optional p x) (optional p y) := by
  cases h with
  | scalar s =>
    cases s with
    | null => exact .ok .none
    | _ => exact .bind (hp _ _ (.scalar _)) fun a b hab => .ok (.some hab)
  | str s => exact .bind (hp _ _ (.str s)) fun a b hab => .ok (.some hab)
  | arr h => exact .bind (hp _ _ (.arr h)) fun a b hab => .ok (.some hab)
  | list h => exact .bind (hp _ _ (.list h)) fun a b hab => .ok (.some hab)
  | dict h => exact .bind (hp _ _ (.dict h)) fun a b hab => .ok (.some hab)

theorem eachOf_both (hp : ∀ x y, VLacks conv x y → Both R (p x) (p y)) {xs ys : List (Val n)}
    (h : VLacksL conv xs ys) : Both (List.Forall₂ R) (eachOf p xs) (eachOf p ys) := by
  match xs, ys, h with
  | _, _, .nil => exact .ok .nil
  | _, _, .cons h hs =>
    exact .bind (hp _ _ h) fun a b hab => .bind (eachOf_both hp hs) fun as bs habs => .ok (.cons hab habs)

theorem eachOf_upto (hp : ∀ x y, VLacks conv x y → Upto R (p x) (p y)) {xs ys : List (Val n)}
    (h : VLacksL conv xs ys) : Upto (List.Forall₂ R) (eachOf p xs) (eachOf p ys) := by
  match xs, ys, h with
  | _, _, .nil => exact .ok .nil
  | _, _, .cons h hs =>
    exact .bind (hp _ _ h) fun a b hab => .bind (eachOf_upto hp hs) fun as bs habs => .ok (.cons hab habs)

theorem listOf_both (hp : ∀ x y, VLacks conv x y → Both R (p x) (p y)) {x y : Val n} (h : VLacks conv x y) :
    Both (List.Forall₂ R) (listOf p x) (listOf p y) := by
  cases h with
  | list h => exact eachOf_both hp h
  | _ => exact .error

theorem listOf_upto (hp : ∀ x y, VLacks conv x y → Upto R (p x) (p y)) {x y : Val n} (h : VLacks conv x y) :
    Upto (List.Forall₂ R) (listOf p x) (listOf p y) := by
  cases h with
  | list h => exact eachOf_upto hp h
  | _ => exact Upto.error_left

/-- Keyword arguments with emptied entries. -/
def ArgsLacks (conv : Conv) (a b : Args n) : Prop := ∀ k, Option.Rel (VLacks conv) (a k) (b k)

theorem lookup_vlacks {xs ys : List (String × Val n)} (h : VLacksD conv xs ys) (k : String) :
    Option.Rel (VLacks conv) (xs.lookup k) (ys.lookup k) := by
  match xs, ys, h with
  | _, _, .nil => exact .none
  | _, _, .cons (k := k') h hs =>
    simp only [List.lookup]
    cases k == k' with
    | true => exact .some h
    | false => exact lookup_vlacks hs k

theorem keys_vlacks {xs ys : List (String × Val n)} (h : VLacksD conv xs ys) :
    xs.map (·.1) = ys.map (·.1) := by
  match xs, ys, h with
  | _, _, .nil => rfl
  | _, _, .cons h hs => simp only [List.map_cons, keys_vlacks hs]

theorem zip_vlacks (ks : List String) {xs ys : List (Val n)} (h : VLacksL conv xs ys) :
    VLacksD conv (ks.zip xs) (ks.zip ys) := by
  match ks, xs, ys, h with
  | [], _, _, _ => exact .nil
  | _ :: _, _, _, .nil => exact .nil
  | k :: ks, _, _, .cons h hs => exact .cons h (zip_vlacks ks hs)

theorem named_vlacks (fields : List String) {x y : Val n} (h : VLacks conv x y) :
    VLacks conv (named fields x) (named fields y) := by
  cases h with
  | scalar s => exact .scalar s
  | str s => exact .str s
  | arr h => exact .arr h
  | list h =>
    simp only [named, h.length]
    split
    · exact .dict (zip_vlacks _ h)
    · exact .list h
  | dict h => exact .dict h

theorem all_keys {xs ys : List (String × Val n)} (h : xs.map (·.1) = ys.map (·.1)) (f : String → Bool) :
    xs.all (fun x => f x.1) = ys.all (fun x => f x.1) := by
  have e : ∀ l : List (String × Val n), l.all (fun x => f x.1) = (l.map (·.1)).all f := by
    intro l; rw [List.all_map]; rfl
  rw [e, e, h]

theorem args_lacks (fields : List String) {x y : Val n} (h : VLacks conv x y) :
    Both (ArgsLacks conv) (args fields x) (args fields y) := by
  unfold args
  have h' := named_vlacks fields h
  generalize named fields x = x' at h'
  generalize named fields y = y' at h'
  cases h' with
  | dict h =>
    dsimp only
    rw [all_keys (keys_vlacks h) fun k => decide (k ∈ fields)]
    split
    · exact .ok fun k => lookup_vlacks h k
    · exact .error
  | _ => exact .error

variable {a b : Args n}

theorem required_both (h : ArgsLacks conv a b) (k : String) (hp : ∀ x y, VLacks conv x y → Both R (p x) (p y)) :
    Both R (required a k p) (required b k p) := by
  unfold required
  have := h k
  generalize a k = x at this
  generalize b k = y at this
  cases this with
  | none => exact .error
  | some h => exact hp _ _ h

theorem required_upto (h : ArgsLacks conv a b) (k : String) (hp : ∀ x y, VLacks conv x y → Upto R (p x) (p y)) :
    Upto R (required a k p) (required b k p) := by
  unfold required
  have := h k
  generalize a k = x at this
  generalize b k = y at this
  cases this with
  | none => exact .error_left
  | some h => exact hp _ _ h

theorem defaulted_both (h : ArgsLacks conv a b) (k : String) (hp : ∀ x y, VLacks conv x y → Both R (p x) (p y))
    {d : α} (hd : R d d) : Both R (defaulted a k p d) (defaulted b k p d) := by
  unfold defaulted
  have := h k
  generalize a k = x at this
  generalize b k = y at this
  cases this with
  | none => exact .ok hd
  | some h => exact hp _ _ h

theorem defaulted_upto (h : ArgsLacks conv a b) (k : String) (hp : ∀ x y, VLacks conv x y → Upto R (p x) (p y))
    {d : α} (hd : R d d) : Upto R (defaulted a k p d) (defaulted b k p d) := by
  unfold defaulted
  have := h k
  generalize a k = x at this
  generalize b k = y at this
  cases this with
  | none => exact .ok hd
  | some h => exact hp _ _ h

theorem tagged_lacks (h : ArgsLacks conv a b) (tag : String) :
    Both (fun _ _ => True) (tagged a tag) (tagged b tag) :=
  defaulted_both h "type" (fun _ _ hxy => literal_lacks tag hxy) trivial

theorem firstOf_both {ps : List (Val n → Except Err α)} (hp : ∀ p ∈ ps, ∀ x y, VLacks conv x y → Both R (p x) (p y))
    {x y : Val n} (h : VLacks conv x y) : Both R (firstOf ps x) (firstOf ps y) := by
  induction ps with
  | nil => exact .error
  | cons p ps ih =>
    unfold firstOf
    rcases hp p (by simp) x y h with ⟨a, b, ha, hb, hab⟩ | ⟨⟨e, he⟩, e', he'⟩
    · rw [ha, hb]; exact .ok hab
    · rw [he, he']; exact ih fun q hq => hp q (by simp [hq])

/-- The same if the last alternative refuses some values on one side only. -/
theorem firstOf_upto {ps : List (Val n → Except Err α)} (hp : ∀ p ∈ ps, ∀ x y, VLacks conv x y → Both R (p x) (p y))
    (hq : ∀ x y, VLacks conv x y → Upto R (q x) (q y)) {x y : Val n} (h : VLacks conv x y) :
    Upto R (firstOf (ps ++ [q]) x) (firstOf (ps ++ [q]) y) := by
  induction ps with
  | nil =>
    simp only [List.nil_append, firstOf]
    intro a b ha hb
    cases hx : q x with
    | error e => rw [hx] at ha; cases ha
    | ok a' =>
      cases hy : q y with
      | error e => rw [hy] at hb; cases hb
      | ok b' =>
        rw [hx] at ha; rw [hy] at hb
        cases ha; cases hb
        exact hq x y h _ _ hx hy
  | cons p ps ih =>
    simp only [List.cons_append, firstOf]
    rcases hp p (by simp) x y h with ⟨a, b, ha, hb, hab⟩ | ⟨⟨e, he⟩, e', he'⟩
    · rw [ha, hb]; exact .ok hab
    · rw [he, he']; exact ih fun q hq => hp q (by simp [hq])

theorem into_both {β : Type} {S : β → β → Prop} (f : α → β) (hf : ∀ a b, R a b → S (f a) (f b))
    (hp : ∀ x y, VLacks conv x y → Both R (p x) (p y)) (x y : Val n) (h : VLacks conv x y) :
    Both S (into f p x) (into f p y) := .bind (hp _ _ h) fun a b hab => .ok (hf a b hab)

end Combinators

end OPE.Parse
