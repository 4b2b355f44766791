import Verif.Spec.ParseRows
import Verif.Props.Config
import Verif.Props.RowWise
import Verif.Props.Parse2

/-!
# Reading a configuration with a data file treats the rows separately (C87)
-/

namespace OPE.Parse

open Classical Spec

variable {n : ℕ} {S A B : Type}

/-! ### Trees without arrays -/

mutual
def ArrFree : Cfg S A → Prop
  | .scalar _ => True
  | .str _ => True
  | .arr _ => False
  | .list xs => ArrFreeList xs
  | .dict xs => ArrFreeDict xs
def ArrFreeList : List (Cfg S A) → Prop
  | [] => True
  | x :: xs => ArrFree x ∧ ArrFreeList xs
def ArrFreeDict : List (String × Cfg S A) → Prop
  | [] => True
  | (_, x) :: xs => ArrFree x ∧ ArrFreeDict xs
end

mutual
/-- Below a global key there are no arrays, elsewhere no lists of plain values. -/
def Clean : Cfg S A → Prop
  | .list xs => CleanList xs
  | .dict xs => CleanDict xs
  | _ => True
def CleanList : List (Cfg S A) → Prop
  | [] => True
  | x :: xs => (Clean x ∧ ((∃ d, x = .dict d) ∨ ∃ a, x = .arr a)) ∧ CleanList xs
def CleanDict : List (String × Cfg S A) → Prop
  | [] => True
  | (k, x) :: xs => (k ∈ globalKeys → ArrFree x) ∧
    (k ∉ globalKeys → Clean x ∧ (k ∉ listKeys → ∀ ys, x ≠ .list ys)) ∧ CleanDict xs
end

mutual
theorem arrFree_empty (f : Empty → A) : (x : Cfg S Empty) → ArrFree (mapArr f x)
  | .scalar _ => trivial
  | .str _ => trivial
  | .arr a => a.elim
  | .list xs => by rw [mapArr, ArrFree]; exact arrFreeList_empty f xs
  | .dict xs => by rw [mapArr, ArrFree]; exact arrFreeDict_empty f xs
theorem arrFreeList_empty (f : Empty → A) : (xs : List (Cfg S Empty)) → ArrFreeList (mapArrList f xs)
  | [] => trivial
  | x :: xs => ⟨arrFree_empty f x, arrFreeList_empty f xs⟩
theorem arrFreeDict_empty (f : Empty → A) : (xs : List (String × Cfg S Empty)) → ArrFreeDict (mapArrDict f xs)
  | [] => trivial
  | (_, x) :: xs => ⟨arrFree_empty f x, arrFreeDict_empty f xs⟩
end

mutual
/-- Arrays do not matter where there are none. -/
theorem mapArr_congr (f g : A → B) : (x : Cfg S A) → ArrFree x → mapArr f x = mapArr g x
  | .scalar _, _ => by simp only [mapArr]
  | .str _, _ => by simp only [mapArr]
  | .arr _, h => by rw [ArrFree] at h; exact h.elim
  | .list xs, h => by rw [ArrFree] at h; rw [mapArr, mapArr, mapArrList_congr f g xs h]
  | .dict xs, h => by rw [ArrFree] at h; rw [mapArr, mapArr, mapArrDict_congr f g xs h]
theorem mapArrList_congr (f g : A → B) : (xs : List (Cfg S A)) → ArrFreeList xs → mapArrList f xs = mapArrList g xs
  | [], _ => rfl
  | x :: xs, h => by rw [mapArrList, mapArrList, mapArr_congr f g x h.1, mapArrList_congr f g xs h.2]
theorem mapArrDict_congr (f g : A → B) : (xs : List (String × Cfg S A)) → ArrFreeDict xs → mapArrDict f xs = mapArrDict g xs
  | [], _ => rfl
  | (k, x) :: xs, h => by rw [mapArrDict, mapArrDict, mapArr_congr f g x h.1, mapArrDict_congr f g xs h.2]
end

mutual
theorem mapArr_comp {C : Type} (f : A → B) (g : B → C) : (x : Cfg S A) → mapArr g (mapArr f x) = mapArr (g ∘ f) x
  | .scalar _ => by simp only [mapArr]
  | .str _ => by simp only [mapArr]
  | .arr _ => by simp only [mapArr, Function.comp]
  | .list xs => by simp only [mapArr, mapArrList_comp f g xs]
  | .dict xs => by simp only [mapArr, mapArrDict_comp f g xs]
theorem mapArrList_comp {C : Type} (f : A → B) (g : B → C) : (xs : List (Cfg S A)) → mapArrList g (mapArrList f xs) = mapArrList (g ∘ f) xs
  | [] => rfl
  | x :: xs => by simp only [mapArrList, mapArr_comp f g x, mapArrList_comp f g xs]
theorem mapArrDict_comp {C : Type} (f : A → B) (g : B → C) : (xs : List (String × Cfg S A)) → mapArrDict g (mapArrDict f xs) = mapArrDict (g ∘ f) xs
  | [] => rfl
  | (k, x) :: xs => by simp only [mapArrDict, mapArr_comp f g x, mapArrDict_comp f g xs]
end

theorem mapArrDict_lookup (f : A → B) (xs : List (String × Cfg S A)) (key : String) :
    (mapArrDict f xs).lookup key = (xs.lookup key).map (mapArr f) := by
  induction xs with
  | nil => rfl
  | cons x xs ih =>
    obtain ⟨k, x⟩ := x
    rw [mapArrDict, List.lookup, List.lookup]
    cases hk : key == k
    · exact ih
    · rfl

theorem mapArrDict_keys (f : A → B) (xs : List (String × Cfg S A)) :
    (mapArrDict f xs).map Prod.fst = xs.map Prod.fst := by
  induction xs with
  | nil => rfl
  | cons x xs ih =>
    obtain ⟨k, x⟩ := x
    rw [mapArrDict, List.map_cons, List.map_cons, ih]

theorem cleanDict_lookup {xs : List (String × Cfg S A)} (h : CleanDict xs) {key : String} {x : Cfg S A}
    (hx : xs.lookup key = some x) : (key ∈ globalKeys → ArrFree x) ∧
      (key ∉ globalKeys → Clean x ∧ (key ∉ listKeys → ∀ ys, x ≠ .list ys)) := by
  induction xs with
  | nil => cases hx
  | cons y xs ih =>
    obtain ⟨k, y⟩ := y
    rw [CleanDict] at h
    rw [List.lookup] at hx
    cases hk : key == k
    · rw [hk] at hx; exact ih h.2.2 hx
    · rw [hk] at hx
      injection hx with hx; subst hx
      rw [beq_iff_eq] at hk; subst hk
      exact ⟨h.1, h.2.1⟩

/-! ### Column insertion -/

theorem strings_mapArrList (f : A → B) (xs : List (Cfg S A)) :
    Cfg.strings (mapArrList f xs) = Cfg.strings xs := by
  induction xs with
  | nil => rfl
  | cons x xs ih =>
    cases x <;> simp only [mapArrList, mapArr, Cfg.strings]
    rw [ih]

theorem frameOf_column_isSome [NeZero n] (rows : Fin n → DataRow) (s : String) :
    ((frameOf rows).column s).isSome ↔ ∀ i, ((frameOf (n := 1) fun _ => rows i).column s).isSome := by
  unfold frameOf
  dsimp only
  constructor
  · intro h i
    split at h
    · rename_i hs
      rw [dif_pos fun _ => hs i]; rfl
    · cases h
  · intro h
    have : ∀ i, (rows i s).isSome := by
      intro i
      have := h i
      split at this
      · rename_i hs; exact hs 0
      · cases this
    rw [dif_pos this]; rfl

theorem wrap_row {α β : Type} {row : α → Fin n → β} {x : Except Err α} {y : Fin n → Except Err β}
    (h : RowBy row x y) : RowBy row (wrapColumnError x) (fun i => wrapColumnError (y i)) := by
  refine ⟨fun r hr i => ?_, fun hy => ?_⟩
  · rw [wrapColumnError_ok] at hr ⊢
    exact h.1 r hr i
  · obtain ⟨r, hr⟩ := h.2 fun i => by
      obtain ⟨b, hb⟩ := hy i
      exact ⟨b, wrapColumnError_ok.mp hb⟩
    exact ⟨r, wrapColumnError_ok.mpr hr⟩

theorem frameGet_row [NeZero n] (rows : Fin n → DataRow) (v : Val n) :
    RowBy Arr.row ((frameOf rows).get v) (fun i => (frameOf (n := 1) fun _ => rows i).get (valRow v i)) := by
  cases v with
  | scalar s => exact .error fun i => ⟨_, by rw [valRow, mapArr]; rfl⟩
  | arr a => exact .error fun i => ⟨_, by rw [valRow, mapArr]; rfl⟩
  | dict xs => exact .error fun i => ⟨_, by rw [valRow, mapArr]; rfl⟩
  | str s =>
    have hv : ∀ i, valRow (.str s : Val n) i = .str s := fun i => by rw [valRow, mapArr]
    simp only [hv]
    unfold Frame.get
    dsimp only
    by_cases hs : ∀ i, (rows i s).isSome
    · have h1 : (frameOf rows).column s = some (.col fun i => (rows i s).get (hs i)) := by
        unfold frameOf; dsimp only; rw [dif_pos hs]
      have h2 : ∀ i, (frameOf (n := 1) fun _ => rows i).column s = some (.col fun _ => (rows i s).get (hs i)) := by
        intro i; unfold frameOf; dsimp only; rw [dif_pos fun _ => hs i]
      simp only [h1, h2]
      exact .ok fun i => rfl
    · have h1 : (frameOf rows).column s = none := by
        unfold frameOf; dsimp only; rw [dif_neg hs]
      push Not at hs
      obtain ⟨j, hj⟩ := hs
      have h2 : (frameOf (n := 1) fun _ => rows j).column s = none := by
        unfold frameOf; dsimp only; rw [dif_neg]
        intro h; exact hj (h 0)
      rw [h1]
      refine ⟨fun r hr => (nomatch hr), fun hy => ?_⟩
      obtain ⟨b, hb⟩ := hy j
      dsimp only at hb
      rw [h2] at hb; cases hb
  | list xs =>
    have hv : ∀ i, valRow (.list xs : Val n) i = .list (mapArrList (fun a => a.row i) xs) := fun i => by
      rw [valRow, mapArr]
    simp only [hv]
    unfold Frame.get
    dsimp only
    simp only [strings_mapArrList]
    cases hss : Cfg.strings xs with
    | none => exact .error fun i => ⟨_, rfl⟩
    | some ss =>
      dsimp only
      by_cases ha : (ss.all fun s => ((frameOf rows).column s).isSome) = true
      · rw [if_pos ha]
        refine .ok fun i => ?_
        rw [if_pos]
        · unfold frameOf Arr.row; dsimp only; rw [List.map_map]; rfl
        · rw [List.all_eq_true] at ha ⊢
          intro s hs
          exact (frameOf_column_isSome rows s).mp (ha s hs) i
      · rw [if_neg ha]
        refine ⟨fun r hr => (nomatch hr), fun hy => ?_⟩
        exfalso; apply ha
        rw [List.all_eq_true]
        intro s hs
        refine (frameOf_column_isSome rows s).mpr fun i => ?_
        obtain ⟨b, hb⟩ := hy i
        dsimp only at hb
        split at hb
        · rename_i h; rw [List.all_eq_true] at h; exact h s hs
        · cases hb

def dictRow (xs : List (String × Val n)) (i : Fin n) : List (String × Val 1) :=
  mapArrDict (fun a => a.row i) xs

def listRow (xs : List (Val n)) (i : Fin n) : List (Val 1) := mapArrList (fun a => a.row i) xs

theorem valRow_list (xs : List (Val n)) (i : Fin n) : valRow (.list xs) i = .list (listRow xs i) := by
  rw [valRow, mapArr]; rfl

theorem valRow_dict (xs : List (String × Val n)) (i : Fin n) : valRow (.dict xs) i = .dict (dictRow xs i) := by
  rw [valRow, mapArr]; rfl

theorem listRow_cons (x : Val n) (xs : List (Val n)) (i : Fin n) :
    listRow (x :: xs) i = valRow x i :: listRow xs i := rfl

theorem dictRow_cons (k : String) (x : Val n) (xs : List (String × Val n)) (i : Fin n) :
    dictRow ((k, x) :: xs) i = (k, valRow x i) :: dictRow xs i := rfl

section
variable [NeZero n] (rows : Fin n → DataRow)

mutual
/-- Column insertion is row-wise. -/
theorem insert_row : (v : Val n) → RowBy valRow (insertFrame (frameOf rows) v)
    (fun i => insertFrame (frameOf (n := 1) fun _ => rows i) (valRow v i))
  | .scalar s => by
    have hv : ∀ i, valRow (.scalar s : Val n) i = .scalar s := fun i => by rw [valRow, mapArr]
    simp only [hv, insertFrame]
    exact .ok fun i => by rw [hv]
  | .str s => by
    have hv : ∀ i, valRow (.str s : Val n) i = .str s := fun i => by rw [valRow, mapArr]
    simp only [hv, insertFrame]
    exact .ok fun i => by rw [hv]
  | .arr a => by
    have hv : ∀ i, valRow (.arr a : Val n) i = .arr (a.row i) := fun i => by rw [valRow, mapArr]
    simp only [hv, insertFrame]
    exact .ok fun i => by rw [hv]
  | .list xs => by
    simp only [valRow_list, insertFrame]
    exact .bind (insertList_row xs) fun ys _ => .ok fun i => by rw [valRow_list]
  | .dict [(k, v)] => by
    have hv : ∀ i, valRow (.dict [(k, v)] : Val n) i = .dict [(k, valRow v i)] := fun i => by
      rw [valRow_dict]; rfl
    simp only [hv, insertFrame]
    by_cases hk : k = "column"
    · simp only [if_pos hk]
      exact .bind (wrap_row (frameGet_row rows v)) fun a _ => .ok fun i => by rw [valRow, mapArr]
    · simp only [if_neg hk]
      exact .bind (insert_row v) fun w _ => .ok fun i => by rw [valRow_dict]; rfl
  | .dict [] => by
    have hv : ∀ i, valRow (.dict [] : Val n) i = .dict [] := fun i => by rw [valRow_dict]; rfl
    simp only [hv, insertFrame, insertFrameDict]
    exact .ok fun i => by rw [hv]; rfl
  | .dict ((k, x) :: (k', x') :: xs) => by
    have hv : ∀ i, valRow (.dict ((k, x) :: (k', x') :: xs) : Val n) i =
        .dict ((k, valRow x i) :: (k', valRow x' i) :: dictRow xs i) := fun i => by
      rw [valRow_dict]; rfl
    simp only [hv, insertFrame]
    exact .bind (insertDict_row ((k, x) :: (k', x') :: xs)) fun ys _ => .ok fun i => by rw [valRow_dict]
theorem insertList_row : (xs : List (Val n)) → RowBy listRow (insertFrameList (frameOf rows) xs)
    (fun i => insertFrameList (frameOf (n := 1) fun _ => rows i) (listRow xs i))
  | [] => by
    simp only [insertFrameList]
    exact .ok fun i => rfl
  | x :: xs => by
    simp only [listRow_cons, insertFrameList]
    exact .bind (insert_row x) fun y _ => .bind (insertList_row xs) fun ys _ => .ok fun i => rfl
theorem insertDict_row : (xs : List (String × Val n)) → RowBy dictRow (insertFrameDict (frameOf rows) xs)
    (fun i => insertFrameDict (frameOf (n := 1) fun _ => rows i) (dictRow xs i))
  | [] => by
    simp only [insertFrameDict]
    exact .ok fun i => rfl
  | (k, x) :: xs => by
    simp only [dictRow_cons, insertFrameDict]
    exact .bind (insert_row x) fun y _ => .bind (insertDict_row xs) fun ys _ => .ok fun i => rfl
end

end

/-! ### No arrays below global keys after insertion -/

theorem mapArrList_get (f : A → B) (xs : List (Cfg S A)) (i : ℕ) :
    (mapArrList f xs)[i]? = xs[i]?.map (mapArr f) := by
  induction xs generalizing i with
  | nil => rfl
  | cons x xs ih => cases i with
    | zero => rfl
    | succ i => rw [mapArrList, List.getElem?_cons_succ, List.getElem?_cons_succ, ih]

theorem mapArrDict_get (f : A → B) (xs : List (String × Cfg S A)) (i : ℕ) :
    (mapArrDict f xs)[i]? = xs[i]?.map fun e => (e.1, mapArr f e.2) := by
  induction xs generalizing i with
  | nil => rfl
  | cons x xs ih => cases i with
    | zero => rfl
    | succ i =>
      obtain ⟨k, x⟩ := x
      rw [mapArrDict, List.getElem?_cons_succ, List.getElem?_cons_succ, ih]

theorem child_mapArr (f : A → B) (x : Cfg S A) (i : ℕ) : child (mapArr f x) i = (child x i).map (mapArr f) := by
  cases x with
  | scalar s => simp only [mapArr, child, Option.map_none]
  | str s => simp only [mapArr, child, Option.map_none]
  | arr a => simp only [mapArr, child, Option.map_none]
  | list xs => simp only [mapArr, child]; rw [mapArrList_get]
  | dict xs =>
    simp only [mapArr, child]; rw [mapArrDict_get]
    cases xs[i]? <;> rfl

theorem at_mapArr (f : A → B) (x : Cfg S A) (p : List ℕ) : at? (mapArr f x) p = (at? x p).map (mapArr f) := by
  induction p generalizing x with
  | nil => rfl
  | cons i p ih =>
    simp only [at?]
    rw [child_mapArr]
    cases hc : child x i with
    | none => rfl
    | some y => exact ih y

theorem refAt_mapArr {f : A → B} {x : Cfg S A} {q : List ℕ} {name : Cfg S B}
    (h : RefAt (mapArr f x) q name) : ∃ name, RefAt x q name := by
  obtain ⟨y, hy, hr⟩ := h
  rw [at_mapArr] at hy
  cases ha : at? x q with
  | none => rw [ha] at hy; cases hy
  | some z =>
    rw [ha] at hy
    injection hy with hy
    unfold IsRef at hr
    rw [hr] at hy
    cases z with
    | dict zs =>
      rw [mapArr] at hy
      injection hy with hy
      match zs, hy with
      | [(k, w)], hy =>
        rw [mapArrDict] at hy
        injection hy with hy
        injection hy with hy
        exact ⟨w, _, ha, by unfold IsRef; rw [hy]⟩
      | [], hy => cases hy
      | (k, w) :: (k', w') :: zs, hy =>
        rw [mapArrDict, mapArrDict] at hy; cases hy
    | scalar s => rw [mapArr] at hy; cases hy
    | str s => rw [mapArr] at hy; cases hy
    | arr s => rw [mapArr] at hy; cases hy
    | list s => rw [mapArr] at hy; cases hy

theorem noColumn_mapArr {f : A → B} {x : Cfg S A} (h : NoColumnInGlobals x) : NoColumnInGlobals (mapArr f x) := by
  intro p ys hp e he hk q name hr
  rw [at_mapArr] at hp
  cases ha : at? x p with
  | none => rw [ha] at hp; cases hp
  | some z =>
    rw [ha] at hp
    injection hp with hp
    cases z with
    | dict zs =>
      rw [mapArr] at hp
      injection hp with hp
      subst hp
      obtain ⟨i, hi, rfl⟩ := List.getElem_of_mem he
      have h1 : (mapArrDict f zs)[i]? = some (mapArrDict f zs)[i] := List.getElem?_eq_getElem hi
      rw [mapArrDict_get] at h1
      cases hz : zs[i]? with
      | none => rw [hz] at h1; cases h1
      | some w =>
        rw [hz] at h1
        injection h1 with h1
        rw [← h1] at hk hr
        obtain ⟨name', hr⟩ := refAt_mapArr hr
        exact h p zs ha w (List.mem_of_getElem? hz) hk q name' hr
    | scalar s => rw [mapArr] at hp; cases hp
    | str s => rw [mapArr] at hp; cases hp
    | arr s => rw [mapArr] at hp; cases hp
    | list s => rw [mapArr] at hp; cases hp

theorem noColumn_child {x y : Cfg S A} {i : ℕ} (h : NoColumnInGlobals x) (hy : child x i = some y) :
    NoColumnInGlobals y := by
  intro p xs hp
  exact h (i :: p) xs (by simp only [at?]; rw [hy]; exact hp)

theorem insert_arrFree {t : Frame A} {x y : Cfg S A} (hx : ArrFree x) (hr : ∀ p name, ¬ RefAt x p name)
    (hy : insertFrame t x = .ok y) : ArrFree y := by
  rw [insert_of_no_ref t x hr] at hy
  injection hy with hy; subst hy; exact hx

theorem insert_dict_form {t : Frame A} {d : List (String × Cfg S A)} {y : Cfg S A}
    (hy : insertFrame t (.dict d) = .ok y) : (∃ d', y = .dict d') ∨ ∃ a, y = .arr a := by
  match d, hy with
  | [], hy =>
    simp only [insertFrame, insertFrameDict] at hy
    injection hy with hy; exact .inl ⟨_, hy.symm⟩
  | [(k, v)], hy =>
    simp only [insertFrame] at hy
    split at hy
    · obtain ⟨a, -, hy⟩ := bind_eq_ok.mp hy
      injection hy with hy; exact .inr ⟨_, hy.symm⟩
    · obtain ⟨a, -, hy⟩ := bind_eq_ok.mp hy
      injection hy with hy; exact .inl ⟨_, hy.symm⟩
  | (k, x) :: (k', x') :: xs, hy =>
    simp only [insertFrame] at hy
    obtain ⟨a, -, hy⟩ := bind_eq_ok.mp hy
    injection hy with hy; exact .inl ⟨_, hy.symm⟩

/-- What `NoListedValues` says of a part of a configuration, which may be one of the lists. -/
def ListsHoldMaps (x : Cfg S A) : Prop :=
  (∀ xs, x = .list xs → ∀ y ∈ xs, ∃ d, y = .dict d) ∧
  ∀ d, Within x (.dict d) → ∀ e ∈ d, e.1 ∉ globalKeys → ∀ xs, e.2 = .list xs →
    e.1 ∈ listKeys ∧ ∀ x ∈ xs, ∃ d, x = .dict d

theorem NoListedValues.listsHoldMaps {x : Cfg S A} (h : NoListedValues x) : ListsHoldMaps x :=
  ⟨fun xs hx => absurd hx (h.1 xs), h.2⟩

theorem noListed_list {xs : List (Cfg S A)} (h : ListsHoldMaps (.list xs)) :
    ∀ x ∈ xs, ListsHoldMaps x ∧ ∃ d, x = .dict d := fun x hx => by
  obtain ⟨d, hd⟩ := h.1 xs rfl x hx
  refine ⟨⟨fun ys hy => ?_, fun d hd => h.2 d (.list hx hd)⟩, d, hd⟩
  rw [hd] at hy; cases hy

theorem noListed_dict {xs : List (String × Cfg S A)} (h : ListsHoldMaps (.dict xs)) :
    ∀ e ∈ xs, e.1 ∉ globalKeys → ListsHoldMaps e.2 ∧ (e.1 ∉ listKeys → ∀ ys, e.2 ≠ .list ys) :=
  fun e he hk => ⟨⟨fun ys hy => (h.2 xs (.here _) e he hk ys hy).2, fun d hd => h.2 d (.dict he hk hd)⟩,
    fun hk' ys hy => hk' (h.2 xs (.here _) e he hk ys hy).1⟩

/-- Insertion makes no lists. -/
theorem insert_not_list {t : Frame A} {x y : Cfg S A} (hx : ∀ ys, x ≠ .list ys) (hy : insertFrame t x = .ok y) :
    ∀ ys, y ≠ .list ys := by
  intro ys e
  subst e
  cases x with
  | scalar s => simp only [insertFrame] at hy; injection hy with hy; cases hy
  | str s => simp only [insertFrame] at hy; injection hy with hy; cases hy
  | arr s => simp only [insertFrame] at hy; injection hy with hy; cases hy
  | list xs => exact hx xs rfl
  | dict d => rcases insert_dict_form hy with ⟨_, h⟩ | ⟨_, h⟩ <;> cases h

mutual
theorem insert_clean (t : Frame A) : (x : Cfg S A) → ArrFree x → NoColumnInGlobals x → ListsHoldMaps x →
    ∀ y, insertFrame t x = .ok y → Clean y
  | .scalar s, _, _, _, y, hy => by simp only [insertFrame] at hy; injection hy with hy; subst hy; trivial
  | .str s, _, _, _, y, hy => by simp only [insertFrame] at hy; injection hy with hy; subst hy; trivial
  | .arr s, _, _, _, y, hy => by simp only [insertFrame] at hy; injection hy with hy; subst hy; trivial
  | .list xs, ha, hn, hl, y, hy => by
    simp only [insertFrame] at hy
    obtain ⟨ys, hys, hy⟩ := bind_eq_ok.mp hy
    injection hy with hy; subst hy
    rw [ArrFree] at ha
    rw [Clean]
    exact insertList_clean t xs ha (fun i z hz => noColumn_child hn hz) (noListed_list hl) ys hys
  | .dict [(k, v)], ha, hn, hl, y, hy => by
    simp only [insertFrame] at hy
    rw [ArrFree, ArrFreeDict] at ha
    by_cases hk : k = "column"
    · rw [if_pos hk] at hy
      obtain ⟨a, -, hy⟩ := bind_eq_ok.mp hy
      injection hy with hy; subst hy
      trivial
    · rw [if_neg hk] at hy
      obtain ⟨w, hw, hy⟩ := bind_eq_ok.mp hy
      injection hy with hy; subst hy
      rw [Clean, CleanDict]
      exact ⟨fun hg => insert_arrFree ha.1 (hn [] _ rfl (k, v) (by simp) hg) hw,
        fun hg => ⟨insert_clean t v ha.1 (noColumn_child (i := 0) hn rfl)
          (noListed_dict hl (k, v) (by simp) hg).1 w hw,
          fun hk => insert_not_list ((noListed_dict hl (k, v) (by simp) hg).2 hk) hw⟩, trivial⟩
  | .dict [], ha, hn, hl, y, hy => by
    simp only [insertFrame, insertFrameDict] at hy
    injection hy with hy; subst hy
    trivial
  | .dict ((k, x) :: (k', x') :: xs), ha, hn, hl, y, hy => by
    simp only [insertFrame] at hy
    obtain ⟨ys, hys, hy⟩ := bind_eq_ok.mp hy
    injection hy with hy; subst hy
    rw [ArrFree] at ha
    rw [Clean]
    exact insertDict_clean t ((k, x) :: (k', x') :: xs) ha (fun i z hz => noColumn_child hn hz)
      (hn [] _ rfl) (noListed_dict hl) ys hys
theorem insertList_clean (t : Frame A) : (xs : List (Cfg S A)) → ArrFreeList xs →
    (∀ (i : ℕ) z, child (.list xs) i = some z → NoColumnInGlobals z) →
    (∀ x ∈ xs, ListsHoldMaps x ∧ ∃ d, x = .dict d) →
    ∀ ys, insertFrameList t xs = .ok ys → CleanList ys
  | [], _, _, _, ys, hy => by simp only [insertFrameList] at hy; injection hy with hy; subst hy; trivial
  | x :: xs, ha, hn, hl, ys, hy => by
    simp only [insertFrameList] at hy
    obtain ⟨z, hz, hy⟩ := bind_eq_ok.mp hy
    obtain ⟨zs, hzs, hy⟩ := bind_eq_ok.mp hy
    injection hy with hy; subst hy
    rw [ArrFreeList] at ha
    rw [CleanList]
    have h1 := insert_clean t x ha.1 (hn 0 x rfl) (hl x List.mem_cons_self).1 z hz
    have h2 : (∃ d, z = .dict d) ∨ ∃ a, z = .arr a := by
      obtain ⟨d, hd⟩ := (hl x List.mem_cons_self).2
      rw [hd] at hz
      exact insert_dict_form hz
    exact ⟨⟨h1, h2⟩, insertList_clean t xs ha.2 (fun i w hw => hn (i + 1) w hw)
      (fun y hy => hl y (List.mem_cons_of_mem _ hy)) zs hzs⟩
theorem insertDict_clean (t : Frame A) : (xs : List (String × Cfg S A)) → ArrFreeDict xs →
    (∀ (i : ℕ) z, child (.dict xs) i = some z → NoColumnInGlobals z) →
    (∀ e ∈ xs, e.1 ∈ globalKeys → ∀ q name, ¬ RefAt e.2 q name) →
    (∀ e ∈ xs, e.1 ∉ globalKeys → ListsHoldMaps e.2 ∧ (e.1 ∉ listKeys → ∀ ys, e.2 ≠ .list ys)) →
    ∀ ys, insertFrameDict t xs = .ok ys → CleanDict ys
  | [], _, _, _, _, ys, hy => by simp only [insertFrameDict] at hy; injection hy with hy; subst hy; trivial
  | (k, x) :: xs, ha, hn, hg, hl, ys, hy => by
    simp only [insertFrameDict] at hy
    obtain ⟨z, hz, hy⟩ := bind_eq_ok.mp hy
    obtain ⟨zs, hzs, hy⟩ := bind_eq_ok.mp hy
    injection hy with hy; subst hy
    rw [ArrFreeDict] at ha
    rw [CleanDict]
    exact ⟨fun hk => insert_arrFree ha.1 (hg (k, x) List.mem_cons_self hk) hz,
      fun hk => ⟨insert_clean t x ha.1 (hn 0 x rfl) (hl (k, x) List.mem_cons_self hk).1 z hz,
        fun hk' => insert_not_list ((hl (k, x) List.mem_cons_self hk).2 hk') hz⟩,
      insertDict_clean t xs ha.2 (fun i w hw => hn (i + 1) w hw)
        (fun e he => hg e (List.mem_cons_of_mem _ he)) (fun e he => hl e (List.mem_cons_of_mem _ he)) zs hzs⟩
end

/-! ### Parsing row by row -/

/-- Parsing with `p` is row-wise (`p1` is `p` for one row). -/
def Rw {α β : Type} (row : α → Fin n → β) (p : Val n → Except Err α) (p1 : Val 1 → Except Err β) : Prop :=
  ∀ v : Val n, Clean v → NotList v → RowBy row (p v) (fun i => p1 (valRow v i))

/-- The same, also for lists. -/
def RwAny {α β : Type} (row : α → Fin n → β) (p : Val n → Except Err α) (p1 : Val 1 → Except Err β) : Prop :=
  ∀ v : Val n, Clean v → RowBy row (p v) (fun i => p1 (valRow v i))

/-- The same, only for values without arrays. -/
def RwFree {α β : Type} (row : α → Fin n → β) (p : Val n → Except Err α) (p1 : Val 1 → Except Err β) : Prop :=
  ∀ v : Val n, ArrFree v → RowBy row (p v) (fun i => p1 (valRow v i))

section
variable [NeZero n] {α β γ δ : Type} {rowA : α → Fin n → β}

theorem constBy {α β : Type} {row : α → Fin n → β} {x : Except Err α} {y : Except Err β}
    (h : ∀ a, x = .ok a → ∀ i, y = .ok (row a i)) (he : ∀ e, x = .error e → ∃ e, y = .error e) :
    RowBy row x (fun _ => y) := by
  cases x with
  | error e => exact .error fun i => he e rfl
  | ok a => exact .ok fun i => h a rfl i

theorem vec_fails {α : Type} {m : ℕ} {f : Fin m → Except Err α} (i : Fin m) {e : Err} (h : f i = .error e) :
    ∃ e, OPE.vec f = .error e := by
  cases hv : OPE.vec f with
  | error e => exact ⟨e, rfl⟩
  | ok x =>
    have := vec_ok_iff.mp hv i
    rw [h] at this; cases this

theorem rw_toCol (conv : Conv) : Rw (n := n) Col.row (toCol conv) (toCol conv) := by
  intro v _ hl
  cases v with
  | scalar s =>
    have hv : ∀ i, valRow (.scalar s : Val n) i = .scalar s := fun i => by rw [valRow, mapArr]
    simp only [hv, toCol]
    cases s.toNum with
    | none => exact .error fun i => ⟨_, rfl⟩
    | some x => exact .ok fun i => rfl
  | str s =>
    have hv : ∀ i, valRow (.str s : Val n) i = .str s := fun i => by rw [valRow, mapArr]
    simp only [hv, toCol]
    cases conv.floatOf s with
    | none => exact .error fun i => ⟨_, rfl⟩
    | some x => exact .ok fun i => rfl
  | arr a =>
    have hv : ∀ i, valRow (.arr a : Val n) i = .arr (a.row i) := fun i => by rw [valRow, mapArr]
    simp only [hv]
    cases a with
    | col x =>
      simp only [Arr.row, toCol]
      exact .vec fun i => rfl
    | cols xs => exact .error fun i => ⟨_, rfl⟩
  | list xs => exact absurd rfl (hl xs)
  | dict xs => exact .error fun i => ⟨_, by rw [valRow_dict]; rfl⟩

theorem optional_of_ne {p : Val n → Except Err α} {v : Val n} (h : v ≠ .scalar .null) :
    optional p v = (p v >>= fun a => .ok (some a)) := by
  unfold optional
  split
  · exact absurd rfl h
  · rfl

theorem valRow_ne {v : Val n} (h : v ≠ .scalar .null) (i : Fin n) : valRow v i ≠ .scalar .null := by
  cases v with
  | scalar s => rw [valRow, mapArr]; intro e; injection e with e; subst e; exact h rfl
  | str s => rw [valRow, mapArr]; exact fun e => (nomatch e)
  | arr s => rw [valRow, mapArr]; exact fun e => (nomatch e)
  | list s => rw [valRow, mapArr]; exact fun e => (nomatch e)
  | dict s => rw [valRow, mapArr]; exact fun e => (nomatch e)

theorem optionalBy {p : Val n → Except Err α} {p1 : Val 1 → Except Err β} {v : Val n}
    (h : RowBy rowA (p v) (fun i => p1 (valRow v i))) :
    RowBy (fun (x : Option α) i => x.map (rowA · i)) (optional p v) (fun i => optional p1 (valRow v i)) := by
  by_cases hv : v = .scalar .null
  · subst hv
    have : ∀ i, valRow (.scalar .null : Val n) i = .scalar .null := fun i => by rw [valRow, mapArr]
    simp only [this]
    exact .ok fun i => rfl
  · rw [optional_of_ne hv]
    simp only [optional_of_ne (valRow_ne hv _)]
    exact .bind h fun a _ => .ok fun i => rfl

theorem rw_optional {p : Val n → Except Err α} {p1 : Val 1 → Except Err β} (h : Rw rowA p p1) :
    Rw (fun (x : Option α) i => x.map (rowA · i)) (optional p) (optional p1) :=
  fun v hv hl => optionalBy (h v hv hl)

theorem rw_eachOf {p : Val n → Except Err α} {p1 : Val 1 → Except Err β} (h : Rw rowA p p1)
    (xs : List (Val n)) (hx : CleanList xs) :
    RowBy (fun (x : List α) i => x.map (rowA · i)) (eachOf p xs) (fun i => eachOf p1 (listRow xs i)) := by
  induction xs with
  | nil => exact .ok fun i => rfl
  | cons x xs ih =>
    rw [CleanList] at hx
    simp only [listRow_cons, eachOf]
    have hl : NotList x := by
      rintro vs rfl
      rcases hx.1.2 with ⟨_, h⟩ | ⟨_, h⟩ <;> cases h
    exact .bind (h x hx.1.1 hl) fun y _ => .bind (ih hx.2) fun ys _ => .ok fun i => rfl

theorem rw_listOf {p : Val n → Except Err α} {p1 : Val 1 → Except Err β} (h : Rw rowA p p1) :
    RwAny (fun (x : List α) i => x.map (rowA · i)) (listOf p) (listOf p1) := by
  intro v hv
  cases v with
  | list xs =>
    rw [Clean] at hv
    simp only [valRow_list, listOf]
    exact rw_eachOf h xs hv
  | scalar s => exact .error fun i => ⟨_, by rw [valRow, mapArr]; rfl⟩
  | str s => exact .error fun i => ⟨_, by rw [valRow, mapArr]; rfl⟩
  | arr s => exact .error fun i => ⟨_, by rw [valRow, mapArr]; rfl⟩
  | dict s => exact .error fun i => ⟨_, by rw [valRow, mapArr]; rfl⟩

/-- Row `i` of keyword arguments. -/
def argsRow (a : Args n) (i : Fin n) : Args 1 := fun k => (a k).map (valRow · i)

/-- Keyword arguments whose global ones have no arrays. -/
def CleanArgs (a : Args n) : Prop :=
  ∀ key x, a key = some x → (key ∈ globalKeys → ArrFree x) ∧
    (key ∉ globalKeys → Clean x ∧ (key ∉ listKeys → NotList x))

theorem args_clean {fields : List String} {v : Val n} {a : Args n} (hv : Clean v) (hl : NotList v)
    (ha : args fields v = .ok a) : CleanArgs a := by
  obtain ⟨xs, hx, -, rfl⟩ := args_ok.mp ha
  rw [named_of_not_list hl] at hx
  subst hx
  rw [Clean] at hv
  exact fun key x hx => cleanDict_lookup hv hx

omit [NeZero n] in
theorem zip_row (fields : List String) (vs : List (Val n)) (i : Fin n) :
    fields.zip (listRow vs i) = dictRow (fields.zip vs) i := by
  induction fields generalizing vs with
  | nil => rfl
  | cons f fields ih =>
    cases vs with
    | nil => rfl
    | cons v vs => rw [listRow_cons, List.zip_cons_cons, List.zip_cons_cons, dictRow_cons, ih]

omit [NeZero n] in
theorem listRow_length (vs : List (Val n)) (i : Fin n) : (listRow vs i).length = vs.length := by
  induction vs with
  | nil => rfl
  | cons v vs ih => rw [listRow_cons, List.length_cons, List.length_cons, ih]

omit [NeZero n] in
/-- A section written as a list has the same fields in every row. -/
theorem named_row (fields : List String) (v : Val n) (i : Fin n) :
    named fields (valRow v i) = valRow (named fields v) i := by
  cases v with
  | list vs =>
    rw [valRow_list]
    unfold named
    dsimp only
    rw [listRow_length]
    split
    · rw [valRow_dict, zip_row]
    · rw [valRow_list]
  | dict xs => rw [valRow_dict]; exact (valRow_dict xs i).symm
  | scalar s => rw [valRow, mapArr]; unfold named valRow mapArr; rfl
  | str s => rw [valRow, mapArr]; unfold named valRow mapArr; rfl
  | arr s => rw [valRow, mapArr]; unfold named valRow mapArr; rfl

theorem rw_args (fields : List String) (v : Val n) :
    RowBy argsRow (args fields v) (fun i => args fields (valRow v i)) := by
  unfold args
  simp only [named_row]
  generalize named fields v = v
  cases v with
  | dict xs =>
    simp only [valRow_dict]
    have hkeys : ∀ i, ((dictRow xs i).all fun x => decide (x.1 ∈ fields)) = xs.all fun x => decide (x.1 ∈ fields) := by
      intro i
      have : ∀ {T : Type} (l : List (String × T)), (l.all fun x => decide (x.1 ∈ fields))
          = (l.map Prod.fst).all fun k => decide (k ∈ fields) := fun l => by
        rw [List.all_map]; rfl
      rw [this, this, dictRow, mapArrDict_keys]
    simp only [hkeys]
    by_cases hx : (xs.all fun x => decide (x.1 ∈ fields)) = true
    · simp only [if_pos hx]
      exact .ok fun i => by
        congr 1
        funext k
        rw [dictRow, mapArrDict_lookup]; rfl
    · simp only [if_neg hx]
      exact .error fun i => ⟨_, rfl⟩
  | scalar s => exact .error fun i => ⟨_, by rw [valRow, mapArr]⟩
  | str s => exact .error fun i => ⟨_, by rw [valRow, mapArr]⟩
  | arr s => exact .error fun i => ⟨_, by rw [valRow, mapArr]⟩
  | list s => exact .error fun i => ⟨_, by rw [valRow, mapArr]⟩

theorem rw_required {p : Val n → Except Err α} {p1 : Val 1 → Except Err β} (h : Rw rowA p p1) {a : Args n}
    (ha : CleanArgs a) (key : String) (hkey : key ∉ globalKeys := by decide) (hkey2 : key ∉ listKeys := by decide) :
    RowBy rowA (required a key p) (fun i => required (argsRow a i) key p1) := by
  unfold required argsRow
  cases hk : a key with
  | none => exact .error fun i => ⟨_, rfl⟩
  | some v => exact h v ((ha key v hk).2 hkey).1 (((ha key v hk).2 hkey).2 hkey2)

theorem rw_defaulted {p : Val n → Except Err α} {p1 : Val 1 → Except Err β} (h : Rw rowA p p1) {a : Args n}
    (ha : CleanArgs a) (key : String) {d : α} {d1 : β} (hd : ∀ i, d1 = rowA d i)
    (hkey : key ∉ globalKeys := by decide) (hkey2 : key ∉ listKeys := by decide) :
    RowBy rowA (defaulted a key p d) (fun i => defaulted (argsRow a i) key p1 d1) := by
  unfold defaulted argsRow
  cases hk : a key with
  | none => exact .ok fun i => by rw [hd i]; rfl
  | some v => exact h v ((ha key v hk).2 hkey).1 (((ha key v hk).2 hkey).2 hkey2)

theorem rw_defaulted_list {p : Val n → Except Err α} {p1 : Val 1 → Except Err β} (h : RwAny rowA p p1)
    {a : Args n} (ha : CleanArgs a) (key : String) {d : α} {d1 : β} (hd : ∀ i, d1 = rowA d i)
    (hkey : key ∉ globalKeys := by decide) :
    RowBy rowA (defaulted a key p d) (fun i => defaulted (argsRow a i) key p1 d1) := by
  unfold defaulted argsRow
  cases hk : a key with
  | none => exact .ok fun i => by rw [hd i]; rfl
  | some v => exact h v ((ha key v hk).2 hkey).1

theorem free_required {p : Val n → Except Err α} {p1 : Val 1 → Except Err β} (h : RwFree rowA p p1) {a : Args n}
    (ha : CleanArgs a) (key : String) (hkey : key ∈ globalKeys) :
    RowBy rowA (required a key p) (fun i => required (argsRow a i) key p1) := by
  unfold required argsRow
  cases hk : a key with
  | none => exact .error fun i => ⟨_, rfl⟩
  | some v => exact h v ((ha key v hk).1 hkey)

theorem free_defaulted {p : Val n → Except Err α} {p1 : Val 1 → Except Err β} (h : RwFree rowA p p1) {a : Args n}
    (ha : CleanArgs a) (key : String) (hkey : key ∈ globalKeys) {d : α} {d1 : β} (hd : ∀ i, d1 = rowA d i) :
    RowBy rowA (defaulted a key p d) (fun i => defaulted (argsRow a i) key p1 d1) := by
  unfold defaulted argsRow
  cases hk : a key with
  | none => exact .ok fun i => by rw [hd i]; rfl
  | some v => exact h v ((ha key v hk).1 hkey)

theorem rw_literal (tag : String) : Rw (n := n) (fun _ _ => ()) (literal tag) (literal tag) := by
  intro v _ _
  cases v with
  | str s =>
    have hv : ∀ i, valRow (.str s : Val n) i = .str s := fun i => by rw [valRow, mapArr]
    simp only [hv, literal]
    exact .const
  | scalar s => exact .error fun i => ⟨_, by rw [valRow, mapArr]; rfl⟩
  | dict s => exact .error fun i => ⟨_, by rw [valRow, mapArr]; rfl⟩
  | arr s => exact .error fun i => ⟨_, by rw [valRow, mapArr]; rfl⟩
  | list s => exact .error fun i => ⟨_, by rw [valRow, mapArr]; rfl⟩

theorem rw_tagged {a : Args n} (ha : CleanArgs a) (tag : String) :
    RowBy (fun _ _ => ()) (tagged a tag) (fun i => tagged (argsRow a i) tag) :=
  rw_defaulted (rw_literal tag) ha "type" fun _ => rfl

/-- A choice between two alternatives is row-wise if no row that the second accepts differs from a row that
the first accepts. -/
theorem choice {p q : Val n → Except Err α} {p1 q1 : Val 1 → Except Err β} {v : Val n}
    (hp : RowBy rowA (p v) (fun i => p1 (valRow v i))) (hq : RowBy rowA (q v) (fun i => q1 (valRow v i)))
    (hE : ∀ i j a b, q1 (valRow v i) = .ok a → p1 (valRow v j) = .ok b → ∃ c, p1 (valRow v i) = .ok c) :
    RowBy rowA (match p v with | .ok a => .ok a | .error _ => q v)
      (fun i => match p1 (valRow v i) with | .ok a => .ok a | .error _ => q1 (valRow v i)) := by
  constructor
  · intro r hr i
    cases hpv : p v with
    | ok a =>
      rw [hpv] at hr
      injection hr with hr; subst hr
      simp only [hp.1 a hpv i]
    | error e =>
      rw [hpv] at hr
      have hqr := hq.1 r hr
      have : ∀ j, ∃ e, p1 (valRow v j) = .error e := by
        intro j
        cases hj : p1 (valRow v j) with
        | error e => exact ⟨e, rfl⟩
        | ok b =>
          obtain ⟨c, hc⟩ := hp.2 fun k => hE k j _ b (hqr k) hj
          rw [hpv] at hc; cases hc
      obtain ⟨e', he'⟩ := this i
      simp only [he']
      exact hqr i
  · intro h
    by_cases hsome : ∃ j b, p1 (valRow v j) = .ok b
    · obtain ⟨j, b, hj⟩ := hsome
      obtain ⟨c, hc⟩ := hp.2 fun i => by
        cases hi : p1 (valRow v i) with
        | ok a => exact ⟨a, hi⟩
        | error e =>
          obtain ⟨a, ha⟩ := h i
          simp only [hi] at ha
          obtain ⟨c, hc⟩ := hE i j a b ha hj
          rw [hi] at hc; cases hc
      exact ⟨c, by rw [hc]⟩
    · push Not at hsome
      have he : ∀ i, ∃ e, p1 (valRow v i) = .error e := fun i => by
        cases hi : p1 (valRow v i) with
        | error e => exact ⟨e, rfl⟩
        | ok a => exact absurd hi (hsome i a)
      obtain ⟨c, hc⟩ := hq.2 fun i => by
        obtain ⟨a, ha⟩ := h i
        obtain ⟨e, he⟩ := he i
        simp only [he] at ha
        exact ⟨a, ha⟩
      obtain ⟨e, he'⟩ := hp.error_iff.mpr ⟨0, he 0⟩
      exact ⟨c, by rw [he']; exact hc⟩

end

end OPE.Parse
