import Verif.Spec.Schema
import Verif.Props.Document2

/-!
# C115: an accepted configuration has only documented keys and names
-/

namespace OPE.Schema

open Parse Doc

variable {n : ℕ}

/-- Columns inserted into a document. -/
noncomputable def ins (rows : Fin n → DataRow) (y : Yaml) : Except Err (Val n) :=
  insertFrame (frameOf rows) (mapArr Empty.elim y)

theorem insertFrameDict_lookup {t : Frame (Arr n)} {xs : List (String × Yaml)} {vs : List (String × Val n)}
    (h : insertFrameDict t (mapArrDict Empty.elim xs) = .ok vs) (key : String) :
    (xs.lookup key = none ∧ vs.lookup key = none) ∨
      ∃ z w, xs.lookup key = some z ∧ vs.lookup key = some w ∧ insertFrame t (mapArr Empty.elim z) = .ok w := by
  induction xs generalizing vs with
  | nil => injection h with h; subst h; exact .inl ⟨rfl, rfl⟩
  | cons x xs ih =>
    obtain ⟨k, y⟩ := x
    simp only [mapArrDict, insertFrameDict] at h
    obtain ⟨w, hw, h⟩ := bind_eq_ok.mp h
    obtain ⟨ws, hws, h⟩ := bind_eq_ok.mp h
    injection h with h; subst h
    simp only [List.lookup_cons]
    by_cases hk : key == k
    · simp only [hk]
      exact .inr ⟨y, w, rfl, rfl, hw⟩
    · simp only [hk]
      exact ih hws

theorem insertFrameDict_keys {t : Frame (Arr n)} {xs : List (String × Yaml)} {vs : List (String × Val n)}
    (h : insertFrameDict t (mapArrDict Empty.elim xs) = .ok vs) : vs.map Prod.fst = xs.map Prod.fst := by
  induction xs generalizing vs with
  | nil => injection h with h; subst h; rfl
  | cons x xs ih =>
    obtain ⟨k, y⟩ := x
    simp only [mapArrDict, insertFrameDict] at h
    obtain ⟨w, hw, h⟩ := bind_eq_ok.mp h
    obtain ⟨ws, hws, h⟩ := bind_eq_ok.mp h
    injection h with h; subst h
    simp only [List.map_cons, ih hws]

/-- What a mapping after insertion was before. -/
theorem ins_dict {rows : Fin n → DataRow} {y : Yaml} {vs : List (String × Val n)} (h : ins rows y = .ok (.dict vs)) :
    ∃ xs, y = .dict xs ∧ insertFrameDict (frameOf rows) (mapArrDict Empty.elim xs) = .ok vs := by
  unfold ins at h
  cases y with
  | scalar s => simp only [mapArr, insertFrame] at h; cases h
  | str s => simp only [mapArr, insertFrame] at h; cases h
  | arr a => exact a.elim
  | list xs =>
    simp only [mapArr, insertFrame] at h
    obtain ⟨w, hw, h⟩ := bind_eq_ok.mp h
    cases h
  | dict xs =>
    refine ⟨xs, rfl, ?_⟩
    match xs, h with
    | [], h =>
      simp only [mapArr, mapArrDict, insertFrame, insertFrameDict, bind_ok] at h
      injection h with h; injection h with h; subst h; rfl
    | [(k, z)], h =>
      simp only [mapArr, mapArrDict, insertFrame] at h
      split at h
      · obtain ⟨w, hw, h⟩ := bind_eq_ok.mp h
        cases h
      · obtain ⟨w, hw, h⟩ := bind_eq_ok.mp h
        injection h with h; injection h with h; subst h
        simp only [mapArrDict, insertFrameDict, hw, bind_ok]
    | x :: x' :: xs, h =>
      obtain ⟨k, z⟩ := x
      obtain ⟨k', z'⟩ := x'
      simp only [mapArr, mapArrDict, insertFrame] at h
      obtain ⟨w, hw, h⟩ := bind_eq_ok.mp h
      injection h with h; injection h with h; subst h
      simpa only [mapArrDict] using hw

/-- The entry of a field, before and after insertion. -/
def At (rows : Fin n → DataRow) (xs : List (String × Yaml)) (a : Args n) : Prop :=
  ∀ key, (xs.lookup key = none ∧ a key = none) ∨ ∃ z w, xs.lookup key = some z ∧ a key = some w ∧ ins rows z = .ok w

theorem zip_at {rows : Fin n → DataRow} {ys : List Yaml} {vs : List (Val n)}
    (h : List.Forall₂ (fun z w => ins rows z = .ok w) ys vs) (fields : List String) (key : String) :
    ((fields.zip ys).lookup key = none ∧ (fields.zip vs).lookup key = none) ∨
      ∃ z w, (fields.zip ys).lookup key = some z ∧ (fields.zip vs).lookup key = some w ∧ ins rows z = .ok w := by
  induction h generalizing fields with
  | nil => left; simp
  | @cons y v ys vs hz _ ih =>
    cases fields with
    | nil => left; simp
    | cons f fields =>
      simp only [List.zip_cons_cons, List.lookup_cons]
      cases hb : key == f with
      | true => exact .inr ⟨y, v, rfl, rfl, hz⟩
      | false => exact ih fields

theorem shape_of {rows : Fin n → DataRow} {y : Yaml} {v : Val n} {fields : List String} {a : Args n} (hy : ins rows y = .ok v)
    (hl : ∀ {vs : List (Val n)}, v = .list vs → ∃ ys, y = .list ys ∧ List.Forall₂ (fun z w => ins rows z = .ok w) ys vs)
    (ha : args fields v = .ok a) :
    (∃ xs, y = .dict xs ∧ (∀ x ∈ xs, x.1 ∈ fields) ∧ At rows xs a) ∨
      ∃ ys, y = .list ys ∧ ys.length ≤ fields.length ∧ At rows (fields.zip ys) a := by
  cases v with
  | dict vs =>
    left
    obtain ⟨xs, rfl, h⟩ := ins_dict hy
    refine ⟨xs, rfl, ?_, ?_⟩
    · intro x hx
      have h1 : x.1 ∈ vs.map Prod.fst := insertFrameDict_keys h ▸ List.mem_map_of_mem hx
      obtain ⟨x', hx', e⟩ := List.mem_map.mp h1
      unfold args at ha
      simp only [named] at ha
      split at ha
      · rename_i hall
        have := List.all_eq_true.mp hall x' hx'
        rw [← e]
        simpa using this
      · cases ha
    · intro key
      have hak : a key = vs.lookup key := by
        unfold args at ha
        simp only [named] at ha
        split at ha
        · injection ha with ha; rw [← ha]
        · cases ha
      rw [hak]
      exact insertFrameDict_lookup h key
  | list vs =>
    right
    obtain ⟨ys, rfl, hys⟩ := hl rfl
    unfold args at ha
    simp only [named] at ha
    by_cases hlen : vs.length ≤ fields.length
    · refine ⟨ys, rfl, by rw [hys.length_eq]; exact hlen, fun key => ?_⟩
      rw [if_pos hlen] at ha
      dsimp only at ha
      split at ha
      · injection ha with ha
        rw [← ha]
        exact zip_at hys fields key
      · cases ha
    · rw [if_neg hlen] at ha
      cases ha
  | _ => cases ha

theorem At.need {α : Type} {rows : Fin n → DataRow} {xs : List (String × Yaml)} {a : Args n} (h : At rows xs a) {key : String}
    {p : Val n → Except Err α} {r : α} (hr : required a key p = .ok r) {R : Yaml → Prop}
    (hR : ∀ z w, ins rows z = .ok w → p w = .ok r → R z) : (Doc.need key R).2 (xs.lookup key) := by
  obtain ⟨w, hw, hp⟩ := required_ok.mp hr
  rcases h key with ⟨-, h⟩ | ⟨z, w', h1, h2, h3⟩
  · rw [hw] at h; cases h
  · rw [hw] at h2; injection h2 with h2; subst h2
    exact ⟨z, h1, hR z w h3 hp⟩

theorem At.opt {α : Type} {rows : Fin n → DataRow} {xs : List (String × Yaml)} {a : Args n} (h : At rows xs a) {key : String}
    {p : Val n → Except Err α} {r d : α} (hr : defaulted a key p d = .ok r) {R : Yaml → Prop}
    (hR : ∀ z w, ins rows z = .ok w → p w = .ok r → R z) : (Schema.opt key R).2 (xs.lookup key) := by
  rcases h key with ⟨h1, h⟩ | ⟨z, w', h1, h2, h3⟩
  · exact .inl ⟨h1, trivial⟩
  · rcases defaulted_ok.mp hr with ⟨h4, -⟩ | ⟨w, hw, hp⟩
    · rw [h2] at h4; cases h4
    · rw [hw] at h2; injection h2 with h2; subst h2
      exact .inr ⟨z, h1, hR z w h3 hp⟩

theorem At.any {rows : Fin n → DataRow} {xs : List (String × Yaml)} {a : Args n} (h : At rows xs a) (key : String) :
    (Schema.opt key Any).2 (xs.lookup key) := by
  rcases h key with ⟨h1, -⟩ | ⟨z, w, h1, -, -⟩
  · exact .inl ⟨h1, trivial⟩
  · exact .inr ⟨z, h1, trivial⟩

/-! ### Values -/

theorem ins_str {rows : Fin n → DataRow} {y : Yaml} {s : String} (h : ins rows y = .ok (.str s)) : y = .str s := by
  unfold ins at h
  cases y with
  | scalar x => simp only [mapArr, insertFrame] at h; cases h
  | str x => simp only [mapArr, insertFrame] at h; injection h with h; injection h with h; rw [h]
  | arr a => exact a.elim
  | list xs =>
    simp only [mapArr, insertFrame] at h
    obtain ⟨w, hw, h⟩ := bind_eq_ok.mp h
    cases h
  | dict xs =>
    exfalso
    match xs, h with
    | [], h => simp only [mapArr, mapArrDict, insertFrame, insertFrameDict, bind_ok] at h; cases h
    | [(k, z)], h =>
      simp only [mapArr, mapArrDict, insertFrame] at h
      split at h <;> (obtain ⟨w, hw, h⟩ := bind_eq_ok.mp h; cases h)
    | x :: x' :: xs, h =>
      obtain ⟨k, z⟩ := x
      obtain ⟨k', z'⟩ := x'
      simp only [mapArr, mapArrDict, insertFrame] at h
      obtain ⟨w, hw, h⟩ := bind_eq_ok.mp h
      cases h

theorem ins_scalar {rows : Fin n → DataRow} {y : Yaml} {s : Scalar} (h : ins rows y = .ok (.scalar s)) : y = .scalar s := by
  unfold ins at h
  cases y with
  | scalar x => simp only [mapArr, insertFrame] at h; injection h with h; injection h with h; rw [h]
  | str x => simp only [mapArr, insertFrame] at h; cases h
  | arr a => exact a.elim
  | list xs =>
    simp only [mapArr, insertFrame] at h
    obtain ⟨w, hw, h⟩ := bind_eq_ok.mp h
    cases h
  | dict xs =>
    exfalso
    match xs, h with
    | [], h => simp only [mapArr, mapArrDict, insertFrame, insertFrameDict, bind_ok] at h; cases h
    | [(k, z)], h =>
      simp only [mapArr, mapArrDict, insertFrame] at h
      split at h <;> (obtain ⟨w, hw, h⟩ := bind_eq_ok.mp h; cases h)
    | x :: x' :: xs, h =>
      obtain ⟨k, z⟩ := x
      obtain ⟨k', z'⟩ := x'
      simp only [mapArr, mapArrDict, insertFrame] at h
      obtain ⟨w, hw, h⟩ := bind_eq_ok.mp h
      cases h

theorem ins_list {rows : Fin n → DataRow} {y : Yaml} {vs : List (Val n)} (h : ins rows y = .ok (.list vs)) :
    ∃ ys, y = .list ys ∧ List.Forall₂ (fun z w => ins rows z = .ok w) ys vs := by
  unfold ins at h
  cases y with
  | scalar x => simp only [mapArr, insertFrame] at h; cases h
  | str x => simp only [mapArr, insertFrame] at h; cases h
  | arr a => exact a.elim
  | list xs =>
    refine ⟨xs, rfl, ?_⟩
    simp only [mapArr, insertFrame] at h
    obtain ⟨w, hw, h⟩ := bind_eq_ok.mp h
    injection h with h; injection h with h; subst h
    clear h
    induction xs generalizing w with
    | nil => injection hw with hw; subst hw; exact .nil
    | cons x xs ih =>
      simp only [mapArrList, insertFrameList] at hw
      obtain ⟨u, hu, hw⟩ := bind_eq_ok.mp hw
      obtain ⟨us, hus, hw⟩ := bind_eq_ok.mp hw
      injection hw with hw; subst hw
      exact .cons hu (ih us hus)
  | dict xs =>
    exfalso
    match xs, h with
    | [], h => simp only [mapArr, mapArrDict, insertFrame, insertFrameDict, bind_ok] at h; cases h
    | [(k, z)], h =>
      simp only [mapArr, mapArrDict, insertFrame] at h
      split at h <;> (obtain ⟨w, hw, h⟩ := bind_eq_ok.mp h; cases h)
    | x :: x' :: xs, h =>
      obtain ⟨k, z⟩ := x
      obtain ⟨k', z'⟩ := x'
      simp only [mapArr, mapArrDict, insertFrame] at h
      obtain ⟨w, hw, h⟩ := bind_eq_ok.mp h
      cases h

/-- An accepted section: its fields. -/
theorem shape {rows : Fin n → DataRow} {y : Yaml} {v : Val n} {fields : List String} {a : Args n} (hy : ins rows y = .ok v)
    (ha : args fields v = .ok a) (F : List Field) (hF : fields = F.map Prod.fst)
    (h : ∀ xs, At rows xs a → ∀ f ∈ F, f.2 (xs.lookup f.1)) : Shape F y := by
  subst hF
  rcases shape_of hy (fun e => ins_list (e ▸ hy)) ha with ⟨xs, rfl, h1, h2⟩ | ⟨ys, rfl, h1, h2⟩
  · exact .inl ⟨xs, rfl, h1, h xs h2⟩
  · refine .inr ⟨ys, rfl, by simpa using h1, fun x hx => ?_, h _ h2⟩
    obtain ⟨k, z⟩ := x
    exact (List.of_mem_zip hx).1

/-- Where a single column comes from. -/
theorem ins_col {rows : Fin n → DataRow} {y : Yaml} {x : Fin n → Cell} (h : ins rows y = .ok (.arr (.col x))) :
    ∃ name, y = .dict [("column", .str name)] ∧ ∀ i, rows i name = some (x i) := by
  unfold ins at h
  cases y with
  | scalar x => simp only [mapArr, insertFrame] at h; cases h
  | str x => simp only [mapArr, insertFrame] at h; cases h
  | arr a => exact a.elim
  | list xs =>
    simp only [mapArr, insertFrame] at h
    obtain ⟨w, hw, h⟩ := bind_eq_ok.mp h
    cases h
  | dict xs =>
    match xs, h with
    | [], h => simp only [mapArr, mapArrDict, insertFrame, insertFrameDict, bind_ok] at h; cases h
    | [(k, z)], h =>
      simp only [mapArr, mapArrDict, insertFrame] at h
      split at h
      · rename_i hk
        subst hk
        obtain ⟨w, hw, h⟩ := bind_eq_ok.mp h
        injection h with h; injection h with h; subst h
        have hw : (frameOf rows).get (mapArr Empty.elim z) = .ok (.col x) := by
          cases hg : (frameOf rows).get (mapArr Empty.elim z) with
          | ok b => rw [hg] at hw; simpa [wrapColumnError] using hw
          | error e => rw [hg] at hw; cases e <;> simp [wrapColumnError] at hw
        cases z with
        | str name =>
          refine ⟨name, rfl, ?_⟩
          simp only [mapArr, Frame.get, frameOf] at hw
          split at hw
          · rename_i a he
            injection hw with hw; subst hw
            split at he
            · rename_i hs
              injection he with he; injection he with he
              subst he
              intro i
              exact (Option.some_get _).symm
            · cases he
          · cases hw
        | list zs =>
          simp only [mapArr, Frame.get] at hw
          split at hw
          · split at hw
            · injection hw with hw; cases hw
            · cases hw
          · cases hw
        | scalar s => simp only [mapArr, Frame.get] at hw; cases hw
        | arr a => exact a.elim
        | dict zs => simp only [mapArr, Frame.get] at hw; cases hw
      · obtain ⟨w, hw, h⟩ := bind_eq_ok.mp h
        cases h
    | x :: x' :: xs, h =>
      obtain ⟨k, z⟩ := x
      obtain ⟨k', z'⟩ := x'
      simp only [mapArr, mapArrDict, insertFrame] at h
      obtain ⟨w, hw, h⟩ := bind_eq_ok.mp h
      cases h

theorem value_of {conv : Conv} {rows : Fin n → DataRow} {y : Yaml} {v : Val n} {x : Col n} (hy : ins rows y = .ok v)
    (h : toCol conv v = .ok x) : Value conv rows y := by
  cases v with
  | scalar s =>
    have := ins_scalar hy
    subst this
    cases s with
    | num a => exact .inl ⟨a, rfl⟩
    | bool b => exact .inr (.inl ⟨b, rfl⟩)
    | null => cases h
    | other => cases h
  | str s =>
    have := ins_str hy
    subst this
    refine .inr (.inr (.inl ?_))
    unfold toCol at h
    obtain ⟨a, ha, -⟩ := bind_eq_ok.mp h
    cases hf : conv.floatOf s with
    | none => rw [hf] at ha; cases ha
    | some a => exact ⟨s, a, rfl, hf⟩
  | arr a =>
    cases a with
    | col c =>
      obtain ⟨name, rfl, hr⟩ := ins_col hy
      refine .inr (.inr (.inr (.inl ⟨name, rfl, fun i => ⟨c i, hr i, ?_⟩⟩)))
      have := vec_ok_iff.mp h i
      cases hc : c i with
      | num a => exact .inl ⟨a, rfl⟩
      | text s =>
        rw [hc] at this
        cases hf : conv.floatOf s with
        | none => simp [Cell.toNum, hf, orReject] at this
        | some a => exact .inr ⟨s, a, rfl, hf⟩
    | cols cs => cases h
  | list vs =>
    obtain ⟨ys, rfl, hys⟩ := ins_list hy
    refine .inr (.inr (.inr (.inr ⟨ys, rfl, ?_⟩)))
    unfold toCol at h
    dsimp only at h
    split at h
    · rename_i hl
      refine ⟨by rw [hys.length_eq, hl], fun z hz => ?_⟩
      obtain ⟨i, hi, rfl⟩ := List.getElem_of_mem hz
      have hi' : i < vs.length := by rw [← hys.length_eq]; exact hi
      have h1 : ins rows ys[i] = .ok vs[i] := (List.forall₂_iff_get.mp hys).2 i hi hi'
      have h2 := vec_ok_iff.mp h ⟨i, by omega⟩
      dsimp only at h2
      generalize vs[i] = w at h1 h2
      cases w with
      | scalar s =>
        have := ins_scalar h1
        rw [this]
        cases s with
        | num a => exact .inl ⟨a, rfl⟩
        | bool b => exact .inr (.inl ⟨b, rfl⟩)
        | null => exact .inr (.inr (.inr rfl))
        | other => cases h2
      | str s =>
        have := ins_str h1
        rw [this]
        cases hf : conv.floatOf s with
        | none => simp [Entry.toNum, hf, orReject] at h2
        | some a => exact .inr (.inr (.inl ⟨s, a, rfl, hf⟩))
      | _ => cases h2
    · cases h
  | dict vs => cases h

theorem optional_null {α : Type} {rows : Fin n → DataRow} {y : Yaml} {v : Val n} {p : Val n → Except Err α} {x : Option α}
    (hy : ins rows y = .ok v) (h : Parse.optional p v = .ok x) : y = null ∨ ∃ a, x = some a ∧ p v = .ok a := by
  unfold Parse.optional at h
  split at h
  · exact .inl (ins_scalar hy)
  · obtain ⟨a, ha, h⟩ := bind_eq_ok.mp h
    injection h with h
    exact .inr ⟨a, h.symm, ha⟩

theorem value?_of {conv : Conv} {rows : Fin n → DataRow} {y : Yaml} {v : Val n} {x : Option (Col n)} (hy : ins rows y = .ok v)
    (h : Parse.optional (toCol conv) v = .ok x) : Value? conv rows y := by
  rcases optional_null hy h with h | ⟨a, -, h⟩
  · exact .inl h
  · exact .inr (value_of hy h)

theorem listOf_of {α : Type} {rows : Fin n → DataRow} {y : Yaml} {v : Val n} {p : Val n → Except Err α} {xs : List α} {R : Yaml → Prop}
    (hy : ins rows y = .ok v) (h : listOf p v = .ok xs) (hR : ∀ z w a, a ∈ xs → ins rows z = .ok w → p w = .ok a → R z) : ListOf R y := by
  cases v with
  | list vs =>
    obtain ⟨ys, rfl, hys⟩ := ins_list hy
    refine ⟨ys, rfl, ?_⟩
    unfold listOf at h
    dsimp only at h
    clear hy
    induction hys generalizing xs with
    | nil => intro z hz; cases hz
    | cons hz _ ih =>
      unfold eachOf at h
      obtain ⟨a, ha, h⟩ := bind_eq_ok.mp h
      obtain ⟨as, has, h⟩ := bind_eq_ok.mp h
      injection h with h; subst h
      intro z hz'
      rcases List.mem_cons.mp hz' with rfl | hz'
      · exact hR _ _ a (by simp) hz ha
      · exact ih (fun z w a ha => hR z w a (by simp [ha])) has z hz'
  | _ => cases h

theorem type_of {rows : Fin n → DataRow} {xs : List (String × Yaml)} {a : Args n} (h : At rows xs a) {tag : String}
    (ht : tagged a tag = .ok ()) (names : List String) (hn : tag ∈ names) : (Schema.opt "type" (Name names)).2 (xs.lookup "type") :=
  h.opt ht fun z w hz hw => by
    rw [literal_ok.mp hw] at hz
    exact ⟨tag, hn, ins_str hz⟩

theorem provider_of {rows : Fin n → DataRow} {y : Yaml} {v : Val n} {p : Provider} (hy : ins rows y = .ok v)
    (h : toProvider v = .ok p) : Name fluidModels y := by
  cases v with
  | str s =>
    refine ⟨s, ?_, ins_str hy⟩
    unfold toProvider at h
    dsimp only at h
    simp only [fluidModels, List.mem_cons, List.not_mem_nil, or_false]
    split at h
    · left; assumption
    · split at h
      · right; left; assumption
      · split at h
        · right; right; assumption
        · cases h
  | _ => cases h

theorem method_of {rows : Fin n → DataRow} {y : Yaml} {v : Val n} {p : MixMethod} (hy : ins rows y = .ok v)
    (h : toMethod v = .ok p) : Name ["wood", "brie"] y := by
  cases v with
  | str s =>
    refine ⟨s, ?_, ins_str hy⟩
    unfold toMethod at h
    dsimp only at h
    simp only [List.mem_cons, List.not_mem_nil, or_false]
    split at h
    · left; assumption
    · split at h
      · right; assumption
      · cases h
  | _ => cases h

end OPE.Schema
