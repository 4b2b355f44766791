import Verif.Spec.Document
import Verif.Props.Parse

/-!
# C114: a configuration is read as what it says
-/

namespace OPE.Doc

open Parse

variable {n : ℕ}

/-- Where the columns come from: a data file with given rows, or no data file (then no row has any entry). -/
structure Source (n : ℕ) where
  frame : Option (Frame (Arr n))
  rows : Fin n → DataRow
  ok : frame = some (frameOf rows) ∨ frame = none ∧ 0 < n ∧ ∀ i name, rows i name = none

instance : CoeOut (Source n) (Fin n → DataRow) := ⟨Source.rows⟩

/-- Columns inserted into a document. -/
noncomputable def ins (rows : Source n) (y : Yaml) : Except Err (Val n) :=
  insertDataframe rows.frame (mapArr Empty.elim y)

/-- `y`, with columns inserted, is read by `p` as `a`. -/
def Reads {α : Type} (rows : Source n) (p : Val n → Except Err α) (y : Yaml) (a : α) : Prop :=
  ∃ v, ins rows y = .ok v ∧ p v = .ok a

theorem ins_number (rows : Source n) (x : ℝ) : ins rows (number x) = .ok (.scalar (.num (Num.fin x))) := by
  unfold ins
  cases rows.frame <;> rfl

theorem ins_null (rows : Source n) : ins rows null = .ok (.scalar .null) := by
  unfold ins
  cases rows.frame <;> rfl

theorem ins_bool (rows : Source n) (b : Bool) : ins rows (.scalar (.bool b)) = .ok (.scalar (.bool b)) := by
  unfold ins
  cases rows.frame <;> rfl

theorem ins_str (rows : Source n) (s : String) : ins rows (.str s) = .ok (.str s) := by
  unfold ins
  cases rows.frame <;> rfl

/-- Without a data file, the document is taken as it is. -/
theorem insert_none {y v : Val n} : insertDataframe none y = .ok v ↔ checkNoReference y = .ok () ∧ y = v := by
  unfold insertDataframe
  dsimp only
  rw [bind_eq_ok]
  constructor
  · rintro ⟨u, h1, h2⟩
    injection h2 with h2
    exact ⟨h1, h2⟩
  · rintro ⟨h1, h2⟩
    exact ⟨(), h1, by rw [h2]⟩

theorem ins_list {rows : Source n} {ys : List Yaml} {vs : List (Val n)}
    (h : List.Forall₂ (fun y v => ins rows y = .ok v) ys vs) : ins rows (.list ys) = .ok (.list vs) := by
  unfold ins at h ⊢
  cases hr : rows.frame with
  | none =>
    rw [hr] at h
    have key : checkNoReferenceList (mapArrList Empty.elim ys : List (Val n)) = .ok () ∧ mapArrList Empty.elim ys = vs := by
      induction h with
      | nil => exact ⟨rfl, rfl⟩
      | cons h _ ih =>
        obtain ⟨h1, h2⟩ := insert_none.mp h
        constructor
        · simp only [mapArrList, checkNoReferenceList, h1, ih.1, bind_ok]
        · simp only [mapArrList, h2, ih.2]
    exact insert_none.mpr ⟨by simp only [mapArr, checkNoReference, key.1], by simp only [mapArr, key.2]⟩
  | some t =>
    rw [hr] at h
    have key : insertFrameList t (mapArrList Empty.elim ys) = .ok vs := by
      induction h with
      | nil => rfl
      | cons h _ ih =>
        dsimp only [insertDataframe] at h
        simp only [mapArrList, insertFrameList, h, ih, bind_ok]
    simp only [insertDataframe, mapArr, insertFrame, key, bind_ok]

theorem lookup_pairs {rows : Source n} (xs : List (String × Yaml)) (hi : ∀ x ∈ xs, ∃ v, ins rows x.2 = .ok v) :
    ∃ vs : List (String × Val n), List.Forall₂ (fun x v => x.1 = v.1 ∧ ins rows x.2 = .ok v.2) xs vs ∧
      ∀ key, (xs.lookup key = none ∧ vs.lookup key = none) ∨
        ∃ y v, xs.lookup key = some y ∧ vs.lookup key = some v ∧ ins rows y = .ok v := by
  induction xs with
  | nil => exact ⟨[], .nil, fun key => .inl ⟨rfl, rfl⟩⟩
  | cons x xs ih =>
    obtain ⟨k, y⟩ := x
    obtain ⟨v, hv⟩ := hi (k, y) (by simp)
    obtain ⟨vs, h1, h3⟩ := ih fun x hx => hi x (by simp [hx])
    refine ⟨(k, v) :: vs, .cons ⟨rfl, hv⟩ h1, fun key => ?_⟩
    simp only [List.lookup_cons]
    by_cases hk : key == k
    · simp only [hk]
      exact .inr ⟨y, v, rfl, rfl, hv⟩
    · simp only [hk]
      exact h3 key

theorem insertFrame_dict {t : Frame (Arr n)} {xs vs : List (String × Val n)} (hc : ∀ x ∈ xs, x.1 ≠ "column")
    (h : insertFrameDict t xs = .ok vs) : insertFrame t (.dict xs) = .ok (.dict vs) := by
  match xs, hc, h with
  | [], _, h1 => simp only [insertFrameDict] at h1; simp only [insertFrame, insertFrameDict, h1, bind_ok]
  | [(k, y)], hc, h1 =>
    have hk : k ≠ "column" := hc (k, y) (by simp)
    simp only [insertFrameDict] at h1
    obtain ⟨w, hw, h1⟩ := bind_eq_ok.mp h1
    rw [bind_ok] at h1
    injection h1 with h1
    subst h1
    simp only [insertFrame, if_neg hk, hw, bind_ok]
  | x :: x' :: xs, _, h1 =>
    simp only [insertFrame, h1, bind_ok]

theorem noReference_dict {xs : List (String × Val n)} (hc : ∀ x ∈ xs, x.1 ≠ "column")
    (h : checkNoReferenceDict xs = .ok ()) : checkNoReference (.dict xs : Val n) = .ok () := by
  match xs, hc, h with
  | [], _, h1 => simp only [checkNoReference, checkNoReferenceDict]
  | [(k, y)], hc, h1 =>
    have hk : k ≠ "column" := hc (k, y) (by simp)
    simp only [checkNoReferenceDict] at h1
    obtain ⟨w, hw, h1⟩ := bind_eq_ok.mp h1
    simp only [checkNoReference, if_neg hk, hw]
  | x :: x' :: xs, _, h1 =>
    simp only [checkNoReference, h1]

theorem ins_dict {rows : Source n} (xs : List (String × Yaml)) (hc : ∀ x ∈ xs, x.1 ≠ "column")
    (hi : ∀ x ∈ xs, ∃ v, ins rows x.2 = .ok v) :
    ∃ vs, ins rows (.dict xs) = .ok (.dict vs) ∧ vs.map Prod.fst = xs.map Prod.fst ∧
      ∀ key, (xs.lookup key = none ∧ vs.lookup key = none) ∨
        ∃ y v, xs.lookup key = some y ∧ vs.lookup key = some v ∧ ins rows y = .ok v := by
  obtain ⟨vs, h1, h3⟩ := lookup_pairs (rows := rows) xs hi
  have hkeys : vs.map Prod.fst = xs.map Prod.fst := by
    clear h3 hi hc
    induction h1 with
    | nil => rfl
    | cons h _ ih => simp only [List.map_cons, ih, h.1]
  have hc' : ∀ x ∈ (mapArrDict Empty.elim xs : List (String × Val n)), x.1 ≠ "column" := by
    clear h1 h3 hi hkeys
    induction xs with
    | nil => intro x hx; simp [mapArrDict] at hx
    | cons z xs ih =>
      obtain ⟨k, y⟩ := z
      intro x hx
      simp only [mapArrDict, List.mem_cons] at hx
      rcases hx with rfl | hx
      · exact hc (k, y) (by simp)
      · exact ih (fun x hx => hc x (by simp [hx])) x hx
  refine ⟨vs, ?_, hkeys, h3⟩
  unfold ins at h1 ⊢
  cases hr : rows.frame with
  | none =>
    rw [hr] at h1
    have key : checkNoReferenceDict (mapArrDict Empty.elim xs : List (String × Val n)) = .ok () ∧ mapArrDict Empty.elim xs = vs := by
      clear h3 hc' hkeys hi hc
      induction h1 with
      | nil => exact ⟨rfl, rfl⟩
      | @cons x v xs vs h _ ih =>
        obtain ⟨k, y⟩ := x
        obtain ⟨k', v⟩ := v
        obtain ⟨rfl, h⟩ := h
        obtain ⟨e1, e2⟩ := insert_none.mp h
        dsimp only at e1 e2
        constructor
        · simp only [mapArrDict, checkNoReferenceDict, e1, ih.1, bind_ok]
        · simp only [mapArrDict, e2, ih.2]
    simp only [mapArr]
    exact insert_none.mpr ⟨noReference_dict hc' key.1, by rw [key.2]⟩
  | some t =>
    rw [hr] at h1
    simp only [mapArr]
    refine insertFrame_dict hc' ?_
    clear h3 hc' hkeys hi hc
    induction h1 with
    | nil => rfl
    | @cons x v xs vs h _ ih =>
      obtain ⟨k, y⟩ := x
      obtain ⟨k', v⟩ := v
      obtain ⟨rfl, h⟩ := h
      dsimp only [insertDataframe] at h
      simp only [mapArrDict, insertFrameDict, h, ih, bind_ok]

theorem mem_lookup {xs : List (String × Yaml)} (h : (xs.map Prod.fst).Nodup) {x : String × Yaml} (hx : x ∈ xs) :
    xs.lookup x.1 = some x.2 := by
  induction xs with
  | nil => cases hx
  | cons z xs ih =>
    obtain ⟨k, y⟩ := z
    rw [List.map_cons, List.nodup_cons] at h
    rcases List.mem_cons.mp hx with rfl | hx
    · simp [List.lookup_cons]
    · have : x.1 ≠ k := fun e => h.1 (List.mem_map.mpr ⟨x, hx, e⟩)
      have hb : (x.1 == k) = false := by simpa using this
      rw [List.lookup_cons, hb]
      exact ih h.2 hx

/-- A mapping, with columns inserted, is the arguments of a section with (at least) its fields. -/
theorem Mapping.args {rows : Source n} {F : List Field} {y : Yaml} (h : Mapping F y) (fields : List String)
    (hF : ∀ f ∈ F, f.1 ∈ fields) (hc : "column" ∉ fields)
    (hi : ∀ f ∈ F, ∀ z, f.2 (some z) → ∃ v, ins rows z = .ok v) :
    ∃ v a, ins rows y = .ok v ∧ Parse.args fields v = .ok a ∧ NotList v ∧
      (∀ key, key ∉ F.map Prod.fst → a key = none) ∧
      ∀ f ∈ F, (f.2 none ∧ a f.1 = none) ∨ ∃ z v, f.2 (some z) ∧ ins rows z = .ok v ∧ a f.1 = some v := by
  obtain ⟨xs, rfl, h1, h2, h3⟩ := h
  have hx : ∀ x ∈ xs, ∃ v, ins rows x.2 = .ok v := by
    intro x hx
    obtain ⟨f, hf, hfx⟩ := List.mem_map.mp (h2 x hx)
    have := h3 f hf
    rw [hfx, mem_lookup h1 hx] at this
    exact hi f hf _ this
  obtain ⟨vs, v1, v2, v3⟩ := ins_dict xs (fun x hx e => by
    obtain ⟨f, hf, hfx⟩ := List.mem_map.mp (h2 x hx)
    exact hc (e ▸ hfx ▸ hF f hf)) hx
  have ha : Parse.args fields (.dict vs : Val n) = .ok fun k => vs.lookup k := by
    unfold Parse.args
    simp only [Parse.named]
    rw [if_pos]
    simp only [List.all_eq_true, decide_eq_true_eq]
    intro x hxm
    have : x.1 ∈ xs.map Prod.fst := v2 ▸ List.mem_map_of_mem hxm
    obtain ⟨x', hx', e⟩ := List.mem_map.mp this
    obtain ⟨f, hf, hfx⟩ := List.mem_map.mp (h2 x' hx')
    rw [← e, ← hfx]
    exact hF f hf
  refine ⟨_, _, v1, ha, fun _ h => by (cases h), fun key hk => ?_, fun f hf => ?_⟩
  · rcases v3 key with ⟨-, h⟩ | ⟨z, v, h, -, -⟩
    · exact h
    · exfalso
      have : ∃ x ∈ xs, x.1 = key := by
        clear v3 hx h1 h3 v2 v1 ha
        induction xs with
        | nil => cases h
        | cons w xs ih =>
          obtain ⟨k, y⟩ := w
          rw [List.lookup_cons] at h
          by_cases hb : key == k
          · exact ⟨(k, y), by simp, (by simpa using hb : key = k).symm⟩
          · simp only [hb] at h
            obtain ⟨x, hx, e⟩ := ih (fun x hx => h2 x (by simp [hx])) h
            exact ⟨x, by simp [hx], e⟩
      obtain ⟨x, hx, rfl⟩ := this
      exact hk (h2 x hx)
  · have := h3 f hf
    rcases v3 f.1 with ⟨e1, e2⟩ | ⟨z, v, e1, e2, e3⟩
    · rw [e1] at this; exact .inl ⟨this, e2⟩
    · rw [e1] at this; exact .inr ⟨z, v, this, e3, e2⟩

/-- What the arguments hold for a field. -/
def Holds (rows : Source n) (a : Args n) (f : Field) : Prop :=
  (f.2 none ∧ a f.1 = none) ∨ ∃ z v, f.2 (some z) ∧ ins rows z = .ok v ∧ a f.1 = some v

theorem Holds.need {α : Type} {rows : Source n} {a : Args n} {key : String} {R : Yaml → Prop}
    (h : Holds rows a (Doc.need key R)) {p : Val n → Except Err α} {x : α} (hp : ∀ y, R y → Reads rows p y x) :
    required a key p = .ok x := by
  rcases h with ⟨⟨z, hz, -⟩, -⟩ | ⟨z, v, ⟨y, hy, hR⟩, hv, ha⟩
  · cases hz
  · injection hy with hy; subst hy
    obtain ⟨w, hw, hx⟩ := hp z hR
    rw [hv] at hw; injection hw with hw; subst hw
    unfold required
    dsimp only [Doc.need] at ha
    rw [ha]; exact hx

theorem Holds.may {α : Type} {rows : Source n} {a : Args n} {key : String} {d : Prop} {R : Yaml → Prop}
    (h : Holds rows a (Doc.may key d R)) {p : Val n → Except Err α} {x x0 : α} (hd : d → x = x0)
    (hp : ∀ y, R y → Reads rows p y x) : defaulted a key p x0 = .ok x := by
  unfold defaulted
  rcases h with ⟨h, ha⟩ | ⟨z, v, h, hv, ha⟩
  · dsimp only [Doc.may] at ha
    rw [ha]
    rcases h with ⟨-, h⟩ | ⟨z, hz, -⟩
    · rw [hd h]
    · cases hz
  · dsimp only [Doc.may] at ha
    rw [ha]
    rcases h with ⟨h, -⟩ | ⟨y, hy, hR⟩
    · cases h
    · injection hy with hy; subst hy
      obtain ⟨w, hw, hx⟩ := hp z hR
      rw [hv] at hw; injection hw with hw; subst hw
      exact hx

/-- A field that is not one of the mapping's. -/
theorem absent_default {α : Type} {a : Args n} {key : String} (h : a key = none) (p : Val n → Except Err α) (x : α) :
    defaulted a key p x = .ok x := by unfold defaulted; rw [h]

theorem reads_ins {α : Type} {rows : Source n} {p : Val n → Except Err α} {y : Yaml} {x : α}
    (h : Reads rows p y x) : ∃ v, ins rows y = .ok v := ⟨h.choose, h.choose_spec.1⟩

theorem need_some {key : String} {R : Yaml → Prop} {z : Yaml} : (need key R).2 (some z) ↔ R z :=
  ⟨fun ⟨_, hy, h⟩ => by injection hy with hy; subst hy; exact h, fun h => ⟨z, rfl, h⟩⟩

theorem may_some {key : String} {d : Prop} {R : Yaml → Prop} {z : Yaml} : (may key d R).2 (some z) ↔ R z := by
  constructor
  · rintro (⟨h, -⟩ | ⟨y, hy, h⟩)
    · cases h
    · injection hy with hy; subst hy; exact h
  · exact fun h => .inr ⟨z, rfl, h⟩

/-! ### Values -/

theorem Parameter.reads {rows : Source n} {y : Yaml} {x : Col n} (h : Parameter rows y x) (conv : Conv) :
    Reads rows (toCol conv) y x ∧ y ≠ null ∧ ∀ v, ins rows y = .ok v → v ≠ .scalar .null := by
  cases h with
  | number a => exact ⟨⟨_, ins_number rows a, rfl⟩, by simp [null, Doc.number], fun v hv => by
      rw [ins_number] at hv; injection hv with hv; subst hv; simp⟩
  | column name x h =>
    obtain hr | ⟨-, h0, hr⟩ := rows.ok
    swap
    · have := h ⟨0, h0⟩
      rw [hr] at this
      cases this
    have hc : (frameOf rows.rows).column name = some (.col fun i => .num (Num.fin (x i))) := by
      simp [frameOf, h]
    have hi : ins rows (.dict [("column", .str name)]) = .ok (.arr (.col fun i => .num (Num.fin (x i)))) := by
      simp [ins, hr, insertDataframe, mapArr, mapArrDict, insertFrame, Frame.get, hc, wrapColumnError]
    refine ⟨⟨_, hi, vec_ok fun i => rfl⟩, by simp [null], fun v hv => ?_⟩
    rw [hi] at hv; injection hv with hv; subst hv; simp
  | list x =>
    have hi : ins rows (.list (List.ofFn fun i => Doc.number (x i)))
        = .ok (.list (List.ofFn fun i => .scalar (.num (Num.fin (x i))))) :=
      ins_list (List.forall₂_iff_get.mpr ⟨by simp, fun i h1 h2 => by
        simp only [List.get_eq_getElem, List.getElem_ofFn]
        exact ins_number rows _⟩)
    refine ⟨⟨_, hi, ?_⟩, by simp [null], fun v hv => ?_⟩
    · unfold toCol
      dsimp only
      rw [dif_pos (by simp)]
      refine vec_ok fun i => ?_
      simp [Entry.toNum, Scalar.toNum, orReject]
    · rw [hi] at hv; injection hv with hv; subst hv; simp

theorem Maybe.reads {α : Type} {rows : Source n} {R : Yaml → α → Prop} {p : Val n → Except Err α}
    (hR : ∀ y a, R y a → Reads rows p y a ∧ ∀ v, ins rows y = .ok v → v ≠ .scalar .null) {y : Yaml} {x : Option α}
    (h : Maybe R y x) : Reads rows (Parse.optional p) y x := by
  rcases h with ⟨rfl, rfl⟩ | ⟨a, ha, rfl⟩
  · exact ⟨.scalar .null, ins_null rows, rfl⟩
  · obtain ⟨⟨v, hv, hp⟩, hn⟩ := hR y a ha
    refine ⟨v, hv, ?_⟩
    unfold Parse.optional
    split
    · exact absurd rfl (hn _ hv)
    · rw [hp, bind_ok]

theorem Maybe.parameter {rows : Source n} {y : Yaml} {x : Option (Col n)} (h : Maybe (Parameter rows) y x)
    (conv : Conv) : Reads rows (Parse.optional (toCol conv)) y x :=
  h.reads fun _ _ ha => ⟨(ha.reads conv).1, (ha.reads conv).2.2⟩

theorem Listing.reads {α : Type} {rows : Source n} {R : Yaml → α → Prop} {p : Val n → Except Err α} {y : Yaml}
    {xs : List α} (hR : ∀ y, ∀ a ∈ xs, R y a → Reads rows p y a) (h : Listing R y xs) : Reads rows (listOf p) y xs := by
  obtain ⟨ys, rfl, h⟩ := h
  have : ∃ vs, List.Forall₂ (fun y v => ins rows y = .ok v) ys vs ∧ eachOf p vs = .ok xs := by
    induction h with
    | nil => exact ⟨[], .nil, rfl⟩
    | cons h _ ih =>
      obtain ⟨v, hv, hp⟩ := hR _ _ (by simp) h
      obtain ⟨vs, h1, h2⟩ := ih fun y a ha => hR y a (by simp [ha])
      exact ⟨v :: vs, .cons hv h1, by simp [eachOf, hp, h2]⟩
  obtain ⟨vs, h1, h2⟩ := this
  exact ⟨_, ins_list h1, h2⟩

theorem literal_reads {rows : Source n} {tag : String} {y : Yaml} (h : y = .str tag) :
    Reads rows (literal tag) y () := by
  subst h; exact ⟨_, ins_str rows tag, by simp [literal]⟩

/-- The type is given, so the section is of that type. -/
theorem Holds.type {rows : Source n} {a : Args n} {tag : String}
    (h : Holds rows a (Doc.need "type" (· = .str tag))) : tagged a tag = .ok () ∧ a "type" = some (.str tag) := by
  rcases h with ⟨⟨z, hz, -⟩, -⟩ | ⟨z, v, ⟨y, hy, hR⟩, hv, ha⟩
  · cases hz
  · injection hy with hy; subst hy
    subst hR
    rw [ins_str] at hv; injection hv with hv; subst hv
    dsimp only [Doc.need] at ha
    refine ⟨?_, ha⟩
    unfold tagged defaulted
    rw [ha]
    simp [literal]

theorem Model.reads {rows : Source n} {y : Yaml} {p : Provider} (h : Model y p) :
    Reads rows toProvider y p ∧ ∀ v, ins rows y = .ok v → v ≠ .scalar .null := by
  cases h <;> exact ⟨⟨_, ins_str rows _, rfl⟩, fun v hv => by rw [ins_str] at hv; injection hv with hv; subst hv; simp⟩

theorem Method.reads {rows : Source n} {y : Yaml} {p : MixMethod} (h : Method y p) :
    Reads rows toMethod y p := by
  cases h <;> exact ⟨_, ins_str rows _, rfl⟩

end OPE.Doc
