import Verif.Spec.Order
import Verif.Props.Parse

/-!
# The order of keys does not matter (C116): column insertion and the building blocks of parsing
-/

namespace OPE.Order

open Classical

variable {S A : Type}

/-! ### Look-ups -/

theorem mem_keys_iff {β : Type} {k : String} {xs : List (String × β)} :
    k ∈ xs.map Prod.fst ↔ ∃ x, (k, x) ∈ xs := by
  simp

theorem lookup_eq_some_of_mem {β : Type} {k : String} {x : β} {xs : List (String × β)}
    (hd : (xs.map Prod.fst).Nodup) (h : (k, x) ∈ xs) : xs.lookup k = some x := by
  induction xs with
  | nil => cases h
  | cons p xs ih =>
    obtain ⟨j, y⟩ := p
    rw [List.map_cons, List.nodup_cons] at hd
    rcases List.mem_cons.mp h with h | h
    · injection h with h1 h2; subst h1; subst h2; simp
    · have hne : k ≠ j := fun e => hd.1 (by rw [← e]; exact mem_keys_iff.mpr ⟨x, h⟩)
      rw [List.lookup_cons, beq_false_of_ne hne]
      exact ih hd.2 h

theorem mem_of_lookup {β : Type} {k : String} {x : β} {xs : List (String × β)}
    (h : xs.lookup k = some x) : (k, x) ∈ xs := by
  induction xs with
  | nil => cases h
  | cons p xs ih =>
    obtain ⟨j, y⟩ := p
    rw [List.lookup_cons] at h
    by_cases e : k = j
    · subst e; simp only [BEq.rfl] at h; injection h with h; subst h; exact List.mem_cons_self
    · rw [beq_false_of_ne e] at h; exact List.mem_cons_of_mem _ (ih h)

/-- Values under a key: both absent, or both present and the same. -/
def SameOpt : Option (Cfg S A) → Option (Cfg S A) → Prop
  | none, none => True
  | some x, some y => SameDoc x y
  | _, _ => False

theorem lookup_same {xs ys : List (String × Cfg S A)}
    (hkeys : ∀ k, k ∈ xs.map Prod.fst ↔ k ∈ ys.map Prod.fst)
    (h : ∀ k x y, (k, x) ∈ xs → (k, y) ∈ ys → SameDoc x y) (k : String) :
    SameOpt (xs.lookup k) (ys.lookup k) := by
  have hx : ∀ {zs : List (String × Cfg S A)}, zs.lookup k = none → k ∉ zs.map Prod.fst := by
    intro zs hz hm
    induction zs with
    | nil => cases hm
    | cons p zs ih =>
      obtain ⟨j, y⟩ := p
      rw [List.lookup_cons] at hz
      by_cases e : k = j
      · subst e; simp at hz
      · rw [beq_false_of_ne e] at hz
        rw [List.map_cons, List.mem_cons] at hm
        exact hm.elim e (ih hz)
  rcases h1 : xs.lookup k with _ | x <;> rcases h2 : ys.lookup k with _ | y
  · trivial
  · exact absurd ((hkeys k).mpr (mem_keys_iff.mpr ⟨y, mem_of_lookup h2⟩)) (hx h1)
  · exact absurd ((hkeys k).mp (mem_keys_iff.mpr ⟨x, mem_of_lookup h1⟩)) (hx h2)
  · exact h k x y (mem_of_lookup h1) (mem_of_lookup h2)

/-! ### Reflexivity and symmetry -/

theorem _root_.OPE.SameDoc.symm {x y : Cfg S A} (h : SameDoc x y) : SameDoc y x := by
  induction h with
  | scalar s => exact .scalar s
  | str s => exact .str s
  | arr a => exact .arr a
  | list xs ys hlen _ ih => exact .list ys xs hlen.symm fun i x y hx hy => ih i y x hy hx
  | dict xs ys hx hy hk _ ih =>
    exact .dict ys xs hy hx (fun k => (hk k).symm) fun k x y hx hy => ih k y x hy hx

/-! ### Single-key mappings -/

theorem eq_singleton_of_keys {β : Type} {ys : List (String × β)} {k : String} (hy : (ys.map Prod.fst).Nodup)
    (h : ∀ j, j = k ↔ j ∈ ys.map Prod.fst) : ∃ v, ys = [(k, v)] := by
  cases ys with
  | nil => exact absurd ((h k).mp rfl) (by simp)
  | cons p ys =>
    obtain ⟨j, v⟩ := p
    have hj := (h j).mpr (by simp)
    subst hj
    cases ys with
    | nil => exact ⟨v, rfl⟩
    | cons q ys =>
      obtain ⟨i, w⟩ := q
      have hi := (h i).mpr (by simp)
      subst hi
      simp at hy

/-- A column reference: a mapping whose only key is `column`. -/
def IsRef (xs : List (String × Cfg S A)) : Prop := ∃ v, xs = [("column", v)]

theorem _root_.OPE.SameDoc.ref {xs ys : List (String × Cfg S A)} (hy : (ys.map Prod.fst).Nodup)
    (hkeys : ∀ k, k ∈ xs.map Prod.fst ↔ k ∈ ys.map Prod.fst)
    (h : ∀ k x y, (k, x) ∈ xs → (k, y) ∈ ys → SameDoc x y) {v : Cfg S A} (hv : xs = [("column", v)]) :
    ∃ w, ys = [("column", w)] ∧ SameDoc v w := by
  subst hv
  obtain ⟨w, rfl⟩ := eq_singleton_of_keys (k := "column") hy fun j => by rw [← hkeys j]; simp
  exact ⟨w, rfl, h "column" v w (by simp) (by simp)⟩

/-! ### Column insertion -/

theorem insertFrame_dict (t : Frame A) {xs : List (String × Cfg S A)} (h : ¬ IsRef xs) :
    insertFrame t (.dict xs) = (insertFrameDict t xs >>= fun ys => .ok (.dict ys)) := by
  rcases xs with _ | ⟨⟨k, v⟩, _ | ⟨q, xs⟩⟩
  · simp [insertFrame]
  · have hk : k ≠ "column" := fun e => h ⟨v, by rw [e]⟩
    simp only [insertFrame, if_neg hk, insertFrameDict]
    rcases insertFrame t v with e | w <;> rfl
  · simp [insertFrame]

theorem insertFrameDict_keys {t : Frame A} {xs ys : List (String × Cfg S A)}
    (h : insertFrameDict t xs = .ok ys) : ys.map Prod.fst = xs.map Prod.fst := by
  induction xs generalizing ys with
  | nil => injection h with h; subst h; rfl
  | cons p xs ih =>
    obtain ⟨k, x⟩ := p
    simp only [insertFrameDict] at h
    obtain ⟨y, -, h⟩ := bind_eq_ok.mp h
    obtain ⟨zs, hz, h⟩ := bind_eq_ok.mp h
    injection h with h; subst h
    rw [List.map_cons, List.map_cons, ih hz]

theorem insertFrameDict_mem {t : Frame A} {xs ys : List (String × Cfg S A)}
    (h : insertFrameDict t xs = .ok ys) {k : String} :
    (∀ {x}, (k, x) ∈ xs → ∃ y, (k, y) ∈ ys ∧ insertFrame t x = .ok y) ∧
    (∀ {y}, (k, y) ∈ ys → ∃ x, (k, x) ∈ xs ∧ insertFrame t x = .ok y) := by
  induction xs generalizing ys with
  | nil => injection h with h; subst h; exact ⟨fun h => (nomatch h), fun h => (nomatch h)⟩
  | cons p xs ih =>
    obtain ⟨j, x⟩ := p
    simp only [insertFrameDict] at h
    obtain ⟨y, hy, h⟩ := bind_eq_ok.mp h
    obtain ⟨zs, hz, h⟩ := bind_eq_ok.mp h
    injection h with h; subst h
    obtain ⟨i1, i2⟩ := ih hz
    refine ⟨fun hm => ?_, fun hm => ?_⟩
    · rcases List.mem_cons.mp hm with e | hm
      · injection e with e1 e2; subst e1; subst e2; exact ⟨y, List.mem_cons_self, hy⟩
      · obtain ⟨z, hz, hz'⟩ := i1 hm; exact ⟨z, List.mem_cons_of_mem _ hz, hz'⟩
    · rcases List.mem_cons.mp hm with e | hm
      · injection e with e1 e2; subst e1; subst e2; exact ⟨x, List.mem_cons_self, hy⟩
      · obtain ⟨z, hz, hz'⟩ := i2 hm; exact ⟨z, List.mem_cons_of_mem _ hz, hz'⟩

theorem insertFrameDict_ok {t : Frame A} {xs : List (String × Cfg S A)}
    (h : ∀ p ∈ xs, ∃ y, insertFrame t p.2 = .ok y) : ∃ ys, insertFrameDict t xs = .ok ys := by
  induction xs with
  | nil => exact ⟨[], rfl⟩
  | cons p xs ih =>
    obtain ⟨k, x⟩ := p
    obtain ⟨y, hy⟩ := h _ List.mem_cons_self
    obtain ⟨ys, hys⟩ := ih fun p hp => h p (List.mem_cons_of_mem _ hp)
    exact ⟨(k, y) :: ys, by simp only [insertFrameDict]; rw [hy, bind_ok, hys, bind_ok]⟩

theorem insertFrameList_get {t : Frame A} {xs ys : List (Cfg S A)} (h : insertFrameList t xs = .ok ys) :
    ys.length = xs.length ∧ ∀ (i : ℕ) x y, xs[i]? = some x → ys[i]? = some y → insertFrame t x = .ok y := by
  induction xs generalizing ys with
  | nil => injection h with h; subst h; exact ⟨rfl, fun i x y h => (nomatch h)⟩
  | cons x xs ih =>
    simp only [insertFrameList] at h
    obtain ⟨y, hy, h⟩ := bind_eq_ok.mp h
    obtain ⟨zs, hz, h⟩ := bind_eq_ok.mp h
    injection h with h; subst h
    obtain ⟨h1, h2⟩ := ih hz
    refine ⟨by simp [h1], fun i a b ha hb => ?_⟩
    cases i with
    | zero =>
      simp only [List.getElem?_cons_zero, Option.some.injEq] at ha hb
      subst ha; subst hb; exact hy
    | succ i => exact h2 i a b (by simpa using ha) (by simpa using hb)

theorem insertFrameList_ok {t : Frame A} {xs : List (Cfg S A)}
    (h : ∀ x ∈ xs, ∃ y, insertFrame t x = .ok y) : ∃ ys, insertFrameList t xs = .ok ys := by
  induction xs with
  | nil => exact ⟨[], rfl⟩
  | cons x xs ih =>
    obtain ⟨y, hy⟩ := h _ List.mem_cons_self
    obtain ⟨ys, hys⟩ := ih fun p hp => h p (List.mem_cons_of_mem _ hp)
    exact ⟨y :: ys, by simp only [insertFrameList]; rw [hy, bind_ok, hys, bind_ok]⟩

theorem strings_same {xs ys : List (Cfg S A)} (hlen : xs.length = ys.length)
    (h : ∀ (i : ℕ) x y, xs[i]? = some x → ys[i]? = some y → SameDoc x y) : Cfg.strings xs = Cfg.strings ys := by
  induction xs generalizing ys with
  | nil =>
    cases ys with
    | nil => rfl
    | cons => cases hlen
  | cons x xs ih =>
    cases ys with
    | nil => cases hlen
    | cons y ys =>
      have h0 := h 0 x y rfl rfl
      have ht := ih (by simpa using hlen) fun i x y hx hy => h (i + 1) x y (by simpa using hx) (by simpa using hy)
      cases h0 <;> simp [Cfg.strings, ht]

theorem _root_.OPE.Frame.get_same (t : Frame A) {v w : Cfg S A} (h : SameDoc v w) : t.get v = t.get w := by
  cases h with
  | scalar | str | arr => rfl
  | list xs ys hlen h => simp only [Frame.get, strings_same hlen h]
  | dict xs ys => rfl

/-- Columns are inserted alike. -/
theorem insertFrame_same (t : Frame A) {v v' : Cfg S A} (h : SameDoc v v') :
    ∀ w, insertFrame t v = .ok w → ∃ w', insertFrame t v' = .ok w' ∧ SameDoc w w' := by
  induction h with
  | scalar s => intro w hw; simp only [insertFrame] at hw; injection hw with hw; subst hw; exact ⟨_, rfl, .scalar s⟩
  | str s => intro w hw; simp only [insertFrame] at hw; injection hw with hw; subst hw; exact ⟨_, rfl, .str s⟩
  | arr a => intro w hw; simp only [insertFrame] at hw; injection hw with hw; subst hw; exact ⟨_, rfl, .arr a⟩
  | list xs ys hlen h ih =>
    intro w hw
    simp only [insertFrame] at hw
    obtain ⟨zs, hz, hw⟩ := bind_eq_ok.mp hw
    injection hw with hw; subst hw
    obtain ⟨h1, h2⟩ := insertFrameList_get hz
    have hex : ∀ (i : ℕ) y, ys[i]? = some y → ∃ x z, xs[i]? = some x ∧ zs[i]? = some z := by
      intro i y hy
      have hi : i < ys.length := (List.getElem?_eq_some_iff.mp hy).1
      exact ⟨_, _, List.getElem?_eq_getElem (by omega), List.getElem?_eq_getElem (by omega)⟩
    obtain ⟨us, hu⟩ := insertFrameList_ok (t := t) (xs := ys) fun y hy => by
      obtain ⟨i, hi⟩ := List.getElem?_of_mem hy
      obtain ⟨x, z, hx, hz'⟩ := hex i y hi
      obtain ⟨w', hw', -⟩ := ih i x y hx hi z (h2 i x z hx hz')
      exact ⟨w', hw'⟩
    obtain ⟨g1, g2⟩ := insertFrameList_get hu
    refine ⟨.list us, by simp only [insertFrame]; rw [hu, bind_ok], .list zs us (by omega) fun i z u hz' hu' => ?_⟩
    have hi : i < ys.length := by rw [← g1]; exact (List.getElem?_eq_some_iff.mp hu').1
    have hy := List.getElem?_eq_getElem hi
    obtain ⟨x, z', hx, hz''⟩ := hex i _ hy
    obtain ⟨w', hw', hs⟩ := ih i x _ hx hy z (h2 i x z hx hz')
    rw [g2 i _ u hy hu'] at hw'
    injection hw' with hw'; subst hw'; exact hs
  | dict xs ys hx hy hk h ih =>
    intro w hw
    by_cases hr : IsRef xs
    · obtain ⟨v, rfl⟩ := hr
      obtain ⟨v', rfl, hvv⟩ := SameDoc.ref hy hk h rfl
      simp only [insertFrame, if_true] at hw ⊢
      rw [t.get_same hvv] at hw
      obtain ⟨a, ha, hw⟩ := bind_eq_ok.mp hw
      injection hw with hw; subst hw
      exact ⟨_, by rw [ha, bind_ok], .arr a⟩
    · have hr' : ¬ IsRef ys := by
        rintro ⟨v', hv'⟩
        obtain ⟨v, hv, -⟩ := SameDoc.ref (xs := ys) (ys := xs) hx (fun k => (hk k).symm)
          (fun k x y hx hy => (h k y x hy hx).symm) hv'
        exact hr ⟨v, hv⟩
      rw [insertFrame_dict t hr] at hw
      obtain ⟨zs, hz, hw⟩ := bind_eq_ok.mp hw
      injection hw with hw; subst hw
      obtain ⟨us, hu⟩ := insertFrameDict_ok (t := t) (xs := ys) fun p hp => by
        obtain ⟨k, y⟩ := p
        obtain ⟨x, hxm⟩ := mem_keys_iff.mp ((hk k).mpr (mem_keys_iff.mpr ⟨y, hp⟩))
        obtain ⟨z, -, hz'⟩ := (insertFrameDict_mem hz).1 hxm
        obtain ⟨w', hw', -⟩ := ih k x y hxm hp z hz'
        exact ⟨w', hw'⟩
      refine ⟨.dict us, by rw [insertFrame_dict t hr', hu, bind_ok], .dict zs us ?_ ?_ ?_ ?_⟩
      · rw [insertFrameDict_keys hz]; exact hx
      · rw [insertFrameDict_keys hu]; exact hy
      · intro k; rw [insertFrameDict_keys hz, insertFrameDict_keys hu]; exact hk k
      · intro k z u hzm hum
        obtain ⟨x, hxm, hxz⟩ := (insertFrameDict_mem hz).2 hzm
        obtain ⟨y, hym, hyu⟩ := (insertFrameDict_mem hu).2 hum
        obtain ⟨w', hw', hs⟩ := ih k x y hxm hym z hxz
        rw [hyu] at hw'; injection hw' with hw'; subst hw'; exact hs

/-! ### The check without data -/

theorem checkNoReference_dict {xs : List (String × Cfg S A)} (h : ¬ IsRef xs) :
    checkNoReference (.dict xs) = checkNoReferenceDict xs := by
  rcases xs with _ | ⟨⟨k, v⟩, _ | ⟨q, xs⟩⟩
  · simp [checkNoReference]
  · have hk : k ≠ "column" := fun e => h ⟨v, by rw [e]⟩
    simp only [checkNoReference, if_neg hk, checkNoReferenceDict]
    rcases checkNoReference v with e | w <;> rfl
  · simp [checkNoReference]

theorem checkNoReferenceDict_ok {xs : List (String × Cfg S A)} :
    checkNoReferenceDict xs = .ok () ↔ ∀ p ∈ xs, checkNoReference p.2 = .ok () := by
  induction xs with
  | nil => simp [checkNoReferenceDict]
  | cons p xs ih =>
    obtain ⟨k, x⟩ := p
    simp only [checkNoReferenceDict, List.forall_mem_cons, ← ih]
    rcases checkNoReference x with e | ⟨⟩
    · exact ⟨fun h => (nomatch h), fun h => (nomatch h.1)⟩
    · exact ⟨fun h => ⟨rfl, h⟩, fun h => h.2⟩

theorem checkNoReferenceList_ok {xs : List (Cfg S A)} :
    checkNoReferenceList xs = .ok () ↔ ∀ p ∈ xs, checkNoReference p = .ok () := by
  induction xs with
  | nil => simp [checkNoReferenceList]
  | cons x xs ih =>
    simp only [checkNoReferenceList, List.forall_mem_cons, ← ih]
    rcases checkNoReference x with e | ⟨⟩
    · exact ⟨fun h => (nomatch h), fun h => (nomatch h.1)⟩
    · exact ⟨fun h => ⟨rfl, h⟩, fun h => h.2⟩

theorem checkNoReference_same {v v' : Cfg S A} (h : SameDoc v v') :
    checkNoReference v = .ok () → checkNoReference v' = .ok () := by
  induction h with
  | scalar s => exact fun _ => by simp [checkNoReference]
  | str s => exact fun _ => by simp [checkNoReference]
  | arr a => exact fun _ => by simp [checkNoReference]
  | list xs ys hlen h ih =>
    simp only [checkNoReference, checkNoReferenceList_ok]
    intro hxs y hy
    obtain ⟨i, hi⟩ := List.getElem?_of_mem hy
    have hl : i < ys.length := (List.getElem?_eq_some_iff.mp hi).1
    have hx := List.getElem?_eq_getElem (l := xs) (i := i) (by omega)
    exact ih i _ y hx hi (hxs _ (List.getElem_mem _))
  | dict xs ys hx hy hk h ih =>
    intro hw
    by_cases hr : IsRef xs
    · obtain ⟨v, rfl⟩ := hr
      simp [checkNoReference] at hw
    · have hr' : ¬ IsRef ys := by
        rintro ⟨v', hv'⟩
        obtain ⟨v, hv, -⟩ := SameDoc.ref (xs := ys) (ys := xs) hx (fun k => (hk k).symm)
          (fun k x y hx hy => (h k y x hy hx).symm) hv'
        exact hr ⟨v, hv⟩
      rw [checkNoReference_dict hr, checkNoReferenceDict_ok] at hw
      rw [checkNoReference_dict hr', checkNoReferenceDict_ok]
      rintro ⟨k, y⟩ hp
      obtain ⟨x, hxm⟩ := mem_keys_iff.mp ((hk k).mpr (mem_keys_iff.mpr ⟨y, hp⟩))
      exact ih k x y hxm hp (hw _ hxm)

/-- Columns are inserted alike, with or without data. -/
theorem insertDataframe_same (data : Option (Frame A)) {v v' : Cfg S A} (h : SameDoc v v') {w : Cfg S A}
    (hw : insertDataframe data v = .ok w) : ∃ w', insertDataframe data v' = .ok w' ∧ SameDoc w w' := by
  cases data with
  | some t => exact insertFrame_same t h w hw
  | none =>
    simp only [insertDataframe] at hw ⊢
    obtain ⟨⟨⟩, hc, hw⟩ := bind_eq_ok.mp hw
    injection hw with hw; subst hw
    exact ⟨v', by rw [checkNoReference_same h hc, bind_ok], h⟩

end OPE.Order
