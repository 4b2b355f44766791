import Verif.Spec.Config

/-!
# Column insertion (C49, C50)
-/

namespace OPE

open Classical Spec

variable {S A : Type}

/-- What insertion does to the result of a column lookup. -/
theorem wrapColumnError_ok {α : Type} {x : Except Err α} {a : α} :
    wrapColumnError x = .ok a ↔ x = .ok a := by
  rcases x with (_ | _ | _ | _ | _ | _ | _ | _ | _) | _ <;> simp [wrapColumnError]

/-- One-step unfolding of insertion, with lists and dictionaries as pointwise statements. -/
inductive InsertedTo (t : Frame A) : Cfg S A → Cfg S A → Prop where
  | scalar (s) : InsertedTo t (.scalar s) (.scalar s)
  | str (s) : InsertedTo t (.str s) (.str s)
  | arr (a) : InsertedTo t (.arr a) (.arr a)
  | ref (name a) (h : t.get name = .ok a) : InsertedTo t (.dict [("column", name)]) (.arr a)
  | list (xs ys) (hlen : xs.length = ys.length)
      (h : ∀ (i : ℕ) (x y : Cfg S A), xs[i]? = some x → ys[i]? = some y → insertFrame t x = .ok y) :
      InsertedTo t (.list xs) (.list ys)
  | dict (xs ys) (hno : ∀ name, xs ≠ [("column", name)]) (hkeys : xs.map Prod.fst = ys.map Prod.fst)
      (h : ∀ (i : ℕ) (x y : String × Cfg S A), xs[i]? = some x → ys[i]? = some y → insertFrame t x.2 = .ok y.2) :
      InsertedTo t (.dict xs) (.dict ys)

theorem insertFrameList_ok (t : Frame A) (xs ys : List (Cfg S A)) :
    insertFrameList t xs = .ok ys ↔ xs.length = ys.length ∧
      ∀ (i : ℕ) (x y : Cfg S A), xs[i]? = some x → ys[i]? = some y → insertFrame t x = .ok y := by
  induction xs generalizing ys with
  | nil =>
    cases ys <;> simp [insertFrameList]
  | cons x xs ih =>
    simp only [insertFrameList, bind_eq_ok]
    constructor
    · rintro ⟨y, hy, zs, hzs, h⟩
      injection h with h; subst h
      obtain ⟨h1, h2⟩ := (ih zs).mp hzs
      refine ⟨by simp [h1], ?_⟩
      intro i a b ha hb
      cases i with
      | zero => simp at ha hb; subst ha hb; exact hy
      | succ i => simp at ha hb; exact h2 i a b ha hb
    · rintro ⟨h1, h2⟩
      cases ys with
      | nil => simp at h1
      | cons y ys =>
        refine ⟨y, h2 0 x y rfl rfl, ys, (ih ys).mpr ⟨by simpa using h1, fun i a b ha hb => ?_⟩, rfl⟩
        exact h2 (i + 1) a b (by simpa using ha) (by simpa using hb)

theorem insertFrameDict_ok (t : Frame A) (xs ys : List (String × Cfg S A)) :
    insertFrameDict t xs = .ok ys ↔ xs.map Prod.fst = ys.map Prod.fst ∧
      ∀ (i : ℕ) (x y : String × Cfg S A), xs[i]? = some x → ys[i]? = some y → insertFrame t x.2 = .ok y.2 := by
  induction xs generalizing ys with
  | nil =>
    cases ys <;> simp [insertFrameDict]
  | cons x xs ih =>
    obtain ⟨k, x⟩ := x
    simp only [insertFrameDict, bind_eq_ok]
    constructor
    · rintro ⟨y, hy, zs, hzs, h⟩
      injection h with h; subst h
      obtain ⟨h1, h2⟩ := (ih zs).mp hzs
      refine ⟨by simp [h1], ?_⟩
      intro i a b ha hb
      cases i with
      | zero => simp at ha hb; subst ha hb; exact hy
      | succ i => simp at ha hb; exact h2 i a b ha hb
    · rintro ⟨h1, h2⟩
      cases ys with
      | nil => simp at h1
      | cons y ys =>
        obtain ⟨k', y⟩ := y
        simp at h1
        obtain ⟨rfl, h1⟩ := h1
        refine ⟨y, h2 0 _ _ rfl rfl, ys, (ih ys).mpr ⟨h1, fun i a b ha hb => ?_⟩, rfl⟩
        exact h2 (i + 1) a b (by simpa using ha) (by simpa using hb)

/-- A dictionary that is not a column reference is mapped value by value. -/
theorem insertFrame_dict (t : Frame A) (xs : List (String × Cfg S A))
    (hno : ∀ name, xs ≠ [("column", name)]) :
    insertFrame t (.dict xs) = (insertFrameDict t xs >>= fun ys => .ok (.dict ys)) := by
  match xs with
  | [] => simp [insertFrame]
  | [(k, v)] =>
    have hk : k ≠ "column" := fun e => hno v (by rw [e])
    simp only [insertFrame, if_neg hk, insertFrameDict]
    cases insertFrame t v <;> rfl
  | a :: b :: l => simp only [insertFrame]

theorem insertFrame_ok (t : Frame A) (x y : Cfg S A) :
    insertFrame t x = .ok y ↔ InsertedTo t x y := by
  cases x with
  | scalar s =>
    simp only [insertFrame, Except.ok.injEq]
    constructor
    · rintro rfl; exact .scalar s
    · rintro ⟨⟩; rfl
  | str s =>
    simp only [insertFrame, Except.ok.injEq]
    constructor
    · rintro rfl; exact .str s
    · rintro ⟨⟩; rfl
  | arr s =>
    simp only [insertFrame, Except.ok.injEq]
    constructor
    · rintro rfl; exact .arr s
    · rintro ⟨⟩; rfl
  | list xs =>
    simp only [insertFrame, bind_eq_ok, insertFrameList_ok]
    constructor
    · rintro ⟨ys, ⟨h1, h2⟩, h⟩
      injection h with h; subst h
      exact .list xs ys h1 h2
    · rintro (_ | _ | _ | _ | ⟨_, ys, h1, h2⟩ | _)
      exact ⟨ys, ⟨h1, h2⟩, rfl⟩
  | dict xs =>
    by_cases hr : ∃ name, xs = [("column", name)]
    · obtain ⟨name, rfl⟩ := hr
      simp only [insertFrame, if_true, bind_eq_ok, wrapColumnError_ok]
      constructor
      · rintro ⟨a, h1, h2⟩
        injection h2 with h2; subst h2
        exact .ref name a h1
      · rintro (_ | _ | _ | ⟨_, a, h⟩ | _ | ⟨_, _, hno, _, _⟩)
        · exact ⟨a, h, rfl⟩
        · exact absurd rfl (hno name)
    · push Not at hr
      rw [insertFrame_dict t xs hr]
      simp only [bind_eq_ok, insertFrameDict_ok]
      constructor
      · rintro ⟨ys, ⟨h1, h2⟩, h⟩
        injection h with h; subst h
        exact .dict xs ys hr h1 h2
      · rintro (_ | _ | _ | ⟨name, _, _⟩ | _ | ⟨_, ys, _, h1, h2⟩)
        · exact absurd rfl (hr name)
        · exact ⟨ys, ⟨h1, h2⟩, rfl⟩

theorem child_lt {x : Cfg S A} {i : ℕ} {y : Cfg S A} (h : child x i = some y) :
    sizeOf y < sizeOf x := by
  cases x with
  | scalar s => simp [child] at h
  | str s => simp [child] at h
  | arr s => simp [child] at h
  | list xs =>
    simp only [child] at h
    have := List.mem_of_getElem? h
    have := List.sizeOf_lt_of_mem this
    simp; omega
  | dict xs =>
    simp only [child, Option.map_eq_some_iff] at h
    obtain ⟨⟨k, v⟩, h1, rfl⟩ := h
    have := List.mem_of_getElem? h1
    have := List.sizeOf_lt_of_mem this
    simp at this ⊢; omega

/-- Children of an inserted tree that is not a reference correspond one to one. -/
theorem inserted_child {t : Frame A} {x y : Cfg S A} (h : InsertedTo t x y)
    (hno : ∀ name, ¬ IsRef x name) (i : ℕ) :
    (child x i = none ∧ child y i = none) ∨
    ∃ a b, child x i = some a ∧ child y i = some b ∧ InsertedTo t a b := by
  cases h with
  | scalar s => left; exact ⟨rfl, rfl⟩
  | str s => left; exact ⟨rfl, rfl⟩
  | arr s => left; exact ⟨rfl, rfl⟩
  | ref name a h => exact absurd rfl (hno name)
  | list xs ys h1 h2 =>
    simp only [child]
    by_cases hi : i < xs.length
    · right
      refine ⟨xs[i], ys[i]'(h1 ▸ hi), by simp [hi], by simp [h1 ▸ hi], (insertFrame_ok _ _ _).mp ?_⟩
      exact h2 i _ _ (by simp [hi]) (by simp [h1 ▸ hi])
    · left; simp; omega
  | dict xs ys hn h1 h2 =>
    have hl : xs.length = ys.length := by have := congrArg List.length h1; simpa using this
    simp only [child]
    by_cases hi : i < xs.length
    · right
      refine ⟨xs[i].2, (ys[i]'(hl ▸ hi)).2, by simp [hi], by simp [hl ▸ hi],
        (insertFrame_ok _ _ _).mp ?_⟩
      exact h2 i _ _ (by simp [hi]) (by simp [hl ▸ hi])
    · left; simp; omega

theorem inserted_no_ref {t : Frame A} {x y : Cfg S A} (h : InsertedTo t x y) (name : Cfg S A) :
    ¬ IsRef y name := by
  intro e
  unfold IsRef at e
  subst e
  cases h with
  | dict xs _ hno hk _ =>
    match xs with
    | [] => simp at hk
    | [(k, v)] => simp at hk; exact hno v (by rw [hk])
    | a :: b :: l => simp at hk

/-- What a successful insertion does at every place outside references, in terms of `Frame.get`. -/
theorem replaces_exactly {t : Frame A} {x y : Cfg S A} (h : insertFrame t x = .ok y) (p : List ℕ)
    (hp : Outside x p) :
    (at? x p = none ∧ at? y p = none) ∨
    (∃ name a, RefAt x p name ∧ t.get name = .ok a ∧ at? y p = some (.arr a)) ∨
    (∃ u v, at? x p = some u ∧ at? y p = some v ∧ (∀ name, ¬ IsRef u name) ∧ SameForm u v) := by
  rw [insertFrame_ok] at h
  induction p generalizing x y with
  | nil =>
    right
    by_cases hr : ∃ name, IsRef x name
    · obtain ⟨name, hr⟩ := hr
      left
      unfold IsRef at hr; subst hr
      cases h with
      | ref name a h => exact ⟨name, a, ⟨_, rfl, rfl⟩, h, rfl⟩
      | dict xs ys hno _ _ => exact absurd rfl (hno name)
    · push Not at hr
      right
      refine ⟨x, y, rfl, rfl, hr, ?_⟩
      cases h with
      | scalar s => rfl
      | str s => rfl
      | arr s => rfl
      | ref name a h => exact absurd rfl (hr name)
      | list xs ys h1 _ => exact h1
      | dict xs ys _ h1 _ => exact h1
  | cons s p ih =>
    have hno : ∀ name, ¬ IsRef x name := fun name hr =>
      hp [] s p name rfl ⟨x, rfl, hr⟩
    rcases inserted_child h hno s with ⟨h1, h2⟩ | ⟨a, b, h1, h2, h3⟩
    · left; simp [at?, h1, h2]
    · have hp' : Outside a p := by
        intro q s' r name e hr
        refine hp (s :: q) s' r name (by rw [e]; rfl) ?_
        obtain ⟨u, hu, hr⟩ := hr
        exact ⟨u, by simp [at?, h1, hu], hr⟩
      have := ih (x := a) (y := b) (hp := hp') (h := h3)
      have ea : at? x (s :: p) = at? a p := by simp [at?, h1]
      have eb : at? y (s :: p) = at? b p := by simp [at?, h2]
      have er : ∀ name, RefAt x (s :: p) name ↔ RefAt a p name := by
        intro name; unfold RefAt; rw [ea]
      rw [ea, eb]
      simp only [er]
      exact this

/-- **C49.** No reference is left anywhere in the result. -/
theorem C49_no_reference_left {t : Frame A} {x y : Cfg S A} (h : insertFrame t x = .ok y) (p : List ℕ)
    (name : Cfg S A) : ¬ RefAt y p name := by
  rw [insertFrame_ok] at h
  induction p generalizing x y with
  | nil =>
    rintro ⟨u, hu, hr⟩
    simp [at?] at hu; subst hu
    exact inserted_no_ref h name hr
  | cons s p ih =>
    rintro ⟨u, hu, hr⟩
    by_cases hno : ∀ name, ¬ IsRef x name
    · rcases inserted_child h hno s with ⟨h1, h2⟩ | ⟨a, b, h1, h2, h3⟩
      · simp [at?, h2] at hu
      · exact ih h3 ⟨u, by simpa [at?, h2] using hu, hr⟩
    · push Not at hno
      obtain ⟨nm, hno⟩ := hno
      unfold IsRef at hno; subst hno
      cases h with
      | ref name a h => simp [at?, child] at hu
      | dict xs ys hno _ _ => exact absurd rfl (hno nm)

/-- A tree without references is left alone. -/
theorem insert_of_no_ref (t : Frame A) (x : Cfg S A) (h : ∀ p name, ¬ RefAt x p name) :
    insertFrame t x = .ok x := by
  have hc : ∀ i a, child x i = some a → ∀ p name, ¬ RefAt a p name := by
    intro i a hi p name hr
    obtain ⟨u, hu, hr⟩ := hr
    exact h (i :: p) name ⟨u, by simp [at?, hi, hu], hr⟩
  rw [insertFrame_ok]
  cases x with
  | scalar s => exact .scalar s
  | str s => exact .str s
  | arr s => exact .arr s
  | list xs =>
    refine .list xs xs rfl (fun i a b ha hb => ?_)
    rw [ha] at hb; injection hb with hb; subst hb
    have hlt : sizeOf a < sizeOf (Cfg.list xs) := child_lt (x := .list xs) (i := i) ha
    exact insert_of_no_ref t a (hc i a ha)
  | dict xs =>
    refine .dict xs xs (fun name e => h [] name ⟨_, rfl, by rw [e]; rfl⟩) rfl (fun i a b ha hb => ?_)
    rw [ha] at hb; injection hb with hb; subst hb
    have hch : child (.dict xs) i = some a.2 := by simp [child, ha]
    have hlt : sizeOf a.2 < sizeOf (Cfg.dict xs) := child_lt hch
    exact insert_of_no_ref t a.2 (hc i a.2 hch)
termination_by sizeOf x

/-- **C49.** Inserting again changes nothing (whatever the table). -/
theorem C49_idempotent {t t' : Frame A} {x y : Cfg S A} (h : insertFrame t x = .ok y) :
    insertFrame t' y = .ok y :=
  insert_of_no_ref t' y fun p name => C49_no_reference_left h p name

theorem insertFrameList_error (t : Frame A) (xs : List (Cfg S A)) (e : Err) :
    insertFrameList t xs = .error e → ∃ (i : ℕ) (x : _), xs[i]? = some x ∧ insertFrame t x = .error e := by
  induction xs with
  | nil => intro h; simp [insertFrameList] at h
  | cons x xs ih =>
    intro h
    simp only [insertFrameList] at h
    cases hx : insertFrame t x with
    | error e' => rw [hx] at h; simp at h; subst h; exact ⟨0, x, rfl, hx⟩
    | ok y =>
      rw [hx, bind_ok] at h
      cases hxs : insertFrameList t xs with
      | error e' =>
        rw [hxs] at h; simp at h; subst h
        obtain ⟨i, z, h1, h2⟩ := ih hxs
        exact ⟨i + 1, z, by simpa using h1, h2⟩
      | ok ys => rw [hxs] at h; simp at h

theorem insertFrameDict_error (t : Frame A) (xs : List (String × Cfg S A)) (e : Err) :
    insertFrameDict t xs = .error e → ∃ (i : ℕ) (x : _), xs[i]? = some x ∧ insertFrame t x.2 = .error e := by
  induction xs with
  | nil => intro h; simp [insertFrameDict] at h
  | cons x xs ih =>
    intro h
    simp only [insertFrameDict] at h
    cases hx : insertFrame t x.2 with
    | error e' => rw [hx] at h; simp at h; subst h; exact ⟨0, x, rfl, hx⟩
    | ok y =>
      rw [hx, bind_ok] at h
      cases hxs : insertFrameDict t xs with
      | error e' =>
        rw [hxs] at h; simp at h; subst h
        obtain ⟨i, z, h1, h2⟩ := ih hxs
        exact ⟨i + 1, z, by simpa using h1, h2⟩
      | ok ys => rw [hxs] at h; simp at h

/-- The error of an insertion comes from a reference outside other references. -/
theorem insert_error_ref (t : Frame A) (x : Cfg S A) (e : Err) (h : insertFrame t x = .error e) :
    ∃ p name, Outside x p ∧ RefAt x p name ∧ wrapColumnError (t.get name) = .error e := by
  have step : ∀ i a, (∀ name, ¬ IsRef x name) → child x i = some a → insertFrame t a = .error e →
      (∃ p name, Outside a p ∧ RefAt a p name ∧ wrapColumnError (t.get name) = .error e) →
      ∃ p name, Outside x p ∧ RefAt x p name ∧ wrapColumnError (t.get name) = .error e := by
    rintro i a hno hi - ⟨p, name, h1, ⟨u, hu, hr⟩, h3⟩
    refine ⟨i :: p, name, ?_, ⟨u, by simp [at?, hi, hu], hr⟩, h3⟩
    intro q s r nm e1 hr
    cases q with
    | nil =>
      obtain ⟨w, hw, hr⟩ := hr
      simp [at?] at hw; subst hw
      exact hno nm hr
    | cons j q =>
      injection e1 with e1 e2
      subst e1
      obtain ⟨w, hw, hr⟩ := hr
      exact h1 q s r nm e2 ⟨w, by simpa [at?, hi] using hw, hr⟩
  cases x with
  | scalar s => simp [insertFrame] at h
  | str s => simp [insertFrame] at h
  | arr s => simp [insertFrame] at h
  | list xs =>
    simp only [insertFrame] at h
    cases hxs : insertFrameList t xs with
    | ok ys => rw [hxs] at h; simp at h
    | error e' =>
      rw [hxs] at h; simp at h; subst h
      obtain ⟨i, a, h1, h2⟩ := insertFrameList_error t xs _ hxs
      have hlt : sizeOf a < sizeOf (Cfg.list xs) := child_lt (x := .list xs) (i := i) h1
      exact step i a (by intro name hr; cases hr) h1 h2 (insert_error_ref t a _ h2)
  | dict xs =>
    by_cases hr : ∃ name, xs = [("column", name)]
    · obtain ⟨name, rfl⟩ := hr
      refine ⟨[], name, fun q s r _ e1 => by simp at e1, ⟨_, rfl, rfl⟩, ?_⟩
      simp only [insertFrame, if_true] at h
      cases hg : wrapColumnError (t.get name) with
      | ok a => rw [hg] at h; simp at h
      | error e' => rw [hg] at h; simp at h; rw [h]
    · push Not at hr
      rw [insertFrame_dict t xs hr] at h
      cases hxs : insertFrameDict t xs with
      | ok ys => rw [hxs] at h; simp at h
      | error e' =>
        rw [hxs] at h; simp at h; subst h
        obtain ⟨i, a, h1, h2⟩ := insertFrameDict_error t xs _ hxs
        have hch : child (.dict xs) i = some a.2 := by simp [child, h1]
        have hlt : sizeOf a.2 < sizeOf (Cfg.dict xs) := child_lt hch
        exact step i a.2 (by intro name e; unfold IsRef at e; injection e with e; exact hr name e)
          hch h2 (insert_error_ref t a.2 _ h2)
termination_by sizeOf x

/-- When insertion fails, in terms of `Frame.get`. -/
theorem fails_iff (t : Frame A) (x : Cfg S A) :
    (∃ e, insertFrame t x = .error e) ↔
      ∃ p name, Outside x p ∧ RefAt x p name ∧ ∀ a, t.get name ≠ .ok a := by
  constructor
  · rintro ⟨e, h⟩
    obtain ⟨p, name, h1, h2, h3⟩ := insert_error_ref t x e h
    refine ⟨p, name, h1, h2, fun a ha => ?_⟩
    rw [wrapColumnError_ok.mpr ha] at h3; cases h3
  · rintro ⟨p, name, h1, h2, h3⟩
    cases hx : insertFrame t x with
    | error e => exact ⟨e, rfl⟩
    | ok y =>
      exfalso
      rcases replaces_exactly hx p h1 with ⟨h4, -⟩ | ⟨nm, a, ⟨u, hu, hr⟩, h5, -⟩ | ⟨u, v, hu, -, hno, -⟩
      · obtain ⟨u, hu, -⟩ := h2; rw [h4] at hu; cases hu
      · obtain ⟨u', hu', hr'⟩ := h2
        rw [hu] at hu'; injection hu' with hu'; subst hu'
        unfold IsRef at hr hr'
        rw [hr] at hr'
        simp at hr'; subst hr'
        exact h3 a h5
      · obtain ⟨u', hu', hr'⟩ := h2
        rw [hu] at hu'; injection hu' with hu'; subst hu'
        exact hno name hr'

theorem strings_map (names : List String) : Cfg.strings (S := S) (A := A) (names.map .str) = some names := by
  induction names with
  | nil => rfl
  | cons s l ih => simp [Cfg.strings, ih]

theorem strings_some {xs : List (Cfg S A)} {ss : List String} (h : Cfg.strings xs = some ss) : xs = ss.map .str := by
  induction xs generalizing ss with
  | nil => cases h; rfl
  | cons x xs ih =>
    cases x with
    | str s =>
      simp only [Cfg.strings, Option.map_eq_some_iff] at h
      obtain ⟨l, h1, rfl⟩ := h
      rw [ih h1]; rfl
    | _ => simp [Cfg.strings] at h

/-- `Frame.get` is what the specification says a reference selects. -/
theorem get_selects (t : Frame A) (v : Cfg S A) (a : A) : t.get v = .ok a ↔ Selects t v a := by
  constructor
  · intro h
    unfold Frame.get at h
    split at h
    · split at h
      next hc => cases h; exact .one hc
      next => cases h
    · split at h
      next hs =>
        split at h
        next ha =>
          cases h
          rw [strings_some hs]
          refine .several fun name hn => ?_
          have := List.all_eq_true.mp ha name hn
          intro hc; rw [hc] at this; simp at this
        next => cases h
      next => cases h
    all_goals cases h
  · intro h
    cases h with
    | one h => simp [Frame.get, h]
    | several h =>
      have : ∀ name ∈ (_ : List String), (t.column name).isSome := fun name hn => Option.isSome_iff_ne_none.mpr (h name hn)
      simp only [Frame.get, strings_map, List.all_eq_true, if_pos this]

/-- **C49.** A successful insertion replaces exactly the column references: at every place outside
references, a reference becomes the column (or the columns, in the order of the names) it selects, and everything
else keeps its form (scalars, keys, order, lengths). -/
theorem C49_replaces_exactly {t : Frame A} {x y : Cfg S A} (h : insertFrame t x = .ok y) (p : List ℕ)
    (hp : Outside x p) :
    (at? x p = none ∧ at? y p = none) ∨
    (∃ name a, RefAt x p name ∧ Selects t name a ∧ at? y p = some (.arr a)) ∨
    (∃ u v, at? x p = some u ∧ at? y p = some v ∧ (∀ name, ¬ IsRef u name) ∧ SameForm u v) := by
  simpa only [get_selects] using replaces_exactly h p hp

/-- **C49, failure.** Insertion fails iff some reference (outside other references) selects nothing: it names a
column the table does not have, or is not a name or a list of names. -/
theorem C49_fails_iff (t : Frame A) (x : Cfg S A) :
    (∃ e, insertFrame t x = .error e) ↔
      ∃ p name, Outside x p ∧ RefAt x p name ∧ ∀ a, ¬ Selects t name a := by
  simpa only [get_selects, ne_eq] using fails_iff t x

theorem at?_append (q r : List ℕ) (x : Cfg S A) : at? x (q ++ r) = (at? x q).bind (fun y => at? y r) := by
  induction q generalizing x with
  | nil => simp [at?]
  | cons a q ih =>
    simp only [List.cons_append, at?]
    cases child x a with
    | none => rfl
    | some y => simp [ih]

/-- Nothing inside a name or a list of names is a reference. -/
theorem names_no_ref {v : Cfg S A} {names : List String} (h : Names v names) (r : List ℕ) (w : Cfg S A) :
    ¬ RefAt v r w := by
  rintro ⟨u, hu, hr⟩
  unfold IsRef at hr
  subst hr
  cases h with
  | one name =>
    cases r with
    | nil => simp [at?] at hu
    | cons i r => simp [at?, child] at hu
  | several names =>
    cases r with
    | nil => simp [at?] at hu
    | cons i r =>
      simp only [at?, child, List.getElem?_map] at hu
      cases hn : names[i]? with
      | none => simp [hn] at hu
      | some s =>
        simp only [hn, Option.map_some, Option.bind_some] at hu
        cases r with
        | nil => simp [at?] at hu
        | cons j r => simp [at?, child] at hu

/-- **C49, failure.** If every reference is by a name or a list of names, the only possible failure is
`ColumnInsertionError`, and it occurs iff a referenced column does not exist. -/
theorem C49_missing_column (t : Frame A) (x : Cfg S A)
    (hstr : ∀ p v, RefAt x p v → ∃ names, Names v names) :
    (∀ e, insertFrame t x = .error e → e = .columnInsertion) ∧
    (insertFrame t x = .error .columnInsertion ↔
      ∃ p v names, RefAt x p v ∧ Names v names ∧ ∃ name ∈ names, t.column name = none) := by
  have hget : ∀ (v : Cfg S A) (names : List String) (e : Err), Names v names →
      wrapColumnError (t.get v) = .error e → e = .columnInsertion ∧ ∃ name ∈ names, t.column name = none := by
    intro v names e hv h
    cases hv with
    | one s =>
      simp only [Frame.get] at h
      cases hc : t.column s with
      | some a => rw [hc] at h; simp [wrapColumnError] at h
      | none =>
        rw [hc] at h; simp [wrapColumnError] at h
        exact ⟨h.symm, s, by simp, hc⟩
    | several =>
      simp only [Frame.get, strings_map] at h
      split at h
      next => simp [wrapColumnError] at h
      next ha =>
        simp [wrapColumnError] at h
        refine ⟨h.symm, ?_⟩
        by_contra hne
        push Not at hne
        exact ha (List.all_eq_true.mpr fun s hs => Option.isSome_iff_ne_none.mpr (hne s hs))
  have h1 : ∀ e, insertFrame t x = .error e → e = .columnInsertion := by
    intro e h
    obtain ⟨p, v, -, h2, h3⟩ := insert_error_ref t x e h
    obtain ⟨names, hn⟩ := hstr p v h2
    exact (hget v names e hn h3).1
  refine ⟨h1, ?_, ?_⟩
  · intro h
    obtain ⟨p, v, -, h2, h3⟩ := insert_error_ref t x _ h
    obtain ⟨names, hn⟩ := hstr p v h2
    exact ⟨p, v, names, h2, hn, (hget v names _ hn h3).2⟩
  · rintro ⟨p, v, names, h2, hn, s, hs, hc⟩
    have hout : Outside x p := by
      -- there is no reference inside a reference
      intro q s' r nm e hr
      obtain ⟨ns, hns⟩ := hstr q nm hr
      obtain ⟨u, hu, hur⟩ := h2
      obtain ⟨w, hw, hwr⟩ := hr
      rw [e, at?_append, hw] at hu
      unfold IsRef at hwr; subst hwr
      simp only [Option.bind_some, at?, child] at hu
      cases s' with
      | zero =>
        simp at hu
        exact names_no_ref hns r v ⟨u, hu, hur⟩
      | succ k => simp at hu
    obtain ⟨e, he⟩ := (C49_fails_iff t x).mpr ⟨p, _, hout, h2, fun a ha => by
      cases hn with
      | one name =>
        rw [List.mem_singleton] at hs
        subst hs
        cases ha with | one h => rw [hc] at h; cases h
      | several =>
        generalize hl : (names.map Cfg.str : List (Cfg S A)) = l at ha
        cases ha with
        | several h =>
          have := congrArg (Cfg.strings (S := S) (A := A)) hl
          rw [strings_map, strings_map] at this
          cases this
          exact h s hs hc⟩
    rw [h1 e he] at he
    exact he

/-- A concrete, nested case: one reference inside a list inside a dictionary. -/
example : insertFrame (S := ℕ) ⟨fun s => if s = "phi" then some "PHI" else none, fun _ => ""⟩
    (.dict [("a", .scalar 3), ("b", .list [.dict [("column", .str "phi")], .dict []])])
    = .ok (.dict [("a", .scalar 3), ("b", .list [.arr "PHI", .dict []])]) := by
  simp [insertFrame, insertFrameList, insertFrameDict, Frame.get, wrapColumnError]

/-- A reference to two columns selects them in the order of the names; a reference to a missing one nothing. -/
example (t : Frame (List ℕ)) (ha : t.column "a" = some [1]) (hb : t.column "b" = some [2]) (hd : t.column "d" = none) :
    Selects (S := ℕ) t (.list [.str "b", .str "a"]) (t.columns ["b", "a"]) ∧
    ∀ a, ¬ Selects (S := ℕ) t (.list [.str "b", .str "d"]) a := by
  refine ⟨Selects.several (names := ["b", "a"]) (by simp [ha, hb]), fun a h => ?_⟩
  rw [← get_selects] at h
  simp [Frame.get, Cfg.strings, hb, hd] at h

/-! ### C50 -/

theorem checkNoReferenceList_error (xs : List (Cfg S A)) :
    (∃ e, checkNoReferenceList xs = .error e) ↔ ∃ (i : ℕ) (x : _), xs[i]? = some x ∧
      ∃ e, checkNoReference x = .error e := by
  induction xs with
  | nil => simp [checkNoReferenceList]
  | cons x xs ih =>
    simp only [checkNoReferenceList]
    cases hx : checkNoReference x with
    | error e =>
      simp only [bind_error, Except.error.injEq, exists_eq', true_iff]
      exact ⟨0, x, rfl, e, hx⟩
    | ok u =>
      rw [bind_ok, ih]
      constructor
      · rintro ⟨i, y, h1, h2⟩; exact ⟨i + 1, y, by simpa using h1, h2⟩
      · rintro ⟨i, y, h1, e, h2⟩
        cases i with
        | zero => simp at h1; subst h1; rw [hx] at h2; cases h2
        | succ i => exact ⟨i, y, by simpa using h1, e, h2⟩

theorem checkNoReferenceDict_error (xs : List (String × Cfg S A)) :
    (∃ e, checkNoReferenceDict xs = .error e) ↔ ∃ (i : ℕ) (x : _), xs[i]? = some x ∧
      ∃ e, checkNoReference x.2 = .error e := by
  induction xs with
  | nil => simp [checkNoReferenceDict]
  | cons x xs ih =>
    simp only [checkNoReferenceDict]
    cases hx : checkNoReference x.2 with
    | error e =>
      simp only [bind_error, Except.error.injEq, exists_eq', true_iff]
      exact ⟨0, x, rfl, e, hx⟩
    | ok u =>
      rw [bind_ok, ih]
      constructor
      · rintro ⟨i, y, h1, h2⟩; exact ⟨i + 1, y, by simpa using h1, h2⟩
      · rintro ⟨i, y, h1, e, h2⟩
        cases i with
        | zero => simp at h1; subst h1; rw [hx] at h2; cases h2
        | succ i => exact ⟨i, y, by simpa using h1, e, h2⟩

theorem checkNoReference_dict (xs : List (String × Cfg S A)) (hno : ∀ name, xs ≠ [("column", name)]) :
    checkNoReference (.dict xs) = checkNoReferenceDict xs := by
  match xs with
  | [] => simp [checkNoReference]
  | [(k, v)] =>
    have hk : k ≠ "column" := fun e => hno v (by rw [e])
    simp only [checkNoReference, if_neg hk, checkNoReferenceDict]
    cases checkNoReference v <;> rfl
  | a :: b :: l => simp only [checkNoReference]

theorem checkNoReference_error (x : Cfg S A) :
    (∃ e, checkNoReference x = .error e) ↔ ∃ p name, RefAt x p name := by
  have lift : ∀ i a, child x i = some a → (∃ p name, RefAt a p name) → ∃ p name, RefAt x p name := by
    rintro i a hi ⟨p, name, u, hu, hr⟩
    exact ⟨i :: p, name, u, by simp [at?, hi, hu], hr⟩
  have drop : ∀ i p name, RefAt x (i :: p) name → ∃ a, child x i = some a ∧ RefAt a p name := by
    rintro i p name ⟨u, hu, hr⟩
    cases hc : child x i with
    | none => simp [at?, hc] at hu
    | some a => exact ⟨a, rfl, u, by simpa [at?, hc] using hu, hr⟩
  cases x with
  | scalar s =>
    simp only [checkNoReference, reduceCtorEq, exists_false, false_iff]
    rintro ⟨p, name, u, hu, hr⟩
    cases p <;> simp [at?, child] at hu
    subst hu; cases hr
  | str s =>
    simp only [checkNoReference, reduceCtorEq, exists_false, false_iff]
    rintro ⟨p, name, u, hu, hr⟩
    cases p <;> simp [at?, child] at hu
    subst hu; cases hr
  | arr s =>
    simp only [checkNoReference, reduceCtorEq, exists_false, false_iff]
    rintro ⟨p, name, u, hu, hr⟩
    cases p <;> simp [at?, child] at hu
    subst hu; cases hr
  | list xs =>
    simp only [checkNoReference]
    rw [checkNoReferenceList_error]
    constructor
    · rintro ⟨i, a, h1, h2⟩
      have hlt : sizeOf a < sizeOf (Cfg.list xs) := child_lt (x := .list xs) (i := i) h1
      exact lift i a h1 ((checkNoReference_error a).mp h2)
    · rintro ⟨p, name, h⟩
      cases p with
      | nil => obtain ⟨u, hu, hr⟩ := h; simp [at?] at hu; subst hu; cases hr
      | cons i p =>
        obtain ⟨a, ha, hr⟩ := drop i p name h
        have hlt : sizeOf a < sizeOf (Cfg.list xs) := child_lt (x := .list xs) (i := i) ha
        exact ⟨i, a, ha, (checkNoReference_error a).mpr ⟨p, name, hr⟩⟩
  | dict xs =>
    by_cases hr : ∃ name, xs = [("column", name)]
    · obtain ⟨name, rfl⟩ := hr
      simp only [checkNoReference, if_true, Except.error.injEq, exists_eq', true_iff]
      exact ⟨[], name, _, rfl, rfl⟩
    · push Not at hr
      rw [checkNoReference_dict xs hr, checkNoReferenceDict_error]
      constructor
      · rintro ⟨i, a, h1, h2⟩
        have hch : child (.dict xs) i = some a.2 := by simp [child, h1]
        have hlt : sizeOf a.2 < sizeOf (Cfg.dict xs) := child_lt hch
        exact lift i a.2 hch ((checkNoReference_error a.2).mp h2)
      · rintro ⟨p, name, h⟩
        cases p with
        | nil =>
          obtain ⟨u, hu, hu'⟩ := h
          simp [at?] at hu; subst hu
          unfold IsRef at hu'; injection hu' with hu'; exact absurd hu' (hr name)
        | cons i p =>
          obtain ⟨a, ha, hra⟩ := drop i p name h
          have hlt : sizeOf a < sizeOf (Cfg.dict xs) := child_lt ha
          simp only [child, Option.map_eq_some_iff] at ha
          obtain ⟨b, hb, rfl⟩ := ha
          exact ⟨i, b, hb, (checkNoReference_error b.2).mpr ⟨p, name, hra⟩⟩
termination_by sizeOf x
decreasing_by all_goals exact hlt

mutual
theorem checkNoReference_kind (x : Cfg S A) (e : Err) (h : checkNoReference x = .error e) :
    e = .columnInsertion := by
  match x with
  | .scalar s => simp [checkNoReference] at h
  | .str s => simp [checkNoReference] at h
  | .arr s => simp [checkNoReference] at h
  | .list xs => exact checkNoReferenceList_kind xs e (by simpa [checkNoReference] using h)
  | .dict [] => exact checkNoReferenceDict_kind [] e (by simpa [checkNoReference] using h)
  | .dict [(k, v)] =>
    simp only [checkNoReference] at h
    split at h
    · injection h with h; exact h.symm
    · exact checkNoReference_kind v e h
  | .dict (a :: b :: l) =>
    exact checkNoReferenceDict_kind (a :: b :: l) e (by simpa [checkNoReference] using h)
theorem checkNoReferenceList_kind (xs : List (Cfg S A)) (e : Err)
    (h : checkNoReferenceList xs = .error e) : e = .columnInsertion := by
  match xs with
  | [] => simp [checkNoReferenceList] at h
  | x :: xs =>
    simp only [checkNoReferenceList] at h
    cases hx : checkNoReference x with
    | error e' => rw [hx] at h; simp at h; subst h; exact checkNoReference_kind x e' hx
    | ok u => rw [hx] at h; exact checkNoReferenceList_kind xs e h
theorem checkNoReferenceDict_kind (xs : List (String × Cfg S A)) (e : Err)
    (h : checkNoReferenceDict xs = .error e) : e = .columnInsertion := by
  match xs with
  | [] => simp [checkNoReferenceDict] at h
  | (k, x) :: xs =>
    simp only [checkNoReferenceDict] at h
    cases hx : checkNoReference x with
    | error e' => rw [hx] at h; simp at h; subst h; exact checkNoReference_kind x e' hx
    | ok u => rw [hx] at h; exact checkNoReferenceDict_kind xs e h
end

/-- **C50.** Without data, a configuration is rejected (with `ColumnInsertionError`) iff it contains a
column reference at any depth; otherwise it is passed on unchanged. -/
theorem C50_reference_needs_data (x : Cfg S A) :
    (insertDataframe none x = .error .columnInsertion ↔ ∃ p name, RefAt x p name) ∧
    ((∀ p name, ¬ RefAt x p name) → insertDataframe none x = .ok x) := by
  unfold insertDataframe
  constructor
  · rw [← checkNoReference_error]
    constructor
    · intro h
      cases hc : checkNoReference x with
      | error e => exact ⟨e, rfl⟩
      | ok u => rw [hc] at h; simp at h
    · rintro ⟨e, h⟩
      have := checkNoReference_kind x e h
      subst this
      simp [h]
  · intro h
    cases hc : checkNoReference x with
    | error e =>
      obtain ⟨p, name, hr⟩ := (checkNoReference_error x).mp ⟨e, hc⟩
      exact absurd hr (h p name)
    | ok u => simp

/-- A reference three levels down. -/
example : RefAt (S := ℕ) (A := ℕ) (.dict [("x", .scalar 1), ("y", .list [.dict [("column", .str "c")]])])
    [1, 0] (.str "c") := ⟨_, rfl, rfl⟩

end OPE
