import Verif.Spec.Parse

/-!
# Which type a section is parsed as (C47), coefficients (C48)
-/

namespace OPE.Parse

open Classical

variable {n : ℕ}

/-! ### Building blocks -/

theorem args_ok {fields : List String} {v : Val n} {a : Args n} :
    args fields v = .ok a ↔
      ∃ xs, named fields v = .dict xs ∧ (∀ x ∈ xs, x.1 ∈ fields) ∧ a = fun k => xs.lookup k := by
  unfold args
  cases named fields v with
  | dict xs =>
    dsimp only
    split
    · rename_i h
      simp only [List.all_eq_true, decide_eq_true_eq] at h
      constructor
      · intro h'; injection h' with h'; exact ⟨xs, rfl, h, h'.symm⟩
      · rintro ⟨ys, hy, -, rfl⟩; injection hy with hy; subst hy; rfl
    · rename_i h
      simp only [List.all_eq_true, decide_eq_true_eq] at h
      constructor
      · intro h'; cases h'
      · rintro ⟨ys, hy, hk, -⟩; injection hy with hy; subst hy; exact absurd hk h
  | _ => constructor <;> (intro h; first | (cases h; done) | (obtain ⟨_, h, _⟩ := h; cases h))

theorem args_given {fields : List String} {v : Val n} {a : Args n} (h : args fields v = .ok a)
    {key : String} {x : Val n} : a key = some x ↔ Given (named fields v) key x := by
  obtain ⟨xs, hv, -, rfl⟩ := args_ok.mp h
  rw [hv]
  constructor
  · intro hx; exact ⟨xs, rfl, hx⟩
  · rintro ⟨ys, hy, hx⟩; injection hy with hy; subst hy; exact hx

theorem args_only {fields : List String} {v : Val n} {a : Args n} (h : args fields v = .ok a) :
    OnlyKeys (named fields v) fields := by
  obtain ⟨xs, hv, hk, -⟩ := args_ok.mp h
  rw [hv]
  exact ⟨xs, rfl, hk⟩

theorem args_of_only {fields : List String} {v : Val n} (h : OnlyKeys (named fields v) fields) :
    ∃ a, args fields v = .ok a := by
  obtain ⟨xs, hv, hk⟩ := h
  exact ⟨_, args_ok.mpr ⟨xs, hv, hk, rfl⟩⟩

/-- A mapping is read as it is. -/
theorem Given.named {v x : Val n} {key : String} (h : Given v key x) (fields : List String) :
    Parse.named fields v = v := by
  obtain ⟨xs, rfl, -⟩ := h; rfl

theorem named_of_not_list {v : Val n} (h : NotList v) (fields : List String) : named fields v = v := by
  cases v <;> first | rfl | exact absurd rfl (h _)

theorem OnlyKeys.named {v : Val n} {keys : List String} (h : OnlyKeys v keys) (fields : List String) :
    Parse.named fields v = v := by
  obtain ⟨xs, rfl, -⟩ := h; rfl

theorem lookup_mem {xs : List (String × Val n)} {k : String} {x : Val n} (h : xs.lookup k = some x) :
    (k, x) ∈ xs := by
  induction xs with
  | nil => simp at h
  | cons y ys ih =>
    obtain ⟨k', x'⟩ := y
    rw [List.lookup_cons] at h
    split at h
    · rename_i hk
      injection h with h
      rw [show k = k' from by simpa using hk, h]; exact List.mem_cons_self
    · exact List.mem_cons_of_mem _ (ih h)

theorem has_of_mem {xs : List (String × Val n)} {x : String × Val n} (hm : x ∈ xs) :
    Has (.dict xs) x.1 := by
  have : ∃ y, xs.lookup x.1 = some y := by
    induction xs with
    | nil => simp at hm
    | cons y ys ih =>
      rw [List.lookup_cons]
      split
      · exact ⟨_, rfl⟩
      · rename_i hne
        rcases List.mem_cons.mp hm with rfl | hm
        · simp at hne
        · exact ih hm
  obtain ⟨y, hy⟩ := this
  exact ⟨y, xs, rfl, hy⟩

/-- A key that a mapping has is one of its only keys. -/
theorem OnlyKeys.mem {v : Val n} {keys : List String} (h : OnlyKeys v keys) {key : String}
    (hk : Has v key) : key ∈ keys := by
  obtain ⟨xs, rfl, h⟩ := h
  obtain ⟨x, ys, hy, hx⟩ := hk
  injection hy with hy; subst hy
  exact h _ (lookup_mem hx)

theorem required_ok {α : Type} {a : Args n} {key : String} {p : Val n → Except Err α} {r : α} :
    required a key p = .ok r ↔ ∃ v, a key = some v ∧ p v = .ok r := by
  unfold required
  cases h : a key with
  | none => simp [reject]
  | some v => simp

theorem defaulted_ok {α : Type} {a : Args n} {key : String} {p : Val n → Except Err α} {d r : α} :
    defaulted a key p d = .ok r ↔ (a key = none ∧ r = d) ∨ ∃ v, a key = some v ∧ p v = .ok r := by
  unfold defaulted
  cases h : a key with
  | none => simp [eq_comm]
  | some v => simp

theorem literal_ok {tag : String} {v : Val n} : literal tag v = .ok () ↔ v = .str tag := by
  cases v with
  | str s =>
    simp only [literal]
    constructor
    · intro h; split at h
      · rename_i h'; rw [h']
      · cases h
    · intro h; injection h with h; rw [if_pos h]
  | _ => constructor <;> intro h <;> cases h

theorem tagged_ok {a : Args n} {tag : String} :
    tagged a tag = .ok () ↔ a "type" = none ∨ a "type" = some (.str tag) := by
  unfold tagged
  rw [defaulted_ok]
  constructor
  · rintro (⟨h, -⟩ | ⟨v, h, hv⟩)
    · exact .inl h
    · right; rw [h, literal_ok.mp hv]
  · rintro (h | h)
    · exact .inl ⟨h, rfl⟩
    · exact .inr ⟨_, h, literal_ok.mpr rfl⟩

/-- The tag of a section, if given, is the expected one. -/
theorem tagged_given {fields : List String} {v : Val n} {a : Args n} {tag : String}
    (h : args fields v = .ok a) (ht : tagged a tag = .ok ()) {x : Val n} (hx : Given (named fields v) "type" x) :
    x = .str tag := by
  rw [← args_given h] at hx
  rcases tagged_ok.mp ht with h | h <;> rw [h] at hx
  · cases hx
  · injection hx with hx; exact hx.symm

theorem firstOf_ok {α : Type} {ps : List (Val n → Except Err α)} {v : Val n} {r : α} :
    firstOf ps v = .ok r ↔ ∃ pre p post, ps = pre ++ p :: post ∧ p v = .ok r ∧
      ∀ q ∈ pre, ∃ e, q v = .error e := by
  induction ps with
  | nil => simp [firstOf, reject]
  | cons p ps ih =>
    simp only [firstOf]
    cases hp : p v with
    | ok a =>
      simp only
      constructor
      · intro h; injection h with h; subst h; exact ⟨[], p, ps, rfl, hp, by simp⟩
      · rintro ⟨pre, q, post, h1, h2, h3⟩
        cases pre with
        | nil => simp at h1; obtain ⟨rfl, -⟩ := h1; rw [← hp, h2]
        | cons q' pre =>
          simp at h1
          obtain ⟨e, he⟩ := h3 q' List.mem_cons_self
          rw [← h1.1, hp] at he; cases he
    | error e =>
      simp only
      rw [ih]
      constructor
      · rintro ⟨pre, q, post, rfl, h2, h3⟩
        refine ⟨p :: pre, q, post, rfl, h2, ?_⟩
        intro q' hq
        rcases List.mem_cons.mp hq with rfl | hq
        · exact ⟨e, hp⟩
        · exact h3 q' hq
      · rintro ⟨pre, q, post, h1, h2, h3⟩
        cases pre with
        | nil => simp at h1; obtain ⟨rfl, -⟩ := h1; rw [hp] at h2; cases h2
        | cons q' pre =>
          simp at h1
          exact ⟨pre, q, post, h1.2, h2, fun q hq => h3 q (List.mem_cons_of_mem _ hq)⟩

theorem firstOf_mem {α : Type} {ps : List (Val n → Except Err α)} {v : Val n} {r : α}
    (h : firstOf ps v = .ok r) : ∃ p ∈ ps, p v = .ok r := by
  obtain ⟨pre, p, post, rfl, hp, -⟩ := firstOf_ok.mp h
  exact ⟨p, by simp, hp⟩

theorem firstOf_error {α : Type} {ps : List (Val n → Except Err α)} {v : Val n} {e : Err}
    (h : firstOf ps v = .error e) : e = .valueError ∧ ∀ p ∈ ps, ∃ e, p v = .error e := by
  induction ps with
  | nil => simp [firstOf, reject] at h; exact ⟨h.symm, by simp⟩
  | cons p ps ih =>
    simp only [firstOf] at h
    cases hp : p v with
    | ok a => rw [hp] at h; cases h
    | error e' =>
      rw [hp] at h
      obtain ⟨h1, h2⟩ := ih h
      refine ⟨h1, fun q hq => ?_⟩
      rcases List.mem_cons.mp hq with rfl | hq
      · exact ⟨_, hp⟩
      · exact h2 q hq

/-- If at most one alternative accepts a value, the order of the alternatives is irrelevant. -/
theorem firstOf_perm {α : Type} {ps qs : List (Val n → Except Err α)} (h : ps.Perm qs) {v : Val n}
    (hx : ∀ p ∈ ps, ∀ q ∈ ps, ∀ r s, p v = .ok r → q v = .ok s → r = s) :
    firstOf ps v = firstOf qs v := by
  cases hp : firstOf ps v with
  | ok r =>
    obtain ⟨p, hpm, hpr⟩ := firstOf_mem hp
    cases hq : firstOf qs v with
    | ok s =>
      obtain ⟨q, hqm, hqs⟩ := firstOf_mem hq
      rw [hx p hpm q (h.mem_iff.mpr hqm) r s hpr hqs]
    | error e =>
      obtain ⟨e', he'⟩ := (firstOf_error hq).2 p (h.mem_iff.mp hpm)
      rw [hpr] at he'; cases he'
  | error e =>
    obtain ⟨he, hall⟩ := firstOf_error hp
    cases hq : firstOf qs v with
    | ok s =>
      obtain ⟨q, hqm, hqs⟩ := firstOf_mem hq
      obtain ⟨e', he'⟩ := hall q (h.mem_iff.mpr hqm)
      rw [hqs] at he'; cases he'
    | error e' => rw [he, (firstOf_error hq).1]

/-! ### Material types -/

/-- What acceptance by one alternative says about the keys. -/
structure Fits (v : Val n) (t : MatType) : Prop where
  only : OnlyKeys v t.accepts
  all : AllKeys v t.needs
  tag : ∀ x, Given v "type" x → x = .str t.name

theorem parseArbitrary_fits {conv : Conv} {v : Val n} {m : Mat n}
    (h : parseArbitrary conv v = .ok m) : Fits (named MatType.material.accepts v) .material := by
  unfold parseArbitrary at h
  obtain ⟨a, ha, h⟩ := bind_eq_ok.mp h
  obtain ⟨_, ht, h⟩ := bind_eq_ok.mp h
  obtain ⟨d, hd, h⟩ := bind_eq_ok.mp h
  obtain ⟨x, hx, -⟩ := required_ok.mp hd
  refine ⟨args_only ha, ?_, fun x hx => tagged_given ha ht hx⟩
  intro key hk
  simp only [MatType.needs, List.mem_singleton] at hk
  subst hk
  exact ⟨x, (args_given ha).mp hx⟩

theorem parseMaterial_fits {conv : Conv} {v : Val n} {k : FluidKind n}
    (h : parseMaterial conv v = .ok k) : Fits (named MatType.material.accepts v) .material ∧ k.type = MatType.material.name := by
  unfold parseMaterial at h
  obtain ⟨m, hm, h⟩ := bind_eq_ok.mp h
  injection h with h; subst h
  exact ⟨parseArbitrary_fits hm, rfl⟩

theorem parseGas_fits {conv : Conv} {v : Val n} {k : FluidKind n}
    (h : parseGas conv v = .ok k) : Fits (named MatType.gas.accepts v) .gas ∧ k.type = MatType.gas.name := by
  unfold parseGas at h
  obtain ⟨a, ha, h⟩ := bind_eq_ok.mp h
  obtain ⟨_, ht, h⟩ := bind_eq_ok.mp h
  obtain ⟨d, hd, h⟩ := bind_eq_ok.mp h
  obtain ⟨x, hx, -⟩ := required_ok.mp hd
  injection h with h; subst h
  refine ⟨⟨args_only ha, ?_, fun x hx => tagged_given ha ht hx⟩, rfl⟩
  intro key hk
  simp only [MatType.needs, List.mem_singleton] at hk
  subst hk
  exact ⟨x, (args_given ha).mp hx⟩

theorem parseOil_fits {conv : Conv} {v : Val n} {k : FluidKind n}
    (h : parseOil conv v = .ok k) : Fits (named MatType.oil.accepts v) .oil ∧ k.type = MatType.oil.name := by
  unfold parseOil at h
  obtain ⟨a, ha, h⟩ := bind_eq_ok.mp h
  obtain ⟨_, ht, h⟩ := bind_eq_ok.mp h
  obtain ⟨d1, hd1, h⟩ := bind_eq_ok.mp h
  obtain ⟨d2, hd2, h⟩ := bind_eq_ok.mp h
  obtain ⟨d3, hd3, h⟩ := bind_eq_ok.mp h
  obtain ⟨x1, hx1, -⟩ := required_ok.mp hd1
  obtain ⟨x2, hx2, -⟩ := required_ok.mp hd2
  obtain ⟨x3, hx3, -⟩ := required_ok.mp hd3
  injection h with h; subst h
  refine ⟨⟨args_only ha, ?_, fun x hx => tagged_given ha ht hx⟩, rfl⟩
  intro key hk
  simp only [MatType.needs, List.mem_cons, List.not_mem_nil, or_false] at hk
  rcases hk with rfl | rfl | rfl
  · exact ⟨x1, (args_given ha).mp hx1⟩
  · exact ⟨x2, (args_given ha).mp hx2⟩
  · exact ⟨x3, (args_given ha).mp hx3⟩

theorem parseBrine_fits {conv : Conv} {v : Val n} {k : FluidKind n}
    (h : parseBrine conv v = .ok k) : Fits (named MatType.brine.accepts v) .brine ∧ k.type = MatType.brine.name := by
  unfold parseBrine at h
  obtain ⟨a, ha, h⟩ := bind_eq_ok.mp h
  obtain ⟨_, ht, h⟩ := bind_eq_ok.mp h
  obtain ⟨d, hd, h⟩ := bind_eq_ok.mp h
  obtain ⟨x, hx, -⟩ := required_ok.mp hd
  injection h with h; subst h
  refine ⟨⟨args_only ha, ?_, fun x hx => tagged_given ha ht hx⟩, rfl⟩
  intro key hk
  simp only [MatType.needs, List.mem_singleton] at hk
  subst hk
  exact ⟨x, (args_given ha).mp hx⟩

theorem parseCondensate_fits {conv : Conv} {v : Val n} {k : FluidKind n}
    (h : parseCondensate conv v = .ok k) : Fits (named MatType.condensate.accepts v) .condensate ∧ k.type = MatType.condensate.name := by
  unfold parseCondensate at h
  obtain ⟨a, ha, h⟩ := bind_eq_ok.mp h
  obtain ⟨_, ht, h⟩ := bind_eq_ok.mp h
  obtain ⟨d1, hd1, h⟩ := bind_eq_ok.mp h
  obtain ⟨d2, hd2, h⟩ := bind_eq_ok.mp h
  obtain ⟨d3, hd3, h⟩ := bind_eq_ok.mp h
  obtain ⟨x1, hx1, -⟩ := required_ok.mp hd1
  obtain ⟨x2, hx2, -⟩ := required_ok.mp hd2
  obtain ⟨x3, hx3, -⟩ := required_ok.mp hd3
  injection h with h; subst h
  refine ⟨⟨args_only ha, ?_, fun x hx => tagged_given ha ht hx⟩, rfl⟩
  intro key hk
  simp only [MatType.needs, List.mem_cons, List.not_mem_nil, or_false] at hk
  rcases hk with rfl | rfl | rfl
  · exact ⟨x1, (args_given ha).mp hx1⟩
  · exact ⟨x2, (args_given ha).mp hx2⟩
  · exact ⟨x3, (args_given ha).mp hx3⟩

theorem parseCO2_fits {v : Val n} {k : FluidKind n}
    (h : parseCO2 v = .ok k) : Fits (named MatType.carbonDioxide.accepts v) .carbonDioxide ∧ k.type = MatType.carbonDioxide.name := by
  unfold parseCO2 at h
  obtain ⟨a, ha, h⟩ := bind_eq_ok.mp h
  obtain ⟨_, ht, h⟩ := bind_eq_ok.mp h
  obtain ⟨d, hd, h⟩ := bind_eq_ok.mp h
  injection h with h; subst h
  refine ⟨⟨args_only ha, ?_, fun x hx => tagged_given ha ht hx⟩, rfl⟩
  intro key hk
  simp [MatType.needs] at hk

/-- No mapping has all the keys one type needs and only keys another type accepts. -/
theorem types_exclusive {v : Val n} {s t : MatType} (hs : OnlyKeys v s.accepts) (hs' : AllKeys v s.needs)
    (ht : OnlyKeys v t.accepts) (ht' : AllKeys v t.needs) : s = t := by
  have key : ∀ a b : MatType, a ≠ b → (∃ k ∈ a.needs, k ∉ b.accepts) ∨ (∃ k ∈ b.needs, k ∉ a.accepts) := by
    intro a b; cases a <;> cases b <;> decide
  by_contra hne
  rcases key s t hne with ⟨k, hk, hn⟩ | ⟨k, hk, hn⟩
  · exact hn (ht.mem (hs' k hk))
  · exact hn (hs.mem (ht' k hk))

/-- The alternative for each type. -/
noncomputable def altOf (conv : Conv) : MatType → Val n → Except Err (FluidKind n)
  | .material => parseMaterial conv
  | .gas => parseGas conv
  | .oil => parseOil conv
  | .brine => parseBrine conv
  | .condensate => parseCondensate conv
  | .carbonDioxide => parseCO2

/-- Each alternative with the type it stands for. -/
theorem alternative_fits {conv : Conv} {p : Val n → Except Err (FluidKind n)}
    (hp : p ∈ materialAlternatives conv) {v : Val n} {k : FluidKind n} (h : p v = .ok k) :
    ∃ t : MatType, p = altOf conv t ∧ Fits (named t.accepts v) t ∧ k.type = t.name := by
  simp only [materialAlternatives, List.mem_cons, List.not_mem_nil, or_false] at hp
  rcases hp with rfl | rfl | rfl | rfl | rfl | rfl
  · exact ⟨.material, rfl, parseMaterial_fits h⟩
  · exact ⟨.gas, rfl, parseGas_fits h⟩
  · exact ⟨.oil, rfl, parseOil_fits h⟩
  · exact ⟨.brine, rfl, parseBrine_fits h⟩
  · exact ⟨.condensate, rfl, parseCondensate_fits h⟩
  · exact ⟨.carbonDioxide, rfl, parseCO2_fits h⟩

/-- **C47.** An accepted material section has exactly one of the six types: the only one whose accepted
keys include all given keys and whose needed keys are given; a `type` tag, if given, is the name of that
type. -/
theorem C47_material (conv : Conv) (v : Val n) (k : FluidKind n)
    (h : parseMaterialType conv v = .ok k) :
    ∃ t : MatType, k.type = t.name ∧ OnlyKeys (named t.accepts v) t.accepts ∧
      AllKeys (named t.accepts v) t.needs ∧ (∀ x, Given (named t.accepts v) "type" x → x = .str t.name) ∧
      ∀ s : MatType, OnlyKeys v s.accepts → AllKeys v s.needs → s = t := by
  obtain ⟨p, hp, hk⟩ := firstOf_mem h
  obtain ⟨t, -, ht, hkt⟩ := alternative_fits hp hk
  exact ⟨t, hkt, ht.only, ht.all, ht.tag, fun s hs hs' => types_exclusive hs hs' (hs.named t.accepts ▸ ht.only) (hs.named t.accepts ▸ ht.all)⟩

theorem name_injective {s t : MatType} (h : s.name = t.name) : s = t := by
  cases s <;> cases t <;> first | rfl | exact absurd h (by decide)

/-- **C47.** The order in which the material types are declared is irrelevant to a section written as a
mapping: at most one of them accepts it, so every order gives the same result. -/
theorem C47_order_irrelevant (conv : Conv) (v : Val n) (hv : NotList v) (ps : List (Val n → Except Err (FluidKind n)))
    (hps : (materialAlternatives conv).Perm ps) : firstOf ps v = parseMaterialType conv v := by
  symm
  refine firstOf_perm hps ?_
  intro p hp q hq r s hr hs
  obtain ⟨t, rfl, ht, -⟩ := alternative_fits hp hr
  obtain ⟨u, rfl, hu, -⟩ := alternative_fits hq hs
  rw [named_of_not_list hv] at ht hu
  obtain rfl : t = u := types_exclusive ht.only ht.all hu.only hu.all
  rw [hr] at hs
  injection hs

/-! ### Dry rock and pressure dependency models -/

theorem into_ok {α β : Type} {f : α → β} {p : Val n → Except Err α} {v : Val n} {b : β} :
    into f p v = .ok b ↔ ∃ a, p v = .ok a ∧ b = f a := by
  unfold into
  rw [bind_eq_ok]
  constructor
  · rintro ⟨a, ha, h⟩; injection h with h; exact ⟨a, ha, h.symm⟩
  · rintro ⟨a, ha, rfl⟩; exact ⟨a, ha, rfl⟩

abbrev patchyKeys : List String := ["type", "cement", "critical_porosity", "cement_fraction",
  "lower_bound_pressure", "upper_bound_cement_fraction", "coordination_number", "shear_reduction"]

abbrev friableKeys : List String := ["critical_porosity", "shear_reduction", "coordination_number", "type"]

theorem parsePatchy_fits {conv : Conv} {v : Val n} {f : PatchyModel n} (h : parsePatchy conv v = .ok f) :
    OnlyKeys (named patchyKeys v) patchyKeys ∧ ∀ x, Given (named patchyKeys v) "type" x → x = .str "patchy_cement" := by
  unfold parsePatchy at h
  obtain ⟨a, ha, h⟩ := bind_eq_ok.mp h
  obtain ⟨_, ht, h⟩ := bind_eq_ok.mp h
  exact ⟨args_only ha, fun x hx => tagged_given ha ht hx⟩

theorem parseFriable_fits {conv : Conv} {v : Val n} {f : FriableModel n}
    (h : parseFriable conv v = .ok f) :
    OnlyKeys (named friableKeys v) friableKeys ∧ ∀ x, Given (named friableKeys v) "type" x → x = .str "friable_sand" := by
  unfold parseFriable at h
  obtain ⟨a, ha, h⟩ := bind_eq_ok.mp h
  obtain ⟨_, ht, h⟩ := bind_eq_ok.mp h
  exact ⟨args_only ha, fun x hx => tagged_given ha ht hx⟩

theorem parsePolyfit2d_fits {conv : Conv} {v : Val n} {m : SandModel n}
    (h : parsePolyfit2d conv v = .ok m) :
    OnlyKeys (named ["coefficients", "type"] v) ["coefficients", "type"] ∧
      (∀ x, Given (named ["coefficients", "type"] v) "type" x → x = .str "polyfit") ∧
      m.typeName = "polyfit" := by
  unfold parsePolyfit2d at h
  obtain ⟨a, ha, h⟩ := bind_eq_ok.mp h
  obtain ⟨_, ht, h⟩ := bind_eq_ok.mp h
  obtain ⟨co, hco, h⟩ := bind_eq_ok.mp h
  refine ⟨args_only ha, fun x hx => tagged_given ha ht hx, ?_⟩
  cases co with
  | none => injection h with h; subst h; rfl
  | some k =>
    obtain ⟨d, -, h⟩ := bind_eq_ok.mp h
    obtain ⟨p, -, h⟩ := bind_eq_ok.mp h
    obtain ⟨s, -, h⟩ := bind_eq_ok.mp h
    injection h with h; subst h; rfl

theorem parseFit_fits {conv : Conv} {kind : FitKind} {v : Val n} {m : PDIn n}
    (h : parseFit conv kind v = .ok m) :
    OnlyKeys (named ["coefficients", "type"] v) ["coefficients", "type"] ∧
      (∀ x, Given (named ["coefficients", "type"] v) "type" x → x = .str kind.tag) ∧
      Has (named ["coefficients", "type"] v) "coefficients" ∧ ∃ co, m = .fit kind co := by
  unfold parseFit at h
  obtain ⟨a, ha, h⟩ := bind_eq_ok.mp h
  obtain ⟨_, ht, h⟩ := bind_eq_ok.mp h
  obtain ⟨co, hco, h⟩ := bind_eq_ok.mp h
  obtain ⟨x, hx, -⟩ := required_ok.mp hco
  injection h with h
  exact ⟨args_only ha, fun x hx => tagged_given ha ht hx, ⟨x, (args_given ha).mp hx⟩, co, h.symm⟩

/-- Which dry rock alternative was taken. -/
theorem parseSandstone_cases {conv : Conv} {v : Val n} {m : SandModel n}
    (h : parseSandstone conv v = .ok m) :
    (∃ f, parsePatchy conv v = .ok f ∧ m = .patchy f) ∨
    ((∃ e, parsePatchy conv v = .error e) ∧ ∃ f, parseFriable conv v = .ok f ∧ m = .friable f) ∨
    ((∃ e, parsePatchy conv v = .error e) ∧ (∃ e, parseFriable conv v = .error e) ∧
      parsePolyfit2d conv v = .ok m) := by
  unfold parseSandstone at h
  simp only [firstOf] at h
  cases hp : parsePatchy conv v with
  | ok f =>
    rw [show into SandModel.patchy (parsePatchy conv) v = .ok (.patchy f) from into_ok.mpr ⟨f, hp, rfl⟩] at h
    injection h with h; exact .inl ⟨f, rfl, h.symm⟩
  | error e =>
    rw [show into SandModel.patchy (parsePatchy conv) v = .error e by unfold into; rw [hp]; rfl] at h
    cases hf : parseFriable conv v with
    | ok f =>
      rw [show into SandModel.friable (parseFriable conv) v = .ok (.friable f) from into_ok.mpr ⟨f, hf, rfl⟩] at h
      injection h with h; exact .inr (.inl ⟨⟨e, rfl⟩, f, rfl, h.symm⟩)
    | error e' =>
      rw [show into SandModel.friable (parseFriable conv) v = .error e' by unfold into; rw [hf]; rfl] at h
      cases hq : parsePolyfit2d conv v with
      | ok m' => rw [hq] at h; injection h with h; exact .inr (.inr ⟨⟨e, rfl⟩, ⟨e', rfl⟩, by rw [h]⟩)
      | error e'' => rw [hq] at h; cases h

theorem not_given_of_not_has {v : Val n} {key : String} {a : Args n} {fields : List String}
    (ha : args fields v = .ok a) (h : ¬ Has (named fields v) key) : a key = none := by
  cases hk : a key with
  | none => rfl
  | some x => exact absurd ⟨x, (args_given ha).mp hk⟩ h

/-- A section that the friable sand model accepts and that has no tag is accepted by the patchy cement
model. -/
theorem patchy_of_friable {conv : Conv} {v : Val n} (hv : NotList v) {f : FriableModel n}
    (h : parseFriable conv v = .ok f) (hu : ¬ Has v "type") : ∃ g, parsePatchy conv v = .ok g := by
  have hk := (parseFriable_fits h).1
  rw [named_of_not_list hv] at hk
  have hk' : OnlyKeys (named patchyKeys v) patchyKeys := by
    rw [named_of_not_list hv]
    obtain ⟨xs, rfl, hx⟩ := hk
    exact ⟨xs, rfl, fun x hm => (by decide : friableKeys ⊆ patchyKeys) (hx x hm)⟩
  obtain ⟨b, hb⟩ := args_of_only hk'
  have hno : ∀ key, key ∉ friableKeys → b key = none := fun key hkey =>
    not_given_of_not_has hb fun hh => hkey (hk.mem (named_of_not_list hv _ ▸ hh))
  unfold parseFriable at h
  obtain ⟨a, ha, h⟩ := bind_eq_ok.mp h
  obtain ⟨_, ht, h⟩ := bind_eq_ok.mp h
  obtain ⟨phi, h1, h⟩ := bind_eq_ok.mp h
  obtain ⟨red, h2, h⟩ := bind_eq_ok.mp h
  obtain ⟨coord, h3, h⟩ := bind_eq_ok.mp h
  have hab : a = b := by
    obtain ⟨xs, hx, -, rfl⟩ := args_ok.mp ha
    obtain ⟨ys, hy, -, rfl⟩ := args_ok.mp hb
    rw [named_of_not_list hv] at hx hy
    rw [hx] at hy; injection hy with hy; rw [hy]
  subst hab
  have e0 : a "type" = none := not_given_of_not_has ha (by rw [named_of_not_list hv]; exact hu)
  have e1 : a "cement" = none := hno _ (by decide)
  have e2 : a "cement_fraction" = none := hno _ (by decide)
  have e3 : a "lower_bound_pressure" = none := hno _ (by decide)
  have e4 : a "upper_bound_cement_fraction" = none := hno _ (by decide)
  refine ⟨mkPatchyModel defaultCement phi (c 0.04) (c 20e6) (c 0.1) coord red, ?_⟩
  · have hb' : args ["type", "cement", "critical_porosity", "cement_fraction", "lower_bound_pressure",
      "upper_bound_cement_fraction", "coordination_number", "shear_reduction"] v = .ok a := hb
    unfold parsePatchy
    rw [hb', bind_ok, tagged_ok.mpr (.inl e0), bind_ok, defaulted_ok.mpr (.inl ⟨e1, rfl⟩), bind_ok, h1,
      bind_ok, defaulted_ok.mpr (.inl ⟨e2, rfl⟩), bind_ok, defaulted_ok.mpr (.inl ⟨e3, rfl⟩), bind_ok,
      defaulted_ok.mpr (.inl ⟨e4, rfl⟩), bind_ok, h3, bind_ok, h2, bind_ok]

/-- A mapping without any key is accepted by the patchy cement model. -/
theorem patchy_of_empty {conv : Conv} {v : Val n} (h : OnlyKeys v []) :
    ∃ g, parsePatchy conv v = .ok g := by
  obtain ⟨xs, rfl, hx⟩ := h
  cases xs with
  | nil => exact ⟨_, rfl⟩
  | cons x xs => exact absurd (hx x List.mem_cons_self) (by simp)

/-- **C47.** A dry rock model (written as a mapping) with a tag is of that type.  Without tag it is patchy cement, unless it has
the key `coefficients`: then it is a polynomial fit.  (In particular a friable sand section needs its tag.) -/
theorem C47_sandstone (conv : Conv) (v : Val n) (hv : NotList v) (m : SandModel n) (h : parseSandstone conv v = .ok m) :
    (∀ x, Given v "type" x → x = .str m.typeName) ∧
    (¬ Has v "type" → m.typeName = if Has v "coefficients" then "polyfit" else "patchy_cement") := by
  rcases parseSandstone_cases h with ⟨f, hf, rfl⟩ | ⟨⟨e, he⟩, f, hf, rfl⟩ | ⟨⟨e, he⟩, -, hf⟩
  · obtain ⟨hk, ht⟩ := parsePatchy_fits hf
    rw [named_of_not_list hv] at hk ht
    refine ⟨ht, fun _ => ?_⟩
    rw [if_neg fun hc => absurd (hk.mem hc) (by decide)]; rfl
  · obtain ⟨hk, ht⟩ := parseFriable_fits hf
    rw [named_of_not_list hv] at hk ht
    refine ⟨ht, fun hu => ?_⟩
    obtain ⟨g, hg⟩ := patchy_of_friable hv hf hu
    rw [he] at hg; cases hg
  · obtain ⟨hk, ht, hm⟩ := parsePolyfit2d_fits hf
    rw [named_of_not_list hv] at hk ht
    rw [hm]
    refine ⟨ht, fun hu => ?_⟩
    rw [if_pos]
    by_contra hc
    obtain ⟨xs, rfl, hx⟩ := hk
    obtain ⟨g, hg⟩ := patchy_of_empty (conv := conv) (v := .dict xs) ⟨xs, rfl, fun x hm => by
      exfalso
      have : Has (.dict xs) x.1 := has_of_mem hm
      rcases List.mem_cons.mp (hx x hm) with he | he
      · rw [he] at this; exact hc this
      · rw [List.mem_singleton.mp he] at this; exact hu this⟩
    rw [he] at hg; cases hg

theorem parsePDModel_cases {conv : Conv} {v : Val n} {m : PDIn n} (h : parsePDModel conv v = .ok m) :
    (∃ f, parsePatchy conv v = .ok f ∧ m = .patchy f) ∨
    ((∃ e, parsePatchy conv v = .error e) ∧ ∃ f, parseFriable conv v = .ok f ∧ m = .friable f) ∨
    (∃ kind, parseFit conv kind v = .ok m ∧
      (kind ≠ .powerfit → ∃ e, parseFit conv .powerfit v = .error e) ∧
      (kind ≠ .powerfit → kind ≠ .logfit → ∃ e, parseFit conv .logfit v = .error e)) := by
  unfold parsePDModel at h
  obtain ⟨pre, p, post, hps, hp, hpre⟩ := firstOf_ok.mp h
  have key : ∀ e, into (n := n) PDIn.patchy (parsePatchy conv) v = .error e → ∃ e, parsePatchy conv v = .error e := by
    intro e he; unfold into at he
    cases hq : parsePatchy conv v with
    | ok f => rw [hq] at he; cases he
    | error e => exact ⟨e, rfl⟩
  match pre, hps, hpre with
  | [], hps, _ =>
    simp only [List.nil_append, List.cons.injEq] at hps
    obtain ⟨f, hf, rfl⟩ := into_ok.mp (hps.1 ▸ hp)
    exact .inl ⟨f, hf, rfl⟩
  | [q1], hps, hpre =>
    simp only [List.cons_append, List.nil_append, List.cons.injEq] at hps
    obtain ⟨f, hf, rfl⟩ := into_ok.mp (hps.2.1 ▸ hp)
    obtain ⟨e, he⟩ := hpre q1 (by simp)
    exact .inr (.inl ⟨key e (hps.1 ▸ he), f, hf, rfl⟩)
  | [q1, q2], hps, _ =>
    simp only [List.cons_append, List.nil_append, List.cons.injEq] at hps
    exact .inr (.inr ⟨.powerfit, hps.2.2.1 ▸ hp, fun h => absurd rfl h, fun h => absurd rfl h⟩)
  | [q1, q2, q3], hps, hpre =>
    simp only [List.cons_append, List.nil_append, List.cons.injEq] at hps
    exact .inr (.inr ⟨.logfit, hps.2.2.2.1 ▸ hp, fun _ => hps.2.2.1 ▸ hpre q3 (by simp),
      fun _ h => absurd rfl h⟩)
  | [q1, q2, q3, q4], hps, hpre =>
    simp only [List.cons_append, List.nil_append, List.cons.injEq] at hps
    exact .inr (.inr ⟨.polyfit, hps.2.2.2.2.1 ▸ hp, fun _ => hps.2.2.1 ▸ hpre q3 (by simp),
      fun _ _ => hps.2.2.2.1 ▸ hpre q4 (by simp)⟩)
  | [q1, q2, q3, q4, q5], hps, hpre =>
    simp only [List.cons_append, List.nil_append, List.cons.injEq] at hps
    exact .inr (.inr ⟨.expfit, hps.2.2.2.2.2.1 ▸ hp, fun _ => hps.2.2.1 ▸ hpre q3 (by simp),
      fun _ _ => hps.2.2.2.1 ▸ hpre q4 (by simp)⟩)
  | q1 :: q2 :: q3 :: q4 :: q5 :: q6 :: pre, hps, _ =>
    have := congrArg List.length hps
    simp at this

/-- The type of a parsed model before its coefficients are looked at. -/
def PDIn.typeName : PDIn n → String
  | .patchy _ => "patchy_cement"
  | .friable _ => "friable_sand"
  | .fit kind _ => kind.tag

theorem toModel_typeName {conv : Conv} {x : PDIn n} {m : PDModel n} (h : x.toModel conv = .ok m) :
    m.typeName = x.typeName := by
  cases x with
  | patchy f => injection h with h; subst h; rfl
  | friable f => injection h with h; subst h; rfl
  | fit kind co =>
    unfold PDIn.toModel at h
    dsimp only at h
    obtain ⟨d, -, h⟩ := bind_eq_ok.mp h
    obtain ⟨p, -, h⟩ := bind_eq_ok.mp h
    obtain ⟨s, -, h⟩ := bind_eq_ok.mp h
    obtain ⟨_, -, h⟩ := bind_eq_ok.mp h
    cases kind with
    | polyfit => injection h with h; subst h; rfl
    | _ =>
      obtain ⟨d, -, h⟩ := bind_eq_ok.mp h
      obtain ⟨p, -, h⟩ := bind_eq_ok.mp h
      obtain ⟨s, -, h⟩ := bind_eq_ok.mp h
      injection h with h; subst h; rfl

theorem parseFit_of_untagged {conv : Conv} {kind : FitKind} {v : Val n} {m : PDIn n}
    (h : parseFit conv kind v = .ok m) (hk : kind ≠ .powerfit)
    (hu : ¬ Has (named ["coefficients", "type"] v) "type") :
    ∃ m, parseFit conv .logfit v = .ok m := by
  unfold parseFit at h ⊢
  obtain ⟨a, ha, h⟩ := bind_eq_ok.mp h
  obtain ⟨_, ht, h⟩ := bind_eq_ok.mp h
  obtain ⟨co, hco, h⟩ := bind_eq_ok.mp h
  refine ⟨.fit .logfit co, ?_⟩
  rw [ha, bind_ok, tagged_ok.mpr (.inl (not_given_of_not_has ha hu)), bind_ok]
  cases kind with
  | powerfit => exact absurd rfl hk
  | _ => dsimp only at hco ⊢; rw [hco, bind_ok]

/-- **C47.** A pressure dependency model (written as a mapping) with a tag is of that type.  Without tag it is patchy cement,
power fit or log fit; the latter two exactly when it has the key `coefficients`.  (Friable sand, polyfit and
expfit need their tags.) -/
theorem C47_pressure_dependency (conv : Conv) (v w : Val n) (m : PDModel n)
    (h : parsePressureDependency conv v = .ok (.pressureDependency m)) (hw : Given (named ["model", "type"] v) "model" w)
    (hv : NotList w) :
    (∀ x, Given w "type" x → x = .str m.typeName) ∧
    (¬ Has w "type" → (Has w "coefficients" ∧ (m.typeName = "powerfit" ∨ m.typeName = "logfit")) ∨
      (¬ Has w "coefficients" ∧ m.typeName = "patchy_cement")) := by
  unfold parsePressureDependency at h
  obtain ⟨a, ha, h⟩ := bind_eq_ok.mp h
  obtain ⟨_, ht, h⟩ := bind_eq_ok.mp h
  obtain ⟨x, hx, h⟩ := bind_eq_ok.mp h
  obtain ⟨m', hm, h⟩ := bind_eq_ok.mp h
  injection h with h; injection h with h; subst h
  obtain ⟨w', hw', hx⟩ := required_ok.mp hx
  rw [← args_given ha, hw'] at hw
  injection hw with hw; subst hw
  rw [toModel_typeName hm]
  rcases parsePDModel_cases hx with ⟨f, hf, rfl⟩ | ⟨⟨e, he⟩, f, hf, rfl⟩ | ⟨kind, hf, h1, h2⟩
  · obtain ⟨hk, ht⟩ := parsePatchy_fits hf
    rw [named_of_not_list hv] at hk ht
    exact ⟨ht, fun _ => .inr ⟨fun hc => absurd (hk.mem hc) (by decide), rfl⟩⟩
  · obtain ⟨hk, ht⟩ := parseFriable_fits hf
    rw [named_of_not_list hv] at hk ht
    refine ⟨ht, fun hu => ?_⟩
    obtain ⟨g, hg⟩ := patchy_of_friable hv hf hu
    rw [he] at hg; cases hg
  · obtain ⟨hk, ht, hc, co, rfl⟩ := parseFit_fits hf
    rw [named_of_not_list hv] at hk ht hc
    refine ⟨ht, fun hu => .inl ⟨hc, ?_⟩⟩
    by_cases hp : kind = .powerfit
    · left; rw [hp]; rfl
    · by_cases hl : kind = .logfit
      · right; rw [hl]; rfl
      · obtain ⟨m'', hm''⟩ := parseFit_of_untagged hf hp (by rw [named_of_not_list hv]; exact hu)
        obtain ⟨e, he⟩ := h2 hp hl
        rw [he] at hm''; cases hm''

/-! ### Coefficients -/

theorem optional_given {α : Type} {p : Val n → Except Err α} {v : Val n} {r : Option α}
    (h : optional p v = .ok r) :
    (v = .scalar .null ∧ r = none) ∨ (v ≠ .scalar .null ∧ ∃ a, p v = .ok a ∧ r = some a) := by
  unfold optional at h
  split at h
  · injection h with h; exact .inl ⟨rfl, h.symm⟩
  · rename_i hne
    obtain ⟨a, ha, h⟩ := bind_eq_ok.mp h
    injection h with h
    exact .inr ⟨hne, a, ha, h.symm⟩

theorem anyArray_ok {conv : Conv} {v w : Val n} (h : anyArray conv v = .ok w) : w = v := by
  unfold anyArray at h
  split at h
  · cases h
  · injection h with h; exact h.symm

/-- A coefficient is what is written under its key (`null` and a missing key are the same). -/
def CoefField (v : Val n) (key : String) (x : Option (Val n)) : Prop :=
  (∀ y, Given v key y → y ≠ .scalar .null → x = some y) ∧
  ((∀ y, Given v key y → y = .scalar .null) → x = none)

theorem coefField {conv : Conv} {fields : List String} {v : Val n} {a : Args n}
    (ha : args fields v = .ok a) {key : String} {x : Option (Val n)}
    (h : defaulted a key (optional (anyArray conv)) none = .ok x) : CoefField (named fields v) key x := by
  rcases defaulted_ok.mp h with ⟨hk, rfl⟩ | ⟨y, hk, hy⟩
  · refine ⟨fun y hy => ?_, fun _ => rfl⟩
    rw [← args_given ha, hk] at hy; cases hy
  · have hg := (args_given ha).mp hk
    rcases optional_given hy with ⟨rfl, rfl⟩ | ⟨hne, z, hz, rfl⟩
    · refine ⟨fun z hz hzn => ?_, fun _ => rfl⟩
      rw [← args_given ha, hk] at hz
      injection hz with hz; exact absurd hz.symm hzn
    · have := anyArray_ok hz
      subst this
      refine ⟨fun w hw _ => ?_, fun hall => absurd (hall z hg) hne⟩
      rw [← args_given ha, hk] at hw
      injection hw with hw; rw [hw]

theorem parseModuliCoef_spec {conv : Conv} {v : Val n} {k : CoefIn n}
    (h : parseModuliCoef conv v = .ok k) :
    OnlyKeys (named moduliKeys v) ["density", "bulk_modulus", "shear_modulus"] ∧ k.useModuli = true ∧
    CoefField (named moduliKeys v) "density" k.coef.density ∧ CoefField (named moduliKeys v) "bulk_modulus" k.coef.primary ∧
    CoefField (named moduliKeys v) "shear_modulus" k.coef.secondary := by
  unfold parseModuliCoef at h
  obtain ⟨a, ha, h⟩ := bind_eq_ok.mp h
  obtain ⟨d, hd, h⟩ := bind_eq_ok.mp h
  obtain ⟨p, hp, h⟩ := bind_eq_ok.mp h
  obtain ⟨s, hs, h⟩ := bind_eq_ok.mp h
  injection h with h; subst h
  exact ⟨args_only ha, rfl, coefField ha hd, coefField ha hp, coefField ha hs⟩

theorem parseVelocityCoef_spec {conv : Conv} {v : Val n} {k : CoefIn n}
    (h : parseVelocityCoef conv v = .ok k) :
    OnlyKeys (named velocityKeys v) ["density", "secondary_velocity", "primary_velocity"] ∧ k.useModuli = false ∧
    CoefField (named velocityKeys v) "density" k.coef.density ∧ CoefField (named velocityKeys v) "primary_velocity" k.coef.primary ∧
    CoefField (named velocityKeys v) "secondary_velocity" k.coef.secondary := by
  unfold parseVelocityCoef at h
  obtain ⟨a, ha, h⟩ := bind_eq_ok.mp h
  obtain ⟨d, hd, h⟩ := bind_eq_ok.mp h
  obtain ⟨s, hs, h⟩ := bind_eq_ok.mp h
  obtain ⟨p, hp, h⟩ := bind_eq_ok.mp h
  injection h with h; subst h
  exact ⟨args_only ha, rfl, coefField ha hd, coefField ha hp, coefField ha hs⟩

theorem parsePolyfitCoef_cases {conv : Conv} {v : Val n} {k : CoefIn n}
    (h : parsePolyfitCoef conv v = .ok k) :
    parseModuliCoef conv v = .ok k ∨
      ((∃ e, parseModuliCoef conv v = .error e) ∧ parseVelocityCoef conv v = .ok k) := by
  unfold parsePolyfitCoef at h
  simp only [firstOf] at h
  cases hm : parseModuliCoef conv v with
  | ok k' => rw [hm] at h; exact .inl h
  | error e =>
    rw [hm] at h
    cases hv : parseVelocityCoef conv v with
    | ok k' => rw [hv] at h; exact .inr ⟨⟨e, rfl⟩, h⟩
    | error e' => rw [hv] at h; cases h

/-- If density alone is given, the moduli alternative accepts it. -/
theorem moduli_of_velocity {conv : Conv} {v : Val n} (hv : NotList v) {k : CoefIn n}
    (h : parseVelocityCoef conv v = .ok k) (hs : ¬ Has v "secondary_velocity")
    (hp : ¬ Has v "primary_velocity") : ∃ k, parseModuliCoef conv v = .ok k := by
  have hk := (parseVelocityCoef_spec h).1
  rw [named_of_not_list hv] at hk
  have hk' : OnlyKeys (named moduliKeys v) moduliKeys := by
    rw [named_of_not_list hv]
    obtain ⟨xs, rfl, hx⟩ := hk
    refine ⟨xs, rfl, fun x hm => ?_⟩
    have := has_of_mem hm
    have hx := hx x hm
    simp only [List.mem_cons, List.not_mem_nil, or_false] at hx
    rcases hx with e | e | e <;> rw [e] at this ⊢
    · simp
    · exact absurd this hs
    · exact absurd this hp
  unfold parseVelocityCoef at h
  obtain ⟨a, ha, h⟩ := bind_eq_ok.mp h
  obtain ⟨d, hd, h⟩ := bind_eq_ok.mp h
  obtain ⟨b, hb⟩ := args_of_only hk'
  have hab : a = b := by
    obtain ⟨xs, hx, -, rfl⟩ := args_ok.mp ha
    obtain ⟨ys, hy, -, rfl⟩ := args_ok.mp hb
    rw [named_of_not_list hv] at hx hy
    rw [hx] at hy; injection hy with hy; rw [hy]
  subst hab
  refine ⟨⟨true, d, none, none⟩, ?_⟩
  unfold parseModuliCoef
  rw [hb, bind_ok, hd, bind_ok,
    defaulted_ok.mpr (.inl ⟨not_given_of_not_has ha fun hh => absurd (hk.mem (named_of_not_list hv _ ▸ hh)) (by decide), rfl⟩), bind_ok,
    defaulted_ok.mpr (.inl ⟨not_given_of_not_has ha fun hh => absurd (hk.mem (named_of_not_list hv _ ▸ hh)) (by decide), rfl⟩), bind_ok]

/-- **C48.** Coefficients are velocity coefficients exactly when they name a velocity, and then no modulus is
named; every coefficient is the one written under its name.  (Written as a mapping; a list is
`C48_list`.) -/
theorem C48_coefficients (conv : Conv) (v : Val n) (hl : NotList v) (k : CoefIn n)
    (h : parsePolyfitCoef conv v = .ok k) :
    (k.useModuli = false ↔ Has v "primary_velocity" ∨ Has v "secondary_velocity") ∧
    (k.useModuli = false → ¬ Has v "bulk_modulus" ∧ ¬ Has v "shear_modulus") ∧
    CoefField v "density" k.coef.density ∧
    CoefField v (if k.useModuli then "bulk_modulus" else "primary_velocity") k.coef.primary ∧
    CoefField v (if k.useModuli then "shear_modulus" else "secondary_velocity") k.coef.secondary := by
  rcases parsePolyfitCoef_cases h with hm | ⟨⟨e, he⟩, hv⟩
  · obtain ⟨h1, h2, h3, h4, h5⟩ := parseModuliCoef_spec hm
    rw [named_of_not_list hl] at h1 h3 h4 h5
    rw [h2]
    refine ⟨⟨fun h => (nomatch h), ?_⟩, fun h => (nomatch h), h3, h4, h5⟩
    rintro (hh | hh) <;> exact absurd (h1.mem hh) (by decide)
  · obtain ⟨h1, h2, h3, h4, h5⟩ := parseVelocityCoef_spec hv
    rw [named_of_not_list hl] at h1 h3 h4 h5
    rw [h2]
    refine ⟨⟨fun _ => ?_, fun _ => rfl⟩, fun _ => ⟨fun hh => absurd (h1.mem hh) (by decide),
      fun hh => absurd (h1.mem hh) (by decide)⟩, h3, h4, h5⟩
    by_contra hc
    push Not at hc
    obtain ⟨k', hk'⟩ := moduli_of_velocity hl hv hc.2 hc.1
    rw [he] at hk'; cases hk'

/-- **C48.** Coefficients written as a list are the coefficients of density, bulk modulus and shear modulus,
in this order. -/
theorem C48_list (conv : Conv) (vs : List (Val n)) (k : CoefIn n)
    (h : parsePolyfitCoef conv (.list vs) = .ok k) :
    vs.length ≤ 3 ∧ k.useModuli = true ∧ parsePolyfitCoef conv (.dict (moduliKeys.zip vs)) = .ok k := by
  have hn : ∀ fields : List String, fields.length = 3 → ∀ (a : Args n), args fields (.list vs) = .ok a →
      vs.length ≤ 3 ∧ ∀ key ∈ fields, (fields.zip vs).lookup key = a key := by
    intro fields hf a ha
    obtain ⟨xs, hx, -, rfl⟩ := args_ok.mp ha
    unfold named at hx
    by_cases hle : vs.length ≤ fields.length
    · simp only [hle, if_true] at hx
      injection hx with hx; subst hx
      exact ⟨hf ▸ hle, fun _ _ => rfl⟩
    · simp only [hle, if_false] at hx
      cases hx
  rcases parsePolyfitCoef_cases h with hm | ⟨⟨e, he⟩, hv⟩
  · have h2 := (parseModuliCoef_spec hm).2.1
    have hle : vs.length ≤ 3 := by
      unfold parseModuliCoef at hm
      obtain ⟨a, ha, -⟩ := bind_eq_ok.mp hm
      exact (hn moduliKeys rfl a ha).1
    refine ⟨hle, h2, ?_⟩
    have e : parseModuliCoef conv (.dict (moduliKeys.zip vs)) = parseModuliCoef conv (.list vs) := by
      unfold parseModuliCoef args
      simp only [named, show (["density", "bulk_modulus", "shear_modulus"] : List String).length = 3 from rfl,
        hle, if_true]
    unfold parsePolyfitCoef firstOf
    rw [e, hm]
  · exfalso
    unfold parseVelocityCoef at hv
    obtain ⟨a, ha, hv⟩ := bind_eq_ok.mp hv
    obtain ⟨d, hd, hv⟩ := bind_eq_ok.mp hv
    obtain ⟨s, hs, hv⟩ := bind_eq_ok.mp hv
    obtain ⟨p, hp, hv⟩ := bind_eq_ok.mp hv
    obtain ⟨hle, hlook⟩ := hn velocityKeys rfl a ha
    have e : ∀ k1 k2 k3 : String, k1 ≠ k2 → k1 ≠ k3 → k2 ≠ k3 →
        args [k1, k2, k3] (.list vs) = .ok (fun k => ([k1, k2, k3].zip vs).lookup k) := by
      intro k1 k2 k3 _ _ _
      refine args_ok.mpr ⟨_, ?_, ?_, rfl⟩
      · simp only [named, List.length_cons, List.length_nil, hle, if_true]
      · intro x hx; exact (List.of_mem_zip hx).1
    have g : ∀ (y : Option (Val n)), y = a "density" → defaulted (fun _ => y) "density"
        (optional (anyArray conv)) none = .ok d := by rintro y rfl; exact hd
    refine absurd (?_ : parseModuliCoef conv (.list vs) = .ok ⟨true, d, s, p⟩) (by rw [he]; exact fun h => nomatch h)
    unfold parseModuliCoef
    rw [e _ _ _ (by decide) (by decide) (by decide), bind_ok]
    have hd' : defaulted (fun k => (["density", "bulk_modulus", "shear_modulus"].zip vs).lookup k) "density"
        (optional (anyArray conv)) none = .ok d := by
      rw [← hd]; unfold defaulted; rw [← hlook "density" (by simp)]
      rcases vs with _ | ⟨v1, vs⟩ <;> rfl
    have hs' : defaulted (fun k => (["density", "bulk_modulus", "shear_modulus"].zip vs).lookup k)
        "bulk_modulus" (optional (anyArray conv)) none = .ok s := by
      rw [← hs]; unfold defaulted; rw [← hlook "secondary_velocity" (by simp)]
      rcases vs with _ | ⟨v1, _ | ⟨v2, vs⟩⟩ <;> rfl
    have hp' : defaulted (fun k => (["density", "bulk_modulus", "shear_modulus"].zip vs).lookup k)
        "shear_modulus" (optional (anyArray conv)) none = .ok p := by
      rw [← hp]; unfold defaulted; rw [← hlook "primary_velocity" (by simp)]
      rcases vs with _ | ⟨v1, _ | ⟨v2, _ | ⟨v3, vs⟩⟩⟩ <;> rfl
    rw [hd', bind_ok, hs', bind_ok, hp', bind_ok]

/-- **C48.** Mixing moduli and velocities is rejected. -/
theorem C48_mixed_rejected (conv : Conv) (v : Val n)
    (hv : Has v "primary_velocity" ∨ Has v "secondary_velocity")
    (hm : Has v "bulk_modulus" ∨ Has v "shear_modulus") :
    parsePolyfitCoef conv v = .error .valueError := by
  cases h : parsePolyfitCoef conv v with
  | error e => rw [(firstOf_error h).1]
  | ok k =>
    have hl : NotList v := by
      rintro vs rfl
      rcases hv with ⟨x, xs, hx, -⟩ | ⟨x, xs, hx, -⟩ <;> cases hx
    obtain ⟨h1, h2, -⟩ := C48_coefficients conv v hl k h
    obtain ⟨h3, h4⟩ := h2 (h1.mpr hv)
    rcases hm with hm | hm
    · exact absurd hm h3
    · exact absurd hm h4

/-- **C48.** After building a dry rock with a polynomial model, all three coefficient matrices are there;
one that is written in the configuration (not `null`) is used as written (coefficients written as a list:
`C48_list`). -/
theorem C48_none_missing (conv : Conv) (v : Val n) (m : SandModel n) (phi : Col n)
    (adj : List (Adjustment n)) (d : DryRock n) (hm : parseSandstone conv v = .ok m)
    (ht : m.typeName = "polyfit") (hd : mkDryRock m phi adj = .ok d) :
    ∃ useModuli density primary secondary,
      d.model = .polyfit useModuli ⟨some density, some primary, some secondary⟩ ∧
      ∀ w, Given (named ["coefficients", "type"] v) "coefficients" w → w ≠ .scalar .null → NotList w →
        (useModuli = false ↔ Has w "primary_velocity" ∨ Has w "secondary_velocity") ∧
        (∀ y, Given w "density" y → y ≠ .scalar .null → toCoeffs? conv y = some density) ∧
        (∀ y, Given w (if useModuli then "bulk_modulus" else "primary_velocity") y → y ≠ .scalar .null →
          toCoeffs? conv y = some primary) ∧
        (∀ y, Given w (if useModuli then "shear_modulus" else "secondary_velocity") y → y ≠ .scalar .null →
          toCoeffs? conv y = some secondary) := by
  have hq : parsePolyfit2d conv v = .ok m := by
    rcases parseSandstone_cases hm with ⟨f, -, rfl⟩ | ⟨-, f, -, rfl⟩ | ⟨-, -, hf⟩
    · exact absurd ht (by simp [SandModel.typeName])
    · exact absurd ht (by simp [SandModel.typeName])
    · exact hf
  have hdm : d.model = m.fillDefaults := by
    cases m with
    | polyfit b a => unfold mkDryRock at hd; injection hd with h; rw [← h]
    | patchy f => exact absurd ht (by simp [SandModel.typeName])
    | friable f => exact absurd ht (by simp [SandModel.typeName])
  unfold parsePolyfit2d at hq
  obtain ⟨a, ha, h⟩ := bind_eq_ok.mp hq
  obtain ⟨_, -, h⟩ := bind_eq_ok.mp h
  obtain ⟨co, hco, h⟩ := bind_eq_ok.mp h
  cases co with
  | none =>
    injection h with h; subst h
    refine ⟨true, _, _, _, hdm, ?_⟩
    intro w hw hwn hl
    rw [← args_given ha] at hw
    rcases defaulted_ok.mp hco with ⟨hk, -⟩ | ⟨y, hk, hy⟩
    · rw [hk] at hw; cases hw
    · rw [hk] at hw; injection hw with hw; subst hw
      rcases optional_given hy with ⟨rfl, -⟩ | ⟨-, z, -, hz⟩
      · exact absurd rfl hwn
      · cases hz
  | some k =>
    obtain ⟨dd, hdd, h⟩ := bind_eq_ok.mp h
    obtain ⟨pp, hpp, h⟩ := bind_eq_ok.mp h
    obtain ⟨ss, hss, h⟩ := bind_eq_ok.mp h
    injection h with h; subst h
    refine ⟨k.useModuli, _, _, _, hdm, ?_⟩
    intro w hw hwn hl
    rw [← args_given ha] at hw
    rcases defaulted_ok.mp hco with ⟨-, hk⟩ | ⟨y, hk, hy⟩
    · cases hk
    rw [hk] at hw; injection hw with hw; subst hw
    rcases optional_given hy with ⟨-, hk⟩ | ⟨-, z, hz, hk⟩
    · cases hk
    injection hk with hk; subst hk
    obtain ⟨h1, -, h3, h4, h5⟩ := C48_coefficients conv y hl k hz
    have key : ∀ {x : Option (Val n)} {r : Option Coeffs} {dflt : Coeffs} {key : String},
        CoefField y key x → coeffsOf conv x = .ok r →
        ∀ u, Given y key u → u ≠ .scalar .null → toCoeffs? conv u = some (r.getD dflt) := by
      intro x r dflt key hf hr u hu hun
      rw [hf.1 u hu hun] at hr
      obtain ⟨b, hb, hr⟩ := bind_eq_ok.mp hr
      injection hr with hr; subst hr
      unfold orReject at hb
      split at hb
      · cases hb
      · rename_i b' hb'; injection hb with hb; subst hb; exact hb'
    exact ⟨h1, key h3 hdd, key h4 hpp, key h5 hss⟩

/-! ### Given values are used, omitted ones take their defaults (C85), unknown keys are rejected (C86) -/

theorem field_of {conv : Conv} {fields : List String} {v : Val n} {a : Args n}
    (ha : args fields v = .ok a) {key : String} {d x : Col n}
    (h : defaulted a key (toCol conv) d = .ok x) : Field conv (named fields v) key d x := by
  rcases defaulted_ok.mp h with ⟨hk, rfl⟩ | ⟨y, hk, hy⟩
  · refine ⟨fun y hy => ?_, fun _ => rfl⟩
    rw [← args_given ha, hk] at hy; cases hy
  · refine ⟨fun z hz => ?_, fun hh => absurd ⟨y, (args_given ha).mp hk⟩ hh⟩
    rw [← args_given ha, hk] at hz; injection hz with hz; subst hz; exact hy

theorem neededField_of {conv : Conv} {fields : List String} {v : Val n} {a : Args n}
    (ha : args fields v = .ok a) {key : String} {x : Col n}
    (h : required a key (toCol conv) = .ok x) : NeededField conv (named fields v) key x := by
  obtain ⟨y, hk, hy⟩ := required_ok.mp h
  exact ⟨y, (args_given ha).mp hk, hy⟩

theorem openField_of {conv : Conv} {fields : List String} {v : Val n} {a : Args n}
    (ha : args fields v = .ok a) {key : String} {d x : Option (Col n)}
    (h : defaulted a key (optional (toCol conv)) d = .ok x) : OpenField conv (named fields v) key d x := by
  rcases defaulted_ok.mp h with ⟨hk, rfl⟩ | ⟨y, hk, hy⟩
  · refine ⟨fun hy => ?_, fun y hy => ?_, fun _ => rfl⟩ <;>
      (rw [← args_given ha, hk] at hy; cases hy)
  · refine ⟨fun hz => ?_, fun z hz hne => ?_, fun hh => absurd ⟨y, (args_given ha).mp hk⟩ hh⟩
    · rw [← args_given ha, hk] at hz; injection hz with hz; subst hz
      rcases optional_given hy with ⟨-, h⟩ | ⟨h, -⟩
      · exact h
      · exact absurd rfl h
    · rw [← args_given ha, hk] at hz; injection hz with hz; subst hz
      rcases optional_given hy with ⟨h, -⟩ | ⟨-, w, hw, h⟩
      · exact absurd h hne
      · exact ⟨w, h, hw⟩

/-- **C85.** The pressure section. -/
theorem C85_pressure (conv : Conv) (v : Val n) (p : PressureIn n) (h : parsePressure conv v = .ok p) :
    let w := named pressureKeys v
    Field conv w "overburden" (c 100e6) p.overburden ∧ Field conv w "reference" (c 30e6) p.reference ∧
    OpenField conv w "fluid" (some (c 70e6)) p.fluid ∧ OpenField conv w "max_effective" none p.maxEffective ∧
    OpenField conv w "rock" none p.rock := by
  unfold parsePressure at h
  obtain ⟨a, ha, h⟩ := bind_eq_ok.mp h
  obtain ⟨x1, h1, h⟩ := bind_eq_ok.mp h
  obtain ⟨x2, h2, h⟩ := bind_eq_ok.mp h
  obtain ⟨x3, h3, h⟩ := bind_eq_ok.mp h
  obtain ⟨x4, h4, h⟩ := bind_eq_ok.mp h
  obtain ⟨x5, h5, h⟩ := bind_eq_ok.mp h
  injection h with h; subst h
  exact ⟨field_of ha h1, field_of ha h2, openField_of ha h3, openField_of ha h4, openField_of ha h5⟩

/-- **C85.** The parameters of the fluid types. -/
theorem C85_fluid_types (conv : Conv) (v : Val n) (k : FluidKind n)
    (h : parseMaterialType conv v = .ok k) :
    match k with
    | .material m => let v := named MatType.material.accepts v; ∃ bulk shear vs vp, NeededField conv v "density" m.density ∧
        OpenField conv v "bulk_modulus" none bulk ∧ OpenField conv v "shear_modulus" none shear ∧
        OpenField conv v "secondary_velocity" none vs ∧ OpenField conv v "primary_velocity" none vp ∧
        setDefaults bulk shear (some m.density) vs vp
          = .ok (m.bulk, m.shear, some m.density, m.vs, m.vp)
    | .oil r o g => let v := named MatType.oil.accepts v; NeededField conv v "reference_density" r ∧ NeededField conv v "gas_oil_ratio" o ∧
        NeededField conv v "gas_gravity" g
    | .gas g => let v := named MatType.gas.accepts v; NeededField conv v "gas_gravity" g
    | .brine s => let v := named MatType.brine.accepts v; NeededField conv v "salinity" s
    | .condensate r o g => let v := named MatType.condensate.accepts v; NeededField conv v "oil_reference_density" r ∧
        NeededField conv v "gas_oil_ratio" o ∧ NeededField conv v "gas_gravity" g
    | .carbonDioxide b => let v := named MatType.carbonDioxide.accepts v; (∀ y, Given v "interpolate_density" y → toBool y = .ok b) ∧
        (¬ Has v "interpolate_density" → b = true) := by
  obtain ⟨p, hp, hk⟩ := firstOf_mem h
  simp only [materialAlternatives, List.mem_cons, List.not_mem_nil, or_false] at hp
  rcases hp with rfl | rfl | rfl | rfl | rfl | rfl
  · unfold parseMaterial at hk
    obtain ⟨m, hm, hk⟩ := bind_eq_ok.mp hk
    injection hk with hk; subst hk
    unfold parseArbitrary at hm
    obtain ⟨a, ha, hm⟩ := bind_eq_ok.mp hm
    obtain ⟨_, -, hm⟩ := bind_eq_ok.mp hm
    obtain ⟨x1, h1, hm⟩ := bind_eq_ok.mp hm
    obtain ⟨x2, h2, hm⟩ := bind_eq_ok.mp hm
    obtain ⟨x3, h3, hm⟩ := bind_eq_ok.mp hm
    obtain ⟨x4, h4, hm⟩ := bind_eq_ok.mp hm
    obtain ⟨x5, h5, hm⟩ := bind_eq_ok.mp hm
    obtain ⟨⟨y1, y2, y3, y4, y5⟩, h6, hm⟩ := bind_eq_ok.mp hm
    injection hm with hm; subst hm
    have hy : y3 = some x1 := by
      clear h2 h3 h4 h5
      have e : ∀ r, setDefaults x2 x3 (some x1) x4 x5 = .ok r → r.2.2.1 = some x1 := by
        intro r hr
        rcases x2 with _ | x2 <;> rcases x3 with _ | x3 <;> rcases x4 with _ | x4 <;>
          rcases x5 with _ | x5 <;> (cases hr; try rfl)
      exact e _ h6
    subst hy
    exact ⟨x2, x3, x4, x5, neededField_of ha h1, openField_of ha h2, openField_of ha h3,
      openField_of ha h4, openField_of ha h5, h6⟩
  · unfold parseGas at hk
    obtain ⟨a, ha, hk⟩ := bind_eq_ok.mp hk
    obtain ⟨_, -, hk⟩ := bind_eq_ok.mp hk
    obtain ⟨x1, h1, hk⟩ := bind_eq_ok.mp hk
    injection hk with hk; subst hk
    exact neededField_of ha h1
  · unfold parseOil at hk
    obtain ⟨a, ha, hk⟩ := bind_eq_ok.mp hk
    obtain ⟨_, -, hk⟩ := bind_eq_ok.mp hk
    obtain ⟨x1, h1, hk⟩ := bind_eq_ok.mp hk
    obtain ⟨x2, h2, hk⟩ := bind_eq_ok.mp hk
    obtain ⟨x3, h3, hk⟩ := bind_eq_ok.mp hk
    injection hk with hk; subst hk
    exact ⟨neededField_of ha h1, neededField_of ha h2, neededField_of ha h3⟩
  · unfold parseBrine at hk
    obtain ⟨a, ha, hk⟩ := bind_eq_ok.mp hk
    obtain ⟨_, -, hk⟩ := bind_eq_ok.mp hk
    obtain ⟨x1, h1, hk⟩ := bind_eq_ok.mp hk
    injection hk with hk; subst hk
    exact neededField_of ha h1
  · unfold parseCondensate at hk
    obtain ⟨a, ha, hk⟩ := bind_eq_ok.mp hk
    obtain ⟨_, -, hk⟩ := bind_eq_ok.mp hk
    obtain ⟨x1, h1, hk⟩ := bind_eq_ok.mp hk
    obtain ⟨x2, h2, hk⟩ := bind_eq_ok.mp hk
    obtain ⟨x3, h3, hk⟩ := bind_eq_ok.mp hk
    injection hk with hk; subst hk
    exact ⟨neededField_of ha h1, neededField_of ha h2, neededField_of ha h3⟩
  · unfold parseCO2 at hk
    obtain ⟨a, ha, hk⟩ := bind_eq_ok.mp hk
    obtain ⟨_, -, hk⟩ := bind_eq_ok.mp hk
    obtain ⟨b, hb, hk⟩ := bind_eq_ok.mp hk
    injection hk with hk; subst hk
    rcases defaulted_ok.mp hb with ⟨h1, rfl⟩ | ⟨y, h1, hy⟩
    · refine ⟨fun y hy => ?_, fun _ => rfl⟩
      rw [(args_given ha).mpr hy] at h1; cases h1
    · refine ⟨fun z hz => ?_, fun hh => absurd ⟨y, (args_given ha).mp h1⟩ hh⟩
      rw [(args_given ha).mpr hz] at h1; injection h1 with h1; subst h1; exact hy

theorem patchyFields_of {conv : Conv} {v : Val n} {f : PatchyModel n} (hf : parsePatchy conv v = .ok f) :
    PatchyFields conv (named patchyKeys v) f := by
  unfold parsePatchy at hf
  obtain ⟨a, ha, hf⟩ := bind_eq_ok.mp hf
  obtain ⟨_, -, hf⟩ := bind_eq_ok.mp hf
  obtain ⟨x1, h1, hf⟩ := bind_eq_ok.mp hf
  obtain ⟨x2, h2, hf⟩ := bind_eq_ok.mp hf
  obtain ⟨x3, h3, hf⟩ := bind_eq_ok.mp hf
  obtain ⟨x4, h4, hf⟩ := bind_eq_ok.mp hf
  obtain ⟨x5, h5, hf⟩ := bind_eq_ok.mp hf
  obtain ⟨x6, h6, hf⟩ := bind_eq_ok.mp hf
  obtain ⟨x7, h7, hf⟩ := bind_eq_ok.mp hf
  injection hf with hf; subst hf
  refine ⟨x6, field_of ha h2, field_of ha h3, field_of ha h4, field_of ha h5, field_of ha h7,
    openField_of ha h6, rfl, ?_, ?_⟩
  · intro y hy
    replace hy := (args_given ha).mpr hy
    rcases defaulted_ok.mp h1 with ⟨hk, -⟩ | ⟨z, hk, hz⟩
    · rw [hk] at hy; cases hy
    · rw [hk] at hy; injection hy with hy; subst hy; exact hz
  · intro hh
    rcases defaulted_ok.mp h1 with ⟨hk, rfl⟩ | ⟨z, hk, hz⟩
    · exact ⟨rfl, rfl, rfl⟩
    · exact absurd ⟨z, (args_given ha).mp hk⟩ hh

theorem friableFields_of {conv : Conv} {v : Val n} {f : FriableModel n} (hf : parseFriable conv v = .ok f) :
    FriableFields conv (named friableKeys v) f := by
  unfold parseFriable at hf
  obtain ⟨a, ha, hf⟩ := bind_eq_ok.mp hf
  obtain ⟨_, -, hf⟩ := bind_eq_ok.mp hf
  obtain ⟨x1, h1, hf⟩ := bind_eq_ok.mp hf
  obtain ⟨x2, h2, hf⟩ := bind_eq_ok.mp hf
  obtain ⟨x3, h3, hf⟩ := bind_eq_ok.mp hf
  injection hf with hf; subst hf
  exact ⟨x3, field_of ha h1, field_of ha h2, openField_of ha h3, rfl⟩

/-- **C85.** The sandstone models (the coefficients of a polynomial model are C48). -/
theorem C85_sandstone (conv : Conv) (v : Val n) (m : SandModel n) (h : parseSandstone conv v = .ok m) :
    match m with
    | .friable f => FriableFields conv (named friableKeys v) f
    | .patchy f => PatchyFields conv (named patchyKeys v) f
    | .polyfit _ _ => True := by
  rcases parseSandstone_cases h with ⟨f, hf, rfl⟩ | ⟨-, f, hf, rfl⟩ | ⟨-, -, hf⟩
  · exact patchyFields_of hf
  · exact friableFields_of hf
  · have ht := (parsePolyfit2d_fits hf).2.2
    cases m with
    | polyfit => trivial
    | _ => exact absurd ht (by simp [SandModel.typeName])

theorem needVector_of {conv : Conv} {w : Val n} {x : Option (Val n)} {key : String} {xs : List ℝ}
    (hf : CoefField w key x) (h : needVectorOf conv x = .ok xs) : VectorField conv w key xs := by
  by_cases hall : ∀ y, Given w key y → y = .scalar .null
  · rw [hf.2 hall] at h; cases h
  · push Not at hall
    obtain ⟨y, hy, hne⟩ := hall
    rw [hf.1 y hy hne] at h
    unfold needVectorOf orReject at h
    dsimp only at h
    split at h
    · cases h
    · rename_i b hb; injection h with h; subst h; exact ⟨y, hy, hb⟩

theorem firstTwo_ok {xs : List ℝ} {p : ℝ × ℝ} (h : firstTwo xs = .ok p) : ∃ t, xs = p.1 :: p.2 :: t := by
  match xs with
  | a :: b :: t => injection h with h; subst h; exact ⟨t, rfl⟩
  | [] => cases h
  | [_] => cases h

theorem firstThree_ok {xs : List ℝ} {p : ℝ × ℝ × ℝ} (h : firstThree xs = .ok p) :
    ∃ t, xs = p.1 :: p.2.1 :: p.2.2 :: t := by
  match xs with
  | a :: b :: d :: t => injection h with h; subst h; exact ⟨t, rfl⟩
  | [] => cases h
  | [_] => cases h
  | [_, _] => cases h

theorem parseVpOverVsCoef_spec {conv : Conv} {v : Val n} {k : CoefIn n}
    (h : parseVpOverVsCoef conv v = .ok k) :
    let w := named vpVsKeys v
    OnlyKeys w ["density", "vp_over_vs", "bulk_modulus"] ∧
    CoefField w "density" k.coef.density ∧ CoefField w "bulk_modulus" k.coef.primary ∧
    CoefField w "vp_over_vs" k.coef.secondary := by
  unfold parseVpOverVsCoef at h
  obtain ⟨a, ha, h⟩ := bind_eq_ok.mp h
  obtain ⟨d, hd, h⟩ := bind_eq_ok.mp h
  obtain ⟨s, hs, h⟩ := bind_eq_ok.mp h
  obtain ⟨p, hp, h⟩ := bind_eq_ok.mp h
  injection h with h; subst h
  exact ⟨args_only ha, coefField ha hd, coefField ha hp, coefField ha hs⟩

/-- The coefficients of a fit are written in its section. -/
theorem parseFit_given {conv : Conv} {kind : FitKind} {v : Val n} {co : CoefIn n}
    (h : parseFit conv kind v = .ok (.fit kind co)) : ∃ u, Given (named ["coefficients", "type"] v) "coefficients" u ∧
      (if kind = .powerfit then parseVpOverVsCoef conv u else parsePolyfitCoef conv u) = .ok co := by
  unfold parseFit at h
  obtain ⟨a, ha, h⟩ := bind_eq_ok.mp h
  obtain ⟨_, -, h⟩ := bind_eq_ok.mp h
  obtain ⟨co', hco, h⟩ := bind_eq_ok.mp h
  injection h with h; injection h with _ h; subst h
  obtain ⟨u, hu, hc⟩ := required_ok.mp hco
  refine ⟨u, (args_given ha).mp hu, ?_⟩
  cases kind <;> simpa using hc

theorem coefs_of {conv : Conv} {v : Val n} {k : CoefIn n} (h : parsePolyfitCoef conv v = .ok k) :
    (NotList v → (k.useModuli = false ↔ Has v "primary_velocity" ∨ Has v "secondary_velocity")) ∧
    CoefField (named (coefKeys k.useModuli) v) "density" k.coef.density ∧
    CoefField (named (coefKeys k.useModuli) v)
      (if k.useModuli then "bulk_modulus" else "primary_velocity") k.coef.primary ∧
    CoefField (named (coefKeys k.useModuli) v)
      (if k.useModuli then "shear_modulus" else "secondary_velocity") k.coef.secondary := by
  refine ⟨fun hl => (C48_coefficients conv v hl k h).1, ?_⟩
  rcases parsePolyfitCoef_cases h with hm | ⟨-, hv⟩
  · obtain ⟨-, h2, h3, h4, h5⟩ := parseModuliCoef_spec hm
    rw [h2]; exact ⟨h3, h4, h5⟩
  · obtain ⟨-, h2, h3, h4, h5⟩ := parseVelocityCoef_spec hv
    rw [h2]; exact ⟨h3, h4, h5⟩

/-- **C85.** The pressure dependency models. -/
theorem C85_pressure_dependency (conv : Conv) (v w : Val n) (m : PDModel n)
    (h : parsePressureDependency conv v = .ok (.pressureDependency m)) 
    (hw : Given (named pressureDependencyKeys v) "model" w) :
    match m with
    | .friable f => FriableFields conv (named friableKeys w) f
    | .patchy f => PatchyFields conv (named patchyKeys w) f
    | .polyfit useModuli a => ∃ u, Given (named fitKeys w) "coefficients" u ∧
        (NotList u → (useModuli = false ↔ Has u "primary_velocity" ∨ Has u "secondary_velocity")) ∧
        VectorField conv (named (coefKeys useModuli) u) "density" a.density ∧
        VectorField conv (named (coefKeys useModuli) u) (if useModuli then "bulk_modulus" else "primary_velocity") a.primary ∧
        VectorField conv (named (coefKeys useModuli) u) (if useModuli then "shear_modulus" else "secondary_velocity") a.secondary
    | .expfit useModuli a => ∃ u r s t, Given (named fitKeys w) "coefficients" u ∧
        (NotList u → (useModuli = false ↔ Has u "primary_velocity" ∨ Has u "secondary_velocity")) ∧
        VectorField conv (named (coefKeys useModuli) u) "density" (a.density.1 :: a.density.2.1 :: a.density.2.2 :: r) ∧
        VectorField conv (named (coefKeys useModuli) u) (if useModuli then "bulk_modulus" else "primary_velocity")
          (a.primary.1 :: a.primary.2.1 :: a.primary.2.2 :: s) ∧
        VectorField conv (named (coefKeys useModuli) u) (if useModuli then "shear_modulus" else "secondary_velocity")
          (a.secondary.1 :: a.secondary.2.1 :: a.secondary.2.2 :: t)
    | .logfit useModuli a => ∃ u r s t, Given (named fitKeys w) "coefficients" u ∧
        (NotList u → (useModuli = false ↔ Has u "primary_velocity" ∨ Has u "secondary_velocity")) ∧
        VectorField conv (named (coefKeys useModuli) u) "density" (a.density.1 :: a.density.2 :: r) ∧
        VectorField conv (named (coefKeys useModuli) u) (if useModuli then "bulk_modulus" else "primary_velocity")
          (a.primary.1 :: a.primary.2 :: s) ∧
        VectorField conv (named (coefKeys useModuli) u) (if useModuli then "shear_modulus" else "secondary_velocity")
          (a.secondary.1 :: a.secondary.2 :: t)
    | .powerfit a => ∃ u r s t, Given (named fitKeys w) "coefficients" u ∧
        VectorField conv (named vpVsKeys u) "density" (a.density.1 :: a.density.2 :: r) ∧
        VectorField conv (named vpVsKeys u) "bulk_modulus" (a.primary.1 :: a.primary.2 :: s) ∧
        VectorField conv (named vpVsKeys u) "vp_over_vs" (a.secondary.1 :: a.secondary.2 :: t) := by
  unfold parsePressureDependency at h
  obtain ⟨a, ha, h⟩ := bind_eq_ok.mp h
  obtain ⟨_, ht, h⟩ := bind_eq_ok.mp h
  obtain ⟨x, hx, h⟩ := bind_eq_ok.mp h
  obtain ⟨m', hm, h⟩ := bind_eq_ok.mp h
  injection h with h; injection h with h; subst h
  obtain ⟨w', hw', hx⟩ := required_ok.mp hx
  rw [← args_given ha, hw'] at hw
  injection hw with hw; subst hw
  rcases parsePDModel_cases hx with ⟨f, hf, rfl⟩ | ⟨-, f, hf, rfl⟩ | ⟨kind, hf, -⟩
  · injection hm with hm; subst hm; exact patchyFields_of hf
  · injection hm with hm; subst hm; exact friableFields_of hf
  · obtain ⟨-, -, -, co, rfl⟩ := parseFit_fits hf
    obtain ⟨u, hu, hc⟩ := parseFit_given hf
    unfold PDIn.toModel at hm
    dsimp only at hm
    obtain ⟨d, hd, hm⟩ := bind_eq_ok.mp hm
    obtain ⟨p, hp, hm⟩ := bind_eq_ok.mp hm
    obtain ⟨s, hs, hm⟩ := bind_eq_ok.mp hm
    obtain ⟨_, -, hm⟩ := bind_eq_ok.mp hm
    cases kind with
    | polyfit =>
      rw [if_neg (by decide)] at hc
      obtain ⟨c1, c3, c4, c5⟩ := coefs_of hc
      injection hm with hm; subst hm
      exact ⟨u, hu, c1, needVector_of c3 hd, needVector_of c4 hp, needVector_of c5 hs⟩
    | expfit =>
      rw [if_neg (by decide)] at hc
      obtain ⟨c1, c3, c4, c5⟩ := coefs_of hc
      obtain ⟨d', hd', hm⟩ := bind_eq_ok.mp hm
      obtain ⟨p', hp', hm⟩ := bind_eq_ok.mp hm
      obtain ⟨s', hs', hm⟩ := bind_eq_ok.mp hm
      injection hm with hm; subst hm
      obtain ⟨r1, rfl⟩ := firstThree_ok hd'
      obtain ⟨r2, rfl⟩ := firstThree_ok hp'
      obtain ⟨r3, rfl⟩ := firstThree_ok hs'
      exact ⟨u, r1, r2, r3, hu, c1, needVector_of c3 hd, needVector_of c4 hp, needVector_of c5 hs⟩
    | logfit =>
      rw [if_neg (by decide)] at hc
      obtain ⟨c1, c3, c4, c5⟩ := coefs_of hc
      obtain ⟨d', hd', hm⟩ := bind_eq_ok.mp hm
      obtain ⟨p', hp', hm⟩ := bind_eq_ok.mp hm
      obtain ⟨s', hs', hm⟩ := bind_eq_ok.mp hm
      injection hm with hm; subst hm
      obtain ⟨r1, rfl⟩ := firstTwo_ok hd'
      obtain ⟨r2, rfl⟩ := firstTwo_ok hp'
      obtain ⟨r3, rfl⟩ := firstTwo_ok hs'
      exact ⟨u, r1, r2, r3, hu, c1, needVector_of c3 hd, needVector_of c4 hp, needVector_of c5 hs⟩
    | powerfit =>
      rw [if_pos rfl] at hc
      obtain ⟨-, c3, c4, c5⟩ := parseVpOverVsCoef_spec hc
      obtain ⟨d', hd', hm⟩ := bind_eq_ok.mp hm
      obtain ⟨p', hp', hm⟩ := bind_eq_ok.mp hm
      obtain ⟨s', hs', hm⟩ := bind_eq_ok.mp hm
      injection hm with hm; subst hm
      obtain ⟨r1, rfl⟩ := firstTwo_ok hd'
      obtain ⟨r2, rfl⟩ := firstTwo_ok hp'
      obtain ⟨r3, rfl⟩ := firstTwo_ok hs'
      exact ⟨u, r1, r2, r3, hu, needVector_of c3 hd, needVector_of c4 hp, needVector_of c5 hs⟩

/-- A log fit section as a user writes it. -/
example (conv : Conv) : ∃ m, parsePressureDependency conv
    (.dict [("model", .dict [("type", .str "logfit"), ("coefficients", .dict
      [("density", .list [.scalar (.num (Num.fin 0)), .scalar (.num (Num.fin 1))]),
       ("bulk_modulus", .list [.scalar (.num (Num.fin 2)), .scalar (.num (Num.fin 3))]),
       ("shear_modulus", .list [.scalar (.num (Num.fin 4)), .scalar (.num (Num.fin 5))])])])] : Val 2)
      = .ok (.pressureDependency m) :=
  ⟨.logfit true ⟨(0, 1), (2, 3), (4, 5)⟩, by
    simp [parsePressureDependency, args, named, tagged, defaulted, required, literal, parsePDModel, firstOf, into,
      parsePatchy, parseFriable, parseFit, FitKind.tag, parsePolyfitCoef, parseModuliCoef, optional, anyArray,
      shape, shapes, Scalar.toNum, PDIn.toModel, needVectorOf, orReject, toVector?, allSome, toReal?,
      Num.toReal?, firstTwo, failIf, List.lookup, bind, Except.bind, reject]⟩

end OPE.Parse
