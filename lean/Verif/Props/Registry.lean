import Verif.Model.Registry
import Mathlib.Data.List.Dedup

/-!
# C144, C145: fluid model plug-ins
-/

namespace OPE.Registry

variable {E P : Type} {n : ℕ}

theorem get?_eq_some {d : Dict P} (hd : (d.map (·.1)).Nodup) {k : String} {v : P} :
    d.get? k = some v ↔ (k, v) ∈ d := by
  induction d with
  | nil => simp [Dict.get?]
  | cons x d ih =>
    rw [List.map_cons, List.nodup_cons] at hd
    obtain ⟨a, b⟩ := x
    unfold Dict.get? at ih ⊢
    by_cases h : a = k
    · subst h
      simp only [List.find?_cons, BEq.rfl, Option.map_some, Option.some.injEq, List.mem_cons, Prod.mk.injEq,
        true_and]
      constructor
      · rintro rfl; exact .inl rfl
      · rintro (rfl | h)
        · rfl
        · exact absurd (List.mem_map.mpr ⟨_, h, rfl⟩) hd.1
    · have : (a == k) = false := by simpa using h
      rw [List.find?_cons, this]
      rw [ih hd.2]
      constructor
      · exact fun h => .tail _ h
      · rintro (_ | ⟨_, h⟩)
        · exact absurd rfl h
        · assumption

theorem duplicateNames_nil {names : List String} : duplicateNames names = [] ↔ names.Nodup := by
  unfold duplicateNames
  rw [List.filter_eq_nil_iff, List.nodup_iff_count_le_one]
  constructor
  · intro h a
    by_cases ha : a ∈ names
    · have := h a (by simpa using ha)
      simpa using this
    · rw [List.count_eq_zero_of_not_mem ha]; omega
  · intro h a _
    simpa using h a

theorem set_new {d : Dict P} {k : String} (v : P) (h : k ∉ d.map (·.1)) : d.set k v = d ++ [(k, v)] := by
  unfold Dict.set
  rw [if_neg]
  rintro hk
  obtain ⟨x, hx, hxk⟩ := List.any_eq_true.mp hk
  exact h (List.mem_map.mpr ⟨x, hx, by simpa using hxk⟩)

theorem set_keys {d : Dict P} {k : String} {v : P} :
    (d.set k v).map (·.1) = if k ∈ d.map (·.1) then d.map (·.1) else d.map (·.1) ++ [k] := by
  by_cases h : k ∈ d.map (·.1)
  · rw [if_pos h]
    unfold Dict.set
    rw [if_pos (by obtain ⟨x, hx, e⟩ := List.mem_map.mp h
                   exact List.any_eq_true.mpr ⟨x, hx, by simpa using e⟩)]
    rw [List.map_map]
    refine List.map_congr_left fun x _ => ?_
    by_cases e : x.1 = k <;> simp [e]
  · rw [if_neg h, set_new v h]; simp

theorem mem_set {d : Dict P} {k s : String} {v p : P} (hd : (d.map (·.1)).Nodup) :
    (s, p) ∈ d.set k v ↔ if s = k then p = v else (s, p) ∈ d := by
  by_cases h : k ∈ d.map (·.1)
  · unfold Dict.set
    have : (d.any fun x => x.1 == k) = true := by
      obtain ⟨x, hx, e⟩ := List.mem_map.mp h
      exact List.any_eq_true.mpr ⟨x, hx, by simpa using e⟩
    rw [if_pos this, List.mem_map]
    split
    · rename_i e; subst e
      constructor
      · rintro ⟨x, hx, e⟩
        by_cases ex : x.1 = s
        · simp [ex] at e; exact e.symm
        · simp [ex] at e; rw [e] at ex; exact absurd rfl ex
      · rintro rfl
        obtain ⟨x, hx, e⟩ := List.mem_map.mp h
        exact ⟨x, hx, by simp [e]⟩
    · rename_i e
      constructor
      · rintro ⟨x, hx, ex⟩
        by_cases exk : x.1 = k
        · simp [exk] at ex; exact absurd ex.1.symm e
        · simp [exk] at ex; rwa [← ex]
      · intro hm
        exact ⟨_, hm, by simp [e]⟩
  · rw [set_new v h]
    split
    · rename_i e; subst e
      constructor
      · intro hm
        rcases List.mem_append.mp hm with hm | hm
        · exact absurd (List.mem_map.mpr ⟨_, hm, rfl⟩) h
        · simpa using hm
      · rintro rfl; simp
    · rename_i e; simp [e]

theorem nodup_set {d : Dict P} {k : String} {v : P} (hd : (d.map (·.1)).Nodup) :
    ((d.set k v).map (·.1)).Nodup := by
  rw [set_keys]
  split
  · exact hd
  · rename_i h
    exact List.nodup_append.mpr ⟨hd, by simp, fun a ha b hb e => h (by simp at hb; rw [← hb, ← e]; exact ha)⟩

/-- Loading every entry point, in order. -/
theorem build_ok {es : List (EntryPoint E P)} (hn : (es.map (·.name)).Nodup) {d : Dict P} :
    build es = .ok d ↔ List.Forall₂ (fun e x => x.1 = e.name ∧ e.load = .ok x.2) es d := by
  have key : ∀ (es : List (EntryPoint E P)) (d0 d : Dict P), (es.map (·.name)).Nodup →
      (∀ e ∈ es, e.name ∉ d0.map (·.1)) →
      (es.foldlM (m := Except (ImportFailure E)) (fun (d : Dict P) e => match e.load with
        | .ok p => .ok (Dict.set d e.name p)
        | .error x => .error (.plugin x)) d0 = .ok d ↔
      ∃ d1, d = d0 ++ d1 ∧ List.Forall₂ (fun e x => x.1 = e.name ∧ e.load = .ok x.2) es d1) := by
    intro es
    induction es with
    | nil =>
      intro d0 d _ _
      constructor
      · intro h
        have : d0 = d := by simpa [List.foldlM, pure, Except.pure] using h
        exact ⟨[], by simp [this], .nil⟩
      · rintro ⟨d1, rfl, h⟩
        cases h
        simp [List.foldlM, pure, Except.pure]
    | cons e es ih =>
      intro d0 d hn h0
      rw [List.map_cons, List.nodup_cons] at hn
      rw [List.foldlM_cons]
      cases hl : e.load with
      | error x =>
        constructor
        · intro h; simp [bind, Except.bind] at h
        · rintro ⟨d1, -, h⟩
          cases h with
          | cons h _ => rw [hl] at h; simp at h
      | ok p =>
        have hnew := h0 e (by simp)
        simp only [bind, Except.bind]
        rw [set_new p hnew, ih (d0 ++ [(e.name, p)]) d hn.2 ?_]
        · constructor
          · rintro ⟨d1, rfl, h⟩
            exact ⟨(e.name, p) :: d1, by simp, .cons ⟨rfl, hl⟩ h⟩
          · rintro ⟨d1, rfl, h⟩
            cases h with
            | @cons _ x _ d1 h h' =>
              obtain ⟨a, b⟩ := x
              obtain ⟨h1, h2⟩ := h
              rw [hl] at h2
              injection h2 with h2
              dsimp only at h1 h2
              subst h1 h2
              exact ⟨d1, by simp, h'⟩
        · intro e' he' hm
          rw [List.map_append, List.mem_append] at hm
          rcases hm with hm | hm
          · exact h0 e' (.tail _ he') hm
          · simp at hm
            exact hn.1 (List.mem_map.mpr ⟨e', he', hm⟩)
  have := key es [] d hn (by simp)
  simp only [List.nil_append, exists_eq_left'] at this
  exact this

theorem loaded_mem {es : List (EntryPoint E P)} {d : Dict P}
    (h : List.Forall₂ (fun e x => x.1 = e.name ∧ e.load = .ok x.2) es d) {s : String} {p : P} :
    (s, p) ∈ d ↔ ∃ e ∈ es, e.name = s ∧ e.load = .ok p := by
  induction h with
  | nil => simp
  | @cons e x es d h _ ih =>
    obtain ⟨a, b⟩ := x
    obtain ⟨h1, h2⟩ := h
    dsimp only at h1 h2
    rw [List.mem_cons, ih, Prod.mk.injEq]
    constructor
    · rintro (⟨rfl, rfl⟩ | ⟨e', he', h⟩)
      · exact ⟨e, by simp, h1.symm, h2⟩
      · exact ⟨e', .tail _ he', h⟩
    · rintro ⟨e', he', h3, h4⟩
      rcases List.mem_cons.mp he' with rfl | he'
      · rw [h2] at h4; injection h4 with h4
        exact .inl ⟨by rw [h1, h3], h4.symm⟩
      · exact .inr ⟨e', he', h3, h4⟩

theorem loaded_keys {es : List (EntryPoint E P)} {d : Dict P}
    (h : List.Forall₂ (fun e x => x.1 = e.name ∧ e.load = .ok x.2) es d) : d.map (·.1) = es.map (·.name) := by
  induction h with
  | nil => rfl
  | cons h _ ih => simp [h.1, ih]

theorem exists_loaded {es : List (EntryPoint E P)} (h : ∀ e ∈ es, ∃ p, e.load = .ok p) :
    ∃ d : Dict P, List.Forall₂ (fun e x => x.1 = e.name ∧ e.load = .ok x.2) es d := by
  induction es with
  | nil => exact ⟨[], .nil⟩
  | cons e es ih =>
    obtain ⟨p, hp⟩ := h e (by simp)
    obtain ⟨d, hd⟩ := ih fun e' he' => h e' (.tail _ he')
    exact ⟨(e.name, p) :: d, .cons ⟨rfl, hp⟩ hd⟩

/-- Everything about a successful import. -/
theorem import_ok {es : List (EntryPoint E P)} {d : Dict P} :
    importProviders es = .ok d ↔
      (es.map (·.name)).Nodup ∧ "span_wagner" ∈ es.map (·.name) ∧
      ∃ (d0 : Dict P) (p : P), List.Forall₂ (fun e x => x.1 = e.name ∧ e.load = .ok x.2) es d0 ∧
        d0.get? "batzle_wang" = some p ∧ d = d0.set "default" p := by
  unfold importProviders
  dsimp only
  by_cases hn : (es.map (·.name)).Nodup
  swap
  · rw [if_pos (by rwa [Ne, duplicateNames_nil])]
    simp [hn]
  rw [if_neg (by rw [not_not, duplicateNames_nil]; exact hn)]
  cases hb : build es with
  | error e =>
    constructor
    · simp
    · rintro ⟨-, -, d0, p, h, -⟩
      rw [(build_ok hn).mpr h] at hb; simp at hb
  | ok d0 =>
    have hl := (build_ok hn).mp hb
    have hk := loaded_keys hl
    have hd0 : (d0.map (·.1)).Nodup := hk ▸ hn
    have huniq : ∀ d', List.Forall₂ (fun e x => x.1 = e.name ∧ e.load = .ok x.2) es d' → d' = d0 := by
      intro d' h'
      have := (build_ok hn).mpr h'
      rw [hb] at this; injection this with this; exact this.symm
    dsimp only
    cases hg : d0.get? "batzle_wang" with
    | none =>
      constructor
      · simp
      · rintro ⟨-, -, d', p, h, h', -⟩
        rw [huniq d' h, hg] at h'; simp at h'
    | some p =>
      dsimp only
      have hsw : (∃ q, (d0.set "default" p).get? "span_wagner" = some q) ↔ "span_wagner" ∈ es.map (·.name) := by
        rw [← hk]
        constructor
        · rintro ⟨q, hq⟩
          rw [get?_eq_some (nodup_set hd0), mem_set hd0] at hq
          simp only [String.reduceEq, if_false] at hq
          exact List.mem_map.mpr ⟨_, hq, rfl⟩
        · intro h
          obtain ⟨⟨a, b⟩, hx, rfl⟩ := List.mem_map.mp h
          refine ⟨b, ?_⟩
          rw [get?_eq_some (nodup_set hd0), mem_set hd0]
          simpa using hx
      cases hq : (d0.set "default" p).get? "span_wagner" with
      | none =>
        constructor
        · simp
        · rintro ⟨-, h, -⟩
          obtain ⟨q, hq'⟩ := hsw.mpr h
          rw [hq] at hq'; simp at hq'
      | some q =>
        dsimp only
        constructor
        · intro h
          injection h with h
          exact ⟨hn, hsw.mp ⟨q, hq⟩, d0, p, hl, hg, h.symm⟩
        · rintro ⟨-, -, d', p', h, h', rfl⟩
          rw [huniq d' h, hg] at h'
          injection h' with h'
          rw [huniq d' h, h']

/-- **C144, import.** Importing the package succeeds exactly if the installed plug-ins have different
names, all of them load, and the two bundled names are among them. -/
theorem C144_import (es : List (EntryPoint E P)) :
    (∃ d, importProviders es = .ok d) ↔
      (es.map (·.name)).Nodup ∧ (∀ e ∈ es, ∃ p, e.load = .ok p) ∧
        "batzle_wang" ∈ es.map (·.name) ∧ "span_wagner" ∈ es.map (·.name) := by
  constructor
  · rintro ⟨d, h⟩
    obtain ⟨hn, hs, d0, p, hl, hg, -⟩ := import_ok.mp h
    refine ⟨hn, fun e he => ?_, ?_, hs⟩
    · clear hg h hn hs
      induction hl with
      | nil => simp at he
      | cons h _ ih =>
        rcases List.mem_cons.mp he with rfl | he
        · exact ⟨_, h.2⟩
        · exact ih he
    · rw [get?_eq_some (by rw [loaded_keys hl]; exact hn)] at hg
      rw [← loaded_keys hl]
      exact List.mem_map.mpr ⟨_, hg, rfl⟩
  · rintro ⟨hn, hl, hb, hs⟩
    obtain ⟨d0, hd0⟩ := exists_loaded hl
    rw [← loaded_keys hd0] at hb
    obtain ⟨⟨a, p⟩, hx, rfl⟩ := List.mem_map.mp hb
    exact ⟨d0.set "default" p, import_ok.mpr ⟨hn, hs, d0, p, hd0,
      (get?_eq_some (by rw [loaded_keys hd0]; exact hn)).mpr hx, rfl⟩⟩

/-- **C144, a name clash** stops the import whatever else is installed. -/
theorem C144_clash (es : List (EntryPoint E P)) (h : ¬ (es.map (·.name)).Nodup) :
    ∃ names, importProviders es = .error (.duplicates names) ∧
      ∀ s, s ∈ names ↔ 1 < (es.map (·.name)).count s := by
  refine ⟨_, by unfold importProviders; dsimp only; rw [if_pos (by rwa [Ne, duplicateNames_nil])], fun s => ?_⟩
  unfold duplicateNames
  rw [List.mem_filter, decide_eq_true_iff, and_iff_right_iff_imp]
  intro hs
  have : s ∈ es.map (·.name) := List.count_pos_iff.mp (by omega)
  simpa using this

theorem select_str {d : Dict P} (hd : (d.map (·.1)).Nodup) {s : String} {p : P} :
    select (n := n) d (.str s) = .ok p ↔ (s, p) ∈ d := by
  unfold select
  dsimp only
  split
  · rename_i h
    obtain ⟨⟨a, q⟩, hx, rfl⟩ := List.mem_map.mp h
    rw [(get?_eq_some hd).mpr hx]
    dsimp only
    constructor
    · intro h; injection h with h; rwa [← h]
    · intro h
      have h1 := (get?_eq_some hd).mpr hx
      rw [(get?_eq_some hd).mpr h] at h1
      injection h1 with h1; rw [h1]
  · rename_i h
    constructor
    · intro h'; simp [Parse.reject] at h'
    · intro h'; exact absurd (List.mem_map.mpr ⟨_, h', rfl⟩) h

/-- **C144, selection.** After the import, `fluid_model: name` with a name other than `default` gives
exactly what the plug-in installed under that name loads, `fluid_model: default` what the one named
`batzle_wang` loads; everything else is refused as a value error. -/
theorem C144_selection (es : List (EntryPoint E P)) (d : Dict P) (h : importProviders es = .ok d) :
    (∀ (s : String) (p : P), s ≠ "default" →
      (select (n := n) d (.str s) = .ok p ↔ ∃ e ∈ es, e.name = s ∧ e.load = .ok p)) ∧
    (∀ p, select (n := n) d (.str "default") = .ok p ↔ ∃ e ∈ es, e.name = "batzle_wang" ∧ e.load = .ok p) ∧
    (∃ p, select (n := n) d (.str "default") = .ok p) ∧
    (∀ (v : Parse.Val n) (p : P), select d v = .ok p → ∃ s, v = .str s) ∧
    ∀ (v : Parse.Val n) (e : Err), select d v = .error e → e = .valueError := by
  obtain ⟨hn, hs, d0, q, hl, hg, rfl⟩ := import_ok.mp h
  have hd0 : (d0.map (·.1)).Nodup := by rw [loaded_keys hl]; exact hn
  refine ⟨fun s p hs => ?_, fun p => ?_, ⟨q, ?_⟩, fun v p hv => ?_, fun v e hv => ?_⟩
  · rw [select_str (nodup_set hd0), mem_set hd0, if_neg hs, loaded_mem hl]
  · rw [select_str (nodup_set hd0), mem_set hd0, if_pos rfl, ← loaded_mem hl, ← get?_eq_some hd0, hg,
      Option.some.injEq, eq_comm]
  · rw [select_str (nodup_set hd0), mem_set hd0, if_pos rfl]
  · cases v <;> first | exact ⟨_, rfl⟩ | simp [select, Parse.reject] at hv
  · cases v with
    | str s =>
      by_cases hm : s ∈ (Dict.set d0 "default" q).map (·.1)
      · obtain ⟨⟨a, b⟩, hx, rfl⟩ := List.mem_map.mp hm
        rw [(select_str (nodup_set hd0)).mpr hx] at hv
        simp at hv
      · unfold select at hv
        dsimp only at hv
        rw [if_neg hm] at hv
        simpa [Parse.reject] using hv.symm
    | _ => simpa [select, Parse.reject] using hv.symm

/-- **C144, order.** The order in which plug-ins are found does not matter. -/
theorem C144_order (es es' : List (EntryPoint E P)) (hp : es.Perm es') (d : Dict P)
    (h : importProviders es = .ok d) :
    ∃ d', importProviders es' = .ok d' ∧ ∀ v : Parse.Val n, select d' v = select d v := by
  have h1 := (C144_import es).mp ⟨d, h⟩
  obtain ⟨d', h'⟩ := (C144_import es').mpr ⟨(hp.map _).nodup_iff.mp h1.1, fun e he => h1.2.1 e (hp.mem_iff.mpr he),
    (hp.map _).mem_iff.mp h1.2.2.1, (hp.map _).mem_iff.mp h1.2.2.2⟩
  refine ⟨d', h', fun v => ?_⟩
  have a := C144_selection (n := n) es d h
  have b := C144_selection (n := n) es' d' h'
  have key : ∀ p, select d' v = .ok p ↔ select d v = .ok p := by
    intro p
    by_cases hv : ∃ s, v = .str s
    · obtain ⟨s, rfl⟩ := hv
      by_cases hs : s = "default"
      · subst hs
        rw [a.2.1, b.2.1]
        simp only [hp.mem_iff]
      · rw [a.1 s p hs, b.1 s p hs]
        simp only [hp.mem_iff]
    · constructor
      · intro h; exact absurd (b.2.2.2.1 v p h) hv
      · intro h; exact absurd (a.2.2.2.1 v p h) hv
  cases hd : select d v with
  | ok p => exact (key p).mpr hd
  | error e =>
    rw [a.2.2.2.2 v e hd]
    cases hd' : select d' v with
    | ok p => rw [(key p).mp hd'] at hd; simp at hd
    | error e' => rw [b.2.2.2.2 v e' hd']

/-- **C144, nothing else installed.** With only the entry points of the package itself the import
succeeds, and reading `fluid_model` accepts exactly the values `Parse.toProvider` accepts, with a
provider that computes the same materials. -/
theorem C144_bundled : ∃ d, importProviders (bundled (E := E)) = .ok d ∧
    ∀ v : Parse.Val n, match Parse.toProvider v with
      | .ok p => ∃ q, select d v = .ok q ∧ ∀ (co2 : CO2Model n) (t pr : Col n) (k : FluidKind n),
          k.asMaterial co2 p t pr = k.asMaterial co2 q t pr
      | .error e => select d v = .error e := by
  obtain ⟨d, h⟩ := (C144_import (bundled (E := E))).mpr
    ⟨by simp [bundled], fun e he => by simp [bundled] at he; rcases he with rfl | rfl <;> exact ⟨_, rfl⟩,
      by simp [bundled], by simp [bundled]⟩
  refine ⟨d, h, fun v => ?_⟩
  obtain ⟨a1, a2, -, a4, a5⟩ := C144_selection (n := n) _ d h
  have hrej : (∀ s, v = .str s → s ≠ "default" ∧ s ≠ "batzle_wang" ∧ s ≠ "span_wagner") →
      select d v = .error .valueError := by
    intro hv
    cases hd : select d v with
    | error e => rw [a5 v e hd]
    | ok p =>
      obtain ⟨s, rfl⟩ := a4 v p hd
      obtain ⟨h1, h2, h3⟩ := hv s rfl
      rw [a1 s p h1] at hd
      obtain ⟨e, he, rfl, -⟩ := hd
      simp [bundled] at he
      rcases he with rfl | rfl
      · exact absurd rfl h2
      · exact absurd rfl h3
  cases v with
  | str s =>
    by_cases h1 : s = "default"
    · subst h1
      exact ⟨.batzleWang, (a2 _).mpr ⟨⟨"batzle_wang", .ok .batzleWang⟩, by simp [bundled], rfl, rfl⟩, fun co2 t pr k => by
        cases k <;> rfl⟩
    · by_cases h2 : s = "batzle_wang"
      · subst h2
        exact ⟨.batzleWang, (a1 _ _ (by decide)).mpr ⟨⟨"batzle_wang", .ok .batzleWang⟩, by simp [bundled], rfl, rfl⟩,
          fun co2 t pr k => rfl⟩
      · by_cases h3 : s = "span_wagner"
        · subst h3
          exact ⟨.spanWagner, (a1 _ _ (by decide)).mpr ⟨⟨"span_wagner", .ok .spanWagner⟩, by simp [bundled], rfl, rfl⟩,
            fun co2 t pr k => rfl⟩
        · have := hrej fun s' e => by injection e with e; subst e; exact ⟨h1, h2, h3⟩
          simp only [Parse.toProvider, h1, h2, h3, if_false, Parse.reject]
          exact this
  | _ => exact hrej fun s e => by cases e

/-- A user's plug-in beside the bundled ones is selectable. -/
example : ∃ d, importProviders (E := Unit) [⟨"batzle_wang", .ok 1⟩, ⟨"mine", .ok 2⟩, ⟨"span_wagner", .ok 3⟩] = .ok d ∧
    select (n := 1) d (.str "mine") = .ok 2 := by
  obtain ⟨d, h⟩ := (C144_import (E := Unit) [⟨"batzle_wang", .ok 1⟩, ⟨"mine", .ok 2⟩, ⟨"span_wagner", .ok 3⟩]).mpr
    ⟨by simp, fun e he => by simp at he; rcases he with rfl | rfl | rfl <;> exact ⟨_, rfl⟩, by simp, by simp⟩
  exact ⟨d, h, ((C144_selection _ d h).1 "mine" 2 (by decide)).mpr ⟨⟨"mine", .ok 2⟩, by simp, rfl, rfl⟩⟩

/-! ### C145 -/

/-- The full claim: whenever the import succeeds, every installed plug-in can be selected by its name. -/
def EveryPluginSelectable (E P : Type) : Prop :=
  ∀ (es : List (EntryPoint E P)) (d : Dict P), importProviders es = .ok d → ∀ e ∈ es, ∀ p, e.load = .ok p →
    select (n := 1) d (.str e.name) = .ok p

/-- **C145, what holds.** Plug-ins with any other name than `default` are selectable by their name. -/
theorem C145_selectable_partial (es : List (EntryPoint E P)) (d : Dict P) (h : importProviders es = .ok d)
    (e : EntryPoint E P) (he : e ∈ es) (hd : e.name ≠ "default") (p : P) (hp : e.load = .ok p) :
    select (n := n) d (.str e.name) = .ok p :=
  ((C144_selection es d h).1 e.name p hd).mpr ⟨e, he, rfl, hp⟩

/-- **C145, refuted.** A plug-in named `default` passes the name collision check, is loaded, and is then
silently replaced by the Batzle-Wang provider: no value of `fluid_model` selects it. -/
theorem C145_default_shadowed (p : P) (b s : P) (hb : p ≠ b) (hs : p ≠ s) :
    ∃ d, importProviders (E := E) [⟨"batzle_wang", .ok b⟩, ⟨"span_wagner", .ok s⟩, ⟨"default", .ok p⟩] = .ok d ∧
      select (n := n) d (.str "default") = .ok b ∧ ∀ v : Parse.Val n, select d v ≠ .ok p := by
  obtain ⟨d, h⟩ := (C144_import (E := E) [⟨"batzle_wang", .ok b⟩, ⟨"span_wagner", .ok s⟩, ⟨"default", .ok p⟩]).mpr
    ⟨by simp, fun e he => by simp at he; rcases he with rfl | rfl | rfl <;> exact ⟨_, rfl⟩, by simp, by simp⟩
  obtain ⟨a1, a2, -, a4, -⟩ := C144_selection (n := n) _ d h
  refine ⟨d, h, (a2 b).mpr ⟨⟨"batzle_wang", .ok b⟩, by simp, rfl, rfl⟩, fun v hv => ?_⟩
  obtain ⟨t, rfl⟩ := a4 v p hv
  by_cases ht : t = "default"
  · subst ht
    obtain ⟨e, he, h1, h2⟩ := (a2 p).mp hv
    simp at he
    rcases he with rfl | rfl | rfl
    · injection h2 with h2; exact hb h2.symm
    · simp at h1
    · simp at h1
  · obtain ⟨e, he, h1, h2⟩ := (a1 t p ht).mp hv
    simp at he
    rcases he with rfl | rfl | rfl
    · injection h2 with h2; exact hb h2.symm
    · injection h2 with h2; exact hs h2.symm
    · exact ht h1.symm

theorem C145_refuted : ¬ EveryPluginSelectable Unit ℕ := by
  intro h
  obtain ⟨d, hd, -, hno⟩ := C145_default_shadowed (E := Unit) (n := 1) (3:ℕ) 1 2 (by decide) (by decide)
  exact hno _ (h _ d hd ⟨"default", .ok 3⟩ (by simp) 3 rfl)

end OPE.Registry
