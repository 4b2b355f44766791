import Verif.Props.Document2

/-!
# C114: coefficients and models of a configuration
-/

namespace OPE.Doc

open Parse

variable {n : ℕ}

theorem may_of_need {α : Type} {key : String} {R : Yaml → α → Prop} {x : α} {o : Option Yaml}
    (h : (need key (R · x)).2 o) : (may key (some x = none) (Maybe R · (some x))).2 o := by
  obtain ⟨y, rfl, hy⟩ := h
  exact .inr ⟨y, rfl, .inr ⟨x, hy, rfl⟩⟩

/-- Three fields that are needed are three fields that are given. -/
theorem needs_given {α : Type} {R : Yaml → α → Prop} {d p s : String} {k : Coef3 α} {y : Yaml}
    (h : Mapping [need d (R · k.density), need p (R · k.primary), need s (R · k.secondary)] y) :
    Mapping [may d (some k.density = none) (Maybe R · (some k.density)), may p (some k.primary = none) (Maybe R · (some k.primary)),
      may s (some k.secondary = none) (Maybe R · (some k.secondary))] y := by
  obtain ⟨xs, rfl, h1, h2, h3⟩ := h
  refine ⟨xs, rfl, h1, h2, ?_⟩
  simp only [List.forall_mem_cons] at h3 ⊢
  exact ⟨may_of_need h3.1, may_of_need h3.2.1, may_of_need h3.2.2.1, h3.2.2.2⟩

/-- What is found for an optional coefficient. -/
def Fits {α : Type} (f : Val n → Option α) (o : Option (Val n)) (x : Option α) : Prop :=
  (o = none ∧ x = none) ∨ ∃ v a, o = some v ∧ x = some a ∧ f v = some a

/-- A description of an array is read as an array. -/
def IsArray {α : Type} (rows : Source n) (conv : Conv) (R : Yaml → α → Prop) (f : Val n → Option α) : Prop :=
  ∀ y a, R y a → ∃ v, ins rows y = .ok v ∧ anyArray conv v = .ok v ∧ v ≠ .scalar .null ∧ f v = some a

theorem IsArray.field {α : Type} {rows : Source n} {conv : Conv} {R : Yaml → α → Prop} {f : Val n → Option α}
    (hR : IsArray rows conv R f) {a : Args n} {key : String} {x : Option α}
    (h : Holds rows a (may key (x = none) (Maybe R · x))) :
    ∃ o, defaulted a key (Parse.optional (anyArray conv)) none = .ok o ∧ Fits f o x ∧
      (x ≠ none → ∃ v, a key = some v) := by
  unfold defaulted
  rcases h with ⟨h, ha⟩ | ⟨z, v, h, hv, ha⟩
  · dsimp only [Doc.may] at ha
    rw [ha]
    rcases h with ⟨-, h⟩ | ⟨z, hz, -⟩
    · exact ⟨none, rfl, .inl ⟨rfl, h⟩, fun hx => absurd h hx⟩
    · cases hz
  · dsimp only [Doc.may] at ha
    rw [ha]
    have h := may_some.mp h
    rcases h with ⟨rfl, rfl⟩ | ⟨b, hb, rfl⟩
    · rw [ins_null] at hv; injection hv with hv; subst hv
      exact ⟨none, rfl, .inl ⟨rfl, rfl⟩, fun hx => absurd rfl hx⟩
    · obtain ⟨w, hw, h1, h2, h3⟩ := hR z b hb
      rw [hv] at hw; injection hw with hw; subst hw
      refine ⟨some v, ?_, .inr ⟨v, b, rfl, rfl, h3⟩, fun _ => ⟨v, rfl⟩⟩
      dsimp only
      unfold Parse.optional
      split
      · exact absurd rfl h2
      · rw [h1, bind_ok]

theorem IsArray.maybe_ins {α : Type} {rows : Source n} {conv : Conv} {R : Yaml → α → Prop} {f : Val n → Option α}
    (hR : IsArray rows conv R f) {y : Yaml} {x : Option α} (h : Maybe R y x) : ∃ v, ins rows y = .ok v := by
  rcases h with ⟨rfl, rfl⟩ | ⟨b, hb, rfl⟩
  · exact ⟨_, ins_null rows⟩
  · obtain ⟨w, hw, -⟩ := hR y b hb
    exact ⟨w, hw⟩

/-- Coefficients of moduli or of velocities. -/
theorem coefficients_read {α : Type} {rows : Source n} {conv : Conv} {R : Yaml → α → Prop} {f : Val n → Option α}
    (hR : IsArray rows conv R f) (b : Bool) {k : Coef3 (Option α)} {y : Yaml}
    (h : Mapping [may "density" (k.density = none) (Maybe R · k.density),
      may (primaryKey b) (k.primary = none) (Maybe R · k.primary),
      may (secondaryKey b) (k.secondary = none) (Maybe R · k.secondary)] y)
    (hu : k.primary ≠ none ∨ k.secondary ≠ none ∨ b = true) :
    ∃ v co, ins rows y = .ok v ∧ parsePolyfitCoef conv v = .ok co ∧ v ≠ .scalar .null ∧ co.useModuli = b ∧
      Fits f co.coef.density k.density ∧ Fits f co.coef.primary k.primary ∧ Fits f co.coef.secondary k.secondary := by
  cases b with
  | true =>
    obtain ⟨v, a, hv, ha, hn, hf⟩ := Mapping.holds (rows := rows) h ["density", "bulk_modulus", "shear_modulus"]
      (by simp [may, primaryKey, secondaryKey]) (by decide) (by
        simp only [List.mem_cons, List.not_mem_nil, or_false]
        rintro g (rfl | rfl | rfl) z hz <;> exact hR.maybe_ins (may_some.mp hz))
    simp only [List.forall_mem_cons] at hf
    obtain ⟨h1, h2, h3, -⟩ := hf
    obtain ⟨d, hd, fd, -⟩ := hR.field h1
    obtain ⟨p, hp, fp, -⟩ := hR.field h2
    obtain ⟨s, hs, fs, -⟩ := hR.field h3
    refine ⟨v, ⟨true, d, p, s⟩, hv, firstOf_this ?_, (fun e => by subst e; cases ha), rfl, fd, fp, fs⟩
    unfold parseModuliCoef
    dsimp only [primaryKey, secondaryKey, if_true] at hp hs
    rw [ha, bind_ok, hd, bind_ok]
    erw [hp, bind_ok, hs, bind_ok]
  | false =>
    obtain ⟨v, a, hv, ha, hn, hf⟩ := Mapping.holds (rows := rows) h ["density", "secondary_velocity", "primary_velocity"]
      (by simp [may, primaryKey, secondaryKey]) (by decide) (by
        simp only [List.mem_cons, List.not_mem_nil, or_false]
        rintro g (rfl | rfl | rfl) z hz <;> exact hR.maybe_ins (may_some.mp hz))
    simp only [List.forall_mem_cons] at hf
    obtain ⟨h1, h2, h3, -⟩ := hf
    obtain ⟨d, hd, fd, -⟩ := hR.field h1
    obtain ⟨p, hp, fp, gp⟩ := hR.field h2
    obtain ⟨s, hs, fs, gs⟩ := hR.field h3
    refine ⟨v, ⟨false, d, p, s⟩, hv, firstOf_next ?_ (firstOf_this ?_), (fun e => by subst e; cases ha), rfl, fd, fp, fs⟩
    · unfold parseModuliCoef
      rcases hu with hu | hu | hu
      · obtain ⟨x, hx⟩ := gp hu
        exact other_key (key := "primary_velocity") ⟨x, given_of_args hn.1 ha hx⟩ (by decide) _
      · obtain ⟨x, hx⟩ := gs hu
        exact other_key (key := "secondary_velocity") ⟨x, given_of_args hn.1 ha hx⟩ (by decide) _
      · cases hu
    · unfold parseVelocityCoef
      rw [ha, bind_ok, hd, bind_ok]
      erw [hs, bind_ok, hp, bind_ok]

/-! ### Vectors and matrices -/

/-- A number after column insertion. -/
noncomputable def val (x : ℝ) : Val n := .scalar (.num (Num.fin x))

theorem ins_vector (rows : Source n) (xs : List ℝ) : ins rows (.list (xs.map number)) = .ok (.list (xs.map val)) :=
  ins_list (by
    induction xs with
    | nil => exact .nil
    | cons x xs ih => exact .cons (ins_number rows x) ih)

theorem allSome_map {α β γ : Type} (f : β → Option γ) (g : α → β) (r : α → γ) (h : ∀ x, f (g x) = some (r x)) (xs : List α) :
    allSome f (xs.map g) = some (xs.map r) := by
  induction xs with
  | nil => rfl
  | cons x xs ih => simp [allSome, h, ih]

theorem toVector_vector (conv : Conv) (xs : List ℝ) : toVector? conv (.list (xs.map val) : Val n) = some xs := by
  have := allSome_map (toReal? (n := n) conv) val id (fun x => rfl) xs
  simpa [toVector?] using this

theorem shape_vector (conv : Conv) (xs : List ℝ) : shape conv (.list (xs.map val) : Val n) = some [xs.length] := by
  unfold shape
  induction xs with
  | nil => rfl
  | cons x xs ih =>
    have hx : shape conv (val x : Val n) = some [] := by unfold val shape; rfl
    rw [List.map_cons]
    unfold shapes
    rw [hx, ih]
    simp

theorem vector_array (rows : Source n) (conv : Conv) : IsArray rows conv Vector (toVector? conv) := by
  rintro y xs rfl
  exact ⟨_, ins_vector rows xs, by unfold anyArray; rw [shape_vector], by simp, toVector_vector conv xs⟩

theorem shape_matrix (conv : Conv) (k : ℕ) (xss : List (List ℝ)) (h : ∀ xs ∈ xss, xs.length = k) :
    ∃ s, shape conv (.list (xss.map fun xs => .list (xs.map val)) : Val n) = some (xss.length :: s) ∧ (xss ≠ [] → s = [k]) := by
  unfold shape
  induction xss with
  | nil => exact ⟨[], rfl, by simp⟩
  | cons xs xss ih =>
    obtain ⟨s, hs, hk⟩ := ih fun x hx => h x (by simp [hx])
    refine ⟨[k], ?_, fun _ => rfl⟩
    rw [List.map_cons]
    unfold shapes
    rw [hs, shape_vector, h xs (by simp)]
    dsimp only
    rw [if_pos]
    · simp
    · by_cases e : xss = []
      · left; simp [e]
      · right; rw [hk e]

theorem coeffs_eq {m k m' k' : ℕ} (hm : m' = m) (hk : k' = k) {f : Fin (m' + 1) → Fin (k' + 1) → ℝ}
    {g : Fin (m + 1) → Fin (k + 1) → ℝ} (h : ∀ i j, f i j = g ⟨i, by omega⟩ ⟨j, by omega⟩) :
    (⟨m', k', f⟩ : Coeffs) = ⟨m, k, g⟩ := by
  subst hm hk
  congr
  funext i j
  exact h i j

/-- The rows of a matrix. -/
def rowsOf (a : Coeffs) : List (List ℝ) := List.ofFn fun i => List.ofFn fun j => a.val i j

theorem rowsOf_head (a : Coeffs) : (rowsOf a).headD [] = List.ofFn fun j => a.val 0 j := by
  unfold rowsOf
  rw [List.ofFn_succ]
  rfl

theorem matrixOf_rowsOf (a : Coeffs) : matrixOf (rowsOf a) = a := by
  obtain ⟨m, k, g⟩ := a
  unfold matrixOf
  refine coeffs_eq (by simp [rowsOf]) (by rw [rowsOf_head]; simp) fun i j => ?_
  have el : (rowsOf ⟨m, k, g⟩).length = m + 1 := by simp [rowsOf]
  have ej : ((rowsOf ⟨m, k, g⟩).headD []).length = k + 1 := by rw [rowsOf_head]; simp
  have hi : (i : ℕ) < m + 1 := by have := i.2; omega
  have hj : (j : ℕ) < k + 1 := by have := j.2; omega
  have e1 : (rowsOf ⟨m, k, g⟩).getD i [] = List.ofFn fun j => g ⟨i, hi⟩ j := by
    unfold rowsOf
    rw [List.getD_eq_getElem?_getD, List.getElem?_ofFn, dif_pos hi]
    rfl
  rw [e1, List.getD_eq_getElem?_getD, List.getElem?_ofFn, dif_pos hj]
  rfl

theorem matrix_array (rows : Source n) (conv : Conv) : IsArray rows conv Matrix (toCoeffs? conv) := by
  rintro y a rfl
  have e : (List.ofFn fun i => (.list (List.ofFn fun j => number (a.val i j)) : Yaml)) =
      (rowsOf a).map fun xs => .list (xs.map number) := by
    simp [rowsOf, List.map_ofFn, Function.comp_def]
  rw [e]
  have hi : ins rows (.list ((rowsOf a).map fun xs => .list (xs.map number))) =
      .ok (.list ((rowsOf a).map fun xs => .list (xs.map val))) :=
    ins_list (by
      induction rowsOf a with
      | nil => exact .nil
      | cons x xs ih => exact .cons (ins_vector rows x) ih)
  have hlen : ∀ xs ∈ rowsOf a, xs.length = a.cols + 1 := by
    intro xs hxs
    simp only [rowsOf, List.mem_ofFn] at hxs
    obtain ⟨i, rfl⟩ := hxs
    simp
  obtain ⟨s, hs, -⟩ := shape_matrix (n := n) conv (a.cols + 1) (rowsOf a) hlen
  refine ⟨_, hi, by unfold anyArray; rw [hs], by simp, ?_⟩
  have hne : rowsOf a ≠ [] := by unfold rowsOf; rw [List.ofFn_succ]; simp
  have h1 : toVector? conv (.list ((rowsOf a).map fun xs => .list (xs.map val)) : Val n) = none := by
    cases hr : rowsOf a with
    | nil => exact absurd hr hne
    | cons x xs => simp [toVector?, allSome, toReal?]
  have h2 : allSome (toVector? conv) ((rowsOf a).map fun xs => (.list (xs.map val) : Val n)) = some (rowsOf a) := by
    simpa using allSome_map (toVector? (n := n) conv) (fun xs => .list (xs.map val)) id (toVector_vector conv) (rowsOf a)
  unfold toCoeffs?
  rw [h1]
  simp only [toReal?, h2]
  rw [if_neg, matrixOf_rowsOf]
  rw [rowsOf_head]
  rintro (h | ⟨r, hr, h⟩)
  · rw [List.ofFn_succ] at h; cases h
  · rw [hlen r hr] at h; simp at h

end OPE.Doc
