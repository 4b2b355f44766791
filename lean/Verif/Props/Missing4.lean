import Verif.Props.Missing3

/-!
# Missing numbers never change other numbers: sections (C150)
-/

namespace OPE.Parse

open Classical

variable {n : ℕ} {conv : Conv}

/-! ### Materials -/

theorem setDefaults_both {b b' g g' d d' s s' p p' : Option (Col n)} (hb : b ⊑ b') (hg : g ⊑ g') (hd : d ⊑ d')
    (hs : s ⊑ s') (hp : p ⊑ p') : BothM (setDefaults b g d s p) (setDefaults b' g' d' s' p') := by
  rcases Option.lacks_cases hb with ⟨rfl, rfl⟩ | ⟨b, b', rfl, rfl, hb⟩ <;>
  rcases Option.lacks_cases hg with ⟨rfl, rfl⟩ | ⟨g, g', rfl, rfl, hg⟩ <;>
  rcases Option.lacks_cases hd with ⟨rfl, rfl⟩ | ⟨d, d', rfl, rfl, hd⟩ <;>
  rcases Option.lacks_cases hs with ⟨rfl, rfl⟩ | ⟨s, s', rfl, rfl, hs⟩ <;>
  rcases Option.lacks_cases hp with ⟨rfl, rfl⟩ | ⟨p, p', rfl, rfl, hp⟩ <;>
  first
  | exact Both.error
  | (refine Both.ok ⟨?_, ?_, ?_, ?_, ?_⟩ <;>
      (repeat' (first
        | assumption | exact .none | apply Option.Rel.some
        | apply calcShear_lacks | apply calcBulk_lacks | apply calcVp_lacks | apply calcVs_lacks)))

/-- `Optional` per-row parameters. -/
theorem optCol_lacks (x y : Val n) (h : VLacks conv x y) :
    BothM (optional (toCol conv) x) (optional (toCol conv) y) :=
  optional_both (fun _ _ h => toCol_lacks h) h

theorem col_lacks (x y : Val n) (h : VLacks conv x y) : BothM (toCol conv x) (toCol conv y) := toCol_lacks h

theorem none_lacks {α : Type} [Missing α] : (none : Option α) ⊑ none := .none

theorem parseArbitrary_lacks (x y : Val n) (h : VLacks conv x y) :
    BothM (parseArbitrary conv x) (parseArbitrary conv y) := by
  unfold parseArbitrary
  refine .bind (args_lacks _ h) fun a b hab => .bind (tagged_lacks hab _) fun _ _ _ =>
    .bind (required_both hab _ col_lacks) fun d d' hd =>
    .bind (defaulted_both hab _ optCol_lacks none_lacks) fun k k' hk =>
    .bind (defaulted_both hab _ optCol_lacks none_lacks) fun g g' hg =>
    .bind (defaulted_both hab _ optCol_lacks none_lacks) fun s s' hs =>
    .bind (defaulted_both hab _ optCol_lacks none_lacks) fun p p' hp =>
    .bind (setDefaults_both hk hg (.some hd) hs hp) fun m m' hm => .ok ?_
  exact And.intro hm.1 (And.intro hm.2.1 (And.intro hd (And.intro hm.2.2.2.2 hm.2.2.2.1)))

theorem parseMaterialType_lacks (x y : Val n) (h : VLacks conv x y) :
    BothM (parseMaterialType conv x) (parseMaterialType conv y) := by
  refine firstOf_both (fun p hp => ?_) h
  simp only [materialAlternatives, List.mem_cons, List.not_mem_nil, or_false] at hp
  rcases hp with rfl | rfl | rfl | rfl | rfl | rfl <;> intro x y h
  · exact .bind (parseArbitrary_lacks x y h) fun m m' hm => .ok hm
  · exact .bind (args_lacks _ h) fun a b hab => .bind (tagged_lacks hab _) fun _ _ _ =>
      .bind (required_both hab _ col_lacks) fun d d' hd => .ok hd
  · exact .bind (args_lacks _ h) fun a b hab => .bind (tagged_lacks hab _) fun _ _ _ =>
      .bind (required_both hab _ col_lacks) fun d d' hd => .bind (required_both hab _ col_lacks) fun g g' hg =>
      .bind (required_both hab _ col_lacks) fun k k' hk => .ok ⟨hd, hg, hk⟩
  · exact .bind (args_lacks _ h) fun a b hab => .bind (tagged_lacks hab _) fun _ _ _ =>
      .bind (required_both hab _ col_lacks) fun d d' hd => .ok hd
  · exact .bind (args_lacks _ h) fun a b hab => .bind (tagged_lacks hab _) fun _ _ _ =>
      .bind (required_both hab _ col_lacks) fun d d' hd => .bind (required_both hab _ col_lacks) fun g g' hg =>
      .bind (required_both hab _ col_lacks) fun k k' hk => .ok ⟨hd, hg, hk⟩
  · exact .bind (args_lacks _ h) fun a b hab => .bind (tagged_lacks hab _) fun _ _ _ =>
      .bind (defaulted_both (R := (· = ·)) hab _ (fun _ _ h => toBool_lacks h) rfl) fun d d' hd => .ok hd

theorem optionEq {α : Type} {x y : Option α} (h : Option.Rel (· = ·) x y) : x = y := by
  cases h with
  | none => rfl
  | some h => rw [h]

theorem parseConstituent_lacks (x y : Val n) (h : VLacks conv x y) :
    BothM (parseConstituent conv x) (parseConstituent conv y) := by
  unfold parseConstituent
  exact .bind (args_lacks _ h) fun a b hab => .bind (required_both hab _ parseMaterialType_lacks) fun k k' hk =>
    .bind (defaulted_both hab _ optCol_lacks none_lacks) fun f f' hf =>
    .bind (defaulted_both (R := Option.Rel (· = ·)) hab _
      (fun _ _ h => optional_both (fun _ _ h => toProvider_lacks h) h) .none) fun m m' hm =>
    .ok (And.intro hk (And.intro (optionEq hm) hf))

theorem FluidKind.lacks_refl (k : FluidKind n) : k ⊑ k := by
  cases k with
  | material m => exact Mat.lacks_refl m
  | oil r g G => exact And.intro (Col.lacks_refl _) (And.intro (Col.lacks_refl _) (Col.lacks_refl _))
  | gas G => exact Col.lacks_refl _
  | brine s => exact Col.lacks_refl _
  | condensate r g G => exact And.intro (Col.lacks_refl _) (And.intro (Col.lacks_refl _) (Col.lacks_refl _))
  | carbonDioxide b => exact (rfl : b = b)

theorem specs_lacks_refl (l : List (FluidSpec n)) : l ⊑ l := by
  induction l with
  | nil => exact .nil
  | cons x l ih => exact .cons (And.intro (FluidKind.lacks_refl _) (And.intro rfl (OPE.Option.lacks_refl _))) ih

theorem parseMinerals_lacks {x y : Val n} (h : VLacks conv x y) :
    BothM (parseMinerals conv x) (parseMinerals conv y) := by
  unfold parseMinerals
  exact .bind (args_lacks _ h) fun a b hab => defaulted_both (R := (· ⊑ ·)) hab _
    (fun _ _ h => listOf_both parseConstituent_lacks h) (specs_lacks_refl _)

/-- Fluids sections. -/
def FluidsLacks (f g : FluidsIn n) : Prop :=
  f.temperature ⊑ g.temperature ∧ f.constituents ⊑ g.constituents ∧ f.method = g.method ∧
    f.brieConstant ⊑ g.brieConstant ∧ f.brieGases = g.brieGases ∧ f.model = g.model

theorem forall₂_eq {α : Type} {l l' : List α} (h : List.Forall₂ (· = ·) l l') : l = l' := by
  induction h with
  | nil => rfl
  | cons h _ ih => rw [h, ih]

theorem parseFluids_lacks {x y : Val n} (h : VLacks conv x y) :
    Upto FluidsLacks (parseFluids conv x) (parseFluids conv y) := by
  unfold parseFluids
  exact .bind (args_lacks _ h).upto fun a b hab =>
    .bind (defaulted_both hab _ col_lacks (Col.lacks_refl _)).upto fun t t' ht =>
    .bind (R := (· ⊑ ·)) (defaulted_both (R := (· ⊑ ·)) hab _
      (fun _ _ h => listOf_both parseConstituent_lacks h) (specs_lacks_refl _)).upto fun k k' hk =>
    .bind (defaulted_both (R := (· = ·)) hab _ (fun _ _ h => toMethod_lacks h) rfl).upto fun m m' hm =>
    .bind (defaulted_both (R := (· ⊑ ·)) hab _ (fun _ _ h => toFloat_lacks h) (Num.lacks_refl _)).upto fun e e' he =>
    .bind (R := (· = ·)) ((defaulted_upto (R := Option.Rel (List.Forall₂ (· = ·))) hab _ (fun _ _ h => optional_upto
      (fun _ _ h => listOf_upto (fun _ _ h => toInt_lacks h) h) h) .none).mono fun a b hab => by
        cases hab with
        | none => rfl
        | some h => rw [forall₂_eq h]) fun g g' hg =>
    .bind (defaulted_both (R := (· = ·)) hab _ (fun _ _ h => toProvider_lacks h) rfl).upto fun p p' hp =>
    .ok ⟨ht, hk, hm, he, hg, hp⟩

/-! ### Coefficients -/

theorem colSome_lacks {x y : Fin n → Cell} (h : ∀ i, CellLacks conv (x i) (y i)) :
    (∀ i, ((x i).toNum conv).isSome) ↔ ∀ i, ((y i).toNum conv).isSome := by
  refine forall_congr' fun i => ?_
  have := cell_lacks (h i)
  generalize (x i).toNum conv = a at this
  generalize (y i).toNum conv = b at this
  cases this <;> simp

theorem colsSome_lacks {xs ys : List (Fin n → Cell)}
    (h : List.Forall₂ (fun x y => ∀ i, CellLacks conv (x i) (y i)) xs ys) :
    (∀ x ∈ xs, ∀ i, ((x i).toNum conv).isSome) ↔ ∀ x ∈ ys, ∀ i, ((x i).toNum conv).isSome := by
  induction h with
  | nil => simp
  | cons h _ ih => simp only [List.forall_mem_cons, colSome_lacks h, ih]

mutual
theorem shape_lacks {x y : Val n} (h : VLacks conv x y) : shape conv x = shape conv y := by
  match x, y, h with
  | _, _, .scalar s => rfl
  | _, _, .str s => rfl
  | .arr (.col a), .arr (.col b), .arr h =>
    unfold shape
    simp only [colSome_lacks h]
  | .arr (.cols a), .arr (.cols b), .arr h =>
    unfold shape
    simp only [colsSome_lacks h, List.Forall₂.length_eq h]
  | .list xs, .list ys, .list h =>
    unfold shape
    exact shapes_lacks h
  | _, _, .dict h => rfl
theorem shapes_lacks {xs ys : List (Val n)} (h : VLacksL conv xs ys) : shapes conv xs = shapes conv ys := by
  match xs, ys, h with
  | _, _, .nil => rfl
  | _, _, .cons h hs =>
    unfold shapes
    rw [shape_lacks h, shapes_lacks hs]
end

theorem anyArray_lacks (x y : Val n) (h : VLacks conv x y) :
    Both (VLacks conv) (anyArray conv x) (anyArray conv y) := by
  unfold anyArray
  rw [shape_lacks h]
  split
  · exact .error
  · exact .ok h

/-- Coefficients. -/
def CoefLacks (conv : Conv) (a b : CoefIn n) : Prop :=
  a.useModuli = b.useModuli ∧ Option.Rel (VLacks conv) a.coef.density b.coef.density ∧
    Option.Rel (VLacks conv) a.coef.primary b.coef.primary ∧ Option.Rel (VLacks conv) a.coef.secondary b.coef.secondary

theorem optArray_lacks (x y : Val n) (h : VLacks conv x y) :
    Both (Option.Rel (VLacks conv)) (optional (anyArray conv) x) (optional (anyArray conv) y) :=
  optional_both anyArray_lacks h

theorem parseModuliCoef_lacks (x y : Val n) (h : VLacks conv x y) :
    Both (CoefLacks conv) (parseModuliCoef conv x) (parseModuliCoef conv y) :=
  .bind (args_lacks _ h) fun _ _ hab => .bind (defaulted_both hab _ optArray_lacks .none) fun _ _ hd =>
    .bind (defaulted_both hab _ optArray_lacks .none) fun _ _ hk =>
    .bind (defaulted_both hab _ optArray_lacks .none) fun _ _ hg => .ok ⟨rfl, hd, hk, hg⟩

theorem parseVelocityCoef_lacks (x y : Val n) (h : VLacks conv x y) :
    Both (CoefLacks conv) (parseVelocityCoef conv x) (parseVelocityCoef conv y) :=
  .bind (args_lacks _ h) fun _ _ hab => .bind (defaulted_both hab _ optArray_lacks .none) fun _ _ hd =>
    .bind (defaulted_both hab _ optArray_lacks .none) fun _ _ hs =>
    .bind (defaulted_both hab _ optArray_lacks .none) fun _ _ hp => .ok ⟨rfl, hd, hp, hs⟩

theorem parseVpOverVsCoef_lacks (x y : Val n) (h : VLacks conv x y) :
    Both (CoefLacks conv) (parseVpOverVsCoef conv x) (parseVpOverVsCoef conv y) :=
  .bind (args_lacks _ h) fun _ _ hab => .bind (defaulted_both hab _ optArray_lacks .none) fun _ _ hd =>
    .bind (defaulted_both hab _ optArray_lacks .none) fun _ _ hr =>
    .bind (defaulted_both hab _ optArray_lacks .none) fun _ _ hk => .ok ⟨rfl, hd, hk, hr⟩

theorem parsePolyfitCoef_lacks (x y : Val n) (h : VLacks conv x y) :
    Both (CoefLacks conv) (parsePolyfitCoef conv x) (parsePolyfitCoef conv y) := by
  refine firstOf_both (fun p hp => ?_) h
  simp only [List.mem_cons, List.not_mem_nil, or_false] at hp
  rcases hp with rfl | rfl
  · exact parseModuliCoef_lacks
  · exact parseVelocityCoef_lacks

theorem toReal_lacks {x y : Val n} (h : VLacks conv x y) : toReal? conv x = toReal? conv y := by
  cases h <;> rfl

theorem allReal_lacks {xs ys : List (Val n)} (h : VLacksL conv xs ys) :
    allSome (toReal? conv) xs = allSome (toReal? conv) ys := by
  match xs, ys, h with
  | _, _, .nil => rfl
  | _, _, .cons h hs =>
    unfold allSome
    rw [toReal_lacks h, allReal_lacks hs]

/-- Cells that all are finite numbers were not emptied. -/
theorem allCells_lacks {xs ys : List Cell} (h : List.Forall₂ (CellLacks conv) xs ys) {a b : List ℝ}
    (ha : allSome (fun y => (Cell.toNum conv y).bind Num.toReal?) xs = some a)
    (hb : allSome (fun y => (Cell.toNum conv y).bind Num.toReal?) ys = some b) : a = b := by
  induction h generalizing a b with
  | nil => rw [ha] at hb; injection hb
  | @cons x y xs ys h _ ih =>
    simp only [allSome] at ha hb
    rcases h with rfl | ⟨rfl, -⟩
    · cases h1 : (Cell.toNum conv x).bind Num.toReal? with
      | none => rw [h1] at ha; cases ha
      | some u =>
        rw [h1] at ha hb
        cases h2 : allSome (fun y => (Cell.toNum conv y).bind Num.toReal?) xs with
        | none => rw [h2] at ha; cases ha
        | some v =>
          cases h3 : allSome (fun y => (Cell.toNum conv y).bind Num.toReal?) ys with
          | none => rw [h3] at hb; cases hb
          | some w =>
            rw [h2] at ha; rw [h3] at hb
            dsimp only at ha hb
            injection ha with ha; injection hb with hb
            rw [← ha, ← hb, ih h2 h3]
    · have : (Cell.toNum conv (.num .nan)).bind Num.toReal? = none := rfl
      rw [this] at ha
      cases ha

theorem ofFn_lacks {m : ℕ} {x y : Fin m → Cell} (h : ∀ i, CellLacks conv (x i) (y i)) :
    List.Forall₂ (CellLacks conv) (List.ofFn x) (List.ofFn y) := by
  induction m with
  | zero => simp
  | succ m ih =>
    rw [List.ofFn_succ, List.ofFn_succ]
    exact .cons (h 0) (ih fun i => h i.succ)

theorem toVector_lacks {x y : Val n} (h : VLacks conv x y) {a b : List ℝ} (ha : toVector? conv x = some a)
    (hb : toVector? conv y = some b) : a = b := by
  cases h with
  | list h =>
    simp only [toVector?] at ha hb
    rw [allReal_lacks h, hb] at ha
    injection ha with ha
    exact ha.symm
  | @arr u v h => match u, v, h with
    | .col u, .col v, h => exact allCells_lacks (ofFn_lacks h) ha hb
    | .cols _, .cols _, _ => cases ha
  | _ => cases ha

theorem allVectors_lacks {xs ys : List (Val n)} (h : VLacksL conv xs ys) {a b : List (List ℝ)}
    (ha : allSome (toVector? conv) xs = some a) (hb : allSome (toVector? conv) ys = some b) : a = b := by
  match xs, ys, h with
  | _, _, .nil => rw [ha] at hb; injection hb
  | _, _, .cons (x := x) (y := y) (xs := xs) (ys := ys) h hs =>
    simp only [allSome] at ha hb
    cases h1 : toVector? conv x with
    | none => rw [h1] at ha; cases ha
    | some u =>
      cases h2 : toVector? conv y with
      | none => rw [h2] at hb; cases hb
      | some v =>
        cases h3 : allSome (toVector? conv) xs with
        | none => rw [h1, h3] at ha; cases ha
        | some us =>
          cases h4 : allSome (toVector? conv) ys with
          | none => rw [h2, h4] at hb; cases hb
          | some vs =>
            rw [h1, h3] at ha; rw [h2, h4] at hb
            dsimp only at ha hb
            injection ha with ha; injection hb with hb
            rw [← ha, ← hb, toVector_lacks h h1 h2, allVectors_lacks hs h3 h4]

theorem toCoeffs_lacks {x y : Val n} (h : VLacks conv x y) {a b : Coeffs} (ha : toCoeffs? conv x = some a)
    (hb : toCoeffs? conv y = some b) : a = b := by
  cases h with
  | scalar s => rw [ha] at hb; injection hb
  | str s => rw [ha] at hb; injection hb
  | @arr u v h => match u, v, h with
    | .col u, .col v, h =>
      unfold toCoeffs? at ha hb
      simp only [toReal?] at ha hb
      cases h1 : toVector? conv (Cfg.arr (Arr.col u)) with
      | none => rw [h1] at ha; cases ha
      | some s =>
        cases h2 : toVector? conv (Cfg.arr (Arr.col v)) with
        | none => rw [h2] at hb; cases hb
        | some t =>
          rw [h1] at ha; rw [h2] at hb
          have e := toVector_lacks (.arr (a := .col u) (b := .col v) h) h1 h2
          subst e
          rw [ha] at hb
          injection hb
    | .cols _, .cols _, _ => simp [toCoeffs?, toReal?, toVector?] at ha
  | @list xs ys h =>
    unfold toCoeffs? at ha hb
    simp only [toReal?, toVector?] at ha hb
    rw [allReal_lacks h] at ha
    cases h1 : allSome (toReal? conv) ys with
    | some s =>
      rw [h1] at ha hb
      rw [ha] at hb
      injection hb
    | none =>
      rw [h1] at ha hb
      dsimp only at ha hb
      change (match allSome (toVector? conv) xs with
        | some rows => _
        | none => none) = _ at ha
      change (match allSome (toVector? conv) ys with
        | some rows => _
        | none => none) = _ at hb
      cases h2 : allSome (toVector? conv) xs with
      | none => rw [h2] at ha; cases ha
      | some s =>
        cases h3 : allSome (toVector? conv) ys with
        | none => rw [h3] at hb; cases hb
        | some t =>
          have e := allVectors_lacks h h2 h3
          subst e
          rw [h2] at ha; rw [h3] at hb
          rw [ha] at hb
          injection hb
  | dict h => simp [toCoeffs?, toReal?, toVector?] at ha

theorem orReject_ok {α : Type} {x : Option α} {a : α} (h : orReject x = .ok a) : x = some a := by
  cases x with
  | none => cases h
  | some b => injection h with h; rw [h]

theorem coeffsOf_lacks {x y : Option (Val n)} (h : Option.Rel (VLacks conv) x y) :
    Upto (· = ·) (coeffsOf conv x) (coeffsOf conv y) := by
  cases h with
  | none => exact .ok rfl
  | some h =>
    exact .bind (R := (· = ·)) (fun a b ha hb => toCoeffs_lacks h (orReject_ok ha) (orReject_ok hb)) fun a b hab =>
      .ok (by rw [hab])

theorem needCoeffsOf_lacks {x y : Option (Val n)} (h : Option.Rel (VLacks conv) x y) :
    Upto (· = ·) (needCoeffsOf conv x) (needCoeffsOf conv y) := by
  cases h with
  | none => exact .error_left
  | some h => exact fun a b ha hb => toCoeffs_lacks h (orReject_ok ha) (orReject_ok hb)

theorem needVectorOf_lacks {x y : Option (Val n)} (h : Option.Rel (VLacks conv) x y) :
    Upto (· = ·) (needVectorOf conv x) (needVectorOf conv y) := by
  cases h with
  | none => exact .error_left
  | some h => exact fun a b ha hb => toVector_lacks h (orReject_ok ha) (orReject_ok hb)

/-! ### Models -/

theorem parseFriable_lacks (x y : Val n) (h : VLacks conv x y) :
    BothM (parseFriable conv x) (parseFriable conv y) :=
  .bind (args_lacks _ h) fun _ _ hab => .bind (tagged_lacks hab _) fun _ _ _ =>
    .bind (defaulted_both hab _ col_lacks (Col.lacks_refl _)) fun _ _ h1 =>
    .bind (defaulted_both hab _ col_lacks (Col.lacks_refl _)) fun _ _ h2 =>
    .bind (defaulted_both hab _ optCol_lacks none_lacks) fun _ _ h3 => .ok (mkFriableModel_lacks h1 h2 h3)

theorem parsePatchy_lacks (x y : Val n) (h : VLacks conv x y) :
    BothM (parsePatchy conv x) (parsePatchy conv y) :=
  .bind (args_lacks _ h) fun _ _ hab => .bind (tagged_lacks hab _) fun _ _ _ =>
    .bind (defaulted_both hab _ parseArbitrary_lacks (Mat.lacks_refl _)) fun _ _ h0 =>
    .bind (defaulted_both hab _ col_lacks (Col.lacks_refl _)) fun _ _ h1 =>
    .bind (defaulted_both hab _ col_lacks (Col.lacks_refl _)) fun _ _ h2 =>
    .bind (defaulted_both hab _ col_lacks (Col.lacks_refl _)) fun _ _ h3 =>
    .bind (defaulted_both hab _ col_lacks (Col.lacks_refl _)) fun _ _ h4 =>
    .bind (defaulted_both hab _ optCol_lacks none_lacks) fun _ _ h5 =>
    .bind (defaulted_both hab _ col_lacks (Col.lacks_refl _)) fun _ _ h6 =>
    .ok (mkPatchyModel_lacks h0 h1 h2 h3 h4 h5 h6)

theorem parsePolyfit2d_lacks (x y : Val n) (h : VLacks conv x y) :
    UptoM (parsePolyfit2d conv x) (parsePolyfit2d conv y) := by
  unfold parsePolyfit2d
  refine .bind (args_lacks _ h).upto fun _ _ hab => .bind (tagged_lacks hab _).upto fun _ _ _ =>
    .bind (defaulted_both (R := Option.Rel (CoefLacks conv)) hab _
      (fun _ _ h => optional_both parsePolyfitCoef_lacks h) .none).upto fun k k' hk => ?_
  cases hk with
  | none => exact .ok (rfl : _ = _)
  | some hk =>
    obtain ⟨h1, h2, h3, h4⟩ := hk
    exact .bind (coeffsOf_lacks h2) fun _ _ e2 => .bind (coeffsOf_lacks h3) fun _ _ e3 =>
      .bind (coeffsOf_lacks h4) fun _ _ e4 => .ok (by rw [h1, e2, e3, e4]; exact (rfl : _ = _))

theorem parseSandstone_lacks (x y : Val n) (h : VLacks conv x y) :
    UptoM (parseSandstone conv x) (parseSandstone conv y) := by
  refine firstOf_upto (ps := [into .patchy (parsePatchy conv), into .friable (parseFriable conv)])
    (fun p hp => ?_) parsePolyfit2d_lacks h
  simp only [List.mem_cons, List.not_mem_nil, or_false] at hp
  rcases hp with rfl | rfl
  · exact into_both _ (fun _ _ h => h) parsePatchy_lacks
  · exact into_both _ (fun _ _ h => h) parseFriable_lacks

/-- Pressure dependencies before their coefficients are looked at. -/
def PDInLacks (conv : Conv) : PDIn n → PDIn n → Prop
  | .patchy f, .patchy g => f ⊑ g
  | .friable f, .friable g => f ⊑ g
  | .fit k a, .fit l b => k = l ∧ CoefLacks conv a b
  | _, _ => False

theorem parseFit_lacks (kind : FitKind) (x y : Val n) (h : VLacks conv x y) :
    Both (PDInLacks conv) (parseFit conv kind x) (parseFit conv kind y) := by
  refine .bind (args_lacks _ h) fun _ _ hab => .bind (tagged_lacks hab _) fun _ _ _ =>
    .bind (R := CoefLacks conv) (required_both hab _ ?_) fun _ _ hk => .ok ⟨rfl, hk⟩
  cases kind with
  | powerfit => exact parseVpOverVsCoef_lacks
  | _ => exact parsePolyfitCoef_lacks

theorem parsePDModel_lacks (x y : Val n) (h : VLacks conv x y) :
    Both (PDInLacks conv) (parsePDModel conv x) (parsePDModel conv y) := by
  refine firstOf_both (fun p hp => ?_) h
  simp only [List.mem_cons, List.not_mem_nil, or_false] at hp
  rcases hp with rfl | rfl | rfl | rfl | rfl | rfl
  · exact into_both _ (fun _ _ h => h) parsePatchy_lacks
  · exact into_both _ (fun _ _ h => h) parseFriable_lacks
  · exact parseFit_lacks _
  · exact parseFit_lacks _
  · exact parseFit_lacks _
  · exact parseFit_lacks _

theorem PDModel.lacks_refl' (x : PDModel n) : x ⊑ x := by
  cases x with
  | friable f => exact And.intro (Col.lacks_refl _) (And.intro (Col.lacks_refl _) (Col.lacks_refl _))
  | patchy f =>
    exact And.intro (Mat.lacks_refl _) (And.intro (Col.lacks_refl _) (And.intro (Col.lacks_refl _)
      (And.intro (Col.lacks_refl _) (And.intro (Col.lacks_refl _) (And.intro (Col.lacks_refl _) (Col.lacks_refl _))))))
  | _ => exact (rfl : _ = _)

theorem toModel_lacks {a b : PDIn n} (h : PDInLacks conv a b) : UptoM (a.toModel conv) (b.toModel conv) := by
  match a, b, h with
  | .patchy f, .patchy g, h => exact .ok h
  | .friable f, .friable g, h => exact .ok h
  | .fit k a, .fit _ b, ⟨rfl, h1, h2, h3, h4⟩ =>
    unfold PDIn.toModel
    refine .bind (needVectorOf_lacks h2) fun d d' hd => .bind (needVectorOf_lacks h3) fun p p' hp =>
      .bind (needVectorOf_lacks h4) fun s s' hs => ?_
    subst hd hp hs
    rw [h1]
    refine Upto.mono (Upto.eq_of _) fun x y hxy => ?_
    subst hxy
    exact PDModel.lacks_refl' x

/-! ### Adjustments -/

theorem parsePressureDependency_lacks (x y : Val n) (h : VLacks conv x y) :
    UptoM (parsePressureDependency conv x) (parsePressureDependency conv y) :=
  .bind (args_lacks _ h).upto fun _ _ hab => .bind (tagged_lacks hab _).upto fun _ _ _ =>
    .bind (required_both hab _ parsePDModel_lacks).upto fun _ _ hm => .bind (toModel_lacks hm) fun _ _ hk => .ok hk

theorem parseDepthTrend_lacks (x y : Val n) (h : VLacks conv x y) :
    UptoM (parseDepthTrend conv x) (parseDepthTrend conv y) :=
  .bind (args_lacks _ h).upto fun _ _ hab => .bind (tagged_lacks hab _).upto fun _ _ _ =>
    .bind (required_both hab _ col_lacks).upto fun _ _ hd =>
    .bind (required_both hab _ parsePolyfitCoef_lacks).upto fun _ _ hk =>
    .bind (defaulted_both hab _ optCol_lacks none_lacks).upto fun _ _ hr =>
    .bind (defaulted_both hab _ optCol_lacks none_lacks).upto fun _ _ hm =>
    .bind (needCoeffsOf_lacks hk.2.1) fun _ _ e1 => .bind (needCoeffsOf_lacks hk.2.2.1) fun _ _ e2 =>
    .bind (needCoeffsOf_lacks hk.2.2.2) fun _ _ e3 => .ok (And.intro hd (And.intro hr (And.intro hm
      (And.intro hk.1 (by rw [e1, e2, e3])))))

/-- What only a depth trend looks like. -/
def TrendShape (v : Val n) : Prop :=
  (∃ xs, v = .dict xs ∧ "depth" ∈ xs.map (·.1)) ∨
    ∃ x y rest, v = .list (x :: y :: rest) ∧ ∀ s, y ≠ .str s

/-- What no depth trend looks like. -/
def DependencyShape (v : Val n) : Prop :=
  (∃ xs, v = .dict xs ∧ ∀ k ∈ xs.map (·.1), k = "model" ∨ k = "type") ∨
    ∃ xs, v = .list xs ∧ ∀ x y rest, xs = x :: y :: rest → ∃ s, y = .str s

theorem shapes_differ {v : Val n} (h : TrendShape v) (h' : DependencyShape v) : False := by
  rcases h with ⟨xs, rfl, hx⟩ | ⟨x, y, r, rfl, hy⟩
  · rcases h' with ⟨ys, e, hy⟩ | ⟨ys, e, -⟩
    · injection e with e
      subst e
      rcases hy _ hx with h | h <;> exact absurd h (by decide)
    · cases e
  · rcases h' with ⟨ys, e, -⟩ | ⟨ys, e, hy'⟩
    · cases e
    · injection e with e
      obtain ⟨s, hs⟩ := hy' x y r e.symm
      exact hy s hs

theorem dependencyShape_lacks {v w : Val n} (h : VLacks conv v w) (hv : DependencyShape v) : DependencyShape w := by
  rcases hv with ⟨xs, rfl, hx⟩ | ⟨xs, rfl, hx⟩
  · cases h with
    | dict h => exact .inl ⟨_, rfl, by rw [← keys_vlacks h]; exact hx⟩
  · cases h with
    | list h =>
      refine .inr ⟨_, rfl, fun x y r e => ?_⟩
      subst e
      match xs, h with
      | _, .cons _ (.cons h _) =>
        obtain ⟨s, hs⟩ := hx _ _ _ rfl
        subst hs
        cases h
        exact ⟨s, rfl⟩

theorem trendShape_lacks {v w : Val n} (h : VLacks conv v w) (hv : TrendShape v) : TrendShape w := by
  rcases hv with ⟨xs, rfl, hx⟩ | ⟨x, y, r, rfl, hy⟩
  · cases h with
    | dict h => exact .inl ⟨_, rfl, by rw [← keys_vlacks h]; exact hx⟩
  · cases h with
    | list h => match h with
      | .cons _ (.cons h _) =>
        refine .inr ⟨_, _, _, rfl, fun s hs => ?_⟩
        subst hs
        cases h
        exact hy s rfl

theorem mem_of_lookup {xs : List (String × Val n)} {k : String} {v : Val n} (h : xs.lookup k = some v) :
    k ∈ xs.map (·.1) := by
  induction xs with
  | nil => cases h
  | cons x xs ih =>
    obtain ⟨k', x⟩ := x
    simp only [List.lookup] at h
    cases hk : k == k' with
    | true => simp [(beq_iff_eq.mp hk)]
    | false => rw [hk] at h; simp [ih h]

theorem args_coef {fields : List String} {s : String} {e : Except Err (Args n)} (h : args fields (.str s : Val n) = e) :
    e = reject := by
  subst h; rfl

theorem polyfitCoef_str (s : String) (r : CoefIn n) : parsePolyfitCoef conv (.str s) ≠ .ok r := by
  unfold parsePolyfitCoef firstOf parseModuliCoef parseVelocityCoef
  simp [args, named, firstOf, bind_error]

theorem depthTrend_shape {v : Val n} {a : Adjustment n} (h : parseDepthTrend conv v = .ok a) : TrendShape v := by
  unfold parseDepthTrend at h
  obtain ⟨ar, hargs, h⟩ := bind_eq_ok.mp h
  obtain ⟨_, -, h⟩ := bind_eq_ok.mp h
  obtain ⟨d, hd, h⟩ := bind_eq_ok.mp h
  obtain ⟨k, hk, -⟩ := bind_eq_ok.mp h
  unfold required at hd hk
  unfold args at hargs
  match v, hargs with
  | .dict xs, hargs =>
    simp only [named] at hargs
    split at hargs
    · injection hargs with hargs
      subst hargs
      dsimp only at hd
      cases hl : xs.lookup "depth" with
      | none => rw [hl] at hd; cases hd
      | some y => exact .inl ⟨xs, rfl, mem_of_lookup hl⟩
    · cases hargs
  | .list xs, hargs =>
    simp only [named] at hargs
    split at hargs
    · rename_i ys e
      split at e
      · injection e with e
        subst e
        split at hargs
        · injection hargs with hargs
          subst hargs
          match xs with
          | [] => simp at hd
          | [x] => simp [List.lookup] at hk
          | x :: y :: r =>
            refine .inr ⟨x, y, r, rfl, fun s hs => ?_⟩
            subst hs
            simp [List.lookup] at hk
            exact polyfitCoef_str s k hk
        · cases hargs
      · cases e
    · cases hargs

theorem pressureDependency_shape {v : Val n} {a : Adjustment n} (h : parsePressureDependency conv v = .ok a) :
    DependencyShape v := by
  unfold parsePressureDependency at h
  obtain ⟨ar, hargs, h⟩ := bind_eq_ok.mp h
  obtain ⟨_, ht, h⟩ := bind_eq_ok.mp h
  unfold tagged defaulted at ht
  unfold args at hargs
  match v, hargs with
  | .dict xs, hargs =>
    simp only [named] at hargs
    split at hargs
    · rename_i hall
      refine .inl ⟨xs, rfl, fun k hk => ?_⟩
      obtain ⟨x, hx, rfl⟩ := List.mem_map.mp hk
      simpa using List.all_eq_true.mp hall x hx
    · cases hargs
  | .list xs, hargs =>
    simp only [named] at hargs
    split at hargs
    · rename_i ys e
      split at e
      · injection e with e
        subst e
        split at hargs
        · injection hargs with hargs
          subst hargs
          refine .inr ⟨xs, rfl, fun x y r e => ?_⟩
          subst e
          simp [List.lookup] at ht
          cases y with
          | str s => exact ⟨s, rfl⟩
          | _ => cases ht
        · cases hargs
      · cases e
    · cases hargs

theorem parseAdjustment_lacks (x y : Val n) (h : VLacks conv x y) :
    UptoM (parseAdjustment conv x) (parseAdjustment conv y) := by
  intro a b ha hb
  simp only [parseAdjustment, firstOf] at ha hb
  cases h1 : parseDepthTrend conv x with
  | ok a' =>
    rw [h1] at ha
    injection ha with ha
    subst ha
    cases h2 : parseDepthTrend conv y with
    | ok b' =>
      rw [h2] at hb
      injection hb with hb
      subst hb
      exact parseDepthTrend_lacks x y h _ _ h1 h2
    | error e =>
      rw [h2] at hb
      cases h3 : parsePressureDependency conv y with
      | ok b' => exact (shapes_differ (trendShape_lacks h (depthTrend_shape h1)) (pressureDependency_shape h3)).elim
      | error e => rw [h3] at hb; cases hb
  | error e =>
    rw [h1] at ha
    cases h2 : parsePressureDependency conv x with
    | error e => rw [h2] at ha; cases ha
    | ok a' =>
      rw [h2] at ha
      injection ha with ha
      subst ha
      cases h3 : parseDepthTrend conv y with
      | ok b' =>
        exact (shapes_differ (depthTrend_shape h3) (dependencyShape_lacks h (pressureDependency_shape h2))).elim
      | error e =>
        rw [h3] at hb
        cases h4 : parsePressureDependency conv y with
        | error e => rw [h4] at hb; cases hb
        | ok b' =>
          rw [h4] at hb
          injection hb with hb
          subst hb
          exact parsePressureDependency_lacks x y h _ _ h2 h4

/-! ### Sections -/

theorem parsePressure_lacks {x y : Val n} (h : VLacks conv x y) :
    Upto (fun p q : PressureIn n => p.overburden ⊑ q.overburden ∧ p.reference ⊑ q.reference ∧ p.fluid ⊑ q.fluid ∧
      p.maxEffective ⊑ q.maxEffective ∧ p.rock ⊑ q.rock) (parsePressure conv x) (parsePressure conv y) :=
  .bind (args_lacks _ h).upto fun _ _ hab =>
    .bind (defaulted_both hab _ col_lacks (Col.lacks_refl _)).upto fun _ _ h1 =>
    .bind (defaulted_both hab _ col_lacks (Col.lacks_refl _)).upto fun _ _ h2 =>
    .bind (defaulted_both hab _ optCol_lacks (OPE.Option.lacks_refl _)).upto fun _ _ h3 =>
    .bind (defaulted_both hab _ optCol_lacks none_lacks).upto fun _ _ h4 =>
    .bind (defaulted_both hab _ optCol_lacks none_lacks).upto fun _ _ h5 => .ok ⟨h1, h2, h3, h4, h5⟩

theorem parseDryRock_lacks {x y : Val n} (h : VLacks conv x y) :
    Upto (fun p q : DryRockIn n => p.model ⊑ q.model ∧ p.porosity ⊑ q.porosity ∧ p.adjustments ⊑ q.adjustments)
      (parseDryRock conv x) (parseDryRock conv y) :=
  .bind (args_lacks _ h).upto fun _ _ hab =>
    .bind (defaulted_upto (R := (· ⊑ ·)) hab _ parseSandstone_lacks (rfl : _ = _)) fun _ _ h1 =>
    .bind (defaulted_both hab _ col_lacks (Col.lacks_refl _)).upto fun _ _ h2 =>
    .bind (R := (· ⊑ ·)) (defaulted_upto (R := (· ⊑ ·)) hab _ (fun _ _ h => listOf_upto parseAdjustment_lacks h) .nil)
      fun _ _ h3 => .ok ⟨h1, h2, h3⟩

theorem toMinerals_lacks {l l' : List (FluidSpec n)} (h : l ⊑ l') : UptoM (toMinerals l) (toMinerals l') := by
  induction h with
  | nil => exact .ok .nil
  | @cons x y xs ys h _ ih =>
    unfold toMinerals
    refine .bind (R := (· ⊑ ·)) ?_ fun a b hab => .bind ih fun as bs habs => .ok (.cons hab habs)
    obtain ⟨k, m, f⟩ := x
    obtain ⟨k', m', f'⟩ := y
    obtain ⟨h1, -, h3⟩ := h
    unfold toMineral
    match k, k', h1 with
    | .material m, .material m', h1 => exact .ok (And.intro h1 h3)
    | .oil .., .oil .., _ => exact .error_left
    | .gas .., .gas .., _ => exact .error_left
    | .brine .., .brine .., _ => exact .error_left
    | .condensate .., .condensate .., _ => exact .error_left
    | .carbonDioxide .., .carbonDioxide .., _ => exact .error_left

theorem parseSections_lacks {m m' f f' d d' p p' : Val n} (hm : VLacks conv m m') (hf : VLacks conv f f')
    (hd : VLacks conv d d') (hp : VLacks conv p p') :
    UptoM (parseSections conv m f d p) (parseSections conv m' f' d' p') := by
  unfold parseSections
  refine .bind (parseMinerals_lacks hm).upto fun _ _ h1 => .bind (parseFluids_lacks hf) fun _ _ h2 =>
    .bind (parseDryRock_lacks hd) fun _ _ h3 => .bind (parsePressure_lacks hp) fun _ _ h4 =>
    .bind (toMinerals_lacks h1) fun _ _ h5 => .ok ?_
  obtain ⟨a1, a2, a3, a4, a5, a6⟩ := h2
  obtain ⟨b1, b2, b3⟩ := h3
  obtain ⟨c1, c2, c3, c4, c5⟩ := h4
  exact Sections.Lacks.mk h5 a1 a2 a3 a4 a5 a6 b1 b2 b3 c1 c2 c3 c4 c5

/-! ### Columns -/

theorem cellLacks_refl (x : Cell) : CellLacks conv x x := .inl rfl

theorem arrLacks_refl (a : Arr n) : ArrLacks conv a a := by
  cases a with
  | col x => exact fun i => cellLacks_refl _
  | cols xs =>
    unfold ArrLacks
    induction xs with
    | nil => exact .nil
    | cons x xs ih => exact .cons (fun i => cellLacks_refl _) ih

theorem emptied_isSome {r r' : DataRow} (h : Emptied conv r r') (s : String) : (r s).isSome = (r' s).isSome := by
  rcases h s with h | ⟨h, c, x, h', -⟩
  · rw [h]
  · rw [h, h']; rfl

theorem emptied_getD {r r' : DataRow} (h : Emptied conv r r') (s : String) (d : Cell) :
    CellLacks conv ((r s).getD d) ((r' s).getD d) := by
  rcases h s with h | ⟨h, c, x, h', hx⟩
  · rw [h]; exact .inl rfl
  · rw [h, h']; exact .inr ⟨rfl, x, hx⟩

theorem frame_lacks {rows rows' : Fin n → DataRow} (h : ∀ i, Emptied conv (rows i) (rows' i)) {S : Type}
    (v : Cfg S (Arr n)) : Upto (ArrLacks conv) (Frame.get (frameOf rows) v) (Frame.get (frameOf rows') v) := by
  have hcol : ∀ s, (∀ i, (rows i s).isSome) ↔ ∀ i, (rows' i s).isSome := fun s =>
    forall_congr' fun i => by rw [emptied_isSome (h i)]
  have hsome : ∀ s, ((frameOf rows).column s).isSome = ((frameOf rows').column s).isSome := by
    intro s
    unfold frameOf
    by_cases hs : ∀ i, (rows i s).isSome
    · simp only [dif_pos hs, dif_pos ((hcol s).mp hs), Option.isSome_some]
    · simp only [dif_neg hs, dif_neg (fun h' => hs ((hcol s).mpr h')), Option.isSome_none]
  unfold Frame.get
  cases v with
  | str s =>
    dsimp only
    unfold frameOf
    by_cases hs : ∀ i, (rows i s).isSome
    · simp only [dif_pos hs, dif_pos ((hcol s).mp hs)]
      refine .ok fun i => ?_
      have h1 := Option.get_eq_getD (rows i s) (fallback := Cell.num .nan) (h := hs i)
      have h2 := Option.get_eq_getD (rows' i s) (fallback := Cell.num .nan) (h := (hcol s).mp hs i)
      have h3 := emptied_getD (h i) s (.num .nan)
      rw [← h1, ← h2] at h3
      exact h3
    · simp only [dif_neg hs]
      exact .error_left
  | list xs =>
    dsimp only
    cases Cfg.strings xs with
    | none => exact .error_left
    | some ss =>
      dsimp only
      simp only [hsome]
      split
      · refine .ok ?_
        change List.Forall₂ _ _ _
        rw [List.forall₂_map_left_iff, List.forall₂_map_right_iff]
        exact List.forall₂_same.mpr fun s _ i => emptied_getD (h i) s _
      · exact .error_left
  | _ => exact .error_left

theorem wrapColumn_lacks {α β : Type} {R : α → β → Prop} {x : Except Err α} {y : Except Err β} (h : Upto R x y) :
    Upto R (wrapColumnError x) (wrapColumnError y) := by
  intro a b ha hb
  have e1 : ∀ {γ : Type} {z : Except Err γ} {r : γ}, wrapColumnError z = .ok r → z = .ok r := by
    intro γ z r hz
    unfold wrapColumnError at hz
    split at hz <;> first | exact hz | cases hz
  exact h a b (e1 ha) (e1 hb)

mutual
theorem insert_lacks {rows rows' : Fin n → DataRow} (h : ∀ i, Emptied conv (rows i) (rows' i)) :
    (x : Val n) → Upto (VLacks conv) (insertFrame (frameOf rows) x) (insertFrame (frameOf rows') x)
  | .scalar s => .ok (.scalar s)
  | .str s => .ok (.str s)
  | .arr a => .ok (.arr (arrLacks_refl a))
  | .list xs => by
    unfold insertFrame
    exact .bind (insertL_lacks h xs) fun a b hab => .ok (.list hab)
  | .dict [] => .ok (.dict .nil)
  | .dict [(k, v)] => by
    unfold insertFrame
    by_cases hk : k = "column"
    · subst hk
      rw [if_pos rfl, if_pos rfl]
      exact .bind (wrapColumn_lacks (frame_lacks h v)) fun a b hab => .ok (.arr hab)
    · rw [if_neg hk, if_neg hk]
      exact .bind (insert_lacks h v) fun a b hab => .ok (.dict (.cons hab .nil))
  | .dict (a :: b :: xs) => by
    unfold insertFrame
    exact .bind (insertD_lacks h (a :: b :: xs)) fun a b hab => .ok (.dict hab)
theorem insertL_lacks {rows rows' : Fin n → DataRow} (h : ∀ i, Emptied conv (rows i) (rows' i)) :
    (xs : List (Val n)) →
      Upto (VLacksL conv) (insertFrameList (frameOf rows) xs) (insertFrameList (frameOf rows') xs)
  | [] => .ok .nil
  | x :: xs => by
    unfold insertFrameList
    exact .bind (insert_lacks h x) fun a b hab => .bind (insertL_lacks h xs) fun as bs habs => .ok (.cons hab habs)
theorem insertD_lacks {rows rows' : Fin n → DataRow} (h : ∀ i, Emptied conv (rows i) (rows' i)) :
    (xs : List (String × Val n)) →
      Upto (VLacksD conv) (insertFrameDict (frameOf rows) xs) (insertFrameDict (frameOf rows') xs)
  | [] => .ok .nil
  | (k, x) :: xs => by
    unfold insertFrameDict
    exact .bind (insert_lacks h x) fun a b hab => .bind (insertD_lacks h xs) fun as bs habs => .ok (.cons hab habs)
end

/-- **C150, reading.** If entries of the data file are emptied, the configuration is read with the same numbers, some
of them missing, or one of the two is refused. -/
theorem C150_reading {rows rows' : Fin n → DataRow} (h : ∀ i, Emptied conv (rows i) (rows' i)) (cfg : Yaml)
    {s t : Sections n} (hs : reading conv cfg n rows = .ok s) (ht : reading conv cfg n rows' = .ok t) : s ⊑ t := by
  have key : UptoM (reading conv cfg n rows) (reading conv cfg n rows') := by
    unfold reading readWith
    cases cfg with
    | dict xs =>
      dsimp only
      exact .seq' (.bind (insert_lacks h _) fun _ _ h1 => .bind (insert_lacks h _) fun _ _ h2 =>
        .bind (insert_lacks h _) fun _ _ h3 => .bind (insert_lacks h _) fun _ _ h4 => parseSections_lacks h1 h2 h3 h4)
    | _ => exact .error_left
  exact key s t hs ht

end OPE.Parse
