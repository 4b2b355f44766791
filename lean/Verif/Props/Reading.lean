import Verif.Spec.Reading
import Verif.Props.Indices

/-!
# C152: how single values of a configuration are read
-/

namespace OPE.Parse

open Classical

variable {n : ℕ} {conv : Conv}

theorem orReject_eq_ok {α : Type} {o : Option α} {a : α} : orReject o = .ok a ↔ o = some a := by
  cases o <;> simp [orReject, reject]

theorem scalar_toNum_iff {s : Scalar} {x : Num} :
    s.toNum = some x ↔ Means (n := n) conv (.scalar s) x := by
  constructor
  · intro h
    match s, h with
    | .num y, h => simp only [Scalar.toNum, Option.some.injEq] at h; subst h; exact .number _
    | .bool Bool.true, h => simp [Scalar.toNum] at h; subst h; exact .true
    | .bool Bool.false, h => simp [Scalar.toNum] at h; subst h; exact .false
  · rintro (_ | _ | _) <;> simp [Scalar.toNum]

theorem str_iff {s : String} {x : Num} : conv.floatOf s = some x ↔ Means (n := n) conv (.str s) x :=
  ⟨.text, fun h => by cases h; assumption⟩

theorem cell_iff {cell : Cell} {x : Num} : Cell.toNum conv cell = some x ↔ CellMeans conv cell x := by
  constructor
  · intro h
    match cell, h with
    | .num y, h => simp only [Cell.toNum, Option.some.injEq] at h; subst h; exact .number _
    | .text s, h => exact .text h
  · rintro (_ | h) <;> simp_all [Cell.toNum]

theorem entry_iff {v : Val n} {x : Num} : Entry.toNum conv v = some x ↔ EntryMeans conv v x := by
  constructor
  · intro h
    match v, h with
    | .scalar .null, h => simp [Entry.toNum] at h; subst h; exact .missing
    | .scalar (.num y), h => exact .value (scalar_toNum_iff.mp h)
    | .scalar (.bool b), h => exact .value (scalar_toNum_iff.mp h)
    | .scalar .other, h => exact .value (scalar_toNum_iff.mp h)
    | .str s, h => exact .value (.text h)
    | .arr _, h => simp [Entry.toNum] at h
    | .list _, h => simp [Entry.toNum] at h
    | .dict _, h => simp [Entry.toNum] at h
  · rintro (_ | ⟨_ | _ | _ | h⟩) <;> simp_all [Entry.toNum, Scalar.toNum]

theorem toCol_iff {v : Val n} {x : Col n} : toCol conv v = .ok x ↔ PerRowMeans conv v x := by
  constructor
  · intro h
    match v, h with
    | .scalar s, h =>
      obtain ⟨y, hy, h⟩ := bind_eq_ok.mp h
      cases h
      exact .single (scalar_toNum_iff.mp (orReject_eq_ok.mp hy))
    | .str s, h =>
      obtain ⟨y, hy, h⟩ := bind_eq_ok.mp h
      cases h
      exact .single (.text (orReject_eq_ok.mp hy))
    | .arr (.col cells), h =>
      exact .column fun i => cell_iff.mp (orReject_eq_ok.mp (vec_ok_iff.mp h i))
    | .arr (.cols _), h => simp [toCol, reject] at h
    | .dict _, h => simp [toCol, reject] at h
    | .list xs, h =>
      rw [toCol] at h
      split_ifs at h with hl
      rw [vec_ok_iff] at h
      have : xs = List.ofFn fun i : Fin n => xs[i.val]'(by omega) := by
        apply List.ext_getElem <;> simp [hl]
      have key : PerRowMeans conv (.list (List.ofFn fun i : Fin n => xs[i.val]'(by omega))) x :=
        .list fun i => entry_iff.mp (orReject_eq_ok.mp (h i))
      rwa [← this] at key
  · rintro (h | h | h)
    · cases h with
      | text h => simp [toCol, h, orReject, bind_ok]
      | _ => simp [toCol, Scalar.toNum, orReject, bind_ok]
    · exact vec_ok_iff.mpr fun i => orReject_eq_ok.mpr (cell_iff.mpr (h i))
    · rw [toCol, dif_pos (by simp)]
      refine vec_ok_iff.mpr fun i => orReject_eq_ok.mpr (entry_iff.mpr ?_)
      simpa using h i

theorem toCol_error {v : Val n} {e : Err} (h : toCol conv v = .error e) : e = .valueError := by
  have hr : ∀ {α : Type} {o : Option α} {e : Err}, orReject o = .error e → e = .valueError := by
    intro α o e h; cases o <;> simp_all [orReject, reject]
  match v, h with
  | .scalar s, h =>
    unfold toCol at h
    cases hs : s.toNum with
    | none => simp [hs, orReject, reject, bind_error] at h; exact h.symm
    | some y => simp [hs, orReject, bind_ok] at h
  | .str s, h =>
    unfold toCol at h
    cases hs : conv.floatOf s with
    | none => simp [hs, orReject, reject, bind_error] at h; exact h.symm
    | some y => simp [hs, orReject, bind_ok] at h
  | .arr (.col cells), h => obtain ⟨i, hi⟩ := vec_error h; exact hr hi
  | .arr (.cols _), h => simp [toCol, reject] at h; exact h.symm
  | .dict _, h => simp [toCol, reject] at h; exact h.symm
  | .list xs, h =>
    rw [toCol] at h
    split_ifs at h with hl
    · obtain ⟨i, hi⟩ := vec_error h; exact hr hi
    · simp [reject] at h; exact h.symm

theorem toFloat_iff {v : Val n} {x : Num} : toFloat conv v = .ok x ↔ NumberMeans conv v x := by
  constructor
  · intro h
    match v, h with
    | .scalar s, h => exact .single (scalar_toNum_iff.mp (orReject_eq_ok.mp h))
    | .str s, h => exact .single (.text (orReject_eq_ok.mp h))
    | .arr (.col cells), h =>
      rw [toFloat] at h
      split_ifs at h with hn
      subst hn
      exact .column rfl fun i => by
        rw [Subsingleton.elim i 0]; exact cell_iff.mp (orReject_eq_ok.mp h)
    | .arr (.cols _), h => simp [toFloat, reject] at h
    | .dict _, h => simp [toFloat, reject] at h
    | .list _, h => simp [toFloat, reject] at h
  · rintro (h | ⟨rfl, h⟩)
    · cases h with
      | text h => simp [toFloat, h, orReject]
      | _ => simp [toFloat, Scalar.toNum, orReject]
    · rw [toFloat, dif_pos rfl]; exact orReject_eq_ok.mpr (cell_iff.mpr (h _))

theorem numToInt_iff {x : Num} {z : ℤ} : numToInt x = some z ↔ Truncated x z := by
  cases x with
  | fin r =>
    obtain ⟨y, hy, hd⟩ := numToInt_dropped r
    rw [hy]
    constructor
    · intro h; cases h; exact ⟨r, rfl, hd⟩
    · rintro ⟨r', e, h⟩; cases e; rw [Dropped.unique hd h]
  | _ => simp [numToInt, Truncated]

theorem toInt_iff {v : Val n} {z : ℤ} : toInt conv v = .ok z ↔ WholeMeans conv v z := by
  constructor
  · intro h
    match v, h with
    | .scalar (.num x), h => exact .number (numToInt_iff.mp (by simpa [Scalar.toNum] using orReject_eq_ok.mp h))
    | .scalar (.bool Bool.true), h =>
      simp [toInt, Scalar.toNum, numToInt, orReject] at h; subst h; exact .true
    | .scalar (.bool Bool.false), h =>
      simp [toInt, Scalar.toNum, numToInt, orReject] at h; subst h; exact .false
    | .scalar .null, h => simp [toInt, Scalar.toNum, orReject, reject] at h
    | .scalar .other, h => simp [toInt, Scalar.toNum, orReject, reject] at h
    | .str s, h => exact .text (orReject_eq_ok.mp h)
    | .arr (.col cells), h =>
      rw [toInt] at h
      split_ifs at h with hn
      subst hn
      rw [orReject_eq_ok] at h
      have hall : ∀ i, cells i = cells 0 := fun i => by rw [Subsingleton.elim i 0]
      cases hc : cells 0 with
      | num y =>
        simp only [Fin.zero_eta, hc] at h
        exact .cellNumber rfl (fun i => (hall i).trans hc) (numToInt_iff.mp h)
      | text s =>
        simp only [Fin.zero_eta, hc] at h
        exact .cellText rfl (fun i => (hall i).trans hc) h
    | .arr (.cols _), h => simp [toInt, reject] at h
    | .dict _, h => simp [toInt, reject] at h
    | .list _, h => simp [toInt, reject] at h
  · intro h
    cases h with
    | number h => simp [toInt, Scalar.toNum, numToInt_iff.mpr h, orReject]
    | «true» => simp [toInt, Scalar.toNum, numToInt, orReject]
    | «false» => simp [toInt, Scalar.toNum, numToInt, orReject]
    | text h => simp [toInt, h, orReject]
    | cellNumber h hc hx => subst h; simp [toInt, hc, numToInt_iff.mpr hx, orReject]
    | cellText h hc hx => subst h; simp [toInt, hc, hx, orReject]

theorem toBool_iff {v : Val n} {b : Bool} : toBool v = .ok b ↔ YesNoMeans v b := by
  constructor
  · intro h
    match v, h with
    | .scalar (.bool b'), h => simp [toBool] at h; subst h; exact .bool _
    | .scalar (.num x), h =>
      rw [toBool] at h
      split_ifs at h with h1 h2
      · cases h; subst h1; exact .one
      · cases h; subst h2; exact .zero
    | .scalar .null, h => simp [toBool, reject] at h
    | .scalar .other, h => simp [toBool, reject] at h
    | .str s, h =>
      rw [toBool] at h
      split_ifs at h with h1 h2
      · cases h; exact .yes h1
      · cases h; exact .no h2
    | .arr _, h => simp [toBool, reject] at h
    | .dict _, h => simp [toBool, reject] at h
    | .list _, h => simp [toBool, reject] at h
  · intro h
    cases h with
    | bool b => rfl
    | one => simp [toBool]
    | zero => simp [toBool]
    | yes h => rw [toBool, if_pos h]
    | no h =>
      have : ∀ t ∈ noWords, t ∉ yesWords := by decide
      rw [toBool, if_neg (this _ h), if_pos h]

theorem toMethod_iff {v : Val n} {m : MixMethod} : toMethod v = .ok m ↔ MethodMeans v m := by
  constructor
  · intro h
    match v, h with
    | .str s, h =>
      rw [toMethod] at h
      split_ifs at h with h1 h2
      · cases h; subst h1; exact .wood
      · cases h; subst h2; exact .brie
  · rintro (_ | _) <;> simp [toMethod]

theorem toProvider_iff {v : Val n} {m : Provider} : toProvider v = .ok m ↔ ProviderMeans v m := by
  constructor
  · intro h
    match v, h with
    | .str s, h =>
      rw [toProvider] at h
      split_ifs at h with h1 h2 h3
      · cases h; subst h1; exact .default
      · cases h; subst h2; exact .batzleWang
      · cases h; subst h3; exact .spanWagner
  · rintro (_ | _ | _) <;> simp [toProvider]

theorem cells_some {cells : Fin n → Cell} :
    (∀ i, ((cells i).toNum conv).isSome) ↔ ∀ i, ∃ x, CellMeans conv (cells i) x := by
  refine forall_congr' fun i => ?_
  rw [Option.isSome_iff_exists]
  exact exists_congr fun x => cell_iff

mutual
theorem shape_sound : ∀ (v : Val n) (s : List ℕ), shape conv v = some s → HasShape conv v s
  | .scalar .null, s, h => by simp [shape] at h; subst h; exact .missing
  | .scalar (.num x), s, h => by simp [shape, Scalar.toNum] at h; subst h; exact .single (.number x)
  | .scalar (.bool Bool.true), s, h => by simp [shape, Scalar.toNum] at h; subst h; exact .single .true
  | .scalar (.bool Bool.false), s, h => by simp [shape, Scalar.toNum] at h; subst h; exact .single .false
  | .scalar .other, s, h => by simp [shape, Scalar.toNum] at h
  | .str t, s, h => by
    simp only [shape, Option.map_eq_some_iff] at h
    obtain ⟨x, hx, rfl⟩ := h
    exact .single (.text hx)
  | .arr (.col cells), s, h => by
    rw [shape] at h
    split_ifs at h with hc
    cases h
    exact .column (cells_some.mp hc)
  | .arr (.cols cols), s, h => by
    rw [shape] at h
    split_ifs at h with hc
    cases h
    exact .columns fun cells hm => cells_some.mp (hc cells hm)
  | .list [], s, h => by simp [shape, shapes] at h; subst h; exact .empty
  | .list (v :: vs), s, h => by
    rw [shape] at h
    obtain ⟨t, rfl, ht⟩ := shapes_sound (v :: vs) s (by simp) h
    exact .list (by simp) ht
  | .dict _, s, h => by simp [shape] at h
theorem shapes_sound : ∀ (vs : List (Val n)) (s : List ℕ), vs ≠ [] → shapes conv vs = some s →
    ∃ t, s = vs.length :: t ∧ ∀ v ∈ vs, HasShape conv v t
  | [], s, hne, h => absurd rfl hne
  | [v], s, _, h => by
    rw [shapes, shapes] at h
    cases hv : shape conv v with
    | none => simp [hv] at h
    | some t =>
      simp [hv] at h
      subst h
      exact ⟨t, rfl, by simpa using shape_sound v t hv⟩
  | v :: w :: vs, s, _, h => by
    rw [shapes] at h
    cases hv : shape conv v with
    | none => simp [hv] at h
    | some t =>
      cases hs : shapes conv (w :: vs) with
      | none => simp [hv, hs] at h
      | some q =>
        obtain ⟨t', rfl, ht⟩ := shapes_sound (w :: vs) q (by simp) hs
        simp [hv, hs] at h
        obtain ⟨rfl, rfl⟩ := h
        refine ⟨t, rfl, ?_⟩
        have hsv := shape_sound v t hv
        rintro u hu
        rcases List.mem_cons.mp hu with e | hu
        · rw [e]; exact hsv
        · exact ht u hu
end

theorem shapes_of {s : List ℕ} : ∀ (vs : List (Val n)), vs ≠ [] → (∀ v ∈ vs, shape conv v = some s) →
    shapes conv vs = some (vs.length :: s)
  | [], h, _ => absurd rfl h
  | [v], _, h => by simp [shapes, h v (by simp)]
  | v :: w :: vs, _, h => by
    rw [shapes, h v (by simp), shapes_of (w :: vs) (by simp) fun u hu => h u (List.mem_cons_of_mem _ hu)]
    simp

theorem shape_complete {v : Val n} {s : List ℕ} (h : HasShape conv v s) : shape conv v = some s := by
  induction h with
  | missing => simp [shape]
  | single h =>
    cases h with
    | text h => simp [shape, h]
    | _ => simp [shape, Scalar.toNum]
  | column h => rw [shape, if_pos (cells_some.mpr h)]
  | columns h => rw [shape, if_pos fun cells hm => cells_some.mpr (h cells hm)]
  | empty => simp [shape, shapes]
  | list hne h ih => rw [shape]; exact shapes_of _ hne ih

theorem shape_iff {v : Val n} {s : List ℕ} : shape conv v = some s ↔ HasShape conv v s :=
  ⟨shape_sound v s, shape_complete⟩

theorem anyArray_iff {v w : Val n} : anyArray conv v = .ok w ↔ w = v ∧ ∃ s, HasShape conv v s := by
  unfold anyArray
  cases h : shape conv v with
  | none =>
    simp only [reject, reduceCtorEq, false_iff, not_and, not_exists]
    intro _ s hs
    rw [shape_iff.mpr hs] at h; cases h
  | some s =>
    simp only [Except.ok.injEq]
    exact ⟨fun e => ⟨e.symm, s, shape_iff.mp h⟩, fun e => e.1.symm⟩

theorem num_toReal_iff {x : Num} {r : ℝ} : Num.toReal? x = some r ↔ x = .fin r := by
  cases x <;> simp [Num.toReal?]

theorem toReal?_iff {v : Val n} {x : ℝ} : toReal? conv v = some x ↔ Means conv v (.fin x) := by
  constructor
  · intro h
    match v, h with
    | .scalar s, h =>
      obtain ⟨y, hy, h⟩ := Option.bind_eq_some_iff.mp h
      rw [num_toReal_iff] at h; subst h
      exact scalar_toNum_iff.mp hy
    | .str s, h =>
      obtain ⟨y, hy, h⟩ := Option.bind_eq_some_iff.mp h
      rw [num_toReal_iff] at h; subst h
      exact .text hy
  · intro h
    match v, h with
    | .scalar s, h => rw [toReal?, scalar_toNum_iff.mpr h]; rfl
    | .str s, h => rw [toReal?, str_iff.mpr h]; rfl

theorem allSome_iff {α β : Type} {f : α → Option β} : ∀ {xs : List α} {ys : List β},
    allSome f xs = some ys ↔ List.Forall₂ (fun x y => f x = some y) xs ys
  | [], ys => by
    rw [allSome]
    constructor
    · intro h; cases h; exact .nil
    · intro h; cases h; rfl
  | x :: xs, ys => by
    rw [allSome]
    constructor
    · intro h
      cases hx : f x with
      | none => simp [hx] at h
      | some y =>
        cases hs : allSome f xs with
        | none => simp [hx, hs] at h
        | some zs =>
          simp [hx, hs] at h
          subst h
          exact .cons hx (allSome_iff.mp hs)
    · intro h
      cases h with
      | cons h1 h2 => rw [h1, allSome_iff.mpr h2]

theorem forall₂_ofFn {α β : Type} {R : α → β → Prop} {f : Fin n → α} {ys : List β}
    (h : List.Forall₂ R (List.ofFn f) ys) : ∃ g : Fin n → β, ys = List.ofFn g ∧ ∀ i, R (f i) (g i) := by
  have hl : ys.length = n := by rw [← h.length_eq]; simp
  subst hl
  refine ⟨fun i => ys[i.val], List.ofFn_getElem.symm, fun i => ?_⟩
  have := (List.forall₂_iff_get.mp h).2 i.val (by simp) i.isLt
  simpa using this

theorem forall₂_ofFn_of {α β : Type} {R : α → β → Prop} {f : Fin n → α} {g : Fin n → β}
    (h : ∀ i, R (f i) (g i)) : List.Forall₂ R (List.ofFn f) (List.ofFn g) :=
  List.forall₂_iff_get.mpr ⟨by simp, fun i h1 h2 => by simpa using h _⟩

theorem toVector?_iff {v : Val n} {xs : List ℝ} : toVector? conv v = some xs ↔ VectorMeans conv v xs := by
  constructor
  · intro h
    match v, h with
    | .list vs, h => exact .list ((allSome_iff.mp h).imp fun _ _ => toReal?_iff.mp)
    | .arr (.col cells), h =>
      obtain ⟨g, rfl, hg⟩ := forall₂_ofFn (allSome_iff.mp h)
      refine .column fun i => ?_
      obtain ⟨y, hy, h⟩ := Option.bind_eq_some_iff.mp (hg i)
      rw [num_toReal_iff] at h; subst h
      exact cell_iff.mp hy
  · rintro (h | h)
    · exact allSome_iff.mpr (h.imp fun _ _ => toReal?_iff.mpr)
    · refine allSome_iff.mpr (forall₂_ofFn_of fun i => ?_)
      rw [cell_iff.mpr (h i)]; rfl

/-- The coefficients with this matrix. -/
def coeffsWith (r k : ℕ) (a : ℕ → ℕ → ℝ) : Coeffs := ⟨r - 1, k - 1, fun i j => a i j⟩

theorem matrixOf_eq {rows : List (List ℝ)} {r k : ℕ} {a : ℕ → ℕ → ℝ} (hr : rows.length = r)
    (hk : (rows.headD []).length = k) (hr0 : 0 < r) (hk0 : 0 < k)
    (h : ∀ i < r, ∀ j < k, (rows.getD i []).getD j 0 = a i j) : matrixOf rows = coeffsWith r k a := by
  subst hr hk
  unfold matrixOf coeffsWith
  congr 1
  funext i j
  exact h i (by omega) j (by omega)

theorem eq_ofFn_getD {α : Type} {xs : List α} {d : α} : xs = List.ofFn fun i : Fin xs.length => xs.getD i d := by
  apply List.ext_getElem
  · simp
  · intro i h1 h2; simp

theorem VectorMeans.not_number {v : Val n} {xs : List ℝ} (h : VectorMeans conv v xs) : toReal? conv v = none := by
  match v, h with
  | .list _, _ => rfl
  | .arr _, _ => rfl

theorem toCoeffs?_iff {v : Val n} {C : Coeffs} :
    toCoeffs? conv v = some C ↔ ∃ r k a, MatrixMeans conv v r k a ∧ C = coeffsWith r k a := by
  constructor
  · intro h
    unfold toCoeffs? at h
    split at h
    · rename_i x hx
      cases h
      exact ⟨1, 1, fun _ _ => x, .number (toReal?_iff.mp hx), matrixOf_eq rfl rfl (by omega) (by omega)
        fun i hi j hj => by obtain rfl : i = 0 := by omega
                            obtain rfl : j = 0 := by omega
                            rfl⟩
    · split at h
      · rename_i xs hx
        split_ifs at h with hne
        cases h
        have hl : 0 < xs.length := List.length_pos_iff.mpr hne
        refine ⟨xs.length, 1, fun i _ => xs.getD i 0, .vector hl ?_, matrixOf_eq (by simp) ?_ hl (by omega) ?_⟩
        · rw [← eq_ofFn_getD]; exact toVector?_iff.mp hx
        · cases xs with
          | nil => exact absurd rfl hne
          | cons => rfl
        · intro i hi j hj
          obtain rfl : j = 0 := by omega
          simp [hi]
      · split at h
        · rename_i vs _ _
          split at h
          · rename_i rows hrows
            split_ifs at h with hc
            push Not at hc
            cases h
            have hl : rows ≠ [] := by rintro rfl; exact hc.1 rfl
            have hl' : 0 < rows.length := List.length_pos_iff.mpr hl
            have hk : 0 < (rows.headD []).length := List.length_pos_iff.mpr hc.1
            refine ⟨rows.length, (rows.headD []).length, fun i j => (rows.getD i []).getD j 0, ?_,
              matrixOf_eq rfl rfl hl' hk fun _ _ _ _ => rfl⟩
            have hf := allSome_iff.mp hrows
            have hlen : vs.length = rows.length := hf.length_eq
            have e : vs = List.ofFn fun i : Fin rows.length => vs[i.val]'(by omega) := by
              apply List.ext_getElem <;> simp [hlen]
            rw [e]
            refine .matrix hl' hk fun i => ?_
            have h1 := (List.forall₂_iff_get.mp hf).2 i.val (by omega) i.isLt
            simp only [List.get_eq_getElem] at h1
            rw [toVector?_iff] at h1
            have h2 : rows[i.val].length = (rows.headD []).length := hc.2 _ (List.getElem_mem _)
            rw [← h2]
            have h3 : rows.getD i.val [] = rows[i.val] := by simp
            simp only [h3]
            rw [← eq_ofFn_getD]; exact h1
          · cases h
        · cases h
  · rintro ⟨r, k, a, h, rfl⟩
    cases h with
    | number h =>
      unfold toCoeffs?
      rw [toReal?_iff.mpr h]
      dsimp only
      refine congrArg some (matrixOf_eq rfl rfl (by omega) (by omega) fun i hi j hj => ?_)
      obtain rfl : i = 0 := by omega
      obtain rfl : j = 0 := by omega
      rfl
    | vector hr h =>
      have h0 : toReal? conv v = none := h.not_number
      unfold toCoeffs?
      rw [h0, toVector?_iff.mpr h]
      dsimp only
      rw [if_neg (by intro e; simpa [hr.ne'] using congrArg List.length e)]
      refine congrArg some (matrixOf_eq (by simp) ?_ hr (by omega) fun i hi j hj => ?_)
      rotate_left
      · obtain rfl : j = 0 := by omega
        simp [hi]
      · obtain ⟨r, rfl⟩ := Nat.exists_eq_succ_of_ne_zero hr.ne'
        simp [List.ofFn_succ]
    | @matrix r k a rows hr hk h =>
      have h1 : toVector? conv (.list (List.ofFn rows) : Val n) = none := by
        cases hv : toVector? conv (.list (List.ofFn rows) : Val n) with
        | none => rfl
        | some xs =>
          exfalso
          cases toVector?_iff.mp hv with
          | list hf =>
            obtain ⟨g, -, hg⟩ := forall₂_ofFn hf
            have a1 := hg ⟨0, hr⟩
            have a2' := (h ⟨0, hr⟩).not_number
            rw [toReal?_iff.mpr a1] at a2'
            cases a2'
      have h2 : allSome (toVector? conv) (List.ofFn rows) =
          some (List.ofFn fun i : Fin r => List.ofFn fun j : Fin k => a i j) :=
        allSome_iff.mpr (forall₂_ofFn_of fun i => toVector?_iff.mpr (h i))
      have h3 : ((List.ofFn fun i : Fin r => List.ofFn fun j : Fin k => a i j).headD []).length = k := by
        obtain ⟨r, rfl⟩ := Nat.exists_eq_succ_of_ne_zero hr.ne'
        simp [List.ofFn_succ]
      unfold toCoeffs?
      rw [h1]
      simp only [toReal?, h2]
      rw [if_neg]
      · exact congrArg some (matrixOf_eq (by simp) h3 hr hk fun i hi j hj => by simp [hi, hj])
      · rintro (e | ⟨q, hq, hne⟩)
        · rw [e] at h3; simp at h3; omega
        · rw [h3] at hne
          obtain ⟨i, rfl⟩ := (List.mem_ofFn' _ _).mp hq
          simp at hne

theorem coeffsWith_eval {r k : ℕ} (hr : 0 < r) (hk : 0 < k) (a : ℕ → ℕ → ℝ) (x y : ℝ) :
    (coeffsWith r k a).eval (.fin x) (.fin y)
      = .fin (∑ i ∈ Finset.range r, ∑ j ∈ Finset.range k, a i j * x ^ i * y ^ j) := by
  obtain ⟨r, rfl⟩ := Nat.exists_eq_succ_of_ne_zero hr.ne'
  obtain ⟨k, rfl⟩ := Nat.exists_eq_succ_of_ne_zero hk.ne'
  unfold coeffsWith Coeffs.eval
  dsimp only
  rw [polyval2d_fin]
  simp only [Finset.sum_range]
  rfl

end OPE.Parse
