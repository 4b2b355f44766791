import Verif.Spec.Absent
import Verif.Props.Objects
import Verif.Props.Repeat
import Verif.Props.BrieGases

/-!
# A pore fluid that is not there (C159)
-/

namespace OPE

open Classical

variable {n : ℕ}

theorem sumCols_absent (a b : List (Col n)) : sumCols (a ++ c 0 :: b) = sumCols (a ++ b) := by
  have e : (c 0 : Col n) = 0 := rfl
  rw [sumCols_eq_sum, sumCols_eq_sum, List.sum_append, List.sum_append, List.sum_cons, e, zero_add]

theorem zip_absent {α β : Type} {a b : List α} {a' b' : List β} (h : a.length = a'.length) (x : α) (y : β) :
    (a ++ x :: b).zip (a' ++ y :: b') = a.zip a' ++ (x, y) :: b.zip b' := by
  rw [List.zip_append h, List.zip_cons_cons]

theorem normalised_absent (a b : List (Col n)) (h : ∀ i, Num.fin 0 < sumCols (a ++ b) i) :
    ∃ a' b', a'.length = a.length ∧ b'.length = b.length ∧ sumSaturationsToOne (a ++ c 0 :: b) = a' ++ c 0 :: b' ∧
      sumSaturationsToOne (a ++ b) = a' ++ b' := by
  unfold sumSaturationsToOne
  rw [sumCols_absent]
  set T := sumCols (a ++ b) with hT
  refine ⟨_, _, List.length_map .., List.length_map .., ?_, List.map_append ..⟩
  rw [List.map_append, List.map_cons]
  congr 2
  funext i
  dsimp only
  rw [if_pos (h i)]
  have := h i
  cases hx : T i with
  | fin t =>
    rw [hx, Num.fin_lt] at this
    rw [c_apply, Num.fin_maximum, Num.fin_div _ (by positivity), zero_div]
  | posInf =>
    rw [c_apply]
    have : Num.maximum Num.posInf (Num.fin 1e-15) = Num.posInf := if_pos (Or.inl trivial)
    rw [this]
    rfl
  | negInf => rw [hx] at this; cases this
  | nan => rw [hx] at this; cases this

theorem wood_absent {ms ms' : List (Mat n)} {m : Mat n} {a b : List (Col n)} (h1 : ms.length = a.length)
    (h2 : ms'.length = b.length) (hm : m.Ordinary) (hw : ∀ i, Num.fin 0 < sumCols (a ++ b) i) (hne : ms ++ ms' ≠ []) :
    wood (ms ++ m :: ms') (a ++ c 0 :: b) = wood (ms ++ ms') (a ++ b) := by
  obtain ⟨a', b', l1, l2, e1, e2⟩ := normalised_absent a b hw
  have z1 : m.density * c 0 = c 0 := by
    funext i
    obtain ⟨k, d, hk, hd, h3, h4⟩ := hm i
    show m.density i * c 0 i = c 0 i
    rw [h4, c_apply, Num.fin_mul, mul_zero]
  have z2 : c 0 / m.bulk = c 0 := by
    funext i
    obtain ⟨k, d, hk, hd, h3, h4⟩ := hm i
    show c 0 i / m.bulk i = c 0 i
    rw [h3, c_apply, Num.fin_div _ hk.ne', zero_div]
  have d1 : mixDensities (ms ++ m :: ms') (a' ++ c 0 :: b') = mixDensities (ms ++ ms') (a' ++ b') := by
    unfold mixDensities
    rw [zip_absent (by omega), List.zip_append (by omega), List.map_append, List.map_cons, List.map_append]
    dsimp only
    rw [z1, sumCols_absent]
  have b1 : mixBulkModuli (ms ++ m :: ms') (a' ++ c 0 :: b') = mixBulkModuli (ms ++ ms') (a' ++ b') := by
    unfold mixBulkModuli
    rw [zip_absent (by omega), List.zip_append (by omega), if_neg (by simp), if_neg, List.map_append, List.map_cons,
      List.map_append]
    · dsimp only
      rw [z2, sumCols_absent]
    · rw [← List.zip_append (by omega), List.isEmpty_iff, List.zip_eq_nil_iff]
      rintro (h | h)
      · apply hne
        rw [List.append_eq_nil_iff] at h ⊢
        exact ⟨List.length_eq_zero_iff.mp (by rw [h1, ← l1, h.1]; rfl),
          List.length_eq_zero_iff.mp (by rw [h2, ← l2, h.2]; rfl)⟩
      · exact hne h
  unfold wood
  dsimp only
  rw [e1, e2, d1, b1]

/-- Brie's law without one of several gases. -/
theorem brie_absent_gas {ms ms' : List (Mat n)} {m : Mat n} {a b : List (Col n)} (h1 : ms.length = a.length)
    (h2 : ms'.length = b.length) (hm : m.Ordinary) (hw : ∀ i, Num.fin 0 < sumCols (a ++ b) i) (hne : ms ++ ms' ≠ [])
    (L : List (Mat n)) (l : List (Col n)) (e : Col n) :
    brie L l (ms ++ m :: ms') (a ++ c 0 :: b) e = brie L l (ms ++ ms') (a ++ b) e := by
  have hlen : (ms ++ ms').length ≠ 0 := by rwa [Ne, List.length_eq_zero_iff]
  unfold brie
  rw [wood_absent h1 h2 hm hw hne]
  have q0 : ((ms ++ m :: ms').length ≠ 0) = True := by simp
  simp only [q0, eq_true hlen, if_true]
  have q1 : ¬ (ms ++ m :: ms').length ≠ (a ++ c 0 :: b).length := by simp; omega
  have q2 : ¬ (ms ++ ms').length ≠ (a ++ b).length := by simp; omega
  rw [failIf_false q1, failIf_false q2]

/-- Brie's law without one of several liquids. -/
theorem brie_absent_liquid {ms ms' : List (Mat n)} {m : Mat n} {a b : List (Col n)} (h1 : ms.length = a.length)
    (h2 : ms'.length = b.length) (hm : m.Ordinary) (hw : ∀ i, Num.fin 0 < sumCols (a ++ b) i) (hne : ms ++ ms' ≠ [])
    (G : List (Mat n)) (g : List (Col n)) (e : Col n) :
    brie (ms ++ m :: ms') (a ++ c 0 :: b) G g e = brie (ms ++ ms') (a ++ b) G g e := by
  have hlen : (ms ++ ms').length ≠ 0 := by rwa [Ne, List.length_eq_zero_iff]
  unfold brie
  rw [wood_absent h1 h2 hm hw hne, sumCols_absent]
  rw [if_pos (show (ms ++ m :: ms').length ≠ 0 by simp), if_pos hlen]
  have q1 : ¬ (ms ++ m :: ms').length ≠ (a ++ c 0 :: b).length := by simp; omega
  have q2 : ¬ (ms ++ ms').length ≠ (a ++ b).length := by simp; omega
  rw [failIf_false q1, failIf_false q2]


/-! ### A lone gas -/

theorem num_mul_one (a : Num) : a * Num.fin 1 = a := by
  cases a with
  | fin x => rw [Num.fin_mul, mul_one]
  | posInf => exact if_pos one_pos
  | negInf =>
    show Num.infSigned (-1) = _
    rw [Num.infSigned, if_neg (by norm_num), if_pos (by norm_num)]
  | nan => rfl

theorem num_sub_add (a : Num) (k : ℝ) : a - Num.fin k + Num.fin k = a := by
  cases a with
  | fin x => rw [Num.fin_sub, Num.fin_add, sub_add_cancel]
  | posInf => rfl
  | negInf => rfl
  | nan => rfl

theorem num_add_zero (a : Num) : a + Num.fin 0 = a := by
  cases a with
  | fin x => rw [Num.fin_add, add_zero]
  | posInf => rfl
  | negInf => rfl
  | nan => rfl

theorem fluidMaterial_again {k d : Col n} {m : Mat n} (h : fluidMaterial k d = .ok m) :
    fluidMaterial m.bulk m.density = .ok m := by
  obtain ⟨hd, -, hb, -⟩ := mkMaterial_ok h
  simp at hd hb
  rw [← hd, ← hb, h]

theorem wood_lone {m : Mat n} (hm : m.Ordinary) {t : ℝ} (ht : t = 0 ∨ 1e-15 ≤ t) :
    ∃ g, wood [m] [c t] = .ok g ∧ g.bulk = m.bulk ∧ g.density = m.density := by
  choose k d hk hd h3 h4 using hm
  have e : sumSaturationsToOne [(c t : Col n)] = [c 1] := by
    unfold sumSaturationsToOne
    have e1 : sumCols [(c t : Col n)] = c t := by rw [sumCols_eq_sum]; simp
    simp only [e1, List.map_cons, List.map_nil, c_apply]
    congr 1
    funext i
    rw [Num.fin_maximum, c_apply]
    rcases ht with rfl | ht
    · rw [if_neg (by simp)]
      have : max (0 : ℝ) 1e-15 = 1e-15 := by norm_num
      rw [this, Num.fin_div _ (by norm_num), div_self (by norm_num)]
    · have h0 : 0 < t := lt_of_lt_of_le (by norm_num) ht
      rw [if_pos (by simpa using h0), max_eq_left ht, Num.fin_div _ h0.ne', div_self h0.ne']
  have b : (c 1 : Col n) / sumCols [(c 1 : Col n) / m.bulk] = finC k := by
    funext i
    have : sumCols [(c 1 : Col n) / m.bulk] = c 1 / m.bulk := by rw [sumCols_eq_sum]; simp
    rw [this]
    show Num.fin 1 / (Num.fin 1 / m.bulk i) = Num.fin (k i)
    rw [h3, Num.fin_div _ (hk i).ne', Num.fin_div _ (by have := hk i; positivity), one_div_one_div]
  have d' : sumCols [m.density * (c 1 : Col n)] = finC d := by
    funext i
    have : sumCols [m.density * (c 1 : Col n)] = m.density * c 1 := by rw [sumCols_eq_sum]; simp
    rw [this]
    show m.density i * Num.fin 1 = Num.fin (d i)
    rw [h4, Num.fin_mul, mul_one]
  refine ⟨Mat.ofReal k (fun _ => 0) d, ?_, (funext h3).symm, (funext h4).symm⟩
  · unfold wood
    dsimp only
    rw [e]
    unfold mixBulkModuli mixDensities
    simp only [List.zip_cons_cons, List.zip_nil_left, List.isEmpty_cons, List.map_cons, List.map_nil]
    rw [if_neg (by simp), b, d', bind_ok, fluidMaterial_ofReal (fun i => (hk i).le) hd]

/-- Brie's law without the only gas, the liquids filling the pores. -/
theorem brie_absent_lone {L : List (Mat n)} {l : List (Col n)} {m : Mat n} (hl : L.length = l.length) (hL : L ≠ [])
    (hm : m.Ordinary) (h1 : ∀ i, sumCols l i = Num.fin 1) (e : ℝ) :
    brie L l [m] [c 0] (fun _ => Num.fin e) = brie L l [] [] (fun _ => Num.fin e) := by
  have hlen : L.length ≠ 0 := by rwa [Ne, List.length_eq_zero_iff]
  obtain ⟨g, hg, gk', gd'⟩ := wood_lone hm (t := 0) (.inl rfl)
  have gk : ∀ i, ∃ k : ℝ, g.bulk i = Num.fin k := fun i => by
    obtain ⟨k, d, -, -, h3, h4⟩ := hm i
    exact ⟨k, by rw [gk', h3]⟩
  have gd : ∀ i, ∃ d : ℝ, g.density i = Num.fin d := fun i => by
    obtain ⟨k, d, -, -, h3, h4⟩ := hm i
    exact ⟨d, by rw [gd', h4]⟩
  unfold brie
  rw [failIf_false (by simpa using hl), failIf_false (by simp), failIf_false (by simp)]
  simp only [bind_ok, hlen, ne_eq, not_false_iff, if_true, List.length_cons, List.length_nil, zero_add, one_ne_zero,
    not_true, if_false, hg]
  cases hw : wood L l with
  | error er => rfl
  | ok q =>
    simp only [bind_ok]
    have hq : fluidMaterial q.bulk q.density = .ok q := by
      unfold wood at hw
      obtain ⟨_, -, hw⟩ := bind_eq_ok.mp hw
      exact fluidMaterial_again hw
    rw [← hq]
    congr 1
    · funext i
      obtain ⟨k, hk⟩ := gk i
      show (q.bulk i - g.bulk i) * Num.pow (sumCols l i) (Num.fin e) + g.bulk i = q.bulk i
      have hp : Num.pow (Num.fin 1) (Num.fin e) = Num.fin 1 := by
        rw [Num.fin_pow (by norm_num), Real.one_rpow]
      rw [h1, hk, hp]
      rw [num_mul_one, num_sub_add]
    · unfold mixDensities
      funext i
      obtain ⟨d, hd⟩ := gd i
      simp only [List.zip_cons_cons, List.zip_nil_left, List.map_cons, List.map_nil]
      rw [sumCols_eq_sum]
      show (q.density i * sumCols l i + (g.density i * (Num.fin 1 - sumCols l i) + Num.fin 0)) = q.density i
      rw [h1, hd]
      rw [num_mul_one, Num.fin_sub, sub_self, Num.fin_mul, mul_zero, num_add_zero, num_add_zero]

/-! ### The constituents -/

theorem given_absent {A B : List (FluidSpec n)} {x : FluidSpec n} (hx : x.fraction = some (c 0)) :
    sumCols (givenFractions ((A ++ x :: B).map (·.fraction))) = sumCols (givenFractions ((A ++ B).map (·.fraction))) := by
  unfold givenFractions
  rw [List.map_append, List.map_cons, List.filterMap_append, List.filterMap_cons, hx]
  dsimp only [id]
  rw [sumCols_absent, List.map_append, List.filterMap_append]

/-- What `mkFluids` accepts. -/
def FluidsFit (L : List (FluidSpec n)) : Prop :=
  (∀ y ∈ L, ∀ f, y.fraction = some f → Objects.InRange f) ∧ L ≠ [] ∧
    (∀ i, ¬ Num.fin (1 + 1e-5) < sumCols (givenFractions (L.map (·.fraction))) i) ∧
    (L.map (·.fraction)).count none ≤ 1 ∧
    (none ∈ L.map (·.fraction) → Objects.InRange (c 1 - sumCols (givenFractions (L.map (·.fraction)))))

/-- A constituent with its saturation. -/
noncomputable def FluidSpec.settled (L : List (FluidSpec n)) (x : FluidSpec n) : FluidConst n :=
  ⟨x.kind, x.model, usedSaturation L x⟩

theorem used_given (L : List (FluidSpec n)) (x : FluidSpec n) :
    usedSaturation L x = x.fraction.getD (c 1 - sumCols (givenFractions (L.map (·.fraction)))) := by
  unfold usedSaturation givenFractions
  rw [List.filterMap_map]
  rfl

theorem mkFluids_iff {T : Col n} {L : List (FluidSpec n)} {method : MixMethod} {e : Num} {g : Option (List ℤ)}
    {model : Provider} {f : Fluids n} : mkFluids T L method e g model = .ok f ↔
      FluidsFit L ∧ f = ⟨T, L.map (FluidSpec.settled L), method, e, g.getD (defaultBrieGases L), model⟩ := by
  have hz : ∀ m : Col n, L.zipWith (fun x f => (⟨x.kind, x.model, f⟩ : FluidConst n))
      (givenFractions ((L.map (·.fraction)).map fun f => some (f.getD m))) =
      L.map fun x => ⟨x.kind, x.model, x.fraction.getD m⟩ := by
    intro m
    unfold givenFractions
    rw [List.map_map, List.filterMap_map]
    clear * - 
    induction L with
    | nil => rfl
    | cons y L ih => simpa using ih
  constructor
  · intro h
    unfold mkFluids at h
    obtain ⟨_, h1, h⟩ := bind_eq_ok.mp h
    obtain ⟨h2, h⟩ := failIf_bind_ok.mp h
    obtain ⟨h3, h⟩ := failIf_bind_ok.mp h
    obtain ⟨fs, h4, h⟩ := bind_eq_ok.mp h
    injection h with h
    obtain ⟨h5, h6, h7, rfl⟩ := Objects.fixOne_ok h4
    refine ⟨⟨?_, ?_, h5, h6, h7⟩, ?_⟩
    · intro y hy f' hf'
      have := forM_all h1 y hy
      rw [hf'] at this
      exact Objects.ratio_iff.mp this
    · rintro rfl; simp at h2
    · rw [← h, hz]
      congr 1
      apply List.map_congr_left
      intro y hy
      rw [FluidSpec.settled, used_given]
  · rintro ⟨⟨h1, h2, h3, h4, h5⟩, rfl⟩
    unfold mkFluids
    rw [forM_ok, bind_ok, failIf_false, bind_ok, failIf_false, bind_ok]
    · have : fixOneFraction (L.map (·.fraction)) = .ok ((L.map (·.fraction)).map fun f =>
          some (f.getD (c 1 - sumCols (givenFractions (L.map (·.fraction)))))) := by
        unfold fixOneFraction
        dsimp only
        rw [failIf_false (by push Not; simpa using h3), bind_ok]
        by_cases hc : (L.map (·.fraction)).count none = 0
        · rw [if_pos hc]
          congr 1
          rw [List.count_eq_zero] at hc
          conv_lhs => rw [← List.map_id (L.map (·.fraction))]
          apply List.map_congr_left
          intro y hy
          cases y with
          | none => exact absurd hy hc
          | some z => rfl
        · rw [if_neg hc, failIf_false (by omega), bind_ok, Objects.ratio_iff.mpr (h5 _), bind_ok]
          rwa [List.count_eq_zero, not_not] at hc
      rw [this, bind_ok, hz]
      congr 2
      apply List.map_congr_left
      intro y hy
      rw [FluidSpec.settled, used_given]
    · push Not; simpa using h3
    · have := List.length_pos_iff.mpr h2
      omega
    · intro y hy
      cases hf : y.fraction with
      | none => rfl
      | some f => exact Objects.ratio_iff.mpr (h1 y hy f hf)

theorem fit_absent {A B : List (FluidSpec n)} {x : FluidSpec n} (hx : x.fraction = some (c 0)) (hne : A ++ B ≠ []) :
    FluidsFit (A ++ x :: B) ↔ FluidsFit (A ++ B) := by
  have h0 : Objects.InRange (c 0 : Col n) := fun i => by
    simp only [c_apply, Num.fin_lt, not_lt]
    constructor <;> norm_num
  have hc : ((A ++ x :: B).map (·.fraction)).count none = ((A ++ B).map (·.fraction)).count none := by
    rw [List.map_append, List.map_cons, hx, List.map_append, List.count_append, List.count_append, List.count_cons]
    simp
  have hm : none ∈ (A ++ x :: B).map (·.fraction) ↔ none ∈ (A ++ B).map (·.fraction) := by
    rw [← List.count_pos_iff, ← List.count_pos_iff, hc]
  unfold FluidsFit
  rw [given_absent hx, hc, hm]
  constructor
  · rintro ⟨h1, -, h⟩
    exact ⟨fun y hy => h1 y (by simp at hy ⊢; tauto), hne, h⟩
  · rintro ⟨h1, -, h⟩
    refine ⟨fun y hy f hf => ?_, by simp, h⟩
    by_cases hy' : y ∈ A ++ B
    · exact h1 y hy' f hf
    · have : y = x := by simp at hy hy'; tauto
      rw [this, hx] at hf
      injection hf with hf
      exact hf ▸ h0

theorem used_absent {A B : List (FluidSpec n)} {x : FluidSpec n} (hx : x.fraction = some (c 0)) :
    usedSaturation (A ++ x :: B) = usedSaturation (A ++ B) := by
  funext y
  rw [used_given, used_given, given_absent hx]

/-! ### Their materials -/

theorem materialsOf_length {co2 : CO2Model n} {sec : Provider} {T : Col n} :
    ∀ {L : List (FluidConst n)} {p : Col n} {ms : List (Mat n)}, (materialsOf co2 sec T L p).1 = .ok ms →
      ms.length = L.length
  | [], p, ms, h => by cases h; rfl
  | x :: L, p, ms, h => by
    obtain ⟨m, ms', -, h2, rfl⟩ := materialsOf_cons_ok.mp h
    rw [List.length_cons, List.length_cons, materialsOf_length h2]

theorem asMaterial_ok_pressure {co2 : CO2Model n} {sec : Provider} {T p : Col n} {y : FluidConst n} {m : Mat n}
    {q : Col n} (h : y.asMaterial co2 sec T p = (.ok m, q)) :
    q = if y.kind.type = "carbon_dioxide" then fun i => p i / Num.fin 1e6 else p := by
  have hq := asMaterial_pressure co2 sec T p y
  rw [h] at hq
  dsimp only at hq
  rw [hq]
  refine if_congr ?_ rfl rfl
  constructor
  · rintro ⟨-, b, hb⟩
    rw [hb]; rfl
  · intro hk
    obtain ⟨k, mo, f⟩ := y
    cases k with
    | carbonDioxide b =>
      refine ⟨?_, b, rfl⟩
      cases hm : mo.getD sec with
      | spanWagner => rfl
      | _ => simp [FluidConst.asMaterial, FluidKind.asMaterial, hm] at h
    | _ => simp [FluidKind.type] at hk

theorem materialsOf_absent {co2 : CO2Model n} {sec : Provider} {T : Col n} {x : FluidConst n} {m : Mat n}
    (B : List (FluidConst n)) (g : FluidSpec n → FluidConst n) (hg : ∀ y, (g y).kind = y.kind) :
    ∀ (A : List (FluidSpec n)) (p : Col n),
      x.asMaterial co2 sec T (pressureAfter A p) = (.ok m, pressureAfter A p) →
      (∃ e q, materialsOf co2 sec T (A.map g ++ x :: B) p = (.error e, q) ∧
        materialsOf co2 sec T (A.map g ++ B) p = (.error e, q)) ∨
      ∃ ms ms' q, ms.length = A.length ∧ ms'.length = B.length ∧
        materialsOf co2 sec T (A.map g ++ x :: B) p = (.ok (ms ++ m :: ms'), q) ∧
        materialsOf co2 sec T (A.map g ++ B) p = (.ok (ms ++ ms'), q)
  | [], p, hx => by
    rw [pressureAfter] at hx
    rw [List.map_nil, List.nil_append, List.nil_append, materialsOf, hx]
    dsimp only
    rcases hB : materialsOf co2 sec T B p with ⟨e | ms', q⟩
    · exact Or.inl ⟨e, q, rfl, rfl⟩
    · refine Or.inr ⟨[], ms', q, rfl, ?_, rfl, rfl⟩
      have : (materialsOf co2 sec T B p).1 = .ok ms' := by rw [hB]
      exact materialsOf_length this
  | y :: A, p, hx => by
    rw [pressureAfter] at hx
    rw [List.map_cons, List.cons_append, List.cons_append, materialsOf, materialsOf]
    rcases hy : (g y).asMaterial co2 sec T p with ⟨e | my, p'⟩
    · exact Or.inl ⟨e, p', rfl, rfl⟩
    · have hp := asMaterial_ok_pressure hy
      rw [hg] at hp
      dsimp only
      subst hp
      rcases materialsOf_absent B g hg A _ hx with
        ⟨e, q, h1, h2⟩ | ⟨ms, ms', q, h1, h2, h3, h4⟩
      · rw [h1, h2]
        exact Or.inl ⟨e, q, rfl, rfl⟩
      · rw [h3, h4]
        exact Or.inr ⟨my :: ms, ms', q, by simp [h1], h2, rfl, rfl⟩

/-! ### Mixing them -/

theorem filter_zip {α β : Type} {L : List α} {ms : List β} (h : ms.length = L.length) (p : α → Prop) :
    ((L.zip ms).filter fun z => p z.1).map Prod.fst = L.filter fun x => p x := by
  have : (L.zip ms).map Prod.fst = L := List.map_fst_zip (by omega)
  conv_rhs => rw [← this, List.filter_map]
  rfl

/-- Neither gas nor carbon dioxide. -/
def FluidSpec.Liquid (x : FluidSpec n) : Prop := ¬ x.Gaseous

theorem mix_default {T : Col n} {L : List (FluidSpec n)} {e : Num} {model : Provider} {f : Fluids n}
    (h : mkFluids T L .brie e none model = .ok f) {ms : List (Mat n)} (hlen : ms.length = L.length) :
    f.mix ms =
      brie (((L.zip ms).filter fun z => z.1.Liquid).map Prod.snd)
        (((L.zip ms).filter fun z => z.1.Liquid).map fun z => usedSaturation L z.1)
        (((L.zip ms).filter fun z => z.1.Gaseous).map Prod.snd)
        (((L.zip ms).filter fun z => z.1.Gaseous).map fun z => usedSaturation L z.1) (fun _ => e) := by
  obtain ⟨idx, i1, i2, i3⟩ := C40_default_gases _ _ _ _ _ f h
  obtain ⟨-, hf⟩ := mkFluids_iff.mp h
  have z1 : (L.zip ms).map Prod.fst = L := List.map_fst_zip (by omega)
  have z2 : (L.zip ms).map Prod.snd = ms := List.map_snd_zip (by omega)
  have key := (C40_brie_selection f ((L.zip ms).map fun z => (z.2, usedSaturation L z.1)) idx (by rw [hf]) i1 i2
    (by
      rw [hf]
      dsimp only
      rw [List.map_map, List.map_map]
      have : L.map (usedSaturation L) = ((L.zip ms).map Prod.fst).map (usedSaturation L) := by rw [z1]
      rw [List.map_map] at this
      exact this)
    (by
      intro i hi
      obtain ⟨y, hy, -⟩ := (i3 i).mp hi
      obtain ⟨hlt, -⟩ := List.getElem?_eq_some_iff.mp hy
      simpa [hlen] using hlt)).1
  obtain ⟨a1, a2⟩ := atPositions_filter idx (L.zip ms) (fun z => decide z.1.Gaseous) (by
    intro i z hz
    rw [i3 i]
    have : ((L.zip ms).map Prod.fst)[i]? = some z.1 := by rw [List.getElem?_map, hz]; rfl
    rw [z1] at this
    rw [this, decide_eq_true_iff]
    exact ⟨fun ⟨y, hy, h⟩ => by injection hy with hy; subst hy; exact h, fun h => ⟨_, rfl, h⟩⟩)
  rw [atPositions_map, notAtPositions_map, a1, a2] at key
  have e3 : f.brieConstant = e := by rw [hf]
  simp only [List.map_map, Function.comp_def, z2, e3] at key
  rw [key]
  have : (L.zip ms).filter (fun z => !decide z.1.Gaseous) = (L.zip ms).filter fun z => z.1.Liquid := by
    apply List.filter_congr
    intro z _
    by_cases hz : z.1.Gaseous <;> simp [FluidSpec.Liquid, hz]
  rw [this]

theorem total_congr {L : List (FluidSpec n)} {p q : FluidSpec n → Prop} (h : ∀ y ∈ L, p y ↔ q y) :
    totalSaturation L p = totalSaturation L q := by
  unfold totalSaturation
  congr 2
  apply List.filter_congr
  intro y hy
  simp [h y hy]

theorem mix_absent {co2 : CO2Model n} {s : Sections n} {A B : List (FluidSpec n)} {x : FluidSpec n}
    (h : Absent co2 s A x B) {f f' : Fluids n}
    (hf : mkFluids s.temperature (A ++ x :: B) s.mixMethod s.brieConstant s.brieGases s.fluidModel = .ok f)
    (hf' : mkFluids s.temperature (A ++ B) s.mixMethod s.brieConstant s.brieGases s.fluidModel = .ok f')
    {ms ms' : List (Mat n)} {m : Mat n} (hm : m.Ordinary) (h1 : ms.length = A.length) (h2 : ms'.length = B.length) :
    f.mix (ms ++ m :: ms') = f'.mix (ms ++ ms') := by
  have hu := used_absent (A := A) (B := B) h.saturation
  have hx : usedSaturation (A ++ B) x = c 0 := by rw [usedSaturation, h.saturation]; rfl
  have hne : ms ++ ms' ≠ [] := by
    intro h0
    apply h.others
    rw [← List.length_eq_zero_iff] at h0 ⊢
    simp only [List.length_append] at h0 ⊢
    omega
  have zx : (A ++ x :: B).zip (ms ++ m :: ms') = A.zip ms ++ (x, m) :: B.zip ms' := zip_absent h1.symm ..
  have z0 : (A ++ B).zip (ms ++ ms') = A.zip ms ++ B.zip ms' := List.zip_append h1.symm
  have tot : ∀ p : FluidSpec n → Prop, totalSaturation (A ++ B) p =
      sumCols ((((A.zip ms).filter fun z => p z.1).map fun z => usedSaturation (A ++ B) z.1) ++
        (((B.zip ms').filter fun z => p z.1).map fun z => usedSaturation (A ++ B) z.1)) := by
    intro p
    unfold totalSaturation
    rw [List.filter_append, List.map_append, ← filter_zip h1 p, ← filter_zip h2 p, List.map_map, List.map_map]
    rfl
  have some_p : ∀ p : FluidSpec n → Prop, (∃ y ∈ A ++ B, p y) →
      ((A.zip ms).filter fun z => p z.1).map Prod.snd ++ ((B.zip ms').filter fun z => p z.1).map Prod.snd ≠ [] := by
    rintro p ⟨y, hy, hp⟩ h0
    rw [← List.map_append, List.map_eq_nil_iff, ← List.map_eq_nil_iff (f := Prod.fst), List.map_append,
      filter_zip h1 p, filter_zip h2 p, ← List.filter_append, List.filter_eq_nil_iff] at h0
    exact h0 y hy (by simpa using hp)
  rcases h.mixing with ⟨hw, hs⟩ | ⟨hb, hg, hy, hs⟩ | ⟨hb, hg, hxg, hl, ⟨e, he⟩, hs⟩
  · rw [hw] at hf hf'
    obtain ⟨-, e1⟩ := mkFluids_iff.mp hf
    obtain ⟨-, e2⟩ := mkFluids_iff.mp hf'
    subst e1 e2
    simp only [Fluids.mix, List.map_map]
    have c1 : (fun y : FluidConst n => y.fraction) ∘ FluidSpec.settled (A ++ x :: B) = usedSaturation (A ++ B) := by
      rw [← hu]; rfl
    have c2 : (fun y : FluidConst n => y.fraction) ∘ FluidSpec.settled (A ++ B) = usedSaturation (A ++ B) := rfl
    rw [c1, c2, List.map_append, List.map_cons, hx, List.map_append]
    apply wood_absent (by simp [h1]) (by simp [h2]) hm _ hne
    intro i
    have := hs i
    unfold totalSaturation at this
    rwa [List.filter_eq_self.mpr (by simp), List.map_append] at this
  · rw [hb, hg] at hf hf'
    rw [mix_default hf (by simp [h1, h2]), mix_default hf' (by simp [h1, h2]), hu, zx, z0]
    by_cases hxg : x.Gaseous
    · have hxl : ¬ x.Liquid := fun h => h hxg
      simp only [hxg, iff_true] at hy hs
      simp only [List.filter_append, List.filter_cons, hxg, hxl, decide_false, decide_true, if_true,
        Bool.false_eq_true, if_false, List.map_append, List.map_cons, hx]
      refine brie_absent_gas (by rw [List.length_map, List.length_map]) (by rw [List.length_map, List.length_map]) hm ?_
        (some_p FluidSpec.Gaseous hy) _ _ _
      intro i
      rw [← tot fun y => y.Gaseous]
      exact hs i
    · have hxl : x.Liquid := hxg
      have hy : ∃ y ∈ A ++ B, y.Liquid := by
        obtain ⟨y, hy, h⟩ := hy
        exact ⟨y, hy, fun hh => hxg (h.mp hh)⟩
      simp only [hxg] at hs
      simp only [List.filter_append, List.filter_cons, hxg, hxl, decide_false, decide_true, if_true,
        Bool.false_eq_true, if_false, List.map_append, List.map_cons, hx]
      refine brie_absent_liquid (by rw [List.length_map, List.length_map]) (by rw [List.length_map, List.length_map]) hm ?_
        (some_p FluidSpec.Liquid hy) _ _ _
      intro i
      rw [← tot FluidSpec.Liquid]
      rw [total_congr (q := fun y => y.Gaseous ↔ False)]
      · exact hs i
      · exact fun y _ => (iff_false y.Gaseous).symm.to_iff
  · rw [hb, hg] at hf hf'
    rw [mix_default hf (by simp [h1, h2]), mix_default hf' (by simp [h1, h2]), hu, zx, z0, he]
    have n1 : (A.zip ms).filter (fun z => z.1.Gaseous) = [] := by
      rw [List.filter_eq_nil_iff]
      rintro ⟨y, z⟩ hz
      have := hl y (List.mem_append_left _ (List.of_mem_zip hz).1)
      simpa using this
    have n2 : (B.zip ms').filter (fun z => z.1.Gaseous) = [] := by
      rw [List.filter_eq_nil_iff]
      rintro ⟨y, z⟩ hz
      have := hl y (List.mem_append_right _ (List.of_mem_zip hz).1)
      simpa using this
    have hxl : ¬ x.Liquid := fun h => h hxg
    simp only [List.filter_append, List.filter_cons, hxg, hxl, decide_false, decide_true, if_true,
      Bool.false_eq_true, if_false, List.map_append, List.map_cons, hx, n1, n2, List.map_nil, List.nil_append]
    refine brie_absent_lone (by simp) ?_ hm ?_ e
    · refine some_p FluidSpec.Liquid ?_
      obtain ⟨y, hy⟩ := List.exists_mem_of_ne_nil _ h.others
      exact ⟨y, hy, hl y hy⟩
    · intro i
      rw [← tot FluidSpec.Liquid, ← hs i]
      rw [total_congr (q := fun _ => True)]
      exact fun y hy => iff_true_intro (hl y hy)

theorem sees_pressure {s : Sections n} {q : Pressure n}
    (h : mkPressure s.overburden s.reference s.fluidPressure s.maxEffective s.rockPressure = .ok q) :
    q.fluid = s.fluidPressure.or s.rockPressure := by
  unfold mkPressure at h
  injection h with h
  subst h
  cases s.fluidPressure <;> cases s.rockPressure <;> rfl

/-- Leaving out a constituent with saturation 0, and maybe naming other gases, if that does not change the mixture. -/
theorem absent_of_mix (co2 : CO2Model n) {s : Sections n} {A : List (FluidSpec n)} {x : FluidSpec n}
    {B : List (FluidSpec n)} {g' : Option (List ℤ)} (hfluids : s.fluids = A ++ x :: B)
    (hsat : x.fraction = some (c 0)) (hno : x.kind.type ≠ "carbon_dioxide")
    (hord : ∀ p, s.fluidPressure.or s.rockPressure = some p →
      ∃ m, (x.kind.asMaterial co2 (x.model.getD s.fluidModel) s.temperature (pressureAfter A p)).1 = .ok m ∧ m.Ordinary)
    (hothers : A ++ B ≠ [])
    (hmix : ∀ {f f' : Fluids n} {ms ms' : List (Mat n)} {m : Mat n},
      mkFluids s.temperature (A ++ x :: B) s.mixMethod s.brieConstant s.brieGases s.fluidModel = .ok f →
      mkFluids s.temperature (A ++ B) s.mixMethod s.brieConstant g' s.fluidModel = .ok f' → m.Ordinary →
      ms.length = A.length → ms'.length = B.length → f.mix (ms ++ m :: ms') = f'.mix (ms ++ ms')) (r : Result n) :
    calculate co2 s = .ok r ↔ calculate co2 { s with fluids := A ++ B, brieGases := g' } = .ok r := by
  have fluids_eq : ∀ {f f' : Fluids n},
      mkFluids s.temperature (A ++ x :: B) s.mixMethod s.brieConstant s.brieGases s.fluidModel = .ok f →
      mkFluids s.temperature (A ++ B) s.mixMethod s.brieConstant g' s.fluidModel = .ok f' →
      ∀ p, s.fluidPressure.or s.rockPressure = some p → f.asMixture co2 p = f'.asMixture co2 p := by
    intro f f' hf hf' p hp
    obtain ⟨m, hm, ho⟩ := hord p hp
    have e1 := (mkFluids_iff.mp hf).2
    have e2 := (mkFluids_iff.mp hf').2
    have hx : ((x.settled (A ++ B)).asMaterial co2 s.fluidModel s.temperature (pressureAfter A p)) =
        (.ok m, pressureAfter A p) := by
      apply Prod.ext hm
      rw [asMaterial_pressure, if_neg]
      rintro ⟨-, b, hb⟩
      exact hno (by rw [show x.kind = _ from hb]; rfl)
    have c1 : f.constituents = A.map (FluidSpec.settled (A ++ B)) ++
        x.settled (A ++ B) :: B.map (FluidSpec.settled (A ++ B)) := by
      rw [e1]
      have : FluidSpec.settled (A ++ x :: B) = FluidSpec.settled (A ++ B) := by
        funext y; rw [FluidSpec.settled, FluidSpec.settled, used_absent hsat]
      rw [this, List.map_append, List.map_cons]
    have c2 : f'.constituents = A.map (FluidSpec.settled (A ++ B)) ++ B.map (FluidSpec.settled (A ++ B)) := by
      rw [e2, List.map_append]
    have m1 : f.model = s.fluidModel := by rw [e1]
    have m2 : f'.model = s.fluidModel := by rw [e2]
    have t1 : f.temperature = s.temperature := by rw [e1]
    have t2 : f'.temperature = s.temperature := by rw [e2]
    unfold Fluids.asMixture
    rw [c1, c2, m1, m2, t1, t2]
    rcases materialsOf_absent (B.map (FluidSpec.settled (A ++ B))) (FluidSpec.settled (A ++ B)) (fun _ => rfl) A p hx with
      ⟨e, q, q1, q2⟩ | ⟨ms, ms', q, l1, l2, q1, q2⟩
    · rw [q1, q2]
    · rw [q1, q2]
      dsimp only
      rw [hmix hf hf' ho (by simpa using l1) (by simpa using l2)]
  have input : ∀ L g, calculate co2 { s with fluids := L, brieGases := g } = .ok r ↔ ∃ mi f d q, mkMinerals s.minerals = .ok mi ∧
      mkFluids s.temperature L s.mixMethod s.brieConstant g s.fluidModel = .ok f ∧
      mkDryRock s.sandModel s.porosity s.adjustments = .ok d ∧
      mkPressure s.overburden s.reference s.fluidPressure s.maxEffective s.rockPressure = .ok q ∧
      calculateResults co2 ⟨mi, f, d, q⟩ = .ok r := by
    intro L g
    unfold calculate mkInput
    simp only [bind_eq_ok]
    constructor
    · rintro ⟨inp, ⟨mi, h1, f, h2, d, h3, q, h4, h5⟩, h6⟩
      injection h5 with h5
      subst h5
      exact ⟨mi, f, d, q, h1, h2, h3, h4, h6⟩
    · rintro ⟨mi, f, d, q, h1, h2, h3, h4, h6⟩
      exact ⟨_, ⟨mi, h1, f, h2, d, h3, q, h4, rfl⟩, h6⟩
  have results : ∀ {mi f f' d q}, mkFluids s.temperature (A ++ x :: B) s.mixMethod s.brieConstant s.brieGases s.fluidModel = .ok f →
      mkFluids s.temperature (A ++ B) s.mixMethod s.brieConstant g' s.fluidModel = .ok f' →
      mkPressure s.overburden s.reference s.fluidPressure s.maxEffective s.rockPressure = .ok q →
      calculateResults co2 ⟨mi, f, d, q⟩ = calculateResults co2 ⟨mi, f', d, q⟩ := by
    intro mi f f' d q hf hf' hq
    unfold calculateResults mixFluids
    dsimp only
    cases hp : q.fluid with
    | none => rfl
    | some p =>
      simp only [needCol, bind_ok]
      rw [sees_pressure hq] at hp
      rw [fluids_eq hf hf' p hp]
  have hs : s = { s with fluids := A ++ x :: B, brieGases := s.brieGases } := by rw [← hfluids]
  rw [hs, input, input]
  constructor
  · rintro ⟨mi, f, d, q, h1, h2, h3, h4, h5⟩
    have hfit := (fit_absent hsat hothers).mp (mkFluids_iff.mp h2).1
    have h2' := (mkFluids_iff (T := s.temperature) (method := s.mixMethod) (e := s.brieConstant) (g := g')
      (model := s.fluidModel)).mpr ⟨hfit, rfl⟩
    exact ⟨mi, _, d, q, h1, h2', h3, h4, by rw [← results h2 h2' h4]; exact h5⟩
  · rintro ⟨mi, f, d, q, h1, h2', h3, h4, h5⟩
    have hfit := (fit_absent hsat hothers).mpr (mkFluids_iff.mp h2').1
    have h2 := (mkFluids_iff (T := s.temperature) (method := s.mixMethod) (e := s.brieConstant) (g := s.brieGases)
      (model := s.fluidModel)).mpr ⟨hfit, rfl⟩
    exact ⟨mi, _, d, q, h1, h2, h3, h4, by rw [results h2 h2' h4]; exact h5⟩

/-- **C159, the part that holds.** A constituent of the pore fluids with saturation 0 that is not carbon dioxide and is
not the only one of its phase (or is the only gas and the liquids fill the pores) can be
left out: the calculation goes through with it if and only if it goes through without it, with the same result. -/
theorem C159_absent_fluid_partial (co2 : CO2Model n) (s : Sections n) (A : List (FluidSpec n)) (x : FluidSpec n)
    (B : List (FluidSpec n)) (h : Absent co2 s A x B) (r : Result n) :
    calculate co2 s = .ok r ↔ calculate co2 { s with fluids := A ++ B } = .ok r :=
  absent_of_mix co2 h.fluids h.saturation h.noCO2 h.ordinary h.others
    (fun hf hf' hm h1 h2 => mix_absent h hf hf' hm h1 h2) r

/-- **C159, in one row of a table.** Where a constituent has saturation 0 in a row, the results of that row are those of
the row without it. -/
theorem C159_in_a_row_partial [NeZero n] {co2 : ∀ n, CO2Model n} (hco2 : CO2RowWise co2) (s : Sections n) (i : Fin n)
    (A : List (FluidSpec 1)) (x : FluidSpec 1) (B : List (FluidSpec 1)) (h : Absent (co2 1) (s.row i) A x B)
    (r : Result n) (hr : calculate (co2 n) s = .ok r) :
    calculate (co2 1) { s.row i with fluids := A ++ B } = .ok (r.row i) :=
  (C159_absent_fluid_partial (co2 1) (s.row i) A x B h _).mp ((C07_row_wise hco2 s).1 r hr i)

/-! ### Where a constituent with saturation 0 matters -/

/-- Leaving out a pore fluid with saturation 0 changes no calculation. -/
def AbsentFluidDoesNotMatter : Prop :=
  ∀ (n : ℕ) (co2 : CO2Model n) (s : Sections n) (A : List (FluidSpec n)) (x : FluidSpec n) (B : List (FluidSpec n))
    (r r' : Result n), s.fluids = A ++ x :: B → x.fraction = some (c 0) → A ++ B ≠ [] → calculate co2 s = .ok r →
    calculate co2 { s with fluids := A ++ B } = .ok r' → r = r'

/-- The brine of `exAgainAt` alone, at 50 MPa. -/
noncomputable def exAlone : List (Pore 1) := [⟨.brine (finC fun _ => 0), none, fun _ => Published.brine 75 50e6 0, fun _ => 1⟩]

theorem exAlone_brine : (Published.brine 75 50e6 0).K < 36.8e9 ∧
    (Published.brine 75 50e6 0).ρ ≠ (Published.brine 75 50 0).ρ := by
  refine ⟨?_, ?_⟩ <;>
    norm_num [Published.brine, Published.brineDensity, Published.brineVelocity, Published.waterVelocity,
      Published.waterDensity]

theorem exAlone_run : ∃ r, calculate exWarnCo2 { exAgainAt 50 with fluids := exAgain.fluids.tail } = .ok r ∧
    r.rsat = finC fun _ => 2000 + 0.2 * (Published.brine 75 50e6 0).ρ := by
  have hq : quartzRock.Valid := by norm_num [Published.Rock.Valid, quartzRock]
  have hP : (50 : ℝ) * 1e6 = 50e6 := by norm_num
  have hsays : ({ exAgainAt 50 with fluids := exAgain.fluids.tail } : Sections 1).Says
      (Mat.ofReal (fun _ => 36.8e9) (fun _ => 44e9) (fun _ => 2650), (fun _ => quartzRock), fun _ => 1) []
      (fun _ => 200e6) (fun _ => 200e6) (fun _ => 50e6) (fun _ => 50 * 1e6) none := by
    refine ⟨rfl, ?_, fun _ => by norm_num, rfl, rfl, rfl, rfl, rfl⟩
    intro y hy
    rw [List.mem_singleton.mp hy]
    exact ⟨⟨rfl, rfl, rfl, fun _ => hq⟩, fun _ => by norm_num⟩
  have hfill : ({ exAgainAt 50 with fluids := exAgain.fluids.tail } : Sections 1).Filled exWarnCo2 (fun _ => 75)
      (fun _ => 50 * 1e6) exAlone (fun _ => 50 * 1e6) := by
    refine ⟨rfl, rfl, by simp [exAlone], ?_, ?_, fun i => by norm_num [poreTotal, exAlone]⟩
    · rw [hP]
      exact .plain (.brine _ (fun _ => by norm_num) (fun _ => by norm_num) fun _ => by norm_num)
        (fun h => by cases h) (.nil _)
    · intro z hz i
      rw [List.mem_singleton.mp hz]
      norm_num
  have hr := calculate_adjusted hsays (mkModuli_coherent (mkModuli_rock (n := 1) (r := fun _ => quartzRock)
    fun _ => hq)) hfill
    (.wood rfl ⟨by simp [exAlone], fun i => by norm_num [poreTotal, exAlone]⟩) rfl
    (exWarnRock_gives (exAgainPores 50) 50e6) (fun _ => by norm_num [Published.Rock.Valid]) (.nil _) fun i =>
      ⟨by norm_num, by norm_num [quartzRock], ?_⟩
  · refine ⟨_, hr, ?_⟩
    funext i
    simp [tableOf, Published.wood, poreRow, exAlone]
  · simpa [Published.wood, poreRow, exAlone, quartzRock] using exAlone_brine.1

/-- **C159 is false of the code.** Brine after carbon dioxide of saturation 0: leaving the carbon dioxide out gives
another density. -/
theorem C159_refuted : ¬ AbsentFluidDoesNotMatter := by
  intro hall
  obtain ⟨r, hr, e⟩ := exAgain_run (P := 50) (by norm_num) (by norm_num) exAgain_brine.1
  obtain ⟨r', hr', e'⟩ := exAlone_run
  have := hall 1 exWarnCo2 (exAgainAt 50) [] ⟨.carbonDioxide false, some .spanWagner, some (finC fun _ => 0)⟩
    exAgain.fluids.tail r r' rfl rfl (by simp [exAgain, exWarnRock, exAgainPores]) hr hr'
  rw [this, e'] at e
  have := congrFun e 0
  simp only [finC_apply, Num.fin_inj] at this
  apply exAlone_brine.2
  linarith

/-- **C159 is false with Brie's law too.** A liquid that fills half of the pores and a gas with saturation 0: without the
gas the mixture has the density of the liquid, with it the mean of the two. -/
theorem C159_refuted_brie (liquid gas : Mat n) (hl : liquid.Ordinary) (hg : gas.Ordinary) :
    ∃ m m' : Mat n, brie [liquid] [c 0.5] [gas] [c 0] (c 3) = .ok m ∧ brie [liquid] [c 0.5] [] [] (c 3) = .ok m' ∧
      m.density = (liquid.density + gas.density) / c 2 ∧ m'.density = liquid.density := by
  obtain ⟨l, l1, l2, l3⟩ := wood_lone hl (t := 0.5) (.inr (by norm_num))
  obtain ⟨g, g1, g2, g3⟩ := wood_lone hg (t := 0) (.inl rfl)
  choose a b ha hb ha' hb' using hl
  choose p q hp hq hp' hq' using hg
  have k1 : l.bulk = finC a := by rw [l2]; exact funext ha'
  have k2 : g.bulk = finC p := by rw [g2]; exact funext hp'
  have d1 : l.density = finC b := by rw [l3]; exact funext hb'
  have d2 : g.density = finC q := by rw [g3]; exact funext hq'
  refine ⟨Mat.ofReal (fun i => (a i - p i) * 0.5 ^ (3 : ℝ) + p i) (fun _ => 0) (fun i => (b i + q i) / 2), l, ?_, ?_, ?_, l3⟩
  · unfold brie
    simp only [List.length_cons, List.length_nil, ne_eq, not_true, not_false_iff, zero_add, one_ne_zero, if_true,
      failIf_false not_false, bind_ok, l1, g1]
    have s1 : sumCols [(c 0.5 : Col n)] = finC fun _ => 0.5 := by rw [sumCols_eq_sum]; simp; rfl
    rw [s1, k1, k2]
    have e1 : (finC a - finC p) * (fun i => Num.pow (finC (fun _ : Fin n => (0.5 : ℝ)) i) ((c 3 : Col n) i)) + finC p =
        finC fun i => (a i - p i) * 0.5 ^ (3 : ℝ) + p i := by
      funext i
      show (Num.fin (a i) - Num.fin (p i)) * Num.pow (Num.fin 0.5) (Num.fin 3) + Num.fin (p i) = _
      rw [Num.fin_pow (by norm_num)]
      rfl
    have e2 : mixDensities [l, g] [finC fun _ => 0.5, c 1 - finC fun _ => (0.5 : ℝ)] = finC fun i => (b i + q i) / 2 := by
      unfold mixDensities
      rw [List.zip_cons_cons, List.zip_cons_cons, List.zip_nil_left, List.map_cons, List.map_cons, List.map_nil,
        sumCols_eq_sum, d1, d2]
      funext i
      show Num.fin (b i) * Num.fin 0.5 + (Num.fin (q i) * (Num.fin 1 - Num.fin 0.5) + Num.fin 0) = Num.fin ((b i + q i) / 2)
      rw [Num.fin_sub, Num.fin_mul, Num.fin_mul, Num.fin_add, Num.fin_add]
      congr 1
      ring
    rw [e1, e2]
    refine fluidMaterial_ofReal (fun i => ?_) fun i => by have := hb i; have := hq i; positivity
    have h1 : (0 : ℝ) ≤ 0.5 ^ (3 : ℝ) := by positivity
    have h2 : (0.5 : ℝ) ^ (3 : ℝ) ≤ 1 := Real.rpow_le_one (by norm_num) (by norm_num) (by norm_num)
    have := ha i
    have := hp i
    nlinarith
  · unfold brie
    simp only [List.length_cons, List.length_nil, ne_eq, not_true, not_false_iff, zero_add, one_ne_zero, if_true,
      failIf_false not_false, bind_ok, l1, if_false]
  · funext i
    show Num.fin ((b i + q i) / 2) = (liquid.density i + gas.density i) / Num.fin 2
    rw [hb', hq', Num.fin_add, Num.fin_div _ (by norm_num)]

/-! ### A constituent that can be left out -/

/-- A light oil given as a material, with saturation 0. -/
noncomputable def exNoOil : FluidSpec 1 :=
  ⟨.material (Mat.ofReal (fun _ => 1e9) (fun _ => 0) (fun _ => 700)), none, some (c 0)⟩

/-- With Wood's or with Brie's law, the oil with saturation 0 before the brine can be left out. -/
theorem exNoOil_absent (method : MixMethod) : Absent exWarnCo2
    { exAgainAt 50 with
      fluids := exNoOil :: exAgain.fluids.tail
      mixMethod := method } [] exNoOil exAgain.fluids.tail := by
  have hv : exAgain.fluids.tail = [⟨.brine (finC fun _ => 0), none, some (finC fun _ => 1)⟩] := rfl
  have ht : ∀ p : FluidSpec 1 → Prop, (∀ y ∈ exAgain.fluids.tail, p y) → ∀ i,
      Num.fin 0 < totalSaturation ([] ++ exAgain.fluids.tail) p i := by
    intro p hp i
    have := hp _ (by rw [hv]; exact List.mem_singleton.mpr rfl)
    unfold totalSaturation
    rw [List.nil_append, hv, List.filter_cons, if_pos (by simpa using this), List.filter_nil]
    simp only [List.map_cons, List.map_nil, usedSaturation, Option.getD_some]
    rw [sumCols_eq_sum]
    simp
  refine ⟨rfl, rfl, ?_, ?_, by rw [hv]; simp, ?_⟩
  · decide
  · intro p _
    exact ⟨_, rfl, fun i => ⟨1e9, 700, by norm_num, by norm_num, rfl, rfl⟩⟩
  · cases method with
    | wood => exact .inl ⟨rfl, ht _ fun _ _ => trivial⟩
    | brie =>
      have hb : ∀ y ∈ exAgain.fluids.tail, y.Gaseous ↔ exNoOil.Gaseous := by
        intro y hy
        rw [hv] at hy
        rw [List.mem_singleton.mp hy]
        simp [FluidSpec.Gaseous, exNoOil, FluidKind.type]
      exact .inr (.inl ⟨rfl, rfl, ⟨_, by rw [hv]; exact List.mem_singleton.mpr rfl, hb _ (by
        rw [hv]; exact List.mem_singleton.mpr rfl)⟩, ht _ hb⟩)

/-- The calculation with it goes through. -/
example : ∃ r, calculate exWarnCo2
    { exAgainAt 50 with
      fluids := exNoOil :: exAgain.fluids.tail
      mixMethod := .wood } = .ok r := by
  obtain ⟨r, hr, -⟩ := exAlone_run
  exact ⟨r, (C159_absent_fluid_partial _ _ _ _ _ (exNoOil_absent .wood) r).mpr hr⟩

/-- With Brie's law, the only gas with saturation 0 can be left out where brine fills the pores. -/
example : Absent exWarnCo2
    { exAgainAt 50 with
      fluids := exAgain.fluids.tail ++ [⟨.gas (finC fun _ => 0.6), none, some (c 0)⟩]
      mixMethod := .brie } exAgain.fluids.tail ⟨.gas (finC fun _ => 0.6), none, some (c 0)⟩ [] := by
  have hv : exAgain.fluids.tail = [⟨.brine (finC fun _ => 0), none, some (finC fun _ => 1)⟩] := rfl
  refine ⟨rfl, rfl, ?_, ?_, by rw [hv]; simp, .inr (.inr ⟨rfl, rfl, .inl rfl, ?_, ⟨3, rfl⟩, ?_⟩)⟩
  · simp [FluidKind.type]
  · intro p hp
    have hp : p = finC fun _ => 50 * 1e6 := by injection hp with hp; exact hp.symm
    obtain ⟨m, hm, h1, h2, -, h3⟩ := gas_constituent (n := 1) exWarnCo2 (pv := .default) (fun h => by cases h)
      (fun _ => 75) (fun _ => 50 * 1e6) (fun _ => 0.6) (fun _ => by norm_num) (fun _ => by norm_num) fun _ => by norm_num
    refine ⟨m, ?_, fun i => ⟨_, _, (h3 i).1, (h3 i).2, by rw [h1]; rfl, by rw [h2]; rfl⟩⟩
    rw [hp]
    exact congrArg Prod.fst hm
  · intro y hy
    rw [hv, List.append_nil] at hy
    rw [List.mem_singleton.mp hy]
    simp [FluidSpec.Gaseous, FluidKind.type]
  · intro i
    unfold totalSaturation
    rw [hv, List.append_nil, List.filter_cons, if_pos (by simp), List.filter_nil]
    simp only [List.map_cons, List.map_nil, usedSaturation, Option.getD_some]
    rw [sumCols_eq_sum]
    simp

end OPE
