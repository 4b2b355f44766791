import Verif.Props.EndToEnd

/-!
# Which fractions of minerals and fluids are accepted, and what becomes of them (C107)
-/

namespace OPE

open Classical

variable {n : ℕ}

/-- Sum of the given fractions in row `i`. -/
def givenTotal (fs : List (Option (Fin n → ℝ))) (i : Fin n) : ℝ := ((fs.filterMap id).map fun f => f i).sum

/-- The fractions of a section that is accepted: at least one constituent; every given fraction between 0 and 1
and their total at most 1 (with a tolerance of 1e-5); at most one is omitted, and then the total is not
negative (with the tolerance). -/
def AcceptableFractions (fs : List (Option (Fin n → ℝ))) : Prop :=
  fs ≠ [] ∧ (∀ f, some f ∈ fs → ∀ i, -1e-5 ≤ f i ∧ f i ≤ 1 + 1e-5) ∧ (∀ i, givenTotal fs i ≤ 1 + 1e-5) ∧
  fs.countP (·.isNone) ≤ 1 ∧ (none ∈ fs → ∀ i, -1e-5 ≤ givenTotal fs i)

/-- A given fraction stays, the omitted one is what is left. -/
def filledFraction (fs : List (Option (Fin n → ℝ))) (f : Option (Fin n → ℝ)) : Fin n → ℝ :=
  f.getD fun i => 1 - givenTotal fs i

theorem sumCols_map_fin (fs : List (Fin n → ℝ)) : sumCols (fs.map finC) = finC fun i => (fs.map fun f => f i).sum := by
  rw [sumCols_eq_sum]
  funext i
  induction fs with
  | nil => rfl
  | cons f fs ih => simp only [List.map_cons, List.sum_cons, Pi.add_apply, ih, finC_apply, Num.fin_add]

theorem givenFractions_fin (fs : List (Option (Fin n → ℝ))) :
    givenFractions (fs.map (·.map finC)) = (fs.filterMap id).map finC := by
  unfold givenFractions
  induction fs with
  | nil => rfl
  | cons f fs ih => cases f <;> simp_all

theorem givenFractions_total (fs : List (Option (Fin n → ℝ))) :
    sumCols (givenFractions (fs.map (·.map finC))) = finC (givenTotal fs) := by
  rw [givenFractions_fin, sumCols_map_fin]
  rfl

theorem ratio_iff (f : Fin n → ℝ) :
    (fractionIsRatio (finC f) = .ok () ↔ ∀ i, -1e-5 ≤ f i ∧ f i ≤ 1 + 1e-5) ∧
    (¬ (∀ i, -1e-5 ≤ f i ∧ f i ≤ 1 + 1e-5) → fractionIsRatio (finC f) = .error .valueError) := by
  unfold fractionIsRatio
  simp only [finC_apply, Num.fin_lt]
  by_cases h1 : ∃ i, f i < -1e-5
  · rw [failIf_true h1]
    obtain ⟨i, hi⟩ := h1
    refine ⟨⟨fun h => (by cases h), fun h => absurd (h i).1 (not_le.mpr hi)⟩, fun _ => rfl⟩
  · rw [failIf_false h1, bind_ok]
    by_cases h2 : ∃ i, 1 + 1e-5 < f i
    · rw [failIf_true h2]
      obtain ⟨i, hi⟩ := h2
      refine ⟨⟨fun h => (by cases h), fun h => absurd (h i).2 (not_le.mpr hi)⟩, fun _ => rfl⟩
    · rw [failIf_false h2]
      push Not at h1 h2
      exact ⟨⟨fun _ i => ⟨h1 i, h2 i⟩, fun _ => rfl⟩, fun h => absurd (fun i => ⟨h1 i, h2 i⟩) h⟩

theorem forM_error {α : Type} {l : List α} {f : α → Except Err Unit} {e : Err}
    (he : ∀ x ∈ l, f x = .ok () ∨ f x = .error e) (h : ∃ x ∈ l, f x = .error e) : l.forM f = .error e := by
  induction l with
  | nil => obtain ⟨x, hx, -⟩ := h; cases hx
  | cons x l ih =>
    change (f x >>= fun _ => l.forM f) = _
    rcases he x (by simp) with hx | hx
    · rw [hx, bind_ok]
      refine ih (fun y hy => he y (by simp [hy])) ?_
      obtain ⟨y, hy, hy2⟩ := h
      rcases List.mem_cons.mp hy with rfl | hy
      · rw [hx] at hy2; cases hy2
      · exact ⟨y, hy, hy2⟩
    · rw [hx]; rfl

/-- The check of every given fraction. -/
theorem forM_ratio {α β : Type} (L : List α) (g : α → Option (Fin n → ℝ)) (sp : α → β) (F : β → Except Err Unit)
    (h0 : ∀ x, g x = none → F (sp x) = .ok ())
    (h1 : ∀ x f, g x = some f → F (sp x) = fractionIsRatio (finC f)) :
    ((∀ f, some f ∈ L.map g → ∀ i, -1e-5 ≤ f i ∧ f i ≤ 1 + 1e-5) → (L.map sp).forM F = .ok ()) ∧
    (¬ (∀ f, some f ∈ L.map g → ∀ i, -1e-5 ≤ f i ∧ f i ≤ 1 + 1e-5) →
      (L.map sp).forM F = .error .valueError) := by
  constructor
  · intro h
    refine forM_ok _ _ fun y hy => ?_
    obtain ⟨x, hx, rfl⟩ := List.mem_map.mp hy
    cases hg : g x with
    | none => exact h0 x hg
    | some f =>
      rw [h1 x f hg]
      exact (ratio_iff f).1.mpr (h f (List.mem_map.mpr ⟨x, hx, hg⟩))
  · intro h
    push Not at h
    obtain ⟨f, hf, i, hi⟩ := h
    obtain ⟨x, hx, hg⟩ := List.mem_map.mp hf
    refine forM_error (fun y hy => ?_) ⟨sp x, List.mem_map_of_mem hx, ?_⟩
    · obtain ⟨z, -, rfl⟩ := List.mem_map.mp hy
      cases hy : g z with
      | none => exact .inl (h0 z hy)
      | some f =>
        rw [h1 z f hy]
        by_cases hr : ∀ i, -1e-5 ≤ f i ∧ f i ≤ 1 + 1e-5
        · exact .inl ((ratio_iff f).1.mpr hr)
        · exact .inr ((ratio_iff f).2 hr)
    · rw [h1 x f hg]
      exact (ratio_iff f).2 fun hr => absurd (hr i).2 (not_le.mpr (hi (hr i).1))

theorem pi_list_sum (l : List (Fin n → ℝ)) (i : Fin n) : l.sum i = (l.map fun f => f i).sum := by
  induction l with
  | nil => rfl
  | cons f l ih => simp [ih]

/-- `fix_one_fraction` on numbers. -/
theorem fixOne_fin (fs : List (Option (Fin n → ℝ))) :
    ((∀ i, givenTotal fs i ≤ 1 + 1e-5) → fs.countP (·.isNone) ≤ 1 → (none ∈ fs → ∀ i, -1e-5 ≤ givenTotal fs i) →
      ∃ r, fixOneFraction (fs.map (·.map finC)) = .ok r ∧
        givenFractions r = fs.map fun f => finC (filledFraction fs f)) ∧
    (¬ ((∀ i, givenTotal fs i ≤ 1 + 1e-5) ∧ fs.countP (·.isNone) ≤ 1 ∧
        (none ∈ fs → ∀ i, -1e-5 ≤ givenTotal fs i)) →
      fixOneFraction (fs.map (·.map finC)) = .error .valueError) := by
  have hcount : (fs.map (·.map (finC (n := n)))).countP (·.isNone) = fs.countP (·.isNone) := by
    rw [List.countP_map]
    congr 1
    funext f
    cases f <;> rfl
  have hnone : none ∈ fs ↔ 0 < fs.countP (·.isNone) := by
    rw [List.countP_pos_iff]
    constructor
    · intro h; exact ⟨none, h, rfl⟩
    · rintro ⟨f, hf, h⟩
      cases f with
      | none => exact hf
      | some f => cases h
  have hm : (c 1 - finC (givenTotal fs) : Col n) = finC fun i => 1 - givenTotal fs i := by funext i; simp
  have hlt : (∃ i, Num.fin (1 + 1e-5) < (finC (givenTotal fs) : Col n) i) ↔ ¬ ∀ i, givenTotal fs i ≤ 1 + 1e-5 := by
    simp only [finC_apply, Num.fin_lt, not_forall, not_le]
  unfold fixOneFraction
  dsimp only
  rw [givenFractions_total, count_none_eq, hcount, hm]
  constructor
  · intro h1 h2 h3
    rw [failIf_false (fun h => hlt.mp h h1), bind_ok]
    by_cases h0 : fs.countP (·.isNone) = 0
    · rw [if_pos h0]
      refine ⟨_, rfl, ?_⟩
      rw [givenFractions_fin, filterMap_id_of_no_none fs (fun i => 1 - givenTotal fs i) h0, List.map_map]
      rfl
    · rw [if_neg h0, failIf_false (by omega), bind_ok]
      have := h3 (hnone.mpr (by omega))
      rw [(ratio_iff _).1.mpr fun i => ⟨by have := h1 i; linarith, by have := this i; linarith⟩, bind_ok]
      refine ⟨_, rfl, ?_⟩
      rw [givenFractions_filled, List.map_map]
      apply List.map_congr_left
      intro f _
      cases f <;> rfl
  · intro h
    by_cases h1 : ∀ i, givenTotal fs i ≤ 1 + 1e-5
    · rw [failIf_false (fun h => hlt.mp h h1), bind_ok]
      by_cases h2 : fs.countP (·.isNone) ≤ 1
      · have h3 : ¬ (none ∈ fs → ∀ i, -1e-5 ≤ givenTotal fs i) := fun h3 => h ⟨h1, h2, h3⟩
        have h4 : none ∈ fs := by
          by_contra h4
          exact h3 fun h => absurd h h4
        rw [if_neg (by have := hnone.mp h4; omega), failIf_false (by omega), bind_ok, (ratio_iff _).2]
        · rfl
        · intro h5
          refine h3 fun _ i => ?_
          have := (h5 i).2
          linarith
      · rw [if_neg (by omega), failIf_true (by omega)]
        rfl
    · rw [failIf_true (hlt.mpr h1)]
      rfl

/-- A fluid constituent with a fraction given as numbers, or omitted. -/
structure FluidGiven (n : ℕ) where
  kind : FluidKind n
  model : Option Provider
  fraction : Option (Fin n → ℝ)

/-- **C107, fluids.** A fluids section with acceptable fractions is accepted: the constituents stay in order,
given fractions are kept, an omitted one becomes what the others leave.  Any other list of fractions raises
`ValueError`. -/
theorem C107_fluids (T : Col n) (L : List (FluidGiven n)) (method : MixMethod) (e : Num)
    (gases : Option (List ℤ)) (model : Provider) :
    (AcceptableFractions (L.map (·.fraction)) →
      ∃ f : Fluids n, mkFluids T (L.map fun x => ⟨x.kind, x.model, x.fraction.map finC⟩) method e gases model = .ok f ∧
        f.constituents = (L.map fun x => ⟨x.kind, x.model, finC (filledFraction (L.map (·.fraction)) x.fraction)⟩) ∧
        f.temperature = T ∧ f.method = method ∧ f.brieConstant = e ∧ f.model = model ∧
        ∀ g, gases = some g → f.brieGases = g) ∧
    (¬ AcceptableFractions (L.map (·.fraction)) →
      mkFluids T (L.map fun x => ⟨x.kind, x.model, x.fraction.map finC⟩) method e gases model =
        .error .valueError) := by
  have hmap : (L.map fun x => (⟨x.kind, x.model, x.fraction.map finC⟩ : FluidSpec n)).map (·.fraction)
      = (L.map (·.fraction)).map (·.map finC) := by simp
  have hlt : (∃ i, Num.fin (1 + 1e-5) < (finC (givenTotal (L.map (·.fraction))) : Col n) i) ↔
      ¬ ∀ i, givenTotal (L.map (·.fraction)) i ≤ 1 + 1e-5 := by
    simp only [finC_apply, Num.fin_lt, not_forall, not_le]
  obtain ⟨g1, g2⟩ := forM_ratio L (·.fraction)
    (fun x => (⟨x.kind, x.model, x.fraction.map finC⟩ : FluidSpec n)) (fun x => match x.fraction with
      | none => (.ok () : Except Err Unit)
      | some f => fractionIsRatio f) (fun x h => by simp [h]) (fun x f h => by simp [h])
  obtain ⟨x1, x2⟩ := fixOne_fin (L.map (·.fraction))
  have hlen : (L.map fun x => (⟨x.kind, x.model, x.fraction.map finC⟩ : FluidSpec n)).length < 1 ↔
      L.map (·.fraction) = [] := by
    rw [List.length_map, Nat.lt_one_iff, List.length_eq_zero_iff, List.map_eq_nil_iff]
  unfold mkFluids
  rw [hmap, givenFractions_total]
  constructor
  · rintro ⟨h0, h1, h2, h3, h4⟩
    obtain ⟨r, hr, hr2⟩ := x1 h2 h3 h4
    refine ⟨{ temperature := T, method, brieConstant := e, model
              brieGases := gases.getD (defaultBrieGases (L.map fun x => ⟨x.kind, x.model, x.fraction.map finC⟩))
              constituents := (L.map fun x => (⟨x.kind, x.model, x.fraction.map finC⟩ : FluidSpec n)).zipWith
                (fun x f => ⟨x.kind, x.model, f⟩) (givenFractions r) }, ?_, ?_, rfl, rfl, rfl, rfl, ?_⟩
    · erw [g1 h1]
      rw [bind_ok, failIf_false (fun h => h0 (hlen.mp h)), bind_ok,
        failIf_false (fun h => hlt.mp h h2), bind_ok, hr, bind_ok]
    · dsimp only
      rw [hr2, List.map_map, List.zipWith_map, List.zipWith_self]
      rfl
    · rintro g rfl; rfl
  · intro h
    by_cases h1 : ∀ f, some f ∈ L.map (·.fraction) → ∀ i, -1e-5 ≤ f i ∧ f i ≤ 1 + 1e-5
    · erw [g1 h1]
      rw [bind_ok]
      by_cases h0 : L.map (·.fraction) = []
      · rw [failIf_true (hlen.mpr h0)]; rfl
      · rw [failIf_false (fun h => h0 (hlen.mp h)), bind_ok]
        by_cases h2 : ∀ i, givenTotal (L.map (·.fraction)) i ≤ 1 + 1e-5
        · rw [failIf_false (fun h => hlt.mp h h2), bind_ok, x2]
          · rfl
          · rintro ⟨-, h3, h4⟩; exact h ⟨h0, h1, h2, h3, h4⟩
        · rw [failIf_true (hlt.mpr h2)]; rfl
    · erw [g2 h1]; rfl

/-- A mineral with a fraction given as numbers, or omitted. -/
structure MineralGiven (n : ℕ) where
  mat : Mat n
  fraction : Option (Fin n → ℝ)

/-- **C107, minerals.** The same for minerals, whose given fractions must moreover sum to one (within 2e-5) if
none is omitted. -/
theorem C107_minerals (L : List (MineralGiven n)) :
    (AcceptableFractions (L.map (·.fraction)) →
      (none ∈ L.map (·.fraction) ∨ ∀ i, |givenTotal (L.map (·.fraction)) i - 1| ≤ 2e-5) →
      mkMinerals (L.map fun x => ⟨x.mat, x.fraction.map finC⟩) =
        .ok (L.map fun x => (x.mat, finC (filledFraction (L.map (·.fraction)) x.fraction)))) ∧
    (¬ (AcceptableFractions (L.map (·.fraction)) ∧
        (none ∈ L.map (·.fraction) ∨ ∀ i, |givenTotal (L.map (·.fraction)) i - 1| ≤ 2e-5)) →
      mkMinerals (L.map fun x => ⟨x.mat, x.fraction.map finC⟩) = .error .valueError) := by
  have hmap : (L.map fun x => (⟨x.mat, x.fraction.map finC⟩ : MineralIn n)).map (·.fraction)
      = (L.map (·.fraction)).map (·.map finC) := by simp
  obtain ⟨g1, g2⟩ := forM_ratio L (·.fraction)
    (fun x => (⟨x.mat, x.fraction.map finC⟩ : MineralIn n)) (fun x => match x.fraction with
      | none => (.ok () : Except Err Unit)
      | some f => fractionIsRatio f) (fun x h => by simp [h]) (fun x f h => by simp [h])
  obtain ⟨x1, x2⟩ := fixOne_fin (L.map (·.fraction))
  have hlen : (L.map fun x => (⟨x.mat, x.fraction.map finC⟩ : MineralIn n)).length < 1 ↔
      L.map (·.fraction) = [] := by
    rw [List.length_map, Nat.lt_one_iff, List.length_eq_zero_iff, List.map_eq_nil_iff]
  have hclose : (∀ i, isCloseToOne (sumCols ((L.map (·.fraction)).map
        fun f => finC (filledFraction (L.map (·.fraction)) f)) i)) ↔
      ∀ i, |(((L.map (·.fraction)).map fun f => filledFraction (L.map (·.fraction)) f i)).sum - 1| ≤ 2e-5 := by
    refine forall_congr' fun i => ?_
    have e : ((L.map (·.fraction)).map fun f => (finC (filledFraction (L.map (·.fraction)) f) : Col n))
        = ((L.map (·.fraction)).map fun f => filledFraction (L.map (·.fraction)) f).map finC := by
      simp [List.map_map, Function.comp_def]
    rw [e, sumCols_map_fin]
    unfold isCloseToOne
    simp only [finC_apply, Num.fin_inj, exists_eq_left', List.map_map, Function.comp_def]
    norm_num
  have hsum : (L.map (·.fraction)).countP (·.isNone) ≤ 1 →
      ((∀ i, |(((L.map (·.fraction)).map fun f => filledFraction (L.map (·.fraction)) f i)).sum - 1| ≤ 2e-5) ↔
      (none ∈ L.map (·.fraction) ∨ ∀ i, |givenTotal (L.map (·.fraction)) i - 1| ≤ 2e-5)) := by
    intro h
    generalize L.map (·.fraction) = fs at h
    have hs : ∀ i, (fs.map fun f => filledFraction fs f i).sum
        = givenTotal fs i + fs.countP (·.isNone) * (1 - givenTotal fs i) := by
      intro i
      have := congrFun (sum_fill fs fun i => 1 - givenTotal fs i) i
      rw [pi_list_sum, List.map_map] at this
      refine this.trans ?_
      rw [Pi.add_apply, pi_list_sum, Pi.smul_apply, nsmul_eq_mul]
      rfl
    have hnone : none ∈ fs ↔ 0 < fs.countP (·.isNone) := by
      rw [List.countP_pos_iff]
      constructor
      · intro h; exact ⟨none, h, rfl⟩
      · rintro ⟨f, hf, h⟩
        cases f with
        | none => exact hf
        | some f => cases h
    simp only [hs]
    rcases Nat.le_one_iff_eq_zero_or_eq_one.mp h with h0 | h0
    · have : none ∉ fs := by rw [hnone]; omega
      simp [h0, this]
    · have : none ∈ fs := by rw [hnone]; omega
      simp only [h0, this, true_or, iff_true]
      intro i
      norm_num
  unfold mkMinerals
  rw [hmap]
  constructor
  · rintro ⟨h0, h1, h2, h3, h4⟩ h5
    obtain ⟨r, hr, hr2⟩ := x1 h2 h3 h4
    erw [g1 h1]
    rw [bind_ok, failIf_false (fun h => h0 (hlen.mp h)), bind_ok, hr, bind_ok]
    dsimp only
    rw [hr2, failIf_false (not_not.mpr (hclose.mpr ((hsum h3).mpr h5))), bind_ok]
    rw [List.map_map, List.map_map, List.zip_map']
    rfl
  · intro h
    by_cases h1 : ∀ f, some f ∈ L.map (·.fraction) → ∀ i, -1e-5 ≤ f i ∧ f i ≤ 1 + 1e-5
    · erw [g1 h1]
      rw [bind_ok]
      by_cases h0 : L.map (·.fraction) = []
      · rw [failIf_true (hlen.mpr h0)]; rfl
      · rw [failIf_false (fun h => h0 (hlen.mp h)), bind_ok]
        by_cases h2 : (∀ i, givenTotal (L.map (·.fraction)) i ≤ 1 + 1e-5) ∧
            (L.map (·.fraction)).countP (·.isNone) ≤ 1 ∧
            (none ∈ L.map (·.fraction) → ∀ i, -1e-5 ≤ givenTotal (L.map (·.fraction)) i)
        · obtain ⟨k1, k2, k3⟩ := h2
          obtain ⟨r, hr, hr2⟩ := x1 k1 k2 k3
          rw [hr, bind_ok]
          dsimp only
          rw [hr2, failIf_true]
          · rfl
          · intro h5
            exact h ⟨⟨h0, h1, k1, k2, k3⟩, (hsum k2).mp (hclose.mp h5)⟩
        · rw [x2 h2]; rfl
    · erw [g2 h1]; rfl

/-- 0.25, nothing, 0.5: accepted, with 0.25 filled in. -/
example (a b d : Mat 2) : ∃ r, mkMinerals [⟨a, some (c 0.25)⟩, ⟨b, none⟩, ⟨d, some (c 0.5)⟩] = .ok r ∧
    r.map (·.1) = [a, b, d] ∧ ∀ i, (r.map fun x => x.2 i) = [Num.fin 0.25, Num.fin 0.25, Num.fin 0.5] := by
  have h := (C107_minerals [⟨a, some fun _ : Fin 2 => (0.25 : ℝ)⟩, ⟨b, none⟩, ⟨d, some fun _ => 0.5⟩]).1
    ⟨by simp, by
      intro f hf i
      simp only [List.map_cons, List.map_nil, List.mem_cons, Option.some.injEq, reduceCtorEq, List.not_mem_nil,
        or_false, false_or] at hf
      rcases hf with rfl | rfl <;> norm_num, by
      intro i; simp [givenTotal]; norm_num, by simp, by
      intro _ i; simp [givenTotal]; norm_num⟩ (.inl (by simp))
  refine ⟨_, h, rfl, fun i => ?_⟩
  simp [filledFraction, givenTotal]
  norm_num

end OPE
