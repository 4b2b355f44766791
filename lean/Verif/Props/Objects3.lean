import Verif.Props.Objects2

/-!
# C156: operations that raise; examples for C153 and C155
-/

namespace OPE.Objects

open Classical

variable {n : ℕ}

theorem InRange.finite {f : Col n} (h : InRange f) (hn : ∀ i, f i ≠ .nan) : ∃ r : Fin n → ℝ, f = finC r := by
  have : ∀ i, ∃ r : ℝ, f i = .fin r := by
    intro i
    have hi := h i
    cases hf : f i with
    | fin r => exact ⟨r, rfl⟩
    | posInf => rw [hf] at hi; exact absurd trivial hi.2
    | negInf => rw [hf] at hi; exact absurd trivial hi.1
    | nan => exact absurd hf (hn i)
  choose r hr using this
  exact ⟨r, funext hr⟩

theorem sum_finite {L : List (Col n)} (h : ∀ f ∈ L, ∃ r : Fin n → ℝ, f = finC r) :
    ∃ t : Fin n → ℝ, sumCols L = finC t := by
  have : ∃ R : List (Fin n → ℝ), L = R.map finC := by
    induction L with
    | nil => exact ⟨[], rfl⟩
    | cons f L ih =>
      obtain ⟨r, rfl⟩ := h f (by simp)
      obtain ⟨R, rfl⟩ := ih fun g hg => h g (List.mem_cons_of_mem _ hg)
      exact ⟨r :: R, rfl⟩
  obtain ⟨R, rfl⟩ := this
  exact ⟨_, sumCols_fin R id⟩

theorem fill_none {s : Session n} {refs : List ℕ} {m : Col n} (h : none ∉ (s.specs refs).map (·.fraction)) :
    s.fill refs m = s := by
  unfold Session.fill
  have : s.constituents.mapIdx (fun j x => if j ∈ refs ∧ x.fraction = none then { x with fraction := some m } else x)
      = s.constituents := by
    apply List.ext_getElem?
    intro j
    rw [List.getElem?_mapIdx]
    cases hx : s.constituents[j]? with
    | none => rfl
    | some x =>
      rw [Option.map_some, if_neg]
      rintro ⟨hj, hf⟩
      exact h (List.mem_map.mpr ⟨x, mem_specs hj hx, hf⟩)
  rw [this]

/-- An operation that raises leaves the session as it was, unless it builds minerals with missing values. -/
theorem step_error {s s' : Session n} (hs : s.Ok) {op : Op n} {e : Err} (h : step s op = (.error e, s'))
    (hnan : ∀ refs, op = .newMinerals refs → ∀ x ∈ s.specs refs, ∀ f, x.fraction = some f → ∀ i, f i ≠ .nan) :
    s' = s := by
  cases op with
  | constituent x =>
    rw [step] at h
    cases hc : checkFraction x.fraction <;> simp [hc] at h
    exact h.2.symm
  | assignFraction i f =>
    rw [step] at h
    split_ifs at h
    · simp at h; exact h.2.symm
    · cases hc : checkFraction f <;> simp [hc] at h
      exact h.2.symm
  | newFluids T refs m e g md =>
    rw [step] at h
    split_ifs at h <;> try (simp at h; exact h.2.symm)
    cases hf : s.fix refs <;> simp [hf] at h
    exact h.2.symm
  | assignConstituents k refs =>
    rw [step] at h
    split_ifs at h <;> simp at h <;> exact h.2.symm
  | newMinerals refs =>
    have hnan := hnan refs rfl
    rw [step] at h
    split_ifs at h with hk hl <;> try (simp at h; exact h.2.symm)
    cases hf : s.fix refs with
    | error e => simp [hf] at h; exact h.2.symm
    | ok s₁ =>
      obtain ⟨rfl, hm, hcount, hfix⟩ := fix_ok hf
      simp only [hf] at h
      split_ifs at h with hclose
      · simp at h
      · simp only [Prod.mk.injEq] at h
        rw [← h.2]
        by_cases hnone : none ∈ (s.specs refs).map (·.fraction)
        · exfalso
          apply hclose
          set fs := (s.specs refs).map (·.fraction) with hfs
          have hfin : ∀ f ∈ givenFractions fs, ∃ r : Fin n → ℝ, f = finC r := by
            intro f hf'
            obtain ⟨o, ho, ho2⟩ := List.mem_filterMap.mp hf'
            obtain ⟨x, hx, rfl⟩ := List.mem_map.mp ho
            exact InRange.finite (hs x (specs_mem hx) f ho2) (hnan x hx f ho2)
          obtain ⟨t, ht⟩ := sum_finite hfin
          obtain ⟨h1, -⟩ := fixOne_ok hfix
          have hm' := hm hnone
          rw [ht] at h1 hm'
          have hlo : ∀ i, -1e-5 ≤ t i := by
            intro i
            have := (hm' i).2
            simp [c, finC] at this
            linarith
          have hhi : ∀ i, t i ≤ 1 + 1e-5 := by
            intro i
            have := h1 i
            simpa [finC] using this
          have hc1 : fs.countP (·.isNone) = 1 := by
            rw [← count_none_eq]
            have : 0 < fs.count none := List.count_pos_iff.mpr hnone
            omega
          obtain ⟨fs', e1, -, -, -, hsum⟩ := C33_one_missing_filled fs t hc1 ht hlo hhi
          rw [hfix] at e1
          injection e1 with e1
          intro i
          have e2 : ((s.fill refs (c 1 - sumCols (givenFractions fs))).specs refs).map (·.fraction) = fs' := by
            rw [specs_fill, List.map_map, ← e1, hfs, List.map_map]
            rfl
          rw [e2, hsum]
          exact ⟨1, rfl, by norm_num⟩
        · exact fill_none hnone

/-- **C156.** In any session, an operation that raises leaves all objects as they were, if it is not the building
of a mineral section with missing values among its fractions. -/
theorem C156_raising_partial (ops : List (Op n)) (op : Op n) (e : Err) (s' : Session n)
    (h : step (run Session.start ops) op = (.error e, s'))
    (hnan : ∀ refs, op = .newMinerals refs → ∀ x ∈ (run Session.start ops).specs refs,
      ∀ f, x.fraction = some f → ∀ i, f i ≠ .nan) :
    s' = run Session.start ops :=
  step_error (run_ok (s := Session.start) (by intro y hy; simp [Session.start] at hy) ops) h hnan

/-- A constituent with a missing value as fraction, and one without fraction. -/
def missingParts : List (Op 1) :=
  [.constituent ⟨.gas (c 0.7), none, some fun _ => .nan⟩, .constituent ⟨.gas (c 0.7), none, none⟩]

theorem missingParts_session : run Session.start missingParts =
    ⟨[⟨.gas (c 0.7), none, some fun _ => .nan⟩, ⟨.gas (c 0.7), none, none⟩], [], []⟩ := by
  have h : checkFraction (some (fun _ => .nan : Col 1)) = .ok () := by
    refine ratio_iff.mpr fun i => ⟨id, id⟩
  have hn : checkFraction (none : Option (Col 1)) = .ok () := rfl
  unfold missingParts
  simp only [run, step, h, hn, Session.start]
  rfl

/-- **C156, refuted.** The building of a mineral section raises after it has changed a constituent. -/
theorem C156_refuted : ¬ ∀ (ops : List (Op 1)) (op : Op 1) (e : Err) (s' : Session 1),
    step (run Session.start ops) op = (.error e, s') → s' = run Session.start ops := by
  intro h
  have hsum : sumCols [(fun _ => .nan : Col 1)] = fun _ => .nan := by
    simp [sumCols]; funext i; rfl
  have hm : (c 1 - (fun _ => .nan) : Col 1) = fun _ => .nan := by funext i; rfl
  set s := run Session.start missingParts with hs
  have hfs : (s.specs [0, 1]).map (·.fraction) = [some fun _ => .nan, none] := by
    rw [hs, missingParts_session]; rfl
  have hg : givenFractions [some (fun _ => .nan : Col 1), none] = [fun _ => .nan] := rfl
  have hfix : s.fix [0, 1] = .ok (s.fill [0, 1] fun _ => .nan) := by
    have : ∃ fs', fixOneFraction [some (fun _ => .nan : Col 1), none] = .ok fs' := by
      unfold fixOneFraction
      dsimp only
      rw [hg, hsum, failIf_false (by rintro ⟨i, hi⟩; exact hi), bind_ok, if_neg (by simp),
        failIf_false (by simp), bind_ok, hm, ratio_iff.mpr fun i => ⟨id, id⟩, bind_ok]
      exact ⟨_, rfl⟩
    obtain ⟨fs', hf⟩ := this
    unfold Session.fix
    simp only [hfs, hf, bind_ok, hg, hsum, hm]
  have hstep : step s (.newMinerals [0, 1]) = (.error .valueError, s.fill [0, 1] fun _ => .nan) := by
    rw [step, if_neg (not_not.mpr (by intro i hi; rw [hs, missingParts_session]; simp at hi; rcases hi with rfl | rfl <;> simp)),
      if_neg (by simp), hfix]
    dsimp only
    rw [if_pos]
    intro hall
    obtain ⟨r, hr, -⟩ := hall 0
    rw [specs_fill, List.map_map] at hr
    have : s.specs [0, 1] = [⟨.gas (c 0.7), none, some fun _ => .nan⟩, ⟨.gas (c 0.7), none, none⟩] := by
      rw [hs, missingParts_session]; rfl
    rw [this] at hr
    have e : sumCols (givenFractions [some (fun _ => .nan : Col 1), some fun _ => .nan]) 0 = .nan := by
      simp [givenFractions, sumCols]; rfl
    have : sumCols (givenFractions [some (fun _ => .nan : Col 1), some fun _ => .nan]) 0 = .fin r := hr
    rw [e] at this
    cases this
  have := h missingParts (.newMinerals [0, 1]) .valueError _ hstep
  have hc := congrArg (fun q : Session 1 => (q.constituents[1]?).map (·.fraction.isNone)) this
  rw [← hs, hs, missingParts_session] at hc
  simp [Session.fill, List.mapIdx_cons] at hc

/-! ## Examples -/

/-- An assignment outside the range raises, and changes nothing (C153, C156). -/
example : step (run Session.start threeParts) (.assignFraction 0 (some (c 2))) =
    (.error .valueError, run Session.start threeParts) := by
  have h : checkFraction (some (c 2 : Col 1)) = .error .valueError := by
    rw [checkFraction, fractionIsRatio, failIf_false (by
      rintro ⟨i, hi⟩; simp only [c, Num.fin_lt] at hi; norm_num at hi), bind_ok,
      failIf_true ⟨0, by simp only [c, Num.fin_lt]; norm_num⟩]
  rw [step, if_neg (by rw [threeParts_session]; simp), h]

/-- The fraction that was filled in is a fraction (C153). -/
example : ∃ x ∈ (run Session.start (threeParts ++ [fluidsOf [0, 1]])).constituents, x.fraction = some (c (1 - 0.3)) := by
  have a1 := build_one_missing (s := run Session.start threeParts) (refs := [0, 1]) (a := 0.3)
    (by rw [threeParts_session]; intro i hi; simp at hi; rcases hi with rfl | rfl <;> simp) (by simp)
    (by rw [threeParts_session]; rfl) (by norm_num) (by norm_num)
  have e : run Session.start (threeParts ++ [fluidsOf [0, 1]]) = (step (run Session.start threeParts) (fluidsOf [0, 1])).2 := rfl
  rw [e, a1.2, threeParts_session]
  refine ⟨gasPart (some (c (1 - 0.3))), ?_, rfl⟩
  simp [Session.fill, gasPart, List.mapIdx_cons]

/-- A section is built; afterwards another one is tried, which raises, and a constituent is made (C155). -/
example := by
  have a1 := build_one_missing (s := run Session.start threeParts) (refs := [0, 1]) (a := 0.3)
    (by rw [threeParts_session]; intro i hi; simp at hi; rcases hi with rfl | rfl <;> simp) (by simp)
    (by rw [threeParts_session]; rfl) (by norm_num) (by norm_num)
  exact C155_built_partial threeParts [fluidsOf [2, 1], .constituent (gasPart none), .assignFraction 2 none]
    (run Session.start threeParts) (step (run Session.start threeParts) (fluidsOf [0, 1])).2 rfl (c 80) [0, 1]
    .wood (.fin 3) none .default (by rw [← a1.1]; rfl) (by
      intro op hop
      simp at hop
      rcases hop with rfl | rfl | rfl
      · exact ⟨fun _ _ => id, id⟩
      · exact ⟨fun _ _ => id, id⟩
      · refine ⟨fun j hj => ?_, id⟩
        simp at hj
        rcases hj with rfl | rfl <;> exact fun h => by cases h)

end OPE.Objects
