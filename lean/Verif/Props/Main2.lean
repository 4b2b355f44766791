import Verif.Props.Main

/-!
# Threshold mode (C52–C55, C57) and the threshold argument (C56)
-/

namespace OPE.Main

open Classical

variable {K D I : Type}

theorem length_numbered (rows : List D) : (numbered rows).length = rows.length := by
  simp [numbered]

theorem rowResults_eq (w : World K D I) (k : K) (l : List (ℕ × D)) :
    rowResults w (l.map fun x => (w.parse k (some [x])).toOption) = l.filterMap (rowAlone w k) := by
  unfold rowResults
  rw [List.filterMap_map]
  congr 1
  funext x
  simp only [Function.comp_apply, rowAlone]
  rcases w.parse k (some [x]) with e | inp
  · rfl
  · simp only [Except.toOption, Option.bind_some]
    rcases w.calculate inp with e | t <;> rfl

/-- The successful rows' tables. -/
theorem runWithThreshold_eq (w : World K D I) (k : K) (rows : List D) (T : ℝ)
    (hk : w.config = .ok (some k)) (hd : w.data = some (.ok rows)) :
    runWithThreshold w T =
      if successPercentage w.fl (rows.length - ((numbered rows).filterMap (rowAlone w k)).length)
          rows.length < T then ⟨.ok (-5), [], []⟩
      else if ((numbered rows).filterMap (rowAlone w k)).isEmpty then ⟨.ok (-1), [], []⟩
      else writeAndCalibrate w ((numbered rows).filterMap (rowAlone w k)).flatten := by
  unfold runWithThreshold makePerRowInput loadConfig loadData
  rw [hk, hd]
  simp only [Option.isNone_some, Bool.false_eq_true, if_false, Bind.bind, Except.bind,
    labelled_eq, rowResults_eq, List.length_map, length_numbered]

/-- **C52.** Exact arithmetic: with fewer successes than the threshold the code is −5 and nothing is
written; otherwise, if any row succeeds, the table written consists of the results of the rows that
succeed alone, in row order, and the exit code says whether writing and calibration succeeded. -/
theorem C52_threshold_rows (w : World K D I) (k : K) (rows : List D) (T : ℝ)
    (ht : w.threshold = some T) (hk : w.config = .ok (some k)) (hd : w.data = some (.ok rows))
    (hfl : w.fl = id) (hrows : rows ≠ []) (good : List Table)
    (hgood : good = (numbered rows).filterMap (rowAlone w k)) :
    ((good.length : ℝ) / rows.length * 100 < T → run w = ⟨.ok (-5), [], []⟩) ∧
    (T ≤ (good.length : ℝ) / rows.length * 100 → good = [] → run w = ⟨.ok (-1), [], []⟩) ∧
    (T ≤ (good.length : ℝ) / rows.length * 100 → good ≠ [] →
      (run w).written = [good.flatten] ∧
      ∃ code, (run w).code = .ok code ∧ (code = 0 ∨ code = -1 ∨ code = -4) ∧
        (code = 0 ↔ w.write good.flatten = .ok () ∧
          ∀ file, w.calibration = some file → CalibrationUsable file) ∧
        (code = -4 ↔ w.write good.flatten = .ok () ∧
          ∃ file, w.calibration = some file ∧ CalibrationBad file)) := by
  have hlen : good.length ≤ rows.length := by
    rw [hgood, ← length_numbered rows]; exact List.length_filterMap_le _ _
  have hpos : (0 : ℝ) < rows.length := by
    exact_mod_cast List.length_pos_iff.mpr hrows
  have hne : rows.length ≠ 0 := fun h => hrows (List.length_eq_zero_iff.mp h)
  have hp : successPercentage w.fl (rows.length - good.length) rows.length
      = (good.length : ℝ) / rows.length * 100 := by
    unfold successPercentage
    rw [if_neg hne, hfl, Nat.cast_sub hlen]
    simp only [id]
    field_simp
    ring
  have hrun : run w = runWithThreshold w T := by unfold run; rw [ht]
  rw [hrun, runWithThreshold_eq w k rows T hk hd, ← hgood, hp]
  refine ⟨fun h => by rw [if_pos h], fun h hg => ?_, fun h hg => ?_⟩
  · rw [if_neg (not_lt.mpr h), if_pos (by rw [hg]; rfl)]
  · rw [if_neg (not_lt.mpr h), if_neg (by simpa using hg)]
    obtain ⟨code, h1, h2, h3, h4, h5⟩ := writeAndCalibrate_code w good.flatten
    exact ⟨h2, code, h1, h3, h4, h5⟩

/-- An empty data file in threshold mode: unexpected error, whatever the threshold. -/
theorem C52_no_rows (w : World K D I) (k : K) (T : ℝ) (ht : w.threshold = some T) (hT : T ≤ 100)
    (hk : w.config = .ok (some k)) (hd : w.data = some (.ok [])) :
    run w = ⟨.ok (-1), [], []⟩ := by
  have hrun : run w = runWithThreshold w T := by unfold run; rw [ht]
  rw [hrun, runWithThreshold_eq w k [] T hk hd]
  simp [numbered, successPercentage, not_lt.mpr hT]

/-- Without data file threshold mode refuses to run. -/
theorem C52_no_data (w : World K D I) (T : ℝ) (ht : w.threshold = some T) (hd : w.data = none) :
    run w = ⟨.ok (-5), [], []⟩ := by
  unfold run runWithThreshold
  rw [ht, hd]; rfl

/-- **C54, refuted.** Whatever is malformed in configuration or data, with a data file and a threshold
the run ends with the exception `InputError` instead of exit code −2. -/
theorem C54_refuted (w : World K D I) (T : ℝ) (ht : w.threshold = some T)
    (hd : w.data ≠ none)
    (hbad : w.config = .error .yamlError ∨ w.config = .ok none ∨
      ∃ k, w.config = .ok (some k) ∧
        (w.data = some (.error .parserError) ∨ w.data = some (.error .emptyDataError))) :
    run w = ⟨.error .inputError, [], []⟩ ∧
    run { w with threshold := none } = ⟨.ok (-2), [], []⟩ := by
  have h0 : w.data.isNone = false := by cases h : w.data <;> simp_all
  constructor
  · unfold run runWithThreshold makePerRowInput loadConfig loadData
    rw [ht]
    dsimp only
    rw [h0]
    rcases hbad with h | h | ⟨k, h, h' | h'⟩
    · rw [h]; rfl
    · rw [h]; rfl
    · rw [h, h']; rfl
    · rw [h, h']; rfl
  · unfold run makeInput loadConfig loadData
    dsimp only
    rcases hbad with h | h | ⟨k, h, h' | h'⟩
    · rw [h]; rfl
    · rw [h]; rfl
    · rw [h, h']; rfl
    · rw [h, h']; rfl

/-- **C54, the part that holds.** If configuration and data can be read, no exception escapes. -/
theorem C54_partial (w : World K D I) (T : ℝ) (ht : w.threshold = some T) (k : K)
    (hk : w.config = .ok (some k)) (hd : w.data = none ∨ ∃ rows, w.data = some (.ok rows)) :
    ∃ code, (run w).code = .ok code ∧ (code = 0 ∨ code = -1 ∨ code = -4 ∨ code = -5) := by
  rcases hd with hd | ⟨rows, hd⟩
  · rw [C52_no_data w T ht hd]; exact ⟨_, rfl, by simp⟩
  · have hrun : run w = runWithThreshold w T := by unfold run; rw [ht]
    rw [hrun, runWithThreshold_eq w k rows T hk hd]
    split_ifs
    · exact ⟨_, rfl, by simp⟩
    · exact ⟨_, rfl, by simp⟩
    · obtain ⟨code, h1, h2, h3, h4, h5⟩ := writeAndCalibrate_code w
        ((numbered rows).filterMap (rowAlone w k)).flatten
      exact ⟨code, h1, by tauto⟩

/-- **C55, refuted.** A row that fails is missing from the output: the tables written hold one block per
successful row only, although the help text promises NaN rows. -/
theorem C55_refuted (w : World K D I) (k : K) (rows : List D) (T : ℝ)
    (ht : w.threshold = some T) (hk : w.config = .ok (some k)) (hd : w.data = some (.ok rows))
    (hone : ∀ x t, rowAlone w k x = some t → t.length = 1)
    (hfail : ∃ x ∈ numbered rows, rowAlone w k x = none) :
    ∀ t ∈ (run w).written, t.length < rows.length := by
  have hrun : run w = runWithThreshold w T := by unfold run; rw [ht]
  rw [hrun, runWithThreshold_eq w k rows T hk hd]
  have hsum : ∀ l : List (ℕ × D), (l.filterMap (rowAlone w k)).flatten.length
      = (l.filterMap (rowAlone w k)).length := by
    intro l
    induction l with
    | nil => rfl
    | cons x l ih =>
      rw [List.filterMap_cons]
      rcases hx : rowAlone w k x with _ | t
      · exact ih
      · simp only [List.flatten_cons, List.length_append, List.length_cons, ih, hone x t hx]
        omega
  have hlt : ∀ l : List (ℕ × D), (∃ x ∈ l, rowAlone w k x = none) →
      (l.filterMap (rowAlone w k)).length < l.length := by
    intro l
    induction l with
    | nil => simp
    | cons x l ih =>
      rintro ⟨y, hy, hn⟩
      rw [List.filterMap_cons]
      rcases hx : rowAlone w k x with _ | t
      · have := List.length_filterMap_le (rowAlone w k) l
        simp only [List.length_cons]; omega
      · rcases List.mem_cons.mp hy with rfl | hy
        · rw [hn] at hx; cases hx
        · have := ih ⟨y, hy, hn⟩
          simp only [List.length_cons]; omega
  split_ifs
  · simp
  · simp
  · obtain ⟨code, -, h2, -⟩ := writeAndCalibrate_code w
      ((numbered rows).filterMap (rowAlone w k)).flatten
    rw [h2]
    intro t htt
    rw [List.mem_singleton] at htt
    subst htt
    rw [hsum]
    have := hlt _ hfail
    rwa [length_numbered] at this

/-- **C56.** Exactly the argument strings `float` turns into a number in [0, 100] are accepted; text, NaN
and the infinities are not. -/
theorem C56_threshold_argument (toFloat : ToFloat) (s : String) (v : Num) :
    percentage toFloat s = some v ↔
      toFloat s = some v ∧ ∃ x : ℝ, v = Num.fin x ∧ 0 ≤ x ∧ x ≤ 100 := by
  unfold percentage
  rcases toFloat s with _ | u
  · simp
  · cases u with
    | fin x =>
      simp only [Num.fin_le]
      by_cases h : 0 ≤ x ∧ x ≤ 100
      · rw [if_pos h]
        constructor
        · intro h'; exact ⟨h', x, (Option.some.inj h').symm, h⟩
        · exact fun h' => h'.1
      · rw [if_neg h]
        constructor
        · intro h'; cases h'
        · rintro ⟨h1, y, rfl, hy⟩
          injection h1 with h1; injection h1 with h1; subst h1
          exact absurd hy h
    | posInf =>
      dsimp only
      rw [if_neg (by rintro ⟨-, h⟩; exact absurd h (by simp [LE.le, Num.le, Num.lt, Num.eq]))]
      constructor
      · intro h; cases h
      · rintro ⟨h, y, rfl, -⟩; cases h
    | negInf =>
      dsimp only
      rw [if_neg (by rintro ⟨h, -⟩; exact absurd h (by simp [LE.le, Num.le, Num.lt, Num.eq]))]
      constructor
      · intro h; cases h
      · rintro ⟨h, y, rfl, -⟩; cases h
    | nan =>
      dsimp only
      rw [if_neg (by rintro ⟨h, -⟩; exact absurd h (by simp [LE.le, Num.le, Num.lt, Num.eq]))]
      constructor
      · intro h; cases h
      · rintro ⟨h, y, rfl, -⟩; cases h

/-- **C57.** In both modes, whatever happens, at most one table is handed to the output; if one is, it is
complete (the result of the whole input, or of all successful rows), and the exit code is neither −2, −3
nor −5; exit code 0 means exactly one table was handed over. -/
theorem C57_written_once (w : World K D I) :
    ((run w).written = [] ∧ (run w).code ≠ .ok 0) ∨
    ∃ t, (run w).written = [t] ∧
      ((run w).code = .ok 0 ∨ (run w).code = .ok (-1) ∨ (run w).code = .ok (-4)) ∧
      ((w.threshold = none ∧ ∃ inp, Reads w inp ∧ w.calculate inp = .ok t) ∨
       (w.threshold ≠ none ∧ ∃ k rows, w.config = .ok (some k) ∧ w.data = some (.ok rows) ∧
          t = ((numbered rows).filterMap (rowAlone w k)).flatten)) := by
  have fin : ∀ t, (writeAndCalibrate w t).written = [t] ∧
      ((writeAndCalibrate w t).code = .ok 0 ∨ (writeAndCalibrate w t).code = .ok (-1) ∨
        (writeAndCalibrate w t).code = .ok (-4)) := by
    intro t
    obtain ⟨code, h1, h2, h3, -⟩ := writeAndCalibrate_code w t
    exact ⟨h2, by rw [h1]; rcases h3 with rfl | rfl | rfl <;> simp⟩
  rcases ht : w.threshold with _ | T
  · unfold run
    rw [ht]
    dsimp only
    rcases hm : makeInput w with e | inp
    · left; cases e <;> simp
    · dsimp only
      rcases hc : w.calculate inp with e | t
      · left; dsimp only; split_ifs <;> simp
      · right
        exact ⟨t, (fin t).1, (fin t).2, .inl ⟨rfl, inp, (makeInput_ok w inp).mp hm, hc⟩⟩
  · have hrun : run w = runWithThreshold w T := by unfold run; rw [ht]
    rw [hrun]
    rcases hd : w.data with _ | (e | rows)
    · left; unfold runWithThreshold; rw [hd]; simp
    · left
      unfold runWithThreshold makePerRowInput loadConfig loadData
      rw [hd]
      rcases hk : w.config with e' | (_ | k)
      · cases e' <;> simp [Bind.bind, Except.bind]
      · simp [Bind.bind, Except.bind]
      · cases e <;> simp [Bind.bind, Except.bind]
    · rcases hk : w.config with e' | (_ | k)
      · left
        unfold runWithThreshold makePerRowInput loadConfig loadData
        rw [hd, hk]
        cases e' <;> simp [Bind.bind, Except.bind]
      · left
        unfold runWithThreshold makePerRowInput loadConfig loadData
        rw [hd, hk]
        simp [Bind.bind, Except.bind]
      · rw [runWithThreshold_eq w k rows T hk hd]
        split_ifs
        · left; simp
        · left; simp
        · right
          exact ⟨_, (fin _).1, (fin _).2, .inr ⟨by simp, k, rows, rfl, rfl, rfl⟩⟩

end OPE.Main
