import Verif.Props.Main4

/-!
# Calibration (C58)
-/

namespace OPE.Main

open Classical

variable {K D I : Type}

theorem foldl_minimum_fin (xs : List ℝ) (x : ℝ) :
    (xs.map Num.fin).foldl Num.minimum (Num.fin x) = Num.fin (xs.foldl min x) := by
  induction xs generalizing x with
  | nil => rfl
  | cons y ys ih => simp only [List.map_cons, List.foldl_cons, Num.fin_minimum, ih]

theorem foldl_maximum_fin (xs : List ℝ) (x : ℝ) :
    (xs.map Num.fin).foldl Num.maximum (Num.fin x) = Num.fin (xs.foldl max x) := by
  induction xs generalizing x with
  | nil => rfl
  | cons y ys ih => simp only [List.map_cons, List.foldl_cons, Num.fin_maximum, ih]

theorem foldl_add_fin (xs : List ℝ) (x : ℝ) :
    (xs.map Num.fin).foldl (· + ·) (Num.fin x) = Num.fin (x + xs.sum) := by
  induction xs generalizing x with
  | nil => simp
  | cons y ys ih =>
    simp only [List.map_cons, List.foldl_cons, Num.fin_add, ih, List.sum_cons, add_assoc]

theorem foldl_min_spec (xs : List ℝ) (x : ℝ) :
    (∀ y ∈ x :: xs, xs.foldl min x ≤ y) ∧ xs.foldl min x ∈ x :: xs := by
  induction xs generalizing x with
  | nil => simp
  | cons z zs ih =>
    obtain ⟨h1, h2⟩ := ih (min x z)
    simp only [List.foldl_cons]
    refine ⟨fun y hy => ?_, ?_⟩
    · have hm := h1 (min x z) (by simp)
      rcases List.mem_cons.mp hy with rfl | hy
      · exact hm.trans (min_le_left _ _)
      · rcases List.mem_cons.mp hy with rfl | hy
        · exact hm.trans (min_le_right _ _)
        · exact h1 y (by simp [hy])
    · rcases List.mem_cons.mp h2 with h | h
      · rw [h]; rcases min_choice x z with h' | h' <;> rw [h'] <;> simp
      · simp [h]

theorem foldl_max_spec (xs : List ℝ) (x : ℝ) :
    (∀ y ∈ x :: xs, y ≤ xs.foldl max x) ∧ xs.foldl max x ∈ x :: xs := by
  induction xs generalizing x with
  | nil => simp
  | cons z zs ih =>
    obtain ⟨h1, h2⟩ := ih (max x z)
    simp only [List.foldl_cons]
    refine ⟨fun y hy => ?_, ?_⟩
    · have hm := h1 (max x z) (by simp)
      rcases List.mem_cons.mp hy with rfl | hy
      · exact (le_max_left _ _).trans hm
      · rcases List.mem_cons.mp hy with rfl | hy
        · exact (le_max_right _ _).trans hm
        · exact h1 y (by simp [hy])
    · rcases List.mem_cons.mp h2 with h | h
      · rw [h]; rcases max_choice x z with h' | h' <;> rw [h'] <;> simp
      · simp [h]

/-- Statistics of a list of finite numbers. -/
theorem stats_fin (l : List ℝ) (hl : l ≠ []) :
    ∃ lo hi, stats (l.map Num.fin) = ⟨.fin lo, .fin (l.sum / l.length), .fin hi⟩ ∧
      (∀ y ∈ l, lo ≤ y ∧ y ≤ hi) ∧ lo ∈ l ∧ hi ∈ l := by
  obtain ⟨x, xs, rfl⟩ := List.exists_cons_of_ne_nil hl
  have hd : dropNan ((x :: xs).map Num.fin) = (x :: xs).map Num.fin := by
    unfold dropNan
    rw [List.filter_eq_self]
    intro a ha
    obtain ⟨b, -, rfl⟩ := List.mem_map.mp ha
    simp
  obtain ⟨h1, h2⟩ := foldl_min_spec xs x
  obtain ⟨h3, h4⟩ := foldl_max_spec xs x
  refine ⟨xs.foldl min x, xs.foldl max x, ?_, fun y hy => ⟨h1 y hy, h3 y hy⟩, h2, h4⟩
  unfold stats
  rw [hd]
  simp only [List.map_cons]
  rw [foldl_minimum_fin, foldl_maximum_fin, foldl_add_fin]
  simp only [List.length_map, List.length_cons, List.sum_cons]
  rw [Num.fin_div _ (by positivity)]
  push_cast
  rfl

/-- **C58, the statistics.** If the calibration column has a finite nonzero entry at the label of every
row, the statistics are the minimum, mean and maximum over the rows of the relative error
(calculated − calibrated) / calibrated; they vanish exactly when calculated and calibrated values agree. -/
theorem C58_statistics (t : Table) (key : String) (col : List Num) (v : Row → ℝ) (cal : ℕ → ℝ)
    (ht : t ≠ []) (hv : ∀ x ∈ t, x.2.get? key = some (.fin (v x.2)))
    (hc : ∀ x ∈ t, col[x.1]? = some (.fin (cal x.1))) (h0 : ∀ x ∈ t, cal x.1 ≠ 0) :
    ∃ lo mean hi : ℝ, stats (calibrationErrors t key col) = ⟨.fin lo, .fin mean, .fin hi⟩ ∧
      (∀ x ∈ t, lo ≤ (v x.2 - cal x.1) / cal x.1 ∧ (v x.2 - cal x.1) / cal x.1 ≤ hi) ∧
      (∃ x ∈ t, lo = (v x.2 - cal x.1) / cal x.1) ∧ (∃ x ∈ t, hi = (v x.2 - cal x.1) / cal x.1) ∧
      mean = (t.map fun x => (v x.2 - cal x.1) / cal x.1).sum / t.length ∧
      ((lo = 0 ∧ hi = 0) ↔ ∀ x ∈ t, v x.2 = cal x.1) := by
  have he : calibrationErrors t key col
      = (t.map fun x => (v x.2 - cal x.1) / cal x.1).map Num.fin := by
    unfold calibrationErrors
    rw [List.map_map]
    clear ht
    induction t with
    | nil => rfl
    | cons x t ih =>
      rw [List.filterMap_cons, hv x (by simp)]
      simp only [Option.bind_some]
      rw [hc x (by simp)]
      simp only [Option.map_some, List.map_cons]
      rw [ih (fun y hy => hv y (by simp [hy])) (fun y hy => hc y (by simp [hy]))
        (fun y hy => h0 y (by simp [hy])), Num.fin_sub, Num.fin_div _ (h0 x (by simp))]
      rfl
  obtain ⟨lo, hi, h1, h2, h3, h4⟩ := stats_fin (t.map fun x => (v x.2 - cal x.1) / cal x.1)
    (by simpa using ht)
  obtain ⟨a, ha, ha'⟩ := List.mem_map.mp h3
  obtain ⟨b, hb, hb'⟩ := List.mem_map.mp h4
  have h2' : ∀ x ∈ t, lo ≤ (v x.2 - cal x.1) / cal x.1 ∧ (v x.2 - cal x.1) / cal x.1 ≤ hi :=
    fun x hx => h2 _ (List.mem_map.mpr ⟨x, hx, rfl⟩)
  refine ⟨lo, _, hi, by rw [he, h1], h2', ⟨a, ha, ha'.symm⟩, ⟨b, hb, hb'.symm⟩, by simp, ?_⟩
  constructor
  · rintro ⟨rfl, rfl⟩ x hx
    obtain ⟨h5, h6⟩ := h2' x hx
    have := div_eq_zero_iff.mp (le_antisymm h6 h5)
    rcases this with h | h
    · linarith
    · exact absurd h (h0 x hx)
  · intro h
    constructor
    · rw [← ha', h a ha]; simp
    · rw [← hb', h b hb]; simp

theorem calibrationLoop_printed (t : Table) (cal : Calibration) (keys : List String)
    (cols : String → List Num) (h : ∀ key ∈ keys, cal key = some (cols key)) :
    calibrationLoop t cal keys =
      (keys.map fun key => (key, stats (calibrationErrors t key (cols key))), .ok ()) := by
  induction keys with
  | nil => rfl
  | cons key keys ih =>
    simp only [calibrationLoop, h key (by simp), List.map_cons]
    rw [ih fun key' hk => h key' (by simp [hk])]

/-- **C58, the columns.** What is compared under a name is the column of the result of that name: `kmin` with the
bulk modulus of the mineral, `kdry` with that of the dry rock, `ksat` with that of the saturated rock, `kmin_fls`
with that of the dense packing. -/
theorem C58_compared_columns (t : Table) (col : List Num) :
    ∀ q ∈ [("kmin", Row.kmin), ("kdry", Row.kdry), ("ksat", Row.ksat), ("kmin_fls", Row.kminFls)],
      calibrationErrors t q.1 col = t.filterMap fun x => col[x.1]?.map fun k => (q.2 x.2 - k) / k := by
  intro q hq
  simp only [List.mem_cons, List.not_mem_nil, or_false] at hq
  rcases hq with rfl | rfl | rfl | rfl <;> rfl

/-- **C58, order.** With a usable calibration file the statistics of `kmin`, `kdry`, `ksat` and
`kmin_fls` are printed, in this order, for the table that was written. -/
theorem C58_prints (w : World K D I) (t : Table) (hw : (run w).written = [t])
    (hok : w.write t = .ok ()) (cal : Calibration) (hcal : w.calibration = some (.ok cal))
    (cols : String → List Num)
    (h : ∀ key ∈ ["kmin", "kdry", "ksat", "kmin_fls"], cal key = some (cols key)) :
    run w = ⟨.ok 0, [t],
      ["kmin", "kdry", "ksat", "kmin_fls"].map fun key =>
        (key, stats (calibrationErrors t key (cols key)))⟩ := by
  have hfin : ∀ t', (writeAndCalibrate w t').written = [t] → writeAndCalibrate w t' = ⟨.ok 0, [t],
      ["kmin", "kdry", "ksat", "kmin_fls"].map fun key =>
        (key, stats (calibrationErrors t key (cols key)))⟩ := by
    intro t' ht'
    obtain ⟨-, -, h2, -⟩ := writeAndCalibrate_code w t'
    rw [h2] at ht'
    injection ht' with ht' _
    subst ht'
    unfold writeAndCalibrate
    rw [hok, hcal]
    simp only [runCalibration, calibrationLoop_printed t' cal _ cols h, wrapCalibration]
  unfold run at hw ⊢
  rcases ht : w.threshold with _ | T
  · rw [ht] at hw
    dsimp only at hw ⊢
    rcases hm : makeInput w with e | inp
    · rw [hm] at hw; cases e <;> simp at hw
    · rw [hm] at hw
      dsimp only at hw ⊢
      rcases hc : w.calculate inp with e | t'
      · rw [hc] at hw; dsimp only at hw; split_ifs at hw <;> simp at hw
      · rw [hc] at hw; exact hfin t' hw
  · rw [ht] at hw
    dsimp only at hw ⊢
    unfold runWithThreshold at hw ⊢
    split_ifs with hd
    · rw [if_pos hd] at hw; simp at hw
    · rw [if_neg hd] at hw
      rcases hm : makePerRowInput w with e | inputs
      · rw [hm] at hw; simp at hw
      · rw [hm] at hw
        dsimp only at hw ⊢
        split_ifs at hw ⊢ <;> first | exact hfin _ hw | simp at hw

/-- **C58, missing column.** In either mode, whenever a table has been written successfully and the
calibration file lacks one of the four columns, the exit code is −4. -/
theorem C58_missing_column (w : World K D I) (t : Table) (hw : (run w).written = [t])
    (hok : w.write t = .ok ()) (file : Except PyExc Calibration) (hcal : w.calibration = some file)
    (h : CalibrationBad file) : (run w).code = .ok (-4) := by
  have hfin : ∀ t', (writeAndCalibrate w t').written = [t] →
      (writeAndCalibrate w t').code = .ok (-4) := by
    intro t' ht'
    obtain ⟨code, h1, h2, -, -, h3⟩ := writeAndCalibrate_code w t'
    rw [h2] at ht'
    injection ht' with ht' _
    subst ht'
    rw [h1, h3.mpr ⟨hok, file, hcal, h⟩]
  unfold run at hw ⊢
  rcases ht : w.threshold with _ | T
  · rw [ht] at hw
    dsimp only at hw ⊢
    rcases hm : makeInput w with e | inp
    · rw [hm] at hw; cases e <;> simp at hw
    · rw [hm] at hw
      dsimp only at hw ⊢
      rcases hc : w.calculate inp with e | t'
      · rw [hc] at hw; dsimp only at hw; split_ifs at hw <;> simp at hw
      · rw [hc] at hw; exact hfin t' hw
  · rw [ht] at hw
    dsimp only at hw ⊢
    unfold runWithThreshold at hw ⊢
    split_ifs with hd
    · rw [if_pos hd] at hw; simp at hw
    · rw [if_neg hd] at hw
      rcases hm : makePerRowInput w with e | inputs
      · rw [hm] at hw; simp at hw
      · rw [hm] at hw
        dsimp only at hw ⊢
        split_ifs at hw ⊢ <;> first | exact hfin _ hw | simp at hw

/-- Two rows, one of them off by ten percent. -/
example : ∃ mean : ℝ, stats (calibrationErrors
    [(0, ⟨.fin 11, .fin 1, .fin 1, .fin 1, .fin 1, .fin 1⟩),
     (1, ⟨.fin 20, .fin 1, .fin 1, .fin 1, .fin 1, .fin 1⟩)] "ksat" [.fin 10, .fin 20])
    = ⟨.fin 0, .fin mean, .fin (1 / 10)⟩ := by
  obtain ⟨lo, mean, hi, h1, h2, h3, h4, -, -⟩ := C58_statistics
    [(0, ⟨.fin 11, .fin 1, .fin 1, .fin 1, .fin 1, .fin 1⟩),
     (1, ⟨.fin 20, .fin 1, .fin 1, .fin 1, .fin 1, .fin 1⟩)] "ksat" [.fin 10, .fin 20]
    (fun r => match r.ksat with | .fin x => x | _ => 0) (fun i => if i = 0 then 10 else 20)
    (by simp) (by simp [Row.get?]) (by simp) (by simp)
  refine ⟨mean, ?_⟩
  rw [h1]
  norm_num at h2 h3 h4
  obtain ⟨⟨a1, a2⟩, a3, a4⟩ := h2
  have e1 : lo = 0 := by rcases h3 with h | h <;> linarith
  have e2 : hi = 1 / 10 := by rcases h4 with h | h <;> linarith
  rw [e1, e2]

/-! ### Concrete cases -/

/-- Malformed configuration in threshold mode. -/
example (w : World K D I) (rows : List D) :
    (run { w with config := .error .yamlError, data := some (.ok rows), threshold := some 50 }).code
      = .error .inputError := by
  rw [(C54_refuted { w with config := .error .yamlError, data := some (.ok rows), threshold := some 50 }
    50 rfl (by simp) (.inl rfl)).1]

/-- Nine of ten rows are missing from the output. -/
example : ∀ t ∈ (run (tenRows id)).written, t.length < 10 :=
  C55_refuted (tenRows id) () _ 10 rfl rfl rfl
    (by
      intro x t h
      rcases x with ⟨i, b⟩
      cases b
      · simp [rowAlone, tenRows] at h
      · simp [rowAlone, tenRows] at h
        rw [← h]; rfl)
    ⟨(1, false), by simp [← labelled_eq, labelled], by simp [rowAlone, tenRows]⟩

/-- A normal run that succeeds, and one that fails in the calculation. -/
example (b : Bool) : (run { tenRows id with threshold := none, data := some (.ok [b]) }).code
    = if b then .ok 0 else .ok (-3) := by
  cases b <;> simp [run, makeInput, loadConfig, loadData, tenRows, labelled, wrapParse, writeAndCalibrate,
    Bind.bind, Except.bind, PyExc.isValueError]

end OPE.Main
