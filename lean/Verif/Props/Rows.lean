import Verif.Props.MainRaw
import Verif.Props.Main4
import Verif.Spec.Rows

/-!
# What a run depends on: the threshold (C134), each row for itself (C135), unused columns (C136)
-/

namespace OPE.Main

open Classical Parse

variable {K D I : Type} {n : ℕ}

/-! ## C134 -/

/-- **C134.** Lowering the threshold of a run that met it changes nothing: neither the table written, nor
the statistics printed, nor the exit code (whatever the rounding of the percentage). -/
theorem C134_lower_threshold (w : World K D I) (T T' : ℝ) (hT : T' ≤ T)
    (h : (run { w with threshold := some T }).code ≠ .ok (-5)) :
    run { w with threshold := some T' } = run { w with threshold := some T } := by
  change (runWithThreshold { w with threshold := some T } T).code ≠ _ at h
  change runWithThreshold { w with threshold := some T' } T' = runWithThreshold { w with threshold := some T } T
  unfold runWithThreshold at h ⊢
  change (if w.data.isNone = true then (⟨.ok (-5), [], []⟩ : Outcome) else _).code ≠ _ at h
  by_cases hd : w.data.isNone = true
  · simp [hd] at h
  · rw [if_neg hd] at h
    rw [if_neg hd, if_neg hd]
    have e1 : makePerRowInput { w with threshold := some T' } = makePerRowInput w := rfl
    have e2 : makePerRowInput { w with threshold := some T } = makePerRowInput w := rfl
    rw [e2] at h
    rw [e1, e2]
    rcases hm : makePerRowInput w with e | inputs
    · rfl
    · rw [hm] at h
      dsimp only at h ⊢
      have r1 : rowResults { w with threshold := some T' } inputs = rowResults w inputs := rfl
      have r2 : rowResults { w with threshold := some T } inputs = rowResults w inputs := rfl
      rw [r2] at h
      rw [r1, r2]
      by_cases hp : successPercentage w.fl (inputs.length - (rowResults w inputs).length) inputs.length < T
      · rw [if_pos hp] at h
        exact absurd rfl h
      · rw [if_neg hp, if_neg (fun hp' => hp (lt_of_lt_of_le hp' hT))]
        rfl

/-- **C134.** A run that fails its threshold also fails every higher one, with nothing written. -/
theorem C134_higher_threshold (w : World K D I) (T T' : ℝ) (hT : T ≤ T')
    (h : (run { w with threshold := some T }).code = .ok (-5)) :
    run { w with threshold := some T' } = ⟨.ok (-5), [], []⟩ := by
  by_contra h'
  have hc : (run { w with threshold := some T' }).code ≠ .ok (-5) := by
    intro hc
    apply h'
    change (runWithThreshold { w with threshold := some T' } T').code = _ at hc
    change runWithThreshold { w with threshold := some T' } T' = _
    unfold runWithThreshold at hc ⊢
    split_ifs at hc ⊢ with h1
    · rfl
    · rcases hm : makePerRowInput { w with threshold := some T' } with e | inputs
      · rw [hm] at hc; cases hc
      · rw [hm] at hc
        dsimp only at hc ⊢
        split_ifs at hc ⊢ with h2 h3
        · rfl
        · simp at hc
        · obtain ⟨code, e1, -, e3⟩ := writeAndCalibrate_code { w with threshold := some T' }
            (rowResults { w with threshold := some T' } inputs).flatten
          rw [e1] at hc
          injection hc with hc
          subst hc
          rcases e3 with h | h | h <;> simp_all
  have := C134_lower_threshold w T' T hT hc
  rw [this] at h
  exact hc h

/-- A world in which the first of three rows fails. -/
noncomputable def exThird : World Unit ℕ ℕ where
  config := .ok (some ())
  data := some (.ok [0, 1, 2])
  parse := fun _ d => match d with
    | some [x] => if x.2 = 0 then .error .valueError else .ok x.1
    | _ => .error .valueError
  calculate := fun i => .ok [(i, ⟨.fin i, .fin 1, .fin 1, .fin 1, .fin 1, .fin 1⟩)]
  write := fun _ => .ok ()
  calibration := none
  threshold := none
  fl := id

/-- C134: two of three rows succeed, which meets a threshold of 50 and so one of 20, but not one of 90. -/
example : run { exThird with threshold := some 20 } = run { exThird with threshold := some 50 } ∧
    (run { exThird with threshold := some 50 }).code = .ok 0 ∧
    (run { exThird with threshold := some 90 }).code = .ok (-5) := by
  have hrows : ∀ T : Option ℝ, ((numbered [0, 1, 2]).filterMap (rowAlone { exThird with threshold := T } ()))
      = [[(1, ⟨.fin 1, .fin 1, .fin 1, .fin 1, .fin 1, .fin 1⟩)],
         [(2, ⟨.fin 2, .fin 1, .fin 1, .fin 1, .fin 1, .fin 1⟩)]] := by
    intro T
    have : numbered [0, 1, 2] = [(0, 0), (1, 1), (2, 2)] := rfl
    rw [this]
    simp [rowAlone, exThird]
  have hrun : ∀ T, run { exThird with threshold := some T } =
      if (200 / 3 : ℝ) < T then ⟨.ok (-5), [], []⟩ else ⟨.ok 0,
        [[(1, ⟨.fin 1, .fin 1, .fin 1, .fin 1, .fin 1, .fin 1⟩),
          (2, ⟨.fin 2, .fin 1, .fin 1, .fin 1, .fin 1, .fin 1⟩)]], []⟩ := by
    intro T
    change runWithThreshold { exThird with threshold := some T } T = _
    rw [runWithThreshold_eq _ () [0, 1, 2] T rfl rfl, hrows]
    have : successPercentage exThird.fl 1 3 = 200 / 3 := by
      unfold successPercentage
      simp only [exThird, id]
      norm_num
    change (if successPercentage exThird.fl 1 3 < T then _ else _) = _
    rw [this]
    rfl
  have h50 : (run { exThird with threshold := some 50 }).code = .ok 0 := by
    rw [hrun, if_neg (by norm_num)]
  refine ⟨C134_lower_threshold exThird 50 20 (by norm_num) (by rw [h50]; simp), h50, ?_⟩
  rw [hrun, if_pos (by norm_num)]

/-! ## C135 -/

/-- A normal run that writes a table: every row of the data file succeeds alone. -/
theorem written_rows_ok (co2 : ∀ n, CO2Model n) (hco2 : CO2RowWise co2)
    (reading : K → ∀ n, (Fin n → D) → Except Err (Sections n))
    (readingNoData : K → Except Err (Sections 1))
    (w : World K D (Σ n, (Fin n → ℕ) × Input n)) (k : K) (rows : List D)
    (hread : ReadingRowWise reading k) (hk : w.config = .ok (some k)) (hd : w.data = some (.ok rows))
    (ht : w.threshold = none) (hrows : rows ≠ []) (t : Table)
    (hw : (run (pipeline co2 reading readingNoData w)).written = [t]) :
    ∀ x ∈ rows, ∃ r, (do calculate (co2 1) (← reading k 1 fun _ => x)) = .ok r := by
  set V := pipeline co2 reading readingNoData w with hV
  set l := numbered rows with hl
  have hlen : l.length = rows.length := length_numbered rows
  have hn : l.length ≠ 0 := by rw [hlen]; exact fun h => hrows (List.length_eq_zero_iff.mp h)
  have : NeZero l.length := ⟨hn⟩
  unfold run at hw
  rw [show V.threshold = none from ht] at hw
  rcases hm : makeInput V with e | inp
  · rw [hm] at hw
    cases e <;> simp at hw
  · rw [hm] at hw
    dsimp only at hw
    rcases hc : V.calculate inp with e | tab
    · rw [hc] at hw
      dsimp only at hw
      split_ifs at hw <;> simp at hw
    · rw [makeInput_ok] at hm
      obtain ⟨k', d, hk', hdat, hp⟩ := hm
      have : k' = k := by
        have := hk'.symm.trans hk
        injection this with this; injection this
      subst this
      have hdl : d = some l := by
        rcases hdat with ⟨h, -⟩ | ⟨rows', h, rfl⟩
        · rw [show V.data = w.data from rfl, hd] at h; cases h
        · rw [show V.data = w.data from rfl, hd] at h
          injection h with h; injection h with h
          rw [hl, h]
      subst hdl
      rw [hV] at hp
      unfold pipeline at hp
      dsimp only at hp
      rcases hp1 : liftErr ((reading k' l.length fun i => (l.get i).2) >>= mkInput) with e | i2
      · rw [hp1] at hp; cases hp
      rw [hp1] at hp
      injection hp with hp2
      rw [liftErr_ok, bind_eq_ok] at hp1
      obtain ⟨s, hs, hi⟩ := hp1
      subst hp2
      rw [hV] at hc
      unfold pipeline at hc
      dsimp only at hc
      rcases hr : liftErr (calculateResults (co2 l.length) i2) with e | res
      · rw [hr] at hc; cases hc
      rw [liftErr_ok] at hr
      have hcalc : calculate (co2 l.length) s = .ok res := by
        unfold calculate; rw [hi, bind_ok, hr]
      have h1 := (hread l.length (fun i => (l.get i).2)).1 s hs
      have h3 := (C07_row_wise hco2 s).1 res hcalc
      intro x hx
      obtain ⟨j, hj, rfl⟩ := List.getElem_of_mem hx
      have hj' : j < l.length := by omega
      refine ⟨res.row ⟨j, hj'⟩, ?_⟩
      have e1 := h1 ⟨j, hj'⟩
      have e2 : (l.get ⟨j, hj'⟩).2 = rows[j] := by simp [hl, numbered]
      dsimp only at e1
      rw [e2] at e1
      rw [e1, bind_ok]
      exact h3 ⟨j, hj'⟩

/-- **C135.** Normal mode: once a data file is processed completely, every other data file made of rows of
it - any selection, order or repetition - is processed completely too, with rows labelled 0, 1, …, and
equal rows have equal results. -/
theorem C135_rows_alone_count (co2 : ∀ n, CO2Model n) (hco2 : CO2RowWise co2)
    (reading : K → ∀ n, (Fin n → D) → Except Err (Sections n))
    (readingNoData : K → Except Err (Sections 1))
    (w : World K D (Σ n, (Fin n → ℕ) × Input n)) (k : K) (rows rows' : List D)
    (hread : ReadingRowWise reading k) (hk : w.config = .ok (some k))
    (ht : w.threshold = none) (hrows' : rows' ≠ []) (hsub : ∀ x ∈ rows', x ∈ rows) (t : Table)
    (hw : (run (pipeline co2 reading readingNoData { w with data := some (.ok rows) })).written = [t]) :
    ∃ t' : Table,
      (run (pipeline co2 reading readingNoData { w with data := some (.ok rows') })).written = [t'] ∧
      t'.map Prod.fst = List.range rows'.length ∧ t.map Prod.fst = List.range rows.length ∧
      ∀ (i j : ℕ) (x : D), rows'[i]? = some x → rows[j]? = some x →
        ∃ v, t'[i]? = some (i, v) ∧ t[j]? = some (j, v) := by
  have hrows : rows ≠ [] := by
    rintro rfl
    obtain ⟨x, xs, rfl⟩ := List.exists_cons_of_ne_nil hrows'
    exact absurd (hsub x (by simp)) (by simp)
  have hall := written_rows_ok co2 hco2 reading readingNoData { w with data := some (.ok rows) } k rows hread
    hk rfl ht hrows t hw
  obtain ⟨fl, hfl⟩ := exists_rounding
  obtain ⟨-, s, hs1, hs2, hs3⟩ := C53_modes_agree co2 hco2 reading readingNoData
    { w with data := some (.ok rows), fl := fl } k rows 0 (by norm_num) hread hfl hk rfl hrows hall
  obtain ⟨-, s', hs1', hs2', hs3'⟩ := C53_modes_agree co2 hco2 reading readingNoData
    { w with data := some (.ok rows'), fl := fl } k rows' 0 (by norm_num) hread hfl hk rfl hrows'
    (fun x hx => hall x (hsub x hx))
  have hrun : ∀ d, run (pipeline co2 reading readingNoData
      { w with data := d, fl := fl, threshold := none }) =
      run (pipeline co2 reading readingNoData { w with data := d }) := by
    intro d
    unfold run
    rw [show (pipeline co2 reading readingNoData { w with data := d }).threshold = none from ht]
    rfl
  have e1 := (congrArg Outcome.written (hrun (some (.ok rows)))).symm.trans hs1
  rw [hw] at e1
  injection e1 with e1
  subst e1
  have e1' := (congrArg Outcome.written (hrun (some (.ok rows')))).symm.trans hs1'
  refine ⟨s', e1', hs2', hs2, ?_⟩
  intro i j x hi hj
  obtain ⟨r, hr⟩ := hall x (List.mem_of_getElem? hj)
  exact ⟨r.at 0, hs3' i x r hi hr, hs3 j x r hj hr⟩

/-- **C135.** The same for a YAML configuration whose parameters are single values or (the per-row ones) columns. -/
theorem C135_yaml (co2 : ∀ n, CO2Model n) (hco2 : CO2RowWise co2) (conv : Conv)
    (w : World Yaml DataRow (Σ n, (Fin n → ℕ) × Input n)) (cfg : Yaml) (hcfg : PerRow cfg)
    (rows rows' : List DataRow) (hk : w.config = .ok (some cfg)) (ht : w.threshold = none)
    (hrows' : rows' ≠ []) (hsub : ∀ x ∈ rows', x ∈ rows) (t : Table)
    (hw : (run (pipeline co2 (reading conv) (readingNoData conv)
      { w with data := some (.ok rows) })).written = [t]) :
    ∃ t' : Table,
      (run (pipeline co2 (reading conv) (readingNoData conv)
        { w with data := some (.ok rows') })).written = [t'] ∧
      t'.map Prod.fst = List.range rows'.length ∧ t.map Prod.fst = List.range rows.length ∧
      ∀ (i j : ℕ) (x : DataRow), rows'[i]? = some x → rows[j]? = some x →
        ∃ v, t'[i]? = some (i, v) ∧ t[j]? = some (j, v) :=
  C135_rows_alone_count co2 hco2 (reading conv) (readingNoData conv) w cfg rows rows'
    (fun _ _ rows => C87_reading_row_wise conv cfg hcfg rows) hk ht hrows' hsub t hw

/-- The rows of the table written in threshold mode: those of the rows that succeed alone. -/
theorem threshold_written (co2 : ∀ n, CO2Model n)
    (reading : K → ∀ n, (Fin n → D) → Except Err (Sections n))
    (readingNoData : K → Except Err (Sections 1))
    (w : World K D (Σ n, (Fin n → ℕ) × Input n)) (k : K) (hk : w.config = .ok (some k)) (rows : List D) (T : ℝ)
    (t : Table) (hw : (run (pipeline co2 reading readingNoData
      { w with data := some (.ok rows), threshold := some T })).written = [t])
    (i : ℕ) (x : D) (hi : rows[i]? = some x) (v : Row) :
    (i, v) ∈ t ↔ ∃ r, (do calculate (co2 1) (← reading k 1 fun _ => x)) = .ok r ∧ v = r.at 0 := by
  set W := pipeline co2 reading readingNoData
    { w with data := some (.ok rows), threshold := some T } with hW
  have hrun : run W = runWithThreshold W T := by unfold run; rfl
  rw [hrun, runWithThreshold_eq W k rows T hk rfl] at hw
  split_ifs at hw with h1 h2
  · obtain ⟨code, -, e2, -⟩ := writeAndCalibrate_code W
      ((numbered rows).filterMap (rowAlone W k)).flatten
    rw [e2] at hw
    injection hw with hw
    subst hw
    have hone : ∀ y : ℕ × D, rowAlone W k y =
        match (do calculate (co2 1) (← reading k 1 fun _ => y.2)) with
        | .error _ => none
        | .ok r => some [(y.1, r.at 0)] := fun y => pipeline_parse_one co2 reading readingNoData _ k y
    obtain ⟨hil, hix⟩ := List.getElem?_eq_some_iff.mp hi
    have hmem : ∀ y ∈ numbered rows, y.1 = i → y = (i, x) := by
      intro y hy hyi
      obtain ⟨m, hm, rfl⟩ := List.getElem_of_mem hy
      simp only [numbered, List.getElem_zip, List.getElem_range] at hyi ⊢
      subst hyi
      rw [← hix]
    have hin : (i, x) ∈ numbered rows := by
      have hm : i < (numbered rows).length := by rw [length_numbered]; exact hil
      have : (numbered rows)[i] = (i, x) := by
        simp only [numbered, List.getElem_zip, List.getElem_range, hix]
      rw [← this]
      exact List.getElem_mem _
    rw [List.mem_flatten]
    constructor
    · rintro ⟨tab, htab, hv⟩
      rw [List.mem_filterMap] at htab
      obtain ⟨y, hy, hyt⟩ := htab
      rw [hone] at hyt
      rcases hc : (do calculate (co2 1) (← reading k 1 fun _ => y.2)) with e | r
      · rw [hc] at hyt; cases hyt
      · rw [hc] at hyt
        injection hyt with hyt
        subst hyt
        rw [List.mem_singleton] at hv
        have h1 : i = y.1 := congrArg Prod.fst hv
        have h2 : v = r.at 0 := congrArg Prod.snd hv
        have := hmem y hy h1.symm
        subst this
        exact ⟨r, hc, h2⟩
    · rintro ⟨r, hr, rfl⟩
      refine ⟨[(i, r.at 0)], ?_, by simp⟩
      rw [List.mem_filterMap]
      exact ⟨(i, x), hin, by rw [hone]; dsimp only; rw [hr]⟩

/-- **C135.** Threshold mode: whether a row appears in the table written, and with which values, depends on
the configuration and that row only, not on the other rows (for any configuration). -/
theorem C135_threshold (co2 : ∀ n, CO2Model n)
    (reading : K → ∀ n, (Fin n → D) → Except Err (Sections n))
    (readingNoData : K → Except Err (Sections 1))
    (w : World K D (Σ n, (Fin n → ℕ) × Input n)) (k : K) (rows rows' : List D) (T T' : ℝ)
    (hk : w.config = .ok (some k)) (t t' : Table)
    (hw : (run (pipeline co2 reading readingNoData
      { w with data := some (.ok rows), threshold := some T })).written = [t])
    (hw' : (run (pipeline co2 reading readingNoData
      { w with data := some (.ok rows'), threshold := some T' })).written = [t'])
    (i j : ℕ) (x : D) (hi : rows[i]? = some x) (hj : rows'[j]? = some x) (v : Row) :
    (i, v) ∈ t ↔ (j, v) ∈ t' := by
  rw [threshold_written co2 reading readingNoData w k hk rows T t hw i x hi v,
    threshold_written co2 reading readingNoData w k hk rows' T' t' hw' j x hj v]

/-- C135 on the concrete configuration: from two rows, three rows in another order. -/
example (conv : Conv) (w : World Yaml DataRow (Σ n, (Fin n → ℕ) × Input n))
    (hk : w.config = .ok (some (exYaml (num 3)))) (ht : w.threshold = none) (t : Table)
    (hw : (run (pipeline (fun _ _ _ _ => .error .notImplemented) (reading conv) (readingNoData conv)
      { w with data := some (.ok [exRow 0.2 3, exRow 0.3 3]) })).written = [t]) :
    ∃ t' : Table, (run (pipeline (fun _ _ _ _ => .error .notImplemented) (reading conv) (readingNoData conv)
        { w with data := some (.ok [exRow 0.3 3, exRow 0.2 3, exRow 0.3 3]) })).written = [t'] ∧
      ∃ v, t'[2]? = some (2, v) ∧ t[1]? = some (1, v) := by
  obtain ⟨t', h1, -, -, h2⟩ := C135_yaml _ noCO2 conv w _ exYaml_perRow [exRow 0.2 3, exRow 0.3 3]
    [exRow 0.3 3, exRow 0.2 3, exRow 0.3 3] hk ht (by simp) (by simp) t hw
  exact ⟨t', h1, h2 2 1 (exRow 0.3 3) rfl rfl⟩

/-! ## C136 -/

/-- Two frames with the same entries in some columns. -/
theorem frame_get_congr {S : Type} {rows rows' : Fin n → DataRow} (x : Cfg S (Arr n))
    (h : ∀ s ∈ refNames x, ∀ i, rows i s = rows' i s) : (frameOf rows).get x = (frameOf rows').get x := by
  have hcol : ∀ s, (∀ i, rows i s = rows' i s) → (frameOf rows).column s = (frameOf rows').column s := by
    intro s hs
    unfold frameOf
    dsimp only
    have : (fun i => rows i s) = fun i => rows' i s := funext hs
    by_cases hh : ∀ i, (rows i s).isSome
    · have hh' : ∀ i, (rows' i s).isSome := fun i => by rw [← hs i]; exact hh i
      rw [dif_pos hh, dif_pos hh']
      congr 2
      funext i
      simp only [hs i]
    · have hh' : ¬ ∀ i, (rows' i s).isSome := fun hh' => hh fun i => by rw [hs i]; exact hh' i
      rw [dif_neg hh, dif_neg hh']
  cases x with
  | str s =>
    unfold Frame.get
    dsimp only
    rw [hcol s (h s (by simp [refNames]))]
  | list xs =>
    unfold Frame.get
    dsimp only
    rcases hx : Cfg.strings xs with _ | ss
    · rfl
    · dsimp only
      have hss : ∀ s ∈ ss, ∀ i, rows i s = rows' i s := fun s hs => h s (by simp [refNames, hx, hs])
      have e1 : (ss.all fun s => ((frameOf rows).column s).isSome)
          = ss.all fun s => ((frameOf rows').column s).isSome := by
        rw [Bool.eq_iff_iff]
        simp only [List.all_eq_true]
        exact forall₂_congr fun s hs => by rw [hcol s (hss s hs)]
      have e2 : (frameOf rows).columns ss = (frameOf rows').columns ss := by
        unfold frameOf
        dsimp only
        congr 1
        apply List.map_congr_left
        intro s hs
        funext i
        rw [hss s hs i]
      rw [e1, e2]
  | _ => rfl

theorem mentions_child {S A : Type} {x y : Cfg S A} {i : ℕ} (hy : Spec.child x i = some y) {s : String}
    (h : Mentions y s) : Mentions x s := by
  obtain ⟨p, name, ⟨z, hz, hr⟩, hs⟩ := h
  refine ⟨i :: p, name, ⟨z, ?_, hr⟩, hs⟩
  rw [Spec.at?, hy]
  exact hz

mutual
theorem insert_congr {S : Type} {rows rows' : Fin n → DataRow} :
    (x : Cfg S (Arr n)) → (∀ s, Mentions x s → ∀ i, rows i s = rows' i s) →
      insertFrame (frameOf rows) x = insertFrame (frameOf rows') x
  | .scalar _, _ => rfl
  | .str _, _ => rfl
  | .arr _, _ => rfl
  | .list xs, h => by
    unfold insertFrame
    rw [insertList_congr xs fun x hx s hs => by
      obtain ⟨j, hj⟩ := List.mem_iff_getElem?.mp hx
      exact h s (mentions_child (i := j) (by simpa [Spec.child] using hj) hs)]
  | .dict [], h => rfl
  | .dict [(k, v)], h => by
    unfold insertFrame
    by_cases hk : k = "column"
    · subst hk
      rw [if_pos rfl, if_pos rfl, frame_get_congr v fun s hs => h s ⟨[], v, ⟨_, rfl, rfl⟩, hs⟩]
    · rw [if_neg hk, if_neg hk, insert_congr v fun s hs => h s (mentions_child (i := 0) rfl hs)]
  | .dict (a :: b :: xs), h => by
    unfold insertFrame
    rw [insertDict_congr (a :: b :: xs) fun x hx s hs => by
      obtain ⟨j, hj⟩ := List.mem_iff_getElem?.mp hx
      exact h s (mentions_child (i := j) (y := x.2) (by simp only [Spec.child, hj]; rfl) hs)]
theorem insertList_congr {S : Type} {rows rows' : Fin n → DataRow} :
    (xs : List (Cfg S (Arr n))) → (∀ x ∈ xs, ∀ s, Mentions x s → ∀ i, rows i s = rows' i s) →
      insertFrameList (frameOf rows) xs = insertFrameList (frameOf rows') xs
  | [], _ => rfl
  | x :: xs, h => by
    unfold insertFrameList
    rw [insert_congr x (h x (by simp)), insertList_congr xs fun y hy => h y (by simp [hy])]
theorem insertDict_congr {S : Type} {rows rows' : Fin n → DataRow} :
    (xs : List (String × Cfg S (Arr n))) → (∀ x ∈ xs, ∀ s, Mentions x.2 s → ∀ i, rows i s = rows' i s) →
      insertFrameDict (frameOf rows) xs = insertFrameDict (frameOf rows') xs
  | [], _ => rfl
  | (k, x) :: xs, h => by
    unfold insertFrameDict
    rw [insert_congr x (h (k, x) (by simp)), insertDict_congr xs fun y hy => h y (by simp [hy])]
end

theorem strings_mapArr {S A B : Type} (f : A → B) (x : Cfg S A) : refNames (mapArr f x) = refNames x := by
  cases x with
  | list xs => simp only [mapArr, refNames, strings_mapArrList]
  | _ => rfl

theorem refAt_mapArr_name {S A B : Type} {f : A → B} {x : Cfg S A} {q : List ℕ} {name : Cfg S B}
    (h : Spec.RefAt (mapArr f x) q name) : ∃ name', Spec.RefAt x q name' ∧ mapArr f name' = name := by
  obtain ⟨name', y, hy, hr⟩ := refAt_mapArr h
  refine ⟨name', ⟨y, hy, hr⟩, ?_⟩
  obtain ⟨z, hz, hzr⟩ := h
  rw [at_mapArr, hy] at hz
  injection hz with hz
  unfold Spec.IsRef at hr hzr
  rw [hr, hzr, mapArr, mapArrDict, mapArrDict] at hz
  injection hz with hz
  injection hz with hz
  injection hz

theorem mentions_mapArr {S A B : Type} {f : A → B} {x : Cfg S A} {s : String}
    (h : Mentions (mapArr f x) s) : Mentions x s := by
  obtain ⟨p, name, hr, hs⟩ := h
  obtain ⟨name', hr', rfl⟩ := refAt_mapArr_name hr
  rw [strings_mapArr] at hs
  exact ⟨p, name', hr', hs⟩

theorem mentions_lookup {xs : List (String × Yaml)} (key : String) {s : String}
    (h : Mentions ((xs.lookup key).getD (.dict [])) s) : Mentions (.dict xs : Yaml) s := by
  cases hl : xs.lookup key with
  | none =>
    rw [hl] at h
    obtain ⟨p, name, ⟨z, hz, hr⟩, -⟩ := h
    cases p with
    | nil =>
      rw [Option.getD_none, Spec.at?] at hz
      injection hz with hz
      rw [← hz] at hr
      unfold Spec.IsRef at hr
      injection hr with hr
      cases hr
    | cons j p =>
      rw [Option.getD_none, Spec.at?] at hz
      simp [Spec.child] at hz
  | some v =>
    rw [hl, Option.getD_some] at h
    have : ∃ j : ℕ, ∃ k, xs[j]? = some (k, v) := by
      clear h
      induction xs with
      | nil => cases hl
      | cons a xs ih =>
        obtain ⟨k, u⟩ := a
        rw [List.lookup_cons] at hl
        by_cases hk : key == k
        · rw [hk] at hl
          injection hl with hl
          subst hl
          exact ⟨0, k, rfl⟩
        · rw [Bool.not_eq_true] at hk
          rw [hk] at hl
          obtain ⟨j, k', hj⟩ := ih hl
          exact ⟨j + 1, k', by simpa using hj⟩
    obtain ⟨j, k, hj⟩ := this
    exact mentions_child (i := j) (by simp only [Spec.child, hj]; rfl) h

/-- **C136.** Data files that agree in the columns the configuration mentions are read alike. -/
theorem C136_reading (conv : Conv) (cfg : Yaml) (rows rows' : Fin n → DataRow)
    (h : ∀ s, Mentions cfg s → ∀ i, rows i s = rows' i s) :
    reading conv cfg n rows = reading conv cfg n rows' := by
  unfold reading readWith
  cases cfg with
  | dict xs =>
    dsimp only
    have hsec : ∀ key, insertDataframe (some (frameOf rows)) (mapArr Empty.elim ((xs.lookup key).getD (.dict []))
          : Val n)
        = insertDataframe (some (frameOf rows')) (mapArr Empty.elim ((xs.lookup key).getD (.dict []))) := by
      intro key
      unfold insertDataframe
      dsimp only
      exact insert_congr _ fun s hs => h s (mentions_lookup key (mentions_mapArr hs))
    rw [hsec, hsec, hsec, hsec]
  | _ => rfl

theorem parse_congr (co2 : ∀ n, CO2Model n) (conv : Conv)
    (w : World Yaml DataRow (Σ n, (Fin n → ℕ) × Input n)) (cfg : Yaml) (l l' : List (ℕ × DataRow))
    (h : List.Forall₂ (fun x y => x.1 = y.1 ∧ ∀ s, Mentions cfg s → x.2 s = y.2 s) l l') :
    (pipeline co2 (reading conv) (readingNoData conv) w).parse cfg (some l) =
      (pipeline co2 (reading conv) (readingNoData conv) w).parse cfg (some l') := by
  let P : ∀ n, (Fin n → ℕ × DataRow) → Except PyExc (Σ n, (Fin n → ℕ) × Input n) := fun n f =>
    liftErr (reading conv cfg n (fun i => (f i).2) >>= mkInput) >>= fun inp => .ok ⟨n, fun i => (f i).1, inp⟩
  change P l.length l.get = P l'.length l'.get
  have hlen := h.length_eq
  have hcast : ∀ (m : ℕ) (hm : l'.length = m), P l'.length l'.get = P m fun i => l'.get (i.cast hm.symm) := by
    rintro m rfl; rfl
  rw [hcast l.length hlen.symm]
  have hi : ∀ i : Fin l.length, (l.get i).1 = (l'.get (i.cast hlen)).1 ∧
      ∀ s, Mentions cfg s → (l.get i).2 s = (l'.get (i.cast hlen)).2 s := fun i => h.get i.2 (by omega)
  simp only [P]
  rw [C136_reading conv cfg _ _ fun s hs i => (hi i).2 s hs]
  have : (fun i => (l.get i).1) = fun i : Fin l.length => (l'.get (i.cast hlen)).1 := funext fun i => (hi i).1
  rw [this]

/-- **C136.** Columns of the data file that the configuration does not mention have no influence on
anything the program does, in either mode: they may be changed, added or removed. -/
theorem C136_unused_columns (co2 : ∀ n, CO2Model n) (conv : Conv)
    (w : World Yaml DataRow (Σ n, (Fin n → ℕ) × Input n)) (cfg : Yaml) (hk : w.config = .ok (some cfg))
    (rows rows' : List DataRow)
    (h : List.Forall₂ (fun x y => ∀ s, Mentions cfg s → x s = y s) rows rows') :
    run (pipeline co2 (reading conv) (readingNoData conv) { w with data := some (.ok rows) }) =
      run (pipeline co2 (reading conv) (readingNoData conv) { w with data := some (.ok rows') }) := by
  have hlen := h.length_eq
  have hnum : List.Forall₂ (fun x y => x.1 = y.1 ∧ ∀ s, Mentions cfg s → x.2 s = y.2 s)
      (numbered rows) (numbered rows') := by
    rw [List.forall₂_iff_get]
    refine ⟨by rw [length_numbered, length_numbered, hlen], fun i h1 h2 => ?_⟩
    rw [length_numbered] at h1 h2
    simp only [numbered, List.get_eq_getElem, List.getElem_zip, List.getElem_range, true_and]
    exact h.get h1 h2
  set W := pipeline co2 (reading conv) (readingNoData conv) { w with data := some (.ok rows) } with hW
  set W' := pipeline co2 (reading conv) (readingNoData conv) { w with data := some (.ok rows') } with hW'
  have hpar : ∀ l l', List.Forall₂ (fun x y => x.1 = y.1 ∧ ∀ s, Mentions cfg s → x.2 s = y.2 s) l l' →
      W.parse cfg (some l) = W'.parse cfg (some l') := fun l l' hl => parse_congr co2 conv _ cfg l l' hl
  have hone : ∀ l l', List.Forall₂ (fun x y => x.1 = y.1 ∧ ∀ s, Mentions cfg s → x.2 s = y.2 s) l l' →
      l.filterMap (rowAlone W cfg) = l'.filterMap (rowAlone W' cfg) := by
    intro l l' hl
    induction hl with
    | nil => rfl
    | @cons a b l l' hab hl ih =>
      have : rowAlone W cfg a = rowAlone W' cfg b := by
        unfold rowAlone
        rw [hpar [a] [b] (.cons hab .nil)]
        rfl
      rw [List.filterMap_cons, List.filterMap_cons, this, ih]
  cases ht : w.threshold with
  | some T =>
    have e1 : run W = runWithThreshold W T := by
      unfold run; rw [show W.threshold = some T from ht]
    have e2 : run W' = runWithThreshold W' T := by
      unfold run; rw [show W'.threshold = some T from ht]
    rw [e1, e2, runWithThreshold_eq W cfg rows T hk rfl, runWithThreshold_eq W' cfg rows' T hk rfl,
      hone _ _ hnum, hlen]
    rfl
  | none =>
    have e : makeInput W = makeInput W' := by
      unfold makeInput
      have h1 : loadConfig W = .ok cfg := by unfold loadConfig; rw [show W.config = .ok (some cfg) from hk]
      have h2 : loadConfig W' = .ok cfg := by unfold loadConfig; rw [show W'.config = .ok (some cfg) from hk]
      have h3 : loadData W = .ok (some rows) := rfl
      have h4 : loadData W' = .ok (some rows') := rfl
      rw [h1, h2, h3, h4]
      change wrapParse (W.parse cfg (some (labelled rows))) = wrapParse (W'.parse cfg (some (labelled rows')))
      rw [labelled_eq, labelled_eq, hpar _ _ hnum]
    unfold run
    rw [show W.threshold = none from ht, show W'.threshold = none from ht, e]
    rfl

theorem mentions_scalar {S A : Type} (x : S) (s : String) : Mentions (.scalar x : Cfg S A) s ↔ False := by
  refine iff_of_false ?_ id
  rintro ⟨p, name, hr, -⟩
  exact noRef_scalar _ _ _ hr

theorem mentions_str {S A : Type} (x s : String) : Mentions (.str x : Cfg S A) s ↔ False := by
  refine iff_of_false ?_ id
  rintro ⟨p, name, ⟨z, hz, hr⟩, -⟩
  cases p with
  | nil =>
    rw [Spec.at?] at hz
    injection hz with hz
    rw [← hz] at hr
    cases hr
  | cons j p => simp [Spec.at?, Spec.child] at hz

theorem mentions_list {S A : Type} (xs : List (Cfg S A)) (s : String) :
    Mentions (.list xs) s ↔ ∃ x ∈ xs, Mentions x s := by
  constructor
  · rintro ⟨p, name, ⟨z, hz, hr⟩, hs⟩
    cases p with
    | nil =>
      rw [Spec.at?] at hz
      injection hz with hz
      rw [← hz] at hr
      cases hr
    | cons j p =>
      rw [Spec.at?] at hz
      simp only [Spec.child] at hz
      cases hx : xs[j]? with
      | none => simp [hx] at hz
      | some y =>
        simp only [hx, Option.bind_some] at hz
        exact ⟨y, List.mem_of_getElem? hx, p, name, ⟨z, hz, hr⟩, hs⟩
  · rintro ⟨x, hx, h⟩
    obtain ⟨j, hj⟩ := List.mem_iff_getElem?.mp hx
    exact mentions_child (i := j) (x := .list xs) (y := x) hj h

theorem mentions_dict {S A : Type} (xs : List (String × Cfg S A)) (s : String) :
    Mentions (.dict xs) s ↔ (∃ x, xs = [("column", x)] ∧ s ∈ refNames x) ∨ ∃ x ∈ xs, Mentions x.2 s := by
  constructor
  · rintro ⟨p, name, ⟨z, hz, hr⟩, hs⟩
    cases p with
    | nil =>
      rw [Spec.at?] at hz
      injection hz with hz
      rw [← hz] at hr
      unfold Spec.IsRef at hr
      injection hr with hr
      exact .inl ⟨name, hr, hs⟩
    | cons j p =>
      rw [Spec.at?] at hz
      simp only [Spec.child] at hz
      cases hx : xs[j]? with
      | none => simp [hx] at hz
      | some y =>
        simp only [hx, Option.map_some, Option.bind_some] at hz
        exact .inr ⟨y, List.mem_of_getElem? hx, p, name, ⟨z, hz, hr⟩, hs⟩
  · rintro (⟨x, rfl, hs⟩ | ⟨x, hx, h⟩)
    · exact ⟨[], x, ⟨_, rfl, rfl⟩, hs⟩
    · obtain ⟨j, hj⟩ := List.mem_iff_getElem?.mp hx
      exact mentions_child (i := j) (y := x.2) (by simp only [Spec.child, hj]; rfl) h

theorem exYaml_mentions (s : String) : Mentions (exYaml (num 3)) s ↔ s = "phi" := by
  simp [exYaml, num, mentions_scalar, mentions_str, mentions_dict, mentions_list, refNames]

/-- C136 on the concrete configuration: it mentions `phi` only, so column `b` has no influence. -/
example (conv : Conv) (co2 : ∀ n, CO2Model n) (w : World Yaml DataRow (Σ n, (Fin n → ℕ) × Input n))
    (hk : w.config = .ok (some (exYaml (num 3)))) :
    run (pipeline co2 (reading conv) (readingNoData conv)
        { w with data := some (.ok [exRow 0.2 3, exRow 0.3 3]) }) =
      run (pipeline co2 (reading conv) (readingNoData conv)
        { w with data := some (.ok [exRow 0.2 7, exRow 0.3 (-1)]) }) := by
  refine C136_unused_columns co2 conv w _ hk _ _ ?_
  have hrow : ∀ (phi b b' : ℝ) s, Mentions (exYaml (num 3)) s → exRow phi b s = exRow phi b' s := by
    intro phi b b' s h
    rw [(exYaml_mentions s).mp h]; rfl
  exact .cons (hrow _ _ _) (.cons (hrow _ _ _) .nil)

end OPE.Main
