import Verif.Props.Missing4

/-!
# Missing numbers never change other numbers: the whole program (C150)
-/

namespace OPE.Main

open Classical Parse

variable {K D : Type}

/-- The table written in normal mode for a data file: row `i` of the result has label `i`. -/
theorem normal_written (co2 : ∀ n, CO2Model n)
    (reading : K → ∀ n, (Fin n → D) → Except Err (Sections n))
    (readingNoData : K → Except Err (Sections 1))
    (w : World K D (Σ n, (Fin n → ℕ) × Input n)) (k : K) (hk : w.config = .ok (some k)) (rows : List D)
    (ht : w.threshold = none) (t : Table)
    (hw : (run (pipeline co2 reading readingNoData { w with data := some (.ok rows) })).written = [t]) :
    ∃ (m : ℕ) (g : Fin m → ℕ × D) (s : Sections m) (r : Result m), numbered rows = List.ofFn g ∧
      reading k m (fun i => (g i).2) = .ok s ∧ calculate (co2 m) s = .ok r ∧
      t = List.ofFn fun i => ((g i).1, r.at i) := by
  set V := pipeline co2 reading readingNoData { w with data := some (.ok rows) } with hV
  set l := numbered rows with hl
  unfold run at hw
  rw [show V.threshold = none from ht] at hw
  rcases hm : makeInput V with e | inp
  · rw [hm] at hw
    cases e <;> simp at hw
  · rw [hm] at hw
    dsimp only at hw
    rcases hc : V.calculate inp with e | tab
    · rw [hc] at hw
      dsimp only at hw
      split_ifs at hw <;> simp at hw
    · rw [makeInput_ok] at hm
      obtain ⟨k', d, hk', hdat, hp⟩ := hm
      have : k' = k := by
        have := hk'.symm.trans hk
        injection this with this; injection this
      subst this
      have hdl : d = some l := by
        rcases hdat with ⟨h, -⟩ | ⟨rows', h, rfl⟩
        · cases h
        · injection h with h; injection h with h
          rw [hl, h]
      subst hdl
      rw [hV] at hp
      unfold pipeline at hp
      dsimp only at hp
      rcases hp1 : liftErr ((reading k' l.length fun i => (l.get i).2) >>= mkInput) with e | i2
      · rw [hp1] at hp; cases hp
      rw [hp1] at hp
      injection hp with hp2
      rw [liftErr_ok, bind_eq_ok] at hp1
      obtain ⟨s, hs, hi⟩ := hp1
      subst hp2
      have hc2 := hc
      rw [hV] at hc2
      unfold pipeline at hc2
      dsimp only at hc2
      rcases hr : liftErr (calculateResults (co2 l.length) i2) with e | res
      · rw [hr] at hc2; cases hc2
      rw [hr] at hc2
      injection hc2 with hc2
      rw [liftErr_ok] at hr
      have hcalc : calculate (co2 l.length) s = .ok res := by
        unfold calculate; rw [hi, bind_ok, hr]
      refine ⟨l.length, l.get, s, res, (List.ofFn_get l).symm, hs, hcalc, ?_⟩
      rw [hc] at hw
      obtain ⟨code, -, e2, -⟩ := writeAndCalibrate_code V tab
      dsimp only at hw
      rw [e2] at hw
      injection hw with hw
      rw [← hw, ← hc2]

theorem row_lacks {n : ℕ} {r r' : Result n} (h : r ⊑ r') (i : Fin n) : r.at i ⊑ r'.at i :=
  ⟨h.1 i, h.2.1 i, h.2.2.1 i, h.2.2.2.1 i, h.2.2.2.2.1 i, h.2.2.2.2.2 i⟩

theorem numbered_ofFn {m : ℕ} {rows : List D} {g : Fin m → ℕ × D} (h : numbered rows = List.ofFn g) :
    m = rows.length ∧ ∀ i : Fin m, (g i).1 = i ∧ rows[(i : ℕ)]? = some (g i).2 := by
  have hm : m = rows.length := by
    have := congrArg List.length h
    rw [length_numbered, List.length_ofFn] at this
    exact this.symm
  refine ⟨hm, fun i => ?_⟩
  have hi : (i : ℕ) < rows.length := hm ▸ i.isLt
  have h1 : (numbered rows)[(i : ℕ)]? = some (g i) := by
    rw [h]
    simp
  rw [numbered] at h1
  have h2 : ((List.range rows.length).zip rows)[(i : ℕ)]? = some ((i : ℕ), rows[(i : ℕ)]) := by
    rw [List.getElem?_eq_getElem (by simp [hi])]
    simp
  rw [h2] at h1
  injection h1 with h1
  rw [← h1]
  exact ⟨rfl, List.getElem?_eq_getElem hi⟩

/-- Every label of a table written in threshold mode is the number of a row. -/
theorem threshold_label {co2 : ∀ n, CO2Model n}
    {reading : K → ∀ n, (Fin n → D) → Except Err (Sections n)}
    {readingNoData : K → Except Err (Sections 1)}
    {w : World K D (Σ n, (Fin n → ℕ) × Input n)} {k : K} (hk : w.config = .ok (some k)) {rows : List D} {T : ℝ}
    {t : Table} (hw : (run (pipeline co2 reading readingNoData
      { w with data := some (.ok rows), threshold := some T })).written = [t])
    {i : ℕ} {v : Row} (hx : (i, v) ∈ t) : i < rows.length := by
  set W := pipeline co2 reading readingNoData
    { w with data := some (.ok rows), threshold := some T } with hW
  have hrun : run W = runWithThreshold W T := by unfold run; rfl
  rw [hrun, runWithThreshold_eq W k rows T hk rfl] at hw
  split_ifs at hw with h1 h2
  · obtain ⟨code, -, e2, -⟩ := writeAndCalibrate_code W
      ((numbered rows).filterMap (rowAlone W k)).flatten
    rw [e2] at hw
    injection hw with hw
    subst hw
    rw [List.mem_flatten] at hx
    obtain ⟨tab, htab, hv⟩ := hx
    rw [List.mem_filterMap] at htab
    obtain ⟨y, hy, hyt⟩ := htab
    have hone : rowAlone W k y =
        match (do calculate (co2 1) (← reading k 1 fun _ => y.2)) with
        | .error _ => none
        | .ok r => some [(y.1, r.at 0)] := pipeline_parse_one co2 reading readingNoData _ k y
    rw [hone] at hyt
    rcases hc : (do calculate (co2 1) (← reading k 1 fun _ => y.2)) with e | r
    · rw [hc] at hyt; cases hyt
    · rw [hc] at hyt
      injection hyt with hyt
      subst hyt
      obtain ⟨m, hm, rfl⟩ := List.getElem_of_mem hy
      rw [length_numbered] at hm
      simp only [numbered, List.getElem_zip, List.getElem_range, List.mem_singleton, Prod.mk.injEq] at hv
      rw [hv.1]; exact hm
  all_goals simp at hw

/-- **C150.** Emptying entries of the data file never changes a number of the table: whenever the program writes a
table for the data file and for the data file with entries emptied, a row that is in both tables has in each column
the same number, or the number is missing (NaN) after emptying.  In both modes. -/
theorem C150_missing_entries (co2 : ∀ n, CO2Model n) (hco2 : ∀ n, CO2Missing (co2 n)) (conv : Conv)
    (w : World Yaml DataRow (Σ n, (Fin n → ℕ) × Input n)) (cfg : Yaml) (hk : w.config = .ok (some cfg))
    (rows rows' : List DataRow) (hrows : List.Forall₂ (Emptied conv) rows rows') (t t' : Table)
    (hw : (run (pipeline co2 (reading conv) (readingNoData conv)
      { w with data := some (.ok rows) })).written = [t])
    (hw' : (run (pipeline co2 (reading conv) (readingNoData conv)
      { w with data := some (.ok rows') })).written = [t'])
    (label : ℕ) (x x' : Row) (hx : (label, x) ∈ t) (hx' : (label, x') ∈ t') : x ⊑ x' := by
  have hget : ∀ (i : ℕ) r r', rows[i]? = some r → rows'[i]? = some r' → Emptied conv r r' := by
    intro i r r' hr hr'
    have := forall₂_get (α := DataRow) (R := Emptied conv) hrows i
    rw [hr, hr'] at this
    cases this with
    | some h => exact h
  cases hT : w.threshold with
  | none =>
    obtain ⟨m, g, s, r, hg, hs, hr, rfl⟩ := normal_written co2 _ _ w cfg hk rows hT t hw
    obtain ⟨m', g', s', r', hg', hs', hr', rfl⟩ := normal_written co2 _ _ w cfg hk rows' hT t' hw'
    obtain ⟨hm, hgi⟩ := numbered_ofFn hg
    obtain ⟨hm', hgi'⟩ := numbered_ofFn hg'
    have hmm : m = m' := by rw [hm, hm', List.Forall₂.length_eq hrows]
    subst hmm
    have hst : s ⊑ s' := C150_reading (fun i => hget i _ _ (hgi i).2 (hgi' i).2) cfg hs hs'
    have hrr := C150_calculation (hco2 m) hst hr hr'
    obtain ⟨i, hi⟩ := List.mem_ofFn.mp hx
    obtain ⟨j, hj⟩ := List.mem_ofFn.mp hx'
    have hi1 := congrArg Prod.fst hi
    have hi2 := congrArg Prod.snd hi
    have hj1 := congrArg Prod.fst hj
    have hj2 := congrArg Prod.snd hj
    dsimp only at hi1 hi2 hj1 hj2
    rw [(hgi i).1] at hi1
    rw [(hgi' j).1] at hj1
    have hij : i = j := Fin.ext (hi1.trans hj1.symm)
    subst hij
    rw [← hi2, ← hj2]
    exact row_lacks hrr i
  | some T =>
    have hlen := List.Forall₂.length_eq hrows
    have e : ∀ d, ({ w with data := d } : World Yaml DataRow (Σ n, (Fin n → ℕ) × Input n)) =
        { w with data := d, threshold := some T } := by
      intro d; rw [← hT]
    rw [e] at hw hw'
    have hl : label < rows.length := threshold_label hk hw hx
    have hl' : label < rows'.length := hlen ▸ hl
    obtain ⟨r, hr, rfl⟩ := (threshold_written co2 _ _ w cfg hk rows T t hw label rows[label]
      (List.getElem?_eq_getElem hl) x).mp hx
    obtain ⟨r', hr', rfl⟩ := (threshold_written co2 _ _ w cfg hk rows' T t' hw' label rows'[label]
      (List.getElem?_eq_getElem hl') x').mp hx'
    obtain ⟨s, hs, hr⟩ := bind_eq_ok.mp hr
    obtain ⟨s', hs', hr'⟩ := bind_eq_ok.mp hr'
    have hst : s ⊑ s' := C150_reading (fun _ => hget label _ _ (List.getElem?_eq_getElem hl)
      (List.getElem?_eq_getElem hl')) cfg hs hs'
    exact row_lacks (C150_calculation (hco2 1) hst hr hr') 0

end OPE.Main
