import Verif.Props.MissingPorosity2
import Verif.Props.MissingFluids2

/-!
# A missing porosity loses no row in threshold mode (C151)
-/

namespace OPE.Main

open Classical Parse

/-- Rounding to nearest is monotone. -/
theorem roundsToNearest_mono {fl : ℝ → ℝ} (h : RoundsToNearest fl) {x y : ℝ} (hxy : x ≤ y) : fl x ≤ fl y := by
  rcases hxy.lt_or_eq with hlt | rfl
  · by_contra hc
    rw [not_le] at hc
    have h1 := (h x).2 (fl y) (h y).1
    have h2 := (h y).2 (fl x) (h x).1
    rcases abs_cases (fl x - x) with ⟨a, _⟩ | ⟨a, _⟩ <;> rcases abs_cases (fl y - x) with ⟨b, _⟩ | ⟨b, _⟩ <;>
    rcases abs_cases (fl x - y) with ⟨d, _⟩ | ⟨d, _⟩ <;> rcases abs_cases (fl y - y) with ⟨e, _⟩ | ⟨e, _⟩ <;>
    rw [a, b] at h1 <;> rw [e, d] at h2 <;> linarith
  · exact le_rfl

/-- Fewer failures, no smaller success percentage. -/
theorem successPercentage_mono {fl : ℝ → ℝ} (h : RoundsToNearest fl) {a b total : ℕ} (hab : a ≤ b) :
    successPercentage fl b total ≤ successPercentage fl a total := by
  unfold successPercentage
  split
  · exact le_rfl
  · refine roundsToNearest_mono h (mul_le_mul_of_nonneg_right (roundsToNearest_mono h
      (sub_le_sub_left (roundsToNearest_mono h ?_) _)) (by norm_num))
    exact div_le_div_of_nonneg_right (by exact_mod_cast hab) (by positivity)

theorem filterMap_length_le {α β γ : Type} {f : α → Option γ} {g : β → Option γ} {l : List α} {l' : List β}
    (h : List.Forall₂ (fun x y => (f x).isSome → (g y).isSome) l l') :
    (l.filterMap f).length ≤ (l'.filterMap g).length := by
  induction h with
  | nil => simp
  | @cons x y l l' h1 _ ih =>
    rw [List.filterMap_cons, List.filterMap_cons]
    rcases hf : f x with _ | a
    · rcases g y with _ | b
      · exact ih
      · exact ih.trans (by simp)
    · rw [hf] at h1
      obtain ⟨b, hb⟩ := Option.isSome_iff_exists.mp (h1 rfl)
      rw [hb]
      simpa using ih

/-- Threshold mode: if every row that succeeds still does after a change of the data file that keeps the number of
rows, a table that was written is still written. -/
theorem threshold_still_written {K D : Type} (co2 : ∀ n, CO2Model n)
    (reading : K → ∀ n, (Fin n → D) → Except Err (Sections n))
    (readingNoData : K → Except Err (Sections 1))
    (w : World K D (Σ n, (Fin n → ℕ) × Input n)) (k : K) (hk : w.config = .ok (some k)) (hfl : RoundsToNearest w.fl)
    (rows rows' : List D) (T : ℝ) (hlen : rows'.length = rows.length)
    (hrows : ∀ (i : ℕ) (x x' : D), rows[i]? = some x → rows'[i]? = some x' →
      (∃ r, (do calculate (co2 1) (← reading k 1 fun _ => x)) = .ok r) →
      ∃ r, (do calculate (co2 1) (← reading k 1 fun _ => x')) = .ok r)
    (t : Table) (hw : (run (pipeline co2 reading readingNoData
      { w with data := some (.ok rows), threshold := some T })).written = [t]) :
    ∃ t', (run (pipeline co2 reading readingNoData
      { w with data := some (.ok rows'), threshold := some T })).written = [t'] := by
  set W := pipeline co2 reading readingNoData { w with data := some (.ok rows), threshold := some T } with hW
  set W' := pipeline co2 reading readingNoData { w with data := some (.ok rows'), threshold := some T } with hW'
  have e : run W = runWithThreshold W T := by unfold run; rfl
  have e' : run W' = runWithThreshold W' T := by unfold run; rfl
  rw [e, runWithThreshold_eq W k rows T hk rfl] at hw
  rw [e', runWithThreshold_eq W' k rows' T hk rfl]
  have hone : ∀ y : ℕ × D, rowAlone W k y =
      match (do calculate (co2 1) (← reading k 1 fun _ => y.2)) with
      | .error _ => none
      | .ok r => some [(y.1, r.at 0)] := fun y => pipeline_parse_one co2 reading readingNoData _ k y
  have hone' : ∀ y : ℕ × D, rowAlone W' k y =
      match (do calculate (co2 1) (← reading k 1 fun _ => y.2)) with
      | .error _ => none
      | .ok r => some [(y.1, r.at 0)] := fun y => pipeline_parse_one co2 reading readingNoData _ k y
  have hle : ((numbered rows).filterMap (rowAlone W k)).length
      ≤ ((numbered rows').filterMap (rowAlone W' k)).length := by
    apply filterMap_length_le
    rw [List.forall₂_iff_get]
    refine ⟨by rw [length_numbered, length_numbered, hlen], fun i h1 h2 => ?_⟩
    rw [length_numbered] at h1 h2
    simp only [List.get_eq_getElem, numbered, List.getElem_zip, List.getElem_range]
    rw [hone, hone']
    have h := hrows i rows[i] rows'[i] (List.getElem?_eq_getElem h1) (List.getElem?_eq_getElem h2)
    intro hs
    rcases hc : (do calculate (co2 1) (← reading k 1 fun _ => rows[i])) with er | r
    · rw [hc] at hs; cases hs
    · obtain ⟨r', hr'⟩ := h ⟨r, hc⟩
      dsimp only
      rw [hr']
      rfl
  split_ifs at hw with h1 h2
  rw [if_neg, if_neg]
  · obtain ⟨code, -, e2, -⟩ := writeAndCalibrate_code W' ((numbered rows').filterMap (rowAlone W' k)).flatten
    exact ⟨_, e2⟩
  · intro hc
    rw [List.isEmpty_iff] at hc
    rw [hc] at hle
    exact h2 (by rw [List.isEmpty_iff]; exact List.length_eq_zero_iff.mp (Nat.le_zero.mp hle))
  · intro hc
    apply h1
    refine lt_of_le_of_lt ?_ hc
    change successPercentage w.fl _ _ ≤ successPercentage w.fl _ _
    rw [hlen]
    exact successPercentage_mono hfl (Nat.sub_le_sub_left hle _)

/-- **C151.** Threshold mode, with a configuration that takes the porosity (and nothing else) from a column of the
data file: emptying the entry of that column in any rows loses no row of the table; a row that was not emptied is
unchanged, and in an emptied one the density is missing, the mineral moduli are unchanged and each other column is
unchanged or missing. -/
theorem C151_threshold_mode (co2 : ∀ n, CO2Model n) (hco2 : CO2RowWise co2) (conv : Conv)
    (w : World Yaml DataRow (Σ n, (Fin n → ℕ) × Input n)) (cfg : Yaml) (col : String)
    (hcfg : PorosityColumn cfg col) (hk : w.config = .ok (some cfg)) (T : ℝ) (ht : w.threshold = some T)
    (hfl : RoundsToNearest w.fl) (rows : List DataRow) (emptied : ℕ → Prop) (t : Table)
    (hw : (run (pipeline co2 (reading conv) (readingNoData conv)
      { w with data := some (.ok rows) })).written = [t]) :
    ∃ t' : Table, (run (pipeline co2 (reading conv) (readingNoData conv)
      { w with data := some (.ok (rows.mapIdx fun i row s =>
        if s = col ∧ emptied i then some (.num .nan) else row s)) })).written = [t'] ∧
    ∀ (label : ℕ) (x : Row), (label, x) ∈ t → ∃ x', (label, x') ∈ t' ∧
      if emptied label then x'.rsat = Num.nan ∧ x'.kmin = x.kmin ∧ x'.kminFls = x.kminFls ∧
        (x'.kdry = x.kdry ∨ x'.kdry = Num.nan) ∧ (x'.ksat = x.ksat ∨ x'.ksat = Num.nan) ∧
        (x'.mysat = x.mysat ∨ x'.mysat = Num.nan)
      else x' = x := by
  have e : ∀ d, ({ w with data := d } : World Yaml DataRow (Σ n, (Fin n → ℕ) × Input n)) =
      { w with data := d, threshold := some T } := by
    intro d; rw [← ht]
  rw [e] at hw ⊢
  have alone : ∀ label (hl : label < rows.length), ∀ r : Result 1,
      (do calculate (co2 1) (← reading conv cfg 1 fun _ => rows[label])) = .ok r →
      ∃ r', (do calculate (co2 1) (← reading conv cfg 1 fun _ =>
          (fun s => if s = col ∧ emptied label then some (.num .nan) else rows[label] s : DataRow))) = .ok r' ∧
        if emptied label then r'.rsat 0 = Num.nan ∧ r'.kmin 0 = r.kmin 0 ∧ r'.kminFls 0 = r.kminFls 0 ∧
          (r'.kdry 0 = r.kdry 0 ∨ r'.kdry 0 = Num.nan) ∧ (r'.ksat 0 = r.ksat 0 ∨ r'.ksat 0 = Num.nan) ∧
          (r'.mysat 0 = r.mysat 0 ∨ r'.mysat 0 = Num.nan)
        else r'.at 0 = r.at 0 := by
    intro label hl r hr
    obtain ⟨s, hs, hr⟩ := bind_eq_ok.mp hr
    obtain ⟨r', hr', hrow⟩ := C151_missing_porosity hco2 s r hr fun _ => emptied label
    have hs' := reading_emptied conv hcfg _ (fun _ : Fin 1 => emptied label) s hs
    refine ⟨r', ?_, hrow 0⟩
    have h0 : (fun _ : Fin 1 => (fun s => if s = col ∧ emptied label then some (.num .nan) else rows[label] s : DataRow))
        = emptyIn col (fun _ : Fin 1 => emptied label) (fun _ => rows[label]) := by
      funext _ s
      simp only [emptyIn]
    rw [h0, hs', bind_ok, hr']
  obtain ⟨t', hw'⟩ := threshold_still_written co2 (reading conv) (readingNoData conv) w cfg hk hfl rows
    (rows.mapIdx fun i row s => if s = col ∧ emptied i then some (.num .nan) else row s) T (by simp)
    (fun i x x' hx hx' => by
      rintro ⟨r, hr⟩
      obtain ⟨hi, rfl⟩ := List.getElem?_eq_some_iff.mp hx
      rw [List.getElem?_mapIdx, hx] at hx'
      injection hx' with hx'
      subst hx'
      exact ⟨_, (alone i hi r hr).choose_spec.1⟩) t hw
  refine ⟨t', hw', fun label x hx => ?_⟩
  have hl : label < rows.length := threshold_label hk hw hx
  obtain ⟨r, hr, rfl⟩ := (threshold_written co2 _ _ w cfg hk rows T t hw label rows[label]
    (List.getElem?_eq_getElem hl) x).mp hx
  obtain ⟨r', hr', hrow⟩ := alone label hl r hr
  refine ⟨r'.at 0, (threshold_written co2 _ _ w cfg hk _ T t' hw' label _ ?_ _).mpr ⟨r', hr', rfl⟩, hrow⟩
  rw [List.getElem?_mapIdx, List.getElem?_eq_getElem hl]
  rfl

/-- **C157.** Threshold mode, columns used for the pore fluids only: after emptying any of their entries a table is
still written, and it has every row it had before: mineral, dense packing, dry rock and shear moduli unchanged,
saturated bulk modulus and density unchanged or missing, and a row in which nothing was emptied unchanged. -/
theorem C157_threshold_table (co2 : ∀ n, CO2Model n) (hco2 : CO2RowWise co2) (conv : Conv)
    (w : World Yaml DataRow (Σ n, (Fin n → ℕ) × Input n)) (cfg : Yaml) (cols : String → Prop)
    (hcfg : FluidColumns cfg cols) (hk : w.config = .ok (some cfg)) (T : ℝ) (ht : w.threshold = some T)
    (hfl : RoundsToNearest w.fl)
    (hc : (∀ n rows s, reading conv cfg n rows = .ok s → ∀ x ∈ s.fluids, x.kind.type ≠ "carbon_dioxide") ∨
      TemperatureKnown cfg cols)
    (rows rows' : List DataRow) (hrows : List.Forall₂ (EmptiedIn conv cols) rows' rows) (t : Table)
    (hw : (run (pipeline co2 (reading conv) (readingNoData conv)
      { w with data := some (.ok rows) })).written = [t]) :
    ∃ t' : Table, (run (pipeline co2 (reading conv) (readingNoData conv)
        { w with data := some (.ok rows') })).written = [t'] ∧
      ∀ (label : ℕ) (x : Row), (label, x) ∈ t →
        ∃ x', (label, x') ∈ t' ∧ x'.kmin = x.kmin ∧ x'.kminFls = x.kminFls ∧ x'.kdry = x.kdry ∧ x'.mysat = x.mysat ∧
          (x'.ksat = x.ksat ∨ x'.ksat = Num.nan) ∧ (x'.rsat = x.rsat ∨ x'.rsat = Num.nan) ∧
          (rows'[label]? = rows[label]? → x' = x) := by
  have e : ∀ d, ({ w with data := d } : World Yaml DataRow (Σ n, (Fin n → ℕ) × Input n)) =
      { w with data := d, threshold := some T } := by
    intro d; rw [← ht]
  obtain ⟨t', hw'⟩ := threshold_still_written co2 (reading conv) (readingNoData conv) w cfg hk hfl rows rows' T
    (List.Forall₂.length_eq hrows) (fun i x x' hx hx' => by
      rintro ⟨r, hr⟩
      obtain ⟨s, hs, hr⟩ := bind_eq_ok.mp hr
      have hE : EmptiedIn conv cols x' x := by
        have := forall₂_get (R := EmptiedIn conv cols) hrows i
        rw [hx, hx'] at this
        cases this with
        | some h => exact h
      obtain ⟨s', r', hs', hr', -⟩ := emptied_row (n := 1) hco2 hcfg (fun _ => hE) hs
        (hc.imp (fun h => h 1 _ s hs) id) hr
      exact ⟨r', by rw [hs', bind_ok, hr']⟩) t (by rw [← e]; exact hw)
  rw [← e] at hw'
  exact ⟨t', hw', fun label x hx =>
    C157_threshold_mode co2 hco2 conv w cfg cols hcfg hk T ht hc rows rows' hrows t t' hw hw' label x hx⟩

/-- C151 in threshold mode on the concrete configuration: both rows give a table, and emptying the first porosity
still gives one with both rows. -/
example (conv : Conv) (w : World Yaml DataRow (Σ n, (Fin n → ℕ) × Input n)) (hfl : RoundsToNearest w.fl)
    (hk : w.config = .ok (some (exYaml (num 3)))) (ht : w.threshold = some 90) :
    ∃ x0 x1 t' y0, (run (pipeline (fun _ _ _ _ => .error .notImplemented) (reading conv) (readingNoData conv)
        { w with data := some (.ok [exRow 0.2 3, exRow 0.3 3]) })).written = [[(0, x0), (1, x1)]] ∧
      (run (pipeline (fun _ _ _ _ => .error .notImplemented) (reading conv) (readingNoData conv)
        { w with data := some (.ok ([exRow 0.2 3, exRow 0.3 3].mapIdx fun i row s =>
          if s = "phi" ∧ i = 0 then some (.num .nan) else row s)) })).written = [t'] ∧
      (0, y0) ∈ t' ∧ (1, x1) ∈ t' ∧ y0.rsat = Num.nan ∧ y0.kmin = x0.kmin := by
  obtain ⟨t, h⟩ := exWrites conv { w with threshold := none } hk rfl
  obtain ⟨m, g, s, r, hg, -, -, rfl⟩ := normal_written _ _ _ { w with threshold := none } _ hk _ rfl t h
  obtain ⟨hm, hgi⟩ := numbered_ofFn hg
  simp only [List.length_cons, List.length_nil] at hm
  subst hm
  have e : (List.ofFn fun i => ((g i).1, r.at i)) = [(0, r.at 0), (1, r.at 1)] := by
    simp only [(hgi _).1]
    simp [List.ofFn_succ]
  rw [e] at h
  have hsame : run (pipeline (fun _ _ _ _ => .error .notImplemented) (reading conv) (readingNoData conv)
        { w with data := some (.ok [exRow 0.2 3, exRow 0.3 3]), threshold := some 90 }) = _ :=
    C53_yaml _ noCO2 conv { w with data := some (.ok [exRow 0.2 3, exRow 0.3 3]) } _ exYaml_perRow
      [exRow 0.2 3, exRow 0.3 3] 90 (by norm_num) hfl hk rfl (by simp) (by
        intro x hx
        obtain ⟨phi, rfl, h0, h1⟩ := exRow_por hx
        rw [exRead_num conv (fun _ : Fin 1 => phi) (fun _ => 3), bind_ok]
        exact exRun_ok _ phi h0 h1)
  have h2 : (run (pipeline (fun _ _ _ _ => .error .notImplemented) (reading conv) (readingNoData conv)
        { w with data := some (.ok [exRow 0.2 3, exRow 0.3 3]) })).written = [[(0, r.at 0), (1, r.at 1)]] := by
    rw [← h, ← ht] at *
    exact congrArg _ hsame
  obtain ⟨t', hw', hrows⟩ := C151_threshold_mode _ noCO2 conv w _ "phi" exYaml_porosityColumn hk 90 ht hfl _
    (fun i => i = 0) _ h2
  obtain ⟨y0, hy0, a⟩ := hrows 0 (r.at 0) (by simp)
  obtain ⟨y1, hy1, b⟩ := hrows 1 (r.at 1) (by simp)
  rw [if_pos rfl] at a
  rw [if_neg (by decide)] at b
  subst b
  exact ⟨_, _, t', y0, h2, by convert hw', hy0, hy1, a.1, a.2.1⟩

end OPE.Main
