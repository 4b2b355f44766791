import Verif.Props.Main2
import Verif.Spec.Float

/-!
# Both modes agree when every row succeeds (C53); rounding of the success percentage (C83)
-/

namespace OPE

theorem RoundsToNearest.exact {fl : ℝ → ℝ} (h : RoundsToNearest fl) {x : ℝ} (hx : IsDouble x) :
    fl x = x := by
  have := (h x).2 x hx
  rw [sub_self, abs_zero] at this
  have := abs_nonpos_iff.mp this
  linarith

theorem isDouble_int (m : ℤ) (h : |m| < 2 ^ 53) : IsDouble (m : ℝ) := ⟨m, 0, h, by simp⟩

namespace Main

open Classical

variable {K D : Type}

theorem liftErr_ok {α : Type} {x : Except Err α} {a : α} : liftErr x = .ok a ↔ x = .ok a := by
  rcases x with e | b <;> simp [liftErr]

theorem pipeline_parse_one (co2 : ∀ n, CO2Model n)
    (reading : K → ∀ n, (Fin n → D) → Except Err (Sections n))
    (readingNoData : K → Except Err (Sections 1))
    (w : World K D (Σ n, (Fin n → ℕ) × Input n)) (k : K) (x : ℕ × D) :
    rowAlone (pipeline co2 reading readingNoData w) k x =
      match (do calculate (co2 1) (← reading k 1 fun _ => x.2)) with
      | .error _ => none
      | .ok r => some [(x.1, r.at 0)] := by
  unfold rowAlone pipeline calculate
  dsimp only
  have he : (fun i : Fin [x].length => ([x].get i).2) = fun _ => x.2 := by
    funext i
    match i with
    | ⟨0, _⟩ => rfl
  rw [he]
  rcases reading k 1 (fun _ => x.2) with e | s
  · rfl
  · rcases hi : mkInput s with e | inp
    · simp [bind_ok, hi, liftErr, Bind.bind, Except.bind]
    · simp only [bind_ok, hi, liftErr]
      rcases hc : calculateResults (co2 1) inp with e | r
      · have : (liftErr (calculateResults (co2 [x].length) inp)) = .error e.toPy := by
          rw [show calculateResults (co2 [x].length) inp = .error e from hc]; rfl
        simp only [liftErr] at this
        simp only [this, Bind.bind, Except.bind]
      · have : (liftErr (calculateResults (co2 [x].length) inp)) = .ok r := by
          rw [show calculateResults (co2 [x].length) inp = .ok r from hc]; rfl
        simp only [liftErr] at this
        simp only [this, Bind.bind, Except.bind]
        rfl

/-- Every row's table, in order. -/
theorem flatten_filterMap {l : List (ℕ × D)} (f : ℕ × D → Option Table) (g : Fin l.length → ℕ × Row)
    (h : ∀ i, f (l.get i) = some [g i]) :
    (l.filterMap f).flatten = List.ofFn g ∧ (l.filterMap f).length = l.length := by
  have hl : l = (List.finRange l.length).map l.get := by
    rw [← List.ofFn_eq_map, List.ofFn_get]
  have h1 : l.filterMap f = (List.finRange l.length).map fun i => [g i] := by
    conv_lhs => rw [hl]
    rw [List.filterMap_map]
    have : (f ∘ l.get) = fun i => some [g i] := funext h
    rw [this]
    exact congrFun (List.filterMap_eq_map (f := fun i => [g i])) _
  rw [h1]
  refine ⟨?_, by simp⟩
  rw [List.ofFn_eq_map]
  generalize List.finRange l.length = is
  induction is with
  | nil => rfl
  | cons i is ih => simp [ih]

/-- **C53.** If every row succeeds alone, normal mode and threshold mode do exactly the same: same table
written, same statistics printed, same exit code.  Percentages are rounded to nearest. -/
theorem C53_modes_agree (co2 : ∀ n, CO2Model n) (hco2 : CO2RowWise co2)
    (reading : K → ∀ n, (Fin n → D) → Except Err (Sections n))
    (readingNoData : K → Except Err (Sections 1))
    (w : World K D (Σ n, (Fin n → ℕ) × Input n)) (k : K) (rows : List D) (T : ℝ) (hT : T ≤ 100)
    (hread : ReadingRowWise reading k) (hfl : RoundsToNearest w.fl) (hk : w.config = .ok (some k)) (hd : w.data = some (.ok rows))
    (hrows : rows ≠ [])
    (hall : ∀ x ∈ rows, ∃ r, (do calculate (co2 1) (← reading k 1 fun _ => x)) = .ok r) :
    run (pipeline co2 reading readingNoData { w with threshold := some T }) =
      run (pipeline co2 reading readingNoData { w with threshold := none }) ∧
    ∃ table : Table, (run (pipeline co2 reading readingNoData { w with threshold := none })).written
        = [table] ∧
      table.map Prod.fst = List.range rows.length ∧
      ∀ (i : ℕ) (x : D) (r : Result 1), rows[i]? = some x → (do calculate (co2 1) (← reading k 1 fun _ => x)) = .ok r →
        table[i]? = some (i, r.at 0) := by
  set l := numbered rows with hl
  have hlen : l.length = rows.length := length_numbered rows
  have hn : l.length ≠ 0 := by rw [hlen]; exact fun h => hrows (List.length_eq_zero_iff.mp h)
  have : NeZero l.length := ⟨hn⟩
  have hget : ∀ i : Fin l.length, l.get i = (i.1, rows[i.1]'(by have := i.2; omega)) := by
    intro i; simp [hl, numbered]
  have hrow : ∀ i : Fin l.length, ∃ r,
      (do calculate (co2 1) (← reading k 1 fun _ => (l.get i).2)) = .ok r := by
    intro i
    apply hall
    rw [hget]; exact List.getElem_mem _
  obtain ⟨h1, h2⟩ := hread l.length (fun i => (l.get i).2)
  obtain ⟨s, hs⟩ := h2 fun i => by
    obtain ⟨r, hr⟩ := hrow i
    rw [bind_eq_ok] at hr
    obtain ⟨a, ha, -⟩ := hr
    exact ⟨a, ha⟩
  have hs1 : ∀ i, (reading k 1 fun _ => (l.get i).2) = .ok (s.row i) := h1 s hs
  obtain ⟨h3, h4⟩ := C07_row_wise hco2 s
  obtain ⟨res, hres⟩ := h4 fun i => by
    obtain ⟨r, hr⟩ := hrow i
    rw [hs1 i, bind_ok] at hr
    exact ⟨r, hr⟩
  have hres1 := h3 res hres
  have hone : ∀ i : Fin l.length,
      (do calculate (co2 1) (← reading k 1 fun _ => (l.get i).2)) = .ok (res.row i) := by
    intro i; rw [hs1 i, bind_ok]; exact hres1 i
  set W := pipeline co2 reading readingNoData { w with threshold := some T } with hW
  set V := pipeline co2 reading readingNoData { w with threshold := none } with hV
  obtain ⟨hf1, hf2⟩ := flatten_filterMap (rowAlone W k) (fun i => ((l.get i).1, res.at i)) (by
    intro i
    rw [hW, pipeline_parse_one, hone i]; rfl)
  have htot : run W = writeAndCalibrate W (List.ofFn fun i => ((l.get i).1, res.at i)) := by
    have hrun : run W = runWithThreshold W T := by unfold run; rfl
    rw [hrun, runWithThreshold_eq W k rows T hk hd, ← hl, hf1, hf2.trans hlen, Nat.sub_self]
    have hz : successPercentage W.fl 0 rows.length = 100 := by
      unfold successPercentage
      rw [if_neg (by rw [← hlen]; exact hn)]
      have e0 : w.fl 0 = 0 := hfl.exact ⟨0, 0, by norm_num, by simp⟩
      have e1 : w.fl 1 = 1 := hfl.exact ⟨1, 0, by norm_num, by simp⟩
      have e2 : w.fl 100 = 100 := hfl.exact ⟨100, 0, by norm_num, by simp⟩
      change w.fl (w.fl (1 - w.fl ((0 : ℕ) / (rows.length : ℝ))) * 100) = 100
      rw [Nat.cast_zero, zero_div, e0, sub_zero, e1, one_mul, e2]
    rw [hz, if_neg (not_lt.mpr hT), if_neg]
    rw [List.isEmpty_iff]
    intro h
    rw [h] at hf2
    exact hn hf2.symm
  have hnorm : run V = writeAndCalibrate V (List.ofFn fun i => ((l.get i).1, res.at i)) := by
    unfold calculate at hres
    rw [bind_eq_ok] at hres
    obtain ⟨inp, hi, hr⟩ := hres
    have hm : makeInput V = .ok ⟨l.length, fun i => (l.get i).1, inp⟩ := by
      rw [makeInput_ok]
      refine ⟨k, some l, hk, .inr ⟨rows, hd, rfl⟩, ?_⟩
      rw [hV]; unfold pipeline; dsimp only
      rw [hs, bind_ok, hi]; rfl
    have hc : V.calculate ⟨l.length, fun i => (l.get i).1, inp⟩
        = .ok (List.ofFn fun i => ((l.get i).1, res.at i)) := by
      rw [hV]; unfold pipeline; dsimp only
      rw [hr]; rfl
    unfold run
    rw [show V.threshold = none from rfl, hm]
    dsimp only
    rw [hc]
  refine ⟨by rw [htot, hnorm]; rfl, List.ofFn fun i => ((l.get i).1, res.at i), ?_, ?_, ?_⟩
  · rw [hnorm]
    obtain ⟨code, -, h5, -⟩ := writeAndCalibrate_code V (List.ofFn fun i => ((l.get i).1, res.at i))
    exact h5
  · apply List.ext_getElem
    · simp [hlen]
    · intro i h5 h6
      have : i < l.length := by simpa using h5
      simp [hl, numbered]
  · intro i x r hx hr
    obtain ⟨hi, rfl⟩ := List.getElem?_eq_some_iff.mp hx
    have hi' : i < l.length := by omega
    have h7 := hone ⟨i, hi'⟩
    rw [hget] at h7
    dsimp only at h7
    rw [hr] at h7
    injection h7 with h7
    subst h7
    rw [List.getElem?_eq_getElem (by simpa using hi')]
    rw [List.getElem_ofFn, hget]
    rfl

end Main

end OPE
