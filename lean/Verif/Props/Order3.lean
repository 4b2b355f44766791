import Verif.Props.Order2
import Verif.Props.Main2
import Verif.Props.MainRaw

/-!
# The order of keys does not matter (C116): the whole program
-/

namespace OPE.Main

open Classical

variable {K D I : Type}

/-- Two configurations that give the same inputs give the same tables and the same success. -/
theorem run_same (w : World K D I) (k k' : K) (hk : w.config = .ok (some k))
    (h : ∀ d i, w.parse k d = .ok i ↔ w.parse k' d = .ok i) :
    (run w).written = (run { w with config := .ok (some k') }).written ∧
    (run w).printed = (run { w with config := .ok (some k') }).printed ∧
    ((run w).code = .ok 0 ↔ (run { w with config := .ok (some k') }).code = .ok 0) := by
  set w' : World K D I := { w with config := .ok (some k') } with hw'
  have hk' : w'.config = .ok (some k') := rfl
  have hwc : ∀ t, writeAndCalibrate w' t = writeAndCalibrate w t := fun _ => rfl
  rcases ht : w.threshold with _ | T
  · have e1 : run w = (match makeInput w with
        | .error .inputError => ⟨.ok (-2), [], []⟩
        | .error _ => ⟨.ok (-1), [], []⟩
        | .ok inp => match w.calculate inp with
          | .error e => if e.isValueError then ⟨.ok (-3), [], []⟩ else ⟨.ok (-1), [], []⟩
          | .ok t => writeAndCalibrate w t) := by
      unfold run; rw [ht]; rfl
    have e2 : run w' = (match makeInput w' with
        | .error .inputError => ⟨.ok (-2), [], []⟩
        | .error _ => ⟨.ok (-1), [], []⟩
        | .ok inp => match w.calculate inp with
          | .error e => if e.isValueError then ⟨.ok (-3), [], []⟩ else ⟨.ok (-1), [], []⟩
          | .ok t => writeAndCalibrate w t) := by
      unfold run; rw [show w'.threshold = none from ht]; rfl
    have hm : ∀ i, makeInput w = .ok i ↔ makeInput w' = .ok i := by
      intro i
      rw [makeInput_ok, makeInput_ok]
      unfold Reads
      constructor
      · rintro ⟨k1, d, h1, h2, h3⟩
        rw [hk] at h1; injection h1 with h1; injection h1 with h1; subst h1
        exact ⟨k', d, hk', h2, (h d i).mp h3⟩
      · rintro ⟨k1, d, h1, h2, h3⟩
        rw [hk'] at h1; injection h1 with h1; injection h1 with h1; subst h1
        exact ⟨k, d, hk, h2, (h d i).mpr h3⟩
    rcases h1 : makeInput w with e | i
    · rcases h2 : makeInput w' with e' | i'
      · rw [e1, e2, h1, h2]
        cases e <;> cases e' <;> simp
      · rw [(hm i').mpr h2] at h1; cases h1
    · rw [e1, e2, h1, (hm i).mp h1]
      exact ⟨rfl, rfl, Iff.rfl⟩
  · have e1 : run w = runWithThreshold w T := by unfold run; rw [ht]
    have e2 : run w' = runWithThreshold w' T := by unfold run; rw [show w'.threshold = some T from ht]
    have hrow : rowAlone w k = rowAlone w' k' := by
      funext x
      unfold rowAlone
      rcases h1 : w.parse k (some [x]) with e | i
      · rcases h2 : w'.parse k' (some [x]) with e' | i'
        · rfl
        · rw [(h _ i').mpr h2] at h1; cases h1
      · rw [show w'.parse k' (some [x]) = .ok i from (h _ i).mp h1]
    suffices runWithThreshold w T = runWithThreshold w' T by
      rw [e1, e2, this]; exact ⟨rfl, rfl, Iff.rfl⟩
    rcases hd : w.data with _ | (e | rows)
    · unfold runWithThreshold
      rw [show w'.data = none from hd]; rfl
    · unfold runWithThreshold makePerRowInput loadConfig loadData
      rw [show w'.data = some (.error e) from hd, hk, hk']
      cases e <;> rfl
    · rw [runWithThreshold_eq w k rows T hk hd, runWithThreshold_eq w' k' rows T hk' hd, hrow]
      simp only [hwc]
      rfl

/-- **C116.** Running the program with two configuration files that differ only in the order of keys writes the
same table, prints the same statistics, and succeeds for one exactly when it does for the other. -/
theorem C116_run (co2 : ∀ n, CO2Model n) (conv : Parse.Conv)
    (w : World Parse.Yaml Parse.DataRow (Σ n, (Fin n → ℕ) × Input n)) {y y' : Parse.Yaml} (h : SameDoc y y') :
    let runWith := fun cfg => run (pipeline co2 (Parse.reading conv) (Parse.readingNoData conv)
      { w with config := .ok (some cfg) })
    (runWith y).written = (runWith y').written ∧ (runWith y).printed = (runWith y').printed ∧
    ((runWith y).code = .ok 0 ↔ (runWith y').code = .ok 0) := by
  refine run_same (pipeline co2 (Parse.reading conv) (Parse.readingNoData conv)
    { w with config := .ok (some y) }) y y' rfl fun d i => ?_
  have key : ∀ {m : ℕ} {a b : Except Err (Sections m)}, (∀ s, a = .ok s ↔ b = .ok s) →
      ∀ {g : Input m → (Σ n, (Fin n → ℕ) × Input n)},
      ((liftErr (a >>= mkInput) >>= fun inp => .ok (g inp)) = .ok i ↔
        (liftErr (b >>= mkInput) >>= fun inp => .ok (g inp)) = .ok i) := by
    intro m a b hab g
    rcases a with e | s
    · rcases b with e' | s'
      · exact ⟨fun h => (nomatch h), fun h => (nomatch h)⟩
      · exact absurd ((hab s').mpr rfl) (by simp)
    · rw [(hab s).mp rfl]
  cases d with
  | none =>
    exact key fun s => ⟨Parse.readWith_same conv _ h, Parse.readWith_same conv _ h.symm⟩
  | some l =>
    exact key fun s => ⟨Parse.readWith_same conv _ h, Parse.readWith_same conv _ h.symm⟩

end OPE.Main
