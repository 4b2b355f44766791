import Verif.Props.Main5
import Verif.Props.EndToEnd

/-!
# A concrete run for C53: quartz sand with brine, porosities from the data file
-/

namespace OPE.Main

open Classical

noncomputable def exReading : Unit → ∀ n, (Fin n → ℝ) → Except Err (Sections n) :=
  fun _ _ rows => .ok (exSections rows)

theorem exReading_rowWise (k : Unit) : ReadingRowWise exReading k := by
  intro n _ rows
  refine ⟨fun r h i => ?_, fun _ => ⟨_, rfl⟩⟩
  injection h with h
  subst h
  rfl

/-- Both modes write the same two-row table. -/
example (w : World Unit ℝ (Σ n, (Fin n → ℕ) × Input n)) (hfl : RoundsToNearest w.fl)
    (hk : w.config = .ok (some ())) (hd : w.data = some (.ok [0.2, 0.3])) :
    run (pipeline (fun _ _ _ _ => .error .notImplemented) exReading (fun _ => .error .valueError)
        { w with threshold := some 90 }) =
      run (pipeline (fun _ _ _ _ => .error .notImplemented) exReading (fun _ => .error .valueError)
        { w with threshold := none }) := by
  refine (C53_modes_agree _ noCO2 exReading _ w () [0.2, 0.3] 90 (by norm_num) (exReading_rowWise ()) hfl hk hd
    (by simp) ?_).1
  intro x hx
  obtain ⟨r, -, -, -, -, -, hr, -⟩ := exSections_ok (n := 1) (fun _ _ _ => .error .notImplemented)
    (fun _ => x)
    (by intro i; simp at hx; rcases hx with rfl | rfl <;> norm_num)
    (by intro i; simp at hx; rcases hx with rfl | rfl <;> norm_num)
  exact ⟨r, hr⟩

end OPE.Main
