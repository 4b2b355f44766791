import Verif.Spec.Main
import Verif.Props.RowWise

/-!
# The command line tool (C51–C58)
-/

namespace OPE.Main

open Classical

variable {K D I : Type}

theorem labelled_eq (rows : List D) : labelled rows = numbered rows := by
  unfold labelled numbered
  apply List.ext_getElem
  · simp
  · intro i h1 h2
    simp

theorem makeInput_ok (w : World K D I) (inp : I) : makeInput w = .ok inp ↔ Reads w inp := by
  unfold makeInput loadConfig loadData Reads HasData
  rcases hc : w.config with e | (_ | k)
  · cases e <;> simp [Bind.bind, Except.bind]
  · simp [Bind.bind, Except.bind]
  · rcases hd : w.data with _ | (e | rows)
    · simp only [Bind.bind, Except.bind, Option.map]
      rcases hp : w.parse k none with e | i
      · cases e <;> simp [wrapParse, PyExc.isValueError, hp]
      · simp [wrapParse, hp]
    · cases e <;> simp [Bind.bind, Except.bind]
    · simp only [Bind.bind, Except.bind, Option.map, labelled_eq]
      rcases hp : w.parse k (some (numbered rows)) with e | i
      · cases e <;> simp [wrapParse, PyExc.isValueError, hp]
      · simp [wrapParse, hp]

theorem makeInput_bad (w : World K D I) : makeInput w = .error .inputError ↔ BadInput w := by
  unfold makeInput loadConfig loadData BadInput HasData
  rcases hc : w.config with e | (_ | k)
  · cases e <;> simp [Bind.bind, Except.bind]
  · simp [Bind.bind, Except.bind]
  · rcases hd : w.data with _ | (e | rows)
    · simp only [Bind.bind, Except.bind, Option.map]
      rcases hp : w.parse k none with e | i
      · cases e <;> simp [wrapParse, PyExc.isValueError, hp]
      · simp [wrapParse, hp]
    · cases e <;> simp [Bind.bind, Except.bind]
    · simp only [Bind.bind, Except.bind, Option.map, labelled_eq]
      rcases hp : w.parse k (some (numbered rows)) with e | i
      · cases e <;> simp [wrapParse, PyExc.isValueError, hp]
      · simp [wrapParse, hp]

theorem calibrationLoop_ok (t : Table) (cal : Calibration) (keys : List String) :
    (calibrationLoop t cal keys).2 = .ok () ↔ ∀ key ∈ keys, ∃ col, cal key = some col := by
  induction keys with
  | nil => simp [calibrationLoop]
  | cons key keys ih =>
    simp only [calibrationLoop]
    rcases h : cal key with _ | col
    · simp [h]
    · simp [ih, h]

theorem calibrationLoop_error (t : Table) (cal : Calibration) (keys : List String) (e : PyExc)
    (h : (calibrationLoop t cal keys).2 = .error e) : e = .keyError := by
  induction keys with
  | nil => simp [calibrationLoop] at h
  | cons key keys ih =>
    simp only [calibrationLoop] at h
    rcases hc : cal key with _ | col
    · rw [hc] at h; simp at h; exact h.symm
    · rw [hc] at h; exact ih h

theorem runCalibration_ok (file : Except PyExc Calibration) (t : Table) :
    (runCalibration file t).2 = .ok () ↔ CalibrationUsable file := by
  unfold runCalibration CalibrationUsable
  rcases file with e | cal
  · cases e <;> simp [wrapCalibration]
  · dsimp only
    rcases h : (calibrationLoop t cal ["kmin", "kdry", "ksat", "kmin_fls"]).2 with e | u
    · have hn : ¬ ∀ key ∈ ["kmin", "kdry", "ksat", "kmin_fls"], ∃ col, cal key = some col := by
        rw [← calibrationLoop_ok t]; rw [h]; simp
      have := calibrationLoop_error _ _ _ _ h
      subst this
      constructor
      · intro h'; simp [wrapCalibration] at h'
      · rintro ⟨cal', hc, h'⟩
        injection hc with hc; subst hc; exact absurd h' hn
    · have hy := (calibrationLoop_ok t cal _).mp h
      simp only [wrapCalibration, true_iff]
      exact ⟨cal, rfl, hy⟩

theorem runCalibration_bad (file : Except PyExc Calibration) (t : Table) :
    (runCalibration file t).2 = .error .calibrationError ↔ CalibrationBad file := by
  unfold runCalibration CalibrationBad
  rcases file with e | cal
  · cases e <;> simp [wrapCalibration]
  · dsimp only
    rcases h : (calibrationLoop t cal ["kmin", "kdry", "ksat", "kmin_fls"]).2 with e | u
    · have hn : ¬ ∀ key ∈ ["kmin", "kdry", "ksat", "kmin_fls"], ∃ col, cal key = some col := by
        rw [← calibrationLoop_ok t]; rw [h]; simp
      have := calibrationLoop_error _ _ _ _ h
      subst this
      simp only [wrapCalibration, true_iff]
      right
      refine ⟨cal, rfl, ?_⟩
      by_contra hc
      push Not at hc
      exact hn fun key hk => Option.ne_none_iff_exists'.mp (hc key hk)
    · have hy := (calibrationLoop_ok t cal _).mp h
      constructor
      · intro h'; simp [wrapCalibration] at h'
      · rintro (⟨e, hc, -⟩ | ⟨cal', hc, key, hk, hk'⟩)
        · cases hc
        · injection hc with hc; subst hc
          obtain ⟨col, hcol⟩ := hy key hk
          rw [hk'] at hcol; cases hcol

/-- Everything after a complete table has been computed. -/
theorem writeAndCalibrate_code (w : World K D I) (t : Table) :
    ∃ code, (writeAndCalibrate w t).code = .ok code ∧ (writeAndCalibrate w t).written = [t] ∧
      (code = 0 ∨ code = -1 ∨ code = -4) ∧
      (code = 0 ↔ w.write t = .ok () ∧ ∀ file, w.calibration = some file → CalibrationUsable file) ∧
      (code = -4 ↔ w.write t = .ok () ∧ ∃ file, w.calibration = some file ∧ CalibrationBad file) := by
  unfold writeAndCalibrate
  rcases hw : w.write t with e | u
  · exact ⟨-1, rfl, rfl, by simp, by simp, by simp⟩
  · rcases hc : w.calibration with _ | file
    · exact ⟨0, rfl, rfl, by simp, by simp, by simp⟩
    · dsimp only
      have h1 := runCalibration_ok file t
      have h2 := runCalibration_bad file t
      rcases hr : (runCalibration file t).2 with e | u
      · rw [hr] at h1 h2
        by_cases he : e = .calibrationError
        · subst he
          have h3 : ¬ CalibrationUsable file := by simpa using h1
          have h4 : CalibrationBad file := by simpa using h2
          exact ⟨-4, rfl, rfl, by simp, by simp [h3], by simp [h4]⟩
        · have h3 : ¬ CalibrationUsable file := by simpa using h1
          have h4 : ¬ CalibrationBad file := by simpa [he] using h2
          refine ⟨-1, ?_, ?_, by simp, by simp [h3], by simp [h4]⟩
          · cases e <;> first | rfl | exact absurd rfl he
          · cases e <;> first | rfl | exact absurd rfl he
      · rw [hr] at h1 h2
        have h3 : CalibrationUsable file := h1.mp rfl
        have h4 : ¬ CalibrationBad file := by simpa using h2
        exact ⟨0, rfl, rfl, by simp, by simp [h3], by simp [h4]⟩

/-- **C51.** Exit codes of a run without success threshold, for all outcomes of reading, calculating,
writing and calibrating. -/
theorem C51_exit_codes (w : World K D I) (h : w.threshold = none) :
    ∃ code, (run w).code = .ok code ∧
      (code = 0 ∨ code = -1 ∨ code = -2 ∨ code = -3 ∨ code = -4) ∧
      (code = 0 ↔ ∃ inp t, Reads w inp ∧ w.calculate inp = .ok t ∧ w.write t = .ok () ∧
        ∀ file, w.calibration = some file → CalibrationUsable file) ∧
      (code = -2 ↔ BadInput w) ∧
      (code = -3 ↔ ∃ inp e, Reads w inp ∧ w.calculate inp = .error e ∧ e.isValueError) ∧
      (code = -4 ↔ ∃ inp t, Reads w inp ∧ w.calculate inp = .ok t ∧ w.write t = .ok () ∧
        ∃ file, w.calibration = some file ∧ CalibrationBad file) := by
  unfold run
  rw [h]
  dsimp only
  have hr := makeInput_ok w
  have hb := makeInput_bad w
  rcases hm : makeInput w with e | inp
  · rw [hm] at hr hb
    have hno : ∀ inp, ¬ Reads w inp := fun inp => by rw [← hr]; simp
    have hb' : e = .inputError ↔ BadInput w := by rw [← hb]; simp
    by_cases he : e = .inputError
    · subst he
      exact ⟨-2, rfl, by simp, by simp [hno], by simp [← hb'], by simp [hno], by simp [hno]⟩
    · refine ⟨-1, ?_, by simp, by simp [hno], by simp [← hb', he], by simp [hno], by simp [hno]⟩
      cases e <;> first | rfl | exact absurd rfl he
  · have hinp : Reads w inp := (hr inp).mp hm
    have huniq : ∀ inp', Reads w inp' ↔ inp' = inp := fun inp' => by
      rw [← hr, hm]; simp [eq_comm]
    have hnb : ¬ BadInput w := by rw [← hb, hm]; simp
    dsimp only
    rcases hc : w.calculate inp with e | t
    · dsimp only
      by_cases hv : e.isValueError = true
      · refine ⟨-3, by simp [hv], by simp, ?_, by simp [hnb], ?_, ?_⟩ <;> simp [huniq, hc, hv]
      · refine ⟨-1, by simp [hv], by simp, ?_, by simp [hnb], ?_, ?_⟩ <;> simp [huniq, hc, hv]
    · dsimp only
      obtain ⟨code, h1, -, h2, h3, h4⟩ := writeAndCalibrate_code w t
      refine ⟨code, h1, by tauto, ?_, ?_, ?_, ?_⟩
      · rw [h3]; simp [huniq, hc]
      · simp only [hnb, iff_false]; rcases h2 with rfl | rfl | rfl <;> norm_num
      · simp only [huniq, exists_and_left, exists_eq_left, hc, reduceCtorEq, false_and,
          exists_false, iff_false]
        rcases h2 with rfl | rfl | rfl <;> norm_num
      · rw [h4]; simp [huniq, hc]

end OPE.Main
