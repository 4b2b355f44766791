import Verif.Model.CommandLine
import Verif.Props.Main2

/-!
# The command line and the files it names (C117–C120)
-/

namespace OPE.Cli

open Classical OPE.Main

variable {K D I : Type}

/-- The output files named on the command line. -/
def outputs : List Arg → List Path
  | [] => []
  | .output p :: as => p :: outputs as
  | _ :: as => outputs as

/-- The options that write files elsewhere. -/
def noTutorial (as : List Arg) : Prop := ∀ dir, Arg.tutorial dir ∉ as

@[simp] theorem put_same (d : Disk) (p : Path) (s : String) : (d.put p s).file p = some s := by
  simp [Disk.put]

theorem put_other (d : Disk) {p q : Path} (s : String) (h : q ≠ p) : (d.put p s).file q = d.file q := by
  simp [Disk.put, h]

theorem mem_outputs {as : List Arg} {p : Path} : p ∈ outputs as ↔ Arg.output p ∈ as := by
  induction as with
  | nil => simp [outputs]
  | cons a as ih => cases a <;> simp [outputs, ih]

/-- One argument that is no tutorial: other files keep their contents, an output file is emptied or kept. -/
theorem step_frame {sys : System K D I} {o o' : Options} {d d' : Disk} {a : Arg} (ha : ∀ dir, a ≠ .tutorial dir) :
    (step sys o d a = .ok (o', d') → (∃ p, a = .output p ∧ d' = d.put p "" ∧ o' = { o with output := some p }) ∨
      ((∀ p, a ≠ .output p) ∧ d' = d ∧ o'.output = o.output)) ∧
    ∀ {code}, step sys o d a = .error (code, d') → d' = d ∧ (code = 2 ∨ code = 0 ∧ a = .version) := by
  cases a with
  | tutorial dir => exact absurd rfl (ha dir)
  | version =>
    refine ⟨fun h => (nomatch h), fun h => ?_⟩
    simp only [step, Except.error.injEq, Prod.mk.injEq] at h
    exact ⟨h.2.symm, .inr ⟨h.1.symm, rfl⟩⟩
  | output p =>
    simp only [step]
    split_ifs
    · refine ⟨fun h => ?_, fun h => (nomatch h)⟩
      simp only [Except.ok.injEq, Prod.mk.injEq] at h
      exact .inl ⟨p, rfl, h.2.symm, h.1.symm⟩
    · refine ⟨fun h => (nomatch h), fun h => ?_⟩
      simp only [Except.error.injEq, Prod.mk.injEq] at h
      exact ⟨h.2.symm, .inl h.1.symm⟩
  | config p =>
    simp only [step]
    split_ifs
    · refine ⟨fun h => ?_, fun h => (nomatch h)⟩
      simp only [Except.ok.injEq, Prod.mk.injEq] at h
      exact .inr ⟨(fun q h => nomatch h), h.2.symm, by rw [← h.1]⟩
    · refine ⟨fun h => ?_, fun h => (nomatch h)⟩
      simp only [Except.ok.injEq, Prod.mk.injEq] at h
      exact .inr ⟨(fun q h => nomatch h), h.2.symm, by rw [← h.1]⟩
    · refine ⟨fun h => (nomatch h), fun h => ?_⟩
      simp only [Except.error.injEq, Prod.mk.injEq] at h
      exact ⟨h.2.symm, .inl h.1.symm⟩
  | dataFile p =>
    simp only [step]
    split_ifs
    · refine ⟨fun h => ?_, fun h => (nomatch h)⟩
      simp only [Except.ok.injEq, Prod.mk.injEq] at h
      exact .inr ⟨(fun q h => nomatch h), h.2.symm, by rw [← h.1]⟩
    · refine ⟨fun h => (nomatch h), fun h => ?_⟩
      simp only [Except.error.injEq, Prod.mk.injEq] at h
      exact ⟨h.2.symm, .inl h.1.symm⟩
  | calibration p =>
    simp only [step]
    split_ifs
    · refine ⟨fun h => ?_, fun h => (nomatch h)⟩
      simp only [Except.ok.injEq, Prod.mk.injEq] at h
      exact .inr ⟨(fun q h => nomatch h), h.2.symm, by rw [← h.1]⟩
    · refine ⟨fun h => (nomatch h), fun h => ?_⟩
      simp only [Except.error.injEq, Prod.mk.injEq] at h
      exact ⟨h.2.symm, .inl h.1.symm⟩
  | threshold s =>
    simp only [step]
    split
    · refine ⟨fun h => ?_, fun h => (nomatch h)⟩
      simp only [Except.ok.injEq, Prod.mk.injEq] at h
      exact .inr ⟨(fun q h => nomatch h), h.2.symm, by rw [← h.1]⟩
    · refine ⟨fun h => (nomatch h), fun h => ?_⟩
      simp only [Except.error.injEq, Prod.mk.injEq] at h
      exact ⟨h.2.symm, .inl h.1.symm⟩

/-- The arguments up to where processing stops. -/
theorem steps_frame {sys : System K D I} {as : List Arg} (ht : noTutorial as) {o : Options} {d : Disk} :
    (∀ {o' d'}, steps sys as o d = .ok (o', d') →
      (∀ q, d'.file q = if q ∈ outputs as then some "" else d.file q) ∧
      o'.output = ((outputs as).getLast?).or o.output) ∧
    ∀ {code d'}, steps sys as o d = .error (code, d') → (code = 2 ∨ code = 0 ∧ Arg.version ∈ as) ∧
      (∀ q, d'.file q = d.file q ∨ q ∈ outputs as ∧ d'.file q = some "") := by
  induction as generalizing o d with
  | nil =>
    refine ⟨fun h => ?_, fun h => (nomatch h)⟩
    simp only [steps, Except.ok.injEq, Prod.mk.injEq] at h
    obtain ⟨rfl, rfl⟩ := h
    simp [outputs]
  | cons a as ih =>
    have ht' : noTutorial as := fun dir h => ht dir (List.mem_cons_of_mem _ h)
    have ha : ∀ dir, a ≠ .tutorial dir := fun dir h => ht dir (by rw [h]; exact List.mem_cons_self)
    simp only [steps]
    rcases hs : step sys o d a with ⟨code, d1⟩ | ⟨o1, d1⟩
    · refine ⟨fun h => (nomatch h), fun h => ?_⟩
      simp only [Except.error.injEq, Prod.mk.injEq] at h
      obtain ⟨h1, h2⟩ := (step_frame (o' := o) ha).2 hs
      obtain ⟨rfl, rfl⟩ := h
      refine ⟨?_, fun q => .inl (by rw [h1])⟩
      rcases h2 with h2 | ⟨h2, h3⟩
      · exact .inl h2
      · exact .inr ⟨h2, by rw [h3]; exact List.mem_cons_self⟩
    · obtain ⟨i1, i2⟩ := ih ht' (o := o1) (d := d1)
      rcases (step_frame ha).1 hs with ⟨p, rfl, rfl, rfl⟩ | ⟨hp, rfl, ho⟩
      · refine ⟨fun h => ?_, fun h => ?_⟩
        · obtain ⟨j1, j2⟩ := i1 h
          refine ⟨fun q => ?_, ?_⟩
          · rw [j1 q]
            by_cases hq : q ∈ outputs as
            · rw [if_pos hq, if_pos (by simp [outputs, hq])]
            · rw [if_neg hq]
              by_cases hqp : q = p
              · subst hqp; simp [outputs]
              · rw [put_other d "" hqp, if_neg (by simp [outputs, hq, hqp])]
          · rw [j2]
            simp only [outputs]
            rw [List.getLast?_cons]
            rcases (outputs as).getLast? with _ | r <;> rfl
        · obtain ⟨j1, j2⟩ := i2 h
          refine ⟨?_, fun q => ?_⟩
          · rcases j1 with j1 | ⟨j1, j3⟩
            · exact .inl j1
            · exact .inr ⟨j1, List.mem_cons_of_mem _ j3⟩
          · rcases j2 q with j | ⟨j, j'⟩
            · by_cases hqp : q = p
              · subst hqp; rw [put_same] at j; exact .inr ⟨by simp [outputs], j⟩
              · rw [put_other d "" hqp] at j; exact .inl j
            · exact .inr ⟨by simp [outputs, j], j'⟩
      · have e : outputs (a :: as) = outputs as := by
          cases a with
          | output p => exact absurd rfl (hp p)
          | _ => rfl
        rw [e]
        refine ⟨fun h => ?_, fun h => ?_⟩
        · obtain ⟨j1, j2⟩ := i1 h
          exact ⟨j1, by rw [j2, ho]⟩
        · obtain ⟨j1, j2⟩ := i2 h
          refine ⟨?_, j2⟩
          rcases j1 with j1 | ⟨j1, j3⟩
          · exact .inl j1
          · exact .inr ⟨j1, List.mem_cons_of_mem _ j3⟩

theorem parseArguments_frame {sys : System K D I} {as : List Arg} (ht : noTutorial as) {d : Disk} :
    (∀ {c o d'}, parseArguments sys as d = .ok (c, o, d') →
      (∀ q, d'.file q = if q ∈ outputs as then some "" else d.file q) ∧
      o.output = (outputs as).getLast?) ∧
    ∀ {code d'}, parseArguments sys as d = .error (code, d') → (code = 2 ∨ code = 0 ∧ Arg.version ∈ as) ∧
      (∀ q, d'.file q = d.file q ∨ q ∈ outputs as ∧ d'.file q = some "") := by
  obtain ⟨h1, h2⟩ := steps_frame (sys := sys) ht (o := {}) (d := d)
  unfold parseArguments
  rcases hs : steps sys as {} d with ⟨code, d1⟩ | ⟨o1, d1⟩
  · refine ⟨fun h => (nomatch h), fun h => ?_⟩
    simp only [Except.error.injEq, Prod.mk.injEq] at h
    obtain ⟨rfl, rfl⟩ := h
    exact h2 hs
  · obtain ⟨j1, j2⟩ := h1 hs
    have hd : ∀ q, d1.file q = d.file q ∨ q ∈ outputs as ∧ d1.file q = some "" := by
      intro q
      by_cases hq : q ∈ outputs as
      · exact .inr ⟨hq, by rw [j1, if_pos hq]⟩
      · exact .inl (by rw [j1, if_neg hq])
    dsimp only
    rcases hc : o1.config with _ | p
    · refine ⟨fun h => (nomatch h), fun h => ?_⟩
      simp only [Except.error.injEq, Prod.mk.injEq] at h
      obtain ⟨rfl, rfl⟩ := h
      exact ⟨.inl rfl, hd⟩
    · dsimp only
      split_ifs
      · refine ⟨fun h => (nomatch h), fun h => ?_⟩
        simp only [Except.error.injEq, Prod.mk.injEq] at h
        obtain ⟨rfl, rfl⟩ := h
        exact ⟨.inl rfl, hd⟩
      · refine ⟨fun h => ?_, fun h => (nomatch h)⟩
        simp only [Except.ok.injEq, Prod.mk.injEq] at h
        obtain ⟨-, rfl, rfl⟩ := h
        exact ⟨j1, by rw [j2]; simp⟩

/-- At most one table is written. -/
theorem run_written (w : World K D I) : (run w).written = [] ∨ ∃ t, (run w).written = [t] := by
  have hw : ∀ t, ∃ u, (writeAndCalibrate w t).written = [u] := fun t => by
    obtain ⟨code, -, h, -⟩ := writeAndCalibrate_code w t; exact ⟨t, h⟩
  unfold run
  split
  · unfold runWithThreshold
    split_ifs
    · exact .inl rfl
    · split
      · exact .inl rfl
      · dsimp only
        split_ifs
        · exact .inl rfl
        · exact .inl rfl
        · exact .inr (hw _)
  · split
    · exact .inl rfl
    · exact .inl rfl
    · split
      · split_ifs <;> exact .inl rfl
      · exact .inr (hw _)

/-- **C117.** Whatever the arguments, the program changes no file other than the output files named on the
command line (`--generate-tutorial` apart): configuration, data and calibration files keep their contents. -/
theorem C117_only_outputs_change (sys : System K D I) (as : List Arg) (d : Disk) (ht : noTutorial as) (q : Path)
    (hq : Arg.output q ∉ as) : (main sys as d).disk.file q = d.file q := by
  obtain ⟨h1, h2⟩ := parseArguments_frame (sys := sys) ht (d := d)
  have hq' : q ∉ outputs as := fun h => hq (mem_outputs.mp h)
  unfold main
  rcases hp : parseArguments sys as d with ⟨code, d1⟩ | ⟨c, o, d1⟩
  · rcases (h2 hp).2 q with h | ⟨h, -⟩
    · exact h
    · exact absurd h hq'
  · obtain ⟨j1, j2⟩ := h1 hp
    have e : d1.file q = d.file q := by rw [j1, if_neg hq']
    dsimp only
    rcases ho : o.output with _ | p
    · exact e
    · dsimp only
      have hne : q ≠ p := by
        rintro rfl
        rw [j2] at ho
        exact hq' (List.mem_of_getLast? ho)
      rcases run_written (world sys c o d1) with hw | ⟨t, hw⟩
      · rw [hw]; exact e
      · rw [hw]; simp only [putTables]; rw [put_other _ _ hne]; exact e

end OPE.Cli
