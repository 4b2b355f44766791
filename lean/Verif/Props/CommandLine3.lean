import Verif.Props.CommandLine2

/-!
# The command line and the files it names (C119, C120)
-/

namespace OPE.Cli

open Classical OPE.Main

variable {K D I : Type}

/-! ### C119: the tutorial -/

theorem copyInto_other (dir : Path) (fs : List (String × String)) (d : Disk) {q : Path}
    (h : ∀ f ∈ fs, q ≠ dir ++ "/" ++ f.1) : (copyInto dir fs d).file q = d.file q := by
  induction fs generalizing d with
  | nil => rfl
  | cons f fs ih =>
    obtain ⟨name, text⟩ := f
    simp only [copyInto]
    rw [ih _ fun f hf => h f (List.mem_cons_of_mem _ hf)]
    exact put_other d text (h (name, text) List.mem_cons_self)

theorem copyInto_dir (dir : Path) (fs : List (String × String)) (d : Disk) : (copyInto dir fs d).dir = d.dir := by
  induction fs generalizing d with
  | nil => rfl
  | cons f fs ih =>
    obtain ⟨name, text⟩ := f
    simp only [copyInto]
    rw [ih]; rfl

theorem copyInto_file (dir : Path) (fs : List (String × String)) (d : Disk) (hn : (fs.map (·.1)).Nodup)
    {f : String × String} (hf : f ∈ fs) : (copyInto dir fs d).file (dir ++ "/" ++ f.1) = some f.2 := by
  induction fs generalizing d with
  | nil => cases hf
  | cons g fs ih =>
    obtain ⟨name, text⟩ := g
    simp only [List.map_cons, List.nodup_cons] at hn
    simp only [copyInto]
    rcases List.mem_cons.mp hf with rfl | hf
    · rw [copyInto_other]
      · exact put_same _ _ _
      · intro g hg he
        refine hn.1 (List.mem_map.mpr ⟨g, hg, ?_⟩)
        have h2 := congrArg String.toList he
        simp only [String.toList_append] at h2
        exact (String.toList_injective (List.append_cancel_left h2)).symm
    · exact ih _ hn.2 hf

theorem main_tutorial (sys : System K D I) (dir : Path) (as : List Arg) (d : Disk) :
    main sys (.tutorial dir :: as) d
      = match generateTutorial sys dir d with
        | none => ⟨.ok (-4), d, []⟩
        | some d => ⟨.ok 0, d, []⟩ := by
  simp only [main, parseArguments, steps, step]
  rcases generateTutorial sys dir d with _ | d <;> rfl

/-- **C119.** `--generate-tutorial DIR`: if `DIR` exists (as a directory or as a file) the exit code is −4 and the
disk is as before.  Otherwise, if it can be written, the exit code is 0, the directory is there with every file of
the packaged tutorial in it, and any other file is as before. -/
theorem C119_tutorial (sys : System K D I) (dir : Path) (as : List Arg) (d : Disk)
    (hn : (sys.package.map (·.1)).Nodup) :
    (d.dir dir = true ∨ (d.file dir).isSome → main sys (.tutorial dir :: as) d = ⟨.ok (-4), d, []⟩) ∧
    (d.dir dir = false → d.file dir = none → sys.writable dir = true →
      (main sys (.tutorial dir :: as) d).code = .ok 0 ∧
      (main sys (.tutorial dir :: as) d).disk.dir dir = true ∧
      (∀ f ∈ sys.package, (main sys (.tutorial dir :: as) d).disk.file (dir ++ "/" ++ f.1) = some f.2) ∧
      (∀ q, (∀ f ∈ sys.package, q ≠ dir ++ "/" ++ f.1) →
        (main sys (.tutorial dir :: as) d).disk.file q = d.file q)) := by
  rw [main_tutorial]
  constructor
  · intro h
    rw [generateTutorial, if_pos (by rcases h with h | h <;> simp [h])]
  · intro h1 h2 h3
    rw [generateTutorial, if_neg (by simp [h1, h2, h3])]
    dsimp only
    refine ⟨rfl, ?_, fun f hf => copyInto_file dir _ _ hn hf, fun q hq => ?_⟩
    · rw [copyInto_dir]; simp
    · rw [copyInto_other dir _ _ hq]

/-- A file has its directory. -/
def Disk.WellFormed (d : Disk) : Prop := ∀ dir name, (d.file (dir ++ "/" ++ name)).isSome → d.dir dir = true

theorem step_keeps {sys : System K D I} {o : Options} {d : Disk} {a : Arg} {q : Path}
    (ha : a ≠ .output q) (hq : ∀ dir name, q = dir ++ "/" ++ name → d.dir dir = true) :
    (∀ {o' d'}, step sys o d a = .ok (o', d') → d'.file q = d.file q ∧ d'.dir = d.dir) ∧
    ∀ {code d'}, step sys o d a = .error (code, d') → d'.file q = d.file q := by
  by_cases ht : ∃ dir, a = .tutorial dir
  · obtain ⟨dir, rfl⟩ := ht
    simp only [step]
    rcases hg : generateTutorial sys dir d with _ | d1
    · refine ⟨fun h => (nomatch h), fun h => ?_⟩
      simp only [Except.error.injEq, Prod.mk.injEq] at h
      rw [← h.2]
    · refine ⟨fun h => (nomatch h), fun h => ?_⟩
      simp only [Except.error.injEq, Prod.mk.injEq] at h
      obtain ⟨-, rfl⟩ := h
      unfold generateTutorial at hg
      split_ifs at hg with hc
      injection hg with hg
      subst hg
      rw [copyInto_other]
      intro f hf e
      exact hc (by rw [hq dir f.1 e]; rfl)
  · push Not at ht
    refine ⟨fun {o' d'} h => ?_, fun {code d'} h => ?_⟩
    · rcases (step_frame ht).1 h with ⟨p, rfl, rfl, -⟩ | ⟨-, rfl, -⟩
      · exact ⟨put_other d "" fun e => ha (by rw [e]), rfl⟩
      · exact ⟨rfl, rfl⟩
    · rw [((step_frame (o' := o) ht).2 h).1]

theorem steps_keeps {sys : System K D I} {as : List Arg} {o : Options} {d : Disk} {q : Path}
    (ha : Arg.output q ∉ as) (hq : ∀ dir name, q = dir ++ "/" ++ name → d.dir dir = true) :
    (∀ {o' d'}, steps sys as o d = .ok (o', d') → d'.file q = d.file q) ∧
    ∀ {code d'}, steps sys as o d = .error (code, d') → d'.file q = d.file q := by
  induction as generalizing o d with
  | nil =>
    refine ⟨fun h => ?_, fun h => (nomatch h)⟩
    simp only [steps, Except.ok.injEq, Prod.mk.injEq] at h
    rw [h.2]
  | cons a as ih =>
    have ha' : a ≠ .output q := fun h => ha (by rw [h]; exact List.mem_cons_self)
    obtain ⟨k1, k2⟩ := step_keeps (sys := sys) (o := o) ha' hq
    simp only [steps]
    rcases hs : step sys o d a with ⟨code, d1⟩ | ⟨o1, d1⟩
    · refine ⟨fun h => (nomatch h), fun h => ?_⟩
      simp only [Except.error.injEq, Prod.mk.injEq] at h
      obtain ⟨-, rfl⟩ := h
      exact k2 hs
    · obtain ⟨e1, e2⟩ := k1 hs
      obtain ⟨i1, i2⟩ := ih (fun h => ha (List.mem_cons_of_mem _ h)) (o := o1) (d := d1)
        (by rw [e2]; exact hq)
      exact ⟨fun h => by rw [i1 h, e1], fun h => by rw [i2 h, e1]⟩

theorem steps_output {sys : System K D I} {as : List Arg} {o o' : Options} {d d' : Disk}
    (h : steps sys as o d = .ok (o', d')) : ∀ p, o'.output = some p → o.output = some p ∨ Arg.output p ∈ as := by
  induction as generalizing o d with
  | nil =>
    simp only [steps, Except.ok.injEq, Prod.mk.injEq] at h
    obtain ⟨rfl, -⟩ := h
    exact fun p h => .inl h
  | cons a as ih =>
    simp only [steps] at h
    rcases hs : step sys o d a with e | ⟨o1, d1⟩
    · rw [hs] at h; cases h
    rw [hs] at h
    intro p hp
    have ht : ∀ dir, a ≠ .tutorial dir := by
      rintro dir rfl
      simp only [step] at hs
      rcases hg : generateTutorial sys dir d with _ | d2 <;> rw [hg] at hs <;> cases hs
    rcases ih h p hp with h1 | h1
    · rcases (step_frame ht).1 hs with ⟨p', rfl, -, rfl⟩ | ⟨-, -, ho⟩
      · simp only [Option.some.injEq] at h1
        exact .inr (by rw [h1]; exact List.mem_cons_self)
      · rw [ho] at h1; exact .inl h1
    · exact .inr (List.mem_cons_of_mem _ h1)

/-- **C119.** Whatever the arguments, `--generate-tutorial` included, every file there before the program starts
that is not named as an output file is there afterwards, with the same contents. -/
theorem C119_nothing_lost (sys : System K D I) (as : List Arg) (d : Disk) (hwf : d.WellFormed) (q : Path)
    (text : String) (hq : d.file q = some text) (ho : Arg.output q ∉ as) :
    (main sys as d).disk.file q = some text := by
  have hdir : ∀ dir name, q = dir ++ "/" ++ name → d.dir dir = true := by
    rintro dir name rfl
    exact hwf dir name (by rw [hq]; rfl)
  obtain ⟨k1, k2⟩ := steps_keeps (sys := sys) (o := {}) ho hdir
  unfold main parseArguments
  rcases hs : steps sys as {} d with ⟨code, d1⟩ | ⟨o1, d1⟩
  · exact (k2 hs).trans hq
  · have e := (k1 hs).trans hq
    dsimp only
    rcases hc : o1.config with _ | p
    · exact e
    · dsimp only
      split_ifs
      · exact e
      · dsimp only
        rcases hp : o1.output with _ | p'
        · exact e
        · dsimp only
          have hne : q ≠ p' := by
            rintro rfl
            rcases steps_output hs q hp with h | h
            · cases h
            · exact ho h
          rcases run_written (world sys p o1 d1) with hw | ⟨t, hw⟩
          · rw [hw]; exact e
          · rw [hw]; simp only [putTables]; rw [put_other _ _ hne]; exact e

/-! ### C120: invalid arguments -/

/-- An argument that can be honoured: a file to read is there and readable, a file to write is no directory and
writable, a threshold is a number from 0 to 100. -/
def Valid (sys : System K D I) (d : Disk) : Arg → Prop
  | .config p | .dataFile p | .calibration p => (∃ text, d.file p = some text) ∧ sys.readable p = true
  | .output p => d.dir p = false ∧ sys.writable p = true
  | .threshold s => ∃ x : ℝ, sys.toFloat s = some (.fin x) ∧ 0 ≤ x ∧ x ≤ 100
  | .version | .tutorial _ => True

/-- The files an argument has read. -/
def reads : Arg → Option Path
  | .config p | .dataFile p | .calibration p => some p
  | _ => none

theorem percentage_iff {sys : System K D I} {s : String} {x : ℝ} :
    percentage sys.toFloat s = some (.fin x) ↔ sys.toFloat s = some (.fin x) ∧ 0 ≤ x ∧ x ≤ 100 := by
  unfold percentage
  rcases hs : sys.toFloat s with _ | v
  · simp
  · simp only [Option.some.injEq]
    split_ifs with hv
    · simp only [Option.some.injEq]
      constructor
      · rintro rfl; simpa using hv
      · exact fun h => h.1
    · refine ⟨fun h => (nomatch h), fun h => absurd ?_ hv⟩
      rw [h.1]; simpa using h.2

/-- Whether one argument is accepted. -/
theorem step_valid {sys : System K D I} {o : Options} {d0 d : Disk} {a : Arg} (hd : d.dir = d0.dir)
    (hf : ∀ p, reads a = some p → d.file p = d0.file p) (ht : ∀ dir, a ≠ .tutorial dir) (hv : a ≠ .version) :
    (∃ r, step sys o d a = .ok r) ↔ (Valid sys d0 a ∨ ∃ p, a = .config p ∧ o.config.isSome) := by
  have open_iff : ∀ p, reads a = some p →
      (canOpen sys d p = true ↔ (∃ text, d0.file p = some text) ∧ sys.readable p = true) := by
    intro p hp
    unfold canOpen
    rw [hf p hp, Bool.and_eq_true, Option.isSome_iff_exists]
  cases a with
  | tutorial dir => exact absurd rfl (ht dir)
  | version => exact absurd rfl hv
  | config p =>
    simp only [step, Valid, ← open_iff p rfl]
    split_ifs with h1 h2 <;> simp [h1, *]
  | dataFile p =>
    simp only [step, Valid, ← open_iff p rfl]
    split_ifs with h1 <;> simp [h1]
  | calibration p =>
    simp only [step, Valid, ← open_iff p rfl]
    split_ifs with h1 <;> simp [h1]
  | output p =>
    simp only [step, Valid, canCreate, hd]
    split_ifs with h1
    · simp at h1; simp [h1]
    · simp at h1
      simp only [reduceCtorEq, exists_false, false_and, or_false, false_iff]
      intro h2; rw [h1 h2.1] at h2; simp at h2
  | threshold s =>
    simp only [step, Valid]
    constructor
    · rintro ⟨r, hr⟩
      split at hr
      · rename_i x hx
        exact .inl ⟨x, percentage_iff.mp hx⟩
      · cases hr
    · rintro (⟨x, hx⟩ | ⟨p, hp, -⟩)
      · rw [percentage_iff.mpr hx]; exact ⟨_, rfl⟩
      · cases hp

theorem step_config {sys : System K D I} {o o' : Options} {d d' : Disk} {a : Arg}
    (h : step sys o d a = .ok (o', d')) : o'.config.isSome = (o.config.isSome || !(configs [a]).isEmpty) := by
  cases a with
  | tutorial dir =>
    simp only [step] at h
    rcases hg : generateTutorial sys dir d with _ | d2 <;> rw [hg] at h <;> cases h
  | version => cases h
  | threshold s =>
    simp only [step] at h
    split at h
    · simp only [Except.ok.injEq, Prod.mk.injEq] at h
      rw [← h.1]; simp [configs]
    · cases h
  | config p =>
    simp only [step] at h
    split_ifs at h with h1 h2 <;>
      · simp only [Except.ok.injEq, Prod.mk.injEq] at h
        rw [← h.1]; simp [configs, *]
  | _ =>
    simp only [step] at h
    split_ifs at h
    simp only [Except.ok.injEq, Prod.mk.injEq] at h
    rw [← h.1]; simp [configs]

/-- All arguments are accepted exactly if each is valid, positional arguments after the first apart. -/
theorem steps_valid {sys : System K D I} {as : List Arg} {o : Options} {d0 d : Disk} (hd : d.dir = d0.dir)
    (hf : ∀ a ∈ as, ∀ p, reads a = some p → d.file p = d0.file p)
    (hio : ∀ a ∈ as, ∀ p, reads a = some p → Arg.output p ∉ as)
    (ht : noTutorial as) (hv : Arg.version ∉ as)
    (hc : (configs as).length + (if o.config.isSome then 1 else 0) ≤ 1) :
    (∃ r, steps sys as o d = .ok r) ↔ ∀ a ∈ as, Valid sys d0 a := by
  induction as generalizing o d with
  | nil => simp [steps]
  | cons a as ih =>
    have ht1 : ∀ dir, a ≠ .tutorial dir := fun dir h => ht dir (by rw [h]; exact List.mem_cons_self)
    have hv1 : a ≠ .version := fun h => hv (by rw [h]; exact List.mem_cons_self)
    have hsv := step_valid (sys := sys) (o := o) hd (hf a List.mem_cons_self) ht1 hv1
    have hno : ¬ ∃ p, a = .config p ∧ o.config.isSome := by
      rintro ⟨p, rfl, h⟩
      simp only [configs, List.length_cons, h, if_true] at hc
      omega
    rw [or_iff_left hno] at hsv
    simp only [List.forall_mem_cons, steps]
    rcases hs : step sys o d a with e | ⟨o1, d1⟩
    · rw [hs] at hsv
      constructor
      · rintro ⟨r, h⟩; cases h
      · rintro ⟨h, -⟩
        obtain ⟨r, hr⟩ := hsv.mpr h
        cases hr
    · have hva : Valid sys d0 a := hsv.mp ⟨_, hs⟩
      simp only [hva, true_and]
      have hd1 : d1.dir = d.dir ∧ ∀ b ∈ as, ∀ p, reads b = some p → d1.file p = d.file p := by
        rcases (step_frame ht1).1 hs with ⟨p, rfl, rfl, -⟩ | ⟨-, rfl, -⟩
        · refine ⟨rfl, fun b hb q hq => put_other d "" ?_⟩
          rintro rfl
          exact hio b (List.mem_cons_of_mem _ hb) q hq List.mem_cons_self
        · exact ⟨rfl, fun _ _ _ _ => rfl⟩
      have hc1 := step_config hs
      refine ih (hd1.1.trans hd) (fun b hb p hp => (hd1.2 b hb p hp).trans (hf b (List.mem_cons_of_mem _ hb) p hp))
        (fun b hb p hp h => hio b (List.mem_cons_of_mem _ hb) p hp (List.mem_cons_of_mem _ h))
        (fun dir h => ht dir (List.mem_cons_of_mem _ h)) (fun h => hv (List.mem_cons_of_mem _ h)) ?_
      cases a with
      | config p =>
        simp only [configs, List.length_cons] at hc hc1
        have : (configs as).length = 0 := by omega
        rw [this]; split_ifs <;> omega
      | _ =>
        simp only [configs, List.isEmpty_nil, Bool.not_true, Bool.or_false] at hc1
        rw [hc1]; exact hc

/-- The run itself never ends with code 2. -/
theorem run_not_two (w : World K D I) : (run w).code ≠ .ok 2 := by
  have hwc : ∀ t, (writeAndCalibrate w t).code ≠ .ok 2 := by
    intro t h
    obtain ⟨code, h1, -, h3, -⟩ := writeAndCalibrate_code w t
    rw [h1] at h
    simp only [Except.ok.injEq] at h
    omega
  unfold run
  split
  · unfold runWithThreshold
    split_ifs
    · simp
    · split
      · simp
      · dsimp only
        split_ifs
        · simp
        · simp
        · exact hwc _
  · split
    · simp
    · simp
    · split
      · split_ifs <;> simp
      · exact hwc _

/-- **C120.** Without `--version` and `--generate-tutorial`, and when no file is both read and written, the
program ends with exit code 2 exactly if there is not exactly one configuration argument or one of the arguments
is invalid: a file to read that is missing or unreadable, a file to write that is a directory or not writable, a
threshold that is no number from 0 to 100.  Then no table is written. -/
theorem C120_invalid_arguments (sys : System K D I) (as : List Arg) (d : Disk) (ht : noTutorial as)
    (hv : Arg.version ∉ as) (hio : ∀ a ∈ as, ∀ p, reads a = some p → Arg.output p ∉ as) :
    ((main sys as d).code = .ok 2 ↔ (configs as).length ≠ 1 ∨ ∃ a ∈ as, ¬ Valid sys d a) ∧
    ((main sys as d).code = .ok 2 → (main sys as d).stdout = [] ∧
      ∀ q, (main sys as d).disk.file q = d.file q ∨ Arg.output q ∈ as ∧ (main sys as d).disk.file q = some "") := by
  refine ⟨?_, fun h => ⟨((C118_partial sys as d ht "").2 (.inr (.inr (.inr h)))).2,
    fun q => ((C118_partial sys as d ht q).2 (.inr (.inr (.inr h)))).1⟩⟩
  have key : (main sys as d).code = .ok 2 ↔ ¬ ∃ r, parseArguments sys as d = .ok r := by
    obtain ⟨-, hf⟩ := parseArguments_frame (sys := sys) ht (d := d)
    unfold main
    rcases hp : parseArguments sys as d with ⟨code, d1⟩ | ⟨c, o, d1⟩
    · rcases (hf hp).1 with rfl | ⟨-, h⟩
      · simp
      · exact absurd h hv
    · have hr := run_not_two (world sys c o d1)
      dsimp only
      rcases o.output with _ | p <;> simp [hr]
  rw [key, not_iff_comm]
  push Not
  constructor
  · rintro ⟨hc, hall⟩
    obtain ⟨⟨o1, d1⟩, hs⟩ := (steps_valid (sys := sys) (o := {}) (d := d) rfl (fun _ _ _ _ => rfl) hio ht hv
      (by simp [hc])).mpr hall
    obtain ⟨-, -, -, h4, h5⟩ := steps_options hs
    unfold parseArguments
    rw [hs]
    dsimp only
    obtain ⟨c, hl⟩ := List.length_eq_one_iff.mp hc
    rw [hl] at h4 h5
    have h4' : o1.config = some c := by simpa using h4
    have h5' : ¬ o1.extra = true := by rw [h5]; simp
    rw [h4']
    dsimp only
    rw [if_neg h5']
    exact ⟨_, rfl⟩
  · rintro ⟨⟨c, o, d'⟩, h⟩
    have hc : configs as = [c] := (parseArguments_options h).1
    refine ⟨by rw [hc]; rfl, ?_⟩
    refine (steps_valid (sys := sys) (o := {}) (d := d) rfl (fun _ _ _ _ => rfl) hio ht hv
      (by simp [hc])).mp ?_
    unfold parseArguments at h
    rcases hs : steps sys as {} d with e | r
    · rw [hs] at h; cases h
    · exact ⟨r, rfl⟩

/-! ### Concrete cases -/

/-- A small system: one configuration text is a mapping, the result is a table without rows. -/
noncomputable def demoSystem : System Unit Unit Unit where
  yaml := fun s => if s = "a: 1" then .ok (some ()) else .ok none
  csv := fun _ => .ok []
  calibrationCsv := fun _ => .error .other
  parse := fun _ _ => .ok ()
  calculate := fun _ => .ok []
  fl := id
  render := fun _ => "header"
  store := fun s => (s, true)
  readable := fun _ => true
  writable := fun _ => true
  toFloat := fun s => if s = "50" then some (.fin 50) else none
  package := [("tutorial_config.yaml", "x"), ("tutorial_data.csv", "y")]

/-- A directory with a good and a bad configuration file and an old result. -/
def demoDisk : Disk where
  file := fun p => if p = "d/good.yaml" then some "a: 1" else if p = "d/bad.yaml" then some "[]"
    else if p = "d/out.csv" then some "old" else none
  dir := fun _ => true

/-- The hypotheses of C117_success hold of a successful run that replaces an old result. -/
example : (main demoSystem [.config "d/good.yaml", .output "d/out.csv"] { demoDisk with dir := fun p => p = "d" }).code
      = .ok 0 ∧
    (main demoSystem [.config "d/good.yaml", .output "d/out.csv"] { demoDisk with dir := fun p => p = "d" }).disk.file
      "d/out.csv" = some "header" := by
  simp [main, parseArguments, steps, step, canOpen, canCreate, demoSystem, demoDisk, Disk.put, Disk.text, world, run,
    makeInput, loadConfig, loadData, writeAndCalibrate, runCalibration]
  change _ ∧ (putTables _ _ [[]] _).file _ = _
  exact ⟨rfl, by simp [putTables, Disk.put]⟩

/-- C118_refuted applies: the bad configuration empties the old result. -/
example : (main demoSystem [.config "d/bad.yaml", .output "d/out.csv"] { demoDisk with dir := fun p => p = "d" }).disk.file
      "d/out.csv" = some "" :=
  (C118_refuted demoSystem _ "d/bad.yaml" "d/out.csv" (by decide) "[]" "old" (by simp [demoDisk]) rfl
    (by simp [demoDisk]) rfl (by simp) (.inl (by simp [demoSystem]))).2.1

/-- The tutorial is refused where there is a directory, and the disk meets the hypothesis of C119_nothing_lost. -/
example : demoDisk.WellFormed ∧ (main demoSystem [.tutorial "d"] demoDisk).code = .ok (-4) :=
  ⟨fun _ _ _ => rfl, by rw [(C119_tutorial demoSystem "d" [] demoDisk (by simp [demoSystem])).1 (.inl rfl)]⟩

/-- An output file that is a directory is an argument error. -/
example : (main demoSystem [.config "d/good.yaml", .output "out"] demoDisk).code = .ok 2 := by
  refine (C120_invalid_arguments demoSystem _ demoDisk (by intro dir h; simp at h) (by simp) ?_).1.mpr
    (.inr ⟨.output "out", by simp, ?_⟩)
  · intro a ha p hp
    simp only [List.mem_cons, List.not_mem_nil, or_false] at ha
    rcases ha with rfl | rfl
    · simp only [reads, Option.some.injEq] at hp
      subst hp; simp
    · cases hp
  · simp [Valid, demoDisk]

end OPE.Cli
