import Verif.Props.CommandLine

/-!
# The command line and the files it names (C117–C120), continued
-/

namespace OPE.Cli

open Classical OPE.Main

variable {K D I : Type}

/-! ### The values of the options -/

/-- The positional arguments. -/
def configs : List Arg → List Path
  | [] => []
  | .config p :: as => p :: configs as
  | _ :: as => configs as

/-- The values of `--data-file`. -/
def dataFiles : List Arg → List Path
  | [] => []
  | .dataFile p :: as => p :: dataFiles as
  | _ :: as => dataFiles as

/-- The values of `--calibration`. -/
def calibrations : List Arg → List Path
  | [] => []
  | .calibration p :: as => p :: calibrations as
  | _ :: as => calibrations as

/-- The values of `--success_threshold`. -/
def thresholds : List Arg → List String
  | [] => []
  | .threshold s :: as => s :: thresholds as
  | _ :: as => thresholds as

/-- The number an argument string stands for. -/
noncomputable def numberOf (sys : System K D I) (s : String) : Option ℝ :=
  match sys.toFloat s with
  | some (.fin x) => some x
  | _ => none

theorem getLast?_cons_or {α : Type} (p : α) (l : List α) (x : Option α) :
    ((p :: l).getLast?).or x = (l.getLast?).or (some p) := by
  rw [List.getLast?_cons]
  rcases l.getLast? with _ | r <;> rfl

theorem percentage_number {sys : System K D I} {s : String} {x : ℝ}
    (h : percentage sys.toFloat s = some (.fin x)) : numberOf sys s = some x := by
  unfold percentage at h
  unfold numberOf
  split at h
  · cases h
  · rename_i v hv
    split_ifs at h
    injection h with h; subst h; rw [hv]

theorem steps_options {sys : System K D I} {as : List Arg} {o o' : Options} {d d' : Disk}
    (h : steps sys as o d = .ok (o', d')) :
    o'.dataFile = ((dataFiles as).getLast?).or o.dataFile ∧
    o'.calibration = ((calibrations as).getLast?).or o.calibration ∧
    o'.threshold = (((thresholds as).getLast?).bind (numberOf sys)).or o.threshold ∧
    o'.config = o.config.or (configs as).head? ∧
    (o'.extra = true ↔ o.extra = true ∨ 1 < (configs as).length + (if o.config.isSome then 1 else 0)) := by
  induction as generalizing o d with
  | nil =>
    simp only [steps, Except.ok.injEq, Prod.mk.injEq] at h
    obtain ⟨rfl, -⟩ := h
    simp only [dataFiles, calibrations, thresholds, configs, List.getLast?_nil, Option.none_or, Option.bind_none,
      List.head?_nil, Option.or_none, true_and]
    split_ifs <;> simp
  | cons a as ih =>
    simp only [steps] at h
    rcases hs : step sys o d a with e | ⟨o1, d1⟩
    · rw [hs] at h; cases h
    rw [hs] at h
    obtain ⟨i1, i2, i3, i4, i5⟩ := ih h
    cases a with
    | version => cases hs
    | tutorial dir =>
      simp only [step] at hs
      split at hs <;> cases hs
    | output p =>
      simp only [step] at hs
      split_ifs at hs
      simp only [Except.ok.injEq, Prod.mk.injEq] at hs
      obtain ⟨rfl, -⟩ := hs
      exact ⟨i1, i2, i3, i4, i5⟩
    | dataFile p =>
      simp only [step] at hs
      split_ifs at hs
      simp only [Except.ok.injEq, Prod.mk.injEq] at hs
      obtain ⟨rfl, -⟩ := hs
      exact ⟨by rw [i1]; simp only [dataFiles]; rw [getLast?_cons_or], i2, i3, i4, i5⟩
    | calibration p =>
      simp only [step] at hs
      split_ifs at hs
      simp only [Except.ok.injEq, Prod.mk.injEq] at hs
      obtain ⟨rfl, -⟩ := hs
      exact ⟨i1, by rw [i2]; simp only [calibrations]; rw [getLast?_cons_or], i3, i4, i5⟩
    | threshold s =>
      simp only [step] at hs
      split at hs
      · rename_i x hx
        simp only [Except.ok.injEq, Prod.mk.injEq] at hs
        obtain ⟨rfl, -⟩ := hs
        refine ⟨i1, i2, ?_, i4, i5⟩
        rw [i3]
        simp only [thresholds]
        rw [List.getLast?_cons]
        rcases hl : (thresholds as).getLast? with _ | r
        · simp [percentage_number hx]
        · -- the last threshold was accepted, so it is a number
          simp only [Option.bind_some, Option.getD_some]
          rw [hl, Option.bind_some] at i3
          have : ∃ y, numberOf sys r = some y := by
            clear i1 i2 i4 i5 ih hx
            have hm : r ∈ thresholds as := List.mem_of_getLast? hl
            clear i3 hl
            generalize ({ o with threshold := some x } : Options) = o2 at h
            induction as generalizing o2 d1 with
            | nil => cases hm
            | cons b as jh =>
              simp only [steps] at h
              rcases hb : step sys o2 d1 b with e | ⟨o3, d3⟩
              · rw [hb] at h; cases h
              rw [hb] at h
              cases b with
              | threshold s' =>
                simp only [thresholds, List.mem_cons] at hm
                rcases hm with rfl | hm
                · simp only [step] at hb
                  split at hb
                  · rename_i y hy; exact ⟨y, percentage_number hy⟩
                  · cases hb
                · first | exact jh _ hm h | exact jh _ hm _ h
              | _ => first | exact jh _ hm h | exact jh _ hm _ h
          obtain ⟨y, hy⟩ := this
          rw [hy]; rfl
      · cases hs
    | config p =>
      simp only [step] at hs
      split_ifs at hs with hc hp
      · simp only [Except.ok.injEq, Prod.mk.injEq] at hs
        obtain ⟨rfl, -⟩ := hs
        refine ⟨i1, i2, i3, ?_, ?_⟩
        · rw [i4]
          obtain ⟨c, hc⟩ := Option.isSome_iff_exists.mp hc
          simp [hc]
        · rw [i5]
          simp only [configs, List.length_cons, if_pos hc, true_or, true_iff]
          right; omega
      · simp only [Except.ok.injEq, Prod.mk.injEq] at hs
        obtain ⟨rfl, -⟩ := hs
        have hn : o.config = none := by simpa using hc
        refine ⟨i1, i2, i3, ?_, ?_⟩
        · rw [i4, hn]; simp [configs]
        · rw [i5, hn]; simp [configs]

theorem parseArguments_options {sys : System K D I} {as : List Arg} {c : Path} {o : Options} {d d' : Disk}
    (h : parseArguments sys as d = .ok (c, o, d')) :
    configs as = [c] ∧ o.dataFile = (dataFiles as).getLast? ∧ o.calibration = (calibrations as).getLast? ∧
    o.threshold = ((thresholds as).getLast?).bind (numberOf sys) := by
  unfold parseArguments at h
  rcases hs : steps sys as {} d with e | ⟨o1, d1⟩
  · rw [hs] at h; cases h
  rw [hs] at h
  obtain ⟨h1, h2, h3, h4, h5⟩ := steps_options hs
  dsimp only at h
  rcases hc : o1.config with _ | p
  · rw [hc] at h; cases h
  rw [hc] at h
  dsimp only at h
  split_ifs at h with he
  simp only [Except.ok.injEq, Prod.mk.injEq] at h
  obtain ⟨rfl, rfl, -⟩ := h
  refine ⟨?_, by simpa using h1, by simpa using h2, by simpa using h3⟩
  rw [h5] at he
  rw [hc] at h4
  rcases hl : configs as with _ | ⟨q, _ | ⟨r, l⟩⟩
  · rw [hl] at h4; simp at h4
  · rw [hl] at h4; simp at h4; rw [h4]
  · rw [hl] at he; simp at he

/-! ### C117: success -/

/-- The run described by the arguments, on the files as they are before the program starts. -/
noncomputable def described (sys : System K D I) (as : List Arg) (c : Path) (d : Disk) : World K D I where
  config := sys.yaml (d.text c)
  data := (dataFiles as).getLast?.map fun p => sys.csv (d.text p)
  parse := sys.parse
  calculate := sys.calculate
  write := fun _ => .ok ()
  calibration := (calibrations as).getLast?.map fun p => sys.calibrationCsv (d.text p)
  threshold := ((thresholds as).getLast?).bind (numberOf sys)
  fl := sys.fl

/-- **C117.** When the program ends with exit code 0 (neither `--version` nor `--generate-tutorial` being given,
writing being reliable, no file being both input and output), exactly one configuration was named, the run
described by the arguments and the contents of the named files succeeds, and its table is in the last output file
named, or on standard output if none is. -/
theorem C117_success (sys : System K D I) (as : List Arg) (d : Disk) (ht : noTutorial as) (hv : Arg.version ∉ as)
    (hstore : ∀ s, sys.store s = (s, true))
    (hio : ∀ p, Arg.config p ∈ as ∨ Arg.dataFile p ∈ as ∨ Arg.calibration p ∈ as → Arg.output p ∉ as)
    (h : (main sys as d).code = .ok 0) :
    ∃ c t, configs as = [c] ∧ (run (described sys as c d)).code = .ok 0 ∧
      (run (described sys as c d)).written = [t] ∧
      (∀ p, (outputs as).getLast? = some p →
        (main sys as d).disk.file p = some (sys.render t) ∧ (main sys as d).stdout = []) ∧
      (outputs as = [] → (main sys as d).stdout = [t]) := by
  obtain ⟨f1, f2⟩ := parseArguments_frame (sys := sys) ht (d := d)
  unfold main at h ⊢
  rcases hp : parseArguments sys as d with ⟨code, d1⟩ | ⟨c, o, d1⟩
  · rw [hp] at h
    dsimp only at h
    injection h with h
    rcases (f2 hp).1 with h1 | ⟨-, h1⟩
    · rw [h] at h1; cases h1
    · exact absurd h1 hv
  · rw [hp] at h
    obtain ⟨j1, j2⟩ := f1 hp
    obtain ⟨k1, k2, k3, k4⟩ := parseArguments_options hp
    have keep : ∀ p, Arg.output p ∉ as → d1.text p = d.text p := by
      intro p hp
      unfold Disk.text
      rw [j1, if_neg fun hh => hp (mem_outputs.mp hh)]
    have mem : ∀ {p}, p ∈ configs as → Arg.config p ∈ as := by
      intro p
      clear * -
      induction as with
      | nil => exact fun h => (nomatch h)
      | cons a as ih =>
        intro h
        cases a with
        | config q =>
          simp only [configs, List.mem_cons] at h
          rcases h with rfl | h
          · exact List.mem_cons_self
          · exact List.mem_cons_of_mem _ (ih h)
        | _ => exact List.mem_cons_of_mem _ (ih h)
    have memd : ∀ {p}, p ∈ dataFiles as → Arg.dataFile p ∈ as := by
      intro p
      clear * -
      induction as with
      | nil => exact fun h => (nomatch h)
      | cons a as ih =>
        intro h
        cases a with
        | dataFile q =>
          simp only [dataFiles, List.mem_cons] at h
          rcases h with rfl | h
          · exact List.mem_cons_self
          · exact List.mem_cons_of_mem _ (ih h)
        | _ => exact List.mem_cons_of_mem _ (ih h)
    have memc : ∀ {p}, p ∈ calibrations as → Arg.calibration p ∈ as := by
      intro p
      clear * -
      induction as with
      | nil => exact fun h => (nomatch h)
      | cons a as ih =>
        intro h
        cases a with
        | calibration q =>
          simp only [calibrations, List.mem_cons] at h
          rcases h with rfl | h
          · exact List.mem_cons_self
          · exact List.mem_cons_of_mem _ (ih h)
        | _ => exact List.mem_cons_of_mem _ (ih h)
    have hw : world sys c o d1 = described sys as c d := by
      unfold world described
      rw [keep c (hio c (.inl (mem (by rw [k1]; simp)))), k2, k3, k4]
      have e1 : ((dataFiles as).getLast?.map fun p => sys.csv (d1.text p))
          = (dataFiles as).getLast?.map fun p => sys.csv (d.text p) := by
        rcases hl : (dataFiles as).getLast? with _ | p
        · rfl
        · simp only [Option.map_some]
          rw [keep p (hio p (.inr (.inl (memd (List.mem_of_getLast? hl)))))]
      have e2 : ((calibrations as).getLast?.map fun p => sys.calibrationCsv (d1.text p))
          = (calibrations as).getLast?.map fun p => sys.calibrationCsv (d.text p) := by
        rcases hl : (calibrations as).getLast? with _ | p
        · rfl
        · simp only [Option.map_some]
          rw [keep p (hio p (.inr (.inr (memc (List.mem_of_getLast? hl)))))]
      rw [e1, e2]
      congr 1
      funext t
      split
      · rfl
      · rw [hstore]; rfl
    dsimp only at h ⊢
    rw [hw] at h ⊢
    have hcode : (run (described sys as c d)).code = .ok 0 := by
      rcases ho : o.output with _ | p <;> rw [ho] at h <;> exact h
    have hwr : ∃ t, (run (described sys as c d)).written = [t] := by
      rcases run_written (described sys as c d) with hn | ht
      · exfalso
        generalize described sys as c d = w at hcode hn
        have hwc : ∀ t, (writeAndCalibrate w t).written ≠ [] := fun t => by
          obtain ⟨code, -, h, -⟩ := writeAndCalibrate_code w t; rw [h]; simp
        revert hcode hn
        unfold run
        split
        · unfold runWithThreshold
          split_ifs
          · intro h; simp at h
          · split
            · intro h; simp at h
            · dsimp only
              split_ifs
              · intro h; simp at h
              · intro h; simp at h
              · exact fun _ h => hwc _ h
        · split
          · intro h; simp at h
          · intro h; simp at h
          · split
            · split_ifs <;> (intro h; simp at h)
            · exact fun _ h => hwc _ h
      · exact ht
    obtain ⟨t, hwr⟩ := hwr
    refine ⟨c, t, k1, hcode, hwr, fun p hl => ?_, fun hl => ?_⟩
    · rw [← j2] at hl
      rw [hl, hwr]
      dsimp only [putTables]
      rw [put_same, hstore]
      exact ⟨rfl, rfl⟩
    · rw [hl] at j2
      rw [show o.output = none from j2]
      exact hwr

/-! ### C118: failure -/

/-- **C118 is false.** When the configuration is not readable as YAML, or is no mapping, an existing output file
is emptied all the same. -/
theorem C118_refuted (sys : System K D I) (d : Disk) (c p : Path) (hne : c ≠ p) (text old : String)
    (hc : d.file c = some text) (hr : sys.readable c = true) (hold : d.file p = some old)
    (hw : sys.writable p = true) (hdir : d.dir p = false)
    (hbad : sys.yaml text = .ok none ∨ sys.yaml text = .error .yamlError) :
    (main sys [.config c, .output p] d).code = .ok (-2) ∧
    (main sys [.config c, .output p] d).disk.file p = some "" ∧
    (old ≠ "" → (main sys [.config c, .output p] d).disk.file p ≠ d.file p) := by
  have hp : parseArguments sys [.config c, .output p] d
      = .ok (c, { config := some c, output := some p }, d.put p "") := by
    simp [parseArguments, steps, step, canOpen, canCreate, hc, hr, hw, hdir]
  have ht : (d.put p "").text c = text := by
    unfold Disk.text; rw [put_other d "" hne, hc]; rfl
  have hrun : run (world sys c { config := some c, output := some p } (d.put p "")) = ⟨.ok (-2), [], []⟩ := by
    unfold run
    have : makeInput (world sys c { config := some c, output := some p } (d.put p "")) = .error .inputError := by
      unfold makeInput loadConfig world
      dsimp only
      rw [ht]
      rcases hbad with h | h <;> rw [h] <;> rfl
    rw [this]; rfl
  have hres : main sys [.config c, .output p] d = ⟨.ok (-2), d.put p "", []⟩ := by
    unfold main
    rw [hp]
    dsimp only
    rw [hrun]
    rfl
  rw [hres]
  refine ⟨rfl, put_same d p "", fun h => ?_⟩
  rw [put_same, hold]
  exact fun e => h (Option.some.inj e).symm

/-- **C118, the part that holds.** Nothing partial is left behind: after any run every file is as it was, or it is
an output file and is empty, or it is the last output file and holds the table of the run as far as it could be
stored; when input, calculation or threshold fail (codes −2, −3, −5) or an argument is invalid (code 2), an
output file is either as it was or empty, and standard output has no table. -/
theorem C118_partial (sys : System K D I) (as : List Arg) (d : Disk) (ht : noTutorial as) (q : Path) :
    ((main sys as d).disk.file q = d.file q ∨
      Arg.output q ∈ as ∧ ((main sys as d).disk.file q = some "" ∨
        (outputs as).getLast? = some q ∧
          ∃ t, (main sys as d).disk.file q = some (sys.store (sys.render t)).1)) ∧
    ((main sys as d).code = .ok (-2) ∨ (main sys as d).code = .ok (-3) ∨ (main sys as d).code = .ok (-5) ∨
      (main sys as d).code = .ok 2 →
      ((main sys as d).disk.file q = d.file q ∨ Arg.output q ∈ as ∧ (main sys as d).disk.file q = some "") ∧
      (main sys as d).stdout = []) := by
  obtain ⟨f1, f2⟩ := parseArguments_frame (sys := sys) ht (d := d)
  unfold main
  rcases hp : parseArguments sys as d with ⟨code, d1⟩ | ⟨c, o, d1⟩
  · dsimp only
    rcases (f2 hp).2 q with h | ⟨h, h'⟩
    · exact ⟨.inl h, fun _ => ⟨.inl h, rfl⟩⟩
    · exact ⟨.inr ⟨mem_outputs.mp h, .inl h'⟩, fun _ => ⟨.inr ⟨mem_outputs.mp h, h'⟩, rfl⟩⟩
  · obtain ⟨j1, j2⟩ := f1 hp
    have base : d1.file q = d.file q ∨ Arg.output q ∈ as ∧ d1.file q = some "" := by
      by_cases hq : q ∈ outputs as
      · exact .inr ⟨mem_outputs.mp hq, by rw [j1, if_pos hq]⟩
      · exact .inl (by rw [j1, if_neg hq])
    have hfail : ∀ w : World K D I, (run w).code = .ok (-2) ∨ (run w).code = .ok (-3) ∨ (run w).code = .ok (-5) ∨
        (run w).code = .ok 2 → (run w).written = [] := by
      intro w
      have hwc : ∀ t, (writeAndCalibrate w t).code = .ok (-2) ∨ (writeAndCalibrate w t).code = .ok (-3) ∨
          (writeAndCalibrate w t).code = .ok (-5) ∨ (writeAndCalibrate w t).code = .ok 2 → False := by
        intro t h
        obtain ⟨code, h1, -, h3, -⟩ := writeAndCalibrate_code w t
        rw [h1] at h
        simp only [Except.ok.injEq] at h
        omega
      unfold run
      split
      · unfold runWithThreshold
        split_ifs
        · exact fun _ => rfl
        · split
          · exact fun _ => rfl
          · dsimp only
            split_ifs
            · exact fun _ => rfl
            · exact fun _ => rfl
            · exact fun h => (hwc _ h).elim
      · split
        · exact fun _ => rfl
        · exact fun _ => rfl
        · split
          · split_ifs <;> exact fun _ => rfl
          · exact fun h => (hwc _ h).elim
    dsimp only
    rcases ho : o.output with _ | p
    · dsimp only
      exact ⟨base.imp_right fun h => ⟨h.1, .inl h.2⟩, fun h => ⟨base, hfail _ h⟩⟩
    · dsimp only
      refine ⟨?_, fun h => ?_⟩
      · rcases run_written (world sys c o d1) with hw | ⟨t, hw⟩
        · rw [hw]; exact base.imp_right fun h => ⟨h.1, .inl h.2⟩
        · rw [hw]
          dsimp only [putTables]
          by_cases hqp : q = p
          · subst hqp
            have hl : (outputs as).getLast? = some q := by rw [← j2, ho]
            exact .inr ⟨mem_outputs.mp (List.mem_of_getLast? hl), .inr ⟨hl, t, put_same _ _ _⟩⟩
          · rw [put_other _ _ hqp]; exact base.imp_right fun h => ⟨h.1, .inl h.2⟩
      · rw [hfail _ h]; exact ⟨base, rfl⟩

end OPE.Cli
