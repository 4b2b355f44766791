import Verif.Model.Objects
import Verif.Props.Minerals

/-!
# C153-C155: sections built from objects, over all histories of a session
-/

namespace OPE.Objects

open Classical

variable {n : ℕ}

/-- A column of fractions, up to the tolerance: no entry is below -1e-5 or above 1+1e-5. -/
def InRange (f : Col n) : Prop := ∀ i, ¬ f i < Num.fin (-1e-5) ∧ ¬ Num.fin (1 + 1e-5) < f i

theorem ratio_iff {f : Col n} : fractionIsRatio f = .ok () ↔ InRange f := by
  unfold fractionIsRatio InRange
  rw [failIf_bind_ok, failIf_ok_iff]
  push Not
  exact ⟨fun h i => ⟨h.1 i, h.2 i⟩, fun h => ⟨fun i => (h i).1, fun i => (h i).2⟩⟩

/-- All fractions of the session are fractions. -/
def Session.Ok (s : Session n) : Prop := ∀ x ∈ s.constituents, ∀ f, x.fraction = some f → InRange f

theorem checkFraction_ok {o : Option (Col n)} (h : checkFraction o = .ok ()) : ∀ f, o = some f → InRange f := by
  rintro f rfl
  exact ratio_iff.mp h

/-- What `fix_one_fraction` accepts. -/
theorem fixOne_ok {fs fs' : List (Option (Col n))} (h : fixOneFraction fs = .ok fs') :
    (∀ i, ¬ Num.fin (1 + 1e-5) < sumCols (givenFractions fs) i) ∧ fs.count none ≤ 1 ∧
      (none ∈ fs → InRange (c 1 - sumCols (givenFractions fs))) ∧
      fs' = fs.map fun f => some (f.getD (c 1 - sumCols (givenFractions fs))) := by
  unfold fixOneFraction at h
  dsimp only at h
  obtain ⟨h1, h⟩ := failIf_bind_ok.mp h
  push Not at h1
  refine ⟨h1, ?_⟩
  split_ifs at h with h0
  · cases h
    have hn : none ∉ fs := List.count_eq_zero.mp h0
    refine ⟨by omega, fun hm => absurd hm hn, ?_⟩
    conv_lhs => rw [← List.map_id fs]
    apply List.map_congr_left
    intro f hf
    cases f with
    | none => exact absurd hf hn
    | some g => rfl
  · obtain ⟨h2, h⟩ := failIf_bind_ok.mp h
    obtain ⟨_, h3, h⟩ := bind_eq_ok.mp h
    cases h
    exact ⟨by omega, fun _ => ratio_iff.mp h3, rfl⟩

theorem fix_ok {s s' : Session n} {refs : List ℕ} (h : s.fix refs = .ok s') :
    let m : Col n := c 1 - sumCols (givenFractions ((s.specs refs).map (·.fraction)))
    s' = s.fill refs m ∧ (none ∈ (s.specs refs).map (·.fraction) → InRange m) ∧
      ((s.specs refs).map (·.fraction)).count none ≤ 1 ∧
      fixOneFraction ((s.specs refs).map (·.fraction)) = .ok (((s.specs refs).map (·.fraction)).map fun f => some (f.getD m)) := by
  unfold Session.fix at h
  obtain ⟨fs', hf, h⟩ := bind_eq_ok.mp h
  cases h
  obtain ⟨h1, h2, h3, rfl⟩ := fixOne_ok hf
  exact ⟨rfl, h3, h2, hf⟩

theorem mem_specs {s : Session n} {refs : List ℕ} {x : FluidSpec n} {j : ℕ} (hj : j ∈ refs)
    (hx : s.constituents[j]? = some x) : x ∈ s.specs refs :=
  List.mem_filterMap.mpr ⟨j, hj, hx⟩

theorem fill_ok {s s' : Session n} (hs : s.Ok) {refs : List ℕ} (h : s.fix refs = .ok s') : s'.Ok := by
  obtain ⟨rfl, hm, -⟩ := fix_ok h
  intro x hx f hf
  obtain ⟨j, hj, rfl⟩ := List.mem_mapIdx.mp hx
  split_ifs at hf with hc
  · simp only [Option.some.injEq] at hf
    subst hf
    exact hm (List.mem_map.mpr ⟨_, mem_specs hc.1 (List.getElem?_eq_getElem hj), hc.2⟩)
  · exact hs _ (List.getElem_mem hj) f hf

theorem modify_ok {s : Session n} (hs : s.Ok) {i : ℕ} {o : Option (Col n)} (ho : ∀ f, o = some f → InRange f) :
    (s.write i o).Ok := by
  intro x hx f hf
  obtain ⟨j, hj⟩ := List.mem_iff_getElem?.mp hx
  unfold Session.write at hj
  rw [List.getElem?_modify] at hj
  obtain ⟨y, hy, hxy⟩ := Option.map_eq_some_iff.mp hj
  split_ifs at hxy with hij
  · subst hxy; exact ho f hf
  · subst hxy; exact hs _ (List.mem_of_getElem? hy) f hf

theorem step_ok {s : Session n} (hs : s.Ok) (op : Op n) : (step s op).2.Ok := by
  cases op with
  | constituent x =>
    rw [step]
    cases h : checkFraction x.fraction with
    | error e => exact hs
    | ok _ =>
      intro y hy f hf
      rcases List.mem_append.mp hy with hy | hy
      · exact hs y hy f hf
      · rw [List.mem_singleton.mp hy] at hf; exact checkFraction_ok h f hf
  | assignFraction i o =>
    rw [step]
    split_ifs
    · exact hs
    · cases h : checkFraction o with
      | error e => exact hs
      | ok _ => exact modify_ok hs (checkFraction_ok h)
  | newFluids T refs m e g md =>
    rw [step]
    split_ifs <;> try exact hs
    cases h : s.fix refs with
    | error e => exact hs
    | ok s' => have := fill_ok hs h; exact this
  | newMinerals refs =>
    rw [step]
    split_ifs <;> try exact hs
    cases h : s.fix refs with
    | error e => exact hs
    | ok s' =>
      dsimp only
      have := fill_ok hs h
      split_ifs <;> exact this
  | assignConstituents k refs =>
    rw [step]
    split_ifs <;> exact hs

theorem run_ok {s : Session n} (hs : s.Ok) (ops : List (Op n)) : (run s ops).Ok := by
  induction ops generalizing s with
  | nil => exact hs
  | cons op ops ih => exact ih (step_ok hs op)

/-- **C153.** Whatever a session does - building constituents and sections, assigning fractions and constituents,
with operations that raise in between - the fraction of a constituent is never below zero or above one (up to the
tolerance of 1e-5). -/
theorem C153_fractions (ops : List (Op n)) (x : FluidSpec n) (hx : x ∈ (run Session.start ops).constituents)
    (f : Col n) (hf : x.fraction = some f) (i : Fin n) : ¬ f i < Num.fin (-1e-5) ∧ ¬ Num.fin (1 + 1e-5) < f i :=
  run_ok (s := Session.start) (by intro y hy; simp [Session.start] at hy) ops x hx f hf i

/-! ## C154 -/

/-- The operation builds a section that constituent `j` is part of. -/
def Op.BuildsWith (j : ℕ) : Op n → Prop
  | .newFluids _ refs _ _ _ _ => j ∈ refs
  | .newMinerals refs => j ∈ refs
  | _ => False

/-- The operation assigns to the fraction of constituent `j`. -/
def Op.Assigns (j : ℕ) : Op n → Prop
  | .assignFraction i _ => i = j
  | _ => False

theorem fill_getElem {s : Session n} {refs : List ℕ} {m : Col n} {j : ℕ} :
    (s.fill refs m).constituents[j]? = (s.constituents[j]?).map fun x =>
      if j ∈ refs ∧ x.fraction = none then { x with fraction := some m } else x := by
  unfold Session.fill
  rw [List.getElem?_mapIdx]

theorem fill_given {s : Session n} {refs : List ℕ} {m : Col n} {j : ℕ} {x : FluidSpec n}
    (hx : s.constituents[j]? = some x) (hf : x.fraction ≠ none ∨ j ∉ refs) :
    (s.fill refs m).constituents[j]? = some x := by
  rw [fill_getElem, hx, Option.map_some, if_neg (fun h => hf.elim (· h.2) (· h.1))]

theorem step_given {s : Session n} {op : Op n} {j : ℕ} {x : FluidSpec n} (hx : s.constituents[j]? = some x)
    (hf : x.fraction ≠ none ∨ ¬ op.BuildsWith j) (hop : ¬ op.Assigns j) : (step s op).2.constituents[j]? = some x := by
  cases op with
  | constituent y =>
    rw [step]
    cases h : checkFraction y.fraction with
    | error e => exact hx
    | ok _ =>
      have : j < s.constituents.length := (List.getElem?_eq_some_iff.mp hx).1
      dsimp only
      rw [List.getElem?_append_left this]; exact hx
  | assignFraction i o =>
    rw [step]
    split_ifs
    · exact hx
    · cases h : checkFraction o with
      | error e => exact hx
      | ok _ =>
        dsimp only [Session.write]
        have hij : i ≠ j := hop
        rw [List.getElem?_modify]; simp [hij, hx]
  | newFluids T refs m e g md =>
    rw [step]
    split_ifs <;> try exact hx
    cases h : s.fix refs with
    | error e => exact hx
    | ok s' => obtain ⟨rfl, -⟩ := fix_ok h; exact fill_given hx hf
  | newMinerals refs =>
    rw [step]
    split_ifs <;> try exact hx
    cases h : s.fix refs with
    | error e => exact hx
    | ok s' =>
      obtain ⟨rfl, -⟩ := fix_ok h
      dsimp only
      split_ifs <;> exact fill_given hx hf
  | assignConstituents k refs =>
    rw [step]
    split_ifs <;> exact hx

/-- **C154.** A constituent whose fraction is given keeps it (and its material) whatever sections are built from
it, successfully or not, until its fraction is assigned; and so does one without fraction while no section is built
from it. -/
theorem C154_given_partial (s : Session n) (ops : List (Op n)) (j : ℕ) (x : FluidSpec n)
    (hx : s.constituents[j]? = some x) (hf : x.fraction ≠ none ∨ ∀ op ∈ ops, ¬ op.BuildsWith j)
    (hops : ∀ op ∈ ops, ¬ op.Assigns j) :
    (run s ops).constituents[j]? = some x := by
  induction ops generalizing s with
  | nil => exact hx
  | cons op ops ih =>
    exact ih _ (step_given hx (hf.imp_right fun h => h op (List.mem_cons_self ..)) (hops op (List.mem_cons_self ..)))
      (hf.imp_right fun h o ho => h o (List.mem_cons_of_mem _ ho)) fun o ho => hops o (List.mem_cons_of_mem _ ho)

/-- What constituent `j` is made of, if there is one. -/
def Session.madeOf (s : Session n) (j : ℕ) : Option (FluidKind n × Option Provider) :=
  (s.constituents[j]?).map fun x => (x.kind, x.model)

theorem fill_madeOf {s : Session n} {refs : List ℕ} {m : Col n} {j : ℕ} : (s.fill refs m).madeOf j = s.madeOf j := by
  unfold Session.madeOf
  rw [fill_getElem, Option.map_map]
  congr 1
  funext x
  simp only [Function.comp]
  split_ifs <;> rfl

theorem step_madeOf {s : Session n} {op : Op n} {j : ℕ} (hj : j < s.constituents.length) :
    (step s op).2.madeOf j = s.madeOf j ∧ j < (step s op).2.constituents.length := by
  have hfill : ∀ refs (m : Col n), j < (s.fill refs m).constituents.length := by
    intro refs m; simpa [Session.fill] using hj
  cases op with
  | constituent y =>
    rw [step]
    cases h : checkFraction y.fraction with
    | error e => exact ⟨rfl, hj⟩
    | ok _ =>
      refine ⟨?_, by simp; omega⟩
      simp only [Session.madeOf]
      rw [List.getElem?_append_left hj]
  | assignFraction i o =>
    rw [step]
    split_ifs
    · exact ⟨rfl, hj⟩
    · cases h : checkFraction o with
      | error e => exact ⟨rfl, hj⟩
      | ok _ =>
        refine ⟨?_, by simpa [Session.write] using hj⟩
        simp only [Session.madeOf, Session.write]
        rw [List.getElem?_modify]
        split_ifs <;> cases s.constituents[j]? <;> rfl
  | newFluids T refs m e g md =>
    rw [step]
    split_ifs <;> try exact ⟨rfl, hj⟩
    cases h : s.fix refs with
    | error e => exact ⟨rfl, hj⟩
    | ok s' => obtain ⟨rfl, -⟩ := fix_ok h; exact ⟨fill_madeOf, hfill _ _⟩
  | newMinerals refs =>
    rw [step]
    split_ifs <;> try exact ⟨rfl, hj⟩
    cases h : s.fix refs with
    | error e => exact ⟨rfl, hj⟩
    | ok s' =>
      obtain ⟨rfl, -⟩ := fix_ok h
      dsimp only
      split_ifs <;> exact ⟨fill_madeOf, hfill _ _⟩
  | assignConstituents k refs =>
    rw [step]
    split_ifs <;> exact ⟨rfl, hj⟩

/-- **C154.** The material and the fluid model of a constituent never change. -/
theorem C154_material (s : Session n) (ops : List (Op n)) (j : ℕ) (x : FluidSpec n)
    (hx : s.constituents[j]? = some x) :
    ∃ x', (run s ops).constituents[j]? = some x' ∧ x'.kind = x.kind ∧ x'.model = x.model := by
  have key : ∀ (ops : List (Op n)) (s : Session n), j < s.constituents.length → (run s ops).madeOf j = s.madeOf j := by
    intro ops
    induction ops with
    | nil => intro s _; rfl
    | cons op ops ih =>
      intro s hj
      obtain ⟨h1, h2⟩ := step_madeOf (op := op) hj
      rw [run, ih _ h2, h1]
  have := key ops s (List.getElem?_eq_some_iff.mp hx).1
  unfold Session.madeOf at this
  rw [hx, Option.map_some, Option.map_eq_some_iff] at this
  obtain ⟨x', h1, h2⟩ := this
  exact ⟨x', h1, congrArg Prod.fst h2, congrArg Prod.snd h2⟩


/-- Constituents for the examples: given and omitted fractions of a gas. -/
noncomputable def gasPart (f : Option (Col 1)) : FluidSpec 1 := ⟨.gas (c 0.7), none, f⟩

theorem sum_two (a b : ℝ) : sumCols [c a, c b] = (c (a + b) : Col 1) := by
  simp [sumCols]; funext i; simp

theorem sum_one (a : ℝ) : sumCols [c a] = (c a : Col 1) := by
  simp [sumCols]; funext i; simp

/-- `Fluids` with default settings. -/
noncomputable def fluidsOf (refs : List ℕ) : Op 1 := .newFluids (c 80) refs .wood (.fin 3) none .default

/-- A constituent with fraction `a` and one without are accepted, and the latter gets the rest. -/
theorem build_one_missing {s : Session 1} {refs : List ℕ} {a : ℝ} (hk : s.Knows refs) (hne : ¬ refs.length < 1)
    (hfs : (s.specs refs).map (·.fraction) = [some (c a), none]) (h0 : 0 ≤ a) (h1 : a ≤ 1) :
    (step s (fluidsOf refs)).1 = .ok () ∧
      (step s (fluidsOf refs)).2.constituents = (s.fill refs (c (1 - a))).constituents := by
  have hg : givenFractions [some (c a), none] = [(c a : Col 1)] := rfl
  have hfix : s.fix refs = .ok (s.fill refs (c (1 - a))) := by
    obtain ⟨fs', hf, -⟩ := C33_one_missing_filled (n := 1) [some (c a), none] (fun _ => a) (by simp) (by
      rw [hg, sum_one]; rfl) (fun _ => by linarith) (fun _ => by linarith)
    have hm : (c 1 - c a : Col 1) = c (1 - a) := by funext i; simp
    unfold Session.fix
    simp only [hfs, hf, bind_ok, hg, sum_one, hm]
  have hs : ¬ ∃ i : Fin 1, Num.fin (1 + 1e-5) < sumCols (givenFractions ((s.specs refs).map (·.fraction))) i := by
    rw [hfs, hg, sum_one]
    rintro ⟨i, hi⟩
    simp only [c, Num.fin_lt] at hi
    linarith
  unfold fluidsOf
  rw [step, if_neg (not_not.mpr hk), if_neg hne, if_neg hs, hfix]
  exact ⟨rfl, rfl⟩

/-- Three constituents: 0.3, omitted, 0.5. -/
noncomputable def threeParts : List (Op 1) :=
  [.constituent (gasPart (some (c 0.3))), .constituent (gasPart none), .constituent (gasPart (some (c 0.5)))]

theorem range_const {a : ℝ} (h0 : 0 ≤ a) (h1 : a ≤ 1) : checkFraction (some (c a : Col 1)) = .ok () := by
  refine ratio_iff.mpr fun i => ?_
  simp only [c, Num.fin_lt, not_lt]
  constructor <;> linarith

theorem threeParts_session : run Session.start threeParts =
    ⟨[gasPart (some (c 0.3)), gasPart none, gasPart (some (c 0.5))], [], []⟩ := by
  unfold threeParts
  have h3 : checkFraction (gasPart (some (c 0.3))).fraction = .ok () := range_const (by norm_num) (by norm_num)
  have h5 : checkFraction (gasPart (some (c 0.5))).fraction = .ok () := range_const (by norm_num) (by norm_num)
  have hn : checkFraction (gasPart none).fraction = .ok () := rfl
  simp only [run, step, h3, h5, hn, Session.start]
  rfl

/-- **C154, refuted.** Building a section changes a constituent whose fraction is omitted: with fractions 0.3,
omitted, and 0.5, a section of the second and third can be built, but not after one of the first and second. -/
theorem C154_refuted : ¬ ∀ (ops : List (Op 1)) (refs refs' : List ℕ),
    (step (run Session.start ops) (fluidsOf refs)).1 = .ok () →
    (step (run Session.start ops) (fluidsOf refs')).1 = .ok () →
    (step (step (run Session.start ops) (fluidsOf refs)).2 (fluidsOf refs')).1 = .ok () := by
  intro h
  have a1 := build_one_missing (s := run Session.start threeParts) (refs := [0, 1]) (a := 0.3)
    (by rw [threeParts_session]; intro i hi; simp at hi; rcases hi with rfl | rfl <;> simp) (by simp)
    (by rw [threeParts_session]; rfl) (by norm_num) (by norm_num)
  have a2 := build_one_missing (s := run Session.start threeParts) (refs := [2, 1]) (a := 0.5)
    (by rw [threeParts_session]; intro i hi; simp at hi; rcases hi with rfl | rfl <;> simp) (by simp)
    (by rw [threeParts_session]; rfl) (by norm_num) (by norm_num)
  have a3 := h threeParts [0, 1] [2, 1] a1.1 a2.1
  set s' := (step (run Session.start threeParts) (fluidsOf [0, 1])).2 with hs'
  have hc : s'.constituents = [gasPart (some (c 0.3)), gasPart (some (c (1 - 0.3))), gasPart (some (c 0.5))] := by
    rw [a1.2, threeParts_session]
    simp [Session.fill, gasPart, List.mapIdx_cons]
  have hfs : (s'.specs [2, 1]).map (·.fraction) = [some (c 0.5), some (c (1 - 0.3))] := by
    unfold Session.specs
    rw [hc]
    rfl
  have hk : s'.Knows [2, 1] := by
    intro i hi; rw [hc]; simp at hi; rcases hi with rfl | rfl <;> simp
  have hbad : ∃ i : Fin 1, Num.fin (1 + 1e-5) < sumCols (givenFractions ((s'.specs [2, 1]).map (·.fraction))) i := by
    refine ⟨0, ?_⟩
    have hg : givenFractions [some (c 0.5), some (c (1 - 0.3))] = [(c 0.5 : Col 1), c (1 - 0.3)] := rfl
    rw [hfs, hg, sum_two]
    simp only [c, Num.fin_lt]
    norm_num
  unfold fluidsOf at a3
  rw [step, if_neg (not_not.mpr hk), if_neg (by simp), if_pos hbad] at a3
  cases a3

-- the hypotheses of `C154_given_partial` for the third constituent of that session
example : (run (run Session.start threeParts) [fluidsOf [0, 1], fluidsOf [2, 1]]).constituents[2]? =
    some (gasPart (some (c 0.5))) :=
  C154_given_partial _ _ 2 _ (by rw [threeParts_session]; rfl) (by simp [gasPart]) (by
    intro op hop
    simp at hop
    rcases hop with rfl | rfl <;> exact id)

end OPE.Objects
