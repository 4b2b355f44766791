import Verif.Model.Warnings
import Verif.Props.Replace
import Verif.Props.Published
import Mathlib.Analysis.Complex.ExponentialBounds

/-!
# C149: warnings
-/

namespace OPE

open Classical

variable {n : ℕ}

/-- Oil whose bubble point, by the published correlation, lies above its pressure in some row. -/
def FluidKind.Bubbles (T P : Fin n → ℝ) (k : FluidKind n) : Prop :=
  ∃ r R G : Fin n → ℝ, k = .oil (finC r) (finC R) (finC G) ∧ ∃ i, P i < Published.bubblePoint (T i) (r i) (R i) (G i)

/-- What `w` is to be shown for: an oil below its bubble point, each fluid pressure above 100 MPa of a brine, a second
pressure dependency, a second depth trend. -/
inductive Warning.Due (s : Sections n) (T P : Fin n → ℝ) : Warning → Prop
  | bubblePoint {x : FluidSpec n} (hx : x ∈ s.fluids) (h : x.kind.Bubbles T P) : Due s T P .bubblePoint
  | waterPressure {x : FluidSpec n} (hx : x ∈ s.fluids) {c : Col n} (hk : x.kind = .brine c) {i : Fin n}
      (h : 100e6 < P i) : Due s T P (.waterPressure (.fin (P i * 1e-6)))
  | pressureDependencies {a b c p q} (h : s.adjustments = a ++ .pressureDependency p :: b ++ .pressureDependency q :: c) :
      Due s T P .pressureDependencies
  | depthTrends {a b c p q} (h : s.adjustments = a ++ .depthTrend p :: b ++ .depthTrend q :: c) : Due s T P .depthTrends

/-- Carbon dioxide constituents. -/
def carbonDioxides (a : List (FluidKind n)) : ℕ := a.countP fun | .carbonDioxide _ => true | _ => false

/-- What `w` is shown for by the code: the fluid pressure of an oil or brine is taken as a million times smaller for
each carbon dioxide listed before it. -/
inductive Warning.Shown (s : Sections n) (T P : Fin n → ℝ) : Warning → Prop
  | bubblePoint {a b : List (FluidSpec n)} {x : FluidSpec n} (hx : s.fluids = a ++ x :: b)
      (h : x.kind.Bubbles T fun i => P i / 1e6 ^ carbonDioxides (a.map (·.kind))) : Shown s T P .bubblePoint
  | waterPressure {a b : List (FluidSpec n)} {x : FluidSpec n} (hx : s.fluids = a ++ x :: b) {c : Col n}
      (hk : x.kind = .brine c) {i : Fin n} (h : 100e6 < P i / 1e6 ^ carbonDioxides (a.map (·.kind))) :
      Shown s T P (.waterPressure (.fin (P i / 1e6 ^ carbonDioxides (a.map (·.kind)) * 1e-6)))
  | adjustments {w : Warning} (h : w.Due s T P) (hw : w = .pressureDependencies ∨ w = .depthTrends) : Shown s T P w

/-- The oils have finite values: positive reference density and gas gravity, a gas–oil ratio of at least zero. -/
def Sections.OilsGiven (s : Sections n) : Prop :=
  ∀ x ∈ s.fluids, ∀ ρ R G, x.kind = .oil ρ R G → ∃ r' R' G' : Fin n → ℝ, ρ = finC r' ∧ R = finC R' ∧ G = finC G' ∧
    ∀ i, 0 < r' i ∧ 0 ≤ R' i ∧ 0 < G' i

/-- The full statement: a finished calculation shows each warning that is due at its temperatures and fluid pressures,
no other, and each text once. -/
def WarnsExactly : Prop :=
  ∀ (n : ℕ) (co2 : CO2Model n) (s : Sections n) (r : Result n) (T P : Fin n → ℝ), calculate co2 s = .ok r →
    s.temperature = finC T → s.fluidPressure.or s.rockPressure = some (finC P) → s.OilsGiven →
    (∀ w, w ∈ warningsShown co2 s ↔ w.Due s T P) ∧ (warningsShown co2 s).Nodup

theorem rowsCalled_all {α : Type} {f : Fin n → Except Err α} {r : Fin n → α} (h : ∀ i, f i = .ok (r i))
    (l : List (Fin n)) : rowsCalled f l = l := by
  induction l with
  | nil => rfl
  | cons i l ih => rw [rowsCalled, h i, ih]

theorem vectorizeMaterial_rows {f : Fin n → Except Err (Mat 1)} {m : Mat n} (h : vectorizeMaterial f = .ok m) :
    ∃ r : Fin n → Mat 1, ∀ i, f i = .ok (r i) := by
  obtain ⟨r, h1, -⟩ := bind_eq_ok.mp h
  exact ⟨r, vec_ok_iff.mp h1⟩

/-- What the constituents before have left of the pressure array. -/
noncomputable def pressureSeen (co2 : CO2Model n) (sec : Provider) (T : Col n) : List (FluidConst n) → Col n → Col n
  | [], p => p
  | x :: xs, p => pressureSeen co2 sec T xs (x.asMaterial co2 sec T p).2

theorem asMaterial_keeps {co2 : CO2Model n} {sec : Provider} {T p : Col n} {x : FluidConst n}
    (h : ∀ b, x.kind ≠ .carbonDioxide b) : (x.asMaterial co2 sec T p).2 = p := by
  unfold FluidConst.asMaterial
  cases hk : x.kind with
  | carbonDioxide b => exact absurd hk (h b)
  | material m => rfl
  | condensate => rfl
  | oil r g G => unfold FluidKind.asMaterial; dsimp only; split <;> rfl
  | gas G => unfold FluidKind.asMaterial; dsimp only; split <;> rfl
  | brine c => unfold FluidKind.asMaterial; dsimp only; split <;> rfl

theorem asMaterial_co2 {co2 : CO2Model n} {sec : Provider} {T : Col n} {P : Fin n → ℝ} {x : FluidConst n} {i : Bool}
    (hk : x.kind = .carbonDioxide i) {m : Mat n} (h : (x.asMaterial co2 sec T (finC P)).1 = .ok m) :
    (x.asMaterial co2 sec T (finC P)).2 = finC fun i => P i / 1e6 := by
  unfold FluidConst.asMaterial at h ⊢
  rw [hk] at h ⊢
  unfold FluidKind.asMaterial at h ⊢
  dsimp only at h ⊢
  split at h
  · funext j
    exact Num.fin_div _ (by norm_num)
  · cases h

theorem pressureSeen_eq {co2 : CO2Model n} {sec : Provider} {T : Col n} {P : Fin n → ℝ} {p' : Col n}
    {xs a b : List (FluidConst n)} {ms : List (Mat n)} (h : materialsOf co2 sec T xs (finC P) = (.ok ms, p'))
    (e : xs = a ++ b) :
    pressureSeen co2 sec T a (finC P) = finC fun i => P i / 1e6 ^ carbonDioxides (a.map (·.kind)) := by
  subst e
  induction a generalizing P ms with
  | nil => simp [pressureSeen, carbonDioxides]
  | cons z a ih =>
    rw [List.cons_append, materialsOf] at h
    rw [pressureSeen]
    rcases hx : z.asMaterial co2 sec T (finC P) with ⟨_ | m, q⟩
    · rw [hx] at h; simp at h
    · rw [hx] at h
      dsimp only at h
      have hok : (z.asMaterial co2 sec T (finC P)).1 = .ok m := by rw [hx]
      have hq : q = (z.asMaterial co2 sec T (finC P)).2 := by rw [hx]
      rcases hr : materialsOf co2 sec T (a ++ b) q with ⟨_ | ms', q'⟩
      · rw [hr] at h; simp at h
      · rw [hr] at h
        have hq' : p' = q' := by simpa using (congrArg Prod.snd h).symm
        subst hq'
        by_cases hz : ∃ i, z.kind = .carbonDioxide i
        · obtain ⟨i, hz⟩ := hz
          rw [asMaterial_co2 hz hok] at hq
          subst hq
          rw [ih hr]
          congr 1
          funext j
          rw [List.map_cons, hz, carbonDioxides, carbonDioxides, List.countP_cons_of_pos rfl, pow_succ', div_div]
        · have hz' : ∀ i, z.kind ≠ .carbonDioxide i := fun i hi => hz ⟨i, hi⟩
          rw [asMaterial_keeps hz'] at hq
          subst hq
          rw [ih hr]
          have : carbonDioxides ((z :: a).map (·.kind)) = carbonDioxides (a.map (·.kind)) := by
            rw [List.map_cons, carbonDioxides, carbonDioxides, List.countP_cons_of_neg]
            cases hk : z.kind with
            | carbonDioxide i => exact absurd hk (hz' i)
            | _ => simp
          rw [this]

/-- When every constituent has its material, the warnings are those of each of them at the pressure it sees. -/
theorem mem_fluidWarnings {co2 : CO2Model n} {sec : Provider} {T p p' : Col n} {xs : List (FluidConst n)}
    {ms : List (Mat n)} (h : materialsOf co2 sec T xs p = (.ok ms, p')) (w : Warning) :
    w ∈ fluidWarnings co2 sec T xs p ↔ ∃ a x b, xs = a ++ x :: b ∧
      w ∈ x.kind.warnings (x.model.getD sec) T (pressureSeen co2 sec T a p) ∧
      ∃ m, (x.asMaterial co2 sec T (pressureSeen co2 sec T a p)).1 = .ok m := by
  induction xs generalizing p ms with
  | nil => simp [fluidWarnings]
  | cons x xs ih =>
    rw [materialsOf] at h
    rcases hx : x.asMaterial co2 sec T p with ⟨_ | m, q⟩
    · rw [hx] at h; simp at h
    · rw [hx] at h
      dsimp only at h
      rcases hr : materialsOf co2 sec T xs q with ⟨_ | ms', q'⟩
      · rw [hr] at h; simp at h
      · rw [fluidWarnings, hx]
        dsimp only
        rw [hr] at h
        dsimp only at h
        have hq : p' = q' := by simpa using (congrArg Prod.snd h).symm
        subst hq
        rw [List.mem_append, ih hr]
        constructor
        · rintro (hw | ⟨a, y, b, rfl, h1, h2⟩)
          · exact ⟨[], x, xs, rfl, hw, m, by rw [pressureSeen, hx]⟩
          · refine ⟨x :: a, y, b, rfl, ?_, ?_⟩ <;> rw [pressureSeen, hx]
            · exact h1
            · exact h2
        · rintro ⟨a, y, b, e, h1, h2⟩
          cases a with
          | nil => simp only [List.nil_append, List.cons.injEq] at e; obtain ⟨rfl, rfl⟩ := e; exact .inl h1
          | cons z a =>
            simp only [List.cons_append, List.cons.injEq] at e
            obtain ⟨rfl, rfl⟩ := e
            rw [pressureSeen, hx] at h1 h2
            exact .inr ⟨a, y, b, rfl, h1, h2⟩

theorem materialsOf_each {co2 : CO2Model n} {sec : Provider} {T p p' : Col n} {xs : List (FluidConst n)}
    {ms : List (Mat n)} (h : materialsOf co2 sec T xs p = (.ok ms, p')) {a b : List (FluidConst n)} {x : FluidConst n}
    (e : xs = a ++ x :: b) : ∃ m, (x.asMaterial co2 sec T (pressureSeen co2 sec T a p)).1 = .ok m := by
  subst e
  induction a generalizing p ms with
  | nil =>
    rw [List.nil_append, materialsOf] at h
    rw [pressureSeen]
    rcases hx : x.asMaterial co2 sec T p with ⟨_ | m, q⟩
    · rw [hx] at h; simp at h
    · exact ⟨m, rfl⟩
  | cons z a ih =>
    rw [List.cons_append, materialsOf] at h
    rw [pressureSeen]
    rcases hx : z.asMaterial co2 sec T p with ⟨_ | m, q⟩
    · rw [hx] at h; simp at h
    · rw [hx] at h
      dsimp only at h
      rcases hr : materialsOf co2 sec T (a ++ x :: b) q with ⟨_ | ms', q'⟩
      · rw [hr] at h; simp at h
      · rw [hr] at h
        have hq : p' = q' := by simpa using (congrArg Prod.snd h).symm
        subst hq
        exact ih hr

theorem fixOneFraction_shape {fs fs' : List (Option (Col n))} (h : fixOneFraction fs = .ok fs') :
    fs'.length = fs.length ∧ ∀ f ∈ fs', f ≠ none := by
  unfold fixOneFraction at h
  obtain ⟨_, -, h⟩ := bind_eq_ok.mp h
  split_ifs at h with hc
  · injection h with h; subst h
    refine ⟨rfl, fun f hf hn => ?_⟩
    subst hn
    exact absurd hf (List.count_eq_zero.mp hc)
  · obtain ⟨_, -, h⟩ := bind_eq_ok.mp h
    obtain ⟨_, -, h⟩ := bind_eq_ok.mp h
    injection h with h; subst h
    refine ⟨by simp, fun f hf hn => ?_⟩
    obtain ⟨y, -, rfl⟩ := List.mem_map.mp hf
    simp at hn

theorem givenFractions_length {fs : List (Option (Col n))} (h : ∀ f ∈ fs, f ≠ none) :
    (givenFractions fs).length = fs.length := by
  induction fs with
  | nil => rfl
  | cons a fs ih =>
    obtain ⟨v, rfl⟩ := Option.ne_none_iff_exists'.mp (h a List.mem_cons_self)
    simpa [givenFractions] using ih fun b hb => h b (List.mem_cons_of_mem _ hb)

theorem zipWith_keeps {α β γ δ : Type} {f : α → β → γ} {g : γ → δ} {k : α → δ} (hf : ∀ a b, g (f a b) = k a)
    {cs : List α} {vs : List β} (h : vs.length = cs.length) : (cs.zipWith f vs).map g = cs.map k := by
  induction cs generalizing vs with
  | nil => rfl
  | cons c cs ih =>
    cases vs with
    | nil => simp at h
    | cons v vs => rw [List.zipWith_cons_cons, List.map_cons, List.map_cons, hf, ih (by simpa using h)]

theorem mkFluids_constituents {T : Col n} {cs : List (FluidSpec n)} {method : MixMethod} {e : Num}
    {gases : Option (List ℤ)} {model : Provider} {f : Fluids n} (h : mkFluids T cs method e gases model = .ok f) :
    f.temperature = T ∧ f.model = model ∧
      f.constituents.map (fun x => (x.kind, x.model)) = cs.map fun x => (x.kind, x.model) := by
  unfold mkFluids at h
  obtain ⟨_, -, h⟩ := bind_eq_ok.mp h
  obtain ⟨_, -, h⟩ := bind_eq_ok.mp h
  obtain ⟨_, -, h⟩ := bind_eq_ok.mp h
  obtain ⟨fs, hf, h⟩ := bind_eq_ok.mp h
  injection h with h; subst h
  refine ⟨rfl, rfl, ?_⟩
  obtain ⟨h1, h2⟩ := fixOneFraction_shape hf
  refine zipWith_keeps (g := fun x : FluidConst n => (x.kind, x.model)) (k := fun x : FluidSpec n => (x.kind, x.model)) (fun a b => rfl) ?_
  rw [givenFractions_length h2, h1, List.length_map]

/-- The parts of a finished calculation that warn. -/
theorem warningsOf_finished {co2 : CO2Model n} {s : Sections n} {r : Result n} (h : calculate co2 s = .ok r) :
    ∃ (f : Fluids n) (p p' : Col n) (ms : List (Mat n)), s.fluidPressure.or s.rockPressure = some p ∧
      f.temperature = s.temperature ∧ f.model = s.fluidModel ∧
      f.constituents.map (fun x => (x.kind, x.model)) = s.fluids.map (fun x => (x.kind, x.model)) ∧
      materialsOf co2 f.model f.temperature f.constituents p = (.ok ms, p') ∧
      warningsOf co2 s = adjustmentWarnings s.adjustments ++ fluidWarnings co2 f.model f.temperature f.constituents p := by
  unfold calculate at h
  obtain ⟨inp, hi, h⟩ := bind_eq_ok.mp h
  have hi' := hi
  unfold mkInput at hi
  obtain ⟨minerals, h1, hi⟩ := bind_eq_ok.mp hi
  obtain ⟨f, h2, hi⟩ := bind_eq_ok.mp hi
  obtain ⟨d, h3, hi⟩ := bind_eq_ok.mp hi
  obtain ⟨pr, h4, hi⟩ := bind_eq_ok.mp hi
  injection hi with hi; subst hi
  unfold calculateResults at h
  obtain ⟨mineral, g1, h⟩ := bind_eq_ok.mp h
  obtain ⟨⟨fluid, pr'⟩, g2, h⟩ := bind_eq_ok.mp h
  unfold mixFluids at g2
  obtain ⟨p, g3, g2⟩ := bind_eq_ok.mp g2
  dsimp only at g1 g3
  have hp : pr.fluid = some p := by
    unfold needCol at g3
    split at g3
    · cases g3
    · rename_i hh; injection g3 with g3; subst g3; exact hh
  obtain ⟨e1, e2, e3⟩ := mkFluids_constituents h2
  have hm : ∃ ms p', materialsOf co2 f.model f.temperature f.constituents p = (.ok ms, p') := by
    unfold Fluids.asMixture at g2
    rcases hmo : materialsOf co2 f.model f.temperature f.constituents p with ⟨_ | ms, p'⟩
    · rw [hmo] at g2; simp at g2
    · exact ⟨ms, p', rfl⟩
  obtain ⟨ms, p', hm⟩ := hm
  refine ⟨f, p, p', ms, ?_, e1, e2, e3, hm, ?_⟩
  · unfold mkPressure at h4
    injection h4 with h4
    subst h4
    rw [← hp]
    dsimp only
    cases s.fluidPressure <;> cases s.rockPressure <;> rfl
  · unfold warningsOf
    rw [hi']
    dsimp only
    rw [g1]
    dsimp only
    rw [hp]

theorem mem_shown {co2 : CO2Model n} {s : Sections n} {w : Warning} : w ∈ warningsShown co2 s ↔ w ∈ warningsOf co2 s := by
  simp [warningsShown]

theorem two_countP {α : Type} (p : α → Bool) (l : List α) :
    1 < l.countP p ↔ ∃ a x b y c, l = a ++ x :: b ++ y :: c ∧ p x ∧ p y := by
  have one : ∀ l : List α, 0 < l.countP p ↔ ∃ b y c, l = b ++ y :: c ∧ p y := fun l => by
    rw [List.countP_pos_iff]
    constructor
    · rintro ⟨y, hy, h⟩
      obtain ⟨b, c, e⟩ := List.append_of_mem hy
      exact ⟨b, y, c, e, h⟩
    · rintro ⟨b, y, c, rfl, h⟩
      exact ⟨y, by simp, h⟩
  constructor
  · intro h
    obtain ⟨a, x, l', rfl, hx⟩ := (one l).mp (by omega)
    induction a with
    | nil =>
      rw [List.nil_append, List.countP_cons_of_pos hx] at h
      obtain ⟨b, y, c, rfl, hy⟩ := (one l').mp (by omega)
      exact ⟨[], x, b, y, c, rfl, hx, hy⟩
    | cons z a ih =>
      by_cases hz : p z
      · exact ⟨[], z, a, x, l', rfl, hz, hx⟩
      · rw [List.cons_append, List.countP_cons_of_neg hz] at h
        obtain ⟨a', x', b, y, c, e, h1, h2⟩ := ih h
        exact ⟨z :: a', x', b, y, c, by rw [List.cons_append, e]; rfl, h1, h2⟩
  · rintro ⟨a, x, b, y, c, rfl, hx, hy⟩
    simp only [List.countP_append, List.countP_cons_of_pos hx, List.countP_cons_of_pos hy]
    omega

theorem mem_adjustmentWarnings {s : Sections n} {T P : Fin n → ℝ} (w : Warning) : w ∈ adjustmentWarnings s.adjustments ↔
    w.Due s T P ∧ (w = .pressureDependencies ∨ w = .depthTrends) := by
  unfold adjustmentWarnings
  dsimp only
  rw [List.mem_append]
  constructor
  · rintro (h | h)
    · split_ifs at h with hc
      · rw [List.mem_singleton.mp h]
        obtain ⟨a, x, b, y, c, e, hx, hy⟩ := (two_countP _ _).mp hc
        cases x with
        | depthTrend _ => simp at hx
        | pressureDependency p => cases y with
          | depthTrend _ => simp at hy
          | pressureDependency q => exact ⟨.pressureDependencies e, .inl rfl⟩
      · simp at h
    · split_ifs at h with hc
      · rw [List.mem_singleton.mp h]
        obtain ⟨a, x, b, y, c, e, hx, hy⟩ := (two_countP _ _).mp hc
        cases x with
        | pressureDependency _ => simp at hx
        | depthTrend p => cases y with
          | pressureDependency _ => simp at hy
          | depthTrend q => exact ⟨.depthTrends e, .inr rfl⟩
      · simp at h
  · rintro ⟨h, h' | h'⟩
    · subst h'
      cases h with
      | pressureDependencies e =>
        refine .inl ?_
        rw [if_pos ((two_countP _ _).mpr ⟨_, _, _, _, _, e, rfl, rfl⟩)]
        exact List.mem_singleton.mpr rfl
    · subst h'
      cases h with
      | depthTrends e =>
        refine .inr ?_
        rw [if_pos ((two_countP _ _).mpr ⟨_, _, _, _, _, e, rfl, rfl⟩)]
        exact List.mem_singleton.mpr rfl

theorem kind_warnings {co2 : CO2Model n} {pv : Provider} {T P : Fin n → ℝ} {k : FluidKind n} {m : Mat n}
    (h : (k.asMaterial co2 pv (finC T) (finC P)).1 = .ok m)
    (hk : ∀ ρ R G, k = .oil ρ R G → ∃ r' R' G' : Fin n → ℝ, ρ = finC r' ∧ R = finC R' ∧ G = finC G' ∧
      ∀ i, 0 < r' i ∧ 0 ≤ R' i ∧ 0 < G' i) (w : Warning) :
    w ∈ k.warnings pv (finC T) (finC P) ↔ (w = .bubblePoint ∧ k.Bubbles T P) ∨
      (∃ c, k = .brine c) ∧ ∃ i, 100e6 < P i ∧ w = .waterPressure (.fin (P i * 1e-6)) := by
  cases k with
  | material m => simp [FluidKind.warnings, FluidKind.Bubbles]
  | gas G => simp [FluidKind.warnings, FluidKind.Bubbles]
  | condensate _ _ _ => simp [FluidKind.warnings, FluidKind.Bubbles]
  | carbonDioxide b => simp [FluidKind.warnings, FluidKind.Bubbles]
  | oil ρ R G =>
    obtain ⟨r', R', G', rfl, rfl, rfl, hp⟩ := hk _ _ _ rfl
    have hv : pv ≠ .spanWagner := by rintro rfl; simp [FluidKind.asMaterial] at h
    have h' : (vectorizeMaterial fun i => OPE.oil (finC T i) (finC P i) (finC r' i) (finC R' i) (finC G' i)) = .ok m := by
      cases pv <;> first | exact absurd rfl hv | exact h
    obtain ⟨q, hq⟩ := vectorizeMaterial_rows h'
    have e : (FluidKind.oil (finC r') (finC R') (finC G')).warnings pv (finC T) (finC P)
        = (rowsCalled (fun i => OPE.oil (finC T i) (finC P i) (finC r' i) (finC R' i) (finC G' i)) (List.finRange n)).flatMap
          fun i => oilWarnings (finC T i) (finC P i) (finC r' i) (finC R' i) (finC G' i) := by
      cases pv <;> first | exact absurd rfl hv | rfl
    have bp : ∀ i, oilBubblePoint (finC r' i) (finC R' i) (finC G' i) (finC T i)
        = .fin (Published.bubblePoint (T i) (r' i) (R' i) (G' i)) := fun i => by
      show oilBubblePoint (.fin _) (.fin _) (.fin _) (.fin _) = _
      rw [oilBubblePoint_fin (hp i).1 (hp i).2.1 (hp i).2.2, Num.fin_inj, Published.bubblePoint, div_eq_mul_inv,
        ← Real.exp_neg, neg_sub]
    rw [e, rowsCalled_all hq, List.mem_flatMap]
    simp only [List.mem_finRange, true_and, oilWarnings, bp, reduceCtorEq, exists_false, false_and, or_false]
    constructor
    · rintro ⟨i, hi⟩
      split_ifs at hi with hc
      · exact ⟨List.mem_singleton.mp hi, r', R', G', rfl, i, Num.fin_lt.mp hc⟩
      · simp at hi
    · rintro ⟨rfl, r2, R2, G2, e2, i, hi⟩
      injection e2 with e1 e2 e3
      rw [← finC_injective e1, ← finC_injective e2, ← finC_injective e3] at hi
      exact ⟨i, by rw [if_pos (show finC P i < _ from Num.fin_lt.mpr hi)]; exact List.mem_singleton.mpr rfl⟩
  | brine c =>
    have hv : pv ≠ .spanWagner := by rintro rfl; simp [FluidKind.asMaterial] at h
    have h' : (vectorizeMaterial fun i => OPE.brine ((finC T).row i) ((finC P).row i) (c.row i)) = .ok m := by
      cases pv <;> first | exact absurd rfl hv | exact h
    obtain ⟨q, hq⟩ := vectorizeMaterial_rows h'
    have e : (FluidKind.brine c).warnings pv (finC T) (finC P)
        = (rowsCalled (fun i => OPE.brine ((finC T).row i) ((finC P).row i) (c.row i)) (List.finRange n)).flatMap
          fun i => brineWarnings (finC P i) := by
      cases pv <;> first | exact absurd rfl hv | rfl
    rw [e, rowsCalled_all hq, List.mem_flatMap]
    have hw : ∀ i, brineWarnings (finC P i) = if 100e6 < P i then [.waterPressure (.fin (P i * 1e-6))] else [] := fun i => by
      unfold brineWarnings
      show (if Num.fin 100 < Num.fin (P i) * Num.fin 1e-6 then [Warning.waterPressure (Num.fin (P i) * Num.fin 1e-6)] else []) = _
      rw [Num.fin_mul, Num.fin_lt]
      refine if_congr ⟨fun h => ?_, fun h => ?_⟩ rfl rfl <;> linarith
    simp only [List.mem_finRange, true_and, hw]
    constructor
    · rintro ⟨i, hi⟩
      split_ifs at hi with hc
      · exact .inr ⟨⟨c, rfl⟩, i, hc, List.mem_singleton.mp hi⟩
      · simp at hi
    · rintro (⟨-, r2, R2, G2, e2, -⟩ | ⟨-, i, hc, rfl⟩)
      · cases e2
      · exact ⟨i, by rw [if_pos hc]; exact List.mem_singleton.mpr rfl⟩

/-- The warnings a finished calculation shows, with the pressures as the code takes them. -/
theorem C149_shown (co2 : CO2Model n) {s : Sections n} {r : Result n} {T P : Fin n → ℝ} (h : calculate co2 s = .ok r)
    (hT : s.temperature = finC T) (hP : s.fluidPressure.or s.rockPressure = some (finC P)) (ho : s.OilsGiven) :
    (∀ w, w ∈ warningsShown co2 s ↔ w.Shown s T P) ∧ (warningsShown co2 s).Nodup := by
  refine ⟨fun w => ?_, by rw [warningsShown, List.nodup_reverse]; exact List.nodup_dedup _⟩
  obtain ⟨f, p, p', ms, e1, e2, e3, e4, e5, e6⟩ := warningsOf_finished h
  obtain rfl : finC P = p := by rw [hP] at e1; injection e1
  rw [hT] at e2
  rw [e2] at e5 e6
  rw [mem_shown, e6, List.mem_append, mem_adjustmentWarnings (T := T) (P := P), mem_fluidWarnings e5]
  have split : ∀ {a x b}, f.constituents = a ++ x :: b → ∃ a' x' b', s.fluids = a' ++ x' :: b' ∧ x'.kind = x.kind ∧
      a'.map (·.kind) = a.map (·.kind) := by
    intro a x b e
    rw [e, List.map_append, List.map_cons] at e4
    obtain ⟨a', l, q1, q2, q3⟩ := List.map_eq_append_iff.mp e4.symm
    obtain ⟨x', b', q4, q5, q6⟩ := List.map_eq_cons_iff.mp q3
    exact ⟨a', x', b', by rw [q1, q4], congrArg Prod.fst q5, by simpa [Function.comp_def] using congrArg (List.map Prod.fst) q2⟩
  have split' : ∀ {a' x' b'}, s.fluids = a' ++ x' :: b' → ∃ a x b, f.constituents = a ++ x :: b ∧ x'.kind = x.kind ∧
      a'.map (·.kind) = a.map (·.kind) := by
    intro a' x' b' e
    rw [e, List.map_append, List.map_cons] at e4
    obtain ⟨a, l, q1, q2, q3⟩ := List.map_eq_append_iff.mp e4
    obtain ⟨x, b, q4, q5, q6⟩ := List.map_eq_cons_iff.mp q3
    exact ⟨a, x, b, by rw [q1, q4], (congrArg Prod.fst q5).symm, by simpa [Function.comp_def] using (congrArg (List.map Prod.fst) q2).symm⟩
  have oils : ∀ {x' : FluidSpec n} {x : FluidConst n}, x' ∈ s.fluids → x'.kind = x.kind → ∀ ρ R G, x.kind = .oil ρ R G →
      ∃ r' R' G' : Fin n → ℝ, ρ = finC r' ∧ R = finC R' ∧ G = finC G' ∧ ∀ i, 0 < r' i ∧ 0 ≤ R' i ∧ 0 < G' i :=
    fun h1 h2 ρ R G hk => ho _ h1 ρ R G (h2.trans hk)
  constructor
  · rintro (⟨h, h'⟩ | ⟨a, x, b, e, hw, m, hm⟩)
    · exact .adjustments h h'
    · obtain ⟨a', x', b', q1, q2, q3⟩ := split e
      have hx' : x' ∈ s.fluids := by rw [q1]; simp
      rw [pressureSeen_eq e5 e, ← q3] at hw hm
      rcases (kind_warnings hm (oils hx' q2) w).mp hw with ⟨rfl, hb⟩ | ⟨⟨c, hb⟩, i, hi, rfl⟩
      · exact .bubblePoint q1 (q2 ▸ hb)
      · exact .waterPressure q1 (q2.trans hb) hi
  · intro hd
    have shown : ∀ {a' : List (FluidSpec n)} {x' : FluidSpec n} {b' : List (FluidSpec n)}, s.fluids = a' ++ x' :: b' →
        ((w = .bubblePoint ∧ x'.kind.Bubbles T fun i => P i / 1e6 ^ carbonDioxides (a'.map (·.kind))) ∨
          (∃ c, x'.kind = .brine c) ∧ ∃ i, 100e6 < P i / 1e6 ^ carbonDioxides (a'.map (·.kind)) ∧
            w = .waterPressure (.fin (P i / 1e6 ^ carbonDioxides (a'.map (·.kind)) * 1e-6))) →
        ∃ a x b, f.constituents = a ++ x :: b ∧
          w ∈ x.kind.warnings (x.model.getD f.model) (finC T) (pressureSeen co2 f.model (finC T) a (finC P)) ∧
          ∃ m, (x.asMaterial co2 f.model (finC T) (pressureSeen co2 f.model (finC T) a (finC P))).1 = .ok m := by
      intro a' x' b' q1 hw
      obtain ⟨a, x, b, q2, q3, q4⟩ := split' q1
      obtain ⟨m, hm⟩ := materialsOf_each e5 q2
      refine ⟨a, x, b, q2, ?_, m, hm⟩
      rw [pressureSeen_eq e5 q2, ← q4] at hm ⊢
      rw [q3] at hw
      exact (kind_warnings hm (oils (by rw [q1]; simp) q3) w).mpr hw
    cases hd with
    | bubblePoint hx hb => exact .inr (shown hx (.inl ⟨rfl, hb⟩))
    | waterPressure hx hk hi => exact .inr (shown hx (.inr ⟨⟨_, hk⟩, _, hi, rfl⟩))
    | adjustments h h' => exact .inl ⟨h, h'⟩

/-- **C149**, for fluids where no carbon dioxide is listed before an oil or a brine. -/
theorem C149_partial (co2 : CO2Model n) {s : Sections n} {r : Result n} {T P : Fin n → ℝ} (h : calculate co2 s = .ok r)
    (hT : s.temperature = finC T) (hP : s.fluidPressure.or s.rockPressure = some (finC P)) (ho : s.OilsGiven)
    (hc : ∀ a x b, s.fluids = a ++ x :: b → (∃ c, x.kind = .brine c) ∨ (∃ ρ R G, x.kind = .oil ρ R G) →
      ∀ y ∈ a, ∀ interp, y.kind ≠ .carbonDioxide interp) :
    (∀ w, w ∈ warningsShown co2 s ↔ w.Due s T P) ∧ (warningsShown co2 s).Nodup := by
  obtain ⟨h1, h2⟩ := C149_shown co2 h hT hP ho
  refine ⟨fun w => ?_, h2⟩
  rw [h1]
  have none : ∀ {a x b}, s.fluids = a ++ x :: b → (∃ c, x.kind = .brine c) ∨ (∃ ρ R G, x.kind = .oil ρ R G) →
      (fun i => P i / 1e6 ^ carbonDioxides (a.map (·.kind))) = P := by
    intro a x b e hk
    have : carbonDioxides (a.map (·.kind)) = 0 := by
      unfold carbonDioxides
      rw [List.countP_eq_zero]
      intro k hk'
      obtain ⟨y, hy, rfl⟩ := List.mem_map.mp hk'
      cases hy' : y.kind with
      | carbonDioxide i => exact absurd hy' (hc a x b e hk y hy i)
      | _ => simp
    simp [this]
  constructor
  · intro hs
    cases hs with
    | bubblePoint hx hb =>
      have := none hx (.inr (by obtain ⟨_, _, _, q, -⟩ := hb; exact ⟨_, _, _, q⟩))
      rw [this] at hb
      exact .bubblePoint (by rw [hx]; simp) hb
    | @waterPressure a b x hx c hk i hi =>
      have := congrFun (none hx (.inl ⟨_, hk⟩)) i
      rw [this] at hi ⊢
      exact .waterPressure (by rw [hx]; simp) hk hi
    | adjustments h _ => exact h
  · intro hd
    cases hd with
    | bubblePoint hx hb =>
      obtain ⟨a, b, e⟩ := List.append_of_mem hx
      refine .bubblePoint e ?_
      rw [none e (.inr (by obtain ⟨_, _, _, q, -⟩ := hb; exact ⟨_, _, _, q⟩))]
      exact hb
    | @waterPressure x hx c hk i hi =>
      obtain ⟨a, b, e⟩ := List.append_of_mem hx
      have := congrFun (none e (.inl ⟨_, hk⟩)) i
      rw [← this] at hi ⊢
      exact .waterPressure e hk hi
    | pressureDependencies e => exact .adjustments (.pressureDependencies e) (.inl rfl)
    | depthTrends e => exact .adjustments (.depthTrends e) (.inr rfl)

/-- Carbon dioxide by Span & Wagner's equation, then an oil and a brine; saturations `u`, `v` and `v`. -/
noncomputable def exWarnPores (first : Pore 1) (u v P : ℝ) : List (Pore 1) :=
  [{ first with sat := fun _ => u },
   ⟨.oil (finC fun _ => 1000) (finC fun _ => 1) (finC fun _ => 1), none, fun _ => Published.oil 75 P 1000 1 1, fun _ => v⟩,
   ⟨.brine (finC fun _ => 0), none, fun _ => Published.brine 75 P 0, fun _ => v⟩]

/-- Quartz around the pores, the fluid at pressure `P`. -/
noncomputable def exWarnRock (L : List (Pore 1)) (P : ℝ) : Sections 1 where
  minerals := [⟨Mat.ofReal (fun _ => 36.8e9) (fun _ => 44e9) (fun _ => 2650), some (finC fun _ => 1)⟩]
  temperature := finC fun _ => 75
  fluids := L.map fun x => ⟨x.kind, x.model, some (finC x.sat)⟩
  mixMethod := .wood
  brieConstant := .fin 3
  brieGases := none
  fluidModel := .default
  sandModel := .polyfit true ⟨some (rowCoeffs 2000 0), some (rowCoeffs 12e9 0), some (rowCoeffs 10e9 0)⟩
  porosity := finC fun _ => 0.2
  adjustments := []
  overburden := finC fun _ => 200e6
  reference := finC fun _ => 200e6
  fluidPressure := some (finC fun _ => P)
  maxEffective := none
  rockPressure := none

theorem exWarnRock_says (L : List (Pore 1)) (P : ℝ) : (exWarnRock L P).Says
    (Mat.ofReal (fun _ => 36.8e9) (fun _ => 44e9) (fun _ => 2650), (fun _ => quartzRock), fun _ => 1) []
    (fun _ => 200e6) (fun _ => 200e6) (fun _ => P) (fun _ => P) none := by
  have hq : quartzRock.Valid := by norm_num [Published.Rock.Valid, quartzRock]
  refine ⟨rfl, ?_, fun _ => by norm_num, rfl, rfl, rfl, rfl, rfl⟩
  intro y hy
  rw [List.mem_singleton.mp hy]
  exact ⟨⟨rfl, rfl, rfl, fun _ => hq⟩, fun _ => by norm_num⟩

theorem exWarnRock_gives (L : List (Pore 1)) (P : ℝ) : SandModel.Gives (n := 1) (fun _ => quartzRock) (fun _ => 0.2)
    (effectiveAt none (fun _ => 200e6) (fun _ => P)) (exWarnRock L P).sandModel (fun _ => ⟨12e9, 10e9, 2000⟩)
    (fun _ => quartzRock) := by
  have row : ∀ a b x y : ℝ, surface (rowCoeffs a b) x y = a + b * y := rowCoeffs_sum
  have hsand : surfaceModuli (rowCoeffs 2000 0) (rowCoeffs 12e9 0) (rowCoeffs 10e9 0) quartzRock 0.2
      = ⟨12e9, 10e9, 2000⟩ := by simp only [surfaceModuli, row, zero_mul, add_zero]
  have := SandModel.Gives.moduli (a := fun _ : Fin 1 => quartzRock) (φ := fun _ => 0.2)
    (p := effectiveAt none (fun _ => 200e6) (fun _ => P)) (some (rowCoeffs 2000 0)) (some (rowCoeffs 12e9 0))
    (some (rowCoeffs 10e9 0))
  simp only [Option.getD_some, hsand] at this
  exact this

noncomputable def exWarnCo2 : CO2Model 1 := fun _ _ _ => .ok (Mat.ofReal (fun _ => 0.1e9) (fun _ => 0) (fun _ => 600))

noncomputable def exWarnFirst : Pore 1 := ⟨.carbonDioxide false, some .spanWagner, fun _ => ⟨0.1e9, 600⟩, fun _ => 1⟩

noncomputable def exWarnWater : Pore 1 :=
  ⟨.material (Mat.ofReal (fun _ => 2.8e9) (fun _ => 0) (fun _ => 1030)), none, fun _ => ⟨2.8e9, 1030⟩, fun _ => 1⟩

theorem exWarn_filled_co2 : (exWarnRock (exWarnPores exWarnFirst 1 0 120) 120e6).Filled exWarnCo2 (fun _ => 75)
    (fun _ => 120e6) (exWarnPores exWarnFirst 1 0 120) (fun _ => 120e6 / 1e6) := by
  refine ⟨rfl, rfl, by simp [exWarnPores], ?_, ?_, fun i => by norm_num [poreTotal, exWarnPores]⟩
  · have e : ((120e6 : ℝ) / 1e6) = 120 := by norm_num
    refine .carbonDioxide (m := Mat.ofReal (fun _ => 0.1e9) (fun _ => 0) (fun _ => 600)) rfl rfl rfl
      ⟨rfl, rfl, rfl, fun _ => by norm_num [exWarnFirst]⟩ ?_
    rw [e]
    exact .plain (.oil _ _ _ (fun _ => by norm_num) (fun _ => by norm_num) (fun _ => by norm_num) (fun _ => by norm_num)
      fun _ => by norm_num) (by decide) (.plain (.brine _ (fun _ => by norm_num) (fun _ => by norm_num) fun _ => by norm_num)
      (by decide) (.nil _))
  · intro z hz i
    simp only [exWarnPores, List.mem_cons, List.not_mem_nil, or_false] at hz
    rcases hz with rfl | rfl | rfl <;> norm_num

theorem exWarn_run {co2 : CO2Model 1} {first : Pore 1} {P Q : ℝ} {P' : Fin 1 → ℝ}
    (h : (exWarnRock (exWarnPores first 1 0 Q) P).Filled co2 (fun _ => 75) (fun _ => P) (exWarnPores first 1 0 Q) P')
    (hK : 0 < (first.fluid 0).K ∧ (first.fluid 0).K < 36.8e9) :
    ∃ r, calculate co2 (exWarnRock (exWarnPores first 1 0 Q) P) = .ok r := by
  have hq : quartzRock.Valid := by norm_num [Published.Rock.Valid, quartzRock]
  refine ⟨_, calculate_adjusted (exWarnRock_says _ _) (mkModuli_coherent (mkModuli_rock (n := 1) (r := fun _ => quartzRock)
    fun _ => hq)) h (.wood rfl ⟨by simp [exWarnPores], fun i => by norm_num [poreTotal, exWarnPores]⟩) rfl
    (exWarnRock_gives _ _) (fun _ => by norm_num [Published.Rock.Valid]) (.nil _) fun i => ⟨by norm_num, ?_, ?_⟩⟩
  · norm_num [quartzRock]
  · obtain rfl : i = 0 := Subsingleton.elim _ _
    simp only [Published.wood, poreRow, exWarnPores, List.map_cons, List.map_nil, List.sum_cons, List.sum_nil, zero_div,
      zero_mul, add_zero, quartzRock]
    simpa using hK.2

/-- The bubble point of the oil of the examples. -/
theorem exWarn_bubble : 1e5 < Published.bubblePoint 75 1000 1 1 ∧ Published.bubblePoint 75 1000 1 1 < 120e6 := by
  unfold Published.bubblePoint
  have e : ((1:ℝ) / 1) ^ (0.83:ℝ) = 1 := by simp
  rw [e, mul_one]
  have h1 : Real.exp (0.00377 * 75 - 4072 / 1000) ≤ 1 := Real.exp_le_one_iff.mpr (by norm_num)
  have h2 : Real.exp (-4) ≤ Real.exp (0.00377 * 75 - 4072 / 1000) := Real.exp_le_exp.mpr (by norm_num)
  have h3 : (1 / 81 : ℝ) ≤ Real.exp (-4) := by
    have : Real.exp 4 ≤ 81 := by
      have h := Real.exp_one_lt_three
      have e4 : Real.exp 4 = Real.exp 1 ^ 4 := by rw [← Real.exp_nat_mul]; norm_num
      rw [e4]
      calc Real.exp 1 ^ 4 ≤ 3 ^ 4 := pow_le_pow_left₀ (Real.exp_pos 1).le (by linarith) 4
        _ = 81 := by norm_num
    rw [Real.exp_neg, one_div]
    exact inv_anti₀ (Real.exp_pos 4) this
  constructor <;> linarith

/-- The oils of the examples. -/
theorem exWarn_oils (first : Pore 1) (hf : ∀ ρ R G, first.kind ≠ .oil ρ R G) (u v Q P : ℝ) :
    (exWarnRock (exWarnPores first u v Q) P).OilsGiven := by
  intro x hx ρ R G hk
  simp only [exWarnRock, exWarnPores, List.map_cons, List.map_nil, List.mem_cons, List.not_mem_nil, or_false] at hx
  rcases hx with rfl | rfl | rfl
  · exact absurd hk (hf _ _ _)
  · injection hk with h1 h2 h3
    exact ⟨_, _, _, h1.symm, h2.symm, h3.symm, fun _ => by norm_num⟩
  · cases hk

/-- Behind carbon dioxide, an oil above its bubble point is warned about, and a brine at 120 MPa is not. -/
theorem C149_refuted : ¬ WarnsExactly := by
  intro hall
  obtain ⟨r, hr⟩ := exWarn_run exWarn_filled_co2 (by norm_num [exWarnFirst])
  have ho := exWarn_oils exWarnFirst (by simp [exWarnFirst]) 1 0 120 120e6
  obtain ⟨h1, -⟩ := hall 1 exWarnCo2 _ r (fun _ => 75) (fun _ => 120e6) hr rfl rfl ho
  obtain ⟨h2, -⟩ := C149_shown exWarnCo2 (T := fun _ => 75) (P := fun _ => 120e6) hr rfl rfl ho
  have hs : Warning.Shown (exWarnRock (exWarnPores exWarnFirst 1 0 120) 120e6) (fun _ => 75) (fun _ => 120e6) .bubblePoint :=
    .bubblePoint (a := [_]) (x := ⟨_, _, _⟩) (b := [_]) rfl ⟨fun _ => 1000, fun _ => 1, fun _ => 1, rfl, 0, by
      have : carbonDioxides [FluidKind.carbonDioxide (n := 1) false] = 1 := rfl
      show (120e6 : ℝ) / 1e6 ^ carbonDioxides [FluidKind.carbonDioxide (n := 1) false] < _
      rw [this]
      have := exWarn_bubble.1
      norm_num at this ⊢
      linarith⟩
  cases (h1 _).mp ((h2 _).mpr hs) with
  | bubblePoint hx hb =>
    obtain ⟨r', R', G', hk, i, hi⟩ := hb
    simp only [exWarnRock, exWarnPores, exWarnFirst, List.map_cons, List.map_nil, List.mem_cons, List.not_mem_nil,
      or_false] at hx
    rcases hx with rfl | rfl | rfl
    · cases hk
    · injection hk with k1 k2 k3
      rw [← finC_injective k1, ← finC_injective k2, ← finC_injective k3] at hi
      exact absurd hi (by have := exWarn_bubble.2; exact this.le.not_gt)
    · cases hk

/-- The missing half: brine at 120 MPa behind carbon dioxide is not warned about. -/
theorem C149_refuted_brine : ∃ r, calculate exWarnCo2 (exWarnRock (exWarnPores exWarnFirst 1 0 120) 120e6) = .ok r ∧
    Warning.Due (exWarnRock (exWarnPores exWarnFirst 1 0 120) 120e6) (fun _ => 75) (fun _ => 120e6)
      (.waterPressure (.fin (120e6 * 1e-6))) ∧
    ∀ p, .waterPressure p ∉ warningsShown exWarnCo2 (exWarnRock (exWarnPores exWarnFirst 1 0 120) 120e6) := by
  obtain ⟨r, hr⟩ := exWarn_run exWarn_filled_co2 (by norm_num [exWarnFirst])
  obtain ⟨h2, -⟩ := C149_shown exWarnCo2 (T := fun _ => 75) (P := fun _ => 120e6) hr rfl rfl
    (exWarn_oils exWarnFirst (by simp [exWarnFirst]) 1 0 120 120e6)
  refine ⟨r, hr, .waterPressure (x := ⟨.brine (finC fun _ => 0), none, some (finC fun _ => 0)⟩) (i := 0)
    (by simp [exWarnRock, exWarnPores]) rfl (by norm_num), fun p hp => ?_⟩
  have hs := (h2 _).mp hp
  cases hs with
  | @waterPressure a b x hx c hk i hi =>
    simp only [exWarnRock, exWarnPores, exWarnFirst, List.map_cons, List.map_nil] at hx
    rcases a with _ | ⟨a1, _ | ⟨a2, _ | ⟨a3, a⟩⟩⟩
    · injection hx with e1 e2; subst e1; cases hk
    · injection hx with e1 e2; injection e2 with e3 e4; subst e3; cases hk
    · injection hx with e1 e2; injection e2 with e3 e4
      subst e1 e3
      simp only [List.map_cons, List.map_nil, carbonDioxides, List.countP_cons, List.countP_nil] at hi
      norm_num at hi
    · have := congrArg List.length hx
      simp at this
  | adjustments h hw => simp at hw

theorem exWarn_filled : (exWarnRock (exWarnPores exWarnWater 1 0 1e5) 1e5).Filled exWarnCo2 (fun _ => 75)
    (fun _ => 1e5) (exWarnPores exWarnWater 1 0 1e5) (fun _ => 1e5) := by
  refine ⟨rfl, rfl, by simp [exWarnPores], ?_, ?_, fun i => by norm_num [poreTotal, exWarnPores]⟩
  · refine .explicit rfl ⟨rfl, rfl, rfl, fun _ => by norm_num [exWarnWater]⟩ ?_
    exact .plain (.oil _ _ _ (fun _ => by norm_num) (fun _ => by norm_num) (fun _ => by norm_num) (fun _ => by norm_num)
      fun _ => by norm_num) (by decide) (.plain (.brine _ (fun _ => by norm_num) (fun _ => by norm_num) fun _ => by norm_num)
      (by decide) (.nil _))
  · intro z hz i
    simp only [exWarnPores, List.mem_cons, List.not_mem_nil, or_false] at hz
    rcases hz with rfl | rfl | rfl <;> norm_num

/-- A finished calculation within the hypotheses, with an oil below its bubble point: the warning is shown. -/
example : ∃ r, calculate exWarnCo2 (exWarnRock (exWarnPores exWarnWater 1 0 1e5) 1e5) = .ok r ∧
    .bubblePoint ∈ warningsShown exWarnCo2 (exWarnRock (exWarnPores exWarnWater 1 0 1e5) 1e5) := by
  obtain ⟨r, hr⟩ := exWarn_run exWarn_filled (by norm_num [exWarnWater])
  refine ⟨r, hr, ((C149_partial exWarnCo2 (T := fun _ => 75) (P := fun _ => 1e5) hr rfl rfl
    (exWarn_oils _ (by simp [exWarnWater]) _ _ _ _) ?_).1 _).mpr (.bubblePoint
      (x := ⟨.oil (finC fun _ => 1000) (finC fun _ => 1) (finC fun _ => 1), none, some (finC fun _ => 0)⟩)
      (by simp [exWarnRock, exWarnPores]) ⟨_, _, _, rfl, 0, exWarn_bubble.1⟩)⟩
  intro a x b e _ y hy i hi
  have : y ∈ (exWarnRock (exWarnPores exWarnWater 1 0 1e5) 1e5).fluids := by rw [e]; simp [hy]
  simp only [exWarnRock, exWarnPores, exWarnWater, List.map_cons, List.map_nil, List.mem_cons, List.not_mem_nil,
    or_false] at this
  rcases this with rfl | rfl | rfl <;> cases hi

end OPE
