import Verif.Props.Fractions

/-!
# C110: an omitted fraction is the same as writing down what the others leave
-/

namespace OPE

open Classical

variable {n : ℕ}

theorem getD_total (fs : List (Option (Fin n → ℝ))) (x : Fin n → ℝ) (i : Fin n) :
    givenTotal (fs.map fun f => some (f.getD x)) i = givenTotal fs i + fs.countP (·.isNone) * x i := by
  unfold givenTotal
  induction fs with
  | nil => simp
  | cons f fs ih =>
    cases f with
    | none => simp at ih ⊢; rw [ih]; ring
    | some f => simp at ih ⊢; rw [ih]; ring

theorem countP_isNone {fs : List (Option (Fin n → ℝ))} (h : fs.countP (·.isNone) ≤ 1) :
    fs.countP (·.isNone) = if none ∈ fs then 1 else 0 := by
  have hnone : none ∈ fs ↔ 0 < fs.countP (·.isNone) := by
    rw [List.countP_pos_iff]
    exact ⟨fun h => ⟨none, h, rfl⟩, fun ⟨a, h1, h2⟩ => by rw [Option.isNone_iff_eq_none] at h2; exact h2 ▸ h1⟩
  split
  · rename_i h1; have := hnone.mp h1; omega
  · rename_i h1; by_contra h2; exact h1 (hnone.mpr (by omega))

/-- The fractions with the omitted one written down. -/
def writtenOut (fs : List (Option (Fin n → ℝ))) : List (Option (Fin n → ℝ)) :=
  fs.map fun f => some (filledFraction fs f)

theorem writtenOut_total {fs : List (Option (Fin n → ℝ))} (h : fs.countP (·.isNone) ≤ 1) (i : Fin n) :
    givenTotal (writtenOut fs) i = if none ∈ fs then 1 else givenTotal fs i := by
  unfold writtenOut filledFraction
  rw [getD_total, countP_isNone h]
  split <;> simp

theorem none_not_writtenOut (fs : List (Option (Fin n → ℝ))) : none ∉ writtenOut fs := by simp [writtenOut]

theorem writtenOut_acceptable {fs : List (Option (Fin n → ℝ))} (h : fs.countP (·.isNone) ≤ 1) :
    AcceptableFractions (writtenOut fs) ↔ AcceptableFractions fs := by
  unfold AcceptableFractions
  have c0 : (writtenOut fs).countP (·.isNone) = 0 := by
    rw [List.countP_eq_zero]
    intro f hf
    obtain ⟨g, -, rfl⟩ := List.mem_map.mp hf
    simp
  have hne : writtenOut fs ≠ [] ↔ fs ≠ [] := by simp [writtenOut]
  simp only [writtenOut_total h, c0, none_not_writtenOut, hne]
  by_cases hn : none ∈ fs
  · simp only [hn, if_true, true_imp_iff, false_imp_iff, and_true, Nat.zero_le]
    constructor
    · rintro ⟨h1, h2, -⟩
      have hm : ∀ i, -1e-5 ≤ 1 - givenTotal fs i ∧ 1 - givenTotal fs i ≤ 1 + 1e-5 :=
        h2 (fun i => 1 - givenTotal fs i) (List.mem_map.mpr ⟨none, hn, rfl⟩)
      refine ⟨h1, fun f hf => h2 f (List.mem_map.mpr ⟨some f, hf, rfl⟩), fun i => ?_, h, fun i => ?_⟩
      · linarith [(hm i).1]
      · linarith [(hm i).2]
    · rintro ⟨h1, h2, h3, -, h5⟩
      refine ⟨h1, fun f hf i => ?_, fun i => by norm_num⟩
      obtain ⟨g, hg, e⟩ := List.mem_map.mp hf
      injection e with e
      cases g with
      | none =>
        have e : (fun i => 1 - givenTotal fs i) = f := e
        subst e
        constructor <;> linarith [h3 i, h5 i]
      | some g =>
        have e : g = f := e
        subst e
        exact h2 _ hg i
  · have e : ∀ f, some f ∈ writtenOut fs ↔ some f ∈ fs := by
      intro f
      unfold writtenOut
      rw [List.mem_map]
      constructor
      · rintro ⟨g, hg, e⟩
        cases g with
        | none => exact absurd hg hn
        | some g => injection e with e; have e : g = f := e; subst e; exact hg
      · exact fun hf => ⟨some f, hf, rfl⟩
    simp only [hn, if_false, e, false_imp_iff, and_true, Nat.zero_le, h]

theorem filled_writtenOut (fs : List (Option (Fin n → ℝ))) (f : Option (Fin n → ℝ)) :
    filledFraction (writtenOut fs) (some (filledFraction fs f)) = filledFraction fs f := rfl

theorem mkFluids_brieGases {T : Col n} {cs : List (FluidSpec n)} {method : MixMethod} {e : Num}
    {gases : Option (List ℤ)} {model : Provider} {f : Fluids n} (h : mkFluids T cs method e gases model = .ok f) :
    f.brieGases = gases.getD (defaultBrieGases cs) := by
  unfold mkFluids at h
  obtain ⟨_, -, h⟩ := bind_eq_ok.mp h
  obtain ⟨_, -, h⟩ := bind_eq_ok.mp h
  obtain ⟨_, -, h⟩ := bind_eq_ok.mp h
  obtain ⟨_, -, h⟩ := bind_eq_ok.mp h
  injection h with h
  subst h
  rfl

theorem defaultBrieGases_kinds (L : List (FluidGiven n)) (u v : FluidGiven n → Option (Col n)) :
    defaultBrieGases (L.map fun x => (⟨x.kind, x.model, u x⟩ : FluidSpec n))
      = defaultBrieGases (L.map fun x => (⟨x.kind, x.model, v x⟩ : FluidSpec n)) := by
  unfold defaultBrieGases
  simp only [List.zipIdx_map, List.filter_map, List.map_map]
  rfl

/-- The sections with omitted fractions written down. -/
def Sections.writeOut (s : Sections n) (M : List (MineralGiven n)) (F : List (FluidGiven n)) : Sections n :=
  { s with
    minerals := M.map fun x => ⟨x.mat, some (finC (filledFraction (M.map (·.fraction)) x.fraction))⟩
    fluids := F.map fun x => ⟨x.kind, x.model, some (finC (filledFraction (F.map (·.fraction)) x.fraction))⟩ }

/-- **C110.** If at most one mineral and at most one fluid has no fraction, the calculation (its table or its
error) is the same as with the fraction written down that the others leave. -/
theorem C110_omitted_fractions (co2 : CO2Model n) (s : Sections n) (M : List (MineralGiven n)) (F : List (FluidGiven n))
    (hM : s.minerals = M.map fun x => ⟨x.mat, x.fraction.map finC⟩)
    (hF : s.fluids = F.map fun x => ⟨x.kind, x.model, x.fraction.map finC⟩)
    (h1 : (M.map (·.fraction)).countP (·.isNone) ≤ 1) (h2 : (F.map (·.fraction)).countP (·.isNone) ≤ 1) :
    calculate co2 s = calculate co2 (s.writeOut M F) := by
  have e1 : mkMinerals s.minerals = mkMinerals (s.writeOut M F).minerals := by
    rw [hM]
    let M' : List (MineralGiven n) := M.map fun x => ⟨x.mat, some (filledFraction (M.map (·.fraction)) x.fraction)⟩
    have hM' : M'.map (·.fraction) = writtenOut (M.map (·.fraction)) := by
      simp [M', writtenOut]
    have hw : (s.writeOut M F).minerals = M'.map fun x => ⟨x.mat, x.fraction.map finC⟩ := by
      simp [Sections.writeOut, M']
    rw [hw]
    obtain ⟨a1, a2⟩ := C107_minerals M
    obtain ⟨b1, b2⟩ := C107_minerals M'
    have key : (AcceptableFractions (M'.map (·.fraction)) ∧ (none ∈ M'.map (·.fraction) ∨
        ∀ i, |givenTotal (M'.map (·.fraction)) i - 1| ≤ 2e-5)) ↔
        (AcceptableFractions (M.map (·.fraction)) ∧ (none ∈ M.map (·.fraction) ∨
        ∀ i, |givenTotal (M.map (·.fraction)) i - 1| ≤ 2e-5)) := by
      rw [hM', writtenOut_acceptable h1]
      simp only [none_not_writtenOut, writtenOut_total h1, false_or]
      by_cases hn : none ∈ M.map (·.fraction)
      · simp only [hn, if_true, true_or, and_true, sub_self, abs_zero]
        exact ⟨fun h => h.1, fun h => ⟨h, fun _ => by norm_num⟩⟩
      · simp only [hn, if_false, false_or]
    by_cases hk : AcceptableFractions (M.map (·.fraction)) ∧ (none ∈ M.map (·.fraction) ∨
        ∀ i, |givenTotal (M.map (·.fraction)) i - 1| ≤ 2e-5)
    · have hk' := key.mpr hk
      rw [a1 hk.1 hk.2, b1 hk'.1 hk'.2, hM']
      simp [M', filled_writtenOut]
    · rw [a2 hk, b2 fun h => hk (key.mp h)]
  have e2 : mkFluids s.temperature s.fluids s.mixMethod s.brieConstant s.brieGases s.fluidModel
      = mkFluids s.temperature (s.writeOut M F).fluids s.mixMethod s.brieConstant s.brieGases s.fluidModel := by
    rw [hF]
    let F' : List (FluidGiven n) := F.map fun x => ⟨x.kind, x.model, some (filledFraction (F.map (·.fraction)) x.fraction)⟩
    have hF' : F'.map (·.fraction) = writtenOut (F.map (·.fraction)) := by
      simp [F', writtenOut]
    have hw : (s.writeOut M F).fluids = F'.map fun x => ⟨x.kind, x.model, x.fraction.map finC⟩ := by
      simp [Sections.writeOut, F']
    have hw2 : (s.writeOut M F).fluids
        = F.map fun x => ⟨x.kind, x.model, some (finC (filledFraction (F.map (·.fraction)) x.fraction))⟩ := rfl
    obtain ⟨a1, a2⟩ := C107_fluids s.temperature F s.mixMethod s.brieConstant s.brieGases s.fluidModel
    obtain ⟨b1, b2⟩ := C107_fluids s.temperature F' s.mixMethod s.brieConstant s.brieGases s.fluidModel
    rw [hF', writtenOut_acceptable h2] at b1 b2
    by_cases hk : AcceptableFractions (F.map (·.fraction))
    · obtain ⟨f, f1, f2, f3, f4, f5, f6, -⟩ := a1 hk
      obtain ⟨g, g1, g2, g3, g4, g5, g6, -⟩ := b1 hk
      have hb := mkFluids_brieGases f1
      rw [← hw] at g1
      have hb' := mkFluids_brieGases g1
      rw [f1, g1]
      congr 1
      obtain ⟨_, _, _, _, _, _⟩ := f
      obtain ⟨_, _, _, _, _, _⟩ := g
      dsimp only at f2 f3 f4 f5 f6 g2 g3 g4 g5 g6 hb hb'
      rw [hw2, defaultBrieGases_kinds F _ (fun x => x.fraction.map finC)] at hb'
      subst f2 f3 f4 f5 f6 g2 g3 g4 g5 g6 hb hb'
      congr 1
      simp [F', filled_writtenOut]
    · rw [a2 hk, hw, b2 hk]
  unfold calculate mkInput
  rw [e1, e2]
  rfl

/-- The hypotheses are met by two minerals, one without fraction, and three fluids, one without. -/
example (m : Mat 2) : (([⟨m, some fun _ => 0.4⟩, ⟨m, none⟩] : List (MineralGiven 2)).map (·.fraction)).countP (·.isNone) ≤ 1 ∧
    (([⟨.brine (c 0), none, none⟩, ⟨.gas (c 0.6), none, some fun _ => 0.2⟩,
      ⟨.oil (c 850) (c 100) (c 0.7), none, some ![0.1, 0.3]⟩] : List (FluidGiven 2)).map (·.fraction)).countP
        (·.isNone) ≤ 1 := by
  simp

end OPE
