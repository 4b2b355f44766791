import Verif.Props.Stiffening
import Verif.Props.Replace2
import Verif.Props.Trends2
import Verif.Props.Published7

/-!
# Stiffer and heavier pore fluids, saltier brine: the whole calculation (C180)
-/

namespace OPE

open Classical

variable {n : ℕ}

/-! ### One row -/

theorem wood_heavier {L L' : List (Published.Fluid × ℝ)}
    (h : List.Forall₂ (fun x y => x.1.ρ ≤ y.1.ρ ∧ 0 ≤ x.2 ∧ x.2 = y.2) L L') :
    (Published.wood L).ρ ≤ (Published.wood L').ρ := by
  have e : (L.map fun x => x.2).sum = (L'.map fun x => x.2).sum ∧ 0 ≤ (L.map fun x => x.2).sum := by
    induction h with
    | nil => simp
    | cons hx _ ih =>
      simp only [List.map_cons, List.sum_cons]
      exact ⟨by rw [ih.1, hx.2.2], add_nonneg hx.2.1 ih.2⟩
  unfold Published.wood
  dsimp only
  rw [← e.1]
  have hS := e.2
  clear e
  generalize (L.map fun x => x.2).sum = S at hS
  induction h with
  | nil => simp
  | @cons x y L L' hx _ ih =>
    simp only [List.map_cons, List.sum_cons]
    refine add_le_add ?_ ih
    rw [← hx.2.2]
    exact mul_le_mul_of_nonneg_left hx.1 (div_nonneg hx.2.1 hS)

/-! ### Constituents -/

/-- The same amount, on the same side (gas or not), of a fluid at least as stiff and as heavy in every row. -/
def PoreStiffer (z z' : Pore n) : Prop :=
  (z'.kind.IsGas ↔ z.kind.IsGas) ∧ z'.sat = z.sat ∧ ∀ i, (z.fluid i).K ≤ (z'.fluid i).K ∧ (z.fluid i).ρ ≤ (z'.fluid i).ρ

theorem PoreStiffer.rows {L L' : List (Pore n)} (h : List.Forall₂ PoreStiffer L L')
    (hL : ∀ z ∈ L, ∀ i, 0 < (z.fluid i).K ∧ 0 ≤ z.sat i) (i : Fin n) :
    List.Forall₂ FluidStiffer (poreRow L i) (poreRow L' i) ∧
    List.Forall₂ (fun x y => x.1.ρ ≤ y.1.ρ ∧ 0 ≤ x.2 ∧ x.2 = y.2) (poreRow L i) (poreRow L' i) := by
  induction h with
  | nil => exact ⟨.nil, .nil⟩
  | @cons z z' L L' hz _ ih =>
    obtain ⟨a, b⟩ := ih fun w hw => hL w (List.mem_cons_of_mem _ hw)
    obtain ⟨k, s⟩ := hL z List.mem_cons_self i
    obtain ⟨-, e, hz⟩ := hz
    exact ⟨.cons ⟨k, (hz i).1, s, (congrFun e i).symm⟩ a, .cons ⟨(hz i).2, s, (congrFun e i).symm⟩ b⟩

theorem PoreStiffer.total {L L' : List (Pore n)} (h : List.Forall₂ PoreStiffer L L') : poreTotal L' = poreTotal L := by
  induction h with
  | nil => rfl
  | cons hz _ ih =>
    funext i
    have := congrFun ih i
    simp only [poreTotal, List.map_cons, List.sum_cons] at this ⊢
    rw [this, hz.2.1]

theorem PoreStiffer.wet {L L' : List (Pore n)} (h : List.Forall₂ PoreStiffer L L') (hw : Wet L') : Wet L := by
  refine ⟨?_, fun i => by rw [← PoreStiffer.total h]; exact hw.2 i⟩
  rintro rfl
  cases h
  exact hw.1 rfl

theorem PoreStiffer.both {A A' B B' : List (Pore n)} (hA : List.Forall₂ PoreStiffer A A') (hB : List.Forall₂ PoreStiffer B B')
    (h : BothPhases A' B') : BothPhases A B := by
  obtain ⟨h1, h2, h3, h4, h5⟩ := h
  simp only [PoreStiffer.total hA, PoreStiffer.total hB] at h3 h4 h5
  refine ⟨?_, ?_, h3, h4, h5⟩
  · rintro rfl; cases hA; exact h1 rfl
  · rintro rfl; cases hB; exact h2 rfl

theorem poreRow_sum (L : List (Pore n)) (i : Fin n) : ((poreRow L i).map fun x => x.2).sum = poreTotal L i := by
  simp [poreRow, poreTotal, List.map_map, Function.comp_def]

theorem PoreStiffer.wood {L L' : List (Pore n)} (h : List.Forall₂ PoreStiffer L L')
    (hL : ∀ z ∈ L, ∀ i, 0 < (z.fluid i).K ∧ 0 ≤ z.sat i) (hw : Wet L) (i : Fin n) :
    (Published.wood (poreRow L i)).K ≤ (Published.wood (poreRow L' i)).K ∧
    (Published.wood (poreRow L i)).ρ ≤ (Published.wood (poreRow L' i)).ρ := by
  obtain ⟨a, b⟩ := PoreStiffer.rows h hL i
  exact ⟨wood_stiffer a (by rw [poreRow_sum]; exact lt_of_lt_of_le (by norm_num) (hw.2 i)), wood_heavier b⟩

theorem PoreStiffer.brie {A A' B B' : List (Pore n)} (hA : List.Forall₂ PoreStiffer A A') (hB : List.Forall₂ PoreStiffer B B')
    (hA0 : ∀ z ∈ A, ∀ i, 0 < (z.fluid i).K ∧ 0 ≤ z.sat i) (hB0 : ∀ z ∈ B, ∀ i, 0 < (z.fluid i).K ∧ 0 ≤ z.sat i)
    (h : BothPhases A B) {e : ℝ} (he : 0 < e) (i : Fin n) :
    (Published.brie (poreRow A i) (poreRow B i) e).K ≤ (Published.brie (poreRow A' i) (poreRow B' i) e).K ∧
    (Published.brie (poreRow A i) (poreRow B i) e).ρ ≤ (Published.brie (poreRow A' i) (poreRow B' i) e).ρ := by
  obtain ⟨a, b⟩ := PoreStiffer.rows hA hA0 i
  obtain ⟨a', b'⟩ := PoreStiffer.rows hB hB0 i
  have h0 : 0 ≤ poreTotal A i := List.sum_nonneg fun y hy => by
    obtain ⟨z, hz, rfl⟩ := List.mem_map.mp hy
    exact (hA0 z hz i).2
  constructor
  · refine brie_stiffer a a' he ?_ ?_ ?_
    · rw [poreRow_sum]; exact h0
    · rw [poreRow_sum]; exact h.total i
    · rw [poreRow_sum, poreRow_sum]
      exact (h.gas i).imp (fun q => lt_of_lt_of_le (by norm_num) q) id
  · unfold Published.brie
    dsimp only
    rw [poreRow_sum, poreRow_sum, PoreStiffer.total hA]
    exact add_le_add (mul_le_mul_of_nonneg_left (wood_heavier b) h0)
      (mul_le_mul_of_nonneg_left (wood_heavier b') (sub_nonneg.mpr (h.total i)))

/-- Mixing by the same method. -/
theorem PoreStiffer.mixes {s : Sections n} {L L' : List (Pore n)} (h : List.Forall₂ PoreStiffer L L')
    (hL : ∀ z ∈ L, ∀ i, 0 < (z.fluid i).K ∧ 0 ≤ z.sat i) {F' : Fin n → Published.Fluid} (hF : s.Mixes L' F') :
    ∃ F, (s.withPores L).Mixes L F ∧ ∀ i, (F i).K ≤ (F' i).K ∧ (F i).ρ ≤ (F' i).ρ := by
  have hlen := h.length_eq
  have hgas : (∀ x ∈ L', x.kind.IsGas) → ∀ x ∈ L, x.kind.IsGas := by
    intro hn x hx
    obtain ⟨i, hi, rfl⟩ := List.mem_iff_getElem.mp hx
    exact ((List.forall₂_iff_get.mp h).2 i hi (by omega)).1.mp (hn _ (List.getElem_mem _))
  have hno : (∀ x ∈ L', ¬ x.kind.IsGas) → ∀ x ∈ L, ¬ x.kind.IsGas := by
    intro hn x hx hg
    obtain ⟨i, hi, rfl⟩ := List.mem_iff_getElem.mp hx
    exact hn _ (List.getElem_mem _) (((List.forall₂_iff_get.mp h).2 i hi (by omega)).1.mpr hg)
  have wd : ∀ hw : Wet L', _ := fun hw => PoreStiffer.wood h hL (PoreStiffer.wet h hw)
  cases hF with
  | wood hm hw => exact ⟨_, .wood (s := s.withPores L) hm (PoreStiffer.wet h hw), wd hw⟩
  | brie hm e he he0 hg ht =>
    have hA : List.Forall₂ PoreStiffer (L.filter fun x => ¬ x.kind.IsGas) (L'.filter fun x => ¬ x.kind.IsGas) :=
      forall₂_filter h (fun x y hxy => by simp [hxy.1]) fun x y hxy _ => hxy
    have hB : List.Forall₂ PoreStiffer (L.filter fun x => x.kind.IsGas) (L'.filter fun x => x.kind.IsGas) :=
      forall₂_filter h (fun x y hxy => by simp [hxy.1]) fun x y hxy _ => hxy
    exact ⟨_, .brie (s := s.withPores L) hm e he he0 hg (PoreStiffer.both hA hB ht), PoreStiffer.brie hA hB
      (fun z hz => hL z (List.mem_filter.mp hz).1) (fun z hz => hL z (List.mem_filter.mp hz).1)
      (PoreStiffer.both hA hB ht) he0⟩
  | brieGiven hm e he he0 idx hg hd hr ht =>
    have hA : List.Forall₂ PoreStiffer (notAtPositions idx L) (notAtPositions idx L') :=
      forall₂_positions h (fun k => decide (k ∉ idx)) fun _ _ _ _ _ _ q => q
    have hB : List.Forall₂ PoreStiffer (atPositions idx L) (atPositions idx L') :=
      forall₂_positions h (fun k => decide (k ∈ idx)) fun _ _ _ _ _ _ q => q
    have sub : ∀ z, z ∈ notAtPositions idx L ∨ z ∈ atPositions idx L → z ∈ L := by
      intro z h
      rcases h with h | h
      all_goals
        obtain ⟨w, hw, rfl⟩ := List.mem_map.mp h
        exact List.mem_of_getElem? (List.mem_zipIdx_iff_getElem?.mp (List.mem_filter.mp hw).1)
    exact ⟨_, .brieGiven (s := s.withPores L) hm e he he0 idx hg hd (fun k hk => hlen ▸ hr k hk)
      (PoreStiffer.both hA hB ht), PoreStiffer.brie hA hB (fun z hz => hL z (sub z (.inl hz)))
      (fun z hz => hL z (sub z (.inr hz))) (PoreStiffer.both hA hB ht) he0⟩
  | brieNoGas hm e he hg hn hw =>
    exact ⟨_, .brieNoGas (s := s.withPores L) hm e he hg (hno hn) (PoreStiffer.wet h hw), wd hw⟩
  | brieAllGas hm e he hg hn hw =>
    exact ⟨_, .brieAllGas (s := s.withPores L) hm e he hg (hgas hn) (PoreStiffer.wet h hw), wd hw⟩
  | brieGivenNone hm e he hg hw =>
    exact ⟨_, .brieGivenNone (s := s.withPores L) hm e he hg (PoreStiffer.wet h hw), wd hw⟩
  | brieGivenAll hm e he idx hg hd hr hw =>
    exact ⟨_, .brieGivenAll (s := s.withPores L) hm e he idx hg hd (fun k => by rw [hr k, hlen]) (PoreStiffer.wet h hw),
      wd hw⟩

/-- A constituent of the fluids section after a change: the same, or brine with less salt, or an explicitly given
fluid no stiffer and no heavier in any row. -/
inductive Softened : FluidSpec n → FluidSpec n → Prop
  | same (x : FluidSpec n) : Softened x x
  | fresher (S S' : Fin n → ℝ) (model : Option Provider) (f : Option (Col n)) (h0 : ∀ i, 0 ≤ S' i) (h : ∀ i, S' i ≤ S i) :
      Softened ⟨.brine (finC S), model, f⟩ ⟨.brine (finC S'), model, f⟩
  | softer (m m' : Mat n) (F F' : Fin n → Published.Fluid) (model : Option Provider) (f : Option (Col n))
      (hm : m.IsFluid F) (hm' : m'.IsFluid F') (h : ∀ i, (F' i).K ≤ (F i).K ∧ (F' i).ρ ≤ (F i).ρ) :
      Softened ⟨.material m, model, f⟩ ⟨.material m', model, f⟩

theorem brine_fresher {T P S S' : ℝ} (hT : 0 ≤ T ∧ T ≤ 350) (hP : 0 ≤ P ∧ P ≤ 100e6) (h0 : 0 ≤ S') (h : S' ≤ S)
    (hS : S ≤ 300000) : (Published.brine T P S').K ≤ (Published.brine T P S).K ∧
      (Published.brine T P S').ρ ≤ (Published.brine T P S).ρ := by
  rcases h.lt_or_eq with h | rfl
  · obtain ⟨m, m', h1, h2, h3⟩ := C178_brine_stiffness_trends (n := 1) (fun _ => T) (fun _ => P) (fun _ => P) (fun _ => S')
      (fun _ => S) (fun _ => hT) (fun _ => ⟨hP.1, le_rfl, hP.2⟩) (fun _ => ⟨h0, h.le, hS⟩) (fun _ q => absurd q (lt_irrefl _))
    have d := C137_brine_density_trends hT.1 le_rfl hT.2 hP.1 le_rfl hP.2 h0 h.le hS (.inr (.inr h)) h2 h1
    have k := (h3 0 (.inr h)).2
    obtain ⟨d1, -, k1⟩ := (C93_water_and_brine (n := 1) (fun _ => T) (fun _ => P) (fun _ => S') m).1 (fun _ => h0) h1
    obtain ⟨d2, -, k2⟩ := (C93_water_and_brine (n := 1) (fun _ => T) (fun _ => P) (fun _ => S) m').1
      (fun _ => h0.trans h.le) h2
    rw [d1, d2] at d
    rw [k1, k2] at k
    simp only [finC_apply, Num.fin_lt] at d k
    exact ⟨k.le, d.le⟩
  · exact ⟨le_rfl, le_rfl⟩

theorem isFluid_unique {m : Mat n} {F F' : Fin n → Published.Fluid} (h : m.IsFluid F) (h' : m.IsFluid F') : F = F' := by
  funext i
  have e1 := congrFun (h.1.symm.trans h'.1) i
  have e2 := congrFun (h.2.1.symm.trans h'.2.1) i
  simp only [finC_apply, Num.fin_inj] at e1 e2
  cases hF : F i
  cases hF' : F' i
  simp_all

/-- The constituents after the change, with the fluids they describe. -/
theorem Fills.softened {co2 : CO2Model n} {pv : Provider} {T P P' : Fin n → ℝ} {L : List (Pore n)}
    (h : Fills co2 pv T P L P') : ∀ {fluids' : List (FluidSpec n)},
    List.Forall₂ Softened (L.map fun x => ⟨x.kind, x.model, some (finC x.sat)⟩) fluids' →
    ∃ L' : List (Pore n), fluids' = (L'.map fun x => ⟨x.kind, x.model, some (finC x.sat)⟩) ∧
      Fills co2 pv T P L' P' ∧ List.Forall₂ PoreStiffer L' L := by
  have refl : ∀ z : Pore n, PoreStiffer z z := fun z => ⟨Iff.rfl, rfl, fun i => ⟨le_rfl, le_rfl⟩⟩
  have both_no : ∀ (S S' : Col n), ((FluidKind.brine S).IsGas ↔ (FluidKind.brine S').IsGas) := fun S S' => Iff.rfl
  induction h with
  | nil P =>
    intro fl' hs
    cases hs
    exact ⟨[], rfl, .nil P, .nil⟩
  | @plain P P' x L h hp t ih =>
    intro fl' hs
    rw [List.map_cons] at hs
    obtain ⟨y, l, hy, hl, rfl⟩ := List.forall₂_cons_left_iff.mp hs
    obtain ⟨L', rfl, t', hL⟩ := ih hl
    obtain ⟨kind, model, fluid, sat⟩ := x
    cases hy with
    | same => exact ⟨_ :: L', rfl, .plain h hp t', .cons (refl _) hL⟩
    | fresher S S' _ _ h0 hS =>
      dsimp only at h
      generalize hk : FluidKind.brine (finC S) = k at h
      cases h with
      | brine S2 hT hP hS2 =>
        injection hk with hk
        have e : S = S2 := finC_injective hk
        subst e
        refine ⟨⟨.brine (finC S'), model, fun i => Published.brine (T i) (P i) (S' i), sat⟩ :: L', rfl,
          .plain (.brine S' hT hP fun i => ⟨h0 i, (hS i).trans (hS2 i).2⟩) hp t', .cons ⟨both_no _ _, rfl, fun i => ?_⟩ hL⟩
        exact brine_fresher (hT i) (hP i) (h0 i) (hS i) (hS2 i).2
      | _ => cases hk
    | softer m m' F F' _ _ hm hm' hle =>
      cases h with
      | material _ _ hF =>
        have e := isFluid_unique hm hF
        dsimp only at e
        subst e
        exact ⟨⟨.material m', model, F', sat⟩ :: L', rfl, .explicit rfl hm' t', .cons ⟨Iff.rfl, rfl, hle⟩ hL⟩
  | @explicit P P' x L m hk h t ih =>
    intro fl' hs
    rw [List.map_cons] at hs
    obtain ⟨y, l, hy, hl, rfl⟩ := List.forall₂_cons_left_iff.mp hs
    obtain ⟨L', rfl, t', hL⟩ := ih hl
    obtain ⟨kind, model, fluid, sat⟩ := x
    dsimp only at hk
    subst hk
    cases hy with
    | same => exact ⟨_ :: L', rfl, .explicit rfl h t', .cons (refl _) hL⟩
    | softer m m' F F' _ _ hm hm' hle =>
      have e := isFluid_unique hm h
      dsimp only at e
      subst e
      exact ⟨⟨.material m', model, F', sat⟩ :: L', rfl, .explicit rfl hm' t', .cons ⟨Iff.rfl, rfl, hle⟩ hL⟩
  | @carbonDioxide P P' x L interp m hk hp h hm t ih =>
    intro fl' hs
    rw [List.map_cons] at hs
    obtain ⟨y, l, hy, hl, rfl⟩ := List.forall₂_cons_left_iff.mp hs
    obtain ⟨L', rfl, t', hL⟩ := ih hl
    obtain ⟨kind, model, fluid, sat⟩ := x
    dsimp only at hk
    subst hk
    cases hy with
    | same => exact ⟨_ :: L', rfl, .carbonDioxide rfl hp h hm t', .cons (refl _) hL⟩

theorem Fills.positive {co2 : CO2Model n} {pv : Provider} {T P P' : Fin n → ℝ} {L : List (Pore n)}
    (h : Fills co2 pv T P L P') : ∀ z ∈ L, ∀ i, 0 < (z.fluid i).K := by
  obtain ⟨Q, q1, q2, -⟩ := h.materialsOf
  intro z hz i
  rw [← q1] at hz
  obtain ⟨q, hq, rfl⟩ := List.mem_map.mp hz
  exact ((q2 q hq).2.2.2 i).1

/-- **C180.** In a run that goes through, with any dry rock and any adjustments: if brine is made fresher, or an
explicitly given fluid softer and lighter, in any constituents and rows, everything else the same, the run still goes
through, and the saturated rock is no stiffer and no heavier in any row, while minerals, dry rock, dense packing and
shear modulus are the same. -/
theorem C180_calculation (co2 : CO2Model n) {s : Sections n} {pores : List (Pore n)}
    {x : Mat n × (Fin n → Published.Rock) × (Fin n → ℝ)} {L : RockList n} {ob rf rk P : Fin n → ℝ}
    {mx : Option (Fin n → ℝ)} (hs : s.Says x L ob rf rk P mx) (hx : x.1.Coherent) {T P' : Fin n → ℝ}
    (hp : s.Filled co2 T P pores P') {F : Fin n → Published.Fluid} (hF : s.Mixes pores F)
    {φ : Fin n → ℝ} (hφ : s.porosity = finC φ) {sand dry dense : Fin n → Published.Rock}
    (hmodel : s.sandModel.Gives (mineralAt x L) φ (effectiveAt mx ob rk) sand dense) (hv : ∀ i, (sand i).Valid)
    (hadj : Adjusts (mineralAt x L) φ (effectiveAt mx ob rk) (effectiveAt mx ob rf) rk s.adjustments sand dry)
    (hrow : ∀ i, 0 < φ i ∧ (dry i).K < (dense i).K ∧ (F i).K < (dense i).K)
    {fluids' : List (FluidSpec n)} (hsoft : List.Forall₂ Softened s.fluids fluids') :
    ∃ r r', calculate co2 s = .ok r ∧ calculate co2 { s with fluids := fluids' } = .ok r' ∧
      r'.kmin = r.kmin ∧ r'.kdry = r.kdry ∧ r'.kminFls = r.kminFls ∧ r'.mysat = r.mysat ∧
      ∀ i, r'.ksat i ≤ r.ksat i ∧ r'.rsat i ≤ r.rsat i := by
  rw [hp.fluids] at hsoft
  obtain ⟨pores', rfl, hfill, hst⟩ := hp.fills.softened hsoft
  have hsat : ∀ z ∈ pores', ∀ i, 0 ≤ z.sat i := by
    intro z hz i
    obtain ⟨k, hk, rfl⟩ := List.mem_iff_getElem.mp hz
    have e := ((List.forall₂_iff_get.mp hst).2 k hk (by rw [← hst.length_eq]; exact hk)).2.1
    simp only [List.get_eq_getElem] at e
    rw [← e]
    exact hp.nonneg _ (List.getElem_mem _) i
  have hp' : (s.withPores pores').Filled co2 T P pores' P' := by
    refine ⟨rfl, hp.temperature, ?_, hfill, hsat, fun i => ?_⟩
    · rintro rfl
      cases hst
      exact hp.nonempty rfl
    · rw [← PoreStiffer.total hst]; exact hp.total i
  obtain ⟨F', hF', hle⟩ := PoreStiffer.mixes hst (fun z hz i => ⟨hfill.positive z hz i, hsat z hz i⟩) hF
  obtain ⟨h1, h2, h3⟩ := softer_fluid hs hx hp hF hp' hF' hφ hmodel hv hadj hrow fun i => (hle i).1
  refine ⟨_, _, h1, h2, rfl, rfl, rfl, rfl, fun i => ⟨Num.fin_le.mpr (h3 i), Num.fin_le.mpr ?_⟩⟩
  have := mul_le_mul_of_nonneg_left (hle i).2 (hrow i).1.le
  dsimp only
  linarith

/-! ### Witness -/

/-- The default brine and an explicitly given oil. -/
noncomputable def exSaltyPores : List (Pore 2) :=
  [⟨.brine (finC fun _ => 50000), none, fun _ => Published.brine 80 70e6 50000, fun _ => 0.8⟩,
   ⟨.material (Mat.ofReal (fun _ => 1.2e9) (fun _ => 0) (fun _ => 800)), none, fun _ => ⟨1.2e9, 800⟩, fun _ => 0.2⟩]

noncomputable def exSalty : Sections 2 :=
  { (exThreeRock .wood).withPores exSaltyPores with
    temperature := finC fun _ => 80
    overburden := finC fun _ => 100e6
    fluidPressure := some (finC fun _ => 70e6) }

/-- A tenth of the salt left in the first row, and a softer oil. -/
example (co2 : CO2Model 2) : ∃ r r', calculate co2 exSalty = .ok r ∧
    calculate co2 { exSalty with fluids := [⟨.brine (finC ![5000, 50000]), none, some (finC fun _ => 0.8)⟩,
      ⟨.material (Mat.ofReal (fun _ => 1.1e9) (fun _ => 0) (fun _ => 790)), none, some (finC fun _ => 0.2)⟩] } = .ok r' ∧
    r'.kdry = r.kdry ∧ ∀ i, r'.ksat i ≤ r.ksat i ∧ r'.rsat i ≤ r.rsat i := by
  have hq : quartzRock.Valid := by norm_num [Published.Rock.Valid, quartzRock]
  obtain ⟨b1, b2⟩ := defaultBrine_K
  obtain ⟨r, r', h1, h2, -, h3, -, -, h4⟩ := C180_calculation co2 (s := exSalty) (pores := exSaltyPores)
    (x := (Mat.ofReal (fun _ => 36.8e9) (fun _ => 44e9) (fun _ => 2650), (fun _ => quartzRock), fun _ => 1)) (L := [])
    (ob := fun _ => 100e6) (rf := fun _ => 40e6) (rk := fun _ => 70e6) (P := fun _ => 70e6) (mx := none)
    ⟨rfl, by
      intro y hy
      rw [List.mem_singleton.mp hy]
      exact ⟨⟨rfl, rfl, rfl, fun _ => hq⟩, fun _ => by norm_num⟩, fun _ => by norm_num, rfl, rfl, rfl, rfl, rfl⟩
    (mkModuli_coherent (mkModuli_rock (n := 2) (r := fun _ => quartzRock) fun _ => hq))
    (T := fun _ => 80) (P' := fun _ => 70e6)
    ⟨rfl, rfl, by simp [exSaltyPores], .plain (.brine _ (fun _ => by norm_num) (fun _ => by norm_num) fun _ => by norm_num)
        (by simp [exSalty, exThreeRock, Sections.withPores]) (.explicit rfl ⟨rfl, rfl, rfl, fun _ => by norm_num⟩ (.nil _)), by
      intro z hz i
      simp only [exSaltyPores, List.mem_cons, List.not_mem_nil, or_false] at hz
      rcases hz with rfl | rfl <;> norm_num, fun i => by norm_num [poreTotal, exSaltyPores]⟩
    (.wood rfl ⟨by simp [exSaltyPores], fun i => by norm_num [poreTotal, exSaltyPores]⟩) (φ := fun _ => 0.2) rfl
    (sand := fun _ => ⟨12e9, 10e9, 2000⟩) (dense := fun _ => quartzRock) (dry := fun _ => ⟨12e9, 10e9, 2000⟩)
    (by
      have row : ∀ a b x y : ℝ, surface (rowCoeffs a b) x y = a + b * y := rowCoeffs_sum
      have hsand : surfaceModuli (rowCoeffs 2000 0) (rowCoeffs 12e9 0) (rowCoeffs 10e9 0) quartzRock 0.2
          = ⟨12e9, 10e9, 2000⟩ := by simp only [surfaceModuli, row, zero_mul, add_zero]
      have := SandModel.Gives.moduli (a := fun _ : Fin 2 => quartzRock) (φ := fun _ => 0.2)
        (p := effectiveAt none (fun _ => 100e6) (fun _ => 70e6)) (some (rowCoeffs 2000 0)) (some (rowCoeffs 12e9 0))
        (some (rowCoeffs 10e9 0))
      simp only [Option.getD_some, hsand] at this
      exact this)
    (fun _ => by norm_num [Published.Rock.Valid]) (.nil _)
    (fun i => ⟨by norm_num, by norm_num [quartzRock], by
      simp only [quartzRock, Published.wood, poreRow, exSaltyPores, List.map_cons, List.map_nil, List.sum_cons, List.sum_nil]
      norm_num only
      have p3 : 4 / 5 / 6e9 ≤ 4 / 5 / (Published.brine 80 70e6 50000).K := by gcongr
      norm_num only at p3 b1 b2 ⊢
      rw [inv_lt_comm₀ (by linarith) (by norm_num)]
      norm_num only
      linarith⟩)
    (.cons (.fresher (fun _ => 50000) ![5000, 50000] none _ (fun i => by fin_cases i <;> norm_num)
        fun i => by fin_cases i <;> norm_num)
      (.cons (.softer (Mat.ofReal (fun _ => 1.2e9) (fun _ => 0) (fun _ => 800))
        (Mat.ofReal (fun _ => 1.1e9) (fun _ => 0) (fun _ => 790)) (fun _ => ⟨1.2e9, 800⟩) (fun _ => ⟨1.1e9, 790⟩) none _ ⟨rfl, rfl, rfl, fun _ => by norm_num⟩
        ⟨rfl, rfl, rfl, fun _ => by norm_num⟩ fun _ => by norm_num) .nil))
  exact ⟨r, r', h1, h2, h3, h4⟩

end OPE
