import Verif.Props.Replace
import Verif.Props.Continuity2

/-!
# Replacing a pore fluid by a softer one, with given gases (C148)

As Replace.lean, for Brie's mixing with `brie_gases` given.
-/

namespace OPE

open Classical

variable {n : ℕ}

theorem poreRow_total (M : List (Pore n)) (i : Fin n) : ((poreRow M i).map fun z => z.2).sum = poreTotal M i := by
  simp [poreRow, poreTotal, Function.comp_def]

/-- Brie's law when saturation is moved among the liquids or among the gases. -/
theorem brie_moved {A A' B B' : List (Pore n)} {x y : Pore n} {d : Fin n → ℝ} {e : ℝ} (he0 : 0 < e)
    (hK : ∀ z ∈ A ++ B, ∀ i, 0 < (z.fluid i).K ∧ 0 ≤ z.sat i) (hb : BothPhases A B)
    (h : Moved A A' x y d ∧ B' = B ∨ A' = A ∧ Moved B B' x y d)
    (hd : ∀ i, 0 ≤ d i * ((x.fluid i).K - (y.fluid i).K)) :
    BothPhases A' B' ∧ ∀ i, (Published.brie (poreRow A' i) (poreRow B' i) e).K ≤ (Published.brie (poreRow A i) (poreRow B i) e).K ∧
      ∃ w, 0 ≤ w ∧ (Published.brie (poreRow A' i) (poreRow B' i) e).ρ
        = (Published.brie (poreRow A i) (poreRow B i) e).ρ + w * (d i * ((y.fluid i).ρ - (x.fluid i).ρ)) := by
  have wood : ∀ {M M' : List (Pore n)}, Moved M M' x y d → (∀ z ∈ M, z ∈ A ++ B) → ∀ i, 1e-15 ≤ poreTotal M i →
      (Published.wood (poreRow M' i)).K ≤ (Published.wood (poreRow M i)).K ∧
      ∃ w, 0 ≤ w ∧ (Published.wood (poreRow M' i)).ρ
        = (Published.wood (poreRow M i)).ρ + w * (d i * ((y.fluid i).ρ - (x.fluid i).ρ)) := by
    intro M M' hM hsub i hw
    obtain ⟨h1, h2⟩ := hM.row (fun z hz i => (hK z (hsub z hz) i).1) (fun z hz i => (hK z (hsub z hz) i).2) i hw (hd i)
    have h0 : 0 < poreTotal M i := lt_of_lt_of_le (by norm_num) hw
    exact ⟨h1, 1 / poreTotal M i, by positivity, by rw [h2]; ring⟩
  have ne : ∀ {M M' : List (Pore n)}, Moved M M' x y d → M' ≠ [] := by
    intro M M' hM
    obtain ⟨A, B, C, -, rfl⟩ := hM.lists
    simp
  have hS : ∀ i, 0 ≤ poreTotal A i := fun i => (hb.liquid i).elim (le_trans (by norm_num)) ge_of_eq
  rcases h with ⟨m, rfl⟩ | ⟨rfl, m⟩
  · refine ⟨⟨ne m, hb.gases, fun i => by rw [m.total]; exact hb.total i,
      fun i => by rw [m.total]; exact hb.liquid i, fun i => by rw [m.total]; exact hb.gas i⟩, fun i => ?_⟩
    unfold Published.brie
    dsimp only
    rw [poreRow_total, poreRow_total, m.total]
    rcases hb.liquid i with hl1 | hl1
    · obtain ⟨k1, w, hw, k2⟩ := wood m (fun z hz => List.mem_append_left _ hz) i hl1
      have hp0 : 0 ≤ poreTotal A i ^ e := Real.rpow_nonneg (hS i) _
      refine ⟨?_, poreTotal A i * w, mul_nonneg (hS i) hw, ?_⟩
      · nlinarith [mul_nonneg hp0 (sub_nonneg.mpr k1)]
      · rw [k2]; ring
    · rw [hl1, Real.zero_rpow he0.ne']
      exact ⟨by linarith, 0, le_rfl, by ring⟩
  · refine ⟨⟨hb.liquids, ne m, hb.total, hb.liquid, fun i => by rw [m.total]; exact hb.gas i⟩, fun i => ?_⟩
    unfold Published.brie
    dsimp only
    rw [poreRow_total]
    rcases hb.gas i with hg1 | hg1
    · obtain ⟨k1, w, hw, k2⟩ := wood m (fun z hz => List.mem_append_right _ hz) i hg1
      have hp1 : poreTotal A' i ^ e ≤ 1 := Real.rpow_le_one (hS i) (hb.total i) he0.le
      refine ⟨?_, (1 - poreTotal A' i) * w, mul_nonneg (by linarith [hb.total i]) hw, ?_⟩
      · nlinarith [mul_nonneg (sub_nonneg.mpr hp1) (sub_nonneg.mpr k1)]
      · rw [k2]; ring
    · rw [hg1, Real.one_rpow]
      exact ⟨by linarith, 0, le_rfl, by ring⟩

/-- Selecting constituents by their positions: both are selected, or none. -/
theorem Moved.positions {A B C : List (Pore n)} {x y : Pore n} {d : Fin n → ℝ} (hl : ∀ i, d i ≤ x.sat i)
    (hr : ∀ i, -(y.sat i) ≤ d i) (p : ℕ → Bool) (hxy : p A.length = p (A.length + 1 + B.length)) :
    let L := A ++ x :: (B ++ y :: C)
    let L' := A ++ { x with sat := fun i => x.sat i - d i } :: (B ++ { y with sat := fun i => y.sat i + d i } :: C)
    (p A.length = true → Moved ((L.zipIdx.filter fun z => p z.2).map (·.1)) ((L'.zipIdx.filter fun z => p z.2).map (·.1)) x y d) ∧
    (p A.length = false → (L'.zipIdx.filter fun z => p z.2).map (·.1) = (L.zipIdx.filter fun z => p z.2).map (·.1)) := by
  intro L L'
  have e : A.length + (B.length + 1) = A.length + 1 + B.length := by omega
  constructor
  · intro h
    rw [h] at hxy
    refine ⟨⟨(A.zipIdx.filter fun z => p z.2).map (·.1), ((B.zipIdx (A.length + 1)).filter fun z => p z.2).map (·.1),
      ((C.zipIdx (A.length + 1 + B.length + 1)).filter fun z => p z.2).map (·.1), ?_, ?_⟩, hl, hr⟩ <;>
      simp [L, L', List.zipIdx_append, List.zipIdx_cons, List.filter_append, List.filter_cons, h, ← hxy]
  · intro h
    rw [h] at hxy
    simp [L, L', List.zipIdx_append, List.zipIdx_cons, List.filter_append, List.filter_cons, h, ← hxy]

/-- **C148, one constituent for another, gases given.** As `C148_moved`, in Brie's mixing with the gases at the given
indices: `a` and `b` are both among them, or both not. -/
theorem C148_moved_given (co2 : CO2Model n) {s : Sections n} {A B C : List (Pore n)} {a b : Pore n} {d : Fin n → ℝ}
    {x : Mat n × (Fin n → Published.Rock) × (Fin n → ℝ)} {L : RockList n} {ob rf rk P : Fin n → ℝ}
    {mx : Option (Fin n → ℝ)} (hs : s.Says x L ob rf rk P mx) (hx : x.1.Coherent) {T P' : Fin n → ℝ}
    (hp : s.Filled co2 T P (A ++ a :: (B ++ b :: C)) P') {F : Fin n → Published.Fluid}
    (hF : s.Mixes (A ++ a :: (B ++ b :: C)) F)
    {φ : Fin n → ℝ} (hφ : s.porosity = finC φ) {sand dry dense : Fin n → Published.Rock}
    (hmodel : s.sandModel.Gives (mineralAt x L) φ (effectiveAt mx ob rk) sand dense) (hv : ∀ i, (sand i).Valid)
    (hadj : Adjusts (mineralAt x L) φ (effectiveAt mx ob rk) (effectiveAt mx ob rf) rk s.adjustments sand dry)
    (hrow : ∀ i, 0 < φ i ∧ (dry i).K < (dense i).K ∧ (F i).K < (dense i).K)
    (hleft : ∀ i, d i ≤ a.sat i) (hright : ∀ i, -(b.sat i) ≤ d i)
    (hbrie : s.mixMethod = .brie) (gases : List ℕ) (hgases : s.brieGases = some (gases.map fun k : ℕ => (k : ℤ)))
    (hside : A.length ∈ gases ↔ A.length + 1 + B.length ∈ gases)
    (hd : ∀ i, 0 ≤ d i * ((a.fluid i).K - (b.fluid i).K)) :
    ∃ r r', calculate co2 s = .ok r ∧
      calculate co2 (s.withPores (A ++ { a with sat := fun i => a.sat i - d i } ::
        (B ++ { b with sat := fun i => b.sat i + d i } :: C))) = .ok r' ∧
      r'.kmin = r.kmin ∧ r'.kdry = r.kdry ∧ r'.kminFls = r.kminFls ∧ r'.mysat = r.mysat ∧
      ∀ i, r'.ksat i ≤ r.ksat i ∧
        (d i * (b.fluid i).ρ ≤ d i * (a.fluid i).ρ → r'.rsat i ≤ r.rsat i) ∧
        (d i * (a.fluid i).ρ ≤ d i * (b.fluid i).ρ → r.rsat i ≤ r'.rsat i) := by
  set pores := A ++ a :: (B ++ b :: C) with hpores
  set pores' := A ++ { a with sat := fun i => a.sat i - d i } :: (B ++ { b with sat := fun i => b.sat i + d i } :: C)
    with hpores'
  have hmove : Moved pores pores' a b d := ⟨⟨A, B, C, rfl, rfl⟩, hleft, hright⟩
  have hlen : pores'.length = pores.length := by simp [pores, pores']
  have inj : Function.Injective fun l : List ℕ => l.map fun k : ℕ => (k : ℤ) :=
    List.map_injective_iff.mpr Nat.cast_injective
  have hmix : ∃ F', (s.withPores pores').Mixes pores' F' ∧ ∀ i, (F' i).K ≤ (F i).K ∧
      ∃ w, 0 ≤ w ∧ (F' i).ρ = (F i).ρ + w * (d i * ((b.fluid i).ρ - (a.fluid i).ρ)) := by
    have wood : ∀ i, 1e-15 ≤ poreTotal pores i →
        (Published.wood (poreRow pores' i)).K ≤ (Published.wood (poreRow pores i)).K ∧
        ∃ w, 0 ≤ w ∧ (Published.wood (poreRow pores' i)).ρ
          = (Published.wood (poreRow pores i)).ρ + w * (d i * ((b.fluid i).ρ - (a.fluid i).ρ)) := by
      intro i hw
      obtain ⟨h1, h2⟩ := hmove.row (fun z hz i => (hp.fills.pos hz i).1) hp.nonneg i hw (hd i)
      have h0 : 0 < poreTotal pores i := lt_of_lt_of_le (by norm_num) hw
      exact ⟨h1, 1 / poreTotal pores i, by positivity, by rw [h2]; ring⟩
    cases hF with
    | wood hm hw => rw [hbrie] at hm; cases hm
    | brie hm e he he0 hg hb => rw [hgases] at hg; cases hg
    | brieNoGas hm e he hg hn hw => rw [hgases] at hg; cases hg
    | brieAllGas hm e he hg hn hw => rw [hgases] at hg; cases hg
    | brieGivenNone hm e he hg hw => exact ⟨_, .brieGivenNone hm e he hg (hmove.wet hw), fun i => wood i (hw.2 i)⟩
    | brieGivenAll hm e he idx hg hd' hr hw =>
      exact ⟨_, .brieGivenAll hm e he idx hg hd' (fun k => by rw [hlen]; exact hr k) (hmove.wet hw), fun i => wood i (hw.2 i)⟩
    | brieGiven hm e he he0 idx hg hd' hr ht =>
      have : idx = gases := by
        rw [hgases] at hg
        injection hg with hg
        exact (inj hg).symm
      subst this
      have g := Moved.positions (C := C) hleft hright (fun k => decide (k ∈ idx)) (decide_eq_decide.mpr hside)
      have l := Moved.positions (C := C) hleft hright (fun k => decide (k ∉ idx)) (decide_eq_decide.mpr (not_congr hside))
      have key := brie_moved (A := notAtPositions idx pores) (A' := notAtPositions idx pores')
        (B := atPositions idx pores) (B' := atPositions idx pores') (x := a) (y := b) (d := d) he0
        (fun z hz i => by
          have hz' : z ∈ pores := by
            rcases List.mem_append.mp hz with h | h
            all_goals
              obtain ⟨w, hw, rfl⟩ := List.mem_map.mp h
              exact (List.mem_zipIdx_iff_getElem?.mp (List.mem_filter.mp hw).1) |> List.mem_of_getElem?
          exact ⟨(hp.fills.pos hz' i).1, hp.nonneg z hz' i⟩) ht
        (by
          by_cases h : A.length ∈ idx
          · exact .inr ⟨l.2 (by simpa using h), g.1 (by simpa using h)⟩
          · exact .inl ⟨l.1 (by simpa using h), g.2 (by simpa using h)⟩) hd
      exact ⟨_, .brieGiven (s := s.withPores pores') hm e he he0 idx hg hd' (fun k hk => by rw [hlen]; exact hr k hk) key.1, key.2⟩
  obtain ⟨F', hF', hle⟩ := hmix
  obtain ⟨h1, h2, h3⟩ := softer_fluid hs hx hp hF (hmove.filled hp) hF' hφ hmodel hv hadj hrow fun i => (hle i).1
  refine ⟨_, _, h1, h2, rfl, rfl, rfl, rfl, fun i => ⟨?_, fun h => ?_, fun h => ?_⟩⟩
  · exact Num.fin_le.mpr (h3 i)
  all_goals
    obtain ⟨-, w, hw, e⟩ := hle i
    refine Num.fin_le.mpr ?_
    dsimp only
    rw [e]
    have := (hrow i).1
  · nlinarith [mul_nonneg hw (sub_nonneg.mpr h), mul_nonneg this.le (mul_nonneg hw (sub_nonneg.mpr h))]
  · nlinarith [mul_nonneg hw (sub_nonneg.mpr h), mul_nonneg this.le (mul_nonneg hw (sub_nonneg.mpr h))]

/-! ### Gas for liquid -/

/-- `L'` is `L` with the saturations of all liquids multiplied by `t` and other saturations of the gases (those at the
positions `gases`): in each row those of `L` by a common factor, or any if there was no gas. -/
structure ExchangedAt (gases : List ℕ) (L L' : List (Pore n)) (t : Fin n → ℝ) : Prop where
  same : List.Forall₂ (fun z z' => z'.kind = z.kind ∧ z'.model = z.model ∧ z'.fluid = z.fluid) L L'
  liquids : ∀ i k z z', L[k]? = some z → L'[k]? = some z' → k ∉ gases → z'.sat i = t i * z.sat i
  gases : ∀ i, (∃ u, 0 < u ∧ ∀ k z z', L[k]? = some z → L'[k]? = some z' → k ∈ gases → z'.sat i = u * z.sat i) ∨
    ∀ k z, L[k]? = some z → k ∈ gases → z.sat i = 0

theorem forall₂_zipIdx {α β : Type} {R : α → β → Prop} {L : List α} {L' : List β} (h : List.Forall₂ R L L') (k : ℕ) :
    List.Forall₂ (fun x y => R x.1 y.1 ∧ x.2 = y.2 ∧ x ∈ L.zipIdx k ∧ y ∈ L'.zipIdx k) (L.zipIdx k) (L'.zipIdx k) := by
  induction h generalizing k with
  | nil => exact .nil
  | cons hxy _ ih =>
    rw [List.zipIdx_cons, List.zipIdx_cons]
    refine .cons ⟨hxy, rfl, List.mem_cons_self, List.mem_cons_self⟩ ((ih (k + 1)).imp fun x y h => ?_)
    exact ⟨h.1, h.2.1, List.mem_cons_of_mem _ h.2.2.1, List.mem_cons_of_mem _ h.2.2.2⟩

/-- Selecting by position from two lists. -/
theorem forall₂_positions {α β : Type} {R S : α → β → Prop} {L : List α} {L' : List β} (h : List.Forall₂ R L L')
    (p : ℕ → Bool) (hS : ∀ k x y, L[k]? = some x → L'[k]? = some y → p k = true → R x y → S x y) :
    List.Forall₂ S ((L.zipIdx.filter fun z => p z.2).map (·.1)) ((L'.zipIdx.filter fun z => p z.2).map (·.1)) := by
  rw [List.forall₂_map_left_iff, List.forall₂_map_right_iff]
  refine forall₂_filter (forall₂_zipIdx h 0) (fun x y h => by rw [h.2.1]) fun x y h hp => ?_
  exact hS x.2 x.1 y.1 (List.mem_zipIdx_iff_getElem?.mp h.2.2.1)
    (by rw [h.2.1]; exact List.mem_zipIdx_iff_getElem?.mp h.2.2.2) hp h.1

/-- Brie's law when all liquids are scaled down and all gases are scaled, or gases come where none were. -/
theorem brie_exchanged {A A' B B' : List (Pore n)} {t : Fin n → ℝ} {e : ℝ} (he0 : 0 < e) (ht : ∀ i, 0 ≤ t i ∧ t i ≤ 1)
    (hA : ∀ i, List.Forall₂ (fun z z' : Pore n => z'.fluid = z.fluid ∧ z'.sat i = t i * z.sat i) A A')
    (hB : List.Forall₂ (fun z z' : Pore n => z'.fluid = z.fluid) B B')
    (hBs : ∀ i, (∃ u, 0 < u ∧ List.Forall₂ (fun z z' : Pore n => z'.fluid = z.fluid ∧ z'.sat i = u * z.sat i) B B') ∨
      poreTotal B i = 0)
    (hK : ∀ z ∈ A ++ B ++ B', ∀ i, 0 < (z.fluid i).K ∧ 0 ≤ z.sat i) (hb : BothPhases A B) (hboth : BothPhases A' B')
    (i : Fin n) (hsoft : ∀ g ∈ B, ∀ l ∈ A, (g.fluid i).K ≤ (l.fluid i).K) :
    (Published.brie (poreRow A' i) (poreRow B' i) e).K ≤ (Published.brie (poreRow A i) (poreRow B i) e).K ∧
      ((∀ g ∈ B, ∀ l ∈ A, (g.fluid i).ρ ≤ (l.fluid i).ρ) →
        (Published.brie (poreRow A' i) (poreRow B' i) e).ρ ≤ (Published.brie (poreRow A i) (poreRow B i) e).ρ) := by
  have hrow : ∀ M : List (Pore n), (∀ z ∈ M, z ∈ A ++ B ++ B') → ∀ z ∈ poreRow M i, 0 < z.1.K ∧ 0 ≤ z.2 := by
    intro M hM z hz
    obtain ⟨w, hw, rfl⟩ := List.mem_map.mp hz
    exact hK w (hM w hw) i
  have old : ∀ z' ∈ B', ∃ z ∈ B, z'.fluid = z.fluid := by
    clear hBs hK hb hboth hsoft hrow
    induction hB with
    | nil => simp
    | cons hxy _ ih =>
      intro z' hz'
      rcases List.mem_cons.mp hz' with rfl | hz'
      · exact ⟨_, List.mem_cons_self, hxy⟩
      · obtain ⟨z, hz, e⟩ := ih z' hz'; exact ⟨z, List.mem_cons_of_mem _ hz, e⟩
  have hSA : poreTotal A' i = t i * poreTotal A i := by
    rw [← poreRow_total, poreRow_scaled (hA i), ← poreRow_total, List.map_map, ← List.sum_map_mul_left]
    rfl
  have hS0 : 0 ≤ poreTotal A i := (hb.liquid i).elim (le_trans (by norm_num)) ge_of_eq
  have hS' : 0 ≤ poreTotal A' i := by rw [hSA]; exact mul_nonneg (ht i).1 hS0
  have hle : poreTotal A' i ≤ poreTotal A i := by rw [hSA]; exact mul_le_of_le_one_left hS0 (ht i).2
  have hliq : poreTotal A' i = 0 ∨ Published.wood (poreRow A' i) = Published.wood (poreRow A i) := by
    by_cases h0 : t i = 0
    · left; rw [hSA, h0, zero_mul]
    · right; rw [poreRow_scaled (hA i), wood_scaled h0]
  have hgas : poreTotal A i = 1 ∨ Published.wood (poreRow B' i) = Published.wood (poreRow B i) := by
    rcases hb.gas i with h1 | h1
    · right
      rcases hBs i with ⟨u, hu, h2⟩ | h2
      · rw [poreRow_scaled h2, wood_scaled hu.ne']
      · rw [h2] at h1; norm_num at h1
    · exact .inl h1
  have cross : ∀ (f : Published.Fluid → ℝ), (∀ g ∈ B, ∀ l ∈ A, f (g.fluid i) ≤ f (l.fluid i)) →
      ∀ z ∈ poreRow B' i, ∀ w ∈ poreRow A i, f z.1 ≤ f w.1 := by
    intro f hR z hz w hw
    obtain ⟨z, hz1, rfl⟩ := List.mem_map.mp hz
    obtain ⟨w, hw1, rfl⟩ := List.mem_map.mp hw
    obtain ⟨z0, hz0, ez⟩ := old z hz1
    dsimp only
    rw [ez]
    exact hR z0 hz0 w hw1
  have pos : ∀ {a : ℝ}, 1e-15 ≤ a → 0 < a := fun h => lt_of_lt_of_le (by norm_num) h
  have hB'sub : ∀ z ∈ B', z ∈ A ++ B ++ B' := fun z hz => List.mem_append_right _ hz
  have hAsub : ∀ z ∈ A, z ∈ A ++ B ++ B' := fun z hz => List.mem_append_left _ (List.mem_append_left _ hz)
  unfold Published.brie
  dsimp only
  rw [poreRow_total, poreRow_total]
  constructor
  · refine between_le (Real.rpow_nonneg hS' _) (Real.rpow_le_rpow hS' hle he0.le) ?_ ?_ ?_
      (Real.rpow_le_one hS0 (hb.total i) he0.le)
    · rcases hliq with h | h
      · left; rw [h, Real.zero_rpow he0.ne']
      · right; rw [h]
    · rcases hboth.gas i with h | h
      · rcases hb.liquid i with h' | h'
        · right; right
          exact wood_le_wood (hrow B' hB'sub) (hrow A hAsub) (by rw [poreRow_total]; exact pos h)
            (by rw [poreRow_total]; exact pos h') (cross (·.K) hsoft)
        · right; left; rw [h', Real.zero_rpow he0.ne']
      · left; rw [h, Real.one_rpow]
    · rcases hgas with h | h
      · left; rw [h, Real.one_rpow]
      · right; rw [h]
  · intro hρ
    have key := between_le (a := (Published.wood (poreRow A i)).ρ) (b := (Published.wood (poreRow B i)).ρ)
      (a' := (Published.wood (poreRow A' i)).ρ) (b' := (Published.wood (poreRow B' i)).ρ) hS' hle
      (hliq.imp id fun h => by rw [h]) ?_ (hgas.imp id fun h => by rw [h]) (hb.total i)
    · linarith
    · rcases hboth.gas i with h | h
      · rcases hb.liquid i with h' | h'
        · right; right
          exact wood_density_le_wood (fun z hz => (hrow B' hB'sub z hz).2) (fun z hz => (hrow A hAsub z hz).2)
            (by rw [poreRow_total]; exact pos h) (by rw [poreRow_total]; exact pos h') (cross (·.ρ) hρ)
        · exact .inr (.inl h')
      · exact .inl h

/-- **C148, gas for liquid, gases given.** As `C148_gas_for_liquid`, with the gases at the given indices. -/
theorem C148_gas_for_liquid_given (co2 : CO2Model n) {s : Sections n} {pores pores' : List (Pore n)} {t : Fin n → ℝ}
    {x : Mat n × (Fin n → Published.Rock) × (Fin n → ℝ)} {L : RockList n} {ob rf rk P : Fin n → ℝ}
    {mx : Option (Fin n → ℝ)} (hs : s.Says x L ob rf rk P mx) (hx : x.1.Coherent) {T P' : Fin n → ℝ}
    (hp : s.Filled co2 T P pores P') {F : Fin n → Published.Fluid} (hF : s.Mixes pores F)
    {φ : Fin n → ℝ} (hφ : s.porosity = finC φ) {sand dry dense : Fin n → Published.Rock}
    (hmodel : s.sandModel.Gives (mineralAt x L) φ (effectiveAt mx ob rk) sand dense) (hv : ∀ i, (sand i).Valid)
    (hadj : Adjusts (mineralAt x L) φ (effectiveAt mx ob rk) (effectiveAt mx ob rf) rk s.adjustments sand dry)
    (hrow : ∀ i, 0 < φ i ∧ (dry i).K < (dense i).K ∧ (F i).K < (dense i).K)
    (hbrie : s.mixMethod = .brie) (gases : List ℕ) (hgases : s.brieGases = some (gases.map fun k : ℕ => (k : ℤ)))
    (hex : ExchangedAt gases pores pores' t) (ht : ∀ i, 0 ≤ t i ∧ t i ≤ 1) (hn' : ∀ z ∈ pores', ∀ i, 0 ≤ z.sat i)
    (hboth : BothPhases (notAtPositions gases pores') (atPositions gases pores'))
    (htotal : ∀ i, poreTotal pores' i ≤ 1 + 1e-5)
    (hsoft : ∀ g ∈ atPositions gases pores, ∀ l ∈ notAtPositions gases pores, ∀ i, (g.fluid i).K ≤ (l.fluid i).K) :
    ∃ r r', calculate co2 s = .ok r ∧ calculate co2 (s.withPores pores') = .ok r' ∧
      r'.kmin = r.kmin ∧ r'.kdry = r.kdry ∧ r'.kminFls = r.kminFls ∧ r'.mysat = r.mysat ∧
      ∀ i, r'.ksat i ≤ r.ksat i ∧
        ((∀ g ∈ atPositions gases pores, ∀ l ∈ notAtPositions gases pores, (g.fluid i).ρ ≤ (l.fluid i).ρ) →
          r'.rsat i ≤ r.rsat i) := by
  have hsame : SamePores pores pores' := hex.same
  have hlen : pores.length = pores'.length := hex.same.length_eq
  have inj : Function.Injective fun l : List ℕ => l.map fun k : ℕ => (k : ℤ) :=
    List.map_injective_iff.mpr Nat.cast_injective
  have hp' : (s.withPores pores').Filled co2 T P pores' P' := by
    refine ⟨rfl, hp.temperature, ?_, hp.fills.resat hsame, hn', htotal⟩
    rintro rfl
    exact hp.nonempty (List.forall₂_nil_right_iff.mp hex.same)
  have hA : ∀ i, List.Forall₂ (fun z z' : Pore n => z'.fluid = z.fluid ∧ z'.sat i = t i * z.sat i)
      (notAtPositions gases pores) (notAtPositions gases pores') := fun i =>
    forall₂_positions hex.same (fun k => decide (k ∉ gases)) fun k z z' h1 h2 h3 h4 =>
      ⟨h4.2.2, hex.liquids i k z z' h1 h2 (by simpa using h3)⟩
  have hB : List.Forall₂ (fun z z' : Pore n => z'.fluid = z.fluid) (atPositions gases pores) (atPositions gases pores') :=
    forall₂_positions hex.same (fun k => decide (k ∈ gases)) fun k z z' h1 h2 h3 h4 => h4.2.2
  have hBs : ∀ i, (∃ u, 0 < u ∧ List.Forall₂ (fun z z' : Pore n => z'.fluid = z.fluid ∧ z'.sat i = u * z.sat i)
      (atPositions gases pores) (atPositions gases pores')) ∨ poreTotal (atPositions gases pores) i = 0 := by
    intro i
    rcases hex.gases i with ⟨u, hu, h⟩ | h
    · exact .inl ⟨u, hu, forall₂_positions hex.same (fun k => decide (k ∈ gases)) fun k z z' h1 h2 h3 h4 =>
        ⟨h4.2.2, h k z z' h1 h2 (by simpa using h3)⟩⟩
    · right
      refine List.sum_eq_zero fun a ha => ?_
      obtain ⟨z, hz, rfl⟩ := List.mem_map.mp ha
      obtain ⟨w, hw, rfl⟩ := List.mem_map.mp hz
      have hw' := List.mem_filter.mp hw
      exact h w.2 w.1 (List.mem_zipIdx_iff_getElem?.mp hw'.1) (by simpa using hw'.2)
  have sub : ∀ (M : List (Pore n)) z, z ∈ notAtPositions gases M ∨ z ∈ atPositions gases M → z ∈ M := by
    intro M z h
    rcases h with h | h
    all_goals
      obtain ⟨w, hw, rfl⟩ := List.mem_map.mp h
      exact (List.mem_zipIdx_iff_getElem?.mp (List.mem_filter.mp hw).1) |> List.mem_of_getElem?
  have ne : ∀ {R : Pore n → Pore n → Prop} {M M' : List (Pore n)}, List.Forall₂ R M M' → M' ≠ [] → M ≠ [] := by
    rintro R M M' h hM rfl
    exact hM (List.forall₂_nil_left_iff.mp h)
  cases hF with
  | wood hm hw => rw [hbrie] at hm; cases hm
  | brie hm e he he0 hg hb => rw [hgases] at hg; cases hg
  | brieNoGas hm e he hg hn hw => rw [hgases] at hg; cases hg
  | brieAllGas hm e he hg hn hw => rw [hgases] at hg; cases hg
  | brieGivenNone hm e he hg hw =>
    rw [hgases] at hg
    injection hg with hg
    have : gases = [] := by simpa using hg
    subst this
    exact absurd (atPositions_none pores) (ne hB hboth.gases)
  | brieGivenAll hm e he idx hg hd' hr hw =>
    rw [hgases] at hg
    injection hg with hg
    obtain rfl := inj hg
    by_cases h0 : n = 0
    · subst h0
      have hA0 : List.Forall₂ (fun z z' : Pore 0 => z'.fluid = z.fluid) (notAtPositions gases pores)
          (notAtPositions gases pores') :=
        forall₂_positions hex.same (fun k => decide (k ∉ gases)) fun k z z' h1 h2 h3 h4 => h4.2.2
      exact absurd (notAtPositions_all hr).1 (ne hA0 hboth.liquids)
    · exact absurd (notAtPositions_all hr).1 (ne (hA ⟨0, Nat.pos_of_ne_zero h0⟩) hboth.liquids)
  | brieGiven hm e he he0 idx hg hd' hr hb =>
    rw [hgases] at hg
    injection hg with hg
    obtain rfl := inj hg
    have key := fun i => brie_exchanged (e := e) he0 ht hA hB hBs (fun z hz i => by
      rcases List.mem_append.mp hz with h | h
      · have := sub pores z (by rcases List.mem_append.mp h with h | h; exacts [.inl h, .inr h])
        exact ⟨(hp.fills.pos this i).1, hp.nonneg z this i⟩
      · have := sub pores' z (.inr h)
        exact ⟨(hp'.fills.pos this i).1, hn' z this i⟩) hb hboth i (fun g h1 l h2 => hsoft g h1 l h2 i)
    have hF' := Sections.Mixes.brieGiven (s := s.withPores pores') (L := pores') hm e he he0 gases hgases hd'
      (fun k hk => by rw [← hlen]; exact hr k hk) hboth
    obtain ⟨c1, c2, c3⟩ := softer_fluid hs hx hp (.brieGiven hm e he he0 gases hgases hd' hr hb) hp' hF' hφ hmodel hv hadj
      hrow fun i => (key i).1
    refine ⟨_, _, c1, c2, rfl, rfl, rfl, rfl, fun i => ⟨Num.fin_le.mpr (c3 i), fun hρ => Num.fin_le.mpr ?_⟩⟩
    dsimp only
    exact add_le_add le_rfl (mul_le_mul_of_nonneg_left ((key i).2 hρ) (hrow i).1.le)

/-! ### Examples -/

/-- Brine, oil and carbon dioxide, and oil is declared the gas. -/
noncomputable def exOilAsGas (L : List (Pore 2)) : Sections 2 :=
  { (exThreeRock .brie).withPores L with brieGases := some [1] }

theorem exOilAsGas_phases (a b g : Fin 2 → ℝ) : notAtPositions [1] (exInject a b g)
    = [⟨.material (Mat.ofReal (fun _ => 2.8e9) (fun _ => 0) (fun _ => 1030)), none, fun _ => ⟨2.8e9, 1030⟩, a⟩,
      ⟨.carbonDioxide false, some .spanWagner, fun _ => ⟨0.1e9, 600⟩, g⟩] ∧
    atPositions [1] (exInject a b g)
      = [⟨.material (Mat.ofReal (fun _ => 1.2e9) (fun _ => 0) (fun _ => 800)), none, fun _ => ⟨1.2e9, 800⟩, b⟩] := by
  constructor <;> simp [exInject, notAtPositions, atPositions]

theorem exOilAsGas_both (a b g : Fin 2 → ℝ) (h : ∀ i, 1e-15 ≤ a i ∧ 1e-15 ≤ b i ∧ 0 ≤ g i ∧ a i + g i ≤ 1) :
    BothPhases (notAtPositions [1] (exInject a b g)) (atPositions [1] (exInject a b g)) := by
  rw [(exOilAsGas_phases a b g).1, (exOilAsGas_phases a b g).2]
  exact ⟨by simp, by simp, fun i => by
      have := h i
      simp only [poreTotal, List.map_cons, List.map_nil, List.sum_cons, List.sum_nil]
      linarith,
    fun i => by have := h i; simp only [poreTotal, List.map_cons, List.map_nil, List.sum_cons, List.sum_nil]; left; linarith,
    fun i => by have := h i; simp only [poreTotal, List.map_cons, List.map_nil, List.sum_cons, List.sum_nil]; left; linarith⟩

/-- A tenth of the pore space from brine to carbon dioxide, both liquids for Brie's law here. -/
example : ∃ r r', calculate exThreeCo2 (exOilAsGas (exInject (fun _ => 0.6) (fun _ => 0.2) (fun _ => 0.2))) = .ok r ∧
    calculate exThreeCo2 (exOilAsGas (exInject (fun _ => 0.6 - 0.1) (fun _ => 0.2) (fun _ => 0.2 + 0.1))) = .ok r' ∧
    ∀ i, r'.ksat i ≤ r.ksat i := by
  obtain ⟨P', hp⟩ := exInject_filled (fun _ => 0.6) (fun _ => 0.2) (fun _ => 0.2) (fun i => by norm_num)
  have hs := exThreeRock_says .brie
  have hphi : ((4:ℝ) / 5) ^ (3:ℝ) = (4 / 5) ^ 3 := by norm_cast
  obtain ⟨r, r', h1, h2, -, -, -, -, h⟩ := C148_moved_given exThreeCo2
    (s := exOilAsGas (exInject (fun _ => 0.6) (fun _ => 0.2) (fun _ => 0.2)))
    (A := []) (a := ⟨.material (Mat.ofReal (fun _ => 2.8e9) (fun _ => 0) (fun _ => 1030)), none, fun _ => ⟨2.8e9, 1030⟩,
      fun _ => 0.6⟩)
    (B := [⟨.material (Mat.ofReal (fun _ => 1.2e9) (fun _ => 0) (fun _ => 800)), none, fun _ => ⟨1.2e9, 800⟩, fun _ => 0.2⟩])
    (b := ⟨.carbonDioxide false, some .spanWagner, fun _ => ⟨0.1e9, 600⟩, fun _ => 0.2⟩) (C := []) (d := fun _ => 0.1)
    ⟨hs.1, hs.2, hs.3, hs.4, hs.5, hs.6, hs.7, hs.8⟩
    (mkModuli_coherent (mkModuli_rock (n := 2) (r := fun _ => quartzRock) fun _ => by
      norm_num [Published.Rock.Valid, quartzRock]))
    ⟨hp.1, hp.2, hp.3, hp.4, hp.5, hp.6⟩
    (.brieGiven rfl 3 rfl (by norm_num) [1] rfl (by simp) (by simp)
      (exOilAsGas_both (fun _ => 0.6) (fun _ => 0.2) (fun _ => 0.2) fun _ => by norm_num)) rfl
    (exThreeRock_gives (method := .brie)) (fun _ => by norm_num [Published.Rock.Valid]) (.nil _)
    (fun i => ⟨by norm_num, by norm_num [quartzRock], by
      have e := exOilAsGas_phases (fun _ => 0.6) (fun _ => 0.2) (fun _ => 0.2)
      unfold exInject at e
      rw [List.nil_append, List.singleton_append, e.1, e.2]
      norm_num [quartzRock, Published.brie, Published.wood, poreRow, hphi]⟩)
    (fun _ => by norm_num) (fun _ => by norm_num) rfl [1] rfl (by simp) (fun _ => by norm_num)
  exact ⟨r, r', h1, h2, fun i => (h i).1⟩

/-- Half of the brine replaced by oil and carbon dioxide, which are declared the gases. -/
example : ∃ r r', calculate exThreeCo2 { (exThreeRock .brie).withPores (exInject (fun _ => 0.6) (fun _ => 0.2) (fun _ => 0.2))
      with brieGases := some [1, 2] } = .ok r ∧
    calculate exThreeCo2 { (exThreeRock .brie).withPores (exInject (fun _ => 0.3) (fun _ => 0.3) (fun _ => 0.3))
      with brieGases := some [1, 2] } = .ok r' ∧
    ∀ i, r'.ksat i ≤ r.ksat i := by
  obtain ⟨P', hp⟩ := exInject_filled (fun _ => 0.6) (fun _ => 0.2) (fun _ => 0.2) (fun i => by norm_num)
  have hs := exThreeRock_says .brie
  have hphi : ((3:ℝ) / 5) ^ (3:ℝ) = (3 / 5) ^ 3 := by norm_cast
  have phases : ∀ a b g : Fin 2 → ℝ, notAtPositions [1, 2] (exInject a b g)
      = [⟨.material (Mat.ofReal (fun _ => 2.8e9) (fun _ => 0) (fun _ => 1030)), none, fun _ => ⟨2.8e9, 1030⟩, a⟩] ∧
      atPositions [1, 2] (exInject a b g)
        = [⟨.material (Mat.ofReal (fun _ => 1.2e9) (fun _ => 0) (fun _ => 800)), none, fun _ => ⟨1.2e9, 800⟩, b⟩,
          ⟨.carbonDioxide false, some .spanWagner, fun _ => ⟨0.1e9, 600⟩, g⟩] := by
    intro a b g
    constructor <;> simp [exInject, notAtPositions, atPositions]
  have both : ∀ a b g : ℝ, 1e-15 ≤ a ∧ a ≤ 1 ∧ 1e-15 ≤ b + g → BothPhases
      (notAtPositions [1, 2] (exInject (fun _ => a) (fun _ => b) (fun _ => g)))
      (atPositions [1, 2] (exInject (fun _ => a) (fun _ => b) (fun _ => g))) := by
    intro a b g h
    rw [(phases _ _ _).1, (phases _ _ _).2]
    refine ⟨by simp, by simp, fun i => ?_, fun i => .inl ?_, fun i => .inl ?_⟩ <;>
      simp only [poreTotal, List.map_cons, List.map_nil, List.sum_cons, List.sum_nil] <;> linarith
  obtain ⟨r, r', h1, h2, -, -, -, -, h⟩ := C148_gas_for_liquid_given exThreeCo2
    (pores' := exInject (fun _ => 0.3) (fun _ => 0.3) (fun _ => 0.3)) (t := fun _ => 0.5)
    (s := { (exThreeRock .brie).withPores (exInject (fun _ => 0.6) (fun _ => 0.2) (fun _ => 0.2))
      with brieGases := some [1, 2] })
    ⟨hs.1, hs.2, hs.3, hs.4, hs.5, hs.6, hs.7, hs.8⟩
    (mkModuli_coherent (mkModuli_rock (n := 2) (r := fun _ => quartzRock) fun _ => by
      norm_num [Published.Rock.Valid, quartzRock]))
    ⟨hp.1, hp.2, hp.3, hp.4, hp.5, hp.6⟩
    (.brieGiven rfl 3 rfl (by norm_num) [1, 2] rfl (by simp) (by simp [exInject]) (both _ _ _ (by norm_num))) rfl
    (exThreeRock_gives (method := .brie)) (fun _ => by norm_num [Published.Rock.Valid]) (.nil _)
    (fun i => ⟨by norm_num, by norm_num [quartzRock], by
      rw [(phases _ _ _).1, (phases _ _ _).2]
      norm_num [quartzRock, Published.brie, Published.wood, poreRow, hphi]⟩)
    rfl [1, 2] rfl
    ⟨.cons ⟨rfl, rfl, rfl⟩ (.cons ⟨rfl, rfl, rfl⟩ (.cons ⟨rfl, rfl, rfl⟩ .nil)),
     fun i k z z' h1 h2 h3 => by
      match k, h3 with
      | 0, _ => cases h1; cases h2; norm_num
      | 1, h3 => simp at h3
      | 2, h3 => simp at h3
      | k + 3, _ => simp [exInject] at h1,
     fun i => .inl ⟨1.5, by norm_num, fun k z z' h1 h2 h3 => by
      match k, h3 with
      | 0, h3 => simp at h3
      | 1, _ => cases h1; cases h2; norm_num
      | 2, _ => cases h1; cases h2; norm_num
      | k + 3, _ => simp [exInject] at h1⟩⟩
    (fun _ => by norm_num)
    (by
      intro z hz i
      simp only [exInject, List.mem_cons, List.not_mem_nil, or_false] at hz
      rcases hz with rfl | rfl | rfl <;> norm_num)
    (both _ _ _ (by norm_num)) (fun i => by norm_num [poreTotal, exInject])
    (by
      intro g hg l hl i
      rw [(phases _ _ _).2] at hg
      rw [(phases _ _ _).1] at hl
      simp only [List.mem_cons, List.not_mem_nil, or_false] at hg hl
      rcases hg with rfl | rfl <;> subst hl <;> norm_num)
  exact ⟨r, r', h1, h2, fun i => (h i).1⟩

end OPE
