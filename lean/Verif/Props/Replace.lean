import Verif.Props.Published9
import Verif.Props.Loading

/-!
# C148: replacing one pore fluid by another
-/

namespace OPE

open Classical

variable {n : ℕ}

/-! ### What is compared -/

/-- `L'` is `L` with the saturation `d` (of either sign) moved from the constituent `x` to the constituent `y`. -/
structure Moved (L L' : List (Pore n)) (x y : Pore n) (d : Fin n → ℝ) : Prop where
  lists : ∃ A B C, L = A ++ x :: (B ++ y :: C) ∧
    L' = A ++ { x with sat := fun i => x.sat i - d i } :: (B ++ { y with sat := fun i => y.sat i + d i } :: C)
  left : ∀ i, d i ≤ x.sat i
  right : ∀ i, -(y.sat i) ≤ d i

/-- `L'` is `L` with the saturations of all liquids multiplied by `t` and other saturations of the gases: in each row
those of `L` by a common factor, or any if there was no gas. -/
structure Exchanged (L L' : List (Pore n)) (t : Fin n → ℝ) : Prop where
  same : List.Forall₂ (fun z z' => z'.kind = z.kind ∧ z'.model = z.model ∧ z'.fluid = z.fluid) L L'
  liquids : ∀ i, List.Forall₂ (fun z z' => ¬ z.kind.IsGas → z'.sat i = t i * z.sat i) L L'
  gases : ∀ i, (∃ u, 0 < u ∧ List.Forall₂ (fun z z' => z.kind.IsGas → z'.sat i = u * z.sat i) L L') ∨
    ∀ z ∈ L, z.kind.IsGas → z.sat i = 0

/-- The configuration with another list of constituents. -/
def Sections.withPores (s : Sections n) (L : List (Pore n)) : Sections n :=
  { s with fluids := L.map fun x => ⟨x.kind, x.model, some (finC x.sat)⟩ }

/-! ### One row -/

theorem wood_moved {A B C : List (Published.Fluid × ℝ)} {f g : Published.Fluid} {a b d : ℝ}
    (hK : ∀ z ∈ A ++ (f, a) :: (B ++ (g, b) :: C), 0 < z.1.K ∧ 0 ≤ z.2) (ha : d ≤ a) (hb : -b ≤ d)
    (hS : 0 < ((A ++ (f, a) :: (B ++ (g, b) :: C)).map fun z => z.2).sum) (h : 0 ≤ d * (f.K - g.K)) :
    (Published.wood (A ++ (f, a - d) :: (B ++ (g, b + d) :: C))).K
      ≤ (Published.wood (A ++ (f, a) :: (B ++ (g, b) :: C))).K ∧
    (Published.wood (A ++ (f, a - d) :: (B ++ (g, b + d) :: C))).ρ
      = (Published.wood (A ++ (f, a) :: (B ++ (g, b) :: C))).ρ
        + d / ((A ++ (f, a) :: (B ++ (g, b) :: C)).map fun z => z.2).sum * (g.ρ - f.ρ) := by
  have e : ((A ++ (f, a - d) :: (B ++ (g, b + d) :: C)).map fun z => z.2).sum
      = ((A ++ (f, a) :: (B ++ (g, b) :: C)).map fun z => z.2).sum := by
    simp only [List.map_append, List.map_cons, List.sum_append, List.sum_cons]; ring
  have hf : 0 < f.K := (hK (f, a) (by simp)).1
  have hg : 0 < g.K := (hK (g, b) (by simp)).1
  unfold Published.wood
  dsimp only
  rw [e]
  generalize hSe : ((A ++ (f, a) :: (B ++ (g, b) :: C)).map fun z => z.2).sum = S at hS
  constructor
  · have pos : 0 < ((A ++ (f, a) :: (B ++ (g, b) :: C)).map fun z => z.2 / S / z.1.K).sum := by
      by_contra hn
      have hnn : ∀ z ∈ A ++ (f, a) :: (B ++ (g, b) :: C), 0 ≤ z.2 / S / z.1.K := fun z hz =>
        div_nonneg (div_nonneg (hK z hz).2 hS.le) (hK z hz).1.le
      have h0 : ∀ z ∈ A ++ (f, a) :: (B ++ (g, b) :: C), z.2 = 0 := by
        intro z hz
        have h1 := List.single_le_sum (l := (A ++ (f, a) :: (B ++ (g, b) :: C)).map fun z => z.2 / S / z.1.K)
          (by intro w hw; obtain ⟨v, hv, rfl⟩ := List.mem_map.mp hw; exact hnn v hv) _
          (List.mem_map_of_mem (f := fun z : Published.Fluid × ℝ => z.2 / S / z.1.K) hz)
        have h2 : z.2 / S / z.1.K = 0 := le_antisymm (h1.trans (not_lt.mp hn)) (hnn z hz)
        simpa [(hK z hz).1.ne', hS.ne'] using h2
      have : ((A ++ (f, a) :: (B ++ (g, b) :: C)).map fun z => z.2).sum = 0 := by
        apply List.sum_eq_zero
        intro w hw
        obtain ⟨v, hv, rfl⟩ := List.mem_map.mp hw
        exact h0 v hv
      rw [hSe] at this; linarith
    refine inv_anti₀ pos ?_
    simp only [List.map_append, List.map_cons, List.sum_append, List.sum_cons]
    have : (a - d) / S / f.K + (b + d) / S / g.K = a / S / f.K + b / S / g.K + d * (f.K - g.K) / (S * f.K * g.K) := by
      field_simp; ring
    have : 0 ≤ d * (f.K - g.K) / (S * f.K * g.K) := by positivity
    linarith
  · simp only [List.map_append, List.map_cons, List.sum_append, List.sum_cons]
    field_simp
    ring

theorem wood_pos {L : List (Published.Fluid × ℝ)} (hK : ∀ z ∈ L, 0 < z.1.K ∧ 0 ≤ z.2)
    (hS : 0 < (L.map fun z => z.2).sum) : 0 < (Published.wood L).K := by
  unfold Published.wood
  dsimp only
  generalize hSe : (L.map fun z => z.2).sum = S at hS
  rw [inv_pos]
  by_contra hn
  have hnn : ∀ z ∈ L, 0 ≤ z.2 / S / z.1.K := fun z hz => div_nonneg (div_nonneg (hK z hz).2 hS.le) (hK z hz).1.le
  have h0 : ∀ z ∈ L, z.2 = 0 := by
    intro z hz
    have h1 := List.single_le_sum (l := L.map fun z => z.2 / S / z.1.K)
      (by intro w hw; obtain ⟨v, hv, rfl⟩ := List.mem_map.mp hw; exact hnn v hv) _
      (List.mem_map_of_mem (f := fun z : Published.Fluid × ℝ => z.2 / S / z.1.K) hz)
    have h2 : z.2 / S / z.1.K = 0 := le_antisymm (h1.trans (not_lt.mp hn)) (hnn z hz)
    simpa [(hK z hz).1.ne', hS.ne'] using h2
  have : (L.map fun z => z.2).sum = 0 := by
    apply List.sum_eq_zero
    intro w hw
    obtain ⟨v, hv, rfl⟩ := List.mem_map.mp hw
    exact h0 v hv
  rw [hSe] at this; linarith

/-- Wood's law does not see a common factor of the saturations. -/
theorem wood_scaled {L : List (Published.Fluid × ℝ)} {t : ℝ} (ht : t ≠ 0) :
    Published.wood (L.map fun z => (z.1, t * z.2)) = Published.wood L := by
  have e : ((L.map fun z => (z.1, t * z.2)).map fun z => z.2).sum = t * (L.map fun z => z.2).sum := by
    rw [List.map_map, ← List.sum_map_mul_left]; rfl
  unfold Published.wood
  dsimp only
  rw [e]
  simp only [List.map_map, Function.comp_def, mul_div_mul_left _ _ ht]

/-- Wood's law lies between the constituents. -/
theorem wood_le {L : List (Published.Fluid × ℝ)} {k : ℝ} (hk : 0 < k) (hK : ∀ z ∈ L, 0 < z.1.K ∧ z.1.K ≤ k ∧ 0 ≤ z.2)
    (hS : 0 < (L.map fun z => z.2).sum) : (Published.wood L).K ≤ k := by
  unfold Published.wood
  dsimp only
  generalize hSe : (L.map fun z => z.2).sum = S at hS
  have h1 : 1 / k ≤ (L.map fun z => z.2 / S / z.1.K).sum := by
    have : (L.map fun z => z.2 / S / k).sum ≤ (L.map fun z => z.2 / S / z.1.K).sum := by
      apply List.sum_le_sum
      intro z hz
      obtain ⟨a, b, c⟩ := hK z hz
      have : 0 ≤ z.2 / S := div_nonneg c hS.le
      exact div_le_div_of_nonneg_left this a b
    refine le_trans (le_of_eq ?_) this
    have e : (L.map fun z => z.2 / S / k) = L.map fun z => z.2 * (1 / (S * k)) := by
      congr 1; funext z; field_simp
    rw [e, List.sum_map_mul_right, hSe]
    field_simp
  calc ((L.map fun z => z.2 / S / z.1.K).sum)⁻¹ ≤ (1 / k)⁻¹ := inv_anti₀ (by positivity) h1
    _ = k := by simp

theorem le_wood {L : List (Published.Fluid × ℝ)} {k : ℝ} (hk : 0 < k) (hK : ∀ z ∈ L, k ≤ z.1.K ∧ 0 ≤ z.2)
    (hS : 0 < (L.map fun z => z.2).sum) : k ≤ (Published.wood L).K := by
  have hp := wood_pos (L := L) (fun z hz => ⟨by linarith [(hK z hz).1], (hK z hz).2⟩) hS
  unfold Published.wood at hp ⊢
  dsimp only at hp ⊢
  generalize hSe : (L.map fun z => z.2).sum = S at hS hp
  have h1 : (L.map fun z => z.2 / S / z.1.K).sum ≤ 1 / k := by
    have : (L.map fun z => z.2 / S / z.1.K).sum ≤ (L.map fun z => z.2 / S / k).sum := by
      apply List.sum_le_sum
      intro z hz
      obtain ⟨a, c⟩ := hK z hz
      have : 0 ≤ z.2 / S := div_nonneg c hS.le
      exact div_le_div_of_nonneg_left this hk a
    refine this.trans (le_of_eq ?_)
    have e : (L.map fun z => z.2 / S / k) = L.map fun z => z.2 * (1 / (S * k)) := by
      congr 1; funext z; field_simp
    rw [e, List.sum_map_mul_right, hSe]
    field_simp
  calc k = (1 / k)⁻¹ := by simp
    _ ≤ _ := inv_anti₀ (inv_pos.mp hp) h1

/-! ### Sections -/

/-- The same constituents, perhaps with other saturations. -/
def SamePores : List (Pore n) → List (Pore n) → Prop :=
  List.Forall₂ fun z z' => z'.kind = z.kind ∧ z'.model = z.model ∧ z'.fluid = z.fluid

theorem SamePores.refl (L : List (Pore n)) : SamePores L L := by
  induction L with
  | nil => exact .nil
  | cons z L ih => exact .cons ⟨rfl, rfl, rfl⟩ ih

theorem Fills.resat {co2 : CO2Model n} {pv : Provider} {T P P' : Fin n → ℝ} {L L' : List (Pore n)}
    (h : Fills co2 pv T P L P') (hs : SamePores L L') : Fills co2 pv T P L' P' := by
  induction h generalizing L' with
  | nil P => cases hs; exact .nil P
  | plain h hp t ih =>
    rcases hs with _ | ⟨⟨e1, e2, e3⟩, hs⟩
    exact .plain (by rw [e1, e3]; exact h) (by rw [e2]; exact hp) (ih hs)
  | explicit hk h t ih =>
    rcases hs with _ | ⟨⟨e1, e2, e3⟩, hs⟩
    exact .explicit (by rw [e1]; exact hk) (by rw [e3]; exact h) (ih hs)
  | carbonDioxide hk hp h hm t ih =>
    rcases hs with _ | ⟨⟨e1, e2, e3⟩, hs⟩
    exact .carbonDioxide (by rw [e1]; exact hk) (by rw [e2]; exact hp) h (by rw [e3]; exact hm) (ih hs)

theorem Fills.pos {co2 : CO2Model n} {pv : Provider} {T P P' : Fin n → ℝ} {L : List (Pore n)}
    (h : Fills co2 pv T P L P') {z : Pore n} (hz : z ∈ L) (i : Fin n) : 0 < (z.fluid i).K ∧ 0 < (z.fluid i).ρ := by
  obtain ⟨Q, rfl, q2, -⟩ := h.materialsOf
  obtain ⟨q, hq, rfl⟩ := List.mem_map.mp hz
  exact (q2 q hq).2.2.2 i

theorem Moved.same {L L' : List (Pore n)} {x y : Pore n} {d : Fin n → ℝ} (h : Moved L L' x y d) : SamePores L L' := by
  obtain ⟨A, B, C, rfl, rfl⟩ := h.lists
  exact List.rel_append (SamePores.refl A) (.cons ⟨rfl, rfl, rfl⟩ (List.rel_append (SamePores.refl B) (.cons ⟨rfl, rfl, rfl⟩ (SamePores.refl C))))

theorem Moved.total {L L' : List (Pore n)} {x y : Pore n} {d : Fin n → ℝ} (h : Moved L L' x y d) (i : Fin n) :
    poreTotal L' i = poreTotal L i := by
  obtain ⟨A, B, C, rfl, rfl⟩ := h.lists
  simp only [poreTotal, List.map_append, List.map_cons, List.sum_append, List.sum_cons]; ring

theorem Moved.wet {L L' : List (Pore n)} {x y : Pore n} {d : Fin n → ℝ} (h : Moved L L' x y d) (hw : Wet L) :
    Wet L' := by
  refine ⟨?_, fun i => by rw [h.total i]; exact hw.2 i⟩
  obtain ⟨A, B, C, -, rfl⟩ := h.lists
  simp

theorem Moved.filled {s : Sections n} {co2 : CO2Model n} {T P P' : Fin n → ℝ} {L L' : List (Pore n)} {x y : Pore n}
    {d : Fin n → ℝ} (h : Moved L L' x y d) (hp : s.Filled co2 T P L P') : (s.withPores L').Filled co2 T P L' P' := by
  refine ⟨rfl, hp.temperature, ?_, hp.fills.resat h.same, ?_, fun i => by rw [h.total i]; exact hp.total i⟩
  · obtain ⟨A, B, C, -, rfl⟩ := h.lists
    simp
  · have hn := hp.nonneg
    obtain ⟨⟨A, B, C, rfl, rfl⟩, hl, hr⟩ := h
    intro z hz i
    simp only [List.mem_append, List.mem_cons] at hz hn
    rcases hz with hz | rfl | hz | rfl | hz
    · exact hn z (.inl hz) i
    · have := hl i; dsimp only; linarith
    · exact hn z (.inr (.inr (.inl hz))) i
    · have := hr i; dsimp only; linarith
    · exact hn z (.inr (.inr (.inr (.inr hz)))) i

/-- Selecting constituents by their kind: both are selected, or none. -/
theorem Moved.filter {L L' : List (Pore n)} {x y : Pore n} {d : Fin n → ℝ} (h : Moved L L' x y d)
    (p : FluidKind n → Bool) (hxy : p x.kind = p y.kind) :
    (p x.kind = true ∧ Moved (L.filter fun z => p z.kind) (L'.filter fun z => p z.kind) x y d) ∨
    (p x.kind = false ∧ L'.filter (fun z => p z.kind) = L.filter fun z => p z.kind) := by
  obtain ⟨⟨A, B, C, rfl, rfl⟩, hl, hr⟩ := h
  cases hx : p x.kind
  · right
    rw [hx] at hxy
    simp [List.filter_append, List.filter_cons, hx, ← hxy]
  · left
    rw [hx] at hxy
    refine ⟨rfl, ⟨A.filter fun z => p z.kind, B.filter fun z => p z.kind, C.filter fun z => p z.kind, ?_, ?_⟩, hl, hr⟩ <;>
      simp [List.filter_append, List.filter_cons, hx, ← hxy]

/-- Row `i` of the two lists. -/
theorem Moved.row {L L' : List (Pore n)} {x y : Pore n} {d : Fin n → ℝ} (h : Moved L L' x y d)
    (hK : ∀ z ∈ L, ∀ i, 0 < (z.fluid i).K) (hn : ∀ z ∈ L, ∀ i, 0 ≤ z.sat i) (i : Fin n) (hS : 1e-15 ≤ poreTotal L i)
    (hd : 0 ≤ d i * ((x.fluid i).K - (y.fluid i).K)) :
    (Published.wood (poreRow L' i)).K ≤ (Published.wood (poreRow L i)).K ∧
    (Published.wood (poreRow L' i)).ρ
      = (Published.wood (poreRow L i)).ρ + d i / poreTotal L i * ((y.fluid i).ρ - (x.fluid i).ρ) := by
  obtain ⟨⟨A, B, C, rfl, rfl⟩, hl, hr⟩ := h
  have hrow : ∀ z ∈ poreRow A i ++ (x.fluid i, x.sat i) :: (poreRow B i ++ (y.fluid i, y.sat i) :: poreRow C i),
      0 < z.1.K ∧ 0 ≤ z.2 := by
    have e : poreRow (A ++ x :: (B ++ y :: C)) i
        = poreRow A i ++ (x.fluid i, x.sat i) :: (poreRow B i ++ (y.fluid i, y.sat i) :: poreRow C i) := by
      simp [poreRow]
    rw [← e]
    intro z hz
    obtain ⟨w, hw, rfl⟩ := List.mem_map.mp hz
    exact ⟨hK w hw i, hn w hw i⟩
  have e : ((poreRow A i ++ (x.fluid i, x.sat i) :: (poreRow B i ++ (y.fluid i, y.sat i) :: poreRow C i)).map
      fun z => z.2).sum = poreTotal (A ++ x :: (B ++ y :: C)) i := by
    simp [poreRow, poreTotal, Function.comp_def]
  have := wood_moved (d := d i) hrow (hl i) (hr i) (by rw [e]; linarith) hd
  rw [e] at this
  simpa [poreRow] using this

/-- The mixtures of the two lists. -/
theorem Moved.mixes {s : Sections n} {co2 : CO2Model n} {T P P' : Fin n → ℝ} {L L' : List (Pore n)} {x y : Pore n}
    {d : Fin n → ℝ} (h : Moved L L' x y d) (hp : s.Filled co2 T P L P') {F : Fin n → Published.Fluid}
    (hF : s.Mixes L F) (hside : s.mixMethod = .brie → s.brieGases = none ∧ (x.kind.IsGas ↔ y.kind.IsGas))
    (hd : ∀ i, 0 ≤ d i * ((x.fluid i).K - (y.fluid i).K)) :
    ∃ F', (s.withPores L').Mixes L' F' ∧ ∀ i, (F' i).K ≤ (F i).K ∧
      ∃ w, 0 ≤ w ∧ (F' i).ρ = (F i).ρ + w * (d i * ((y.fluid i).ρ - (x.fluid i).ρ)) := by
  have hK : ∀ z ∈ L, ∀ i, 0 < (z.fluid i).K := fun z hz i => (hp.fills.pos hz i).1
  have wood : ∀ {M M' : List (Pore n)}, Moved M M' x y d → (∀ z ∈ M, z ∈ L) → ∀ i, 1e-15 ≤ poreTotal M i →
      (Published.wood (poreRow M' i)).K ≤ (Published.wood (poreRow M i)).K ∧
      ∃ w, 0 ≤ w ∧ (Published.wood (poreRow M' i)).ρ
        = (Published.wood (poreRow M i)).ρ + w * (d i * ((y.fluid i).ρ - (x.fluid i).ρ)) := by
    intro M M' hM hsub i hw
    obtain ⟨h1, h2⟩ := hM.row (fun z hz => hK z (hsub z hz)) (fun z hz => hp.nonneg z (hsub z hz)) i hw (hd i)
    have h0 : 0 < poreTotal M i := lt_of_lt_of_le (by norm_num) hw
    exact ⟨h1, 1 / poreTotal M i, by positivity, by rw [h2]; ring⟩
  cases hF with
  | wood hm hw => exact ⟨_, .wood hm (h.wet hw), fun i => wood h (fun _ h => h) i (hw.2 i)⟩
  | brieNoGas hm e he hg hn hw =>
    refine ⟨_, .brieNoGas hm e he hg ?_ (h.wet hw), fun i => wood h (fun _ h => h) i (hw.2 i)⟩
    obtain ⟨A, B, C, rfl, rfl⟩ := h.lists
    intro z hz
    simp only [List.mem_append, List.mem_cons] at hz hn
    rcases hz with hz | rfl | hz | rfl | hz
    · exact hn z (.inl hz)
    · exact hn x (.inr (.inl rfl))
    · exact hn z (.inr (.inr (.inl hz)))
    · exact hn y (.inr (.inr (.inr (.inl rfl))))
    · exact hn z (.inr (.inr (.inr (.inr hz))))
  | brieAllGas hm e he hg hn hw =>
    refine ⟨_, .brieAllGas hm e he hg ?_ (h.wet hw), fun i => wood h (fun _ h => h) i (hw.2 i)⟩
    obtain ⟨A, B, C, rfl, rfl⟩ := h.lists
    intro z hz
    simp only [List.mem_append, List.mem_cons] at hz hn
    rcases hz with hz | rfl | hz | rfl | hz
    · exact hn z (.inl hz)
    · exact hn x (.inr (.inl rfl))
    · exact hn z (.inr (.inr (.inl hz)))
    · exact hn y (.inr (.inr (.inr (.inl rfl))))
    · exact hn z (.inr (.inr (.inr (.inr hz))))
  | brieGivenNone hm e he hg hw =>
    have := (hside hm).1
    rw [hg] at this
    exact absurd this (by simp)
  | brieGivenAll hm e he idx hg hd' hr hw =>
    have := (hside hm).1
    rw [hg] at this
    exact absurd this (by simp)
  | brieGiven hm e he he0 idx hg hd' hr ht =>
    have := (hside hm).1
    rw [hg] at this
    exact absurd this (by simp)
  | brie hm e he he0 hg hb =>
    have hxy := (hside hm).2
    have hS : ∀ i, 0 ≤ poreTotal (L.filter fun x => ¬ x.kind.IsGas) i := fun i =>
      (hb.liquid i).elim (le_trans (by norm_num)) ge_of_eq
    have ht := hb.total
    have hsum : ∀ (M : List (Pore n)) i, ((poreRow M i).map fun z => z.2).sum = poreTotal M i := by
      intro M i; simp [poreRow, poreTotal, Function.comp_def]
    have hG := h.filter (fun k => decide k.IsGas) (by simp [hxy])
    have hL := h.filter (fun k => decide ¬ k.IsGas) (by simp [hxy])
    have ne : ∀ {M M' : List (Pore n)}, Moved M M' x y d → M' ≠ [] := by
      intro M M' hM
      obtain ⟨A, B, C, -, rfl⟩ := hM.lists
      simp
    rcases hG with ⟨gx, mG⟩ | ⟨gx, eG⟩
    · rcases hL with ⟨lx, -⟩ | ⟨-, eL⟩
      · simp at gx lx; exact absurd gx lx
      refine ⟨_, .brie (s := s.withPores L') hm e he he0 hg ⟨eL ▸ hb.liquids, ne mG, fun i => by rw [eL]; exact ht i,
        fun i => by rw [eL]; exact hb.liquid i, fun i => by rw [eL, mG.total]; exact hb.gas i⟩, fun i => ?_⟩
      unfold Published.brie
      dsimp only
      rw [eL, hsum]
      rcases hb.gas i with hg1 | hg1
      · obtain ⟨k1, w, hw, k2⟩ := wood mG (fun z hz => (List.mem_filter.mp hz).1) i hg1
        have hp1 : poreTotal (L.filter fun x => ¬ x.kind.IsGas) i ^ e ≤ 1 :=
          Real.rpow_le_one (hS i) (ht i) he0.le
        refine ⟨?_, (1 - poreTotal (L.filter fun x => ¬ x.kind.IsGas) i) * w,
          mul_nonneg (by linarith [ht i]) hw, ?_⟩
        · nlinarith [mul_nonneg (sub_nonneg.mpr hp1) (sub_nonneg.mpr k1)]
        · rw [k2]; ring
      · rw [hg1, Real.one_rpow]
        exact ⟨by linarith, 0, le_rfl, by ring⟩
    · rcases hL with ⟨-, mL⟩ | ⟨lx, -⟩
      swap
      · simp at gx lx; exact absurd lx gx
      refine ⟨_, .brie (s := s.withPores L') hm e he he0 hg ⟨ne mL, eG ▸ hb.gases, fun i => by rw [mL.total]; exact ht i,
        fun i => by rw [mL.total]; exact hb.liquid i, fun i => by rw [eG, mL.total]; exact hb.gas i⟩, fun i => ?_⟩
      unfold Published.brie
      dsimp only
      rw [eG, hsum, hsum, mL.total]
      rcases hb.liquid i with hl1 | hl1
      · obtain ⟨k1, w, hw, k2⟩ := wood mL (fun z hz => (List.mem_filter.mp hz).1) i hl1
        have hp0 : 0 ≤ poreTotal (L.filter fun x => ¬ x.kind.IsGas) i ^ e := Real.rpow_nonneg (hS i) _
        refine ⟨?_, poreTotal (L.filter fun x => ¬ x.kind.IsGas) i * w, mul_nonneg (hS i) hw, ?_⟩
        · nlinarith [mul_nonneg hp0 (sub_nonneg.mpr k1)]
        · rw [k2]; ring
      · rw [hl1, Real.zero_rpow he0.ne']
        exact ⟨by linarith, 0, le_rfl, by ring⟩

/-! ### The calculation -/

/-- What a softer fluid does to the results. -/
theorem softer_fluid {co2 : CO2Model n} {s : Sections n} {pores pores' : List (Pore n)}
    {x : Mat n × (Fin n → Published.Rock) × (Fin n → ℝ)} {L : RockList n} {ob rf rk P : Fin n → ℝ}
    {mx : Option (Fin n → ℝ)} (hs : s.Says x L ob rf rk P mx) (hx : x.1.Coherent) {T P' : Fin n → ℝ}
    (hp : s.Filled co2 T P pores P') {F F' : Fin n → Published.Fluid} (hF : s.Mixes pores F)
    (hp' : (s.withPores pores').Filled co2 T P pores' P') (hF' : (s.withPores pores').Mixes pores' F')
    {φ : Fin n → ℝ} (hφ : s.porosity = finC φ) {sand dry dense : Fin n → Published.Rock}
    (hmodel : s.sandModel.Gives (mineralAt x L) φ (effectiveAt mx ob rk) sand dense) (hv : ∀ i, (sand i).Valid)
    (hadj : Adjusts (mineralAt x L) φ (effectiveAt mx ob rk) (effectiveAt mx ob rf) rk s.adjustments sand dry)
    (hrow : ∀ i, 0 < φ i ∧ (dry i).K < (dense i).K ∧ (F i).K < (dense i).K) (hle : ∀ i, (F' i).K ≤ (F i).K) :
    calculate co2 s = .ok (tableOf (mineralAt x L) dry dense F φ) ∧
    calculate co2 (s.withPores pores') = .ok (tableOf (mineralAt x L) dry dense F' φ) ∧
    ∀ i, Published.gassmann (dry i).K (dense i).K (F' i).K (φ i) ≤ Published.gassmann (dry i).K (dense i).K (F i).K (φ i) := by
  have hs' : (s.withPores pores').Says x L ob rf rk P mx := ⟨hs.1, hs.2, hs.3, hs.4, hs.5, hs.6, hs.7, hs.8⟩
  refine ⟨calculate_adjusted hs hx hp hF hφ hmodel hv hadj hrow,
    calculate_adjusted hs' hx hp' hF' hφ hmodel hv hadj
      (fun i => ⟨(hrow i).1, (hrow i).2.1, (hle i).trans_lt (hrow i).2.2⟩), fun i => ?_⟩
  have hd0 : 0 < (dry i).K := by
    have ha : ∀ i, (mineralAt x L i).Valid := mineralAt_pos hs
    clear hrow
    have : ∀ {as : List (Adjustment n)} {r r' : Fin n → Published.Rock}, Adjusts (mineralAt x L) φ (effectiveAt mx ob rk)
        (effectiveAt mx ob rf) rk as r r' → (∀ i, (r i).Valid) → ∀ i, (r' i).Valid := by
      intro as r r' h
      induction h with
      | nil r => exact fun h => h
      | cons h hv t ih => exact fun _ => ih hv
    exact (this hadj hv i).1
  have hf0 : 0 < (F' i).K := by
    obtain ⟨fl, m, -, -, hm⟩ := fluids_filled hp' hF'
    exact (hm.2.2.2 i).1
  exact gassmann_mono (hrow i).1 hd0.le le_rfl (hrow i).2.1 hf0 (hle i) (hrow i).2.2

/-- **C148, one constituent for another.** Moving saturation from one constituent to another, softer one (the other way
round where `d` is negative) in Wood's mixing, or among the liquids or among the gases of Brie's mixing: the
run still succeeds, minerals, dry rock, dense packing and shear modulus are the same, and the saturated rock is
nowhere stiffer; it gets lighter where the replacing fluid is lighter, and heavier where it is heavier. -/
theorem C148_moved (co2 : CO2Model n) {s : Sections n} {pores pores' : List (Pore n)} {a b : Pore n} {d : Fin n → ℝ}
    {x : Mat n × (Fin n → Published.Rock) × (Fin n → ℝ)} {L : RockList n} {ob rf rk P : Fin n → ℝ}
    {mx : Option (Fin n → ℝ)} (hs : s.Says x L ob rf rk P mx) (hx : x.1.Coherent) {T P' : Fin n → ℝ}
    (hp : s.Filled co2 T P pores P') {F : Fin n → Published.Fluid} (hF : s.Mixes pores F)
    {φ : Fin n → ℝ} (hφ : s.porosity = finC φ) {sand dry dense : Fin n → Published.Rock}
    (hmodel : s.sandModel.Gives (mineralAt x L) φ (effectiveAt mx ob rk) sand dense) (hv : ∀ i, (sand i).Valid)
    (hadj : Adjusts (mineralAt x L) φ (effectiveAt mx ob rk) (effectiveAt mx ob rf) rk s.adjustments sand dry)
    (hrow : ∀ i, 0 < φ i ∧ (dry i).K < (dense i).K ∧ (F i).K < (dense i).K)
    (hmove : Moved pores pores' a b d)
    (hside : s.mixMethod = .brie → s.brieGases = none ∧ (a.kind.IsGas ↔ b.kind.IsGas))
    (hd : ∀ i, 0 ≤ d i * ((a.fluid i).K - (b.fluid i).K)) :
    ∃ r r', calculate co2 s = .ok r ∧ calculate co2 (s.withPores pores') = .ok r' ∧
      r'.kmin = r.kmin ∧ r'.kdry = r.kdry ∧ r'.kminFls = r.kminFls ∧ r'.mysat = r.mysat ∧
      ∀ i, r'.ksat i ≤ r.ksat i ∧
        (d i * (b.fluid i).ρ ≤ d i * (a.fluid i).ρ → r'.rsat i ≤ r.rsat i) ∧
        (d i * (a.fluid i).ρ ≤ d i * (b.fluid i).ρ → r.rsat i ≤ r'.rsat i) := by
  obtain ⟨F', hF', hle⟩ := hmove.mixes hp hF hside hd
  obtain ⟨h1, h2, h3⟩ := softer_fluid hs hx hp hF (hmove.filled hp) hF' hφ hmodel hv hadj hrow fun i => (hle i).1
  refine ⟨_, _, h1, h2, rfl, rfl, rfl, rfl, fun i => ⟨?_, fun h => ?_, fun h => ?_⟩⟩
  · exact Num.fin_le.mpr (h3 i)
  all_goals
    obtain ⟨-, w, hw, e⟩ := hle i
    refine Num.fin_le.mpr ?_
    dsimp only
    rw [e]
    have := (hrow i).1
  · nlinarith [mul_nonneg hw (sub_nonneg.mpr h), mul_nonneg this.le (mul_nonneg hw (sub_nonneg.mpr h))]
  · nlinarith [mul_nonneg hw (sub_nonneg.mpr h), mul_nonneg this.le (mul_nonneg hw (sub_nonneg.mpr h))]

theorem forall₂_filter {α β : Type} {p : α → Bool} {q : β → Bool} {R S : α → β → Prop} {L : List α} {L' : List β}
    (h : List.Forall₂ R L L') (hpq : ∀ x y, R x y → q y = p x) (hS : ∀ x y, R x y → p x = true → S x y) :
    List.Forall₂ S (L.filter p) (L'.filter q) := by
  induction h with
  | nil => exact .nil
  | @cons x y L L' hxy _ ih =>
    have e := hpq x y hxy
    cases hp : p x
    · rw [List.filter_cons_of_neg (by simp [hp]), List.filter_cons_of_neg (by simp [e, hp])]; exact ih
    · rw [List.filter_cons_of_pos hp, List.filter_cons_of_pos (e.trans hp)]; exact .cons (hS x y hxy hp) ih

theorem forall₂_and {α β : Type} {R S : α → β → Prop} {L : List α} {L' : List β} (h : List.Forall₂ R L L')
    (h' : List.Forall₂ S L L') : List.Forall₂ (fun x y => R x y ∧ S x y) L L' := by
  induction h with
  | nil => exact .nil
  | cons hxy _ ih => cases h' with | cons h1 h2 => exact .cons ⟨hxy, h1⟩ (ih h2)

/-- One row of a list whose saturations are multiplied. -/
theorem poreRow_scaled {L L' : List (Pore n)} {i : Fin n} {u : ℝ}
    (h : List.Forall₂ (fun z z' : Pore n => z'.fluid = z.fluid ∧ z'.sat i = u * z.sat i) L L') :
    poreRow L' i = (poreRow L i).map fun z => (z.1, u * z.2) := by
  induction h with
  | nil => rfl
  | cons hxy _ ih =>
    simp only [poreRow, List.map_cons, List.map_map] at ih ⊢
    rw [hxy.1, hxy.2, ih]

/-- Between two values: `a` and `b` with weight `p`, against `a'` and `b'` with the smaller weight `p'`. -/
theorem between_le {a b a' b' p p' : ℝ} (h0 : 0 ≤ p') (hle : p' ≤ p) (h1 : p' = 0 ∨ a' = a)
    (h2 : p' = 1 ∨ p = 0 ∨ b' ≤ a) (h3 : p = 1 ∨ b' = b) (hp : p ≤ 1) : (a' - b') * p' + b' ≤ (a - b) * p + b := by
  rcases h3 with rfl | rfl
  · rcases h1 with rfl | rfl
    · rcases h2 with h2 | h2 | h2
      · norm_num at h2
      · norm_num at h2
      · linarith
    · rcases h2 with rfl | h2 | h2
      · linarith
      · norm_num at h2
      · nlinarith
  · rcases h2 with rfl | rfl | h2
    · have : p = 1 := le_antisymm hp hle
      subst this
      rcases h1 with h1 | rfl
      · norm_num at h1
      · exact le_rfl
    · have : p' = 0 := le_antisymm hle h0
      subst this
      linarith
    · rcases h1 with rfl | rfl
      · nlinarith
      · nlinarith

theorem wood_density_le {L : List (Published.Fluid × ℝ)} {k : ℝ} (hK : ∀ z ∈ L, z.1.ρ ≤ k ∧ 0 ≤ z.2)
    (hS : 0 < (L.map fun z => z.2).sum) : (Published.wood L).ρ ≤ k := by
  unfold Published.wood
  dsimp only
  generalize hSe : (L.map fun z => z.2).sum = S at hS
  calc (L.map fun z => z.2 / S * z.1.ρ).sum ≤ (L.map fun z => z.2 * (k / S)).sum := by
        apply List.sum_le_sum
        intro z hz
        obtain ⟨a, c⟩ := hK z hz
        have : 0 ≤ z.2 / S := div_nonneg c hS.le
        calc z.2 / S * z.1.ρ ≤ z.2 / S * k := mul_le_mul_of_nonneg_left a this
          _ = z.2 * (k / S) := by ring
    _ = k := by rw [List.sum_map_mul_right, hSe]; field_simp

theorem le_wood_density {L : List (Published.Fluid × ℝ)} {k : ℝ} (hK : ∀ z ∈ L, k ≤ z.1.ρ ∧ 0 ≤ z.2)
    (hS : 0 < (L.map fun z => z.2).sum) : k ≤ (Published.wood L).ρ := by
  unfold Published.wood
  dsimp only
  generalize hSe : (L.map fun z => z.2).sum = S at hS
  calc k = (L.map fun z => z.2 * (k / S)).sum := by rw [List.sum_map_mul_right, hSe]; field_simp
    _ ≤ (L.map fun z => z.2 / S * z.1.ρ).sum := by
        apply List.sum_le_sum
        intro z hz
        obtain ⟨a, c⟩ := hK z hz
        have : 0 ≤ z.2 / S := div_nonneg c hS.le
        calc z.2 * (k / S) = z.2 / S * k := by ring
          _ ≤ z.2 / S * z.1.ρ := mul_le_mul_of_nonneg_left a this

/-- Two mixtures, every constituent of the one above every constituent of the other. -/
theorem wood_le_wood {G L : List (Published.Fluid × ℝ)} (hG : ∀ z ∈ G, 0 < z.1.K ∧ 0 ≤ z.2)
    (hL : ∀ z ∈ L, 0 < z.1.K ∧ 0 ≤ z.2) (hSG : 0 < (G.map fun z => z.2).sum) (hSL : 0 < (L.map fun z => z.2).sum)
    (h : ∀ z ∈ G, ∀ w ∈ L, z.1.K ≤ w.1.K) : (Published.wood G).K ≤ (Published.wood L).K := by
  have hp := wood_pos hG hSG
  exact le_wood hp (fun w hw => ⟨wood_le (hL w hw).1 (fun z hz => ⟨(hG z hz).1, h z hz w hw, (hG z hz).2⟩) hSG,
    (hL w hw).2⟩) hSL

theorem wood_density_le_wood {G L : List (Published.Fluid × ℝ)} (hG : ∀ z ∈ G, 0 ≤ z.2)
    (hL : ∀ z ∈ L, 0 ≤ z.2) (hSG : 0 < (G.map fun z => z.2).sum) (hSL : 0 < (L.map fun z => z.2).sum)
    (h : ∀ z ∈ G, ∀ w ∈ L, z.1.ρ ≤ w.1.ρ) : (Published.wood G).ρ ≤ (Published.wood L).ρ :=
  le_wood_density (fun w hw => ⟨wood_density_le (fun z hz => ⟨h z hz w hw, hG z hz⟩) hSG, hL w hw⟩) hSL

/-- **C148, gas for liquid.** In Brie's mixing, taking the same share of every liquid away (keeping the part `t`, maybe
nothing) and raising or lowering all gases by a common factor, or putting gases where there were none: if no gas
is stiffer than a liquid, the run still succeeds, the rock is the same and the saturated rock is nowhere stiffer;
where no gas is heavier than a liquid it is nowhere heavier. -/
theorem C148_gas_for_liquid (co2 : CO2Model n) {s : Sections n} {pores pores' : List (Pore n)} {t : Fin n → ℝ}
    {x : Mat n × (Fin n → Published.Rock) × (Fin n → ℝ)} {L : RockList n} {ob rf rk P : Fin n → ℝ}
    {mx : Option (Fin n → ℝ)} (hs : s.Says x L ob rf rk P mx) (hx : x.1.Coherent) {T P' : Fin n → ℝ}
    (hp : s.Filled co2 T P pores P') {F : Fin n → Published.Fluid} (hF : s.Mixes pores F)
    {φ : Fin n → ℝ} (hφ : s.porosity = finC φ) {sand dry dense : Fin n → Published.Rock}
    (hmodel : s.sandModel.Gives (mineralAt x L) φ (effectiveAt mx ob rk) sand dense) (hv : ∀ i, (sand i).Valid)
    (hadj : Adjusts (mineralAt x L) φ (effectiveAt mx ob rk) (effectiveAt mx ob rf) rk s.adjustments sand dry)
    (hrow : ∀ i, 0 < φ i ∧ (dry i).K < (dense i).K ∧ (F i).K < (dense i).K)
    (hbrie : s.mixMethod = .brie ∧ s.brieGases = none)
    (hex : Exchanged pores pores' t) (ht : ∀ i, 0 ≤ t i ∧ t i ≤ 1) (hn' : ∀ z ∈ pores', ∀ i, 0 ≤ z.sat i)
    (hboth : BothPhases (pores'.filter fun z => ¬ z.kind.IsGas) (pores'.filter fun z => z.kind.IsGas))
    (htotal : ∀ i, poreTotal pores' i ≤ 1 + 1e-5)
    (hsoft : ∀ g ∈ pores, g.kind.IsGas → ∀ l ∈ pores, ¬ l.kind.IsGas → ∀ i, (g.fluid i).K ≤ (l.fluid i).K) :
    ∃ r r', calculate co2 s = .ok r ∧ calculate co2 (s.withPores pores') = .ok r' ∧
      r'.kmin = r.kmin ∧ r'.kdry = r.kdry ∧ r'.kminFls = r.kminFls ∧ r'.mysat = r.mysat ∧
      ∀ i, r'.ksat i ≤ r.ksat i ∧
        ((∀ g ∈ pores, g.kind.IsGas → ∀ l ∈ pores, ¬ l.kind.IsGas → (g.fluid i).ρ ≤ (l.fluid i).ρ) →
          r'.rsat i ≤ r.rsat i) := by
  have hsame : SamePores pores pores' := hex.same
  have hp' : (s.withPores pores').Filled co2 T P pores' P' := by
    refine ⟨rfl, hp.temperature, ?_, hp.fills.resat hsame, hn', htotal⟩
    rintro rfl
    exact hp.nonempty (List.forall₂_nil_right_iff.mp hex.same)
  -- the two phases, list by list
  have hA : ∀ i, List.Forall₂ (fun z z' : Pore n => z'.fluid = z.fluid ∧ z'.sat i = t i * z.sat i)
      (pores.filter fun z => ¬ z.kind.IsGas) (pores'.filter fun z => ¬ z.kind.IsGas) := fun i =>
    forall₂_filter (forall₂_and hex.same (hex.liquids i)) (fun x y h => by simp [h.1.1])
      (fun x y h hx => ⟨h.1.2.2, h.2 (by simpa using hx)⟩)
  have hB : List.Forall₂ (fun z z' : Pore n => z'.fluid = z.fluid)
      (pores.filter fun z => z.kind.IsGas) (pores'.filter fun z => z.kind.IsGas) :=
    forall₂_filter hex.same (fun x y h => by simp [h.1]) (fun x y h _ => h.2.2)
  have ne : ∀ {R : Pore n → Pore n → Prop} {M M' : List (Pore n)}, List.Forall₂ R M M' → M' ≠ [] → M ≠ [] := by
    rintro R M M' h hM rfl
    exact hM (List.forall₂_nil_left_iff.mp h)
  cases hF with
  | wood hm hw => rw [hbrie.1] at hm; cases hm
  | brieNoGas hm e he hg hn hw =>
    refine absurd (List.filter_eq_nil_iff.mpr fun z hz => ?_) (ne hB hboth.gases)
    simpa using hn z hz
  | brieAllGas hm e he hg hn hw =>
    have hA' : List.Forall₂ (fun z z' : Pore n => z'.fluid = z.fluid)
        (pores.filter fun z => ¬ z.kind.IsGas) (pores'.filter fun z => ¬ z.kind.IsGas) :=
      forall₂_filter hex.same (fun x y h => by simp [h.1]) (fun x y h _ => h.2.2)
    refine absurd (List.filter_eq_nil_iff.mpr fun z hz => ?_) (ne hA' hboth.liquids)
    simpa using hn z hz
  | brieGiven hm e he he0 idx hg hd' hr hw => rw [hbrie.2] at hg; cases hg
  | brieGivenNone hm e he hg hw => rw [hbrie.2] at hg; cases hg
  | brieGivenAll hm e he idx hg hd' hr hw => rw [hbrie.2] at hg; cases hg
  | brie hm e he he0 hg hb =>
    have hsum : ∀ (M : List (Pore n)) i, ((poreRow M i).map fun z => z.2).sum = poreTotal M i := by
      intro M i; simp [poreRow, poreTotal, Function.comp_def]
    have hrowL : ∀ (p : Pore n → Bool) (i : Fin n), ∀ z ∈ poreRow (pores.filter p) i, 0 < z.1.K ∧ 0 ≤ z.2 := by
      intro p i z hz
      obtain ⟨w, hw, rfl⟩ := List.mem_map.mp hz
      have hw' := (List.mem_filter.mp hw).1
      exact ⟨(hp.fills.pos hw' i).1, hp.nonneg w hw' i⟩
    have hrowL' : ∀ (p : Pore n → Bool) (i : Fin n), ∀ z ∈ poreRow (pores'.filter p) i, 0 < z.1.K ∧ 0 ≤ z.2 := by
      intro p i z hz
      obtain ⟨w, hw, rfl⟩ := List.mem_map.mp hz
      have hw' := (List.mem_filter.mp hw).1
      exact ⟨(hp'.fills.pos hw' i).1, hn' w hw' i⟩
    -- fluids of the new list are fluids of the old one
    have old : ∀ z' ∈ pores'.filter (fun z => z.kind.IsGas), ∃ z ∈ pores, z.kind.IsGas ∧ z'.fluid = z.fluid := by
      intro z' hz'
      have key : ∀ {M M' : List (Pore n)}, List.Forall₂ (fun z z' : Pore n => z'.fluid = z.fluid) M M' →
          ∀ z' ∈ M', ∃ z ∈ M, z'.fluid = z.fluid := by
        intro M M' h
        induction h with
        | nil => simp
        | cons hxy _ ih =>
          intro z' hz'
          rcases List.mem_cons.mp hz' with rfl | hz'
          · exact ⟨_, List.mem_cons_self, hxy⟩
          · obtain ⟨z, hz, e⟩ := ih z' hz'; exact ⟨z, List.mem_cons_of_mem _ hz, e⟩
      obtain ⟨z, hz, e⟩ := key hB z' hz'
      have := List.mem_filter.mp hz
      exact ⟨z, this.1, by simpa using this.2, e⟩
    have hSA : ∀ i, poreTotal (pores'.filter fun z => ¬ z.kind.IsGas) i
        = t i * poreTotal (pores.filter fun z => ¬ z.kind.IsGas) i := by
      intro i
      rw [← hsum, poreRow_scaled (hA i), ← hsum, List.map_map, ← List.sum_map_mul_left]
      rfl
    have hS0 : ∀ i, 0 ≤ poreTotal (pores.filter fun z => ¬ z.kind.IsGas) i := fun i =>
      (hb.liquid i).elim (le_trans (by norm_num)) ge_of_eq
    have hS' : ∀ i, 0 ≤ poreTotal (pores'.filter fun z => ¬ z.kind.IsGas) i := fun i => by
      rw [hSA]; exact mul_nonneg (ht i).1 (hS0 i)
    have hle : ∀ i, poreTotal (pores'.filter fun z => ¬ z.kind.IsGas) i
        ≤ poreTotal (pores.filter fun z => ¬ z.kind.IsGas) i := fun i => by
      rw [hSA]; exact mul_le_of_le_one_left (hS0 i) (ht i).2
    -- the liquids, the gases before and after, the gases against the liquids
    have hliq : ∀ i, poreTotal (pores'.filter fun z => ¬ z.kind.IsGas) i = 0 ∨
        Published.wood (poreRow (pores'.filter fun z => ¬ z.kind.IsGas) i)
          = Published.wood (poreRow (pores.filter fun z => ¬ z.kind.IsGas) i) := by
      intro i
      by_cases h0 : t i = 0
      · left; rw [hSA, h0, zero_mul]
      · right; rw [poreRow_scaled (hA i), wood_scaled h0]
    have hgas : ∀ i, poreTotal (pores.filter fun z => ¬ z.kind.IsGas) i = 1 ∨
        Published.wood (poreRow (pores'.filter fun z => z.kind.IsGas) i)
          = Published.wood (poreRow (pores.filter fun z => z.kind.IsGas) i) := by
      intro i
      rcases hb.gas i with h1 | h1
      · right
        rcases hex.gases i with ⟨u, hu, h2⟩ | h2
        · have hB' : List.Forall₂ (fun z z' : Pore n => z'.fluid = z.fluid ∧ z'.sat i = u * z.sat i)
              (pores.filter fun z => z.kind.IsGas) (pores'.filter fun z => z.kind.IsGas) :=
            forall₂_filter (forall₂_and hex.same h2) (fun x y h => by simp [h.1.1])
              (fun x y h hx => ⟨h.1.2.2, h.2 (by simpa using hx)⟩)
          rw [poreRow_scaled hB', wood_scaled hu.ne']
        · have : poreTotal (pores.filter fun z => z.kind.IsGas) i = 0 := by
            refine List.sum_eq_zero fun a ha => ?_
            obtain ⟨z, hz, rfl⟩ := List.mem_map.mp ha
            have hz' := List.mem_filter.mp hz
            exact h2 z hz'.1 (by simpa using hz'.2)
          rw [this] at h1
          norm_num at h1
      · exact .inl h1
    have cross : ∀ i, ∀ (R : ℝ → ℝ → Prop) (f : Published.Fluid → ℝ),
        (∀ g ∈ pores, g.kind.IsGas → ∀ l ∈ pores, ¬ l.kind.IsGas → R (f (g.fluid i)) (f (l.fluid i))) →
        ∀ z ∈ poreRow (pores'.filter fun z => z.kind.IsGas) i,
          ∀ w ∈ poreRow (pores.filter fun z => ¬ z.kind.IsGas) i, R (f z.1) (f w.1) := by
      intro i R f hR z hz w hw
      obtain ⟨z, hz1, rfl⟩ := List.mem_map.mp hz
      obtain ⟨w, hw1, rfl⟩ := List.mem_map.mp hw
      obtain ⟨z0, hz0, hg0, ez⟩ := old z hz1
      have hw2 := List.mem_filter.mp hw1
      dsimp only
      rw [ez]
      exact hR z0 hz0 hg0 w hw2.1 (by simpa using hw2.2)
    have pos : ∀ {a : ℝ}, 1e-15 ≤ a → 0 < a := fun h => lt_of_lt_of_le (by norm_num) h
    have hF' := Sections.Mixes.brie (s := s.withPores pores') (L := pores') hm e he he0 hg hboth
    obtain ⟨c1, c2, c3⟩ := softer_fluid hs hx hp (.brie hm e he he0 hg hb) hp' hF' hφ hmodel hv hadj hrow fun i => by
      unfold Published.brie
      dsimp only
      rw [hsum, hsum]
      refine between_le (Real.rpow_nonneg (hS' i) _) (Real.rpow_le_rpow (hS' i) (hle i) he0.le) ?_ ?_ ?_
        (Real.rpow_le_one (hS0 i) (hb.total i) he0.le)
      · rcases hliq i with h | h
        · left; rw [h, Real.zero_rpow he0.ne']
        · right; rw [h]
      · rcases hboth.gas i with h | h
        · rcases hb.liquid i with h' | h'
          · right; right
            exact wood_le_wood (hrowL' (fun z => z.kind.IsGas) i) (hrowL (fun z => ¬ z.kind.IsGas) i)
              (by rw [hsum]; exact pos h) (by rw [hsum]; exact pos h')
              (cross i (· ≤ ·) (·.K) fun g h1 h2 l h3 h4 => hsoft g h1 h2 l h3 h4 i)
          · right; left; rw [h', Real.zero_rpow he0.ne']
        · left; rw [h, Real.one_rpow]
      · rcases hgas i with h | h
        · left; rw [h, Real.one_rpow]
        · right; rw [h]
    refine ⟨_, _, c1, c2, rfl, rfl, rfl, rfl, fun i => ⟨Num.fin_le.mpr (c3 i), fun hρ => Num.fin_le.mpr ?_⟩⟩
    dsimp only
    unfold Published.brie
    dsimp only
    rw [hsum, hsum]
    refine add_le_add le_rfl (mul_le_mul_of_nonneg_left ?_ (hrow i).1.le)
    have key := between_le (a := (Published.wood (poreRow (pores.filter fun z => ¬ z.kind.IsGas) i)).ρ)
      (b := (Published.wood (poreRow (pores.filter fun z => z.kind.IsGas) i)).ρ)
      (a' := (Published.wood (poreRow (pores'.filter fun z => ¬ z.kind.IsGas) i)).ρ)
      (b' := (Published.wood (poreRow (pores'.filter fun z => z.kind.IsGas) i)).ρ) (hS' i) (hle i)
      ((hliq i).imp id fun h => by rw [h]) ?_ ((hgas i).imp id fun h => by rw [h]) (hb.total i)
    · linarith
    · rcases hboth.gas i with h | h
      · rcases hb.liquid i with h' | h'
        · right; right
          exact wood_density_le_wood (fun z hz => (hrowL' (fun z => z.kind.IsGas) i z hz).2)
            (fun z hz => (hrowL (fun z => ¬ z.kind.IsGas) i z hz).2)
            (by rw [hsum]; exact pos h) (by rw [hsum]; exact pos h') (cross i (· ≤ ·) (·.ρ) hρ)
        · exact .inr (.inl h')
      · exact .inl h

/-! ### Examples -/

/-- Brine, oil and carbon dioxide (of any fluid model that gives these values). -/
noncomputable def exThree : List (Pore 2) :=
  [⟨.material (Mat.ofReal (fun _ => 2.8e9) (fun _ => 0) (fun _ => 1030)), none, fun _ => ⟨2.8e9, 1030⟩, fun _ => 0.6⟩,
   ⟨.material (Mat.ofReal (fun _ => 1.2e9) (fun _ => 0) (fun _ => 800)), none, fun _ => ⟨1.2e9, 800⟩, fun _ => 0.2⟩,
   ⟨.carbonDioxide false, some .spanWagner, fun _ => ⟨0.1e9, 600⟩, fun _ => 0.2⟩]

noncomputable def exThreeCo2 : CO2Model 2 := fun _ _ _ => .ok (Mat.ofReal (fun _ => 0.1e9) (fun _ => 0) (fun _ => 600))

/-- Quartz with a dry rock of 12 GPa, 10 GPa and 2000 kg/m³ around `exThree`. -/
noncomputable def exThreeRock (method : MixMethod) : Sections 2 where
  minerals := [⟨Mat.ofReal (fun _ => 36.8e9) (fun _ => 44e9) (fun _ => 2650), some (finC fun _ => 1)⟩]
  temperature := finC fun _ => 75
  fluids := exThree.map fun x => ⟨x.kind, x.model, some (finC x.sat)⟩
  mixMethod := method
  brieConstant := .fin 3
  brieGases := none
  fluidModel := .default
  sandModel := .polyfit true ⟨some (rowCoeffs 2000 0), some (rowCoeffs 12e9 0), some (rowCoeffs 10e9 0)⟩
  porosity := finC fun _ => 0.2
  adjustments := []
  overburden := finC fun _ => 60e6
  reference := finC fun _ => 40e6
  fluidPressure := some (finC fun _ => 30e6)
  maxEffective := none
  rockPressure := none

theorem exThreeRock_says (method : MixMethod) : (exThreeRock method).Says
    (Mat.ofReal (fun _ => 36.8e9) (fun _ => 44e9) (fun _ => 2650), (fun _ => quartzRock), fun _ => 1) []
    (fun _ => 60e6) (fun _ => 40e6) (fun _ => 30e6) (fun _ => 30e6) none := by
  have hq : quartzRock.Valid := by norm_num [Published.Rock.Valid, quartzRock]
  refine ⟨rfl, ?_, fun _ => by norm_num, rfl, rfl, rfl, rfl, rfl⟩
  intro y hy
  rw [List.mem_singleton.mp hy]
  exact ⟨⟨rfl, rfl, rfl, fun _ => hq⟩, fun _ => by norm_num⟩

theorem exThreeRock_filled (method : MixMethod) :
    (exThreeRock method).Filled exThreeCo2 (fun _ => 75) (fun _ => 30e6) exThree (fun _ => 30e6 / 1e6) := by
  refine ⟨rfl, rfl, by simp [exThree], ?_, ?_, fun i => by norm_num [poreTotal, exThree]⟩
  · exact .explicit rfl ⟨rfl, rfl, rfl, fun _ => by norm_num⟩ (.explicit rfl ⟨rfl, rfl, rfl, fun _ => by norm_num⟩
      (.carbonDioxide (m := Mat.ofReal (fun _ => 0.1e9) (fun _ => 0) (fun _ => 600)) rfl rfl rfl
        ⟨rfl, rfl, rfl, fun _ => by norm_num⟩ (.nil _)))
  · intro z hz i
    simp only [exThree, List.mem_cons, List.not_mem_nil, or_false] at hz
    rcases hz with rfl | rfl | rfl <;> norm_num

theorem exThreeRock_gives : SandModel.Gives (n := 2) (fun _ => quartzRock) (fun _ => 0.2)
    (effectiveAt none (fun _ => 60e6) (fun _ => 30e6)) (exThreeRock method).sandModel (fun _ => ⟨12e9, 10e9, 2000⟩)
    (fun _ => quartzRock) := by
  have row : ∀ a b x y : ℝ, surface (rowCoeffs a b) x y = a + b * y := rowCoeffs_sum
  have hsand : surfaceModuli (rowCoeffs 2000 0) (rowCoeffs 12e9 0) (rowCoeffs 10e9 0) quartzRock 0.2
      = ⟨12e9, 10e9, 2000⟩ := by simp only [surfaceModuli, row, zero_mul, add_zero]
  have := SandModel.Gives.moduli (a := fun _ : Fin 2 => quartzRock) (φ := fun _ => 0.2)
    (p := effectiveAt none (fun _ => 60e6) (fun _ => 30e6)) (some (rowCoeffs 2000 0)) (some (rowCoeffs 12e9 0))
    (some (rowCoeffs 10e9 0))
  simp only [Option.getD_some, hsand] at this
  exact this

/-- A tenth of the pore space from brine to oil. -/
example := C148_moved exThreeCo2 (s := exThreeRock .wood) (pores := exThree)
  (a := ⟨.material (Mat.ofReal (fun _ => 2.8e9) (fun _ => 0) (fun _ => 1030)), none, fun _ => ⟨2.8e9, 1030⟩, fun _ => 0.6⟩)
  (b := ⟨.material (Mat.ofReal (fun _ => 1.2e9) (fun _ => 0) (fun _ => 800)), none, fun _ => ⟨1.2e9, 800⟩, fun _ => 0.2⟩)
  (d := fun _ => 0.1) (exThreeRock_says _)
  (mkModuli_coherent (mkModuli_rock (n := 2) (r := fun _ => quartzRock) fun _ => by
    norm_num [Published.Rock.Valid, quartzRock])) (exThreeRock_filled _)
  (.wood rfl ⟨by simp [exThree], fun i => by norm_num [poreTotal, exThree]⟩) rfl exThreeRock_gives
  (fun _ => by norm_num [Published.Rock.Valid]) (.nil _)
  (fun i => ⟨by norm_num, by norm_num [quartzRock], by norm_num [quartzRock, Published.wood, poreRow, exThree]⟩)
  ⟨⟨[], [], [⟨.carbonDioxide false, some .spanWagner, fun _ => ⟨0.1e9, 600⟩, fun _ => 0.2⟩], rfl, rfl⟩,
    fun _ => by norm_num, fun _ => by norm_num⟩
  (by simp [exThreeRock]) (fun _ => by norm_num)

/-- The three with other saturations. -/
noncomputable def exInject (a b g : Fin 2 → ℝ) : List (Pore 2) :=
  [⟨.material (Mat.ofReal (fun _ => 2.8e9) (fun _ => 0) (fun _ => 1030)), none, fun _ => ⟨2.8e9, 1030⟩, a⟩,
   ⟨.material (Mat.ofReal (fun _ => 1.2e9) (fun _ => 0) (fun _ => 800)), none, fun _ => ⟨1.2e9, 800⟩, b⟩,
   ⟨.carbonDioxide false, some .spanWagner, fun _ => ⟨0.1e9, 600⟩, g⟩]

theorem exInject_liquids (a b g : Fin 2 → ℝ) : (exInject a b g).filter (fun z => ¬ z.kind.IsGas)
    = [⟨.material (Mat.ofReal (fun _ => 2.8e9) (fun _ => 0) (fun _ => 1030)), none, fun _ => ⟨2.8e9, 1030⟩, a⟩,
   ⟨.material (Mat.ofReal (fun _ => 1.2e9) (fun _ => 0) (fun _ => 800)), none, fun _ => ⟨1.2e9, 800⟩, b⟩] := by
  simp [exInject, FluidKind.IsGas, FluidKind.type]

theorem exInject_gases (a b g : Fin 2 → ℝ) : (exInject a b g).filter (fun z => z.kind.IsGas)
    = [⟨.carbonDioxide false, some .spanWagner, fun _ => ⟨0.1e9, 600⟩, g⟩] := by
  simp [exInject, FluidKind.IsGas, FluidKind.type]

theorem exInject_filled (a b g : Fin 2 → ℝ) (h : ∀ i, 0 ≤ a i ∧ 0 ≤ b i ∧ 0 ≤ g i ∧ a i + b i + g i ≤ 1) :
    ∃ P', ((exThreeRock .brie).withPores (exInject a b g)).Filled exThreeCo2 (fun _ => 75) (fun _ => 30e6)
      (exInject a b g) P' := by
  have hf := exThreeRock_filled .brie
  refine ⟨_, rfl, hf.temperature, by simp [exInject], hf.fills.resat (.cons ⟨rfl, rfl, rfl⟩ (.cons ⟨rfl, rfl, rfl⟩
    (.cons ⟨rfl, rfl, rfl⟩ .nil))), ?_, fun i => ?_⟩
  · intro z hz i
    simp only [exInject, List.mem_cons, List.not_mem_nil, or_false] at hz
    rcases hz with rfl | rfl | rfl
    · exact (h i).1
    · exact (h i).2.1
    · exact (h i).2.2.1
  · have := (h i).2.2.2
    simp only [poreTotal, exInject, List.map_cons, List.map_nil, List.sum_cons, List.sum_nil]
    norm_num
    linarith

/-- Brine and oil, with carbon dioxide already there in the first row only; a quarter of the liquids is replaced by
carbon dioxide. -/
example : ∃ r r', calculate exThreeCo2 ((exThreeRock .brie).withPores (exInject ![0.6, 0.75] ![0.2, 0.25] ![0.2, 0])) = .ok r ∧
    calculate exThreeCo2 ((exThreeRock .brie).withPores (exInject ![0.45, 0.5625] ![0.15, 0.1875] ![0.4, 0.25])) = .ok r' ∧
    ∀ i, r'.ksat i ≤ r.ksat i := by
  have hp := exInject_filled ![0.6, 0.75] ![0.2, 0.25] ![0.2, 0] (fun i => by fin_cases i <;> norm_num)
  obtain ⟨P', hp⟩ := hp
  have hs := exThreeRock_says .brie
  obtain ⟨r, r', h1, h2, -, -, -, -, h⟩ := C148_gas_for_liquid exThreeCo2
    (pores' := exInject ![0.45, 0.5625] ![0.15, 0.1875] ![0.4, 0.25]) (t := fun _ => 0.75)
    (s := (exThreeRock .brie).withPores (exInject ![0.6, 0.75] ![0.2, 0.25] ![0.2, 0]))
    ⟨hs.1, hs.2, hs.3, hs.4, hs.5, hs.6, hs.7, hs.8⟩
    (mkModuli_coherent (mkModuli_rock (n := 2) (r := fun _ => quartzRock) fun _ => by
      norm_num [Published.Rock.Valid, quartzRock])) hp
    (.brie rfl 3 rfl (by norm_num) rfl
      ⟨by rw [exInject_liquids]; simp, by rw [exInject_gases]; simp,
       fun i => by rw [exInject_liquids]; fin_cases i <;> norm_num [poreTotal],
       fun i => by rw [exInject_liquids]; fin_cases i <;> norm_num [poreTotal],
       fun i => by rw [exInject_liquids, exInject_gases]; fin_cases i <;> norm_num [poreTotal]⟩) rfl (exThreeRock_gives (method := .brie))
    (fun _ => by norm_num [Published.Rock.Valid]) (.nil _)
    (fun i => ⟨by norm_num, by norm_num [quartzRock], by
      rw [exInject_liquids, exInject_gases]
      have : ((4:ℝ) / 5) ^ (3:ℝ) = (4 / 5) ^ 3 := by norm_cast
      fin_cases i <;> norm_num [quartzRock, Published.brie, Published.wood, poreRow, this]⟩)
    ⟨rfl, rfl⟩
    ⟨.cons ⟨rfl, rfl, rfl⟩ (.cons ⟨rfl, rfl, rfl⟩ (.cons ⟨rfl, rfl, rfl⟩ .nil)),
     fun i => .cons (fun _ => by fin_cases i <;> norm_num) (.cons (fun _ => by fin_cases i <;> norm_num)
      (.cons (fun h => absurd (by simp [FluidKind.IsGas, FluidKind.type]) h) .nil)),
     fun i => by
      fin_cases i
      · refine .inl ⟨2, by norm_num, .cons (fun h => ?_) (.cons (fun h => ?_) (.cons (fun _ => by norm_num) .nil))⟩ <;>
          simp [FluidKind.IsGas, FluidKind.type] at h
      · refine .inr fun z hz h => ?_
        simp only [exInject, List.mem_cons, List.not_mem_nil, or_false] at hz
        rcases hz with rfl | rfl | rfl
        · simp [FluidKind.IsGas, FluidKind.type] at h
        · simp [FluidKind.IsGas, FluidKind.type] at h
        · norm_num⟩
    (fun _ => by norm_num)
    (by
      intro z hz i
      simp only [exInject, List.mem_cons, List.not_mem_nil, or_false] at hz
      rcases hz with rfl | rfl | rfl <;> fin_cases i <;> norm_num)
    ⟨by rw [exInject_liquids]; simp, by rw [exInject_gases]; simp,
       fun i => by rw [exInject_liquids]; fin_cases i <;> norm_num [poreTotal],
       fun i => by rw [exInject_liquids]; fin_cases i <;> norm_num [poreTotal],
       fun i => by rw [exInject_liquids, exInject_gases]; fin_cases i <;> norm_num [poreTotal]⟩
    (fun i => by fin_cases i <;> norm_num [poreTotal, exInject])
    (by
      intro g hg h1 l hl h2 i
      simp only [exInject, List.mem_cons, List.not_mem_nil, or_false] at hg hl
      rcases hg with rfl | rfl | rfl
      · simp [FluidKind.IsGas, FluidKind.type] at h1
      · simp [FluidKind.IsGas, FluidKind.type] at h1
      · rcases hl with rfl | rfl | rfl
        · norm_num
        · norm_num
        · simp [FluidKind.IsGas, FluidKind.type] at h2)
  exact ⟨r, r', h1, h2, fun i => (h i).1⟩

end OPE
