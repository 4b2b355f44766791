import Verif.Props.Published5
import Verif.Props.Minerals
import Verif.Props.Published4

/-!
# C139: listing a constituent in two parts
-/

namespace OPE

open Classical

variable {n : ℕ}

/-! ### Fluids -/

/-- `L'` is `L` with one entry listed in two parts. -/
def FluidList.Split (L L' : FluidList n) : Prop :=
  ∃ (A B : FluidList n) (m : Mat n) (F : Fin n → Published.Fluid) (s t : Fin n → ℝ), L = A ++ (m, F, fun i => s i + t i) :: B ∧ L' = A ++ (m, F, s) :: (m, F, t) :: B ∧
    (∀ i, 0 ≤ s i) ∧ ∀ i, 0 ≤ t i

theorem split_sum {L L' : FluidList n} (h : L.Split L') (i : Fin n) (g : Published.Fluid → ℝ → ℝ)
    (hg : ∀ F a b, g F (a + b) = g F a + g F b) :
    ((L'.at i).map fun x => g x.1 x.2).sum = ((L.at i).map fun x => g x.1 x.2).sum := by
  obtain ⟨A, B, m, F, s, t, rfl, rfl, -, -⟩ := h
  simp only [FluidList.at, List.map_append, List.map_cons, List.sum_append, List.sum_cons, hg]
  ring

theorem split_wood {L L' : FluidList n} (h : L.Split L') (i : Fin n) :
    Published.wood (L'.at i) = Published.wood (L.at i) := by
  unfold Published.wood
  have e := split_sum h i (fun _ x => x) (fun _ _ _ => rfl)
  dsimp only
  rw [e, split_sum h i (fun F x => x / ((L.at i).map fun x => x.2).sum / F.K) (fun F a b => by ring),
    split_sum h i (fun F x => x / ((L.at i).map fun x => x.2).sum * F.ρ) (fun F a b => by ring)]

theorem split_total {L L' : FluidList n} (h : L.Split L') (i : Fin n) :
    (L'.map fun x => x.2.2 i).sum = (L.map fun x => x.2.2 i).sum := by
  have := split_sum h i (fun _ x => x) (fun _ _ _ => rfl)
  simpa [FluidList.at, List.map_map, Function.comp_def] using this

theorem split_good {L L' : FluidList n} (h : L.Split L') (hL : L.Good) : L'.Good := by
  have hh := h
  obtain ⟨A, B, m, F, s, t, rfl, rfl, hs, ht⟩ := hh
  refine ⟨by simp, fun x hx => ?_, fun x hx => ?_, fun i => by rw [split_total h i]; exact hL.total i⟩
  · simp only [List.mem_append, List.mem_cons] at hx
    rcases hx with hx | rfl | rfl | hx
    · exact hL.fluid x (by simp [hx])
    · exact hL.fluid (m, F, fun i => s i + t i) (by simp)
    · exact hL.fluid (m, F, fun i => s i + t i) (by simp)
    · exact hL.fluid x (by simp [hx])
  · simp only [List.mem_append, List.mem_cons] at hx
    rcases hx with hx | rfl | rfl | hx
    · exact hL.nonneg x (by simp [hx])
    · exact hs
    · exact ht
    · exact hL.nonneg x (by simp [hx])

/-- The same fluid as far as any result is concerned. -/
def SameProperties (m m' : Mat n) : Prop := m'.bulk = m.bulk ∧ m'.shear = m.shear ∧ m'.density = m.density

theorem isFluid_same {m m' : Mat n} {F : Fin n → Published.Fluid} (h : m.IsFluid F) (h' : m'.IsFluid F) :
    SameProperties m m' :=
  ⟨h'.1.trans h.1.symm, h'.2.2.1.trans h.2.2.1.symm, h'.2.1.trans h.2.1.symm⟩

theorem split_two_left {L L' G : FluidList n} (h : L.Split L') (hL : TwoPhase L G) : TwoPhase L' G := by
  have hh := h
  obtain ⟨A, B, m, F, s, t, rfl, rfl, hs, ht⟩ := hh
  have hm := hL.fluid (m, F, fun i => s i + t i) (by simp)
  refine ⟨by simp, hL.gases, fun x hx => ?_, fun x hx => ?_, fun i => by rw [split_total h i]; exact hL.total i,
    fun i => by rw [split_total h i]; exact hL.liquid i, fun i => by rw [split_total h i]; exact hL.gas i⟩
  · simp only [List.mem_append, List.mem_cons] at hx
    rcases hx with (hx | rfl | rfl | hx) | hx
    · exact hL.fluid x (by simp [hx])
    · exact hm
    · exact hm
    · exact hL.fluid x (by simp [hx])
    · exact hL.fluid x (by simp [hx])
  · simp only [List.mem_append, List.mem_cons] at hx
    rcases hx with (hx | rfl | rfl | hx) | hx
    · exact hL.nonneg x (by simp [hx])
    · exact hs
    · exact ht
    · exact hL.nonneg x (by simp [hx])
    · exact hL.nonneg x (by simp [hx])

theorem split_two_right {L L' W : FluidList n} (h : L.Split L') (hL : TwoPhase W L) : TwoPhase W L' := by
  have hh := h
  obtain ⟨A, B, m, F, s, t, rfl, rfl, hs, ht⟩ := hh
  have hm := hL.fluid (m, F, fun i => s i + t i) (by simp)
  refine ⟨hL.liquids, by simp, fun x hx => ?_, fun x hx => ?_, hL.total, hL.liquid,
    fun i => by rw [split_total h i]; exact hL.gas i⟩
  · simp only [List.mem_append, List.mem_cons] at hx
    rcases hx with hx | hx | rfl | rfl | hx
    · exact hL.fluid x (by simp [hx])
    · exact hL.fluid x (by simp [hx])
    · exact hm
    · exact hm
    · exact hL.fluid x (by simp [hx])
  · simp only [List.mem_append, List.mem_cons] at hx
    rcases hx with hx | hx | rfl | rfl | hx
    · exact hL.nonneg x (by simp [hx])
    · exact hL.nonneg x (by simp [hx])
    · exact hs
    · exact ht
    · exact hL.nonneg x (by simp [hx])

/-- **C139 (fluids).** Listing a fluid in two entries whose saturations add up to the original one changes neither Wood
nor Brie mixtures (for Brie, wherever the entry is: among the liquids or among the gases). -/
theorem C139_fluids {L L' : FluidList n} (h : L.Split L') :
    (L.Good → ∃ m m', wood (L.map fun x => x.1) (L.map fun x => finC x.2.2) = .ok m ∧
      wood (L'.map fun x => x.1) (L'.map fun x => finC x.2.2) = .ok m' ∧ SameProperties m m') ∧
    (∀ (G : FluidList n) (e : Fin n → ℝ), TwoPhase L G → (∀ i, 0 < e i) →
      ∃ m m', brie (L.map fun x => x.1) (L.map fun x => finC x.2.2) (G.map fun x => x.1)
          (G.map fun x => finC x.2.2) (finC e) = .ok m ∧
        brie (L'.map fun x => x.1) (L'.map fun x => finC x.2.2) (G.map fun x => x.1)
          (G.map fun x => finC x.2.2) (finC e) = .ok m' ∧ SameProperties m m') ∧
    (∀ (W : FluidList n) (e : Fin n → ℝ), TwoPhase W L → (∀ i, 0 < e i) →
      ∃ m m', brie (W.map fun x => x.1) (W.map fun x => finC x.2.2) (L.map fun x => x.1)
          (L.map fun x => finC x.2.2) (finC e) = .ok m ∧
        brie (W.map fun x => x.1) (W.map fun x => finC x.2.2) (L'.map fun x => x.1)
          (L'.map fun x => finC x.2.2) (finC e) = .ok m' ∧ SameProperties m m') := by
  obtain ⟨hw, hb, -⟩ := C104_mixing_and_gassmann (n := n)
  refine ⟨fun hL => ?_, fun G e hG he => ?_, fun W e hW he => ?_⟩
  · obtain ⟨m, h1, h2⟩ := hw L hL
    obtain ⟨m', h1', h2'⟩ := hw L' (split_good h hL)
    simp only [split_wood h] at h2'
    exact ⟨m, m', h1, h1', isFluid_same h2 h2'⟩
  · obtain ⟨m, h1, h2⟩ := hb L G e hG he
    obtain ⟨m', h1', h2'⟩ := hb L' G e (split_two_left h hG) he
    have : (fun i => Published.brie (L'.at i) (G.at i) (e i)) = fun i => Published.brie (L.at i) (G.at i) (e i) := by
      funext i
      unfold Published.brie
      rw [split_wood h, split_sum h i (fun _ x => x) (fun _ _ _ => rfl)]
    rw [this] at h2'
    exact ⟨m, m', h1, h1', isFluid_same h2 h2'⟩
  · obtain ⟨m, h1, h2⟩ := hb W L e hW he
    obtain ⟨m', h1', h2'⟩ := hb W L' e (split_two_right h hW) he
    have : (fun i => Published.brie (W.at i) (L'.at i) (e i)) = fun i => Published.brie (W.at i) (L.at i) (e i) := by
      funext i
      unfold Published.brie
      rw [split_wood h]
    rw [this] at h2'
    exact ⟨m, m', h1, h1', isFluid_same h2 h2'⟩

/-- Brine and gas, the gas listed in two parts. -/
example := (C139_fluids (n := 2)
  (L := [(Mat.ofReal (fun _ => 2.8) (fun _ => 0) (fun _ => 1030), (fun _ => ⟨2.8, 1030⟩), fun _ => 0.6),
    (Mat.ofReal (fun _ => 0.1) (fun _ => 0) (fun _ => 200), (fun _ => ⟨0.1, 200⟩), fun _ => 0.1 + 0.3)])
  (L' := [(Mat.ofReal (fun _ => 2.8) (fun _ => 0) (fun _ => 1030), (fun _ => ⟨2.8, 1030⟩), fun _ => 0.6),
    (Mat.ofReal (fun _ => 0.1) (fun _ => 0) (fun _ => 200), (fun _ => ⟨0.1, 200⟩), fun _ => 0.1),
    (Mat.ofReal (fun _ => 0.1) (fun _ => 0) (fun _ => 200), (fun _ => ⟨0.1, 200⟩), fun _ => 0.3)])
  ⟨[(Mat.ofReal (fun _ => 2.8) (fun _ => 0) (fun _ => 1030), (fun _ => ⟨2.8, 1030⟩), fun _ => 0.6)], [], _, _, _, _,
    rfl, rfl, fun _ => by norm_num, fun _ => by norm_num⟩).1
  ⟨by simp, by
    intro x hx
    simp only [List.mem_cons, List.not_mem_nil, or_false] at hx
    rcases hx with rfl | rfl <;> exact ⟨rfl, rfl, rfl, fun _ => by norm_num⟩, by
    intro x hx i
    simp only [List.mem_cons, List.not_mem_nil, or_false] at hx
    rcases hx with rfl | rfl <;> norm_num, fun i => by norm_num⟩

/-! ### Minerals -/

/-- One mineral entry: the material, what it is in every row, and its fraction. -/
abbrev MineralEntry (n : ℕ) := Mat n × (Fin n → Published.Rock) × (Fin n → ℝ)

/-- The positive minerals and fractions C100 is about. -/
def MineralsGood (L : List (MineralEntry n)) : Prop :=
  (∀ y ∈ L, y.1.IsRock y.2.1 ∧ ∀ i, 0 ≤ y.2.2 i) ∧ ∀ i, (L.map fun y => y.2.2 i).sum ≤ 1 + 1e-5

/-- `a` is nowhere softer than `b`. -/
def Published.Rock.Stiffer (a b : Published.Rock) : Prop := b.K ≤ a.K ∧ b.G ≤ a.G

theorem hs_assoc {a b z t s u : ℝ} (ha : 0 < a + z) (hb : 0 < b + z) (ht : 0 ≤ t) (hs : 0 ≤ s) (hu : 0 ≤ u)
    (h1 : 0 < t + s) :
    Published.hashinShtrikman (Published.hashinShtrikman a b (t / (t + s)) z) b ((t + s) / (t + s + u)) z
      = Published.hashinShtrikman a b (t / (t + (s + u))) z := by
  have h2 : 0 < t + s + u := by linarith
  have e : t / (t + s) / (a + z) + (1 - t / (t + s)) / (b + z) ≠ 0 := by
    have : 0 < t / (t + s) / (a + z) + (1 - t / (t + s)) / (b + z) := by
      rw [show 1 - t / (t + s) = s / (t + s) by field_simp; ring]
      rcases ht.eq_or_lt with h | h
      · subst h; have : 0 < s := by linarith
        rw [zero_div, zero_div, zero_add]; positivity
      · positivity
    exact this.ne'
  unfold Published.hashinShtrikman
  rw [sub_add_cancel, div_eq_mul_inv _ ((_ : ℝ)⁻¹), inv_inv, ← add_assoc t s u]
  congr 2
  field_simp
  ring

/-- What C139 says of one row: positive moduli. -/
def Published.Rock.Ok (a : Published.Rock) : Prop := 0 < a.K ∧ 0 < a.G

theorem hs_one {a b z : ℝ} (ha : a + z ≠ 0) : Published.hashinShtrikman a b 1 z = a := by
  unfold Published.hashinShtrikman; rw [sub_self, zero_div, add_zero, one_div, inv_inv]; ring

theorem hs_same {a z f : ℝ} (ha : a + z ≠ 0) : Published.hashinShtrikman a a f z = a := by
  unfold Published.hashinShtrikman
  rw [← add_div, add_sub_cancel, one_div, inv_inv]; ring

theorem zeta_nonneg {K G : ℝ} (hK : 0 < K) (hG : 0 < G) : 0 ≤ Published.zeta K G := by
  unfold Published.zeta; positivity

theorem hs_ge {a b z f : ℝ} (hb : 0 < b + z) (hab : b ≤ a) (h0 : 0 ≤ f) (h1 : f ≤ 1) :
    b ≤ Published.hashinShtrikman a b f z := by
  unfold Published.hashinShtrikman
  have ha : 0 < a + z := by linarith
  have e : f / (a + z) + (1 - f) / (b + z) ≤ 1 / (b + z) := by
    have : f / (a + z) ≤ f / (b + z) := div_le_div_of_nonneg_left h0 hb (by linarith)
    have e2 : f / (b + z) + (1 - f) / (b + z) = 1 / (b + z) := by rw [← add_div]; congr 1; ring
    linarith
  have hp : 0 < f / (a + z) + (1 - f) / (b + z) := by
    rcases h0.eq_or_lt with h | h
    · subst h; rw [zero_div, sub_zero, zero_add]; positivity
    · have : 0 ≤ (1 - f) / (b + z) := div_nonneg (by linarith) hb.le
      positivity
  have := inv_anti₀ hp e
  rw [one_div, inv_inv] at this
  linarith

/-- The lower bound of two minerals stiffer than `b` is stiffer than `b`. -/
theorem lowerBound_stiffer {a c b : Published.Rock} (hb : b.Ok) (ha : a.Stiffer b) (hc : c.Stiffer b) {f : ℝ}
    (h0 : 0 ≤ f) (h1 : f ≤ 1) : (Published.lowerBound a c f).Stiffer b := by
  have aK : 0 < a.K := hb.1.trans_le ha.1
  have aG : 0 < a.G := hb.2.trans_le ha.2
  have cK : 0 < c.K := hb.1.trans_le hc.1
  have cG : 0 < c.G := hb.2.trans_le hc.2
  have z1 : 0 < min a.G c.G := lt_min aG cG
  have z2 := zeta_nonneg (lt_min aK cK) z1
  have key : ∀ {x y w z : ℝ}, 0 < x → 0 < y → 0 ≤ z → w ≤ x → w ≤ y → w ≤ Published.hashinShtrikman x y f z := by
    intro x y w z hx hy hz h1' h2'
    rcases le_total y x with h | h
    · exact h2'.trans (hs_ge (by linarith) h h0 h1)
    · have e : Published.hashinShtrikman x y f z = Published.hashinShtrikman y x (1 - f) z := by
        unfold Published.hashinShtrikman; congr 2; rw [add_comm]; congr 2; ring
      rw [e]
      exact h1'.trans (hs_ge (by linarith) h (by linarith) (by linarith))
  exact ⟨key aK cK (by positivity) ha.1 hc.1, key aG cG z2 ha.2 hc.2⟩

theorem ratio_ok {t f : ℝ} (ht : 0 ≤ t) (hf : 0 ≤ f) :
    0 ≤ (if t + f = 0 then (1:ℝ) else t / (t + f)) ∧ (if t + f = 0 then (1:ℝ) else t / (t + f)) ≤ 1 := by
  split_ifs with h
  · norm_num
  · exact ⟨div_nonneg ht (by linarith), div_le_one_of_le₀ (by linarith) (by linarith)⟩

theorem addMinerals_append (a : Published.Rock) (t : ℝ) (A B : List (Published.Rock × ℝ)) :
    Published.addMinerals a t (A ++ B)
      = Published.addMinerals (Published.addMinerals a t A) (t + (A.map (·.2)).sum) B := by
  induction A generalizing a t with
  | nil => simp [Published.addMinerals]
  | cons x A ih =>
    obtain ⟨b, f⟩ := x
    simp only [List.cons_append, Published.addMinerals, List.map_cons, List.sum_cons]
    rw [ih, add_assoc]

theorem addMinerals_stiffer {b : Published.Rock} (hb : b.Ok) {a : Published.Rock} {t : ℝ} (ha : a.Stiffer b) (ht : 0 ≤ t)
    {A : List (Published.Rock × ℝ)} (hA : ∀ y ∈ A, y.1.Stiffer b ∧ 0 ≤ y.2) : (Published.addMinerals a t A).Stiffer b := by
  induction A generalizing a t with
  | nil => exact ha
  | cons x A ih =>
    obtain ⟨c, f⟩ := x
    obtain ⟨h1, h2⟩ := hA (c, f) List.mem_cons_self
    dsimp only at h1 h2
    obtain ⟨r0, r1⟩ := ratio_ok ht h2
    exact ih (lowerBound_stiffer hb ha h1 r0 r1) (by linarith) (fun y hy => hA y (List.mem_cons_of_mem _ hy))

/-- Adding a mineral that is not stiffer in one or two parts. -/
theorem add_twice {a b : Published.Rock} (hb : b.Ok) (ha : a.Stiffer b) {t s u : ℝ} (ht : 0 ≤ t) (hs : 0 ≤ s) (hu : 0 ≤ u)
    (L : List (Published.Rock × ℝ)) :
    Published.addMinerals a t ((b, s) :: (b, u) :: L) = Published.addMinerals a t ((b, s + u) :: L) := by
  obtain ⟨bK, bG⟩ := hb
  simp only [Published.addMinerals]
  rw [add_assoc t s u]
  congr 1
  have zK : 0 ≤ 4 / 3 * b.G := by positivity
  have zG := zeta_nonneg bK bG
  have aK : 0 < a.K := bK.trans_le ha.1
  have aG : 0 < a.G := bG.trans_le ha.2
  rcases (add_nonneg ht hs).eq_or_lt with h | h
  · have t0 : t = 0 := by linarith
    have s0 : s = 0 := by linarith
    subst t0 s0
    have e : Published.lowerBound a b 1 = a := by
      unfold Published.lowerBound
      rw [min_eq_right ha.1, min_eq_right ha.2, hs_one (by linarith), hs_one (by linarith)]
      cases a; simp
    simp [e]
  · have h2 : t + (s + u) ≠ 0 := by linarith
    obtain ⟨r0, r1⟩ := ratio_ok ht hs
    have hst := lowerBound_stiffer ⟨bK, bG⟩ ha (⟨le_refl _, le_refl _⟩ : b.Stiffer b) r0 r1
    rw [if_neg h.ne'] at hst ⊢
    rw [if_neg h2, if_neg h2]
    have e1 : ∀ f, Published.lowerBound a b f = ⟨Published.hashinShtrikman a.K b.K f (4 / 3 * b.G),
        Published.hashinShtrikman a.G b.G f (Published.zeta b.K b.G), f * a.ρ + (1 - f) * b.ρ⟩ := by
      intro f; unfold Published.lowerBound; rw [min_eq_right ha.1, min_eq_right ha.2]
    rw [Published.lowerBound, min_eq_right hst.1, min_eq_right hst.2, e1, e1]
    dsimp only
    rw [← add_assoc t s u, hs_assoc (by linarith) (by linarith) ht hs hu h,
      hs_assoc (by linarith) (by linarith) ht hs hu h, add_assoc t s u]
    congr 1
    have h3 : t + s + u ≠ 0 := by linarith
    have h4 := h.ne'
    rw [← add_assoc]
    field_simp
    ring

theorem isRock_same {m m' : Mat n} {F : Fin n → Published.Rock} (h : m.IsRock F) (h' : m'.IsRock F) :
    SameProperties m m' :=
  ⟨h'.1.trans h.1.symm, h'.2.1.trans h.2.1.symm, h'.2.2.1.trans h.2.2.1.symm⟩

/-- **C139 (minerals), the part that holds.** Listing a mineral in two entries whose fractions add up to the original one
does not change the mixture (1) if it is the first mineral, (2) if no earlier mineral is softer in bulk or shear modulus.
Missing (and false of the code, see `C139_refuted`): a later mineral that is stiffer than an earlier one. -/
theorem C139_minerals_partial :
    (∀ (m : Mat n) (a : Fin n → Published.Rock) (s t : Fin n → ℝ) (L : List (MineralEntry n)),
      (∀ i, 0 ≤ s i) → (∀ i, 0 ≤ t i) → MineralsGood ((m, a, fun i => s i + t i) :: L) →
      ∃ r r', mineralMixture (((m, a, fun i => s i + t i) :: L).map fun y => (y.1, finC y.2.2)) = .ok r ∧
        mineralMixture (((m, a, s) :: (m, a, t) :: L).map fun y => (y.1, finC y.2.2)) = .ok r' ∧ SameProperties r r') ∧
    (∀ (x : MineralEntry n) (A : List (MineralEntry n)) (m : Mat n) (a : Fin n → Published.Rock) (s t : Fin n → ℝ)
      (B : List (MineralEntry n)), (∀ i, 0 ≤ s i) → (∀ i, 0 ≤ t i) →
      MineralsGood (x :: A ++ (m, a, fun i => s i + t i) :: B) →
      (∀ y ∈ x :: A, ∀ i, (y.2.1 i).Stiffer (a i)) →
      ∃ r r', mineralMixture ((x :: A ++ (m, a, fun i => s i + t i) :: B).map fun y => (y.1, finC y.2.2)) = .ok r ∧
        mineralMixture ((x :: A ++ (m, a, s) :: (m, a, t) :: B).map fun y => (y.1, finC y.2.2)) = .ok r' ∧
        SameProperties r r') := by
  constructor
  · intro m a s t L hs ht hg
    obtain ⟨hL, hsum⟩ := hg
    obtain ⟨r, h1, h2⟩ := C100_mineral_mixture (m, a, fun i => s i + t i) L hL hsum
    have hm := (hL (m, a, fun i => s i + t i) List.mem_cons_self).1
    obtain ⟨r', h1', h2'⟩ := C100_mineral_mixture (m, a, s) ((m, a, t) :: L)
      (by
        intro y hy
        simp only [List.mem_cons] at hy
        rcases hy with rfl | rfl | hy
        · exact ⟨hm, hs⟩
        · exact ⟨hm, ht⟩
        · exact hL y (List.mem_cons_of_mem _ hy))
      (by intro i; have := hsum i; simp only [List.map_cons, List.sum_cons] at this ⊢; linarith)
    refine ⟨r, r', h1, h1', isRock_same h2 ?_⟩
    convert h2' using 1
    funext i
    simp only [List.map_cons, Published.addMinerals]
    congr 1
    have := hm.2.2.2 i
    dsimp only at this
    have z := zeta_nonneg this.1 this.2.1
    unfold Published.lowerBound
    rw [min_self, min_self, hs_same (by linarith), hs_same (by linarith)]
    cases a i
    simp only [Published.Rock.mk.injEq, true_and]; ring
  · intro x A m a s t B hs ht hg hst
    obtain ⟨hL, hsum⟩ := hg
    rw [List.cons_append] at hL hsum
    obtain ⟨r, h1, h2⟩ := C100_mineral_mixture x (A ++ (m, a, fun i => s i + t i) :: B) hL hsum
    have hm := (hL (m, a, fun i => s i + t i) (by simp)).1
    obtain ⟨r', h1', h2'⟩ := C100_mineral_mixture x (A ++ (m, a, s) :: (m, a, t) :: B)
      (by
        intro y hy
        simp only [List.mem_cons, List.mem_append] at hy
        rcases hy with rfl | hy | rfl | rfl | hy
        · exact hL y (by simp)
        · exact hL y (by simp [hy])
        · exact ⟨hm, hs⟩
        · exact ⟨hm, ht⟩
        · exact hL y (by simp [hy]))
      (by intro i; have := hsum i; simp only [List.map_cons, List.map_append, List.sum_append, List.sum_cons] at this ⊢
          linarith)
    refine ⟨r, r', h1, h1', isRock_same h2 ?_⟩
    convert h2' using 1
    funext i
    simp only [List.map_cons, List.map_append]
    have hok := hm.2.2.2 i
    dsimp only at hok
    have hb : (a i).Ok := ⟨hok.1, hok.2.1⟩
    have hx0 : 0 ≤ x.2.2 i := (hL x (by simp)).2 i
    have hA : ∀ y ∈ A.map (fun y : MineralEntry n => (y.2.1 i, y.2.2 i)), y.1.Stiffer (a i) ∧ 0 ≤ y.2 := by
      intro y hy
      obtain ⟨z, hz, rfl⟩ := List.mem_map.mp hy
      exact ⟨hst z (by simp [hz]) i, (hL z (by simp [hz])).2 i⟩
    rw [addMinerals_append, addMinerals_append, add_twice hb
      (addMinerals_stiffer hb (hst x (by simp) i) hx0 hA) _ (hs i) (ht i)]
    apply add_nonneg hx0
    apply List.sum_nonneg
    intro y hy
    obtain ⟨z, hz, rfl⟩ := List.mem_map.mp hy
    exact (hA z hz).2

/-- Calcite and quartz followed by clay, which is softer than both, and listed in two parts. -/
example := (C139_minerals_partial (n := 2)).2
  (Mat.ofReal (fun _ => 76.8) (fun _ => 32) (fun _ => 2710), (fun _ => ⟨76.8, 32, 2710⟩), fun _ => 0.3)
  [(Mat.ofReal (fun _ => 36.8) (fun _ => 44) (fun _ => 2650), (fun _ => ⟨36.8, 44, 2650⟩), fun _ => 0.5)]
  (Mat.ofReal (fun _ => 20) (fun _ => 7) (fun _ => 2500)) (fun _ => ⟨20, 7, 2500⟩) (fun _ => 0.05) (fun _ => 0.15) []
  (fun _ => by norm_num) (fun _ => by norm_num)
  ⟨by
    intro y hy
    simp only [List.mem_cons, List.mem_append, List.not_mem_nil, or_false] at hy
    rcases hy with (rfl | rfl) | rfl <;>
      exact ⟨⟨rfl, rfl, rfl, fun _ => by norm_num⟩, fun _ => by norm_num⟩, fun _ => by norm_num⟩
  (by
    intro y hy i
    simp only [List.mem_cons, List.not_mem_nil, or_false] at hy
    rcases hy with rfl | rfl <;> constructor <;> norm_num)

/-- **C139 is false of the code for minerals:** a soft mineral followed by a stiff one, listed once or in two equal
parts. -/
theorem C139_refuted : ∃ r r' : Mat 1,
    PosMineral.mixture [constMineral 1 1 1 0.5 (by norm_num) (by norm_num) (by norm_num) (by norm_num),
      constMineral 2 4 1 0.5 (by norm_num) (by norm_num) (by norm_num) (by norm_num)] = .ok r ∧
    PosMineral.mixture [constMineral 1 1 1 0.5 (by norm_num) (by norm_num) (by norm_num) (by norm_num),
      constMineral 2 4 1 0.25 (by norm_num) (by norm_num) (by norm_num) (by norm_num),
      constMineral 2 4 1 0.25 (by norm_num) (by norm_num) (by norm_num) (by norm_num)] = .ok r' ∧
    r.bulk 0 < r'.bulk 0 := by
  obtain ⟨r, hr, h1, -, -⟩ := mixture_fin (n := 1)
    (L := [constMineral 1 1 1 0.5 (by norm_num) (by norm_num) (by norm_num) (by norm_num),
      constMineral 2 4 1 0.5 (by norm_num) (by norm_num) (by norm_num) (by norm_num)]) (by simp)
    (fun i => by simp [constMineral]; norm_num)
  obtain ⟨r', hr', h1', -, -⟩ := mixture_fin (n := 1)
    (L := [constMineral 1 1 1 0.5 (by norm_num) (by norm_num) (by norm_num) (by norm_num),
      constMineral 2 4 1 0.25 (by norm_num) (by norm_num) (by norm_num) (by norm_num),
      constMineral 2 4 1 0.25 (by norm_num) (by norm_num) (by norm_num) (by norm_num)]) (by simp)
    (fun i => by simp [constMineral]; norm_num)
  refine ⟨r, r', hr, hr', ?_⟩
  rw [h1, h1']
  simp only [finC_apply, Num.fin_lt, constMineral, PosMineral.row, List.map_cons, List.map_nil, mixRow,
      mixRows, List.foldl, mixStep, hsReal, zShear]
  norm_num

end OPE
