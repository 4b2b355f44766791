import Verif.Props.Published4
import Verif.Props.Published5
import Verif.Props.EndToEnd

/-!
# C105: the whole calculation by published formulas
-/

namespace OPE

open Classical

variable {n : ℕ}

/-! ### What the sections say -/

/-- The pore fluid a constituent describes, at temperature `T` (°C) and fluid pressure `P` (Pa). -/
inductive FluidKind.Describes (T P : Fin n → ℝ) : FluidKind n → (Fin n → Published.Fluid) → Prop
  | material (m : Mat n) (F : Fin n → Published.Fluid) (h : m.IsFluid F) : Describes T P (.material m) F
  | brine (S : Fin n → ℝ) (hT : ∀ i, 0 ≤ T i ∧ T i ≤ 350) (hP : ∀ i, 0 ≤ P i ∧ P i ≤ 100e6)
      (hS : ∀ i, 0 ≤ S i ∧ S i ≤ 300000) :
      Describes T P (.brine (finC S)) fun i => Published.brine (T i) (P i) (S i)
  | oil (r R G : Fin n → ℝ) (hT : ∀ i, 0 ≤ T i ∧ T i ≤ 150) (hP : ∀ i, 0 ≤ P i ∧ P i ≤ 100e6)
      (hr : ∀ i, 700 ≤ r i ∧ r i ≤ 1000) (hR : ∀ i, 0 ≤ R i ∧ R i ≤ 400) (hG : ∀ i, 0 ≤ G i ∧ G i ≤ 1) :
      Describes T P (.oil (finC r) (finC R) (finC G)) fun i => Published.oil (T i) (P i) (r i) (R i) (G i)
  | gas (G : Fin n → ℝ) (hT : ∀ i, 0 ≤ T i ∧ T i ≤ 300) (hP : ∀ i, 0 < P i)
      (hG : ∀ i, 0.29 ≤ G i ∧ G i ≤ 1.4) :
      Describes T P (.gas (finC G)) fun i => Published.gas (T i) (P i) (G i)

/-- A configured constituent of the pore space, with the fluid it describes and its saturation. -/
structure Pore (n : ℕ) where
  kind : FluidKind n
  model : Option Provider
  fluid : Fin n → Published.Fluid
  sat : Fin n → ℝ

/-- Row `i`: fluids and saturations. -/
def poreRow (L : List (Pore n)) (i : Fin n) : List (Published.Fluid × ℝ) := L.map fun x => (x.fluid i, x.sat i)

/-- Total saturation in row `i`. -/
def poreTotal (L : List (Pore n)) (i : Fin n) : ℝ := (L.map fun x => x.sat i).sum

/-- What the fluids section says about the pore space. -/
structure Sections.Pores (s : Sections n) (T P : Fin n → ℝ) (L : List (Pore n)) : Prop where
  fluids : s.fluids = L.map fun x => ⟨x.kind, x.model, some (finC x.sat)⟩
  temperature : s.temperature = finC T
  nonempty : L ≠ []
  describes : ∀ x ∈ L, x.kind.Describes T P x.fluid
  model : ∀ x ∈ L, x.model.getD s.fluidModel ≠ .spanWagner
  nonneg : ∀ x ∈ L, ∀ i, 0 ≤ x.sat i
  total : ∀ i, poreTotal L i ≤ 1 + 1e-5

/-- Some saturation in every row. -/
def Wet (L : List (Pore n)) : Prop := L ≠ [] ∧ ∀ i, 1e-15 ≤ poreTotal L i

/-- Liquids and gases, at least one of each; in every row the liquids take up at most all of the pore space, and either
phase may be absent: no liquid, or no gas where the liquids take up all of it. -/
structure BothPhases (A B : List (Pore n)) : Prop where
  liquids : A ≠ []
  gases : B ≠ []
  total : ∀ i, poreTotal A i ≤ 1
  liquid : ∀ i, 1e-15 ≤ poreTotal A i ∨ poreTotal A i = 0
  gas : ∀ i, 1e-15 ≤ poreTotal B i ∨ poreTotal A i = 1

theorem BothPhases.of_wet {A B : List (Pore n)} (h1 : Wet A) (h2 : Wet B) (ht : ∀ i, poreTotal A i ≤ 1) :
    BothPhases A B := ⟨h1.1, h2.1, ht, fun i => .inl (h1.2 i), fun i => .inl (h2.2 i)⟩

/-- A constituent that is a gas by its type. -/
def FluidKind.IsGas (k : FluidKind n) : Prop := k.type = "gas" ∨ k.type = "carbon_dioxide"

/-- The pore fluid `F` that the mixing method makes of the constituents: Wood's law, or Brie's with the
gases at the given indices, by default the constituents of type gas or
carbon dioxide; Wood's when there is no gas or nothing else. -/
inductive Sections.Mixes (s : Sections n) (L : List (Pore n)) : (Fin n → Published.Fluid) → Prop
  | wood (hm : s.mixMethod = .wood) (hw : Wet L) : Mixes s L fun i => Published.wood (poreRow L i)
  | brie (hm : s.mixMethod = .brie) (e : ℝ) (he : s.brieConstant = .fin e) (he0 : 0 < e)
      (hg : s.brieGases = none)
      (ht : BothPhases (L.filter fun x => ¬ x.kind.IsGas) (L.filter fun x => x.kind.IsGas)) :
      Mixes s L fun i => Published.brie (poreRow (L.filter fun x => ¬ x.kind.IsGas) i)
        (poreRow (L.filter fun x => x.kind.IsGas) i) e
  | brieGiven (hm : s.mixMethod = .brie) (e : ℝ) (he : s.brieConstant = .fin e) (he0 : 0 < e) (idx : List ℕ)
      (hg : s.brieGases = some (idx.map fun k : ℕ => (k : ℤ))) (hd : idx.Nodup) (hr : ∀ k ∈ idx, k < L.length)
      (ht : BothPhases (notAtPositions idx L) (atPositions idx L)) :
      Mixes s L fun i => Published.brie (poreRow (notAtPositions idx L) i) (poreRow (atPositions idx L) i) e
  | brieNoGas (hm : s.mixMethod = .brie) (e : ℝ) (he : s.brieConstant = .fin e)
      (hg : s.brieGases = none) (hn : ∀ x ∈ L, ¬ x.kind.IsGas) (hw : Wet L) :
      Mixes s L fun i => Published.wood (poreRow L i)
  | brieAllGas (hm : s.mixMethod = .brie) (e : ℝ) (he : s.brieConstant = .fin e)
      (hg : s.brieGases = none) (hn : ∀ x ∈ L, x.kind.IsGas) (hw : Wet L) :
      Mixes s L fun i => Published.wood (poreRow L i)
  | brieGivenNone (hm : s.mixMethod = .brie) (e : ℝ) (he : s.brieConstant = .fin e)
      (hg : s.brieGases = some []) (hw : Wet L) :
      Mixes s L fun i => Published.wood (poreRow L i)
  | brieGivenAll (hm : s.mixMethod = .brie) (e : ℝ) (he : s.brieConstant = .fin e) (idx : List ℕ)
      (hg : s.brieGases = some (idx.map fun k : ℕ => (k : ℤ))) (hd : idx.Nodup) (hr : ∀ k, k ∈ idx ↔ k < L.length)
      (hw : Wet L) : Mixes s L fun i => Published.wood (poreRow L i)

/-! ### Fluids -/

theorem FluidKind.Describes.asMaterial {T P : Fin n → ℝ} {k : FluidKind n} {F : Fin n → Published.Fluid}
    (h : k.Describes T P F) (co2 : CO2Model n) {pv : Provider} (hp : pv ≠ .spanWagner) :
    ∃ m, k.asMaterial co2 pv (finC T) (finC P) = (.ok m, finC P) ∧ m.IsFluid F := by
  cases h with
  | material m F h => exact ⟨m, rfl, h⟩
  | brine S h1 h2 h3 => exact brine_constituent co2 hp T P S h1 h2 h3
  | oil r R G h1 h2 h3 h4 h5 => exact oil_constituent co2 hp T P r R G h1 h2 h3 h4 h5
  | gas G h1 h2 h3 => exact gas_constituent co2 hp T P G h1 h2 h3

/-- The constituents one after the other, at temperature `T`; `P` is the fluid pressure a constituent sees, `P'`
the fluid pressure afterwards: carbon dioxide by Span & Wagner's equation turns Pa into MPa for those after it. -/
inductive Fills (co2 : CO2Model n) (pv : Provider) (T : Fin n → ℝ) : (Fin n → ℝ) → List (Pore n) → (Fin n → ℝ) → Prop
  | nil (P : Fin n → ℝ) : Fills co2 pv T P [] P
  | plain {P P' : Fin n → ℝ} {x : Pore n} {L : List (Pore n)} (h : x.kind.Describes T P x.fluid)
      (hp : x.model.getD pv ≠ .spanWagner) (t : Fills co2 pv T P L P') : Fills co2 pv T P (x :: L) P'
  | explicit {P P' : Fin n → ℝ} {x : Pore n} {L : List (Pore n)} {m : Mat n} (hk : x.kind = .material m)
      (h : m.IsFluid x.fluid) (t : Fills co2 pv T P L P') : Fills co2 pv T P (x :: L) P'
  | carbonDioxide {P P' : Fin n → ℝ} {x : Pore n} {L : List (Pore n)} {interp : Bool} {m : Mat n}
      (hk : x.kind = .carbonDioxide interp) (hp : x.model.getD pv = .spanWagner)
      (h : co2 (finC fun i => T i + 273.15) (finC fun i => P i / 1e6) interp = .ok m) (hm : m.IsFluid x.fluid)
      (t : Fills co2 pv T (fun i => P i / 1e6) L P') : Fills co2 pv T P (x :: L) P'

theorem Fills.materialsOf {co2 : CO2Model n} {pv : Provider} {T P P' : Fin n → ℝ} {L : List (Pore n)}
    (h : Fills co2 pv T P L P') :
    ∃ Q : List (Pore n × Mat n), Q.map Prod.fst = L ∧ (∀ q ∈ Q, q.2.IsFluid q.1.fluid) ∧
      OPE.materialsOf co2 pv (finC T) (L.map fun x => ⟨x.kind, x.model, finC x.sat⟩) (finC P)
        = (.ok (Q.map Prod.snd), finC P') := by
  have step : ∀ {P P' P'' : Fin n → ℝ} {x : Pore n} {L : List (Pore n)} {m : Mat n},
      FluidConst.asMaterial co2 pv (finC T) (finC P) ⟨x.kind, x.model, finC x.sat⟩ = (.ok m, finC P'') →
      m.IsFluid x.fluid →
      (∃ Q : List (Pore n × Mat n), Q.map Prod.fst = L ∧ (∀ q ∈ Q, q.2.IsFluid q.1.fluid) ∧
        OPE.materialsOf co2 pv (finC T) (L.map fun x => ⟨x.kind, x.model, finC x.sat⟩) (finC P'')
          = (.ok (Q.map Prod.snd), finC P')) →
      ∃ Q : List (Pore n × Mat n), Q.map Prod.fst = x :: L ∧ (∀ q ∈ Q, q.2.IsFluid q.1.fluid) ∧
        OPE.materialsOf co2 pv (finC T) ((x :: L).map fun x => ⟨x.kind, x.model, finC x.sat⟩) (finC P)
          = (.ok (Q.map Prod.snd), finC P') := by
    rintro P P' P'' x L m h1 h2 ⟨Q, q1, q2, q3⟩
    refine ⟨(x, m) :: Q, by simp [q1], ?_, ?_⟩
    · intro q hq
      rcases List.mem_cons.mp hq with rfl | hq
      · exact h2
      · exact q2 q hq
    · rw [List.map_cons, OPE.materialsOf, h1]
      dsimp only
      rw [q3]
      rfl
  induction h with
  | nil P => exact ⟨[], rfl, by simp, rfl⟩
  | plain h hp t ih =>
    obtain ⟨m, m1, m2⟩ := h.asMaterial co2 hp
    exact step m1 m2 ih
  | explicit hk h t ih =>
    refine step (P'' := _) ?_ h ih
    unfold FluidConst.asMaterial
    dsimp only
    rw [hk]
    rfl
  | @carbonDioxide P P' x L interp m hk hp h hm t ih =>
    refine step (m := m) ?_ hm ih
    unfold FluidConst.asMaterial
    dsimp only
    rw [hk, hp]
    show ((co2 _ _ interp, _) : Effect n (Mat n)) = _
    have e1 : (fun i => celsiusToKelvin (finC T i)) = finC fun i => T i + 273.15 := by
      funext i; simp [celsiusToKelvin]
    have e2 : (fun i => finC P i / Num.fin 1e6) = finC fun i => P i / 1e6 := by
      funext i
      rw [finC_apply, Num.fin_div _ (by norm_num)]
      rfl
    rw [e1, e2, h]

theorem atPositions_filter {α : Type} (S : List ℕ) (l : List α) (p : α → Bool)
    (h : ∀ i x, l[i]? = some x → (i ∈ S ↔ p x = true)) :
    atPositions S l = l.filter p ∧ notAtPositions S l = l.filter fun x => !p x := by
  have e1 : l.zipIdx.filter (fun x => x.2 ∈ S) = l.zipIdx.filter (fun x => p x.1) := by
    apply List.filter_congr
    intro x hx
    have := h x.2 x.1 (List.mem_zipIdx_iff_getElem?.mp hx)
    by_cases hp : p x.1 = true <;> simp_all
  have e2 : l.zipIdx.filter (fun x => x.2 ∉ S) = l.zipIdx.filter (fun x => !p x.1) := by
    apply List.filter_congr
    intro x hx
    have := h x.2 x.1 (List.mem_zipIdx_iff_getElem?.mp hx)
    by_cases hp : p x.1 = true <;> simp_all
  have z : l.zipIdx.map Prod.fst = l := List.zipIdx_map_fst 0 l
  constructor
  · unfold atPositions
    rw [e1]
    conv_rhs => rw [← z, List.filter_map]
    rfl
  · unfold notAtPositions
    rw [e2]
    conv_rhs => rw [← z, List.filter_map]
    rfl

/-- Constituents with the materials they evaluate to. -/
def fluidListOf (Q : List (Pore n × Mat n)) : FluidList n := Q.map fun q => (q.2, q.1.fluid, q.1.sat)

theorem fluidListOf_good {Q : List (Pore n × Mat n)} (h1 : ∀ q ∈ Q, q.2.IsFluid q.1.fluid)
    (h2 : ∀ q ∈ Q, ∀ i, 0 ≤ q.1.sat i) (h3 : Wet (Q.map Prod.fst)) : (fluidListOf Q).Good := by
  refine ⟨?_, ?_, ?_, ?_⟩
  · intro h; exact h3.1 (by rw [List.map_eq_nil_iff.mp h]; rfl)
  · intro x hx; obtain ⟨q, hq, rfl⟩ := List.mem_map.mp hx; exact h1 q hq
  · intro x hx; obtain ⟨q, hq, rfl⟩ := List.mem_map.mp hx; exact h2 q hq
  · intro i
    have := h3.2 i
    simpa [poreTotal, fluidListOf, List.map_map, Function.comp_def] using this

theorem fluidListOf_at (Q : List (Pore n × Mat n)) (i : Fin n) :
    (fluidListOf Q).at i = poreRow (Q.map Prod.fst) i := by
  simp [FluidList.at, fluidListOf, poreRow, List.map_map, Function.comp_def]

theorem mkFluids_pores {L : List (Pore n)} (hne : L ≠ []) (hs : ∀ x ∈ L, ∀ i, 0 ≤ x.sat i)
    (ht : ∀ i, poreTotal L i ≤ 1 + 1e-5) (T : Col n) (method : MixMethod) (e : Num)
    (gases : Option (List ℤ)) (model : Provider) :
    mkFluids T (L.map fun x => ⟨x.kind, x.model, some (finC x.sat)⟩) method e gases model = .ok
      { temperature := T, method := method, brieConstant := e, model := model
        constituents := L.map fun x => ⟨x.kind, x.model, finC x.sat⟩
        brieGases := gases.getD (defaultBrieGases (L.map fun x => ⟨x.kind, x.model, some (finC x.sat)⟩)) } := by
  unfold mkFluids
  rw [forM_ok, bind_ok, failIf_false, bind_ok]
  · simp only [List.map_map, Function.comp_def]
    rw [failIf_false, bind_ok, fixOneFraction_given L (fun x => x.sat) ht, bind_ok]
    · congr 2
      rw [givenFractions_some L (fun x => finC x.sat), List.zipWith_map]
      exact List.zipWith_self
    · rintro ⟨i, hi⟩
      rw [givenFractions_some L (fun x => finC x.sat), sumCols_fin L (fun x => x.sat)] at hi
      simp only [finC_apply, Num.fin_lt] at hi
      exact absurd hi (not_lt.mpr (ht i))
  · simp only [List.length_map]
    have := List.length_pos_iff.mpr hne
    omega
  · intro y hy
    obtain ⟨x, hx, rfl⟩ := List.mem_map.mp hy
    exact fractionIsRatio_fin (hs x hx) fun i =>
      (single_le_sum (g := fun x => x.sat i) (fun z hz => hs z hz i) hx).trans (ht i)

/-- What the fluids section says about the pore space; `P` is the fluid pressure, `P'` the fluid pressure after
mixing. -/
structure Sections.Filled (s : Sections n) (co2 : CO2Model n) (T P : Fin n → ℝ) (L : List (Pore n))
    (P' : Fin n → ℝ) : Prop where
  fluids : s.fluids = L.map fun x => ⟨x.kind, x.model, some (finC x.sat)⟩
  temperature : s.temperature = finC T
  nonempty : L ≠ []
  fills : Fills co2 s.fluidModel T P L P'
  nonneg : ∀ x ∈ L, ∀ i, 0 ≤ x.sat i
  total : ∀ i, poreTotal L i ≤ 1 + 1e-5

theorem Sections.Pores.filled {s : Sections n} {T P : Fin n → ℝ} {L : List (Pore n)} (h : s.Pores T P L)
    (co2 : CO2Model n) : s.Filled co2 T P L P := by
  refine ⟨h.fluids, h.temperature, h.nonempty, ?_, h.nonneg, h.total⟩
  have h1 := h.describes
  have h2 := h.model
  clear h
  induction L with
  | nil => exact .nil P
  | cons x L ih =>
    exact .plain (h1 x List.mem_cons_self) (h2 x List.mem_cons_self)
      (ih (fun y hy => h1 y (List.mem_cons_of_mem _ hy)) fun y hy => h2 y (List.mem_cons_of_mem _ hy))

theorem fluids_filled {co2 : CO2Model n} {s : Sections n} {T P P' : Fin n → ℝ} {L : List (Pore n)}
    (h : s.Filled co2 T P L P') {F : Fin n → Published.Fluid} (hm : s.Mixes L F) :
    ∃ fl m, mkFluids s.temperature s.fluids s.mixMethod s.brieConstant s.brieGases s.fluidModel = .ok fl ∧
      fl.asMixture co2 (finC P) = (.ok m, finC P') ∧ m.IsFluid F := by
  have hfl := mkFluids_pores h.nonempty h.nonneg h.total s.temperature s.mixMethod s.brieConstant s.brieGases
    s.fluidModel
  rw [← h.fluids] at hfl
  obtain ⟨Q, q1, q2, q3⟩ := h.fills.materialsOf
  have hQ0 : ∀ q ∈ Q, ∀ i, 0 ≤ q.1.sat i := fun q hq => h.nonneg _ (by rw [← q1]; exact List.mem_map_of_mem hq)
  -- it is enough to mix
  suffices hmix : ∀ fl : Fluids n, mkFluids s.temperature s.fluids s.mixMethod s.brieConstant s.brieGases
      s.fluidModel = .ok fl → fl.method = s.mixMethod → fl.brieConstant = s.brieConstant →
      fl.constituents = (L.map fun x => ⟨x.kind, x.model, finC x.sat⟩) →
      (∀ g, s.brieGases = some g → fl.brieGases = g) →
      ∃ m, fl.mix (Q.map Prod.snd) = .ok m ∧ m.IsFluid F by
    obtain ⟨m, m1, m2⟩ := hmix _ hfl rfl rfl rfl (fun g hg => by simp [hg])
    refine ⟨_, m, hfl, ?_, m2⟩
    unfold Fluids.asMixture
    dsimp only
    rw [h.temperature, q3]
    dsimp only
    rw [h.temperature] at m1
    rw [m1]
  intro fl hok hme hco hcs hgi
  have fr : fl.constituents.map (·.fraction) = Q.map fun q => finC q.1.sat := by
    rw [hcs, ← q1]; simp [List.map_map, Function.comp_def]
  have wood_case : Wet L → ∃ m, wood (Q.map Prod.snd) (Q.map fun q => finC q.1.sat) = .ok m ∧
      m.IsFluid fun i => Published.wood (poreRow L i) := by
    intro hw
    obtain ⟨m, m1, m2⟩ := wood_published (fluidListOf_good q2 hQ0 (by rw [q1]; exact hw))
    refine ⟨m, ?_, ?_⟩
    · simpa [fluidListOf, List.map_map, Function.comp_def] using m1
    · simpa only [fluidListOf_at, q1] using m2
  have brie_case : ∀ (e : ℝ) (idx : List ℕ), s.mixMethod = .brie → s.brieConstant = .fin e →
      fl.brieGases = idx.map (fun k : ℕ => (k : ℤ)) → idx.Nodup → (∀ k ∈ idx, k < L.length) →
      fl.mix (Q.map Prod.snd) = brie ((notAtPositions idx Q).map Prod.snd)
        ((notAtPositions idx Q).map fun q => finC q.1.sat) ((atPositions idx Q).map Prod.snd)
        ((atPositions idx Q).map fun q => finC q.1.sat) (finC fun _ => e) := by
    intro e idx hb he hg hd hr
    have := (C40_brie_selection fl (Q.map fun q => (q.2, finC q.1.sat)) idx (hme.trans hb) hg hd
      (by rw [fr]; simp [List.map_map, Function.comp_def])
      (fun k hk => by have := hr k hk; rw [← q1] at this; simpa using this)).1
    rw [atPositions_map, notAtPositions_map, hco, he] at this
    simp only [List.map_map, Function.comp_def] at this
    exact this
  have brie_fin : ∀ (e : ℝ) (A B : List (Pore n × Mat n)), 0 < e → (∀ q ∈ A, q ∈ Q) → (∀ q ∈ B, q ∈ Q) →
      BothPhases (A.map Prod.fst) (B.map Prod.fst) →
      ∃ m, brie (A.map Prod.snd) (A.map fun q => finC q.1.sat) (B.map Prod.snd)
        (B.map fun q => finC q.1.sat) (finC fun _ => e) = .ok m ∧
        m.IsFluid fun i => Published.brie (poreRow (A.map Prod.fst) i) (poreRow (B.map Prod.fst) i) e := by
    intro e A B he hA hB hb
    have tot : ∀ (M : List (Pore n × Mat n)) i, ((fluidListOf M).map fun x => x.2.2 i).sum
        = poreTotal (M.map Prod.fst) i := by
      intro M i; simp [poreTotal, fluidListOf, List.map_map, Function.comp_def]
    have ne : ∀ M : List (Pore n × Mat n), M.map Prod.fst ≠ [] → fluidListOf M ≠ [] := by
      intro M hM; simpa [fluidListOf] using hM
    have mem : ∀ x ∈ fluidListOf A ++ fluidListOf B, ∃ q ∈ Q, x = (q.2, q.1.fluid, q.1.sat) := by
      intro x hx
      rcases List.mem_append.mp hx with hx | hx <;> obtain ⟨q, hq, rfl⟩ := List.mem_map.mp hx
      · exact ⟨q, hA q hq, rfl⟩
      · exact ⟨q, hB q hq, rfl⟩
    obtain ⟨m, m1, m2⟩ := brie_rows (L := fluidListOf A) (G := fluidListOf B)
      ⟨ne _ hb.liquids, ne _ hb.gases, fun x hx => by obtain ⟨q, hq, rfl⟩ := mem x hx; exact q2 q hq,
        fun x hx => by obtain ⟨q, hq, rfl⟩ := mem x hx; exact hQ0 q hq,
        fun i => by rw [tot]; exact hb.total i, fun i => by rw [tot]; exact hb.liquid i,
        fun i => by rw [tot, tot]; exact hb.gas i⟩ (fun _ => e) (fun _ => he)
    refine ⟨m, ?_, ?_⟩
    · simpa [fluidListOf, List.map_map, Function.comp_def] using m1
    · simpa only [fluidListOf_at] using m2
  have one_side : Wet L → ∀ (e : ℝ) (A B : List (Pore n × Mat n)), (A = Q ∧ B = []) ∨ (A = [] ∧ B = Q) →
      ∃ m, brie (A.map Prod.snd) (A.map fun q => finC q.1.sat) (B.map Prod.snd)
        (B.map fun q => finC q.1.sat) (finC fun _ => e) = .ok m ∧ m.IsFluid fun i => Published.wood (poreRow L i) := by
    intro hwet e A B hAB
    obtain ⟨m, m1, m2⟩ := wood_case hwet
    have hQ : (Q.map Prod.snd).length ≠ 0 := by
      have := List.length_pos_iff.mpr h.nonempty
      rw [← q1] at this
      simp only [List.length_map] at this ⊢
      omega
    refine ⟨m, ?_, m2⟩
    unfold brie
    rw [failIf_false (by simp), bind_ok, failIf_false (by simp), bind_ok]
    rcases hAB with ⟨rfl, rfl⟩ | ⟨rfl, rfl⟩
    · rw [if_pos hQ, m1, bind_ok]; simp
    · rw [if_neg (by simp), if_pos hQ, m1]
  have hlen : L.length = Q.length := by rw [← q1]; simp
  -- default gases
  have default_case : s.brieGases = none → ∃ idx : List ℕ, fl.brieGases = idx.map (fun k : ℕ => (k : ℤ)) ∧
      idx.Nodup ∧ (∀ k ∈ idx, k < L.length) ∧
      atPositions idx Q = Q.filter (fun q => decide (q.1.kind.IsGas)) ∧
      notAtPositions idx Q = Q.filter (fun q => !decide (q.1.kind.IsGas)) := by
    intro hg
    rw [hg, h.fluids] at hok
    obtain ⟨idx, i1, i2, i3⟩ := C40_default_gases _ _ _ _ _ fl hok
    have key : ∀ k (x : Pore n), L[k]? = some x → (k ∈ idx ↔ x.kind.IsGas) := by
      intro k x hx
      rw [i3 k]
      rw [List.getElem?_map, hx]
      constructor
      · rintro ⟨y, hy, hy'⟩
        simp only [Option.map_some, Option.some.injEq] at hy
        subst hy
        exact hy'
      · intro hg'
        exact ⟨_, rfl, hg'⟩
    refine ⟨idx, i1, i2, ?_, ?_⟩
    · intro k hk
      obtain ⟨y, hy, -⟩ := (i3 k).mp hk
      have := List.getElem?_eq_some_iff.mp hy
      obtain ⟨hlt, -⟩ := this
      simpa using hlt
    · apply atPositions_filter
      intro k q hq
      have : L[k]? = some q.1 := by rw [← q1, List.getElem?_map, hq]; rfl
      rw [key k q.1 this]; simp
  have memF : ∀ (p : Pore n × Mat n → Bool), ∀ q ∈ Q.filter p, q ∈ Q := fun p q hq => (List.mem_filter.mp hq).1
  have fstF : ∀ p : Pore n → Bool, (Q.filter fun q => p q.1).map Prod.fst = L.filter p := by
    intro p; rw [← q1, List.filter_map]; rfl
  cases hm with
  | wood hw hwet =>
    obtain ⟨m, m1, m2⟩ := wood_case hwet
    refine ⟨m, ?_, m2⟩
    unfold Fluids.mix
    rw [hme, hw, fr]
    exact m1
  | brie hb e he he0 hg ht =>
    obtain ⟨idx, i1, i2, i3, i4, i5⟩ := default_case hg
    rw [brie_case e idx hb he i1 i2 i3, i4, i5]
    have f1 : (Q.filter fun q => !decide (q.1.kind.IsGas)).map Prod.fst
        = L.filter fun x => ¬ x.kind.IsGas := by
      rw [fstF fun x => !decide (x.kind.IsGas)]
      congr 1; funext x; simp
    have f2 := fstF fun x => decide (x.kind.IsGas)
    have := brie_fin e (Q.filter fun q => !decide (q.1.kind.IsGas))
      (Q.filter fun q => decide (q.1.kind.IsGas)) he0 (memF _) (memF _)
    rw [f1, f2] at this
    exact this ht
  | brieGiven hb e he he0 idx hg hd hr ht =>
    rw [brie_case e idx hb he (hgi _ hg) hd hr]
    have f1 : (notAtPositions idx Q).map Prod.fst = notAtPositions idx L := by rw [← notAtPositions_map, q1]
    have f2 : (atPositions idx Q).map Prod.fst = atPositions idx L := by rw [← atPositions_map, q1]
    have mem1 : ∀ q ∈ notAtPositions idx Q, q ∈ Q := by
      intro q hq
      obtain ⟨y, hy, rfl⟩ := List.mem_map.mp hq
      exact List.mem_of_getElem? (List.mem_zipIdx_iff_getElem?.mp (List.mem_filter.mp hy).1)
    have mem2 : ∀ q ∈ atPositions idx Q, q ∈ Q := by
      intro q hq
      obtain ⟨y, hy, rfl⟩ := List.mem_map.mp hq
      exact List.mem_of_getElem? (List.mem_zipIdx_iff_getElem?.mp (List.mem_filter.mp hy).1)
    have := brie_fin e (notAtPositions idx Q) (atPositions idx Q) he0 mem1 mem2
    rw [f1, f2] at this
    exact this ht
  | brieNoGas hb e he hg hn hwet =>
    obtain ⟨idx, i1, i2, i3, i4, i5⟩ := default_case hg
    rw [brie_case e idx hb he i1 i2 i3, i4, i5]
    have hn' : ∀ q ∈ Q, ¬ q.1.kind.IsGas := fun q hq => hn _ (by rw [← q1]; exact List.mem_map_of_mem hq)
    have f1 : Q.filter (fun q => !decide (q.1.kind.IsGas)) = Q := by
      rw [List.filter_eq_self]; intro q hq; simpa using hn' q hq
    have f2 : Q.filter (fun q => decide (q.1.kind.IsGas)) = [] := by
      rw [List.filter_eq_nil_iff]; intro q hq; simpa using hn' q hq
    rw [f1, f2]
    exact one_side hwet e _ _ (.inl ⟨rfl, rfl⟩)
  | brieAllGas hb e he hg hn hwet =>
    obtain ⟨idx, i1, i2, i3, i4, i5⟩ := default_case hg
    rw [brie_case e idx hb he i1 i2 i3, i4, i5]
    have hn' : ∀ q ∈ Q, q.1.kind.IsGas := fun q hq => hn _ (by rw [← q1]; exact List.mem_map_of_mem hq)
    have f1 : Q.filter (fun q => !decide (q.1.kind.IsGas)) = [] := by
      rw [List.filter_eq_nil_iff]; intro q hq; simpa using hn' q hq
    have f2 : Q.filter (fun q => decide (q.1.kind.IsGas)) = Q := by
      rw [List.filter_eq_self]; intro q hq; simpa using hn' q hq
    rw [f1, f2]
    exact one_side hwet e _ _ (.inr ⟨rfl, rfl⟩)
  | brieGivenNone hb e he hg hwet =>
    rw [brie_case e [] hb he (hgi _ hg) List.nodup_nil (by simp)]
    obtain ⟨f1, f2⟩ := atPositions_filter [] Q (fun _ => false) (by simp)
    rw [f1, f2]
    exact one_side hwet e _ _ (.inl ⟨by simp, by simp⟩)
  | brieGivenAll hb e he idx hg hd hr hwet =>
    rw [brie_case e idx hb he (hgi _ hg) hd (fun k hk => (hr k).mp hk)]
    obtain ⟨f1, f2⟩ := atPositions_filter idx Q (fun _ => true) (by
      intro k x hx
      obtain ⟨hk, -⟩ := List.getElem?_eq_some_iff.mp hx
      simpa [hr, hlen] using hk)
    rw [f1, f2]
    exact one_side hwet e _ _ (.inr ⟨by simp, by simp⟩)

/-! ### The calculation -/

/-- Minerals with the rocks they are and their fractions. -/
abbrev RockList (n : ℕ) := List (Mat n × (Fin n → Published.Rock) × (Fin n → ℝ))

/-- What the minerals and pressure sections say: `x` is the first mineral, `L` the others; rock pressure
`rk` and fluid pressure `P` default to each other. -/
structure Sections.Says (s : Sections n) (x : Mat n × (Fin n → Published.Rock) × (Fin n → ℝ)) (L : RockList n)
    (ob rf rk P : Fin n → ℝ) (mx : Option (Fin n → ℝ)) : Prop where
  minerals : s.minerals = (x :: L).map fun y => ⟨y.1, some (finC y.2.2)⟩
  rocks : ∀ y ∈ x :: L, y.1.IsRock y.2.1 ∧ ∀ i, 0 ≤ y.2.2 i
  fractions : ∀ i, |((x :: L).map fun y => y.2.2 i).sum - 1| ≤ 1e-5
  overburden : s.overburden = finC ob
  reference : s.reference = finC rf
  rock : s.rockPressure.or s.fluidPressure = some (finC rk)
  fluid : s.fluidPressure.or s.rockPressure = some (finC P)
  max : s.maxEffective = mx.map finC

/-- The mineral mixture of row `i`. -/
noncomputable def mineralAt (x : Mat n × (Fin n → Published.Rock) × (Fin n → ℝ)) (L : RockList n) (i : Fin n) :
    Published.Rock := Published.addMinerals (x.2.1 i) (x.2.2 i) (L.map fun y => (y.2.1 i, y.2.2 i))

/-- The result table of mineral, dry rock, dense packing and fluid. -/
noncomputable def tableOf (mineral dry dense : Fin n → Published.Rock) (F : Fin n → Published.Fluid)
    (φ : Fin n → ℝ) : Result n where
  ksat := finC fun i => Published.gassmann (dry i).K (dense i).K (F i).K (φ i)
  kmin := finC fun i => (mineral i).K
  kdry := finC fun i => (dry i).K
  mysat := finC fun i => (dry i).G
  rsat := finC fun i => (dry i).ρ + φ i * (F i).ρ
  kminFls := finC fun i => (dense i).K

theorem mkMinerals_rocks {x : Mat n × (Fin n → Published.Rock) × (Fin n → ℝ)} {L : RockList n}
    (h0 : ∀ y ∈ x :: L, y.1.IsRock y.2.1 ∧ ∀ i, 0 ≤ y.2.2 i)
    (ht : ∀ i, |((x :: L).map fun y => y.2.2 i).sum - 1| ≤ 1e-5) :
    mkMinerals ((x :: L).map fun y => ⟨y.1, some (finC y.2.2)⟩) = .ok ((x :: L).map fun y => (y.1, finC y.2.2)) := by
  generalize hM : x :: L = M at *
  have hne : M ≠ [] := by rw [← hM]; simp
  have hle : ∀ i, (M.map fun y => y.2.2 i).sum ≤ 1 + 1e-5 := fun i => by
    have := (abs_le.mp (ht i)).2; linarith
  unfold mkMinerals
  rw [forM_ok, bind_ok, failIf_false, bind_ok]
  · simp only [List.map_map, Function.comp_def]
    rw [fixOneFraction_given M (fun y => y.2.2) hle, bind_ok]
    rw [givenFractions_some M (fun y => finC y.2.2), failIf_false, bind_ok, List.zip_map']
    intro h
    apply h
    intro i
    rw [sumCols_fin M (fun y => y.2.2)]
    exact ⟨_, rfl, (ht i).trans (by norm_num)⟩
  · simp only [List.length_map]
    have := List.length_pos_iff.mpr hne
    omega
  · intro y hy
    obtain ⟨z, hz, rfl⟩ := List.mem_map.mp hy
    exact fractionIsRatio_fin (h0 z hz).2 fun i =>
      (single_le_sum (g := fun y => y.2.2 i) (fun z hz => (h0 z hz).2 i) hz).trans (hle i)

/-- The calculation, given what the dry rock section evaluates to. -/
theorem calculate_filled {co2 : CO2Model n} {s : Sections n}
    {x : Mat n × (Fin n → Published.Rock) × (Fin n → ℝ)} {L : RockList n} {ob rf rk P : Fin n → ℝ}
    {mx : Option (Fin n → ℝ)} (hs : s.Says x L ob rf rk P mx) {T P' : Fin n → ℝ} {pores : List (Pore n)}
    (hp : s.Filled co2 T P pores P') {F : Fin n → Published.Fluid} (hF : s.Mixes pores F) {φ : Fin n → ℝ}
    (hφ : s.porosity = finC φ) {d : DryRock n} (hd : mkDryRock s.sandModel s.porosity s.adjustments = .ok d)
    {dry dense : Fin n → Published.Rock}
    (hdry : ∀ (mineral : Mat n) (pr : Pressure n),
      mineralMixture ((x :: L).map fun y => (y.1, finC y.2.2)) = .ok mineral →
      mineral.IsRock (mineralAt x L) → pr.Is ob rf rk mx →
      (∃ r, d.material mineral pr = .ok r ∧ r.IsRock dry) ∧ ∃ r, d.model.nonporous mineral = .ok r ∧ r.IsRock dense)
    (hrow : ∀ i, 0 < φ i ∧ (dry i).K < (dense i).K ∧ (F i).K < (dense i).K) :
    calculate co2 s = .ok (tableOf (mineralAt x L) dry dense F φ) := by
  obtain ⟨fl, m, f1, f2, f3⟩ := fluids_filled hp hF
  have hle : ∀ i, ((x :: L).map fun y => y.2.2 i).sum ≤ 1 + 1e-5 := fun i => by
    have := (abs_le.mp (hs.fractions i)).2; linarith
  obtain ⟨mineral, c1, c2⟩ := C100_mineral_mixture x L hs.rocks hle
  have hpress : mkPressure s.overburden s.reference s.fluidPressure s.maxEffective s.rockPressure
      = .ok ⟨finC ob, finC rf, some (finC P), mx.map finC, some (finC rk)⟩ := by
    have h1 := hs.rock
    have h2 := hs.fluid
    unfold mkPressure
    rw [hs.overburden, hs.reference, hs.max]
    cases h3 : s.fluidPressure <;> cases h4 : s.rockPressure <;> rw [h3, h4] at h1 h2 <;> simp_all
  obtain ⟨⟨r, r1, r2⟩, ⟨q, p1, p2⟩⟩ := hdry mineral
    ⟨finC ob, finC rf, some (finC P'), mx.map finC, some (finC rk)⟩ c1 c2 ⟨rfl, rfl, rfl, rfl⟩
  have hsub := C104_mixing_and_gassmann.2.2 r q m (fun i => (dry i).K) (fun i => (dry i).G) (fun i => (dry i).ρ)
    (fun i => (dense i).K) φ F ⟨r2.1, r2.2.1, r2.2.2.1⟩ p2.1 f3 (fun i =>
      ⟨(hrow i).1, (r2.2.2.2 i).1.le, (hrow i).2.1, (hrow i).2.2, (r2.2.2.2 i).2.1.le, (r2.2.2.2 i).2.2⟩)
  have hmixf : mixFluids co2 fl ⟨finC ob, finC rf, some (finC P), mx.map finC, some (finC rk)⟩
      = .ok (m, ⟨finC ob, finC rf, some (finC P'), mx.map finC, some (finC rk)⟩) := by
    unfold mixFluids
    simp only [needCol, bind_ok, f2]
  have hdφ : d.porosity = finC φ := by rw [mkDryRock_ok hd, hφ]
  unfold calculate mkInput calculateResults
  rw [hs.minerals, mkMinerals_rocks hs.rocks hs.fractions, bind_ok, f1, bind_ok, hd, bind_ok, hpress, bind_ok,
    bind_ok]
  dsimp only
  rw [c1, bind_ok, hmixf, bind_ok]
  dsimp only
  rw [r1, bind_ok, p1, bind_ok, hdφ, hsub, bind_ok, c2.1, r2.1, p2.1]
  rfl

/-- The same when no constituent is carbon dioxide. -/
theorem calculate_published (co2 : CO2Model n) {s : Sections n}
    {x : Mat n × (Fin n → Published.Rock) × (Fin n → ℝ)} {L : RockList n} {ob rf rk P : Fin n → ℝ}
    {mx : Option (Fin n → ℝ)} (hs : s.Says x L ob rf rk P mx) {T : Fin n → ℝ} {pores : List (Pore n)}
    (hp : s.Pores T P pores) {F : Fin n → Published.Fluid} (hF : s.Mixes pores F) {φ : Fin n → ℝ}
    (hφ : s.porosity = finC φ) {d : DryRock n} (hd : mkDryRock s.sandModel s.porosity s.adjustments = .ok d)
    {dry dense : Fin n → Published.Rock}
    (hdry : ∀ (mineral : Mat n) (pr : Pressure n),
      mineralMixture ((x :: L).map fun y => (y.1, finC y.2.2)) = .ok mineral →
      mineral.IsRock (mineralAt x L) → pr.Is ob rf rk mx →
      (∃ r, d.material mineral pr = .ok r ∧ r.IsRock dry) ∧ ∃ r, d.model.nonporous mineral = .ok r ∧ r.IsRock dense)
    (hrow : ∀ i, 0 < φ i ∧ (dry i).K < (dense i).K ∧ (F i).K < (dense i).K) :
    calculate co2 s = .ok (tableOf (mineralAt x L) dry dense F φ) :=
  calculate_filled hs (hp.filled co2) hF hφ hd hdry hrow

/-! ### Adjustments by trends -/

/-- Pressure dependencies by moduli trends (polyfit, expfit or logfit), with the trends they are. -/
abbrev TrendList (n : ℕ) := List (PDModel n × Coef3 (ℝ → ℝ))

/-- The trends can be evaluated at `eff` and `ref` and are positive there. -/
def TrendList.Good (A : TrendList n) (eff ref : Fin n → ℝ) : Prop :=
  ∀ a ∈ A, a.1.trends = some a.2 ∧ a.1.OfModuli ∧ a.1.Evaluable eff ∧ a.1.Evaluable ref ∧
    ∀ i, (0 < a.2.density (eff i) ∧ 0 < a.2.primary (eff i) ∧ 0 < a.2.secondary (eff i)) ∧
      (1e-20 < a.2.density (ref i) ∧ 1e-20 < a.2.primary (ref i) ∧ 1e-20 < a.2.secondary (ref i))

/-- The rock with every property multiplied by the ratios of its trends at `eff` and `ref`. -/
noncomputable def TrendList.scale (A : TrendList n) (eff ref : ℝ) (r : Published.Rock) : Published.Rock :=
  ⟨r.K * (A.map fun a => a.2.primary eff / a.2.primary ref).prod,
   r.G * (A.map fun a => a.2.secondary eff / a.2.secondary ref).prod,
   r.ρ * (A.map fun a => a.2.density eff / a.2.density ref).prod⟩

/-- A pressure dependency by moduli does not see the velocities. -/
theorem pressureDependency_moduli {m : PDModel n} (hu : m.useModuli = true) (ht : m.trends ≠ none) {a b : Mat n}
    (h1 : a.bulk = b.bulk) (h2 : a.shear = b.shear) (h3 : a.density = b.density) (pr : Pressure n) (φ : Col n)
    (mineral : Mat n) : pressureDependency m a pr φ mineral = pressureDependency m b pr φ mineral := by
  unfold pressureDependency
  have key : ∀ e r : Col n, m.pressureDependency a e r φ mineral = m.pressureDependency b e r φ mineral := by
    intro e r
    cases m with
    | powerfit a => exact absurd rfl ht
    | friable f => exact absurd rfl ht
    | patchy f => exact absurd rfl ht
    | polyfit b a => simp only [PDModel.pressureDependency, ratioDependency, hu, if_true, h1, h2, h3]
    | expfit b a => simp only [PDModel.pressureDependency, ratioDependency, hu, if_true, h1, h2, h3]
    | logfit b a => simp only [PDModel.pressureDependency, ratioDependency, hu, if_true, h1, h2, h3]
  congr 1; funext e
  simp only [key]

theorem adjustAll_trends {pr : Pressure n} {ob rf rk : Fin n → ℝ} {mx : Option (Fin n → ℝ)}
    (hpr : pr.Is ob rf rk mx) (φ : Col n) (mineral : Mat n) (A : TrendList n)
    (hA : A.Good (effectiveAt mx ob rk) (effectiveAt mx ob rf)) {m : Mat n} {r : Fin n → Published.Rock}
    (hm : m.IsRock r) :
    ∃ m', adjustAll pr φ mineral (A.map fun a => .pressureDependency a.1) m = .ok m' ∧
      m'.IsRock fun i => A.scale (effectiveAt mx ob rk i) (effectiveAt mx ob rf i) (r i) := by
  induction A generalizing m r with
  | nil => exact ⟨m, rfl, by simpa [TrendList.scale] using hm⟩
  | cons a A ih =>
    obtain ⟨t1, t2, t3, t4, t5⟩ := hA a List.mem_cons_self
    obtain ⟨K, G, ρ, hK⟩ : ∃ K G ρ : Fin n → ℝ, (fun i => (⟨K i, G i, ρ i⟩ : Published.Rock)) = r :=
      ⟨fun i => (r i).K, fun i => (r i).G, fun i => (r i).ρ, rfl⟩
    subst hK
    obtain ⟨m1, m2, m3, m4⟩ := hm
    have pos : ∀ x : ℝ, 1e-20 < x → 0 < x := fun x hx => lt_trans (by norm_num) hx
    have e0 : pressureDependency a.1 m pr φ mineral = pressureDependency a.1 (Mat.ofReal K G ρ) pr φ mineral :=
      pressureDependency_moduli ((PDModel.ofModuli_iff _).mp t2) (by rw [t1]; simp) m1 m2 m3 pr φ mineral
    obtain ⟨vp, vs, hvp, hvs⟩ : ∃ vp vs : Fin n → ℝ, (Mat.ofReal K G ρ).vp = finC vp ∧
        (Mat.ofReal K G ρ).vs = finC vs := ⟨_, _, rfl, rfl⟩
    have h := ((C101_trends t1 hpr φ mineral t3 t4 (mat := Mat.ofReal K G ρ) rfl rfl rfl hvp hvs).2 (fun i => by
      obtain ⟨-, u1, u2, u3⟩ := t5 i
      rw [abs_of_pos (pos _ u1), abs_of_pos (pos _ u2), abs_of_pos (pos _ u3)]
      exact ⟨u1, u2, u3⟩)).1 t2
    have hpos : ∀ i, 0 < K i * (a.2.primary (effectiveAt mx ob rk i) / a.2.primary (effectiveAt mx ob rf i)) ∧
        0 < G i * (a.2.secondary (effectiveAt mx ob rk i) / a.2.secondary (effectiveAt mx ob rf i)) ∧
        0 < ρ i * (a.2.density (effectiveAt mx ob rk i) / a.2.density (effectiveAt mx ob rf i)) := by
      intro i
      obtain ⟨⟨v1, v2, v3⟩, u1, u2, u3⟩ := t5 i
      obtain ⟨w1, w2, w3⟩ := m4 i
      exact ⟨mul_pos w1 (div_pos v2 (pos _ u2)), mul_pos w2 (div_pos v3 (pos _ u3)),
        mul_pos w3 (div_pos v1 (pos _ u1))⟩
    replace h := h fun i => ⟨(hpos i).1.le, (hpos i).2.1.le, (hpos i).2.2⟩
    obtain ⟨m', h1, h2⟩ := ih (fun b hb => hA b (List.mem_cons_of_mem _ hb)) (m := Mat.ofReal _ _ _)
      (r := fun i => ⟨_, _, _⟩) ⟨rfl, rfl, rfl, hpos⟩
    refine ⟨m', ?_, ?_⟩
    · rw [List.map_cons, adjustAll]
      show (pressureDependency a.1 m pr φ mineral >>= _) = _
      rw [e0, h, bind_ok]
      exact h1
    · simpa only [TrendList.scale, List.map_cons, List.prod_cons, mul_assoc] using h2

theorem DryRock.material_split (d : DryRock n) (mineral : Mat n) (pr : Pressure n) :
    d.material mineral pr = (DryRock.material ⟨d.model, d.porosity, []⟩ mineral pr >>=
      adjustAll pr d.porosity mineral d.adjustments) := by
  unfold DryRock.material
  cases pr.truncatedRock with
  | error e => rfl
  | ok p =>
    rw [bind_ok, bind_ok]
    dsimp only
    cases d.model.evalMaterial p d.porosity mineral <;> rfl

/-- **C105, friable sand.** For any number of minerals, pore fluids of any kind with Wood's or Brie's mixing
and a friable-sand dry rock, the result table is the published one: minerals mixed one after the other,
friable sand at the section's porosity and effective rock pressure, scaled by the trends of the pressure
dependencies in `A`, fluids at temperature and fluid pressure,
Gassmann's substitution with the mineral mixture. -/
theorem C105_friable (co2 : CO2Model n) {s : Sections n}
    {x : Mat n × (Fin n → Published.Rock) × (Fin n → ℝ)} {L : RockList n} {ob rf rk P : Fin n → ℝ}
    {mx : Option (Fin n → ℝ)} (hs : s.Says x L ob rf rk P mx) {T : Fin n → ℝ} {pores : List (Pore n)}
    (hp : s.Pores T P pores) {F : Fin n → Published.Fluid} (hF : s.Mixes pores F)
    {φ φc f : Fin n → ℝ} {N : Option (Fin n → ℝ)} (hφ : s.porosity = finC φ)
    (hmodel : s.sandModel = .friable (mkFriableModel (finC φc) (finC f) (N.map finC))) {A : TrendList n}
    (hadj : s.adjustments = A.map fun a => .pressureDependency a.1)
    (hA : A.Good (effectiveAt mx ob rk) (effectiveAt mx ob rf))
    (hφ0 : ∀ i, 0 < φ i) (hφ1 : ∀ i, φ i ≤ φc i - 1e-5) (hc1 : ∀ i, φc i < 1)
    (hpe : ∀ i, 0 < effectiveAt mx ob rk i) (hf : ∀ i, 0 ≤ f i) (hN : ∀ i, 0 < coordination N φc i) :
    let dry := fun i => A.scale (effectiveAt mx ob rk i) (effectiveAt mx ob rf i)
      (Published.friableSand (mineralAt x L i) (φ i) (φc i) (effectiveAt mx ob rk i) (coordination N φc i) (f i))
    (∀ i, (dry i).K < (mineralAt x L i).K ∧ (F i).K < (mineralAt x L i).K) →
    calculate co2 s = .ok (tableOf (mineralAt x L) dry (mineralAt x L) F φ) := by
  intro dry hrow
  obtain ⟨d, hd⟩ := (C46_friable_accepts_exactly (mkFriableModel (finC φc) (finC f) (N.map finC)) (φ := φ) rfl
    (A.map fun a => .pressureDependency a.1)).1.mpr hφ1
  have hd' : mkDryRock s.sandModel s.porosity s.adjustments = .ok d := by rw [hmodel, hφ, hadj]; exact hd
  refine calculate_published co2 hs hp hF hφ hd' (fun mineral pr _ h1 h2 => ?_) fun i => ⟨hφ0 i, hrow i⟩
  obtain ⟨d0, hd0⟩ := (C46_friable_accepts_exactly (mkFriableModel (finC φc) (finC f) (N.map finC)) (φ := φ) rfl
    []).1.mpr hφ1
  have := C102_friable h1 h2 hd0 (fun i => (hφ0 i).le) (fun i => by
    have := hφ0 i; have := hφ1 i; norm_num at this; linarith) hc1 hpe hf hN
  obtain rfl := mkDryRock_ok hd0
  obtain rfl := mkDryRock_ok hd
  obtain ⟨⟨r, r1, r2⟩, r3⟩ := this
  obtain ⟨r', r4, r5⟩ := adjustAll_trends h2 (finC φ) mineral A hA r2
  refine ⟨⟨r', ?_, r5⟩, mineral, r3, h1⟩
  rw [DryRock.material_split]
  dsimp only
  rw [r1, bind_ok, r4]

/-- **C105, patchy cement.** The same for a patchy-cement dry rock; the substitution uses the dense packing of
cement and mineral (reported as `kmin_fls`), `kmin` is the mineral mixture. -/
theorem C105_patchy (co2 : CO2Model n) {s : Sections n}
    {x : Mat n × (Fin n → Published.Rock) × (Fin n → ℝ)} {L : RockList n} {ob rf rk P : Fin n → ℝ}
    {mx : Option (Fin n → ℝ)} (hs : s.Says x L ob rf rk P mx) {T : Fin n → ℝ} {pores : List (Pore n)}
    (hp : s.Pores T P pores) {F : Fin n → Published.Fluid} (hF : s.Mixes pores F)
    {φ φc cf u plb f : Fin n → ℝ} {N : Option (Fin n → ℝ)} (hφ : s.porosity = finC φ)
    {cem : Mat n} {a : Fin n → Published.Rock} (hcem : cem.IsRock a)
    (hmodel : s.sandModel = .patchy (mkPatchyModel cem (finC φc) (finC cf) (finC plb) (finC u) (N.map finC) (finC f)))
    {A : TrendList n}
    (hadj : s.adjustments = A.map fun a => .pressureDependency a.1)
    (hA : A.Good (effectiveAt mx ob rk) (effectiveAt mx ob rf))
    (hr : ∀ i, 2 * (mineralAt x L i).G ≤ 3 * (mineralAt x L i).K ∧
      0.04 * (Real.pi * (mineralAt x L i).G) ≤ (a i).G)
    (hφ0 : ∀ i, 0 < φ i) (hφe : ∀ i, φ i ≤ φc i - 1e-5) (hφ1 : ∀ i, φ i ≤ φc i - cf i)
    (hφ2 : ∀ i, φ i ≤ φc i - u i)
    (hcf : ∀ i, 0 ≤ cf i ∧ cf i < φc i) (hu : ∀ i, 0 ≤ u i ∧ u i < φc i) (hc1 : ∀ i, φc i < 1)
    (hpe : ∀ i, 0 < effectiveAt mx ob rk i) (hplb : ∀ i, 0 < plb i) (hf : ∀ i, 0 ≤ f i)
    (hN : ∀ i, 0 < coordination N φc i) :
    let dry := fun i => A.scale (effectiveAt mx ob rk i) (effectiveAt mx ob rf i)
      (Published.patchyCement (mineralAt x L i) (a i) (φ i) (φc i - cf i) (φc i - u i)
        (effectiveAt mx ob rk i) (plb i) (φc i) (f i) (coordination N φc i) 9)
    let dense := fun i => Published.lowerBound (a i) (mineralAt x L i) (u i)
    (∀ i, (dry i).K < (dense i).K ∧ (F i).K < (dense i).K) →
    calculate co2 s = .ok (tableOf (mineralAt x L) dry dense F φ) := by
  intro dry dense hrow
  obtain ⟨d, hd⟩ := (C46_patchy_accepts_exactly (mkPatchyModel cem (finC φc) (finC cf) (finC plb) (finC u)
    (N.map finC) (finC f)) (φ := φ) rfl rfl
    (A.map fun a => .pressureDependency a.1)).1.mpr fun i => ⟨hφe i, (hφ2 i).trans (by norm_num)⟩
  have hd' : mkDryRock s.sandModel s.porosity s.adjustments = .ok d := by rw [hmodel, hφ, hadj]; exact hd
  refine calculate_published co2 hs hp hF hφ hd' (fun mineral pr _ h1 h2 => ?_) fun i => ⟨hφ0 i, hrow i⟩
  obtain ⟨d0, hd0⟩ := (C46_patchy_accepts_exactly (mkPatchyModel cem (finC φc) (finC cf) (finC plb) (finC u)
    (N.map finC) (finC f)) (φ := φ) rfl rfl []).1.mpr fun i => ⟨hφe i, (hφ2 i).trans (by norm_num)⟩
  have := C102_patchy h1 hcem hr h2 hd0 (fun i => (hφ0 i).le) hφ1 hφ2 hcf hu hc1 hpe hplb hf hN
  obtain rfl := mkDryRock_ok hd0
  obtain rfl := mkDryRock_ok hd
  obtain ⟨⟨r, r1, r2⟩, r3⟩ := this
  obtain ⟨r', r4, r5⟩ := adjustAll_trends h2 (finC φ) mineral A hA r2
  refine ⟨⟨r', ?_, r5⟩, r3⟩
  rw [DryRock.material_split]
  dsimp only
  rw [r1, bind_ok, r4]

/-! ### When is the dry rock softer than the dense packing? -/

theorem lowerBound_softer {a b : Published.Rock} {f : ℝ} (ha : 0 < a.K ∧ 0 < a.G) (hb : 0 < b.K ∧ 0 < b.G)
    (h0 : 0 ≤ f) (h1 : f < 1) (h : b.K < a.K) : (Published.lowerBound a b f).K < a.K := by
  have hz : 0 < 4 / 3 * min a.G b.G := mul_pos (by norm_num) (lt_min ha.2 hb.2)
  show Published.hashinShtrikman a.K b.K f (4 / 3 * min a.G b.G) < a.K
  rw [← hsReal_published (by linarith [ha.1]) (by linarith [hb.1]) h0 h1.le]
  exact hsReal_lt_left (by linarith [ha.1]) (by linarith [hb.1]) h0 h1 h

theorem rock_of_pos (r : Published.Rock) (h : 0 < r.K ∧ 0 < r.G ∧ 0 < r.ρ) :
    (Mat.ofReal (n := 1) (fun _ => r.K) (fun _ => r.G) (fun _ => r.ρ)).IsRock fun _ => r :=
  ⟨rfl, rfl, rfl, fun _ => h⟩

theorem friable_softer {a : Published.Rock} (ha : 0 < a.K ∧ 0 < a.G ∧ 0 < a.ρ) {φ φc p C f : ℝ} (hφ0 : 0 < φ)
    (hφ : φ ≤ φc) (hc1 : φc < 1) (hp : 0 < p) (hf : 0 ≤ f) (hC : 0 < C)
    (h : (Published.hertzMindlin a φc p C f).K < a.K) : (Published.friableSand a φ φc p C f).K < a.K := by
  obtain ⟨r, -, hr⟩ := hertzMindlin_rock (φ := fun _ => φc) (p := fun _ => p) (f := fun _ => f) (N := fun _ => C)
    (rock_of_pos a ha) (fun _ => hc1) (fun _ => hp) (fun _ => hf) (fun _ => hC)
  have hc0 : 0 < φc := lt_of_lt_of_le hφ0 hφ
  exact lowerBound_softer ⟨ha.1, ha.2.1⟩ ⟨(hr.2.2.2 0).1, (hr.2.2.2 0).2.1⟩
    (by have := div_le_one_of_le₀ hφ hc0.le; linarith) (by have := div_pos hφ0 hc0; linarith) h

theorem weight_range (x lo up : ℝ) : 0 ≤ Published.weight x lo up ∧ Published.weight x lo up ≤ 1 := by
  unfold Published.weight
  split
  · exact ⟨zero_le_one, le_rfl⟩
  · exact ⟨le_min zero_le_one (le_max_left _ _), min_le_left _ _⟩

theorem patchy_softer {a b : Published.Rock} (ha : 0 < a.K ∧ 0 < a.G ∧ 0 < a.ρ) (hb : 0 < b.K ∧ 0 < b.G ∧ 0 < b.ρ)
    (hr : 2 * b.G ≤ 3 * b.K ∧ 0.04 * (Real.pi * b.G) ≤ a.G) {φ φcem φub p plb φc f C : ℝ} (hφ0 : 0 < φ)
    (hφ : φ ≤ φub) (hub : φub ≤ φc) (hc1 : φc < 1) (hp : 0 < p) (hf : 0 ≤ f) (hC : 0 < C)
    (h1 : (Published.hertzMindlin (Published.lowerBound a b (φc - φub)) φc p C f).K
      < (Published.lowerBound a b (φc - φub)).K)
    (h2 : (Published.contactCement a b φub φc f 9).K < (Published.lowerBound a b (φc - φub)).K) :
    (Published.patchyCement b a φ φcem φub p plb φc f C 9).K < (Published.lowerBound a b (φc - φub)).K := by
  obtain ⟨m, -, hm⟩ := hsw_lower (f := fun _ => φc - φub) (rock_of_pos a ha) (rock_of_pos b hb)
    (fun _ => ⟨by linarith, by linarith⟩)
  have hmix := hm.2.2.2 0
  obtain ⟨k, -, hk⟩ := contactCement_rock (x := fun _ => φub) (g := fun _ => φc) (f := fun _ => f) (N := fun _ => 9)
    (rock_of_pos a ha) (rock_of_pos b hb) ⟨fun _ => hr.1, fun _ => hr.2⟩ (fun _ => by linarith) (fun _ => hub)
    (fun _ => hc1) (fun _ => hf) (fun _ => by norm_num)
  have hub0 : 0 < φub := by linarith
  have l1 : (Published.friableSand (Published.lowerBound a b (φc - φub)) φ φc p C f).K
      < (Published.lowerBound a b (φc - φub)).K := friable_softer hmix hφ0 (by linarith) hc1 hp hf hC h1
  have l2 : (Published.constantCement b a φ φub φc f 9).K < (Published.lowerBound a b (φc - φub)).K :=
    lowerBound_softer ⟨hmix.1, hmix.2.1⟩ ⟨(hk.2.2.2 0).1, (hk.2.2.2 0).2.1⟩
      (by have := div_le_one_of_le₀ hφ hub0.le; linarith) (by have := div_pos hφ0 hub0; linarith) h2
  have key : ∀ w l u M : ℝ, 0 ≤ w → w ≤ 1 → l < M → u < M → l + w * (u - l) < M := by
    intro w l u M w0 w1 hl hu
    rcases eq_or_lt_of_le w1 with rfl | w1
    · linarith
    · nlinarith [mul_pos (sub_pos.mpr w1) (sub_pos.mpr hl), mul_nonneg w0 (sub_pos.mpr hu).le]
  exact key _ _ _ _ (weight_range _ _ _).1 (weight_range _ _ _).2 l1 l2

theorem mineralAt_pos {s : Sections n} {x : Mat n × (Fin n → Published.Rock) × (Fin n → ℝ)} {L : RockList n}
    {ob rf rk P : Fin n → ℝ} {mx : Option (Fin n → ℝ)} (hs : s.Says x L ob rf rk P mx) (i : Fin n) :
    0 < (mineralAt x L i).K ∧ 0 < (mineralAt x L i).G ∧ 0 < (mineralAt x L i).ρ := by
  have hle : ∀ i, ((x :: L).map fun y => y.2.2 i).sum ≤ 1 + 1e-5 := fun i => by
    have := (abs_le.mp (hs.fractions i)).2; linarith
  obtain ⟨mineral, -, c2⟩ := C100_mineral_mixture x L hs.rocks hle
  exact c2.2.2.2 i

theorem scale_nil (eff ref : ℝ) (r : Published.Rock) : TrendList.scale (n := n) [] eff ref r = r := by
  simp [TrendList.scale]

/-- **C105, unadjusted friable sand.** Without adjustments it is enough that grain pack and fluid are softer
than the mineral. -/
theorem C105_friable_softer (co2 : CO2Model n) {s : Sections n}
    {x : Mat n × (Fin n → Published.Rock) × (Fin n → ℝ)} {L : RockList n} {ob rf rk P : Fin n → ℝ}
    {mx : Option (Fin n → ℝ)} (hs : s.Says x L ob rf rk P mx) {T : Fin n → ℝ} {pores : List (Pore n)}
    (hp : s.Pores T P pores) {F : Fin n → Published.Fluid} (hF : s.Mixes pores F)
    {φ φc f : Fin n → ℝ} {N : Option (Fin n → ℝ)} (hφ : s.porosity = finC φ)
    (hmodel : s.sandModel = .friable (mkFriableModel (finC φc) (finC f) (N.map finC))) (hadj : s.adjustments = [])
    (hφ0 : ∀ i, 0 < φ i) (hφ1 : ∀ i, φ i ≤ φc i - 1e-5) (hc1 : ∀ i, φc i < 1)
    (hpe : ∀ i, 0 < effectiveAt mx ob rk i) (hf : ∀ i, 0 ≤ f i) (hN : ∀ i, 0 < coordination N φc i)
    (hrow : ∀ i, (Published.hertzMindlin (mineralAt x L i) (φc i) (effectiveAt mx ob rk i) (coordination N φc i)
      (f i)).K < (mineralAt x L i).K ∧ (F i).K < (mineralAt x L i).K) :
    calculate co2 s = .ok (tableOf (mineralAt x L)
      (fun i => Published.friableSand (mineralAt x L i) (φ i) (φc i) (effectiveAt mx ob rk i)
        (coordination N φc i) (f i)) (mineralAt x L) F φ) := by
  have := C105_friable co2 hs hp hF hφ hmodel (A := []) hadj (by simp [TrendList.Good]) hφ0 hφ1 hc1 hpe hf hN
  simp only [scale_nil] at this
  exact this fun i => ⟨friable_softer (mineralAt_pos hs i) (hφ0 i) ((hφ1 i).trans (by norm_num)) (hc1 i) (hpe i)
    (hf i) (hN i) (hrow i).1, (hrow i).2⟩

/-- **C105, unadjusted patchy cement.** Without adjustments it is enough that the loose pack, the cemented pack
and the fluid are softer than the dense packing of cement and mineral. -/
theorem C105_patchy_softer (co2 : CO2Model n) {s : Sections n}
    {x : Mat n × (Fin n → Published.Rock) × (Fin n → ℝ)} {L : RockList n} {ob rf rk P : Fin n → ℝ}
    {mx : Option (Fin n → ℝ)} (hs : s.Says x L ob rf rk P mx) {T : Fin n → ℝ} {pores : List (Pore n)}
    (hp : s.Pores T P pores) {F : Fin n → Published.Fluid} (hF : s.Mixes pores F)
    {φ φc cf u plb f : Fin n → ℝ} {N : Option (Fin n → ℝ)} (hφ : s.porosity = finC φ)
    {cem : Mat n} {a : Fin n → Published.Rock} (hcem : cem.IsRock a)
    (hmodel : s.sandModel = .patchy (mkPatchyModel cem (finC φc) (finC cf) (finC plb) (finC u) (N.map finC) (finC f)))
    (hadj : s.adjustments = [])
    (hr : ∀ i, 2 * (mineralAt x L i).G ≤ 3 * (mineralAt x L i).K ∧
      0.04 * (Real.pi * (mineralAt x L i).G) ≤ (a i).G)
    (hφ0 : ∀ i, 0 < φ i) (hφe : ∀ i, φ i ≤ φc i - 1e-5) (hφ1 : ∀ i, φ i ≤ φc i - cf i)
    (hφ2 : ∀ i, φ i ≤ φc i - u i)
    (hcf : ∀ i, 0 ≤ cf i ∧ cf i < φc i) (hu : ∀ i, 0 ≤ u i ∧ u i < φc i) (hc1 : ∀ i, φc i < 1)
    (hpe : ∀ i, 0 < effectiveAt mx ob rk i) (hplb : ∀ i, 0 < plb i) (hf : ∀ i, 0 ≤ f i)
    (hN : ∀ i, 0 < coordination N φc i)
    (hrow : ∀ i, let dense := Published.lowerBound (a i) (mineralAt x L i) (u i)
      (Published.hertzMindlin dense (φc i) (effectiveAt mx ob rk i) (coordination N φc i) (f i)).K < dense.K ∧
      (Published.contactCement (a i) (mineralAt x L i) (φc i - u i) (φc i) (f i) 9).K < dense.K ∧
      (F i).K < dense.K) :
    calculate co2 s = .ok (tableOf (mineralAt x L)
      (fun i => Published.patchyCement (mineralAt x L i) (a i) (φ i) (φc i - cf i) (φc i - u i)
        (effectiveAt mx ob rk i) (plb i) (φc i) (f i) (coordination N φc i) 9)
      (fun i => Published.lowerBound (a i) (mineralAt x L i) (u i)) F φ) := by
  have := C105_patchy co2 hs hp hF hφ hcem hmodel (A := []) hadj (by simp [TrendList.Good]) hr hφ0 hφe hφ1 hφ2 hcf hu
    hc1 hpe hplb hf hN
  simp only [scale_nil] at this
  refine this fun i => ⟨?_, (hrow i).2.2⟩
  have e : φc i - (φc i - u i) = u i := by ring
  have := patchy_softer (φcem := φc i - cf i) (plb := plb i) (φ := φ i) (φub := φc i - u i) (φc := φc i)
    (p := effectiveAt mx ob rk i) (f := f i) (C := coordination N φc i) (hcem.2.2.2 i) (mineralAt_pos hs i) (hr i) (hφ0 i)
    (hφ2 i) (by linarith [(hu i).1]) (hc1 i) (hpe i) (hf i) (hN i) (by rw [e]; exact (hrow i).1)
    (by rw [e]; exact (hrow i).2.1)
  rw [e] at this
  exact this

/-! ### A concrete table -/

/-- Quartz sand with fresh water and a gas given as a material, mixed by Brie's law; two rows; only the fluid
pressure is given. -/
noncomputable def exBrie : Sections 2 where
  minerals := [⟨Mat.ofReal (fun _ => 36.8e9) (fun _ => 44e9) (fun _ => 2650), some (finC fun _ => 1)⟩]
  temperature := finC fun _ => 75
  fluids := [⟨.brine (finC fun _ => 0), none, some (finC fun _ => 0.7)⟩,
    ⟨.material (Mat.ofReal (fun _ => 0.05e9) (fun _ => 0) (fun _ => 150)), none, some (finC fun _ => 0.3)⟩]
  mixMethod := .brie
  brieConstant := .fin 3
  brieGases := some [1]
  fluidModel := .default
  sandModel := .friable (mkFriableModel (finC fun _ => 0.4) (finC fun _ => 0.5) (some (finC fun _ => 9)))
  porosity := finC ![0.2, 0.3]
  adjustments := []
  overburden := finC fun _ => 60e6
  reference := finC fun _ => 30e6
  fluidPressure := some (finC fun _ => 30e6)
  maxEffective := none
  rockPressure := none

/-- Its constituents. -/
noncomputable def exPores : List (Pore 2) :=
  [⟨.brine (finC fun _ => 0), none, fun _ => Published.brine 75 30e6 0, fun _ => 0.7⟩,
    ⟨.material (Mat.ofReal (fun _ => 0.05e9) (fun _ => 0) (fun _ => 150)), none, fun _ => ⟨0.05e9, 150⟩,
      fun _ => 0.3⟩]

theorem exBrine_K : 2e9 < (Published.brine 75 30e6 0).K ∧ (Published.brine 75 30e6 0).K < 3e9 := by
  norm_num [Published.brine, Published.brineDensity, Published.brineVelocity, Published.waterDensity,
    Published.waterVelocity]

theorem exBrie_ok (co2 : CO2Model 2) : ∃ dry F, calculate co2 exBrie = .ok (tableOf
    (fun _ => ⟨36.8e9, 44e9, 2650⟩) dry (fun _ => ⟨36.8e9, 44e9, 2650⟩) F ![0.2, 0.3]) := by
  have wet : ∀ (x : Pore 2), (∀ i, 1e-15 ≤ x.sat i) → Wet [x] := fun x hx =>
    ⟨by simp, fun i => by simpa [poreTotal] using hx i⟩
  have hm : mineralAt (n := 2) (Mat.ofReal (fun _ => 36.8e9) (fun _ => 44e9) (fun _ => 2650),
      (fun _ => ⟨36.8e9, 44e9, 2650⟩), fun _ => 1) [] = fun _ => ⟨36.8e9, 44e9, 2650⟩ := rfl
  have h := C105_friable_softer co2 (s := exBrie)
    (x := (Mat.ofReal (fun _ => 36.8e9) (fun _ => 44e9) (fun _ => 2650), (fun _ => ⟨36.8e9, 44e9, 2650⟩), fun _ => 1))
    (L := []) (ob := fun _ => 60e6) (rf := fun _ => 30e6) (rk := fun _ => 30e6) (P := fun _ => 30e6) (mx := none)
    ⟨rfl, by
      intro y hy
      rw [List.mem_singleton.mp hy]
      exact ⟨⟨rfl, rfl, rfl, fun _ => by norm_num⟩, fun _ => by norm_num⟩,
      fun _ => by norm_num, rfl, rfl, rfl, rfl, rfl⟩
    (T := fun _ => 75) (pores := exPores)
    ⟨rfl, rfl, by simp [exPores], by
      intro y hy
      simp only [exPores, List.mem_cons, List.not_mem_nil, or_false] at hy
      rcases hy with rfl | rfl
      · exact .brine (fun _ => 0) (fun _ => by norm_num) (fun _ => by norm_num) (fun _ => by norm_num)
      · exact .material _ _ ⟨rfl, rfl, rfl, fun _ => by norm_num⟩, by
      intro y hy
      simp only [exPores, List.mem_cons, List.not_mem_nil, or_false] at hy
      rcases hy with rfl | rfl <;> simp [exBrie], by
      intro y hy
      simp only [exPores, List.mem_cons, List.not_mem_nil, or_false] at hy
      rcases hy with rfl | rfl <;> norm_num, fun i => by norm_num [poreTotal, exPores]⟩
    (.brieGiven rfl 3 rfl (by norm_num) [1] rfl (by simp) (by simp [exPores])
      (.of_wet (wet _ fun _ => by norm_num) (wet _ fun _ => by norm_num) (fun i => by
        show (List.map (fun x : Pore 2 => x.sat i) [_]).sum ≤ 1
        norm_num)))
    (φ := ![0.2, 0.3]) (φc := fun _ => 0.4) (f := fun _ => 0.5) (N := some fun _ => 9) rfl rfl rfl
    (fun i => by fin_cases i <;> norm_num) (fun i => by fin_cases i <;> norm_num) (fun _ => by norm_num)
    (fun _ => by norm_num [effectiveAt, Published.effective]) (fun _ => by norm_num)
    (fun _ => by norm_num [coordination]) (fun i => by
      rw [hm]
      constructor
      · show Published.hertzMindlinBulk 36.8e9 44e9 0.4 (effectiveAt none (fun _ => 60e6) (fun _ => 30e6) i)
          (coordination (some fun _ => 9) (fun _ => 0.4) i) < 36.8e9
        unfold Published.hertzMindlinBulk
        have e : (36.8e9 : ℝ) = (36.8e9 ^ (3 : ℕ)) ^ (1 / 3 : ℝ) := by
          rw [one_div, show ((3 : ℝ))⁻¹ = ((3 : ℕ) : ℝ)⁻¹ by norm_num, Real.pow_rpow_inv_natCast] <;> norm_num
        conv_rhs => rw [e]
        have hpi := Real.pi_gt_three
        have hn : Published.poisson 36.8e9 44e9 = 28 / 386 := by norm_num [Published.poisson]
        rw [hn]
        apply Real.rpow_lt_rpow
        · norm_num [effectiveAt, Published.effective, coordination]; positivity
        · rw [div_lt_iff₀ (by positivity)]
          norm_num [effectiveAt, Published.effective, coordination]
          nlinarith
        · norm_num
      · show (Published.brie [(Published.brine 75 30e6 0, 0.7)] [((⟨0.05e9, 150⟩ : Published.Fluid), 0.3)] 3).K < 36.8e9
        obtain ⟨b1, b2⟩ := exBrine_K
        simp only [Published.brie, Published.wood, List.map_cons, List.map_nil, List.sum_cons, List.sum_nil, add_zero]
        generalize (Published.brine 75 30e6 0).K = B at b1 b2
        norm_num
        nlinarith)
  rw [hm] at h
  exact ⟨_, _, h⟩

/-- Quartz-cemented quartz sand with one fluid. -/
noncomputable def exPatchyRun : Sections 2 where
  minerals := [⟨Mat.ofReal (fun _ => 36.8e9) (fun _ => 44e9) (fun _ => 2650), some (finC fun _ => 1)⟩]
  temperature := finC fun _ => 75
  fluids := [⟨.material (Mat.ofReal (fun _ => 2.8e9) (fun _ => 0) (fun _ => 1030)), none, some (finC fun _ => 1)⟩]
  mixMethod := .wood
  brieConstant := .fin 3
  brieGases := none
  fluidModel := .default
  sandModel := .patchy (mkPatchyModel (Mat.ofReal (fun _ => 36.8e9) (fun _ => 44e9) (fun _ => 2650))
    (finC fun _ => 0.4) (finC fun _ => 0.04) (finC fun _ => 20e6) (finC fun _ => 0.1) none (finC fun _ => 0.5))
  porosity := finC ![0.2, 0.3]
  adjustments := []
  overburden := finC fun _ => 60e6
  reference := finC fun _ => 30e6
  fluidPressure := some (finC fun _ => 30e6)
  maxEffective := none
  rockPressure := some (finC fun _ => 30e6)

theorem lowerBound_self (a : Published.Rock) (hK : 0 < a.K) (hG : 0 < a.G) (f : ℝ) :
    (Published.lowerBound a a f).K = a.K ∧ (Published.lowerBound a a f).G = a.G := by
  have key : ∀ x z : ℝ, 0 < x + z → Published.hashinShtrikman x x f z = x := by
    intro x z h
    unfold Published.hashinShtrikman
    rw [← add_div, show f + (1 - f) = 1 by ring, one_div, inv_inv]; ring
  simp only [Published.lowerBound, min_self]
  refine ⟨key _ _ (by positivity), key _ _ ?_⟩
  unfold Published.zeta
  positivity

theorem exCemented : (Published.contactCement ⟨36.8e9, 44e9, 2650⟩ ⟨36.8e9, 44e9, 2650⟩ (0.4 - 0.1) 0.4 0.5 9).K < 36.8e9 := by
  have hpi := Real.pi_gt_three
  have hpi4 := Real.pi_lt_d2
  have hn : Published.poisson 36.8e9 44e9 = 28 / 386 := by norm_num [Published.poisson]
  have hα0 : 0 ≤ Published.radiusRatio 0.4 (0.4 - 0.1) := by
    unfold Published.radiusRatio Published.cementRadius
    refine le_min zero_le_one ?_
    positivity
  have hα1 : Published.radiusRatio 0.4 (0.4 - 0.1) ≤ 1 := min_le_left _ _
  simp only [Published.contactCement]
  generalize Published.radiusRatio 0.4 (0.4 - 0.1) = α at hα0 hα1
  simp only [Published.cementedBulk, Published.cementNormal, hn]
  set Λ : ℝ := 2 * 44e9 / (Real.pi * 44e9) * ((1 - 28 / 386) * (1 - 28 / 386) / (1 - 2 * (28 / 386))) with hΛ
  have h1 : 1 / 2 ≤ Λ := by
    rw [hΛ, div_mul_eq_mul_div, le_div_iff₀ (by positivity)]
    norm_num
    nlinarith
  have p0 : 0 ≤ Λ ^ (-1.3646 : ℝ) := Real.rpow_nonneg (by linarith) _
  have bound : ∀ x : ℝ, 0 ≤ x → Λ ^ (-x) ≤ 2 ^ x := by
    intro x hx
    have : Λ ^ (-x) ≤ (1 / 2 : ℝ) ^ (-x) := Real.rpow_le_rpow_of_nonpos (by norm_num) h1 (by linarith)
    rwa [one_div, Real.inv_rpow (by norm_num), ← Real.rpow_neg (by norm_num), neg_neg] at this
  have p1 : Λ ^ (-0.89008 : ℝ) ≤ 2 := (bound 0.89008 (by norm_num)).trans (by
    have := Real.rpow_le_rpow_of_exponent_le (x := 2) (by norm_num) (show (0.89008 : ℝ) ≤ 1 by norm_num)
    simpa using this)
  have p2 : Λ ^ (-1.9864 : ℝ) ≤ 4 := (bound 1.9864 (by norm_num)).trans (by
    have := Real.rpow_le_rpow_of_exponent_le (x := 2) (by norm_num) (show (1.9864 : ℝ) ≤ 2 by norm_num)
    norm_num at this ⊢
    exact this)
  have p3 : 0 ≤ Λ ^ (-0.89008 : ℝ) := Real.rpow_nonneg (by linarith) _
  have p4 : 0 ≤ Λ ^ (-1.9864 : ℝ) := Real.rpow_nonneg (by linarith) _
  generalize Λ ^ (-1.3646 : ℝ) = A at *
  generalize Λ ^ (-0.89008 : ℝ) = B at *
  generalize Λ ^ (-1.9864 : ℝ) = C at *
  have q1 : 0 ≤ A * α ^ 2 := by positivity
  have q2 : B * α ≤ 2 := by nlinarith
  nlinarith

theorem exPatchy_ok (co2 : CO2Model 2) : ∃ dry dense F, calculate co2 exPatchyRun = .ok (tableOf
    (fun _ => ⟨36.8e9, 44e9, 2650⟩) dry dense F ![0.2, 0.3]) := by
  have hm : mineralAt (n := 2) (Mat.ofReal (fun _ => 36.8e9) (fun _ => 44e9) (fun _ => 2650),
      (fun _ => ⟨36.8e9, 44e9, 2650⟩), fun _ => 1) [] = fun _ => ⟨36.8e9, 44e9, 2650⟩ := rfl
  have hpi := Real.pi_gt_three
  have hpi4 := Real.pi_lt_d2
  have h := C105_patchy_softer co2 (s := exPatchyRun)
    (x := (Mat.ofReal (fun _ => 36.8e9) (fun _ => 44e9) (fun _ => 2650), (fun _ => ⟨36.8e9, 44e9, 2650⟩), fun _ => 1))
    (L := []) (ob := fun _ => 60e6) (rf := fun _ => 30e6) (rk := fun _ => 30e6) (P := fun _ => 30e6) (mx := none)
    ⟨rfl, by
      intro y hy
      rw [List.mem_singleton.mp hy]
      exact ⟨⟨rfl, rfl, rfl, fun _ => by norm_num⟩, fun _ => by norm_num⟩,
      fun _ => by norm_num, rfl, rfl, rfl, rfl, rfl⟩
    (T := fun _ => 75) (pores := [⟨.material (Mat.ofReal (fun _ => 2.8e9) (fun _ => 0) (fun _ => 1030)), none,
      fun _ => ⟨2.8e9, 1030⟩, fun _ => 1⟩])
    ⟨rfl, rfl, by simp, by
      intro y hy
      rw [List.mem_singleton.mp hy]
      exact .material _ _ ⟨rfl, rfl, rfl, fun _ => by norm_num⟩, by
      intro y hy
      rw [List.mem_singleton.mp hy]
      simp [exPatchyRun], by
      intro y hy
      rw [List.mem_singleton.mp hy]
      norm_num, fun i => by norm_num [poreTotal]⟩
    (.wood rfl ⟨by simp, fun i => by norm_num [poreTotal]⟩)
    (φ := ![0.2, 0.3]) (φc := fun _ => 0.4) (cf := fun _ => 0.04) (u := fun _ => 0.1) (plb := fun _ => 20e6)
    (f := fun _ => 0.5) (N := none) rfl (a := fun _ => ⟨36.8e9, 44e9, 2650⟩)
    ⟨rfl, rfl, rfl, fun _ => by norm_num⟩ rfl rfl
    (fun i => by rw [hm]; constructor <;> norm_num; nlinarith)
    (fun i => by fin_cases i <;> norm_num) (fun i => by fin_cases i <;> norm_num)
    (fun i => by fin_cases i <;> norm_num) (fun i => by fin_cases i <;> norm_num)
    (fun _ => by norm_num) (fun _ => by norm_num) (fun _ => by norm_num)
    (fun _ => by norm_num [effectiveAt, Published.effective]) (fun _ => by norm_num) (fun _ => by norm_num)
    (fun _ => by norm_num [coordination, Published.murphy]) (fun i => by
      rw [hm]
      obtain ⟨k1, k2⟩ := lowerBound_self ⟨36.8e9, 44e9, 2650⟩ (by norm_num) (by norm_num) 0.1
      dsimp only at k1 k2 ⊢
      refine ⟨?_, ?_, ?_⟩
      · show Published.hertzMindlinBulk (Published.lowerBound ⟨36.8e9, 44e9, 2650⟩ ⟨36.8e9, 44e9, 2650⟩ 0.1).K
          (Published.lowerBound ⟨36.8e9, 44e9, 2650⟩ ⟨36.8e9, 44e9, 2650⟩ 0.1).G 0.4
          (effectiveAt none (fun _ => 60e6) (fun _ => 30e6) i) (coordination none (fun _ => 0.4) i) < _
        rw [k1, k2]
        unfold Published.hertzMindlinBulk
        have e : (36.8e9 : ℝ) = (36.8e9 ^ (3 : ℕ)) ^ (1 / 3 : ℝ) := by
          rw [one_div, show ((3 : ℝ))⁻¹ = ((3 : ℕ) : ℝ)⁻¹ by norm_num, Real.pow_rpow_inv_natCast] <;> norm_num
        conv_rhs => rw [e]
        have hn : Published.poisson 36.8e9 44e9 = 28 / 386 := by norm_num [Published.poisson]
        rw [hn]
        apply Real.rpow_lt_rpow
        · norm_num [effectiveAt, Published.effective, coordination, Published.murphy]; positivity
        · rw [div_lt_iff₀ (by positivity)]
          norm_num [effectiveAt, Published.effective, coordination, Published.murphy]
          nlinarith
        · norm_num
      · rw [k1]; exact exCemented
      · rw [k1]
        show (Published.wood [((⟨2.8e9, 1030⟩ : Published.Fluid), 1)]).K < 36.8e9
        norm_num [Published.wood])
  rw [hm] at h
  exact ⟨_, _, _, h⟩

end OPE
