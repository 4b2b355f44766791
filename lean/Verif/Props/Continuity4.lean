import Verif.Props.Continuity3

/-!
# C165: the hypotheses are met

Friable sand: quartz gives way to clay and water to gas while the porosity grows from nothing.  Patchy cement: porosity,
overburden and pore fluid change together.
-/

namespace OPE

open Classical Topology

/-! ### Friable sand -/

/-- Quartz giving way to clay. -/
noncomputable def exQuartzAlong : MineralAlong (Set.Icc (0:ℝ) 1) 1 :=
  ⟨fun _ => Mat.ofReal (fun _ => 37) (fun _ => 44) (fun _ => 2650), fun _ _ => ⟨37, 44, 2650⟩, fun x _ => 1 - x.1⟩

noncomputable def exClayAlong : MineralAlong (Set.Icc (0:ℝ) 1) 1 :=
  ⟨fun _ => Mat.ofReal (fun _ => 15) (fun _ => 7) (fun _ => 2550), fun _ _ => ⟨15, 7, 2550⟩, fun x _ => x.1⟩

/-- Water giving way to gas. -/
noncomputable def exWaterGas : List (PoreAlong (Set.Icc (0:ℝ) 1) 1) :=
  [⟨fun _ => .material (Mat.ofReal (fun _ => 2.8) (fun _ => 0) (fun _ => 1030)), none, fun _ _ => ⟨2.8, 1030⟩,
      fun x _ => 1 - x.1⟩,
    ⟨fun _ => .material (Mat.ofReal (fun _ => 0.05) (fun _ => 0) (fun _ => 150)), none, fun _ _ => ⟨0.05, 150⟩,
      fun x _ => x.1⟩]

noncomputable def exSandAlong (x : Set.Icc (0:ℝ) 1) : Sections 1 where
  minerals := [exQuartzAlong.at x, exClayAlong.at x].map fun y => ⟨y.1, some (finC y.2.2)⟩
  temperature := finC fun _ => 80
  fluids := (exWaterGas.map (·.at x)).map fun p => ⟨p.kind, p.model, some (finC p.sat)⟩
  mixMethod := .wood
  brieConstant := .fin 3
  brieGases := none
  fluidModel := .batzleWang
  sandModel := .friable (mkFriableModel (finC fun _ => 0.4) (finC fun _ => 0.5) (some (finC fun _ => 9)))
  porosity := finC fun _ => 0.3 * x.1
  adjustments := []
  overburden := finC fun _ => 0.04
  reference := finC fun _ => 0.03
  fluidPressure := some (finC fun _ => 0.02)
  maxEffective := none
  rockPressure := some (finC fun _ => 0.02)

theorem exWaterGas_varies {T P : Set.Icc (0:ℝ) 1 → Fin 1 → ℝ} : PoresAlong T P exWaterGas := by
  constructor
  · intro p hp
    simp only [exWaterGas, List.mem_cons, List.not_mem_nil, or_false] at hp
    rcases hp with rfl | rfl
    · exact .material _ _ (fun _ => ⟨rfl, rfl, rfl, fun _ => by norm_num⟩) ⟨fun _ => continuous_const, fun _ => continuous_const⟩
    · exact .material _ _ (fun _ => ⟨rfl, rfl, rfl, fun _ => by norm_num⟩) ⟨fun _ => continuous_const, fun _ => continuous_const⟩
  · intro p hp
    simp only [exWaterGas, List.mem_cons, List.not_mem_nil, or_false] at hp
    rcases hp with rfl | rfl <;> dsimp only <;> fun_prop

theorem exSandAlong_sections : SectionsAlong exSandAlong exQuartzAlong [exClayAlong] (fun _ _ => 0.04) (fun _ _ => 0.03)
    (fun _ _ => 0.02) (fun _ _ => 0.02) none (fun _ _ => 80) exWaterGas
    (fun x i => Published.wood (poreRow (exWaterGas.map (·.at x)) i)) (fun x _ => 0.3 * x.1) := by
  have h0 : ∀ x : Set.Icc (0:ℝ) 1, 0 ≤ x.1 ∧ x.1 ≤ 1 := fun x => x.2
  refine ⟨fun x => ⟨rfl, ?_, ?_, rfl, rfl, rfl, rfl, rfl⟩, ?_, ⟨continuous_const, continuous_const, continuous_const, continuous_const,
    fun _ h => by cases h⟩, continuous_const, fun x => ⟨rfl, rfl, by simp [exWaterGas], ?_, ?_, ?_, ?_⟩, exWaterGas_varies,
    ⟨.wood, none, fun _ => rfl, fun _ => rfl, ⟨fun _ => 3, continuous_const, fun _ => rfl⟩, fun x => .wood rfl ⟨by simp [exWaterGas], fun i => ?_⟩⟩,
    fun _ => rfl, by fun_prop⟩
  · intro y hy
    simp only [List.map_cons, List.map_nil, List.mem_cons, List.not_mem_nil, or_false] at hy
    rcases hy with rfl | rfl
    · exact ⟨⟨rfl, rfl, rfl, fun _ => by norm_num [exQuartzAlong, MineralAlong.at]⟩, fun _ => sub_nonneg.mpr (h0 x).2⟩
    · exact ⟨⟨rfl, rfl, rfl, fun _ => by norm_num [exClayAlong, MineralAlong.at]⟩, fun _ => (h0 x).1⟩
  · intro i
    simp [exQuartzAlong, exClayAlong, MineralAlong.at]
    norm_num
  · intro q hq
    simp only [List.mem_cons, List.not_mem_nil, or_false] at hq
    rcases hq with rfl | rfl
    · exact ⟨fun _ => ⟨continuous_const, continuous_const, continuous_const, fun _ => by norm_num [exQuartzAlong]⟩, by unfold exQuartzAlong; dsimp only; fun_prop⟩
    · exact ⟨fun _ => ⟨continuous_const, continuous_const, continuous_const, fun _ => by norm_num [exClayAlong]⟩, by unfold exClayAlong; dsimp only; fun_prop⟩
  · intro q hq
    obtain ⟨p, hp, rfl⟩ := List.mem_map.mp hq
    exact ((exWaterGas_varies.varies p hp).cont (T := fun _ _ => 80) (P := fun _ _ => 0.02) continuous_const continuous_const).2 x
  · intro q hq
    obtain ⟨p, hp, rfl⟩ := List.mem_map.mp hq
    simp only [exWaterGas, List.mem_cons, List.not_mem_nil, or_false] at hp
    rcases hp with rfl | rfl <;> exact fun h => by cases h
  · intro q hq i
    simp only [exWaterGas, List.map_cons, List.map_nil, List.mem_cons, List.not_mem_nil, or_false, PoreAlong.at] at hq
    have := h0 x
    rcases hq with rfl | rfl <;> dsimp only <;> linarith
  · intro i
    rw [poreTotal_at]
    simp [exWaterGas]
    norm_num
  · rw [poreTotal_at]
    simp [exWaterGas]
    norm_num

/-- A mix of quartz and clay lies between them. -/
theorem exMix_between (x : Set.Icc (0:ℝ) 1) (i : Fin 1) :
    let a := mineralAt (exQuartzAlong.at x) ([exClayAlong].map (·.at x)) i
    15 ≤ a.K ∧ a.K ≤ 37 ∧ 7 ≤ a.G ∧ a.G ≤ 44 ∧ 0 < a.ρ := by
  have h0 := x.2.1
  have h1 := x.2.2
  intro a
  have e : a = Published.lowerBound ⟨37, 44, 2650⟩ ⟨15, 7, 2550⟩ (1 - x.1) := by
    show Published.lowerBound _ _ (if (1 - x.1) + x.1 = 0 then 1 else (1 - x.1) / ((1 - x.1) + x.1)) = _
    rw [if_neg (by rw [sub_add_cancel]; norm_num), sub_add_cancel, div_one]
    rfl
  rw [e]
  obtain ⟨k1, k2⟩ := Shipped.hs_bounds (a := 37) (b := 15) (f := 1 - x.1) (z := 4 / 3 * min 44 7) (lo := 15) (hi := 37)
    (by linarith) (by linarith) (by norm_num) (by norm_num) (by norm_num)
  have hz : 0 ≤ Published.zeta (min 37 15) (min 44 7) := zeta_nonneg (by norm_num) (by norm_num)
  obtain ⟨g1, g2⟩ := Shipped.hs_bounds (a := 44) (b := 7) (f := 1 - x.1) (z := Published.zeta (min 37 15) (min 44 7)) (lo := 7) (hi := 44)
    (by linarith) (by linarith) (by linarith) (by norm_num) (by norm_num)
  refine ⟨k1, k2, g1, g2, ?_⟩
  show 0 < (1 - x.1) * 2650 + (1 - (1 - x.1)) * 2550
  nlinarith

/-- A pack of such grains is softer than they are. -/
theorem exPack_soft {a : Published.Rock} (h : 15 ≤ a.K ∧ a.K ≤ 37 ∧ 7 ≤ a.G ∧ a.G ≤ 44 ∧ 0 < a.ρ) :
    (Published.hertzMindlin a 0.4 0.02 9 0.5).K < a.K := by
  obtain ⟨k1, k2, g1, g2, -⟩ := h
  have hpi := Real.pi_gt_three
  have hn : Published.poisson a.K a.G ≤ 1 / 2 := by
    unfold Published.poisson
    rw [div_le_iff₀ (by nlinarith)]; nlinarith
  show Published.hertzMindlinBulk _ _ _ _ _ < _
  unfold Published.hertzMindlinBulk
  refine lt_of_lt_of_le (b := 15) ?_ k1
  have e : (15 : ℝ) = (15 ^ (3 : ℕ)) ^ (1 / 3 : ℝ) := by
    rw [one_div, show ((3 : ℝ))⁻¹ = ((3 : ℕ) : ℝ)⁻¹ by norm_num, Real.pow_rpow_inv_natCast] <;> norm_num
  rw [e]
  generalize Published.poisson a.K a.G = ν at hn
  have hd : 0 < 18 * Real.pi ^ 2 * (1 - ν) ^ 2 := by
    have : 0 < 1 - ν := by linarith
    positivity
  apply Real.rpow_lt_rpow
  · have : 0 < a.G := by linarith
    exact div_nonneg (by positivity) hd.le
  · rw [div_lt_iff₀ hd]
    have h1 : 9 ≤ Real.pi ^ 2 := by nlinarith
    have h2 : 1 / 4 ≤ (1 - ν) ^ 2 := by nlinarith
    have h3 : 9 * (1 / 4) ≤ Real.pi ^ 2 * (1 - ν) ^ 2 := mul_le_mul h1 h2 (by norm_num) (by positivity)
    have h4 : a.G ^ 2 ≤ 44 ^ 2 := by nlinarith
    norm_num at *
    nlinarith
  · norm_num

example : CalculatesContinuously constCO2 exSandAlong := by
  have h0 : ∀ x : Set.Icc (0:ℝ) 1, 0 ≤ x.1 ∧ x.1 ≤ 1 := fun x => x.2
  refine C165_friable constCO2 exSandAlong_sections (φc := fun _ _ => 0.4) (f := fun _ _ => 0.5) (N := some fun _ _ => 9)
    continuous_const continuous_const (fun k h => by cases h; exact continuous_const) (fun _ => rfl) (A := []) (fun _ => rfl)
    (fun _ => fun _ h => by cases h) (fun x _ => by have := h0 x; linarith) (fun x _ => by have := h0 x; norm_num; linarith)
    (fun _ _ => by norm_num) (fun _ _ => by norm_num [effectiveAt, Published.effective]) (fun _ _ => by norm_num)
    (fun _ _ => by norm_num [coordination]) fun x i => ?_
  have hb := exMix_between x i
  intro a p r
  change 15 ≤ a.K ∧ a.K ≤ 37 ∧ 7 ≤ a.G ∧ a.G ≤ 44 ∧ 0 < a.ρ at hb
  have hp : p = 0.02 := by norm_num [p, effectiveAt, Published.effective]
  have hpos : 0 < a.K ∧ 0 < a.G ∧ 0 < a.ρ := ⟨by linarith [hb.1], by linarith [hb.2.2.1], hb.2.2.2.2⟩
  have hs := exPack_soft hb
  constructor
  · rw [scale_nil, hp]
    show (Published.friableSand a (0.3 * x.1) 0.4 0.02 9 0.5).K ≤ a.K
    rcases (h0 x).1.eq_or_lt with hx | hx
    · rw [← hx]
      obtain ⟨_, -, hr⟩ := hertzMindlin_rock (φ := fun _ : Fin 1 => 0.4) (p := fun _ => 0.02) (f := fun _ => 0.5) (N := fun _ => 9)
        (rock_of_pos a hpos) (fun _ => by norm_num) (fun _ => by norm_num) (fun _ => by norm_num) (fun _ => by norm_num)
      have := (lowerBound_one a (Published.hertzMindlin a 0.4 0.02 9 0.5) ⟨hpos.1, hpos.2.1⟩ ⟨(hr.2.2.2 0).1, (hr.2.2.2 0).2.1⟩).1
      unfold Published.friableSand
      rw [mul_zero, zero_div, sub_zero, this]
    · exact (friable_softer hpos (by positivity) (by linarith [(h0 x).2]) (by norm_num) (by norm_num) (by norm_num) (by norm_num) hs).le
  · refine lt_of_le_of_lt (b := 2.8) ?_ (by linarith [hb.1])
    have h := h0 x
    simp only [exWaterGas, poreRow, PoreAlong.at, Published.wood, List.map_cons, List.map_nil, List.sum_cons, List.sum_nil, add_zero]
    rw [sub_add_cancel, div_one]
    norm_num
    rw [inv_le_comm₀ (by nlinarith) (by norm_num)]
    linarith

/-! ### Patchy cement -/

/-- Quartz cemented by quartz. -/
noncomputable def exCementedQuartz : MineralAlong (Set.Icc (0:ℝ) 1) 1 :=
  ⟨fun _ => Mat.ofReal (fun _ => 36.8e9) (fun _ => 44e9) (fun _ => 2650), fun _ _ => ⟨36.8e9, 44e9, 2650⟩, fun _ _ => 1⟩

/-- A fluid that gets softer and lighter. -/
noncomputable def exSofter : PoreAlong (Set.Icc (0:ℝ) 1) 1 :=
  ⟨fun x => .material (Mat.ofReal (fun _ => 2.8e9 - 2.5e9 * x.1) (fun _ => 0) (fun _ => 1030 - 500 * x.1)), none,
    fun x _ => ⟨2.8e9 - 2.5e9 * x.1, 1030 - 500 * x.1⟩, fun _ _ => 1⟩

noncomputable def exPatchyAlong (plb : ℝ) (x : Set.Icc (0:ℝ) 1) : Sections 1 where
  minerals := [exCementedQuartz.at x].map fun y => ⟨y.1, some (finC y.2.2)⟩
  temperature := finC fun _ => 75
  fluids := ([exSofter].map (·.at x)).map fun p => ⟨p.kind, p.model, some (finC p.sat)⟩
  mixMethod := .wood
  brieConstant := .fin 3
  brieGases := none
  fluidModel := .batzleWang
  sandModel := .patchy (mkPatchyModel (Mat.ofReal (fun _ => 36.8e9) (fun _ => 44e9) (fun _ => 2650))
    (finC fun _ => 0.4) (finC fun _ => 0.12) (finC fun _ => plb) (finC fun _ => 0.1) none (finC fun _ => 0.5))
  porosity := finC fun _ => 0.1 + 0.15 * x.1
  adjustments := []
  overburden := finC fun _ => 60e6 - 10e6 * x.1
  reference := finC fun _ => 30e6
  fluidPressure := some (finC fun _ => 30e6)
  maxEffective := none
  rockPressure := some (finC fun _ => 30e6)

theorem exPatchyAlong_sections (plb : ℝ) : SectionsAlong (exPatchyAlong plb) exCementedQuartz [] (fun x _ => 60e6 - 10e6 * x.1)
    (fun _ _ => 30e6) (fun _ _ => 30e6) (fun _ _ => 30e6) none (fun _ _ => 75) [exSofter]
    (fun x i => Published.wood (poreRow ([exSofter].map (·.at x)) i)) (fun x _ => 0.1 + 0.15 * x.1) := by
  have h0 : ∀ x : Set.Icc (0:ℝ) 1, 0 ≤ x.1 ∧ x.1 ≤ 1 := fun x => x.2
  have hv : PoresAlong (fun (_ : Set.Icc (0:ℝ) 1) (_ : Fin 1) => (75:ℝ)) (fun _ _ => 30e6) [exSofter] := by
    constructor
    · intro p hp
      rw [List.mem_singleton.mp hp]
      exact .material _ _ (fun x => ⟨rfl, rfl, rfl, fun _ => by have := h0 x; constructor <;> norm_num [exSofter] <;> linarith⟩)
        ⟨fun _ => by dsimp only [exSofter]; fun_prop, fun _ => by dsimp only [exSofter]; fun_prop⟩
    · intro p hp
      rw [List.mem_singleton.mp hp]
      exact continuous_const
  refine ⟨fun x => ⟨rfl, ?_, ?_, rfl, rfl, rfl, rfl, rfl⟩, ?_, ⟨by fun_prop, continuous_const, continuous_const, continuous_const,
    fun _ h => by cases h⟩, continuous_const, fun x => ⟨rfl, rfl, by simp, ?_, ?_, ?_, ?_⟩, hv,
    ⟨.wood, none, fun _ => rfl, fun _ => rfl, ⟨fun _ => 3, continuous_const, fun _ => rfl⟩, fun x => .wood rfl ⟨by simp, fun i => ?_⟩⟩,
    fun _ => rfl, by fun_prop⟩
  · intro y hy
    rw [List.mem_singleton.mp hy]
    exact ⟨⟨rfl, rfl, rfl, fun _ => by norm_num [exCementedQuartz, MineralAlong.at]⟩, fun _ => by norm_num [exCementedQuartz, MineralAlong.at]⟩
  · intro i
    simp [exCementedQuartz, MineralAlong.at]
    norm_num
  · intro q hq
    rw [List.mem_singleton.mp hq]
    exact ⟨fun _ => ⟨continuous_const, continuous_const, continuous_const, fun _ => by norm_num [exCementedQuartz]⟩, continuous_const⟩
  · intro q hq
    obtain ⟨p, hp, rfl⟩ := List.mem_map.mp hq
    exact ((hv.varies p hp).cont continuous_const continuous_const).2 x
  · intro q hq
    rw [List.mem_singleton.mp hq]
    exact fun h => by cases h
  · intro q hq i
    rw [List.mem_singleton.mp hq]
    exact zero_le_one
  · intro i
    rw [poreTotal_at]
    norm_num [exSofter]
  · rw [poreTotal_at]
    norm_num [exSofter]

/-- Where there is enough pore space, a soft grain pack makes a soft friable sand. -/
theorem friable_soft {a : Published.Rock} (ha : 0 < a.K ∧ 0 < a.G) {φ φc p N f δ : ℝ}
    (hm : 0 < (Published.hertzMindlin a φc p N f).K ∧ 0 < (Published.hertzMindlin a φc p N f).G)
    (h1 : (Published.hertzMindlin a φc p N f).K < δ) (h2 : (Published.hertzMindlin a φc p N f).G < δ)
    (hφ : 1 / 4 ≤ φ / φc) (hφ' : φ / φc ≤ 1) :
    (Published.friableSand a φ φc p N f).K ≤ 10 * δ ∧ (Published.friableSand a φ φc p N f).G ≤ 10 * δ := by
  have key : ∀ {x y z : ℝ}, 0 < x → 0 < y → 0 ≤ z → y < δ → z ≤ 3 / 2 * δ →
      Published.hashinShtrikman x y (1 - φ / φc) z ≤ 10 * δ := by
    intro x y z hx hy hz hyδ hzδ
    unfold Published.hashinShtrikman
    have e1 : 0 ≤ (1 - φ / φc) / (x + z) := div_nonneg (by linarith) (by linarith)
    have e2 : 1 / 4 / (y + z) ≤ (1 - (1 - φ / φc)) / (y + z) := by
      rw [sub_sub_cancel]; exact div_le_div_of_nonneg_right hφ (by linarith)
    have e3 : 0 < 1 / 4 / (y + z) := by positivity
    have e4 : ((1 - φ / φc) / (x + z) + (1 - (1 - φ / φc)) / (y + z))⁻¹ ≤ (1 / 4 / (y + z))⁻¹ :=
      inv_anti₀ e3 (by linarith)
    have e5 : (1 / 4 / (y + z))⁻¹ = 4 * (y + z) := by
      rw [inv_div]; ring
    linarith
  unfold Published.friableSand Published.lowerBound
  generalize Published.hertzMindlin a φc p N f = m at *
  have mG : 0 < min a.G m.G := lt_min ha.2 hm.2
  have mK : 0 < min a.K m.K := lt_min ha.1 hm.1
  have hG := min_le_right a.G m.G
  refine ⟨key ha.1 hm.1 (by positivity) h1 (by linarith), key ha.2 hm.2 (zeta_nonneg mK mG) h2 ?_⟩
  unfold Published.zeta
  generalize min a.G m.G = g at *
  generalize min a.K m.K = k at *
  rw [← mul_div_assoc, div_le_iff₀ (by positivity)]
  nlinarith [mul_pos mK mG]

theorem exPatchy_meets : ∃ plb : ℝ, 0 < plb ∧ CalculatesContinuously constCO2 (exPatchyAlong plb) := by
  have h0 : ∀ x : Set.Icc (0:ℝ) 1, 0 ≤ x.1 ∧ x.1 ≤ 1 := fun x => x.2
  have hpi := Real.pi_gt_three
  have hpi4 := Real.pi_lt_d2
  set a : Published.Rock := ⟨36.8e9, 44e9, 2650⟩ with ha
  have hm : ∀ (x : Set.Icc (0:ℝ) 1) i, mineralAt (exCementedQuartz.at x) (([] : List (MineralAlong _ 1)).map (·.at x)) i = a :=
    fun _ _ => rfl
  have hself : ∀ f, Published.lowerBound a a f = a := by
    intro f
    unfold Published.lowerBound
    simp only [min_self]
    rw [hs_same (by norm_num [ha]), hs_same (by
      have := zeta_nonneg (K := a.K) (G := a.G) (by norm_num [ha]) (by norm_num [ha])
      have : 0 < a.G := by norm_num [ha]
      linarith)]
    rw [ha]; congr 1; ring
  have hc : ContRock fun _ : Set.Icc (0:ℝ) 1 => a := ⟨continuous_const, continuous_const, continuous_const, fun _ => by norm_num [ha]⟩
  have hr : 2 * a.G ≤ 3 * a.K ∧ 0.04 * (Real.pi * a.G) ≤ a.G := by
    constructor <;> norm_num [ha]; nlinarith
  have hpair : CementPair (fun _ : Set.Icc (0:ℝ) 1 => a) (fun _ => a) := ⟨hc, hc, fun _ => hr⟩
  have hcc := (constant_contRock (φ := fun x : Set.Icc (0:ℝ) 1 => 0.1 + 0.15 * x.1) (x := fun _ => 0.4 - 0.1) (g := fun _ => 0.4)
    (f := fun _ => 0.5) (N := fun _ => 9) hpair (by fun_prop) continuous_const continuous_const continuous_const continuous_const
    (fun x => by have := h0 x; linarith) (fun x => by have := h0 x; norm_num; linarith) (fun _ => by norm_num)
    (fun _ => by norm_num) (fun _ => by norm_num) (fun _ => by norm_num) (fun _ => by norm_num)).1.pos ⟨0, by simp⟩
  set δ := min (min a.K (Published.contactCement a a (0.4 - 0.1) 0.4 0.5 9).K)
    (min a.G (Published.contactCement a a (0.4 - 0.1) 0.4 0.5 9).G) with hδ
  have hδ0 : 0 < δ := lt_min (lt_min (by norm_num [ha]) hcc.1) (lt_min (by norm_num [ha]) hcc.2.1)
  obtain ⟨plb, hp, h1, h2⟩ := small_pressure a (by norm_num [ha]) (φ := 0.4) (N := Published.murphy 0.4) (f := 0.5)
    (k := δ / 20) (g := δ / 20) (by positivity) (by positivity)
  have hN : 0 < Published.murphy 0.4 := by norm_num [Published.murphy]
  refine ⟨plb, hp, C165_patchy constCO2 (exPatchyAlong_sections plb) (cem := fun _ => Mat.ofReal (fun _ => 36.8e9) (fun _ => 44e9) (fun _ => 2650))
    (a := fun _ _ => a) (fun _ => ⟨rfl, rfl, rfl, fun _ => by norm_num [ha]⟩) (fun _ => hc) (φc := fun _ _ => 0.4) (cf := fun _ _ => 0.12)
    (u := fun _ _ => 0.1) (plb := fun _ _ => plb) (f := fun _ _ => 0.5) (N := none) continuous_const continuous_const continuous_const
    continuous_const continuous_const (fun k h => by cases h) (fun _ => rfl) (A := []) (fun _ => rfl) (fun _ => fun _ h => by cases h)
    (fun x i => by rw [hm]; exact hr) (fun x _ => by have := h0 x; linarith) (fun x _ => by have := h0 x; norm_num; linarith)
    (fun x _ => by have := h0 x; norm_num; linarith) (fun x _ => by have := h0 x; norm_num; linarith)
    (fun _ _ => by norm_num) (fun _ _ => by norm_num) (fun _ _ => by norm_num) (fun x _ => by have := h0 x; norm_num [effectiveAt, Published.effective]; linarith)
    (fun _ _ => hp) (fun _ _ => by norm_num) (fun _ _ => hN) ?_ ?_⟩
  · intro x i _
    rw [hm]
    intro b lo up
    have hx := h0 x
    have elo : lo = Published.friableSand a (0.1 + 0.15 * x.1) 0.4 plb (Published.murphy 0.4) 0.5 := by
      show Published.friableSand (Published.lowerBound a a _) _ _ _ _ _ = _
      rw [hself]; rfl
    obtain ⟨_, -, hmr⟩ := hertzMindlin_rock (φ := fun _ : Fin 1 => 0.4) (p := fun _ => plb) (f := fun _ => 0.5)
      (N := fun _ => Published.murphy 0.4) (rock_of_pos a (by norm_num [ha])) (fun _ => by norm_num) (fun _ => hp) (fun _ => by norm_num) (fun _ => hN)
    obtain ⟨l1, l2⟩ := friable_soft (a := a) (by norm_num [ha]) (φ := 0.1 + 0.15 * x.1) (φc := 0.4) (p := plb) (N := Published.murphy 0.4)
      (f := 0.5) (δ := δ / 20) ⟨(hmr.2.2.2 0).1, (hmr.2.2.2 0).2.1⟩ h1 h2 (by rw [le_div_iff₀ (by norm_num)]; linarith)
      (by rw [div_le_one (by norm_num)]; linarith)
    have hw0 : 0 ≤ 1 - (0.1 + 0.15 * x.1) / (0.4 - 0.1) := by
      rw [sub_nonneg, div_le_one (by norm_num)]; norm_num; linarith
    have hw1 : 1 - (0.1 + 0.15 * x.1) / (0.4 - 0.1) ≤ 1 := by
      have : 0 ≤ (0.1 + 0.15 * x.1) / (0.4 - 0.1) := div_nonneg (by linarith) (by norm_num)
      linarith
    have eup : up = Published.lowerBound a (Published.contactCement a a (0.4 - 0.1) 0.4 0.5 9) (1 - (0.1 + 0.15 * x.1) / (0.4 - 0.1)) := by
      show Published.constantCement a a (0.1 + 0.15 * x.1) (0.4 - 0.1) 0.4 0.5 9 = _
      unfold Published.constantCement
      rw [hself]
    have b1 : δ ≤ up.K := by
      rw [eup]
      refine (min_le_left _ _).trans (Shipped.hs_bounds hw0 hw1 ?_ ⟨min_le_left _ _, le_max_left _ _⟩ ⟨min_le_right _ _, le_max_right _ _⟩).1
      have : 0 < min a.K (Published.contactCement a a (0.4 - 0.1) 0.4 0.5 9).K := lt_min (by norm_num [ha]) hcc.1
      have : 0 < min a.G (Published.contactCement a a (0.4 - 0.1) 0.4 0.5 9).G := lt_min (by norm_num [ha]) hcc.2.1
      positivity
    have b2 : δ ≤ up.G := by
      rw [eup]
      refine (min_le_right _ _).trans (Shipped.hs_bounds hw0 hw1 ?_ ⟨min_le_left _ _, le_max_left _ _⟩ ⟨min_le_right _ _, le_max_right _ _⟩).1
      have k1 : 0 < min a.K (Published.contactCement a a (0.4 - 0.1) 0.4 0.5 9).K := lt_min (by norm_num [ha]) hcc.1
      have k2 : 0 < min a.G (Published.contactCement a a (0.4 - 0.1) 0.4 0.5 9).G := lt_min (by norm_num [ha]) hcc.2.1
      have := zeta_nonneg k1 k2
      linarith
    rw [elo]
    constructor <;> linarith
  · intro x i
    rw [hm]
    intro b p r dense
    have hx := h0 x
    have hp' : p = 30e6 - 10e6 * x.1 := by
      show 60e6 - 10e6 * x.1 - 30e6 = _
      norm_num; ring
    have hd : dense = a := hself _
    rw [hd, scale_nil]
    constructor
    · have := patchy_softer (a := a) (b := a) (by norm_num [ha]) (by norm_num [ha]) hr (φ := 0.1 + 0.15 * x.1) (φcem := 0.4 - 0.12)
        (φub := 0.4 - 0.1) (p := p) (plb := plb) (φc := 0.4) (f := 0.5) (C := Published.murphy 0.4) (by linarith) (by norm_num; linarith)
        (by norm_num) (by norm_num) (by rw [hp']; norm_num; linarith) (by norm_num) hN ?_ ?_
      · rw [hself] at this
        exact this.le
      · rw [hself]
        show Published.hertzMindlinBulk 36.8e9 44e9 0.4 p (Published.murphy 0.4) < 36.8e9
        unfold Published.hertzMindlinBulk
        have e : (36.8e9 : ℝ) = (36.8e9 ^ (3 : ℕ)) ^ (1 / 3 : ℝ) := by
          rw [one_div, show ((3 : ℝ))⁻¹ = ((3 : ℕ) : ℝ)⁻¹ by norm_num, Real.pow_rpow_inv_natCast] <;> norm_num
        conv_rhs => rw [e]
        have hn : Published.poisson 36.8e9 44e9 = 28 / 386 := by norm_num [Published.poisson]
        rw [hn, hp']
        have q1 : 0 ≤ 30e6 - 10e6 * x.1 := by norm_num; linarith
        have q2 : 30e6 - 10e6 * x.1 ≤ 30e6 := by norm_num; linarith
        generalize (30e6 - 10e6 * x.1 : ℝ) = q at q1 q2
        have h9 : 9 ≤ Real.pi ^ 2 := by nlinarith
        apply Real.rpow_lt_rpow
        · norm_num [Published.murphy]; positivity
        · rw [div_lt_iff₀ (by positivity)]
          norm_num [Published.murphy] at *
          nlinarith
        · norm_num
      · rw [hself]; exact exCemented
    · show (Published.wood [((⟨2.8e9 - 2.5e9 * x.1, 1030 - 500 * x.1⟩ : Published.Fluid), (1:ℝ))]).K < 36.8e9
      simp only [Published.wood, List.map_cons, List.map_nil, List.sum_cons, List.sum_nil, add_zero]
      norm_num
      linarith

end OPE
