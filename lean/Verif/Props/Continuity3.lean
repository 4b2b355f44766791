import Verif.Props.Continuity2
import Verif.Props.ShippedBounds

/-!
# C165: no jumps in the whole calculation

If every number of the input depends continuously on a point of a topological space, so does every number of the result:
any number of minerals (fractions may vanish), pore fluids, friable or patchy-cement dry rock, pressure trends, fluid
substitution.
-/

namespace OPE

open Classical Topology

variable {X : Type} [TopologicalSpace X] {n : ℕ}

/-! ### Mixing minerals -/

theorem hs_contAt {a b f z : X → ℝ} {x : X} (ha : ContinuousAt a x) (hb : ContinuousAt b x) (hf : ContinuousAt f x)
    (hz : ContinuousAt z x) (h1 : 0 < a x + z x) (h2 : 0 < b x + z x) (h0 : 0 ≤ f x ∧ f x ≤ 1) :
    ContinuousAt (fun x => Published.hashinShtrikman (a x) (b x) (f x) (z x)) x := by
  unfold Published.hashinShtrikman
  refine ContinuousAt.sub (ContinuousAt.inv₀ ?_ (hs_den_pos h1 h2 h0.1 h0.2).ne') hz
  exact ((hf.div (ha.add hz) h1.ne').add ((continuousAt_const.sub hf).div (hb.add hz) h2.ne'))

/-- A rock that is continuous and positive at a point. -/
structure RockAt (a : X → Published.Rock) (x : X) : Prop where
  bulk : ContinuousAt (fun y => (a y).K) x
  shear : ContinuousAt (fun y => (a y).G) x
  density : ContinuousAt (fun y => (a y).ρ) x

/-- All properties between `lo` and `hi`. -/
def Published.Rock.Between (lo hi : ℝ) (a : Published.Rock) : Prop :=
  (lo ≤ a.K ∧ a.K ≤ hi) ∧ (lo ≤ a.G ∧ a.G ≤ hi) ∧ (lo ≤ a.ρ ∧ a.ρ ≤ hi)

theorem Published.Rock.Between.pos {lo hi : ℝ} {a : Published.Rock} (h : a.Between lo hi) (hlo : 0 < lo) :
    0 < a.K ∧ 0 < a.G ∧ 0 < a.ρ :=
  ⟨hlo.trans_le h.1.1, hlo.trans_le h.2.1.1, hlo.trans_le h.2.2.1⟩

theorem Published.Rock.Between.lower {lo hi f : ℝ} {a b : Published.Rock} (hlo : 0 < lo) (ha : a.Between lo hi)
    (hb : b.Between lo hi) (h0 : 0 ≤ f) (h1 : f ≤ 1) : (Published.lowerBound a b f).Between lo hi := by
  obtain ⟨a1, a2, -⟩ := ha.pos hlo
  obtain ⟨b1, b2, -⟩ := hb.pos hlo
  have m1 : 0 < min a.G b.G := lt_min a2 b2
  have m2 : 0 < min a.K b.K := lt_min a1 b1
  refine ⟨Shipped.hs_bounds h0 h1 (by positivity) ha.1 hb.1, Shipped.hs_bounds h0 h1 (by have := zeta_nonneg m2 m1; positivity) ha.2.1 hb.2.1,
    ?_, ?_⟩
  · have := mul_le_mul_of_nonneg_left ha.2.2.1 h0
    have := mul_le_mul_of_nonneg_left hb.2.2.1 (sub_nonneg.mpr h1)
    show lo ≤ f * a.ρ + (1 - f) * b.ρ
    nlinarith
  · have := mul_le_mul_of_nonneg_left ha.2.2.2 h0
    have := mul_le_mul_of_nonneg_left hb.2.2.2 (sub_nonneg.mpr h1)
    show f * a.ρ + (1 - f) * b.ρ ≤ hi
    nlinarith

theorem zeta_contAt {K G : X → ℝ} {x : X} (hK : ContinuousAt K x) (hG : ContinuousAt G x) (h1 : 0 < K x) (h2 : 0 < G x) :
    ContinuousAt (fun x => Published.zeta (K x) (G x)) x := by
  unfold Published.zeta
  exact (hG.div_const _).mul ((((continuousAt_const (y := (9:ℝ))).mul hK).add ((continuousAt_const (y := (8:ℝ))).mul hG)).div
    (hK.add ((continuousAt_const (y := (2:ℝ))).mul hG)) (by positivity))

theorem lower_contAt {a b : X → Published.Rock} {f : X → ℝ} {x : X} (ha : RockAt a x) (hb : RockAt b x)
    (hf : ContinuousAt f x) (pa : 0 < (a x).K ∧ 0 < (a x).G) (pb : 0 < (b x).K ∧ 0 < (b x).G) (h0 : 0 ≤ f x ∧ f x ≤ 1) :
    RockAt (fun y => Published.lowerBound (a y) (b y) (f y)) x := by
  have mG : 0 < min (a x).G (b x).G := lt_min pa.2 pb.2
  have mK : 0 < min (a x).K (b x).K := lt_min pa.1 pb.1
  have z1 : 0 < 4 / 3 * min (a x).G (b x).G := by positivity
  have z2 := zeta_nonneg mK mG
  refine ⟨?_, ?_, ?_⟩
  · exact hs_contAt ha.bulk hb.bulk hf (continuousAt_const.mul (ha.shear.min hb.shear)) (by linarith [pa.1])
      (by linarith [pb.1]) h0
  · exact hs_contAt ha.shear hb.shear hf (zeta_contAt (ha.bulk.min hb.bulk) (ha.shear.min hb.shear) mK mG)
      (by linarith [pa.2]) (by linarith [pb.2]) h0
  · exact (hf.mul ha.density).add ((continuousAt_const.sub hf).mul hb.density)

theorem hs_voigt {a b f z : ℝ} (ha : 0 < a + z) (hb : 0 < b + z) (h0 : 0 ≤ f) (h1 : f ≤ 1) :
    Published.hashinShtrikman a b f z ≤ f * a + (1 - f) * b := by
  have hd := hs_den_pos ha hb h0 h1
  unfold Published.hashinShtrikman
  rw [sub_le_iff_le_add, inv_le_iff_one_le_mul₀' hd, div_add_div _ _ ha.ne' hb.ne', div_mul_eq_mul_div,
    le_div_iff₀ (mul_pos ha hb)]
  nlinarith [mul_nonneg (mul_nonneg h0 (sub_nonneg.mpr h1)) (sq_nonneg (a - b))]

theorem hs_reuss {a b f z : ℝ} (ha : 0 < a) (hb : 0 < b) (hz : 0 ≤ z) (h0 : 0 ≤ f) (h1 : f ≤ 1) :
    (f / a + (1 - f) / b)⁻¹ ≤ Published.hashinShtrikman a b f z := by
  have := hsReal_mono_z (a := a) (b := b) (z := 0) (z' := z) (by simpa) (by simpa) h0 h1 hz
  rw [hsReal_published (by simpa) (by simpa) h0 h1, hsReal_published (by linarith) (by linarith) h0 h1] at this
  simpa [Published.hashinShtrikman] using this

/-- A constituent whose fraction vanishes may jump (within bounds): the mix does not. -/
theorem hs_contAt_absent {a b f z : X → ℝ} {x : X} {lo hi : ℝ} (hlo : 0 < lo) (ha : ∀ᶠ y in 𝓝 x, lo ≤ a y ∧ a y ≤ hi)
    (hb : ContinuousAt b x) (pb : ∀ᶠ y in 𝓝 x, 0 < b y) (hf : ContinuousAt f x) (hf0 : f x = 0)
    (h0 : ∀ᶠ y in 𝓝 x, 0 ≤ f y ∧ f y ≤ 1) (hz : ∀ᶠ y in 𝓝 x, 0 ≤ z y) :
    ContinuousAt (fun x => Published.hashinShtrikman (a x) (b x) (f x) (z x)) x := by
  have pbx : 0 < b x := pb.self_of_nhds
  have hv : Published.hashinShtrikman (a x) (b x) (f x) (z x) = b x := by
    have : b x + z x ≠ 0 := by have := hz.self_of_nhds; positivity
    unfold Published.hashinShtrikman
    rw [hf0]; simp
  unfold ContinuousAt at hf ⊢
  rw [hf0] at hf
  dsimp only
  rw [hv]
  have hfa : Filter.Tendsto (fun y => f y * a y) (𝓝 x) (𝓝 0) := by
    refine squeeze_zero' (g := fun y => f y * hi) ?_ ?_ (by simpa using hf.mul_const hi)
    · filter_upwards [ha, h0] with y h h'; exact mul_nonneg h'.1 (by linarith [h.1])
    · filter_upwards [ha, h0] with y h h'; exact mul_le_mul_of_nonneg_left h.2 h'.1
  have hfd : Filter.Tendsto (fun y => f y / a y) (𝓝 x) (𝓝 0) := by
    refine squeeze_zero' (g := fun y => f y / lo) ?_ ?_ (by simpa using hf.div_const lo)
    · filter_upwards [ha, h0] with y h h'; exact div_nonneg h'.1 (by linarith [h.1])
    · filter_upwards [ha, h0] with y h h'; exact div_le_div_of_nonneg_left h'.1 hlo h.1
  have one : Filter.Tendsto (fun y => 1 - f y) (𝓝 x) (𝓝 1) := by simpa using (tendsto_const_nhds (x := (1:ℝ))).sub hf
  refine tendsto_of_tendsto_of_tendsto_of_le_of_le' (g := fun y => (f y / a y + (1 - f y) / b y)⁻¹)
    (h := fun y => f y * a y + (1 - f y) * b y) ?_ ?_ ?_ ?_
  · have := (hfd.add (one.div hb pbx.ne')).inv₀ (by simp [pbx.ne'])
    simpa using this
  · have := hfa.add (one.mul hb)
    simpa using this
  · filter_upwards [ha, pb, h0, hz] with y h1 h2 h3 h4
    exact hs_reuss (by linarith [h1.1]) h2 h4 h3.1 h3.2
  · filter_upwards [ha, pb, h0, hz] with y h1 h2 h3 h4
    exact hs_voigt (by linarith [h1.1]) (by linarith) h3.1 h3.2

theorem lower_contAt_absent {a b : X → Published.Rock} {f : X → ℝ} {x : X} {lo hi : ℝ} (hlo : 0 < lo)
    (ha : ∀ᶠ y in 𝓝 x, (a y).Between lo hi) (hb : RockAt b x) (pb : ∀ᶠ y in 𝓝 x, (b y).Between lo hi)
    (hf : ContinuousAt f x) (hf0 : f x = 0) (h0 : ∀ᶠ y in 𝓝 x, 0 ≤ f y ∧ f y ≤ 1) :
    RockAt (fun y => Published.lowerBound (a y) (b y) (f y)) x := by
  refine ⟨hs_contAt_absent hlo (ha.mono fun y h => h.1) hb.bulk (pb.mono fun y h => (h.pos hlo).1) hf hf0 h0 ?_,
    hs_contAt_absent hlo (ha.mono fun y h => h.2.1) hb.shear (pb.mono fun y h => (h.pos hlo).2.1) hf hf0 h0 ?_, ?_⟩
  · filter_upwards [ha, pb] with y h h'
    have : 0 < min (a y).G (b y).G := lt_min (h.pos hlo).2.1 (h'.pos hlo).2.1
    positivity
  · filter_upwards [ha, pb] with y h h'
    exact zeta_nonneg (lt_min (h.pos hlo).1 (h'.pos hlo).1) (lt_min (h.pos hlo).2.1 (h'.pos hlo).2.1)
  · show ContinuousAt (fun y => f y * (a y).ρ + (1 - f y) * (b y).ρ) x
    refine ContinuousAt.add ?_ ((continuousAt_const.sub hf).mul hb.density)
    unfold ContinuousAt at hf ⊢
    dsimp only
    rw [hf0, zero_mul]
    rw [hf0] at hf
    refine squeeze_zero' (g := fun y => f y * hi) ?_ ?_ (by simpa using hf.mul_const hi)
    · filter_upwards [ha, h0] with y h h'; exact mul_nonneg h'.1 (h.pos hlo).2.2.le
    · filter_upwards [ha, h0] with y h h'; exact mul_le_mul_of_nonneg_left h.2.2.2 h'.1

/-- The average of any number of minerals is continuous where the total is positive, although the average of the first
few may jump where all their fractions vanish. -/
theorem addMinerals_contAt {x : X} {lo hi : ℝ} (hlo : 0 < lo) (l : List ((X → Published.Rock) × (X → ℝ)))
    (hl : ∀ q ∈ l, RockAt q.1 x ∧ (∀ᶠ y in 𝓝 x, (q.1 y).Between lo hi) ∧ ContinuousAt q.2 x ∧ ∀ y, 0 ≤ q.2 y)
    {a : X → Published.Rock} {t : X → ℝ} (ha : ∀ᶠ y in 𝓝 x, (a y).Between lo hi) (hc : RockAt a x ∨ t x = 0)
    (ct : ContinuousAt t x) (ht : ∀ y, 0 ≤ t y) (hpos : 0 < t x + (l.map fun q => q.2 x).sum) :
    RockAt (fun y => Published.addMinerals (a y) (t y) (l.map fun q => (q.1 y, q.2 y))) x := by
  induction l generalizing a t with
  | nil =>
    simp only [List.map_nil, List.sum_nil, add_zero] at hpos
    exact hc.resolve_right hpos.ne'
  | cons q l ih =>
    obtain ⟨q1, q2, q3, q4⟩ := hl q List.mem_cons_self
    have hw : ∀ y, 0 ≤ (if t y + q.2 y = 0 then (1:ℝ) else t y / (t y + q.2 y)) ∧
        (if t y + q.2 y = 0 then (1:ℝ) else t y / (t y + q.2 y)) ≤ 1 := by
      intro y
      have h1 := ht y; have h2 := q4 y
      split_ifs with h
      · norm_num
      · exact ⟨by positivity, div_le_one_of_le₀ (by linarith) (by linarith)⟩
    refine ih (fun r hr => hl r (List.mem_cons_of_mem _ hr)) (a := fun y => Published.lowerBound (a y) (q.1 y)
      (if t y + q.2 y = 0 then 1 else t y / (t y + q.2 y))) (t := fun y => t y + q.2 y) ?_ ?_ (ct.add q3)
      (fun y => add_nonneg (ht y) (q4 y)) ?_
    · filter_upwards [ha, q2] with y h1 h2
      exact h1.lower hlo h2 (hw y).1 (hw y).2
    · by_cases h : t x + q.2 x = 0
      · exact .inr h
      · left
        have hne : ∀ᶠ y in 𝓝 x, t y + q.2 y ≠ 0 := (ct.add q3).eventually_ne h
        have cw : ContinuousAt (fun y => if t y + q.2 y = 0 then (1:ℝ) else t y / (t y + q.2 y)) x := by
          refine (ct.div (ct.add q3) h).congr ?_
          filter_upwards [hne] with y hy
          rw [if_neg hy]; rfl
        rcases hc with hc | hc
        · exact lower_contAt hc q1 cw ⟨(ha.self_of_nhds.pos hlo).1, (ha.self_of_nhds.pos hlo).2.1⟩
            ⟨(q2.self_of_nhds.pos hlo).1, (q2.self_of_nhds.pos hlo).2.1⟩ (hw x)
        · refine lower_contAt_absent hlo ha q1 q2 cw ?_ (Filter.Eventually.of_forall hw)
          rw [if_neg h, hc, zero_div]
    · simpa [add_assoc] using hpos

/-- A mineral that varies: the material at each point, the rock it is, and its fraction. -/
structure MineralAlong (X : Type) (n : ℕ) where
  mat : X → Mat n
  rock : X → Fin n → Published.Rock
  frac : X → Fin n → ℝ

/-- The mineral at a point. -/
def MineralAlong.at (m : MineralAlong X n) (x : X) : Mat n × (Fin n → Published.Rock) × (Fin n → ℝ) :=
  (m.mat x, m.rock x, m.frac x)

/-- Rock and fraction of the mineral depend continuously on the point. -/
structure MineralAlong.Continuous (m : MineralAlong X n) : Prop where
  rock : ∀ i, ContRock fun x => m.rock x i
  frac : _root_.Continuous m.frac

theorem ContRock.at {a : X → Published.Rock} (h : ContRock a) (x : X) : RockAt a x :=
  ⟨h.bulk.continuousAt, h.shear.continuousAt, h.density.continuousAt⟩

/-- Near a point a continuous rock stays between positive bounds. -/
theorem ContRock.near {a : X → Published.Rock} (h : ContRock a) (x : X) :
    ∃ lo hi, 0 < lo ∧ ∀ lo' hi', lo' ≤ lo → hi ≤ hi' → ∀ᶠ y in 𝓝 x, (a y).Between lo' hi' := by
  have key : ∀ {f : X → ℝ}, _root_.Continuous f → (∀ y, 0 < f y) → ∀ᶠ y in 𝓝 x, f x / 2 ≤ f y ∧ f y ≤ f x + 1 := by
    intro f cf pf
    filter_upwards [cf.continuousAt.eventually_const_lt (show f x / 2 < f x by have := pf x; linarith),
      cf.continuousAt.eventually_lt_const (show f x < f x + 1 by linarith)] with y h1 h2
    exact ⟨h1.le, h2.le⟩
  obtain ⟨p1, p2, p3⟩ := h.pos x
  refine ⟨min ((a x).K / 2) (min ((a x).G / 2) ((a x).ρ / 2)), max ((a x).K + 1) (max ((a x).G + 1) ((a x).ρ + 1)),
    lt_min (by positivity) (lt_min (by positivity) (by positivity)), fun lo' hi' hl hh => ?_⟩
  filter_upwards [key h.bulk fun y => (h.pos y).1, key h.shear fun y => (h.pos y).2.1, key h.density fun y => (h.pos y).2.2]
    with y h1 h2 h3
  have l1 := hl.trans (min_le_left _ _)
  have l2 := (hl.trans (min_le_right _ _)).trans (min_le_left _ _)
  have l3 := (hl.trans (min_le_right _ _)).trans (min_le_right _ _)
  have u1 := (le_max_left _ _).trans hh
  have u2 := ((le_max_left _ _).trans (le_max_right _ _)).trans hh
  have u3 := ((le_max_right _ _).trans (le_max_right _ _)).trans hh
  exact ⟨⟨l1.trans h1.1, h1.2.trans u1⟩, ⟨l2.trans h2.1, h2.2.trans u2⟩, ⟨l3.trans h3.1, h3.2.trans u3⟩⟩

theorem common_bounds (l : List (X → Published.Rock)) (h : ∀ a ∈ l, ContRock a) (x : X) :
    ∃ lo hi, 0 < lo ∧ ∀ lo' hi', lo' ≤ lo → hi ≤ hi' → ∀ a ∈ l, ∀ᶠ y in 𝓝 x, (a y).Between lo' hi' := by
  induction l with
  | nil => exact ⟨1, 1, one_pos, fun _ _ _ _ a ha => by cases ha⟩
  | cons b l ih =>
    obtain ⟨l1, h1, p1, q1⟩ := ih fun a ha => h a (List.mem_cons_of_mem _ ha)
    obtain ⟨l2, h2, p2, q2⟩ := (h b List.mem_cons_self).near x
    refine ⟨min l1 l2, max h1 h2, lt_min p1 p2, fun lo' hi' hl hh a ha => ?_⟩
    rcases List.mem_cons.mp ha with rfl | ha
    · exact q2 _ _ (hl.trans (min_le_right _ _)) ((le_max_right _ _).trans hh)
    · exact q1 _ _ (hl.trans (min_le_left _ _)) ((le_max_left _ _).trans hh) a ha

theorem mineral_cont {m : MineralAlong X n} {M : List (MineralAlong X n)} (hm : ∀ q ∈ m :: M, q.Continuous)
    (h0 : ∀ q ∈ m :: M, ∀ x i, 0 ≤ q.frac x i)
    (ht : ∀ x i, |(((m :: M).map (·.at x)).map fun y => y.2.2 i).sum - 1| ≤ 1e-5) (i : Fin n)
    (hpos : ∀ x, let r := mineralAt (m.at x) (M.map (·.at x)) i; 0 < r.K ∧ 0 < r.G ∧ 0 < r.ρ) :
    ContRock fun x => mineralAt (m.at x) (M.map (·.at x)) i := by
  have key : ∀ x, RockAt (fun x => mineralAt (m.at x) (M.map (·.at x)) i) x := by
    intro x
    obtain ⟨lo, hi, hlo, hb⟩ := common_bounds ((m :: M).map fun q => fun y => q.rock y i) (fun a ha => by
      obtain ⟨q, hq, rfl⟩ := List.mem_map.mp ha; exact (hm q hq).rock i) x
    have hb := hb lo hi le_rfl le_rfl
    have := addMinerals_contAt hlo (M.map fun q => ((fun y => q.rock y i), fun y => q.frac y i)) (fun r hr => by
        obtain ⟨q, hq, rfl⟩ := List.mem_map.mp hr
        have hq' := List.mem_cons_of_mem m hq
        exact ⟨((hm q hq').rock i).at x, hb _ (List.mem_map_of_mem hq'), (row_cont (hm q hq').frac i).continuousAt,
          fun y => h0 q hq' y i⟩)
      (a := fun y => m.rock y i) (t := fun y => m.frac y i) (hb _ (List.mem_map_of_mem List.mem_cons_self))
      (.inl (((hm m List.mem_cons_self).rock i).at x)) (row_cont (hm m List.mem_cons_self).frac i).continuousAt
      (fun y => h0 m List.mem_cons_self y i) (by
        have := (abs_le.mp (ht x i)).1
        simp only [List.map_map, Function.comp_def, MineralAlong.at, List.map_cons, List.sum_cons] at this ⊢
        norm_num at this
        linarith)
    simpa only [mineralAt, MineralAlong.at, List.map_map, Function.comp_def] using this
  exact ⟨continuous_iff_continuousAt.mpr fun x => (key x).bulk, continuous_iff_continuousAt.mpr fun x => (key x).shear,
    continuous_iff_continuousAt.mpr fun x => (key x).density, hpos⟩

/-! ### The calculation, zero porosity and frames as stiff as the mineral included -/

/-- The result table of mineral, dry rock, dense packing and fluid. -/
noncomputable def resultOf (mineral dry dense : Fin n → Published.Rock) (F : Fin n → Published.Fluid)
    (φ : Fin n → ℝ) : Result n where
  ksat := finC fun i => satReal (dry i).K (dense i).K (F i).K (φ i)
  kmin := finC fun i => (mineral i).K
  kdry := finC fun i => (dry i).K
  mysat := finC fun i => (dry i).G
  rsat := finC fun i => (dry i).ρ + φ i * (F i).ρ
  kminFls := finC fun i => (dense i).K

theorem substitution_any {dry mineral fluid : Mat n} {d q : Fin n → Published.Rock} {F : Fin n → Published.Fluid}
    {φ : Fin n → ℝ} (h1 : dry.IsRock d) (h2 : mineral.IsRock q) (h3 : fluid.IsFluid F)
    (h : ∀ i, 0 ≤ φ i ∧ (d i).K ≤ (q i).K ∧ (F i).K < (q i).K) :
    fluidSubstitution dry mineral fluid (finC φ) = .ok (Mat.ofReal
        (fun i => satReal (d i).K (q i).K (F i).K (φ i)) (fun i => (d i).G) (fun i => (d i).ρ + φ i * (F i).ρ)) := by
  unfold fluidSubstitution
  rw [vec_ok (r := finC fun i => satReal (d i).K (q i).K (F i).K (φ i)) (fun i => by
      rw [h1.1, h2.1, h3.1]
      exact gassmann_satReal (h i).1 (h1.2.2.2 i).1.le (h i).2.1 (h3.2.2.2 i).1 (h i).2.2), bind_ok, h3.2.1, h1.2.1, h1.2.2.1,
    ← mkModuli_ofReal _ (fun i => (h1.2.2.2 i).2.1.le)]
  · congr 1
  · intro i
    have := (h1.2.2.2 i).2.2
    have := mul_nonneg (h i).1 (h3.2.2.2 i).2.le
    linarith
  · exact fun i => (h1.2.2.2 i).1.le.trans (satReal_ge (h i).1 (h1.2.2.2 i).1.le (h i).2.1 (h3.2.2.2 i).1 (h i).2.2)

theorem calculate_any {co2 : CO2Model n} {s : Sections n}
    {x : Mat n × (Fin n → Published.Rock) × (Fin n → ℝ)} {L : RockList n} {ob rf rk P : Fin n → ℝ}
    {mx : Option (Fin n → ℝ)} (hs : s.Says x L ob rf rk P mx) {T P' : Fin n → ℝ} {pores : List (Pore n)}
    (hp : s.Filled co2 T P pores P') {F : Fin n → Published.Fluid} (hF : s.Mixes pores F) {φ : Fin n → ℝ}
    (hφ : s.porosity = finC φ) {d : DryRock n} (hd : mkDryRock s.sandModel s.porosity s.adjustments = .ok d)
    {dry dense : Fin n → Published.Rock}
    (hdry : ∀ (mineral : Mat n) (pr : Pressure n),
      mineralMixture ((x :: L).map fun y => (y.1, finC y.2.2)) = .ok mineral →
      mineral.IsRock (mineralAt x L) → pr.Is ob rf rk mx →
      (∃ r, d.material mineral pr = .ok r ∧ r.IsRock dry) ∧ ∃ r, d.model.nonporous mineral = .ok r ∧ r.IsRock dense)
    (hrow : ∀ i, 0 ≤ φ i ∧ (dry i).K ≤ (dense i).K ∧ (F i).K < (dense i).K) :
    calculate co2 s = .ok (resultOf (mineralAt x L) dry dense F φ) := by
  obtain ⟨fl, m, f1, f2, f3⟩ := fluids_filled hp hF
  have hle : ∀ i, ((x :: L).map fun y => y.2.2 i).sum ≤ 1 + 1e-5 := fun i => by
    have := (abs_le.mp (hs.fractions i)).2; linarith
  obtain ⟨mineral, c1, c2⟩ := C100_mineral_mixture x L hs.rocks hle
  have hpress : mkPressure s.overburden s.reference s.fluidPressure s.maxEffective s.rockPressure
      = .ok ⟨finC ob, finC rf, some (finC P), mx.map finC, some (finC rk)⟩ := by
    have h1 := hs.rock
    have h2 := hs.fluid
    unfold mkPressure
    rw [hs.overburden, hs.reference, hs.max]
    cases h3 : s.fluidPressure <;> cases h4 : s.rockPressure <;> rw [h3, h4] at h1 h2 <;> simp_all
  obtain ⟨⟨r, r1, r2⟩, ⟨q, p1, p2⟩⟩ := hdry mineral
    ⟨finC ob, finC rf, some (finC P'), mx.map finC, some (finC rk)⟩ c1 c2 ⟨rfl, rfl, rfl, rfl⟩
  have hsub := substitution_any r2 p2 f3 hrow
  have hmixf : mixFluids co2 fl ⟨finC ob, finC rf, some (finC P), mx.map finC, some (finC rk)⟩
      = .ok (m, ⟨finC ob, finC rf, some (finC P'), mx.map finC, some (finC rk)⟩) := by
    unfold mixFluids
    simp only [needCol, bind_ok, f2]
  have hdφ : d.porosity = finC φ := by rw [mkDryRock_ok hd, hφ]
  unfold calculate mkInput calculateResults
  rw [hs.minerals, mkMinerals_rocks hs.rocks hs.fractions, bind_ok, f1, bind_ok, hd, bind_ok, hpress, bind_ok,
    bind_ok]
  dsimp only
  rw [c1, bind_ok, hmixf, bind_ok]
  dsimp only
  rw [r1, bind_ok, p1, bind_ok, hdφ, hsub, bind_ok, c2.1, r2.1, p2.1]
  rfl

/-- The calculation succeeds everywhere and every column of its result depends continuously on the point. -/
def CalculatesContinuously (co2 : CO2Model n) (s : X → Sections n) : Prop :=
  ∃ ksat kmin kdry mysat rsat kminFls : X → Fin n → ℝ,
    (Continuous ksat ∧ Continuous kmin ∧ Continuous kdry ∧ Continuous mysat ∧ Continuous rsat ∧ Continuous kminFls) ∧
    ∀ x, calculate co2 (s x) = .ok ⟨finC (ksat x), finC (kmin x), finC (kdry x), finC (mysat x), finC (rsat x),
      finC (kminFls x)⟩

theorem satReal_cont {Kd Km Kf φ : X → ℝ} (cd : Continuous Kd) (cm : Continuous Km) (cf : Continuous Kf)
    (cφ : Continuous φ) (hφ : ∀ x, 0 ≤ φ x) (hd : ∀ x, Kd x ≤ Km x) (hf0 : ∀ x, 0 < Kf x) (hf : ∀ x, Kf x < Km x) :
    Continuous fun x => satReal (Kd x) (Km x) (Kf x) (φ x) := by
  unfold satReal
  have hq := quot_cont (u := φ) (v := fun x => Km x - Kd x) (α := fun x => Km x * (Km x - Kf x)) (β := Kf)
    cφ (cm.sub cd) (cm.mul (cm.sub cf)) cf hφ (fun x => by have := hd x; linarith)
    (fun x => mul_pos ((hf0 x).trans (hf x)) (by have := hf x; linarith)) hf0
  refine cm.sub (cm.mul ?_)
  refine ((cm.sub cf).mul hq).congr fun x => ?_
  show (Km x - Kf x) * (φ x * (Km x - Kd x) / (Km x * (Km x - Kf x) * φ x + Kf x * (Km x - Kd x))) = _
  rw [← mul_div_assoc]

theorem result_cont {co2 : CO2Model n} {s : X → Sections n} {mineral dry dense : X → Fin n → Published.Rock}
    {F : X → Fin n → Published.Fluid} {φ : X → Fin n → ℝ} (hm : ∀ i, ContRock fun x => mineral x i)
    (hd : ∀ i, ContRock fun x => dry x i) (hq : ∀ i, ContRock fun x => dense x i) (hF : ContFluid F)
    (pF : ∀ x i, 0 < (F x i).K) (cφ : Continuous φ)
    (hrow : ∀ x i, 0 ≤ φ x i ∧ (dry x i).K ≤ (dense x i).K ∧ (F x i).K < (dense x i).K)
    (hres : ∀ x, calculate co2 (s x) = .ok (resultOf (mineral x) (dry x) (dense x) (F x) (φ x))) :
    CalculatesContinuously co2 s := by
  refine ⟨_, _, _, _, _, _, ⟨?_, ?_, ?_, ?_, ?_, ?_⟩, hres⟩ <;> refine continuous_pi fun i => ?_
  · exact satReal_cont (hd i).bulk (hq i).bulk (hF.bulk i) (row_cont cφ i) (fun x => (hrow x i).1)
      (fun x => (hrow x i).2.1) (fun x => pF x i) fun x => (hrow x i).2.2
  · exact (hm i).bulk
  · exact (hd i).bulk
  · exact (hd i).shear
  · exact (hd i).density.add ((row_cont cφ i).mul (hF.density i))
  · exact (hq i).bulk

/-! ### Pressures and trends -/

/-- Pressures that vary continuously. -/
structure PressureAlong (ob rf rk P : X → Fin n → ℝ) (mx : Option (X → Fin n → ℝ)) : Prop where
  overburden : Continuous ob
  reference : Continuous rf
  rock : Continuous rk
  fluid : Continuous P
  max : ∀ m, mx = some m → Continuous m

theorem effective_cont {ob rk : X → Fin n → ℝ} {mx : Option (X → Fin n → ℝ)} (c1 : Continuous ob) (c2 : Continuous rk)
    (c3 : ∀ m, mx = some m → Continuous m) (i : Fin n) :
    Continuous fun x => effectiveAt (mx.map fun m => m x) (ob x) (rk x) i := by
  cases mx with
  | none => exact (row_cont c1 i).sub (row_cont c2 i)
  | some m => exact ((row_cont c1 i).sub (row_cont c2 i)).min (row_cont (c3 m rfl) i)

theorem trend_cont {m : PDModel n} {t : Coef3 (ℝ → ℝ)} (ht : m.trends = some t) {p : X → Fin n → ℝ}
    (hp : ∀ x, m.Evaluable (p x)) (i : Fin n) (cp : Continuous fun x => p x i) :
    Continuous (fun x => t.density (p x i)) ∧ Continuous (fun x => t.primary (p x i)) ∧
      Continuous fun x => t.secondary (p x i) := by
  have poly : ∀ a : List ℝ, Continuous fun x => Published.polyFit a (p x i) := fun a => by
    unfold Published.polyFit; fun_prop
  have expo : ∀ a : ℝ × ℝ × ℝ, Continuous fun x => Published.expFit a (p x i) := fun a => by
    unfold Published.expFit; fun_prop
  have loga : (∀ x, 0 < p x i) → ∀ a : ℝ × ℝ, Continuous fun x => Published.logFit a (p x i) := fun h a => by
    unfold Published.logFit Real.logb
    exact continuous_const.add (continuous_const.mul ((cp.log fun x => (h x).ne').div_const _))
  cases m with
  | powerfit a => cases ht
  | friable f => cases ht
  | patchy f => cases ht
  | polyfit b a => injection ht with ht; subst ht; exact ⟨poly _, poly _, poly _⟩
  | expfit b a => injection ht with ht; subst ht; exact ⟨expo _, expo _, expo _⟩
  | logfit b a =>
    injection ht with ht; subst ht
    exact ⟨loga (fun x => hp x i) _, loga (fun x => hp x i) _, loga (fun x => hp x i) _⟩

theorem prod_cont {α : Type*} (L : List α) {f : α → X → ℝ} (h : ∀ a ∈ L, Continuous (f a)) :
    Continuous fun y => (L.map fun a => f a y).prod := by
  induction L with
  | nil => simpa using continuous_const
  | cons a L ih =>
    simp only [List.map_cons, List.prod_cons]
    exact (h a List.mem_cons_self).mul (ih fun b hb => h b (List.mem_cons_of_mem _ hb))

theorem scale_cont {A : TrendList n} {eff ref : X → Fin n → ℝ} (hA : ∀ x, A.Good (eff x) (ref x)) (i : Fin n)
    (ce : Continuous fun x => eff x i) (cr : Continuous fun x => ref x i) {r : X → Published.Rock} (hr : ContRock r) :
    ContRock fun x => A.scale (eff x i) (ref x i) (r x) := by
  have pos : ∀ y : ℝ, 1e-20 < y → 0 < y := fun y hy => lt_trans (by norm_num) hy
  have te : ∀ a ∈ A, ∀ x, a.1.trends = some a.2 ∧ a.1.Evaluable (eff x) ∧ a.1.Evaluable (ref x) := fun a ha x =>
    ⟨(hA x a ha).1, (hA x a ha).2.2.1, (hA x a ha).2.2.2.1⟩
  have pr : ∀ (f : (PDModel n × Coef3 (ℝ → ℝ)) → ℝ), (∀ a ∈ A, 0 < f a) → 0 < (A.map f).prod := fun f hf =>
    List.prod_pos fun y hy => by obtain ⟨a, ha, rfl⟩ := List.mem_map.mp hy; exact hf a ha
  refine ⟨hr.bulk.mul (prod_cont A fun a ha => ?_), hr.shear.mul (prod_cont A fun a ha => ?_),
    hr.density.mul (prod_cont A fun a ha => ?_), fun x => ⟨mul_pos (hr.pos x).1 (pr _ fun a ha => ?_),
      mul_pos (hr.pos x).2.1 (pr _ fun a ha => ?_), mul_pos (hr.pos x).2.2 (pr _ fun a ha => ?_)⟩⟩
  · rcases isEmpty_or_nonempty X with h | ⟨⟨x0⟩⟩
    · exact continuous_of_const fun x => h.elim x
    · obtain ⟨-, e, -⟩ := trend_cont (te a ha x0).1 (fun x => (te a ha x).2.1) i ce
      obtain ⟨-, f, -⟩ := trend_cont (te a ha x0).1 (fun x => (te a ha x).2.2) i cr
      exact e.div f fun x => (pos _ ((hA x a ha).2.2.2.2 i).2.2.1).ne'
  · rcases isEmpty_or_nonempty X with h | ⟨⟨x0⟩⟩
    · exact continuous_of_const fun x => h.elim x
    · obtain ⟨-, -, e⟩ := trend_cont (te a ha x0).1 (fun x => (te a ha x).2.1) i ce
      obtain ⟨-, -, f⟩ := trend_cont (te a ha x0).1 (fun x => (te a ha x).2.2) i cr
      exact e.div f fun x => (pos _ ((hA x a ha).2.2.2.2 i).2.2.2).ne'
  · rcases isEmpty_or_nonempty X with h | ⟨⟨x0⟩⟩
    · exact continuous_of_const fun x => h.elim x
    · obtain ⟨e, -, -⟩ := trend_cont (te a ha x0).1 (fun x => (te a ha x).2.1) i ce
      obtain ⟨f, -, -⟩ := trend_cont (te a ha x0).1 (fun x => (te a ha x).2.2) i cr
      exact e.div f fun x => (pos _ ((hA x a ha).2.2.2.2 i).2.1).ne'
  · exact div_pos ((hA x a ha).2.2.2.2 i).1.2.1 (pos _ ((hA x a ha).2.2.2.2 i).2.2.1)
  · exact div_pos ((hA x a ha).2.2.2.2 i).1.2.2 (pos _ ((hA x a ha).2.2.2.2 i).2.2.2)
  · exact div_pos ((hA x a ha).2.2.2.2 i).1.1 (pos _ ((hA x a ha).2.2.2.2 i).2.1)

theorem coordination_cont {N : Option (X → Fin n → ℝ)} {φc : X → Fin n → ℝ} (c1 : ∀ m, N = some m → Continuous m)
    (c2 : Continuous φc) (i : Fin n) : Continuous fun x => coordination (N.map fun m => m x) (φc x) i := by
  cases N with
  | none =>
    show Continuous fun x => Published.murphy (φc x i)
    have := row_cont c2 i
    unfold Published.murphy; fun_prop
  | some m => exact row_cont (c1 m rfl) i

/-! ### The whole calculation -/

/-- Sections whose minerals, fluids and pressures vary continuously: minerals `m :: M`, constituents `L` of the pore
space with mixture `F`, overburden `ob`, reference `rf`, rock and fluid pressure `rk` and `P`, largest effective pressure
`mx`, temperature `T`, porosity `φ`. -/
structure SectionsAlong (s : X → Sections n) (m : MineralAlong X n) (M : List (MineralAlong X n))
    (ob rf rk P : X → Fin n → ℝ) (mx : Option (X → Fin n → ℝ)) (T : X → Fin n → ℝ) (L : List (PoreAlong X n))
    (F : X → Fin n → Published.Fluid) (φ : X → Fin n → ℝ) : Prop where
  reads : ∀ x, (s x).Says (m.at x) (M.map (·.at x)) (ob x) (rf x) (rk x) (P x) (mx.map fun k => k x)
  minerals : ∀ q ∈ m :: M, q.Continuous
  pressures : PressureAlong ob rf rk P mx
  temperature : Continuous T
  fills : ∀ x, (s x).Pores (T x) (P x) (L.map (·.at x))
  varies : PoresAlong T P L
  mixes : ∃ method gases, MixesAlong s L method gases F
  porosity : ∀ x, (s x).porosity = finC (φ x)
  continuous : Continuous φ

theorem SectionsAlong.mineral {s : X → Sections n} {m : MineralAlong X n} {M : List (MineralAlong X n)}
    {ob rf rk P : X → Fin n → ℝ} {mx : Option (X → Fin n → ℝ)} {T : X → Fin n → ℝ} {L : List (PoreAlong X n)}
    {F : X → Fin n → Published.Fluid} {φ : X → Fin n → ℝ} (h : SectionsAlong s m M ob rf rk P mx T L F φ) (i : Fin n) :
    ContRock fun x => mineralAt (m.at x) (M.map (·.at x)) i := by
  refine mineral_cont h.minerals (fun q hq x i => ?_) (fun x i => (h.reads x).fractions i) i fun x => ?_
  · have : q.at x ∈ (m.at x) :: M.map (·.at x) := by
      rcases List.mem_cons.mp hq with rfl | hq
      · exact List.mem_cons_self
      · exact List.mem_cons_of_mem _ (List.mem_map_of_mem hq)
    exact ((h.reads x).rocks _ this).2 i
  · obtain ⟨r, -, hr⟩ := C100_mineral_mixture (m.at x) (M.map (·.at x)) (h.reads x).rocks fun i => by
      have := (abs_le.mp ((h.reads x).fractions i)).2; linarith
    exact hr.2.2.2 i

theorem SectionsAlong.fluid {s : X → Sections n} {m : MineralAlong X n} {M : List (MineralAlong X n)}
    {ob rf rk P : X → Fin n → ℝ} {mx : Option (X → Fin n → ℝ)} {T : X → Fin n → ℝ} {L : List (PoreAlong X n)}
    {F : X → Fin n → Published.Fluid} {φ : X → Fin n → ℝ} (h : SectionsAlong s m M ob rf rk P mx T L F φ)
    (co2 : CO2Model n) : ContFluid F ∧ (∀ x i, 0 < (F x i).K) ∧ ∀ x, (s x).Mixes (L.map (·.at x)) (F x) := by
  obtain ⟨method, gases, hF⟩ := h.mixes
  obtain ⟨c1, c2⟩ := C164_mixture co2 h.temperature h.pressures.fluid h.varies h.fills hF
  refine ⟨c1, fun x i => ?_, hF.mixes⟩
  obtain ⟨_, r, -, -, hr⟩ := c2 x
  exact (hr.2.2.2 i).1

/-- **C165 (friable sand).** Along any continuous change of minerals, fractions, pressures, temperature, fluids,
saturations, porosity and parameters of the friable sand, with any fixed pressure trends, the six columns of the result
change continuously, as long as the dry rock is no stiffer and the fluid softer than the mineral mixture.  Fractions that
vanish and zero porosity are included. -/
theorem C165_friable (co2 : CO2Model n) {s : X → Sections n} {m : MineralAlong X n} {M : List (MineralAlong X n)}
    {ob rf rk P : X → Fin n → ℝ} {mx : Option (X → Fin n → ℝ)} {T : X → Fin n → ℝ} {L : List (PoreAlong X n)}
    {F : X → Fin n → Published.Fluid} {φ : X → Fin n → ℝ} (h : SectionsAlong s m M ob rf rk P mx T L F φ)
    {φc f : X → Fin n → ℝ} {N : Option (X → Fin n → ℝ)} (cφc : Continuous φc) (cf : Continuous f)
    (cN : ∀ k, N = some k → Continuous k)
    (hmodel : ∀ x, (s x).sandModel = .friable (mkFriableModel (finC (φc x)) (finC (f x)) (N.map fun k => finC (k x))))
    {A : TrendList n} (hadj : ∀ x, (s x).adjustments = A.map fun a => .pressureDependency a.1)
    (hA : ∀ x, A.Good (effectiveAt (mx.map fun k => k x) (ob x) (rk x)) (effectiveAt (mx.map fun k => k x) (ob x) (rf x)))
    (hφ0 : ∀ x i, 0 ≤ φ x i) (hφ1 : ∀ x i, φ x i ≤ φc x i - 1e-5) (hc1 : ∀ x i, φc x i < 1)
    (hpe : ∀ x i, 0 < effectiveAt (mx.map fun k => k x) (ob x) (rk x) i) (hf : ∀ x i, 0 ≤ f x i)
    (hN : ∀ x i, 0 < coordination (N.map fun k => k x) (φc x) i)
    (hrow : ∀ x i, let a := mineralAt (m.at x) (M.map (·.at x)) i
      let p := effectiveAt (mx.map fun k => k x) (ob x) (rk x) i
      let r := effectiveAt (mx.map fun k => k x) (ob x) (rf x) i
      (A.scale p r (Published.friableSand a (φ x i) (φc x i) p (coordination (N.map fun k => k x) (φc x) i) (f x i))).K ≤ a.K ∧
        (F x i).K < a.K) :
    CalculatesContinuously co2 s := by
  obtain ⟨cF, pF, hmix⟩ := h.fluid co2
  have hm := h.mineral
  have ce := fun i => effective_cont h.pressures.overburden h.pressures.rock h.pressures.max i
  have cr := fun i => effective_cont h.pressures.overburden h.pressures.reference h.pressures.max i
  have hφc : ∀ x i, φ x i ≤ φc x i := fun x i => by have := hφ1 x i; norm_num at this; linarith
  have hc0 : ∀ x i, 0 < φc x i := fun x i => by have := hφ1 x i; have := hφ0 x i; norm_num at *; linarith
  have hfr := fun i => (friable_contRock (hm i) (row_cont h.continuous i) (row_cont cφc i) (ce i) (row_cont cf i)
    (coordination_cont cN cφc i) (fun x => hφ0 x i) (fun x => hφc x i) (fun x => hc0 x i) (fun x => hc1 x i)
    (fun x => hpe x i) (fun x => hf x i) (fun x => hN x i)).2
  refine result_cont hm (fun i => scale_cont hA i (ce i) (cr i) (hfr i)) hm cF pF h.continuous
    (fun x i => ⟨hφ0 x i, hrow x i⟩) fun x => ?_
  have eN : (N.map fun k => finC (k x)) = (N.map fun k => k x).map finC := by cases N <;> rfl
  have hmodel := hmodel x
  rw [eN] at hmodel
  obtain ⟨d, hd⟩ := (C46_friable_accepts_exactly (mkFriableModel (finC (φc x)) (finC (f x)) ((N.map fun k => k x).map finC))
    (φ := φ x) rfl (A.map fun a => .pressureDependency a.1)).1.mpr (hφ1 x)
  have hd' : mkDryRock (s x).sandModel (s x).porosity (s x).adjustments = .ok d := by
    rw [hmodel, h.porosity, hadj]; exact hd
  refine calculate_any (h.reads x) ((h.fills x).filled co2) (hmix x) (h.porosity x) hd' (fun mineral pr _ h1 h2 => ?_)
    fun i => ⟨hφ0 x i, hrow x i⟩
  obtain ⟨d0, hd0⟩ := (C46_friable_accepts_exactly (mkFriableModel (finC (φc x)) (finC (f x)) ((N.map fun k => k x).map finC))
    (φ := φ x) rfl []).1.mpr (hφ1 x)
  have := C102_friable h1 h2 hd0 (hφ0 x) (hc0 x) (hc1 x) (hpe x) (hf x) (hN x)
  obtain rfl := mkDryRock_ok hd0
  obtain rfl := mkDryRock_ok hd
  obtain ⟨⟨r, r1, r2⟩, r3⟩ := this
  obtain ⟨r', r4, r5⟩ := adjustAll_trends h2 (finC (φ x)) mineral A (hA x) r2
  refine ⟨⟨r', ?_, r5⟩, mineral, r3, h1⟩
  rw [DryRock.material_split]
  dsimp only
  rw [r1, bind_ok, r4]

theorem patchy_contRock {a b : X → Published.Rock} {φ ccp ub p plb crit f Nf Nc : X → ℝ} (h : CementPair a b)
    (cφ : Continuous φ) (cccp : Continuous ccp) (cub : Continuous ub) (cp : Continuous p) (cplb : Continuous plb)
    (ccrit : Continuous crit) (cf : Continuous f) (cNf : Continuous Nf) (cNc : Continuous Nc)
    (hφ0 : ∀ i, 0 ≤ φ i) (hφ1 : ∀ i, φ i ≤ ccp i) (hφ2 : ∀ i, φ i ≤ ub i)
    (hccp0 : ∀ i, 0 < ccp i) (hub0 : ∀ i, 0 < ub i)
    (hccp : ∀ i, ccp i ≤ crit i) (hub : ∀ i, ub i ≤ crit i) (hcrit : ∀ i, crit i < 1)
    (hp : ∀ i, 0 < p i) (hplb : ∀ i, 0 < plb i) (hf : ∀ i, 0 ≤ f i) (hNf : ∀ i, 0 < Nf i)
    (hNc : ∀ i, 0 < Nc i)
    (hbounds : ∀ x, 0 < φ x →
      let lo := Published.friableSand (Published.lowerBound (a x) (b x) (crit x - ub x)) (φ x) (crit x) (plb x) (Nf x) (f x)
      let up := Published.constantCement (b x) (a x) (φ x) (ub x) (crit x) (f x) (Nc x)
      lo.K < up.K ∧ lo.G < up.G) :
    ContRock fun x => Published.patchyCement (b x) (a x) (φ x) (ccp x) (ub x) (p x) (plb x) (crit x) (f x) (Nf x) (Nc x) := by
  have hcrit0 : ∀ i, 0 < crit i := fun i => lt_of_lt_of_le (hub0 i) (hub i)
  have hφc : ∀ i, φ i ≤ crit i := fun i => (hφ2 i).trans (hub i)
  obtain ⟨r, hr, h'⟩ := C140_patchy h cφ cccp cub cp cplb ccrit cf cNf cNc hφ0 hφ1 hφ2 hccp0 hub0 hccp hub hcrit hp hplb
    hf hNf hNc fun x hx d lo up e1 e2 e3 => by
      obtain ⟨d', hd', hdr⟩ := hsw_lower (f := fun _ : Fin 1 => crit x - ub x) (h.1.isRock x) (h.2.1.isRock x)
        (fun _ => ⟨by linarith [hub x], by linarith [hub0 x, hcrit x]⟩)
      rw [show (c (crit x) - c (ub x) : Col 1) = finC fun _ => crit x - ub x by funext i; simp, hd'] at e1
      cases e1
      obtain ⟨lo', hlo', hlor⟩ := friableSand_rock (φ := fun _ : Fin 1 => φ x) (φc := fun _ => crit x) (p := fun _ => plb x)
        (f := fun _ => f x) (N := fun _ => Nf x) hdr (fun _ => hφ0 x) (fun _ => hφc x) (fun _ => hcrit0 x)
        (fun _ => hcrit x) (fun _ => hplb x) (fun _ => hf x) (fun _ => hNf x)
      cases hlo'.symm.trans e2
      obtain ⟨up', hup', hupr⟩ := (C98_contact_and_constant_cement (φ := fun _ : Fin 1 => φ x) (x := fun _ => ub x)
        (g := fun _ => crit x) (f := fun _ => f x) (N := fun _ => Nc x) (h.1.isRock x) (h.2.1.isRock x) (fun _ => h.2.2 x)
        (fun _ => hφ0 x) (fun _ => hφ2 x) (fun _ => hub0 x) (fun _ => hub x) (fun _ => hcrit x) (fun _ => hf x)
        (fun _ => hNc x)).2
      cases hup'.symm.trans e3
      rw [hlor.1, hupr.1, hlor.2.1, hupr.2.1]
      simp only [finC_apply, Num.fin_lt]
      exact hbounds x hx
  have he : r = fun x => Published.patchyCement (b x) (a x) (φ x) (ccp x) (ub x) (p x) (plb x) (crit x) (f x) (Nf x) (Nc x) := by
    funext x
    obtain ⟨m, m1, m2⟩ := h' x
    obtain ⟨m', m3, m4⟩ := C99_patchy_cement (φ := fun _ : Fin 1 => φ x) (ccp := fun _ => ccp x) (ub := fun _ => ub x)
      (p := fun _ => p x) (plb := fun _ => plb x) (crit := fun _ => crit x) (f := fun _ => f x) (Nf := fun _ => Nf x)
      (Nc := fun _ => Nc x) (h.2.1.isRock x) (h.1.isRock x) (fun _ => h.2.2 x) (fun _ => hφ0 x) (fun _ => hφ1 x)
      (fun _ => hφ2 x) (fun _ => hccp0 x) (fun _ => hub0 x) (fun _ => hccp x) (fun _ => hub x) (fun _ => hcrit x)
      (fun _ => hp x) (fun _ => hplb x) (fun _ => hf x) (fun _ => hNf x) (fun _ => hNc x)
    cases m1.symm.trans m3
    have k := finC_injective (m2.1.symm.trans m4.1)
    have g := finC_injective (m2.2.1.symm.trans m4.2.1)
    have ρ := finC_injective (m2.2.2.1.symm.trans m4.2.2.1)
    have k := congrFun k 0; have g := congrFun g 0; have ρ := congrFun ρ 0
    dsimp only at k g ρ
    generalize Published.patchyCement (b x) (a x) (φ x) (ccp x) (ub x) (p x) (plb x) (crit x) (f x) (Nf x) (Nc x) = q at *
    cases hrx : r x
    rw [hrx] at k g ρ
    cases q
    dsimp only at k g ρ
    rw [k, g, ρ]
  exact he ▸ hr

/-- **C165 (patchy cement).** The same for patchy cement, as long as, wherever there are pores, the lower bound is softer
than the upper bound. -/
theorem C165_patchy (co2 : CO2Model n) {s : X → Sections n} {m : MineralAlong X n} {M : List (MineralAlong X n)}
    {ob rf rk P : X → Fin n → ℝ} {mx : Option (X → Fin n → ℝ)} {T : X → Fin n → ℝ} {L : List (PoreAlong X n)}
    {F : X → Fin n → Published.Fluid} {φ : X → Fin n → ℝ} (h : SectionsAlong s m M ob rf rk P mx T L F φ)
    {cem : X → Mat n} {a : X → Fin n → Published.Rock} (hcem : ∀ x, (cem x).IsRock (a x))
    (ca : ∀ i, ContRock fun x => a x i) {φc cf u plb f : X → Fin n → ℝ} {N : Option (X → Fin n → ℝ)}
    (cφc : Continuous φc) (ccf : Continuous cf) (cu : Continuous u) (cplb : Continuous plb) (cfr : Continuous f)
    (cN : ∀ k, N = some k → Continuous k)
    (hmodel : ∀ x, (s x).sandModel = .patchy (mkPatchyModel (cem x) (finC (φc x)) (finC (cf x)) (finC (plb x)) (finC (u x))
      (N.map fun k => finC (k x)) (finC (f x))))
    {A : TrendList n} (hadj : ∀ x, (s x).adjustments = A.map fun a => .pressureDependency a.1)
    (hA : ∀ x, A.Good (effectiveAt (mx.map fun k => k x) (ob x) (rk x)) (effectiveAt (mx.map fun k => k x) (ob x) (rf x)))
    (hr : ∀ x i, 2 * (mineralAt (m.at x) (M.map (·.at x)) i).G ≤ 3 * (mineralAt (m.at x) (M.map (·.at x)) i).K ∧
      0.04 * (Real.pi * (mineralAt (m.at x) (M.map (·.at x)) i).G) ≤ (a x i).G)
    (hφ0 : ∀ x i, 0 ≤ φ x i) (hφe : ∀ x i, φ x i ≤ φc x i - 1e-5) (hφ1 : ∀ x i, φ x i ≤ φc x i - cf x i)
    (hφ2 : ∀ x i, φ x i ≤ φc x i - u x i)
    (hcf : ∀ x i, 0 ≤ cf x i ∧ cf x i < φc x i) (hu : ∀ x i, 0 ≤ u x i ∧ u x i < φc x i) (hc1 : ∀ x i, φc x i < 1)
    (hpe : ∀ x i, 0 < effectiveAt (mx.map fun k => k x) (ob x) (rk x) i) (hplb : ∀ x i, 0 < plb x i)
    (hf : ∀ x i, 0 ≤ f x i) (hN : ∀ x i, 0 < coordination (N.map fun k => k x) (φc x) i)
    (hbounds : ∀ x i, 0 < φ x i →
      let b := mineralAt (m.at x) (M.map (·.at x)) i
      let lo := Published.friableSand (Published.lowerBound (a x i) b (φc x i - (φc x i - u x i))) (φ x i) (φc x i) (plb x i)
        (coordination (N.map fun k => k x) (φc x) i) (f x i)
      let up := Published.constantCement b (a x i) (φ x i) (φc x i - u x i) (φc x i) (f x i) 9
      lo.K < up.K ∧ lo.G < up.G)
    (hrow : ∀ x i, let b := mineralAt (m.at x) (M.map (·.at x)) i
      let p := effectiveAt (mx.map fun k => k x) (ob x) (rk x) i
      let r := effectiveAt (mx.map fun k => k x) (ob x) (rf x) i
      let dense := Published.lowerBound (a x i) b (u x i)
      (A.scale p r (Published.patchyCement b (a x i) (φ x i) (φc x i - cf x i) (φc x i - u x i) p (plb x i) (φc x i) (f x i)
        (coordination (N.map fun k => k x) (φc x) i) 9)).K ≤ dense.K ∧ (F x i).K < dense.K) :
    CalculatesContinuously co2 s := by
  obtain ⟨cF, pF, hmix⟩ := h.fluid co2
  have hm := h.mineral
  have ce := fun i => effective_cont h.pressures.overburden h.pressures.rock h.pressures.max i
  have cr := fun i => effective_cont h.pressures.overburden h.pressures.reference h.pressures.max i
  have hpa := fun i => patchy_contRock (a := fun x => a x i) (b := fun x => mineralAt (m.at x) (M.map (·.at x)) i)
    (φ := fun x => φ x i) (ccp := fun x => φc x i - cf x i) (ub := fun x => φc x i - u x i)
    (p := fun x => effectiveAt (mx.map fun k => k x) (ob x) (rk x) i) (plb := fun x => plb x i) (crit := fun x => φc x i)
    (f := fun x => f x i) (Nf := fun x => coordination (N.map fun k => k x) (φc x) i) (Nc := fun _ => 9)
    ⟨ca i, hm i, fun x => hr x i⟩ (row_cont h.continuous i) ((row_cont cφc i).sub (row_cont ccf i))
    ((row_cont cφc i).sub (row_cont cu i)) (ce i) (row_cont cplb i) (row_cont cφc i) (row_cont cfr i)
    (coordination_cont cN cφc i) continuous_const (fun x => hφ0 x i) (fun x => hφ1 x i) (fun x => hφ2 x i)
    (fun x => by linarith [(hcf x i).2]) (fun x => by linarith [(hu x i).2]) (fun x => by linarith [(hcf x i).1])
    (fun x => by linarith [(hu x i).1]) (fun x => hc1 x i) (fun x => hpe x i) (fun x => hplb x i) (fun x => hf x i)
    (fun x => hN x i) (fun _ => by norm_num) fun x hx => by intro lo up; exact hbounds x i hx
  have hdense : ∀ i, ContRock fun x => Published.lowerBound (a x i) (mineralAt (m.at x) (M.map (·.at x)) i) (u x i) := by
    intro i
    have hu' : ∀ x, 0 ≤ u x i ∧ u x i ≤ 1 := fun x => ⟨(hu x i).1, by linarith [(hu x i).2, hc1 x i]⟩
    obtain ⟨d1, d2, d3⟩ := lower_cont (ca i) (hm i) (f := fun x => u x i) (row_cont cu i) hu'
    exact ⟨d1, d2, d3, fun x => by
      obtain ⟨_, -, k⟩ := hsw_lower (f := fun _ : Fin 1 => u x i) ((ca i).isRock x) ((hm i).isRock x) fun _ => hu' x
      exact k.2.2.2 0⟩
  refine result_cont hm (fun i => scale_cont hA i (ce i) (cr i) (hpa i)) hdense cF pF h.continuous
    (fun x i => ⟨hφ0 x i, hrow x i⟩) fun x => ?_
  have eN : (N.map fun k => finC (k x)) = (N.map fun k => k x).map finC := by cases N <;> rfl
  have hmodel := hmodel x
  rw [eN] at hmodel
  obtain ⟨d, hd⟩ := (C46_patchy_accepts_exactly (mkPatchyModel (cem x) (finC (φc x)) (finC (cf x)) (finC (plb x))
    (finC (u x)) ((N.map fun k => k x).map finC) (finC (f x))) (φ := φ x) rfl rfl
    (A.map fun a => .pressureDependency a.1)).1.mpr fun i => ⟨hφe x i, (hφ2 x i).trans (by norm_num)⟩
  have hd' : mkDryRock (s x).sandModel (s x).porosity (s x).adjustments = .ok d := by
    rw [hmodel, h.porosity, hadj]; exact hd
  refine calculate_any (h.reads x) ((h.fills x).filled co2) (hmix x) (h.porosity x) hd' (fun mineral pr _ h1 h2 => ?_)
    fun i => ⟨hφ0 x i, hrow x i⟩
  obtain ⟨d0, hd0⟩ := (C46_patchy_accepts_exactly (mkPatchyModel (cem x) (finC (φc x)) (finC (cf x)) (finC (plb x))
    (finC (u x)) ((N.map fun k => k x).map finC) (finC (f x))) (φ := φ x) rfl rfl []).1.mpr
    fun i => ⟨hφe x i, (hφ2 x i).trans (by norm_num)⟩
  have := C102_patchy h1 (hcem x) (hr x) h2 hd0 (hφ0 x) (hφ1 x) (hφ2 x) (hcf x) (hu x) (hc1 x) (hpe x) (hplb x) (hf x) (hN x)
  obtain rfl := mkDryRock_ok hd0
  obtain rfl := mkDryRock_ok hd
  obtain ⟨⟨r, r1, r2⟩, r3⟩ := this
  obtain ⟨r', r4, r5⟩ := adjustAll_trends h2 (finC (φ x)) mineral A (hA x) r2
  refine ⟨⟨r', ?_, r5⟩, r3⟩
  rw [DryRock.material_split]
  dsimp only
  rw [r1, bind_ok, r4]

end OPE
