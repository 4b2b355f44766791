import Verif.Props.Saltier
import Verif.Props.Trends3
import Verif.Props.GasStiffness

/-!
# C182: depleting the reservoir never stiffens the rock, apart from what it does to the dry rock

With the rock pressure given, the dry rock does not depend on the fluid pressure; the fluids do.
-/

namespace OPE

open Classical

variable {n : ℕ}

/-! ### One row -/

theorem brine_depleted {T P Q S : ℝ} (hT : 0 ≤ T ∧ T ≤ 300) (hQ : 0 ≤ Q) (hQP : Q ≤ P) (hP : P ≤ 100e6)
    (hS : 0 ≤ S ∧ S ≤ 300000) : (Published.brine T Q S).K ≤ (Published.brine T P S).K ∧
      (Published.brine T Q S).ρ ≤ (Published.brine T P S).ρ := by
  rcases hQP.lt_or_eq with h | rfl
  · obtain ⟨m, m', h1, h2, h3⟩ := C178_brine_stiffness_trends (n := 1) (fun _ => T) (fun _ => Q) (fun _ => P) (fun _ => S)
      (fun _ => S) (fun _ => ⟨hT.1, by linarith [hT.2]⟩) (fun _ => ⟨hQ, hQP, hP⟩) (fun _ => ⟨hS.1, le_rfl, hS.2⟩)
      (fun _ _ => hT.2)
    have d := C137_brine_density_trends hT.1 le_rfl (by linarith [hT.2]) hQ hQP hP hS.1 le_rfl hS.2 (.inr (.inl h)) h2 h1
    have k := (h3 0 (.inl h)).2
    obtain ⟨d1, -, k1⟩ := (C93_water_and_brine (n := 1) (fun _ => T) (fun _ => Q) (fun _ => S) m).1 (fun _ => hS.1) h1
    obtain ⟨d2, -, k2⟩ := (C93_water_and_brine (n := 1) (fun _ => T) (fun _ => P) (fun _ => S) m').1 (fun _ => hS.1) h2
    rw [d1, d2] at d
    rw [k1, k2] at k
    simp only [finC_apply, Num.fin_lt] at d k
    exact ⟨k.le, d.le⟩
  · exact ⟨le_rfl, le_rfl⟩

theorem gas_depleted {T P Q G : ℝ} (hT : 0 ≤ T ∧ T ≤ 300) (hQ : 0 < Q) (hQP : Q ≤ P) (hG : 0.29 ≤ G ∧ G ≤ 1.4) :
    (Published.gas T Q G).K ≤ (Published.gas T P G).K ∧ (Published.gas T Q G).ρ ≤ (Published.gas T P G).ρ := by
  rcases hQP.lt_or_eq with h | rfl
  · obtain ⟨m, m', h1, h2, h3⟩ := C137_gas_density_pressure hT.1 hT.2 hQ h hG.1 hG.2
    obtain ⟨k, k', g1, g2, g3⟩ := GasStiffness.C181_gas_bulk_pressure hT.1 hT.2 hQ h hG.1 hG.2
    obtain rfl := Except.ok.inj (h1.symm.trans g1)
    obtain rfl := Except.ok.inj (h2.symm.trans g2)
    obtain ⟨q, a, d, b, -⟩ := C95_gas (n := 1) (fun _ => T) (fun _ => Q) (fun _ => G) (fun _ => hT) (fun _ => hQ)
      (fun _ => hG)
    obtain ⟨q', a', d', b', -⟩ := C95_gas (n := 1) (fun _ => T) (fun _ => P) (fun _ => G) (fun _ => hT)
      (fun _ => hQ.trans h) (fun _ => hG)
    obtain rfl := Except.ok.inj (h1.symm.trans a)
    obtain rfl := Except.ok.inj (h2.symm.trans a')
    rw [d, d'] at h3
    rw [b, b'] at g3
    simp only [finC_apply, Num.fin_lt] at h3 g3
    exact ⟨g3.le, h3.le⟩
  · exact ⟨le_rfl, le_rfl⟩

/-- Equation 20a: oil under more pressure is no slower, for any density. -/
theorem oilVelocity_pressure {T P Q r : ℝ} (hT : 0 ≤ T ∧ T ≤ 400) (hQP : Q ≤ P) (hr : 0 < r) (hr' : r ≤ 1.08) :
    Published.oilVelocity T Q r ≤ Published.oilVelocity T P r := by
  unfold Published.oilVelocity
  have q0 : 0 ≤ (1.08 / r - 1) ^ (1 / 2 : ℝ) := Real.rpow_nonneg (sub_nonneg.mpr ((one_le_div hr).mpr hr')) _
  generalize (1.08 / r - 1) ^ (1 / 2 : ℝ) = q at q0 ⊢
  have k2 : 0 ≤ 4.64 + 0.0115 * (4.12 * q - 1) * T := by
    have : 0 ≤ q * T := mul_nonneg q0 hT.1
    have := hT.2
    norm_num
    linarith
  have := mul_nonneg (sub_nonneg.mpr hQP) k2
  rw [← sub_nonneg]
  refine le_of_le_of_eq this ?_
  ring

theorem deadOil_depleted {T P Q r : ℝ} (hT : 0 ≤ T) (hQ : 0 ≤ Q) (hQP : Q ≤ P) (hP : P ≤ 73) (hr : 0 ≤ r) :
    Published.deadOilDensity T Q r ≤ Published.deadOilDensity T P r := by
  unfold Published.deadOilDensity
  have h0 : 0 ≤ (T + 17.78) ^ (1.175 : ℝ) := Real.rpow_nonneg (by positivity) _
  apply div_le_div_of_nonneg_right _ (by positivity)
  have k : 0 ≤ 0.00277 - 1.71e-7 * (P ^ 2 + P * Q + Q ^ 2) := by
    have h1 : P ^ 2 + P * Q + Q ^ 2 ≤ 3 * 73 ^ 2 := by nlinarith
    norm_num at h1 ⊢
    linarith
  have := mul_nonneg (mul_nonneg (sub_nonneg.mpr hQP) k) (sq_nonneg (r - 1.15))
  have e : (0.00277 * P - 1.71e-7 * P ^ 3) * (r - 1.15) ^ 2 - (0.00277 * Q - 1.71e-7 * Q ^ 3) * (r - 1.15) ^ 2
      = (P - Q) * (0.00277 - 1.71e-7 * (P ^ 2 + P * Q + Q ^ 2)) * (r - 1.15) ^ 2 := by ring
  have h2 : 3.49e-4 * Q ≤ 3.49e-4 * P := mul_le_mul_of_nonneg_left hQP (by norm_num)
  linarith

theorem oil_depleted {T P Q r R G : ℝ} (hT : 0 ≤ T ∧ T ≤ 150) (hQ : 0 ≤ Q) (hQP : Q ≤ P) (hP : P ≤ 73e6)
    (hr : 700 ≤ r ∧ r ≤ 1000) (hR : 0 ≤ R ∧ R ≤ 400) (hG : 0 ≤ G ∧ G ≤ 1) :
    (Published.oil T Q r R G).K ≤ (Published.oil T P r R G).K ∧ (Published.oil T Q r R G).ρ ≤ (Published.oil T P r R G).ρ := by
  have u : (0:ℝ) ≤ 1e-6 := by norm_num
  have hr0 : 0 < r / 1000 := by have := hr.1; linarith
  have hr1 : r / 1000 ≤ 1 := by have := hr.2; linarith
  have w0 : 0 ≤ Published.deadWeight R := le_max_left _ _
  have w1 : 0 ≤ 1 - Published.deadWeight R := by
    unfold Published.deadWeight
    rw [sub_nonneg]
    exact max_le zero_le_one (by linarith [abs_nonneg R])
  obtain ⟨l, d, m, ρl, vl, ρd, vd, ρ, v, _, -, -, hm, -, -, -, -, m1, m2, -, -, -, -, p1, p2, -⟩ :=
    C79_oil_defined T Q r R G hT ⟨hQ, hQP.trans (by norm_num at hP ⊢; linarith)⟩ hr hR hG
  obtain ⟨g1, g2⟩ := (C94_oil (n := 1) (fun _ => T) (fun _ => Q) (fun _ => r) (fun _ => R) (fun _ => G)
    (fun _ => by have := hT.1; norm_num; linarith)
    (fun _ => ⟨by linarith [hr.1], by linarith [hr.2]⟩) (fun _ => hR.1) (fun _ => hG.1) m).2.2.1 0 m hm
  have k1 := m1.symm.trans g1
  have k2 := m2.symm.trans g2
  rw [Num.fin_inj] at k1 k2
  rw [k1] at p1
  rw [k2] at p2
  have hB := volumeFactor_ge hT.1 hr0 hR.1 hG.1
  have hB0 : 0 < Published.volumeFactor T (r / 1000) R G := lt_of_lt_of_le (by norm_num) hB
  have hps : 0 < Published.pseudoDensity T (r / 1000) R G ∧ Published.pseudoDensity T (r / 1000) R G ≤ 1.08 := by
    have h3 := hR.1
    unfold Published.pseudoDensity
    refine ⟨by positivity, ?_⟩
    have h5 : r / 1000 / Published.volumeFactor T (r / 1000) R G ≤ 1.08 := by
      rw [div_le_iff₀ hB0]
      norm_num at hB ⊢
      linarith
    have h9 : 0 ≤ 0.001 * R := by positivity
    have h6 : (1 + 0.001 * R)⁻¹ ≤ 1 := inv_le_one_of_one_le₀ (by linarith)
    exact (mul_le_of_le_one_right (by positivity) h6).trans h5
  have hv : Published.deadWeight R * Published.oilVelocity T (Q * 1e-6) (r / 1000)
      + (1 - Published.deadWeight R) * Published.oilVelocity T (Q * 1e-6) (Published.pseudoDensity T (r / 1000) R G)
      ≤ Published.deadWeight R * Published.oilVelocity T (P * 1e-6) (r / 1000)
      + (1 - Published.deadWeight R) * Published.oilVelocity T (P * 1e-6) (Published.pseudoDensity T (r / 1000) R G) := by
    have hT' : 0 ≤ T ∧ T ≤ 400 := ⟨hT.1, by linarith [hT.2]⟩
    exact add_le_add (mul_le_mul_of_nonneg_left (oilVelocity_pressure hT' (mul_le_mul_of_nonneg_right hQP u) hr0
        (by norm_num; linarith)) w0)
      (mul_le_mul_of_nonneg_left (oilVelocity_pressure hT' (mul_le_mul_of_nonneg_right hQP u) hps.1 hps.2) w1)
  have hρ : 1000 * (Published.deadWeight R * Published.deadOilDensity T (Q * 1e-6) (r / 1000)
        + (1 - Published.deadWeight R) * Published.liveOilDensity T (r / 1000) R G)
      ≤ 1000 * (Published.deadWeight R * Published.deadOilDensity T (P * 1e-6) (r / 1000)
        + (1 - Published.deadWeight R) * Published.liveOilDensity T (r / 1000) R G) := by
    have := deadOil_depleted hT.1 (mul_nonneg hQ u) (mul_le_mul_of_nonneg_right hQP u)
      (by norm_num at hP ⊢; linarith) hr0.le
    have := mul_le_mul_of_nonneg_left this w0
    linarith
  refine ⟨?_, hρ⟩
  have p1' : 0 ≤ 1000 * (Published.deadWeight R * Published.deadOilDensity T (Q * 1e-6) (r / 1000)
        + (1 - Published.deadWeight R) * Published.liveOilDensity T (r / 1000) R G) := p1.le
  exact mul_le_mul hρ (pow_le_pow_left₀ p2.le hv 2) (sq_nonneg _) (p1'.trans hρ)

/-! ### Constituents -/

/-- Where the correlations for a constituent are known to rise with pressure: brine up to 300 °C, oil up to 73 MPa. -/
def FluidKind.RisesWithPressure (T P : Fin n → ℝ) : FluidKind n → Prop
  | .brine _ => ∀ i, T i ≤ 300
  | .oil _ _ _ => ∀ i, P i ≤ 73e6
  | _ => True

theorem FluidKind.Describes.depleted {T P Q : Fin n → ℝ} {k : FluidKind n} {F : Fin n → Published.Fluid}
    (h : k.Describes T P F) (hk : k.RisesWithPressure T P) (hQ : ∀ i, 0 < Q i ∧ Q i ≤ P i) :
    ∃ F', k.Describes T Q F' ∧ ∀ i, (F' i).K ≤ (F i).K ∧ (F' i).ρ ≤ (F i).ρ := by
  cases h with
  | material m F h => exact ⟨F, .material m F h, fun i => ⟨le_rfl, le_rfl⟩⟩
  | brine S h1 h2 h3 =>
    exact ⟨_, .brine S h1 (fun i => ⟨(hQ i).1.le, (hQ i).2.trans (h2 i).2⟩) h3,
      fun i => brine_depleted ⟨(h1 i).1, hk i⟩ (hQ i).1.le (hQ i).2 (h2 i).2 (h3 i)⟩
  | oil r R G h1 h2 h3 h4 h5 =>
    exact ⟨_, .oil r R G h1 (fun i => ⟨(hQ i).1.le, (hQ i).2.trans (h2 i).2⟩) h3 h4 h5,
      fun i => oil_depleted (h1 i) (hQ i).1.le (hQ i).2 (hk i) (h3 i) (h4 i) (h5 i)⟩
  | gas G h1 h2 h3 =>
    exact ⟨_, .gas G h1 (fun i => (hQ i).1) h3, fun i => gas_depleted (h1 i) (hQ i).1 (hQ i).2 (h3 i)⟩

theorem depleted_pores {T P Q : Fin n → ℝ} (hQ : ∀ i, 0 < Q i ∧ Q i ≤ P i) : ∀ {L : List (Pore n)},
    (∀ x ∈ L, x.kind.Describes T P x.fluid ∧ x.kind.RisesWithPressure T P) →
    ∃ L' : List (Pore n), (L'.map fun x => (⟨x.kind, x.model, some (finC x.sat)⟩ : FluidSpec n))
        = (L.map fun x => ⟨x.kind, x.model, some (finC x.sat)⟩) ∧
      List.Forall₂ PoreStiffer L' L ∧
      List.Forall₂ (fun y x => y.kind.Describes T Q y.fluid ∧ y.model = x.model ∧ y.sat = x.sat) L' L
  | [], _ => ⟨[], rfl, .nil, .nil⟩
  | x :: L, h => by
    obtain ⟨F', h1, h2⟩ := (h x List.mem_cons_self).1.depleted (h x List.mem_cons_self).2 hQ
    obtain ⟨L', e, f, g⟩ := depleted_pores hQ (L := L) fun y hy => h y (List.mem_cons_of_mem _ hy)
    refine ⟨⟨x.kind, x.model, F', x.sat⟩ :: L', by simp [e], .cons ⟨Iff.rfl, rfl, h2⟩ f, .cons ⟨h1, rfl, rfl⟩ g⟩

theorem Sections.Mixes.transfer {s s' : Sections n} {L : List (Pore n)} {F : Fin n → Published.Fluid}
    (h : s.Mixes L F) (h1 : s'.mixMethod = s.mixMethod) (h2 : s'.brieConstant = s.brieConstant)
    (h3 : s'.brieGases = s.brieGases) : s'.Mixes L F := by
  cases h with
  | wood hm hw => exact .wood (h1.trans hm) hw
  | brie hm e he he0 hg ht => exact .brie (h1.trans hm) e (h2.trans he) he0 (h3.trans hg) ht
  | brieGiven hm e he he0 idx hg hd hr ht => exact .brieGiven (h1.trans hm) e (h2.trans he) he0 idx (h3.trans hg) hd hr ht
  | brieNoGas hm e he hg hn hw => exact .brieNoGas (h1.trans hm) e (h2.trans he) (h3.trans hg) hn hw
  | brieAllGas hm e he hg hn hw => exact .brieAllGas (h1.trans hm) e (h2.trans he) (h3.trans hg) hn hw
  | brieGivenNone hm e he hg hw => exact .brieGivenNone (h1.trans hm) e (h2.trans he) (h3.trans hg) hw
  | brieGivenAll hm e he idx hg hd hr hw => exact .brieGivenAll (h1.trans hm) e (h2.trans he) idx (h3.trans hg) hd hr hw

/-- **C182.** In a run that goes through, with the rock pressure given, any dry rock and any adjustments, and
constituents of any type but carbon dioxide (brine up to 300 °C, oil up to 73 MPa): if the fluid pressure is
lowered, everything else the same, the run still goes through, and the saturated rock is no stiffer and no heavier
in any row, while minerals, dry rock, dense packing and shear modulus are the same. -/
theorem C182_calculation (co2 : CO2Model n) {s : Sections n} {pores : List (Pore n)}
    {x : Mat n × (Fin n → Published.Rock) × (Fin n → ℝ)} {L : RockList n} {ob rf rk P : Fin n → ℝ}
    {mx : Option (Fin n → ℝ)} (hs : s.Says x L ob rf rk P mx) (hrk : s.rockPressure = some (finC rk))
    (hx : x.1.Coherent) {T : Fin n → ℝ}
    (hp : s.Pores T P pores) {F : Fin n → Published.Fluid} (hF : s.Mixes pores F)
    (hk : ∀ x ∈ pores, x.kind.RisesWithPressure T P)
    {φ : Fin n → ℝ} (hφ : s.porosity = finC φ) {sand dry dense : Fin n → Published.Rock}
    (hmodel : s.sandModel.Gives (mineralAt x L) φ (effectiveAt mx ob rk) sand dense) (hv : ∀ i, (sand i).Valid)
    (hadj : Adjusts (mineralAt x L) φ (effectiveAt mx ob rk) (effectiveAt mx ob rf) rk s.adjustments sand dry)
    (hrow : ∀ i, 0 < φ i ∧ (dry i).K < (dense i).K ∧ (F i).K < (dense i).K)
    {Q : Fin n → ℝ} (hQ : ∀ i, 0 < Q i ∧ Q i ≤ P i) :
    ∃ r r', calculate co2 s = .ok r ∧ calculate co2 { s with fluidPressure := some (finC Q) } = .ok r' ∧
      r'.kmin = r.kmin ∧ r'.kdry = r.kdry ∧ r'.kminFls = r.kminFls ∧ r'.mysat = r.mysat ∧
      ∀ i, r'.ksat i ≤ r.ksat i ∧ r'.rsat i ≤ r.rsat i := by
  obtain ⟨pores', e, hst, hd⟩ := depleted_pores hQ (L := pores) fun x hx => ⟨hp.describes x hx, hk x hx⟩
  have len := hst.length_eq
  have each : ∀ y ∈ pores', ∃ x ∈ pores, y.kind.Describes T Q y.fluid ∧ y.model = x.model ∧ y.sat = x.sat := by
    intro y hy
    obtain ⟨k, hk', rfl⟩ := List.mem_iff_getElem.mp hy
    exact ⟨_, List.getElem_mem (by omega), (List.forall₂_iff_get.mp hd).2 k hk' (by omega)⟩
  have hsat : ∀ y ∈ pores', ∀ i, 0 ≤ y.sat i := by
    intro y hy i
    obtain ⟨x, hx, -, -, h⟩ := each y hy
    rw [h]; exact hp.nonneg x hx i
  obtain ⟨s', hs'⟩ : ∃ s', s' = { s with fluidPressure := some (finC Q) } := ⟨_, rfl⟩
  have says' : s'.Says x L ob rf rk Q mx := by
    subst hs'
    exact ⟨hs.1, hs.2, hs.3, hs.4, hs.5, by simp [hrk], rfl, hs.8⟩
  have pores_ok : s'.Pores T Q pores' := by
    subst hs'
    refine ⟨?_, hp.temperature, ?_, fun y hy => ?_, fun y hy => ?_, hsat, fun i => ?_⟩
    · rw [e]; exact hp.fluids
    · rintro rfl; cases hst; exact hp.nonempty rfl
    · obtain ⟨x, -, h, -⟩ := each y hy; exact h
    · obtain ⟨x, hx, -, h, -⟩ := each y hy; rw [h]; exact hp.model x hx
    · rw [← PoreStiffer.total hst]; exact hp.total i
  have filled := pores_ok.filled co2
  obtain ⟨F', hF', hle⟩ := PoreStiffer.mixes hst
    (fun z hz i => ⟨filled.fills.positive z hz i, hsat z hz i⟩) hF
  have hF'' : s'.Mixes pores' F' := by subst hs'; exact hF'.transfer rfl rfl rfl
  have h1 := calculate_adjusted hs hx (hp.filled co2) hF hφ hmodel hv hadj hrow
  have h2 := calculate_adjusted (co2 := co2) says' hx filled hF'' (by subst hs'; exact hφ) (by subst hs'; exact hmodel) hv
    (by subst hs'; exact hadj) fun i => ⟨(hrow i).1, (hrow i).2.1, (hle i).1.trans_lt (hrow i).2.2⟩
  -- the same as for a softer fluid of the same configuration
  subst hs'
  refine ⟨_, _, h1, h2, rfl, rfl, rfl, rfl, fun i => ⟨Num.fin_le.mpr ?_, Num.fin_le.mpr ?_⟩⟩
  · have hd0 : 0 < (dry i).K := by
      have : ∀ {as : List (Adjustment n)} {r r' : Fin n → Published.Rock}, Adjusts (mineralAt x L) φ (effectiveAt mx ob rk)
          (effectiveAt mx ob rf) rk as r r' → (∀ i, (r i).Valid) → ∀ i, (r' i).Valid := by
        intro as r r' h
        induction h with
        | nil r => exact fun h => h
        | cons h hv t ih => exact fun _ => ih hv
      exact (this hadj hv i).1
    have hf0 : 0 < (F' i).K := by
      obtain ⟨fl, m, -, -, hm⟩ := fluids_filled filled hF''
      exact (hm.2.2.2 i).1
    exact gassmann_mono (hrow i).1 hd0.le le_rfl (hrow i).2.1 hf0 (hle i).1 (hrow i).2.2
  · have := mul_le_mul_of_nonneg_left (hle i).2 (hrow i).1.le
    dsimp only
    linarith

/-! ### Witness -/

/-- Brine and gas. -/
noncomputable def exDepletedPores : List (Pore 2) :=
  [⟨.brine (finC fun _ => 50000), none, fun _ => Published.brine 80 70e6 50000, fun _ => 0.8⟩,
   ⟨.gas (finC fun _ => 0.6), none, fun _ => Published.gas 80 70e6 0.6, fun _ => 0.2⟩]

noncomputable def exDepleted : Sections 2 :=
  { (exThreeRock .wood).withPores exDepletedPores with
    temperature := finC fun _ => 80
    overburden := finC fun _ => 100e6
    fluidPressure := some (finC fun _ => 70e6)
    rockPressure := some (finC fun _ => 70e6) }

/-- The fluid pressure lowered from 70 MPa to 30 MPa in the first row. -/
example (co2 : CO2Model 2) : ∃ r r', calculate co2 exDepleted = .ok r ∧
    calculate co2 { exDepleted with fluidPressure := some (finC ![30e6, 70e6]) } = .ok r' ∧
    r'.kdry = r.kdry ∧ ∀ i, r'.ksat i ≤ r.ksat i ∧ r'.rsat i ≤ r.rsat i := by
  have hq : quartzRock.Valid := by norm_num [Published.Rock.Valid, quartzRock]
  obtain ⟨b1, b2⟩ := defaultBrine_K
  have g0 : 0 < (Published.gas 80 70e6 0.6).K := by
    obtain ⟨m, -, -, -, h⟩ := C95_gas (n := 1) (fun _ => 80) (fun _ => 70e6) (fun _ => 0.6) (fun _ => by norm_num)
      (fun _ => by norm_num) (fun _ => by norm_num)
    exact (h 0).2
  obtain ⟨r, r', h1, h2, -, h3, -, -, h4⟩ := C182_calculation co2 (s := exDepleted) (pores := exDepletedPores)
    (x := (Mat.ofReal (fun _ => 36.8e9) (fun _ => 44e9) (fun _ => 2650), (fun _ => quartzRock), fun _ => 1)) (L := [])
    (ob := fun _ => 100e6) (rf := fun _ => 40e6) (rk := fun _ => 70e6) (P := fun _ => 70e6) (mx := none)
    ⟨rfl, by
      intro y hy
      rw [List.mem_singleton.mp hy]
      exact ⟨⟨rfl, rfl, rfl, fun _ => hq⟩, fun _ => by norm_num⟩, fun _ => by norm_num, rfl, rfl, rfl, rfl, rfl⟩
    rfl
    (mkModuli_coherent (mkModuli_rock (n := 2) (r := fun _ => quartzRock) fun _ => hq))
    (T := fun _ => 80)
    ⟨rfl, rfl, by simp [exDepletedPores], by
      intro z hz
      simp only [exDepletedPores, List.mem_cons, List.not_mem_nil, or_false] at hz
      rcases hz with rfl | rfl
      · exact .brine _ (fun _ => by norm_num) (fun _ => by norm_num) fun _ => by norm_num
      · exact .gas _ (fun _ => by norm_num) (fun _ => by norm_num) fun _ => by norm_num, by
      intro z hz
      simp only [exDepletedPores, List.mem_cons, List.not_mem_nil, or_false] at hz
      rcases hz with rfl | rfl <;> simp [exDepleted, exThreeRock, Sections.withPores], by
      intro z hz i
      simp only [exDepletedPores, List.mem_cons, List.not_mem_nil, or_false] at hz
      rcases hz with rfl | rfl <;> norm_num, fun i => by norm_num [poreTotal, exDepletedPores]⟩
    (.wood rfl ⟨by simp [exDepletedPores], fun i => by norm_num [poreTotal, exDepletedPores]⟩)
    (by
      intro z hz
      simp only [exDepletedPores, List.mem_cons, List.not_mem_nil, or_false] at hz
      rcases hz with rfl | rfl
      · exact fun _ => by norm_num
      · trivial)
    (φ := fun _ => 0.2) rfl
    (sand := fun _ => ⟨12e9, 10e9, 2000⟩) (dense := fun _ => quartzRock) (dry := fun _ => ⟨12e9, 10e9, 2000⟩)
    (by
      have row : ∀ a b x y : ℝ, surface (rowCoeffs a b) x y = a + b * y := rowCoeffs_sum
      have hsand : surfaceModuli (rowCoeffs 2000 0) (rowCoeffs 12e9 0) (rowCoeffs 10e9 0) quartzRock 0.2
          = ⟨12e9, 10e9, 2000⟩ := by simp only [surfaceModuli, row, zero_mul, add_zero]
      have := SandModel.Gives.moduli (a := fun _ : Fin 2 => quartzRock) (φ := fun _ => 0.2)
        (p := effectiveAt none (fun _ => 100e6) (fun _ => 70e6)) (some (rowCoeffs 2000 0)) (some (rowCoeffs 12e9 0))
        (some (rowCoeffs 10e9 0))
      simp only [Option.getD_some, hsand] at this
      exact this)
    (fun _ => by norm_num [Published.Rock.Valid]) (.nil _)
    (fun i => ⟨by norm_num, by norm_num [quartzRock], by
      simp only [quartzRock, Published.wood, poreRow, exDepletedPores, List.map_cons, List.map_nil, List.sum_cons, List.sum_nil]
      norm_num only
      have p3 : 4 / 5 / 6e9 ≤ 4 / 5 / (Published.brine 80 70e6 50000).K := by gcongr
      have p4 : 0 < 1 / 5 / (Published.gas 80 70e6 0.6).K := by positivity
      norm_num only at p3 p4 b1 b2 ⊢
      rw [inv_lt_comm₀ (by linarith) (by norm_num)]
      norm_num only
      linarith⟩)
    (Q := ![30e6, 70e6]) (fun i => by fin_cases i <;> norm_num)
  exact ⟨r, r', h1, h2, h3, h4⟩

end OPE
