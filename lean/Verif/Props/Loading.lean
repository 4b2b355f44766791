import Verif.Props.Published6
import Verif.Props.Porosity

/-!
# Property C143: loading stiffens the rock

More effective pressure (more overburden, less pore pressure in the rock, or a higher limit) with the same fluids
gives a frame and a saturated rock that are no softer, at the same density.
-/

namespace OPE

open Classical

variable {n : ℕ}

/-- Gassmann's saturated modulus falls neither with the frame's nor with the fluid's modulus. -/
theorem gassmann_mono {Kd Kd' Km Kf Kf' φ : ℝ} (hφ : 0 < φ) (hd0 : 0 ≤ Kd) (hd : Kd ≤ Kd') (hd1 : Kd' < Km)
    (hf0 : 0 < Kf) (hf : Kf ≤ Kf') (hf1 : Kf' < Km) :
    Published.gassmann Kd Km Kf φ ≤ Published.gassmann Kd' Km Kf' φ := by
  have hm : 0 < Km := by linarith
  have a1 : 0 < Km - Kd := by linarith
  have a2 : 0 < Km - Kd' := by linarith
  have b1 : 0 < Km - Kf := by linarith
  have b2 : 0 < Km - Kf' := by linarith
  rw [← gFactor_published hφ hd0 (by linarith) hf0 (by linarith), ← gFactor_published hφ (by linarith) hd1 (by linarith) hf1]
  refine sat_mono (gFactor_nonneg hφ hd0 (by linarith) hf0.le (by linarith)) ?_ hm.le
  unfold gFactor
  apply add_le_add
  · rw [div_le_div_iff₀ a1 a2]; nlinarith
  · rw [div_le_div_iff₀ (by positivity) (by positivity)]
    have : Kf * (Km - Kf') ≤ Kf' * (Km - Kf) := by nlinarith
    nlinarith [mul_le_mul_of_nonneg_right this hφ.le]

/-- A grain pack under more pressure is no softer. -/
theorem hertzMindlin_le {a : Published.Rock} (ha : 0 < a.K ∧ 0 < a.G ∧ 0 < a.ρ) {φc p q C f : ℝ}
    (hc1 : φc < 1) (hp : 0 < p) (hpq : p ≤ q) (hC : 0 < C) :
    (Published.hertzMindlin a φc p C f).K ≤ (Published.hertzMindlin a φc q C f).K := by
  have hν := nuR_lt a.K a.G ha.1 ha.2.1
  show Published.hertzMindlinBulk a.K a.G φc p C ≤ Published.hertzMindlinBulk a.K a.G φc q C
  unfold Published.hertzMindlinBulk
  have h1 : 0 < 1 - φc := by linarith
  have hq : 0 < q := by linarith
  have hpi := Real.pi_pos
  have hG := ha.2.1
  have hν' : Published.poisson a.K a.G < 1 / 2 := by
    unfold Published.poisson
    have := ha.1
    rw [div_lt_div_iff₀ (by positivity) (by norm_num)]
    linarith
  have : 0 < 1 - Published.poisson a.K a.G := by linarith
  apply Real.rpow_le_rpow (by positivity) _ (by norm_num)
  gcongr

/-- A friable sand under more pressure is no softer and equally heavy. -/
theorem friableSand_le {a : Published.Rock} (ha : 0 < a.K ∧ 0 < a.G ∧ 0 < a.ρ) {φ φc p q C f : ℝ} (hφ0 : 0 < φ)
    (hφ : φ ≤ φc) (hc1 : φc < 1) (hp : 0 < p) (hpq : p ≤ q) (hf : 0 ≤ f) (hC : 0 < C) :
    0 < (Published.friableSand a φ φc p C f).K ∧
    (Published.friableSand a φ φc p C f).K ≤ (Published.friableSand a φ φc q C f).K ∧
    (Published.friableSand a φ φc p C f).G ≤ (Published.friableSand a φ φc q C f).G ∧
    (Published.friableSand a φ φc p C f).ρ = (Published.friableSand a φ φc q C f).ρ := by
  have hc0 : 0 < φc := by linarith
  obtain ⟨r, h1, e1⟩ := friableSand_rock (φ := fun _ => φ) (φc := fun _ => φc) (p := fun _ => p) (f := fun _ => f)
    (N := fun _ => C) (rock_of_pos a ha) (fun _ => hφ0.le) (fun _ => hφ) (fun _ => hc0) (fun _ => hc1) (fun _ => hp)
    (fun _ => hf) (fun _ => hC)
  obtain ⟨r', h2, e2⟩ := friableSand_rock (φ := fun _ => φ) (φc := fun _ => φc) (p := fun _ => q) (f := fun _ => f)
    (N := fun _ => C) (rock_of_pos a ha) (fun _ => hφ0.le) (fun _ => hφ) (fun _ => hc0) (fun _ => hc1)
    (fun _ => by linarith) (fun _ => hf) (fun _ => hC)
  obtain ⟨s, s', Kr, Gr, Ks, Gs, Rr, t1, t2, t3, t4, t5⟩ := C30_friable_monotone
    (m := Mat.ofReal (n := 1) (fun _ => a.K) (fun _ => a.G) (fun _ => a.ρ)) (φ := fun _ => φ) (φc := fun _ => φc)
    (p := fun _ => p) (q := fun _ => q) (sr := fun _ => f) (N := fun _ => C)
    ⟨Mat.ofReal_has _ _ _, fun _ => ha.1, fun _ => ha.2.1, fun _ => ha.2.2⟩
    (fun _ => hφ0.le) (fun _ => hφ) (fun _ => hc0) (fun _ => hc1) (fun _ => hp) (fun _ => hpq) (fun _ => hf)
    (fun _ => hC)
  rw [h1] at t1; injection t1 with t1; subst t1
  rw [h2] at t2; injection t2 with t2; subst t2
  have k1 := congrFun (finC_injective (t3.1.symm.trans e1.1)) 0
  have k2 := congrFun (finC_injective (t4.1.symm.trans e2.1)) 0
  have g1 := congrFun (finC_injective (t3.2.1.symm.trans e1.2.1)) 0
  have g2 := congrFun (finC_injective (t4.2.1.symm.trans e2.2.1)) 0
  have r1 := congrFun (finC_injective (t3.2.2.symm.trans e1.2.2.1)) 0
  have r2 := congrFun (finC_injective (t4.2.2.symm.trans e2.2.2.1)) 0
  dsimp only at k1 k2 g1 g2 r1 r2
  refine ⟨(e1.2.2.2 0).1, ?_, ?_, ?_⟩
  · rw [← k1, ← k2]; exact (t5 0).1
  · rw [← g1, ← g2]; exact (t5 0).2
  · rw [← r1, ← r2]

/-- A patchy sand under more pressure is no softer and equally heavy. -/
theorem patchyCement_le {a b : Published.Rock} (ha : 0 < a.K ∧ 0 < a.G ∧ 0 < a.ρ) (hb : 0 < b.K ∧ 0 < b.G ∧ 0 < b.ρ)
    {φ φcem φub p q plb φc f C : ℝ} (hφ0 : 0 < φ) (hφ : φ ≤ φub) (hub : φub ≤ φc) (hc1 : φc < 1) (hp : 0 < p)
    (hpq : p ≤ q) (hf : 0 ≤ f) (hC : 0 < C) :
    (Published.patchyCement b a φ φcem φub p plb φc f C 9).K ≤ (Published.patchyCement b a φ φcem φub q plb φc f C 9).K ∧
    (Published.patchyCement b a φ φcem φub p plb φc f C 9).G ≤ (Published.patchyCement b a φ φcem φub q plb φc f C 9).G ∧
    (Published.patchyCement b a φ φcem φub p plb φc f C 9).ρ = (Published.patchyCement b a φ φcem φub q plb φc f C 9).ρ := by
  obtain ⟨m, -, hm⟩ := hsw_lower (f := fun _ => φc - φub) (rock_of_pos a ha) (rock_of_pos b hb)
    (fun _ => ⟨by linarith, by linarith⟩)
  have key : ∀ w l l' u : ℝ, w ≤ 1 → l ≤ l' → l + w * (u - l) ≤ l' + w * (u - l') := by
    intro w l l' u w1 h
    nlinarith [mul_nonneg (sub_nonneg.mpr w1) (sub_nonneg.mpr h)]
  obtain ⟨-, h1, h2, -⟩ := friableSand_le (hm.2.2.2 0) hφ0 (hφ.trans hub) hc1 hp hpq hf hC
  exact ⟨key _ _ _ _ (weight_range _ _ _).2 h1, key _ _ _ _ (weight_range _ _ _).2 h2, rfl⟩

/-- The pore fluid depends on no pressure but the fluid pressure of its constituents. -/
theorem Sections.Mixes.reload {s : Sections n} {pores : List (Pore n)} {F : Fin n → Published.Fluid}
    (h : s.Mixes pores F) (ov : Col n) (rp me : Option (Col n)) :
    ({ s with overburden := ov, rockPressure := rp, maxEffective := me } : Sections n).Mixes pores F := by
  cases h with
  | wood hm hw => exact .wood hm hw
  | brie hm e he he0 hg ht => refine .brie ?_ e ?_ he0 ?_ ht <;> assumption
  | brieGiven hm e he he0 idx hg hd hr ht => refine .brieGiven ?_ e ?_ he0 idx ?_ hd hr ht <;> assumption
  | brieNoGas hm e he hg hn hw => exact .brieNoGas hm e he hg hn hw
  | brieAllGas hm e he hg hn hw => exact .brieAllGas hm e he hg hn hw
  | brieGivenNone hm e he hg hw => exact .brieGivenNone hm e he hg hw
  | brieGivenAll hm e he idx hg hd hr hw => exact .brieGivenAll hm e he idx hg hd hr hw

/-- **C143, friable sand.** Two runs that differ in overburden, rock pressure or the limit on the effective pressure
only, the second with no smaller effective pressure in any row: if the second has a grain pack and fluid softer
than the mineral, both succeed with the same mineral modulus and density, and the second has no smaller dry
bulk, shear and saturated bulk modulus. -/
theorem C143_friable (co2 : CO2Model n) {s : Sections n}
    {x : Mat n × (Fin n → Published.Rock) × (Fin n → ℝ)} {L : RockList n} {ob rf rk P ob' rk' : Fin n → ℝ}
    {mx mx' : Option (Fin n → ℝ)} {ov : Col n} {rp me : Option (Col n)} (hs : s.Says x L ob rf rk P mx)
    (hs' : ({ s with overburden := ov, rockPressure := rp, maxEffective := me } : Sections n).Says x L ob' rf rk' P mx')
    {T : Fin n → ℝ} {pores : List (Pore n)} (hp : s.Pores T P pores) {F : Fin n → Published.Fluid}
    (hF : s.Mixes pores F)
    {φ φc f : Fin n → ℝ} {N : Option (Fin n → ℝ)} (hφ : s.porosity = finC φ)
    (hmodel : s.sandModel = .friable (mkFriableModel (finC φc) (finC f) (N.map finC))) (hadj : s.adjustments = [])
    (hφ0 : ∀ i, 0 < φ i) (hφ1 : ∀ i, φ i ≤ φc i - 1e-5) (hc1 : ∀ i, φc i < 1)
    (hpe : ∀ i, 0 < effectiveAt mx ob rk i) (hle : ∀ i, effectiveAt mx ob rk i ≤ effectiveAt mx' ob' rk' i)
    (hf : ∀ i, 0 ≤ f i) (hN : ∀ i, 0 < coordination N φc i)
    (hrow : ∀ i, (Published.hertzMindlin (mineralAt x L i) (φc i) (effectiveAt mx' ob' rk' i) (coordination N φc i)
      (f i)).K < (mineralAt x L i).K ∧ (F i).K < (mineralAt x L i).K) :
    ∃ r r', calculate co2 s = .ok r ∧
      calculate co2 { s with overburden := ov, rockPressure := rp, maxEffective := me } = .ok r' ∧
      r'.kmin = r.kmin ∧ r'.rsat = r.rsat ∧
      ∀ i, r.kdry i ≤ r'.kdry i ∧ r.mysat i ≤ r'.mysat i ∧ r.ksat i ≤ r'.ksat i := by
  have hF0 : ∀ i, 0 < (F i).K := fun i => by
    obtain ⟨fl, m, -, -, hm⟩ := fluids_filled (hp.filled co2) hF
    exact (hm.2.2.2 i).1
  have hmp := mineralAt_pos hs
  have h1 := C105_friable_softer co2 hs hp hF hφ hmodel hadj hφ0 hφ1 hc1 hpe hf hN fun i =>
    ⟨(hertzMindlin_le (hmp i) (hc1 i) (hpe i) (hle i) (hN i)).trans_lt (hrow i).1, (hrow i).2⟩
  have hpe' : ∀ i, 0 < effectiveAt mx' ob' rk' i := fun i => (hpe i).trans_le (hle i)
  have h2 := C105_friable_softer co2 hs' (T := T) (pores := pores) ⟨hp.fluids, hp.temperature, hp.nonempty, hp.describes,
    hp.model, hp.nonneg, hp.total⟩ (hF.reload ov rp me) hφ hmodel hadj hφ0 hφ1 hc1 hpe' hf hN hrow
  have key := fun i => friableSand_le (f := f i) (hmp i) (hφ0 i) ((hφ1 i).trans (by norm_num)) (hc1 i) (hpe i) (hle i)
    (hf i) (hN i)
  refine ⟨_, _, h1, h2, rfl, ?_, fun i => ⟨Num.fin_le.mpr (key i).2.1, Num.fin_le.mpr (key i).2.2.1, Num.fin_le.mpr ?_⟩⟩
  · exact congrArg finC (funext fun i => by rw [(key i).2.2.2])
  · exact gassmann_mono (hφ0 i) (key i).1.le (key i).2.1
      (friable_softer (hmp i) (hφ0 i) ((hφ1 i).trans (by norm_num)) (hc1 i) (hpe' i) (hf i) (hN i) (hrow i).1)
      (hF0 i) le_rfl (hrow i).2

/-- **C143, patchy cement.** The same for patchy cement, when at the heavier load the loose pack, the cemented pack and
the fluid are softer than the dense packing. -/
theorem C143_patchy (co2 : CO2Model n) {s : Sections n}
    {x : Mat n × (Fin n → Published.Rock) × (Fin n → ℝ)} {L : RockList n} {ob rf rk P ob' rk' : Fin n → ℝ}
    {mx mx' : Option (Fin n → ℝ)} {ov : Col n} {rp me : Option (Col n)} (hs : s.Says x L ob rf rk P mx)
    (hs' : ({ s with overburden := ov, rockPressure := rp, maxEffective := me } : Sections n).Says x L ob' rf rk' P mx')
    {T : Fin n → ℝ} {pores : List (Pore n)} (hp : s.Pores T P pores) {F : Fin n → Published.Fluid}
    (hF : s.Mixes pores F)
    {φ φc cf u plb f : Fin n → ℝ} {N : Option (Fin n → ℝ)} (hφ : s.porosity = finC φ)
    {cem : Mat n} {a : Fin n → Published.Rock} (hcem : cem.IsRock a)
    (hmodel : s.sandModel = .patchy (mkPatchyModel cem (finC φc) (finC cf) (finC plb) (finC u) (N.map finC) (finC f)))
    (hadj : s.adjustments = [])
    (hr : ∀ i, 2 * (mineralAt x L i).G ≤ 3 * (mineralAt x L i).K ∧
      0.04 * (Real.pi * (mineralAt x L i).G) ≤ (a i).G)
    (hφ0 : ∀ i, 0 < φ i) (hφe : ∀ i, φ i ≤ φc i - 1e-5) (hφ1 : ∀ i, φ i ≤ φc i - cf i)
    (hφ2 : ∀ i, φ i ≤ φc i - u i)
    (hcf : ∀ i, 0 ≤ cf i ∧ cf i < φc i) (hu : ∀ i, 0 ≤ u i ∧ u i < φc i) (hc1 : ∀ i, φc i < 1)
    (hpe : ∀ i, 0 < effectiveAt mx ob rk i) (hle : ∀ i, effectiveAt mx ob rk i ≤ effectiveAt mx' ob' rk' i)
    (hplb : ∀ i, 0 < plb i) (hf : ∀ i, 0 ≤ f i) (hN : ∀ i, 0 < coordination N φc i)
    (hrow : ∀ i, let dense := Published.lowerBound (a i) (mineralAt x L i) (u i)
      (Published.hertzMindlin dense (φc i) (effectiveAt mx' ob' rk' i) (coordination N φc i) (f i)).K < dense.K ∧
      (Published.contactCement (a i) (mineralAt x L i) (φc i - u i) (φc i) (f i) 9).K < dense.K ∧
      (F i).K < dense.K) :
    ∃ r r', calculate co2 s = .ok r ∧
      calculate co2 { s with overburden := ov, rockPressure := rp, maxEffective := me } = .ok r' ∧
      r'.kmin = r.kmin ∧ r'.kminFls = r.kminFls ∧ r'.rsat = r.rsat ∧
      ∀ i, r.kdry i ≤ r'.kdry i ∧ r.mysat i ≤ r'.mysat i ∧ r.ksat i ≤ r'.ksat i := by
  have hF0 : ∀ i, 0 < (F i).K := fun i => by
    obtain ⟨fl, m, -, -, hm⟩ := fluids_filled (hp.filled co2) hF
    exact (hm.2.2.2 i).1
  have hmp := mineralAt_pos hs
  have hdp : ∀ i, 0 < (Published.lowerBound (a i) (mineralAt x L i) (u i)).K ∧
      0 < (Published.lowerBound (a i) (mineralAt x L i) (u i)).G ∧
      0 < (Published.lowerBound (a i) (mineralAt x L i) (u i)).ρ := fun i => by
    obtain ⟨m, -, hm⟩ := hsw_lower (f := fun _ => u i) (rock_of_pos _ (hcem.2.2.2 i)) (rock_of_pos _ (hmp i))
      (fun _ => ⟨(hu i).1, by linarith [(hu i).2, hc1 i]⟩)
    exact hm.2.2.2 0
  have h1 := C105_patchy_softer co2 hs hp hF hφ hcem hmodel hadj hr hφ0 hφe hφ1 hφ2 hcf hu hc1 hpe hplb hf hN fun i =>
    ⟨(hertzMindlin_le (hdp i) (hc1 i) (hpe i) (hle i) (hN i)).trans_lt (hrow i).1, (hrow i).2⟩
  have hpe' : ∀ i, 0 < effectiveAt mx' ob' rk' i := fun i => (hpe i).trans_le (hle i)
  have h2 := C105_patchy_softer co2 hs' (T := T) (pores := pores) ⟨hp.fluids, hp.temperature, hp.nonempty, hp.describes,
    hp.model, hp.nonneg, hp.total⟩ (hF.reload ov rp me) hφ hcem hmodel hadj hr hφ0 hφe hφ1 hφ2 hcf hu hc1 hpe' hplb hf hN
    hrow
  have key := fun i => patchyCement_le (φcem := φc i - cf i) (plb := plb i) (f := f i) (hcem.2.2.2 i) (hmp i) (hφ0 i)
    (hφ2 i) (by linarith [(hu i).1]) (hc1 i) (hpe i) (hle i) (hf i) (hN i)
  obtain ⟨m, q1, q2⟩ := C99_patchy_cement (san := Mat.ofReal (fun i => (mineralAt x L i).K) (fun i => (mineralAt x L i).G)
    (fun i => (mineralAt x L i).ρ)) (b := mineralAt x L) (a := a) (Nc := fun _ => 9)
    ⟨rfl, rfl, rfl, hmp⟩ hcem hr (fun i => (hφ0 i).le) hφ1 hφ2
    (fun i => by linarith [(hcf i).2]) (fun i => by linarith [(hu i).2]) (fun i => by linarith [(hcf i).1])
    (fun i => by linarith [(hu i).1]) hc1 hpe hplb hf hN (fun _ => by norm_num)
  refine ⟨_, _, h1, h2, rfl, rfl, ?_, fun i => ⟨Num.fin_le.mpr (key i).1, Num.fin_le.mpr (key i).2.1, Num.fin_le.mpr ?_⟩⟩
  · exact congrArg finC (funext fun i => by rw [(key i).2.2])
  · refine gassmann_mono (hφ0 i) (q2.2.2.2 i).1.le (key i).1 ?_ (hF0 i) le_rfl (hrow i).2.2
    have e : φc i - (φc i - u i) = u i := by ring
    have := patchy_softer (φcem := φc i - cf i) (plb := plb i) (φ := φ i) (φub := φc i - u i) (φc := φc i)
      (p := effectiveAt mx' ob' rk' i) (f := f i) (C := coordination N φc i) (hcem.2.2.2 i) (hmp i) (hr i) (hφ0 i)
      (hφ2 i) (by linarith [(hu i).1]) (hc1 i) (hpe' i) (hf i) (hN i) (by rw [e]; exact (hrow i).1)
      (by rw [e]; exact (hrow i).2.1)
    rw [e] at this
    exact this

/-- A quartz grain pack of porosity 0.4 with at most 10 contacts per grain is softer than quartz up to 100 MPa. -/
theorem quartz_pack_soft {p C : ℝ} (hp0 : 0 < p) (hp : p ≤ 1e8) (hC0 : 0 < C) (hC : C ≤ 10) :
    Published.hertzMindlinBulk 36.8e9 44e9 0.4 p C < 36.8e9 := by
  unfold Published.hertzMindlinBulk
  have e : (36.8e9 : ℝ) = (36.8e9 ^ (3 : ℕ)) ^ (1 / 3 : ℝ) := by
    rw [one_div, show ((3 : ℝ))⁻¹ = ((3 : ℕ) : ℝ)⁻¹ by norm_num, Real.pow_rpow_inv_natCast] <;> norm_num
  conv_rhs => rw [e]
  have hpi := Real.pi_gt_three
  have hn : Published.poisson 36.8e9 44e9 = 28 / 386 := by norm_num [Published.poisson]
  rw [hn]
  have h1 : 9 ≤ Real.pi ^ 2 := by nlinarith
  have h2 : C ^ 2 * p ≤ 10 ^ 2 * 1e8 := by gcongr
  apply Real.rpow_lt_rpow
  · positivity
  · rw [div_lt_iff₀ (by positivity)]
    norm_num at h2 ⊢
    nlinarith
  · norm_num

theorem exPatchy_says (ob : ℝ) :
    ({ exPatchyRun with overburden := finC fun _ => ob } : Sections 2).Says
      (Mat.ofReal (fun _ => 36.8e9) (fun _ => 44e9) (fun _ => 2650), (fun _ => ⟨36.8e9, 44e9, 2650⟩), fun _ => 1) []
      (fun _ => ob) (fun _ => 30e6) (fun _ => 30e6) (fun _ => 30e6) none :=
  ⟨rfl, by
    intro y hy
    rw [List.mem_singleton.mp hy]
    exact ⟨⟨rfl, rfl, rfl, fun _ => by norm_num⟩, fun _ => by norm_num⟩,
    fun _ => by norm_num, rfl, rfl, rfl, rfl, rfl⟩

theorem exPatchy_pores : exPatchyRun.Pores (fun _ => 75) (fun _ => 30e6)
    [⟨.material (Mat.ofReal (fun _ => 2.8e9) (fun _ => 0) (fun _ => 1030)), none, fun _ => ⟨2.8e9, 1030⟩, fun _ => 1⟩] :=
  ⟨rfl, rfl, by simp, by
    intro y hy
    rw [List.mem_singleton.mp hy]
    exact .material _ _ ⟨rfl, rfl, rfl, fun _ => by norm_num⟩, by
    intro y hy
    rw [List.mem_singleton.mp hy]
    simp [exPatchyRun], by
    intro y hy
    rw [List.mem_singleton.mp hy]
    norm_num, fun i => by norm_num [poreTotal]⟩

/-- Quartz cemented by quartz, overburden 60 and 70 MPa. -/
example (co2 : CO2Model 2) : ∃ r r', calculate co2 exPatchyRun = .ok r ∧
    calculate co2 { exPatchyRun with overburden := finC fun _ => 70e6 } = .ok r' ∧ ∀ i, r.ksat i ≤ r'.ksat i := by
  have hm : mineralAt (n := 2) (Mat.ofReal (fun _ => 36.8e9) (fun _ => 44e9) (fun _ => 2650),
      (fun _ => ⟨36.8e9, 44e9, 2650⟩), fun _ => 1) [] = fun _ => ⟨36.8e9, 44e9, 2650⟩ := rfl
  have hpi4 := Real.pi_lt_d2
  obtain ⟨r, r', h1, h2, -, -, -, h3⟩ := C143_patchy co2 (exPatchy_says 60e6) (exPatchy_says 70e6) exPatchy_pores
    (.wood rfl ⟨by simp, fun i => by norm_num [poreTotal]⟩)
    (φ := ![0.2, 0.3]) (φc := fun _ => 0.4) (cf := fun _ => 0.04) (u := fun _ => 0.1) (plb := fun _ => 20e6)
    (f := fun _ => 0.5) (N := none) rfl (a := fun _ => ⟨36.8e9, 44e9, 2650⟩)
    ⟨rfl, rfl, rfl, fun _ => by norm_num⟩ rfl rfl
    (fun i => by rw [hm]; constructor <;> norm_num; nlinarith)
    (fun i => by fin_cases i <;> norm_num) (fun i => by fin_cases i <;> norm_num)
    (fun i => by fin_cases i <;> norm_num) (fun i => by fin_cases i <;> norm_num)
    (fun _ => by norm_num) (fun _ => by norm_num) (fun _ => by norm_num)
    (fun _ => by norm_num [effectiveAt, Published.effective]) (fun _ => by norm_num [effectiveAt, Published.effective])
    (fun _ => by norm_num) (fun _ => by norm_num)
    (fun _ => by norm_num [coordination, Published.murphy]) (fun i => by
      rw [hm]
      obtain ⟨k1, k2⟩ := lowerBound_self ⟨36.8e9, 44e9, 2650⟩ (by norm_num) (by norm_num) 0.1
      dsimp only at k1 k2 ⊢
      refine ⟨?_, ?_, ?_⟩
      · show Published.hertzMindlinBulk (Published.lowerBound ⟨36.8e9, 44e9, 2650⟩ ⟨36.8e9, 44e9, 2650⟩ 0.1).K
          (Published.lowerBound ⟨36.8e9, 44e9, 2650⟩ ⟨36.8e9, 44e9, 2650⟩ 0.1).G 0.4
          (effectiveAt none (fun _ => 70e6) (fun _ => 30e6) i) (coordination none (fun _ => 0.4) i) < _
        rw [k1, k2]
        exact quartz_pack_soft (by norm_num [effectiveAt, Published.effective])
          (by norm_num [effectiveAt, Published.effective]) (by norm_num [coordination, Published.murphy])
          (by norm_num [coordination, Published.murphy])
      · rw [k1]; exact exCemented
      · rw [k1]
        show (Published.wood [((⟨2.8e9, 1030⟩ : Published.Fluid), 1)]).K < 36.8e9
        norm_num [Published.wood])
  exact ⟨r, r', h1, h2, fun i => (h3 i).2.2⟩

/-- Friable quartz sand with the same fluid, rock pressure 30 and 20 MPa. -/
example (co2 : CO2Model 2) (s : Sections 2)
    (hs : s = { exPatchyRun with sandModel := .friable (mkFriableModel (finC fun _ => 0.4) (finC fun _ => 0.5) none) }) :
    ∃ r r', calculate co2 s = .ok r ∧
    calculate co2 { s with overburden := finC fun _ => 60e6, rockPressure := some (finC fun _ => 20e6), maxEffective := none }
      = .ok r' ∧ ∀ i, r.ksat i ≤ r'.ksat i := by
  subst hs
  have hm : mineralAt (n := 2) (Mat.ofReal (fun _ => 36.8e9) (fun _ => 44e9) (fun _ => 2650),
      (fun _ => ⟨36.8e9, 44e9, 2650⟩), fun _ => 1) [] = fun _ => ⟨36.8e9, 44e9, 2650⟩ := rfl
  have h := exPatchy_says 60e6
  obtain ⟨r, r', h1, h2, -, -, h3⟩ := C143_friable co2 (ob := fun _ => 60e6) (ob' := fun _ => 60e6) (rf := fun _ => 30e6)
    (rk := fun _ => 30e6) (rk' := fun _ => 20e6) (P := fun _ => 30e6) (mx := none) (mx' := none)
    (ov := finC fun _ => 60e6) (rp := some (finC fun _ => 20e6)) (me := none)
    (s := { exPatchyRun with sandModel := .friable (mkFriableModel (finC fun _ => 0.4) (finC fun _ => 0.5) none) })
    ⟨h.minerals, h.rocks, h.fractions, rfl, rfl, rfl, rfl, rfl⟩ ⟨h.minerals, h.rocks, h.fractions, rfl, rfl, rfl, rfl, rfl⟩
    (T := fun _ => 75) (pores := _)
    ⟨exPatchy_pores.1, rfl, exPatchy_pores.3, exPatchy_pores.4, exPatchy_pores.5, exPatchy_pores.6, exPatchy_pores.7⟩
    (.wood rfl ⟨by simp, fun i => by norm_num [poreTotal]⟩)
    (φ := ![0.2, 0.3]) (φc := fun _ => 0.4) (f := fun _ => 0.5) (N := none) rfl rfl rfl
    (fun i => by fin_cases i <;> norm_num) (fun i => by fin_cases i <;> norm_num) (fun _ => by norm_num)
    (fun _ => by norm_num [effectiveAt, Published.effective]) (fun _ => by norm_num [effectiveAt, Published.effective])
    (fun _ => by norm_num) (fun _ => by norm_num [coordination, Published.murphy]) (fun i => by
      rw [hm]
      refine ⟨quartz_pack_soft (by norm_num [effectiveAt, Published.effective])
          (by norm_num [effectiveAt, Published.effective]) (by norm_num [coordination, Published.murphy])
          (by norm_num [coordination, Published.murphy]), ?_⟩
      show (Published.wood [((⟨2.8e9, 1030⟩ : Published.Fluid), 1)]).K < 36.8e9
      norm_num [Published.wood])
  exact ⟨r, r', h1, h2, fun i => (h3 i).2.2⟩

end OPE
