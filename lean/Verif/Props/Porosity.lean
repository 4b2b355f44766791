import Verif.Props.Stiffer
import Verif.Props.Cement
import Verif.Props.EndToEnd

/-!
# C138: more pores never stiffen a sand
-/

namespace OPE

open Classical Spec

variable {n : ℕ}

theorem fraction_anti {φ φ' φc : ℝ} (h : φ ≤ φ') (hc : 0 < φc) : 1 - φ' / φc ≤ 1 - φ / φc := by
  have := div_le_div_of_nonneg_right h hc.le; linarith

theorem hs_row {a b z f f' : ℝ} (ha : 0 < a) (hb : 0 < b) (hz : 0 ≤ z) (h0 : 0 ≤ f) (hff : f ≤ f') (h1 : f' ≤ 1) :
    0 < hsReal a b z f ∧ 0 < hsReal a b z f' ∧ (b ≤ a → hsReal a b z f ≤ hsReal a b z f' ∧ hsReal a b z f' ≤ a) := by
  have hA : 0 < a + z := by linarith
  have hB : 0 < b + z := by linarith
  have hD := hsReal_D hA hB h0 (hff.trans h1)
  have hD' := hsReal_D hA hB (h0.trans hff) h1
  refine ⟨lt_of_lt_of_le (lt_min ha hb) (hsReal_between hA.le hB.le hD h0 (hff.trans h1)).1,
    lt_of_lt_of_le (lt_min ha hb) (hsReal_between hA.le hB.le hD' (h0.trans hff) h1).1, fun h => ⟨?_, ?_⟩⟩
  · exact hsReal_mono_f hA hB h0 hff h1 h
  · exact hsReal_le_left hA.le hD' h1 h

/-- **C138 (friable sand).** Between porosity 0 and critical porosity, where the grain pack is softer than the mineral, a
larger porosity never gives a larger bulk or shear modulus, and gives a smaller density. -/
theorem C138_friable {m pack : Mat n} {K G R Kp Gp Rp φ φ' φc p sr N : Fin n → ℝ} (h : m.Pos K G R)
    (hφ0 : ∀ i, 0 ≤ φ i) (hφ : ∀ i, φ i ≤ φ' i) (hφc : ∀ i, φ' i ≤ φc i) (hc0 : ∀ i, 0 < φc i) (hc1 : ∀ i, φc i < 1)
    (hp : ∀ i, 0 < p i) (hs : ∀ i, 0 ≤ sr i) (hN : ∀ i, 0 < N i)
    (hpack : hertzMindlin m (finC φc) (finC p) (finC sr) (finC N) = .ok pack) (hP : pack.Has Kp Gp Rp) :
    ∃ r r' Kr Gr Rr Kr' Gr' Rr',
      friableSand m (finC φ) (finC φc) (finC p) (finC N) (finC sr) = .ok r ∧
      friableSand m (finC φ') (finC φc) (finC p) (finC N) (finC sr) = .ok r' ∧
      r.Has Kr Gr Rr ∧ r'.Has Kr' Gr' Rr' ∧
      ∀ i, 0 < Kr i ∧ 0 < Gr i ∧ 0 < Kr' i ∧ 0 < Gr' i ∧
        (Kp i ≤ K i → Kr' i ≤ Kr i ∧ Kr i ≤ K i) ∧ (Gp i ≤ G i → Gr' i ≤ Gr i ∧ Gr i ≤ G i) ∧
        Rr i = R i * (1 - φ i) ∧ Rr' i = R i * (1 - φ' i) := by
  have e := hertzMindlin_fin h.has h.bulk h.shear h.density hc1 (fun i => (hp i).le) hs hN
  rw [e] at hpack
  injection hpack with hpack
  subst hpack
  have hpos := hertzMindlin_pos h hc1 hp hs hN
  obtain rfl : Kp = _ := finC_injective (hP.1.symm.trans hpos.has.1)
  obtain rfl : Gp = _ := finC_injective (hP.2.1.symm.trans hpos.has.2.1)
  refine ⟨_, _, _, _, _, _, _, _, friableSand_fin h hφ0 (fun i => (hφ i).trans (hφc i)) hc0 hc1 hp hs hN,
    friableSand_fin h (fun i => (hφ0 i).trans (hφ i)) hφc hc0 hc1 hp hs hN, Mat.ofReal_has _ _ _, Mat.ofReal_has _ _ _,
    fun i => ?_⟩
  have ha : 0 ≤ 1 - φ' i / φc i := by have := div_le_one_of_le₀ (hφc i) (hc0 i).le; linarith
  have hb : 1 - φ i / φc i ≤ 1 := by have := div_nonneg (hφ0 i) (hc0 i).le; linarith
  have hab := fraction_anti (hφ i) (hc0 i)
  have hm1 : 0 < min (G i) (hmG (K i) (G i) (φc i) (p i) (N i) (sr i)) := lt_min (h.shear i) (hpos.shear i)
  have hm2 : 0 < min (K i) (hmK (K i) (G i) (φc i) (p i) (N i)) := lt_min (h.bulk i) (hpos.bulk i)
  obtain ⟨k1, k2, k3⟩ := hs_row (h.bulk i) (hpos.bulk i)
    (z := 4/3 * min (G i) (hmG (K i) (G i) (φc i) (p i) (N i) (sr i))) (by positivity) ha hab hb
  obtain ⟨g1, g2, g3⟩ := hs_row (h.shear i) (hpos.shear i) (zShear_nonneg hm2.le hm1.le) ha hab hb
  exact ⟨k2, g2, k1, g1, k3, g3, rfl, rfl⟩

example := C138_friable (pack := Mat.ofReal _ _ _) (φ := fun _ => 0.1) (φ' := fun _ => 0.3) (φc := fun _ => 0.4)
  (p := fun _ => 0.02) (sr := fun _ => 0.5) (N := fun _ => 9) quartz_pos (fun _ => by norm_num) (fun _ => by norm_num)
  (fun _ => by norm_num) (fun _ => by norm_num) (fun _ => by norm_num) (fun _ => by norm_num) (fun _ => by norm_num)
  (fun _ => by norm_num) (hertzMindlin_fin quartz_pos.has quartz_pos.bulk quartz_pos.shear quartz_pos.density
    (fun _ => by norm_num) (fun _ => by norm_num) (fun _ => by norm_num) (fun _ => by norm_num)) (Mat.ofReal_has _ _ _)

/-- **C138 (constant cement).** Between porosity 0 and the porosity of the cemented pack: where that pack is softer than
the dense packing of cement and sand, a larger porosity never gives a larger bulk or shear modulus; where it is lighter,
never a larger density. -/
theorem C138_constant_cement {san cem dense cc : Mat n} {Kc Gc Rc Km Gm Rm Kd Gd Rd K G R φ φ' x g : Fin n → ℝ}
    {sr N : Col n} (hc : cem.Pos Kc Gc Rc) (hm : san.Pos Km Gm Rm)
    (hφ0 : ∀ i, 0 ≤ φ i) (hφ : ∀ i, φ i ≤ φ' i) (hφx : ∀ i, φ' i ≤ x i) (hx0 : ∀ i, 0 < x i) (hx : ∀ i, x i ≤ g i)
    (hg : ∀ i, g i ≤ 1) (hd : hsw cem san (finC g - finC x) "lower" = .ok dense) (hdH : dense.Has Kd Gd Rd)
    (hcc : contactCement cem san (finC x) (finC g) sr N = .ok cc) (hp : cc.Pos K G R) :
    ∃ r r' Kr Gr Rr Kr' Gr' Rr',
      constantCement san cem (finC φ) (finC x) (finC g) N sr = .ok r ∧
      constantCement san cem (finC φ') (finC x) (finC g) N sr = .ok r' ∧
      r.Has Kr Gr Rr ∧ r'.Has Kr' Gr' Rr' ∧
      ∀ i, (K i ≤ Kd i → Kr' i ≤ Kr i) ∧ (G i ≤ Gd i → Gr' i ≤ Gr i) ∧ (R i ≤ Rd i → Rr' i ≤ Rr i) := by
  have hf : (finC g - finC x : Col n) = finC fun i => g i - x i := by funext i; simp
  obtain ⟨d', Kd', Gd', Rd', hd', hdp, -⟩ := C08_between_constituents (bound := "lower") hc hm (.inl rfl)
    (f := fun i => g i - x i) (fun i => by linarith [hx i]) (fun i => by linarith [hx0 i, hg i])
  have hdd := hd
  rw [hf, hd'] at hdd
  injection hdd with hdd
  subst hdd
  obtain rfl : Kd = Kd' := finC_injective (hdH.1.symm.trans hdp.has.1)
  obtain rfl : Gd = Gd' := finC_injective (hdH.2.1.symm.trans hdp.has.2.1)
  obtain rfl : Rd = Rd' := finC_injective (hdH.2.2.symm.trans hdp.has.2.2)
  have e : ∀ y : Fin n → ℝ, (c 1 - finC y / finC x : Col n) = finC fun i => 1 - y i / x i := fun y => friable_fraction hx0
  obtain ⟨r', r, K', G', R', K1, G1, R1, h1, h2, h3, h4, h5⟩ := C14_monotone_in_ratio hdp hp (bound := "lower") (.inl rfl)
    (f := fun i => 1 - φ' i / x i) (f' := fun i => 1 - φ i / x i)
    (fun i => by have := div_le_one_of_le₀ (hφx i) (hx0 i).le; linarith) (fun i => fraction_anti (hφ i) (hx0 i))
    (fun i => by have := div_nonneg (hφ0 i) (hx0 i).le; linarith)
  refine ⟨r, r', K1, G1, R1, K', G', R', ?_, ?_, h4, h3, fun i => ⟨(h5 i).1, (h5 i).2.2.1, (h5 i).2.2.2.2.1⟩⟩
  · unfold constantCement
    rw [hd, bind_ok, hcc, bind_ok]; dsimp only; rw [e, h2]
  · unfold constantCement
    rw [hd, bind_ok, hcc, bind_ok]; dsimp only; rw [e, h1]

/-- Quartz cement on quartz grains. -/
example : ∃ dense cc : Mat 2, ∃ Kd Gd Rd K G R, hsw (Mat.ofReal (fun _ => 36.8) (fun _ => 44) (fun _ => 2650))
      (Mat.ofReal (fun _ => 36.8) (fun _ => 44) (fun _ => 2650)) (finC (fun _ => 0.4) - finC fun _ => 0.35) "lower" = .ok dense ∧
    dense.Has Kd Gd Rd ∧ contactCement (Mat.ofReal (fun _ => 36.8) (fun _ => 44) (fun _ => 2650))
      (Mat.ofReal (fun _ => 36.8) (fun _ => 44) (fun _ => 2650)) (finC fun _ => 0.35) (finC fun _ => 0.4) (finC fun _ => 0.5)
      (finC fun _ => 9) = .ok cc ∧ cc.Pos K G R := by
  obtain ⟨cc, K, G, R, hcc, hp⟩ := C74_contact_cement_defined quartz_pos quartz_pos exCementRange
    (x := fun _ => 0.35) (g := fun _ => 0.4) (sr := fun _ => 0.5) (N := fun _ => 9) (fun _ => by norm_num)
    (fun _ => by norm_num) (fun _ => by norm_num) (fun _ => by norm_num) (fun _ => by norm_num)
  have hf : (finC (fun _ => 0.4) - finC (fun _ => 0.35) : Col 2) = finC fun _ => 0.4 - 0.35 := by funext i; simp
  obtain ⟨d, Kd, Gd, Rd, hd, hdp, -⟩ := C08_between_constituents (bound := "lower") quartz_pos quartz_pos (.inl rfl)
    (f := fun _ => 0.4 - 0.35) (fun _ => by norm_num) (fun _ => by norm_num)
  rw [← hf] at hd
  exact ⟨d, cc, Kd, Gd, Rd, K, G, R, hd, hdp.has, hcc, hp⟩

/-! ### The saturated rock -/

/-- Gassmann's saturated modulus never rises with porosity nor falls with the dry modulus. -/
theorem satReal_mono {Kd Kd' Km Kf φ φ' : ℝ} (hf : 0 < Kf) (hf1 : Kf < Km) (hφ0 : 0 ≤ φ) (hφ : φ ≤ φ')
    (hK : Kd' ≤ Kd) (hK1 : Kd ≤ Km) : satReal Kd' Km Kf φ' ≤ satReal Kd Km Kf φ := by
  have hm : 0 < Km := hf.trans hf1
  have h2 : 0 < Km - Kf := by linarith
  have hα : 0 < Km * (Km - Kf) := by positivity
  unfold satReal
  apply sub_le_sub_left
  apply mul_le_mul_of_nonneg_left _ hm.le
  have hδ : 0 ≤ Km - Kd := by linarith
  have hδ' : Km - Kd ≤ Km - Kd' := by linarith
  rcases (show 0 ≤ Km * (Km - Kf) * φ + Kf * (Km - Kd) by positivity).eq_or_lt with h | h
  · rw [← h, div_zero]
    have := hφ0.trans hφ
    have := hδ.trans hδ'
    positivity
  · have h' : 0 < Km * (Km - Kf) * φ' + Kf * (Km - Kd') := by
      refine lt_of_lt_of_le h (add_le_add (mul_le_mul_of_nonneg_left hφ hα.le) (mul_le_mul_of_nonneg_left hδ' hf.le))
    rw [div_le_div_iff₀ h h']
    have a1 : 0 ≤ φ * φ' * (Km * (Km - Kf)) * (Km - Kd' - (Km - Kd)) := by
      have := hφ0.trans hφ
      have : 0 ≤ Km - Kd' - (Km - Kd) := by linarith
      positivity
    have a2 : 0 ≤ (Km - Kd) * (Km - Kd') * Kf * (φ' - φ) := by
      have := hδ.trans hδ'
      have : 0 ≤ φ' - φ := by linarith
      positivity
    have := mul_nonneg h2.le (add_nonneg a1 a2)
    nlinarith

/-- **C138 (fluid substitution).** Of two rocks with the same mineral and fluid, the one with no smaller porosity and no
stiffer frame is, saturated, no stiffer. -/
theorem C138_fluid_substitution {dry dry' mineral fluid m m' : Mat n} {φ φ' : Col n} {i : Fin n}
    {Kd Kd' Km Kf x x' : ℝ} (h : fluidSubstitution dry mineral fluid φ = .ok m)
    (h' : fluidSubstitution dry' mineral fluid φ' = .ok m')
    (e1 : mineral.bulk i = .fin Km) (e2 : fluid.bulk i = .fin Kf) (e3 : φ i = .fin x) (e3' : φ' i = .fin x')
    (e4 : dry.bulk i = .fin Kd) (e4' : dry'.bulk i = .fin Kd') (hx : 0 ≤ x) (hxx : x ≤ x') (hk : 0 ≤ Kd')
    (hkk : Kd' ≤ Kd) (hk1 : Kd ≤ Km) (hf : 0 < Kf) (hf1 : Kf < Km) : m'.bulk i ≤ m.bulk i := by
  have key : ∀ {d s : Mat n} {ψ : Col n} {kd y : ℝ}, fluidSubstitution d mineral fluid ψ = .ok s → ψ i = .fin y →
      d.bulk i = .fin kd → 0 ≤ y → 0 ≤ kd → kd ≤ Km → s.bulk i = .fin (satReal kd Km Kf y) := by
    intro d s ψ kd y h e3 e4 hy h0 h1
    unfold fluidSubstitution at h
    obtain ⟨k, hk', h⟩ := bind_eq_ok.mp h
    have := vec_ok_iff.mp hk' i
    rw [e1, e2, e3, e4, gassmann_satReal hy h0 h1 hf hf1] at this
    injection this with this
    obtain ⟨h1, -⟩ := C03_given_arguments_kept _ _ _ _ _ s h
    rw [h1 _ rfl, ← this]
  rw [key h e3 e4 hx (hk.trans hkk) hk1, key h' e3' e4' (hx.trans hxx) hk (hkk.trans hk1), Num.fin_le]
  exact satReal_mono hf hf1 hx hxx hkk hk1

/-- What the sections of a configuration amount to: the mineral, the effective pressure and the pore fluid the
calculation uses. -/
structure Amounts (co2 : CO2Model n) (s : Sections n) (mineral : Mat n) (p : Col n) (fluid : Mat n) : Prop where
  mineral : ∀ ms, mkMinerals s.minerals = .ok ms → mineralMixture ms = .ok mineral
  pressure : ∀ pr, mkPressure s.overburden s.reference s.fluidPressure s.maxEffective s.rockPressure = .ok pr →
    pr.truncatedRock = .ok p
  fluid : ∀ fl pr, mkFluids s.temperature s.fluids s.mixMethod s.brieConstant s.brieGases s.fluidModel = .ok fl →
    mkPressure s.overburden s.reference s.fluidPressure s.maxEffective s.rockPressure = .ok pr →
    ∃ pr', mixFluids co2 fl pr = .ok (fluid, pr')

theorem calculate_friable {co2 : CO2Model n} {s : Sections n} {r : Result n} {mineral fluid : Mat n} {p : Col n}
    {f : FriableModel n} (ha : Amounts co2 s mineral p fluid) (hsand : s.sandModel = .friable f)
    (hadj : s.adjustments = []) (h : calculate co2 s = .ok r) :
    ∃ dry sat, friableSand mineral s.porosity f.criticalPorosity p f.coordinationNumber f.shearReduction = .ok dry ∧
      fluidSubstitution dry mineral fluid s.porosity = .ok sat ∧
      r = ⟨sat.bulk, mineral.bulk, dry.bulk, sat.shear, sat.density, mineral.bulk⟩ := by
  unfold calculate mkInput at h
  obtain ⟨inp, hi, h⟩ := bind_eq_ok.mp h
  obtain ⟨ms, h1, hi⟩ := bind_eq_ok.mp hi
  obtain ⟨fl, h2, hi⟩ := bind_eq_ok.mp hi
  obtain ⟨d, h3, hi⟩ := bind_eq_ok.mp hi
  obtain ⟨pr, h4, hi⟩ := bind_eq_ok.mp hi
  injection hi with hi
  subst hi
  have hd : d = ⟨.friable f, s.porosity, []⟩ := by
    rw [hsand, hadj] at h3
    unfold mkDryRock at h3
    obtain ⟨_, _, h3⟩ := bind_eq_ok.mp h3
    injection h3 with h3
    exact h3.symm
  subst hd
  unfold calculateResults at h
  rw [ha.mineral ms h1, bind_ok] at h
  obtain ⟨pr', h6⟩ := ha.fluid fl pr h2 h4
  rw [h6, bind_ok] at h
  dsimp only at h
  obtain ⟨x, rfl⟩ := mixFluids_pressure h6
  rw [material_fluid] at h
  unfold DryRock.material at h
  rw [ha.pressure pr h4, bind_ok] at h
  dsimp only [adjustAll, SandModel.evalMaterial, SandModel.nonporous, FriableModel.evalMaterial] at h
  obtain ⟨dry, h7, h⟩ := bind_eq_ok.mp h
  obtain ⟨dry', h7', h7''⟩ := bind_eq_ok.mp h7
  injection h7'' with h7''
  subst h7''
  rw [bind_ok] at h
  obtain ⟨sat, h9, h⟩ := bind_eq_ok.mp h
  injection h with hr
  exact ⟨dry', sat, h7', h9, hr.symm⟩

/-- **C138 (whole calculation).** Two friable-sand configurations that differ in porosity only, with the grain pack
softer than the mineral and a fluid softer and lighter than the mineral: in every row, the more porous rock has no larger
dry and saturated bulk modulus, shear modulus or density. -/
theorem C138_calculation {co2 : CO2Model n} {s s' : Sections n} {r r' : Result n} {mineral fluid pack : Mat n}
    {K G R Kp Gp Rp Kf Gf ρf φ φ' φc p sr N : Fin n → ℝ} (hs' : s' = { s with porosity := finC φ' })
    (hpor : s.porosity = finC φ) (hsand : s.sandModel = .friable ⟨finC φc, finC sr, finC N⟩) (hadj : s.adjustments = [])
    (ha : Amounts co2 s mineral (finC p) fluid) (hM : mineral.Pos K G R) (hF : fluid.Has Kf Gf ρf)
    (hφ0 : ∀ i, 0 ≤ φ i) (hφ : ∀ i, φ i ≤ φ' i) (hφc : ∀ i, φ' i ≤ φc i) (hc0 : ∀ i, 0 < φc i) (hc1 : ∀ i, φc i < 1)
    (hp : ∀ i, 0 < p i) (hsr : ∀ i, 0 ≤ sr i) (hN : ∀ i, 0 < N i)
    (hpack : hertzMindlin mineral (finC φc) (finC p) (finC sr) (finC N) = .ok pack) (hP : pack.Has Kp Gp Rp)
    (hKp : ∀ i, Kp i ≤ K i) (hGp : ∀ i, Gp i ≤ G i) (hKf : ∀ i, 0 < Kf i) (hKf1 : ∀ i, Kf i < K i)
    (hρf : ∀ i, ρf i ≤ R i) (h : calculate co2 s = .ok r) (h' : calculate co2 s' = .ok r') :
    r'.kmin = r.kmin ∧ ∀ i, r'.kdry i ≤ r.kdry i ∧ r'.ksat i ≤ r.ksat i ∧ r'.mysat i ≤ r.mysat i ∧
      r'.rsat i ≤ r.rsat i := by
  subst hs'
  have ha' : Amounts co2 { s with porosity := finC φ' } mineral (finC p) fluid := ⟨ha.mineral, ha.pressure, ha.fluid⟩
  obtain ⟨dry, sat, a1, a2, rfl⟩ := calculate_friable ha hsand hadj h
  obtain ⟨dry', sat', b1, b2, rfl⟩ := calculate_friable ha' hsand hadj h'
  dsimp only at a1 a2 b1 b2 ⊢
  rw [hpor] at a1 a2
  obtain ⟨q, q', K1, G1, R1, K2, G2, R2, c1, c2, c3, c4, c5⟩ := C138_friable hM hφ0 hφ hφc hc0 hc1 hp hsr hN hpack hP
  rw [a1] at c1
  injection c1 with c1
  subst c1
  rw [b1] at c2
  injection c2 with c2
  subst c2
  obtain ⟨s1, s2, -⟩ := C23_shear_and_density _ _ _ _ _ a2
  obtain ⟨t1, t2, -⟩ := C23_shear_and_density _ _ _ _ _ b2
  refine ⟨rfl, fun i => ?_⟩
  obtain ⟨p1, p2, p3, p4, p5, p6, p7, p8⟩ := c5 i
  obtain ⟨k1, k2⟩ := p5 (hKp i)
  obtain ⟨g1, g2⟩ := p6 (hGp i)
  refine ⟨?_, ?_, ?_, ?_⟩
  · rw [c3.1, c4.1]; exact Num.fin_le.mpr k1
  · exact C138_fluid_substitution a2 b2 (congrFun hM.has.1 i) (congrFun hF.1 i) rfl rfl (congrFun c3.1 i)
      (congrFun c4.1 i) (hφ0 i) (hφ i) p3.le k1 k2 (hKf i) (hKf1 i)
  · rw [s1, t1, c3.2.1, c4.2.1]; exact Num.fin_le.mpr g1
  · rw [s2, t2, c3.2.2, c4.2.2, hF.2.2]
    simp only [Pi.add_apply, Pi.mul_apply, finC_apply, Num.fin_mul, Num.fin_add, Num.fin_le]
    rw [p7, p8]
    nlinarith [mul_nonneg (sub_nonneg.mpr (hφ i)) (sub_nonneg.mpr (hρf i))]

/-- What quartz sand with brine amounts to. -/
theorem exSections_amounts (co2 : CO2Model n) (por : Fin n → ℝ) :
    ∃ fluid Kf ρf, fluid.Has Kf (fun _ => 0) ρf ∧ (∀ i, Kf i = 2.8 ∧ ρf i = 1030) ∧
      Amounts co2 (exSections por) (exQuartz n).mat (finC fun _ => 0.04 - 0.02) fluid := by
  have hF : ([exWater n] : List (FluidIn n)) ≠ [] := by simp
  have hs : ∀ x ∈ [exWater n], ∀ i, 0 ≤ x.s i := by intro x hx i; rw [List.mem_singleton.mp hx]; norm_num [exWater]
  have hK : ∀ x ∈ [exWater n], ∀ i, 0 < x.K i := by intro x hx i; rw [List.mem_singleton.mp hx]; norm_num [exWater]
  have hρ : ∀ x ∈ [exWater n], ∀ i, 0 < x.ρ i := by intro x hx i; rw [List.mem_singleton.mp hx]; norm_num [exWater]
  obtain ⟨fluid, Kf, ρf, hw, hfHas, hfr⟩ := C17_wood_is_reuss hF hK hρ hs (fun i => by norm_num [exWater])
  obtain ⟨fl, hflok, hm, hcs⟩ := mkFluids_given hF hs (fun i => by norm_num [exWater]) (c 80) .wood (.fin 3) none .default
  refine ⟨fluid, Kf, ρf, hfHas, fun i => ⟨?_, ?_⟩, ?_, ?_, ?_⟩
  · have := (hfr i).2.2.1 2.8 2.8 (by intro u hu; rw [List.mem_singleton.mp hu]; norm_num [exWater])
    linarith
  · have := (hfr i).2.2.2 1030 1030 (by intro u hu; rw [List.mem_singleton.mp hu]; norm_num [exWater])
    linarith
  · intro ms h
    have : mkMinerals (exSections por).minerals = .ok ([exQuartz n].map fun x => (x.mat, finC x.f)) :=
      mkMinerals_given (L := [exQuartz n]) (by simp) (fun i => by norm_num [exQuartz])
    rw [this] at h
    injection h with h
    subst h
    rfl
  · intro pr h
    injection h with h
    subst h
    unfold Pressure.truncatedRock Pressure.effectiveRock
    simp only [exSections, needCol, bind_ok, truncate]
    congr 1
  · intro fl' pr h h2
    rw [show mkFluids (exSections por).temperature (exSections por).fluids (exSections por).mixMethod
      (exSections por).brieConstant (exSections por).brieGases (exSections por).fluidModel = .ok fl from hflok] at h
    injection h with h
    subst h
    injection h2 with h2
    subst h2
    refine ⟨⟨finC fun _ => 0.04, finC fun _ => 0.03, some (finC fun _ => 0.02), none, some (finC fun _ => 0.02)⟩, ?_⟩
    unfold mixFluids
    simp only [exSections, needCol, bind_ok]
    rw [C39_explicit_materials co2 fl _ ([exWater n].map (·.mat)) (by rw [hcs]; simp)]
    have : fl.mix ([exWater n].map (·.mat)) = .ok fluid := by
      unfold Fluids.mix
      rw [hm, hcs]
      simp only [List.map_map, Function.comp_def]
      exact hw
    rw [this]

/-- Porosities 0.1 and 0.3 of quartz sand with brine. -/
example (co2 : CO2Model 1) : ∃ r r', calculate co2 (exSections fun _ : Fin 1 => 0.1) = .ok r ∧
    calculate co2 (exSections fun _ : Fin 1 => 0.3) = .ok r' ∧ r'.ksat 0 ≤ r.ksat 0 := by
  obtain ⟨r, _, _, _, _, _, h, -⟩ := exSections_ok co2 (fun _ : Fin 1 => 0.1) (fun _ => by norm_num) (fun _ => by norm_num)
  obtain ⟨r', _, _, _, _, _, h', -⟩ := exSections_ok co2 (fun _ : Fin 1 => 0.3) (fun _ => by norm_num) (fun _ => by norm_num)
  obtain ⟨fluid, Kf, ρf, hF, hv, ha⟩ := exSections_amounts co2 (fun _ : Fin 1 => 0.1)
  have hpack := hertzMindlin_fin (p := fun _ => 0.04 - 0.02) (φ := fun _ => 0.4) (N := fun _ => 9)
      (sr := fun _ => 0.5)
      (exQuartz 1).has (exQuartz 1).bulk (exQuartz 1).shear (exQuartz 1).density (fun _ => by norm_num)
      (fun _ => by norm_num) (fun _ => by norm_num) (fun _ => by norm_num)
  have hpi := Real.pi_gt_three
  have hpi4 := Real.pi_le_four
  have hnu : nuR 36.8 44 = 28 / 386 := by unfold nuR; norm_num
  have hA : hmA 36.8 44 0.4 (0.04 - 0.02) 9 ≤ 1 := by
    unfold hmA
    rw [hnu]
    apply Real.rpow_le_one
    · apply div_nonneg
      · nlinarith
      · norm_num
    · rw [div_le_one (by norm_num)]
      nlinarith
    · norm_num
  refine ⟨r, r', h, h', ((C138_calculation (φ := fun _ => 0.1) (φ' := fun _ => 0.3) (φc := fun _ => 0.4) rfl rfl rfl rfl ha
    ⟨(exQuartz 1).has, (exQuartz 1).bulk, (exQuartz 1).shear, (exQuartz 1).density⟩ hF (fun _ => by norm_num)
    (fun _ => by norm_num) (fun _ => by norm_num) (fun _ => by norm_num) (fun _ => by norm_num) (fun _ => by norm_num)
    (fun _ => by norm_num) (fun _ => by norm_num) hpack (Mat.ofReal_has _ _ _) (fun _ => ?_) (fun _ => ?_)
    (fun i => by rw [(hv i).1]; norm_num) (fun i => by rw [(hv i).1]; norm_num [exQuartz])
    (fun i => by rw [(hv i).2]; norm_num [exQuartz]) h h').2 0).2.1⟩
  · change hmK 36.8 44 0.4 (0.04 - 0.02) 9 ≤ 36.8
    unfold hmK
    rw [hnu]
    generalize hmA 36.8 44 0.4 (0.04 - 0.02) 9 = A at hA
    rw [div_mul_eq_mul_div, div_le_iff₀ (by positivity)]
    norm_num
    nlinarith
  · change hmG 36.8 44 0.4 (0.04 - 0.02) 9 0.5 ≤ 44
    unfold hmG
    rw [hnu]
    generalize hmA 36.8 44 0.4 (0.04 - 0.02) 9 = A at hA
    rw [div_mul_eq_mul_div, div_le_iff₀ (by positivity)]
    norm_num
    nlinarith

end OPE
