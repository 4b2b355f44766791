import Verif.Props.Published4
import Verif.Props.Stiffer
import Verif.Props.Shapes

/-!
# The formulas of docs/adjusting_with_depth_and_pressure.md (C131–C133)

The documentation states formulas which the code does not implement; this file says exactly where they
agree.
-/

namespace OPE

open Classical

variable {n : ℕ}

/-! ### C131: the documented depth polynomial -/

/-- docs/adjusting_with_depth_and_pressure.md:55-60 and depth_trend.py:19-28: the documented adjustment,
`sum_ij c[i][j] * delta_depth^i * original^j`. -/
noncomputable def documentedDepthPoly (a : Coeffs) (δ x : ℝ) : ℝ :=
  ∑ i, ∑ j, a.val i j * δ ^ (i : ℕ) * x ^ (j : ℕ)

/-- docs:51: `delta_depth = min(depth - reference_depth, max_depth)`. -/
noncomputable def documentedDelta (d : ℝ) (rf mx : Option ℝ) : ℝ :=
  let x := d - rf.getD 0
  mx.elim x (min x)

/-- The matrix with rows and columns exchanged. -/
def Coeffs.transpose (a : Coeffs) : Coeffs := ⟨a.cols, a.rows, fun i j => a.val j i⟩

/-- Exchanging the coefficients' rows and columns exchanges the roles of depth and property. -/
theorem documentedDepthPoly_transpose (a : Coeffs) (δ x : ℝ) :
    ∑ i, ∑ j, a.transpose.val i j * x ^ (i : ℕ) * δ ^ (j : ℕ) = documentedDepthPoly a δ x := by
  unfold documentedDepthPoly Coeffs.transpose
  rw [Finset.sum_comm]
  refine Finset.sum_congr rfl fun i _ => Finset.sum_congr rfl fun j _ => ?_
  show a.val i j * _ * _ = _
  ring

/-- The effective depth is the documented one when it does not exceed the maximum. -/
theorem effectiveDepth_documented (t : DepthTrend n) {d : Fin n → ℝ} {mx rf : Option (Fin n → ℝ)}
    (hd : t.depth = finC d) (hrf : t.referenceDepth = rf.map finC)
    (hle : ∀ m, mx = some m → ∀ i, d i - (rf.map (· i)).getD 0 ≤ m i) :
    t.effectiveDepth = finC fun i => documentedDelta (d i) (rf.map (· i)) (mx.map (· i)) := by
  unfold DepthTrend.effectiveDepth
  rw [hd, hrf]
  funext i
  cases mx with
  | none => cases rf <;> simp [documentedDelta]
  | some m =>
    have := hle m rfl i
    cases rf <;> simp [documentedDelta] at this ⊢ <;> simp [this]

/-- **C131, proved part.** If no depth below the reference depth exceeds the maximum, a depth trend whose
coefficient matrices are the *transposes* of the documented ones adjusts density, bulk and shear modulus
by the documented polynomial (whenever that is physical).  Missing: the documented matrices themselves
(`C131_refuted`), and depths above the maximum (`C44_refuted`). -/
theorem C131_partial (t : DepthTrend n) (dc pc sc : Coeffs) {d : Fin n → ℝ} {mx rf : Option (Fin n → ℝ)}
    (hd : t.depth = finC d) (hrf : t.referenceDepth = rf.map finC) (hmx : t.maxDepth = mx.map finC)
    (hle : ∀ m, mx = some m → ∀ i, d i - (rf.map (· i)).getD 0 ≤ m i)
    (hu : t.useModuli = true) (hc : t.coefficients = ⟨dc.transpose, pc.transpose, sc.transpose⟩)
    {m : Mat n} {K G ρ : Fin n → ℝ} (hm : m.Has K G ρ) :
    let δ := fun i => documentedDelta (d i) (rf.map (· i)) (mx.map (· i))
    (∀ i, 0 < documentedDepthPoly dc (δ i) (ρ i)) → (∀ i, 0 ≤ documentedDepthPoly pc (δ i) (K i)) →
    (∀ i, 0 ≤ documentedDepthPoly sc (δ i) (G i)) →
    ∃ r, t.adjustMaterial m = .ok r ∧ r.density = finC (fun i => documentedDepthPoly dc (δ i) (ρ i)) ∧
      r.bulk = finC (fun i => documentedDepthPoly pc (δ i) (K i)) ∧
      r.shear = finC (fun i => documentedDepthPoly sc (δ i) (G i)) := by
  intro δ h1 h2 h3
  unfold DepthTrend.adjustMaterial
  rw [effectiveDepth_documented t hd hrf hle, hc, hu]
  have := C45_moduli_fit (v := δ) hm dc.transpose pc.transpose sc.transpose
  simp only [documentedDepthPoly_transpose] at this
  exact this h1 h2 h3

/-- The coefficients `[[0, a], [1, 0]]` of the documentation's example (docs:56-60). -/
def exampleCoeffs (a : ℝ) : Coeffs := ⟨1, 1, ![![0, a], ![1, 0]]⟩

theorem exampleCoeffs_code (a x δ : ℝ) :
    ∑ i, ∑ j, (exampleCoeffs a).val i j * x ^ (i : ℕ) * δ ^ (j : ℕ) = x + a * δ := by
  show ∑ i : Fin 2, ∑ j : Fin 2, (![![0, a], ![1, 0]] : Fin 2 → Fin 2 → ℝ) i j * x ^ (i : ℕ) * δ ^ (j : ℕ) = _
  simp [Fin.sum_univ_two]
  ring

theorem exampleCoeffs_documented (a δ x : ℝ) : documentedDepthPoly (exampleCoeffs a) δ x = δ + a * x := by
  show ∑ i : Fin 2, ∑ j : Fin 2, (![![0, a], ![1, 0]] : Fin 2 → Fin 2 → ℝ) i j * δ ^ (i : ℕ) * x ^ (j : ℕ) = _
  simp [Fin.sum_univ_two]
  ring

/-- **C131 is false of the code, for the documentation's own example:** with its coefficients, its
reference depth 0 and its maximum 4000, and any depth in `[0, 4000]`, the documented bulk modulus is
`depth + 1.5 K`, but the code gives `K + 1.5 depth`; the two differ whenever the modulus (in Pa) is not
the depth (in m).  The same for shear modulus and density. -/
theorem C131_refuted {d K G ρ : Fin n → ℝ} (hd0 : ∀ i, 0 ≤ d i) (hd1 : ∀ i, d i ≤ 4000)
    (hK : ∀ i, 4000 < K i) (hG : ∀ i, 4000 < G i) (hρ : ∀ i, 0 < ρ i) (hρd : ∀ i, ρ i ≠ d i)
    {m : Mat n} (hm : m.Has K G ρ) :
    ∃ r Kr Gr ρr, (DepthTrend.mk (finC d) (some (c 0)) (some (c 4000)) true
        ⟨exampleCoeffs 1.35, exampleCoeffs 1.5, exampleCoeffs 1.2⟩).adjustMaterial m = .ok r ∧
      r.Has Kr Gr ρr ∧ ∀ i, documentedDelta (d i) (some 0) (some 4000) = d i ∧
        Kr i = K i + 1.5 * d i ∧ Kr i ≠ documentedDepthPoly (exampleCoeffs 1.5) (d i) (K i) ∧
        Gr i = G i + 1.2 * d i ∧ Gr i ≠ documentedDepthPoly (exampleCoeffs 1.2) (d i) (G i) ∧
        ρr i = ρ i + 1.35 * d i ∧ ρr i ≠ documentedDepthPoly (exampleCoeffs 1.35) (d i) (ρ i) := by
  have he : (DepthTrend.mk (finC d) (some (c 0)) (some (c 4000)) true
      ⟨exampleCoeffs 1.35, exampleCoeffs 1.5, exampleCoeffs 1.2⟩).effectiveDepth = finC d := by
    funext i; simp [DepthTrend.effectiveDepth]
  obtain ⟨r, hr, e1, e2, e3⟩ := C45_moduli_fit (v := d) hm (exampleCoeffs 1.35) (exampleCoeffs 1.5)
    (exampleCoeffs 1.2)
    (fun i => by rw [exampleCoeffs_code]; linarith [hρ i, hd0 i])
    (fun i => by rw [exampleCoeffs_code]; linarith [hK i, hd0 i])
    (fun i => by rw [exampleCoeffs_code]; linarith [hG i, hd0 i])
  simp only [exampleCoeffs_code] at e1 e2 e3
  refine ⟨r, _, _, _, ?_, ⟨e2, e3, e1⟩, fun i => ?_⟩
  · unfold DepthTrend.adjustMaterial; rw [he]; exact hr
  · simp only [exampleCoeffs_documented]
    refine ⟨by simp [documentedDelta, hd1 i], trivial, ?_, trivial, ?_, trivial, ?_⟩
    · intro h; have := hK i; have := hd1 i; linarith
    · intro h; have := hG i; have := hd1 i; linarith
    · intro h; apply hρd i; linarith

-- the hypotheses are met: depth 2000 m, quartz in Pa
example := C131_refuted (n := 2) (d := fun _ => 2000) (K := fun _ => 36e9) (G := fun _ => 44e9)
  (ρ := fun _ => 2650) (fun _ => by norm_num) (fun _ => by norm_num) (fun _ => by norm_num)
  (fun _ => by norm_num) (fun _ => by norm_num) (fun _ => by norm_num) (Mat.ofReal_has _ _ _)

-- the hypotheses of the proved part are met by the same rows with the transposed matrices
example := C131_partial (n := 2) ⟨finC fun _ => 2000, some (finC fun _ => 0), some (finC fun _ => 4000), true,
    ⟨(exampleCoeffs 1.35).transpose, (exampleCoeffs 1.5).transpose, (exampleCoeffs 1.2).transpose⟩⟩
  (exampleCoeffs 1.35) (exampleCoeffs 1.5) (exampleCoeffs 1.2) (d := fun _ => 2000)
  (mx := some fun _ => 4000) (rf := some fun _ => 0) rfl rfl rfl
  (by rintro m ⟨⟩ i; norm_num) rfl rfl
  (Mat.ofReal_has (fun _ => 36e9) (fun _ => 44e9) (fun _ => 2650))
  (fun _ => by rw [exampleCoeffs_documented]; norm_num [documentedDelta])
  (fun _ => by rw [exampleCoeffs_documented]; norm_num [documentedDelta])
  (fun _ => by rw [exampleCoeffs_documented]; norm_num [documentedDelta])

/-! ### C132: the dry rock is computed at the reference pressure -/

theorem hsReal_strict_b {a b b' z f : ℝ} (hA : 0 < a + z) (hB : 0 < b + z) (h0 : 0 ≤ f) (h1 : f < 1)
    (hbb : b < b') : hsReal a b z f < hsReal a b' z f := by
  have hD := hsReal_D hA hB h0 h1.le
  have hD' := hsReal_D hA (hB.trans (by linarith : b + z < b' + z)) h0 h1.le
  unfold hsReal
  apply sub_lt_sub_right
  rw [div_lt_div_iff₀ hD hD']
  nlinarith [mul_pos (mul_pos (mul_pos (sub_pos.mpr h1) hA) hA) (sub_pos.mpr hbb)]

/-- Raising the pressure strictly stiffens a friable sand with pores. -/
theorem frK_strict {K G φ φc p q N sr : ℝ} (hK : 0 < K) (hG : 0 < G) (hφ0 : 0 < φ) (hφ : φ ≤ φc) (hc1 : φc < 1)
    (hp : 0 < p) (hpq : p < q) (hs : 0 ≤ sr) (hN : 0 < N) :
    frK K G φ φc p N sr < frK K G φ φc q N sr := by
  have hc0 : 0 < φc := hφ0.trans_le hφ
  have hq := hp.trans hpq
  have f0 : 0 ≤ 1 - φ / φc := by have := div_le_one_of_le₀ hφ hc0.le; linarith
  have f1 : 1 - φ / φc < 1 := by have := div_pos hφ0 hc0; linarith
  have hpow : p ^ ((1:ℝ)/3) < q ^ ((1:ℝ)/3) := Real.rpow_lt_rpow hp.le hpq (by norm_num)
  obtain ⟨e, pos⟩ := hmK_factor hK hG hc1 hN hp.le
  obtain ⟨e', -⟩ := hmK_factor hK hG hc1 hN hq.le
  obtain ⟨d, dpos⟩ := hmG_factor hK hG hc1 hN hp.le hs
  obtain ⟨d', -⟩ := hmG_factor hK hG hc1 hN hq.le hs
  have hk : hmK K G φc p N < hmK K G φc q N := by rw [e, e']; exact mul_lt_mul_of_pos_left hpow pos
  have hg : hmG K G φc p N sr ≤ hmG K G φc q N sr := by
    rw [d, d']; exact mul_le_mul_of_nonneg_left hpow.le dpos.le
  have k0 : 0 < hmK K G φc p N := by rw [e]; exact mul_pos pos (Real.rpow_pos_of_pos hp _)
  have g0 : 0 < hmG K G φc p N sr := by rw [d]; exact mul_pos dpos (Real.rpow_pos_of_pos hp _)
  have z0 : 0 < min G (hmG K G φc p N sr) := lt_min hG g0
  unfold frK
  exact (hsReal_strict_b (by linarith) (by linarith) f0 f1 hk).trans_le
    (hsReal_mono_z (by linarith) (by linarith) f0 f1.le
      (mul_le_mul_of_nonneg_left (min_le_min le_rfl hg) (by norm_num)))

section reference
variable {mineral : Mat n} {K G R φ φc sr N ob rf rk : Fin n → ℝ} {mx : Option (Fin n → ℝ)} {pr : Pressure n}

/-- Before its adjustments, a dry rock does not depend on the reference pressure at all. -/
theorem C132_reference_unused (model : SandModel n) (porosity : Col n) (mineral : Mat n) (pr : Pressure n)
    (reference : Col n) :
    (DryRock.mk model porosity []).material mineral { pr with reference := reference }
      = (DryRock.mk model porosity []).material mineral pr := rfl

/-- A friable dry rock with a friable pressure dependency of the same parameters: the code computes
`K(rock)² / K(reference)`, where `K(rock)`, `K(reference)` are the friable sand's moduli at the effective rock
and reference pressure. -/
theorem C132_friable_twice (h : mineral.Pos K G R) (hφ0 : ∀ i, 0 ≤ φ i) (hφ : ∀ i, φ i ≤ φc i)
    (hc0 : ∀ i, 0 < φc i) (hc1 : ∀ i, φc i < 1) (hs : ∀ i, 0 ≤ sr i) (hN : ∀ i, 0 < N i)
    (hpr : pr.Is ob rf rk mx) (hx : ∀ i, 0 < effectiveAt mx ob rf i) (hy : ∀ i, 0 < effectiveAt mx ob rk i)
    {ref eff : Mat n} {K0 G0 R0 K1 G1 R1 : Fin n → ℝ}
    (href : friableSand mineral (finC φ) (finC φc) (finC (effectiveAt mx ob rf)) (finC N) (finC sr) = .ok ref)
    (heff : friableSand mineral (finC φ) (finC φc) (finC (effectiveAt mx ob rk)) (finC N) (finC sr) = .ok eff)
    (hr : ref.Has K0 G0 R0) (he : eff.Has K1 G1 R1)
    (hbig : ∀ i, 1e-20 < K0 i ∧ 1e-20 < G0 i ∧ 1e-20 < R0 i) :
    (DryRock.mk (.friable ⟨finC φc, finC sr, finC N⟩) (finC φ)
        [.pressureDependency (.friable ⟨finC φc, finC sr, finC N⟩)]).material mineral pr
      = .ok (Mat.ofReal (fun i => K1 i * (K1 i / K0 i)) (fun i => G1 i * (G1 i / G0 i)) R1) := by
  have f0 := friableSand_fin h hφ0 hφ hc0 hc1 hx hs hN
  have f1 := friableSand_fin h hφ0 hφ hc0 hc1 hy hs hN
  have e0 := href.symm.trans f0
  have e1 := heff.symm.trans f1
  injection e0 with e0; injection e1 with e1
  subst e0; subst e1
  have z : (0:ℝ) < 1e-20 := by norm_num
  have k0 := finC_injective hr.1
  have g0 := finC_injective hr.2.1
  have r0 := finC_injective hr.2.2
  have k1 := finC_injective he.1
  have g1 := finC_injective he.2.1
  have r1 := finC_injective he.2.2
  have r01 : R0 = R1 := r0.symm.trans r1
  have pos1 : ∀ i, 0 ≤ K1 i ∧ 0 ≤ G1 i := by
    intro i
    obtain ⟨fr, pack, Kf, Gf, Kp, Gp, Rp, h1, h2', h2, h3, h4⟩ := C27_density_and_range h hφ0 hφ hc0 hc1 hy hs hN
    have e := f1.symm.trans h1
    injection e with e; subst e
    have a := finC_injective h2.1
    have b := finC_injective h2.2.1
    have hp := hertzMindlin_fin h.has h.bulk h.shear h.density hc1 (fun i => (hy i).le) hs hN
    have e2 := hp.symm.trans h2'
    injection e2 with e2; subst e2
    have a' := finC_injective h3.1
    have b' := finC_injective h3.2.1
    have hpos := hertzMindlin_pos h hc1 hy hs hN
    have p1 := hpos.bulk i
    have p2 := hpos.shear i
    obtain ⟨q1, q2, -⟩ := h4 i
    rw [← a', ← a, k1] at q1
    rw [← b', ← b, g1] at q2
    constructor
    · exact (le_min (h.bulk i).le p1.le).trans q1.1
    · exact (le_min (h.shear i).le p2.le).trans q2.1
  have gf : GoodFit (n := n) ⟨finC R0, finC K0, finC G0⟩ R0 K0 G0 :=
    ⟨rfl, rfl, rfl, fun i => by
      obtain ⟨a, b, d⟩ := hbig i
      exact ⟨by rw [abs_of_pos (by linarith)]; exact d, by rw [abs_of_pos (by linarith)]; exact a,
        by rw [abs_of_pos (by linarith)]; exact b⟩⟩
  unfold DryRock.material
  rw [hpr.truncatedRock, bind_ok]
  show ((friableSand _ _ _ _ _ _) >>= _) = _
  rw [heff, bind_ok]
  simp only [adjustAll, Adjustment.adjust, OPE.pressureDependency, hpr.truncatedRock, bind_ok,
    hpr.truncatedReference, PDModel.pressureDependency, ratioDependency]
  simp only [PDModel.eval, FriableModel.evalMaterial, href, heff, bind_ok, hr.1, hr.2.1, hr.2.2, he.1, he.2.1,
    he.2.2, failIf_false gf.check]
  simp only [PDModel.useModuli, if_true]
  rw [finC_ratio (fun i => (gf.nonzero i).2.1), finC_ratio (fun i => (gf.nonzero i).2.2), ← r01,
    finC_ratio_self (fun i => (gf.nonzero i).1),
    mkModuli_ofReal (fun i => mul_nonneg (pos1 i).1 (div_nonneg (pos1 i).1 (z.trans (hbig i).1).le))
    (fun i => mul_nonneg (pos1 i).2 (div_nonneg (pos1 i).2 (z.trans (hbig i).2.1).le))
    (fun i => z.trans (hbig i).2.2)]
  rfl

/-- **C132 is false of the code:** the documentation says that the dry rock is computed at the effective
*reference* pressure and then adjusted by the ratio of the pressure model at the effective rock pressure and
at the effective reference pressure, so that a friable dry rock with a friable pressure dependency (same
parameters) is the friable sand at the effective rock pressure.  The code computes the dry rock at the *rock*
pressure before it applies the ratio, so the pressure effect is applied twice: wherever there are pores and
the effective rock pressure exceeds the effective reference pressure, the result is strictly stiffer than the
friable sand at the rock pressure. -/
theorem C132_refuted (h : mineral.Pos K G R) (hφ0 : ∀ i, 0 < φ i) (hφ : ∀ i, φ i ≤ φc i)
    (hc1 : ∀ i, φc i < 1) (hs : ∀ i, 0 ≤ sr i) (hN : ∀ i, 0 < N i)
    (hpr : pr.Is ob rf rk mx) (hx : ∀ i, 0 < effectiveAt mx ob rf i)
    (hxy : ∀ i, effectiveAt mx ob rf i < effectiveAt mx ob rk i)
    {ref : Mat n} {K0 G0 R0 : Fin n → ℝ}
    (href : friableSand mineral (finC φ) (finC φc) (finC (effectiveAt mx ob rf)) (finC N) (finC sr) = .ok ref)
    (hr : ref.Has K0 G0 R0) (hbig : ∀ i, 1e-20 < K0 i ∧ 1e-20 < G0 i ∧ 1e-20 < R0 i) :
    ∃ result eff Kr Gr Rr K1 G1 R1,
      (DryRock.mk (.friable ⟨finC φc, finC sr, finC N⟩) (finC φ)
        [.pressureDependency (.friable ⟨finC φc, finC sr, finC N⟩)]).material mineral pr = .ok result ∧
      friableSand mineral (finC φ) (finC φc) (finC (effectiveAt mx ob rk)) (finC N) (finC sr) = .ok eff ∧
      result.Has Kr Gr Rr ∧ eff.Has K1 G1 R1 ∧ ∀ i, K1 i < Kr i := by
  have hc0 : ∀ i, 0 < φc i := fun i => (hφ0 i).trans_le (hφ i)
  have hy : ∀ i, 0 < effectiveAt mx ob rk i := fun i => (hx i).trans (hxy i)
  have f0 := friableSand_fin h (fun i => (hφ0 i).le) hφ hc0 hc1 hx hs hN
  have f1 := friableSand_fin h (fun i => (hφ0 i).le) hφ hc0 hc1 hy hs hN
  have e0 := href.symm.trans f0
  injection e0 with e0
  have k0 : K0 = _ := finC_injective (hr.1.symm.trans (congrArg Mat.bulk e0))
  refine ⟨_, _, _, _, _, _, _, _, C132_friable_twice h (fun i => (hφ0 i).le) hφ hc0 hc1 hs hN hpr hx hy href f1
    hr (Mat.ofReal_has _ _ _) hbig, f1, Mat.ofReal_has _ _ _, Mat.ofReal_has _ _ _, fun i => ?_⟩
  have lt := frK_strict (h.bulk i) (h.shear i) (hφ0 i) (hφ i) (hc1 i) (hx i) (hxy i) (hs i) (hN i)
  have p0 : 0 < K0 i := lt_trans (by norm_num) (hbig i).1
  rw [show frK (K i) (G i) (φ i) (φc i) (effectiveAt mx ob rf i) (N i) (sr i) = K0 i from by rw [k0]] at lt
  exact lt_mul_of_one_lt_right (p0.trans lt) ((one_lt_div p0).mpr lt)

/-- **C132, proved part.** When the rock pressure is the reference pressure, the dry rock is computed at
the effective reference pressure, for every model and every list of adjustments.  (Missing: any other rock
pressure, see `C132_refuted` and `C132_friable_twice`.) -/
theorem C132_partial (d : DryRock n) (mineral : Mat n) (hpr : pr.Is ob rf rf mx) :
    d.material mineral pr = (do
      let m ← d.model.evalMaterial (finC fun i => effectiveAt mx ob rf i) d.porosity mineral
      adjustAll pr d.porosity mineral d.adjustments m) := by
  unfold DryRock.material
  rw [hpr.truncatedRock, bind_ok]

end reference

/-- The hypotheses are met: quartz, porosity 0.2, critical porosity 0.4, effective pressures 10 and 20. -/
theorem exFriableTwice : ∃ (result eff : Mat 2) (Kr Gr Rr K1 G1 R1 : Fin 2 → ℝ),
    (DryRock.mk (.friable ⟨finC fun _ => 0.4, finC fun _ => 1, finC fun _ => 9⟩) (finC fun _ => 0.2)
      [.pressureDependency (.friable ⟨finC fun _ => 0.4, finC fun _ => 1, finC fun _ => 9⟩)]).material
        (Mat.ofReal (fun _ => 36.8) (fun _ => 44) (fun _ => 2650))
        ⟨finC fun _ => 100, finC fun _ => 90, some (finC fun _ => 80), none, some (finC fun _ => 80)⟩
      = .ok result ∧
    friableSand (Mat.ofReal (fun _ => 36.8) (fun _ => 44) (fun _ => 2650)) (finC fun _ => 0.2)
      (finC fun _ => 0.4) (finC fun _ => 20) (finC fun _ => 9) (finC fun _ => 1) = .ok eff ∧
    result.Has Kr Gr Rr ∧ eff.Has K1 G1 R1 ∧ ∀ i, K1 i < Kr i := by
  have e1 : (effectiveAt none (fun _ => 100) (fun _ => 90) : Fin 2 → ℝ) = fun _ => 10 := by
    funext i; norm_num [effectiveAt, Published.effective]
  have e2 : (effectiveAt none (fun _ => 100) (fun _ => 80) : Fin 2 → ℝ) = fun _ => 20 := by
    funext i; norm_num [effectiveAt, Published.effective]
  have f0 := friableSand_fin (n := 2) (φ := fun _ => 0.2) (φc := fun _ => 0.4) (p := fun _ => 10) (sr := fun _ => 1)
    (N := fun _ => 9) quartz_pos (fun _ => by norm_num) (fun _ => by norm_num) (fun _ => by norm_num)
    (fun _ => by norm_num) (fun _ => by norm_num) (fun _ => by norm_num) (fun _ => by norm_num)
  obtain ⟨fr, pack, Kf, Gf, Kp, Gp, Rp, h1, h1', h2, h2', h3⟩ := C27_density_and_range (n := 2) (p := fun _ => 10)
    (φ := fun _ => 0.2) (φc := fun _ => 0.4) (sr := fun _ => 1)
    (N := fun _ => 9) quartz_pos (fun _ => by norm_num) (fun _ => by norm_num) (fun _ => by norm_num)
    (fun _ => by norm_num) (fun _ => by norm_num) (fun _ => by norm_num) (fun _ => by norm_num)
  have big : ∀ i, 1e-20 < Kp i ∧ 1e-20 < Gp i := by
    have hp := hertzMindlin_fin (n := 2) (φ := fun _ => 0.4) (p := fun _ => 10) (sr := fun _ => 1)
      (N := fun _ => 9) quartz_pos.has quartz_pos.bulk quartz_pos.shear quartz_pos.density (fun _ => by norm_num)
      (fun _ => by norm_num) (fun _ => by norm_num) (fun _ => by norm_num)
    have e := hp.symm.trans h1'
    injection e with e; subst e
    rw [← finC_injective h2'.1, ← finC_injective h2'.2.1]
    have pi3 := Real.pi_gt_three
    have pi4 := Real.pi_lt_four
    have nu : nuR 36.8 44 = 7 / 96.5 := by norm_num [nuR]
    have hA : (1e-6:ℝ) ≤ hmA 36.8 44 0.4 10 9 := by
      unfold hmA
      have e6 : (1e-6:ℝ) = ((1e-6:ℝ) ^ (3:ℕ)) ^ ((1:ℝ)/3) := by
        rw [← Real.rpow_natCast, ← Real.rpow_mul (by norm_num)]; norm_num
      rw [e6]
      refine Real.rpow_le_rpow (by norm_num) ?_ (by norm_num)
      rw [nu, le_div_iff₀ (by norm_num)]
      norm_num
      linarith
    have lb : (1e-20:ℝ) < 9 * (1 - 0.4) / (20 * Real.pi) * (4 * hmA 36.8 44 0.4 10 9 * 44 / (1 - nuR 36.8 44)) := by
      rw [nu, div_mul_div_comm, lt_div_iff₀ (by positivity)]
      norm_num
      linarith
    have lb' : (1e-20:ℝ) < 9 * (1 - 0.4) / (12 * Real.pi) * (4 * hmA 36.8 44 0.4 10 9 * 44 / (1 - nuR 36.8 44)) := by
      rw [nu, div_mul_div_comm, lt_div_iff₀ (by positivity)]
      norm_num
      linarith
    intro i
    refine ⟨lb', lb.trans_le ?_⟩
    unfold hmG
    refine mul_le_mul_of_nonneg_left (le_add_of_nonneg_right ?_) (by positivity)
    rw [nu]
    have : 0 ≤ hmA 36.8 44 0.4 10 9 := by linarith
    exact mul_nonneg (mul_nonneg (by norm_num) (div_nonneg (by linarith) (by norm_num))) (by norm_num)
  have := C132_refuted (n := 2) (pr := ⟨finC fun _ => 100, finC fun _ => 90, some (finC fun _ => 80), none,
      some (finC fun _ => 80)⟩) (ob := fun _ => 100) (rf := fun _ => 90) (rk := fun _ => 80) (mx := none)
    quartz_pos (φ := fun _ => 0.2) (φc := fun _ => 0.4) (sr := fun _ => 1)
    (N := fun _ => 9) (fun _ => by norm_num) (fun _ => by norm_num) (fun _ => by norm_num)
    (fun _ => by norm_num) (fun _ => by norm_num) ⟨rfl, rfl, rfl, rfl⟩ (fun i => by rw [e1]; norm_num)
    (fun i => by rw [e1, e2]; norm_num) (by rw [e1]; exact h1) h2 (fun i => ?_)
  · rw [e2] at this
    exact this
  · obtain ⟨⟨a, -⟩, ⟨b, -⟩, -⟩ := h3 i
    obtain ⟨q1, q2⟩ := big i
    exact ⟨lt_of_lt_of_le (lt_min (by norm_num) q1) a, lt_of_lt_of_le (lt_min (by norm_num) q2) b, by norm_num⟩

/-! ### C133: the documented power fit -/

/-- docs/adjusting_with_depth_and_pressure.md:137-141: the documented power fit `c1 + pressure ^ c2`. -/
noncomputable def documentedPower (k : ℝ × ℝ) (p : ℝ) : ℝ := k.1 + p ^ k.2

section power
variable {pr : Pressure n} {ob rf rk : Fin n → ℝ} {mx : Option (Fin n → ℝ)} {K G ρ : Fin n → ℝ}

/-- The documented bulk modulus, `K + f1(rock pressure) - f1(effective reference pressure)`. -/
noncomputable def documentedPowerBulk (a : Coef3 (ℝ × ℝ)) (mx : Option (Fin n → ℝ)) (ob rf rk K : Fin n → ℝ)
    (i : Fin n) : ℝ :=
  K i + documentedPower a.primary (rk i) - documentedPower a.primary (effectiveAt mx ob rf i)

/-- The documented velocity ratio, `vp/vs + f2(rock pressure) - f2(effective reference pressure)`. -/
noncomputable def documentedPowerRatio (a : Coef3 (ℝ × ℝ)) (mx : Option (Fin n → ℝ)) (ob rf rk vp vs : Fin n → ℝ)
    (i : Fin n) : ℝ :=
  vp i / vs i + documentedPower a.secondary (rk i) - documentedPower a.secondary (effectiveAt mx ob rf i)

/-- **C133 is false of the code:** powerfit computes `c1 * pressure ^ c2`.  Whatever the material, whenever it
succeeds, the bulk modulus differs from the documented one in every row whose coefficient `c1` is not 1 and
where the rock pressure raised to `c2` is not the effective reference pressure raised to `c2`. -/
theorem C133_refuted (a : Coef3 (ℝ × ℝ)) (hpr : pr.Is ob rf rk mx) (φ : Col n) (mineral : Mat n)
    (hp : ∀ i, 0 < rk i) (hr : ∀ i, 0 < effectiveAt mx ob rf i) (hK : ∀ i, 0 ≤ K i) (hG : ∀ i, 0 < G i)
    (hρ : ∀ i, 0 < ρ i) {r : Mat n}
    (h : OPE.pressureDependency (.powerfit a) (Mat.ofReal K G ρ) pr φ mineral = .ok r) (i : Fin n)
    (h1 : a.primary.1 ≠ 1) (h2 : rk i ^ a.primary.2 ≠ effectiveAt mx ob rf i ^ a.primary.2) :
    r.bulk i ≠ Num.fin (documentedPowerBulk a mx ob rf rk K i) := by
  have key : OPE.pressureDependency (.powerfit a) (Mat.ofReal K G ρ) pr φ mineral
      = powerDependency a (Mat.ofReal K G ρ) (finC rk) (finC (effectiveAt mx ob rf)) := by
    unfold OPE.pressureDependency
    rw [hpr.truncatedRock, bind_ok, hpr.truncatedReference, hpr.rock]
    rfl
  rw [key, powerDependency_fin hK hG hρ rfl rfl hp hr, failIf_bind_ok] at h
  have hb := (OPE.Shapes.mkModuli_parts h.2).1
  rw [hb]
  simp only [finC_apply, ne_eq, Num.fin_inj, documentedPowerBulk, documentedPower]
  intro e
  apply h2
  have : (a.primary.1 - 1) * (rk i ^ a.primary.2 - effectiveAt mx ob rf i ^ a.primary.2) = 0 := by linarith
  rcases mul_eq_zero.mp this with h | h
  · exact absurd (by linarith) h1
  · linarith

/-- **C133, proved part.** With factors `c1 = 1` the documented bulk modulus and velocity ratio are what
powerfit computes (whenever they are physical), and the shear modulus is the adjusted bulk modulus over
`(vp/vs)^2 - 4/3`.  Missing: every other factor, see `C133_refuted`. -/
theorem C133_partial (a : Coef3 (ℝ × ℝ)) (h1 : a.primary.1 = 1) (h2 : a.secondary.1 = 1) (hd : a.density.1 = 0)
    (hpr : pr.Is ob rf rk mx) (φ : Col n) (mineral : Mat n)
    (hp : ∀ i, 0 < rk i) (hr : ∀ i, 0 < effectiveAt mx ob rf i) (hK : ∀ i, 0 ≤ K i) (hG : ∀ i, 0 < G i)
    (hρ : ∀ i, 0 < ρ i) {vp vs : Fin n → ℝ} (hvp : (Mat.ofReal K G ρ).vp = finC vp)
    (hvs : (Mat.ofReal K G ρ).vs = finC vs)
    (hv : ∀ i, 1e-20 < documentedPowerRatio a mx ob rf rk vp vs i ^ 2 - 4 / 3)
    (hb : ∀ i, 0 ≤ documentedPowerBulk a mx ob rf rk K i) :
    OPE.pressureDependency (.powerfit a) (Mat.ofReal K G ρ) pr φ mineral
      = .ok (Mat.ofReal (documentedPowerBulk a mx ob rf rk K)
          (fun i => documentedPowerBulk a mx ob rf rk K i /
            (documentedPowerRatio a mx ob rf rk vp vs i ^ 2 - 4 / 3)) ρ) := by
  obtain ⟨-, c2⟩ := C101_power a hpr φ mineral hp hr hK hG hρ
  have e1 : ∀ i, vp i = Real.sqrt ((K i + 4 / 3 * G i) / ρ i) := fun i => by
    have := congrFun hvp i; simpa [Mat.ofReal] using this.symm
  have e2 : ∀ i, vs i = Real.sqrt (G i / ρ i) := fun i => by
    have := congrFun hvs i; simpa [Mat.ofReal] using this.symm
  have ev : ∀ i, Real.sqrt ((K i + 4 / 3 * G i) / ρ i) / Real.sqrt (G i / ρ i) +
      (Published.powerFit a.secondary (rk i) - Published.powerFit a.secondary (effectiveAt mx ob rf i))
      = documentedPowerRatio a mx ob rf rk vp vs i := fun i => by
    simp only [documentedPowerRatio, documentedPower, Published.powerFit, h2, e1, e2]; ring
  have eb : ∀ i, K i + (Published.powerFit a.primary (rk i) - Published.powerFit a.primary (effectiveAt mx ob rf i))
      = documentedPowerBulk a mx ob rf rk K i := fun i => by
    simp only [documentedPowerBulk, documentedPower, Published.powerFit, h1]; ring
  have er : ∀ i, ρ i + (Published.powerFit a.density (rk i) - Published.powerFit a.density (effectiveAt mx ob rf i))
      = ρ i := fun i => by
    simp only [Published.powerFit, hd]; ring
  simp only [ev, eb, er] at c2
  exact c2 hv fun i => ⟨hb i, hρ i⟩

end power

/-- The hypotheses of the refutation are met: rock pressure 20, reference 30 under overburden 100 (effective
70), `c1 = 2`, `c2 = 1`, quartz: the code gives `200 + 2 (20 - 70) = 100`, the documentation 150. -/
theorem exPowerDocumented : ∃ r : Mat 1, OPE.pressureDependency (.powerfit ⟨(0, 1), (2, 1), (0, 1)⟩)
      (Mat.ofReal (fun _ => 200) (fun _ => 150) (fun _ => 2000))
      ⟨finC fun _ => 100, finC fun _ => 30, none, none, some (finC fun _ => 20)⟩ (c 0.2)
      (Mat.ofReal (fun _ => 200) (fun _ => 150) (fun _ => 2000)) = .ok r ∧
    r.bulk 0 = Num.fin 100 ∧ documentedPowerBulk (n := 1) ⟨(0, 1), (2, 1), (0, 1)⟩ none (fun _ => 100) (fun _ => 30)
      (fun _ => 20) (fun _ => 200) 0 = 150 := by
  have e1 : ∀ i, effectiveAt (n := 1) none (fun _ => 100) (fun _ => 30) i = 70 := fun i => by
    norm_num [effectiveAt, Published.effective]
  obtain ⟨-, c2⟩ := C101_power (n := 1) ⟨(0, 1), (2, 1), (0, 1)⟩
    (pr := ⟨finC fun _ => 100, finC fun _ => 30, none, none, some (finC fun _ => 20)⟩)
    (ob := fun _ => 100) (rf := fun _ => 30) (rk := fun _ => 20) (mx := none) ⟨rfl, rfl, rfl, rfl⟩ (c 0.2)
    (Mat.ofReal (fun _ => 200) (fun _ => 150) (fun _ => 2000)) (fun _ => by norm_num) (fun i => by rw [e1]; norm_num)
    (K := fun _ => 200) (G := fun _ => 150) (ρ := fun _ => 2000)
    (fun _ => by norm_num) (fun _ => by norm_num) (fun _ => by norm_num)
  simp only [e1, Published.powerFit, zero_mul, sub_zero, add_zero, Real.rpow_one] at c2
  have hv : Real.sqrt ((200 + 4 / 3 * 150) / 2000) / Real.sqrt (150 / 2000) = Real.sqrt (200 / 150 + 4/3) :=
    vpvs_sq (by norm_num) (by norm_num) (by norm_num)
  have := c2 (fun _ => by rw [hv, Real.sq_sqrt (by norm_num)]; norm_num) (fun _ => by norm_num)
  refine ⟨_, this, ?_, ?_⟩
  · simp only [Mat.ofReal_bulk, finC_apply, Num.fin_inj]; norm_num
  · simp only [documentedPowerBulk, documentedPower, e1, Real.rpow_one]; norm_num

end OPE
