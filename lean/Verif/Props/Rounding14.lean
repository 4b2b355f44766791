import Verif.Props.Rounding13
import Verif.Props.Rounding9
import Verif.Props.Rounding11
import Verif.Props.Published2

/-!
# Hertz-Mindlin and friable sand: without rounding it is the model of exact arithmetic; examples for C173 and C174
-/

namespace OPE

open Classical

theorem double_hertzMindlin_exact (K G ρ φ p sr n : ℝ) :
    Double.hertzMindlin id (fun a b => a ^ b) (K, G, ρ) φ p sr n =
      (hmK K G φ p n, hmG K G φ p n sr, ρ * (1 - φ)) := rfl

/-- Without rounding the model of double arithmetic gives the numbers of the model of exact arithmetic. -/
theorem double_hertzMindlin_model {m : Mat 1} {a : Published.Rock} {φ p sr n : ℝ} (h : m.IsRock fun _ => a) (hφ : φ < 1)
    (hp : 0 < p) (hs : 0 ≤ sr) (hn : 0 < n) :
    ∃ r, hertzMindlin m (c φ) (c p) (c sr) (c n) = .ok r ∧
      r.bulk = c (Double.hertzMindlin id (fun a b => a ^ b) (tri a) φ p sr n).1 ∧
      r.shear = c (Double.hertzMindlin id (fun a b => a ^ b) (tri a) φ p sr n).2.1 ∧
      r.density = c (Double.hertzMindlin id (fun a b => a ^ b) (tri a) φ p sr n).2.2 := by
  refine ⟨_, hertzMindlin_fin (φ := fun _ => φ) (p := fun _ => p) (sr := fun _ => sr) (N := fun _ => n) h.pos.has h.pos.bulk
    h.pos.shear h.pos.density (fun _ => hφ) (fun _ => hp.le) (fun _ => hs) (fun _ => hn), rfl, rfl, rfl⟩

theorem double_walpole_exact {x1 x2 z f : ℝ} (h1 : 0 < x1) (h2 : 0 < x2) (hz : 0 ≤ z) (hf0 : 0 ≤ f) (hf1 : f ≤ 1) :
    Double.walpole id (fun a b => a ^ b) x1 x2 z f = Published.hashinShtrikman x1 x2 f z := by
  have hA : 0 < x1 + z := by linarith
  have hB : 0 < x2 + z := by linarith
  have hS : 0 < f * (x2 + z) + (1 - f) * (x1 + z) := by
    rcases hf0.eq_or_lt with h | h
    · rw [← h]; linarith
    · have := mul_pos h hB; have := mul_nonneg (by linarith : 0 ≤ 1 - f) hA.le; linarith
  have e : Published.hashinShtrikman x1 x2 f z = (x1 + z) * (x2 + z) / (f * (x2 + z) + (1 - f) * (x1 + z)) - z := by
    unfold Published.hashinShtrikman
    rw [div_add_div _ _ hA.ne' hB.ne', inv_div]
    congr 2
    ring
  unfold Double.walpole
  by_cases h : x1 = x2
  · rw [if_pos h, e, h]
    have : f * (x2 + z) + (1 - f) * (x2 + z) = x2 + z := by ring
    rw [this]
    field_simp
    ring
  have h3 : x2 - x1 ≠ 0 := sub_ne_zero.mpr (Ne.symm h)
  simp only [id, if_neg h]
  rw [reciprocal_exact _ h3, reciprocal_exact _ hA.ne', e]
  have hD : (x2 - x1)⁻¹ + f * (x1 + z)⁻¹ = (f * (x2 + z) + (1 - f) * (x1 + z)) / ((x2 - x1) * (x1 + z)) := by
    field_simp
    ring
  rw [hD]
  field_simp
  ring

theorem double_friableSand_exact {a : Published.Rock} (ha : 0 < a.K ∧ 0 < a.G ∧ 0 < a.ρ) {φ φc p n sr : ℝ} (hφ0 : 0 ≤ φ)
    (hφ : φ ≤ φc) (hc0 : 0 < φc) (hc1 : φc < 1) (hp : 0 < p) (hs : 0 ≤ sr) (hn : 0 < n) :
    Double.friableSand id (fun a b => a ^ b) (tri a) φ φc p n sr = tri (Published.friableSand a φ φc p n sr) := by
  obtain ⟨e1, e2⟩ := hm_published ha.1 ha.2.1 hc1 hp.le hn sr
  have p1 : 0 < hmK a.K a.G φc p n := by
    obtain ⟨e, q⟩ := hmK_factor ha.1 ha.2.1 hc1 hn hp.le
    rw [e]; exact mul_pos q (Real.rpow_pos_of_pos hp _)
  have p2 : 0 < hmG a.K a.G φc p n sr := by
    obtain ⟨e, q⟩ := hmG_factor ha.1 ha.2.1 hc1 hn hp.le hs
    rw [e]; exact mul_pos q (Real.rpow_pos_of_pos hp _)
  have hr0 : 0 ≤ 1 - φ / φc := by have := div_le_one_of_le₀ hφ hc0.le; linarith
  have hr1 : 1 - φ / φc ≤ 1 := by have := div_nonneg hφ0 hc0.le; linarith
  have hg : 0 < min a.G (hmG a.K a.G φc p n sr) := lt_min ha.2.1 p2
  have hk : 0 < min a.K (hmK a.K a.G φc p n) := lt_min ha.1 p1
  have w1 := double_walpole_exact ha.1 p1 (by positivity : 0 ≤ 4 / 3 * min a.G (hmG a.K a.G φc p n sr)) hr0 hr1
  have w2 := double_walpole_exact ha.2.1 p2 (by unfold Published.zeta; positivity :
    0 ≤ Published.zeta (min a.K (hmK a.K a.G φc p n)) (min a.G (hmG a.K a.G φc p n sr))) hr0 hr1
  unfold Double.friableSand Published.friableSand Published.lowerBound Published.hertzMindlin
  rw [← e1, ← e2]
  unfold tri
  rw [double_hertzMindlin_exact]
  dsimp only
  rw [← w1, ← w2]
  refine Prod.ext rfl (Prod.ext ?_ ?_)
  · unfold Double.walpoleShear Published.zeta
    simp only [id]
    rw [mul_div_assoc]
  · unfold Double.walpoleDensity
    simp only [id]
    split_ifs with h
    · rw [← h]; ring
    · rfl

/-! ## Examples -/

/-- Bounds on the grain pack of quartz at porosity 0.4 under 20 MPa. -/
theorem roundPack : 1e9 ≤ (Published.hertzMindlin roundQuartz 0.4 20e6 9 0.5).K ∧
    (Published.hertzMindlin roundQuartz 0.4 20e6 9 0.5).K ≤ 1e10 ∧
    1e8 ≤ (Published.hertzMindlin roundQuartz 0.4 20e6 9 0.5).G ∧
    (Published.hertzMindlin roundQuartz 0.4 20e6 9 0.5).G ≤ 3e10 := by
  have cube : ∀ y : ℝ, 0 ≤ y → y = (y ^ (3 : ℕ)) ^ (1 / 3 : ℝ) := by
    intro y hy
    rw [one_div, show ((3 : ℝ))⁻¹ = ((3 : ℕ) : ℝ)⁻¹ by norm_num, Real.pow_rpow_inv_natCast hy] ; norm_num
  have hpi := Real.pi_gt_three
  have hpi' := Real.pi_lt_four
  have h9 : 9 ≤ Real.pi ^ 2 := by nlinarith
  have h16 : Real.pi ^ 2 ≤ 16 := by nlinarith
  have hn : Published.poisson 37e9 44e9 = 23 / 310 := by norm_num [Published.poisson]
  have lo : ∀ y x : ℝ, 0 ≤ y → y ^ 3 ≤ x → y ≤ x ^ (1 / 3 : ℝ) := by
    intro y x hy h
    conv_lhs => rw [cube y hy]
    exact Real.rpow_le_rpow (by positivity) h (by norm_num)
  have up : ∀ y x : ℝ, 0 ≤ y → 0 ≤ x → x ≤ y ^ 3 → x ^ (1 / 3 : ℝ) ≤ y := by
    intro y x hy hx h
    conv_rhs => rw [cube y hy]
    exact Real.rpow_le_rpow hx h (by norm_num)
  unfold Published.hertzMindlin Published.hertzMindlinBulk Published.hertzMindlinShear roundQuartz
  dsimp only
  rw [hn]
  refine ⟨lo _ _ (by norm_num) ?_, up _ _ (by norm_num) (by positivity) ?_, ?_, ?_⟩
  · rw [le_div_iff₀ (by positivity)]
    norm_num
    nlinarith
  · rw [div_le_iff₀ (by positivity)]
    norm_num
    nlinarith
  · have := lo 1e9 (3 * 9 ^ 2 * (1 - 0.4) ^ 2 * 44e9 ^ 2 * 20e6 / (2 * Real.pi ^ 2 * (1 - 23 / 310) ^ 2)) (by norm_num)
      (by rw [le_div_iff₀ (by positivity)]; norm_num; nlinarith)
    norm_num at this ⊢
    linarith
  · have := up 3e10 (3 * 9 ^ 2 * (1 - 0.4) ^ 2 * 44e9 ^ 2 * 20e6 / (2 * Real.pi ^ 2 * (1 - 23 / 310) ^ 2)) (by norm_num)
      (by positivity) (by rw [div_le_iff₀ (by positivity)]; norm_num; nlinarith)
    norm_num at this ⊢
    linarith

example {fl : ℝ → ℝ} {pw : ℝ → ℝ → ℝ} (hf : RoundsToNearest fl) (hp : PowerAccurate pw) :
    Accurate 78 (Published.hertzMindlin roundQuartz 0.4 20e6 9 0.5).K
      (Double.hertzMindlin fl pw (tri roundQuartz) 0.4 20e6 0.5 9).1 :=
  (C173_hertz_mindlin hf hp roundQuartz (by norm_num [roundQuartz]) (by norm_num) (by norm_num) (by norm_num)
    (by norm_num [Sensible, roundQuartz])).1

theorem roundPack_ratio : WithinRatio 500 [roundQuartz, Published.hertzMindlin roundQuartz 0.4 20e6 9 0.5] := by
  obtain ⟨h1, h2, h3, h4⟩ := roundPack
  have e : (Published.hertzMindlin roundQuartz 0.4 20e6 9 0.5).ρ = 2650 * (1 - 0.4) := rfl
  set b := Published.hertzMindlin roundQuartz 0.4 20e6 9 0.5
  unfold WithinRatio
  simp only [List.mem_cons, List.not_mem_nil, or_false, forall_eq_or_imp, forall_eq, roundQuartz, e]
  norm_num at *
  refine ⟨⟨by linarith, by linarith⟩, ⟨by linarith, by linarith⟩, by linarith, by linarith⟩

/-- Quartz sand of porosity 0.2 filled with brine and gas. -/
example {fl : ℝ → ℝ} {pw : ℝ → ℝ → ℝ} (hf : RoundsToNearest fl) (hp : PowerAccurate pw) :
    let dry := Published.friableSand roundQuartz 0.2 0.4 20e6 9 0.5
    ∃ k g ρ vp vs, Double.saturate fl pw (Double.friableSand fl pw (tri roundQuartz) 0.2 0.4 20e6 9 0.5) 37e9
        (Double.wood fl (rowsOf roundFluids)) 0.2 = some (k, g, ρ, vp, vs) ∧
      Accurate 1e9 (Published.gassmann dry.K 37e9 (Published.wood roundFluids).K 0.2) k := by
  intro dry
  have hsoft : dry.K ≤ 0.99 * 37e9 := by
    obtain ⟨h1, h2, h3, h4⟩ := roundPack
    have hz : 0 ≤ 4 / 3 * min roundQuartz.G (Published.hertzMindlin roundQuartz 0.4 20e6 9 0.5).G :=
      mul_nonneg (by norm_num) (le_min (by norm_num [roundQuartz]) (by linarith))
    have := (hs_variational (x1 := 37e9) (x2 := (Published.hertzMindlin roundQuartz 0.4 20e6 9 0.5).K) (f := 1 - 0.2 / 0.4)
      (by norm_num) (by linarith) hz (by norm_num) (by norm_num)).1 1 1 (by norm_num)
    have h5 : dry.K = Published.hashinShtrikman 37e9 (Published.hertzMindlin roundQuartz 0.4 20e6 9 0.5).K (1 - 0.2 / 0.4)
      (4 / 3 * min roundQuartz.G (Published.hertzMindlin roundQuartz 0.4 20e6 9 0.5).G) := rfl
    rw [h5]
    refine this.trans ?_
    norm_num at *
    linarith
  have hwood : (Published.wood roundFluids).K ≤ 1e9 := by
    unfold roundFluids Published.wood
    norm_num
  obtain ⟨k, g, ρ, vp, vs, h1, h2, -⟩ := C174_row hf hp (R := 1) (S := 500) (m := 0) (n := 2) roundQuartz 1 [] rfl
    (by norm_num) ⟨1, 0, by norm_num, by norm_num⟩ (by simp) (by norm_num [roundQuartz])
    (by unfold WithinRatio; simp) (by norm_num) (by norm_num) roundFluids rfl
    (by norm_num [roundFluids]) (by norm_num [roundFluids]) (by norm_num [roundFluids]) (by norm_num)
    (φ := 0.2) (φc := 0.4) (P := 20e6) (C := 9) (f := 0.5) (by norm_num) (by norm_num) (by norm_num) (by norm_num) (by norm_num)
    (by norm_num [Sensible, roundQuartz, Published.addMinerals]) roundPack_ratio (by norm_num) hsoft
    (hwood.trans (by norm_num [Published.addMinerals, roundQuartz]))
  exact ⟨k, g, ρ, vp, vs, h1, h2.mono (by norm_num)⟩

end OPE
