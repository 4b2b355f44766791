import Verif.Props.Rounding18
import Verif.Props.Rounding14

/-!
# C175: examples
-/

namespace OPE

open Classical

/-- There are such rounding and power functions, also ones that fail outside the range. -/
theorem exists_bounded : ∃ fl pw, RoundsInRange fl ∧ PowerInRange pw ∧ fl (2 ^ 2000) = 0 := by
  obtain ⟨g, hg⟩ := exists_rounding
  refine ⟨fun x => if InRange x then g x else 0, fun x y => g (x ^ y), fun x hx => ?_, fun x y _ _ _ => ?_, ?_⟩
  · beta_reduce
    rw [if_pos hx]; exact hg x
  · refine ⟨(hg _).1, ?_⟩
    have := hg.error (x ^ y)
    unfold Accurate
    refine this.trans (mul_le_mul_of_nonneg_right ?_ (abs_nonneg _))
    unfold unit; norm_num
  · have : ¬ InRange ((2:ℝ) ^ 2000) := by
      rintro (h | ⟨-, h⟩)
      · exact absurd h (by positivity)
      · rw [abs_of_pos (by positivity)] at h
        exact absurd h (not_le.mpr (pow_lt_pow_right₀ (by norm_num) (by norm_num)))
    beta_reduce
    rw [if_neg this]

theorem ordinary_of {m : ℤ} {e : ℤ} (x : ℝ) (hm : |m| < 2 ^ 53) (hx : x = m * 2 ^ e) (h0 : (2 ^ 40)⁻¹ ≤ x) (h1 : x ≤ 2 ^ 40) : Ordinary x :=
  Sz.of_le ⟨m, e, hm, hx⟩ h0 h1

theorem ordinary_nat (n : ℕ) (h0 : 1 ≤ n) (h1 : n ≤ 2 ^ 40) : Ordinary n :=
  Sz.nat n h1

theorem ordinary_eighth (n : ℕ) (h0 : 1 ≤ n) (h1 : n ≤ 2 ^ 40) : Ordinary (n / 8) := by
  have h0' : (1:ℝ) ≤ n := by exact_mod_cast h0
  have h1' : (n:ℝ) ≤ 2 ^ 40 := by exact_mod_cast h1
  refine ordinary_of (m := n) (e := -3) _ ?_ ?_ ?_ ?_
  · rw [Nat.abs_cast]; exact_mod_cast lt_of_le_of_lt h1 (by norm_num)
  · rw [zpow_neg]; push_cast; norm_num; ring
  · have : ((2:ℝ) ^ 40)⁻¹ ≤ 1 / 8 := by norm_num
    linarith
  · linarith

theorem ordinary_rock (k g r : ℕ) (hk : 1 ≤ k ∧ k ≤ 2 ^ 40) (hg : 1 ≤ g ∧ g ≤ 2 ^ 40) (hr : 1 ≤ r ∧ r ≤ 2 ^ 40) :
    OrdinaryRock ⟨k, g, r⟩ := ⟨ordinary_nat k hk.1 hk.2, ordinary_nat g hg.1 hg.2, ordinary_nat r hr.1 hr.2⟩

theorem roundQuartz_ordinary : OrdinaryRock roundQuartz := by
  have := ordinary_rock 37000000000 44000000000 2650 (by norm_num) (by norm_num) (by norm_num)
  unfold roundQuartz
  norm_num at this ⊢
  exact this

theorem roundClay_ordinary : ∀ x ∈ roundClay, OrdinaryRock x.1 ∧ Ordinary x.2 := by
  have h1 := ordinary_rock 21000000000 7000000000 2600 (by norm_num) (by norm_num) (by norm_num)
  have h2 := ordinary_eighth 2 (by norm_num) (by norm_num)
  unfold roundClay
  norm_num at h1 h2 ⊢
  exact ⟨h1, h2⟩

theorem roundFluids_ordinary : ∀ x ∈ roundFluids, OrdinaryFluid x.1 ∧ Ordinary x.2 := by
  have h1 := ordinary_nat 2500000000 (by norm_num) (by norm_num)
  have h2 := ordinary_nat 1000 (by norm_num) (by norm_num)
  have h3 := ordinary_nat 50000000 (by norm_num) (by norm_num)
  have h4 := ordinary_nat 200 (by norm_num) (by norm_num)
  have h5 := ordinary_eighth 2 (by norm_num) (by norm_num)
  have h6 := ordinary_eighth 6 (by norm_num) (by norm_num)
  unfold roundFluids OrdinaryFluid
  norm_num at h1 h2 h3 h4 h5 h6 ⊢
  exact ⟨⟨⟨h1, h2⟩, h6⟩, ⟨h3, h4⟩, h5⟩

/-- Brine and gas in a sandstone of quartz and clay. -/
example {fl : ℝ → ℝ} {pw : ℝ → ℝ → ℝ} (hf : RoundsInRange fl) (hp : PowerInRange pw) :
    ∃ k ρ vp vs, Double.saturate fl pw (12e9, 10e9, 2100)
        (Double.mixLoop fl pw (tri roundQuartz) 0.75 (roundClay.map fun x => (tri x.1, x.2))).1
        (Double.wood fl (rowsOf roundFluids)) 0.25 = some (k, 10e9, ρ, vp, vs) ∧
      Accurate 1e5 (Published.gassmann 12e9 (Published.addMinerals roundQuartz 0.75 roundClay).K
        (Published.wood roundFluids).K 0.25) k := by
  have hbox : (21e9 : ℝ) ≤ (Published.addMinerals roundQuartz 0.75 roundClay).K := by
    have h := (hs_pos (x1 := 37e9) (x2 := 21e9) (z := 4 / 3 * min 44e9 7e9) (f := 0.75) (by norm_num) (by norm_num)
      (by norm_num) (by norm_num) (by norm_num)).1
    have e : (Published.addMinerals roundQuartz 0.75 roundClay).K =
        Published.hashinShtrikman 37e9 21e9 0.75 (4 / 3 * min 44e9 7e9) := by
      unfold roundClay roundQuartz Published.addMinerals Published.addMinerals Published.lowerBound
      norm_num
    rw [e]
    exact le_trans (by norm_num) h
  have hwood : (Published.wood roundFluids).K ≤ 1e9 := by
    unfold roundFluids Published.wood
    norm_num
  have o1 : Ordinary (0.75 : ℝ) := by
    have := ordinary_eighth 6 (by norm_num) (by norm_num); norm_num at this ⊢; exact this
  have o2 : Ordinary (0.25 : ℝ) := by
    have := ordinary_eighth 2 (by norm_num) (by norm_num); norm_num at this ⊢; exact this
  have o3 : OrdinaryRock ⟨12e9, 10e9, 2100⟩ := by
    have := ordinary_rock 12000000000 10000000000 2100 (by norm_num) (by norm_num) (by norm_num)
    norm_num at this ⊢
    exact this
  obtain ⟨k, ρ, vp, vs, h1, h2, -⟩ := C175_row hf hp (R := 7) (m := 1) (n := 2) roundQuartz 0.75 roundClay rfl (by norm_num)
    (by norm_num [roundClay]) (by norm_num [roundClay, roundQuartz])
    (by unfold WithinRatio; simp [roundClay, roundQuartz]; norm_num) (by norm_num) (by norm_num) roundQuartz_ordinary o1
    roundClay_ordinary roundFluids rfl
    (by norm_num [roundFluids]) (by norm_num [roundFluids]) (by norm_num [roundFluids]) (by norm_num) roundFluids_ordinary
    ⟨12e9, 10e9, 2100⟩ (by norm_num) (φ := 0.25) (by norm_num) (by norm_num) o3 o2
    (by norm_num at *; linarith) (by norm_num at *; linarith)
  exact ⟨k, ρ, vp, vs, h1, h2.mono (by norm_num)⟩

/-- Bounds on the grain pack of quartz at porosity 3/8 under 20 MPa. -/
theorem roundPack' : 1e9 ≤ (Published.hertzMindlin roundQuartz 0.375 20e6 9 0.5).K ∧
    (Published.hertzMindlin roundQuartz 0.375 20e6 9 0.5).K ≤ 1e10 ∧
    1e8 ≤ (Published.hertzMindlin roundQuartz 0.375 20e6 9 0.5).G ∧
    (Published.hertzMindlin roundQuartz 0.375 20e6 9 0.5).G ≤ 3e10 := by
  have cube : ∀ y : ℝ, 0 ≤ y → y = (y ^ (3 : ℕ)) ^ (1 / 3 : ℝ) := by
    intro y hy
    rw [one_div, show ((3 : ℝ))⁻¹ = ((3 : ℕ) : ℝ)⁻¹ by norm_num, Real.pow_rpow_inv_natCast hy] ; norm_num
  have hpi := Real.pi_gt_three
  have hpi' := Real.pi_lt_four
  have h9 : 9 ≤ Real.pi ^ 2 := by nlinarith
  have h16 : Real.pi ^ 2 ≤ 16 := by nlinarith
  have hn : Published.poisson 37e9 44e9 = 23 / 310 := by norm_num [Published.poisson]
  have lo : ∀ y x : ℝ, 0 ≤ y → y ^ 3 ≤ x → y ≤ x ^ (1 / 3 : ℝ) := by
    intro y x hy h
    conv_lhs => rw [cube y hy]
    exact Real.rpow_le_rpow (by positivity) h (by norm_num)
  have up : ∀ y x : ℝ, 0 ≤ y → 0 ≤ x → x ≤ y ^ 3 → x ^ (1 / 3 : ℝ) ≤ y := by
    intro y x hy hx h
    conv_rhs => rw [cube y hy]
    exact Real.rpow_le_rpow hx h (by norm_num)
  unfold Published.hertzMindlin Published.hertzMindlinBulk Published.hertzMindlinShear roundQuartz
  dsimp only
  rw [hn]
  refine ⟨lo _ _ (by norm_num) ?_, up _ _ (by norm_num) (by positivity) ?_, ?_, ?_⟩
  · rw [le_div_iff₀ (by positivity)]
    norm_num
    nlinarith
  · rw [div_le_iff₀ (by positivity)]
    norm_num
    nlinarith
  · have := lo 1e9 (3 * 9 ^ 2 * (1 - 0.375) ^ 2 * 44e9 ^ 2 * 20e6 / (2 * Real.pi ^ 2 * (1 - 23 / 310) ^ 2)) (by norm_num)
      (by rw [le_div_iff₀ (by positivity)]; norm_num; nlinarith)
    norm_num at this ⊢
    linarith
  · have := up 3e10 (3 * 9 ^ 2 * (1 - 0.375) ^ 2 * 44e9 ^ 2 * 20e6 / (2 * Real.pi ^ 2 * (1 - 23 / 310) ^ 2)) (by norm_num)
      (by positivity) (by rw [div_le_iff₀ (by positivity)]; norm_num; nlinarith)
    norm_num at this ⊢
    linarith

theorem roundPack_ratio' : WithinRatio 500 [roundQuartz, Published.hertzMindlin roundQuartz 0.375 20e6 9 0.5] := by
  obtain ⟨h1, h2, h3, h4⟩ := roundPack'
  have e : (Published.hertzMindlin roundQuartz 0.375 20e6 9 0.5).ρ = 2650 * (1 - 0.375) := rfl
  set b := Published.hertzMindlin roundQuartz 0.375 20e6 9 0.5
  unfold WithinRatio
  simp only [List.mem_cons, List.not_mem_nil, or_false, forall_eq_or_imp, forall_eq, roundQuartz, e]
  norm_num at *
  refine ⟨⟨by linarith, by linarith⟩, ⟨by linarith, by linarith⟩, by linarith, by linarith⟩

/-- Quartz sand of porosity 0.25 filled with brine and gas. -/
example {fl : ℝ → ℝ} {pw : ℝ → ℝ → ℝ} (hf : RoundsInRange fl) (hp : PowerInRange pw) :
    let dry := Published.friableSand roundQuartz 0.25 0.375 20e6 9 0.5
    ∃ k g ρ vp vs, Double.saturate fl pw (Double.friableSand fl pw (tri roundQuartz) 0.25 0.375 20e6 9 0.5) 37e9
        (Double.wood fl (rowsOf roundFluids)) 0.25 = some (k, g, ρ, vp, vs) ∧
      Accurate 1e9 (Published.gassmann dry.K 37e9 (Published.wood roundFluids).K 0.25) k := by
  intro dry
  have hsoft : dry.K ≤ 0.99 * 37e9 := by
    obtain ⟨h1, h2, h3, h4⟩ := roundPack'
    have hz : 0 ≤ 4 / 3 * min roundQuartz.G (Published.hertzMindlin roundQuartz 0.375 20e6 9 0.5).G :=
      mul_nonneg (by norm_num) (le_min (by norm_num [roundQuartz]) (by linarith))
    have := (hs_variational (x1 := 37e9) (x2 := (Published.hertzMindlin roundQuartz 0.375 20e6 9 0.5).K) (f := 1 - 0.25 / 0.375)
      (by norm_num) (by linarith) hz (by norm_num) (by norm_num)).1 1 1 (by norm_num)
    have h5 : dry.K = Published.hashinShtrikman 37e9 (Published.hertzMindlin roundQuartz 0.375 20e6 9 0.5).K (1 - 0.25 / 0.375)
      (4 / 3 * min roundQuartz.G (Published.hertzMindlin roundQuartz 0.375 20e6 9 0.5).G) := rfl
    rw [h5]
    refine this.trans ?_
    norm_num at *
    linarith
  have hwood : (Published.wood roundFluids).K ≤ 1e9 := by
    unfold roundFluids Published.wood
    norm_num
  have o1 : Ordinary (1 : ℝ) := by simpa using ordinary_nat 1 (by norm_num) (by norm_num)
  have o2 : Ordinary (0.25 : ℝ) := by
    have := ordinary_eighth 2 (by norm_num) (by norm_num); norm_num at this ⊢; exact this
  have o3 : Ordinary (0.375 : ℝ) := by
    have := ordinary_eighth 3 (by norm_num) (by norm_num); norm_num at this ⊢; exact this
  have o4 : Ordinary (20e6 : ℝ) := by
    have := ordinary_nat 20000000 (by norm_num) (by norm_num); norm_num at this ⊢; exact this
  have o5 : Ordinary (9 : ℝ) := by simpa using ordinary_nat 9 (by norm_num) (by norm_num)
  have o6 : Ordinary (0.5 : ℝ) := by
    have := ordinary_eighth 4 (by norm_num) (by norm_num); norm_num at this ⊢; exact this
  obtain ⟨k, g, ρ, vp, vs, h1, h2, -⟩ := C175_friable_row hf hp (R := 1) (S := 500) (m := 0) (n := 2) roundQuartz 1 [] rfl
    (by norm_num) (by simp) (by norm_num [roundQuartz])
    (by unfold WithinRatio; simp) (by norm_num) (by norm_num) roundQuartz_ordinary o1 (by simp) roundFluids rfl
    (by norm_num [roundFluids]) (by norm_num [roundFluids]) (by norm_num [roundFluids]) (by norm_num) roundFluids_ordinary
    (φ := 0.25) (φc := 0.375) (P := 20e6) (C := 9) (f := 0.5) (by norm_num) (by norm_num) (by norm_num) (by norm_num)
    (by norm_num) o2 o3 o4 o5 o6
    (by norm_num [Sensible, roundQuartz, Published.addMinerals]) roundPack_ratio' (by norm_num) hsoft
    (hwood.trans (by norm_num [Published.addMinerals, roundQuartz]))
  exact ⟨k, g, ρ, vp, vs, h1, h2.mono (by norm_num)⟩

end OPE
