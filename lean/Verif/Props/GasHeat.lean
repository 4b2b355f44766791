import Verif.Props.GasStiffness
import Mathlib.Analysis.Complex.ExponentialBounds

/-!
# C183: gas gets lighter when heated and heavier with gravity
-/

namespace OPE.GasHeat

open OPE GasStiffness

/-- `t * Z` at pseudo-reduced temperature `t`, `q` standing for `p ^ 1.2`. -/
noncomputable def tz (p q t : ℝ) : ℝ :=
  t * ((0.03 + 0.00527 * (3.5 - t) ^ 3) * p + (0.642 * t - 0.007 * t ^ 4 - 0.52)
    + 0.109 * (3.85 - t) ^ 2 * Real.exp (-((0.45 + 8 * (0.56 - 1 / t) ^ 2) / t * q)))

theorem tz_hasDeriv (p q : ℝ) {t : ℝ} (ht : 0 < t) : HasDerivAt (tz p q)
    (p * (0.03 + 0.00527 * (3.5 - t) ^ 2 * (3.5 - 4 * t)) + (1.284 * t - 0.035 * t ^ 4 - 0.52)
      + 0.109 * (3.85 - t) * (Real.exp (-((0.45 + 8 * (0.56 - 1 / t) ^ 2) / t * q))
        * ((3.85 - 3 * t) + (3.85 - t) * (1 / t * (0.45 + 8 * (0.56 - 1 / t) * (0.56 - 3 * (1 / t))) * q)))) t := by
  have h1 : HasDerivAt (fun x : ℝ => 3.5 - x) (-1) t := (hasDerivAt_id t).const_sub 3.5
  have h2 : HasDerivAt (fun x : ℝ => 3.85 - x) (-1) t := (hasDerivAt_id t).const_sub 3.85
  have h3 : HasDerivAt (fun x : ℝ => 1 / x) (-(t ^ 2)⁻¹) t := by
    simpa only [one_div] using hasDerivAt_inv ht.ne'
  have h4 := (((h3.const_sub 0.56).pow 2).const_mul 8).const_add 0.45
  have h5 := ((h4.div (hasDerivAt_id t) ht.ne').mul_const q).neg.exp
  have h6 := (((h1.pow 3).const_mul 0.00527).const_add 0.03).mul_const p
  have h7 := ((((hasDerivAt_id t).const_mul 0.642)).sub (((hasDerivAt_id t).pow 4).const_mul 0.007)).sub_const 0.52
  have h8 := (hasDerivAt_id t).mul ((h6.add h7).add (((h2.pow 2).const_mul 0.109).mul h5))
  refine h8.congr_deriv ?_
  simp only [id, Pi.add_apply, Pi.mul_apply, Pi.pow_apply, Pi.sub_apply, Pi.neg_apply, Pi.div_apply, Nat.cast_ofNat]
  generalize Real.exp _ = E
  simp only [Nat.reduceSub, pow_one]
  field_simp
  ring

theorem exp_one : Real.exp (-(0 + 1)) ≤ 0.368 := by
  have h := Real.exp_one_gt_d9
  rw [zero_add]
  exact exp_neg_le_of (by norm_num) (le_trans (by norm_num) h.le)

/-- The exponential term pulls `t * Z` down by little. -/
theorem pull {t q : ℝ} (ht : 0 < t) (ht' : t ≤ 3.85) (hq : 0 ≤ q) :
    0.109 * (3.85 - t) * (min 0 (3.85 - 3 * t) - 0.3312 * (3.85 - t)) ≤
    0.109 * (3.85 - t) * (Real.exp (-((0.45 + 8 * (0.56 - 1 / t) ^ 2) / t * q))
        * ((3.85 - 3 * t) + (3.85 - t) * (1 / t * (0.45 + 8 * (0.56 - 1 / t) * (0.56 - 3 * (1 / t))) * q))) := by
  have h38 : 0 ≤ 3.85 - t := by linarith
  refine mul_le_mul_of_nonneg_left ?_ (by positivity)
  obtain ⟨s, hs⟩ : ∃ s, s = 1 / t := ⟨_, rfl⟩
  have s0 : 0 < s := by rw [hs]; positivity
  obtain ⟨u, hu⟩ : ∃ u, u = (0.45 + 8 * (0.56 - 1 / t) ^ 2) / t * q := ⟨_, rfl⟩
  have hu' : u = s * (0.45 + 8 * (0.56 - s) ^ 2) * q := by rw [hu, hs]; ring
  rw [← hu, ← hs]
  have u0 : 0 ≤ u := by rw [hu']; positivity
  have e0 := Real.exp_pos (-u)
  have e1 : Real.exp (-u) ≤ 1 := Real.exp_le_one_iff.mpr (by linarith)
  have pk : u * Real.exp (-u) ≤ 0.368 := by
    have := peak_le (c := 0) (u := u)
    rw [sub_zero] at this
    exact this.trans exp_one
  have key : -0.9 * u ≤ s * (0.45 + 8 * (0.56 - s) * (0.56 - 3 * s)) * q := by
    have : 0 ≤ s * q * (31.2 * (0.56 - s) ^ 2 - 8.96 * (0.56 - s) + 0.855) := by
      refine mul_nonneg (by positivity) ?_
      nlinarith [sq_nonneg ((0.56 - s) - 0.1436)]
    rw [hu', ← sub_nonneg]
    refine le_of_le_of_eq this ?_
    ring
  generalize s * (0.45 + 8 * (0.56 - s) * (0.56 - 3 * s)) * q = k at key
  generalize Real.exp (-u) = E at *
  have a1 : min 0 (3.85 - 3 * t) ≤ E * (3.85 - 3 * t) := by
    rcases le_total 0 (3.85 - 3 * t) with h | h
    · rw [min_eq_left h]; positivity
    · rw [min_eq_right h]; nlinarith
  have a2 : -0.3312 * (3.85 - t) ≤ E * ((3.85 - t) * k) := by
    have : -0.3312 ≤ E * k := by nlinarith
    nlinarith
  linarith

theorem mix {p a b e : ℝ} (hp : 0 ≤ p) (hp' : p ≤ 23.2) (h0 : 0.05 ≤ 0 * a + b + e)
    (h1 : 0.05 ≤ 23.2 * a + b + e) : 0 < p * a + b + e := by
  nlinarith [mul_nonneg hp (sub_nonneg.mpr h1), mul_nonneg (sub_nonneg.mpr hp') (sub_nonneg.mpr h0)]

theorem tz_slope_pos {p t : ℝ} (hp : 0 ≤ p) (hp' : p ≤ 23.2) (ht : 0.815 ≤ t) (ht' : t ≤ 2.94) :
    0 < p * (0.03 + 0.00527 * (3.5 - t) ^ 2 * (3.5 - 4 * t)) + (1.284 * t - 0.035 * t ^ 4 - 0.52)
      + 0.109 * (3.85 - t) * (min 0 (3.85 - 3 * t) - 0.3312 * (3.85 - t)) := by
  norm_num at ht ht'
  rcases le_total 0 (3.85 - 3 * t) with h | h
  · rw [min_eq_left h]
    norm_num at h
    have h1 : 0 ≤ t - 163/200 := by linarith
    have h2 : 0 ≤ 321/250 - t := by linarith
    have a : 0.05 ≤ 0 * (0.03 + 0.00527 * (3.5 - t) ^ 2 * (3.5 - 4 * t)) + (1.284 * t - 0.035 * t ^ 4 - 0.52)
        + 0.109 * (3.85 - t) * (0 - 0.3312 * (3.85 - t)) := by
      obtain ⟨A, hA⟩ : ∃ A, A = t - 163/200 := ⟨_, rfl⟩
      obtain ⟨B, hB⟩ : ∃ B, B = 321/250 - t := ⟨_, rfl⟩
      rw [← hA] at h1
      rw [← hB] at h2
      have : 0 ≤ 146840672855/55294676024 * A^0 * B^4
          + 169052369922/6911834503 * A^1 * B^3
          + 1957545509148/34559172515 * A^2 * B^2
          + 347599894464/6911834503 * A^3 * B^1
          + 2663654106048/172795862575 * A^4 * B^0 := by positivity
      rw [← sub_nonneg]
      refine le_of_le_of_eq this ?_
      rw [hA, hB]
      ring
    have b : 0.05 ≤ 23.2 * (0.03 + 0.00527 * (3.5 - t) ^ 2 * (3.5 - 4 * t)) + (1.284 * t - 0.035 * t ^ 4 - 0.52)
        + 0.109 * (3.85 - t) * (0 - 0.3312 * (3.85 - t)) := by
      obtain ⟨A, hA⟩ : ∃ A, A = t - 163/200 := ⟨_, rfl⟩
      obtain ⟨B, hB⟩ : ∃ B, B = 321/250 - t := ⟨_, rfl⟩
      rw [← hA] at h1
      rw [← hB] at h2
      have : 0 ≤ 8288227785953/387062732168 * A^0 * B^4
          + 15430378905834/241914207605 * A^1 * B^3
          + 89688917779512/1209571038025 * A^2 * B^2
          + 249847171010432/6047855190125 * A^3 * B^1
          + 57446820671552/6047855190125 * A^4 * B^0 := by positivity
      rw [← sub_nonneg]
      refine le_of_le_of_eq this ?_
      rw [hA, hB]
      ring
    exact mix hp hp' a b
  · rw [min_eq_right h]
    norm_num at h
    have h1 : 0 ≤ t - 1283/1000 := by linarith
    have h2 : 0 ≤ 147/50 - t := by linarith
    have a : 0.05 ≤ 0 * (0.03 + 0.00527 * (3.5 - t) ^ 2 * (3.5 - 4 * t)) + (1.284 * t - 0.035 * t ^ 4 - 0.52)
        + 0.109 * (3.85 - t) * ((3.85 - 3 * t) - 0.3312 * (3.85 - t)) := by
      obtain ⟨A, hA⟩ : ∃ A, A = t - 1283/1000 := ⟨_, rfl⟩
      obtain ⟨B, hB⟩ : ∃ B, B = 147/50 - t := ⟨_, rfl⟩
      rw [← hA] at h1
      rw [← hB] at h2
      have : 0 ≤ 148985932730313/1507717686240200 * A^0 * B^4
          + 17667050886482/37692942156005 * A^1 * B^3
          + 29901236490204/37692942156005 * A^2 * B^2
          + 3522794273408/7538588431201 * A^3 * B^1
          + 67176893920/7538588431201 * A^4 * B^0 := by positivity
      rw [← sub_nonneg]
      refine le_of_le_of_eq this ?_
      rw [hA, hB]
      ring
    have b : 0.05 ≤ 23.2 * (0.03 + 0.00527 * (3.5 - t) ^ 2 * (3.5 - 4 * t)) + (1.284 * t - 0.035 * t ^ 4 - 0.52)
        + 0.109 * (3.85 - t) * ((3.85 - 3 * t) - 0.3312 * (3.85 - t)) := by
      obtain ⟨A, hA⟩ : ∃ A, A = t - 1283/1000 := ⟨_, rfl⟩
      obtain ⟨B, hB⟩ : ∃ B, B = 147/50 - t := ⟨_, rfl⟩
      rw [← hA] at h1
      rw [← hB] at h2
      have : 0 ≤ 460198127130093/12491441030500057 * A^0 * B^5
          + 337672232170141/12491441030500057 * A^1 * B^4
          + 2004319053867568/12491441030500057 * A^2 * B^3
          + 5546736568053120/12491441030500057 * A^3 * B^2
          + 3866363672441600/12491441030500057 * A^4 * B^1
          + 446472053216000/12491441030500057 * A^5 * B^0 := by positivity
      rw [← sub_nonneg]
      refine le_of_le_of_eq this ?_
      rw [hA, hB]
      ring
    exact mix hp hp' a b

theorem tz_strictMono {p : ℝ} (hp : 0 ≤ p) (hp' : p ≤ 23.2) :
    StrictMonoOn (fun t : ℝ => t * Published.gasZ t p) (Set.Icc 0.815 2.94) := by
  have e : (fun t : ℝ => t * Published.gasZ t p) = tz p (p ^ (1.2:ℝ)) := by
    funext t
    unfold Published.gasZ tz
    congr 4
    ring
  rw [e]
  have hd : ∀ t ∈ Set.Icc (0.815:ℝ) 2.94, 0 < t := fun t ht => lt_of_lt_of_le (by norm_num) ht.1
  refine strictMonoOn_of_deriv_pos (convex_Icc _ _)
    (fun t ht => (tz_hasDeriv p _ (hd t ht)).continuousAt.continuousWithinAt) fun t ht => ?_
  rw [interior_Icc] at ht
  have ht' : t ∈ Set.Icc (0.815:ℝ) 2.94 := ⟨ht.1.le, ht.2.le⟩
  rw [(tz_hasDeriv p _ (hd t ht')).deriv]
  have h1 := tz_slope_pos hp hp' ht'.1 ht'.2
  have h2 := pull (q := p ^ (1.2:ℝ)) (hd t ht') (ht'.2.trans (by norm_num)) (Real.rpow_nonneg hp _)
  linarith

/-- What gravity does apart from the pseudo-reduced variables. -/
theorem factor_mono {G G' : ℝ} (hG : 0 < G) (h : G < G') (hG' : G' ≤ 1.4) :
    G * (4.892 - 0.4048 * G) / (94.72 + 170.75 * G) < G' * (4.892 - 0.4048 * G') / (94.72 + 170.75 * G') := by
  rw [div_lt_div_iff₀ (by positivity) (by have := hG.trans h; positivity)]
  norm_num at hG' ⊢
  nlinarith [mul_pos (sub_pos.mpr h) hG, mul_pos (sub_pos.mpr h) (hG.trans h),
    mul_pos (mul_pos (sub_pos.mpr h) hG) (hG.trans h),
    mul_nonneg (mul_nonneg (sub_pos.mpr h).le hG.le) (sub_nonneg.mpr hG'),
    mul_nonneg (sub_pos.mpr h).le (sub_nonneg.mpr hG')]

/-- The density in pseudo-reduced variables. -/
theorem density_eq {T P G : ℝ} (hT : 0 < T) (hG : 0 < G) (hG' : G ≤ 1.4) :
    Published.gasDensity T P G = 1e6 * 28.8e-3 / 8.314462618
      * (G * (4.892 - 0.4048 * G) / (94.72 + 170.75 * G))
      * (Published.gasPpr P G / (Published.gasTpr T G * Published.gasZ (Published.gasTpr T G) (Published.gasPpr P G))) := by
  have hd : 0 < 94.72 + 170.75 * G := by positivity
  have hc : 0 < 4.892 - 0.4048 * G := by norm_num at hG' ⊢; linarith
  unfold Published.gasDensity
  generalize hz : Published.gasZ (Published.gasTpr T G) (Published.gasPpr P G) = z
  unfold Published.gasPpr Published.gasTpr
  by_cases hz0 : z = 0
  · simp [hz0]
  · have hc0 := hc.ne'
    generalize 4.892 - 0.4048 * G = k at *
    field_simp

/-- **C183.** -/
theorem C183_gas_density {T T' P P' G G' : ℝ} (hT : 0 ≤ T') (hTT : T' ≤ T) (hT' : T ≤ 280)
    (hP : 0 < P) (hPP : P ≤ P') (hP' : P' ≤ 100e6) (hG : 0.55 ≤ G) (hGG : G ≤ G') (hG' : G' ≤ 1.4)
    (hlt : T' < T ∨ P < P' ∨ G < G') :
    ∃ m m' : Mat 1, gas (c T) (c P) (c G) = .ok m ∧ gas (c T') (c P') (c G') = .ok m' ∧
      m.density 0 < m'.density 0 := by
  have hG0 : 0 < G := lt_of_lt_of_le (by norm_num) hG
  have hG0' : 0 < G' := hG0.trans_le hGG
  obtain ⟨m, h, d, -⟩ := C95_gas (n := 1) (fun _ => T) (fun _ => P) (fun _ => G)
    (fun _ => ⟨hT.trans hTT, by linarith⟩) (fun _ => hP)
    (fun _ => ⟨le_trans (by norm_num) hG, hGG.trans hG'⟩)
  obtain ⟨m', h', d', -⟩ := C95_gas (n := 1) (fun _ => T') (fun _ => P') (fun _ => G')
    (fun _ => ⟨hT, by linarith⟩) (fun _ => hP.trans_le hPP)
    (fun _ => ⟨le_trans (by norm_num) (hG.trans hGG), hG'⟩)
  refine ⟨m, m', h, h', ?_⟩
  rw [d, d']
  simp only [finC_apply, Num.fin_lt]
  rw [density_eq (by linarith) hG0 (hGG.trans hG'), density_eq (by linarith) hG0' hG']
  have hf : G * (4.892 - 0.4048 * G) / (94.72 + 170.75 * G) ≤ G' * (4.892 - 0.4048 * G') / (94.72 + 170.75 * G') ∧
      (G < G' → G * (4.892 - 0.4048 * G) / (94.72 + 170.75 * G)
        < G' * (4.892 - 0.4048 * G') / (94.72 + 170.75 * G')) := by
    refine ⟨?_, fun h => factor_mono hG0 h hG'⟩
    rcases hGG.lt_or_eq with h | rfl
    · exact (factor_mono hG0 h hG').le
    · exact le_rfl
  have hd : 0 < 94.72 + 170.75 * G := by positivity
  have hd' : 0 < 94.72 + 170.75 * G' := by positivity
  have hc' : 0 < 4.892 - 0.4048 * G' := by norm_num at hG' ⊢; linarith
  have hc : 4.892 - 0.4048 * G' ≤ 4.892 - 0.4048 * G := by linarith
  have hT0 : 0 < T' + 273.15 := by positivity
  have f0 : 0 < G * (4.892 - 0.4048 * G) / (94.72 + 170.75 * G) := by
    have := hc'.trans_le hc
    positivity
  -- the pseudo-reduced variables
  have tt : Published.gasTpr (T' + 273.15) G' ≤ Published.gasTpr (T + 273.15) G := by
    unfold Published.gasTpr
    exact div_le_div₀ (by linarith) (by linarith) hd (by linarith)
  have tt' : T' < T → Published.gasTpr (T' + 273.15) G' < Published.gasTpr (T + 273.15) G := by
    intro h
    unfold Published.gasTpr
    exact div_lt_div₀ (by linarith) (by linarith) (by linarith) hd
  have pp : Published.gasPpr (P * 1e-6) G ≤ Published.gasPpr (P' * 1e-6) G' := by
    unfold Published.gasPpr
    exact div_le_div₀ (mul_nonneg (hP.le.trans hPP) (by norm_num)) (by linarith) hc' hc
  have pp' : P < P' → Published.gasPpr (P * 1e-6) G < Published.gasPpr (P' * 1e-6) G' := by
    intro h
    unfold Published.gasPpr
    exact div_lt_div₀ (by linarith) hc (mul_nonneg (hP.le.trans hPP) (by norm_num)) hc'
  have t1 : 0.815 ≤ Published.gasTpr (T' + 273.15) G' := by
    unfold Published.gasTpr; rw [le_div_iff₀ hd']; norm_num at hG' ⊢; linarith
  have t2 : Published.gasTpr (T + 273.15) G ≤ 2.94 := by
    unfold Published.gasTpr; rw [div_le_iff₀ hd]; norm_num at hG ⊢; linarith
  have p0 : 0 < Published.gasPpr (P * 1e-6) G := by
    have := hc'.trans_le hc
    unfold Published.gasPpr; positivity
  have p1 : Published.gasPpr (P' * 1e-6) G' ≤ 23.2 := by
    unfold Published.gasPpr; rw [div_le_iff₀ hc']; norm_num at hG' hP' ⊢; linarith
  generalize Published.gasTpr (T' + 273.15) G' = t' at *
  generalize Published.gasTpr (T + 273.15) G = t at *
  generalize Published.gasPpr (P' * 1e-6) G' = p' at *
  generalize Published.gasPpr (P * 1e-6) G = p at *
  have t4 : t' ≤ 4 := by norm_num at t2 ⊢; linarith
  have t0 : 0 < t' := lt_of_lt_of_le (by norm_num) t1
  have z0 := (gasZ_pos t1 t4 p0).1
  -- hotter
  have m1 := tz_strictMono p0.le (pp.trans p1)
  have m1' := m1.le_iff_le ⟨t1, tt.trans t2⟩ ⟨t1.trans tt, t2⟩ |>.mpr tt
  have m1s := fun h : t' < t => m1 ⟨t1, tt.trans t2⟩ ⟨t1.trans tt, t2⟩ h
  dsimp only at m1' m1s
  have w0 : 0 < t' * Published.gasZ t' p := by positivity
  have s1 : p / (t * Published.gasZ t p) ≤ p / (t' * Published.gasZ t' p) :=
    div_le_div_of_nonneg_left p0.le w0 m1'
  have s1' : t' < t → p / (t * Published.gasZ t p) < p / (t' * Published.gasZ t' p) := fun h =>
    div_lt_div_of_pos_left p0 w0 (m1s h)
  -- under more pressure
  have e : ∀ x, x / (t' * Published.gasZ t' x) = x / Published.gasZ t' x / t' := fun x => by
    rw [div_div, mul_comm]
  have s2' : p < p' → p / (t' * Published.gasZ t' p) < p' / (t' * Published.gasZ t' p') := fun h => by
    rw [e, e]
    exact div_lt_div_of_pos_right (gasZ_ratio t1 t4 p0 h) t0
  have s2 : p / (t' * Published.gasZ t' p) ≤ p' / (t' * Published.gasZ t' p') := by
    rcases pp.lt_or_eq with h | rfl
    · exact (s2' h).le
    · exact le_rfl
  have r0 : 0 < p' / (t' * Published.gasZ t' p') := lt_of_lt_of_le (by positivity) s2
  rw [mul_assoc, mul_assoc]
  refine mul_lt_mul_of_pos_left ?_ (by norm_num)
  rcases hlt with h | h | h
  · exact mul_lt_mul' hf.1 ((s1' (tt' h)).trans_le s2) (by have := w0.trans_le m1'; positivity) (f0.trans_le hf.1)
  · exact mul_lt_mul' hf.1 (s1.trans_lt (s2' (pp' h))) (by have := w0.trans_le m1'; positivity) (f0.trans_le hf.1)
  · exact mul_lt_mul_of_lt_of_le_of_nonneg_of_pos (hf.2 h) (s1.trans s2) f0.le r0

/-- Heavy gas at 40 °C and 30 MPa against methane at 120 °C and 10 MPa. -/
example := C183_gas_density (T := 120) (T' := 40) (P := 10e6) (P' := 30e6) (G := 0.6) (G' := 0.9) (by norm_num)
  (by norm_num) (by norm_num) (by norm_num) (by norm_num) (by norm_num) (by norm_num) (by norm_num) (by norm_num)
  (.inl (by norm_num))

end OPE.GasHeat
