import Verif.Props.SpanWagner2

/-!
# Carbon dioxide: dilute gas (C71, C89)
-/

namespace OPE.CO2

open Classical Filter Topology

/-- Tends to a limit and has a density derivative of order smaller than `1/δ` as the density goes to 0. -/
def Reg (e : Expr) (τ L : ℝ) : Prop :=
  Tendsto (fun δ => e.evalR δ τ) (𝓝[>] 0) (𝓝 L) ∧
  Tendsto (fun δ => δ * (e.diff .delta).evalR δ τ) (𝓝[>] 0) (𝓝 0)

theorem tendsto_delta : Tendsto (fun δ : ℝ => δ) (𝓝[>] 0) (𝓝 0) := tendsto_nhdsWithin_of_tendsto_nhds tendsto_id

theorem reg_num (x τ : ℝ) : Reg (.num x) τ x := by
  refine ⟨tendsto_const_nhds, ?_⟩
  simp only [Expr.diff, Expr.evalR, mul_zero]
  exact tendsto_const_nhds

theorem reg_tau (τ : ℝ) : Reg .tau τ τ := by
  refine ⟨tendsto_const_nhds, ?_⟩
  simp only [Expr.diff, Expr.evalR, mul_zero]
  exact tendsto_const_nhds

theorem reg_delta (τ : ℝ) : Reg .delta τ 0 := by
  refine ⟨tendsto_delta, ?_⟩
  simp only [Expr.diff, Expr.evalR, mul_one]
  exact tendsto_delta

theorem reg_add {a b : Expr} {τ L M : ℝ} (ha : Reg a τ L) (hb : Reg b τ M) : Reg (.add a b) τ (L + M) := by
  refine ⟨ha.1.add hb.1, ?_⟩
  have := ha.2.add hb.2
  simp only [add_zero] at this
  refine this.congr fun δ => ?_
  simp only [Expr.diff, Expr.evalR]; ring

theorem reg_mul {a b : Expr} {τ L M : ℝ} (ha : Reg a τ L) (hb : Reg b τ M) : Reg (.mul a b) τ (L * M) := by
  refine ⟨ha.1.mul hb.1, ?_⟩
  have := (ha.2.mul hb.1).add (ha.1.mul hb.2)
  simp only [zero_mul, mul_zero, add_zero] at this
  refine this.congr fun δ => ?_
  simp only [Expr.diff, Expr.evalR]; ring

theorem reg_npow {a : Expr} {τ L : ℝ} (ha : Reg a τ L) (k : ℕ) : Reg (.npow a k) τ (L ^ k) := by
  refine ⟨ha.1.pow k, ?_⟩
  have := ((ha.1.pow (k - 1)).const_mul (k : ℝ)).mul ha.2
  simp only [mul_zero] at this
  refine this.congr fun δ => ?_
  simp only [Expr.diff, Expr.evalR]; ring

theorem reg_exp {a : Expr} {τ L : ℝ} (ha : Reg a τ L) : Reg (.exp a) τ (Real.exp L) := by
  have h1 : Tendsto (fun δ => Real.exp (a.evalR δ τ)) (𝓝[>] 0) (𝓝 (Real.exp L)) :=
    (Real.continuous_exp.tendsto L).comp ha.1
  refine ⟨h1, ?_⟩
  have := h1.mul ha.2
  simp only [mul_zero] at this
  refine this.congr fun δ => ?_
  simp only [Expr.diff, Expr.evalR]; ring

theorem reg_pow {a : Expr} {τ L : ℝ} (ha : Reg a τ L) (hL : 0 < L) (x : ℝ) : Reg (.pow a x) τ (L ^ x) := by
  have h1 : ∀ y : ℝ, Tendsto (fun δ => a.evalR δ τ ^ y) (𝓝[>] 0) (𝓝 (L ^ y)) := fun y =>
    ha.1.rpow_const (.inl hL.ne')
  refine ⟨h1 x, ?_⟩
  have := (((h1 x).mul (h1 (-1))).const_mul x).mul ha.2
  simp only [mul_zero] at this
  refine this.congr fun δ => ?_
  simp only [Expr.diff, Expr.evalR]; ring

theorem tendsto_delta_rpow {d : ℝ} (hd : 0 < d) : Tendsto (fun δ : ℝ => δ ^ d) (𝓝[>] 0) (𝓝 0) := by
  have := tendsto_delta.rpow_const (p := d) (.inr hd.le)
  rwa [Real.zero_rpow hd.ne'] at this

theorem reg_pow_delta (τ : ℝ) {d : ℝ} (hd : 0 < d) : Reg (.pow .delta d) τ 0 := by
  refine ⟨tendsto_delta_rpow hd, ?_⟩
  have := (tendsto_delta_rpow hd).const_mul d
  rw [mul_zero] at this
  refine this.congr' ?_
  filter_upwards [self_mem_nhdsWithin] with δ hδ
  have h : δ ≠ 0 := (Set.mem_Ioi.mp hδ).ne'
  simp only [Expr.diff, Expr.evalR, Real.rpow_neg_one]
  field_simp

theorem group_pos :
    (∀ k ∈ group1, 0 < k.d) ∧ (∀ k ∈ group2, 0 < k.d ∧ 0 < k.c) ∧ (∀ k ∈ group3, 0 < k.d) ∧
      ∀ k ∈ group4, 0 < k.B := by
  refine ⟨?_, ?_, ?_, ?_⟩ <;> (intro k hk; fin_cases hk <;> norm_num)

theorem reg_deltaOff (τ : ℝ) : Reg deltaOff τ 1 := by
  have := reg_npow (reg_add (reg_delta τ) (reg_num (-1) τ)) 2
  norm_num at this
  exact this

theorem reg_bigDelta {k : Group4} (hB : 0 < k.B) (τ : ℝ) : ∃ L, 0 < L ∧ Reg (bigDeltaExpr k) τ L := by
  have h1 := reg_pow (reg_deltaOff τ) one_pos (1 / (2 * k.beta))
  have h2 := reg_pow (reg_deltaOff τ) one_pos k.a
  have h3 := reg_add (reg_add (reg_num 1 τ) (reg_mul (reg_num (-1) τ) (reg_tau τ))) (reg_mul (reg_num k.A τ) h1)
  have h4 := reg_add (reg_npow h3 2) (reg_mul (reg_num k.B τ) h2)
  refine ⟨_, ?_, h4⟩
  rw [Real.one_rpow, Real.one_rpow, mul_one, mul_one]
  positivity

/-- Every term of the residual part vanishes with the density, and so does `δ` times its derivative. -/
theorem reg_terms {e : Expr} (he : e ∈ terms) {τ : ℝ} (hτ : 0 < τ) : Reg e τ 0 := by
  obtain ⟨g1, g2, g3, g4⟩ := group_pos
  have ht := fun t : ℝ => reg_pow (reg_tau τ) hτ t
  simp only [terms, List.mem_append, List.mem_map] at he
  rcases he with ((⟨k, hk, rfl⟩ | ⟨k, hk, rfl⟩) | ⟨k, hk, rfl⟩) | ⟨k, hk, rfl⟩
  · have := reg_mul (reg_mul (reg_num k.n τ) (reg_pow_delta τ (g1 k hk))) (ht k.t)
    rwa [mul_zero, zero_mul] at this
  · have := reg_mul (reg_mul (reg_mul (reg_num k.n τ) (reg_pow_delta τ (g2 k hk).1)) (ht k.t))
      (reg_exp (reg_mul (reg_num (-1) τ) (reg_pow_delta τ (g2 k hk).2)))
    rwa [mul_zero, zero_mul, zero_mul] at this
  · have := reg_mul (reg_mul (reg_mul (reg_num k.n τ) (reg_pow_delta τ (g3 k hk))) (ht k.t))
      (reg_exp (reg_add
        (reg_mul (reg_num (-k.alpha) τ) (reg_npow (reg_add (reg_delta τ) (reg_num (-k.epsilon) τ)) 2))
        (reg_mul (reg_num (-k.beta) τ) (reg_npow (reg_add (reg_tau τ) (reg_num (-k.gamma) τ)) 2))))
    rwa [mul_zero, zero_mul, zero_mul] at this
  · obtain ⟨L, hL, h⟩ := reg_bigDelta (g4 k hk) τ
    have := reg_mul (reg_mul (reg_mul (reg_num k.n τ) (reg_pow h hL k.b)) (reg_delta τ))
      (reg_exp (reg_add (reg_mul (reg_num (-k.C) τ) (reg_deltaOff τ))
        (reg_mul (reg_num (-k.D) τ) (reg_npow (reg_add (reg_tau τ) (reg_num (-1) τ)) 2))))
    rwa [mul_zero, zero_mul] at this

theorem tendsto_list_sum {α : Type} (l : List α) (f : α → ℝ → ℝ)
    (h : ∀ a ∈ l, Tendsto (f a) (𝓝[>] 0) (𝓝 0)) :
    Tendsto (fun δ => (l.map fun a => f a δ).sum) (𝓝[>] 0) (𝓝 0) := by
  induction l with
  | nil => exact tendsto_const_nhds
  | cons a l ih =>
    simp only [List.map_cons, List.sum_cons]
    have := (h a (by simp)).add (ih fun b hb => h b (by simp [hb]))
    rwa [add_zero] at this

theorem tendsto_compress {τ : ℝ} (hτ : 0 < τ) : Tendsto (fun δ => δ * resR 1 0 δ τ) (𝓝[>] 0) (𝓝 0) := by
  have := tendsto_list_sum terms (fun e δ => δ * (e.diffs 1 0).evalR δ τ) fun e he => (reg_terms he hτ).2
  refine this.congr fun δ => ?_
  unfold resR
  rw [← List.sum_map_mul_left]

/-! ### The second `tau`-derivative of the terms -/

/-- The factors of a term that carry the density as a vanishing factor. -/
theorem tau_const_mul (a b : Expr) (δ τ : ℝ) (h1 : (a.diff .tau).evalR δ τ = 0)
    (h2 : ((a.diff .tau).diff .tau).evalR δ τ = 0) :
    ((Expr.mul a b).diffs 0 2).evalR δ τ = a.evalR δ τ * (b.diffs 0 2).evalR δ τ := by
  simp only [Expr.diffs, Function.iterate_zero, id, Function.iterate_succ_apply', Expr.diff, Expr.evalR, h1, h2]
  ring

theorem tendsto_of_good {e : Expr} {τ : ℝ} (h : e.Good 0 τ) :
    Tendsto (fun δ => e.evalR δ τ) (𝓝[>] 0) (𝓝 (e.evalR 0 τ)) :=
  tendsto_nhdsWithin_of_tendsto_nhds (hasDerivAt_delta h).continuousAt.tendsto

theorem tauTau_terms {e : Expr} (he : e ∈ terms) {τ : ℝ} (hτ : 0 < τ) :
    Tendsto (fun δ => (e.diffs 0 2).evalR δ τ) (𝓝[>] 0) (𝓝 0) := by
  obtain ⟨g1, g2, g3, g4⟩ := group_pos
  simp only [terms, List.mem_append, List.mem_map] at he
  rcases he with ((⟨k, hk, rfl⟩ | ⟨k, hk, rfl⟩) | ⟨k, hk, rfl⟩) | ⟨k, hk, rfl⟩
  · have hb : Expr.Good (.pow .tau k.t) 0 τ := ⟨trivial, hτ⟩
    have h1 := ((tendsto_delta_rpow (g1 k hk)).const_mul k.n).mul (tendsto_of_good (good_diffs 0 2 hb))
    rw [mul_zero, zero_mul] at h1
    refine h1.congr fun δ => ?_
    unfold s1
    rw [tau_const_mul _ _ _ _ (by simp [Expr.diff, Expr.evalR]) (by simp [Expr.diff, Expr.evalR])]
    rfl
  · have hb : Expr.Good (.pow .tau k.t) 0 τ := ⟨trivial, hτ⟩
    have hexp := (reg_exp (reg_mul (reg_num (-1) τ) (reg_pow_delta τ (g2 k hk).2))).1
    have h1 := (((tendsto_delta_rpow (g2 k hk).1).const_mul k.n).mul (tendsto_of_good (good_diffs 0 2 hb))).mul hexp
    rw [mul_zero, zero_mul, zero_mul] at h1
    refine h1.congr fun δ => ?_
    simp only [s2, Expr.diffs, Function.iterate_zero, id, Function.iterate_succ_apply', Expr.diff, Expr.evalR]
    ring
  · have hb : Expr.Good (.mul (.pow .tau k.t)
        (.exp (.add (.mul (.num (-k.alpha)) (.npow (.add .delta (.num (-k.epsilon))) 2))
          (.mul (.num (-k.beta)) (.npow (.add .tau (.num (-k.gamma))) 2))))) 0 τ :=
      ⟨⟨trivial, hτ⟩, ⟨trivial, trivial, trivial⟩, trivial, trivial, trivial⟩
    have h1 := ((tendsto_delta_rpow (g3 k hk)).const_mul k.n).mul (tendsto_of_good (good_diffs 0 2 hb))
    rw [mul_zero, zero_mul] at h1
    refine h1.congr fun δ => ?_
    simp only [s3, Expr.diffs, Function.iterate_zero, id, Function.iterate_succ_apply', Expr.diff, Expr.evalR]
    ring
  · have hoff : (0:ℝ) < ((0:ℝ) + -1) ^ 2 := by norm_num
    have hB : Expr.Good (bigDeltaExpr k) 0 τ :=
      ⟨⟨⟨trivial, trivial, trivial⟩, trivial, ⟨trivial, trivial⟩, hoff⟩, trivial, ⟨trivial, trivial⟩, hoff⟩
    have hBpos : 0 < (bigDeltaExpr k).evalR 0 τ := by
      change 0 < (thetaExpr k).evalR 0 τ ^ 2 + k.B * (((0:ℝ) + -1) ^ 2) ^ k.a
      have h1 := Real.rpow_pos_of_pos hoff k.a
      have h2 := g4 k hk
      positivity
    have hb : Expr.Good (.mul (.pow (bigDeltaExpr k) k.b) (bigPhiExpr k)) 0 τ :=
      ⟨⟨hB, hBpos⟩, ⟨trivial, trivial, trivial⟩, trivial, trivial, trivial⟩
    have h1 := (tendsto_delta.const_mul k.n).mul (tendsto_of_good (good_diffs 0 2 hb))
    rw [mul_zero, zero_mul] at h1
    refine h1.congr fun δ => ?_
    unfold s4
    generalize Expr.pow (bigDeltaExpr k) k.b = B
    generalize bigPhiExpr k = Φ
    simp only [Expr.diffs, Function.iterate_zero, id, Function.iterate_succ_apply', Expr.diff, Expr.evalR]
    ring

theorem tendsto_tauTau {τ : ℝ} (hτ : 0 < τ) : Tendsto (fun δ => resR 0 2 δ τ) (𝓝[>] 0) (𝓝 0) :=
  tendsto_list_sum terms (fun e δ => (e.diffs 0 2).evalR δ τ) fun e he => tauTau_terms he hτ

theorem eventually_scaled {p : ℝ → Prop} (h : ∀ᶠ δ in 𝓝[>] (0:ℝ), p δ) :
    ∀ᶠ ρ in 𝓝[>] (0:ℝ), p (nudgeR (ρ / criticalDensity)) := by
  have hc : (0:ℝ) < criticalDensity := by norm_num [criticalDensity]
  have h1 : Tendsto (fun ρ : ℝ => ρ / criticalDensity) (𝓝[>] 0) (𝓝[>] 0) := by
    refine tendsto_nhdsWithin_iff.mpr ⟨?_, ?_⟩
    · have := tendsto_delta.div_const criticalDensity
      rwa [zero_div] at this
    · filter_upwards [self_mem_nhdsWithin] with ρ hρ
      exact div_pos hρ hc
  have h2 := h1.eventually h
  have h3 : ∀ᶠ ρ in 𝓝[>] (0:ℝ), ρ < criticalDensity :=
    nhdsWithin_le_nhds (isOpen_Iio.mem_nhds hc)
  filter_upwards [h2, h3] with ρ h4 h5
  have : ρ / criticalDensity ≠ 1 := by
    rw [Ne, div_eq_one_iff_eq hc.ne']; exact h5.ne
  rwa [nudgeR_of_ne this]

/-- **C71, dilute gas.** At every temperature the isentropic bulk modulus is at least the isothermal one for
all sufficiently small densities. -/
theorem C71_dilute (k : Kind) {T : ℝ} (hT : 0 < T) : ∃ ρ₀ : ℝ, 0 < ρ₀ ∧ ∀ ρ : ℝ, 0 < ρ → ρ < ρ₀ →
    (∃ h : ℝ, helmholtz (k.after (Num.fin (ρ / criticalDensity)))
      (k.after (Num.fin (criticalTemperature / T))) 0 2 = .ok (Num.fin h) ∧ h < 0) ∧
    ∃ d Ks : ℝ, pressure k (Num.fin T) (Num.fin ρ) 1 0 false = .ok (some (Num.fin d)) ∧
      bulkModulus k (Num.fin T) (Num.fin ρ) = .ok (Num.fin Ks) ∧ ρ * d * 1e6 ≤ Ks := by
  have hc : (0:ℝ) < criticalDensity := by norm_num [criticalDensity]
  have ht : (0:ℝ) < criticalTemperature := by norm_num [criticalTemperature]
  have hτ := div_pos ht hT
  have hneg := idealTT_neg (afterR_pos k hτ)
  have h1 : ∀ᶠ δ in 𝓝[>] (0:ℝ), resR 0 2 δ (nudgeR (criticalTemperature / T))
      < -idealTT (k.afterR (criticalTemperature / T)) :=
    (tendsto_tauTau (nudgeR_pos hτ)).eventually_lt_const (by linarith)
  have h2 := eventually_scaled h1
  obtain ⟨ρ₀, hρ₀, h3⟩ := mem_nhdsGT_iff_exists_Ioo_subset.mp h2
  refine ⟨ρ₀, hρ₀, fun ρ hp hlt => ?_⟩
  have h4 := h3 ⟨hp, hlt⟩
  have hd := div_pos hp hc
  have hh := helmholtz02_fin (afterR_pos k hd) (afterR_pos k hτ)
  rw [← after_fin, ← after_fin, nudgeR_after, nudgeR_after] at hh
  have hn : idealTT (k.afterR (criticalTemperature / T)) + resR 0 2 (nudgeR (ρ / criticalDensity))
      (nudgeR (criticalTemperature / T)) < 0 := by
    have : resR 0 2 (nudgeR (ρ / criticalDensity)) (nudgeR (criticalTemperature / T))
      < -idealTT (k.afterR (criticalTemperature / T)) := h4
    linarith
  exact ⟨⟨_, hh, hn⟩, C71_isentropic_ge_isothermal k hT hp hh hn⟩

/-- **C89.** At every temperature the pressure approaches that of an ideal gas, `ρ R T`, as the density goes
to 0: the ratio tends to 1. -/
theorem C89_ideal_gas_limit (k : Kind) {T : ℝ} (hT : 0 < T) : ∃ p : ℝ → ℝ,
    (∀ ρ, 0 < ρ → ∀ b, pressure k (Num.fin T) (Num.fin ρ) 0 0 b = .ok (some (Num.fin (p ρ)))) ∧
    Tendsto (fun ρ => p ρ * 1e6 / (ρ * gasConstant * T)) (𝓝[>] 0) (𝓝 1) := by
  have hc : (0:ℝ) < criticalDensity := by norm_num [criticalDensity]
  have ht : (0:ℝ) < criticalTemperature := by norm_num [criticalTemperature]
  have hg : (0:ℝ) < gasConstant := by norm_num [gasConstant]
  have hτ := div_pos ht hT
  obtain ⟨p, -, -, hp, -⟩ := C67_pressure_derivative k hT
  refine ⟨p, hp, ?_⟩
  have h1 := (tendsto_compress (nudgeR_pos hτ)).const_add 1
  rw [add_zero] at h1
  have h2 : Tendsto (fun ρ : ℝ => ρ / criticalDensity) (𝓝[>] 0) (𝓝[>] 0) := by
    refine tendsto_nhdsWithin_iff.mpr ⟨?_, ?_⟩
    · have := tendsto_delta.div_const criticalDensity
      rwa [zero_div] at this
    · filter_upwards [self_mem_nhdsWithin] with ρ hρ
      exact div_pos hρ hc
  refine (h1.comp h2).congr' ?_
  have h3 : ∀ᶠ ρ in 𝓝[>] (0:ℝ), ρ < criticalDensity :=
    nhdsWithin_le_nhds (isOpen_Iio.mem_nhds hc)
  filter_upwards [self_mem_nhdsWithin, h3] with ρ hρ h4
  have hρ' : 0 < ρ := hρ
  have hne : ρ / criticalDensity ≠ 1 := by
    rw [Ne, div_eq_one_iff_eq hc.ne']; exact h4.ne
  have e := hp ρ hρ' false
  unfold pressure at e
  rw [kind_div_fin k _ hT.ne', bind_ok, failIf_false (by simp), bind_ok] at e
  change (pressure0 k (Num.fin T) (Num.fin ρ) >>= fun p => .ok (some p)) = _ at e
  rw [pressure0_fin k hT hρ', bind_ok] at e
  injection e with e
  injection e with e
  rw [Num.fin_inj] at e
  rw [← e]
  unfold pR
  rw [afterR_of_ne k hne, nudgeR_of_ne hne]
  simp only [Function.comp]
  have := hρ'.ne'
  have := hT.ne'
  have := hg.ne'
  field_simp

end OPE.CO2
