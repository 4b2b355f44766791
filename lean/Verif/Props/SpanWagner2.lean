import Verif.Props.SpanWagner

/-!
# Carbon dioxide: ideal gas part, pressure and bulk modulus (C66, C67, C71)
-/

namespace OPE.CO2

open Classical

/-! ## C66: ideal gas part -/

/-- One term of a sum over the Einstein coefficients. -/
theorem einsteinSum_fin (f : ℝ × ℝ → Num) (g : ℝ × ℝ → ℝ) (h : ∀ k ∈ einstein, f k = Num.fin (g k)) :
    einsteinSum f = Num.fin (sumOver einstein g) := by
  unfold einsteinSum sumOver
  have : einstein.map f = (einstein.map g).map Num.fin := by
    rw [List.map_map]
    exact List.map_congr_left h
  rw [this, foldl_fin, zero_add]

theorem einstein_pos {k : ℝ × ℝ} (hk : k ∈ einstein) : 0 < k.1 ∧ 0 < k.2 := by
  simp only [einstein, List.mem_cons, List.not_mem_nil, or_false] at hk
  rcases hk with rfl | rfl | rfl | rfl | rfl <;> norm_num

theorem oneMinus_pos {θ τ : ℝ} (hθ : 0 < θ) (hτ : 0 < τ) : 0 < 1 - Real.exp (-θ * τ) := by
  have : Real.exp (-θ * τ) < 1 := by
    rw [Real.exp_lt_one_iff]
    nlinarith [mul_pos hθ hτ]
  linarith

theorem oneMinusExp_fin (θ τ : ℝ) : oneMinusExp θ (Num.fin τ) = Num.fin (1 - Real.exp (-θ * τ)) := by
  simp [oneMinusExp]

/-- The derivative with respect to `tau`. -/
noncomputable def idealT (τ : ℝ) : ℝ :=
  a2 + a3 / τ + sumOver einstein fun k => k.1 * k.2 * ((1 - Real.exp (-k.2 * τ))⁻¹ - 1)

/-- The second derivative with respect to `tau`. -/
noncomputable def idealTT (τ : ℝ) : ℝ :=
  -a3 / τ ^ 2 - sumOver einstein fun k =>
    k.1 * k.2 ^ 2 * Real.exp (-k.2 * τ) * ((1 - Real.exp (-k.2 * τ)) ^ 2)⁻¹

theorem idealGas_values {δ τ : ℝ} (hδ : 0 < δ) (hτ : 0 < τ) :
    idealGas (Num.fin δ) (Num.fin τ) 0 0 = .ok (Num.fin (phiIdeal δ τ)) ∧
    idealGas (Num.fin δ) (Num.fin τ) 0 1 = .ok (Num.fin (idealT τ)) ∧
    idealGas (Num.fin δ) (Num.fin τ) 0 2 = .ok (Num.fin (idealTT τ)) ∧
    idealGas (Num.fin δ) (Num.fin τ) 1 0 = .ok (Num.fin (1 / δ)) ∧
    idealGas (Num.fin δ) (Num.fin τ) 2 0 = .ok (Num.fin (-1 / δ ^ 2)) ∧
    idealGas (Num.fin δ) (Num.fin τ) 1 1 = .ok (Num.fin 0) := by
  refine ⟨?_, ?_, ?_, ?_, ?_, rfl⟩
  · unfold idealGas phiIdeal
    rw [einsteinSum_fin _ (fun k => k.1 * Real.log (1 - Real.exp (-k.2 * τ))) fun k hk => by
      rw [oneMinusExp_fin, Num.fin_log (oneMinus_pos (einstein_pos hk).2 hτ), Num.fin_mul]]
    simp [hδ, hτ]
  · simp only [idealGas, idealT]
    rw [einsteinSum_fin _ (fun k => k.1 * k.2 * ((1 - Real.exp (-k.2 * τ))⁻¹ - 1)) fun k hk => by
      rw [oneMinusExp_fin, Num.fin_powi_neg_one (oneMinus_pos (einstein_pos hk).2 hτ).ne', Num.fin_mul,
        Num.fin_sub, Num.fin_mul]]
    simp [hτ.ne']
  · simp only [idealGas, idealTT]
    rw [einsteinSum_fin _ (fun k => k.1 * k.2 ^ 2 * Real.exp (-k.2 * τ) * ((1 - Real.exp (-k.2 * τ)) ^ 2)⁻¹)
      fun k hk => by
      rw [oneMinusExp_fin, Num.fin_powi (oneMinus_pos (einstein_pos hk).2 hτ).ne', Num.fin_powi_two,
        Num.fin_mul, Num.fin_mul, Num.fin_exp, Num.fin_mul, Num.fin_mul]
      rfl]
    simp [hτ.ne']
  · simp [idealGas, hδ.ne']
  · simp [idealGas, hδ.ne']

theorem einstein_deriv {k : ℝ × ℝ} (hk : k ∈ einstein) {τ : ℝ} (hτ : 0 < τ) :
    HasDerivAt (fun t => k.1 * Real.log (1 - Real.exp (-k.2 * t)))
      (k.1 * k.2 * ((1 - Real.exp (-k.2 * τ))⁻¹ - 1)) τ ∧
    HasDerivAt (fun t => k.1 * k.2 * ((1 - Real.exp (-k.2 * t))⁻¹ - 1))
      (-(k.1 * k.2 ^ 2 * Real.exp (-k.2 * τ) * ((1 - Real.exp (-k.2 * τ)) ^ 2)⁻¹)) τ := by
  have hp := oneMinus_pos (einstein_pos hk).2 hτ
  have he : HasDerivAt (fun t => 1 - Real.exp (-k.2 * t)) (-(Real.exp (-k.2 * τ) * -k.2)) τ := by
    have h1 : HasDerivAt (fun t => -k.2 * t) (-k.2) τ := by
      simpa using (hasDerivAt_id τ).const_mul (-k.2)
    exact h1.exp.const_sub 1
  constructor
  · refine ((he.log hp.ne').const_mul k.1).congr_deriv ?_
    generalize Real.exp (-k.2 * τ) = e at hp
    have := hp.ne'
    field_simp
    ring
  · refine (((he.inv hp.ne').sub_const 1).const_mul (k.1 * k.2)).congr_deriv ?_
    generalize Real.exp (-k.2 * τ) = e at hp
    have := hp.ne'
    field_simp
    try ring

theorem sum_neg_map {α : Type} (l : List α) (f : α → ℝ) : (l.map fun a => -f a).sum = -(l.map f).sum := by
  induction l with
  | nil => simp
  | cons a l ih => simp only [List.map_cons, List.sum_cons, ih]; ring

/-- **C66.** For positive arguments every supported order of the ideal gas Helmholtz energy is a number,
order (0,0) is equation 2.3 of Span & Wagner, and each further order is the derivative of the one before in
that variable; all other orders raise `NotImplementedError`. -/
theorem C66_ideal_gas_derivatives : ∃ f : ℕ → ℕ → ℝ → ℝ → ℝ,
    (∀ δ τ, f 0 0 δ τ = phiIdeal δ τ) ∧
    (∀ dd dt, dd + dt ≤ 2 → ∀ δ τ, 0 < δ → 0 < τ →
      idealGas (Num.fin δ) (Num.fin τ) dd dt = .ok (Num.fin (f dd dt δ τ))) ∧
    (∀ dd dt, dd + dt ≤ 1 → ∀ δ τ, 0 < δ → 0 < τ →
      HasDerivAt (fun x => f dd dt x τ) (f (dd + 1) dt δ τ) δ ∧
      HasDerivAt (fun x => f dd dt δ x) (f dd (dt + 1) δ τ) τ) ∧
    ∀ dd dt, 2 < dd + dt → ∀ δ τ : Num, idealGas δ τ dd dt = .error .notImplemented := by
  refine ⟨fun dd dt δ τ => match dd, dt with
    | 0, 0 => phiIdeal δ τ
    | 0, 1 => idealT τ
    | 0, 2 => idealTT τ
    | 1, 0 => 1 / δ
    | 2, 0 => -1 / δ ^ 2
    | _, _ => 0, fun _ _ => rfl, ?_, ?_, ?_⟩
  · intro dd dt h δ τ hδ hτ
    obtain ⟨h1, h2, h3, h4, h5, h6⟩ := idealGas_values hδ hτ
    have : (dd = 0 ∧ dt = 0) ∨ (dd = 0 ∧ dt = 1) ∨ (dd = 0 ∧ dt = 2) ∨ (dd = 1 ∧ dt = 0) ∨
      (dd = 1 ∧ dt = 1) ∨ (dd = 2 ∧ dt = 0) := by omega
    rcases this with ⟨rfl, rfl⟩ | ⟨rfl, rfl⟩ | ⟨rfl, rfl⟩ | ⟨rfl, rfl⟩ | ⟨rfl, rfl⟩ | ⟨rfl, rfl⟩
    exacts [h1, h2, h3, h4, h6, h5]
  · intro dd dt h δ τ hδ hτ
    have : (dd = 0 ∧ dt = 0) ∨ (dd = 0 ∧ dt = 1) ∨ (dd = 1 ∧ dt = 0) := by omega
    have hsum1 := hasDerivAt_list_sum einstein (fun k t => k.1 * Real.log (1 - Real.exp (-k.2 * t))) _ τ
      fun k hk => (einstein_deriv hk hτ).1
    have hsum2 := hasDerivAt_list_sum einstein
      (fun k t => k.1 * k.2 * ((1 - Real.exp (-k.2 * t))⁻¹ - 1)) _ τ
      fun k hk => (einstein_deriv hk hτ).2
    rcases this with ⟨rfl, rfl⟩ | ⟨rfl, rfl⟩ | ⟨rfl, rfl⟩
    · constructor
      · dsimp only
        unfold phiIdeal
        have := (((((Real.hasDerivAt_log hδ.ne').add_const a1).add_const (a2 * τ)).add_const
          (a3 * Real.log τ)).add_const (sumOver einstein fun k => k.1 * Real.log (1 - Real.exp (-k.2 * τ))))
        simpa using this
      · change HasDerivAt (fun x => phiIdeal δ x) (idealT τ) τ
        unfold phiIdeal idealT sumOver
        have h2 : HasDerivAt (fun x : ℝ => a2 * x) a2 τ := by
          simpa using (hasDerivAt_id τ).const_mul a2
        have h3 := (Real.hasDerivAt_log hτ.ne').const_mul a3
        have := (((hasDerivAt_const τ (Real.log δ + a1)).add h2).add h3).add hsum1
        refine this.congr_deriv ?_
        rw [zero_add, div_eq_mul_inv]
    · constructor
      · dsimp only
        exact hasDerivAt_const _ _
      · change HasDerivAt idealT (idealTT τ) τ
        unfold idealT idealTT sumOver
        have h3 : HasDerivAt (fun x : ℝ => a3 / x) (-a3 / τ ^ 2) τ := by
          have := (hasDerivAt_inv hτ.ne').const_mul a3
          refine this.congr_deriv ?_
          ring
        have := ((hasDerivAt_const τ a2).add h3).add hsum2
        refine this.congr_deriv ?_
        rw [zero_add, sub_eq_add_neg]
        congr 1
        exact (sum_neg_map _ _)
    · constructor
      · dsimp only
        have := hasDerivAt_inv hδ.ne'
        simp only [one_div]
        refine this.congr_deriv ?_
        ring
      · dsimp only
        exact hasDerivAt_const _ _
  · intro dd dt h δ τ
    unfold idealGas
    split <;> first | (simp at h) | rfl

/-- The second `tau`-derivative of the ideal gas part is negative. -/
theorem idealTT_neg {τ : ℝ} (hτ : 0 < τ) : idealTT τ < 0 := by
  have h1 : -a3 / τ ^ 2 < 0 := by
    have : (0:ℝ) < τ ^ 2 := by positivity
    rw [neg_div]
    have : 0 < a3 / τ ^ 2 := div_pos (by norm_num [a3]) this
    linarith
  have h2 : 0 ≤ sumOver einstein fun k =>
      k.1 * k.2 ^ 2 * Real.exp (-k.2 * τ) * ((1 - Real.exp (-k.2 * τ)) ^ 2)⁻¹ := by
    unfold sumOver
    apply List.sum_nonneg
    intro x hx
    obtain ⟨k, hk, rfl⟩ := List.mem_map.mp hx
    have := (einstein_pos hk).1
    have := (einstein_pos hk).2
    positivity
  unfold idealTT
  linarith

/-! ## C67: residual part and pressure -/

/-- The value a variable has inside the residual part. -/
noncomputable def nudgeR (x : ℝ) : ℝ := if x = 1 then 1 - 1e-15 else x

theorem nudge_fin (x : ℝ) : nudge (Num.fin x) = Num.fin (nudgeR x) := by
  unfold nudge nudgeR
  by_cases h : x = 1
  · simp [h]
  · simp [h]

theorem nudgeR_ne (x : ℝ) : nudgeR x ≠ 1 := by
  unfold nudgeR
  split
  · norm_num
  · assumption

theorem nudgeR_pos {x : ℝ} (h : 0 < x) : 0 < nudgeR x := by
  unfold nudgeR
  split
  · norm_num
  · exact h

theorem nudgeR_of_ne {x : ℝ} (h : x ≠ 1) : nudgeR x = x := if_neg h

theorem residual_fin {dd dt : ℕ} (h : dd + dt ≤ 2) {δ τ : ℝ} (hδ : 0 < δ) (hτ : 0 < τ) :
    residual (Num.fin δ) (Num.fin τ) dd dt = .ok (Num.fin (resR dd dt (nudgeR δ) (nudgeR τ))) := by
  unfold residual
  rw [if_pos h, nudge_fin, nudge_fin, residualAt_fin dd dt (nudgeR_pos hδ) (nudgeR_pos hτ) (nudgeR_ne δ)]

/-- **C67, residual part.** For positive reduced density and temperature other than 1 every order up to 2 of
the residual Helmholtz energy is a number, order (0,0) is equation 6.5 of Span & Wagner, and each further
order is the derivative of the one before; higher orders raise `KeyError`. -/
theorem C67_residual_derivatives : ∃ f : ℕ → ℕ → ℝ → ℝ → ℝ,
    (∀ δ τ, f 0 0 δ τ = phiResidual δ τ) ∧
    (∀ dd dt, dd + dt ≤ 2 → ∀ δ τ, 0 < δ → 0 < τ → δ ≠ 1 → τ ≠ 1 →
      residual (Num.fin δ) (Num.fin τ) dd dt = .ok (Num.fin (f dd dt δ τ))) ∧
    (∀ dd dt, dd + dt ≤ 1 → ∀ δ τ, 0 < δ → 0 < τ → δ ≠ 1 →
      HasDerivAt (fun x => f dd dt x τ) (f (dd + 1) dt δ τ) δ ∧
      HasDerivAt (fun x => f dd dt δ x) (f dd (dt + 1) δ τ) τ) ∧
    ∀ dd dt, 2 < dd + dt → ∀ δ τ : Num, residual δ τ dd dt = .error .keyError := by
  refine ⟨resR, resR_zero, ?_, ?_, ?_⟩
  · intro dd dt h δ τ hδ hτ h1 h2
    rw [residual_fin h hδ hτ, nudgeR_of_ne h1, nudgeR_of_ne h2]
  · intro dd dt h δ τ hδ hτ h1
    exact ⟨resR_deriv_delta h hδ hτ h1, resR_deriv_tau dd dt hδ hτ h1⟩
  · intro dd dt h δ τ
    unfold residual
    rw [if_neg (by omega)]

theorem kind_div_fin (k : Kind) (a : ℝ) {b : ℝ} (h : b ≠ 0) :
    k.div (Num.fin a) (Num.fin b) = .ok (Num.fin (a / b)) := by
  cases k <;> simp [Kind.div, h]

/-- The value a variable has after a call of the residual part. -/
noncomputable def Kind.afterR (k : Kind) (x : ℝ) : ℝ :=
  match k with
  | .array => nudgeR x
  | .single => x

theorem after_fin (k : Kind) (x : ℝ) : k.after (Num.fin x) = Num.fin (k.afterR x) := by
  cases k
  · exact nudge_fin x
  · rfl

theorem nudgeR_after (k : Kind) (x : ℝ) : nudgeR (k.afterR x) = nudgeR x := by
  cases k
  · exact nudgeR_of_ne (nudgeR_ne x)
  · rfl

theorem afterR_pos (k : Kind) {x : ℝ} (h : 0 < x) : 0 < k.afterR x := by
  cases k
  · exact nudgeR_pos h
  · exact h

theorem afterR_of_ne (k : Kind) {x : ℝ} (h : x ≠ 1) : k.afterR x = x := by
  cases k
  · exact nudgeR_of_ne h
  · rfl

theorem mega_ne : (1e6 : ℝ) ≠ 0 := by norm_num

/-- Pressure over the reals. -/
noncomputable def pR (k : Kind) (T ρ : ℝ) : ℝ :=
  ρ * gasConstant * T * (1 + k.afterR (ρ / criticalDensity) *
    resR 1 0 (nudgeR (ρ / criticalDensity)) (nudgeR (criticalTemperature / T))) / 1e6

theorem pressure0_fin (k : Kind) {T ρ : ℝ} (hT : 0 < T) (hρ : 0 < ρ) :
    pressure0 k (Num.fin T) (Num.fin ρ) = .ok (Num.fin (pR k T ρ)) := by
  have hc : (0:ℝ) < criticalDensity := by norm_num [criticalDensity]
  have ht : (0:ℝ) < criticalTemperature := by norm_num [criticalTemperature]
  unfold pressure0
  rw [kind_div_fin k _ hT.ne', bind_ok]
  dsimp only
  rw [Num.fin_div _ hc.ne', residual_fin (by norm_num) (div_pos hρ hc) (div_pos ht hT), bind_ok, after_fin]
  rw [Num.fin_mul, Num.fin_mul, Num.fin_mul, Num.fin_add, Num.fin_mul, Num.fin_div _ mega_ne]
  rfl

/-- Pressure derivative over the reals; `third` is the isentropic correction. -/
noncomputable def dpR (k : Kind) (third T ρ : ℝ) : ℝ :=
  T * gasConstant * (1
    + 2 * (ρ / criticalDensity) * resR 1 0 (nudgeR (ρ / criticalDensity)) (nudgeR (criticalTemperature / T))
    + k.afterR (ρ / criticalDensity) ^ 2 *
        resR 2 0 (nudgeR (ρ / criticalDensity)) (nudgeR (criticalTemperature / T)) + third) / 1e6

/-- The last term of the speed of sound. -/
noncomputable def soundTerm (δ τ : ℝ) : ℝ :=
  (1 + δ * resR 1 0 (nudgeR δ) (nudgeR τ) - δ * τ * resR 1 1 (nudgeR δ) (nudgeR τ)) ^ 2 /
    (τ ^ 2 * (idealTT τ + resR 0 2 (nudgeR δ) (nudgeR τ)))

/-- The isentropic correction over the reals. -/
noncomputable def thirdR (k : Kind) (T ρ : ℝ) : ℝ :=
  -soundTerm (k.afterR (ρ / criticalDensity)) (k.afterR (criticalTemperature / T))

theorem pressure1_fin (k : Kind) {T ρ : ℝ} (hT : 0 < T) (hρ : 0 < ρ) :
    pressure1 k false (Num.fin T) (Num.fin ρ) = .ok (Num.fin (dpR k 0 T ρ)) := by
  have hc : (0:ℝ) < criticalDensity := by norm_num [criticalDensity]
  have ht : (0:ℝ) < criticalTemperature := by norm_num [criticalTemperature]
  have hd := div_pos hρ hc
  have hτ := div_pos ht hT
  unfold pressure1
  rw [kind_div_fin k _ hT.ne', bind_ok]
  dsimp only
  rw [Num.fin_div _ hc.ne', residual_fin (by norm_num) hd hτ, bind_ok, after_fin, after_fin,
    residual_fin (by norm_num) (afterR_pos k hd) (afterR_pos k hτ), bind_ok, nudgeR_after, nudgeR_after]
  rw [if_neg (by simp), bind_ok]
  simp only [Num.fin_mul, Num.fin_powi_two, Num.fin_add, Num.fin_div _ mega_ne]
  rfl

theorem helmholtz02_fin {δ τ : ℝ} (hδ : 0 < δ) (hτ : 0 < τ) :
    helmholtz (Num.fin δ) (Num.fin τ) 0 2 =
      .ok (Num.fin (idealTT τ + resR 0 2 (nudgeR δ) (nudgeR τ))) := by
  unfold helmholtz
  rw [(idealGas_values hδ hτ).2.2.1, bind_ok, residual_fin (by norm_num) hδ hτ, bind_ok, Num.fin_add]

theorem pressure1_isentropic_fin (k : Kind) {T ρ : ℝ} (hT : 0 < T) (hρ : 0 < ρ)
    (hh : idealTT (k.afterR (criticalTemperature / T)) + resR 0 2 (nudgeR (ρ / criticalDensity))
      (nudgeR (criticalTemperature / T)) ≠ 0) :
    pressure1 k true (Num.fin T) (Num.fin ρ) = .ok (Num.fin (dpR k (thirdR k T ρ) T ρ)) := by
  have hc : (0:ℝ) < criticalDensity := by norm_num [criticalDensity]
  have ht : (0:ℝ) < criticalTemperature := by norm_num [criticalTemperature]
  have hd := div_pos hρ hc
  have hτ := div_pos ht hT
  have hd' := afterR_pos k hd
  have hτ' := afterR_pos k hτ
  have hne : k.afterR (criticalTemperature / T) ^ 2 * (idealTT (k.afterR (criticalTemperature / T))
      + resR 0 2 (nudgeR (ρ / criticalDensity)) (nudgeR (criticalTemperature / T))) ≠ 0 :=
    mul_ne_zero (pow_ne_zero _ hτ'.ne') hh
  unfold pressure1
  rw [kind_div_fin k _ hT.ne', bind_ok]
  dsimp only
  rw [Num.fin_div _ hc.ne', residual_fin (by norm_num) hd hτ, bind_ok, after_fin, after_fin,
    residual_fin (by norm_num) hd' hτ', bind_ok, if_pos rfl,
    residual_fin (by norm_num) hd' hτ', bind_ok, residual_fin (by norm_num) hd' hτ', bind_ok,
    helmholtz02_fin hd' hτ', bind_ok, nudgeR_after, nudgeR_after]
  simp only [Num.fin_mul, Num.fin_powi_two, Num.fin_add, Num.fin_sub, Num.fin_neg, Num.fin_div _ hne, bind_ok,
    Num.fin_div _ mega_ne]
  unfold dpR thirdR soundTerm
  rw [nudgeR_after, nudgeR_after, neg_div]

/-- **C67.** At every positive temperature, pressure and its density derivative are numbers for every positive
density, and away from the critical density the second is the derivative of the first; the pressure is
`ρ²` times the density derivative of the specific Helmholtz energy `R T φ` (in Pa). -/
theorem C67_pressure_derivative (k : Kind) {T : ℝ} (hT : 0 < T) : ∃ p p' a : ℝ → ℝ,
    (∀ ρ, 0 < ρ → ∀ b, pressure k (Num.fin T) (Num.fin ρ) 0 0 b = .ok (some (Num.fin (p ρ)))) ∧
    (∀ ρ, 0 < ρ → pressure k (Num.fin T) (Num.fin ρ) 1 0 false = .ok (some (Num.fin (p' ρ)))) ∧
    (∀ ρ, 0 < ρ → helmholtz (Num.fin (ρ / criticalDensity)) (Num.fin (criticalTemperature / T)) 0 0
      = .ok (Num.fin (a ρ))) ∧
    ∀ ρ, 0 < ρ → ρ ≠ criticalDensity →
      HasDerivAt p (p' ρ) ρ ∧ HasDerivAt (fun x => gasConstant * T * a x) (p ρ * 1e6 / ρ ^ 2) ρ := by
  have hc : (0:ℝ) < criticalDensity := by norm_num [criticalDensity]
  have ht : (0:ℝ) < criticalTemperature := by norm_num [criticalTemperature]
  have hτ := div_pos ht hT
  refine ⟨pR k T, dpR k 0 T, fun ρ => phiIdeal (ρ / criticalDensity) (criticalTemperature / T)
    + resR 0 0 (nudgeR (ρ / criticalDensity)) (nudgeR (criticalTemperature / T)), ?_, ?_, ?_, ?_⟩
  · intro ρ hρ b
    unfold pressure
    rw [kind_div_fin k _ hT.ne', bind_ok, failIf_false (by simp), bind_ok]
    rw [pressure0_fin k hT hρ, bind_ok]
    rfl
  · intro ρ hρ
    unfold pressure
    rw [kind_div_fin k _ hT.ne', bind_ok, failIf_false (by simp), bind_ok]
    rw [pressure1_fin k hT hρ, bind_ok]
    rfl
  · intro ρ hρ
    unfold helmholtz
    rw [(idealGas_values (div_pos hρ hc) hτ).1, bind_ok, residual_fin (by norm_num) (div_pos hρ hc) hτ,
      bind_ok, Num.fin_add]
  · intro ρ hρ hne
    have hδ : ρ / criticalDensity ≠ 1 := by
      intro h; rw [div_eq_one_iff_eq hc.ne'] at h; exact hne h
    have hd := div_pos hρ hc
    have hev : ∀ᶠ x in nhds ρ, x / criticalDensity ≠ 1 := by
      have : ∀ᶠ x in nhds ρ, x ≠ criticalDensity := isOpen_ne.mem_nhds hne
      filter_upwards [this] with x hx h
      rw [div_eq_one_iff_eq hc.ne'] at h; exact hx h
    have hlin : HasDerivAt (fun x : ℝ => x / criticalDensity) (1 / criticalDensity) ρ :=
      (hasDerivAt_id ρ).div_const _
    have hr0 := HasDerivAt.comp ρ (resR_deriv_delta (dd := 0) (dt := 0) (by norm_num) hd (nudgeR_pos hτ) hδ) hlin
    have hr1 := HasDerivAt.comp ρ (resR_deriv_delta (dd := 1) (dt := 0) (by norm_num) hd (nudgeR_pos hτ) hδ) hlin
    constructor
    · have hp : HasDerivAt (fun x : ℝ => x * gasConstant * T * (1 + x / criticalDensity *
          resR 1 0 (x / criticalDensity) (nudgeR (criticalTemperature / T))) / 1e6) (dpR k 0 T ρ) ρ := by
        have h1 : HasDerivAt (fun x : ℝ => x * gasConstant * T) (gasConstant * T) ρ := by
          have := ((hasDerivAt_id ρ).mul_const gasConstant).mul_const T
          simpa using this
        have h2 := (hlin.mul hr1).const_add 1
        refine ((h1.mul h2).div_const 1e6).congr_deriv ?_
        unfold dpR
        rw [afterR_of_ne k hδ, nudgeR_of_ne hδ]
        simp only [Function.comp, Pi.mul_apply]
        have : criticalDensity ≠ 0 := hc.ne'
        field_simp
        ring
      refine hp.congr_of_eventuallyEq ?_
      filter_upwards [hev] with x hx
      unfold pR
      rw [afterR_of_ne k hx, nudgeR_of_ne hx]
    · have hlog : HasDerivAt (fun x : ℝ => phiIdeal (x / criticalDensity) (criticalTemperature / T))
          ((ρ / criticalDensity)⁻¹ * (1 / criticalDensity)) ρ := by
        have h0 := HasDerivAt.comp ρ (Real.hasDerivAt_log hd.ne') hlin
        have := (((h0.add_const a1).add_const (a2 * (criticalTemperature / T))).add_const
          (a3 * Real.log (criticalTemperature / T))).add_const
          (sumOver einstein fun k => k.1 * Real.log (1 - Real.exp (-k.2 * (criticalTemperature / T))))
        exact this
      have hA : HasDerivAt (fun x : ℝ => gasConstant * T * (phiIdeal (x / criticalDensity) (criticalTemperature / T)
          + resR 0 0 (x / criticalDensity) (nudgeR (criticalTemperature / T)))) (pR k T ρ * 1e6 / ρ ^ 2) ρ := by
        refine ((hlog.add hr0).const_mul (gasConstant * T)).congr_deriv ?_
        unfold pR
        rw [afterR_of_ne k hδ, nudgeR_of_ne hδ]
        have : criticalDensity ≠ 0 := hc.ne'
        have : ρ ≠ 0 := hρ.ne'
        field_simp
      refine hA.congr_of_eventuallyEq ?_
      filter_upwards [hev] with x hx
      rw [nudgeR_of_ne hx]

/-! ## C71: isentropic bulk modulus -/

/-- **C71.** Wherever the second `tau`-derivative `h` of the Helmholtz energy is negative the isentropic bulk
modulus is a number, `ρ · dp/dρ` at constant entropy, and at least the isothermal one `ρ · dp/dρ`. -/
theorem C71_isentropic_ge_isothermal (k : Kind) {T ρ h : ℝ} (hT : 0 < T) (hρ : 0 < ρ)
    (hh : helmholtz (k.after (Num.fin (ρ / criticalDensity))) (k.after (Num.fin (criticalTemperature / T))) 0 2
      = .ok (Num.fin h)) (hneg : h < 0) :
    ∃ d Ks : ℝ, pressure k (Num.fin T) (Num.fin ρ) 1 0 false = .ok (some (Num.fin d)) ∧
      bulkModulus k (Num.fin T) (Num.fin ρ) = .ok (Num.fin Ks) ∧ ρ * d * 1e6 ≤ Ks := by
  have hc : (0:ℝ) < criticalDensity := by norm_num [criticalDensity]
  have ht : (0:ℝ) < criticalTemperature := by norm_num [criticalTemperature]
  have hd := div_pos hρ hc
  have hτ := div_pos ht hT
  have hg : (0:ℝ) < gasConstant := by norm_num [gasConstant]
  rw [after_fin, after_fin, helmholtz02_fin (afterR_pos k hd) (afterR_pos k hτ)] at hh
  injection hh with hh
  rw [Num.fin_inj, nudgeR_after, nudgeR_after] at hh
  refine ⟨dpR k 0 T ρ, ρ * dpR k (thirdR k T ρ) T ρ * 1e6, ?_, ?_, ?_⟩
  · unfold pressure
    rw [kind_div_fin k _ hT.ne', bind_ok, failIf_false (by simp), bind_ok]
    rw [pressure1_fin k hT hρ, bind_ok]
    rfl
  · unfold bulkModulus
    rw [pressure1_isentropic_fin k hT hρ (by rw [hh]; exact hneg.ne), bind_ok, Num.fin_mul, Num.fin_mul]
  · have h3 : 0 ≤ thirdR k T ρ := by
      unfold thirdR soundTerm
      rw [nudgeR_after, nudgeR_after, hh, neg_nonneg]
      apply div_nonpos_of_nonneg_of_nonpos (sq_nonneg _)
      exact mul_nonpos_of_nonneg_of_nonpos (sq_nonneg _) hneg.le
    have h4 : dpR k 0 T ρ ≤ dpR k (thirdR k T ρ) T ρ := by
      unfold dpR
      apply div_le_div_of_nonneg_right _ (by norm_num)
      apply mul_le_mul_of_nonneg_left _ (by positivity)
      linarith
    have : ρ * dpR k 0 T ρ ≤ ρ * dpR k (thirdR k T ρ) T ρ := mul_le_mul_of_nonneg_left h4 hρ.le
    linarith

/-- **C71, formula.** Away from critical temperature and density, the isentropic bulk modulus is
`ρ w²` with the speed of sound `w` of Table 3 of Span & Wagner, written with the derivatives `f` of the
residual part and `g` of the ideal gas part. -/
theorem C71_speed_of_sound (k : Kind) {T ρ : ℝ} (hT : 0 < T) (hρ : 0 < ρ) (hT1 : T ≠ criticalTemperature)
    (hρ1 : ρ ≠ criticalDensity) :
    ∃ f10 f20 f11 f02 g02 : ℝ, ∀ δ τ, δ = ρ / criticalDensity → τ = criticalTemperature / T →
      residual (Num.fin δ) (Num.fin τ) 1 0 = .ok (Num.fin f10) ∧
      residual (Num.fin δ) (Num.fin τ) 2 0 = .ok (Num.fin f20) ∧
      residual (Num.fin δ) (Num.fin τ) 1 1 = .ok (Num.fin f11) ∧
      residual (Num.fin δ) (Num.fin τ) 0 2 = .ok (Num.fin f02) ∧
      idealGas (Num.fin δ) (Num.fin τ) 0 2 = .ok (Num.fin g02) ∧
      (g02 + f02 ≠ 0 → bulkModulus k (Num.fin T) (Num.fin ρ) = .ok (Num.fin (ρ * (gasConstant * T *
        (1 + 2 * δ * f10 + δ ^ 2 * f20 - (1 + δ * f10 - δ * τ * f11) ^ 2 / (τ ^ 2 * (g02 + f02))))))) := by
  have hc : (0:ℝ) < criticalDensity := by norm_num [criticalDensity]
  have ht : (0:ℝ) < criticalTemperature := by norm_num [criticalTemperature]
  have hd := div_pos hρ hc
  have hτ := div_pos ht hT
  have hδ1 : ρ / criticalDensity ≠ 1 := by
    intro h; rw [div_eq_one_iff_eq hc.ne'] at h; exact hρ1 h
  have hτ1 : criticalTemperature / T ≠ 1 := by
    intro h; rw [div_eq_one_iff_eq hT.ne'] at h; exact hT1 h.symm
  refine ⟨resR 1 0 (ρ / criticalDensity) (criticalTemperature / T),
    resR 2 0 (ρ / criticalDensity) (criticalTemperature / T),
    resR 1 1 (ρ / criticalDensity) (criticalTemperature / T),
    resR 0 2 (ρ / criticalDensity) (criticalTemperature / T), idealTT (criticalTemperature / T), ?_⟩
  rintro δ τ rfl rfl
  have hres : ∀ dd dt, dd + dt ≤ 2 → residual (Num.fin (ρ / criticalDensity)) (Num.fin (criticalTemperature / T))
      dd dt = .ok (Num.fin (resR dd dt (ρ / criticalDensity) (criticalTemperature / T))) := by
    intro dd dt h
    rw [residual_fin h hd hτ, nudgeR_of_ne hδ1, nudgeR_of_ne hτ1]
  refine ⟨hres 1 0 (by norm_num), hres 2 0 (by norm_num), hres 1 1 (by norm_num), hres 0 2 (by norm_num),
    (idealGas_values hd hτ).2.2.1, fun hne => ?_⟩
  unfold bulkModulus
  rw [pressure1_isentropic_fin k hT hρ (by
    rw [afterR_of_ne k hτ1, nudgeR_of_ne hδ1, nudgeR_of_ne hτ1]; exact hne), bind_ok, Num.fin_mul, Num.fin_mul]
  congr 2
  unfold dpR thirdR soundTerm
  rw [afterR_of_ne k hδ1, afterR_of_ne k hτ1, nudgeR_of_ne hδ1, nudgeR_of_ne hτ1]
  ring

end OPE.CO2
