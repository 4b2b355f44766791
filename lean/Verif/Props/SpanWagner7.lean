import Verif.Spec.Co2
import Verif.Props.SpanWagner3
import Verif.Props.SpanWagner4
import Verif.Props.SpanWagner5

/-!
# Carbon dioxide follows Span & Wagner (1996) (C108)
-/

namespace OPE.CO2

open Published.CO2 (R Tc rhoc pc Tt pt phi0 phir dδ dτ)

theorem critT_eq : criticalTemperature = Tc := by norm_num [criticalTemperature, Tc]
theorem critD_eq : criticalDensity = rhoc := by norm_num [criticalDensity, rhoc]
theorem critP_eq : criticalPressure = pc := by norm_num [criticalPressure, pc]
theorem tripT_eq : tripleTemperature = Tt := by norm_num [tripleTemperature, Tt]
theorem tripP_eq : triplePressure = pt := by norm_num [triplePressure, pt]
theorem gas_eq : gasConstant = R := by norm_num [gasConstant, R]

theorem phiIdeal_published (δ τ : ℝ) : phiIdeal δ τ = phi0 δ τ := by
  unfold phiIdeal phi0 sumOver einstein a1 a2 a3
  simp only [List.map_cons, List.map_nil, List.sum_cons, List.sum_nil]
  ring

theorem phiResidual_published (δ τ : ℝ) : phiResidual δ τ = phir δ τ := by
  have step : ∀ {a b c d : ℝ}, a = c → b = d → a + b = c + d := fun h1 h2 => by rw [h1, h2]
  unfold phiResidual phir sumOver group1 group2 group3 group4
  simp only [List.map_cons, List.map_nil, List.sum_cons, List.sum_nil, add_assoc, add_zero]
  repeat' (first | exact rfl | refine step ?_ ?_)
  all_goals
    norm_num [Published.CO2.poly, Published.CO2.expo, Published.CO2.gauss, Published.CO2.crit]

/-! ### Derivatives -/

theorem dδ_iter {j : ℕ} (hj : j ≤ 2) : ∀ {δ τ : ℝ}, 0 < δ → δ ≠ 1 → 0 < τ → dδ^[j] phir δ τ = resR j 0 δ τ := by
  induction j with
  | zero =>
    intro δ τ _ _ _
    rw [Function.iterate_zero, id, resR_zero, phiResidual_published]
  | succ j ih =>
    intro δ τ hδ h1 hτ
    rw [Function.iterate_succ_apply']
    refine ((resR_deriv_delta (dd := j) (dt := 0) (by omega) hδ hτ h1).congr_of_eventuallyEq ?_).deriv
    filter_upwards [isOpen_ne.mem_nhds h1, lt_mem_nhds hδ] with x hx hx0
    exact ih (by omega) hx0 hx hτ

theorem D_phir {j : ℕ} (hj : j ≤ 2) (k : ℕ) : ∀ {δ τ : ℝ}, 0 < δ → δ ≠ 1 → 0 < τ →
    Published.CO2.D j k phir δ τ = resR j k δ τ := by
  unfold Published.CO2.D
  induction k with
  | zero => exact dδ_iter hj
  | succ k ih =>
    intro δ τ hδ h1 hτ
    rw [Function.iterate_succ_apply']
    refine ((resR_deriv_tau j k hδ hτ h1).congr_of_eventuallyEq ?_).deriv
    filter_upwards [lt_mem_nhds hτ] with x hx
    exact ih hδ h1 hx

/-- The derivatives of the ideal gas part. -/
theorem D_phi0 : ∀ j k, j + k ≤ 2 → ∀ δ τ : ℝ, 0 < δ → 0 < τ →
    idealGas (Num.fin δ) (Num.fin τ) j k = .ok (Num.fin (Published.CO2.D j k phi0 δ τ)) := by
  obtain ⟨f, h0, h1, h2, -⟩ := C66_ideal_gas_derivatives
  have key0 : ∀ j, j ≤ 2 → ∀ δ τ : ℝ, 0 < δ → 0 < τ → dδ^[j] phi0 δ τ = f j 0 δ τ := by
    intro j
    induction j with
    | zero => intro _ δ τ _ _; rw [Function.iterate_zero, id, h0, phiIdeal_published]
    | succ j ih =>
      intro hj δ τ hδ hτ
      rw [Function.iterate_succ_apply']
      refine (((h2 j 0 (by omega) δ τ hδ hτ).1).congr_of_eventuallyEq ?_).deriv
      filter_upwards [lt_mem_nhds hδ] with x hx
      exact ih (by omega) x τ hx hτ
  have key : ∀ j k, j + k ≤ 2 → ∀ δ τ : ℝ, 0 < δ → 0 < τ → Published.CO2.D j k phi0 δ τ = f j k δ τ := by
    intro j k
    unfold Published.CO2.D
    induction k with
    | zero => intro h; exact key0 j (by omega)
    | succ k ih =>
      intro h δ τ hδ hτ
      rw [Function.iterate_succ_apply']
      refine (((h2 j k (by omega) δ τ hδ hτ).2).congr_of_eventuallyEq ?_).deriv
      filter_upwards [lt_mem_nhds hτ] with x hx
      exact ih (by omega) δ x hδ hx
  intro j k h δ τ hδ hτ
  rw [h1 j k h δ τ hδ hτ, key j k h δ τ hδ hτ]

/-- **C108, Helmholtz energy.** For all positive reduced densities and temperatures the reduced Helmholtz
energy and its derivatives up to order two are those of Span & Wagner; only in the residual part the value 1
of either variable is replaced by `1 - 1e-15`. -/
theorem C108_helmholtz {δ τ δ' τ' : ℝ} (hδ : 0 < δ) (hτ : 0 < τ)
    (hδ' : δ' = if δ = 1 then 1 - 1e-15 else δ) (hτ' : τ' = if τ = 1 then 1 - 1e-15 else τ)
    (j k : ℕ) (h : j + k ≤ 2) :
    helmholtz (Num.fin δ) (Num.fin τ) j k =
      .ok (Num.fin (Published.CO2.D j k phi0 δ τ + Published.CO2.D j k phir δ' τ')) := by
  unfold helmholtz
  rw [D_phi0 j k h δ τ hδ hτ, bind_ok, residual_fin h hδ hτ, bind_ok, Num.fin_add]
  have e1 : δ' = nudgeR δ := hδ'
  have e2 : τ' = nudgeR τ := hτ'
  rw [e1, e2, D_phir (by omega) k (nudgeR_pos hδ) (nudgeR_ne δ) (nudgeR_pos hτ)]

/-- **C108, pressure.** At every positive temperature and density other than the critical ones,
`carbon_dioxide_pressure` is the pressure of Span & Wagner. -/
theorem C108_pressure (k : Kind) {T ρ : ℝ} (hT : 0 < T) (hρ : 0 < ρ) (hT1 : T ≠ 304.1282) (hρ1 : ρ ≠ 467.6)
    (b : Bool) :
    pressure k (Num.fin T) (Num.fin ρ) 0 0 b = .ok (some (Num.fin (Published.CO2.pressure T ρ))) := by
  have hd : 0 < ρ / criticalDensity := div_pos hρ critD_pos
  have hτ : 0 < criticalTemperature / T := div_pos critT_pos hT
  have hδ1 : ρ / criticalDensity ≠ 1 := by
    intro h; rw [div_eq_one_iff_eq critD_pos.ne'] at h; exact hρ1 h
  have hτ1 : criticalTemperature / T ≠ 1 := by
    intro h; rw [div_eq_one_iff_eq hT.ne'] at h; exact hT1 h.symm
  unfold pressure
  rw [kind_div_fin k _ hT.ne', bind_ok, failIf_false (by simp), bind_ok]
  rw [pressure0_fin k hT hρ, bind_ok]
  unfold pR Published.CO2.pressure
  rw [afterR_of_ne k hδ1, nudgeR_of_ne hδ1, nudgeR_of_ne hτ1, ← D_phir (by norm_num) 0 hd hδ1 hτ,
    critD_eq, critT_eq, gas_eq]
  rfl

/-- The second `tau`-derivative of the whole Helmholtz energy. -/
theorem tauTau {δ τ : ℝ} (hδ : 0 < δ) (h1 : δ ≠ 1) (hτ : 0 < τ) :
    dτ (dτ fun δ τ => phi0 δ τ + phir δ τ) δ τ = idealTT τ + resR 0 2 δ τ := by
  obtain ⟨f, h0, e1, h2, -⟩ := C66_ideal_gas_derivatives
  have hf : f 0 2 δ τ = idealTT τ := by
    have := e1 0 2 (by norm_num) δ τ hδ hτ
    rw [(idealGas_values hδ hτ).2.2.1] at this
    injection this with this
    exact (Num.fin_inj.mp this).symm
  have first : ∀ {x : ℝ}, 0 < x → dτ (fun δ τ => phi0 δ τ + phir δ τ) δ x = f 0 1 δ x + resR 0 1 δ x := by
    intro x hx
    refine (HasDerivAt.congr_of_eventuallyEq
      ((h2 0 0 (by norm_num) δ x hδ hx).2.add (resR_deriv_tau 0 0 hδ hx h1)) ?_).deriv
    refine Filter.Eventually.of_forall fun y => ?_
    simp only [Pi.add_apply, h0, phiIdeal_published, resR_zero, phiResidual_published]
  rw [← hf]
  refine (HasDerivAt.congr_of_eventuallyEq
      ((h2 0 1 (by norm_num) δ τ hδ hτ).2.add (resR_deriv_tau 0 1 hδ hτ h1)) ?_).deriv
  filter_upwards [lt_mem_nhds hτ] with y hy
  exact first hy

/-- **C108, bulk modulus.** There the bulk modulus (in Pa) is density times the square of the speed of sound
of Span & Wagner, wherever the latter is defined. -/
theorem C108_bulk_modulus (k : Kind) {T ρ : ℝ} (hT : 0 < T) (hρ : 0 < ρ) (hT1 : T ≠ 304.1282) (hρ1 : ρ ≠ 467.6)
    (hne : dτ (dτ fun δ τ => phi0 δ τ + phir δ τ) (ρ / rhoc) (Tc / T) ≠ 0) :
    bulkModulus k (Num.fin T) (Num.fin ρ) = .ok (Num.fin (ρ * Published.CO2.soundSpeedSq T ρ)) := by
  have hd : 0 < ρ / criticalDensity := div_pos hρ critD_pos
  have hτ : 0 < criticalTemperature / T := div_pos critT_pos hT
  have hδ1 : ρ / criticalDensity ≠ 1 := by
    intro h; rw [div_eq_one_iff_eq critD_pos.ne'] at h; exact hρ1 h
  have hτ1 : criticalTemperature / T ≠ 1 := by
    intro h; rw [div_eq_one_iff_eq hT.ne'] at h; exact hT1 h.symm
  obtain ⟨f10, f20, f11, f02, g02, hf⟩ := C71_speed_of_sound k hT hρ hT1 hρ1
  obtain ⟨e10, e20, e11, e02, e, hK⟩ := hf _ _ rfl rfl
  have hval : ∀ {i l : ℕ} {x : ℝ}, i + l ≤ 2 → residual (Num.fin (ρ / criticalDensity))
      (Num.fin (criticalTemperature / T)) i l = .ok (Num.fin x) →
      x = Published.CO2.D i l phir (ρ / criticalDensity) (criticalTemperature / T) := by
    intro i l x h hx
    rw [residual_fin h hd hτ, nudgeR_of_ne hδ1, nudgeR_of_ne hτ1, ← D_phir (by omega) l hd hδ1 hτ] at hx
    injection hx with hx
    exact (Num.fin_inj.mp hx).symm
  have hg : g02 = idealTT (criticalTemperature / T) := by
    rw [(idealGas_values hd hτ).2.2.1] at e
    injection e with e
    exact (Num.fin_inj.mp e).symm
  have hsum : dτ (dτ fun δ τ => phi0 δ τ + phir δ τ) (ρ / rhoc) (Tc / T) = g02 + f02 := by
    rw [← critD_eq, ← critT_eq, tauTau hd hδ1 hτ, hg, hval (by norm_num) e02, D_phir (by norm_num) 2 hd hδ1 hτ]
  rw [hK (hsum ▸ hne)]
  unfold Published.CO2.soundSpeedSq
  rw [hsum, hval (by norm_num) e10, hval (by norm_num) e20, hval (by norm_num) e11, critD_eq, critT_eq, gas_eq]
  rfl

/-- The hypothesis of `C108_bulk_modulus` is met by every gas of sufficiently low density. -/
theorem C108_bulk_modulus_reachable {T : ℝ} (hT : 0 < T) : ∃ ρ₀ : ℝ, 0 < ρ₀ ∧ ∀ ρ : ℝ, 0 < ρ → ρ < ρ₀ →
    dτ (dτ fun δ τ => phi0 δ τ + phir δ τ) (ρ / rhoc) (Tc / T) ≠ 0 := by
  have hτ : 0 < criticalTemperature / T := div_pos critT_pos hT
  have hlim := (tendsto_tauTau hτ).eventually (gt_mem_nhds (neg_pos.mpr (idealTT_neg hτ)))
  obtain ⟨ρ₁, h0, h⟩ := mem_nhdsGT_iff_exists_Ioo_subset.mp (eventually_scaled hlim)
  refine ⟨min ρ₁ criticalDensity, lt_min h0 critD_pos, fun ρ hρ hlt => ?_⟩
  have ha : resR 0 2 (nudgeR (ρ / criticalDensity)) (criticalTemperature / T) < -idealTT (criticalTemperature / T) :=
    h ⟨hρ, lt_of_lt_of_le hlt (min_le_left _ _)⟩
  have hb : ρ / criticalDensity < 1 := (div_lt_one critD_pos).mpr (lt_of_lt_of_le hlt (min_le_right _ _))
  rw [nudgeR_of_ne hb.ne] at ha
  rw [← critD_eq, ← critT_eq, tauTau (div_pos hρ critD_pos) hb.ne hτ]
  exact (by linarith : idealTT (criticalTemperature / T) + resR 0 2 (ρ / criticalDensity)
    (criticalTemperature / T) < 0).ne

/-- **C108, phase boundaries.** -/
theorem C108_phase_boundaries {T : ℝ} (h0 : 0 < T) :
    (T ≤ 304.1282 →
      saturatedLiquid (Num.fin T) = Num.fin (Published.CO2.liquidDensity T) ∧
      saturatedVapor (Num.fin T) = Num.fin (Published.CO2.vaporDensity T) ∧
      vaporPressure (Num.fin T) = Num.fin (Published.CO2.vaporPressure T)) ∧
    (T ≤ 216.592 → sublimationPressure (Num.fin T) = Num.fin (Published.CO2.sublimationPressure T)) ∧
    meltingPressure (Num.fin T) = Num.fin (Published.CO2.meltingPressure T) := by
  have hTc : Tc ≠ 0 := by norm_num [Tc]
  have hTt : Tt ≠ 0 := by norm_num [Tt]
  have hT : T ≠ 0 := h0.ne'
  refine ⟨fun h => ⟨?_, ?_, ?_⟩, fun h => ?_, ?_⟩
  · rw [liquid_fin h, critD_eq, critT_eq]
    unfold liquidExp Published.CO2.liquidDensity
    norm_num [sub_eq_add_neg]
  · rw [vapor_fin h, critD_eq, critT_eq]
    unfold vaporExp Published.CO2.vaporDensity
    norm_num [sub_eq_add_neg]
  · rw [vaporP_fin h0 h, critP_eq, critT_eq]
    unfold vaporPExp Published.CO2.vaporPressure
    rw [sub_sub_cancel, Real.rpow_one, Real.rpow_two, show (4:ℝ) = ((4:ℕ):ℝ) by norm_num, Real.rpow_natCast]
    congr 3
    field_simp
    norm_num
    ring
  · rw [subl_fin h0 h, tripP_eq, tripT_eq]
    unfold sublExp Published.CO2.sublimationPressure
    rw [sub_sub_cancel]
    congr 3
    field_simp
    ring
  · rw [melting_fin, tripP_eq, tripT_eq]
    rfl

/-- What the model owes for a temperature, a pressure (MPa) and the density it found: the pressure of the density
is the given one up to `tol`, and below the critical temperature the density is on the gas side (up to 5 %)
for pressures below the vapour pressure and on the liquid side otherwise. -/
def IsDensity (tol T P ρ : ℝ) : Prop :=
  0 < ρ ∧ ρ ≤ 1.05 * 1500 ∧ (ρ ≠ 467.6 → |Published.CO2.pressure T ρ - P| ≤ tol) ∧
  (T < 304.1282 → P < Published.CO2.vaporPressure T → ρ ≤ 1.05 * Published.CO2.vaporDensity T) ∧
  (T < 304.1282 → Published.CO2.vaporPressure T ≤ P → 0.95 * Published.CO2.liquidDensity T ≤ ρ)

/-- **C108, density.** With a root finder that keeps to its bracket. -/
theorem C108_density {solve : RootFinder} {tol : ℝ} (hs : Brackets solve tol) {T P : ℝ} (h0 : 216.592 ≤ T)
    (hT1 : T ≠ 304.1282) {x : Num} (h : calculateDensity solve (Num.fin T) (Num.fin P) .auto true = .ok x) :
    ∃ ρ, x = Num.fin ρ ∧ IsDensity tol T P ρ := by
  have hT : 0 < T := by linarith
  obtain ⟨lo, hi, ρ, hb, rfl, hlo, hhi, hρ, p, hp, hP⟩ := C69_solution hs h0 P .auto h
  obtain ⟨-, B2, -⟩ := C69_bracket h0 P
  obtain ⟨C1, -, -⟩ := C108_phase_boundaries hT
  have hpub : ρ ≠ 467.6 → |Published.CO2.pressure T ρ - P| ≤ tol := by
    intro hρ1
    rw [C108_pressure .single hT hρ hT1 hρ1] at hp
    injection hp with hp
    injection hp with hp
    rw [Num.fin_inj.mp hp]
    exact hP
  have hpair : ∀ {a b : ℝ}, (Num.fin a, Num.fin b) = (Num.fin lo, Num.fin hi) → a = lo ∧ b = hi := by
    intro a b e
    injection e with e1 e2
    exact ⟨Num.fin_inj.mp e1, Num.fin_inj.mp e2⟩
  have hmax : hi ≤ 1500 := by
    rcases lt_or_ge T criticalTemperature with hc | hc
    · unfold densityBounds at hb
      rw [if_neg (by rw [Num.fin_lt]; exact not_lt.mpr h0), if_pos (Num.fin_lt.mpr hc)] at hb
      dsimp only at hb
      split at hb
      · rw [vapor_fin hc.le] at hb
        obtain ⟨-, e⟩ := hpair hb
        rw [← e]
        have h3 := C68_order (T := T) hT.le hc
        obtain ⟨v, l, hv, hl, h4⟩ := h3
        rw [vapor_fin hc.le, Num.fin_inj] at hv
        rw [liquid_fin hc.le, Num.fin_inj] at hl
        have := liquid_lt h0 hc.le
        linarith [h4]
      · rw [liquid_fin hc.le] at hb
        exact (hpair hb).2.ge
    · unfold densityBounds at hb
      rw [if_neg (by rw [Num.fin_lt]; exact not_lt.mpr h0),
        if_neg (by rw [Num.fin_lt]; exact not_lt.mpr hc)] at hb
      exact (hpair hb).2.ge
  refine ⟨ρ, rfl, hρ, by linarith, hpub, fun hc hPv => ?_, fun hc hPv => ?_⟩
  · obtain ⟨v, l, q, lo', hi', hv, hl, hq, -, -, ha⟩ := B2 hc
    obtain ⟨D1, D2, D3⟩ := C1 (le_of_lt hc)
    rw [D2, Num.fin_inj] at hv
    rw [D3, Num.fin_inj] at hq
    rw [← hq, if_pos hPv, hb] at ha
    obtain ⟨-, e⟩ := hpair ha.symm
    rw [hv, e]
    exact hhi
  · obtain ⟨v, l, q, lo', hi', hv, hl, hq, -, -, ha⟩ := B2 hc
    obtain ⟨D1, D2, D3⟩ := C1 (le_of_lt hc)
    rw [D1, Num.fin_inj] at hl
    rw [D3, Num.fin_inj] at hq
    rw [← hq, if_neg (not_lt.mpr hPv), hb] at ha
    obtain ⟨e, -⟩ := hpair ha.symm
    rw [hl, e]
    exact hlo

/-- **C108, material.** Every row of a carbon dioxide calculated without the table, from the triple point
temperature on: density, bulk modulus (Pa) and shear modulus. -/
theorem C108_material {n : ℕ} {solve : RootFinder} {tol : ℝ} (hs : Brackets solve tol) (table : Table)
    {T P : Fin n → ℝ} {m : Mat n} (h : carbonDioxide solve table (finC T) (finC P) none false = .ok m)
    (i : Fin n) (h0 : 216.592 ≤ T i) (hT1 : T i ≠ 304.1282) :
    m.shear i = Num.fin 0 ∧ ∃ ρ, m.density i = Num.fin ρ ∧ IsDensity tol (T i) (P i) ρ ∧
      (ρ ≠ 467.6 → dτ (dτ fun δ τ => phi0 δ τ + phir δ τ) (ρ / rhoc) (Tc / T i) ≠ 0 →
        m.bulk i = Num.fin (ρ * Published.CO2.soundSpeedSq (T i) ρ)) := by
  unfold carbonDioxide densityOf at h
  rw [if_neg (by simp)] at h
  obtain ⟨d, hd, h⟩ := bind_eq_ok.mp h
  obtain ⟨K, hK, h⟩ := bind_eq_ok.mp h
  obtain ⟨e1, -, e2, e3, -, -⟩ := mkMaterial_ok h
  simp only [Option.some.injEq, reduceCtorEq, false_and, or_false] at e1 e2 e3
  subst e1
  subst e2
  obtain ⟨ρ, hρ, hI⟩ := C108_density hs h0 hT1 (vec_ok_iff.mp hd i)
  refine ⟨by rw [← e3]; rfl, ρ, hρ, hI, fun hρ1 hne => ?_⟩
  have hk := vec_ok_iff.mp hK i
  rw [hρ] at hk
  have hb := C108_bulk_modulus .array (by linarith : 0 < T i) hI.1 hT1 hρ1 hne
  change bulkModulus .array (Num.fin (T i)) (Num.fin ρ) = _ at hk
  rw [hb] at hk
  injection hk with hk
  exact hk.symm

/-- **C69, failing search.** With `raise_error=True` the calculation is that of the root finder: its errors
are not hidden. -/
theorem C69_search_error (solve : RootFinder) (T P : Num) (phase : Phase) :
    ∃ f lo hi, calculateDensity solve T P phase true = solve f lo hi ∧
      (∀ x, f x = pressure0 .single T x >>= fun p => .ok (p - P)) ∧
      lo = (densityBounds T P phase).1 * Num.fin 0.95 ∧ hi = (densityBounds T P phase).2 * Num.fin 1.05 := by
  refine ⟨_, _, _, ?_, fun x => rfl, rfl, rfl⟩
  unfold calculateDensity
  dsimp only
  generalize solve _ _ _ = r
  cases r with
  | ok y => rfl
  | error e => cases e <;> rfl

end OPE.CO2
