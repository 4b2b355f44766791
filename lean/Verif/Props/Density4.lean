import Verif.Props.Density3
import Mathlib.Topology.Order.IntermediateValue
import Mathlib.Analysis.SpecialFunctions.Pow.Continuity

/-!
# C122: where a density of carbon dioxide is found

The root finder is a parameter.  `Searches` states what is assumed of it besides `Brackets`: it finds a root where
the function changes sign, and refuses a bracket at both ends of which the function is positive
(`scipy.optimize.toms748`: "f(a) and f(b) must have different signs").
-/

namespace OPE.CO2

open Classical OPE.Published.CO2

/-- What is assumed of a bracketing root finder.  `g` is the function on the bracket; at one point inside, `e`, the
value may be another number (the code moves the critical density a little aside). -/
structure Searches (solve : RootFinder) : Prop where
  /-- A change of sign is found. -/
  found : ∀ (f : Num → Except Err Num) (g : ℝ → ℝ) (lo e hi : ℝ), lo < e → e < hi → ContinuousOn g (Set.Icc lo hi) →
    (∀ x ∈ Set.Icc lo hi, x ≠ e → f (Num.fin x) = .ok (Num.fin (g x))) → (∃ y : ℝ, f (Num.fin e) = .ok (Num.fin y)) →
    g lo ≤ 0 → 0 ≤ g hi → ∃ x, solve f (Num.fin lo) (Num.fin hi) = .ok x
  /-- Ends with the same sign are refused. -/
  refused : ∀ (f : Num → Except Err Num) (a b : ℝ) (lo hi : Num), f lo = .ok (Num.fin a) → f hi = .ok (Num.fin b) →
    0 < a → 0 < b → solve f lo hi = .error .valueError

/-- A root finder that meets the assumptions, for every positive tolerance. -/
noncomputable def signFinder (tol : ℝ) : RootFinder := fun f lo hi =>
  if ∃ a b : ℝ, f lo = .ok (Num.fin a) ∧ f hi = .ok (Num.fin b) ∧ 0 < a ∧ 0 < b then .error .valueError
  else if h : ∃ x, lo ≤ x ∧ x ≤ hi ∧ ∃ e : ℝ, f x = .ok (Num.fin e) ∧ |e| ≤ tol then .ok h.choose
  else .error .valueError

theorem signFinder_brackets (tol : ℝ) : Brackets (signFinder tol) tol := by
  intro f lo hi x h
  unfold signFinder at h
  split at h
  · cases h
  · split at h
    · rename_i hx
      injection h with h
      subst h
      exact hx.choose_spec
    · cases h

theorem signFinder_searches {tol : ℝ} (ht : 0 < tol) : Searches (signFinder tol) := by
  constructor
  · intro f g lo e hi h1 h2 hc hf he ha hb
    unfold signFinder
    have hlo : f (Num.fin lo) = .ok (Num.fin (g lo)) := hf lo ⟨le_refl _, by linarith⟩ h1.ne
    rw [if_neg]
    · have hex : ∃ x, Num.fin lo ≤ x ∧ x ≤ Num.fin hi ∧ ∃ e : ℝ, f x = .ok (Num.fin e) ∧ |e| ≤ tol := by
        obtain ⟨r, hr, hr0⟩ := intermediate_value_Icc (by linarith) hc ⟨ha, hb⟩
        by_cases hre : r = e
        · -- a point near `e`
          subst hre
          have hcont := hc r hr
          rw [Metric.continuousWithinAt_iff] at hcont
          obtain ⟨d, hd, hd'⟩ := hcont tol ht
          set y := r + min (d / 2) (hi - r) with hy
          have hm : 0 < min (d / 2) (hi - r) := lt_min (by linarith) (by linarith)
          have hm1 := min_le_left (d / 2) (hi - r)
          have hm2 := min_le_right (d / 2) (hi - r)
          have hyI : y ∈ Set.Icc lo hi := ⟨by linarith, by linarith⟩
          have := hd' hyI (by rw [Real.dist_eq, abs_of_pos (by linarith)]; linarith)
          rw [Real.dist_eq, hr0, sub_zero] at this
          exact ⟨Num.fin y, Num.fin_le.mpr hyI.1, Num.fin_le.mpr hyI.2, g y, hf y hyI (by linarith), this.le⟩
        · exact ⟨Num.fin r, Num.fin_le.mpr hr.1, Num.fin_le.mpr hr.2, g r, hf r hr hre, by rw [hr0]; simpa using ht.le⟩
      rw [dif_pos hex]
      exact ⟨_, rfl⟩
    · rintro ⟨a, b, h3, -, h5, -⟩
      rw [hlo] at h3
      injection h3 with h3
      have := Num.fin_inj.mp h3
      linarith
  · intro f a b lo hi h1 h2 ha hb
    unfold signFinder
    rw [if_pos ⟨a, b, h1, h2, ha, hb⟩]

/-! ### Continuity of the pressure -/

theorem critBase_pos {a B δ τ : ℝ} (hB : 0 < B) (ha : 0 < a) (hτ : τ < 1) : 0 < critBase a B δ τ := by
  unfold critBase
  have h1 : 0 ≤ ((δ - 1) ^ 2) ^ ((1 : ℝ) / (2 * 0.3)) := Real.rpow_nonneg (sq_nonneg _) _
  have h2 : 0 ≤ ((δ - 1) ^ 2) ^ a := Real.rpow_nonneg (sq_nonneg _) _
  have h3 : 0 < 1 - τ + 0.7 * ((δ - 1) ^ 2) ^ ((1 : ℝ) / (2 * 0.3)) := by linarith
  have := mul_nonneg hB.le h2
  positivity

theorem critBase_cont {a B τ : ℝ} (ha : 0 < a) : Continuous fun δ => critBase a B δ τ := by
  unfold critBase
  have h1 : Continuous fun δ : ℝ => ((δ - 1) ^ 2) ^ ((1 : ℝ) / (2 * 0.3)) :=
    Continuous.rpow_const (by fun_prop) fun _ => .inr (by norm_num)
  have h2 : Continuous fun δ : ℝ => ((δ - 1) ^ 2) ^ a := Continuous.rpow_const (by fun_prop) fun _ => .inr ha.le
  fun_prop

theorem critBaseD_cont {a B τ : ℝ} (ha : 1 ≤ a) : Continuous fun δ => critBaseD a B δ τ := by
  unfold critBaseD
  have h1 : Continuous fun δ : ℝ => ((δ - 1) ^ 2) ^ ((1 : ℝ) / (2 * 0.3)) :=
    Continuous.rpow_const (by fun_prop) fun _ => .inr (by norm_num)
  have h3 : Continuous fun δ : ℝ => ((δ - 1) ^ 2) ^ ((1 : ℝ) / (2 * 0.3) - 1) :=
    Continuous.rpow_const (by fun_prop) fun _ => .inr (by norm_num)
  have h2 : Continuous fun δ : ℝ => ((δ - 1) ^ 2) ^ (a - 1) :=
    Continuous.rpow_const (by fun_prop) fun _ => .inr (by linarith)
  fun_prop

theorem critD_cont {n a b B C τ : ℝ} (hB : 0 < B) (ha : 1 ≤ a) (hτ : τ < 1) :
    Continuous fun δ => critD n a b B C δ τ := by
  unfold critD
  have h1 : Continuous fun δ => critBase a B δ τ ^ b :=
    Continuous.rpow_const (critBase_cont (by linarith)) fun δ => .inl (critBase_pos hB (by linarith) hτ).ne'
  have h2 : Continuous fun δ => critBase a B δ τ ^ (b - 1) :=
    Continuous.rpow_const (critBase_cont (by linarith)) fun δ => .inl (critBase_pos hB (by linarith) hτ).ne'
  have h3 := critBaseD_cont (a := a) (B := B) (τ := τ) ha
  fun_prop

theorem polyD_cont {n : ℝ} {d : ℕ} {t τ : ℝ} : Continuous fun δ => polyD n d t δ τ := by unfold polyD; fun_prop

theorem expoD_cont {n : ℝ} {d : ℕ} {t : ℝ} {c : ℕ} {τ : ℝ} : Continuous fun δ => expoD n d t c δ τ := by
  unfold expoD; fun_prop

theorem gaussD_cont {n : ℝ} {d : ℕ} {t α β γ τ : ℝ} : Continuous fun δ => gaussD n d t α β γ δ τ := by
  unfold gaussD; fun_prop

theorem phirD_cont {τ : ℝ} (hτ : τ < 1) : Continuous fun δ => phirD δ τ := by
  unfold phirD
  repeat' first
    | exact polyD_cont
    | exact expoD_cont
    | exact gaussD_cont
    | exact critD_cont (by norm_num) (by norm_num) hτ
    | apply Continuous.add

/-- The published pressure, continued to the critical density. -/
noncomputable def contP (T ρ : ℝ) : ℝ := ρ * R * T * (1 + phirD (ρ / rhoc) (Tc / T)) / 1e6

theorem contP_cont {T : ℝ} (hT : Tc < T) : Continuous (contP T) := by
  have hτ : Tc / T < 1 := by
    have : (0:ℝ) < Tc := by norm_num [Tc]
    rw [div_lt_one (by linarith)]; exact hT
  unfold contP
  have := (phirD_cont hτ).comp (continuous_id.div_const rhoc)
  have h : Continuous fun ρ => phirD (ρ / rhoc) (Tc / T) := this
  fun_prop

theorem contP_eq {T ρ : ℝ} (hρ : 0 < ρ) (h1 : ρ ≠ 467.6) : Published.CO2.pressure T ρ = contP T ρ :=
  pressure_expanded hρ h1

/-- The pressure the code computes for one density. -/
theorem pressure0_contP {T ρ : ℝ} (hT : 0 < T) (hρ : 0 < ρ) (hT1 : T ≠ 304.1282) (hρ1 : ρ ≠ 467.6) :
    pressure0 .single (Num.fin T) (Num.fin ρ) = .ok (Num.fin (contP T ρ)) := by
  have h := C108_pressure .single hT hρ hT1 hρ1 false
  unfold pressure at h
  rw [kind_div_fin .single _ hT.ne', bind_ok, failIf_false (by simp), bind_ok] at h
  change (pressure0 .single (Num.fin T) (Num.fin ρ) >>= fun p => .ok (some p)) = _ at h
  obtain ⟨p, hp, h⟩ := bind_eq_ok.mp h
  injection h with h
  injection h with h
  rw [hp, h, contP_eq hρ hρ1]

/-! ### The two ends -/

theorem contP_low {T : ℝ} (hT : Tc < T) :
    0.995 * (0.095 * R * T / 1e6) ≤ contP T 0.095 ∧ contP T 0.095 ≤ 1.005 * (0.095 * R * T / 1e6) := by
  have hTc : (0:ℝ) < Tc := by norm_num [Tc]
  have hT0 : 0 < T := by linarith
  have hR : (0:ℝ) < R := by norm_num [R]
  have hb := low_bound (δ := 0.095 / rhoc) (τ := Tc / T) (by norm_num [rhoc]) (by norm_num [rhoc])
    (by positivity) (by rw [div_le_one hT0]; exact hT.le)
  rw [abs_le] at hb
  have hk : 0 < 0.095 * R * T / 1e6 := by positivity
  have e : contP T 0.095 = 0.095 * R * T / 1e6 * (1 + phirD (0.095 / rhoc) (Tc / T)) := by unfold contP; ring
  rw [e]
  constructor <;> nlinarith [hb.1, hb.2]

theorem contP_high {T : ℝ} (hT : Tc < T) : 800 < contP T 1575 := by
  have hTc : (0:ℝ) < Tc := by norm_num [Tc]
  have hT0 : 0 < T := by linarith
  have hb := high_bound (τ := Tc / T) (by positivity) (by rw [div_le_one hT0]; exact hT.le)
  have e : dmax = 1575 / rhoc := by unfold dmax rhoc; rfl
  rw [e] at hb
  have hR : (0:ℝ) < R := by norm_num [R]
  have hk : 0 < 1575 * R * T / 1e6 := by positivity
  have e2 : contP T 1575 = 1575 * R * T / 1e6 * (1 + phirD (1575 / rhoc) (Tc / T)) := by unfold contP; ring
  have e3 : 1575 * R * T / 1e6 * (8.85 * (Tc / T)) = 1575 * R * Tc / 1e6 * 8.85 := by field_simp
  calc (800:ℝ) < 1575 * R * Tc / 1e6 * 8.85 := by norm_num [R, Tc]
    _ = 1575 * R * T / 1e6 * (8.85 * (Tc / T)) := e3.symm
    _ ≤ contP T 1575 := by rw [e2]; exact mul_le_mul_of_nonneg_left hb hk.le

theorem bounds_super {T : ℝ} (hT : 304.1282 < T) (P : Num) (phase : Phase) :
    densityBounds (Num.fin T) P phase = (Num.fin 0.1, Num.fin 1500) := by
  unfold densityBounds
  rw [if_neg (by rw [Num.fin_lt, not_lt]; norm_num [tripleTemperature]; linarith),
    if_neg (by rw [Num.fin_lt, not_lt]; norm_num [criticalTemperature]; linarith)]

/-- **C122, the part that holds.** Above the critical temperature up to 1100 K, and from 0.02 to 800 MPa, a density
is found, and it is the one of the published equation. -/
theorem C122_partial {solve : RootFinder} {tol : ℝ} (hs : Searches solve) (hb : Brackets solve tol) {T P : ℝ}
    (hT : 304.1282 < T) (hT1 : T ≤ 1100) (hP : 0.02 ≤ P) (hP1 : P ≤ 800) :
    ∃ ρ, calculateDensity solve (Num.fin T) (Num.fin P) .auto true = .ok (Num.fin ρ) ∧ IsDensity tol T P ρ := by
  have hTc : Tc < T := by norm_num [Tc]; linarith
  have hT0 : 0 < T := by linarith
  have hfound : ∃ x, solve (fun x => (pressure0 .single (Num.fin T) x) >>= fun p => .ok (p - Num.fin P))
      (Num.fin 0.095) (Num.fin 1575) = .ok x := by
    refine hs.found _ (fun ρ => contP T ρ - P) 0.095 467.6 1575 (by norm_num) (by norm_num)
      ((contP_cont hTc).sub continuous_const).continuousOn ?_ ?_ ?_ ?_
    · intro x hx hx1
      rw [pressure0_contP hT0 (by linarith [hx.1]) hT.ne' hx1, bind_ok, Num.fin_sub]
    · rw [pressure0_fin .single hT0 (by norm_num), bind_ok, Num.fin_sub]
      exact ⟨_, rfl⟩
    · have h1 := (contP_low hTc).2
      have h2 : 1.005 * (0.095 * R * T / 1e6) ≤ 0.02 := by norm_num [R]; linarith
      linarith
    · linarith [contP_high hTc]
  obtain ⟨x, hx⟩ := hfound
  have hc : calculateDensity solve (Num.fin T) (Num.fin P) .auto true = .ok x := by
    unfold calculateDensity
    rw [bounds_super hT]
    dsimp only
    rw [Num.fin_mul, Num.fin_mul, show (0.1:ℝ) * 0.95 = 0.095 by norm_num, show (1500:ℝ) * 1.05 = 1575 by norm_num, hx]
  obtain ⟨ρ, hρ, hI⟩ := C108_density hb (by linarith) hT.ne' hc
  exact ⟨ρ, by rw [hc, hρ], hI⟩

/-- The pressure below which no density is found: 0.995 of the ideal gas pressure of 0.095 kg/m³. -/
theorem C122_low_pressure {solve : RootFinder} (hs : Searches solve) {T P : ℝ} (hT : 304.1282 < T)
    (hT1 : T ≤ 1100) (hP : P < 0.995 * (0.095 * 188.9241 * T / 1e6)) (phase : Phase) :
    calculateDensity solve (Num.fin T) (Num.fin P) phase true = .error .valueError := by
  have hTc : Tc < T := by norm_num [Tc]; linarith
  have hT0 : 0 < T := by linarith
  have h1 := (contP_low hTc).1
  have hR : R = 188.9241 := rfl
  rw [hR] at h1
  have hPT : 0 < contP T 0.095 - P := by linarith
  have hP8 : 0 < contP T 1575 - P := by linarith [contP_high hTc]
  unfold calculateDensity
  rw [bounds_super hT]
  dsimp only
  rw [Num.fin_mul, Num.fin_mul, show (0.1:ℝ) * 0.95 = 0.095 by norm_num, show (1500:ℝ) * 1.05 = 1575 by norm_num,
    hs.refused _ (contP T 0.095 - P) (contP T 1575 - P) (Num.fin 0.095) (Num.fin 1575)
      (by rw [pressure0_contP hT0 (by norm_num) hT.ne' (by norm_num), bind_ok, Num.fin_sub])
      (by rw [pressure0_contP hT0 (by norm_num) hT.ne' (by norm_num), bind_ok, Num.fin_sub]) hPT hP8]
  rfl

/-- **C122 is false.** The code raises `ValueError` for a state inside the documented range: 400 K and 1 kPa, a
dilute gas of 0.013 kg/m³ (the search begins at 0.095 kg/m³). -/
theorem C122_refuted :
    ¬ ∀ (solve : RootFinder) (tol : ℝ), 0 < tol → Searches solve → Brackets solve tol → ∀ T P : ℝ, 216 ≤ T → T ≤ 1100 →
      0 ≤ P → P ≤ 800 → ∃ x, calculateDensity solve (Num.fin T) (Num.fin P) .auto true = .ok x := by
  intro h
  obtain ⟨x, hx⟩ := h (signFinder 1) 1 one_pos (signFinder_searches one_pos) (signFinder_brackets 1) 400 0.001
    (by norm_num) (by norm_num) (by norm_num) (by norm_num)
  rw [C122_low_pressure (signFinder_searches one_pos) (by norm_num) (by norm_num) (by norm_num)] at hx
  cases hx

/-- A state that meets the hypotheses of `C122_partial`: 350 K and 20 MPa, with tolerance 1 Pa. -/
example : ∃ ρ, calculateDensity (signFinder 1e-6) (Num.fin 350) (Num.fin 20) .auto true = .ok (Num.fin ρ) ∧
    IsDensity 1e-6 350 20 ρ :=
  C122_partial (signFinder_searches (by norm_num)) (signFinder_brackets _) (by norm_num) (by norm_num) (by norm_num)
    (by norm_num)

/-- With `raise_error=False` the density there is NaN. -/
theorem C122_low_pressure_nan {solve : RootFinder} (hs : Searches solve) {T P : ℝ} (hT : 304.1282 < T)
    (hT1 : T ≤ 1100) (hP : P < 0.995 * (0.095 * 188.9241 * T / 1e6)) (phase : Phase) :
    calculateDensity solve (Num.fin T) (Num.fin P) phase false = .ok .nan :=
  (C69_no_value_error solve _ _ phase).2.1 (C122_low_pressure hs hT hT1 hP phase)

end OPE.CO2
