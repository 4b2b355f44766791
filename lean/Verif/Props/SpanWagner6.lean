import Verif.Props.SpanWagner4

/-!
# Carbon dioxide: array density and single temperature (C90, C91, C92)
-/

namespace OPE.CO2

open Classical

variable {n : ℕ}

/-- **C90.** Whatever Newton's method returns, every element of a result of `array_carbon_dioxide_density` is
either the density of the robust method, or a number inside the bracket whose pressure is within 1e-5 MPa of
the given pressure. -/
theorem C90_certified {solve : RootFinder} {start : Col n → Col n → Except Err (Col n)}
    {newton : (Col n → Except Err (Col n)) → Col n → Except Err (Col n)} {T P d : Col n} {phase : Phase}
    (h : arrayDensity solve start newton T P phase = .ok d) (i : Fin n) :
    calculateDensity solve (T i) (P i) phase true = .ok (d i) ∨
    (d i ≠ .nan ∧ ¬ d i < (densityBounds (T i) (P i) phase).1 ∧ ¬ (densityBounds (T i) (P i) phase).2 < d i ∧
      ∃ p, pressure0 .array (T i) (d i) = .ok p ∧ Num.abs (p - P i) ≤ Num.fin 1e-5) := by
  unfold arrayDensity at h
  obtain ⟨u, hu, h⟩ := bind_eq_ok.mp h
  obtain ⟨x0, hx, h⟩ := bind_eq_ok.mp h
  obtain ⟨root, hr, h⟩ := bind_eq_ok.mp h
  obtain ⟨p, hp, h⟩ := bind_eq_ok.mp h
  have hi := vec_ok_iff.mp h i
  dsimp only at hi
  split at hi
  · exact .inl hi
  · rename_i hc
    push Not at hc
    injection hi with hi
    rw [← hi]
    exact .inr ⟨hc.2.2.2, hc.2.1, hc.2.2.1, p i, vec_ok_iff.mp hp i, hc.1⟩

/-- **C90, numbers.** Above the triple point, for pressures that are numbers, with a root finder that keeps its
bracket: every element is a positive number whose pressure is the given pressure up to the tolerances. -/
theorem C90_numbers {solve : RootFinder} {tol : ℝ} (hs : Brackets solve tol)
    {start : Col n → Col n → Except Err (Col n)}
    {newton : (Col n → Except Err (Col n)) → Col n → Except Err (Col n)} {T P : Fin n → ℝ} {d : Col n}
    {phase : Phase} (h : arrayDensity solve start newton (finC T) (finC P) phase = .ok d) (i : Fin n)
    (hT : tripleTemperature ≤ T i) : ∃ ρ p : ℝ, d i = Num.fin ρ ∧ 0 < ρ ∧
      (∃ k, pressure0 k (Num.fin (T i)) (Num.fin ρ) = .ok (Num.fin p)) ∧ |p - P i| ≤ max tol 1e-5 := by
  have hT0 : 0 < T i := lt_of_lt_of_le tripT_pos hT
  rcases C90_certified h i with h1 | ⟨h1, h2, h3, p, hp, hc⟩
  · obtain ⟨lo, hi, ρ, -, hρ, -, -, hpos, p, hp, hle⟩ := C69_solution hs hT (P i) phase h1
    refine ⟨ρ, p, hρ, hpos, ⟨.single, ?_⟩, hle.trans (le_max_left _ _)⟩
    rw [hρ] at hp
    have e := pressure0_fin .single hT0 hpos
    unfold pressure at hp
    rw [kind_div_fin .single _ hT0.ne', bind_ok, failIf_false (by simp), bind_ok] at hp
    change (pressure0 .single (Num.fin (T i)) (Num.fin ρ) >>= fun p => .ok (some p)) = _ at hp
    rw [e, bind_ok] at hp
    injection hp with hp
    injection hp with hp
    rw [e, hp]
  · obtain ⟨lo, hi, hb, hlo, hlt⟩ := (C69_bracket hT (P i)).1 phase
    rw [show finC T i = Num.fin (T i) from rfl, show finC P i = Num.fin (P i) from rfl, hb] at h2 h3
    obtain ⟨ρ, hρ⟩ : ∃ ρ, d i = Num.fin ρ := by
      cases hd : d i with
      | fin r => exact ⟨r, rfl⟩
      | posInf => rw [hd] at h3; exact absurd trivial h3
      | negInf => rw [hd] at h2; exact absurd trivial h2
      | nan => exact absurd hd h1
    rw [hρ] at h2 h3 hp
    rw [Num.fin_lt, not_lt] at h2 h3
    have hpos : 0 < ρ := by linarith
    have e := pressure0_fin .array hT0 hpos
    rw [show finC T i = Num.fin (T i) from rfl, e] at hp
    injection hp with hp
    refine ⟨ρ, pR .array (T i) ρ, hρ, hpos, ⟨.array, e⟩, ?_⟩
    rw [← hp, show finC P i = Num.fin (P i) from rfl, Num.fin_sub, Num.fin_abs, Num.fin_le] at hc
    exact hc.trans (le_max_right _ _)

/-- **C91 is false.** `array_carbon_dioxide_density` raises `ValueError` for every table with a pressure above
1.01 times the largest temperature (pressures in MPa are compared with temperatures in K). -/
theorem C91_refuted (start : Col 1 → Col 1 → Except Err (Col 1))
    (newton : (Col 1 → Except Err (Col 1)) → Col 1 → Except Err (Col 1)) (phase : Phase)
    (solve : RootFinder) (T P : ℝ) (h : T * 1.01 < P) :
    arrayDensity solve start newton (c T) (c P) phase = .error .valueError := by
  unfold arrayDensity
  rw [failIf_true, bind_error]
  refine ⟨Num.fin T, 0, ⟨⟨0, rfl⟩, fun i => ?_⟩, ?_⟩
  · simp [c]
  · simpa [c] using h

/-- … and such conditions lie in the documented range of 216-1100 K and 0-800 MPa: 300 K and 400 MPa. -/
theorem C91_refuted_in_range : ∃ T P : ℝ, 216 ≤ T ∧ T ≤ 1100 ∧ 0 < P ∧ P ≤ 800 ∧
    ∀ (solve : RootFinder) (start : Col 1 → Col 1 → Except Err (Col 1))
      (newton : (Col 1 → Except Err (Col 1)) → Col 1 → Except Err (Col 1)) (phase : Phase),
      arrayDensity solve start newton (c T) (c P) phase = .error .valueError :=
  ⟨300, 400, by norm_num, by norm_num, by norm_num, by norm_num, fun solve start newton phase =>
    C91_refuted start newton phase solve 300 400 (by norm_num)⟩

/-- **C92 is false.** For several densities at a single temperature the Helmholtz energy of the second density
is not the one it has alone. -/
theorem C92_refuted : ∃ (delta : Col 2) (tau : Num) (a : Col 2) (b : Num),
    helmholtzMixed delta tau 0 0 = .ok a ∧ helmholtz (delta 1) tau 0 0 = .ok b ∧ a 1 ≠ b := by
  have h1 : (0:ℝ) < 2 := by norm_num
  have h3 : (0:ℝ) < 3 := by norm_num
  refine ⟨finC ![3, 2], Num.fin 2, fun i => Num.fin (phiIdeal 3 2) + Num.fin (resR 0 0 (nudgeR (![3, 2] i)) (nudgeR 2)),
    Num.fin (phiIdeal 2 2 + resR 0 0 (nudgeR 2) (nudgeR 2)), ?_, ?_, ?_⟩
  · unfold helmholtzMixed
    refine vec_ok fun i => ?_
    rw [if_pos ⟨rfl, rfl⟩]
    unfold idealGasMixed
    rw [show finC ![3, 2] (0 : Fin 2) = Num.fin 3 from rfl, (idealGas_values h3 h1).1, bind_ok]
    have hpos : 0 < (![3, 2] : Fin 2 → ℝ) i := by fin_cases i <;> simp
    rw [show finC ![3, 2] i = Num.fin (![3, 2] i) from rfl, residual_fin (by norm_num) hpos h1]
    rfl
  · unfold helmholtz
    rw [show finC ![3, 2] (1 : Fin 2) = Num.fin 2 from rfl, (idealGas_values h1 h1).1, bind_ok,
      residual_fin (by norm_num) h1 h1, bind_ok, Num.fin_add]
  · dsimp only
    rw [Num.fin_add, Ne, Num.fin_inj]
    intro h
    have h : phiIdeal 3 2 + resR 0 0 (nudgeR 2) (nudgeR 2) = phiIdeal 2 2 + resR 0 0 (nudgeR 2) (nudgeR 2) := h
    have h := add_right_cancel h
    unfold phiIdeal at h
    have : Real.log 2 < Real.log 3 := Real.log_lt_log h1 (by norm_num)
    linarith

/-- **C92, partial.** All derivatives, and the value of the first density, are right. -/
theorem C92_partial [NeZero n] {delta : Col n} {tau : Num} {dd dt : ℕ} {a : Col n}
    (h : helmholtzMixed delta tau dd dt = .ok a) :
    (¬ (dd = 0 ∧ dt = 0) → ∀ i, helmholtz (delta i) tau dd dt = .ok (a i)) ∧
    helmholtz (delta 0) tau dd dt = .ok (a 0) := by
  unfold helmholtzMixed at h
  have h := vec_ok_iff.mp h
  constructor
  · intro hne i
    have := h i
    rw [if_neg hne] at this
    exact this
  · have := h 0
    by_cases hz : dd = 0 ∧ dt = 0
    · rw [if_pos hz] at this
      obtain ⟨rfl, rfl⟩ := hz
      exact this
    · rw [if_neg hz] at this
      exact this

end OPE.CO2
