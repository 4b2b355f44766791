import Verif.Props.SpanWagner7
import Mathlib.Analysis.Complex.ExponentialBounds

/-!
# Bounds on the pressure at the ends of the density bracket (C122)
-/

namespace OPE.CO2

open Classical OPE.Published.CO2

/-! ### `δ` times the derivative in `δ` of each kind of term -/

noncomputable def polyD (n : ℝ) (d : ℕ) (t : ℝ) (δ τ : ℝ) : ℝ := n * d * δ ^ d * τ ^ t

noncomputable def expoD (n : ℝ) (d : ℕ) (t : ℝ) (c : ℕ) (δ τ : ℝ) : ℝ :=
  n * δ ^ d * τ ^ t * Real.exp (-δ ^ c) * (d - c * δ ^ c)

noncomputable def gaussD (n : ℝ) (d : ℕ) (t : ℝ) (α β γ : ℝ) (δ τ : ℝ) : ℝ :=
  n * δ ^ d * τ ^ t * Real.exp (-α * (δ - 1) ^ 2 - β * (τ - γ) ^ 2) * (d - 2 * α * δ * (δ - 1))

noncomputable def critBase (a B : ℝ) (δ τ : ℝ) : ℝ :=
  ((1 - τ) + 0.7 * ((δ - 1) ^ 2) ^ ((1 : ℝ) / (2 * 0.3))) ^ 2 + B * ((δ - 1) ^ 2) ^ a

noncomputable def critBaseD (a B : ℝ) (δ τ : ℝ) : ℝ :=
  2 * ((1 - τ) + 0.7 * ((δ - 1) ^ 2) ^ ((1 : ℝ) / (2 * 0.3))) *
      (0.7 * ((1 : ℝ) / (2 * 0.3) * ((δ - 1) ^ 2) ^ ((1 : ℝ) / (2 * 0.3) - 1) * (2 * (δ - 1))))
    + B * (a * ((δ - 1) ^ 2) ^ (a - 1) * (2 * (δ - 1)))

noncomputable def critD (n a b B C : ℝ) (δ τ : ℝ) : ℝ :=
  n * Real.exp (-C * (δ - 1) ^ 2 - 275 * (τ - 1) ^ 2) *
    (critBase a B δ τ ^ b * δ * (1 - 2 * C * δ * (δ - 1))
      + b * critBase a B δ τ ^ (b - 1) * critBaseD a B δ τ * δ ^ 2)

theorem hasDeriv_poly (n : ℝ) (d : ℕ) (t τ : ℝ) {δ : ℝ} (hδ : 0 < δ) :
    HasDerivAt (fun x => poly n d t x τ) (polyD n d t δ τ / δ) δ := by
  have h := ((hasDerivAt_pow d δ).const_mul n).mul_const (τ ^ t)
  refine h.congr_deriv ?_
  unfold polyD
  rcases d with _ | d
  · simp
  · rw [eq_div_iff hδ.ne']
    simp only [Nat.add_sub_cancel, pow_succ]
    ring

theorem hasDeriv_expo (n : ℝ) (d : ℕ) (t τ : ℝ) (c : ℕ) {δ : ℝ} (hδ : 0 < δ) :
    HasDerivAt (fun x => expo n d t c x τ) (expoD n d t c δ τ / δ) δ := by
  have h1 := ((hasDerivAt_pow d δ).const_mul n).mul_const (τ ^ t)
  have h2 := (hasDerivAt_pow c δ).neg.exp
  refine (h1.mul h2).congr_deriv ?_
  unfold expoD
  rw [eq_div_iff hδ.ne']
  have e1 : (d : ℝ) * δ ^ (d - 1) * δ = d * δ ^ d := by
    rcases d with _ | d
    · simp
    · simp only [Nat.add_sub_cancel, pow_succ]; ring
  have e2 : (c : ℝ) * δ ^ (c - 1) * δ = c * δ ^ c := by
    rcases c with _ | c
    · simp
    · simp only [Nat.add_sub_cancel, pow_succ]; ring
  calc (n * (d * δ ^ (d - 1)) * τ ^ t * Real.exp (-δ ^ c) + n * δ ^ d * τ ^ t * (Real.exp (-δ ^ c) *
        -(c * δ ^ (c - 1)))) * δ
      = n * τ ^ t * Real.exp (-δ ^ c) * ((d * δ ^ (d - 1) * δ) - δ ^ d * (c * δ ^ (c - 1) * δ)) := by ring
    _ = _ := by rw [e1, e2]; ring

theorem hasDeriv_gauss (n : ℝ) (d : ℕ) (t α β γ τ : ℝ) {δ : ℝ} (hδ : 0 < δ) :
    HasDerivAt (fun x => gauss n d t α β γ x τ) (gaussD n d t α β γ δ τ / δ) δ := by
  have h1 := ((hasDerivAt_pow d δ).const_mul n).mul_const (τ ^ t)
  have h2 : HasDerivAt (fun x : ℝ => Real.exp (-α * (x - 1) ^ 2 - β * (τ - γ) ^ 2))
      (Real.exp (-α * (δ - 1) ^ 2 - β * (τ - γ) ^ 2) * (-α * (2 * (δ - 1)))) δ := by
    have h3 : HasDerivAt (fun x : ℝ => (x - 1) ^ 2) (2 * (δ - 1)) δ := by
      refine (((hasDerivAt_id δ).sub_const 1).pow 2).congr_deriv ?_
      simp
    exact ((h3.const_mul (-α)).sub_const _).exp
  refine (h1.mul h2).congr_deriv ?_
  unfold gaussD
  rw [eq_div_iff hδ.ne']
  have e1 : (d : ℝ) * δ ^ (d - 1) * δ = d * δ ^ d := by
    rcases d with _ | d
    · simp
    · simp only [Nat.add_sub_cancel, pow_succ]; ring
  calc _ = n * τ ^ t * Real.exp (-α * (δ - 1) ^ 2 - β * (τ - γ) ^ 2) *
        ((d * δ ^ (d - 1) * δ) - δ ^ d * (2 * α * δ * (δ - 1))) := by ring
    _ = _ := by rw [e1]; ring

theorem hasDeriv_crit (n a b B C τ : ℝ) (hB : 0 < B) {δ : ℝ} (hδ : 0 < δ) (h1 : δ ≠ 1) :
    HasDerivAt (fun x => crit n a b B C x τ) (critD n a b B C δ τ / δ) δ := by
  have hu : (0:ℝ) < (δ - 1) ^ 2 := by
    have : δ - 1 ≠ 0 := sub_ne_zero.mpr h1
    positivity
  have h3 : HasDerivAt (fun x : ℝ => (x - 1) ^ 2) (2 * (δ - 1)) δ := by
    refine (((hasDerivAt_id δ).sub_const 1).pow 2).congr_deriv ?_
    simp
  have hp : ∀ p : ℝ, HasDerivAt (fun x : ℝ => ((x - 1) ^ 2) ^ p)
      (p * ((δ - 1) ^ 2) ^ (p - 1) * (2 * (δ - 1))) δ := fun p => by
    refine (h3.rpow_const (.inl hu.ne')).congr_deriv ?_
    ring
  have hbase : HasDerivAt (fun x => critBase a B x τ) (critBaseD a B δ τ) δ := by
    have h4 := (((hp ((1 : ℝ) / (2 * 0.3))).const_mul 0.7).const_add (1 - τ)).pow 2
    refine (h4.add ((hp a).const_mul B)).congr_deriv ?_
    unfold critBaseD
    norm_num
  have hpos : 0 < critBase a B δ τ := by
    unfold critBase
    have := mul_pos hB (Real.rpow_pos_of_pos hu a)
    positivity
  have hexp : HasDerivAt (fun x : ℝ => Real.exp (-C * (x - 1) ^ 2 - 275 * (τ - 1) ^ 2))
      (Real.exp (-C * (δ - 1) ^ 2 - 275 * (τ - 1) ^ 2) * (-C * (2 * (δ - 1)))) δ :=
    ((h3.const_mul (-C)).sub_const _).exp
  have hall := (((hbase.rpow_const (p := b) (.inl hpos.ne')).const_mul n).mul (hasDerivAt_id δ)).mul hexp
  refine hall.congr_deriv ?_
  unfold critD
  rw [eq_div_iff hδ.ne']
  simp only [id, mul_one, Pi.mul_apply]
  ring

/-- `δ` times the derivative of the residual part. -/
noncomputable def phirD (δ τ : ℝ) : ℝ :=
  polyD 0.38856823203161 1 0 δ τ
  + polyD 2.9385475942740 1 0.75 δ τ
  + polyD (-5.5867188534934) 1 1 δ τ
  + polyD (-0.76753199592477) 1 2 δ τ
  + polyD 0.31729005580416 2 0.75 δ τ
  + polyD 0.54803315897767 2 2 δ τ
  + polyD 0.12279411220335 3 0.75 δ τ
  + expoD 2.1658961543220 1 1.5 1 δ τ
  + expoD 1.5841735109724 2 1.5 1 δ τ
  + expoD (-0.23132705405503) 4 2.5 1 δ τ
  + expoD 0.058116916431436 5 0 1 δ τ
  + expoD (-0.55369137205382) 5 1.5 1 δ τ
  + expoD 0.48946615909422 5 2 1 δ τ
  + expoD (-0.024275739843501) 6 0 1 δ τ
  + expoD 0.062494790501678 6 1 1 δ τ
  + expoD (-0.12175860225246) 6 2 1 δ τ
  + expoD (-0.37055685270086) 1 3 2 δ τ
  + expoD (-0.016775879700426) 1 6 2 δ τ
  + expoD (-0.11960736637987) 4 3 2 δ τ
  + expoD (-0.045619362508778) 4 6 2 δ τ
  + expoD 0.035612789270346 4 8 2 δ τ
  + expoD (-0.0074427727132052) 7 6 2 δ τ
  + expoD (-0.0017395704902432) 8 0 2 δ τ
  + expoD (-0.021810121289527) 2 7 3 δ τ
  + expoD 0.024332166559236 3 12 3 δ τ
  + expoD (-0.037440133423463) 3 16 3 δ τ
  + expoD 0.143387157568781 5 22 4 δ τ
  + expoD (-0.13491969083286) 5 24 4 δ τ
  + expoD (-0.023151225053480) 6 16 4 δ τ
  + expoD 0.012363125492901 7 24 4 δ τ
  + expoD 0.0021058321972940 8 8 4 δ τ
  + expoD (-0.00033958519026368) 10 2 4 δ τ
  + expoD 0.0055993651771592 4 28 5 δ τ
  + expoD (-0.00030335118055646) 8 14 6 δ τ
  + gaussD (-213.65488688320) 2 1 25 325 1.16 δ τ
  + gaussD 26641.569149272 2 0 25 300 1.19 δ τ
  + gaussD (-24027.212204557) 2 1 25 300 1.19 δ τ
  + gaussD (-283.41603423999) 3 3 15 275 1.25 δ τ
  + gaussD 212.47284400179 3 3 20 275 1.22 δ τ
  + critD (-0.66642276540751) 3.5 0.875 0.3 10 δ τ
  + critD 0.72608632349897 3.5 0.925 0.3 10 δ τ
  + critD 0.055068668612842 3 0.875 1 12.5 δ τ

theorem dδ_phir {δ τ : ℝ} (hδ : 0 < δ) (h1 : δ ≠ 1) : δ * dδ phir δ τ = phirD δ τ := by
  have h : HasDerivAt (fun x => phir x τ) (phirD δ τ / δ) δ := by
    unfold phir phirD
    simp only [add_div]
    repeat' first
      | exact hasDeriv_poly _ _ _ _ hδ
      | exact hasDeriv_expo _ _ _ _ _ hδ
      | exact hasDeriv_gauss _ _ _ _ _ _ _ hδ
      | exact hasDeriv_crit _ _ _ _ _ _ (by norm_num) hδ h1
      | apply HasDerivAt.fun_add
  unfold dδ
  rw [h.deriv, mul_div_cancel₀ _ hδ.ne']

/-- The pressure by the expanded formula. -/
theorem pressure_expanded {T ρ : ℝ} (hρ : 0 < ρ) (h1 : ρ ≠ 467.6) :
    Published.CO2.pressure T ρ = ρ * R * T * (1 + phirD (ρ / rhoc) (Tc / T)) / 1e6 := by
  have hc : (0:ℝ) < rhoc := by norm_num [rhoc]
  unfold Published.CO2.pressure
  rw [dδ_phir (div_pos hρ hc)]
  intro h
  rw [div_eq_iff hc.ne', one_mul] at h
  exact h1 (by rw [h]; rfl)

end OPE.CO2
