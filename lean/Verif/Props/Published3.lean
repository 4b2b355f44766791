import Verif.Props.Published2

/-!
# Cemented sand is the published formula (C98, C99)
-/

namespace OPE

open Classical

variable {n : ℕ}

/-! ### C98 contact cement and constant cement -/

theorem crr_published (x g : ℝ) : crr x g = Published.radiusRatio g x := by
  unfold crr Published.radiusRatio Published.cementRadius; rw [Real.sqrt_eq_rpow]

theorem snR_published (ν νc gc gm α : ℝ) : snR ν νc gc gm α = Published.cementNormal ν νc gm gc α := rfl

theorem stR_published (gc gm ν α : ℝ) : stR gc gm ν α = Published.cementTangential ν gm gc α := rfl

theorem contactCement_rock {cem san : Mat n} {a b : Fin n → Published.Rock} {x g f N : Fin n → ℝ}
    (hc : cem.IsRock a) (hm : san.IsRock b)
    (hr : CementRange (fun i => (a i).G) (fun i => (b i).K) (fun i => (b i).G))
    (h0 : ∀ i, 0 ≤ x i) (hx : ∀ i, x i ≤ g i) (hg : ∀ i, g i < 1)
    (hf : ∀ i, 0 ≤ f i) (hN : ∀ i, 0 < N i) :
    ∃ r, contactCement cem san (finC x) (finC g) (finC f) (finC N) = .ok r ∧
      r.IsRock fun i => Published.contactCement (a i) (b i) (x i) (g i) (f i) (N i) := by
  obtain ⟨r, K, G, R, h, hp⟩ := C74_contact_cement_defined hc.pos hm.pos hr h0 hx hg hf hN
  obtain ⟨-, hh⟩ := contactCement_has hc.pos hm.pos (fun i => (hg i).ne) h
  refine ⟨r, h, ?_⟩
  obtain ⟨e1, e2, e3⟩ := hp.has
  rw [hh.1] at e1; rw [hh.2.1] at e2; rw [hh.2.2] at e3
  have e1 := finC_injective e1; have e2 := finC_injective e2; have e3 := finC_injective e3
  have hk : ∀ i, K i = (Published.contactCement (a i) (b i) (x i) (g i) (f i) (N i)).K := fun i => by
    rw [← e1]
    simp only [ccK, crr_published, snR_published, nuR_published, Published.contactCement,
      Published.cementedBulk]
  refine hp.isRock hk (fun i => ?_) (fun i => ?_)
  · have := hk i
    rw [← e1] at this
    simp only [Published.contactCement] at this
    rw [← e2]
    simp only [ccG, Published.contactCement, Published.cementedShear, crr_published, stR_published,
      nuR_published]
    rw [this]; ring
  · rw [← e3]; simp only [ccR, crr_published, Published.contactCement]

theorem constantCement_rock {cem san : Mat n} {a b : Fin n → Published.Rock} {φ x g f N : Fin n → ℝ}
    (hc : cem.IsRock a) (hm : san.IsRock b)
    (hr : CementRange (fun i => (a i).G) (fun i => (b i).K) (fun i => (b i).G))
    (hφ0 : ∀ i, 0 ≤ φ i) (hφ : ∀ i, φ i ≤ x i)
    (h0 : ∀ i, 0 < x i) (hx : ∀ i, x i ≤ g i) (hg : ∀ i, g i < 1)
    (hf : ∀ i, 0 ≤ f i) (hN : ∀ i, 0 < N i) :
    ∃ r, constantCement san cem (finC φ) (finC x) (finC g) (finC N) (finC f) = .ok r ∧
      r.IsRock fun i => Published.constantCement (b i) (a i) (φ i) (x i) (g i) (f i) (N i) := by
  obtain ⟨d, hd, hdr⟩ := hsw_lower (f := fun i => g i - x i) hc hm
    (fun i => ⟨by linarith [hx i], by linarith [hg i, h0 i]⟩)
  obtain ⟨cc, hcc, hccr⟩ := contactCement_rock hc hm hr (fun i => (h0 i).le) hx hg hf hN
  obtain ⟨s, hs, hss⟩ := hsw_lower (f := fun i => 1 - φ i / x i) hdr hccr
    (fun i => ⟨by have := div_le_one_of_le₀ (hφ i) (h0 i).le; linarith,
      by have := div_nonneg (hφ0 i) (h0 i).le; linarith⟩)
  refine ⟨s, ?_, hss⟩
  unfold constantCement
  rw [show (finC g - finC x : Col n) = finC fun i => g i - x i by funext i; simp, hd, bind_ok, hcc, bind_ok]
  dsimp only
  rw [ratio_fin (fun i => (h0 i).ne'), hs]

/-- **C98.** On the textbook domain (grains with non-negative Poisson ratio, cement not much softer than
the grains, porosities ordered) `contact_cement` and `constant_cement` never raise and are the published
Dvorkin–Nur formulas, with the contact radius ratio limited to 1. -/
theorem C98_contact_and_constant_cement {cem san : Mat n} {a b : Fin n → Published.Rock}
    {φ x g f N : Fin n → ℝ} (hc : cem.IsRock a) (hm : san.IsRock b)
    (hr : ∀ i, 2 * (b i).G ≤ 3 * (b i).K ∧ 0.04 * (Real.pi * (b i).G) ≤ (a i).G)
    (hφ0 : ∀ i, 0 ≤ φ i) (hφ : ∀ i, φ i ≤ x i)
    (h0 : ∀ i, 0 < x i) (hx : ∀ i, x i ≤ g i) (hg : ∀ i, g i < 1)
    (hf : ∀ i, 0 ≤ f i) (hN : ∀ i, 0 < N i) :
    (∃ r, contactCement cem san (finC x) (finC g) (finC f) (finC N) = .ok r ∧
      r.IsRock fun i => Published.contactCement (a i) (b i) (x i) (g i) (f i) (N i)) ∧
    (∃ r, constantCement san cem (finC φ) (finC x) (finC g) (finC N) (finC f) = .ok r ∧
      r.IsRock fun i => Published.constantCement (b i) (a i) (φ i) (x i) (g i) (f i) (N i)) :=
  have hr' : CementRange (fun i => (a i).G) (fun i => (b i).K) (fun i => (b i).G) :=
    ⟨fun i => (hr i).1, fun i => (hr i).2⟩
  ⟨contactCement_rock hc hm hr' (fun i => (h0 i).le) hx hg hf hN,
    constantCement_rock hc hm hr' hφ0 hφ h0 hx hg hf hN⟩

/-! ### C99 patchy cement -/

theorem patchyWeight_published (con low up : Fin n → ℝ) :
    patchyWeight (finC con) (finC low) (finC up)
      = finC fun i => Published.weight (con i) (low i) (up i) := by
  funext i
  unfold patchyWeight Published.weight
  simp only [finC_apply, Num.fin_eq]
  by_cases h : up i = low i
  · simp [h, Num.clip]
  · have : up i - low i ≠ 0 := sub_ne_zero.mpr h
    simp only [h, if_false, Num.fin_sub, Num.fin_div _ this]
    simp [Num.clip, min_comm, max_comm]

/-- **C99.** On the domain of C98 `patchy_cement` never raises and is the published recipe: the friable
sand at the given pressure, moved towards the cemented upper bound by the relative position of the
constant-cement line between the lower bound (friable sand at the lower-bound pressure) and the upper bound. -/
theorem C99_patchy_cement {san cem : Mat n} {a b : Fin n → Published.Rock}
    {φ ccp ub p plb crit f Nf Nc : Fin n → ℝ} (hs : san.IsRock b) (hc : cem.IsRock a)
    (hr : ∀ i, 2 * (b i).G ≤ 3 * (b i).K ∧ 0.04 * (Real.pi * (b i).G) ≤ (a i).G)
    (hφ0 : ∀ i, 0 ≤ φ i) (hφ1 : ∀ i, φ i ≤ ccp i) (hφ2 : ∀ i, φ i ≤ ub i)
    (hccp0 : ∀ i, 0 < ccp i) (hub0 : ∀ i, 0 < ub i)
    (hccp : ∀ i, ccp i ≤ crit i) (hub : ∀ i, ub i ≤ crit i) (hcrit : ∀ i, crit i < 1)
    (hp : ∀ i, 0 < p i) (hplb : ∀ i, 0 < plb i) (hf : ∀ i, 0 ≤ f i) (hNf : ∀ i, 0 < Nf i)
    (hNc : ∀ i, 0 < Nc i) :
    ∃ m, patchyCement san cem (finC φ) (finC ccp) (finC ub) (finC p) (finC plb) (finC crit)
        (finC f) (finC Nf) (finC Nc) = .ok m ∧
      m.IsRock fun i => Published.patchyCement (b i) (a i) (φ i) (ccp i) (ub i) (p i) (plb i) (crit i)
        (f i) (Nf i) (Nc i) := by
  have hr' : CementRange (fun i => (a i).G) (fun i => (b i).K) (fun i => (b i).G) :=
    ⟨fun i => (hr i).1, fun i => (hr i).2⟩
  have hcrit0 : ∀ i, 0 < crit i := fun i => lt_of_lt_of_le (hub0 i) (hub i)
  have hφc : ∀ i, φ i ≤ crit i := fun i => (hφ2 i).trans (hub i)
  obtain ⟨m, K, G, R, hm, hmp⟩ := C75_patchy_cement_defined hs.pos hc.pos hr' hφ0 hφ1 hφ2 hccp0 hub0 hccp hub
    hcrit hp hplb hf hNf hNc
  refine ⟨m, hm, ?_⟩
  obtain ⟨d, hd, hdr⟩ := hsw_lower (f := fun i => crit i - ub i) hc hs
    (fun i => ⟨by linarith [hub i], by linarith [hcrit i, hub0 i]⟩)
  obtain ⟨fr, hfr, hfrr⟩ := friableSand_rock hdr hφ0 hφc hcrit0 hcrit hp hf hNf
  obtain ⟨lo, hlo, hlor⟩ := friableSand_rock hdr hφ0 hφc hcrit0 hcrit hplb hf hNf
  obtain ⟨up, hup, hupr⟩ := constantCement_rock hc hs hr' hφ0 hφ2 hub0 hub hcrit hf hNc
  obtain ⟨cc, hcc, hccr⟩ := contactCement_rock hc hs hr' (fun i => (hccp0 i).le) hccp hcrit hf hNc
  obtain ⟨co, hco, hcor⟩ := hsw_lower (f := fun i => 1 - φ i / ccp i) hdr hccr
    (fun i => ⟨by have := div_le_one_of_le₀ (hφ1 i) (hccp0 i).le; linarith,
      by have := div_nonneg (hφ0 i) (hccp0 i).le; linarith⟩)
  have hm2 := hm
  unfold patchyCement at hm2
  rw [show (finC crit - finC ub : Col n) = finC fun i => crit i - ub i by funext i; simp, hd, bind_ok, hfr,
    bind_ok, hlo, bind_ok, hup, bind_ok, hcc, bind_ok, ratio_fin (fun i => (hccp0 i).ne'), hco, bind_ok] at hm2
  dsimp only at hm2
  obtain ⟨g1, g2, g3, -, -⟩ := C03_given_arguments_kept _ _ _ _ _ m hm2
  have g1 := g1 _ rfl; have g2 := g2 _ rfl; have g3 := g3 _ rfl
  rw [hcor.1, hlor.1, hupr.1, hfrr.1, patchyWeight_published] at g1
  rw [hcor.2.1, hlor.2.1, hupr.2.1, hfrr.2.1, patchyWeight_published] at g2
  rw [hs.2.2.1, hc.2.2.1] at g3
  refine hmp.isRock (fun i => ?_) (fun i => ?_) (fun i => ?_)
  · have := congrFun g1 i
    rw [hmp.has.1] at this
    simpa [Published.patchyCement] using this
  · have := congrFun g2 i
    rw [hmp.has.2.1] at this
    simpa [Published.patchyCement] using this
  · have := congrFun g3 i
    rw [hmp.has.2.2] at this
    simpa [Published.patchyCement] using this

/-- Carbonate-like cement, quartz grains. -/
example := C99_patchy_cement (n := 2) (φ := fun _ => 0.2) (ccp := fun _ => 0.36) (ub := fun _ => 0.3)
  (p := fun _ => 20) (plb := fun _ => 5) (crit := fun _ => 0.4) (f := fun _ => 0.5) (Nf := fun _ => 9)
  (Nc := fun _ => 9) quartz_rock quartz_rock
  (fun _ => ⟨by norm_num, by have := Real.pi_lt_four; norm_num; linarith⟩) (fun _ => by norm_num)
  (fun _ => by norm_num) (fun _ => by norm_num) (fun _ => by norm_num) (fun _ => by norm_num)
  (fun _ => by norm_num) (fun _ => by norm_num) (fun _ => by norm_num) (fun _ => by norm_num)
  (fun _ => by norm_num) (fun _ => by norm_num) (fun _ => by norm_num) (fun _ => by norm_num)

example := C98_contact_and_constant_cement (n := 2) (φ := fun _ => 0.2) (x := fun _ => 0.36)
  (g := fun _ => 0.4) (f := fun _ => 0.5) (N := fun _ => 9) quartz_rock quartz_rock
  (fun _ => ⟨by norm_num, by have := Real.pi_lt_four; norm_num; linarith⟩) (fun _ => by norm_num)
  (fun _ => by norm_num) (fun _ => by norm_num) (fun _ => by norm_num) (fun _ => by norm_num)
  (fun _ => by norm_num) (fun _ => by norm_num)

end OPE
