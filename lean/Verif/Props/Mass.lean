import Verif.Props.Published3
import Verif.Spec.Mass

/-!
# Property C142: the density of a dry rock is the mass of its grains and cement

The constant-cement and contact-cement sands deposit the volume `g - x` of cement when the porosity of the grain
pack falls from `g` to `x`.
-/

namespace OPE

open Classical Spec

variable {n : ℕ}

/-- **C142, uncemented and patchy sands.** The grain pack and the friable sand weigh as much as their grains; the
patchy sand weighs as much as its grains and its cement, of which it has the volume `crit - ccp`. -/
theorem C142_mass_partial {san cem : Mat n} {a b : Fin n → Published.Rock}
    {φ ccp ub p plb crit f Nf Nc : Fin n → ℝ} (hs : san.IsRock b) (hc : cem.IsRock a)
    (hr : ∀ i, 2 * (b i).G ≤ 3 * (b i).K ∧ 0.04 * (Real.pi * (b i).G) ≤ (a i).G)
    (hφ0 : ∀ i, 0 ≤ φ i) (hφ1 : ∀ i, φ i ≤ ccp i) (hφ2 : ∀ i, φ i ≤ ub i)
    (hccp0 : ∀ i, 0 < ccp i) (hub0 : ∀ i, 0 < ub i)
    (hccp : ∀ i, ccp i ≤ crit i) (hub : ∀ i, ub i ≤ crit i) (hcrit : ∀ i, crit i < 1)
    (hp : ∀ i, 0 < p i) (hplb : ∀ i, 0 < plb i) (hf : ∀ i, 0 ≤ f i) (hNf : ∀ i, 0 < Nf i)
    (hNc : ∀ i, 0 < Nc i) :
    (∃ m, hertzMindlin san (finC crit) (finC p) (finC f) (finC Nf) = .ok m ∧
      m.density = finC fun i => dryMass (crit i) 0 (b i).ρ (a i).ρ) ∧
    (∃ m, friableSand san (finC φ) (finC crit) (finC p) (finC Nf) (finC f) = .ok m ∧
      m.density = finC fun i => dryMass (φ i) 0 (b i).ρ (a i).ρ) ∧
    (∃ m, patchyCement san cem (finC φ) (finC ccp) (finC ub) (finC p) (finC plb) (finC crit)
        (finC f) (finC Nf) (finC Nc) = .ok m ∧
      m.density = finC fun i => dryMass (φ i) (crit i - ccp i) (b i).ρ (a i).ρ) := by
  have hcrit0 : ∀ i, 0 < crit i := fun i => lt_of_lt_of_le (hub0 i) (hub i)
  have hφc : ∀ i, φ i ≤ crit i := fun i => (hφ2 i).trans (hub i)
  refine ⟨?_, ?_, ?_⟩
  · obtain ⟨m, h, hm⟩ := hertzMindlin_rock (φ := crit) hs hcrit hp hf hNf
    refine ⟨m, h, hm.2.2.1.trans ?_⟩
    congr 1; funext i; simp only [Published.hertzMindlin, dryMass]; ring
  · obtain ⟨m, h, hm⟩ := friableSand_rock hs hφ0 hφc hcrit0 hcrit hp hf hNf
    refine ⟨m, h, hm.2.2.1.trans ?_⟩
    congr 1; funext i
    have := (hcrit0 i).ne'
    simp only [Published.friableSand, Published.lowerBound, Published.hertzMindlin, dryMass]
    field_simp
    ring
  · obtain ⟨m, h, hm⟩ := C99_patchy_cement hs hc hr hφ0 hφ1 hφ2 hccp0 hub0 hccp hub hcrit hp hplb hf hNf hNc
    refine ⟨m, h, hm.2.2.1.trans ?_⟩
    rfl

/-- The volume of cement that the density of the contact cement sand counts: the ratio of the *radius* of the cement
layer to the grain radius, times the solid volume. -/
noncomputable def countedCement (x g : ℝ) : ℝ := (1 - x) * min 1 ((2 * (g - x) / (3 * (1 - g))) ^ ((1:ℝ)/2))

/-- **C142, cemented sands.** The density of a contact cement sand (porosity `x`, pack porosity `g`) is the mass of its
grains and cement exactly when cement and grains are equally dense or the counted volume of cement happens
to be the deposited one; the same holds for a constant cement sand with pores. -/
theorem C142_cemented_mass_partial {cem san : Mat n} {a b : Fin n → Published.Rock}
    {φ x g f N : Fin n → ℝ} (hc : cem.IsRock a) (hm : san.IsRock b)
    (hr : ∀ i, 2 * (b i).G ≤ 3 * (b i).K ∧ 0.04 * (Real.pi * (b i).G) ≤ (a i).G)
    (hφ0 : ∀ i, 0 ≤ φ i) (hφ : ∀ i, φ i ≤ x i)
    (h0 : ∀ i, 0 < x i) (hx : ∀ i, x i ≤ g i) (hg : ∀ i, g i < 1)
    (hf : ∀ i, 0 ≤ f i) (hN : ∀ i, 0 < N i) :
    (∃ r R, contactCement cem san (finC x) (finC g) (finC f) (finC N) = .ok r ∧ r.density = finC R ∧
      ∀ i, R i = dryMass (x i) (g i - x i) (b i).ρ (a i).ρ ↔
        ((a i).ρ = (b i).ρ ∨ countedCement (x i) (g i) = g i - x i)) ∧
    (∃ r R, constantCement san cem (finC φ) (finC x) (finC g) (finC N) (finC f) = .ok r ∧ r.density = finC R ∧
      ∀ i, R i = dryMass (φ i) (g i - x i) (b i).ρ (a i).ρ ↔
        (φ i = 0 ∨ (a i).ρ = (b i).ρ ∨ countedCement (x i) (g i) = g i - x i)) := by
  obtain ⟨⟨r, h1, e1⟩, ⟨s, h2, e2⟩⟩ := C98_contact_and_constant_cement hc hm hr hφ0 hφ h0 hx hg hf hN
  refine ⟨⟨r, _, h1, e1.2.2.1, fun i => ?_⟩, ⟨s, _, h2, e2.2.2.1, fun i => ?_⟩⟩
  · have key : (Published.contactCement (a i) (b i) (x i) (g i) (f i) (N i)).ρ
        - dryMass (x i) (g i - x i) (b i).ρ (a i).ρ
        = (countedCement (x i) (g i) - (g i - x i)) * ((a i).ρ - (b i).ρ) := by
      simp only [Published.contactCement, dryMass, countedCement, Published.radiusRatio, Published.cementRadius]
      ring
    rw [← sub_eq_zero, key, mul_eq_zero, sub_eq_zero, sub_eq_zero]
    exact or_comm
  · have hx0 := (h0 i).ne'
    have key : (Published.constantCement (b i) (a i) (φ i) (x i) (g i) (f i) (N i)).ρ
        - dryMass (φ i) (g i - x i) (b i).ρ (a i).ρ
        = φ i / x i * ((countedCement (x i) (g i) - (g i - x i)) * ((a i).ρ - (b i).ρ)) := by
      simp only [Published.constantCement, Published.lowerBound, Published.contactCement, dryMass, countedCement,
        Published.radiusRatio, Published.cementRadius]
      field_simp
      ring
    rw [← sub_eq_zero, key, mul_eq_zero, mul_eq_zero, sub_eq_zero, sub_eq_zero, div_eq_zero_iff]
    simp only [hx0, or_false]
    rw [or_comm (a := countedCement _ _ = _)]

/-- Quartz sand and calcite cement (GPa, kg/m³). -/
theorem calcite_rock : (Mat.ofReal (n := 2) (fun _ => 76.8) (fun _ => 32) (fun _ => 2710)).IsRock
    fun _ => ⟨76.8, 32, 2710⟩ :=
  ⟨rfl, rfl, rfl, fun _ => by norm_num⟩

/-- Porosities 0.364 and 0.4: 3.6 percent of the volume is cement, but 12.72 percent are counted. -/
theorem countedCement_ex : countedCement 0.364 0.4 = 0.1272 := by
  unfold countedCement
  rw [show (2 * (0.4 - 0.364) / (3 * (1 - 0.4)) : ℝ) = 0.2 ^ (2:ℕ) by norm_num, ← Real.sqrt_eq_rpow,
    Real.sqrt_sq (by norm_num), min_eq_right (by norm_num)]
  norm_num

/-- **C142 does not hold for cemented sands.** Quartz sand whose pores are filled from 40 to 36.4 percent with calcite
(3.6 percent cement by volume) weighs 1687.56 kg/m³, but the code gives the mass of a rock with 12.72 percent
cement (1693.03); the constant cement sand of porosity 0.2 is too heavy as well. -/
theorem C142_cemented_mass_refuted :
    (∃ r R, contactCement (Mat.ofReal (n := 2) (fun _ => 76.8) (fun _ => 32) (fun _ => 2710))
        (Mat.ofReal (fun _ => 36.8) (fun _ => 44) (fun _ => 2650)) (finC fun _ => 0.364) (finC fun _ => 0.4)
        (finC fun _ => 0.5) (finC fun _ => 9) = .ok r ∧ r.density = finC R ∧
      ∀ i, R i ≠ dryMass 0.364 (0.4 - 0.364) 2650 2710) ∧
    (∃ r R, constantCement (Mat.ofReal (n := 2) (fun _ => 36.8) (fun _ => 44) (fun _ => 2650))
        (Mat.ofReal (fun _ => 76.8) (fun _ => 32) (fun _ => 2710)) (finC fun _ => 0.2) (finC fun _ => 0.364)
        (finC fun _ => 0.4) (finC fun _ => 9) (finC fun _ => 0.5) = .ok r ∧ r.density = finC R ∧
      ∀ i, R i ≠ dryMass 0.2 (0.4 - 0.364) 2650 2710) := by
  obtain ⟨⟨r, R, h, e, q⟩, ⟨r', R', h', e', q'⟩⟩ := C142_cemented_mass_partial (n := 2) (φ := fun _ => 0.2)
    (x := fun _ => 0.364) (g := fun _ => 0.4) (f := fun _ => 0.5) (N := fun _ => 9) calcite_rock quartz_rock
    (fun _ => ⟨by norm_num, by have := Real.pi_lt_four; norm_num; linarith⟩) (fun _ => by norm_num)
    (fun _ => by norm_num) (fun _ => by norm_num) (fun _ => by norm_num) (fun _ => by norm_num)
    (fun _ => by norm_num) (fun _ => by norm_num)
  refine ⟨⟨r, R, h, e, fun i hi => ?_⟩, ⟨r', R', h', e', fun i hi => ?_⟩⟩
  · have := (q i).mp hi
    rw [countedCement_ex] at this
    norm_num at this
  · have := (q' i).mp hi
    rw [countedCement_ex] at this
    norm_num at this

example := C142_mass_partial (φ := fun _ => 0.2) (ccp := fun _ => 0.36) (ub := fun _ => 0.3)
  (p := fun _ => 1e7) (plb := fun _ => 2e7) (crit := fun _ => 0.4) (f := fun _ => 0.5)
  (Nf := fun _ => 9) (Nc := fun _ => 9) quartz_rock calcite_rock
  (fun _ => ⟨by norm_num, by have := Real.pi_lt_four; norm_num; linarith⟩)
  (fun _ => by norm_num) (fun _ => by norm_num) (fun _ => by norm_num) (fun _ => by norm_num)
  (fun _ => by norm_num) (fun _ => by norm_num) (fun _ => by norm_num) (fun _ => by norm_num)
  (fun _ => by norm_num) (fun _ => by norm_num) (fun _ => by norm_num) (fun _ => by norm_num)
  (fun _ => by norm_num)

end OPE
