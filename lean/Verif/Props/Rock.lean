import Verif.Props.Fluid
import Verif.Props.EndToEnd
import Verif.Spec.Mixing

/-!
# C125 (pore fluids do not change the rock), C126 (saturated rock between Reuss and Voigt)
-/

namespace OPE

open Classical Spec

variable {n : ℕ}

/-! ### C125 -/

/-- Two configurations of the same rock: same minerals, dry rock and pressures of the rock; the fluids section may
differ in every respect, and so may the fluid pressure if the rock pressure is given. -/
structure SameRock (s s' : Sections n) : Prop where
  minerals : s'.minerals = s.minerals
  sandModel : s'.sandModel = s.sandModel
  porosity : s'.porosity = s.porosity
  adjustments : s'.adjustments = s.adjustments
  overburden : s'.overburden = s.overburden
  reference : s'.reference = s.reference
  maxEffective : s'.maxEffective = s.maxEffective
  rockPressure : s'.rockPressure = s.rockPressure
  fluidPressure : s.rockPressure = none → s'.fluidPressure = s.fluidPressure

theorem mixFluids_pressure {co2 : CO2Model n} {f : Fluids n} {p : Pressure n} {m : Mat n} {p' : Pressure n}
    (h : mixFluids co2 f p = .ok (m, p')) : ∃ x, p' = { p with fluid := x } := by
  unfold mixFluids at h
  obtain ⟨fl, -, h⟩ := bind_eq_ok.mp h
  split at h
  · cases h
  · injection h with h
    injection h with h1 h2
    exact ⟨_, h2.symm⟩

theorem adjustAll_fluid (p : Pressure n) (x : Option (Col n)) (φ : Col n) (mineral : Mat n) (as : List (Adjustment n))
    (m : Mat n) : adjustAll { p with fluid := x } φ mineral as m = adjustAll p φ mineral as m := by
  induction as generalizing m with
  | nil => rfl
  | cons a as ih =>
    unfold adjustAll
    have : a.adjust m { p with fluid := x } φ mineral = a.adjust m p φ mineral := by cases a <;> rfl
    rw [this]
    cases a.adjust m p φ mineral with
    | error e => rfl
    | ok m => exact ih m

theorem material_fluid (d : DryRock n) (mineral : Mat n) (p : Pressure n) (x : Option (Col n)) :
    d.material mineral { p with fluid := x } = d.material mineral p := by
  unfold DryRock.material
  simp only [adjustAll_fluid]
  rfl

/-- What a successful calculation consists of. -/
theorem calculate_parts {co2 : CO2Model n} {s : Sections n} {r : Result n} (h : calculate co2 s = .ok r) :
    ∃ ms mineral d p dry dense fluid sat, mkMinerals s.minerals = .ok ms ∧ mineralMixture ms = .ok mineral ∧
      mkDryRock s.sandModel s.porosity s.adjustments = .ok d ∧
      mkPressure s.overburden s.reference s.fluidPressure s.maxEffective s.rockPressure = .ok p ∧
      d.material mineral p = .ok dry ∧ d.model.nonporous mineral = .ok dense ∧
      fluidSubstitution dry dense fluid d.porosity = .ok sat ∧
      r = ⟨sat.bulk, mineral.bulk, dry.bulk, sat.shear, sat.density, dense.bulk⟩ := by
  unfold calculate mkInput at h
  obtain ⟨inp, hi, h⟩ := bind_eq_ok.mp h
  obtain ⟨ms, h1, hi⟩ := bind_eq_ok.mp hi
  obtain ⟨fl, h2, hi⟩ := bind_eq_ok.mp hi
  obtain ⟨d, h3, hi⟩ := bind_eq_ok.mp hi
  obtain ⟨p, h4, hi⟩ := bind_eq_ok.mp hi
  injection hi with hi
  subst hi
  unfold calculateResults at h
  obtain ⟨mineral, h5, h⟩ := bind_eq_ok.mp h
  obtain ⟨⟨fluid, p'⟩, h6, h⟩ := bind_eq_ok.mp h
  dsimp only at h
  obtain ⟨dry, h7, h⟩ := bind_eq_ok.mp h
  obtain ⟨dense, h8, h⟩ := bind_eq_ok.mp h
  obtain ⟨sat, h9, h⟩ := bind_eq_ok.mp h
  injection h with hr
  obtain ⟨x, rfl⟩ := mixFluids_pressure h6
  exact ⟨ms, mineral, d, p, dry, dense, fluid, sat, h1, h5, h3, h4, by rw [← h7]; exact (material_fluid _ _ _ _).symm,
    h8, h9, hr.symm⟩

/-- **C125.** Whatever the pore fluids (and, if the rock pressure is given, the fluid pressure), the mineral, dry rock
and dense packing bulk moduli and the shear modulus of the saturated rock are the same. -/
theorem C125_fluids_leave_rock {co2 co2' : CO2Model n} {s s' : Sections n} {r r' : Result n} (hs : SameRock s s')
    (h : calculate co2 s = .ok r) (h' : calculate co2' s' = .ok r') :
    r'.kmin = r.kmin ∧ r'.kdry = r.kdry ∧ r'.kminFls = r.kminFls ∧ r'.mysat = r.mysat := by
  obtain ⟨ms, mi, d, p, dry, dense, fl, sat, a1, a2, a3, a4, a5, a6, a7, rfl⟩ := calculate_parts h
  obtain ⟨ms', mi', d', p', dry', dense', fl', sat', b1, b2, b3, b4, b5, b6, b7, rfl⟩ := calculate_parts h'
  rw [hs.minerals, a1] at b1
  injection b1 with b1
  subst b1
  rw [a2] at b2
  injection b2 with b2
  subst b2
  rw [hs.sandModel, hs.porosity, hs.adjustments, a3] at b3
  injection b3 with b3
  subst b3
  rw [a6] at b6
  injection b6 with b6
  subst b6
  have hp : ∃ x, p' = { p with fluid := x } := by
    unfold mkPressure at a4 b4
    rw [hs.overburden, hs.reference, hs.maxEffective, hs.rockPressure] at b4
    injection a4 with a4
    injection b4 with b4
    subst a4 b4
    cases hr : s.rockPressure with
    | some r => exact ⟨_, rfl⟩
    | none => rw [hs.fluidPressure hr]; exact ⟨_, rfl⟩
  obtain ⟨x, rfl⟩ := hp
  rw [material_fluid, a5] at b5
  injection b5 with b5
  subst b5
  exact ⟨rfl, rfl, rfl, by
    rw [(C23_shear_and_density _ _ _ _ _ b7).1, (C23_shear_and_density _ _ _ _ _ a7).1]⟩

/-- The rock of `exSections` (two rows) with oil instead of brine, and another fluid pressure. -/
noncomputable def exSections' (por : Fin n → ℝ) : Sections n :=
  { exSections por with
    fluids := [⟨.material (Mat.ofReal (fun _ => 1.2) (fun _ => 0) (fun _ => 800)), none, some (finC fun _ => 1)⟩]
    fluidPressure := some (finC fun _ => 0.01) }

example (por : Fin 2 → ℝ) : SameRock (exSections por) (exSections' por) := by
  constructor <;> first | rfl | (intro h; cases h)

/-! ### C126 -/

theorem gassmann_reuss {Kd Km Kf φ : ℝ} (hφ : 0 < φ) (hd0 : 0 ≤ Kd) (hd1 : Kd < Km) (hf0 : 0 < Kf) (hf1 : Kf < Km) :
    reuss Kf Km φ ≤ gFactor Kd Km Kf φ / (1 + gFactor Kd Km Kf φ) * Km := by
  have hm : 0 < Km := by linarith
  have h1 : 0 < Km - Kd := by linarith
  have h2 : 0 < Km - Kf := by linarith
  set F := gFactor Kd Km Kf φ with hF
  have hF0 : Kf / ((Km - Kf) * φ) ≤ F := by
    rw [hF]; unfold gFactor
    have : 0 ≤ Kd / (Km - Kd) := by positivity
    linarith
  have hg : 0 < Kf / ((Km - Kf) * φ) := by positivity
  have hden : φ / Kf + (1 - φ) / Km = (Kf + (Km - Kf) * φ) / (Kf * Km) := by field_simp; ring
  have e : reuss Kf Km φ = Kf / ((Km - Kf) * φ) / (1 + Kf / ((Km - Kf) * φ)) * Km := by
    unfold reuss
    rw [hden]
    have : 0 < Kf + (Km - Kf) * φ := by positivity
    field_simp
    ring
  rw [e]
  apply mul_le_mul_of_nonneg_right _ hm.le
  rw [div_le_div_iff₀ (by linarith) (by linarith)]
  nlinarith

theorem gassmann_voigt {Kd Km Kf φ : ℝ} (hφ : 0 < φ) (hφ1 : φ ≤ 1) (hd0 : 0 ≤ Kd) (hd1 : Kd ≤ (1 - φ) * Km)
    (hf0 : 0 < Kf) (hf1 : Kf < Km) :
    gFactor Kd Km Kf φ / (1 + gFactor Kd Km Kf φ) * Km ≤ voigt Kf Km φ := by
  have hm : 0 < Km := by linarith
  have h2 : 0 < Km - Kf := by linarith
  have h1 : φ * Km ≤ Km - Kd := by linarith
  have h1' : 0 < Km - Kd := lt_of_lt_of_le (by positivity) h1
  -- Ksat / (Km - Ksat) = F, and for Voigt's average F is at most ((1-φ)Km + φ Kf) / (φ (Km - Kf))
  set F := gFactor Kd Km Kf φ with hF
  have hF0 : 0 ≤ F := by rw [hF]; unfold gFactor; positivity
  have hle : F ≤ (1 - φ) / φ + Kf / ((Km - Kf) * φ) := by
    rw [hF]; unfold gFactor
    have : Kd / (Km - Kd) ≤ (1 - φ) / φ := by
      rw [div_le_div_iff₀ h1' hφ]
      nlinarith
    linarith
  have e : (1 - φ) / φ + Kf / ((Km - Kf) * φ) = voigt Kf Km φ / ((Km - Kf) * φ) := by
    unfold voigt; field_simp; ring
  rw [e, le_div_iff₀ (by positivity)] at hle
  have hv : Km - voigt Kf Km φ = (Km - Kf) * φ := by unfold voigt; ring
  rw [div_mul_eq_mul_div, div_le_iff₀ (by linarith)]
  nlinarith

/-- **C126.** The saturated bulk modulus is at least the Reuss average of fluid and mineral (porosity the fraction of
fluid), whatever the dry rock; and at most the Voigt average if the dry rock is at most that fraction of the mineral
which is solid. -/
theorem C126_saturated_within_reuss_voigt {dry mineral fluid : Mat n} {φ Kd Gd ρd Km Kf ρf : Fin n → ℝ}
    (h : GassmannRows dry mineral fluid φ Kd Gd ρd Km Kf ρf) (hf : ∀ i, 0 < Kf i) (hφ : ∀ i, φ i ≤ 1) :
    ∃ m K G ρ, fluidSubstitution dry mineral fluid (finC φ) = .ok m ∧ m.Has K G ρ ∧ ∀ i,
      reuss (Kf i) (Km i) (φ i) ≤ K i ∧ (Kd i ≤ (1 - φ i) * Km i → K i ≤ voigt (Kf i) (Km i) (φ i)) :=
  ⟨_, _, _, _, substitution_fin h, Mat.ofReal_has _ _ _, fun i =>
    ⟨gassmann_reuss (h.porosity i) (h.dry0 i) (h.dry1 i) (hf i) (h.fluid1 i), fun hd =>
      gassmann_voigt (h.porosity i) (hφ i) (h.dry0 i) hd (hf i) (h.fluid1 i)⟩⟩

example := C126_saturated_within_reuss_voigt exGassmann (fun _ => by norm_num) (fun _ => by norm_num)
example : (12 : ℝ) ≤ (1 - 0.25) * 36 := by norm_num

/-- The bounds are attained: a suspension (no dry stiffness) has the Reuss average, a dry rock of exactly the solid
fraction of the mineral has the Voigt average. -/
theorem C126_attained {Km Kf φ : ℝ} (hφ : 0 < φ) (hφ1 : φ < 1) (hf0 : 0 < Kf) (hf1 : Kf < Km) :
    gFactor 0 Km Kf φ / (1 + gFactor 0 Km Kf φ) * Km = reuss Kf Km φ ∧
    gFactor ((1 - φ) * Km) Km Kf φ / (1 + gFactor ((1 - φ) * Km) Km Kf φ) * Km = voigt Kf Km φ := by
  have hm : 0 < Km := by linarith
  have h2 : 0 < Km - Kf := by linarith
  constructor
  · have hden : φ / Kf + (1 - φ) / Km = (Kf + (Km - Kf) * φ) / (Kf * Km) := by field_simp; ring
    have : 0 < Kf + (Km - Kf) * φ := by positivity
    unfold reuss gFactor
    rw [hden, zero_div, zero_add]
    field_simp
    ring
  · have e : gFactor ((1 - φ) * Km) Km Kf φ = voigt Kf Km φ / ((Km - Kf) * φ) := by
      have : Km - (1 - φ) * Km = φ * Km := by ring
      unfold voigt gFactor; rw [this]; field_simp; ring
    have hv : 0 < voigt Kf Km φ := by unfold voigt; nlinarith
    have e2 : 1 + voigt Kf Km φ / ((Km - Kf) * φ) = Km / ((Km - Kf) * φ) := by
      rw [eq_div_iff (by positivity)]
      unfold voigt
      field_simp
      ring
    rw [e, e2]
    field_simp

end OPE
