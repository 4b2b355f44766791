import Verif.Model.BatzleWang
import Verif.Props.Material
import Mathlib.Analysis.SpecialFunctions.Pow.Deriv
import Mathlib.Analysis.SpecialFunctions.Pow.Continuity
import Mathlib.Analysis.SpecialFunctions.ExpDeriv

/-!
# Properties of the Batzle–Wang fluids (C59 – C65, C77)
-/

namespace OPE

open Classical

variable {n : ℕ}

/-- A finite fluid with density `ρ` and velocity `v`. -/
noncomputable def fluidOf (ρ v : Fin n → ℝ) : Mat n :=
  ⟨finC (fun i => v i ^ 2 * ρ i), c 0, finC ρ, finC v, c 0⟩

theorem fluidVelocity_fin {ρ v : Fin n → ℝ} (hρ : ∀ i, 0 < ρ i) (hv : ∀ i, 0 ≤ v i) :
    fluidVelocity (finC ρ) (finC v) = .ok (fluidOf ρ v) := by
  have hb : calcBulk (finC v) (c 0) (finC ρ) = finC (fun i => v i ^ 2 * ρ i) := by
    funext i; simp [calcBulk]
  have hs : calcVs (c 0) (finC ρ) = (c 0 : Col n) := by
    funext i; simp [calcVs, (hρ i).ne']
  simp only [fluidVelocity, mkMaterial, setDefaults, bind_ok, hb, hs]
  have : checkMaterial (fluidOf ρ v) = .ok () := by
    rw [checkMaterial_ok_iff]
    refine ⟨fun i => ?_, fun i => ?_, fun i => ?_, fun i => ?_, fun i => ?_, fun i => ?_⟩ <;>
      simp [fluidOf, (hρ i).le, hv i, mul_nonneg (sq_nonneg (v i)) (hρ i).le]
  unfold fluidOf at this ⊢
  rw [this]; rfl

/-- What a successful `fluid_material(density=…, primary_velocity=…)` tells. -/
theorem fluidVelocity_ok {d v : Col n} {m : Mat n} (h : fluidVelocity d v = .ok m) :
    m.density = d ∧ m.vp = v ∧ m.shear = c 0 ∧ m.bulk = calcBulk v (c 0) d ∧
      m.vs = calcVs (c 0) d := by
  obtain ⟨hd, -, hb, hg, hp, hs⟩ := mkMaterial_ok h
  simp at hd hb hg hp hs
  subst hd; subst hp
  exact ⟨rfl, rfl, hg.symm, by rw [hb.2, hg], by rw [hs, hg]⟩

theorem fluidVelocity_ok_nonneg {ρ v : Fin n → ℝ} {m : Mat n}
    (h : fluidVelocity (finC ρ) (finC v) = .ok m) (i : Fin n) : 0 ≤ ρ i ∧ 0 ≤ v i := by
  obtain ⟨h1, -, -, h4, -, -⟩ := C03_no_negative_property _ _ _ _ _ m h i
  obtain ⟨e1, e2, -⟩ := fluidVelocity_ok h
  rw [e1] at h1; rw [e2] at h4
  simpa using And.intro h1 h4

/-! ### C65 -/

theorem calcVs_zero {d : Col n} {i : Fin n} {r : ℝ} (h : d i = .fin r) (hr : r ≠ 0) :
    calcVs (c 0) d i = .fin 0 := by
  simp [calcVs, h, hr]

/-- No shear modulus, and no shear velocity wherever the density is finite and not zero. -/
def NoShear (m : Mat n) : Prop :=
  m.shear = c 0 ∧ ∀ i r, m.density i = .fin r → r ≠ 0 → m.vs i = .fin 0

theorem fluidVelocity_noShear {d v : Col n} {m : Mat n} (h : fluidVelocity d v = .ok m) :
    NoShear m := by
  obtain ⟨h1, -, h3, -, h5⟩ := fluidVelocity_ok h
  refine ⟨h3, fun i r hr h0 => ?_⟩
  rw [h5]; exact calcVs_zero (by rw [← h1]; exact hr) h0

theorem fluidMaterial_noShear {k d : Col n} {m : Mat n} (h : fluidMaterial k d = .ok m) :
    NoShear m := by
  obtain ⟨hd, -, hb, hg, hp, hs⟩ := mkMaterial_ok h
  simp at hd hb hg hp hs
  refine ⟨hg.symm, fun i r hr h0 => ?_⟩
  rw [hs, ← hg]; exact calcVs_zero hr h0

theorem wood_noShear {fs : List (Mat n)} {ss : List (Col n)} {m : Mat n} (h : wood fs ss = .ok m) :
    NoShear m := by
  unfold wood at h
  obtain ⟨k, -, h⟩ := bind_eq_ok.mp h
  exact fluidMaterial_noShear h

/-- **C65.** Whatever the arguments, a result of any fluid function has shear modulus 0 and, where its
density is finite and nonzero, shear velocity 0. -/
theorem C65_no_shear (m : Mat n) :
    (∀ T P : Col n, water T P = .ok m → NoShear m) ∧
    (∀ T P S : Col n, brine T P S = .ok m → NoShear m) ∧
    (∀ T P G : Col n, gas T P G = .ok m → NoShear m) ∧
    (∀ T P G : Col n, idealGas T P G = .ok m → NoShear m) ∧
    (∀ T P R : Col n, deadOil T P R = .ok m → NoShear m) ∧
    (∀ T P R gor G : Col n, liveOil T P R gor G = .ok m → NoShear m) ∧
    (∀ (T P R gor G : Num) (m : Mat 1), oil T P R gor G = .ok m → NoShear m) ∧
    (∀ (fs : List (Mat n)) ss, wood fs ss = .ok m → NoShear m) ∧
    (∀ (fs : List (Mat n)) fss gs gss e, brie fs fss gs gss e = .ok m → NoShear m) := by
  refine ⟨fun _ _ h => fluidVelocity_noShear h, fun _ _ _ h => fluidVelocity_noShear h, ?_,
    fun _ _ _ h => fluidVelocity_noShear h, fun _ _ _ h => fluidVelocity_noShear h,
    fun _ _ _ _ _ h => fluidVelocity_noShear h, ?_, fun _ _ h => wood_noShear h, ?_⟩
  · intro T P G h
    unfold gas at h
    obtain ⟨d, -, h⟩ := bind_eq_ok.mp h
    exact fluidMaterial_noShear h
  · intro T P R gor G m h
    unfold oil at h
    obtain ⟨l, -, h⟩ := bind_eq_ok.mp h
    obtain ⟨d, -, h⟩ := bind_eq_ok.mp h
    exact fluidVelocity_noShear h
  · intro fs fss gs gss e h
    unfold brie at h
    obtain ⟨-, h⟩ := failIf_bind_ok.mp h
    obtain ⟨-, h⟩ := failIf_bind_ok.mp h
    split at h
    · obtain ⟨l, hl, h⟩ := bind_eq_ok.mp h
      split at h
      · obtain ⟨g, -, h⟩ := bind_eq_ok.mp h
        exact fluidMaterial_noShear h
      · injection h with h; rw [← h]; exact wood_noShear hl
    · split at h
      · exact wood_noShear h
      · cases h

/-! ### C59 -/

/-- The weight of dead oil: 1 without gas, falling linearly to 0 at ratio 1. -/
theorem triangularWindow_fin (g : ℝ) : triangularWindow (.fin g) = .fin (max 0 (1 - |g|)) := by
  unfold triangularWindow
  simp only [Num.fin_lt, Num.fin_abs, Num.fin_sub]
  norm_num
  split
  · rename_i h
    rw [max_eq_left]; rw [abs_of_pos (by linarith)]; linarith
  · split
    · rename_i h
      rw [max_eq_left]; rw [abs_of_neg (by linarith)]; linarith
    · rename_i h1 h2
      have : |g| ≤ 1 := abs_le.mpr ⟨by linarith, by linarith⟩
      rw [max_eq_right (by linarith), abs_of_nonpos (by linarith)]; congr 1; ring

/-- **C59, blend.** For every gas-oil ratio `g` at which live oil and dead oil exist (finite, positive
density), `oil` exists and its density and velocity are the mean of dead and live oil with weights
`w = max 0 (1 - |g|)` and `1 - w`. -/
theorem C59_blend (T P R G : Num) (g : ℝ) (l d : Mat 1) (ρl vl ρd vd : ℝ)
    (hl : liveOil (fun _ => T) (fun _ => P) (fun _ => R) (fun _ => .fin g) (fun _ => G) = .ok l)
    (hd : deadOil (fun _ => T) (fun _ => P) (fun _ => R) = .ok d)
    (hl1 : l.density 0 = .fin ρl) (hl2 : l.vp 0 = .fin vl) (hl3 : 0 < ρl)
    (hd1 : d.density 0 = .fin ρd) (hd2 : d.vp 0 = .fin vd) (hd3 : 0 < ρd) :
    ∃ m w, oil T P R (.fin g) G = .ok m ∧ w = max 0 (1 - |g|) ∧ 0 ≤ w ∧ w ≤ 1 ∧
      m.density 0 = .fin (w * ρd + (1 - w) * ρl) ∧ m.vp 0 = .fin (w * vd + (1 - w) * vl) := by
  have vl0 : 0 ≤ vl := by
    have := (C03_no_negative_property _ _ _ _ _ l hl 0).2.2.2.1
    rw [hl2] at this; simpa using this
  have vd0 : 0 ≤ vd := by
    have := (C03_no_negative_property _ _ _ _ _ d hd 0).2.2.2.1
    rw [hd2] at this; simpa using this
  have w0 : (0:ℝ) ≤ max 0 (1 - |g|) := le_max_left _ _
  have w1 : max 0 (1 - |g|) ≤ 1 := max_le (by norm_num) (by have := abs_nonneg g; linarith)
  set w := max 0 (1 - |g|) with hw
  have e1 : d.density * (fun _ => triangularWindow (.fin g)) + (c 1 - fun _ => triangularWindow (.fin g))
      * l.density = finC (fun _ : Fin 1 => w * ρd + (1 - w) * ρl) := by
    funext i; rw [Subsingleton.elim i 0]
    simp only [Pi.add_apply, Pi.mul_apply, Pi.sub_apply, c_apply, hd1, hl1, triangularWindow_fin,
      Num.fin_mul, Num.fin_sub, Num.fin_add, finC_apply, ← hw, mul_comm]
  have e2 : d.vp * (fun _ => triangularWindow (.fin g)) + (c 1 - fun _ => triangularWindow (.fin g))
      * l.vp = finC (fun _ : Fin 1 => w * vd + (1 - w) * vl) := by
    funext i; rw [Subsingleton.elim i 0]
    simp only [Pi.add_apply, Pi.mul_apply, Pi.sub_apply, c_apply, hd2, hl2, triangularWindow_fin,
      Num.fin_mul, Num.fin_sub, Num.fin_add, finC_apply, ← hw, mul_comm]
  refine ⟨fluidOf (fun _ => w * ρd + (1 - w) * ρl) (fun _ => w * vd + (1 - w) * vl), w, ?_, rfl, w0, w1,
    rfl, rfl⟩
  unfold oil
  rw [hl, bind_ok, hd, bind_ok]
  dsimp only
  rw [e1, e2]
  apply fluidVelocity_fin
  · intro _
    rcases w0.eq_or_lt with h | h
    · rw [← h]; linarith
    · have : 0 < w * ρd := mul_pos h hd3
      have : 0 ≤ (1 - w) * ρl := mul_nonneg (by linarith) hl3.le
      linarith
  · intro _
    exact add_nonneg (mul_nonneg w0 vd0) (mul_nonneg (by linarith) vl0)

/-- **C59, ends.** Under the same conditions `oil` is exactly dead oil at ratio 0 and exactly live oil
at every ratio >= 1. -/
theorem C59_ends (T P R G : Num) (g : ℝ) (l d : Mat 1) (ρl vl ρd vd : ℝ)
    (hl : liveOil (fun _ => T) (fun _ => P) (fun _ => R) (fun _ => .fin g) (fun _ => G) = .ok l)
    (hd : deadOil (fun _ => T) (fun _ => P) (fun _ => R) = .ok d)
    (hl1 : l.density 0 = .fin ρl) (hl2 : l.vp 0 = .fin vl) (hl3 : 0 < ρl)
    (hd1 : d.density 0 = .fin ρd) (hd2 : d.vp 0 = .fin vd) (hd3 : 0 < ρd) :
    (g = 0 → oil T P R (.fin g) G = .ok d) ∧ (1 ≤ g → oil T P R (.fin g) G = .ok l) := by
  obtain ⟨m, w, hm, hw, -, -, h1, h2⟩ := C59_blend T P R G g l d ρl vl ρd vd hl hd hl1 hl2 hl3 hd1 hd2 hd3
  have aux : ∀ x : Mat 1, (∃ a b, fluidVelocity a b = .ok x) → m.density = x.density → m.vp = x.vp →
      m = x := by
    rintro x ⟨a, b, hx⟩ e1 e2
    obtain ⟨l', hl', hm'⟩ := bind_eq_ok.mp hm
    obtain ⟨d', hd', hm'⟩ := bind_eq_ok.mp hm'
    obtain ⟨p1, p2, p3, p4, p5⟩ := fluidVelocity_ok hm'
    obtain ⟨q1, q2, q3, q4, q5⟩ := fluidVelocity_ok hx
    apply Mat.ext
    · rw [p4, q4, ← p1, ← p2, ← q1, ← q2, e1, e2]
    · rw [p3, q3]
    · exact e1
    · exact e2
    · rw [p5, q5, ← p1, ← q1, e1]
  constructor
  · intro h0
    subst h0
    have w1 : w = 1 := by rw [hw]; simp
    rw [hm, aux d ⟨_, _, hd⟩]
    · funext i; rw [Subsingleton.elim i 0, h1, hd1, w1]; congr 1; ring
    · funext i; rw [Subsingleton.elim i 0, h2, hd2, w1]; congr 1; ring
  · intro h1g
    have w1 : w = 0 := by rw [hw, abs_of_nonneg (by linarith)]; exact max_eq_left (by linarith)
    rw [hm, aux l ⟨_, _, hl⟩]
    · funext i; rw [Subsingleton.elim i 0, h1, hl1, w1]; congr 1; ring
    · funext i; rw [Subsingleton.elim i 0, h2, hl2, w1]; congr 1; ring

/-! Real counterparts of the oil formulas. -/

/-- Dead oil velocity. -/
noncomputable def velR (T p r : ℝ) : ℝ :=
  2096 * Real.sqrt (r / (2.6 - r)) - 3.7 * T + 4.64 * p
    + 0.0115 * (4.12 * Real.sqrt (1.08 * r⁻¹ - 1) - 1) * T * p

theorem deadOilVelocity_fin {T p r : ℝ} (h0 : 0 < r) (h1 : r ≤ 1.08) :
    deadOilVelocity (.fin T) (.fin p) (.fin r) = .fin (velR T p r) := by
  have e1 : 2.6 - r ≠ 0 := by norm_num at h1 ⊢; intro h; linarith
  have e2 : 0 ≤ r / (2.6 - r) := div_nonneg h0.le (by norm_num at h1 ⊢; linarith)
  have e3 : 0 ≤ 1.08 * r⁻¹ - 1 := by
    rw [sub_nonneg, ← div_eq_mul_inv, le_div_iff₀ h0]; linarith
  unfold deadOilVelocity velR
  simp only [Num.fin_sub, Num.fin_div _ e1, Num.fin_sqrt e2, Num.fin_powi_neg_one h0.ne', Num.fin_mul,
    Num.fin_sqrt e3, Num.fin_add]

/-- Live oil volume factor. -/
noncomputable def volR (T r g G : ℝ) : ℝ :=
  0.972 + 0.00038 * (2.4 * g * Real.sqrt (G / r) + T + 17.8) ^ (1.175:ℝ)

theorem liveOilVolumeFactor_fin {T r g G : ℝ} (hr : 0 < r) (hg : 0 ≤ g) (hG : 0 ≤ G) (hT : -17.8 ≤ T) :
    liveOilVolumeFactor (.fin T) (.fin r) (.fin g) (.fin G) = .fin (volR T r g G) ∧
      0.972 ≤ volR T r g G := by
  have e0 : 0 ≤ 2.4 * g * Real.sqrt (G / r) := by positivity
  have e1 : 0 ≤ 2.4 * g * Real.sqrt (G / r) + T + 17.8 := by linarith
  constructor
  · unfold liveOilVolumeFactor volR
    simp only [Num.fin_div _ hr.ne', Num.fin_sqrt (div_nonneg hG hr.le), Num.fin_mul, Num.fin_add,
      Num.fin_pow_nonneg e1 (by norm_num : (0:ℝ) < 1.175)]
  · unfold volR
    have := Real.rpow_nonneg e1 1.175
    linarith

/-- Density and velocity of live oil, argument units as in `live_oil`. -/
theorem liveOil_formulas {T P R g G : ℝ} (hR : 0 < R) (hR1 : R ≤ 1049) (hg : 0 ≤ g) (hG : 0 ≤ G)
    (hT : -17.8 ≤ T) :
    liveOilDensity (.fin T) (.fin R / .fin 1000) (.fin g) (.fin G) * .fin 1000
      = .fin ((R / 1000 + 0.0012 * G * g) / volR T (R / 1000) g G * 1000) ∧
    liveOilVelocity (.fin T) (.fin P * .fin 1e-6) (.fin R / .fin 1000) (.fin g) (.fin G)
      = .fin (velR T (P * 1e-6) (R / 1000 / volR T (R / 1000) g G / (1 + 0.001 * g))) ∧
    0 < (R / 1000 + 0.0012 * G * g) / volR T (R / 1000) g G * 1000 := by
  have hr : 0 < R / 1000 := by positivity
  obtain ⟨hv, hv1⟩ := liveOilVolumeFactor_fin (T := T) hr hg hG hT
  have hv0 : 0 < volR T (R / 1000) g G := lt_of_lt_of_le (by norm_num) hv1
  have h1 : 0 < 1 + 0.001 * g := by positivity
  refine ⟨?_, ?_, by positivity⟩
  · unfold liveOilDensity
    rw [Num.fin_div _ (by norm_num : (1000:ℝ) ≠ 0), hv]
    simp only [Num.fin_mul, Num.fin_add, Num.fin_div _ hv0.ne']
  · unfold liveOilVelocity liveOilPseudoDensity
    rw [Num.fin_div _ (by norm_num : (1000:ℝ) ≠ 0), hv]
    simp only [Num.fin_mul, Num.fin_add, Num.fin_div _ hv0.ne', Num.fin_div _ h1.ne']
    apply deadOilVelocity_fin (by positivity)
    rw [div_div, div_le_iff₀ (by positivity)]
    have : 0.972 ≤ volR T (R / 1000) g G * (1 + 0.001 * g) := by
      have : volR T (R / 1000) g G * 1 ≤ volR T (R / 1000) g G * (1 + 0.001 * g) :=
        mul_le_mul_of_nonneg_left (by linarith [mul_nonneg (by norm_num : (0:ℝ) ≤ 0.001) hg]) hv0.le
      linarith
    norm_num at this ⊢
    linarith

theorem volR_continuous (T r G : ℝ) : Continuous fun g => volR T r g G := by
  unfold volR
  have h : Continuous fun x : ℝ => x ^ (1.175:ℝ) := Real.continuous_rpow_const (by norm_num)
  exact continuous_const.add (continuous_const.mul (h.comp (by fun_prop)))

/-- **C59, continuity.** For a dead-oil density up to 1049 kg/m3 and temperatures above -17.78 C the
density and the velocity of `oil` are continuous functions of the gas-oil ratio on [0, ∞). -/
theorem C59_continuous (T P R G : ℝ) (hR : 0 < R) (hR1 : R ≤ 1049) (hG : 0 ≤ G) (hT : -17.78 ≤ T) :
    ∃ f v : ℝ → ℝ, ContinuousOn f (Set.Ici 0) ∧ ContinuousOn v (Set.Ici 0) ∧
      ∀ g ≥ 0, ∀ m, oil (.fin T) (.fin P) (.fin R) (.fin g) (.fin G) = .ok m →
        m.density 0 = .fin (f g) ∧ m.vp 0 = .fin (v g) := by
  have hT' : (-17.8:ℝ) ≤ T := by norm_num at hT ⊢; linarith
  have hr : 0 < R / 1000 := by positivity
  -- dead oil
  obtain ⟨dd, hdd⟩ : ∃ dd : ℝ, deadOilDensity (.fin T) (.fin P * .fin 1e-6) (.fin R / .fin 1000)
      * .fin 1000 = .fin dd := by
    have hT0 : 0 ≤ T + 17.78 := by linarith
    have hne : 0.972 + 3.81e-4 * (T + 17.78) ^ (1.175:ℝ) ≠ 0 := by
      have := Real.rpow_nonneg hT0 1.175; positivity
    unfold deadOilDensity temperatureAdjustedDeadOilDensity pressureAdjustedDeadOilDensity
    rw [Num.fin_div _ (by norm_num : (1000:ℝ) ≠ 0)]
    simp only [Num.fin_mul, Num.fin_add, Num.fin_sub, Num.fin_powi_three, Num.fin_powi_two,
      Num.fin_pow_nonneg hT0 (by norm_num : (0:ℝ) < 1.175), Num.fin_div _ hne]
    exact ⟨_, rfl⟩
  have hdv : deadOilVelocity (.fin T) (.fin P * .fin 1e-6) (.fin R / .fin 1000)
      = .fin (velR T (P * 1e-6) (R / 1000)) := by
    rw [Num.fin_div _ (by norm_num : (1000:ℝ) ≠ 0), Num.fin_mul]
    apply deadOilVelocity_fin hr
    norm_num; linarith
  have key : ∀ g : ℝ, 0 ≤ g → 0 < volR T (R / 1000) g G := fun g hg =>
    lt_of_lt_of_le (by norm_num) (liveOilVolumeFactor_fin (T := T) hr hg hG hT').2
  have hw : Continuous fun g : ℝ => max 0 (1 - |g|) := by fun_prop
  have hvc : ContinuousOn (fun g => volR T (R / 1000) g G) (Set.Ici 0) :=
    (volR_continuous T (R / 1000) G).continuousOn
  have hps : ContinuousOn (fun g => R / 1000 / volR T (R / 1000) g G / (1 + 0.001 * g)) (Set.Ici 0) := by
    refine ContinuousOn.div (ContinuousOn.div continuousOn_const hvc fun g hg => (key g hg).ne')
      (by fun_prop) fun g hg => ?_
    have : (0:ℝ) ≤ g := hg
    positivity
  have hpp : ∀ g ∈ Set.Ici (0:ℝ), 0 < R / 1000 / volR T (R / 1000) g G / (1 + 0.001 * g) := by
    intro g hg
    have : (0:ℝ) ≤ g := hg
    have := key g hg
    positivity
  have hplt : ∀ g ∈ Set.Ici (0:ℝ), R / 1000 / volR T (R / 1000) g G / (1 + 0.001 * g) ≤ 1.08 := by
    intro g hg
    have hg0 : (0:ℝ) ≤ g := hg
    have hk := key g hg
    have h972 := (liveOilVolumeFactor_fin (T := T) hr hg0 hG hT').2
    rw [div_div, div_le_iff₀ (by positivity)]
    have : volR T (R / 1000) g G * 1 ≤ volR T (R / 1000) g G * (1 + 0.001 * g) :=
      mul_le_mul_of_nonneg_left (by linarith [mul_nonneg (by norm_num : (0:ℝ) ≤ 0.001) hg0]) hk.le
    norm_num at this h972 ⊢
    linarith
  refine ⟨fun g => dd * max 0 (1 - |g|) + (1 - max 0 (1 - |g|)) *
      ((R / 1000 + 0.0012 * G * g) / volR T (R / 1000) g G * 1000),
    fun g => velR T (P * 1e-6) (R / 1000) * max 0 (1 - |g|) + (1 - max 0 (1 - |g|)) *
      velR T (P * 1e-6) (R / 1000 / volR T (R / 1000) g G / (1 + 0.001 * g)), ?_, ?_, ?_⟩
  · refine ContinuousOn.add (continuousOn_const.mul hw.continuousOn)
      ((continuousOn_const.sub hw.continuousOn).mul (ContinuousOn.mul ?_ continuousOn_const))
    exact ContinuousOn.div (by fun_prop) hvc fun g hg => (key g hg).ne'
  · refine ContinuousOn.add (continuousOn_const.mul hw.continuousOn)
      ((continuousOn_const.sub hw.continuousOn).mul ?_)
    unfold velR
    have s1 : ContinuousOn (fun g => Real.sqrt (R / 1000 / volR T (R / 1000) g G / (1 + 0.001 * g) /
        (2.6 - R / 1000 / volR T (R / 1000) g G / (1 + 0.001 * g)))) (Set.Ici 0) := by
      refine (ContinuousOn.div hps (continuousOn_const.sub hps) fun g hg => ?_).sqrt
      have := hplt g hg
      norm_num at this ⊢; intro h; linarith
    have s2 : ContinuousOn (fun g => Real.sqrt (1.08 *
        (R / 1000 / volR T (R / 1000) g G / (1 + 0.001 * g))⁻¹ - 1)) (Set.Ici 0) :=
      ((continuousOn_const.mul (hps.inv₀ fun g hg => (hpp g hg).ne')).sub continuousOn_const).sqrt
    fun_prop
  · intro g hg m hm
    unfold oil at hm
    obtain ⟨l, hl, hm⟩ := bind_eq_ok.mp hm
    obtain ⟨d, hd, hm⟩ := bind_eq_ok.mp hm
    obtain ⟨m1, m2, -⟩ := fluidVelocity_ok hm
    obtain ⟨l1, l2, -⟩ := fluidVelocity_ok hl
    obtain ⟨d1, d2, -⟩ := fluidVelocity_ok hd
    obtain ⟨f1, f2, -⟩ := liveOil_formulas (T := T) (P := P) hR hR1 hg hG hT'
    rw [m1, m2, l1, l2, d1, d2]
    simp only [Pi.add_apply, Pi.mul_apply, Pi.sub_apply, c_apply, triangularWindow_fin]
    rw [f1, f2, hdd, hdv]
    exact ⟨by simp only [Num.fin_mul, Num.fin_sub, Num.fin_add],
      by simp only [Num.fin_mul, Num.fin_sub, Num.fin_add]⟩

end OPE
