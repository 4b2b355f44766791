import Verif.Model.DryRock
import Verif.Props.Poly
import Verif.Props.Cement

/-!
# Pressure section, pressure dependency, depth trend, dry rock (C41–C44, C46, C81–C83)
-/

namespace OPE

open Classical

variable {n : ℕ}

/-! ### C41 -/

/-- Specification: `t` is the effective pressure `e`, cut off at the optional maximum. -/
def CutOff (mx : Option (Fin n → ℝ)) (e t : Fin n → ℝ) : Prop :=
  ∀ i, t i ≤ e i ∧ (∀ m, mx = some m → t i ≤ m i) ∧
    ((∀ m, mx = some m → e i ≤ m i) → t i = e i) ∧
    (∀ m, mx = some m → m i ≤ e i → t i = m i)

theorem truncate_cutOff (mx : Option (Fin n → ℝ)) (e : Fin n → ℝ) :
    ∃ t, truncate (mx.map finC) (finC e) = finC t ∧ CutOff mx e t := by
  cases mx with
  | none => exact ⟨e, rfl, fun i => ⟨le_rfl, by simp, by simp, by simp⟩⟩
  | some m =>
    refine ⟨fun i => min (e i) (m i), ?_, fun i => ⟨min_le_left _ _, ?_, ?_, ?_⟩⟩
    · funext i; simp [truncate]
    · rintro m' ⟨⟩; exact min_le_right _ _
    · intro h; exact min_eq_left (h m rfl)
    · rintro m' ⟨⟩ h; exact min_eq_right h

/-- **C41.** For every finite pressure section in which a fluid or a rock pressure is given:
construction succeeds; the missing one of fluid and rock pressure equals the given one; every effective
pressure is overburden minus pore pressure, and every truncated pressure is that, cut off at
`max_effective`. -/
theorem C41_effective_pressures (ob rf : Fin n → ℝ) (fl mx rk : Option (Fin n → ℝ))
    (hgiven : fl ≠ none ∨ rk ≠ none) :
    ∃ p F R tF tR tr, mkPressure (finC ob) (finC rf) (fl.map finC) (mx.map finC) (rk.map finC) = .ok p ∧
      (fl = some F ∨ fl = none ∧ rk = some F) ∧ (rk = some R ∨ rk = none ∧ fl = some R) ∧
      p.fluid = some (finC F) ∧ p.rock = some (finC R) ∧
      p.effectiveFluid = .ok (finC fun i => ob i - F i) ∧
      p.effectiveRock = .ok (finC fun i => ob i - R i) ∧
      p.effectiveReference = finC (fun i => ob i - rf i) ∧
      p.truncatedFluid = .ok (finC tF) ∧ CutOff mx (fun i => ob i - F i) tF ∧
      p.truncatedRock = .ok (finC tR) ∧ CutOff mx (fun i => ob i - R i) tR ∧
      p.truncatedReference = finC tr ∧ CutOff mx (fun i => ob i - rf i) tr := by
  suffices key : ∃ F R : Fin n → ℝ, (fl = some F ∨ fl = none ∧ rk = some F) ∧
      (rk = some R ∨ rk = none ∧ fl = some R) ∧
      mkPressure (finC ob) (finC rf) (fl.map finC) (mx.map finC) (rk.map finC)
        = .ok ⟨finC ob, finC rf, some (finC F), mx.map finC, some (finC R)⟩ by
    obtain ⟨F, R, hF, hR, hmk⟩ := key
    obtain ⟨tF, eF, cF⟩ := truncate_cutOff mx (fun i => ob i - F i)
    obtain ⟨tR, eR, cR⟩ := truncate_cutOff mx (fun i => ob i - R i)
    obtain ⟨tr, er, cr⟩ := truncate_cutOff mx (fun i => ob i - rf i)
    have s1 : ∀ x : Fin n → ℝ, (finC ob - finC x : Col n) = finC fun i => ob i - x i := by
      intro x; funext i; simp
    refine ⟨_, F, R, tF, tR, tr, hmk, hF, hR, rfl, rfl, ?_, ?_, ?_, ?_, cF, ?_, cR, ?_, cr⟩
    · simp [Pressure.effectiveFluid, needCol, s1]
    · simp [Pressure.effectiveRock, needCol, s1]
    · simp [Pressure.effectiveReference, s1]
    · simp [Pressure.truncatedFluid, Pressure.effectiveFluid, needCol, s1, eF]
    · simp [Pressure.truncatedRock, Pressure.effectiveRock, needCol, s1, eR]
    · simp [Pressure.truncatedReference, Pressure.effectiveReference, s1, er]
  cases fl with
  | none =>
    cases rk with
    | none => simp at hgiven
    | some r => exact ⟨r, r, .inr ⟨rfl, rfl⟩, .inl rfl, rfl⟩
  | some f =>
    cases rk with
    | none => exact ⟨f, f, .inl rfl, .inr ⟨rfl, rfl⟩, rfl⟩
    | some r => exact ⟨f, r, .inl rfl, .inl rfl, rfl⟩

/-- **C41 is false of the code in one point:** giving neither fluid nor rock pressure (both `None`) is
accepted, and only using the effective pressure fails (with `TypeError`). -/
theorem C41_refuted (ob rf : Col n) (mx : Option (Col n)) :
    ∃ p, mkPressure ob rf none mx none = .ok p ∧ p.truncatedRock = .error .typeError ∧
      p.truncatedFluid = .error .typeError :=
  ⟨_, rfl, rfl, rfl⟩

/-! ### C42 -/

theorem finC_ratio_self {x : Fin n → ℝ} (h : ∀ i, 1e-20 < |x i|) (y : Fin n → ℝ) :
    (finC y * (finC x / finC x) : Col n) = finC y := by
  funext i
  have : x i ≠ 0 := by
    have := h i
    intro e; rw [e] at this; norm_num at this
  simp [this]

theorem finC_ratio {x z : Fin n → ℝ} (h : ∀ i, 1e-20 < |x i|) (y : Fin n → ℝ) :
    (finC y * (finC z / finC x) : Col n) = finC (fun i => y i * (z i / x i)) := by
  funext i
  have : x i ≠ 0 := by
    have := h i
    intro e; rw [e] at this; norm_num at this
  simp [this]

/-- The reference fit of a model is finite and not (nearly) zero. -/
structure GoodFit (f : Fit n) (d p s : Fin n → ℝ) : Prop where
  density : f.density = finC d
  primary : f.primary = finC p
  secondary : f.secondary = finC s
  nonzero : ∀ i, 1e-20 < |d i| ∧ 1e-20 < |p i| ∧ 1e-20 < |s i|

theorem GoodFit.check {f : Fit n} {d p s : Fin n → ℝ} (h : GoodFit f d p s) :
    ¬ ∃ i, Num.abs (f.density i) ≤ Num.fin 1e-20 ∨ Num.abs (f.primary i) ≤ Num.fin 1e-20 ∨
      Num.abs (f.secondary i) ≤ Num.fin 1e-20 := by
  rintro ⟨i, hi⟩
  rw [h.density, h.primary, h.secondary] at hi
  simp only [finC_apply, Num.fin_abs, Num.fin_le] at hi
  obtain ⟨a, b, c⟩ := h.nonzero i
  rcases hi with hi | hi | hi <;> linarith

/-- Not powerfit: the models whose adjustment is the ratio of two evaluations. -/
def PDModel.IsRatio : PDModel n → Prop
  | .powerfit _ => False
  | _ => True

/-- Specification: are the coefficients of the trend those of moduli (rather than of velocities)?  Written with the
coefficients of polyfit, expfit and logfit; the other models are about moduli. -/
def PDModel.OfModuli : PDModel n → Prop
  | .polyfit moduli _ | .expfit moduli _ | .logfit moduli _ => moduli = true
  | .powerfit _ | .friable _ | .patchy _ => True

theorem PDModel.ofModuli_iff (m : PDModel n) : m.OfModuli ↔ m.useModuli = true := by
  cases m <;> simp [PDModel.OfModuli, PDModel.useModuli]

theorem PDModel.not_ofModuli_iff (m : PDModel n) : ¬ m.OfModuli ↔ m.useModuli = false := by
  rw [m.ofModuli_iff, Bool.not_eq_true]

theorem PDModel.pressureDependency_ratio {m : PDModel n} (hm : m.IsRatio) (material : Mat n)
    (pressure reference porosity : Col n) (mineral : Mat n) :
    m.pressureDependency material pressure reference porosity mineral
      = ratioDependency m material pressure reference porosity mineral := by
  cases m <;> first | rfl | exact hm.elim

/-- **C42, proved part.** For polyfit, expfit, logfit, friable and patchy models: when the rock
pressure equals the reference pressure, the pressure dependency returns the material unchanged
(non-negative moduli, positive density), provided the model's fit at the reference is finite and
nonzero.  (Missing: powerfit, see `C42_refuted` and `C42_powerfit_partial`.) -/
theorem C42_partial {m : PDModel n} (hm : m.IsRatio) {K G ρ : Fin n → ℝ} (hK : ∀ i, 0 ≤ K i)
    (hG : ∀ i, 0 ≤ G i) (hρ : ∀ i, 0 < ρ i) (pressure : Pressure n) (porosity : Col n) (mineral : Mat n)
    (hrock : pressure.rock = some pressure.reference) {f : Fit n} {d p s : Fin n → ℝ}
    (hf : m.eval pressure.truncatedReference porosity mineral = .ok f) (hgood : GoodFit f d p s) :
    OPE.pressureDependency m (Mat.ofReal K G ρ) pressure porosity mineral = .ok (Mat.ofReal K G ρ) := by
  have htr : pressure.truncatedRock = .ok pressure.truncatedReference := by
    simp [Pressure.truncatedRock, Pressure.effectiveRock, needCol, hrock, Pressure.truncatedReference,
      Pressure.effectiveReference]
  have e1 : OPE.pressureDependency m (Mat.ofReal K G ρ) pressure porosity mineral =
      ratioDependency m (Mat.ofReal K G ρ) pressure.truncatedReference pressure.truncatedReference
        porosity mineral := by
    unfold OPE.pressureDependency
    rw [htr, bind_ok]
    cases m <;> first | exact hm.elim | rfl
  rw [e1]
  unfold ratioDependency
  rw [hf, bind_ok, bind_ok, failIf_false hgood.check, bind_ok, hgood.density, hgood.primary,
    hgood.secondary]
  cases m.useModuli with
  | true =>
    simp only [if_true, Mat.ofReal_density, Mat.ofReal_bulk, Mat.ofReal_shear]
    rw [finC_ratio_self (fun i => (hgood.nonzero i).1), finC_ratio_self (fun i => (hgood.nonzero i).2.1),
      finC_ratio_self (fun i => (hgood.nonzero i).2.2)]
    exact mkModuli_ofReal hK hG hρ
  | false =>
    simp only [Bool.false_eq_true, if_false]
    have h := mkVelocities_of_ofReal hK hG hρ
    unfold Mat.ofReal at h ⊢
    dsimp only at h ⊢
    rw [finC_ratio_self (fun i => (hgood.nonzero i).1), finC_ratio_self (fun i => (hgood.nonzero i).2.1),
      finC_ratio_self (fun i => (hgood.nonzero i).2.2)]
    exact h

/-- The hypotheses are met: a polynomial fit `2p + 10` of every property at overburden 100, reference
and rock pressure 30, quartz-like material. -/
example := C42_partial (n := 2) (m := .polyfit true ⟨[2, 10], [2, 10], [2, 10]⟩) trivial
  (K := fun _ => 36) (G := fun _ => 44) (ρ := fun _ => 2650) (fun _ => by norm_num)
  (fun _ => by norm_num) (fun _ => by norm_num)
  ⟨finC fun _ => 100, finC fun _ => 30, some (finC fun _ => 30), none, some (finC fun _ => 30)⟩
  (c 0.2) (Mat.ofReal (fun _ => 36) (fun _ => 44) (fun _ => 2650)) rfl
  (d := fun _ => 150) (p := fun _ => 150) (s := fun _ => 150) rfl
  (by
    have e : (fun i => npPolyval [2, 10]
        ((Pressure.truncatedReference ⟨finC fun _ => 100, finC fun _ => 30, some (finC fun _ => 30), none,
          some (finC fun _ => 30)⟩ : Col 2) i)) = finC fun _ => (150:ℝ) := by
      funext i
      simp [npPolyval, Pressure.truncatedReference, Pressure.effectiveReference, truncate]
      norm_num
    exact ⟨e, e, e, fun _ => by norm_num⟩)

theorem vpvs_sq {K G ρ : ℝ} (hK : 0 ≤ K) (hG : 0 < G) (hρ : 0 < ρ) :
    Real.sqrt ((K + 4/3 * G) / ρ) / Real.sqrt (G / ρ) = Real.sqrt (K / G + 4/3) := by
  rw [← Real.sqrt_div' _ (by positivity)]
  congr 1
  field_simp

/-- Evaluation of the powerfit adjustment on a finite material, in terms of the two fits. -/
theorem powerDependency_fin {a : Coef3 (ℝ × ℝ)} {K G ρ : Fin n → ℝ} (hK : ∀ i, 0 ≤ K i)
    (hG : ∀ i, 0 < G i) (hρ : ∀ i, 0 < ρ i) {pressure reference : Col n} {x y : Fin n → ℝ}
    (hx : pressure = finC x) (hy : reference = finC y) (hx0 : ∀ i, 0 < x i) (hy0 : ∀ i, 0 < y i) :
    powerDependency a (Mat.ofReal K G ρ) pressure reference =
      (failIf (∃ i, (Real.sqrt (K i / G i + 4/3) + (a.secondary.1 * x i ^ a.secondary.2
          - a.secondary.1 * y i ^ a.secondary.2)) ^ 2 - 4/3 ≤ 1e-20) .valueError >>= fun _ =>
        mkModuli (finC fun i => K i + (a.primary.1 * x i ^ a.primary.2 - a.primary.1 * y i ^ a.primary.2))
          (fun i => Num.fin (K i + (a.primary.1 * x i ^ a.primary.2 - a.primary.1 * y i ^ a.primary.2)) /
            Num.fin ((Real.sqrt (K i / G i + 4/3) + (a.secondary.1 * x i ^ a.secondary.2
              - a.secondary.1 * y i ^ a.secondary.2)) ^ 2 - 4/3))
          (finC fun i => ρ i + (a.density.1 * x i ^ a.density.2 - a.density.1 * y i ^ a.density.2))) := by
  subst hx hy
  have hev : ∀ (k : ℝ × ℝ) (z : Fin n → ℝ), (∀ i, 0 < z i) →
      (fun i => Num.fin k.1 * Num.pow (finC z i) (Num.fin k.2)) = finC fun i => k.1 * z i ^ k.2 := by
    intro k z hz; funext i; simp [Num.fin_pow (hz i)]
  have hpos : ∀ i, Real.sqrt (G i / ρ i) ≠ 0 := fun i =>
    (Real.sqrt_pos.mpr (div_pos (hG i) (hρ i))).ne'
  unfold powerDependency
  simp only [PDModel.eval, bind_ok, hev _ _ hx0, hev _ _ hy0]
  have hv : ((Mat.ofReal K G ρ).vp / (Mat.ofReal K G ρ).vs + (finC (fun i => a.secondary.1 * x i ^ a.secondary.2)
      - finC (fun i => a.secondary.1 * y i ^ a.secondary.2)) : Col n) =
      finC fun i => Real.sqrt (K i / G i + 4/3) + (a.secondary.1 * x i ^ a.secondary.2
        - a.secondary.1 * y i ^ a.secondary.2) := by
    funext i
    simp [Mat.ofReal, hpos i, vpvs_sq (hK i) (hG i) (hρ i)]
  rw [hv]
  simp only [finC_apply, Num.fin_powi_two, Num.fin_sub, Num.fin_le]
  congr 1

/-- **C42 is false of the code for powerfit:** it evaluates its fit at the plain rock pressure but
compares with the *effective* reference pressure, so at rock pressure = reference pressure the material
is changed (overburden 100, reference = rock = 30, fit = pressure: bulk modulus 100 becomes 60). -/
theorem C42_refuted :
    ∃ r : Mat 1, OPE.pressureDependency (.powerfit ⟨(0, 1), (1, 1), (0, 1)⟩)
        (Mat.ofReal (fun _ => 100) (fun _ => 75) (fun _ => 2000))
        ⟨finC fun _ => 100, finC fun _ => 30, some (finC fun _ => 30), none, some (finC fun _ => 30)⟩
        (c 0.2) (Mat.ofReal (fun _ => 100) (fun _ => 75) (fun _ => 2000)) = .ok r ∧
      r.bulk = finC fun _ => 60 := by
  have e : (Pressure.truncatedReference ⟨finC fun _ => 100, finC fun _ => 30, some (finC fun _ => 30),
      none, some (finC fun _ => 30)⟩ : Col 1) = finC fun _ => 70 := by
    funext i; simp [Pressure.truncatedReference, Pressure.effectiveReference, truncate]; norm_num
  unfold OPE.pressureDependency
  simp only [Pressure.truncatedRock, Pressure.effectiveRock, needCol, bind_ok, e,
    PDModel.pressureDependency]
  rw [powerDependency_fin (fun _ => by norm_num) (fun _ => by norm_num) (fun _ => by norm_num) rfl rfl
    (fun _ => by norm_num) (fun _ => by norm_num)]
  have s : Real.sqrt (100 / 75 + 4/3) ^ 2 = 8/3 := by rw [Real.sq_sqrt (by norm_num)]; norm_num
  have h1 : ¬ ∃ _ : Fin 1, (Real.sqrt (100 / 75 + 4/3) + ((0:ℝ) * 30 ^ (1:ℝ) - 0 * 70 ^ (1:ℝ))) ^ 2
      - 4/3 ≤ 1e-20 := by
    rintro ⟨_, h⟩
    simp only [zero_mul, sub_zero, add_zero, s] at h
    norm_num at h
  rw [failIf_false h1, bind_ok]
  have e1 : (finC fun _ : Fin 1 => (100:ℝ) + (1 * 30 ^ (1:ℝ) - 1 * 70 ^ (1:ℝ))) = finC fun _ => 60 := by
    funext i; simp; norm_num
  have e2 : (fun _ : Fin 1 => Num.fin ((100:ℝ) + (1 * 30 ^ (1:ℝ) - 1 * 70 ^ (1:ℝ))) /
      Num.fin ((Real.sqrt (100 / 75 + 4/3) + ((0:ℝ) * 30 ^ (1:ℝ) - 0 * 70 ^ (1:ℝ))) ^ 2 - 4/3))
      = finC fun _ => 45 := by
    funext i
    simp only [zero_mul, sub_zero, add_zero, s]
    rw [Num.fin_div _ (by norm_num)]
    simp; norm_num
  have e3 : (finC fun _ : Fin 1 => (2000:ℝ) + (0 * 30 ^ (1:ℝ) - 0 * 70 ^ (1:ℝ))) = finC fun _ => 2000 := by
    funext i; simp
  rw [e1, e2, e3, mkModuli_ofReal (fun _ => by norm_num) (fun _ => by norm_num) (fun _ => by norm_num)]
  exact ⟨_, rfl, rfl⟩

/-- **C42, powerfit, proved part.** If the *plain* rock pressure equals the truncated *effective*
reference pressure, powerfit returns the material unchanged (positive moduli and density,
`K/G > 1e-20`). -/
theorem C42_powerfit_partial {a : Coef3 (ℝ × ℝ)} {K G ρ x : Fin n → ℝ} (hK : ∀ i, 0 ≤ K i)
    (hG : ∀ i, 0 < G i) (hρ : ∀ i, 0 < ρ i) (hKG : ∀ i, 1e-20 < K i / G i) (hx0 : ∀ i, 0 < x i)
    (pressure : Pressure n) (porosity : Col n) (mineral : Mat n)
    (hrock : pressure.rock = some (finC x)) (href : pressure.truncatedReference = finC x) :
    OPE.pressureDependency (.powerfit a) (Mat.ofReal K G ρ) pressure porosity mineral
      = .ok (Mat.ofReal K G ρ) := by
  unfold OPE.pressureDependency
  simp only [Pressure.truncatedRock, Pressure.effectiveRock, needCol, hrock, bind_ok, href,
    PDModel.pressureDependency]
  rw [powerDependency_fin hK hG hρ rfl rfl hx0 hx0]
  have s : ∀ i, Real.sqrt (K i / G i + 4/3) ^ 2 = K i / G i + 4/3 := fun i =>
    Real.sq_sqrt (by have := hKG i; norm_num at this; linarith)
  rw [failIf_false, bind_ok, ← mkModuli_ofReal hK (fun i => (hG i).le) hρ]
  · congr 1
    · funext i; simp
    · funext i
      simp only [sub_self, add_zero, s, add_sub_cancel_right]
      have h1 : K i / G i ≠ 0 := by have := hKG i; norm_num at this; linarith
      have h2 : K i ≠ 0 := fun e => h1 (by rw [e, zero_div])
      rw [Num.fin_div _ h1]
      have := (hG i).ne'
      simp only [finC_apply, Num.fin_inj]
      field_simp
    · funext i; simp
  · rintro ⟨i, h⟩
    simp only [sub_self, add_zero, s, add_sub_cancel_right] at h
    exact absurd (hKG i) (not_lt.mpr h)

example : (1e-20:ℝ) < 100 / 75 := by norm_num

/-! ### C43 -/

section adjust
variable (pressure : Pressure n) (porosity : Col n) (mineral : Mat n)

/-- **C43.** No adjustment is the identity. -/
theorem C43_no_adjustment (m : Mat n) : adjustAll pressure porosity mineral [] m = .ok m := rfl

/-- **C43.** Adjusting by `as ++ bs` is adjusting by `as`, then by `bs`. -/
theorem C43_append (as bs : List (Adjustment n)) (m : Mat n) :
    adjustAll pressure porosity mineral (as ++ bs) m =
      (adjustAll pressure porosity mineral as m >>= adjustAll pressure porosity mineral bs) := by
  induction as generalizing m with
  | nil => rfl
  | cons a as ih =>
    simp only [List.cons_append, adjustAll]
    cases a.adjust m pressure porosity mineral with
    | error e => rfl
    | ok m' => exact ih m'

/-- **C43.** The error of a list of adjustments is that of its first failing adjustment: the list splits
into a prefix that succeeds with some material, the adjustment that raises on that material, and a rest
that is not executed. -/
theorem C43_first_error (as : List (Adjustment n)) (m : Mat n) (e : Err) :
    adjustAll pressure porosity mineral as m = .error e ↔
      ∃ pre a post m', as = pre ++ a :: post ∧ adjustAll pressure porosity mineral pre m = .ok m' ∧
        a.adjust m' pressure porosity mineral = .error e := by
  constructor
  · induction as generalizing m with
    | nil => intro h; cases h
    | cons a as ih =>
      intro h
      simp only [adjustAll] at h
      cases ha : a.adjust m pressure porosity mineral with
      | error e' =>
        rw [ha] at h
        injection h with h
        exact ⟨[], a, as, m, rfl, rfl, by rw [ha, h]⟩
      | ok m1 =>
        rw [ha] at h
        obtain ⟨pre, b, post, m', e1, e2, e3⟩ := ih m1 h
        exact ⟨a :: pre, b, post, m', by rw [e1]; rfl, by simp only [adjustAll, ha]; exact e2, e3⟩
  · rintro ⟨pre, a, post, m', rfl, h1, h2⟩
    rw [C43_append, h1, bind_ok]
    simp only [adjustAll, h2]
    rfl

/-- **C43.** `DryRock.material` evaluates the model at the truncated effective rock pressure and then
adjusts. -/
theorem C43_dry_rock_material (d : DryRock n) (mineral m0 : Mat n) (p : Col n)
    (hp : pressure.truncatedRock = .ok p) (hm : d.model.evalMaterial p d.porosity mineral = .ok m0) :
    d.material mineral pressure = adjustAll pressure d.porosity mineral d.adjustments m0 := by
  unfold DryRock.material
  rw [hp, bind_ok, hm, bind_ok]

end adjust

/-! ### C44 -/

/-- **C44 is false of the code:** `max_depth` never has an effect. -/
theorem C44_refuted (t : DepthTrend n) (material : Mat n) (mx : Option (Col n)) :
    ({ t with maxDepth := mx } : DepthTrend n).adjustMaterial material = t.adjustMaterial material := rfl

/-- … a concrete instance: depth 3000 with maximum 2000 and reference 1000 uses 2000 instead of 1000. -/
example : (⟨c 3000, some (c 1000), some (c 2000), true, ⟨defaultDensity, defaultDensity, defaultDensity⟩⟩ :
    DepthTrend 1).effectiveDepth = c 2000 := by
  funext i; simp [DepthTrend.effectiveDepth]; norm_num

/-- **C44, proved part.** As long as no depth exceeds the maximum, the depth used is
`min(depth, max_depth) - reference_depth`.  (Missing: depths above the maximum, see `C44_refuted`.) -/
theorem C44_partial (t : DepthTrend n) {d : Fin n → ℝ} {mx rf : Option (Fin n → ℝ)}
    (hd : t.depth = finC d) (hmx : t.maxDepth = mx.map finC) (hrf : t.referenceDepth = rf.map finC)
    (hle : ∀ m, mx = some m → ∀ i, d i ≤ m i) :
    t.effectiveDepth = finC fun i =>
      mx.elim (d i) (fun m => min (d i) (m i)) - rf.elim 0 (fun r => r i) := by
  unfold DepthTrend.effectiveDepth
  rw [hd, hrf]
  funext i
  cases mx with
  | none => cases rf <;> simp
  | some m =>
    have := hle m rfl i
    cases rf <;> simp [min_eq_left this]

example : ∀ i : Fin 2, (fun _ => (1500:ℝ)) i ≤ (fun _ => (2000:ℝ)) i := fun _ => by norm_num

/-! ### C46 -/

/-- What `DryRock` stores. -/
theorem mkDryRock_ok {model : SandModel n} {φ : Col n} {as : List (Adjustment n)} {d : DryRock n}
    (h : mkDryRock model φ as = .ok d) : d = ⟨model.fillDefaults, φ, as⟩ := by
  unfold mkDryRock at h
  cases model with
  | polyfit b a => injection h with h; exact h.symm
  | friable f =>
    dsimp only at h
    obtain ⟨_, h⟩ := failIf_bind_ok.mp h
    injection h with h; exact h.symm
  | patchy f =>
    dsimp only at h
    obtain ⟨_, h⟩ := failIf_bind_ok.mp h
    obtain ⟨_, h⟩ := failIf_bind_ok.mp h
    injection h with h; exact h.symm

/-- **C46, friable.** A friable dry rock is accepted exactly when every porosity is at most critical
porosity - 1e-5; otherwise `ValueError`. -/
theorem C46_friable_accepts_exactly (f : FriableModel n) {φ φc : Fin n → ℝ}
    (hf : f.criticalPorosity = finC φc) (as : List (Adjustment n)) :
    ((∃ d, mkDryRock (.friable f) (finC φ) as = .ok d) ↔ ∀ i, φ i ≤ φc i - 1e-5) ∧
    ((∃ i, φc i - 1e-5 < φ i) → mkDryRock (.friable f) (finC φ) as = .error .valueError) := by
  have key : (∃ i, f.criticalPorosity i < finC φ i + Num.fin 1e-5) ↔ ∃ i, φc i - 1e-5 < φ i := by
    simp only [hf, finC_apply, Num.fin_add, Num.fin_lt]
    constructor <;> rintro ⟨i, hi⟩ <;> exact ⟨i, by linarith⟩
  unfold mkDryRock
  dsimp only
  constructor
  · by_cases h : ∃ i, φc i - 1e-5 < φ i
    · rw [failIf_true (key.mpr h)]
      simp only [bind_error, reduceCtorEq, exists_false, false_iff]
      push Not
      exact h
    · rw [failIf_false (fun h' => h (key.mp h'))]
      simp only [bind_ok]
      push Not at h
      exact ⟨fun _ => h, fun _ => ⟨_, rfl⟩⟩
  · intro h
    rw [failIf_true (key.mpr h)]; rfl

/-- **C46, patchy.** A patchy-cement dry rock is accepted exactly when every porosity is at most
critical porosity - 1e-5 and at most critical porosity - upper-bound cement fraction + 1e-5; otherwise
`ValueError`. -/
theorem C46_patchy_accepts_exactly (f : PatchyModel n) {φ φc u : Fin n → ℝ}
    (hf : f.criticalPorosity = finC φc) (hu : f.upperBoundCementFraction = finC u)
    (as : List (Adjustment n)) :
    ((∃ d, mkDryRock (.patchy f) (finC φ) as = .ok d) ↔
      ∀ i, φ i ≤ φc i - 1e-5 ∧ φ i ≤ φc i - u i + 1e-5) ∧
    ((∃ i, φc i - 1e-5 < φ i ∨ φc i - u i + 1e-5 < φ i) →
      mkDryRock (.patchy f) (finC φ) as = .error .valueError) := by
  have k1 : (∃ i, f.criticalPorosity i < finC φ i + Num.fin 1e-5) ↔ ∃ i, φc i - 1e-5 < φ i := by
    simp only [hf, finC_apply, Num.fin_add, Num.fin_lt]
    constructor <;> rintro ⟨i, hi⟩ <;> exact ⟨i, by linarith⟩
  have k2 : (∃ i, (f.criticalPorosity - f.upperBoundCementFraction) i < finC φ i - Num.fin 1e-5) ↔
      ∃ i, φc i - u i + 1e-5 < φ i := by
    simp only [hf, hu, Pi.sub_apply, finC_apply, Num.fin_sub, Num.fin_lt]
    constructor <;> rintro ⟨i, hi⟩ <;> exact ⟨i, by linarith⟩
  unfold mkDryRock
  dsimp only
  by_cases h2 : ∃ i, φc i - u i + 1e-5 < φ i
  · rw [failIf_true (k2.mpr h2)]
    simp only [bind_error, reduceCtorEq, exists_false, false_iff, implies_true, and_true]
    obtain ⟨i, hi⟩ := h2
    intro h; have := (h i).2; linarith
  · rw [failIf_false (fun h' => h2 (k2.mp h')), bind_ok]
    by_cases h1 : ∃ i, φc i - 1e-5 < φ i
    · rw [failIf_true (k1.mpr h1)]
      simp only [bind_error, reduceCtorEq, exists_false, false_iff, implies_true, and_true]
      obtain ⟨i, hi⟩ := h1
      intro h; have := (h i).1; linarith
    · rw [failIf_false (fun h' => h1 (k1.mp h'))]
      simp only [bind_ok]
      push Not at h1 h2
      refine ⟨⟨fun _ i => ⟨h1 i, h2 i⟩, fun _ => ⟨_, rfl⟩⟩, ?_⟩
      rintro ⟨i, h | h⟩
      · have := h1 i; linarith
      · have := h2 i; linarith

/-- **C46, polynomial.** No porosity is rejected for a polynomial model. -/
theorem C46_polyfit_accepts (b : Bool) (a : Coef3 (Option Coeffs)) (φ : Col n)
    (as : List (Adjustment n)) : ∃ d, mkDryRock (.polyfit b a) φ as = .ok d := ⟨_, rfl⟩

/-- **C46, proved part.** An accepted, non-negative porosity can be evaluated by the friable model:
positive mineral, critical porosity in (0, 1), positive effective pressure, coordination number > 0,
shear reduction ≥ 0, no adjustments. -/
theorem C46_friable_partial {mineral : Mat n} {K G R φ φc p sr N : Fin n → ℝ} (h : mineral.Pos K G R)
    {d : DryRock n} {pressure : Pressure n}
    (hd : mkDryRock (.friable ⟨finC φc, finC sr, finC N⟩) (finC φ) [] = .ok d)
    (hφ0 : ∀ i, 0 ≤ φ i) (hc0 : ∀ i, 0 < φc i) (hc1 : ∀ i, φc i < 1)
    (hp : pressure.truncatedRock = .ok (finC p)) (hp0 : ∀ i, 0 < p i) (hs : ∀ i, 0 ≤ sr i)
    (hN : ∀ i, 0 < N i) :
    ∃ m Km Gm, d.material mineral pressure = .ok m ∧ m.Has Km Gm (fun i => R i * (1 - φ i)) := by
  have hacc := ((C46_friable_accepts_exactly ⟨finC φc, finC sr, finC N⟩ (φ := φ) rfl []).1).mp ⟨d, hd⟩
  have hd' : d = ⟨.friable ⟨finC φc, finC sr, finC N⟩, finC φ, []⟩ := mkDryRock_ok hd
  subst hd'
  obtain ⟨fr, -, Kf, Gf, -, -, -, h1, -, h2, -⟩ := C27_density_and_range h hφ0
    (fun i => by have := hacc i; linarith [show (0:ℝ) < 1e-5 by norm_num]) hc0 hc1 hp0 hs hN
  refine ⟨fr, Kf, Gf, ?_, h2⟩
  exact C43_dry_rock_material pressure ⟨.friable ⟨finC φc, finC sr, finC N⟩, finC φ, []⟩ mineral fr
    (finC p) hp h1

/-- **C46, proved part.** An accepted porosity that is non-negative and at most the contact-cement and
upper-bound porosities can be evaluated by the patchy model (domain of C75).  (Missing: see
`C46_refuted`.) -/
theorem C46_patchy_partial {mineral cem : Mat n}
    {Ks Gs Rs Kc Gc Rc φ φc cf u p plb sr N : Fin n → ℝ}
    (hs : mineral.Pos Ks Gs Rs) (hc : cem.Pos Kc Gc Rc) (hr : CementRange Gc Ks Gs)
    {d : DryRock n} {pressure : Pressure n}
    (hd : mkDryRock (.patchy ⟨cem, finC φc, finC cf, finC plb, finC u, finC N, finC sr⟩) (finC φ) []
      = .ok d)
    (hφ0 : ∀ i, 0 ≤ φ i) (hφ1 : ∀ i, φ i ≤ φc i - cf i) (hφ2 : ∀ i, φ i ≤ φc i - u i)
    (hcf : ∀ i, 0 ≤ cf i) (hu : ∀ i, 0 ≤ u i) (hcf1 : ∀ i, cf i < φc i) (hu1 : ∀ i, u i < φc i)
    (hc1 : ∀ i, φc i < 1)
    (hp : pressure.truncatedRock = .ok (finC p)) (hp0 : ∀ i, 0 < p i) (hplb : ∀ i, 0 < plb i)
    (hsr : ∀ i, 0 ≤ sr i) (hN : ∀ i, 0 < N i) :
    ∃ m K G R, d.material mineral pressure = .ok m ∧ m.Pos K G R := by
  have hd' : d = ⟨.patchy ⟨cem, finC φc, finC cf, finC plb, finC u, finC N, finC sr⟩, finC φ, []⟩ := mkDryRock_ok hd
  subst hd'
  obtain ⟨m, K, G, R, h1, h2⟩ := C75_patchy_cement_defined (φ := φ) (ccp := fun i => φc i - cf i)
    (ub := fun i => φc i - u i) (p := p) (plb := plb) (crit := φc) (sr := sr) (Nf := N)
    (Nc := fun _ => 9) hs hc hr hφ0 hφ1 hφ2 (fun i => by linarith [hcf1 i])
    (fun i => by linarith [hu1 i]) (fun i => by linarith [hcf i]) (fun i => by linarith [hu i]) hc1
    hp0 hplb hsr hN (fun _ => by norm_num)
  refine ⟨m, K, G, R, ?_, h2⟩
  have e1 : (finC φc - finC cf : Col n) = finC fun i => φc i - cf i := by funext i; simp
  have e2 : (finC φc - finC u : Col n) = finC fun i => φc i - u i := by funext i; simp
  rw [C43_dry_rock_material pressure _ mineral m (finC p) hp]
  · rfl
  · show patchyCement _ _ _ _ _ _ _ _ _ _ _ = _
    dsimp only
    rw [e1, e2]
    exact h1

/-- **C46 is false of the code:** a negative porosity is accepted by `DryRock` but evaluating it raises
`ValueError` (friable model with default critical porosity, quartz, positive pressure). -/
theorem C46_refuted {mineral : Mat 2} {K G R : Fin 2 → ℝ} (h : mineral.Pos K G R)
    (pressure : Pressure 2) {p : Fin 2 → ℝ} (hp : pressure.truncatedRock = .ok (finC p))
    (hp0 : ∀ i, 0 < p i) :
    ∃ d : DryRock 2, mkDryRock (.friable ⟨finC fun _ => 0.4, finC fun _ => 1, finC fun _ => 9⟩)
        (finC fun _ => -0.1) [] = .ok d ∧ d.material mineral pressure = .error .valueError := by
  obtain ⟨d, hd⟩ := ((C46_friable_accepts_exactly (n := 2) ⟨finC fun _ => 0.4, finC fun _ => 1,
    finC fun _ => 9⟩ (φ := fun _ => -0.1) rfl []).1).mpr (fun i => by norm_num)
  refine ⟨d, hd, ?_⟩
  have hd' : d = ⟨.friable ⟨finC fun _ => 0.4, finC fun _ => 1, finC fun _ => 9⟩, finC fun _ => -0.1, []⟩ := mkDryRock_ok hd
  subst hd'
  have hfr : friableSand mineral (finC fun _ => -0.1) (finC fun _ => 0.4) (finC p) (finC fun _ => 9)
      (finC fun _ => 1) = .error .valueError := by
    unfold friableSand
    rw [hertzMindlin_fin h.has h.bulk h.shear h.density (fun _ => by norm_num) (fun i => (hp0 i).le)
      (fun _ => by norm_num) (fun _ => by norm_num), bind_ok]
    dsimp only
    rw [ratio_fin (fun _ => by norm_num)]
    unfold hsw checkIsRatio
    rw [failIf_true]
    · rfl
    · refine ⟨0, ?_⟩
      simp only [finC_apply, Num.fin_lt]; norm_num
  unfold DryRock.material
  rw [hp, bind_ok]
  show (friableSand _ _ _ _ _ _ >>= _) = _
  dsimp only
  rw [hfr]
  rfl

/-! ### C81: pressure dependencies chain -/

/-- **C81.** For a moduli model, adjusting from reference pressure `a` to `b` and then from `b` to `q`
is adjusting from `a` to `q` (finite, nonzero fits; the intermediate material is physical). -/
theorem C81_chain {m : PDModel n} (hm : m.IsRatio) (hu : m.OfModuli) {K G ρ : Fin n → ℝ}
    (a b q : Col n) (porosity : Col n) (mineral : Mat n)
    {f g : Fit n} {h : Fit n} {df pf sf dg pg sg dh ph sh : Fin n → ℝ}
    (hf : m.eval a porosity mineral = .ok f) (gf : GoodFit f df pf sf)
    (hg : m.eval b porosity mineral = .ok g) (gg : GoodFit g dg pg sg)
    (hh : m.eval q porosity mineral = .ok h) (hd : h.density = finC dh) (hp : h.primary = finC ph)
    (hs : h.secondary = finC sh)
    (posK : ∀ i, 0 ≤ K i * (pg i / pf i)) (posG : ∀ i, 0 ≤ G i * (sg i / sf i))
    (posρ : ∀ i, 0 < ρ i * (dg i / df i)) :
    (m.pressureDependency (Mat.ofReal K G ρ) b a porosity mineral >>= fun m1 =>
      m.pressureDependency m1 q b porosity mineral) =
    m.pressureDependency (Mat.ofReal K G ρ) q a porosity mineral := by
  simp only [PDModel.pressureDependency_ratio hm]
  unfold ratioDependency
  simp only [hf, hg, hh, bind_ok, failIf_false gf.check, failIf_false gg.check]
  simp only [m.ofModuli_iff.mp hu, if_true, gf.density, gf.primary, gf.secondary, gg.density, gg.primary, gg.secondary, hd, hp, hs,
    Mat.ofReal_density, Mat.ofReal_bulk, Mat.ofReal_shear]
  rw [finC_ratio (fun i => (gf.nonzero i).1), finC_ratio (fun i => (gf.nonzero i).2.1),
    finC_ratio (fun i => (gf.nonzero i).2.2), mkModuli_ofReal posK posG posρ, bind_ok]
  simp only [Mat.ofReal_density, Mat.ofReal_bulk, Mat.ofReal_shear]
  rw [finC_ratio (fun i => (gf.nonzero i).1), finC_ratio (fun i => (gf.nonzero i).2.1),
    finC_ratio (fun i => (gf.nonzero i).2.2), finC_ratio (fun i => (gg.nonzero i).1),
    finC_ratio (fun i => (gg.nonzero i).2.1), finC_ratio (fun i => (gg.nonzero i).2.2)]
  have ne : ∀ x : ℝ, 1e-20 < |x| → x ≠ 0 := by
    intro x hx e; rw [e] at hx; norm_num at hx
  congr 1
  · funext i
    have h1 := ne _ (gf.nonzero i).2.1; have h2 := ne _ (gg.nonzero i).2.1
    simp only [finC_apply, Num.fin_inj]; field_simp
  · funext i
    have h1 := ne _ (gf.nonzero i).2.2; have h2 := ne _ (gg.nonzero i).2.2
    simp only [finC_apply, Num.fin_inj]; field_simp
  · funext i
    have h1 := ne _ (gf.nonzero i).1; have h2 := ne _ (gg.nonzero i).1
    simp only [finC_apply, Num.fin_inj]; field_simp

/-! ### C82: friable and patchy pressure dependency -/

/-- **C82, friable.** The friable-sand pressure dependency keeps the density, and if the effective rock
pressure is at least the effective reference pressure, bulk and shear modulus do not decrease. -/
theorem C82_friable {mineral : Mat n} {K G R φ φc sr N x y Km Gm ρm : Fin n → ℝ}
    (h : mineral.Pos K G R) (hφ0 : ∀ i, 0 ≤ φ i) (hφ : ∀ i, φ i ≤ φc i)
    (hc0 : ∀ i, 0 < φc i) (hc1 : ∀ i, φc i < 1) (hs : ∀ i, 0 ≤ sr i) (hN : ∀ i, 0 < N i)
    (hKm : ∀ i, 0 ≤ Km i) (hGm : ∀ i, 0 ≤ Gm i) (hρm : ∀ i, 0 < ρm i)
    (pressure : Pressure n) (hx : pressure.truncatedReference = finC x)
    (hy : pressure.truncatedRock = .ok (finC y)) (hx0 : ∀ i, 0 < x i) (hxy : ∀ i, x i ≤ y i)
    {r0 : Mat n} {K0 G0 R0 : Fin n → ℝ}
    (hr0 : friableSand mineral (finC φ) (finC φc) (finC x) (finC N) (finC sr) = .ok r0)
    (hr0' : r0.Has K0 G0 R0) (hbig : ∀ i, 1e-20 < K0 i ∧ 1e-20 < G0 i ∧ 1e-20 < R0 i) :
    ∃ r Kr Gr, OPE.pressureDependency (.friable ⟨finC φc, finC sr, finC N⟩) (Mat.ofReal Km Gm ρm)
        pressure (finC φ) mineral = .ok r ∧ r.Has Kr Gr ρm ∧
      ∀ i, Km i ≤ Kr i ∧ Gm i ≤ Gr i := by
  have hy0 : ∀ i, 0 < y i := fun i => lt_of_lt_of_le (hx0 i) (hxy i)
  obtain ⟨r, s, Kr, Gr, Ks, Gs, Rr, h1, h2, h3, h4, h5⟩ := C30_friable_monotone (p := x) (q := y) h hφ0 hφ hc0
    hc1 hx0 hxy hs hN
  rw [h1] at hr0
  injection hr0 with hr0
  subst hr0
  obtain rfl : K0 = Kr := finC_injective (hr0'.1.symm.trans h3.1)
  obtain rfl : G0 = Gr := finC_injective (hr0'.2.1.symm.trans h3.2.1)
  obtain rfl : R0 = Rr := finC_injective (hr0'.2.2.symm.trans h3.2.2)
  have hb := hbig
  have z : (0:ℝ) < 1e-20 := by norm_num
  have gf : GoodFit (n := n) ⟨r.density, r.bulk, r.shear⟩ R0 K0 G0 :=
    ⟨h3.2.2, h3.1, h3.2.1, fun i => by
      obtain ⟨a, b, c⟩ := hb i
      exact ⟨by rw [abs_of_pos (by linarith)]; exact c, by rw [abs_of_pos (by linarith)]; exact a,
        by rw [abs_of_pos (by linarith)]; exact b⟩⟩
  have posK : ∀ i, 0 < K0 i := fun i => z.trans (hb i).1
  have posG : ∀ i, 0 < G0 i := fun i => z.trans (hb i).2.1
  have posR : ∀ i, R0 i ≠ 0 := fun i => (z.trans (hb i).2.2).ne'
  have rK : ∀ i, 1 ≤ Ks i / K0 i := fun i => (one_le_div (posK i)).mpr (h5 i).1
  have rG : ∀ i, 1 ≤ Gs i / G0 i := fun i => (one_le_div (posG i)).mpr (h5 i).2
  refine ⟨_, fun i => Km i * (Ks i / K0 i), fun i => Gm i * (Gs i / G0 i), ?_, Mat.ofReal_has _ _ _,
    fun i => ⟨le_mul_of_one_le_right (hKm i) (rK i), le_mul_of_one_le_right (hGm i) (rG i)⟩⟩
  unfold OPE.pressureDependency
  rw [hy, bind_ok]
  dsimp only
  rw [bind_ok, hx]
  show ratioDependency _ _ _ _ _ _ = _
  unfold ratioDependency
  simp only [PDModel.eval, FriableModel.evalMaterial, h1, h2, bind_ok, failIf_false gf.check]
  simp only [PDModel.useModuli, if_true, h3.1, h3.2.1, h3.2.2, h4.1, h4.2.1, h4.2.2, Mat.ofReal_bulk,
    Mat.ofReal_shear, Mat.ofReal_density]
  rw [finC_ratio (fun i => (gf.nonzero i).2.1), finC_ratio (fun i => (gf.nonzero i).2.2),
    finC_ratio_self (fun i => (gf.nonzero i).1)]
  exact mkModuli_ofReal (fun i => mul_nonneg (hKm i) (by linarith [rK i]))
    (fun i => mul_nonneg (hGm i) (by linarith [rG i])) hρm


/-- The hypotheses are met by quartz at porosity 0 (where the sand is the mineral), critical porosity
0.4, effective pressures 10 and 20. -/
theorem exFriableDependency : ∃ r : Mat 2, OPE.pressureDependency (.friable ⟨finC fun _ => 0.4, finC fun _ => 1, finC fun _ => 9⟩)
    (Mat.ofReal (fun _ => 12) (fun _ => 10) (fun _ => 2000))
    ⟨finC fun _ => 100, finC fun _ => 90, some (finC fun _ => 80), none, some (finC fun _ => 80)⟩
    (finC fun _ => 0) (Mat.ofReal (fun _ => 36.8) (fun _ => 44) (fun _ => 2650)) = .ok r := by
  obtain ⟨fr, pack, Kf, Gf, Kp, Gp, Rp, h1, -, h2, -, h3⟩ := C27_density_and_range (p := fun _ => 10)
    (φ := fun _ => 0) (φc := fun _ => 0.4) (sr := fun _ => 1)
    (N := fun _ => 9) quartz_pos (fun _ => le_rfl) (fun _ => by norm_num) (fun _ => by norm_num)
    (fun _ => by norm_num) (fun _ => by norm_num) (fun _ => by norm_num) (fun _ => by norm_num)
  obtain ⟨r, -, -, hr, -⟩ := C82_friable (x := fun _ => 10) (y := fun _ => 20) (Km := fun _ => 12) (Gm := fun _ => 10)
    (ρm := fun _ => 2000) quartz_pos (fun _ => le_rfl) (fun _ => by norm_num) (fun _ => by norm_num)
    (fun _ => by norm_num) (fun _ => by norm_num) (fun _ => by norm_num) (fun _ => by norm_num)
    (fun _ => by norm_num) (fun _ => by norm_num)
    ⟨finC fun _ => 100, finC fun _ => 90, some (finC fun _ => 80), none, some (finC fun _ => 80)⟩
    (by funext i; simp [Pressure.truncatedReference, Pressure.effectiveReference, truncate]; norm_num)
    (by
      simp only [Pressure.truncatedRock, Pressure.effectiveRock, needCol, bind_ok, truncate]
      congr 1; funext i; simp; norm_num)
    (fun _ => by norm_num) (fun _ => by norm_num) h1 h2
    (fun i => by
      obtain ⟨e1, e2⟩ := (h3 i).2.2.1 rfl
      rw [e1, e2]; norm_num)
  exact ⟨r, hr⟩

/-- **C82, patchy.** The patchy-cement pressure dependency keeps the density, and if the effective rock
pressure is at least the effective reference pressure (and the sand is defined there with moduli and
density above 1e-20), bulk and shear modulus do not decrease. -/
theorem C82_patchy {mineral cem : Mat n}
    {Ks Gs Rs Kc Gc Rc φ φc cf u plb sr N x y Km Gm ρm : Fin n → ℝ}
    (hin : PatchyIn mineral cem Ks Gs Rs Kc Gc Rc (fun i => φc i - cf i) (fun i => φc i - u i) x plb φc
      sr N)
    (hφ0 : ∀ i, 0 ≤ φ i) (hφ : ∀ i, φ i ≤ φc i)
    (hKm : ∀ i, 0 ≤ Km i) (hGm : ∀ i, 0 ≤ Gm i) (hρm : ∀ i, 0 < ρm i)
    (pressure : Pressure n) (hx : pressure.truncatedReference = finC x)
    (hy : pressure.truncatedRock = .ok (finC y)) (hxy : ∀ i, x i ≤ y i)
    {r0 : Mat n} {K0 G0 R0 : Fin n → ℝ}
    (hr0 : (PatchyModel.mk cem (finC φc) (finC cf) (finC plb) (finC u) (finC N) (finC sr)).evalMaterial
      (finC x) (finC φ) mineral = .ok r0)
    (hr0' : r0.Has K0 G0 R0) (hbig : ∀ i, 1e-20 < K0 i ∧ 1e-20 < G0 i ∧ 1e-20 < R0 i) :
    ∃ r Kr Gr, OPE.pressureDependency
        (.patchy ⟨cem, finC φc, finC cf, finC plb, finC u, finC N, finC sr⟩) (Mat.ofReal Km Gm ρm)
        pressure (finC φ) mineral = .ok r ∧ r.Has Kr Gr ρm ∧
      ∀ i, Km i ≤ Kr i ∧ Gm i ≤ Gr i := by
  have e1 : (finC φc - finC cf : Col n) = finC fun i => φc i - cf i := by funext i; simp
  have e2 : (finC φc - finC u : Col n) = finC fun i => φc i - u i := by funext i; simp
  have ev : ∀ z : Fin n → ℝ, (PatchyModel.mk cem (finC φc) (finC cf) (finC plb) (finC u) (finC N)
      (finC sr)).evalMaterial (finC z) (finC φ) mineral = patchyCement mineral cem (finC φ)
        (finC fun i => φc i - cf i) (finC fun i => φc i - u i) (finC z) (finC plb) (finC φc) (finC sr)
        (finC N) (finC fun _ => 9) := by
    intro z
    unfold PatchyModel.evalMaterial
    dsimp only
    rw [e1, e2]; rfl
  rw [ev] at hr0
  obtain ⟨s, Kr, Gr, Rr, Ks', Gs', h2, h3, h4, h5⟩ := C30_patchy_monotone (q := y) hin hφ0 hφ hxy hr0
  obtain rfl : K0 = Kr := finC_injective (hr0'.1.symm.trans h3.1)
  obtain rfl : G0 = Gr := finC_injective (hr0'.2.1.symm.trans h3.2.1)
  obtain rfl : R0 = Rr := finC_injective (hr0'.2.2.symm.trans h3.2.2)
  have z : (0:ℝ) < 1e-20 := by norm_num
  have gf : GoodFit (n := n) ⟨r0.density, r0.bulk, r0.shear⟩ R0 K0 G0 :=
    ⟨h3.2.2, h3.1, h3.2.1, fun i => by
      obtain ⟨a, b, c⟩ := hbig i
      exact ⟨by rw [abs_of_pos (by linarith)]; exact c, by rw [abs_of_pos (by linarith)]; exact a,
        by rw [abs_of_pos (by linarith)]; exact b⟩⟩
  have posK : ∀ i, 0 < K0 i := fun i => z.trans (hbig i).1
  have posG : ∀ i, 0 < G0 i := fun i => z.trans (hbig i).2.1
  have rK : ∀ i, 1 ≤ Ks' i / K0 i := fun i => (one_le_div (posK i)).mpr (h5 i).1
  have rG : ∀ i, 1 ≤ Gs' i / G0 i := fun i => (one_le_div (posG i)).mpr (h5 i).2
  refine ⟨_, fun i => Km i * (Ks' i / K0 i), fun i => Gm i * (Gs' i / G0 i), ?_, Mat.ofReal_has _ _ _,
    fun i => ⟨le_mul_of_one_le_right (hKm i) (rK i), le_mul_of_one_le_right (hGm i) (rG i)⟩⟩
  unfold OPE.pressureDependency
  rw [hy, bind_ok]
  dsimp only
  rw [bind_ok, hx]
  show ratioDependency _ _ _ _ _ _ = _
  unfold ratioDependency
  simp only [PDModel.eval, ev, hr0, h2, bind_ok, failIf_false gf.check]
  simp only [PDModel.useModuli, if_true, h3.1, h3.2.1, h3.2.2, h4.1, h4.2.1, h4.2.2, Mat.ofReal_bulk,
    Mat.ofReal_shear, Mat.ofReal_density]
  rw [finC_ratio (fun i => (gf.nonzero i).2.1), finC_ratio (fun i => (gf.nonzero i).2.2),
    finC_ratio_self (fun i => (gf.nonzero i).1)]
  exact mkModuli_ofReal (fun i => mul_nonneg (hKm i) (by linarith [rK i]))
    (fun i => mul_nonneg (hGm i) (by linarith [rG i])) hρm

/-- The hypotheses of C81 are met: a linear fit `2p + 10` at pressures 70, 40, 10. -/
example (porosity : Col 2) (mineral : Mat 2) := by
  have e : ∀ x : ℝ, (fun i => npPolyval [2, 10] ((finC fun _ : Fin 2 => x) i))
      = finC fun _ => 2 * x + 10 := by
    intro x; funext i; simp [npPolyval]
  exact C81_chain (n := 2) (m := .polyfit true ⟨[2, 10], [2, 10], [2, 10]⟩) trivial rfl
    (K := fun _ => 36) (G := fun _ => 44) (ρ := fun _ => 2650) (finC fun _ => 70) (finC fun _ => 40)
    (finC fun _ => 10) porosity mineral rfl
    ⟨e 70, e 70, e 70, fun _ => by norm_num⟩ rfl ⟨e 40, e 40, e 40, fun _ => by norm_num⟩ rfl (e 10) (e 10)
    (e 10) (fun _ => by norm_num) (fun _ => by norm_num) (fun _ => by norm_num)

/-- The hypotheses of C46 are met: default friable model at porosity 0.2. -/
example : ∀ i : Fin 2, (fun _ => (0.2:ℝ)) i ≤ (fun _ => (0.4:ℝ)) i - 1e-5 := fun _ => by norm_num

end OPE
