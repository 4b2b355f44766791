import Verif.Spec.Adjust
import Verif.Props.Published7

/-!
# C109: the whole calculation, every kind of dry rock and every list of adjustments
-/

namespace OPE

open Classical

variable {n : ℕ}

/-! ### Materials whose velocities are those of their moduli -/

/-- The velocities are those of the moduli (true of every material given by moduli or by velocities). -/
def Mat.Coherent (m : Mat n) : Prop :=
  m.vp = calcVp m.bulk m.shear m.density ∧ m.vs = calcVs m.shear m.density

/-- The material of rocks `r`. -/
noncomputable def Mat.rock (r : Fin n → Published.Rock) : Mat n :=
  Mat.ofReal (fun i => (r i).K) (fun i => (r i).G) (fun i => (r i).ρ)

theorem Mat.rock_isRock {r : Fin n → Published.Rock} (h : ∀ i, (r i).Valid) : (Mat.rock r).IsRock r :=
  ⟨rfl, rfl, rfl, h⟩

theorem mkModuli_coherent {b g d : Col n} {m : Mat n} (h : mkModuli b g d = .ok m) : m.Coherent := by
  obtain ⟨-, -, -, -, h5, h6⟩ := mkMaterial_ok h
  simp only [reduceCtorEq, true_and, false_or] at h5 h6
  exact ⟨h5, h6⟩

theorem mkModuli_rock {r : Fin n → Published.Rock} (h : ∀ i, (r i).Valid) :
    mkModuli (finC fun i => (r i).K) (finC fun i => (r i).G) (finC fun i => (r i).ρ) = .ok (Mat.rock r) :=
  mkModuli_ofReal (fun i => (h i).1.le) (fun i => (h i).2.1.le) (fun i => (h i).2.2)

theorem Mat.Coherent.rock {m : Mat n} (h : m.Coherent) {r : Fin n → Published.Rock} (hr : m.IsRock r) :
    m = Mat.rock r := by
  obtain ⟨h1, h2, h3, h4⟩ := hr
  obtain ⟨c1, c2⟩ := mkModuli_coherent (mkModuli_rock h4)
  ext i
  · rw [h1]; rfl
  · rw [h2]; rfl
  · rw [h3]; rfl
  · rw [h.1, c1, h1, h2, h3]; rfl
  · rw [h.2, c2, h2, h3]; rfl

theorem hsw_coherent {m1 m2 r : Mat n} {f : Col n} {b : String} (h : hsw m1 m2 f b = .ok r) : r.Coherent := by
  unfold hsw at h
  obtain ⟨_, -, h⟩ := bind_eq_ok.mp h
  obtain ⟨_, -, h⟩ := bind_eq_ok.mp h
  obtain ⟨_, -, h⟩ := bind_eq_ok.mp h
  obtain ⟨_, -, h⟩ := bind_eq_ok.mp h
  obtain ⟨_, -, h⟩ := bind_eq_ok.mp h
  exact mkModuli_coherent h

theorem friableSand_coherent {m r : Mat n} {φ φc p N f : Col n} (h : friableSand m φ φc p N f = .ok r) :
    r.Coherent := by
  unfold friableSand at h
  obtain ⟨_, -, h⟩ := bind_eq_ok.mp h
  exact hsw_coherent h

theorem patchyCement_coherent {a b r : Mat n} {φ x u p q φc f N M : Col n}
    (h : patchyCement a b φ x u p q φc f N M = .ok r) : r.Coherent := by
  unfold patchyCement at h
  obtain ⟨_, -, h⟩ := bind_eq_ok.mp h
  obtain ⟨_, -, h⟩ := bind_eq_ok.mp h
  obtain ⟨_, -, h⟩ := bind_eq_ok.mp h
  obtain ⟨_, -, h⟩ := bind_eq_ok.mp h
  obtain ⟨_, -, h⟩ := bind_eq_ok.mp h
  obtain ⟨_, -, h⟩ := bind_eq_ok.mp h
  exact mkModuli_coherent h

theorem mixLoop_coherent {m : Mat n} (hm : m.Coherent) {t : Col n} {L : List (Mat n × Col n)} {r : Mat n}
    (h : mixLoop m t L = .ok r) : r.Coherent := by
  induction L generalizing m t with
  | nil => injection h with h; subst h; exact hm
  | cons x L ih =>
    obtain ⟨m', f'⟩ := x
    unfold mixLoop at h
    obtain ⟨_, -, h⟩ := bind_eq_ok.mp h
    obtain ⟨_, -, h⟩ := bind_eq_ok.mp h
    exact ih ⟨rfl, rfl⟩ h

theorem mineralMixture_coherent {x : Mat n × Col n} (hx : x.1.Coherent) {L : List (Mat n × Col n)} {r : Mat n}
    (h : mineralMixture (x :: L) = .ok r) : r.Coherent := mixLoop_coherent hx h

/-! ### Rocks given by velocities -/

theorem Published.Rock.vs_sq {r : Published.Rock} (h : r.Valid) : r.vs ^ 2 = r.G / r.ρ :=
  Real.sq_sqrt (div_nonneg h.2.1.le h.2.2.le)

theorem Published.Rock.vp_sq {r : Published.Rock} (h : r.Valid) : r.vp ^ 2 = (r.K + 4 / 3 * r.G) / r.ρ :=
  Real.sq_sqrt (div_nonneg (by have := h.1; have := h.2.1; linarith) h.2.2.le)

theorem Published.Rock.vs_pos {r : Published.Rock} (h : r.Valid) : 0 < r.vs :=
  Real.sqrt_pos.mpr (div_pos h.2.1 h.2.2)

theorem Published.Rock.vp_pos {r : Published.Rock} (h : r.Valid) : 0 < r.vp :=
  Real.sqrt_pos.mpr (div_pos (by have := h.1; have := h.2.1; linarith) h.2.2)

/-- A rock made of velocities has these velocities. -/
theorem Published.ofVelocities_vp {ρ p s : ℝ} (hp : 0 ≤ p) (hρ : 0 < ρ) : (ofVelocities ρ p s).vp = p := by
  unfold Rock.vp ofVelocities
  dsimp only
  rw [show (ρ * (p ^ 2 - 4 / 3 * s ^ 2) + 4 / 3 * (ρ * s ^ 2)) / ρ = p ^ 2 by field_simp; ring, Real.sqrt_sq hp]

theorem Published.ofVelocities_vs {ρ p s : ℝ} (hs : 0 ≤ s) (hρ : 0 < ρ) : (ofVelocities ρ p s).vs = s := by
  unfold Rock.vs ofVelocities
  dsimp only
  rw [show ρ * s ^ 2 / ρ = s ^ 2 by field_simp, Real.sqrt_sq hs]

/-- Every rock is the rock of its velocities. -/
theorem Published.ofVelocities_self {r : Rock} (h : r.Valid) : ofVelocities r.ρ r.vp r.vs = r := by
  have := h.2.2.ne'
  unfold ofVelocities
  rw [r.vp_sq h, r.vs_sq h]
  obtain ⟨K, G, ρ⟩ := r
  simp only [Published.Rock.mk.injEq]
  dsimp only at this
  refine ⟨by field_simp; ring, by field_simp, trivial⟩

theorem mkVelocities_rock {ρ p s : Fin n → ℝ} (hp : ∀ i, 0 ≤ p i) (hs : ∀ i, 0 ≤ s i)
    (h : ∀ i, (Published.ofVelocities (ρ i) (p i) (s i)).Valid) :
    mkVelocities (finC ρ) (finC p) (finC s) = .ok (Mat.rock fun i => Published.ofVelocities (ρ i) (p i) (s i)) := by
  have hρ : ∀ i, 0 < ρ i := fun i => (h i).2.2
  have hc : ∀ i, Real.sqrt (4/3) * s i ≤ p i := by
    intro i
    have h1 : 0 < p i ^ 2 - 4 / 3 * s i ^ 2 := pos_of_mul_pos_right (h i).1 (hρ i).le |> fun h => h
    apply abs_le_of_sq_le_sq' _ (hp i) |>.2
    rw [mul_pow, Real.sq_sqrt (by norm_num)]
    linarith
  rw [mkVelocities_ofReal hρ hs hc]
  congr 1
  ext i
  · show Num.fin _ = Num.fin _
    congr 1
    simp only [Published.ofVelocities]; ring
  · show Num.fin _ = Num.fin _
    congr 1
    simp only [Published.ofVelocities]; ring
  · rfl
  · show Num.fin _ = Num.fin (Published.ofVelocities (ρ i) (p i) (s i)).vp
    rw [Published.ofVelocities_vp (hp i) (hρ i)]
  · show Num.fin _ = Num.fin (Published.ofVelocities (ρ i) (p i) (s i)).vs
    rw [Published.ofVelocities_vs (hs i) (hρ i)]

/-! ### Polynomials -/

/-- The rock whose density and moduli are polynomials in `v` and the properties of `r`. -/
noncomputable def surfaceModuli (kd kb ks : Coeffs) (r : Published.Rock) (v : ℝ) : Published.Rock :=
  ⟨surface kb r.K v, surface ks r.G v, surface kd r.ρ v⟩

/-- The rock whose density and velocities are polynomials in `v` and the properties of `r`. -/
noncomputable def surfaceVelocities (kd kp ks : Coeffs) (r : Published.Rock) (v : ℝ) : Published.Rock :=
  Published.ofVelocities (surface kd r.ρ v) (surface kp r.vp v) (surface ks r.vs v)

theorem polyvalMaterial_velocities {v : Col n} {m r : Mat n} {kd kp ks : Coeffs} {b : Bool}
    (h : polyvalMaterial v m kd kp ks b = .ok r) : mkVelocities r.density r.vp r.vs = .ok r := by
  unfold polyvalMaterial vectorizeMaterial at h
  obtain ⟨ms, -, h⟩ := bind_eq_ok.mp h
  obtain ⟨h1, -, -, -, h5, h6⟩ := mkMaterial_ok h
  simp only [Option.some.injEq, reduceCtorEq, false_and, or_false] at h1 h5 h6
  rw [← h1, ← h5, ← h6]
  exact h

theorem polyval_moduli {m : Mat n} {r : Fin n → Published.Rock} (hm : m.IsRock r) {v : Fin n → ℝ} {kd kb ks : Coeffs}
    (h : ∀ i, (surfaceModuli kd kb ks (r i) (v i)).Valid) :
    polyvalMaterial (finC v) m kd kb ks true = .ok (Mat.rock fun i => surfaceModuli kd kb ks (r i) (v i)) := by
  unfold polyvalMaterial
  refine vectorizeMaterial_ofReal (fun i => ?_) (fun i => (h i).1.le) (fun i => (h i).2.1.le) (fun i => (h i).2.2)
  simp only [if_true, polyfitRow, hm.1, hm.2.1, hm.2.2.1, finC_apply, Coeffs.eval_fin]
  exact mkModuli_row (h i).1.le (h i).2.1.le (h i).2.2

theorem polyval_velocities {r : Fin n → Published.Rock} {v : Fin n → ℝ} {kd kp ks : Coeffs}
    (hp : ∀ i, 0 ≤ surface kp (r i).vp (v i)) (hs : ∀ i, 0 ≤ surface ks (r i).vs (v i))
    (h : ∀ i, (surfaceVelocities kd kp ks (r i) (v i)).Valid) :
    polyvalMaterial (finC v) (Mat.rock r) kd kp ks false
      = .ok (Mat.rock fun i => surfaceVelocities kd kp ks (r i) (v i)) := by
  have hρ : ∀ i, 0 < surface kd (r i).ρ (v i) := fun i => (h i).2.2
  have hc : ∀ i, Real.sqrt (4/3) * surface ks (r i).vs (v i) ≤ surface kp (r i).vp (v i) := by
    intro i
    have h1 : 0 < surface kp (r i).vp (v i) ^ 2 - 4 / 3 * surface ks (r i).vs (v i) ^ 2 :=
      pos_of_mul_pos_right (h i).1 (hρ i).le
    apply abs_le_of_sq_le_sq' _ (hp i) |>.2
    rw [mul_pow, Real.sq_sqrt (by norm_num)]
    linarith
  obtain ⟨q, q1, q2, q3, q4⟩ := C45_velocity_fit (m := Mat.rock r) (ρ := fun i => (r i).ρ) (vp := fun i => (r i).vp)
    (vs := fun i => (r i).vs) (v := v) rfl rfl rfl kd kp ks hρ hs hc
  have h2 := polyvalMaterial_velocities q1
  rw [q2, q3, q4] at h2
  rw [q1, ← h2]
  exact mkVelocities_rock hp hs h

/-! ### The dry rock -/

/-- What a dry rock model gives for the minerals `a`, the porosity `φ` and the effective pressure `p`: the
rocks `dry` and their dense packing. -/
inductive SandModel.Gives (a : Fin n → Published.Rock) (φ p : Fin n → ℝ) :
    SandModel n → (Fin n → Published.Rock) → (Fin n → Published.Rock) → Prop
  | friable (φc f : Fin n → ℝ) (N : Option (Fin n → ℝ)) (h0 : ∀ i, 0 ≤ φ i) (h1 : ∀ i, φ i ≤ φc i - 1e-5)
      (hc : ∀ i, φc i < 1) (hp : ∀ i, 0 < p i) (hf : ∀ i, 0 ≤ f i) (hN : ∀ i, 0 < coordination N φc i) :
      Gives a φ p (.friable (mkFriableModel (finC φc) (finC f) (N.map finC)))
        (fun i => Published.friableSand (a i) (φ i) (φc i) (p i) (coordination N φc i) (f i)) a
  | patchy (cem : Mat n) (b : Fin n → Published.Rock) (φc cf u plb f : Fin n → ℝ) (N : Option (Fin n → ℝ))
      (hb : cem.IsRock b) (hr : ∀ i, 2 * (a i).G ≤ 3 * (a i).K ∧ 0.04 * (Real.pi * (a i).G) ≤ (b i).G)
      (h0 : ∀ i, 0 ≤ φ i) (h1 : ∀ i, φ i ≤ φc i - 1e-5) (h2 : ∀ i, φ i ≤ φc i - cf i) (h3 : ∀ i, φ i ≤ φc i - u i)
      (hcf : ∀ i, 0 ≤ cf i ∧ cf i < φc i) (hu : ∀ i, 0 ≤ u i ∧ u i < φc i) (hc : ∀ i, φc i < 1)
      (hp : ∀ i, 0 < p i) (hplb : ∀ i, 0 < plb i) (hf : ∀ i, 0 ≤ f i) (hN : ∀ i, 0 < coordination N φc i) :
      Gives a φ p (.patchy (mkPatchyModel cem (finC φc) (finC cf) (finC plb) (finC u) (N.map finC) (finC f)))
        (fun i => Published.patchyCement (a i) (b i) (φ i) (φc i - cf i) (φc i - u i) (p i) (plb i) (φc i) (f i)
          (coordination N φc i) 9)
        (fun i => Published.lowerBound (b i) (a i) (u i))
  | moduli (kd kb ks : Option Coeffs) :
      Gives a φ p (.polyfit true ⟨kd, kb, ks⟩)
        (fun i => surfaceModuli (kd.getD defaultDensity) (kb.getD (rowCoeffs 2900 (-1300)))
          (ks.getD (rowCoeffs 1700 (-800))) (a i) (φ i)) a
  | velocities (kd kp ks : Option Coeffs) (hp : ∀ i, 0 ≤ surface (kp.getD (rowCoeffs 20 (-40))) (a i).vp (φ i))
      (hs : ∀ i, 0 ≤ surface (ks.getD (rowCoeffs 12 (-20))) (a i).vs (φ i)) :
      Gives a φ p (.polyfit false ⟨kd, kp, ks⟩)
        (fun i => surfaceVelocities (kd.getD defaultDensity) (kp.getD (rowCoeffs 20 (-40)))
          (ks.getD (rowCoeffs 12 (-20))) (a i) (φ i)) a

theorem SandModel.Gives.material {a : Fin n → Published.Rock} {φ : Fin n → ℝ}
    {ob rf rk : Fin n → ℝ} {mx : Option (Fin n → ℝ)} {model : SandModel n} {dry dense : Fin n → Published.Rock}
    (h : model.Gives a φ (effectiveAt mx ob rk) dry dense) (ha : ∀ i, (a i).Valid) (hv : ∀ i, (dry i).Valid)
    (as : List (Adjustment n)) :
    ∃ d, mkDryRock model (finC φ) as = .ok d ∧ d.porosity = finC φ ∧ d.adjustments = as ∧
      d.model.evalMaterial (finC (effectiveAt mx ob rk)) (finC φ) (Mat.rock a) = .ok (Mat.rock dry) ∧
      ∃ q, d.model.nonporous (Mat.rock a) = .ok q ∧ q.IsRock dense := by
  have hm := Mat.rock_isRock ha
  cases h with
  | friable φc f N h0 h1 hc hp hf hN =>
    obtain ⟨d, hd⟩ := (C46_friable_accepts_exactly (mkFriableModel (finC φc) (finC f) (N.map finC)) (φ := φ) rfl
      as).1.mpr h1
    obtain ⟨r, r1, r2⟩ := friableSand_rock hm h0 (fun i => (h1 i).trans (by norm_num))
      (fun i => by have := h0 i; have := h1 i; norm_num at this; linarith) hc hp hf hN
    refine ⟨d, hd, ?_⟩
    obtain rfl := mkDryRock_ok hd
    refine ⟨rfl, rfl, ?_, _, rfl, hm⟩
    show friableSand _ _ _ _ _ _ = _
    dsimp only [mkFriableModel]
    rw [coordination_fin, ← (friableSand_coherent r1).rock r2]
    exact r1
  | patchy cem b φc cf u plb f N hb hr h0 h1 h2 h3 hcf hu hc hp hplb hf hN =>
    obtain ⟨d, hd⟩ := (C46_patchy_accepts_exactly (mkPatchyModel cem (finC φc) (finC cf) (finC plb) (finC u)
      (N.map finC) (finC f)) (φ := φ) rfl rfl as).1.mpr fun i => ⟨h1 i, (h3 i).trans (by norm_num)⟩
    obtain ⟨r, r1, r2⟩ := C99_patchy_cement (φ := φ) (ccp := fun i => φc i - cf i) (ub := fun i => φc i - u i)
      (p := effectiveAt mx ob rk) (plb := plb) (crit := φc) (f := f) (Nf := coordination N φc) (Nc := fun _ => 9)
      hm hb hr h0 h2 h3 (fun i => by linarith [(hcf i).2]) (fun i => by linarith [(hu i).2])
      (fun i => by linarith [(hcf i).1]) (fun i => by linarith [(hu i).1]) hc hp hplb hf hN (fun _ => by norm_num)
    have e1 : (finC φc - finC cf : Col n) = finC fun i => φc i - cf i := by funext i; simp
    have e2 : (finC φc - finC u : Col n) = finC fun i => φc i - u i := by funext i; simp
    refine ⟨d, hd, ?_⟩
    obtain rfl := mkDryRock_ok hd
    refine ⟨rfl, rfl, ?_, ?_⟩
    · show patchyCement _ _ _ _ _ _ _ _ _ _ _ = _
      dsimp only [mkPatchyModel]
      rw [coordination_fin, e1, e2, ← (patchyCement_coherent r1).rock r2]
      exact r1
    · exact hsw_lower hb hm fun i => ⟨(hu i).1, by linarith [(hu i).2, hc i]⟩
  | moduli kd kb ks =>
    exact ⟨_, rfl, rfl, rfl, polyval_moduli hm hv, _, rfl, hm⟩
  | velocities kd kp ks hp hs =>
    exact ⟨_, rfl, rfl, rfl, polyval_velocities hp hs hv, _, rfl, hm⟩

/-! ### Adjustments -/

/-- The dry rock of a section that is also a pressure dependency: friable sand or patchy cement of minerals
`a` at porosity `φ`, as a function of the effective pressure. -/
inductive PDModel.Sand (a : Fin n → Published.Rock) (φ : Fin n → ℝ) :
    PDModel n → ((Fin n → ℝ) → Fin n → Published.Rock) → Prop
  | friable (φc f : Fin n → ℝ) (N : Option (Fin n → ℝ)) (h0 : ∀ i, 0 ≤ φ i) (h1 : ∀ i, φ i ≤ φc i)
      (hc0 : ∀ i, 0 < φc i) (hc : ∀ i, φc i < 1) (hf : ∀ i, 0 ≤ f i) (hN : ∀ i, 0 < coordination N φc i) :
      Sand a φ (.friable (mkFriableModel (finC φc) (finC f) (N.map finC)))
        fun p i => Published.friableSand (a i) (φ i) (φc i) (p i) (coordination N φc i) (f i)
  | patchy (cem : Mat n) (b : Fin n → Published.Rock) (φc cf u plb f : Fin n → ℝ) (N : Option (Fin n → ℝ))
      (hb : cem.IsRock b) (hr : ∀ i, 2 * (a i).G ≤ 3 * (a i).K ∧ 0.04 * (Real.pi * (a i).G) ≤ (b i).G)
      (h0 : ∀ i, 0 ≤ φ i) (h2 : ∀ i, φ i ≤ φc i - cf i) (h3 : ∀ i, φ i ≤ φc i - u i)
      (hcf : ∀ i, 0 ≤ cf i ∧ cf i < φc i) (hu : ∀ i, 0 ≤ u i ∧ u i < φc i) (hc : ∀ i, φc i < 1)
      (hplb : ∀ i, 0 < plb i) (hf : ∀ i, 0 ≤ f i) (hN : ∀ i, 0 < coordination N φc i) :
      Sand a φ (.patchy (mkPatchyModel cem (finC φc) (finC cf) (finC plb) (finC u) (N.map finC) (finC f)))
        fun p i => Published.patchyCement (a i) (b i) (φ i) (φc i - cf i) (φc i - u i) (p i) (plb i) (φc i) (f i)
          (coordination N φc i) 9

theorem PDModel.Sand.eval {a : Fin n → Published.Rock} {φ : Fin n → ℝ} {m : PDModel n}
    {g : (Fin n → ℝ) → Fin n → Published.Rock} (h : m.Sand a φ g) (ha : ∀ i, (a i).Valid) {p : Fin n → ℝ}
    (hp : ∀ i, 0 < p i) :
    m.eval (finC p) (finC φ) (Mat.rock a) = .ok ⟨finC fun i => (g p i).ρ, finC fun i => (g p i).K,
      finC fun i => (g p i).G⟩ ∧ ∀ i, (g p i).Valid := by
  have hm := Mat.rock_isRock ha
  cases h with
  | friable φc f N h0 h1 hc0 hc hf hN =>
    obtain ⟨r, r1, r2⟩ := friableSand_rock hm h0 h1 hc0 hc hp hf hN
    refine ⟨?_, r2.2.2.2⟩
    show (friableSand _ _ _ _ _ _ >>= _) = _
    dsimp only [mkFriableModel]
    rw [coordination_fin]
    refine (congrArg (· >>= _) r1).trans ?_
    rw [bind_ok, r2.1, r2.2.1, r2.2.2.1]
  | patchy cem b φc cf u plb f N hb hr h0 h2 h3 hcf hu hc hplb hf hN =>
    obtain ⟨r, r1, r2⟩ := C99_patchy_cement (φ := φ) (ccp := fun i => φc i - cf i) (ub := fun i => φc i - u i)
      (p := p) (plb := plb) (crit := φc) (f := f) (Nf := coordination N φc) (Nc := fun _ => 9)
      hm hb hr h0 h2 h3 (fun i => by linarith [(hcf i).2]) (fun i => by linarith [(hu i).2])
      (fun i => by linarith [(hcf i).1]) (fun i => by linarith [(hu i).1]) hc hp hplb hf hN (fun _ => by norm_num)
    have e1 : (finC φc - finC cf : Col n) = finC fun i => φc i - cf i := by funext i; simp
    have e2 : (finC φc - finC u : Col n) = finC fun i => φc i - u i := by funext i; simp
    refine ⟨?_, r2.2.2.2⟩
    show (patchyCement _ _ _ _ _ _ _ _ _ _ _ >>= _) = _
    dsimp only [mkPatchyModel]
    rw [coordination_fin, e1, e2]
    refine (congrArg (· >>= _) r1).trans ?_
    rw [bind_ok, r2.1, r2.2.1, r2.2.2.1]

/-- What an adjustment makes of the rocks `r`, for minerals `a`, porosity `φ`, effective rock pressure `eff`,
effective reference pressure `ref` and rock pressure `rk`. -/
inductive Adjustment.Gives (a : Fin n → Published.Rock) (φ eff ref rk : Fin n → ℝ) (r : Fin n → Published.Rock) :
    Adjustment n → (Fin n → Published.Rock) → Prop
  | moduliTrend (m : PDModel n) (t : Coef3 (ℝ → ℝ)) (ht : m.trends = some t) (hu : m.OfModuli)
      (he : m.Evaluable eff) (hr : m.Evaluable ref) (h : ∀ i, 1e-20 < |t.density (ref i)| ∧
        1e-20 < |t.primary (ref i)| ∧ 1e-20 < |t.secondary (ref i)|) :
      Gives a φ eff ref rk r (.pressureDependency m) fun i => Published.scaleModuli (r i)
        (t.density (eff i) / t.density (ref i)) (t.primary (eff i) / t.primary (ref i))
        (t.secondary (eff i) / t.secondary (ref i))
  | velocityTrend (m : PDModel n) (t : Coef3 (ℝ → ℝ)) (ht : m.trends = some t) (hu : ¬ m.OfModuli)
      (he : m.Evaluable eff) (hr : m.Evaluable ref) (h : ∀ i, 1e-20 < |t.density (ref i)| ∧
        1e-20 < |t.primary (ref i)| ∧ 1e-20 < |t.secondary (ref i)|)
      (h0 : ∀ i, 0 ≤ t.primary (eff i) / t.primary (ref i) ∧ 0 ≤ t.secondary (eff i) / t.secondary (ref i)) :
      Gives a φ eff ref rk r (.pressureDependency m) fun i => Published.scaleVelocities (r i)
        (t.density (eff i) / t.density (ref i)) (t.primary (eff i) / t.primary (ref i))
        (t.secondary (eff i) / t.secondary (ref i))
  | power (k : Coef3 (ℝ × ℝ)) (hp : ∀ i, 0 < rk i) (hr : ∀ i, 0 < ref i)
      (h : ∀ i, 1e-20 < ((r i).vp / (r i).vs + (Published.powerFit k.secondary (rk i)
        - Published.powerFit k.secondary (ref i))) ^ 2 - 4 / 3) :
      Gives a φ eff ref rk r (.pressureDependency (.powerfit k)) fun i =>
        Published.addPower (r i) k.density k.primary k.secondary (rk i) (ref i)
  | sand (m : PDModel n) (g : (Fin n → ℝ) → Fin n → Published.Rock) (hg : m.Sand a φ g) (he : ∀ i, 0 < eff i)
      (hr : ∀ i, 0 < ref i) (h : ∀ i, 1e-20 < (g ref i).ρ ∧ 1e-20 < (g ref i).K ∧ 1e-20 < (g ref i).G) :
      Gives a φ eff ref rk r (.pressureDependency m) fun i => Published.scaleModuli (r i)
        ((g eff i).ρ / (g ref i).ρ) ((g eff i).K / (g ref i).K) ((g eff i).G / (g ref i).G)
  | moduliDepth (z : Fin n → ℝ) (z0 : Option (Fin n → ℝ)) (mx : Option (Col n)) (kd kb ks : Coeffs) :
      Gives a φ eff ref rk r (.depthTrend ⟨finC z, z0.map finC, mx, true, ⟨kd, kb, ks⟩⟩) fun i =>
        surfaceModuli kd kb ks (r i) (z i - z0.elim 0 (· i))
  | velocityDepth (z : Fin n → ℝ) (z0 : Option (Fin n → ℝ)) (mx : Option (Col n)) (kd kp ks : Coeffs)
      (hp : ∀ i, 0 ≤ surface kp (r i).vp (z i - z0.elim 0 (· i)))
      (hs : ∀ i, 0 ≤ surface ks (r i).vs (z i - z0.elim 0 (· i))) :
      Gives a φ eff ref rk r (.depthTrend ⟨finC z, z0.map finC, mx, false, ⟨kd, kp, ks⟩⟩) fun i =>
        surfaceVelocities kd kp ks (r i) (z i - z0.elim 0 (· i))

theorem ratioDependency_rock {m : PDModel n} {r : Fin n → Published.Rock} {p q φ : Col n} {mineral : Mat n}
    {d p' s d0 p0 s0 : Fin n → ℝ} (he : m.eval p φ mineral = .ok ⟨finC d, finC p', finC s⟩)
    (hr : m.eval q φ mineral = .ok ⟨finC d0, finC p0, finC s0⟩)
    (h : ∀ i, 1e-20 < |d0 i| ∧ 1e-20 < |p0 i| ∧ 1e-20 < |s0 i|) :
    (m.OfModuli → (∀ i, (Published.scaleModuli (r i) (d i / d0 i) (p' i / p0 i) (s i / s0 i)).Valid) →
      ratioDependency m (Mat.rock r) p q φ mineral
        = .ok (Mat.rock fun i => Published.scaleModuli (r i) (d i / d0 i) (p' i / p0 i) (s i / s0 i))) ∧
    (¬ m.OfModuli → (∀ i, 0 ≤ p' i / p0 i ∧ 0 ≤ s i / s0 i) →
      (∀ i, (Published.scaleVelocities (r i) (d i / d0 i) (p' i / p0 i) (s i / s0 i)).Valid) →
      ratioDependency m (Mat.rock r) p q φ mineral
        = .ok (Mat.rock fun i => Published.scaleVelocities (r i) (d i / d0 i) (p' i / p0 i) (s i / s0 i))) := by
  have gf : GoodFit (n := n) ⟨finC d0, finC p0, finC s0⟩ d0 p0 s0 := ⟨rfl, rfl, rfl, h⟩
  have fr : ∀ x y y0 : Fin n → ℝ, (∀ i, 1e-20 < |y0 i|) →
      (finC x * (finC y / finC y0) : Col n) = finC fun i => x i * (y i / y0 i) :=
    fun x y y0 h => finC_ratio h x
  unfold ratioDependency
  rw [he, hr, bind_ok, bind_ok, failIf_false gf.check, bind_ok]
  refine ⟨fun hu hv => ?_, fun hu h0 hv => ?_⟩
  · rw [m.ofModuli_iff.mp hu, if_pos rfl]
    refine Eq.trans ?_ (mkModuli_rock hv)
    show mkModuli (finC _ * (finC p' / finC p0)) (finC _ * (finC s / finC s0)) (finC _ * (finC d / finC d0)) = _
    rw [fr _ _ _ fun i => (h i).1, fr _ _ _ fun i => (h i).2.1, fr _ _ _ fun i => (h i).2.2]
    rfl
  · rw [m.not_ofModuli_iff.mp hu, if_neg (by simp)]
    refine Eq.trans ?_ (mkVelocities_rock (fun i => ?_) (fun i => ?_) hv)
    · show mkVelocities (finC _ * (finC d / finC d0)) (finC _ * (finC p' / finC p0)) (finC _ * (finC s / finC s0)) = _
      rw [fr _ _ _ fun i => (h i).1, fr _ _ _ fun i => (h i).2.1, fr _ _ _ fun i => (h i).2.2]
      rfl
    · exact mul_nonneg (Real.sqrt_nonneg _) (h0 i).1
    · exact mul_nonneg (Real.sqrt_nonneg _) (h0 i).2

/-- The adjustment of the code makes that rock. -/
theorem Adjustment.Gives.adjust {a : Fin n → Published.Rock} {φ ob rf rk : Fin n → ℝ} {mx : Option (Fin n → ℝ)}
    {r r' : Fin n → Published.Rock} {adj : Adjustment n}
    (h : adj.Gives a φ (effectiveAt mx ob rk) (effectiveAt mx ob rf) rk r r') (ha : ∀ i, (a i).Valid)
    (hr : ∀ i, (r i).Valid) (hr' : ∀ i, (r' i).Valid) {pr : Pressure n} (hpr : pr.Is ob rf rk mx) :
    adj.adjust (Mat.rock r) pr (finC φ) (Mat.rock a) = .ok (Mat.rock r') := by
  have pos : ∀ x : ℝ, 1e-20 < x → 0 < x := fun x hx => lt_trans (by norm_num) hx
  have key : ∀ m : PDModel n, m.IsRatio → Adjustment.adjust (.pressureDependency m) (Mat.rock r) pr (finC φ) (Mat.rock a)
      = ratioDependency m (Mat.rock r) (finC (effectiveAt mx ob rk)) (finC (effectiveAt mx ob rf)) (finC φ)
        (Mat.rock a) := by
    intro m hm
    show OPE.pressureDependency _ _ _ _ _ = _
    unfold OPE.pressureDependency
    rw [hpr.truncatedRock, bind_ok, hpr.truncatedReference]
    cases m <;> first | rfl | exact hm.elim
  cases h with
  | moduliTrend m t ht hu he hre h =>
    rw [key m (by cases m <;> trivial)]
    exact (ratioDependency_rock (m.eval_trends ht he _ _) (m.eval_trends ht hre _ _) h).1 hu hr'
  | velocityTrend m t ht hu he hre h h0 =>
    rw [key m (by cases m <;> trivial)]
    exact (ratioDependency_rock (m.eval_trends ht he _ _) (m.eval_trends ht hre _ _) h).2 hu h0 hr'
  | power k hp hre h =>
    exact (C101_power k hpr (finC φ) (Mat.rock a) hp hre (fun i => (hr i).1.le) (fun i => (hr i).2.1)
      (fun i => (hr i).2.2)).2 h fun i => ⟨(hr' i).1.le, (hr' i).2.2⟩
  | sand m g hg he hre h =>
    rw [key m (by cases hg <;> trivial)]
    exact (ratioDependency_rock (hg.eval ha he).1 (hg.eval ha hre).1 (fun i => by
      obtain ⟨h1, h2, h3⟩ := h i
      rw [abs_of_pos (pos _ h1), abs_of_pos (pos _ h2), abs_of_pos (pos _ h3)]
      exact ⟨h1, h2, h3⟩)).1 (by cases hg <;> trivial) hr'
  | moduliDepth z z0 mx' kd kb ks =>
    have e : (DepthTrend.effectiveDepth ⟨finC z, z0.map finC, mx', true, ⟨kd, kb, ks⟩⟩ : Col n)
        = finC fun i => z i - z0.elim 0 (· i) := by
      cases z0 <;> funext i <;> simp [DepthTrend.effectiveDepth]
    show polyvalMaterial _ _ _ _ _ _ = _
    rw [e]
    exact polyval_moduli (Mat.rock_isRock hr) hr'
  | velocityDepth z z0 mx' kd kp ks hp hs =>
    have e : (DepthTrend.effectiveDepth ⟨finC z, z0.map finC, mx', false, ⟨kd, kp, ks⟩⟩ : Col n)
        = finC fun i => z i - z0.elim 0 (· i) := by
      cases z0 <;> funext i <;> simp [DepthTrend.effectiveDepth]
    show polyvalMaterial _ _ _ _ _ _ = _
    rw [e]
    exact polyval_velocities hp hs hr'

/-- What a list of adjustments makes of rocks: one after the other, all of them valid rocks. -/
inductive Adjusts (a : Fin n → Published.Rock) (φ eff ref rk : Fin n → ℝ) :
    List (Adjustment n) → (Fin n → Published.Rock) → (Fin n → Published.Rock) → Prop
  | nil (r : Fin n → Published.Rock) : Adjusts a φ eff ref rk [] r r
  | cons {adj : Adjustment n} {as : List (Adjustment n)} {r r' q : Fin n → Published.Rock}
      (h : adj.Gives a φ eff ref rk r r') (hv : ∀ i, (r' i).Valid) (t : Adjusts a φ eff ref rk as r' q) :
      Adjusts a φ eff ref rk (adj :: as) r q

theorem Adjusts.adjustAll {a : Fin n → Published.Rock} {φ ob rf rk : Fin n → ℝ} {mx : Option (Fin n → ℝ)}
    {r r' : Fin n → Published.Rock} {as : List (Adjustment n)}
    (h : Adjusts a φ (effectiveAt mx ob rk) (effectiveAt mx ob rf) rk as r r') (ha : ∀ i, (a i).Valid)
    (hr : ∀ i, (r i).Valid) {pr : Pressure n} (hpr : pr.Is ob rf rk mx) :
    OPE.adjustAll pr (finC φ) (Mat.rock a) as (Mat.rock r) = .ok (Mat.rock r') ∧ ∀ i, (r' i).Valid := by
  induction h with
  | nil r => exact ⟨rfl, hr⟩
  | cons h hv t ih =>
    obtain ⟨h1, h2⟩ := ih hv
    refine ⟨?_, h2⟩
    rw [OPE.adjustAll, h.adjust ha hr hv hpr, bind_ok, h1]

/-- The calculation, for every filling of the pore space. -/
theorem calculate_adjusted {co2 : CO2Model n} {s : Sections n}
    {x : Mat n × (Fin n → Published.Rock) × (Fin n → ℝ)} {L : RockList n} {ob rf rk P : Fin n → ℝ}
    {mx : Option (Fin n → ℝ)} (hs : s.Says x L ob rf rk P mx) (hx : x.1.Coherent) {T P' : Fin n → ℝ}
    {pores : List (Pore n)} (hp : s.Filled co2 T P pores P') {F : Fin n → Published.Fluid} (hF : s.Mixes pores F)
    {φ : Fin n → ℝ} (hφ : s.porosity = finC φ) {sand dry dense : Fin n → Published.Rock}
    (hmodel : s.sandModel.Gives (mineralAt x L) φ (effectiveAt mx ob rk) sand dense) (hv : ∀ i, (sand i).Valid)
    (hadj : Adjusts (mineralAt x L) φ (effectiveAt mx ob rk) (effectiveAt mx ob rf) rk s.adjustments sand dry)
    (hrow : ∀ i, 0 < φ i ∧ (dry i).K < (dense i).K ∧ (F i).K < (dense i).K) :
    calculate co2 s = .ok (tableOf (mineralAt x L) dry dense F φ) := by
  have ha : ∀ i, (mineralAt x L i).Valid := mineralAt_pos hs
  obtain ⟨d, d1, d2, d3, d4, d5⟩ := hmodel.material (rf := rf) ha hv s.adjustments
  refine calculate_filled hs hp hF hφ (hφ ▸ d1) (fun mineral pr h0 h1 h2 => ?_) hrow
  obtain rfl := (mineralMixture_coherent (x := (x.1, finC x.2.2)) hx h0).rock h1
  refine ⟨⟨Mat.rock dry, ?_, Mat.rock_isRock (hadj.adjustAll ha hv h2).2⟩, d5⟩
  unfold DryRock.material
  rw [h2.truncatedRock, bind_ok, d2]
  erw [d4]
  rw [bind_ok, d3]
  exact (hadj.adjustAll ha hv h2).1

/-- **C109.** For minerals given by moduli or velocities, pore fluids of any kind with Wood's or Brie's mixing,
every kind of dry rock and every list of adjustments (pressure dependencies of every kind, depth trends), the
result table is: minerals mixed one after the other; the dry rock of its model at porosity and effective rock
pressure; the adjustments applied in the order of the list; Gassmann's substitution. -/
theorem C109_all_dry_rocks_and_adjustments (co2 : CO2Model n) {s : Sections n}
    {x : Mat n × (Fin n → Published.Rock) × (Fin n → ℝ)} {L : RockList n} {ob rf rk P : Fin n → ℝ}
    {mx : Option (Fin n → ℝ)} (hs : s.Says x L ob rf rk P mx) (hx : x.1.Coherent) {T : Fin n → ℝ}
    {pores : List (Pore n)} (hp : s.Pores T P pores) {F : Fin n → Published.Fluid} (hF : s.Mixes pores F)
    {φ : Fin n → ℝ} (hφ : s.porosity = finC φ) {sand dry dense : Fin n → Published.Rock}
    (hmodel : s.sandModel.Gives (mineralAt x L) φ (effectiveAt mx ob rk) sand dense) (hv : ∀ i, (sand i).Valid)
    (hadj : Adjusts (mineralAt x L) φ (effectiveAt mx ob rk) (effectiveAt mx ob rf) rk s.adjustments sand dry)
    (hrow : ∀ i, 0 < φ i ∧ (dry i).K < (dense i).K ∧ (F i).K < (dense i).K) :
    calculate co2 s = .ok (tableOf (mineralAt x L) dry dense F φ) :=
  calculate_adjusted hs hx (hp.filled co2) hF hφ hmodel hv hadj hrow

end OPE
