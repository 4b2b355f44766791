import Verif.Model.HashinShtrikman
import Mathlib.Analysis.Real.Pi.Bounds

/-!
# material/sandstone/*.py
-/

namespace OPE

open Classical

variable {n : ℕ}

/-- Pointwise `x ** y` of numpy columns. -/
noncomputable def Col.pow (x y : Col n) : Col n := fun i => Num.pow (x i) (y i)

/-- Pointwise `x ** 2`. -/
noncomputable def Col.sq (x : Col n) : Col n := fun i => Num.powi (x i) 2

/-- hertz_mindlin.py:11-56 `hertz_mindlin` (argument order of the signature). -/
noncomputable def hertzMindlin (mineral : Mat n) (porosity pressure shearReduction
    coordinationNumber : Col n) : Except Err (Mat n) :=
  let v := mineral.poisson
  let mu := mineral.shear
  let n' := coordinationNumber
  let phi := porosity
  let p := pressure
  let a : Col n := Col.pow ((c 3 * c Real.pi * (c 1 - v) * p) / (c 2 * n' * (c 1 - phi) * mu))
    (c (1/3))
  let sn : Col n := (c 4 * a * mu) / (c 1 - v)
  let st : Col n := (c 8 * a * mu) / (c 2 - v)
  let kEff : Col n := (n' * (c 1 - phi) / (c 12 * c Real.pi)) * sn
  let muEff : Col n := (n' * (c 1 - phi) / (c 20 * c Real.pi)) *
    (sn + c 1.5 * st * shearReduction)
  mkModuli kEff muEff (mineral.density * (c 1 - porosity))

/-- friable_sand.py:10-51 `friable_sand`; the mix uses the default bound "lower". -/
noncomputable def friableSand (mineral : Mat n) (porosity criticalPorosity effectivePressure
    coordinationNumber shearReduction : Col n) : Except Err (Mat n) := do
  let critical ← hertzMindlin mineral criticalPorosity effectivePressure shearReduction
    coordinationNumber
  let fraction : Col n := c 1 - porosity / criticalPorosity
  hsw mineral critical fraction "lower"

/-- contact_cement.py:11-43 `shear_stiffness`. -/
noncomputable def shearStiffness (cementShear grainShear poiss alpha : Col n) : Col n :=
  let aat : Col n := cementShear / (c Real.pi * grainShear)
  let at_ : Col n := c (-1e-2) * (c 2.26 * poiss.sq + c 2.07 * poiss + c 2.3) *
    Col.pow aat (c 0.079 * poiss.sq + c 0.1754 * poiss - c 1.342)
  let bt : Col n := (c 0.0573 * poiss.sq + c 0.0937 * poiss + c 0.202) *
    Col.pow aat (c 0.0274 * poiss.sq + c 0.0529 * poiss - c 0.8765)
  let ct : Col n := c 1e-4 * (c 9.654 * poiss.sq + c 4.945 * poiss + c 3.1) *
    Col.pow aat (c 0.01867 * poiss.sq + c 0.4011 * poiss - c 1.8186)
  at_ * alpha.sq + bt * alpha + ct

/-- contact_cement.py:46-75 `normal_stiffness`. -/
noncomputable def normalStiffness (poiss poissC muCem muGr alpha : Col n) : Col n :=
  let aan : Col n := (c 2 * muCem / (c Real.pi * muGr)) *
    ((c 1 - poiss) * (c 1 - poissC) / (c 1 - c 2 * poissC))
  let cn : Col n := c 0.00024649 * Col.pow aan (c (-1.9864))
  let bn : Col n := c 0.20405 * Col.pow aan (c (-0.89008))
  let an : Col n := c (-0.024153) * Col.pow aan (c (-1.3646))
  an * alpha.sq + bn * alpha + cn

/-- The porosity checks of contact_cement.py:87-96 and, identically, :135-144. -/
noncomputable def checkPorosities (cemented grain : Col n) : Except Err Unit := do
  failIf ((∃ i, Num.fin 1 < grain i) ∨ (∃ i, grain i < Num.fin 0)) .valueError
  failIf ((∃ i, Num.fin 1 < cemented i) ∨ (∃ i, cemented i < Num.fin 0)) .valueError
  failIf (∃ i, grain i < cemented i) .valueError

/-- contact_cement.py:78-101 `cement_radius_ratio`.  Note the argument order of
`np.clip(0.0, 1.0, calculated_value)`: the clipped value is 0.0 with lower limit 1.0 and upper limit
`calculated_value`, i.e. `minimum(maximum(0, 1), calculated)`. -/
noncomputable def cementRadiusRatio (cemented grain : Col n) : Except Err (Col n) := do
  checkPorosities cemented grain
  let calculated : Col n := fun i => Num.sqrt
    (Num.fin 2 * (grain i - cemented i) / (Num.fin 3 * (Num.fin 1 - grain i)))
  .ok fun i => Num.clip (Num.fin 0) (Num.fin 1) (calculated i)

/-- contact_cement.py:104-178 `contact_cement`. -/
noncomputable def contactCement (cement mineral : Mat n) (cementedPorosity sandPorosity
    shearReduction coordinationNumber : Col n) : Except Err (Mat n) := do
  checkPorosities cementedPorosity sandPorosity
  let alpha ← cementRadiusRatio cementedPorosity sandPorosity
  let st := shearStiffness cement.shear mineral.shear mineral.poisson alpha
  let sn := normalStiffness mineral.poisson cement.poisson cement.shear mineral.shear alpha
  let kEff : Col n := c (1/6) * coordinationNumber * (c 1 - sandPorosity) * cement.pModulus * sn
  let muEff : Col n := c (3/5) * kEff +
    shearReduction * c (3/20) * coordinationNumber * (c 1 - sandPorosity) * cement.shear * st
  mkModuli kEff muEff
    ((c 1 - cementedPorosity) * (alpha * cement.density + (c 1 - alpha) * mineral.density))

/-- constant_cement.py:10-59 `constant_cement`. -/
noncomputable def constantCement (sand cement : Mat n) (porosity contactCementPorosity sandPorosity
    coordinationNumber shearReduction : Col n) : Except Err (Mat n) := do
  let dense ← hsw cement sand (sandPorosity - contactCementPorosity) "lower"
  let cc ← contactCement cement sand contactCementPorosity sandPorosity shearReduction
    coordinationNumber
  let fraction : Col n := c 1 - porosity / contactCementPorosity
  hsw dense cc fraction "lower"

/-- patchy_cement.py:102-112: the weight of the cemented bound for one modulus, clipped to [0, 1];
1 where upper and lower bound coincide.  (All four columns have `n` rows here; what numpy does when
their shapes differ is modelled in `Verif/Model/Shapes.lean`.) -/
noncomputable def patchyWeight (con low up : Col n) : Col n := fun i =>
  Num.clip (if Num.eq (up i) (low i) then Num.fin 1 else (con i - low i) / (up i - low i))
    (Num.fin 0) (Num.fin 1)

/-- patchy_cement.py:15-122 `patchy_cement`. -/
noncomputable def patchyCement (sand cement : Mat n) (porosity contactCementPorosity
    upperBoundPorosity pressure lowerBoundPressure criticalPorosity shearReduction
    friableCoordinationNumber cementCoordinationNumber : Col n) : Except Err (Mat n) := do
  let dense ← hsw cement sand (criticalPorosity - upperBoundPorosity) "lower"
  let friable ← friableSand dense porosity criticalPorosity pressure friableCoordinationNumber
    shearReduction
  let lower ← friableSand dense porosity criticalPorosity lowerBoundPressure
    friableCoordinationNumber shearReduction
  let upper ← constantCement sand cement porosity upperBoundPorosity criticalPorosity
    cementCoordinationNumber shearReduction
  let contact ← contactCement cement sand contactCementPorosity criticalPorosity shearReduction
    cementCoordinationNumber
  let constant ← hsw dense contact (c 1 - porosity / contactCementPorosity) "lower"
  let wk := patchyWeight constant.bulk lower.bulk upper.bulk
  let wmu := patchyWeight constant.shear lower.shear upper.shear
  let cementFraction : Col n := criticalPorosity - contactCementPorosity
  let kps : Col n := friable.bulk + wk * (upper.bulk - friable.bulk)
  let mups : Col n := friable.shear + wmu * (upper.shear - friable.shear)
  let rps : Col n := (c 1 - porosity - cementFraction) * sand.density
    + cementFraction * cement.density
  mkModuli kps mups rps

/-- murphy_coordination_number.py:1-11. -/
noncomputable def murphyCoordinationNumber (porosity : Col n) : Col n :=
  c 25.98805 * porosity.sq - c 43.7622 * porosity + c 21.6719

/-! ## Evaluation on finite numbers -/

/-- Poisson ratio of real moduli. -/
noncomputable def nuR (K G : ℝ) : ℝ := (3 * K - 2 * G) / (2 * (3 * K + G))

theorem nuR_lt (K G : ℝ) (hK : 0 < K) (hG : 0 < G) : nuR K G < 1/2 ∧ -1 < nuR K G := by
  unfold nuR
  constructor
  · rw [div_lt_iff₀ (by positivity)]; linarith
  · rw [lt_div_iff₀ (by positivity)]; linarith

theorem poisson_fin {m : Mat n} {K G R : Fin n → ℝ} (h : m.Has K G R) (hK : ∀ i, 0 < K i)
    (hG : ∀ i, 0 < G i) : m.poisson = finC fun i => nuR (K i) (G i) := by
  funext i
  have : 2 * (3 * K i + G i) ≠ 0 := by have := hK i; have := hG i; positivity
  simp [Mat.poisson, h.1, h.2.1, this, nuR]

/-- Contact radius ratio of Hertz–Mindlin. -/
noncomputable def hmA (K G φ p n : ℝ) : ℝ :=
  (3 * Real.pi * (1 - nuR K G) * p / (2 * n * (1 - φ) * G)) ^ ((1:ℝ)/3)

/-- Effective Hertz–Mindlin bulk modulus. -/
noncomputable def hmK (K G φ p n : ℝ) : ℝ :=
  n * (1 - φ) / (12 * Real.pi) * (4 * hmA K G φ p n * G / (1 - nuR K G))

/-- Effective Hertz–Mindlin shear modulus. -/
noncomputable def hmG (K G φ p n sr : ℝ) : ℝ :=
  n * (1 - φ) / (20 * Real.pi) * (4 * hmA K G φ p n * G / (1 - nuR K G)
    + 1.5 * (8 * hmA K G φ p n * G / (2 - nuR K G)) * sr)

theorem hmA_factor {K G φ p n : ℝ} (hK : 0 < K) (hG : 0 < G) (hφ : φ < 1) (hn : 0 < n)
    (hp : 0 ≤ p) : hmA K G φ p n = hmA K G φ 1 n * p ^ ((1:ℝ)/3) ∧ 0 < hmA K G φ 1 n := by
  have h1 : 0 < 1 - nuR K G := by have := (nuR_lt K G hK hG).1; linarith
  have h2 : 0 < 1 - φ := by linarith
  have hb : 0 < 3 * Real.pi * (1 - nuR K G) * 1 / (2 * n * (1 - φ) * G) := by
    have := Real.pi_pos; positivity
  unfold hmA
  constructor
  · rw [← Real.mul_rpow hb.le hp]; congr 1; ring
  · exact Real.rpow_pos_of_pos hb _

theorem hmK_factor {K G φ p n : ℝ} (hK : 0 < K) (hG : 0 < G) (hφ : φ < 1) (hn : 0 < n)
    (hp : 0 ≤ p) : hmK K G φ p n = hmK K G φ 1 n * p ^ ((1:ℝ)/3) ∧ 0 < hmK K G φ 1 n := by
  obtain ⟨h1, h2⟩ := hmA_factor hK hG hφ hn hp
  have h3 : 0 < 1 - nuR K G := by have := (nuR_lt K G hK hG).1; linarith
  have h4 : 0 < 1 - φ := by linarith
  have := Real.pi_pos
  unfold hmK
  rw [h1]
  constructor
  · ring
  · positivity

theorem hmG_factor {K G φ p n sr : ℝ} (hK : 0 < K) (hG : 0 < G) (hφ : φ < 1) (hn : 0 < n)
    (hp : 0 ≤ p) (hs : 0 ≤ sr) :
    hmG K G φ p n sr = hmG K G φ 1 n sr * p ^ ((1:ℝ)/3) ∧ 0 < hmG K G φ 1 n sr := by
  obtain ⟨h1, h2⟩ := hmA_factor hK hG hφ hn hp
  have h3 : 0 < 1 - nuR K G := by have := (nuR_lt K G hK hG).1; linarith
  have h3' : 0 < 2 - nuR K G := by linarith
  have h4 : 0 < 1 - φ := by linarith
  have := Real.pi_pos
  unfold hmG
  rw [h1]
  constructor
  · ring
  · positivity

theorem hertzMindlin_fin {m : Mat n} {K G R φ p sr N : Fin n → ℝ} (h : m.Has K G R)
    (hK : ∀ i, 0 < K i) (hG : ∀ i, 0 < G i) (hR : ∀ i, 0 < R i) (hφ : ∀ i, φ i < 1)
    (hp : ∀ i, 0 ≤ p i) (hs : ∀ i, 0 ≤ sr i) (hN : ∀ i, 0 < N i) :
    hertzMindlin m (finC φ) (finC p) (finC sr) (finC N) = .ok (Mat.ofReal
      (fun i => hmK (K i) (G i) (φ i) (p i) (N i))
      (fun i => hmG (K i) (G i) (φ i) (p i) (N i) (sr i))
      (fun i => R i * (1 - φ i))) := by
  have hpow : ∀ i, 0 ≤ 3 * Real.pi * (1 - nuR (K i) (G i)) * p i / (2 * N i * (1 - φ i) * G i) := by
    intro i
    have h1 : 0 < 1 - nuR (K i) (G i) := by have := (nuR_lt _ _ (hK i) (hG i)).1; linarith
    have h2 : 0 < 1 - φ i := by linarith [hφ i]
    have := hG i; have := hN i; have := hp i; have := Real.pi_pos
    positivity
  have k0 : ∀ i, 0 ≤ hmK (K i) (G i) (φ i) (p i) (N i) := fun i => by
    obtain ⟨e, q⟩ := hmK_factor (hK i) (hG i) (hφ i) (hN i) (hp i)
    rw [e]; exact mul_nonneg q.le (Real.rpow_nonneg (hp i) _)
  have g0 : ∀ i, 0 ≤ hmG (K i) (G i) (φ i) (p i) (N i) (sr i) := fun i => by
    obtain ⟨e, q⟩ := hmG_factor (hK i) (hG i) (hφ i) (hN i) (hp i) (hs i)
    rw [e]; exact mul_nonneg q.le (Real.rpow_nonneg (hp i) _)
  unfold hertzMindlin
  rw [← mkModuli_ofReal k0 g0 (fun i => mul_pos (hR i) (by linarith [hφ i]))]
  simp only [poisson_fin h hK hG, h.2.1, h.2.2]
  have ne1 : ∀ i, 2 * N i * (1 - φ i) * G i ≠ 0 := fun i => by
    have h2 : 0 < 1 - φ i := by linarith [hφ i]
    have := hG i; have := hN i; positivity
  have ne2 : ∀ i, 1 - nuR (K i) (G i) ≠ 0 := fun i => by
    have := (nuR_lt _ _ (hK i) (hG i)).1; linarith
  have ne3 : ∀ i, 2 - nuR (K i) (G i) ≠ 0 := fun i => by
    have := (nuR_lt _ _ (hK i) (hG i)).1; linarith
  have pi0 := Real.pi_pos
  have ne4 : (12 * Real.pi) ≠ 0 := by positivity
  have ne5 : (20 * Real.pi) ≠ 0 := by positivity
  have hA : ∀ i, Num.pow (Num.fin (3 * Real.pi * (1 - nuR (K i) (G i)) * p i
      / (2 * N i * (1 - φ i) * G i))) (Num.fin (1/3)) = Num.fin (hmA (K i) (G i) (φ i) (p i) (N i)) :=
    fun i => Num.fin_pow_nonneg (hpow i) (by norm_num)
  congr 1
  · funext i
    simp only [Pi.mul_apply, Pi.div_apply, Pi.sub_apply, finC_apply, c_apply, Num.fin_sub,
      Num.fin_mul, Num.fin_div _ ne4, Col.pow, Num.fin_div _ (ne1 i), hA i, Num.fin_div _ (ne2 i),
      hmK]
  · funext i
    simp only [Pi.mul_apply, Pi.div_apply, Pi.sub_apply, Pi.add_apply, finC_apply, c_apply,
      Num.fin_sub, Num.fin_add, Num.fin_mul, Num.fin_div _ ne5, Col.pow, Num.fin_div _ (ne1 i), hA i,
      Num.fin_div _ (ne2 i), Num.fin_div _ (ne3 i), hmG]

/-- Bulk modulus of friable sand. -/
noncomputable def frK (K G φ φc p n sr : ℝ) : ℝ :=
  hsReal K (hmK K G φc p n) (4/3 * min G (hmG K G φc p n sr)) (1 - φ / φc)

/-- Shear modulus of friable sand. -/
noncomputable def frG (K G φ φc p n sr : ℝ) : ℝ :=
  hsReal G (hmG K G φc p n sr) (zShear (min K (hmK K G φc p n)) (min G (hmG K G φc p n sr)))
    (1 - φ / φc)

end OPE
