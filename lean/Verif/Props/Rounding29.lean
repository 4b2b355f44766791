import Verif.Props.Rounding24
import Verif.Props.Rounding26
import Verif.Props.Rounding28
import Verif.Props.Rounding30

/-!
# C189: a whole row with computed brine, oil and gas in double arithmetic
-/

namespace OPE

open Classical

variable {fl : ℝ → ℝ} {pw : ℝ → ℝ → ℝ} {ex : ℝ → ℝ}

/-- What a pore fluid is given by: bulk modulus and density; temperature, pressure and salinity of brine; temperature, pressure and
reference density of oil without gas; of oil also gas-oil ratio and gas gravity; temperature, pressure and gravity of gas. -/
inductive ReservoirFluid where
  | given (F : Published.Fluid)
  | brine (T P S : ℝ)
  | deadOil (T P R : ℝ)
  | oil (T P r R G : ℝ)
  | gas (T P G : ℝ)

/-- Dead oil by the published formulas. -/
noncomputable def deadOilFluid (T P R : ℝ) : Published.Fluid :=
  ⟨1000 * Published.deadOilDensity T (P * 1e-6) (R / 1000) * Published.oilVelocity T (P * 1e-6) (R / 1000) ^ 2,
    1000 * Published.deadOilDensity T (P * 1e-6) (R / 1000)⟩

/-- The published fluid. -/
noncomputable def ReservoirFluid.exact : ReservoirFluid → Published.Fluid
  | .given F => F
  | .brine T P S => Published.brine T P S
  | .deadOil T P R => deadOilFluid T P R
  | .oil T P r R G => Published.oil T P r R G
  | .gas T P G => Published.gas T P G

/-- Bulk modulus and density as computed in double arithmetic. -/
noncomputable def ReservoirFluid.computed (fl : ℝ → ℝ) (pw : ℝ → ℝ → ℝ) (ex : ℝ → ℝ) : ReservoirFluid → ℝ × ℝ
  | .given F => (F.K, F.ρ)
  | .brine T P S => Double.brine fl T P S
  | .deadOil T P R => Double.deadOil fl pw T P R
  | .oil T P r R G => Double.oil fl pw T P r R G
  | .gas T P G => Double.gas fl pw ex T P G

/-- In the range of the correlations. -/
def ReservoirFluid.InRange : ReservoirFluid → Prop
  | .given F => 0 < F.K ∧ 0 < F.ρ
  | .brine T P S => (0 ≤ T ∧ T ≤ 350) ∧ (0 ≤ P ∧ P ≤ 100e6) ∧ (0 ≤ S ∧ S ≤ 300000)
  | .deadOil T P R => (0 ≤ T ∧ T ≤ 250) ∧ (0 < P ∧ P ≤ 100e6) ∧ (700 ≤ R ∧ R ≤ 1000)
  | .oil T P r R G => (0 ≤ T ∧ T ≤ 150) ∧ (0 < P ∧ P ≤ 100e6) ∧ (700 ≤ r ∧ r ≤ 1000) ∧ (0 ≤ R ∧ R ≤ 300) ∧ (0.55 ≤ G ∧ G ≤ 1)
  | .gas T P G => (0 ≤ T ∧ T ≤ 300) ∧ (0.1e6 ≤ P ∧ P ≤ 100e6) ∧ (0.55 ≤ G ∧ G ≤ 1)

/-- How far the computed fluid may be off, in units of `2⁻⁵³`. -/
def ReservoirFluid.error : ReservoirFluid → ℕ
  | .given _ => 0
  | .brine _ _ _ => 200000
  | .deadOil _ _ _ => 20000
  | .oil _ _ _ _ _ => 4000000
  | .gas _ _ _ => 1000000000

/-- The fluids and saturations of a row, published. -/
noncomputable def exactReservoir (L : List (ReservoirFluid × ℝ)) : List (Published.Fluid × ℝ) := L.map fun x => (x.1.exact, x.2)

/-- The fluids and saturations of a row, computed. -/
noncomputable def computedReservoir (fl : ℝ → ℝ) (pw : ℝ → ℝ → ℝ) (ex : ℝ → ℝ) (L : List (ReservoirFluid × ℝ)) : List (ℝ × ℝ × ℝ) :=
  L.map fun x => ((x.1.computed fl pw ex).1, (x.1.computed fl pw ex).2, x.2)

theorem deadOil_near (hf : RoundsToNearest fl) (hp : PowerAccurate pw) {T P R : ℝ} (hT : 0 ≤ T ∧ T ≤ 250)
    (hP : 0 < P ∧ P ≤ 100e6) (hR : 700 ≤ R ∧ R ≤ 1000) : 0 < (deadOilFluid T P R).K ∧ 0 < (deadOilFluid T P R).ρ ∧
    Near 20000 (deadOilFluid T P R).K (Double.deadOil fl pw T P R).1 ∧
    Near 20000 (deadOilFluid T P R).ρ (Double.deadOil fl pw T P R).2 := by
  obtain ⟨a, b⟩ := Double.C187_deadOil hf hp hT hP hR
  have hp0 : 0 < P * 1e-6 := mul_pos hP.1 (by norm_num)
  have hp1 : P * 1e-6 ≤ 100 := by have := hP.2; norm_num at this ⊢; linarith
  have hr0 : 0.7 ≤ R / 1000 := by have := hR.1; norm_num; linarith
  have hr1 : R / 1000 ≤ 1 := by linarith [hR.2]
  have np : Near 2 (P * 1e-6) (fl (P * fl 1e-6)) :=
    ((Near.refl 0 hP.1.le).mul (Near.fl0 hf (by norm_num : (0:ℝ) ≤ 1e-6))).fl hf
  have nr : Near 1 (R / 1000) (fl (R / 1000)) := Near.fl0 hf (by linarith [hR.1])
  have d0 := (Double.pressureAdjusted_near hf hp hp0 hp1 hr0 hr1 np nr).2
  have d1 : 0 < Published.deadOilDensity T (P * 1e-6) (R / 1000) := by
    unfold Published.deadOilDensity
    have : 0 < T + 17.78 := by linarith [hT.1]
    have := Real.rpow_pos_of_pos this 1.175
    exact div_pos (lt_of_lt_of_le (by norm_num) d0) (by positivity)
  have v1 : 0 < Published.oilVelocity T (P * 1e-6) (R / 1000) :=
    lt_of_lt_of_le (by norm_num) (Double.oilVelocity_ge hT.1 hT.2 hp0 hr0 hr1)
  have p2 : 0 < (deadOilFluid T P R).ρ := by show 0 < 1000 * _; positivity
  have p1 : 0 < (deadOilFluid T P R).K := mul_pos p2 (pow_pos v1 2)
  refine ⟨p1, p2, Near.of_relative p1.le b ?_ ?_ (by norm_num), Near.of_relative p2.le a ?_ ?_ (by norm_num)⟩ <;>
    · unfold unit; norm_num

theorem oil_near (hf : RoundsToNearest fl) (hp : PowerAccurate pw) {T P r R G : ℝ} (hT : 0 ≤ T ∧ T ≤ 150)
    (hP : 0 < P ∧ P ≤ 100e6) (hr : 700 ≤ r ∧ r ≤ 1000) (hR : 0 ≤ R ∧ R ≤ 300) (hG : 0.55 ≤ G ∧ G ≤ 1) :
    0 < (Published.oil T P r R G).K ∧ 0 < (Published.oil T P r R G).ρ ∧
    Near 4000000 (Published.oil T P r R G).K (Double.oil fl pw T P r R G).1 ∧
    Near 4000000 (Published.oil T P r R G).ρ (Double.oil fl pw T P r R G).2 := by
  obtain ⟨a, b⟩ := Double.C190_oil hf hp hT hP hr hR hG
  obtain ⟨-, -, v, hK, v0, ρ0, -⟩ := Double.oil_parts hf hp hT hP hr hR hG
  have hv : 0 < v := lt_of_lt_of_le (by norm_num) v0
  have p2 : 0 < (Published.oil T P r R G).ρ := lt_of_lt_of_le (by norm_num) ρ0
  have p1 : 0 < (Published.oil T P r R G).K := by rw [hK]; positivity
  refine ⟨p1, p2, Near.of_relative p1.le b ?_ ?_ (by norm_num), Near.of_relative p2.le a ?_ ?_ (by norm_num)⟩ <;>
    · unfold unit; norm_num

theorem gas_near (hf : RoundsToNearest fl) (hp : PowerAccurate pw) (he : ExpAccurate ex) {T P G : ℝ} (hT : 0 ≤ T ∧ T ≤ 300)
    (hP : 0.1e6 ≤ P ∧ P ≤ 100e6) (hG : 0.55 ≤ G ∧ G ≤ 1) : 0 < (Published.gas T P G).K ∧ 0 < (Published.gas T P G).ρ ∧
    Near 1000000000 (Published.gas T P G).K (Double.gas fl pw ex T P G).1 ∧
    Near 1000000000 (Published.gas T P G).ρ (Double.gas fl pw ex T P G).2 := by
  obtain ⟨a, b⟩ := Double.C188_gas hf hp he hT hP hG
  have P0 : 0 < P := lt_of_lt_of_le (by norm_num) hP.1
  have g0 : 0 < G := lt_of_lt_of_le (by norm_num) hG.1
  have hP' : 0.1 ≤ P * 1e-6 ∧ P * 1e-6 ≤ 100 := by
    obtain ⟨h1, h2⟩ := hP
    constructor <;> norm_num at h1 h2 ⊢ <;> linarith
  have p0 : 0 < P * 1e-6 := by positivity
  have T0 : 0 < T + 273.15 := by linarith [hT.1]
  have nP : Near 2 (P * 1e-6) (fl (P * fl 1e-6)) :=
    ((Near.refl 0 P0.le).mul (Near.fl0 hf (by norm_num : (0:ℝ) ≤ 1e-6))).fl hf
  obtain ⟨⟨t1, t2⟩, ⟨q1, q2⟩, -, -⟩ := Double.gas_reduced hf hT hP' hG nP
  have hpp : 0 < Published.gasPpr (P * 1e-6) G := lt_of_lt_of_le (by norm_num) q1
  obtain ⟨z0, -, -, hD⟩ := Double.gas_bounds t1 t2 hpp q2
  have zp : 0 < Published.gasZ (Published.gasTpr (T + 273.15) G) (Published.gasPpr (P * 1e-6) G) :=
    lt_of_lt_of_le (by norm_num) z0
  have gp : 0 < Published.gasGamma (Published.gasPpr (P * 1e-6) G) :=
    lt_of_lt_of_le (by norm_num) (Double.gamma_ge hpp.le)
  have p2 : 0 < (Published.gas T P G).ρ := by
    show 0 < 1e6 * (P * 1e-6) * (28.8e-3 * G) / (8.314462618 * (T + 273.15)
        * Published.gasZ (Published.gasTpr (T + 273.15) G) (Published.gasPpr (P * 1e-6) G))
    positivity
  have p1 : 0 < (Published.gas T P G).K := by
    show 0 < 1e6 * (P * 1e-6 / (1 - Published.gasPpr (P * 1e-6) G
        / Published.gasZ (Published.gasTpr (T + 273.15) G) (Published.gasPpr (P * 1e-6) G)
        * deriv (Published.gasZ (Published.gasTpr (T + 273.15) G)) (Published.gasPpr (P * 1e-6) G))
        * Published.gasGamma (Published.gasPpr (P * 1e-6) G))
    have : 0 < 1 - Published.gasPpr (P * 1e-6) G
        / Published.gasZ (Published.gasTpr (T + 273.15) G) (Published.gasPpr (P * 1e-6) G)
        * deriv (Published.gasZ (Published.gasTpr (T + 273.15) G)) (Published.gasPpr (P * 1e-6) G) := by
      refine lt_of_lt_of_le (by norm_num) (hD.trans (le_of_eq ?_))
      rw [div_eq_mul_inv]; ring
    positivity
  refine ⟨p1, p2, Near.of_relative p1.le b ?_ ?_ (by norm_num), Near.of_relative p2.le a ?_ ?_ (by norm_num)⟩ <;>
    · unfold unit; norm_num

theorem ReservoirFluid.near (hf : RoundsToNearest fl) (hp : PowerAccurate pw) (he : ExpAccurate ex) :
    ∀ {x : ReservoirFluid}, x.InRange →
    0 < x.exact.K ∧ 0 < x.exact.ρ ∧ Near x.error x.exact.K (x.computed fl pw ex).1 ∧ Near x.error x.exact.ρ (x.computed fl pw ex).2
  | .given _, h => ⟨h.1, h.2, Near.refl _ h.1.le, Near.refl _ h.2.le⟩
  | .brine _ _ _, h => brine_near hf h.1 h.2.1 h.2.2
  | .deadOil _ _ _, h => deadOil_near hf hp h.1 h.2.1 h.2.2
  | .oil _ _ _ _ _, h => oil_near hf hp h.1 h.2.1 h.2.2.1 h.2.2.2.1 h.2.2.2.2
  | .gas _ _ _, h => gas_near hf hp he h.1 h.2.1 h.2.2

/-- Wood's law of fluids that carry errors. -/
theorem wood_reservoir (hf : RoundsToNearest fl) (hp : PowerAccurate pw) (he : ExpAccurate ex) {E : ℕ} {L : List (ReservoirFluid × ℝ)} (hL : ∀ x ∈ L, x.1.InRange)
    (hE : ∀ x ∈ L, x.1.error ≤ E) (hs : ∀ x ∈ L, 0 ≤ x.2) (ht : 2e-15 ≤ (L.map fun x => x.2).sum) (hn : L.length ≤ 1000000) :
    (0 < (Published.wood (exactReservoir L)).K ∧ 0 < (Published.wood (exactReservoir L)).ρ) ∧
    Near (E + 3 + 2 * L.length) (Published.wood (exactReservoir L)).K (Double.wood fl (computedReservoir fl pw ex L)).1 ∧
    Near (E + 3 + 2 * L.length) (Published.wood (exactReservoir L)).ρ (Double.wood fl (computedReservoir fl pw ex L)).2 := by
  -- the computed fluids taken as exact
  set L' : List (Published.Fluid × ℝ) := L.map fun x => (⟨(x.1.computed fl pw ex).1, (x.1.computed fl pw ex).2⟩, x.2) with hL'
  have hr : rowsOf L' = computedReservoir fl pw ex L := by
    simp only [rowsOf, computedReservoir, hL', List.map_map]; rfl
  have hsat : (L'.map fun x => x.2) = L.map fun x => x.2 := by simp only [hL', List.map_map]; rfl
  have hsat' : ((exactReservoir L).map fun x => x.2) = L.map fun x => x.2 := by
    simp only [exactReservoir, List.map_map]; rfl
  have hlen : L'.length = L.length := by simp [hL']
  have near : ∀ x ∈ L, 0 < x.1.exact.K ∧ 0 < x.1.exact.ρ ∧ Near E x.1.exact.K (x.1.computed fl pw ex).1 ∧
      Near E x.1.exact.ρ (x.1.computed fl pw ex).2 := fun x hx =>
    have h := ReservoirFluid.near hf hp he (hL x hx)
    ⟨h.1, h.2.1, h.2.2.1.mono (hE x hx), h.2.2.2.mono (hE x hx)⟩
  have hq : ∀ x ∈ L', 0 ≤ x.2 ∧ 0 < x.1.K ∧ 0 < x.1.ρ := by
    intro x hx
    obtain ⟨y, hy, rfl⟩ := List.mem_map.mp hx
    obtain ⟨a, b, u, v⟩ := near y hy
    exact ⟨hs y hy, u.pos a, v.pos b⟩
  obtain ⟨w1, w2, n1, n2⟩ := wood_near hf L' (fun x hx => (hq x hx).1) (by rw [hsat]; exact ht)
    (fun x hx => (hq x hx).2.1) (fun x hx => (hq x hx).2.2) (by rw [hlen]; omega)
  rw [hr, hlen] at n1 n2
  have hS0 : 0 < (L.map fun x => x.2).sum := lt_of_lt_of_le (by norm_num) ht
  -- the effect of the errors of the fluids
  have eK : Near E ((exactReservoir L).map fun x => x.2 / (L.map fun x => x.2).sum / x.1.K).sum
      (L'.map fun x => x.2 / (L.map fun x => x.2).sum / x.1.K).sum := by
    simp only [exactReservoir, hL', List.map_map]
    refine near_exact_sum fun x hx => ?_
    obtain ⟨a, -, u, -⟩ := near x hx
    have := (Near.refl 0 (div_nonneg (hs x hx) hS0.le)).div u a
    simpa using this
  have eρ : Near E ((exactReservoir L).map fun x => x.2 / (L.map fun x => x.2).sum * x.1.ρ).sum
      (L'.map fun x => x.2 / (L.map fun x => x.2).sum * x.1.ρ).sum := by
    simp only [exactReservoir, hL', List.map_map]
    refine near_exact_sum fun x hx => ?_
    obtain ⟨-, b, -, v⟩ := near x hx
    have := (Near.refl 0 (div_nonneg (hs x hx) hS0.le)).mul v
    simpa using this
  have k1 : (Published.wood (exactReservoir L)).K
      = ((exactReservoir L).map fun x => x.2 / (L.map fun x => x.2).sum / x.1.K).sum⁻¹ := by
    unfold Published.wood; rw [hsat']
  have k2 : (Published.wood L').K = (L'.map fun x => x.2 / (L.map fun x => x.2).sum / x.1.K).sum⁻¹ := by
    unfold Published.wood; rw [hsat]
  have k3 : (Published.wood (exactReservoir L)).ρ
      = ((exactReservoir L).map fun x => x.2 / (L.map fun x => x.2).sum * x.1.ρ).sum := by
    unfold Published.wood; rw [hsat']
  have k4 : (Published.wood L').ρ = (L'.map fun x => x.2 / (L.map fun x => x.2).sum * x.1.ρ).sum := by
    unfold Published.wood; rw [hsat]
  have s1 : 0 < ((exactReservoir L).map fun x => x.2 / (L.map fun x => x.2).sum / x.1.K).sum := by
    refine eK.symm.pos ?_
    rw [k2] at w1
    exact inv_pos.mp w1
  refine ⟨⟨by rw [k1]; exact inv_pos.mpr s1, ?_⟩, ?_, ?_⟩
  · rw [k3]; refine eρ.symm.pos ?_; rw [← k4]; exact w2
  · rw [k2] at n1
    rw [k1]
    exact ((eK.inv s1).trans n1).mono (by omega)
  · rw [k4] at n2
    rw [k3]
    exact (eρ.trans n2).mono (by omega)

/-- **C189.** A friable sand of mixed minerals filled with fluids that are given or computed from conditions, in double arithmetic;
`E` bounds the errors of the fluids. -/
theorem C189_row (hfl : RoundsToNearest fl) (hp : PowerAccurate pw) (he : ExpAccurate ex) {R S m n E : ℕ}
    -- minerals
    (a : Published.Rock) (t : ℝ) (M : List (Published.Rock × ℝ)) (hm : M.length = m) (ht : 0 ≤ t) (hd : IsDouble t)
    (hf : ∀ x ∈ M, 0 ≤ x.2) (hpos : ∀ x ∈ a :: M.map (fun x => x.1), 0 < x.K ∧ 0 < x.G ∧ 0 < x.ρ)
    (hratio : WithinRatio R (a :: M.map fun x => x.1)) (hR2 : R ≤ 500) (hm2 : m ≤ 50)
    -- fluids
    (L : List (ReservoirFluid × ℝ)) (hn : L.length = n) (hs : ∀ x ∈ L, 0 ≤ x.2) (hS : 2e-15 ≤ (L.map fun x => x.2).sum)
    (hL : ∀ x ∈ L, x.1.InRange) (hE : ∀ x ∈ L, x.1.error ≤ E) (hE2 : E ≤ 2 ^ 42) (hn2 : n ≤ 1000000)
    -- friable sand
    {φ φc P C f : ℝ} (hφ : 0 < φ) (hφ1 : φ ≤ φc) (hc : φc < 1) (hC : 0 < C) (hf0 : 0 ≤ f)
    (hP : Sensible (Published.addMinerals a t M).G φc P C)
    (hpack : WithinRatio S [Published.addMinerals a t M, Published.hertzMindlin (Published.addMinerals a t M) φc P C f])
    (hS2 : S ≤ 100000)
    (hKd : (Published.friableSand (Published.addMinerals a t M) φ φc P C f).K ≤ 0.99 * (Published.addMinerals a t M).K)
    (hKf : (Published.wood (exactReservoir L)).K ≤ 0.99 * (Published.addMinerals a t M).K) :
    let dry := Published.friableSand (Published.addMinerals a t M) φ φc P C f
    let K := Published.gassmann dry.K (Published.addMinerals a t M).K (Published.wood (exactReservoir L)).K φ
    let ρ := dry.ρ + φ * (Published.wood (exactReservoir L)).ρ
    let D : ℕ := 6 * (1672 * m ^ 2 * R ^ 2) + 78 + 1672 * S ^ 2
    let B : ℕ := E + 3 + 2 * n
    let mineral := Double.mixLoop fl pw (tri a) t (M.map fun x => (tri x.1, x.2))
    ∃ k g ρ' vp vs, Double.saturate fl pw (Double.friableSand fl pw mineral φ φc P C f) mineral.1
        (Double.wood fl (computedReservoir fl pw ex L)) φ = some (k, g, ρ', vp, vs) ∧
      Accurate (D + B + 9) K k ∧ Accurate D dry.G g ∧ Accurate (D + B + 2) ρ ρ' ∧
      Accurate (2 * D + 2 * B + 16) (Real.sqrt ((K + 4 / 3 * dry.G) / ρ)) vp ∧
      Accurate (2 * D + B + 6) (Real.sqrt (dry.G / ρ)) vs := by
  intro dry K ρ D B mineral
  obtain ⟨nM, hMp, -⟩ := minerals_near hfl hp a t M hm ht hd hf hpos hratio (by omega) (by omega)
  have hJ : 1672 * m ^ 2 * R ^ 2 ≤ 1672 * 50 ^ 2 * 500 ^ 2 := by gcongr
  have hS' : 1672 * S ^ 2 ≤ 1672 * 100000 ^ 2 := by gcongr
  have hDb : D ≤ 2 ^ 44 + 2 ^ 43 := by
    show 6 * (1672 * m ^ 2 * R ^ 2) + 78 + 1672 * S ^ 2 ≤ _
    omega
  have hBb : B ≤ 2 ^ 43 := by
    show E + 3 + 2 * n ≤ _
    omega
  have hJD : 1672 * m ^ 2 * R ^ 2 ≤ D := by
    show _ ≤ 6 * (1672 * m ^ 2 * R ^ 2) + 78 + 1672 * S ^ 2
    omega
  obtain ⟨nd, pd⟩ := friable_near hfl hp hMp nM hφ.le hφ1 (by linarith) hc hC hf0 hP hpack (by show D ≤ _; omega)
  obtain ⟨pF, n1, n2⟩ := wood_reservoir hfl hp he hL hE hs hS (by omega)
  rw [hn] at n1 n2
  obtain ⟨k, ρ', vp, vs, h1, h2, h3, h4, h5⟩ := saturate_near hfl hp (D := D) (B := B) pd pF hMp.1 hφ (by linarith) nd
    (nM.1.mono hJD) n1 n2 (by omega) hKd hKf
  exact ⟨k, _, ρ', vp, vs, h1, h2, nd.2.1.accurate (by omega), h3, h4, h5⟩


/-- Quartz sand of porosity 0.2 filled with brine, oil and gas at 75 °C and 20 MPa, and a little of another fluid. -/
example (hf : RoundsToNearest fl) (hp : PowerAccurate pw) (he : ExpAccurate ex) :
    let L : List (ReservoirFluid × ℝ) := [(.brine 75 20e6 45000, 0.5), (.oil 75 20e6 865 120 0.7, 0.125), (.gas 75 20e6 0.6, 0.125), (.given ⟨5e7, 200⟩, 0.25)]
    let dry := Published.friableSand roundQuartz 0.2 0.4 20e6 9 0.5
    ∃ k g ρ vp vs, Double.saturate fl pw (Double.friableSand fl pw (tri roundQuartz) 0.2 0.4 20e6 9 0.5) 37e9
        (Double.wood fl (computedReservoir fl pw ex L)) 0.2 = some (k, g, ρ, vp, vs) ∧
      Accurate 2e9 (Published.gassmann dry.K 37e9 (Published.wood (exactReservoir L)).K 0.2) k := by
  intro L dry
  have hsoft : dry.K ≤ 0.99 * 37e9 := by
    obtain ⟨h1, h2, h3, h4⟩ := roundPack
    have hz : 0 ≤ 4 / 3 * min roundQuartz.G (Published.hertzMindlin roundQuartz 0.4 20e6 9 0.5).G :=
      mul_nonneg (by norm_num) (le_min (by norm_num [roundQuartz]) (by linarith))
    have := (hs_variational (x1 := 37e9) (x2 := (Published.hertzMindlin roundQuartz 0.4 20e6 9 0.5).K) (f := 1 - 0.2 / 0.4)
      (by norm_num) (by linarith) hz (by norm_num) (by norm_num)).1 1 1 (by norm_num)
    have h5 : dry.K = Published.hashinShtrikman 37e9 (Published.hertzMindlin roundQuartz 0.4 20e6 9 0.5).K (1 - 0.2 / 0.4)
      (4 / 3 * min roundQuartz.G (Published.hertzMindlin roundQuartz 0.4 20e6 9 0.5).G) := rfl
    rw [h5]
    refine this.trans ?_
    norm_num at *
    linarith
  have hin : ∀ x ∈ L, x.1.InRange := by
    intro x hx
    simp only [L, List.mem_cons, List.not_mem_nil, or_false] at hx
    rcases hx with rfl | rfl | rfl | rfl
    · exact ⟨by norm_num, by norm_num, by norm_num⟩
    · exact ⟨by norm_num, by norm_num, by norm_num, by norm_num, by norm_num⟩
    · exact ⟨by norm_num, by norm_num, by norm_num⟩
    · exact ⟨by norm_num, by norm_num⟩
  have hwood : (Published.wood (exactReservoir L)).K ≤ 1e9 := by
    have hb := (brine_near hf (T := 75) (P := 20e6) (S := 45000) (by norm_num) (by norm_num) (by norm_num)).1
    have ho := (oil_near hf hp (T := 75) (P := 20e6) (r := 865) (R := 120) (G := 0.7) (by norm_num) (by norm_num) (by norm_num)
      (by norm_num) (by norm_num)).1
    have hg := (gas_near hf hp he (T := 75) (P := 20e6) (G := 0.6) (by norm_num) (by norm_num) (by norm_num)).1
    have e : (Published.wood (exactReservoir L)).K
        = (0.5 / (0.5 + (0.125 + (0.125 + (0.25 + 0)))) / (Published.brine 75 20e6 45000).K
          + (0.125 / (0.5 + (0.125 + (0.125 + (0.25 + 0)))) / (Published.oil 75 20e6 865 120 0.7).K
          + (0.125 / (0.5 + (0.125 + (0.125 + (0.25 + 0)))) / (Published.gas 75 20e6 0.6).K
          + (0.25 / (0.5 + (0.125 + (0.125 + (0.25 + 0)))) / 5e7 + 0))))⁻¹ := rfl
    rw [e]
    apply inv_le_of_inv_le₀ (by norm_num)
    have h1 : 0 ≤ 0.5 / (0.5 + (0.125 + (0.125 + (0.25 + 0)))) / (Published.brine 75 20e6 45000).K := div_nonneg (by norm_num) hb.le
    have h2 : 0 ≤ 0.125 / (0.5 + (0.125 + (0.125 + (0.25 + 0)))) / (Published.oil 75 20e6 865 120 0.7).K := div_nonneg (by norm_num) ho.le
    have h3 : 0 ≤ 0.125 / (0.5 + (0.125 + (0.125 + (0.25 + 0)))) / (Published.gas 75 20e6 0.6).K := div_nonneg (by norm_num) hg.le
    have h4 : (1e9:ℝ)⁻¹ ≤ 0.25 / (0.5 + (0.125 + (0.125 + (0.25 + 0)))) / 5e7 := by norm_num
    linarith
  obtain ⟨k, g, ρ, vp, vs, h1, h2, -⟩ := C189_row hf hp he (E := 1000000000) (R := 1) (S := 500) (m := 0) (n := 4) roundQuartz 1 [] rfl
    (by norm_num) ⟨1, 0, by norm_num, by norm_num⟩ (by simp) (by norm_num [roundQuartz])
    (by unfold WithinRatio; simp) (by norm_num) (by norm_num) L rfl
    (by norm_num [L]) (by norm_num [L]) hin (by simp [L, ReservoirFluid.error]) (by norm_num) (by norm_num)
    (φ := 0.2) (φc := 0.4) (P := 20e6) (C := 9) (f := 0.5) (by norm_num) (by norm_num) (by norm_num) (by norm_num) (by norm_num)
    (by norm_num [Sensible, roundQuartz, Published.addMinerals]) roundPack_ratio (by norm_num) hsoft
    (hwood.trans (by norm_num [Published.addMinerals, roundQuartz]))
  exact ⟨k, g, ρ, vp, vs, h1, h2.mono (by norm_num)⟩

end OPE
