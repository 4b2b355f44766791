import Verif.Props.Rounding29
import Verif.Props.Rounding20

/-!
# C191: a whole row with Brie's mixture of computed liquids and gases in double arithmetic
-/

namespace OPE

open Classical

variable {fl : ℝ → ℝ} {pw : ℝ → ℝ → ℝ} {ex : ℝ → ℝ}

/-- The computed fluids taken as exact. -/
noncomputable def asExact (fl : ℝ → ℝ) (pw : ℝ → ℝ → ℝ) (ex : ℝ → ℝ) (L : List (ReservoirFluid × ℝ)) : List (Published.Fluid × ℝ) :=
  L.map fun x => (⟨(x.1.computed fl pw ex).1, (x.1.computed fl pw ex).2⟩, x.2)

/-- The effect of the fluids' errors on Wood's law. -/
theorem wood_effect (hf : RoundsToNearest fl) (hp : PowerAccurate pw) (he : ExpAccurate ex) {E : ℕ} {L : List (ReservoirFluid × ℝ)}
    (hL : ∀ x ∈ L, x.1.InRange) (hE : ∀ x ∈ L, x.1.error ≤ E) (hs : ∀ x ∈ L, 0 ≤ x.2) (ht : 2e-15 ≤ (L.map fun x => x.2).sum)
    (hn : L.length ≤ 1000000) :
    (∀ x ∈ asExact fl pw ex L, 0 ≤ x.2 ∧ 0 < x.1.K ∧ 0 < x.1.ρ) ∧
    (0 < (Published.wood (exactReservoir L)).K ∧ 0 < (Published.wood (exactReservoir L)).ρ) ∧
    Near E (Published.wood (exactReservoir L)).K (Published.wood (asExact fl pw ex L)).K ∧
    Near E (Published.wood (exactReservoir L)).ρ (Published.wood (asExact fl pw ex L)).ρ := by
  -- the computed fluids taken as exact
  set L' : List (Published.Fluid × ℝ) := asExact fl pw ex L with hL'0
  have hL' : L' = L.map fun x => (⟨(x.1.computed fl pw ex).1, (x.1.computed fl pw ex).2⟩, x.2) := rfl
  have hsat : (L'.map fun x => x.2) = L.map fun x => x.2 := by simp only [hL', List.map_map]; rfl
  have hsat' : ((exactReservoir L).map fun x => x.2) = L.map fun x => x.2 := by
    simp only [exactReservoir, List.map_map]; rfl
  have hlen : L'.length = L.length := by simp [hL']
  have near : ∀ x ∈ L, 0 < x.1.exact.K ∧ 0 < x.1.exact.ρ ∧ Near E x.1.exact.K (x.1.computed fl pw ex).1 ∧
      Near E x.1.exact.ρ (x.1.computed fl pw ex).2 := fun x hx =>
    have h := ReservoirFluid.near hf hp he (hL x hx)
    ⟨h.1, h.2.1, h.2.2.1.mono (hE x hx), h.2.2.2.mono (hE x hx)⟩
  have hq : ∀ x ∈ L', 0 ≤ x.2 ∧ 0 < x.1.K ∧ 0 < x.1.ρ := by
    intro x hx
    obtain ⟨y, hy, rfl⟩ := List.mem_map.mp hx
    obtain ⟨a, b, u, v⟩ := near y hy
    exact ⟨hs y hy, u.pos a, v.pos b⟩
  obtain ⟨w1, w2, n1, n2⟩ := wood_near hf L' (fun x hx => (hq x hx).1) (by rw [hsat]; exact ht)
    (fun x hx => (hq x hx).2.1) (fun x hx => (hq x hx).2.2) (by rw [hlen]; omega)
  have hS0 : 0 < (L.map fun x => x.2).sum := lt_of_lt_of_le (by norm_num) ht
  -- the effect of the errors of the fluids
  have eK : Near E ((exactReservoir L).map fun x => x.2 / (L.map fun x => x.2).sum / x.1.K).sum
      (L'.map fun x => x.2 / (L.map fun x => x.2).sum / x.1.K).sum := by
    simp only [exactReservoir, hL', List.map_map]
    refine near_exact_sum fun x hx => ?_
    obtain ⟨a, -, u, -⟩ := near x hx
    have := (Near.refl 0 (div_nonneg (hs x hx) hS0.le)).div u a
    simpa using this
  have eρ : Near E ((exactReservoir L).map fun x => x.2 / (L.map fun x => x.2).sum * x.1.ρ).sum
      (L'.map fun x => x.2 / (L.map fun x => x.2).sum * x.1.ρ).sum := by
    simp only [exactReservoir, hL', List.map_map]
    refine near_exact_sum fun x hx => ?_
    obtain ⟨-, b, -, v⟩ := near x hx
    have := (Near.refl 0 (div_nonneg (hs x hx) hS0.le)).mul v
    simpa using this
  have k1 : (Published.wood (exactReservoir L)).K
      = ((exactReservoir L).map fun x => x.2 / (L.map fun x => x.2).sum / x.1.K).sum⁻¹ := by
    unfold Published.wood; rw [hsat']
  have k2 : (Published.wood L').K = (L'.map fun x => x.2 / (L.map fun x => x.2).sum / x.1.K).sum⁻¹ := by
    unfold Published.wood; rw [hsat]
  have k3 : (Published.wood (exactReservoir L)).ρ
      = ((exactReservoir L).map fun x => x.2 / (L.map fun x => x.2).sum * x.1.ρ).sum := by
    unfold Published.wood; rw [hsat']
  have k4 : (Published.wood L').ρ = (L'.map fun x => x.2 / (L.map fun x => x.2).sum * x.1.ρ).sum := by
    unfold Published.wood; rw [hsat]
  have s1 : 0 < ((exactReservoir L).map fun x => x.2 / (L.map fun x => x.2).sum / x.1.K).sum := by
    refine eK.symm.pos ?_
    rw [k2] at w1
    exact inv_pos.mp w1
  refine ⟨hq, ⟨by rw [k1]; exact inv_pos.mpr s1, ?_⟩, ?_, ?_⟩
  · rw [k3]; refine eρ.symm.pos ?_; rw [← k4]; exact w2
  · rw [k1, k2]
    exact eK.inv s1
  · rw [k3, k4]
    exact eρ

/-- Less than 1 in 100 apart is more than the errors. -/
theorem gap_kept {E : ℕ} (hE : E ≤ 2 ^ 42) {x y x' y' : ℝ} (h : x ≤ 0.99 * y) (nx : Near E x x') (ny : Near E y y') : x' ≤ y' := by
  have a := nx.accurate (hE.trans (by norm_num))
  have b := ny.accurate (hE.trans (by norm_num))
  unfold Accurate at a b
  rw [abs_of_nonneg nx.1] at a
  rw [abs_of_nonneg ny.1] at b
  have hE' : (E:ℝ) ≤ 2 ^ 42 := by exact_mod_cast hE
  have c : (E:ℝ) / 2 ^ 52 ≤ 1 / 1000 := by rw [div_le_iff₀ (by positivity)]; exact hE'.trans (by norm_num)
  have a1 := (abs_le.mp a).2
  have b1 := (abs_le.mp b).1
  have a2 := mul_le_mul_of_nonneg_right c nx.1
  have b2 := mul_le_mul_of_nonneg_right c ny.1
  have := ny.1
  norm_num at *
  linarith

/-- Brie's law of fluids that carry errors. -/
theorem brie_reservoir (hfl : RoundsToNearest fl) (hp : PowerAccurate pw) (he : ExpAccurate ex) {E : ℕ}
    {L G : List (ReservoirFluid × ℝ)} {e : ℝ} {n m : ℕ} (hB : BrieInput (exactReservoir L) (exactReservoir G) e n m)
    (hin : ∀ x ∈ L ++ G, x.1.InRange) (hE : ∀ x ∈ L ++ G, x.1.error ≤ E) (hE2 : E ≤ 2 ^ 42)
    (hst : (Published.wood (exactReservoir G)).K ≤ 0.99 * (Published.wood (exactReservoir L)).K)
    (hde : (Published.wood (exactReservoir G)).ρ ≤ 0.99 * (Published.wood (exactReservoir L)).ρ) :
    (0 < (Published.brie (exactReservoir L) (exactReservoir G) e).K ∧ 0 < (Published.brie (exactReservoir L) (exactReservoir G) e).ρ) ∧
    Near (E + 16 * n * (m + 1) + 48) (Published.brie (exactReservoir L) (exactReservoir G) e).K
      (Double.brie fl pw (computedReservoir fl pw ex L) (computedReservoir fl pw ex G) e).1 ∧
    Near (E + 16 * n * (m + 1) + 48) (Published.brie (exactReservoir L) (exactReservoir G) e).ρ
      (Double.brie fl pw (computedReservoir fl pw ex L) (computedReservoir fl pw ex G) e).2 := by
  have sat : ∀ M : List (ReservoirFluid × ℝ), ((exactReservoir M).map fun x => x.2) = M.map fun x => x.2 := fun M => by
    simp only [exactReservoir, List.map_map]; rfl
  have sat' : ∀ M : List (ReservoirFluid × ℝ), ((asExact fl pw ex M).map fun x => x.2) = M.map fun x => x.2 := fun M => by
    simp only [asExact, List.map_map]; rfl
  have rows : ∀ M : List (ReservoirFluid × ℝ), rowsOf (asExact fl pw ex M) = computedReservoir fl pw ex M := fun M => by
    simp only [rowsOf, computedReservoir, asExact, List.map_map]; rfl
  have len : ∀ M : List (ReservoirFluid × ℝ), (exactReservoir M).length = M.length := fun M => by simp [exactReservoir]
  have len' : ∀ M : List (ReservoirFluid × ℝ), (asExact fl pw ex M).length = M.length := fun M => by simp [asExact]
  have pos : ∀ x ∈ L ++ G, 0 ≤ x.2 := fun x hx => by
    refine (hB.positive (x.1.exact, x.2) ?_).1
    rw [← show exactReservoir (L ++ G) = exactReservoir L ++ exactReservoir G from List.map_append]
    exact List.mem_map.mpr ⟨x, hx, rfl⟩
  have lq := hB.liquid
  have gs := hB.gas
  have tt := hB.total
  rw [sat] at lq gs tt
  have n1 := hB.liquids
  have n2 := hB.gases
  rw [len] at n1 n2
  have n3 := hB.few
  obtain ⟨pl, ⟨wl1, wl2⟩, el1, el2⟩ := wood_effect hfl hp he (E := E) (fun x hx => hin x (List.mem_append_left _ hx))
    (fun x hx => hE x (List.mem_append_left _ hx)) (fun x hx => pos x (List.mem_append_left _ hx)) lq (by omega)
  obtain ⟨pg, ⟨wg1, wg2⟩, eg1, eg2⟩ := wood_effect hfl hp he (E := E) (fun x hx => hin x (List.mem_append_right _ hx))
    (fun x hx => hE x (List.mem_append_right _ hx)) (fun x hx => pos x (List.mem_append_right _ hx)) gs (by omega)
  have hB' : BrieInput (asExact fl pw ex L) (asExact fl pw ex G) e n m :=
    { liquids := by rw [len']; exact n1
      gases := by rw [len']; exact n2
      few := n3
      exponent := hB.exponent
      positive := fun x hx => by
        rcases List.mem_append.mp hx with h | h
        · exact pl x h
        · exact pg x h
      liquid := by rw [sat']; exact lq
      gas := by rw [sat']; exact gs
      total := by rw [sat']; exact tt
      stiffer := gap_kept hE2 hst eg1 el1
      denser := gap_kept hE2 hde eg2 el2 }
  obtain ⟨⟨b1, b2⟩, -, c1, c2⟩ := brie_near hfl hp hB'
  rw [rows, rows] at c1 c2
  -- the effect of the errors on Brie's law
  have hS0 : 0 < (L.map fun x => x.2).sum := lt_of_lt_of_le (by norm_num) lq
  have a0 : 0 ≤ ((L.map fun x => x.2).sum : ℝ) ^ e := Real.rpow_nonneg hS0.le e
  have a1 : ((L.map fun x => x.2).sum : ℝ) ^ e ≤ 1 := Real.rpow_le_one hS0.le tt hB.exponent.1
  have bK : ∀ M N : List (Published.Fluid × ℝ), (Published.brie M N e).K =
      (Published.wood M).K * ((M.map fun x => x.2).sum : ℝ) ^ e
        + (Published.wood N).K * (1 - ((M.map fun x => x.2).sum : ℝ) ^ e) := fun M N => by
    show ((Published.wood M).K - (Published.wood N).K) * ((M.map fun x => x.2).sum : ℝ) ^ e + (Published.wood N).K = _
    ring
  have bρ : ∀ M N : List (Published.Fluid × ℝ), (Published.brie M N e).ρ =
      (Published.wood M).ρ * (M.map fun x => x.2).sum + (Published.wood N).ρ * (1 - (M.map fun x => x.2).sum) := fun M N => by
    show (M.map fun x => x.2).sum * (Published.wood M).ρ + (1 - (M.map fun x => x.2).sum) * (Published.wood N).ρ = _
    ring
  have d1 : Near E (Published.brie (exactReservoir L) (exactReservoir G) e).K (Published.brie (asExact fl pw ex L) (asExact fl pw ex G) e).K := by
    rw [bK, bK, sat, sat']
    have := (el1.mul (Near.refl 0 a0)).add (eg1.mul (Near.refl 0 (sub_nonneg.mpr a1)))
    simpa using this
  have d2 : Near E (Published.brie (exactReservoir L) (exactReservoir G) e).ρ (Published.brie (asExact fl pw ex L) (asExact fl pw ex G) e).ρ := by
    rw [bρ, bρ, sat, sat']
    have := (el2.mul (Near.refl 0 hS0.le)).add (eg2.mul (Near.refl 0 (sub_nonneg.mpr tt)))
    simpa using this
  refine ⟨⟨d1.symm.pos b1, d2.symm.pos b2⟩, ?_, ?_⟩
  · exact (d1.trans c1).mono (by omega)
  · exact (d2.trans c2).mono (by omega)

/-- **C191.** A friable sand of mixed minerals filled with Brie's mixture of liquids and gases that are given or computed from
conditions, in double arithmetic; `E` bounds the errors of the fluids. -/
theorem C191_row (hfl : RoundsToNearest fl) (hp : PowerAccurate pw) (he : ExpAccurate ex) {R S m n q E : ℕ}
    -- minerals
    (a : Published.Rock) (t : ℝ) (M : List (Published.Rock × ℝ)) (hm : M.length = m) (ht : 0 ≤ t) (hd : IsDouble t)
    (hf : ∀ x ∈ M, 0 ≤ x.2) (hpos : ∀ x ∈ a :: M.map (fun x => x.1), 0 < x.K ∧ 0 < x.G ∧ 0 < x.ρ)
    (hratio : WithinRatio R (a :: M.map fun x => x.1)) (hR2 : R ≤ 500) (hm2 : m ≤ 50)
    -- fluids
    (L G : List (ReservoirFluid × ℝ)) {e : ℝ} (hB : BrieInput (exactReservoir L) (exactReservoir G) e n q)
    (hin : ∀ x ∈ L ++ G, x.1.InRange) (hE : ∀ x ∈ L ++ G, x.1.error ≤ E) (hE2 : E ≤ 2 ^ 42)
    (hst : (Published.wood (exactReservoir G)).K ≤ 0.99 * (Published.wood (exactReservoir L)).K)
    (hde : (Published.wood (exactReservoir G)).ρ ≤ 0.99 * (Published.wood (exactReservoir L)).ρ)
    -- friable sand
    {φ φc P C f : ℝ} (hφ : 0 < φ) (hφ1 : φ ≤ φc) (hc : φc < 1) (hC : 0 < C) (hf0 : 0 ≤ f)
    (hP : Sensible (Published.addMinerals a t M).G φc P C)
    (hpack : WithinRatio S [Published.addMinerals a t M, Published.hertzMindlin (Published.addMinerals a t M) φc P C f])
    (hS2 : S ≤ 100000)
    (hKd : (Published.friableSand (Published.addMinerals a t M) φ φc P C f).K ≤ 0.99 * (Published.addMinerals a t M).K)
    (hKf : (Published.brie (exactReservoir L) (exactReservoir G) e).K ≤ 0.99 * (Published.addMinerals a t M).K) :
    let dry := Published.friableSand (Published.addMinerals a t M) φ φc P C f
    let K := Published.gassmann dry.K (Published.addMinerals a t M).K (Published.brie (exactReservoir L) (exactReservoir G) e).K φ
    let ρ := dry.ρ + φ * (Published.brie (exactReservoir L) (exactReservoir G) e).ρ
    let D : ℕ := 6 * (1672 * m ^ 2 * R ^ 2) + 78 + 1672 * S ^ 2
    let B : ℕ := E + 16 * n * (q + 1) + 48
    let mineral := Double.mixLoop fl pw (tri a) t (M.map fun x => (tri x.1, x.2))
    ∃ k g ρ' vp vs, Double.saturate fl pw (Double.friableSand fl pw mineral φ φc P C f) mineral.1
        (Double.brie fl pw (computedReservoir fl pw ex L)
        (computedReservoir fl pw ex G) e) φ = some (k, g, ρ', vp, vs) ∧
      Accurate (D + B + 9) K k ∧ Accurate D dry.G g ∧ Accurate (D + B + 2) ρ ρ' ∧
      Accurate (2 * D + 2 * B + 16) (Real.sqrt ((K + 4 / 3 * dry.G) / ρ)) vp ∧
      Accurate (2 * D + B + 6) (Real.sqrt (dry.G / ρ)) vs := by
  intro dry K ρ D B mineral
  obtain ⟨nM, hMp, -⟩ := minerals_near hfl hp a t M hm ht hd hf hpos hratio (by omega) (by omega)
  have hJ : 1672 * m ^ 2 * R ^ 2 ≤ 1672 * 50 ^ 2 * 500 ^ 2 := by gcongr
  have hS' : 1672 * S ^ 2 ≤ 1672 * 100000 ^ 2 := by gcongr
  have hDb : D ≤ 2 ^ 44 + 2 ^ 43 := by
    show 6 * (1672 * m ^ 2 * R ^ 2) + 78 + 1672 * S ^ 2 ≤ _
    omega
  have hnm : n * (q + 1) ≤ 1000 * 1001 := Nat.mul_le_mul hB.few (by have := hB.exponent.2.2; omega)
  have hBb : B ≤ 2 ^ 43 := by
    show E + 16 * n * (q + 1) + 48 ≤ _
    rw [mul_assoc]; omega
  have hJD : 1672 * m ^ 2 * R ^ 2 ≤ D := by
    show _ ≤ 6 * (1672 * m ^ 2 * R ^ 2) + 78 + 1672 * S ^ 2
    omega
  obtain ⟨nd, pd⟩ := friable_near hfl hp hMp nM hφ.le hφ1 (by linarith) hc hC hf0 hP hpack (by show D ≤ _; omega)
  obtain ⟨pF, n1, n2⟩ := brie_reservoir hfl hp he hB hin hE hE2 hst hde
  obtain ⟨k, ρ', vp, vs, h1, h2, h3, h4, h5⟩ := saturate_near hfl hp (D := D) (B := B) pd pF hMp.1 hφ (by linarith) nd
    (nM.1.mono hJD) n1 n2 (by omega) hKd hKf
  exact ⟨k, _, ρ', vp, vs, h1, h2, by exact_mod_cast nd.2.1.accurate (by show D ≤ _; omega), h3, h4, h5⟩

theorem brine_example : 6e2 ≤ (Published.brine 75 20e6 45000).ρ ∧ 2.4e7 ≤ (Published.brine 75 20e6 45000).K ∧
    (Published.brine 75 20e6 45000).K ≤ 2e10 := by
  have d : (Published.brine 75 20e6 45000).ρ = 1000 * Published.brineDensity 75 20 0.045 := by
    show 1000 * Published.brineDensity 75 (20e6 * 1e-6) (45000 * 1e-6) = _; norm_num
  have k : (Published.brine 75 20e6 45000).K = 1000 * Published.brineDensity 75 20 0.045 * Published.brineVelocity 75 20 0.045 ^ 2 := by
    show 1000 * Published.brineDensity 75 (20e6 * 1e-6) (45000 * 1e-6) * Published.brineVelocity 75 (20e6 * 1e-6) (45000 * 1e-6) ^ 2 = _
    norm_num
  obtain ⟨r0, v0⟩ := Double.brine_bounds (T := 75) (P := 20) (S := 0.045) (by norm_num) (by norm_num) (by norm_num)
  have r1 : Published.brineDensity 75 20 0.045 ≤ 2 := by
    unfold Published.brineDensity Published.waterDensity; norm_num
  have s1 : (0.045:ℝ) ^ (1.5:ℝ) ≤ 0.045 := by
    have := Real.rpow_le_rpow_of_exponent_ge (x := 0.045) (by norm_num) (by norm_num) (show (1:ℝ) ≤ 1.5 by norm_num)
    rwa [Real.rpow_one] at this
  have v1 : Published.brineVelocity 75 20 0.045 ≤ 3000 := by
    unfold Published.brineVelocity Published.waterVelocity
    norm_num at s1 ⊢; linarith
  rw [d, k]
  refine ⟨by linarith, ?_, ?_⟩
  · have := mul_le_mul r0 (pow_le_pow_left₀ (by norm_num) v0 2) (by norm_num) (le_trans (by norm_num) r0)
    norm_num at this ⊢; linarith
  · have := mul_le_mul r1 (pow_le_pow_left₀ (le_trans (by norm_num) v0) v1 2) (by positivity) (by norm_num)
    norm_num at this ⊢; linarith

theorem gas_example : (Published.gas 75 0.1e6 0.6).ρ ≤ 500 ∧ (Published.gas 75 0.1e6 0.6).K ≤ 2.1e7 := by
  have q0 : 0 < Published.gasPpr (0.1e6 * 1e-6) 0.6 := by unfold Published.gasPpr; norm_num
  obtain ⟨z0, -, -, hD⟩ := Double.gas_bounds (t := Published.gasTpr (75 + 273.15) 0.6) (p := Published.gasPpr (0.1e6 * 1e-6) 0.6)
    (by unfold Published.gasTpr; norm_num) (by unfold Published.gasTpr; norm_num) q0 (by unfold Published.gasPpr; norm_num)
  have zp := lt_of_lt_of_le (by norm_num : (0:ℝ) < 0.13) z0
  constructor
  · show 1e6 * (0.1e6 * 1e-6) * (28.8e-3 * 0.6) / (8.314462618 * (75 + 273.15) * Published.gasZ _ _) ≤ 500
    rw [div_le_iff₀ (by positivity)]
    norm_num at z0 ⊢
    linarith
  · have γ : Published.gasGamma (Published.gasPpr (0.1e6 * 1e-6) 0.6) ≤ 6 := by
      unfold Published.gasGamma
      have h1 := Real.exp_pos (-0.65 * (Published.gasPpr (0.1e6 * 1e-6) 0.6 + 1))
      have h2 : 5.6 / (Published.gasPpr (0.1e6 * 1e-6) 0.6 + 2) ≤ 2.8 := by
        rw [div_le_iff₀ (by linarith)]; norm_num at q0 ⊢; linarith
      have h3 : 27.1 / (Published.gasPpr (0.1e6 * 1e-6) 0.6 + 3.5) ^ 2 ≤ 2.3 := by
        rw [div_le_iff₀ (by positivity)]; norm_num at q0 ⊢; nlinarith
      norm_num at *; linarith
    have D : 0.03 ≤ 1 - Published.gasPpr (0.1e6 * 1e-6) 0.6
        / Published.gasZ (Published.gasTpr (75 + 273.15) 0.6) (Published.gasPpr (0.1e6 * 1e-6) 0.6)
        * deriv (Published.gasZ (Published.gasTpr (75 + 273.15) 0.6)) (Published.gasPpr (0.1e6 * 1e-6) 0.6) := by
      refine hD.trans (le_of_eq ?_)
      rw [div_eq_mul_inv]; ring
    have γ0 : 0 ≤ Published.gasGamma (Published.gasPpr (0.1e6 * 1e-6) 0.6) := le_trans (by norm_num) (Double.gamma_ge q0.le)
    show 1e6 * (0.1e6 * 1e-6 / _ * Published.gasGamma (Published.gasPpr (0.1e6 * 1e-6) 0.6)) ≤ 2.1e7
    have h : 0.1e6 * 1e-6 / (1 - Published.gasPpr (0.1e6 * 1e-6) 0.6
        / Published.gasZ (Published.gasTpr (75 + 273.15) 0.6) (Published.gasPpr (0.1e6 * 1e-6) 0.6)
        * deriv (Published.gasZ (Published.gasTpr (75 + 273.15) 0.6)) (Published.gasPpr (0.1e6 * 1e-6) 0.6)) ≤ 0.1e6 * 1e-6 / 0.03 :=
      div_le_div_of_nonneg_left (by norm_num) (by norm_num) D
    have := mul_le_mul h γ γ0 (by norm_num)
    norm_num at this ⊢
    linarith

theorem wood_single (F : Published.Fluid) {s : ℝ} (hs : s ≠ 0) : Published.wood [(F, s)] = F := by
  unfold Published.wood
  simp [hs]

/-- Quartz sand of porosity 0.2 with brine of 75 °C, 20 MPa and 45000 ppm and gas of 75 °C and 0.1 MPa, mixed by Brie's law. -/
example (hf : RoundsToNearest fl) (hp : PowerAccurate pw) (he : ExpAccurate ex) :
    let L : List (ReservoirFluid × ℝ) := [(.brine 75 20e6 45000, 0.75)]
    let G : List (ReservoirFluid × ℝ) := [(.gas 75 0.1e6 0.6, 0.25)]
    let dry := Published.friableSand roundQuartz 0.2 0.4 20e6 9 0.5
    ∃ k g ρ vp vs, Double.saturate fl pw (Double.friableSand fl pw (tri roundQuartz) 0.2 0.4 20e6 9 0.5) 37e9
        (Double.brie fl pw (computedReservoir fl pw ex L) (computedReservoir fl pw ex G) 3) 0.2 = some (k, g, ρ, vp, vs) ∧
      Accurate 2e9 (Published.gassmann dry.K 37e9 (Published.brie (exactReservoir L) (exactReservoir G) 3).K 0.2) k := by
  intro L G dry
  have hsoft : dry.K ≤ 0.99 * 37e9 := by
    obtain ⟨h1, h2, h3, h4⟩ := roundPack
    have hz : 0 ≤ 4 / 3 * min roundQuartz.G (Published.hertzMindlin roundQuartz 0.4 20e6 9 0.5).G :=
      mul_nonneg (by norm_num) (le_min (by norm_num [roundQuartz]) (by linarith))
    have := (hs_variational (x1 := 37e9) (x2 := (Published.hertzMindlin roundQuartz 0.4 20e6 9 0.5).K) (f := 1 - 0.2 / 0.4)
      (by norm_num) (by linarith) hz (by norm_num) (by norm_num)).1 1 1 (by norm_num)
    have h5 : dry.K = Published.hashinShtrikman 37e9 (Published.hertzMindlin roundQuartz 0.4 20e6 9 0.5).K (1 - 0.2 / 0.4)
      (4 / 3 * min roundQuartz.G (Published.hertzMindlin roundQuartz 0.4 20e6 9 0.5).G) := rfl
    rw [h5]
    refine this.trans ?_
    norm_num at *
    linarith
  obtain ⟨b1, b2, b3⟩ := brine_example
  obtain ⟨g1, g2⟩ := gas_example
  have eL : Published.wood (exactReservoir L) = Published.brine 75 20e6 45000 := wood_single _ (by norm_num)
  have eG : Published.wood (exactReservoir G) = Published.gas 75 0.1e6 0.6 := wood_single _ (by norm_num)
  have hin : ∀ x ∈ L ++ G, x.1.InRange := by
    intro x hx
    simp only [L, G, List.mem_cons, List.mem_append, List.not_mem_nil, or_false] at hx
    rcases hx with rfl | rfl
    · exact ⟨by norm_num, by norm_num, by norm_num⟩
    · exact ⟨by norm_num, by norm_num, by norm_num⟩
  have pos : ∀ x ∈ L ++ G, 0 < x.1.exact.K ∧ 0 < x.1.exact.ρ := fun x hx =>
    have h := ReservoirFluid.near hf hp he (hin x hx)
    ⟨h.1, h.2.1⟩
  have hst : (Published.wood (exactReservoir G)).K ≤ 0.99 * (Published.wood (exactReservoir L)).K := by
    rw [eL, eG]; norm_num at *; linarith
  have hde : (Published.wood (exactReservoir G)).ρ ≤ 0.99 * (Published.wood (exactReservoir L)).ρ := by
    rw [eL, eG]; norm_num at *; linarith
  have hB : BrieInput (exactReservoir L) (exactReservoir G) 3 1 3 :=
    { liquids := by simp [L, exactReservoir]
      gases := by simp [G, exactReservoir]
      few := by norm_num
      exponent := by norm_num
      positive := fun x hx => by
        rw [← show exactReservoir (L ++ G) = exactReservoir L ++ exactReservoir G from List.map_append] at hx
        obtain ⟨y, hy, rfl⟩ := List.mem_map.mp hx
        refine ⟨?_, pos y hy⟩
        simp only [L, G, List.mem_cons, List.mem_append, List.not_mem_nil, or_false] at hy
        rcases hy with rfl | rfl <;> norm_num
      liquid := by norm_num [L, exactReservoir]
      gas := by norm_num [G, exactReservoir]
      total := by norm_num [L, exactReservoir]
      stiffer := by rw [eL, eG]; linarith
      denser := by rw [eL, eG]; linarith }
  have hKf : (Published.brie (exactReservoir L) (exactReservoir G) 3).K ≤ 2e10 := by
    have e : (Published.brie (exactReservoir L) (exactReservoir G) 3).K = ((Published.wood (exactReservoir L)).K
      - (Published.wood (exactReservoir G)).K) * ((0.75 + 0 : ℝ)) ^ (3:ℝ) + (Published.wood (exactReservoir G)).K := rfl
    rw [e, eL, eG]
    have a1 : (0.75 + 0 : ℝ) ^ (3:ℝ) ≤ 1 := Real.rpow_le_one (by norm_num) (by norm_num) (by norm_num)
    nlinarith
  obtain ⟨k, g, ρ, vp, vs, h1, h2, -⟩ := C191_row hf hp he (E := 1000000000) (R := 1) (S := 500) (m := 0) (n := 1) (q := 3) roundQuartz 1 [] rfl
    (by norm_num) ⟨1, 0, by norm_num, by norm_num⟩ (by simp) (by norm_num [roundQuartz])
    (by unfold WithinRatio; simp) (by norm_num) (by norm_num) L G hB hin (by simp [L, G, ReservoirFluid.error]) (by norm_num) hst hde
    (φ := 0.2) (φc := 0.4) (P := 20e6) (C := 9) (f := 0.5) (by norm_num) (by norm_num) (by norm_num) (by norm_num) (by norm_num)
    (by norm_num [Sensible, roundQuartz, Published.addMinerals]) roundPack_ratio (by norm_num) hsoft
    (hKf.trans (by norm_num [Published.addMinerals, roundQuartz]))
  exact ⟨k, g, ρ, vp, vs, h1, h2.mono (by norm_num)⟩

end OPE
