import Verif.Props.Rounding23
import Verif.Props.Rounding20
import Verif.Props.Rounding14

/-!
# C186: a whole row with brine in double arithmetic
-/

namespace OPE

open Classical

variable {fl : ℝ → ℝ} {pw : ℝ → ℝ → ℝ}

/-- What a pore fluid is given by: bulk modulus and density, or temperature, pressure and salinity. -/
inductive PoreFluid where
  | given (F : Published.Fluid)
  | brine (T P S : ℝ)

/-- The published fluid. -/
noncomputable def PoreFluid.exact : PoreFluid → Published.Fluid
  | .given F => F
  | .brine T P S => Published.brine T P S

/-- Bulk modulus and density as computed in double arithmetic. -/
noncomputable def PoreFluid.computed (fl : ℝ → ℝ) : PoreFluid → ℝ × ℝ
  | .given F => (F.K, F.ρ)
  | .brine T P S => Double.brine fl T P S

/-- In the range of the correlations. -/
def PoreFluid.InRange : PoreFluid → Prop
  | .given F => 0 < F.K ∧ 0 < F.ρ
  | .brine T P S => (0 ≤ T ∧ T ≤ 350) ∧ (0 ≤ P ∧ P ≤ 100e6) ∧ (0 ≤ S ∧ S ≤ 300000)

/-- The fluids and saturations of a row, published. -/
noncomputable def exactFluids (L : List (PoreFluid × ℝ)) : List (Published.Fluid × ℝ) := L.map fun x => (x.1.exact, x.2)

/-- The fluids and saturations of a row, computed. -/
noncomputable def computedFluids (fl : ℝ → ℝ) (L : List (PoreFluid × ℝ)) : List (ℝ × ℝ × ℝ) :=
  L.map fun x => ((x.1.computed fl).1, (x.1.computed fl).2, x.2)

theorem brine_near (hf : RoundsToNearest fl) {T P S : ℝ} (hT : 0 ≤ T ∧ T ≤ 350) (hP : 0 ≤ P ∧ P ≤ 100e6)
    (hS : 0 ≤ S ∧ S ≤ 300000) : 0 < (Published.brine T P S).K ∧ 0 < (Published.brine T P S).ρ ∧
    Near 200000 (Published.brine T P S).K (Double.brine fl T P S).1 ∧
    Near 200000 (Published.brine T P S).ρ (Double.brine fl T P S).2 := by
  have hP0 : 0 ≤ P * 1e-6 := mul_nonneg hP.1 (by norm_num)
  have hP1 : P * 1e-6 ≤ 100 := by have := hP.2; norm_num at this ⊢; linarith
  have hS0 : 0 ≤ S * 1e-6 := mul_nonneg hS.1 (by norm_num)
  have hS1 : S * 1e-6 ≤ 0.3 := by have := hS.2; norm_num at this ⊢; linarith
  obtain ⟨r0, v0⟩ := Double.brine_bounds hT ⟨hP0, hP1⟩ ⟨hS0, hS1⟩
  have r1 : 0 < Published.brineDensity T (P * 1e-6) (S * 1e-6) := lt_of_lt_of_le (by norm_num) r0
  have v1 : 0 < Published.brineVelocity T (P * 1e-6) (S * 1e-6) := lt_of_lt_of_le (by norm_num) v0
  have p2 : 0 < (Published.brine T P S).ρ := by show 0 < 1000 * _; positivity
  have p1 : 0 < (Published.brine T P S).K := mul_pos p2 (pow_pos v1 2)
  obtain ⟨a, b⟩ := Double.C185_brine hf hT hP hS
  refine ⟨p1, p2, Near.of_relative p1.le b ?_ ?_ (by norm_num), Near.of_relative p2.le a ?_ ?_ (by norm_num)⟩ <;>
    · unfold unit; norm_num

theorem PoreFluid.near (hf : RoundsToNearest fl) : ∀ {x : PoreFluid}, x.InRange →
    0 < x.exact.K ∧ 0 < x.exact.ρ ∧ Near 200000 x.exact.K (x.computed fl).1 ∧ Near 200000 x.exact.ρ (x.computed fl).2
  | .given _, h => ⟨h.1, h.2, Near.refl _ h.1.le, Near.refl _ h.2.le⟩
  | .brine _ _ _, h => brine_near hf h.1 h.2.1 h.2.2

theorem near_exact_sum {α : Type*} {j : ℕ} {g g' : α → ℝ} : ∀ {L : List α}, (∀ x ∈ L, Near j (g x) (g' x)) →
    Near j (L.map g).sum (L.map g').sum
  | [], _ => by simpa using Near.refl j le_rfl
  | a :: L, h => by
    simp only [List.map_cons, List.sum_cons]
    have := (h a (List.mem_cons_self ..)).add (near_exact_sum fun x hx => h x (List.mem_cons_of_mem _ hx))
    rwa [max_self] at this

/-- Wood's law of fluids that carry errors. -/
theorem wood_computed (hf : RoundsToNearest fl) {L : List (PoreFluid × ℝ)} (hL : ∀ x ∈ L, x.1.InRange)
    (hs : ∀ x ∈ L, 0 ≤ x.2) (ht : 2e-15 ≤ (L.map fun x => x.2).sum) (hn : L.length ≤ 1000000) :
    (0 < (Published.wood (exactFluids L)).K ∧ 0 < (Published.wood (exactFluids L)).ρ) ∧
    Near (200003 + 2 * L.length) (Published.wood (exactFluids L)).K (Double.wood fl (computedFluids fl L)).1 ∧
    Near (200003 + 2 * L.length) (Published.wood (exactFluids L)).ρ (Double.wood fl (computedFluids fl L)).2 := by
  -- the computed fluids taken as exact
  set L' : List (Published.Fluid × ℝ) := L.map fun x => (⟨(x.1.computed fl).1, (x.1.computed fl).2⟩, x.2) with hL'
  have hr : rowsOf L' = computedFluids fl L := by
    simp only [rowsOf, computedFluids, hL', List.map_map]; rfl
  have hsat : (L'.map fun x => x.2) = L.map fun x => x.2 := by simp only [hL', List.map_map]; rfl
  have hsat' : ((exactFluids L).map fun x => x.2) = L.map fun x => x.2 := by
    simp only [exactFluids, List.map_map]; rfl
  have hlen : L'.length = L.length := by simp [hL']
  have near := fun x (hx : x ∈ L) => PoreFluid.near hf (hL x hx)
  have hp : ∀ x ∈ L', 0 ≤ x.2 ∧ 0 < x.1.K ∧ 0 < x.1.ρ := by
    intro x hx
    obtain ⟨y, hy, rfl⟩ := List.mem_map.mp hx
    obtain ⟨a, b, u, v⟩ := near y hy
    exact ⟨hs y hy, u.pos a, v.pos b⟩
  obtain ⟨w1, w2, n1, n2⟩ := wood_near hf L' (fun x hx => (hp x hx).1) (by rw [hsat]; exact ht)
    (fun x hx => (hp x hx).2.1) (fun x hx => (hp x hx).2.2) (by rw [hlen]; omega)
  rw [hr, hlen] at n1 n2
  have hS0 : 0 < (L.map fun x => x.2).sum := lt_of_lt_of_le (by norm_num) ht
  -- the effect of the errors of the fluids
  have eK : Near 200000 ((exactFluids L).map fun x => x.2 / (L.map fun x => x.2).sum / x.1.K).sum
      (L'.map fun x => x.2 / (L.map fun x => x.2).sum / x.1.K).sum := by
    simp only [exactFluids, hL', List.map_map]
    refine near_exact_sum fun x hx => ?_
    obtain ⟨a, -, u, -⟩ := near x hx
    have := (Near.refl 0 (div_nonneg (hs x hx) hS0.le)).div u a
    simpa using this
  have eρ : Near 200000 ((exactFluids L).map fun x => x.2 / (L.map fun x => x.2).sum * x.1.ρ).sum
      (L'.map fun x => x.2 / (L.map fun x => x.2).sum * x.1.ρ).sum := by
    simp only [exactFluids, hL', List.map_map]
    refine near_exact_sum fun x hx => ?_
    obtain ⟨-, b, -, v⟩ := near x hx
    have := (Near.refl 0 (div_nonneg (hs x hx) hS0.le)).mul v
    simpa using this
  have k1 : (Published.wood (exactFluids L)).K
      = ((exactFluids L).map fun x => x.2 / (L.map fun x => x.2).sum / x.1.K).sum⁻¹ := by
    unfold Published.wood; rw [hsat']
  have k2 : (Published.wood L').K = (L'.map fun x => x.2 / (L.map fun x => x.2).sum / x.1.K).sum⁻¹ := by
    unfold Published.wood; rw [hsat]
  have k3 : (Published.wood (exactFluids L)).ρ
      = ((exactFluids L).map fun x => x.2 / (L.map fun x => x.2).sum * x.1.ρ).sum := by
    unfold Published.wood; rw [hsat']
  have k4 : (Published.wood L').ρ = (L'.map fun x => x.2 / (L.map fun x => x.2).sum * x.1.ρ).sum := by
    unfold Published.wood; rw [hsat]
  have s1 : 0 < ((exactFluids L).map fun x => x.2 / (L.map fun x => x.2).sum / x.1.K).sum := by
    refine eK.symm.pos ?_
    rw [k2] at w1
    exact inv_pos.mp w1
  refine ⟨⟨by rw [k1]; exact inv_pos.mpr s1, ?_⟩, ?_, ?_⟩
  · rw [k3]; refine eρ.symm.pos ?_; rw [← k4]; exact w2
  · rw [k2] at n1
    rw [k1]
    exact ((eK.inv s1).trans n1).mono (by omega)
  · rw [k4] at n2
    rw [k3]
    exact (eρ.trans n2).mono (by omega)

/-- **C186.** -/
theorem C186_row (hfl : RoundsToNearest fl) (hp : PowerAccurate pw) {R S m n : ℕ}
    -- minerals
    (a : Published.Rock) (t : ℝ) (M : List (Published.Rock × ℝ)) (hm : M.length = m) (ht : 0 ≤ t) (hd : IsDouble t)
    (hf : ∀ x ∈ M, 0 ≤ x.2) (hpos : ∀ x ∈ a :: M.map (fun x => x.1), 0 < x.K ∧ 0 < x.G ∧ 0 < x.ρ)
    (hratio : WithinRatio R (a :: M.map fun x => x.1)) (hR2 : R ≤ 500) (hm2 : m ≤ 50)
    -- fluids
    (L : List (PoreFluid × ℝ)) (hn : L.length = n) (hs : ∀ x ∈ L, 0 ≤ x.2) (hS : 2e-15 ≤ (L.map fun x => x.2).sum)
    (hL : ∀ x ∈ L, x.1.InRange) (hn2 : n ≤ 1000000)
    -- friable sand
    {φ φc P C f : ℝ} (hφ : 0 < φ) (hφ1 : φ ≤ φc) (hc : φc < 1) (hC : 0 < C) (hf0 : 0 ≤ f)
    (hP : Sensible (Published.addMinerals a t M).G φc P C)
    (hpack : WithinRatio S [Published.addMinerals a t M, Published.hertzMindlin (Published.addMinerals a t M) φc P C f])
    (hS2 : S ≤ 100000)
    (hKd : (Published.friableSand (Published.addMinerals a t M) φ φc P C f).K ≤ 0.99 * (Published.addMinerals a t M).K)
    (hKf : (Published.wood (exactFluids L)).K ≤ 0.99 * (Published.addMinerals a t M).K) :
    let dry := Published.friableSand (Published.addMinerals a t M) φ φc P C f
    let K := Published.gassmann dry.K (Published.addMinerals a t M).K (Published.wood (exactFluids L)).K φ
    let ρ := dry.ρ + φ * (Published.wood (exactFluids L)).ρ
    let D : ℕ := 6 * (1672 * m ^ 2 * R ^ 2) + 78 + 1672 * S ^ 2
    let B : ℕ := 200003 + 2 * n
    let mineral := Double.mixLoop fl pw (tri a) t (M.map fun x => (tri x.1, x.2))
    ∃ k g ρ' vp vs, Double.saturate fl pw (Double.friableSand fl pw mineral φ φc P C f) mineral.1
        (Double.wood fl (computedFluids fl L)) φ = some (k, g, ρ', vp, vs) ∧
      Accurate (D + B + 9) K k ∧ Accurate D dry.G g ∧ Accurate (D + B + 2) ρ ρ' ∧
      Accurate (2 * D + 2 * B + 16) (Real.sqrt ((K + 4 / 3 * dry.G) / ρ)) vp ∧
      Accurate (2 * D + B + 6) (Real.sqrt (dry.G / ρ)) vs := by
  intro dry K ρ D B mineral
  obtain ⟨nM, hMp, -⟩ := minerals_near hfl hp a t M hm ht hd hf hpos hratio (by omega) (by omega)
  have hJ : 1672 * m ^ 2 * R ^ 2 ≤ 1672 * 50 ^ 2 * 500 ^ 2 := by gcongr
  have hS' : 1672 * S ^ 2 ≤ 1672 * 100000 ^ 2 := by gcongr
  have hDb : D ≤ 2 ^ 44 + 2 ^ 43 := by
    show 6 * (1672 * m ^ 2 * R ^ 2) + 78 + 1672 * S ^ 2 ≤ _
    omega
  have hBb : B ≤ 2 ^ 43 := by
    show 200003 + 2 * n ≤ _
    omega
  have hJD : 1672 * m ^ 2 * R ^ 2 ≤ D := by
    show _ ≤ 6 * (1672 * m ^ 2 * R ^ 2) + 78 + 1672 * S ^ 2
    omega
  obtain ⟨nd, pd⟩ := friable_near hfl hp hMp nM hφ.le hφ1 (by linarith) hc hC hf0 hP hpack (by show D ≤ _; omega)
  obtain ⟨pF, n1, n2⟩ := wood_computed hfl hL hs hS (by omega)
  rw [hn] at n1 n2
  obtain ⟨k, ρ', vp, vs, h1, h2, h3, h4, h5⟩ := saturate_near hfl hp (D := D) (B := B) pd pF hMp.1 hφ (by linarith) nd
    (nM.1.mono hJD) n1 n2 (by omega) hKd hKf
  exact ⟨k, _, ρ', vp, vs, h1, h2, nd.2.1.accurate (by omega), h3, h4, h5⟩

/-- Quartz sand of porosity 0.2 filled with brine of 75 °C, 20 MPa and 45000 ppm, and a gas. -/
example (hf : RoundsToNearest fl) (hp : PowerAccurate pw) :
    let L : List (PoreFluid × ℝ) := [(.brine 75 20e6 45000, 0.75), (.given ⟨5e7, 200⟩, 0.25)]
    let dry := Published.friableSand roundQuartz 0.2 0.4 20e6 9 0.5
    ∃ k g ρ vp vs, Double.saturate fl pw (Double.friableSand fl pw (tri roundQuartz) 0.2 0.4 20e6 9 0.5) 37e9
        (Double.wood fl (computedFluids fl L)) 0.2 = some (k, g, ρ, vp, vs) ∧
      Accurate 1e9 (Published.gassmann dry.K 37e9 (Published.wood (exactFluids L)).K 0.2) k := by
  intro L dry
  have hsoft : dry.K ≤ 0.99 * 37e9 := by
    obtain ⟨h1, h2, h3, h4⟩ := roundPack
    have hz : 0 ≤ 4 / 3 * min roundQuartz.G (Published.hertzMindlin roundQuartz 0.4 20e6 9 0.5).G :=
      mul_nonneg (by norm_num) (le_min (by norm_num [roundQuartz]) (by linarith))
    have := (hs_variational (x1 := 37e9) (x2 := (Published.hertzMindlin roundQuartz 0.4 20e6 9 0.5).K) (f := 1 - 0.2 / 0.4)
      (by norm_num) (by linarith) hz (by norm_num) (by norm_num)).1 1 1 (by norm_num)
    have h5 : dry.K = Published.hashinShtrikman 37e9 (Published.hertzMindlin roundQuartz 0.4 20e6 9 0.5).K (1 - 0.2 / 0.4)
      (4 / 3 * min roundQuartz.G (Published.hertzMindlin roundQuartz 0.4 20e6 9 0.5).G) := rfl
    rw [h5]
    refine this.trans ?_
    norm_num at *
    linarith
  have hin : ∀ x ∈ L, x.1.InRange := by
    intro x hx
    simp only [L, List.mem_cons, List.not_mem_nil, or_false] at hx
    rcases hx with rfl | rfl
    · exact ⟨by norm_num, by norm_num, by norm_num⟩
    · exact ⟨by norm_num, by norm_num⟩
  have hwood : (Published.wood (exactFluids L)).K ≤ 1e9 := by
    have hb := (brine_near hf (T := 75) (P := 20e6) (S := 45000) (by norm_num) (by norm_num) (by norm_num)).1
    have e : (Published.wood (exactFluids L)).K
        = (0.75 / (0.75 + (0.25 + 0)) / (Published.brine 75 20e6 45000).K + (0.25 / (0.75 + (0.25 + 0)) / 5e7 + 0))⁻¹ := rfl
    rw [e]
    apply inv_le_of_inv_le₀ (by norm_num)
    have : 0 ≤ 0.75 / (0.75 + (0.25 + 0)) / (Published.brine 75 20e6 45000).K := div_nonneg (by norm_num) hb.le
    norm_num at this ⊢
    linarith
  obtain ⟨k, g, ρ, vp, vs, h1, h2, -⟩ := C186_row hf hp (R := 1) (S := 500) (m := 0) (n := 2) roundQuartz 1 [] rfl
    (by norm_num) ⟨1, 0, by norm_num, by norm_num⟩ (by simp) (by norm_num [roundQuartz])
    (by unfold WithinRatio; simp) (by norm_num) (by norm_num) L rfl
    (by norm_num [L]) (by norm_num [L]) hin (by norm_num)
    (φ := 0.2) (φc := 0.4) (P := 20e6) (C := 9) (f := 0.5) (by norm_num) (by norm_num) (by norm_num) (by norm_num) (by norm_num)
    (by norm_num [Sensible, roundQuartz, Published.addMinerals]) roundPack_ratio (by norm_num) hsoft
    (hwood.trans (by norm_num [Published.addMinerals, roundQuartz]))
  exact ⟨k, g, ρ, vp, vs, h1, h2.mono (by norm_num)⟩

end OPE
