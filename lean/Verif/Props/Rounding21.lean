import Verif.Props.Rounding19
import Verif.Props.Rounding20

/-!
# C175 for rows with Brie's mixing, and examples for C176
-/

namespace OPE

open Classical

namespace Same

variable {fl fl' : ℝ → ℝ} {pw pw' : ℝ → ℝ → ℝ} (h : Same fl fl' pw pw')
include h

/-- Powers with larger exponents. -/
theorem power_le {a m c : ℕ} {x y : ℝ} (hx : Mag a x) (h0 : 0 < x) (hy0 : 0 ≤ y) (hy : y ≤ m) (hm : 1 ≤ m) (hc : a * m + 1 ≤ c)
    (hr : c ≤ 1022) : pw x y = pw' x y ∧ Sz c (pw' x y) := by
  rcases hx with hx | ⟨h1, h2⟩
  · exact absurd hx h0.ne'
  rw [abs_of_pos h0] at h1 h2
  have one_le := one_le_two_pow' a
  have inv_le : ((2:ℝ) ^ a)⁻¹ ≤ 1 := inv_le_one_of_one_le₀ one_le
  have hp0 : 0 < x ^ y := Real.rpow_pos_of_pos h0 y
  have r2 : x ^ y ≤ 2 ^ (a * m) := by
    calc x ^ y ≤ ((2:ℝ) ^ a) ^ y := Real.rpow_le_rpow h0.le h2 hy0
      _ ≤ ((2:ℝ) ^ a) ^ (m : ℝ) := Real.rpow_le_rpow_of_exponent_le one_le hy
      _ = 2 ^ (a * m) := by rw [Real.rpow_natCast, pow_mul]
  have r1 : (2 ^ (a * m))⁻¹ ≤ x ^ y := by
    calc ((2:ℝ) ^ (a * m))⁻¹ = (((2:ℝ) ^ a)⁻¹) ^ (m : ℝ) := by rw [Real.rpow_natCast, pow_mul, inv_pow]
      _ ≤ (((2:ℝ) ^ a)⁻¹) ^ y := Real.rpow_le_rpow_of_exponent_ge (inv_pos.mpr (two_pow_pos' a)) inv_le hy
      _ ≤ x ^ y := Real.rpow_le_rpow (inv_pos.mpr (two_pow_pos' a)).le h1 hy0
  have f : Mag (a * m) (x ^ y) := .inr (by rw [abs_of_pos hp0]; exact ⟨r1, r2⟩)
  have fx : Mag a x := .inr (by rw [abs_of_pos h0]; exact ⟨h1, h2⟩)
  have ham : a ≤ a * m := Nat.le_mul_of_pos_right a (by omega)
  obtain ⟨e, hd⟩ := h.power x y h0 (fx.inRange (by omega)) (f.inRange (by omega))
  have n := Near.of_accurate hp0.le (h.accurate x y h0)
  exact ⟨e, (Sz.of_near hd n (by norm_num) r1 r2).mono hc⟩

theorem brie {L G : List (Published.Fluid × ℝ)} {e : ℝ} {n m : ℕ} (hB : BrieInput L G e n m) (hm : m ≤ 8)
    (ho : ∀ x ∈ L ++ G, OrdinaryFluid x.1 ∧ Ordinary x.2) :
    Double.brie fl pw (rowsOf L) (rowsOf G) e = Double.brie fl' pw' (rowsOf L) (rowsOf G) e ∧
      Sz 175 (Double.brie fl' pw' (rowsOf L) (rowsOf G) e).1 ∧ Sz 400 (Double.brie fl' pw' (rowsOf L) (rowsOf G) e).2 := by
  have mL : ∀ x ∈ L, x ∈ L ++ G := fun x hx => List.mem_append_left _ hx
  have mG : ∀ x ∈ G, x ∈ L ++ G := fun x hx => List.mem_append_right _ hx
  have lL : L.length ≤ 2 ^ 20 := by have := hB.liquids; have := hB.few; omega
  have lG : G.length ≤ 2 ^ 20 := by have := hB.gases; have := hB.few; omega
  obtain ⟨e1, s1, s2⟩ := h.wood L lL (fun x hx => (hB.positive x (mL x hx)).1) (fun x hx => (hB.positive x (mL x hx)).2)
    (fun x hx => ho x (mL x hx))
  obtain ⟨e2, s3, s4⟩ := h.wood G lG (fun x hx => (hB.positive x (mG x hx)).1) (fun x hx => (hB.positive x (mG x hx)).2)
    (fun x hx => ho x (mG x hx))
  obtain ⟨pl1, pl2, nl, -⟩ := wood_near h.rounds L (fun x hx => (hB.positive x (mL x hx)).1) hB.liquid
    (fun x hx => (hB.positive x (mL x hx)).2.1) (fun x hx => (hB.positive x (mL x hx)).2.2) (by omega)
  obtain ⟨pg1, pg2, ng, -⟩ := wood_near h.rounds G (fun x hx => (hB.positive x (mG x hx)).1) hB.gas
    (fun x hx => (hB.positive x (mG x hx)).2.1) (fun x hx => (hB.positive x (mG x hx)).2.2) (by omega)
  obtain ⟨-, ⟨b1, b2⟩, nK, -⟩ := brie_near h.rounds h.accurate hB
  have eS : ∀ L : List (Published.Fluid × ℝ), (rowsOf L).map (fun x => x.2.2) = L.map fun x => x.2 := by
    intro L; simp [rowsOf, List.map_map, Function.comp_def]
  obtain ⟨t1, t2, t3⟩ := h.sum (a := 40) (by norm_num) (L.map fun x => x.2) (by simpa using lL) (by
    intro y hy
    obtain ⟨x, hx, rfl⟩ := List.mem_map.mp hy
    exact ⟨(ho x (mL x hx)).2.sz, (hB.positive x (mL x hx)).1⟩)
  have hT : 0 < Double.sum fl' (L.map fun x => x.2) := by
    have := saturations_near h.rounds L fun x hx => (hB.positive x (mL x hx)).1
    rw [eS] at this
    exact this.pos (lt_of_lt_of_le (by norm_num) hB.liquid)
  have key : Double.brie fl pw (rowsOf L) (rowsOf G) e = Double.brie fl' pw' (rowsOf L) (rowsOf G) e ∧
      IsDouble (Double.brie fl' pw' (rowsOf L) (rowsOf G) e).1 ∧ Sz 400 (Double.brie fl' pw' (rowsOf L) (rowsOf G) e).2 := by
    unfold Double.brie
    dsimp only
    rw [eS, e1, e2, t1]
    set T := Double.sum fl' (L.map fun x => x.2) with hTd
    set l := Double.wood fl' (rowsOf L) with hl
    set g := Double.wood fl' (rowsOf G) with hg
    obtain ⟨f1, g1⟩ := h.sub s1 s3 (d := 172) (c := 224)
    obtain ⟨f2, g2⟩ := h.power_le t2.2 hT hB.exponent.1 (hB.exponent.2.1.trans (by exact_mod_cast hm : (m:ℝ) ≤ (8:ℕ)))
      (by norm_num) (c := 489) (by norm_num) (by norm_num)
    obtain ⟨f3, g3⟩ := h.mul g1 g2 (c := 713)
    obtain ⟨f4, g4⟩ := h.add g3 s3 (d := 713) (c := 765)
    obtain ⟨f5, g5⟩ := h.mul s2 t2 (c := 233)
    obtain ⟨f6, g6⟩ := h.sub one t2 (d := 61) (c := 113)
    obtain ⟨f7, g7⟩ := h.mul s4 g6 (c := 285)
    have dens : ∀ f : ℝ → ℝ, Double.mixDensities f [(l.2, T), (g.2, f (1 - T))] =
        f (f (0 + f (l.2 * T)) + f (g.2 * f (1 - T))) := by
      intro f; simp [Double.mixDensities, Double.sum]
    have hzero : Sz 0 (0:ℝ) := ⟨⟨0, 0, by norm_num, by simp⟩, .inl rfl⟩
    obtain ⟨f8, g8⟩ := h.add0 hzero g5 le_rfl (h.nonneg (mul_nonneg (by
      have := (wood_near h.rounds L (fun x hx => (hB.positive x (mL x hx)).1) hB.liquid
        (fun x hx => (hB.positive x (mL x hx)).2.1) (fun x hx => (hB.positive x (mL x hx)).2.2) (by omega)).2.2.2
      exact this.nonneg) hT.le)) (d := 233) (c := 234)
    obtain ⟨f9, g9⟩ := h.add g8 g7 (d := 285) (c := 400)
    rw [dens, dens, f1, f2, f3, f4, f5, f6, f7, f8, f9]
    exact ⟨rfl, g4.1, g9⟩
  refine ⟨key.1, ?_, key.2.2⟩
  have hnm : n * (m + 1) ≤ 1000 * 9 := Nat.mul_le_mul hB.few (by omega)
  have q1 := s1.bounds (nl.pos pl1)
  have q2 := s3.bounds (ng.pos pg1)
  obtain ⟨r1, r2⟩ := nl.le_two (by have := hB.liquids; have := hB.few; omega)
  obtain ⟨r3, r4⟩ := ng.le_two (by have := hB.gases; have := hB.few; omega)
  have := Sz.of_near (a := 173) key.2.1 nK (by rw [mul_assoc]; omega) ?_ ?_
  · exact this.mono (by norm_num)
  · refine le_trans ?_ b1
    have e : ((2:ℝ) ^ 173)⁻¹ = (2 ^ 172)⁻¹ / 2 := by norm_num
    rw [e]; linarith [q2.1]
  · refine b2.trans ?_
    have e : (2:ℝ) ^ 173 = 2 * 2 ^ 172 := by norm_num
    rw [e]; linarith [q1.2]

end Same

variable {fl : ℝ → ℝ} {pw : ℝ → ℝ → ℝ}

/-- **C175 (C176 with bounded exponents).** A row with Brie's mixing (exponent at most 8) and a given dry rock. -/
theorem C175_brie_row (hfl : RoundsInRange fl) (hp : PowerInRange pw) {R m n q : ℕ}
    -- minerals
    (a : Published.Rock) (t : ℝ) (M : List (Published.Rock × ℝ)) (hm : M.length = m) (ht : 0 ≤ t)
    (hf : ∀ x ∈ M, 0 ≤ x.2) (hpos : ∀ x ∈ a :: M.map (fun x => x.1), 0 < x.K ∧ 0 < x.G ∧ 0 < x.ρ)
    (hratio : WithinRatio R (a :: M.map fun x => x.1)) (hR2 : R ≤ 1000) (hm2 : m ≤ 100)
    (oa : OrdinaryRock a) (ot : Ordinary t) (oM : ∀ x ∈ M, OrdinaryRock x.1 ∧ Ordinary x.2)
    -- fluids
    (L G : List (Published.Fluid × ℝ)) {e : ℝ} (hB : BrieInput L G e n q) (hq : q ≤ 8)
    (oL : ∀ x ∈ L ++ G, OrdinaryFluid x.1 ∧ Ordinary x.2)
    -- dry rock
    (dry : Published.Rock) (hdry : 0 < dry.K ∧ 0 < dry.G ∧ 0 < dry.ρ) {φ : ℝ} (hφ : 0 < φ) (hφ1 : φ ≤ 1)
    (odry : OrdinaryRock dry) (oφ : Ordinary φ)
    (hKd : dry.K ≤ 0.99 * (Published.addMinerals a t M).K)
    (hKf : (Published.brie L G e).K ≤ 0.99 * (Published.addMinerals a t M).K) :
    let K := Published.gassmann dry.K (Published.addMinerals a t M).K (Published.brie L G e).K φ
    let ρ := dry.ρ + φ * (Published.brie L G e).ρ
    let J : ℕ := 1672 * m ^ 2 * R ^ 2
    let B : ℕ := 16 * n * (q + 1) + 48
    ∃ k ρ' vp vs, Double.saturate fl pw (tri dry) (Double.mixLoop fl pw (tri a) t (M.map fun x => (tri x.1, x.2))).1
        (Double.brie fl pw (rowsOf L) (rowsOf G) e) φ = some (k, dry.G, ρ', vp, vs) ∧
      Accurate (J + B + 9) K k ∧ Accurate (J + B + 2) ρ ρ' ∧
      Accurate (2 * J + 2 * B + 16) (Real.sqrt ((K + 4 / 3 * dry.G) / ρ)) vp ∧
      Accurate (2 * J + B + 6) (Real.sqrt (dry.G / ρ)) vs := by
  obtain ⟨fl', pw', h⟩ := same_exists hfl hp
  obtain ⟨e1, s1, -, -, -, -⟩ := minerals_same h a t ht ot oa hR2 M (by omega) hf hpos hratio oM
  obtain ⟨e2, s2, s3⟩ := h.brie hB hq oL
  obtain ⟨⟨nKm, -, -⟩, ⟨hKm, -, -⟩, hJ⟩ := minerals_near h.rounds h.accurate a t M hm ht ot.1 hf hpos hratio hR2 hm2
  obtain ⟨pF, -, n1, n2⟩ := brie_near h.rounds h.accurate hB
  have hnm : n * (q + 1) ≤ 1000 * 9 := Nat.mul_le_mul hB.few (by omega)
  have e3 := h.saturate (dry := tri dry) (km := (Double.mixLoop fl' pw' (tri a) t (M.map fun x => (tri x.1, x.2))).1)
    (fluid := Double.brie fl' pw' (rowsOf L) (rowsOf G) e) (φ := φ)
    ⟨odry.1.sz.mono (by norm_num), odry.2.1.sz.mono (by norm_num), odry.2.2.sz.mono (by norm_num)⟩ (s1.1.mono (by norm_num))
    s2 s3 oφ.sz hdry
    (near_softer hKm hKd (Near.refl (2 ^ 44) hdry.1.le) (nKm.mono hJ) (by norm_num)) (n1.pos pF.1) (n2.pos pF.2)
    (near_softer hKm hKf (n1.mono (by rw [mul_assoc]; omega)) (nKm.mono hJ) (by norm_num)) hφ
  have key := C176_row h.rounds h.accurate a t M hm ht ot.1 hf hpos hratio hR2 hm2 L G hB dry hdry hφ hφ1 hKd hKf
  dsimp only at key ⊢
  rw [e1, e2, e3]
  exact key

/-- **C175 (C176 with bounded exponents, friable sand).** -/
theorem C175_brie_friable_row (hfl : RoundsInRange fl) (hp : PowerInRange pw) {R S m n q : ℕ}
    -- minerals
    (a : Published.Rock) (t : ℝ) (M : List (Published.Rock × ℝ)) (hm : M.length = m) (ht : 0 ≤ t)
    (hf : ∀ x ∈ M, 0 ≤ x.2) (hpos : ∀ x ∈ a :: M.map (fun x => x.1), 0 < x.K ∧ 0 < x.G ∧ 0 < x.ρ)
    (hratio : WithinRatio R (a :: M.map fun x => x.1)) (hR2 : R ≤ 500) (hm2 : m ≤ 50)
    (oa : OrdinaryRock a) (ot : Ordinary t) (oM : ∀ x ∈ M, OrdinaryRock x.1 ∧ Ordinary x.2)
    -- fluids
    (L G : List (Published.Fluid × ℝ)) {e : ℝ} (hB : BrieInput L G e n q) (hq : q ≤ 8)
    (oL : ∀ x ∈ L ++ G, OrdinaryFluid x.1 ∧ Ordinary x.2)
    -- friable sand
    {φ φc P C f : ℝ} (hφ : 0 < φ) (hφ1 : φ ≤ φc) (hc : φc < 1) (hC : 0 < C) (hf0 : 0 ≤ f)
    (oφ : Ordinary φ) (oc : Ordinary φc) (oP : Ordinary P) (oC : Ordinary C) (of : Ordinary f)
    (hP : Sensible (Published.addMinerals a t M).G φc P C)
    (hpack : WithinRatio S [Published.addMinerals a t M, Published.hertzMindlin (Published.addMinerals a t M) φc P C f])
    (hS2 : S ≤ 100000)
    (hKd : (Published.friableSand (Published.addMinerals a t M) φ φc P C f).K ≤ 0.99 * (Published.addMinerals a t M).K)
    (hKf : (Published.brie L G e).K ≤ 0.99 * (Published.addMinerals a t M).K) :
    let dry := Published.friableSand (Published.addMinerals a t M) φ φc P C f
    let K := Published.gassmann dry.K (Published.addMinerals a t M).K (Published.brie L G e).K φ
    let ρ := dry.ρ + φ * (Published.brie L G e).ρ
    let D : ℕ := 6 * (1672 * m ^ 2 * R ^ 2) + 78 + 1672 * S ^ 2
    let B : ℕ := 16 * n * (q + 1) + 48
    let mineral := Double.mixLoop fl pw (tri a) t (M.map fun x => (tri x.1, x.2))
    ∃ k g ρ' vp vs, Double.saturate fl pw (Double.friableSand fl pw mineral φ φc P C f) mineral.1
        (Double.brie fl pw (rowsOf L) (rowsOf G) e) φ = some (k, g, ρ', vp, vs) ∧
      Accurate (D + B + 9) K k ∧ Accurate D dry.G g ∧ Accurate (D + B + 2) ρ ρ' ∧
      Accurate (2 * D + 2 * B + 16) (Real.sqrt ((K + 4 / 3 * dry.G) / ρ)) vp ∧
      Accurate (2 * D + B + 6) (Real.sqrt (dry.G / ρ)) vs := by
  obtain ⟨fl', pw', h⟩ := same_exists hfl hp
  obtain ⟨e1, s1, -, -, -, hbox⟩ := minerals_same h a t ht ot oa (by omega) M (by omega) hf hpos hratio oM
  obtain ⟨e2, s2, s3⟩ := h.brie hB hq oL
  obtain ⟨nM, hMp, hJ⟩ := minerals_near h.rounds h.accurate a t M hm ht ot.1 hf hpos hratio (by omega) (by omega)
  obtain ⟨pF, -, n1, n2⟩ := brie_near h.rounds h.accurate hB
  have hnm : n * (q + 1) ≤ 1000 * 9 := Nat.mul_le_mul hB.few (by omega)
  have hJ1 : 1672 * m ^ 2 * R ^ 2 ≤ 1672 * 50 ^ 2 * 500 ^ 2 := by gcongr
  have hS' : 1672 * S ^ 2 ≤ 1672 * 100000 ^ 2 := by gcongr
  have hD : 6 * (1672 * m ^ 2 * R ^ 2) + 78 + 1672 * S ^ 2 ≤ 2 ^ 45 := by omega
  have hD' : 6 * (1672 * m ^ 2 * R ^ 2) + 78 + 1672 * S ^ 2 ≤ 2 ^ 50 := by omega
  obtain ⟨e4, s4⟩ := h.friableSand hbox nM s1 hφ.le hφ1 (by linarith) hc hC hf0 hP hpack hS2 hD' oφ oc oP oC of
  obtain ⟨nd, pd⟩ := friable_near h.rounds h.accurate hMp nM hφ.le hφ1 (by linarith) hc hC hf0 hP hpack hD'
  have e3 := h.saturate
    (dry := Double.friableSand fl' pw' (Double.mixLoop fl' pw' (tri a) t (M.map fun x => (tri x.1, x.2))) φ φc P C f)
    (km := (Double.mixLoop fl' pw' (tri a) t (M.map fun x => (tri x.1, x.2))).1)
    (fluid := Double.brie fl' pw' (rowsOf L) (rowsOf G) e) (φ := φ) s4 (s1.1.mono (by norm_num)) s2 s3 oφ.sz
    ⟨nd.1.pos pd.1, nd.2.1.pos pd.2.1, nd.2.2.pos pd.2.2⟩
    (near_softer hMp.1 hKd (nd.1.mono hD) (nM.1.mono (by omega)) le_rfl) (n1.pos pF.1) (n2.pos pF.2)
    (near_softer hMp.1 hKf (n1.mono (by rw [mul_assoc]; omega)) (nM.1.mono (by omega)) le_rfl) hφ
  have key := C176_friable_row h.rounds h.accurate a t M hm ht ot.1 hf hpos hratio hR2 hm2 L G hB hφ hφ1 hc hC hf0 hP hpack hS2
    hKd hKf
  dsimp only at key ⊢
  rw [e1, e2, e4, e3]
  exact key

/-! ## Example -/

theorem roundBrie : BrieInput [(⟨2.5e9, 1000⟩, 0.75)] [(⟨5e7, 200⟩, 0.25)] 3 1 3 where
  liquids := by simp
  gases := by simp
  few := by norm_num
  exponent := by norm_num
  positive := by norm_num
  liquid := by norm_num
  gas := by norm_num
  total := by norm_num
  stiffer := by norm_num [Published.wood]
  denser := by norm_num [Published.wood]

/-- Brine and gas mixed by Brie's law in a quartz sand of porosity 0.25. -/
example {fl : ℝ → ℝ} {pw : ℝ → ℝ → ℝ} (hf : RoundsInRange fl) (hp : PowerInRange pw) :
    let dry := Published.friableSand roundQuartz 0.25 0.375 20e6 9 0.5
    ∃ k g ρ vp vs, Double.saturate fl pw (Double.friableSand fl pw (tri roundQuartz) 0.25 0.375 20e6 9 0.5) 37e9
        (Double.brie fl pw (rowsOf [(⟨2.5e9, 1000⟩, 0.75)]) (rowsOf [(⟨5e7, 200⟩, 0.25)]) 3) 0.25 = some (k, g, ρ, vp, vs) ∧
      Accurate 1e9 (Published.gassmann dry.K 37e9 (Published.brie [(⟨2.5e9, 1000⟩, 0.75)] [(⟨5e7, 200⟩, 0.25)] 3).K 0.25) k := by
  intro dry
  have hsoft : dry.K ≤ 0.99 * 37e9 := by
    obtain ⟨h1, h2, h3, h4⟩ := roundPack'
    have hz : 0 ≤ 4 / 3 * min roundQuartz.G (Published.hertzMindlin roundQuartz 0.375 20e6 9 0.5).G :=
      mul_nonneg (by norm_num) (le_min (by norm_num [roundQuartz]) (by linarith))
    have := (hs_variational (x1 := 37e9) (x2 := (Published.hertzMindlin roundQuartz 0.375 20e6 9 0.5).K) (f := 1 - 0.25 / 0.375)
      (by norm_num) (by linarith) hz (by norm_num) (by norm_num)).1 1 1 (by norm_num)
    have h5 : dry.K = Published.hashinShtrikman 37e9 (Published.hertzMindlin roundQuartz 0.375 20e6 9 0.5).K (1 - 0.25 / 0.375)
      (4 / 3 * min roundQuartz.G (Published.hertzMindlin roundQuartz 0.375 20e6 9 0.5).G) := rfl
    rw [h5]
    refine this.trans ?_
    norm_num at *
    linarith
  have hbrie : (Published.brie [(⟨2.5e9, 1000⟩, 0.75)] [(⟨5e7, 200⟩, 0.25)] 3).K ≤ 2.5e9 := by
    obtain ⟨g, hg⟩ := exists_rounding
    have := (brie_near hg (pw := fun a b => a ^ b) (exists_double).2 roundBrie).2.1.2
    refine this.trans ?_
    norm_num [Published.wood]
  have o1 : Ordinary (1 : ℝ) := by simpa using ordinary_nat 1 (by norm_num) (by norm_num)
  have o2 : Ordinary (0.25 : ℝ) := by
    have := ordinary_eighth 2 (by norm_num) (by norm_num); norm_num at this ⊢; exact this
  have o3 : Ordinary (0.375 : ℝ) := by
    have := ordinary_eighth 3 (by norm_num) (by norm_num); norm_num at this ⊢; exact this
  have o4 : Ordinary (20e6 : ℝ) := by
    have := ordinary_nat 20000000 (by norm_num) (by norm_num); norm_num at this ⊢; exact this
  have o5 : Ordinary (9 : ℝ) := by simpa using ordinary_nat 9 (by norm_num) (by norm_num)
  have o6 : Ordinary (0.5 : ℝ) := by
    have := ordinary_eighth 4 (by norm_num) (by norm_num); norm_num at this ⊢; exact this
  obtain ⟨k, g, ρ, vp, vs, h1, h2, -⟩ := C175_brie_friable_row hf hp (R := 1) (S := 500) (m := 0) roundQuartz 1 [] rfl
    (by norm_num) (by simp) (by norm_num [roundQuartz])
    (by unfold WithinRatio; simp) (by norm_num) (by norm_num) roundQuartz_ordinary o1 (by simp) _ _ roundBrie (by norm_num)
    roundFluids_ordinary
    (φ := 0.25) (φc := 0.375) (P := 20e6) (C := 9) (f := 0.5) (by norm_num) (by norm_num) (by norm_num) (by norm_num)
    (by norm_num) o2 o3 o4 o5 o6
    (by norm_num [Sensible, roundQuartz, Published.addMinerals]) roundPack_ratio' (by norm_num) hsoft
    (hbrie.trans (by norm_num [Published.addMinerals, roundQuartz]))
  exact ⟨k, g, ρ, vp, vs, h1, h2.mono (by norm_num)⟩

end OPE
