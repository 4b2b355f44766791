import Verif.Props.Rounding17
import Verif.Props.Continuity

/-!
# C175: ordinary input neither overflows nor underflows
-/

namespace OPE

open Classical

/-- The grain pack in double arithmetic from a mineral that carries errors. -/
theorem pack_near {fl : ℝ → ℝ} {pw : ℝ → ℝ → ℝ} (hfl : RoundsToNearest fl) (hp : PowerAccurate pw) {a : Published.Rock}
    {a' : ℝ × ℝ × ℝ} {j : ℕ} (ha : 0 < a.K ∧ 0 < a.G ∧ 0 < a.ρ) (na : NearRock j a a') {φc P C f : ℝ} (hc : φc < 1) (hC : 0 < C)
    (hf : 0 ≤ f) (h : Sensible a.G φc P C) (hj : j ≤ 2 ^ 50) :
    0 < P ∧ NearRock (6 * j + 78) (Published.hertzMindlin a φc P C f) (Double.hertzMindlin fl pw a' φc P f C) := by
  obtain ⟨nK, nG, nρ⟩ := na
  have hP := (hmA_base ha.1 ha.2.1 hc hC (h.sane ha.2.1 hc hC)).1
  have ha' : 0 < a'.1 ∧ 0 < a'.2.1 ∧ 0 < a'.2.2 := ⟨nK.pos ha.1, nG.pos ha.2.1, nρ.pos ha.2.2⟩
  have hsane : Sane a'.2.1 φc P C := by
    obtain ⟨q1, q2⟩ := nG.le_two hj
    have hq : 0 < C * (1 - φc) := mul_pos hC (by linarith)
    constructor
    · refine le_trans ?_ h.1
      have := mul_le_mul_of_nonneg_left q1 hq.le
      norm_num at this ⊢
      nlinarith [mul_pos hq ha.2.1]
    · refine h.2.trans ?_
      have := mul_le_mul_of_nonneg_left q2 hq.le
      norm_num at this ⊢
      nlinarith [mul_pos hq ha'.2.1]
  obtain ⟨e1, e2⟩ := hm_published ha.1 ha.2.1 hc hP.le hC f
  obtain ⟨m1, m2, m3⟩ := hertzMindlin_near hfl hp ha'.1 ha'.2.1 ha'.2.2 hc hC hf hsane
  obtain ⟨s1, s2⟩ := hm_sensitivity ha.1 ha.2.1 nK nG hc hP hC hf
  refine ⟨hP, ?_, ?_, ?_⟩
  · have := s1.trans m1
    rw [e1] at this
    exact this
  · have := s2.trans m2
    rw [e2] at this
    exact this
  · have := (nρ.mul (Near.refl 0 (by linarith : 0 ≤ 1 - φc))).trans m3
    exact this.mono (by omega)

theorem pack_bounded {a b : Published.Rock} {S : ℕ} (ha : Bounded 40 a) (h : WithinRatio S [a, b]) (hS : S ≤ 100000)
    (hb : 0 ≤ b.K ∧ 0 ≤ b.G ∧ 0 ≤ b.ρ) : Bounded 57 b := by
  have key : ∀ {x y : ℝ}, (2 ^ 40)⁻¹ ≤ x ∧ x ≤ 2 ^ 40 → 0 ≤ y → x ≤ S * y → y ≤ S * x → (2 ^ 57)⁻¹ ≤ y ∧ y ≤ 2 ^ 57 := by
    intro x y hx hy h1 h2
    have hS' : (S : ℝ) ≤ 2 ^ 17 := by
      have : (S : ℝ) ≤ 100000 := by exact_mod_cast hS
      refine this.trans (by norm_num)
    have hx0 : 0 < x := lt_of_lt_of_le (by positivity) hx.1
    constructor
    · have h3 : x ≤ 2 ^ 17 * y := h1.trans (mul_le_mul_of_nonneg_right hS' hy)
      have e : ((2:ℝ) ^ 57)⁻¹ = (2 ^ 40)⁻¹ / 2 ^ 17 := by norm_num
      rw [e, div_le_iff₀ (by positivity)]
      linarith [hx.1]
    · calc y ≤ S * x := h2
        _ ≤ 2 ^ 17 * 2 ^ 40 := mul_le_mul hS' hx.2 hx0.le (by positivity)
        _ = _ := by norm_num
  have q1 := h a (by simp) b (by simp)
  have q2 := h b (by simp) a (by simp)
  exact ⟨key ha.1 hb.1 q1.1 q2.1, key ha.2.1 hb.2.1 q1.2.1 q2.2.1, key ha.2.2 hb.2.2 q1.2.2 q2.2.2⟩

theorem Bounded.mono {e e' : ℕ} {a : Published.Rock} (h : Bounded e a) (hee : e ≤ e') : Bounded e' a := by
  have key : ∀ {x : ℝ}, (2 ^ e)⁻¹ ≤ x ∧ x ≤ 2 ^ e → (2 ^ e')⁻¹ ≤ x ∧ x ≤ 2 ^ e' := fun {x} hx =>
    ⟨(inv_anti₀ (two_pow_pos' e) (two_pow_mono' hee)).trans hx.1, hx.2.trans (two_pow_mono' hee)⟩
  exact ⟨key h.1, key h.2.1, key h.2.2⟩

theorem Bounded.pos {e : ℕ} {a : Published.Rock} (h : Bounded e a) : 0 < a.K ∧ 0 < a.G ∧ 0 < a.ρ := by
  have := inv_pos.mpr (two_pow_pos' e)
  exact ⟨this.trans_le h.1.1, this.trans_le h.2.1.1, this.trans_le h.2.2.1⟩

theorem NearRock.sz {e k : ℕ} {a : Published.Rock} {x : ℝ × ℝ × ℝ} (h : Bounded e a) (n : NearRock k a x) (hk : k ≤ 2 ^ 50)
    (hd : IsDouble x.1 ∧ IsDouble x.2.1 ∧ IsDouble x.2.2) : SzRock (e + 1) x :=
  ⟨.of_near hd.1 n.1 hk h.1.1 h.1.2, .of_near hd.2.1 n.2.1 hk h.2.1.1 h.2.1.2, .of_near hd.2.2 n.2.2 hk h.2.2.1 h.2.2.2⟩

theorem SzRock.mono {a b : ℕ} {x : ℝ × ℝ × ℝ} (h : SzRock a x) (hab : a ≤ b) : SzRock b x :=
  ⟨h.1.mono hab, h.2.1.mono hab, h.2.2.mono hab⟩

/-- Softer by one percent, and after rounding still softer. -/
theorem near_softer {j : ℕ} {x y x' y' : ℝ} (hy : 0 < y) (h : x ≤ 0.99 * y) (nx : Near j x x') (ny : Near j y y')
    (hj : j ≤ 2 ^ 45) : x' < y' := by
  have hsmall : (0.996 : ℝ) ≤ (1 - unit) ^ j := by
    refine le_trans ?_ (Near.sub_one_pow j)
    have : (j : ℝ) * unit ≤ 2 ^ 45 * unit := mul_le_mul_of_nonneg_right (by exact_mod_cast hj) unit_pos.le
    have e : (2 : ℝ) ^ 45 * unit = 1 / 256 := by unfold unit; norm_num
    rw [e] at this
    norm_num
    linarith
  have h1 : 0.996 * y ≤ y' := (mul_le_mul_of_nonneg_right hsmall hy.le).trans ny.2.1
  have h2 : 0.996 * x' ≤ x := (mul_le_mul_of_nonneg_right hsmall nx.nonneg).trans nx.2.2
  norm_num at *
  linarith

theorem satReal_le' {Kd Km Kf φ : ℝ} (hφ : 0 ≤ φ) (hd : Kd ≤ Km) (hf : 0 < Kf) (hf1 : Kf < Km) : satReal Kd Km Kf φ ≤ Km := by
  have hm : 0 < Km := hf.trans hf1
  unfold satReal
  have h1 : 0 ≤ Km - Kf := by linarith
  have h2 : 0 ≤ Km - Kd := by linarith
  have : 0 ≤ Km * ((Km - Kf) * (φ * (Km - Kd)) / (Km * (Km - Kf) * φ + Kf * (Km - Kd))) := by positivity
  linarith

namespace Same

variable {fl fl' : ℝ → ℝ} {pw pw' : ℝ → ℝ → ℝ} (h : Same fl fl' pw pw')
include h

theorem friableSand {a : Published.Rock} {a' : ℝ × ℝ × ℝ} {S j : ℕ} (hb : Bounded 40 a) (na : NearRock j a a')
    (sa : SzRock 41 a') {φ φc P C f : ℝ} (hφ0 : 0 ≤ φ) (hφ : φ ≤ φc) (hc0 : 0 < φc) (hc : φc < 1) (hC : 0 < C) (hf : 0 ≤ f)
    (hs : Sensible a.G φc P C) (hratio : WithinRatio S [a, Published.hertzMindlin a φc P C f]) (hS : S ≤ 100000)
    (hsmall : 6 * j + 78 + 1672 * S ^ 2 ≤ 2 ^ 50) (oφ : Ordinary φ) (oc : Ordinary φc) (oP : Ordinary P) (oC : Ordinary C)
    (of : Ordinary f) :
    Double.friableSand fl pw a' φ φc P C f = Double.friableSand fl' pw' a' φ φc P C f ∧
      SzRock 58 (Double.friableSand fl' pw' a' φ φc P C f) := by
  obtain ⟨hP, np⟩ := pack_near h.rounds h.accurate hb.pos na hc hC hf hs (by omega)
  have pa' : 0 < a'.1 ∧ 0 < a'.2.1 ∧ 0 < a'.2.2 := ⟨na.1.pos hb.pos.1, na.2.1.pos hb.pos.2.1, na.2.2.pos hb.pos.2.2⟩
  obtain ⟨e1, s1⟩ := h.hertzMindlin sa ⟨pa'.1, pa'.2.1⟩ oc oP of oC hc hP hf hC
  have bp : Bounded 57 (Published.hertzMindlin a φc P C f) :=
    pack_bounded hb hratio hS ⟨np.1.1, np.2.1.1, np.2.2.1⟩
  have s2 : SzRock 58 (Double.hertzMindlin fl' pw' a' φc P f C) := np.sz bp (by omega) ⟨s1.1.1, s1.2.1.1, s1.2.2.1⟩
  have pp := bp.pos
  have pp' : 0 < (Double.hertzMindlin fl' pw' a' φc P f C).1 ∧ 0 < (Double.hertzMindlin fl' pw' a' φc P f C).2.1 :=
    ⟨np.1.pos pp.1, np.2.1.pos pp.2.1⟩
  obtain ⟨nd, -⟩ := friable_near h.rounds h.accurate hb.pos na hφ0 hφ hc0 hc hC hf hs hratio hsmall
  have bd : Bounded 57 (Published.friableSand a φ φc P C f) := by
    refine bounded_iff.mpr (lowerBound_box (lowestRock_pos 57) (bounded_iff.mp (hb.mono (by norm_num))) (bounded_iff.mp bp) ?_ ?_)
    · have := (div_le_one hc0).mpr hφ
      linarith
    · have := div_nonneg hφ0 hc0.le
      linarith
  obtain ⟨e2, g2⟩ := h.div oφ.sz oc.sz (c := 80)
  obtain ⟨e3, g3⟩ := h.sub one g2 (d := 80) (c := 132)
  have sa' := sa.mono (b := 58) (by norm_num)
  have key : Double.friableSand fl pw a' φ φc P C f = Double.friableSand fl' pw' a' φ φc P C f ∧
      SzRock 1022 (Double.friableSand fl' pw' a' φ φc P C f) := by
    unfold Double.friableSand
    dsimp only
    rw [e1, e2, e3]
    set p := Double.hertzMindlin fl' pw' a' φc P f C with hpd
    obtain ⟨k1, k2⟩ := h.walpoleBulk sa'.1 s2.1 (sa'.2.1.min s2.2.1) g3 pa'.1 (le_min pa'.2.1.le pp'.2.le) (c := 1022)
      (by norm_num) le_rfl
    obtain ⟨l1, l2⟩ := h.walpoleShear sa'.2.1 s2.2.1 (sa'.1.min s2.1) (sa'.2.1.min s2.2.1) g3 pa'.2.1 (le_min pa'.1.le pp'.1.le)
      (le_min pa'.2.1.le pp'.2.le) (c := 1022) (by norm_num) le_rfl
    obtain ⟨m1, m2⟩ := h.walpoleDensity sa'.2.2 s2.2.2 g3 (c := 1022) (by norm_num) le_rfl
    rw [k1, l1, m1]
    exact ⟨rfl, k2, l2, m2⟩
  exact ⟨key.1, nd.sz bd hsmall ⟨key.2.1.1, key.2.2.1.1, key.2.2.2.1⟩⟩

theorem gassmann {kd km kf φ : ℝ} (hkd : Sz 58 kd) (hkm : Sz 58 km) (hkf : Sz 175 kf) (hφ : Sz 40 φ) (pd : 0 < kd) (hd : kd < km)
    (pf : 0 < kf) (hf : kf < km) (pφ : 0 < φ) :
    ∃ k, Double.gassmann fl kd km kf φ = some k ∧ Double.gassmann fl' kd km kf φ = some k ∧ Sz 59 k ∧ 0 < k := by
  obtain ⟨k, hk, nk⟩ := gassmann_near h.rounds pφ.le pd.le hd.le pf hf
  have key : Double.gassmann fl kd km kf φ = Double.gassmann fl' kd km kf φ ∧
      ∀ k, Double.gassmann fl' kd km kf φ = some k → IsDouble k := by
    unfold Double.gassmann
    rw [if_neg pφ.ne', if_neg hd.ne, if_neg pφ.ne', if_neg hd.ne]
    obtain ⟨e1, s1⟩ := h.sub hkm hkd (d := 58) (c := 110)
    obtain ⟨e2, s2⟩ := h.div hkd s1 (c := 168)
    obtain ⟨e3, s3⟩ := h.sub hkm hkf (d := 175) (c := 227)
    obtain ⟨e4, s4⟩ := h.mul s3 hφ (c := 267)
    obtain ⟨e5, s5⟩ := h.div hkf s4 (c := 442)
    have q1 : 0 ≤ fl' (kd / fl' (km - kd)) := h.nonneg (div_nonneg pd.le (h.nonneg (by linarith)))
    have q2 : 0 ≤ fl' (kf / fl' (fl' (km - kf) * φ)) :=
      h.nonneg (div_nonneg pf.le (h.nonneg (mul_nonneg (h.nonneg (by linarith)) pφ.le)))
    obtain ⟨e6, s6⟩ := h.add0 s2 s5 q1 q2 (d := 442) (c := 443)
    have q3 : 0 ≤ fl' (fl' (kd / fl' (km - kd)) + fl' (kf / fl' (fl' (km - kf) * φ))) := h.nonneg (add_nonneg q1 q2)
    obtain ⟨e7, s7⟩ := h.add0 one s6 zero_le_one q3 (d := 443) (c := 444)
    obtain ⟨e8, s8⟩ := h.div s6 s7 (c := 887)
    obtain ⟨e9, s9⟩ := h.mul s8 hkm (c := 1000)
    dsimp only
    rw [e1, e2, e3, e4, e5, e6, e7, e8, e9]
    refine ⟨rfl, fun k hk => ?_⟩
    rw [if_neg (not_lt.mpr q3)] at hk
    rw [← Option.some.inj hk]
    exact s9.1
  have b1 := satReal_ge pφ.le pd.le hd.le pf hf
  have b2 := satReal_le' pφ.le hd.le pf hf
  exact ⟨k, by rw [key.1, hk], hk, .of_near (key.2 k hk) nk (by norm_num) ((hkd.bounds pd).1.trans b1)
    (b2.trans (hkm.bounds (pd.trans hd)).2), nk.pos (pd.trans_le b1)⟩

theorem saturate {dry : ℝ × ℝ × ℝ} {km φ : ℝ} {fluid : ℝ × ℝ} (hd : SzRock 58 dry) (hkm : Sz 58 km) (hf : Sz 175 fluid.1)
    (hf2 : Sz 400 fluid.2) (hφ : Sz 40 φ) (pd : 0 < dry.1 ∧ 0 < dry.2.1 ∧ 0 < dry.2.2) (hdm : dry.1 < km) (pf : 0 < fluid.1)
    (pf2 : 0 < fluid.2) (hfm : fluid.1 < km) (pφ : 0 < φ) :
    Double.saturate fl pw dry km fluid φ = Double.saturate fl' pw' dry km fluid φ := by
  obtain ⟨k, e1, e2, sk, pk⟩ := h.gassmann hd.1 hkm hf hφ pd.1 hdm pf hfm pφ
  unfold Double.saturate
  rw [e1, e2]
  simp only [Option.map_some]
  unfold Double.saturatedDensity Double.primaryVelocity Double.secondaryVelocity
  obtain ⟨f1, g1⟩ := h.mul hφ hf2 (c := 440)
  have q1 : 0 < fl' (φ * fluid.2) := h.pos (mul_pos pφ pf2)
  obtain ⟨f2, g2⟩ := h.add0 hd.2.2 g1 pd.2.2.le q1.le (d := 440) (c := 441)
  have q2 : 0 < fl' (dry.2.2 + fl' (φ * fluid.2)) := h.pos (add_pos pd.2.2 q1)
  obtain ⟨f3, g3⟩ := h.fourThirds
  obtain ⟨f4, g4⟩ := h.mul g3 hd.2.1 (c := 59)
  have q4 : 0 < fl' (fl' (4 / 3) * dry.2.1) := h.pos (mul_pos (h.pos (by norm_num)) pd.2.1)
  obtain ⟨f5, g5⟩ := h.add0 sk g4 pk.le q4.le (d := 59) (c := 60)
  obtain ⟨f6, g6⟩ := h.div g5 g2 (c := 501)
  obtain ⟨f7, g7⟩ := h.div hd.2.1 g2 (c := 501)
  have q6 : 0 < fl' (fl' (k + fl' (fl' (4 / 3) * dry.2.1)) / fl' (dry.2.2 + fl' (φ * fluid.2))) :=
    h.pos (div_pos (h.pos (add_pos pk q4)) q2)
  have q7 : 0 < fl' (dry.2.1 / fl' (dry.2.2 + fl' (φ * fluid.2))) := h.pos (div_pos pd.2.1 q2)
  obtain ⟨f8, -⟩ := h.pow g6.2 q6 (y := 0.5) (by rw [abs_of_pos (by norm_num)]; norm_num) (c := 502)
  obtain ⟨f9, -⟩ := h.pow g7.2 q7 (y := 0.5) (by rw [abs_of_pos (by norm_num)]; norm_num) (c := 502)
  rw [f1, f2, f3, f4, f5, f6, f7, f8, f9]

end Same

variable {fl : ℝ → ℝ} {pw : ℝ → ℝ → ℝ}

/-- **C175 (C171 with bounded exponents).** A whole row in double arithmetic whose exponents are bounded: with ordinary
numbers in the input, nothing overflows or loses digits near zero, so that the results are as accurate as in C171. -/
theorem C175_row (hfl : RoundsInRange fl) (hp : PowerInRange pw) {R m n : ℕ}
    -- minerals
    (a : Published.Rock) (t : ℝ) (M : List (Published.Rock × ℝ)) (hm : M.length = m) (ht : 0 ≤ t)
    (hf : ∀ x ∈ M, 0 ≤ x.2) (hpos : ∀ x ∈ a :: M.map (fun x => x.1), 0 < x.K ∧ 0 < x.G ∧ 0 < x.ρ)
    (hratio : WithinRatio R (a :: M.map fun x => x.1)) (hR2 : R ≤ 1000) (hm2 : m ≤ 100)
    (oa : OrdinaryRock a) (ot : Ordinary t) (oM : ∀ x ∈ M, OrdinaryRock x.1 ∧ Ordinary x.2)
    -- fluids
    (L : List (Published.Fluid × ℝ)) (hn : L.length = n) (hs : ∀ x ∈ L, 0 ≤ x.2) (hS : 2e-15 ≤ (L.map fun x => x.2).sum)
    (hfp : ∀ x ∈ L, 0 < x.1.K ∧ 0 < x.1.ρ) (hn2 : n ≤ 1000000) (oL : ∀ x ∈ L, OrdinaryFluid x.1 ∧ Ordinary x.2)
    -- dry rock
    (dry : Published.Rock) (hdry : 0 < dry.K ∧ 0 < dry.G ∧ 0 < dry.ρ) {φ : ℝ} (hφ : 0 < φ) (hφ1 : φ ≤ 1)
    (odry : OrdinaryRock dry) (oφ : Ordinary φ)
    (hKd : dry.K ≤ 0.99 * (Published.addMinerals a t M).K)
    (hKf : (Published.wood L).K ≤ 0.99 * (Published.addMinerals a t M).K) :
    let K := Published.gassmann dry.K (Published.addMinerals a t M).K (Published.wood L).K φ
    let ρ := dry.ρ + φ * (Published.wood L).ρ
    ∃ k ρ' vp vs, Double.saturate fl pw (tri dry) (Double.mixLoop fl pw (tri a) t (M.map fun x => (tri x.1, x.2))).1
        (Double.wood fl (rowsOf L)) φ = some (k, dry.G, ρ', vp, vs) ∧
      Accurate (1672 * m ^ 2 * R ^ 2 + 2 * n + 12) K k ∧ Accurate (2 * n + 4) ρ ρ' ∧
      Accurate (1672 * m ^ 2 * R ^ 2 + 4 * n + 21) (Real.sqrt ((K + 4 / 3 * dry.G) / ρ)) vp ∧
      Accurate (2 * n + 8) (Real.sqrt (dry.G / ρ)) vs := by
  obtain ⟨fl', pw', h⟩ := same_exists hfl hp
  obtain ⟨e1, s1, -, -, -, -⟩ := minerals_same h a t ht ot oa hR2 M (by omega) hf hpos hratio oM
  obtain ⟨e2, s2, s3⟩ := h.wood L (by omega) hs hfp oL
  obtain ⟨⟨nKm, -, -⟩, ⟨hKm, -, -⟩, hJ⟩ := minerals_near h.rounds h.accurate a t M hm ht ot.1 hf hpos hratio hR2 hm2
  obtain ⟨pK, pρ, nK, nρ⟩ := wood_near h.rounds L hs hS (fun x hx => (hfp x hx).1) (fun x hx => (hfp x hx).2) (by omega)
  have e3 := h.saturate (dry := tri dry) (km := (Double.mixLoop fl' pw' (tri a) t (M.map fun x => (tri x.1, x.2))).1)
    (fluid := Double.wood fl' (rowsOf L)) (φ := φ)
    ⟨odry.1.sz.mono (by norm_num), odry.2.1.sz.mono (by norm_num), odry.2.2.sz.mono (by norm_num)⟩ (s1.1.mono (by norm_num))
    (s2.mono (by norm_num)) (s3.mono (by norm_num)) oφ.sz hdry
    (near_softer hKm hKd (Near.refl (2 ^ 44) hdry.1.le) (nKm.mono hJ) (by norm_num)) (nK.pos pK) (nρ.pos pρ)
    (near_softer hKm hKf (nK.mono (by omega)) (nKm.mono hJ) (by norm_num)) hφ
  rw [e1, e2, e3]
  exact C171_row h.rounds h.accurate a t M hm ht ot.1 hf hpos hratio hR2 hm2 L hn hs hS hfp hn2 dry hdry hφ hφ1 hKd hKf

/-- **C175 (C174 with bounded exponents).** The same with the dry rock from the friable sand model. -/
theorem C175_friable_row (hfl : RoundsInRange fl) (hp : PowerInRange pw) {R S m n : ℕ}
    -- minerals
    (a : Published.Rock) (t : ℝ) (M : List (Published.Rock × ℝ)) (hm : M.length = m) (ht : 0 ≤ t)
    (hf : ∀ x ∈ M, 0 ≤ x.2) (hpos : ∀ x ∈ a :: M.map (fun x => x.1), 0 < x.K ∧ 0 < x.G ∧ 0 < x.ρ)
    (hratio : WithinRatio R (a :: M.map fun x => x.1)) (hR2 : R ≤ 500) (hm2 : m ≤ 50)
    (oa : OrdinaryRock a) (ot : Ordinary t) (oM : ∀ x ∈ M, OrdinaryRock x.1 ∧ Ordinary x.2)
    -- fluids
    (L : List (Published.Fluid × ℝ)) (hn : L.length = n) (hs : ∀ x ∈ L, 0 ≤ x.2) (hS : 2e-15 ≤ (L.map fun x => x.2).sum)
    (hfp : ∀ x ∈ L, 0 < x.1.K ∧ 0 < x.1.ρ) (hn2 : n ≤ 1000000) (oL : ∀ x ∈ L, OrdinaryFluid x.1 ∧ Ordinary x.2)
    -- friable sand
    {φ φc P C f : ℝ} (hφ : 0 < φ) (hφ1 : φ ≤ φc) (hc : φc < 1) (hC : 0 < C) (hf0 : 0 ≤ f)
    (oφ : Ordinary φ) (oc : Ordinary φc) (oP : Ordinary P) (oC : Ordinary C) (of : Ordinary f)
    (hP : Sensible (Published.addMinerals a t M).G φc P C)
    (hpack : WithinRatio S [Published.addMinerals a t M, Published.hertzMindlin (Published.addMinerals a t M) φc P C f])
    (hS2 : S ≤ 100000)
    (hKd : (Published.friableSand (Published.addMinerals a t M) φ φc P C f).K ≤ 0.99 * (Published.addMinerals a t M).K)
    (hKf : (Published.wood L).K ≤ 0.99 * (Published.addMinerals a t M).K) :
    let dry := Published.friableSand (Published.addMinerals a t M) φ φc P C f
    let K := Published.gassmann dry.K (Published.addMinerals a t M).K (Published.wood L).K φ
    let ρ := dry.ρ + φ * (Published.wood L).ρ
    let D : ℕ := 6 * (1672 * m ^ 2 * R ^ 2) + 78 + 1672 * S ^ 2
    let mineral := Double.mixLoop fl pw (tri a) t (M.map fun x => (tri x.1, x.2))
    ∃ k g ρ' vp vs, Double.saturate fl pw (Double.friableSand fl pw mineral φ φc P C f) mineral.1
        (Double.wood fl (rowsOf L)) φ = some (k, g, ρ', vp, vs) ∧
      Accurate (D + 2 * n + 12) K k ∧ Accurate D dry.G g ∧ Accurate (D + 2 * n + 4) ρ ρ' ∧
      Accurate (2 * D + 4 * n + 21) (Real.sqrt ((K + 4 / 3 * dry.G) / ρ)) vp ∧
      Accurate (2 * D + 2 * n + 8) (Real.sqrt (dry.G / ρ)) vs := by
  obtain ⟨fl', pw', h⟩ := same_exists hfl hp
  obtain ⟨e1, s1, -, -, -, hbox⟩ := minerals_same h a t ht ot oa (by omega) M (by omega) hf hpos hratio oM
  obtain ⟨e2, s2, s3⟩ := h.wood L (by omega) hs hfp oL
  obtain ⟨nM, hMp, hJ⟩ := minerals_near h.rounds h.accurate a t M hm ht ot.1 hf hpos hratio (by omega) (by omega)
  obtain ⟨pK, pρ, nK, nρ⟩ := wood_near h.rounds L hs hS (fun x hx => (hfp x hx).1) (fun x hx => (hfp x hx).2) (by omega)
  have hJ1 : 1672 * m ^ 2 * R ^ 2 ≤ 1672 * 50 ^ 2 * 500 ^ 2 := by gcongr
  have hS' : 1672 * S ^ 2 ≤ 1672 * 100000 ^ 2 := by gcongr
  have hD : 6 * (1672 * m ^ 2 * R ^ 2) + 78 + 1672 * S ^ 2 ≤ 2 ^ 45 := by omega
  have hD' : 6 * (1672 * m ^ 2 * R ^ 2) + 78 + 1672 * S ^ 2 ≤ 2 ^ 50 := by omega
  obtain ⟨e4, s4⟩ := h.friableSand hbox nM s1 hφ.le hφ1 (by linarith) hc hC hf0 hP hpack hS2 hD' oφ oc oP oC of
  obtain ⟨nd, pd⟩ := friable_near h.rounds h.accurate hMp nM hφ.le hφ1 (by linarith) hc hC hf0 hP hpack hD'
  have e3 := h.saturate
    (dry := Double.friableSand fl' pw' (Double.mixLoop fl' pw' (tri a) t (M.map fun x => (tri x.1, x.2))) φ φc P C f)
    (km := (Double.mixLoop fl' pw' (tri a) t (M.map fun x => (tri x.1, x.2))).1)
    (fluid := Double.wood fl' (rowsOf L)) (φ := φ) s4 (s1.1.mono (by norm_num)) (s2.mono (by norm_num))
    (s3.mono (by norm_num)) oφ.sz
    ⟨nd.1.pos pd.1, nd.2.1.pos pd.2.1, nd.2.2.pos pd.2.2⟩
    (near_softer hMp.1 hKd (nd.1.mono hD) (nM.1.mono (by omega)) le_rfl) (nK.pos pK) (nρ.pos pρ)
    (near_softer hMp.1 hKf (nK.mono (by omega)) (nM.1.mono (by omega)) le_rfl) hφ
  have key := C174_row h.rounds h.accurate a t M hm ht ot.1 hf hpos hratio hR2 hm2 L hn hs hS hfp hn2 hφ hφ1 hc hC hf0 hP hpack hS2
    hKd hKf
  dsimp only at key ⊢
  rw [e1, e2, e4, e3]
  exact key

end OPE
