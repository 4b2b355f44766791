import Verif.Props.Rounding12

/-!
# Double arithmetic: friable sand (C173) and rows with friable sand (C174)
-/

namespace OPE

open Classical

variable {fl : ℝ → ℝ} {pw : ℝ → ℝ → ℝ}

theorem one_sub_nuR {K G : ℝ} (hK : 0 < K) (hG : 0 < G) :
    1 - nuR K G = (3 * K + 4 * G) / (2 * (3 * K + G)) ∧ 2 - nuR K G = (9 * K + 6 * G) / (2 * (3 * K + G)) := by
  have : 2 * (3 * K + G) ≠ 0 := by positivity
  unfold nuR
  constructor
  · field_simp; ring
  · field_simp; ring

/-- Hertz-Mindlin moduli of grains that are known up to `j` rounding errors. -/
theorem hm_sensitivity {K G K' G' φ P C f : ℝ} {j : ℕ} (hK : 0 < K) (hG : 0 < G) (nK : Near j K K') (nG : Near j G G')
    (hφ : φ < 1) (hP : 0 < P) (hC : 0 < C) (hf : 0 ≤ f) :
    Near (6 * j) (hmK K G φ P C) (hmK K' G' φ P C) ∧ Near (6 * j) (hmG K G φ P C f) (hmG K' G' φ P C f) := by
  have hK' := nK.pos hK
  have hG' := nG.pos hG
  have h1φ : 0 < 1 - φ := by linarith
  have hπ := Real.pi_pos
  have num : ∀ x : ℝ, 0 ≤ x → Near 0 x x := fun x hx => Near.refl 0 hx
  have lin : ∀ a b : ℝ, 0 ≤ a → 0 ≤ b → Near j (a * K + b * G) (a * K' + b * G') := by
    intro a b ha hb
    have := ((num a ha).mul nK).add ((num b hb).mul nG)
    exact this.mono (by omega)
  have d : Near j (2 * (3 * K + G)) (2 * (3 * K' + G')) := by
    have := (num 2 (by norm_num)).mul (lin 3 1 (by norm_num) (by norm_num))
    rw [one_mul, one_mul] at this
    exact this.mono (by omega)
  have n1 : Near (2 * j) (1 - nuR K G) (1 - nuR K' G') := by
    rw [(one_sub_nuR hK hG).1, (one_sub_nuR hK' hG').1]
    exact ((lin 3 4 (by norm_num) (by norm_num)).div d (by positivity)).mono (by omega)
  have n2 : Near (2 * j) (2 - nuR K G) (2 - nuR K' G') := by
    rw [(one_sub_nuR hK hG).2, (one_sub_nuR hK' hG').2]
    exact ((lin 9 6 (by norm_num) (by norm_num)).div d (by positivity)).mono (by omega)
  have hν := (nuR_lt K G hK hG).1
  have p1 : 0 < 1 - nuR K G := by linarith
  have p2 : 0 < 2 - nuR K G := by linarith
  have na : Near (3 * j) (hmA K G φ P C) (hmA K' G' φ P C) := by
    have m1 := ((num (3 * Real.pi) (by positivity)).mul n1).mul (num P hP.le)
    have m2 := (num (2 * C * (1 - φ)) (by positivity)).mul nG
    have m3 := m1.div m2 (by positivity)
    exact (m3.rpow (by positivity) (p := 1 / 3) (by norm_num) (by norm_num)).mono (by omega)
  have s1 : Near (6 * j) (4 * hmA K G φ P C * G / (1 - nuR K G)) (4 * hmA K' G' φ P C * G' / (1 - nuR K' G')) :=
    ((((num 4 (by norm_num)).mul na).mul nG).div n1 p1).mono (by omega)
  have s2 : Near (6 * j) (8 * hmA K G φ P C * G / (2 - nuR K G)) (8 * hmA K' G' φ P C * G' / (2 - nuR K' G')) :=
    ((((num 8 (by norm_num)).mul na).mul nG).div n2 p2).mono (by omega)
  have c1 := num (C * (1 - φ) / (12 * Real.pi)) (by positivity)
  have c2 := num (C * (1 - φ) / (20 * Real.pi)) (by positivity)
  refine ⟨(c1.mul s1).mono (by omega), ?_⟩
  have t := s1.add ((((num 1.5 (by norm_num)).mul s2)).mul (num f hf))
  exact (c2.mul t).mono (by omega)

theorem Near.le_eighth {k : ℕ} {x y : ℝ} (h : Near k x y) (hk : k ≤ 2 ^ 50) : 7 / 8 * y ≤ x ∧ 7 / 8 * x ≤ y := by
  have h1 : (7 : ℝ) / 8 ≤ (1 - unit) ^ k := by
    refine le_trans ?_ (Near.sub_one_pow k)
    have : (k : ℝ) * unit ≤ 2 ^ 50 * unit := mul_le_mul_of_nonneg_right (by exact_mod_cast hk) unit_pos.le
    have e : (2 : ℝ) ^ 50 * unit = 1 / 8 := by unfold unit; norm_num
    linarith
  have h2 := h.2.1
  have h3 := h.2.2
  have := mul_le_mul_of_nonneg_right h1 h.1
  have := mul_le_mul_of_nonneg_right h1 h.nonneg
  constructor <;> linarith

/-- One average in double arithmetic from inputs that all carry errors. -/
theorem walpole_step2 (hfl : RoundsToNearest fl) (hp : PowerAccurate pw) {x1 x2 z x1' x2' z' z'' r r' : ℝ} {R j : ℕ}
    (h1 : 0 < x1) (h2 : 0 < x2) (hR : 1 ≤ R) (h12 : x1 ≤ R * x2) (h21 : x2 ≤ R * x1) (n1 : Near j x1 x1') (n2 : Near j x2 x2')
    (nz : Near j z z') {k : ℕ} (nz' : Near k z' z'') (hk : k ≤ 7) (hr0 : 0 ≤ r) (hr1 : r ≤ 1) (hr0' : 0 ≤ r') (hr1' : r' ≤ 1)
    (nr : |r' - r| ≤ 4 * unit) (hR2 : R ≤ 2 ^ 30) (hsmall : j + 1672 * R ^ 2 ≤ 2 ^ 50) :
    Near (j + 1672 * R ^ 2) (Published.hashinShtrikman x1 x2 r z) (Double.walpole fl pw x1' x2' z'' r') := by
  have hu := unit_pos
  have hR' : (1 : ℝ) ≤ R := by exact_mod_cast hR
  have hunit : (2 : ℝ) ^ 50 * unit ≤ 1 := by unfold unit; norm_num
  have hz0 := nz.1
  have s1 : Near (8 * R ^ 2) (Published.hashinShtrikman x1 x2 r z) (Published.hashinShtrikman x1 x2 r' z) := by
    have hpos : 0 ≤ Published.hashinShtrikman x1 x2 r z := le_trans (lt_min h1 h2).le (hs_pos h1 h2 hz0 hr0 hr1).1
    refine Near.of_relative (ε := |r' - r| * R ^ 2) hpos (hs_fraction h1 h2 hz0 hr0 hr1 hr0' hr1' hR' h12 h21) ?_ ?_ (by positivity)
    · refine le_trans (mul_le_mul_of_nonneg_right ?_ hu.le) hunit
      have : 8 * R ^ 2 ≤ 2 ^ 50 := by omega
      exact_mod_cast this
    · calc |r' - r| * (R : ℝ) ^ 2 ≤ 4 * unit * (R : ℝ) ^ 2 := by gcongr
        _ = _ := by push_cast; ring
  have s2 : Near j (Published.hashinShtrikman x1 x2 r' z) (Published.hashinShtrikman x1' x2' r' z') :=
    hs_near h1 h2 hr0' hr1' n1 n2 nz
  have h1' := n1.pos h1
  have h2' := n2.pos h2
  have hj : j ≤ 2 ^ 50 := le_trans (Nat.le_add_right _ _) hsmall
  have s3 : Near (1664 * R ^ 2) (Published.hashinShtrikman x1' x2' r' z') (Double.walpole fl pw x1' x2' z'' r') := by
    have hk' : (k : ℝ) ≤ 7 := by exact_mod_cast hk
    have hR30 : (R : ℝ) ≤ 2 ^ 30 := by exact_mod_cast hR2
    have acc := walpole_near hfl hp h1' h2' nz' hr0' hr1' (R := 2 * R) (by linarith)
      (by
        have q1 := (n1.le_eighth hj).1
        have q2 := (n2.le_eighth hj).2
        have q3 : (R : ℝ) * (7 / 8 * x2) ≤ R * x2' := mul_le_mul_of_nonneg_left q2 (by positivity)
        have q4 : 0 < (R : ℝ) * x2' := by positivity
        linarith) (by
        calc ((k : ℝ) + 6) * (2 * R) ≤ (7 + 6) * (2 * 2 ^ 30) := by gcongr
          _ ≤ 2 ^ 40 := by norm_num)
    have hpos : 0 ≤ Published.hashinShtrikman x1' x2' r' z' := s2.nonneg
    unfold Accurate at acc
    rw [abs_of_nonneg hpos] at acc
    refine Near.of_relative (ε := 832 * (R : ℝ) ^ 2 * unit) hpos (acc.trans (mul_le_mul_of_nonneg_right ?_ hpos)) ?_ ?_ (by positivity)
    · calc 8 * ((k : ℝ) + 6) * (2 * R) ^ 2 / 2 ^ 52 ≤ 8 * (7 + 6) * (2 * R) ^ 2 / 2 ^ 52 := by gcongr
        _ = 832 * (R : ℝ) ^ 2 * unit := by unfold unit; ring
    · refine le_trans (mul_le_mul_of_nonneg_right ?_ hu.le) hunit
      have : 1664 * R ^ 2 ≤ 2 ^ 50 := by omega
      exact_mod_cast this
    · push_cast; linarith
  exact ((s1.trans s2).trans s3).mono (by omega)

theorem density_step2 (hfl : RoundsToNearest fl) {x1 x2 x1' x2' r r' : ℝ} {R j : ℕ} (h1 : 0 < x1) (h2 : 0 < x2) (hR : 1 ≤ R)
    (h12 : x1 ≤ R * x2) (h21 : x2 ≤ R * x1) (n1 : Near j x1 x1') (n2 : Near j x2 x2') (hr0 : 0 ≤ r) (hr1 : r ≤ 1)
    (hr0' : 0 ≤ r') (hr1' : r' ≤ 1) (nr : |r' - r| ≤ 4 * unit) (hsmall : j + 1672 * R ^ 2 ≤ 2 ^ 50) :
    Near (j + 1672 * R ^ 2) (r * x1 + (1 - r) * x2) (Double.walpoleDensity fl x1' x2' r') := by
  have hu := unit_pos
  have hR' : (1 : ℝ) ≤ R := by exact_mod_cast hR
  have hunit : (2 : ℝ) ^ 50 * unit ≤ 1 := by unfold unit; norm_num
  have hRR : 1 ≤ R ^ 2 := Nat.one_le_pow _ _ hR
  have hD0 : 0 ≤ r * x1 + (1 - r) * x2 := add_nonneg (mul_nonneg hr0 h1.le) (mul_nonneg (by linarith) h2.le)
  have s1 : Near (8 * R ^ 2) (r * x1 + (1 - r) * x2) (r' * x1 + (1 - r') * x2) := by
    refine Near.of_relative (ε := |r' - r| * R ^ 2) hD0 ?_ ?_ ?_ (by positivity)
    · have e : r' * x1 + (1 - r') * x2 - (r * x1 + (1 - r) * x2) = (r' - r) * (x1 - x2) := by ring
      rw [e, abs_mul, mul_assoc]
      refine mul_le_mul_of_nonneg_left ?_ (abs_nonneg _)
      have hmin : min x1 x2 ≤ r * x1 + (1 - r) * x2 := by
        have b1 := mul_le_mul_of_nonneg_left (min_le_left x1 x2) hr0
        have b2 := mul_le_mul_of_nonneg_left (min_le_right x1 x2) (by linarith : 0 ≤ 1 - r)
        linarith
      have h3 : |x1 - x2| ≤ R * min x1 x2 := by
        rcases le_total x1 x2 with h | h
        · rw [min_eq_left h, abs_of_nonpos (by linarith)]; linarith
        · rw [min_eq_right h, abs_of_nonneg (by linarith)]; linarith
      refine h3.trans ?_
      have hmin0 : 0 ≤ min x1 x2 := (lt_min h1 h2).le
      calc (R : ℝ) * min x1 x2 ≤ (R : ℝ) ^ 2 * min x1 x2 := by
            refine mul_le_mul_of_nonneg_right ?_ hmin0
            nlinarith
        _ ≤ _ := mul_le_mul_of_nonneg_left hmin (by positivity)
    · refine le_trans (mul_le_mul_of_nonneg_right ?_ hu.le) hunit
      have : 8 * R ^ 2 ≤ 2 ^ 50 := by omega
      exact_mod_cast this
    · calc |r' - r| * (R : ℝ) ^ 2 ≤ 4 * unit * (R : ℝ) ^ 2 := by gcongr
        _ = _ := by push_cast; ring
  have s2 : Near j (r' * x1 + (1 - r') * x2) (r' * x1' + (1 - r') * x2') := by
    have := ((Near.refl 0 hr0').mul n1).add ((Near.refl 0 (by linarith : 0 ≤ 1 - r')).mul n2)
    exact this.mono (by simp)
  have s3 : Near 3 (r' * x1' + (1 - r') * x2') (Double.walpoleDensity fl x1' x2' r') := by
    unfold Double.walpoleDensity
    split_ifs with h
    · rw [h, show r' * x2' + (1 - r') * x2' = x2' by ring]
      exact Near.refl 3 n2.nonneg
    · exact ((Near.fl0 hfl (mul_nonneg hr0' n1.nonneg)).add
        (((Near.fl0 hfl (sub_nonneg.mpr hr1')).mul (Near.refl 0 n2.nonneg)).fl hfl)).fl hfl
  exact ((s1.trans s2).trans s3).mono (by omega)

/-- Friable sand in double arithmetic from a mineral that is known up to `j` rounding errors. -/
theorem friable_near (hfl : RoundsToNearest fl) (hp : PowerAccurate pw) {a : Published.Rock} {a' : ℝ × ℝ × ℝ} {R j : ℕ}
    (ha : 0 < a.K ∧ 0 < a.G ∧ 0 < a.ρ) (na : NearRock j a a') {φ φc P C f : ℝ} (hφ0 : 0 ≤ φ) (hφ : φ ≤ φc) (hc0 : 0 < φc)
    (hc : φc < 1) (hC : 0 < C) (hf : 0 ≤ f) (h : Sensible a.G φc P C)
    (hratio : WithinRatio R [a, Published.hertzMindlin a φc P C f]) (hsmall : 6 * j + 78 + 1672 * R ^ 2 ≤ 2 ^ 50) :
    NearRock (6 * j + 78 + 1672 * R ^ 2) (Published.friableSand a φ φc P C f)
      (Double.friableSand fl pw a' φ φc P C f) ∧ 0 < (Published.friableSand a φ φc P C f).K ∧
      0 < (Published.friableSand a φ φc P C f).G ∧ 0 < (Published.friableSand a φ φc P C f).ρ := by
  have hu := unit_pos
  obtain ⟨nK, nG, nρ⟩ := na
  have hP := (hmA_base ha.1 ha.2.1 hc hC (h.sane ha.2.1 hc hC)).1
  have ha' : 0 < a'.1 ∧ 0 < a'.2.1 ∧ 0 < a'.2.2 := ⟨nK.pos ha.1, nG.pos ha.2.1, nρ.pos ha.2.2⟩
  have hj : j ≤ 2 ^ 50 := by omega
  -- the grain pack
  have hsane : Sane a'.2.1 φc P C := by
    obtain ⟨q1, q2⟩ := nG.le_two hj
    have hq : 0 < C * (1 - φc) := mul_pos hC (by linarith)
    constructor
    · refine le_trans ?_ h.1
      have := mul_le_mul_of_nonneg_left q1 hq.le
      norm_num at this ⊢
      nlinarith [mul_pos hq ha.2.1]
    · refine h.2.trans ?_
      have := mul_le_mul_of_nonneg_left q2 hq.le
      norm_num at this ⊢
      nlinarith [mul_pos hq ha'.2.1]
  obtain ⟨e1, e2⟩ := hm_published ha.1 ha.2.1 hc hP.le hC f
  obtain ⟨m1, m2, m3⟩ := hertzMindlin_near hfl hp ha'.1 ha'.2.1 ha'.2.2 hc hC hf hsane
  obtain ⟨s1, s2⟩ := hm_sensitivity ha.1 ha.2.1 nK nG hc hP hC hf
  have b1 : Near (6 * j + 78) (Published.hertzMindlin a φc P C f).K (Double.hertzMindlin fl pw a' φc P f C).1 := by
    have := s1.trans m1
    rw [e1] at this
    exact this
  have b2 : Near (6 * j + 78) (Published.hertzMindlin a φc P C f).G (Double.hertzMindlin fl pw a' φc P f C).2.1 := by
    have := s2.trans m2
    rw [e2] at this
    exact this
  have b3 : Near (6 * j + 78) (Published.hertzMindlin a φc P C f).ρ (Double.hertzMindlin fl pw a' φc P f C).2.2 := by
    have := (nρ.mul (Near.refl 0 (by linarith : 0 ≤ 1 - φc))).trans m3
    exact this.mono (by omega)
  have pb : 0 < (Published.hertzMindlin a φc P C f).K ∧ 0 < (Published.hertzMindlin a φc P C f).G ∧
      0 < (Published.hertzMindlin a φc P C f).ρ := by
    have hR0 : ∀ {x y : ℝ}, 0 < x → 0 ≤ y → x ≤ R * y → 0 < y := by
      intro x y hx hy hxy
      rcases hy.eq_or_lt with h0 | h0
      · rw [← h0, mul_zero] at hxy; linarith
      · exact h0
    have q := hratio a (by simp) (Published.hertzMindlin a φc P C f) (by simp)
    exact ⟨hR0 ha.1 b1.1 q.1, hR0 ha.2.1 b2.1 q.2.1, hR0 ha.2.2 b3.1 q.2.2⟩
  have q12 := hratio a (by simp) (Published.hertzMindlin a φc P C f) (by simp)
  have q21 := hratio (Published.hertzMindlin a φc P C f) (by simp) a (by simp)
  have hR : 1 ≤ R := by
    have h1 := (hratio a (by simp) a (by simp)).1
    by_contra hc
    have : R = 0 := by omega
    rw [this] at h1
    simp at h1
    linarith [ha.1]
  have hR2 : R ≤ 2 ^ 30 := by
    by_contra hc
    have h1 : 2 ^ 30 ≤ R := by omega
    have h2 : (2 ^ 30) ^ 2 ≤ R ^ 2 := Nat.pow_le_pow_left h1 2
    omega
  set b := Published.hertzMindlin a φc P C f with hb
  set b' := Double.hertzMindlin fl pw a' φc P f C with hb'
  set J := 6 * j + 78 with hJ
  have nK := nK.mono (show j ≤ J by omega)
  have nG := nG.mono (show j ≤ J by omega)
  have nρ := nρ.mono (show j ≤ J by omega)
  -- the fraction
  have hx0 : 0 ≤ φ / φc := div_nonneg hφ0 hc0.le
  have hx1 : φ / φc ≤ 1 := (div_le_one hc0).mpr hφ
  have one : IsDouble 1 := ⟨1, 0, by norm_num, by simp⟩
  have zero : IsDouble 0 := ⟨0, 0, by norm_num, by simp⟩
  set x := φ / φc
  have hy0 : 0 ≤ fl x := hfl.ge_double zero hx0
  have hy1 : fl x ≤ 1 := hfl.le_double one hx1
  set r' := fl (1 - fl x) with hr'
  have hr0' : 0 ≤ r' := hfl.ge_double zero (by linarith)
  have hr1' : r' ≤ 1 := hfl.le_double one (by linarith)
  have nr : |r' - (1 - x)| ≤ 4 * unit := by
    have c1 := hfl.error x
    have c2 := hfl.error (1 - fl x)
    rw [abs_of_nonneg hx0] at c1
    rw [abs_of_nonneg (by linarith : 0 ≤ 1 - fl x)] at c2
    have c3 : unit * x ≤ unit := by nlinarith
    have c4 : unit * (1 - fl x) ≤ unit := by nlinarith
    have : r' - (1 - x) = (r' - (1 - fl x)) - (fl x - x) := by ring
    rw [this]
    refine (abs_sub _ _).trans ?_
    linarith
  have hr0 : 0 ≤ 1 - x := by linarith
  have hr1 : 1 - x ≤ 1 := by linarith
  -- the average
  have nmG : Near J (min a.G b.G) (min a'.2.1 b'.2.1) := nG.min b2
  have nmK : Near J (min a.K b.K) (min a'.1 b'.1) := nK.min b1
  have pmG : 0 < min a.G b.G := lt_min ha.2.1 pb.2.1
  have pmK : 0 < min a.K b.K := lt_min ha.1 pb.1
  have pmG' := nmG.pos pmG
  have pmK' := nmK.pos pmK
  set g := min a'.2.1 b'.2.1 with hg
  set k := min a'.1 b'.1 with hk
  have nz1 : Near J (4 / 3 * min a.G b.G) (4 / 3 * g) :=
    ((Near.refl 0 (by norm_num : (0:ℝ) ≤ 4 / 3)).mul nmG).mono (by omega)
  have nz1' : Near 2 (4 / 3 * g) (fl (fl (4 / 3) * g)) :=
    ((Near.fl0 hfl (by norm_num : (0:ℝ) ≤ 4 / 3)).mul (Near.refl 0 pmG'.le)).fl hfl
  have nz2 := zeta_near pmK pmG nmK nmG
  have nz2' : Near 7 (Published.zeta k g) (fl (fl (fl (g / 6) * fl (fl (9 * k) + fl (8 * g))) / fl (k + fl (2 * g)))) := by
    have z1 : Near 1 (g / 6) (fl (g / 6)) := Near.fl0 hfl (by positivity)
    have z2 : Near 2 (9 * k + 8 * g) (fl (fl (9 * k) + fl (8 * g))) :=
      ((Near.fl0 hfl (by positivity)).add (Near.fl0 hfl (by positivity))).fl hfl
    have z3 : Near 2 (k + 2 * g) (fl (k + fl (2 * g))) :=
      ((Near.refl 0 pmK'.le).add (Near.fl0 hfl (by positivity))).fl hfl
    have := (((z1.mul z2).fl hfl).div z3 (by positivity)).fl hfl
    unfold Published.zeta
    rwa [← mul_div_assoc]
  have sK := walpole_step2 hfl hp ha.1 pb.1 hR q12.1 q21.1 nK b1 nz1 nz1' (by norm_num) hr0 hr1 hr0' hr1' nr hR2 hsmall
  have sG := walpole_step2 hfl hp ha.2.1 pb.2.1 hR q12.2.1 q21.2.1 nG b2 nz2 nz2' (by norm_num) hr0 hr1 hr0' hr1' nr hR2 hsmall
  have sR := density_step2 hfl ha.2.2 pb.2.2 hR q12.2.2 q21.2.2 nρ b3 hr0 hr1 hr0' hr1' nr hsmall
  refine ⟨⟨sK, sG, sR⟩, ?_, ?_, ?_⟩
  · exact (lt_min ha.1 pb.1).trans_le (hs_pos ha.1 pb.1 nz1.1 hr0 hr1).1
  · exact (lt_min ha.2.1 pb.2.1).trans_le (hs_pos ha.2.1 pb.2.1 nz2.1 hr0 hr1).1
  · have e : (Published.friableSand a φ φc P C f).ρ = (1 - x) * a.ρ + (1 - (1 - x)) * b.ρ := rfl
    rw [e]
    rcases hr0.eq_or_lt with h0 | h0
    · rw [← h0]; simp [pb.2.2]
    · have := mul_pos h0 ha.2.2
      have := mul_nonneg (by linarith : 0 ≤ 1 - (1 - x)) pb.2.2.le
      linarith

/-- **C173, friable sand.** In double arithmetic bulk modulus, shear modulus and density of friable sand are accurate to
`78 + 1672 R²` units of `2⁻⁵²`, where `R` bounds the contrast between the mineral and the grain pack at critical porosity. -/
theorem C173_friable (hfl : RoundsToNearest fl) (hp : PowerAccurate pw) {R : ℕ} (a : Published.Rock)
    (ha : 0 < a.K ∧ 0 < a.G ∧ 0 < a.ρ) {φ φc P C f : ℝ} (hφ0 : 0 ≤ φ) (hφ : φ ≤ φc) (hc0 : 0 < φc)
    (hc : φc < 1) (hC : 0 < C) (hf : 0 ≤ f) (h : Sensible a.G φc P C)
    (hratio : WithinRatio R [a, Published.hertzMindlin a φc P C f]) (hR : R ≤ 500000) :
    Accurate (78 + 1672 * R ^ 2) (Published.friableSand a φ φc P C f).K (Double.friableSand fl pw (tri a) φ φc P C f).1 ∧
      Accurate (78 + 1672 * R ^ 2) (Published.friableSand a φ φc P C f).G (Double.friableSand fl pw (tri a) φ φc P C f).2.1 ∧
      Accurate (78 + 1672 * R ^ 2) (Published.friableSand a φ φc P C f).ρ
        (Double.friableSand fl pw (tri a) φ φc P C f).2.2 := by
  have hb : 78 + 1672 * R ^ 2 ≤ 2 ^ 50 := by
    have : R ^ 2 ≤ 500000 ^ 2 := Nat.pow_le_pow_left hR 2
    omega
  obtain ⟨⟨n1, n2, n3⟩, -⟩ := friable_near (a' := tri a) (j := 0) hfl hp ha ⟨Near.refl 0 ha.1.le, Near.refl 0 ha.2.1.le, Near.refl 0 ha.2.2.le⟩ hφ0 hφ
    hc0 hc hC hf h hratio (by omega)
  have e : 6 * 0 + 78 + 1672 * R ^ 2 = 78 + 1672 * R ^ 2 := by omega
  rw [e] at n1 n2 n3
  exact ⟨by exact_mod_cast n1.accurate (hb.trans (by norm_num)), by exact_mod_cast n2.accurate (hb.trans (by norm_num)),
    by exact_mod_cast n3.accurate (hb.trans (by norm_num))⟩

/-- **C174.** A whole row with friable sand in double arithmetic: `m + 1` minerals averaged, the average taken for the grains of
a friable sand, `n` fluids mixed by Wood's law, the sand saturated by Gassmann's equation.  Nothing is refused.  With
`J = 1672 m² R²` (`R` bounds the contrasts between the minerals) and `D = 6 J + 78 + 1672 S²` (`S` bounds the contrast between
the average mineral and its grain pack at critical porosity), bulk modulus, shear modulus, density and both velocities
are accurate to `D + 2 n + 12`, `D`, `D + 2 n + 4`, `2 D + 4 n + 21` and `2 D + 2 n + 8` units of `2⁻⁵²`.  The sand and the fluid
have to be softer than the mineral, by at least one percent. -/
theorem C174_row (hfl : RoundsToNearest fl) (hp : PowerAccurate pw) {R S m n : ℕ}
    -- minerals
    (a : Published.Rock) (t : ℝ) (M : List (Published.Rock × ℝ)) (hm : M.length = m) (ht : 0 ≤ t) (hd : IsDouble t)
    (hf : ∀ x ∈ M, 0 ≤ x.2) (hpos : ∀ x ∈ a :: M.map (fun x => x.1), 0 < x.K ∧ 0 < x.G ∧ 0 < x.ρ)
    (hratio : WithinRatio R (a :: M.map fun x => x.1)) (hR2 : R ≤ 500) (hm2 : m ≤ 50)
    -- fluids
    (L : List (Published.Fluid × ℝ)) (hn : L.length = n) (hs : ∀ x ∈ L, 0 ≤ x.2) (hS : 2e-15 ≤ (L.map fun x => x.2).sum)
    (hfp : ∀ x ∈ L, 0 < x.1.K ∧ 0 < x.1.ρ) (hn2 : n ≤ 1000000)
    -- friable sand
    {φ φc P C f : ℝ} (hφ : 0 < φ) (hφ1 : φ ≤ φc) (hc : φc < 1) (hC : 0 < C) (hf0 : 0 ≤ f)
    (hP : Sensible (Published.addMinerals a t M).G φc P C)
    (hpack : WithinRatio S [Published.addMinerals a t M, Published.hertzMindlin (Published.addMinerals a t M) φc P C f])
    (hS2 : S ≤ 100000)
    (hKd : (Published.friableSand (Published.addMinerals a t M) φ φc P C f).K ≤ 0.99 * (Published.addMinerals a t M).K)
    (hKf : (Published.wood L).K ≤ 0.99 * (Published.addMinerals a t M).K) :
    let dry := Published.friableSand (Published.addMinerals a t M) φ φc P C f
    let K := Published.gassmann dry.K (Published.addMinerals a t M).K (Published.wood L).K φ
    let ρ := dry.ρ + φ * (Published.wood L).ρ
    let D : ℕ := 6 * (1672 * m ^ 2 * R ^ 2) + 78 + 1672 * S ^ 2
    let mineral := Double.mixLoop fl pw (tri a) t (M.map fun x => (tri x.1, x.2))
    ∃ k g ρ' vp vs, Double.saturate fl pw (Double.friableSand fl pw mineral φ φc P C f) mineral.1
        (Double.wood fl (rowsOf L)) φ = some (k, g, ρ', vp, vs) ∧
      Accurate (D + 2 * n + 12) K k ∧ Accurate D dry.G g ∧ Accurate (D + 2 * n + 4) ρ ρ' ∧
      Accurate (2 * D + 4 * n + 21) (Real.sqrt ((K + 4 / 3 * dry.G) / ρ)) vp ∧
      Accurate (2 * D + 2 * n + 8) (Real.sqrt (dry.G / ρ)) vs := by
  intro dry K ρ D mineral
  obtain ⟨nM, hMp, -⟩ := minerals_near hfl hp a t M hm ht hd hf hpos hratio (by omega) (by omega)
  have hJ : 1672 * m ^ 2 * R ^ 2 ≤ 1672 * 50 ^ 2 * 500 ^ 2 := by gcongr
  have hS' : 1672 * S ^ 2 ≤ 1672 * 100000 ^ 2 := by gcongr
  have hDb : D ≤ 2 ^ 44 + 2 ^ 43 := by
    show 6 * (1672 * m ^ 2 * R ^ 2) + 78 + 1672 * S ^ 2 ≤ _
    omega
  obtain ⟨⟨nd1, nd2, nd3⟩, pd1, pd2, pd3⟩ := friable_near hfl hp hMp nM hφ.le hφ1 (by linarith) hc hC hf0 hP hpack
    (by show D ≤ _; omega)
  obtain ⟨pK, pρ, nK, nρ⟩ := wood_near hfl L hs hS (fun x hx => (hfp x hx).1) (fun x hx => (hfp x hx).2) (by omega)
  obtain ⟨nKm, -, -⟩ := nM
  have hKm := hMp.1
  set Km := (Published.addMinerals a t M).K with hKmd
  set Km' := mineral.1 with hKmd'
  set Kf := (Published.wood L).K with hKfd
  set Kf' := (Double.wood fl (rowsOf L)).1 with hKfd'
  set dry' := Double.friableSand fl pw mineral φ φc P C f with hdry'
  change Near D dry.K dry'.1 at nd1
  change Near D dry.G dry'.2.1 at nd2
  change Near D dry.ρ dry'.2.2 at nd3
  change 0 < dry.K at pd1
  change 0 < dry.G at pd2
  change 0 < dry.ρ at pd3
  change dry.K ≤ 0.99 * Km at hKd
  have hJD : 1672 * m ^ 2 * R ^ 2 ≤ D := by
    show _ ≤ 6 * (1672 * m ^ 2 * R ^ 2) + 78 + 1672 * S ^ 2
    omega
  have hDD : D = 6 * (1672 * m ^ 2 * R ^ 2) + 78 + 1672 * S ^ 2 := rfl
  clear_value D mineral dry
  rw [hn] at nK nρ
  set j := D + 2 * n + 3 with hj
  have nKm' : Near j Km Km' := nKm.mono (by omega)
  have nKf' : Near j Kf Kf' := nK.mono (by omega)
  have nKd : Near j dry.K dry'.1 := nd1.mono (by omega)
  have hsmall : (0.996 : ℝ) ≤ (1 - unit) ^ j := by
    refine le_trans ?_ (Near.sub_one_pow j)
    have hjb : j ≤ 2 ^ 45 := by omega
    have : (j : ℝ) * unit ≤ 2 ^ 45 * unit := mul_le_mul_of_nonneg_right (by exact_mod_cast hjb) unit_pos.le
    have e : (2 : ℝ) ^ 45 * unit = 1 / 256 := by unfold unit; norm_num
    rw [e] at this
    norm_num
    linarith
  have hKm1 : 0.996 * Km ≤ Km' := (mul_le_mul_of_nonneg_right hsmall hKm.le).trans nKm'.2.1
  have hKf1 : 0.996 * Kf' ≤ Kf := (mul_le_mul_of_nonneg_right hsmall nKf'.nonneg).trans nKf'.2.2
  have hKd1 : 0.996 * dry'.1 ≤ dry.K := (mul_le_mul_of_nonneg_right hsmall nKd.nonneg).trans nKd.2.2
  have hd1 : dry'.1 < Km' := by norm_num at *; linarith
  have hf1 : Kf' < Km' := by norm_num at *; linarith
  have hd2 : dry.K < Km := by norm_num at *; linarith
  have hf2 : Kf < Km := by norm_num at *; linarith
  obtain ⟨k, hk, nk⟩ := gassmann_near hfl hφ.le nKd.nonneg hd1.le (nKf'.pos pK) hf1
  have hKe : K = satReal dry.K Km Kf φ := by
    rw [← satReal_eq hφ pd1.le hd2 pK hf2, gFactor_published hφ pd1.le hd2 pK hf2]
  have nk' : Near (D + 2 * n + 12) K k := by
    rw [hKe]
    exact ((satReal_near hφ (by linarith) pd1 hd2 pK hf2 hd1 hf1 nKd nKm' nKf').trans nk).mono (by omega)
  have hK0 : 0 < K := by rw [hKe]; exact satReal_pos hφ pd1 hd2 pK hf2
  have nρ' : Near (D + 2 * n + 4) ρ (Double.saturatedDensity fl dry'.2.2 (Double.wood fl (rowsOf L)).2 φ) := by
    have := ((nd3.add (((Near.refl 0 hφ.le).mul nρ).fl hfl)).fl hfl)
    refine this.mono ?_
    have : max D (0 + (2 * n + 2) + 1) ≤ D + 2 * n + 3 := max_le (by omega) (by omega)
    omega
  have hρ0 : 0 < ρ := add_pos pd3 (mul_pos hφ pρ)
  set ρ' := Double.saturatedDensity fl dry'.2.2 (Double.wood fl (rowsOf L)).2 φ with hρ'
  have root : ∀ {k : ℕ} {x y : ℝ}, Near k x y → 0 < x → Near (k + 3) (Real.sqrt x) (pw y 0.5) := by
    intro k x y h hx
    rw [Real.sqrt_eq_rpow]
    have h1 := h.rpow hx (p := 1 / 2) (by norm_num) (by norm_num)
    have h2 := Near.of_accurate (Real.rpow_nonneg (h.pos hx).le _) (hp y 0.5 (h.pos hx))
    rw [show (0.5 : ℝ) = 1 / 2 by norm_num] at h2 ⊢
    exact h1.trans h2
  have n1 : Near (2 * D + 4 * n + 18) ((K + 4 / 3 * dry.G) / ρ) (fl (fl (k + fl (fl (4 / 3) * dry'.2.1)) / ρ')) := by
    have := ((((nk'.add (((Near.fl0 hfl (by norm_num : (0:ℝ) ≤ 4 / 3)).mul nd2).fl hfl)).fl hfl).div nρ'
      hρ0).fl hfl)
    refine this.mono ?_
    rw [max_eq_left (by omega)]
    omega
  have n2 : Near (2 * D + 2 * n + 5) (dry.G / ρ) (fl (dry'.2.1 / ρ')) :=
    ((nd2.div nρ' hρ0).fl hfl).mono (by omega)
  have v1 := root n1 (by positivity)
  have v2 := root n2 (by positivity)
  refine ⟨k, dry'.2.1, ρ', Double.primaryVelocity fl pw k dry'.2.1 ρ', Double.secondaryVelocity fl pw dry'.2.1 ρ', ?_, ?_, ?_, ?_, ?_,
    ?_⟩
  · unfold Double.saturate
    dsimp only
    rw [hk]
    rfl
  · have := nk'.accurate (by omega)
    exact_mod_cast this
  · have := nd2.accurate (by omega)
    exact_mod_cast this
  · have := nρ'.accurate (by omega)
    exact_mod_cast this
  · have := v1.accurate (by omega)
    exact_mod_cast this
  · have := v2.accurate (by omega)
    exact_mod_cast this

end OPE
