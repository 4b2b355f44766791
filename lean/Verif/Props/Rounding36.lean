import Verif.Props.Rounding35
import Verif.Props.Rounding13

/-!
# C194: patchy cement in double arithmetic
-/

namespace OPE

variable {fl : ℝ → ℝ} {pw : ℝ → ℝ → ℝ}

/-- Clipping a ratio and multiplying by the denominator clips the numerator. -/
theorem clip_mul {a b : ℝ} (hb : 0 < b) : min 1 (max 0 (a / b)) * b = min b (max 0 a) := by
  rw [min_mul_of_nonneg _ _ hb.le, max_mul_of_nonneg _ _ hb.le, one_mul, zero_mul, div_mul_cancel₀ _ hb.ne']

theorem clip_bounds (z : ℝ) : 0 ≤ min 1 (max 0 z) ∧ min 1 (max 0 z) ≤ 1 :=
  ⟨le_min zero_le_one (le_max_left _ _), min_le_left _ _⟩

/-- The clipped ratio is not sensitive. -/
theorem clip_ratio {a b n d : ℝ} (hb : 0 < b) (hd : 0 < d) :
    |min 1 (max 0 (a / b)) - min 1 (max 0 (n / d))| * d ≤ |a - n| + 2 * |b - d| := by
  have e1 := clip_mul (a := a) hb
  have e2 := clip_mul (a := n) hd
  obtain ⟨w0, w1⟩ := clip_bounds (a / b)
  set w := min 1 (max 0 (a / b))
  set v := min 1 (max 0 (n / d))
  have : |w - v| * d = |w * (d - b) + (min b (max 0 a) - min d (max 0 n))| := by
    rw [← e1, ← e2, ← abs_of_pos hd, ← abs_mul, abs_of_pos hd]; congr 1; ring
  rw [this]
  refine (abs_add_le _ _).trans ?_
  have t1 : |w * (d - b)| ≤ |b - d| := by
    rw [abs_mul, abs_of_nonneg w0, abs_sub_comm d b]
    exact mul_le_of_le_one_left (abs_nonneg _) w1
  have t2 : |min b (max 0 a) - min d (max 0 n)| ≤ max |b - d| |max 0 a - max 0 n| := abs_min_sub_min_le_max _ _ _ _
  have t3 : |max 0 a - max 0 n| ≤ max |(0:ℝ) - 0| |a - n| := abs_max_sub_max_le_max _ _ _ _
  rw [sub_zero, abs_zero, max_eq_right (abs_nonneg (a - n))] at t3
  have := max_le_add_of_nonneg (abs_nonneg (b - d)) (abs_nonneg (max 0 a - max 0 n))
  linarith

/-- Rounding before clipping. -/
theorem clip_rounded (hf : RoundsToNearest fl) (z : ℝ) : |min 1 (max 0 (fl z)) - min 1 (max 0 z)| ≤ unit := by
  have hu := unit_pos
  have one : IsDouble 1 := ⟨1, 0, by norm_num, by simp⟩
  have zero : IsDouble 0 := ⟨0, 0, by norm_num, by simp⟩
  rcases le_total z 0 with h | h
  · have := hf.le_double zero h
    rw [max_eq_left h, max_eq_left this, sub_self, abs_zero]; exact hu.le
  rcases le_total 1 z with h1 | h1
  · have := hf.ge_double one h1
    rw [max_eq_right (by linarith), max_eq_right h, min_eq_left h1, min_eq_left this, sub_self, abs_zero]; exact hu.le
  · have a0 := hf.ge_double zero h
    have a1 := hf.le_double one h1
    rw [max_eq_right h, max_eq_right a0, min_eq_right h1, min_eq_right a1]
    refine (hf.error z).trans ?_
    rw [abs_of_nonneg h]
    nlinarith

/-- One modulus of patchy cement. -/
theorem patchy_modulus_near (hf : RoundsToNearest fl) {J T : ℕ} {loose line lo up loose' line' lo' up' : ℝ}
    (hl : 0 < loose) (n1 : Near J loose loose') (n2 : Near J line line') (n3 : Near J lo lo') (n4 : Near J up up')
    (h1 : lo ≤ loose) (h2 : loose ≤ up) (hu : up ≤ T * loose) (hx : line ≤ T * loose) (hJ1 : 1 ≤ J)
    (hJ : 200 * J * T ≤ 2 ^ 50) :
    Near (200 * J * T) (loose + Published.weight line lo up * (up - loose)) (Double.patchyModulus fl loose' line' lo' up') := by
  have hu0 := unit_pos
  have hu1 := unit_le
  have hT : 1 ≤ T := by
    by_contra hc
    have : T = 0 := by omega
    rw [this] at hu; simp at hu; linarith
  have hTr : (1 : ℝ) ≤ T := by exact_mod_cast hT
  have hJr : (1 : ℝ) ≤ J := by exact_mod_cast hJ1
  have hJ2 : J ≤ 2 ^ 52 := by nlinarith
  set M := T * loose with hM
  have hM0 : 0 < M := by positivity
  have hlM : loose ≤ M := by nlinarith
  set ε := J * (2 * unit) with hε
  have hε0 : 0 < ε := by positivity
  have huε : 2 * unit ≤ ε := by nlinarith
  have hJb : (200 : ℝ) * J * T ≤ 2 ^ 50 := by exact_mod_cast hJ
  have hu50 : (2 : ℝ) ^ 50 * unit = 1 / 8 := by unfold unit; norm_num
  have hε1 : ε ≤ 1 / 100 := by
    have : (200 : ℝ) * J * 1 ≤ 2 ^ 50 := le_trans (mul_le_mul_of_nonneg_left hTr (by positivity)) hJb
    have := mul_le_mul_of_nonneg_right this hu0.le
    rw [hu50] at this
    rw [hε]; linarith
  have hlo0 := n3.1
  have hx0 := n2.1
  have e1 : |loose' - loose| ≤ ε * M := (n1.abs_le hJ2).trans (mul_le_mul_of_nonneg_left hlM hε0.le)
  have e2 : |line' - line| ≤ ε * M := (n2.abs_le hJ2).trans (mul_le_mul_of_nonneg_left hx hε0.le)
  have e3 : |lo' - lo| ≤ ε * M := (n3.abs_le hJ2).trans (mul_le_mul_of_nonneg_left (h1.trans hlM) hε0.le)
  have e4 : |up' - up| ≤ ε * M := (n4.abs_le hJ2).trans (mul_le_mul_of_nonneg_left hu hε0.le)
  set Q := ε * M with hQ
  have hQ0 : 0 < Q := by positivity
  have hQM : Q ≤ M / 100 := by
    have := mul_le_mul_of_nonneg_right hε1 hM0.le; linarith
  have huM : unit * M ≤ Q / 2 := by
    have := mul_le_mul_of_nonneg_right huε hM0.le; linarith
  have diff : ∀ {a b a' b' : ℝ}, 0 ≤ a → 0 ≤ b → a ≤ M → b ≤ M → |a' - a| ≤ Q → |b' - b| ≤ Q →
      |fl (a' - b') - (a - b)| ≤ 3 * Q := by
    intro a b a' b' ha hb ha1 hb1 q1 q2
    have E := hf.error (a' - b')
    have t0 : |a' - b'| ≤ M + 2 * Q := by
      have q1 := abs_le.mp q1
      have q2 := abs_le.mp q2
      rw [abs_le]; constructor <;> linarith
    have t1 : unit * |a' - b'| ≤ Q := by
      refine (mul_le_mul_of_nonneg_left t0 hu0.le).trans ?_
      have : unit * Q ≤ 1.12e-16 * Q := mul_le_mul_of_nonneg_right hu1 hQ0.le
      norm_num at this
      linarith
    have q1 := abs_le.mp q1
    have q2 := abs_le.mp q2
    have E := abs_le.mp (E.trans t1)
    rw [abs_le]; constructor <;> linarith
  have hup0 : 0 ≤ up := by linarith
  have dN := diff hx0 hlo0 hx (h1.trans hlM) e2 e3
  have dD := diff hup0 hlo0 hu (h1.trans hlM) e4 e3
  have dU := diff hup0 hl.le hu hlM e4 e1
  have w01 : 0 ≤ Published.weight line lo up ∧ Published.weight line lo up ≤ 1 := by
    unfold Published.weight; split_ifs
    · exact ⟨zero_le_one, le_rfl⟩
    · exact clip_bounds _
  have w01' : 0 ≤ Double.patchyWeight fl line' lo' up' ∧ Double.patchyWeight fl line' lo' up' ≤ 1 := by
    unfold Double.patchyWeight; split_ifs
    · exact ⟨zero_le_one, le_rfl⟩
    · exact clip_bounds _
  have key : |Double.patchyWeight fl line' lo' up' - Published.weight line lo up| * (up - loose) ≤ 11 * Q := by
    rcases le_or_gt (up - lo) (10 * Q) with hs | hs
    · have b1 : |Double.patchyWeight fl line' lo' up' - Published.weight line lo up| ≤ 1 := by
        rw [abs_le]; constructor <;> linarith [w01.1, w01.2, w01'.1, w01'.2]
      have := mul_le_mul b1 (by linarith : up - loose ≤ 10 * Q) (by linarith) zero_le_one
      linarith
    · have ne : up ≠ lo := by intro h; rw [h] at hs; linarith
      have ne' : up' ≠ lo' := by
        intro h
        have e3 := abs_le.mp e3
        have e4 := abs_le.mp e4
        linarith
      unfold Published.weight Double.patchyWeight
      rw [if_neg ne, if_neg ne']
      have dD' := abs_le.mp dD
      have pD : 0 < fl (up' - lo') := by linarith
      have c1 := clip_rounded hf (fl (line' - lo') / fl (up' - lo'))
      have c2 := clip_ratio (a := fl (line' - lo')) (n := line - lo) pD (by linarith : 0 < up - lo)
      set A := min 1 (max 0 (fl (fl (line' - lo') / fl (up' - lo'))))
      set B := min 1 (max 0 (fl (line' - lo') / fl (up' - lo')))
      set D := min 1 (max 0 ((line - lo) / (up - lo)))
      have t : |A - D| ≤ |A - B| + |B - D| := by
        have : A - D = (A - B) + (B - D) := by ring
        rw [this]; exact abs_add_le _ _
      have d0 : 0 ≤ up - loose := by linarith
      have s1 : |A - D| * (up - loose) ≤ |A - D| * (up - lo) := mul_le_mul_of_nonneg_left (by linarith) (abs_nonneg _)
      have s2 := mul_le_mul_of_nonneg_right t (by linarith : 0 ≤ up - lo)
      have s3 : |A - B| * (up - lo) ≤ unit * M :=
        mul_le_mul c1 (by linarith) (by linarith) hu0.le
      linarith
  set w := Published.weight line lo up
  set w' := Double.patchyWeight fl line' lo' up'
  set U := fl (up' - loose') with hU
  have prod : |w' * U - w * (up - loose)| ≤ 14 * Q := by
    have : w' * U - w * (up - loose) = w' * (U - (up - loose)) + (w' - w) * (up - loose) := by ring
    rw [this]
    refine (abs_add_le _ _).trans ?_
    have a1 : |w' * (U - (up - loose))| ≤ 3 * Q := by
      rw [abs_mul, abs_of_nonneg w01'.1]
      exact (mul_le_of_le_one_left (abs_nonneg _) w01'.2).trans dU
    rw [abs_mul (w' - w), abs_of_nonneg (by linarith : 0 ≤ up - loose)]
    linarith
  have wU0 : 0 ≤ w * (up - loose) := mul_nonneg w01.1 (by linarith)
  have wU1 : w * (up - loose) ≤ M := by
    have := mul_le_mul_of_nonneg_right w01.2 (by linarith : 0 ≤ up - loose)
    linarith
  have P := hf.error (w' * U)
  have p1 : |w' * U| ≤ 2 * M := by
    have := abs_le.mp prod
    rw [abs_le]; constructor <;> linarith
  have p2 := P.trans (mul_le_mul_of_nonneg_left p1 hu0.le)
  have r1 : |fl (w' * U) - w * (up - loose)| ≤ 15 * Q := by
    have := abs_le.mp p2
    have := abs_le.mp prod
    rw [abs_le]; constructor <;> linarith
  have R := hf.error (loose' + fl (w' * U))
  have p3 : |loose' + fl (w' * U)| ≤ 3 * M := by
    have := abs_le.mp r1
    have := abs_le.mp e1
    rw [abs_le]; constructor <;> linarith
  have p4 := R.trans (mul_le_mul_of_nonneg_left p3 hu0.le)
  have fin : |Double.patchyModulus fl loose' line' lo' up' - (loose + w * (up - loose))| ≤ 20 * Q := by
    unfold Double.patchyModulus
    have := abs_le.mp p4
    have := abs_le.mp r1
    have := abs_le.mp e1
    rw [abs_le]; constructor <;> linarith
  refine Near.of_relative (ε := 20 * ε * T) (by linarith) ?_ ?_ ?_ (by positivity)
  · refine fin.trans ?_
    have : 20 * Q = 20 * ε * T * loose := by rw [hQ, hM]; ring
    rw [this]
    exact mul_le_mul_of_nonneg_left (by linarith) (by positivity)
  · push_cast
    have := mul_le_mul_of_nonneg_right hJb hu0.le
    linarith
  · push_cast
    rw [hε]
    have : 0 ≤ (J : ℝ) * unit * T := by positivity
    linarith

/-- The density of patchy cement. -/
theorem patchy_density_near (hf : RoundsToNearest fl) {φ φcem φc a b : ℝ} (ha : 0 < a) (hb : 0 < b) (h0 : 0 ≤ φ) (h1 : φ ≤ φcem)
    (h2 : φcem ≤ φc) (h3 : φc ≤ 0.9) :
    Near 122 ((1 - φ - (φc - φcem)) * a + (φc - φcem) * b)
      (fl (fl (fl (fl (1 - φ) - fl (φc - φcem)) * a) + fl (fl (φc - φcem) * b))) := by
  have hu := unit_pos
  have hu1 := unit_le
  norm_num at h3
  have s0 : 0 ≤ φc - φcem := by linarith
  have q1 := hf.error (1 - φ)
  have q2 := hf.error (φc - φcem)
  rw [abs_of_nonneg (by linarith : 0 ≤ 1 - φ)] at q1
  rw [abs_of_nonneg s0] at q2
  have u1 : |fl (1 - φ) - (1 - φ)| ≤ unit := q1.trans (by nlinarith)
  have u2 : |fl (φc - φcem) - (φc - φcem)| ≤ unit := q2.trans (by nlinarith)
  have n2 : Near 2 ((φc - φcem) * b) (fl (fl (φc - φcem) * b)) := ((Near.fl0 hf s0).mul (Near.refl 0 hb.le)).fl hf
  have q3 := hf.error (fl (1 - φ) - fl (φc - φcem))
  have u1' := abs_le.mp u1
  have u2' := abs_le.mp u2
  have b3 : |fl (1 - φ) - fl (φc - φcem)| ≤ 2 := by
    rw [abs_le]; norm_num at hu1; constructor <;> linarith
  have u3 := abs_le.mp (q3.trans (mul_le_mul_of_nonneg_left b3 hu.le))
  have n1 : Near 120 (1 - φ - (φc - φcem)) (fl (fl (1 - φ) - fl (φc - φcem))) := by
    refine Near.of_relative (ε := 40 * unit) (by linarith) ?_ ?_ ?_ (by positivity)
    · have : (0.1 : ℝ) ≤ 1 - φ - (φc - φcem) := by norm_num; linarith
      have := mul_le_mul_of_nonneg_left this (by positivity : 0 ≤ 40 * unit)
      norm_num at this
      rw [abs_le]; constructor <;> linarith
    · norm_num at hu1 ⊢; linarith
    · push_cast; linarith
  exact ((((n1.mul (Near.refl 0 ha.le)).fl hf).add n2).fl hf).mono (by norm_num)

/-- Patchy cement in double arithmetic. -/
theorem C194_patchy_cement (hfl : RoundsToNearest fl) (hp : PowerAccurate pw) {sand cement : Published.Rock}
    {φ φcem φub P Plb φc f Cf Cc : ℝ} {R S T : ℕ} (h : PatchyInput sand cement φ φcem φub P Plb φc f Cf Cc R S T)
    (hT : 1 ≤ T) (hsize : 200 * (18050 + 10032 * R ^ 2 + 1672 * S ^ 2) * T ≤ 2 ^ 50) :
    Accurate (200 * (18050 + 10032 * R ^ 2 + 1672 * S ^ 2) * T)
        (Published.patchyCement sand cement φ φcem φub P Plb φc f Cf Cc).K
        (Double.patchyCement fl pw (tri sand) (tri cement) φ φcem φub P Plb φc f Cf Cc).1 ∧
      Accurate (200 * (18050 + 10032 * R ^ 2 + 1672 * S ^ 2) * T)
        (Published.patchyCement sand cement φ φcem φub P Plb φc f Cf Cc).G
        (Double.patchyCement fl pw (tri sand) (tri cement) φ φcem φub P Plb φc f Cf Cc).2.1 ∧
      Accurate 122 (Published.patchyCement sand cement φ φcem φub P Plb φc f Cf Cc).ρ
        (Double.patchyCement fl pw (tri sand) (tri cement) φ φcem φub P Plb φc f Cf Cc).2.2 := by
  have hu := unit_pos
  obtain ⟨pc0, pc1, pc2⟩ := h.part.porosity
  obtain ⟨pu0, pu1, -⟩ := h.full.porosity
  obtain ⟨φ0, φ1, φ2, φ3⟩ := h.porosity
  set J := 18050 + 10032 * R ^ 2 + 1672 * S ^ 2 with hJ
  have hJ2 : 200 * J ≤ 2 ^ 50 := le_trans (Nat.le_mul_of_pos_right _ hT) hsize
  have one : IsDouble 1 := ⟨1, 0, by norm_num, by simp⟩
  have zero : IsDouble 0 := ⟨0, 0, by norm_num, by simp⟩
  have x0 : 0 ≤ φc - φub := by linarith
  have x1 : φc - φub ≤ 1 := by linarith
  have ex : |fl (φc - φub) - (φc - φub)| ≤ 4 * unit := by
    have c1 := hfl.error (φc - φub)
    rw [abs_of_nonneg x0] at c1
    nlinarith
  obtain ⟨nmix, pmix⟩ := lowerBound_near hfl hp (J := 0) (a' := tri cement) (b' := tri sand) h.part.goodCement
    ⟨h.part.goodGrain.1.le, h.part.goodGrain.2.1.le, h.part.goodGrain.2.2.le⟩
    ⟨Near.refl 0 h.part.goodCement.1.le, Near.refl 0 h.part.goodCement.2.1.le, Near.refl 0 h.part.goodCement.2.2.le⟩
    ⟨Near.refl 0 h.part.goodGrain.1.le, Near.refl 0 h.part.goodGrain.2.1.le, Near.refl 0 h.part.goodGrain.2.2.le⟩ h.contrast
    (by omega) x0 x1 (hfl.ge_double zero x0) (hfl.le_double one x1) ex
  have hc0 : 0 < φc := by linarith
  have hφc : φ ≤ φc := by linarith
  obtain ⟨⟨a1, a2, -⟩, pa⟩ := friable_near hfl hp pmix nmix φ0 hφc hc0 pc2 h.contacts h.part.contacts.2 h.loads.1 h.ends.1 (by omega)
  obtain ⟨⟨b1, b2, -⟩, -⟩ := friable_near hfl hp pmix nmix φ0 hφc hc0 pc2 h.contacts h.part.contacts.2 h.loads.2 h.ends.2.1 (by omega)
  have big : ∀ (x : Published.Rock) (y : ℝ × ℝ × ℝ), NearRock 18050 x y → NearRock (18050 + 1672 * R ^ 2) x y :=
    fun x y q => ⟨q.1.mono (by omega), q.2.1.mono (by omega), q.2.2.mono (by omega)⟩
  have nmix' : NearRock (18050 + 1672 * R ^ 2) (Published.lowerBound cement sand (φc - φub))
      (Double.lowerBound fl pw (tri cement) (tri sand) (fl (φc - φub))) :=
    ⟨nmix.1.mono (by omega), nmix.2.1.mono (by omega), nmix.2.2.mono (by omega)⟩
  have cc : ∀ {x : ℝ}, CementInput cement sand x φc f Cc → NearRock 18050 (Published.contactCement cement sand x φc f Cc)
      (Double.contactCement fl pw (tri cement) (tri sand) x φc f Cc) := fun q =>
    (contactCement_near hfl hp q.goodCement q.goodGrain q.porosity.2.1 q.porosity.2.2 q.contacts.1 q.contacts.2 q.poissonGrain
      q.poissonCement q.stiff.1 q.stiff.2 q.heavy).1
  obtain ⟨f0, f1, f2, f3, f4⟩ := fraction_near hfl φ0 φ2 pu0
  obtain ⟨g0, g1, g2, g3, g4⟩ := fraction_near hfl φ0 φ1 pc0
  have n1 := cc h.full
  have n2 := cc h.part
  obtain ⟨⟨c1, c2, -⟩, -⟩ := lowerBound_near hfl hp pmix ⟨n1.1.1, n1.2.1.1, n1.2.2.1⟩ nmix' (big _ _ n1) h.ends.2.2.1 (by omega) f0 f1 f2 f3 f4
  obtain ⟨⟨d1, d2, -⟩, -⟩ := lowerBound_near hfl hp pmix ⟨n2.1.1, n2.2.1.1, n2.2.2.1⟩ nmix' (big _ _ n2) h.ends.2.2.2 (by omega) g0 g1 g2 g3 g4
  have K := patchy_modulus_near hfl (J := J) (T := T) pa.1 (a1.mono (by omega)) (d1.mono (by omega)) (b1.mono (by omega))
    (c1.mono (by omega)) h.betweenK.1 h.betweenK.2 h.boundedK.1 h.boundedK.2 (by omega) hsize
  have G := patchy_modulus_near hfl (J := J) (T := T) pa.2.1 (a2.mono (by omega)) (d2.mono (by omega)) (b2.mono (by omega))
    (c2.mono (by omega)) h.betweenG.1 h.betweenG.2 h.boundedG.1 h.boundedG.2 (by omega) hsize
  have D := patchy_density_near hfl h.part.goodGrain.2.2 h.part.goodCement.2.2 φ0 φ1 pc1.le φ3
  have e : (200 * (18050 + 10032 * (R : ℝ) ^ 2 + 1672 * (S : ℝ) ^ 2) * T) = ((200 * J * T : ℕ) : ℝ) := by
    rw [hJ]; push_cast; ring
  rw [e]
  exact ⟨K.accurate (hsize.trans (by norm_num)), G.accurate (hsize.trans (by norm_num)),
    by exact_mod_cast D.accurate (by norm_num)⟩

set_option maxHeartbeats 1600000 in
/-- Quartz grains with calcite cement (GPa, g/cm³), grain pack porosity 0.4, cemented porosity 0.35, porosity 0.3, at a low
pressure. -/
example : ∃ (sand cement : Published.Rock) (φ φcem φub P Plb φc f Cf Cc : ℝ) (R S T : ℕ),
    PatchyInput sand cement φ φcem φub P Plb φc f Cf Cc R S T ∧ 1 ≤ T ∧
      200 * (18050 + 10032 * R ^ 2 + 1672 * S ^ 2) * T ≤ 2 ^ 50 := by
  obtain ⟨m1, m2, m3⟩ := quartz_calcite_mix
  obtain ⟨c1, c2, c3⟩ := quartz_calcite
  have p3 := Real.pi_gt_d2
  have p4 := Real.pi_lt_d2
  have upperK : (Published.constantCement ⟨36.6, 45, 2.65⟩ ⟨76.8, 32, 2.71⟩ 0.3 0.35 0.4 1 9) =
      Published.lowerBound (Published.lowerBound ⟨76.8, 32, 2.71⟩ ⟨36.6, 45, 2.65⟩ (0.4 - 0.35))
        (Published.contactCement ⟨76.8, 32, 2.71⟩ ⟨36.6, 45, 2.65⟩ 0.35 0.4 1 9) (1 - 0.3 / 0.35) := rfl
  have key : ∀ mix cc : Published.Rock, (36.6 ≤ mix.K ∧ mix.K ≤ 76.8) → (32 ≤ mix.G ∧ mix.G ≤ 45) → (2.65 ≤ mix.ρ ∧ mix.ρ ≤ 2.71) →
      (3.2 ≤ cc.K ∧ cc.K ≤ 22) → (1.9 ≤ cc.G ∧ cc.G ≤ 66) → (1.7 ≤ cc.ρ ∧ cc.ρ ≤ 1.8) →
      WithinRatio 310 [mix, Published.hertzMindlin mix 0.4 1e-4 9 1] ∧ WithinRatio 310 [mix, cc] ∧ Sensible mix.G 0.4 1e-4 9 ∧
      (Published.friableSand mix 0.3 0.4 1e-4 9 1).K ≤ (Published.lowerBound mix cc (1 - 0.3 / 0.35)).K ∧
      (Published.friableSand mix 0.3 0.4 1e-4 9 1).G ≤ (Published.lowerBound mix cc (1 - 0.3 / 0.35)).G ∧
      (Published.lowerBound mix cc (1 - 0.3 / 0.35)).K ≤ (320:ℕ) * (Published.friableSand mix 0.3 0.4 1e-4 9 1).K ∧
      (Published.lowerBound mix cc (1 - 0.3 / 0.35)).G ≤ (320:ℕ) * (Published.friableSand mix 0.3 0.4 1e-4 9 1).G := by
    intro mix cc hK hG hρ kK kG kρ
    norm_num at hK hG hρ kK kG kρ
    set ν := Published.poisson mix.K mix.G with hν
    have dν : 0 < 2 * (3 * mix.K + mix.G) := by linarith
    have ν0 : 0 ≤ ν := by rw [hν, Published.poisson]; exact div_nonneg (by linarith) dν.le
    have ν1 : ν ≤ 0.5 := by rw [hν, Published.poisson, div_le_iff₀ dν]; norm_num; linarith
    norm_num at ν1
    have q0 : 0.25 ≤ (1 - ν) ^ 2 := by norm_num; nlinarith
    have q1 : (1 - ν) ^ 2 ≤ 1 := by nlinarith
    have g0 : 32 ^ 2 ≤ mix.G ^ 2 := pow_le_pow_left₀ (by norm_num) hG.1 2
    have g1 : mix.G ^ 2 ≤ 45 ^ 2 := pow_le_pow_left₀ (by linarith) hG.2 2
    have π0 : 3.14 ^ 2 ≤ Real.pi ^ 2 := pow_le_pow_left₀ (by norm_num) p3.le 2
    have π1 : Real.pi ^ 2 ≤ 3.15 ^ 2 := pow_le_pow_left₀ Real.pi_pos.le p4.le 2
    set B := 9 ^ 2 * (1 - 0.4) ^ 2 * mix.G ^ 2 * 1e-4 / (18 * Real.pi ^ 2 * (1 - ν) ^ 2) with hB
    have d1 : 18 * Real.pi ^ 2 * (1 - ν) ^ 2 ≤ 18 * 3.15 ^ 2 * 1 := mul_le_mul (by linarith) q1 (by positivity) (by norm_num)
    have d0 : 18 * 3.14 ^ 2 * 0.25 ≤ 18 * Real.pi ^ 2 * (1 - ν) ^ 2 := mul_le_mul (by linarith) q0 (by norm_num) (by positivity)
    have dp : 0 < 18 * Real.pi ^ 2 * (1 - ν) ^ 2 := lt_of_lt_of_le (by norm_num) d0
    have cube : ∀ x : ℝ, 0 ≤ x → (x ^ 3) ^ (1 / 3 : ℝ) = x := by
      intro x hx
      rw [← Real.rpow_natCast, ← Real.rpow_mul hx]; norm_num
    have B0 : 0.25 ^ 3 ≤ B := by rw [hB, le_div_iff₀ dp]; norm_num at d1 g0 ⊢; linarith
    have B1 : B ≤ 0.52 ^ 3 := by rw [hB, div_le_iff₀ dp]; norm_num at d0 g1 ⊢; linarith
    have Bp : 0 ≤ B := le_trans (by norm_num) B0
    have H0 : 0.25 ≤ B ^ (1 / 3 : ℝ) := by
      have := Real.rpow_le_rpow (by norm_num) B0 (by norm_num : (0:ℝ) ≤ 1 / 3); rwa [cube _ (by norm_num)] at this
    have H1 : B ^ (1 / 3 : ℝ) ≤ 0.52 := by
      have := Real.rpow_le_rpow Bp B1 (by norm_num : (0:ℝ) ≤ 1 / 3); rwa [cube _ (by norm_num)] at this
    have eK : (Published.hertzMindlin mix 0.4 1e-4 9 1).K = B ^ (1 / 3 : ℝ) := rfl
    have eG : (Published.hertzMindlin mix 0.4 1e-4 9 1).G = (2 + 3 * 1 - ν * (1 + 3 * 1)) / (5 * (2 - ν)) * (3 * B ^ (1 / 3 : ℝ)) := by
      show (2 + 3 * 1 - ν * (1 + 3 * 1)) / (5 * (2 - ν)) * (3 * 9 ^ 2 * (1 - 0.4) ^ 2 * mix.G ^ 2 * 1e-4 /
        (2 * Real.pi ^ 2 * (1 - ν) ^ 2)) ^ (1 / 3 : ℝ) = _
      have : 3 * 9 ^ 2 * (1 - 0.4) ^ 2 * mix.G ^ 2 * 1e-4 / (2 * Real.pi ^ 2 * (1 - ν) ^ 2) = 3 ^ 3 * B := by
        rw [hB]
        have h1 : Real.pi ≠ 0 := Real.pi_pos.ne'
        have h2 : 1 - ν ≠ 0 := by intro h; rw [h] at q0; norm_num at q0
        field_simp; ring
      rw [this, Real.mul_rpow (by norm_num) Bp, cube 3 (by norm_num)]
    have eρ : (Published.hertzMindlin mix 0.4 1e-4 9 1).ρ = mix.ρ * (1 - 0.4) := rfl
    have hf : (Published.friableSand mix 0.3 0.4 1e-4 9 1) =
      Published.lowerBound mix (Published.hertzMindlin mix 0.4 1e-4 9 1) (1 - 0.3 / 0.4) := rfl
    rw [hf]
    have r0 : 0.4 ≤ (2 + 3 * 1 - ν * (1 + 3 * 1)) / (5 * (2 - ν)) := by
      rw [le_div_iff₀ (by linarith)]; norm_num; linarith
    have r1 : (2 + 3 * 1 - ν * (1 + 3 * 1)) / (5 * (2 - ν)) ≤ 0.5 := by
      rw [div_le_iff₀ (by linarith)]; norm_num; linarith
    set k := B ^ (1 / 3 : ℝ)
    set ratio := (2 + 3 * 1 - ν * (1 + 3 * 1)) / (5 * (2 - ν))
    have G0 : 0.3 ≤ (Published.hertzMindlin mix 0.4 1e-4 9 1).G := by
      rw [eG]; have := mul_le_mul r0 (by linarith : 0.75 ≤ 3 * k) (by norm_num) (by linarith); norm_num at this ⊢; linarith
    have G1 : (Published.hertzMindlin mix 0.4 1e-4 9 1).G ≤ 0.78 := by
      rw [eG]; have := mul_le_mul r1 (by linarith : 3 * k ≤ 1.56) (by linarith) (by norm_num); norm_num at this ⊢; linarith
    rw [← eK] at H0 H1
    generalize Published.hertzMindlin mix 0.4 1e-4 9 1 = pack at eρ H0 H1 G0 G1
    norm_num at H0 H1 G0 G1 eρ
    have lowerK : ∀ b : Published.Rock, 0 < b.K → 0 < b.G → ∀ r : ℝ, 0 ≤ r → r ≤ 1 →
        (min mix.K b.K ≤ (Published.lowerBound mix b r).K ∧ (Published.lowerBound mix b r).K ≤ max mix.K b.K) ∧
        (min mix.G b.G ≤ (Published.lowerBound mix b r).G ∧ (Published.lowerBound mix b r).G ≤ max mix.G b.G) := by
      intro b hb1 hb2 r h0 h1
      have a1 : 0 < min mix.K b.K := lt_min (by linarith) hb1
      have a2 : 0 < min mix.G b.G := lt_min (by linarith) hb2
      exact ⟨hs_pos (by linarith) hb1 (by positivity) h0 h1, hs_pos (by linarith) hb2 (by unfold Published.zeta; positivity) h0 h1⟩
    have hsup : ∀ x1 x2 z : ℝ, 0 < x1 → 0 < x2 → 0 ≤ z → Published.hashinShtrikman x1 x2 (1 - 0.3 / 0.4) z ≤ 4 / 3 * x2 + z / 3 := by
      intro x1 x2 z h1 h2 hz
      unfold Published.hashinShtrikman
      have t1 : 0 ≤ (1 - 0.3 / 0.4) / (x1 + z) := div_nonneg (by norm_num) (by linarith)
      have t2 : (1 - (1 - 0.3 / 0.4)) / (x2 + z) ≤ (1 - 0.3 / 0.4) / (x1 + z) + (1 - (1 - 0.3 / 0.4)) / (x2 + z) := by linarith
      have t3 : 0 < (1 - (1 - 0.3 / 0.4 : ℝ)) / (x2 + z) := div_pos (by norm_num) (by linarith)
      have := inv_anti₀ t3 t2
      have e : ((1 - (1 - 0.3 / 0.4 : ℝ)) / (x2 + z))⁻¹ = 4 / 3 * (x2 + z) := by
        rw [inv_div]; norm_num; ring
      rw [e] at this
      linarith
    have lk := lowerK pack (by linarith) (by linarith) (1 - 0.3 / 0.4) (by norm_num) (by norm_num)
    have lc := lowerK cc (by linarith) (by linarith) (1 - 0.3 / 0.35) (by norm_num) (by norm_num)
    rw [min_eq_right (by linarith : pack.K ≤ mix.K), min_eq_right (by linarith : pack.G ≤ mix.G)] at lk
    have ccK : 3.2 ≤ (Published.lowerBound mix cc (1 - 0.3 / 0.35)).K := le_trans (le_min (by norm_num; linarith) (by norm_num; linarith)) lc.1.1
    have ccG : 1.9 ≤ (Published.lowerBound mix cc (1 - 0.3 / 0.35)).G := le_trans (le_min (by norm_num; linarith) (by norm_num; linarith)) lc.2.1
    have ccK1 : (Published.lowerBound mix cc (1 - 0.3 / 0.35)).K ≤ 76.8 := lc.1.2.trans (max_le (by norm_num; linarith) (by norm_num; linarith))
    have ccG1 : (Published.lowerBound mix cc (1 - 0.3 / 0.35)).G ≤ 66 := lc.2.2.trans (max_le (by linarith) (by linarith))
    have uK : (Published.lowerBound mix pack (1 - 0.3 / 0.4)).K ≤ 4 / 3 * pack.K + (4 / 3 * min mix.G pack.G) / 3 :=
      hsup _ _ _ (by linarith) (by linarith) (by rw [min_eq_right (by linarith : pack.G ≤ mix.G)]; linarith)
    have zb : Published.zeta (min mix.K pack.K) (min mix.G pack.G) ≤ 1.5 * pack.G ∧ 0 ≤ Published.zeta (min mix.K pack.K) (min mix.G pack.G) := by
      rw [min_eq_right (by linarith : pack.G ≤ mix.G), min_eq_right (by linarith : pack.K ≤ mix.K)]
      have pk : 0 < pack.K := by linarith
      have pg : 0 < pack.G := by linarith
      constructor
      · unfold Published.zeta
        have : (9 * pack.K + 8 * pack.G) / (pack.K + 2 * pack.G) ≤ 9 := by rw [div_le_iff₀ (by positivity)]; linarith
        have := mul_le_mul_of_nonneg_left this (by linarith : 0 ≤ pack.G / 6)
        norm_num
        first
          | linarith
          | (rw [← mul_div_assoc] at this; linarith)
      · unfold Published.zeta; positivity
    have uG : (Published.lowerBound mix pack (1 - 0.3 / 0.4)).G ≤ 4 / 3 * pack.G + Published.zeta (min mix.K pack.K) (min mix.G pack.G) / 3 :=
      hsup _ _ _ (by linarith) (by linarith) zb.2
    rw [min_eq_right (by linarith : pack.G ≤ mix.G)] at uK
    norm_num at ccK ccG ccK1 ccG1 zb
    refine ⟨?_, ?_, ?_, ?_, ?_, ?_, ?_⟩
    · intro x hx y hy
      simp only [List.mem_cons, List.not_mem_nil, or_false] at hx hy
      rcases hx with rfl | rfl <;> rcases hy with rfl | rfl <;> refine ⟨?_, ?_, ?_⟩ <;> norm_num <;> linarith
    · intro x hx y hy
      simp only [List.mem_cons, List.not_mem_nil, or_false] at hx hy
      rcases hx with rfl | rfl <;> rcases hy with rfl | rfl <;> refine ⟨?_, ?_, ?_⟩ <;> norm_num <;> linarith
    · constructor <;> norm_num <;> linarith
    · linarith
    · linarith [zb.1]
    · push_cast; linarith [lk.1.1]
    · push_cast; linarith [lk.2.1]
  obtain ⟨k1, k2, k3, k4, k5, k6, k7⟩ := key _ _ m1 m2 m3 c1 c2 c3
  refine ⟨⟨36.6, 45, 2.65⟩, ⟨76.8, 32, 2.71⟩, 0.3, 0.35, 0.35, 1e-4, 1e-4, 0.4, 1, 9, 9, 3, 310, 320,
    ⟨quartz_calcite_input, quartz_calcite_input, by norm_num, by norm_num, ?_, ⟨k1, k1, k2, k2⟩, ⟨k3, k3⟩, ⟨le_rfl, k4⟩, ⟨le_rfl, k5⟩,
      ⟨k6, k6⟩, ⟨k7, k7⟩⟩, by norm_num, by norm_num⟩
  intro x hx y hy
  simp only [List.mem_cons, List.not_mem_nil, or_false] at hx hy
  rcases hx with rfl | rfl <;> rcases hy with rfl | rfl <;> norm_num

end OPE
