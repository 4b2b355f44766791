import Verif.Props.Rounding33
import Verif.Props.Rounding14
import Verif.Props.Rounding11

/-!
# C193: constant cement in double arithmetic
-/

namespace OPE

variable {fl : ℝ → ℝ} {pw : ℝ → ℝ → ℝ}


/-- The lower bound of two materials that are known up to `J` rounding errors. -/
theorem lowerBound_near (hfl : RoundsToNearest fl) (hp : PowerAccurate pw) {a b : Published.Rock} {a' b' : ℝ × ℝ × ℝ}
    {J R : ℕ} (ha : 0 < a.K ∧ 0 < a.G ∧ 0 < a.ρ) (hb0 : 0 ≤ b.K ∧ 0 ≤ b.G ∧ 0 ≤ b.ρ) (na : NearRock J a a') (nb : NearRock J b b')
    (hratio : WithinRatio R [a, b]) (hsmall : J + 1672 * R ^ 2 ≤ 2 ^ 50) {r r' : ℝ} (hr0 : 0 ≤ r) (hr1 : r ≤ 1)
    (hr0' : 0 ≤ r') (hr1' : r' ≤ 1) (nr : |r' - r| ≤ 4 * unit) :
    NearRock (J + 1672 * R ^ 2) (Published.lowerBound a b r) (Double.lowerBound fl pw a' b' r') ∧
      0 < (Published.lowerBound a b r).K ∧ 0 < (Published.lowerBound a b r).G ∧ 0 < (Published.lowerBound a b r).ρ := by
  obtain ⟨nK, nG, nρ⟩ := na
  obtain ⟨b1, b2, b3⟩ := nb
  have pb : 0 < b.K ∧ 0 < b.G ∧ 0 < b.ρ := by
    have hR0 : ∀ {x y : ℝ}, 0 < x → 0 ≤ y → x ≤ R * y → 0 < y := by
      intro x y hx hy hxy
      rcases hy.eq_or_lt with h0 | h0
      · rw [← h0, mul_zero] at hxy; linarith
      · exact h0
    have q := hratio a (by simp) b (by simp)
    exact ⟨hR0 ha.1 hb0.1 q.1, hR0 ha.2.1 hb0.2.1 q.2.1, hR0 ha.2.2 hb0.2.2 q.2.2⟩
  have q12 := hratio a (by simp) b (by simp)
  have q21 := hratio b (by simp) a (by simp)
  have hR : 1 ≤ R := by
    have h1 := (hratio a (by simp) a (by simp)).1
    by_contra hc
    have : R = 0 := by omega
    rw [this] at h1
    simp at h1
    linarith [ha.1]
  have hR2 : R ≤ 2 ^ 30 := by
    by_contra hc
    have h1 : 2 ^ 30 ≤ R := by omega
    have h2 : (2 ^ 30) ^ 2 ≤ R ^ 2 := Nat.pow_le_pow_left h1 2
    omega
  have nmG : Near J (min a.G b.G) (min a'.2.1 b'.2.1) := nG.min b2
  have nmK : Near J (min a.K b.K) (min a'.1 b'.1) := nK.min b1
  have pmG : 0 < min a.G b.G := lt_min ha.2.1 pb.2.1
  have pmK : 0 < min a.K b.K := lt_min ha.1 pb.1
  have pmG' := nmG.pos pmG
  have pmK' := nmK.pos pmK
  unfold Double.lowerBound
  set g := min a'.2.1 b'.2.1 with hg
  set k := min a'.1 b'.1 with hk
  have nz1 : Near J (4 / 3 * min a.G b.G) (4 / 3 * g) :=
    ((Near.refl 0 (by norm_num : (0:ℝ) ≤ 4 / 3)).mul nmG).mono (by omega)
  have nz1' : Near 2 (4 / 3 * g) (fl (fl (4 / 3) * g)) :=
    ((Near.fl0 hfl (by norm_num : (0:ℝ) ≤ 4 / 3)).mul (Near.refl 0 pmG'.le)).fl hfl
  have nz2 := zeta_near pmK pmG nmK nmG
  have nz2' : Near 7 (Published.zeta k g) (fl (fl (fl (g / 6) * fl (fl (9 * k) + fl (8 * g))) / fl (k + fl (2 * g)))) := by
    have z1 : Near 1 (g / 6) (fl (g / 6)) := Near.fl0 hfl (by positivity)
    have z2 : Near 2 (9 * k + 8 * g) (fl (fl (9 * k) + fl (8 * g))) :=
      ((Near.fl0 hfl (by positivity)).add (Near.fl0 hfl (by positivity))).fl hfl
    have z3 : Near 2 (k + 2 * g) (fl (k + fl (2 * g))) :=
      ((Near.refl 0 pmK'.le).add (Near.fl0 hfl (by positivity))).fl hfl
    have := (((z1.mul z2).fl hfl).div z3 (by positivity)).fl hfl
    unfold Published.zeta
    rwa [← mul_div_assoc]
  have sK := walpole_step2 hfl hp ha.1 pb.1 hR q12.1 q21.1 nK b1 nz1 nz1' (by norm_num) hr0 hr1 hr0' hr1' nr hR2 hsmall
  have sG := walpole_step2 hfl hp ha.2.1 pb.2.1 hR q12.2.1 q21.2.1 nG b2 nz2 nz2' (by norm_num) hr0 hr1 hr0' hr1' nr hR2 hsmall
  have sR := density_step2 hfl ha.2.2 pb.2.2 hR q12.2.2 q21.2.2 nρ b3 hr0 hr1 hr0' hr1' nr hsmall
  refine ⟨⟨sK, sG, sR⟩, ?_, ?_, ?_⟩
  · exact (lt_min ha.1 pb.1).trans_le (hs_pos ha.1 pb.1 nz1.1 hr0 hr1).1
  · exact (lt_min ha.2.1 pb.2.1).trans_le (hs_pos ha.2.1 pb.2.1 nz2.1 hr0 hr1).1
  · have e : (Published.lowerBound a b r).ρ = r * a.ρ + (1 - r) * b.ρ := rfl
    rw [e]
    rcases hr0.eq_or_lt with h0 | h0
    · rw [← h0]; simp [pb.2.2]
    · have := mul_pos h0 ha.2.2
      have := mul_nonneg (by linarith : 0 ≤ 1 - r) pb.2.2.le
      linarith

/-- `1 - x / y` in double arithmetic is a fraction. -/
theorem fraction_near (hfl : RoundsToNearest fl) {φ φc : ℝ} (hφ0 : 0 ≤ φ) (hφ : φ ≤ φc) (hc0 : 0 < φc) :
    0 ≤ 1 - φ / φc ∧ 1 - φ / φc ≤ 1 ∧ 0 ≤ fl (1 - fl (φ / φc)) ∧ fl (1 - fl (φ / φc)) ≤ 1 ∧
      |fl (1 - fl (φ / φc)) - (1 - φ / φc)| ≤ 4 * unit := by
  have hu := unit_pos
  have hx0 : 0 ≤ φ / φc := div_nonneg hφ0 hc0.le
  have hx1 : φ / φc ≤ 1 := (div_le_one hc0).mpr hφ
  have one : IsDouble 1 := ⟨1, 0, by norm_num, by simp⟩
  have zero : IsDouble 0 := ⟨0, 0, by norm_num, by simp⟩
  set x := φ / φc
  have hy0 : 0 ≤ fl x := hfl.ge_double zero hx0
  have hy1 : fl x ≤ 1 := hfl.le_double one hx1
  refine ⟨by linarith, by linarith, hfl.ge_double zero (by linarith), hfl.le_double one (by linarith), ?_⟩
  have c1 := hfl.error x
  have c2 := hfl.error (1 - fl x)
  rw [abs_of_nonneg hx0] at c1
  rw [abs_of_nonneg (by linarith : 0 ≤ 1 - fl x)] at c2
  have c3 : unit * x ≤ unit := by nlinarith
  have c4 : unit * (1 - fl x) ≤ unit := by nlinarith
  have : fl (1 - fl x) - (1 - x) = (fl (1 - fl x) - (1 - fl x)) - (fl x - x) := by ring
  rw [this]
  refine (abs_sub _ _).trans ?_
  linarith

/-- Constant cement in double arithmetic. -/
theorem constantCement_near (hfl : RoundsToNearest fl) (hp : PowerAccurate pw) {cement sand : Published.Rock}
    {φ φcem φc f C : ℝ} {R S : ℕ} (h : CementInput cement sand φcem φc f C) (hφ0 : 0 ≤ φ) (hφ : φ ≤ φcem)
    (hR : WithinRatio R [cement, sand])
    (hS : WithinRatio S [Published.lowerBound cement sand (φc - φcem), Published.contactCement cement sand φcem φc f C])
    (hR1 : R ≤ 100000) (hS1 : S ≤ 100000) :
    NearRock (18050 + 1672 * R ^ 2 + 1672 * S ^ 2) (Published.constantCement sand cement φ φcem φc f C)
      (Double.constantCement fl pw (tri sand) (tri cement) φ φcem φc f C) ∧
      0 < (Published.constantCement sand cement φ φcem φc f C).K ∧ 0 < (Published.constantCement sand cement φ φcem φc f C).G ∧
      0 < (Published.constantCement sand cement φ φcem φc f C).ρ := by
  have hu := unit_pos
  obtain ⟨p0, p1, p2⟩ := h.porosity
  have r2 : R ^ 2 ≤ 100000 ^ 2 := Nat.pow_le_pow_left hR1 2
  have s2 : S ^ 2 ≤ 100000 ^ 2 := Nat.pow_le_pow_left hS1 2
  have one : IsDouble 1 := ⟨1, 0, by norm_num, by simp⟩
  have zero : IsDouble 0 := ⟨0, 0, by norm_num, by simp⟩
  have x0 : 0 ≤ φc - φcem := by linarith
  have x1 : φc - φcem ≤ 1 := by linarith
  have ex : |fl (φc - φcem) - (φc - φcem)| ≤ 4 * unit := by
    have c1 := hfl.error (φc - φcem)
    rw [abs_of_nonneg x0] at c1
    nlinarith
  obtain ⟨nmix, pmix⟩ := lowerBound_near hfl hp (J := 0) (a' := tri cement) (b' := tri sand) h.goodCement
    ⟨h.goodGrain.1.le, h.goodGrain.2.1.le, h.goodGrain.2.2.le⟩
    ⟨Near.refl 0 h.goodCement.1.le, Near.refl 0 h.goodCement.2.1.le, Near.refl 0 h.goodCement.2.2.le⟩
    ⟨Near.refl 0 h.goodGrain.1.le, Near.refl 0 h.goodGrain.2.1.le, Near.refl 0 h.goodGrain.2.2.le⟩ hR (by omega) x0 x1
    (hfl.ge_double zero x0) (hfl.le_double one x1) ex
  obtain ⟨⟨c1, c2, c3⟩, -⟩ := contactCement_near hfl hp h.goodCement h.goodGrain p1 p2 h.contacts.1 h.contacts.2 h.poissonGrain
    h.poissonCement h.stiff.1 h.stiff.2 h.heavy
  obtain ⟨m1, m2, m3⟩ := nmix
  obtain ⟨f0, f1, f2, f3, f4⟩ := fraction_near hfl hφ0 hφ p0
  have key := lowerBound_near hfl hp (J := 18050 + 1672 * R ^ 2) pmix ⟨c1.1, c2.1, c3.1⟩
    ⟨m1.mono (by omega), m2.mono (by omega), m3.mono (by omega)⟩ ⟨c1.mono (by omega), c2.mono (by omega), c3.mono (by omega)⟩
    hS (by omega) f0 f1 f2 f3 f4
  exact key

/-- **C193.** Constant cement in double arithmetic is accurate to `18050 + 1672 (R² + S²)` units of `2⁻⁵²`, where `R` bounds the
contrast between cement and grains, `S` that between their mix and the contact-cemented sand. -/
theorem C193_constant_cement (hfl : RoundsToNearest fl) (hp : PowerAccurate pw) {cement sand : Published.Rock}
    {φ φcem φc f C : ℝ} {R S : ℕ} (h : CementInput cement sand φcem φc f C) (hφ0 : 0 ≤ φ) (hφ : φ ≤ φcem)
    (hR : WithinRatio R [cement, sand])
    (hS : WithinRatio S [Published.lowerBound cement sand (φc - φcem), Published.contactCement cement sand φcem φc f C])
    (hR1 : R ≤ 100000) (hS1 : S ≤ 100000) :
    Accurate (18050 + 1672 * (R ^ 2 + S ^ 2)) (Published.constantCement sand cement φ φcem φc f C).K
        (Double.constantCement fl pw (tri sand) (tri cement) φ φcem φc f C).1 ∧
      Accurate (18050 + 1672 * (R ^ 2 + S ^ 2)) (Published.constantCement sand cement φ φcem φc f C).G
        (Double.constantCement fl pw (tri sand) (tri cement) φ φcem φc f C).2.1 ∧
      Accurate (18050 + 1672 * (R ^ 2 + S ^ 2)) (Published.constantCement sand cement φ φcem φc f C).ρ
        (Double.constantCement fl pw (tri sand) (tri cement) φ φcem φc f C).2.2 := by
  obtain ⟨⟨a, b, c⟩, -⟩ := constantCement_near hfl hp h hφ0 hφ hR hS hR1 hS1
  have r2 : R ^ 2 ≤ 100000 ^ 2 := Nat.pow_le_pow_left hR1 2
  have s2 : S ^ 2 ≤ 100000 ^ 2 := Nat.pow_le_pow_left hS1 2
  have hb : 18050 + 1672 * R ^ 2 + 1672 * S ^ 2 ≤ 2 ^ 52 := by omega
  have e : (18050 + 1672 * ((R : ℝ) ^ 2 + (S : ℝ) ^ 2)) = ((18050 + 1672 * R ^ 2 + 1672 * S ^ 2 : ℕ) : ℝ) := by push_cast; ring
  rw [e]
  exact ⟨a.accurate hb, b.accurate hb, c.accurate hb⟩

/-- Quartz grains with calcite cement (GPa, g/cm³), grain pack porosity 0.4, cemented porosity 0.35. -/
theorem quartz_calcite : let cc := Published.contactCement ⟨76.8, 32, 2.71⟩ ⟨36.6, 45, 2.65⟩ 0.35 0.4 1 9
    (3.2 ≤ cc.K ∧ cc.K ≤ 22) ∧ (1.9 ≤ cc.G ∧ cc.G ≤ 66) ∧ (1.7 ≤ cc.ρ ∧ cc.ρ ≤ 1.8) := by
  have p3 := Real.pi_gt_d2
  have p4 := Real.pi_lt_d2
  -- the radius ratio
  set α := Published.radiusRatio 0.4 0.35 with hα
  have hs : Published.cementRadius 0.4 0.35 = √(1 / 18) := by
    unfold Published.cementRadius; rw [Real.sqrt_eq_rpow]; norm_num
  have hs0 : 0.2 ≤ √(1 / 18) := Real.le_sqrt_of_sq_le (by norm_num)
  have hs1 : √(1 / 18) ≤ 0.3 := by rw [Real.sqrt_le_left (by norm_num)]; norm_num
  have hαe : α = √(1 / 18) := by
    rw [hα, Published.radiusRatio, hs, min_eq_right (hs1.trans (by norm_num))]
  have α0 : 0.2 ≤ α := by rw [hαe]; exact hs0
  have α1 : α ≤ 0.3 := by rw [hαe]; exact hs1
  have α2 : α ^ 2 = 1 / 18 := by rw [hαe]; exact Real.sq_sqrt (by norm_num)
  -- powers
  have pows : ∀ {x p m : ℝ}, 0 < m → m ≤ x → x ≤ 1 → 0 ≤ p → p ≤ 2 → 1 ≤ x ^ (-p) ∧ x ^ (-p) ≤ (m ^ 2)⁻¹ := by
    intro x p m hm hx hx1 h0 h1
    have px : 0 < x := by linarith
    refine ⟨Real.one_le_rpow_of_pos_of_le_one_of_nonpos px hx1 (by linarith), ?_⟩
    refine (Real.rpow_le_rpow_of_exponent_ge px hx1 (by linarith : (-2:ℝ) ≤ -p)).trans ?_
    rw [Real.rpow_neg px.le]
    refine inv_anti₀ (by positivity) ?_
    have : x ^ (2:ℝ) = x ^ 2 := by exact_mod_cast Real.rpow_natCast x 2
    rw [this]
    exact pow_le_pow_left₀ hm.le hx 2
  set ν := Published.poisson 36.6 45 with hν
  set νc := Published.poisson 76.8 32 with hνc
  have eν : ν = 11 / 172 := by rw [hν, Published.poisson]; norm_num
  have eνc : νc = 13 / 41 := by rw [hνc, Published.poisson]; norm_num
  -- the normal stiffness
  set sn := Published.cementNormal ν νc 45 32 α with hsn
  have nsn : 0.03 ≤ sn ∧ sn ≤ 0.2 := by
    rw [hsn, Published.cementNormal]
    have hΛ : 2 * 32 / (Real.pi * 45) * ((1 - ν) * (1 - νc) / (1 - 2 * νc)) = 72128 / 29025 / Real.pi := by
      rw [eν, eνc]
      have := Real.pi_pos.ne'
      field_simp
      norm_num
    rw [hΛ]
    have l0 : 0.75 ≤ 72128 / 29025 / Real.pi := by rw [le_div_iff₀ Real.pi_pos]; norm_num at p4 ⊢; linarith
    have l1 : 72128 / 29025 / Real.pi ≤ 1 := by rw [div_le_one Real.pi_pos]; norm_num at p3 ⊢; linarith
    set Λ := 72128 / 29025 / Real.pi
    obtain ⟨a0, a1⟩ := pows (p := 1.3646) (by norm_num) l0 l1 (by norm_num) (by norm_num)
    obtain ⟨b0, b1⟩ := pows (p := 0.89008) (by norm_num) l0 l1 (by norm_num) (by norm_num)
    obtain ⟨c0, c1⟩ := pows (p := 1.9864) (by norm_num) l0 l1 (by norm_num) (by norm_num)
    set A := Λ ^ (-1.3646 : ℝ)
    set B := Λ ^ (-0.89008 : ℝ)
    set D := Λ ^ (-1.9864 : ℝ)
    rw [α2]
    have m1 := mul_le_mul b0 α0 (by norm_num) (by linarith)
    have m2 := mul_le_mul b1 α1 (by linarith) (by norm_num)
    norm_num at a1 b1 c1 m1 m2 ⊢
    constructor <;> linarith
  -- the tangential stiffness
  set st := Published.cementTangential ν 45 32 α with hst
  have nst : 0 ≤ st ∧ st ≤ 2 := by
    constructor
    · obtain ⟨⟨f, hf⟩, hpw⟩ := exists_double
      have bν : Box 0.4 7.85e-16 ν ν := (Box.exact (A := 0.4) (by rw [eν]; norm_num)).wider le_rfl (by norm_num)
      exact (tangential_near hf hpw (by rw [eν]; norm_num) (by rw [eν]; norm_num) bν (by norm_num) (by norm_num)
        (by norm_num) (Near.refl 8 (by linarith : 0 ≤ α)) (by linarith)).1
    rw [hst, Published.cementTangential]
    have l0 : 0.2 ≤ 32 / (Real.pi * 45) := by rw [le_div_iff₀ (by positivity)]; norm_num at p4 ⊢; linarith
    have l1 : 32 / (Real.pi * 45) ≤ 1 := by rw [div_le_one (by positivity)]; norm_num at p3 ⊢; linarith
    set Λ := 32 / (Real.pi * 45)
    obtain ⟨b0, b1⟩ := pows (p := -(0.0274 * ν ^ 2 + 0.0529 * ν - 0.8765)) (by norm_num) l0 l1 (by rw [eν]; norm_num) (by rw [eν]; norm_num)
    obtain ⟨c0, c1⟩ := pows (p := -(0.01867 * ν ^ 2 + 0.4011 * ν - 1.8186)) (by norm_num) l0 l1 (by rw [eν]; norm_num) (by rw [eν]; norm_num)
    rw [neg_neg] at b0 b1 c0 c1
    have a0 : 0 < Λ ^ (0.079 * ν ^ 2 + 0.1754 * ν - 1.342) := Real.rpow_pos_of_pos (by linarith) _
    set A := Λ ^ (0.079 * ν ^ 2 + 0.1754 * ν - 1.342)
    set B := Λ ^ (0.0274 * ν ^ 2 + 0.0529 * ν - 0.8765)
    set D := Λ ^ (0.01867 * ν ^ 2 + 0.4011 * ν - 1.8186)
    rw [α2, eν]
    have m2 := mul_le_mul b1 α1 (by linarith) (by norm_num)
    norm_num at b1 c1 m2 ⊢
    linarith
  have eK : (Published.contactCement ⟨76.8, 32, 2.71⟩ ⟨36.6, 45, 2.65⟩ 0.35 0.4 1 9).K = 1 / 6 * 9 * (1 - 0.4) * (76.8 + 4 / 3 * 32) * sn := rfl
  have eG : (Published.contactCement ⟨76.8, 32, 2.71⟩ ⟨36.6, 45, 2.65⟩ 0.35 0.4 1 9).G =
      3 / 5 * (1 / 6 * 9 * (1 - 0.4) * (76.8 + 4 / 3 * 32) * sn) + 1 * (3 / 20 * 9 * (1 - 0.4) * 32 * st) := rfl
  have eρ : (Published.contactCement ⟨76.8, 32, 2.71⟩ ⟨36.6, 45, 2.65⟩ 0.35 0.4 1 9).ρ =
      (1 - 0.35) * (α * 2.71 + (1 - α) * 2.65) := rfl
  obtain ⟨s0, s1⟩ := nsn
  obtain ⟨t0, t1⟩ := nst
  intro cc
  show (3.2 ≤ (Published.contactCement _ _ _ _ _ _).K ∧ (Published.contactCement _ _ _ _ _ _).K ≤ 22) ∧ _
  rw [eK, eG, eρ]
  norm_num at s0 s1 t0 t1 α0 α1 ⊢
  refine ⟨⟨?_, ?_⟩, ⟨?_, ?_⟩, ?_, ?_⟩ <;> linarith

theorem quartz_calcite_input : CementInput ⟨76.8, 32, 2.71⟩ ⟨36.6, 45, 2.65⟩ 0.35 0.4 1 9 :=
  ⟨by norm_num, by norm_num, by norm_num, by norm_num, by norm_num [Published.poisson], by norm_num [Published.poisson],
    by norm_num, by norm_num⟩

theorem quartz_calcite_mix : let mix := Published.lowerBound ⟨76.8, 32, 2.71⟩ ⟨36.6, 45, 2.65⟩ (0.4 - 0.35)
    (36.6 ≤ mix.K ∧ mix.K ≤ 76.8) ∧ (32 ≤ mix.G ∧ mix.G ≤ 45) ∧ (2.65 ≤ mix.ρ ∧ mix.ρ ≤ 2.71) := by
  have mK := hs_pos (x1 := 76.8) (x2 := 36.6) (z := 4 / 3 * min 32 45) (f := 0.4 - 0.35) (by norm_num) (by norm_num) (by norm_num)
    (by norm_num) (by norm_num)
  have mG := hs_pos (x1 := 32) (x2 := 45) (z := Published.zeta (min 76.8 36.6) (min 32 45)) (f := 0.4 - 0.35) (by norm_num)
    (by norm_num) (by norm_num [Published.zeta]) (by norm_num) (by norm_num)
  have e1 : min (76.8:ℝ) 36.6 = 36.6 ∧ max (76.8:ℝ) 36.6 = 76.8 := by constructor <;> norm_num
  have e2 : min (32:ℝ) 45 = 32 ∧ max (32:ℝ) 45 = 45 := by constructor <;> norm_num
  refine ⟨⟨e1.1.ge.trans mK.1, mK.2.trans e1.2.le⟩, ⟨e2.1.ge.trans mG.1, mG.2.trans e2.2.le⟩, ?_, ?_⟩
  · show 2.65 ≤ (0.4 - 0.35) * 2.71 + (1 - (0.4 - 0.35)) * (2.65:ℝ); norm_num
  · show (0.4 - 0.35) * 2.71 + (1 - (0.4 - 0.35)) * (2.65:ℝ) ≤ 2.71; norm_num

/-- Quartz grains with calcite cement (GPa, g/cm³), grain pack porosity 0.4, cemented porosity 0.35, porosity 0.2. -/
example : ∃ (cement sand : Published.Rock) (φ φcem φc f C : ℝ) (R S : ℕ), CementInput cement sand φcem φc f C ∧ 0 ≤ φ ∧ φ ≤ φcem ∧
    WithinRatio R [cement, sand] ∧
    WithinRatio S [Published.lowerBound cement sand (φc - φcem), Published.contactCement cement sand φcem φc f C] ∧
    R ≤ 100000 ∧ S ≤ 100000 := by
  refine ⟨⟨76.8, 32, 2.71⟩, ⟨36.6, 45, 2.65⟩, 0.2, 0.35, 0.4, 1, 9, 3, 30, quartz_calcite_input, by norm_num, by norm_num, ?_, ?_, by norm_num,
    by norm_num⟩
  · intro x hx y hy
    simp only [List.mem_cons, List.not_mem_nil, or_false] at hx hy
    rcases hx with rfl | rfl <;> rcases hy with rfl | rfl <;> norm_num
  obtain ⟨m1, m2, m3⟩ := quartz_calcite_mix
  obtain ⟨c1, c2, c3⟩ := quartz_calcite
  generalize Published.lowerBound ⟨76.8, 32, 2.71⟩ ⟨36.6, 45, 2.65⟩ (0.4 - 0.35) = mix at m1 m2 m3 ⊢
  generalize Published.contactCement ⟨76.8, 32, 2.71⟩ ⟨36.6, 45, 2.65⟩ 0.35 0.4 1 9 = sandstone at c1 c2 c3 ⊢
  norm_num at m1 m2 m3 c1 c2 c3
  intro x hx y hy
  simp only [List.mem_cons, List.not_mem_nil, or_false] at hx hy
  rcases hx with rfl | rfl <;> rcases hy with rfl | rfl <;> refine ⟨?_, ?_, ?_⟩ <;> norm_num <;> linarith [m1.1, m1.2]

end OPE
