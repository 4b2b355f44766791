import Verif.Model.HashinShtrikman
import Verif.Props.Material
import Verif.Spec.Mixing

/-!
# Properties C08–C15: Hashin–Shtrikman–Walpole mixing
-/

namespace OPE

open Classical Spec

variable {n : ℕ}

/-- A material whose rows have finite, strictly positive moduli and density. -/
structure Mat.Pos (m : Mat n) (K G ρ : Fin n → ℝ) : Prop where
  has : m.Has K G ρ
  bulk : ∀ i, 0 < K i
  shear : ∀ i, 0 < G i
  density : ∀ i, 0 < ρ i

/-- A valid name of a bound. -/
def IsBound (b : String) : Prop := b = "lower" ∨ b = "upper"

/-! ### evaluation for positive materials -/

section
variable {m1 m2 : Mat n} {K1 G1 R1 K2 G2 R2 f : Fin n → ℝ} {bound : String}

theorem mix_density_pos {r1 r2 f : ℝ} (h1 : 0 < r1) (h2 : 0 < r2) (h0 : 0 ≤ f) (hf : f ≤ 1) :
    0 < f * r1 + (1 - f) * r2 := by
  rcases h0.eq_or_lt with h | h
  · subst h; simpa using h2
  · have := mul_pos h h1
    have := mul_nonneg (sub_nonneg.mpr hf) h2.le
    linarith

theorem hsw_pos (h1 : m1.Pos K1 G1 R1) (h2 : m2.Pos K2 G2 R2) (hb : IsBound bound)
    (hf0 : ∀ i, 0 ≤ f i) (hf1 : ∀ i, f i ≤ 1) :
    hsw m1 m2 (finC f) bound = .ok (Mat.ofReal
      (fun i => hsReal (K1 i) (K2 i) (4/3 * pick bound (G1 i) (G2 i)) (f i))
      (fun i => hsReal (G1 i) (G2 i)
        (zShear (pick bound (K1 i) (K2 i)) (pick bound (G1 i) (G2 i))) (f i))
      (fun i => f i * R1 i + (1 - f i) * R2 i)) := by
  have hpK : ∀ i, 0 < pick bound (K1 i) (K2 i) := fun i => pick_pos (h1.bulk i) (h2.bulk i)
  have hpG : ∀ i, 0 < pick bound (G1 i) (G2 i) := fun i => pick_pos (h1.shear i) (h2.shear i)
  have hz : ∀ i, 0 ≤ zShear (pick bound (K1 i) (K2 i)) (pick bound (G1 i) (G2 i)) :=
    fun i => zShear_nonneg (hpK i).le (hpG i).le
  have a1 : ∀ i, 0 < K1 i + 4/3 * pick bound (G1 i) (G2 i) := fun i => by
    have := h1.bulk i; have := hpG i; positivity
  have a2 : ∀ i, 0 < K2 i + 4/3 * pick bound (G1 i) (G2 i) := fun i => by
    have := h2.bulk i; have := hpG i; positivity
  have a3 : ∀ i, 0 < G1 i + zShear (pick bound (K1 i) (K2 i)) (pick bound (G1 i) (G2 i)) :=
    fun i => by have := h1.shear i; have := hz i; linarith
  have a4 : ∀ i, 0 < G2 i + zShear (pick bound (K1 i) (K2 i)) (pick bound (G1 i) (G2 i)) :=
    fun i => by have := h2.shear i; have := hz i; linarith
  have d1 := fun i => hsReal_D (a1 i) (a2 i) (hf0 i) (hf1 i)
  have d2 := fun i => hsReal_D (a3 i) (a4 i) (hf0 i) (hf1 i)
  rw [hsw_fin h1.has h2.has hb hf0 hf1 (fun i => by have := hpK i; have := hpG i; positivity)
    a1 d1 a3 d2, mkModuli_ofReal]
  · intro i
    exact le_trans (le_min (h1.bulk i).le (h2.bulk i).le)
      (hsReal_between (a1 i).le (a2 i).le (d1 i) (hf0 i) (hf1 i)).1
  · intro i
    exact le_trans (le_min (h1.shear i).le (h2.shear i).le)
      (hsReal_between (a3 i).le (a4 i).le (d2 i) (hf0 i) (hf1 i)).1
  · intro i
    exact mix_density_pos (h1.density i) (h2.density i) (hf0 i) (hf1 i)

end

/-! ### C08 -/

/-- **C08.** For both bounds the mix of two positive materials with ratios in `[0,1]` exists, and its
bulk modulus, shear modulus and density lie between those of the constituents, row by row. -/
theorem C08_between_constituents {m1 m2 : Mat n} {K1 G1 R1 K2 G2 R2 f : Fin n → ℝ} {bound : String}
    (h1 : m1.Pos K1 G1 R1) (h2 : m2.Pos K2 G2 R2) (hb : IsBound bound)
    (hf0 : ∀ i, 0 ≤ f i) (hf1 : ∀ i, f i ≤ 1) :
    ∃ m K G R, hsw m1 m2 (finC f) bound = .ok m ∧ m.Pos K G R ∧
      ∀ i, Between (K1 i) (K2 i) (K i) ∧ Between (G1 i) (G2 i) (G i) ∧
        Between (R1 i) (R2 i) (R i) := by
  have hpK : ∀ i, 0 < pick bound (K1 i) (K2 i) := fun i => pick_pos (h1.bulk i) (h2.bulk i)
  have hpG : ∀ i, 0 < pick bound (G1 i) (G2 i) := fun i => pick_pos (h1.shear i) (h2.shear i)
  have hz : ∀ i, 0 ≤ zShear (pick bound (K1 i) (K2 i)) (pick bound (G1 i) (G2 i)) :=
    fun i => zShear_nonneg (hpK i).le (hpG i).le
  have a1 : ∀ i, 0 < K1 i + 4/3 * pick bound (G1 i) (G2 i) := fun i => by
    have := h1.bulk i; have := hpG i; positivity
  have a2 : ∀ i, 0 < K2 i + 4/3 * pick bound (G1 i) (G2 i) := fun i => by
    have := h2.bulk i; have := hpG i; positivity
  have a3 : ∀ i, 0 < G1 i + zShear (pick bound (K1 i) (K2 i)) (pick bound (G1 i) (G2 i)) :=
    fun i => by have := h1.shear i; have := hz i; linarith
  have a4 : ∀ i, 0 < G2 i + zShear (pick bound (K1 i) (K2 i)) (pick bound (G1 i) (G2 i)) :=
    fun i => by have := h2.shear i; have := hz i; linarith
  have bK := fun i => hsReal_between (a1 i).le (a2 i).le
    (hsReal_D (a1 i) (a2 i) (hf0 i) (hf1 i)) (hf0 i) (hf1 i)
  have bG := fun i => hsReal_between (a3 i).le (a4 i).le
    (hsReal_D (a3 i) (a4 i) (hf0 i) (hf1 i)) (hf0 i) (hf1 i)
  refine ⟨_, _, _, _, hsw_pos h1 h2 hb hf0 hf1, ⟨Mat.ofReal_has _ _ _, ?_, ?_, ?_⟩, fun i =>
    ⟨bK i, bG i, ?_⟩⟩
  · intro i; exact lt_of_lt_of_le (lt_min (h1.bulk i) (h2.bulk i)) (bK i).1
  · intro i; exact lt_of_lt_of_le (lt_min (h1.shear i) (h2.shear i)) (bG i).1
  · intro i; exact mix_density_pos (h1.density i) (h2.density i) (hf0 i) (hf1 i)
  · have h0 := hf0 i; have h1' := hf1 i
    constructor
    · have := min_le_left (R1 i) (R2 i); have := min_le_right (R1 i) (R2 i); nlinarith
    · have := le_max_left (R1 i) (R2 i); have := le_max_right (R1 i) (R2 i); nlinarith

/-- Quartz and clay, used to show that the hypotheses of this file are satisfiable. -/
theorem quartz_pos : (Mat.ofReal (fun _ : Fin 2 => 36.8) (fun _ => 44) (fun _ => 2650)).Pos
    (fun _ => 36.8) (fun _ => 44) (fun _ => 2650) :=
  ⟨Mat.ofReal_has _ _ _, fun _ => by norm_num, fun _ => by norm_num, fun _ => by norm_num⟩
theorem clay_pos : (Mat.ofReal (fun _ : Fin 2 => 25) (fun _ => 9) (fun _ => 2550)).Pos
    (fun _ => 25) (fun _ => 9) (fun _ => 2550) :=
  ⟨Mat.ofReal_has _ _ _, fun _ => by norm_num, fun _ => by norm_num, fun _ => by norm_num⟩

example : IsBound "upper" ∧ (0:ℝ) ≤ 0.3 ∧ (0.3:ℝ) ≤ 1 := ⟨.inr rfl, by norm_num, by norm_num⟩
example : (36.8 : ℝ) ≠ 25 ∧ (9:ℝ) ≤ 44 ∧ (25:ℝ) ≤ 36.8 := by norm_num

/-! ### C09, C12 -/

/-- **C09 and C12.** Reuss ≤ lower bound ≤ upper bound ≤ Voigt for bulk and shear modulus, and both
bounds have the same density. -/
theorem C09_C12_bounds_ordered {m1 m2 : Mat n} {K1 G1 R1 K2 G2 R2 f : Fin n → ℝ}
    (h1 : m1.Pos K1 G1 R1) (h2 : m2.Pos K2 G2 R2)
    (hf0 : ∀ i, 0 ≤ f i) (hf1 : ∀ i, f i ≤ 1) :
    ∃ lo up Kl Gl Ku Gu R,
      hsw m1 m2 (finC f) "lower" = .ok lo ∧ hsw m1 m2 (finC f) "upper" = .ok up ∧
      lo.Has Kl Gl R ∧ up.Has Ku Gu R ∧
      ∀ i, (reuss (K1 i) (K2 i) (f i) ≤ Kl i ∧ Kl i ≤ Ku i ∧ Ku i ≤ voigt (K1 i) (K2 i) (f i)) ∧
        (reuss (G1 i) (G2 i) (f i) ≤ Gl i ∧ Gl i ≤ Gu i ∧ Gu i ≤ voigt (G1 i) (G2 i) (f i)) := by
  refine ⟨_, _, _, _, _, _, _, hsw_pos h1 h2 (.inl rfl) hf0 hf1, hsw_pos h1 h2 (.inr rfl) hf0 hf1,
    Mat.ofReal_has _ _ _, Mat.ofReal_has _ _ _, fun i => ?_⟩
  have k1 := h1.bulk i; have k2 := h2.bulk i; have g1 := h1.shear i; have g2 := h2.shear i
  have f0 := hf0 i; have f1 := hf1 i
  have reuss_eq : ∀ {a b : ℝ}, 0 < a → 0 < b →
      reuss a b (f i) = a * b / ((1 - f i) * a + f i * b) := by
    intro a b ha hb
    have hd : (1 - f i) * a + f i * b ≠ 0 := by
      have := hsReal_D (z := 0) (by simpa using ha) (by simpa using hb) f0 f1
      simpa using this.ne'
    unfold reuss
    rw [show f i / a + (1 - f i) / b = ((1 - f i) * a + f i * b) / (a * b) by field_simp; ring,
      inv_div]
  have pGl : 0 < pick "lower" (G1 i) (G2 i) := pick_pos g1 g2
  have pGu : 0 < pick "upper" (G1 i) (G2 i) := pick_pos g1 g2
  have pKl : 0 < pick "lower" (K1 i) (K2 i) := pick_pos k1 k2
  have hGG := pick_lower_le_upper (G1 i) (G2 i)
  have hKK := pick_lower_le_upper (K1 i) (K2 i)
  have zl := zShear_nonneg pKl.le pGl.le
  have zz := zShear_mono pKl pGl.le hKK hGG
  refine ⟨⟨?_, ?_, ?_⟩, ?_, ?_, ?_⟩
  · rw [reuss_eq k1 k2]; exact reuss_le_hsReal k1 k2 (by positivity) f0 f1
  · exact hsReal_mono_z (by positivity) (by positivity) f0 f1 (by linarith)
  · exact hsReal_le_voigt (by positivity) (by positivity) f0 f1
  · rw [reuss_eq g1 g2]; exact reuss_le_hsReal g1 g2 zl f0 f1
  · exact hsReal_mono_z (by linarith) (by linarith) f0 f1 zz
  · exact hsReal_le_voigt (by linarith) (by linarith) f0 f1

/-! ### C10 -/

/-- **C10.** Ratio 1 gives material 1 and ratio 0 gives material 2, exactly, for both bounds. -/
theorem C10_end_points {m1 m2 : Mat n} {K1 G1 R1 K2 G2 R2 : Fin n → ℝ} {bound : String}
    (h1 : m1.Pos K1 G1 R1) (h2 : m2.Pos K2 G2 R2) (hb : IsBound bound) :
    (∃ m, hsw m1 m2 (c 1) bound = .ok m ∧ m.bulk = m1.bulk ∧ m.shear = m1.shear ∧
      m.density = m1.density) ∧
    (∃ m, hsw m1 m2 (c 0) bound = .ok m ∧ m.bulk = m2.bulk ∧ m.shear = m2.shear ∧
      m.density = m2.density) := by
  have hpK : ∀ i, 0 < pick bound (K1 i) (K2 i) := fun i => pick_pos (h1.bulk i) (h2.bulk i)
  have hpG : ∀ i, 0 < pick bound (G1 i) (G2 i) := fun i => pick_pos (h1.shear i) (h2.shear i)
  have hz : ∀ i, 0 ≤ zShear (pick bound (K1 i) (K2 i)) (pick bound (G1 i) (G2 i)) :=
    fun i => zShear_nonneg (hpK i).le (hpG i).le
  obtain ⟨e1, e2, e3⟩ := h1.has
  obtain ⟨e4, e5, e6⟩ := h2.has
  constructor
  · refine ⟨_, hsw_pos (f := fun _ => 1) h1 h2 hb (fun _ => by norm_num) (fun _ => le_refl _), ?_⟩
    rw [e1, e2, e3]
    refine ⟨?_, ?_, ?_⟩ <;> funext i <;> simp only [Mat.ofReal, finC_apply, Num.fin_inj]
    · exact hsReal_one (by have := h2.bulk i; have := hpG i; positivity)
    · exact hsReal_one (by have := h2.shear i; have := hz i; positivity)
    · ring
  · refine ⟨_, hsw_pos (f := fun _ => 0) h1 h2 hb (fun _ => le_refl _) (fun _ => by norm_num), ?_⟩
    rw [e4, e5, e6]
    refine ⟨?_, ?_, ?_⟩ <;> funext i <;> simp only [Mat.ofReal, finC_apply, Num.fin_inj]
    · exact hsReal_zero (by have := h1.bulk i; have := hpG i; positivity)
    · exact hsReal_zero (by have := h1.shear i; have := hz i; positivity)
    · ring

/-! ### C11 -/

/-- **C11.** Swapping the materials and complementing the ratio gives the same mix. -/
theorem C11_symmetric {m1 m2 : Mat n} {K1 G1 R1 K2 G2 R2 f : Fin n → ℝ} {bound : String}
    (h1 : m1.Pos K1 G1 R1) (h2 : m2.Pos K2 G2 R2) (hb : IsBound bound)
    (hf0 : ∀ i, 0 ≤ f i) (hf1 : ∀ i, f i ≤ 1) :
    ∃ m, hsw m1 m2 (finC f) bound = .ok m ∧ hsw m2 m1 (finC fun i => 1 - f i) bound = .ok m := by
  refine ⟨_, hsw_pos h1 h2 hb hf0 hf1, ?_⟩
  rw [hsw_pos h2 h1 hb (fun i => by have := hf1 i; linarith) (fun i => by have := hf0 i; linarith)]
  congr 2
  · funext i; rw [pick_comm, ← hsReal_symm]
  · funext i; rw [pick_comm bound (K2 i), pick_comm bound (G2 i), ← hsReal_symm]
  · funext i; ring

/-! ### C13 -/

theorem checkIsRatio_ok_iff (ratio : Col n) : checkIsRatio ratio = .ok () ↔
    ∀ i, ¬ Num.fin (1 + 1e-5) < ratio i ∧ ¬ ratio i < Num.fin (-1e-5) := by
  unfold checkIsRatio
  simp only [failIf_bind_ok, failIf_ok_iff, not_exists, zero_sub]
  exact forall_and.symm

theorem checkIsRatio_error {ratio : Col n} {e : Err} (h : checkIsRatio ratio = .error e) :
    e = .valueError := by
  unfold checkIsRatio at h
  rcases failIf_bind_error h with ⟨_, h⟩ | h; · exact h.symm
  unfold failIf at h; split at h
  · injection h with h; exact h.symm
  · cases h

/-- **C13.** Any row of the ratio above `1+1e-5` or below `-1e-5` makes each of the three functions
raise `ValueError`, whatever the materials are. -/
theorem C13_bad_ratio_rejected (m1 m2 : Mat n) (ratio : Col n) (bound : String) (i : Fin n)
    (h : Num.fin (1 + 1e-5) < ratio i ∨ ratio i < Num.fin (-1e-5)) :
    hsw m1 m2 ratio bound = .error .valueError ∧ hsBound m1 m2 ratio = .error .valueError ∧
      hsAverage m1 m2 ratio = .error .valueError := by
  have : checkIsRatio ratio = .error .valueError := by
    cases hc : checkIsRatio ratio with
    | error e => rw [checkIsRatio_error hc]
    | ok u =>
      have := (checkIsRatio_ok_iff ratio).mp hc i
      rcases h with h | h
      · exact absurd h this.1
      · exact absurd h this.2
  refine ⟨?_, ?_, ?_⟩
  · unfold hsw; rw [this]; rfl
  · unfold hsBound; rw [this]; rfl
  · unfold hsAverage; rw [this]; rfl

example : Num.fin (1 + 1e-5) < (finC fun _ : Fin 2 => (1.1 : ℝ)) 1 := by
  simp only [finC_apply, Num.fin_lt]; norm_num

/-- **C13.** An unknown bound name raises `ValueError`. -/
theorem C13_bad_bound_rejected (m1 m2 : Mat n) (ratio : Col n) (bound : String)
    (h : ¬ IsBound bound) : hsw m1 m2 ratio bound = .error .valueError := by
  unfold hsw
  cases hc : checkIsRatio ratio with
  | error e => rw [checkIsRatio_error hc]; rfl
  | ok u =>
    unfold IsBound at h
    push Not at h
    rw [bind_ok, failIf_true h]; rfl

example : ¬ IsBound "middle" := by unfold IsBound; decide

/-- **C13.** Within the tolerance (and for nan) the ratio is not rejected: mixing a positive material
with itself succeeds for exactly the ratios `≤ 1+1e-5`, `≥ -1e-5` or nan, and gives the material. -/
theorem C13_ratio_accepted_iff {m : Mat n} {K G R : Fin n → ℝ} (h : m.Pos K G R) (ratio : Col n)
    {bound : String} (hb : IsBound bound) :
    hsw m m ratio bound = .ok (Mat.ofReal K G R) ↔
      ∀ i, ¬ Num.fin (1 + 1e-5) < ratio i ∧ ¬ ratio i < Num.fin (-1e-5) := by
  rw [← checkIsRatio_ok_iff]
  constructor
  · intro hh; unfold hsw at hh
    obtain ⟨_, hx, _⟩ := bind_eq_ok.mp hh; exact hx
  · intro hh
    obtain ⟨e1, e2, e3⟩ := h.has
    unfold hsw
    rw [hh, bind_ok, failIf_false (by rcases hb with h | h <;> simp [h]), bind_ok]
    simp only [e1, e2, e3, finC_apply]
    rw [vec_ok (r := finC R) (fun i => by simp [hswDensity]), bind_ok,
      vec_ok (r := finC K) (fun i => by simp [hswBulk]), bind_ok,
      vec_ok (r := finC G) (fun i => by simp [hswShear]), bind_ok]
    exact mkModuli_ofReal (fun i => (h.bulk i).le) (fun i => (h.shear i).le) h.density

example : ∀ i : Fin 2, ¬ Num.fin (1 + 1e-5) < (fun _ => Num.nan : Col 2) i
    ∧ ¬ (fun _ => Num.nan : Col 2) i < Num.fin (-1e-5) :=
  fun _ => ⟨lt_nan_right _, lt_nan_left _⟩

/-- **C13.** The same for the two other functions and finite ratios: mixing a positive material with
itself gives the material for exactly the ratios between `-1e-5` and `1+1e-5`; every other finite
ratio is refused (`C13_bad_ratio_rejected`). -/
theorem C13_bound_and_average_accepted_iff {m : Mat n} {K G R : Fin n → ℝ} (h : m.Pos K G R)
    (f : Fin n → ℝ) :
    (hsBound m m (finC f) = .ok (Mat.ofReal K G R) ↔ ∀ i, f i ≤ 1 + 1e-5 ∧ -1e-5 ≤ f i) ∧
    (hsAverage m m (finC f) = .ok (Mat.ofReal K G R) ↔ ∀ i, f i ≤ 1 + 1e-5 ∧ -1e-5 ≤ f i) := by
  have key : ∀ g : Fin n → ℝ, (checkIsRatio (finC g) = .ok () ↔
      ∀ i, g i ≤ 1 + 1e-5 ∧ -1e-5 ≤ g i) := fun g => by
    rw [checkIsRatio_ok_iff]
    simp only [finC_apply, Num.fin_lt, not_lt]
  obtain ⟨e1, e2, e3⟩ := h.has
  have bnd : ∀ g : Fin n → ℝ, (∀ i, g i ≤ 1 + 1e-5 ∧ -1e-5 ≤ g i) →
      hsBound m m (finC g) = .ok (Mat.ofReal K G R) := fun g hg => by
    unfold hsBound
    rw [(key g).mpr hg, bind_ok]
    simp only [e1, e2, e3]
    have := mkModuli_ofReal (fun i => (h.bulk i).le) (fun i => (h.shear i).le) h.density
    rw [← this]
    have a1 : ∀ i, K i + 4/3 * G i ≠ 0 := fun i => by
      have := h.bulk i; have := h.shear i; positivity
    have a2 : ∀ i, 5 * G i * (K i + 4/3 * G i) ≠ 0 := fun i => by
      have := h.shear i; exact mul_ne_zero (by positivity) (a1 i)
    congr 1
    · funext i; simp [a1 i]
    · funext i; simp [a2 i]
    · funext i; simp; ring
  refine ⟨⟨fun hh => ?_, bnd f⟩, ⟨fun hh => ?_, fun hh => ?_⟩⟩
  · unfold hsBound at hh
    obtain ⟨_, hx, _⟩ := bind_eq_ok.mp hh; exact (key f).mp hx
  · unfold hsAverage at hh
    obtain ⟨_, hx, _⟩ := bind_eq_ok.mp hh; exact (key f).mp hx
  · have e : (c 1 - finC f : Col n) = finC fun i => 1 - f i := by
      funext i; simp
    unfold hsAverage
    rw [(key f).mpr hh, bind_ok, bnd f hh, bind_ok, e,
      bnd _ (fun i => by have := hh i; constructor <;> linarith [this.1, this.2]), bind_ok]
    simp only [e1, e2, e3]
    have := mkModuli_ofReal (fun i => (h.bulk i).le) (fun i => (h.shear i).le) h.density
    rw [← this]
    congr 1
    · funext i; simp [Mat.ofReal]
    · funext i; simp [Mat.ofReal]
    · funext i; simp; ring

example : ∀ i : Fin 2, (fun _ => (1 + 1e-6 : ℝ)) i ≤ 1 + 1e-5 ∧ -1e-5 ≤ (fun _ => (1 + 1e-6 : ℝ)) i :=
  fun _ => ⟨by norm_num, by norm_num⟩

/-! ### C14 -/

/-- **C14.** More of the stiffer constituent never lowers the modulus of the mix (both bounds; bulk
and shear are compared separately). -/
theorem C14_monotone_in_ratio {m1 m2 : Mat n} {K1 G1 R1 K2 G2 R2 f f' : Fin n → ℝ} {bound : String}
    (h1 : m1.Pos K1 G1 R1) (h2 : m2.Pos K2 G2 R2) (hb : IsBound bound)
    (hf0 : ∀ i, 0 ≤ f i) (hff : ∀ i, f i ≤ f' i) (hf1 : ∀ i, f' i ≤ 1) :
    ∃ m m' K G R K' G' R', hsw m1 m2 (finC f) bound = .ok m ∧
      hsw m1 m2 (finC f') bound = .ok m' ∧ m.Has K G R ∧ m'.Has K' G' R' ∧
      ∀ i, (K2 i ≤ K1 i → K i ≤ K' i) ∧ (K1 i ≤ K2 i → K' i ≤ K i) ∧
        (G2 i ≤ G1 i → G i ≤ G' i) ∧ (G1 i ≤ G2 i → G' i ≤ G i) ∧
        (R2 i ≤ R1 i → R i ≤ R' i) ∧ (R1 i ≤ R2 i → R' i ≤ R i) := by
  refine ⟨_, _, _, _, _, _, _, _, hsw_pos h1 h2 hb hf0 (fun i => (hff i).trans (hf1 i)),
    hsw_pos h1 h2 hb (fun i => (hf0 i).trans (hff i)) hf1, Mat.ofReal_has _ _ _,
    Mat.ofReal_has _ _ _, fun i => ?_⟩
  have k1 := h1.bulk i; have k2 := h2.bulk i; have g1 := h1.shear i; have g2 := h2.shear i
  have f0 := hf0 i; have f1 := hf1 i; have ff := hff i
  have pG : 0 < pick bound (G1 i) (G2 i) := pick_pos g1 g2
  have pK : 0 < pick bound (K1 i) (K2 i) := pick_pos k1 k2
  have hz := zShear_nonneg pK.le pG.le
  refine ⟨fun h => ?_, fun h => ?_, fun h => ?_, fun h => ?_, fun h => ?_, fun h => ?_⟩
  · exact hsReal_mono_f (by positivity) (by positivity) f0 ff f1 h
  · rw [hsReal_symm, hsReal_symm (f := f i)]
    exact hsReal_mono_f (by positivity) (by positivity) (by linarith) (by linarith) (by linarith) h
  · exact hsReal_mono_f (by linarith) (by linarith) f0 ff f1 h
  · rw [hsReal_symm, hsReal_symm (f := f i)]
    exact hsReal_mono_f (by linarith) (by linarith) (by linarith) (by linarith) (by linarith) h
  · nlinarith
  · nlinarith

/-! ### C15 -/

theorem hsBound_pos {m1 m2 : Mat n} {K1 G1 R1 K2 G2 R2 f : Fin n → ℝ}
    (h1 : m1.Pos K1 G1 R1) (h2 : m2.Pos K2 G2 R2)
    (hf0 : ∀ i, 0 ≤ f i) (hf1 : ∀ i, f i ≤ 1) :
    hsBound m1 m2 (finC f) = .ok (Mat.ofReal
      (fun i => hsReal (K1 i) (K2 i) (4/3 * G1 i) (f i))
      (fun i => hsReal (G1 i) (G2 i) (zShear (K1 i) (G1 i)) (f i))
      (fun i => f i * R1 i + (1 - f i) * R2 i)) := by
  obtain ⟨e1, e2, e3⟩ := h1.has
  obtain ⟨e4, e5, e6⟩ := h2.has
  unfold hsBound
  rw [checkIsRatio_fin hf0 hf1, bind_ok]
  simp only [e1, e2, e3, e4, e5, e6]
  have a1 : ∀ i, 0 < K1 i + 4/3 * G1 i := fun i => by
    have := h1.bulk i; have := h1.shear i; positivity
  have a2 : ∀ i, 0 < K2 i + 4/3 * G1 i := fun i => by
    have := h2.bulk i; have := h1.shear i; positivity
  have hz : ∀ i, 0 ≤ zShear (K1 i) (G1 i) := fun i => zShear_nonneg (h1.bulk i).le (h1.shear i).le
  have a3 : ∀ i, 0 < G1 i + zShear (K1 i) (G1 i) := fun i => by
    have := h1.shear i; have := hz i; linarith
  have a4 : ∀ i, 0 < G2 i + zShear (K1 i) (G1 i) := fun i => by
    have := h2.shear i; have := hz i; linarith
  have d1 := fun i => hsReal_D (a1 i) (a2 i) (hf0 i) (hf1 i)
  have d2 := fun i => hsReal_D (a3 i) (a4 i) (hf0 i) (hf1 i)
  have zeq : ∀ i, G1 i + zShear (K1 i) (G1 i)
      = 5 * G1 i * (K1 i + 4/3 * G1 i) / (2 * (K1 i + 2 * G1 i)) := fun i => by
    have := h1.bulk i; have := h1.shear i
    unfold zShear; field_simp; ring
  have hk : ∀ i, K1 i + (1 - f i) * (K2 i - K1 i) / (1 + (K2 i - K1 i) * f i * (K1 i + 4/3 * G1 i)⁻¹)
      = hsReal (K1 i) (K2 i) (4/3 * G1 i) (f i)
      ∧ 1 + (K2 i - K1 i) * f i * (K1 i + 4/3 * G1 i)⁻¹ ≠ 0 := fun i => by
    have := (a1 i).ne'; have hd := (d1 i).ne'
    have e : 1 + (K2 i - K1 i) * f i * (K1 i + 4/3 * G1 i)⁻¹
        = ((1 - f i) * (K1 i + 4/3 * G1 i) + f i * (K2 i + 4/3 * G1 i)) / (K1 i + 4/3 * G1 i) := by
      rw [eq_div_iff this, add_mul, mul_assoc, inv_mul_cancel₀ this]; ring
    rw [e]
    refine ⟨?_, div_ne_zero hd this⟩
    unfold hsReal
    rw [div_div_eq_mul_div, ← sub_eq_zero]
    generalize hD : ((1 - f i) * (K1 i + 4/3 * G1 i) + f i * (K2 i + 4/3 * G1 i)) = D at hd ⊢
    field_simp
    rw [← hD]; ring
  have hg : ∀ i, G1 i + (1 - f i) * (G2 i - G1 i) /
        (1 + 2 * (G2 i - G1 i) * f i * (K1 i + 2 * G1 i) / (5 * G1 i * (K1 i + 4/3 * G1 i)))
      = hsReal (G1 i) (G2 i) (zShear (K1 i) (G1 i)) (f i)
      ∧ 1 + 2 * (G2 i - G1 i) * f i * (K1 i + 2 * G1 i) / (5 * G1 i * (K1 i + 4/3 * G1 i)) ≠ 0 :=
    fun i => by
    have k1 := h1.bulk i; have g1 := h1.shear i
    have hA := (a3 i).ne'; have hd := (d2 i).ne'
    have e : 2 * (G2 i - G1 i) * f i * (K1 i + 2 * G1 i) / (5 * G1 i * (K1 i + 4/3 * G1 i))
        = (G2 i - G1 i) * f i / (G1 i + zShear (K1 i) (G1 i)) := by
      rw [zeq i]; have := (a1 i).ne'; field_simp
    rw [e]
    have e2 : 1 + (G2 i - G1 i) * f i / (G1 i + zShear (K1 i) (G1 i))
        = ((1 - f i) * (G1 i + zShear (K1 i) (G1 i)) + f i * (G2 i + zShear (K1 i) (G1 i)))
          / (G1 i + zShear (K1 i) (G1 i)) := by
      rw [eq_div_iff hA, add_mul, div_mul_cancel₀ _ hA]; ring
    rw [e2]
    refine ⟨?_, div_ne_zero hd hA⟩
    unfold hsReal
    rw [div_div_eq_mul_div, ← sub_eq_zero]
    generalize zShear (K1 i) (G1 i) = z at hd hA ⊢
    generalize hD : ((1 - f i) * (G1 i + z) + f i * (G2 i + z)) = D at hd ⊢
    field_simp
    rw [← hD]; ring
  have eK : (finC K1 + (c 1 - finC f) * (finC K2 - finC K1) /
      (c 1 + (finC K2 - finC K1) * finC f *
        (fun i => Num.powi (finC K1 i + Num.fin (4/3) * finC G1 i) (-1))) : Col n)
      = finC (fun i => hsReal (K1 i) (K2 i) (4/3 * G1 i) (f i)) := by
    funext i
    simp only [Pi.add_apply, Pi.mul_apply, Pi.div_apply, Pi.sub_apply, finC_apply, c_apply,
      Num.fin_add, Num.fin_sub, Num.fin_mul, Num.fin_powi_neg_one (a1 i).ne',
      Num.fin_div _ (hk i).2, (hk i).1]
  have eG : (finC G1 + (c 1 - finC f) * (finC G2 - finC G1) /
      (c 1 + c 2 * (finC G2 - finC G1) * finC f * (finC K1 + c 2 * finC G1) /
        (c 5 * finC G1 * (finC K1 + c (4/3) * finC G1))) : Col n)
      = finC (fun i => hsReal (G1 i) (G2 i) (zShear (K1 i) (G1 i)) (f i)) := by
    funext i
    have hne : 5 * G1 i * (K1 i + 4/3 * G1 i) ≠ 0 :=
      mul_ne_zero (mul_ne_zero (by norm_num) (h1.shear i).ne') (a1 i).ne'
    simp only [Pi.add_apply, Pi.mul_apply, Pi.div_apply, Pi.sub_apply, finC_apply, c_apply,
      Num.fin_add, Num.fin_sub, Num.fin_mul, Num.fin_div _ hne,
      Num.fin_div _ (hg i).2, (hg i).1]
  have eR : (finC f * finC R1 + (c 1 - finC f) * finC R2 : Col n)
      = finC (fun i => f i * R1 i + (1 - f i) * R2 i) := by
    funext i; simp
  rw [eK, eG, eR, mkModuli_ofReal]
  · intro i
    exact le_trans (le_min (h1.bulk i).le (h2.bulk i).le)
      (hsReal_between (a1 i).le (a2 i).le (d1 i) (hf0 i) (hf1 i)).1
  · intro i
    exact le_trans (le_min (h1.shear i).le (h2.shear i).le)
      (hsReal_between (a3 i).le (a4 i).le (d2 i) (hf0 i) (hf1 i)).1
  · intro i; exact mix_density_pos (h1.density i) (h2.density i) (hf0 i) (hf1 i)

/-- **C15.** `hashin_shtrikman_bound` is the Walpole lower bound when material 1 is the softer one,
and the upper bound when it is the stiffer one. -/
theorem C15_bound_is_walpole {m1 m2 : Mat n} {K1 G1 R1 K2 G2 R2 f : Fin n → ℝ}
    (h1 : m1.Pos K1 G1 R1) (h2 : m2.Pos K2 G2 R2)
    (hf0 : ∀ i, 0 ≤ f i) (hf1 : ∀ i, f i ≤ 1) :
    (∃ m, hsBound m1 m2 (finC f) = .ok m) ∧
    ((∀ i, K1 i ≤ K2 i ∧ G1 i ≤ G2 i) →
      hsBound m1 m2 (finC f) = hsw m1 m2 (finC f) "lower") ∧
    ((∀ i, K2 i ≤ K1 i ∧ G2 i ≤ G1 i) →
      hsBound m1 m2 (finC f) = hsw m1 m2 (finC f) "upper") := by
  refine ⟨⟨_, hsBound_pos h1 h2 hf0 hf1⟩, fun h => ?_, fun h => ?_⟩
  · rw [hsBound_pos h1 h2 hf0 hf1, hsw_pos h1 h2 (.inl rfl) hf0 hf1]
    congr 2 <;> funext i <;> simp [pick, min_eq_left (h i).1, min_eq_left (h i).2]
  · rw [hsBound_pos h1 h2 hf0 hf1, hsw_pos h1 h2 (.inr rfl) hf0 hf1]
    congr 2 <;> funext i <;> simp [pick, max_eq_left (h i).1, max_eq_left (h i).2]

/-- **C15.** `hashin_shtrikman_average` is the mean of the two bounds, does not depend on the order of
the materials, and lies between the constituents. -/
theorem C15_average {m1 m2 : Mat n} {K1 G1 R1 K2 G2 R2 f : Fin n → ℝ}
    (h1 : m1.Pos K1 G1 R1) (h2 : m2.Pos K2 G2 R2)
    (hf0 : ∀ i, 0 ≤ f i) (hf1 : ∀ i, f i ≤ 1) :
    ∃ b1 b2 m Ka Ga Ra Kb Gb Rb K G R,
      hsBound m1 m2 (finC f) = .ok b1 ∧ hsBound m2 m1 (finC fun i => 1 - f i) = .ok b2 ∧
      hsAverage m1 m2 (finC f) = .ok m ∧ hsAverage m2 m1 (finC fun i => 1 - f i) = .ok m ∧
      b1.Has Ka Ga Ra ∧ b2.Has Kb Gb Rb ∧ m.Has K G R ∧
      ∀ i, K i = (Ka i + Kb i) / 2 ∧ G i = (Ga i + Gb i) / 2 ∧ R i = voigt (R1 i) (R2 i) (f i) ∧
        Between (K1 i) (K2 i) (K i) ∧ Between (G1 i) (G2 i) (G i) := by
  have g0 : ∀ i, 0 ≤ 1 - f i := fun i => by have := hf1 i; linarith
  have g1 : ∀ i, 1 - f i ≤ 1 := fun i => by have := hf0 i; linarith
  have q1 := hsBound_pos h1 h2 hf0 hf1
  have q2 := hsBound_pos h2 h1 g0 g1
  set Ka : Fin n → ℝ := fun i => hsReal (K1 i) (K2 i) (4/3 * G1 i) (f i) with hKa
  set Ga : Fin n → ℝ := fun i => hsReal (G1 i) (G2 i) (zShear (K1 i) (G1 i)) (f i) with hGa
  set Kb : Fin n → ℝ := fun i => hsReal (K2 i) (K1 i) (4/3 * G2 i) (1 - f i) with hKb
  set Gb : Fin n → ℝ := fun i => hsReal (G2 i) (G1 i) (zShear (K2 i) (G2 i)) (1 - f i) with hGb
  have bt : ∀ {a b z x : ℝ}, 0 < a → 0 < b → 0 ≤ z → 0 ≤ x → x ≤ 1 →
      Between a b (hsReal a b z x) := fun ha hb hz h0 h1' =>
    hsReal_between (by linarith) (by linarith) (hsReal_D (by linarith) (by linarith) h0 h1') h0 h1'
  have z1 : ∀ i, 0 ≤ zShear (K1 i) (G1 i) := fun i => zShear_nonneg (h1.bulk i).le (h1.shear i).le
  have z2 : ∀ i, 0 ≤ zShear (K2 i) (G2 i) := fun i => zShear_nonneg (h2.bulk i).le (h2.shear i).le
  have bKa : ∀ i, Between (K1 i) (K2 i) (Ka i) := fun i =>
    bt (h1.bulk i) (h2.bulk i) (by have := h1.shear i; positivity) (hf0 i) (hf1 i)
  have bGa : ∀ i, Between (G1 i) (G2 i) (Ga i) := fun i =>
    bt (h1.shear i) (h2.shear i) (z1 i) (hf0 i) (hf1 i)
  have bKb : ∀ i, Between (K1 i) (K2 i) (Kb i) := fun i => by
    have := bt (h2.bulk i) (h1.bulk i) (z := 4/3 * G2 i) (by have := h2.shear i; positivity)
      (g0 i) (g1 i)
    unfold Between at this ⊢; rwa [min_comm, max_comm]
  have bGb : ∀ i, Between (G1 i) (G2 i) (Gb i) := fun i => by
    have := bt (h2.shear i) (h1.shear i) (z2 i) (g0 i) (g1 i)
    unfold Between at this ⊢; rwa [min_comm, max_comm]
  have bavg : ∀ {a b x y : ℝ}, Between a b x → Between a b y → Between a b ((x + y) / 2) := by
    rintro a b x y ⟨p, q⟩ ⟨r, s⟩; constructor <;> linarith
  have bK := fun i => bavg (bKa i) (bKb i)
  have bG := fun i => bavg (bGa i) (bGb i)
  have pK : ∀ i, 0 ≤ (Ka i + Kb i) / 2 := fun i =>
    le_trans (le_min (h1.bulk i).le (h2.bulk i).le) (bK i).1
  have pG : ∀ i, 0 ≤ (Ga i + Gb i) / 2 := fun i =>
    le_trans (le_min (h1.shear i).le (h2.shear i).le) (bG i).1
  have pR : ∀ i, 0 < f i * R1 i + (1 - f i) * R2 i := fun i =>
    mix_density_pos (h1.density i) (h2.density i) (hf0 i) (hf1 i)
  have cf : (c 1 - finC f : Col n) = finC (fun i => 1 - f i) := by funext i; simp
  have cff : (c 1 - finC (fun i => 1 - f i) : Col n) = finC f := by funext i; simp
  obtain ⟨-, -, e3⟩ := h1.has
  obtain ⟨-, -, e6⟩ := h2.has
  have havg : hsAverage m1 m2 (finC f) = .ok (Mat.ofReal (fun i => (Ka i + Kb i) / 2)
      (fun i => (Ga i + Gb i) / 2) (fun i => f i * R1 i + (1 - f i) * R2 i)) := by
    unfold hsAverage
    rw [checkIsRatio_fin hf0 hf1, bind_ok, q1, bind_ok, cf, q2, bind_ok,
      ← mkModuli_ofReal pK pG pR]
    congr 1 <;> funext i <;> simp [e3, e6]
  have havg2 : hsAverage m2 m1 (finC fun i => 1 - f i) = .ok (Mat.ofReal
      (fun i => (Ka i + Kb i) / 2)
      (fun i => (Ga i + Gb i) / 2) (fun i => f i * R1 i + (1 - f i) * R2 i)) := by
    unfold hsAverage
    rw [checkIsRatio_fin g0 g1, bind_ok, q2, bind_ok, cff, q1, bind_ok,
      ← mkModuli_ofReal pK pG pR]
    congr 1 <;> funext i <;> simp [e3, e6] <;> ring
  exact ⟨_, _, _, Ka, Ga, _, Kb, Gb, _, _, _, _, q1, q2, havg, havg2, ⟨rfl, rfl, rfl⟩,
    ⟨rfl, rfl, rfl⟩, ⟨rfl, rfl, rfl⟩, fun i => ⟨rfl, rfl, rfl, bK i, bG i⟩⟩

end OPE
