import Verif.Model.Sandstone
import Verif.Props.Material
import Verif.Props.HashinShtrikman

/-!
# Properties of the sandstone models (C26–C32)
-/

namespace OPE

open Classical Spec

variable {n : ℕ}

/-! ### C26 -/

/-- **C26.** For given mineral, porosity, coordination number and shear reduction there are positive
constants `A`, `B` (one per row) such that for *every* pressure column `p ≥ 0` the grain pack has bulk
modulus `A p^(1/3)`, shear modulus `B p^(1/3)` and density `R (1-φ)`. -/
theorem C26_pressure_law {m : Mat n} {K G R φ sr N : Fin n → ℝ} (h : m.Pos K G R)
    (hφ : ∀ i, φ i < 1) (hs : ∀ i, 0 ≤ sr i) (hN : ∀ i, 0 < N i) :
    ∃ A B : Fin n → ℝ, (∀ i, 0 < A i ∧ 0 < B i) ∧ ∀ p : Fin n → ℝ, (∀ i, 0 ≤ p i) →
      ∃ r, hertzMindlin m (finC φ) (finC p) (finC sr) (finC N) = .ok r ∧
        r.Has (fun i => A i * p i ^ ((1:ℝ)/3)) (fun i => B i * p i ^ ((1:ℝ)/3))
          (fun i => R i * (1 - φ i)) := by
  refine ⟨fun i => hmK (K i) (G i) (φ i) 1 (N i), fun i => hmG (K i) (G i) (φ i) 1 (N i) (sr i),
    fun i => ⟨(hmK_factor (h.bulk i) (h.shear i) (hφ i) (hN i) zero_le_one).2,
      (hmG_factor (h.bulk i) (h.shear i) (hφ i) (hN i) zero_le_one (hs i)).2⟩, fun p hp => ?_⟩
  refine ⟨_, hertzMindlin_fin h.has h.bulk h.shear h.density hφ hp hs hN, ?_, ?_, rfl⟩
  · funext i; simp only [Mat.ofReal_bulk, finC_apply, Num.fin_inj]
    exact (hmK_factor (h.bulk i) (h.shear i) (hφ i) (hN i) (hp i)).1
  · funext i; simp only [Mat.ofReal_shear, finC_apply, Num.fin_inj]
    exact (hmG_factor (h.bulk i) (h.shear i) (hφ i) (hN i) (hp i) (hs i)).1

/-- **C26, consequences spelled out.** Moduli vanish at zero pressure, increase strictly with
pressure, and the ratio bulk/shear is the same at any two positive pressures. -/
theorem C26_zero_increasing_ratio {m : Mat n} {K G R φ sr N p q : Fin n → ℝ} (h : m.Pos K G R)
    (hφ : ∀ i, φ i < 1) (hs : ∀ i, 0 ≤ sr i) (hN : ∀ i, 0 < N i)
    (hp : ∀ i, 0 ≤ p i) (hpq : ∀ i, p i < q i) :
    (∃ r, hertzMindlin m (finC φ) (c 0) (finC sr) (finC N) = .ok r ∧ r.bulk = c 0 ∧ r.shear = c 0) ∧
    ∃ r s Kr Gr Ks Gs Rr, hertzMindlin m (finC φ) (finC p) (finC sr) (finC N) = .ok r ∧
      hertzMindlin m (finC φ) (finC q) (finC sr) (finC N) = .ok s ∧
      r.Has Kr Gr Rr ∧ s.Has Ks Gs Rr ∧
      ∀ i, Kr i < Ks i ∧ Gr i < Gs i ∧ Kr i * Gs i = Ks i * Gr i ∧
        (0 < p i → Kr i / Gr i = Ks i / Gs i) := by
  obtain ⟨A, B, hAB, hall⟩ := C26_pressure_law h hφ hs hN
  constructor
  · obtain ⟨r, hr, h1, h2, -⟩ := hall (fun _ => 0) (fun _ => le_refl _)
    refine ⟨r, hr, ?_, ?_⟩
    · rw [h1]; funext i; simp
    · rw [h2]; funext i; simp
  · obtain ⟨r, hr, h1⟩ := hall p hp
    obtain ⟨s, hs', h2⟩ := hall q (fun i => (hp i).trans (hpq i).le)
    refine ⟨r, s, _, _, _, _, _, hr, hs', h1, h2, fun i => ?_⟩
    have hlt : p i ^ ((1:ℝ)/3) < q i ^ ((1:ℝ)/3) := Real.rpow_lt_rpow (hp i) (hpq i) (by norm_num)
    obtain ⟨ha, hb⟩ := hAB i
    refine ⟨mul_lt_mul_of_pos_left hlt ha, mul_lt_mul_of_pos_left hlt hb, by ring, fun h0 => ?_⟩
    have h3 : p i ^ ((1:ℝ)/3) ≠ 0 := (Real.rpow_pos_of_pos h0 _).ne'
    have h4 : q i ^ ((1:ℝ)/3) ≠ 0 := (Real.rpow_pos_of_pos (h0.trans (hpq i)) _).ne'
    rw [mul_div_mul_right _ _ h3, mul_div_mul_right _ _ h4]

-- the hypotheses are met by quartz at porosity 0.4, coordination number 9, pressures 10 and 20
example := C26_zero_increasing_ratio (p := fun _ => 10) (q := fun _ => 20) (φ := fun _ => 0.4)
  (sr := fun _ => 0.5) (N := fun _ => 9) quartz_pos (fun _ => by norm_num) (fun _ => by norm_num)
  (fun _ => by norm_num) (fun _ => by norm_num) (fun _ => by norm_num)

/-! ### C27 -/

section friable
variable {m : Mat n} {K G R φ φc p sr N : Fin n → ℝ}

/-- A grain pack under positive pressure is a positive material. -/
theorem hertzMindlin_pos (h : m.Pos K G R) (hφ : ∀ i, φc i < 1) (hp : ∀ i, 0 < p i)
    (hs : ∀ i, 0 ≤ sr i) (hN : ∀ i, 0 < N i) :
    (Mat.ofReal (fun i => hmK (K i) (G i) (φc i) (p i) (N i))
      (fun i => hmG (K i) (G i) (φc i) (p i) (N i) (sr i)) (fun i => R i * (1 - φc i))).Pos
      (fun i => hmK (K i) (G i) (φc i) (p i) (N i))
      (fun i => hmG (K i) (G i) (φc i) (p i) (N i) (sr i)) (fun i => R i * (1 - φc i)) := by
  refine ⟨Mat.ofReal_has _ _ _, fun i => ?_, fun i => ?_,
    fun i => mul_pos (h.density i) (by linarith [hφ i])⟩
  · obtain ⟨e, q⟩ := hmK_factor (h.bulk i) (h.shear i) (hφ i) (hN i) (hp i).le
    rw [e]; exact mul_pos q (Real.rpow_pos_of_pos (hp i) _)
  · obtain ⟨e, q⟩ := hmG_factor (h.bulk i) (h.shear i) (hφ i) (hN i) (hp i).le (hs i)
    rw [e]; exact mul_pos q (Real.rpow_pos_of_pos (hp i) _)

theorem friable_fraction (hφc : ∀ i, 0 < φc i) :
    (c 1 - finC φ / finC φc : Col n) = finC fun i => 1 - φ i / φc i := by
  funext i; simp [(hφc i).ne']

theorem friableSand_fin (h : m.Pos K G R) (hφ0 : ∀ i, 0 ≤ φ i) (hφ : ∀ i, φ i ≤ φc i)
    (hc0 : ∀ i, 0 < φc i) (hc1 : ∀ i, φc i < 1) (hp : ∀ i, 0 < p i)
    (hs : ∀ i, 0 ≤ sr i) (hN : ∀ i, 0 < N i) :
    friableSand m (finC φ) (finC φc) (finC p) (finC N) (finC sr) = .ok (Mat.ofReal
      (fun i => frK (K i) (G i) (φ i) (φc i) (p i) (N i) (sr i))
      (fun i => frG (K i) (G i) (φ i) (φc i) (p i) (N i) (sr i))
      (fun i => R i * (1 - φ i))) := by
  unfold friableSand
  rw [hertzMindlin_fin h.has h.bulk h.shear h.density hc1 (fun i => (hp i).le) hs hN, bind_ok]
  dsimp only
  rw [friable_fraction hc0, hsw_pos h (hertzMindlin_pos h hc1 hp hs hN) (.inl rfl)
    (fun i => by have := div_le_one_of_le₀ (hφ i) (hc0 i).le; linarith)
    (fun i => by have := div_nonneg (hφ0 i) (hc0 i).le; linarith)]
  congr 2
  funext i
  have := (hc0 i).ne'
  field_simp
  ring

/-- **C27.** Friable sand between porosity 0 and critical porosity, at positive pressure: the density
is `R (1-φ)`; bulk and shear modulus lie between those of the mineral and those of the Hertz–Mindlin
pack at critical porosity; at porosity 0 it has the mineral's properties, at critical porosity those of
the pack. -/
theorem C27_density_and_range (h : m.Pos K G R) (hφ0 : ∀ i, 0 ≤ φ i) (hφ : ∀ i, φ i ≤ φc i)
    (hc0 : ∀ i, 0 < φc i) (hc1 : ∀ i, φc i < 1) (hp : ∀ i, 0 < p i)
    (hs : ∀ i, 0 ≤ sr i) (hN : ∀ i, 0 < N i) :
    ∃ fr pack Kf Gf Kp Gp Rp,
      friableSand m (finC φ) (finC φc) (finC p) (finC N) (finC sr) = .ok fr ∧
      hertzMindlin m (finC φc) (finC p) (finC sr) (finC N) = .ok pack ∧
      fr.Has Kf Gf (fun i => R i * (1 - φ i)) ∧ pack.Has Kp Gp Rp ∧
      ∀ i, Between (K i) (Kp i) (Kf i) ∧ Between (G i) (Gp i) (Gf i) ∧
        (φ i = 0 → Kf i = K i ∧ Gf i = G i) ∧ (φ i = φc i → Kf i = Kp i ∧ Gf i = Gp i) := by
  have hpk := hertzMindlin_pos h hc1 hp hs hN
  refine ⟨_, _, _, _, _, _, _, friableSand_fin h hφ0 hφ hc0 hc1 hp hs hN,
    hertzMindlin_fin h.has h.bulk h.shear h.density hc1 (fun i => (hp i).le) hs hN,
    Mat.ofReal_has _ _ _, Mat.ofReal_has _ _ _, fun i => ?_⟩
  have k := hpk.bulk i
  have g := hpk.shear i
  have hK := h.bulk i
  have hG := h.shear i
  have f0 : 0 ≤ 1 - φ i / φc i := by have := div_le_one_of_le₀ (hφ i) (hc0 i).le; linarith
  have f1 : 1 - φ i / φc i ≤ 1 := by have := div_nonneg (hφ0 i) (hc0 i).le; linarith
  have z1 : 0 < 4/3 * min (G i) (hmG (K i) (G i) (φc i) (p i) (N i) (sr i)) :=
    mul_pos (by norm_num) (lt_min hG g)
  have z2 : 0 ≤ zShear (min (K i) (hmK (K i) (G i) (φc i) (p i) (N i)))
      (min (G i) (hmG (K i) (G i) (φc i) (p i) (N i) (sr i))) :=
    zShear_nonneg (lt_min hK k).le (lt_min hG g).le
  refine ⟨?_, ?_, ?_, ?_⟩
  · exact hsReal_between (by linarith) (by linarith)
      (hsReal_D (by linarith) (by linarith) f0 f1) f0 f1
  · exact hsReal_between (by linarith) (by linarith)
      (hsReal_D (by linarith) (by linarith) f0 f1) f0 f1
  · intro e
    constructor
    · simp only [frK, e, zero_div, sub_zero]; exact hsReal_one (by linarith)
    · simp only [frG, e, zero_div, sub_zero]; exact hsReal_one (by linarith)
  · intro e
    have e' : 1 - φ i / φc i = 0 := by rw [e, div_self (hc0 i).ne']; ring
    constructor
    · simp only [frK, e']; exact hsReal_zero (by linarith)
    · simp only [frG, e']; exact hsReal_zero (by linarith)

theorem bind_eq_error {α β : Type} {x : Except Err α} {f : α → Except Err β} {e : Err}
    (h : (x >>= f) = .error e) : x = .error e ∨ ∃ a, x = .ok a ∧ f a = .error e := by
  cases x with
  | error e' => left; simpa using h
  | ok a => right; exact ⟨a, rfl, by simpa using h⟩

theorem pyDiv_error {a b : Num} {e : Err} (h : pyDiv a b = .error e) : e = .zeroDivision := by
  unfold pyDiv at h; split at h
  · injection h with h; exact h.symm
  · cases h

theorem pyInv_error {a : Num} {e : Err} (h : pyInv a = .error e) : e = .zeroDivision := by
  unfold pyInv at h; split at h
  · injection h with h; exact h.symm
  · cases h

/-- A kernel of the Walpole mix can only raise `ZeroDivisionError`. -/
theorem hswBulk_error {k1 k2 mum f1 f2 : Num} {e : Err} (h : hswBulk k1 k2 mum f1 f2 = .error e) :
    e = .zeroDivision := by
  unfold hswBulk at h; split at h
  · cases h
  · rcases bind_eq_error h with h | ⟨_, _, h⟩; · exact pyInv_error h
    rcases bind_eq_error h with h | ⟨_, _, h⟩; · exact pyInv_error h
    rcases bind_eq_error h with h | ⟨_, _, h⟩; · exact pyDiv_error h
    cases h

theorem hswShear_error {k1 k2 km mum f1 f2 : Num} {e : Err}
    (h : hswShear k1 k2 km mum f1 f2 = .error e) : e = .zeroDivision := by
  unfold hswShear at h; split at h
  · cases h
  · rcases bind_eq_error h with h | ⟨_, _, h⟩; · exact pyInv_error h
    rcases bind_eq_error h with h | ⟨_, _, h⟩; · exact pyDiv_error h
    rcases bind_eq_error h with h | ⟨_, _, h⟩; · exact pyInv_error h
    rcases bind_eq_error h with h | ⟨_, _, h⟩; · exact pyDiv_error h
    cases h

/-- **C27, boundary of the domain.** At zero pressure in any row friable sand is not defined: the call
raises `ZeroDivisionError` (not `ValueError`). -/
theorem C27_zero_pressure (h : m.Pos K G R) (hφ0 : ∀ i, 0 ≤ φ i) (hφ : ∀ i, φ i ≤ φc i)
    (hc0 : ∀ i, 0 < φc i) (hc1 : ∀ i, φc i < 1) (hp : ∀ i, 0 ≤ p i)
    (hs : ∀ i, 0 ≤ sr i) (hN : ∀ i, 0 < N i) (i₀ : Fin n) (h0 : p i₀ = 0) :
    friableSand m (finC φ) (finC φc) (finC p) (finC N) (finC sr) = .error .zeroDivision := by
  unfold friableSand
  rw [hertzMindlin_fin h.has h.bulk h.shear h.density hc1 hp hs hN, bind_ok]
  dsimp only
  rw [friable_fraction hc0]
  unfold hsw
  rw [checkIsRatio_fin
    (fun i => by have := div_le_one_of_le₀ (hφ i) (hc0 i).le; linarith)
    (fun i => by have := div_nonneg (hφ0 i) (hc0 i).le; linarith), bind_ok,
    failIf_false (by simp), bind_ok]
  dsimp only
  rw [h.has.2.2, Mat.ofReal_density]
  simp only [Pi.sub_apply, c_apply, finC_apply, Num.fin_sub]
  rw [vec_ok (fun i => hswDensity_fin _ _ _), bind_ok]
  rw [h.has.1, h.has.2.1, Mat.ofReal_bulk, Mat.ofReal_shear]
  match hk : vec (n := n) _ with
  | .error e =>
    obtain ⟨i, hi⟩ := vec_error hk
    rw [hswBulk_error hi]; rfl
  | .ok k =>
    rw [bind_ok]
    match hg : vec (n := n) _ with
    | .error e =>
      obtain ⟨i, hi⟩ := vec_error hg
      rw [hswShear_error hi]; rfl
    | .ok g =>
      exfalso
      have hg := vec_ok_iff.mp hg i₀
      have k0 : hmK (K i₀) (G i₀) (φc i₀) (p i₀) (N i₀) = 0 := by
        rw [(hmK_factor (h.bulk i₀) (h.shear i₀) (hc1 i₀) (hN i₀) (hp i₀)).1, h0]
        simp
      have g0 : hmG (K i₀) (G i₀) (φc i₀) (p i₀) (N i₀) (sr i₀) = 0 := by
        rw [(hmG_factor (h.bulk i₀) (h.shear i₀) (hc1 i₀) (hN i₀) (hp i₀) (hs i₀)).1, h0]
        simp
      have hK := h.bulk i₀
      have hG := h.shear i₀
      simp [k0, g0, hswShear, hG.ne', hK.le, hG.le, pyDiv] at hg

end friable

-- quartz, porosity 0.2, critical porosity 0.4, 10 MPa
example := C27_density_and_range (φ := fun _ => 0.2) (φc := fun _ => 0.4) (p := fun _ => 1e7)
  (sr := fun _ => 0.5) (N := fun _ => 9) quartz_pos (fun _ => by norm_num) (fun _ => by norm_num)
  (fun _ => by norm_num) (fun _ => by norm_num) (fun _ => by norm_num) (fun _ => by norm_num)
  (fun _ => by norm_num)
example := C27_zero_pressure (φ := fun _ => 0.2) (φc := fun _ => 0.4) (p := fun _ => 0)
  (sr := fun _ => 0.5) (N := fun _ => 9) quartz_pos (fun _ => by norm_num) (fun _ => by norm_num)
  (fun _ => by norm_num) (fun _ => by norm_num) (fun _ => by norm_num) (fun _ => by norm_num)
  (fun _ => by norm_num) 1 rfl

/-! ### C28 -/

/-- Porosities that `cement_radius_ratio` and `contact_cement` reject (IEEE comparisons: a nan is never
rejected). -/
def BadPorosities (cemented sand : Num) : Prop :=
  Num.fin 1 < sand ∨ sand < Num.fin 0 ∨ Num.fin 1 < cemented ∨ cemented < Num.fin 0 ∨ sand < cemented

theorem checkPorosities_ok_iff (x g : Col n) :
    checkPorosities x g = .ok () ↔ ∀ i, ¬ BadPorosities (x i) (g i) := by
  unfold checkPorosities BadPorosities
  simp only [failIf_bind_ok, failIf_ok_iff, not_or, not_exists]
  constructor
  · rintro ⟨⟨a, b⟩, ⟨d, e⟩, f⟩ i; exact ⟨a i, b i, d i, e i, f i⟩
  · intro h
    exact ⟨⟨fun i => (h i).1, fun i => (h i).2.1⟩, ⟨fun i => (h i).2.2.1, fun i => (h i).2.2.2.1⟩,
      fun i => (h i).2.2.2.2⟩

theorem checkPorosities_error {x g : Col n} {e : Err} (h : checkPorosities x g = .error e) :
    e = .valueError := by
  unfold checkPorosities at h
  rcases failIf_bind_error h with ⟨_, h⟩ | h; · exact h.symm
  rcases failIf_bind_error h with ⟨_, h⟩ | h; · exact h.symm
  unfold failIf at h; split at h
  · injection h with h; exact h.symm
  · cases h

theorem checkPorosities_eq (x g : Col n) :
    checkPorosities x g = if ∃ i, BadPorosities (x i) (g i) then .error .valueError else .ok () := by
  split
  · rename_i h
    cases hc : checkPorosities x g with
    | error e => rw [checkPorosities_error hc]
    | ok u =>
      obtain ⟨i, hi⟩ := h
      exact absurd hi ((checkPorosities_ok_iff x g).mp hc i)
  · rename_i h
    exact (checkPorosities_ok_iff x g).mpr (not_exists.mp h)

/-- **C28.** `cement_radius_ratio` raises `ValueError` exactly when some row has a porosity outside
[0,1] or a cemented porosity above the sand porosity; otherwise it succeeds (any values incl. nan). -/
theorem C28_rejects_exactly (x g : Col n) :
    (cementRadiusRatio x g = .error .valueError ↔ ∃ i, BadPorosities (x i) (g i)) ∧
    ((∃ r, cementRadiusRatio x g = .ok r) ↔ ¬ ∃ i, BadPorosities (x i) (g i)) := by
  unfold cementRadiusRatio
  rw [checkPorosities_eq]
  by_cases h : ∃ i, BadPorosities (x i) (g i)
  · simp [h]
  · simp [h]

/-- The radius ratio for porosities in [0,1). -/
noncomputable def crr (x g : ℝ) : ℝ := min 1 (Real.sqrt (2 * (g - x) / (3 * (1 - g))))

theorem crr_range {x g : ℝ} (hx : x ≤ g) (hg : g < 1) :
    0 ≤ crr x g ∧ crr x g ≤ 1 ∧ (crr x g = 0 ↔ x = g) := by
  have h1 : 0 < 3 * (1 - g) := by linarith
  refine ⟨le_min zero_le_one (Real.sqrt_nonneg _), min_le_left _ _, ?_⟩
  unfold crr
  constructor
  · intro h
    have : Real.sqrt (2 * (g - x) / (3 * (1 - g))) = 0 := by
      rcases min_choice 1 (Real.sqrt (2 * (g - x) / (3 * (1 - g)))) with e | e
      · rw [e] at h; norm_num at h
      · rw [e] at h; exact h
    rw [Real.sqrt_eq_zero (div_nonneg (by linarith) h1.le), div_eq_zero_iff] at this
    rcases this with h | h <;> linarith
  · rintro rfl; simp

theorem not_badPorosities {x g : ℝ} (h0 : 0 ≤ x) (hx : x ≤ g) (hg : g ≤ 1) :
    ¬ BadPorosities (Num.fin x) (Num.fin g) := by
  simp only [BadPorosities, Num.fin_lt]
  rintro (h | h | h | h | h) <;> linarith

theorem cementRadiusRatio_fin {x g : Fin n → ℝ} (h0 : ∀ i, 0 ≤ x i) (hx : ∀ i, x i ≤ g i)
    (hg : ∀ i, g i < 1) :
    cementRadiusRatio (finC x) (finC g) = .ok (finC fun i => crr (x i) (g i)) := by
  unfold cementRadiusRatio
  rw [checkPorosities_eq, if_neg, bind_ok]
  · dsimp only
    congr 1
    funext i
    have h1 : 3 * (1 - g i) ≠ 0 := by have := hg i; intro h; linarith
    have h2 : 0 ≤ 2 * (g i - x i) / (3 * (1 - g i)) :=
      div_nonneg (by linarith [hx i]) (by linarith [hg i])
    simp [h1, h2, Num.clip, crr]
  · rintro ⟨i, hi⟩; exact not_badPorosities (h0 i) (hx i) (hg i).le hi

/-- **C28, for sand porosity below 1.**  The result is in [0,1], it is zero exactly when the cemented
porosity equals the sand porosity, it is `sqrt (2 (g-x) / (3 (1-g)))` where that is at most 1 and 1
elsewhere, and it does not increase with the cemented porosity.
(At sand porosity 1 see `C28_refuted` and `C28_sand_porosity_one`.) -/
theorem C28_partial {x x' g : Fin n → ℝ} (h0 : ∀ i, 0 ≤ x i) (hxx : ∀ i, x i ≤ x' i)
    (hx : ∀ i, x' i ≤ g i) (hg : ∀ i, g i < 1) :
    ∃ r r' : Fin n → ℝ, cementRadiusRatio (finC x) (finC g) = .ok (finC r) ∧
      cementRadiusRatio (finC x') (finC g) = .ok (finC r') ∧
      ∀ i, 0 ≤ r i ∧ r i ≤ 1 ∧ (r i = 0 ↔ x i = g i) ∧
        r i = min 1 (Real.sqrt (2 * (g i - x i) / (3 * (1 - g i)))) ∧ r' i ≤ r i := by
  refine ⟨_, _, cementRadiusRatio_fin h0 (fun i => (hxx i).trans (hx i)) hg,
    cementRadiusRatio_fin (fun i => (h0 i).trans (hxx i)) hx hg, fun i => ?_⟩
  obtain ⟨a, b, d⟩ := crr_range ((hxx i).trans (hx i)) (hg i)
  refine ⟨a, b, d, rfl, min_le_min le_rfl (Real.sqrt_le_sqrt ?_)⟩
  apply div_le_div_of_nonneg_right _ (by linarith [hg i])
  linarith [hxx i]

example := C28_partial (n := 2) (x := fun _ => 0.3) (x' := fun _ => 0.35) (g := fun _ => 0.4)
  (fun _ => by norm_num) (fun _ => by norm_num) (fun _ => by norm_num) (fun _ => by norm_num)
example : BadPorosities (Num.fin 0.4) (Num.fin 0.3) := by
  unfold BadPorosities; simp only [Num.fin_lt]; norm_num

/-- **C28 at sand porosity 1**, cemented porosity below 1: the result is 1. -/
theorem C28_sand_porosity_one {x : Fin n → ℝ} (h0 : ∀ i, 0 ≤ x i) (hx : ∀ i, x i < 1) :
    cementRadiusRatio (finC x) (c 1) = .ok (c 1) := by
  unfold cementRadiusRatio
  rw [checkPorosities_eq, if_neg, bind_ok]
  · dsimp only
    congr 1
    funext i
    have h2 : 0 < 2 * (1 - x i) := by linarith [hx i]
    have h3 : ¬ (Num.posInf ≤ Num.fin 1) := by rintro (h | h) <;> exact h
    have h4 : Num.fin 1 ≤ Num.posInf := Or.inl trivial
    simp [Num.fin_div_eq, Num.infSigned, hx i, Num.sqrt, Num.clip, Num.minimum, h4]
  · rintro ⟨i, hi⟩; exact not_badPorosities (h0 i) (hx i).le le_rfl hi

/-- **C28 is false of the code** at sand porosity 1 with cemented porosity 1 (no cement added): the
result is nan, not 0. -/
theorem C28_refuted : cementRadiusRatio (c 1 : Col 1) (c 1) = .ok (fun _ => Num.nan) := by
  unfold cementRadiusRatio
  rw [checkPorosities_eq, if_neg, bind_ok]
  · dsimp only
    congr 1
    funext i
    simp [Num.fin_div_eq, Num.infSigned, Num.sqrt, Num.clip, Num.minimum]
  · rintro ⟨i, hi⟩; exact not_badPorosities zero_le_one le_rfl le_rfl hi

/-! ### C31 -/

/-- **C31.** The Murphy coordination number is positive for every porosity and strictly decreasing on
[0, 0.84]. -/
theorem C31_murphy (x y : Fin n → ℝ) :
    ∃ u v : Fin n → ℝ, murphyCoordinationNumber (finC x) = finC u ∧
      murphyCoordinationNumber (finC y) = finC v ∧
      ∀ i, 0 < u i ∧ (0 ≤ x i → x i < y i → y i ≤ 0.84 → v i < u i) := by
  have e : ∀ x : Fin n → ℝ, murphyCoordinationNumber (finC x)
      = finC fun i => 25.98805 * x i ^ 2 - 43.7622 * x i + 21.6719 := by
    intro x; funext i
    simp [murphyCoordinationNumber, Col.sq]
  refine ⟨_, _, e x, e y, fun i => ⟨?_, fun h0 h1 h2 => ?_⟩⟩
  · nlinarith [sq_nonneg (x i - 0.842)]
  · norm_num at h2 ⊢
    nlinarith [mul_pos (sub_pos.mpr h1) (by linarith : (0:ℝ) < 1.682 - x i - y i)]

end OPE
