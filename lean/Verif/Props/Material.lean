import Verif.Model.Material

/-!
# Properties C01–C06: `Material`
-/

namespace OPE

open Classical

variable {n : ℕ}

/-! ### helper lemmas -/

theorem lt_nan_right (a : Num) : ¬ a < Num.nan := by cases a <;> exact id
theorem lt_nan_left (a : Num) : ¬ Num.nan < a := by cases a <;> exact id

theorem checkMaterial_ok_iff (m : Mat n) : checkMaterial m = .ok () ↔
    (∀ i, ¬ m.density i < Num.fin 0) ∧ (∀ i, ¬ m.bulk i < Num.fin 0) ∧
    (∀ i, ¬ m.shear i < Num.fin 0) ∧ (∀ i, ¬ m.vp i < Num.fin 0) ∧
    (∀ i, ¬ m.vs i < Num.fin 0) ∧ (∀ i, ¬ m.vp i < Num.fin (Real.sqrt (4/3)) * m.vs i) := by
  unfold checkMaterial
  simp only [failIf_bind_ok, failIf_ok_iff, not_exists]

theorem checkMaterial_error {m : Mat n} {e : Err} (h : checkMaterial m = .error e) :
    e = .valueError := by
  unfold checkMaterial at h
  rcases failIf_bind_error h with ⟨_, h⟩ | h; · exact h.symm
  rcases failIf_bind_error h with ⟨_, h⟩ | h; · exact h.symm
  rcases failIf_bind_error h with ⟨_, h⟩ | h; · exact h.symm
  rcases failIf_bind_error h with ⟨_, h⟩ | h; · exact h.symm
  rcases failIf_bind_error h with ⟨_, h⟩ | h; · exact h.symm
  unfold failIf at h; split at h
  · injection h with h; exact h.symm
  · cases h

/-- Shape of a successful construction. -/
theorem mkMaterial_ok {b g d s p : Option (Col n)} {m : Mat n} (h : mkMaterial b g d s p = .ok m) :
    d = some m.density ∧ checkMaterial m = .ok () ∧
    (b = some m.bulk ∨ b = none ∧ p = some m.vp ∧ m.bulk = calcBulk m.vp m.shear m.density) ∧
    (g = some m.shear ∨ g = none ∧ s = some m.vs ∧ m.shear = calcShear m.vs m.density) ∧
    (p = some m.vp ∨ p = none ∧ m.vp = calcVp m.bulk m.shear m.density) ∧
    (s = some m.vs ∨ s = none ∧ m.vs = calcVs m.shear m.density) := by
  cases b <;> cases g <;> cases d <;> cases s <;> cases p <;>
    simp [mkMaterial, setDefaults] at h <;>
    (obtain ⟨_, hc, h'⟩ := bind_eq_ok.mp h; injection h' with h'; subst h'; simp [hc])

theorem mkMaterial_density_error {b g s p : Option (Col n)} {d : Col n} {e : Err}
    (h : mkMaterial b g (some d) s p = .error e) : e = .valueError := by
  have aux : ∀ m : Mat n, (checkMaterial m >>= fun _ => Except.ok m) = .error e →
      e = .valueError := by
    intro m hm
    cases hc : checkMaterial m with
    | error e' => rw [hc] at hm; simp at hm; subst hm; exact checkMaterial_error hc
    | ok u => rw [hc] at hm; simp at hm
  cases b <;> cases g <;> cases s <;> cases p <;>
    simp [mkMaterial, setDefaults] at h <;> first | exact h.symm | exact aux _ h

/-! ### C01 -/

/-- **C01.** `Material(bulk_modulus=K, shear_modulus=G, density=ρ)` with `K, G ≥ 0`, `ρ > 0` in every
row succeeds, keeps `K`, `G`, `ρ`, and its velocities satisfy `ρ Vp² = K + 4/3 G`, `ρ Vs² = G`. -/
theorem C01_velocities_agree (K G ρ : Fin n → ℝ) (hK : ∀ i, 0 ≤ K i) (hG : ∀ i, 0 ≤ G i)
    (hρ : ∀ i, 0 < ρ i) :
    ∃ m, mkMaterial (some (finC K)) (some (finC G)) (some (finC ρ)) none none = .ok m ∧
      m.bulk = finC K ∧ m.shear = finC G ∧ m.density = finC ρ ∧
      ∃ vp vs : Fin n → ℝ, m.vp = finC vp ∧ m.vs = finC vs ∧
        ∀ i, 0 ≤ vp i ∧ 0 ≤ vs i ∧ ρ i * vp i ^ 2 = K i + 4/3 * G i ∧ ρ i * vs i ^ 2 = G i := by
  refine ⟨_, mkModuli_ofReal hK hG hρ, rfl, rfl, rfl, _, _, rfl, rfl, fun i => ?_⟩
  have h0 := (hρ i).ne'
  have h1 : 0 ≤ (K i + 4/3 * G i) / ρ i :=
    div_nonneg (add_nonneg (hK i) (mul_nonneg (by norm_num) (hG i))) (hρ i).le
  have h2 : 0 ≤ G i / ρ i := div_nonneg (hG i) (hρ i).le
  refine ⟨Real.sqrt_nonneg _, Real.sqrt_nonneg _, ?_, ?_⟩
  · rw [Real.sq_sqrt h1]; field_simp
  · rw [Real.sq_sqrt h2]; field_simp

example : (∀ _ : Fin 3, (0:ℝ) ≤ 36e9) ∧ (∀ _ : Fin 3, (0:ℝ) < 2650) := by
  constructor <;> intro _ <;> norm_num

/-! ### C02 -/

theorem mkVelocities_ofReal {ρ vp vs : Fin n → ℝ} (hρ : ∀ i, 0 < ρ i) (hvs : ∀ i, 0 ≤ vs i)
    (hvp : ∀ i, Real.sqrt (4/3) * vs i ≤ vp i) :
    mkVelocities (finC ρ) (finC vp) (finC vs) = .ok
      ⟨finC (fun i => vp i ^ 2 * ρ i - 4/3 * (vs i ^ 2 * ρ i)), finC (fun i => vs i ^ 2 * ρ i),
        finC ρ, finC vp, finC vs⟩ := by
  have hs : calcShear (finC vs) (finC ρ) = finC (fun i => vs i ^ 2 * ρ i) := by
    funext i; simp [calcShear]
  have hb : calcBulk (finC vp) (finC (fun i => vs i ^ 2 * ρ i)) (finC ρ)
      = finC (fun i => vp i ^ 2 * ρ i - 4/3 * (vs i ^ 2 * ρ i)) := by
    funext i; simp [calcBulk]
  have hvp0 : ∀ i, 0 ≤ vp i := fun i =>
    le_trans (mul_nonneg (Real.sqrt_nonneg _) (hvs i)) (hvp i)
  have hsq : ∀ i, 4/3 * vs i ^ 2 ≤ vp i ^ 2 := by
    intro i
    have h := pow_le_pow_left₀ (mul_nonneg (Real.sqrt_nonneg (4/3)) (hvs i)) (hvp i) 2
    rw [mul_pow, Real.sq_sqrt (by norm_num)] at h; exact h
  have hc : checkMaterial (⟨finC (fun i => vp i ^ 2 * ρ i - 4/3 * (vs i ^ 2 * ρ i)),
      finC (fun i => vs i ^ 2 * ρ i), finC ρ, finC vp, finC vs⟩ : Mat n) = .ok () := by
    rw [checkMaterial_ok_iff]
    refine ⟨fun i => ?_, fun i => ?_, fun i => ?_, fun i => ?_, fun i => ?_, fun i => ?_⟩ <;>
      simp only [finC_apply, Num.fin_mul, Num.fin_lt, not_lt]
    · exact (hρ i).le
    · have := mul_le_mul_of_nonneg_right (hsq i) (hρ i).le; linarith
    · exact mul_nonneg (sq_nonneg _) (hρ i).le
    · exact hvp0 i
    · exact hvs i
    · exact hvp i
  simp [mkVelocities, mkMaterial, setDefaults, hs, hb, hc]

/-- **C02.** Moduli → velocities → moduli is the identity on materials. -/
theorem C02_moduli_round_trip (K G ρ : Fin n → ℝ) (hK : ∀ i, 0 ≤ K i) (hG : ∀ i, 0 ≤ G i)
    (hρ : ∀ i, 0 < ρ i) :
    ∃ m, mkMaterial (some (finC K)) (some (finC G)) (some (finC ρ)) none none = .ok m ∧
      mkMaterial none none (some m.density) (some m.vs) (some m.vp) = .ok m := by
  refine ⟨_, mkModuli_ofReal hK hG hρ, ?_⟩
  have h1 : ∀ i, 0 ≤ (K i + 4/3 * G i) / ρ i := fun i =>
    div_nonneg (add_nonneg (hK i) (mul_nonneg (by norm_num) (hG i))) (hρ i).le
  have h2 : ∀ i, 0 ≤ G i / ρ i := fun i => div_nonneg (hG i) (hρ i).le
  have := mkVelocities_ofReal (vp := fun i => Real.sqrt ((K i + 4/3 * G i) / ρ i))
    (vs := fun i => Real.sqrt (G i / ρ i)) hρ (fun i => Real.sqrt_nonneg _) (fun i => by
      rw [← Real.sqrt_mul (by norm_num)]
      apply Real.sqrt_le_sqrt
      have : 0 ≤ K i / ρ i := div_nonneg (hK i) (hρ i).le
      have e : (K i + 4/3 * G i) / ρ i = K i / ρ i + 4/3 * (G i / ρ i) := by ring
      rw [e]; linarith)
  refine Eq.trans this ?_
  congr 1
  ext i <;> simp only [Mat.ofReal, finC_apply, Num.fin_inj]
  · rw [Real.sq_sqrt (h1 i), Real.sq_sqrt (h2 i)]; have := (hρ i).ne'; field_simp; ring
  · rw [Real.sq_sqrt (h2 i)]; have := (hρ i).ne'; field_simp

/-- **C02.** Velocities → moduli → velocities is the identity on materials. -/
theorem C02_velocity_round_trip (ρ vp vs : Fin n → ℝ) (hρ : ∀ i, 0 < ρ i) (hvs : ∀ i, 0 ≤ vs i)
    (hvp : ∀ i, Real.sqrt (4/3) * vs i ≤ vp i) :
    ∃ m, mkMaterial none none (some (finC ρ)) (some (finC vs)) (some (finC vp)) = .ok m ∧
      mkMaterial (some m.bulk) (some m.shear) (some m.density) none none = .ok m := by
  refine ⟨_, mkVelocities_ofReal hρ hvs hvp, ?_⟩
  have hvp0 : ∀ i, 0 ≤ vp i := fun i =>
    le_trans (mul_nonneg (Real.sqrt_nonneg _) (hvs i)) (hvp i)
  have hsq : ∀ i, 4/3 * vs i ^ 2 ≤ vp i ^ 2 := by
    intro i
    have h := pow_le_pow_left₀ (mul_nonneg (Real.sqrt_nonneg (4/3)) (hvs i)) (hvp i) 2
    rw [mul_pow, Real.sq_sqrt (by norm_num)] at h; exact h
  have := mkModuli_ofReal (K := fun i => vp i ^ 2 * ρ i - 4/3 * (vs i ^ 2 * ρ i))
    (G := fun i => vs i ^ 2 * ρ i) (ρ := ρ)
    (fun i => by have := mul_le_mul_of_nonneg_right (hsq i) (hρ i).le; linarith)
    (fun i => mul_nonneg (sq_nonneg _) (hρ i).le) hρ
  refine Eq.trans this ?_
  congr 1
  ext i <;> simp only [Mat.ofReal, finC_apply, Num.fin_inj]
  · rw [show (vp i ^ 2 * ρ i - 4/3 * (vs i ^ 2 * ρ i) + 4/3 * (vs i ^ 2 * ρ i)) / ρ i = vp i ^ 2 by
      have := (hρ i).ne'; field_simp; ring, Real.sqrt_sq (hvp0 i)]
  · rw [show vs i ^ 2 * ρ i / ρ i = vs i ^ 2 by have := (hρ i).ne'; field_simp,
      Real.sqrt_sq (hvs i)]

example : (0:ℝ) < 2650 ∧ (0:ℝ) ≤ 4000 ∧ Real.sqrt (4/3) * 4000 ≤ 6000 := by
  refine ⟨by norm_num, by norm_num, ?_⟩
  have : Real.sqrt (4/3) ≤ 1.5 := by
    rw [Real.sqrt_le_left (by norm_num)]; norm_num
  nlinarith

/-! ### C03 -/

/-- **C03.** Whatever is passed (any subset of arguments, any values including nan and ±inf), a
`Material` that was constructed has no negative property in any row and no row with
`Vp < sqrt(4/3) Vs`. -/
theorem C03_no_negative_property (b g d s p : Option (Col n)) (m : Mat n)
    (h : mkMaterial b g d s p = .ok m) (i : Fin n) :
    ¬ m.density i < Num.fin 0 ∧ ¬ m.bulk i < Num.fin 0 ∧ ¬ m.shear i < Num.fin 0 ∧
    ¬ m.vp i < Num.fin 0 ∧ ¬ m.vs i < Num.fin 0 ∧
    ¬ m.vp i < Num.fin (Real.sqrt (4/3)) * m.vs i := by
  have := (checkMaterial_ok_iff m).mp (mkMaterial_ok h).2.1
  obtain ⟨h1, h2, h3, h4, h5, h6⟩ := this
  exact ⟨h1 i, h2 i, h3 i, h4 i, h5 i, h6 i⟩

/-- **C03.** A negative row in any given argument makes the constructor raise `ValueError`
(density given). -/
theorem C03_negative_argument_rejected (b g s p : Option (Col n)) (d : Col n) (i : Fin n)
    (h : d i < Num.fin 0 ∨ (∃ k, b = some k ∧ k i < Num.fin 0) ∨ (∃ k, g = some k ∧ k i < Num.fin 0)
      ∨ (∃ k, s = some k ∧ k i < Num.fin 0) ∨ (∃ k, p = some k ∧ k i < Num.fin 0)) :
    mkMaterial b g (some d) s p = .error .valueError := by
  cases hm : mkMaterial b g (some d) s p with
  | error e => rw [mkMaterial_density_error hm]
  | ok m =>
    exfalso
    obtain ⟨hd, -, hb, hg, hp, hs⟩ := mkMaterial_ok hm
    obtain ⟨h1, h2, h3, h4, h5, -⟩ := C03_no_negative_property _ _ _ _ _ m hm i
    rcases h with h | ⟨k, rfl, h⟩ | ⟨k, rfl, h⟩ | ⟨k, rfl, h⟩ | ⟨k, rfl, h⟩
    · simp at hd; subst hd; exact h1 h
    · simp at hb; subst hb; exact h2 h
    · simp at hg; subst hg; exact h3 h
    · simp at hs; subst hs; exact h5 h
    · simp at hp; subst hp; exact h4 h

example : (finC (fun _ : Fin 2 => (-1:ℝ))) 1 < Num.fin 0 := by simp

/-- **C03.** Arguments that were given are stored unchanged. -/
theorem C03_given_arguments_kept (b g d s p : Option (Col n)) (m : Mat n)
    (h : mkMaterial b g d s p = .ok m) :
    (∀ k, b = some k → m.bulk = k) ∧ (∀ k, g = some k → m.shear = k) ∧
    (∀ k, d = some k → m.density = k) ∧ (∀ k, s = some k → m.vs = k) ∧
    (∀ k, p = some k → m.vp = k) := by
  obtain ⟨hd, -, hb, hg, hp, hs⟩ := mkMaterial_ok h
  refine ⟨?_, ?_, ?_, ?_, ?_⟩ <;> rintro k rfl
  · simpa [eq_comm] using hb
  · simpa [eq_comm] using hg
  · simpa [eq_comm] using hd
  · simpa [eq_comm] using hs
  · simpa [eq_comm] using hp

/-! ### C04 -/

/-- **C04 is false of the code** for nan arguments: they pass every check. -/
theorem C04_refuted_nan :
    ∃ m : Mat 1, mkMaterial (some fun _ => Num.nan) (some (c 1)) (some (c 1)) none none = .ok m ∧
      m.bulk 0 = Num.nan := by
  refine ⟨⟨fun _ => Num.nan, c 1, c 1, calcVp (fun _ => Num.nan) (c 1) (c 1),
    calcVs (c 1) (c 1)⟩, ?_, rfl⟩
  · simp only [mkMaterial, setDefaults, bind_ok]
    rw [show checkMaterial _ = Except.ok () from ?_]
    · simp only [bind_ok]
    · rw [checkMaterial_ok_iff]
      refine ⟨fun i => ?_, fun i => lt_nan_left _, fun i => ?_, fun i => ?_, fun i => ?_,
        fun i => ?_⟩ <;> simp [calcVp, calcVs]
      · exact lt_nan_left _
      · exact lt_nan_left _

/-- **C04 is false of the code** even for finite arguments: zero moduli and zero density give nan
velocities (numpy columns). -/
theorem C04_refuted_zero_density :
    ∃ m : Mat 1, mkMaterial (some (c 0)) (some (c 0)) (some (c 0)) none none = .ok m ∧
      m.vp 0 = Num.nan := by
  have hz : (Num.fin 0 / Num.fin 0 : Num) = Num.nan := by
    rw [Num.fin_div_eq]; simp [Num.infSigned]
  refine ⟨⟨c 0, c 0, c 0, fun _ => Num.nan, fun _ => Num.nan⟩, ?_, ?_⟩
  · have h1 : calcVp (c 0 : Col 1) (c 0) (c 0) = fun _ => Num.nan := by
      funext i; simp [calcVp, hz, Num.sqrt]
    have h2 : calcVs (c 0 : Col 1) (c 0) = fun _ => Num.nan := by
      funext i; simp [calcVs, hz, Num.sqrt]
    simp only [mkMaterial, setDefaults, bind_ok, h1, h2]
    rw [show checkMaterial _ = Except.ok () from ?_]
    · simp only [bind_ok]
    · rw [checkMaterial_ok_iff]
      refine ⟨fun i => ?_, fun i => ?_, fun i => ?_, fun i => ?_, fun i => ?_, fun i => ?_⟩ <;>
        simp [lt_nan_left]
  · rfl

/-- **C04, the part that holds:** with finite given arguments and strictly positive density, every
accepted material has five finite properties (all 32 argument combinations). -/
theorem C04_partial (b g s p : Option (Col n)) (ρ : Fin n → ℝ) (m : Mat n)
    (hρ : ∀ i, 0 < ρ i) (hb : ∀ k, b = some k → ∃ x, k = finC x)
    (hg : ∀ k, g = some k → ∃ x, k = finC x) (hs : ∀ k, s = some k → ∃ x, k = finC x)
    (hp : ∀ k, p = some k → ∃ x, k = finC x)
    (h : mkMaterial b g (some (finC ρ)) s p = .ok m) :
    ∃ K G vp vs : Fin n → ℝ, m = ⟨finC K, finC G, finC ρ, finC vp, finC vs⟩ := by
  obtain ⟨hd', hc, hb', hg', hp', hs'⟩ := mkMaterial_ok h
  simp at hd'
  have hG : ∃ G, m.shear = finC G := by
    rcases hg' with h | ⟨_, h, h2⟩
    · exact hg _ h
    · obtain ⟨x, hx⟩ := hs _ h
      refine ⟨fun i => x i ^ 2 * ρ i, ?_⟩
      rw [h2, hx, ← hd']; funext i; simp [calcShear]
  obtain ⟨G, hG⟩ := hG
  have hK : ∃ K, m.bulk = finC K := by
    rcases hb' with h | ⟨_, h, h2⟩
    · exact hb _ h
    · obtain ⟨x, hx⟩ := hp _ h
      refine ⟨fun i => x i ^ 2 * ρ i - 4/3 * G i, ?_⟩
      rw [h2, hx, hG, ← hd']; funext i; simp [calcBulk]
  obtain ⟨K, hK⟩ := hK
  obtain ⟨-, h2, h3, -, -, -⟩ := (checkMaterial_ok_iff m).mp hc
  have hK0 : ∀ i, 0 ≤ K i := fun i => by have := h2 i; rw [hK] at this; simpa using this
  have hG0 : ∀ i, 0 ≤ G i := fun i => by have := h3 i; rw [hG] at this; simpa using this
  have hvp : ∃ v, m.vp = finC v := by
    rcases hp' with h | ⟨_, h⟩
    · exact hp _ h
    · refine ⟨fun i => Real.sqrt ((K i + 4/3 * G i) / ρ i), ?_⟩
      rw [h, hK, hG, ← hd']; funext i
      have h1 : 0 ≤ (K i + 4/3 * G i) / ρ i :=
        div_nonneg (add_nonneg (hK0 i) (mul_nonneg (by norm_num) (hG0 i))) (hρ i).le
      simp [calcVp, (hρ i).ne', h1]
  have hvs : ∃ v, m.vs = finC v := by
    rcases hs' with h | ⟨_, h⟩
    · exact hs _ h
    · refine ⟨fun i => Real.sqrt (G i / ρ i), ?_⟩
      rw [h, hG, ← hd']; funext i
      have h1 : 0 ≤ G i / ρ i := div_nonneg (hG0 i) (hρ i).le
      simp [calcVs, (hρ i).ne', h1]
  obtain ⟨vp, hvp⟩ := hvp
  obtain ⟨vs, hvs⟩ := hvs
  refine ⟨K, G, vp, vs, ?_⟩
  ext1 <;> simp [hK, hG, ← hd', hvp, hvs]

example : ∃ m : Mat 2, mkMaterial (some (c 36)) none (some (finC fun _ => 36)) (some (c 0)) none
    = .ok m := by
  refine ⟨⟨c 36, c 0, finC fun _ => 36, finC fun _ => Real.sqrt (36 / 36), c 0⟩, ?_⟩
  have e1 : calcShear (c 0 : Col 2) (finC fun _ => 36) = c 0 := by
    funext i; simp [calcShear]
  have e2 : calcVp (c 36 : Col 2) (c 0) (finC fun _ => 36)
      = finC fun _ => Real.sqrt (36 / 36) := by
    funext i; simp [calcVp]
  simp only [mkMaterial, setDefaults, bind_ok, e1, e2]
  rw [show checkMaterial _ = Except.ok () from ?_]
  · simp only [bind_ok]
  · rw [checkMaterial_ok_iff]; simp

/-! ### C05 -/

/-- **C05.** Derived ratios of a material with non-negative moduli, not both zero: the Poisson ratio
is finite and within `[-1, 1/2]`, the primary wave modulus is `ρ Vp²` and the impedances are
velocity times density. -/
theorem C05_derived_ratios (K G ρ : Fin n → ℝ) (hK : ∀ i, 0 ≤ K i) (hG : ∀ i, 0 ≤ G i)
    (hKG : ∀ i, 0 < K i ∨ 0 < G i) (hρ : ∀ i, 0 < ρ i) :
    ∃ m, mkMaterial (some (finC K)) (some (finC G)) (some (finC ρ)) none none = .ok m ∧
      (∃ ν : Fin n → ℝ, m.poisson = finC ν ∧ ∀ i, -1 ≤ ν i ∧ ν i ≤ 1/2) ∧
      (∃ vp vs : Fin n → ℝ, m.vp = finC vp ∧ m.vs = finC vs ∧
        m.pModulus = finC (fun i => ρ i * vp i ^ 2) ∧
        m.acousticImpedance = finC (fun i => vp i * ρ i) ∧
        m.shearImpedance = finC (fun i => vs i * ρ i)) := by
  refine ⟨_, mkModuli_ofReal hK hG hρ, ⟨fun i => (3 * K i - 2 * G i) / (2 * (3 * K i + G i)), ?_, ?_⟩,
    _, _, rfl, rfl, ?_, rfl, rfl⟩
  · funext i
    have : 2 * (3 * K i + G i) ≠ 0 := by
      have := hK i; have := hG i
      rcases hKG i with h | h <;> positivity
    simp [Mat.poisson, this]
  · intro i
    have hd : 0 < 2 * (3 * K i + G i) := by
      have := hK i; have := hG i
      rcases hKG i with h | h <;> positivity
    constructor
    · rw [le_div_iff₀ hd]; have := hK i; nlinarith
    · rw [div_le_iff₀ hd]; have := hG i; nlinarith
  · funext i
    have h1 : 0 ≤ (K i + 4/3 * G i) / ρ i :=
      div_nonneg (add_nonneg (hK i) (mul_nonneg (by norm_num) (hG i))) (hρ i).le
    have := (hρ i).ne'
    simp only [Mat.pModulus, Pi.add_apply, Pi.mul_apply, Mat.ofReal_bulk, Mat.ofReal_shear,
      finC_apply, c_apply, Num.fin_mul, Num.fin_add, Num.fin_inj]
    rw [Real.sq_sqrt h1]; field_simp

/-! ### C06 -/

/-- Specification of C06: which arguments may be omitted (`true` = given). -/
def Sufficient (bulk shear density vs vp : Bool) : Prop :=
  density = true ∧ (shear = true ∨ vs = true) ∧ (bulk = true ∨ vp = true)

/-- **C06.** An insufficient combination is rejected whatever the values: `TypeError` when only the
density is missing, `ValueError` otherwise. -/
theorem C06_insufficient_rejected (b g d s p : Option (Col n))
    (h : ¬ Sufficient b.isSome g.isSome d.isSome s.isSome p.isSome) :
    mkMaterial b g d s p = .error
      (if b.isSome ∧ g.isSome ∧ s.isSome ∧ p.isSome ∧ d = none then .typeError else .valueError) := by
  cases b <;> cases g <;> cases d <;> cases s <;> cases p <;>
    simp [Sufficient] at h <;> simp [mkMaterial, setDefaults]

example : ¬ Sufficient false true true true false := by simp [Sufficient]

/-- **C06.** Every sufficient combination works: omitting any omissible set of properties of a valid
material and constructing from the rest gives back that material. -/
theorem C06_sufficient_accepted (K G ρ : Fin n → ℝ) (hK : ∀ i, 0 ≤ K i) (hG : ∀ i, 0 ≤ G i)
    (hρ : ∀ i, 0 < ρ i) (b g d s p : Bool) (h : Sufficient b g d s p) :
    ∃ m : Mat n, m.bulk = finC K ∧ m.shear = finC G ∧ m.density = finC ρ ∧
      mkMaterial (if b then some m.bulk else none) (if g then some m.shear else none)
        (if d then some m.density else none) (if s then some m.vs else none)
        (if p then some m.vp else none) = .ok m := by
  refine ⟨Mat.ofReal K G ρ, rfl, rfl, rfl, ?_⟩
  have hmk := mkModuli_ofReal hK hG hρ
  have hc : checkMaterial (Mat.ofReal K G ρ) = .ok () := (mkMaterial_ok hmk).2.1
  have hvp : calcVp (finC K) (finC G) (finC ρ) = (Mat.ofReal K G ρ).vp := by
    funext i
    have h1 : 0 ≤ (K i + 4/3 * G i) / ρ i :=
      div_nonneg (add_nonneg (hK i) (mul_nonneg (by norm_num) (hG i))) (hρ i).le
    simp [calcVp, (hρ i).ne', h1, Mat.ofReal]
  have hvs : calcVs (finC G) (finC ρ) = (Mat.ofReal K G ρ).vs := by
    funext i
    have h1 : 0 ≤ G i / ρ i := div_nonneg (hG i) (hρ i).le
    simp [calcVs, (hρ i).ne', h1, Mat.ofReal]
  have hsh : calcShear (Mat.ofReal K G ρ).vs (finC ρ) = finC G := by
    funext i
    have h1 : 0 ≤ G i / ρ i := div_nonneg (hG i) (hρ i).le
    have := (hρ i).ne'
    simp only [calcShear, Mat.ofReal, finC_apply, Num.fin_powi_two, Num.fin_mul, Num.fin_inj]
    rw [Real.sq_sqrt h1]; field_simp
  have hbu : calcBulk (Mat.ofReal K G ρ).vp (finC G) (finC ρ) = finC K := by
    funext i
    have h1 : 0 ≤ (K i + 4/3 * G i) / ρ i :=
      div_nonneg (add_nonneg (hK i) (mul_nonneg (by norm_num) (hG i))) (hρ i).le
    have := (hρ i).ne'
    simp only [calcBulk, Mat.ofReal, finC_apply, Num.fin_powi_two, Num.fin_mul, Num.fin_inj,
      Num.fin_sub]
    rw [Real.sq_sqrt h1]; field_simp; ring
  have hc' : checkMaterial (⟨finC K, finC G, finC ρ, (Mat.ofReal K G ρ).vp,
      (Mat.ofReal K G ρ).vs⟩ : Mat n) = .ok () := hc
  have e : (⟨finC K, finC G, finC ρ, (Mat.ofReal K G ρ).vp, (Mat.ofReal K G ρ).vs⟩ : Mat n)
      = Mat.ofReal K G ρ := rfl
  revert h
  cases b <;> cases g <;> cases d <;> cases s <;> cases p <;> intro h <;>
    simp [Sufficient] at h <;>
    simp [mkMaterial, setDefaults, hvp, hvs, hsh, hbu, hc', e, hc]

example : Sufficient false false true true true := by simp [Sufficient]

end OPE
