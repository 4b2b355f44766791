import Verif.Spec.Published
import Verif.Props.Cement

/-!
# The rock models are the published formulas (C96 – C99)
-/

namespace OPE

open Classical

variable {n : ℕ}

/-- The material has, row by row, the (positive) properties of the rocks `a`. -/
def Mat.IsRock (m : Mat n) (a : Fin n → Published.Rock) : Prop :=
  m.bulk = finC (fun i => (a i).K) ∧ m.shear = finC (fun i => (a i).G) ∧
    m.density = finC (fun i => (a i).ρ) ∧ ∀ i, 0 < (a i).K ∧ 0 < (a i).G ∧ 0 < (a i).ρ

theorem Mat.IsRock.pos {m : Mat n} {a : Fin n → Published.Rock} (h : m.IsRock a) :
    m.Pos (fun i => (a i).K) (fun i => (a i).G) (fun i => (a i).ρ) :=
  ⟨⟨h.1, h.2.1, h.2.2.1⟩, fun i => (h.2.2.2 i).1, fun i => (h.2.2.2 i).2.1, fun i => (h.2.2.2 i).2.2⟩

theorem Mat.Pos.isRock {m : Mat n} {K G R : Fin n → ℝ} {a : Fin n → Published.Rock} (h : m.Pos K G R)
    (hK : ∀ i, K i = (a i).K) (hG : ∀ i, G i = (a i).G) (hR : ∀ i, R i = (a i).ρ) : m.IsRock a := by
  refine ⟨?_, ?_, ?_, fun i => ⟨hK i ▸ h.bulk i, hG i ▸ h.shear i, hR i ▸ h.density i⟩⟩
  · rw [h.has.1, funext hK]
  · rw [h.has.2.1, funext hG]
  · rw [h.has.2.2, funext hR]

/-! ### C96 Hashin–Shtrikman -/

theorem hsReal_published {a b z f : ℝ} (ha : 0 < a + z) (hb : 0 < b + z) (h0 : 0 ≤ f) (h1 : f ≤ 1) :
    hsReal a b z f = Published.hashinShtrikman a b f z := by
  unfold hsReal Published.hashinShtrikman
  have h := hsReal_D ha hb h0 h1
  congr 1
  rw [div_add_div _ _ ha.ne' hb.ne', inv_div]
  congr 1; ring

theorem zShear_published (K G : ℝ) : zShear K G = Published.zeta K G := by
  unfold zShear Published.zeta; rw [mul_div_assoc]

theorem hsw_lower {m1 m2 : Mat n} {a b : Fin n → Published.Rock} {f : Fin n → ℝ} (h1 : m1.IsRock a)
    (h2 : m2.IsRock b) (hf : ∀ i, 0 ≤ f i ∧ f i ≤ 1) :
    ∃ m, hsw m1 m2 (finC f) "lower" = .ok m ∧
      m.IsRock fun i => Published.lowerBound (a i) (b i) (f i) := by
  obtain ⟨m, K, G, R, hm, hp, -⟩ := C08_between_constituents (bound := "lower") h1.pos h2.pos (.inl rfl)
    (fun i => (hf i).1) (fun i => (hf i).2)
  have h := hsw_pos (bound := "lower") h1.pos h2.pos (.inl rfl) (fun i => (hf i).1) (fun i => (hf i).2)
  refine ⟨m, hm, ?_⟩
  rw [hm] at h; injection h with h
  obtain ⟨e1, e2, e3⟩ := hp.has
  rw [h] at e1 e2 e3
  have e1 := finC_injective e1; have e2 := finC_injective e2; have e3 := finC_injective e3
  have hG : ∀ i, 0 < min (a i).G (b i).G := fun i => lt_min (h1.2.2.2 i).2.1 (h2.2.2.2 i).2.1
  have hK : ∀ i, 0 < min (a i).K (b i).K := fun i => lt_min (h1.2.2.2 i).1 (h2.2.2.2 i).1
  have hz : ∀ i, 0 < Published.zeta (min (a i).K (b i).K) (min (a i).G (b i).G) := fun i => by
    have := hG i; have := hK i; unfold Published.zeta; positivity
  refine hp.isRock (fun i => ?_) (fun i => ?_) (fun i => ?_)
  · rw [← e1]
    simp only [pick, if_true]
    have := hG i; have := (h1.2.2.2 i).1; have := (h2.2.2.2 i).1
    exact hsReal_published (by positivity) (by positivity) (hf i).1 (hf i).2
  · rw [← e2]
    simp only [pick, if_true, zShear_published]
    have := hz i; have := (h1.2.2.2 i).2.1; have := (h2.2.2.2 i).2.1
    exact hsReal_published (by positivity) (by positivity) (hf i).1 (hf i).2
  · rw [← e3]; rfl

theorem hsw_upper {m1 m2 : Mat n} {a b : Fin n → Published.Rock} {f : Fin n → ℝ} (h1 : m1.IsRock a)
    (h2 : m2.IsRock b) (hf : ∀ i, 0 ≤ f i ∧ f i ≤ 1) :
    ∃ m, hsw m1 m2 (finC f) "upper" = .ok m ∧
      m.IsRock fun i => Published.upperBound (a i) (b i) (f i) := by
  obtain ⟨m, K, G, R, hm, hp, -⟩ := C08_between_constituents (bound := "upper") h1.pos h2.pos (.inr rfl)
    (fun i => (hf i).1) (fun i => (hf i).2)
  have h := hsw_pos (bound := "upper") h1.pos h2.pos (.inr rfl) (fun i => (hf i).1) (fun i => (hf i).2)
  refine ⟨m, hm, ?_⟩
  rw [hm] at h; injection h with h
  obtain ⟨e1, e2, e3⟩ := hp.has
  rw [h] at e1 e2 e3
  have e1 := finC_injective e1; have e2 := finC_injective e2; have e3 := finC_injective e3
  have hG : ∀ i, 0 < max (a i).G (b i).G := fun i => lt_max_of_lt_left (h1.2.2.2 i).2.1
  have hK : ∀ i, 0 < max (a i).K (b i).K := fun i => lt_max_of_lt_left (h1.2.2.2 i).1
  have hz : ∀ i, 0 < Published.zeta (max (a i).K (b i).K) (max (a i).G (b i).G) := fun i => by
    have := hG i; have := hK i; unfold Published.zeta; positivity
  have hne : ("upper" = "lower") = False := by simp
  refine hp.isRock (fun i => ?_) (fun i => ?_) (fun i => ?_)
  · rw [← e1]
    simp only [pick, hne, if_false]
    have := hG i; have := (h1.2.2.2 i).1; have := (h2.2.2.2 i).1
    exact hsReal_published (by positivity) (by positivity) (hf i).1 (hf i).2
  · rw [← e2]
    simp only [pick, hne, if_false, zShear_published]
    have := hz i; have := (h1.2.2.2 i).2.1; have := (h2.2.2.2 i).2.1
    exact hsReal_published (by positivity) (by positivity) (hf i).1 (hf i).2
  · rw [← e3]; rfl

/-- **C96.** For positive materials and fractions in [0, 1] the Walpole mix never raises and is the
published Hashin–Shtrikman bound: comparison constants from the softer (lower) or stiffer (upper) moduli. -/
theorem C96_hashin_shtrikman {m1 m2 : Mat n} {a b : Fin n → Published.Rock} {f : Fin n → ℝ}
    (h1 : m1.IsRock a) (h2 : m2.IsRock b) (hf : ∀ i, 0 ≤ f i ∧ f i ≤ 1) :
    (∃ m, hsw m1 m2 (finC f) "lower" = .ok m ∧ m.IsRock fun i => Published.lowerBound (a i) (b i) (f i)) ∧
    (∃ m, hsw m1 m2 (finC f) "upper" = .ok m ∧ m.IsRock fun i => Published.upperBound (a i) (b i) (f i)) ∧
    (∃ m, hsBound m1 m2 (finC f) = .ok m ∧
      m.bulk = finC (fun i => Published.hashinShtrikman (a i).K (b i).K (f i) (4 / 3 * (a i).G)) ∧
      m.shear = finC (fun i => Published.hashinShtrikman (a i).G (b i).G (f i)
        (Published.zeta (a i).K (a i).G)) ∧
      m.density = finC fun i => f i * (a i).ρ + (1 - f i) * (b i).ρ) := by
  refine ⟨hsw_lower h1 h2 hf, hsw_upper h1 h2 hf, _,
    hsBound_pos h1.pos h2.pos (fun i => (hf i).1) (fun i => (hf i).2), ?_, ?_, rfl⟩
  · funext i
    simp only [Mat.ofReal, finC_apply, Num.fin_inj]
    obtain ⟨_, _, _⟩ := h1.2.2.2 i; obtain ⟨_, _, _⟩ := h2.2.2.2 i
    exact hsReal_published (by positivity) (by positivity) (hf i).1 (hf i).2
  · funext i
    simp only [Mat.ofReal, finC_apply, Num.fin_inj, zShear_published]
    obtain ⟨_, _, _⟩ := h1.2.2.2 i; obtain ⟨_, _, _⟩ := h2.2.2.2 i
    have : 0 < Published.zeta (a i).K (a i).G := by unfold Published.zeta; positivity
    exact hsReal_published (by positivity) (by positivity) (hf i).1 (hf i).2

/-! ### C97 Hertz–Mindlin and friable sand -/

theorem nuR_published (K G : ℝ) : nuR K G = Published.poisson K G := rfl

theorem cube_root {x y : ℝ} (hx : 0 ≤ x) (h : x ^ 3 = y) : x = y ^ (1 / 3 : ℝ) := by
  rw [← h, ← Real.rpow_natCast, ← Real.rpow_mul hx]; norm_num

theorem hmA_cube {K G φ p N : ℝ} (h : 0 ≤ 3 * Real.pi * (1 - nuR K G) * p / (2 * N * (1 - φ) * G)) :
    hmA K G φ p N ^ 3 = 3 * Real.pi * (1 - nuR K G) * p / (2 * N * (1 - φ) * G) := by
  unfold hmA; rw [← Real.rpow_natCast, ← Real.rpow_mul h]; norm_num

theorem hm_published {K G φ p N : ℝ} (hK : 0 < K) (hG : 0 < G) (hφ : φ < 1) (hp : 0 ≤ p) (hN : 0 < N)
    (f : ℝ) :
    hmK K G φ p N = Published.hertzMindlinBulk K G φ p N ∧
    hmG K G φ p N f = Published.hertzMindlinShear K G φ p N f := by
  have h1 : 0 < 1 - nuR K G := by have := (nuR_lt K G hK hG).1; linarith
  have h1' : 0 < 2 - nuR K G := by linarith
  have h2 : 0 < 1 - φ := by linarith
  have hpi := Real.pi_pos
  have hb : 0 ≤ 3 * Real.pi * (1 - nuR K G) * p / (2 * N * (1 - φ) * G) := by positivity
  have hA : 0 ≤ hmA K G φ p N := Real.rpow_nonneg hb _
  have hc := hmA_cube hb
  have eK : hmK K G φ p N = Published.hertzMindlinBulk K G φ p N := by
    apply cube_root
    · unfold hmK; positivity
    · unfold hmK
      rw [mul_pow, div_pow, div_pow, mul_pow (4 * hmA K G φ p N), mul_pow 4, hc, ← nuR_published]
      field_simp
      ring
  refine ⟨eK, ?_⟩
  have e2 : (3 * N ^ 2 * (1 - φ) ^ 2 * G ^ 2 * p / (2 * Real.pi ^ 2 * (1 - nuR K G) ^ 2)) ^ (1 / 3 : ℝ)
      = 3 * hmK K G φ p N := by
    symm
    apply cube_root
    · unfold hmK; positivity
    · unfold hmK
      rw [mul_pow, mul_pow, div_pow, div_pow, mul_pow (4 * hmA K G φ p N), mul_pow 4, hc]
      field_simp
      ring
  unfold Published.hertzMindlinShear
  rw [← nuR_published, e2]
  unfold hmG hmK
  field_simp
  ring

theorem hertzMindlin_rock {m : Mat n} {a : Fin n → Published.Rock} {φ p f N : Fin n → ℝ} (h : m.IsRock a)
    (hφ : ∀ i, φ i < 1) (hp : ∀ i, 0 < p i) (hf : ∀ i, 0 ≤ f i) (hN : ∀ i, 0 < N i) :
    ∃ r, hertzMindlin m (finC φ) (finC p) (finC f) (finC N) = .ok r ∧
      r.IsRock fun i => Published.hertzMindlin (a i) (φ i) (p i) (N i) (f i) := by
  refine ⟨_, hertzMindlin_fin h.pos.has h.pos.bulk h.pos.shear h.pos.density hφ (fun i => (hp i).le) hf hN,
    (hertzMindlin_pos h.pos hφ hp hf hN).isRock (fun i => ?_) (fun i => ?_) (fun i => rfl)⟩
  · exact (hm_published (h.pos.bulk i) (h.pos.shear i) (hφ i) (hp i).le (hN i) (f i)).1
  · exact (hm_published (h.pos.bulk i) (h.pos.shear i) (hφ i) (hp i).le (hN i) (f i)).2

theorem friableSand_rock {m : Mat n} {a : Fin n → Published.Rock} {φ φc p f N : Fin n → ℝ} (h : m.IsRock a)
    (hφ0 : ∀ i, 0 ≤ φ i) (hφ : ∀ i, φ i ≤ φc i) (hc0 : ∀ i, 0 < φc i)
    (hc1 : ∀ i, φc i < 1) (hp : ∀ i, 0 < p i) (hf : ∀ i, 0 ≤ f i) (hN : ∀ i, 0 < N i) :
    ∃ r, friableSand m (finC φ) (finC φc) (finC p) (finC N) (finC f) = .ok r ∧
      r.IsRock fun i => Published.friableSand (a i) (φ i) (φc i) (p i) (N i) (f i) := by
  obtain ⟨r, hr, hrr⟩ := hertzMindlin_rock h hc1 hp hf hN
  obtain ⟨s, hs, hss⟩ := hsw_lower (f := fun i => 1 - φ i / φc i) h hrr
    (fun i => ⟨by have := div_le_one_of_le₀ (hφ i) (hc0 i).le; linarith,
      by have := div_nonneg (hφ0 i) (hc0 i).le; linarith⟩)
  refine ⟨s, ?_, hss⟩
  unfold friableSand
  rw [hr, bind_ok]
  dsimp only
  rw [friable_fraction hc0, hs]

/-- **C97.** For positive minerals, porosities below the critical porosity and positive pressure and
coordination number, `hertz_mindlin` and `friable_sand` never raise and are the published formulas. -/
theorem C97_friable_sand {m : Mat n} {a : Fin n → Published.Rock} {φ φc p f N : Fin n → ℝ} (h : m.IsRock a)
    (hφ0 : ∀ i, 0 ≤ φ i) (hφ : ∀ i, φ i ≤ φc i) (hc0 : ∀ i, 0 < φc i)
    (hc1 : ∀ i, φc i < 1) (hp : ∀ i, 0 < p i) (hf : ∀ i, 0 ≤ f i) (hN : ∀ i, 0 < N i) :
    (∃ r, hertzMindlin m (finC φ) (finC p) (finC f) (finC N) = .ok r ∧
      r.IsRock fun i => Published.hertzMindlin (a i) (φ i) (p i) (N i) (f i)) ∧
    (∃ r, friableSand m (finC φ) (finC φc) (finC p) (finC N) (finC f) = .ok r ∧
      r.IsRock fun i => Published.friableSand (a i) (φ i) (φc i) (p i) (N i) (f i)) :=
  ⟨hertzMindlin_rock h (fun i => (hφ i).trans_lt (hc1 i)) hp hf hN,
    friableSand_rock h hφ0 hφ hc0 hc1 hp hf hN⟩

/-- Quartz. -/
theorem quartz_rock : (Mat.ofReal (n := 2) (fun _ => 36.8) (fun _ => 44) (fun _ => 2650)).IsRock
    fun _ => ⟨36.8, 44, 2650⟩ :=
  ⟨rfl, rfl, rfl, fun _ => by norm_num⟩

example := C96_hashin_shtrikman (f := fun _ => 0.3) quartz_rock quartz_rock (fun _ => by norm_num)

example := C97_friable_sand (φ := fun _ => 0.2) (φc := fun _ => 0.4) (p := fun _ => 20e6)
  (f := fun _ => 0.5) (N := fun _ => 9) quartz_rock (fun _ => by norm_num)
  (fun _ => by norm_num) (fun _ => by norm_num) (fun _ => by norm_num) (fun _ => by norm_num)
  (fun _ => by norm_num) (fun _ => by norm_num)

end OPE
