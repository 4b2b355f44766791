import Verif.Props.Loading
import Verif.Props.Stiffer
import Verif.Props.Published8

/-!
# C177: stiffer ingredients never soften a sand
-/

namespace OPE

open Classical

variable {n : ℕ}

/-! ### The grain pack -/

/-- `G / (1 - ν)`. -/
theorem over_one_sub_poisson {K G : ℝ} (hK : 0 < K) (hG : 0 < G) :
    0 < 1 - Published.poisson K G ∧ 0 < 2 - Published.poisson K G ∧
    G / (1 - Published.poisson K G) = 2 * G * (3 * K + G) / (3 * K + 4 * G) ∧
    (1 - Published.poisson K G) / (2 - Published.poisson K G) = (3 * K + 4 * G) / (3 * (3 * K + 2 * G)) := by
  have e1 : 1 - Published.poisson K G = (3 * K + 4 * G) / (2 * (3 * K + G)) := by
    unfold Published.poisson; field_simp; ring
  have e2 : 2 - Published.poisson K G = 3 * (3 * K + 2 * G) / (2 * (3 * K + G)) := by
    unfold Published.poisson; field_simp; ring
  refine ⟨by rw [e1]; positivity, by rw [e2]; positivity, ?_, ?_⟩
  · rw [e1]; field_simp
  · rw [e1, e2, div_div_div_cancel_right₀ (by positivity)]

/-- Stiffness of a contact under normal load, as a function of the moduli of the grains. -/
theorem normal_mono {K G K' G' : ℝ} (hK : 0 < K) (hG : 0 < G) (hKK : K ≤ K') (hGG : G ≤ G') :
    2 * G * (3 * K + G) / (3 * K + 4 * G) ≤ 2 * G' * (3 * K' + G') / (3 * K' + 4 * G') := by
  have hK' : 0 < K' := by linarith
  have hG' : 0 < G' := by linarith
  have s1 : 2 * G * (3 * K + G) / (3 * K + 4 * G) ≤ 2 * G * (3 * K' + G) / (3 * K' + 4 * G) := by
    rw [div_le_div_iff₀ (by positivity) (by positivity)]
    have : (2 * G * (3 * K' + G)) * (3 * K + 4 * G) - (2 * G * (3 * K + G)) * (3 * K' + 4 * G) = 18 * G ^ 2 * (K' - K) := by
      ring
    have h0 : 0 ≤ 18 * G ^ 2 * (K' - K) := mul_nonneg (by positivity) (by linarith)
    linarith
  refine s1.trans ?_
  rw [div_le_div_iff₀ (by positivity) (by positivity)]
  have : (2 * G' * (3 * K' + G')) * (3 * K' + 4 * G) - (2 * G * (3 * K' + G)) * (3 * K' + 4 * G')
      = 2 * (G' - G) * (9 * K' ^ 2 + 3 * K' * (G + G') + 4 * G * G') := by ring
  have h0 : 0 ≤ 2 * (G' - G) * (9 * K' ^ 2 + 3 * K' * (G + G') + 4 * G * G') :=
    mul_nonneg (by linarith) (by positivity)
  linarith

/-- `G (1 - t)` with `t = G / (3 K + 2 G)`. -/
theorem tangential_mono {K G K' G' : ℝ} (hK : 0 < K) (hG : 0 < G) (hKK : K ≤ K') (hGG : G ≤ G') :
    (G * (3 * K + G)) ^ 2 * (3 * K + 4 * G) / (3 * K + 2 * G) ^ 3
      ≤ (G' * (3 * K' + G')) ^ 2 * (3 * K' + 4 * G') / (3 * K' + 2 * G') ^ 3 := by
  have hK' : 0 < K' := by linarith
  have hG' : 0 < G' := by linarith
  -- in the bulk modulus
  have s1 : (G * (3 * K + G)) ^ 2 * (3 * K + 4 * G) / (3 * K + 2 * G) ^ 3
      ≤ (G * (3 * K' + G)) ^ 2 * (3 * K' + 4 * G) / (3 * K' + 2 * G) ^ 3 := by
    have e : ∀ k : ℝ, 0 < k → (G * (3 * k + G)) ^ 2 * (3 * k + 4 * G) / (3 * k + 2 * G) ^ 3
        = G ^ 2 * (1 - 3 * (G / (3 * k + 2 * G)) ^ 2 + 2 * (G / (3 * k + 2 * G)) ^ 3) := by
      intro k hk; field_simp; ring
    rw [e K hK, e K' hK']
    have h1 : G / (3 * K' + 2 * G) ≤ G / (3 * K + 2 * G) := by gcongr
    have h2 : G / (3 * K + 2 * G) ≤ 1 := by rw [div_le_one (by positivity)]; linarith
    have h3 : 0 ≤ G / (3 * K' + 2 * G) := by positivity
    generalize G / (3 * K' + 2 * G) = t' at *
    generalize G / (3 * K + 2 * G) = t at *
    apply mul_le_mul_of_nonneg_left _ (by positivity)
    have : (1 - 3 * t' ^ 2 + 2 * t' ^ 3) - (1 - 3 * t ^ 2 + 2 * t ^ 3)
        = (t - t') * (3 * (t + t') - 2 * (t ^ 2 + t * t' + t' ^ 2)) := by ring
    have h4 : 0 ≤ 3 * (t + t') - 2 * (t ^ 2 + t * t' + t' ^ 2) := by
      nlinarith [mul_nonneg h3 (sub_nonneg.mpr h2), mul_nonneg (h3.trans h1) (sub_nonneg.mpr h2),
        mul_nonneg h3 (sub_nonneg.mpr (h1.trans h2))]
    nlinarith [mul_nonneg (sub_nonneg.mpr h1) h4]
  refine s1.trans ?_
  -- in the shear modulus
  have e : ∀ g : ℝ, 0 < g → (g * (3 * K' + g)) ^ 2 * (3 * K' + 4 * g) / (3 * K' + 2 * g) ^ 3
      = (g * (3 * K' + g) / (3 * K' + 2 * g)) ^ 2 * ((3 * K' + 4 * g) / (3 * K' + 2 * g)) := by
    intro g hg; field_simp
  rw [e G hG, e G' hG']
  have h1 : G * (3 * K' + G) / (3 * K' + 2 * G) ≤ G' * (3 * K' + G') / (3 * K' + 2 * G') := by
    rw [div_le_div_iff₀ (by positivity) (by positivity)]
    have : (G' * (3 * K' + G')) * (3 * K' + 2 * G) - (G * (3 * K' + G)) * (3 * K' + 2 * G')
        = (G' - G) * (9 * K' ^ 2 + 3 * K' * (G + G') + 2 * G * G') := by ring
    have h0 : 0 ≤ (G' - G) * (9 * K' ^ 2 + 3 * K' * (G + G') + 2 * G * G') :=
      mul_nonneg (by linarith) (by positivity)
    linarith
  have h2 : (3 * K' + 4 * G) / (3 * K' + 2 * G) ≤ (3 * K' + 4 * G') / (3 * K' + 2 * G') := by
    rw [div_le_div_iff₀ (by positivity) (by positivity)]
    nlinarith
  gcongr

/-- The shear modulus of a grain pack, contacts under normal and under tangential load apart. -/
theorem hertzMindlinShear_split {K G φ P C f : ℝ} (hK : 0 < K) (hG : 0 < G) (hφ : φ < 1) (hP : 0 < P) :
    Published.hertzMindlinShear K G φ P C f =
      1 / 5 * (3 * C ^ 2 * (1 - φ) ^ 2 * P / (2 * Real.pi ^ 2) * (2 * G * (3 * K + G) / (3 * K + 4 * G)) ^ 2) ^ (1 / 3 : ℝ)
      + 3 * f / 5 * (3 * C ^ 2 * (1 - φ) ^ 2 * P / (2 * Real.pi ^ 2) *
        (4 / 27 * ((G * (3 * K + G)) ^ 2 * (3 * K + 4 * G) / (3 * K + 2 * G) ^ 3))) ^ (1 / 3 : ℝ) := by
  obtain ⟨h1, h2, h3, h4⟩ := over_one_sub_poisson hK hG
  have hpi := Real.pi_pos
  unfold Published.hertzMindlinShear
  generalize hX : 3 * C ^ 2 * (1 - φ) ^ 2 * P / (2 * Real.pi ^ 2) = X
  have hX0 : 0 ≤ X := by rw [← hX]; positivity
  have e1 : 3 * C ^ 2 * (1 - φ) ^ 2 * G ^ 2 * P / (2 * Real.pi ^ 2 * (1 - Published.poisson K G) ^ 2)
      = X * (2 * G * (3 * K + G) / (3 * K + 4 * G)) ^ 2 := by
    rw [← h3, ← hX]; field_simp
  have e2 : (2 + 3 * f - Published.poisson K G * (1 + 3 * f)) / (5 * (2 - Published.poisson K G))
      = 1 / 5 + 3 * f / 5 * ((1 - Published.poisson K G) / (2 - Published.poisson K G)) := by
    field_simp; ring
  have e3 : X * (4 / 27 * ((G * (3 * K + G)) ^ 2 * (3 * K + 4 * G) / (3 * K + 2 * G) ^ 3))
      = X * (2 * G * (3 * K + G) / (3 * K + 4 * G)) ^ 2 * ((3 * K + 4 * G) / (3 * (3 * K + 2 * G))) ^ 3 := by
    field_simp; ring
  have e4 : (((3 * K + 4 * G) / (3 * (3 * K + 2 * G))) ^ 3) ^ (1 / 3 : ℝ) = (3 * K + 4 * G) / (3 * (3 * K + 2 * G)) := by
    rw [one_div, show ((3 : ℝ))⁻¹ = ((3 : ℕ) : ℝ)⁻¹ by norm_num, Real.pow_rpow_inv_natCast (by positivity) (by norm_num)]
  have e5 : (X * (2 * G * (3 * K + G) / (3 * K + 4 * G)) ^ 2 * ((3 * K + 4 * G) / (3 * (3 * K + 2 * G))) ^ 3) ^ (1 / 3 : ℝ)
      = (X * (2 * G * (3 * K + G) / (3 * K + 4 * G)) ^ 2) ^ (1 / 3 : ℝ) * ((3 * K + 4 * G) / (3 * (3 * K + 2 * G))) := by
    rw [Real.mul_rpow (by positivity) (by positivity), e4]
  rw [e1, e2, e3, h4, e5]
  ring

/-- A grain pack of stiffer grains, with more contacts, less slip or under more pressure is no softer. -/
theorem pack_stiffer {a a' : Published.Rock} (ha : 0 < a.K ∧ 0 < a.G) (hK : a.K ≤ a'.K) (hG : a.G ≤ a'.G)
    {φc p q C C' f f' : ℝ} (hc1 : φc < 1) (hp : 0 < p) (hpq : p ≤ q) (hC : 0 < C) (hCC : C ≤ C') (hf : 0 ≤ f)
    (hff : f ≤ f') :
    (Published.hertzMindlin a φc p C f).K ≤ (Published.hertzMindlin a' φc q C' f').K ∧
    (Published.hertzMindlin a φc p C f).G ≤ (Published.hertzMindlin a' φc q C' f').G := by
  have ha' : 0 < a'.K ∧ 0 < a'.G := ⟨by linarith [ha.1], by linarith [ha.2]⟩
  have hq : 0 < q := by linarith
  have h1 : 0 < 1 - φc := by linarith
  have hpi := Real.pi_pos
  have hn := normal_mono ha.1 ha.2 hK hG
  have ht := tangential_mono ha.1 ha.2 hK hG
  have hn0 : 0 ≤ 2 * a.G * (3 * a.K + a.G) / (3 * a.K + 4 * a.G) := by
    have := ha.1; have := ha.2; positivity
  have ht0 : 0 ≤ (a.G * (3 * a.K + a.G)) ^ 2 * (3 * a.K + 4 * a.G) / (3 * a.K + 2 * a.G) ^ 3 := by
    have := ha.1; have := ha.2; positivity
  constructor
  · show Published.hertzMindlinBulk _ _ _ _ _ ≤ Published.hertzMindlinBulk _ _ _ _ _
    unfold Published.hertzMindlinBulk
    obtain ⟨u1, -, u3, -⟩ := over_one_sub_poisson ha.1 ha.2
    obtain ⟨v1, -, v3, -⟩ := over_one_sub_poisson ha'.1 ha'.2
    have e : ∀ (c G P v : ℝ), c ^ 2 * (1 - φc) ^ 2 * G ^ 2 * P / (18 * Real.pi ^ 2 * v ^ 2)
        = c ^ 2 * (1 - φc) ^ 2 * P / (18 * Real.pi ^ 2) * (G / v) ^ 2 := by
      intro c G P v; rw [div_pow, div_mul_div_comm]; ring
    rw [e, e, u3, v3]
    apply Real.rpow_le_rpow (by positivity) _ (by norm_num)
    gcongr
  · show Published.hertzMindlinShear _ _ _ _ _ _ ≤ Published.hertzMindlinShear _ _ _ _ _ _
    rw [hertzMindlinShear_split ha.1 ha.2 hc1 hp, hertzMindlinShear_split ha'.1 ha'.2 hc1 hq]
    have d0 : 0 ≤ 3 * C ^ 2 * (1 - φc) ^ 2 * p / (2 * Real.pi ^ 2) := by positivity
    have dd : 3 * C ^ 2 * (1 - φc) ^ 2 * p / (2 * Real.pi ^ 2) ≤ 3 * C' ^ 2 * (1 - φc) ^ 2 * q / (2 * Real.pi ^ 2) := by
      gcongr
    refine add_le_add (mul_le_mul_of_nonneg_left (Real.rpow_le_rpow (mul_nonneg d0 (sq_nonneg _)) ?_ (by norm_num))
      (by norm_num)) (mul_le_mul (by linarith) (Real.rpow_le_rpow (mul_nonneg d0 (by linarith)) ?_ (by norm_num))
      (Real.rpow_nonneg (mul_nonneg d0 (by linarith)) _) (by linarith))
    · exact mul_le_mul dd (pow_le_pow_left₀ hn0 hn 2) (sq_nonneg _) (d0.trans dd)
    · exact mul_le_mul dd (by linarith) (by linarith) (d0.trans dd)

/-! ### Mixtures -/

/-- `b` is at least as stiff as `a`. -/
def Published.Rock.Below (a b : Published.Rock) : Prop := a.K ≤ b.K ∧ a.G ≤ b.G

theorem lowerBound_joint {a b a' b' : Published.Rock} (ha : 0 < a.K ∧ 0 < a.G) (hb : 0 < b.K ∧ 0 < b.G)
    (h : a.Below a') (h' : b.Below b') {f : ℝ} (h0 : 0 ≤ f) (h1 : f ≤ 1) :
    (Published.lowerBound a b f).Below (Published.lowerBound a' b' f) := by
  obtain ⟨k1, g1⟩ := h
  obtain ⟨k2, g2⟩ := h'
  have pG := lt_min ha.2 hb.2
  have pK := lt_min ha.1 hb.1
  have gg := min_le_min g1 g2
  have kk := min_le_min k1 k2
  have z : ∀ k g : ℝ, Published.zeta k g = zShear k g := fun k g => by
    unfold Published.zeta zShear; rw [mul_div_assoc]
  have zp := zShear_nonneg pK.le pG.le
  have zm := zShear_mono pK pG.le kk gg
  have a1 := ha.1; have a2 := ha.2; have b1 := hb.1; have b2 := hb.2
  unfold Published.lowerBound Published.Rock.Below
  dsimp only
  rw [z, z]
  constructor
  · rw [← hsReal_published (by linarith) (by linarith) h0 h1, ← hsReal_published (by linarith) (by linarith) h0 h1]
    exact hsReal_mono a1 b1 (by positivity) h0 h1 k1 k2 (by linarith)
  · rw [← hsReal_published (by linarith) (by linarith) h0 h1, ← hsReal_published (by linarith) (by linarith) h0 h1]
    exact hsReal_mono a2 b2 zp h0 h1 g1 g2 zm

/-- A friable sand of stiffer ingredients is no softer. -/
theorem friable_stiffer {a a' : Published.Rock} (ha : 0 < a.K ∧ 0 < a.G ∧ 0 < a.ρ) (h : a.Below a')
    {φ φc p q C C' f f' : ℝ} (hφ0 : 0 ≤ φ) (hφ : φ ≤ φc) (hc0 : 0 < φc) (hc1 : φc < 1) (hp : 0 < p) (hpq : p ≤ q)
    (hC : 0 < C) (hCC : C ≤ C') (hf : 0 ≤ f) (hff : f ≤ f') :
    (Published.friableSand a φ φc p C f).Below (Published.friableSand a' φ φc q C' f') := by
  obtain ⟨m, -, hm⟩ := hertzMindlin_rock (φ := fun _ => φc) (p := fun _ => p) (f := fun _ => f) (N := fun _ => C)
    (rock_of_pos a ha) (fun _ => hc1) (fun _ => hp) (fun _ => hf) (fun _ => hC)
  exact lowerBound_joint ⟨ha.1, ha.2.1⟩ ⟨(hm.2.2.2 0).1, (hm.2.2.2 0).2.1⟩ h
    (pack_stiffer ⟨ha.1, ha.2.1⟩ h.1 h.2 hc1 hp hpq hC hCC hf hff)
    (by rw [sub_nonneg, div_le_one hc0]; exact hφ) (by linarith [div_nonneg hφ0 hc0.le])

/-- Gassmann's saturated modulus does not fall if the solid gets stiffer. -/
theorem gassmann_solid {Kd Km Km' Kf φ : ℝ} (hφ : 0 < φ) (hφ1 : φ ≤ 1) (hd0 : 0 ≤ Kd) (hdm : Kd < Km) (hf0 : 0 < Kf)
    (hfm : Kf < Km) (hm : Km ≤ Km') : Published.gassmann Kd Km Kf φ ≤ Published.gassmann Kd Km' Kf φ := by
  have m0 : 0 < Km := by linarith
  have m0' : 0 < Km' := by linarith
  have c1 : ∀ M : ℝ, Published.gassmann Kd M Kf φ
      = Kd + (1 - Kd * M⁻¹) ^ 2 / (φ * (Kf⁻¹ - M⁻¹) + M⁻¹ * (1 - Kd * M⁻¹)) := by
    intro M
    unfold Published.gassmann
    simp only [div_eq_mul_inv, inv_pow]
    congr 3
    ring
  rw [c1, c1]
  have hyx : Km'⁻¹ ≤ Km⁻¹ := inv_anti₀ m0 hm
  have hy : 0 < Km'⁻¹ := inv_pos.mpr m0'
  have hx : Km⁻¹ < Kf⁻¹ := inv_strictAnti₀ hf0 hfm
  have hux : Kd * Km⁻¹ < 1 := by rw [← div_eq_mul_inv, div_lt_one m0]; exact hdm
  generalize Km'⁻¹ = y at *
  generalize Km⁻¹ = x at *
  generalize Kf⁻¹ = w at *
  have hx0 : 0 < x := lt_of_lt_of_le hy hyx
  have huy : Kd * y < 1 := lt_of_le_of_lt (mul_le_mul_of_nonneg_left hyx hd0) hux
  have d1 : 0 < φ * (w - x) := mul_pos hφ (by linarith)
  have d2 : 0 < φ * (w - y) := mul_pos hφ (by linarith)
  have d3 : 0 < x * (1 - Kd * x) := mul_pos hx0 (by linarith)
  have d4 : 0 < y * (1 - Kd * y) := mul_pos hy (by linarith)
  gcongr Kd + ?_
  rw [div_le_div_iff₀ (by linarith) (by linarith)]
  have key : (1 - Kd * y) ^ 2 * (φ * (w - x) + x * (1 - Kd * x)) - (1 - Kd * x) ^ 2 * (φ * (w - y) + y * (1 - Kd * y))
      = (x - y) * ((1 - Kd * x) * (Kd * (x - y) + (1 - Kd * x) * (1 - φ))
        + Kd * ((1 - Kd * x) + (1 - Kd * y)) * (φ * (w - x))) := by ring
  have : 0 ≤ (x - y) * ((1 - Kd * x) * (Kd * (x - y) + (1 - Kd * x) * (1 - φ))
        + Kd * ((1 - Kd * x) + (1 - Kd * y)) * (φ * (w - x))) := by
    have q1 : 0 ≤ x - y := by linarith
    have q2 : 0 ≤ 1 - Kd * x := by linarith
    have q3 : 0 ≤ 1 - Kd * y := by linarith
    have q4 : 0 ≤ 1 - φ := by linarith
    positivity
  linarith

/-- Gassmann's saturated modulus does not fall if frame, fluid or solid get stiffer. -/
theorem gassmann_stiffer {Kd Kd' Km Km' Kf Kf' φ : ℝ} (hφ : 0 < φ) (hφ1 : φ ≤ 1) (hd0 : 0 ≤ Kd) (hd : Kd ≤ Kd')
    (hdm : Kd < Km) (hd1 : Kd' < Km') (hf0 : 0 < Kf) (hf : Kf ≤ Kf') (hfm : Kf < Km) (hf1 : Kf' < Km') (hm : Km ≤ Km') :
    Published.gassmann Kd Km Kf φ ≤ Published.gassmann Kd' Km' Kf' φ :=
  (gassmann_solid hφ hφ1 hd0 hdm hf0 hfm hm).trans (gassmann_mono hφ hd0 hd hd1 hf0 hf hf1)

/-- Minerals one after the other. -/
theorem addMinerals_joint {a a' : Published.Rock} {t : ℝ} (ht : 0 ≤ t) {L L' : List (Published.Rock × ℝ)}
    (ha : 0 < a.K ∧ 0 < a.G ∧ 0 < a.ρ) (hL : ∀ y ∈ L, (0 < y.1.K ∧ 0 < y.1.G ∧ 0 < y.1.ρ) ∧ 0 ≤ y.2) (h : a.Below a')
    (h' : List.Forall₂ (fun y y' => y.1.Below y'.1 ∧ y.2 = y'.2) L L') :
    (Published.addMinerals a t L).Below (Published.addMinerals a' t L') := by
  induction h' generalizing a a' t with
  | nil => exact h
  | @cons y y' L L' hy _ ih =>
    obtain ⟨b, f⟩ := y
    obtain ⟨b', f'⟩ := y'
    obtain ⟨hb, rfl⟩ := hy
    obtain ⟨pb, hf⟩ := hL _ List.mem_cons_self
    dsimp only at hb pb hf
    have hr : 0 ≤ (if t + f = 0 then 1 else t / (t + f)) ∧ (if t + f = 0 then 1 else t / (t + f)) ≤ 1 := by
      split
      · norm_num
      · rename_i h0
        have : 0 < t + f := lt_of_le_of_ne (by linarith) (Ne.symm h0)
        exact ⟨by positivity, by rw [div_le_one this]; linarith⟩
    obtain ⟨m, -, hm⟩ := hsw_lower (f := fun _ => if t + f = 0 then 1 else t / (t + f)) (rock_of_pos a ha)
      (rock_of_pos b pb) (fun _ => hr)
    exact ih (by linarith) (hm.2.2.2 0) (fun z hz => hL z (List.mem_cons_of_mem _ hz))
      (lowerBound_joint ⟨ha.1, ha.2.1⟩ ⟨pb.1, pb.2.1⟩ h hb hr.1 hr.2)

/-! ### Fluids -/

/-- The same amount of a fluid at least as stiff. -/
def FluidStiffer (x y : Published.Fluid × ℝ) : Prop := 0 < x.1.K ∧ x.1.K ≤ y.1.K ∧ 0 ≤ x.2 ∧ x.2 = y.2

theorem fluidStiffer_total {L L' : List (Published.Fluid × ℝ)} (h : List.Forall₂ FluidStiffer L L') :
    (L.map fun x => x.2).sum = (L'.map fun x => x.2).sum := by
  induction h with
  | nil => rfl
  | cons hx _ ih => rw [List.map_cons, List.map_cons, List.sum_cons, List.sum_cons, ih, hx.2.2.2]

theorem wood_stiffer {L L' : List (Published.Fluid × ℝ)} (h : List.Forall₂ FluidStiffer L L')
    (hS : 0 < (L.map fun x => x.2).sum) : (Published.wood L).K ≤ (Published.wood L').K := by
  unfold Published.wood
  dsimp only
  rw [← fluidStiffer_total h]
  generalize (L.map fun x => x.2).sum = S at hS
  have key : 0 ≤ (L'.map fun x => x.2 / S / x.1.K).sum ∧
      (L'.map fun x => x.2 / S / x.1.K).sum ≤ (L.map fun x => x.2 / S / x.1.K).sum ∧
      ((L'.map fun x => x.2 / S / x.1.K).sum = 0 → (L.map fun x => x.2 / S / x.1.K).sum = 0) := by
    induction h with
    | nil => simp
    | @cons x y L L' hx _ ih =>
      obtain ⟨k1, k2, k3, k4⟩ := hx
      obtain ⟨i1, i2, i3⟩ := ih
      simp only [List.map_cons, List.sum_cons]
      rw [← k4]
      have k5 : 0 < y.1.K := by linarith
      have p1 : 0 ≤ x.2 / S / y.1.K := by positivity
      have p2 : x.2 / S / y.1.K ≤ x.2 / S / x.1.K := by gcongr
      refine ⟨by linarith, by linarith, fun e => ?_⟩
      have e1 : x.2 / S / y.1.K = 0 := by linarith
      have e2 : x.2 / S = 0 := by
        rcases div_eq_zero_iff.mp e1 with h | h
        · exact h
        · exact absurd h k5.ne'
      rw [e2, zero_div, zero_add]
      exact i3 (by linarith)
  obtain ⟨i1, i2, i3⟩ := key
  rcases i1.eq_or_lt with h0 | h0
  · rw [← h0, i3 h0.symm]
  · exact inv_anti₀ h0 i2

theorem brie_stiffer {L L' G G' : List (Published.Fluid × ℝ)} (h : List.Forall₂ FluidStiffer L L')
    (h' : List.Forall₂ FluidStiffer G G') {e : ℝ} (he : 0 < e) (h0 : 0 ≤ (L.map fun x => x.2).sum)
    (h1 : (L.map fun x => x.2).sum ≤ 1) (hG : 0 < (G.map fun x => x.2).sum ∨ (L.map fun x => x.2).sum = 1) :
    (Published.brie L G e).K ≤ (Published.brie L' G' e).K := by
  unfold Published.brie
  dsimp only
  rw [← fluidStiffer_total h]
  have hp0 : 0 ≤ (L.map fun x => x.2).sum ^ e := Real.rpow_nonneg h0 e
  have hp1 : (L.map fun x => x.2).sum ^ e ≤ 1 := Real.rpow_le_one h0 h1 he.le
  have a1 : (Published.wood L).K * (L.map fun x => x.2).sum ^ e ≤ (Published.wood L').K * (L.map fun x => x.2).sum ^ e := by
    rcases h0.eq_or_lt with hz | hz
    · rw [← hz, Real.zero_rpow he.ne', mul_zero, mul_zero]
    · exact mul_le_mul_of_nonneg_right (wood_stiffer h hz) hp0
  have a2 : (Published.wood G).K * (1 - (L.map fun x => x.2).sum ^ e)
      ≤ (Published.wood G').K * (1 - (L.map fun x => x.2).sum ^ e) := by
    rcases hG with hz | hz
    · exact mul_le_mul_of_nonneg_right (wood_stiffer h' hz) (by linarith)
    · rw [hz, Real.one_rpow, sub_self, mul_zero, mul_zero]
  linarith

/-- The same amounts of fluids, each at least as stiff in every row. -/
def FluidList.Stiffer (L L' : FluidList n) : Prop :=
  List.Forall₂ (fun x y => (∀ i, (x.2.1 i).K ≤ (y.2.1 i).K) ∧ x.2.2 = y.2.2) L L'

theorem FluidList.Stiffer.at {L L' : FluidList n} (h : L.Stiffer L') (h1 : ∀ x ∈ L, x.1.IsFluid x.2.1)
    (h2 : ∀ x ∈ L, ∀ i, 0 ≤ x.2.2 i) (i : Fin n) : List.Forall₂ FluidStiffer (L.at i) (L'.at i) := by
  induction h with
  | nil => exact .nil
  | cons hx _ ih =>
    exact .cons ⟨((h1 _ List.mem_cons_self).2.2.2 i).1, hx.1 i, h2 _ List.mem_cons_self i, congrFun hx.2 i⟩
      (ih (fun z hz => h1 z (List.mem_cons_of_mem _ hz)) fun z hz => h2 z (List.mem_cons_of_mem _ hz))

/-! ### C177 -/

/-- **C177, Brie's mixing.** If some of the fluids (liquids or gases) get stiffer and all saturations stay the same, the
mixture does not get softer. -/
theorem C177_brie_mix {L L' G G' : FluidList n} (h : TwoPhase L G) (h' : TwoPhase L' G') (hL : L.Stiffer L')
    (hG : G.Stiffer G') {e : Fin n → ℝ} (he : ∀ i, 0 < e i) :
    ∃ m m', brie (L.map fun x => x.1) (L.map fun x => finC x.2.2) (G.map fun x => x.1) (G.map fun x => finC x.2.2) (finC e)
        = .ok m ∧
      brie (L'.map fun x => x.1) (L'.map fun x => finC x.2.2) (G'.map fun x => x.1) (G'.map fun x => finC x.2.2) (finC e)
        = .ok m' ∧ ∀ i, m.bulk i ≤ m'.bulk i := by
  obtain ⟨m, e1, f1⟩ := brie_rows h e he
  obtain ⟨m', e2, f2⟩ := brie_rows h' e he
  refine ⟨m, m', e1, e2, fun i => ?_⟩
  rw [f1.1, f2.1]
  have hl := hL.at (fun x hx => h.fluid x (List.mem_append_left _ hx)) (fun x hx => h.nonneg x (List.mem_append_left _ hx)) i
  have hg := hG.at (fun x hx => h.fluid x (List.mem_append_right _ hx)) (fun x hx => h.nonneg x (List.mem_append_right _ hx)) i
  have sum_at : ∀ M : FluidList n, ((M.at i).map fun x => x.2).sum = (M.map fun x => x.2.2 i).sum := by
    intro M; simp only [FluidList.at, List.map_map, Function.comp_def]
  refine Num.fin_le.mpr (brie_stiffer hl hg (he i) ?_ ?_ ?_)
  · rw [sum_at]
    apply List.sum_nonneg
    intro y hy
    obtain ⟨x, hx, rfl⟩ := List.mem_map.mp hy
    exact h.nonneg x (List.mem_append_left _ hx) i
  · rw [sum_at]; exact h.total i
  · rw [sum_at, sum_at]
    rcases h.gas i with hh | hh
    · exact .inl (lt_of_lt_of_le (by norm_num) hh)
    · exact .inr hh

/-- **C177, grain pack and friable sand.** If the mineral gets stiffer (in bulk or shear), the grains get more contacts or
slip less, or the pressure rises, neither the grain pack of `hertz_mindlin` nor the sand of `friable_sand` gets softer, in
bulk or in shear. -/
theorem C177_sand {m m' : Mat n} {a a' : Fin n → Published.Rock} (hm : m.IsRock a) (hm' : m'.IsRock a')
    (h : ∀ i, (a i).K ≤ (a' i).K ∧ (a i).G ≤ (a' i).G) {φ φc p p' N N' f f' : Fin n → ℝ}
    (hφ0 : ∀ i, 0 ≤ φ i) (hφ : ∀ i, φ i ≤ φc i) (hc0 : ∀ i, 0 < φc i) (hc1 : ∀ i, φc i < 1)
    (hp : ∀ i, 0 < p i) (hpp : ∀ i, p i ≤ p' i) (hN : ∀ i, 0 < N i) (hNN : ∀ i, N i ≤ N' i)
    (hf : ∀ i, 0 ≤ f i) (hff : ∀ i, f i ≤ f' i) :
    (∃ r r', hertzMindlin m (finC φc) (finC p) (finC f) (finC N) = .ok r ∧
      hertzMindlin m' (finC φc) (finC p') (finC f') (finC N') = .ok r' ∧
      ∀ i, r.bulk i ≤ r'.bulk i ∧ r.shear i ≤ r'.shear i) ∧
    (∃ r r', friableSand m (finC φ) (finC φc) (finC p) (finC N) (finC f) = .ok r ∧
      friableSand m' (finC φ) (finC φc) (finC p') (finC N') (finC f') = .ok r' ∧
      ∀ i, r.bulk i ≤ r'.bulk i ∧ r.shear i ≤ r'.shear i) := by
  have hp' : ∀ i, 0 < p' i := fun i => (hp i).trans_le (hpp i)
  have hN' : ∀ i, 0 < N' i := fun i => (hN i).trans_le (hNN i)
  have hf' : ∀ i, 0 ≤ f' i := fun i => (hf i).trans (hff i)
  constructor
  · obtain ⟨r, e1, f1⟩ := hertzMindlin_rock hm hc1 hp hf hN
    obtain ⟨r', e2, f2⟩ := hertzMindlin_rock hm' hc1 hp' hf' hN'
    refine ⟨r, r', e1, e2, fun i => ?_⟩
    rw [f1.1, f2.1, f1.2.1, f2.2.1]
    have := pack_stiffer ⟨(hm.2.2.2 i).1, (hm.2.2.2 i).2.1⟩ (h i).1 (h i).2 (hc1 i) (hp i) (hpp i) (hN i) (hNN i) (hf i)
      (hff i)
    exact ⟨Num.fin_le.mpr this.1, Num.fin_le.mpr this.2⟩
  · obtain ⟨r, e1, f1⟩ := friableSand_rock hm hφ0 hφ hc0 hc1 hp hf hN
    obtain ⟨r', e2, f2⟩ := friableSand_rock hm' hφ0 hφ hc0 hc1 hp' hf' hN'
    refine ⟨r, r', e1, e2, fun i => ?_⟩
    rw [f1.1, f2.1, f1.2.1, f2.2.1]
    have := friable_stiffer (hm.2.2.2 i) (h i) (hφ0 i) (hφ i) (hc0 i) (hc1 i) (hp i) (hpp i) (hN i) (hNN i) (hf i) (hff i)
    exact ⟨Num.fin_le.mpr this.1, Num.fin_le.mpr this.2⟩

/-- **C177, the whole calculation.** Two runs with the same porosity, critical porosity and mineral fractions and
friable-sand dry rocks without adjustments, the second with no softer minerals, no fewer contacts, no more slip, no smaller
effective pressure and no softer pore fluid in any row: the second has no smaller modulus of the minerals, dry bulk modulus,
shear modulus and saturated bulk modulus. -/
theorem C177_calculation (co2 : CO2Model n) {s s' : Sections n}
    {x x' : Mat n × (Fin n → Published.Rock) × (Fin n → ℝ)} {L L' : RockList n} {ob rf rk P ob' rf' rk' P' : Fin n → ℝ}
    {mx mx' : Option (Fin n → ℝ)} (hs : s.Says x L ob rf rk P mx) (hs' : s'.Says x' L' ob' rf' rk' P' mx')
    (hx : x.1.Coherent) (hx' : x'.1.Coherent)
    (hmin : List.Forall₂ (fun y y' => (∀ i, (y.2.1 i).K ≤ (y'.2.1 i).K ∧ (y.2.1 i).G ≤ (y'.2.1 i).G) ∧ y.2.2 = y'.2.2)
      (x :: L) (x' :: L'))
    {T Q T' Q' : Fin n → ℝ} {pores pores' : List (Pore n)} (hp : s.Filled co2 T P pores Q)
    (hp' : s'.Filled co2 T' P' pores' Q') {F F' : Fin n → Published.Fluid} (hF : s.Mixes pores F) (hF' : s'.Mixes pores' F')
    (hFF : ∀ i, (F i).K ≤ (F' i).K)
    {φ φc f f' : Fin n → ℝ} {N N' : Option (Fin n → ℝ)} (hφ : s.porosity = finC φ) (hφ' : s'.porosity = finC φ)
    (hmodel : s.sandModel = .friable (mkFriableModel (finC φc) (finC f) (N.map finC)))
    (hmodel' : s'.sandModel = .friable (mkFriableModel (finC φc) (finC f') (N'.map finC)))
    (hadj : s.adjustments = []) (hadj' : s'.adjustments = [])
    (hφ0 : ∀ i, 0 < φ i) (hφ1 : ∀ i, φ i ≤ φc i - 1e-5) (hc1 : ∀ i, φc i < 1)
    (hpe : ∀ i, 0 < effectiveAt mx ob rk i) (hle : ∀ i, effectiveAt mx ob rk i ≤ effectiveAt mx' ob' rk' i)
    (hf : ∀ i, 0 ≤ f i) (hff : ∀ i, f i ≤ f' i) (hN : ∀ i, 0 < coordination N φc i)
    (hNN : ∀ i, coordination N φc i ≤ coordination N' φc i)
    (hrow : ∀ i, (Published.hertzMindlin (mineralAt x L i) (φc i) (effectiveAt mx ob rk i) (coordination N φc i) (f i)).K
      < (mineralAt x L i).K ∧ (F i).K < (mineralAt x L i).K)
    (hrow' : ∀ i, (Published.hertzMindlin (mineralAt x' L' i) (φc i) (effectiveAt mx' ob' rk' i) (coordination N' φc i)
      (f' i)).K < (mineralAt x' L' i).K ∧ (F' i).K < (mineralAt x' L' i).K) :
    ∃ r r', calculate co2 s = .ok r ∧ calculate co2 s' = .ok r' ∧
      ∀ i, r.kmin i ≤ r'.kmin i ∧ r.kdry i ≤ r'.kdry i ∧ r.mysat i ≤ r'.mysat i ∧ r.ksat i ≤ r'.ksat i := by
  have hmp := mineralAt_pos hs
  have hmp' := mineralAt_pos hs'
  have hpe' : ∀ i, 0 < effectiveAt mx' ob' rk' i := fun i => (hpe i).trans_le (hle i)
  have hN' : ∀ i, 0 < coordination N' φc i := fun i => (hN i).trans_le (hNN i)
  have hf' : ∀ i, 0 ≤ f' i := fun i => (hf i).trans (hff i)
  have hφc : ∀ i, φ i ≤ φc i := fun i => (hφ1 i).trans (by norm_num)
  have hc0 : ∀ i, 0 < φc i := fun i => (hφ0 i).trans_le (hφc i)
  have hF0 : ∀ i, 0 < (F i).K := fun i => by
    obtain ⟨fl, m, -, -, hm⟩ := fluids_filled hp hF
    exact (hm.2.2.2 i).1
  have valid : ∀ {a : Published.Rock} (i : Fin n), (0 < a.K ∧ 0 < a.G ∧ 0 < a.ρ) → ∀ {q C g : ℝ}, 0 < q → 0 < C → 0 ≤ g →
      (Published.friableSand a (φ i) (φc i) q C g).Valid := by
    intro a i ha q C g hq hC hg
    obtain ⟨r, -, e1⟩ := friableSand_rock (φ := fun _ => φ i) (φc := fun _ => φc i) (p := fun _ => q) (f := fun _ => g)
      (N := fun _ => C) (rock_of_pos a ha) (fun _ => (hφ0 i).le) (fun _ => hφc i) (fun _ => hc0 i) (fun _ => hc1 i)
      (fun _ => hq) (fun _ => hg) (fun _ => hC)
    exact e1.2.2.2 0
  have stiff : ∀ i, (mineralAt x L i).Below (mineralAt x' L' i) := by
    intro i
    cases hmin with
    | cons h1 h2 =>
      unfold mineralAt
      rw [← congrFun h1.2 i]
      refine addMinerals_joint ((hs.rocks x List.mem_cons_self).2 i) ((hs.rocks x List.mem_cons_self).1.2.2.2 i) ?_ (h1.1 i) ?_
      · intro y hy
        obtain ⟨z, hz, rfl⟩ := List.mem_map.mp hy
        exact ⟨(hs.rocks z (List.mem_cons_of_mem _ hz)).1.2.2.2 i, (hs.rocks z (List.mem_cons_of_mem _ hz)).2 i⟩
      · rw [List.forall₂_map_left_iff, List.forall₂_map_right_iff]
        exact h2.imp fun y y' h => ⟨h.1 i, congrFun h.2 i⟩
  have key := fun i => friable_stiffer (hmp i) (stiff i) (hφ0 i).le (hφc i) (hc0 i) (hc1 i) (hpe i) (hle i) (hN i) (hNN i)
    (hf i) (hff i)
  have soft := fun i => friable_softer (hmp i) (hφ0 i) (hφc i) (hc1 i) (hpe i) (hf i) (hN i) (hrow i).1
  have soft' := fun i => friable_softer (hmp' i) (hφ0 i) (hφc i) (hc1 i) (hpe' i) (hf' i) (hN' i) (hrow' i).1
  have h1 := calculate_adjusted hs hx hp hF hφ
    (hmodel ▸ .friable φc f N (fun i => (hφ0 i).le) hφ1 hc1 hpe hf hN)
    (fun i => valid i (hmp i) (hpe i) (hN i) (hf i)) (hadj ▸ .nil _) (fun i => ⟨hφ0 i, soft i, (hrow i).2⟩)
  have h2 := calculate_adjusted hs' hx' hp' hF' hφ'
    (hmodel' ▸ .friable φc f' N' (fun i => (hφ0 i).le) hφ1 hc1 hpe' hf' hN')
    (fun i => valid i (hmp' i) (hpe' i) (hN' i) (hf' i)) (hadj' ▸ .nil _) (fun i => ⟨hφ0 i, soft' i, (hrow' i).2⟩)
  refine ⟨_, _, h1, h2, fun i => ⟨Num.fin_le.mpr (stiff i).1, Num.fin_le.mpr (key i).1, Num.fin_le.mpr (key i).2,
    Num.fin_le.mpr ?_⟩⟩
  exact gassmann_stiffer (hφ0 i) (by linarith [hφc i, hc1 i]) (valid i (hmp i) (hpe i) (hN i) (hf i)).1.le (key i).1
    (soft i) (soft' i) (hF0 i) (hFF i) (hrow i).2 (hrow' i).2 (stiff i).1

/-- Brine of 2.5 GPa with 10 % gas of 0.05 GPa, and brine of 2.8 GPa with as much gas of 0.06 GPa. -/
example : ∃ m m' : Mat 2,
    brie [Mat.ofReal (fun _ => 2.5e9) (fun _ => 0) (fun _ => 1030)] [finC fun _ => 0.9]
      [Mat.ofReal (fun _ => 5e7) (fun _ => 0) (fun _ => 200)] [finC fun _ => 0.1] (finC fun _ => 3) = .ok m ∧
    brie [Mat.ofReal (fun _ => 2.8e9) (fun _ => 0) (fun _ => 1030)] [finC fun _ => 0.9]
      [Mat.ofReal (fun _ => 6e7) (fun _ => 0) (fun _ => 200)] [finC fun _ => 0.1] (finC fun _ => 3) = .ok m' ∧
    ∀ i, m.bulk i ≤ m'.bulk i := by
  have two : ∀ {a b : ℝ}, 0 < a → 0 < b → TwoPhase (n := 2)
      [(Mat.ofReal (fun _ => a) (fun _ => 0) (fun _ => 1030), (fun _ => ⟨a, 1030⟩), fun _ => 0.9)]
      [(Mat.ofReal (fun _ => b) (fun _ => 0) (fun _ => 200), (fun _ => ⟨b, 200⟩), fun _ => 0.1)] := by
    intro a b ha hb
    refine ⟨by simp, by simp, ?_, ?_, fun i => by norm_num, fun i => .inl (by norm_num), fun i => .inl (by norm_num)⟩
    · intro y hy
      rcases List.mem_cons.mp hy with rfl | hy
      · exact ⟨rfl, rfl, rfl, fun _ => ⟨ha, by norm_num⟩⟩
      · rw [List.mem_singleton.mp hy]
        exact ⟨rfl, rfl, rfl, fun _ => ⟨hb, by norm_num⟩⟩
    · intro y hy i
      rcases List.mem_cons.mp hy with rfl | hy
      · norm_num
      · rw [List.mem_singleton.mp hy]
        norm_num
  exact C177_brie_mix (two (a := 2.5e9) (b := 5e7) (by norm_num) (by norm_num))
    (two (a := 2.8e9) (b := 6e7) (by norm_num) (by norm_num))
    (.cons ⟨fun _ => by norm_num, rfl⟩ .nil) (.cons ⟨fun _ => by norm_num, rfl⟩ .nil) (e := fun _ => 3) (fun _ => by norm_num)

/-- Calcite-like grains instead of clay-like ones, 9 contacts instead of 8.5, 25 MPa instead of 20 MPa. -/
example : ∃ r r' : Mat 2,
    friableSand (Mat.ofReal (fun _ => 21e9) (fun _ => 7e9) (fun _ => 2600)) (finC ![0.2, 0.3]) (finC fun _ => 0.4)
      (finC fun _ => 20e6) (finC fun _ => 8.5) (finC fun _ => 0.4) = .ok r ∧
    friableSand (Mat.ofReal (fun _ => 76e9) (fun _ => 32e9) (fun _ => 2710)) (finC ![0.2, 0.3]) (finC fun _ => 0.4)
      (finC fun _ => 25e6) (finC fun _ => 9) (finC fun _ => 0.5) = .ok r' ∧
    ∀ i, r.bulk i ≤ r'.bulk i ∧ r.shear i ≤ r'.shear i :=
  (C177_sand (a := fun _ => ⟨21e9, 7e9, 2600⟩) (a' := fun _ => ⟨76e9, 32e9, 2710⟩)
    ⟨rfl, rfl, rfl, fun _ => by norm_num⟩ ⟨rfl, rfl, rfl, fun _ => by norm_num⟩ (fun _ => by norm_num)
    (fun i => by fin_cases i <;> norm_num) (fun i => by fin_cases i <;> norm_num) (fun _ => by norm_num)
    (fun _ => by norm_num) (fun _ => by norm_num) (fun _ => by norm_num) (fun _ => by norm_num) (fun _ => by norm_num)
    (fun _ => by norm_num) (fun _ => by norm_num)).2

/-- A sand of one mineral of the given moduli with one fluid of the given bulk modulus. -/
noncomputable def exStiffRun (K G Kf : ℝ) : Sections 2 :=
  { exPatchyRun with
    minerals := [⟨Mat.ofReal (fun _ => K) (fun _ => G) (fun _ => 2650), some (finC fun _ => 1)⟩]
    fluids := [⟨.material (Mat.ofReal (fun _ => Kf) (fun _ => 0) (fun _ => 1030)), none, some (finC fun _ => 1)⟩]
    sandModel := .friable (mkFriableModel (finC fun _ => 0.4) (finC fun _ => 0.5) none) }

theorem exStiff_says {K G : ℝ} (Kf : ℝ) (hK : 0 < K) (hG : 0 < G) : (exStiffRun K G Kf).Says
      (Mat.ofReal (fun _ => K) (fun _ => G) (fun _ => 2650), (fun _ => ⟨K, G, 2650⟩), fun _ => 1) []
      (fun _ => 60e6) (fun _ => 30e6) (fun _ => 30e6) (fun _ => 30e6) none :=
  ⟨rfl, by
    intro y hy
    rw [List.mem_singleton.mp hy]
    exact ⟨⟨rfl, rfl, rfl, fun _ => ⟨hK, hG, by norm_num⟩⟩, fun _ => by norm_num⟩,
    fun _ => by norm_num, rfl, rfl, rfl, rfl, rfl⟩

theorem exStiff_pores (K G : ℝ) {Kf : ℝ} (hK : 0 < Kf) : (exStiffRun K G Kf).Pores (fun _ => 75) (fun _ => 30e6)
    [⟨.material (Mat.ofReal (fun _ => Kf) (fun _ => 0) (fun _ => 1030)), none, fun _ => ⟨Kf, 1030⟩, fun _ => 1⟩] :=
  ⟨rfl, rfl, by simp, by
    intro y hy
    rw [List.mem_singleton.mp hy]
    exact .material _ _ ⟨rfl, rfl, rfl, fun _ => ⟨hK, by norm_num⟩⟩, by
    intro y hy
    rw [List.mem_singleton.mp hy]
    simp [exStiffRun, exPatchyRun], by
    intro y hy
    rw [List.mem_singleton.mp hy]
    norm_num, fun i => by norm_num [poreTotal]⟩

/-- A grain pack like the quartz one of stiffer grains. -/
theorem stiff_pack_soft {p C : ℝ} (hp0 : 0 < p) (hp : p ≤ 1e8) (hC0 : 0 < C) (hC : C ≤ 10) :
    Published.hertzMindlinBulk 40e9 45e9 0.4 p C < 40e9 := by
  unfold Published.hertzMindlinBulk
  have e : (40e9 : ℝ) = (40e9 ^ (3 : ℕ)) ^ (1 / 3 : ℝ) := by
    rw [one_div, show ((3 : ℝ))⁻¹ = ((3 : ℕ) : ℝ)⁻¹ by norm_num, Real.pow_rpow_inv_natCast] <;> norm_num
  conv_rhs => rw [e]
  have hpi := Real.pi_gt_three
  have hn : Published.poisson 40e9 45e9 = 1 / 11 := by norm_num [Published.poisson]
  rw [hn]
  have h1 : 9 ≤ Real.pi ^ 2 := by nlinarith
  have h2 : C ^ 2 * p ≤ 10 ^ 2 * 1e8 := by gcongr
  apply Real.rpow_lt_rpow
  · positivity
  · rw [div_lt_iff₀ (by positivity)]
    norm_num at h2 ⊢
    nlinarith
  · norm_num

/-- A quartz sand with brine of 2.8 GPa, and the same sand of grains of 40 and 45 GPa with brine of 2.9 GPa. -/
example (co2 : CO2Model 2) : ∃ r r', calculate co2 (exStiffRun 36.8e9 44e9 2.8e9) = .ok r ∧
    calculate co2 (exStiffRun 40e9 45e9 2.9e9) = .ok r' ∧ ∀ i, r.ksat i ≤ r'.ksat i := by
  obtain ⟨r, r', h1, h2, h3⟩ := C177_calculation co2 (exStiff_says 2.8e9 (K := 36.8e9) (G := 44e9) (by norm_num) (by norm_num))
    (exStiff_says 2.9e9 (K := 40e9) (G := 45e9) (by norm_num) (by norm_num))
    (mkModuli_coherent (mkModuli_rock (n := 2) (r := fun _ => ⟨36.8e9, 44e9, 2650⟩) fun _ => by norm_num [Published.Rock.Valid]))
    (mkModuli_coherent (mkModuli_rock (n := 2) (r := fun _ => ⟨40e9, 45e9, 2650⟩) fun _ => by norm_num [Published.Rock.Valid]))
    (.cons ⟨fun _ => by norm_num, rfl⟩ .nil)
    ((exStiff_pores 36.8e9 44e9 (Kf := 2.8e9) (by norm_num)).filled co2)
    ((exStiff_pores 40e9 45e9 (Kf := 2.9e9) (by norm_num)).filled co2)
    (.wood rfl ⟨by simp, fun i => by norm_num [poreTotal]⟩) (.wood rfl ⟨by simp, fun i => by norm_num [poreTotal]⟩)
    (fun _ => by norm_num [Published.wood, poreRow])
    (φ := ![0.2, 0.3]) (φc := fun _ => 0.4) (f := fun _ => 0.5) (f' := fun _ => 0.5) (N := none) (N' := none) rfl rfl rfl rfl
    rfl rfl (fun i => by fin_cases i <;> norm_num) (fun i => by fin_cases i <;> norm_num) (fun _ => by norm_num)
    (fun _ => by norm_num [effectiveAt, Published.effective]) (fun _ => le_rfl)
    (fun _ => by norm_num) (fun _ => le_rfl) (fun _ => by norm_num [coordination, Published.murphy]) (fun _ => le_rfl)
    (fun i => ⟨quartz_pack_soft (by norm_num [effectiveAt, Published.effective])
      (by norm_num [effectiveAt, Published.effective]) (by norm_num [coordination, Published.murphy])
      (by norm_num [coordination, Published.murphy]), by
      show (Published.wood [((⟨2.8e9, 1030⟩ : Published.Fluid), 1)]).K < 36.8e9
      norm_num [Published.wood]⟩)
    (fun i => ⟨stiff_pack_soft (by norm_num [effectiveAt, Published.effective])
      (by norm_num [effectiveAt, Published.effective]) (by norm_num [coordination, Published.murphy])
      (by norm_num [coordination, Published.murphy]), by
      show (Published.wood [((⟨2.9e9, 1030⟩ : Published.Fluid), 1)]).K < 40e9
      norm_num [Published.wood]⟩)
  exact ⟨r, r', h1, h2, fun i => (h3 i).2.2.2⟩

end OPE
