import Verif.Props.Rounding2

/-!
# C166 (Brie): differences that are not amplified
-/

namespace OPE

open Classical

/-- `x (1 + e)` bounds with small errors multiplied out. -/
theorem small_products {u ε δ : ℝ} (hu : 0 < u) (hu1 : u ≤ 1e-15) (hε : 0 ≤ ε) (hε1 : ε ≤ 1e-8) (hδ : 0 ≤ δ) (hδ1 : δ ≤ 1e-8)
    (hδu : ε * δ ≤ u / 1000) :
    ε + 2 * (1 + ε) * δ + 2 * (u * (1 + ε) * (1 + δ)) + 2 * (u * (1 + u) * (1 + ε) * (1 + δ))
      + u * (1 + ε + 2 * (1 + ε) * δ + 2 * (u * (1 + ε) * (1 + δ)) + 2 * (u * (1 + u) * (1 + ε) * (1 + δ))) ≤
      ε + 2 * δ + 6 * u := by
  have h1 : (1 + ε) * (1 + δ) ≤ 1 + 1e-7 := by
    have : (1 + ε) * (1 + δ) ≤ (1 + 1e-8) * (1 + 1e-8) := by gcongr
    refine this.trans (by norm_num)
  have h2 : (1 + u) * ((1 + ε) * (1 + δ)) ≤ 1 + 1e-6 := by
    have : (1 + u) * ((1 + ε) * (1 + δ)) ≤ (1 + 1e-15) * (1 + 1e-7) := by gcongr
    refine this.trans (by norm_num)
  have a1 : u * (1 + ε) * (1 + δ) ≤ u * (1 + 1e-7) := by
    rw [mul_assoc]; exact mul_le_mul_of_nonneg_left h1 hu.le
  have a2 : u * (1 + u) * (1 + ε) * (1 + δ) ≤ u * (1 + 1e-6) := by
    have := mul_le_mul_of_nonneg_left h2 hu.le
    calc _ = u * ((1 + u) * ((1 + ε) * (1 + δ))) := by ring
      _ ≤ _ := this
  have a3 : u * (1 + ε + 2 * (1 + ε) * δ + 2 * (u * (1 + ε) * (1 + δ)) + 2 * (u * (1 + u) * (1 + ε) * (1 + δ))) ≤ u * (1 + 1e-3) := by
    refine mul_le_mul_of_nonneg_left ?_ hu.le
    have : (1 + ε) * δ ≤ (1 + 1e-8) * 1e-8 := by gcongr
    norm_num at *
    nlinarith
  norm_num at *
  nlinarith

theorem blend_near {fl : ℝ → ℝ} (hf : RoundsToNearest fl) {ε δ l g p l' g' p' : ℝ} (hε : 0 ≤ ε) (hε1 : ε ≤ 1e-8)
    (hδ : 0 ≤ δ) (hδ1 : δ ≤ 1e-8) (hδu : ε * δ ≤ unit / 1000) (hg0 : 0 ≤ g) (hgl : g ≤ l) (hp0 : 0 ≤ p) (hp1 : p ≤ 1)
    (hl : |l' - l| ≤ ε * l) (hg : |g' - g| ≤ ε * g) (hp : |p' - p| ≤ δ * p) :
    |fl (fl (fl (l' - g') * p') + g') - ((l - g) * p + g)| ≤ (ε + 2 * δ + 6 * unit) * ((l - g) * p + g) := by
  have hu := unit_pos
  have hl0 : 0 ≤ l := hg0.trans hgl
  set R := (l - g) * p + g with hR
  have hlp : l * p ≤ R := by rw [hR]; nlinarith
  have hR0 : 0 ≤ R := le_trans (mul_nonneg hl0 hp0) hlp
  have b1 : |(l' - l) * p + (g' - g) * (1 - p)| ≤ ε * R := by
    refine (abs_add_le _ _).trans ?_
    rw [abs_mul, abs_mul, abs_of_nonneg hp0, abs_of_nonneg (sub_nonneg.mpr hp1)]
    have h1 := mul_le_mul_of_nonneg_right hl hp0
    have h2 := mul_le_mul_of_nonneg_right hg (sub_nonneg.mpr hp1)
    rw [hR]; nlinarith
  have hd : |l' - g'| ≤ 2 * (1 + ε) * l := by
    have e : l' - g' = (l' - l) + (l - g) - (g' - g) := by ring
    rw [e]
    refine (abs_sub _ _).trans ?_
    refine (add_le_add (abs_add_le _ _) le_rfl).trans ?_
    rw [abs_of_nonneg (sub_nonneg.mpr hgl)]
    nlinarith [mul_le_mul_of_nonneg_left hgl hε]
  have hp' : |p'| ≤ (1 + δ) * p := by
    have e : p' = (p' - p) + p := by ring
    rw [e]
    refine (abs_add_le _ _).trans ?_
    rw [abs_of_nonneg hp0]; linarith
  have b2 : |(l' - g') * (p' - p)| ≤ 2 * (1 + ε) * δ * R := by
    rw [abs_mul]
    refine (mul_le_mul hd hp (abs_nonneg _) (by positivity)).trans ?_
    have := mul_le_mul_of_nonneg_left hlp (by positivity : 0 ≤ 2 * (1 + ε) * δ)
    nlinarith
  set d' := fl (l' - g') with hd'
  have c1 : |d' - (l' - g')| ≤ unit * (2 * (1 + ε) * l) := (hf.error _).trans (mul_le_mul_of_nonneg_left hd hu.le)
  have b3 : |(d' - (l' - g')) * p'| ≤ 2 * (unit * (1 + ε) * (1 + δ)) * R := by
    rw [abs_mul]
    refine (mul_le_mul c1 hp' (abs_nonneg _) (by positivity)).trans ?_
    have := mul_le_mul_of_nonneg_left hlp (by positivity : 0 ≤ 2 * (unit * (1 + ε) * (1 + δ)))
    nlinarith
  have c2 : |d'| ≤ (1 + unit) * (2 * (1 + ε) * l) := by
    have e : d' = (d' - (l' - g')) + (l' - g') := by ring
    rw [e]
    refine (abs_add_le _ _).trans ?_
    linarith
  set m' := fl (d' * p') with hm'
  have b4 : |m' - d' * p'| ≤ 2 * (unit * (1 + unit) * (1 + ε) * (1 + δ)) * R := by
    refine (hf.error _).trans ?_
    rw [abs_mul]
    have h1 := mul_le_mul c2 hp' (abs_nonneg _) (by positivity)
    have := mul_le_mul_of_nonneg_left hlp (by positivity : 0 ≤ 2 * (unit * (1 + unit) * (1 + ε) * (1 + δ)))
    nlinarith [mul_le_mul_of_nonneg_left h1 hu.le]
  have hsum : |m' + g' - R| ≤ (ε + 2 * (1 + ε) * δ + 2 * (unit * (1 + ε) * (1 + δ))
      + 2 * (unit * (1 + unit) * (1 + ε) * (1 + δ))) * R := by
    have e : m' + g' - R = ((m' - d' * p') + (d' - (l' - g')) * p') + ((l' - g') * (p' - p)
        + ((l' - l) * p + (g' - g) * (1 - p))) := by rw [hR]; ring
    rw [e]
    refine (abs_add_le _ _).trans ?_
    have h1 := (abs_add_le (m' - d' * p') ((d' - (l' - g')) * p')).trans (add_le_add b4 b3)
    have h2 := (abs_add_le ((l' - g') * (p' - p)) ((l' - l) * p + (g' - g) * (1 - p))).trans (add_le_add b2 b1)
    nlinarith [add_le_add h1 h2]
  have hlast := hf.error (m' + g')
  have habs : |m' + g'| ≤ (1 + (ε + 2 * (1 + ε) * δ + 2 * (unit * (1 + ε) * (1 + δ))
      + 2 * (unit * (1 + unit) * (1 + ε) * (1 + δ)))) * R := by
    have e : m' + g' = (m' + g' - R) + R := by ring
    rw [e]
    refine (abs_add_le _ _).trans ?_
    rw [abs_of_nonneg hR0]; linarith
  have e : fl (m' + g') - R = (fl (m' + g') - (m' + g')) + (m' + g' - R) := by ring
  rw [e]
  refine ((abs_add_le _ _).trans (add_le_add (hlast.trans (mul_le_mul_of_nonneg_left habs hu.le)) hsum)).trans ?_
  have hs := small_products hu (by unfold unit; norm_num) hε hε1 hδ hδ1 hδu
  have := mul_le_mul_of_nonneg_right hs hR0
  linarith

set_option maxHeartbeats 1000000 in
/-- Weighted mean with weights `S` and `1 - S`. -/
theorem weigh_near {fl : ℝ → ℝ} (hf : RoundsToNearest fl) {ε δ l g S l' g' S' : ℝ} (hε : 0 ≤ ε) (hε1 : ε ≤ 1e-8)
    (hδ : 0 ≤ δ) (hδ1 : δ ≤ 1e-8) (hδu : ε * δ ≤ unit / 1000) (hg0 : 0 ≤ g) (hgl : g ≤ l) (hS0 : 0 ≤ S) (hS1 : S ≤ 1)
    (hl : |l' - l| ≤ ε * l) (hg : |g' - g| ≤ ε * g) (hS : |S' - S| ≤ δ * S) :
    |Double.mixDensities fl [(l', S'), (g', fl (1 - S'))] - (S * l + (1 - S) * g)| ≤
      (ε + 2 * δ + 8 * unit) * (S * l + (1 - S) * g) := by
  have hu := unit_pos
  have hu1 : unit ≤ 1e-15 := by unfold unit; norm_num
  have hl0 : 0 ≤ l := hg0.trans hgl
  set R := S * l + (1 - S) * g with hR
  have hSl : S * l ≤ R := by rw [hR]; nlinarith [mul_nonneg (sub_nonneg.mpr hS1) hg0]
  have hSg : S * g ≤ R := (mul_le_mul_of_nonneg_left hgl hS0).trans hSl
  have hTg : (1 - S) * g ≤ R := by rw [hR]; nlinarith [mul_nonneg hS0 hl0]
  have hR0 : 0 ≤ R := le_trans (mul_nonneg hS0 hl0) hSl
  have hl' : |l'| ≤ (1 + ε) * l := by
    have e : l' = (l' - l) + l := by ring
    rw [e]; refine (abs_add_le _ _).trans ?_
    rw [abs_of_nonneg hl0]; linarith
  have hg' : |g'| ≤ (1 + ε) * g := by
    have e : g' = (g' - g) + g := by ring
    rw [e]; refine (abs_add_le _ _).trans ?_
    rw [abs_of_nonneg hg0]; linarith
  have hS' : |S'| ≤ (1 + δ) * S := by
    have e : S' = (S' - S) + S := by ring
    rw [e]; refine (abs_add_le _ _).trans ?_
    rw [abs_of_nonneg hS0]; linarith
  have hT' : |1 - S'| ≤ (1 - S) + δ * S := by
    have e : 1 - S' = (1 - S) - (S' - S) := by ring
    rw [e]; refine (abs_sub _ _).trans ?_
    rw [abs_of_nonneg (sub_nonneg.mpr hS1)]; linarith
  -- what is meant, without the roundings of this function
  have b1 : |l' * S' + g' * (1 - S') - R| ≤ (ε + 2 * (1 + ε) * δ) * R := by
    have e : l' * S' + g' * (1 - S') - R =
        (l' * (S' - S) - g' * (S' - S)) + ((l' - l) * S + (g' - g) * (1 - S)) := by rw [hR]; ring
    rw [e]
    refine (abs_add_le _ _).trans ?_
    have h1 : |l' * (S' - S) - g' * (S' - S)| ≤ 2 * (1 + ε) * δ * R := by
      refine (abs_sub _ _).trans ?_
      rw [abs_mul, abs_mul]
      have h1 := mul_le_mul hl' hS (abs_nonneg _) (by positivity)
      have h2 := mul_le_mul hg' hS (abs_nonneg _) (by positivity)
      have h3 := mul_le_mul_of_nonneg_left hSl (by positivity : 0 ≤ (1 + ε) * δ)
      have h4 := mul_le_mul_of_nonneg_left hSg (by positivity : 0 ≤ (1 + ε) * δ)
      nlinarith
    have h2 : |(l' - l) * S + (g' - g) * (1 - S)| ≤ ε * R := by
      refine (abs_add_le _ _).trans ?_
      rw [abs_mul, abs_mul, abs_of_nonneg hS0, abs_of_nonneg (sub_nonneg.mpr hS1)]
      have h1 := mul_le_mul_of_nonneg_right hl hS0
      have h2 := mul_le_mul_of_nonneg_right hg (sub_nonneg.mpr hS1)
      rw [hR]; nlinarith
    nlinarith
  -- sizes of the two products
  have s1 : |l' * S'| ≤ (1 + ε) * (1 + δ) * (S * l) := by
    rw [abs_mul]
    refine (mul_le_mul hl' hS' (abs_nonneg _) (by positivity)).trans (le_of_eq (by ring))
  have s2 : |g' * (1 - S')| ≤ (1 + ε) * ((1 - S) * g + δ * (S * l)) := by
    rw [abs_mul]
    refine (mul_le_mul hg' hT' (abs_nonneg _) (by positivity)).trans ?_
    have := mul_le_mul_of_nonneg_left (mul_le_mul_of_nonneg_left hgl hS0) (by positivity : 0 ≤ (1 + ε) * δ)
    nlinarith
  set q := fl (1 - S') with hq
  set a := fl (l' * S') with ha
  set b := fl (g' * q) with hb
  have z : fl (0 + a) = a := by
    rw [zero_add]
    exact hf.exact (hf _).1
  have hval : Double.mixDensities fl [(l', S'), (g', q)] = fl (a + b) := by
    unfold Double.mixDensities Double.sum
    simp only [List.map_cons, List.map_nil, List.foldl_cons, List.foldl_nil]
    rw [← ha, ← hb, z]
  rw [hval]
  have r1 : |a - l' * S'| ≤ unit * |l' * S'| := hf.error _
  have r2 : |g' * q - g' * (1 - S')| ≤ unit * |g' * (1 - S')| := by
    rw [← mul_sub, abs_mul, abs_mul]
    have := mul_le_mul_of_nonneg_left (hf.error (1 - S')) (abs_nonneg g')
    nlinarith
  have r3 : |b - g' * q| ≤ unit * ((1 + unit) * |g' * (1 - S')|) := by
    refine (hf.error _).trans (mul_le_mul_of_nonneg_left ?_ hu.le)
    have e : g' * q = (g' * q - g' * (1 - S')) + g' * (1 - S') := by ring
    rw [e]; refine (abs_add_le _ _).trans ?_
    linarith
  have hX : |l' * S'| + |g' * (1 - S')| ≤ (1 + 1e-6) * R := by
    have k1 : (1 + ε) * (1 + δ) ≤ 1 + 1e-7 := by
      have : (1 + ε) * (1 + δ) ≤ (1 + 1e-8) * (1 + 1e-8) := by gcongr
      exact this.trans (by norm_num)
    have k2 : (1 + ε) * (1 + 2 * δ) ≤ 1 + 1e-6 := by
      have : (1 + ε) * (1 + 2 * δ) ≤ (1 + 1e-8) * (1 + 2 * 1e-8) := by gcongr
      exact this.trans (by norm_num)
    have hx1 : 0 ≤ S * l := by positivity
    have hx2 : 0 ≤ (1 - S) * g := mul_nonneg (sub_nonneg.mpr hS1) hg0
    have k3 : 1 + ε ≤ 1 + 1e-6 := by norm_num at *; linarith
    have j1 := mul_le_mul_of_nonneg_right k2 hx1
    have j2 := mul_le_mul_of_nonneg_right k3 hx2
    rw [hR]
    refine (add_le_add s1 s2).trans ?_
    calc (1 + ε) * (1 + δ) * (S * l) + (1 + ε) * ((1 - S) * g + δ * (S * l))
        = (1 + ε) * (1 + 2 * δ) * (S * l) + (1 + ε) * ((1 - S) * g) := by ring
      _ ≤ (1 + 1e-6) * (S * l) + (1 + 1e-6) * ((1 - S) * g) := add_le_add j1 j2
      _ = _ := by ring
  have hab : |a + b - R| ≤ (ε + 2 * (1 + ε) * δ) * R + unit * ((2 + unit) * ((1 + 1e-6) * R)) := by
    have e : a + b - R = ((a - l' * S') + ((b - g' * q) + (g' * q - g' * (1 - S')))) + (l' * S' + g' * (1 - S') - R) := by ring
    rw [e]
    refine (abs_add_le _ _).trans ?_
    have h1 := (abs_add_le (b - g' * q) (g' * q - g' * (1 - S'))).trans (add_le_add r3 r2)
    have h2 := (abs_add_le (a - l' * S') ((b - g' * q) + (g' * q - g' * (1 - S')))).trans (add_le_add r1 h1)
    have hy1 := abs_nonneg (l' * S')
    have hy2 := abs_nonneg (g' * (1 - S'))
    have h3 : unit * |l' * S'| + (unit * ((1 + unit) * |g' * (1 - S')|) + unit * |g' * (1 - S')|) ≤
        unit * ((2 + unit) * ((1 + 1e-6) * R)) := by
      have h4 := mul_le_mul_of_nonneg_left hX (by positivity : 0 ≤ unit * (2 + unit))
      have h5 : unit * |l' * S'| ≤ unit * (2 + unit) * |l' * S'| := by
        refine mul_le_mul_of_nonneg_right ?_ hy1
        calc unit = unit * 1 := (mul_one _).symm
          _ ≤ unit * (2 + unit) := mul_le_mul_of_nonneg_left (by linarith) hu.le
      calc unit * |l' * S'| + (unit * ((1 + unit) * |g' * (1 - S')|) + unit * |g' * (1 - S')|)
          ≤ unit * (2 + unit) * |l' * S'| + (unit * ((1 + unit) * |g' * (1 - S')|) + unit * |g' * (1 - S')|) :=
            add_le_add h5 le_rfl
        _ = unit * (2 + unit) * (|l' * S'| + |g' * (1 - S')|) := by ring
        _ ≤ unit * (2 + unit) * ((1 + 1e-6) * R) := h4
        _ = _ := by ring
    linarith [h2.trans h3]
  have hed : (1 + ε) * δ ≤ δ + unit / 1000 := by linarith
  have hab2 : |a + b - R| ≤ (ε + 2 * δ + 3 * unit) * R := by
    refine hab.trans ?_
    have : ε + 2 * (1 + ε) * δ + unit * ((2 + unit) * (1 + 1e-6)) ≤ ε + 2 * δ + 3 * unit := by
      have k : (2 + unit) * (1 + 1e-6) ≤ 2.1 := by
        have : (2 + unit) * (1 + 1e-6) ≤ (2 + 1e-15) * (1 + 1e-6) := by gcongr
        exact this.trans (by norm_num)
      have := mul_le_mul_of_nonneg_left k hu.le
      norm_num at this ⊢
      linarith
    have := mul_le_mul_of_nonneg_right this hR0
    calc _ = (ε + 2 * (1 + ε) * δ + unit * ((2 + unit) * (1 + 1e-6))) * R := by ring
      _ ≤ _ := this
  have habs : |a + b| ≤ 2 * R := by
    have e : a + b = (a + b - R) + R := by ring
    rw [e]; refine (abs_add_le _ _).trans ?_
    rw [abs_of_nonneg hR0]
    have : ε + 2 * δ + 3 * unit ≤ 1 := by norm_num at *; linarith
    have := mul_le_mul_of_nonneg_right this hR0
    linarith
  have e : fl (a + b) - R = (fl (a + b) - (a + b)) + (a + b - R) := by ring
  rw [e]
  refine (abs_add_le _ _).trans ?_
  have h1 := (hf.error (a + b)).trans (mul_le_mul_of_nonneg_left habs hu.le)
  refine (add_le_add h1 hab2).trans ?_
  have := mul_nonneg hu.le hR0
  linarith

end OPE
