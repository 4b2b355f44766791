import Verif.Props.Rounding
import Verif.Props.Stiffer
import Verif.Props.Published5

/-!
# C166, C167, C168: pore fluids, fluid substitution and velocities in double arithmetic
-/

namespace OPE

open Classical

theorem zip_map_map {α β γ δ : Type*} (L : List α) (f : α → β) (g : α → γ) (h : γ → δ) :
    (L.map f).zip ((L.map g).map h) = L.map fun x => (f x, h (g x)) := by
  induction L with
  | nil => rfl
  | cons a L ih => simp only [List.map_cons, List.zip_cons_cons, ih]

/-- **C166 (Wood).** In double arithmetic, the mixture of `n` fluids by Wood's law has density and bulk modulus accurate
to `4 n + 5` units of `2⁻⁵²`, whatever the moduli, densities and saturations. -/
theorem wood_near {fl : ℝ → ℝ} (hf : RoundsToNearest fl) (L : List (Published.Fluid × ℝ))
    (hs : ∀ x ∈ L, 0 ≤ x.2) (ht : 2e-15 ≤ (L.map fun x => x.2).sum) (hk : ∀ x ∈ L, 0 < x.1.K) (hρ : ∀ x ∈ L, 0 < x.1.ρ)
    (hn : L.length ≤ 2 ^ 50) :
    0 < (Published.wood L).K ∧ 0 < (Published.wood L).ρ ∧
    Near (2 * L.length + 3) (Published.wood L).K (Double.wood fl (rowsOf L)).1 ∧
      Near (2 * L.length + 2) (Published.wood L).ρ (Double.wood fl (rowsOf L)).2 := by
  set S := (L.map fun x => x.2).sum with hS
  have hS0 : 0 < S := lt_of_lt_of_le (by norm_num) ht
  have htot : Near L.length S (Double.sum fl (L.map fun x => x.2)) := by
    have := near_sum hf L (g := fun x => x.2) (g' := fun x => x.2) (k := 0) fun a ha => Near.refl 0 (hs a ha)
    rwa [zero_add] at this
  set total := Double.sum fl (L.map fun x => x.2) with htotal
  have h0 : 0 < total := htot.pos hS0
  have hmax : max total (fl 1e-15) = total := by
    apply max_eq_left
    have h1 : fl 1e-15 ≤ 1.1e-15 := by
      have := (abs_le.mp (hf.error 1e-15)).2
      have hu : unit * |(1e-15 : ℝ)| ≤ 1e-16 := by
        rw [abs_of_pos (by norm_num)]; unfold unit; norm_num
      norm_num at *
      linarith
    have h2 : (3 / 4 : ℝ) * S ≤ total := by
      refine le_trans (mul_le_mul_of_nonneg_right ?_ hS0.le) htot.2.1
      refine le_trans ?_ (Near.sub_one_pow L.length)
      have : (L.length : ℝ) * unit ≤ 2 ^ 50 * unit := mul_le_mul_of_nonneg_right (by exact_mod_cast hn) unit_pos.le
      have e : (2 : ℝ) ^ 50 * unit = 1 / 8 := by unfold unit; norm_num
      linarith
    refine h1.trans (le_trans ?_ h2)
    have := mul_le_mul_of_nonneg_left ht (by norm_num : (0:ℝ) ≤ 3 / 4)
    norm_num at this ⊢
    linarith
  have hnear : ∀ x ∈ L, Near (L.length + 1) (x.2 / S) (fl (x.2 / total)) := by
    intro x hx
    have := ((Near.refl 0 (hs x hx)).div htot hS0).fl hf
    rwa [zero_add] at this
  have hsat : Double.sumToOne fl (L.map fun x => x.2) = L.map fun x => fl (x.2 / total) := by
    unfold Double.sumToOne
    rw [← htotal]
    dsimp only
    rw [hmax]
    simp only [if_pos h0, List.map_map, Function.comp_def]
  have e1 : (rowsOf L).map (fun x => x.2.2) = L.map fun x => x.2 := by simp [rowsOf, List.map_map, Function.comp_def]
  have eK : ((rowsOf L).map fun x => x.1) = L.map fun x => x.1.K := by simp [rowsOf, List.map_map, Function.comp_def]
  have eR : ((rowsOf L).map fun x => x.2.1) = L.map fun x => x.1.ρ := by simp [rowsOf, List.map_map, Function.comp_def]
  have hpos : 0 < (L.map fun x => x.2 / S / x.1.K).sum ∧ 0 < (L.map fun x => x.2 / S * x.1.ρ).sum := by
    have hex : ∃ x ∈ L, 0 < x.2 := by
      by_contra hc
      push Not at hc
      have : S = 0 := List.sum_eq_zero fun y hy => by
        obtain ⟨x, hx, rfl⟩ := List.mem_map.mp hy
        exact le_antisymm (hc x hx) (hs x hx)
      linarith
    obtain ⟨x, hx, hx0⟩ := hex
    constructor
    · refine lt_of_lt_of_le (div_pos (div_pos hx0 hS0) (hk x hx)) (List.single_le_sum (fun y hy => ?_) _ (List.mem_map_of_mem hx))
      obtain ⟨z, hz, rfl⟩ := List.mem_map.mp hy
      exact div_nonneg (div_nonneg (hs z hz) hS0.le) (hk z hz).le
    · refine lt_of_lt_of_le (mul_pos (div_pos hx0 hS0) (hρ x hx)) (List.single_le_sum (fun y hy => ?_) _ (List.mem_map_of_mem hx))
      obtain ⟨z, hz, rfl⟩ := List.mem_map.mp hy
      exact mul_nonneg (div_nonneg (hs z hz) hS0.le) (hρ z hz).le
  refine ⟨inv_pos.mpr hpos.1, hpos.2, ?_, ?_⟩
  · unfold Double.wood Double.mixBulk
    dsimp only
    rw [e1, hsat, eK, List.zip_map', List.map_map]
    have h1 := near_sum hf L (g := fun x => x.2 / S / x.1.K) (g' := fun x => fl (fl (x.2 / total) / x.1.K))
      (k := L.length + 2) fun x hx => by
        have := ((hnear x hx).div (Near.refl 0 (hk x hx).le) (hk x hx)).fl hf
        exact this.mono (by omega)
    have h2 := ((Near.refl 0 (zero_le_one (α := ℝ))).div h1 hpos.1).fl hf
    rw [one_div] at h2
    exact h2.mono (by omega)
  · unfold Double.wood Double.mixDensities
    dsimp only
    rw [e1, hsat, eR, List.zip_map', List.map_map]
    have h1 := near_sum hf L (g := fun x => x.2 / S * x.1.ρ) (g' := fun x => fl (x.1.ρ * fl (x.2 / total)))
      (k := L.length + 2) fun x hx => by
        have := ((hnear x hx).mul (Near.refl 0 (hρ x hx).le)).fl hf
        rw [mul_comm (fl (x.2 / total))] at this
        exact this.mono (by omega)
    exact h1.mono (by omega)

/-- **C166 (Wood).** In double arithmetic, the mixture of `n` fluids by Wood's law has a bulk modulus accurate to `2 n + 3`
and a density accurate to `2 n + 2` units of `2⁻⁵²`, whatever the moduli, densities and saturations. -/
theorem C166_wood {fl : ℝ → ℝ} (hf : RoundsToNearest fl) (L : List (Published.Fluid × ℝ))
    (hs : ∀ x ∈ L, 0 ≤ x.2) (ht : 2e-15 ≤ (L.map fun x => x.2).sum) (hk : ∀ x ∈ L, 0 < x.1.K) (hρ : ∀ x ∈ L, 0 < x.1.ρ)
    (hn : L.length ≤ 2 ^ 50) :
    Accurate (2 * L.length + 3) (Published.wood L).K (Double.wood fl (rowsOf L)).1 ∧
      Accurate (2 * L.length + 2) (Published.wood L).ρ (Double.wood fl (rowsOf L)).2 := by
  obtain ⟨-, -, h1, h2⟩ := wood_near hf L hs ht hk hρ hn
  have e1 := h1.accurate (by omega)
  have e2 := h2.accurate (by omega)
  push_cast at e1 e2
  exact ⟨e1, e2⟩

/-- **C167 (Gassmann).** In double arithmetic Gassmann's equation is accurate to 9 units of `2⁻⁵²`, however close dry rock,
fluid and mineral are and however small the porosity is; it is not refused. -/
theorem gassmann_near {fl : ℝ → ℝ} (hf : RoundsToNearest fl) {Kd Km Kf φ : ℝ} (hφ : 0 ≤ φ) (hd0 : 0 ≤ Kd) (hd : Kd ≤ Km)
    (hf0 : 0 < Kf) (hfm : Kf < Km) : ∃ r, Double.gassmann fl Kd Km Kf φ = some r ∧ Near 9 (satReal Kd Km Kf φ) r := by
  have hm : 0 < Km := by linarith
  unfold Double.gassmann
  rcases hφ.eq_or_lt with h | h
  · rw [if_pos h.symm]
    refine ⟨Km, rfl, ?_⟩
    have : satReal Kd Km Kf φ = Km := by rw [← h]; simp [satReal]
    rw [this]; exact Near.refl 9 hm.le
  rw [if_neg h.ne']
  rcases hd.eq_or_lt with h' | h'
  · rw [if_pos h']
    refine ⟨Km, rfl, ?_⟩
    have : satReal Kd Km Kf φ = Km := by rw [h']; simp [satReal]
    rw [this]; exact Near.refl 9 hm.le
  rw [if_neg h'.ne]
  have n1 : Near 2 (Kd / (Km - Kd)) (fl (Kd / fl (Km - Kd))) :=
    ((Near.refl 0 hd0).div (Near.fl0 hf (sub_pos.mpr h').le) (sub_pos.mpr h')).fl hf
  have n2 : Near 3 (Kf / ((Km - Kf) * φ)) (fl (Kf / fl (fl (Km - Kf) * φ))) :=
    ((Near.refl 0 hf0.le).div (((Near.fl0 hf (sub_pos.mpr hfm).le).mul (Near.refl 0 h.le)).fl hf)
      (mul_pos (sub_pos.mpr hfm) h)).fl hf
  have n3 := (n1.add n2).fl hf
  have p3 : 0 ≤ Kd / (Km - Kd) + Kf / ((Km - Kf) * φ) := n3.1
  dsimp only
  rw [if_neg (not_lt.mpr n3.nonneg)]
  refine ⟨_, rfl, ?_⟩
  -- the quotient `D / (1 + D)` is increasing in `D`, so the errors of `D` do not add up
  set D := Kd / (Km - Kd) + Kf / ((Km - Kf) * φ) with hD
  set D' := fl (fl (Kd / fl (Km - Kd)) + fl (Kf / fl (fl (Km - Kf) * φ))) with hD'
  have n3 : Near 4 D D' := n3
  have hq : Near 4 (D / (1 + D)) (D' / (1 + D')) := by
    have h1 := n3.nonneg
    have hs := Near.pow_pos' 4
    have hs1 := Near.pow_le 4
    refine ⟨div_nonneg p3 (by linarith), ?_, ?_⟩
    · rw [← mul_div_assoc, div_le_div_iff₀ (by linarith) (by linarith)]
      have := n3.2.1
      nlinarith [mul_nonneg p3 h1]
    · rw [← mul_div_assoc, div_le_div_iff₀ (by linarith) (by linarith)]
      have := n3.2.2
      nlinarith [mul_nonneg p3 h1]
  have hone : Near 1 (1 + D') (fl (1 + D')) := Near.fl0 hf (by have := n3.nonneg; linarith)
  have hq' : Near 2 (D' / (1 + D')) (fl (D' / fl (1 + D'))) :=
    ((Near.refl 0 n3.nonneg).div hone (by have := n3.nonneg; linarith)).fl hf
  have hfin := ((hq.trans hq').mul (Near.refl 0 hm.le)).fl hf
  rw [hD] at hfin
  have e : satReal Kd Km Kf φ = D / (1 + D) * Km := (satReal_eq h hd0 h' hf0 hfm).symm
  rw [e]
  exact hfin.mono (by norm_num)

/-- **C167 (Gassmann).** In double arithmetic the bulk modulus of the saturated rock is accurate to 9 units of `2⁻⁵²`,
however close dry rock, fluid and mineral are and however small the porosity is; and it is not refused. -/
theorem C167_gassmann {fl : ℝ → ℝ} (hf : RoundsToNearest fl) {Kd Km Kf φ : ℝ} (hφ : 0 < φ) (hd0 : 0 ≤ Kd) (hd : Kd < Km)
    (hf0 : 0 < Kf) (hfm : Kf < Km) :
    ∃ r, Double.gassmann fl Kd Km Kf φ = some r ∧ Accurate 9 (Published.gassmann Kd Km Kf φ) r := by
  obtain ⟨r, h1, h2⟩ := gassmann_near hf hφ.le hd0 hd.le hf0 hfm
  refine ⟨r, h1, ?_⟩
  have := h2.accurate (by norm_num)
  rw [← satReal_eq hφ hd0 hd hf0 hfm, gFactor_published hφ hd0 hd hf0 hfm] at this
  exact_mod_cast this

/-- **C167 (density).** So is its density, to 2 units. -/
theorem C167_density {fl : ℝ → ℝ} (hf : RoundsToNearest fl) {ρd ρf φ : ℝ} (hd : 0 ≤ ρd) (hfl : 0 ≤ ρf) (hφ : 0 ≤ φ) :
    Accurate 2 (ρd + φ * ρf) (Double.saturatedDensity fl ρd ρf φ) := by
  have := (((Near.refl 0 hd).add (Near.fl0 hf (mul_nonneg hφ hfl))).fl hf).accurate (by norm_num)
  exact this

/-- **C168 (velocities).** In double arithmetic the velocities of every material are accurate to 8 and 4 units of `2⁻⁵²`. -/
theorem C168_velocities {fl : ℝ → ℝ} {pw : ℝ → ℝ → ℝ} (hf : RoundsToNearest fl) (hp : PowerAccurate pw) {K G ρ : ℝ}
    (hK : 0 < K) (hG : 0 ≤ G) (hρ : 0 < ρ) :
    Accurate 7 (Real.sqrt ((K + 4 / 3 * G) / ρ)) (Double.primaryVelocity fl pw K G ρ) ∧
      (0 < G → Accurate 4 (Real.sqrt (G / ρ)) (Double.secondaryVelocity fl pw G ρ)) := by
  have key : ∀ {k : ℕ} {x y : ℝ}, Near k x y → 0 < x → Near (k + 3) (Real.sqrt x) (pw y 0.5) := by
    intro k x y h hx
    rw [Real.sqrt_eq_rpow]
    have h1 := h.rpow hx (p := 1 / 2) (by norm_num) (by norm_num)
    have h2 := Near.of_accurate (Real.rpow_nonneg (h.pos hx).le _) (hp y 0.5 (h.pos hx))
    rw [show (0.5 : ℝ) = 1 / 2 by norm_num] at h2 ⊢
    exact h1.trans h2
  constructor
  · have h1 : Near 4 ((K + 4 / 3 * G) / ρ) (fl (fl (K + fl (fl (4 / 3) * G)) / ρ)) :=
      ((((Near.refl 0 hK.le).add (((Near.fl0 hf (by norm_num : (0:ℝ) ≤ 4 / 3)).mul (Near.refl 0 hG)).fl hf)).fl hf).div
        (Near.refl 0 hρ.le) hρ).fl hf
    exact_mod_cast (key h1 (by positivity)).accurate (by norm_num)
  · intro hG
    have h1 : Near 1 (G / ρ) (fl (G / ρ)) := Near.fl0 hf (by positivity)
    exact_mod_cast (key h1 (by positivity)).accurate (by norm_num)

end OPE
