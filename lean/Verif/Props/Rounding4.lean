import Verif.Props.Rounding3

/-!
# C166 (Brie), C171
-/

namespace OPE

open Classical

/-- Powers with an exponent from 0 to `m` enlarge errors at most `m` times. -/
theorem Near.rpow_le {k m : ℕ} {x y : ℝ} (h : Near k x y) (hx : 0 < x) {p : ℝ} (h0 : 0 ≤ p) (h1 : p ≤ m) :
    Near (k * m) (x ^ p) (y ^ p) := by
  have hs : (1 - unit) ^ (k * m) ≤ ((1 - unit) ^ k) ^ p := by
    rw [pow_mul]
    have := Real.rpow_le_rpow_of_exponent_ge (Near.pow_pos' k) (Near.pow_le k) h1
    rwa [Real.rpow_natCast] at this
  have hy := h.pos hx
  refine ⟨Real.rpow_nonneg hx.le p, ?_, ?_⟩
  · calc (1 - unit) ^ (k * m) * x ^ p ≤ ((1 - unit) ^ k) ^ p * x ^ p := mul_le_mul_of_nonneg_right hs (Real.rpow_nonneg hx.le p)
      _ = ((1 - unit) ^ k * x) ^ p := (Real.mul_rpow (Near.pow_pos' k).le hx.le).symm
      _ ≤ y ^ p := Real.rpow_le_rpow (mul_nonneg (Near.pow_pos' k).le hx.le) h.2.1 h0
  · calc (1 - unit) ^ (k * m) * y ^ p ≤ ((1 - unit) ^ k) ^ p * y ^ p := mul_le_mul_of_nonneg_right hs (Real.rpow_nonneg hy.le p)
      _ = ((1 - unit) ^ k * y) ^ p := (Real.mul_rpow (Near.pow_pos' k).le hy.le).symm
      _ ≤ x ^ p := Real.rpow_le_rpow (mul_nonneg (Near.pow_pos' k).le hy.le) h.2.2 h0

theorem Accurate.mono {k l x y : ℝ} (h : Accurate k x y) (hkl : k ≤ l) : Accurate l x y := by
  unfold Accurate at *
  refine h.trans (mul_le_mul_of_nonneg_right ?_ (abs_nonneg _))
  gcongr

theorem Near.abs_le {k : ℕ} {x y : ℝ} (h : Near k x y) (hk : k ≤ 2 ^ 52) : |y - x| ≤ k * (2 * unit) * x := by
  have := h.accurate hk
  unfold Accurate at this
  rw [abs_of_nonneg h.1] at this
  refine this.trans (le_of_eq ?_)
  unfold unit; ring

theorem saturations_near {fl : ℝ → ℝ} (hf : RoundsToNearest fl) (L : List (Published.Fluid × ℝ)) (hs : ∀ x ∈ L, 0 ≤ x.2) :
    Near L.length (L.map fun x => x.2).sum (Double.sum fl ((rowsOf L).map fun x => x.2.2)) := by
  have e : (rowsOf L).map (fun x => x.2.2) = L.map fun x => x.2 := by simp [rowsOf, List.map_map, Function.comp_def]
  rw [e]
  have := near_sum hf L (g := fun x => x.2) (g' := fun x => x.2) (k := 0) fun a ha => Near.refl 0 (hs a ha)
  rwa [zero_add] at this

/-- **C166 (Brie).** In double arithmetic, Brie's mixture of at most `n` liquids and `n` gases with exponent at most `m` has a
bulk modulus accurate to `2 n (m + 1) + 12` and a density accurate to `4 n + 7` units of `2⁻⁵²`, if the liquids together are at
least as stiff and as dense as the gases together and the saturations of the liquids sum to at most one. -/
theorem C166_brie {fl : ℝ → ℝ} {pw : ℝ → ℝ → ℝ} (hf : RoundsToNearest fl) (hp : PowerAccurate pw)
    (L G : List (Published.Fluid × ℝ)) (e : ℝ) (n m : ℕ) (hL : L.length ≤ n) (hG : G.length ≤ n) (hn : n ≤ 1000)
    (hm : m ≤ 1000) (he0 : 0 ≤ e) (hem : e ≤ m)
    (hs : ∀ x ∈ L ++ G, 0 ≤ x.2 ∧ 0 < x.1.K ∧ 0 < x.1.ρ)
    (htL : 2e-15 ≤ (L.map fun x => x.2).sum) (htG : 2e-15 ≤ (G.map fun x => x.2).sum) (ht : (L.map fun x => x.2).sum ≤ 1)
    (hK : (Published.wood G).K ≤ (Published.wood L).K) (hρ : (Published.wood G).ρ ≤ (Published.wood L).ρ) :
    Accurate (2 * n * (m + 1) + 12) (Published.brie L G e).K (Double.brie fl pw (rowsOf L) (rowsOf G) e).1 ∧
      Accurate (4 * n + 7) (Published.brie L G e).ρ (Double.brie fl pw (rowsOf L) (rowsOf G) e).2 := by
  have hu := unit_pos
  obtain ⟨pl1, pl2, hl1, hl2⟩ := wood_near hf L (fun x hx => (hs x (List.mem_append_left _ hx)).1) htL
    (fun x hx => (hs x (List.mem_append_left _ hx)).2.1) (fun x hx => (hs x (List.mem_append_left _ hx)).2.2) (by omega)
  obtain ⟨pg1, pg2, hg1, hg2⟩ := wood_near hf G (fun x hx => (hs x (List.mem_append_right _ hx)).1) htG
    (fun x hx => (hs x (List.mem_append_right _ hx)).2.1) (fun x hx => (hs x (List.mem_append_right _ hx)).2.2) (by omega)
  have hS := (saturations_near hf L fun x hx => (hs x (List.mem_append_left _ hx)).1).mono hL
  set S := (L.map fun x => x.2).sum with hSdef
  have hS0 : 0 < S := lt_of_lt_of_le (by norm_num) htL
  set S' := Double.sum fl ((rowsOf L).map fun x => x.2.2) with hS'def
  have hP : Near (n * m + 3) (S ^ e) (pw S' e) :=
    (hS.rpow_le hS0 he0 hem).trans (Near.of_accurate (Real.rpow_nonneg (hS.pos hS0).le _) (hp S' e (hS.pos hS0)))
  have hn' : (n : ℝ) ≤ 1000 := by exact_mod_cast hn
  have hnm : n * m ≤ 1000 * 1000 := Nat.mul_le_mul hn hm
  have hnm' : (n * m : ℝ) ≤ 1000000 := by exact_mod_cast hnm
  have hn0 : (0 : ℝ) ≤ n := Nat.cast_nonneg n
  have hnm0 : (0 : ℝ) ≤ n * m := by positivity
  have u0 : unit ≤ 2e-16 := by unfold unit; norm_num
  have bε : (2 * n + 3 : ℝ) * (2 * unit) ≤ 1e-11 := by
    have : (2 * n + 3 : ℝ) * (2 * unit) ≤ (2 * 1000 + 3) * (2 * 2e-16) := by gcongr
    exact this.trans (by norm_num)
  have bδ : (n * m + 3 : ℝ) * (2 * unit) ≤ 1e-9 := by
    have : (n * m + 3 : ℝ) * (2 * unit) ≤ (1000000 + 3) * (2 * 2e-16) := by gcongr
    exact this.trans (by norm_num)
  have bεδ : (2 * n + 3 : ℝ) * (2 * unit) * ((n * m + 3) * (2 * unit)) ≤ unit / 1000 := by
    calc (2 * n + 3 : ℝ) * (2 * unit) * ((n * m + 3) * (2 * unit))
        ≤ (2 * 1000 + 3) * (2 * unit) * ((1000000 + 3) * (2 * unit)) := by gcongr
      _ = unit * (4 * (2003 * 1000003) * unit) := by ring
      _ ≤ unit * (1 / 1000) := by
        refine mul_le_mul_of_nonneg_left ?_ hu.le
        unfold unit; norm_num
      _ = unit / 1000 := by ring
  have nK1 : |(Double.wood fl (rowsOf L)).1 - (Published.wood L).K| ≤ (2 * n + 3 : ℝ) * (2 * unit) * (Published.wood L).K := by
    exact_mod_cast (hl1.mono (l := 2 * n + 3) (by omega)).abs_le (by omega)
  have nK2 : |(Double.wood fl (rowsOf G)).1 - (Published.wood G).K| ≤ (2 * n + 3 : ℝ) * (2 * unit) * (Published.wood G).K := by
    exact_mod_cast (hg1.mono (l := 2 * n + 3) (by omega)).abs_le (by omega)
  have nR1 : |(Double.wood fl (rowsOf L)).2 - (Published.wood L).ρ| ≤ (2 * n + 3 : ℝ) * (2 * unit) * (Published.wood L).ρ := by
    exact_mod_cast (hl2.mono (l := 2 * n + 3) (by omega)).abs_le (by omega)
  have nR2 : |(Double.wood fl (rowsOf G)).2 - (Published.wood G).ρ| ≤ (2 * n + 3 : ℝ) * (2 * unit) * (Published.wood G).ρ := by
    exact_mod_cast (hg2.mono (l := 2 * n + 3) (by omega)).abs_le (by omega)
  have nS : |S' - S| ≤ (n : ℝ) * (2 * unit) * S := by exact_mod_cast hS.abs_le (by omega)
  have nP : |pw S' e - S ^ e| ≤ (n * m + 3 : ℝ) * (2 * unit) * S ^ e := by
    exact_mod_cast hP.abs_le (by omega)
  have hP1 : S ^ e ≤ 1 := Real.rpow_le_one hS0.le ht he0
  constructor
  · have := blend_near hf (by positivity) (bε.trans (by norm_num)) (by positivity) (bδ.trans (by norm_num)) bεδ pg1.le hK
      (Real.rpow_nonneg hS0.le e) hP1 nK1 nK2 nP
    unfold Accurate
    have hb : (Published.brie L G e).K = ((Published.wood L).K - (Published.wood G).K) * S ^ e + (Published.wood G).K := rfl
    have h0 : 0 ≤ (Published.brie L G e).K := by
      rw [hb]; exact add_nonneg (mul_nonneg (sub_nonneg.mpr hK) (Real.rpow_nonneg hS0.le e)) pg1.le
    rw [abs_of_nonneg h0, hb]
    refine this.trans (le_of_eq ?_)
    congr 1
    unfold unit; ring
  · have bεn : (2 * n + 3 : ℝ) * (2 * unit) * (n * (2 * unit)) ≤ unit / 1000 := by
      calc (2 * n + 3 : ℝ) * (2 * unit) * (n * (2 * unit))
          ≤ (2 * 1000 + 3) * (2 * unit) * (1000 * (2 * unit)) := by gcongr
        _ = unit * (4 * (2003 * 1000) * unit) := by ring
        _ ≤ unit * (1 / 1000) := by
          refine mul_le_mul_of_nonneg_left ?_ hu.le
          unfold unit; norm_num
        _ = unit / 1000 := by ring
    have bn : (n : ℝ) * (2 * unit) ≤ 1e-8 := by
      have : (n : ℝ) * (2 * unit) ≤ 1000 * (2 * 2e-16) := by gcongr
      exact this.trans (by norm_num)
    have := weigh_near hf (by positivity) (bε.trans (by norm_num)) (by positivity) bn bεn pg2.le hρ hS0.le ht nR1 nR2 nS
    unfold Accurate
    have hb : (Published.brie L G e).ρ = S * (Published.wood L).ρ + (1 - S) * (Published.wood G).ρ := rfl
    have h0 : 0 ≤ (Published.brie L G e).ρ := by
      rw [hb]; exact add_nonneg (mul_nonneg hS0.le pl2.le) (mul_nonneg (sub_nonneg.mpr ht) pg2.le)
    rw [abs_of_nonneg h0, hb]
    refine this.trans (le_of_eq ?_)
    congr 1
    unfold unit; ring

end OPE
