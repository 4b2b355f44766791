import Verif.Props.Rounding5
import Verif.Props.Rounding6

/-!
# Without rounding, the model of double arithmetic is the model of exact arithmetic

Divisions by 0 are set aside (they give errors or special values, see Model/Num.lean).
-/

namespace OPE

open Classical

theorem double_gassmann_exact {kd km kf φ : ℝ} (hf : kf ≠ km)
    (h1 : kd / (km - kd) + kf / ((km - kf) * φ) ≠ -1) :
    gassmann (.fin kd) (.fin km) (.fin kf) (.fin φ) =
      match Double.gassmann id kd km kf φ with
      | some r => .ok (.fin r)
      | none => .error .valueError := by
  unfold gassmann Double.gassmann
  simp only [id]
  by_cases h0 : φ = 0
  · simp [h0]
  by_cases hd : kd = km
  · simp [h0, hd]
  have a1 : km - kd ≠ 0 := sub_ne_zero.mpr (Ne.symm hd)
  have a2 : (km - kf) * φ ≠ 0 := mul_ne_zero (sub_ne_zero.mpr (Ne.symm hf)) h0
  have a3 : 1 + (kd / (km - kd) + kf / ((km - kf) * φ)) ≠ 0 := fun h => h1 (by linarith)
  simp only [Num.fin_eq, h0, hd, if_false, Num.fin_sub, Num.fin_mul, pyDiv_fin _ a1, pyDiv_fin _ a2, bind_ok, Num.fin_add,
    Num.fin_lt]
  split_ifs with h
  · rw [failIf_true h]; rfl
  · rw [failIf_false h, bind_ok, pyDiv_fin _ a3, bind_ok]; rfl

theorem reciprocal_exact (x : ℝ) (hx : x ≠ 0) : Double.reciprocal (fun a b => a ^ b) x = x⁻¹ := by
  unfold Double.reciprocal
  dsimp only
  split_ifs with h
  · rw [Real.rpow_neg_one, inv_neg, neg_neg]
  · rw [Real.rpow_neg_one]

theorem double_hswBulk_exact {k1 k2 mum f : ℝ} (hA : k1 + 4 / 3 * mum ≠ 0)
    (hD : (k2 - k1)⁻¹ + f * (k1 + 4 / 3 * mum)⁻¹ ≠ 0) :
    hswBulk (.fin k1) (.fin k2) (.fin mum) (.fin f) (.fin (1 - f)) =
      .ok (.fin (Double.walpoleBulk id (fun a b => a ^ b) k1 k2 mum f)) := by
  unfold hswBulk Double.walpoleBulk Double.walpole
  by_cases h : k1 = k2
  · simp [h]
  have h3 : k2 - k1 ≠ 0 := sub_ne_zero.mpr (Ne.symm h)
  simp only [id, if_neg h]
  rw [reciprocal_exact _ h3, reciprocal_exact _ hA]
  simp [h, h3, hA, hD]

theorem double_hswShear_exact {g1 g2 km mum f : ℝ} (hz : km + 2 * mum ≠ 0)
    (hA : g1 + mum / 6 * (9 * km + 8 * mum) / (km + 2 * mum) ≠ 0)
    (hD : (g2 - g1)⁻¹ + f * (g1 + mum / 6 * (9 * km + 8 * mum) / (km + 2 * mum))⁻¹ ≠ 0) :
    hswShear (.fin g1) (.fin g2) (.fin km) (.fin mum) (.fin f) (.fin (1 - f)) =
      .ok (.fin (Double.walpoleShear id (fun a b => a ^ b) g1 g2 km mum f)) := by
  unfold hswShear Double.walpoleShear Double.walpole
  by_cases h : g1 = g2
  · simp [h]
  have h3 : g2 - g1 ≠ 0 := sub_ne_zero.mpr (Ne.symm h)
  simp only [id, if_neg h]
  rw [reciprocal_exact _ h3, reciprocal_exact _ hA]
  simp [h, h3, hA, hD, hz]

theorem double_hswDensity_exact (r1 r2 f : ℝ) :
    hswDensity (.fin r1) (.fin r2) (.fin f) (.fin (1 - f)) = .ok (.fin (Double.walpoleDensity id r1 r2 f)) := by
  unfold hswDensity Double.walpoleDensity
  by_cases h : r1 = r2
  · simp [h]
  · simp [h]

theorem double_sum_exact (xs : List ℝ) : Double.sum id xs = xs.sum := by
  unfold Double.sum
  simp only [id]
  rw [List.sum_eq_foldl]

theorem double_velocities_exact {K G ρ : ℝ} (hρ : ρ ≠ 0) (h : 0 ≤ (K + 4 / 3 * G) / ρ) (h' : 0 ≤ G / ρ) :
    calcVp (n := 1) (c K) (c G) (c ρ) = c (Double.primaryVelocity id (fun a b => a ^ b) K G ρ) ∧
      calcVs (n := 1) (c G) (c ρ) = c (Double.secondaryVelocity id (fun a b => a ^ b) G ρ) := by
  have e : (0.5 : ℝ) = 1 / 2 := by norm_num
  constructor
  · funext i
    unfold calcVp Double.primaryVelocity
    simp only [id, c_apply, Num.fin_mul, Num.fin_add, Num.fin_div _ hρ]
    rw [Num.fin_sqrt h, Real.sqrt_eq_rpow, e]
  · funext i
    unfold calcVs Double.secondaryVelocity
    simp only [id, c_apply, Num.fin_div _ hρ]
    rw [Num.fin_sqrt h', Real.sqrt_eq_rpow, e]

theorem double_sumToOne_exact (s : List ℝ) :
    sumSaturationsToOne (n := 1) (s.map c) = (Double.sumToOne id s).map c := by
  unfold sumSaturationsToOne Double.sumToOne
  have e : sumCols (n := 1) (s.map c) = c (Double.sum id s) := by
    rw [double_sum_exact, sumCols_eq_sum]
    induction s with
    | nil => rfl
    | cons a s ih => rw [List.map_cons, List.sum_cons, ih, List.sum_cons]; rfl
  simp only [e, id, List.map_map]
  refine List.map_congr_left fun x _ => ?_
  funext i
  simp only [Function.comp_apply, c_apply, Num.fin_maximum, Num.fin_lt]
  have h0 : max (Double.sum id s) 1e-15 ≠ 0 := ne_of_gt (lt_max_of_lt_right (by norm_num))
  split_ifs with h
  · rw [Num.fin_div _ h0]
  · rw [Num.fin_div _ h0]

theorem given_map_c (fs : List (Option ℝ)) :
    givenFractions (n := 1) (fs.map fun f => f.map c) = (fs.filterMap id).map c := by
  induction fs with
  | nil => rfl
  | cons a fs ih =>
    unfold givenFractions at ih ⊢
    cases a with
    | none => rw [List.map_cons, List.filterMap_cons_none (by rfl), List.filterMap_cons_none (by rfl), ih]
    | some x =>
      rw [List.map_cons, List.filterMap_cons_some (b := c x) (by rfl), List.filterMap_cons_some (b := x) (by rfl), ih,
        List.map_cons]

theorem sum_map_c (s : List ℝ) : sumCols (n := 1) (s.map c) = c (Double.sum id s) := by
  rw [double_sum_exact, sumCols_eq_sum]
  induction s with
  | nil => rfl
  | cons a s ih => rw [List.map_cons, List.sum_cons, ih, List.sum_cons]; rfl

theorem count_map_c (fs : List (Option ℝ)) : (fs.map fun f => f.map (c (n := 1))).count none = fs.count none := by
  induction fs with
  | nil => rfl
  | cons a fs ih =>
    rw [List.map_cons, List.count_cons, List.count_cons, ih]
    cases a <;> rfl

theorem double_fractionIsRatio_exact (f : ℝ) :
    fractionIsRatio (n := 1) (c f) = if Double.fractionIsRatio id f then .ok () else .error .valueError := by
  unfold fractionIsRatio Double.fractionIsRatio
  simp only [id, c_apply, Num.fin_lt, exists_const]
  by_cases h1 : f < -1e-5
  · rw [failIf_true h1, if_neg (fun h => h.1 h1)]; rfl
  · rw [failIf_false h1, bind_ok]
    by_cases h2 : 1 + 1e-5 < f
    · rw [failIf_true h2, if_neg (fun h => h.2 h2)]
    · rw [failIf_false h2, if_pos ⟨h1, h2⟩]

theorem double_fixOneFraction_exact (fs : List (Option ℝ)) :
    fixOneFraction (n := 1) (fs.map fun f => f.map c) =
      match Double.fixOneFraction id fs with
      | some gs => .ok (gs.map fun f => f.map c)
      | none => .error .valueError := by
  unfold fixOneFraction Double.fixOneFraction
  rw [given_map_c, sum_map_c, count_map_c]
  set T := Double.sum id (fs.filterMap id)
  have e : (c 1 - c T : Col 1) = c (1 - T) := by funext i; rfl
  dsimp only
  rw [e]
  simp only [id, c_apply, Num.fin_lt, exists_const]
  by_cases h1 : 1 + 1e-5 < T
  · rw [failIf_true h1, if_pos h1]; rfl
  rw [failIf_false h1, bind_ok, if_neg h1]
  by_cases h2 : fs.count none = 0
  · rw [if_pos h2, if_pos h2]
  rw [if_neg h2, if_neg h2]
  by_cases h3 : 1 < fs.count none
  · rw [failIf_true h3, if_pos h3]; rfl
  rw [failIf_false h3, bind_ok, if_neg h3, double_fractionIsRatio_exact]
  by_cases h4 : Double.fractionIsRatio id (1 - T)
  · rw [if_pos h4, bind_ok, if_pos h4]
    simp only [List.map_map]
    congr 1
    refine List.map_congr_left fun x _ => ?_
    cases x <;> rfl
  · rw [if_neg h4, bind_error, if_neg h4]

theorem double_mineralsAccepted_exact (fs : List (Option ℝ)) (m : Option ℝ → Mat 1) (hne : fs ≠ []) :
    (∃ r, mkMinerals (n := 1) (fs.map fun f => ⟨m f, f.map c⟩) = .ok r) ↔ Double.mineralsAccepted id fs := by
  unfold mkMinerals Double.mineralsAccepted
  have e1 : ((fs.map fun f => (⟨m f, f.map c⟩ : MineralIn 1)).map fun x => x.fraction) = fs.map fun f => f.map c := by
    rw [List.map_map]; rfl
  have e0 : (∀ f ∈ fs.filterMap id, Double.fractionIsRatio id f) ↔
      ((fs.map fun f => (⟨m f, f.map c⟩ : MineralIn 1)).forM fun x => match x.fraction with
        | none => (.ok () : Except Err Unit)
        | some f => fractionIsRatio f) = .ok () := by
    clear hne e1
    induction fs with
    | nil => exact ⟨fun _ => rfl, fun _ => by simp⟩
    | cons a fs ih =>
      rw [List.map_cons, List.forM_eq_forM, List.forM_cons]
      cases a with
      | none =>
        rw [List.filterMap_cons_none (by rfl), ih]
        exact ⟨fun h => h, fun h => h⟩
      | some x =>
        rw [List.filterMap_cons_some (b := x) (by rfl), List.forall_mem_cons, ih]
        simp only [Option.map_some]
        rw [double_fractionIsRatio_exact]
        by_cases h : Double.fractionIsRatio id x
        · rw [if_pos h]
          exact ⟨fun h => h.2, fun h' => ⟨h, h'⟩⟩
        · rw [if_neg h]
          exact ⟨fun h' => absurd h'.1 h, fun h' => by cases h'⟩
  rw [e1, double_fixOneFraction_exact]
  constructor
  · rintro ⟨r, h⟩
    obtain ⟨⟨⟩, h0, h⟩ := bind_eq_ok.mp h
    refine ⟨e0.mpr (by convert h0 using 4 with x; cases x.fraction <;> rfl), ?_⟩
    obtain ⟨_, -, h⟩ := bind_eq_ok.mp h
    obtain ⟨gs, hg, h⟩ := bind_eq_ok.mp h
    cases hx : Double.fixOneFraction id fs with
    | none => rw [hx] at hg; cases hg
    | some gs' =>
      rw [hx] at hg
      injection hg with hg
      subst hg
      refine ⟨gs', rfl, ?_⟩
      dsimp only at h
      rw [given_map_c, sum_map_c] at h
      obtain ⟨_, h, -⟩ := bind_eq_ok.mp h
      rw [failIf_ok_iff, not_not] at h
      obtain ⟨r, hr, h⟩ := h 0
      rw [c_apply] at hr
      injection hr with hr
      subst hr
      simp only [id, mul_one, abs_one] at h ⊢
      exact h
  · rintro ⟨h0, gs, hg, h⟩
    rw [hg]
    refine ⟨((fs.map fun f => (⟨m f, f.map c⟩ : MineralIn 1)).map fun x => x.mat).zip ((gs.filterMap id).map c), bind_eq_ok.mpr ⟨(), by convert e0.mp h0 using 4 with x; cases x.fraction <;> rfl, ?_⟩⟩
    rw [failIf_false (by simpa using hne), bind_ok, bind_ok]
    dsimp only
    rw [given_map_c, sum_map_c, failIf_false, bind_ok]
    rw [not_not]
    intro i
    refine ⟨_, c_apply _ _, ?_⟩
    simp only [id, mul_one, abs_one] at h ⊢
    exact h

end OPE
