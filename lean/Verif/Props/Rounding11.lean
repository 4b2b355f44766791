import Verif.Props.Rounding9
import Verif.Props.Rounding10

/-!
# Cases that meet the hypotheses of C166–C172
-/

namespace OPE

open Classical

theorem walpole_exact {x1 x2 z f : ℝ} (h1 : 0 < x1) (h2 : 0 < x2) (hz : 0 ≤ z) (hf0 : 0 ≤ f) (hf1 : f ≤ 1) :
    Double.walpole id (fun a b => a ^ b) x1 x2 z f = Published.hashinShtrikman x1 x2 f z := by
  unfold Double.walpole
  split_ifs with h
  · subst h
    unfold Published.hashinShtrikman
    rw [← add_div, show f + (1 - f) = 1 by ring, one_div, inv_inv]; ring
  · simp only [id]
    rw [reciprocal_exact _ (sub_ne_zero.mpr (Ne.symm h)), reciprocal_exact _ (by linarith),
      hashinShtrikman_eq h1 h2 hz hf0 hf1 h]

/-- Without rounding, the loop over the minerals is the published average. -/
theorem mixLoop_exact : ∀ (L : List (Published.Rock × ℝ)) (_ : ∀ x ∈ L, (0 < x.1.K ∧ 0 < x.1.G) ∧ 0 ≤ x.2)
    (a : Published.Rock) (t : ℝ), 0 < a.K ∧ 0 < a.G → 0 ≤ t →
    Double.mixLoop id (fun a b => a ^ b) (tri a) t (L.map fun x => (tri x.1, x.2)) = tri (Published.addMinerals a t L) := by
  intro L
  induction L with
  | nil => intro _ a t _ _; rfl
  | cons x L ih =>
    intro hL a t ha ht
    obtain ⟨b, f⟩ := x
    have hb := (hL (b, f) List.mem_cons_self).1
    have hf : 0 ≤ f := (hL (b, f) List.mem_cons_self).2
    dsimp only at hb
    have hr : 0 ≤ (if t + f = 0 then (1:ℝ) else t / (t + f)) ∧ (if t + f = 0 then (1:ℝ) else t / (t + f)) ≤ 1 := by
      split_ifs with h
      · exact ⟨zero_le_one, le_rfl⟩
      · have : 0 < t + f := lt_of_le_of_ne (add_nonneg ht hf) (Ne.symm h)
        exact ⟨by positivity, (div_le_one this).mpr (by linarith)⟩
    have mG : 0 < min a.G b.G := lt_min ha.2 hb.2
    have mK : 0 < min a.K b.K := lt_min ha.1 hb.1
    have z2 : 0 ≤ Published.zeta (min a.K b.K) (min a.G b.G) := by unfold Published.zeta; positivity
    have w1 := hs_pos ha.1 hb.1 (by positivity : 0 ≤ 4 / 3 * min a.G b.G) hr.1 hr.2
    have w2 := hs_pos ha.2 hb.2 z2 hr.1 hr.2
    have step := ih (fun y hy => hL y (List.mem_cons_of_mem _ hy))
      (Published.lowerBound a b (if t + f = 0 then 1 else t / (t + f))) (t + f)
      ⟨(lt_min ha.1 hb.1).trans_le w1.1, (lt_min ha.2 hb.2).trans_le w2.1⟩ (add_nonneg ht hf)
    rw [List.map_cons, Published.addMinerals, ← step, Double.mixLoop]
    have e1 : Double.walpoleBulk id (fun a b => a ^ b) (tri a).1 (tri b).1 (min (tri a).2.1 (tri b).2.1)
        (if t + f = 0 then 1 else t / (t + f)) = (Published.lowerBound a b (if t + f = 0 then 1 else t / (t + f))).K :=
      walpole_exact ha.1 hb.1 (by show 0 ≤ 4 / 3 * min a.G b.G; positivity) hr.1 hr.2
    have e2 : Double.walpoleShear id (fun a b => a ^ b) (tri a).2.1 (tri b).2.1 (min (tri a).1 (tri b).1)
        (min (tri a).2.1 (tri b).2.1) (if t + f = 0 then 1 else t / (t + f)) =
          (Published.lowerBound a b (if t + f = 0 then 1 else t / (t + f))).G := by
      unfold Double.walpoleShear
      have : min (tri a).2.1 (tri b).2.1 / 6 * (9 * min (tri a).1 (tri b).1 + 8 * min (tri a).2.1 (tri b).2.1) /
          (min (tri a).1 (tri b).1 + 2 * min (tri a).2.1 (tri b).2.1) = Published.zeta (min a.K b.K) (min a.G b.G) := by
        unfold Published.zeta tri; rw [mul_div_assoc]
      simp only [id]
      rw [this]
      exact walpole_exact ha.2 hb.2 z2 hr.1 hr.2
    have e3 : Double.walpoleDensity id (tri a).2.2 (tri b).2.2 (if t + f = 0 then 1 else t / (t + f)) =
        (Published.lowerBound a b (if t + f = 0 then 1 else t / (t + f))).ρ := by
      unfold Double.walpoleDensity
      split_ifs with h h'
      · have h'' : a.ρ = b.ρ := h
        show b.ρ = _ * a.ρ + (1 - _) * b.ρ
        rw [h'']; ring
      · have h'' : a.ρ = b.ρ := h
        show b.ρ = _ * a.ρ + (1 - _) * b.ρ
        rw [h'']; ring
      · rfl
      · rfl
    simp only [id]
    unfold id at e1 e2 e3
    rw [e1, e2, e3]
    rfl

/-- There is a rounding function, and exact powers are accurate. -/
theorem exists_double : (∃ fl, RoundsToNearest fl) ∧ PowerAccurate (fun a b => a ^ b) :=
  ⟨exists_rounding, fun x y _ => by unfold Accurate; rw [sub_self, abs_zero]; positivity⟩

/-- brine and gas -/
noncomputable def roundFluids : List (Published.Fluid × ℝ) := [(⟨2.5e9, 1000⟩, 0.75), (⟨5e7, 200⟩, 0.25)]

/-- quartz and clay -/
noncomputable def roundClay : List (Published.Rock × ℝ) := [(⟨21e9, 7e9, 2600⟩, 0.25)]

noncomputable def roundQuartz : Published.Rock := ⟨37e9, 44e9, 2650⟩

example {fl : ℝ → ℝ} (hf : RoundsToNearest fl) :
    Accurate 7 (Published.wood roundFluids).K (Double.wood fl (rowsOf roundFluids)).1 := by
  have := (C166_wood hf roundFluids (by norm_num [roundFluids]) (by norm_num [roundFluids])
    (by norm_num [roundFluids]) (by norm_num [roundFluids]) (by norm_num [roundFluids])).1
  exact this.mono (by norm_num [roundFluids])

example {fl : ℝ → ℝ} {pw : ℝ → ℝ → ℝ} (hf : RoundsToNearest fl) (hp : PowerAccurate pw) :
    Accurate 20 (Published.brie [(⟨2.5e9, 1000⟩, 0.75)] [(⟨5e7, 200⟩, 0.25)] 3).K
      (Double.brie fl pw (rowsOf [(⟨2.5e9, 1000⟩, 0.75)]) (rowsOf [(⟨5e7, 200⟩, 0.25)]) 3).1 := by
  have := (C166_brie hf hp [(⟨2.5e9, 1000⟩, 0.75)] [(⟨5e7, 200⟩, 0.25)] 3 1 3 (by simp) (by simp) (by norm_num) (by norm_num)
    (by norm_num) (by norm_num) (by norm_num) (by norm_num) (by norm_num) (by norm_num)
    (by norm_num [Published.wood]) (by norm_num [Published.wood])).1
  exact this.mono (by norm_num)

/-- Nearly equal moduli and a tiny porosity. -/
example {fl : ℝ → ℝ} (hf : RoundsToNearest fl) :
    ∃ r, Double.gassmann fl (37e9 - 1) 37e9 2.5e9 1e-9 = some r ∧
      Accurate 9 (Published.gassmann (37e9 - 1) 37e9 2.5e9 1e-9) r :=
  C167_gassmann hf (by norm_num) (by norm_num) (by norm_num) (by norm_num) (by norm_num)

/-- Ten times a tenth, which does not sum to 1 in double arithmetic. -/
example {fl : ℝ → ℝ} (hf : RoundsToNearest fl) :
    Double.mineralsAccepted fl ((List.replicate 10 (fl 0.1)).map some) := by
  have h1 := Near.fl0 hf (by norm_num : (0:ℝ) ≤ 0.1)
  have h2 := abs_le.mp (h1.abs_le (by norm_num))
  have hu : unit ≤ 2e-16 := by unfold unit; norm_num
  have e : (List.replicate 10 (fl 0.1)).sum = 10 * fl 0.1 := by
    rw [List.sum_replicate, nsmul_eq_mul]; norm_num
  refine (C169_minerals hf _ (fun f h => ?_) (by simp)).1 ?_ ?_
  · rw [List.eq_of_mem_replicate h]; exact h1.nonneg
  · rw [e]; have := h2.1; norm_num at *; linarith
  · rw [e]; have := h2.2; norm_num at *; linarith

/-- Brine and gas in a sandstone of quartz and clay. -/
example {fl : ℝ → ℝ} {pw : ℝ → ℝ → ℝ} (hf : RoundsToNearest fl) (hp : PowerAccurate pw) :
    ∃ k ρ vp vs, Double.saturate fl pw (12e9, 10e9, 2100)
        (Double.mixLoop fl pw (tri roundQuartz) 0.75 (roundClay.map fun x => (tri x.1, x.2))).1
        (Double.wood fl (rowsOf roundFluids)) 0.2 = some (k, 10e9, ρ, vp, vs) ∧
      Accurate 1e5 (Published.gassmann 12e9 (Published.addMinerals roundQuartz 0.75 roundClay).K
        (Published.wood roundFluids).K 0.2) k := by
  have hbox : (21e9 : ℝ) ≤ (Published.addMinerals roundQuartz 0.75 roundClay).K := by
    have h := (hs_pos (x1 := 37e9) (x2 := 21e9) (z := 4 / 3 * min 44e9 7e9) (f := 0.75) (by norm_num) (by norm_num)
      (by norm_num) (by norm_num) (by norm_num)).1
    have e : (Published.addMinerals roundQuartz 0.75 roundClay).K =
        Published.hashinShtrikman 37e9 21e9 0.75 (4 / 3 * min 44e9 7e9) := by
      unfold roundClay roundQuartz Published.addMinerals Published.addMinerals Published.lowerBound
      norm_num
    rw [e]
    exact le_trans (by norm_num) h
  have hwood : (Published.wood roundFluids).K ≤ 1e9 := by
    unfold roundFluids Published.wood
    norm_num
  obtain ⟨k, ρ, vp, vs, h1, h2, -⟩ := C171_row hf hp (R := 7) (m := 1) (n := 2) roundQuartz 0.75 roundClay rfl (by norm_num)
    ⟨3, -2, by norm_num, by norm_num⟩ (by norm_num [roundClay]) (by norm_num [roundClay, roundQuartz])
    (by unfold WithinRatio; simp [roundClay, roundQuartz]; norm_num) (by norm_num) (by norm_num) roundFluids rfl
    (by norm_num [roundFluids]) (by norm_num [roundFluids]) (by norm_num [roundFluids]) (by norm_num)
    ⟨12e9, 10e9, 2100⟩ (by norm_num) (φ := 0.2) (by norm_num) (by norm_num)
    (by norm_num at *; linarith) (by norm_num at *; linarith)
  exact ⟨k, ρ, vp, vs, h1, h2.mono (by norm_num)⟩

end OPE
