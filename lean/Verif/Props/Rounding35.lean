import Verif.Props.Rounding34
import Verif.Props.Rounding14

/-!
# C192, C193: cemented sand without rounding is the published formula
-/

namespace OPE

theorem double_lowerBound_exact {a b : Published.Rock} (ha : 0 < a.K ∧ 0 < a.G ∧ 0 < a.ρ) (hb : 0 < b.K ∧ 0 < b.G ∧ 0 < b.ρ)
    {f : ℝ} (h0 : 0 ≤ f) (h1 : f ≤ 1) :
    Double.lowerBound id (fun a b => a ^ b) (tri a) (tri b) f = tri (Published.lowerBound a b f) := by
  have g : 0 < min a.G b.G := lt_min ha.2.1 hb.2.1
  have k : 0 < min a.K b.K := lt_min ha.1 hb.1
  have hz : 0 ≤ Published.zeta (min a.K b.K) (min a.G b.G) := by unfold Published.zeta; positivity
  have e1 := double_walpole_exact ha.1 hb.1 (z := 4 / 3 * min a.G b.G) (by positivity) h0 h1
  have e2 := double_walpole_exact ha.2.1 hb.2.1 hz h0 h1
  refine Prod.ext ?_ (Prod.ext ?_ ?_)
  · exact e1
  · refine Eq.trans ?_ e2
    unfold Double.lowerBound Double.walpoleShear Published.zeta
    simp only [id, tri]
    rw [← mul_div_assoc]
  · show Double.walpoleDensity id a.ρ b.ρ f = f * a.ρ + (1 - f) * b.ρ
    unfold Double.walpoleDensity
    split_ifs with h
    · rw [h]; ring
    · rfl

/-- Without rounding and with exact powers the model of contact cement is the published formula. -/
theorem double_contactCement_exact (cement grain : Published.Rock) (φ φc f C : ℝ) :
    Double.contactCement id (fun a b => a ^ b) (tri cement) (tri grain) φ φc f C =
      tri (Published.contactCement cement grain φ φc f C) := by
  have hr : Double.radiusRatio id (fun a b => a ^ b) φ φc = Published.radiusRatio φc φ := by
    unfold Double.radiusRatio Published.radiusRatio Published.cementRadius
    simp only [id]; norm_num
  have hv : ∀ K G : ℝ, Double.poisson id K G = Published.poisson K G := fun _ _ => rfl
  have hn : ∀ ν νc α : ℝ, Double.normalStiffness id (fun a b => a ^ b) ν νc cement.G grain.G α =
      Published.cementNormal ν νc grain.G cement.G α := fun _ _ _ => rfl
  have ht : ∀ ν α : ℝ, Double.shearStiffness id (fun a b => a ^ b) cement.G grain.G ν α =
      Published.cementTangential ν grain.G cement.G α := by
    intro ν α
    unfold Double.shearStiffness Published.cementTangential Double.quadratic
    simp only [id]
  unfold Double.contactCement
  simp only [tri, hr, hv, hn, ht]
  refine Prod.ext rfl (Prod.ext ?_ rfl)
  simp only [Published.contactCement, Published.cementedShear, Published.cementedBulk, id]
  ring

/-- Likewise constant cement, where the contact-cemented sand has positive moduli and density. -/
theorem double_constantCement_exact {sand cement : Published.Rock} {φ φcem φc f C : ℝ}
    (hs : 0 < sand.K ∧ 0 < sand.G ∧ 0 < sand.ρ) (hc : 0 < cement.K ∧ 0 < cement.G ∧ 0 < cement.ρ)
    (hcc : 0 < (Published.contactCement cement sand φcem φc f C).K ∧ 0 < (Published.contactCement cement sand φcem φc f C).G ∧
      0 < (Published.contactCement cement sand φcem φc f C).ρ) (hφ0 : 0 ≤ φ) (hφ : φ ≤ φcem) (h0 : 0 < φcem) (h1 : φcem ≤ φc)
    (h2 : φc ≤ 1) :
    Double.constantCement id (fun a b => a ^ b) (tri sand) (tri cement) φ φcem φc f C =
      tri (Published.constantCement sand cement φ φcem φc f C) := by
  have x0 : 0 ≤ φc - φcem := by linarith
  have x1 : φc - φcem ≤ 1 := by linarith
  have y0 : 0 ≤ φ / φcem := div_nonneg hφ0 h0.le
  have y1 : φ / φcem ≤ 1 := (div_le_one h0).mpr hφ
  unfold Double.constantCement
  simp only [id]
  rw [double_contactCement_exact, double_lowerBound_exact hc hs x0 x1]
  have zm : 0 ≤ Published.zeta (min cement.K sand.K) (min cement.G sand.G) := by
    have := lt_min hc.1 hs.1
    have := lt_min hc.2.1 hs.2.1
    unfold Published.zeta; positivity
  have zg : 0 ≤ 4 / 3 * min cement.G sand.G := by have := lt_min hc.2.1 hs.2.1; positivity
  refine double_lowerBound_exact ⟨?_, ?_, ?_⟩ hcc (by linarith) (by linarith)
  · exact (lt_min hc.1 hs.1).trans_le (hs_pos hc.1 hs.1 zg x0 x1).1
  · exact (lt_min hc.2.1 hs.2.1).trans_le (hs_pos hc.2.1 hs.2.1 zm x0 x1).1
  · show 0 < (φc - φcem) * cement.ρ + (1 - (φc - φcem)) * sand.ρ
    rcases x0.eq_or_lt with h | h
    · rw [← h]; linarith [hs.2.2]
    · have := mul_pos h hc.2.2
      have := mul_nonneg (by linarith : 0 ≤ 1 - (φc - φcem)) hs.2.2.le
      linarith

end OPE
