import Verif.Props.Rounding36

/-!
# C194: patchy cement without rounding is the published formula
-/

namespace OPE

theorem patchyModulus_id (loose line lo up : ℝ) :
    Double.patchyModulus id loose line lo up = loose + Published.weight line lo up * (up - loose) := by
  unfold Double.patchyModulus Double.patchyWeight Published.weight
  simp only [id]

/-- A rock within a ratio of a positive one is positive. -/
theorem ratio_pos {R : ℕ} {a b : Published.Rock} (ha : 0 < a.K ∧ 0 < a.G ∧ 0 < a.ρ) (hb : 0 ≤ b.K ∧ 0 ≤ b.G ∧ 0 ≤ b.ρ)
    (h : WithinRatio R [a, b]) : 0 < b.K ∧ 0 < b.G ∧ 0 < b.ρ := by
  have hR0 : ∀ {x y : ℝ}, 0 < x → 0 ≤ y → x ≤ R * y → 0 < y := by
    intro x y hx hy hxy
    rcases hy.eq_or_lt with h0 | h0
    · rw [← h0, mul_zero] at hxy; linarith
    · exact h0
  have q := h a (by simp) b (by simp)
  exact ⟨hR0 ha.1 hb.1 q.1, hR0 ha.2.1 hb.2.1 q.2.1, hR0 ha.2.2 hb.2.2 q.2.2⟩

/-- Without rounding and with exact powers the model of patchy cement is the published formula. -/
theorem double_patchyCement_exact {sand cement : Published.Rock} {φ φcem φub P Plb φc f Cf Cc : ℝ} {R S T : ℕ}
    (h : PatchyInput sand cement φ φcem φub P Plb φc f Cf Cc R S T) :
    Double.patchyCement id (fun a b => a ^ b) (tri sand) (tri cement) φ φcem φub P Plb φc f Cf Cc =
      tri (Published.patchyCement sand cement φ φcem φub P Plb φc f Cf Cc) := by
  obtain ⟨pc0, pc1, pc2⟩ := h.part.porosity
  obtain ⟨pu0, pu1, -⟩ := h.full.porosity
  obtain ⟨φ0, φ1, φ2, φ3⟩ := h.porosity
  have hs := h.part.goodGrain
  have hc := h.part.goodCement
  have x0 : 0 ≤ φc - φub := by linarith
  have x1 : φc - φub ≤ 1 := by linarith
  have mixpos : 0 < (Published.lowerBound cement sand (φc - φub)).K ∧ 0 < (Published.lowerBound cement sand (φc - φub)).G ∧
      0 < (Published.lowerBound cement sand (φc - φub)).ρ := by
    have zm : 0 ≤ Published.zeta (min cement.K sand.K) (min cement.G sand.G) := by
      have := lt_min hc.1 hs.1
      have := lt_min hc.2.1 hs.2.1
      unfold Published.zeta; positivity
    have zg : 0 ≤ 4 / 3 * min cement.G sand.G := by have := lt_min hc.2.1 hs.2.1; positivity
    refine ⟨(lt_min hc.1 hs.1).trans_le (hs_pos hc.1 hs.1 zg x0 x1).1, (lt_min hc.2.1 hs.2.1).trans_le (hs_pos hc.2.1 hs.2.1 zm x0 x1).1, ?_⟩
    show 0 < (φc - φub) * cement.ρ + (1 - (φc - φub)) * sand.ρ
    rcases x0.eq_or_lt with h | h
    · rw [← h]; linarith [hs.2.2]
    · have := mul_pos h hc.2.2
      have := mul_nonneg (by linarith : 0 ≤ 1 - (φc - φub)) hs.2.2.le
      linarith
  have cc : ∀ {x : ℝ}, CementInput cement sand x φc f Cc →
      WithinRatio S [Published.lowerBound cement sand (φc - φub), Published.contactCement cement sand x φc f Cc] →
      0 < (Published.contactCement cement sand x φc f Cc).K ∧ 0 < (Published.contactCement cement sand x φc f Cc).G ∧
        0 < (Published.contactCement cement sand x φc f Cc).ρ := by
    intro x q w
    obtain ⟨⟨fl, hfl⟩, hp⟩ := exists_double
    have n := (contactCement_near hfl hp q.goodCement q.goodGrain q.porosity.2.1 q.porosity.2.2 q.contacts.1 q.contacts.2
      q.poissonGrain q.poissonCement q.stiff.1 q.stiff.2 q.heavy).1
    exact ratio_pos mixpos ⟨n.1.1, n.2.1.1, n.2.2.1⟩ w
  have pos : ∀ {p : ℝ}, Sensible (Published.lowerBound cement sand (φc - φub)).G φc p Cf → 0 < p := by
    intro p q
    have : 0 < Cf * (1 - φc) * (Published.lowerBound cement sand (φc - φub)).G :=
      mul_pos (mul_pos h.contacts (by linarith)) mixpos.2.1
    have := q.1
    norm_num at this
    linarith
  have y0 : 0 ≤ φ / φcem := div_nonneg φ0 pc0.le
  have y1 : φ / φcem ≤ 1 := (div_le_one pc0).mpr φ1
  have e1 := double_lowerBound_exact hc hs x0 x1
  have e2 := double_friableSand_exact mixpos φ0 (by linarith : φ ≤ φc) (by linarith) pc2 (pos h.loads.1) h.part.contacts.2 h.contacts
  have e3 := double_friableSand_exact mixpos φ0 (by linarith : φ ≤ φc) (by linarith) pc2 (pos h.loads.2) h.part.contacts.2 h.contacts
  have e4 := double_constantCement_exact hs hc (cc h.full h.ends.2.2.1) φ0 φ2 pu0 pu1.le pc2.le
  have e5 := double_contactCement_exact cement sand φcem φc f Cc
  have e6 := double_lowerBound_exact mixpos (cc h.part h.ends.2.2.2) (by linarith : 0 ≤ 1 - φ / φcem) (by linarith)
  unfold Double.patchyCement
  simp only [id]
  rw [e1, e2, e3, e4, e5, e6]
  refine Prod.ext ?_ (Prod.ext ?_ rfl)
  · exact patchyModulus_id _ _ _ _
  · exact patchyModulus_id _ _ _ _

end OPE
