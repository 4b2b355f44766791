import Verif.Props.Shapes

/-!
# C73: another combination of single values and columns that fails

Patchy cement at zero porosity: there the two bounds coincide, and with a column of cement fractions numpy
cannot broadcast the (empty) masked arrays.
-/

namespace OPE.Shapes

variable {n : ℕ}

/-- **C73 is false: patchy cement at zero porosity.** With a single porosity of zero, everything else given
once except the cement fraction, a column of two or more cement fractions raises `ValueError`, whatever the
column version gives. -/
theorem C73_refuted_patchy_zero (f : SPatchy n) (p : Val n) (mineral : SMat n) (hn : 2 ≤ n)
    {Kc Gc Rc Km Gm Rm φc ub pl sr N : Fin n → ℝ}
    (hcem : f.cement.toMat.Pos Kc Gc Rc) (hmin : mineral.toMat.Pos Km Gm Rm)
    (hφc : f.criticalPorosity.val = finC φc) (hub : f.upperBoundCementFraction.val = finC ub)
    (hpl : f.lowerBoundPressure.val = finC pl) (hsr : f.shearReduction.val = finC sr)
    (hN : f.coordinationNumber.val = finC N) (hrange : CementRange Gc Km Gm)
    (hφc1 : ∀ i, φc i < 1) (hub0 : ∀ i, 0 ≤ ub i) (hubc : ∀ i, ub i < φc i) (hpl0 : ∀ i, 0 < pl i)
    (hsr0 : ∀ i, 0 ≤ sr i) (hN0 : ∀ i, 0 < N i)
    (hb : patchyBase mineral f.cement (single 0) (f.criticalPorosity - f.upperBoundCementFraction)
      f.criticalPorosity f.shearReduction = false)
    (h1 : f.lowerBoundPressure.isCol = false) (h2 : f.coordinationNumber.isCol = false)
    (h3 : f.cementFraction.isCol = true) {m : Mat n}
    (hm : f.erase.evalMaterial p.val (c 0) mineral.toMat = .ok m) :
    f.evalMaterial p (single 0) mineral = .error .valueError := by
  have hm' : patchyCement mineral.toMat f.cement.toMat (c 0)
      (f.criticalPorosity - f.cementFraction).val (f.criticalPorosity - f.upperBoundCementFraction).val
      p.val f.lowerBoundPressure.val f.criticalPorosity.val
      f.shearReduction.val f.coordinationNumber.val (lit 9 : Val n).val = .ok m := hm
  unfold SPatchy.evalMaterial
  generalize hccp : f.criticalPorosity - f.cementFraction = ccp at hm' ⊢
  have hccpc : ccp.isCol = true := by rw [← hccp]; simp [h3]
  generalize hubp : f.criticalPorosity - f.upperBoundCementFraction = ubp at hm' hb ⊢
  have hubv : ubp.val = finC fun i => φc i - ub i := by
    rw [← hubp]; show (f.criticalPorosity.val - f.upperBoundCementFraction.val : Col n) = _
    rw [hφc, hub]; funext i; simp
  unfold patchyCement at hm'
  obtain ⟨dn, e1, hm'⟩ := bind_eq_ok.mp hm'
  obtain ⟨fr, e2, hm'⟩ := bind_eq_ok.mp hm'
  obtain ⟨lo, e3, hm'⟩ := bind_eq_ok.mp hm'
  obtain ⟨up, e4, hm'⟩ := bind_eq_ok.mp hm'
  obtain ⟨co, e5, hm'⟩ := bind_eq_ok.mp hm'
  obtain ⟨cn, e6, -⟩ := bind_eq_ok.mp hm'
  have take : ∀ {P : SMat n → Prop} {xs : Except Err (SMat n)} {x : Except Err (Mat n)} {r : Mat n},
      Agrees SMat.toMat P xs x → x = .ok r → ∃ a, xs = .ok a ∧ a.toMat = r ∧ P a := by
    intro P xs x r h hx
    subst hx
    cases xs with
    | error e => simp [Agrees] at h
    | ok a => exact ⟨a, rfl, h⟩
  -- the two bounds coincide
  have hfrac : (f.criticalPorosity.val - ubp.val : Col n) = finC ub := by
    rw [hφc, hubv]; funext i; simp
  obtain ⟨dn0, Kd, Gd, Rd, hd, hdp, -⟩ := C08_between_constituents (bound := "lower") hcem hmin (.inl rfl)
    (f := ub) hub0 (fun i => by linarith [hubc i, hφc1 i])
  have hdn : dn0 = dn := by
    rw [hfrac, hd] at e1; exact Except.ok.inj e1
  subst hdn
  have hlo : lo.bulk = dn0.bulk := by
    obtain ⟨l, _, Kf, Gf, _, _, _, hl, _, hlH, _, hz⟩ := C27_density_and_range (m := dn0) (φ := fun _ => 0)
      (φc := φc) (p := pl) (sr := sr) (N := N) hdp (fun _ => le_rfl)
      (fun i => by linarith [hub0 i, hubc i]) (fun i => by linarith [hub0 i, hubc i]) hφc1 hpl0 hsr0 hN0
    have : lo = l := by
      rw [hφc, hpl, hN, hsr] at e3
      exact Except.ok.inj (e3.symm.trans hl)
    subst this
    rw [hlH.1, hdp.has.1]
    funext i; simp [(hz i).2.2.1 rfl]
  have hup : up.bulk = dn0.bulk := by
    obtain ⟨d, cc, r0, r1, g1, g2, g3, -, g4, -⟩ := C32_end_points_defined (x := fun i => φc i - ub i) (g := φc)
      (sr := sr) (N := fun _ => 9) hcem hmin hrange (fun i => by linarith [hubc i])
      (fun i => by linarith [hub0 i]) hφc1 hsr0 (fun _ => by norm_num)
    have hdd : d = dn0 := by
      rw [hφc, hubv] at e1; exact Except.ok.inj (g1.symm.trans e1)
    have : up = r0 := by
      rw [hφc, hubv, hsr] at e4
      exact Except.ok.inj (e4.symm.trans g3)
    rw [this, g4, hdd]
  -- the shapes
  unfold patchyCementS
  obtain ⟨dn', e1', rfl, ⟨d1, d2, d3⟩, -, -⟩ := take (hswS_agrees f.cement mineral (f.criticalPorosity - ubp)) e1
  obtain ⟨fr', e2', rfl, -⟩ := take (friableSandS_agrees dn' (single 0) f.criticalPorosity p
    f.coordinationNumber f.shearReduction) e2
  obtain ⟨lo', e3', rfl, ⟨l1, -, -⟩, -, -⟩ := take (friableSandS_agrees dn' (single 0) f.criticalPorosity
    f.lowerBoundPressure f.coordinationNumber f.shearReduction) e3
  obtain ⟨up', e4', rfl, ⟨u1, -, -⟩, -, -⟩ := take (constantCementS_agrees mineral f.cement (single 0) ubp
    f.criticalPorosity (lit 9) f.shearReduction) e4
  obtain ⟨co', e5', rfl, ⟨c1, -, -⟩, -, -⟩ := take (contactCementS_agrees f.cement mineral ccp
    f.criticalPorosity f.shearReduction (lit 9)) e5
  obtain ⟨cn', e6', rfl, ⟨n1, -, -⟩, -, -⟩ := take (hswS_agrees dn' co' (lit 1 - single 0 / ccp)) e6
  simp only [e1', e2', e3', e4', e5', e6', bind_ok]
  have hl : lo'.bulk.isCol = false := by
    rw [l1]
    simp only [patchyBase, Bool.or_eq_false_iff] at hb
    simp [hb, h1, h2, d1, d2, single]
  have hu : up'.bulk.isCol = false := by
    rw [u1]
    simp only [patchyBase, Bool.or_eq_false_iff] at hb
    simp [hb, single]
  have hc : cn'.bulk.isCol = true := by
    rw [n1]; simp [hccpc]
  have heq : ∃ i, Num.eq (up'.bulk.val i) (lo'.bulk.val i) := by
    refine ⟨⟨0, by omega⟩, ?_⟩
    have a : up'.bulk.val = dn'.bulk.val := hup
    have b : lo'.bulk.val = dn'.bulk.val := hlo
    have k : dn'.bulk.val = finC Kd := hdp.has.1
    rw [a, b, k]
    simp [Num.eq]
  unfold patchyWeightS
  rw [failIf_false (by simp [hl, hu]), bind_ok, failIf_true ⟨by simp [hl], by simp [hu], hc, hn, heq⟩,
    bind_error, bind_error]

/-- Patchy cement with a column of two cement fractions, 4 % and 5 %, everything else given once. -/
noncomputable def exPatchyZeroS : SPatchy 2 :=
  ⟨quartzS 2, single 0.4, column (finC ![0.04, 0.05]), single 2e7, single 0.1, single 9, single 0.5⟩

/-- At porosity zero this patchy cement is defined on columns; with the porosity given once it raises
`ValueError`. -/
theorem C73_refuted_patchy_zero_example :
    (∃ m, exPatchyZeroS.erase.evalMaterial (c 1e7) (c 0) (quartzS 2).toMat = .ok m) ∧
    exPatchyZeroS.evalMaterial (single 1e7) (single 0) (quartzS 2) = .error .valueError := by
  have h : ∃ m, exPatchyZeroS.erase.evalMaterial (c 1e7) (c 0) (quartzS 2).toMat = .ok m := by
    obtain ⟨m, -, -, -, h, -⟩ := C75_patchy_cement_defined (φ := fun _ => 0)
      (ccp := fun i => 0.4 - (![0.04, 0.05] : Fin 2 → ℝ) i)
      (ub := fun _ => 0.4 - 0.1) (p := fun _ => 1e7) (plb := fun _ => 2e7) (crit := fun _ => 0.4)
      (sr := fun _ => 0.5) (Nf := fun _ => 9) (Nc := fun _ => 9) quartz_pos quartz_pos exCementRange
      (fun _ => by norm_num) (fun i => by fin_cases i <;> norm_num) (fun _ => by norm_num)
      (fun i => by fin_cases i <;> norm_num)
      (fun _ => by norm_num) (fun i => by fin_cases i <;> norm_num) (fun _ => by norm_num)
      (fun _ => by norm_num)
      (fun _ => by norm_num) (fun i => by norm_num) (fun _ => by norm_num)
      (fun _ => by norm_num) (fun _ => by norm_num)
    exact ⟨m, h⟩
  obtain ⟨m, hm⟩ := h
  exact ⟨⟨m, hm⟩, C73_refuted_patchy_zero exPatchyZeroS (single 1e7) (quartzS 2) le_rfl
    (φc := fun _ => 0.4) (ub := fun _ => 0.1) (pl := fun _ => 2e7) (sr := fun _ => 0.5) (N := fun _ => 9)
    quartz_pos quartz_pos rfl rfl rfl rfl rfl exCementRange (fun _ => by norm_num) (fun _ => by norm_num)
    (fun _ => by norm_num) (fun _ => by norm_num) (fun _ => by norm_num) (fun _ => by norm_num) rfl rfl rfl rfl
    hm⟩

end OPE.Shapes
