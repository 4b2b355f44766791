import Verif.Props.Sandstone

/-!
# Properties of the cement models (C29, C30, C32, C74, C75)
-/

namespace OPE

open Classical Spec

variable {n : ℕ}

/-! ### contact cement on finite numbers -/

/-- Shear stiffness for real arguments. -/
noncomputable def stR (gc gm ν α : ℝ) : ℝ :=
  -1e-2 * (2.26 * ν ^ 2 + 2.07 * ν + 2.3) *
      (gc / (Real.pi * gm)) ^ (0.079 * ν ^ 2 + 0.1754 * ν - 1.342) * α ^ 2
    + (0.0573 * ν ^ 2 + 0.0937 * ν + 0.202) *
      (gc / (Real.pi * gm)) ^ (0.0274 * ν ^ 2 + 0.0529 * ν - 0.8765) * α
    + 1e-4 * (9.654 * ν ^ 2 + 4.945 * ν + 3.1) *
      (gc / (Real.pi * gm)) ^ (0.01867 * ν ^ 2 + 0.4011 * ν - 1.8186)

/-- `aan` of the normal stiffness. -/
noncomputable def aanR (ν νc gc gm : ℝ) : ℝ :=
  2 * gc / (Real.pi * gm) * ((1 - ν) * (1 - νc) / (1 - 2 * νc))

/-- Normal stiffness for real arguments. -/
noncomputable def snR (ν νc gc gm α : ℝ) : ℝ :=
  -0.024153 * aanR ν νc gc gm ^ (-1.3646 : ℝ) * α ^ 2
    + 0.20405 * aanR ν νc gc gm ^ (-0.89008 : ℝ) * α
    + 0.00024649 * aanR ν νc gc gm ^ (-1.9864 : ℝ)

theorem aanR_pos {ν νc gc gm : ℝ} (hν : ν < 1/2) (hνc : νc < 1/2) (hc : 0 < gc) (hm : 0 < gm) :
    0 < aanR ν νc gc gm := by
  have h1 : 0 < 1 - ν := by linarith
  have h2 : 0 < 1 - νc := by linarith
  have h3 : 0 < 1 - 2 * νc := by linarith
  have := Real.pi_pos
  unfold aanR; positivity

theorem shearStiffness_fin {gc gm ν α : Fin n → ℝ} (hc : ∀ i, 0 < gc i) (hm : ∀ i, 0 < gm i) :
    shearStiffness (finC gc) (finC gm) (finC ν) (finC α)
      = finC fun i => stR (gc i) (gm i) (ν i) (α i) := by
  funext i
  have h1 : Real.pi * gm i ≠ 0 := (mul_pos Real.pi_pos (hm i)).ne'
  have h2 : 0 < gc i / (Real.pi * gm i) := div_pos (hc i) (mul_pos Real.pi_pos (hm i))
  simp only [shearStiffness, Pi.add_apply, Pi.mul_apply, Pi.div_apply, Pi.sub_apply, finC_apply,
    c_apply, Col.pow, Col.sq, Num.fin_mul, Num.fin_div _ h1, Num.fin_powi_two, Num.fin_add,
    Num.fin_sub, Num.fin_pow h2, stR]

theorem normalStiffness_fin {ν νc gc gm α : Fin n → ℝ} (hν : ∀ i, ν i < 1/2)
    (hνc : ∀ i, νc i < 1/2) (hc : ∀ i, 0 < gc i) (hm : ∀ i, 0 < gm i) :
    normalStiffness (finC ν) (finC νc) (finC gc) (finC gm) (finC α)
      = finC fun i => snR (ν i) (νc i) (gc i) (gm i) (α i) := by
  funext i
  have h1 : Real.pi * gm i ≠ 0 := (mul_pos Real.pi_pos (hm i)).ne'
  have h2 : 1 - 2 * νc i ≠ 0 := by have := hνc i; intro h; linarith
  have h3 : 0 < 2 * gc i / (Real.pi * gm i) * ((1 - ν i) * (1 - νc i) / (1 - 2 * νc i)) :=
    aanR_pos (hν i) (hνc i) (hc i) (hm i)
  simp only [normalStiffness, Pi.add_apply, Pi.mul_apply, Pi.div_apply, Pi.sub_apply, finC_apply,
    c_apply, Col.pow, Col.sq, Num.fin_mul, Num.fin_sub, Num.fin_div _ h1, Num.fin_div _ h2,
    Num.fin_powi_two, Num.fin_add, Num.fin_pow h3, snR, aanR]

/-- Bulk modulus of contact-cemented sand. -/
noncomputable def ccK (Kc Gc Km Gm x g N : ℝ) : ℝ :=
  1/6 * N * (1 - g) * (Kc + 4/3 * Gc) * snR (nuR Km Gm) (nuR Kc Gc) Gc Gm (crr x g)

/-- Shear modulus of contact-cemented sand. -/
noncomputable def ccG (Kc Gc Km Gm x g sr N : ℝ) : ℝ :=
  3/5 * ccK Kc Gc Km Gm x g N + sr * (3/20) * N * (1 - g) * Gc * stR Gc Gm (nuR Km Gm) (crr x g)

/-- Density of contact-cemented sand. -/
noncomputable def ccR (Rc Rm x g : ℝ) : ℝ := (1 - x) * (crr x g * Rc + (1 - crr x g) * Rm)

section contact
variable {cem san : Mat n} {Kc Gc Rc Km Gm Rm x g sr N : Fin n → ℝ}

theorem contactCement_eval (hc : cem.Pos Kc Gc Rc) (hm : san.Pos Km Gm Rm)
    (h0 : ∀ i, 0 ≤ x i) (hx : ∀ i, x i ≤ g i) (hg : ∀ i, g i < 1) :
    contactCement cem san (finC x) (finC g) (finC sr) (finC N) = mkModuli
      (finC fun i => ccK (Kc i) (Gc i) (Km i) (Gm i) (x i) (g i) (N i))
      (finC fun i => ccG (Kc i) (Gc i) (Km i) (Gm i) (x i) (g i) (sr i) (N i))
      (finC fun i => ccR (Rc i) (Rm i) (x i) (g i)) := by
  unfold contactCement
  rw [checkPorosities_eq, if_neg (by
    rintro ⟨i, hi⟩; exact not_badPorosities (h0 i) (hx i) (hg i).le hi), bind_ok,
    cementRadiusRatio_fin h0 hx hg, bind_ok]
  dsimp only
  rw [poisson_fin hc.has hc.bulk hc.shear, poisson_fin hm.has hm.bulk hm.shear, hc.has.2.1,
    hm.has.2.1, shearStiffness_fin hc.shear hm.shear,
    normalStiffness_fin (fun i => (nuR_lt _ _ (hm.bulk i) (hm.shear i)).1)
      (fun i => (nuR_lt _ _ (hc.bulk i) (hc.shear i)).1) hc.shear hm.shear, hc.has.2.2, hm.has.2.2]
  congr 1
  · funext i
    simp only [Mat.pModulus, hc.has.1, hc.has.2.1, Pi.add_apply, Pi.mul_apply, Pi.sub_apply,
      finC_apply, c_apply, Num.fin_mul, Num.fin_add, Num.fin_sub, ccK]
  · funext i
    simp only [Mat.pModulus, hc.has.1, hc.has.2.1, Pi.add_apply, Pi.mul_apply, Pi.sub_apply,
      finC_apply, c_apply, Num.fin_mul, Num.fin_add, Num.fin_sub, ccK, ccG]

/-- On success, contact cement of positive materials is finite. -/
theorem contactCement_has {cc : Mat n} (hc : cem.Pos Kc Gc Rc) (hm : san.Pos Km Gm Rm)
    (hg : ∀ i, g i ≠ 1)
    (h : contactCement cem san (finC x) (finC g) (finC sr) (finC N) = .ok cc) :
    (∀ i, 0 ≤ x i ∧ x i ≤ g i ∧ g i < 1) ∧
    cc.Has (fun i => ccK (Kc i) (Gc i) (Km i) (Gm i) (x i) (g i) (N i))
      (fun i => ccG (Kc i) (Gc i) (Km i) (Gm i) (x i) (g i) (sr i) (N i))
      (fun i => ccR (Rc i) (Rm i) (x i) (g i)) := by
  have hb : ∀ i, 0 ≤ x i ∧ x i ≤ g i ∧ g i < 1 := by
    have h' := h
    unfold contactCement at h'
    obtain ⟨u, hu, -⟩ := bind_eq_ok.mp h'
    intro i
    have := (checkPorosities_ok_iff _ _).mp hu i
    simp only [BadPorosities, finC_apply, Num.fin_lt, not_or, not_lt] at this
    obtain ⟨a, b, d, e, f⟩ := this
    exact ⟨e, f, lt_of_le_of_ne a (hg i)⟩
  refine ⟨hb, ?_⟩
  rw [contactCement_eval hc hm (fun i => (hb i).1) (fun i => (hb i).2.1) (fun i => (hb i).2.2)] at h
  obtain ⟨h1, h2, h3, -, -⟩ := C03_given_arguments_kept _ _ _ _ _ cc h
  exact ⟨h1 _ rfl, h2 _ rfl, h3 _ rfl⟩

end contact

/-! ### C74: contact cement is defined on the textbook domain -/

theorem rpow_ge_of_sq_le {a s d : ℝ} (ha : 0 < a) (hs1 : s ≤ 1) (hsa : s ^ 2 ≤ a)
    (hd0 : 0 ≤ d) (hd1 : d ≤ 1/2) : s ≤ a ^ d := by
  rcases le_total 1 a with h | h
  · exact hs1.trans (Real.one_le_rpow h hd0)
  · calc s ≤ Real.sqrt a := Real.le_sqrt_of_sq_le hsa
      _ = a ^ ((1:ℝ)/2) := Real.sqrt_eq_rpow a
      _ ≤ a ^ d := Real.rpow_le_rpow_of_exponent_ge ha h hd1

theorem snR_pos {ν νc gc gm α : ℝ} (hν : ν < 1/2) (hνc : νc < 1/2) (hνc' : -1 < νc) (hc : 0 < gc)
    (hm : 0 < gm) (hr : 0.04 * (Real.pi * gm) ≤ gc) (h0 : 0 ≤ α) (h1 : α ≤ 1) :
    0 < snR ν νc gc gm α := by
  have ha := aanR_pos hν hνc hc hm
  have hpm : 0 < Real.pi * gm := mul_pos Real.pi_pos hm
  have hge : (0.16:ℝ) ^ 2 ≤ aanR ν νc gc gm := by
    unfold aanR
    have e1 : 0.08 ≤ 2 * gc / (Real.pi * gm) := by
      rw [le_div_iff₀ hpm]; linarith
    have e2 : (1:ℝ)/3 ≤ (1 - ν) * (1 - νc) / (1 - 2 * νc) := by
      rw [le_div_iff₀ (by linarith)]
      nlinarith
    calc (0.16:ℝ) ^ 2 ≤ 0.08 * (1/3) := by norm_num
      _ ≤ _ := mul_le_mul e1 e2 (by norm_num) (by linarith)
  set a := aanR ν νc gc gm with hadef
  have hd : (0.16:ℝ) ≤ a ^ (0.47452:ℝ) :=
    rpow_ge_of_sq_le ha (by norm_num) hge (by norm_num) (by norm_num)
  have hsplit : a ^ (-0.89008:ℝ) = a ^ (-1.3646:ℝ) * a ^ (0.47452:ℝ) := by
    rw [← Real.rpow_add ha]; norm_num
  have p1 : 0 < a ^ (-1.3646:ℝ) := Real.rpow_pos_of_pos ha _
  have p2 : 0 < a ^ (-1.9864:ℝ) := Real.rpow_pos_of_pos ha _
  unfold snR
  rw [← hadef, hsplit]
  have key : 0 ≤ α * a ^ (-1.3646:ℝ) * (0.20405 * a ^ (0.47452:ℝ) - 0.024153 * α) := by
    refine mul_nonneg (mul_nonneg h0 p1.le) ?_
    nlinarith
  nlinarith

theorem stR_pos {ν gc gm α : ℝ} (hν0 : 0 ≤ ν) (hν : ν < 1/2) (hc : 0 < gc)
    (hm : 0 < gm) (hr : 0.04 * (Real.pi * gm) ≤ gc) (h0 : 0 ≤ α) (h1 : α ≤ 1) :
    0 < stR gc gm ν α := by
  have hpm : 0 < Real.pi * gm := mul_pos Real.pi_pos hm
  unfold stR
  set a := gc / (Real.pi * gm) with hadef
  have ha : 0 < a := div_pos hc hpm
  have hge : (0.2:ℝ) ^ 2 ≤ a := by rw [hadef, le_div_iff₀ hpm]; norm_num at hr ⊢; linarith
  set e1 := 0.079 * ν ^ 2 + 0.1754 * ν - 1.342 with he1
  set e2 := 0.0274 * ν ^ 2 + 0.0529 * ν - 0.8765 with he2
  have hd : (0.2:ℝ) ≤ a ^ (e2 - e1) :=
    rpow_ge_of_sq_le ha (by norm_num) hge (by rw [he1, he2]; nlinarith)
      (by rw [he1, he2]; nlinarith)
  have hsplit : a ^ e2 = a ^ e1 * a ^ (e2 - e1) := by
    rw [← Real.rpow_add ha]; congr 1; ring
  have p1 : 0 < a ^ e1 := Real.rpow_pos_of_pos ha _
  have p2 : 0 < a ^ (0.01867 * ν ^ 2 + 0.4011 * ν - 1.8186) := Real.rpow_pos_of_pos ha _
  have q2 : 0 < 1e-4 * (9.654 * ν ^ 2 + 4.945 * ν + 3.1) *
      a ^ (0.01867 * ν ^ 2 + 0.4011 * ν - 1.8186) := by positivity
  rw [hsplit]
  have key : 0 ≤ α * a ^ e1 * ((0.0573 * ν ^ 2 + 0.0937 * ν + 0.202) * a ^ (e2 - e1)
      - 1e-2 * (2.26 * ν ^ 2 + 2.07 * ν + 2.3) * α) := by
    refine mul_nonneg (mul_nonneg h0 p1.le) ?_
    have b1 : (0.0573 * ν ^ 2 + 0.0937 * ν + 0.202) * 0.2
        ≤ (0.0573 * ν ^ 2 + 0.0937 * ν + 0.202) * a ^ (e2 - e1) :=
      mul_le_mul_of_nonneg_left hd (by positivity)
    have b2 : 1e-2 * (2.26 * ν ^ 2 + 2.07 * ν + 2.3) * α
        ≤ 1e-2 * (2.26 * ν ^ 2 + 2.07 * ν + 2.3) * 1 :=
      mul_le_mul_of_nonneg_left h1 (by positivity)
    have b3 : 1e-2 * (2.26 * ν ^ 2 + 2.07 * ν + 2.3) * 1
        ≤ (0.0573 * ν ^ 2 + 0.0937 * ν + 0.202) * 0.2 := by
      norm_num; nlinarith
    linarith
  have e : -1e-2 * (2.26 * ν ^ 2 + 2.07 * ν + 2.3) * a ^ e1 * α ^ 2
      + (0.0573 * ν ^ 2 + 0.0937 * ν + 0.202) * (a ^ e1 * a ^ (e2 - e1)) * α
      = α * a ^ e1 * ((0.0573 * ν ^ 2 + 0.0937 * ν + 0.202) * a ^ (e2 - e1)
        - 1e-2 * (2.26 * ν ^ 2 + 2.07 * ν + 2.3) * α) := by ring
  rw [e]
  linarith

/-- Materials for which contact cement is well behaved: the sand has a non-negative Poisson ratio
(`3K ≥ 2G`) and the cement's shear modulus is at least `0.04 π ≈ 12.6 %` of the sand's. -/
structure CementRange (Gc Km Gm : Fin n → ℝ) : Prop where
  poisson : ∀ i, 2 * Gm i ≤ 3 * Km i
  stiff : ∀ i, 0.04 * (Real.pi * Gm i) ≤ Gc i

/-- **C74.** Contact cement never raises on its textbook domain and gives a material with positive
bulk modulus, shear modulus and density: positive cement and sand in `CementRange`, porosities
`0 ≤ cemented ≤ sand < 1`, coordination number > 0, shear reduction ≥ 0. -/
theorem C74_contact_cement_defined {cem san : Mat n} {Kc Gc Rc Km Gm Rm x g sr N : Fin n → ℝ}
    (hc : cem.Pos Kc Gc Rc) (hm : san.Pos Km Gm Rm) (hr : CementRange Gc Km Gm)
    (h0 : ∀ i, 0 ≤ x i) (hx : ∀ i, x i ≤ g i) (hg : ∀ i, g i < 1)
    (hs : ∀ i, 0 ≤ sr i) (hN : ∀ i, 0 < N i) :
    ∃ cc K G R, contactCement cem san (finC x) (finC g) (finC sr) (finC N) = .ok cc ∧
      cc.Pos K G R := by
  have hν0 : ∀ i, 0 ≤ nuR (Km i) (Gm i) := fun i => by
    unfold nuR
    have := hm.bulk i; have := hm.shear i; have := hr.poisson i
    exact div_nonneg (by linarith) (by positivity)
  have hk : ∀ i, 0 < ccK (Kc i) (Gc i) (Km i) (Gm i) (x i) (g i) (N i) := fun i => by
    obtain ⟨a, b, -⟩ := crr_range (hx i) (hg i)
    have := snR_pos (nuR_lt _ _ (hm.bulk i) (hm.shear i)).1 (nuR_lt _ _ (hc.bulk i) (hc.shear i)).1
      (nuR_lt _ _ (hc.bulk i) (hc.shear i)).2 (hc.shear i) (hm.shear i) (hr.stiff i) a b
    have h1 : 0 < 1 - g i := by linarith [hg i]
    have := hN i; have := hc.bulk i; have := hc.shear i
    unfold ccK; positivity
  have hgg : ∀ i, 0 < ccG (Kc i) (Gc i) (Km i) (Gm i) (x i) (g i) (sr i) (N i) := fun i => by
    obtain ⟨a, b, -⟩ := crr_range (hx i) (hg i)
    have := stR_pos (hν0 i) (nuR_lt _ _ (hm.bulk i) (hm.shear i)).1
      (hc.shear i) (hm.shear i) (hr.stiff i) a b
    have h1 : 0 < 1 - g i := by linarith [hg i]
    have := hN i; have := hc.shear i; have := hk i; have := hs i
    unfold ccG; positivity
  have hd : ∀ i, 0 < ccR (Rc i) (Rm i) (x i) (g i) := fun i => by
    obtain ⟨a, b, -⟩ := crr_range (hx i) (hg i)
    exact mul_pos (by linarith [hx i, hg i])
      (mix_density_pos (hc.density i) (hm.density i) a b)
  refine ⟨_, _, _, _, ?_, Mat.ofReal_has _ _ _, hk, hgg, hd⟩
  rw [contactCement_eval hc hm h0 hx hg]
  exact mkModuli_ofReal (fun i => (hk i).le) (fun i => (hgg i).le) hd

/-- Quartz cement on quartz sand is in the range. -/
theorem exCementRange : CementRange (n := 2) (fun _ => 44) (fun _ => 36.8) (fun _ => 44) :=
  ⟨fun _ => by norm_num, fun _ => by have := Real.pi_lt_four; linarith⟩

example := C74_contact_cement_defined (x := fun _ => 0.35) (g := fun _ => 0.4) (sr := fun _ => 0.5)
  (N := fun _ => 9) quartz_pos quartz_pos exCementRange (fun _ => by norm_num)
  (fun _ => by norm_num) (fun _ => by norm_num) (fun _ => by norm_num) (fun _ => by norm_num)

/-! ### C32 -/

/-- **C32.** Constant cement: with the dense packing and the contact-cemented sand defined (and the
latter of positive moduli), at porosity 0 it has the moduli and density of the dense packing, at the
contact-cement porosity those of the contact-cemented sand. -/
theorem C32_end_points {cem san dense cc : Mat n} {Kc Gc Rc Km Gm Rm x g K G R : Fin n → ℝ}
    {sr N : Col n}
    (hc : cem.Pos Kc Gc Rc) (hm : san.Pos Km Gm Rm) (hx0 : ∀ i, 0 < x i) (hx : ∀ i, x i ≤ g i)
    (hg : ∀ i, g i ≤ 1)
    (hd : hsw cem san (finC g - finC x) "lower" = .ok dense)
    (hcc : contactCement cem san (finC x) (finC g) sr N = .ok cc) (hp : cc.Pos K G R) :
    (∃ r, constantCement san cem (c 0) (finC x) (finC g) N sr = .ok r ∧ r.bulk = dense.bulk ∧
      r.shear = dense.shear ∧ r.density = dense.density) ∧
    (∃ r, constantCement san cem (finC x) (finC x) (finC g) N sr = .ok r ∧ r.bulk = cc.bulk ∧
      r.shear = cc.shear ∧ r.density = cc.density) := by
  have hf : (finC g - finC x : Col n) = finC fun i => g i - x i := by funext i; simp
  obtain ⟨d', Kd, Gd, Rd, hd', hdp, -⟩ := C08_between_constituents (bound := "lower") hc hm (.inl rfl)
    (f := fun i => g i - x i) (fun i => by linarith [hx i]) (fun i => by linarith [hx0 i, hg i])
  have hdd := hd
  rw [hf, hd'] at hdd
  injection hdd with hdd
  rw [hdd] at hdp
  obtain ⟨⟨r1, h1, h1'⟩, ⟨r0, h0, h0'⟩⟩ := C10_end_points hdp hp (bound := "lower") (.inl rfl)
  have e1 : (c 1 - c 0 / finC x : Col n) = c 1 := by
    funext i; simp [(hx0 i).ne']
  have e0 : (c 1 - finC x / finC x : Col n) = c 0 := by
    funext i; simp [(hx0 i).ne']
  constructor
  · refine ⟨r1, ?_, h1'⟩
    unfold constantCement
    rw [hd, bind_ok, hcc, bind_ok]; dsimp only; rw [e1, h1]
  · refine ⟨r0, ?_, h0'⟩
    unfold constantCement
    rw [hd, bind_ok, hcc, bind_ok]; dsimp only; rw [e0, h0]

/-- **C32 on the textbook domain:** all parts are defined, so both end points are. -/
theorem C32_end_points_defined {cem san : Mat n} {Kc Gc Rc Km Gm Rm x g sr N : Fin n → ℝ}
    (hc : cem.Pos Kc Gc Rc) (hm : san.Pos Km Gm Rm) (hr : CementRange Gc Km Gm)
    (hx0 : ∀ i, 0 < x i) (hx : ∀ i, x i ≤ g i)
    (hg : ∀ i, g i < 1) (hs : ∀ i, 0 ≤ sr i) (hN : ∀ i, 0 < N i) :
    ∃ dense cc r0 r1, hsw cem san (finC g - finC x) "lower" = .ok dense ∧
      contactCement cem san (finC x) (finC g) (finC sr) (finC N) = .ok cc ∧
      constantCement san cem (c 0) (finC x) (finC g) (finC N) (finC sr) = .ok r0 ∧
      constantCement san cem (finC x) (finC x) (finC g) (finC N) (finC sr) = .ok r1 ∧
      r0.bulk = dense.bulk ∧ r0.shear = dense.shear ∧ r0.density = dense.density ∧
      r1.bulk = cc.bulk ∧ r1.shear = cc.shear ∧ r1.density = cc.density := by
  have hf : (finC g - finC x : Col n) = finC fun i => g i - x i := by funext i; simp
  obtain ⟨cc, K, G, R, hcc, hp⟩ := C74_contact_cement_defined hc hm hr (fun i => (hx0 i).le) hx hg hs hN
  obtain ⟨d, Kd, Gd, Rd, hd, -, -⟩ := C08_between_constituents (bound := "lower") hc hm (.inl rfl)
    (f := fun i => g i - x i) (fun i => by linarith [hx i]) (fun i => by linarith [hx0 i, hg i])
  rw [← hf] at hd
  obtain ⟨⟨r1, h1, h1'⟩, ⟨r0, h0, h0'⟩⟩ := C32_end_points hc hm hx0 hx (fun i => (hg i).le) hd hcc hp
  exact ⟨d, cc, r1, r0, hd, hcc, h1, h0, h1'.1, h1'.2.1, h1'.2.2, h0'.1, h0'.2.1, h0'.2.2⟩

example := C32_end_points_defined (x := fun _ => 0.35) (g := fun _ => 0.4) (sr := fun _ => 0.5)
  (N := fun _ => 9) quartz_pos quartz_pos exCementRange (fun _ => by norm_num)
  (fun _ => by norm_num) (fun _ => by norm_num) (fun _ => by norm_num) (fun _ => by norm_num)

/-! ### C29 -/

theorem hswBulk_isFin {k1 k2 mum f1 f2 : ℝ} {r : Num}
    (h : hswBulk (.fin k1) (.fin k2) (.fin mum) (.fin f1) (.fin f2) = .ok r) : r.IsFin := by
  unfold hswBulk at h; split at h
  · injection h with h; exact ⟨_, h.symm⟩
  · rename_i hne
    simp only [Num.fin_eq] at hne
    have h1 : k2 - k1 ≠ 0 := sub_ne_zero.mpr (Ne.symm hne)
    by_cases h2 : k1 + 4/3 * mum = 0
    · simp [h1, h2, pyInv] at h
    · by_cases h3 : (k2 - k1)⁻¹ + f1 * (k1 + 4/3 * mum)⁻¹ = 0
      · simp [h1, h2, h3, pyDiv] at h
      · simp [h1, h2, h3] at h; exact ⟨_, h.symm⟩

theorem hswShear_isFin {g1 g2 km mum f1 f2 : ℝ} {r : Num}
    (h : hswShear (.fin g1) (.fin g2) (.fin km) (.fin mum) (.fin f1) (.fin f2) = .ok r) :
    r.IsFin := by
  unfold hswShear at h; split at h
  · injection h with h; exact ⟨_, h.symm⟩
  · rename_i hne
    simp only [Num.fin_eq] at hne
    have h1 : g2 - g1 ≠ 0 := sub_ne_zero.mpr (Ne.symm hne)
    by_cases h0 : km + 2 * mum = 0
    · simp [h1, h0, pyDiv] at h
    · by_cases h2 : g1 + mum / 6 * (9 * km + 8 * mum) / (km + 2 * mum) = 0
      · simp [h1, h0, h2, pyInv] at h
      · by_cases h3 : (g2 - g1)⁻¹ + f1 * (g1 + mum / 6 * (9 * km + 8 * mum) / (km + 2 * mum))⁻¹ = 0
        · simp [h1, h0, h2, h3, pyDiv] at h
        · simp [h1, h0, h2, h3] at h; exact ⟨_, h.symm⟩

/-- On success, the Walpole mix of finite materials with a finite ratio is finite, non-negative. -/
theorem hsw_has {m1 m2 r : Mat n} {K1 G1 R1 K2 G2 R2 f : Fin n → ℝ} {b : String}
    (h1 : m1.Has K1 G1 R1) (h2 : m2.Has K2 G2 R2) (h : hsw m1 m2 (finC f) b = .ok r) :
    ∃ K G R, r.Has K G R ∧ ∀ i, 0 ≤ K i ∧ 0 ≤ G i := by
  have hp : ∀ a b' : ℝ, (if b = "lower" then Num.minimum (.fin a) (.fin b')
      else Num.maximum (.fin a) (.fin b')) = .fin (pick b a b') := by
    intro a b; unfold pick; split <;> simp
  unfold hsw at h
  obtain ⟨-, -, h⟩ := bind_eq_ok.mp h
  obtain ⟨-, -, h⟩ := bind_eq_ok.mp h
  obtain ⟨d, hd, h⟩ := bind_eq_ok.mp h
  obtain ⟨k, hk, h⟩ := bind_eq_ok.mp h
  obtain ⟨g, hg, h⟩ := bind_eq_ok.mp h
  simp only [h1.1, h1.2.1, h1.2.2, h2.1, h2.2.1, h2.2.2, finC_apply, hp, Pi.sub_apply, c_apply,
    Num.fin_sub] at hd hk hg
  have fd : ∀ i, (d i).IsFin := fun i => by
    have := vec_ok_iff.mp hd i
    rw [hswDensity_fin] at this
    injection this with this; exact ⟨_, this.symm⟩
  have fk : ∀ i, (k i).IsFin := fun i => hswBulk_isFin (vec_ok_iff.mp hk i)
  have fg : ∀ i, (g i).IsFin := fun i => hswShear_isFin (vec_ok_iff.mp hg i)
  choose D hD using fd
  choose K hK using fk
  choose G hG using fg
  obtain ⟨e1, e2, e3, -, -⟩ := C03_given_arguments_kept _ _ _ _ _ r h
  have nn := C03_no_negative_property _ _ _ _ _ r h
  have e1' := e1 _ rfl
  have e2' := e2 _ rfl
  refine ⟨K, G, D, ⟨?_, ?_, ?_⟩, fun i => ?_⟩
  · rw [e1']; funext i; exact hK i
  · rw [e2']; funext i; exact hG i
  · rw [e3 _ rfl]; funext i; exact hD i
  · have := nn i
    rw [e1', e2', hK i, hG i] at this
    simp only [Num.fin_lt, not_lt] at this
    exact ⟨this.2.1, this.2.2.1⟩

/-- The weight of the cemented bound is a number in [0,1]. -/
theorem patchyWeight_fin (con low up : Fin n → ℝ) :
    ∃ w : Fin n → ℝ, patchyWeight (finC con) (finC low) (finC up) = finC w ∧
      ∀ i, 0 ≤ w i ∧ w i ≤ 1 := by
  refine ⟨fun i => min (max (if up i = low i then 1 else (con i - low i) / (up i - low i)) 0) 1,
    ?_, fun i => ⟨le_min (le_max_right _ _) zero_le_one, min_le_right _ _⟩⟩
  funext i
  unfold patchyWeight
  simp only [finC_apply, Num.fin_eq]
  by_cases h : up i = low i
  · simp [h, Num.clip]
  · have : up i - low i ≠ 0 := sub_ne_zero.mpr h
    simp [h, Num.clip, this]

/-- Finite, physically meaningful arguments of `patchy_cement`. -/
structure PatchyIn (san cem : Mat n) (Ks Gs Rs Kc Gc Rc ccp ub p plb crit sr Nf : Fin n → ℝ) :
    Prop where
  sand : san.Pos Ks Gs Rs
  cement : cem.Pos Kc Gc Rc
  contactPorosity : ∀ i, ccp i ≠ 0
  upperPorosity : ∀ i, ub i ≠ 0
  critical : ∀ i, crit i ≠ 1
  pressure : ∀ i, 0 ≤ p i
  lowerPressure : ∀ i, 0 ≤ plb i
  shearReduction : ∀ i, 0 ≤ sr i
  coordination : ∀ i, 0 < Nf i

theorem ratio_fin {φ φc : Fin n → ℝ} (h : ∀ i, φc i ≠ 0) :
    (c 1 - finC φ / finC φc : Col n) = finC fun i => 1 - φ i / φc i := by
  funext i; simp [h i]

/-- On success, friable sand of a positive material is finite. -/
theorem friableSand_has {m r : Mat n} {K G R φ φc p sr N : Fin n → ℝ} (h : m.Pos K G R)
    (hc0 : ∀ i, φc i ≠ 0) (hc1 : ∀ i, φc i < 1) (hp : ∀ i, 0 ≤ p i)
    (hs : ∀ i, 0 ≤ sr i) (hN : ∀ i, 0 < N i)
    (hr : friableSand m (finC φ) (finC φc) (finC p) (finC N) (finC sr) = .ok r) :
    ∃ K G R, r.Has K G R ∧ ∀ i, 0 ≤ K i ∧ 0 ≤ G i := by
  unfold friableSand at hr
  rw [hertzMindlin_fin h.has h.bulk h.shear h.density hc1 hp hs hN, bind_ok] at hr
  dsimp only at hr
  rw [ratio_fin hc0] at hr
  exact hsw_has h.has (Mat.ofReal_has _ _ _) hr

/-- The parts of a successful call of `patchy_cement`. -/
theorem patchy_parts {san cem m : Mat n}
    {Ks Gs Rs Kc Gc Rc φ ccp ub p plb crit sr Nf Nc : Fin n → ℝ}
    (hin : PatchyIn san cem Ks Gs Rs Kc Gc Rc ccp ub p plb crit sr Nf)
    (h : patchyCement san cem (finC φ) (finC ccp) (finC ub) (finC p) (finC plb) (finC crit) (finC sr)
      (finC Nf) (finC Nc) = .ok m) :
    (∀ i, 0 < crit i ∧ crit i < 1 ∧ 0 < ub i ∧ ub i ≤ crit i ∧ 0 < ccp i ∧ ccp i ≤ crit i) ∧
    ∃ dense friable lower upper contact constant Kd Gd Rd Kf Gf Rf Kl Gl Rl Ku Gu Ru Kn Gn Rn wk wm,
      hsw cem san (finC crit - finC ub) "lower" = .ok dense ∧
      friableSand dense (finC φ) (finC crit) (finC p) (finC Nf) (finC sr) = .ok friable ∧
      friableSand dense (finC φ) (finC crit) (finC plb) (finC Nf) (finC sr) = .ok lower ∧
      constantCement san cem (finC φ) (finC ub) (finC crit) (finC Nc) (finC sr) = .ok upper ∧
      contactCement cem san (finC ccp) (finC crit) (finC sr) (finC Nc) = .ok contact ∧
      hsw dense contact (c 1 - finC φ / finC ccp) "lower" = .ok constant ∧
      dense.Pos Kd Gd Rd ∧ friable.Has Kf Gf Rf ∧ lower.Has Kl Gl Rl ∧ upper.Has Ku Gu Ru ∧
      constant.Has Kn Gn Rn ∧ (∀ i, (0 ≤ Kf i ∧ 0 ≤ Gf i) ∧ (0 ≤ Ku i ∧ 0 ≤ Gu i)) ∧
      patchyWeight constant.bulk lower.bulk upper.bulk = finC wk ∧
      patchyWeight constant.shear lower.shear upper.shear = finC wm ∧
      (∀ i, (0 ≤ wk i ∧ wk i ≤ 1) ∧ (0 ≤ wm i ∧ wm i ≤ 1)) ∧
      m.Has (fun i => Kf i + wk i * (Ku i - Kf i)) (fun i => Gf i + wm i * (Gu i - Gf i))
        (fun i => (1 - φ i - (crit i - ccp i)) * Rs i + (crit i - ccp i) * Rc i) ∧
      mkModuli (finC fun i => Kf i + wk i * (Ku i - Kf i)) (finC fun i => Gf i + wm i * (Gu i - Gf i))
        (finC fun i => (1 - φ i - (crit i - ccp i)) * Rs i + (crit i - ccp i) * Rc i) = .ok m := by
  unfold patchyCement at h
  obtain ⟨dense, hd, h⟩ := bind_eq_ok.mp h
  obtain ⟨friable, hf, h⟩ := bind_eq_ok.mp h
  obtain ⟨lower, hl, h⟩ := bind_eq_ok.mp h
  obtain ⟨upper, hu, h⟩ := bind_eq_ok.mp h
  obtain ⟨contact, hct, h⟩ := bind_eq_ok.mp h
  obtain ⟨constant, hcn, h⟩ := bind_eq_ok.mp h
  -- bounds of the porosities, from the checks of contact cement
  obtain ⟨hb1, hcth⟩ := contactCement_has hin.cement hin.sand hin.critical hct
  have hu' := hu
  unfold constantCement at hu'
  obtain ⟨dense', hd', hu'⟩ := bind_eq_ok.mp hu'
  obtain ⟨cc, hcc, hu'⟩ := bind_eq_ok.mp hu'
  obtain ⟨hb2, hcch⟩ := contactCement_has hin.cement hin.sand hin.critical hcc
  have hub : ∀ i, 0 < ub i := fun i => lt_of_le_of_ne (hb2 i).1 (hin.upperPorosity i).symm
  have hccp : ∀ i, 0 < ccp i := fun i => lt_of_le_of_ne (hb1 i).1 (hin.contactPorosity i).symm
  have hcrit0 : ∀ i, 0 < crit i := fun i => lt_of_lt_of_le (hub i) (hb2 i).2.1
  have hcrit1 : ∀ i, crit i < 1 := fun i => (hb2 i).2.2
  refine ⟨fun i => ⟨hcrit0 i, hcrit1 i, hub i, (hb2 i).2.1, hccp i, (hb1 i).2.1⟩, ?_⟩
  have hfr : (finC crit - finC ub : Col n) = finC fun i => crit i - ub i := by funext i; simp
  obtain ⟨d', Kd, Gd, Rd, hdd, hdp, -⟩ := C08_between_constituents (bound := "lower") hin.cement
    hin.sand (.inl rfl) (f := fun i => crit i - ub i) (fun i => by linarith [(hb2 i).2.1])
    (fun i => by linarith [hub i, hcrit1 i])
  have hd2 := hd
  rw [hfr, hdd] at hd2
  injection hd2 with hd2
  rw [hd2] at hdp
  obtain ⟨Kf, Gf, Rf, hfH, hf0⟩ := friableSand_has hdp (fun i => (hcrit0 i).ne') hcrit1 hin.pressure
    hin.shearReduction hin.coordination hf
  obtain ⟨Kl, Gl, Rl, hlH, hl0⟩ := friableSand_has hdp (fun i => (hcrit0 i).ne') hcrit1
    hin.lowerPressure hin.shearReduction hin.coordination hl
  rw [hd] at hd'
  injection hd' with hd'
  rw [← hd'] at hu'
  dsimp only at hu'
  rw [ratio_fin hin.upperPorosity] at hu'
  obtain ⟨Ku, Gu, Ru, huH, hu0⟩ := hsw_has hdp.has hcch hu'
  have hcn' := hcn
  rw [ratio_fin hin.contactPorosity] at hcn'
  obtain ⟨Kn, Gn, Rn, hnH, hn0⟩ := hsw_has hdp.has hcth hcn'
  obtain ⟨wk, hwk, hwk0⟩ := patchyWeight_fin Kn Kl Ku
  obtain ⟨wm, hwm, hwm0⟩ := patchyWeight_fin Gn Gl Gu
  dsimp only at h
  rw [hnH.1, hnH.2.1, hlH.1, hlH.2.1, huH.1, huH.2.1, hfH.1, hfH.2.1, hwk, hwm, hin.sand.has.2.2,
    hin.cement.has.2.2] at h
  have hmk : mkModuli (finC fun i => Kf i + wk i * (Ku i - Kf i))
      (finC fun i => Gf i + wm i * (Gu i - Gf i))
      (finC fun i => (1 - φ i - (crit i - ccp i)) * Rs i + (crit i - ccp i) * Rc i) = .ok m := by
    rw [← h]
    congr 1
  obtain ⟨e1, e2, e3, -, -⟩ := C03_given_arguments_kept _ _ _ _ _ m hmk
  refine ⟨dense, friable, lower, upper, contact, constant, Kd, Gd, Rd, Kf, Gf, Rf, Kl, Gl, Rl, Ku, Gu,
    Ru, Kn, Gn, Rn, wk, wm, hd, hf, hl, hu, hct, hcn, hdp, hfH, hlH, huH, hnH,
    fun i => ⟨hf0 i, hu0 i⟩, ?_, ?_, fun i => ⟨hwk0 i, hwm0 i⟩, ⟨e1 _ rfl, e2 _ rfl, e3 _ rfl⟩, hmk⟩
  · rw [hnH.1, hlH.1, huH.1, hwk]
  · rw [hnH.2.1, hlH.2.1, huH.2.1, hwm]

theorem between_of_weight {a b w : ℝ} (h0 : 0 ≤ w) (h1 : w ≤ 1) : Between a b (a + w * (b - a)) := by
  rcases le_total a b with h | h
  · simp only [Between, min_eq_left h, max_eq_right h]
    constructor <;> nlinarith
  · simp only [Between, min_eq_right h, max_eq_left h]
    constructor <;> nlinarith

/-- **C29.** Whenever `patchy_cement` succeeds on finite, physically meaningful arguments, bulk and
shear modulus of the result lie between those of the friable sand (of the dense packing, at the given
pressure) and those of the constant-cement upper bound, and the density is
`(1-φ-c) ρ_sand + c ρ_cement` with `c` = critical porosity − contact-cement porosity. -/
theorem C29_between_friable_and_cemented {san cem m : Mat n}
    {Ks Gs Rs Kc Gc Rc φ ccp ub p plb crit sr Nf Nc : Fin n → ℝ}
    (hin : PatchyIn san cem Ks Gs Rs Kc Gc Rc ccp ub p plb crit sr Nf)
    (h : patchyCement san cem (finC φ) (finC ccp) (finC ub) (finC p) (finC plb) (finC crit) (finC sr)
      (finC Nf) (finC Nc) = .ok m) :
    ∃ dense friable upper Kf Gf Rf Ku Gu Ru K G,
      hsw cem san (finC crit - finC ub) "lower" = .ok dense ∧
      friableSand dense (finC φ) (finC crit) (finC p) (finC Nf) (finC sr) = .ok friable ∧
      constantCement san cem (finC φ) (finC ub) (finC crit) (finC Nc) (finC sr) = .ok upper ∧
      friable.Has Kf Gf Rf ∧ upper.Has Ku Gu Ru ∧
      m.Has K G (fun i => (1 - φ i - (crit i - ccp i)) * Rs i + (crit i - ccp i) * Rc i) ∧
      ∀ i, Between (Kf i) (Ku i) (K i) ∧ Between (Gf i) (Gu i) (G i) := by
  obtain ⟨-, dense, friable, lower, upper, contact, constant, Kd, Gd, Rd, Kf, Gf, Rf, Kl, Gl, Rl, Ku,
    Gu, Ru, Kn, Gn, Rn, wk, wm, hd, hf, hl, hu, hct, hcn, hdp, hfH, hlH, huH, hnH, hnn, hwk, hwm, hw,
    hm, -⟩ := patchy_parts hin h
  exact ⟨dense, friable, upper, Kf, Gf, Rf, Ku, Gu, Ru, _, _, hd, hf, hu, hfH, huH, hm,
    fun i => ⟨between_of_weight (hw i).1.1 (hw i).1.2, between_of_weight (hw i).2.1 (hw i).2.2⟩⟩

/-! ### C30 -/

theorem posInf_not_lt (x : Num) : ¬ Num.posInf < x := by
  cases x <;> exact fun h => h

/-- The constructor accepts non-negative finite moduli and density (also density 0). -/
theorem mkModuli_nonneg {K G ρ : Fin n → ℝ} (hK : ∀ i, 0 ≤ K i) (hG : ∀ i, 0 ≤ G i)
    (hρ : ∀ i, 0 ≤ ρ i) : ∃ m, mkModuli (finC K) (finC G) (finC ρ) = .ok m ∧ m.Has K G ρ := by
  refine ⟨⟨finC K, finC G, finC ρ, calcVp (finC K) (finC G) (finC ρ), calcVs (finC G) (finC ρ)⟩, ?_,
    rfl, rfl, rfl⟩
  have hc : checkMaterial ⟨finC K, finC G, finC ρ, calcVp (finC K) (finC G) (finC ρ),
      calcVs (finC G) (finC ρ)⟩ = .ok () := by
    rw [checkMaterial_ok_iff]
    have key : ∀ i, ¬ calcVp (finC K) (finC G) (finC ρ) i < Num.fin 0 ∧
        ¬ calcVs (finC G) (finC ρ) i < Num.fin 0 ∧ ¬ calcVp (finC K) (finC G) (finC ρ) i <
          Num.fin (Real.sqrt (4/3)) * calcVs (finC G) (finC ρ) i := by
      intro i
      simp only [calcVp, calcVs, finC_apply, Num.fin_mul, Num.fin_add]
      rcases (hρ i).eq_or_lt with h0 | h0
      · rw [← h0, Num.fin_div_eq, Num.fin_div_eq, if_pos rfl, if_pos rfl]
        have c2 : 0 ≤ K i + 4/3 * G i := by have := hK i; have := hG i; positivity
        rcases c2.eq_or_lt with h1 | h1
        · rw [← h1]
          have : G i = 0 := by have := hK i; have := hG i; linarith
          rw [this]; simp [Num.infSigned, Num.sqrt]
          refine ⟨fun h => h, fun h => h⟩
        · have e : Num.infSigned (K i + 4/3 * G i) = Num.posInf := by simp [Num.infSigned, h1]
          rw [e]
          refine ⟨fun h => h, ?_, ?_⟩
          · unfold Num.infSigned; split_ifs <;> (intro h; exact h)
          · exact posInf_not_lt _
      · have h1 : 0 ≤ (K i + 4/3 * G i) / ρ i :=
          div_nonneg (add_nonneg (hK i) (mul_nonneg (by norm_num) (hG i))) h0.le
        have h2 : 0 ≤ G i / ρ i := div_nonneg (hG i) h0.le
        rw [Num.fin_div _ h0.ne', Num.fin_div _ h0.ne', Num.fin_sqrt h1, Num.fin_sqrt h2]
        simp only [Num.fin_lt, Num.fin_mul, not_lt]
        refine ⟨Real.sqrt_nonneg _, Real.sqrt_nonneg _, ?_⟩
        rw [← Real.sqrt_mul (by norm_num)]
        refine Real.sqrt_le_sqrt ?_
        have : 0 ≤ K i / ρ i := div_nonneg (hK i) h0.le
        have e : (K i + 4/3 * G i) / ρ i = K i / ρ i + 4/3 * (G i / ρ i) := by ring
        rw [e]; linarith
    refine ⟨fun i => ?_, fun i => ?_, fun i => ?_, fun i => (key i).1, fun i => (key i).2.1,
      fun i => (key i).2.2⟩ <;> simp only [finC_apply, Num.fin_lt, not_lt]
    exacts [hρ i, hK i, hG i]
  simp only [mkModuli, mkMaterial, setDefaults, bind_ok, hc]

theorem min_mono_right {a b b' : ℝ} (h : b ≤ b') : min a b ≤ min a b' := min_le_min le_rfl h

/-- **C30 (friable sand).** Raising the pressure never lowers the bulk or shear modulus. -/
theorem C30_friable_monotone {m : Mat n} {K G R φ φc p q sr N : Fin n → ℝ}
    (h : m.Pos K G R) (hφ0 : ∀ i, 0 ≤ φ i) (hφ : ∀ i, φ i ≤ φc i)
    (hc0 : ∀ i, 0 < φc i) (hc1 : ∀ i, φc i < 1) (hp : ∀ i, 0 < p i) (hpq : ∀ i, p i ≤ q i)
    (hs : ∀ i, 0 ≤ sr i) (hN : ∀ i, 0 < N i) :
    ∃ r s Kr Gr Ks Gs Rr, friableSand m (finC φ) (finC φc) (finC p) (finC N) (finC sr) = .ok r ∧
      friableSand m (finC φ) (finC φc) (finC q) (finC N) (finC sr) = .ok s ∧
      r.Has Kr Gr Rr ∧ s.Has Ks Gs Rr ∧ ∀ i, Kr i ≤ Ks i ∧ Gr i ≤ Gs i := by
  have hq : ∀ i, 0 < q i := fun i => lt_of_lt_of_le (hp i) (hpq i)
  refine ⟨_, _, _, _, _, _, _, friableSand_fin h hφ0 hφ hc0 hc1 hp hs hN,
    friableSand_fin h hφ0 hφ hc0 hc1 hq hs hN, Mat.ofReal_has _ _ _, Mat.ofReal_has _ _ _,
    fun i => ?_⟩
  have hpk := hertzMindlin_pos h hc1 hp hs hN
  have hqk := hertzMindlin_pos h hc1 hq hs hN
  have kp := hpk.bulk i
  have gp := hpk.shear i
  have kq := hqk.bulk i
  have gq := hqk.shear i
  have hK := h.bulk i
  have hG := h.shear i
  have f0 : 0 ≤ 1 - φ i / φc i := by have := div_le_one_of_le₀ (hφ i) (hc0 i).le; linarith
  have f1 : 1 - φ i / φc i ≤ 1 := by have := div_nonneg (hφ0 i) (hc0 i).le; linarith
  have hpow : p i ^ ((1:ℝ)/3) ≤ q i ^ ((1:ℝ)/3) := Real.rpow_le_rpow (hp i).le (hpq i) (by norm_num)
  have kpq : hmK (K i) (G i) (φc i) (p i) (N i) ≤ hmK (K i) (G i) (φc i) (q i) (N i) := by
    obtain ⟨e, pos⟩ := hmK_factor hK hG (hc1 i) (hN i) (hp i).le
    obtain ⟨e', -⟩ := hmK_factor hK hG (hc1 i) (hN i) (hq i).le
    rw [e, e']; exact mul_le_mul_of_nonneg_left hpow pos.le
  have gpq : hmG (K i) (G i) (φc i) (p i) (N i) (sr i) ≤ hmG (K i) (G i) (φc i) (q i) (N i) (sr i) := by
    obtain ⟨e, pos⟩ := hmG_factor hK hG (hc1 i) (hN i) (hp i).le (hs i)
    obtain ⟨e', -⟩ := hmG_factor hK hG (hc1 i) (hN i) (hq i).le (hs i)
    rw [e, e']; exact mul_le_mul_of_nonneg_left hpow pos.le
  have key : ∀ a b b' z z' : ℝ, 0 < a → 0 < b → 0 ≤ z → b ≤ b' → z ≤ z' →
      hsReal a b z (1 - φ i / φc i) ≤ hsReal a b' z' (1 - φ i / φc i) := by
    intro a b b' z z' ha hb hz hbb hzz
    exact (hsReal_mono_b (by linarith) (by linarith) (hsReal_D (by linarith) (by linarith) f0 f1)
      f0 f1 hbb).trans (hsReal_mono_z (by linarith) (by linarith) f0 f1 hzz)
  constructor
  · exact key _ _ _ _ _ hK kp (mul_nonneg (by norm_num) (lt_min hG gp).le) kpq
      (mul_le_mul_of_nonneg_left (min_mono_right gpq) (by norm_num))
  · exact key _ _ _ _ _ hG gp (zShear_nonneg (lt_min hK kp).le (lt_min hG gp).le) gpq
      (zShear_mono (lt_min hK kp) (lt_min hG gp).le (min_mono_right kpq) (min_mono_right gpq))

/-- **C30 (patchy cement).** If `patchy_cement` succeeds at pressure `p` it succeeds at every higher
pressure `q`, and neither bulk nor shear modulus is lower there (positive materials, porosity between
0 and critical porosity). -/
theorem C30_patchy_monotone {san cem m : Mat n}
    {Ks Gs Rs Kc Gc Rc φ ccp ub p q plb crit sr Nf Nc : Fin n → ℝ}
    (hin : PatchyIn san cem Ks Gs Rs Kc Gc Rc ccp ub p plb crit sr Nf)
    (hφ0 : ∀ i, 0 ≤ φ i) (hφ : ∀ i, φ i ≤ crit i) (hpq : ∀ i, p i ≤ q i)
    (h : patchyCement san cem (finC φ) (finC ccp) (finC ub) (finC p) (finC plb) (finC crit) (finC sr)
      (finC Nf) (finC Nc) = .ok m) :
    ∃ m' K G R K' G', patchyCement san cem (finC φ) (finC ccp) (finC ub) (finC q) (finC plb)
        (finC crit) (finC sr) (finC Nf) (finC Nc) = .ok m' ∧
      m.Has K G R ∧ m'.Has K' G' R ∧ ∀ i, K i ≤ K' i ∧ G i ≤ G' i := by
  obtain ⟨hpor, dense, friable, lower, upper, contact, constant, Kd, Gd, Rd, Kf, Gf, Rf, Kl, Gl, Rl, Ku,
    Gu, Ru, Kn, Gn, Rn, wk, wm, hd, hf, hl, hu, hct, hcn, hdp, hfH, hlH, huH, hnH, hnn, hwk, hwm, hw,
    hm, hmk⟩ := patchy_parts hin h
  have hρ : ∀ i, 0 ≤ (1 - φ i - (crit i - ccp i)) * Rs i + (crit i - ccp i) * Rc i := fun i => by
    have := (C03_no_negative_property _ _ _ _ _ m hmk i).1
    rw [hm.2.2] at this
    simpa using this
  have hp : ∀ i, 0 < p i := by
    intro i
    rcases (hin.pressure i).eq_or_lt with h0 | h0
    · have := C27_zero_pressure hdp hφ0 hφ (fun i => (hpor i).1) (fun i => (hpor i).2.1) hin.pressure
        hin.shearReduction hin.coordination i h0.symm
      rw [hf] at this; cases this
    · exact h0
  obtain ⟨r, s, Kr, Gr, Kq, Gq, Rq, hr, hs, hrH, hsH, hle⟩ := C30_friable_monotone hdp hφ0 hφ
    (fun i => (hpor i).1) (fun i => (hpor i).2.1) hp hpq hin.shearReduction hin.coordination
  have hrf : r = friable := by rw [hf] at hr; injection hr with hr; exact hr.symm
  rw [hrf] at hrH
  have eK : Kr = Kf := finC_injective (hrH.1.symm.trans hfH.1)
  have eG : Gr = Gf := finC_injective (hrH.2.1.symm.trans hfH.2.1)
  rw [eK, eG] at hle
  have leK : ∀ i, Kf i + wk i * (Ku i - Kf i) ≤ Kq i + wk i * (Ku i - Kq i) := fun i => by
    nlinarith [mul_nonneg (sub_nonneg.mpr (hw i).1.2) (sub_nonneg.mpr (hle i).1)]
  have leG : ∀ i, Gf i + wm i * (Gu i - Gf i) ≤ Gq i + wm i * (Gu i - Gq i) := fun i => by
    nlinarith [mul_nonneg (sub_nonneg.mpr (hw i).2.2) (sub_nonneg.mpr (hle i).2)]
  have posK : ∀ i, 0 ≤ Kf i + wk i * (Ku i - Kf i) := fun i => by
    nlinarith [mul_nonneg (sub_nonneg.mpr (hw i).1.2) (hnn i).1.1,
      mul_nonneg (hw i).1.1 (hnn i).2.1]
  have posG : ∀ i, 0 ≤ Gf i + wm i * (Gu i - Gf i) := fun i => by
    nlinarith [mul_nonneg (sub_nonneg.mpr (hw i).2.2) (hnn i).1.2,
      mul_nonneg (hw i).2.1 (hnn i).2.2]
  obtain ⟨m', hm', hm'H⟩ := mkModuli_nonneg (fun i => (posK i).trans (leK i))
    (fun i => (posG i).trans (leG i)) hρ
  refine ⟨m', _, _, _, _, _, ?_, hm, hm'H, fun i => ⟨leK i, leG i⟩⟩
  unfold patchyCement
  rw [hd, bind_ok, hs, bind_ok, hl, bind_ok, hu, bind_ok, hct, bind_ok, hcn, bind_ok]
  dsimp only
  rw [hwk, hwm, huH.1, huH.2.1, hsH.1, hsH.2.1, hin.sand.has.2.2, hin.cement.has.2.2]
  rw [← hm']
  congr 1

/-! ### C75: patchy cement is defined on its textbook domain -/

/-- **C75.** `patchy_cement` never raises on its textbook domain: positive sand and cement in
`CementRange`, porosity between 0 and both the contact-cement porosity and the upper-bound porosity,
these below the critical porosity < 1, positive pressures, coordination numbers > 0, shear reduction
≥ 0; and the result has positive moduli and density. -/
theorem C75_patchy_cement_defined {san cem : Mat n}
    {Ks Gs Rs Kc Gc Rc φ ccp ub p plb crit sr Nf Nc : Fin n → ℝ}
    (hs : san.Pos Ks Gs Rs) (hc : cem.Pos Kc Gc Rc) (hr : CementRange Gc Ks Gs)
    (hφ0 : ∀ i, 0 ≤ φ i) (hφ1 : ∀ i, φ i ≤ ccp i) (hφ2 : ∀ i, φ i ≤ ub i)
    (hccp0 : ∀ i, 0 < ccp i) (hub0 : ∀ i, 0 < ub i)
    (hccp : ∀ i, ccp i ≤ crit i) (hub : ∀ i, ub i ≤ crit i) (hcrit : ∀ i, crit i < 1)
    (hp : ∀ i, 0 < p i) (hplb : ∀ i, 0 < plb i) (hsr : ∀ i, 0 ≤ sr i) (hNf : ∀ i, 0 < Nf i)
    (hNc : ∀ i, 0 < Nc i) :
    ∃ m K G R, patchyCement san cem (finC φ) (finC ccp) (finC ub) (finC p) (finC plb) (finC crit)
      (finC sr) (finC Nf) (finC Nc) = .ok m ∧ m.Pos K G R := by
  have hfr : (finC crit - finC ub : Col n) = finC fun i => crit i - ub i := by funext i; simp
  have hcrit0 : ∀ i, 0 < crit i := fun i => lt_of_lt_of_le (hub0 i) (hub i)
  have hφc : ∀ i, φ i ≤ crit i := fun i => (hφ2 i).trans (hub i)
  obtain ⟨dense, Kd, Gd, Rd, hd, hdp, -⟩ := C08_between_constituents (bound := "lower") hc
    hs (.inl rfl) (f := fun i => crit i - ub i) (fun i => by linarith [hub i])
    (fun i => by linarith [hub0 i, hcrit i])
  rw [← hfr] at hd
  obtain ⟨fr, -, Kf, Gf, Kp, Gp, -, hf, -, hfH, -, hfB⟩ := C27_density_and_range hdp hφ0 hφc hcrit0
    hcrit hp hsr hNf
  obtain ⟨lo, -, Kl, Gl, -, -, -, hl, -, hlH, -, -⟩ := C27_density_and_range hdp hφ0 hφc hcrit0
    hcrit hplb hsr hNf
  obtain ⟨cu, Kcu, Gcu, Rcu, hcu, hcup⟩ := C74_contact_cement_defined hc hs hr
    (fun i => (hub0 i).le) hub hcrit hsr hNc
  obtain ⟨ct, Kct, Gct, Rct, hct, hctp⟩ := C74_contact_cement_defined hc hs hr
    (fun i => (hccp0 i).le) hccp hcrit hsr hNc
  have frac : ∀ {y : Fin n → ℝ}, (∀ i, 0 < y i) → (∀ i, φ i ≤ y i) →
      (∀ i, 0 ≤ 1 - φ i / y i) ∧ (∀ i, 1 - φ i / y i ≤ 1) := by
    intro y h0 h1
    exact ⟨fun i => by have := div_le_one_of_le₀ (h1 i) (h0 i).le; linarith,
      fun i => by have := div_nonneg (hφ0 i) (h0 i).le; linarith⟩
  obtain ⟨up, Ku, Gu, Ru, hu, hup, -⟩ := C08_between_constituents (bound := "lower") hdp hcup (.inl rfl)
    (frac hub0 hφ2).1 (frac hub0 hφ2).2
  obtain ⟨cn, Kn, Gn, Rn, hn, hnp, -⟩ := C08_between_constituents (bound := "lower") hdp hctp (.inl rfl)
    (frac hccp0 hφ1).1 (frac hccp0 hφ1).2
  have hcons : constantCement san cem (finC φ) (finC ub) (finC crit) (finC Nc) (finC sr) = .ok up := by
    unfold constantCement
    rw [hd, bind_ok, hcu, bind_ok]; dsimp only; rw [ratio_fin (fun i => (hub0 i).ne'), hu]
  obtain ⟨wk, hwk, hwk0⟩ := patchyWeight_fin Kn Kl Ku
  obtain ⟨wm, hwm, hwm0⟩ := patchyWeight_fin Gn Gl Gu
  have hpack := hertzMindlin_pos hdp hcrit hp hsr hNf
  -- friable sand of a positive material is positive
  have hfpos : ∀ i, 0 < Kf i ∧ 0 < Gf i := by
    intro i
    have e := friableSand_fin hdp hφ0 hφc hcrit0 hcrit hp hsr hNf
    rw [hf] at e
    injection e with e
    have eK : Kf i = frK (Kd i) (Gd i) (φ i) (crit i) (p i) (Nf i) (sr i) := by
      have := hfH.1; rw [e] at this; exact (congrFun (finC_injective this) i).symm
    have eG : Gf i = frG (Kd i) (Gd i) (φ i) (crit i) (p i) (Nf i) (sr i) := by
      have := hfH.2.1; rw [e] at this; exact (congrFun (finC_injective this) i).symm
    have hK := hdp.bulk i
    have hG := hdp.shear i
    have k := hpack.bulk i
    have g := hpack.shear i
    have f0 := (frac hcrit0 hφc).1 i
    have f1 := (frac hcrit0 hφc).2 i
    have z1 : 0 < 4/3 * min (Gd i) (hmG (Kd i) (Gd i) (crit i) (p i) (Nf i) (sr i)) :=
      mul_pos (by norm_num) (lt_min hG g)
    have z2 : 0 ≤ zShear (min (Kd i) (hmK (Kd i) (Gd i) (crit i) (p i) (Nf i)))
        (min (Gd i) (hmG (Kd i) (Gd i) (crit i) (p i) (Nf i) (sr i))) :=
      zShear_nonneg (lt_min hK k).le (lt_min hG g).le
    rw [eK, eG]
    exact ⟨lt_of_lt_of_le (lt_min hK k) (hsReal_between (by linarith) (by linarith)
        (hsReal_D (by linarith) (by linarith) f0 f1) f0 f1).1,
      lt_of_lt_of_le (lt_min hG g) (hsReal_between (by linarith) (by linarith)
        (hsReal_D (by linarith) (by linarith) f0 f1) f0 f1).1⟩
  have bpos : ∀ {a b w : ℝ}, 0 < a → 0 < b → 0 ≤ w → w ≤ 1 → 0 < a + w * (b - a) :=
    fun ha hb h0 h1 => lt_of_lt_of_le (lt_min ha hb) (between_of_weight h0 h1).1
  have pK : ∀ i, 0 < Kf i + wk i * (Ku i - Kf i) := fun i =>
    bpos (hfpos i).1 (hup.bulk i) (hwk0 i).1 (hwk0 i).2
  have pG : ∀ i, 0 < Gf i + wm i * (Gu i - Gf i) := fun i =>
    bpos (hfpos i).2 (hup.shear i) (hwm0 i).1 (hwm0 i).2
  have pR : ∀ i, 0 < (1 - φ i - (crit i - ccp i)) * Rs i + (crit i - ccp i) * Rc i := fun i => by
    have h1 : 0 < 1 - φ i - (crit i - ccp i) := by linarith [hφ1 i, hcrit i]
    have := mul_pos h1 (hs.density i)
    have := mul_nonneg (sub_nonneg.mpr (hccp i)) (hc.density i).le
    linarith
  refine ⟨_, _, _, _, ?_, Mat.ofReal_has _ _ _, pK, pG, pR⟩
  unfold patchyCement
  rw [hd, bind_ok, hf, bind_ok, hl, bind_ok, hcons, bind_ok, hct, bind_ok,
    ratio_fin (fun i => (hccp0 i).ne'), hn, bind_ok]
  dsimp only
  rw [hnp.has.1, hnp.has.2.1, hlH.1, hlH.2.1, hup.has.1, hup.has.2.1, hwk, hwm, hfH.1, hfH.2.1,
    hs.has.2.2, hc.has.2.2]
  rw [← mkModuli_ofReal (fun i => (pK i).le) (fun i => (pG i).le) pR]
  congr 1

/-- A concrete call of `patchy_cement` that succeeds: so the hypotheses of C29 and C30 are met. -/
example := C75_patchy_cement_defined (φ := fun _ => 0.2) (ccp := fun _ => 0.36) (ub := fun _ => 0.3)
  (p := fun _ => 1e7) (plb := fun _ => 2e7) (crit := fun _ => 0.4) (sr := fun _ => 0.5)
  (Nf := fun _ => 9) (Nc := fun _ => 9) quartz_pos quartz_pos exCementRange
  (fun _ => by norm_num) (fun _ => by norm_num) (fun _ => by norm_num) (fun _ => by norm_num)
  (fun _ => by norm_num) (fun _ => by norm_num) (fun _ => by norm_num) (fun _ => by norm_num)
  (fun _ => by norm_num) (fun _ => by norm_num) (fun _ => by norm_num) (fun _ => by norm_num)
  (fun _ => by norm_num)

/-- … and `PatchyIn` holds for it. -/
example : PatchyIn (n := 2) (Mat.ofReal (fun _ => 36.8) (fun _ => 44) (fun _ => 2650))
    (Mat.ofReal (fun _ => 36.8) (fun _ => 44) (fun _ => 2650)) (fun _ => 36.8) (fun _ => 44)
    (fun _ => 2650) (fun _ => 36.8) (fun _ => 44) (fun _ => 2650) (fun _ => 0.36) (fun _ => 0.3)
    (fun _ => 1e7) (fun _ => 2e7) (fun _ => 0.4) (fun _ => 0.5) (fun _ => 9) :=
  ⟨quartz_pos, quartz_pos, fun _ => by norm_num, fun _ => by norm_num, fun _ => by norm_num,
    fun _ => by norm_num, fun _ => by norm_num, fun _ => by norm_num, fun _ => by norm_num⟩

end OPE
