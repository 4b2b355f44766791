import Verif.Props.Document3
import Verif.Props.Shipped6

/-!
# C114: models, adjustments and sections of a configuration
-/

namespace OPE.Doc

open Parse

variable {n : ℕ}

theorem Holds.get {rows : Source n} {a : Args n} {key : String} {R : Yaml → Prop}
    (h : Holds rows a (Doc.need key R)) : ∃ z v, R z ∧ ins rows z = .ok v ∧ a key = some v := by
  rcases h with ⟨⟨z, hz, -⟩, -⟩ | ⟨z, v, ⟨y, hy, hR⟩, hv, ha⟩
  · cases hz
  · injection hy with hy; subst hy
    exact ⟨z, v, hR, hv, ha⟩

theorem required_eq {α : Type} {a : Args n} {key : String} {v : Val n} (h : a key = some v) (p : Val n → Except Err α) :
    required a key p = p v := by unfold required; rw [h]

/-! ### Sand models -/

theorem Friable.reads {rows : Source n} {y : Yaml} {φc f : Col n} {N : Option (Col n)} (conv : Conv)
    (h : Friable rows y φc f N) : ∃ v, ins rows y = .ok v ∧ Given v "type" (.str "friable_sand") ∧
      parseFriable conv v = .ok (mkFriableModel φc f N) := by
  obtain ⟨v, a, hv, ha, hn, hf⟩ := Mapping.holds (rows := rows) h ["critical_porosity", "shear_reduction", "coordination_number", "type"]
    (by simp [may, need]) (by decide) (by
    simp only [List.mem_cons, List.not_mem_nil, or_false]
    rintro f (rfl | rfl | rfl | rfl) z hz
    · exact str_ins "friable_sand" (by have := need_some.mp hz; exact this)
    · exact (may_some.mp hz).ins
    · exact (may_some.mp hz).ins
    · exact maybe_parameter_ins (may_some.mp hz))
  simp only [List.forall_mem_cons] at hf
  obtain ⟨h1, h2, h3, h4, -⟩ := hf
  have ht := h1.type
  refine ⟨v, hv, given_of_args hn.1 ha ht.2, ?_⟩
  unfold parseFriable
  rw [ha, bind_ok, ht.1, bind_ok, h2.mayParam (x0 := c 0.4) conv (fun h => h), bind_ok, h3.mayParam (x0 := c 1) conv (fun h => h), bind_ok,
    h4.maybeParam conv (fun h => h), bind_ok]

theorem defaultCement_ofReal : (defaultCement : Mat n) = Mat.ofReal (fun _ => 36.8e9) (fun _ => 44e9) (fun _ => 2650) := by
  have h := setDefaults_moduli (n := n) (K := fun _ => 36.8e9) (G := fun _ => 44e9) (ρ := fun _ => 2650) (fun _ => by norm_num)
    (fun _ => by norm_num) (fun _ => by norm_num)
  simp only [setDefaults, bind_ok, Except.ok.injEq, Prod.mk.injEq, true_and] at h
  unfold defaultCement moduliMat
  show (⟨finC fun _ => 36.8e9, finC fun _ => 44e9, finC fun _ => 2650, calcVp (finC fun _ => 36.8e9) (finC fun _ => 44e9) (finC fun _ => 2650),
    calcVs (finC fun _ => 44e9) (finC fun _ => 2650)⟩ : Mat n) = _
  rw [h.1, h.2]
  rfl

theorem Patchy.reads {rows : Source n} {y : Yaml} {cement : Mat n} {φc cf plb u : Col n} {N : Option (Col n)} {f : Col n}
    (conv : Conv) (h : Patchy rows y cement φc cf plb u N f) : ∃ v, ins rows y = .ok v ∧ Given v "type" (.str "patchy_cement") ∧
      parsePatchy conv v = .ok (mkPatchyModel cement φc cf plb u N f) := by
  obtain ⟨v, a, hv, ha, hn, hf⟩ := Mapping.holds (rows := rows) h ["type", "cement", "critical_porosity", "cement_fraction",
    "lower_bound_pressure", "upper_bound_cement_fraction", "coordination_number", "shear_reduction"]
    (by simp [may, need]) (by decide) (by
    simp only [List.mem_cons, List.not_mem_nil, or_false]
    rintro f (rfl | rfl | rfl | rfl | rfl | rfl | rfl | rfl) z hz
    · exact str_ins "patchy_cement" (by have := need_some.mp hz; exact this)
    · exact reads_ins ((may_some.mp hz).reads conv)
    · exact (may_some.mp hz).ins
    · exact (may_some.mp hz).ins
    · exact (may_some.mp hz).ins
    · exact (may_some.mp hz).ins
    · exact maybe_parameter_ins (may_some.mp hz)
    · exact (may_some.mp hz).ins)
  simp only [List.forall_mem_cons] at hf
  obtain ⟨h1, h2, h3, h4, h5, h6, h7, h8, -⟩ := hf
  have ht := h1.type
  refine ⟨v, hv, given_of_args hn.1 ha ht.2, ?_⟩
  unfold parsePatchy
  rw [ha, bind_ok, ht.1, bind_ok, h2.may (x := cement) (p := parseArbitrary conv) (fun h => h.trans defaultCement_ofReal.symm)
      (fun y hy => Material.arbitrary conv hy), bind_ok, h3.mayParam (x0 := c 0.4) conv (fun h => h), bind_ok,
    h4.mayParam (x0 := c 0.04) conv (fun h => h), bind_ok, h5.mayParam (x0 := c 20e6) conv (fun h => h), bind_ok, h6.mayParam (x0 := c 0.1) conv (fun h => h), bind_ok,
    h7.maybeParam conv (fun h => h), bind_ok, h8.mayParam (x0 := c 1) conv (fun h => h), bind_ok]

theorem into_error {α β : Type} {f : α → β} {p : Val n → Except Err α} {v : Val n} (h : ∃ e, p v = .error e) :
    ∃ e, into f p v = .error e := by
  obtain ⟨e, h⟩ := h
  exact ⟨e, by unfold into; rw [h, bind_error]⟩

theorem into_this {α β : Type} {f : α → β} {p : Val n → Except Err α} {v : Val n} {a : α} (h : p v = .ok a) :
    into f p v = .ok (f a) := by
  unfold into; rw [h, bind_ok]

theorem not_patchy {v : Val n} {t : String} (h : Given v "type" (.str t)) (ht : t ≠ "patchy_cement") (conv : Conv) :
    ∃ e, parsePatchy conv v = .error e := other_type h ht _ _

theorem not_friable {v : Val n} {t : String} (h : Given v "type" (.str t)) (ht : t ≠ "friable_sand") (conv : Conv) :
    ∃ e, parseFriable conv v = .error e := other_type h ht _ _

theorem not_fit {v : Val n} {t : String} (h : Given v "type" (.str t)) (kind : FitKind) (ht : t ≠ kind.tag) (conv : Conv) :
    ∃ e, parseFit conv kind v = .error e := other_type h ht _ _

theorem Fits.coeffs {conv : Conv} {o : Option (Val n)} {x : Option Coeffs} (h : Fits (toCoeffs? conv) o x) :
    coeffsOf conv o = .ok x := by
  rcases h with ⟨rfl, rfl⟩ | ⟨v, a, rfl, rfl, h⟩
  · rfl
  · unfold coeffsOf; dsimp only; rw [h]; rfl

theorem Fits.needCoeffs {conv : Conv} {o : Option (Val n)} {x : Coeffs} (h : Fits (toCoeffs? conv) o (some x)) :
    needCoeffsOf conv o = .ok x := by
  rcases h with ⟨_, h⟩ | ⟨v, a, rfl, ha, h⟩
  · cases h
  · injection ha with ha; subst ha
    unfold needCoeffsOf; dsimp only; rw [h]; rfl

theorem Fits.needVector {conv : Conv} {o : Option (Val n)} {x : List ℝ} (h : Fits (toVector? conv) o (some x)) :
    needVectorOf conv o = .ok x := by
  rcases h with ⟨_, h⟩ | ⟨v, a, rfl, ha, h⟩
  · cases h
  · injection ha with ha; subst ha
    unfold needVectorOf; dsimp only; rw [h]; rfl

theorem Sandstone.reads {rows : Source n} {y : Yaml} {m : SandModel n} (conv : Conv) (h : Sandstone rows y m) :
    Reads rows (parseSandstone conv) y m := by
  cases h with
  | friable φc f N h =>
    obtain ⟨v, hv, ht, hp⟩ := h.reads conv
    exact ⟨v, hv, firstOf_next (into_error (not_patchy ht (by decide) conv)) (firstOf_this (into_this hp))⟩
  | patchy cement φc cf plb u N f h =>
    obtain ⟨v, hv, ht, hp⟩ := h.reads conv
    exact ⟨v, hv, firstOf_this (into_this hp)⟩
  | polyfit b k h hu =>
    obtain ⟨v, a, hv, ha, hn, hf⟩ := Mapping.holds (rows := rows) h ["coefficients", "type"] (by simp [need]) (by decide) (by
      simp only [List.mem_cons, List.not_mem_nil, or_false]
      rintro f (rfl | rfl) z hz
      · exact str_ins "polyfit" (by have := need_some.mp hz; exact this)
      · obtain ⟨v, co, hv, -⟩ := coefficients_read (matrix_array rows conv) b (need_some.mp hz) hu
        exact ⟨v, hv⟩)
    simp only [List.forall_mem_cons] at hf
    obtain ⟨h1, h2, -⟩ := hf
    have ht := h1.type
    have hg := given_of_args hn.1 ha ht.2
    obtain ⟨z, w, hz, hw, hk⟩ := h2.get
    obtain ⟨w', co, hw', hco, hnull, hb, e1, e2, e3⟩ := coefficients_read (matrix_array rows conv) b hz hu
    rw [hw] at hw'; injection hw' with hw'; subst hw'
    refine ⟨v, hv, firstOf_next (into_error (not_patchy hg (by decide) conv)) (firstOf_next (into_error (not_friable hg (by decide) conv))
      (firstOf_this ?_))⟩
    have ho : defaulted a "coefficients" (Parse.optional (parsePolyfitCoef conv)) none = .ok (some co) := by
      unfold defaulted
      rw [hk]
      dsimp only
      unfold Parse.optional
      split
      · exact absurd rfl hnull
      · rw [hco, bind_ok]
    unfold parsePolyfit2d
    rw [ha, bind_ok, ht.1, bind_ok, ho, bind_ok]
    dsimp only
    rw [e1.coeffs, bind_ok, e2.coeffs, bind_ok, e3.coeffs, bind_ok, hb]
  | default h =>
    obtain ⟨v, a, hv, ha, hn, hf⟩ := Mapping.holds (rows := rows) h ["coefficients", "type"] (by simp [need]) (by decide) (by
      simp only [List.mem_cons, List.not_mem_nil, or_false]
      rintro f rfl z hz
      exact str_ins "polyfit" (by have := need_some.mp hz; exact this))
    simp only [List.forall_mem_cons] at hf
    have ht := hf.1.type
    have hg := given_of_args hn.1 ha ht.2
    refine ⟨v, hv, firstOf_next (into_error (not_patchy hg (by decide) conv)) (firstOf_next (into_error (not_friable hg (by decide) conv))
      (firstOf_this ?_))⟩
    unfold parsePolyfit2d
    rw [ha, bind_ok, ht.1, bind_ok, absent_default (hn.2 "coefficients" (by simp [need])), bind_ok]

/-! ### Pressure dependency -/

theorem Fits.vectors {conv : Conv} {co : CoefIn n} {k : Coef3 (List ℝ)} (h1 : Fits (toVector? conv) co.coef.density (some k.density))
    (h2 : Fits (toVector? conv) co.coef.primary (some k.primary)) (h3 : Fits (toVector? conv) co.coef.secondary (some k.secondary))
    (hp : k.primary.length = k.density.length) (hs : k.secondary.length = k.density.length) (h0 : k.density ≠ []) :
    needVectorOf conv co.coef.density = .ok k.density ∧ needVectorOf conv co.coef.primary = .ok k.primary ∧
    needVectorOf conv co.coef.secondary = .ok k.secondary ∧
    (failIf (k.primary.length ≠ k.density.length ∨ k.secondary.length ≠ k.density.length ∨ k.density = []) .valueError :
      Except Err Unit) = .ok () :=
  ⟨h1.needVector, h2.needVector, h3.needVector, failIf_ok_iff.mpr (by simp [hp, hs, h0])⟩

/-- The fits over moduli or velocities. -/
theorem fit_reads {rows : Source n} {y : Yaml} {kind : FitKind} (hkind : kind ≠ .powerfit) {b : Bool} {k : Coef3 (List ℝ)} (conv : Conv)
    (h : Mapping [need "type" (· = .str kind.tag),
        need "coefficients" (Vectors "density" (primaryKey b) (secondaryKey b) k)] y) :
    ∃ v co, ins rows y = .ok v ∧ Given v "type" (.str kind.tag) ∧ parseFit conv kind v = .ok (.fit kind co) ∧ co.useModuli = b ∧
      Fits (toVector? conv) co.coef.density (some k.density) ∧ Fits (toVector? conv) co.coef.primary (some k.primary) ∧
      Fits (toVector? conv) co.coef.secondary (some k.secondary) := by
  have key : ∀ z, Vectors "density" (primaryKey b) (secondaryKey b) k z → _ := fun z hz =>
    coefficients_read (k := ⟨some k.density, some k.primary, some k.secondary⟩) (vector_array rows conv) b (needs_given hz) (.inl (by simp))
  obtain ⟨v, a, hv, ha, hn, hf⟩ := Mapping.holds (rows := rows) h ["coefficients", "type"] (by simp [need]) (by decide) (by
    simp only [List.mem_cons, List.not_mem_nil, or_false]
    rintro f (rfl | rfl) z hz
    · exact str_ins kind.tag (by have := need_some.mp hz; exact this)
    · obtain ⟨v, co, hv, -⟩ := key z (need_some.mp hz)
      exact ⟨v, hv⟩)
  simp only [List.forall_mem_cons] at hf
  obtain ⟨h1, h2, -⟩ := hf
  have ht := h1.type
  obtain ⟨z, w, hz, hw, hk⟩ := h2.get
  obtain ⟨w', co, hw', hco, -, hb, e1, e2, e3⟩ := key z hz
  rw [hw] at hw'; injection hw' with hw'; subst hw'
  refine ⟨v, co, hv, given_of_args hn.1 ha ht.2, ?_, hb, e1, e2, e3⟩
  unfold parseFit
  rw [ha, bind_ok, ht.1, bind_ok, required_eq hk]
  cases kind with
  | powerfit => exact absurd rfl hkind
  | _ => dsimp only; rw [hco, bind_ok]

/-- The power fit. -/
theorem powerfit_reads {rows : Source n} {y : Yaml} {k : Coef3 (List ℝ)} (conv : Conv)
    (h : Mapping [need "type" (· = .str "powerfit"),
        need "coefficients" (Vectors "density" "bulk_modulus" "vp_over_vs" k)] y) :
    ∃ v co, ins rows y = .ok v ∧ Given v "type" (.str "powerfit") ∧ parseFit conv .powerfit v = .ok (.fit .powerfit co) ∧
      Fits (toVector? conv) co.coef.density (some k.density) ∧ Fits (toVector? conv) co.coef.primary (some k.primary) ∧
      Fits (toVector? conv) co.coef.secondary (some k.secondary) := by
  have hR := vector_array rows conv
  have key : ∀ z, Vectors "density" "bulk_modulus" "vp_over_vs" k z → ∃ v co, ins rows z = .ok v ∧ parseVpOverVsCoef conv v = .ok co ∧
      Fits (toVector? conv) co.coef.density (some k.density) ∧ Fits (toVector? conv) co.coef.primary (some k.primary) ∧
      Fits (toVector? conv) co.coef.secondary (some k.secondary) := by
    intro z hz
    obtain ⟨v, a, hv, ha, hn, hf⟩ := Mapping.holds (rows := rows) (needs_given hz) ["density", "vp_over_vs", "bulk_modulus"]
      (by simp [may]) (by decide) (by
        simp only [List.mem_cons, List.not_mem_nil, or_false]
        rintro g (rfl | rfl | rfl) z hz <;> exact hR.maybe_ins (may_some.mp hz))
    simp only [List.forall_mem_cons] at hf
    obtain ⟨h1, h2, h3, -⟩ := hf
    obtain ⟨d, hd, fd, -⟩ := hR.field h1
    obtain ⟨p, hp, fp, -⟩ := hR.field h2
    obtain ⟨s, hs, fs, -⟩ := hR.field h3
    refine ⟨v, ⟨true, d, p, s⟩, hv, ?_, fd, fp, fs⟩
    unfold parseVpOverVsCoef
    rw [ha, bind_ok, hd, bind_ok, hs, bind_ok, hp, bind_ok]
  obtain ⟨v, a, hv, ha, hn, hf⟩ := Mapping.holds (rows := rows) h ["coefficients", "type"] (by simp [need]) (by decide) (by
    simp only [List.mem_cons, List.not_mem_nil, or_false]
    rintro f (rfl | rfl) z hz
    · exact str_ins "powerfit" (by have := need_some.mp hz; exact this)
    · obtain ⟨v, co, hv, -⟩ := key z (need_some.mp hz)
      exact ⟨v, hv⟩)
  simp only [List.forall_mem_cons] at hf
  obtain ⟨h1, h2, -⟩ := hf
  have ht := h1.type
  obtain ⟨z, w, hz, hw, hk⟩ := h2.get
  obtain ⟨w', co, hw', hco, e1, e2, e3⟩ := key z hz
  rw [hw] at hw'; injection hw' with hw'; subst hw'
  refine ⟨v, co, hv, given_of_args hn.1 ha ht.2, ?_, e1, e2, e3⟩
  unfold parseFit
  have ht1 : tagged a FitKind.powerfit.tag = .ok () := ht.1
  rw [ha, bind_ok, ht1, bind_ok, required_eq hk]
  dsimp only
  rw [hco, bind_ok]

theorem Dependency.reads {rows : Source n} {y : Yaml} {m : PDModel n} (conv : Conv) (h : Dependency rows y m) :
    ∃ v x, ins rows y = .ok v ∧ parsePDModel conv v = .ok x ∧ x.toModel conv = .ok m := by
  cases h with
  | friable φc f N h =>
    obtain ⟨v, hv, ht, hp⟩ := h.reads conv
    exact ⟨v, _, hv, firstOf_next (into_error (not_patchy ht (by decide) conv)) (firstOf_this (into_this hp)), rfl⟩
  | patchy cement φc cf plb u N f h =>
    obtain ⟨v, hv, ht, hp⟩ := h.reads conv
    exact ⟨v, _, hv, firstOf_this (into_this hp), rfl⟩
  | polyfit b k h0 hp hs h =>
    obtain ⟨v, co, hv, ht, hparse, hb, e1, e2, e3⟩ := fit_reads (kind := .polyfit) (by simp) conv h
    obtain ⟨r1, r2, r3, r4⟩ := Fits.vectors e1 e2 e3 hp hs h0
    refine ⟨v, _, hv, firstOf_next (into_error (not_patchy ht (by decide) conv)) (firstOf_next (into_error (not_friable ht (by decide) conv))
      (firstOf_next (not_fit ht .powerfit (by decide) conv) (firstOf_next (not_fit ht .logfit (by decide) conv) (firstOf_this hparse)))), ?_⟩
    unfold PDIn.toModel
    dsimp only
    rw [r1, bind_ok, r2, bind_ok, r3, bind_ok, r4, bind_ok, hb]
  | expfit b k h =>
    obtain ⟨v, co, hv, ht, hparse, hb, e1, e2, e3⟩ := fit_reads (kind := .expfit) (by simp) conv h
    obtain ⟨r1, r2, r3, r4⟩ := Fits.vectors e1 e2 e3 rfl rfl (by simp)
    refine ⟨v, _, hv, firstOf_next (into_error (not_patchy ht (by decide) conv)) (firstOf_next (into_error (not_friable ht (by decide) conv))
      (firstOf_next (not_fit ht .powerfit (by decide) conv) (firstOf_next (not_fit ht .logfit (by decide) conv)
      (firstOf_next (not_fit ht .polyfit (by decide) conv) (firstOf_this hparse))))), ?_⟩
    unfold PDIn.toModel
    dsimp only
    rw [r1, bind_ok, r2, bind_ok, r3, bind_ok, r4, bind_ok, hb]
    rfl
  | logfit b k h =>
    obtain ⟨v, co, hv, ht, hparse, hb, e1, e2, e3⟩ := fit_reads (kind := .logfit) (by simp) conv h
    obtain ⟨r1, r2, r3, r4⟩ := Fits.vectors e1 e2 e3 rfl rfl (by simp)
    refine ⟨v, _, hv, firstOf_next (into_error (not_patchy ht (by decide) conv)) (firstOf_next (into_error (not_friable ht (by decide) conv))
      (firstOf_next (not_fit ht .powerfit (by decide) conv) (firstOf_this hparse))), ?_⟩
    unfold PDIn.toModel
    dsimp only
    rw [r1, bind_ok, r2, bind_ok, r3, bind_ok, r4, bind_ok, hb]
    rfl
  | powerfit k h =>
    obtain ⟨v, co, hv, ht, hparse, e1, e2, e3⟩ := powerfit_reads conv h
    obtain ⟨r1, r2, r3, r4⟩ := Fits.vectors e1 e2 e3 rfl rfl (by simp)
    refine ⟨v, _, hv, firstOf_next (into_error (not_patchy ht (by decide) conv)) (firstOf_next (into_error (not_friable ht (by decide) conv))
      (firstOf_this hparse)), ?_⟩
    unfold PDIn.toModel
    dsimp only
    rw [r1, bind_ok, r2, bind_ok, r3, bind_ok, r4, bind_ok]
    rfl

/-! ### Adjustments -/

theorem Adjusted.reads {rows : Source n} {y : Yaml} {m : Adjustment n} (conv : Conv) (h : Adjusted rows y m) :
    Reads rows (parseAdjustment conv) y m := by
  cases h with
  | pressure m h =>
    obtain ⟨v, a, hv, ha, hn, hf⟩ := Mapping.holds (rows := rows) h ["model", "type"] (by simp [need]) (by decide) (by
      simp only [List.mem_cons, List.not_mem_nil, or_false]
      rintro f (rfl | rfl) z hz
      · exact str_ins "pressure_dependency" (by have := need_some.mp hz; exact this)
      · obtain ⟨v, co, hv, -⟩ := (need_some.mp hz).reads conv
        exact ⟨v, hv⟩)
    simp only [List.forall_mem_cons] at hf
    obtain ⟨h1, h2, -⟩ := hf
    have ht := h1.type
    obtain ⟨z, w, hz, hw, hk⟩ := h2.get
    obtain ⟨w', x, hw', hx, hm⟩ := hz.reads conv
    rw [hw] at hw'; injection hw' with hw'; subst hw'
    refine ⟨v, hv, firstOf_next (other_type (given_of_args hn.1 ha ht.2) (by decide : "pressure_dependency" ≠ "depth_trend") _ _) (firstOf_this ?_)⟩
    unfold parsePressureDependency
    rw [ha, bind_ok, ht.1, bind_ok, required_eq hk, hx, bind_ok, hm, bind_ok]
  | depth z z0 mx b k h =>
    have key : ∀ w, Matrices "density" (primaryKey b) (secondaryKey b) k w → _ := fun w hw =>
      coefficients_read (k := ⟨some k.density, some k.primary, some k.secondary⟩) (matrix_array rows conv) b (needs_given hw) (.inl (by simp))
    obtain ⟨v, a, hv, ha, hn, hf⟩ := Mapping.holds (rows := rows) h ["depth", "coefficients", "type", "reference_depth", "max_depth"]
      (by simp [need, may]) (by decide) (by
      simp only [List.mem_cons, List.not_mem_nil, or_false]
      rintro f (rfl | rfl | rfl | rfl | rfl) w hw
      · exact str_ins "depth_trend" (by have := need_some.mp hw; exact this)
      · exact (need_some.mp hw).ins
      · obtain ⟨v, co, hv, -⟩ := key w (need_some.mp hw)
        exact ⟨v, hv⟩
      · exact maybe_parameter_ins (may_some.mp hw)
      · exact maybe_parameter_ins (may_some.mp hw))
    simp only [List.forall_mem_cons] at hf
    obtain ⟨h1, h2, h3, h4, h5, -⟩ := hf
    have ht := h1.type
    obtain ⟨z, w, hz, hw, hk⟩ := h3.get
    obtain ⟨w', co, hw', hco, -, hb, e1, e2, e3⟩ := key z hz
    rw [hw] at hw'; injection hw' with hw'; subst hw'
    refine ⟨v, hv, firstOf_this ?_⟩
    unfold parseDepthTrend
    rw [ha, bind_ok, ht.1, bind_ok, h2.param conv, bind_ok, required_eq hk, hco, bind_ok, h4.maybeParam conv (fun h => h), bind_ok,
      h5.maybeParam conv (fun h => h), bind_ok, e1.needCoeffs, bind_ok, e2.needCoeffs, bind_ok, e3.needCoeffs, bind_ok, hb]

end OPE.Doc
