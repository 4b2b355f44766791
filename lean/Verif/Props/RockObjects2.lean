import Verif.Props.RockObjects
import Verif.Props.RowWise

/-!
# C160 (refuted), C161: the default cement, C162: velocities of material objects, C163: porosity checks
-/

namespace OPE.Rocks

open Classical

variable {n : ℕ}

/-! ### C160, refuted -/

/-- `[[0], [1]]`: the property itself. -/
def itself : Coeffs := ⟨1, 0, ![![0], ![1]]⟩

/-- A coefficient object without density coefficients, a model and a depth trend that share it. -/
noncomputable def sharing : List (Op 1) :=
  [.coefficients ⟨true, ⟨none, some itself, some itself⟩⟩, .polyfitModel (some 0), .depthTrend (c 0) 0 none]

theorem sharing_run : run Session.start sharing = (⟨[Parse.defaultCement], [⟨true, ⟨none, some itself, some itself⟩⟩],
    [.polyfit (some 0)], [⟨c 0, 0, none⟩], []⟩ : Session 1) := by
  unfold sharing
  rw [run, run, run, run]
  simp [step, Session.start]

/-- **C160, refuted.** Building a dry rock can change the objects it is built from: here a depth trend raises a
`TypeError` before a dry rock is built from a model that shares its coefficients, and none afterwards. -/
theorem C160_refuted : ¬ ∀ (ops : List (Op 1)) (j k : ℕ) (φ : Col 1) (m : Mat 1),
    ((run Session.start (ops ++ [.dryRock (some j) φ []])).adjustByTrend k m).isOk =
      ((run Session.start ops).adjustByTrend k m).isOk := by
  intro h
  have h := h sharing 0 0 (c 0.2) (Mat.rock fun _ => ⟨30, 40, 2⟩)
  have hr : ∀ (s : Session 1) (as bs : List (Op 1)), run s (as ++ bs) = run (run s as) bs := by
    intro s as bs
    induction as generalizing s with
    | nil => rfl
    | cons a as ih => exact ih _
  have e : (run Session.start (sharing ++ [.dryRock (some 0) (c 0.2) []])).coefficients
        = [⟨true, ⟨some defaultDensity, some itself, some itself⟩⟩] ∧
      (run Session.start (sharing ++ [.dryRock (some 0) (c 0.2) []])).trends = [⟨c 0, 0, none⟩] := by
    rw [hr, sharing_run, run, run, step, if_neg (by rintro ⟨a, ha, -⟩; cases ha)]
    exact ⟨rfl, rfl⟩
  have h1 : (run Session.start sharing).adjustByTrend 0 (Mat.rock fun _ => ⟨30, 40, 2⟩) = .error .typeError := by
    rw [sharing_run]; rfl
  have h2 := adjustByTrend_eq (s := run Session.start (sharing ++ [.dryRock (some 0) (c 0.2) []])) (k := 0)
    (t := ⟨c 0, none, none, true, ⟨defaultDensity, itself, itself⟩⟩) ⟨0, by rw [e.2]; rfl, by rw [e.1]; rfl⟩
    (Mat.rock fun _ => ⟨30, 40, 2⟩)
  have h3 : (DepthTrend.mk (c 0) none none true ⟨defaultDensity, itself, itself⟩).adjustMaterial
      (Mat.rock fun _ : Fin 1 => ⟨30, 40, 2⟩) = .ok (Mat.rock fun _ => surfaceModuli defaultDensity itself itself ⟨30, 40, 2⟩ 0) := by
    refine polyval_moduli (v := fun _ => 0) (Mat.rock_isRock fun i => ?_) fun i => ?_
    · norm_num [Published.Rock.Valid]
    · have e1 : ∀ x, surface itself x 0 = x := fun x => by
        change ∑ i : Fin 2, ∑ j : Fin 1, (![![0], ![1]] : Fin 2 → Fin 1 → ℝ) i j * x ^ (i : ℕ) * 0 ^ (j : ℕ) = x
        simp [Fin.sum_univ_two]
      have e2 : ∀ x, surface defaultDensity x 0 = x := fun x => by
        change ∑ i : Fin 2, ∑ j : Fin 2, (![![0, 0], ![1, -1]] : Fin 2 → Fin 2 → ℝ) i j * x ^ (i : ℕ) * 0 ^ (j : ℕ) = x
        simp [Fin.sum_univ_two]
      simp only [Published.Rock.Valid, surfaceModuli, e1, e2]
      norm_num
  rw [h1, h2, h3] at h
  cases h

/-! ### C161 -/

theorem run_append (s : Session n) (as bs : List (Op n)) : run s (as ++ bs) = run (run s as) bs := by
  induction as generalizing s with
  | nil => rfl
  | cons a as ih => exact ih _

/-- **C161.** In any session in which nothing is assigned to the default cement object, every patchy cement model that
is built without a cement has the documented cement, now and later. -/
theorem C161_default_cement_partial (before after : List (Op n)) (φc cf plb u : Col n) (N : Option (Col n)) (sr : Col n)
    (h1 : ∀ op ∈ before, ¬ op.AssignsMaterial 0) (h2 : ∀ op ∈ after, ¬ op.AssignsMaterial 0) :
    (step (run Session.start before) (.patchyModel none φc cf plb u N sr)).1 = .ok () ∧
    (run Session.start (before ++ .patchyModel none φc cf plb u N sr :: after)).modelNow
        (run Session.start before).models.length =
      some (.patchy (mkPatchyModel Parse.defaultCement φc cf plb u N sr)) := by
  set s := run Session.start before with hs
  have h0 : s.materials[0]? = some Parse.defaultCement := run_materials (by simp [Session.start]) h1
  have hlt : ¬ s.materials.length ≤ (none : Option ℕ).getD 0 := by
    have := (List.getElem?_eq_some_iff.mp h0).1
    simp at this ⊢
    exact List.ne_nil_of_length_pos this
  rw [run_append, run, ← hs]
  have e : step s (.patchyModel none φc cf plb u N sr) = (.ok (), { s with models := s.models ++
      [.patchy 0 φc cf plb u (N.getD (murphyCoordinationNumber φc)) sr] }) := by
    rw [step, if_neg hlt]; rfl
  rw [e]
  refine ⟨rfl, ?_⟩
  refine modelNow_run (M := .patchy 0 φc cf plb u (N.getD (murphyCoordinationNumber φc)) sr) (by simp) (by simp) ?_
    (fun i hi => by cases hi) (fun op hp i hi => by cases hi) fun op hp i hi => ?_
  · unfold Session.modelNow
    simp [h0, mkPatchyModel]
  · injection hi with hi
    subst hi
    exact h2 op hp

/-- Changing the density of the cement of one model. -/
noncomputable def recemented : List (Op 1) :=
  [.patchyModel none (c 0.4) (c 0.04) (c 20e6) (c 0.1) none (c 1), .assignMaterial 0 .density (c 3000)]

/-- **C161, refuted.** All models built without a cement share one cement object: assigning to the cement of one of
them changes the cement of those that are built later. -/
theorem C161_refuted : ¬ ∀ (before : List (Op 1)) (φc cf plb u : Col 1) (N : Option (Col 1)) (sr : Col 1),
    (run Session.start (before ++ [.patchyModel none φc cf plb u N sr])).modelNow
        (run Session.start before).models.length =
      some (.patchy (mkPatchyModel Parse.defaultCement φc cf plb u N sr)) := by
  intro h
  have h := h recemented (c 0.4) (c 0.04) (c 20e6) (c 0.1) none (c 1)
  have e : run Session.start recemented = (⟨[{ (Parse.defaultCement : Mat 1) with density := c 3000 }], [],
      [.patchy 0 (c 0.4) (c 0.04) (c 20e6) (c 0.1) (murphyCoordinationNumber (c 0.4)) (c 1)], [], []⟩ : Session 1) := by
    unfold recemented
    rw [run, run, run]
    simp [step, Session.start, Attr.set]
  rw [run_append, e, run, run, step, if_neg (by simp)] at h
  simp only [Session.modelNow, mkPatchyModel, Parse.defaultCement, Parse.moduliMat] at h
  simp at h
  have := congrFun h 0
  simp [c] at this

/-! ### C162 -/

/-- **C162.** A material that is built from moduli and density has the velocities of these, as long as nothing is
assigned to it. -/
theorem C162_velocities_partial (before after : List (Op n)) (b g d : Col n)
    (h : ∀ op ∈ after, ¬ op.AssignsMaterial (run Session.start before).materials.length) :
    ∃ m : Mat n, (run Session.start (before ++ .material (some b) (some g) d none none :: after)).materials[
        (run Session.start before).materials.length]? = some m ∧
      m.bulk = b ∧ m.shear = g ∧ m.density = d ∧ m.Coherent := by
  set s := run Session.start before with hs
  rw [run_append, run, ← hs]
  refine ⟨⟨b, g, d, calcVp b g d, calcVs g d⟩, run_materials ?_ h, rfl, rfl, rfl, rfl, rfl⟩
  rw [step]
  simp [setDefaults, bind_ok]

/-- **C162, refuted.** After an assignment to the density (bulk or shear modulus), the velocities are still those of
before. -/
theorem C162_refuted : ¬ ∀ (ops : List (Op 1)) (m : Mat 1),
    (∀ op ∈ ops, ∀ b g d vs vp, op = .material b g d vs vp → vs = none ∧ vp = none) →
    m ∈ (run Session.start ops).materials → m.Coherent := by
  intro h
  have := h [.assignMaterial 0 .density (c 53)] { (Parse.defaultCement : Mat 1) with density := c 53 }
    (by intro op hop b g d vs vp he; simp at hop; rw [hop] at he; cases he)
    (by rw [run, run, step]; simp [Session.start, Attr.set])
  have h2 := congrFun this.2 0
  simp only [Parse.defaultCement, Parse.moduliMat, calcVs, c] at h2
  rw [Num.fin_div _ (by norm_num), Num.fin_div _ (by norm_num), Num.fin_sqrt (by norm_num), Num.fin_sqrt (by norm_num)] at h2
  injection h2 with h2
  rw [Real.sqrt_inj (by norm_num) (by norm_num)] at h2
  norm_num at h2

/-! ### C162, the calculation -/

theorem hsw_rewrap (a b : Mat n) (f : Col n) (w : String) : hsw (rewrap a) (rewrap b) f w = hsw a b f w := rfl

theorem mixLoop_rewrap (a : Mat n) (t : Col n) (L : List (Mat n × Col n)) :
    (mixLoop (rewrap a) t (L.map fun x => (rewrap x.1, x.2))).map rewrap = (mixLoop a t L).map rewrap := by
  cases L with
  | nil => rfl
  | cons x L =>
    rw [List.map_cons, mixLoop, mixLoop, hsw_rewrap]
    refine congrArg (Except.map rewrap) (congrArg _ (funext fun y => congrArg _ (funext fun _ => ?_)))
    generalize t + x.2 = t'
    generalize rewrap y = z
    induction L generalizing z t' with
    | nil => rfl
    | cons x L ih =>
      rw [List.map_cons, mixLoop, mixLoop]
      have e : ∀ f, hsw z (rewrap x.1) f "lower" = hsw z x.1 f "lower" := fun f => rfl
      simp only [e, ih]

theorem mixDensities_rewrap (ms : List (Mat n)) (ss : List (Col n)) :
    mixDensities (ms.map rewrap) ss = mixDensities ms ss := by
  unfold mixDensities
  rw [List.zip_map_left, List.map_map]
  rfl

theorem mixBulkModuli_rewrap (ms : List (Mat n)) (ss : List (Col n)) :
    mixBulkModuli (ms.map rewrap) ss = mixBulkModuli ms ss := by
  unfold mixBulkModuli
  rw [List.zip_map_right, List.map_map]
  simp only [List.isEmpty_map]
  rfl

theorem wood_rewrap (ms : List (Mat n)) (ss : List (Col n)) : OPE.wood (ms.map rewrap) ss = OPE.wood ms ss := by
  unfold OPE.wood
  simp only [mixBulkModuli_rewrap, mixDensities_rewrap]

theorem brie_rewrap (ms gs : List (Mat n)) (ss ts : List (Col n)) (e : Col n) :
    OPE.brie (ms.map rewrap) ss (gs.map rewrap) ts e = OPE.brie ms ss gs ts e := by
  unfold OPE.brie
  simp only [wood_rewrap, List.length_map]

theorem mix_rewrap (f : Fluids n) (ms : List (Mat n)) : f.mix (ms.map rewrap) = f.mix ms := by
  unfold Fluids.mix
  cases f.method with
  | wood => exact wood_rewrap _ _
  | brie =>
    dsimp only
    rw [popAll_map]
    cases popAll _ ms with
    | error e => rfl
    | ok r =>
      simp only [Except.map, bind_ok, brie_rewrap]

/-- A fluid with the velocities of an explicit material forgotten. -/
noncomputable def plainKind : FluidKind n → FluidKind n
  | .material m => .material (rewrap m)
  | k => k

/-- A sandstone model with the velocities of the cement forgotten. -/
noncomputable def plainModel : SandModel n → SandModel n
  | .patchy f => .patchy { f with cement := rewrap f.cement }
  | m => m

/-- A mineral with the velocities of its moduli and density. -/
noncomputable def plainMineral (x : MineralIn n) : MineralIn n := { x with mat := rewrap x.mat }

/-- A fluid of the configuration with the velocities of an explicit material forgotten. -/
noncomputable def plainSpec (x : FluidSpec n) : FluidSpec n := { x with kind := plainKind x.kind }

/-- The sections in which every explicitly given material - mineral, fluid or cement - has the velocities of its
moduli and density, whatever velocities were given or left over in it. -/
noncomputable def plain (s : Sections n) : Sections n :=
  { s with
    minerals := s.minerals.map plainMineral
    fluids := s.fluids.map plainSpec
    sandModel := plainModel s.sandModel }

/-- A constituent with the velocities of an explicit material forgotten. -/
noncomputable def plainConst (x : FluidConst n) : FluidConst n := { x with kind := plainKind x.kind }

theorem asMaterial_plain (co2 : CO2Model n) (pv : Provider) (T p : Col n) (k : FluidKind n) :
    (plainKind k).asMaterial co2 pv T p =
      match k with
      | .material m => (.ok (rewrap m), p)
      | k => k.asMaterial co2 pv T p := by
  cases k <;> rfl

theorem rewrap_rewrap (m : Mat n) : rewrap (rewrap m) = rewrap m := rfl

theorem materialsOf_plain (co2 : CO2Model n) (md : Provider) (T : Col n) (xs : List (FluidConst n)) (p : Col n) :
    ((materialsOf co2 md T (xs.map plainConst) p).1.map (List.map rewrap)
      = (materialsOf co2 md T xs p).1.map (List.map rewrap)) ∧
    (materialsOf co2 md T (xs.map plainConst) p).2 = (materialsOf co2 md T xs p).2 := by
  induction xs generalizing p with
  | nil => exact ⟨rfl, rfl⟩
  | cons x xs ih =>
    rw [List.map_cons, materialsOf, materialsOf]
    have key : ∀ (r r' : Effect n (Mat n)), r'.1.map rewrap = r.1.map rewrap → r'.2 = r.2 →
        ((match r' with
          | (.error e, p') => ((.error e, p') : Effect n (List (Mat n)))
          | (.ok m, p') => match materialsOf co2 md T (xs.map plainConst) p' with
            | (.error e, p'') => (.error e, p'')
            | (.ok ms, p'') => (.ok (m :: ms), p'')).1.map (List.map rewrap) =
        (match r with
          | (.error e, p') => ((.error e, p') : Effect n (List (Mat n)))
          | (.ok m, p') => match materialsOf co2 md T xs p' with
            | (.error e, p'') => (.error e, p'')
            | (.ok ms, p'') => (.ok (m :: ms), p'')).1.map (List.map rewrap)) ∧
        (match r' with
          | (.error e, p') => ((.error e, p') : Effect n (List (Mat n)))
          | (.ok m, p') => match materialsOf co2 md T (xs.map plainConst) p' with
            | (.error e, p'') => (.error e, p'')
            | (.ok ms, p'') => (.ok (m :: ms), p'')).2 =
        (match r with
          | (.error e, p') => ((.error e, p') : Effect n (List (Mat n)))
          | (.ok m, p') => match materialsOf co2 md T xs p' with
            | (.error e, p'') => (.error e, p'')
            | (.ok ms, p'') => (.ok (m :: ms), p'')).2 := by
      rintro ⟨r, q⟩ ⟨r', q'⟩ h1 h2
      dsimp only at h1 h2
      subst h2
      cases r with
      | error e => cases r' with
        | error e' => cases h1; exact ⟨rfl, rfl⟩
        | ok m' => cases h1
      | ok m => cases r' with
        | error e' => cases h1
        | ok m' =>
          have h1 : rewrap m' = rewrap m := by injection h1
          have ih := ih q'
          dsimp only
          generalize materialsOf co2 md T (xs.map plainConst) q' = u at ih ⊢
          generalize materialsOf co2 md T xs q' = w at ih ⊢
          obtain ⟨u, a⟩ := u
          obtain ⟨w, b⟩ := w
          dsimp only at ih
          obtain ⟨i1, rfl⟩ := ih
          cases u with
          | error e => cases w with
            | error e' => cases i1; exact ⟨rfl, rfl⟩
            | ok l => cases i1
          | ok l => cases w with
            | error e' => cases i1
            | ok l' =>
              have i1 : l.map rewrap = l'.map rewrap := by injection i1
              refine ⟨?_, rfl⟩
              simp only [Except.map, List.map_cons, h1, i1]
    have e : (plainConst x).asMaterial co2 md T p = (plainKind x.kind).asMaterial co2 (x.model.getD md) T p := rfl
    refine key _ _ ?_ ?_
    · rw [e, asMaterial_plain]
      unfold FluidConst.asMaterial
      cases x.kind <;> rfl
    · rw [e, asMaterial_plain]
      unfold FluidConst.asMaterial
      cases x.kind <;> rfl

/-! Nothing but the polynomial models over velocities looks at the velocities of the mineral. -/

theorem forM_map {α β : Type} (g : α → β) (k : β → Except Err Unit) (l : List α) :
    (l.map g).forM k = l.forM fun x => k (g x) := by
  induction l with
  | nil => rfl
  | cons x l ih =>
    change (k (g x) >>= fun _ => (l.map g).forM k) = (k (g x) >>= fun _ => l.forM fun x => k (g x))
    rw [ih]

theorem mkMinerals_plain (xs : List (MineralIn n)) :
    mkMinerals (xs.map plainMineral) =
      (mkMinerals xs).map (List.map fun x => (rewrap x.1, x.2)) := by
  unfold mkMinerals
  rw [forM_map, List.length_map, List.map_map, List.map_map]
  have e1 : ((fun x : MineralIn n => x.fraction) ∘ plainMineral) = (·.fraction) := rfl
  have e2 : ((fun x : MineralIn n => x.mat) ∘ plainMineral) = rewrap ∘ (·.mat) := rfl
  rw [e1, e2, ← List.map_map]
  have e3 : ∀ x : MineralIn n, (plainMineral x).fraction = x.fraction := fun _ => rfl
  simp only [e3]
  generalize (xs.forM fun x => match x.fraction with
    | none => (.ok () : Except Err Unit)
    | some f => fractionIsRatio f) = r
  cases r with
  | error e => rfl
  | ok _ =>
    rw [bind_ok, bind_ok]
    cases hl : failIf (xs.length < 1) Err.valueError with
    | error e => rfl
    | ok _ =>
      rw [bind_ok, bind_ok]
      cases fixOneFraction (xs.map (·.fraction)) with
      | error e => rfl
      | ok fs =>
        rw [bind_ok, bind_ok]
        cases failIf (¬ ∀ i, isCloseToOne (sumCols (givenFractions fs) i)) Err.valueError with
        | error e => rfl
        | ok _ =>
          rw [bind_ok, bind_ok, List.zip_map_left]
          rfl

theorem mineralMixture_plain (L : List (Mat n × Col n)) :
    (mineralMixture (L.map fun x => (rewrap x.1, x.2))).map rewrap = (mineralMixture L).map rewrap := by
  cases L with
  | nil => rfl
  | cons x L => exact mixLoop_rewrap _ _ _

theorem mkFluids_plain (T : Col n) (cs : List (FluidSpec n)) (mm : MixMethod) (b : Num) (g : Option (List ℤ))
    (pv : Provider) :
    mkFluids T (cs.map plainSpec) mm b g pv =
      (mkFluids T cs mm b g pv).map fun f => { f with constituents := f.constituents.map plainConst } := by
  have hd : defaultBrieGases (cs.map plainSpec) = defaultBrieGases cs := by
    unfold defaultBrieGases
    rw [List.zipIdx_map, List.filter_map, List.map_map]
    have e : ∀ k : FluidKind n, (plainKind k).type = k.type := fun k => by cases k <;> rfl
    have e' : ∀ x : FluidSpec n, (plainSpec x).kind.type = x.kind.type := fun x => e x.kind
    simp only [Function.comp_def, Prod.map, e', id]
  unfold mkFluids
  rw [forM_map, List.length_map, List.map_map, hd]
  have e1 : ((fun x : FluidSpec n => x.fraction) ∘ plainSpec) = (·.fraction) := rfl
  rw [e1]
  have e3 : ∀ x : FluidSpec n, (plainSpec x).fraction = x.fraction := fun _ => rfl
  simp only [e3]
  generalize (cs.forM fun x => match x.fraction with
    | none => (.ok () : Except Err Unit)
    | some f => fractionIsRatio f) = r
  cases r with
  | error e => rfl
  | ok _ =>
    rw [bind_ok, bind_ok]
    cases hl : failIf (cs.length < 1) Err.valueError with
    | error e => rfl
    | ok _ =>
      rw [bind_ok, bind_ok]
      cases failIf (∃ i, Num.fin (1 + 1e-5) < sumCols (givenFractions (cs.map (·.fraction))) i) Err.valueError with
      | error e => rfl
      | ok _ =>
        rw [bind_ok, bind_ok]
        cases fixOneFraction (cs.map (·.fraction)) with
        | error e => rfl
        | ok fs =>
          rw [bind_ok, bind_ok]
          simp only [Except.map, List.zipWith_map_left, List.map_zipWith]
          rfl

theorem mkDryRock_plain (M : SandModel n) (φ : Col n) (as : List (Adjustment n)) :
    mkDryRock (plainModel M) φ as = (mkDryRock M φ as).map fun d => { d with model := plainModel d.model } := by
  unfold mkDryRock
  cases M with
  | polyfit b a => rfl
  | friable f =>
    simp only [plainModel]
    cases failIf (∃ i, f.criticalPorosity i < φ i + Num.fin 1e-5) Err.valueError <;> rfl
  | patchy f =>
    simp only [plainModel]
    cases failIf (∃ i, (f.criticalPorosity - f.upperBoundCementFraction) i < φ i - Num.fin 1e-5) Err.valueError with
    | error e => rfl
    | ok _ =>
      rw [bind_ok, bind_ok]
      cases failIf (∃ i, f.criticalPorosity i < φ i + Num.fin 1e-5) Err.valueError <;> rfl


theorem adjust_plain (a : Adjustment n) (m : Mat n) (P : Pressure n) (φ : Col n) (mn : Mat n) :
    a.adjust m P φ (rewrap mn) = a.adjust m P φ mn := by
  cases a with
  | depthTrend t => rfl
  | pressureDependency M => cases M <;> rfl

theorem adjustAll_plain (P : Pressure n) (φ : Col n) (mn : Mat n) (as : List (Adjustment n)) (m : Mat n) :
    adjustAll P φ (rewrap mn) as m = adjustAll P φ mn as m := by
  induction as generalizing m with
  | nil => rfl
  | cons a as ih => rw [adjustAll, adjustAll, adjust_plain]; simp only [ih]

theorem evalMaterial_plain (M : SandModel n) (h : ∀ a, M ≠ .polyfit false a) (p φ : Col n) (mn : Mat n) :
    (plainModel M).evalMaterial p φ (rewrap mn) = M.evalMaterial p φ mn := by
  cases M with
  | polyfit b a => cases b with
    | false => exact absurd rfl (h a)
    | true => rfl
  | friable f => rfl
  | patchy f => rfl

theorem nonporous_plain (M : SandModel n) (mn : Mat n) :
    ((plainModel M).nonporous (rewrap mn)).map rewrap = (M.nonporous mn).map rewrap := by
  cases M <;> rfl

theorem fillDefaults_velocities {M : SandModel n} (h : ∀ a, M ≠ .polyfit false a) :
    ∀ a, M.fillDefaults ≠ .polyfit false a := by
  intro a ha
  cases M with
  | polyfit b x =>
    injection ha with h1 _
    exact h x (by rw [h1])
  | friable f => cases ha
  | patchy f => cases ha

theorem materialsOf_mix (co2 : CO2Model n) (f : Fluids n) (p : Col n) :
    ({ f with constituents := f.constituents.map plainConst } : Fluids n).asMixture co2 p = f.asMixture co2 p := by
  have hm : ∀ ms, ({ f with constituents := f.constituents.map plainConst } : Fluids n).mix ms = f.mix ms := by
    intro ms
    unfold Fluids.mix
    rw [List.map_map]
    rfl
  have h := materialsOf_plain co2 f.model f.temperature f.constituents p
  unfold Fluids.asMixture
  dsimp only
  generalize materialsOf co2 f.model f.temperature (f.constituents.map plainConst) p = u at h ⊢
  generalize materialsOf co2 f.model f.temperature f.constituents p = w at h ⊢
  obtain ⟨u, a⟩ := u
  obtain ⟨w, b⟩ := w
  dsimp only at h
  obtain ⟨h1, rfl⟩ := h
  cases u with
  | error e => cases w with
    | error e' => cases h1; rfl
    | ok l => cases h1
  | ok l => cases w with
    | error e' => cases h1
    | ok l' =>
      have h1 : l.map rewrap = l'.map rewrap := by injection h1
      dsimp only
      rw [hm, ← mix_rewrap, h1, mix_rewrap]

theorem map_eq_cases {α β : Type} {g : α → β} {x y : Except Err α} (h : x.map g = y.map g) :
    (∃ e, x = .error e ∧ y = .error e) ∨ ∃ a b, x = .ok a ∧ y = .ok b ∧ g a = g b := by
  cases x with
  | error e => cases y with
    | error e' => cases h; exact Or.inl ⟨_, rfl, rfl⟩
    | ok b => cases h
  | ok a => cases y with
    | error e' => cases h
    | ok b => exact Or.inr ⟨_, _, rfl, rfl, by injection h⟩

/-- **C162.** The velocities that an explicitly given mineral, fluid or cement object carries - given in the
configuration, or left over from before its moduli or density were assigned to - have no effect on the results, unless
the dry rock is a polynomial over velocities. -/
theorem C162_velocities_unused (co2 : CO2Model n) (s : Sections n) (h : ∀ a, s.sandModel ≠ .polyfit false a) :
    calculate co2 (plain s) = calculate co2 s := by
  have hmin := mkMinerals_plain s.minerals
  have hfl := mkFluids_plain s.temperature s.fluids s.mixMethod s.brieConstant s.brieGases s.fluidModel
  have hdr := mkDryRock_plain s.sandModel s.porosity s.adjustments
  unfold calculate mkInput
  change (do
    let inp ← (do
      let minerals ← mkMinerals (s.minerals.map plainMineral)
      let fluids ← mkFluids s.temperature (s.fluids.map plainSpec) s.mixMethod s.brieConstant s.brieGases s.fluidModel
      let dryRock ← mkDryRock (plainModel s.sandModel) s.porosity s.adjustments
      let pressure ← mkPressure s.overburden s.reference s.fluidPressure s.maxEffective s.rockPressure
      (.ok ⟨minerals, fluids, dryRock, pressure⟩ : Except Err (Input n)))
    calculateResults co2 inp) = _
  rw [hmin, hfl, hdr]
  cases mkMinerals s.minerals with
  | error e => rfl
  | ok ms =>
  cases mkFluids s.temperature s.fluids s.mixMethod s.brieConstant s.brieGases s.fluidModel with
  | error e => rfl
  | ok f =>
  have hM' : ∀ d, mkDryRock s.sandModel s.porosity s.adjustments = .ok d → d.model = s.sandModel.fillDefaults := by
    intro d hd
    cases hm : s.sandModel with
    | polyfit u x => rw [hm] at hd; cases hd; rfl
    | friable g =>
      rw [hm] at hd
      obtain ⟨_, _, hd⟩ := bind_eq_ok.mp hd
      cases hd; rfl
    | patchy g =>
      rw [hm] at hd
      obtain ⟨_, _, hd⟩ := bind_eq_ok.mp hd
      obtain ⟨_, _, hd⟩ := bind_eq_ok.mp hd
      cases hd; rfl
  cases hd : mkDryRock s.sandModel s.porosity s.adjustments with
  | error e => rfl
  | ok d =>
  have hM := fillDefaults_velocities h
  rw [← hM' d hd] at hM
  cases mkPressure s.overburden s.reference s.fluidPressure s.maxEffective s.rockPressure with
  | error e => rfl
  | ok P =>
  simp only [Except.map, bind_ok]
  unfold calculateResults
  dsimp only
  rcases map_eq_cases (mineralMixture_plain ms) with ⟨e, h1, h2⟩ | ⟨a, b, h1, h2, hab⟩
  · rw [h1, h2]; rfl
  rw [h1, h2, bind_ok, bind_ok]
  have hmf : mixFluids co2 { f with constituents := f.constituents.map plainConst } P = mixFluids co2 f P := by
    unfold mixFluids
    simp only [materialsOf_mix]
  rw [hmf]
  cases mixFluids co2 f P with
  | error e => rfl
  | ok x =>
  obtain ⟨fl, P'⟩ := x
  rw [bind_ok, bind_ok]
  dsimp only
  have hmat : ({ d with model := plainModel d.model } : DryRock n).material a P' = d.material b P' := by
    unfold DryRock.material
    dsimp only
    have e1 : ∀ p φ, (plainModel d.model).evalMaterial p φ a = d.model.evalMaterial p φ b := by
      intro p φ
      rw [← evalMaterial_plain d.model hM, ← hab]
      cases hm : d.model with
      | polyfit u x => cases u with
        | false => exact absurd hm (hM x)
        | true => rfl
      | friable g => rfl
      | patchy g => rfl
    have e2 : ∀ m, adjustAll P' d.porosity a d.adjustments m = adjustAll P' d.porosity b d.adjustments m := by
      intro m
      rw [← adjustAll_plain, hab, adjustAll_plain]
    simp only [e1, e2]
  rw [hmat]
  cases d.material b P' with
  | error e => rfl
  | ok dr =>
  rw [bind_ok, bind_ok]
  have hn : ((plainModel d.model).nonporous a).map rewrap = (d.model.nonporous b).map rewrap := by
    rw [← nonporous_plain d.model b, ← hab]
    cases d.model <;> rfl
  rcases map_eq_cases hn with ⟨e, h1, h2⟩ | ⟨u, w, h1, h2, huw⟩
  · rw [h1, h2]; rfl
  rw [h1, h2, bind_ok, bind_ok]
  have hs : fluidSubstitution dr u fl d.porosity = fluidSubstitution dr w fl d.porosity := by
    have e1 : ∀ m : Mat n, fluidSubstitution dr (rewrap m) fl d.porosity = fluidSubstitution dr m fl d.porosity :=
      fun _ => rfl
    rw [← e1, huw, e1]
  rw [hs]
  have hb : a.bulk = b.bulk := (congrArg Mat.bulk hab : (rewrap a).bulk = (rewrap b).bulk)
  have hb' : u.bulk = w.bulk := (congrArg Mat.bulk huw : (rewrap u).bulk = (rewrap w).bulk)
  rw [hb, hb']


end OPE.Rocks
