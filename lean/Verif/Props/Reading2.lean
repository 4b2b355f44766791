import Verif.Props.Reading

/-!
# C152 at the sections of a configuration
-/

namespace OPE.Parse

open Classical

variable {n : ℕ} (conv : Conv)

/-- **C152.** A temperature (as an example of the parameters with a value per row) is accepted exactly if it
means a value per row, and then it has these values; otherwise it is refused with a `ValueError`. -/
theorem C152_per_row (v : Val n) :
    (∀ x, (∃ f, parseFluids conv (.dict [("temperature", v)]) = .ok f ∧ f.temperature = x) ↔ PerRowMeans conv v x) ∧
    ((¬ ∃ x, PerRowMeans conv v x) → parseFluids conv (.dict [("temperature", v)]) = .error .valueError) := by
  have hp : parseFluids conv (.dict [("temperature", v)]) = (toCol conv v >>= fun x =>
      .ok ⟨x, defaultFluids, .wood, .fin 3, none, .default⟩) := by
    unfold parseFluids
    simp [args, named, defaulted, List.lookup, bind_ok]
  rw [hp]
  constructor
  · intro x
    rw [← toCol_iff]
    cases h : toCol conv v with
    | ok y => simp [bind_ok]
    | error e => simp [bind_error]
  · intro hn
    cases h : toCol conv v with
    | ok y => exact absurd ⟨y, toCol_iff.mp h⟩ hn
    | error e => rw [toCol_error h]; rfl

theorem eachOf_iff {α : Type} {p : Val n → Except Err α} : ∀ {vs : List (Val n)} {xs : List α},
    eachOf p vs = .ok xs ↔ List.Forall₂ (fun v x => p v = .ok x) vs xs
  | [], xs => by
    rw [eachOf]
    exact ⟨fun h => by cases h; exact .nil, fun h => by cases h; rfl⟩
  | v :: vs, xs => by
    rw [eachOf]
    constructor
    · intro h
      obtain ⟨y, hy, h⟩ := bind_eq_ok.mp h
      obtain ⟨ys, hys, h⟩ := bind_eq_ok.mp h
      cases h
      exact .cons hy (eachOf_iff.mp hys)
    · intro h
      cases h with
      | cons h1 h2 => rw [h1, bind_ok, eachOf_iff.mpr h2, bind_ok]

/-- **C152.** The settings of a fluids section that are single values. -/
theorem C152_fluid_settings (v : Val n) :
    (∀ x, (∃ f, parseFluids conv (.dict [("brie_constant", v)]) = .ok f ∧ f.brieConstant = x) ↔
      NumberMeans conv v x) ∧
    (∀ m, (∃ f, parseFluids conv (.dict [("mix_method", v)]) = .ok f ∧ f.method = m) ↔ MethodMeans v m) ∧
    (∀ p, (∃ f, parseFluids conv (.dict [("fluid_model", v)]) = .ok f ∧ f.model = p) ↔ ProviderMeans v p) ∧
    (∀ zs, (∃ f, parseFluids conv (.dict [("brie_gases", v)]) = .ok f ∧ f.brieGases = some zs) ↔
      ∃ vs, v = .list vs ∧ List.Forall₂ (WholeMeans conv) vs zs) ∧
    ((∃ f, parseFluids conv (.dict [("brie_gases", v)]) = .ok f ∧ f.brieGases = none) ↔ v = .scalar .null) := by
  refine ⟨fun x => ?_, fun m => ?_, fun p => ?_, ?_⟩
  · have hp : parseFluids conv (.dict [("brie_constant", v)]) = (toFloat conv v >>= fun x =>
        .ok ⟨c 80, defaultFluids, .wood, x, none, .default⟩) := by
      unfold parseFluids
      simp [args, named, defaulted, List.lookup, bind_ok]
    rw [hp, ← toFloat_iff]
    cases h : toFloat conv v with
    | ok y => simp [bind_ok]
    | error e => simp [bind_error]
  · have hp : parseFluids conv (.dict [("mix_method", v)]) = (toMethod v >>= fun x =>
        .ok ⟨c 80, defaultFluids, x, .fin 3, none, .default⟩) := by
      unfold parseFluids
      simp [args, named, defaulted, List.lookup, bind_ok]
    rw [hp, ← toMethod_iff]
    cases h : toMethod v with
    | ok y => simp [bind_ok]
    | error e => simp [bind_error]
  · have hp : parseFluids conv (.dict [("fluid_model", v)]) = (toProvider v >>= fun x =>
        .ok ⟨c 80, defaultFluids, .wood, .fin 3, none, x⟩) := by
      unfold parseFluids
      simp [args, named, defaulted, List.lookup, bind_ok]
    rw [hp, ← toProvider_iff]
    cases h : toProvider v with
    | ok y => simp [bind_ok]
    | error e => simp [bind_error]
  · have hp : parseFluids conv (.dict [("brie_gases", v)]) = (optional (listOf (toInt conv)) v >>= fun x =>
        .ok ⟨c 80, defaultFluids, .wood, .fin 3, x, .default⟩) := by
      unfold parseFluids
      simp [args, named, defaulted, List.lookup, bind_ok]
    rw [hp]
    match v with
    | .scalar .null => simp [optional, bind_ok]
    | .list vs =>
      have : ∀ zs, eachOf (toInt conv) vs = .ok zs ↔ List.Forall₂ (WholeMeans conv) vs zs := fun zs => by
        rw [eachOf_iff]; simp only [toInt_iff]
      cases h : eachOf (toInt conv) vs with
      | ok ys => 
        simp only [h] at this
        simp [optional, listOf, h, bind_ok, ← this]
      | error e =>
        simp only [h] at this
        simp [optional, listOf, h, bind_error, ← this]
    | .scalar (.num _) => simp [optional, listOf, reject, bind_error]
    | .scalar (.bool _) => simp [optional, listOf, reject, bind_error]
    | .scalar .other => simp [optional, listOf, reject, bind_error]
    | .str _ => simp [optional, listOf, reject, bind_error]
    | .arr _ => simp [optional, listOf, reject, bind_error]
    | .dict _ => simp [optional, listOf, reject, bind_error]

/-- **C152.** The switch of carbon dioxide. -/
theorem C152_switch (v : Val n) (b : Bool) :
    parseMaterialType conv (.dict [("type", .str "carbon_dioxide"), ("interpolate_density", v)]) = .ok (.carbonDioxide b) ↔
      YesNoMeans v b := by
  have hp : parseMaterialType conv (.dict [("type", .str "carbon_dioxide"), ("interpolate_density", v)]) =
      (toBool v >>= fun b => .ok (.carbonDioxide b)) := by
    have he : ∀ e, toBool v = .error e → e = .valueError := by
      intro e h
      unfold toBool at h
      split at h <;> (try split_ifs at h) <;> first | (cases h; done) | (simp [reject] at h; exact h.symm)
    unfold parseMaterialType materialAlternatives
    simp [firstOf, parseMaterial, parseArbitrary, parseGas, parseOil, parseBrine, parseCondensate, parseCO2, args,
      named, tagged, defaulted, List.lookup, literal, reject, bind_error, bind_ok]
    cases h : toBool v with
    | ok b => simp [bind_ok]
    | error e => simp [bind_error, he e h]
  rw [hp, ← toBool_iff]
  cases h : toBool v with
  | ok y => simp [bind_ok]
  | error e => simp [bind_error]

theorem HasShape.of_vector {v : Val n} {xs : List ℝ} (h : VectorMeans conv v xs) : HasShape conv v [xs.length] := by
  cases h with
  | @list vs xs hf =>
    cases vs with
    | nil => cases hf; exact .empty
    | cons w vs =>
      rw [← hf.length_eq]
      refine .list (by simp) fun u hu => ?_
      obtain ⟨i, hi, rfl⟩ := List.mem_iff_getElem.mp hu
      exact .single ((List.forall₂_iff_get.mp hf).2 i hi (by rw [← hf.length_eq]; exact hi))
  | column hx => simp only [List.length_ofFn]; exact .column fun i => ⟨_, hx i⟩

theorem HasShape.of_matrix {v : Val n} {r k : ℕ} {a : ℕ → ℕ → ℝ} (h : MatrixMeans conv v r k a) :
    ∃ s, HasShape conv v s := by
  cases h with
  | number h => exact ⟨_, .single h⟩
  | vector hr h => exact ⟨_, .of_vector conv h⟩
  | matrix hr hk h =>
    refine ⟨_, .list (s := [k]) (by intro e; simpa [hr.ne'] using congrArg List.length e) fun u hu => ?_⟩
    obtain ⟨i, rfl⟩ := (List.mem_ofFn' _ _).mp hu
    simpa using HasShape.of_vector conv (h i)

/-- A dry rock of a fit with these density coefficients and everything else left out. -/
def fitWith (v : Val n) : Val n :=
  .dict [("type", .str "polyfit"), ("coefficients", .dict [("density", v)])]

/-- **C152.** Coefficients of a dry rock fit are accepted exactly if they mean a matrix of finite numbers; the
density is then the polynomial with these coefficients. -/
theorem C152_coefficients (v : Val n) (p : ℝ → ℝ → ℝ) :
    (∃ C : Coeffs, parseSandstone conv (fitWith v) = .ok (.polyfit true ⟨some C, none, none⟩) ∧
        ∀ x y : ℝ, C.eval (.fin x) (.fin y) = .fin (p x y)) ↔
      ∃ r k a, MatrixMeans conv v r k a ∧
        ∀ x y, p x y = ∑ i ∈ Finset.range r, ∑ j ∈ Finset.range k, a i j * x ^ i * y ^ j := by
  have hpos : ∀ {r k a}, MatrixMeans conv v r k a → 0 < r ∧ 0 < k := by
    intro r k a h
    cases h with
    | number => exact ⟨by omega, by omega⟩
    | vector hr => exact ⟨hr, by omega⟩
    | matrix hr hk => exact ⟨hr, hk⟩
  have hacc : ∀ C : Coeffs, parseSandstone conv (fitWith v) = .ok (.polyfit true ⟨some C, none, none⟩) ↔
      toCoeffs? conv v = some C := by
    intro C
    have hmod : parsePolyfitCoef conv (.dict [("density", v)]) = match (optional (anyArray conv) v) with
        | .error _ => reject
        | .ok d => .ok ⟨true, d, none, none⟩ := by
      unfold parsePolyfitCoef parseModuliCoef parseVelocityCoef
      cases h : optional (anyArray conv) v <;>
        simp [firstOf, args, named, defaulted, List.lookup, h, bind_ok, bind_error, reject]
    have hp : parseSandstone conv (fitWith v) = match (optional (anyArray conv) v) with
        | .error _ => reject
        | .ok d => (coeffsOf conv d) >>= fun d => .ok (.polyfit true ⟨d, none, none⟩) := by
      unfold parseSandstone fitWith
      have h1 : into SandModel.patchy (parsePatchy conv) (.dict [("type", .str "polyfit"),
          ("coefficients", .dict [("density", v)])]) = reject := by
        unfold into parsePatchy
        simp [args, named, reject, bind_error]
      have h2 : into SandModel.friable (parseFriable conv) (.dict [("type", .str "polyfit"),
          ("coefficients", .dict [("density", v)])]) = reject := by
        unfold into parseFriable
        simp [args, named, reject, bind_error]
      simp only [firstOf, h1, h2, reject]
      have h3 : parsePolyfit2d conv (.dict [("type", .str "polyfit"), ("coefficients", .dict [("density", v)])]) =
          match (optional (anyArray conv) v) with
          | .error _ => reject
          | .ok d => (coeffsOf conv d) >>= fun d => .ok (.polyfit true ⟨d, none, none⟩) := by
        unfold parsePolyfit2d
        have hopt : optional (parsePolyfitCoef conv) (.dict [("density", v)]) =
            (parsePolyfitCoef conv (.dict [("density", v)]) >>= fun a => .ok (some a)) := rfl
        cases h : optional (anyArray conv) v <;>
          simp [args, named, tagged, defaulted, List.lookup, literal, hopt, hmod, h, coeffsOf, bind_ok, bind_error, reject]
      rw [h3]
      cases h : optional (anyArray conv) v with
      | error e => simp [reject]
      | ok d =>
        cases h' : coeffsOf conv d with
        | error e =>
          have : e = .valueError := by
            cases d with
            | none => simp [coeffsOf] at h'
            | some w => cases hw : toCoeffs? conv w <;> simp [coeffsOf, hw, orReject, reject, bind_error, bind_ok] at h'; exact h'.symm
          subst this; simp [bind_error, h', reject]
        | ok q => simp [bind_ok, h']
    rw [hp]
    constructor
    · intro h
      cases ho : optional (anyArray conv) v with
      | error e => simp [ho, reject] at h
      | ok d =>
        simp only [ho] at h
        obtain ⟨q, hq, h⟩ := bind_eq_ok.mp h
        cases h
        cases d with
        | none => simp [coeffsOf] at hq
        | some w =>
          obtain rfl : w = v := by
            cases v with
            | scalar s =>
              cases s <;> simp [optional] at ho <;>
                (obtain ⟨z, hz, e⟩ := bind_eq_ok.mp ho; cases e; exact (anyArray_iff.mp hz).1)
            | _ => 
              obtain ⟨z, hz, e⟩ := bind_eq_ok.mp ho; cases e; exact (anyArray_iff.mp hz).1
          unfold coeffsOf at hq
          obtain ⟨z, hz, e⟩ := bind_eq_ok.mp hq
          cases e
          exact orReject_eq_ok.mp hz
    · intro h
      obtain ⟨r, k, a, hm, -⟩ := toCoeffs?_iff.mp h
      have hv : v ≠ .scalar .null := by rintro rfl; simp [toCoeffs?, toReal?, toVector?, Scalar.toNum] at h
      have ho : optional (anyArray conv) v = .ok (some v) := by
        have : anyArray conv v = .ok v := anyArray_iff.mpr ⟨rfl, HasShape.of_matrix conv hm⟩
        cases v with
        | scalar s => cases s <;> first | exact absurd rfl hv | simp [optional, this, bind_ok]
        | _ => simp [optional, this, bind_ok]
      rw [ho]
      simp [coeffsOf, h, orReject, bind_ok]
  constructor
  · rintro ⟨C, h, he⟩
    obtain ⟨r, k, a, hm, rfl⟩ := toCoeffs?_iff.mp ((hacc C).mp h)
    refine ⟨r, k, a, hm, fun x y => ?_⟩
    have := he x y
    rw [coeffsWith_eval (hpos hm).1 (hpos hm).2] at this
    exact (Num.fin_inj.mp this).symm
  · rintro ⟨r, k, a, hm, hp⟩
    refine ⟨coeffsWith r k a, (hacc _).mpr (toCoeffs?_iff.mpr ⟨r, k, a, hm, rfl⟩), fun x y => ?_⟩
    rw [coeffsWith_eval (hpos hm).1 (hpos hm).2, hp]

/-- **C152.** The readers the statements of C47, C48 and C85 mention accept exactly what means something to them. -/
theorem C152_readers :
    (∀ (v : Val n) x, toCol conv v = .ok x ↔ PerRowMeans conv v x) ∧
    (∀ (v : Val n) x, toFloat conv v = .ok x ↔ NumberMeans conv v x) ∧
    (∀ (v : Val n) z, toInt conv v = .ok z ↔ WholeMeans conv v z) ∧
    (∀ (v : Val n) b, toBool v = .ok b ↔ YesNoMeans v b) ∧
    (∀ (v : Val n) xs, toVector? conv v = some xs ↔ VectorMeans conv v xs) ∧
    (∀ v : Val n, (toCoeffs? conv v).isSome ↔ ∃ r k a, MatrixMeans conv v r k a) ∧
    (∀ v : Val n, (∃ w, anyArray conv v = .ok w) ↔ ∃ s, HasShape conv v s) := by
  refine ⟨fun _ _ => toCol_iff, fun _ _ => toFloat_iff, fun _ _ => toInt_iff, fun _ _ => toBool_iff,
    fun _ _ => toVector?_iff, fun v => ?_, fun v => ?_⟩
  · rw [Option.isSome_iff_exists]
    constructor
    · rintro ⟨C, h⟩
      obtain ⟨r, k, a, hm, -⟩ := toCoeffs?_iff.mp h
      exact ⟨r, k, a, hm⟩
    · rintro ⟨r, k, a, hm⟩
      exact ⟨_, toCoeffs?_iff.mpr ⟨r, k, a, hm, rfl⟩⟩
  · simp only [anyArray_iff, exists_eq_left]

/-- A pressure dependency of a polynomial fit with these coefficients. -/
def pressureFit (d k g : Val n) : Val n :=
  .dict [("model", .dict [("type", .str "polyfit"),
    ("coefficients", .dict [("density", d), ("bulk_modulus", k), ("shear_modulus", g)])])]

theorem optional_vector {v : Val n} {xs : List ℝ} (h : VectorMeans conv v xs) :
    optional (anyArray conv) v = .ok (some v) := by
  have ha : anyArray conv v = .ok v := anyArray_iff.mpr ⟨rfl, _, HasShape.of_vector conv h⟩
  match v, h, ha with
  | .list _, _, ha => simp [optional, ha, bind_ok]
  | .arr _, _, ha => simp [optional, ha, bind_ok]

/-- **C152.** The three coefficient vectors of a pressure dependency: accepted if they are non-empty vectors of
finite numbers of the same length, and used as they are. -/
theorem C152_vectors (d k g : Val n) (xd xk xg : List ℝ)
    (hd : VectorMeans conv d xd) (hk : VectorMeans conv k xk) (hg : VectorMeans conv g xg)
    (h1 : xk.length = xd.length) (h2 : xg.length = xd.length) (h0 : xd ≠ []) :
    parsePressureDependency conv (pressureFit d k g) = .ok (.pressureDependency (.polyfit true ⟨xd, xk, xg⟩)) := by
  have hco : parsePolyfitCoef conv (.dict [("density", d), ("bulk_modulus", k), ("shear_modulus", g)]) =
      .ok ⟨true, some d, some k, some g⟩ := by
    unfold parsePolyfitCoef parseModuliCoef
    simp [firstOf, args, named, defaulted, List.lookup, optional_vector conv hd, optional_vector conv hk,
      optional_vector conv hg, bind_ok]
  have hpd : parsePDModel conv (.dict [("type", .str "polyfit"),
      ("coefficients", .dict [("density", d), ("bulk_modulus", k), ("shear_modulus", g)])]) =
      .ok (.fit .polyfit ⟨true, some d, some k, some g⟩) := by
    unfold parsePDModel
    simp [firstOf, into, parsePatchy, parseFriable, parseFit, FitKind.tag, args, named, tagged, defaulted, required,
      List.lookup, literal, hco, bind_ok, bind_error, reject]
  unfold parsePressureDependency pressureFit
  simp [args, named, tagged, defaulted, required, List.lookup, hpd, bind_ok, PDIn.toModel, needVectorOf,
    toVector?_iff.mpr hd, toVector?_iff.mpr hk, toVector?_iff.mpr hg, orReject, h1, h2, h0, failIf_false]

/-! ## Examples -/

/-- Python's readings of a few texts. -/
noncomputable def exConv : Conv := ⟨fun s => if s = "0.5" then some (.fin 0.5) else none, fun _ => none⟩

/-- A list with a missing entry, a text and a truth value, for three rows. -/
example : PerRowMeans exConv (.list [.scalar .null, .str "0.5", .scalar (.bool true)] : Val 3)
    ![.nan, .fin 0.5, .fin 1] := by
  have := PerRowMeans.list (conv := exConv) (n := 3)
    (entries := ![.scalar .null, .str "0.5", .scalar (.bool true)]) (x := ![.nan, .fin 0.5, .fin 1]) (by
      intro i
      fin_cases i
      · exact .missing
      · exact .value (.text (by simp [exConv]))
      · exact .value .true)
  simpa [List.ofFn_succ] using this

/-- A text that is no number means none. -/
example : ¬ ∃ x, PerRowMeans exConv (.str "half" : Val 3) x := by
  rintro ⟨x, (h | _ | _)⟩
  cases h with
  | text h => simp [exConv] at h

/-- -1.5 as a whole number is -1. -/
example : WholeMeans exConv (.scalar (.num (.fin (-1.5))) : Val 3) (-1) :=
  .number ⟨-1.5, rfl, by norm_num [abs_of_neg], by norm_num [abs_of_neg]⟩

/-- "Off" is no. -/
example : YesNoMeans (.str "Off" : Val 3) false := .no (by decide +kernel)

/-- A matrix of two rows and one column; a ragged list is none. -/
example : MatrixMeans exConv (.list [.list [.scalar (.num (.fin 7))], .list [.scalar (.num (.fin 8))]] : Val 3) 2 1
    (fun i _ => if i = 0 then 7 else 8) := by
  have := MatrixMeans.matrix (conv := exConv) (n := 3) (r := 2) (k := 1) (a := fun i _ => if i = 0 then 7 else 8)
    (rows := ![.list [.scalar (.num (.fin 7))], .list [.scalar (.num (.fin 8))]]) (by omega) (by omega) (by
      intro i
      fin_cases i
      · exact .list (.cons (.number _) .nil)
      · exact .list (.cons (.number _) .nil))
  simpa [List.ofFn_succ] using this

example : ¬ ∃ s, HasShape exConv (.list [.list [.scalar (.num (.fin 7))], .scalar (.num (.fin 8))] : Val 3) s := by
  rintro ⟨s, h⟩
  have := shape_complete h
  simp [shape, shapes, Scalar.toNum] at this

end OPE.Parse
