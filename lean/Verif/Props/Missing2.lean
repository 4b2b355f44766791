import Verif.Props.Missing

/-!
# Missing numbers never change other numbers: the whole calculation (C150)
-/

namespace OPE

open Classical

variable {n : ℕ}

/-! ### Polynomials -/

theorem horner_lacks {x x' : Num} (hx : x ⊑ x') {r : ℕ} {a a' : Fin (r + 1) → Num} (ha : a ⊑ a') :
    horner x a ⊑ horner x' a' := by
  induction r with
  | zero => exact Num.lacks_add (ha 0) (Num.lacks_mul hx (Num.lacks_refl _))
  | succ r ih => exact Num.lacks_add (ha 0) (Num.lacks_mul (ih fun i => ha i.succ) hx)

theorem polyval2d_lacks {x x' y y' : Num} (hx : x ⊑ x') (hy : y ⊑ y') {r s : ℕ}
    (a : Fin (r + 1) → Fin (s + 1) → ℝ) : polyval2d x y a ⊑ polyval2d x' y' a :=
  horner_lacks hy fun _ => horner_lacks hx fun _ => Num.lacks_refl _

theorem polyval3d_lacks {x x' y y' z z' : Num} (hx : x ⊑ x') (hy : y ⊑ y') (hz : z ⊑ z') {r s t : ℕ}
    (a : Fin (r + 1) → Fin (s + 1) → Fin (t + 1) → ℝ) : polyval3d x y z a ⊑ polyval3d x' y' z' a :=
  horner_lacks hz fun _ => horner_lacks hy fun _ => horner_lacks hx fun _ => Num.lacks_refl _

theorem polyvalMaterial_lacks {v v' : Col n} {m m' : Mat n} (hv : v ⊑ v') (hm : m ⊑ m') (dc pc sc : Coeffs)
    (b : Bool) : UptoM (polyvalMaterial v m dc pc sc b) (polyvalMaterial v' m' dc pc sc b) := by
  obtain ⟨h1, h2, h3, h4, h5⟩ := hm
  unfold polyvalMaterial
  refine vectorizeMaterial_lacks fun i => ?_
  split
  · exact mkModuli_lacks (fun _ => polyval2d_lacks (h1 i) (hv i) _) (fun _ => polyval2d_lacks (h2 i) (hv i) _)
      (fun _ => polyval2d_lacks (h3 i) (hv i) _)
  · exact mkVelocities_lacks (fun _ => polyval2d_lacks (h3 i) (hv i) _) (fun _ => polyval2d_lacks (h4 i) (hv i) _)
      (fun _ => polyval2d_lacks (h5 i) (hv i) _)

/-! ### Fluid models -/

theorem deadOil_lacks {t t' p p' r r' : Col n} (ht : t ⊑ t') (hp : p ⊑ p') (hr : r ⊑ r') :
    UptoM (deadOil t p r) (deadOil t' p' r') := by
  unfold deadOil
  refine fluidVelocity_lacks (fun i => ?_) (fun i => ?_)
  · unfold deadOilDensity temperatureAdjustedDeadOilDensity pressureAdjustedDeadOilDensity; lacks
  · unfold deadOilVelocity; lacks

theorem liveOil_lacks {t t' p p' r r' o o' g g' : Col n} (ht : t ⊑ t') (hp : p ⊑ p') (hr : r ⊑ r') (ho : o ⊑ o')
    (hg : g ⊑ g') : UptoM (liveOil t p r o g) (liveOil t' p' r' o' g') := by
  unfold liveOil
  refine fluidVelocity_lacks (fun i => ?_) (fun i => ?_)
  · unfold liveOilDensity liveOilVolumeFactor; lacks
  · unfold liveOilVelocity deadOilVelocity liveOilPseudoDensity liveOilVolumeFactor; lacks

theorem triangularWindow_lacks {x x' : Num} (h : x ⊑ x') : triangularWindow x ⊑ triangularWindow x' := by
  rcases h with rfl | rfl
  · refine .inl ?_
    unfold triangularWindow
    rw [if_neg (Num.not_lt_nan _), if_neg (Num.not_nan_lt _)]
    simp [Num.abs]
  · exact Num.lacks_refl _

theorem oil_lacks {t t' p p' r r' o o' g g' : Num} (ht : t ⊑ t') (hp : p ⊑ p') (hr : r ⊑ r') (ho : o ⊑ o')
    (hg : g ⊑ g') : UptoM (oil t p r o g) (oil t' p' r' o' g') := by
  unfold oil
  refine .bind (liveOil_lacks (fun _ => ht) (fun _ => hp) (fun _ => hr) (fun _ => ho) (fun _ => hg))
    fun l l' hl => .bind (deadOil_lacks (fun _ => ht) (fun _ => hp) (fun _ => hr)) fun d d' hd => ?_
  have hw := triangularWindow_lacks ho
  obtain ⟨-, -, hl3, hl4, -⟩ := hl
  obtain ⟨-, -, hd3, hd4, -⟩ := hd
  exact fluidVelocity_lacks (by lacksC) (by lacksC)

theorem gas_lacks {t t' p p' g g' : Col n} (ht : t ⊑ t') (hp : p ⊑ p') (hg : g ⊑ g') :
    UptoM (gas t p g) (gas t' p' g') := by
  unfold gas gasDensity idealGas
  refine .bind (.bind (fluidVelocity_lacks (fun i => ?_) (fun i => ?_)) fun m m' hm => .ok ?_) fun d d' hd =>
    fluidMaterial_lacks (fun i => ?_) hd
  · dsimp only; unfold idealGasDensity molecularWeight molarVolume celsiusToKelvin; lacks
  · dsimp only; unfold idealGasVelocity molecularWeight celsiusToKelvin; lacks
  · obtain ⟨-, -, hm3, -⟩ := hm
    intro i
    refine Num.lacks_div (hm3 i) ?_
    unfold compressabilityFactor pseudoreducedTemperature pseudoreducedPressure celsiusToKelvin; dsimp only; lacks
  · unfold gasBulkModulus compressabilityFactor compressabilityRate pseudoreducedTemperature pseudoreducedPressure
      celsiusToKelvin
    dsimp only; lacks

theorem brine_lacks {t t' p p' s s' : Col n} (ht : t ⊑ t') (hp : p ⊑ p') (hs : s ⊑ s') :
    UptoM (brine t p s) (brine t' p' s') := by
  unfold brine
  refine fluidVelocity_lacks (fun i => ?_) (fun i => ?_)
  · refine Num.lacks_mul (Num.lacks_add ?_ (Num.lacks_mul ?_ ?_)) (Num.lacks_refl _)
    · exact polyval2d_lacks (ht i) (Num.lacks_mul (hp i) (Num.lacks_refl _)) _
    · lacks
    · exact polyval3d_lacks (Num.lacks_mul (hs i) (Num.lacks_refl _)) (ht i)
        (Num.lacks_mul (hp i) (Num.lacks_refl _)) _
  · refine Num.lacks_add ?_ (Num.lacks_mul ?_ ?_)
    · exact polyval2d_lacks (ht i) (Num.lacks_mul (hp i) (Num.lacks_refl _)) _
    · lacks
    · exact polyval3d_lacks (Num.lacks_sqrt (Num.lacks_mul (hs i) (Num.lacks_refl _))) (ht i)
        (Num.lacks_mul (hp i) (Num.lacks_refl _)) _

instance : Missing (FluidConst n) := ⟨fun x y => x.kind ⊑ y.kind ∧ x.model = y.model ∧ x.fraction ⊑ y.fraction⟩

/-- The two parts of a call that sees the pressure array. -/
def EffM {α : Type} [Missing α] (x y : Effect n α) : Prop :=
  ∀ a b, x.1 = .ok a → y.1 = .ok b → a ⊑ b ∧ x.2 ⊑ y.2

variable {co2 : CO2Model n}

theorem asMaterial_lacks (hco2 : CO2Missing co2) (provider : Provider) {t t' p p' : Col n} (ht : t ⊑ t')
    (hp : p ⊑ p') {k k' : FluidKind n} (hk : k ⊑ k') :
    EffM (k.asMaterial co2 provider t p) (k'.asMaterial co2 provider t' p') := by
  have key : ∀ {x y : Except Err (Mat n)} {q q' : Col n}, UptoM x y → q ⊑ q' → EffM (n := n) (x, q) (y, q') :=
    fun hx hq a b ha hb => ⟨hx a b ha hb, hq⟩
  cases k <;> cases k' <;> try exact hk.elim
  · exact key (.ok hk) hp
  · obtain ⟨h1, h2, h3⟩ := hk
    cases provider
    · exact key (vectorizeMaterial_lacks fun i => oil_lacks (ht i) (hp i) (h1 i) (h2 i) (h3 i)) hp
    · exact key (vectorizeMaterial_lacks fun i => oil_lacks (ht i) (hp i) (h1 i) (h2 i) (h3 i)) hp
    · exact key .error_left hp
  · have hk' : ∀ i, _ := hk
    cases provider
    · exact key (vectorizeMaterial_lacks fun i => gas_lacks (fun _ => ht i) (fun _ => hp i) (fun _ => hk i)) hp
    · exact key (vectorizeMaterial_lacks fun i => gas_lacks (fun _ => ht i) (fun _ => hp i) (fun _ => hk i)) hp
    · exact key .error_left hp
  · cases provider
    · exact key (vectorizeMaterial_lacks fun i => brine_lacks (fun _ => ht i) (fun _ => hp i) (fun _ => hk i)) hp
    · exact key (vectorizeMaterial_lacks fun i => brine_lacks (fun _ => ht i) (fun _ => hp i) (fun _ => hk i)) hp
    · exact key .error_left hp
  · exact key .error_left hp
  · obtain rfl : _ = _ := hk
    cases provider
    · exact key .error_left hp
    · exact key .error_left hp
    · have hT : (fun i => celsiusToKelvin (t i)) ⊑ fun i => celsiusToKelvin (t' i) := by
        intro i; unfold celsiusToKelvin; lacks
      have hP : (fun i => p i / Num.fin 1e6) ⊑ fun i => p' i / Num.fin 1e6 := by intro i; dsimp only; lacks
      exact key (fun a b ha hb => hco2 _ _ _ _ _ _ _ hT hP ha hb) hP

theorem materialsOf_lacks (hco2 : CO2Missing co2) (sec : Provider) {t t' : Col n} (ht : t ⊑ t')
    {xs xs' : List (FluidConst n)} (hx : xs ⊑ xs') {p p' : Col n} (hp : p ⊑ p') :
    EffM (materialsOf co2 sec t xs p) (materialsOf co2 sec t' xs' p') := by
  induction hx generalizing p p' with
  | nil =>
    intro a b ha hb
    cases ha; cases hb
    exact ⟨.nil, hp⟩
  | @cons x x' xs xs' h _ ih =>
    obtain ⟨h1, h2, h3⟩ := h
    have hm := asMaterial_lacks hco2 (x.model.getD sec) ht hp h1
    intro a b ha hb
    have e : x'.asMaterial co2 sec t' p' = x'.kind.asMaterial co2 (x.model.getD sec) t' p' := by
      rw [h2]; rfl
    have e' : x.asMaterial co2 sec t p = x.kind.asMaterial co2 (x.model.getD sec) t p := rfl
    unfold materialsOf at ha hb ⊢
    rw [e'] at ha ⊢
    rw [e] at hb ⊢
    rcases hx : x.kind.asMaterial co2 (x.model.getD sec) t p with ⟨_ | m, q⟩ <;> rw [hx] at ha hm
    · cases ha
    rcases hx' : x'.kind.asMaterial co2 (x.model.getD sec) t' p' with ⟨_ | m', q'⟩ <;> rw [hx'] at hb hm
    · cases hb
    obtain ⟨hmm, hq⟩ := hm m m' rfl rfl
    have ih' := ih hq
    dsimp only at ha hb ⊢
    rcases hy : materialsOf co2 sec t xs q with ⟨_ | ms, r⟩ <;> rw [hy] at ha ih'
    · cases ha
    rcases hy' : materialsOf co2 sec t' xs' q' with ⟨_ | ms', r'⟩ <;> rw [hy'] at hb ih'
    · cases hb
    obtain ⟨hms, hr⟩ := ih' ms ms' rfl rfl
    cases ha; cases hb
    exact ⟨.cons hmm hms, hr⟩

instance : Missing (Fluids n) := ⟨fun x y => x.temperature ⊑ y.temperature ∧ x.constituents ⊑ y.constituents ∧
  x.method = y.method ∧ x.brieConstant ⊑ y.brieConstant ∧ x.brieGases = y.brieGases ∧ x.model = y.model⟩

theorem forall₂_get {α β : Type} {R : α → β → Prop} {xs : List α} {ys : List β} (h : List.Forall₂ R xs ys) (j : ℕ) :
    Option.Rel R xs[j]? ys[j]? := by
  induction h generalizing j with
  | nil => simpa using Option.Rel.none
  | cons h _ ih =>
    cases j with
    | zero => exact .some h
    | succ j => simpa using ih j

theorem forall₂_erase {α β : Type} {R : α → β → Prop} {xs : List α} {ys : List β} (h : List.Forall₂ R xs ys) (j : ℕ) :
    List.Forall₂ R (xs.eraseIdx j) (ys.eraseIdx j) := by
  induction h generalizing j with
  | nil => exact .nil
  | cons h h2 ih =>
    cases j with
    | zero => exact h2
    | succ j => exact .cons h (ih j)

theorem popAll_lacks {α : Type} [Missing α] (is : List ℤ) {l l' : List α} (h : l ⊑ l') :
    UptoM (popAll is l) (popAll is l') := by
  induction is generalizing l l' with
  | nil => exact .ok ⟨.nil, h⟩
  | cons i is ih =>
    unfold popAll
    refine Upto.bind (R := fun (a b : α × List α) => a.1 ⊑ b.1 ∧ a.2 ⊑ b.2) ?_ fun a b hab =>
      .bind (ih hab.2) fun x y hxy => .ok ⟨.cons hab.1 hxy.1, hxy.2⟩
    unfold pyPop
    rw [List.Forall₂.length_eq h]
    dsimp only
    generalize (if i < 0 then i + (l'.length : ℤ) else i) = k
    by_cases hk : k < 0
    · simp only [if_pos hk]
      exact .error_left
    · simp only [if_neg hk]
      have := forall₂_get h k.toNat
      generalize k.toNat = j at this
      rcases hx : l[j]? with _ | x <;> rcases hy : l'[j]? with _ | y <;> rw [hx, hy] at this
      · exact .error_left
      · cases this
      · cases this
      · cases this with
        | some hxy => exact .ok (And.intro hxy (forall₂_erase h j))

theorem mix_lacks {f f' : Fluids n} (hf : f ⊑ f') {ms ms' : List (Mat n)} (hm : ms ⊑ ms') :
    UptoM (f.mix ms) (f'.mix ms') := by
  obtain ⟨-, hc, h3, h4, h5, -⟩ := hf
  have hfr : f.constituents.map (·.fraction) ⊑ f'.constituents.map (·.fraction) :=
    forall₂_map hc fun a b hab => hab.2.2
  unfold Fluids.mix
  rw [← h3, ← h5]
  cases f.method with
  | wood => exact wood_lacks hm hfr
  | brie =>
    refine .bind (popAll_lacks _ hm) fun a b hab => .bind (popAll_lacks _ hfr) fun x y hxy => ?_
    exact brie_lacks hab.2 hxy.2 hab.1 hxy.1 fun _ => h4

instance : Missing (Pressure n) := ⟨fun x y => x.overburden ⊑ y.overburden ∧ x.reference ⊑ y.reference ∧
  x.fluid ⊑ y.fluid ∧ x.maxEffective ⊑ y.maxEffective ∧ x.rock ⊑ y.rock⟩

theorem needCol_lacks {x y : Option (Col n)} (h : x ⊑ y) : UptoM (needCol x) (needCol y) := by
  rcases Option.lacks_cases h with ⟨rfl, rfl⟩ | ⟨a, b, rfl, rfl, hab⟩
  · exact .error_left
  · exact .ok hab

theorem mixFluids_lacks (hco2 : CO2Missing co2) {f f' : Fluids n} (hf : f ⊑ f') {p p' : Pressure n} (hp : p ⊑ p') :
    UptoM (mixFluids co2 f p) (mixFluids co2 f' p') := by
  obtain ⟨h1, h2, h3, h4, h5⟩ := hp
  unfold mixFluids
  refine .bind (needCol_lacks h3) fun q q' hq => ?_
  unfold Fluids.asMixture
  have hm := materialsOf_lacks hco2 f.model hf.1 hf.2.1 hq
  have e : f'.model = f.model := hf.2.2.2.2.2.symm
  rw [e]
  rcases hx : materialsOf co2 f.model f.temperature f.constituents q with ⟨_ | ms, r⟩ <;> rw [hx] at hm
  · exact .error_left
  rcases hy : materialsOf co2 f.model f'.temperature f'.constituents q' with ⟨_ | ms', r'⟩ <;> rw [hy] at hm
  · exact .error_right
  obtain ⟨hms, hr⟩ := hm ms ms' rfl rfl
  have hmix := mix_lacks hf hms
  dsimp only
  rcases hx : f.mix ms with _ | m
  · exact .error_left
  rcases hy : f'.mix ms' with _ | m'
  · exact .error_right
  exact .ok ⟨hmix m m' hx hy, h1, h2, .some hr, h4, h5⟩

/-! ### Fractions, minerals -/

theorem givenFractions_lacks {fs fs' : List (Option (Col n))} (h : fs ⊑ fs') :
    givenFractions fs ⊑ givenFractions fs' := by
  unfold givenFractions
  induction h with
  | nil => exact .nil
  | @cons x y _ _ h _ ih =>
    rcases Option.lacks_cases h with ⟨rfl, rfl⟩ | ⟨a, b, rfl, rfl, hab⟩
    · exact ih
    · exact .cons hab ih

theorem count_none_lacks {fs fs' : List (Option (Col n))} (h : fs ⊑ fs') : fs.count none = fs'.count none := by
  induction h with
  | nil => rfl
  | @cons x y _ _ h _ ih =>
    rcases Option.lacks_cases h with ⟨rfl, rfl⟩ | ⟨a, b, rfl, rfl, hab⟩
    · simp only [List.count_cons_self, ih]
    · rw [List.count_cons_of_ne (by simp), List.count_cons_of_ne (by simp), ih]

theorem fixOneFraction_lacks {fs fs' : List (Option (Col n))} (h : fs ⊑ fs') :
    UptoM (fixOneFraction fs) (fixOneFraction fs') := by
  have hs := sumCols_lacks (givenFractions_lacks h)
  unfold fixOneFraction
  rw [count_none_lacks h]
  refine .seq' ?_
  split
  · exact .ok h
  · refine .seq' (.seq' (.ok (forall₂_map h fun a b hab => ?_)))
    rcases Option.lacks_cases hab with ⟨rfl, rfl⟩ | ⟨x, y, rfl, rfl, hxy⟩
    · exact .some fun i => Num.lacks_sub (Num.lacks_refl _) (hs i)
    · exact .some hxy

theorem mkMinerals_lacks {cs cs' : List (MineralIn n)} (h : cs ⊑ cs') : UptoM (mkMinerals cs) (mkMinerals cs') := by
  unfold mkMinerals
  refine .seq' (.seq' (.bind (fixOneFraction_lacks (forall₂_map h fun a b hab => hab.2)) fun fs fs' hfs => .seq'
    (.ok (zip_lacks (forall₂_map h fun a b hab => hab.1) (givenFractions_lacks hfs)))))

theorem partOfTotal_lacks {a a' b b' : Num} (ha : a ⊑ a') (hb : b ⊑ b') : partOfTotal a b ⊑ partOfTotal a' b' := by
  unfold partOfTotal
  rcases hb with rfl | rfl
  · rw [if_neg (Num.not_nan_eq _), Num.div_nan']; exact Num.nan_lacks _
  · split
    · exact Num.lacks_refl _
    · lacks

theorem rewrap_lacks {m m' : Mat n} (h : m ⊑ m') : rewrap m ⊑ rewrap m' :=
  ⟨h.1, h.2.1, h.2.2.1, calcVp_lacks h.1 h.2.1 h.2.2.1, calcVs_lacks h.2.1 h.2.2.1⟩

theorem mixLoop_lacks {xs xs' : List (Mat n × Col n)} (hx : xs ⊑ xs') {m m' : Mat n} (hm : m ⊑ m') {t t' : Col n}
    (ht : t ⊑ t') : UptoM (mixLoop m t xs) (mixLoop m' t' xs') := by
  induction hx generalizing m m' t t' with
  | nil => exact .ok hm
  | @cons a b _ _ h _ ih =>
    obtain ⟨m1, f1⟩ := a
    obtain ⟨m2, f2⟩ := b
    obtain ⟨h1, h2⟩ := h
    unfold mixLoop
    have hs : (t + f1 : Col n) ⊑ t' + f2 := fun i => Num.lacks_add (ht i) (h2 i)
    exact .bind (hsw_lacks hm h1 (fun i => partOfTotal_lacks (ht i) (hs i)) _) fun x y hxy =>
      .seq' (ih (rewrap_lacks hxy) hs)

theorem mineralMixture_lacks {xs xs' : List (Mat n × Col n)} (hx : xs ⊑ xs') :
    UptoM (mineralMixture xs) (mineralMixture xs') := by
  cases hx with
  | nil => exact .error_left
  | @cons a b _ _ h h2 =>
    obtain ⟨m1, f1⟩ := a
    obtain ⟨m2, f2⟩ := b
    exact mixLoop_lacks h2 h.1 h.2

theorem type_lacks {k k' : FluidKind n} (h : k ⊑ k') : k.type = k'.type := by
  cases k <;> cases k' <;> first | rfl | exact h.elim

theorem defaultBrieGases_lacks {cs cs' : List (FluidSpec n)} (h : cs ⊑ cs') :
    defaultBrieGases cs = defaultBrieGases cs' := by
  unfold defaultBrieGases
  have key : ∀ k : ℕ, ((cs.zipIdx k).filter fun x => x.1.kind.type = "carbon_dioxide" ∨ x.1.kind.type = "gas").map
      (fun x => (x.2 : ℤ)) = ((cs'.zipIdx k).filter fun x => x.1.kind.type = "carbon_dioxide" ∨
        x.1.kind.type = "gas").map fun x => (x.2 : ℤ) := by
    induction h with
    | nil => intro k; rfl
    | @cons a b _ _ h _ ih =>
      intro k
      rw [List.zipIdx_cons, List.zipIdx_cons, List.filter_cons, List.filter_cons]
      simp only [type_lacks h.1]
      split
      · simp only [List.map_cons, ih]
      · exact ih _
  exact key 0

theorem mkFluids_lacks {t t' : Col n} (ht : t ⊑ t') {cs cs' : List (FluidSpec n)} (h : cs ⊑ cs') (method : MixMethod)
    {b b' : Num} (hb : b ⊑ b') (gases : Option (List ℤ)) (model : Provider) :
    UptoM (mkFluids t cs method b gases model) (mkFluids t' cs' method b' gases model) := by
  unfold mkFluids
  refine .seq' (.seq' (.seq' (.bind (fixOneFraction_lacks (forall₂_map h fun a b hab => hab.2.2))
    fun fs fs' hfs => .ok ⟨ht, ?_, rfl, hb, ?_, rfl⟩)))
  · dsimp only
    have hg := givenFractions_lacks hfs
    clear hfs
    generalize givenFractions fs = gs at hg
    generalize givenFractions fs' = gs' at hg
    induction h generalizing gs gs' with
    | nil => exact .nil
    | cons h _ ih =>
      cases hg with
      | nil => exact .nil
      | cons hg hg2 => exact .cons ⟨h.1, h.2.1, hg⟩ (ih _ _ hg2)
  · dsimp only
    rw [defaultBrieGases_lacks h]

/-! ### Rock models -/

theorem poisson_lacks {m m' : Mat n} (h : m ⊑ m') : m.poisson ⊑ m'.poisson := by
  obtain ⟨h1, h2, -⟩ := h
  unfold Mat.poisson; lacksC

theorem hertzMindlin_lacks {m m' : Mat n} {a a' b b' d d' e e' : Col n} (hm : m ⊑ m') (ha : a ⊑ a') (hb : b ⊑ b')
    (hd : d ⊑ d') (he : e ⊑ e') : UptoM (hertzMindlin m a b d e) (hertzMindlin m' a' b' d' e') := by
  have hv := poisson_lacks hm
  obtain ⟨h1, h2, h3, -⟩ := hm
  unfold hertzMindlin
  dsimp only
  exact mkModuli_lacks (by lacksC) (by lacksC) (by lacksC)

theorem friableSand_lacks {m m' : Mat n} {a a' b b' d d' e e' f f' : Col n} (hm : m ⊑ m') (ha : a ⊑ a') (hb : b ⊑ b')
    (hd : d ⊑ d') (he : e ⊑ e') (hf : f ⊑ f') :
    UptoM (friableSand m a b d e f) (friableSand m' a' b' d' e' f') := by
  unfold friableSand
  exact .bind (hertzMindlin_lacks hm hb hd hf he) fun x y hxy => hsw_lacks hm hxy (by lacksC) _

theorem cementRadiusRatio_lacks {a a' b b' : Col n} (ha : a ⊑ a') (hb : b ⊑ b') :
    UptoM (cementRadiusRatio a b) (cementRadiusRatio a' b') := by
  unfold cementRadiusRatio
  refine .seq' (.ok fun i => ?_)
  dsimp only; lacks

theorem shearStiffness_lacks {a a' b b' d d' e e' : Col n} (ha : a ⊑ a') (hb : b ⊑ b')
    (hd : d ⊑ d') (he : e ⊑ e') : shearStiffness a b d e ⊑ shearStiffness a' b' d' e' := by
  unfold shearStiffness; dsimp only; lacksC

theorem normalStiffness_lacks {a a' b b' d d' e e' f f' : Col n} (ha : a ⊑ a') (hb : b ⊑ b')
    (hd : d ⊑ d') (he : e ⊑ e') (hf : f ⊑ f') : normalStiffness a b d e f ⊑ normalStiffness a' b' d' e' f' := by
  unfold normalStiffness; dsimp only; lacksC

theorem contactCement_lacks {m m' k k' : Mat n} {a a' b b' d d' e e' : Col n} (hm : m ⊑ m') (hk : k ⊑ k')
    (ha : a ⊑ a') (hb : b ⊑ b') (hd : d ⊑ d') (he : e ⊑ e') :
    UptoM (contactCement m k a b d e) (contactCement m' k' a' b' d' e') := by
  unfold contactCement
  refine .seq' (.bind (cementRadiusRatio_lacks ha hb) fun al al' hal => ?_)
  have h1 := shearStiffness_lacks hm.2.1 hk.2.1 (poisson_lacks hk) hal
  have h2 := normalStiffness_lacks (poisson_lacks hk) (poisson_lacks hm) hm.2.1 hk.2.1 hal
  have h3 : m.pModulus ⊑ m'.pModulus := by
    obtain ⟨h1, h2, -⟩ := hm
    unfold Mat.pModulus; lacksC
  obtain ⟨hm1, hm2, hm3, -⟩ := hm
  obtain ⟨hk1, hk2, hk3, -⟩ := hk
  dsimp only
  exact mkModuli_lacks (by lacksC) (by lacksC) (by lacksC)

theorem constantCement_lacks {m m' k k' : Mat n} {a a' b b' d d' e e' f f' : Col n} (hm : m ⊑ m') (hk : k ⊑ k')
    (ha : a ⊑ a') (hb : b ⊑ b') (hd : d ⊑ d') (he : e ⊑ e') (hf : f ⊑ f') :
    UptoM (constantCement m k a b d e f) (constantCement m' k' a' b' d' e' f') := by
  unfold constantCement
  exact .bind (hsw_lacks hk hm (by lacksC) _) fun x y hxy => .bind (contactCement_lacks hk hm hb hd hf he)
    fun u v huv => hsw_lacks hxy huv (by lacksC) _

theorem patchyWeight_lacks {a a' b b' d d' : Col n} (ha : a ⊑ a') (hb : b ⊑ b') (hd : d ⊑ d') :
    patchyWeight a b d ⊑ patchyWeight a' b' d' := by
  intro i
  unfold patchyWeight
  refine Num.lacks_clip ?_ (Num.lacks_refl _) (Num.lacks_refl _)
  rcases hd i with e | e
  · rw [e, if_neg (Num.not_nan_eq _), Num.nan_sub', Num.div_nan']; exact Num.nan_lacks _
  · rw [e]
    rcases hb i with e' | e'
    · rw [e', if_neg (Num.not_eq_nan _), Num.sub_nan', Num.nan_div']; exact Num.nan_lacks _
    · rw [e']
      split
      · exact Num.lacks_refl _
      · lacks

theorem patchyCement_lacks {m m' k k' : Mat n} {a a' b b' d d' e e' f f' g g' h h' j j' l l' : Col n} (hm : m ⊑ m')
    (hk : k ⊑ k') (ha : a ⊑ a') (hb : b ⊑ b') (hd : d ⊑ d') (he : e ⊑ e') (hf : f ⊑ f') (hg : g ⊑ g') (hh : h ⊑ h')
    (hj : j ⊑ j') (hl : l ⊑ l') :
    UptoM (patchyCement m k a b d e f g h j l) (patchyCement m' k' a' b' d' e' f' g' h' j' l') := by
  unfold patchyCement
  refine .bind (hsw_lacks hk hm (by lacksC) _) fun x1 y1 h1 => .bind (friableSand_lacks h1 ha hg he hj hh)
    fun x2 y2 h2 => .bind (friableSand_lacks h1 ha hg hf hj hh) fun x3 y3 h3 =>
    .bind (constantCement_lacks hm hk ha hd hg hl hh) fun x4 y4 h4 => .bind (contactCement_lacks hk hm hb hg hh hl)
    fun x5 y5 h5 => .bind (hsw_lacks h1 h5 (by lacksC) _) fun x6 y6 h6 => ?_
  have w1 := patchyWeight_lacks h6.1 h3.1 h4.1
  have w2 := patchyWeight_lacks h6.2.1 h3.2.1 h4.2.1
  obtain ⟨p1, p2, -⟩ := h2
  obtain ⟨q1, q2, -⟩ := h4
  obtain ⟨-, -, hm3, -⟩ := hm
  obtain ⟨-, -, hk3, -⟩ := hk
  dsimp only
  exact mkModuli_lacks (by lacksC) (by lacksC) (by lacksC)

theorem murphy_lacks {a a' : Col n} (ha : a ⊑ a') : murphyCoordinationNumber a ⊑ murphyCoordinationNumber a' := by
  unfold murphyCoordinationNumber; lacksC

theorem mkFriableModel_lacks {a a' b b' : Col n} {x x' : Option (Col n)} (ha : a ⊑ a') (hb : b ⊑ b') (hx : x ⊑ x') :
    mkFriableModel a b x ⊑ mkFriableModel a' b' x' := by
  rcases Option.lacks_cases hx with ⟨rfl, rfl⟩ | ⟨_, _, rfl, rfl, h⟩
  · exact ⟨ha, hb, murphy_lacks ha⟩
  · exact ⟨ha, hb, h⟩

theorem mkPatchyModel_lacks {m m' : Mat n} {a a' b b' d d' e e' f f' : Col n} {x x' : Option (Col n)} (hm : m ⊑ m')
    (ha : a ⊑ a') (hb : b ⊑ b') (hd : d ⊑ d') (he : e ⊑ e') (hx : x ⊑ x') (hf : f ⊑ f') :
    mkPatchyModel m a b d e x f ⊑ mkPatchyModel m' a' b' d' e' x' f' := by
  rcases Option.lacks_cases hx with ⟨rfl, rfl⟩ | ⟨_, _, rfl, rfl, h⟩
  · exact ⟨hm, ha, hb, hd, he, murphy_lacks ha, hf⟩
  · exact ⟨hm, ha, hb, hd, he, h, hf⟩

theorem friableEval_lacks {f f' : FriableModel n} (hf : f ⊑ f') {p p' phi phi' : Col n} (hp : p ⊑ p')
    (hphi : phi ⊑ phi') {m m' : Mat n} (hm : m ⊑ m') :
    UptoM (f.evalMaterial p phi m) (f'.evalMaterial p' phi' m') :=
  friableSand_lacks hm hphi hf.1 hp hf.2.2 hf.2.1

theorem patchyEval_lacks {f f' : PatchyModel n} (hf : f ⊑ f') {p p' phi phi' : Col n} (hp : p ⊑ p')
    (hphi : phi ⊑ phi') {m m' : Mat n} (hm : m ⊑ m') :
    UptoM (f.evalMaterial p phi m) (f'.evalMaterial p' phi' m') := by
  obtain ⟨h1, h2, h3, h4, h5, h6, h7⟩ := hf
  exact patchyCement_lacks hm h1 hphi (by lacksC) (by lacksC) hp h4 h2 h7 h6 (Col.lacks_refl _)

/-! ### Adjustments -/

instance : Missing (Fit n) := ⟨fun x y => x.density ⊑ y.density ∧ x.primary ⊑ y.primary ∧ x.secondary ⊑ y.secondary⟩

theorem npPolyval_lacks (p : List ℝ) {x x' : Num} (h : x ⊑ x') : npPolyval p x ⊑ npPolyval p x' := by
  unfold npPolyval
  have : ∀ {a a' : Num}, a ⊑ a' → p.foldl (fun y b => y * x + Num.fin b) a ⊑ p.foldl (fun y b => y * x' + Num.fin b) a' := by
    induction p with
    | nil => exact id
    | cons b p ih => intro a a' ha; exact ih (by lacks)
  exact this (Num.lacks_refl _)

/-- Either both are the same fit, or both have the same rock model. -/
theorem PDModel.lacks_cases {m m' : PDModel n} (h : m ⊑ m') :
    m = m' ∨ (∃ f f', m = .friable f ∧ m' = .friable f' ∧ f ⊑ f') ∨
      ∃ f f', m = .patchy f ∧ m' = .patchy f' ∧ f ⊑ f' := by
  cases m <;> cases m' <;> first
    | exact .inl h
    | exact .inr (.inl ⟨_, _, rfl, rfl, h⟩)
    | exact .inr (.inr ⟨_, _, rfl, rfl, h⟩)

theorem pdEval_lacks {k k' : PDModel n} (hk : k ⊑ k') {p p' phi phi' : Col n} (hp : p ⊑ p') (hphi : phi ⊑ phi')
    {m m' : Mat n} (hm : m ⊑ m') : UptoM (k.eval p phi m) (k'.eval p' phi' m') := by
  rcases PDModel.lacks_cases hk with rfl | ⟨f, f', rfl, rfl, hf⟩ | ⟨f, f', rfl, rfl, hf⟩
  · cases k with
    | polyfit b a =>
      exact .ok ⟨fun i => npPolyval_lacks _ (hp i), fun i => npPolyval_lacks _ (hp i),
        fun i => npPolyval_lacks _ (hp i)⟩
    | expfit b a =>
      refine .ok ⟨fun i => ?_, fun i => ?_, fun i => ?_⟩ <;> dsimp only <;> lacks
    | logfit b a =>
      refine .ok ⟨fun i => ?_, fun i => ?_, fun i => ?_⟩ <;> dsimp only <;> lacks
    | powerfit a =>
      refine .ok ⟨fun i => ?_, fun i => ?_, fun i => ?_⟩ <;> dsimp only <;> lacks
    | friable f =>
      exact .bind (friableEval_lacks ⟨Col.lacks_refl _, Col.lacks_refl _, Col.lacks_refl _⟩ hp hphi hm)
        fun x y h => .ok ⟨h.2.2.1, h.1, h.2.1⟩
    | patchy f =>
      exact .bind (patchyEval_lacks ⟨Mat.lacks_refl _, Col.lacks_refl _, Col.lacks_refl _, Col.lacks_refl _,
        Col.lacks_refl _, Col.lacks_refl _, Col.lacks_refl _⟩ hp hphi hm) fun x y h => .ok ⟨h.2.2.1, h.1, h.2.1⟩
  · exact .bind (friableEval_lacks hf hp hphi hm) fun x y h => .ok ⟨h.2.2.1, h.1, h.2.1⟩
  · exact .bind (patchyEval_lacks hf hp hphi hm) fun x y h => .ok ⟨h.2.2.1, h.1, h.2.1⟩

theorem PDModel.useModuli_lacks {k k' : PDModel n} (hk : k ⊑ k') : k.useModuli = k'.useModuli := by
  rcases PDModel.lacks_cases hk with rfl | ⟨f, f', rfl, rfl, hf⟩ | ⟨f, f', rfl, rfl, hf⟩ <;> rfl

theorem ratioDependency_lacks {k k' : PDModel n} (hk : k ⊑ k') {x x' : Mat n} (hx : x ⊑ x')
    {p p' r r' phi phi' : Col n} (hp : p ⊑ p') (hr : r ⊑ r') (hphi : phi ⊑ phi')
    {m m' : Mat n} (hm : m ⊑ m') : UptoM (ratioDependency k x p r phi m) (ratioDependency k' x' p' r' phi' m') := by
  unfold ratioDependency
  rw [PDModel.useModuli_lacks hk]
  refine .bind (pdEval_lacks hk hr hphi hm) fun a a' ha => .bind (pdEval_lacks hk hp hphi hm) fun b b' hb => .seq' ?_
  obtain ⟨x1, x2, x3, x4, x5⟩ := hx
  obtain ⟨a1, a2, a3⟩ := ha
  obtain ⟨b1, b2, b3⟩ := hb
  split
  · exact mkModuli_lacks (by lacksC) (by lacksC) (by lacksC)
  · exact mkVelocities_lacks (by lacksC) (by lacksC) (by lacksC)

theorem powerDependency_lacks (a : Coef3 (ℝ × ℝ)) {x x' : Mat n} (hx : x ⊑ x') {p p' r r' : Col n} (hp : p ⊑ p')
    (hr : r ⊑ r') : UptoM (powerDependency a x p r) (powerDependency a x' p' r') := by
  unfold powerDependency
  have hk : (PDModel.powerfit a : PDModel n) ⊑ PDModel.powerfit a := rfl
  refine .bind (pdEval_lacks hk hr (Col.lacks_refl _) hx) fun a a' ha =>
    .bind (pdEval_lacks hk hp (Col.lacks_refl _) hx) fun b b' hb => .seq' ?_
  obtain ⟨x1, x2, x3, x4, x5⟩ := hx
  obtain ⟨a1, a2, a3⟩ := ha
  obtain ⟨b1, b2, b3⟩ := hb
  exact mkModuli_lacks (by lacksC) (by lacksC) (by lacksC)

theorem truncate_lacks {m m' : Option (Col n)} (hm : m ⊑ m') {x x' : Col n} (hx : x ⊑ x') :
    truncate m x ⊑ truncate m' x' := by
  rcases Option.lacks_cases hm with ⟨rfl, rfl⟩ | ⟨a, b, rfl, rfl, hab⟩
  · exact hx
  · exact fun i => Num.lacks_minimum (hx i) (hab i)

theorem truncatedRock_lacks {p p' : Pressure n} (h : p ⊑ p') : UptoM p.truncatedRock p'.truncatedRock := by
  obtain ⟨h1, h2, h3, h4, h5⟩ := h
  unfold Pressure.truncatedRock Pressure.effectiveRock
  exact .bind (R := fun x y : Col n => x ⊑ y) (.bind (needCol_lacks h5) fun a b hab =>
    .ok fun i => Num.lacks_sub (h1 i) (hab i)) fun a b hab => .ok (truncate_lacks h4 hab)

theorem truncatedReference_lacks {p p' : Pressure n} (h : p ⊑ p') : p.truncatedReference ⊑ p'.truncatedReference := by
  obtain ⟨h1, h2, h3, h4, h5⟩ := h
  exact truncate_lacks h4 fun i => Num.lacks_sub (h1 i) (h2 i)

theorem pressureDependency_lacks {k k' : PDModel n} (hk : k ⊑ k') {x x' : Mat n} (hx : x ⊑ x')
    {p p' : Pressure n} (hp : p ⊑ p') {phi phi' : Col n} (hphi : phi ⊑ phi') {m m' : Mat n} (hm : m ⊑ m') :
    UptoM (pressureDependency k x p phi m) (pressureDependency k' x' p' phi' m') := by
  unfold pressureDependency
  have hr := truncatedReference_lacks hp
  refine .bind (truncatedRock_lacks hp) fun e e' he => ?_
  rcases PDModel.lacks_cases hk with rfl | ⟨f, f', rfl, rfl, hf⟩ | ⟨f, f', rfl, rfl, hf⟩
  · cases k with
    | powerfit a => exact .bind (needCol_lacks hp.2.2.2.2) fun q q' hq => powerDependency_lacks a hx hq hr
    | polyfit b a => exact ratioDependency_lacks hk hx he hr hphi hm
    | expfit b a => exact ratioDependency_lacks hk hx he hr hphi hm
    | logfit b a => exact ratioDependency_lacks hk hx he hr hphi hm
    | friable f => exact ratioDependency_lacks hk hx he hr hphi hm
    | patchy f => exact ratioDependency_lacks hk hx he hr hphi hm
  · exact ratioDependency_lacks hk hx he hr hphi hm
  · exact ratioDependency_lacks hk hx he hr hphi hm

theorem adjust_lacks {a a' : Adjustment n} (ha : a ⊑ a') {x x' : Mat n} (hx : x ⊑ x')
    {p p' : Pressure n} (hp : p ⊑ p') {phi phi' : Col n} (hphi : phi ⊑ phi') {m m' : Mat n} (hm : m ⊑ m') :
    UptoM (a.adjust x p phi m) (a'.adjust x' p' phi' m') := by
  cases a <;> cases a' <;> try exact ha.elim
  · exact pressureDependency_lacks ha hx hp hphi hm
  · obtain ⟨h1, h2, h3, h4, h5⟩ := ha
    unfold Adjustment.adjust DepthTrend.adjustMaterial
    dsimp only
    rw [h4, h5]
    refine polyvalMaterial_lacks ?_ hx _ _ _ _
    unfold DepthTrend.effectiveDepth
    dsimp only
    rcases Option.lacks_cases h2 with ⟨e, e'⟩ | ⟨a, b, e, e', hab⟩ <;> rw [e, e']
    · exact h1
    · exact fun i => Num.lacks_sub (h1 i) (hab i)

theorem adjustAll_lacks {p p' : Pressure n} (hp : p ⊑ p') {phi phi' : Col n} (hphi : phi ⊑ phi') {m m' : Mat n}
    (hm : m ⊑ m') {as as' : List (Adjustment n)} (ha : as ⊑ as') {x x' : Mat n} (hx : x ⊑ x') :
    UptoM (adjustAll p phi m as x) (adjustAll p' phi' m' as' x') := by
  induction ha generalizing x x' with
  | nil => exact .ok hx
  | cons h _ ih => exact .bind (adjust_lacks h hx hp hphi hm) fun y y' hy => ih hy

/-! ### Dry rock -/

theorem SandModel.lacks_cases {m m' : SandModel n} (h : m ⊑ m') :
    (∃ b a, m = .polyfit b a ∧ m' = .polyfit b a) ∨ (∃ f f', m = .friable f ∧ m' = .friable f' ∧ f ⊑ f') ∨
      ∃ f f', m = .patchy f ∧ m' = .patchy f' ∧ f ⊑ f' := by
  cases m <;> cases m' <;> first
    | exact .inr (.inl ⟨_, _, rfl, rfl, h⟩)
    | exact .inr (.inr ⟨_, _, rfl, rfl, h⟩)
    | (have h' : _ = _ := h
       cases h'
       done)
    | (have h' : _ = _ := h
       cases h'
       exact .inl ⟨_, _, rfl, rfl⟩)

theorem sandEval_lacks {k k' : SandModel n} (hk : k ⊑ k') {p p' phi phi' : Col n} (hp : p ⊑ p') (hphi : phi ⊑ phi')
    {m m' : Mat n} (hm : m ⊑ m') : UptoM (k.evalMaterial p phi m) (k'.evalMaterial p' phi' m') := by
  rcases SandModel.lacks_cases hk with ⟨b, a, rfl, rfl⟩ | ⟨f, f', rfl, rfl, hf⟩ | ⟨f, f', rfl, rfl, hf⟩
  · unfold SandModel.evalMaterial
    exact .bind (R := (· = ·)) (fun a b ha hb => by rw [ha] at hb; injection hb) fun d d' hd =>
      .bind (R := (· = ·)) (fun a b ha hb => by rw [ha] at hb; injection hb) fun q q' hq =>
      .bind (R := (· = ·)) (fun a b ha hb => by rw [ha] at hb; injection hb) fun s s' hs => by
        subst hd hq hs
        exact polyvalMaterial_lacks hphi hm _ _ _ _
  · exact friableEval_lacks hf hp hphi hm
  · exact patchyEval_lacks hf hp hphi hm

theorem nonporous_lacks {k k' : SandModel n} (hk : k ⊑ k') {m m' : Mat n} (hm : m ⊑ m') :
    UptoM (k.nonporous m) (k'.nonporous m') := by
  rcases SandModel.lacks_cases hk with ⟨b, a, rfl, rfl⟩ | ⟨f, f', rfl, rfl, hf⟩ | ⟨f, f', rfl, rfl, hf⟩
  · exact .ok hm
  · exact .ok hm
  · exact hsw_lacks hf.1 hm hf.2.2.2.2.1 _

instance : Missing (DryRock n) := ⟨fun x y => x.model ⊑ y.model ∧ x.porosity ⊑ y.porosity ∧
  x.adjustments ⊑ y.adjustments⟩

theorem dryRockMaterial_lacks {d d' : DryRock n} (hd : d ⊑ d') {m m' : Mat n} (hm : m ⊑ m') {p p' : Pressure n}
    (hp : p ⊑ p') : UptoM (d.material m p) (d'.material m' p') :=
  .bind (truncatedRock_lacks hp) fun _ _ he => .bind (sandEval_lacks hd.1 he hd.2.1 hm) fun _ _ hx =>
    adjustAll_lacks hp hd.2.1 hm hd.2.2 hx

theorem fillDefaults_lacks {k k' : SandModel n} (hk : k ⊑ k') : k.fillDefaults ⊑ k'.fillDefaults := by
  rcases SandModel.lacks_cases hk with ⟨b, a, rfl, rfl⟩ | ⟨f, f', rfl, rfl, hf⟩ | ⟨f, f', rfl, rfl, hf⟩
  · exact (rfl : _ = _)
  · exact hf
  · exact hf

theorem mkDryRock_lacks {k k' : SandModel n} (hk : k ⊑ k') {phi phi' : Col n} (hphi : phi ⊑ phi')
    {as as' : List (Adjustment n)} (ha : as ⊑ as') : UptoM (mkDryRock k phi as) (mkDryRock k' phi' as') := by
  have hres : (⟨k.fillDefaults, phi, as⟩ : DryRock n) ⊑ ⟨k'.fillDefaults, phi', as'⟩ :=
    And.intro (fillDefaults_lacks hk) (And.intro hphi ha)
  unfold mkDryRock
  rcases SandModel.lacks_cases hk with ⟨b, a, rfl, rfl⟩ | ⟨f, f', rfl, rfl, hf⟩ | ⟨f, f', rfl, rfl, hf⟩
  · exact .seq' (.ok hres)
  · exact .seq' (.ok hres)
  · exact .seq' (.seq' (.ok hres))

theorem mkPressure_lacks {a a' b b' : Col n} {f f' m m' r r' : Option (Col n)} (ha : a ⊑ a') (hb : b ⊑ b')
    (hf : f ⊑ f') (hm : m ⊑ m') (hr : r ⊑ r') : UptoM (mkPressure a b f m r) (mkPressure a' b' f' m' r') := by
  unfold mkPressure
  rcases Option.lacks_cases hf with ⟨rfl, rfl⟩ | ⟨x, y, rfl, rfl, hxy⟩ <;>
  rcases Option.lacks_cases hr with ⟨rfl, rfl⟩ | ⟨u, v, rfl, rfl, huv⟩
  · exact .ok ⟨ha, hb, .none, hm, .none⟩
  · exact .ok ⟨ha, hb, .some huv, hm, .some huv⟩
  · exact .ok ⟨ha, hb, .some hxy, hm, .some hxy⟩
  · exact .ok ⟨ha, hb, .some hxy, hm, .some huv⟩

instance : Missing (Input n) := ⟨fun x y => x.minerals ⊑ y.minerals ∧ x.fluids ⊑ y.fluids ∧ x.dryRock ⊑ y.dryRock ∧
  x.pressure ⊑ y.pressure⟩

theorem mkInput_lacks {s t : Sections n} (h : s ⊑ t) : UptoM (mkInput s) (mkInput t) := by
  obtain ⟨h1, h2, h3, h4, h5, h6, h7, h8, h9, h10, h11, h12, h13, h14, h15⟩ := h
  unfold mkInput
  rw [h4, h6, h7]
  exact .bind (mkMinerals_lacks h1) fun m m' hm => .bind (mkFluids_lacks h2 h3 _ h5 _ _) fun f f' hf =>
    .bind (mkDryRock_lacks h8 h9 h10) fun d d' hd => .bind (mkPressure_lacks h11 h12 h13 h14 h15) fun p p' hp =>
    .ok ⟨hm, hf, hd, hp⟩

/-- **C150, calculation.** If the sections `s` are the sections `t` with some numbers missing and both
calculations go through, the results of `s` are those of `t` with some numbers missing. -/
theorem C150_calculation (hco2 : CO2Missing co2) {s t : Sections n} (h : s ⊑ t) {r r' : Result n}
    (hs : calculate co2 s = .ok r) (ht : calculate co2 t = .ok r') : r ⊑ r' := by
  have key : UptoM (calculate co2 s) (calculate co2 t) := by
    unfold calculate
    refine .bind (mkInput_lacks h) fun x y hxy => ?_
    obtain ⟨h1, h2, h3, h4⟩ := hxy
    unfold calculateResults
    refine .bind (mineralMixture_lacks h1) fun m m' hm => .bind (mixFluids_lacks hco2 h2 h4) fun f f' hf => ?_
    obtain ⟨hf1, hf2⟩ := hf
    exact .bind (dryRockMaterial_lacks h3 hm hf2) fun d d' hd => .bind (nonporous_lacks h3.1 hm) fun k k' hk =>
      .bind (fluidSubstitution_lacks hd hk hf1 h3.2.1) fun u v huv => .ok ⟨huv.1, hm.1, hd.1, huv.2.1, huv.2.2.1, hk.1⟩
  exact key r r' hs ht

end OPE
