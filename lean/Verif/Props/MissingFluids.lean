import Verif.Props.MissingPorosity
import Verif.Props.Rock
import Verif.Props.Warnings

/-!
# Missing pore fluid data do not stop the calculation (C157)
-/

namespace OPE

open Classical

variable {n : ℕ}

theorem Parse.Both.down {α β : Type} {R : α → β → Prop} {x : Except Err α} {y : Except Err β} (h : Parse.Both R x y) :
    Down R x y := by
  intro b hb
  rcases h with ⟨a, b', ha, hb', hab⟩ | ⟨-, e, he⟩
  · rw [hb'] at hb; injection hb with hb; subst hb; exact ⟨a, ha, hab⟩
  · rw [he] at hb; cases hb

/-! ### Materials -/

theorem mkMaterial_down {b b' g g' d d' s s' p p' : Option (Col n)} (hb : b ⊑ b') (hg : g ⊑ g') (hd : d ⊑ d')
    (hs : s ⊑ s') (hp : p ⊑ p') : DownM (mkMaterial b g d s p) (mkMaterial b' g' d' s' p') := by
  rcases Option.lacks_cases hb with ⟨rfl, rfl⟩ | ⟨b, b', rfl, rfl, hb⟩ <;>
  rcases Option.lacks_cases hg with ⟨rfl, rfl⟩ | ⟨g, g', rfl, rfl, hg⟩ <;>
  rcases Option.lacks_cases hd with ⟨rfl, rfl⟩ | ⟨d, d', rfl, rfl, hd⟩ <;>
  rcases Option.lacks_cases hs with ⟨rfl, rfl⟩ | ⟨s, s', rfl, rfl, hs⟩ <;>
  rcases Option.lacks_cases hp with ⟨rfl, rfl⟩ | ⟨p, p', rfl, rfl, hp⟩ <;>
  first
  | exact Down.error
  | (unfold mkMaterial setDefaults
     dsimp only [bind_ok]
     refine checkMaterial_down (And.intro ?_ ⟨?_, ?_, ?_, ?_⟩) (.ok (And.intro ?_ ⟨?_, ?_, ?_, ?_⟩)) <;>
      (repeat' (first
        | assumption
        | apply calcShear_lacks | apply calcBulk_lacks | apply calcVp_lacks | apply calcVs_lacks)))

theorem fluidMaterial_down {b b' d d' : Col n} (hb : b ⊑ b') (hd : d ⊑ d') :
    DownM (fluidMaterial b d) (fluidMaterial b' d') :=
  mkMaterial_down (.some hb) (.some (Col.lacks_refl _)) (.some hd) .none .none

theorem fluidVelocity_down {d d' p p' : Col n} (hd : d ⊑ d') (hp : p ⊑ p') :
    DownM (fluidVelocity d p) (fluidVelocity d' p') :=
  mkMaterial_down .none (.some (Col.lacks_refl _)) (.some hd) .none (.some hp)

theorem vectorizeMaterial_down {f g : Fin n → Except Err (Mat 1)} (h : ∀ i, DownM (f i) (g i)) :
    DownM (vectorizeMaterial f) (vectorizeMaterial g) := by
  unfold vectorizeMaterial
  exact .bind (.vec h) fun a b hab => mkVelocities_down (fun i => (hab i).2.2.1 0) (fun i => (hab i).2.2.2.1 0)
    (fun i => (hab i).2.2.2.2 0)

/-! ### Fluid models -/

theorem deadOil_down {t t' p p' r r' : Col n} (ht : t ⊑ t') (hp : p ⊑ p') (hr : r ⊑ r') :
    DownM (deadOil t p r) (deadOil t' p' r') := by
  unfold deadOil
  refine fluidVelocity_down (fun i => ?_) (fun i => ?_)
  · unfold deadOilDensity temperatureAdjustedDeadOilDensity pressureAdjustedDeadOilDensity; lacks
  · unfold deadOilVelocity; lacks

theorem liveOil_down {t t' p p' r r' o o' g g' : Col n} (ht : t ⊑ t') (hp : p ⊑ p') (hr : r ⊑ r') (ho : o ⊑ o')
    (hg : g ⊑ g') : DownM (liveOil t p r o g) (liveOil t' p' r' o' g') := by
  unfold liveOil
  refine fluidVelocity_down (fun i => ?_) (fun i => ?_)
  · unfold liveOilDensity liveOilVolumeFactor; lacks
  · unfold liveOilVelocity deadOilVelocity liveOilPseudoDensity liveOilVolumeFactor; lacks

theorem oil_down {t t' p p' r r' o o' g g' : Num} (ht : t ⊑ t') (hp : p ⊑ p') (hr : r ⊑ r') (ho : o ⊑ o')
    (hg : g ⊑ g') : DownM (oil t p r o g) (oil t' p' r' o' g') := by
  unfold oil
  refine .bind (liveOil_down (fun _ => ht) (fun _ => hp) (fun _ => hr) (fun _ => ho) (fun _ => hg))
    fun l l' hl => .bind (deadOil_down (fun _ => ht) (fun _ => hp) (fun _ => hr)) fun d d' hd => ?_
  have hw := triangularWindow_lacks ho
  obtain ⟨-, -, hl3, hl4, -⟩ := hl
  obtain ⟨-, -, hd3, hd4, -⟩ := hd
  exact fluidVelocity_down (by lacksC) (by lacksC)

theorem gas_down {t t' p p' g g' : Col n} (ht : t ⊑ t') (hp : p ⊑ p') (hg : g ⊑ g') :
    DownM (gas t p g) (gas t' p' g') := by
  unfold gas gasDensity idealGas
  refine .bind (.bind (fluidVelocity_down (fun i => ?_) (fun i => ?_)) fun m m' hm => .ok ?_) fun d d' hd =>
    fluidMaterial_down (fun i => ?_) hd
  · dsimp only; unfold idealGasDensity molecularWeight molarVolume celsiusToKelvin; lacks
  · dsimp only; unfold idealGasVelocity molecularWeight celsiusToKelvin; lacks
  · obtain ⟨-, -, hm3, -⟩ := hm
    intro i
    refine Num.lacks_div (hm3 i) ?_
    unfold compressabilityFactor pseudoreducedTemperature pseudoreducedPressure celsiusToKelvin; dsimp only; lacks
  · unfold gasBulkModulus compressabilityFactor compressabilityRate pseudoreducedTemperature pseudoreducedPressure
      celsiusToKelvin
    dsimp only; lacks

theorem brine_down {t t' p p' s s' : Col n} (ht : t ⊑ t') (hp : p ⊑ p') (hs : s ⊑ s') :
    DownM (brine t p s) (brine t' p' s') := by
  unfold brine
  refine fluidVelocity_down (fun i => ?_) (fun i => ?_)
  · refine Num.lacks_mul (Num.lacks_add ?_ (Num.lacks_mul ?_ ?_)) (Num.lacks_refl _)
    · exact polyval2d_lacks (ht i) (Num.lacks_mul (hp i) (Num.lacks_refl _)) _
    · lacks
    · exact polyval3d_lacks (Num.lacks_mul (hs i) (Num.lacks_refl _)) (ht i)
        (Num.lacks_mul (hp i) (Num.lacks_refl _)) _
  · refine Num.lacks_add ?_ (Num.lacks_mul ?_ ?_)
    · exact polyval2d_lacks (ht i) (Num.lacks_mul (hp i) (Num.lacks_refl _)) _
    · lacks
    · exact polyval3d_lacks (Num.lacks_sqrt (Num.lacks_mul (hs i) (Num.lacks_refl _))) (ht i)
        (Num.lacks_mul (hp i) (Num.lacks_refl _)) _

/-- The two parts of a call that sees the pressure array: if the second goes through so does the first. -/
def EffDown {α : Type} [Missing α] (x y : Effect n α) : Prop :=
  ∀ b, y.1 = .ok b → ∃ a, x.1 = .ok a ∧ a ⊑ b ∧ x.2 ⊑ y.2

variable {co2 : CO2Model n}

/-- No carbon dioxide, or temperature and pressure known. -/
def CO2Known (kinds : List (FluidKind n)) (t t' p p' : Col n) : Prop :=
  (∀ k ∈ kinds, k.type ≠ "carbon_dioxide") ∨ t = t' ∧ p = p'

theorem asMaterial_down (provider : Provider) {t t' p p' : Col n} (ht : t ⊑ t')
    (hp : p ⊑ p') {k k' : FluidKind n} (hk : k ⊑ k') (hc : k'.type ≠ "carbon_dioxide" ∨ t = t' ∧ p = p') :
    EffDown (k.asMaterial co2 provider t p) (k'.asMaterial co2 provider t' p') ∧
      (t = t' ∧ p = p' → (k.asMaterial co2 provider t p).2 = (k'.asMaterial co2 provider t' p').2) := by
  have key : ∀ {x y : Except Err (Mat n)} {q q' : Col n}, DownM x y → q ⊑ q' → (t = t' ∧ p = p' → q = q') →
      EffDown (n := n) (x, q) (y, q') ∧ (t = t' ∧ p = p' → q = q') :=
    fun hx hq e => ⟨fun b hb => by obtain ⟨a, ha, hab⟩ := hx b hb; exact ⟨a, ha, hab, hq⟩, e⟩
  have e : t = t' ∧ p = p' → p = p' := fun h => h.2
  cases k <;> cases k' <;> try exact hk.elim
  · exact key (.ok hk) hp e
  · obtain ⟨h1, h2, h3⟩ := hk
    cases provider
    · exact key (vectorizeMaterial_down fun i => oil_down (ht i) (hp i) (h1 i) (h2 i) (h3 i)) hp e
    · exact key (vectorizeMaterial_down fun i => oil_down (ht i) (hp i) (h1 i) (h2 i) (h3 i)) hp e
    · exact key .error hp e
  · have hk' : ∀ i, _ := hk
    cases provider
    · exact key (vectorizeMaterial_down fun i => gas_down (fun _ => ht i) (fun _ => hp i) (fun _ => hk i)) hp e
    · exact key (vectorizeMaterial_down fun i => gas_down (fun _ => ht i) (fun _ => hp i) (fun _ => hk i)) hp e
    · exact key .error hp e
  · cases provider
    · exact key (vectorizeMaterial_down fun i => brine_down (fun _ => ht i) (fun _ => hp i) (fun _ => hk i)) hp e
    · exact key (vectorizeMaterial_down fun i => brine_down (fun _ => ht i) (fun _ => hp i) (fun _ => hk i)) hp e
    · exact key .error hp e
  · exact key .error hp e
  · obtain rfl : _ = _ := hk
    obtain ⟨rfl, rfl⟩ := hc.resolve_left (fun h => h rfl)
    cases provider
    · exact key .error hp e
    · exact key .error hp e
    · refine ⟨fun b hb => ⟨b, hb, Mat.lacks_refl _, Col.lacks_refl _⟩, fun _ => rfl⟩

theorem materialsOf_down (sec : Provider) {t t' : Col n} (ht : t ⊑ t') {xs xs' : List (FluidConst n)} (hx : xs ⊑ xs')
    {p p' : Col n} (hp : p ⊑ p') (hc : CO2Known (xs'.map (·.kind)) t t' p p') :
    EffDown (materialsOf co2 sec t xs p) (materialsOf co2 sec t' xs' p') := by
  induction hx generalizing p p' with
  | nil =>
    intro b hb
    cases hb
    exact ⟨_, rfl, .nil, hp⟩
  | @cons x x' xs xs' h _ ih =>
    obtain ⟨h1, h2, h3⟩ := h
    have hm := asMaterial_down (co2 := co2) (x.model.getD sec) ht hp h1
      (hc.imp (fun h => h _ List.mem_cons_self) id)
    intro b hb
    have e : x'.asMaterial co2 sec t' p' = x'.kind.asMaterial co2 (x.model.getD sec) t' p' := by
      rw [h2]; rfl
    have e' : x.asMaterial co2 sec t p = x.kind.asMaterial co2 (x.model.getD sec) t p := rfl
    unfold materialsOf at hb ⊢
    rw [e'] at ⊢
    rw [e] at hb ⊢
    rcases hx' : x'.kind.asMaterial co2 (x.model.getD sec) t' p' with ⟨_ | m', q'⟩ <;> rw [hx'] at hb hm
    · cases hb
    obtain ⟨m, hm1, hmm, hq⟩ := hm.1 m' rfl
    rcases hx : x.kind.asMaterial co2 (x.model.getD sec) t p with ⟨_ | m0, q⟩ <;> rw [hx] at hm hm1 hq
    · cases hm1
    obtain rfl : m0 = m := by injection hm1
    have ih' := ih hq (hc.imp (fun h k hk => h k (List.mem_cons_of_mem _ hk)) fun h => ⟨h.1, hm.2 h⟩)
    dsimp only at hb ⊢
    rcases hy' : materialsOf co2 sec t' xs' q' with ⟨_ | ms', r'⟩ <;> rw [hy'] at hb ih'
    · cases hb
    obtain ⟨ms, hms1, hms, hr⟩ := ih' ms' rfl
    rcases hy : materialsOf co2 sec t xs q with ⟨_ | ms0, r⟩ <;> rw [hy] at hms1 hr
    · cases hms1
    obtain rfl : ms0 = ms := by injection hms1
    cases hb
    exact ⟨_, rfl, .cons hmm hms, hr⟩

/-! ### Mixing -/

theorem popAll_down {α : Type} [Missing α] (is : List ℤ) {l l' : List α} (h : l ⊑ l') :
    DownM (popAll is l) (popAll is l') := by
  induction is generalizing l l' with
  | nil => exact .ok ⟨.nil, h⟩
  | cons i is ih =>
    unfold popAll
    refine Down.bind (R := fun (a b : α × List α) => a.1 ⊑ b.1 ∧ a.2 ⊑ b.2) ?_ fun a b hab =>
      .bind (ih hab.2) fun x y hxy => .ok ⟨.cons hab.1 hxy.1, hxy.2⟩
    unfold pyPop
    rw [List.Forall₂.length_eq h]
    dsimp only
    generalize (if i < 0 then i + (l'.length : ℤ) else i) = k
    by_cases hk : k < 0
    · simp only [if_pos hk]
      exact .error
    · simp only [if_neg hk]
      have := forall₂_get h k.toNat
      generalize k.toNat = j at this
      rcases hx : l[j]? with _ | x <;> rcases hy : l'[j]? with _ | y <;> rw [hx, hy] at this
      · exact .error
      · cases this
      · cases this
      · cases this with
        | some hxy => exact .ok (And.intro hxy (forall₂_erase h j))

theorem mixBulkModuli_down {fs fs' : List (Mat n)} {ss ss' : List (Col n)} (hf : fs ⊑ fs') (hs : ss ⊑ ss') :
    DownM (mixBulkModuli fs ss) (mixBulkModuli fs' ss') := by
  unfold mixBulkModuli
  have hz := zip_lacks hs hf
  rw [forall₂_isEmpty hz]
  split
  · exact .error
  · refine .ok fun i => Num.lacks_div (Num.lacks_refl _) (sumCols_lacks (forall₂_map hz fun a b hab i => ?_) i)
    exact Num.lacks_div (hab.1 i) (hab.2.1 i)

theorem wood_down {fs fs' : List (Mat n)} {ss ss' : List (Col n)} (hf : fs ⊑ fs') (hs : ss ⊑ ss') :
    DownM (wood fs ss) (wood fs' ss') := by
  have h := sumSaturationsToOne_lacks hs
  exact .bind (mixBulkModuli_down hf h) fun b b' hb => fluidMaterial_down hb (mixDensities_lacks hf h)

theorem brie_down {fs fs' gs gs' : List (Mat n)} {ss ss' ts ts' : List (Col n)} {e e' : Col n} (hf : fs ⊑ fs')
    (hs : ss ⊑ ss') (hg : gs ⊑ gs') (ht : ts ⊑ ts') (he : e ⊑ e') :
    DownM (brie fs ss gs ts e) (brie fs' ss' gs' ts' e') := by
  unfold brie
  rw [List.Forall₂.length_eq hf, List.Forall₂.length_eq hg, List.Forall₂.length_eq hs, List.Forall₂.length_eq ht]
  refine .check id (.check id ?_)
  have hsum := sumCols_lacks hs
  split
  · refine .bind (wood_down hf hs) fun l l' hl => ?_
    split
    · refine .bind (wood_down hg ht) fun g g' hg => ?_
      refine fluidMaterial_down ?_ (mixDensities_lacks (.cons hl (.cons hg .nil))
        (.cons hsum (.cons (fun i => Num.lacks_sub (Num.lacks_refl _) (hsum i)) .nil)))
      obtain ⟨hl1, -⟩ := hl
      obtain ⟨hg1, -⟩ := hg
      lacksC
    · exact .ok hl
  · split
    · exact wood_down hg ht
    · exact .error

theorem mix_down {f f' : Fluids n} (hf : f ⊑ f') {ms ms' : List (Mat n)} (hm : ms ⊑ ms') :
    DownM (f.mix ms) (f'.mix ms') := by
  obtain ⟨-, hc, h3, h4, h5, -⟩ := hf
  have hfr : f.constituents.map (·.fraction) ⊑ f'.constituents.map (·.fraction) :=
    forall₂_map hc fun a b hab => hab.2.2
  unfold Fluids.mix
  rw [← h3, ← h5]
  cases f.method with
  | wood => exact wood_down hm hfr
  | brie =>
    refine .bind (popAll_down _ hm) fun a b hab => .bind (popAll_down _ hfr) fun x y hxy => ?_
    exact brie_down hab.2 hxy.2 hab.1 hxy.1 fun _ => h4

theorem mixFluids_down {f f' : Fluids n} (hf : f ⊑ f') {p p' : Pressure n} (hp : p ⊑ p')
    (hc : (∀ x ∈ f'.constituents, x.kind.type ≠ "carbon_dioxide") ∨
      f.temperature = f'.temperature ∧ p.fluid = p'.fluid) :
    DownM (mixFluids co2 f p) (mixFluids co2 f' p') := by
  obtain ⟨h1, h2, h3, h4, h5⟩ := hp
  unfold mixFluids
  rcases Option.lacks_cases h3 with ⟨e1, e2⟩ | ⟨q, q', e1, e2, hq⟩
  · rw [e2]; exact .error
  rw [e1, e2]
  change DownM (match f.asMixture co2 q with
    | (.error e, _) => .error e
    | (.ok m, r) => .ok (m, { p with fluid := some r }))
    (match f'.asMixture co2 q' with
    | (.error e, _) => .error e
    | (.ok m, r) => .ok (m, { p' with fluid := some r }))
  unfold Fluids.asMixture
  have hm := materialsOf_down (co2 := co2) f.model hf.1 hf.2.1 hq (hc.imp (fun h k hk => by
    obtain ⟨x, hx, rfl⟩ := List.mem_map.mp hk
    exact h x hx) fun h => ⟨h.1, by rw [e1, e2] at h; exact Option.some.inj h.2⟩)
  have e : f'.model = f.model := hf.2.2.2.2.2.symm
  rw [e]
  rcases hy : materialsOf co2 f.model f'.temperature f'.constituents q' with ⟨_ | ms', r'⟩ <;> rw [hy] at hm
  · exact .error
  obtain ⟨ms, hms1, hms, hr⟩ := hm ms' rfl
  rcases hx : materialsOf co2 f.model f.temperature f.constituents q with ⟨_ | ms0, r⟩ <;> rw [hx] at hms1 hr
  · cases hms1
  obtain rfl : ms0 = ms := by injection hms1
  dsimp only
  intro b hb
  rcases hy : f'.mix ms' with _ | m' <;> rw [hy] at hb
  · cases hb
  obtain ⟨m, hm, hmm⟩ := mix_down hf hms m' hy
  rw [hm]
  cases hb
  exact ⟨_, rfl, hmm, h1, h2, .some hr, h4, h5⟩

/-! ### Fractions and the pore fluids section -/

theorem fractionIsRatio_down {f f' : Col n} (h : f ⊑ f') (hf : fractionIsRatio f' = .ok ()) :
    fractionIsRatio f = .ok () := by
  have hD : Down (fun _ _ => True) (fractionIsRatio f) (fractionIsRatio f') := by
    unfold fractionIsRatio
    refine .check (fun ⟨i, hi⟩ => ⟨i, Num.lt_of_lacks (h i) (Num.lacks_refl _) hi⟩) ?_
    intro _ hq
    exact ⟨(), failIf_false fun ⟨i, hi⟩ => failIf_ok_iff.mp hq ⟨i, Num.lt_of_lacks (Num.lacks_refl _) (h i) hi⟩,
      trivial⟩
  obtain ⟨⟨⟩, h, -⟩ := hD () hf
  exact h

theorem fixOneFraction_down {fs fs' : List (Option (Col n))} (h : fs ⊑ fs') :
    DownM (fixOneFraction fs) (fixOneFraction fs') := by
  have hs := sumCols_lacks (givenFractions_lacks h)
  unfold fixOneFraction
  rw [count_none_lacks h]
  refine .check (fun ⟨i, hi⟩ => ⟨i, Num.lt_of_lacks (Num.lacks_refl _) (hs i) hi⟩) ?_
  split
  · exact .ok h
  · have hm : (c 1 - sumCols (givenFractions fs) : Col n) ⊑ c 1 - sumCols (givenFractions fs') :=
      fun i => Num.lacks_sub (Num.lacks_refl _) (hs i)
    refine .check id (.bind (R := fun _ _ => True) (fun _ hb => ⟨(), fractionIsRatio_down hm hb, trivial⟩)
      fun _ _ _ => .ok (forall₂_map h fun a b hab => ?_))
    rcases Option.lacks_cases hab with ⟨rfl, rfl⟩ | ⟨x, y, rfl, rfl, hxy⟩
    · exact .some hm
    · exact .some hxy

theorem forM_down {α β : Type} {R : α → β → Prop} {f : α → Except Err Unit} {g : β → Except Err Unit} {xs : List α}
    {ys : List β} (h : List.Forall₂ R xs ys) (hfg : ∀ a b, R a b → g b = .ok () → f a = .ok ())
    (hok : ys.forM g = .ok ()) : xs.forM f = .ok () := by
  induction h with
  | nil => rfl
  | @cons x y xs ys h _ ih =>
    unfold List.forM at hok ⊢
    obtain ⟨⟨⟩, h1, h2⟩ := bind_eq_ok.mp hok
    rw [hfg x y h h1, bind_ok]
    exact ih h2

theorem mkFluids_down {t t' : Col n} (ht : t ⊑ t') {cs cs' : List (FluidSpec n)} (h : cs ⊑ cs') (method : MixMethod)
    {b b' : Num} (hb : b ⊑ b') (gases : Option (List ℤ)) (model : Provider) :
    DownM (mkFluids t cs method b gases model) (mkFluids t' cs' method b' gases model) := by
  intro r' hr'
  have hup := mkFluids_lacks ht h method hb gases model
  suffices ∃ r, mkFluids t cs method b gases model = .ok r by
    obtain ⟨r, hr⟩ := this
    exact ⟨r, hr, hup r r' hr hr'⟩
  unfold mkFluids at hr' ⊢
  obtain ⟨⟨⟩, h1, hr'⟩ := bind_eq_ok.mp hr'
  obtain ⟨⟨⟩, h2, hr'⟩ := bind_eq_ok.mp hr'
  obtain ⟨⟨⟩, h3, hr'⟩ := bind_eq_ok.mp hr'
  obtain ⟨fs', h4, -⟩ := bind_eq_ok.mp hr'
  have hfr : cs.map (·.fraction) ⊑ cs'.map (·.fraction) := forall₂_map h fun a b hab => hab.2.2
  have hs := sumCols_lacks (givenFractions_lacks hfr)
  obtain ⟨fs, h5, -⟩ := fixOneFraction_down hfr fs' h4
  have hle : ¬ cs.length < 1 := by rw [List.Forall₂.length_eq h]; exact failIf_ok_iff.mp h2
  have h6 := failIf_ok_iff.mp h3
  rw [forM_down h ?_ h1, bind_ok, failIf_false hle, bind_ok, failIf_false
    (fun ⟨i, hi⟩ => h6 ⟨i, Num.lt_of_lacks (Num.lacks_refl _) (hs i) hi⟩), bind_ok, h5, bind_ok]
  · exact ⟨_, rfl⟩
  · intro x y hxy hy
    rcases Option.lacks_cases hxy.2.2 with ⟨e1, e2⟩ | ⟨f, f', e1, e2, hf⟩
    · rw [e1]
    · rw [e1]; rw [e2] at hy; exact fractionIsRatio_down hf hy

theorem gassmann_fluid_down {kf kf' : Num} (h : kf ⊑ kf') (kd km phi : Num) :
    DownM (gassmann kd km kf phi) (gassmann kd km kf' phi) := by
  rcases h with rfl | rfl
  · unfold gassmann
    split
    · exact .ok (Num.lacks_refl _)
    · split
      · exact .ok (Num.lacks_refl _)
      · refine .same fun a => ?_
        intro z _
        refine ⟨Num.nan, ?_, .inl rfl⟩
        simp [pyDiv, failIf_false (Num.not_nan_lt _)]
  · exact fun z hz => ⟨z, hz, Num.lacks_refl _⟩

theorem fluidSubstitution_fluid_down {f f' : Mat n} (hf : f ⊑ f') (d m : Mat n) (p : Col n) :
    DownM (fluidSubstitution d m f p) (fluidSubstitution d m f' p) := by
  unfold fluidSubstitution
  refine .bind (.vec fun i => gassmann_fluid_down (hf.1 i) _ _ _) fun k k' hk =>
    mkModuli_down hk (Col.lacks_refl _) ?_
  obtain ⟨-, -, hf3, -⟩ := hf
  lacksC

/-! ### The calculation -/

theorem calculate_fluids_down {s t : Sections n} (hrock : SameRock t s) (ht : s.temperature ⊑ t.temperature)
    (hfl : s.fluids ⊑ t.fluids) (hm : s.mixMethod = t.mixMethod) (hb : s.brieConstant ⊑ t.brieConstant)
    (hg : s.brieGases = t.brieGases) (hmo : s.fluidModel = t.fluidModel) (hp : s.fluidPressure ⊑ t.fluidPressure)
    (hc : (∀ x ∈ t.fluids, x.kind.type ≠ "carbon_dioxide") ∨
      s.temperature = t.temperature ∧ s.fluidPressure = t.fluidPressure) :
    DownM (calculate co2 s) (calculate co2 t) := by
  intro r hr
  unfold calculate mkInput at hr ⊢
  obtain ⟨inp, hi, hr⟩ := bind_eq_ok.mp hr
  obtain ⟨ms, h1, hi⟩ := bind_eq_ok.mp hi
  obtain ⟨fl, h2, hi⟩ := bind_eq_ok.mp hi
  obtain ⟨d, h3, hi⟩ := bind_eq_ok.mp hi
  obtain ⟨p, h4, hi⟩ := bind_eq_ok.mp hi
  injection hi with hi
  subst hi
  rw [hrock.minerals, hrock.sandModel, hrock.porosity, hrock.adjustments, hrock.overburden, hrock.reference,
    hrock.maxEffective, hrock.rockPressure, hm, hg, hmo]
  obtain ⟨fl', h2', hlfl⟩ := mkFluids_down ht hfl _ hb _ _ fl h2
  -- the pressure section differs in the fluid pressure only
  have hpr : ∃ x y, x ⊑ y ∧ (s.fluidPressure = t.fluidPressure → x = y) ∧ p = { p with fluid := y } ∧
      mkPressure t.overburden t.reference s.fluidPressure t.maxEffective t.rockPressure
        = .ok { p with fluid := x } := by
    unfold mkPressure at h4 ⊢
    injection h4 with h4
    cases hrp : t.rockPressure with
    | none =>
      rw [hrp] at h4
      refine ⟨p.fluid, p.fluid, Option.lacks_refl _, fun _ => rfl, rfl, ?_⟩
      rw [hrock.fluidPressure hrp]
      subst h4
      rfl
    | some rp =>
      rw [hrp] at h4
      rcases Option.lacks_cases hp with ⟨e1, e2⟩ | ⟨q, q', e1, e2, hq⟩
      · refine ⟨p.fluid, p.fluid, Option.lacks_refl _, fun _ => rfl, rfl, ?_⟩
        rw [e1]; rw [e2] at h4; subst h4; rfl
      · rw [e2] at h4
        refine ⟨some q, some q', .some hq, fun e => by rw [e1, e2] at e; exact e, by subst h4; rfl, ?_⟩
        rw [e1]; subst h4; rfl
  obtain ⟨x, y, hxy, hxe, hpy, hpx⟩ := hpr
  rw [h1, bind_ok, h2', bind_ok, h3, bind_ok, hpx, bind_ok, bind_ok]
  unfold calculateResults at hr ⊢
  dsimp only at hr ⊢
  obtain ⟨mineral, h5, hr⟩ := bind_eq_ok.mp hr
  obtain ⟨⟨fluid, p'⟩, h6, hr⟩ := bind_eq_ok.mp hr
  dsimp only at hr
  obtain ⟨dry, h7, hr⟩ := bind_eq_ok.mp hr
  obtain ⟨dense, h8, hr⟩ := bind_eq_ok.mp hr
  obtain ⟨sat, h9, hr⟩ := bind_eq_ok.mp hr
  injection hr with hres
  have hlp : ({ p with fluid := x } : Pressure n) ⊑ p :=
    And.intro (Col.lacks_refl _) ⟨Col.lacks_refl _, by rw [hpy]; exact hxy, Option.lacks_refl _, Option.lacks_refl _⟩
  obtain ⟨k1, k2, k3⟩ := mkFluids_constituents h2
  obtain ⟨k1', k2', k3'⟩ := mkFluids_constituents h2'
  obtain ⟨⟨fluid', q'⟩, h6', hlf⟩ := mixFluids_down (co2 := co2) hlfl hlp (hc.imp (fun hno z hz => by
      have : (z.kind, z.model) ∈ t.fluids.map fun x => (x.kind, x.model) := by
        rw [← k3]; exact List.mem_map.mpr ⟨z, hz, rfl⟩
      obtain ⟨w, hw, e⟩ := List.mem_map.mp this
      injection e with e1 _
      rw [← e1]; exact hno w hw)
    fun h => ⟨by rw [k1, k1', h.1], by rw [hpy]; exact hxe h.2⟩) _ h6
  obtain ⟨z, rfl⟩ := mixFluids_pressure h6
  obtain ⟨z', rfl⟩ := mixFluids_pressure h6'
  rw [h5, bind_ok, h6', bind_ok]
  dsimp only
  rw [material_fluid] at h7 ⊢
  rw [h7, bind_ok, h8, bind_ok]
  obtain ⟨sat', h9', hls⟩ := fluidSubstitution_fluid_down hlf.1 _ _ _ sat h9
  rw [h9', bind_ok]
  subst hres
  exact ⟨_, rfl, And.intro hls.1 ⟨Col.lacks_refl _, Col.lacks_refl _, hls.2.1, hls.2.2.1, Col.lacks_refl _⟩⟩

end OPE
