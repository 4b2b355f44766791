import Verif.Props.RowWise
import Verif.Props.Fluids
import Verif.Props.Minerals
import Verif.Props.DryRock

/-!
# A complete calculation: minerals, friable sand, explicit fluids (C84)
-/

namespace OPE

open Classical

variable {n : ℕ}

theorem forM_ok {α : Type} (l : List α) (f : α → Except Err Unit) (h : ∀ x ∈ l, f x = .ok ()) :
    l.forM f = .ok () := by
  induction l with
  | nil => rfl
  | cons x l ih =>
    change (f x >>= fun _ => l.forM f) = _
    rw [h x (by simp), bind_ok]
    exact ih fun y hy => h y (by simp [hy])

theorem single_le_sum {α : Type} {L : List α} {g : α → ℝ} (h0 : ∀ x ∈ L, 0 ≤ g x) {x : α}
    (hx : x ∈ L) : g x ≤ (L.map g).sum := by
  apply List.single_le_sum
  · intro y hy
    obtain ⟨z, hz, rfl⟩ := List.mem_map.mp hy
    exact h0 z hz
  · exact List.mem_map.mpr ⟨x, hx, rfl⟩

theorem givenFractions_some {α : Type} (L : List α) (g : α → Col n) :
    givenFractions (L.map fun x => some (g x)) = L.map g := by
  unfold givenFractions
  rw [List.filterMap_map]
  exact congrFun (List.filterMap_eq_map (f := g)) L

theorem fixOneFraction_given {α : Type} (L : List α) (g : α → Fin n → ℝ)
    (h : ∀ i, (L.map fun x => g x i).sum ≤ 1 + 1e-5) :
    fixOneFraction (L.map fun x => some (finC (g x))) = .ok (L.map fun x => some (finC (g x))) := by
  apply C33_none_missing_kept
  · rw [List.countP_eq_zero]
    intro x hx
    obtain ⟨y, -, rfl⟩ := List.mem_map.mp hx
    simp
  · intro i
    rw [givenFractions_some L (fun x => finC (g x)), sumCols_fin L g]
    simp only [finC_apply, Num.fin_lt]
    exact not_lt.mpr (h i)

/-- An accepted mineral section in which every fraction is given. -/
theorem mkMinerals_given {L : List (PosMineral n)} (hne : L ≠ [])
    (ht : ∀ i, |(L.map fun x => x.f i).sum - 1| ≤ 1e-5) :
    mkMinerals (L.map fun x => ⟨x.mat, some (finC x.f)⟩) = .ok (L.map fun x => (x.mat, finC x.f)) := by
  have hle : ∀ i, (L.map fun x => x.f i).sum ≤ 1 + 1e-5 := fun i => by
    have := (abs_le.mp (ht i)).2; linarith
  unfold mkMinerals
  rw [forM_ok, bind_ok, failIf_false, bind_ok]
  · simp only [List.map_map, Function.comp_def]
    rw [fixOneFraction_given L (fun x => x.f) hle, bind_ok]
    rw [givenFractions_some L (fun x => finC x.f), failIf_false, bind_ok, List.zip_map']
    intro h
    apply h
    intro i
    rw [sumCols_fin L (fun x => x.f)]
    exact ⟨_, rfl, (ht i).trans (by norm_num)⟩
  · simp only [List.length_map]
    have := List.length_pos_iff.mpr hne
    omega
  · intro y hy
    obtain ⟨x, hx, rfl⟩ := List.mem_map.mp hy
    exact fractionIsRatio_fin x.fraction fun i =>
      (single_le_sum (g := fun x => x.f i) (fun z _ => z.fraction i) hx).trans (hle i)

/-- An accepted fluids section of explicit materials. -/
theorem mkFluids_given {F : List (FluidIn n)} (hne : F ≠ []) (hs : ∀ x ∈ F, ∀ i, 0 ≤ x.s i)
    (ht : ∀ i, (F.map fun x => x.s i).sum ≤ 1 + 1e-5) (T : Col n) (method : MixMethod) (e : Num)
    (gases : Option (List ℤ)) (model : Provider) :
    ∃ fl, mkFluids T (F.map fun x => ⟨.material x.mat, none, some (finC x.s)⟩) method e gases model
        = .ok fl ∧ fl.method = method ∧
      fl.constituents = F.map fun x => ⟨.material x.mat, none, finC x.s⟩ := by
  unfold mkFluids
  rw [forM_ok, bind_ok, failIf_false, bind_ok]
  · simp only [List.map_map, Function.comp_def]
    rw [failIf_false, bind_ok, fixOneFraction_given F (fun x => x.s) ht, bind_ok]
    · refine ⟨_, rfl, rfl, ?_⟩
      rw [givenFractions_some F (fun x => finC x.s), List.zipWith_map]
      exact List.zipWith_self
    · rintro ⟨i, hi⟩
      rw [givenFractions_some F (fun x => finC x.s), sumCols_fin F (fun x => x.s)] at hi
      simp only [finC_apply, Num.fin_lt] at hi
      exact absurd hi (not_lt.mpr (ht i))
  · simp only [List.length_map]
    have := List.length_pos_iff.mpr hne
    omega
  · intro y hy
    obtain ⟨x, hx, rfl⟩ := List.mem_map.mp hy
    exact fractionIsRatio_fin (hs x hx) fun i =>
      (single_le_sum (g := fun x => x.s i) (fun z hz => hs z hz i) hx).trans (ht i)

/-- A point of a non-empty list where a function is largest. -/
theorem exists_max_list {α : Type} {L : List α} (hne : L ≠ []) (g : α → ℝ) :
    ∃ x ∈ L, ∀ y ∈ L, g y ≤ g x := by
  induction L with
  | nil => exact absurd rfl hne
  | cons a L ih =>
    by_cases h : L = []
    · subst h; exact ⟨a, by simp, by simp⟩
    · obtain ⟨x, hx, hm⟩ := ih h
      rcases le_total (g a) (g x) with h' | h'
      · refine ⟨x, by simp [hx], ?_⟩
        intro y hy
        rcases List.mem_cons.mp hy with rfl | hy
        · exact h'
        · exact hm y hy
      · refine ⟨a, by simp, ?_⟩
        intro y hy
        rcases List.mem_cons.mp hy with rfl | hy
        · exact le_rfl
        · exact (hm y hy).trans h'

/-- Strictly below the mineral at positive porosity, if the pack is softer than the mineral. -/
theorem hsReal_lt_left {a b z f : ℝ} (hA : 0 < a + z) (hB : 0 < b + z) (h0 : 0 ≤ f) (h1 : f < 1)
    (hab : b < a) : hsReal a b z f < a := by
  unfold hsReal
  have hD := hsReal_D hA hB h0 h1.le
  rw [sub_lt_iff_lt_add, div_lt_iff₀ hD]
  nlinarith [mul_pos (mul_pos (sub_pos.mpr h1) (sub_pos.mpr hab)) hA]

/-- **C84.** A complete calculation with positive minerals (fractions summing to one), friable sand
between porosity 0 and critical porosity, rock pressure below overburden, and explicit fluids softer than
every mineral mixed with Wood's law: if the grain pack is softer than the mineral, the calculation
succeeds for every table, every number is finite, and
`0 ≤ kdry ≤ ksat ≤ kmin = kmin_fls`, `mysat > 0` and
`rsat = (1-φ) · Σ f ρ / Σ f + φ · Σ s ρ / Σ s`. -/
theorem C84_friable_run (co2 : CO2Model n) (s : Sections n) (L : List (PosMineral n))
    (F : List (FluidIn n)) (φ φc sr N ob rk : Fin n → ℝ)
    (hmin : s.minerals = L.map fun x => ⟨x.mat, some (finC x.f)⟩) (hL : L ≠ [])
    (hfrac : ∀ i, |(L.map fun x => x.f i).sum - 1| ≤ 1e-5)
    (hfl : s.fluids = F.map fun x => ⟨.material x.mat, none, some (finC x.s)⟩) (hF : F ≠ [])
    (hwood : s.mixMethod = .wood)
    (hK : ∀ x ∈ F, ∀ i, 0 < x.K i) (hρ : ∀ x ∈ F, ∀ i, 0 < x.ρ i) (hs : ∀ x ∈ F, ∀ i, 0 ≤ x.s i)
    (hsum : ∀ i, |(F.map fun x => x.s i).sum - 1| ≤ 1e-5)
    (hsand : s.sandModel = .friable ⟨finC φc, finC sr, finC N⟩) (hpor : s.porosity = finC φ)
    (hadj : s.adjustments = []) (hob : s.overburden = finC ob) (hrk : s.rockPressure = some (finC rk))
    (hmax : s.maxEffective = none) (hp : ∀ i, rk i < ob i)
    (hφ0 : ∀ i, 0 < φ i) (hφ : ∀ i, φ i ≤ φc i - 1e-5) (hc1 : ∀ i, φc i < 1)
    (hsr : ∀ i, 0 ≤ sr i) (hN : ∀ i, 0 < N i)
    (hsoftFluid : ∀ x ∈ F, ∀ y ∈ L, ∀ i, x.K i < y.K i)
    (hsoftPack : ∀ mineral pack, PosMineral.mixture L = .ok mineral →
      hertzMindlin mineral (finC φc) (finC fun i => ob i - rk i) (finC sr) (finC N) = .ok pack →
      ∀ i, pack.bulk i < mineral.bulk i) :
    ∃ r kmin kdry ksat mysat rsat, calculate co2 s = .ok r ∧
      r = ⟨finC ksat, finC kmin, finC kdry, finC mysat, finC rsat, finC kmin⟩ ∧
      ∀ i, 0 ≤ kdry i ∧ kdry i ≤ ksat i ∧ ksat i ≤ kmin i ∧ 0 < mysat i ∧
        rsat i = (1 - φ i) * ((L.map fun x => x.f i * x.R i).sum / (L.map fun x => x.f i).sum)
          + φ i * (F.map fun x => x.s i / (F.map fun x => x.s i).sum * x.ρ i).sum := by
  have htot : ∀ i, (L.map fun x => x.f i).sum ≤ 1 + 1e-5 := fun i => by
    have := (abs_le.mp (hfrac i)).2; linarith
  have htot0 : ∀ i, 0 < (L.map fun x => x.f i).sum := fun i => by
    have := (abs_le.mp (hfrac i)).1; norm_num at this ⊢; linarith
  have hst : ∀ i, (F.map fun x => x.s i).sum ≤ 1 + 1e-5 := fun i => by
    have := (abs_le.mp (hsum i)).2; linarith
  have hst0 : ∀ i, 1e-15 ≤ (F.map fun x => x.s i).sum := fun i => by
    have := (abs_le.mp (hsum i)).1; norm_num at this ⊢; linarith
  obtain ⟨fl, hflok, hm, hcs⟩ := mkFluids_given hF hs hst s.temperature s.mixMethod s.brieConstant
    s.brieGases s.fluidModel
  rw [← hfl] at hflok
  -- mineral
  obtain ⟨mineral, Km, Gm, Rm, hmix, hmHas, hdens⟩ := C34_density_weighted_average hL htot
  obtain ⟨mineral', Km', Gm', Rm', hmix', hmHas', hrange⟩ := C35_within_constituents hL htot
  obtain rfl : mineral' = mineral := by rw [hmix] at hmix'; injection hmix' with h; exact h.symm
  obtain rfl : Km' = Km := finC_injective (hmHas'.1.symm.trans hmHas.1)
  obtain rfl : Gm' = Gm := finC_injective (hmHas'.2.1.symm.trans hmHas.2.1)
  obtain rfl : Rm' = Rm := finC_injective (hmHas'.2.2.symm.trans hmHas.2.2)
  have lowest : ∀ (g : PosMineral n → ℝ), (∀ x, 0 < g x) → ∃ x ∈ L, ∀ y ∈ L, g x ≤ g y := by
    intro g _
    obtain ⟨x, hx, h⟩ := exists_max_list hL fun x => - g x
    exact ⟨x, hx, fun y hy => by have := h y hy; linarith⟩
  have highest : ∀ (g : PosMineral n → ℝ), ∃ x ∈ L, ∀ y ∈ L, g y ≤ g x := exists_max_list hL
  have hpos : mineral'.Pos Km' Gm' Rm' := by
    refine ⟨hmHas, fun i => ?_, fun i => ?_, fun i => ?_⟩
    · obtain ⟨x, hx, h⟩ := lowest (fun x => x.K i) fun x => x.bulk i
      obtain ⟨y, hy, h'⟩ := highest fun x => x.K i
      have := ((hrange i (x.K i) (y.K i)).1 fun z hz => ⟨h z hz, h' z hz⟩).1
      have := x.bulk i
      linarith
    · obtain ⟨x, hx, h⟩ := lowest (fun x => x.G i) fun x => x.shear i
      obtain ⟨y, hy, h'⟩ := highest fun x => x.G i
      have := ((hrange i (x.G i) (y.G i)).2.1 fun z hz => ⟨h z hz, h' z hz⟩).1
      have := x.shear i
      linarith
    · obtain ⟨x, hx, h⟩ := lowest (fun x => x.R i) fun x => x.density i
      obtain ⟨y, hy, h'⟩ := highest fun x => x.R i
      have := ((hrange i (x.R i) (y.R i)).2.2 fun z hz => ⟨h z hz, h' z hz⟩).1
      have := x.density i
      linarith
  -- fluid
  obtain ⟨fluid, Kf, ρf, hw, hfHas, hfr⟩ := C17_wood_is_reuss hF hK hρ hs hst0
  have hKf : ∀ i, 0 ≤ Kf i ∧ Kf i < Km' i := by
    intro i
    obtain ⟨x, hx, h⟩ := exists_max_list hF fun x => x.K i
    obtain ⟨y, hy, h'⟩ := lowest (fun x => x.K i) fun x => x.bulk i
    obtain ⟨z, hz, h''⟩ := highest fun x => x.K i
    have h1 := (hfr i).2.2.1 0 (x.K i) fun u hu => ⟨(hK u hu i).le, h u hu⟩
    have h2 := ((hrange i (y.K i) (z.K i)).1 fun u hu => ⟨h' u hu, h'' u hu⟩).1
    have h3 := hsoftFluid x hx y hy i
    exact ⟨h1.1, by linarith⟩
  have hρf : ∀ i, 0 ≤ ρf i := fun i => by
    obtain ⟨x, hx, h⟩ := exists_max_list hF fun x => x.ρ i
    exact ((hfr i).2.2.2 0 (x.ρ i) fun u hu => ⟨(hρ u hu i).le, h u hu⟩).1
  -- dry rock
  have hφc0 : ∀ i, 0 < φc i := fun i => by
    have := hφ0 i; have := hφ i; norm_num at this; linarith
  have hφle : ∀ i, φ i ≤ φc i := fun i => by have := hφ i; norm_num at this; linarith
  have hp' : ∀ i, 0 < ob i - rk i := fun i => by linarith [hp i]
  have hdryok := friableSand_fin hpos (fun i => (hφ0 i).le) hφle hφc0 hc1 hp' hsr hN
  have hpack := hertzMindlin_fin hpos.has hpos.bulk hpos.shear hpos.density hc1 (fun i => (hp' i).le) hsr hN
  have hpk := hertzMindlin_pos hpos hc1 hp' hsr hN
  have hsoft : ∀ i, hmK (Km' i) (Gm' i) (φc i) (ob i - rk i) (N i) < Km' i := fun i => by
    have := hsoftPack _ _ hmix hpack i
    rw [hmHas.1] at this
    simpa using this
  have hdry1 : ∀ i, 0 ≤ frK (Km' i) (Gm' i) (φ i) (φc i) (ob i - rk i) (N i) (sr i) ∧
      frK (Km' i) (Gm' i) (φ i) (φc i) (ob i - rk i) (N i) (sr i) < Km' i := by
    intro i
    have k := hpk.bulk i
    have g := hpk.shear i
    have hKi := hpos.bulk i
    have hGi := hpos.shear i
    have f0 : 0 ≤ 1 - φ i / φc i := by have := div_le_one_of_le₀ (hφle i) (hφc0 i).le; linarith
    have f1 : 1 - φ i / φc i < 1 := by have := div_pos (hφ0 i) (hφc0 i); linarith
    have z1 : 0 < 4/3 * min (Gm' i) (hmG (Km' i) (Gm' i) (φc i) (ob i - rk i) (N i) (sr i)) :=
      mul_pos (by norm_num) (lt_min hGi g)
    constructor
    · have := (hsReal_between (a := Km' i) (b := hmK (Km' i) (Gm' i) (φc i) (ob i - rk i) (N i))
        (z := 4/3 * min (Gm' i) (hmG (Km' i) (Gm' i) (φc i) (ob i - rk i) (N i) (sr i)))
        (by linarith) (by linarith) (hsReal_D (by linarith) (by linarith) f0 f1.le) f0 f1.le).1
      exact le_trans (le_min hKi.le k.le) this
    · exact hsReal_lt_left (by linarith) (by linarith) f0 f1 (hsoft i)
  have hshear : ∀ i, 0 < frG (Km' i) (Gm' i) (φ i) (φc i) (ob i - rk i) (N i) (sr i) := by
    intro i
    have k := hpk.bulk i
    have g := hpk.shear i
    have hKi := hpos.bulk i
    have hGi := hpos.shear i
    have f0 : 0 ≤ 1 - φ i / φc i := by have := div_le_one_of_le₀ (hφle i) (hφc0 i).le; linarith
    have f1 : 1 - φ i / φc i ≤ 1 := by have := div_pos (hφ0 i) (hφc0 i); linarith
    have z2 := zShear_nonneg (lt_min hKi k).le (lt_min hGi g).le
    have := (hsReal_between (a := Gm' i)
      (b := hmG (Km' i) (Gm' i) (φc i) (ob i - rk i) (N i) (sr i)) (by linarith) (by linarith)
      (hsReal_D (by linarith) (by linarith) f0 f1) f0 f1).1
    exact lt_of_lt_of_le (lt_min hGi g) this
  have hg : GassmannRows _ mineral' fluid φ _ _ _ Km' Kf ρf :=
    { dry := Mat.ofReal_has (fun i => frK (Km' i) (Gm' i) (φ i) (φc i) (ob i - rk i) (N i) (sr i))
        (fun i => frG (Km' i) (Gm' i) (φ i) (φc i) (ob i - rk i) (N i) (sr i))
        (fun i => Rm' i * (1 - φ i))
      mineral := hmHas.1
      fluidBulk := hfHas.1
      fluidDensity := hfHas.2.2
      shear := fun i => (hshear i).le
      densityDry := fun i => mul_pos (hpos.density i) (by linarith [hφle i, hc1 i])
      densityFluid := hρf
      porosity := hφ0
      dry0 := fun i => (hdry1 i).1
      dry1 := fun i => (hdry1 i).2
      fluid0 := fun i => (hKf i).1
      fluid1 := fun i => (hKf i).2 }
  obtain ⟨sat, Ks, Gs, ρs, hsat, hsatHas, hbet⟩ := C22_saturated_between hg
  have hsat' := substitution_fin hg
  have hmixf : mixFluids co2 fl ⟨finC ob, s.reference, some (s.fluidPressure.getD (finC rk)), none,
      some (finC rk)⟩ = .ok (fluid, ⟨finC ob, s.reference, some (s.fluidPressure.getD (finC rk)), none,
      some (finC rk)⟩) := by
    unfold mixFluids
    simp only [needCol, bind_ok]
    rw [C39_explicit_materials co2 fl _ (F.map (·.mat)) (by rw [hcs]; simp)]
    have : fl.mix (F.map (·.mat)) = .ok fluid := by
      unfold Fluids.mix
      rw [hm, hwood, hcs]
      simp only [List.map_map, Function.comp_def]
      exact hw
    rw [this]
  have hpress : mkPressure s.overburden s.reference s.fluidPressure s.maxEffective s.rockPressure
      = .ok ⟨finC ob, s.reference, some (s.fluidPressure.getD (finC rk)), none, some (finC rk)⟩ := by
    unfold mkPressure
    rw [hob, hrk, hmax]
    cases s.fluidPressure <;> rfl
  have hdr : mkDryRock s.sandModel s.porosity s.adjustments
      = .ok ⟨.friable ⟨finC φc, finC sr, finC N⟩, finC φ, []⟩ := by
    rw [hsand, hpor, hadj]
    obtain ⟨d, hd⟩ := (C46_friable_accepts_exactly ⟨finC φc, finC sr, finC N⟩ (φ := φ) rfl []).1.mpr hφ
    rw [hd, mkDryRock_ok hd]; rfl
  have hmins : mkMinerals s.minerals = .ok (L.map fun x => (x.mat, finC x.f)) := by
    rw [hmin]; exact mkMinerals_given hL hfrac
  have hdrym : (⟨.friable ⟨finC φc, finC sr, finC N⟩, finC φ, []⟩ : DryRock n).material mineral'
      ⟨finC ob, s.reference, some (s.fluidPressure.getD (finC rk)), none, some (finC rk)⟩
      = friableSand mineral' (finC φ) (finC φc) (finC fun i => ob i - rk i) (finC N) (finC sr) := by
    unfold DryRock.material Pressure.truncatedRock Pressure.effectiveRock
    simp only [needCol, bind_ok, truncate, SandModel.evalMaterial, FriableModel.evalMaterial, adjustAll]
    have : (finC ob - finC rk : Col n) = finC fun i => ob i - rk i := by funext i; simp
    rw [this, hdryok]; rfl
  rw [hsat'] at hsat
  injection hsat with hsat
  subst hsat
  refine ⟨⟨finC Ks, finC Km', finC fun i => frK (Km' i) (Gm' i) (φ i) (φc i) (ob i - rk i) (N i) (sr i),
    finC Gs, finC ρs, finC Km'⟩, Km', _, Ks, Gs, ρs, ?_, rfl, fun i => ?_⟩
  · unfold calculate mkInput calculateResults
    rw [hmins, bind_ok, hflok, bind_ok, hdr, bind_ok, hpress, bind_ok, bind_ok]
    dsimp only
    rw [show mineralMixture (L.map fun x => (x.mat, finC x.f)) = .ok mineral' from hmix, bind_ok, hmixf,
      bind_ok]
    dsimp only
    rw [hdrym, hdryok, bind_ok]
    simp only [SandModel.nonporous, bind_ok]
    rw [hsat', bind_ok]
    rw [← hsatHas.1, ← hsatHas.2.1, ← hsatHas.2.2, ← hmHas.1]
    rfl
  · have e1 : Gs = fun i => frG (Km' i) (Gm' i) (φ i) (φc i) (ob i - rk i) (N i) (sr i) :=
      (finC_injective hsatHas.2.1).symm
    have e2 : ρs = fun i => Rm' i * (1 - φ i) + φ i * ρf i := (finC_injective hsatHas.2.2).symm
    refine ⟨(hdry1 i).1, (hbet i).1, (hbet i).2, by rw [e1]; exact hshear i, ?_⟩
    rw [e2, ← hdens i (htot0 i), ← (hfr i).2.1]
    ring

/-! ### A concrete table -/

noncomputable def exQuartz (n : ℕ) : PosMineral n where
  mat := Mat.ofReal (fun _ => 36.8) (fun _ => 44) (fun _ => 2650)
  K := fun _ => 36.8
  G := fun _ => 44
  R := fun _ => 2650
  f := fun _ => 1
  has := Mat.ofReal_has _ _ _
  bulk := fun _ => by norm_num
  shear := fun _ => by norm_num
  density := fun _ => by norm_num
  fraction := fun _ => by norm_num

noncomputable def exWater (n : ℕ) : FluidIn n where
  mat := Mat.ofReal (fun _ => 2.8) (fun _ => 0) (fun _ => 1030)
  K := fun _ => 2.8
  ρ := fun _ => 1030
  s := fun _ => 1
  bulk := rfl
  density := rfl

/-- Quartz sand with brine; one row per porosity. -/
noncomputable def exSections (por : Fin n → ℝ) : Sections n where
  minerals := [⟨(exQuartz n).mat, some (finC (exQuartz n).f)⟩]
  temperature := c 80
  fluids := [⟨.material (exWater n).mat, none, some (finC (exWater n).s)⟩]
  mixMethod := .wood
  brieConstant := .fin 3
  brieGases := none
  fluidModel := .default
  sandModel := .friable ⟨finC fun _ => 0.4, finC fun _ => 0.5, finC fun _ => 9⟩
  porosity := finC por
  adjustments := []
  overburden := finC fun _ => 0.04
  reference := finC fun _ => 0.03
  fluidPressure := some (finC fun _ => 0.02)
  maxEffective := none
  rockPressure := some (finC fun _ => 0.02)

theorem exSections_ok (co2 : CO2Model n) (por : Fin n → ℝ)
    (h0 : ∀ i, 0 < por i) (h1 : ∀ i, por i ≤ 0.39) : ∃ r kmin kdry ksat mysat rsat,
    calculate co2 (exSections por) = .ok r ∧
      r = ⟨finC ksat, finC kmin, finC kdry, finC mysat, finC rsat, finC kmin⟩ ∧
      ∀ i, 0 ≤ kdry i ∧ kdry i ≤ ksat i ∧ ksat i ≤ kmin i ∧ 0 < mysat i ∧
        rsat i = (1 - por i) * (([exQuartz n].map fun x => x.f i * x.R i).sum
          / ([exQuartz n].map fun x => x.f i).sum)
          + por i * ([exWater n].map fun x => x.s i / ([exWater n].map fun x => x.s i).sum * x.ρ i).sum := by
  refine C84_friable_run co2 (exSections por) [exQuartz n] [exWater n] por (fun _ => 0.4) (fun _ => 0.5)
    (fun _ => 9) (fun _ => 0.04) (fun _ => 0.02) rfl (by simp) ?_ rfl (by simp) rfl ?_ ?_ ?_ ?_ rfl rfl rfl
    rfl rfl rfl ?_ ?_ ?_ ?_ ?_ ?_ ?_ ?_
  · intro i; norm_num [exQuartz]
  · intro x hx i; rw [List.mem_singleton.mp hx]; norm_num [exWater]
  · intro x hx i; rw [List.mem_singleton.mp hx]; norm_num [exWater]
  · intro x hx i; rw [List.mem_singleton.mp hx]; norm_num [exWater]
  · intro i; norm_num [exWater]
  · intro i; norm_num
  · exact h0
  · intro i; have := h1 i; norm_num at this ⊢; linarith
  · intro i; norm_num
  · intro i; norm_num
  · intro i; norm_num
  · intro x hx y hy i
    rw [List.mem_singleton.mp hx, List.mem_singleton.mp hy]; norm_num [exQuartz, exWater]
  · intro mineral pack hm hp i
    have e : mineral = (exQuartz n).mat := by
      have : PosMineral.mixture [exQuartz n] = .ok (exQuartz n).mat := rfl
      rw [this] at hm; injection hm with h; exact h.symm
    subst e
    have hfin := hertzMindlin_fin (p := fun _ => 0.04 - 0.02) (φ := fun _ => 0.4) (N := fun _ => 9)
      (sr := fun _ => 0.5)
      (exQuartz n).has (exQuartz n).bulk (exQuartz n).shear (exQuartz n).density (fun _ => by norm_num)
      (fun _ => by norm_num) (fun _ => by norm_num) (fun _ => by norm_num)
    rw [hfin] at hp
    injection hp with hp
    subst hp
    change Num.fin (hmK 36.8 44 0.4 (0.04 - 0.02) 9) < Num.fin 36.8
    rw [Num.fin_lt]
    have hpi := Real.pi_gt_three
    have hpi4 := Real.pi_le_four
    have hnu : nuR 36.8 44 = 28 / 386 := by unfold nuR; norm_num
    have hA : hmA 36.8 44 0.4 (0.04 - 0.02) 9 ≤ 1 := by
      unfold hmA
      rw [hnu]
      apply Real.rpow_le_one
      · apply div_nonneg
        · nlinarith
        · norm_num
      · rw [div_le_one (by norm_num)]
        nlinarith
      · norm_num
    have hA0 : 0 ≤ hmA 36.8 44 0.4 (0.04 - 0.02) 9 := by
      unfold hmA
      apply Real.rpow_nonneg
      rw [hnu]
      apply div_nonneg
      · nlinarith
      · norm_num
    unfold hmK
    rw [hnu]
    generalize hmA 36.8 44 0.4 (0.04 - 0.02) 9 = A at hA hA0
    have h1 : (9 : ℝ) * (1 - 0.4) / (12 * Real.pi) ≤ 0.15 := by
      rw [div_le_iff₀ (by positivity)]; nlinarith
    have h2 : 0 ≤ (9 : ℝ) * (1 - 0.4) / (12 * Real.pi) := by
      apply div_nonneg <;> nlinarith
    have h3 : 4 * A * 44 / (1 - 28 / 386) ≤ 190 := by
      rw [div_le_iff₀ (by norm_num)]; nlinarith
    have h4 : 0 ≤ 4 * A * 44 / (1 - 28 / 386) := by
      apply div_nonneg
      · nlinarith
      · norm_num
    nlinarith

theorem exPor_range (i : Fin 2) : 0 < (![0.2, 0.3] : Fin 2 → ℝ) i ∧ (![0.2, 0.3] : Fin 2 → ℝ) i ≤ 0.39 := by
  fin_cases i <;> norm_num

/-- The rows of the table give exactly the results of one-row runs: C07 on a table that succeeds. -/
example (co2 : ∀ n, CO2Model n) (h : CO2RowWise co2) (i : Fin 2) :
    ∃ r, calculate (co2 2) (exSections ![0.2, 0.3]) = .ok r ∧
      calculate (co2 1) ((exSections ![0.2, 0.3]).row i) = .ok (r.row i) := by
  obtain ⟨r, -, -, -, -, -, hr, -⟩ := exSections_ok (co2 2) ![0.2, 0.3] (fun i => (exPor_range i).1)
    fun i => (exPor_range i).2
  exact ⟨r, hr, (C07_row_wise h _).1 r hr i⟩

/-- A carbon dioxide model that treats rows separately. -/
theorem noCO2 : CO2RowWise fun _ _ _ _ => .error .notImplemented := by
  intro n _ T P b
  refine ⟨fun r h => by simp at h, fun h => ?_⟩
  obtain ⟨x, hx⟩ := h 0
  simp at hx

end OPE
