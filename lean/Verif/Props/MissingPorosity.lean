import Verif.Props.Missing5
import Verif.Props.RowWise

/-!
# A missing porosity does not stop the calculation (C151)
-/

namespace OPE

open Classical

variable {n : ℕ}

/-- If the second computation succeeds, so does the first, with a related result. -/
def Down {α β : Type} (R : α → β → Prop) (x : Except Err α) (y : Except Err β) : Prop :=
  ∀ b, y = .ok b → ∃ a, x = .ok a ∧ R a b

abbrev DownM {α : Type} [Missing α] (x y : Except Err α) : Prop := Down (· ⊑ ·) x y

namespace Down

variable {α β γ δ : Type} {R : α → β → Prop} {S : γ → δ → Prop}

theorem ok {a : α} {b : β} (h : R a b) : Down R (.ok a) (.ok b) := by
  rintro _ ⟨⟩; exact ⟨a, rfl, h⟩

theorem error {e : Err} {x : Except Err α} : Down R x (.error e) := nofun

theorem bind {x : Except Err α} {y : Except Err β} {f : α → Except Err γ} {g : β → Except Err δ}
    (hx : Down R x y) (hf : ∀ a b, R a b → Down S (f a) (g b)) : Down S (x >>= f) (y >>= g) := by
  intro d hd
  obtain ⟨b, hb, hd⟩ := bind_eq_ok.mp hd
  obtain ⟨a, ha, hab⟩ := hx b hb
  obtain ⟨c, hc, hcd⟩ := hf a b hab d hd
  exact ⟨c, by rw [ha, bind_ok, hc], hcd⟩

/-- The same computation first. -/
theorem same {x : Except Err α} {f : α → Except Err γ} {g : α → Except Err δ}
    (hf : ∀ a, Down S (f a) (g a)) : Down S (x >>= f) (x >>= g) :=
  .bind (R := (· = ·)) (fun b hb => ⟨b, hb, rfl⟩) fun a b h => h ▸ hf a

/-- A check that passes first when it passes second. -/
theorem check {p q : Prop} {e e' : Err} {f : Except Err γ} {g : Except Err δ} (h : p → q) (hf : Down S f g) :
    Down S (failIf p e >>= fun _ => f) (failIf q e' >>= fun _ => g) := by
  intro d hd
  obtain ⟨⟨⟩, hq, hd⟩ := bind_eq_ok.mp hd
  obtain ⟨c, hc, hcd⟩ := hf d hd
  have hp : ¬ p := fun hp => failIf_ok_iff.mp hq (h hp)
  exact ⟨c, by rw [failIf_false hp, bind_ok, hc], hcd⟩

theorem vec {f : Fin n → Except Err α} {g : Fin n → Except Err β} (h : ∀ i, Down R (f i) (g i)) :
    Down (fun x y => ∀ i, R (x i) (y i)) (OPE.vec f) (OPE.vec g) := by
  intro b hb
  choose a ha hab using fun i => h i _ (vec_ok_iff.mp hb i)
  exact ⟨a, vec_ok_iff.mpr ha, hab⟩

end Down

/-! ### Checks let missing numbers pass -/

theorem Num.lt_of_lacks {a a' b b' : Num} (ha : a ⊑ a') (hb : b ⊑ b') (h : a < b) : a' < b' := by
  rcases ha with rfl | rfl
  · exact absurd h (Num.not_nan_lt _)
  · rcases hb with rfl | rfl
    · exact absurd h (Num.not_lt_nan _)
    · exact h

theorem Num.le_of_lacks {a a' b b' : Num} (ha : a ⊑ a') (hb : b ⊑ b') (h : a ≤ b) : a' ≤ b' := by
  rcases ha with rfl | rfl
  · exact absurd h (Num.not_nan_le _)
  · rcases hb with rfl | rfl
    · exact absurd h (Num.not_le_nan _)
    · exact h

theorem checkMaterial_down {m m' : Mat n} (h : m ⊑ m') {γ δ : Type} {S : γ → δ → Prop} {f : Except Err γ}
    {g : Except Err δ} (hf : Down S f g) :
    Down S (checkMaterial m >>= fun _ => f) (checkMaterial m' >>= fun _ => g) := by
  obtain ⟨h1, h2, h3, h4, h5⟩ := h
  have aux : ∀ {x x' y y' : Col n}, x ⊑ x' → y ⊑ y' → (∃ i, x i < y i) → ∃ i, x' i < y' i :=
    fun hx hy ⟨i, hi⟩ => ⟨i, Num.lt_of_lacks (hx i) (hy i) hi⟩
  intro d hd
  obtain ⟨⟨⟩, hq, hd⟩ := bind_eq_ok.mp hd
  obtain ⟨c', hc, hcd⟩ := hf d hd
  refine ⟨c', ?_, hcd⟩
  have : checkMaterial m = .ok () := by
    have hD : Down (fun _ _ => True) (checkMaterial m) (checkMaterial m') := by
      unfold checkMaterial
      refine .check (aux h3 (Col.lacks_refl (c 0))) (.check (aux h1 (Col.lacks_refl (c 0)))
        (.check (aux h2 (Col.lacks_refl (c 0))) (.check (aux h4 (Col.lacks_refl (c 0)))
        (.check (aux h5 (Col.lacks_refl (c 0))) ?_))))
      intro _ hq
      have hp := mt (aux h4 (x := m.vp) (x' := m'.vp) (y := fun i => Num.fin (Real.sqrt (4/3)) * m.vs i)
        (y' := fun i => Num.fin (Real.sqrt (4/3)) * m'.vs i)
        (fun i => Num.lacks_mul (Num.lacks_refl _) (h5 i))) (failIf_ok_iff.mp hq)
      exact ⟨(), failIf_false hp, trivial⟩
    obtain ⟨⟨⟩, h, -⟩ := hD () hq
    exact h
  rw [this, bind_ok, hc]

theorem mkModuli_down {b b' g g' d d' : Col n} (hb : b ⊑ b') (hg : g ⊑ g') (hd : d ⊑ d') :
    DownM (mkModuli b g d) (mkModuli b' g' d') := by
  unfold mkModuli mkMaterial setDefaults
  dsimp only [bind_ok]
  have hm : (⟨b, g, d, calcVp b g d, calcVs g d⟩ : Mat n) ⊑ ⟨b', g', d', calcVp b' g' d', calcVs g' d'⟩ :=
    And.intro hb ⟨hg, hd, calcVp_lacks hb hg hd, calcVs_lacks hg hd⟩
  exact checkMaterial_down hm (.ok hm)

theorem mkVelocities_down {d d' p p' s s' : Col n} (hd : d ⊑ d') (hp : p ⊑ p') (hs : s ⊑ s') :
    DownM (mkVelocities d p s) (mkVelocities d' p' s') := by
  unfold mkVelocities mkMaterial setDefaults
  dsimp only [bind_ok]
  have hg := calcShear_lacks hs hd
  have hm : (⟨calcBulk p (calcShear s d) d, calcShear s d, d, p, s⟩ : Mat n) ⊑
      ⟨calcBulk p' (calcShear s' d') d', calcShear s' d', d', p', s'⟩ :=
    And.intro (calcBulk_lacks hp hg hd) ⟨hg, hd, hp, hs⟩
  exact checkMaterial_down hm (.ok hm)

theorem polyvalMaterial_down {v v' : Col n} {m m' : Mat n} (hv : v ⊑ v') (hm : m ⊑ m') (dc pc sc : Coeffs)
    (b : Bool) : DownM (polyvalMaterial v m dc pc sc b) (polyvalMaterial v' m' dc pc sc b) := by
  obtain ⟨h1, h2, h3, h4, h5⟩ := hm
  unfold polyvalMaterial vectorizeMaterial
  refine .bind (R := fun (a b : Fin n → Mat 1) => ∀ i, a i ⊑ b i) (.vec fun i => ?_) fun a b hab =>
    mkVelocities_down (fun i => (hab i).2.2.1 0) (fun i => (hab i).2.2.2.1 0) (fun i => (hab i).2.2.2.2 0)
  split
  · exact mkModuli_down (fun _ => polyval2d_lacks (h1 i) (hv i) _) (fun _ => polyval2d_lacks (h2 i) (hv i) _)
      (fun _ => polyval2d_lacks (h3 i) (hv i) _)
  · exact mkVelocities_down (fun _ => polyval2d_lacks (h3 i) (hv i) _) (fun _ => polyval2d_lacks (h4 i) (hv i) _)
      (fun _ => polyval2d_lacks (h5 i) (hv i) _)

/-! ### All porosities missing -/

/-- A column of missing numbers. -/
def missing (n : ℕ) : Col n := fun _ => Num.nan

theorem missing_lacks (x : Col n) : missing n ⊑ x := fun _ => Num.nan_lacks _

theorem hsw_missing (m1 m2 : Mat n) (r : Col n) (bound : String) :
    DownM (hsw m1 m2 (missing n) bound) (hsw m1 m2 r bound) := by
  unfold hsw
  have hr : Down (fun _ _ => True) (checkIsRatio (missing n)) (checkIsRatio r) := by
    intro _ _
    refine ⟨(), ?_, trivial⟩
    unfold checkIsRatio
    rw [failIf_false (fun ⟨i, hi⟩ => Num.not_lt_nan _ hi), bind_ok,
      failIf_false (fun ⟨i, hi⟩ => Num.not_nan_lt _ hi)]
  refine .bind hr fun _ _ _ => .same fun _ => ?_
  dsimp only
  have hnan : (c 1 - missing n : Col n) = missing n := by
    funext i
    change Num.fin 1 - Num.nan = _
    simp [missing]
  rw [hnan]
  refine .bind (R := (· ⊑ ·)) (.vec fun i => ?_) fun d d' hd => .bind (R := (· ⊑ ·)) (.vec fun i => ?_)
    fun k k' hk => .bind (R := (· ⊑ ·)) (.vec fun i => ?_) fun g g' hg => mkModuli_down hk hg hd
  · change DownM _ _
    unfold hswDensity
    split
    · exact .ok (Num.lacks_refl _)
    · exact .ok (.inl (by simp [missing]))
  · change DownM _ _
    unfold hswBulk
    split
    · exact .ok (Num.lacks_refl _)
    · refine .same fun a => .same fun b => ?_
      intro z _
      refine ⟨_, ?_, .inl (b := _ = _) (rfl : Num.nan = Num.nan)⟩
      simp [missing, pyDiv]
  · change DownM _ _
    unfold hswShear
    split
    · exact .ok (Num.lacks_refl _)
    · refine .same fun a => .same fun b => .same fun e => ?_
      intro z _
      refine ⟨_, ?_, .inl (b := _ = _) (rfl : Num.nan = Num.nan)⟩
      simp [missing, pyDiv]

theorem fraction_missing (x : Col n) : (c 1 - missing n / x : Col n) = missing n := by
  funext i
  change Num.fin 1 - Num.nan / x i = _
  simp [missing]

theorem friableSand_missing (m : Mat n) (phi crit p N sr : Col n) :
    DownM (friableSand m (missing n) crit p N sr) (friableSand m phi crit p N sr) := by
  unfold friableSand
  refine .same fun k => ?_
  dsimp only
  rw [fraction_missing]
  exact hsw_missing _ _ _ _

theorem constantCement_missing (m k : Mat n) (phi a b N sr : Col n) :
    DownM (constantCement m k (missing n) a b N sr) (constantCement m k phi a b N sr) := by
  unfold constantCement
  refine .same fun k => .same fun l => ?_
  dsimp only
  rw [fraction_missing]
  exact hsw_missing _ _ _ _

theorem patchyCement_missing (m k : Mat n) (phi a b p q d sr N N' : Col n) :
    DownM (patchyCement m k (missing n) a b p q d sr N N') (patchyCement m k phi a b p q d sr N N') := by
  unfold patchyCement
  refine .same fun dense => .bind (friableSand_missing _ _ _ _ _ _) fun f f' hf =>
    .bind (friableSand_missing _ _ _ _ _ _) fun l l' hl => .bind (constantCement_missing _ _ _ _ _ _ _)
    fun u u' hu => .same fun cc => ?_
  rw [fraction_missing]
  refine .bind (hsw_missing _ _ _ _) fun e e' he => ?_
  have w1 := patchyWeight_lacks he.1 hl.1 hu.1
  have w2 := patchyWeight_lacks he.2.1 hl.2.1 hu.2.1
  have hf1 := hf.1
  have hf2 := hf.2.1
  have hu1 := hu.1
  have hu2 := hu.2.1
  have hm := missing_lacks phi
  exact mkModuli_down (by lacksC) (by lacksC) (by lacksC)

theorem pdEval_missing (k : PDModel n) (p phi : Col n) (m : Mat n) :
    DownM (k.eval p (missing n) m) (k.eval p phi m) := by
  have refl : ∀ x : Fit n, x ⊑ x := fun x => And.intro (Col.lacks_refl _) ⟨Col.lacks_refl _, Col.lacks_refl _⟩
  cases k with
  | polyfit b a => exact .ok (refl _)
  | expfit b a => exact .ok (refl _)
  | logfit b a => exact .ok (refl _)
  | powerfit a => exact .ok (refl _)
  | friable f => exact .bind (friableSand_missing _ _ _ _ _ _) fun x y h => Down.ok (And.intro h.2.2.1 ⟨h.1, h.2.1⟩)
  | patchy f =>
    exact .bind (patchyCement_missing _ _ _ _ _ _ _ _ _ _ _) fun x y h => Down.ok (And.intro h.2.2.1 ⟨h.1, h.2.1⟩)

theorem ratioDependency_missing (k : PDModel n) {x x' : Mat n} (hx : x ⊑ x') (p r phi : Col n) (m : Mat n) :
    DownM (ratioDependency k x p r (missing n) m) (ratioDependency k x' p r phi m) := by
  unfold ratioDependency
  refine .bind (pdEval_missing _ _ _ _) fun a a' ha => .bind (pdEval_missing _ _ _ _) fun b b' hb => ?_
  obtain ⟨x1, x2, x3, x4, x5⟩ := hx
  obtain ⟨a1, a2, a3⟩ := ha
  obtain ⟨b1, b2, b3⟩ := hb
  have le := fun {u u' : Num} (h : u ⊑ u') => Num.le_of_lacks (Num.lacks_abs h) (Num.lacks_refl (Num.fin 1e-20))
  refine .check ?_ ?_
  · rintro ⟨i, h⟩
    exact ⟨i, h.imp (le (a1 i)) (Or.imp (le (a2 i)) (le (a3 i)))⟩
  · split
    · exact mkModuli_down (by lacksC) (by lacksC) (by lacksC)
    · exact mkVelocities_down (by lacksC) (by lacksC) (by lacksC)

theorem powerDependency_missing (a : Coef3 (ℝ × ℝ)) {x x' : Mat n} (hx : x ⊑ x') (p r : Col n) :
    DownM (powerDependency a x p r) (powerDependency a x' p r) := by
  unfold powerDependency PDModel.eval
  dsimp only [bind_ok]
  obtain ⟨x1, x2, x3, x4, x5⟩ := hx
  refine .check ?_ ?_
  · rintro ⟨i, h⟩
    refine ⟨i, Num.le_of_lacks ?_ (Num.lacks_refl _) h⟩
    simp only [Pi.add_apply, Pi.sub_apply, Pi.div_apply]
    lacks
  · exact mkModuli_down (by lacksC) (by lacksC) (by lacksC)

theorem adjust_missing (a : Adjustment n) {x x' : Mat n} (hx : x ⊑ x') (p : Pressure n) (phi : Col n) (m : Mat n) :
    DownM (a.adjust x p (missing n) m) (a.adjust x' p phi m) := by
  cases a with
  | depthTrend t => exact polyvalMaterial_down (Col.lacks_refl _) hx _ _ _ _
  | pressureDependency k =>
    unfold Adjustment.adjust pressureDependency
    refine .same fun e => ?_
    cases k with
    | powerfit a => exact Down.same fun q => powerDependency_missing _ hx _ _
    | polyfit b a => exact Down.same fun q => ratioDependency_missing _ hx _ _ _ _
    | expfit b a => exact Down.same fun q => ratioDependency_missing _ hx _ _ _ _
    | logfit b a => exact Down.same fun q => ratioDependency_missing _ hx _ _ _ _
    | friable f => exact Down.same fun q => ratioDependency_missing _ hx _ _ _ _
    | patchy f => exact Down.same fun q => ratioDependency_missing _ hx _ _ _ _

theorem adjustAll_missing (as : List (Adjustment n)) {x x' : Mat n} (hx : x ⊑ x') (p : Pressure n) (phi : Col n)
    (m : Mat n) : DownM (adjustAll p (missing n) m as x) (adjustAll p phi m as x') := by
  induction as generalizing x x' with
  | nil => exact .ok hx
  | cons a as ih => exact .bind (adjust_missing a hx p phi m) fun y y' hy => ih hy

theorem sandEval_missing (k : SandModel n) (p phi : Col n) (m : Mat n) :
    DownM (k.evalMaterial p (missing n) m) (k.evalMaterial p phi m) := by
  cases k with
  | polyfit b a =>
    exact .same fun d => .same fun q => .same fun s =>
      polyvalMaterial_down (missing_lacks _) (Mat.lacks_refl _) _ _ _ _
  | friable f => exact friableSand_missing _ _ _ _ _ _
  | patchy f => exact patchyCement_missing _ _ _ _ _ _ _ _ _ _ _

theorem gassmann_missing (kd km kf : Num) : ∃ k, gassmann kd km kf Num.nan = .ok k := by
  unfold gassmann
  rw [if_neg (Num.not_nan_eq _)]
  split
  · exact ⟨_, rfl⟩
  · rename_i h
    have : km - kd ≠ Num.fin 0 := by
      intro e
      apply h
      cases km <;> cases kd <;> try exact absurd e (by intro e; cases e)
      rw [Num.fin_sub] at e
      injection e with e
      exact Num.fin_eq.mpr (by linarith)
    refine ⟨Num.nan, ?_⟩
    simp [pyDiv, this, failIf_false (Num.not_nan_lt _)]

theorem mkModuli_density {b g d : Col n} {m : Mat n} (h : mkModuli b g d = .ok m) : m.density = d := by
  unfold mkModuli mkMaterial setDefaults at h
  dsimp only [bind_ok] at h
  obtain ⟨-, -, h⟩ := bind_eq_ok.mp h
  injection h with h
  rw [← h]

/-- With every porosity missing the calculation goes through whenever it does with some porosities; the mineral
moduli are the same, the density is missing and the other columns are the same or missing. -/
theorem calculate_missing (co2 : CO2Model n) (s : Sections n) (r : Result n) (h : calculate co2 s = .ok r) :
    ∃ r', calculate co2 { s with porosity := missing n } = .ok r' ∧ r'.kmin = r.kmin ∧ r'.kminFls = r.kminFls ∧
      r'.rsat = missing n ∧ r' ⊑ r := by
  unfold calculate mkInput at h ⊢
  obtain ⟨inp, hi, h⟩ := bind_eq_ok.mp h
  obtain ⟨ms, hms, hi⟩ := bind_eq_ok.mp hi
  obtain ⟨fl, hfl, hi⟩ := bind_eq_ok.mp hi
  obtain ⟨dr, hdr, hi⟩ := bind_eq_ok.mp hi
  obtain ⟨pr, hpr, hi⟩ := bind_eq_ok.mp hi
  injection hi with hi
  subst hi
  have hdr' : dr = ⟨s.sandModel.fillDefaults, s.porosity, s.adjustments⟩ := by
    unfold mkDryRock at hdr
    cases hm : s.sandModel with
    | polyfit b a => rw [hm] at hdr; injection hdr with hdr; exact hdr.symm
    | friable f =>
      rw [hm] at hdr
      dsimp only at hdr
      obtain ⟨-, -, hdr⟩ := bind_eq_ok.mp hdr
      injection hdr with hdr; exact hdr.symm
    | patchy f =>
      rw [hm] at hdr
      dsimp only at hdr
      obtain ⟨-, -, hdr⟩ := bind_eq_ok.mp hdr
      obtain ⟨-, -, hdr⟩ := bind_eq_ok.mp hdr
      injection hdr with hdr; exact hdr.symm
  have hdm : mkDryRock s.sandModel (missing n) s.adjustments =
      .ok ⟨s.sandModel.fillDefaults, missing n, s.adjustments⟩ := by
    unfold mkDryRock
    have e1 : ∀ x : Num, missing n = fun _ => Num.nan := fun _ => rfl
    cases s.sandModel with
    | polyfit b a => rfl
    | friable f =>
      dsimp only
      rw [failIf_false, bind_ok]
      rintro ⟨i, hi⟩
      simp only [missing, Num.nan_add'] at hi
      exact Num.not_lt_nan _ hi
    | patchy f =>
      dsimp only
      rw [failIf_false, bind_ok, failIf_false, bind_ok]
      · rintro ⟨i, hi⟩
        simp only [missing, Num.nan_add'] at hi
        exact Num.not_lt_nan _ hi
      · rintro ⟨i, hi⟩
        simp only [missing, Num.nan_sub'] at hi
        exact Num.not_lt_nan _ hi
  subst hdr'
  dsimp only
  rw [hms, bind_ok, hfl, bind_ok, hdm, bind_ok, hpr, bind_ok, bind_ok]
  unfold calculateResults at h ⊢
  dsimp only at h ⊢
  obtain ⟨mm, hmm, h⟩ := bind_eq_ok.mp h
  obtain ⟨⟨mf, pr'⟩, hmf, h⟩ := bind_eq_ok.mp h
  dsimp only at h
  obtain ⟨dm, hd, h⟩ := bind_eq_ok.mp h
  obtain ⟨dp, hdp, h⟩ := bind_eq_ok.mp h
  obtain ⟨sat, hsat, h⟩ := bind_eq_ok.mp h
  injection h with h
  have hD : DownM (DryRock.material ⟨s.sandModel.fillDefaults, missing n, s.adjustments⟩ mm pr')
      (DryRock.material ⟨s.sandModel.fillDefaults, s.porosity, s.adjustments⟩ mm pr') :=
    .same fun p => .bind (sandEval_missing _ _ _ _) fun x x' hx => adjustAll_missing _ hx _ _ _
  obtain ⟨dm', hd', hlack⟩ := hD dm hd
  rw [hmm, bind_ok, hmf, bind_ok]
  dsimp only
  rw [hd', bind_ok, hdp, bind_ok]
  have hS : DownM (fluidSubstitution dm' dp mf (missing n)) (fluidSubstitution dm dp mf s.porosity) := by
    unfold fluidSubstitution
    refine .bind (R := (· ⊑ ·)) (.vec fun i => ?_) fun k k' hk => mkModuli_down hk hlack.2.1 ?_
    · intro k hk
      obtain ⟨k', hk'⟩ := gassmann_missing (dm'.bulk i) (dp.bulk i) (mf.bulk i)
      exact ⟨k', hk', gassmann_lacks (hlack.1 i) (Num.lacks_refl _) (Num.lacks_refl _)
        (missing_lacks s.porosity i) _ _ hk' hk⟩
    · intro i
      exact Num.lacks_add (hlack.2.2.1 i) (Num.lacks_mul (Num.nan_lacks _) (Num.lacks_refl _))
  obtain ⟨sat', hsat', hl'⟩ := hS sat hsat
  rw [hsat', bind_ok]
  refine ⟨_, rfl, ?_⟩
  subst h
  refine ⟨rfl, rfl, ?_, And.intro hl'.1 ⟨Col.lacks_refl _, hlack.1, hl'.2.1, hl'.2.2.1, Col.lacks_refl _⟩⟩
  unfold fluidSubstitution at hsat'
  obtain ⟨k, -, hsat'⟩ := bind_eq_ok.mp hsat'
  dsimp only
  rw [mkModuli_density hsat']
  funext i
  change dm'.density i + Num.nan * mf.density i = _
  simp [missing]

/-- **C151.** Emptying the porosity of any rows of a calculation that goes through: it still goes through, the other
rows are unchanged, and in the emptied rows the density is missing, the two mineral moduli are the same and each of
the other columns is the same or missing. -/
theorem C151_missing_porosity {co2 : ∀ n, CO2Model n} (hco2 : CO2RowWise co2) (s : Sections n) (r : Result n)
    (h : calculate (co2 n) s = .ok r) (emptied : Fin n → Prop) :
    ∃ r', calculate (co2 n) { s with porosity := fun i => if emptied i then Num.nan else s.porosity i } = .ok r' ∧
      ∀ i, if emptied i then r'.rsat i = Num.nan ∧ r'.kmin i = r.kmin i ∧ r'.kminFls i = r.kminFls i ∧
          (r'.kdry i = r.kdry i ∨ r'.kdry i = Num.nan) ∧ (r'.ksat i = r.ksat i ∨ r'.ksat i = Num.nan) ∧
          (r'.mysat i = r.mysat i ∨ r'.mysat i = Num.nan)
        else r'.at i = r.at i := by
  rcases Nat.eq_zero_or_pos n with rfl | hn
  · obtain ⟨r', h', -⟩ := calculate_missing _ s r h
    refine ⟨r', ?_, fun i => i.elim0⟩
    rw [← h']
    congr 2
    funext i
    exact i.elim0
  · haveI : NeZero n := ⟨hn.ne'⟩
    set s' : Sections n := { s with porosity := fun i => if emptied i then Num.nan else s.porosity i } with hs'
    have hrow : ∀ i, calculate (co2 1) (s.row i) = .ok (r.row i) := (C07_row_wise hco2 s).1 r h
    have hrow' : ∀ i, if emptied i then s'.row i = { s.row i with porosity := missing 1 } else s'.row i = s.row i := by
      intro i
      split
      · rename_i he
        rw [hs']
        unfold Sections.row missing Col.row
        simp [he]
      · rename_i he
        rw [hs']
        unfold Sections.row Col.row
        simp [he]
    have hone : ∀ i, ∃ b, calculate (co2 1) (s'.row i) = .ok b := by
      intro i
      have e := hrow' i
      split at e
      · obtain ⟨b, hb, -⟩ := calculate_missing _ _ _ (hrow i)
        exact ⟨b, by rw [e, hb]⟩
      · exact ⟨_, by rw [e, hrow i]⟩
    obtain ⟨r', h'⟩ := (C07_row_wise hco2 s').2 hone
    refine ⟨r', h', fun i => ?_⟩
    have hi : calculate (co2 1) (s'.row i) = .ok (r'.row i) := (C07_row_wise hco2 s').1 r' h' i
    have e := hrow' i
    split
    · rename_i he
      rw [if_pos he] at e
      obtain ⟨b, hb, h1, h2, h3, h4⟩ := calculate_missing _ _ _ (hrow i)
      rw [e, hb] at hi
      injection hi with hi
      subst hi
      exact ⟨congrFun h3 0, congrFun h1 0, congrFun h2 0, (h4.2.2.1 0).symm, (h4.1 0).symm, (h4.2.2.2.1 0).symm⟩
    · rename_i he
      rw [if_neg he] at e
      rw [e, hrow i] at hi
      injection hi with hi
      have f := fun (g : Result 1 → Col 1) => congrFun (congrArg g hi.symm) 0
      unfold Result.at
      rw [Main.Row.mk.injEq]
      exact ⟨f Result.ksat, f Result.kmin, f Result.kdry, f Result.mysat, f Result.rsat, f Result.kminFls⟩

end OPE
