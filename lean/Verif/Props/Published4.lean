import Verif.Props.Published3
import Verif.Props.DryRock
import Verif.Model.Minerals

/-!
# Composite minerals, pressure trends and the dry rock in closed form (C100 – C102)
-/

namespace OPE

open Classical

variable {n : ℕ}

/-! ### C100 composite minerals -/

theorem rewrap_rock {m : Mat n} {a : Fin n → Published.Rock} (h : m.IsRock a) : (rewrap m).IsRock a := h

theorem mixLoop_rock {m : Mat n} {a : Fin n → Published.Rock} {t : Fin n → ℝ} (h : m.IsRock a)
    (ht : ∀ i, 0 ≤ t i) (L : List (Mat n × (Fin n → Published.Rock) × (Fin n → ℝ)))
    (hL : ∀ x ∈ L, x.1.IsRock x.2.1 ∧ ∀ i, 0 ≤ x.2.2 i)
    (hs : ∀ i, t i + (L.map fun x => x.2.2 i).sum ≤ 1 + 1e-5) :
    ∃ r, mixLoop m (finC t) (L.map fun x => (x.1, finC x.2.2)) = .ok r ∧
      r.IsRock fun i => Published.addMinerals (a i) (t i) (L.map fun x => (x.2.1 i, x.2.2 i)) := by
  induction L generalizing m a t with
  | nil => exact ⟨m, rfl, h⟩
  | cons x L ih =>
    obtain ⟨b, B, f⟩ := x
    obtain ⟨hb, hf⟩ := hL (b, B, f) List.mem_cons_self
    dsimp only at hb hf
    have e : (fun i => partOfTotal (finC t i) ((finC t + finC f : Col n) i))
        = finC fun i => if t i + f i = 0 then 1 else t i / (t i + f i) := by
      funext i
      by_cases h0 : t i + f i = 0
      · simp [partOfTotal, h0]
      · simp [partOfTotal, h0]
    have hr := fun i => ratio_range (ht i) (hf i)
    obtain ⟨r, hr1, hr2⟩ := hsw_lower (f := fun i => if t i + f i = 0 then 1 else t i / (t i + f i)) h hb hr
    have e2 : (finC t + finC f : Col n) = finC fun i => t i + f i := by funext i; simp
    have hsum : ∀ i, 0 ≤ (L.map fun x => x.2.2 i).sum := fun i => by
      apply List.sum_nonneg
      intro y hy
      obtain ⟨z, hz, rfl⟩ := List.mem_map.mp hy
      exact (hL z (List.mem_cons_of_mem _ hz)).2 i
    have hfr : fractionIsRatio (finC fun i => t i + f i) = .ok () := by
      unfold fractionIsRatio
      rw [failIf_false, bind_ok, failIf_false]
      · rintro ⟨i, hi⟩; simp only [finC_apply, Num.fin_lt] at hi
        have h1 := hs i; have h2 := hsum i; simp only [List.map_cons, List.sum_cons] at h1; linarith
      · rintro ⟨i, hi⟩; simp only [finC_apply, Num.fin_lt] at hi
        have h1 := ht i; have h2 := hf i; norm_num at hi; linarith
    obtain ⟨w, hw1, hw2⟩ := ih (t := fun i => t i + f i) (rewrap_rock hr2) (fun i => add_nonneg (ht i) (hf i))
      (fun x hx => hL x (List.mem_cons_of_mem _ hx))
      (fun i => by have h1 := hs i; simp only [List.map_cons, List.sum_cons] at h1; linarith)
    refine ⟨w, ?_, ?_⟩
    · simp only [List.map_cons, mixLoop]
      rw [e, hr1, bind_ok, e2, hfr, bind_ok]
      exact hw1
    · simpa only [List.map_cons, Published.addMinerals] using hw2

/-- **C100.** The mixture of any number of positive minerals with non-negative fractions of total at most
`1 + 1e-5` is, in every row, the minerals added one after the other by the published lower bound, in the
order given. -/
theorem C100_mineral_mixture (x : Mat n × (Fin n → Published.Rock) × (Fin n → ℝ))
    (L : List (Mat n × (Fin n → Published.Rock) × (Fin n → ℝ)))
    (hL : ∀ y ∈ x :: L, y.1.IsRock y.2.1 ∧ ∀ i, 0 ≤ y.2.2 i)
    (hs : ∀ i, ((x :: L).map fun y => y.2.2 i).sum ≤ 1 + 1e-5) :
    ∃ r, mineralMixture ((x :: L).map fun y => (y.1, finC y.2.2)) = .ok r ∧
      r.IsRock fun i => Published.addMinerals (x.2.1 i) (x.2.2 i) (L.map fun y => (y.2.1 i, y.2.2 i)) := by
  obtain ⟨h1, h2⟩ := hL x List.mem_cons_self
  exact mixLoop_rock h1 h2 L (fun y hy => hL y (List.mem_cons_of_mem _ hy))
    (fun i => by simpa using hs i)

/-- Three minerals. -/
example := C100_mineral_mixture (n := 2)
  (Mat.ofReal (fun _ => 36.8) (fun _ => 44) (fun _ => 2650), (fun _ => ⟨36.8, 44, 2650⟩), fun _ => 0.5)
  [(Mat.ofReal (fun _ => 20) (fun _ => 7) (fun _ => 2500), (fun _ => ⟨20, 7, 2500⟩), fun _ => 0.2),
   (Mat.ofReal (fun _ => 76.8) (fun _ => 32) (fun _ => 2710), (fun _ => ⟨76.8, 32, 2710⟩), fun _ => 0.3)]
  (by
    intro y hy
    simp only [List.mem_cons, List.not_mem_nil, or_false] at hy
    rcases hy with rfl | rfl | rfl <;>
      exact ⟨⟨rfl, rfl, rfl, fun _ => by norm_num⟩, fun _ => by norm_num⟩)
  (fun _ => by norm_num)

/-! ### C101 pressure trends -/

theorem npPolyval_append (a : List ℝ) (b : ℝ) (x : Num) :
    npPolyval (a ++ [b]) x = npPolyval a x * x + Num.fin b := by
  simp [npPolyval]

theorem npPolyval_fin (a : List ℝ) (p : ℝ) : npPolyval a (.fin p) = .fin (Published.polyFit a p) := by
  induction a using List.reverseRecOn with
  | nil => simp [npPolyval, Published.polyFit]
  | append_singleton a b ih =>
    rw [npPolyval_append, ih]
    simp only [Num.fin_mul, Num.fin_add, Num.fin_inj]
    unfold Published.polyFit
    have hlen : (a ++ [b]).length = a.length + 1 := by simp
    rw [← (finCongr hlen).symm.sum_comp, Fin.sum_univ_castSucc, Finset.sum_mul]
    congr 1
    · apply Finset.sum_congr rfl
      intro k _
      have : (a ++ [b]).length - 1 - (k : ℕ) = (a.length - 1 - k) + 1 := by
        have := k.2; simp only [hlen]; omega
      simp only [finCongr_symm, finCongr_apply, Fin.getElem_fin, Fin.val_cast, Fin.val_castSucc,
        List.getElem_append_left k.2]
      rw [this, pow_succ, mul_assoc]
    · simp

/-- The three trends (density, primary, secondary) of a pressure dependency given by coefficients. -/
noncomputable def PDModel.trends : PDModel n → Option (Coef3 (ℝ → ℝ))
  | .polyfit _ a => some ⟨Published.polyFit a.density, Published.polyFit a.primary, Published.polyFit a.secondary⟩
  | .expfit _ a => some ⟨Published.expFit a.density, Published.expFit a.primary, Published.expFit a.secondary⟩
  | .logfit _ a => some ⟨Published.logFit a.density, Published.logFit a.primary, Published.logFit a.secondary⟩
  | _ => none

/-- The trends can be evaluated: no exponential trend with pressure scale 0, and positive pressures for
logarithms. -/
def PDModel.Evaluable (m : PDModel n) (p : Fin n → ℝ) : Prop :=
  match m with
  | .expfit _ a => a.density.2.2 ≠ 0 ∧ a.primary.2.2 ≠ 0 ∧ a.secondary.2.2 ≠ 0
  | .logfit _ _ => ∀ i, 0 < p i
  | _ => True

theorem PDModel.eval_trends {m : PDModel n} {t : Coef3 (ℝ → ℝ)} (ht : m.trends = some t) {p : Fin n → ℝ}
    (hp : m.Evaluable p) (φ : Col n) (mineral : Mat n) :
    m.eval (finC p) φ mineral = .ok ⟨finC fun i => t.density (p i), finC fun i => t.primary (p i),
      finC fun i => t.secondary (p i)⟩ := by
  cases m with
  | polyfit b a =>
    injection ht with ht; subst ht
    simp only [PDModel.eval, finC_apply, npPolyval_fin]; rfl
  | expfit b a =>
    injection ht with ht; subst ht
    obtain ⟨h1, h2, h3⟩ := hp
    have e : ∀ k : ℝ × ℝ × ℝ, k.2.2 ≠ 0 →
        (fun i => Num.fin k.1 + Num.fin k.2.1 * Num.exp (finC p i / Num.fin k.2.2))
          = finC fun i => Published.expFit k (p i) := by
      intro k hk; funext i; simp [Published.expFit, hk]
    simp only [PDModel.eval, e _ h1, e _ h2, e _ h3]
  | logfit b a =>
    injection ht with ht; subst ht
    have e : ∀ k : ℝ × ℝ, (fun i => Num.fin k.1 + Num.fin k.2 * Num.log10 (finC p i))
          = finC fun i => Published.logFit k (p i) := by
      intro k; funext i
      have h0 : 0 < p i := hp i
      simp [Published.logFit, Num.log10, Real.logb, h0.ne', not_lt.mpr h0.le]
    simp only [PDModel.eval, e]
  | powerfit a => cases ht
  | friable f => cases ht
  | patchy f => cases ht

/-- A pressure section with finite overburden, reference and rock pressure, and optional maximum. -/
structure Pressure.Is (pr : Pressure n) (ob rf rk : Fin n → ℝ) (mx : Option (Fin n → ℝ)) : Prop where
  overburden : pr.overburden = finC ob
  reference : pr.reference = finC rf
  rock : pr.rock = some (finC rk)
  max : pr.maxEffective = mx.map finC

/-- Row `i` of the truncated effective pressure of pore pressures `x`. -/
noncomputable def effectiveAt (mx : Option (Fin n → ℝ)) (ob x : Fin n → ℝ) (i : Fin n) : ℝ :=
  Published.effective (mx.map fun m => m i) (ob i) (x i)

theorem truncate_effective (mx : Option (Fin n → ℝ)) (ob x : Fin n → ℝ) :
    truncate (mx.map finC) (finC ob - finC x) = finC fun i => effectiveAt mx ob x i := by
  funext i
  cases mx <;> simp [truncate, effectiveAt, Published.effective]

theorem Pressure.Is.truncatedRock {pr : Pressure n} {ob rf rk : Fin n → ℝ} {mx : Option (Fin n → ℝ)}
    (h : pr.Is ob rf rk mx) : pr.truncatedRock = .ok (finC fun i => effectiveAt mx ob rk i) := by
  unfold Pressure.truncatedRock Pressure.effectiveRock
  rw [h.rock, h.overburden, h.max]
  simp only [needCol, bind_ok, truncate_effective]

theorem Pressure.Is.truncatedReference {pr : Pressure n} {ob rf rk : Fin n → ℝ} {mx : Option (Fin n → ℝ)}
    (h : pr.Is ob rf rk mx) : pr.truncatedReference = finC fun i => effectiveAt mx ob rf i := by
  unfold Pressure.truncatedReference Pressure.effectiveReference
  rw [h.reference, h.overburden, h.max, truncate_effective]

/-- **C101, trends by coefficients.** A polyfit, expfit or logfit pressure dependency scales density and
moduli (or velocities) of the dry rock by the trend at the effective rock pressure over the trend at the
effective reference pressure, both cut off at the maximum.  With moduli it succeeds whenever the scaled
values are valid; a trend of magnitude at most 1e-20 at the reference pressure is a `ValueError`. -/
theorem C101_trends {m : PDModel n} {t : Coef3 (ℝ → ℝ)} (ht : m.trends = some t) {pr : Pressure n}
    {ob rf rk : Fin n → ℝ} {mx : Option (Fin n → ℝ)} (hpr : pr.Is ob rf rk mx) (φ : Col n) (mineral : Mat n)
    (hp : m.Evaluable (effectiveAt mx ob rk)) (hr : m.Evaluable (effectiveAt mx ob rf))
    {mat : Mat n} {K G ρ vp vs : Fin n → ℝ} (hK : mat.bulk = finC K) (hG : mat.shear = finC G)
    (hρ : mat.density = finC ρ) (hvp : mat.vp = finC vp) (hvs : mat.vs = finC vs) :
    let at_ := fun (f : ℝ → ℝ) i => f (effectiveAt mx ob rk i) / f (effectiveAt mx ob rf i)
    ((∃ i, |t.density (effectiveAt mx ob rf i)| ≤ 1e-20 ∨ |t.primary (effectiveAt mx ob rf i)| ≤ 1e-20 ∨
        |t.secondary (effectiveAt mx ob rf i)| ≤ 1e-20) →
      OPE.pressureDependency m mat pr φ mineral = .error .valueError) ∧
    ((∀ i, 1e-20 < |t.density (effectiveAt mx ob rf i)| ∧ 1e-20 < |t.primary (effectiveAt mx ob rf i)| ∧
        1e-20 < |t.secondary (effectiveAt mx ob rf i)|) →
      (m.OfModuli → (∀ i, 0 ≤ K i * at_ t.primary i ∧ 0 ≤ G i * at_ t.secondary i ∧
          0 < ρ i * at_ t.density i) →
        OPE.pressureDependency m mat pr φ mineral = .ok (Mat.ofReal (fun i => K i * at_ t.primary i)
          (fun i => G i * at_ t.secondary i) (fun i => ρ i * at_ t.density i))) ∧
      (¬ m.OfModuli → ∀ r, OPE.pressureDependency m mat pr φ mineral = .ok r →
        r.density = finC (fun i => ρ i * at_ t.density i) ∧ r.vp = finC (fun i => vp i * at_ t.primary i) ∧
        r.vs = finC (fun i => vs i * at_ t.secondary i) ∧
        r.shear = finC (fun i => ρ i * at_ t.density i * (vs i * at_ t.secondary i) ^ 2) ∧
        r.bulk = finC (fun i => ρ i * at_ t.density i *
          ((vp i * at_ t.primary i) ^ 2 - 4 / 3 * (vs i * at_ t.secondary i) ^ 2)))) := by
  intro at_
  have hratio : m.IsRatio := by cases m <;> trivial
  have key : OPE.pressureDependency m mat pr φ mineral = ratioDependency m mat
      (finC (effectiveAt mx ob rk)) (finC (effectiveAt mx ob rf)) φ mineral := by
    unfold OPE.pressureDependency
    rw [hpr.truncatedRock, bind_ok, hpr.truncatedReference]
    cases m <;> first | rfl | exact hratio.elim
  rw [key]
  unfold ratioDependency
  rw [m.eval_trends ht hp, m.eval_trends ht hr, bind_ok, bind_ok]
  simp only [finC_apply, Num.fin_abs, Num.fin_le]
  refine ⟨fun h => by rw [failIf_true h]; rfl, fun h => ?_⟩
  rw [failIf_false (by
    rintro ⟨i, hi⟩; obtain ⟨h1, h2, h3⟩ := h i; rcases hi with hi | hi | hi <;> linarith), bind_ok]
  have fr : ∀ (x : Fin n → ℝ) (f : ℝ → ℝ), (∀ i, 1e-20 < |f (effectiveAt mx ob rf i)|) →
      (finC x * (finC (fun i => f (effectiveAt mx ob rk i)) / finC (fun i => f (effectiveAt mx ob rf i))) : Col n)
        = finC fun i => x i * at_ f i := by
    intro x f hf
    funext i
    have : f (effectiveAt mx ob rf i) ≠ 0 := by
      intro e; have := hf i; rw [e] at this; norm_num at this
    simp [this, at_]
  refine ⟨fun hu hv => ?_, fun hu r hr => ?_⟩
  · rw [m.ofModuli_iff.mp hu, if_pos rfl, hK, hG, hρ, fr K t.primary (fun i => (h i).2.1), fr G t.secondary (fun i => (h i).2.2),
      fr ρ t.density (fun i => (h i).1)]
    exact mkModuli_ofReal (fun i => (hv i).1) (fun i => (hv i).2.1) (fun i => (hv i).2.2)
  · rw [m.not_ofModuli_iff.mp hu, if_neg (by simp), hρ, hvp, hvs, fr vp t.primary (fun i => (h i).2.1),
      fr vs t.secondary (fun i => (h i).2.2), fr ρ t.density (fun i => (h i).1)] at hr
    obtain ⟨h1, h2, h3, h4, h5, h6⟩ := mkMaterial_ok hr
    simp only [Option.some.injEq, reduceCtorEq, false_and, or_false, false_or, true_and] at h1 h3 h4 h5 h6
    have e4 : r.shear = finC (fun i => ρ i * at_ t.density i * (vs i * at_ t.secondary i) ^ 2) := by
      rw [h4.2, ← h6, ← h1]; funext i; simp [calcShear, mul_comm]
    refine ⟨h1.symm, h5.symm, h6.symm, e4, ?_⟩
    rw [h3.2, e4, ← h5, ← h1]; funext i; simp [calcBulk]; ring

/-- **C101, power trend.** A powerfit pressure dependency adds the differences of the trends at the (plain)
rock pressure and at the effective reference pressure to density, bulk modulus and velocity ratio; the
shear modulus follows from bulk modulus and velocity ratio `v` as `K / (v² - 4/3)`.  A velocity ratio with
`v² - 4/3 ≤ 1e-20` is a `ValueError`. -/
theorem C101_power (a : Coef3 (ℝ × ℝ)) {pr : Pressure n} {ob rf rk : Fin n → ℝ} {mx : Option (Fin n → ℝ)}
    (hpr : pr.Is ob rf rk mx) (φ : Col n) (mineral : Mat n) (hp : ∀ i, 0 < rk i)
    (hr : ∀ i, 0 < effectiveAt mx ob rf i) {K G ρ : Fin n → ℝ} (hK : ∀ i, 0 ≤ K i) (hG : ∀ i, 0 < G i)
    (hρ : ∀ i, 0 < ρ i) :
    let change := fun (k : ℝ × ℝ) i => Published.powerFit k (rk i) - Published.powerFit k (effectiveAt mx ob rf i)
    let v := fun i => Real.sqrt ((K i + 4 / 3 * G i) / ρ i) / Real.sqrt (G i / ρ i) + change a.secondary i
    let K' := fun i => K i + change a.primary i
    let ρ' := fun i => ρ i + change a.density i
    ((∃ i, v i ^ 2 - 4 / 3 ≤ 1e-20) →
      OPE.pressureDependency (.powerfit a) (Mat.ofReal K G ρ) pr φ mineral = .error .valueError) ∧
    ((∀ i, 1e-20 < v i ^ 2 - 4 / 3) → (∀ i, 0 ≤ K' i ∧ 0 < ρ' i) →
      OPE.pressureDependency (.powerfit a) (Mat.ofReal K G ρ) pr φ mineral
        = .ok (Mat.ofReal K' (fun i => K' i / (v i ^ 2 - 4 / 3)) ρ')) := by
  intro change v K' ρ'
  have key : OPE.pressureDependency (.powerfit a) (Mat.ofReal K G ρ) pr φ mineral
      = powerDependency a (Mat.ofReal K G ρ) (finC rk) (finC (effectiveAt mx ob rf)) := by
    unfold OPE.pressureDependency
    rw [hpr.truncatedRock, bind_ok, hpr.truncatedReference, hpr.rock]
    rfl
  have hv : ∀ i, Real.sqrt (K i / G i + 4/3) + (a.secondary.1 * rk i ^ a.secondary.2
      - a.secondary.1 * effectiveAt mx ob rf i ^ a.secondary.2) = v i := by
    intro i
    simp only [v, vpvs_sq (hK i) (hG i) (hρ i)]
    rfl
  rw [key, powerDependency_fin hK hG hρ rfl rfl hp hr]
  simp only [hv]
  refine ⟨fun h => by rw [failIf_true h]; rfl, fun h h' => ?_⟩
  rw [failIf_false (by rintro ⟨i, hi⟩; have := h i; linarith), bind_ok]
  have h0 : ∀ i, 0 < v i ^ 2 - 4 / 3 := fun i => lt_trans (by norm_num) (h i)
  have e : (fun i => Num.fin (K i + (a.primary.1 * rk i ^ a.primary.2
      - a.primary.1 * effectiveAt mx ob rf i ^ a.primary.2)) / Num.fin (v i ^ 2 - 4 / 3))
      = finC fun i => K' i / (v i ^ 2 - 4 / 3) := by
    funext i; rw [Num.fin_div _ (h0 i).ne']; rfl
  rw [e]
  exact mkModuli_ofReal (fun i => (h' i).1) (fun i => div_nonneg (h' i).1 (h0 i).le) (fun i => (h' i).2)

/-- The hypotheses are met: overburden 100, reference 30, rock 40 (MPa), no maximum: effective pressures 60
and 70; a bulk trend `2 p + 10`, so the bulk modulus is scaled by 130/150. -/
theorem exTrend : OPE.pressureDependency (n := 2) (.polyfit true ⟨[1], [2, 10], [1, 0]⟩)
    (Mat.ofReal (fun _ => 36) (fun _ => 44) (fun _ => 2650))
    ⟨finC fun _ => 100, finC fun _ => 30, none, none, some (finC fun _ => 40)⟩ (c 0.2)
    (Mat.ofReal (fun _ => 36) (fun _ => 44) (fun _ => 2650))
    = .ok (Mat.ofReal (fun _ => 36 * (130 / 150)) (fun _ => 44 * (60 / 70)) (fun _ => 2650)) := by
  have h := C101_trends (n := 2) (m := .polyfit true ⟨[1], [2, 10], [1, 0]⟩)
    (t := ⟨Published.polyFit [1], Published.polyFit [2, 10], Published.polyFit [1, 0]⟩) rfl
    (pr := ⟨finC fun _ => 100, finC fun _ => 30, none, none, some (finC fun _ => 40)⟩)
    (ob := fun _ => 100) (rf := fun _ => 30) (rk := fun _ => 40) (mx := none) ⟨rfl, rfl, rfl, rfl⟩
    (c 0.2) (Mat.ofReal (fun _ => 36) (fun _ => 44) (fun _ => 2650)) trivial trivial
    (mat := Mat.ofReal (fun _ => 36) (fun _ => 44) (fun _ => 2650)) rfl rfl rfl rfl rfl
  have e1 : ∀ x, Published.polyFit [1] x = 1 := fun x => by simp [Published.polyFit]
  have e2 : ∀ x, Published.polyFit [2, 10] x = 2 * x + 10 := fun x => by
    simp [Published.polyFit, Fin.sum_univ_succ]
  have e3 : ∀ x, Published.polyFit [1, 0] x = x := fun x => by
    simp [Published.polyFit, Fin.sum_univ_succ]
  simp only [effectiveAt, Published.effective, Option.map_none, e1, e2, e3] at h
  have := (h.2 (fun _ => by norm_num)).1 rfl (fun _ => by norm_num)
  rw [this]
  congr 2 <;> funext i <;> norm_num

example := C101_power (n := 2) ⟨(1, 0), (2, 0.5), (0, 1)⟩
  (pr := ⟨finC fun _ => 100, finC fun _ => 30, none, none, some (finC fun _ => 40)⟩)
  (ob := fun _ => 100) (rf := fun _ => 30) (rk := fun _ => 40) (mx := none) ⟨rfl, rfl, rfl, rfl⟩
  (c 0.2) (Mat.ofReal (fun _ => 36) (fun _ => 44) (fun _ => 2650)) (fun _ => by norm_num)
  (fun _ => by norm_num [effectiveAt, Published.effective])
  (K := fun _ => 36) (G := fun _ => 44) (ρ := fun _ => 2650) (fun _ => by norm_num)
  (fun _ => by norm_num) (fun _ => by norm_num)

/-! ### C102 dry rock -/

theorem murphy_fin (x : Fin n → ℝ) :
    murphyCoordinationNumber (finC x) = finC fun i => Published.murphy (x i) := by
  funext i; simp [murphyCoordinationNumber, Col.sq, Published.murphy]

/-- The coordination number used: the given one, otherwise Murphy's at critical porosity. -/
noncomputable def coordination (N : Option (Fin n → ℝ)) (φc : Fin n → ℝ) (i : Fin n) : ℝ :=
  match N with
  | some x => x i
  | none => Published.murphy (φc i)

theorem coordination_fin (N : Option (Fin n → ℝ)) (φc : Fin n → ℝ) :
    (N.map finC).getD (murphyCoordinationNumber (finC φc)) = finC fun i => coordination N φc i := by
  cases N with
  | none => exact murphy_fin φc
  | some x => rfl

/-- **C102, friable sand.** The dry rock of a friable-sand section is the published friable sand at the
truncated effective rock pressure, with the given or Murphy's coordination number, and its dense packing is
the mineral. -/
theorem C102_friable {mineral : Mat n} {a : Fin n → Published.Rock} {φ φc f ob rf rk : Fin n → ℝ}
    {N mx : Option (Fin n → ℝ)} (h : mineral.IsRock a) {pr : Pressure n} (hpr : pr.Is ob rf rk mx) {d : DryRock n}
    (hd : mkDryRock (.friable (mkFriableModel (finC φc) (finC f) (N.map finC))) (finC φ) [] = .ok d)
    (hφ0 : ∀ i, 0 ≤ φ i) (hc0 : ∀ i, 0 < φc i) (hc1 : ∀ i, φc i < 1)
    (hp : ∀ i, 0 < effectiveAt mx ob rk i) (hf : ∀ i, 0 ≤ f i) (hN : ∀ i, 0 < coordination N φc i) :
    (∃ r, d.material mineral pr = .ok r ∧ r.IsRock fun i =>
      Published.friableSand (a i) (φ i) (φc i) (effectiveAt mx ob rk i) (coordination N φc i) (f i)) ∧
    d.model.nonporous mineral = .ok mineral := by
  have hle := (C46_friable_accepts_exactly (mkFriableModel (finC φc) (finC f) (N.map finC)) (φ := φ) rfl []).1.mp
    ⟨d, hd⟩
  obtain rfl := mkDryRock_ok hd
  obtain ⟨r, h1, h2⟩ := friableSand_rock (φ := φ) (φc := φc) (p := effectiveAt mx ob rk) (f := f)
    (N := coordination N φc) h hφ0 (fun i => (hle i).trans (by norm_num)) hc0 hc1 hp hf hN
  refine ⟨⟨r, ?_, h2⟩, rfl⟩
  unfold DryRock.material
  rw [hpr.truncatedRock, bind_ok]
  show (friableSand mineral (finC φ) (finC φc) _ _ (finC f) >>= _) = _
  dsimp only [mkFriableModel]
  rw [coordination_fin]
  exact (congrArg (· >>= _) h1).trans rfl

/-- **C102, patchy cement.** The dry rock of a patchy-cement section is the published patchy cement whose
porosities are the critical porosity minus cement fraction and minus upper-bound cement fraction, with the
given or Murphy's coordination number in the friable part and 9 in the cemented part; its dense packing is
the lower bound of cement (upper-bound fraction) and mineral. -/
theorem C102_patchy {mineral cem : Mat n} {a b : Fin n → Published.Rock}
    {φ φc cf u plb f ob rf rk : Fin n → ℝ} {N mx : Option (Fin n → ℝ)} (hs : mineral.IsRock b)
    (hc : cem.IsRock a) (hr : ∀ i, 2 * (b i).G ≤ 3 * (b i).K ∧ 0.04 * (Real.pi * (b i).G) ≤ (a i).G)
    {pr : Pressure n} (hpr : pr.Is ob rf rk mx) {d : DryRock n}
    (hd : mkDryRock (.patchy (mkPatchyModel cem (finC φc) (finC cf) (finC plb) (finC u) (N.map finC) (finC f)))
      (finC φ) [] = .ok d)
    (hφ0 : ∀ i, 0 ≤ φ i) (hφ1 : ∀ i, φ i ≤ φc i - cf i) (hφ2 : ∀ i, φ i ≤ φc i - u i)
    (hcf : ∀ i, 0 ≤ cf i ∧ cf i < φc i) (hu : ∀ i, 0 ≤ u i ∧ u i < φc i) (hc1 : ∀ i, φc i < 1)
    (hp : ∀ i, 0 < effectiveAt mx ob rk i) (hplb : ∀ i, 0 < plb i) (hf : ∀ i, 0 ≤ f i)
    (hN : ∀ i, 0 < coordination N φc i) :
    (∃ r, d.material mineral pr = .ok r ∧ r.IsRock fun i =>
      Published.patchyCement (b i) (a i) (φ i) (φc i - cf i) (φc i - u i) (effectiveAt mx ob rk i) (plb i)
        (φc i) (f i) (coordination N φc i) 9) ∧
    (∃ r, d.model.nonporous mineral = .ok r ∧ r.IsRock fun i => Published.lowerBound (a i) (b i) (u i)) := by
  obtain rfl := mkDryRock_ok hd
  obtain ⟨r, h1, h2⟩ := C99_patchy_cement (φ := φ) (ccp := fun i => φc i - cf i) (ub := fun i => φc i - u i)
    (p := effectiveAt mx ob rk) (plb := plb) (crit := φc) (f := f) (Nf := coordination N φc) (Nc := fun _ => 9)
    hs hc hr hφ0 hφ1 hφ2 (fun i => by linarith [(hcf i).2]) (fun i => by linarith [(hu i).2])
    (fun i => by linarith [(hcf i).1]) (fun i => by linarith [(hu i).1]) hc1 hp hplb hf hN (fun _ => by norm_num)
  have e1 : (finC φc - finC cf : Col n) = finC fun i => φc i - cf i := by funext i; simp
  have e2 : (finC φc - finC u : Col n) = finC fun i => φc i - u i := by funext i; simp
  refine ⟨⟨r, ?_, h2⟩, ?_⟩
  · unfold DryRock.material
    rw [hpr.truncatedRock, bind_ok]
    show (patchyCement mineral _ _ _ _ _ _ _ _ _ _ >>= _) = _
    dsimp only [mkPatchyModel]
    rw [coordination_fin, e1, e2]
    exact (congrArg (· >>= _) h1).trans rfl
  · exact hsw_lower (f := u) hc hs (fun i => ⟨(hu i).1, by linarith [(hu i).2, hc1 i]⟩)

theorem rowCoeffs_sum (a b x y : ℝ) :
    (∑ i, ∑ j, (rowCoeffs a b).val i j * x ^ (i : ℕ) * y ^ (j : ℕ)) = a + b * y := by
  show (∑ i : Fin 1, ∑ j : Fin 2, (![![a, b]] : Fin 1 → Fin 2 → ℝ) i j * x ^ (i : ℕ) * y ^ (j : ℕ)) = _
  simp [Fin.sum_univ_two]

theorem defaultDensity_sum (x y : ℝ) :
    (∑ i, ∑ j, defaultDensity.val i j * x ^ (i : ℕ) * y ^ (j : ℕ)) = (1 - y) * x := by
  show (∑ i : Fin 2, ∑ j : Fin 2, (![![0, 0], ![1, -1]] : Fin 2 → Fin 2 → ℝ) i j * x ^ (i : ℕ) * y ^ (j : ℕ)) = _
  simp [Fin.sum_univ_two]; ring

/-- **C102, default polynomials.** A polyfit section without coefficients gives, in moduli mode, bulk modulus
`2900 - 1300 φ`, shear modulus `1700 - 800 φ` and density `(1 - φ)` times that of the mineral; in velocity
mode velocities `20 - 40 φ` and `12 - 20 φ`. -/
theorem C102_default_polyfit {mineral : Mat n} {K G ρ : Fin n → ℝ} (h : mineral.Has K G ρ)
    (hρ : ∀ i, 0 < ρ i) {φ ob rf rk : Fin n → ℝ} {mx : Option (Fin n → ℝ)} {pr : Pressure n}
    (hpr : pr.Is ob rf rk mx) (hφ : ∀ i, 0 ≤ φ i ∧ φ i < 1) {d : DryRock n} :
    (mkDryRock (.polyfit true ⟨none, none, none⟩) (finC φ) [] = .ok d →
      ∃ r, d.material mineral pr = .ok r ∧ r.Has (fun i => 2900 - 1300 * φ i) (fun i => 1700 - 800 * φ i)
        (fun i => (1 - φ i) * ρ i)) ∧
    (∀ vp vs : Fin n → ℝ, mineral.vp = finC vp → mineral.vs = finC vs → (∀ i, φ i ≤ 0.3) →
      mkDryRock (.polyfit false ⟨none, none, none⟩) (finC φ) [] = .ok d →
      ∃ r, d.material mineral pr = .ok r ∧ r.density = finC (fun i => (1 - φ i) * ρ i) ∧
        r.vp = finC (fun i => 20 - 40 * φ i) ∧ r.vs = finC (fun i => 12 - 20 * φ i)) := by
  have d0 : ∀ i, 0 < (1 - φ i) * ρ i := fun i => mul_pos (by linarith [(hφ i).2]) (hρ i)
  have neg : ∀ x y z : ℝ, x + -y * z = x - y * z := fun x y z => by ring
  have run : ∀ d : DryRock n, d.adjustments = [] → d.material mineral pr = d.model.evalMaterial
      (finC (effectiveAt mx ob rk)) d.porosity mineral := by
    intro d hd
    unfold DryRock.material
    rw [hpr.truncatedRock, bind_ok, hd]
    cases d.model.evalMaterial (finC (effectiveAt mx ob rk)) d.porosity mineral <;> rfl
  constructor
  · intro hd
    obtain rfl := mkDryRock_ok hd
    obtain ⟨r, h1, h2, h3, h4⟩ := C45_moduli_fit (v := φ) h defaultDensity (rowCoeffs 2900 (-1300))
      (rowCoeffs 1700 (-800)) (by simpa only [defaultDensity_sum] using d0)
      (fun i => by rw [rowCoeffs_sum]; linarith [(hφ i).2]) (fun i => by rw [rowCoeffs_sum]; linarith [(hφ i).2])
    simp only [rowCoeffs_sum, defaultDensity_sum, neg] at h2 h3 h4
    exact ⟨r, (run _ rfl).trans h1, h3, h4, h2⟩
  · intro vp vs hvp hvs hφ3 hd
    obtain rfl := mkDryRock_ok hd
    have s3 : Real.sqrt (4 / 3) ≤ 1.16 := by
      rw [show (1.16 : ℝ) = Real.sqrt (1.16 ^ 2) by rw [Real.sqrt_sq (by norm_num)]]
      exact Real.sqrt_le_sqrt (by norm_num)
    obtain ⟨r, h1, h2, h3, h4⟩ := C45_velocity_fit (v := φ) h.2.2 hvp hvs defaultDensity (rowCoeffs 20 (-40))
      (rowCoeffs 12 (-20)) (by simpa only [defaultDensity_sum] using d0)
      (fun i => by rw [rowCoeffs_sum]; have := hφ3 i; norm_num at this; linarith)
      (fun i => by
        rw [rowCoeffs_sum, rowCoeffs_sum]
        have := hφ3 i; norm_num at this
        have h0 : 0 ≤ 12 + -20 * φ i := by linarith
        nlinarith [mul_le_mul_of_nonneg_right s3 h0, (hφ i).1])
    simp only [rowCoeffs_sum, defaultDensity_sum, neg] at h2 h3 h4
    exact ⟨r, (run _ rfl).trans h1, h2, h3, h4⟩

theorem exPressure : (⟨finC fun _ => 100e6, finC fun _ => 30e6, none, none, some (finC fun _ => 40e6)⟩ : Pressure 2).Is
    (fun _ => 100e6) (fun _ => 30e6) (fun _ => 40e6) none := ⟨rfl, rfl, rfl, rfl⟩

/-- Quartz sand of porosity 0.2, no coordination number given. -/
example : ∃ d r, mkDryRock (n := 2) (.friable (mkFriableModel (finC fun _ => 0.4) (finC fun _ => 0.5)
      ((none : Option (Fin 2 → ℝ)).map finC))) (finC fun _ => 0.2) [] = .ok d ∧
    d.material (Mat.ofReal (fun _ => 36.8e9) (fun _ => 44e9) (fun _ => 2650))
      ⟨finC fun _ => 100e6, finC fun _ => 30e6, none, none, some (finC fun _ => 40e6)⟩ = .ok r ∧
    r.IsRock fun _ => Published.friableSand ⟨36.8e9, 44e9, 2650⟩ 0.2 0.4 60e6 (Published.murphy 0.4) 0.5 := by
  obtain ⟨d, hd⟩ := (C46_friable_accepts_exactly (n := 2) (mkFriableModel (finC fun _ => 0.4) (finC fun _ => 0.5)
    ((none : Option (Fin 2 → ℝ)).map finC)) (φ := fun _ => 0.2) rfl []).1.mpr (fun _ => by norm_num)
  obtain ⟨⟨r, h1, h2⟩, -⟩ := C102_friable (mineral := Mat.ofReal (fun _ => 36.8e9) (fun _ => 44e9) (fun _ => 2650))
    (a := fun _ => ⟨36.8e9, 44e9, 2650⟩) ⟨rfl, rfl, rfl, fun _ => by norm_num⟩ exPressure hd
    (fun _ => by norm_num) (fun _ => by norm_num) (fun _ => by norm_num)
    (fun _ => by norm_num [effectiveAt, Published.effective]) (fun _ => by norm_num)
    (fun _ => by norm_num [coordination, Published.murphy])
  refine ⟨d, r, hd, h1, ?_⟩
  have e : effectiveAt (n := 2) none (fun _ => 100e6) (fun _ => 40e6) = fun _ => 60e6 := by
    funext i; norm_num [effectiveAt, Published.effective]
  rw [e] at h2
  exact h2

/-- Quartz sand and cement: 5% cement, upper bound 10%. -/
example : ∃ d r, mkDryRock (n := 2) (.patchy (mkPatchyModel (Mat.ofReal (fun _ => 36.8e9) (fun _ => 44e9) (fun _ => 2650))
      (finC fun _ => 0.4) (finC fun _ => 0.05) (finC fun _ => 20e6) (finC fun _ => 0.1)
      ((some fun _ => 8 : Option (Fin 2 → ℝ)).map finC) (finC fun _ => 0.5))) (finC fun _ => 0.2) [] = .ok d ∧
    d.material (Mat.ofReal (fun _ => 36.8e9) (fun _ => 44e9) (fun _ => 2650))
      ⟨finC fun _ => 100e6, finC fun _ => 30e6, none, none, some (finC fun _ => 40e6)⟩ = .ok r := by
  obtain ⟨d, hd⟩ := (C46_patchy_accepts_exactly (n := 2) (mkPatchyModel
      (Mat.ofReal (fun _ => 36.8e9) (fun _ => 44e9) (fun _ => 2650))
      (finC fun _ => 0.4) (finC fun _ => 0.05) (finC fun _ => 20e6) (finC fun _ => 0.1)
      ((some fun _ => 8 : Option (Fin 2 → ℝ)).map finC) (finC fun _ => 0.5)) (φ := fun _ => 0.2) rfl rfl []).1.mpr
    (fun _ => by norm_num)
  have q : (Mat.ofReal (n := 2) (fun _ => 36.8e9) (fun _ => 44e9) (fun _ => 2650)).IsRock
    fun _ => ⟨36.8e9, 44e9, 2650⟩ := ⟨rfl, rfl, rfl, fun _ => by norm_num⟩
  obtain ⟨⟨r, h1, -⟩, -⟩ := C102_patchy q q
    (fun _ => ⟨by norm_num, by have := Real.pi_lt_four; norm_num; nlinarith⟩) exPressure hd
    (fun _ => by norm_num) (fun _ => by norm_num) (fun _ => by norm_num) (fun _ => by norm_num)
    (fun _ => by norm_num) (fun _ => by norm_num) (fun _ => by norm_num [effectiveAt, Published.effective])
    (fun _ => by norm_num) (fun _ => by norm_num) (fun _ => by norm_num [coordination])
  exact ⟨d, r, hd, h1⟩

example := (C102_default_polyfit (n := 2) (mineral := Mat.ofReal (fun _ => 36.8e9) (fun _ => 44e9) (fun _ => 2650))
  ⟨rfl, rfl, rfl⟩ (fun _ => by norm_num) (φ := fun _ => 0.3) exPressure (fun _ => by norm_num)).1 rfl

end OPE
