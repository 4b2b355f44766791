import Verif.Model.RockObjects
import Verif.Props.Published8

/-!
# C160-C163: dry rocks built from objects, over all histories of a session
-/

namespace OPE.Rocks

open Classical

variable {n : ℕ}

/-- The coefficient object a model refers to. -/
def ModelObj.coefficients : ModelObj n → Option ℕ
  | .polyfit i => i
  | _ => none

/-- The material object a model refers to as its cement. -/
def ModelObj.cement : ModelObj n → Option ℕ
  | .patchy i _ _ _ _ _ _ => some i
  | _ => none

/-- The operation assigns to coefficient object `i`. -/
def Op.AssignsCoefficients (i : ℕ) : Op n → Prop
  | .assignCoefficient k _ _ => k = i
  | _ => False

/-- The operation assigns to material object `i`. -/
def Op.AssignsMaterial (i : ℕ) : Op n → Prop
  | .assignMaterial k _ _ => k = i
  | _ => False

/-- The operation assigns to the porosity of dry rock `k`. -/
def Op.AssignsPorosity (k : ℕ) : Op n → Prop
  | .assignPorosity i _ => i = k
  | _ => False

theorem getElem?_append_some {α : Type} {xs ys : List α} {i : ℕ} {x : α} (h : xs[i]? = some x) :
    (xs ++ ys)[i]? = some x := by
  rw [List.getElem?_append_left (List.getElem?_eq_some_iff.mp h).1, h]

/-! ### What one operation does to an object -/

theorem fillModel_coefficients {s : Session n} {i j : ℕ} {o : CoeffObj} (h : s.coefficients[i]? = some o) :
    (s.fillModel j).coefficients[i]? = some o ∨
      ((s.fillModel j).coefficients[i]? = some o.fill ∧ s.models[j]? = some (.polyfit (some i))) := by
  unfold Session.fillModel
  split
  · exact .inl (getElem?_append_some h)
  · rename_i k hk
    dsimp only
    rw [List.getElem?_modify, h]
    by_cases hik : k = i
    · subst hik; exact .inr ⟨by simp, hk⟩
    · exact .inl (by simp [hik])
  · exact .inl h

theorem fillModel_rest (s : Session n) (j : ℕ) : (s.fillModel j).materials = s.materials ∧
    (s.fillModel j).trends = s.trends ∧ (s.fillModel j).rocks = s.rocks := by
  unfold Session.fillModel
  split <;> exact ⟨rfl, rfl, rfl⟩

theorem fillModel_models {s : Session n} {i j : ℕ} {M : ModelObj n} (h : s.models[i]? = some M) (hM : M ≠ .polyfit none) :
    (s.fillModel j).models[i]? = some M := by
  unfold Session.fillModel
  split
  · rename_i hk
    dsimp only
    rw [List.getElem?_set_ne, h]
    rintro rfl
    rw [h] at hk
    exact hM (Option.some.inj hk)
  · exact h
  · exact h

/-- The operation builds a dry rock from a model object that refers to coefficient object `i`. -/
def Op.FillsCoefficients (s : Session n) (i : ℕ) : Op n → Prop
  | .dryRock (some j) _ _ => s.models[j]? = some (.polyfit (some i))
  | _ => False

theorem step_coefficients {s : Session n} {op : Op n} {i : ℕ} {o : CoeffObj} (h : s.coefficients[i]? = some o)
    (hop : ¬ op.AssignsCoefficients i) :
    (step s op).2.coefficients[i]? = some o ∨
      ((step s op).2.coefficients[i]? = some o.fill ∧ op.FillsCoefficients s i) := by
  cases op with
  | material b g d vs vp =>
    rw [step]
    cases setDefaults b g (some d) vs vp <;> exact .inl h
  | coefficients o => exact .inl (getElem?_append_some h)
  | polyfitModel k =>
    cases k with
    | none => exact .inl h
    | some k => rw [step]; split_ifs <;> exact .inl h
  | friableModel a b d => exact .inl h
  | patchyModel k a b d e f g => rw [step]; split_ifs <;> exact .inl h
  | depthTrend d k r => rw [step]; split_ifs <;> exact .inl h
  | dryRock j φ as =>
    cases j with
    | none =>
      rw [step]; split_ifs
      · exact .inl h
      · exact .inl (getElem?_append_some h)
    | some j =>
      rw [step]; split_ifs
      · exact .inl h
      · cases s.modelNow j with
        | none => exact .inl h
        | some v =>
          dsimp only
          cases mkDryRock v φ [] with
          | error e => exact .inl h
          | ok _ => exact fillModel_coefficients h
  | assignMaterial k a x => rw [step]; split_ifs <;> exact .inl h
  | assignCoefficient k w x =>
    rw [step]; split_ifs
    · exact .inl h
    · refine .inl ?_
      have hk : k ≠ i := hop
      dsimp only
      rw [List.getElem?_modify, h]; simp [hk]
  | assignPorosity k x => rw [step]; split_ifs <;> exact .inl h

theorem step_materials {s : Session n} {op : Op n} {i : ℕ} {m : Mat n} (h : s.materials[i]? = some m)
    (hop : ¬ op.AssignsMaterial i) : (step s op).2.materials[i]? = some m := by
  cases op with
  | material b g d vs vp =>
    rw [step]
    cases setDefaults b g (some d) vs vp
    · exact h
    · exact getElem?_append_some h
  | coefficients o => exact h
  | polyfitModel k =>
    cases k with
    | none => exact h
    | some k => rw [step]; split_ifs <;> exact h
  | friableModel a b d => exact h
  | patchyModel k a b d e f g => rw [step]; split_ifs <;> exact h
  | depthTrend d k r => rw [step]; split_ifs <;> exact h
  | dryRock j φ as =>
    cases j with
    | none => rw [step]; split_ifs <;> exact h
    | some j =>
      rw [step]; split_ifs
      · exact h
      · cases s.modelNow j with
        | none => exact h
        | some v =>
          dsimp only
          cases mkDryRock v φ [] with
          | error e => exact h
          | ok _ => dsimp only; rw [(fillModel_rest s j).1]; exact h
  | assignMaterial k a x =>
    rw [step]; split_ifs
    · exact h
    · have hk : k ≠ i := hop
      dsimp only
      rw [List.getElem?_modify, h]; simp [hk]
  | assignCoefficient k w x => rw [step]; split_ifs <;> exact h
  | assignPorosity k x => rw [step]; split_ifs <;> exact h

theorem step_models {s : Session n} {op : Op n} {i : ℕ} {M : ModelObj n} (h : s.models[i]? = some M)
    (hM : M ≠ .polyfit none) : (step s op).2.models[i]? = some M := by
  cases op with
  | material b g d vs vp =>
    rw [step]
    cases setDefaults b g (some d) vs vp <;> exact h
  | coefficients o => exact h
  | polyfitModel k =>
    cases k with
    | none => exact getElem?_append_some h
    | some k => rw [step]; split_ifs; exacts [h, getElem?_append_some h]
  | friableModel a b d => exact getElem?_append_some h
  | patchyModel k a b d e f g => rw [step]; split_ifs; exacts [h, getElem?_append_some h]
  | depthTrend d k r => rw [step]; split_ifs <;> exact h
  | dryRock j φ as =>
    cases j with
    | none => rw [step]; split_ifs; exacts [h, getElem?_append_some h]
    | some j =>
      rw [step]; split_ifs
      · exact h
      · cases s.modelNow j with
        | none => exact h
        | some v =>
          dsimp only
          cases mkDryRock v φ [] with
          | error e => exact h
          | ok _ => exact fillModel_models h hM
  | assignMaterial k a x => rw [step]; split_ifs <;> exact h
  | assignCoefficient k w x => rw [step]; split_ifs <;> exact h
  | assignPorosity k x => rw [step]; split_ifs <;> exact h

theorem step_trends {s : Session n} {op : Op n} {i : ℕ} {t : TrendObj n} (h : s.trends[i]? = some t) :
    (step s op).2.trends[i]? = some t := by
  cases op with
  | material b g d vs vp =>
    rw [step]
    cases setDefaults b g (some d) vs vp <;> exact h
  | coefficients o => exact h
  | polyfitModel k =>
    cases k with
    | none => exact h
    | some k => rw [step]; split_ifs <;> exact h
  | friableModel a b d => exact h
  | patchyModel k a b d e f g => rw [step]; split_ifs <;> exact h
  | depthTrend d k r => rw [step]; split_ifs; exacts [h, getElem?_append_some h]
  | dryRock j φ as =>
    cases j with
    | none => rw [step]; split_ifs <;> exact h
    | some j =>
      rw [step]; split_ifs
      · exact h
      · cases s.modelNow j with
        | none => exact h
        | some v =>
          dsimp only
          cases mkDryRock v φ [] with
          | error e => exact h
          | ok _ => dsimp only; rw [(fillModel_rest s j).2.1]; exact h
  | assignMaterial k a x => rw [step]; split_ifs <;> exact h
  | assignCoefficient k w x => rw [step]; split_ifs <;> exact h
  | assignPorosity k x => rw [step]; split_ifs <;> exact h

theorem step_rocks {s : Session n} {op : Op n} {i : ℕ} {r : RockObj n} (h : s.rocks[i]? = some r)
    (hop : ¬ op.AssignsPorosity i) : (step s op).2.rocks[i]? = some r := by
  cases op with
  | material b g d vs vp =>
    rw [step]
    cases setDefaults b g (some d) vs vp <;> exact h
  | coefficients o => exact h
  | polyfitModel k =>
    cases k with
    | none => exact h
    | some k => rw [step]; split_ifs <;> exact h
  | friableModel a b d => exact h
  | patchyModel k a b d e f g => rw [step]; split_ifs <;> exact h
  | depthTrend d k r => rw [step]; split_ifs <;> exact h
  | dryRock j φ as =>
    cases j with
    | none => rw [step]; split_ifs; exacts [h, getElem?_append_some h]
    | some j =>
      rw [step]; split_ifs
      · exact h
      · cases s.modelNow j with
        | none => exact h
        | some v =>
          dsimp only
          cases mkDryRock v φ [] with
          | error e => exact h
          | ok _ => exact getElem?_append_some h
  | assignMaterial k a x => rw [step]; split_ifs <;> exact h
  | assignCoefficient k w x => rw [step]; split_ifs <;> exact h
  | assignPorosity k x =>
    rw [step]; split_ifs
    · exact h
    · have hk : k ≠ i := hop
      dsimp only
      rw [List.getElem?_modify, h]; simp [hk]

/-! ### Whole histories -/

theorem run_coefficients {s : Session n} {ops : List (Op n)} {i : ℕ} {o : CoeffObj} (h : s.coefficients[i]? = some o)
    (ho : o.fill = o) (hops : ∀ op ∈ ops, ¬ op.AssignsCoefficients i) : (run s ops).coefficients[i]? = some o := by
  induction ops generalizing s with
  | nil => exact h
  | cons op ops ih =>
    refine ih ?_ fun p hp => hops p (List.mem_cons_of_mem _ hp)
    rcases step_coefficients h (hops op (List.mem_cons_self ..)) with h' | ⟨h', -⟩
    · exact h'
    · rw [h', ho]

theorem run_materials {s : Session n} {ops : List (Op n)} {i : ℕ} {m : Mat n} (h : s.materials[i]? = some m)
    (hops : ∀ op ∈ ops, ¬ op.AssignsMaterial i) : (run s ops).materials[i]? = some m := by
  induction ops generalizing s with
  | nil => exact h
  | cons op ops ih =>
    exact ih (step_materials h (hops op (List.mem_cons_self ..))) fun p hp => hops p (List.mem_cons_of_mem _ hp)

theorem run_models {s : Session n} {ops : List (Op n)} {i : ℕ} {M : ModelObj n} (h : s.models[i]? = some M)
    (hM : M ≠ .polyfit none) : (run s ops).models[i]? = some M := by
  induction ops generalizing s with
  | nil => exact h
  | cons op ops ih => exact ih (step_models h hM)

theorem run_trends {s : Session n} {ops : List (Op n)} {i : ℕ} {t : TrendObj n} (h : s.trends[i]? = some t) :
    (run s ops).trends[i]? = some t := by
  induction ops generalizing s with
  | nil => exact h
  | cons op ops ih => exact ih (step_trends h)

theorem run_rocks {s : Session n} {ops : List (Op n)} {i : ℕ} {r : RockObj n} (h : s.rocks[i]? = some r)
    (hops : ∀ op ∈ ops, ¬ op.AssignsPorosity i) : (run s ops).rocks[i]? = some r := by
  induction ops generalizing s with
  | nil => exact h
  | cons op ops ih =>
    exact ih (step_rocks h (hops op (List.mem_cons_self ..))) fun p hp => hops p (List.mem_cons_of_mem _ hp)

/-! ### C160 -/

/-- The depth trend that trend object `k` stands for, when its three coefficients are given. -/
def Session.TrendIs (s : Session n) (k : ℕ) (t : DepthTrend n) : Prop :=
  ∃ i, s.trends[k]? = some ⟨t.depth, i, t.referenceDepth⟩ ∧
    s.coefficients[i]? = some ⟨t.useModuli, ⟨some t.coefficients.density, some t.coefficients.primary,
      some t.coefficients.secondary⟩⟩

/-- The adjustments that a list of adjustment objects stands for. -/
inductive Session.AdjustmentsAre (s : Session n) : List (AdjObj n) → List (Adjustment n) → Prop
  | nil : s.AdjustmentsAre [] []
  | trend {k t as bs} : s.TrendIs k t → s.AdjustmentsAre as bs → s.AdjustmentsAre (.trend k :: as) (.depthTrend t :: bs)
  | pressure {q as bs} : s.AdjustmentsAre as bs → s.AdjustmentsAre (.pressure q :: as) (.pressureDependency q :: bs)

theorem fill_given {b : Bool} {d p q : Coeffs} : (⟨b, ⟨some d, some p, some q⟩⟩ : CoeffObj).fill
    = ⟨b, ⟨some d, some p, some q⟩⟩ := rfl

theorem adjustByTrend_eq {s : Session n} {k : ℕ} {t : DepthTrend n} (h : s.TrendIs k t) (m : Mat n) :
    s.adjustByTrend k m = t.adjustMaterial m := by
  obtain ⟨i, h1, h2⟩ := h
  unfold Session.adjustByTrend
  rw [h1]
  dsimp only
  rw [h2]
  dsimp only [needCoeffs]
  simp only [bind_ok]
  rfl

theorem adjustAll_eq {s : Session n} {as : List (AdjObj n)} {bs : List (Adjustment n)} (h : s.AdjustmentsAre as bs)
    (pressure : Pressure n) (φ : Col n) (mineral m : Mat n) :
    s.adjustAll pressure φ mineral as m = OPE.adjustAll pressure φ mineral bs m := by
  induction h generalizing m with
  | nil => rfl
  | trend h1 _ ih =>
    rw [Session.adjustAll, OPE.adjustAll, adjustByTrend_eq h1]
    exact congrArg _ (funext fun x => ih x)
  | pressure _ ih =>
    rw [Session.adjustAll, OPE.adjustAll]
    exact congrArg _ (funext fun x => ih x)

/-- The coefficient objects that the depth trends of a list refer to. -/
def Session.trendCoefficients (s : Session n) (as : List (AdjObj n)) (i : ℕ) : Prop :=
  ∃ k t, .trend k ∈ as ∧ s.trends[k]? = some t ∧ t.coefficients = i

theorem adjustments_run {s : Session n} {as : List (AdjObj n)} {bs : List (Adjustment n)} (h : s.AdjustmentsAre as bs)
    {ops : List (Op n)} (hops : ∀ op ∈ ops, ∀ i, s.trendCoefficients as i → ¬ op.AssignsCoefficients i) :
    (run s ops).AdjustmentsAre as bs := by
  induction h with
  | nil => exact .nil
  | trend h1 _ ih =>
    refine .trend ?_ (ih fun op ho i hi => hops op ho i ?_)
    · obtain ⟨i, h2, h3⟩ := h1
      exact ⟨i, run_trends h2, run_coefficients h3 fill_given fun op ho =>
        hops op ho i ⟨_, _, List.mem_cons_self .., h2, rfl⟩⟩
    · obtain ⟨k, t, hk, ht, hi⟩ := hi
      exact ⟨k, t, List.mem_cons_of_mem _ hk, ht, hi⟩
  | pressure _ ih =>
    refine .pressure (ih fun op ho i hi => hops op ho i ?_)
    obtain ⟨k, t, hk, ht, hi⟩ := hi
    exact ⟨k, t, List.mem_cons_of_mem _ hk, ht, hi⟩

theorem fill_fill (o : CoeffObj) : o.fill.fill = o.fill := rfl

/-- What building a dry rock leaves: the model object with its values filled in. -/
theorem fillModel_now {s : Session n} {j : ℕ} {v : SandModel n} (h : s.modelNow j = some v) :
    ∃ M, (s.fillModel j).models[j]? = some M ∧ M ≠ .polyfit none ∧ (s.fillModel j).modelNow j = some v.fillDefaults ∧
      (∀ i, M.coefficients = some i → ∃ o, (s.fillModel j).coefficients[i]? = some o ∧ o.fill = o) := by
  unfold Session.modelNow at h
  split at h
  · cases h
  · rename_i hj
    have hlt : j < s.models.length := (List.getElem?_eq_some_iff.mp hj).1
    injection h with h
    subst h
    have e : s.fillModel j = { s with
      coefficients := s.coefficients ++ [defaultCoeffs]
      models := s.models.set j (.polyfit (some s.coefficients.length)) } := by
      unfold Session.fillModel; rw [hj]
    rw [e]
    refine ⟨.polyfit (some s.coefficients.length), by simp [hlt], by simp, ?_, fun i hi => ?_⟩
    · unfold Session.modelNow
      simp [hlt, SandModel.fillDefaults, defaultCoeffs]
    · injection hi with hi
      subst hi
      exact ⟨defaultCoeffs, by simp, rfl⟩
  · rename_i i hj
    obtain ⟨o, ho, rfl⟩ := Option.map_eq_some_iff.mp h
    have e : s.fillModel j = { s with coefficients := s.coefficients.modify i CoeffObj.fill } := by
      unfold Session.fillModel; rw [hj]
    rw [e]
    refine ⟨.polyfit (some i), hj, by simp, ?_, fun k hk => ?_⟩
    · unfold Session.modelNow
      dsimp only
      rw [hj]
      dsimp only
      rw [List.getElem?_modify, ho]
      simp [SandModel.fillDefaults, CoeffObj.fill]
    · injection hk with hk
      subst hk
      exact ⟨o.fill, by simp [List.getElem?_modify, ho], rfl⟩
  · rename_i f hj
    injection h with h
    subst h
    have e : s.fillModel j = s := by unfold Session.fillModel; rw [hj]
    rw [e]
    refine ⟨_, hj, by simp, ?_, fun i hi => by cases hi⟩
    unfold Session.modelNow; rw [hj]; rfl
  · rename_i i φc cf plb u N sr hj
    obtain ⟨m, hm, rfl⟩ := Option.map_eq_some_iff.mp h
    have e : s.fillModel j = s := by unfold Session.fillModel; rw [hj]
    rw [e]
    refine ⟨_, hj, by simp, ?_, fun i hi => by cases hi⟩
    unfold Session.modelNow; rw [hj]; simp [hm, SandModel.fillDefaults]

/-- The values of a model object stay. -/
theorem modelNow_run {s : Session n} {j : ℕ} {v : SandModel n} {M : ModelObj n} (hM : s.models[j]? = some M)
    (hne : M ≠ .polyfit none) (h : s.modelNow j = some v)
    (hfull : ∀ i, M.coefficients = some i → ∃ o, s.coefficients[i]? = some o ∧ o.fill = o)
    {ops : List (Op n)} (h1 : ∀ op ∈ ops, ∀ i, M.coefficients = some i → ¬ op.AssignsCoefficients i)
    (h2 : ∀ op ∈ ops, ∀ i, M.cement = some i → ¬ op.AssignsMaterial i) : (run s ops).modelNow j = some v := by
  have hm := run_models (ops := ops) hM hne
  unfold Session.modelNow at h ⊢
  rw [hM] at h
  rw [hm]
  cases M with
  | polyfit i =>
    cases i with
    | none => exact absurd rfl hne
    | some i =>
      obtain ⟨o, ho, hf⟩ := hfull i rfl
      dsimp only at h ⊢
      rw [run_coefficients ho hf fun op hp => h1 op hp i rfl]
      rw [ho] at h
      exact h
  | friable f => exact h
  | patchy i a b d e f g =>
    dsimp only at h ⊢
    obtain ⟨m, hmat, hv⟩ := Option.map_eq_some_iff.mp h
    rw [run_materials hmat fun op hp => h2 op hp i rfl]
    rw [hmat] at h
    exact h

theorem adjustments_fill {s : Session n} {as : List (AdjObj n)} {bs : List (Adjustment n)} (h : s.AdjustmentsAre as bs)
    (j : ℕ) (rocks : List (RockObj n)) : Session.AdjustmentsAre { s.fillModel j with rocks := rocks } as bs := by
  induction h with
  | nil => exact .nil
  | trend h1 _ ih =>
    refine .trend ?_ ih
    obtain ⟨i, h2, h3⟩ := h1
    refine ⟨i, ?_, ?_⟩
    · dsimp only; rw [(fillModel_rest s j).2.1]; exact h2
    · rcases fillModel_coefficients (j := j) h3 with h | ⟨h, -⟩
      · exact h
      · exact h
  | pressure _ ih => exact .pressure ih

/-- **C160.** In any session, a dry rock that is built from objects - model, coefficients, cement, depth trends, which
may be shared with other dry rocks - gives for every mineral and pressure the material of the dry rock built from the
values of these objects, also after any further operations, until its porosity, its coefficients, its cement or the
coefficients of its trends are assigned.  (Its trends have their coefficients given: `hA`.) -/
theorem C160_built_partial (s s' : Session n) (j : ℕ) (v : SandModel n) (hv : s.modelNow j = some v) (φ : Col n)
    (as : List (AdjObj n)) (A : List (Adjustment n)) (hA : s.AdjustmentsAre as A)
    (h : step s (.dryRock (some j) φ as) = (.ok (), s')) (M : ModelObj n) (hM : s'.models[j]? = some M)
    (ops : List (Op n)) (h0 : ∀ op ∈ ops, ¬ op.AssignsPorosity s.rocks.length)
    (h1 : ∀ op ∈ ops, ∀ i, M.coefficients = some i ∨ s.trendCoefficients as i → ¬ op.AssignsCoefficients i)
    (h2 : ∀ op ∈ ops, ∀ i, M.cement = some i → ¬ op.AssignsMaterial i) :
    ∃ d, mkDryRock v φ A = .ok d ∧ ∀ mineral pressure,
      (run s' ops).rockMaterial s.rocks.length mineral pressure = d.material mineral pressure := by
  rw [step] at h
  split_ifs at h with hk
  · simp at h
  rw [hv] at h
  dsimp only at h
  cases hd : mkDryRock v φ [] with
  | error e => rw [hd] at h; simp at h
  | ok d =>
    rw [hd] at h
    simp only [Prod.mk.injEq, true_and] at h
    have hdm : d = ⟨v.fillDefaults, φ, []⟩ ∧ mkDryRock v φ A = .ok ⟨v.fillDefaults, φ, A⟩ := by
      unfold mkDryRock at hd ⊢
      cases v with
      | polyfit b a => cases hd; exact ⟨rfl, rfl⟩
      | friable f =>
        dsimp only at hd ⊢
        obtain ⟨hp, hd⟩ := failIf_bind_ok.mp hd
        cases hd
        exact ⟨rfl, by rw [failIf_false hp]; rfl⟩
      | patchy f =>
        dsimp only at hd ⊢
        obtain ⟨hp, hd⟩ := failIf_bind_ok.mp hd
        obtain ⟨hp', hd⟩ := failIf_bind_ok.mp hd
        cases hd
        exact ⟨rfl, by rw [failIf_false hp, bind_ok, failIf_false hp']; rfl⟩
    refine ⟨_, hdm.2, fun mineral pressure => ?_⟩
    obtain ⟨M', hM', hne, hnow, hfull⟩ := fillModel_now hv
    have e1 : s'.models = (s.fillModel j).models := by rw [← h]
    have e2 : s'.modelNow j = (s.fillModel j).modelNow j := by rw [← h]; rfl
    have e3 : s'.coefficients = (s.fillModel j).coefficients := by rw [← h]
    have hMM : M' = M := by rw [e1, hM'] at hM; exact Option.some.inj hM
    subst hMM
    have hrock : s'.rocks[s.rocks.length]? = some ⟨j, φ, as⟩ := by rw [← h]; simp
    have hA' : s'.AdjustmentsAre as A := by rw [← h]; exact adjustments_fill hA j _
    have htc : ∀ i, s'.trendCoefficients as i → s.trendCoefficients as i := by
      rintro i ⟨k, t, hk, ht, hi⟩
      refine ⟨k, t, hk, ?_, hi⟩
      rw [← h] at ht
      dsimp only at ht
      rw [(fillModel_rest s j).2.1] at ht
      exact ht
    unfold Session.rockMaterial
    rw [run_rocks hrock h0]
    dsimp only
    rw [modelNow_run hM hne (e2.trans hnow) (by rw [e3]; exact hfull) (fun op hp i hi => h1 op hp i (.inl hi)) h2]
    dsimp only
    unfold DryRock.material
    simp only [adjustAll_eq (adjustments_run hA' fun op hp i hi => h1 op hp i (.inr (htc i hi)))]

/-- **C160, given values.** Whatever is built from a coefficient object and whatever else is done, a coefficient that
is given is not changed, except by an assignment to it. -/
theorem C160_given (s : Session n) (ops : List (Op n)) (i : ℕ) (o : CoeffObj) (h : s.coefficients[i]? = some o)
    (hops : ∀ op ∈ ops, ¬ op.AssignsCoefficients i) :
    ∃ o', (run s ops).coefficients[i]? = some o' ∧ o'.useModuli = o.useModuli ∧
      ∀ (w : Which) (x : Coeffs), w.get o.values = some x → w.get o'.values = some x := by
  induction ops generalizing s o with
  | nil => exact ⟨o, h, rfl, fun _ _ hx => hx⟩
  | cons op ops ih =>
    have hrest := fun p hp => hops p (List.mem_cons_of_mem _ hp)
    rcases step_coefficients h (hops op (List.mem_cons_self ..)) with h' | ⟨h', -⟩
    · exact ih _ o h' hrest
    · obtain ⟨o', h1, h2, h3⟩ := ih _ _ h' hrest
      refine ⟨o', h1, h2, fun w x hx => h3 w x ?_⟩
      cases w
      · have hx : o.values.density = some x := hx
        simp [Which.get, CoeffObj.fill, hx]
      · have hx : o.values.primary = some x := hx
        simp [Which.get, CoeffObj.fill, hx]
      · have hx : o.values.secondary = some x := hx
        simp [Which.get, CoeffObj.fill, hx]

end OPE.Rocks
