import Verif.Props.RockObjects2
import Verif.Props.EndToEnd

/-!
# C163: the porosity of dry rock objects, and concrete sessions for C160-C163
-/

namespace OPE.Rocks

open Classical

variable {n : ℕ}

/-! ### C163 -/

/-- The porosity stays below the critical porosity of the model (by 1e-5, as documented), and for patchy cement within
the upper cement bound (up to 1e-5). -/
def ModelObj.Allows (φ : Col n) : ModelObj n → Prop
  | .polyfit _ => True
  | .friable f => ∀ i, ¬ f.criticalPorosity i < φ i + Num.fin 1e-5
  | .patchy _ φc _ _ u _ _ => ∀ i, ¬ φc i < φ i + Num.fin 1e-5 ∧ ¬ (φc - u) i < φ i - Num.fin 1e-5

/-- Every dry rock of the session has a porosity that its model allows. -/
def Session.PorositiesFit (s : Session n) : Prop :=
  ∀ r ∈ s.rocks, ∃ M, s.models[r.model]? = some M ∧ M ≠ .polyfit none ∧ M.Allows r.porosity

theorem fit_step {s : Session n} (h : s.PorositiesFit) {op : Op n} (hop : ∀ k x, op ≠ .assignPorosity k x) :
    (step s op).2.PorositiesFit := by
  have old : ∀ r ∈ s.rocks, ∃ M, (step s op).2.models[r.model]? = some M ∧ M ≠ .polyfit none ∧ M.Allows r.porosity := by
    intro r hr
    obtain ⟨M, h1, h2, h3⟩ := h r hr
    exact ⟨M, step_models h1 h2, h2, h3⟩
  intro r hr
  have key : r ∈ s.rocks ∨ ∃ j φ as, op = .dryRock j φ as := by
    cases op with
    | material b g d vs vp =>
      rw [step] at hr
      cases hs : setDefaults b g (some d) vs vp <;> rw [hs] at hr <;> exact .inl hr
    | coefficients o => exact .inl hr
    | polyfitModel k =>
      cases k with
      | none => exact .inl hr
      | some k => rw [step] at hr; split_ifs at hr <;> exact .inl hr
    | friableModel a b d => exact .inl hr
    | patchyModel k a b d e f g => rw [step] at hr; split_ifs at hr <;> exact .inl hr
    | depthTrend d k r => rw [step] at hr; split_ifs at hr <;> exact .inl hr
    | dryRock j φ as => exact .inr ⟨_, _, _, rfl⟩
    | assignMaterial k a x => rw [step] at hr; split_ifs at hr <;> exact .inl hr
    | assignCoefficient k w x => rw [step] at hr; split_ifs at hr <;> exact .inl hr
    | assignPorosity k x => exact absurd rfl (hop k x)
  rcases key with hr' | ⟨j, φ, as, rfl⟩
  · exact old r hr'
  · cases j with
    | none =>
      rw [step] at hr old ⊢
      split_ifs at hr old ⊢ with hm
      · exact old r hr
      · dsimp only at hr
        rcases List.mem_append.mp hr with hr | hr
        · exact old r hr
        · rw [List.mem_singleton.mp hr]
          exact ⟨.polyfit (some s.coefficients.length), by simp, by simp, trivial⟩
    | some j =>
      rw [step] at hr old ⊢
      split_ifs at hr old ⊢ with hm
      · exact old r hr
      · cases hv : s.modelNow j with
        | none => rw [hv] at hr old; exact old r hr
        | some v =>
          rw [hv] at hr old
          dsimp only at hr old ⊢
          cases hd : mkDryRock v φ [] with
          | error e => rw [hd] at hr old; exact old r hr
          | ok d =>
            rw [hd] at hr old
            dsimp only at hr old ⊢
            rcases List.mem_append.mp hr with hr | hr
            · exact old r hr
            · rw [List.mem_singleton.mp hr]
              obtain ⟨M, h1, h2, h3, -⟩ := fillModel_now hv
              refine ⟨M, h1, h2, ?_⟩
              unfold Session.modelNow at h3
              rw [h1] at h3
              unfold mkDryRock at hd
              cases M with
              | polyfit i => exact trivial
              | friable f =>
                have hv' : v = .friable f := by
                  cases v with
                  | polyfit b a => cases h3
                  | friable g => injection h3 with h3; exact h3.symm
                  | patchy g => cases h3
                subst hv'
                obtain ⟨hp, -⟩ := failIf_bind_ok.mp hd
                intro i hi
                exact hp ⟨i, hi⟩
              | patchy i φc cf plb u N sr =>
                dsimp only at h3
                cases hc : (s.fillModel j).materials[i]? with
                | none => rw [hc] at h3; cases h3
                | some m =>
                  rw [hc] at h3
                  have hv' : v = .patchy ⟨m, φc, cf, plb, u, N, sr⟩ := by
                    cases v with
                    | polyfit b a => cases h3
                    | friable g => cases h3
                    | patchy g => injection h3 with h3; exact h3.symm
                  subst hv'
                  obtain ⟨hp, hd⟩ := failIf_bind_ok.mp hd
                  obtain ⟨hp', -⟩ := failIf_bind_ok.mp hd
                  intro i
                  exact ⟨fun hi => hp' ⟨i, hi⟩, fun hi => hp ⟨i, hi⟩⟩

/-- **C163.** In any session in which no porosity is assigned to a dry rock object, every dry rock has a porosity that
its sandstone model allows: below the critical porosity, and for patchy cement within the upper cement bound. -/
theorem C163_porosity_fits_partial (ops : List (Op n)) (hops : ∀ op ∈ ops, ∀ k x, op ≠ .assignPorosity k x)
    (r : RockObj n) (hr : r ∈ (run Session.start ops).rocks) :
    ∃ M, (run Session.start ops).models[r.model]? = some M ∧ M.Allows r.porosity := by
  have key : ∀ (ops : List (Op n)) (s : Session n), s.PorositiesFit → (∀ op ∈ ops, ∀ k x, op ≠ .assignPorosity k x) →
      (run s ops).PorositiesFit := by
    intro ops
    induction ops with
    | nil => exact fun s h _ => h
    | cons op ops ih =>
      exact fun s h hops => ih _ (fit_step h (hops op (List.mem_cons_self ..)))
        fun p hp => hops p (List.mem_cons_of_mem _ hp)
  obtain ⟨M, h1, -, h3⟩ := key ops Session.start (fun r hr => by cases hr) hops r hr
  exact ⟨M, h1, h3⟩

/-- A dry rock of friable sand with critical porosity 0.4 and porosity 0.2. -/
noncomputable def sandy : List (Op 1) :=
  [.friableModel (c 0.4) (c 1) none, .dryRock (some 0) (c 0.2) []]

theorem sandy_run : run Session.start sandy = (⟨[Parse.defaultCement], [],
    [.friable (mkFriableModel (c 0.4) (c 1) none)], [], [⟨0, c 0.2, []⟩]⟩ : Session 1) := by
  unfold sandy
  rw [run, run, run]
  have h : step (Session.start : Session 1) (.friableModel (c 0.4) (c 1) none) = (.ok (), ⟨[Parse.defaultCement], [],
      [.friable (mkFriableModel (c 0.4) (c 1) none)], [], []⟩) := rfl
  rw [h, step, if_neg (by rintro ⟨a, ha, -⟩; cases ha)]
  have h2 : Session.modelNow (⟨[Parse.defaultCement], [], [.friable (mkFriableModel (c 0.4) (c 1) none)], [], []⟩ :
      Session 1) 0 = some (.friable (mkFriableModel (c 0.4) (c 1) none)) := rfl
  dsimp only
  rw [h2]
  have h3 : mkDryRock (.friable (mkFriableModel (c 0.4 : Col 1) (c 1) none)) (c 0.2) [] =
      .ok ⟨.friable (mkFriableModel (c 0.4) (c 1) none), c 0.2, []⟩ := by
    unfold mkDryRock
    dsimp only
    rw [failIf_false]
    · rfl
    · rintro ⟨i, hi⟩
      simp only [mkFriableModel, c, Num.fin_add, Num.fin_lt] at hi
      norm_num at hi
  dsimp only
  rw [h3]
  rfl

/-- The hypotheses of C163 are met by a session with a dry rock. -/
example : (run Session.start sandy).rocks ≠ [] ∧ ∀ op ∈ sandy, ∀ k x, op ≠ .assignPorosity k x := by
  rw [sandy_run]
  refine ⟨by simp, fun op hop k x he => ?_⟩
  subst he
  simp [sandy] at hop

/-- **C163, refuted.** An assignment to the porosity is not compared with the critical porosity. -/
theorem C163_refuted : ¬ ∀ (ops : List (Op 1)) (r : RockObj 1), r ∈ (run Session.start ops).rocks →
    ∃ M, (run Session.start ops).models[r.model]? = some M ∧ M.Allows r.porosity := by
  intro h
  have e : run Session.start (sandy ++ [.assignPorosity 0 (c 0.9)]) = (⟨[Parse.defaultCement], [],
      [.friable (mkFriableModel (c 0.4) (c 1) none)], [], [⟨0, c 0.9, []⟩]⟩ : Session 1) := by
    rw [run_append, sandy_run, run, run, step, if_neg (by simp)]
    rfl
  obtain ⟨M, h1, h2⟩ := h (sandy ++ [.assignPorosity 0 (c 0.9)]) ⟨0, c 0.9, []⟩ (by rw [e]; simp)
  rw [e] at h1
  injection h1 with h1
  subst h1
  refine h2 0 ?_
  simp only [mkFriableModel, c, Num.fin_add, Num.fin_lt]
  norm_num

/-! ### Concrete sessions -/

/-- C160: the dry rock of `sandy` is built from shared objects (its hypotheses are met), and it is the dry rock built
from the values, also after another dry rock is built from the same model. -/
example : ∃ d, mkDryRock (.friable (mkFriableModel (c 0.4 : Col 1) (c 1) none)) (c 0.2) [] = .ok d ∧
    ∀ mineral pressure, (run Session.start (sandy ++ [.dryRock (some 0) (c 0.3) []])).rockMaterial 0 mineral pressure
      = d.material mineral pressure := by
  have h := C160_built_partial (n := 1)
    (s := ⟨[Parse.defaultCement], [], [.friable (mkFriableModel (c 0.4) (c 1) none)], [], []⟩)
    (s' := run Session.start sandy) (j := 0) (v := .friable (mkFriableModel (c 0.4) (c 1) none)) rfl (φ := c 0.2)
    (as := []) (A := []) .nil ?_ (.friable (mkFriableModel (c 0.4) (c 1) none)) (by rw [sandy_run]; rfl)
    [.dryRock (some 0) (c 0.3) []] ?_ ?_ ?_
  · obtain ⟨d, h1, h2⟩ := h
    exact ⟨d, h1, fun mineral pressure => by rw [run_append]; exact h2 mineral pressure⟩
  · have e : run Session.start sandy = (step (⟨[Parse.defaultCement], [],
        [.friable (mkFriableModel (c 0.4) (c 1) none)], [], []⟩ : Session 1) (.dryRock (some 0) (c 0.2) [])).2 := rfl
    rw [e]
    refine Prod.ext ?_ rfl
    rw [step, if_neg (by rintro ⟨a, ha, -⟩; cases ha)]
    have h3 : mkDryRock (.friable (mkFriableModel (c 0.4 : Col 1) (c 1) none)) (c 0.2) [] =
        .ok ⟨.friable (mkFriableModel (c 0.4) (c 1) none), c 0.2, []⟩ := by
      unfold mkDryRock
      dsimp only
      rw [failIf_false]
      · rfl
      · rintro ⟨i, hi⟩
        simp only [mkFriableModel, c, Num.fin_add, Num.fin_lt] at hi
        norm_num at hi
    have h2 : Session.modelNow (⟨[Parse.defaultCement], [], [.friable (mkFriableModel (c 0.4) (c 1) none)], [], []⟩ :
        Session 1) 0 = some (.friable (mkFriableModel (c 0.4) (c 1) none)) := rfl
    rw [h2]
    dsimp only
    rw [h3]
  all_goals
    intro op hop
    simp only [List.mem_singleton] at hop
    subst hop
    simp [Op.AssignsPorosity, Op.AssignsCoefficients, Op.AssignsMaterial]

/-- C161: a session in which another material is built and assigned to. -/
example : (run Session.start ([.material (some (c 1)) (some (c 1)) (c 1) none none, .assignMaterial 1 .density (c 2)] ++
    [.patchyModel none (c 0.4) (c 0.04) (c 20e6) (c 0.1) none (c 1)])).modelNow 0 =
      some (.patchy (mkPatchyModel (Parse.defaultCement : Mat 1) (c 0.4) (c 0.04) (c 20e6) (c 0.1) none (c 1))) := by
  have h := (C161_default_cement_partial (n := 1)
    [.material (some (c 1)) (some (c 1)) (c 1) none none, .assignMaterial 1 .density (c 2)] []
    (c 0.4) (c 0.04) (c 20e6) (c 0.1) none (c 1)
    (by intro op hop; simp at hop; rcases hop with rfl | rfl <;> simp [Op.AssignsMaterial]) (by simp)).2
  have e : (run (Session.start : Session 1) [.material (some (c 1)) (some (c 1)) (c 1) none none,
      .assignMaterial 1 .density (c 2)]).models.length = 0 := by
    rw [run, run, run]
    simp [step, Session.start, setDefaults, bind_ok]
  rw [e] at h
  exact h

/-- C162: the sections of the examples, with any velocities of the mineral, give the results of the sections with the
velocities of the mineral's moduli. -/
example (co2 : CO2Model n) (por : Fin n → ℝ) (vp vs : Col n) :
    calculate co2 (plain (exSections por)) = calculate co2 { exSections por with
      minerals := [⟨{ (exQuartz n).mat with vp := vp, vs := vs }, some (finC (exQuartz n).f)⟩] } := by
  rw [← C162_velocities_unused co2 { exSections por with
      minerals := [⟨{ (exQuartz n).mat with vp := vp, vs := vs }, some (finC (exQuartz n).f)⟩] } (fun a h => by cases h)]
  rfl

end OPE.Rocks
