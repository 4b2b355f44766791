import Verif.Model.Fluids
import Verif.Props.Fluid
import Verif.Props.BatzleWang4
import Verif.Props.Poly

/-!
# Properties of the `fluids` section (C38, C39, C40)
-/

namespace OPE

open Classical

variable {n : ℕ}

/-! ## Specification -/

/-- Which fluid types a provider offers: Batzle–Wang (also under the name `default`) brine, gas and oil,
Span–Wagner carbon dioxide; nobody condensate.  Explicit materials need no provider. -/
def Supports : Provider → FluidKind n → Prop
  | _, .material _ => True
  | .spanWagner, .carbonDioxide _ => True
  | .spanWagner, _ => False
  | _, .oil _ _ _ => True
  | _, .gas _ => True
  | _, .brine _ => True
  | _, _ => False

/-- Carbon dioxide evaluated by the Span–Wagner provider. -/
def UsesSpanWagner (section_ : Provider) (x : FluidConst n) : Prop :=
  x.model.getD section_ = .spanWagner ∧ ∃ b, x.kind = .carbonDioxide b

/-! ## One constituent -/

theorem asMaterial_pressure (co2 : CO2Model n) (s : Provider) (T p : Col n) (x : FluidConst n) :
    (x.asMaterial co2 s T p).2 = if UsesSpanWagner s x then (fun i => p i / Num.fin 1e6) else p := by
  obtain ⟨k, m, f⟩ := x
  unfold FluidConst.asMaterial UsesSpanWagner
  dsimp only
  cases hk : k <;> cases hm : m.getD s <;> simp [FluidKind.asMaterial]

theorem asMaterial_unsupported (co2 : CO2Model n) (s : Provider) (T p : Col n) (x : FluidConst n)
    (h : ¬ Supports (x.model.getD s) x.kind) : (x.asMaterial co2 s T p).1 = .error .notImplemented := by
  obtain ⟨k, m, f⟩ := x
  unfold FluidConst.asMaterial
  dsimp only at h ⊢
  cases hk : k <;> cases hm : m.getD s <;> rw [hk, hm] at h <;>
    first | exact absurd trivial h | rfl

theorem materialsOf_cons_ok {co2 : CO2Model n} {s : Provider} {T : Col n} {x : FluidConst n}
    {xs : List (FluidConst n)} {p : Col n} {ms : List (Mat n)} :
    (materialsOf co2 s T (x :: xs) p).1 = .ok ms ↔
      ∃ m ms', (x.asMaterial co2 s T p).1 = .ok m ∧
        (materialsOf co2 s T xs (x.asMaterial co2 s T p).2).1 = .ok ms' ∧ ms = m :: ms' := by
  rw [materialsOf]
  rcases h : x.asMaterial co2 s T p with ⟨e | m, p'⟩
  · simp
  · dsimp only
    rcases h2 : materialsOf co2 s T xs p' with ⟨e | ms', p''⟩
    · simp
    · simp [eq_comm]

theorem materialsOf_cons_pressure {co2 : CO2Model n} {s : Provider} {T : Col n} {x : FluidConst n}
    {xs : List (FluidConst n)} {p : Col n} {m : Mat n} (h : (x.asMaterial co2 s T p).1 = .ok m) :
    (materialsOf co2 s T (x :: xs) p).2 = (materialsOf co2 s T xs (x.asMaterial co2 s T p).2).2 := by
  rw [materialsOf]
  rcases h' : x.asMaterial co2 s T p with ⟨e | m', p'⟩
  · rw [h'] at h; cases h
  · dsimp only
    rcases h2 : materialsOf co2 s T xs p' with ⟨e | ms', p''⟩ <;> rfl

theorem materialsOf_pressure_fixed {co2 : CO2Model n} {s : Provider} {T : Col n}
    {xs : List (FluidConst n)} (p : Col n) (h : ∀ x ∈ xs, ¬ UsesSpanWagner s x) :
    (materialsOf co2 s T xs p).2 = p := by
  induction xs with
  | nil => rfl
  | cons x xs ih =>
    have hp : (x.asMaterial co2 s T p).2 = p := by
      rw [asMaterial_pressure, if_neg (h x List.mem_cons_self)]
    rw [materialsOf]
    rcases h' : x.asMaterial co2 s T p with ⟨e | m', p'⟩
    · rw [h'] at hp; exact hp
    · rw [h'] at hp
      dsimp only at hp ⊢
      subst hp
      have := ih (fun y hy => h y (List.mem_cons_of_mem _ hy))
      rcases h2 : materialsOf co2 s T xs p' with ⟨e | ms', p''⟩ <;> rw [h2] at this <;> exact this

/-- Without Span–Wagner CO2 each constituent is evaluated at the given pressure. -/
theorem materialsOf_ok_iff {co2 : CO2Model n} {s : Provider} {T : Col n}
    {xs : List (FluidConst n)} {p : Col n} {ms : List (Mat n)} (h : ∀ x ∈ xs, ¬ UsesSpanWagner s x) :
    (materialsOf co2 s T xs p).1 = .ok ms ↔
      xs.map (fun x => (x.asMaterial co2 s T p).1) = ms.map .ok := by
  induction xs generalizing ms with
  | nil => simp [materialsOf, eq_comm]
  | cons x xs ih =>
    have hp : (x.asMaterial co2 s T p).2 = p := by
      rw [asMaterial_pressure, if_neg (h x List.mem_cons_self)]
    rw [materialsOf_cons_ok, hp]
    have ih' := fun ms => ih (ms := ms) (fun y hy => h y (List.mem_cons_of_mem _ hy))
    constructor
    · rintro ⟨m, ms', h1, h2, rfl⟩
      rw [List.map_cons, List.map_cons, h1, (ih' ms').mp h2]
    · intro h1
      cases ms with
      | nil => simp at h1
      | cons m ms' =>
        rw [List.map_cons, List.map_cons, List.cons.injEq] at h1
        exact ⟨m, ms', h1.1, (ih' ms').mpr h1.2, rfl⟩

theorem asMixture_eq (co2 : CO2Model n) (f : Fluids n) (p : Col n) :
    f.asMixture co2 p = ((materialsOf co2 f.model f.temperature f.constituents p).1 >>= f.mix,
      (materialsOf co2 f.model f.temperature f.constituents p).2) := by
  unfold Fluids.asMixture
  rcases materialsOf co2 f.model f.temperature f.constituents p with ⟨e | ms, p'⟩ <;> rfl

/-- A permutation of a mapped list is the map of a permutation. -/
theorem perm_of_map {α β : Type} {g : α → β} {l : List β} {P : List α} (h : l.Perm (P.map g)) :
    ∃ Q : List α, Q.Perm P ∧ l = Q.map g := by
  generalize hP : P.map g = l2 at h
  induction h generalizing P with
  | nil => exact ⟨[], by cases P <;> simp at hP ⊢, rfl⟩
  | cons x h ih =>
    cases P with
    | nil => simp at hP
    | cons y P =>
      rw [List.map_cons, List.cons.injEq] at hP
      obtain ⟨Q, h1, h2⟩ := ih hP.2
      exact ⟨y :: Q, h1.cons y, by rw [h2, List.map_cons, hP.1]⟩
  | swap x y l =>
    match P, hP with
    | a :: b :: P, hP =>
      simp only [List.map_cons, List.cons.injEq] at hP
      exact ⟨b :: a :: P, List.Perm.swap a b P, by simp [hP]⟩
  | trans h1 h2 ih1 ih2 =>
    obtain ⟨Q, q1, q2⟩ := ih2 hP
    obtain ⟨R, r1, r2⟩ := ih1 q2.symm
    exact ⟨R, r1.trans q1, r2⟩

/-! ### C38 -/

/-- **C38, the part that holds.** For sections without Span–Wagner carbon dioxide `as_mixture` leaves
the pressure array alone (also when it fails), a second call gives the same result, and with Wood mixing
any reordering of the constituents gives the same mixture. -/
theorem C38_partial (co2 : CO2Model n) (f : Fluids n) (p : Col n)
    (h : ∀ x ∈ f.constituents, ¬ UsesSpanWagner f.model x) :
    (f.asMixture co2 p).2 = p ∧
    f.asMixture co2 (f.asMixture co2 p).2 = f.asMixture co2 p ∧
    (f.method = .wood → ∀ cs', cs'.Perm f.constituents → ∀ m,
      ((f.asMixture co2 p).1 = .ok m ↔ (({f with constituents := cs'} : Fluids n).asMixture co2 p).1 = .ok m)) := by
  have hp : (f.asMixture co2 p).2 = p := by
    rw [asMixture_eq]; exact materialsOf_pressure_fixed p h
  refine ⟨hp, by rw [hp], ?_⟩
  intro hw cs' hperm m
  have hok : ∀ (cs : List (FluidConst n)), (∀ x ∈ cs, ¬ UsesSpanWagner f.model x) → ∀ r,
      ((({f with constituents := cs} : Fluids n).asMixture co2 p).1 = .ok r ↔
        ∃ P : List (Mat n × Col n),
          cs.map (fun x => ((x.asMaterial co2 f.model f.temperature p).1, x.fraction))
            = P.map (fun y => (Except.ok y.1, y.2)) ∧ wood (P.map Prod.fst) (P.map Prod.snd) = .ok r) := by
    intro cs hcs r
    rw [asMixture_eq]
    dsimp only
    rw [bind_eq_ok]
    constructor
    · rintro ⟨ms, h1, h2⟩
      rw [materialsOf_ok_iff hcs] at h1
      have hl : ms.length = cs.length := by
        have := congrArg List.length h1; simpa using this.symm
      refine ⟨ms.zip (cs.map (·.fraction)), ?_, ?_⟩
      · apply List.ext_getElem (by simp [hl])
        intro i hi1 hi2
        have hi : i < cs.length := by simpa using hi1
        have e : ((cs.map fun x => (x.asMaterial co2 f.model f.temperature p).1))[i]? = (ms.map Except.ok)[i]? := by
          rw [h1]
        rw [List.getElem?_eq_getElem (by simpa using hi), List.getElem?_eq_getElem (by simpa [hl] using hi)] at e
        simp only [List.getElem_map, Option.some.injEq] at e
        simp only [List.getElem_map, List.getElem_zip, e]
      · unfold Fluids.mix at h2
        simp only [hw] at h2
        rw [List.map_fst_zip (by simp [hl]), List.map_snd_zip (by simp [hl])]
        exact h2
    · rintro ⟨P, h1, h2⟩
      refine ⟨P.map Prod.fst, ?_, ?_⟩
      · rw [materialsOf_ok_iff hcs]
        have := congrArg (List.map Prod.fst) h1
        simpa [List.map_map, Function.comp_def] using this
      · unfold Fluids.mix
        simp only [hw]
        have := congrArg (List.map Prod.snd) h1
        simp only [List.map_map, Function.comp_def] at this
        have e : cs.map (·.fraction) = P.map Prod.snd := this
        rw [e]; exact h2
  have key : ∀ cs cs' : List (FluidConst n), cs'.Perm cs → (∀ x ∈ cs, ¬ UsesSpanWagner f.model x) → ∀ r,
      ((({f with constituents := cs} : Fluids n).asMixture co2 p).1 = .ok r →
       (({f with constituents := cs'} : Fluids n).asMixture co2 p).1 = .ok r) := by
    intro cs cs' hpm hcs r hr
    rw [hok cs hcs] at hr
    obtain ⟨P, h1, h2⟩ := hr
    have hcs' : ∀ x ∈ cs', ¬ UsesSpanWagner f.model x := fun x hx => hcs x (hpm.mem_iff.mp hx)
    rw [hok cs' hcs']
    have hpm2 := hpm.map (fun x => ((x.asMaterial co2 f.model f.temperature p).1, x.fraction))
    rw [h1] at hpm2
    -- a permutation of a mapped list is the map of a permutation
    obtain ⟨Q, hQ, hQ2⟩ : ∃ Q : List (Mat n × Col n), Q.Perm P ∧
        cs'.map (fun x => ((x.asMaterial co2 f.model f.temperature p).1, x.fraction))
          = Q.map (fun y => (Except.ok y.1, y.2)) := by
      exact perm_of_map hpm2
    exact ⟨Q, hQ2, by rw [C18_wood_order_irrelevant Q P hQ]; exact h2⟩
  exact ⟨key f.constituents cs' hperm h m, key cs' f.constituents hperm.symm
    (fun x hx => h x (hperm.mem_iff.mp hx)) m⟩

/-- **C38, exact side effect.** Whenever all constituents can be evaluated, `pressure.fluid` is divided by
10^6 once for every Span–Wagner carbon dioxide constituent. -/
theorem C38_pressure_afterwards (co2 : CO2Model n) (f : Fluids n) (p : Fin n → ℝ) {ms : List (Mat n)}
    (h : (materialsOf co2 f.model f.temperature f.constituents (finC p)).1 = .ok ms) :
    (f.asMixture co2 (finC p)).2 =
      finC fun i => p i / (10 ^ 6) ^ (f.constituents.countP fun x => UsesSpanWagner f.model x) := by
  rw [asMixture_eq]
  dsimp only
  generalize f.constituents = cs at h ⊢
  induction cs generalizing p ms with
  | nil => simp [materialsOf]
  | cons x xs ih =>
    obtain ⟨m, ms', h1, h2, -⟩ := materialsOf_cons_ok.mp h
    rw [materialsOf_cons_pressure h1]
    rw [asMaterial_pressure] at h2 ⊢
    by_cases hx : UsesSpanWagner f.model x
    · rw [if_pos hx] at h2 ⊢
      have e : (fun i => finC p i / Num.fin 1e6 : Col n) = finC fun i => p i / 1e6 := by
        funext i; simp only [finC_apply]; rw [Num.fin_div _ (by norm_num)]
      rw [e] at h2 ⊢
      rw [ih _ h2, List.countP_cons_of_pos (by simpa using hx)]
      funext i
      simp only [finC_apply, Num.fin_inj]
      rw [pow_succ]
      field_simp
      norm_num
      ring
    · rw [if_neg hx] at h2 ⊢
      rw [ih _ h2, List.countP_cons_of_neg (by simpa using hx)]


/-! #### A section on which C38 fails -/

theorem vectorize_fluidOf {f : Fin n → Except Err (Mat 1)} {ρ v : Fin n → ℝ}
    (hf : ∀ i, f i = .ok (fluidOf (fun _ => ρ i) (fun _ => v i))) (hρ : ∀ i, 0 < ρ i) (hv : ∀ i, 0 ≤ v i) :
    vectorizeMaterial f = .ok (fluidOf ρ v) := by
  unfold vectorizeMaterial
  rw [vec_ok hf, bind_ok]
  have := mkVelocities_ofReal (ρ := ρ) (vp := v) (vs := fun _ => 0) hρ (fun _ => le_rfl)
    (fun i => by simpa using hv i)
  have e : (fun i => v i ^ 2 * ρ i - 4/3 * ((0:ℝ) ^ 2 * ρ i)) = fun i => v i ^ 2 * ρ i := by funext i; ring
  have e2 : (fun i => (0:ℝ) ^ 2 * ρ i) = fun _ => 0 := by funext i; ring
  rw [e, e2] at this
  exact this

/-- A CO2 model that returns the same light gas at all conditions (for the counterexample only). -/
noncomputable def constCO2 : CO2Model 1 := fun _ _ _ => .ok (Mat.ofReal (fun _ => 1e8) (fun _ => 0) (fun _ => 500))

/-- Half carbon dioxide by the Span–Wagner model, half fresh brine at 0 C; Wood mixing. -/
noncomputable def halfAndHalf (co2First : Bool) : Fluids 1 where
  temperature := c 0
  constituents :=
    if co2First then [⟨.carbonDioxide true, some .spanWagner, c 0.5⟩, ⟨.brine (c 0), none, c 0.5⟩]
    else [⟨.brine (c 0), none, c 0.5⟩, ⟨.carbonDioxide true, some .spanWagner, c 0.5⟩]
  method := .wood
  brieConstant := .fin 3
  brieGases := []
  model := .default

/-- Density of fresh brine at 0 C and `p` Pa. -/
noncomputable def brine0 (p : ℝ) : ℝ := (1 + 489e-6 * (p * 1e-6) - 333e-9 * (p * 1e-6) ^ 2) * 1000

theorem brine_asMaterial {p : ℝ} (hp : 0 ≤ p ∧ p ≤ 100e6) : ∃ v, 0 < v ∧
    (FluidConst.mk (.brine (c 0)) none (c 0.5) : FluidConst 1).asMaterial constCO2 .default (c 0) (c p)
      = (.ok (fluidOf (fun _ => brine0 p) (fun _ => v)), c p) ∧ 0 < brine0 p := by
  obtain ⟨w, b, ρw, vw, ρb, vb, -, hb, -, -, h1, h2, h3⟩ := C80_brine_defined (n := 1) (fun _ => 0) (fun _ => p)
    (fun _ => 0) (fun _ => by norm_num) (fun _ => hp) (fun _ => by norm_num)
  obtain ⟨d1, d2, d3, d4, d5⟩ := fluidVelocity_ok hb
  obtain ⟨a1, a2, a3, a4⟩ := h3 0
  have hρ : ρb 0 = brine0 p := by
    have : Num.fin (ρb 0) = Num.fin (brine0 p) := by
      have e := congrFun (h1.symm.trans d1) 0
      rw [finC_apply] at e
      rw [e]
      simp only [finC_apply, Num.fin_mul, brineDensity_fin, Num.fin_inj, brine0]
      norm_num
    simpa using this
  have hbρ : 0 < brine0 p := by rw [← hρ]; linarith
  refine ⟨vb 0, by linarith, ?_, hbρ⟩
  have hbb : b = fluidOf (fun _ => brine0 p) (fun _ => vb 0) := by
    have e1 : ρb = fun _ => brine0 p := by funext i; rw [Subsingleton.elim i 0]; exact hρ
    have e2 : vb = fun _ => vb 0 := by funext i; rw [Subsingleton.elim i 0]
    have : brine (finC fun _ => (0:ℝ)) (finC fun _ => p) (finC fun _ => (0:ℝ))
        = .ok (fluidOf (fun _ : Fin 1 => brine0 p) (fun _ => vb 0)) := by
      rw [← fluidVelocity_fin (fun _ => hbρ) (fun _ => by linarith), ← e1, ← h1, d1]
      have : (finC fun _ : Fin 1 => vb 0) = finC vb := by rw [← e2]
      rw [this, ← h2, d2]; rfl
    rw [hb] at this; injection this
  show (vectorizeMaterial _, _) = _
  congr 1
  apply vectorize_fluidOf (ρ := fun _ => brine0 p) (v := fun _ => vb 0)
  · intro i; rw [← hbb, ← hb]; rfl
  · intro _; exact hbρ
  · intro _; linarith

theorem co2_asMaterial (p : ℝ) :
    (FluidConst.mk (.carbonDioxide true) (some .spanWagner) (c 0.5) : FluidConst 1).asMaterial constCO2 .default
      (c 0) (c p) = (.ok (Mat.ofReal (fun _ => 1e8) (fun _ => 0) (fun _ => 500)), c (p / 1e6)) := by
  show (constCO2 _ _ _, _) = _
  congr 1
  funext i; simp only [c_apply]; rw [Num.fin_div _ (by norm_num)]

theorem half_wood (ρ v : ℝ) (hρ : 0 < ρ) (hv : 0 < v) (first : Bool) :
    ∃ m : Mat 1, wood (if first then [Mat.ofReal (fun _ => 1e8) (fun _ => 0) (fun _ => 500),
      fluidOf (fun _ => ρ) (fun _ => v)] else [fluidOf (fun _ => ρ) (fun _ => v),
        Mat.ofReal (fun _ => 1e8) (fun _ => 0) (fun _ => 500)]) [c 0.5, c 0.5] = .ok m ∧
      m.density = c (250 + ρ / 2) := by
  have hpos : 0 < v ^ 2 * ρ := by positivity
  set A : FluidIn 1 := ⟨Mat.ofReal (fun _ => 1e8) (fun _ => 0) (fun _ => 500), fun _ => 1e8, fun _ => 500,
    fun _ => 0.5, rfl, rfl⟩ with hA
  set B : FluidIn 1 := ⟨fluidOf (fun _ => ρ) (fun _ => v), fun _ => v ^ 2 * ρ, fun _ => ρ, fun _ => 0.5, rfl, rfl⟩
    with hB
  have main : ∀ L : List (FluidIn 1), L.Perm [A, B] → ∃ m : Mat 1, FluidIn.wood L = .ok m ∧
      m.density = c (250 + ρ / 2) := by
    intro L hL
    have hmem : ∀ x ∈ L, x = A ∨ x = B := fun x hx => by
      have := hL.mem_iff.mp hx; simpa using this
    have hne : L ≠ [] := by intro h; rw [h] at hL; simpa using hL.length_eq
    obtain ⟨h, -, -⟩ := FluidIn.wood_fin hne
      (by intro x hx i; rcases hmem x hx with rfl | rfl <;> first | exact hpos | norm_num [hA])
      (by intro x hx i; rcases hmem x hx with rfl | rfl <;> first | exact hρ | norm_num [hA])
      (by intro x hx i; rcases hmem x hx with rfl | rfl <;> norm_num [hA, hB])
    refine ⟨_, h, ?_⟩
    have ht : ∀ i, FluidIn.total L i = 1 := by
      intro i; unfold FluidIn.total
      rw [(hL.map _).sum_eq]; norm_num [hA, hB]
    rw [Mat.ofReal_density]
    funext i
    rw [finC_apply, c_apply, Num.fin_inj, (hL.map _).sum_eq]
    simp only [FluidIn.weight, ht]
    norm_num [hA, hB]
    ring
  cases first with
  | true =>
    obtain ⟨m, h1, h2⟩ := main [A, B] (List.Perm.refl _)
    exact ⟨m, h1, h2⟩
  | false =>
    obtain ⟨m, h1, h2⟩ := main [B, A] (List.Perm.swap _ _ _)
    exact ⟨m, h1, h2⟩

/-- Mixture and pressure afterwards, both orders. -/
theorem half_asMixture {p : ℝ} (hp : 0 ≤ p ∧ p ≤ 100e6) (first : Bool) :
    ∃ m, (halfAndHalf first).asMixture constCO2 (c p) = (.ok m, c (p / 1e6)) ∧
      m.density = c (250 + brine0 (if first then p / 1e6 else p) / 2) := by
  have hp' : 0 ≤ p / 1e6 ∧ p / 1e6 ≤ 100e6 := by norm_num at *; constructor <;> linarith
  cases first with
  | true =>
    obtain ⟨v, hv, hb, hρ⟩ := brine_asMaterial hp'
    obtain ⟨m, h1, h2⟩ := half_wood _ v hρ hv true
    refine ⟨m, ?_, h2⟩
    simp only [Fluids.asMixture, halfAndHalf, if_true, materialsOf, co2_asMaterial, hb, Fluids.mix]
    rw [← h1]; rfl
  | false =>
    obtain ⟨v, hv, hb, hρ⟩ := brine_asMaterial hp
    obtain ⟨m, h1, h2⟩ := half_wood _ v hρ hv false
    refine ⟨m, ?_, h2⟩
    simp only [Fluids.asMixture, halfAndHalf, Bool.false_eq_true, if_false, materialsOf, co2_asMaterial, hb, Fluids.mix]
    rw [← h1]; rfl

/-- **C38 is false of the code.** Half brine, half Span–Wagner CO2 at 10 MPa: the call overwrites
`pressure.fluid`, a second call gives another density, and so does listing the constituents in the
other order. -/
theorem C38_refuted : ∃ m1 m2 m3 : Mat 1,
    (halfAndHalf true).asMixture constCO2 (c 1e7) = (.ok m1, c 10) ∧
    (halfAndHalf true).asMixture constCO2 (c 10) = (.ok m2, c 1e-5) ∧
    (halfAndHalf false).asMixture constCO2 (c 1e7) = (.ok m3, c 10) ∧
    m1.density 0 ≠ m2.density 0 ∧ m1.density 0 ≠ m3.density 0 := by
  obtain ⟨m1, h1, d1⟩ := half_asMixture (p := 1e7) (by norm_num) true
  obtain ⟨m2, h2, d2⟩ := half_asMixture (p := 10) (by norm_num) true
  obtain ⟨m3, h3, d3⟩ := half_asMixture (p := 1e7) (by norm_num) false
  refine ⟨m1, m2, m3, ?_, ?_, ?_, ?_, ?_⟩
  · rw [h1]; norm_num
  · rw [h2]; norm_num
  · rw [h3]; norm_num
  · rw [d1, d2, c_apply, c_apply, Ne, Num.fin_inj]; norm_num [brine0]
  · rw [d1, d3, c_apply, c_apply, Ne, Num.fin_inj]; norm_num [brine0]

/-! ### C39 -/

/-- **C39, precedence.** What counts is each constituent's own model if it has one and the section's
otherwise: giving every constituent that model explicitly, under any section model, is the same.
In particular with own models everywhere the section model is irrelevant. -/
theorem C39_own_model_wins (co2 : CO2Model n) (f : Fluids n) (p : Col n) (other : Provider) :
    ({f with model := other,
             constituents := f.constituents.map fun x => {x with model := some (x.model.getD f.model)}} :
      Fluids n).asMixture co2 p = f.asMixture co2 p := by
  have h1 : ∀ (cs : List (FluidConst n)) (p : Col n), materialsOf co2 other f.temperature
      (cs.map fun x => {x with model := some (x.model.getD f.model)}) p
        = materialsOf co2 f.model f.temperature cs p := by
    intro cs
    induction cs with
    | nil => intro p; rfl
    | cons x xs ih =>
      intro p
      have e : FluidConst.asMaterial co2 other f.temperature p {x with model := some (x.model.getD f.model)}
          = x.asMaterial co2 f.model f.temperature p := rfl
      simp only [List.map_cons, materialsOf, e, ih]
  unfold Fluids.asMixture
  simp only [h1]
  simp only [Fluids.mix, List.map_map, Function.comp_def]

/-- **C39, unsupported combinations.** If the selected provider does not offer a constituent's type the
call raises: `NotImplementedError` when every earlier constituent can be evaluated, and it never
returns a mixture. -/
theorem C39_unsupported (co2 : CO2Model n) (f : Fluids n) (p : Col n) :
    (∀ m, (f.asMixture co2 p).1 = .ok m → ∀ x ∈ f.constituents, Supports (x.model.getD f.model) x.kind) ∧
    (∀ before x after, f.constituents = before ++ x :: after → ¬ Supports (x.model.getD f.model) x.kind →
      (∃ ms, (materialsOf co2 f.model f.temperature before p).1 = .ok ms) →
      (f.asMixture co2 p).1 = .error .notImplemented) := by
  constructor
  · intro m hm
    rw [asMixture_eq] at hm
    obtain ⟨ms, h, -⟩ := bind_eq_ok.mp hm
    generalize f.constituents = cs at h
    clear hm
    induction cs generalizing p ms with
    | nil => simp
    | cons x xs ih =>
      obtain ⟨m, ms', h1, h2, -⟩ := materialsOf_cons_ok.mp h
      intro y hy
      rcases List.mem_cons.mp hy with rfl | hy
      · by_contra hc
        rw [asMaterial_unsupported co2 f.model f.temperature p y hc] at h1
        cases h1
      · exact ih _ _ h2 y hy
  · rintro before x after hcs hx ⟨ms, hms⟩
    rw [asMixture_eq, hcs]
    have : (materialsOf co2 f.model f.temperature (before ++ x :: after) p).1 = .error .notImplemented := by
      clear hcs
      induction before generalizing p ms with
      | nil =>
        rw [List.nil_append, materialsOf]
        have e := asMaterial_unsupported co2 f.model f.temperature p x hx
        rcases h' : x.asMaterial co2 f.model f.temperature p with ⟨e' | m', p'⟩
        · rw [h'] at e; simpa using e
        · rw [h'] at e; cases e
      | cons y ys ih =>
        obtain ⟨m, ms', h1, h2, -⟩ := materialsOf_cons_ok.mp hms
        rw [List.cons_append, materialsOf]
        have i := ih _ _ h2
        rcases h' : y.asMaterial co2 f.model f.temperature p with ⟨e' | m', p'⟩
        · rw [h'] at h1; cases h1
        · rw [h'] at i
          dsimp only at i ⊢
          rcases h2 : materialsOf co2 f.model f.temperature (ys ++ x :: after) p' with ⟨e' | m'', p''⟩
          · rw [h2] at i; simpa using i
          · rw [h2] at i; cases i
    dsimp only
    rw [this]; rfl

/-- **C39, explicit materials** are used as given: a section of explicit materials mixes exactly these,
whatever the provider, temperature and pressure. -/
theorem C39_explicit_materials (co2 : CO2Model n) (f : Fluids n) (p : Col n) (ms : List (Mat n))
    (h : f.constituents.map (·.kind) = ms.map .material) :
    f.asMixture co2 p = (f.mix ms, p) := by
  have : materialsOf co2 f.model f.temperature f.constituents p = (.ok ms, p) := by
    generalize f.constituents = cs at h
    induction cs generalizing ms with
    | nil => cases ms <;> simp at h; rfl
    | cons x xs ih =>
      cases ms with
      | nil => simp at h
      | cons m ms =>
        rw [List.map_cons, List.map_cons, List.cons.injEq] at h
        have e : x.asMaterial co2 f.model f.temperature p = (.ok m, p) := by
          unfold FluidConst.asMaterial; rw [h.1]; rfl
        simp only [materialsOf, e, ih ms h.2]
  unfold Fluids.asMixture
  rw [this]

-- carbon dioxide in a section with the default provider is refused
example (co2 : CO2Model 1) :
    (({temperature := c 80, constituents := [⟨.brine (c 0), some .batzleWang, c 0.5⟩,
        ⟨.carbonDioxide true, none, c 0.5⟩], method := .wood, brieConstant := .fin 3, brieGases := [],
        model := .default} : Fluids 1).asMixture co2 (c 1e7)).1 ≠ .ok (Mat.ofReal (fun _ => 1) (fun _ => 1) fun _ => 1) := by
  intro h
  exact (C39_unsupported co2 _ _).1 _ h _ (List.mem_cons_of_mem _ List.mem_cons_self)

/-! ### C40 -/

/-- The elements of `l` at the positions in `S`, in list order. -/
def atPositions {α : Type} (S : List ℕ) (l : List α) : List α :=
  (l.zipIdx.filter fun x => x.2 ∈ S).map (·.1)

/-- The elements of `l` at the other positions, in list order. -/
def notAtPositions {α : Type} (S : List ℕ) (l : List α) : List α :=
  (l.zipIdx.filter fun x => x.2 ∉ S).map (·.1)

theorem popAll_descending {α : Type} (ds : List ℕ) (l : List α) (hd : ds.Pairwise (· > ·))
    (hr : ∀ d ∈ ds, d < l.length) :
    popAll (ds.map fun d : ℕ => (d : ℤ)) l = .ok ((atPositions ds l).reverse, notAtPositions ds l) := by
  induction ds generalizing l with
  | nil => simp [popAll, atPositions, notAtPositions]
  | cons d ds ih =>
    have hdl : d < l.length := hr d List.mem_cons_self
    have hlt : ∀ e ∈ ds, e < d := fun e he => (List.pairwise_cons.mp hd).1 e he
    have hpop : pyPop l (d : ℤ) = .ok (l[d], l.eraseIdx d) := by
      unfold pyPop
      have : ¬ ((d : ℤ) < 0) := by omega
      simp only [this, if_false, Int.toNat_natCast, List.getElem?_eq_getElem hdl]
    have hlen : d ≤ (l.take d).length := by rw [List.length_take]; omega
    have hl : l = l.take d ++ l[d] :: l.drop (d + 1) := by
      rw [← List.drop_eq_getElem_cons hdl, List.take_append_drop]
    have hl' : l.eraseIdx d = l.take d ++ l.drop (d + 1) := List.eraseIdx_eq_take_drop_succ l d
    have hlenE : (l.take d).length = d := by rw [List.length_take]; omega
    -- positions at or after `d` are never in `ds`
    have tail_at : ∀ (t : List α) (k : ℕ), d ≤ k → ((t.zipIdx k).filter fun x => decide (x.2 ∈ ds)) = [] := by
      intro t k hk
      rw [List.filter_eq_nil_iff]
      intro x hx
      have := List.le_snd_of_mem_zipIdx hx
      simp only [decide_eq_true_eq]
      intro hc
      have := hlt _ hc
      omega
    have tail_not : ∀ (t : List α) (k : ℕ), d ≤ k → ((t.zipIdx k).filter fun x => decide (x.2 ∉ ds)) = t.zipIdx k := by
      intro t k hk
      rw [List.filter_eq_self]
      intro x hx
      have := List.le_snd_of_mem_zipIdx hx
      simp only [decide_eq_true_eq]
      intro hc
      have := hlt _ hc
      omega
    have tail_not' : ∀ (t : List α) (k : ℕ), d < k → ((t.zipIdx k).filter fun x => decide (x.2 ∉ d :: ds)) = t.zipIdx k := by
      intro t k hk
      rw [List.filter_eq_self]
      intro x hx
      have := List.le_snd_of_mem_zipIdx hx
      simp only [decide_eq_true_eq, List.mem_cons, not_or]
      refine ⟨by omega, fun hc => ?_⟩
      have := hlt _ hc
      omega
    have tail_at' : ∀ (t : List α) (k : ℕ), d < k → ((t.zipIdx k).filter fun x => decide (x.2 ∈ d :: ds)) = [] := by
      intro t k hk
      rw [List.filter_eq_nil_iff]
      intro x hx
      have := List.le_snd_of_mem_zipIdx hx
      simp only [decide_eq_true_eq, List.mem_cons, not_or]
      refine ⟨by omega, fun hc => ?_⟩
      have := hlt _ hc
      omega
    have head_eq : ∀ x ∈ (l.take d).zipIdx, (x.2 ∈ d :: ds ↔ x.2 ∈ ds) := by
      intro x hx
      have h1 := List.snd_lt_of_mem_zipIdx hx
      simp only [List.mem_cons]
      constructor
      · rintro (h | h)
        · omega
        · exact h
      · exact Or.inr
    have head_at : ((l.take d).zipIdx.filter fun x => decide (x.2 ∈ d :: ds))
        = (l.take d).zipIdx.filter fun x => decide (x.2 ∈ ds) := by
      apply List.filter_congr
      intro x hx
      simp only [head_eq x hx]
    have head_not : ((l.take d).zipIdx.filter fun x => decide (x.2 ∉ d :: ds))
        = (l.take d).zipIdx.filter fun x => decide (x.2 ∉ ds) := by
      apply List.filter_congr
      intro x hx
      simp only [head_eq x hx]
    have a1 : atPositions (d :: ds) l = atPositions ds (l.eraseIdx d) ++ [l[d]] := by
      unfold atPositions
      rw [hl']
      conv_lhs => rw [hl]
      rw [List.zipIdx_append, List.zipIdx_append, List.filter_append, List.filter_append, List.zipIdx_cons,
        List.filter_cons, head_at, hlenE, Nat.zero_add, tail_at (l.drop (d + 1)) d le_rfl]
      simp only [List.mem_cons, true_or, decide_true, if_true]
      have := tail_at' (l.drop (d + 1)) (d + 1) (by omega)
      simp only [List.mem_cons] at this
      rw [this]
      simp
    have a2 : notAtPositions (d :: ds) l = notAtPositions ds (l.eraseIdx d) := by
      unfold notAtPositions
      rw [hl']
      conv_lhs => rw [hl]
      rw [List.zipIdx_append, List.zipIdx_append, List.filter_append, List.filter_append, List.zipIdx_cons,
        List.filter_cons, head_not, hlenE, Nat.zero_add, tail_not (l.drop (d + 1)) d le_rfl,
        tail_not' (l.drop (d + 1)) (d + 1) (by omega)]
      simp
    have hr' : ∀ e ∈ ds, e < (l.eraseIdx d).length := by
      intro e he
      rw [List.length_eraseIdx_of_lt hdl]
      have := hlt e he
      omega
    rw [List.map_cons, popAll, hpop]
    simp only [bind_ok]
    rw [ih _ (List.pairwise_cons.mp hd).2 hr']
    simp only [bind_ok]
    rw [a1, a2, List.reverse_append]
    rfl

theorem atPositions_map {α β : Type} (g : α → β) (S : List ℕ) (l : List α) :
    atPositions S (l.map g) = (atPositions S l).map g := by
  unfold atPositions
  rw [List.zipIdx_map, List.filter_map, List.map_map, List.map_map]
  rfl

theorem notAtPositions_map {α β : Type} (g : α → β) (S : List ℕ) (l : List α) :
    notAtPositions S (l.map g) = (notAtPositions S l).map g := by
  unfold notAtPositions
  rw [List.zipIdx_map, List.filter_map, List.map_map, List.map_map]
  rfl

theorem brie_gas_perm (F : List (Mat n)) (Fs : List (Col n)) (P Q : List (Mat n × Col n)) (h : P.Perm Q)
    (e : Col n) : brie F Fs (P.map Prod.fst) (P.map Prod.snd) e = brie F Fs (Q.map Prod.fst) (Q.map Prod.snd) e := by
  unfold brie
  rw [C18_wood_order_irrelevant P Q h]
  simp only [List.length_map, h.length_eq]

/-- The indices sorted in descending order. -/
theorem sorted_indices (idx : List ℕ) (hnd : idx.Nodup) :
    ∃ ds : List ℕ, ds.Perm idx ∧ ds.Pairwise (· > ·) ∧
      (idx.map fun i : ℕ => (i : ℤ)).mergeSort (fun a b => decide (b ≤ a)) = ds.map fun i : ℕ => (i : ℤ) := by
  have hp := List.mergeSort_perm (idx.map fun i : ℕ => (i : ℤ)) (fun a b => decide (b ≤ a))
  obtain ⟨ds, h1, h2⟩ := perm_of_map hp
  refine ⟨ds, h1, ?_, h2⟩
  have hs := List.pairwise_mergeSort (le := fun a b : ℤ => decide (b ≤ a))
    (by intro a b c; simp only [decide_eq_true_eq]; omega)
    (by intro a b; simp only [Bool.or_eq_true, decide_eq_true_eq]; omega) (idx.map fun i : ℕ => (i : ℤ))
  rw [h2, List.pairwise_map] at hs
  have hn : ds.Pairwise (· ≠ ·) := h1.nodup_iff.mpr hnd
  refine (hs.and hn).imp ?_
  intro a b ⟨h1, h2⟩
  simp only [decide_eq_true_eq] at h1
  omega

/-- **C40.** In Brie mode, with gas indices in range and without duplicates (in any order), the
constituents at these positions are mixed as gases and all others as liquids, each with its own
fraction: the mixture is `brie_fluid_mixing` of the two sublists.  Nothing is lost: together they are a
rearrangement of all constituents. -/
theorem C40_brie_selection (f : Fluids n) (P : List (Mat n × Col n)) (idx : List ℕ)
    (hm : f.method = .brie) (hg : f.brieGases = idx.map fun i : ℕ => (i : ℤ)) (hnd : idx.Nodup)
    (hf : f.constituents.map (·.fraction) = P.map Prod.snd) (hr : ∀ i ∈ idx, i < P.length) :
    f.mix (P.map Prod.fst) =
      brie ((notAtPositions idx P).map Prod.fst) ((notAtPositions idx P).map Prod.snd)
        ((atPositions idx P).map Prod.fst) ((atPositions idx P).map Prod.snd) (fun _ => f.brieConstant) ∧
    (atPositions idx P ++ notAtPositions idx P).Perm P := by
  constructor
  · obtain ⟨ds, h1, h2, h3⟩ := sorted_indices idx hnd
    have hmem : ∀ i, i ∈ ds ↔ i ∈ idx := fun i => h1.mem_iff
    have e1 : ∀ {α : Type} (l : List α), atPositions ds l = atPositions idx l := by
      intro α l; unfold atPositions; simp only [hmem]
    have e2 : ∀ {α : Type} (l : List α), notAtPositions ds l = notAtPositions idx l := by
      intro α l; unfold notAtPositions; simp only [hmem]
    have hr' : ∀ d ∈ ds, d < P.length := fun d hd => hr d ((hmem d).mp hd)
    unfold Fluids.mix
    simp only [hm, hg, h3, hf]
    rw [popAll_descending ds _ h2 (by simpa using hr'), popAll_descending ds _ h2 (by simpa using hr')]
    simp only [bind_ok, e1, e2, atPositions_map, notAtPositions_map, ← List.map_reverse]
    exact brie_gas_perm _ _ _ _ (List.reverse_perm _) _
  · unfold atPositions notAtPositions
    rw [← List.map_append]
    have h : (P.zipIdx.filter (fun x => decide (x.2 ∈ idx)) ++ P.zipIdx.filter (fun x => decide (x.2 ∉ idx))).Perm P.zipIdx := by
      have := List.filter_append_perm (fun x : (Mat n × Col n) × ℕ => decide (x.2 ∈ idx)) P.zipIdx
      refine List.Perm.trans ?_ this
      apply List.Perm.append_left
      apply List.Perm.of_eq
      apply List.filter_congr
      intro x _
      simp
    have h' := h.map Prod.fst
    rwa [List.zipIdx_map_fst] at h'

/-- **C40, default gases.** When no gas indices are given, the gases of an accepted section are exactly
the constituents of type gas or carbon dioxide; these indices are in range and without duplicates, as
C40 needs. -/
theorem C40_default_gases (T : Col n) (cs : List (FluidSpec n)) (method : MixMethod) (e : Num)
    (model : Provider) (f : Fluids n) (h : mkFluids T cs method e none model = .ok f) :
    ∃ idx : List ℕ, f.brieGases = idx.map (fun i : ℕ => (i : ℤ)) ∧ idx.Nodup ∧
      ∀ i, i ∈ idx ↔ ∃ x, cs[i]? = some x ∧ (x.kind.type = "gas" ∨ x.kind.type = "carbon_dioxide") := by
  unfold mkFluids at h
  obtain ⟨-, -, h⟩ := bind_eq_ok.mp h
  obtain ⟨-, h⟩ := failIf_bind_ok.mp h
  obtain ⟨-, h⟩ := failIf_bind_ok.mp h
  obtain ⟨fs, -, h⟩ := bind_eq_ok.mp h
  injection h with h
  subst h
  refine ⟨(cs.zipIdx.filter fun x => decide (x.1.kind.type = "carbon_dioxide" ∨ x.1.kind.type = "gas")).map
    Prod.snd, ?_, ?_, ?_⟩
  · simp only [Option.getD_none, defaultBrieGases, List.map_map]; rfl
  · have : (cs.zipIdx.map Prod.snd).Nodup := by
      rw [List.zipIdx_map_snd]; exact List.nodup_range'
    exact this.sublist (List.filter_sublist.map _)
  · intro i
    simp only [List.mem_map, List.mem_filter, decide_eq_true_eq, Prod.exists, List.mem_zipIdx_iff_getElem?]
    constructor
    · rintro ⟨x, j, ⟨h1, h2⟩, rfl⟩; exact ⟨x, h1, h2.symm⟩
    · rintro ⟨x, h1, h2⟩; exact ⟨x, i, ⟨h1, h2.symm⟩, rfl⟩

-- three constituents, the gas in the middle
example (a b d : Mat 1) (f : Fluids 1) (h1 : f.constituents = [⟨.material a, none, c 0.3⟩,
    ⟨.material b, none, c 0.2⟩, ⟨.material d, none, c 0.5⟩]) (h2 : f.method = .brie) (h3 : f.brieGases = [1]) :
    f.mix [a, b, d] = brie [a, d] [c 0.3, c 0.5] [b] [c 0.2] (fun _ => f.brieConstant) :=
  (C40_brie_selection f [(a, c 0.3), (b, c 0.2), (d, c 0.5)] [1] h2 h3 (by simp) (by rw [h1]; rfl) (by simp)).1

end OPE
