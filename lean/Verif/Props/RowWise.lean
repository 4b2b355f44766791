import Verif.Spec.RowWise

/-!
# Rows never influence each other (C07)
-/

namespace OPE

open Classical

variable {n : ℕ}

namespace RowBy

variable {α β γ δ : Type} {rowA : α → Fin n → β} {rowB : γ → Fin n → δ}

theorem ok {a : α} {y : Fin n → Except Err β} (h : ∀ i, y i = .ok (rowA a i)) :
    RowBy rowA (.ok a) y :=
  ⟨fun r hr i => by injection hr with hr; subst hr; exact h i, fun _ => ⟨a, rfl⟩⟩

theorem error [NeZero n] {e : Err} {y : Fin n → Except Err β} (h : ∀ i, ∃ e, y i = .error e) :
    RowBy rowA (.error e) y := by
  refine ⟨fun r hr => (nomatch hr), fun hy => ?_⟩
  obtain ⟨b, hb⟩ := hy 0
  obtain ⟨e, he⟩ := h 0
  rw [he] at hb; cases hb

theorem bind {x : Except Err α} {y : Fin n → Except Err β} {g : α → Except Err γ}
    {g1 : Fin n → β → Except Err δ} (hx : RowBy rowA x y)
    (hg : ∀ a, x = .ok a → RowBy rowB (g a) (fun i => g1 i (rowA a i))) :
    RowBy rowB (x >>= g) (fun i => y i >>= g1 i) := by
  constructor
  · intro r h i
    obtain ⟨a, ha, hr⟩ := bind_eq_ok.mp h
    show (y i >>= g1 i) = _
    rw [hx.1 a ha i, bind_ok]
    exact (hg a ha).1 r hr i
  · intro h
    have h1 : ∀ i, ∃ a, y i = .ok a := fun i => by
      obtain ⟨b, hb⟩ := h i
      obtain ⟨a, ha, -⟩ := bind_eq_ok.mp hb
      exact ⟨a, ha⟩
    obtain ⟨a, ha⟩ := hx.2 h1
    rw [ha, bind_ok]
    refine (hg a ha).2 fun i => ?_
    obtain ⟨b, hb⟩ := h i
    change (y i >>= g1 i) = _ at hb
    rw [hx.1 a ha i, bind_ok] at hb
    exact ⟨b, hb⟩

/-- Sequencing with a check. -/
theorem seq {x : Except Err Unit} {y : Fin n → Except Err Unit} {g : Except Err γ}
    {g1 : Fin n → Except Err δ} (hx : RowBy (fun _ _ => ()) x y) (hg : RowBy rowB g g1) :
    RowBy rowB (x >>= fun _ => g) (fun i => y i >>= fun _ => g1 i) :=
  bind hx fun _ _ => hg

theorem check {p : Prop} {q : Fin n → Prop} {e : Err} (h : p ↔ ∃ i, q i) :
    RowBy (fun _ _ => ()) (OPE.failIf p e) (fun i => OPE.failIf (q i) e) := by
  constructor
  · intro r hr i
    refine failIf_ok_iff.mpr fun hq => ?_
    exact (failIf_ok_iff.mp hr) (h.mpr ⟨i, hq⟩)
  · intro hy
    refine ⟨(), failIf_ok_iff.mpr fun hp => ?_⟩
    obtain ⟨i, hi⟩ := h.mp hp
    obtain ⟨b, hb⟩ := hy i
    exact failIf_ok_iff.mp hb hi

/-- `np.any` over a column. -/
theorem any {p : Fin n → Prop} {q : Fin n → Fin 1 → Prop} {e : Err} (h : ∀ i, q i 0 ↔ p i) :
    RowBy (fun _ _ => ()) (OPE.failIf (∃ i, p i) e) (fun i => OPE.failIf (∃ j, q i j) e) := by
  apply check
  constructor
  · rintro ⟨i, hi⟩; exact ⟨i, 0, (h i).mpr hi⟩
  · rintro ⟨i, j, hj⟩; rw [Subsingleton.elim j 0] at hj; exact ⟨i, (h i).mp hj⟩

/-- A check that does not look at columns. -/
theorem const [NeZero n] {x : Except Err Unit} : RowBy (fun _ (_ : Fin n) => ()) x (fun _ => x) := by
  cases x with
  | error e => exact error fun i => ⟨e, rfl⟩
  | ok u => exact ok fun i => rfl

theorem vec {ρ : Type} {f : Fin n → Except Err ρ} {g : Fin n → Fin 1 → Except Err ρ}
    (h : ∀ i, g i 0 = f i) :
    RowBy (fun (a : Fin n → ρ) i => fun _ : Fin 1 => a i) (OPE.vec f) (fun i => OPE.vec (g i)) := by
  constructor
  · intro r hr i
    refine vec_ok (fun j => ?_)
    rw [Subsingleton.elim j 0, h i]; exact vec_ok_iff.mp hr i
  · intro hy
    choose b hb using hy
    refine ⟨fun i => b i 0, vec_ok fun i => ?_⟩
    rw [← h i]; exact vec_ok_iff.mp (hb i) 0

/-- A table computation fails iff some row fails. -/
theorem error_iff {x : Except Err α} {y : Fin n → Except Err β} (h : RowBy rowA x y) :
    (∃ e, x = .error e) ↔ ∃ i e, y i = .error e := by
  constructor
  · rintro ⟨e, he⟩
    by_contra hc
    push Not at hc
    obtain ⟨r, hr⟩ := h.2 fun i => by
      cases hy : y i with
      | error e => exact absurd hy (hc i e)
      | ok a => exact ⟨a, rfl⟩
    rw [hr] at he; cases he
  · rintro ⟨i, e, he⟩
    cases hx : x with
    | error e => exact ⟨e, rfl⟩
    | ok a => have := h.1 a hx i; rw [he] at this; cases this

end RowBy

/-! ### Materials -/

theorem checkMaterial_row (m : Mat n) :
    RowBy (fun _ _ => ()) (checkMaterial m) (fun i => checkMaterial (m.row i)) := by
  unfold checkMaterial
  refine .seq (.any fun i => Iff.rfl) (.seq (.any fun i => Iff.rfl) (.seq (.any fun i => Iff.rfl)
    (.seq (.any fun i => Iff.rfl) (.seq (.any fun i => Iff.rfl) (.any fun i => Iff.rfl)))))

theorem setDefaults_row [NeZero n] (bulk shear density vs vp : Option (Col n)) :
    RowBy (fun (r : Col n × Col n × Option (Col n) × Col n × Col n) i =>
        (r.1.row i, r.2.1.row i, Option.colRow r.2.2.1 i, r.2.2.2.1.row i, r.2.2.2.2.row i))
      (setDefaults bulk shear density vs vp)
      (fun i => setDefaults (Option.colRow bulk i) (Option.colRow shear i) (Option.colRow density i)
        (Option.colRow vs i) (Option.colRow vp i)) := by
  cases bulk <;> cases shear <;> cases density <;> cases vs <;> cases vp <;>
    first
    | exact RowBy.ok fun i => rfl
    | exact RowBy.error fun i => ⟨_, rfl⟩

/-- `Material(…)` is row-wise. -/
theorem mkMaterial_row [NeZero n] (bulk shear density vs vp : Option (Col n)) :
    RowBy Mat.row (mkMaterial bulk shear density vs vp)
      (fun i => mkMaterial (Option.colRow bulk i) (Option.colRow shear i) (Option.colRow density i)
        (Option.colRow vs i) (Option.colRow vp i)) := by
  unfold mkMaterial
  refine .bind (setDefaults_row bulk shear density vs vp) ?_
  rintro ⟨b, g, d, s, p⟩ -
  cases d with
  | none => exact .error fun i => ⟨_, rfl⟩
  | some d => exact .seq (checkMaterial_row _) (.ok fun i => rfl)

theorem mkModuli_rowBy [NeZero n] (b g d : Col n) :
    RowBy Mat.row (mkModuli b g d) (fun i => mkModuli (b.row i) (g.row i) (d.row i)) :=
  mkMaterial_row (some b) (some g) (some d) none none

theorem mkVelocities_row [NeZero n] (d p s : Col n) :
    RowBy Mat.row (mkVelocities d p s) (fun i => mkVelocities (d.row i) (p.row i) (s.row i)) :=
  mkMaterial_row none none (some d) (some s) (some p)

theorem vectorizeMaterial_row [NeZero n] {f : Fin n → Except Err (Mat 1)}
    {g : Fin n → Fin 1 → Except Err (Mat 1)} (h : ∀ i, g i 0 = f i) :
    RowBy Mat.row (vectorizeMaterial f) (fun i => vectorizeMaterial (g i)) := by
  unfold vectorizeMaterial
  exact .bind (.vec h) fun ms _ => mkVelocities_row _ _ _

/-! ### Mixing laws -/

theorem checkIsRatio_row (r : Col n) :
    RowBy (fun _ _ => ()) (checkIsRatio r) (fun i => checkIsRatio (r.row i)) :=
  .seq (.any fun i => Iff.rfl) (.any fun i => Iff.rfl)

/-- Hashin–Shtrikman–Walpole mixing is row-wise. -/
theorem hsw_row [NeZero n] (m1 m2 : Mat n) (ratio : Col n) (bound : String) :
    RowBy Mat.row (hsw m1 m2 ratio bound)
      (fun i => hsw (m1.row i) (m2.row i) (ratio.row i) bound) := by
  unfold hsw
  refine .seq (checkIsRatio_row _) (.seq .const ?_)
  exact .bind (.vec fun i => rfl) fun d _ => .bind (.vec fun i => rfl) fun k _ =>
    .bind (.vec fun i => rfl) fun g _ => mkModuli_rowBy _ _ _

theorem hsBound_row [NeZero n] (m1 m2 : Mat n) (ratio : Col n) :
    RowBy Mat.row (hsBound m1 m2 ratio) (fun i => hsBound (m1.row i) (m2.row i) (ratio.row i)) := by
  unfold hsBound
  exact .seq (checkIsRatio_row _) (mkModuli_rowBy _ _ _)

theorem hsAverage_row [NeZero n] (m1 m2 : Mat n) (ratio : Col n) :
    RowBy Mat.row (hsAverage m1 m2 ratio)
      (fun i => hsAverage (m1.row i) (m2.row i) (ratio.row i)) := by
  unfold hsAverage
  exact .seq (checkIsRatio_row _) (.bind (hsBound_row _ _ _) fun b1 _ =>
    .bind (hsBound_row _ _ _) fun b2 _ => mkModuli_rowBy _ _ _)

theorem sumCols_row (xs : List (Col n)) (i : Fin n) :
    sumCols (xs.map (·.row i)) = (sumCols xs).row i := by
  unfold sumCols
  have : ∀ (a : Col n), (xs.map (·.row i)).foldl (· + ·) (a.row i) = (xs.foldl (· + ·) a).row i := by
    induction xs with
    | nil => intro a; rfl
    | cons x xs ih => intro a; exact ih (a + x)
  exact this (c 0)

theorem sumSaturationsToOne_row (sats : List (Col n)) (i : Fin n) :
    sumSaturationsToOne (sats.map (·.row i)) = (sumSaturationsToOne sats).map (·.row i) := by
  unfold sumSaturationsToOne
  simp only [sumCols_row, List.map_map]
  rfl

theorem mixDensities_row (fluids : List (Mat n)) (sats : List (Col n)) (i : Fin n) :
    mixDensities (fluids.map (·.row i)) (sats.map (·.row i)) = (mixDensities fluids sats).row i := by
  unfold mixDensities
  rw [← sumCols_row, List.zip_map, List.map_map, List.map_map]
  rfl

theorem mixBulkModuli_row [NeZero n] (fluids : List (Mat n)) (sats : List (Col n)) :
    RowBy Col.row (mixBulkModuli fluids sats)
      (fun i => mixBulkModuli (fluids.map (·.row i)) (sats.map (·.row i))) := by
  unfold mixBulkModuli
  by_cases h : (sats.zip fluids).isEmpty
  · rw [if_pos h]
    refine .error fun i => ⟨.zeroDivision, ?_⟩
    rw [List.zip_map, List.isEmpty_map, if_pos h]
  · rw [if_neg h]
    refine .ok fun i => ?_
    rw [List.zip_map, List.isEmpty_map, if_neg h, List.map_map]
    congr 1
    show _ = c 1 / (sumCols _).row i
    rw [← sumCols_row, List.map_map]
    rfl

theorem fluidMaterial_row [NeZero n] (b d : Col n) :
    RowBy Mat.row (fluidMaterial b d) (fun i => fluidMaterial (b.row i) (d.row i)) :=
  mkMaterial_row (some b) (some (c 0)) (some d) none none

/-- Wood mixing is row-wise. -/
theorem wood_row [NeZero n] (fluids : List (Mat n)) (sats : List (Col n)) :
    RowBy Mat.row (wood fluids sats)
      (fun i => wood (fluids.map (·.row i)) (sats.map (·.row i))) := by
  unfold wood
  simp only [sumSaturationsToOne_row, mixDensities_row]
  exact .bind (mixBulkModuli_row _ _) fun b _ => fluidMaterial_row _ _

/-- Brie mixing is row-wise. -/
theorem brie_row [NeZero n] (fluids : List (Mat n)) (fluidSats : List (Col n)) (gases : List (Mat n))
    (gasSats : List (Col n)) (exponent : Col n) :
    RowBy Mat.row (brie fluids fluidSats gases gasSats exponent)
      (fun i => brie (fluids.map (·.row i)) (fluidSats.map (·.row i)) (gases.map (·.row i))
        (gasSats.map (·.row i)) (exponent.row i)) := by
  unfold brie
  simp only [List.length_map, sumCols_row]
  refine .seq .const (.seq .const ?_)
  split
  · refine .bind (wood_row _ _) fun liquid _ => ?_
    split
    · refine .bind (wood_row _ _) fun gas _ => ?_
      have h := fluidMaterial_row
        ((liquid.bulk - gas.bulk) * (fun i => Num.pow (sumCols fluidSats i) (exponent i)) + gas.bulk)
        (mixDensities [liquid, gas] [sumCols fluidSats, c 1 - sumCols fluidSats])
      simp only [← mixDensities_row] at h
      exact h
    · exact .ok fun i => rfl
  · split
    · exact wood_row _ _
    · exact .error fun i => ⟨_, rfl⟩

/-- Gassmann fluid substitution is row-wise. -/
theorem fluidSubstitution_row [NeZero n] (dry mineral fluid : Mat n) (porosity : Col n) :
    RowBy Mat.row (fluidSubstitution dry mineral fluid porosity)
      (fun i => fluidSubstitution (dry.row i) (mineral.row i) (fluid.row i) (porosity.row i)) := by
  unfold fluidSubstitution
  exact .bind (.vec fun i => rfl) fun k _ => mkModuli_rowBy _ _ _

/-! ### Sandstone models -/

theorem hertzMindlin_row [NeZero n] (m : Mat n) (phi p sr N : Col n) :
    RowBy Mat.row (hertzMindlin m phi p sr N)
      (fun i => hertzMindlin (m.row i) (phi.row i) (p.row i) (sr.row i) (N.row i)) := by
  unfold hertzMindlin
  exact mkModuli_rowBy _ _ _

theorem friableSand_row [NeZero n] (m : Mat n) (phi phic p N sr : Col n) :
    RowBy Mat.row (friableSand m phi phic p N sr)
      (fun i => friableSand (m.row i) (phi.row i) (phic.row i) (p.row i) (N.row i) (sr.row i)) := by
  unfold friableSand
  exact .bind (hertzMindlin_row _ _ _ _ _) fun a _ => hsw_row _ _ _ _

theorem checkPorosities_row (a b : Col n) :
    RowBy (fun _ _ => ()) (checkPorosities a b) (fun i => checkPorosities (a.row i) (b.row i)) := by
  unfold checkPorosities
  have key : ∀ (p q : Fin n → Prop) (e : Err), RowBy (n := n) (fun _ _ => ())
      (failIf ((∃ i, p i) ∨ ∃ i, q i) e)
      (fun i => failIf ((∃ _ : Fin 1, p i) ∨ ∃ _ : Fin 1, q i) e) := by
    intro p q e
    apply RowBy.check
    constructor
    · rintro (⟨i, h⟩ | ⟨i, h⟩)
      · exact ⟨i, .inl ⟨0, h⟩⟩
      · exact ⟨i, .inr ⟨0, h⟩⟩
    · rintro ⟨i, (⟨_, h⟩ | ⟨_, h⟩)⟩
      · exact .inl ⟨i, h⟩
      · exact .inr ⟨i, h⟩
  exact .seq (key _ _ _) (.seq (key _ _ _) (.any fun i => Iff.rfl))

theorem cementRadiusRatio_row (a b : Col n) :
    RowBy Col.row (cementRadiusRatio a b) (fun i => cementRadiusRatio (a.row i) (b.row i)) := by
  unfold cementRadiusRatio
  exact .seq (checkPorosities_row _ _) (.ok fun i => rfl)

theorem contactCement_row [NeZero n] (cement mineral : Mat n) (a b sr N : Col n) :
    RowBy Mat.row (contactCement cement mineral a b sr N)
      (fun i => contactCement (cement.row i) (mineral.row i) (a.row i) (b.row i) (sr.row i) (N.row i)) := by
  unfold contactCement
  exact .seq (checkPorosities_row _ _) (.bind (cementRadiusRatio_row _ _) fun alpha _ =>
    mkModuli_rowBy _ _ _)

theorem constantCement_row [NeZero n] (sand cement : Mat n) (phi a b N sr : Col n) :
    RowBy Mat.row (constantCement sand cement phi a b N sr)
      (fun i => constantCement (sand.row i) (cement.row i) (phi.row i) (a.row i) (b.row i) (N.row i)
        (sr.row i)) := by
  unfold constantCement
  exact .bind (hsw_row _ _ _ _) fun d _ => .bind (contactCement_row _ _ _ _ _ _) fun cc _ =>
    hsw_row _ _ _ _

theorem patchyCement_row [NeZero n] (sand cement : Mat n) (phi a b p q r sr N N' : Col n) :
    RowBy Mat.row (patchyCement sand cement phi a b p q r sr N N')
      (fun i => patchyCement (sand.row i) (cement.row i) (phi.row i) (a.row i) (b.row i) (p.row i)
        (q.row i) (r.row i) (sr.row i) (N.row i) (N'.row i)) := by
  unfold patchyCement
  exact .bind (hsw_row _ _ _ _) fun d _ => .bind (friableSand_row _ _ _ _ _ _) fun f _ =>
    .bind (friableSand_row _ _ _ _ _ _) fun l _ => .bind (constantCement_row _ _ _ _ _ _ _) fun u _ =>
    .bind (contactCement_row _ _ _ _ _ _) fun k _ => .bind (hsw_row _ _ _ _) fun m _ =>
    mkModuli_rowBy _ _ _

theorem polyvalMaterial_row [NeZero n] (v : Col n) (m : Mat n) (d p s : Coeffs) (b : Bool) :
    RowBy Mat.row (polyvalMaterial v m d p s b)
      (fun i => polyvalMaterial (v.row i) (m.row i) d p s b) := by
  unfold polyvalMaterial
  exact vectorizeMaterial_row fun i => rfl

/-! ### Sections -/

theorem fractionIsRatio_row (f : Col n) :
    RowBy (fun _ _ => ()) (fractionIsRatio f) (fun i => fractionIsRatio (f.row i)) :=
  .seq (.any fun i => Iff.rfl) (.any fun i => Iff.rfl)

theorem forM_row {α β : Type} (rowf : α → Fin n → β) (f : α → Except Err Unit)
    (g : Fin n → β → Except Err Unit)
    (h : ∀ a, RowBy (fun _ _ => ()) (f a) (fun i => g i (rowf a i))) (xs : List α) :
    RowBy (fun _ _ => ()) (xs.forM f) (fun i => (xs.map (rowf · i)).forM (g i)) := by
  induction xs with
  | nil => exact .ok fun i => rfl
  | cons x xs ih =>
    simp only [List.map_cons, List.forM_cons]
    exact .seq (h x) ih

theorem givenFractions_row (fs : List (Option (Col n))) (i : Fin n) :
    givenFractions (fs.map (Option.colRow · i)) = (givenFractions fs).map (·.row i) := by
  unfold givenFractions
  induction fs with
  | nil => rfl
  | cons f fs ih =>
    cases f with
    | none => simpa [Option.colRow] using ih
    | some f => simpa [Option.colRow] using ih

theorem count_none_row (fs : List (Option (Col n))) (i : Fin n) :
    (fs.map (Option.colRow · i)).count none = fs.count none := by
  induction fs with
  | nil => rfl
  | cons f fs ih =>
    rw [List.map_cons, List.count_cons, List.count_cons, ih]
    cases f <;> rfl

theorem fixOneFraction_row [NeZero n] (fs : List (Option (Col n))) :
    RowBy (fun (l : List (Option (Col n))) i => l.map (Option.colRow · i)) (fixOneFraction fs)
      (fun i => fixOneFraction (fs.map (Option.colRow · i))) := by
  unfold fixOneFraction
  simp only [givenFractions_row, sumCols_row, count_none_row]
  refine .seq (.any fun i => Iff.rfl) ?_
  split
  · exact .ok fun i => rfl
  · refine .seq .const (.seq (fractionIsRatio_row _) (.ok fun i => ?_))
    congr 1
    rw [List.map_map, List.map_map]
    apply List.map_congr_left
    intro f _
    cases f <;> rfl

theorem mkMinerals_row [NeZero n] (cs : List (MineralIn n)) :
    RowBy (fun (l : List (Mat n × Col n)) i => l.map fun m => (m.1.row i, m.2.row i)) (mkMinerals cs)
      (fun i => mkMinerals (cs.map (·.row i))) := by
  unfold mkMinerals
  refine .seq (forM_row MineralIn.row _ _ (fun a => ?_) cs) ?_
  · cases hf : a.fraction with
    | none => simp only [MineralIn.row, hf, Option.colRow, Option.map_none]; exact .ok fun i => rfl
    | some f => simp only [MineralIn.row, hf, Option.colRow, Option.map_some]; exact fractionIsRatio_row f
  · simp only [List.length_map, List.map_map]
    refine .seq .const ?_
    have e1 : ∀ i : Fin n, (cs.map ((fun x => x.fraction) ∘ fun x => x.row i))
        = (cs.map (·.fraction)).map (Option.colRow · i) := fun i => by rw [List.map_map]; rfl
    simp only [e1]
    refine .bind (fixOneFraction_row _) fun fs _ => ?_
    simp only [givenFractions_row, sumCols_row]
    refine .seq (.check ?_) (.ok fun i => ?_)
    · push Not
      constructor
      · rintro ⟨i, hi⟩; exact ⟨i, 0, hi⟩
      · rintro ⟨i, j, hj⟩; exact ⟨i, hj⟩
    · congr 1
      rw [show cs.map ((fun x => x.mat) ∘ fun x => x.row i) = (cs.map (·.mat)).map (·.row i) by
        rw [List.map_map]; rfl, List.zip_map]
      rfl

theorem mixLoop_row [NeZero n] (rest : List (Mat n × Col n)) (m : Mat n) (t : Col n) :
    RowBy Mat.row (mixLoop m t rest)
      (fun i => mixLoop (m.row i) (t.row i) (rest.map fun m => (m.1.row i, m.2.row i))) := by
  induction rest generalizing m t with
  | nil => exact .ok fun i => rfl
  | cons x rest ih =>
    obtain ⟨m', f'⟩ := x
    simp only [List.map_cons, mixLoop]
    exact .bind (hsw_row _ _ _ _) fun a _ => .seq (fractionIsRatio_row _) (ih _ _)

theorem mineralMixture_row [NeZero n] (l : List (Mat n × Col n)) :
    RowBy Mat.row (mineralMixture l)
      (fun i => mineralMixture (l.map fun m => (m.1.row i, m.2.row i))) := by
  cases l with
  | nil => exact .error fun i => ⟨_, rfl⟩
  | cons x l => exact mixLoop_row l _ _

/-! ### Fluids -/

theorem FluidKind.type_row (k : FluidKind n) (i : Fin n) : (k.row i).type = k.type := by
  cases k <;> rfl

theorem defaultBrieGases_row (cs : List (FluidSpec n)) (i : Fin n) :
    defaultBrieGases (cs.map (·.row i)) = defaultBrieGases cs := by
  unfold defaultBrieGases
  rw [List.zipIdx_map, List.filter_map, List.map_map]
  have e : ((fun x : FluidSpec 1 × ℕ => decide (x.1.kind.type = "carbon_dioxide" ∨ x.1.kind.type = "gas"))
      ∘ Prod.map (fun x : FluidSpec n => x.row i) id)
      = fun x : FluidSpec n × ℕ => decide (x.1.kind.type = "carbon_dioxide" ∨ x.1.kind.type = "gas") := by
    funext x
    simp only [Function.comp, Prod.map, FluidSpec.row, FluidKind.type_row]
  rw [e]
  rfl

theorem mkFluids_row [NeZero n] (T : Col n) (cs : List (FluidSpec n)) (method : MixMethod) (b : Num)
    (gases : Option (List ℤ)) (model : Provider) :
    RowBy Fluids.row (mkFluids T cs method b gases model)
      (fun i => mkFluids (T.row i) (cs.map (·.row i)) method b gases model) := by
  unfold mkFluids
  refine .seq (forM_row FluidSpec.row _ _ (fun a => ?_) cs) ?_
  · cases hf : a.fraction with
    | none => simp only [FluidSpec.row, hf, Option.colRow, Option.map_none]; exact .ok fun i => rfl
    | some f => simp only [FluidSpec.row, hf, Option.colRow, Option.map_some]; exact fractionIsRatio_row f
  · simp only [List.length_map, List.map_map]
    have e1 : ∀ i : Fin n, (cs.map ((fun x => x.fraction) ∘ fun x => x.row i))
        = (cs.map (·.fraction)).map (Option.colRow · i) := fun i => by rw [List.map_map]; rfl
    simp only [e1, givenFractions_row, sumCols_row, defaultBrieGases_row]
    refine .seq .const (.seq (.any fun i => Iff.rfl) (.bind (fixOneFraction_row _) fun fs _ => .ok fun i => ?_))
    rw [givenFractions_row]
    simp only [Fluids.row]
    congr 2
    rw [List.zipWith_map, List.map_zipWith]
    rfl

/-- An effectful call as a computation returning both the result and the array afterwards. -/
def Effect.run {α : Type} (x : Effect n α) : Except Err (α × Col n) :=
  match x with
  | (.error e, _) => .error e
  | (.ok a, p) => .ok (a, p)

variable {co2 : ∀ n, CO2Model n}

theorem Effect.of_same {α β : Type} {row : α → Fin n → β} {x : Except Err α}
    {y : Fin n → Except Err β} (h : RowBy row x y) (p : Col n) :
    RowBy (fun r i => (row r.1 i, r.2.row i)) (Effect.run (x, p))
      (fun i => Effect.run (y i, p.row i)) := by
  have e1 : Effect.run (x, p) = (x >>= fun a => .ok (a, p)) := by cases x <;> rfl
  have e2 : (fun i => Effect.run (y i, p.row i)) = fun i => (y i >>= fun a => .ok (a, p.row i)) := by
    funext i; cases y i <;> rfl
  rw [e1, e2]
  exact .bind h fun a _ => .ok fun i => rfl

theorem asMaterial_row [NeZero n] (hco2 : CO2RowWise co2) (provider : Provider) (T P : Col n)
    (k : FluidKind n) :
    RowBy (fun (r : Mat n × Col n) i => (r.1.row i, r.2.row i))
      (Effect.run (k.asMaterial (co2 n) provider T P))
      (fun i => Effect.run ((k.row i).asMaterial (co2 1) provider (T.row i) (P.row i))) := by
  cases k with
  | material m => exact .ok fun i => rfl
  | oil r g G =>
    cases provider with
    | spanWagner => exact .error fun i => ⟨_, rfl⟩
    | default => simp only [FluidKind.asMaterial, FluidKind.row]; refine Effect.of_same (vectorizeMaterial_row ?_) P; intro i; rfl
    | batzleWang => simp only [FluidKind.asMaterial, FluidKind.row]; refine Effect.of_same (vectorizeMaterial_row ?_) P; intro i; rfl
  | gas G =>
    cases provider with
    | spanWagner => exact .error fun i => ⟨_, rfl⟩
    | default => simp only [FluidKind.asMaterial, FluidKind.row]; refine Effect.of_same (vectorizeMaterial_row ?_) P; intro i; rfl
    | batzleWang => simp only [FluidKind.asMaterial, FluidKind.row]; refine Effect.of_same (vectorizeMaterial_row ?_) P; intro i; rfl
  | brine s =>
    cases provider with
    | spanWagner => exact .error fun i => ⟨_, rfl⟩
    | default => simp only [FluidKind.asMaterial, FluidKind.row]; refine Effect.of_same (vectorizeMaterial_row ?_) P; intro i; rfl
    | batzleWang => simp only [FluidKind.asMaterial, FluidKind.row]; refine Effect.of_same (vectorizeMaterial_row ?_) P; intro i; rfl
  | condensate r g G => exact .error fun i => ⟨_, rfl⟩
  | carbonDioxide b =>
    cases provider with
    | default => exact .error fun i => ⟨_, rfl⟩
    | batzleWang => exact .error fun i => ⟨_, rfl⟩
    | spanWagner =>
      exact Effect.of_same (hco2 n (fun i => celsiusToKelvin (T i)) (fun i => P i / Num.fin 1e6) b)
        (fun i => P i / Num.fin 1e6)

theorem materialsOf_run (co2 : CO2Model n) (s : Provider) (T : Col n) (x : FluidConst n)
    (xs : List (FluidConst n)) (p : Col n) :
    Effect.run (materialsOf co2 s T (x :: xs) p) =
      (Effect.run (x.asMaterial co2 s T p) >>= fun a =>
        Effect.run (materialsOf co2 s T xs a.2) >>= fun b => .ok (a.1 :: b.1, b.2)) := by
  simp only [materialsOf]
  rcases x.asMaterial co2 s T p with ⟨_ | m, p'⟩
  · rfl
  · simp only [Effect.run, bind_ok]
    rcases materialsOf co2 s T xs p' with ⟨_ | ms, p''⟩ <;> rfl

theorem materialsOf_row [NeZero n] (hco2 : CO2RowWise co2) (s : Provider) (T : Col n)
    (cs : List (FluidConst n)) (P : Col n) :
    RowBy (fun (r : List (Mat n) × Col n) i => (r.1.map (·.row i), r.2.row i))
      (Effect.run (materialsOf (co2 n) s T cs P))
      (fun i => Effect.run (materialsOf (co2 1) s (T.row i) (cs.map (·.row i)) (P.row i))) := by
  induction cs generalizing P with
  | nil => exact .ok fun i => rfl
  | cons x cs ih =>
    simp only [List.map_cons, materialsOf_run]
    exact .bind (asMaterial_row hco2 _ T P x.kind) fun a _ => .bind (ih a.2) fun b _ => .ok fun i => rfl

theorem pyPop_map {α β : Type} (f : α → β) (l : List α) (j : ℤ) :
    pyPop (l.map f) j = (pyPop l j).map fun r => (f r.1, r.2.map f) := by
  unfold pyPop
  simp only [List.length_map]
  generalize (if j < 0 then j + (l.length : ℤ) else j) = k
  split
  · rfl
  · simp only [List.getElem?_map]
    cases l[k.toNat]? with
    | none => rfl
    | some x => simp [Except.map, List.eraseIdx_map]

theorem popAll_map {α β : Type} (f : α → β) (is : List ℤ) (l : List α) :
    popAll is (l.map f) = (popAll is l).map fun r => (r.1.map f, r.2.map f) := by
  induction is generalizing l with
  | nil => rfl
  | cons j is ih =>
    simp only [popAll, pyPop_map]
    cases pyPop l j with
    | error e => rfl
    | ok a =>
      obtain ⟨x, l'⟩ := a
      simp only [Except.map, bind_ok, ih]
      cases popAll is l' with
      | error e => rfl
      | ok b => rfl

theorem popAll_row {α β : Type} [NeZero n] (rowf : α → Fin n → β) (is : List ℤ) (l : List α) :
    RowBy (fun (r : List α × List α) i => (r.1.map (rowf · i), r.2.map (rowf · i))) (popAll is l)
      (fun i => popAll is (l.map (rowf · i))) := by
  simp only [popAll_map]
  cases popAll is l with
  | error e => exact .error fun i => ⟨e, rfl⟩
  | ok a => exact .ok fun i => rfl

theorem mix_row [NeZero n] (f : Fluids n) (ms : List (Mat n)) :
    RowBy Mat.row (f.mix ms) (fun i => (f.row i).mix (ms.map (·.row i))) := by
  have e : ∀ i : Fin n, (f.row i).constituents.map (·.fraction)
      = (f.constituents.map (·.fraction)).map (·.row i) := fun i => by
    simp only [Fluids.row, List.map_map]; rfl
  unfold Fluids.mix
  simp only [e]
  cases hm : f.method with
  | wood =>
    simp only [Fluids.row, hm]
    exact wood_row _ _
  | brie =>
    simp only [Fluids.row, hm]
    exact .bind (popAll_row Mat.row _ _) fun a _ => .bind (popAll_row Col.row _ _) fun b _ =>
      brie_row _ _ _ _ _

theorem mixFluids_row [NeZero n] (hco2 : CO2RowWise co2) (f : Fluids n) (p : Pressure n) :
    RowBy (fun (r : Mat n × Pressure n) i => (r.1.row i, r.2.row i)) (mixFluids (co2 n) f p)
      (fun i => mixFluids (co2 1) (f.row i) (p.row i)) := by
  have key : ∀ {n : ℕ} (co2 : CO2Model n) (f : Fluids n) (p : Pressure n), mixFluids co2 f p =
      (needCol p.fluid >>= fun q => Effect.run (materialsOf co2 f.model f.temperature f.constituents q)
        >>= fun a => f.mix a.1 >>= fun m => .ok (m, { p with fluid := some a.2 })) := by
    intro n co2 f p
    unfold mixFluids
    congr 1
    funext q
    unfold Fluids.asMixture
    rcases materialsOf co2 f.model f.temperature f.constituents q with ⟨_ | ms, p'⟩
    · rfl
    · simp only [Effect.run, bind_ok]
      cases f.mix ms <;> rfl
  simp only [key]
  have hn : RowBy Col.row (needCol p.fluid) (fun i => needCol (p.row i).fluid) := by
    simp only [Pressure.row]
    cases p.fluid with
    | none => exact .error fun i => ⟨_, rfl⟩
    | some q => exact .ok fun i => rfl
  exact .bind hn fun q _ => .bind (materialsOf_row hco2 _ _ _ _) fun a _ =>
    .bind (mix_row _ _) fun m _ => .ok fun i => rfl

/-! ### Dry rock -/

theorem needCol_row [NeZero n] (x : Option (Col n)) :
    RowBy Col.row (needCol x) (fun i => needCol (Option.colRow x i)) := by
  cases x with
  | none => exact .error fun i => ⟨_, rfl⟩
  | some q => exact .ok fun i => rfl

theorem truncate_row (m : Option (Col n)) (x : Col n) (i : Fin n) :
    truncate (Option.colRow m i) (x.row i) = (truncate m x).row i := by
  cases m <;> rfl

theorem truncatedRock_row [NeZero n] (p : Pressure n) :
    RowBy Col.row p.truncatedRock (fun i => (p.row i).truncatedRock) := by
  unfold Pressure.truncatedRock Pressure.effectiveRock
  exact .bind (.bind (needCol_row p.rock) fun r _ => .ok fun i => rfl) fun e _ => .ok fun i => by
    rw [← truncate_row]; rfl

theorem truncatedReference_row (p : Pressure n) (i : Fin n) :
    (p.row i).truncatedReference = p.truncatedReference.row i := by
  unfold Pressure.truncatedReference
  rw [← truncate_row]; rfl

theorem friableEval_row [NeZero n] (f : FriableModel n) (p phi : Col n) (m : Mat n) :
    RowBy Mat.row (f.evalMaterial p phi m)
      (fun i => (f.row i).evalMaterial (p.row i) (phi.row i) (m.row i)) :=
  friableSand_row _ _ _ _ _ _

theorem patchyEval_row [NeZero n] (f : PatchyModel n) (p phi : Col n) (m : Mat n) :
    RowBy Mat.row (f.evalMaterial p phi m)
      (fun i => (f.row i).evalMaterial (p.row i) (phi.row i) (m.row i)) :=
  patchyCement_row _ _ _ _ _ _ _ _ _ _ _

/-- Row of a fit. -/
def Fit.row (f : Fit n) (i : Fin n) : Fit 1 := ⟨f.density.row i, f.primary.row i, f.secondary.row i⟩

theorem pdEval_row [NeZero n] (m : PDModel n) (p phi : Col n) (mineral : Mat n) :
    RowBy Fit.row (m.eval p phi mineral)
      (fun i => (m.row i).eval (p.row i) (phi.row i) (mineral.row i)) := by
  cases m with
  | polyfit b a => exact .ok fun i => rfl
  | expfit b a => exact .ok fun i => rfl
  | logfit b a => exact .ok fun i => rfl
  | powerfit a => exact .ok fun i => rfl
  | friable f => exact .bind (friableEval_row f p phi mineral) fun r _ => .ok fun i => rfl
  | patchy f => exact .bind (patchyEval_row f p phi mineral) fun r _ => .ok fun i => rfl

theorem useModuli_row (m : PDModel n) (i : Fin n) : (m.row i).useModuli = m.useModuli := by
  cases m <;> rfl

theorem ratioDependency_row [NeZero n] (m : PDModel n) (material : Mat n) (p r phi : Col n)
    (mineral : Mat n) :
    RowBy Mat.row (ratioDependency m material p r phi mineral)
      (fun i => ratioDependency (m.row i) (material.row i) (p.row i) (r.row i) (phi.row i)
        (mineral.row i)) := by
  unfold ratioDependency
  simp only [useModuli_row]
  refine .bind (pdEval_row _ _ _ _) fun ref _ => .bind (pdEval_row _ _ _ _) fun eff _ =>
    .seq (.any fun i => Iff.rfl) ?_
  split
  · exact mkModuli_rowBy _ _ _
  · exact mkVelocities_row _ _ _

theorem powerDependency_row [NeZero n] (a : Coef3 (ℝ × ℝ)) (material : Mat n) (p r : Col n) :
    RowBy Mat.row (powerDependency a material p r)
      (fun i => powerDependency a (material.row i) (p.row i) (r.row i)) := by
  unfold powerDependency
  exact .bind (pdEval_row (.powerfit a) r (c 0) material) fun ref _ =>
    .bind (pdEval_row (.powerfit a) p (c 0) material) fun eff _ =>
    .seq (.any fun i => Iff.rfl) (mkModuli_rowBy _ _ _)

theorem pressureDependency_row [NeZero n] (m : PDModel n) (material : Mat n) (p : Pressure n)
    (phi : Col n) (mineral : Mat n) :
    RowBy Mat.row (pressureDependency m material p phi mineral)
      (fun i => pressureDependency (m.row i) (material.row i) (p.row i) (phi.row i) (mineral.row i)) := by
  unfold pressureDependency
  simp only [truncatedReference_row]
  refine .bind (truncatedRock_row p) fun e _ => ?_
  cases m with
  | powerfit a => exact .bind (needCol_row p.rock) fun q _ => powerDependency_row a material q _
  | polyfit b a => exact ratioDependency_row (.polyfit b a) material e p.truncatedReference phi mineral
  | expfit b a => exact ratioDependency_row (.expfit b a) material e p.truncatedReference phi mineral
  | logfit b a => exact ratioDependency_row (.logfit b a) material e p.truncatedReference phi mineral
  | friable f => exact ratioDependency_row (.friable f) material e p.truncatedReference phi mineral
  | patchy f => exact ratioDependency_row (.patchy f) material e p.truncatedReference phi mineral

theorem effectiveDepth_row (t : DepthTrend n) (i : Fin n) :
    (t.row i).effectiveDepth = t.effectiveDepth.row i := by
  unfold DepthTrend.effectiveDepth DepthTrend.row
  cases t.referenceDepth <;> rfl

theorem adjust_row [NeZero n] (a : Adjustment n) (material : Mat n) (p : Pressure n) (phi : Col n)
    (mineral : Mat n) :
    RowBy Mat.row (a.adjust material p phi mineral)
      (fun i => (a.row i).adjust (material.row i) (p.row i) (phi.row i) (mineral.row i)) := by
  cases a with
  | pressureDependency m => exact pressureDependency_row _ _ _ _ _
  | depthTrend t =>
    simp only [Adjustment.adjust, Adjustment.row, DepthTrend.adjustMaterial, effectiveDepth_row]
    exact polyvalMaterial_row _ _ _ _ _ _

theorem adjustAll_row [NeZero n] (p : Pressure n) (phi : Col n) (mineral : Mat n)
    (as : List (Adjustment n)) (m : Mat n) :
    RowBy Mat.row (adjustAll p phi mineral as m)
      (fun i => adjustAll (p.row i) (phi.row i) (mineral.row i) (as.map (·.row i)) (m.row i)) := by
  induction as generalizing m with
  | nil => exact .ok fun i => rfl
  | cons a as ih =>
    simp only [List.map_cons, adjustAll]
    exact .bind (adjust_row _ _ _ _ _) fun m' _ => ih m'

theorem sandEval_row [NeZero n] (m : SandModel n) (p phi : Col n) (mineral : Mat n) :
    RowBy Mat.row (m.evalMaterial p phi mineral)
      (fun i => (m.row i).evalMaterial (p.row i) (phi.row i) (mineral.row i)) := by
  cases m with
  | polyfit b a =>
    obtain ⟨d, q, s⟩ := a
    cases d with
    | none => exact .error fun i => ⟨_, rfl⟩
    | some d =>
      cases q with
      | none => exact .error fun i => ⟨_, rfl⟩
      | some q =>
        cases s with
        | none => exact .error fun i => ⟨_, rfl⟩
        | some s => exact polyvalMaterial_row _ _ _ _ _ _
  | friable f => exact friableEval_row _ _ _ _
  | patchy f => exact patchyEval_row _ _ _ _

theorem nonporous_row [NeZero n] (m : SandModel n) (mineral : Mat n) :
    RowBy Mat.row (m.nonporous mineral) (fun i => (m.row i).nonporous (mineral.row i)) := by
  cases m with
  | polyfit b a => exact .ok fun i => rfl
  | friable f => exact .ok fun i => rfl
  | patchy f => exact hsw_row _ _ _ _

theorem dryRockMaterial_row [NeZero n] (d : DryRock n) (mineral : Mat n) (p : Pressure n) :
    RowBy Mat.row (d.material mineral p)
      (fun i => (d.row i).material (mineral.row i) (p.row i)) := by
  unfold DryRock.material
  exact .bind (truncatedRock_row p) fun e _ => .bind (sandEval_row _ _ _ _) fun m _ =>
    adjustAll_row _ _ _ _ _

theorem fillDefaults_row (m : SandModel n) (i : Fin n) :
    (m.row i).fillDefaults = m.fillDefaults.row i := by
  cases m <;> rfl

theorem mkDryRock_row [NeZero n] (m : SandModel n) (phi : Col n) (as : List (Adjustment n)) :
    RowBy DryRock.row (mkDryRock m phi as)
      (fun i => mkDryRock (m.row i) (phi.row i) (as.map (·.row i))) := by
  unfold mkDryRock
  simp only [fillDefaults_row]
  cases m with
  | polyfit b a => exact .ok fun i => rfl
  | friable f => exact .seq (.any fun i => Iff.rfl) (.ok fun i => rfl)
  | patchy f =>
    exact .seq (.any fun i => Iff.rfl) (.seq (.any fun i => Iff.rfl) (.ok fun i => rfl))

theorem mkPressure_row (a b : Col n) (f m r : Option (Col n)) :
    RowBy Pressure.row (mkPressure a b f m r)
      (fun i => mkPressure (a.row i) (b.row i) (Option.colRow f i) (Option.colRow m i)
        (Option.colRow r i)) := by
  unfold mkPressure
  cases f <;> cases r <;> exact .ok fun i => rfl

/-! ### C07 -/

/-- **C07, reading.** The sections of a table are accepted exactly when the sections of every row are. -/
theorem C07_input_row_wise [NeZero n] (s : Sections n) :
    RowBy Input.row (mkInput s) (fun i => mkInput (s.row i)) := by
  unfold mkInput
  exact .bind (mkMinerals_row _) fun a _ => .bind (mkFluids_row _ _ _ _ _ _) fun b _ =>
    .bind (mkDryRock_row _ _ _) fun d _ => .bind (mkPressure_row _ _ _ _ _) fun p _ =>
    .ok fun i => rfl

/-- **C07, calculation.** On an accepted input, the calculation of the whole table succeeds exactly when
the calculation of every row alone does, and row `i` of the result is the result of row `i` alone. -/
theorem C07_calculation_row_wise [NeZero n] (hco2 : CO2RowWise co2) (x : Input n) :
    RowBy Result.row (calculateResults (co2 n) x) (fun i => calculateResults (co2 1) (x.row i)) := by
  unfold calculateResults
  exact .bind (mineralMixture_row _) fun m _ => .bind (mixFluids_row hco2 _ _) fun f _ =>
    .bind (dryRockMaterial_row _ _ _) fun d _ => .bind (nonporous_row _ _) fun k _ =>
    .bind (fluidSubstitution_row _ _ _ _) fun s _ => .ok fun i => rfl

/-- **C07.** From the configuration sections to the result table: row by row. -/
theorem C07_row_wise [NeZero n] (hco2 : CO2RowWise co2) (s : Sections n) :
    RowBy Result.row (calculate (co2 n) s) (fun i => calculate (co2 1) (s.row i)) := by
  unfold calculate
  exact .bind (C07_input_row_wise s) fun x _ => C07_calculation_row_wise hco2 x

end OPE
