import Verif.Props.Missing2

/-!
# Missing numbers never change other numbers: carbon dioxide (C150)
-/

namespace OPE

open Classical CO2

variable {n : ℕ}

theorem exprEval_lacks (e : Expr) {d d' t t' : Num} (hd : d ⊑ d') (ht : t ⊑ t') : e.eval d t ⊑ e.eval d' t' := by
  induction e with
  | num x => exact Num.lacks_refl _
  | delta => exact hd
  | tau => exact ht
  | add a b iha ihb => exact Num.lacks_add iha ihb
  | mul a b iha ihb => exact Num.lacks_mul iha ihb
  | npow a k ih => exact Num.lacks_powi _ ih
  | pow a x ih => exact Num.lacks_pow ih (Num.lacks_refl _)
  | exp a ih => exact Num.lacks_exp ih

theorem foldlMap_lacks {ι : Type} (l : List ι) {f f' : ι → Num} (h : ∀ i, f i ⊑ f' i) {a a' : Num} (ha : a ⊑ a') :
    (l.map f).foldl (· + ·) a ⊑ (l.map f').foldl (· + ·) a' := by
  induction l generalizing a a' with
  | nil => exact ha
  | cons i l ih => exact ih (Num.lacks_add ha (h i))

theorem nudge_lacks {x x' : Num} (h : x ⊑ x') : nudge x ⊑ nudge x' := by
  rcases h with rfl | rfl
  · unfold nudge
    rw [if_neg (Num.not_nan_eq _)]
    exact Num.nan_lacks _
  · exact Num.lacks_refl _

theorem residual_lacks {d d' t t' : Num} (hd : d ⊑ d') (ht : t ⊑ t') (i j : ℕ) :
    UptoM (CO2.residual d t i j) (CO2.residual d' t' i j) := by
  unfold CO2.residual
  split
  · exact .ok (foldlMap_lacks _ (fun e => exprEval_lacks _ (nudge_lacks hd) (nudge_lacks ht)) (Num.lacks_refl _))
  · exact .error_left

theorem einsteinSum_lacks {f f' : ℝ × ℝ → Num} (h : ∀ k, f k ⊑ f' k) : einsteinSum f ⊑ einsteinSum f' :=
  foldlMap_lacks _ h (Num.lacks_refl _)

theorem helmholtz_lacks {d d' t t' : Num} (hd : d ⊑ d') (ht : t ⊑ t') :
    UptoM (helmholtz d t 0 2) (helmholtz d' t' 0 2) := by
  unfold helmholtz CO2.idealGas
  refine .bind (R := (· ⊑ ·)) (.ok ?_) fun a b hab => .bind (residual_lacks hd ht _ _) fun r s hrs =>
    .ok (Num.lacks_add hab hrs)
  refine Num.lacks_sub (by lacks) (einsteinSum_lacks fun k => ?_)
  unfold oneMinusExp
  lacks

theorem after_lacks {x x' : Num} (h : x ⊑ x') : Kind.array.after x ⊑ Kind.array.after x' := nudge_lacks h

theorem pressure1_lacks {T T' d d' : Num} (hT : T ⊑ T') (hd : d ⊑ d') :
    UptoM (pressure1 .array true T d) (pressure1 .array true T' d') := by
  unfold pressure1
  simp only [if_true]
  refine .bind (R := (· ⊑ ·)) (.ok (by lacks)) fun t t' ht => ?_
  have hd0 : d / Num.fin criticalDensity ⊑ d' / Num.fin criticalDensity := by lacks
  refine .bind (residual_lacks hd0 ht _ _) fun a a' ha => ?_
  have hd1 := after_lacks hd0
  have ht1 := after_lacks ht
  generalize d / Num.fin criticalDensity = d0 at *
  generalize d' / Num.fin criticalDensity = d0' at *
  generalize Kind.array.after d0 = d1 at *
  generalize Kind.array.after d0' = d1' at *
  generalize Kind.array.after t = t1 at *
  generalize Kind.array.after t' = t1' at *
  refine .bind (residual_lacks hd1 ht1 _ _) fun b b' hb => ?_
  refine .bind (residual_lacks hd1 ht1 _ _) fun f f' hf => .bind (residual_lacks hd1 ht1 _ _) fun g g' hg =>
    .bind (helmholtz_lacks hd1 ht1) fun h h' hh => .ok ?_
  have he := Num.lacks_div (Num.lacks_neg (Num.lacks_powi 2 (Num.lacks_sub (Num.lacks_add (Num.lacks_refl (.fin 1))
      (Num.lacks_mul hd1 hf)) (Num.lacks_mul (Num.lacks_mul hd1 ht1) hg)))) (Num.lacks_mul (Num.lacks_powi 2 ht1) hh)
  exact Num.lacks_div (Num.lacks_mul (Num.lacks_mul hT (Num.lacks_refl _)) (Num.lacks_add (Num.lacks_add
      (Num.lacks_add (Num.lacks_refl _) (Num.lacks_mul (Num.lacks_mul (Num.lacks_refl _) hd0) ha))
      (Num.lacks_mul (Num.lacks_powi _ hd1) hb)) he)) (Num.lacks_refl _)

theorem bulkModulus_lacks {T T' d d' : Num} (hT : T ⊑ T') (hd : d ⊑ d') :
    UptoM (bulkModulus .array T d) (bulkModulus .array T' d') := by
  unfold bulkModulus
  exact .bind (pressure1_lacks hT hd) fun a b hab => .ok (by lacks)

theorem lookup_lacks (t : Table) {T T' P P' : Num} (hT : T ⊑ T') (hP : P ⊑ P') : t.lookup T P ⊑ t.lookup T' P' := by
  rcases hT with rfl | rfl
  · exact Num.nan_lacks _
  · rcases hP with rfl | rfl
    · unfold Table.lookup
      cases T <;> exact Num.nan_lacks _
    · exact Num.lacks_refl _

/-- The objective has no number when the temperature or the pressure is missing. -/
theorem objective_nan {T P : Num} (h : T = .nan ∨ P = .nan) (x y : Num)
    (hy : ((pressure0 .single T x) >>= fun p => Except.ok (p - P)) = .ok y) : y = .nan := by
  obtain ⟨p, hp, hy⟩ := bind_eq_ok.mp hy
  cases hy
  rcases h with rfl | rfl
  · unfold pressure0 at hp
    obtain ⟨t, -, hp⟩ := bind_eq_ok.mp hp
    obtain ⟨r, -, hp⟩ := bind_eq_ok.mp hp
    cases hp
    simp only [Num.mul_nan', Num.nan_mul', Num.nan_div', Num.nan_sub']
  · exact Num.sub_nan' _

theorem calculateDensity_lacks {solve : RootFinder} (hs : ChecksStart solve) {T T' P P' : Num} (hT : T ⊑ T')
    (hP : P ⊑ P') (ph : Phase) :
    UptoM (calculateDensity solve T P ph true) (calculateDensity solve T' P' ph true) := by
  have key : T = .nan ∨ P = .nan → UptoM (calculateDensity solve T P ph true) (calculateDensity solve T' P' ph true) := by
    intro h r r' hr hr'
    exfalso
    unfold calculateDensity at hr
    dsimp only at hr
    split at hr
    · simp at hr
    · obtain ⟨y, h1, h2⟩ := hs _ _ _ _ hr
      exact h2 (objective_nan h _ _ h1)
  rcases hT with rfl | rfl
  · exact key (.inl rfl)
  · rcases hP with rfl | rfl
    · exact key (.inr rfl)
    · intro a b ha hb
      rw [ha] at hb
      cases hb
      exact Num.lacks_refl _

/-- **C150, carbon dioxide.** In the Span-Wagner model missing temperatures or pressures do not change numbers. -/
theorem C150_carbon_dioxide {solve : RootFinder} (hs : ChecksStart solve) (table : Table) :
    CO2Missing (spanWagner solve table n) := by
  intro T T' P P' b m m' hT hP hm hm'
  have key : UptoM (spanWagner solve table n T P b) (spanWagner solve table n T' P' b) := by
    unfold spanWagner carbonDioxide densityOf
    refine .bind (R := (· ⊑ ·)) ?_ fun d d' hd => .bind (Upto.vec fun i => bulkModulus_lacks (hT i) (hd i))
      fun k k' hk => fluidMaterial_lacks hk hd
    split
    · exact .ok fun i => lookup_lacks table (hT i) (hP i)
    · exact .vec fun i => calculateDensity_lacks hs (hT i) (hP i) _
  exact key m m' hm hm'

end OPE
