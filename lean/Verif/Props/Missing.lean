import Verif.Spec.Missing

/-!
# Missing numbers never change other numbers: arithmetic and material laws (C150)
-/

namespace OPE

open Classical

variable {n : ℕ}

/-! ### Arithmetic -/

namespace Num

theorem nan_lacks (y : Num) : Num.nan ⊑ y := .inl rfl
theorem lacks_refl (x : Num) : x ⊑ x := .inr rfl

@[simp] theorem nan_add' (b : Num) : Num.nan + b = Num.nan := by cases b <;> rfl
@[simp] theorem add_nan' (a : Num) : a + Num.nan = Num.nan := by cases a <;> rfl
@[simp] theorem nan_sub' (b : Num) : Num.nan - b = Num.nan := by cases b <;> rfl
@[simp] theorem sub_nan' (a : Num) : a - Num.nan = Num.nan := by cases a <;> rfl
@[simp] theorem nan_mul' (b : Num) : Num.nan * b = Num.nan := by cases b <;> rfl
@[simp] theorem mul_nan' (a : Num) : a * Num.nan = Num.nan := by cases a <;> rfl
@[simp] theorem nan_div' (b : Num) : Num.nan / b = Num.nan := by cases b <;> rfl
@[simp] theorem div_nan' (a : Num) : a / Num.nan = Num.nan := by cases a <;> rfl
@[simp] theorem neg_nan' : -Num.nan = Num.nan := rfl
theorem not_nan_eq (b : Num) : ¬ Num.eq .nan b := by cases b <;> exact id
theorem not_eq_nan (a : Num) : ¬ Num.eq a .nan := by cases a <;> exact id
theorem not_nan_lt (b : Num) : ¬ (Num.nan < b) := by cases b <;> exact id
theorem not_lt_nan (a : Num) : ¬ (a < Num.nan) := by cases a <;> exact id
theorem not_nan_le (b : Num) : ¬ (Num.nan ≤ b) := fun h => h.elim (not_nan_lt b) (not_nan_eq b)
theorem not_le_nan (a : Num) : ¬ (a ≤ Num.nan) := fun h => h.elim (not_lt_nan a) (not_eq_nan a)

variable {a a' b b' : Num}

theorem lacks_add (ha : a ⊑ a') (hb : b ⊑ b') : a + b ⊑ a' + b' := by
  rcases ha with rfl | rfl
  · rw [nan_add']; exact nan_lacks _
  · rcases hb with rfl | rfl
    · rw [add_nan']; exact nan_lacks _
    · exact lacks_refl _
theorem lacks_sub (ha : a ⊑ a') (hb : b ⊑ b') : a - b ⊑ a' - b' := by
  rcases ha with rfl | rfl
  · rw [nan_sub']; exact nan_lacks _
  · rcases hb with rfl | rfl
    · rw [sub_nan']; exact nan_lacks _
    · exact lacks_refl _
theorem lacks_mul (ha : a ⊑ a') (hb : b ⊑ b') : a * b ⊑ a' * b' := by
  rcases ha with rfl | rfl
  · rw [nan_mul']; exact nan_lacks _
  · rcases hb with rfl | rfl
    · rw [mul_nan']; exact nan_lacks _
    · exact lacks_refl _
theorem lacks_div (ha : a ⊑ a') (hb : b ⊑ b') : a / b ⊑ a' / b' := by
  rcases ha with rfl | rfl
  · rw [nan_div']; exact nan_lacks _
  · rcases hb with rfl | rfl
    · rw [div_nan']; exact nan_lacks _
    · exact lacks_refl _
theorem lacks_neg (ha : a ⊑ a') : -a ⊑ -a' := by
  rcases ha with rfl | rfl
  · exact nan_lacks _
  · exact lacks_refl _
theorem lacks_minimum (ha : a ⊑ a') (hb : b ⊑ b') : minimum a b ⊑ minimum a' b' := by
  rcases ha with rfl | rfl
  · exact nan_lacks _
  · rcases hb with rfl | rfl
    · cases a <;> exact nan_lacks _
    · exact lacks_refl _
theorem lacks_maximum (ha : a ⊑ a') (hb : b ⊑ b') : maximum a b ⊑ maximum a' b' := by
  rcases ha with rfl | rfl
  · exact nan_lacks _
  · rcases hb with rfl | rfl
    · cases a <;> exact nan_lacks _
    · exact lacks_refl _
theorem lacks_clip {d d' : Num} (ha : a ⊑ a') (hb : b ⊑ b') (hd : d ⊑ d') : clip a b d ⊑ clip a' b' d' :=
  lacks_minimum (lacks_maximum ha hb) hd
theorem lacks_abs (ha : a ⊑ a') : abs a ⊑ abs a' := by
  rcases ha with rfl | rfl
  · exact nan_lacks _
  · exact lacks_refl _
theorem lacks_sqrt (ha : a ⊑ a') : sqrt a ⊑ sqrt a' := by
  rcases ha with rfl | rfl
  · exact nan_lacks _
  · exact lacks_refl _
theorem lacks_exp (ha : a ⊑ a') : exp a ⊑ exp a' := by
  rcases ha with rfl | rfl
  · exact nan_lacks _
  · exact lacks_refl _
theorem lacks_log (ha : a ⊑ a') : log a ⊑ log a' := by
  rcases ha with rfl | rfl
  · exact nan_lacks _
  · exact lacks_refl _
theorem lacks_log10 (ha : a ⊑ a') : log10 a ⊑ log10 a' := by
  rcases ha with rfl | rfl
  · exact nan_lacks _
  · exact lacks_refl _
theorem powi_zero (x : Num) : powi x 0 = fin 1 := by cases x <;> simp [powi]
theorem lacks_powi (k : ℤ) (ha : a ⊑ a') : powi a k ⊑ powi a' k := by
  rcases ha with rfl | rfl
  · by_cases hk : k = 0
    · subst hk; rw [powi_zero, powi_zero]; exact lacks_refl _
    · simp only [powi, if_neg hk]; exact nan_lacks _
  · exact lacks_refl _
theorem pow_zero' (x : Num) : pow x (fin 0) = fin 1 := by
  cases x with
  | fin a =>
    simp only [pow, lt_self_iff_false, if_false, if_true]
    split
    · simp
    · split
      · rfl
      · rw [if_pos ⟨0, by simp⟩]; simp
  | _ => simp [pow]
theorem one_pow' (y : Num) : pow (fin 1) y = fin 1 := by
  cases y <;> simp [pow]
theorem lacks_pow (ha : a ⊑ a') (hb : b ⊑ b') : pow a b ⊑ pow a' b' := by
  rcases ha with rfl | rfl
  · rcases hb with rfl | rfl
    · exact nan_lacks _
    · cases b with
      | fin x =>
        by_cases hx : x = 0
        · subst hx; rw [pow_zero', pow_zero']; exact lacks_refl _
        · simp only [pow, if_neg hx]; exact nan_lacks _
      | _ => exact nan_lacks _
  · rcases hb with rfl | rfl
    · cases a with
      | fin x =>
        by_cases hx : x = 1
        · subst hx; rw [one_pow', one_pow']; exact lacks_refl _
        · simp only [pow, if_neg hx]; exact nan_lacks _
      | _ => exact nan_lacks _
    · exact lacks_refl _

end Num

/-- Closes goals `x ⊑ y` for expressions of the same form. -/
macro "lacks" : tactic => `(tactic| repeat' (first
  | with_reducible exact Num.lacks_refl _
  | with_reducible apply Num.lacks_add | with_reducible apply Num.lacks_sub | with_reducible apply Num.lacks_mul
  | with_reducible apply Num.lacks_div | with_reducible apply Num.lacks_neg | with_reducible apply Num.lacks_minimum
  | with_reducible apply Num.lacks_maximum | with_reducible apply Num.lacks_clip | with_reducible apply Num.lacks_abs
  | with_reducible apply Num.lacks_sqrt | with_reducible apply Num.lacks_exp | with_reducible apply Num.lacks_log
  | with_reducible apply Num.lacks_log10 | with_reducible apply Num.lacks_powi | with_reducible apply Num.lacks_pow
  | apply_assumption))

/-- The same in every row of columns. -/
macro "lacksC" : tactic => `(tactic| (intro i; simp only [Pi.add_apply, Pi.sub_apply, Pi.mul_apply, Pi.div_apply,
  Pi.neg_apply, c_apply, Col.pow, Col.sq]; lacks))

theorem Col.lacks_refl (x : Col n) : x ⊑ x := fun i => Num.lacks_refl _

theorem Mat.lacks_refl (m : Mat n) : m ⊑ m :=
  ⟨Col.lacks_refl _, Col.lacks_refl _, Col.lacks_refl _, Col.lacks_refl _, Col.lacks_refl _⟩

theorem Option.lacks_refl (x : Option (Col n)) : x ⊑ x := by
  cases x with
  | none => exact .none
  | some x => exact .some (Col.lacks_refl x)

theorem Option.lacks_cases {α : Type} [Missing α] {x y : Option α} (h : x ⊑ y) :
    (x = none ∧ y = none) ∨ ∃ a b, x = some a ∧ y = some b ∧ a ⊑ b := by
  cases h with
  | none => exact .inl ⟨rfl, rfl⟩
  | some h => exact .inr ⟨_, _, rfl, rfl, h⟩

/-! ### Computations that may raise -/

/-- If both computations succeed, their results are related. -/
def Upto {α β : Type} (R : α → β → Prop) (x : Except Err α) (y : Except Err β) : Prop :=
  ∀ a b, x = .ok a → y = .ok b → R a b

namespace Upto

variable {α β γ δ : Type} {R : α → β → Prop} {S : γ → δ → Prop}

theorem ok {a : α} {b : β} (h : R a b) : Upto R (.ok a) (.ok b) := by
  rintro _ _ ⟨⟩ ⟨⟩; exact h

theorem error_left {e : Err} {y : Except Err β} : Upto R (.error e) y := nofun
theorem error_right {e : Err} {x : Except Err α} : Upto R x (.error e) := fun _ _ _ h => nomatch h

theorem bind {x : Except Err α} {y : Except Err β} {f : α → Except Err γ} {g : β → Except Err δ}
    (hx : Upto R x y) (hf : ∀ a b, R a b → Upto S (f a) (g b)) : Upto S (x >>= f) (y >>= g) := by
  intro c d hc hd
  obtain ⟨a, ha, hc⟩ := bind_eq_ok.mp hc
  obtain ⟨b, hb, hd⟩ := bind_eq_ok.mp hd
  exact hf a b (hx a b ha hb) c d hc hd

/-- Sequencing after checks that give nothing. -/
theorem seq {x y : Except Err Unit} {f : Except Err γ} {g : Except Err δ}
    (hf : x = .ok () → y = .ok () → Upto S f g) : Upto S (x >>= fun _ => f) (y >>= fun _ => g) := by
  intro c d hc hd
  obtain ⟨⟨⟩, ha, hc⟩ := bind_eq_ok.mp hc
  obtain ⟨⟨⟩, hb, hd⟩ := bind_eq_ok.mp hd
  exact hf ha hb c d hc hd

theorem seq' {x y : Except Err Unit} {f : Except Err γ} {g : Except Err δ}
    (hf : Upto S f g) : Upto S (x >>= fun _ => f) (y >>= fun _ => g) := seq fun _ _ => hf

theorem vec {f : Fin n → Except Err α} {g : Fin n → Except Err β} (h : ∀ i, Upto R (f i) (g i)) :
    Upto (fun x y => ∀ i, R (x i) (y i)) (OPE.vec f) (OPE.vec g) := fun a b ha hb i =>
  h i _ _ (vec_ok_iff.mp ha i) (vec_ok_iff.mp hb i)

theorem mono {R' : α → β → Prop} {x : Except Err α} {y : Except Err β} (h : Upto R x y)
    (hR : ∀ a b, R a b → R' a b) : Upto R' x y := fun a b ha hb => hR a b (h a b ha hb)

end Upto

/-- Results with numbers missing, if both computations succeed. -/
abbrev UptoM {α : Type} [Missing α] (x y : Except Err α) : Prop := Upto (· ⊑ ·) x y

theorem pyDiv_lacks {a a' b b' : Num} (ha : a ⊑ a') (hb : b ⊑ b') : UptoM (pyDiv a b) (pyDiv a' b') := by
  unfold pyDiv
  split
  · exact .error_left
  · split
    · exact .error_right
    · exact .ok (Num.lacks_div ha hb)

theorem pyInv_lacks {a a' : Num} (ha : a ⊑ a') : UptoM (pyInv a) (pyInv a') := by
  unfold pyInv
  split
  · exact .error_left
  · split
    · exact .error_right
    · exact .ok (Num.lacks_powi _ ha)

/-! ### Materials -/

theorem calcShear_lacks {a a' b b' : Col n} (ha : a ⊑ a') (hb : b ⊑ b') : calcShear a b ⊑ calcShear a' b' := by
  intro i; unfold calcShear; lacks

theorem calcBulk_lacks {a a' b b' d d' : Col n} (ha : a ⊑ a') (hb : b ⊑ b') (hd : d ⊑ d') :
    calcBulk a b d ⊑ calcBulk a' b' d' := by
  intro i; unfold calcBulk; lacks

theorem calcVp_lacks {a a' b b' d d' : Col n} (ha : a ⊑ a') (hb : b ⊑ b') (hd : d ⊑ d') :
    calcVp a b d ⊑ calcVp a' b' d' := by
  intro i; unfold calcVp; lacks

theorem calcVs_lacks {a a' b b' : Col n} (ha : a ⊑ a') (hb : b ⊑ b') : calcVs a b ⊑ calcVs a' b' := by
  intro i; unfold calcVs; lacks

theorem setDefaults_lacks {b b' g g' d d' s s' p p' : Option (Col n)} (hb : b ⊑ b') (hg : g ⊑ g') (hd : d ⊑ d')
    (hs : s ⊑ s') (hp : p ⊑ p') : UptoM (setDefaults b g d s p) (setDefaults b' g' d' s' p') := by
  rcases Option.lacks_cases hb with ⟨rfl, rfl⟩ | ⟨b, b', rfl, rfl, hb⟩ <;>
  rcases Option.lacks_cases hg with ⟨rfl, rfl⟩ | ⟨g, g', rfl, rfl, hg⟩ <;>
  rcases Option.lacks_cases hd with ⟨rfl, rfl⟩ | ⟨d, d', rfl, rfl, hd⟩ <;>
  rcases Option.lacks_cases hs with ⟨rfl, rfl⟩ | ⟨s, s', rfl, rfl, hs⟩ <;>
  rcases Option.lacks_cases hp with ⟨rfl, rfl⟩ | ⟨p, p', rfl, rfl, hp⟩ <;>
  first
  | exact Upto.error_left
  | (refine Upto.ok ⟨?_, ?_, ?_, ?_, ?_⟩ <;>
      (repeat' (first
        | assumption | exact .none | apply Option.Rel.some
        | apply calcShear_lacks | apply calcBulk_lacks | apply calcVp_lacks | apply calcVs_lacks)))

theorem mkMaterial_lacks {b b' g g' d d' s s' p p' : Option (Col n)} (hb : b ⊑ b') (hg : g ⊑ g') (hd : d ⊑ d')
    (hs : s ⊑ s') (hp : p ⊑ p') : UptoM (mkMaterial b g d s p) (mkMaterial b' g' d' s' p') := by
  unfold mkMaterial
  refine .bind (setDefaults_lacks hb hg hd hs hp) ?_
  rintro ⟨b, g, d, s, p⟩ ⟨b', g', d', s', p'⟩ ⟨h1, h2, h3, h4, h5⟩
  dsimp only at h1 h2 h3 h4 h5 ⊢
  rcases Option.lacks_cases h3 with ⟨rfl, rfl⟩ | ⟨d, d', rfl, rfl, hd⟩
  · exact .error_left
  · exact .seq' (.ok ⟨h1, h2, hd, h5, h4⟩)

theorem mkModuli_lacks {b b' g g' d d' : Col n} (hb : b ⊑ b') (hg : g ⊑ g') (hd : d ⊑ d') :
    UptoM (mkModuli b g d) (mkModuli b' g' d') :=
  mkMaterial_lacks (.some hb) (.some hg) (.some hd) .none .none

theorem mkVelocities_lacks {d d' p p' s s' : Col n} (hd : d ⊑ d') (hp : p ⊑ p') (hs : s ⊑ s') :
    UptoM (mkVelocities d p s) (mkVelocities d' p' s') :=
  mkMaterial_lacks .none .none (.some hd) (.some hs) (.some hp)

theorem fluidMaterial_lacks {b b' d d' : Col n} (hb : b ⊑ b') (hd : d ⊑ d') :
    UptoM (fluidMaterial b d) (fluidMaterial b' d') :=
  mkMaterial_lacks (.some hb) (.some (Col.lacks_refl _)) (.some hd) .none .none

theorem fluidVelocity_lacks {d d' p p' : Col n} (hd : d ⊑ d') (hp : p ⊑ p') :
    UptoM (fluidVelocity d p) (fluidVelocity d' p') :=
  mkMaterial_lacks .none (.some (Col.lacks_refl _)) (.some hd) .none (.some hp)

theorem vectorizeMaterial_lacks {f g : Fin n → Except Err (Mat 1)} (h : ∀ i, UptoM (f i) (g i)) :
    UptoM (vectorizeMaterial f) (vectorizeMaterial g) := by
  unfold vectorizeMaterial
  exact .bind (.vec h) fun a b hab => mkVelocities_lacks (fun i => (hab i).2.2.1 0) (fun i => (hab i).2.2.2.1 0)
    (fun i => (hab i).2.2.2.2 0)

/-! ### Mixing laws -/

theorem hswDensity_lacks {r1 r1' r2 r2' f1 f1' f2 f2' : Num} (h1 : r1 ⊑ r1') (h2 : r2 ⊑ r2') (h3 : f1 ⊑ f1')
    (h4 : f2 ⊑ f2') : UptoM (hswDensity r1 r2 f1 f2) (hswDensity r1' r2' f1' f2') := by
  unfold hswDensity
  rcases h1 with rfl | rfl
  · rw [if_neg (Num.not_nan_eq _)]
    simp only [Num.mul_nan', Num.nan_add']
    split <;> exact .ok (Num.nan_lacks _)
  · rcases h2 with rfl | rfl
    · rw [if_neg (Num.not_eq_nan _)]
      simp only [Num.mul_nan', Num.add_nan']
      split <;> exact .ok (Num.nan_lacks _)
    · split
      · exact .ok (Num.lacks_refl _)
      · exact .ok (by lacks)

/-- Sequencing where the left result is known to be missing. -/
theorem nanBind {x : Except Err Num} {f : Num → Except Err Num} (h : ∀ a r, f a = .ok r → r = .nan) (r : Num)
    (hr : (x >>= f) = .ok r) : r = .nan := by
  obtain ⟨a, -, ha⟩ := bind_eq_ok.mp hr
  exact h a r ha

theorem Upto.of_nan {x y : Except Err Num} (h : ∀ r, x = .ok r → r = .nan) : UptoM x y :=
  fun a _ ha _ => .inl (h a ha)

theorem hswBulk_lacks {k1 k1' k2 k2' m m' f1 f1' f2 f2' : Num} (h1 : k1 ⊑ k1') (h2 : k2 ⊑ k2') (hm : m ⊑ m')
    (h3 : f1 ⊑ f1') (h4 : f2 ⊑ f2') : UptoM (hswBulk k1 k2 m f1 f2) (hswBulk k1' k2' m' f1' f2') := by
  rcases h1 with rfl | rfl
  · refine Upto.of_nan fun r hr => ?_
    unfold hswBulk at hr
    rw [if_neg (Num.not_nan_eq _)] at hr
    refine nanBind (fun a r hr => ?_) r hr
    refine nanBind (fun b r hr => ?_) r hr
    refine nanBind (fun q r hr => ?_) r hr
    cases hr; exact Num.nan_add' _
  · rcases h2 with rfl | rfl
    · refine Upto.of_nan fun r hr => ?_
      unfold hswBulk at hr
      rw [if_neg (Num.not_eq_nan _)] at hr
      obtain ⟨a, ha, hr⟩ := bind_eq_ok.mp hr
      obtain ⟨b, hb, hr⟩ := bind_eq_ok.mp hr
      obtain ⟨q, hq, hr⟩ := bind_eq_ok.mp hr
      cases hr
      rw [Num.nan_sub'] at ha
      have : a = .nan := by
        unfold pyInv at ha; rw [if_neg (by simp)] at ha; cases ha; simp [Num.powi]
      subst this
      rw [Num.nan_add'] at hq
      unfold pyDiv at hq; rw [if_neg (by simp)] at hq; cases hq
      rw [Num.div_nan', Num.add_nan']
    · unfold hswBulk
      split
      · exact .ok (Num.lacks_refl _)
      · exact .bind (pyInv_lacks (Num.lacks_refl _)) fun a a' ha => .bind (pyInv_lacks (by lacks)) fun b b' hb =>
          .bind (pyDiv_lacks h4 (by lacks)) fun q q' hq => .ok (by lacks)

theorem hswShear_lacks {k1 k1' k2 k2' m m' g g' f1 f1' f2 f2' : Num} (h1 : k1 ⊑ k1') (h2 : k2 ⊑ k2') (hm : m ⊑ m')
    (hg : g ⊑ g') (h3 : f1 ⊑ f1') (h4 : f2 ⊑ f2') :
    UptoM (hswShear k1 k2 m g f1 f2) (hswShear k1' k2' m' g' f1' f2') := by
  rcases h1 with rfl | rfl
  · refine Upto.of_nan fun r hr => ?_
    unfold hswShear at hr
    rw [if_neg (Num.not_nan_eq _)] at hr
    refine nanBind (fun a r hr => ?_) r hr
    refine nanBind (fun b r hr => ?_) r hr
    refine nanBind (fun q r hr => ?_) r hr
    refine nanBind (fun q r hr => ?_) r hr
    cases hr; exact Num.nan_add' _
  · rcases h2 with rfl | rfl
    · refine Upto.of_nan fun r hr => ?_
      unfold hswShear at hr
      rw [if_neg (Num.not_eq_nan _)] at hr
      obtain ⟨a, ha, hr⟩ := bind_eq_ok.mp hr
      obtain ⟨z, hz, hr⟩ := bind_eq_ok.mp hr
      obtain ⟨b, hb, hr⟩ := bind_eq_ok.mp hr
      obtain ⟨q, hq, hr⟩ := bind_eq_ok.mp hr
      cases hr
      rw [Num.nan_sub'] at ha
      have : a = .nan := by
        unfold pyInv at ha; rw [if_neg (by simp)] at ha; cases ha; simp [Num.powi]
      subst this
      rw [Num.nan_add'] at hq
      unfold pyDiv at hq; rw [if_neg (by simp)] at hq; cases hq
      rw [Num.div_nan', Num.add_nan']
    · unfold hswShear
      split
      · exact .ok (Num.lacks_refl _)
      · exact .bind (pyInv_lacks (Num.lacks_refl _)) fun a a' ha => .bind (pyDiv_lacks (by lacks) (by lacks))
          fun z z' hz => .bind (pyInv_lacks (by lacks)) fun b b' hb =>
          .bind (pyDiv_lacks h4 (by lacks)) fun q q' hq => .ok (by lacks)

theorem hsw_lacks {m1 m1' m2 m2' : Mat n} {r r' : Col n} (h1 : m1 ⊑ m1') (h2 : m2 ⊑ m2') (hr : r ⊑ r')
    (bound : String) : UptoM (hsw m1 m2 r bound) (hsw m1' m2' r' bound) := by
  obtain ⟨hk1, hg1, hd1, -, -⟩ := h1
  obtain ⟨hk2, hg2, hd2, -, -⟩ := h2
  unfold hsw
  refine .seq' (.seq' ?_)
  have hr2 : (c 1 - r : Col n) ⊑ c 1 - r' := by lacksC
  have hk : ∀ i, (if bound = "lower" then Num.minimum (m1.bulk i) (m2.bulk i) else Num.maximum (m1.bulk i) (m2.bulk i))
      ⊑ (if bound = "lower" then Num.minimum (m1'.bulk i) (m2'.bulk i) else Num.maximum (m1'.bulk i) (m2'.bulk i)) := by
    intro i; split <;> lacks
  have hg : ∀ i, (if bound = "lower" then Num.minimum (m1.shear i) (m2.shear i)
        else Num.maximum (m1.shear i) (m2.shear i))
      ⊑ (if bound = "lower" then Num.minimum (m1'.shear i) (m2'.shear i)
        else Num.maximum (m1'.shear i) (m2'.shear i)) := by
    intro i; split <;> lacks
  exact .bind (.vec fun i => hswDensity_lacks (hd1 i) (hd2 i) (hr i) (hr2 i)) fun d d' hd =>
    .bind (.vec fun i => hswBulk_lacks (hk1 i) (hk2 i) (hg i) (hr i) (hr2 i)) fun k k' hk' =>
    .bind (.vec fun i => hswShear_lacks (hg1 i) (hg2 i) (hk i) (hg i) (hr i) (hr2 i)) fun g g' hg' =>
    mkModuli_lacks hk' hg' hd

theorem foldl_lacks {xs ys : List (Col n)} (h : xs ⊑ ys) {a b : Col n} (hab : a ⊑ b) :
    xs.foldl (· + ·) a ⊑ ys.foldl (· + ·) b := by
  induction h generalizing a b with
  | nil => exact hab
  | cons h _ ih => exact ih fun i => Num.lacks_add (hab i) (h i)

theorem sumCols_lacks {xs ys : List (Col n)} (h : xs ⊑ ys) : sumCols xs ⊑ sumCols ys :=
  foldl_lacks h (Col.lacks_refl _)

theorem forall₂_map {α β γ δ : Type} {R : α → β → Prop} {S : γ → δ → Prop} {f : α → γ} {g : β → δ}
    {xs : List α} {ys : List β} (h : List.Forall₂ R xs ys) (hf : ∀ a b, R a b → S (f a) (g b)) :
    List.Forall₂ S (xs.map f) (ys.map g) := by
  induction h with
  | nil => exact .nil
  | cons h _ ih => exact .cons (hf _ _ h) ih

theorem zip_lacks {α β : Type} [Missing α] [Missing β] {xs xs' : List α} {ys ys' : List β} (h : xs ⊑ xs')
    (h' : ys ⊑ ys') : xs.zip ys ⊑ xs'.zip ys' := by
  induction h generalizing ys ys' with
  | nil => exact .nil
  | cons h _ ih =>
    cases h' with
    | nil => exact .nil
    | cons h' h2 => exact .cons ⟨h, h'⟩ (ih h2)

theorem sumSaturationsToOne_lacks {xs ys : List (Col n)} (h : xs ⊑ ys) :
    sumSaturationsToOne xs ⊑ sumSaturationsToOne ys := by
  have ht := sumCols_lacks h
  unfold sumSaturationsToOne
  refine forall₂_map h fun a b hab i => ?_
  dsimp only
  rcases ht i with e | e
  · rw [e]
    exact .inl (Num.div_nan' _)
  · rw [e]
    split <;> lacks

theorem mixDensities_lacks {fs fs' : List (Mat n)} {ss ss' : List (Col n)} (hf : fs ⊑ fs') (hs : ss ⊑ ss') :
    mixDensities fs ss ⊑ mixDensities fs' ss' := by
  unfold mixDensities
  refine sumCols_lacks (forall₂_map (zip_lacks hf hs) fun a b hab i => ?_)
  exact Num.lacks_mul (hab.1.2.2.1 i) (hab.2 i)

theorem forall₂_isEmpty {α β : Type} {R : α → β → Prop} {xs : List α} {ys : List β} (h : List.Forall₂ R xs ys) :
    xs.isEmpty = ys.isEmpty := by cases h <;> rfl

theorem mixBulkModuli_lacks {fs fs' : List (Mat n)} {ss ss' : List (Col n)} (hf : fs ⊑ fs') (hs : ss ⊑ ss') :
    UptoM (mixBulkModuli fs ss) (mixBulkModuli fs' ss') := by
  unfold mixBulkModuli
  have hz := zip_lacks hs hf
  rw [forall₂_isEmpty hz]
  split
  · exact .error_left
  · refine .ok fun i => Num.lacks_div (Num.lacks_refl _) (sumCols_lacks (forall₂_map hz fun a b hab i => ?_) i)
    exact Num.lacks_div (hab.1 i) (hab.2.1 i)

theorem wood_lacks {fs fs' : List (Mat n)} {ss ss' : List (Col n)} (hf : fs ⊑ fs') (hs : ss ⊑ ss') :
    UptoM (wood fs ss) (wood fs' ss') := by
  have h := sumSaturationsToOne_lacks hs
  exact .bind (mixBulkModuli_lacks hf h) fun b b' hb => fluidMaterial_lacks hb (mixDensities_lacks hf h)

theorem brie_lacks {fs fs' gs gs' : List (Mat n)} {ss ss' ts ts' : List (Col n)} {e e' : Col n} (hf : fs ⊑ fs')
    (hs : ss ⊑ ss') (hg : gs ⊑ gs') (ht : ts ⊑ ts') (he : e ⊑ e') :
    UptoM (brie fs ss gs ts e) (brie fs' ss' gs' ts' e') := by
  unfold brie
  rw [List.Forall₂.length_eq hf, List.Forall₂.length_eq hg]
  refine .seq' (.seq' ?_)
  have hsum := sumCols_lacks hs
  split
  · refine .bind (wood_lacks hf hs) fun l l' hl => ?_
    split
    · refine .bind (wood_lacks hg ht) fun g g' hg => ?_
      refine fluidMaterial_lacks ?_ (mixDensities_lacks (.cons hl (.cons hg .nil))
        (.cons hsum (.cons (fun i => Num.lacks_sub (Num.lacks_refl _) (hsum i)) .nil)))
      obtain ⟨hl1, -⟩ := hl
      obtain ⟨hg1, -⟩ := hg
      lacksC
    · exact .ok hl
  · split
    · exact wood_lacks hg ht
    · exact .error_left

theorem gassmann_lacks {kd kd' km km' kf kf' phi phi' : Num} (h1 : kd ⊑ kd') (h2 : km ⊑ km') (h3 : kf ⊑ kf')
    (h4 : phi ⊑ phi') : UptoM (gassmann kd km kf phi) (gassmann kd' km' kf' phi') := by
  have tail : ∀ {kd kd' km km' kf kf' phi phi' : Num}, kd ⊑ kd' → km ⊑ km' → kf ⊑ kf' → phi ⊑ phi' →
      UptoM (do
        let a ← pyDiv kd (km - kd)
        let b ← pyDiv kf ((km - kf) * phi)
        let factor := a + b
        failIf (factor < Num.fin 0) .valueError
        let q ← pyDiv factor (Num.fin 1 + factor)
        .ok (q * km)) (do
        let a ← pyDiv kd' (km' - kd')
        let b ← pyDiv kf' ((km' - kf') * phi')
        let factor := a + b
        failIf (factor < Num.fin 0) .valueError
        let q ← pyDiv factor (Num.fin 1 + factor)
        .ok (q * km')) := fun h1 h2 h3 h4 =>
    .bind (pyDiv_lacks h1 (by lacks)) fun a a' ha => .bind (pyDiv_lacks h3 (by lacks)) fun b b' hb =>
      .seq' (.bind (pyDiv_lacks (by lacks) (by lacks)) fun q q' hq => .ok (by lacks))
  -- a missing number that reaches the equation makes the result missing
  have isNan : ∀ {kd km kf phi : Num}, (kd = .nan ∨ km = .nan ∨ phi = .nan) → ∀ r, (do
        let a ← pyDiv kd (km - kd)
        let b ← pyDiv kf ((km - kf) * phi)
        let factor := a + b
        failIf (factor < Num.fin 0) .valueError
        let q ← pyDiv factor (Num.fin 1 + factor)
        .ok (q * km) : Except Err Num) = .ok r → r = .nan := by
    intro kd km kf phi h r hr
    obtain ⟨a, ha, hr⟩ := bind_eq_ok.mp hr
    obtain ⟨b, hb, hr⟩ := bind_eq_ok.mp hr
    obtain ⟨⟨⟩, -, hr⟩ := bind_eq_ok.mp hr
    obtain ⟨q, hq, hr⟩ := bind_eq_ok.mp hr
    cases hr
    have hab : (a = .nan ∨ b = .nan) ∨ km = .nan := by
      rcases h with rfl | rfl | rfl
      · left; left
        rw [Num.sub_nan'] at ha; unfold pyDiv at ha; rw [if_neg (by simp)] at ha; cases ha; exact Num.nan_div' _
      · right; rfl
      · left; right
        rw [Num.mul_nan'] at hb; unfold pyDiv at hb; rw [if_neg (by simp)] at hb; cases hb; exact Num.div_nan' _
    rcases hab with hab | rfl
    · have : a + b = .nan := by
        rcases hab with rfl | rfl
        · exact Num.nan_add' _
        · exact Num.add_nan' _
      rw [this, Num.add_nan'] at hq
      unfold pyDiv at hq; rw [if_neg (by simp)] at hq; cases hq
      rw [Num.nan_div', Num.nan_mul']
    · exact Num.mul_nan' _
  unfold gassmann
  rcases h4 with rfl | rfl
  · rw [if_neg (Num.not_nan_eq _)]
    split
    · -- missing porosity, equal moduli: the mineral modulus
      rename_i hkk
      rcases h2 with rfl | rfl
      · exact absurd hkk (Num.not_eq_nan _)
      · rcases h1 with rfl | rfl
        · exact absurd hkk (Num.not_nan_eq _)
        · split
          · exact .ok (Num.lacks_refl _)
          · exact .ok (Num.lacks_refl _)
    · exact Upto.of_nan (isNan (.inr (.inr rfl)))
  · split
    · exact .ok h2
    · rcases h1 with rfl | rfl
      · rw [if_neg (Num.not_nan_eq _)]
        exact Upto.of_nan (isNan (.inl rfl))
      · rcases h2 with rfl | rfl
        · rw [if_neg (Num.not_eq_nan _)]
          exact Upto.of_nan (isNan (.inr (.inl rfl)))
        · split
          · exact .ok (Num.lacks_refl _)
          · exact tail (Num.lacks_refl _) (Num.lacks_refl _) h3 (Num.lacks_refl _)

theorem fluidSubstitution_lacks {d d' m m' f f' : Mat n} {p p' : Col n} (hd : d ⊑ d') (hm : m ⊑ m') (hf : f ⊑ f')
    (hp : p ⊑ p') : UptoM (fluidSubstitution d m f p) (fluidSubstitution d' m' f' p') := by
  unfold fluidSubstitution
  refine .bind (.vec fun i => gassmann_lacks (hd.1 i) (hm.1 i) (hf.1 i) (hp i)) fun k k' hk => ?_
  refine mkModuli_lacks hk hd.2.1 ?_
  obtain ⟨-, -, hd3, -⟩ := hd
  obtain ⟨-, -, hf3, -⟩ := hf
  lacksC

end OPE
