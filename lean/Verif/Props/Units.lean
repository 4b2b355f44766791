import Verif.Model.Pipeline
import Verif.Props.EndToEnd

/-!
# C130 (results do not depend on the units)

Expressing all moduli and pressures in another unit (factor `t > 0`) and all densities in another unit (factor `u > 0`)
changes the results by exactly these factors, for every input, nan, infinities and failing calls included.
-/

namespace OPE

open Classical

variable {n : ℕ}

/-- The same quantity in a unit that is `1/t` of the old one. -/
noncomputable def Num.sc (t : ℝ) : Num → Num
  | .fin x => .fin (t * x)
  | x => x

/-- A column of quantities in the new unit. -/
noncomputable def Col.sc (t : ℝ) (x : Col n) : Col n := fun i => (x i).sc t

/-- A material: moduli in new units (factor `t`), density in new units (factor `u`), velocities accordingly. -/
noncomputable def Mat.inUnits (t u : ℝ) (m : Mat n) : Mat n :=
  ⟨m.bulk.sc t, m.shear.sc t, m.density.sc u, m.vp.sc (Real.sqrt (t / u)), m.vs.sc (Real.sqrt (t / u))⟩

namespace Num

variable {t u : ℝ}

theorem mul_neg_iff_of_pos_left (ht : 0 < t) {a : ℝ} : t * a < 0 ↔ a < 0 := by
  rw [mul_neg_iff]; constructor
  · rintro (⟨-, h⟩ | ⟨h, -⟩)
    · exact h
    · linarith
  · exact fun h => .inl ⟨ht, h⟩

theorem infSigned_mul (ht : 0 < t) (a : ℝ) : infSigned (t * a) = infSigned a := by
  unfold infSigned
  simp only [mul_pos_iff_of_pos_left ht, mul_neg_iff_of_pos_left ht]

theorem infSigned_mul' (ht : 0 < t) (a : ℝ) : infSigned (a * t) = infSigned a := by
  rw [mul_comm, infSigned_mul ht]

theorem sc_infSigned (a : ℝ) : (infSigned a).sc t = infSigned a := by
  unfold infSigned; split
  · rfl
  · split <;> rfl

@[simp] theorem sc_fin (x : ℝ) : (fin x).sc t = fin (t * x) := rfl
@[simp] theorem sc_zero : (fin 0).sc t = fin 0 := by simp
@[simp] theorem sc_nan : nan.sc t = nan := rfl
@[simp] theorem sc_posInf : posInf.sc t = posInf := rfl
@[simp] theorem sc_negInf : negInf.sc t = negInf := rfl
theorem sc_one (a : Num) : a.sc 1 = a := by cases a <;> simp
theorem sc_sc (a : Num) : (a.sc u).sc t = a.sc (t * u) := by cases a <;> simp [mul_assoc]
theorem sc_neg (a : Num) : (-a).sc t = -(a.sc t) := by
  cases a
  · simp
  all_goals rfl

theorem sc_add (a b : Num) : a.sc t + b.sc t = (a + b).sc t := by
  cases a <;> cases b <;> first | rfl | (simp only [sc_fin, fin_add]; rw [mul_add])

theorem sub_def' (a b : Num) : a - b = a + -b := rfl

theorem sc_sub (a b : Num) : a.sc t - b.sc t = (a - b).sc t := by
  rw [sub_def', sub_def', ← sc_neg, sc_add]

theorem mul_fin_posInf (a : ℝ) : fin a * posInf = infSigned a := rfl
theorem mul_fin_negInf (a : ℝ) : fin a * negInf = infSigned (-a) := rfl
theorem mul_posInf_fin (a : ℝ) : posInf * fin a = infSigned a := rfl
theorem mul_negInf_fin (a : ℝ) : negInf * fin a = infSigned (-a) := rfl

theorem sc_mul (ht : 0 < t) (a b : Num) : a.sc t * b = (a * b).sc t := by
  cases a <;> cases b <;>
    first
    | rfl
    | (simp only [sc_fin, fin_mul]; rw [mul_assoc])
    | (simp only [sc_fin, sc_posInf, sc_negInf, mul_fin_posInf, mul_fin_negInf, mul_posInf_fin, mul_negInf_fin,
        sc_infSigned, infSigned_mul ht, ← mul_neg])

theorem mul_comm'' (a b : Num) : a * b = b * a := by
  cases a <;> cases b <;> first | rfl | (simp only [fin_mul]; rw [mul_comm])

theorem mul_sc (ht : 0 < t) (a b : Num) : a * b.sc t = (a * b).sc t := by
  rw [mul_comm'' a, sc_mul ht, mul_comm'' b]

theorem div_fin_fin (a b : ℝ) : fin a / fin b = if b = 0 then infSigned a else fin (a / b) := rfl

theorem sc_div (ht : 0 < t) (a b : Num) : a.sc t / b = (a / b).sc t := by
  cases a <;> cases b <;>
    first
    | rfl
    | (simp only [sc_fin, div_fin_fin]
       split
       · rw [infSigned_mul ht, sc_infSigned]
       · rw [sc_fin, mul_div_assoc])
    | (rename_i b
       show (if b < 0 then _ else _) = (if b < 0 then _ else _ : Num).sc t
       split <;> rfl)
    | (simp only [sc_fin]; show fin 0 = (fin 0).sc t; simp)

theorem div_sc (ht : 0 < t) (a b : Num) : a / b.sc t = (a / b).sc t⁻¹ := by
  cases a <;> cases b <;>
    first
    | rfl
    | (rename_i a b
       simp only [sc_fin, div_fin_fin, mul_eq_zero, ht.ne', false_or]
       split
       · rw [sc_infSigned]
       · rw [sc_fin]; congr 1; field_simp)
    | (rename_i b
       show (if t * b < 0 then _ else _) = (if b < 0 then _ else _ : Num).sc t⁻¹
       simp only [mul_neg_iff_of_pos_left ht]
       split <;> rfl)
    | (show fin 0 = (fin 0).sc t⁻¹; simp)

theorem sc_lt_sc (ht : 0 < t) (a b : Num) : a.sc t < b.sc t ↔ a < b := by
  cases a <;> cases b <;> first | exact Iff.rfl | exact mul_lt_mul_iff_right₀ ht

theorem sc_eq_sc (ht : 0 < t) (a b : Num) : Num.eq (a.sc t) (b.sc t) ↔ Num.eq a b := by
  cases a <;> cases b <;> first | exact Iff.rfl | exact mul_right_inj' ht.ne'

theorem sc_le_sc (ht : 0 < t) (a b : Num) : a.sc t ≤ b.sc t ↔ a ≤ b := or_congr (sc_lt_sc ht a b) (sc_eq_sc ht a b)

theorem sc_lt_zero (ht : 0 < t) (a : Num) : a.sc t < fin 0 ↔ a < fin 0 := by
  have := sc_lt_sc ht a (fin 0)
  rwa [sc_zero] at this

theorem sc_is_zero (ht : 0 < t) (a : Num) : a.sc t = fin 0 ↔ a = fin 0 := by
  cases a <;> simp [ht.ne']

theorem sc_minimum (ht : 0 < t) (a b : Num) : minimum (a.sc t) (b.sc t) = (minimum a b).sc t := by
  have h := sc_le_sc ht a b
  cases a <;> cases b <;> first
    | rfl
    | (show (if _ then _ else _) = Num.sc t (if _ then _ else _)
       rw [if_congr h rfl rfl]
       split <;> rfl)

theorem sc_maximum (ht : 0 < t) (a b : Num) : maximum (a.sc t) (b.sc t) = (maximum a b).sc t := by
  have h := sc_le_sc ht b a
  cases a <;> cases b <;> first
    | rfl
    | (show (if _ then _ else _) = Num.sc t (if _ then _ else _)
       rw [if_congr h rfl rfl]
       split <;> rfl)

theorem sc_inv (ht : 0 < t) (a : Num) : powi (a.sc t) (-1) = (powi a (-1)).sc t⁻¹ := by
  cases a with
  | fin x =>
    by_cases h : x = 0
    · subst h; simp [powi]
    · rw [sc_fin, fin_powi_neg_one (mul_ne_zero ht.ne' h), fin_powi_neg_one h, sc_fin, mul_inv]
  | posInf => simp [powi]
  | negInf => simp [powi]
  | nan => rfl

theorem sc_sqrt (ht : 0 < t) (a : Num) : sqrt (a.sc t) = (sqrt a).sc (Real.sqrt t) := by
  cases a with
  | fin x =>
    simp only [sc_fin, sqrt, mul_neg_iff_of_pos_left ht]
    split
    · rfl
    · rw [sc_fin, Real.sqrt_mul ht.le]
  | _ => rfl

end Num

section
variable {t u : ℝ}

/-- All sc lemmas for columns at a row. -/
theorem Col.sc_apply (x : Col n) (i : Fin n) : x.sc t i = (x i).sc t := rfl

theorem map_bind {α β α' β' : Type} {x : Except Err α} {x' : Except Err α'} {f : α → α'} {g : α → Except Err β}
    {g' : α' → Except Err β'} {k : β → β'} (hx : x' = x.map f) (hg : ∀ a, g' (f a) = (g a).map k) :
    (x' >>= g') = (x >>= g).map k := by
  subst hx
  cases x with
  | error e => rfl
  | ok a => exact hg a

theorem map_bind_id {α β β' : Type} {x x' : Except Err α} {g : α → Except Err β} {g' : α → Except Err β'} {k : β → β'}
    (hx : x' = x) (hg : ∀ a, g' a = (g a).map k) : (x' >>= g') = (x >>= g).map k := by
  subst hx
  cases x' with
  | error e => rfl
  | ok a => exact hg a

theorem vec_map {α β : Type} (f : Fin n → Except Err α) (g : α → β) :
    vec (fun i => (f i).map g) = (vec f).map fun r i => g (r i) := by
  induction n with
  | zero => simp only [vec]; congr 1; funext i; exact i.elim0
  | succ n ih =>
    simp only [vec]
    refine map_bind rfl fun a => ?_
    refine map_bind (ih _) fun xs => ?_
    show Except.ok _ = Except.ok _
    congr 1
    funext i
    refine Fin.cases ?_ ?_ i <;> intros <;> rfl

theorem failIf_congr {p q : Prop} {e : Err} (h : p ↔ q) : failIf p e = failIf q e := by rw [propext h]

theorem checkMaterial_units (ht : 0 < t) (hu : 0 < u) (m : Mat n) : checkMaterial (m.inUnits t u) = checkMaterial m := by
  have hv : 0 < Real.sqrt (t / u) := Real.sqrt_pos.mpr (by positivity)
  unfold checkMaterial Mat.inUnits
  simp only [Col.sc_apply, Num.sc_lt_zero ht, Num.sc_lt_zero hu, Num.sc_lt_zero hv, Num.mul_sc hv, Num.sc_lt_sc hv]

theorem mkModuli_units (ht : 0 < t) (hu : 0 < u) (k g d : Col n) :
    mkModuli (k.sc t) (g.sc t) (d.sc u) = (mkModuli k g d).map (Mat.inUnits t u) := by
  have e1 : calcVp (k.sc t) (g.sc t) (d.sc u) = (calcVp k g d).sc (Real.sqrt (t / u)) := by
    funext i
    simp only [calcVp, Col.sc_apply, Num.mul_sc ht, Num.sc_add, Num.sc_div ht, Num.div_sc hu, Num.sc_sc,
      ← div_eq_mul_inv]
    rw [Num.sc_sqrt (by positivity)]
  have e2 : calcVs (g.sc t) (d.sc u) = (calcVs g d).sc (Real.sqrt (t / u)) := by
    funext i
    simp only [calcVs, Col.sc_apply, Num.sc_div ht, Num.div_sc hu, Num.sc_sc, ← div_eq_mul_inv]
    rw [Num.sc_sqrt (by positivity)]
  unfold mkModuli mkMaterial setDefaults
  simp only [bind_ok, e1, e2]
  exact map_bind_id (checkMaterial_units ht hu ⟨k, g, d, calcVp k g d, calcVs g d⟩) fun _ => rfl

theorem rewrap_units (ht : 0 < t) (hu : 0 < u) (m : Mat n) : rewrap (m.inUnits t u) = (rewrap m).inUnits t u := by
  have e1 : calcVp (m.bulk.sc t) (m.shear.sc t) (m.density.sc u)
      = (calcVp m.bulk m.shear m.density).sc (Real.sqrt (t / u)) := by
    funext i
    simp only [calcVp, Col.sc_apply, Num.mul_sc ht, Num.sc_add, Num.sc_div ht, Num.div_sc hu, Num.sc_sc,
      ← div_eq_mul_inv]
    rw [Num.sc_sqrt (by positivity)]
  have e2 : calcVs (m.shear.sc t) (m.density.sc u) = (calcVs m.shear m.density).sc (Real.sqrt (t / u)) := by
    funext i
    simp only [calcVs, Col.sc_apply, Num.sc_div ht, Num.div_sc hu, Num.sc_sc, ← div_eq_mul_inv]
    rw [Num.sc_sqrt (by positivity)]
  unfold rewrap Mat.inUnits
  simp only [e1, e2]

theorem poisson_units (ht : 0 < t) (m : Mat n) : (m.inUnits t u).poisson = m.poisson := by
  funext i
  simp only [Mat.poisson, Mat.inUnits, Pi.div_apply, Pi.sub_apply, Pi.mul_apply, Pi.add_apply, Col.sc_apply,
    Num.mul_sc ht, Num.sc_sub, Num.sc_add, Num.sc_div ht, Num.div_sc ht, Num.sc_sc, mul_inv_cancel₀ ht.ne', Num.sc_one]

/-! ### Kernels -/

theorem pyInv_units (ht : 0 < t) (a : Num) : pyInv (a.sc t) = (pyInv a).map (Num.sc t⁻¹) := by
  unfold pyInv
  simp only [Num.sc_is_zero ht, Num.sc_inv ht]
  split <;> rfl

theorem pyDiv_units (ht : 0 < t) (a b : Num) : pyDiv a (b.sc t) = (pyDiv a b).map (Num.sc t⁻¹) := by
  unfold pyDiv
  simp only [Num.sc_is_zero ht, Num.div_sc ht]
  split <;> rfl

theorem pyDiv_units_left (ht : 0 < t) (a b : Num) : pyDiv (a.sc t) b = (pyDiv a b).map (Num.sc t) := by
  unfold pyDiv
  simp only [Num.sc_div ht]
  split <;> rfl

theorem hswDensity_units (hu : 0 < u) (r1 r2 f1 f2 : Num) :
    hswDensity (r1.sc u) (r2.sc u) f1 f2 = (hswDensity r1 r2 f1 f2).map (Num.sc u) := by
  unfold hswDensity
  simp only [Num.sc_eq_sc hu, Num.mul_sc hu, Num.sc_add]
  split <;> rfl

theorem hswBulk_units (ht : 0 < t) (k1 k2 mum f1 f2 : Num) :
    hswBulk (k1.sc t) (k2.sc t) (mum.sc t) f1 f2 = (hswBulk k1 k2 mum f1 f2).map (Num.sc t) := by
  have ht' : 0 < t⁻¹ := inv_pos.mpr ht
  unfold hswBulk
  simp only [Num.sc_eq_sc ht]
  split
  · rfl
  · rw [Num.sc_sub, Num.mul_sc ht, Num.sc_add]
    refine map_bind (pyInv_units ht _) fun a => map_bind (pyInv_units ht _) fun b => ?_
    rw [Num.mul_sc ht', Num.sc_add]
    refine map_bind (pyDiv_units ht' _ _) fun q => ?_
    rw [inv_inv, Num.sc_add]
    rfl

theorem hswShear_units (ht : 0 < t) (g1 g2 km mum f1 f2 : Num) :
    hswShear (g1.sc t) (g2.sc t) (km.sc t) (mum.sc t) f1 f2 = (hswShear g1 g2 km mum f1 f2).map (Num.sc t) := by
  have ht' : 0 < t⁻¹ := inv_pos.mpr ht
  unfold hswShear
  simp only [Num.sc_eq_sc ht]
  split
  · rfl
  · rw [Num.sc_sub]
    refine map_bind (pyInv_units ht _) fun a => ?_
    have hz : pyDiv (mum.sc t / Num.fin 6 * (Num.fin 9 * km.sc t + Num.fin 8 * mum.sc t)) (km.sc t + Num.fin 2 * mum.sc t)
        = (pyDiv (mum / Num.fin 6 * (Num.fin 9 * km + Num.fin 8 * mum)) (km + Num.fin 2 * mum)).map (Num.sc t) := by
      rw [Num.sc_div ht, Num.mul_sc ht, Num.mul_sc ht, Num.sc_add, Num.mul_sc ht, Num.sc_mul ht, Num.mul_sc ht,
        Num.sc_add, pyDiv_units_left ht, pyDiv_units_left ht, pyDiv_units ht]
      unfold pyDiv
      split
      · rfl
      · show Except.ok _ = Except.ok _
        rw [Num.sc_sc, Num.sc_sc, mul_assoc, mul_inv_cancel₀ ht.ne', mul_one]
    refine map_bind hz fun z => ?_
    rw [Num.sc_add]
    refine map_bind (pyInv_units ht _) fun b => ?_
    rw [Num.mul_sc ht', Num.sc_add]
    refine map_bind (pyDiv_units ht' _ _) fun q => ?_
    rw [inv_inv, Num.sc_add]
    rfl

/-- **C130, mixing of two materials.** -/
theorem C130_mix_of_two (ht : 0 < t) (hu : 0 < u) (m1 m2 : Mat n) (ratio : Col n) (bound : String) :
    hsw (m1.inUnits t u) (m2.inUnits t u) ratio bound = (hsw m1 m2 ratio bound).map (Mat.inUnits t u) := by
  unfold hsw
  refine map_bind_id rfl fun _ => map_bind_id rfl fun _ => ?_
  dsimp only
  have hp : ∀ a b : Num, (if bound = "lower" then Num.minimum (a.sc t) (b.sc t) else Num.maximum (a.sc t) (b.sc t))
      = (if bound = "lower" then Num.minimum a b else Num.maximum a b).sc t := by
    intro a b; split
    · exact Num.sc_minimum ht a b
    · exact Num.sc_maximum ht a b
  have e1 : (m1.inUnits t u).bulk = m1.bulk.sc t := rfl
  have e2 : (m2.inUnits t u).bulk = m2.bulk.sc t := rfl
  have e3 : (m1.inUnits t u).shear = m1.shear.sc t := rfl
  have e4 : (m2.inUnits t u).shear = m2.shear.sc t := rfl
  have e5 : (m1.inUnits t u).density = m1.density.sc u := rfl
  have e6 : (m2.inUnits t u).density = m2.density.sc u := rfl
  simp only [e1, e2, e3, e4, e5, e6, Col.sc_apply, hp, hswDensity_units hu, hswBulk_units ht, hswShear_units ht]
  refine map_bind (vec_map _ _) fun d => map_bind (vec_map _ _) fun k => map_bind (vec_map _ _) fun g => ?_
  exact mkModuli_units ht hu k g d

/-! ### Sandstone -/

/-- **C130, Hertz–Mindlin.** -/
theorem C130_hertz_mindlin (ht : 0 < t) (hu : 0 < u) (m : Mat n) (φ p sr N : Col n) :
    hertzMindlin (m.inUnits t u) φ (p.sc t) sr N = (hertzMindlin m φ p sr N).map (Mat.inUnits t u) := by
  unfold hertzMindlin
  dsimp only
  rw [← mkModuli_units ht hu, poisson_units ht]
  have e3 : (m.inUnits t u).shear = m.shear.sc t := rfl
  have e5 : (m.inUnits t u).density = m.density.sc u := rfl
  rw [e3, e5]
  congr 1 <;> funext i <;>
    simp only [Col.pow, Pi.div_apply, Pi.sub_apply, Pi.mul_apply, Pi.add_apply, Col.sc_apply,
      Num.mul_sc ht, Num.sc_mul ht, Num.sc_mul hu, Num.sc_sub, Num.sc_add, Num.sc_div ht, Num.div_sc ht, Num.sc_sc,
      mul_inv_cancel₀ ht.ne', inv_mul_cancel₀ ht.ne', Num.sc_one]

/-- **C130, friable sand.** -/
theorem C130_friable_sand (ht : 0 < t) (hu : 0 < u) (m : Mat n) (φ φc p N sr : Col n) :
    friableSand (m.inUnits t u) φ φc (p.sc t) N sr = (friableSand m φ φc p N sr).map (Mat.inUnits t u) := by
  unfold friableSand
  exact map_bind (C130_hertz_mindlin ht hu m _ _ _ _) fun crit => C130_mix_of_two ht hu _ _ _ _

theorem shearStiffness_units (ht : 0 < t) (a b p al : Col n) :
    shearStiffness (a.sc t) (b.sc t) p al = shearStiffness a b p al := by
  have : (a.sc t / (c Real.pi * b.sc t) : Col n) = a / (c Real.pi * b) := by
    funext i
    simp only [Pi.div_apply, Pi.mul_apply, Col.sc_apply, Num.mul_sc ht, Num.sc_div ht, Num.div_sc ht, Num.sc_sc,
      mul_inv_cancel₀ ht.ne', inv_mul_cancel₀ ht.ne', Num.sc_one]
  unfold shearStiffness
  rw [this]

theorem normalStiffness_units (ht : 0 < t) (p pc a b al : Col n) :
    normalStiffness p pc (a.sc t) (b.sc t) al = normalStiffness p pc a b al := by
  have : (c 2 * a.sc t / (c Real.pi * b.sc t) : Col n) = c 2 * a / (c Real.pi * b) := by
    funext i
    simp only [Pi.div_apply, Pi.mul_apply, Col.sc_apply, Num.mul_sc ht, Num.sc_div ht, Num.div_sc ht, Num.sc_sc,
      mul_inv_cancel₀ ht.ne', inv_mul_cancel₀ ht.ne', Num.sc_one]
  unfold normalStiffness
  rw [this]

/-- **C130, contact cement.** -/
theorem C130_contact_cement (ht : 0 < t) (hu : 0 < u) (ce m : Mat n) (φc φs sr N : Col n) :
    contactCement (ce.inUnits t u) (m.inUnits t u) φc φs sr N = (contactCement ce m φc φs sr N).map (Mat.inUnits t u) := by
  unfold contactCement
  refine map_bind_id rfl fun _ => map_bind_id rfl fun al => ?_
  dsimp only
  rw [← mkModuli_units ht hu, poisson_units ht, poisson_units ht]
  have e1 : (ce.inUnits t u).shear = ce.shear.sc t := rfl
  have e2 : (m.inUnits t u).shear = m.shear.sc t := rfl
  have e3 : (ce.inUnits t u).density = ce.density.sc u := rfl
  have e4 : (m.inUnits t u).density = m.density.sc u := rfl
  have e5 : (ce.inUnits t u).pModulus = ce.pModulus.sc t := by
    funext i
    simp only [Mat.pModulus, Mat.inUnits, Pi.mul_apply, Pi.add_apply, Col.sc_apply, Num.mul_sc ht, Num.sc_add]
  rw [e1, e2, e3, e4, e5, shearStiffness_units ht, normalStiffness_units ht]
  congr 1 <;> funext i <;>
    simp only [Pi.div_apply, Pi.sub_apply, Pi.mul_apply, Pi.add_apply, Col.sc_apply,
      Num.mul_sc ht, Num.sc_mul ht, Num.mul_sc hu, Num.sc_mul hu, Num.sc_add]

/-- **C130, constant cement.** -/
theorem C130_constant_cement (ht : 0 < t) (hu : 0 < u) (sa ce : Mat n) (φ φc φs N sr : Col n) :
    constantCement (sa.inUnits t u) (ce.inUnits t u) φ φc φs N sr
      = (constantCement sa ce φ φc φs N sr).map (Mat.inUnits t u) := by
  unfold constantCement
  exact map_bind (C130_mix_of_two ht hu _ _ _ _) fun d => map_bind (C130_contact_cement ht hu _ _ _ _ _ _) fun cc =>
    C130_mix_of_two ht hu _ _ _ _

theorem patchyWeight_units (ht : 0 < t) (a b d : Col n) :
    patchyWeight (a.sc t) (b.sc t) (d.sc t) = patchyWeight a b d := by
  funext i
  simp only [patchyWeight, Col.sc_apply, Num.sc_eq_sc ht, Num.sc_sub, Num.sc_div ht, Num.div_sc ht, Num.sc_sc,
    mul_inv_cancel₀ ht.ne', Num.sc_one]

/-- **C130, patchy cement.** -/
theorem C130_patchy_cement (ht : 0 < t) (hu : 0 < u) (sa ce : Mat n) (φ φc φu p pl φk sr N1 N2 : Col n) :
    patchyCement (sa.inUnits t u) (ce.inUnits t u) φ φc φu (p.sc t) (pl.sc t) φk sr N1 N2
      = (patchyCement sa ce φ φc φu p pl φk sr N1 N2).map (Mat.inUnits t u) := by
  unfold patchyCement
  refine map_bind (C130_mix_of_two ht hu _ _ _ _) fun dense => map_bind (C130_friable_sand ht hu _ _ _ _ _ _) fun fr =>
    map_bind (C130_friable_sand ht hu _ _ _ _ _ _) fun lo => map_bind (C130_constant_cement ht hu _ _ _ _ _ _ _) fun up =>
    map_bind (C130_contact_cement ht hu _ _ _ _ _ _) fun con => map_bind (C130_mix_of_two ht hu _ _ _ _) fun cst => ?_
  dsimp only
  rw [← mkModuli_units ht hu]
  have b : ∀ m : Mat n, (m.inUnits t u).bulk = m.bulk.sc t := fun _ => rfl
  have g : ∀ m : Mat n, (m.inUnits t u).shear = m.shear.sc t := fun _ => rfl
  have d : ∀ m : Mat n, (m.inUnits t u).density = m.density.sc u := fun _ => rfl
  simp only [b, g, d, patchyWeight_units ht]
  congr 1 <;> funext i <;>
    simp only [Pi.sub_apply, Pi.mul_apply, Pi.add_apply, Col.sc_apply,
      Num.mul_sc ht, Num.mul_sc hu, Num.sc_add, Num.sc_sub]

/-! ### Minerals -/

theorem mixLoop_units (ht : 0 < t) (hu : 0 < u) (m : Mat n) (f : Col n) (l : List (Mat n × Col n)) :
    mixLoop (m.inUnits t u) f (l.map fun x => (x.1.inUnits t u, x.2)) = (mixLoop m f l).map (Mat.inUnits t u) := by
  induction l generalizing m f with
  | nil => rfl
  | cons x l ih =>
    simp only [List.map_cons, mixLoop]
    refine map_bind (C130_mix_of_two ht hu _ _ _ _) fun m' => map_bind_id rfl fun _ => ?_
    rw [rewrap_units ht hu]
    exact ih _ _

/-- **C130, mixture of minerals.** -/
theorem C130_minerals (ht : 0 < t) (hu : 0 < u) (l : List (Mat n × Col n)) :
    mineralMixture (l.map fun x => (x.1.inUnits t u, x.2)) = (mineralMixture l).map (Mat.inUnits t u) := by
  cases l with
  | nil => rfl
  | cons x l => exact mixLoop_units ht hu _ _ _

/-! ### Fluids -/

theorem sumCols_units (l : List (Col n)) : sumCols (l.map (Col.sc t)) = (sumCols l).sc t := by
  have : ∀ (l : List (Col n)) (a : Col n), (l.map (Col.sc t)).foldl (· + ·) (a.sc t) = (l.foldl (· + ·) a).sc t := by
    intro l
    induction l with
    | nil => intro a; rfl
    | cons x l ih =>
      intro a
      simp only [List.map_cons, List.foldl_cons]
      rw [← ih]
      congr 1
      funext i
      simp only [Pi.add_apply, Col.sc_apply, Num.sc_add]
  unfold sumCols
  rw [← this l (c 0)]
  congr 1
  funext i
  simp [Col.sc_apply]

theorem fluidMaterial_units (ht : 0 < t) (hu : 0 < u) (k d : Col n) :
    fluidMaterial (k.sc t) (d.sc u) = (fluidMaterial k d).map (Mat.inUnits t u) := by
  have : (c 0 : Col n).sc t = c 0 := by funext i; simp [Col.sc_apply]
  have h := mkModuli_units ht hu k (c 0) d
  rw [this] at h
  exact h

theorem mixDensities_units (hu : 0 < u) (fl : List (Mat n)) (s : List (Col n)) :
    mixDensities (fl.map (Mat.inUnits t u)) s = (mixDensities fl s).sc u := by
  unfold mixDensities
  rw [← sumCols_units, List.zip_map_left, List.map_map, List.map_map]
  congr 1
  apply List.map_congr_left
  intro x _
  funext i
  exact Num.sc_mul hu _ _

/-- **C130, Wood's law.** -/
theorem C130_wood (ht : 0 < t) (hu : 0 < u) (fl : List (Mat n)) (s : List (Col n)) :
    wood (fl.map (Mat.inUnits t u)) s = (wood fl s).map (Mat.inUnits t u) := by
  have ht' : 0 < t⁻¹ := inv_pos.mpr ht
  have hb : ∀ s, mixBulkModuli (fl.map (Mat.inUnits t u)) s = (mixBulkModuli fl s).map (Col.sc t) := by
    intro s
    unfold mixBulkModuli
    rw [List.zip_map_right, List.isEmpty_map]
    split
    · rfl
    · show Except.ok _ = Except.ok _
      congr 1
      have : sumCols (((s.zip fl).map (Prod.map id (Mat.inUnits t u))).map fun p => p.1 / p.2.bulk)
          = (sumCols ((s.zip fl).map fun p => p.1 / p.2.bulk)).sc t⁻¹ := by
        rw [← sumCols_units, List.map_map, List.map_map]
        congr 1
        apply List.map_congr_left
        intro x _
        funext i
        exact Num.div_sc ht _ _
      rw [this]
      funext i
      simp only [Pi.div_apply, Col.sc_apply, Num.div_sc ht', inv_inv]
  unfold wood
  refine map_bind (hb _) fun b => ?_
  rw [mixDensities_units hu]
  exact fluidMaterial_units ht hu b _

/-- **C130, Brie's law.** -/
theorem C130_brie (ht : 0 < t) (hu : 0 < u) (fl : List (Mat n)) (s : List (Col n)) (ga : List (Mat n))
    (gs : List (Col n)) (e : Col n) :
    brie (fl.map (Mat.inUnits t u)) s (ga.map (Mat.inUnits t u)) gs e = (brie fl s ga gs e).map (Mat.inUnits t u) := by
  unfold brie
  simp only [List.length_map]
  refine map_bind_id rfl fun _ => map_bind_id rfl fun _ => ?_
  split
  · refine map_bind (C130_wood ht hu _ _) fun l => ?_
    split
    · refine map_bind (C130_wood ht hu _ _) fun g => ?_
      have := mixDensities_units (t := t) hu [l, g] [sumCols s, c 1 - sumCols s]
      simp only [List.map_cons, List.map_nil] at this
      rw [this, ← fluidMaterial_units ht hu]
      congr 1
      funext i
      simp only [Mat.inUnits, Pi.sub_apply, Pi.mul_apply, Pi.add_apply, Col.sc_apply, Num.sc_sub, Num.sc_mul ht, Num.sc_add]
    · rfl
  · split
    · exact C130_wood ht hu _ _
    · rfl

theorem gassmann_units (ht : 0 < t) (kd km kf phi : Num) :
    gassmann (kd.sc t) (km.sc t) (kf.sc t) phi = (gassmann kd km kf phi).map (Num.sc t) := by
  unfold gassmann
  simp only [Num.sc_eq_sc ht]
  split
  · rfl
  · split
    · rfl
    · have a1 : ∀ a b : Num, pyDiv (a.sc t) (b.sc t) = pyDiv a b := by
        intro a b
        rw [pyDiv_units_left ht, pyDiv_units ht]
        unfold pyDiv
        split
        · rfl
        · show Except.ok _ = Except.ok _
          rw [Num.sc_sc, mul_inv_cancel₀ ht.ne', Num.sc_one]
      rw [Num.sc_sub, Num.sc_sub, Num.sc_mul ht, a1, a1]
      refine map_bind_id rfl fun a => map_bind_id rfl fun b => map_bind_id rfl fun _ => map_bind_id rfl fun q => ?_
      rw [Num.mul_sc ht]
      rfl

/-- **C130, fluid substitution.** -/
theorem C130_fluid_substitution (ht : 0 < t) (hu : 0 < u) (dry mineral fluid : Mat n) (φ : Col n) :
    fluidSubstitution (dry.inUnits t u) (mineral.inUnits t u) (fluid.inUnits t u) φ
      = (fluidSubstitution dry mineral fluid φ).map (Mat.inUnits t u) := by
  unfold fluidSubstitution
  have e1 : ∀ m : Mat n, ∀ i, (m.inUnits t u).bulk i = (m.bulk i).sc t := fun _ _ => rfl
  simp only [e1, gassmann_units ht]
  refine map_bind (vec_map _ _) fun k => ?_
  rw [← mkModuli_units ht hu]
  congr 1
  funext i
  simp only [Mat.inUnits, Pi.mul_apply, Pi.add_apply, Col.sc_apply, Num.mul_sc hu, Num.sc_add]

/-! ### The calculation -/

/-- A mineral in the new units. -/
noncomputable def MineralIn.inUnits (t u : ℝ) (x : MineralIn n) : MineralIn n := ⟨x.mat.inUnits t u, x.fraction⟩

/-- A fluid in the new units: only an explicit material carries moduli and density. -/
noncomputable def FluidKind.inUnits (t u : ℝ) : FluidKind n → FluidKind n
  | .material m => .material (m.inUnits t u)
  | k => k

/-- A fluid constituent in the new units. -/
noncomputable def FluidSpec.inUnits (t u : ℝ) (x : FluidSpec n) : FluidSpec n :=
  ⟨x.kind.inUnits t u, x.model, x.fraction⟩

/-- A sandstone model in the new units. -/
noncomputable def SandModel.inUnits (t u : ℝ) : SandModel n → SandModel n
  | .patchy f => .patchy { f with cement := f.cement.inUnits t u, lowerBoundPressure := f.lowerBoundPressure.sc t }
  | m => m

/-- The whole configuration in the new units. -/
noncomputable def Sections.inUnits (t u : ℝ) (s : Sections n) : Sections n :=
  { s with
    minerals := s.minerals.map (MineralIn.inUnits t u)
    fluids := s.fluids.map (FluidSpec.inUnits t u)
    sandModel := s.sandModel.inUnits t u
    overburden := s.overburden.sc t
    reference := s.reference.sc t
    fluidPressure := s.fluidPressure.map (Col.sc t)
    maxEffective := s.maxEffective.map (Col.sc t)
    rockPressure := s.rockPressure.map (Col.sc t) }

/-- The result table in the new units. -/
noncomputable def Result.inUnits (t u : ℝ) (r : Result n) : Result n :=
  ⟨r.ksat.sc t, r.kmin.sc t, r.kdry.sc t, r.mysat.sc t, r.rsat.sc u, r.kminFls.sc t⟩

theorem forM_map_eq {α β : Type} (l : List α) (g : α → β) (f : β → Except Err Unit) (f' : α → Except Err Unit)
    (h : ∀ x, f (g x) = f' x) : (l.map g).forM f = l.forM f' := by
  induction l with
  | nil => rfl
  | cons x l ih =>
    show (f (g x) >>= fun _ => (l.map g).forM f) = (f' x >>= fun _ => l.forM f')
    rw [h x]
    cases f' x with
    | error e => rfl
    | ok _ => exact ih

theorem mkMinerals_units (cs : List (MineralIn n)) :
    mkMinerals (cs.map (MineralIn.inUnits t u))
      = (mkMinerals cs).map fun l => l.map fun x => (x.1.inUnits t u, x.2) := by
  unfold mkMinerals
  refine map_bind_id (forM_map_eq _ _ _ _ fun x => rfl) fun _ => ?_
  rw [List.length_map]
  refine map_bind_id rfl fun _ => ?_
  rw [List.map_map]
  refine map_bind_id rfl fun fs => ?_
  refine map_bind_id rfl fun _ => ?_
  show Except.ok _ = Except.ok _
  rw [List.map_map]
  congr 1
  have : (cs.map ((fun x => x.mat) ∘ MineralIn.inUnits t u)) = (cs.map fun x => x.mat).map (Mat.inUnits t u) := by
    rw [List.map_map]; rfl
  rw [this, List.zip_map_left]
  rfl

/-- An accepted fluid constituent in the new units. -/
noncomputable def FluidConst.inUnits (t u : ℝ) (x : FluidConst n) : FluidConst n :=
  ⟨x.kind.inUnits t u, x.model, x.fraction⟩

/-- An accepted fluids section in the new units. -/
noncomputable def Fluids.inUnits (t u : ℝ) (f : Fluids n) : Fluids n :=
  { f with constituents := f.constituents.map (FluidConst.inUnits t u) }

theorem type_units (k : FluidKind n) : (k.inUnits t u).type = k.type := by cases k <;> rfl

theorem zipIdx_filter_map {α β : Type} (g : α → β) (l : List α) (p : β × ℕ → Bool) (k : ℕ) :
    (((l.map g).zipIdx k).filter p).map (fun x => (x.2 : ℤ))
      = ((l.zipIdx k).filter fun x => p (g x.1, x.2)).map fun x => (x.2 : ℤ) := by
  induction l generalizing k with
  | nil => rfl
  | cons x l ih =>
    simp only [List.map_cons, List.zipIdx_cons, List.filter_cons]
    split <;> simp [ih]

theorem mkFluids_units (T : Col n) (cs : List (FluidSpec n)) (m : MixMethod) (b : Num) (g : Option (List ℤ))
    (pr : Provider) :
    mkFluids T (cs.map (FluidSpec.inUnits t u)) m b g pr = (mkFluids T cs m b g pr).map (Fluids.inUnits t u) := by
  unfold mkFluids
  refine map_bind_id (forM_map_eq _ _ _ _ fun x => rfl) fun _ => ?_
  rw [List.length_map, List.map_map]
  refine map_bind_id rfl fun _ => map_bind_id rfl fun _ => map_bind_id rfl fun fs => ?_
  show Except.ok _ = Except.ok _
  have hd : defaultBrieGases (cs.map (FluidSpec.inUnits t u)) = defaultBrieGases cs := by
    unfold defaultBrieGases
    rw [zipIdx_filter_map]
    congr 1
    apply List.filter_congr
    intro x _
    show decide ((x.1.kind.inUnits t u).type = _ ∨ (x.1.kind.inUnits t u).type = _) = _
    rw [type_units]
  rw [hd]
  unfold Fluids.inUnits
  simp only [List.zipWith_map_left, List.map_zipWith]
  rfl

/-- Every fluid is given as a material. -/
def OnlyMaterials (l : List (FluidKind n)) : Prop := ∀ k ∈ l, ∃ m, k = .material m

theorem materialsOf_units (co2 : CO2Model n) (pr : Provider) (T : Col n) (l : List (FluidConst n)) (p : Col n)
    (h : OnlyMaterials (l.map (·.kind))) :
    ∃ ms, materialsOf co2 pr T l p = (.ok ms, p) ∧ ∀ q,
      materialsOf co2 pr T (l.map (FluidConst.inUnits t u)) q = (.ok (ms.map (Mat.inUnits t u)), q) := by
  induction l with
  | nil => exact ⟨[], rfl, fun q => rfl⟩
  | cons x l ih =>
    obtain ⟨ms, h1, h2⟩ := ih fun k hk => h k (List.mem_cons_of_mem _ hk)
    obtain ⟨m, hm⟩ := h x.kind List.mem_cons_self
    refine ⟨m :: ms, ?_, fun q => ?_⟩
    · simp only [materialsOf, FluidConst.asMaterial, hm, FluidKind.asMaterial, h1]
    · simp only [List.map_cons, materialsOf, FluidConst.asMaterial, FluidConst.inUnits, hm, FluidKind.inUnits,
        FluidKind.asMaterial]
      rw [h2 q]

theorem pyPop_mapE {α β : Type} (g : α → β) (l : List α) (i : ℤ) :
    pyPop (l.map g) i = (pyPop l i).map fun x => (g x.1, x.2.map g) := by
  unfold pyPop
  simp only [List.length_map]
  generalize (if i < 0 then i + (l.length : ℤ) else i) = j
  split
  · rfl
  · rw [List.getElem?_map]
    cases l[j.toNat]? with
    | none => rfl
    | some x =>
      show Except.ok _ = Except.ok _
      simp [List.eraseIdx_map]

theorem popAll_mapE {α β : Type} (g : α → β) (is : List ℤ) (l : List α) :
    popAll is (l.map g) = (popAll is l).map fun x => (x.1.map g, x.2.map g) := by
  induction is generalizing l with
  | nil => rfl
  | cons i is ih =>
    simp only [popAll]
    exact map_bind (pyPop_mapE g l i) fun a => map_bind (ih a.2) fun b => rfl

theorem mix_units (ht : 0 < t) (hu : 0 < u) (f : Fluids n) (ms : List (Mat n)) :
    (f.inUnits t u).mix (ms.map (Mat.inUnits t u)) = (f.mix ms).map (Mat.inUnits t u) := by
  unfold Fluids.mix
  have : (f.inUnits t u).constituents.map (·.fraction) = f.constituents.map (·.fraction) := by
    unfold Fluids.inUnits; rw [List.map_map]; rfl
  simp only [this]
  change (match f.method with | .wood => _ | .brie => _) = _
  cases f.method with
  | wood => exact C130_wood ht hu _ _
  | brie =>
    dsimp only
    refine map_bind (popAll_mapE (Mat.inUnits t u) _ _) fun a => ?_
    obtain ⟨a1, a2⟩ := a
    refine map_bind_id rfl fun b => ?_
    exact C130_brie ht hu _ _ _ _ _

theorem mixFluids_units (ht : 0 < t) (hu : 0 < u) (co2 : CO2Model n) (f : Fluids n)
    (h : OnlyMaterials (f.constituents.map (·.kind))) (p p' : Pressure n) (hp : p'.fluid = p.fluid.map (Col.sc t)) :
    mixFluids co2 (f.inUnits t u) p' = ((mixFluids co2 f p).map fun x => (x.1.inUnits t u, p')) := by
  unfold mixFluids
  cases hf : p.fluid with
  | none => rw [hp, hf]; rfl
  | some q =>
    rw [hp, hf]
    obtain ⟨ms, h1, h2⟩ := materialsOf_units (t := t) (u := u) co2 f.model f.temperature f.constituents q h
    have e1 : f.asMixture co2 q = (f.mix ms, q) := by unfold Fluids.asMixture; rw [h1]
    have e2 : (f.inUnits t u).asMixture co2 (q.sc t) = ((f.mix ms).map (Mat.inUnits t u), q.sc t) := by
      have := h2 (q.sc t)
      have h3 : materialsOf co2 (f.inUnits t u).model (f.inUnits t u).temperature (f.inUnits t u).constituents (q.sc t)
        = (.ok (ms.map (Mat.inUnits t u)), q.sc t) := this
      unfold Fluids.asMixture
      rw [h3]
      exact congrArg (·, q.sc t) (mix_units ht hu f ms)
    simp only [needCol, Option.map_some, bind_ok, e1, e2]
    cases f.mix ms with
    | error e => rfl
    | ok m =>
      show Except.ok _ = Except.ok _
      congr 1
      show (m.inUnits t u, { p' with fluid := some (q.sc t) }) = _
      rw [← show p'.fluid = some (q.sc t) by rw [hp, hf]; rfl]

theorem truncatedRock_units (ht : 0 < t) (p p' : Pressure n) (h1 : p'.overburden = p.overburden.sc t)
    (h2 : p'.rock = p.rock.map (Col.sc t)) (h3 : p'.maxEffective = p.maxEffective.map (Col.sc t)) :
    p'.truncatedRock = p.truncatedRock.map (Col.sc t) := by
  unfold Pressure.truncatedRock Pressure.effectiveRock
  rw [h1, h2, h3]
  cases p.rock with
  | none => rfl
  | some r =>
    show Except.ok _ = Except.ok _
    congr 1
    have e : (p.overburden.sc t - r.sc t : Col n) = (p.overburden - r).sc t := by
      funext i; exact Num.sc_sub _ _
    cases p.maxEffective with
    | none => exact e
    | some hi =>
      funext i
      show Num.minimum ((p.overburden.sc t - r.sc t : Col n) i) ((hi i).sc t) = _
      rw [e]
      exact Num.sc_minimum ht _ _

/-- Not a polynomial fit (whose coefficients carry units). -/
def SandModel.IsPhysical : SandModel n → Prop
  | .polyfit _ _ => False
  | _ => True

theorem evalMaterial_units (ht : 0 < t) (hu : 0 < u) (m : SandModel n) (h : m.IsPhysical) (p φ : Col n) (mi : Mat n) :
    (m.inUnits t u).evalMaterial (p.sc t) φ (mi.inUnits t u) = (m.evalMaterial p φ mi).map (Mat.inUnits t u) := by
  cases m with
  | polyfit _ _ => exact absurd h id
  | friable f => exact C130_friable_sand ht hu _ _ _ _ _ _
  | patchy f => exact C130_patchy_cement ht hu _ _ _ _ _ _ _ _ _ _ _

theorem nonporous_units (ht : 0 < t) (hu : 0 < u) (m : SandModel n) (mi : Mat n) :
    (m.inUnits t u).nonporous (mi.inUnits t u) = (m.nonporous mi).map (Mat.inUnits t u) := by
  cases m with
  | polyfit _ _ => rfl
  | friable f => rfl
  | patchy f => exact C130_mix_of_two ht hu _ _ _ _

theorem mkDryRock_units (m : SandModel n) (φ : Col n) (as : List (Adjustment n)) :
    mkDryRock (m.inUnits t u) φ as
      = (mkDryRock m φ as).map fun d => { d with model := d.model.inUnits t u } := by
  cases m with
  | polyfit _ _ => rfl
  | friable f =>
    unfold mkDryRock
    exact map_bind_id rfl fun _ => rfl
  | patchy f =>
    unfold mkDryRock
    exact map_bind_id rfl fun _ => map_bind_id rfl fun _ => rfl

theorem fillDefaults_physical {m : SandModel n} (h : m.IsPhysical) : m.fillDefaults = m := by
  cases m with
  | polyfit _ _ => exact absurd h id
  | _ => rfl

/-- Pressures in the new units. -/
noncomputable def Pressure.inUnits (t : ℝ) (p : Pressure n) : Pressure n :=
  ⟨p.overburden.sc t, p.reference.sc t, p.fluid.map (Col.sc t), p.maxEffective.map (Col.sc t), p.rock.map (Col.sc t)⟩

/-- The accepted sections in the new units. -/
noncomputable def Input.inUnits (t u : ℝ) (x : Input n) : Input n :=
  ⟨x.minerals.map fun m => (m.1.inUnits t u, m.2), x.fluids.inUnits t u,
    { x.dryRock with model := x.dryRock.model.inUnits t u }, x.pressure.inUnits t⟩

theorem mkPressure_units (a b : Col n) (f m r : Option (Col n)) :
    mkPressure (a.sc t) (b.sc t) (f.map (Col.sc t)) (m.map (Col.sc t)) (r.map (Col.sc t))
      = (mkPressure a b f m r).map (Pressure.inUnits t) := by
  show Except.ok _ = Except.ok _
  congr 1
  cases f <;> cases r <;> rfl

theorem mkInput_units (s : Sections n) : mkInput (s.inUnits t u) = (mkInput s).map (Input.inUnits t u) := by
  unfold mkInput
  exact map_bind (mkMinerals_units s.minerals) fun ms => map_bind (mkFluids_units _ _ _ _ _ _) fun fl =>
    map_bind (mkDryRock_units _ _ _) fun d => map_bind (mkPressure_units _ _ _ _ _) fun p => rfl

theorem mkInput_facts {s : Sections n} {inp : Input n} (h : mkInput s = .ok inp)
    (hf : OnlyMaterials (s.fluids.map (·.kind))) (hm : s.sandModel.IsPhysical) :
    OnlyMaterials (inp.fluids.constituents.map (·.kind)) ∧ inp.dryRock.model.IsPhysical ∧
      inp.dryRock.adjustments = s.adjustments := by
  unfold mkInput at h
  obtain ⟨ms, -, h⟩ := bind_eq_ok.mp h
  obtain ⟨fl, h2, h⟩ := bind_eq_ok.mp h
  obtain ⟨d, h3, h⟩ := bind_eq_ok.mp h
  obtain ⟨p, -, h⟩ := bind_eq_ok.mp h
  injection h with h
  subst h
  refine ⟨?_, ?_⟩
  · unfold mkFluids at h2
    obtain ⟨_, -, h2⟩ := bind_eq_ok.mp h2
    obtain ⟨_, -, h2⟩ := bind_eq_ok.mp h2
    obtain ⟨_, -, h2⟩ := bind_eq_ok.mp h2
    obtain ⟨fs, -, h2⟩ := bind_eq_ok.mp h2
    injection h2 with h2
    subst h2
    intro k hk
    simp only [List.map_zipWith] at hk
    apply hf
    clear hf hm h3
    generalize givenFractions fs = gs at hk
    generalize s.fluids = L at hk
    induction L generalizing gs with
    | nil => simp at hk
    | cons x L ih =>
      cases gs with
      | nil => simp at hk
      | cons g gs =>
        simp only [List.zipWith_cons_cons, List.mem_cons] at hk
        rcases hk with rfl | hk
        · exact List.mem_cons_self
        · exact List.mem_cons_of_mem _ (ih gs hk)
  · have : d = ⟨s.sandModel.fillDefaults, s.porosity, s.adjustments⟩ := by
      generalize s.sandModel = m at h3
      cases m with
      | polyfit _ _ => unfold mkDryRock at h3; injection h3 with h3; exact h3.symm
      | friable f =>
        unfold mkDryRock at h3
        obtain ⟨_, -, h3⟩ := bind_eq_ok.mp h3
        injection h3 with h3; exact h3.symm
      | patchy f =>
        unfold mkDryRock at h3
        obtain ⟨_, -, h3⟩ := bind_eq_ok.mp h3
        obtain ⟨_, -, h3⟩ := bind_eq_ok.mp h3
        injection h3 with h3; exact h3.symm
    subst this
    exact ⟨by show SandModel.IsPhysical (SandModel.fillDefaults _); rw [fillDefaults_physical hm]; exact hm, rfl⟩

theorem material_units (ht : 0 < t) (hu : 0 < u) (d : DryRock n) (hm : d.model.IsPhysical) (ha : d.adjustments = [])
    (mi : Mat n) (p p' : Pressure n) (h1 : p'.overburden = p.overburden.sc t)
    (h2 : p'.rock = p.rock.map (Col.sc t)) (h3 : p'.maxEffective = p.maxEffective.map (Col.sc t)) :
    ({ d with model := d.model.inUnits t u } : DryRock n).material (mi.inUnits t u) p'
      = (d.material mi p).map (Mat.inUnits t u) := by
  unfold DryRock.material
  refine map_bind (truncatedRock_units ht p p' h1 h2 h3) fun q => ?_
  refine map_bind (evalMaterial_units ht hu _ hm q _ mi) fun m => ?_
  dsimp only
  rw [ha]
  rfl

/-- **C130, the whole calculation.** Change the units of all moduli and pressures by a factor `t` and of all densities by
a factor `u`, everywhere in a configuration of friable sand or patchy cement with fluids given as materials and without
empirical adjustments: the result is the same table in the new units, and a calculation that fails fails with the same
error. -/
theorem C130_calculation (ht : 0 < t) (hu : 0 < u) (co2 : CO2Model n) (s : Sections n)
    (hf : OnlyMaterials (s.fluids.map (·.kind))) (hm : s.sandModel.IsPhysical) (ha : s.adjustments = []) :
    calculate co2 (s.inUnits t u) = (calculate co2 s).map (Result.inUnits t u) := by
  unfold calculate
  rw [mkInput_units]
  cases hi : mkInput s with
  | error e => rfl
  | ok inp =>
    obtain ⟨g1, g2, g3⟩ := mkInput_facts hi hf hm
    rw [ha] at g3
    show calculateResults co2 (inp.inUnits t u) = (calculateResults co2 inp).map _
    unfold calculateResults
    refine map_bind (C130_minerals ht hu inp.minerals) fun mi => ?_
    have hx := mixFluids_units ht hu co2 inp.fluids g1 inp.pressure (inp.pressure.inUnits t) rfl
    cases hmix : mixFluids co2 inp.fluids inp.pressure with
    | error e =>
      rw [hmix] at hx
      show (mixFluids co2 (inp.fluids.inUnits t u) (inp.pressure.inUnits t) >>= _) = _
      rw [hx]; rfl
    | ok x =>
      obtain ⟨fl, p'⟩ := x
      rw [hmix] at hx
      show (mixFluids co2 (inp.fluids.inUnits t u) (inp.pressure.inUnits t) >>= _) = _
      rw [hx]
      have hp' : p'.overburden = inp.pressure.overburden ∧ p'.rock = inp.pressure.rock ∧
          p'.maxEffective = inp.pressure.maxEffective := by
        unfold mixFluids at hmix
        obtain ⟨q, -, hmix⟩ := bind_eq_ok.mp hmix
        split at hmix
        · cases hmix
        · injection hmix with hmix
          injection hmix with h1 h2
          subst h2
          exact ⟨rfl, rfl, rfl⟩
      refine map_bind (x := inp.dryRock.material mi p') (f := Mat.inUnits t u)
        (material_units ht hu inp.dryRock g2 g3 mi p' (inp.pressure.inUnits t) (by rw [hp'.1]; rfl) (by rw [hp'.2.1]; rfl)
          (by rw [hp'.2.2]; rfl)) fun dry => ?_
      refine map_bind (nonporous_units ht hu _ mi) fun dense => ?_
      refine map_bind (C130_fluid_substitution ht hu dry dense fl inp.dryRock.porosity) fun sat => ?_
      rfl

/-- The quartz sand of `exSections`, from GPa and kg/m3 to Pa and g/cm3. -/
example (co2 : CO2Model 2) :
    calculate co2 ((exSections ![0.2, 0.3]).inUnits 1e9 1e-3) = (calculate co2 (exSections ![0.2, 0.3])).map
      (Result.inUnits 1e9 1e-3) :=
  C130_calculation (by norm_num) (by norm_num) co2 _ (by
    intro k hk
    simp only [exSections, List.map_cons, List.map_nil, List.mem_singleton] at hk
    exact ⟨_, hk⟩) trivial rfl

end

end OPE
