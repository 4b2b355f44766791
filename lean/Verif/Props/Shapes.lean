import Verif.Model.Shapes
import Verif.Props.Cement
import Verif.Props.DryRock

/-!
# C73: one value is used for all rows
-/

namespace OPE.Shapes

open OPE Classical

variable {n : ℕ}

@[simp] theorem val_add (x y : Val n) : (x + y).val = x.val + y.val := rfl
@[simp] theorem val_sub (x y : Val n) : (x - y).val = x.val - y.val := rfl
@[simp] theorem val_mul (x y : Val n) : (x * y).val = x.val * y.val := rfl
@[simp] theorem val_div (x y : Val n) : (x / y).val = x.val / y.val := rfl
@[simp] theorem col_add (x y : Val n) : (x + y).isCol = (x.isCol || y.isCol) := rfl
@[simp] theorem col_sub (x y : Val n) : (x - y).isCol = (x.isCol || y.isCol) := rfl
@[simp] theorem col_mul (x y : Val n) : (x * y).isCol = (x.isCol || y.isCol) := rfl
@[simp] theorem col_div (x y : Val n) : (x / y).isCol = (x.isCol || y.isCol) := rfl
@[simp] theorem col_lit (x : ℝ) : (lit x : Val n).isCol = false := rfl
@[simp] theorem val_lit (x : ℝ) : (lit x : Val n).val = c x := rfl
@[simp] theorem col_pow (x y : Val n) : (x.pow y).isCol = (x.isCol || y.isCol) := rfl
@[simp] theorem col_sq (x : Val n) : x.sq.isCol = x.isCol := rfl

/-- A calculation with shapes `xs` agrees with the calculation on columns `x`: both fail with the same
error, or both succeed with the same values (single values broadcast), and `P` holds of the result. -/
def Agrees {A B : Type} (e : A → B) (P : A → Prop) (xs : Except Err A) (x : Except Err B) : Prop :=
  match xs, x with
  | .ok a, .ok b => e a = b ∧ P a
  | .error e₁, .error e₂ => e₁ = e₂
  | _, _ => False

theorem Agrees.bind {A B A' B' : Type} {e : A → B} {e' : A' → B'} {P : A → Prop} {Q : A' → Prop}
    {xs : Except Err A} {x : Except Err B} {f : A → Except Err A'} {g : B → Except Err B'}
    (h : Agrees e P xs x) (hf : ∀ a, P a → Agrees e' Q (f a) (g (e a))) :
    Agrees e' Q (xs >>= f) (x >>= g) := by
  cases xs <;> cases x <;> simp only [Agrees] at h
  · simpa [Agrees] using h
  · obtain ⟨rfl, hp⟩ := h
    simpa using hf _ hp

theorem Agrees.same {A A' B' : Type} {e' : A' → B'} {Q : A' → Prop}
    {x : Except Err A} {f : A → Except Err A'} {g : A → Except Err B'}
    (hf : ∀ a, Agrees e' Q (f a) (g a)) : Agrees e' Q (x >>= f) (x >>= g) := by
  cases x with
  | error e => simp [Agrees]
  | ok a => simpa using hf a

theorem Agrees.ok {A B : Type} {e : A → B} {P : A → Prop} {a : A} (h : P a) :
    Agrees e P (.ok a) (.ok (e a)) := ⟨rfl, h⟩

theorem Agrees.mono {A B : Type} {e : A → B} {P Q : A → Prop} {xs : Except Err A} {x : Except Err B}
    (h : Agrees e P xs x) (hpq : ∀ a, P a → Q a) : Agrees e Q xs x := by
  cases xs <;> cases x <;> simp only [Agrees] at h ⊢
  · exact h
  · exact ⟨h.1, hpq _ h.2⟩

theorem Agrees.map_eq {A B : Type} {e : A → B} {P : A → Prop} {xs : Except Err A} {x : Except Err B}
    (h : Agrees e P xs x) : xs.map e = x := by
  cases xs <;> cases x <;> simp only [Agrees] at h
  · simp [Except.map, h]
  · simp [Except.map, h.1]

/-- Shapes of a material: bulk modulus, shear modulus, density (the velocities follow from them). -/
structure Flags (m : SMat n) (k g d : Bool) : Prop where
  bulk : m.bulk.isCol = k
  shear : m.shear.isCol = g
  density : m.density.isCol = d

theorem mkModuli_parts {k g d : Col n} {m : Mat n} (h : mkModuli k g d = .ok m) :
    m.bulk = k ∧ m.shear = g ∧ m.density = d := by
  simp only [mkModuli, mkMaterial, setDefaults, bind_ok] at h
  obtain ⟨_, -, h⟩ := bind_eq_ok.mp h
  injection h with h
  subst h
  exact ⟨rfl, rfl, rfl⟩

theorem mkVelocities_parts {d vp vs : Col n} {m : Mat n} (h : mkVelocities d vp vs = .ok m) :
    m.density = d ∧ m.vp = vp ∧ m.vs = vs := by
  simp only [mkVelocities, mkMaterial, setDefaults, bind_ok] at h
  obtain ⟨_, -, h⟩ := bind_eq_ok.mp h
  injection h with h
  subst h
  exact ⟨rfl, rfl, rfl⟩

theorem mkModuliS_agrees (k g d : Val n) :
    Agrees SMat.toMat (fun m => Flags m k.isCol g.isCol d.isCol ∧
        m.vp.isCol = (k.isCol || g.isCol || d.isCol) ∧ m.vs.isCol = (g.isCol || d.isCol))
      (mkModuliS k g d) (mkModuli k.val g.val d.val) := by
  unfold mkModuliS
  cases h : mkModuli k.val g.val d.val with
  | error e => simp [Agrees]
  | ok m =>
    obtain ⟨h1, h2, h3⟩ := mkModuli_parts h
    refine ⟨?_, ⟨rfl, rfl, rfl⟩, rfl, rfl⟩
    simp only [SMat.toMat]
    ext <;> simp [h1, h2, h3]

theorem mkVelocitiesS_agrees (d p s : Val n) :
    Agrees SMat.toMat (fun m => Flags m (p.isCol || s.isCol || d.isCol) (s.isCol || d.isCol) d.isCol ∧
        m.vp.isCol = p.isCol ∧ m.vs.isCol = s.isCol)
      (mkVelocitiesS d p s) (mkVelocities d.val p.val s.val) := by
  unfold mkVelocitiesS
  cases h : mkVelocities d.val p.val s.val with
  | error e => simp [Agrees]
  | ok m =>
    obtain ⟨h1, h2, h3⟩ := mkVelocities_parts h
    refine ⟨?_, ⟨rfl, rfl, rfl⟩, rfl, rfl⟩
    simp only [SMat.toMat]
    ext <;> simp [h1, h2, h3]

/-- The velocities are columns if the moduli and the density are. -/
def AllCol (m : SMat n) : Prop := Flags m true true true ∧ m.vp.isCol = true ∧ m.vs.isCol = true

/-- No property is a column. -/
def NoCol (m : SMat n) : Prop := Flags m false false false ∧ m.vp.isCol = false ∧ m.vs.isCol = false

/-- Every property has the shape `b`. -/
def Uniform (b : Bool) (m : SMat n) : Prop := Flags m b b b ∧ m.vp.isCol = b ∧ m.vs.isCol = b

theorem mkModuliS_uniform {k g d : Val n} {b : Bool} (hk : k.isCol = b) (hg : g.isCol = b)
    (hd : d.isCol = b) :
    Agrees SMat.toMat (Uniform b) (mkModuliS k g d) (mkModuli k.val g.val d.val) :=
  (mkModuliS_agrees k g d).mono fun m h => ⟨by rw [← hk]; exact ⟨h.1.1, by rw [h.1.2, hg, hk],
    by rw [h.1.3, hd, hk]⟩, by rw [h.2.1]; simp [hk, hg, hd], by rw [h.2.2]; simp [hg, hd]⟩

theorem mkVelocitiesS_uniform {d p s : Val n} {b : Bool} (hd : d.isCol = b) (hp : p.isCol = b)
    (hs : s.isCol = b) :
    Agrees SMat.toMat (Uniform b) (mkVelocitiesS d p s) (mkVelocities d.val p.val s.val) :=
  (mkVelocitiesS_agrees d p s).mono fun m h => ⟨⟨by rw [h.1.1]; simp [hd, hp, hs],
    by rw [h.1.2]; simp [hd, hs], by rw [h.1.3, hd]⟩, by rw [h.2.1, hp], by rw [h.2.2, hs]⟩

/-- Shapes of a Walpole mix. -/
theorem hswS_agrees (m1 m2 : SMat n) (r : Val n) :
    Agrees SMat.toMat (fun m => Flags m
        (m1.bulk.isCol || m2.bulk.isCol || m1.shear.isCol || m2.shear.isCol || r.isCol)
        (m1.bulk.isCol || m2.bulk.isCol || m1.shear.isCol || m2.shear.isCol || r.isCol)
        (m1.density.isCol || m2.density.isCol || r.isCol) ∧
        m.vp.isCol = (m.bulk.isCol || m.shear.isCol || m.density.isCol) ∧
        m.vs.isCol = (m.shear.isCol || m.density.isCol))
      (hswS m1 m2 r) (hsw m1.toMat m2.toMat r.val "lower") := by
  unfold hswS hsw
  refine Agrees.same fun _ => ?_
  rw [failIf_false (by simp), bind_ok]
  dsimp only
  simp only [if_true]
  refine Agrees.same fun d => Agrees.same fun k => Agrees.same fun g => ?_
  refine (mkModuliS_agrees _ _ _).mono fun m h => ?_
  obtain ⟨⟨h1, h2, h3⟩, h4, h5⟩ := h
  refine ⟨⟨?_, ?_, ?_⟩, by rw [h4, h1, h2, h3], by rw [h5, h2, h3]⟩
  · rw [h1]; simp; grind
  · rw [h2]; simp; grind
  · rw [h3]; simp

theorem hswS_uniform {m1 m2 : SMat n} {r : Val n} {b : Bool} (hr : r.isCol = true → b = true)
    (h1 : b = true → r.isCol = true ∨ (Uniform true m1) ∨ (Uniform true m2))
    (h2 : b = false → Uniform false m1 ∧ Uniform false m2) :
    Agrees SMat.toMat (Uniform b) (hswS m1 m2 r) (hsw m1.toMat m2.toMat r.val "lower") := by
  refine (hswS_agrees m1 m2 r).mono fun m h => ?_
  obtain ⟨⟨a1, a2, a3⟩, a4, a5⟩ := h
  cases b with
  | false =>
    obtain ⟨⟨⟨b1, b2, b3⟩, -, -⟩, ⟨⟨c1, c2, c3⟩, -, -⟩⟩ := h2 rfl
    have hr' : r.isCol = false := by
      cases hh : r.isCol with
      | false => rfl
      | true => exact absurd (hr hh) (by simp)
    simp only [b1, b2, b3, c1, c2, c3, hr', Bool.or_false] at a1 a2 a3
    exact ⟨⟨a1, a2, a3⟩, by simp [a4, a1, a2, a3], by simp [a5, a2, a3]⟩
  | true =>
    have : m.bulk.isCol = true ∧ m.shear.isCol = true ∧ m.density.isCol = true := by
      rcases h1 rfl with h | ⟨⟨b1, b2, b3⟩, -, -⟩ | ⟨⟨b1, b2, b3⟩, -, -⟩
      · simp [a1, a2, a3, h]
      · simp [a1, a2, a3, b1, b2, b3]
      · simp [a1, a2, a3, b1, b2, b3]
    obtain ⟨c1, c2, c3⟩ := this
    exact ⟨⟨c1, c2, c3⟩, by simp [a4, c1, c2, c3], by simp [a5, c2, c3]⟩

theorem hertzMindlinS_agrees (m : SMat n) (φ p sr N : Val n) :
    Agrees SMat.toMat (fun r => Flags r
        (m.bulk.isCol || m.shear.isCol || φ.isCol || p.isCol || N.isCol)
        (m.bulk.isCol || m.shear.isCol || φ.isCol || p.isCol || N.isCol || sr.isCol)
        (m.density.isCol || φ.isCol) ∧
        r.vp.isCol = (r.bulk.isCol || r.shear.isCol || r.density.isCol) ∧
        r.vs.isCol = (r.shear.isCol || r.density.isCol))
      (hertzMindlinS m φ p sr N) (hertzMindlin m.toMat φ.val p.val sr.val N.val) := by
  unfold hertzMindlinS hertzMindlin
  refine (mkModuliS_agrees _ _ _).mono fun r h => ?_
  obtain ⟨⟨h1, h2, h3⟩, h4, h5⟩ := h
  refine ⟨⟨?_, ?_, ?_⟩, by rw [h4, h1, h2, h3], by rw [h5, h2, h3]⟩
  · rw [h1]; simp [SMat.poisson]; grind
  · rw [h2]; simp [SMat.poisson]; grind
  · rw [h3]; simp

/-- Shapes of friable sand. -/
theorem friableSandS_agrees (m : SMat n) (φ φc p N sr : Val n) :
    Agrees SMat.toMat (fun r => Flags r
        (m.bulk.isCol || m.shear.isCol || φ.isCol || φc.isCol || p.isCol || N.isCol || sr.isCol)
        (m.bulk.isCol || m.shear.isCol || φ.isCol || φc.isCol || p.isCol || N.isCol || sr.isCol)
        (m.density.isCol || φ.isCol || φc.isCol) ∧
        r.vp.isCol = (r.bulk.isCol || r.shear.isCol || r.density.isCol) ∧
        r.vs.isCol = (r.shear.isCol || r.density.isCol))
      (friableSandS m φ φc p N sr) (friableSand m.toMat φ.val φc.val p.val N.val sr.val) := by
  unfold friableSandS friableSand
  refine Agrees.bind (hertzMindlinS_agrees m φc p sr N) fun h ⟨⟨h1, h2, h3⟩, _, _⟩ => ?_
  refine (hswS_agrees _ _ _).mono fun r hr => ?_
  obtain ⟨⟨a1, a2, a3⟩, a4, a5⟩ := hr
  refine ⟨⟨?_, ?_, ?_⟩, a4, a5⟩
  · rw [a1]; simp [h1, h2]; grind
  · rw [a2]; simp [h1, h2]; grind
  · rw [a3]; simp [h3]; grind

theorem cementRadiusRatioS_agrees (x g : Val n) :
    Agrees Val.val (fun r => r.isCol = (x.isCol || g.isCol)) (cementRadiusRatioS x g)
      (cementRadiusRatio x.val g.val) := by
  unfold cementRadiusRatioS
  cases cementRadiusRatio x.val g.val <;> simp [Agrees]

/-- Shapes of contact cement. -/
theorem contactCementS_agrees (cem m : SMat n) (x g sr N : Val n) :
    Agrees SMat.toMat (fun r => Flags r
        (cem.bulk.isCol || cem.shear.isCol || m.bulk.isCol || m.shear.isCol || x.isCol || g.isCol ||
          N.isCol)
        (cem.bulk.isCol || cem.shear.isCol || m.bulk.isCol || m.shear.isCol || x.isCol || g.isCol ||
          N.isCol || sr.isCol)
        (cem.density.isCol || m.density.isCol || x.isCol || g.isCol) ∧
        r.vp.isCol = (r.bulk.isCol || r.shear.isCol || r.density.isCol) ∧
        r.vs.isCol = (r.shear.isCol || r.density.isCol))
      (contactCementS cem m x g sr N)
      (contactCement cem.toMat m.toMat x.val g.val sr.val N.val) := by
  unfold contactCementS contactCement
  refine Agrees.same fun _ => Agrees.bind (cementRadiusRatioS_agrees x g) fun α hα => ?_
  refine (mkModuliS_agrees _ _ _).mono fun r h => ?_
  obtain ⟨⟨h1, h2, h3⟩, h4, h5⟩ := h
  refine ⟨⟨?_, ?_, ?_⟩, by rw [h4, h1, h2, h3], by rw [h5, h2, h3]⟩
  · rw [h1]; simp [SMat.poisson, SMat.pModulus, normalStiffnessS, hα]; grind
  · rw [h2]; simp [SMat.poisson, SMat.pModulus, shearStiffnessS, normalStiffnessS, hα]; grind
  · rw [h3]; simp [hα]; grind

/-- Shapes of constant cement. -/
theorem constantCementS_agrees (sand cem : SMat n) (φ x g N sr : Val n) :
    Agrees SMat.toMat (fun r => Flags r
        (cem.bulk.isCol || cem.shear.isCol || sand.bulk.isCol || sand.shear.isCol || φ.isCol || x.isCol ||
          g.isCol || N.isCol || sr.isCol)
        (cem.bulk.isCol || cem.shear.isCol || sand.bulk.isCol || sand.shear.isCol || φ.isCol || x.isCol ||
          g.isCol || N.isCol || sr.isCol)
        (cem.density.isCol || sand.density.isCol || φ.isCol || x.isCol || g.isCol) ∧
        r.vp.isCol = (r.bulk.isCol || r.shear.isCol || r.density.isCol) ∧
        r.vs.isCol = (r.shear.isCol || r.density.isCol))
      (constantCementS sand cem φ x g N sr)
      (constantCement sand.toMat cem.toMat φ.val x.val g.val N.val sr.val) := by
  unfold constantCementS constantCement
  refine Agrees.bind (hswS_agrees cem sand (g - x)) fun dn ⟨⟨h1, h2, h3⟩, _, _⟩ => ?_
  refine Agrees.bind (contactCementS_agrees cem sand x g sr N) fun cc ⟨⟨b1, b2, b3⟩, _, _⟩ => ?_
  refine (hswS_agrees _ _ _).mono fun r hr => ?_
  obtain ⟨⟨a1, a2, a3⟩, a4, a5⟩ := hr
  refine ⟨⟨?_, ?_, ?_⟩, a4, a5⟩
  · rw [a1]; simp [h1, h2, b1, b2]; grind
  · rw [a2]; simp [h1, h2, b1, b2]; grind
  · rw [a3]; simp [h3, b3]; grind

/-! ## Patchy cement -/

/-- `np.ones`, mask and clip for one modulus agree with the column version if the mask fits. -/
theorem patchyWeightS_agrees {con low up : Val n}
    (h : (con.isCol = true ∧ low.isCol = true ∧ up.isCol = true) ∨
      (con.isCol = false ∧ low.isCol = false ∧ up.isCol = false)) :
    patchyWeightS con low up = .ok ⟨con.isCol, patchyWeight con.val low.val up.val⟩ := by
  unfold patchyWeightS
  rcases h with ⟨h1, h2, h3⟩ | ⟨h1, h2, h3⟩
  · rw [failIf_false (by simp [h1, h2, h3]), bind_ok, failIf_false (by simp [h2]), bind_ok]
  · rw [failIf_false (by simp [h2, h3]), bind_ok, failIf_false (by simp [h1]), bind_ok]

theorem patchyWeightS_index {con low up : Val n} (hl : low.isCol = true) (hu : up.isCol = false) :
    patchyWeightS con low up = .error .indexError := by
  unfold patchyWeightS
  rw [failIf_true (by simp [hl, hu]), bind_error]

/-- Is one of the parameters a column that make all three bounds of patchy cement columns? -/
def patchyBase (sand cem : SMat n) (φ ub crit sr : Val n) : Bool :=
  sand.bulk.isCol || sand.shear.isCol || cem.bulk.isCol || cem.shear.isCol || φ.isCol || ub.isCol ||
    crit.isCol || sr.isCol

/-- Patchy cement agrees with the column version if one of the base parameters is a column, or none of
lower-bound pressure, coordination numbers and contact-cement porosity is. -/
theorem patchyCementS_agrees (sand cem : SMat n) (φ ccp ub p plb crit sr Nf Nc : Val n)
    (h : patchyBase sand cem φ ub crit sr = true ∨
      (plb.isCol = false ∧ Nf.isCol = false ∧ Nc.isCol = false ∧ ccp.isCol = false)) :
    Agrees SMat.toMat (fun r => Flags r
        (patchyBase sand cem φ ub crit sr || p.isCol)
        (patchyBase sand cem φ ub crit sr || p.isCol)
        (φ.isCol || crit.isCol || ccp.isCol || sand.density.isCol || cem.density.isCol) ∧
        r.vp.isCol = (r.bulk.isCol || r.shear.isCol || r.density.isCol) ∧
        r.vs.isCol = (r.shear.isCol || r.density.isCol))
      (patchyCementS sand cem φ ccp ub p plb crit sr Nf Nc)
      (patchyCement sand.toMat cem.toMat φ.val ccp.val ub.val p.val plb.val crit.val sr.val Nf.val
        Nc.val) := by
  unfold patchyCementS patchyCement
  refine Agrees.bind (hswS_agrees cem sand (crit - ub)) fun dn ⟨⟨d1, d2, d3⟩, _, _⟩ => ?_
  refine Agrees.bind (friableSandS_agrees dn φ crit p Nf sr) fun fr ⟨⟨f1, f2, f3⟩, _, _⟩ => ?_
  refine Agrees.bind (friableSandS_agrees dn φ crit plb Nf sr) fun lo ⟨⟨l1, l2, l3⟩, _, _⟩ => ?_
  refine Agrees.bind (constantCementS_agrees sand cem φ ub crit Nc sr)
    fun up ⟨⟨u1, u2, u3⟩, _, _⟩ => ?_
  refine Agrees.bind (contactCementS_agrees cem sand ccp crit sr Nc) fun co ⟨⟨c1, c2, c3⟩, _, _⟩ => ?_
  refine Agrees.bind (hswS_agrees dn co (lit 1 - φ / ccp)) fun cn ⟨⟨n1, n2, n3⟩, _, _⟩ => ?_
  simp only [d1, d2, c1, c2, col_sub, col_lit, col_div] at f1 f2 l1 l2 n1 n2
  have hk : (cn.bulk.isCol = true ∧ lo.bulk.isCol = true ∧ up.bulk.isCol = true) ∨
      (cn.bulk.isCol = false ∧ lo.bulk.isCol = false ∧ up.bulk.isCol = false) := by
    unfold patchyBase at h; grind
  have hg : (cn.shear.isCol = true ∧ lo.shear.isCol = true ∧ up.shear.isCol = true) ∨
      (cn.shear.isCol = false ∧ lo.shear.isCol = false ∧ up.shear.isCol = false) := by
    unfold patchyBase at h; grind
  rw [patchyWeightS_agrees hk, patchyWeightS_agrees hg, bind_ok, bind_ok]
  refine (mkModuliS_agrees _ _ _).mono fun r hr => ?_
  obtain ⟨⟨a1, a2, a3⟩, a4, a5⟩ := hr
  refine ⟨⟨?_, ?_, ?_⟩, by rw [a4, a1, a2, a3], by rw [a5, a2, a3]⟩
  · rw [a1]; unfold patchyBase at h ⊢; simp; grind
  · rw [a2]; unfold patchyBase at h ⊢; simp; grind
  · rw [a3]; simp; grind

/-- If none of the base parameters is a column but the lower-bound pressure or the friable coordination
number is, patchy cement raises `IndexError` although the column version gives a material. -/
theorem patchyCementS_fails (sand cem : SMat n) (φ ccp ub p plb crit sr Nf Nc : Val n)
    (hb : patchyBase sand cem φ ub crit sr = false) (hN : Nc.isCol = false)
    (hc : plb.isCol = true ∨ Nf.isCol = true) {m : Mat n}
    (hm : patchyCement sand.toMat cem.toMat φ.val ccp.val ub.val p.val plb.val crit.val sr.val Nf.val
      Nc.val = .ok m) :
    patchyCementS sand cem φ ccp ub p plb crit sr Nf Nc = .error .indexError := by
  unfold patchyCement at hm
  obtain ⟨dn, h1, hm⟩ := bind_eq_ok.mp hm
  obtain ⟨fr, h2, hm⟩ := bind_eq_ok.mp hm
  obtain ⟨lo, h3, hm⟩ := bind_eq_ok.mp hm
  obtain ⟨up, h4, hm⟩ := bind_eq_ok.mp hm
  obtain ⟨co, h5, hm⟩ := bind_eq_ok.mp hm
  obtain ⟨cn, h6, -⟩ := bind_eq_ok.mp hm
  have take : ∀ {P : SMat n → Prop} {xs : Except Err (SMat n)} {x : Except Err (Mat n)} {r : Mat n},
      Agrees SMat.toMat P xs x → x = .ok r → ∃ a, xs = .ok a ∧ a.toMat = r ∧ P a := by
    intro P xs x r h hx
    subst hx
    cases xs with
    | error e => simp [Agrees] at h
    | ok a => exact ⟨a, rfl, h⟩
  unfold patchyCementS
  obtain ⟨dn', e1, rfl, ⟨d1, d2, d3⟩, -, -⟩ := take (hswS_agrees cem sand (crit - ub)) h1
  obtain ⟨fr', e2, rfl, ⟨f1, f2, f3⟩, -, -⟩ := take (friableSandS_agrees dn' φ crit p Nf sr) h2
  obtain ⟨lo', e3, rfl, ⟨l1, l2, l3⟩, -, -⟩ := take (friableSandS_agrees dn' φ crit plb Nf sr) h3
  obtain ⟨up', e4, rfl, ⟨u1, u2, u3⟩, -, -⟩ := take (constantCementS_agrees sand cem φ ub crit Nc sr) h4
  obtain ⟨co', e5, rfl, ⟨c1, c2, c3⟩, -, -⟩ := take (contactCementS_agrees cem sand ccp crit sr Nc) h5
  obtain ⟨cn', e6, rfl, ⟨n1, n2, n3⟩, -, -⟩ := take (hswS_agrees dn' co' (lit 1 - φ / ccp)) h6
  simp only [e1, e2, e3, e4, e5, e6, bind_ok]
  have hl : lo'.bulk.isCol = true := by rw [l1]; rcases hc with h | h <;> simp [h]
  have hu : up'.bulk.isCol = false := by
    rw [u1]
    simp only [patchyBase, Bool.or_eq_false_iff] at hb
    simp [hb, hN]
  rw [patchyWeightS_index hl hu, bind_error]

/-! ## Pressure dependencies and adjustments -/

/-- The adjustment is one for which shapes cannot matter when the porosity is `φ`: the sand models need
a porosity column (`b = true`), a depth trend must not subtract a column from a single depth. -/
def SAdjustment.Fits (b : Bool) : SAdjustment n → Prop
  | .pressureDependency (.friable _) => b = true
  | .pressureDependency (.patchy _) => b = true
  | .pressureDependency _ => True
  | .depthTrend t => b = true ∧ ∀ r, t.referenceDepth = some r → r.isCol = true → t.depth.isCol = true

theorem needVal_agrees (x : Option (Val n)) :
    Agrees Val.val (fun _ => True) (needVal x) (needCol (x.map Val.val)) := by
  cases x <;> simp [needVal, needCol, Agrees]

theorem truncateS_val (m : Option (Val n)) (x : Val n) :
    (truncateS m x).val = truncate (m.map Val.val) x.val := by
  cases m <;> rfl

theorem truncatedRock_agrees (p : SPressure n) :
    Agrees Val.val (fun _ => True) p.truncatedRock p.erase.truncatedRock := by
  unfold SPressure.truncatedRock Pressure.truncatedRock Pressure.effectiveRock SPressure.erase
  cases h : p.rock with
  | none => simp [needVal, needCol, Agrees]
  | some r =>
    simp only [needVal, needCol, Option.map_some, bind_ok]
    exact ⟨truncateS_val _ _, trivial⟩

theorem truncatedReference_val (p : SPressure n) :
    p.truncatedReference.val = p.erase.truncatedReference := truncateS_val _ _

theorem mul_true_left {x y : Val n} (h : x.isCol = true) : (x * y).isCol = true := by simp [h]

/-- Materials of uniform shape stay uniform (`b`: columns) under a pressure adjustment. -/
theorem pressureDependencyS_agrees (m : SPDModel n) (mat : SMat n) (p : SPressure n) (φ : Val n)
    (mineral : SMat n) (hm : SAdjustment.Fits φ.isCol (.pressureDependency m)) :
    Agrees SMat.toMat (fun r => Uniform true mat → Uniform true r)
      (pressureDependencyS m mat p φ mineral)
      (OPE.pressureDependency m.erase mat.toMat p.erase φ.val mineral.toMat) := by
  have ratio : ∀ (m : SPDModel n), (∀ q : Val n, Agrees (Prod.snd) (fun _ => True)
      (m.eval q φ mineral) (m.erase.eval q.val φ.val mineral.toMat)) → ∀ q : Val n,
      Agrees SMat.toMat (fun r => Uniform true mat → Uniform true r)
        (ratioDependencyS m mat q p.truncatedReference φ mineral)
        (ratioDependency m.erase mat.toMat q.val p.erase.truncatedReference φ.val mineral.toMat) := by
    intro m hev q
    unfold ratioDependencyS ratioDependency
    rw [← truncatedReference_val]
    refine Agrees.bind (hev _) fun ⟨rc, ref⟩ _ => Agrees.bind (hev _) fun ⟨ec, eff⟩ _ => ?_
    dsimp only
    refine Agrees.same fun _ => ?_
    by_cases hu : m.erase.useModuli = true
    · simp only [hu, if_true]
      refine (mkModuliS_agrees _ _ _).mono fun r h => ?_
      obtain ⟨⟨a1, a2, a3⟩, a4, a5⟩ := h
      rintro ⟨⟨b1, b2, b3⟩, -, -⟩
      simp only [col_mul, b1, b2, b3, Bool.true_or] at a1 a2 a3 a4 a5
      exact ⟨⟨a1, a2, a3⟩, a4, a5⟩
    · simp only [hu]
      refine (mkVelocitiesS_agrees _ _ _).mono fun r h => ?_
      obtain ⟨⟨a1, a2, a3⟩, a4, a5⟩ := h
      rintro ⟨⟨b1, b2, b3⟩, b4, b5⟩
      simp only [col_mul, b3, b4, b5, Bool.true_or, Bool.or_true] at a1 a2 a3 a4 a5
      exact ⟨⟨a1, a2, a3⟩, a4, a5⟩
  have fit : ∀ (m : SPDModel n), (∀ f, m ≠ .friable f) → (∀ f, m ≠ .patchy f) → ∀ q : Val n,
      Agrees (Prod.snd) (fun _ => True) (m.eval q φ mineral)
        (m.erase.eval q.val φ.val mineral.toMat) := by
    intro m h1 h2 q
    cases m with
    | friable f => exact absurd rfl (h1 f)
    | patchy f => exact absurd rfl (h2 f)
    | polyfit _ _ => exact ⟨rfl, trivial⟩
    | expfit _ _ => exact ⟨rfl, trivial⟩
    | logfit _ _ => exact ⟨rfl, trivial⟩
    | powerfit _ => exact ⟨rfl, trivial⟩
  have stack : ∀ r : SMat n, Flags r true true true → Agrees Prod.snd (fun _ => True) (stackMaterial r)
      (.ok (⟨r.density.val, r.bulk.val, r.shear.val⟩ : Fit n)) := by
    intro r ⟨a, b, e⟩
    unfold stackMaterial
    rw [if_pos (by simp [a, b, e])]
    exact ⟨rfl, trivial⟩
  unfold pressureDependencyS OPE.pressureDependency
  refine Agrees.bind (truncatedRock_agrees p) fun q _ => ?_
  cases m with
  | powerfit a =>
    simp only [SPDModel.erase, PDModel.pressureDependency]
    refine Agrees.bind (needVal_agrees p.rock) fun q _ => ?_
    unfold powerDependencyS powerDependency
    rw [← truncatedReference_val]
    refine Agrees.same fun ref => Agrees.same fun eff => ?_
    dsimp only
    refine Agrees.same fun _ => ?_
    refine (mkModuliS_agrees _ _ _).mono fun r h => ?_
    obtain ⟨⟨a1, a2, a3⟩, a4, a5⟩ := h
    rintro ⟨⟨b1, b2, b3⟩, b4, b5⟩
    simp only [col_add, col_div, b1, b3, Bool.true_or] at a1 a2 a3 a4 a5
    exact ⟨⟨a1, a2, a3⟩, a4, a5⟩
  | polyfit b a => exact ratio _ (fit _ (by simp) (by simp)) q
  | expfit b a => exact ratio _ (fit _ (by simp) (by simp)) q
  | logfit b a => exact ratio _ (fit _ (by simp) (by simp)) q
  | friable f =>
    refine ratio (.friable f) (fun q => ?_) q
    refine Agrees.bind (friableSandS_agrees mineral φ f.criticalPorosity q f.coordinationNumber
      f.shearReduction) fun r ⟨⟨a1, a2, a3⟩, _, _⟩ => ?_
    simp only [show φ.isCol = true from hm, Bool.or_true, Bool.true_or] at a1 a2 a3
    exact stack r ⟨a1, a2, a3⟩
  | patchy f =>
    refine ratio (.patchy f) (fun q => ?_) q
    have hφ : φ.isCol = true := hm
    refine Agrees.bind (patchyCementS_agrees mineral f.cement φ (f.criticalPorosity - f.cementFraction)
      (f.criticalPorosity - f.upperBoundCementFraction) q f.lowerBoundPressure f.criticalPorosity
      f.shearReduction f.coordinationNumber (lit 9) (.inl (by simp [patchyBase, hφ])))
      fun r ⟨⟨a1, a2, a3⟩, _, _⟩ => ?_
    simp only [patchyBase, hφ, Bool.or_true, Bool.true_or] at a1 a2 a3
    exact stack r ⟨a1, a2, a3⟩

theorem polyvalMaterialS_agrees {value : Val n} {m : SMat n} (dc pc sc : Coeffs) (u : Bool)
    (h : value.isCol = true ∨ Uniform true m) :
    Agrees SMat.toMat (Uniform true) (polyvalMaterialS value m dc pc sc u)
      (polyvalMaterial value.val m.toMat dc pc sc u) := by
  unfold polyvalMaterialS
  dsimp only
  rw [if_pos (by
    rcases h with h | h
    · simp [h]
    · simp [h.1.density])]
  cases polyvalMaterial value.val m.toMat dc pc sc u with
  | error e => simp [Agrees]
  | ok r => exact ⟨rfl, ⟨⟨rfl, rfl, rfl⟩, rfl, rfl⟩⟩

theorem adjust_agrees (a : SAdjustment n) (mat : SMat n) (p : SPressure n) (φ : Val n)
    (mineral : SMat n) (ha : a.Fits φ.isCol) (hu : φ.isCol = true → Uniform true mat) :
    Agrees SMat.toMat (fun r => φ.isCol = true → Uniform true r) (a.adjust mat p φ mineral)
      (a.erase.adjust mat.toMat p.erase φ.val mineral.toMat) := by
  cases a with
  | pressureDependency m =>
    exact (pressureDependencyS_agrees m mat p φ mineral ha).mono fun r h hφ => h (hu hφ)
  | depthTrend t =>
    obtain ⟨hb, ht⟩ := ha
    simp only [SAdjustment.adjust, SAdjustment.erase, Adjustment.adjust]
    unfold SDepthTrend.adjustMaterial DepthTrend.adjustMaterial
    have : ∃ d : Val n, t.effectiveDepth = .ok d ∧ d.val = t.erase.effectiveDepth := by
      unfold SDepthTrend.effectiveDepth DepthTrend.effectiveDepth SDepthTrend.erase
      cases hr : t.referenceDepth with
      | none => exact ⟨_, rfl, rfl⟩
      | some r =>
        dsimp only
        rw [failIf_false (by
          rintro ⟨h1, h2⟩
          exact h1 (ht r hr h2)), bind_ok]
        exact ⟨_, rfl, rfl⟩
    obtain ⟨d, h1, h2⟩ := this
    rw [h1, bind_ok, ← h2]
    exact (polyvalMaterialS_agrees _ _ _ _ (.inr (hu hb))).mono fun r h _ => h

theorem adjustAllS_agrees (p : SPressure n) (φ : Val n) (mineral : SMat n) :
    ∀ (as : List (SAdjustment n)) (mat : SMat n), (∀ a ∈ as, a.Fits φ.isCol) →
      (φ.isCol = true → Uniform true mat) →
      Agrees SMat.toMat (fun _ => True) (adjustAllS p φ mineral as mat)
        (adjustAll p.erase φ.val mineral.toMat (as.map SAdjustment.erase) mat.toMat)
  | [], mat, _, _ => ⟨rfl, trivial⟩
  | a :: as, mat, ha, hu => by
    simp only [adjustAllS, adjustAll, List.map_cons]
    exact Agrees.bind (adjust_agrees a mat p φ mineral (ha a (by simp)) hu) fun r hr =>
      adjustAllS_agrees p φ mineral as r (fun b hb => ha b (by simp [hb])) hr

/-! ## The theorems -/

/-- When shapes cannot matter in the sandstone model: the polynomial model has a porosity column; patchy
cement has a column among mineral, cement, porosity, critical porosity, upper-bound cement fraction and
shear reduction, or none at all among lower-bound pressure, coordination number, cement fraction. -/
def SDryRock.ModelFits (d : SDryRock n) (mineral : SMat n) : Prop :=
  match d.model with
  | .polyfit _ _ => d.porosity.isCol = true
  | .friable _ => True
  | .patchy f => patchyBase mineral f.cement d.porosity (f.criticalPorosity - f.upperBoundCementFraction)
        f.criticalPorosity f.shearReduction = true ∨
      (f.lowerBoundPressure.isCol = false ∧ f.coordinationNumber.isCol = false ∧
        f.cementFraction.isCol = false)

/-- **C73 (partial).** Giving a single value for any parameter of the dry rock is the same as giving the
column of that value — the same values or the same error —

* for every sandstone model, if the porosity is a column and no depth trend has a single depth with a
  column of reference depths;
* for the friable model, and for patchy cement as in `ModelFits`, also with a single porosity, if the
  adjustments are polynomial, exponential, logarithmic or power-law pressure dependencies.

Missing: the remaining combinations, where it is false (`C73_refuted_…`), and the polynomial model on
single values (`C73_polyfit_single`). -/
theorem C73_single_is_column_partial (d : SDryRock n) (mineral : SMat n) (p : SPressure n)
    (hm : d.ModelFits mineral) (ha : ∀ a ∈ d.adjustments, a.Fits d.porosity.isCol) :
    (d.material mineral p).map SMat.toMat = d.erase.material mineral.toMat p.erase := by
  refine Agrees.map_eq (P := fun _ => True) ?_
  unfold SDryRock.material DryRock.material
  refine Agrees.bind (truncatedRock_agrees p) fun q _ => ?_
  refine Agrees.bind (P := fun r => d.porosity.isCol = true → Uniform true r) (e := SMat.toMat) ?_
    fun r hr => adjustAllS_agrees p d.porosity mineral d.adjustments r ha hr
  have uni : ∀ {r : SMat n}, r.bulk.isCol = true → r.shear.isCol = true → r.density.isCol = true →
      r.vp.isCol = (r.bulk.isCol || r.shear.isCol || r.density.isCol) →
      r.vs.isCol = (r.shear.isCol || r.density.isCol) → Uniform true r := fun h1 h2 h3 h4 h5 =>
    ⟨⟨h1, h2, h3⟩, by simp [h4, h1], by simp [h5, h2]⟩
  simp only [SDryRock.erase]
  unfold SDryRock.ModelFits at hm
  cases h : d.model with
  | polyfit u a =>
    rw [h] at hm
    simp only [SSandModel.evalMaterial, SSandModel.erase, SandModel.evalMaterial, needCoeffs, bind_ok]
    exact (polyvalMaterialS_agrees _ _ _ _ (.inl hm)).mono fun r h _ => h
  | friable f =>
    refine (friableSandS_agrees _ _ _ _ _ _).mono fun r hr hφ => ?_
    obtain ⟨⟨a1, a2, a3⟩, a4, a5⟩ := hr
    simp only [hφ, Bool.or_true, Bool.true_or] at a1 a2 a3
    exact uni a1 a2 a3 a4 a5
  | patchy f =>
    rw [h] at hm
    refine (patchyCementS_agrees _ _ _ _ _ _ _ _ _ _ _ ?_).mono fun r hr hφ => ?_
    · rcases hm with hm | ⟨h1, h2, h3⟩
      · exact .inl hm
      · by_cases hc : f.criticalPorosity.isCol = true
        · exact .inl (by simp [patchyBase, hc])
        · exact .inr ⟨h1, h2, rfl, by simp [h3, hc]⟩
    · obtain ⟨⟨a1, a2, a3⟩, a4, a5⟩ := hr
      simp only [patchyBase, hφ, Bool.or_true, Bool.true_or] at a1 a2 a3
      exact uni a1 a2 a3 a4 a5

/-- **C73, polynomial model on single values.** Single finite values whose polynomials give non-negative
moduli and a positive density: the fit is the column version's. -/
theorem C73_polyfit_single {v : Val n} {m : SMat n} (dc pc sc : Coeffs) {x K G R : ℝ}
    (hv : v = single x) (hk : m.bulk = single K) (hg : m.shear = single G) (hd : m.density = single R)
    (h1 : 0 ≤ pc.poly K x) (h2 : 0 ≤ sc.poly G x) (h3 : 0 < dc.poly R x) :
    (polyvalMaterialS v m dc pc sc true).map SMat.toMat = polyvalMaterial v.val m.toMat dc pc sc true := by
  refine Agrees.map_eq (P := fun _ => True) ?_
  have e : polyvalMaterial v.val m.toMat dc pc sc true = mkModuli (fun _ => pc.eval (.fin K) (.fin x))
      (fun _ => sc.eval (.fin G) (.fin x)) (fun _ => dc.eval (.fin R) (.fin x)) := by
    simp only [Coeffs.eval_fin]
    unfold polyvalMaterial
    simp only [if_true]
    refine (vectorizeMaterial_ofReal (K := fun _ => pc.poly K x) (G := fun _ => sc.poly G x)
      (ρ := fun _ => dc.poly R x) ?_ (fun _ => h1) (fun _ => h2) (fun _ => h3)).trans
      (mkModuli_ofReal (fun _ => h1) (fun _ => h2) (fun _ => h3)).symm
    intro i
    simp only [polyfitRow, if_true, SMat.toMat, hv, hk, hg, hd, single, c_apply, Coeffs.eval_fin]
    exact mkModuli_ofReal (K := fun _ => pc.poly K x) (G := fun _ => sc.poly G x)
      (ρ := fun _ => dc.poly R x) (fun _ => h1) (fun _ => h2) (fun _ => h3)
  rw [e]
  unfold polyvalMaterialS
  simp only [if_true, hv, hk, hg, hd, single, Bool.or_false, c_apply]
  exact (mkModuliS_agrees _ _ _).mono fun _ _ => trivial

/-- **C73 is false: patchy cement.** With single values for mineral, cement, porosity, critical porosity,
upper-bound cement fraction and shear reduction, a column of lower-bound pressures or coordination
numbers always raises `IndexError`, whatever the column version gives. -/
theorem C73_refuted_patchy (f : SPatchy n) (φ p : Val n) (mineral : SMat n)
    (hb : patchyBase mineral f.cement φ (f.criticalPorosity - f.upperBoundCementFraction)
      f.criticalPorosity f.shearReduction = false)
    (hc : f.lowerBoundPressure.isCol = true ∨ f.coordinationNumber.isCol = true) {m : Mat n}
    (hm : f.erase.evalMaterial p.val φ.val mineral.toMat = .ok m) :
    f.evalMaterial p φ mineral = .error .indexError :=
  patchyCementS_fails _ _ _ _ _ _ _ _ _ _ _ hb rfl hc hm

/-- **C73 is false: friable pressure dependency.** With a mineral, porosity and critical porosity given
once, a column of pressures makes the friable-sand pressure dependency raise `ValueError`, whatever the
column version gives. -/
theorem C73_refuted_friable_dependency (f : SFriable n) (mat mineral : SMat n) (p : SPressure n)
    (φ : Val n) (hφ : φ.isCol = false) (hc : f.criticalPorosity.isCol = false)
    (hd : mineral.density.isCol = false) {q : Val n} (hq : p.truncatedRock = .ok q)
    (hcol : p.truncatedReference.isCol = true) {m : Mat n}
    (hm : OPE.pressureDependency (.friable f.erase) mat.toMat p.erase φ.val mineral.toMat = .ok m) :
    pressureDependencyS (.friable f) mat p φ mineral = .error .valueError := by
  unfold pressureDependencyS
  rw [hq, bind_ok]
  dsimp only
  unfold ratioDependencyS
  have hr : ∃ r : Mat n, friableSand mineral.toMat φ.val f.criticalPorosity.val
      p.truncatedReference.val f.coordinationNumber.val f.shearReduction.val = .ok r := by
    unfold OPE.pressureDependency at hm
    obtain ⟨a, -, hm⟩ := bind_eq_ok.mp hm
    dsimp only at hm
    rw [bind_ok] at hm
    simp only [PDModel.pressureDependency] at hm
    unfold ratioDependency at hm
    obtain ⟨b, hb, -⟩ := bind_eq_ok.mp hm
    simp only [PDModel.eval] at hb
    obtain ⟨r, hr, -⟩ := bind_eq_ok.mp hb
    rw [truncatedReference_val]
    exact ⟨r, hr⟩
  obtain ⟨r, hr⟩ := hr
  have ag := friableSandS_agrees mineral φ f.criticalPorosity p.truncatedReference f.coordinationNumber
    f.shearReduction
  rw [hr] at ag
  cases hs : friableSandS mineral φ f.criticalPorosity p.truncatedReference f.coordinationNumber
      f.shearReduction with
  | error e => rw [hs] at ag; simp [Agrees] at ag
  | ok a =>
    rw [hs] at ag
    obtain ⟨-, ⟨a1, a2, a3⟩, -, -⟩ := ag
    have e1 : (SPDModel.friable f).eval p.truncatedReference φ mineral = .error .valueError := by
      simp only [SPDModel.eval, SFriable.evalMaterial, hs, bind_ok]
      unfold stackMaterial
      rw [if_neg]
      rw [a1, a3]
      simp [hφ, hc, hd, hcol]
    rw [e1, bind_error]

/-- **C73 is false: depth trend.** One depth for all rows and a column of reference depths always raises
`ValueError`. -/
theorem C73_refuted_depth_trend (t : SDepthTrend n) (m : SMat n) {r : Val n}
    (h1 : t.depth.isCol = false) (h2 : t.referenceDepth = some r) (h3 : r.isCol = true) :
    t.adjustMaterial m = .error .valueError := by
  unfold SDepthTrend.adjustMaterial SDepthTrend.effectiveDepth
  rw [h2]
  dsimp only
  rw [failIf_true ⟨by simp [h1], h3⟩, bind_error, bind_error]

/-! ## Concrete cases -/

/-- Quartz, given once (36.8, 44 and 2650). -/
noncomputable def quartzS (n : ℕ) : SMat n :=
  ⟨single 36.8, single 44, single 2650, single (Real.sqrt ((36.8 + 4/3 * 44) / 2650)),
    single (Real.sqrt (44 / 2650))⟩

theorem quartzS_toMat : (quartzS n).toMat = Mat.ofReal (fun _ => 36.8) (fun _ => 44) (fun _ => 2650) := rfl

/-- Patchy cement with a column of two lower-bound pressures, 20 and 25 MPa, everything else given once. -/
noncomputable def exPatchyS : SPatchy 2 :=
  ⟨quartzS 2, single 0.4, single 0.04, column (finC ![2e7, 2.5e7]), single 0.1, single 9, single 0.5⟩

/-- On columns, this patchy cement is defined; with single values it raises `IndexError`. -/
theorem C73_refuted_patchy_example :
    (∃ m, exPatchyS.erase.evalMaterial (c 1e7) (c 0.2) (quartzS 2).toMat = .ok m) ∧
    exPatchyS.evalMaterial (single 1e7) (single 0.2) (quartzS 2) = .error .indexError := by
  have h : ∃ m, exPatchyS.erase.evalMaterial (c 1e7) (c 0.2) (quartzS 2).toMat = .ok m := by
    obtain ⟨m, -, -, -, h, -⟩ := C75_patchy_cement_defined (φ := fun _ => 0.2) (ccp := fun _ => 0.4 - 0.04)
      (ub := fun _ => 0.4 - 0.1) (p := fun _ => 1e7) (plb := ![2e7, 2.5e7]) (crit := fun _ => 0.4)
      (sr := fun _ => 0.5) (Nf := fun _ => 9) (Nc := fun _ => 9) quartz_pos quartz_pos exCementRange
      (fun _ => by norm_num) (fun _ => by norm_num) (fun _ => by norm_num) (fun _ => by norm_num)
      (fun _ => by norm_num) (fun _ => by norm_num) (fun _ => by norm_num) (fun _ => by norm_num)
      (fun _ => by norm_num) (fun i => by fin_cases i <;> norm_num) (fun _ => by norm_num)
      (fun _ => by norm_num) (fun _ => by norm_num)
    exact ⟨m, h⟩
  obtain ⟨m, hm⟩ := h
  exact ⟨⟨m, hm⟩, C73_refuted_patchy exPatchyS (single 0.2) (single 1e7) (quartzS 2) rfl (.inl rfl) hm⟩

/-- A friable-sand pressure dependency with a column of reference pressures, everything else given once:
defined on columns, `ValueError` with single values. -/
theorem C73_refuted_friable_example :
    let f : SFriable 2 := ⟨single 0.4, single 1, single 9⟩
    let mat : SMat 2 := ⟨single 12, single 10, single 2000,
      single (Real.sqrt ((12 + 4/3 * 10) / 2000)), single (Real.sqrt (10 / 2000))⟩
    let p : SPressure 2 := ⟨single 100, column (c 90), some (single 80), none, some (single 80)⟩
    (∃ r, OPE.pressureDependency (.friable f.erase) mat.toMat p.erase (c 0) (quartzS 2).toMat = .ok r) ∧
    pressureDependencyS (.friable f) mat p (single 0) (quartzS 2) = .error .valueError := by
  intro f mat p
  obtain ⟨r, hr⟩ := exFriableDependency
  have hr' : OPE.pressureDependency (.friable f.erase) mat.toMat p.erase (c 0) (quartzS 2).toMat = .ok r := hr
  exact ⟨⟨r, hr'⟩, C73_refuted_friable_dependency f mat (quartzS 2) p (single 0) rfl rfl rfl rfl rfl hr'⟩

/-- A depth trend with coefficients that keep the material, one depth and a column of reference depths:
defined on columns, `ValueError` with a single depth. -/
theorem C73_refuted_depth_example :
    let one : Coeffs := ⟨1, 0, ![![0], ![1]]⟩
    let t : SDepthTrend 2 := ⟨single 2000, some (column (finC ![1000, 1500])), none, true, ⟨one, one, one⟩⟩
    (∃ r, t.erase.adjustMaterial (quartzS 2).toMat = .ok r) ∧
    t.adjustMaterial (quartzS 2) = .error .valueError := by
  intro one t
  refine ⟨?_, C73_refuted_depth_trend t _ rfl rfl rfl⟩
  have e : t.erase.effectiveDepth = finC fun i => 2000 - (![1000, 1500] : Fin 2 → ℝ) i := by
    funext i; simp [t, SDepthTrend.erase, DepthTrend.effectiveDepth, single, column]
  obtain ⟨r, hr, -⟩ := C45_moduli_fit (m := (quartzS 2).toMat) (K := fun _ => 36.8) (G := fun _ => 44)
    (ρ := fun _ => 2650) (v := fun i => 2000 - (![1000, 1500] : Fin 2 → ℝ) i) ⟨rfl, rfl, rfl⟩ one one one
    (fun i => by simp [one]) (fun i => by simp [one]; norm_num) (fun i => by simp [one])
  refine ⟨r, ?_⟩
  unfold DepthTrend.adjustMaterial
  rw [e]
  exact hr

/-- The partial theorem applies to a non-trivial dry rock: a porosity column with everything else given
once, patchy cement, a friable pressure dependency and a depth trend. -/
example (p : SPressure 2) :
    let d : SDryRock 2 := ⟨.patchy exPatchyS, column (finC ![0.2, 0.25]),
      [.pressureDependency (.friable ⟨single 0.4, single 1, single 9⟩),
        .depthTrend ⟨single 2000, some (single 1000), none, true,
          ⟨rowCoeffs 1 0, rowCoeffs 1 0, rowCoeffs 1 0⟩⟩]⟩
    (d.material (quartzS 2) p).map SMat.toMat = d.erase.material (quartzS 2).toMat p.erase := by
  intro d
  refine C73_single_is_column_partial d _ p (.inl rfl) ?_
  intro a ha
  simp only [d, List.mem_cons, List.not_mem_nil, or_false] at ha
  rcases ha with rfl | rfl
  · exact rfl
  · exact ⟨rfl, fun r hr => by injection hr with hr; subst hr; simp [single]⟩

end OPE.Shapes
