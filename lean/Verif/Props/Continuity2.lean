import Verif.Props.Continuity
import Verif.Props.Published6

/-!
# C164: no jumps in the pore fluids

Inputs vary over an arbitrary topological space `X`.  If temperature, pressure, salinity, densities, saturations …
depend continuously on the point, so do bulk modulus and density of every constituent and of their mixture.
-/

namespace OPE

open Classical Topology

variable {X : Type} [TopologicalSpace X] {n : ℕ}

/-- Fluids, one per row, whose bulk moduli and densities depend continuously on the point. -/
structure ContFluid (F : X → Fin n → Published.Fluid) : Prop where
  bulk : ∀ i, Continuous fun x => (F x i).K
  density : ∀ i, Continuous fun x => (F x i).ρ

/-! ### The correlations -/

theorem brine_cont {T P S : X → ℝ} (cT : Continuous T) (cP : Continuous P) (cS : Continuous S) :
    Continuous (fun x => (Published.brine (T x) (P x) (S x)).K) ∧
      Continuous (fun x => (Published.brine (T x) (P x) (S x)).ρ) := by
  have hS : Continuous fun x => (S x * 1e-6) ^ (1.5 : ℝ) :=
    Continuous.rpow_const (by fun_prop) fun _ => .inr (by norm_num)
  have hρ : Continuous fun x => 1000 * Published.brineDensity (T x) (P x * 1e-6) (S x * 1e-6) := by
    unfold Published.brineDensity Published.waterDensity
    fun_prop
  refine ⟨?_, hρ⟩
  refine hρ.mul (Continuous.pow ?_ 2)
  unfold Published.brineVelocity Published.waterVelocity
  fun_prop

theorem volumeFactor_ge {T ρ R G : ℝ} (hT : 0 ≤ T) (hρ : 0 < ρ) (hR : 0 ≤ R) (hG : 0 ≤ G) :
    0.972 ≤ Published.volumeFactor T ρ R G := by
  unfold Published.volumeFactor
  have : 0 ≤ (2.4 * R * (G / ρ) ^ (1 / 2 : ℝ) + T + 17.8) ^ (1.175 : ℝ) := by positivity
  linarith

theorem oilVelocity_cont {T P ρ : X → ℝ} (cT : Continuous T) (cP : Continuous P) (cρ : Continuous ρ)
    (h0 : ∀ x, 0 < ρ x) (h1 : ∀ x, ρ x < 2.6) : Continuous fun x => Published.oilVelocity (T x) (P x) (ρ x) := by
  have e1 : Continuous fun x => (ρ x / (2.6 - ρ x)) ^ (1 / 2 : ℝ) :=
    Continuous.rpow_const (cρ.div (continuous_const.sub cρ) fun x => by have := h1 x; linarith)
      fun _ => .inr (by norm_num)
  have e2 : Continuous fun x => (1.08 / ρ x - 1) ^ (1 / 2 : ℝ) :=
    Continuous.rpow_const ((continuous_const.div cρ fun x => (h0 x).ne').sub continuous_const)
      fun _ => .inr (by norm_num)
  unfold Published.oilVelocity
  fun_prop

theorem oil_cont {T P r R G : X → ℝ} (cT : Continuous T) (cP : Continuous P) (cr : Continuous r) (cR : Continuous R)
    (cG : Continuous G) (hT : ∀ x, 0 ≤ T x) (hr : ∀ x, 700 ≤ r x ∧ r x ≤ 1000) (hR : ∀ x, 0 ≤ R x)
    (hG : ∀ x, 0 ≤ G x) :
    Continuous (fun x => (Published.oil (T x) (P x) (r x) (R x) (G x)).K) ∧
      Continuous (fun x => (Published.oil (T x) (P x) (r x) (R x) (G x)).ρ) := by
  have hr0 : ∀ x, 0 < r x / 1000 := fun x => by have := (hr x).1; positivity
  have hr1 : ∀ x, r x / 1000 ≤ 1 := fun x => by have := (hr x).2; linarith
  have cr' : Continuous fun x => r x / 1000 := by fun_prop
  have cP' : Continuous fun x => P x * 1e-6 := by fun_prop
  have hB := fun x => volumeFactor_ge (hT x) (hr0 x) (hR x) (hG x)
  have cB : Continuous fun x => Published.volumeFactor (T x) (r x / 1000) (R x) (G x) := by
    unfold Published.volumeFactor
    have e1 : Continuous fun x => (G x / (r x / 1000)) ^ (1 / 2 : ℝ) :=
      Continuous.rpow_const (cG.div cr' fun x => (hr0 x).ne') fun _ => .inr (by norm_num)
    have e2 : Continuous fun x => (2.4 * R x * (G x / (r x / 1000)) ^ (1 / 2 : ℝ) + T x + 17.8) ^ (1.175 : ℝ) :=
      Continuous.rpow_const (by fun_prop) fun _ => .inr (by norm_num)
    fun_prop
  have cw : Continuous fun x => Published.deadWeight (R x) := by
    unfold Published.deadWeight
    exact continuous_const.max (continuous_const.sub cR.abs)
  have cd : Continuous fun x => Published.deadOilDensity (T x) (P x * 1e-6) (r x / 1000) := by
    have e : Continuous fun x => (T x + 17.78) ^ (1.175 : ℝ) :=
      Continuous.rpow_const (by fun_prop) fun _ => .inr (by norm_num)
    unfold Published.deadOilDensity
    refine Continuous.div (by fun_prop) (by fun_prop) fun x => ?_
    have : 0 ≤ (T x + 17.78) ^ (1.175 : ℝ) := Real.rpow_nonneg (by have := hT x; positivity) _
    positivity
  have cl : Continuous fun x => Published.liveOilDensity (T x) (r x / 1000) (R x) (G x) := by
    unfold Published.liveOilDensity
    exact Continuous.div (by fun_prop) cB fun x => by have := hB x; norm_num at this; positivity
  have cps : Continuous fun x => Published.pseudoDensity (T x) (r x / 1000) (R x) (G x) := by
    unfold Published.pseudoDensity
    refine (cr'.div cB fun x => by have := hB x; norm_num at this; positivity).mul (Continuous.inv₀ (by fun_prop) fun x => ?_)
    have := hR x; positivity
  have hps : ∀ x, 0 < Published.pseudoDensity (T x) (r x / 1000) (R x) (G x) ∧
      Published.pseudoDensity (T x) (r x / 1000) (R x) (G x) < 2.6 := by
    intro x
    have h1 := hB x
    have h2 : 0 < Published.volumeFactor (T x) (r x / 1000) (R x) (G x) := lt_of_lt_of_le (by norm_num) h1
    have h3 := hR x
    have h4 := hr0 x
    unfold Published.pseudoDensity
    refine ⟨by positivity, ?_⟩
    have h5 : r x / 1000 / Published.volumeFactor (T x) (r x / 1000) (R x) (G x) < 2.6 := by
      rw [div_lt_iff₀ h2]
      have := hr1 x
      linarith
    have h9 : 0 ≤ 0.001 * R x := by positivity
    have h6 : (1 + 0.001 * R x)⁻¹ ≤ 1 := inv_le_one_of_one_le₀ (by linarith)
    have h7 : 0 ≤ (1 + 0.001 * R x)⁻¹ := by positivity
    have h8 : 0 ≤ r x / 1000 / Published.volumeFactor (T x) (r x / 1000) (R x) (G x) := by positivity
    nlinarith
  have hρ : Continuous fun x => (Published.oil (T x) (P x) (r x) (R x) (G x)).ρ := by
    show Continuous fun x => 1000 * (Published.deadWeight (R x) * Published.deadOilDensity (T x) (P x * 1e-6) (r x / 1000)
      + (1 - Published.deadWeight (R x)) * Published.liveOilDensity (T x) (r x / 1000) (R x) (G x))
    fun_prop
  refine ⟨hρ.mul (Continuous.pow ?_ 2), hρ⟩
  have v1 := oilVelocity_cont cT cP' cr' hr0 fun x => by have := hr1 x; linarith
  have v2 := oilVelocity_cont cT cP' cps (fun x => (hps x).1) fun x => (hps x).2
  fun_prop

/-- The rate of change of the compressibility with pressure. -/
theorem gasZ_deriv {t p : ℝ} (hp : 0 < p) : deriv (Published.gasZ t) p = (0.03 + 0.00527 * (3.5 - t) ^ 3)
      + 0.109 * (3.85 - t) ^ 2 * (Real.exp (-((0.45 + 8 * (0.56 - 1 / t) ^ 2) / t * p ^ (1.2:ℝ)))
        * -((0.45 + 8 * (0.56 - 1 / t) ^ 2) / t * (1.2 * p ^ (0.2:ℝ)))) := by
  set k := (0.45 + 8 * (0.56 - 1 / t) ^ 2) / t with hk
  have hE : ∀ x : ℝ, Published.gasZ t x = (0.03 + 0.00527 * (3.5 - t) ^ 3) * x
      + (0.642 * t - 0.007 * t ^ 4 - 0.52) + 0.109 * (3.85 - t) ^ 2 * Real.exp (-(k * x ^ (1.2:ℝ))) := by
    intro x; unfold Published.gasZ; rw [hk]; congr 3; ring
  have hpow : HasDerivAt (fun x : ℝ => x ^ (1.2:ℝ)) (1.2 * p ^ (0.2:ℝ)) p := by
    have := Real.hasDerivAt_rpow_const (x := p) (p := 1.2) (Or.inl hp.ne')
    norm_num at this ⊢; exact this
  have h1 := (((hasDerivAt_id p).const_mul (0.03 + 0.00527 * (3.5 - t) ^ 3)).add_const
    (0.642 * t - 0.007 * t ^ 4 - 0.52)).add
    ((((hpow.const_mul k).neg).exp).const_mul (0.109 * (3.85 - t) ^ 2))
  have hD : HasDerivAt (Published.gasZ t) ((0.03 + 0.00527 * (3.5 - t) ^ 3)
      + 0.109 * (3.85 - t) ^ 2 * (Real.exp (-(k * p ^ (1.2:ℝ))) * -(k * (1.2 * p ^ (0.2:ℝ))))) p := by
    rw [funext hE]
    exact h1.congr_deriv (by simp)
  exact hD.deriv

theorem gas_cont {T P G : X → ℝ} (cT : Continuous T) (cP : Continuous P) (cG : Continuous G)
    (hT : ∀ x, 0 ≤ T x ∧ T x ≤ 300) (hP : ∀ x, 0 < P x) (hG : ∀ x, 0.29 ≤ G x ∧ G x ≤ 1.4) :
    Continuous (fun x => (Published.gas (T x) (P x) (G x)).K) ∧
      Continuous (fun x => (Published.gas (T x) (P x) (G x)).ρ) := by
  have hT0 : ∀ x, 0 < T x + 273.15 := fun x => by have := (hT x).1; positivity
  have hP0 : ∀ x, 0 < P x * 1e-6 := fun x => by have := hP x; positivity
  have hG0 : ∀ x, 0 < G x := fun x => by have := (hG x).1; norm_num at this; linarith
  have hq : ∀ x, 0 < 4.892 - 0.4048 * G x := fun x => by have := (hG x).2; norm_num at this ⊢; linarith
  have hd : ∀ x, 0 < 94.72 + 170.75 * G x := fun x => by have := hG0 x; positivity
  have ct : Continuous fun x => Published.gasTpr (T x + 273.15) (G x) := by
    unfold Published.gasTpr
    exact Continuous.div (by fun_prop) (by fun_prop) fun x => (hd x).ne'
  have cp : Continuous fun x => Published.gasPpr (P x * 1e-6) (G x) := by
    unfold Published.gasPpr
    exact Continuous.div (by fun_prop) (by fun_prop) fun x => (hq x).ne'
  have hp : ∀ x, 0 < Published.gasPpr (P x * 1e-6) (G x) := fun x => by
    have := hq x; have := hP0 x; unfold Published.gasPpr; positivity
  have ht : ∀ x, 0.815 ≤ Published.gasTpr (T x + 273.15) (G x) ∧ Published.gasTpr (T x + 273.15) (G x) ≤ 4 := fun x => by
    have h1 := hT x; have h2 := hG x
    unfold Published.gasTpr
    rw [le_div_iff₀ (hd x), div_le_iff₀ (hd x)]; norm_num at h1 h2 ⊢; constructor <;> linarith
  have hZ := fun x => gasZ_pos (ht x).1 (ht x).2 (hp x)
  have hb : Continuous fun x => (Published.gas (T x) (P x) (G x)).K := by
    show Continuous fun x => Published.gasBulk (T x + 273.15) (P x * 1e-6) (G x)
    unfold Published.gasBulk
    generalize hτ : (fun x => Published.gasTpr (T x + 273.15) (G x)) = t at *
    generalize hπ : (fun x => Published.gasPpr (P x * 1e-6) (G x)) = p at *
    have e1 : ∀ x, Published.gasTpr (T x + 273.15) (G x) = t x := fun x => congrFun hτ x
    have e2 : ∀ x, Published.gasPpr (P x * 1e-6) (G x) = p x := fun x => congrFun hπ x
    simp only [e1, e2] at *
    have ht0 : ∀ x, t x ≠ 0 := fun x => by have := (ht x).1; intro h; rw [h] at this; norm_num at this
    have c1 : Continuous fun x => 1 / t x := continuous_const.div ct ht0
    have c2 : Continuous fun x => p x ^ (1.2 : ℝ) := Continuous.rpow_const cp fun _ => .inr (by norm_num)
    have c3 : Continuous fun x => p x ^ (0.2 : ℝ) := Continuous.rpow_const cp fun _ => .inr (by norm_num)
    have ck : Continuous fun x => (0.45 + 8 * (0.56 - 1 / t x) ^ 2) / t x := Continuous.div (by fun_prop) ct ht0
    have cz : Continuous fun x => Published.gasZ (t x) (p x) := by
      unfold Published.gasZ
      have : Continuous fun x => -(0.45 + 8 * (0.56 - 1 / t x) ^ 2) * p x ^ (1.2 : ℝ) / t x :=
        Continuous.div (by fun_prop) ct ht0
      fun_prop
    have cD : Continuous fun x => deriv (Published.gasZ (t x)) (p x) := by
      simp only [fun x => gasZ_deriv (t := t x) (hp x)]
      fun_prop
    have cΓ : Continuous fun x => Published.gasGamma (p x) := by
      unfold Published.gasGamma
      have a1 : Continuous fun x => 5.6 / (p x + 2) := continuous_const.div (by fun_prop) fun x => by
        have := hp x; positivity
      have a2 : Continuous fun x => 27.1 / (p x + 3.5) ^ 2 := continuous_const.div (by fun_prop) fun x => by
        have := hp x; positivity
      fun_prop
    refine continuous_const.mul (Continuous.mul (Continuous.div (by fun_prop) ?_ fun x => ?_) cΓ)
    · exact continuous_const.sub ((cp.div cz fun x => (hZ x).1.ne').mul cD)
    · have := div_pos (hZ x).2 (hZ x).1
      rw [sub_div, div_self (hZ x).1.ne'] at this
      have e : p x / Published.gasZ (t x) (p x) * deriv (Published.gasZ (t x)) (p x) =
        p x * deriv (Published.gasZ (t x)) (p x) / Published.gasZ (t x) (p x) := by ring
      rw [e]
      exact this.ne'
  refine ⟨hb, ?_⟩
  show Continuous fun x => Published.gasDensity (T x + 273.15) (P x * 1e-6) (G x)
  unfold Published.gasDensity
  refine Continuous.div (by fun_prop) ?_ fun x => by have := (hZ x).1; have := hT0 x; positivity
  refine Continuous.mul (by fun_prop) ?_
  unfold Published.gasZ
  have ht0 : ∀ x, Published.gasTpr (T x + 273.15) (G x) ≠ 0 := fun x => by
    have := (ht x).1; intro h; rw [h] at this; norm_num at this
  have c1 : Continuous fun x => 1 / Published.gasTpr (T x + 273.15) (G x) := continuous_const.div ct ht0
  have c2 : Continuous fun x => Published.gasPpr (P x * 1e-6) (G x) ^ (1.2 : ℝ) :=
    Continuous.rpow_const cp fun _ => .inr (by norm_num)
  have : Continuous fun x => -(0.45 + 8 * (0.56 - 1 / Published.gasTpr (T x + 273.15) (G x)) ^ 2)
      * Published.gasPpr (P x * 1e-6) (G x) ^ (1.2 : ℝ) / Published.gasTpr (T x + 273.15) (G x) :=
    Continuous.div (by fun_prop) ct ht0
  fun_prop

/-! ### Constituents -/

/-- A constituent that varies: what it says at each point, with the fluid it describes and its saturation. -/
structure PoreAlong (X : Type) (n : ℕ) where
  kind : X → FluidKind n
  model : Option Provider
  fluid : X → Fin n → Published.Fluid
  sat : X → Fin n → ℝ

/-- The constituent at a point. -/
def PoreAlong.at (p : PoreAlong X n) (x : X) : Pore n := ⟨p.kind x, p.model, p.fluid x, p.sat x⟩

/-- A constituent of one kind whose properties depend continuously on the point, within the ranges of the
correlations. -/
inductive VariesAs (T P : X → Fin n → ℝ) : (X → FluidKind n) → (X → Fin n → Published.Fluid) → Prop
  | material (m : X → Mat n) (F : X → Fin n → Published.Fluid) (h : ∀ x, (m x).IsFluid (F x)) (cF : ContFluid F) :
      VariesAs T P (fun x => .material (m x)) F
  | brine (S : X → Fin n → ℝ) (cS : Continuous S) (hT : ∀ x i, 0 ≤ T x i ∧ T x i ≤ 350)
      (hP : ∀ x i, 0 ≤ P x i ∧ P x i ≤ 100e6) (hS : ∀ x i, 0 ≤ S x i ∧ S x i ≤ 300000) :
      VariesAs T P (fun x => .brine (finC (S x))) fun x i => Published.brine (T x i) (P x i) (S x i)
  | oil (r R G : X → Fin n → ℝ) (cr : Continuous r) (cR : Continuous R) (cG : Continuous G)
      (hT : ∀ x i, 0 ≤ T x i ∧ T x i ≤ 150) (hP : ∀ x i, 0 ≤ P x i ∧ P x i ≤ 100e6)
      (hr : ∀ x i, 700 ≤ r x i ∧ r x i ≤ 1000) (hR : ∀ x i, 0 ≤ R x i ∧ R x i ≤ 400)
      (hG : ∀ x i, 0 ≤ G x i ∧ G x i ≤ 1) :
      VariesAs T P (fun x => .oil (finC (r x)) (finC (R x)) (finC (G x)))
        fun x i => Published.oil (T x i) (P x i) (r x i) (R x i) (G x i)
  | gas (G : X → Fin n → ℝ) (cG : Continuous G) (hT : ∀ x i, 0 ≤ T x i ∧ T x i ≤ 300) (hP : ∀ x i, 0 < P x i)
      (hG : ∀ x i, 0.29 ≤ G x i ∧ G x i ≤ 1.4) :
      VariesAs T P (fun x => .gas (finC (G x))) fun x i => Published.gas (T x i) (P x i) (G x i)

theorem row_cont {f : X → Fin n → ℝ} (h : Continuous f) (i : Fin n) : Continuous fun x => f x i :=
  (continuous_apply i).comp h

theorem VariesAs.cont {T P : X → Fin n → ℝ} (cT : Continuous T) (cP : Continuous P) {k : X → FluidKind n}
    {F : X → Fin n → Published.Fluid} (h : VariesAs T P k F) : ContFluid F ∧ ∀ x, (k x).Describes (T x) (P x) (F x) := by
  cases h with
  | material m F h cF => exact ⟨cF, fun x => .material _ _ (h x)⟩
  | brine S cS h1 h2 h3 =>
    have := fun i => brine_cont (row_cont cT i) (row_cont cP i) (row_cont cS i)
    exact ⟨⟨fun i => (this i).1, fun i => (this i).2⟩, fun x => .brine _ (h1 x) (h2 x) (h3 x)⟩
  | oil r R G cr cR cG h1 h2 h3 h4 h5 =>
    have := fun i => oil_cont (row_cont cT i) (row_cont cP i) (row_cont cr i) (row_cont cR i) (row_cont cG i)
      (fun x => (h1 x i).1) (fun x => h3 x i) (fun x => (h4 x i).1) (fun x => (h5 x i).1)
    exact ⟨⟨fun i => (this i).1, fun i => (this i).2⟩, fun x => .oil _ _ _ (h1 x) (h2 x) (h3 x) (h4 x) (h5 x)⟩
  | gas G cG h1 h2 h3 =>
    have := fun i => gas_cont (row_cont cT i) (row_cont cP i) (row_cont cG i)
      (fun x => h1 x i) (fun x => h2 x i) (fun x => h3 x i)
    exact ⟨⟨fun i => (this i).1, fun i => (this i).2⟩, fun x => .gas _ (h1 x) (h2 x) (h3 x)⟩

/-- A constituent is a gas by its type everywhere or nowhere. -/
theorem VariesAs.isGas {T P : X → Fin n → ℝ} {k : X → FluidKind n} {F : X → Fin n → Published.Fluid}
    (h : VariesAs T P k F) (x y : X) : (k x).IsGas ↔ (k y).IsGas := by
  cases h <;> exact Iff.rfl

/-! ### Mixing -/

/-- Constituents that vary continuously. -/
structure PoresAlong (T P : X → Fin n → ℝ) (L : List (PoreAlong X n)) : Prop where
  varies : ∀ p ∈ L, VariesAs T P p.kind p.fluid
  sat : ∀ p ∈ L, Continuous p.sat

theorem sum_cont {α : Type*} (L : List α) {f : α → X → ℝ} {x : X} (h : ∀ a ∈ L, ContinuousAt (f a) x) :
    ContinuousAt (fun y => (L.map fun a => f a y).sum) x := by
  induction L with
  | nil => simpa using continuousAt_const
  | cons a L ih =>
    simp only [List.map_cons, List.sum_cons]
    exact (h a List.mem_cons_self).add (ih fun b hb => h b (List.mem_cons_of_mem _ hb))

/-- The row of a list of constituents at a point. -/
theorem poreRow_at (L : List (PoreAlong X n)) (x : X) (i : Fin n) :
    poreRow (L.map (·.at x)) i = L.map fun p => (p.fluid x i, p.sat x i) := by
  simp [poreRow, PoreAlong.at, List.map_map, Function.comp_def]

theorem poreTotal_at (L : List (PoreAlong X n)) (x : X) (i : Fin n) :
    poreTotal (L.map (·.at x)) i = (L.map fun p => p.sat x i).sum := by
  simp [poreTotal, PoreAlong.at, List.map_map, Function.comp_def]

/-- What mixing needs at one point and in one row. -/
structure MixAt (L : List (PoreAlong X n)) (i : Fin n) (x : X) : Prop where
  bulk : ∀ p ∈ L, ContinuousAt (fun y => (p.fluid y i).K) x
  density : ∀ p ∈ L, ContinuousAt (fun y => (p.fluid y i).ρ) x
  sat : ∀ p ∈ L, ContinuousAt (fun y => p.sat y i) x
  pos : ∀ p ∈ L, 0 < (p.fluid x i).K
  nonneg : ∀ p ∈ L, 0 ≤ p.sat x i

theorem MixAt.total {L : List (PoreAlong X n)} {i : Fin n} {x : X} (h : MixAt L i x) :
    ContinuousAt (fun y => poreTotal (L.map (·.at y)) i) x := by
  simp only [poreTotal_at]
  exact sum_cont L h.sat

theorem sum_pos_of {α : Type*} (L : List α) {f g : α → ℝ} (hf : ∀ a ∈ L, 0 ≤ f a) (hg : ∀ a ∈ L, 0 < g a)
    (h : 0 < (L.map f).sum) : 0 < (L.map fun a => f a / g a).sum := by
  induction L with
  | nil => simp at h
  | cons a L ih =>
    simp only [List.map_cons, List.sum_cons] at h ⊢
    have h1 := hf a List.mem_cons_self
    have h2 := hg a List.mem_cons_self
    have h3 : 0 ≤ (L.map fun a => f a / g a).sum := List.sum_nonneg fun y hy => by
      obtain ⟨b, hb, rfl⟩ := List.mem_map.mp hy
      exact div_nonneg (hf b (List.mem_cons_of_mem _ hb)) (hg b (List.mem_cons_of_mem _ hb)).le
    rcases h1.eq_or_lt with h0 | h0
    · rw [← h0, zero_div, zero_add]
      exact ih (fun b hb => hf b (List.mem_cons_of_mem _ hb)) (fun b hb => hg b (List.mem_cons_of_mem _ hb))
        (by rw [← h0, zero_add] at h; exact h)
    · positivity

theorem sum_div_list {α : Type*} (L : List α) (f : α → ℝ) (S : ℝ) : (L.map fun a => f a / S).sum = (L.map f).sum / S := by
  induction L with
  | nil => simp
  | cons a L ih => simp [ih, add_div]

theorem wood_contAt {L : List (PoreAlong X n)} {i : Fin n} {x : X} (h : MixAt L i x)
    (ht : 0 < poreTotal (L.map (·.at x)) i) :
    ContinuousAt (fun y => (Published.wood (poreRow (L.map (·.at y)) i)).K) x ∧
      ContinuousAt (fun y => (Published.wood (poreRow (L.map (·.at y)) i)).ρ) x := by
  have cS := h.total
  simp only [poreTotal_at] at ht cS
  simp only [poreRow_at, Published.wood, List.map_map, Function.comp_def]
  constructor
  · refine ContinuousAt.inv₀ (sum_cont L fun p hp => ((h.sat p hp).div cS ht.ne').div (h.bulk p hp) (h.pos p hp).ne') ?_
    refine (sum_pos_of L (f := fun p => p.sat x i / (L.map fun p => p.sat x i).sum) (g := fun p => (p.fluid x i).K)
      (fun p hp => div_nonneg (h.nonneg p hp) ht.le) h.pos ?_).ne'
    have e : (L.map fun p => p.sat x i / (L.map fun p => p.sat x i).sum).sum = 1 := by
      have := sum_div_list L (fun p => p.sat x i) (L.map fun p => p.sat x i).sum
      rw [this, div_self ht.ne']
    rw [e]; norm_num
  · exact sum_cont L fun p hp => ((h.sat p hp).div cS ht.ne').mul (h.density p hp)

/-- Where there is nothing, Wood's formula has a constant value. -/
theorem wood_nothing {l : List (Published.Fluid × ℝ)} (h : (l.map fun x => x.2).sum = 0) :
    Published.wood l = ⟨0, 0⟩ := by
  unfold Published.wood
  simp [h]

theorem brie_contAt {A B : List (PoreAlong X n)} {i : Fin n} {x : X} {e : X → ℝ} (hA : MixAt A i x) (hB : MixAt B i x)
    (ce : ContinuousAt e x) (he : 0 < e x) (h0 : 0 ≤ poreTotal (A.map (·.at x)) i)
    (hl : ∀ y, 1e-15 ≤ poreTotal (A.map (·.at y)) i ∨ poreTotal (A.map (·.at y)) i = 0)
    (hg : ∀ y, 1e-15 ≤ poreTotal (B.map (·.at y)) i ∨ poreTotal (A.map (·.at y)) i = 1) :
    ContinuousAt (fun y => (Published.brie (poreRow (A.map (·.at y)) i) (poreRow (B.map (·.at y)) i) (e y)).K) x ∧
      ContinuousAt (fun y => (Published.brie (poreRow (A.map (·.at y)) i) (poreRow (B.map (·.at y)) i) (e y)).ρ) x := by
  have cS := hA.total
  have tA : ∀ y, ((poreRow (A.map (·.at y)) i).map fun z => z.2).sum = poreTotal (A.map (·.at y)) i := fun y => by
    simp [poreRow, poreTotal, List.map_map, Function.comp_def]
  simp only [Published.brie, tA]
  generalize hS : (fun y => poreTotal (A.map (·.at y)) i) = S at *
  have eS : ∀ y, poreTotal (A.map (·.at y)) i = S y := fun y => congrFun hS y
  simp only [eS] at cS h0 hl hg tA ⊢
  rcases hl x with h | h
  · have hpos : 0 < S x := lt_of_lt_of_le (by norm_num) h
    obtain ⟨a1, a2⟩ := wood_contAt hA (by rw [eS]; exact hpos)
    have cP : ContinuousAt (fun y => S y ^ e y) x := cS.rpow ce (.inl hpos.ne')
    by_cases hb : 1e-15 ≤ poreTotal (B.map (·.at x)) i
    · obtain ⟨b1, b2⟩ := wood_contAt hB (lt_of_lt_of_le (by norm_num) hb)
      exact ⟨((a1.sub b1).mul cP).add b1, (cS.mul a2).add ((continuousAt_const.sub cS).mul b2)⟩
    · have ev : ∀ᶠ y in 𝓝 x, S y = 1 := by
        filter_upwards [hB.total.eventually_lt_const (not_le.mp hb)] with y hy
        exact (hg y).resolve_left (not_le.mpr hy)
      refine ⟨a1.congr ?_, a2.congr ?_⟩
      · filter_upwards [ev] with y hy
        rw [hy, Real.one_rpow]; ring
      · filter_upwards [ev] with y hy
        rw [hy]; ring
  · have ev : ∀ᶠ y in 𝓝 x, S y = 0 := by
      filter_upwards [Filter.Tendsto.eventually_lt_const (u := 1e-15) (by rw [h]; norm_num) cS] with y hy
      exact (hl y).resolve_left (not_le.mpr hy)
    have hb := (hg x).resolve_right (by rw [h]; norm_num)
    obtain ⟨b1, b2⟩ := wood_contAt hB (lt_of_lt_of_le (by norm_num) hb)
    refine ⟨b1.congr ?_, b2.congr ?_⟩
    · filter_upwards [ev, ce.eventually_const_lt he] with y hy he'
      rw [hy, Real.zero_rpow he'.ne']; ring
    · filter_upwards [ev] with y hy
      rw [hy]; ring

/-- Constituents and mixing method along the whole space: the method and the gas indices are fixed, everything else may
vary. -/
structure MixesAlong (s : X → Sections n) (L : List (PoreAlong X n)) (method : MixMethod) (gases : Option (List ℤ))
    (F : X → Fin n → Published.Fluid) : Prop where
  method : ∀ x, (s x).mixMethod = method
  gases : ∀ x, (s x).brieGases = gases
  constant : ∃ e : X → ℝ, Continuous e ∧ ∀ x, (s x).brieConstant = .fin (e x)
  mixes : ∀ x, (s x).Mixes (L.map (·.at x)) (F x)

theorem filter_at (L : List (PoreAlong X n)) (p : Pore n → Prop) [DecidablePred p] (x : X) :
    (L.map (·.at x)).filter (fun y => decide (p y)) = (L.filter fun q => decide (p (q.at x))).map (·.at x) := by
  rw [List.filter_map]
  rfl

theorem notAtPositions_all {α : Type} {idx : List ℕ} {l : List α} (h : ∀ k, k ∈ idx ↔ k < l.length) :
    notAtPositions idx l = [] ∧ atPositions idx l = l := by
  obtain ⟨f1, f2⟩ := atPositions_filter idx l (fun _ => true) (by
      intro k x hx
      obtain ⟨hk, -⟩ := List.getElem?_eq_some_iff.mp hx
      simpa [h] using hk)
  exact ⟨by rw [f2]; simp, by rw [f1]; simp⟩

theorem atPositions_none {α : Type} (l : List α) : atPositions [] l = [] := by
  rw [(atPositions_filter [] l (fun _ => false) (by simp)).1]; simp

/-- How the constituents are mixed: all together, or liquids and gases by Brie. -/
inductive Split (s : Sections n) (L : List (Pore n)) : List (Pore n) → List (Pore n) → Prop
  | default (hg : s.brieGases = none) : Split s L (L.filter fun x => ¬ x.kind.IsGas) (L.filter fun x => x.kind.IsGas)
  | given (idx : List ℕ) (hg : s.brieGases = some (idx.map fun k : ℕ => (k : ℤ))) :
      Split s L (notAtPositions idx L) (atPositions idx L)

theorem Split.unique {s : Sections n} {L A B A' B' : List (Pore n)} (h : Split s L A B) (h' : Split s L A' B') :
    A = A' ∧ B = B' := by
  have inj : Function.Injective fun l : List ℕ => l.map fun k : ℕ => (k : ℤ) :=
    List.map_injective_iff.mpr Nat.cast_injective
  cases h with
  | default hg =>
    cases h' with
    | default _ => exact ⟨rfl, rfl⟩
    | given idx hg' => rw [hg] at hg'; cases hg'
  | given idx hg =>
    cases h' with
    | default hg' => rw [hg] at hg'; cases hg'
    | given idx' hg' =>
      rw [hg] at hg'
      injection hg' with hg'
      obtain rfl := inj hg'
      exact ⟨rfl, rfl⟩

theorem Sections.Mixes.cases_split {s : Sections n} {L : List (Pore n)} {F : Fin n → Published.Fluid} (h : s.Mixes L F) :
    (Wet L ∧ (F = fun i => Published.wood (poreRow L i)) ∧
      (s.mixMethod = .wood ∨ s.mixMethod = .brie ∧ ∀ A B, Split s L A B → A = [] ∨ B = [])) ∨
    (s.mixMethod = .brie ∧ ∃ A B e, Split s L A B ∧ BothPhases A B ∧ 0 < e ∧ s.brieConstant = .fin e ∧
      F = fun i => Published.brie (poreRow A i) (poreRow B i) e) := by
  cases h with
  | wood hm hw => exact .inl ⟨hw, rfl, .inl hm⟩
  | brie hm e he he0 hg ht => exact .inr ⟨hm, _, _, e, .default hg, ht, he0, he, rfl⟩
  | brieGiven hm e he he0 idx hg hd hr ht => exact .inr ⟨hm, _, _, e, .given idx hg, ht, he0, he, rfl⟩
  | brieNoGas hm e he hg hn hw =>
    refine .inl ⟨hw, rfl, .inr ⟨hm, fun A B hs => .inr ?_⟩⟩
    obtain ⟨-, rfl⟩ := hs.unique (.default hg)
    rw [List.filter_eq_nil_iff]; intro q hq; simpa using hn q hq
  | brieAllGas hm e he hg hn hw =>
    refine .inl ⟨hw, rfl, .inr ⟨hm, fun A B hs => .inl ?_⟩⟩
    obtain ⟨rfl, -⟩ := hs.unique (.default hg)
    rw [List.filter_eq_nil_iff]; intro q hq; simpa using hn q hq
  | brieGivenNone hm e he hg hw =>
    refine .inl ⟨hw, rfl, .inr ⟨hm, fun A B hs => .inr ?_⟩⟩
    obtain ⟨-, rfl⟩ := hs.unique (.given [] hg)
    exact atPositions_none L
  | brieGivenAll hm e he idx hg hd hr hw =>
    refine .inl ⟨hw, rfl, .inr ⟨hm, fun A B hs => .inl ?_⟩⟩
    obtain ⟨rfl, -⟩ := hs.unique (.given idx hg)
    exact (notAtPositions_all hr).1

/-- Liquids and gases are the same constituents everywhere. -/
theorem Split.along {s : X → Sections n} {T P : X → Fin n → ℝ} {L : List (PoreAlong X n)} (hL : PoresAlong T P L)
    {gases : Option (List ℤ)} (hg : ∀ x, (s x).brieGases = gases) {x : X} {A B : List (Pore n)}
    (h : Split (s x) (L.map (·.at x)) A B) :
    ∃ A' B' : List (PoreAlong X n), (∀ p ∈ A', p ∈ L) ∧ (∀ p ∈ B', p ∈ L) ∧ A = A'.map (·.at x) ∧ B = B'.map (·.at x) ∧
      ∀ y, Split (s y) (L.map (·.at y)) (A'.map (·.at y)) (B'.map (·.at y)) := by
  cases h with
  | default h0 =>
    refine ⟨L.filter fun q => ¬ (q.at x).kind.IsGas, L.filter fun q => (q.at x).kind.IsGas,
      fun p hp => (List.mem_filter.mp hp).1, fun p hp => (List.mem_filter.mp hp).1,
      filter_at L (fun q => ¬ q.kind.IsGas) x, filter_at L (fun q => q.kind.IsGas) x, fun y => ?_⟩
    have e1 : (L.filter fun q => decide ((q.at x).kind.IsGas)) = L.filter fun q => decide ((q.at y).kind.IsGas) :=
      List.filter_congr fun q hq => by
        have : (q.at x).kind.IsGas ↔ (q.at y).kind.IsGas := (hL.varies q hq).isGas x y
        simp only [this]
    have e2 : (L.filter fun q => decide (¬ (q.at x).kind.IsGas)) = L.filter fun q => decide (¬ (q.at y).kind.IsGas) :=
      List.filter_congr fun q hq => by
        have : (q.at x).kind.IsGas ↔ (q.at y).kind.IsGas := (hL.varies q hq).isGas x y
        simp only [this]
    rw [e1, e2, ← filter_at L (fun q => ¬ q.kind.IsGas) y, ← filter_at L (fun q => q.kind.IsGas) y]
    exact .default ((hg y).trans ((hg x).symm.trans h0))
  | given idx h0 =>
    have mem1 : ∀ q ∈ notAtPositions idx L, q ∈ L := by
      intro q hq
      obtain ⟨y, hy, rfl⟩ := List.mem_map.mp hq
      exact List.mem_of_getElem? (List.mem_zipIdx_iff_getElem?.mp (List.mem_filter.mp hy).1)
    have mem2 : ∀ q ∈ atPositions idx L, q ∈ L := by
      intro q hq
      obtain ⟨y, hy, rfl⟩ := List.mem_map.mp hq
      exact List.mem_of_getElem? (List.mem_zipIdx_iff_getElem?.mp (List.mem_filter.mp hy).1)
    refine ⟨notAtPositions idx L, atPositions idx L, mem1, mem2, notAtPositions_map .., atPositions_map .., fun y => ?_⟩
    rw [← notAtPositions_map, ← atPositions_map]
    exact .given idx ((hg y).trans ((hg x).symm.trans h0))

theorem mixture_cont {s : X → Sections n} {T P : X → Fin n → ℝ} (cT : Continuous T) (cP : Continuous P)
    {L : List (PoreAlong X n)} (hL : PoresAlong T P L) (hp : ∀ x, ∀ p ∈ L, ∀ i, 0 ≤ p.sat x i)
    (hpos : ∀ p ∈ L, ∀ x i, 0 < (p.fluid x i).K) {method : MixMethod}
    {gases : Option (List ℤ)} {F : X → Fin n → Published.Fluid} (hF : MixesAlong s L method gases F) : ContFluid F := by
  have mixAt : ∀ (M : List (PoreAlong X n)), (∀ p ∈ M, p ∈ L) → ∀ i x, MixAt M i x := fun M hM i x =>
    { bulk := fun p h => ((((hL.varies p (hM p h)).cont cT cP).1.bulk i).continuousAt)
      density := fun p h => ((((hL.varies p (hM p h)).cont cT cP).1.density i).continuousAt)
      sat := fun p h => (row_cont (hL.sat p (hM p h)) i).continuousAt
      pos := fun p h => hpos p (hM p h) x i
      nonneg := fun p h => hp x p (hM p h) i }
  have key : ∀ i x, ContinuousAt (fun y => (F y i).K) x ∧ ContinuousAt (fun y => (F y i).ρ) x := by
    intro i x
    obtain ⟨e, ce, he⟩ := hF.constant
    rcases (hF.mixes x).cases_split with ⟨hw, hFx, hk⟩ | ⟨hk, A, B, e', hsp, hb, he0, hec, hFx⟩
    · -- all together, here and everywhere
      have hall : ∀ y, F y = fun i => Published.wood (poreRow (L.map (·.at y)) i) := by
        intro y
        rcases (hF.mixes y).cases_split with ⟨-, h, -⟩ | ⟨hk', A, B, e', hsp, hb, -⟩
        · exact h
        · exfalso
          rcases hk with hk | ⟨-, hk⟩
          · rw [hF.method] at hk hk'; rw [hk] at hk'; cases hk'
          · obtain ⟨A', B', -, -, rfl, rfl, h⟩ := hsp.along hL hF.gases
            rcases hk _ _ (h x) with h0 | h0
            · exact hb.liquids (by rw [List.map_eq_nil_iff.mp h0]; rfl)
            · exact hb.gases (by rw [List.map_eq_nil_iff.mp h0]; rfl)
      simp only [hall]
      exact wood_contAt (mixAt L (fun p h => h) i x) (lt_of_lt_of_le (by norm_num) (hw.2 i))
    · obtain ⟨A', B', mA, mB, rfl, rfl, h⟩ := hsp.along hL hF.gases
      have hall : ∀ y, BothPhases (A'.map (·.at y)) (B'.map (·.at y)) ∧ 0 < e y ∧
          F y = fun i => Published.brie (poreRow (A'.map (·.at y)) i) (poreRow (B'.map (·.at y)) i) (e y) := by
        intro y
        rcases (hF.mixes y).cases_split with ⟨-, -, h'⟩ | ⟨-, A, B, e'', hsp', hb', he', hec', hFy⟩
        · exfalso
          rcases h' with h' | ⟨-, h'⟩
          · rw [hF.method] at hk h'; rw [hk] at h'; cases h'
          · rcases h' _ _ (h y) with h0 | h0
            · exact hb.liquids (by rw [List.map_eq_nil_iff.mp h0]; rfl)
            · exact hb.gases (by rw [List.map_eq_nil_iff.mp h0]; rfl)
        · obtain ⟨rfl, rfl⟩ := hsp'.unique (h y)
          rw [he y] at hec'
          injection hec' with hec'
          rw [hec']
          exact ⟨hb', he', hFy⟩
      simp only [fun y => (hall y).2.2]
      refine brie_contAt (mixAt A' mA i x) (mixAt B' mB i x) ce.continuousAt (hall x).2.1 ?_ (fun y => (hall y).1.liquid i)
        fun y => (hall y).1.gas i
      rw [poreTotal_at]
      exact List.sum_nonneg fun z hz => by
        obtain ⟨p, hp', rfl⟩ := List.mem_map.mp hz
        exact hp x p (mA p hp') i
  exact ⟨fun i => continuous_iff_continuousAt.mpr fun x => (key i x).1,
    fun i => continuous_iff_continuousAt.mpr fun x => (key i x).2⟩

/-- **C164 (constituents).** A brine, an oil, a gas (or a material given by its properties) whose properties, temperature
and pressure vary continuously within the usual ranges evaluates, at every point, to a fluid whose bulk modulus and
density are finite, positive and vary continuously. -/
theorem C164_constituents {T P : X → Fin n → ℝ} (cT : Continuous T) (cP : Continuous P) {k : X → FluidKind n}
    {F : X → Fin n → Published.Fluid} (h : VariesAs T P k F) (co2 : CO2Model n) {pv : Provider} (hp : pv ≠ .spanWagner) :
    ContFluid F ∧ ∀ x, ∃ m, (k x).asMaterial co2 pv (finC (T x)) (finC (P x)) = (.ok m, finC (P x)) ∧ m.IsFluid (F x) :=
  ⟨(h.cont cT cP).1, fun x => ((h.cont cT cP).2 x).asMaterial co2 hp⟩

/-- **C164 (mixture).** The mixture of any number of such constituents, by Wood's or Brie's law, varies continuously with
temperature, pressure, saturations, Brie's constant and all properties of the constituents. -/
theorem C164_mixture (co2 : CO2Model n) {s : X → Sections n} {T P : X → Fin n → ℝ} (cT : Continuous T) (cP : Continuous P)
    {L : List (PoreAlong X n)} (hL : PoresAlong T P L) (hp : ∀ x, (s x).Pores (T x) (P x) (L.map (·.at x)))
    {method : MixMethod} {gases : Option (List ℤ)} {F : X → Fin n → Published.Fluid}
    (hF : MixesAlong s L method gases F) :
    ContFluid F ∧ ∀ x, ∃ fl m, mkFluids (s x).temperature (s x).fluids (s x).mixMethod (s x).brieConstant
        (s x).brieGases (s x).fluidModel = .ok fl ∧
      fl.asMixture co2 (finC (P x)) = (.ok m, finC (P x)) ∧ m.IsFluid (F x) := by
  refine ⟨mixture_cont cT cP hL (fun x p h => (hp x).nonneg _ (List.mem_map_of_mem h)) (fun p h x i => ?_) hF,
    fun x => fluids_filled ((hp x).filled co2) (hF.mixes x)⟩
  obtain ⟨m, -, hm⟩ := (((hL.varies p h).cont cT cP).2 x).asMaterial co2 (pv := .batzleWang) (by decide)
  exact (hm.2.2.2 i).1

/-! ### Non-vacuity: brine replaced by gas while the rock warms up -/

/-- Brine and gas along a path: the gas saturation goes from 0.1 to 0.9, the temperature from 80 to 90 °C. -/
noncomputable def exPoresAlong : List (PoreAlong (Set.Icc (0:ℝ) 1) 1) :=
  [⟨fun _ => .brine (finC fun _ => 35000), none, fun x _ => Published.brine (80 + 10 * x.1) 30e6 35000,
      fun x _ => 0.9 - 0.8 * x.1⟩,
    ⟨fun x => .gas (finC fun _ => 0.6 + 0.1 * x.1), none, fun x _ => Published.gas (80 + 10 * x.1) 30e6 (0.6 + 0.1 * x.1),
      fun x _ => 0.1 + 0.8 * x.1⟩]

noncomputable def exMixing (method : MixMethod) (x : Set.Icc (0:ℝ) 1) : Sections 1 :=
  { exSections (fun _ : Fin 1 => 0.2) with
    fluids := (exPoresAlong.map (·.at x)).map fun p => ⟨p.kind, p.model, some (finC p.sat)⟩
    temperature := finC fun _ => 80 + 10 * x.1
    mixMethod := method
    brieConstant := .fin (2 + x.1)
    brieGases := none
    fluidModel := .batzleWang }

theorem exPoresAlong_varies : PoresAlong (fun (x : Set.Icc (0:ℝ) 1) (_ : Fin 1) => 80 + 10 * x.1) (fun _ _ => 30e6)
    exPoresAlong := by
  have h0 : ∀ x : Set.Icc (0:ℝ) 1, 0 ≤ x.1 ∧ x.1 ≤ 1 := fun x => x.2
  constructor
  · intro p hp
    rcases List.mem_cons.mp hp with rfl | hp
    · exact VariesAs.brine (fun (_ : Set.Icc (0:ℝ) 1) (_ : Fin 1) => 35000) continuous_const (fun x i => by have := h0 x; constructor <;> linarith)
        (fun _ _ => by norm_num) (fun _ _ => by norm_num)
    · rcases List.mem_cons.mp hp with rfl | hp
      · exact VariesAs.gas (fun (x : Set.Icc (0:ℝ) 1) (_ : Fin 1) => 0.6 + 0.1 * x.1) (by fun_prop) (fun x i => by have := h0 x; constructor <;> linarith)
          (fun _ _ => by norm_num) (fun x _ => by have := h0 x; constructor <;> linarith)
      · cases hp
  · intro p hp
    rcases List.mem_cons.mp hp with rfl | hp
    · dsimp only; fun_prop
    · rcases List.mem_cons.mp hp with rfl | hp
      · dsimp only; fun_prop
      · cases hp

theorem exPores_says (method : MixMethod) (x : Set.Icc (0:ℝ) 1) : (exMixing method x).Pores (fun _ => 80 + 10 * x.1)
    (fun _ => 30e6) (exPoresAlong.map (·.at x)) := by
  have h0 := x.2
  refine ⟨rfl, rfl, by simp [exPoresAlong], ?_, ?_, ?_, ?_⟩
  · intro q hq
    obtain ⟨p, hp, rfl⟩ := List.mem_map.mp hq
    exact ((exPoresAlong_varies.varies p hp).cont (by fun_prop) (by fun_prop)).2 x
  · intro q hq
    obtain ⟨p, hp, rfl⟩ := List.mem_map.mp hq
    simp only [exPoresAlong, List.mem_cons, List.not_mem_nil, or_false] at hp
    rcases hp with rfl | rfl <;> exact fun h => by cases h
  · intro q hq i
    simp only [exPoresAlong, List.map_cons, List.map_nil, List.mem_cons, List.not_mem_nil, or_false, PoreAlong.at] at hq
    have := h0.1; have := h0.2
    rcases hq with rfl | rfl <;> dsimp only <;> linarith
  · intro i
    rw [poreTotal_at]
    simp [exPoresAlong]
    norm_num

theorem exWet (x : Set.Icc (0:ℝ) 1) : Wet (exPoresAlong.map (·.at x)) := by
  refine ⟨by simp [exPoresAlong], fun i => ?_⟩
  rw [poreTotal_at]
  simp [exPoresAlong]
  norm_num

example : ContFluid fun (x : Set.Icc (0:ℝ) 1) (i : Fin 1) => Published.wood (poreRow (exPoresAlong.map (·.at x)) i) :=
  (C164_mixture constCO2 (s := exMixing .wood) (T := fun x _ => 80 + 10 * x.1) (P := fun _ _ => 30e6) (by fun_prop) (by fun_prop)
    exPoresAlong_varies (exPores_says .wood) (method := .wood) (gases := none)
    ⟨fun _ => rfl, fun _ => rfl, ⟨fun x => 2 + x.1, by fun_prop, fun _ => rfl⟩, fun x => .wood rfl (exWet x)⟩).1

theorem exBriePhases (x : Set.Icc (0:ℝ) 1) :
    BothPhases ((exPoresAlong.map (·.at x)).filter fun y => ¬ y.kind.IsGas)
      ((exPoresAlong.map (·.at x)).filter fun y => y.kind.IsGas) := by
  have h0 := x.2.1; have h1 := x.2.2
  have e1 : ((exPoresAlong.map (·.at x)).filter fun y => ¬ y.kind.IsGas) = (exPoresAlong.take 1).map (·.at x) := by
    simp [exPoresAlong, PoreAlong.at, FluidKind.IsGas, FluidKind.type]
  have e2 : ((exPoresAlong.map (·.at x)).filter fun y => y.kind.IsGas) = (exPoresAlong.drop 1).map (·.at x) := by
    simp [exPoresAlong, PoreAlong.at, FluidKind.IsGas, FluidKind.type]
  rw [e1, e2]
  refine ⟨by simp [exPoresAlong], by simp [exPoresAlong], fun i => ?_, fun i => .inl ?_, fun i => .inl ?_⟩ <;>
    rw [poreTotal_at] <;> simp [exPoresAlong] <;> norm_num <;> linarith

example : ContFluid fun (x : Set.Icc (0:ℝ) 1) (i : Fin 1) => Published.brie
    (poreRow ((exPoresAlong.map (·.at x)).filter fun y => ¬ y.kind.IsGas) i)
    (poreRow ((exPoresAlong.map (·.at x)).filter fun y => y.kind.IsGas) i) (2 + x.1) :=
  (C164_mixture constCO2 (s := exMixing .brie) (T := fun x _ => 80 + 10 * x.1) (P := fun _ _ => 30e6) (by fun_prop) (by fun_prop)
    exPoresAlong_varies (exPores_says .brie) (method := .brie) (gases := none)
    ⟨fun _ => rfl, fun _ => rfl, ⟨fun x => 2 + x.1, by fun_prop, fun _ => rfl⟩,
      fun x => .brie rfl _ rfl (by have := x.2.1; positivity) rfl (exBriePhases x)⟩).1

end OPE
