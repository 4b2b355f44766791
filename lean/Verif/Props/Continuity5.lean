import Verif.Props.Continuity4
import Verif.Props.Published8

/-!
# C165: no jumps in the whole calculation, every kind of dry rock and every list of adjustments
-/

namespace OPE

open Classical Topology

variable {X : Type} [TopologicalSpace X] {n : ℕ}

/-! ### Polynomials, velocities, trends -/

theorem ContRock.vp {r : X → Published.Rock} (h : ContRock r) : Continuous fun x => (r x).vp := by
  unfold Published.Rock.vp
  exact ((h.bulk.add (continuous_const.mul h.shear)).div h.density fun x => (h.pos x).2.2.ne').sqrt

theorem ContRock.vs {r : X → Published.Rock} (h : ContRock r) : Continuous fun x => (r x).vs := by
  unfold Published.Rock.vs
  exact (h.shear.div h.density fun x => (h.pos x).2.2.ne').sqrt

theorem surface_cont (k : Coeffs) {p v : X → ℝ} (cp : Continuous p) (cv : Continuous v) :
    Continuous fun x => surface k (p x) (v x) := by
  unfold surface
  fun_prop

theorem ofVelocities_cont {ρ p s : X → ℝ} (cρ : Continuous ρ) (cp : Continuous p) (cs : Continuous s)
    (h : ∀ x, (Published.ofVelocities (ρ x) (p x) (s x)).Valid) :
    ContRock fun x => Published.ofVelocities (ρ x) (p x) (s x) :=
  ⟨cρ.mul ((cp.pow 2).sub (continuous_const.mul (cs.pow 2))), cρ.mul (cs.pow 2), cρ, h⟩

theorem surfaceModuli_cont (kd kb ks : Coeffs) {r : X → Published.Rock} (hr : ContRock r) {v : X → ℝ}
    (cv : Continuous v) (h : ∀ x, (surfaceModuli kd kb ks (r x) (v x)).Valid) :
    ContRock fun x => surfaceModuli kd kb ks (r x) (v x) :=
  ⟨surface_cont kb hr.bulk cv, surface_cont ks hr.shear cv, surface_cont kd hr.density cv, h⟩

theorem surfaceVelocities_cont (kd kp ks : Coeffs) {r : X → Published.Rock} (hr : ContRock r) {v : X → ℝ}
    (cv : Continuous v) (h : ∀ x, (surfaceVelocities kd kp ks (r x) (v x)).Valid) :
    ContRock fun x => surfaceVelocities kd kp ks (r x) (v x) :=
  ofVelocities_cont (surface_cont kd hr.density cv) (surface_cont kp hr.vp cv) (surface_cont ks hr.vs cv) h

theorem scaleModuli_cont {r : X → Published.Rock} (hr : ContRock r) {d k g : X → ℝ} (cd : Continuous d)
    (ck : Continuous k) (cg : Continuous g) (h : ∀ x, (Published.scaleModuli (r x) (d x) (k x) (g x)).Valid) :
    ContRock fun x => Published.scaleModuli (r x) (d x) (k x) (g x) :=
  ⟨hr.bulk.mul ck, hr.shear.mul cg, hr.density.mul cd, h⟩

theorem scaleVelocities_cont {r : X → Published.Rock} (hr : ContRock r) {d p s : X → ℝ} (cd : Continuous d)
    (cp : Continuous p) (cs : Continuous s) (h : ∀ x, (Published.scaleVelocities (r x) (d x) (p x) (s x)).Valid) :
    ContRock fun x => Published.scaleVelocities (r x) (d x) (p x) (s x) :=
  ofVelocities_cont (hr.density.mul cd) (hr.vp.mul cp) (hr.vs.mul cs) h

theorem powerFit_cont (a : ℝ × ℝ) {p : X → ℝ} (cp : Continuous p) (hp : ∀ x, 0 < p x) :
    Continuous fun x => Published.powerFit a (p x) := by
  unfold Published.powerFit
  exact continuous_const.mul (cp.rpow_const fun x => .inl (hp x).ne')

theorem addPower_cont (kd kb kr : ℝ × ℝ) {r : X → Published.Rock} (hr : ContRock r) {p q : X → ℝ} (cp : Continuous p)
    (cq : Continuous q) (hp : ∀ x, 0 < p x) (hq : ∀ x, 0 < q x)
    (hv : ∀ x, 0 < ((r x).vp / (r x).vs + (Published.powerFit kr (p x) - Published.powerFit kr (q x))) ^ 2 - 4 / 3)
    (h : ∀ x, (Published.addPower (r x) kd kb kr (p x) (q x)).Valid) :
    ContRock fun x => Published.addPower (r x) kd kb kr (p x) (q x) := by
  have d : ∀ a, Continuous fun x => Published.powerFit a (p x) - Published.powerFit a (q x) := fun a =>
    (powerFit_cont a cp hp).sub (powerFit_cont a cq hq)
  have K := hr.bulk.add (d kb)
  exact ⟨K, K.div ((((hr.vp.div hr.vs fun x => (Published.Rock.vs_pos (hr.pos x)).ne').add (d kr)).pow 2).sub continuous_const)
    fun x => (hv x).ne', hr.density.add (d kd), h⟩

/-! ### The dry rock -/

/-- A dry rock model whose parameters vary continuously, for minerals `a`, porosity `φ` and effective pressure `p`: the
rocks `dry` and their dense packing. -/
inductive SandAlong (a : X → Fin n → Published.Rock) (φ p : X → Fin n → ℝ) :
    (X → SandModel n) → (X → Fin n → Published.Rock) → (X → Fin n → Published.Rock) → Prop
  | friable (φc f : X → Fin n → ℝ) (N : Option (X → Fin n → ℝ)) (cφc : Continuous φc) (cf : Continuous f)
      (cN : ∀ k, N = some k → Continuous k) (h0 : ∀ x i, 0 ≤ φ x i) (h1 : ∀ x i, φ x i ≤ φc x i - 1e-5)
      (hc : ∀ x i, φc x i < 1) (hp : ∀ x i, 0 < p x i) (hf : ∀ x i, 0 ≤ f x i)
      (hN : ∀ x i, 0 < coordination (N.map fun k => k x) (φc x) i) :
      SandAlong a φ p (fun x => .friable (mkFriableModel (finC (φc x)) (finC (f x)) ((N.map fun k => k x).map finC)))
        (fun x i => Published.friableSand (a x i) (φ x i) (φc x i) (p x i)
          (coordination (N.map fun k => k x) (φc x) i) (f x i)) a
  | patchy (cem : X → Mat n) (b : X → Fin n → Published.Rock) (φc cf u plb f : X → Fin n → ℝ)
      (N : Option (X → Fin n → ℝ)) (cb : ∀ i, ContRock fun x => b x i) (cφc : Continuous φc) (ccf : Continuous cf)
      (cu : Continuous u) (cplb : Continuous plb) (cfr : Continuous f) (cN : ∀ k, N = some k → Continuous k)
      (hb : ∀ x, (cem x).IsRock (b x))
      (hr : ∀ x i, 2 * (a x i).G ≤ 3 * (a x i).K ∧ 0.04 * (Real.pi * (a x i).G) ≤ (b x i).G)
      (h0 : ∀ x i, 0 ≤ φ x i) (h1 : ∀ x i, φ x i ≤ φc x i - 1e-5) (h2 : ∀ x i, φ x i ≤ φc x i - cf x i)
      (h3 : ∀ x i, φ x i ≤ φc x i - u x i) (hcf : ∀ x i, 0 ≤ cf x i ∧ cf x i < φc x i)
      (hu : ∀ x i, 0 ≤ u x i ∧ u x i < φc x i) (hc : ∀ x i, φc x i < 1) (hp : ∀ x i, 0 < p x i)
      (hplb : ∀ x i, 0 < plb x i) (hf : ∀ x i, 0 ≤ f x i)
      (hN : ∀ x i, 0 < coordination (N.map fun k => k x) (φc x) i)
      (hbounds : ∀ x i, 0 < φ x i →
        let lo := Published.friableSand (Published.lowerBound (b x i) (a x i) (φc x i - (φc x i - u x i))) (φ x i) (φc x i)
          (plb x i) (coordination (N.map fun k => k x) (φc x) i) (f x i)
        let up := Published.constantCement (a x i) (b x i) (φ x i) (φc x i - u x i) (φc x i) (f x i) 9
        lo.K < up.K ∧ lo.G < up.G) :
      SandAlong a φ p (fun x => .patchy (mkPatchyModel (cem x) (finC (φc x)) (finC (cf x)) (finC (plb x)) (finC (u x))
          ((N.map fun k => k x).map finC) (finC (f x))))
        (fun x i => Published.patchyCement (a x i) (b x i) (φ x i) (φc x i - cf x i) (φc x i - u x i) (p x i) (plb x i)
          (φc x i) (f x i) (coordination (N.map fun k => k x) (φc x) i) 9)
        (fun x i => Published.lowerBound (b x i) (a x i) (u x i))
  | moduli (kd kb ks : Option Coeffs) :
      SandAlong a φ p (fun _ => .polyfit true ⟨kd, kb, ks⟩)
        (fun x i => surfaceModuli (kd.getD defaultDensity) (kb.getD (rowCoeffs 2900 (-1300)))
          (ks.getD (rowCoeffs 1700 (-800))) (a x i) (φ x i)) a
  | velocities (kd kp ks : Option Coeffs) (hp : ∀ x i, 0 ≤ surface (kp.getD (rowCoeffs 20 (-40))) (a x i).vp (φ x i))
      (hs : ∀ x i, 0 ≤ surface (ks.getD (rowCoeffs 12 (-20))) (a x i).vs (φ x i)) :
      SandAlong a φ p (fun _ => .polyfit false ⟨kd, kp, ks⟩)
        (fun x i => surfaceVelocities (kd.getD defaultDensity) (kp.getD (rowCoeffs 20 (-40)))
          (ks.getD (rowCoeffs 12 (-20))) (a x i) (φ x i)) a

theorem SandAlong.gives {a : X → Fin n → Published.Rock} {φ p : X → Fin n → ℝ} {model : X → SandModel n}
    {dry dense : X → Fin n → Published.Rock} (h : SandAlong a φ p model dry dense) (x : X) :
    (model x).Gives (a x) (φ x) (p x) (dry x) (dense x) := by
  cases h with
  | friable φc f N cφc cf cN h0 h1 hc hp hf hN => exact .friable _ _ _ (h0 x) (h1 x) (hc x) (hp x) (hf x) (hN x)
  | patchy cem b φc cf u plb f N cb cφc ccf cu cplb cfr cN hb hr h0 h1 h2 h3 hcf hu hc hp hplb hf hN hbounds =>
    exact .patchy _ _ _ _ _ _ _ _ (hb x) (hr x) (h0 x) (h1 x) (h2 x) (h3 x) (hcf x) (hu x) (hc x) (hp x) (hplb x)
      (hf x) (hN x)
  | moduli kd kb ks => exact .moduli kd kb ks
  | velocities kd kp ks hp hs => exact .velocities kd kp ks (hp x) (hs x)

theorem lowerBound_contRock {a b : X → Published.Rock} {f : X → ℝ} (ha : ContRock a) (hb : ContRock b) (cf : Continuous f)
    (hf : ∀ x, 0 ≤ f x ∧ f x ≤ 1) : ContRock fun x => Published.lowerBound (a x) (b x) (f x) := by
  obtain ⟨d1, d2, d3⟩ := lower_cont ha hb cf hf
  exact ⟨d1, d2, d3, fun x => by
    obtain ⟨_, -, k⟩ := hsw_lower (f := fun _ : Fin 1 => f x) (ha.isRock x) (hb.isRock x) fun _ => hf x
    exact k.2.2.2 0⟩

theorem SandAlong.cont {a : X → Fin n → Published.Rock} {φ p : X → Fin n → ℝ} {model : X → SandModel n}
    {dry dense : X → Fin n → Published.Rock} (h : SandAlong a φ p model dry dense) (ha : ∀ i, ContRock fun x => a x i)
    (cφ : Continuous φ) (cp : ∀ i, Continuous fun x => p x i) (hv : ∀ x i, (dry x i).Valid) (i : Fin n) :
    ContRock (fun x => dry x i) ∧ ContRock fun x => dense x i := by
  cases h with
  | friable φc f N cφc cf cN h0 h1 hc hp hf hN =>
    exact ⟨(friable_contRock (ha i) (row_cont cφ i) (row_cont cφc i) (cp i) (row_cont cf i) (coordination_cont cN cφc i)
      (fun x => h0 x i) (fun x => (h1 x i).trans (by norm_num))
      (fun x => by have := h1 x i; have := h0 x i; norm_num at *; linarith) (fun x => hc x i) (fun x => hp x i)
      (fun x => hf x i) (fun x => hN x i)).2, ha i⟩
  | patchy cem b φc cf u plb f N cb cφc ccf cu cplb cfr cN hb hr h0 h1 h2 h3 hcf hu hc hp hplb hf hN hbounds =>
    have key := patchy_contRock (a := fun x => b x i) (b := fun x => a x i)
      (φ := fun x => φ x i) (ccp := fun x => φc x i - cf x i) (ub := fun x => φc x i - u x i)
      (p := fun x => p x i) (plb := fun x => plb x i) (crit := fun x => φc x i)
      (f := fun x => f x i) (Nf := fun x => coordination (N.map fun k => k x) (φc x) i) (Nc := fun _ => 9)
      ⟨cb i, ha i, fun x => hr x i⟩ (row_cont cφ i) ((row_cont cφc i).sub (row_cont ccf i))
      ((row_cont cφc i).sub (row_cont cu i)) (cp i) (row_cont cplb i) (row_cont cφc i) (row_cont cfr i)
      (coordination_cont cN cφc i) continuous_const (fun x => h0 x i) (fun x => h2 x i) (fun x => h3 x i)
      (fun x => by linarith [(hcf x i).2]) (fun x => by linarith [(hu x i).2]) (fun x => by linarith [(hcf x i).1])
      (fun x => by linarith [(hu x i).1]) (fun x => hc x i) (fun x => hp x i) (fun x => hplb x i) (fun x => hf x i)
      (fun x => hN x i) (fun _ => by norm_num) (fun x hx => by intro lo up; exact hbounds x i hx)
    exact ⟨key, lowerBound_contRock (cb i) (ha i) (row_cont cu i) fun x => ⟨(hu x i).1, by linarith [(hu x i).2, hc x i]⟩⟩
  | moduli kd kb ks => exact ⟨surfaceModuli_cont _ _ _ (ha i) (row_cont cφ i) fun x => hv x i, ha i⟩
  | velocities kd kp ks hp hs => exact ⟨surfaceVelocities_cont _ _ _ (ha i) (row_cont cφ i) fun x => hv x i, ha i⟩

/-! ### Adjustments -/

/-- Friable sand or patchy cement as a pressure dependency, with continuously varying parameters. -/
inductive PressureSandAlong (a : X → Fin n → Published.Rock) (φ : X → Fin n → ℝ) :
    (X → PDModel n) → (X → (Fin n → ℝ) → Fin n → Published.Rock) → Prop
  | friable (φc f : X → Fin n → ℝ) (N : Option (X → Fin n → ℝ)) (cφc : Continuous φc) (cf : Continuous f)
      (cN : ∀ k, N = some k → Continuous k) (h0 : ∀ x i, 0 ≤ φ x i) (h1 : ∀ x i, φ x i ≤ φc x i)
      (hc0 : ∀ x i, 0 < φc x i) (hc : ∀ x i, φc x i < 1) (hf : ∀ x i, 0 ≤ f x i)
      (hN : ∀ x i, 0 < coordination (N.map fun k => k x) (φc x) i) :
      PressureSandAlong a φ (fun x => .friable (mkFriableModel (finC (φc x)) (finC (f x)) ((N.map fun k => k x).map finC)))
        fun x p i => Published.friableSand (a x i) (φ x i) (φc x i) (p i) (coordination (N.map fun k => k x) (φc x) i) (f x i)
  | patchy (cem : X → Mat n) (b : X → Fin n → Published.Rock) (φc cf u plb f : X → Fin n → ℝ)
      (N : Option (X → Fin n → ℝ)) (cb : ∀ i, ContRock fun x => b x i) (cφc : Continuous φc) (ccf : Continuous cf)
      (cu : Continuous u) (cplb : Continuous plb) (cfr : Continuous f) (cN : ∀ k, N = some k → Continuous k)
      (hb : ∀ x, (cem x).IsRock (b x))
      (hr : ∀ x i, 2 * (a x i).G ≤ 3 * (a x i).K ∧ 0.04 * (Real.pi * (a x i).G) ≤ (b x i).G)
      (h0 : ∀ x i, 0 ≤ φ x i) (h2 : ∀ x i, φ x i ≤ φc x i - cf x i) (h3 : ∀ x i, φ x i ≤ φc x i - u x i)
      (hcf : ∀ x i, 0 ≤ cf x i ∧ cf x i < φc x i) (hu : ∀ x i, 0 ≤ u x i ∧ u x i < φc x i) (hc : ∀ x i, φc x i < 1)
      (hplb : ∀ x i, 0 < plb x i) (hf : ∀ x i, 0 ≤ f x i)
      (hN : ∀ x i, 0 < coordination (N.map fun k => k x) (φc x) i)
      (hbounds : ∀ x i, 0 < φ x i →
        let lo := Published.friableSand (Published.lowerBound (b x i) (a x i) (φc x i - (φc x i - u x i))) (φ x i) (φc x i)
          (plb x i) (coordination (N.map fun k => k x) (φc x) i) (f x i)
        let up := Published.constantCement (a x i) (b x i) (φ x i) (φc x i - u x i) (φc x i) (f x i) 9
        lo.K < up.K ∧ lo.G < up.G) :
      PressureSandAlong a φ (fun x => .patchy (mkPatchyModel (cem x) (finC (φc x)) (finC (cf x)) (finC (plb x)) (finC (u x))
          ((N.map fun k => k x).map finC) (finC (f x))))
        fun x p i => Published.patchyCement (a x i) (b x i) (φ x i) (φc x i - cf x i) (φc x i - u x i) (p i) (plb x i)
          (φc x i) (f x i) (coordination (N.map fun k => k x) (φc x) i) 9

theorem PressureSandAlong.sand {a : X → Fin n → Published.Rock} {φ : X → Fin n → ℝ} {m : X → PDModel n}
    {g : X → (Fin n → ℝ) → Fin n → Published.Rock} (h : PressureSandAlong a φ m g) (x : X) :
    (m x).Sand (a x) (φ x) (g x) := by
  cases h with
  | friable φc f N cφc cf cN h0 h1 hc0 hc hf hN => exact .friable _ _ _ (h0 x) (h1 x) (hc0 x) (hc x) (hf x) (hN x)
  | patchy cem b φc cf u plb f N cb cφc ccf cu cplb cfr cN hb hr h0 h2 h3 hcf hu hc hplb hf hN hbounds =>
    exact .patchy _ _ _ _ _ _ _ _ (hb x) (hr x) (h0 x) (h2 x) (h3 x) (hcf x) (hu x) (hc x) (hplb x) (hf x) (hN x)

theorem PressureSandAlong.cont {a : X → Fin n → Published.Rock} {φ : X → Fin n → ℝ} {m : X → PDModel n}
    {g : X → (Fin n → ℝ) → Fin n → Published.Rock} (h : PressureSandAlong a φ m g) (ha : ∀ i, ContRock fun x => a x i)
    (cφ : Continuous φ) {p : X → Fin n → ℝ} (cp : ∀ i, Continuous fun x => p x i) (hp : ∀ x i, 0 < p x i) (i : Fin n) :
    ContRock fun x => g x (p x) i := by
  cases h with
  | friable φc f N cφc cf cN h0 h1 hc0 hc hf hN =>
    exact (friable_contRock (ha i) (row_cont cφ i) (row_cont cφc i) (cp i) (row_cont cf i) (coordination_cont cN cφc i)
      (fun x => h0 x i) (fun x => h1 x i) (fun x => hc0 x i) (fun x => hc x i) (fun x => hp x i)
      (fun x => hf x i) (fun x => hN x i)).2
  | patchy cem b φc cf u plb f N cb cφc ccf cu cplb cfr cN hb hr h0 h2 h3 hcf hu hc hplb hf hN hbounds =>
    have key := patchy_contRock (a := fun x => b x i) (b := fun x => a x i)
      (φ := fun x => φ x i) (ccp := fun x => φc x i - cf x i) (ub := fun x => φc x i - u x i)
      (p := fun x => p x i) (plb := fun x => plb x i) (crit := fun x => φc x i)
      (f := fun x => f x i) (Nf := fun x => coordination (N.map fun k => k x) (φc x) i) (Nc := fun _ => 9)
      ⟨cb i, ha i, fun x => hr x i⟩ (row_cont cφ i) ((row_cont cφc i).sub (row_cont ccf i))
      ((row_cont cφc i).sub (row_cont cu i)) (cp i) (row_cont cplb i) (row_cont cφc i) (row_cont cfr i)
      (coordination_cont cN cφc i) continuous_const (fun x => h0 x i) (fun x => h2 x i) (fun x => h3 x i)
      (fun x => by linarith [(hcf x i).2]) (fun x => by linarith [(hu x i).2]) (fun x => by linarith [(hcf x i).1])
      (fun x => by linarith [(hu x i).1]) (fun x => hc x i) (fun x => hp x i) (fun x => hplb x i) (fun x => hf x i)
      (fun x => hN x i) (fun _ => by norm_num) (fun x hx => by intro lo up; exact hbounds x i hx)
    exact key

/-- What an adjustment with continuously varying parameters makes of the rocks `r`, for minerals `a`, porosity `φ`,
effective rock pressure `eff`, effective reference pressure `ref` and rock pressure `rk`. -/
inductive AdjustAlong (a : X → Fin n → Published.Rock) (φ eff ref rk : X → Fin n → ℝ) (r : X → Fin n → Published.Rock) :
    (X → Adjustment n) → (X → Fin n → Published.Rock) → Prop
  | moduliTrend (m : PDModel n) (t : Coef3 (ℝ → ℝ)) (ht : m.trends = some t) (hu : m.OfModuli)
      (he : ∀ x, m.Evaluable (eff x)) (hr : ∀ x, m.Evaluable (ref x)) (h : ∀ x i, 1e-20 < |t.density (ref x i)| ∧
        1e-20 < |t.primary (ref x i)| ∧ 1e-20 < |t.secondary (ref x i)|) :
      AdjustAlong a φ eff ref rk r (fun _ => .pressureDependency m) fun x i => Published.scaleModuli (r x i)
        (t.density (eff x i) / t.density (ref x i)) (t.primary (eff x i) / t.primary (ref x i))
        (t.secondary (eff x i) / t.secondary (ref x i))
  | velocityTrend (m : PDModel n) (t : Coef3 (ℝ → ℝ)) (ht : m.trends = some t) (hu : ¬ m.OfModuli)
      (he : ∀ x, m.Evaluable (eff x)) (hr : ∀ x, m.Evaluable (ref x)) (h : ∀ x i, 1e-20 < |t.density (ref x i)| ∧
        1e-20 < |t.primary (ref x i)| ∧ 1e-20 < |t.secondary (ref x i)|)
      (h0 : ∀ x i, 0 ≤ t.primary (eff x i) / t.primary (ref x i) ∧ 0 ≤ t.secondary (eff x i) / t.secondary (ref x i)) :
      AdjustAlong a φ eff ref rk r (fun _ => .pressureDependency m) fun x i => Published.scaleVelocities (r x i)
        (t.density (eff x i) / t.density (ref x i)) (t.primary (eff x i) / t.primary (ref x i))
        (t.secondary (eff x i) / t.secondary (ref x i))
  | power (k : Coef3 (ℝ × ℝ)) (hp : ∀ x i, 0 < rk x i) (hr : ∀ x i, 0 < ref x i)
      (h : ∀ x i, 1e-20 < ((r x i).vp / (r x i).vs + (Published.powerFit k.secondary (rk x i)
        - Published.powerFit k.secondary (ref x i))) ^ 2 - 4 / 3) :
      AdjustAlong a φ eff ref rk r (fun _ => .pressureDependency (.powerfit k)) fun x i =>
        Published.addPower (r x i) k.density k.primary k.secondary (rk x i) (ref x i)
  | sand (m : X → PDModel n) (g : X → (Fin n → ℝ) → Fin n → Published.Rock) (hg : PressureSandAlong a φ m g)
      (he : ∀ x i, 0 < eff x i) (hr : ∀ x i, 0 < ref x i)
      (h : ∀ x i, 1e-20 < (g x (ref x) i).ρ ∧ 1e-20 < (g x (ref x) i).K ∧ 1e-20 < (g x (ref x) i).G) :
      AdjustAlong a φ eff ref rk r (fun x => .pressureDependency (m x)) fun x i => Published.scaleModuli (r x i)
        ((g x (eff x) i).ρ / (g x (ref x) i).ρ) ((g x (eff x) i).K / (g x (ref x) i).K)
        ((g x (eff x) i).G / (g x (ref x) i).G)
  | moduliDepth (z : X → Fin n → ℝ) (z0 : Option (X → Fin n → ℝ)) (mx : X → Option (Col n)) (kd kb ks : Coeffs)
      (cz : Continuous z) (cz0 : ∀ k, z0 = some k → Continuous k) :
      AdjustAlong a φ eff ref rk r (fun x => .depthTrend ⟨finC (z x), (z0.map fun k => k x).map finC, mx x, true, ⟨kd, kb, ks⟩⟩)
        fun x i => surfaceModuli kd kb ks (r x i) (z x i - (z0.map fun k => k x).elim 0 (· i))
  | velocityDepth (z : X → Fin n → ℝ) (z0 : Option (X → Fin n → ℝ)) (mx : X → Option (Col n)) (kd kp ks : Coeffs)
      (cz : Continuous z) (cz0 : ∀ k, z0 = some k → Continuous k)
      (hp : ∀ x i, 0 ≤ surface kp (r x i).vp (z x i - (z0.map fun k => k x).elim 0 (· i)))
      (hs : ∀ x i, 0 ≤ surface ks (r x i).vs (z x i - (z0.map fun k => k x).elim 0 (· i))) :
      AdjustAlong a φ eff ref rk r (fun x => .depthTrend ⟨finC (z x), (z0.map fun k => k x).map finC, mx x, false, ⟨kd, kp, ks⟩⟩)
        fun x i => surfaceVelocities kd kp ks (r x i) (z x i - (z0.map fun k => k x).elim 0 (· i))

theorem AdjustAlong.gives {a : X → Fin n → Published.Rock} {φ eff ref rk : X → Fin n → ℝ} {r r' : X → Fin n → Published.Rock}
    {adj : X → Adjustment n} (h : AdjustAlong a φ eff ref rk r adj r') (x : X) :
    (adj x).Gives (a x) (φ x) (eff x) (ref x) (rk x) (r x) (r' x) := by
  cases h with
  | moduliTrend m t ht hu he hr h => exact .moduliTrend m t ht hu (he x) (hr x) (h x)
  | velocityTrend m t ht hu he hr h h0 => exact .velocityTrend m t ht hu (he x) (hr x) (h x) (h0 x)
  | power k hp hr h => exact .power k (hp x) (hr x) (h x)
  | sand m g hg he hr h => exact .sand (m x) (g x) (hg.sand x) (he x) (hr x) (h x)
  | moduliDepth z z0 mx kd kb ks cz cz0 => exact .moduliDepth (z x) (z0.map fun k => k x) (mx x) kd kb ks
  | velocityDepth z z0 mx kd kp ks cz cz0 hp hs =>
    cases z0 with
    | none => exact .velocityDepth (z x) none (mx x) kd kp ks (fun i => hp x i) (fun i => hs x i)
    | some k => exact .velocityDepth (z x) (some (k x)) (mx x) kd kp ks (fun i => hp x i) (fun i => hs x i)

theorem tiny_pos : (0:ℝ) < 1e-20 := by norm_num

theorem ne_of_tiny {y : ℝ} (h : 1e-20 < |y|) : y ≠ 0 := by
  have h0 : (0:ℝ) < 1e-20 := by norm_num
  exact abs_pos.mp (h0.trans h)

theorem AdjustAlong.cont {a : X → Fin n → Published.Rock} {φ eff ref rk : X → Fin n → ℝ} {r r' : X → Fin n → Published.Rock}
    {adj : X → Adjustment n} (h : AdjustAlong a φ eff ref rk r adj r') (ha : ∀ i, ContRock fun x => a x i)
    (cφ : Continuous φ) (ce : ∀ i, Continuous fun x => eff x i) (cr : ∀ i, Continuous fun x => ref x i)
    (crk : Continuous rk) (hr : ∀ i, ContRock fun x => r x i) (hv : ∀ x i, (r' x i).Valid) (i : Fin n) :
    ContRock fun x => r' x i := by
  have shift : ∀ {z : X → Fin n → ℝ} {z0 : Option (X → Fin n → ℝ)}, Continuous z → (∀ k, z0 = some k → Continuous k) →
      Continuous fun x => z x i - (z0.map fun k => k x).elim 0 (· i) := by
    intro z z0 cz cz0
    cases z0 with
    | none => exact (row_cont cz i).sub continuous_const
    | some k => exact (row_cont cz i).sub (row_cont (cz0 k rfl) i)
  cases h with
  | moduliTrend m t ht hu he hre h =>
    obtain ⟨e1, e2, e3⟩ := trend_cont ht he i (ce i)
    obtain ⟨f1, f2, f3⟩ := trend_cont ht hre i (cr i)
    have n1 : ∀ x, t.density (ref x i) ≠ 0 := fun x => ne_of_tiny (h x i).1
    have n2 : ∀ x, t.primary (ref x i) ≠ 0 := fun x => ne_of_tiny (h x i).2.1
    have n3 : ∀ x, t.secondary (ref x i) ≠ 0 := fun x => ne_of_tiny (h x i).2.2
    exact scaleModuli_cont (hr i) (e1.div f1 n1) (e2.div f2 n2) (e3.div f3 n3) fun x => hv x i
  | velocityTrend m t ht hu he hre h h0 =>
    obtain ⟨e1, e2, e3⟩ := trend_cont ht he i (ce i)
    obtain ⟨f1, f2, f3⟩ := trend_cont ht hre i (cr i)
    have n1 : ∀ x, t.density (ref x i) ≠ 0 := fun x => ne_of_tiny (h x i).1
    have n2 : ∀ x, t.primary (ref x i) ≠ 0 := fun x => ne_of_tiny (h x i).2.1
    have n3 : ∀ x, t.secondary (ref x i) ≠ 0 := fun x => ne_of_tiny (h x i).2.2
    exact scaleVelocities_cont (hr i) (e1.div f1 n1) (e2.div f2 n2) (e3.div f3 n3) fun x => hv x i
  | power k hp hre h =>
    exact addPower_cont _ _ _ (hr i) (row_cont crk i) (cr i) (fun x => hp x i) (fun x => hre x i)
      (fun x => tiny_pos.trans (h x i)) fun x => hv x i
  | sand m g hg he hre h =>
    have g1 := hg.cont ha cφ ce he i
    have g2 := hg.cont ha cφ cr hre i
    exact scaleModuli_cont (hr i) (g1.density.div g2.density fun x => (g2.pos x).2.2.ne')
      (g1.bulk.div g2.bulk fun x => (g2.pos x).1.ne') (g1.shear.div g2.shear fun x => (g2.pos x).2.1.ne') fun x => hv x i
  | moduliDepth z z0 mx kd kb ks cz cz0 =>
    exact surfaceModuli_cont _ _ _ (hr i) (shift cz cz0) fun x => hv x i
  | velocityDepth z z0 mx kd kp ks cz cz0 hp hs =>
    exact surfaceVelocities_cont _ _ _ (hr i) (shift cz cz0) fun x => hv x i

/-- A list of adjustments with continuously varying parameters, one after the other, all results valid rocks. -/
inductive AdjustsAlong (a : X → Fin n → Published.Rock) (φ eff ref rk : X → Fin n → ℝ) :
    List (X → Adjustment n) → (X → Fin n → Published.Rock) → (X → Fin n → Published.Rock) → Prop
  | nil (r : X → Fin n → Published.Rock) : AdjustsAlong a φ eff ref rk [] r r
  | cons {adj : X → Adjustment n} {as : List (X → Adjustment n)} {r r' q : X → Fin n → Published.Rock}
      (h : AdjustAlong a φ eff ref rk r adj r') (hv : ∀ x i, (r' x i).Valid) (t : AdjustsAlong a φ eff ref rk as r' q) :
      AdjustsAlong a φ eff ref rk (adj :: as) r q

theorem AdjustsAlong.adjusts {a : X → Fin n → Published.Rock} {φ eff ref rk : X → Fin n → ℝ}
    {r r' : X → Fin n → Published.Rock} {as : List (X → Adjustment n)} (h : AdjustsAlong a φ eff ref rk as r r') (x : X) :
    Adjusts (a x) (φ x) (eff x) (ref x) (rk x) (as.map (· x)) (r x) (r' x) := by
  induction h with
  | nil r => exact .nil _
  | cons h hv t ih => exact .cons (h.gives x) (hv x) ih

theorem AdjustsAlong.cont {a : X → Fin n → Published.Rock} {φ eff ref rk : X → Fin n → ℝ}
    {r r' : X → Fin n → Published.Rock} {as : List (X → Adjustment n)} (h : AdjustsAlong a φ eff ref rk as r r')
    (ha : ∀ i, ContRock fun x => a x i)
    (cφ : Continuous φ) (ce : ∀ i, Continuous fun x => eff x i) (cr : ∀ i, Continuous fun x => ref x i)
    (crk : Continuous rk) (hr : ∀ i, ContRock fun x => r x i) : ∀ i, ContRock fun x => r' x i := by
  induction h with
  | nil r => exact hr
  | cons h hv t ih => exact ih fun i => h.cont ha cφ ce cr crk hr hv i

/-! ### The whole calculation -/

/-- The calculation of `calculate_adjusted`, zero porosity and frames as stiff as the mineral included. -/
theorem calculate_adjusted_any {co2 : CO2Model n} {s : Sections n}
    {x : Mat n × (Fin n → Published.Rock) × (Fin n → ℝ)} {L : RockList n} {ob rf rk P : Fin n → ℝ}
    {mx : Option (Fin n → ℝ)} (hs : s.Says x L ob rf rk P mx) (hx : x.1.Coherent) {T P' : Fin n → ℝ}
    {pores : List (Pore n)} (hp : s.Filled co2 T P pores P') {F : Fin n → Published.Fluid} (hF : s.Mixes pores F)
    {φ : Fin n → ℝ} (hφ : s.porosity = finC φ) {sand dry dense : Fin n → Published.Rock}
    (hmodel : s.sandModel.Gives (mineralAt x L) φ (effectiveAt mx ob rk) sand dense) (hv : ∀ i, (sand i).Valid)
    (hadj : Adjusts (mineralAt x L) φ (effectiveAt mx ob rk) (effectiveAt mx ob rf) rk s.adjustments sand dry)
    (hrow : ∀ i, 0 ≤ φ i ∧ (dry i).K ≤ (dense i).K ∧ (F i).K < (dense i).K) :
    calculate co2 s = .ok (resultOf (mineralAt x L) dry dense F φ) := by
  have ha : ∀ i, (mineralAt x L i).Valid := mineralAt_pos hs
  obtain ⟨d, d1, d2, d3, d4, d5⟩ := hmodel.material (rf := rf) ha hv s.adjustments
  refine calculate_any hs hp hF hφ (hφ ▸ d1) (fun mineral pr h0 h1 h2 => ?_) hrow
  obtain rfl := (mineralMixture_coherent (x := (x.1, finC x.2.2)) hx h0).rock h1
  refine ⟨⟨Mat.rock dry, ?_, Mat.rock_isRock (hadj.adjustAll ha hv h2).2⟩, d5⟩
  unfold DryRock.material
  rw [h2.truncatedRock, bind_ok, d2]
  erw [d4]
  rw [bind_ok, d3]
  exact (hadj.adjustAll ha hv h2).1

/-- **C165 (every dry rock, every list of adjustments).** Along any continuous change of minerals, fractions, pressures,
temperature, fluids, saturations, porosity, parameters of the dry rock model and of the adjustments, the six columns of
the result change continuously, as long as every rock on the way is valid, the dry rock is no stiffer and the fluid
softer than the dense packing. -/
theorem C165_all_dry_rocks_and_adjustments (co2 : CO2Model n) {s : X → Sections n} {m : MineralAlong X n}
    {M : List (MineralAlong X n)} {ob rf rk P : X → Fin n → ℝ} {mx : Option (X → Fin n → ℝ)} {T : X → Fin n → ℝ}
    {L : List (PoreAlong X n)} {F : X → Fin n → Published.Fluid} {φ : X → Fin n → ℝ}
    (h : SectionsAlong s m M ob rf rk P mx T L F φ) (hm : ∀ x, (m.mat x).Coherent)
    {model : X → SandModel n} {as : List (X → Adjustment n)} {sand dry dense : X → Fin n → Published.Rock}
    (hmodel : ∀ x, (s x).sandModel = model x) (has : ∀ x, (s x).adjustments = as.map (· x))
    (hsand : SandAlong (fun x => mineralAt (m.at x) (M.map (·.at x))) φ
      (fun x => effectiveAt (mx.map fun k => k x) (ob x) (rk x)) model sand dense)
    (hv : ∀ x i, (sand x i).Valid)
    (hadj : AdjustsAlong (fun x => mineralAt (m.at x) (M.map (·.at x))) φ
      (fun x => effectiveAt (mx.map fun k => k x) (ob x) (rk x))
      (fun x => effectiveAt (mx.map fun k => k x) (ob x) (rf x)) rk as sand dry)
    (hrow : ∀ x i, 0 ≤ φ x i ∧ (dry x i).K ≤ (dense x i).K ∧ (F x i).K < (dense x i).K) :
    CalculatesContinuously co2 s := by
  obtain ⟨cF, pF, hmix⟩ := h.fluid co2
  have ca := h.mineral
  have ce := fun i => effective_cont h.pressures.overburden h.pressures.rock h.pressures.max i
  have cr := fun i => effective_cont h.pressures.overburden h.pressures.reference h.pressures.max i
  have hc := hsand.cont ca h.continuous ce hv
  refine result_cont ca (hadj.cont ca h.continuous ce cr h.pressures.rock fun i => (hc i).1) (fun i => (hc i).2) cF pF
    h.continuous hrow fun x => ?_
  exact calculate_adjusted_any (h.reads x) (hm x) ((h.fills x).filled co2) (hmix x) (h.porosity x)
    (hmodel x ▸ hsand.gives x) (hv x) (has x ▸ hadj.adjusts x) (hrow x)

/-! ### An example: a polynomial dry rock, then a depth trend and a power trend -/

/-- The rock of the example at depth below reference `v`: bulk modulus `K + 10⁵ v`, shear modulus and density kept. -/
def exDepth : Coef3 Coeffs :=
  ⟨⟨1, 1, ![![0, 0], ![1, 0]]⟩, ⟨1, 1, ![![0, 1e5], ![1, 0]]⟩, ⟨1, 1, ![![0, 0], ![1, 0]]⟩⟩

/-- Quartz with less and less porosity, buried deeper and deeper, under falling load; gas replaces brine. -/
noncomputable def exAdjustedAlong (x : Set.Icc (0:ℝ) 1) : Sections 1 where
  minerals := [exCementedQuartz.at x].map fun y => ⟨y.1, some (finC y.2.2)⟩
  temperature := finC fun _ => 75
  fluids := ([exSofter].map (·.at x)).map fun p => ⟨p.kind, p.model, some (finC p.sat)⟩
  mixMethod := .wood
  brieConstant := .fin 3
  brieGases := none
  fluidModel := .batzleWang
  sandModel := .polyfit true ⟨none, some (rowCoeffs 20e9 (-10e9)), some (rowCoeffs 15e9 (-8e9))⟩
  porosity := finC fun _ => 0.1 + 0.15 * x.1
  adjustments := [.depthTrend ⟨finC fun _ => 2000 + 500 * x.1, some (finC fun _ => 1800), none, true, exDepth⟩,
    .pressureDependency (.powerfit ⟨(0, 1), (2, 1), (0, 1)⟩)]
  overburden := finC fun _ => 60e6 - 10e6 * x.1
  reference := finC fun _ => 30e6
  fluidPressure := some (finC fun _ => 30e6)
  maxEffective := none
  rockPressure := some (finC fun _ => 30e6)

theorem exAdjustedAlong_sections : SectionsAlong exAdjustedAlong exCementedQuartz [] (fun x _ => 60e6 - 10e6 * x.1)
    (fun _ _ => 30e6) (fun _ _ => 30e6) (fun _ _ => 30e6) none (fun _ _ => 75) [exSofter]
    (fun x i => Published.wood (poreRow ([exSofter].map (·.at x)) i)) (fun x _ => 0.1 + 0.15 * x.1) := by
  have h0 : ∀ x : Set.Icc (0:ℝ) 1, 0 ≤ x.1 ∧ x.1 ≤ 1 := fun x => x.2
  have hv : PoresAlong (fun (_ : Set.Icc (0:ℝ) 1) (_ : Fin 1) => (75:ℝ)) (fun _ _ => 30e6) [exSofter] := by
    constructor
    · intro p hp
      rw [List.mem_singleton.mp hp]
      exact .material _ _ (fun x => ⟨rfl, rfl, rfl, fun _ => by have := h0 x; constructor <;> norm_num [exSofter] <;> linarith⟩)
        ⟨fun _ => by dsimp only [exSofter]; fun_prop, fun _ => by dsimp only [exSofter]; fun_prop⟩
    · intro p hp
      rw [List.mem_singleton.mp hp]
      exact continuous_const
  refine ⟨fun x => ⟨rfl, ?_, ?_, rfl, rfl, rfl, rfl, rfl⟩, ?_, ⟨by fun_prop, continuous_const, continuous_const, continuous_const,
    fun _ h => by cases h⟩, continuous_const, fun x => ⟨rfl, rfl, by simp, ?_, ?_, ?_, ?_⟩, hv,
    ⟨.wood, none, fun _ => rfl, fun _ => rfl, ⟨fun _ => 3, continuous_const, fun _ => rfl⟩, fun x => .wood rfl ⟨by simp, fun i => ?_⟩⟩,
    fun _ => rfl, by fun_prop⟩
  · intro y hy
    rw [List.mem_singleton.mp hy]
    exact ⟨⟨rfl, rfl, rfl, fun _ => by norm_num [exCementedQuartz, MineralAlong.at]⟩, fun _ => by norm_num [exCementedQuartz, MineralAlong.at]⟩
  · intro i
    simp [exCementedQuartz, MineralAlong.at]
    norm_num
  · intro q hq
    rw [List.mem_singleton.mp hq]
    exact ⟨fun _ => ⟨continuous_const, continuous_const, continuous_const, fun _ => by norm_num [exCementedQuartz]⟩, continuous_const⟩
  · intro q hq
    obtain ⟨p, hp, rfl⟩ := List.mem_map.mp hq
    exact ((hv.varies p hp).cont continuous_const continuous_const).2 x
  · intro q hq
    rw [List.mem_singleton.mp hq]
    exact fun h => by cases h
  · intro q hq i
    rw [List.mem_singleton.mp hq]
    exact zero_le_one
  · intro i
    rw [poreTotal_at]
    norm_num [exSofter]
  · rw [poreTotal_at]
    norm_num [exSofter]

theorem exDepth_values (r : Published.Rock) (v : ℝ) :
    surfaceModuli exDepth.density exDepth.primary exDepth.secondary r v = ⟨r.K + 1e5 * v, r.G, r.ρ⟩ := by
  have h : ∀ b p : ℝ, surface ⟨1, 1, ![![0, b], ![1, 0]]⟩ p v = p + b * v := by
    intro b p
    show ∑ i : Fin 2, ∑ j : Fin 2, _ = _
    simp [Fin.sum_univ_two]
    ring
  unfold surfaceModuli exDepth
  rw [h, h, h]
  simp

theorem exSand_values (r : Published.Rock) (v : ℝ) :
    surfaceModuli defaultDensity (rowCoeffs 20e9 (-10e9)) (rowCoeffs 15e9 (-8e9)) r v
      = ⟨20e9 - 10e9 * v, 15e9 - 8e9 * v, r.ρ * (1 - v)⟩ := by
  have row : ∀ a b x y : ℝ, surface (rowCoeffs a b) x y = a + b * y := rowCoeffs_sum
  have h : surface defaultDensity r.ρ v = r.ρ * (1 - v) := by
    show ∑ i : Fin 2, ∑ j : Fin 2, _ = _
    simp [Fin.sum_univ_two, defaultDensity]
    ring
  unfold surfaceModuli
  rw [h, row, row]
  congr 1 <;> ring

theorem ratio_sq {r : Published.Rock} (h : r.Valid) : (r.vp / r.vs) ^ 2 - 4 / 3 = r.K / r.G := by
  rw [div_pow, r.vp_sq h, r.vs_sq h]
  have := h.2.1.ne'
  have := h.2.2.ne'
  field_simp
  ring

example : CalculatesContinuously constCO2 exAdjustedAlong := by
  have h0 : ∀ x : Set.Icc (0:ℝ) 1, 0 ≤ x.1 ∧ x.1 ≤ 1 := fun x => x.2
  have hm : ∀ (x : Set.Icc (0:ℝ) 1) i, mineralAt (exCementedQuartz.at x) (([] : List (MineralAlong _ 1)).map (·.at x)) i
    = ⟨36.8e9, 44e9, 2650⟩ := fun _ _ => rfl
  have eref : ∀ (x : Set.Icc (0:ℝ) 1) (i : Fin 1), effectiveAt (Option.map (fun k => k x) (none : Option (Set.Icc (0:ℝ) 1 → Fin 1 → ℝ)))
      (fun _ => 60e6 - 10e6 * x.1) (fun _ => 30e6) i = 30e6 - 10e6 * x.1 := by
    intro x i
    show 60e6 - 10e6 * x.1 - 30e6 = _
    ring
  let r2 : Set.Icc (0:ℝ) 1 → Published.Rock := fun x =>
    ⟨20e9 - 10e9 * (0.1 + 0.15 * x.1) + 1e5 * (2000 + 500 * x.1 - 1800), 15e9 - 8e9 * (0.1 + 0.15 * x.1),
      2650 * (1 - (0.1 + 0.15 * x.1))⟩
  have v2 : ∀ x, (r2 x).Valid := fun x => by
    have := h0 x
    refine ⟨?_, ?_, ?_⟩ <;> dsimp only [r2] <;> linarith
  have pow1 : ∀ (k : ℝ) (y : ℝ), Published.powerFit (k, 1) y = k * y := fun k y => by simp [Published.powerFit]
  have p3 : ∀ (x : Set.Icc (0:ℝ) 1), Published.addPower (r2 x) (0, 1) (2, 1) (0, 1) 30e6 (30e6 - 10e6 * x.1)
      = ⟨(r2 x).K + 20e6 * x.1, ((r2 x).K + 20e6 * x.1) / ((r2 x).K / (r2 x).G), (r2 x).ρ⟩ := by
    intro x
    unfold Published.addPower
    simp only [pow1]
    rw [show (0:ℝ) * 30e6 - 0 * (30e6 - 10e6 * x.1) = 0 by ring, add_zero, add_zero, ratio_sq (v2 x)]
    congr 1 <;> ring
  refine C165_all_dry_rocks_and_adjustments constCO2 exAdjustedAlong_sections
    (fun _ => mkModuli_coherent (mkModuli_rock (r := fun _ => ⟨36.8e9, 44e9, 2650⟩) fun _ => by norm_num [Published.Rock.Valid]))
    (fun _ => rfl)
    (as := [fun x => .depthTrend ⟨finC fun _ => 2000 + 500 * x.1, some (finC fun _ => 1800), none, true, exDepth⟩,
      fun _ => .pressureDependency (.powerfit ⟨(0, 1), (2, 1), (0, 1)⟩)]) (fun _ => rfl)
    (.moduli none (some (rowCoeffs 20e9 (-10e9))) (some (rowCoeffs 15e9 (-8e9)))) ?_
    (.cons (.moduliDepth (fun (x : Set.Icc (0:ℝ) 1) _ => 2000 + 500 * x.1) (some fun _ _ => 1800) (fun _ => none) exDepth.density exDepth.primary
      exDepth.secondary (by fun_prop) (fun k hk => by cases hk; fun_prop)) ?_
      (.cons (.power ⟨(0, 1), (2, 1), (0, 1)⟩ ?_ ?_ ?_) ?_ (.nil _))) ?_
  · intro x i
    have := h0 x
    simp only [Option.getD_none, Option.getD_some, exSand_values, hm]
    refine ⟨?_, ?_, ?_⟩ <;> dsimp only <;> linarith
  · intro x i
    simp only [Option.getD_none, Option.getD_some, exSand_values, hm, exDepth_values]
    exact v2 x
  · intro x i; norm_num
  · intro x i
    have := h0 x
    rw [eref]; linarith
  · intro x i
    simp only [Option.getD_none, Option.getD_some, exSand_values, hm, exDepth_values]
    have e : ∀ y : ℝ, Published.powerFit (0, 1) y = 0 := fun y => by rw [pow1, zero_mul]
    show 1e-20 < ((r2 x).vp / (r2 x).vs + (Published.powerFit (0, 1) _ - Published.powerFit (0, 1) _)) ^ 2 - 4 / 3
    rw [e, e, sub_zero, add_zero, ratio_sq (v2 x), lt_div_iff₀ (v2 x).2.1]
    have := h0 x
    dsimp only [r2]
    linarith
  · intro x i
    simp only [Option.getD_none, Option.getD_some, exSand_values, hm, exDepth_values]
    rw [eref]
    have := (p3 x)
    show (Published.addPower (r2 x) (0, 1) (2, 1) (0, 1) 30e6 (30e6 - 10e6 * x.1)).Valid
    have h1 := v2 x
    have h2 := h0 x
    have h3 : 0 < (r2 x).K + 20e6 * x.1 := by have := h1.1; linarith
    rw [p3]
    exact ⟨h3, div_pos h3 (div_pos h1.1 h1.2.1), h1.2.2⟩
  · intro x i
    have h2 := h0 x
    simp only [Option.getD_none, Option.getD_some, exSand_values, hm, exDepth_values]
    rw [eref]
    refine ⟨by linarith, ?_, ?_⟩
    · show (Published.addPower (r2 x) (0, 1) (2, 1) (0, 1) 30e6 (30e6 - 10e6 * x.1)).K ≤ 36.8e9
      rw [p3]
      dsimp only [r2]
      linarith
    · show (Published.wood [((⟨2.8e9 - 2.5e9 * x.1, 1030 - 500 * x.1⟩ : Published.Fluid), (1:ℝ))]).K < 36.8e9
      simp only [Published.wood, List.map_cons, List.map_nil, List.sum_cons, List.sum_nil, add_zero]
      norm_num
      linarith

end OPE
