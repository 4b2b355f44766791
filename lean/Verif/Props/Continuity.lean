import Verif.Props.Published3
import Verif.Props.Split
import Verif.Props.Stiffer
import Mathlib.Topology.Order.Lattice
import Mathlib.Analysis.SpecialFunctions.Pow.Continuity

/-!
# C140: no jumps in the rock models

Inputs vary over an arbitrary topological space `X` (a depth axis, a parameter range, …).  If every input depends
continuously on the point, so does every number of the result.
-/

namespace OPE

open Classical

variable {X : Type*} [TopologicalSpace X]

/-- A rock that depends continuously on the point and is positive everywhere. -/
structure ContRock (a : X → Published.Rock) : Prop where
  bulk : Continuous fun x => (a x).K
  shear : Continuous fun x => (a x).G
  density : Continuous fun x => (a x).ρ
  pos : ∀ x, 0 < (a x).K ∧ 0 < (a x).G ∧ 0 < (a x).ρ

/-- The rock as a one-row material of the package. -/
noncomputable def Published.Rock.mat (a : Published.Rock) : Mat 1 :=
  Mat.ofReal (fun _ => a.K) (fun _ => a.G) (fun _ => a.ρ)

theorem ContRock.isRock {a : X → Published.Rock} (h : ContRock a) (x : X) : (a x).mat.IsRock fun _ => a x :=
  ⟨rfl, rfl, rfl, fun _ => h.pos x⟩

theorem hs_den_pos {a b f z : ℝ} (ha : 0 < a + z) (hb : 0 < b + z) (h0 : 0 ≤ f) (h1 : f ≤ 1) :
    0 < f / (a + z) + (1 - f) / (b + z) := by
  rcases h0.eq_or_lt with h | h
  · subst h; rw [zero_div, sub_zero, zero_add]; positivity
  · have : 0 ≤ (1 - f) / (b + z) := div_nonneg (by linarith) hb.le
    positivity

theorem hs_cont {a b f z : X → ℝ} (ha : Continuous a) (hb : Continuous b) (hf : Continuous f) (hz : Continuous z)
    (h1 : ∀ x, 0 < a x + z x) (h2 : ∀ x, 0 < b x + z x) (h0 : ∀ x, 0 ≤ f x ∧ f x ≤ 1) :
    Continuous fun x => Published.hashinShtrikman (a x) (b x) (f x) (z x) := by
  unfold Published.hashinShtrikman
  refine Continuous.sub (Continuous.inv₀ ?_ fun x => (hs_den_pos (h1 x) (h2 x) (h0 x).1 (h0 x).2).ne') hz
  exact ((hf.div (ha.add hz) fun x => (h1 x).ne').add
    ((continuous_const.sub hf).div (hb.add hz) fun x => (h2 x).ne'))

theorem zeta_cont {K G : X → ℝ} (hK : Continuous K) (hG : Continuous G) (h1 : ∀ x, 0 < K x) (h2 : ∀ x, 0 < G x) :
    Continuous fun x => Published.zeta (K x) (G x) := by
  unfold Published.zeta
  exact (hG.div_const _).mul (((hK.const_mul 9).add (hG.const_mul 8)).div (hK.add (hG.const_mul 2))
    fun x => by have := h1 x; have := h2 x; positivity)

theorem lower_cont {a b : X → Published.Rock} {f : X → ℝ} (ha : ContRock a) (hb : ContRock b) (hf : Continuous f)
    (h0 : ∀ x, 0 ≤ f x ∧ f x ≤ 1) : Continuous (fun x => (Published.lowerBound (a x) (b x) (f x)).K) ∧
      Continuous (fun x => (Published.lowerBound (a x) (b x) (f x)).G) ∧
      Continuous (fun x => (Published.lowerBound (a x) (b x) (f x)).ρ) := by
  have mG : ∀ x, 0 < min (a x).G (b x).G := fun x => lt_min (ha.pos x).2.1 (hb.pos x).2.1
  have mK : ∀ x, 0 < min (a x).K (b x).K := fun x => lt_min (ha.pos x).1 (hb.pos x).1
  have z1 := fun x => mul_pos (by norm_num : (0:ℝ) < 4 / 3) (mG x)
  have z2 := fun x => zeta_nonneg (mK x) (mG x)
  refine ⟨?_, ?_, ?_⟩
  · exact hs_cont ha.bulk hb.bulk hf (continuous_const.mul (ha.shear.min hb.shear))
      (fun x => by have := z1 x; have := (ha.pos x).1; linarith) (fun x => by have := z1 x; have := (hb.pos x).1; linarith) h0
  · exact hs_cont ha.shear hb.shear hf (zeta_cont (ha.bulk.min hb.bulk) (ha.shear.min hb.shear) mK mG)
      (fun x => by have := z2 x; have := (ha.pos x).2.1; linarith) (fun x => by have := z2 x; have := (hb.pos x).2.1; linarith) h0
  · exact (hf.mul ha.density).add ((continuous_const.sub hf).mul hb.density)

theorem upper_cont {a b : X → Published.Rock} {f : X → ℝ} (ha : ContRock a) (hb : ContRock b) (hf : Continuous f)
    (h0 : ∀ x, 0 ≤ f x ∧ f x ≤ 1) : Continuous (fun x => (Published.upperBound (a x) (b x) (f x)).K) ∧
      Continuous (fun x => (Published.upperBound (a x) (b x) (f x)).G) ∧
      Continuous (fun x => (Published.upperBound (a x) (b x) (f x)).ρ) := by
  have mG : ∀ x, 0 < max (a x).G (b x).G := fun x => lt_max_of_lt_left (ha.pos x).2.1
  have mK : ∀ x, 0 < max (a x).K (b x).K := fun x => lt_max_of_lt_left (ha.pos x).1
  have z1 := fun x => mul_pos (by norm_num : (0:ℝ) < 4 / 3) (mG x)
  have z2 := fun x => zeta_nonneg (mK x) (mG x)
  refine ⟨?_, ?_, ?_⟩
  · exact hs_cont ha.bulk hb.bulk hf (continuous_const.mul (ha.shear.max hb.shear))
      (fun x => by have := z1 x; have := (ha.pos x).1; linarith) (fun x => by have := z1 x; have := (hb.pos x).1; linarith) h0
  · exact hs_cont ha.shear hb.shear hf (zeta_cont (ha.bulk.max hb.bulk) (ha.shear.max hb.shear) mK mG)
      (fun x => by have := z2 x; have := (ha.pos x).2.1; linarith) (fun x => by have := z2 x; have := (hb.pos x).2.1; linarith) h0
  · exact (hf.mul ha.density).add ((continuous_const.sub hf).mul hb.density)

/-- **C140 (mix of two).** Both bounds depend continuously on both materials and on the ratio, equal moduli included
(which the code treats as a special case). -/
theorem C140_mix_of_two {a b : X → Published.Rock} {f : X → ℝ} {bound : String} (hbd : bound = "lower" ∨ bound = "upper")
    (ha : ContRock a) (hb : ContRock b) (hf : Continuous f) (h0 : ∀ x, 0 ≤ f x ∧ f x ≤ 1) :
    ∃ r : X → Published.Rock, ContRock r ∧
      ∀ x, ∃ m, hsw (a x).mat (b x).mat (c (f x)) bound = .ok m ∧ m.IsRock fun _ => r x := by
  rcases hbd with rfl | rfl
  · have hr := fun x => hsw_lower (f := fun _ : Fin 1 => f x) (ha.isRock x) (hb.isRock x) (fun _ => h0 x)
    obtain ⟨c1, c2, c3⟩ := lower_cont ha hb hf h0
    exact ⟨_, ⟨c1, c2, c3, fun x => by obtain ⟨m, -, hm⟩ := hr x; exact hm.2.2.2 0⟩, hr⟩
  · have hr := fun x => hsw_upper (f := fun _ : Fin 1 => f x) (ha.isRock x) (hb.isRock x) (fun _ => h0 x)
    obtain ⟨c1, c2, c3⟩ := upper_cont ha hb hf h0
    exact ⟨_, ⟨c1, c2, c3, fun x => by obtain ⟨m, -, hm⟩ := hr x; exact hm.2.2.2 0⟩, hr⟩

theorem poisson_cont {a : X → Published.Rock} (ha : ContRock a) :
    Continuous (fun x => Published.poisson (a x).K (a x).G) ∧ ∀ x, Published.poisson (a x).K (a x).G < 1 / 2 := by
  refine ⟨?_, fun x => (nuR_lt _ _ (ha.pos x).1 (ha.pos x).2.1).1⟩
  unfold Published.poisson
  exact ((ha.bulk.const_mul 3).sub (ha.shear.const_mul 2)).div (((ha.bulk.const_mul 3).add ha.shear).const_mul 2)
    fun x => by have := (ha.pos x).1; have := (ha.pos x).2.1; positivity

theorem friable_contRock {a : X → Published.Rock} {φ φc p f N : X → ℝ} (ha : ContRock a) (cφ : Continuous φ)
    (cφc : Continuous φc) (cp : Continuous p) (cf : Continuous f) (cN : Continuous N)
    (hφ0 : ∀ x, 0 ≤ φ x) (hφ : ∀ x, φ x ≤ φc x) (hc0 : ∀ x, 0 < φc x) (hc1 : ∀ x, φc x < 1) (hp : ∀ x, 0 < p x)
    (hf : ∀ x, 0 ≤ f x) (hN : ∀ x, 0 < N x) :
    ContRock (fun x => Published.hertzMindlin (a x) (φ x) (p x) (N x) (f x)) ∧
    ContRock (fun x => Published.friableSand (a x) (φ x) (φc x) (p x) (N x) (f x)) := by
  obtain ⟨cν, hν⟩ := poisson_cont ha
  have key : ∀ {ψ : X → ℝ}, Continuous ψ → (∀ x, ψ x < 1) → ContRock (fun x => Published.hertzMindlin (a x) (ψ x) (p x)
      (N x) (f x)) := by
    intro ψ cψ hψ
    have hr := fun x => hertzMindlin_rock (φ := fun _ : Fin 1 => ψ x) (p := fun _ => p x) (f := fun _ => f x)
      (N := fun _ => N x) (ha.isRock x) (fun _ => hψ x) (fun _ => hp x) (fun _ => hf x) (fun _ => hN x)
    refine ⟨?_, ?_, ha.density.mul (continuous_const.sub cψ), fun x => by obtain ⟨m, -, hm⟩ := hr x; exact hm.2.2.2 0⟩
    · change Continuous fun x => Published.hertzMindlinBulk (a x).K (a x).G (ψ x) (p x) (N x)
      unfold Published.hertzMindlinBulk
      refine Continuous.rpow_const (Continuous.div ?_ ?_ fun x => ?_) fun _ => .inr (by norm_num)
      · exact (((cN.pow 2).mul ((continuous_const.sub cψ).pow 2)).mul (ha.shear.pow 2)).mul cp
      · exact continuous_const.mul ((continuous_const.sub cν).pow 2)
      · have := hν x; have : 0 < 1 - Published.poisson (a x).K (a x).G := by linarith
        positivity
    · change Continuous fun x => Published.hertzMindlinShear (a x).K (a x).G (ψ x) (p x) (N x) (f x)
      unfold Published.hertzMindlinShear
      refine Continuous.mul (Continuous.div ?_ ?_ fun x => ?_)
        (Continuous.rpow_const (Continuous.div ?_ ?_ fun x => ?_) fun _ => .inr (by norm_num))
      · exact (continuous_const.add (continuous_const.mul cf)).sub
          (cν.mul (continuous_const.add (continuous_const.mul cf)))
      · exact continuous_const.mul (continuous_const.sub cν)
      · have := hν x; have : 0 < 2 - Published.poisson (a x).K (a x).G := by linarith
        positivity
      · exact (((continuous_const.mul (cN.pow 2)).mul ((continuous_const.sub cψ).pow 2)).mul (ha.shear.pow 2)).mul cp
      · exact continuous_const.mul ((continuous_const.sub cν).pow 2)
      · have := hν x; have : 0 < 1 - Published.poisson (a x).K (a x).G := by linarith
        positivity
  refine ⟨key cφ (fun x => (hφ x).trans_lt (hc1 x)), ?_⟩
  · have hr := fun x => friableSand_rock (φ := fun _ : Fin 1 => φ x) (φc := fun _ => φc x) (p := fun _ => p x)
      (f := fun _ => f x) (N := fun _ => N x) (ha.isRock x) (fun _ => hφ0 x) (fun _ => hφ x) (fun _ => hc0 x)
      (fun _ => hc1 x) (fun _ => hp x) (fun _ => hf x) (fun _ => hN x)
    obtain ⟨c1, c2, c3⟩ := lower_cont ha (key cφc hc1) (f := fun x => 1 - φ x / φc x)
      (continuous_const.sub (cφ.div cφc fun x => (hc0 x).ne'))
      (fun x => ⟨by have := div_le_one_of_le₀ (hφ x) (hc0 x).le; linarith,
        by have := div_nonneg (hφ0 x) (hc0 x).le; linarith⟩)
    exact ⟨c1, c2, c3, fun x => by obtain ⟨m, -, hm⟩ := hr x; exact hm.2.2.2 0⟩

/-- **C140 (grain pack, friable sand).** Hertz–Mindlin and friable sand depend continuously on the mineral and on every
parameter, porosity 0 and critical porosity included. -/
theorem C140_friable {a : X → Published.Rock} {φ φc p f N : X → ℝ} (ha : ContRock a) (cφ : Continuous φ)
    (cφc : Continuous φc) (cp : Continuous p) (cf : Continuous f) (cN : Continuous N)
    (hφ0 : ∀ x, 0 ≤ φ x) (hφ : ∀ x, φ x ≤ φc x) (hc0 : ∀ x, 0 < φc x) (hc1 : ∀ x, φc x < 1) (hp : ∀ x, 0 < p x)
    (hf : ∀ x, 0 ≤ f x) (hN : ∀ x, 0 < N x) :
    (∃ r : X → Published.Rock, ContRock r ∧
      ∀ x, ∃ m, hertzMindlin (a x).mat (c (φ x)) (c (p x)) (c (f x)) (c (N x)) = .ok m ∧ m.IsRock fun _ => r x) ∧
    (∃ r : X → Published.Rock, ContRock r ∧
      ∀ x, ∃ m, friableSand (a x).mat (c (φ x)) (c (φc x)) (c (p x)) (c (N x)) (c (f x)) = .ok m ∧
        m.IsRock fun _ => r x) := by
  obtain ⟨h1, h2⟩ := friable_contRock ha cφ cφc cp cf cN hφ0 hφ hc0 hc1 hp hf hN
  exact ⟨⟨_, h1, fun x => hertzMindlin_rock (φ := fun _ : Fin 1 => φ x)
      (p := fun _ => p x) (f := fun _ => f x) (N := fun _ => N x) (ha.isRock x) (fun _ => (hφ x).trans_lt (hc1 x))
      (fun _ => hp x) (fun _ => hf x) (fun _ => hN x)⟩,
    ⟨_, h2, fun x => friableSand_rock (φ := fun _ : Fin 1 => φ x) (φc := fun _ => φc x) (p := fun _ => p x)
      (f := fun _ => f x) (N := fun _ => N x) (ha.isRock x) (fun _ => hφ0 x) (fun _ => hφ x) (fun _ => hc0 x)
      (fun _ => hc1 x) (fun _ => hp x) (fun _ => hf x) (fun _ => hN x)⟩⟩

theorem radius_cont {x g : X → ℝ} (cx : Continuous x) (cg : Continuous g) (hg : ∀ y, g y < 1) :
    Continuous fun y => Published.radiusRatio (g y) (x y) := by
  unfold Published.radiusRatio Published.cementRadius
  refine continuous_const.min (Continuous.rpow_const (Continuous.div ?_ ?_ fun y => ?_) fun _ => .inr (by norm_num))
  · exact continuous_const.mul (cg.sub cx)
  · exact continuous_const.mul (continuous_const.sub cg)
  · have : 0 < 1 - g y := by have := hg y; linarith
    positivity

theorem normal_cont {ν νc G Gc α : X → ℝ} (c1 : Continuous ν) (c2 : Continuous νc) (c3 : Continuous G)
    (c4 : Continuous Gc) (c5 : Continuous α) (h1 : ∀ x, ν x < 1 / 2) (h2 : ∀ x, νc x < 1 / 2) (h3 : ∀ x, 0 < G x)
    (h4 : ∀ x, 0 < Gc x) : Continuous fun x => Published.cementNormal (ν x) (νc x) (G x) (Gc x) (α x) := by
  have hΛ : ∀ x, 0 < 2 * Gc x / (Real.pi * G x) * ((1 - ν x) * (1 - νc x) / (1 - 2 * νc x)) := by
    intro x
    have := h3 x; have := h4 x; have := Real.pi_pos
    have : 0 < 1 - ν x := by have := h1 x; linarith
    have : 0 < 1 - νc x := by have := h2 x; linarith
    have : 0 < 1 - 2 * νc x := by have := h2 x; linarith
    positivity
  have cΛ : Continuous fun x => 2 * Gc x / (Real.pi * G x) * ((1 - ν x) * (1 - νc x) / (1 - 2 * νc x)) := by
    refine Continuous.mul (Continuous.div (continuous_const.mul c4) (continuous_const.mul c3) fun x => ?_)
      (Continuous.div ?_ ?_ fun x => ?_)
    · have := h3 x; have := Real.pi_pos; positivity
    · exact (continuous_const.sub c1).mul (continuous_const.sub c2)
    · exact continuous_const.sub (continuous_const.mul c2)
    · have := h2 x; linarith
  unfold Published.cementNormal
  refine Continuous.add (Continuous.add (Continuous.mul (Continuous.mul continuous_const ?_) (c5.pow 2))
    (Continuous.mul (Continuous.mul continuous_const ?_) c5)) (Continuous.mul continuous_const ?_)
  all_goals exact Continuous.rpow_const cΛ fun x => .inl (hΛ x).ne'

theorem tangential_cont {ν G Gc α : X → ℝ} (c1 : Continuous ν) (c3 : Continuous G)
    (c4 : Continuous Gc) (c5 : Continuous α) (h3 : ∀ x, 0 < G x)
    (h4 : ∀ x, 0 < Gc x) : Continuous fun x => Published.cementTangential (ν x) (G x) (Gc x) (α x) := by
  have hΛ : ∀ x, 0 < Gc x / (Real.pi * G x) := by
    intro x
    have := h3 x; have := h4 x; have := Real.pi_pos
    positivity
  have cΛ : Continuous fun x => Gc x / (Real.pi * G x) := by
    refine Continuous.div c4 (continuous_const.mul c3) fun x => ?_
    have := h3 x; have := Real.pi_pos; positivity
  have key : ∀ e : X → ℝ, Continuous e → Continuous fun x => (Gc x / (Real.pi * G x)) ^ (e x) := fun e he =>
    Continuous.rpow cΛ he fun x => .inl (hΛ x).ne'
  have k1 := key _ (((continuous_const (y := (0.079:ℝ))).mul (c1.pow 2)).add ((continuous_const (y := (0.1754:ℝ))).mul c1)
    |>.sub (continuous_const (y := (1.342:ℝ))))
  have k2 := key _ (((continuous_const (y := (0.0274:ℝ))).mul (c1.pow 2)).add ((continuous_const (y := (0.0529:ℝ))).mul c1)
    |>.sub (continuous_const (y := (0.8765:ℝ))))
  have k3 := key _ (((continuous_const (y := (0.01867:ℝ))).mul (c1.pow 2)).add ((continuous_const (y := (0.4011:ℝ))).mul c1)
    |>.sub (continuous_const (y := (1.8186:ℝ))))
  unfold Published.cementTangential
  dsimp only
  fun_prop

theorem contact_cont {a b : X → Published.Rock} {x g f N : X → ℝ} (ha : ContRock a) (hb : ContRock b)
    (cx : Continuous x) (cg : Continuous g) (cf : Continuous f) (cN : Continuous N) (hg : ∀ y, g y < 1) :
    Continuous (fun y => (Published.contactCement (a y) (b y) (x y) (g y) (f y) (N y)).K) ∧
      Continuous (fun y => (Published.contactCement (a y) (b y) (x y) (g y) (f y) (N y)).G) ∧
      Continuous (fun y => (Published.contactCement (a y) (b y) (x y) (g y) (f y) (N y)).ρ) := by
  obtain ⟨cν, hν⟩ := poisson_cont hb
  obtain ⟨cνc, hνc⟩ := poisson_cont ha
  have cα := radius_cont cx cg hg
  have c1 := normal_cont cν cνc hb.shear ha.shear cα hν hνc (fun y => (hb.pos y).2.1) (fun y => (ha.pos y).2.1)
  have c2 := tangential_cont cν hb.shear ha.shear cα (fun y => (hb.pos y).2.1) (fun y => (ha.pos y).2.1)
  have cK : Continuous fun y => Published.cementedBulk (b y).K (b y).G (a y).K (a y).G (g y)
      (Published.radiusRatio (g y) (x y)) (N y) := by
    unfold Published.cementedBulk
    exact (((continuous_const.mul cN).mul (continuous_const.sub cg)).mul
      (ha.bulk.add (continuous_const.mul ha.shear))).mul c1
  refine ⟨cK, ?_, ?_⟩
  · change Continuous fun y => Published.cementedShear (b y).K (b y).G (a y).K (a y).G (g y)
      (Published.radiusRatio (g y) (x y)) (N y) (f y)
    unfold Published.cementedShear
    exact (continuous_const.mul cK).add (cf.mul ((((continuous_const.mul cN).mul (continuous_const.sub cg)).mul
      ha.shear).mul c2))
  · exact (continuous_const.sub cx).mul ((cα.mul ha.density).add ((continuous_const.sub cα).mul hb.density))

/-- Cement and sand the cement models are used with: sand with non-negative Poisson ratio, cement not much softer. -/
def CementPair (cement sand : X → Published.Rock) : Prop :=
  ContRock cement ∧ ContRock sand ∧
    ∀ y, 2 * (sand y).G ≤ 3 * (sand y).K ∧ 0.04 * (Real.pi * (sand y).G) ≤ (cement y).G

theorem constant_contRock {a b : X → Published.Rock} {φ x g f N : X → ℝ} (h : CementPair a b) (cφ : Continuous φ)
    (cx : Continuous x) (cg : Continuous g) (cf : Continuous f) (cN : Continuous N) (hφ0 : ∀ y, 0 ≤ φ y)
    (hφ : ∀ y, φ y ≤ x y) (h0 : ∀ y, 0 < x y) (hx : ∀ y, x y ≤ g y) (hg : ∀ y, g y < 1) (hf : ∀ y, 0 ≤ f y)
    (hN : ∀ y, 0 < N y) :
    ContRock (fun y => Published.contactCement (a y) (b y) (x y) (g y) (f y) (N y)) ∧
    ContRock (fun y => Published.constantCement (b y) (a y) (φ y) (x y) (g y) (f y) (N y)) := by
  obtain ⟨ha, hb, hr⟩ := h
  have hres := fun y => C98_contact_and_constant_cement (φ := fun _ : Fin 1 => φ y) (x := fun _ => x y) (g := fun _ => g y)
    (f := fun _ => f y) (N := fun _ => N y) (ha.isRock y) (hb.isRock y) (fun _ => hr y) (fun _ => hφ0 y) (fun _ => hφ y)
    (fun _ => h0 y) (fun _ => hx y) (fun _ => hg y) (fun _ => hf y) (fun _ => hN y)
  obtain ⟨c1, c2, c3⟩ := contact_cont ha hb cx cg cf cN hg
  have hcc : ContRock (fun y => Published.contactCement (a y) (b y) (x y) (g y) (f y) (N y)) :=
    ⟨c1, c2, c3, fun y => by obtain ⟨m, -, hm⟩ := (hres y).1; exact hm.2.2.2 0⟩
  refine ⟨hcc, ?_⟩
  have hd : ContRock (fun y => Published.lowerBound (a y) (b y) (g y - x y)) := by
    have hr := fun y => hsw_lower (f := fun _ : Fin 1 => g y - x y) (ha.isRock y) (hb.isRock y)
      (fun _ => ⟨by linarith [hx y], by linarith [h0 y, hg y]⟩)
    obtain ⟨d1, d2, d3⟩ := lower_cont ha hb (f := fun y => g y - x y) (cg.sub cx)
      (fun y => ⟨by linarith [hx y], by linarith [h0 y, hg y]⟩)
    exact ⟨d1, d2, d3, fun y => by obtain ⟨m, -, hm⟩ := hr y; exact hm.2.2.2 0⟩
  obtain ⟨d1, d2, d3⟩ := lower_cont hd hcc (f := fun y => 1 - φ y / x y)
      (continuous_const.sub (cφ.div cx fun y => (h0 y).ne'))
      (fun y => ⟨by have := div_le_one_of_le₀ (hφ y) (h0 y).le; linarith,
        by have := div_nonneg (hφ0 y) (h0 y).le; linarith⟩)
  exact ⟨d1, d2, d3, fun y => by obtain ⟨m, -, hm⟩ := (hres y).2; exact hm.2.2.2 0⟩

/-- **C140 (cemented sands).** Contact cement and constant cement depend continuously on cement, sand and every
parameter, including no cement at all and the point where the radius ratio is cut off at 1. -/
theorem C140_cement {a b : X → Published.Rock} {φ x g f N : X → ℝ} (h : CementPair a b) (cφ : Continuous φ)
    (cx : Continuous x) (cg : Continuous g) (cf : Continuous f) (cN : Continuous N) (hφ0 : ∀ y, 0 ≤ φ y)
    (hφ : ∀ y, φ y ≤ x y) (h0 : ∀ y, 0 < x y) (hx : ∀ y, x y ≤ g y) (hg : ∀ y, g y < 1) (hf : ∀ y, 0 ≤ f y)
    (hN : ∀ y, 0 < N y) :
    (∃ r : X → Published.Rock, ContRock r ∧ ∀ y, ∃ m,
      contactCement (a y).mat (b y).mat (c (x y)) (c (g y)) (c (f y)) (c (N y)) = .ok m ∧ m.IsRock fun _ => r y) ∧
    (∃ r : X → Published.Rock, ContRock r ∧ ∀ y, ∃ m,
      constantCement (b y).mat (a y).mat (c (φ y)) (c (x y)) (c (g y)) (c (N y)) (c (f y)) = .ok m ∧
        m.IsRock fun _ => r y) := by
  obtain ⟨h1, h2⟩ := constant_contRock h cφ cx cg cf cN hφ0 hφ h0 hx hg hf hN
  obtain ⟨ha, hb, hr⟩ := h
  have hres := fun y => C98_contact_and_constant_cement (φ := fun _ : Fin 1 => φ y) (x := fun _ => x y) (g := fun _ => g y)
    (f := fun _ => f y) (N := fun _ => N y) (ha.isRock y) (hb.isRock y) (fun _ => hr y) (fun _ => hφ0 y) (fun _ => hφ y)
    (fun _ => h0 y) (fun _ => hx y) (fun _ => hg y) (fun _ => hf y) (fun _ => hN y)
  exact ⟨⟨_, h1, fun y => (hres y).1⟩, ⟨_, h2, fun y => (hres y).2⟩⟩

/-! ### Patchy cement -/

/-- The weighted stiffness has no jump where the two bounds differ, and none where the loose end member meets the upper
bound. -/
theorem blend_cont {t lo up l : X → ℝ} (ct : Continuous t) (clo : Continuous lo) (cup : Continuous up) (cl : Continuous l)
    (h : ∀ x, lo x < up x ∨ l x = up x) :
    Continuous fun x => l x + Published.weight (t x) (lo x) (up x) * (up x - l x) := by
  rw [continuous_iff_continuousAt]
  intro x
  refine ContinuousAt.add cl.continuousAt ?_
  rcases h x with h | h
  · refine ContinuousAt.mul ?_ (cup.sub cl).continuousAt
    have he : ∀ᶠ y in nhds x, lo y < up y := clo.continuousAt.eventually_lt cup.continuousAt h
    have : ContinuousAt (fun y => min 1 (max 0 ((t y - lo y) / (up y - lo y)))) x :=
      continuousAt_const.min (continuousAt_const.max (ContinuousAt.div (ct.sub clo).continuousAt
        (cup.sub clo).continuousAt (by linarith : 0 < up x - lo x).ne'))
    refine this.congr (he.mono fun y hy => ?_)
    dsimp only
    unfold Published.weight
    rw [if_neg hy.ne']
  · have hw : ∀ y, |Published.weight (t y) (lo y) (up y)| ≤ 1 := by
      intro y
      unfold Published.weight
      split_ifs
      · simp
      · rw [abs_of_nonneg (le_min zero_le_one (le_max_left _ _))]
        exact min_le_left _ _
    have h0 : up x - l x = 0 := by linarith
    unfold ContinuousAt
    dsimp only
    rw [h0, mul_zero]
    refine squeeze_zero_norm (a := fun y => |up y - l y|) (fun y => ?_) ?_
    · rw [Real.norm_eq_abs, abs_mul]
      exact mul_le_of_le_one_left (abs_nonneg _) (hw y)
    · have : Filter.Tendsto (fun y => |up y - l y|) (nhds x) (nhds |up x - l x|) := (cup.sub cl).abs.tendsto x
      rwa [h0, abs_zero] at this

theorem lowerBound_one (a b : Published.Rock) (ha : 0 < a.K ∧ 0 < a.G) (hb : 0 < b.K ∧ 0 < b.G) :
    (Published.lowerBound a b 1).K = a.K ∧ (Published.lowerBound a b 1).G = a.G := by
  have m1 : 0 < min a.G b.G := lt_min ha.2 hb.2
  have m2 : 0 < min a.K b.K := lt_min ha.1 hb.1
  have z := zeta_nonneg m2 m1
  unfold Published.lowerBound Published.hashinShtrikman
  dsimp only
  simp

/-- **C140 (patchy cement).** Patchy cement depends continuously on every input as long as, wherever there are pores, the
lower bound is softer than the upper bound.  Porosity 0, where the bounds meet and the code switches to the weight 1, and
the points where the weight is cut off are included. -/
theorem C140_patchy {a b : X → Published.Rock} {φ ccp ub p plb crit f Nf Nc : X → ℝ} (h : CementPair a b)
    (cφ : Continuous φ) (cccp : Continuous ccp) (cub : Continuous ub) (cp : Continuous p) (cplb : Continuous plb)
    (ccrit : Continuous crit) (cf : Continuous f) (cNf : Continuous Nf) (cNc : Continuous Nc)
    (hφ0 : ∀ i, 0 ≤ φ i) (hφ1 : ∀ i, φ i ≤ ccp i) (hφ2 : ∀ i, φ i ≤ ub i)
    (hccp0 : ∀ i, 0 < ccp i) (hub0 : ∀ i, 0 < ub i)
    (hccp : ∀ i, ccp i ≤ crit i) (hub : ∀ i, ub i ≤ crit i) (hcrit : ∀ i, crit i < 1)
    (hp : ∀ i, 0 < p i) (hplb : ∀ i, 0 < plb i) (hf : ∀ i, 0 ≤ f i) (hNf : ∀ i, 0 < Nf i)
    (hNc : ∀ i, 0 < Nc i)
    (hbounds : ∀ x, 0 < φ x → ∀ d lo up : Mat 1, hsw (a x).mat (b x).mat (c (crit x) - c (ub x)) "lower" = .ok d →
      friableSand d (c (φ x)) (c (crit x)) (c (plb x)) (c (Nf x)) (c (f x)) = .ok lo →
      constantCement (b x).mat (a x).mat (c (φ x)) (c (ub x)) (c (crit x)) (c (Nc x)) (c (f x)) = .ok up →
      lo.bulk 0 < up.bulk 0 ∧ lo.shear 0 < up.shear 0) :
    ∃ r : X → Published.Rock, ContRock r ∧ ∀ x, ∃ m,
      patchyCement (b x).mat (a x).mat (c (φ x)) (c (ccp x)) (c (ub x)) (c (p x)) (c (plb x)) (c (crit x)) (c (f x))
        (c (Nf x)) (c (Nc x)) = .ok m ∧ m.IsRock fun _ => r x := by
  obtain ⟨ha, hb, hr⟩ := h
  have hres := fun x => C99_patchy_cement (φ := fun _ : Fin 1 => φ x) (ccp := fun _ => ccp x) (ub := fun _ => ub x)
    (p := fun _ => p x) (plb := fun _ => plb x) (crit := fun _ => crit x) (f := fun _ => f x) (Nf := fun _ => Nf x)
    (Nc := fun _ => Nc x) (hb.isRock x) (ha.isRock x) (fun _ => hr x) (fun _ => hφ0 x) (fun _ => hφ1 x) (fun _ => hφ2 x)
    (fun _ => hccp0 x) (fun _ => hub0 x) (fun _ => hccp x) (fun _ => hub x) (fun _ => hcrit x) (fun _ => hp x)
    (fun _ => hplb x) (fun _ => hf x) (fun _ => hNf x) (fun _ => hNc x)
  have hcrit0 : ∀ i, 0 < crit i := fun i => lt_of_lt_of_le (hub0 i) (hub i)
  have hφc : ∀ i, φ i ≤ crit i := fun i => (hφ2 i).trans (hub i)
  obtain ⟨hcc, hup⟩ := constant_contRock ⟨ha, hb, hr⟩ cφ cub ccrit cf cNc hφ0 hφ2 hub0 hub hcrit hf hNc
  obtain ⟨hcc', -⟩ := constant_contRock ⟨ha, hb, hr⟩ cφ cccp ccrit cf cNc hφ0 hφ1 hccp0 hccp hcrit hf hNc
  have hdr := fun y => hsw_lower (f := fun _ : Fin 1 => crit y - ub y) (ha.isRock y) (hb.isRock y)
      (fun _ => ⟨by linarith [hub y], by linarith [hub0 y, hcrit y]⟩)
  have hd : ContRock (fun y => Published.lowerBound (a y) (b y) (crit y - ub y)) := by
    obtain ⟨d1, d2, d3⟩ := lower_cont ha hb (f := fun y => crit y - ub y) (ccrit.sub cub)
      (fun y => ⟨by linarith [hub y], by linarith [hub0 y, hcrit y]⟩)
    exact ⟨d1, d2, d3, fun y => by obtain ⟨m, -, hm⟩ := hdr y; exact hm.2.2.2 0⟩
  obtain ⟨hpk, -⟩ := friable_contRock hd ccrit ccrit cp cf cNf (fun i => (hcrit0 i).le) (fun _ => le_rfl) hcrit0 hcrit
    hp hf hNf
  obtain ⟨-, hfr⟩ := friable_contRock hd cφ ccrit cp cf cNf hφ0 hφc hcrit0 hcrit hp hf hNf
  obtain ⟨-, hlo⟩ := friable_contRock hd cφ ccrit cplb cf cNf hφ0 hφc hcrit0 hcrit hplb hf hNf
  obtain ⟨l1, l2, -⟩ := lower_cont hd hcc' (f := fun y => 1 - φ y / ccp y)
      (continuous_const.sub (cφ.div cccp fun y => (hccp0 y).ne'))
      (fun y => ⟨by have := div_le_one_of_le₀ (hφ1 y) (hccp0 y).le; linarith,
        by have := div_nonneg (hφ0 y) (hccp0 y).le; linarith⟩)
  have hcase : ∀ x, (((Published.friableSand (Published.lowerBound (a x) (b x) (crit x - ub x)) (φ x) (crit x) (plb x) (Nf x)
        (f x)).K < (Published.constantCement (b x) (a x) (φ x) (ub x) (crit x) (f x) (Nc x)).K ∨
      (Published.friableSand (Published.lowerBound (a x) (b x) (crit x - ub x)) (φ x) (crit x) (p x) (Nf x)
        (f x)).K = (Published.constantCement (b x) (a x) (φ x) (ub x) (crit x) (f x) (Nc x)).K)) ∧
      ((Published.friableSand (Published.lowerBound (a x) (b x) (crit x - ub x)) (φ x) (crit x) (plb x) (Nf x)
        (f x)).G < (Published.constantCement (b x) (a x) (φ x) (ub x) (crit x) (f x) (Nc x)).G ∨
      (Published.friableSand (Published.lowerBound (a x) (b x) (crit x - ub x)) (φ x) (crit x) (p x) (Nf x)
        (f x)).G = (Published.constantCement (b x) (a x) (φ x) (ub x) (crit x) (f x) (Nc x)).G) := by
    intro x
    rcases (hφ0 x).eq_or_lt with h0 | h0
    · have q1 := lowerBound_one _ (Published.hertzMindlin (Published.lowerBound (a x) (b x) (crit x - ub x)) (crit x) (p x)
        (Nf x) (f x)) ⟨(hd.pos x).1, (hd.pos x).2.1⟩ ⟨(hpk.pos x).1, (hpk.pos x).2.1⟩
      have q2 := lowerBound_one _ _ ⟨(hd.pos x).1, (hd.pos x).2.1⟩ ⟨(hcc.pos x).1, (hcc.pos x).2.1⟩
      have e1 : (1 : ℝ) - φ x / crit x = 1 := by rw [← h0]; simp
      have e2 : (1 : ℝ) - φ x / ub x = 1 := by rw [← h0]; simp
      unfold Published.friableSand Published.constantCement
      rw [e1, e2]
      exact ⟨.inr (q1.1.trans q2.1.symm), .inr (q1.2.trans q2.2.symm)⟩
    · obtain ⟨d, hd, hdr⟩ := hdr x
      obtain ⟨lo, hlo, hlor⟩ := friableSand_rock (φ := fun _ : Fin 1 => φ x) (φc := fun _ => crit x) (p := fun _ => plb x)
        (f := fun _ => f x) (N := fun _ => Nf x) hdr (fun _ => hφ0 x) (fun _ => hφc x) (fun _ => hcrit0 x)
        (fun _ => hcrit x) (fun _ => hplb x) (fun _ => hf x) (fun _ => hNf x)
      obtain ⟨up, hup, hupr⟩ := (C98_contact_and_constant_cement (φ := fun _ : Fin 1 => φ x) (x := fun _ => ub x)
        (g := fun _ => crit x) (f := fun _ => f x) (N := fun _ => Nc x) (ha.isRock x) (hb.isRock x) (fun _ => hr x)
        (fun _ => hφ0 x) (fun _ => hφ2 x) (fun _ => hub0 x) (fun _ => hub x) (fun _ => hcrit x) (fun _ => hf x)
        (fun _ => hNc x)).2
      obtain ⟨k1, k2⟩ := hbounds x h0 d lo up (by
        rw [show (c (crit x) - c (ub x) : Col 1) = finC fun _ => crit x - ub x by funext i; simp]; exact hd) hlo hup
      rw [hlor.1, hupr.1] at k1
      rw [hlor.2.1, hupr.2.1] at k2
      simp only [finC_apply, Num.fin_lt] at k1 k2
      exact ⟨.inl k1, .inl k2⟩
  refine ⟨_, ⟨?_, ?_, ?_, fun x => by obtain ⟨m, -, hm⟩ := hres x; exact hm.2.2.2 0⟩, hres⟩
  · exact blend_cont l1 hlo.bulk hup.bulk hfr.bulk fun x => (hcase x).1
  · exact blend_cont l2 hlo.shear hup.shear hfr.shear fun x => (hcase x).2
  · unfold Published.patchyCement
    dsimp only
    exact (((continuous_const.sub cφ).sub (ccrit.sub cccp)).mul hb.density).add ((ccrit.sub cccp).mul ha.density)

/-! ### Fluid substitution -/

theorem quot_cont {u v α β : X → ℝ} (cu : Continuous u) (cv : Continuous v) (cα : Continuous α) (cβ : Continuous β)
    (hu : ∀ x, 0 ≤ u x) (hv : ∀ x, 0 ≤ v x) (ha : ∀ x, 0 < α x) (hb : ∀ x, 0 < β x) :
    Continuous fun x => u x * v x / (α x * u x + β x * v x) := by
  rw [continuous_iff_continuousAt]
  intro x
  by_cases h0 : α x * u x + β x * v x = 0
  · have h1 : u x = 0 := by
      have := mul_nonneg (ha x).le (hu x); have := mul_nonneg (hb x).le (hv x)
      have : α x * u x = 0 := by linarith
      simpa [(ha x).ne'] using this
    unfold ContinuousAt
    dsimp only
    rw [h1, zero_mul, zero_div]
    refine squeeze_zero (g := fun y => u y / β y) (fun y => ?_) (fun y => ?_) ?_
    · have := hu y; have := hv y; have := (ha y).le; have := (hb y).le; positivity
    · have a := hu y; have b := hv y
      have c1 := mul_nonneg (ha y).le a
      have c2 := mul_nonneg (hb y).le b
      rcases (add_nonneg c1 c2).eq_or_lt with h | h
      · rw [← h, div_zero]; exact div_nonneg a (hb y).le
      · rw [div_le_div_iff₀ h (hb y)]
        nlinarith [mul_nonneg a c1]
    · have : Filter.Tendsto (fun y => u y / β y) (nhds x) (nhds (u x / β x)) :=
        (cu.div cβ fun y => (hb y).ne').tendsto x
      rwa [h1, zero_div] at this
  · exact ContinuousAt.div (cu.mul cv).continuousAt ((cα.mul cu).add (cβ.mul cv)).continuousAt h0

theorem satReal_ge {Kd Km Kf φ : ℝ} (hφ : 0 ≤ φ) (hd0 : 0 ≤ Kd) (hd : Kd ≤ Km) (hf : 0 < Kf) (hf1 : Kf < Km) :
    Kd ≤ satReal Kd Km Kf φ := by
  have hm : 0 < Km := hf.trans hf1
  unfold satReal
  have h1 : 0 ≤ Km * (Km - Kf) * φ := by
    have : 0 < Km - Kf := by linarith
    positivity
  have h2 : 0 ≤ Kf * (Km - Kd) := mul_nonneg hf.le (by linarith)
  have h3 : Km * (Km - Kf) * φ / (Km * (Km - Kf) * φ + Kf * (Km - Kd)) ≤ 1 :=
    div_le_one_of_le₀ (by linarith) (by linarith)
  have h4 : Km * ((Km - Kf) * (φ * (Km - Kd)) / (Km * (Km - Kf) * φ + Kf * (Km - Kd))) =
      Km * (Km - Kf) * φ / (Km * (Km - Kf) * φ + Kf * (Km - Kd)) * (Km - Kd) := by ring
  rw [h4]
  have := mul_le_mul_of_nonneg_right h3 (sub_nonneg.mpr hd)
  linarith

/-- **C140 (fluid substitution).** The saturated rock depends continuously on dry rock, mineral, fluid and porosity, as
long as the frame is no stiffer and the fluid is softer than the mineral; zero porosity and a frame as stiff as the mineral
(both special cases of the code) included. -/
theorem C140_saturated {Kd G ρ Km Kf ρf φ : X → ℝ} (cd : Continuous Kd) (cG : Continuous G) (cρ : Continuous ρ)
    (cm : Continuous Km) (cf : Continuous Kf) (cρf : Continuous ρf) (cφ : Continuous φ) (hφ : ∀ x, 0 ≤ φ x)
    (hd0 : ∀ x, 0 ≤ Kd x) (hd : ∀ x, Kd x ≤ Km x) (hf0 : ∀ x, 0 < Kf x) (hf : ∀ x, Kf x < Km x) (hG : ∀ x, 0 ≤ G x)
    (hρ : ∀ x, 0 < ρ x) (hρf : ∀ x, 0 ≤ ρf x) :
    ∃ Ks ρs : X → ℝ, Continuous Ks ∧ Continuous ρs ∧ ∀ (x : X) (mineral fluid : Mat 1), mineral.bulk = c (Km x) →
      fluid.bulk = c (Kf x) → fluid.density = c (ρf x) →
      ∃ m, fluidSubstitution (Mat.ofReal (fun _ => Kd x) (fun _ => G x) (fun _ => ρ x)) mineral fluid (c (φ x)) = .ok m ∧
        m.Has (fun _ => Ks x) (fun _ => G x) (fun _ => ρs x) := by
  refine ⟨fun x => satReal (Kd x) (Km x) (Kf x) (φ x), fun x => ρ x + φ x * ρf x, ?_, cρ.add (cφ.mul cρf), ?_⟩
  · unfold satReal
    have hq := quot_cont (u := φ) (v := fun x => Km x - Kd x) (α := fun x => Km x * (Km x - Kf x)) (β := Kf)
      cφ (cm.sub cd) (cm.mul (cm.sub cf)) cf hφ (fun x => by have := hd x; linarith)
      (fun x => mul_pos ((hf0 x).trans (hf x)) (by have := hf x; linarith)) hf0
    refine cm.sub (cm.mul ?_)
    refine ((cm.sub cf).mul hq).congr fun x => ?_
    show (Km x - Kf x) * (φ x * (Km x - Kd x) / (Km x * (Km x - Kf x) * φ x + Kf x * (Km x - Kd x))) = _
    rw [← mul_div_assoc]
  · intro x mineral fluid e1 e2 e3
    have hs : 0 ≤ satReal (Kd x) (Km x) (Kf x) (φ x) := (hd0 x).trans (satReal_ge (hφ x) (hd0 x) (hd x) (hf0 x) (hf x))
    refine ⟨Mat.ofReal (fun _ => satReal (Kd x) (Km x) (Kf x) (φ x)) (fun _ => G x) (fun _ => ρ x + φ x * ρf x), ?_,
      Mat.ofReal_has _ _ _⟩
    unfold fluidSubstitution
    rw [vec_ok (fun i => by
      rw [e1, e2]
      exact gassmann_satReal (hφ x) (hd0 x) (hd x) (hf0 x) (hf x)), bind_ok, e3,
      ← mkModuli_ofReal _ (fun _ => hG x)]
    · rfl
    · intro i
      have := hρ x
      have := mul_nonneg (hφ x) (hρf x)
      linarith
    · exact fun _ => hs

/-! ### A concrete path -/

/-- From clay to quartz as the depth goes from 0 to 1. -/
noncomputable def exPath (t : Set.Icc (0:ℝ) 1) : Published.Rock := ⟨15 + 22 * t.1, 7 + 37 * t.1, 2550 + 100 * t.1⟩

theorem exPath_cont : ContRock exPath where
  bulk := by unfold exPath; dsimp only; fun_prop
  shear := by unfold exPath; dsimp only; fun_prop
  density := by unfold exPath; dsimp only; fun_prop
  pos := fun t => by have := t.2.1; unfold exPath; dsimp only; exact ⟨by positivity, by positivity, by positivity⟩

theorem exQuartz_cont : ContRock fun _ : Set.Icc (0:ℝ) 1 => (⟨37, 44, 2650⟩ : Published.Rock) :=
  ⟨continuous_const, continuous_const, continuous_const, fun _ => by norm_num⟩

example : ∃ r : Set.Icc (0:ℝ) 1 → Published.Rock, ContRock r ∧ ∀ x, ∃ m,
    hsw (exPath x).mat (Published.Rock.mat ⟨37, 44, 2650⟩) (c x.1) "lower" = .ok m ∧ m.IsRock fun _ => r x :=
  C140_mix_of_two (.inl rfl) exPath_cont exQuartz_cont continuous_subtype_val fun x => x.2

example : ∃ r : Set.Icc (0:ℝ) 1 → Published.Rock, ContRock r ∧ ∀ x, ∃ m,
    friableSand (exPath x).mat (c (0.4 * x.1)) (c 0.4) (c (20 + x.1)) (c 9) (c 0.5) = .ok m ∧ m.IsRock fun _ => r x :=
  (C140_friable (φ := fun x : Set.Icc (0:ℝ) 1 => 0.4 * x.1) (φc := fun _ => 0.4) (p := fun x => 20 + x.1) (N := fun _ => 9)
    (f := fun _ => 0.5) exPath_cont (by fun_prop) continuous_const (by fun_prop) continuous_const continuous_const
    (fun x => by have := x.2.1; positivity) (fun x => by have := x.2.2; linarith) (fun _ => by norm_num)
    (fun _ => by norm_num) (fun x => by have := x.2.1; positivity) (fun _ => by norm_num) (fun _ => by norm_num)).2

example : ∃ r : Set.Icc (0:ℝ) 1 → Published.Rock, ContRock r ∧ ∀ x, ∃ m,
    constantCement (Published.Rock.mat ⟨37, 44, 2650⟩) (exPath x).mat (c (0.3 * x.1)) (c 0.36) (c 0.4) (c 9) (c 0.5) =
      .ok m ∧ m.IsRock fun _ => r x :=
  (C140_cement (φ := fun x : Set.Icc (0:ℝ) 1 => 0.3 * x.1) (x := fun _ => 0.36) (g := fun _ => 0.4) (N := fun _ => 9)
    (f := fun _ => 0.5) ⟨exPath_cont, exQuartz_cont, fun y => ⟨by norm_num, by
      have := y.2.1; have := Real.pi_lt_d2; unfold exPath; dsimp only; nlinarith⟩⟩ (by fun_prop) continuous_const
    continuous_const continuous_const continuous_const
    (fun x => by have := x.2.1; positivity) (fun x => by have := x.2.2; linarith) (fun _ => by norm_num)
    (fun _ => by norm_num) (fun _ => by norm_num) (fun _ => by norm_num) (fun _ => by norm_num)).2

example : ∃ Ks ρs : Set.Icc (0:ℝ) 1 → ℝ, Continuous Ks ∧ Continuous ρs ∧ ∀ (x : Set.Icc (0:ℝ) 1) (mineral fluid : Mat 1),
    mineral.bulk = c (15 + 22 * x.1) → fluid.bulk = c 2.8 → fluid.density = c 1030 →
      ∃ m, fluidSubstitution (Mat.ofReal (fun _ => 15) (fun _ => 10) (fun _ => 2000)) mineral fluid (c (0.4 * x.1)) = .ok m ∧
        m.Has (fun _ => Ks x) (fun _ => 10) (fun _ => ρs x) :=
  C140_saturated (Kd := fun _ => 15) (G := fun _ => 10) (ρ := fun _ => 2000) (Km := fun x : Set.Icc (0:ℝ) 1 => 15 + 22 * x.1)
    (Kf := fun _ => 2.8) (ρf := fun _ => 1030) (φ := fun x => 0.4 * x.1) continuous_const continuous_const
    continuous_const (by fun_prop) continuous_const continuous_const (by fun_prop)
    (fun x => by have := x.2.1; positivity) (fun _ => by norm_num) (fun x => by have := x.2.1; linarith)
    (fun _ => by norm_num) (fun x => by have := x.2.1; linarith) (fun _ => by norm_num) (fun _ => by norm_num)
    (fun _ => by norm_num)

/-! Non-vacuity of the patchy cement case: with a small enough lower bound pressure the bounds are apart. -/

theorem hs_strict {a b b' z z' f : ℝ} (hz : 0 ≤ z) (hzz : z ≤ z') (ha : 0 < a) (hb : 0 < b) (hbb : b < b') (h0 : 0 ≤ f)
    (h1 : f < 1) : Published.hashinShtrikman a b f z < Published.hashinShtrikman a b' f z' := by
  have s1 : Published.hashinShtrikman a b f z < Published.hashinShtrikman a b' f z := by
    unfold Published.hashinShtrikman
    refine sub_lt_sub_right (inv_strictAnti₀ (hs_den_pos (by linarith) (by linarith) h0 h1.le) ?_) _
    have : (1 - f) / (b' + z) < (1 - f) / (b + z) :=
      div_lt_div_of_pos_left (by linarith) (by linarith) (by linarith)
    linarith
  refine s1.trans_le ?_
  rw [← hsReal_published (by linarith) (by linarith) h0 h1.le, ← hsReal_published (by linarith) (by linarith) h0 h1.le]
  exact hsReal_mono_z (by linarith) (by linarith) h0 h1.le hzz

theorem lowerBound_strict {a b b' : Published.Rock} {f : ℝ} (ha : 0 < a.K ∧ 0 < a.G) (hb : 0 < b.K ∧ 0 < b.G)
    (h : b.K < b'.K ∧ b.G < b'.G) (h0 : 0 ≤ f) (h1 : f < 1) :
    (Published.lowerBound a b f).K < (Published.lowerBound a b' f).K ∧
      (Published.lowerBound a b f).G < (Published.lowerBound a b' f).G := by
  have m1 : 0 < min a.G b.G := lt_min ha.2 hb.2
  have m2 : 0 < min a.K b.K := lt_min ha.1 hb.1
  have i1 : min a.G b.G ≤ min a.G b'.G := min_le_min le_rfl h.2.le
  have i2 : min a.K b.K ≤ min a.K b'.K := min_le_min le_rfl h.1.le
  refine ⟨hs_strict (by positivity) (by linarith) ha.1 hb.1 h.1 h0 h1,
    hs_strict (zeta_nonneg m2 m1) ?_ ha.2 hb.2 h.2 h0 h1⟩
  have := zShear_mono m2 m1.le i2 i1
  unfold zShear at this
  unfold Published.zeta
  rwa [mul_div_assoc, mul_div_assoc] at this

/-- A grain pack under a small enough pressure is as soft as wanted. -/
theorem small_pressure (a : Published.Rock) (ha : 0 < a.K ∧ 0 < a.G) {φ N f k g : ℝ} (hk : 0 < k) (hg : 0 < g) :
    ∃ p, 0 < p ∧ (Published.hertzMindlin a φ p N f).K < k ∧ (Published.hertzMindlin a φ p N f).G < g := by
  have key : ∀ A : ℝ, Filter.Tendsto (fun p : ℝ => (A * p) ^ (1 / 3 : ℝ)) (nhdsWithin 0 (Set.Ioi 0)) (nhds 0) := by
    intro A
    have : Continuous fun p : ℝ => (A * p) ^ (1 / 3 : ℝ) :=
      Continuous.rpow_const (by fun_prop) fun _ => .inr (by norm_num)
    have := (this.tendsto 0).mono_left (nhdsWithin_le_nhds (s := Set.Ioi 0))
    simpa using this
  have e1 := (key (N ^ 2 * (1 - φ) ^ 2 * a.G ^ 2 / (18 * Real.pi ^ 2 * (1 - Published.poisson a.K a.G) ^ 2))).eventually_lt_const hk
  have e2 := ((key (3 * N ^ 2 * (1 - φ) ^ 2 * a.G ^ 2 / (2 * Real.pi ^ 2 * (1 - Published.poisson a.K a.G) ^ 2))).const_mul
    ((2 + 3 * f - Published.poisson a.K a.G * (1 + 3 * f)) / (5 * (2 - Published.poisson a.K a.G))))
  rw [mul_zero] at e2
  have e2 := e2.eventually_lt_const hg
  obtain ⟨p, ⟨h1, h2⟩, hp⟩ := ((e1.and e2).and self_mem_nhdsWithin).exists
  refine ⟨p, hp, ?_, ?_⟩
  · show Published.hertzMindlinBulk _ _ _ _ _ < _
    unfold Published.hertzMindlinBulk
    rwa [← div_mul_eq_mul_div]
  · show Published.hertzMindlinShear _ _ _ _ _ _ < _
    unfold Published.hertzMindlinShear
    rwa [← div_mul_eq_mul_div] 

example : ∃ plb : ℝ, 0 < plb ∧ ∃ r : Set.Icc (0:ℝ) 1 → Published.Rock, ContRock r ∧ ∀ x, ∃ m,
    patchyCement (Published.Rock.mat ⟨37, 44, 2650⟩) (Published.Rock.mat ⟨37, 44, 2650⟩) (c (0.3 * x.1)) (c 0.36) (c 0.4)
      (c 20) (c plb) (c 0.4) (c 0.5) (c 9) (c 9) = .ok m ∧ m.IsRock fun _ => r x := by
  have hpair : CementPair (fun _ : Set.Icc (0:ℝ) 1 => (⟨37, 44, 2650⟩ : Published.Rock))
      (fun _ => (⟨37, 44, 2650⟩ : Published.Rock)) :=
    ⟨exQuartz_cont, exQuartz_cont, fun y => ⟨by norm_num, by have := Real.pi_lt_d2; norm_num at *; linarith⟩⟩
  have hcc := (constant_contRock (φ := fun x : Set.Icc (0:ℝ) 1 => 0.3 * x.1) (x := fun _ => 0.4) (g := fun _ => 0.4)
    (f := fun _ => 0.5) (N := fun _ => 9) hpair (by fun_prop) continuous_const
    continuous_const continuous_const continuous_const
    (fun x => by have := x.2.1; positivity) (fun x => by have := x.2.2; linarith) (fun _ => by norm_num)
    (fun _ => by norm_num) (fun _ => by norm_num) (fun _ => by norm_num) (fun _ => by norm_num)).1.pos ⟨0, by simp⟩
  have hd : ∀ f, Published.lowerBound ⟨37, 44, 2650⟩ ⟨37, 44, 2650⟩ f = ⟨37, 44, 2650⟩ := by
    intro f
    unfold Published.lowerBound
    simp only [min_self]
    rw [hs_same (by norm_num), hs_same (by have := zeta_nonneg (K := 37) (G := 44) (by norm_num) (by norm_num); linarith)]
    congr 1; ring
  obtain ⟨plb, hp, h1, h2⟩ := small_pressure ⟨37, 44, 2650⟩ (by norm_num) (φ := 0.4) (N := 9) (f := 0.5) hcc.1 hcc.2.1
  refine ⟨plb, hp, C140_patchy (φ := fun x : Set.Icc (0:ℝ) 1 => 0.3 * x.1) (ccp := fun _ => 0.36) (ub := fun _ => 0.4)
    (p := fun _ => 20) (plb := fun _ => plb) (crit := fun _ => 0.4) (f := fun _ => 0.5) (Nf := fun _ => 9) (Nc := fun _ => 9)
    hpair (by fun_prop) continuous_const continuous_const continuous_const continuous_const continuous_const
    continuous_const continuous_const continuous_const (fun x => by have := x.2.1; positivity)
    (fun x => by have := x.2.2; linarith) (fun x => by have := x.2.2; linarith) (fun _ => by norm_num) (fun _ => by norm_num)
    (fun _ => by norm_num) (fun _ => by norm_num) (fun _ => by norm_num) (fun _ => by norm_num) (fun _ => hp)
    (fun _ => by norm_num) (fun _ => by norm_num) (fun _ => by norm_num) fun x hx d lo up h h' h'' => ?_⟩
  have hq : (Published.Rock.mat ⟨37, 44, 2650⟩).IsRock fun _ => (⟨37, 44, 2650⟩ : Published.Rock) :=
    exQuartz_cont.isRock x
  obtain ⟨d', hd', hdr⟩ := hsw_lower (f := fun _ : Fin 1 => (0.4 - 0.4 : ℝ)) hq hq (fun _ => by norm_num)
  rw [show (c 0.4 - c 0.4 : Col 1) = finC fun _ => (0.4 - 0.4 : ℝ) by funext i; simp, hd'] at h
  cases h
  obtain ⟨lo', hlo', hlor⟩ := friableSand_rock (φ := fun _ : Fin 1 => 0.3 * x.1) (φc := fun _ => 0.4) (p := fun _ => plb)
        (f := fun _ => 0.5) (N := fun _ => 9) hdr (fun _ => hx.le) (fun _ => by have := x.2.2; linarith) (fun _ => by norm_num)
        (fun _ => by norm_num) (fun _ => hp) (fun _ => by norm_num) (fun _ => by norm_num)
  cases hlo'.symm.trans h'
  obtain ⟨up', hup', hupr⟩ := (C98_contact_and_constant_cement (φ := fun _ : Fin 1 => 0.3 * x.1) (x := fun _ => 0.4)
        (g := fun _ => 0.4) (f := fun _ => 0.5) (N := fun _ => 9) hq hq (fun _ => hpair.2.2 x)
        (fun _ => hx.le) (fun _ => by have := x.2.2; linarith) (fun _ => by norm_num) (fun _ => by norm_num)
        (fun _ => by norm_num) (fun _ => by norm_num) (fun _ => by norm_num)).2
  cases hup'.symm.trans h''
  rw [hlor.1, hupr.1, hlor.2.1, hupr.2.1]
  simp only [finC_apply, Num.fin_lt]
  unfold Published.friableSand Published.constantCement
  rw [hd]
  refine lowerBound_strict (by norm_num) ?_ ⟨h1, h2⟩ ?_ ?_
  · have := (friable_contRock (φ := fun _ : Set.Icc (0:ℝ) 1 => 0.4) (φc := fun _ => 0.4) (p := fun _ => plb) (f := fun _ => 0.5)
      (N := fun _ => 9) exQuartz_cont continuous_const continuous_const continuous_const continuous_const continuous_const
      (fun _ => by norm_num) (fun _ => le_rfl) (fun _ => by norm_num) (fun _ => by norm_num) (fun _ => hp)
      (fun _ => by norm_num) (fun _ => by norm_num)).1.pos x
    exact ⟨this.1, this.2.1⟩
  · have := x.2.2
    rw [sub_nonneg, div_le_one (by norm_num)]; linarith
  · have : 0 < 0.3 * x.1 / 0.4 := by positivity
    linarith

end OPE
