import Verif.Spec.Float
import Verif.Spec.Published
import Mathlib.Analysis.SpecialFunctions.Pow.Real

/-!
# Specification: accuracy of a result computed in double arithmetic

`2⁻⁵²` (about 2.2e-16) is the distance from 1 to the next double.
-/

namespace OPE

/-- `computed` differs from `exact` by at most `k` times `2⁻⁵²` of it. -/
def Accurate (k : ℝ) (exact computed : ℝ) : Prop := |computed - exact| ≤ k / 2 ^ 52 * |exact|

/-- A power function as libraries have it: not correctly rounded, but accurate to one unit in the last place. -/
def PowerAccurate (pw : ℝ → ℝ → ℝ) : Prop := ∀ x y : ℝ, 0 < x → Accurate 1 (x ^ y) (pw x y)

/-- An exponential function as libraries have it: accurate to one unit in the last place. -/
def ExpAccurate (ex : ℝ → ℝ) : Prop := ∀ x : ℝ, Accurate 1 (Real.exp x) (ex x)

/-- The fluids of a mixture as the code has them: bulk modulus, density, saturation. -/
def rowsOf (L : List (Published.Fluid × ℝ)) : List (ℝ × ℝ × ℝ) := L.map fun x => (x.1.K, x.1.ρ, x.2)

/-- Bulk modulus, shear modulus and density of a mineral as the code has them. -/
def tri (a : Published.Rock) : ℝ × ℝ × ℝ := (a.K, a.G, a.ρ)

/-- None of the numbers of one of these minerals is more than `R` times that of another. -/
def WithinRatio (R : ℕ) (M : List Published.Rock) : Prop :=
  ∀ x ∈ M, ∀ y ∈ M, x.K ≤ R * y.K ∧ x.G ≤ R * y.G ∧ x.ρ ≤ R * y.ρ

/-- The pressure is in proportion to the stiffness of the grains such that nothing absurd happens: between `1e-28` and `1e28`
times `C (1 - φ) G`. -/
def Sensible (G φ P C : ℝ) : Prop := 1e-28 * (C * (1 - φ) * G) ≤ P ∧ P ≤ 1e28 * (C * (1 - φ) * G)

/-- What is asked of liquids and gases for Brie's law to be accurate: saturations not negative and not vanishing, those of the
liquids at most 1 in all, the liquids together not softer and not lighter than the gases together, the exponent between 0 and
`m`. -/
structure BrieInput (L G : List (Published.Fluid × ℝ)) (e : ℝ) (n m : ℕ) : Prop where
  liquids : L.length ≤ n
  gases : G.length ≤ n
  few : n ≤ 1000
  exponent : 0 ≤ e ∧ e ≤ m ∧ m ≤ 1000
  positive : ∀ x ∈ L ++ G, 0 ≤ x.2 ∧ 0 < x.1.K ∧ 0 < x.1.ρ
  liquid : 2e-15 ≤ (L.map fun x => x.2).sum
  gas : 2e-15 ≤ (G.map fun x => x.2).sum
  total : (L.map fun x => x.2).sum ≤ 1
  stiffer : (Published.wood G).K ≤ (Published.wood L).K
  denser : (Published.wood G).ρ ≤ (Published.wood L).ρ

/-- What is asked of cement, grains and porosities for the contact cement model to be accurate: positive moduli and densities,
Poisson's ratios from 0 to 0.4, cement between a tenth of and ten times as stiff in shear as the grains and not lighter than a
quarter of them; cemented porosity `φcem` below that of the grain pack `φc`, coordination number and shear reduction not
negative. -/
structure CementInput (cement grain : Published.Rock) (φcem φc f C : ℝ) : Prop where
  goodCement : 0 < cement.K ∧ 0 < cement.G ∧ 0 < cement.ρ
  goodGrain : 0 < grain.K ∧ 0 < grain.G ∧ 0 < grain.ρ
  porosity : 0 < φcem ∧ φcem < φc ∧ φc < 1
  contacts : 0 ≤ C ∧ 0 ≤ f
  poissonGrain : 0 ≤ Published.poisson grain.K grain.G ∧ Published.poisson grain.K grain.G ≤ 0.4
  poissonCement : 0 ≤ Published.poisson cement.K cement.G ∧ Published.poisson cement.K cement.G ≤ 0.4
  stiff : 0.1 * grain.G ≤ cement.G ∧ cement.G ≤ 10 * grain.G
  heavy : grain.ρ ≤ 4 * cement.ρ

/-- What is asked of the inputs of the patchy cement model for it to be accurate: cement and grains as for contact cement at both
cement contents; the contrast between cement and grains at most `R`, those between their mix and the four end members (two grain
packs, two cemented sands) at most `S`; the moduli of the friable sand between those of the two bounds, and the upper bound and
the cemented line at most `T` times as stiff as the friable sand. -/
structure PatchyInput (sand cement : Published.Rock) (φ φcem φub P Plb φc f Cf Cc : ℝ) (R S T : ℕ) : Prop where
  part : CementInput cement sand φcem φc f Cc
  full : CementInput cement sand φub φc f Cc
  porosity : 0 ≤ φ ∧ φ ≤ φcem ∧ φ ≤ φub ∧ φc ≤ 0.9
  contacts : 0 < Cf
  contrast : WithinRatio R [cement, sand]
  ends : let mix := Published.lowerBound cement sand (φc - φub)
    WithinRatio S [mix, Published.hertzMindlin mix φc P Cf f] ∧ WithinRatio S [mix, Published.hertzMindlin mix φc Plb Cf f] ∧
    WithinRatio S [mix, Published.contactCement cement sand φub φc f Cc] ∧
    WithinRatio S [mix, Published.contactCement cement sand φcem φc f Cc]
  loads : let mix := Published.lowerBound cement sand (φc - φub)
    Sensible mix.G φc P Cf ∧ Sensible mix.G φc Plb Cf
  betweenK : let mix := Published.lowerBound cement sand (φc - φub)
    (Published.friableSand mix φ φc Plb Cf f).K ≤ (Published.friableSand mix φ φc P Cf f).K ∧
    (Published.friableSand mix φ φc P Cf f).K ≤ (Published.constantCement sand cement φ φub φc f Cc).K
  betweenG : let mix := Published.lowerBound cement sand (φc - φub)
    (Published.friableSand mix φ φc Plb Cf f).G ≤ (Published.friableSand mix φ φc P Cf f).G ∧
    (Published.friableSand mix φ φc P Cf f).G ≤ (Published.constantCement sand cement φ φub φc f Cc).G
  boundedK : let mix := Published.lowerBound cement sand (φc - φub)
    (Published.constantCement sand cement φ φub φc f Cc).K ≤ T * (Published.friableSand mix φ φc P Cf f).K ∧
    (Published.lowerBound mix (Published.contactCement cement sand φcem φc f Cc) (1 - φ / φcem)).K ≤
      T * (Published.friableSand mix φ φc P Cf f).K
  boundedG : let mix := Published.lowerBound cement sand (φc - φub)
    (Published.constantCement sand cement φ φub φc f Cc).G ≤ T * (Published.friableSand mix φ φc P Cf f).G ∧
    (Published.lowerBound mix (Published.contactCement cement sand φcem φc f Cc) (1 - φ / φcem)).G ≤
      T * (Published.friableSand mix φ φc P Cf f).G

end OPE
