import Verif.Props.Published8
import Verif.Props.SpanWagner7

/-!
# C111: carbon dioxide in the pore space
-/

namespace OPE

variable {n : ℕ}

/-- Carbon dioxide of density `ρ` (kg/m³) at temperature `T` (K): bulk modulus density times squared speed of
sound of Span & Wagner. -/
noncomputable def Published.CO2.fluid (T ρ : ℝ) : Published.Fluid := ⟨ρ * Published.CO2.soundSpeedSq T ρ, ρ⟩

/-- At temperature `T` (K) the speed of sound is defined and real for the density `ρ`, which is not the critical
one. -/
def Published.CO2.Regular (T ρ : ℝ) : Prop :=
  ρ ≠ 467.6 ∧ dτ (dτ fun δ τ => phi0 δ τ + phir δ τ) (ρ / rhoc) (Tc / T) ≠ 0 ∧ 0 < soundSpeedSq T ρ

theorem Fills.append {co2 : CO2Model n} {pv : Provider} {T P Q Q' : Fin n → ℝ} {L M : List (Pore n)}
    (h : Fills co2 pv T P L Q) (hx : Fills co2 pv T Q M Q') : Fills co2 pv T P (L ++ M) Q' := by
  induction h with
  | nil P => exact hx
  | plain h hp t ih => exact .plain h hp (ih hx)
  | explicit hk h t ih => exact .explicit hk h (ih hx)
  | carbonDioxide hk hp h hm t ih => exact .carbonDioxide hk hp h hm (ih hx)

/-- **C111.** Carbon dioxide (calculated without the table, temperature at least that of the triple point and
not the critical one) among other pore fluids, none of which is described by pressure after it: with a root
finder that keeps to its bracket, whenever the densities are found they solve Span & Wagner's equation at the
temperature in K and pressure in MPa, on the right side of the vapour pressure curve, and the result table is
that of C109 with carbon dioxide of these densities. -/
theorem C111_carbon_dioxide {solve : CO2.RootFinder} {tol : ℝ} (hsolve : CO2.Brackets solve tol) (table : CO2.Table)
    {s : Sections n} {x : Mat n × (Fin n → Published.Rock) × (Fin n → ℝ)} {L : RockList n}
    {ob rf rk P : Fin n → ℝ} {mx : Option (Fin n → ℝ)} (hs : s.Says x L ob rf rk P mx) (hx : x.1.Coherent)
    {T sat : Fin n → ℝ} {md : Option Provider} (before after : List (Pore n))
    (hfl : s.fluids = (before.map fun y => ⟨y.kind, y.model, some (finC y.sat)⟩) ++
      ⟨.carbonDioxide false, md, some (finC sat)⟩ :: after.map fun y => ⟨y.kind, y.model, some (finC y.sat)⟩)
    (hmd : md.getD s.fluidModel = .spanWagner) (hT : s.temperature = finC T)
    (hT0 : ∀ i, 216.592 ≤ T i + 273.15 ∧ T i + 273.15 ≠ 304.1282)
    (hbefore : ∀ y ∈ before, y.kind.Describes T P y.fluid ∧ y.model.getD s.fluidModel ≠ .spanWagner)
    (hafter : ∀ y ∈ after, ∃ m, y.kind = .material m ∧ m.IsFluid y.fluid)
    (hsat : ∀ i, 0 ≤ sat i) (hnn : ∀ y ∈ before ++ after, ∀ i, 0 ≤ y.sat i)
    (htot : ∀ i, poreTotal before i + sat i + poreTotal after i ≤ 1 + 1e-5) {m : Mat n}
    (hm : CO2.carbonDioxide solve table (finC fun i => T i + 273.15) (finC fun i => P i / 1e6) none false = .ok m) :
    ∃ ρ : Fin n → ℝ, (∀ i, CO2.IsDensity tol (T i + 273.15) (P i / 1e6) (ρ i)) ∧
      ((∀ i, Published.CO2.Regular (T i + 273.15) (ρ i)) →
        ∀ {F : Fin n → Published.Fluid}, s.Mixes (before ++ ⟨.carbonDioxide false, md,
            fun i => Published.CO2.fluid (T i + 273.15) (ρ i), sat⟩ :: after) F →
        ∀ {φ : Fin n → ℝ}, s.porosity = finC φ → ∀ {sand dry dense : Fin n → Published.Rock},
        s.sandModel.Gives (mineralAt x L) φ (effectiveAt mx ob rk) sand dense → (∀ i, (sand i).Valid) →
        Adjusts (mineralAt x L) φ (effectiveAt mx ob rk) (effectiveAt mx ob rf) rk s.adjustments sand dry →
        (∀ i, 0 < φ i ∧ (dry i).K < (dense i).K ∧ (F i).K < (dense i).K) →
        calculate (CO2.spanWagner solve table n) s = .ok (tableOf (mineralAt x L) dry dense F φ)) := by
  have key := fun i => CO2.C108_material hsolve table hm i (hT0 i).1 (hT0 i).2
  choose hsh ρ hρ hI hK using key
  refine ⟨ρ, hI, fun hreg F hF φ hφ sand dry dense hg hv hadj hrow => ?_⟩
  have hmf : m.IsFluid fun i => Published.CO2.fluid (T i + 273.15) (ρ i) := by
    refine ⟨funext fun i => ?_, funext fun i => hρ i, funext fun i => hsh i, fun i => ⟨?_, (hI i).1⟩⟩
    · exact hK i (hreg i).1 (hreg i).2.1
    · exact mul_pos (hI i).1 (hreg i).2.2
  have hb : Fills (CO2.spanWagner solve table n) s.fluidModel T P before P := by
    clear hfl htot hF
    induction before with
    | nil => exact .nil P
    | cons y B ih =>
      exact .plain (hbefore y List.mem_cons_self).1 (hbefore y List.mem_cons_self).2
        (ih (fun z hz => hbefore z (List.mem_cons_of_mem _ hz)) fun z hz => hnn z (List.mem_cons_of_mem _ hz))
  have hafterF : Fills (CO2.spanWagner solve table n) s.fluidModel T (fun i => P i / 1e6) after
      (fun i => P i / 1e6) := by
    clear hfl htot hF hnn
    induction after with
    | nil => exact .nil _
    | cons y B ih =>
      obtain ⟨q, h1, h2⟩ := hafter y List.mem_cons_self
      exact .explicit h1 h2 (ih fun z hz => hafter z (List.mem_cons_of_mem _ hz))
  refine calculate_adjusted (P' := fun i => P i / 1e6) (T := T) hs hx ⟨?_, hT, by simp, ?_, ?_, ?_⟩ hF hφ hg hv hadj
    hrow
  · rw [hfl]; simp
  · exact hb.append (.carbonDioxide rfl hmd hm hmf hafterF)
  · intro y hy i
    rcases List.mem_append.mp hy with hy | hy
    · exact hnn y (List.mem_append_left _ hy) i
    · rcases List.mem_cons.mp hy with rfl | hy
      · exact hsat i
      · exact hnn y (List.mem_append_right _ hy) i
  · intro i
    have := htot i
    simp only [poreTotal, List.map_append, List.map_cons, List.sum_append, List.sum_cons] at this ⊢
    linarith

end OPE
