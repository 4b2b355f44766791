import Verif.Model.Repeat
import Verif.Props.Warnings

/-!
# Calculating again (C158)
-/

namespace OPE

open Classical

variable {n : ℕ}

theorem leaving_result (co2 : CO2Model n) (inp : Input n) :
    (calculateLeaving co2 inp).1 = calculateResults co2 inp := by
  unfold calculateLeaving calculateResults mixFluids
  cases mineralMixture inp.minerals with
  | error e => rfl
  | ok m =>
    dsimp only
    rw [bind_ok]
    cases inp.pressure.fluid with
    | none => rfl
    | some p =>
      dsimp only [needCol]
      rw [bind_ok]
      rcases inp.fluids.asMixture co2 p with ⟨e | f, p'⟩ <;> rfl

theorem leaving_input (co2 : CO2Model n) (inp : Input n) :
    ∃ q, (calculateLeaving co2 inp).2 = { inp with pressure := { inp.pressure with fluid := q } } := by
  unfold calculateLeaving
  cases mineralMixture inp.minerals with
  | error e => exact ⟨inp.pressure.fluid, rfl⟩
  | ok m =>
    dsimp only
    cases h : inp.pressure.fluid with
    | none => exact ⟨inp.pressure.fluid, rfl⟩
    | some p => exact ⟨_, rfl⟩

/-- **C158, what a calculation leaves alone.** After any number of calculations all sections are as they were, but for
the fluid pressure. -/
theorem C158_sections_kept (co2 : CO2Model n) (inp : Input n) (k : ℕ) :
    ∃ q, inputAfter co2 inp k = { inp with pressure := { inp.pressure with fluid := q } } := by
  induction k with
  | zero => exact ⟨inp.pressure.fluid, rfl⟩
  | succ k ih =>
    obtain ⟨q, hq⟩ := ih
    obtain ⟨q', hq'⟩ := leaving_input co2 (inputAfter co2 inp k)
    refine ⟨q', ?_⟩
    rw [inputAfter, hq', hq]

theorem results_parts {co2 : CO2Model n} {inp : Input n} {r : Result n} (h : calculateResults co2 inp = .ok r) :
    ∃ mineral dry dense fluid sat, mineralMixture inp.minerals = .ok mineral ∧
      inp.dryRock.material mineral inp.pressure = .ok dry ∧ inp.dryRock.model.nonporous mineral = .ok dense ∧
      fluidSubstitution dry dense fluid inp.dryRock.porosity = .ok sat ∧
      r = ⟨sat.bulk, mineral.bulk, dry.bulk, sat.shear, sat.density, dense.bulk⟩ := by
  unfold calculateResults at h
  obtain ⟨mineral, h5, h⟩ := bind_eq_ok.mp h
  obtain ⟨⟨fluid, p'⟩, h6, h⟩ := bind_eq_ok.mp h
  dsimp only at h
  obtain ⟨dry, h7, h⟩ := bind_eq_ok.mp h
  obtain ⟨dense, h8, h⟩ := bind_eq_ok.mp h
  obtain ⟨sat, h9, h⟩ := bind_eq_ok.mp h
  injection h with hr
  obtain ⟨x, rfl⟩ := mixFluids_pressure h6
  exact ⟨mineral, dry, dense, fluid, sat, h5, by rw [← h7]; exact (material_fluid _ _ _ _).symm, h8, h9, hr.symm⟩

/-- **C158, the rock.** All calculations with the same input that go through give the same mineral, dense packing and
dry rock moduli and the same shear modulus. -/
theorem C158_rock_again (co2 : CO2Model n) (inp : Input n) (k l : ℕ) {r r' : Result n}
    (h : calculation co2 inp k = .ok r) (h' : calculation co2 inp l = .ok r') :
    r'.kmin = r.kmin ∧ r'.kdry = r.kdry ∧ r'.kminFls = r.kminFls ∧ r'.mysat = r.mysat := by
  unfold calculation at h h'
  rw [leaving_result] at h h'
  obtain ⟨q, hq⟩ := C158_sections_kept co2 inp k
  obtain ⟨q', hq'⟩ := C158_sections_kept co2 inp l
  rw [hq] at h
  rw [hq'] at h'
  obtain ⟨m, d, e, f, t, a1, a2, a3, a4, rfl⟩ := results_parts h
  obtain ⟨m', d', e', f', t', b1, b2, b3, b4, rfl⟩ := results_parts h'
  dsimp only at a1 a2 a3 a4 b1 b2 b3 b4
  rw [a1] at b1
  injection b1 with b1
  subst b1
  rw [material_fluid] at a2 b2
  rw [a2] at b2
  injection b2 with b2
  subst b2
  rw [a3] at b3
  injection b3 with b3
  subst b3
  refine ⟨rfl, rfl, rfl, ?_⟩
  rw [(C23_shear_and_density _ _ _ _ _ b4).1, (C23_shear_and_density _ _ _ _ _ a4).1]

/-- **C158, the part that holds.** Without Span–Wagner carbon dioxide, an input is unchanged by any number of
calculations, whether they go through or raise, and every one of them gives the same table or exception. -/
theorem C158_calculating_again_partial (co2 : CO2Model n) (inp : Input n)
    (h : ∀ x ∈ inp.fluids.constituents, ¬ UsesSpanWagner inp.fluids.model x) (k : ℕ) :
    inputAfter co2 inp k = inp ∧ calculation co2 inp k = calculateResults co2 inp := by
  have hs : (calculateLeaving co2 inp).2 = inp := by
    unfold calculateLeaving
    cases mineralMixture inp.minerals with
    | error e => rfl
    | ok m =>
      dsimp only
      cases hp : inp.pressure.fluid with
      | none => rfl
      | some p =>
        dsimp only
        rw [(C38_partial co2 inp.fluids p h).1, ← hp]
  have hi : inputAfter co2 inp k = inp := by
    induction k with
    | zero => rfl
    | succ k ih => rw [inputAfter, ih, hs]
  exact ⟨hi, by rw [calculation, hi, leaving_result]⟩

/-- **C158, exactly.** With carbon dioxide: if the fluids could be mixed in the calculations so far, the next one is
that of the input with the fluid pressure divided by 10^6 once for every calculation and every carbon dioxide
constituent. -/
theorem C158_exactly (co2 : CO2Model n) (inp : Input n) (p : Fin n → ℝ) (hp : inp.pressure.fluid = some (finC p))
    (hm : ∃ m, mineralMixture inp.minerals = .ok m) (k : ℕ)
    (h : ∀ j < k, ∃ m, (inp.fluids.asMixture co2 (finC fun i => p i /
      (10 ^ 6) ^ (j * inp.fluids.constituents.countP fun x => UsesSpanWagner inp.fluids.model x))).1 = .ok m) :
    calculation co2 inp k = calculateResults co2 { inp with
      pressure := { inp.pressure with
        fluid := some (finC fun i => p i /
          (10 ^ 6) ^ (k * inp.fluids.constituents.countP fun x => UsesSpanWagner inp.fluids.model x)) } } := by
  set c := inp.fluids.constituents.countP fun x => UsesSpanWagner inp.fluids.model x with hc
  have hi : inputAfter co2 inp k = { inp with
      pressure := { inp.pressure with fluid := some (finC fun i => p i / (10 ^ 6) ^ (k * c)) } } := by
    induction k with
    | zero =>
      rw [inputAfter]
      simp only [zero_mul, pow_zero, div_one]
      rw [← hp]
    | succ k ih =>
      rw [inputAfter, ih fun j hj => h j (by omega)]
      obtain ⟨m, hm⟩ := hm
      obtain ⟨f, hf⟩ := h k (by omega)
      unfold calculateLeaving
      rw [hm]
      dsimp only
      rw [asMixture_eq] at hf
      obtain ⟨ms, h1, -⟩ := bind_eq_ok.mp hf
      rw [C38_pressure_afterwards co2 inp.fluids _ h1, ← hc]
      congr 4
      funext i
      rw [div_div, ← pow_add]
      congr 2
      ring
  rw [calculation, hi, leaving_result]

/-! ### Calculating again with carbon dioxide -/

/-- Carbon dioxide by Span & Wagner's equation with saturation 0, then brine; `P` is the pressure the brine sees. -/
noncomputable def exAgainPores (P : ℝ) : List (Pore 1) :=
  [⟨.carbonDioxide false, some .spanWagner, fun _ => ⟨0.1e9, 600⟩, fun _ => 0⟩,
   ⟨.brine (finC fun _ => 0), none, fun _ => Published.brine 75 P 0, fun _ => 1⟩]

/-- Quartz sand with these pore fluids at 50 MPa. -/
noncomputable def exAgain : Sections 1 := exWarnRock (exAgainPores 50) 50e6

theorem exAgain_fluids (P : ℝ) : (exAgainPores P).map (fun x => (⟨x.kind, x.model, some (finC x.sat)⟩ : FluidSpec 1))
    = exAgain.fluids := rfl

theorem exAgain_filled (s : Sections 1) (hf : s.fluids = exAgain.fluids) (hT : s.temperature = finC fun _ => 75)
    (hm : s.fluidModel = .default) {P : ℝ} (h0 : 0 ≤ P) (h1 : P ≤ 100e6) :
    s.Filled exWarnCo2 (fun _ => 75) (fun _ => P * 1e6) (exAgainPores P) (fun _ => P) := by
  refine ⟨hf, hT, by simp [exAgainPores], ?_, ?_, fun i => by norm_num [poreTotal, exAgainPores]⟩
  · have e : (fun _ : Fin 1 => P * 1e6 / 1e6) = fun _ => P := by funext i; norm_num
    refine .carbonDioxide (m := Mat.ofReal (fun _ => 0.1e9) (fun _ => 0) (fun _ => 600)) rfl rfl rfl
      ⟨rfl, rfl, rfl, fun _ => by norm_num⟩ ?_
    rw [e, hm]
    exact .plain (.brine _ (fun _ => by norm_num) (fun _ => ⟨h0, h1⟩) fun _ => by norm_num) (fun h => by cases h) (.nil _)
  · intro z hz i
    simp only [exAgainPores, List.mem_cons, List.not_mem_nil, or_false] at hz
    rcases hz with rfl | rfl <;> norm_num

/-- The same with the fluid at `P` MPa for its carbon dioxide, the rock at 50 MPa. -/
noncomputable def exAgainAt (P : ℝ) : Sections 1 :=
  { exAgain with
    fluidPressure := some (finC fun _ => P * 1e6)
    rockPressure := some (finC fun _ => 50e6) }

/-- The table of the calculation at `P`: the density is that of quartz sand with brine at `P` Pa. -/
theorem exAgain_run {P : ℝ} (h0 : 0 ≤ P) (h1 : P ≤ 50) (hK : (Published.brine 75 P 0).K < 36.8e9) :
    ∃ r, calculate exWarnCo2 (exAgainAt P) = .ok r ∧
      r.rsat = finC fun _ => 2000 + 0.2 * (Published.brine 75 P 0).ρ := by
  have hq : quartzRock.Valid := by norm_num [Published.Rock.Valid, quartzRock]
  have hsays : (exAgainAt P).Says
      (Mat.ofReal (fun _ => 36.8e9) (fun _ => 44e9) (fun _ => 2650), (fun _ => quartzRock), fun _ => 1) []
      (fun _ => 200e6) (fun _ => 200e6) (fun _ => 50e6) (fun _ => P * 1e6) none := by
    refine ⟨rfl, ?_, fun _ => by norm_num, rfl, rfl, rfl, rfl, rfl⟩
    intro y hy
    rw [List.mem_singleton.mp hy]
    exact ⟨⟨rfl, rfl, rfl, fun _ => hq⟩, fun _ => by norm_num⟩
  have hr := calculate_adjusted hsays (mkModuli_coherent (mkModuli_rock (n := 1) (r := fun _ => quartzRock)
    fun _ => hq)) (exAgain_filled (exAgainAt P) rfl rfl rfl h0 (by linarith))
    (.wood rfl ⟨by simp [exAgainPores], fun i => by norm_num [poreTotal, exAgainPores]⟩) rfl
    (exWarnRock_gives (exAgainPores 50) 50e6) (fun _ => by norm_num [Published.Rock.Valid]) (.nil _) fun i =>
      ⟨by norm_num, by norm_num [quartzRock], ?_⟩
  · refine ⟨_, hr, ?_⟩
    funext i
    simp [tableOf, Published.wood, poreRow, exAgainPores]
  · simpa [Published.wood, poreRow, exAgainPores, quartzRock] using hK

theorem exAgain_brine : (Published.brine 75 50 0).K < 36.8e9 ∧ (Published.brine 75 (50 / 1e6) 0).K < 36.8e9 ∧
    (Published.brine 75 50 0).ρ ≠ (Published.brine 75 (50 / 1e6) 0).ρ := by
  refine ⟨?_, ?_, ?_⟩ <;>
    norm_num [Published.brine, Published.brineDensity, Published.brineVelocity, Published.waterVelocity,
      Published.waterDensity]

/-- Calculating again with the same input gives the same table. -/
def CalculatesAlike : Prop :=
  ∀ (n : ℕ) (co2 : CO2Model n) (s : Sections n) (inp : Input n), mkInput s = .ok inp →
    ∀ k, calculation co2 inp k = calculation co2 inp 0

/-- **C158 is false of the code.** Brine with carbon dioxide of saturation 0 before it: the second calculation with the
same input gives another density. -/
theorem C158_refuted : ¬ CalculatesAlike := by
  intro hall
  obtain ⟨b1, b2, b3⟩ := exAgain_brine
  obtain ⟨r, hr, e⟩ := exAgain_run (P := 50) (by norm_num) (by norm_num) b1
  obtain ⟨r', hr', e'⟩ := exAgain_run (P := 50 / 1e6) (by norm_num) (by norm_num) b2
  unfold calculate at hr hr'
  obtain ⟨inp, hi, hr⟩ := bind_eq_ok.mp hr
  obtain ⟨inp', hi', hr'⟩ := bind_eq_ok.mp hr'
  have hinp : inp' = { inp with
      pressure := { inp.pressure with fluid := some (finC fun _ => 50 / 1e6 * 1e6) } } := by
    unfold mkInput at hi hi'
    obtain ⟨a, ha, hi⟩ := bind_eq_ok.mp hi
    obtain ⟨b, hb, hi⟩ := bind_eq_ok.mp hi
    obtain ⟨d, hd, hi⟩ := bind_eq_ok.mp hi
    obtain ⟨q, hq, hi⟩ := bind_eq_ok.mp hi
    injection hi with hi
    obtain ⟨a', ha', hi'⟩ := bind_eq_ok.mp hi'
    obtain ⟨b', hb', hi'⟩ := bind_eq_ok.mp hi'
    obtain ⟨d', hd', hi'⟩ := bind_eq_ok.mp hi'
    obtain ⟨q', hq', hi'⟩ := bind_eq_ok.mp hi'
    injection hi' with hi'
    subst hi hi'
    have k1 : (.ok a' : Except Err _) = .ok a := ha'.symm.trans ha
    have k2 : (.ok b' : Except Err _) = .ok b := hb'.symm.trans hb
    have k3 : (.ok d' : Except Err _) = .ok d := hd'.symm.trans hd
    injection k1 with k1
    injection k2 with k2
    injection k3 with k3
    subst k1 k2 k3
    injection hq with hq
    injection hq' with hq'
    subst hq hq'
    rfl
  have hfl : inp.fluids.constituents = (exAgainPores 50).map fun x => ⟨x.kind, x.model, finC x.sat⟩ := by
    unfold mkInput at hi
    obtain ⟨a, ha, hi⟩ := bind_eq_ok.mp hi
    obtain ⟨b, hb, hi⟩ := bind_eq_ok.mp hi
    obtain ⟨d, hd, hi⟩ := bind_eq_ok.mp hi
    obtain ⟨q, hq, hi⟩ := bind_eq_ok.mp hi
    injection hi with hi
    subst hi
    have h : mkFluids _ ((exAgainPores 50).map fun x => ⟨x.kind, x.model, some (finC x.sat)⟩) _ _ _ _ = .ok b := hb
    rw [mkFluids_pores (by simp [exAgainPores]) (by
      intro z hz i
      simp only [exAgainPores, List.mem_cons, List.not_mem_nil, or_false] at hz
      rcases hz with rfl | rfl <;> norm_num) (fun i => by norm_num [poreTotal, exAgainPores])] at h
    injection h with h
    subst h
    rfl
  have hmod : inp.fluids.model = .default := by
    unfold mkInput at hi
    obtain ⟨a, ha, hi⟩ := bind_eq_ok.mp hi
    obtain ⟨b, hb, hi⟩ := bind_eq_ok.mp hi
    obtain ⟨d, hd, hi⟩ := bind_eq_ok.mp hi
    obtain ⟨q, hq, hi⟩ := bind_eq_ok.mp hi
    injection hi with hi
    subst hi
    unfold mkFluids at hb
    repeat (obtain ⟨_, _, hb⟩ := bind_eq_ok.mp hb)
    injection hb with hb
    subst hb
    rfl
  have hpr : inp.pressure.fluid = some (finC fun _ => 50 * 1e6) := by
    unfold mkInput at hi
    obtain ⟨a, ha, hi⟩ := bind_eq_ok.mp hi
    obtain ⟨b, hb, hi⟩ := bind_eq_ok.mp hi
    obtain ⟨d, hd, hi⟩ := bind_eq_ok.mp hi
    obtain ⟨q, hq, hi⟩ := bind_eq_ok.mp hi
    injection hi with hi
    injection hq with hq
    subst hi hq
    rfl
  have hcount : inp.fluids.constituents.countP (fun x => UsesSpanWagner inp.fluids.model x) = 1 := by
    rw [hfl, hmod]
    simp [exAgainPores, UsesSpanWagner, List.countP_cons]
  have hres := hr
  unfold calculateResults mixFluids at hres
  obtain ⟨m, hm, hres⟩ := bind_eq_ok.mp hres
  obtain ⟨⟨f, q⟩, hf, -⟩ := bind_eq_ok.mp hres
  rw [hpr] at hf
  simp only [needCol, bind_ok] at hf
  have hmix : ∃ m, (inp.fluids.asMixture exWarnCo2 (finC fun _ => 50 * 1e6)).1 = .ok m := by
    rcases hx : inp.fluids.asMixture exWarnCo2 (finC fun _ => 50 * 1e6) with ⟨e | m, q'⟩
    · rw [hx] at hf; cases hf
    · exact ⟨m, rfl⟩
  have h1 := C158_exactly exWarnCo2 inp (fun _ => 50 * 1e6) hpr ⟨m, hm⟩ 1 (by
    intro j hj
    obtain rfl : j = 0 := by omega
    simpa using hmix)
  rw [hcount] at h1
  have h0 := hall 1 exWarnCo2 (exAgainAt 50) inp hi 1
  rw [h1] at h0
  have e0 : calculation exWarnCo2 inp 0 = .ok r := by rw [calculation, leaving_result]; exact hr
  rw [e0] at h0
  have e1 : calculateResults exWarnCo2 inp' = .ok r := by
    rw [← h0, hinp]
    norm_num
  rw [hr'] at e1
  injection e1 with e1
  rw [e1, e] at e'
  have := congrFun e' 0
  simp only [finC_apply, Num.fin_inj] at this
  apply b3
  linarith

/-- Without carbon dioxide: quartz sand with brine, calculated any number of times. -/
example (co2 : CO2Model 2) : ∃ inp r, mkInput (exSections ![0.2, 0.3]) = .ok inp ∧
    ∀ k, calculation co2 inp k = .ok r := by
  obtain ⟨r, -, -, -, -, -, hr, -⟩ := exSections_ok co2 ![0.2, 0.3] (fun i => (exPor_range i).1)
    fun i => (exPor_range i).2
  unfold calculate at hr
  obtain ⟨inp, hi, hr⟩ := bind_eq_ok.mp hr
  refine ⟨inp, r, hi, fun k => ?_⟩
  rw [(C158_calculating_again_partial co2 inp ?_ k).2, hr]
  unfold mkInput at hi
  obtain ⟨a, ha, hi⟩ := bind_eq_ok.mp hi
  obtain ⟨b, hb, hi⟩ := bind_eq_ok.mp hi
  obtain ⟨d, hd, hi⟩ := bind_eq_ok.mp hi
  obtain ⟨q, hq, hi⟩ := bind_eq_ok.mp hi
  injection hi with hi
  subst hi
  obtain ⟨_, _, hk⟩ := mkFluids_constituents hb
  intro x hx hu
  have : (x.kind, x.model) ∈ (exSections (n := 2) ![0.2, 0.3]).fluids.map fun y => (y.kind, y.model) := by
    rw [← hk]
    exact List.mem_map_of_mem (f := fun x : FluidConst 2 => (x.kind, x.model)) hx
  obtain ⟨y, hy, e⟩ := List.mem_map.mp this
  rw [List.mem_singleton.mp hy] at e
  injection e with e1 e2
  obtain ⟨-, b, hb⟩ := hu
  rw [hb] at e1
  cases e1

end OPE
