import Verif.Props.Published
import Verif.Props.Fluids
import Verif.Props.Fluid

/-!
# Pore fluids in closed form (C103, C104)
-/

namespace OPE

open Classical

variable {n : ℕ}

/-- The material has, row by row, the (positive) properties of the fluids `F`. -/
def Mat.IsFluid (m : Mat n) (F : Fin n → Published.Fluid) : Prop :=
  m.bulk = finC (fun i => (F i).K) ∧ m.density = finC (fun i => (F i).ρ) ∧ m.shear = c 0 ∧
    ∀ i, 0 < (F i).K ∧ 0 < (F i).ρ

/-! ### C103 constituents -/

theorem vectorize_fluid {f : Fin n → Except Err (Mat 1)} {ρ v : Fin n → ℝ}
    (hf : ∀ i, ∃ m, f i = .ok m ∧ m.density 0 = .fin (ρ i) ∧ m.vp 0 = .fin (v i) ∧ m.vs 0 = .fin 0)
    (hρ : ∀ i, 0 < ρ i) (hv : ∀ i, 0 ≤ v i) : vectorizeMaterial f = .ok (fluidOf ρ v) := by
  choose m h1 h2 h3 h4 using hf
  unfold vectorizeMaterial
  rw [vec_ok h1, bind_ok]
  simp only [h2, h3, h4]
  have := mkVelocities_ofReal (ρ := ρ) (vp := v) (vs := fun _ => 0) hρ (fun _ => le_rfl)
    (fun i => by simpa using hv i)
  have e : (fun i => v i ^ 2 * ρ i - 4/3 * ((0:ℝ) ^ 2 * ρ i)) = fun i => v i ^ 2 * ρ i := by funext i; ring
  have e2 : (fun i => (0:ℝ) ^ 2 * ρ i) = fun _ => 0 := by funext i; ring
  rw [e, e2] at this
  exact this

/-- **C103, brine.** -/
theorem brine_constituent (co2 : CO2Model n) {pv : Provider} (hp : pv ≠ .spanWagner) (T P S : Fin n → ℝ)
    (hT : ∀ i, 0 ≤ T i ∧ T i ≤ 350) (hP : ∀ i, 0 ≤ P i ∧ P i ≤ 100e6) (hS : ∀ i, 0 ≤ S i ∧ S i ≤ 300000) :
    ∃ m, (FluidKind.brine (finC S)).asMaterial co2 pv (finC T) (finC P) = (.ok m, finC P) ∧
      m.IsFluid fun i => Published.brine (T i) (P i) (S i) := by
  have e : (FluidKind.brine (finC S)).asMaterial co2 pv (finC T) (finC P)
      = (vectorizeMaterial fun i => OPE.brine ((finC T).row i) ((finC P).row i) ((finC S).row i), finC P) := by
    cases pv <;> first | rfl | exact absurd rfl hp
  have row : ∀ i, ∃ m : Mat 1, OPE.brine ((finC T).row i) ((finC P).row i) ((finC S).row i) = .ok m ∧
      m.density 0 = .fin (Published.brine (T i) (P i) (S i)).ρ ∧
      m.vp 0 = .fin (Published.brineVelocity (T i) (P i * 1e-6) (S i * 1e-6)) ∧ m.vs 0 = .fin 0 ∧
      0 < (Published.brine (T i) (P i) (S i)).ρ ∧
      0 < Published.brineVelocity (T i) (P i * 1e-6) (S i * 1e-6) := by
    intro i
    obtain ⟨w, b, ρw, vw, ρb, vb, -, hb, -, -, h1, h2, h3⟩ := C80_brine_defined (n := 1) (fun _ => T i)
      (fun _ => P i) (fun _ => S i) (fun _ => hT i) (fun _ => hP i) (fun _ => hS i)
    obtain ⟨g1, g2, -⟩ := (C93_water_and_brine (n := 1) (fun _ => T i) (fun _ => P i) (fun _ => S i) b).1
      (fun _ => (hS i).1) hb
    obtain ⟨d1, -, -, -, d5⟩ := fluidVelocity_ok hb
    obtain ⟨a1, a2, a3, a4⟩ := h3 0
    have k1 : ρb 0 = (Published.brine (T i) (P i) (S i)).ρ := by
      have := congrFun (h1.symm.trans g1) 0; simpa [Published.brine] using this
    have k2 : vb 0 = Published.brineVelocity (T i) (P i * 1e-6) (S i * 1e-6) := by
      have := congrFun (h2.symm.trans g2) 0; simpa using this
    have p1 : 0 < ρb 0 := by norm_num at a1; linarith
    refine ⟨b, hb, by rw [h1, finC_apply, k1], by rw [h2, finC_apply, k2], ?_, k1 ▸ p1, by rw [← k2]; linarith⟩
    rw [d5, ← d1]
    exact calcVs_zero (congrFun h1 0) p1.ne'
  refine ⟨fluidOf (fun i => (Published.brine (T i) (P i) (S i)).ρ)
    (fun i => Published.brineVelocity (T i) (P i * 1e-6) (S i * 1e-6)), ?_, ?_, rfl, rfl, ?_⟩
  · rw [e, vectorize_fluid (fun i => ?_) (fun i => ?_) (fun i => ?_)]
    · obtain ⟨m, h1, h2, h3, h4, -⟩ := row i; exact ⟨m, h1, h2, h3, h4⟩
    · obtain ⟨m, -, -, -, -, h, -⟩ := row i; exact h
    · obtain ⟨m, -, -, -, -, -, h⟩ := row i; exact h.le
  · funext i; simp [fluidOf, Published.brine]; ring
  · intro i
    obtain ⟨m, -, -, -, -, h, h'⟩ := row i
    refine ⟨?_, h⟩
    show 0 < _ * _ ^ 2
    have : 0 < 1000 * Published.brineDensity (T i) (P i * 1e-6) (S i * 1e-6) := h
    positivity

/-- **C103, oil.** -/
theorem oil_constituent (co2 : CO2Model n) {pv : Provider} (hp : pv ≠ .spanWagner) (T P r R G : Fin n → ℝ)
    (hT : ∀ i, 0 ≤ T i ∧ T i ≤ 150) (hP : ∀ i, 0 ≤ P i ∧ P i ≤ 100e6) (hr : ∀ i, 700 ≤ r i ∧ r i ≤ 1000)
    (hR : ∀ i, 0 ≤ R i ∧ R i ≤ 400) (hG : ∀ i, 0 ≤ G i ∧ G i ≤ 1) :
    ∃ m, (FluidKind.oil (finC r) (finC R) (finC G)).asMaterial co2 pv (finC T) (finC P) = (.ok m, finC P) ∧
      m.IsFluid fun i => Published.oil (T i) (P i) (r i) (R i) (G i) := by
  have e : (FluidKind.oil (finC r) (finC R) (finC G)).asMaterial co2 pv (finC T) (finC P)
      = (vectorizeMaterial fun i => OPE.oil (finC T i) (finC P i) (finC r i) (finC R i) (finC G i), finC P) := by
    cases pv <;> first | rfl | exact absurd rfl hp
  obtain ⟨v, hv⟩ : ∃ v : Fin n → ℝ, ∀ i, (Published.oil (T i) (P i) (r i) (R i) (G i)).K
      = (Published.oil (T i) (P i) (r i) (R i) (G i)).ρ * v i ^ 2 ∧ 0 < v i ∧
      0 < (Published.oil (T i) (P i) (r i) (R i) (G i)).ρ ∧
      ∃ m : Mat 1, OPE.oil (finC T i) (finC P i) (finC r i) (finC R i) (finC G i) = .ok m ∧
        m.density 0 = .fin (Published.oil (T i) (P i) (r i) (R i) (G i)).ρ ∧ m.vp 0 = .fin (v i) ∧
        m.vs 0 = .fin 0 := by
    refine ⟨fun i => Published.deadWeight (R i) * Published.oilVelocity (T i) (P i * 1e-6) (r i / 1000)
      + (1 - Published.deadWeight (R i)) * Published.oilVelocity (T i) (P i * 1e-6)
        (Published.pseudoDensity (T i) (r i / 1000) (R i) (G i)), fun i => ?_⟩
    obtain ⟨l, d, m, ρl, vl, ρd, vd, ρ, v, _, -, -, hm, -, -, -, -, m1, m2, -, -, -, -, p1, p2, -⟩ :=
      C79_oil_defined (T i) (P i) (r i) (R i) (G i) (hT i) (hP i) (hr i) (hR i) (hG i)
    obtain ⟨g1, g2⟩ := (C94_oil (n := 1) (fun _ => T i) (fun _ => P i) (fun _ => r i) (fun _ => R i) (fun _ => G i)
      (fun _ => by have := (hT i).1; norm_num; linarith)
      (fun _ => ⟨by linarith [(hr i).1], by linarith [(hr i).2]⟩) (fun _ => (hR i).1) (fun _ => (hG i).1) m).2.2.1 0 m hm
    have k1 : ρ = (Published.oil (T i) (P i) (r i) (R i) (G i)).ρ := by
      rw [m1, Num.fin_inj] at g1; exact g1
    have k2 := m2.symm.trans g2
    rw [Num.fin_inj] at k2
    refine ⟨rfl, lt_of_lt_of_eq p2 k2, k1 ▸ p1, m, hm, by rw [m1, k1], by rw [m2, k2], ?_⟩
    have hm' := hm
    unfold OPE.oil at hm'
    obtain ⟨l', -, hm'⟩ := bind_eq_ok.mp hm'
    obtain ⟨d', -, hm'⟩ := bind_eq_ok.mp hm'
    obtain ⟨d1, -, -, -, d5⟩ := fluidVelocity_ok hm'
    rw [d5, ← d1]
    exact calcVs_zero m1 p1.ne'
  refine ⟨fluidOf (fun i => (Published.oil (T i) (P i) (r i) (R i) (G i)).ρ) v, ?_, ?_, rfl, rfl, ?_⟩
  · rw [e, vectorize_fluid (fun i => ?_) (fun i => (hv i).2.2.1) (fun i => (hv i).2.1.le)]
    exact (hv i).2.2.2
  · funext i
    show Num.fin _ = Num.fin _
    dsimp only
    rw [(hv i).1]; congr 1; ring
  · intro i
    obtain ⟨h1, h2, h3, -⟩ := hv i
    exact ⟨by rw [h1]; positivity, h3⟩

/-- **C103, gas.** -/
theorem gas_constituent (co2 : CO2Model n) {pv : Provider} (hp : pv ≠ .spanWagner) (T P G : Fin n → ℝ)
    (hT : ∀ i, 0 ≤ T i ∧ T i ≤ 300) (hP : ∀ i, 0 < P i) (hG : ∀ i, 0.29 ≤ G i ∧ G i ≤ 1.4) :
    ∃ m, (FluidKind.gas (finC G)).asMaterial co2 pv (finC T) (finC P) = (.ok m, finC P) ∧
      m.IsFluid fun i => Published.gas (T i) (P i) (G i) := by
  have e : (FluidKind.gas (finC G)).asMaterial co2 pv (finC T) (finC P)
      = (vectorizeMaterial fun i => OPE.gas ((finC T).row i) ((finC P).row i) ((finC G).row i), finC P) := by
    cases pv <;> first | rfl | exact absurd rfl hp
  have row : ∀ i, ∃ m : Mat 1, OPE.gas ((finC T).row i) ((finC P).row i) ((finC G).row i) = .ok m ∧
      m.density 0 = .fin (Published.gas (T i) (P i) (G i)).ρ ∧
      m.vp 0 = .fin (Real.sqrt ((Published.gas (T i) (P i) (G i)).K / (Published.gas (T i) (P i) (G i)).ρ)) ∧
      m.vs 0 = .fin 0 ∧ 0 < (Published.gas (T i) (P i) (G i)).ρ ∧ 0 < (Published.gas (T i) (P i) (G i)).K := by
    intro i
    obtain ⟨m, hm, h1, h2, h3⟩ := C95_gas (n := 1) (fun _ => T i) (fun _ => P i) (fun _ => G i) (fun _ => hT i)
      (fun _ => hP i) (fun _ => hG i)
    obtain ⟨p1, p2⟩ := h3 0
    have hm' := hm
    unfold OPE.gas at hm'
    obtain ⟨d, -, hm'⟩ := bind_eq_ok.mp hm'
    obtain ⟨hd, -, hb, hg, hvp, hvs⟩ := mkMaterial_ok hm'
    simp only [Option.some.injEq, reduceCtorEq, false_and, or_false, false_or, true_and] at hd hb hg hvp hvs
    have q : 0 < Published.gasBulk (T i + 273.15) (P i * 1e-6) (G i) / Published.gasDensity (T i + 273.15) (P i * 1e-6) (G i) :=
      div_pos p2 p1
    refine ⟨m, hm, congrFun h1 0, ?_, ?_, p1, p2⟩
    · rw [hvp, ← hg, h1, h2]
      simp [calcVp, p1.ne', q.le, Published.gas]
    · rw [hvs, ← hg, h1]
      simp [calcVs, p1.ne']
  choose m hm using row
  refine ⟨fluidOf (fun i => (Published.gas (T i) (P i) (G i)).ρ)
    (fun i => Real.sqrt ((Published.gas (T i) (P i) (G i)).K / (Published.gas (T i) (P i) (G i)).ρ)), ?_, ?_, rfl, rfl,
    fun i => ⟨(hm i).2.2.2.2.2, (hm i).2.2.2.2.1⟩⟩
  · rw [e, vectorize_fluid (fun i => ⟨m i, (hm i).1, (hm i).2.1, (hm i).2.2.1, (hm i).2.2.2.1⟩)
      (fun i => (hm i).2.2.2.2.1) (fun i => Real.sqrt_nonneg _)]
  · funext i
    obtain ⟨-, -, -, -, p1, p2⟩ := hm i
    show Num.fin _ = Num.fin _
    dsimp only
    rw [Real.sq_sqrt (div_pos p2 p1).le, div_mul_cancel₀ _ p1.ne']

/-- **C103.** What the constituents of a fluids section evaluate to with the default or batzle_wang
provider: brine, oil and gas are the published fluids of temperature (°C) and fluid pressure (Pa), with the
section's own parameters; an explicit material is itself.  Carbon dioxide is evaluated by the span_wagner
provider at the absolute temperature and the pressure in MPa. -/
theorem C103_constituents (co2 : CO2Model n) (T P : Fin n → ℝ) :
    (∀ pv : Provider, pv ≠ .spanWagner →
      (∀ S : Fin n → ℝ, (∀ i, 0 ≤ T i ∧ T i ≤ 350) → (∀ i, 0 ≤ P i ∧ P i ≤ 100e6) →
        (∀ i, 0 ≤ S i ∧ S i ≤ 300000) →
        ∃ m, ((FluidKind.brine (finC S)).asMaterial co2 pv (finC T) (finC P)).1 = .ok m ∧
          m.IsFluid fun i => Published.brine (T i) (P i) (S i)) ∧
      (∀ r R G : Fin n → ℝ, (∀ i, 0 ≤ T i ∧ T i ≤ 150) → (∀ i, 0 ≤ P i ∧ P i ≤ 100e6) →
        (∀ i, 700 ≤ r i ∧ r i ≤ 1000) → (∀ i, 0 ≤ R i ∧ R i ≤ 400) → (∀ i, 0 ≤ G i ∧ G i ≤ 1) →
        ∃ m, ((FluidKind.oil (finC r) (finC R) (finC G)).asMaterial co2 pv (finC T) (finC P)).1 = .ok m ∧
          m.IsFluid fun i => Published.oil (T i) (P i) (r i) (R i) (G i)) ∧
      (∀ G : Fin n → ℝ, (∀ i, 0 ≤ T i ∧ T i ≤ 300) → (∀ i, 0 < P i) → (∀ i, 0.29 ≤ G i ∧ G i ≤ 1.4) →
        ∃ m, ((FluidKind.gas (finC G)).asMaterial co2 pv (finC T) (finC P)).1 = .ok m ∧
          m.IsFluid fun i => Published.gas (T i) (P i) (G i))) ∧
    (∀ (pv : Provider) (m : Mat n), ((FluidKind.material m).asMaterial co2 pv (finC T) (finC P)).1 = .ok m) ∧
    (∀ b, ((FluidKind.carbonDioxide b).asMaterial co2 .spanWagner (finC T) (finC P)).1
      = co2 (finC fun i => T i + 273.15) (finC fun i => P i / 10 ^ 6) b) := by
  refine ⟨fun pv hp => ⟨fun S h1 h2 h3 => ?_, fun r R G h1 h2 h3 h4 h5 => ?_, fun G h1 h2 h3 => ?_⟩,
    fun pv m => rfl, fun b => ?_⟩
  · obtain ⟨m, h, h'⟩ := brine_constituent co2 hp T P S h1 h2 h3; exact ⟨m, by rw [h], h'⟩
  · obtain ⟨m, h, h'⟩ := oil_constituent co2 hp T P r R G h1 h2 h3 h4 h5; exact ⟨m, by rw [h], h'⟩
  · obtain ⟨m, h, h'⟩ := gas_constituent co2 hp T P G h1 h2 h3; exact ⟨m, by rw [h], h'⟩
  · show co2 _ _ b = _
    congr 1
    funext i; simp only [finC_apply]; rw [Num.fin_div _ (by norm_num)]; norm_num

/-- The ranges are met by ordinary reservoir conditions. -/
example := ((C103_constituents (n := 2) (fun _ _ _ => .error .notImplemented) (fun _ => 75) (fun _ => 30e6)).1
  .default (by simp)).1 (fun _ => 45000) (fun _ => by norm_num) (fun _ => by norm_num) (fun _ => by norm_num)

example := ((C103_constituents (n := 2) (fun _ _ _ => .error .notImplemented) (fun _ => 75) (fun _ => 30e6)).1
  .default (by simp)).2.1 (fun _ => 865) (fun _ => 123) (fun _ => 0.8) (fun _ => by norm_num)
  (fun _ => by norm_num) (fun _ => by norm_num) (fun _ => by norm_num) (fun _ => by norm_num)

/-! ### C104 mixing and substitution -/

/-- The constituents given to the mixing laws: fluids with saturations. -/
abbrev FluidList (n : ℕ) := List (Mat n × (Fin n → Published.Fluid) × (Fin n → ℝ))

/-- Row `i`. -/
def FluidList.at (L : FluidList n) (i : Fin n) : List (Published.Fluid × ℝ) :=
  L.map fun x => (x.2.1 i, x.2.2 i)

/-- Positive fluids, non-negative saturations with a total of at least 1e-15. -/
structure FluidList.Good (L : FluidList n) : Prop where
  nonempty : L ≠ []
  fluid : ∀ x ∈ L, x.1.IsFluid x.2.1
  nonneg : ∀ x ∈ L, ∀ i, 0 ≤ x.2.2 i
  total : ∀ i, 1e-15 ≤ (L.map fun x => x.2.2 i).sum

theorem FluidList.toIn {L : FluidList n} (h : ∀ x ∈ L, x.1.IsFluid x.2.1) :
    ∃ F : List (FluidIn n), F.map (fun x => (x.mat, x.K, x.ρ, x.s))
      = L.map (fun x => (x.1, (fun i => (x.2.1 i).K), (fun i => (x.2.1 i).ρ), x.2.2)) := by
  induction L with
  | nil => exact ⟨[], rfl⟩
  | cons x L ih =>
    obtain ⟨F, hF⟩ := ih fun y hy => h y (List.mem_cons_of_mem _ hy)
    have hx := h x List.mem_cons_self
    exact ⟨⟨x.1, _, _, x.2.2, hx.1, hx.2.1⟩ :: F, by simp [hF]⟩

theorem sum_pos_of_mem {α : Type} {L : List α} {g : α → ℝ} (h0 : ∀ x ∈ L, 0 ≤ g x) {x : α} (hx : x ∈ L)
    (hp : 0 < g x) : 0 < (L.map g).sum :=
  lt_of_lt_of_le hp (List.single_le_sum (fun y hy => by
    obtain ⟨z, hz, rfl⟩ := List.mem_map.mp hy; exact h0 z hz) _ (List.mem_map_of_mem hx))

/-- Wood's law is the published one. -/
theorem wood_published {L : FluidList n} (h : L.Good) :
    ∃ m, wood (L.map fun x => x.1) (L.map fun x => finC x.2.2) = .ok m ∧
      m.IsFluid fun i => Published.wood (L.at i) := by
  obtain ⟨F, hF⟩ := FluidList.toIn h.fluid
  have mem : ∀ y ∈ F, ∃ x ∈ L, y.mat = x.1 ∧ y.K = (fun i => (x.2.1 i).K) ∧ y.ρ = (fun i => (x.2.1 i).ρ) ∧
      y.s = x.2.2 := by
    intro y hy
    have : (y.mat, y.K, y.ρ, y.s) ∈ L.map (fun x => (x.1, (fun i => (x.2.1 i).K), (fun i => (x.2.1 i).ρ), x.2.2)) := by
      rw [← hF]; exact List.mem_map_of_mem (f := fun x : FluidIn n => (x.mat, x.K, x.ρ, x.s)) hy
    obtain ⟨x, hx, e⟩ := List.mem_map.mp this
    simp only [Prod.mk.injEq] at e
    exact ⟨x, hx, e.1.symm, e.2.1.symm, e.2.2.1.symm, e.2.2.2.symm⟩
  have hne : F ≠ [] := by
    rintro rfl; exact h.nonempty (List.map_eq_nil_iff.mp hF.symm)
  have conv : ∀ {β : Type} (g : Mat n × (Fin n → ℝ) × (Fin n → ℝ) × (Fin n → ℝ) → β),
      F.map (fun x => g (x.mat, x.K, x.ρ, x.s))
        = L.map (fun x => g (x.1, (fun i => (x.2.1 i).K), (fun i => (x.2.1 i).ρ), x.2.2)) := by
    intro β g
    have := congrArg (List.map g) hF
    simpa [List.map_map, Function.comp_def] using this
  obtain ⟨m, K, ρ, h1, h2, h3⟩ := C17_wood_is_reuss hne
    (fun y hy i => by obtain ⟨x, hx, -, e, -⟩ := mem y hy; rw [e]; exact ((h.fluid x hx).2.2.2 i).1)
    (fun y hy i => by obtain ⟨x, hx, -, -, e, -⟩ := mem y hy; rw [e]; exact ((h.fluid x hx).2.2.2 i).2)
    (fun y hy i => by obtain ⟨x, hx, -, -, -, e⟩ := mem y hy; rw [e]; exact h.nonneg x hx i)
    (fun i => by rw [conv fun x => x.2.2.2 i]; exact h.total i)
  rw [conv fun x => x.1, conv fun x => finC x.2.2.2] at h1
  have hK : ∀ i, K i = (Published.wood (L.at i)).K := by
    intro i
    have := (h3 i).1
    rw [conv fun x => x.2.2.2 i, conv fun x => x.2.2.2 i / (L.map fun x => x.2.2 i).sum / x.2.1 i] at this
    rw [one_div] at this
    rw [← inv_inv (K i), this]
    simp only [Published.wood, FluidList.at, List.map_map, Function.comp_def]
  have hρ : ∀ i, ρ i = (Published.wood (L.at i)).ρ := by
    intro i
    have := (h3 i).2.1
    rw [conv fun x => x.2.2.2 i, conv fun x => x.2.2.2 i / (L.map fun x => x.2.2 i).sum * x.2.2.1 i] at this
    rw [this]
    simp only [Published.wood, FluidList.at, List.map_map, Function.comp_def]
  refine ⟨m, h1, by rw [h2.1, funext hK], by rw [h2.2.2, funext hρ], h2.2.1, fun i => ?_⟩
  have hS : 0 < (L.map fun x => x.2.2 i).sum := lt_of_lt_of_le (by norm_num) (h.total i)
  obtain ⟨x, hx, hxp⟩ : ∃ x ∈ L, 0 < x.2.2 i := by
    by_contra hc
    push Not at hc
    have : (L.map fun x => x.2.2 i).sum ≤ 0 := by
      refine le_of_eq (List.sum_eq_zero fun y hy => ?_)
      obtain ⟨z, hz, rfl⟩ := List.mem_map.mp hy
      exact le_antisymm (hc z hz) (h.nonneg z hz i)
    linarith
  obtain ⟨x1, x2⟩ := (h.fluid x hx).2.2.2 i
  simp only [Published.wood, FluidList.at, List.map_map, Function.comp_def]
  constructor
  · refine inv_pos.mpr (sum_pos_of_mem (fun y hy => ?_) hx ?_)
    · have := ((h.fluid y hy).2.2.2 i).1; have := h.nonneg y hy i; positivity
    · positivity
  · refine sum_pos_of_mem (fun y hy => ?_) hx ?_
    · have := ((h.fluid y hy).2.2.2 i).2; have := h.nonneg y hy i; positivity
    · positivity

/-- Wood's law in the rows with some saturation; in the others it still gives a fluid. -/
theorem wood_rows {L : FluidList n} (hne : L ≠ []) (hfl : ∀ x ∈ L, x.1.IsFluid x.2.1)
    (hnn : ∀ x ∈ L, ∀ i, 0 ≤ x.2.2 i) :
    ∃ m F, wood (L.map fun x => x.1) (L.map fun x => finC x.2.2) = .ok m ∧ m.IsFluid F ∧
      ∀ i, 1e-15 ≤ (L.map fun x => x.2.2 i).sum → F i = Published.wood (L.at i) := by
  obtain ⟨F, hF⟩ := FluidList.toIn hfl
  have mem : ∀ y ∈ F, ∃ x ∈ L, y.mat = x.1 ∧ y.K = (fun i => (x.2.1 i).K) ∧ y.ρ = (fun i => (x.2.1 i).ρ) ∧
      y.s = x.2.2 := by
    intro y hy
    have : (y.mat, y.K, y.ρ, y.s) ∈ L.map (fun x => (x.1, (fun i => (x.2.1 i).K), (fun i => (x.2.1 i).ρ), x.2.2)) := by
      rw [← hF]; exact List.mem_map_of_mem (f := fun x : FluidIn n => (x.mat, x.K, x.ρ, x.s)) hy
    obtain ⟨x, hx, e⟩ := List.mem_map.mp this
    simp only [Prod.mk.injEq] at e
    exact ⟨x, hx, e.1.symm, e.2.1.symm, e.2.2.1.symm, e.2.2.2.symm⟩
  have hne' : F ≠ [] := by
    rintro rfl; exact hne (List.map_eq_nil_iff.mp hF.symm)
  have conv : ∀ {β : Type} (g : Mat n × (Fin n → ℝ) × (Fin n → ℝ) × (Fin n → ℝ) → β),
      F.map (fun x => g (x.mat, x.K, x.ρ, x.s))
        = L.map (fun x => g (x.1, (fun i => (x.2.1 i).K), (fun i => (x.2.1 i).ρ), x.2.2)) := by
    intro β g
    have := congrArg (List.map g) hF
    simpa [List.map_map, Function.comp_def] using this
  obtain ⟨h1, p1, p2⟩ := FluidIn.wood_fin hne'
    (fun y hy i => by obtain ⟨x, hx, -, e, -⟩ := mem y hy; rw [e]; exact ((hfl x hx).2.2.2 i).1)
    (fun y hy i => by obtain ⟨x, hx, -, -, e, -⟩ := mem y hy; rw [e]; exact ((hfl x hx).2.2.2 i).2)
    (fun y hy i => by obtain ⟨x, hx, -, -, -, e⟩ := mem y hy; rw [e]; exact hnn x hx i)
  unfold FluidIn.wood at h1
  rw [conv fun x => x.1, conv fun x => finC x.2.2.2] at h1
  refine ⟨_, fun i => ⟨((F.map fun x => FluidIn.weight F x i / x.K i).sum)⁻¹,
    (F.map fun x => x.ρ i * FluidIn.weight F x i).sum⟩, h1, ⟨rfl, rfl, rfl, fun i => ⟨inv_pos.mpr (p1 i), p2 i⟩⟩, ?_⟩
  intro i hi
  have ht : FluidIn.total F i = (L.map fun x => x.2.2 i).sum := by
    unfold FluidIn.total; rw [conv fun x => x.2.2.2 i]
  have hw : ∀ x, FluidIn.weight F x i = x.s i / (L.map fun x => x.2.2 i).sum := fun x => by
    rw [FluidIn.weight_of_total (by rw [ht]; exact hi), ht]
  simp only [hw]
  rw [conv fun x => x.2.2.2 i / (L.map fun x => x.2.2 i).sum / x.2.1 i,
    conv fun x => x.2.2.1 i * (x.2.2.2 i / (L.map fun x => x.2.2 i).sum)]
  simp only [Published.wood, FluidList.at, List.map_map, Function.comp_def, mul_comm]

/-- Liquids and gases for Brie's law: at least one of each; in every row the liquids take up at most all of the pore
space, and either phase may be absent: no liquid, or no gas where the liquids take up all of it. -/
structure TwoPhase (L G : FluidList n) : Prop where
  liquids : L ≠ []
  gases : G ≠ []
  fluid : ∀ x ∈ L ++ G, x.1.IsFluid x.2.1
  nonneg : ∀ x ∈ L ++ G, ∀ i, 0 ≤ x.2.2 i
  total : ∀ i, (L.map fun x => x.2.2 i).sum ≤ 1
  liquid : ∀ i, 1e-15 ≤ (L.map fun x => x.2.2 i).sum ∨ (L.map fun x => x.2.2 i).sum = 0
  gas : ∀ i, 1e-15 ≤ (G.map fun x => x.2.2 i).sum ∨ (L.map fun x => x.2.2 i).sum = 1

theorem TwoPhase.of_good {L G : FluidList n} (hL : L.Good) (hG : G.Good)
    (ht : ∀ i, (L.map fun x => x.2.2 i).sum ≤ 1) : TwoPhase L G :=
  ⟨hL.nonempty, hG.nonempty, fun x hx => (List.mem_append.mp hx).elim (hL.fluid x) (hG.fluid x),
    fun x hx => (List.mem_append.mp hx).elim (hL.nonneg x) (hG.nonneg x), ht, fun i => .inl (hL.total i),
    fun i => .inl (hG.total i)⟩

/-- Brie's law is the published one, also in rows without gas or without liquid. -/
theorem brie_rows {L G : FluidList n} (h : TwoPhase L G) (e : Fin n → ℝ) (he : ∀ i, 0 < e i) :
    ∃ m, brie (L.map fun x => x.1) (L.map fun x => finC x.2.2) (G.map fun x => x.1)
        (G.map fun x => finC x.2.2) (finC e) = .ok m ∧
      m.IsFluid fun i => Published.brie (L.at i) (G.at i) (e i) := by
  obtain ⟨l, A, l1, ⟨l2, l3, l4, l5⟩, l6⟩ := wood_rows h.liquids (fun x hx => h.fluid x (by simp [hx]))
    (fun x hx => h.nonneg x (by simp [hx]))
  obtain ⟨g, B, g1, ⟨g2, g3, g4, g5⟩, g6⟩ := wood_rows h.gases (fun x hx => h.fluid x (by simp [hx]))
    (fun x hx => h.nonneg x (by simp [hx]))
  set t : Fin n → ℝ := fun i => (L.map fun x => x.2.2 i).sum with htd
  have t0 : ∀ i, 0 ≤ t i := fun i => List.sum_nonneg fun a ha => by
    obtain ⟨x, hx, rfl⟩ := List.mem_map.mp ha
    exact h.nonneg x (by simp [hx]) i
  have t1 : ∀ i, t i ≤ 1 := h.total
  have tot : sumCols (L.map fun x => finC x.2.2) = finC t := sumCols_fin L (fun x => x.2.2)
  have s1 : ∀ i, ((L.at i).map fun x => x.2).sum = t i := fun i => by
    simp [FluidList.at, List.map_map, Function.comp_def, htd]
  have key : ∀ i, Published.brie (L.at i) (G.at i) (e i)
      = ⟨((A i).K - (B i).K) * t i ^ e i + (B i).K, t i * (A i).ρ + (1 - t i) * (B i).ρ⟩ := by
    intro i
    simp only [Published.brie, s1]
    rcases h.gas i with hg | hg
    · rcases h.liquid i with hl | hl
      · rw [l6 i hl, g6 i hg]
      · have : t i = 0 := hl
        rw [g6 i hg, this, Real.zero_rpow (he i).ne']
        simp
    · have : t i = 1 := hg
      rw [l6 i (by show 1e-15 ≤ t i; rw [this]; norm_num), this, Real.one_rpow]
      simp
  have k0 : ∀ i, 0 < (Published.brie (L.at i) (G.at i) (e i)).K ∧ 0 < (Published.brie (L.at i) (G.at i) (e i)).ρ := by
    intro i
    obtain ⟨a1, a2⟩ := l5 i
    obtain ⟨b1, b2⟩ := g5 i
    rw [key]
    dsimp only
    have p0 : 0 ≤ t i ^ e i := Real.rpow_nonneg (t0 i) _
    have p1 : t i ^ e i ≤ 1 := Real.rpow_le_one (t0 i) (t1 i) (he i).le
    have mix : ∀ {a b w : ℝ}, 0 < a → 0 < b → 0 ≤ w → w ≤ 1 → 0 < w * a + (1 - w) * b := by
      intro a b w ha hb h0 h1
      rcases h0.eq_or_lt with rfl | h0
      · simpa using hb
      · have := mul_pos h0 ha
        have := mul_nonneg (sub_nonneg.mpr h1) hb.le
        linarith
    refine ⟨?_, mix a2 b2 (t0 i) (t1 i)⟩
    have := mix a1 b1 p0 p1
    linarith
  have len : ∀ M : FluidList n, M ≠ [] → (M.map fun x => x.1).length ≠ 0 := by
    intro M hM; simpa using hM
  have eK : ((l.bulk - g.bulk) * (fun i => Num.pow (finC t i) (finC e i)) + g.bulk : Col n)
      = finC fun i => (Published.brie (L.at i) (G.at i) (e i)).K := by
    rw [l2, g2]; funext i
    show (Num.fin _ - Num.fin _) * Num.pow (Num.fin (t i)) (Num.fin (e i)) + Num.fin _ = Num.fin _
    rw [Num.fin_pow_nonneg (t0 i) (he i)]
    simp [key]
  have eρ : mixDensities [l, g] [finC t, c 1 - finC t]
      = finC fun i => (Published.brie (L.at i) (G.at i) (e i)).ρ := by
    unfold mixDensities sumCols
    simp only [List.zip_cons_cons, List.zip_nil_right, List.map_cons, List.map_nil, List.foldl_cons, List.foldl_nil]
    rw [l3, g3]; funext i
    simp [key]
    ring
  refine ⟨Mat.ofReal (fun i => (Published.brie (L.at i) (G.at i) (e i)).K) (fun _ => 0)
    (fun i => (Published.brie (L.at i) (G.at i) (e i)).ρ), ?_, rfl, rfl, rfl, k0⟩
  unfold brie
  rw [failIf_false (by simp), bind_ok, failIf_false (by simp), bind_ok, if_pos (len L h.liquids), l1, bind_ok,
    if_pos (len G h.gases), g1, bind_ok]
  dsimp only
  rw [tot, eK, eρ]
  exact mkModuli_ofReal (fun i => (k0 i).1.le) (fun _ => le_rfl) (fun i => (k0 i).2)

/-- Brie's law is the published one. -/
theorem brie_published {L G : FluidList n} (hL : L.Good) (hG : G.Good) (e : Fin n → ℝ)
    (ht : ∀ i, (L.map fun x => x.2.2 i).sum ≤ 1) (he : ∀ i, 0 < e i) :
    ∃ m, brie (L.map fun x => x.1) (L.map fun x => finC x.2.2) (G.map fun x => x.1)
        (G.map fun x => finC x.2.2) (finC e) = .ok m ∧
      m.IsFluid fun i => Published.brie (L.at i) (G.at i) (e i) :=
  brie_rows (.of_good hL hG ht) e he

theorem gFactor_published {kd km kf phi : ℝ} (hphi : 0 < phi) (hd0 : 0 ≤ kd) (hd : kd < km) (hf0 : 0 < kf)
    (hf : kf < km) : gFactor kd km kf phi / (1 + gFactor kd km kf phi) * km = Published.gassmann kd km kf phi := by
  unfold gFactor Published.gassmann
  have h1 : km - kd ≠ 0 := by linarith
  have h2 : km - kf ≠ 0 := by linarith
  have h3 : km ≠ 0 := by linarith
  have h4 : 0 < phi / kf + (1 - phi) / km - kd / km ^ 2 := by
    have hkm : 0 < km := by linarith
    have a : phi / km < phi / kf := by gcongr
    have b : kd / km ^ 2 < 1 / km := by
      rw [div_lt_div_iff₀ (by positivity) hkm]; nlinarith
    have c' : (1 - phi) / km = 1 / km - phi / km := by ring
    rw [c']; linarith
  have h5 : 0 < phi * km * (km - kf) + kf * (km - kd) := by
    have := mul_pos (mul_pos hphi (by linarith : 0 < km)) (by linarith : 0 < km - kf)
    have := mul_nonneg hf0.le (by linarith : 0 ≤ km - kd)
    linarith
  have e1 : phi / kf + (1 - phi) / km - kd / km ^ 2
      = (phi * km * (km - kf) + kf * (km - kd)) / (kf * km ^ 2) := by
    field_simp; ring
  have e2 : 1 + (kd / (km - kd) + kf / ((km - kf) * phi))
      = (phi * km * (km - kf) + kf * (km - kd)) / ((km - kd) * ((km - kf) * phi)) := by
    field_simp; ring
  rw [e1, e2]
  generalize hD : phi * km * (km - kf) + kf * (km - kd) = D at *
  have h6 := h5.ne'
  field_simp
  rw [← hD]
  ring

/-- **C104.** Wood's and Brie's mixing laws and fluid substitution are the published ones: Wood of any number
of fluids, Brie of any number of liquids and gases, and Gassmann's saturated bulk modulus with the dry shear
modulus and the density `ρ_dry + φ ρ_fluid`. -/
theorem C104_mixing_and_gassmann :
    (∀ L : FluidList n, L.Good → ∃ m, wood (L.map fun x => x.1) (L.map fun x => finC x.2.2) = .ok m ∧
      m.IsFluid fun i => Published.wood (L.at i)) ∧
    (∀ (L G : FluidList n) (e : Fin n → ℝ), TwoPhase L G → (∀ i, 0 < e i) →
      ∃ m, brie (L.map fun x => x.1) (L.map fun x => finC x.2.2) (G.map fun x => x.1)
          (G.map fun x => finC x.2.2) (finC e) = .ok m ∧
        m.IsFluid fun i => Published.brie (L.at i) (G.at i) (e i)) ∧
    (∀ (dry mineral fluid : Mat n) (Kd G ρ Km φ : Fin n → ℝ) (F : Fin n → Published.Fluid),
      dry.Has Kd G ρ → mineral.bulk = finC Km → fluid.IsFluid F →
      (∀ i, 0 < φ i ∧ 0 ≤ Kd i ∧ Kd i < Km i ∧ (F i).K < Km i ∧ 0 ≤ G i ∧ 0 < ρ i) →
      fluidSubstitution dry mineral fluid (finC φ) = .ok (Mat.ofReal
        (fun i => Published.gassmann (Kd i) (Km i) (F i).K (φ i)) G (fun i => ρ i + φ i * (F i).ρ))) := by
  refine ⟨fun L h => wood_published h, fun L G e h he => brie_rows h e he, ?_⟩
  intro dry mineral fluid Kd G ρ Km φ F hd hm hf h
  rw [substitution_fin (Kd := Kd) (Gd := G) (ρd := ρ) (Km := Km) (Kf := fun i => (F i).K) (ρf := fun i => (F i).ρ)
    ⟨hd, hm, hf.1, hf.2.1, fun i => (h i).2.2.2.2.1, fun i => (h i).2.2.2.2.2, fun i => (hf.2.2.2 i).2.le,
      fun i => (h i).1, fun i => (h i).2.1, fun i => (h i).2.2.1, fun i => (hf.2.2.2 i).1.le,
      fun i => (h i).2.2.2.1⟩]
  congr 2
  funext i
  obtain ⟨h1, h3, h4, h5, -, -⟩ := h i
  exact gFactor_published h1 h3 h4 (hf.2.2.2 i).1 h5

/-- Brine and gas. -/
theorem exFluidList : FluidList.Good (n := 2) [(Mat.ofReal (fun _ => 2.8) (fun _ => 0) (fun _ => 1030),
    (fun _ => ⟨2.8, 1030⟩), fun _ => 0.7), (Mat.ofReal (fun _ => 0.05) (fun _ => 0) (fun _ => 150),
    (fun _ => ⟨0.05, 150⟩), fun _ => 0.3)] := by
  refine ⟨by simp, ?_, ?_, fun _ => by norm_num⟩
  · intro x hx
    simp only [List.mem_cons, List.not_mem_nil, or_false] at hx
    rcases hx with rfl | rfl <;> exact ⟨rfl, rfl, rfl, fun _ => by norm_num⟩
  · intro x hx
    simp only [List.mem_cons, List.not_mem_nil, or_false] at hx
    rcases hx with rfl | rfl <;> norm_num

example := C104_mixing_and_gassmann.1 _ exFluidList

/-- Brine and gas: a row with both, a row with brine only and a row with gas only. -/
theorem exTwoPhase : TwoPhase (n := 3) [(Mat.ofReal (fun _ => 2.8) (fun _ => 0) (fun _ => 1030),
    (fun _ => ⟨2.8, 1030⟩), ![0.7, 1, 0])] [(Mat.ofReal (fun _ => 0.05) (fun _ => 0) (fun _ => 150),
    (fun _ => ⟨0.05, 150⟩), ![0.3, 0, 1])] := by
  refine ⟨by simp, by simp, ?_, ?_, fun i => ?_, fun i => ?_, fun i => ?_⟩
  · intro x hx
    simp only [List.cons_append, List.nil_append, List.mem_cons, List.not_mem_nil, or_false] at hx
    rcases hx with rfl | rfl <;> exact ⟨rfl, rfl, rfl, fun _ => by norm_num⟩
  · intro x hx i
    simp only [List.cons_append, List.nil_append, List.mem_cons, List.not_mem_nil, or_false] at hx
    rcases hx with rfl | rfl <;> fin_cases i <;> norm_num
  all_goals fin_cases i <;> norm_num

example := C104_mixing_and_gassmann.2.1 _ _ (fun _ => 3) exTwoPhase (fun _ => by norm_num)

end OPE
