import Verif.Model.Fluid
import Verif.Props.Material
import Verif.Spec.Mixing
import Mathlib.Analysis.SpecialFunctions.Pow.Real

/-!
# Properties C16–C25: fluid mixing and Gassmann substitution
-/

namespace OPE

open Classical Spec

variable {n : ℕ}

/-! ### C16 -/

theorem FluidIn.weight_of_total {L : List (FluidIn n)} {i : Fin n} (h : 1e-15 ≤ FluidIn.total L i)
    (x : FluidIn n) : FluidIn.weight L x i = x.s i / FluidIn.total L i := by
  unfold FluidIn.weight
  rw [if_pos (lt_of_lt_of_le (by norm_num) h), max_eq_left h]

theorem list_sum_div {α : Type} (L : List α) (g : α → ℝ) (t : ℝ) :
    (L.map fun x => g x / t).sum = (L.map g).sum / t := by
  induction L with
  | nil => simp
  | cons x L ih => simp only [List.map_cons, List.sum_cons, ih]; ring

theorem list_sum_mul {α : Type} (L : List α) (g : α → ℝ) (t : ℝ) :
    (L.map fun x => g x * t).sum = (L.map g).sum * t := by
  induction L with
  | nil => simp
  | cons x L ih => simp only [List.map_cons, List.sum_cons, ih]; ring

/-- **C16, the part that holds:** any number of saturations whose total is at least 1e-15 in each row
is rescaled proportionally to sum to one. -/
theorem C16_partial (S : List (Fin n → ℝ)) (h : ∀ i, 1e-15 ≤ (S.map fun s => s i).sum) :
    sumSaturationsToOne (S.map finC) =
        S.map (fun s => finC fun i => s i / (S.map fun s => s i).sum) ∧
      sumCols (sumSaturationsToOne (S.map finC)) = c 1 := by
  have e : sumSaturationsToOne (S.map finC) =
      S.map (fun s => finC fun i => s i / (S.map fun s => s i).sum) := by
    unfold sumSaturationsToOne
    have := sumCols_fin S (fun s => s)
    rw [show (S.map fun s => finC s) = S.map finC from rfl] at this
    simp only [this, List.map_map]
    apply List.map_congr_left
    intro s _
    funext i
    have hi := h i
    have h0 : 0 < (S.map fun s => s i).sum := lt_of_lt_of_le (by norm_num) hi
    simp only [Function.comp, finC_apply, Num.fin_lt, Num.fin_maximum, if_pos h0, max_eq_left hi,
      Num.fin_div _ h0.ne']
  refine ⟨e, ?_⟩
  rw [e, sumCols_fin S (fun s i => s i / (S.map fun s => s i).sum)]
  funext i
  have h0 : 0 < (S.map fun s => s i).sum := lt_of_lt_of_le (by norm_num) (h i)
  simp only [finC_apply, c_apply, Num.fin_inj]
  rw [list_sum_div]
  exact div_self h0.ne'

example : ∀ _ : Fin 2, (1e-15 : ℝ) ≤ ([(fun _ => 0.2), (fun _ => 0.5)].map
    (fun s : Fin 2 → ℝ => s 0)).sum := by
  intro _; norm_num

/-- **C16 is false of the code** when all saturations are zero: mixing two copies of a fluid with
saturations 0 and 0 gives a fluid of twice the density (the saturations were rescaled to 1 and 1). -/
theorem C16_refuted :
    ∃ (f m : Mat 1), f.density = c 1000 ∧ wood [f, f] [c 0, c 0] = .ok m ∧ m.density = c 2000 := by
  refine ⟨Mat.ofReal (fun _ => 2) (fun _ => 0) (fun _ => 1000),
    Mat.ofReal (fun _ => 1) (fun _ => 0) (fun _ => 2000), rfl, ?_, ?_⟩
  · let x : FluidIn 1 := ⟨Mat.ofReal (fun _ => 2) (fun _ => 0) (fun _ => 1000), fun _ => 2,
      fun _ => 1000, fun _ => 0, rfl, rfl⟩
    have := (FluidIn.wood_fin (L := [x, x]) (by simp) (by simp [x]) (by simp [x]) (by simp [x])).1
    refine Eq.trans this ?_
    have hw : ∀ i, FluidIn.weight [x, x] x i = 1 := by
      intro i; simp [FluidIn.weight, FluidIn.total, x]
    congr 2
    · funext i; simp [hw]; simp [x]; norm_num
    · funext i; simp [hw]; simp [x]; norm_num
  · rfl

/-! ### C17 -/

/-- **C17.** Wood mixing of at least one fluid: the mix exists, its bulk modulus is the Reuss average
for the normalised saturations, its density the weighted average, the shear modulus is 0, and both
lie within any interval that contains all the constituents' values. -/
theorem C17_wood_is_reuss {L : List (FluidIn n)} (hne : L ≠ [])
    (hK : ∀ x ∈ L, ∀ i, 0 < x.K i) (hρ : ∀ x ∈ L, ∀ i, 0 < x.ρ i) (hs : ∀ x ∈ L, ∀ i, 0 ≤ x.s i)
    (ht : ∀ i, 1e-15 ≤ (L.map fun x => x.s i).sum) :
    ∃ m K ρ, wood (L.map (·.mat)) (L.map fun x => finC x.s) = .ok m ∧
      m.Has K (fun _ => 0) ρ ∧ ∀ i,
        1 / K i = (L.map fun x => x.s i / (L.map fun x => x.s i).sum / x.K i).sum ∧
        ρ i = (L.map fun x => x.s i / (L.map fun x => x.s i).sum * x.ρ i).sum ∧
        (∀ lo hi, (∀ x ∈ L, lo ≤ x.K i ∧ x.K i ≤ hi) → lo ≤ K i ∧ K i ≤ hi) ∧
        (∀ lo hi, (∀ x ∈ L, lo ≤ x.ρ i ∧ x.ρ i ≤ hi) → lo ≤ ρ i ∧ ρ i ≤ hi) := by
  obtain ⟨h1, p1, p2⟩ := FluidIn.wood_fin hne hK hρ hs
  have hw : ∀ x i, FluidIn.weight L x i = x.s i / (L.map fun x => x.s i).sum :=
    fun x i => FluidIn.weight_of_total (ht i) x
  have wn : ∀ x ∈ L, ∀ i, 0 ≤ FluidIn.weight L x i := fun x hx i => FluidIn.weight_nonneg hs hx i
  have w1 : ∀ i, (L.map fun x => FluidIn.weight L x i).sum = 1 := by
    intro i
    have h0 : 0 < (L.map fun x => x.s i).sum := lt_of_lt_of_le (by norm_num) (ht i)
    simp only [hw]
    rw [list_sum_div, div_self h0.ne']
  refine ⟨_, _, _, h1, Mat.ofReal_has _ _ _, fun i => ⟨?_, ?_, ?_, ?_⟩⟩
  · simp only [hw, one_div, inv_inv]
  · simp only [hw, mul_comm]
  · intro lo hi h
    have hlo : ∀ lo, (∀ x ∈ L, lo ≤ x.K i) → 0 < lo →
        (L.map fun x => FluidIn.weight L x i / x.K i).sum ≤ 1 / lo := by
      intro lo h hl
      calc (L.map fun x => FluidIn.weight L x i / x.K i).sum
          ≤ (L.map fun x => FluidIn.weight L x i / lo).sum :=
            List.sum_le_sum (fun x hx => div_le_div_of_nonneg_left (wn x hx i) hl (h x hx))
        _ = 1 / lo := by rw [list_sum_div, w1 i]
    have hhi : ∀ hi, (∀ x ∈ L, x.K i ≤ hi) → 0 < hi →
        1 / hi ≤ (L.map fun x => FluidIn.weight L x i / x.K i).sum := by
      intro hi h hh
      calc 1 / hi = (L.map fun x => FluidIn.weight L x i / hi).sum := by rw [list_sum_div, w1 i]
        _ ≤ (L.map fun x => FluidIn.weight L x i / x.K i).sum :=
            List.sum_le_sum (fun x hx => div_le_div_of_nonneg_left (wn x hx i) (hK x hx i) (h x hx))
    have hp := p1 i
    constructor
    · rcases le_or_gt lo 0 with h0 | h0
      · exact h0.trans (inv_pos.mpr hp).le
      · have := hlo lo (fun x hx => (h x hx).1) h0
        rw [le_inv_comm₀ h0 hp]; simpa using this
    · obtain ⟨x, hx⟩ := List.exists_mem_of_ne_nil L hne
      have h0 : 0 < hi := lt_of_lt_of_le (hK x hx i) (h x hx).2
      have := hhi hi (fun x hx => (h x hx).2) h0
      rw [inv_le_comm₀ hp h0]; simpa using this
  · intro lo hi h
    constructor
    · calc lo = (L.map fun x => FluidIn.weight L x i * lo).sum := by
            rw [list_sum_mul, w1 i, one_mul]
        _ ≤ (L.map fun x => x.ρ i * FluidIn.weight L x i).sum :=
            List.sum_le_sum (fun x hx => by
              have := mul_le_mul_of_nonneg_left (h x hx).1 (wn x hx i); nlinarith)
    · calc (L.map fun x => x.ρ i * FluidIn.weight L x i).sum
          ≤ (L.map fun x => FluidIn.weight L x i * hi).sum :=
            List.sum_le_sum (fun x hx => by
              have := mul_le_mul_of_nonneg_left (h x hx).2 (wn x hx i); nlinarith)
        _ = hi := by rw [list_sum_mul, w1 i, one_mul]

/-- Brine and gas, used in satisfiability examples. -/
noncomputable def exBrine : FluidIn 2 :=
  ⟨Mat.ofReal (fun _ => 2.8) (fun _ => 0) (fun _ => 1030), _, _, fun _ => 0.7, rfl, rfl⟩
noncomputable def exGas : FluidIn 2 :=
  ⟨Mat.ofReal (fun _ => 0.05) (fun _ => 0) (fun _ => 150), _, _, fun _ => 0.3, rfl, rfl⟩

theorem exFluids : ([exBrine, exGas] ≠ []) ∧ (∀ x ∈ [exBrine, exGas], ∀ i, 0 < x.K i) ∧
    (∀ x ∈ [exBrine, exGas], ∀ i, 0 < x.ρ i) ∧ (∀ x ∈ [exBrine, exGas], ∀ i, 0 ≤ x.s i) ∧
    (∀ i, (1e-15:ℝ) ≤ ([exBrine, exGas].map fun x => x.s i).sum) := by
  refine ⟨by simp, ?_, ?_, ?_, ?_⟩ <;> simp [exBrine, exGas] <;> norm_num

/-! ### C18 -/

/-- **C18.** The order of the (fluid, saturation) pairs does not matter: this holds for arbitrary
values, including nan and infinities, and for failing calls too. -/
theorem C18_wood_order_irrelevant (P Q : List (Mat n × Col n)) (h : P.Perm Q) :
    wood (P.map Prod.fst) (P.map Prod.snd) = wood (Q.map Prod.fst) (Q.map Prod.snd) := by
  have hs : sumCols (P.map Prod.snd) = sumCols (Q.map Prod.snd) :=
    sumCols_perm (h.map _)
  unfold wood sumSaturationsToOne
  simp only [hs]
  set g : Col n → Col n := fun s i =>
    (if Num.fin 0 < sumCols (Q.map Prod.snd) i then s i else Num.fin 1e-15) /
      Num.maximum (sumCols (Q.map Prod.snd) i) (Num.fin 1e-15) with hg
  have hd : ∀ R : List (Mat n × Col n), mixDensities (R.map Prod.fst) ((R.map Prod.snd).map g)
      = sumCols (R.map fun p => p.1.density * g p.2) := by
    intro R; unfold mixDensities; rw [List.map_map, List.zip_map', List.map_map]; rfl
  have hb : ∀ R : List (Mat n × Col n), mixBulkModuli (R.map Prod.fst) ((R.map Prod.snd).map g)
      = if R = [] then .error .zeroDivision
        else .ok (c 1 / sumCols (R.map fun p => g p.2 / p.1.bulk)) := by
    intro R; unfold mixBulkModuli; rw [List.map_map, List.zip_map', List.map_map]
    cases R <;> simp; rfl
  rw [hd, hd, hb, hb, sumCols_perm (h.map fun p => p.1.density * g p.2),
    sumCols_perm (h.map fun p => g p.2 / p.1.bulk)]
  have : P = [] ↔ Q = [] := by
    constructor
    · rintro rfl; exact h.nil_eq.symm
    · rintro rfl; exact h.eq_nil
  simp only [this]

example : List.Perm [(1 : ℕ), 2, 3] [3, 1, 2] := by decide

/-- **C18.** Multiplying all saturations of a row by a positive constant does not change the mix. -/
theorem C18_wood_scale_irrelevant (L : List (FluidIn n)) (a : Fin n → ℝ) (ha : ∀ i, 0 < a i)
    (ht : ∀ i, 1e-15 ≤ (L.map fun x => x.s i).sum)
    (hta : ∀ i, 1e-15 ≤ a i * (L.map fun x => x.s i).sum) :
    wood (L.map (·.mat)) (L.map fun x => finC fun i => a i * x.s i)
      = wood (L.map (·.mat)) (L.map fun x => finC x.s) := by
  have key := (C16_partial (L.map (·.s)) (by
    intro i; rw [List.map_map]; exact ht i)).1
  have hsum : ∀ i, ((L.map fun x => fun i => a i * x.s i).map fun s => s i).sum
      = a i * (L.map fun x => x.s i).sum := by
    intro i
    rw [List.map_map]
    have := list_sum_mul L (fun x => x.s i) (a i)
    rw [mul_comm, ← this]
    congr 1; apply List.map_congr_left; intro x _; simp [mul_comm]
  have key2 := (C16_partial (L.map fun x => fun i => a i * x.s i) (by
    intro i; rw [hsum]; exact hta i)).1
  have e : sumSaturationsToOne (L.map fun x => finC fun i => a i * x.s i)
      = sumSaturationsToOne (L.map fun x => finC x.s) := by
    rw [show (L.map fun x => finC fun i => a i * x.s i)
      = (L.map fun x => fun i => a i * x.s i).map finC by rw [List.map_map]; rfl,
      show (L.map fun x => finC x.s) = (L.map (·.s)).map finC by rw [List.map_map]; rfl,
      key, key2, List.map_map, List.map_map]
    apply List.map_congr_left
    intro x _
    funext i
    simp only [Function.comp, finC_apply, Num.fin_inj, hsum]
    rw [List.map_map]
    exact mul_div_mul_left _ _ (ha i).ne'
  unfold wood
  simp only [e]

example : ∀ _ : Fin 2, (0:ℝ) < 100 ∧ (1e-15:ℝ) ≤ 100 * 1 := by intro _; norm_num

/-! ### C19 -/

/-- **C19.** Brie mixing of non-empty lists of liquids and gases, with total liquid saturation
`t ∈ [0,1]` and exponent > 0: it is the gas mix where `t = 0`, the liquid mix where `t = 1`, its bulk
modulus lies between that of the gas and the liquid mix, and its density between theirs. -/
theorem C19_brie_end_points_and_range {L G : List (FluidIn n)} (hL : L ≠ []) (hG : G ≠ [])
    (hLK : ∀ x ∈ L, ∀ i, 0 < x.K i) (hLρ : ∀ x ∈ L, ∀ i, 0 < x.ρ i) (hLs : ∀ x ∈ L, ∀ i, 0 ≤ x.s i)
    (hGK : ∀ x ∈ G, ∀ i, 0 < x.K i) (hGρ : ∀ x ∈ G, ∀ i, 0 < x.ρ i) (hGs : ∀ x ∈ G, ∀ i, 0 ≤ x.s i)
    (ht : ∀ i, (L.map fun x => x.s i).sum ≤ 1) (e : Fin n → ℝ) (he : ∀ i, 0 < e i) :
    ∃ liquid gas m Kl ρl Kg ρg K ρ,
      wood (L.map (·.mat)) (L.map fun x => finC x.s) = .ok liquid ∧
      wood (G.map (·.mat)) (G.map fun x => finC x.s) = .ok gas ∧
      brie (L.map (·.mat)) (L.map fun x => finC x.s) (G.map (·.mat)) (G.map fun x => finC x.s)
        (finC e) = .ok m ∧
      liquid.Has Kl (fun _ => 0) ρl ∧ gas.Has Kg (fun _ => 0) ρg ∧ m.Has K (fun _ => 0) ρ ∧
      ∀ i, ((L.map fun x => x.s i).sum = 1 → K i = Kl i ∧ ρ i = ρl i) ∧
        ((L.map fun x => x.s i).sum = 0 → K i = Kg i ∧ ρ i = ρg i) ∧
        Between (Kl i) (Kg i) (K i) ∧ Between (ρl i) (ρg i) (ρ i) ∧
        K i = Kg i + (Kl i - Kg i) * (L.map fun x => x.s i).sum ^ (e i) := by
  obtain ⟨hl, pl1, pl2⟩ := FluidIn.wood_fin hL hLK hLρ hLs
  obtain ⟨hg, pg1, pg2⟩ := FluidIn.wood_fin hG hGK hGρ hGs
  unfold FluidIn.wood at hl hg
  set Kl : Fin n → ℝ := fun i => ((L.map fun x => FluidIn.weight L x i / x.K i).sum)⁻¹ with hKl
  set ρl : Fin n → ℝ := fun i => (L.map fun x => x.ρ i * FluidIn.weight L x i).sum with hρl
  set Kg : Fin n → ℝ := fun i => ((G.map fun x => FluidIn.weight G x i / x.K i).sum)⁻¹ with hKg
  set ρg : Fin n → ℝ := fun i => (G.map fun x => x.ρ i * FluidIn.weight G x i).sum with hρg
  set t : Fin n → ℝ := fun i => (L.map fun x => x.s i).sum with htdef
  have t0 : ∀ i, 0 ≤ t i := fun i => List.sum_nonneg (fun a ha => by
    obtain ⟨x, hx, rfl⟩ := List.mem_map.mp ha; exact hLs x hx i)
  have t1 : ∀ i, t i ≤ 1 := ht
  have pKl : ∀ i, 0 < Kl i := fun i => inv_pos.mpr (pl1 i)
  have pKg : ∀ i, 0 < Kg i := fun i => inv_pos.mpr (pg1 i)
  have te0 : ∀ i, 0 ≤ t i ^ e i := fun i => Real.rpow_nonneg (t0 i) _
  have te1 : ∀ i, t i ^ e i ≤ 1 := fun i => Real.rpow_le_one (t0 i) (t1 i) (he i).le
  have bK : ∀ i, Between (Kl i) (Kg i) ((Kl i - Kg i) * t i ^ e i + Kg i) := fun i => by
    have h0 := te0 i; have h1 := te1 i
    constructor
    · have := min_le_left (Kl i) (Kg i); have := min_le_right (Kl i) (Kg i); nlinarith
    · have := le_max_left (Kl i) (Kg i); have := le_max_right (Kl i) (Kg i); nlinarith
  have bρ : ∀ i, Between (ρl i) (ρg i) (ρl i * t i + ρg i * (1 - t i)) := fun i => by
    have h0 := t0 i; have h1 := t1 i
    constructor
    · have := min_le_left (ρl i) (ρg i); have := min_le_right (ρl i) (ρg i); nlinarith
    · have := le_max_left (ρl i) (ρg i); have := le_max_right (ρl i) (ρg i); nlinarith
  have hb : brie (L.map (·.mat)) (L.map fun x => finC x.s) (G.map (·.mat))
      (G.map fun x => finC x.s) (finC e) = .ok (Mat.ofReal
        (fun i => (Kl i - Kg i) * t i ^ e i + Kg i) (fun _ => 0)
        (fun i => ρl i * t i + ρg i * (1 - t i))) := by
    unfold brie
    rw [failIf_false (by simp), bind_ok, failIf_false (by simp), bind_ok,
      if_pos (by simpa using hL), hl, bind_ok, if_pos (by simpa using hG), hg, bind_ok]
    rw [show (L.map fun x => finC x.s) = (L.map fun x => finC (x.s)) from rfl,
      sumCols_fin L (fun x => x.s)]
    dsimp only
    rw [← fluidMaterial_ofReal (fun i => le_trans (le_min (pKl i).le (pKg i).le) (bK i).1)
      (fun i => lt_of_lt_of_le (lt_min (pl2 i) (pg2 i)) (bρ i).1)]
    congr 1
    · funext i
      have hp := Num.fin_pow_nonneg (t0 i) (he i)
      simp only [htdef] at hp
      simp only [Pi.add_apply, Pi.mul_apply, Pi.sub_apply, Mat.ofReal_bulk, finC_apply,
        hp, Num.fin_sub, Num.fin_mul, Num.fin_add, htdef]
    · funext i
      simp [mixDensities, sumCols, htdef]
  refine ⟨_, _, _, Kl, ρl, Kg, ρg, _, _, hl, hg, hb, ⟨rfl, rfl, rfl⟩, ⟨rfl, rfl, rfl⟩,
    ⟨rfl, rfl, rfl⟩, fun i => ⟨?_, ?_, bK i, bρ i, ?_⟩⟩
  · intro h
    have h' : t i = 1 := h
    constructor
    · simp only [h', Real.one_rpow]; ring
    · simp only [h']; ring
  · intro h
    have h' : t i = 0 := h
    constructor
    · simp only [h', Real.zero_rpow (he i).ne']; ring
    · simp only [h']; ring
  · ring

example : ([exBrine] ≠ []) ∧ (∀ i, ([exBrine].map fun x => x.s i).sum ≤ 1) ∧ (0:ℝ) < 3 := by
  simp [exBrine]; norm_num

/-- **C19.** For a liquid stiffer than the gas the Brie modulus `Kg + (Kl-Kg) t^e` grows with the
liquid fraction `t`: two calls on the same fluids, whose liquid and gas mixes agree, are ordered. -/
theorem C19_brie_monotone {L L' G G' : List (FluidIn n)} (hL : L ≠ []) (hG : G ≠ [])
    (hL' : L' ≠ []) (hG' : G' ≠ [])
    (hLK : ∀ x ∈ L, ∀ i, 0 < x.K i) (hLρ : ∀ x ∈ L, ∀ i, 0 < x.ρ i) (hLs : ∀ x ∈ L, ∀ i, 0 ≤ x.s i)
    (hGK : ∀ x ∈ G, ∀ i, 0 < x.K i) (hGρ : ∀ x ∈ G, ∀ i, 0 < x.ρ i) (hGs : ∀ x ∈ G, ∀ i, 0 ≤ x.s i)
    (hLK' : ∀ x ∈ L', ∀ i, 0 < x.K i) (hLρ' : ∀ x ∈ L', ∀ i, 0 < x.ρ i)
    (hLs' : ∀ x ∈ L', ∀ i, 0 ≤ x.s i)
    (hGK' : ∀ x ∈ G', ∀ i, 0 < x.K i) (hGρ' : ∀ x ∈ G', ∀ i, 0 < x.ρ i)
    (hGs' : ∀ x ∈ G', ∀ i, 0 ≤ x.s i)
    (hsameL : wood (L.map (·.mat)) (L.map fun x => finC x.s)
      = wood (L'.map (·.mat)) (L'.map fun x => finC x.s))
    (hsameG : wood (G.map (·.mat)) (G.map fun x => finC x.s)
      = wood (G'.map (·.mat)) (G'.map fun x => finC x.s))
    (htt : ∀ i, (L.map fun x => x.s i).sum ≤ (L'.map fun x => x.s i).sum)
    (ht' : ∀ i, (L'.map fun x => x.s i).sum ≤ 1) (e : Fin n → ℝ) (he : ∀ i, 0 < e i)
    {liquid gas : Mat n} {Kl Kg Gl Gg ρl ρg : Fin n → ℝ}
    (hliq : wood (L.map (·.mat)) (L.map fun x => finC x.s) = .ok liquid) (hlH : liquid.Has Kl Gl ρl)
    (hgas : wood (G.map (·.mat)) (G.map fun x => finC x.s) = .ok gas) (hgH : gas.Has Kg Gg ρg)
    (hstiff : ∀ i, Kg i ≤ Kl i) :
    ∃ m m' K K' ρ ρ',
      brie (L.map (·.mat)) (L.map fun x => finC x.s) (G.map (·.mat)) (G.map fun x => finC x.s)
        (finC e) = .ok m ∧
      brie (L'.map (·.mat)) (L'.map fun x => finC x.s) (G'.map (·.mat)) (G'.map fun x => finC x.s)
        (finC e) = .ok m' ∧
      m.Has K (fun _ => 0) ρ ∧ m'.Has K' (fun _ => 0) ρ' ∧ ∀ i, K i ≤ K' i := by
  obtain ⟨l1, g1, m, a1, b1, a2, b2, K, ρ, q1, q2, q3, p1, p2, p3, p4⟩ :=
    C19_brie_end_points_and_range hL hG hLK hLρ hLs hGK hGρ hGs (fun i => (htt i).trans (ht' i)) e he
  obtain ⟨l1', g1', m', a1', b1', a2', b2', K', ρ', q1', q2', q3', p1', p2', p3', p4'⟩ :=
    C19_brie_end_points_and_range hL' hG' hLK' hLρ' hLs' hGK' hGρ' hGs' ht' e he
  refine ⟨m, m', K, K', ρ, ρ', q3, q3', p3, p3', fun i => ?_⟩
  have el : l1 = liquid := by rw [hliq] at q1; injection q1 with h; exact h.symm
  have eg : g1 = gas := by rw [hgas] at q2; injection q2 with h; exact h.symm
  have el' : l1' = liquid := by rw [← hsameL, hliq] at q1'; injection q1' with h; exact h.symm
  have eg' : g1' = gas := by rw [← hsameG, hgas] at q2'; injection q2' with h; exact h.symm
  subst el eg
  rw [el'] at p1'; rw [eg'] at p2'
  have k1 : a1 = Kl := finC_injective (p1.1.symm.trans hlH.1)
  have k2 : a2 = Kg := finC_injective (p2.1.symm.trans hgH.1)
  have k1' : a1' = Kl := finC_injective (p1'.1.symm.trans hlH.1)
  have k2' : a2' = Kg := finC_injective (p2'.1.symm.trans hgH.1)
  rw [(p4 i).2.2.2.2, (p4' i).2.2.2.2, k1, k2, k1', k2']
  have t0 : 0 ≤ (L.map fun x => x.s i).sum := List.sum_nonneg (fun a ha => by
    obtain ⟨x, hx, rfl⟩ := List.mem_map.mp ha; exact hLs x hx i)
  have := Real.rpow_le_rpow t0 (htt i) (he i).le
  have := mul_le_mul_of_nonneg_left this (sub_nonneg.mpr (hstiff i))
  linarith

/-! ### C20 -/

/-- **C20.** Mismatched list lengths raise `ValueError`, whatever the contents. -/
theorem C20_length_mismatch (F : List (Mat n)) (Fs : List (Col n)) (G : List (Mat n))
    (Gs : List (Col n)) (e : Col n) (h : F.length ≠ Fs.length ∨ G.length ≠ Gs.length) :
    brie F Fs G Gs e = .error .valueError := by
  unfold brie
  by_cases h1 : F.length ≠ Fs.length
  · rw [failIf_true h1]; rfl
  · rw [failIf_false h1, bind_ok, failIf_true (h.resolve_left h1)]; rfl

/-- **C20.** Zero constituents raise `ValueError`. -/
theorem C20_no_constituents (e : Col n) : brie [] [] [] [] e = .error .valueError := by
  simp [brie, failIf_false]

/-- **C20.** Without gases Brie mixing is Wood mixing of the liquids, without liquids Wood mixing of
the gases (arbitrary values; failures agree too). -/
theorem C20_one_phase (F : List (Mat n)) (Fs : List (Col n)) (e : Col n)
    (hne : F ≠ []) (hl : F.length = Fs.length) :
    brie F Fs [] [] e = wood F Fs ∧ brie [] [] F Fs e = wood F Fs := by
  have h0 : F.length ≠ 0 := by simpa using hne
  constructor
  · unfold brie
    rw [failIf_false (by simp [hl]), bind_ok, failIf_false (by simp), bind_ok, if_pos h0]
    cases wood F Fs <;> simp
  · unfold brie
    rw [failIf_false (by simp), bind_ok, failIf_false (by simp [hl]), bind_ok]
    simp [h0]

example : [exBrine.mat] ≠ [] ∧ [exBrine.mat].length = [(c 1 : Col 2)].length := by simp

/-! ### Gassmann -/

/-- Real-valued Gassmann factor used by the code. -/
noncomputable def gFactor (kd km kf phi : ℝ) : ℝ := kd / (km - kd) + kf / ((km - kf) * phi)

theorem gassmann_fin {kd km kf phi : ℝ} (hphi : phi ≠ 0) (hd : kd ≠ km) (hf : kf ≠ km)
    (h0 : 0 ≤ gFactor kd km kf phi) :
    gassmann (.fin kd) (.fin km) (.fin kf) (.fin phi)
      = .ok (.fin (gFactor kd km kf phi / (1 + gFactor kd km kf phi) * km)) := by
  have h1 : km - kd ≠ 0 := sub_ne_zero.mpr (Ne.symm hd)
  have h2 : (km - kf) * phi ≠ 0 := mul_ne_zero (sub_ne_zero.mpr (Ne.symm hf)) hphi
  unfold gassmann
  simp only [Num.fin_eq, hphi, hd, if_false, Num.fin_sub, Num.fin_mul, pyDiv_fin _ h1, pyDiv_fin _ h2,
    bind_ok, Num.fin_add, Num.fin_lt]
  unfold gFactor at h0 ⊢
  rw [failIf_false (not_lt.mpr h0), bind_ok, pyDiv_fin _ (by positivity), bind_ok]
  rfl

theorem gassmann_neg {kd km kf phi : ℝ} (hphi : phi ≠ 0) (hd : kd ≠ km) (hf : kf ≠ km)
    (h0 : gFactor kd km kf phi < 0) :
    gassmann (.fin kd) (.fin km) (.fin kf) (.fin phi) = .error .valueError := by
  have h1 : km - kd ≠ 0 := sub_ne_zero.mpr (Ne.symm hd)
  have h2 : (km - kf) * phi ≠ 0 := mul_ne_zero (sub_ne_zero.mpr (Ne.symm hf)) hphi
  unfold gassmann
  simp only [Num.fin_eq, hphi, hd, if_false, Num.fin_sub, Num.fin_mul, pyDiv_fin _ h1, pyDiv_fin _ h2,
    bind_ok, Num.fin_add, Num.fin_lt]
  unfold gFactor at h0
  rw [failIf_true h0]; rfl

theorem gFactor_nonneg {kd km kf phi : ℝ} (hphi : 0 < phi) (hd0 : 0 ≤ kd) (hd : kd < km)
    (hf0 : 0 ≤ kf) (hf : kf < km) : 0 ≤ gFactor kd km kf phi := by
  unfold gFactor
  have h1 : 0 < km - kd := by linarith
  have h2 : 0 < km - kf := by linarith
  positivity

/-- The admissible rows of the Gassmann properties. -/
structure GassmannRows (dry mineral fluid : Mat n) (φ Kd Gd ρd Km Kf ρf : Fin n → ℝ) : Prop where
  dry : dry.Has Kd Gd ρd
  mineral : mineral.bulk = finC Km
  fluidBulk : fluid.bulk = finC Kf
  fluidDensity : fluid.density = finC ρf
  shear : ∀ i, 0 ≤ Gd i
  densityDry : ∀ i, 0 < ρd i
  densityFluid : ∀ i, 0 ≤ ρf i
  porosity : ∀ i, 0 < φ i
  dry0 : ∀ i, 0 ≤ Kd i
  dry1 : ∀ i, Kd i < Km i
  fluid0 : ∀ i, 0 ≤ Kf i
  fluid1 : ∀ i, Kf i < Km i

theorem substitution_fin {dry mineral fluid : Mat n} {φ Kd Gd ρd Km Kf ρf : Fin n → ℝ}
    (h : GassmannRows dry mineral fluid φ Kd Gd ρd Km Kf ρf) :
    fluidSubstitution dry mineral fluid (finC φ) = .ok (Mat.ofReal
      (fun i => gFactor (Kd i) (Km i) (Kf i) (φ i) / (1 + gFactor (Kd i) (Km i) (Kf i) (φ i)) * Km i)
      Gd (fun i => ρd i + φ i * ρf i)) := by
  have hF := fun i => gFactor_nonneg (h.porosity i) (h.dry0 i) (h.dry1 i) (h.fluid0 i) (h.fluid1 i)
  unfold fluidSubstitution
  rw [vec_ok (fun i => by
    rw [h.dry.1, h.mineral, h.fluidBulk]
    exact gassmann_fin (h.porosity i).ne' (h.dry1 i).ne (h.fluid1 i).ne (hF i)), bind_ok,
    h.dry.2.1, h.dry.2.2, h.fluidDensity, ← mkModuli_ofReal _ h.shear]
  · rfl
  · intro i
    have := h.densityDry i
    have := mul_nonneg (h.porosity i).le (h.densityFluid i)
    linarith
  · intro i
    have h1 := hF i
    have : 0 ≤ Km i := (h.dry0 i).trans (h.dry1 i).le
    positivity

/-- A concrete admissible rock: quartz frame, brine. -/
theorem exGassmann : GassmannRows (Mat.ofReal (fun _ : Fin 2 => 12) (fun _ => 10) (fun _ => 2000))
    (Mat.ofReal (fun _ => 36) (fun _ => 44) (fun _ => 2650))
    (Mat.ofReal (fun _ => 2.8) (fun _ => 0) (fun _ => 1030))
    (fun _ => 0.25) (fun _ => 12) (fun _ => 10) (fun _ => 2000) (fun _ => 36) (fun _ => 2.8)
    (fun _ => 1030) := by
  constructor
  · exact ⟨rfl, rfl, rfl⟩
  · rfl
  · rfl
  · rfl
  all_goals intro _; norm_num

/-! ### C21 -/

/-- **C21.** The saturated bulk modulus satisfies Gassmann's equation and equals the classical closed
form. -/
theorem C21_gassmann_equation {dry mineral fluid : Mat n} {φ Kd Gd ρd Km Kf ρf : Fin n → ℝ}
    (h : GassmannRows dry mineral fluid φ Kd Gd ρd Km Kf ρf) (hKf : ∀ i, 0 < Kf i) :
    ∃ m K G ρ, fluidSubstitution dry mineral fluid (finC φ) = .ok m ∧ m.Has K G ρ ∧ ∀ i,
      K i / (Km i - K i) = Kd i / (Km i - Kd i) + Kf i / (φ i * (Km i - Kf i)) ∧
      K i = Kd i + (1 - Kd i / Km i) ^ 2 /
        (φ i / Kf i + (1 - φ i) / Km i - Kd i / Km i ^ 2) := by
  refine ⟨_, _, _, _, substitution_fin h, Mat.ofReal_has _ _ _, fun i => ?_⟩
  have hF := gFactor_nonneg (h.porosity i) (h.dry0 i) (h.dry1 i) (h.fluid0 i) (h.fluid1 i)
  have hm : 0 < Km i := lt_of_le_of_lt (h.dry0 i) (h.dry1 i)
  have hφ := h.porosity i
  have hd : 0 < Km i - Kd i := sub_pos.mpr (h.dry1 i)
  have hf : 0 < Km i - Kf i := sub_pos.mpr (h.fluid1 i)
  have hkf := hKf i
  constructor
  · have e : gFactor (Kd i) (Km i) (Kf i) (φ i) = Kd i / (Km i - Kd i)
        + Kf i / (φ i * (Km i - Kf i)) := by unfold gFactor; rw [mul_comm (φ i)]
    rw [← e]
    generalize gFactor (Kd i) (Km i) (Kf i) (φ i) = F at hF
    have h1 : (1 + F) ≠ 0 := by positivity
    have : Km i - F / (1 + F) * Km i = Km i / (1 + F) := by field_simp; ring
    rw [this]; field_simp
  · have e : φ i / Kf i + (1 - φ i) / Km i - Kd i / Km i ^ 2
        = (φ i * (Km i - Kf i) * Km i + (Km i - Kd i) * Kf i) / (Kf i * Km i ^ 2) := by
      field_simp; ring
    have hN : 0 < φ i * (Km i - Kf i) * Km i + (Km i - Kd i) * Kf i := by positivity
    have hgf : gFactor (Kd i) (Km i) (Kf i) (φ i)
        = (Kd i * ((Km i - Kf i) * φ i) + Kf i * (Km i - Kd i))
          / ((Km i - Kd i) * ((Km i - Kf i) * φ i)) := by
      unfold gFactor; field_simp
    have hgf1 : 1 + gFactor (Kd i) (Km i) (Kf i) (φ i)
        = (φ i * (Km i - Kf i) * Km i + (Km i - Kd i) * Kf i)
          / ((Km i - Kd i) * ((Km i - Kf i) * φ i)) := by
      rw [hgf]; field_simp; ring
    rw [e, hgf1, hgf, div_div_div_cancel_right₀ (by positivity)]
    rw [div_div_eq_mul_div]
    generalize hNN : φ i * (Km i - Kf i) * Km i + (Km i - Kd i) * Kf i = N at hN
    rw [eq_comm, ← sub_eq_zero]
    field_simp
    rw [← hNN]; ring

/-! ### C22 -/

theorem sat_mono {F F' km : ℝ} (hF : 0 ≤ F) (h : F ≤ F') (hk : 0 ≤ km) :
    F / (1 + F) * km ≤ F' / (1 + F') * km := by
  apply mul_le_mul_of_nonneg_right _ hk
  rw [div_le_div_iff₀ (by linarith) (by linarith)]; nlinarith

/-- **C22.** `Kdry ≤ Ksat ≤ Kmin`. -/
theorem C22_saturated_between {dry mineral fluid : Mat n} {φ Kd Gd ρd Km Kf ρf : Fin n → ℝ}
    (h : GassmannRows dry mineral fluid φ Kd Gd ρd Km Kf ρf) :
    ∃ m K G ρ, fluidSubstitution dry mineral fluid (finC φ) = .ok m ∧ m.Has K G ρ ∧
      ∀ i, Kd i ≤ K i ∧ K i ≤ Km i := by
  refine ⟨_, _, _, _, substitution_fin h, Mat.ofReal_has _ _ _, fun i => ?_⟩
  have hF := gFactor_nonneg (h.porosity i) (h.dry0 i) (h.dry1 i) (h.fluid0 i) (h.fluid1 i)
  have hm : 0 < Km i := lt_of_le_of_lt (h.dry0 i) (h.dry1 i)
  have hd : 0 < Km i - Kd i := sub_pos.mpr (h.dry1 i)
  have hf : 0 < Km i - Kf i := sub_pos.mpr (h.fluid1 i)
  have hφ := h.porosity i
  have hd0 := h.dry0 i
  have hf0 := h.fluid0 i
  constructor
  · have h1 : Kd i / (Km i - Kd i) ≤ gFactor (Kd i) (Km i) (Kf i) (φ i) := by
      unfold gFactor
      have : 0 ≤ Kf i / ((Km i - Kf i) * φ i) := by positivity
      linarith
    have := sat_mono (div_nonneg hd0 hd.le) h1 hm.le
    refine le_trans (le_of_eq ?_) this
    have : 1 + Kd i / (Km i - Kd i) = Km i / (Km i - Kd i) := by field_simp; ring
    rw [this]; field_simp
  · have : gFactor (Kd i) (Km i) (Kf i) (φ i) / (1 + gFactor (Kd i) (Km i) (Kf i) (φ i)) ≤ 1 := by
      rw [div_le_one (by linarith)]; linarith
    nlinarith

/-- **C22.** The saturated modulus does not decrease when the fluid or the dry rock gets stiffer. -/
theorem C22_monotone {dry dry' mineral fluid fluid' : Mat n}
    {φ Kd Gd ρd Km Kf ρf Kd' Gd' ρd' Kf' ρf' : Fin n → ℝ}
    (h : GassmannRows dry mineral fluid φ Kd Gd ρd Km Kf ρf)
    (h' : GassmannRows dry' mineral fluid' φ Kd' Gd' ρd' Km Kf' ρf')
    (hd : ∀ i, Kd i ≤ Kd' i) (hf : ∀ i, Kf i ≤ Kf' i) :
    ∃ m m' K G ρ K' G' ρ', fluidSubstitution dry mineral fluid (finC φ) = .ok m ∧
      fluidSubstitution dry' mineral fluid' (finC φ) = .ok m' ∧ m.Has K G ρ ∧ m'.Has K' G' ρ' ∧
      ∀ i, K i ≤ K' i := by
  refine ⟨_, _, _, _, _, _, _, _, substitution_fin h, substitution_fin h', Mat.ofReal_has _ _ _,
    Mat.ofReal_has _ _ _, fun i => ?_⟩
  have hF := gFactor_nonneg (h.porosity i) (h.dry0 i) (h.dry1 i) (h.fluid0 i) (h.fluid1 i)
  have hm : 0 < Km i := lt_of_le_of_lt (h.dry0 i) (h.dry1 i)
  refine sat_mono hF ?_ hm.le
  unfold gFactor
  have a1 : 0 < Km i - Kd i := sub_pos.mpr (h.dry1 i)
  have a2 : 0 < Km i - Kd' i := sub_pos.mpr (h'.dry1 i)
  have b1 : 0 < Km i - Kf i := sub_pos.mpr (h.fluid1 i)
  have b2 : 0 < Km i - Kf' i := sub_pos.mpr (h'.fluid1 i)
  have hφ := h.porosity i
  have := hd i; have := hf i
  apply add_le_add
  · rw [div_le_div_iff₀ a1 a2]; nlinarith
  · rw [div_le_div_iff₀ (by positivity) (by positivity)]
    have : Kf i * (Km i - Kf' i) ≤ Kf' i * (Km i - Kf i) := by nlinarith
    nlinarith [mul_le_mul_of_nonneg_right this hφ.le]

/-! ### C23 -/

/-- **C23.** Whenever the call succeeds (any values, including nan and infinities): shear modulus and
density are the dry ones plus nothing, respectively plus porosity times fluid density, and rows with
zero porosity get the mineral's bulk modulus. -/
theorem C23_shear_and_density (dry mineral fluid : Mat n) (φ : Col n) (m : Mat n)
    (h : fluidSubstitution dry mineral fluid φ = .ok m) :
    m.shear = dry.shear ∧ (∀ i, m.density i = dry.density i + φ i * fluid.density i) ∧
      (∀ i, φ i = Num.fin 0 → m.bulk i = mineral.bulk i) := by
  unfold fluidSubstitution at h
  obtain ⟨k, hk, hm⟩ := bind_eq_ok.mp h
  obtain ⟨h1, h2, h3, -, -⟩ := C03_given_arguments_kept _ _ _ _ _ m hm
  refine ⟨h2 _ rfl, fun i => by rw [h3 _ rfl]; rfl, fun i hi => ?_⟩
  rw [h1 _ rfl]
  have := vec_ok_iff.mp hk i
  rw [hi] at this
  simp [gassmann] at this
  exact this.symm

/-- **C23.** An empty fluid (bulk modulus 0) leaves the dry bulk modulus unchanged. -/
theorem C23_empty_fluid {dry mineral fluid : Mat n} {φ Kd Gd ρd Km Kf ρf : Fin n → ℝ}
    (h : GassmannRows dry mineral fluid φ Kd Gd ρd Km Kf ρf) (hf : ∀ i, Kf i = 0) :
    ∃ m, fluidSubstitution dry mineral fluid (finC φ) = .ok m ∧ m.bulk = dry.bulk ∧
      m.shear = dry.shear := by
  refine ⟨_, substitution_fin h, ?_, h.dry.2.1.symm⟩
  rw [h.dry.1]
  funext i
  have hd : 0 < Km i - Kd i := sub_pos.mpr (h.dry1 i)
  have hm : 0 < Km i := lt_of_le_of_lt (h.dry0 i) (h.dry1 i)
  simp only [Mat.ofReal_bulk, finC_apply, Num.fin_inj, gFactor, hf i, zero_div, add_zero]
  have : 1 + Kd i / (Km i - Kd i) = Km i / (Km i - Kd i) := by field_simp; ring
  rw [this]; field_simp

/-- **C23, an empty fluid, on every input.** Whatever the (finite) moduli, if the call succeeds then with an empty fluid
the bulk modulus of every row with porosity is the dry one. -/
theorem C23_empty_fluid_any (dry mineral fluid m : Mat n) (φ : Col n)
    (h : fluidSubstitution dry mineral fluid φ = .ok m) (i : Fin n) {Kd Km p : ℝ} (hd : dry.bulk i = Num.fin Kd)
    (hm : mineral.bulk i = Num.fin Km) (hf : fluid.bulk i = Num.fin 0) (hφ : φ i = Num.fin p) (hp : p ≠ 0) :
    m.bulk i = dry.bulk i := by
  unfold fluidSubstitution at h
  obtain ⟨k, hk, h⟩ := bind_eq_ok.mp h
  obtain ⟨-, -, hb, -⟩ := mkMaterial_ok h
  simp only [Option.some.injEq, reduceCtorEq, false_and, or_false] at hb
  have hi := vec_ok_iff.mp hk i
  rw [hd, hm, hf, hφ] at hi
  rw [← hb, hd]
  unfold gassmann at hi
  have e0 : ¬ Num.eq (Num.fin p) (Num.fin 0) := hp
  rw [if_neg e0] at hi
  by_cases hkm : Kd = Km
  · rw [if_pos (show Num.eq (Num.fin Kd) (Num.fin Km) from hkm)] at hi
    injection hi with hi
    rw [← hi, hkm]
  · rw [if_neg (show ¬ Num.eq (Num.fin Kd) (Num.fin Km) from hkm)] at hi
    obtain ⟨a, ha, hi⟩ := bind_eq_ok.mp hi
    obtain ⟨b, hb', hi⟩ := bind_eq_ok.mp hi
    dsimp only at hi
    obtain ⟨-, hi⟩ := failIf_bind_ok.mp hi
    obtain ⟨q, hq, hi⟩ := bind_eq_ok.mp hi
    injection hi with hr
    have h1 : Km - Kd ≠ 0 := sub_ne_zero.mpr (Ne.symm hkm)
    unfold pyDiv at ha hb' hq
    simp only [Num.fin_sub, Num.fin_mul, sub_zero] at ha hb'
    split_ifs at ha with ha0
    split_ifs at hb' with hb0
    split_ifs at hq with hq0
    injection ha with ha
    injection hb' with hb'
    injection hq with hq
    have h2 : Km * p ≠ 0 := fun h0 => hb0 (by rw [h0])
    rw [Num.fin_div _ h1] at ha
    rw [Num.fin_div _ h2, zero_div] at hb'
    subst ha hb'
    have e1 : 1 + (Kd / (Km - Kd) + 0) = Km / (Km - Kd) := by field_simp; ring
    have h3 : Km ≠ 0 := fun h0 => h2 (by rw [h0, zero_mul])
    rw [Num.fin_add, Num.fin_add, e1, Num.fin_div _ (div_ne_zero h3 h1)] at hq
    rw [← hr, ← hq, Num.fin_mul]
    congr 1
    field_simp
    ring

/-! ### C24 -/

/-- **C24.** Fluid substitution is reversible: the dry modulus is recovered from the saturated one by
the inverse formula, so equal saturated moduli mean equal dry moduli. -/
theorem C24_invertible {dry mineral fluid : Mat n} {φ Kd Gd ρd Km Kf ρf : Fin n → ℝ}
    (h : GassmannRows dry mineral fluid φ Kd Gd ρd Km Kf ρf) :
    ∃ m K G ρ, fluidSubstitution dry mineral fluid (finC φ) = .ok m ∧ m.Has K G ρ ∧ ∀ i,
      Kd i = (K i / (Km i - K i) - Kf i / (φ i * (Km i - Kf i))) /
        (1 + (K i / (Km i - K i) - Kf i / (φ i * (Km i - Kf i)))) * Km i := by
  refine ⟨_, _, _, _, substitution_fin h, Mat.ofReal_has _ _ _, fun i => ?_⟩
  have hF := gFactor_nonneg (h.porosity i) (h.dry0 i) (h.dry1 i) (h.fluid0 i) (h.fluid1 i)
  have hm : 0 < Km i := lt_of_le_of_lt (h.dry0 i) (h.dry1 i)
  have hd : 0 < Km i - Kd i := sub_pos.mpr (h.dry1 i)
  have e : gFactor (Kd i) (Km i) (Kf i) (φ i) = Kd i / (Km i - Kd i)
        + Kf i / (φ i * (Km i - Kf i)) := by unfold gFactor; rw [mul_comm (φ i)]
  have e1 : ∀ F : ℝ, 0 ≤ F → F / (1 + F) * Km i / (Km i - F / (1 + F) * Km i) = F := by
    intro F hF
    have h1 : (1 + F) ≠ 0 := by positivity
    have : Km i - F / (1 + F) * Km i = Km i / (1 + F) := by field_simp; ring
    rw [this]; field_simp
  rw [e1 _ hF, e, add_sub_cancel_right]
  have : 1 + Kd i / (Km i - Kd i) = Km i / (Km i - Kd i) := by field_simp; ring
  rw [this]; field_simp

theorem C24_injective {dry dry' mineral fluid : Mat n}
    {φ Kd Gd ρd Km Kf ρf Kd' Gd' ρd' : Fin n → ℝ}
    (h : GassmannRows dry mineral fluid φ Kd Gd ρd Km Kf ρf)
    (h' : GassmannRows dry' mineral fluid φ Kd' Gd' ρd' Km Kf ρf) {m m' : Mat n}
    (hm : fluidSubstitution dry mineral fluid (finC φ) = .ok m)
    (hm' : fluidSubstitution dry' mineral fluid (finC φ) = .ok m')
    (he : m.bulk = m'.bulk) : dry.bulk = dry'.bulk := by
  obtain ⟨m1, K, G, ρ, q, hh, hK⟩ := C24_invertible h
  obtain ⟨m1', K', G', ρ', q', hh', hK'⟩ := C24_invertible h'
  rw [hm] at q; injection q with q; subst q
  rw [hm'] at q'; injection q' with q'; subst q'
  have : K = K' := finC_injective (by rw [← hh.1, ← hh'.1, he])
  subst this
  rw [h.dry.1, h'.dry.1]
  funext i
  simp only [finC_apply, Num.fin_inj]
  rw [hK i, hK' i]

/-! ### C25 -/

/-- **C25, exact behaviour for a dry rock stiffer than its mineral:** the call raises `ValueError`
exactly when in some row the (negative) dry term outweighs the fluid term; in particular it always
does for an empty fluid.  (Missing for the full property: rejection in the remaining cases, which the
code accepts, see `C25_refuted`.) -/
theorem C25_partial {dry mineral fluid : Mat n} {φ Kd Gd ρd Km Kf ρf : Fin n → ℝ}
    (hdry : dry.Has Kd Gd ρd) (hmin : mineral.bulk = finC Km) (hfb : fluid.bulk = finC Kf)
    (hfd : fluid.density = finC ρf) (hG : ∀ i, 0 ≤ Gd i) (hρd : ∀ i, 0 < ρd i)
    (hρf : ∀ i, 0 ≤ ρf i) (hφ : ∀ i, 0 < φ i) (hm : ∀ i, 0 < Km i) (hd : ∀ i, Km i < Kd i)
    (hf1 : ∀ i, Kf i < Km i) :
    (fluidSubstitution dry mineral fluid (finC φ) = .error .valueError ↔
      ∃ i, Kf i / ((Km i - Kf i) * φ i) < Kd i / (Kd i - Km i)) ∧
    ((∃ i, Kf i = 0) → fluidSubstitution dry mineral fluid (finC φ) = .error .valueError) := by
  have e : ∀ i, gFactor (Kd i) (Km i) (Kf i) (φ i)
      = Kf i / ((Km i - Kf i) * φ i) - Kd i / (Kd i - Km i) := by
    intro i; unfold gFactor; rw [← neg_sub (Kd i), div_neg]; ring
  have hker : ∀ i, gassmann (dry.bulk i) (mineral.bulk i) (fluid.bulk i) (finC φ i)
      = if Kf i / ((Km i - Kf i) * φ i) < Kd i / (Kd i - Km i) then .error .valueError
        else .ok (.fin (gFactor (Kd i) (Km i) (Kf i) (φ i)
          / (1 + gFactor (Kd i) (Km i) (Kf i) (φ i)) * Km i)) := by
    intro i
    rw [hdry.1, hmin, hfb]
    split
    · rename_i h
      exact gassmann_neg (hφ i).ne' (hd i).ne' (hf1 i).ne (by rw [e i]; linarith)
    · rename_i h
      exact gassmann_fin (hφ i).ne' (hd i).ne' (hf1 i).ne (by rw [e i]; linarith)
  have main : fluidSubstitution dry mineral fluid (finC φ) = .error .valueError ↔
      ∃ i, Kf i / ((Km i - Kf i) * φ i) < Kd i / (Kd i - Km i) := by
    constructor
    · intro herr
      by_contra hc
      push Not at hc
      unfold fluidSubstitution at herr
      rw [vec_ok (fun i => by rw [hker i, if_neg (not_lt.mpr (hc i))]), bind_ok, hdry.2.1, hdry.2.2,
        hfd] at herr
      have := mkModuli_ofReal (K := fun i => gFactor (Kd i) (Km i) (Kf i) (φ i)
          / (1 + gFactor (Kd i) (Km i) (Kf i) (φ i)) * Km i) (G := Gd)
          (ρ := fun i => ρd i + φ i * ρf i) (fun i => by
            have h0 : 0 ≤ gFactor (Kd i) (Km i) (Kf i) (φ i) := by rw [e i]; linarith [hc i]
            have := hm i; positivity) hG (fun i => by
            have := hρd i; have := mul_nonneg (hφ i).le (hρf i); linarith)
      rw [show (finC ρd + finC φ * finC ρf : Col n) = finC (fun i => ρd i + φ i * ρf i) by
        funext i; simp] at herr
      have h2 := this.symm.trans herr
      cases h2
    · rintro ⟨i, hi⟩
      unfold fluidSubstitution
      cases hv : vec fun i => gassmann (dry.bulk i) (mineral.bulk i) (fluid.bulk i) (finC φ i) with
      | ok r =>
        have := vec_ok_iff.mp hv i
        rw [hker i, if_pos hi] at this; cases this
      | error e' =>
        obtain ⟨j, hj⟩ := vec_error hv
        rw [hker j] at hj
        split at hj
        · injection hj with hj; subst hj; rfl
        · cases hj
  refine ⟨main, ?_⟩
  rintro ⟨i, hi⟩
  refine main.mpr ⟨i, ?_⟩
  rw [hi, zero_div]
  exact div_pos ((hm i).trans (hd i)) (by linarith [hd i])

example : (0:ℝ) < 36 ∧ (36:ℝ) < 40 ∧ (2.8:ℝ) < 36
    ∧ (2.8:ℝ) / ((36 - 2.8) * 0.3) < 40 / (40 - 36) := by norm_num

/-- **C25 is false of the code:** a dry rock (K = 80) stiffer than its mineral (K = 40) is accepted
with a stiff fluid in little pore space, and the saturated rock is even softer than the dry one. -/
theorem C25_refuted :
    ∃ (dry mineral fluid m : Mat 1) (k : ℝ), dry.bulk = c 80 ∧ mineral.bulk = c 40 ∧
      fluid.bulk = c 20 ∧ fluidSubstitution dry mineral fluid (c (1/5)) = .ok m ∧
      m.bulk = c k ∧ k < 40 := by
  refine ⟨Mat.ofReal (fun _ => 80) (fun _ => 10) (fun _ => 2000),
    Mat.ofReal (fun _ => 40) (fun _ => 44) (fun _ => 2650),
    Mat.ofReal (fun _ => 20) (fun _ => 0) (fun _ => 1000),
    Mat.ofReal (fun _ => 30) (fun _ => 10) (fun _ => 2200), 30, rfl, rfl, rfl, ?_, rfl, by norm_num⟩
  unfold fluidSubstitution
  rw [vec_ok (r := finC fun _ => 30) (fun i => ?_), bind_ok]
  · rw [← mkModuli_ofReal (by intro _; norm_num) (by intro _; norm_num) (by intro _; norm_num)]
    congr 1; funext i; simp; norm_num
  · have := gassmann_fin (kd := 80) (km := 40) (kf := 20) (phi := 1/5) (by norm_num) (by norm_num)
      (by norm_num) (by unfold gFactor; norm_num)
    refine Eq.trans this ?_
    simp only [finC_apply]
    congr 2
    unfold gFactor; norm_num

end OPE
