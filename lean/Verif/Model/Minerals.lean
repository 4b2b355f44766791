import Verif.Model.HashinShtrikman
import Verif.Model.Fluid

/-!
# config/constituent.py, config/minerals.py
-/

namespace OPE

open Classical

variable {n : ℕ}

/-- constituent.py:49-57 validator `fraction_is_ratio` (pydantic runs it on construction and, because
of `validate_assignment`, on every assignment of `fraction`). -/
noncomputable def fractionIsRatio (f : Col n) : Except Err Unit := do
  failIf (∃ i, f i < Num.fin (-1e-5)) .valueError
  failIf (∃ i, Num.fin (1 + 1e-5) < f i) .valueError

/-- The given fractions of a list (`c.fraction for c in constituents if c.fraction is not None`). -/
def givenFractions (fs : List (Option (Col n))) : List (Col n) := fs.filterMap id

/-- constituent.py:70-89 `fix_one_fraction`; the constituents are represented by their fractions
(materials are not touched), `none` = omitted.  Result: the fractions after the call.
With one omission all fractions are present afterwards. -/
noncomputable def fixOneFraction (fs : List (Option (Col n))) :
    Except Err (List (Option (Col n))) := do
  let sumRest := sumCols (givenFractions fs)
  failIf (∃ i, Num.fin (1 + 1e-5) < sumRest i) .valueError
  if fs.count none = 0 then
    .ok fs
  else do
    failIf (fs.count none > 1) .valueError
    let missing : Col n := c 1 - sumRest
    fractionIsRatio missing              -- `validate_assignment`
    .ok (fs.map fun f => some (f.getD missing))

/-- A mineral constituent: material and (possibly omitted) fraction.  Simplification: only explicit
materials (`ArbitraryMaterial`); a fluid type in the mineral list has no moduli and raises
`AttributeError` when mixed. -/
structure MineralIn (n : ℕ) where
  mat : Mat n
  fraction : Option (Col n)

/-- `np.isclose(x, 1.0, atol=1e-5)` (rtol is numpy's default 1e-5): `|x-1| <= 1e-5 + 1e-5*|1|`. -/
noncomputable def isCloseToOne (x : Num) : Prop :=
  ∃ r : ℝ, x = Num.fin r ∧ |r - 1| ≤ 1e-5 + 1e-5 * |1|

/-- minerals.py:46-49 `__post_init_post_parse__` after the field validators
(constituent.py:49-57; `conlist(min_items=1)` minerals.py:29): the accepted list with its fractions. -/
noncomputable def mkMinerals (cs : List (MineralIn n)) : Except Err (List (Mat n × Col n)) := do
  -- each constituent was validated when it was built
  cs.forM fun x => match x.fraction with
    | none => (.ok () : Except Err Unit)
    | some f => fractionIsRatio f
  failIf (cs.length < 1) .valueError
  let fs ← fixOneFraction (cs.map (·.fraction))
  let fs := givenFractions fs
  failIf (¬ ∀ i, isCloseToOne (sumCols fs i)) .valueError
  .ok ((cs.map (·.mat)).zip fs)

/-- minerals.py:60-64 kernel `part_of_total`. -/
noncomputable def partOfTotal (fraction total : Num) : Num :=
  if Num.eq total (Num.fin 0) then Num.fin 1 else fraction / total

/-- minerals.py:73-76 together with constituent.py:59-67: the mix is wrapped as a new constituent from
its density, bulk and shear modulus, and the velocities are derived again (`set_defaults`; the checks
of `Material.__init__` are not run for `ArbitraryMaterial`). -/
noncomputable def rewrap (m : Mat n) : Mat n :=
  ⟨m.bulk, m.shear, m.density, calcVp m.bulk m.shear m.density, calcVs m.shear m.density⟩

/-- minerals.py:66-77, the loop of `as_mixture` from a current mix `m` of total fraction `t`. -/
noncomputable def mixLoop (m : Mat n) (t : Col n) : List (Mat n × Col n) → Except Err (Mat n)
  | [] => .ok m
  | (m', f') :: rest => do
    let subTotal := t + f'
    let fraction : Col n := fun i => partOfTotal (t i) (subTotal i)
    let newMix ← hsw m m' fraction "lower"
    fractionIsRatio subTotal             -- the new constituent's fraction is validated
    mixLoop (rewrap newMix) subTotal rest

/-- minerals.py:51-77 `as_mixture`. -/
noncomputable def mineralMixture : List (Mat n × Col n) → Except Err (Mat n)
  | [] => .error .valueError
  | (m, f) :: rest => mixLoop m f rest

/-! ## Evaluation on finite numbers -/

/-- A positive mineral with a finite fraction, with its numbers. -/
structure PosMineral (n : ℕ) where
  mat : Mat n
  K : Fin n → ℝ
  G : Fin n → ℝ
  R : Fin n → ℝ
  f : Fin n → ℝ
  has : mat.Has K G R
  bulk : ∀ i, 0 < K i
  shear : ∀ i, 0 < G i
  density : ∀ i, 0 < R i
  fraction : ∀ i, 0 ≤ f i

/-- One row of a mineral. -/
structure RowMin where
  K : ℝ
  G : ℝ
  R : ℝ
  f : ℝ

/-- Row `i` of a mineral. -/
def PosMineral.row (x : PosMineral n) (i : Fin n) : RowMin := ⟨x.K i, x.G i, x.R i, x.f i⟩

/-- One mixing step on one row. -/
noncomputable def mixStep (s x : RowMin) : RowMin :=
  let t := s.f + x.f
  let r := if t = 0 then 1 else s.f / t
  ⟨hsReal s.K x.K (4/3 * min s.G x.G) r, hsReal s.G x.G (zShear (min s.K x.K) (min s.G x.G)) r,
    r * s.R + (1 - r) * x.R, t⟩

/-- `as_mixture` of a list of minerals. -/
noncomputable def PosMineral.mixture (L : List (PosMineral n)) : Except Err (Mat n) :=
  mineralMixture (L.map fun x => (x.mat, finC x.f))

/-- A row with positive entries and non-negative fraction. -/
def RowMin.Ok (x : RowMin) : Prop := 0 < x.K ∧ 0 < x.G ∧ 0 < x.R ∧ 0 ≤ x.f

theorem PosMineral.row_ok (x : PosMineral n) (i : Fin n) : (x.row i).Ok :=
  ⟨x.bulk i, x.shear i, x.density i, x.fraction i⟩

theorem ratio_range {a b : ℝ} (ha : 0 ≤ a) (hb : 0 ≤ b) :
    0 ≤ (if a + b = 0 then 1 else a / (a + b)) ∧ (if a + b = 0 then (1:ℝ) else a / (a + b)) ≤ 1 := by
  split
  · norm_num
  · exact ⟨div_nonneg ha (add_nonneg ha hb),
      div_le_one_of_le₀ (by linarith) (add_nonneg ha hb)⟩

theorem mixStep_bounds {s x : RowMin} (hs : s.Ok) (hx : x.Ok) :
    (min s.K x.K ≤ (mixStep s x).K ∧ (mixStep s x).K ≤ max s.K x.K) ∧
    (min s.G x.G ≤ (mixStep s x).G ∧ (mixStep s x).G ≤ max s.G x.G) ∧
    (min s.R x.R ≤ (mixStep s x).R ∧ (mixStep s x).R ≤ max s.R x.R) := by
  obtain ⟨h1, h2, h3, h4⟩ := hs
  obtain ⟨k1, k2, k3, k4⟩ := hx
  obtain ⟨r0, r1⟩ := ratio_range h4 k4
  have z1 : 0 < 4/3 * min s.G x.G := mul_pos (by norm_num) (lt_min h2 k2)
  have z2 : 0 ≤ zShear (min s.K x.K) (min s.G x.G) :=
    zShear_nonneg (lt_min h1 k1).le (lt_min h2 k2).le
  unfold mixStep
  dsimp only
  set r : ℝ := if s.f + x.f = 0 then 1 else s.f / (s.f + x.f) with hr
  refine ⟨hsReal_between (by linarith) (by linarith) (hsReal_D (by linarith) (by linarith) r0 r1)
    r0 r1, hsReal_between (by linarith) (by linarith) (hsReal_D (by linarith) (by linarith) r0 r1)
    r0 r1, ?_, ?_⟩
  · have a := min_le_left s.R x.R
    have b := min_le_right s.R x.R
    nlinarith [mul_le_mul_of_nonneg_left a r0, mul_le_mul_of_nonneg_left b (sub_nonneg.mpr r1)]
  · have a := le_max_left s.R x.R
    have b := le_max_right s.R x.R
    nlinarith [mul_le_mul_of_nonneg_left a r0, mul_le_mul_of_nonneg_left b (sub_nonneg.mpr r1)]

theorem mixStep_ok {s x : RowMin} (hs : s.Ok) (hx : x.Ok) : (mixStep s x).Ok := by
  have h := mixStep_bounds hs hx
  exact ⟨lt_of_lt_of_le (lt_min hs.1 hx.1) h.1.1, lt_of_lt_of_le (lt_min hs.2.1 hx.2.1) h.2.1.1,
    lt_of_lt_of_le (lt_min hs.2.2.1 hx.2.2.1) h.2.2.1, add_nonneg hs.2.2.2 hx.2.2.2⟩

/-- Mixing the rest of the rows into a current row. -/
noncomputable def mixRows (s : RowMin) (l : List RowMin) : RowMin := l.foldl mixStep s

theorem mixRows_ok {s : RowMin} {l : List RowMin} (hs : s.Ok) (hl : ∀ x ∈ l, x.Ok) :
    (mixRows s l).Ok := by
  induction l generalizing s with
  | nil => exact hs
  | cons x l ih =>
    exact ih (mixStep_ok hs (hl x List.mem_cons_self)) (fun y hy => hl y (List.mem_cons_of_mem _ hy))

theorem mixRows_total (s : RowMin) (l : List RowMin) :
    (mixRows s l).f = s.f + (l.map (·.f)).sum := by
  induction l generalizing s with
  | nil => simp [mixRows]
  | cons x l ih =>
    show (mixRows (mixStep s x) l).f = _
    rw [ih]; simp [mixStep, add_assoc]

theorem fractionIsRatio_fin {f : Fin n → ℝ} (h0 : ∀ i, 0 ≤ f i) (h1 : ∀ i, f i ≤ 1 + 1e-5) :
    fractionIsRatio (finC f) = .ok () := by
  unfold fractionIsRatio
  rw [failIf_false, bind_ok, failIf_false]
  · rintro ⟨i, hi⟩; simp only [finC_apply, Num.fin_lt] at hi; exact absurd hi (not_lt.mpr (h1 i))
  · rintro ⟨i, hi⟩; simp only [finC_apply, Num.fin_lt] at hi; have := h0 i; norm_num at hi; linarith

theorem mkModuli_rewrap {b g d : Col n} {m : Mat n} (h : mkModuli b g d = .ok m) : rewrap m = m := by
  unfold mkModuli mkMaterial setDefaults at h
  simp only [bind_ok] at h
  obtain ⟨-, -, h⟩ := bind_eq_ok.mp h
  injection h with h
  subst h; rfl

/-- The loop on positive minerals: in every row it computes `mixRows`. -/
theorem mixLoop_fin (L : List (PosMineral n)) (m : Mat n) (K G R t : Fin n → ℝ) (hm : m.Has K G R)
    (hs : ∀ i, (⟨K i, G i, R i, t i⟩ : RowMin).Ok)
    (ht : ∀ i, t i + ((L.map fun x => x.f i).sum) ≤ 1 + 1e-5) :
    ∃ r, mixLoop m (finC t) (L.map fun x => (x.mat, finC x.f)) = .ok r ∧
      r.Has (fun i => (mixRows ⟨K i, G i, R i, t i⟩ (L.map fun x => x.row i)).K)
        (fun i => (mixRows ⟨K i, G i, R i, t i⟩ (L.map fun x => x.row i)).G)
        (fun i => (mixRows ⟨K i, G i, R i, t i⟩ (L.map fun x => x.row i)).R) := by
  induction L generalizing m K G R t with
  | nil => exact ⟨m, rfl, hm⟩
  | cons x L ih =>
    have hfrac : (fun i => partOfTotal (finC t i) ((finC t + finC x.f : Col n) i))
        = finC fun i => if t i + x.f i = 0 then 1 else t i / (t i + x.f i) := by
      funext i
      simp only [partOfTotal, Pi.add_apply, finC_apply, Num.fin_add, Num.fin_eq]
      by_cases h : t i + x.f i = 0
      · simp [h]
      · simp [h]
    have hadd : (finC t + finC x.f : Col n) = finC fun i => t i + x.f i := by funext i; simp
    have r0 := fun i => (ratio_range (hs i).2.2.2 (x.fraction i)).1
    have r1 := fun i => (ratio_range (hs i).2.2.2 (x.fraction i)).2
    have hK := fun i => (hs i).1
    have hG := fun i => (hs i).2.1
    have hR := fun i => (hs i).2.2.1
    have step := fun i => mixStep_ok (hs i) (x.row_ok i)
    have hw : hsw m x.mat (finC fun i => if t i + x.f i = 0 then 1 else t i / (t i + x.f i)) "lower"
        = .ok (Mat.ofReal (fun i => (mixStep ⟨K i, G i, R i, t i⟩ (x.row i)).K)
          (fun i => (mixStep ⟨K i, G i, R i, t i⟩ (x.row i)).G)
          (fun i => (mixStep ⟨K i, G i, R i, t i⟩ (x.row i)).R)) := by
      have pG : ∀ i, 0 < min (G i) (x.G i) := fun i => lt_min (hG i) (x.shear i)
      have pK : ∀ i, 0 < min (K i) (x.K i) := fun i => lt_min (hK i) (x.bulk i)
      have z2 : ∀ i, 0 ≤ zShear (min (K i) (x.K i)) (min (G i) (x.G i)) :=
        fun i => zShear_nonneg (pK i).le (pG i).le
      rw [hsw_fin hm x.has (.inl rfl) r0 r1]
      · simp only [pick, if_true]
        exact mkModuli_ofReal (fun i => (step i).1.le) (fun i => (step i).2.1.le)
          (fun i => (step i).2.2.1)
      · intro i; simp only [pick, if_true]; have := pK i; have := pG i; positivity
      · intro i; simp only [pick, if_true]; have := pG i; have := hK i; positivity
      · intro i; simp only [pick, if_true]
        exact hsReal_D (by have := pG i; have := hK i; positivity)
          (by have := pG i; have := x.bulk i; positivity) (r0 i) (r1 i)
      · intro i; simp only [pick, if_true]; have := z2 i; have := hG i; linarith
      · intro i; simp only [pick, if_true]
        exact hsReal_D (by have := z2 i; have := hG i; linarith)
          (by have := z2 i; have := x.shear i; linarith) (r0 i) (r1 i)
    have hsum : ∀ i, (t i + x.f i) + ((L.map fun x => x.f i).sum) ≤ 1 + 1e-5 := fun i => by
      have := ht i
      simp only [List.map_cons, List.sum_cons] at this
      linarith
    have hnn : ∀ i, 0 ≤ (L.map fun x => x.f i).sum := fun i => by
      apply List.sum_nonneg
      intro a ha
      obtain ⟨y, -, rfl⟩ := List.mem_map.mp ha
      exact y.fraction i
    obtain ⟨r, hr, hr2⟩ := ih (Mat.ofReal (fun i => (mixStep ⟨K i, G i, R i, t i⟩ (x.row i)).K)
          (fun i => (mixStep ⟨K i, G i, R i, t i⟩ (x.row i)).G)
          (fun i => (mixStep ⟨K i, G i, R i, t i⟩ (x.row i)).R)) _ _ _ (fun i => t i + x.f i)
      (Mat.ofReal_has _ _ _) (fun i => step i) hsum
    refine ⟨r, ?_, hr2⟩
    simp only [List.map_cons, mixLoop]
    rw [hfrac, hw, bind_ok, hadd, fractionIsRatio_fin
      (fun i => add_nonneg (hs i).2.2.2 (x.fraction i)) (fun i => by have := hnn i; have := hsum i; linarith),
      bind_ok]
    have : rewrap (Mat.ofReal (fun i => (mixStep ⟨K i, G i, R i, t i⟩ (x.row i)).K)
          (fun i => (mixStep ⟨K i, G i, R i, t i⟩ (x.row i)).G)
          (fun i => (mixStep ⟨K i, G i, R i, t i⟩ (x.row i)).R))
        = Mat.ofReal (fun i => (mixStep ⟨K i, G i, R i, t i⟩ (x.row i)).K)
          (fun i => (mixStep ⟨K i, G i, R i, t i⟩ (x.row i)).G)
          (fun i => (mixStep ⟨K i, G i, R i, t i⟩ (x.row i)).R) :=
      mkModuli_rewrap (mkModuli_ofReal (fun i => (step i).1.le) (fun i => (step i).2.1.le)
          (fun i => (step i).2.2.1))
    rw [this]
    exact hr

/-- Row `i` of the mixture of a non-empty list. -/
noncomputable def mixRow (L : List RowMin) : RowMin :=
  match L with
  | [] => ⟨0, 0, 0, 0⟩
  | x :: l => mixRows x l

theorem mixture_fin {L : List (PosMineral n)} (hne : L ≠ [])
    (ht : ∀ i, (L.map fun x => x.f i).sum ≤ 1 + 1e-5) :
    ∃ r, PosMineral.mixture L = .ok r ∧
      r.Has (fun i => (mixRow (L.map fun x => x.row i)).K)
        (fun i => (mixRow (L.map fun x => x.row i)).G)
        (fun i => (mixRow (L.map fun x => x.row i)).R) := by
  cases L with
  | nil => exact absurd rfl hne
  | cons x L =>
    obtain ⟨r, hr, hr2⟩ := mixLoop_fin L x.mat x.K x.G x.R x.f x.has (fun i => x.row_ok i)
      (fun i => by have := ht i; simpa using this)
    exact ⟨r, hr, hr2⟩

end OPE
