import Verif.Model.Minerals
import Verif.Props.Material
import Verif.Props.HashinShtrikman

/-!
# Properties of composite minerals (C33–C37, C76)
-/

namespace OPE

open Classical Spec

variable {n : ℕ}

/-! ### C33 -/

theorem sum_fill {M : Type} [AddCommMonoid M] (fs : List (Option M)) (m : M) :
    (fs.map fun f => f.getD m).sum = (fs.filterMap id).sum + (fs.countP (·.isNone)) • m := by
  induction fs with
  | nil => simp
  | cons f fs ih =>
    cases f with
    | none =>
      simp only [List.map_cons, List.sum_cons, Option.getD_none, ih, List.filterMap_cons, id,
        List.countP_cons, Option.isNone_none, if_true, add_smul, one_smul]
      rw [add_comm m, add_assoc]
    | some x =>
      simp only [List.map_cons, List.sum_cons, Option.getD_some, ih, List.filterMap_cons, id,
        List.countP_cons, Option.isNone_some]
      simp [add_assoc]

theorem count_none_eq {M : Type} (fs : List (Option M)) [BEq (Option M)] [LawfulBEq (Option M)] :
    fs.count none = fs.countP (·.isNone) := by
  rw [List.count_eq_countP]
  apply List.countP_congr
  intro x _
  cases x <;> simp

theorem filterMap_id_of_no_none {M : Type} (fs : List (Option M)) (m : M)
    (h : fs.countP (·.isNone) = 0) : fs.filterMap id = fs.map fun f => f.getD m := by
  induction fs with
  | nil => rfl
  | cons f fs ih =>
    cases f with
    | none => simp at h
    | some x =>
      simp only [List.countP_cons, Option.isNone_some] at h
      have e := ih (by simpa using h)
      show x :: fs.filterMap id = x :: _
      rw [e]

theorem givenFractions_filled (fs : List (Option (Col n))) (m : Col n) :
    givenFractions (fs.map fun f => some (f.getD m)) = fs.map fun f => f.getD m := by
  unfold givenFractions
  induction fs with
  | nil => rfl
  | cons f fs _ => simp

/-- **C33, filling.** One omitted fraction, the others finite with (per row) sum between -1e-5 and
1+1e-5: every given fraction is kept in place, the omitted one becomes `1 - sum of the others`, nothing
is omitted any more, and the fractions now sum to exactly one. -/
theorem C33_one_missing_filled (fs : List (Option (Col n))) (s : Fin n → ℝ)
    (h1 : fs.countP (·.isNone) = 1) (hs : sumCols (givenFractions fs) = finC s)
    (hlo : ∀ i, -1e-5 ≤ s i) (hhi : ∀ i, s i ≤ 1 + 1e-5) :
    ∃ fs', fixOneFraction fs = .ok fs' ∧ fs'.length = fs.length ∧
      (∀ (j : ℕ) (f : Col n), fs[j]? = some (some f) → fs'[j]? = some (some f)) ∧
      (∀ j : ℕ, fs[j]? = some none → fs'[j]? = some (some (finC fun i => 1 - s i))) ∧
      sumCols (givenFractions fs') = c 1 := by
  have hm : (c 1 - finC s : Col n) = finC fun i => 1 - s i := by funext i; simp
  refine ⟨fs.map fun f => some (f.getD (finC fun i => 1 - s i)), ?_, by simp, ?_, ?_, ?_⟩
  · unfold fixOneFraction
    dsimp only
    rw [hs, failIf_false, bind_ok, count_none_eq, h1, if_neg (by norm_num), failIf_false (by norm_num),
      bind_ok, hm]
    · have : fractionIsRatio (finC fun i => 1 - s i) = .ok () := by
        unfold fractionIsRatio
        rw [failIf_false, bind_ok, failIf_false]
        · rintro ⟨i, hi⟩; simp only [finC_apply, Num.fin_lt] at hi; have := hlo i; linarith
        · rintro ⟨i, hi⟩; simp only [finC_apply, Num.fin_lt] at hi; have := hhi i; linarith
      rw [this, bind_ok]
    · rintro ⟨i, hi⟩; simp only [finC_apply, Num.fin_lt] at hi; exact absurd hi (not_lt.mpr (hhi i))
  · intro j f hj; simp [hj]
  · intro j hj; simp [hj]
  · rw [givenFractions_filled, sumCols_eq_sum, sum_fill, h1, one_smul]
    have : (fs.filterMap id).sum = finC s := by rw [← hs, sumCols_eq_sum]; rfl
    rw [this]; funext i; simp

/-- **C33, nothing omitted.** With no omission and (per row) sum at most 1+1e-5 nothing changes. -/
theorem C33_none_missing_kept (fs : List (Option (Col n))) (h0 : fs.countP (·.isNone) = 0)
    (hs : ∀ i, ¬ Num.fin (1 + 1e-5) < sumCols (givenFractions fs) i) :
    fixOneFraction fs = .ok fs := by
  unfold fixOneFraction
  dsimp only
  rw [failIf_false (by rintro ⟨i, hi⟩; exact hs i hi), bind_ok, count_none_eq, h0, if_pos rfl]

/-- **C33, rejections.** A row whose given fractions sum above 1+1e-5, or more than one omission,
raises `ValueError` (any values incl. nan and infinities, any number of constituents). -/
theorem C33_rejected (fs : List (Option (Col n)))
    (h : (∃ i, Num.fin (1 + 1e-5) < sumCols (givenFractions fs) i) ∨ fs.countP (·.isNone) > 1) :
    fixOneFraction fs = .error .valueError := by
  unfold fixOneFraction
  dsimp only
  by_cases hc : ∃ i, Num.fin (1 + 1e-5) < sumCols (givenFractions fs) i
  · rw [failIf_true hc]; rfl
  · rcases h with h | h
    · exact absurd h hc
    · rw [failIf_false hc, bind_ok, count_none_eq, if_neg (by omega), failIf_true h]; rfl

-- [0.25, None, 0.5] becomes [0.25, 0.25, 0.5]
example := C33_one_missing_filled (n := 2) [some (c 0.25), none, some (c 0.5)] (fun _ => 0.75)
  (by simp) (by simp [givenFractions, sumCols]; funext i; norm_num [finC])
  (fun _ => by norm_num) (fun _ => by norm_num)

/-! ### C34, C35 -/

section
variable {L : List (PosMineral n)}

/-- Invariant of the mixing loop for the density. -/
theorem mixRows_density {s : RowMin} {l : List RowMin} (hs : s.Ok) (hl : ∀ x ∈ l, x.Ok) :
    (mixRows s l).f * (mixRows s l).R = s.f * s.R + (l.map fun x => x.f * x.R).sum := by
  induction l generalizing s with
  | nil => simp [mixRows]
  | cons x l ih =>
    have hx := hl x List.mem_cons_self
    have := ih (mixStep_ok hs hx) (fun y hy => hl y (List.mem_cons_of_mem _ hy))
    show (mixRows (mixStep s x) l).f * (mixRows (mixStep s x) l).R = _
    rw [this]
    have key : (mixStep s x).f * (mixStep s x).R = s.f * s.R + x.f * x.R := by
      unfold mixStep
      dsimp only
      by_cases h : s.f + x.f = 0
      · have h1 : s.f = 0 := by have := hs.2.2.2; have := hx.2.2.2; linarith
        have h2 : x.f = 0 := by linarith
        simp [h1, h2]
      · rw [if_neg h]; field_simp; ring
    rw [key]; simp [add_assoc]

/-- Invariant of the mixing loop: any interval containing all moduli contains the mix. -/
theorem mixRows_range {s : RowMin} {l : List RowMin} (hs : s.Ok) (hl : ∀ x ∈ l, x.Ok)
    {a b : ℝ} (p : RowMin → ℝ)
    (hp : ∀ s x : RowMin, s.Ok → x.Ok → min (p s) (p x) ≤ p (mixStep s x) ∧
      p (mixStep s x) ≤ max (p s) (p x))
    (h : ∀ x ∈ s :: l, a ≤ p x ∧ p x ≤ b) : a ≤ p (mixRows s l) ∧ p (mixRows s l) ≤ b := by
  induction l generalizing s with
  | nil => exact h s List.mem_cons_self
  | cons x l ih =>
    have hx := hl x List.mem_cons_self
    refine ih (mixStep_ok hs hx) (fun y hy => hl y (List.mem_cons_of_mem _ hy)) ?_
    intro y hy
    rcases List.mem_cons.mp hy with rfl | hy
    · obtain ⟨h1, h2⟩ := hp s x hs hx
      obtain ⟨h3, h4⟩ := h s List.mem_cons_self
      obtain ⟨h5, h6⟩ := h x (List.mem_cons_of_mem _ List.mem_cons_self)
      exact ⟨(le_min h3 h5).trans h1, h2.trans (max_le h4 h6)⟩
    · exact h y (List.mem_cons_of_mem _ (List.mem_cons_of_mem _ hy))

/-- **C34.** The mixture of any number of positive minerals with non-negative fractions (total at
most 1+1e-5) exists, and in every row with positive total its density is the weighted average
`Σ f ρ / Σ f`. -/
theorem C34_density_weighted_average (hne : L ≠ [])
    (ht : ∀ i, (L.map fun x => x.f i).sum ≤ 1 + 1e-5) :
    ∃ r K G R, PosMineral.mixture L = .ok r ∧ r.Has K G R ∧
      ∀ i, 0 < (L.map fun x => x.f i).sum →
        R i = (L.map fun x => x.f i * x.R i).sum / (L.map fun x => x.f i).sum := by
  obtain ⟨r, hr, hr2⟩ := mixture_fin hne ht
  refine ⟨r, _, _, _, hr, hr2, fun i hi => ?_⟩
  rw [eq_div_iff hi.ne']
  cases L with
  | nil => exact absurd rfl hne
  | cons x L =>
    have h1 := mixRows_density (x.row_ok i) (l := L.map fun x => x.row i)
      (fun y hy => by obtain ⟨z, -, rfl⟩ := List.mem_map.mp hy; exact z.row_ok i)
    have h2 := mixRows_total (x.row i) (L.map fun x => x.row i)
    simp only [List.map_map, Function.comp_def] at h1 h2
    simp only [List.map_cons, List.sum_cons, mixRow]
    rw [h2] at h1
    rw [mul_comm]
    exact h1

/-- **C35.** Bulk modulus, shear modulus and density of the mixture of any number of minerals lie
within every interval that contains the constituents' values (so between their smallest and largest
value). -/
theorem C35_within_constituents (hne : L ≠ [])
    (ht : ∀ i, (L.map fun x => x.f i).sum ≤ 1 + 1e-5) :
    ∃ r K G R, PosMineral.mixture L = .ok r ∧ r.Has K G R ∧
      ∀ i (a b : ℝ), ((∀ x ∈ L, a ≤ x.K i ∧ x.K i ≤ b) → a ≤ K i ∧ K i ≤ b) ∧
        ((∀ x ∈ L, a ≤ x.G i ∧ x.G i ≤ b) → a ≤ G i ∧ G i ≤ b) ∧
        ((∀ x ∈ L, a ≤ x.R i ∧ x.R i ≤ b) → a ≤ R i ∧ R i ≤ b) := by
  obtain ⟨r, hr, hr2⟩ := mixture_fin hne ht
  refine ⟨r, _, _, _, hr, hr2, fun i a b => ?_⟩
  cases L with
  | nil => exact absurd rfl hne
  | cons x L =>
    have hl : ∀ y ∈ L.map (fun x => x.row i), y.Ok := fun y hy => by
      obtain ⟨z, -, rfl⟩ := List.mem_map.mp hy; exact z.row_ok i
    have conv : ∀ (p : RowMin → ℝ), (∀ y ∈ x :: L, a ≤ p (y.row i) ∧ p (y.row i) ≤ b) →
        ∀ y ∈ x.row i :: L.map (fun x => x.row i), a ≤ p y ∧ p y ≤ b := by
      intro p h y hy
      have : y ∈ (x :: L).map (fun x => x.row i) := by simpa using hy
      obtain ⟨z, hz, rfl⟩ := List.mem_map.mp this
      exact h z hz
    refine ⟨fun h => mixRows_range (x.row_ok i) hl (fun y => y.K)
        (fun s x hs hx => (mixStep_bounds hs hx).1) (conv _ h),
      fun h => mixRows_range (x.row_ok i) hl (fun y => y.G)
        (fun s x hs hx => (mixStep_bounds hs hx).2.1) (conv _ h),
      fun h => mixRows_range (x.row_ok i) hl (fun y => y.R)
        (fun s x hs hx => (mixStep_bounds hs hx).2.2) (conv _ h)⟩

end

/-- A constant positive mineral. -/
noncomputable def constMineral (K G R f : ℝ) (hK : 0 < K) (hG : 0 < G) (hR : 0 < R) (hf : 0 ≤ f) :
    PosMineral 1 where
  mat := Mat.ofReal (fun _ => K) (fun _ => G) (fun _ => R)
  K := fun _ => K
  G := fun _ => G
  R := fun _ => R
  f := fun _ => f
  has := Mat.ofReal_has _ _ _
  bulk := fun _ => hK
  shear := fun _ => hG
  density := fun _ => hR
  fraction := fun _ => hf

/-- Quartz 50 %, clay 30 %, calcite 20 %. -/
noncomputable def exMinerals : List (PosMineral 1) :=
  [constMineral 36.8 44 2650 0.5 (by norm_num) (by norm_num) (by norm_num) (by norm_num),
   constMineral 25 9 2550 0.3 (by norm_num) (by norm_num) (by norm_num) (by norm_num),
   constMineral 76.8 32 2710 0.2 (by norm_num) (by norm_num) (by norm_num) (by norm_num)]

example := C34_density_weighted_average (L := exMinerals) (by simp [exMinerals])
  (fun i => by simp [exMinerals, constMineral]; norm_num)
example := C35_within_constituents (L := exMinerals) (by simp [exMinerals])
  (fun i => by simp [exMinerals, constMineral]; norm_num)

/-! ### C36 -/

/-- **C36, the parts that hold.** (1) Two minerals with positive total fraction: the order does not
matter for bulk modulus, shear modulus and density.  (2) Any number of minerals: the density does not
depend on the order. -/
theorem C36_partial :
    (∀ x y : PosMineral n, (∀ i, 0 < x.f i + y.f i) → (∀ i, x.f i + y.f i ≤ 1 + 1e-5) →
      ∃ r r' K G R, PosMineral.mixture [x, y] = .ok r ∧ PosMineral.mixture [y, x] = .ok r' ∧
        r.Has K G R ∧ r'.Has K G R) ∧
    (∀ L L' : List (PosMineral n), L.Perm L' → L ≠ [] →
      (∀ i, 0 < (L.map fun x => x.f i).sum) → (∀ i, (L.map fun x => x.f i).sum ≤ 1 + 1e-5) →
      ∃ r r', PosMineral.mixture L = .ok r ∧ PosMineral.mixture L' = .ok r' ∧
        r.density = r'.density) := by
  constructor
  · intro x y hpos hle
    obtain ⟨r, hr, hr2⟩ := mixture_fin (L := [x, y]) (by simp) (fun i => by simpa using hle i)
    obtain ⟨r', hr', hr2'⟩ := mixture_fin (L := [y, x]) (by simp)
      (fun i => by have := hle i; simp; linarith)
    refine ⟨r, r', _, _, _, hr, hr', hr2, ?_⟩
    have key : ∀ i, mixRow ([x, y].map fun x => x.row i) = mixRow ([y, x].map fun x => x.row i) := by
      intro i
      have e : x.f i / (x.f i + y.f i) = 1 - y.f i / (y.f i + x.f i) := by
        have := (hpos i).ne'
        have h2 : y.f i + x.f i ≠ 0 := by rw [add_comm]; exact this
        field_simp; ring
      simp only [List.map_cons, List.map_nil, mixRow, mixRows, List.foldl, mixStep, PosMineral.row,
        if_neg (hpos i).ne', add_comm (y.f i) (x.f i)]
      rw [add_comm (y.f i) (x.f i)] at e
      rw [e, min_comm (y.G i), min_comm (y.K i)]
      congr 1
      · rw [hsReal_symm]; congr 1; ring
      · rw [hsReal_symm]; congr 1; ring
      · ring
    simp only [key] at *
    exact hr2'
  · intro L L' hp hne hpos hle
    have hsum : ∀ (p : PosMineral n → ℝ), (L.map p).sum = (L'.map p).sum :=
      fun p => (hp.map p).sum_eq
    obtain ⟨r, K, G, R, hr, hH, hR⟩ := C34_density_weighted_average hne hle
    obtain ⟨r', K', G', R', hr', hH', hR'⟩ := C34_density_weighted_average (L := L')
      (fun h => hne (by rw [h] at hp; exact hp.eq_nil)) (fun i => by rw [← hsum]; exact hle i)
    refine ⟨r, r', hr, hr', ?_⟩
    rw [hH.2.2, hH'.2.2]
    funext i
    simp only [finC_apply, Num.fin_inj]
    rw [hR i (hpos i), hR' i (by rw [← hsum]; exact hpos i), ← hsum, ← hsum]

/-- Three minerals in the order A, B, C … -/
noncomputable def exOrder1 : List (PosMineral 1) :=
  [constMineral 1 1 1 0.25 (by norm_num) (by norm_num) (by norm_num) (by norm_num),
   constMineral 2 4 1 0.25 (by norm_num) (by norm_num) (by norm_num) (by norm_num),
   constMineral 5 4 1 0.5 (by norm_num) (by norm_num) (by norm_num) (by norm_num)]

/-- … and in the order B, C, A. -/
noncomputable def exOrder2 : List (PosMineral 1) :=
  [constMineral 2 4 1 0.25 (by norm_num) (by norm_num) (by norm_num) (by norm_num),
   constMineral 5 4 1 0.5 (by norm_num) (by norm_num) (by norm_num) (by norm_num),
   constMineral 1 1 1 0.25 (by norm_num) (by norm_num) (by norm_num) (by norm_num)]

/-- **C36 is false of the code** for three minerals: reordering changes the bulk modulus. -/
theorem C36_refuted :
    exOrder1.Perm exOrder2 ∧ ∃ r r' : Mat 1, PosMineral.mixture exOrder1 = .ok r ∧
      PosMineral.mixture exOrder2 = .ok r' ∧ r.bulk ≠ r'.bulk := by
  refine ⟨?_, ?_⟩
  · unfold exOrder1 exOrder2
    exact (List.Perm.swap _ _ _).trans (List.Perm.cons _ (List.Perm.swap _ _ _))
  · obtain ⟨r, hr, h1, -, -⟩ := mixture_fin (L := exOrder1) (by simp [exOrder1])
      (fun i => by simp [exOrder1, constMineral]; norm_num)
    obtain ⟨r', hr', h1', -, -⟩ := mixture_fin (L := exOrder2) (by simp [exOrder2])
      (fun i => by simp [exOrder2, constMineral]; norm_num)
    refine ⟨r, r', hr, hr', ?_⟩
    rw [h1, h1']
    intro h
    have h := congrFun h 0
    simp only [finC_apply, Num.fin_inj] at h
    simp only [exOrder1, exOrder2, constMineral, PosMineral.row, List.map_cons, List.map_nil, mixRow,
      mixRows, List.foldl, mixStep, hsReal, zShear] at h
    norm_num at h

/-! ### C37 -/

theorem mixStep_zero {s x : RowMin} (hs : s.Ok) (hx : x.Ok) (h : x.f = 0) : mixStep s x = s := by
  have hr : (if s.f + x.f = 0 then (1:ℝ) else s.f / (s.f + x.f)) = 1 := by
    rw [h, add_zero]; split
    · rfl
    · rename_i h'; exact div_self h'
  have z1 : 0 < 4/3 * min s.G x.G := mul_pos (by norm_num) (lt_min hs.2.1 hx.2.1)
  have z2 : 0 ≤ zShear (min s.K x.K) (min s.G x.G) :=
    zShear_nonneg (lt_min hs.1 hx.1).le (lt_min hs.2.1 hx.2.1).le
  unfold mixStep
  simp only [hr]
  have := hx.1; have := hx.2.1
  rw [hsReal_one (by linarith), hsReal_one (by linarith), h]
  simp

theorem mixStep_from_zero {s x : RowMin} (hs : s.Ok) (hx : x.Ok) (h : s.f = 0) (hx0 : 0 < x.f) :
    mixStep s x = x := by
  have z1 : 0 < 4/3 * min s.G x.G := mul_pos (by norm_num) (lt_min hs.2.1 hx.2.1)
  have z2 : 0 ≤ zShear (min s.K x.K) (min s.G x.G) :=
    zShear_nonneg (lt_min hs.1 hx.1).le (lt_min hs.2.1 hx.2.1).le
  unfold mixStep
  simp only [h, zero_add, if_neg hx0.ne', zero_div]
  have := hs.1; have := hs.2.1
  rw [hsReal_zero (by linarith), hsReal_zero (by linarith)]
  simp

theorem mixRows_forget {s s' : RowMin} {l : List RowMin} (hs : s.Ok) (hs' : s'.Ok)
    (hl : ∀ x ∈ l, x.Ok) (h : s.f = 0) (h' : s'.f = 0) (hp : 0 < (l.map (·.f)).sum) :
    mixRows s l = mixRows s' l := by
  induction l generalizing s s' with
  | nil => simp at hp
  | cons x l ih =>
    have hx := hl x List.mem_cons_self
    have hl' := fun y hy => hl y (List.mem_cons_of_mem x hy)
    show mixRows (mixStep s x) l = mixRows (mixStep s' x) l
    rcases hx.2.2.2.eq_or_lt with h0 | h0
    · rw [mixStep_zero hs hx h0.symm, mixStep_zero hs' hx h0.symm]
      refine ih hs hs' hl' h h' ?_
      simpa [← h0] using hp
    · rw [mixStep_from_zero hs hx h h0, mixStep_from_zero hs' hx h' h0]

theorem mixRow_insert_zero {l1 l2 : List RowMin} {z : RowMin} (h1 : ∀ x ∈ l1, x.Ok)
    (h2 : ∀ x ∈ l2, x.Ok) (hz : z.Ok) (hz0 : z.f = 0)
    (hp : 0 < ((l1 ++ l2).map (·.f)).sum) :
    (mixRow (l1 ++ z :: l2)) = mixRow (l1 ++ l2) := by
  cases l1 with
  | nil =>
    cases l2 with
    | nil => simp at hp
    | cons x l2 =>
      have hx := h2 x List.mem_cons_self
      show mixRows (mixStep z x) l2 = mixRows x l2
      rcases hx.2.2.2.eq_or_lt with h0 | h0
      · rw [mixStep_zero hz hx h0.symm]
        exact mixRows_forget hz hx (fun y hy => h2 y (List.mem_cons_of_mem _ hy)) hz0 h0.symm
          (by simpa [← h0] using hp)
      · rw [mixStep_from_zero hz hx hz0 h0]
  | cons x l1 =>
    show mixRows x (l1 ++ z :: l2) = mixRows x (l1 ++ l2)
    unfold mixRows
    rw [List.foldl_append, List.foldl_append, List.foldl_cons]
    have e := mixStep_zero (mixRows_ok (h1 x List.mem_cons_self)
      (fun y hy => h1 y (List.mem_cons_of_mem _ hy))) hz hz0
    unfold mixRows at e
    rw [e]

/-- **C37.** A mineral whose fraction is zero (in every row), anywhere in the list, does not change
bulk modulus, shear modulus or density of the mixture (total fraction positive in every row). -/
theorem C37_zero_fraction_ignored (L1 L2 : List (PosMineral n)) (z : PosMineral n)
    (hz : ∀ i, z.f i = 0) (hpos : ∀ i, 0 < ((L1 ++ L2).map fun x => x.f i).sum)
    (hle : ∀ i, ((L1 ++ L2).map fun x => x.f i).sum ≤ 1 + 1e-5) (hne : L1 ++ L2 ≠ []) :
    ∃ r r' K G R, PosMineral.mixture (L1 ++ z :: L2) = .ok r ∧
      PosMineral.mixture (L1 ++ L2) = .ok r' ∧ r.Has K G R ∧ r'.Has K G R := by
  obtain ⟨r, hr, hr2⟩ := mixture_fin (L := L1 ++ z :: L2) (by simp) (fun i => by
    have := hle i
    simp only [List.map_append, List.sum_append, List.map_cons, List.sum_cons, hz i] at this ⊢
    linarith)
  obtain ⟨r', hr', hr2'⟩ := mixture_fin hne hle
  refine ⟨r, r', _, _, _, hr, hr', ?_, hr2'⟩
  have key : ∀ i, mixRow ((L1 ++ z :: L2).map fun x => x.row i)
      = mixRow ((L1 ++ L2).map fun x => x.row i) := by
    intro i
    rw [List.map_append, List.map_cons, List.map_append]
    refine mixRow_insert_zero ?_ ?_ (z.row_ok i) (hz i) ?_
    · intro y hy; obtain ⟨x, -, rfl⟩ := List.mem_map.mp hy; exact x.row_ok i
    · intro y hy; obtain ⟨x, -, rfl⟩ := List.mem_map.mp hy; exact x.row_ok i
    · have := hpos i
      rw [← List.map_append, List.map_map]; exact this
  simp only [key] at hr2
  exact hr2

example := C37_zero_fraction_ignored [] exMinerals
  (constMineral 1 1 1 0 (by norm_num) (by norm_num) (by norm_num) (by norm_num)) (fun _ => rfl)
  (fun i => by simp [exMinerals, constMineral]; norm_num)
  (fun i => by simp [exMinerals, constMineral]; norm_num) (by simp [exMinerals])

/-! ### C76 -/

theorem forM_all {α : Type} {l : List α} {f : α → Except Err Unit} {u : Unit} (h : l.forM f = .ok u) :
    ∀ x ∈ l, f x = .ok () := by
  induction l with
  | nil => simp
  | cons x l ih =>
    unfold List.forM at h
    obtain ⟨_, h1, h2⟩ := bind_eq_ok.mp h
    exact List.forall_mem_cons.mpr ⟨h1, ih h2⟩

theorem sum_row (xs : List (Col n)) (i : Fin n) : xs.sum i = (xs.map (· i)).sum := by
  induction xs with
  | nil => rfl
  | cons x xs ih => simp [ih]

theorem add_fin_of {a b : Num} {s : ℝ} (h : a + b = .fin s) : (∃ x, a = .fin x) ∧ ∃ y, b = .fin y := by
  cases a <;> cases b <;> simp_all [HAdd.hAdd, Add.add, Num.add]

theorem fin_of_sum_fin {xs : List Num} {s : ℝ} (h : xs.sum = .fin s) : ∀ x ∈ xs, ∃ r, x = .fin r := by
  induction xs generalizing s with
  | nil => simp
  | cons x xs ih =>
    rw [List.sum_cons] at h
    obtain ⟨hx, y, hy⟩ := add_fin_of h
    exact List.forall_mem_cons.mpr ⟨hx, ih hy⟩

/-- **C76.** Every accepted mineral section is non-empty, keeps its materials and given fractions in
order (the omitted one, if any, is filled in), and its fractions are numbers within [-1e-5, 1+1e-5] that
sum (per row) to a number within 2e-5 of one. -/
theorem C76_minerals_accepted (cs : List (MineralIn n)) (r : List (Mat n × Col n))
    (h : mkMinerals cs = .ok r) :
    r ≠ [] ∧ (∃ m, r = cs.map fun k => (k.mat, k.fraction.getD m)) ∧
      (∀ x ∈ r, ∀ i, ∃ f : ℝ, x.2 i = .fin f ∧ -1e-5 ≤ f ∧ f ≤ 1 + 1e-5) ∧
      ∀ i, ∃ s : ℝ, sumCols (r.map (·.2)) i = Num.fin s ∧ |s - 1| ≤ 2e-5 := by
  unfold mkMinerals at h
  obtain ⟨_, hgiven, h⟩ := bind_eq_ok.mp h
  obtain ⟨hlen, h⟩ := failIf_bind_ok.mp h
  obtain ⟨fs, hfs, h⟩ := bind_eq_ok.mp h
  obtain ⟨hc, h⟩ := failIf_bind_ok.mp h
  injection h with h
  have hlen2 : ∃ m, givenFractions fs = (cs.map fun k => k.fraction.getD m) ∧
      ((∃ k ∈ cs, k.fraction = none) → fractionIsRatio m = .ok ()) := by
    unfold fixOneFraction at hfs
    obtain ⟨-, hfs⟩ := failIf_bind_ok.mp hfs
    split at hfs
    · rename_i h0
      injection hfs with hfs
      subst hfs
      rw [count_none_eq] at h0
      refine ⟨c 0, ?_, fun ⟨k, hk, hk0⟩ => ?_⟩
      · unfold givenFractions
        rw [filterMap_id_of_no_none _ (c 0) h0]; simp
      · rw [List.countP_eq_zero] at h0
        exact absurd (by rw [hk0]; rfl) (h0 k.fraction (List.mem_map_of_mem hk))
    · obtain ⟨-, hfs⟩ := failIf_bind_ok.mp hfs
      obtain ⟨_, hmr, hfs⟩ := bind_eq_ok.mp hfs
      injection hfs with hfs
      rw [← hfs, givenFractions_filled]
      exact ⟨_, by rw [List.map_map]; rfl, fun _ => hmr⟩
  obtain ⟨m, hm, hmr⟩ := hlen2
  have m0 : r = cs.map fun k => (k.mat, k.fraction.getD m) := by
    rw [← h, hm, List.zip_map', ]
  have m2 : r.map (·.2) = givenFractions fs := by
    rw [m0, hm, List.map_map]; rfl
  have hratio : ∀ x ∈ r, fractionIsRatio x.2 = .ok () := by
    intro x hx
    rw [m0] at hx
    obtain ⟨k, hk, rfl⟩ := List.mem_map.mp hx
    cases hf : k.fraction with
    | none => simpa [hf] using hmr ⟨k, hk, hf⟩
    | some f =>
      have := forM_all hgiven k hk
      rw [hf] at this
      simpa [hf] using this
  refine ⟨?_, ⟨m, m0⟩, fun x hx i => ?_, fun i => ?_⟩
  · intro h0
    rw [h0] at m0
    have : cs = [] := by simpa using m0.symm
    rw [this] at hlen; simp at hlen
  · obtain ⟨s, hs, -⟩ := not_not.mp hc i
    rw [sumCols_eq_sum, ← m2, sum_row, List.map_map] at hs
    obtain ⟨f, hf⟩ := fin_of_sum_fin hs (x.2 i) (List.mem_map.mpr ⟨x, hx, rfl⟩)
    have := hratio x hx
    unfold fractionIsRatio at this
    obtain ⟨h1, h2⟩ := failIf_bind_ok.mp this
    rw [failIf_ok_iff] at h2
    refine ⟨f, hf, ?_, ?_⟩
    · by_contra hlt
      exact h1 ⟨i, by rw [hf, Num.fin_lt]; exact not_le.mp hlt⟩
    · by_contra hlt
      exact h2 ⟨i, by rw [hf, Num.fin_lt]; exact not_le.mp hlt⟩
  · rw [m2]
    have := not_not.mp hc i
    obtain ⟨s, hs, hs2⟩ := this
    refine ⟨s, hs, hs2.trans (by norm_num)⟩

end OPE
