import Verif.Props.SpanWagner4
import Verif.Props.RowWise
import Verif.Props.BatzleWang

/-!
# Carbon dioxide: table, in-place changes, rows (C70, C72, C07, C65)
-/

namespace OPE.CO2

open Classical

variable {n : ℕ}

/-! ### C70 -/

theorem nearest_le (g : ℕ → ℝ) {m : ℕ} (hm : 1 ≤ m) (v : ℝ) : nearest g m v ≤ m := by
  unfold nearest
  have := Nat.findGreatest_le (P := fun i => g i ≤ v) (m - 1)
  dsimp only
  split <;> omega

/-- The interval of the grid that contains `v`. -/
theorem interval (g : ℕ → ℝ) {m : ℕ} (hm : 1 ≤ m) {v : ℝ} (h0 : g 0 ≤ v) (h1 : v ≤ g m) :
    ∃ i, i + 1 ≤ m ∧ g i ≤ v ∧ v ≤ g (i + 1) ∧ Nat.findGreatest (fun i => g i ≤ v) (m - 1) = i := by
  refine ⟨Nat.findGreatest (fun i => g i ≤ v) (m - 1), ?_, ?_, ?_, rfl⟩
  · have := Nat.findGreatest_le (P := fun i => g i ≤ v) (m - 1); omega
  · exact Nat.findGreatest_spec (P := fun i => g i ≤ v) (Nat.zero_le _) h0
  · set i := Nat.findGreatest (fun i => g i ≤ v) (m - 1) with hi
    by_contra hlt
    push Not at hlt
    have hle : i ≤ m - 1 := Nat.findGreatest_le _
    rcases Nat.lt_or_ge i (m - 1) with h | h
    · exact Nat.findGreatest_is_greatest (P := fun i => g i ≤ v) (n := m - 1) (k := i + 1) (by omega)
        (by omega) hlt.le
    · have : i + 1 = m := by omega
      rw [this] at hlt; linarith

/-- On an axis with strictly increasing points the rule picks a nearest point. -/
theorem nearest_spec {g : ℕ → ℝ} {m : ℕ} (hm : 1 ≤ m) (hg : ∀ i j, i < j → j ≤ m → g i < g j) {v : ℝ}
    (h0 : g 0 ≤ v) (h1 : v ≤ g m) {j : ℕ} (hj : j ≤ m) : |v - g (nearest g m v)| ≤ |v - g j| := by
  obtain ⟨i, hi, h2, h3, h4⟩ := interval g hm h0 h1
  have hlt := hg i (i + 1) (by omega) hi
  have hmono : ∀ a b, a ≤ b → b ≤ m → g a ≤ g b := by
    intro a b hab hb
    rcases hab.eq_or_lt with rfl | h
    · exact le_rfl
    · exact (hg a b h hb).le
  have hcase : g j ≤ g i ∨ g (i + 1) ≤ g j := by
    rcases Nat.lt_or_ge i j with h | h
    · exact .inr (hmono _ _ h hj)
    · exact .inl (hmono _ _ h (by omega))
  unfold nearest
  simp only [h4]
  split
  · rename_i hc
    rw [div_le_iff₀ (by linarith)] at hc
    rw [abs_of_nonneg (by linarith)]
    rcases hcase with h | h
    · rw [abs_of_nonneg (by linarith)]; linarith
    · rw [abs_of_nonpos (by linarith)]; linarith
  · rename_i hc
    rw [not_le, lt_div_iff₀ (by linarith)] at hc
    rw [abs_of_nonpos (by linarith)]
    rcases hcase with h | h
    · rw [abs_of_nonneg (by linarith)]; linarith
    · rw [abs_of_nonpos (by linarith)]; linarith

theorem nearest_node {g : ℕ → ℝ} {m : ℕ} (hm : 1 ≤ m) (hg : ∀ i j, i < j → j ≤ m → g i < g j) {j : ℕ}
    (hj : j ≤ m) : nearest g m (g j) = j := by
  have h0 : g 0 ≤ g j := by
    rcases Nat.eq_zero_or_pos j with rfl | h
    · exact le_rfl
    · exact (hg 0 j h hj).le
  have h1 : g j ≤ g m := by
    rcases hj.eq_or_lt with rfl | h
    · exact le_rfl
    · exact (hg j m h le_rfl).le
  have := nearest_spec hm hg h0 h1 hj
  rw [sub_self, abs_zero] at this
  have he : g j = g (nearest g m (g j)) := by
    have := abs_nonpos_iff.mp this; linarith
  have hle := nearest_le g hm (g j)
  rcases Nat.lt_trichotomy (nearest g m (g j)) j with h | h | h
  · have := hg _ _ h hj; linarith
  · exact h
  · have := hg _ _ h hle; linarith

/-- A table with at least two strictly increasing points on each axis. -/
structure Table.Regular (t : Table) : Prop where
  nx : 1 ≤ t.nx
  ny : 1 ≤ t.ny
  x : ∀ i j, i < j → j ≤ t.nx → t.x i < t.x j
  y : ∀ i j, i < j → j ≤ t.ny → t.y i < t.y j

/-- **C70.** Interpolated density: the tabulated value at a grid node, the value of a nearest node (in each
coordinate) inside the table, NaN outside; row by row, never an exception. -/
theorem C70_lookup {t : Table} (ht : t.Regular) (solve : RootFinder) (T P : Fin n → ℝ) :
    ∃ d : Col n, densityOf solve t (finC T) (finC P) true = .ok d ∧ ∀ r : Fin n,
      (∀ i j, i ≤ t.nx → j ≤ t.ny → T r = t.x i → P r = t.y j → d r = t.z i j) ∧
      (t.x 0 ≤ T r → T r ≤ t.x t.nx → t.y 0 ≤ P r → P r ≤ t.y t.ny →
        ∃ i j, i ≤ t.nx ∧ j ≤ t.ny ∧ d r = t.z i j ∧ (∀ k ≤ t.nx, |T r - t.x i| ≤ |T r - t.x k|) ∧
          ∀ k ≤ t.ny, |P r - t.y j| ≤ |P r - t.y k|) ∧
      (T r < t.x 0 ∨ t.x t.nx < T r ∨ P r < t.y 0 ∨ t.y t.ny < P r → d r = .nan) := by
  refine ⟨fun i => t.lookup (finC T i) (finC P i), rfl, fun r => ?_⟩
  have hin : t.x 0 ≤ T r → T r ≤ t.x t.nx → t.y 0 ≤ P r → P r ≤ t.y t.ny →
      t.lookup (finC T r) (finC P r) = t.z (nearest t.x t.nx (T r)) (nearest t.y t.ny (P r)) := by
    intro h1 h2 h3 h4
    show Table.lookup t (Num.fin (T r)) (Num.fin (P r)) = _
    simp only [Table.lookup]
    rw [if_neg]
    push Not
    exact ⟨h1, h2, h3, h4⟩
  have hle : ∀ {g : ℕ → ℝ} {m : ℕ}, (∀ i j, i < j → j ≤ m → g i < g j) → ∀ j ≤ m, g 0 ≤ g j ∧ g j ≤ g m := by
    intro g m hg j hj
    constructor
    · rcases Nat.eq_zero_or_pos j with rfl | h
      · exact le_rfl
      · exact (hg 0 j h hj).le
    · rcases hj.eq_or_lt with rfl | h
      · exact le_rfl
      · exact (hg j m h le_rfl).le
  refine ⟨?_, ?_, ?_⟩
  · intro i j hi hj e1 e2
    dsimp only
    rw [hin (by rw [e1]; exact (hle ht.x i hi).1) (by rw [e1]; exact (hle ht.x i hi).2)
      (by rw [e2]; exact (hle ht.y j hj).1) (by rw [e2]; exact (hle ht.y j hj).2), e1, e2,
      nearest_node ht.nx ht.x hi, nearest_node ht.ny ht.y hj]
  · intro h1 h2 h3 h4
    exact ⟨_, _, nearest_le _ ht.nx _, nearest_le _ ht.ny _, hin h1 h2 h3 h4,
      fun k hk => nearest_spec ht.nx ht.x h1 h2 hk, fun k hk => nearest_spec ht.ny ht.y h3 h4 hk⟩
  · intro h
    show Table.lookup t (Num.fin (T r)) (Num.fin (P r)) = _
    simp only [Table.lookup]
    rw [if_pos h]

/-- A regular table exists: two by two points. -/
example : Table.Regular ⟨1, 1, fun i => 300 + i, fun i => 1 + i, fun i j => Num.fin (i + j)⟩ := by
  refine ⟨le_rfl, le_rfl, ?_, ?_⟩ <;>
  · intro i j h _
    have : (i : ℝ) < j := by exact_mod_cast h
    dsimp only
    linarith

/-- **C70, precedence.** With a given density neither pressure nor the table nor the solver has any effect,
and the density of the result is the given one. -/
theorem C70_given_density (solve solve' : RootFinder) (table table' : Table) (T P P' d : Col n) (b b' : Bool) :
    carbonDioxide solve table T P (some d) b = carbonDioxide solve' table' T P' (some d) b' ∧
    ∀ m, carbonDioxide solve table T P (some d) b = .ok m → m.density = d := by
  refine ⟨rfl, fun m h => ?_⟩
  unfold carbonDioxide at h
  obtain ⟨d', hd, h⟩ := bind_eq_ok.mp h
  injection hd with hd
  subst hd
  obtain ⟨k, -, h⟩ := bind_eq_ok.mp h
  obtain ⟨hd, -⟩ := mkMaterial_ok h
  simp at hd
  exact hd.symm

/-! ### C72 -/

/-- carbon_dioxide.py:86-105 on two arrays of the caller: the values and the two arrays afterwards.
`np.asarray` does not copy an array, `reshape` of a contiguous array is a view, and lines 97-98 assign
in place, before anything can fail. -/
noncomputable def residualOnArrays (delta tau : Col n) (dd dt : ℕ) : Except Err (Col n) × Col n × Col n :=
  (vec fun i => residual (delta i) (tau i) dd dt, fun i => nudge (delta i), fun i => nudge (tau i))

/-- carbon_dioxide.py:28-39 on two arrays of the caller: the ideal gas part is evaluated first. -/
noncomputable def helmholtzOnArrays (delta tau : Col n) (dd dt : ℕ) : Except Err (Col n) × Col n × Col n :=
  match vec fun i => idealGas (delta i) (tau i) dd dt with
  | .error e => (.error e, delta, tau)
  | .ok a =>
    let r := residualOnArrays delta tau dd dt
    (r.1 >>= fun b => .ok (a + b), r.2.1, r.2.2)

/-- **C72 is false.** Evaluating the Helmholtz energy at reduced temperature 1 changes the array of the
caller. -/
theorem C72_refuted : ∃ (n : ℕ) (delta tau : Col n),
    (helmholtzOnArrays delta tau 1 0).2.2 ≠ tau := by
  refine ⟨1, c 2, c 1, ?_⟩
  have h : vec (fun i : Fin 1 => idealGas (c 2 i) (c 1 i) 1 0) =
      .ok (fun _ => Num.fin 1 / Num.fin 2) := vec_ok fun _ => rfl
  unfold helmholtzOnArrays
  rw [h]
  intro hc
  have := congrFun hc 0
  simp only [residualOnArrays, nudge, c, Num.fin_eq, if_true, Num.fin_sub, Num.fin_inj] at this
  norm_num at this

/-- **C72, partial.** Exactly the elements equal to 1 change, to `1 - 1e-15`; without such elements the
arrays are unchanged, and a second call changes nothing more. -/
theorem C72_partial (delta tau : Col n) (dd dt : ℕ) :
    let r := helmholtzOnArrays delta tau dd dt
    (∀ i, r.2.1 i ≠ delta i → delta i = Num.fin 1 ∧ r.2.1 i = Num.fin (1 - 1e-15)) ∧
    (∀ i, r.2.2 i ≠ tau i → tau i = Num.fin 1 ∧ r.2.2 i = Num.fin (1 - 1e-15)) ∧
    (helmholtzOnArrays r.2.1 r.2.2 dd dt).2 = r.2 := by
  have key : ∀ x : Num, nudge x ≠ x → x = Num.fin 1 ∧ nudge x = Num.fin (1 - 1e-15) := by
    intro x h
    unfold nudge at h ⊢
    split at h
    · rename_i hx
      cases x with
      | fin a =>
        rw [Num.fin_eq] at hx; subst hx
        rw [if_pos (by simp), Num.fin_sub]; exact ⟨rfl, rfl⟩
      | posInf => cases hx
      | negInf => cases hx
      | nan => cases hx
    · exact absurd rfl h
  have idem : ∀ x : Num, nudge (nudge x) = nudge x := by
    intro x
    by_cases h : nudge x = x
    · rw [h, h]
    · obtain ⟨-, h2⟩ := key x h
      rw [h2, nudge_fin, nudgeR_of_ne (by norm_num)]
  intro r
  have hr : r = helmholtzOnArrays delta tau dd dt := rfl
  unfold helmholtzOnArrays at hr
  cases hv : vec fun i => idealGas (delta i) (tau i) dd dt with
  | error e =>
    rw [hv] at hr
    rw [hr]
    refine ⟨fun i h => absurd rfl h, fun i h => absurd rfl h, ?_⟩
    unfold helmholtzOnArrays
    dsimp only
    rw [hv]
  | ok a =>
    rw [hv] at hr
    rw [hr]
    dsimp only [residualOnArrays]
    refine ⟨fun i h => key _ h, fun i h => key _ h, ?_⟩
    unfold helmholtzOnArrays
    cases vec fun i => idealGas (nudge (delta i)) (nudge (tau i)) dd dt with
    | error e => rfl
    | ok b =>
      dsimp only [residualOnArrays]
      congr 1 <;> funext i <;> exact idem _

/-! ### C07 and C65 for carbon dioxide -/

/-- **C07, carbon dioxide.** The Span-Wagner model treats rows separately, whatever the root finder and the
table: the assumption of `C07_row_wise` holds for the model in the code. -/
theorem C07_carbon_dioxide_row_wise (solve : RootFinder) (table : Table) : CO2RowWise (spanWagner solve table) := by
  intro n _ T P b
  unfold spanWagner carbonDioxide
  refine .bind (rowA := fun (d : Col n) i => fun _ : Fin 1 => d i) ?_ fun d _ => ?_
  · unfold densityOf
    cases b
    · simp only [Bool.false_eq_true, if_false]
      exact RowBy.vec fun i => rfl
    · exact RowBy.ok fun i => rfl
  · exact .bind (RowBy.vec fun i => rfl) fun k _ => fluidMaterial_row _ _

/-- **C07.** The whole calculation with the carbon dioxide model of the code. -/
theorem C07_row_wise_span_wagner [NeZero n] (solve : RootFinder) (table : Table) (s : Sections n) :
    RowBy Result.row (calculate (spanWagner solve table n) s)
      (fun i => calculate (spanWagner solve table 1) (s.row i)) :=
  C07_row_wise (co2 := spanWagner solve table) (C07_carbon_dioxide_row_wise solve table) s

/-- **C65, carbon dioxide.** -/
theorem C65_carbon_dioxide (solve : RootFinder) (table : Table) (T P : Col n) (d : Option (Col n)) (b : Bool)
    (m : Mat n) (h : carbonDioxide solve table T P d b = .ok m) : NoShear m := by
  unfold carbonDioxide at h
  cases d with
  | some d =>
    obtain ⟨d', -, h⟩ := bind_eq_ok.mp h
    obtain ⟨k, -, h⟩ := bind_eq_ok.mp h
    exact fluidMaterial_noShear h
  | none =>
    obtain ⟨d', -, h⟩ := bind_eq_ok.mp h
    obtain ⟨k, -, h⟩ := bind_eq_ok.mp h
    exact fluidMaterial_noShear h

end OPE.CO2
