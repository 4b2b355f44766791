import Verif.Model.LookupTable
import Verif.Props.SpanWagner5
import Verif.Props.SpanWagner7
import Mathlib.Algebra.Order.Round

/-!
# C121: the table of carbon dioxide densities
-/

namespace OPE.CO2

open Classical

theorem reshape_flatten_index {m k : ℕ} (i : Fin m) (j : Fin k) (h : (i : ℕ) * k + j < m * k) :
    (⟨i * k + j, h⟩ : Fin (m * k)).divNat = i ∧ (⟨i * k + j, h⟩ : Fin (m * k)).modNat = j := by
  have hk : 0 < k := lt_of_le_of_lt (Nat.zero_le _) j.isLt
  constructor
  · apply Fin.ext
    simp only [Fin.coe_divNat]
    rw [Nat.mul_comm, Nat.mul_add_div hk, Nat.div_eq_of_lt j.isLt, Nat.add_zero]
  · apply Fin.ext
    simp only [Fin.coe_modNat]
    rw [Nat.mul_comm, Nat.mul_add_mod, Nat.mod_eq_of_lt j.isLt]

/-- **C121, orientation.** A table generated from a function that works element by element has at row `i`, column
`j` the value of the function at the `i`th point of the first axis and the `j`th of the second. -/
theorem C121_orientation {m k : ℕ} (f : Num → Num → Except Err Num) (x : Fin m → Num) (y : Fin k → Num)
    {z : Fin m → Fin k → Num} (h : generateValues (fun a b => vec fun p => f (a p) (b p)) x y = .ok z)
    (i : Fin m) (j : Fin k) : f (x i) (y j) = .ok (z i j) := by
  unfold generateValues at h
  rw [bind_eq_ok] at h
  obtain ⟨w, hw, hz⟩ := h
  injection hz with hz
  subst hz
  have h2 := vec_ok_iff.mp hw ⟨i * k + j, by
    calc (i : ℕ) * k + j < i * k + k := by have := j.isLt; omega
      _ = (i + 1) * k := by ring
      _ ≤ m * k := Nat.mul_le_mul_right k i.isLt⟩
  unfold flatten at h2
  rw [(reshape_flatten_index i j _).1, (reshape_flatten_index i j _).2] at h2
  exact h2

/-- Every pair of grid points has a value, so generation succeeds exactly if every density is found. -/
theorem generate_ok {m k : ℕ} (f : Num → Num → Except Err Num) (x : Fin m → Num) (y : Fin k → Num)
    (h : ∀ i j, ∃ z, f (x i) (y j) = .ok z) :
    ∃ z, generateValues (fun a b => vec fun p => f (a p) (b p)) x y = .ok z := by
  choose z hz using h
  refine ⟨reshape (flatten z), ?_⟩
  unfold generateValues
  dsimp only
  rw [vec_ok (r := flatten z) fun p => by unfold flatten; exact hz _ _]
  rfl

/-! ### The grid -/

theorem arange_length (a b s : ℝ) : (arange a b s).length = ⌈(b - a) / s⌉₊ := by simp [arange]

theorem arange_get {a b s : ℝ} {i : ℕ} (h : i < ⌈(b - a) / s⌉₊) : (arange a b s)[i]? = some (a + i * s) := by
  unfold arange
  rw [List.getElem?_map, List.getElem?_range h]
  rfl

theorem ceil_eq_of {r : ℝ} {n : ℕ} (h1 : (n : ℝ) - 1 < r) (h2 : r ≤ n) (hn : n ≠ 0) : ⌈r⌉₊ = n := by
  rw [Nat.ceil_eq_iff hn]
  refine ⟨?_, h2⟩
  rw [Nat.cast_sub (Nat.one_le_iff_ne_zero.mpr hn)]
  simpa using h1

theorem ceil1 : ⌈((50:ℝ) - 0) / 0.05⌉₊ = 1000 := ceil_eq_of (by norm_num) (by norm_num) (by norm_num)
theorem ceil2 : ⌈((200.1:ℝ) - 50) / 0.5⌉₊ = 301 := ceil_eq_of (by norm_num) (by norm_num) (by norm_num)
theorem ceil3 : ⌈((10:ℝ) - 0.5) / 0.01⌉₊ = 950 := ceil_eq_of (by norm_num) (by norm_num) (by norm_num)
theorem ceil4 : ⌈((100.1:ℝ) - 10) / 0.1⌉₊ = 901 := ceil_eq_of (by norm_num) (by norm_num) (by norm_num)

theorem t_length : tDensity.length = 1301 := by
  unfold tDensity
  rw [List.length_map, List.length_append, arange_length, arange_length, ceil1, ceil2]

theorem p_length : pDensity.length = 1851 := by
  unfold pDensity
  rw [List.length_append, arange_length, arange_length, ceil3, ceil4]

theorem t_low {i : ℕ} (h : i ≤ 1000) : tDensity.getD i 0 = 273.15 + 0.05 * i := by
  have : tDensity[i]? = some (273.15 + 0.05 * (i : ℝ)) := by
    unfold tDensity
    rw [List.getElem?_map]
    rcases h.eq_or_lt with rfl | h
    · rw [List.getElem?_append_right (by rw [arange_length, ceil1]), arange_length, ceil1, Nat.sub_self,
        arange_get (by rw [ceil2]; norm_num)]
      simp only [Option.map_some, Option.some.injEq]
      norm_num
    · rw [List.getElem?_append_left (by rw [arange_length, ceil1]; exact h), arange_get (by rw [ceil1]; exact h)]
      simp only [Option.map_some, Option.some.injEq]
      ring
  rw [List.getD_eq_getElem?_getD, this]; rfl

theorem t_high {i : ℕ} (h : i ≤ 300) : tDensity.getD (1000 + i) 0 = 323.15 + 0.5 * i := by
  have : tDensity[1000 + i]? = some (323.15 + 0.5 * (i : ℝ)) := by
    unfold tDensity
    rw [List.getElem?_map, List.getElem?_append_right (by rw [arange_length, ceil1]; omega), arange_length, ceil1,
      Nat.add_sub_cancel_left, arange_get (by rw [ceil2]; omega)]
    simp only [Option.map_some, Option.some.injEq]
    ring
  rw [List.getD_eq_getElem?_getD, this]; rfl

theorem p_low {i : ℕ} (h : i ≤ 950) : pDensity.getD i 0 = 0.5 + 0.01 * i := by
  have : pDensity[i]? = some (0.5 + 0.01 * (i : ℝ)) := by
    unfold pDensity
    rcases h.eq_or_lt with rfl | h
    · rw [List.getElem?_append_right (by rw [arange_length, ceil3]), arange_length, ceil3, Nat.sub_self,
        arange_get (by rw [ceil4]; norm_num)]
      simp only [Option.some.injEq]
      norm_num
    · rw [List.getElem?_append_left (by rw [arange_length, ceil3]; exact h), arange_get (by rw [ceil3]; exact h)]
      simp only [Option.some.injEq]
      ring
  rw [List.getD_eq_getElem?_getD, this]; rfl

theorem p_high {i : ℕ} (h : i ≤ 900) : pDensity.getD (950 + i) 0 = 10 + 0.1 * i := by
  have : pDensity[950 + i]? = some (10 + 0.1 * (i : ℝ)) := by
    unfold pDensity
    rw [List.getElem?_append_right (by rw [arange_length, ceil3]; omega), arange_length, ceil3,
      Nat.add_sub_cancel_left, arange_get (by rw [ceil4]; omega)]
    simp only [Option.some.injEq]
    ring
  rw [List.getD_eq_getElem?_getD, this]; rfl

/-- An axis with two spacings. -/
structure Axis (g : ℕ → ℝ) (n m : ℕ) (a s1 b s2 : ℝ) : Prop where
  pos1 : 0 < s1
  pos2 : 0 < s2
  mid : a + s1 * n = b
  low : ∀ i ≤ n, g i = a + s1 * i
  high : ∀ i ≤ m, g (n + i) = b + s2 * i

theorem Axis.mono {g : ℕ → ℝ} {n m : ℕ} {a s1 b s2 : ℝ} (h : Axis g n m a s1 b s2) (i j : ℕ) (hij : i < j)
    (hj : j ≤ n + m) : g i < g j := by
  have h1 := h.pos1
  have h2 := h.pos2
  rcases le_or_gt j n with hjn | hjn
  · rw [h.low i (by omega), h.low j hjn]
    have : (i : ℝ) < j := by exact_mod_cast hij
    nlinarith
  · obtain ⟨j', rfl⟩ := Nat.exists_eq_add_of_le hjn.le
    rw [h.high j' (by omega)]
    have hj0 : (0 : ℝ) < j' := by
      have : 0 < j' := by omega
      exact_mod_cast this
    rcases le_or_gt i n with hin | hin
    · rw [h.low i hin, ← h.mid]
      have : (i : ℝ) ≤ n := by exact_mod_cast hin
      nlinarith
    · obtain ⟨i', rfl⟩ := Nat.exists_eq_add_of_le hin.le
      rw [h.high i' (by omega)]
      have : (i' : ℝ) < j' := by
        have : i' < j' := by omega
        exact_mod_cast this
      nlinarith

/-- A point of a regularly spaced axis within half a spacing. -/
theorem near_regular {a s v : ℝ} {n : ℕ} (hs : 0 < s) (h0 : a ≤ v) (h1 : v ≤ a + s * n) :
    ∃ k ≤ n, |v - (a + s * k)| ≤ s / 2 := by
  set u := (v - a) / s with hu
  have hv : v = a + s * u := by rw [hu]; field_simp; ring
  have hu0 : 0 ≤ u := div_nonneg (by linarith) hs.le
  have hun : u ≤ n := by rw [hu, div_le_iff₀ hs]; linarith
  have hf1 : (⌊u + 1/2⌋₊ : ℝ) ≤ u + 1/2 := Nat.floor_le (by linarith)
  have hf2 : u + 1/2 < ⌊u + 1/2⌋₊ + 1 := Nat.lt_floor_add_one _
  have hle : ⌊u + 1/2⌋₊ ≤ n := by
    have h3 : (⌊u + 1/2⌋₊ : ℝ) < n + 1 := by linarith
    have : ⌊u + 1/2⌋₊ < n + 1 := by exact_mod_cast h3
    omega
  refine ⟨_, hle, ?_⟩
  have e : v - (a + s * (⌊u + 1/2⌋₊ : ℝ)) = s * (u - (⌊u + 1/2⌋₊ : ℝ)) := by rw [hv]; ring
  rw [e, abs_mul, abs_of_pos hs]
  have : |u - (⌊u + 1/2⌋₊ : ℝ)| ≤ 1/2 := abs_le.mpr ⟨by linarith, by linarith⟩
  nlinarith

theorem Axis.near {g : ℕ → ℝ} {n m : ℕ} {a s1 b s2 : ℝ} (h : Axis g n m a s1 b s2) {v : ℝ} (h0 : a ≤ v)
    (h1 : v ≤ b + s2 * m) : ∃ k ≤ n + m, |v - g k| ≤ (if v ≤ b then s1 else s2) / 2 := by
  split_ifs with hb
  · obtain ⟨k, hk, hd⟩ := near_regular (n := n) h.pos1 h0 (by rw [h.mid]; exact hb)
    exact ⟨k, by omega, by rw [h.low k hk]; exact hd⟩
  · obtain ⟨k, hk, hd⟩ := near_regular (n := m) h.pos2 (not_le.mp hb).le h1
    exact ⟨n + k, by omega, by rw [h.high k hk]; exact hd⟩

theorem tAxis : Axis (fun i => tDensity.getD i 0) 1000 300 273.15 0.05 323.15 0.5 :=
  ⟨by norm_num, by norm_num, by norm_num, fun _ h => t_low h, fun _ h => t_high h⟩

theorem pAxis : Axis (fun i => pDensity.getD i 0) 950 900 0.5 0.01 10 0.1 :=
  ⟨by norm_num, by norm_num, by norm_num, fun _ h => p_low h, fun _ h => p_high h⟩

/-- No grid temperature is the critical one. -/
theorem t_not_critical {i : ℕ} (h : i ≤ 1300) : tDensity.getD i 0 ≠ 304.1282 := by
  rcases le_or_gt i 1000 with hi | hi
  · rw [t_low hi]
    intro e
    have h1 : (i : ℝ) * 10000 = 6195640 := by linarith
    have h2 : i * 10000 = 6195640 := by exact_mod_cast h1
    omega
  · obtain ⟨j, rfl⟩ := Nat.exists_eq_add_of_le hi.le
    rw [t_high (by omega)]
    have : (0:ℝ) ≤ j := Nat.cast_nonneg j
    intro e
    linarith

theorem t_ge {i : ℕ} (h : i ≤ 1300) : 273.15 ≤ tDensity.getD i 0 := by
  rcases Nat.eq_zero_or_pos i with rfl | h0
  · rw [t_low (by norm_num)]; norm_num
  · have := tAxis.mono 0 i h0 h
    have e : tDensity.getD 0 0 = 273.15 := by rw [t_low (by norm_num)]; norm_num
    simp only [e] at this
    exact this.le

theorem shipped_spec {solve : RootFinder} {t : Table} (h : shippedTable solve = .ok t) :
    t.nx = 1300 ∧ t.ny = 1850 ∧ t.x = (fun i => tDensity.getD i 0) ∧ t.y = (fun j => pDensity.getD j 0) ∧
    ∀ i j, i ≤ 1300 → j ≤ 1850 →
      calculateDensity solve (Num.fin (tDensity.getD i 0)) (Num.fin (pDensity.getD j 0)) .auto true = .ok (t.z i j) := by
  unfold shippedTable generateTable at h
  rw [bind_eq_ok] at h
  obtain ⟨z, hz, ht⟩ := h
  injection ht with ht
  subst ht
  refine ⟨by simp [tableFile, t_length], by simp [tableFile, p_length], rfl, rfl, fun i j hi hj => ?_⟩
  have hi' : i < tDensity.length := by rw [t_length]; omega
  have hj' : j < pDensity.length := by rw [p_length]; omega
  have := C121_orientation (fun T P => calculateDensity solve T P .auto true) _ _ hz ⟨i, hi'⟩ ⟨j, hj'⟩
  simp only [tableFile]
  rw [dif_pos ⟨hi', hj'⟩, List.getD_eq_getElem?_getD, List.getD_eq_getElem?_getD,
    List.getElem?_eq_getElem hi', List.getElem?_eq_getElem hj', Option.getD_some, Option.getD_some]
  exact this

theorem shipped_regular {solve : RootFinder} {t : Table} (h : shippedTable solve = .ok t) : t.Regular := by
  obtain ⟨h1, h2, h3, h4, -⟩ := shipped_spec h
  refine ⟨by omega, by omega, fun i j hij hj => ?_, fun i j hij hj => ?_⟩
  · rw [h3]; exact tAxis.mono i j hij (by omega)
  · rw [h4]; exact pAxis.mono i j hij (by omega)

/-- **C121.** Interpolated densities, with the table the generating script makes.  From 0 to 200 °C and from 0.5 to
100 MPa the density of every row is the density calculated for a temperature at most 0.025 K away (0.25 K above
50 °C) and a pressure at most 0.005 MPa away (0.05 MPa above 10 MPa); by the published equation of state it has
that pressure, up to the tolerance of the root finder, and is on the side of the vapour pressure curve belonging
to it.  Outside that range it is NaN. -/
theorem C121_interpolated {solve : RootFinder} {tol : ℝ} (hs : Brackets solve tol) {t : Table}
    (h : shippedTable solve = .ok t) {n : ℕ} (T P : Fin n → ℝ) :
    ∃ d : Col n, densityOf solve t (finC T) (finC P) true = .ok d ∧ ∀ r : Fin n,
      (273.15 ≤ T r → T r ≤ 473.15 → 0.5 ≤ P r → P r ≤ 100 →
        ∃ T' P' ρ, |T r - T'| ≤ (if T r ≤ 323.15 then 0.025 else 0.25) ∧
          |P r - P'| ≤ (if P r ≤ 10 then 0.005 else 0.05) ∧ d r = Num.fin ρ ∧
          calculateDensity solve (Num.fin T') (Num.fin P') .auto true = .ok (Num.fin ρ) ∧ IsDensity tol T' P' ρ) ∧
      (T r < 273.15 ∨ 473.15 < T r ∨ P r < 0.5 ∨ 100 < P r → d r = .nan) := by
  obtain ⟨h1, h2, h3, h4, h5⟩ := shipped_spec h
  obtain ⟨d, hd, hr⟩ := C70_lookup (shipped_regular h) solve T P
  have ex0 : t.x 0 = 273.15 := by rw [h3]; simp only [t_low (Nat.zero_le 1000)]; norm_num
  have ey0 : t.y 0 = 0.5 := by rw [h4]; simp only [p_low (Nat.zero_le 950)]; norm_num
  have ex1 : t.x t.nx = 473.15 := by
    rw [h1, h3]
    have := t_high (le_refl 300)
    norm_num at this ⊢
    exact this
  have ey1 : t.y t.ny = 100 := by
    rw [h2, h4]
    have := p_high (le_refl 900)
    norm_num at this ⊢
    exact this
  refine ⟨d, hd, fun r => ⟨fun a1 a2 a3 a4 => ?_, fun a => ?_⟩⟩
  · obtain ⟨-, hin, -⟩ := hr r
    obtain ⟨i, j, hi, hj, hz, hx, hy⟩ := hin (by rw [ex0]; exact a1) (by rw [ex1]; exact a2)
      (by rw [ey0]; exact a3) (by rw [ey1]; exact a4)
    rw [h1] at hi hx
    rw [h2] at hj hy
    obtain ⟨k, hk, hdk⟩ := tAxis.near a1 (by norm_num; linarith)
    obtain ⟨l, hl, hdl⟩ := pAxis.near a3 (by norm_num; linarith)
    have hc := h5 i j hi hj
    obtain ⟨ρ, e, hρ⟩ := C108_density hs (le_trans (by norm_num) (t_ge hi)) (t_not_critical hi) hc
    refine ⟨tDensity.getD i 0, pDensity.getD j 0, ρ, ?_, ?_, by rw [hz, e], by rw [hc, e], hρ⟩
    · have e1 := hx k hk
      rw [h3] at e1
      refine (e1.trans hdk).trans ?_
      by_cases hb : T r ≤ 323.15
      · rw [if_pos hb, if_pos hb]; norm_num
      · rw [if_neg hb, if_neg hb]; norm_num
    · have e1 := hy l hl
      rw [h4] at e1
      refine (e1.trans hdl).trans ?_
      by_cases hb : P r ≤ 10
      · rw [if_pos hb, if_pos hb]; norm_num
      · rw [if_neg hb, if_neg hb]; norm_num
  · refine (hr r).2.2 ?_
    rw [ex0, ex1, ey0, ey1]
    exact a

/-- The script writes the table when a density is found for every pair of grid points. -/
theorem shipped_ok {solve : RootFinder}
    (h : ∀ T ∈ tDensity, ∀ P ∈ pDensity, ∃ z, calculateDensity solve (Num.fin T) (Num.fin P) .auto true = .ok z) :
    ∃ t, shippedTable solve = .ok t := by
  obtain ⟨z, hz⟩ := generate_ok (fun T P => calculateDensity solve T P .auto true)
    (fun i : Fin tDensity.length => Num.fin (tDensity.get i)) (fun j : Fin pDensity.length => Num.fin (pDensity.get j))
    fun i j => h _ (List.get_mem _ _) _ (List.get_mem _ _)
  refine ⟨tableFile tDensity pDensity z, ?_⟩
  unfold shippedTable generateTable
  rw [hz]
  rfl

/-- A root finder that accepts every point whose value is within the tolerance. -/
noncomputable def looseFinder (tol : ℝ) : RootFinder := fun f lo hi =>
  if h : ∃ x, lo ≤ x ∧ x ≤ hi ∧ ∃ e : ℝ, f x = .ok (Num.fin e) ∧ |e| ≤ tol then .ok h.choose else .error .valueError

theorem looseFinder_brackets (tol : ℝ) : Brackets (looseFinder tol) tol := by
  intro f lo hi x h
  unfold looseFinder at h
  split at h
  · rename_i hx
    injection h with h
    subst h
    exact hx.choose_spec
  · cases h

theorem loose_calculates {T : ℝ} (h0 : tripleTemperature ≤ T) (P : ℝ) :
    ∃ m : ℝ, ∀ tol, m ≤ tol → ∃ z, calculateDensity (looseFinder tol) (Num.fin T) (Num.fin P) .auto true = .ok z := by
  obtain ⟨lo, hi, hb, hlo, hlt⟩ := (C69_bracket h0 P).1 .auto
  have hT0 : 0 < T := lt_of_lt_of_le tripT_pos h0
  refine ⟨|pR .single T (lo * 0.95) - P|, fun tol ht => ?_⟩
  have hex : ∃ x, Num.fin (lo * 0.95) ≤ x ∧ x ≤ Num.fin (hi * 1.05) ∧ ∃ e : ℝ,
      (pressure0 .single (Num.fin T) x >>= fun p => .ok (p - Num.fin P)) = .ok (Num.fin e) ∧ |e| ≤ tol := by
    refine ⟨Num.fin (lo * 0.95), Num.fin_le.mpr (le_refl _), Num.fin_le.mpr (by linarith), _, ?_, ht⟩
    rw [pressure0_fin .single hT0 (by linarith), bind_ok, Num.fin_sub]
  refine ⟨hex.choose, ?_⟩
  unfold calculateDensity looseFinder
  simp only [hb, Num.fin_mul]
  rw [dif_pos hex]

theorem list_bound {α : Type} (p : α → ℝ → Prop) (l : List α)
    (h : ∀ a ∈ l, ∃ m : ℝ, ∀ t, m ≤ t → p a t) : ∃ m : ℝ, ∀ t, m ≤ t → ∀ a ∈ l, p a t := by
  induction l with
  | nil => exact ⟨0, fun _ _ a ha => by cases ha⟩
  | cons x l ih =>
    obtain ⟨m1, h1⟩ := h x (by simp)
    obtain ⟨m2, h2⟩ := ih fun a ha => h a (by simp [ha])
    refine ⟨max m1 m2, fun t ht a ha => ?_⟩
    rcases List.mem_cons.mp ha with rfl | ha
    · exact h1 t ((le_max_left _ _).trans ht)
    · exact h2 t ((le_max_right _ _).trans ht) a ha

/-- The hypotheses of `C121_interpolated` are met by some root finder. -/
theorem C121_reachable : ∃ (solve : RootFinder) (tol : ℝ) (t : Table), Brackets solve tol ∧ shippedTable solve = .ok t := by
  have hmem : ∀ T ∈ tDensity, tripleTemperature ≤ T := by
    intro T hT
    obtain ⟨i, hi, rfl⟩ := List.mem_iff_getElem.mp hT
    rw [t_length] at hi
    have := t_ge (i := i) (by omega)
    rw [List.getD_eq_getElem?_getD, List.getElem?_eq_getElem (by rw [t_length]; exact hi), Option.getD_some] at this
    refine le_trans ?_ this
    norm_num [tripleTemperature]
  obtain ⟨m, hm⟩ := list_bound (fun T tol => ∀ P ∈ pDensity, ∃ z, calculateDensity (looseFinder tol) (Num.fin T) (Num.fin P) .auto true = .ok z)
    tDensity fun T hT => list_bound (fun P tol => ∃ z, calculateDensity (looseFinder tol) (Num.fin T) (Num.fin P) .auto true = .ok z)
      pDensity fun P _ => loose_calculates (hmem T hT) P
  obtain ⟨t, ht⟩ := shipped_ok (solve := looseFinder m) (hm m (le_refl m))
  exact ⟨_, m, t, looseFinder_brackets m, ht⟩

end OPE.CO2
