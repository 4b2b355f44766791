import Verif.Props.Main2
import Verif.Props.BatzleWang3
import Verif.Props.SpanWagner6

/-!
# What does hold of the properties the code violates (C55, C77, C91)
-/

namespace OPE.Main

open Classical

variable {K D I : Type}

theorem filterMap_all {α β : Type} (f : α → Option β) (l : List α) (t : List β)
    (h : l.map f = t.map some) : l.filterMap f = t := by
  induction l generalizing t with
  | nil =>
    cases t with
    | nil => rfl
    | cons => cases h
  | cons a l ih =>
    cases t with
    | nil => cases h
    | cons b t =>
      rw [List.map_cons, List.map_cons, List.cons.injEq] at h
      rw [List.filterMap_cons, h.1, ih t h.2]

theorem flatten_ones {β : Type} (l : List (List β)) (h : ∀ t ∈ l, t.length = 1) :
    l.flatten.length = l.length ∧ ∀ i (hi : i < l.length), l.flatten[i]? = l[i][0]? := by
  induction l with
  | nil => exact ⟨rfl, fun i hi => absurd hi (Nat.not_lt_zero i)⟩
  | cons a l ih =>
    obtain ⟨h1, h2⟩ := ih fun t ht => h t (List.mem_cons_of_mem _ ht)
    have ha := h a List.mem_cons_self
    obtain ⟨x, rfl⟩ := List.length_eq_one_iff.mp ha
    refine ⟨by simp [h1], fun i hi => ?_⟩
    cases i with
    | zero => simp
    | succ i => simpa using h2 i (by simpa using hi)

/-- **C55, the part that holds.** What is missing is one row of output for every row that fails: the table
written has as many rows as there are rows that succeed; when every row succeeds the table has exactly the
rows of the input, and its row `i` is the result of row `i` alone. -/
theorem C55_partial (w : World K D I) (k : K) (rows : List D) (T : ℝ)
    (ht : w.threshold = some T) (hk : w.config = .ok (some k)) (hd : w.data = some (.ok rows))
    (hone : ∀ x t, rowAlone w k x = some t → t.length = 1) (t : Table) (hw : t ∈ (run w).written) :
    t.length + ((numbered rows).filter fun x => (rowAlone w k x).isNone).length = rows.length ∧
    ((∀ x ∈ numbered rows, ∃ u, rowAlone w k x = some u) →
      t.length = rows.length ∧
      ∀ i (d : D), rows[i]? = some d → ∃ r, rowAlone w k (i, d) = some [r] ∧ t[i]? = some r) := by
  have hrun : run w = runWithThreshold w T := by unfold run; rw [ht]
  rw [hrun, runWithThreshold_eq w k rows T hk hd] at hw
  have htt : t = ((numbered rows).filterMap (rowAlone w k)).flatten := by
    split_ifs at hw
    · cases hw
    · cases hw
    · obtain ⟨code, -, h2, -⟩ := writeAndCalibrate_code w
        ((numbered rows).filterMap (rowAlone w k)).flatten
      rw [h2] at hw
      exact List.mem_singleton.mp hw
  have hall : ∀ u ∈ (numbered rows).filterMap (rowAlone w k), u.length = 1 := by
    intro u hu
    obtain ⟨x, -, hx⟩ := List.mem_filterMap.mp hu
    exact hone x u hx
  obtain ⟨h1, h2⟩ := flatten_ones _ hall
  refine ⟨?_, fun hs => ?_⟩
  · rw [htt, h1, ← length_numbered rows]
    generalize numbered rows = l
    induction l with
    | nil => rfl
    | cons x l ih =>
      rw [List.filterMap_cons, List.filter_cons]
      rcases hx : rowAlone w k x with _ | u
      · simp only [Option.isNone_none, if_true, List.length_cons]; omega
      · simp only [Option.isNone_some, Bool.false_eq_true, if_false, List.length_cons]; omega
  · obtain ⟨us, hus⟩ : ∃ us : List Table, (numbered rows).map (rowAlone w k) = us.map some := by
      clear h1 h2 htt hw hall
      generalize numbered rows = l at hs
      induction l with
      | nil => exact ⟨[], rfl⟩
      | cons x l ih =>
        obtain ⟨us, hus⟩ := ih fun y hy => hs y (List.mem_cons_of_mem _ hy)
        obtain ⟨u, hu⟩ := hs x List.mem_cons_self
        exact ⟨u :: us, by rw [List.map_cons, List.map_cons, hu, hus]⟩
    have hf := filterMap_all _ _ _ hus
    have hlen : us.length = rows.length := by
      have := congrArg List.length hus
      simp only [List.length_map, length_numbered] at this
      exact this.symm
    rw [hf] at h1 h2 hall htt
    refine ⟨by rw [htt, h1, hlen], fun i d hi => ?_⟩
    have hil : i < us.length := by
      rw [hlen]; exact (List.getElem?_eq_some_iff.mp hi).1
    have hx : (numbered rows)[i]? = some (i, d) := by
      unfold numbered
      obtain ⟨hb, hd'⟩ := List.getElem?_eq_some_iff.mp hi
      simp [List.getElem?_eq_getElem, hb, hd']
    have hr : rowAlone w k (i, d) = some us[i] := by
      have := congrArg (fun l => l[i]?) hus
      simp only [List.getElem?_map, hx, Option.map_some] at this
      rw [List.getElem?_eq_getElem hil] at this
      simpa using this
    obtain ⟨r, hr1⟩ := List.length_eq_one_iff.mp (hall us[i] (List.getElem_mem hil))
    refine ⟨r, by rw [hr, hr1], ?_⟩
    rw [htt, h2 i hil, hr1]; rfl

end OPE.Main

namespace OPE

variable {n : ℕ}

/-- **C77, the part that holds.** The unit factors apart, `ideal_gas` follows the ideal gas law: from one
condition to another, density changes as `P M / T` and velocity as `sqrt (T / M)`, as documented, and the
shear modulus is zero.  Missing: the values themselves are in other units than documented (`C77_refuted`). -/
theorem C77_partial (T P G T' P' G' : ℝ) (hT : 0 < T) (hP : 0 < P) (hG : 0 < G)
    (hT' : 0 < T') (hP' : 0 < P') (hG' : 0 < G') :
    ∃ m m' : Mat 1, idealGas (c T) (c P) (c G) = .ok m ∧ idealGas (c T') (c P') (c G') = .ok m' ∧
      ∃ ρ ρ' v v' : ℝ, m.density = c ρ ∧ m'.density = c ρ' ∧ m.vp = c v ∧ m'.vp = c v' ∧
        ρ' / ρ = P' * G' / T' / (P * G / T) ∧ v' / v = Real.sqrt (T' / G' / (T / G)) := by
  obtain ⟨m, h1, h2, h3⟩ := C77_refuted (n := 1) (fun _ => T) (fun _ => P) (fun _ => G) (fun _ => hT)
    (fun _ => hP) fun _ => hG
  obtain ⟨m', h1', h2', h3'⟩ := C77_refuted (n := 1) (fun _ => T') (fun _ => P') (fun _ => G')
    (fun _ => hT') (fun _ => hP') fun _ => hG'
  have hR : 0 < gasConstant := by unfold gasConstant; norm_num
  refine ⟨m, m', h1, h1', _, _, _, _, h2, h2', h3, h3', ?_, ?_⟩
  · field_simp
  · have h1000 : Real.sqrt 1000 ≠ 0 := by positivity
    rw [div_div_div_cancel_right₀ h1000, ← Real.sqrt_div (by positivity)]
    congr 1
    field_simp

end OPE

namespace OPE.CO2

open Classical

variable {n : ℕ}

/-- A root finder that finds a root whenever there is one in the bracket. -/
def Finds (solve : RootFinder) : Prop :=
  ∀ f lo hi, (∃ x, lo ≤ x ∧ x ≤ hi ∧ f x = .ok (Num.fin 0)) → ∃ y, solve f lo hi = .ok y

theorem idealFinder_finds : Finds idealFinder := by
  intro f lo hi h
  unfold idealFinder
  exact ⟨_, dif_pos h⟩

/-- **C91, the part that holds.** A table of temperatures above the triple point with no pressure above 1.01
times the largest temperature is accepted, provided the starting values and the Newton iteration end with
positive numbers and the bracket of every row contains its density; every result has the given pressure up to
the tolerances.  Missing: larger pressures (`C91_refuted`). -/
theorem C91_partial {solve : RootFinder} {tol : ℝ} (hf : Finds solve) (hs : Brackets solve tol)
    {start : Col n → Col n → Except Err (Col n)}
    {newton : (Col n → Except Err (Col n)) → Col n → Except Err (Col n)} (T P : Fin n → ℝ) (phase : Phase)
    (hT : ∀ i, tripleTemperature ≤ T i) (hP : ∀ i, ∃ j, P i ≤ T j * 1.01)
    {x0 : Col n} {root : Fin n → ℝ} (hroot : ∀ i, 0 < root i) (h0 : start (finC T) (finC P) = .ok x0)
    (h1 : newton (fun x => vec fun i => (pressure0 .array (finC T i) (x i)) >>= fun p => .ok (p - finC P i)) x0
      = .ok (finC root))
    (hb : ∀ i, ∃ lo hi ρ : ℝ, densityBounds (Num.fin (T i)) (Num.fin (P i)) phase = (Num.fin lo, Num.fin hi) ∧
      0.95 * lo ≤ ρ ∧ ρ ≤ 1.05 * hi ∧
      pressure0 .single (Num.fin (T i)) (Num.fin ρ) = .ok (Num.fin (P i))) :
    ∃ d : Fin n → ℝ, arrayDensity solve start newton (finC T) (finC P) phase = .ok (finC d) ∧
      ∀ i, 0 < d i ∧ ∃ k p, pressure0 k (Num.fin (T i)) (Num.fin (d i)) = .ok (Num.fin p) ∧
        |p - P i| ≤ max tol 1e-5 := by
  have hok : ∃ d, arrayDensity solve start newton (finC T) (finC P) phase = .ok d := by
    unfold arrayDensity
    rw [failIf_false, bind_ok, h0, bind_ok, h1, bind_ok]
    · have hp : (vec fun i => pressure0 .array (finC T i) (finC root i))
          = .ok (finC fun i => pR .array (T i) (root i)) :=
        vec_ok fun i => pressure0_fin .array (lt_of_lt_of_le tripT_pos (hT i)) (hroot i)
      rw [hp, bind_ok]
      have hi : ∀ i, ∃ y, (if ¬ isClose (finC (fun i => pR .array (T i) (root i)) i) (finC P i) ∨
          finC root i < (densityBounds (finC T i) (finC P i) phase).1 ∨
          (densityBounds (finC T i) (finC P i) phase).2 < finC root i ∨ finC root i = .nan
          then calculateDensity solve (finC T i) (finC P i) phase true
          else (.ok (finC root i) : Except Err Num)) = .ok y := by
        intro i
        split_ifs
        · obtain ⟨lo, hi, ρ, e, h2, h3, h4⟩ := hb i
          unfold calculateDensity
          dsimp only
          rw [show finC T i = Num.fin (T i) from rfl, show finC P i = Num.fin (P i) from rfl, e]
          obtain ⟨y, hy⟩ := hf (fun x => (pressure0 .single (Num.fin (T i)) x) >>= fun p => .ok (p - Num.fin (P i)))
            (Num.fin lo * Num.fin 0.95) (Num.fin hi * Num.fin 1.05) ⟨Num.fin ρ, by
              rw [Num.fin_mul, Num.fin_le]; linarith, by rw [Num.fin_mul, Num.fin_le]; linarith, by
              rw [h4, bind_ok, Num.fin_sub, sub_self]⟩
          exact ⟨y, by rw [hy]⟩
        · exact ⟨_, rfl⟩
      choose y hy using hi
      exact ⟨y, vec_ok hy⟩
    · rintro ⟨m, i, ⟨⟨j, hj⟩, hm⟩, hlt⟩
      obtain ⟨l, hl⟩ := hP i
      have := hm l
      rw [← hj] at this hlt
      rw [show finC T l = Num.fin (T l) from rfl, show finC T j = Num.fin (T j) from rfl, Num.fin_le] at this
      rw [show finC T j = Num.fin (T j) from rfl, show finC P i = Num.fin (P i) from rfl, Num.fin_mul,
        Num.fin_lt] at hlt
      linarith
  obtain ⟨d, hd⟩ := hok
  have h := fun i => C90_numbers hs hd i (hT i)
  choose ρ p h2 h3 h4 h5 using h
  refine ⟨ρ, ?_, fun i => ⟨h3 i, ?_⟩⟩
  · rw [hd]; congr 1; funext i; exact h2 i
  · obtain ⟨k, hk⟩ := h4 i
    exact ⟨k, p i, hk, h5 i⟩

/-- A case that meets the hypotheses: for any temperature above the critical one and any density between
0.1 and 1500, the pressure of that density, if it is at most 1.01 times the temperature. -/
example (T ρ : ℝ) (hT : criticalTemperature ≤ T) (h1 : 0.1 ≤ ρ) (h2 : ρ ≤ 1500)
    (hP : pR .single T ρ ≤ T * 1.01) (phase : Phase) :
    ∃ d : Fin 1 → ℝ, arrayDensity idealFinder (fun _ _ => .ok (c 1)) (fun _ x => .ok x) (finC fun _ => T)
      (finC fun _ => pR .single T ρ) phase = .ok (finC d) := by
  have htr : tripleTemperature ≤ T := le_trans (by norm_num [tripleTemperature, criticalTemperature]) hT
  obtain ⟨lo, hi, hlo, hhi, hb⟩ := (C69_bracket htr (pR .single T ρ)).2.2 hT
  obtain ⟨d, hd, -⟩ := C91_partial (n := 1) (root := fun _ => 1) idealFinder_finds idealFinder_brackets
    (start := fun _ _ => .ok (c 1)) (newton := fun _ x => .ok x) (fun _ => T) (fun _ => pR .single T ρ) phase
    (fun _ => htr) (fun i => ⟨i, hP⟩) (fun _ => one_pos) rfl rfl fun _ =>
      ⟨lo, hi, ρ, hb phase, by linarith, by linarith,
        pressure0_fin .single (lt_of_lt_of_le tripT_pos htr) (by linarith)⟩
  exact ⟨d, hd⟩

end OPE.CO2
