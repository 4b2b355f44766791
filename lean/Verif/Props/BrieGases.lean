import Verif.Props.Fluids
import Verif.Props.Published5
import Verif.Props.EndToEnd

/-!
# C40 (given gases, indices out of range), C123 (no gas constituent), C124 (negative indices)
-/

namespace OPE

open Classical

variable {n : ℕ}

/-- **C40, given gases.** The indices given in the configuration are the ones used. -/
theorem C40_given_gases (T : Col n) (cs : List (FluidSpec n)) (method : MixMethod) (e : Num) (idx : List ℤ)
    (model : Provider) (f : Fluids n) (h : mkFluids T cs method e (some idx) model = .ok f) : f.brieGases = idx := by
  unfold mkFluids at h
  obtain ⟨-, -, h⟩ := bind_eq_ok.mp h
  obtain ⟨-, h⟩ := failIf_bind_ok.mp h
  obtain ⟨-, h⟩ := failIf_bind_ok.mp h
  obtain ⟨fs, -, h⟩ := bind_eq_ok.mp h
  injection h with h
  subst h
  rfl

theorem pyPop_cases {α : Type} (l : List α) (i : ℤ) :
    pyPop l i = .error .indexError ∨
      ∃ x l', pyPop l i = .ok (x, l') ∧ l'.length < l.length ∧ -(l.length : ℤ) ≤ i ∧ i < l.length := by
  unfold pyPop
  by_cases hi : i < 0
  · simp only [hi, if_true]
    by_cases hj : i + (l.length : ℤ) < 0
    · left; simp only [hj, if_true]
    · simp only [hj, if_false]
      have hlt : (i + (l.length : ℤ)).toNat < l.length := by omega
      right
      rw [List.getElem?_eq_getElem hlt]
      exact ⟨_, _, rfl, by rw [List.length_eraseIdx_of_lt hlt]; omega, by omega, by omega⟩
  · simp only [hi, if_false]
    by_cases hlt : i.toNat < l.length
    · right
      rw [List.getElem?_eq_getElem hlt]
      exact ⟨_, _, rfl, by rw [List.length_eraseIdx_of_lt hlt]; omega, by omega, by omega⟩
    · left
      rw [List.getElem?_eq_none (by omega)]

theorem popAll_out {α : Type} (is : List ℤ) (l : List α)
    (h : ∃ i ∈ is, (l.length : ℤ) ≤ i ∨ i < -(l.length : ℤ)) : popAll is l = .error .indexError := by
  induction is generalizing l with
  | nil => obtain ⟨i, hi, -⟩ := h; cases hi
  | cons j is ih =>
    unfold popAll
    rcases pyPop_cases l j with e | ⟨x, l', e, hl, h1, h2⟩
    · rw [e]; rfl
    · rw [e, bind_ok]
      dsimp only
      have : popAll is l' = .error .indexError := by
        apply ih
        obtain ⟨i, hi, ho⟩ := h
        rcases List.mem_cons.mp hi with rfl | hi
        · omega
        · exact ⟨i, hi, by omega⟩
      rw [this]
      rfl

/-- **C40, out of range.** A gas index outside the list of constituents (Python counts negative ones from the end)
raises `IndexError`. -/
theorem C40_out_of_range (f : Fluids n) (materials : List (Mat n)) (hm : f.method = .brie)
    (h : ∃ i ∈ f.brieGases, (materials.length : ℤ) ≤ i ∨ i < -(materials.length : ℤ)) :
    f.mix materials = .error .indexError := by
  unfold Fluids.mix
  simp only [hm]
  rw [popAll_out]
  · rfl
  · obtain ⟨i, hi, ho⟩ := h
    exact ⟨i, (List.mergeSort_perm _ _).mem_iff.mpr hi, ho⟩

/-! ### C124: negative indices -/

/-- The position named by a Python index in a list of length `k`. -/
def position (k : ℕ) (i : ℤ) : ℕ := (if i < 0 then i + k else i).toNat

/-- C124 as a statement: indices from `-k` to `k - 1` name constituents as in Python, whatever their order. -/
def NegativeIndices : Prop :=
  ∀ (n : ℕ) (f : Fluids n) (P : List (Mat n × Col n)), f.method = .brie →
    f.constituents.map (·.fraction) = P.map Prod.snd →
    (∀ i ∈ f.brieGases, -(P.length : ℤ) ≤ i ∧ i < P.length) → (f.brieGases.map (position P.length)).Nodup →
    f.mix (P.map Prod.fst) =
      brie ((notAtPositions (f.brieGases.map (position P.length)) P).map Prod.fst)
        ((notAtPositions (f.brieGases.map (position P.length)) P).map Prod.snd)
        ((atPositions (f.brieGases.map (position P.length)) P).map Prod.fst)
        ((atPositions (f.brieGases.map (position P.length)) P).map Prod.snd) (fun _ => f.brieConstant)

theorem pyPop_position {α : Type} (l : List α) (i : ℤ) (h1 : -(l.length : ℤ) ≤ i) (h2 : i < l.length) :
    pyPop l i = pyPop l (position l.length i : ℤ) := by
  unfold pyPop position
  by_cases hi : i < 0
  · have h3 : ¬ (i + (l.length : ℤ) < 0) := by omega
    have h4 : ¬ (((i + (l.length : ℤ)).toNat : ℤ) < 0) := by omega
    simp only [hi, if_true, h3, if_false, h4, Int.toNat_natCast]
  · have h4 : ¬ ((i.toNat : ℤ) < 0) := by omega
    simp only [hi, if_false, h4, Int.toNat_natCast]

/-- **C124, the part that holds.** One index, negative or not. -/
theorem C124_partial (f : Fluids n) (P : List (Mat n × Col n)) (hm : f.method = .brie)
    (hf : f.constituents.map (·.fraction) = P.map Prod.snd) (i : ℤ) (hg : f.brieGases = [i])
    (h1 : -(P.length : ℤ) ≤ i) (h2 : i < P.length) :
    f.mix (P.map Prod.fst) =
      brie ((notAtPositions [position P.length i] P).map Prod.fst)
        ((notAtPositions [position P.length i] P).map Prod.snd)
        ((atPositions [position P.length i] P).map Prod.fst)
        ((atPositions [position P.length i] P).map Prod.snd) (fun _ => f.brieConstant) := by
  have hr : position P.length i < P.length := by unfold position; split <;> omega
  have key := (C40_brie_selection { f with brieGases := [(position P.length i : ℤ)] } P [position P.length i] hm
    rfl (by simp) hf (by simpa using hr)).1
  rw [← key]
  unfold Fluids.mix
  simp only [hm, hg, List.mergeSort_singleton, popAll]
  rw [pyPop_position (P.map Prod.fst) i (by simpa using h1) (by simpa using h2),
    pyPop_position (f.constituents.map (·.fraction)) i (by rw [hf]; simpa using h1) (by rw [hf]; simpa using h2)]
  rw [hf]
  simp only [List.length_map]

/-- **C124 is false.** With two constituents, `brie_gases: [-1, -2]` raises `IndexError`: the index `-2` is looked up
after the last constituent has been removed. -/
theorem C124_refuted : ¬ NegativeIndices := by
  intro h
  have key := h 1
    { temperature := c 20, constituents := [⟨.brine (c 0), none, c 1⟩, ⟨.brine (c 0), none, c 0⟩], method := .brie,
      brieConstant := Num.fin 3, brieGases := [-1, -2], model := .default }
    [(Mat.ofReal (fun _ => 1) (fun _ => 0) (fun _ => 1), finC fun _ => 1),
     (Mat.ofReal (fun _ => 1) (fun _ => 0) (fun _ => 1), finC fun _ => 0)] rfl rfl (by simp) (by simp [position])
  have hl : Fluids.mix (n := 1)
    { temperature := c 20, constituents := [⟨.brine (c 0), none, c 1⟩, ⟨.brine (c 0), none, c 0⟩], method := .brie,
      brieConstant := Num.fin 3, brieGases := [-1, -2], model := .default }
    [Mat.ofReal (fun _ => 1) (fun _ => 0) (fun _ => 1), Mat.ofReal (fun _ => 1) (fun _ => 0) (fun _ => 1)]
      = .error .indexError := by
    unfold Fluids.mix
    have hs : ([-1, -2] : List ℤ).mergeSort (fun a b => decide (b ≤ a)) = [-1, -2] :=
      List.mergeSort_of_pairwise (by simp)
    simp only [hs]
    rfl
  rw [show List.map Prod.fst [(Mat.ofReal (n := 1) (fun _ => 1) (fun _ => 0) (fun _ => 1), finC fun _ => (1:ℝ)),
     (Mat.ofReal (n := 1) (fun _ => 1) (fun _ => 0) (fun _ => 1), finC fun _ => (0:ℝ))] = _ from rfl] at key
  rw [List.map_cons, List.map_cons, List.map_nil, hl] at key
  simp [atPositions, notAtPositions, position, List.zipIdx] at key
  have hw := (C104_mixing_and_gassmann (n := 1)).1
    [(Mat.ofReal (fun _ => 1) (fun _ => 0) (fun _ => 1), (fun _ => ⟨1, 1⟩), fun _ => 1),
     (Mat.ofReal (fun _ => 1) (fun _ => 0) (fun _ => 1), (fun _ => ⟨1, 1⟩), fun _ => 0)]
    ⟨by simp, by simp [Mat.IsFluid, Mat.ofReal]; rfl, by simp, by simp; norm_num⟩
  obtain ⟨m, hm, -⟩ := hw
  have := (C20_one_phase (n := 1) [Mat.ofReal (fun _ => 1) (fun _ => 0) (fun _ => 1), Mat.ofReal (fun _ => 1) (fun _ => 0) (fun _ => 1)]
    [finC fun _ => 1, finC fun _ => 0] (fun _ => Num.fin 3) (by simp) rfl).2
  rw [this] at key
  rw [List.map_cons, List.map_cons, List.map_nil, List.map_cons, List.map_cons, List.map_nil] at hm
  rw [hm] at key
  cases key

/-! ### C123: no constituent of type gas -/

/-- The documented default of the gas index (fluids.py:43-45): "If a constituent of type gas is given, defaults to
index of that constituent.  Otherwise, assumes first constituent is gas." -/
def FirstIsGas : Prop :=
  ∀ (n : ℕ) (T : Col n) (cs : List (FluidSpec n)) (e : Num) (model : Provider) (f : Fluids n)
    (m : Mat n) (s : Col n) (P : List (Mat n × Col n)),
    mkFluids T cs .brie e none model = .ok f →
    (∀ x ∈ cs, x.kind.type ≠ "gas" ∧ x.kind.type ≠ "carbon_dioxide") →
    f.constituents.map (·.fraction) = s :: P.map Prod.snd →
    f.mix (m :: P.map Prod.fst) = brie (P.map Prod.fst) (P.map Prod.snd) [m] [s] (fun _ => f.brieConstant)

theorem no_gas_indices {T : Col n} {cs : List (FluidSpec n)} {method : MixMethod} {e : Num} {model : Provider}
    {f : Fluids n} (h : mkFluids T cs method e none model = .ok f)
    (hg : ∀ x ∈ cs, x.kind.type ≠ "gas" ∧ x.kind.type ≠ "carbon_dioxide") : f.brieGases = [] := by
  obtain ⟨idx, e1, -, e2⟩ := C40_default_gases T cs method e model f h
  have : idx = [] := by
    apply List.eq_nil_iff_forall_not_mem.mpr
    intro i hi
    obtain ⟨x, hx, ho⟩ := (e2 i).mp hi
    obtain ⟨g1, g2⟩ := hg x (List.mem_of_getElem? hx)
    rcases ho with ho | ho
    · exact g1 ho
    · exact g2 ho
  rw [e1, this]
  rfl

/-- **C123, what happens.** In Brie mode without a constituent of type gas or carbon dioxide all constituents are
liquids: the mixture is Wood's mixture of them all. -/
theorem C123_partial {T : Col n} {cs : List (FluidSpec n)} {method : MixMethod} {e : Num} {model : Provider}
    {f : Fluids n} (h : mkFluids T cs method e none model = .ok f)
    (hg : ∀ x ∈ cs, x.kind.type ≠ "gas" ∧ x.kind.type ≠ "carbon_dioxide") (materials : List (Mat n))
    (hl : materials.length = f.constituents.length) (hne : materials ≠ []) :
    f.mix materials = wood materials (f.constituents.map (·.fraction)) := by
  unfold Fluids.mix
  cases hm : f.method with
  | wood => rfl
  | brie =>
    dsimp only
    rw [no_gas_indices h hg]
    have hs : ([] : List ℤ).mergeSort (fun a b => decide (b ≤ a)) = [] := by simp
    rw [hs]
    simp only [popAll, bind_ok]
    exact (C20_one_phase materials _ _ hne (by simpa using hl)).1

/-- Two liquids of one row, each with saturation one half. -/
noncomputable def exLiquids : List (FluidIn 1) :=
  [⟨Mat.ofReal (fun _ => 1) (fun _ => 0) (fun _ => 1), fun _ => 1, fun _ => 1, fun _ => 0.5, rfl, rfl⟩,
   ⟨Mat.ofReal (fun _ => 3) (fun _ => 0) (fun _ => 1), fun _ => 3, fun _ => 1, fun _ => 0.5, rfl, rfl⟩]

/-- **C123 is false.** Two liquids with bulk moduli 1 and 3, mixed in equal parts with exponent 1, have 1.5 (Wood),
not 2 (the first as gas). -/
theorem C123_refuted : ¬ FirstIsGas := by
  intro h
  obtain ⟨fl, hfl, hm, hc⟩ := mkFluids_given (F := exLiquids) (by simp [exLiquids])
    (by simp [exLiquids]; norm_num) (by simp [exLiquids]; norm_num) (c 20) .brie (Num.fin 1) none .default
  have hk : ∀ x ∈ exLiquids.map (fun x => (⟨.material x.mat, none, some (finC x.s)⟩ : FluidSpec 1)),
      x.kind.type ≠ "gas" ∧ x.kind.type ≠ "carbon_dioxide" := by
    intro x hx
    obtain ⟨y, -, rfl⟩ := List.mem_map.mp hx
    simp [FluidKind.type]
  have hb : fl.brieConstant = Num.fin 1 := by
    unfold mkFluids at hfl
    obtain ⟨_, -, hfl⟩ := bind_eq_ok.mp hfl
    obtain ⟨_, -, hfl⟩ := bind_eq_ok.mp hfl
    obtain ⟨_, -, hfl⟩ := bind_eq_ok.mp hfl
    obtain ⟨_, -, hfl⟩ := bind_eq_ok.mp hfl
    injection hfl with hfl
    subst hfl
    rfl
  set A : Mat 1 := Mat.ofReal (fun _ => 1) (fun _ => 0) (fun _ => 1) with hA
  set B : Mat 1 := Mat.ofReal (fun _ => 3) (fun _ => 0) (fun _ => 1) with hB
  have hfr : fl.constituents.map (·.fraction) = [finC fun _ => 0.5, finC fun _ => 0.5] := by rw [hc]; rfl
  have e1 := C123_partial hfl hk [A, B] (by rw [hc]; rfl) (by simp)
  have e2 := h 1 (c 20) _ (Num.fin 1) .default fl A (finC fun _ => 0.5) [(B, finC fun _ => 0.5)] hfl hk (by rw [hfr]; rfl)
  simp only [List.map_cons, List.map_nil] at e2
  rw [e1, hfr, hb] at e2
  have fA : A.IsFluid fun _ => ⟨1, 1⟩ := ⟨rfl, rfl, rfl, fun _ => by simp⟩
  have fB : B.IsFluid fun _ => ⟨3, 1⟩ := ⟨rfl, rfl, rfl, fun _ => by simp⟩
  obtain ⟨w, hw, iw⟩ := (C104_mixing_and_gassmann (n := 1)).1
    [(A, (fun _ => ⟨1, 1⟩), fun _ => 0.5), (B, (fun _ => ⟨3, 1⟩), fun _ => 0.5)]
    ⟨by simp, by simp [fA, fB], by simp; norm_num, by simp; norm_num⟩
  obtain ⟨b, hbr, ib⟩ := (C104_mixing_and_gassmann (n := 1)).2.1
    [(B, (fun _ => ⟨3, 1⟩), fun _ => 0.5)] [(A, (fun _ => ⟨1, 1⟩), fun _ => 0.5)] (fun _ => 1)
    (.of_good ⟨by simp, by simp [fB], by simp; norm_num, by simp; norm_num⟩
    ⟨by simp, by simp [fA], by simp; norm_num, by simp; norm_num⟩ (by simp; norm_num)) (by simp)
  simp only [List.map_cons, List.map_nil] at hw hbr
  rw [hw, show (fun _ => Num.fin 1 : Col 1) = finC fun _ => 1 from rfl, hbr] at e2
  injection e2 with e2
  rw [e2] at iw
  have k1 := congrFun iw.1 0
  have k2 := congrFun ib.1 0
  rw [k2] at k1
  have k3 := Num.fin_inj.mp k1
  norm_num [Published.brie, Published.wood, FluidList.at] at k3

/-- The hypotheses of C40 (given and out-of-range gases), C123 and C124 are met. -/
example : ∃ fl, mkFluids (c 20) (exLiquids.map fun x => ⟨.material x.mat, none, some (finC x.s)⟩) .brie (Num.fin 1)
    (some [-1]) .default = .ok fl ∧ fl.method = .brie ∧ fl.brieGases = [-1] := by
  obtain ⟨fl, hfl, hm, -⟩ := mkFluids_given (F := exLiquids) (by simp [exLiquids])
    (by simp [exLiquids]; norm_num) (by simp [exLiquids]; norm_num) (c 20) .brie (Num.fin 1) (some [-1]) .default
  exact ⟨fl, hfl, hm, C40_given_gases _ _ _ _ _ _ _ hfl⟩

end OPE
