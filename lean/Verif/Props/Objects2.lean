import Verif.Props.Objects

/-!
# C155: sections once built
-/

namespace OPE.Objects

open Classical

variable {n : ℕ}

/-- The operation replaces the constituents of section `k`. -/
def Op.Replaces (k : ℕ) : Op n → Prop
  | .assignConstituents i _ => i = k
  | _ => False

theorem specs_fill {s : Session n} {refs : List ℕ} {m : Col n} :
    (s.fill refs m).specs refs = (s.specs refs).map fun x => { x with fraction := some (x.fraction.getD m) } := by
  unfold Session.specs
  rw [List.map_filterMap]
  refine List.filterMap_congr fun i hi => ?_
  rw [fill_getElem]
  refine congrArg (fun g => Option.map g s.constituents[i]?) (funext fun x => ?_)
  cases hx : x.fraction with
  | none => simp [hi, hx]
  | some f => cases x; simp at hx; simp [hx]

theorem given_map_some {α : Type} (xs : List α) (g : α → Col n) :
    givenFractions (xs.map fun x => some (g x)) = xs.map g := by
  unfold givenFractions
  rw [List.filterMap_map]
  simp [Function.comp_def]

theorem specs_length {s : Session n} {refs : List ℕ} (hk : s.Knows refs) : (s.specs refs).length = refs.length := by
  unfold Session.specs
  rw [List.length_filterMap_eq_countP]
  rw [List.countP_eq_length]
  intro i hi
  simp [hk i hi]

theorem specs_mem {s : Session n} {refs : List ℕ} {x : FluidSpec n} (h : x ∈ s.specs refs) : x ∈ s.constituents := by
  obtain ⟨i, -, hi⟩ := List.mem_filterMap.mp h
  exact List.mem_of_getElem? hi

theorem forM_checked {xs : List (FluidSpec n)} (h : ∀ x ∈ xs, ∀ f, x.fraction = some f → InRange f) :
    (xs.forM fun x => match x.fraction with
      | none => (.ok () : Except Err Unit)
      | some f => fractionIsRatio f) = .ok () := by
  induction xs with
  | nil => rfl
  | cons x xs ih =>
    change ((match x.fraction with
      | none => (.ok () : Except Err Unit)
      | some f => fractionIsRatio f) >>= fun _ => xs.forM _) = .ok ()
    have : (match x.fraction with
      | none => (.ok () : Except Err Unit)
      | some f => fractionIsRatio f) = .ok () := by
      cases hx : x.fraction with
      | none => rfl
      | some f => exact ratio_iff.mpr (h x (by simp) f hx)
    rw [this]
    exact ih fun y hy => h y (List.mem_cons_of_mem _ hy)

/-- A section built from objects is the one built from their values. -/
theorem newFluids_spec {s s' : Session n} (hs : s.Ok) {T : Col n} {refs : List ℕ} {m : MixMethod} {e : Num}
    {g : Option (List ℤ)} {md : Provider} (h : step s (.newFluids T refs m e g md) = (.ok (), s')) :
    ∃ F o, mkFluids T (s.specs refs) m e g md = .ok F ∧ s'.fluids = s.fluids ++ [o] ∧ o.refs = refs ∧
      s'.fluidsNow o = some F ∧ ∀ j ∈ refs, ∃ x, s'.constituents[j]? = some x ∧ x.fraction ≠ none := by
  rw [step] at h
  split_ifs at h with hk hl hsum <;> try (simp at h; done)
  cases hf : s.fix refs with
  | error e => rw [hf] at h; simp at h
  | ok s₁ =>
    rw [hf] at h
    simp only [Prod.mk.injEq, true_and] at h
    obtain ⟨rfl, -, -, hfix⟩ := fix_ok hf
    subst h
    set fs := (s.specs refs).map (·.fraction) with hfs
    set q : Col n := c 1 - sumCols (givenFractions fs) with hq
    have hval : mkFluids T (s.specs refs) m e g md = .ok
        { temperature := T, method := m, brieConstant := e, model := md
          constituents := (s.specs refs).zipWith (fun x f => ⟨x.kind, x.model, f⟩)
            (givenFractions (fs.map fun f => some (f.getD q)))
          brieGases := g.getD (defaultBrieGases (s.specs refs)) } := by
      unfold mkFluids
      erw [forM_checked fun x hx => hs x (specs_mem hx)]
      rw [bind_ok, specs_length hk, failIf_false hl, bind_ok,
        failIf_false hsum, bind_ok, hfix, bind_ok]
    refine ⟨_, _, hval, rfl, rfl, ?_, ?_⟩
    · unfold Session.fluidsNow
      have e1 : ∀ l l', Session.specs ⟨(s.fill refs q).constituents, l, l'⟩ refs = (s.fill refs q).specs refs :=
        fun _ _ => rfl
      dsimp only
      rw [e1, specs_fill, List.map_map]
      have e2 : ((fun x : FluidSpec n => x.fraction) ∘ fun x : FluidSpec n => { x with fraction := some (x.fraction.getD q) }) =
          fun x : FluidSpec n => some (x.fraction.getD q) := rfl
      rw [e2, if_pos (by
        rw [List.count_eq_zero]
        simp), given_map_some, List.zipWith_map_left]
      congr 2
      rw [hfs, List.map_map]
      exact congrArg _ (given_map_some _ _).symm
    · intro j hj
      have hlt := hk j hj
      have e3 : (s.fill refs q).constituents[j]? = _ := fill_getElem
      rw [List.getElem?_eq_getElem hlt, Option.map_some] at e3
      refine ⟨_, e3, ?_⟩
      split_ifs with hc
      · simp
      · exact fun hnone => hc ⟨hj, hnone⟩

theorem step_fluids {s : Session n} {op : Op n} {k : ℕ} {o : FluidsObj n} (ho : s.fluids[k]? = some o)
    (hop : ¬ op.Replaces k) : (step s op).2.fluids[k]? = some o := by
  have hk : k < s.fluids.length := (List.getElem?_eq_some_iff.mp ho).1
  cases op with
  | constituent y =>
    rw [step]
    cases h : checkFraction y.fraction <;> exact ho
  | assignFraction i f =>
    rw [step]
    split_ifs
    · exact ho
    · cases h : checkFraction f <;> exact ho
  | newFluids T refs m e g md =>
    rw [step]
    split_ifs <;> try exact ho
    cases h : s.fix refs with
    | error e => exact ho
    | ok s' =>
      obtain ⟨rfl, -⟩ := fix_ok h
      dsimp only [Session.fill]
      rw [List.getElem?_append_left hk]; exact ho
  | newMinerals refs =>
    rw [step]
    split_ifs <;> try exact ho
    cases h : s.fix refs with
    | error e => exact ho
    | ok s' =>
      obtain ⟨rfl, -⟩ := fix_ok h
      dsimp only
      split_ifs <;> exact ho
  | assignConstituents i refs =>
    rw [step]
    split_ifs <;> try exact ho
    have hij : i ≠ k := hop
    dsimp only
    rw [List.getElem?_modify]; simp [hij, ho]

theorem run_fluids {s : Session n} {ops : List (Op n)} {k : ℕ} {o : FluidsObj n} (ho : s.fluids[k]? = some o)
    (hops : ∀ op ∈ ops, ¬ op.Replaces k) : (run s ops).fluids[k]? = some o := by
  induction ops generalizing s with
  | nil => exact ho
  | cons op ops ih =>
    exact ih (step_fluids ho (hops op (List.mem_cons_self ..))) fun p hp => hops p (List.mem_cons_of_mem _ hp)

/-- **C155.** In any session, a fluids section that is built from constituent objects is the section built from
their values, and whatever is done afterwards - other sections are built from the same constituents, operations
raise - it stays the same until a fraction of one of its constituents, or its list of constituents, is assigned. -/
theorem C155_built_partial (ops ops' : List (Op n)) (s s' : Session n) (hs : s = run Session.start ops) (T : Col n)
    (refs : List ℕ) (m : MixMethod) (e : Num) (g : Option (List ℤ)) (md : Provider)
    (h : step s (.newFluids T refs m e g md) = (.ok (), s'))
    (hops : ∀ op ∈ ops', (∀ j ∈ refs, ¬ op.Assigns j) ∧ ¬ op.Replaces s.fluids.length) :
    ∃ F o, mkFluids T (s.specs refs) m e g md = .ok F ∧ (run s' ops').fluids[s.fluids.length]? = some o ∧
      (run s' ops').fluidsNow o = some F := by
  have hok : s.Ok := by
    subst hs
    exact run_ok (s := Session.start) (by intro y hy; simp [Session.start] at hy) ops
  obtain ⟨F, o, h1, h2, h3, h4, h5⟩ := newFluids_spec hok h
  refine ⟨F, o, h1, run_fluids ?_ fun op hop => (hops op hop).2, ?_⟩
  · rw [h2]; simp
  · rw [← h4]
    have : (run s' ops').specs o.refs = s'.specs o.refs := by
      unfold Session.specs
      rw [h3]
      refine List.filterMap_congr fun j hj => ?_
      obtain ⟨x, hx, hf⟩ := h5 j hj
      rw [hx, C154_given_partial s' ops' j x hx (.inl hf) fun op hop => (hops op hop).1 j hj]
    unfold Session.fluidsNow
    rw [this]

/-- **C155, after an assignment.** When the constituents of a section are replaced, the section consists of exactly
the new constituents, in their order and with their fractions at the time of the call; its other parameters - also
its list of gases - are those it was built with, the other sections are unchanged, and the replaced constituents no
longer matter. -/
theorem C155_replaced_partial (s s' : Session n) (k : ℕ) (o : FluidsObj n) (ho : s.fluids[k]? = some o) (refs : List ℕ)
    (h : step s (.assignConstituents k refs) = (.ok (), s')) (ops' : List (Op n))
    (hops : ∀ op ∈ ops', ¬ op.Replaces k) :
    s'.constituents = s.constituents ∧ s'.minerals = s.minerals ∧ (∀ j, j ≠ k → s'.fluids[j]? = s.fluids[j]?) ∧
    ∃ o', (run s' ops').fluids[k]? = some o' ∧ o' = { o with refs := refs } ∧
      ∀ x : List (FluidConst n), (run s' ops').specs refs = x.map (fun y => ⟨y.kind, y.model, some y.fraction⟩) →
        (run s' ops').fluidsNow o' = some
          { temperature := o.temperature, method := o.method, brieConstant := o.brieConstant, model := o.model,
            brieGases := o.brieGases, constituents := x } := by
  rw [step] at h
  split_ifs at h with hk hl hsum <;> try (simp at h; done)
  simp only [Prod.mk.injEq, true_and] at h
  have hk' : k < s.fluids.length := (List.getElem?_eq_some_iff.mp ho).1
  have hnew : s'.fluids[k]? = some { o with refs := refs } := by
    rw [← h]
    simp [List.getElem?_modify, ho]
  refine ⟨by rw [← h], by rw [← h], fun j hj => ?_, _, run_fluids hnew hops, rfl, fun x hx => ?_⟩
  · rw [← h]
    simp [List.getElem?_modify, hj.symm]
  · unfold Session.fluidsNow
    dsimp only
    rw [hx, List.map_map]
    have e2 : ((fun y : FluidSpec n => y.fraction) ∘ fun y : FluidConst n => (⟨y.kind, y.model, some y.fraction⟩ : FluidSpec n))
        = fun y => some y.fraction := rfl
    rw [e2, if_pos (by rw [List.count_eq_zero]; simp), given_map_some, List.zipWith_map_left]
    congr 2
    rw [List.zipWith_map_right]
    clear hx
    induction x with
    | nil => rfl
    | cons y ys ih => simp only [List.zipWith_cons_cons]; rw [ih]

/-- The two constituents of a section in the other order. -/
example (o : FluidsObj 1) : ∃ s', step (n := 1) ⟨[gasPart (some (c 0.3)), gasPart (some (c 0.5))], [o], []⟩
    (.assignConstituents 0 [1, 0]) = (.ok (), s') ∧ s'.specs [1, 0]
      = [⟨.gas (c 0.7), none, c 0.5⟩, ⟨.gas (c 0.7), none, c 0.3⟩].map
          (fun y : FluidConst 1 => ⟨y.kind, y.model, some y.fraction⟩) := by
  refine ⟨⟨[gasPart (some (c 0.3)), gasPart (some (c 0.5))], [{ o with refs := [1, 0] }], []⟩, ?_, rfl⟩
  rw [step, if_neg (by simp [Session.Knows]), if_neg (by simp), if_neg]
  · rfl
  · rintro ⟨i, hi⟩
    have e : givenFractions ((Session.specs (n := 1) ⟨[gasPart (some (c 0.3)), gasPart (some (c 0.5))], [o], []⟩ [1, 0]).map
      (·.fraction)) = [c 0.5, c 0.3] := rfl
    rw [e, sum_two] at hi
    simp only [c, Num.fin_lt] at hi
    norm_num at hi

/-- A section of the constituents with fractions 0.5 and the rest, and then the assignment of 0.9 to the first. -/
noncomputable def overfull : List (Op 1) :=
  [.constituent (gasPart (some (c 0.3))), .constituent (gasPart none), fluidsOf [0, 1],
    .assignFraction 0 (some (c 0.9))]

/-- **C155, refuted.** After an assignment the fractions of a section can sum to more than one. -/
theorem C155_refuted : ¬ ∀ (ops : List (Op 1)) (o : FluidsObj 1), o ∈ (run Session.start ops).fluids →
    ∀ F, (run Session.start ops).fluidsNow o = some F → ∀ i, ¬ Num.fin (1 + 1e-5) < sumCols (F.constituents.map (·.fraction)) i := by
  intro h
  have h3 : checkFraction (gasPart (some (c 0.3))).fraction = .ok () := range_const (by norm_num) (by norm_num)
  have hn : checkFraction (gasPart none).fraction = .ok () := rfl
  have h9 : checkFraction (some (c 0.9 : Col 1)) = .ok () := range_const (by norm_num) (by norm_num)
  set s₂ : Session 1 := ⟨[gasPart (some (c 0.3)), gasPart none], [], []⟩ with hs2
  have e2 : (step (step Session.start (.constituent (gasPart (some (c 0.3))))).2 (.constituent (gasPart none))).2 = s₂ := by
    simp only [step, h3, hn, Session.start]; rfl
  have hb := build_one_missing (s := s₂) (refs := [0, 1]) (a := 0.3)
    (by intro i hi; simp at hi; rcases hi with rfl | rfl <;> simp [hs2]) (by simp) (by rfl) (by norm_num) (by norm_num)
  have hok : s₂.Ok := by
    rw [← e2]
    exact step_ok (step_ok (by intro y hy; simp [Session.start] at hy) _) _
  set s₃ := (step s₂ (fluidsOf [0, 1])).2 with hs3
  obtain ⟨F, o, -, hfl, href, hnow, -⟩ := newFluids_spec (s' := s₃) hok
    (T := c 80) (refs := [0, 1]) (m := .wood) (e := .fin 3) (g := none) (md := .default) (by
      rw [hs3, ← hb.1]; rfl)
  have hc : s₃.constituents = [gasPart (some (c 0.3)), gasPart (some (c (1 - 0.3)))] := by
    rw [hb.2]
    simp [hs2, Session.fill, gasPart, List.mapIdx_cons]
  have hrun : run Session.start overfull = s₃.write 0 (some (c 0.9)) := by
    unfold overfull
    rw [run, run, run, run, run, e2, ← hs3, step, if_neg (by rw [hc]; simp), h9]
  have hcon : (run Session.start overfull).constituents = [gasPart (some (c 0.9)), gasPart (some (c (1 - 0.3)))] := by
    rw [hrun]; unfold Session.write; simp only [hc]; rfl
  have hspec : (run Session.start overfull).specs o.refs = [gasPart (some (c 0.9)), gasPart (some (c (1 - 0.3)))] := by
    unfold Session.specs; rw [hcon, href]; rfl
  have := h overfull o (by rw [hrun]; simp [Session.write, hfl])
    ⟨o.temperature, [⟨.gas (c 0.7), none, c 0.9⟩, ⟨.gas (c 0.7), none, c (1 - 0.3)⟩], o.method, o.brieConstant, o.brieGases, o.model⟩
    (by unfold Session.fluidsNow; rw [hspec]; simp [gasPart, givenFractions]) 0
  apply this
  have e5 : ([⟨.gas (c 0.7), none, c 0.9⟩, ⟨.gas (c 0.7), none, c (1 - 0.3)⟩] : List (FluidConst 1)).map (·.fraction) =
      [c 0.9, c (1 - 0.3)] := rfl
  dsimp only
  rw [e5, sum_two]
  simp only [c, Num.fin_lt]
  norm_num

end OPE.Objects
