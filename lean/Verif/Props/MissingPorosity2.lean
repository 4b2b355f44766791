import Verif.Spec.MissingPorosity
import Verif.Props.MissingPorosity
import Verif.Props.Schema
import Verif.Props.Order

/-!
# A missing porosity does not stop the program (C151)
-/

namespace OPE.Parse

open Classical Main

variable {n : ℕ}

theorem lookup_of_mem {α : Type} {ys : List (String × α)} (h : (ys.map Prod.fst).Nodup) {k : String} {x : α}
    (hx : (k, x) ∈ ys) : ys.lookup k = some x := by
  induction ys with
  | nil => cases hx
  | cons a ys ih =>
    obtain ⟨j, y⟩ := a
    rw [List.map_cons, List.nodup_cons] at h
    rcases List.mem_cons.mp hx with e | hx'
    · injection e with e1 e2
      subst e1 e2
      simp
    · have : k ≠ j := fun e => h.1 (by subst e; exact List.mem_map.mpr ⟨(k, x), hx', rfl⟩)
      rw [List.lookup_cons, beq_eq_false_iff_ne.mpr this]
      exact ih h.2 hx'

/-- Inserting columns into the dry rock section, with the porosity column emptied or not. -/
theorem insertDict_emptied {rows : Fin n → DataRow} {emptied : Fin n → Prop} {col : String}
    {cells : Fin n → Cell} (hcol : ∀ i, rows i col = some (cells i)) :
    ∀ {ys : List (String × Yaml)} {vs : List (String × Val n)},
      (∀ e ∈ ys, e.1 ≠ "porosity" → ¬ Mentions e.2 col) →
      (∀ x, ("porosity", x) ∈ ys → x = .dict [("column", .str col)]) →
      insertFrameDict (frameOf rows) (mapArrDict Empty.elim ys) = .ok vs →
      ∃ vs' : List (String × Val n),
        insertFrameDict (frameOf (emptyIn col emptied rows)) (mapArrDict Empty.elim ys) = .ok vs' ∧
        vs'.map Prod.fst = vs.map Prod.fst ∧ (∀ k, k ≠ "porosity" → vs'.lookup k = vs.lookup k) ∧
        (∀ v, vs.lookup "porosity" = some v → v = .arr (.col cells) ∧
          vs'.lookup "porosity" = some (.arr (.col fun i => if emptied i then .num .nan else cells i))) := by
  intro ys
  induction ys with
  | nil =>
    intro vs _ _ h
    injection h with h
    subst h
    exact ⟨[], rfl, rfl, fun _ _ => rfl, fun v hv => nomatch hv⟩
  | cons a ys ih =>
    obtain ⟨k, x⟩ := a
    intro vs h1 h2 h
    simp only [mapArrDict, insertFrameDict] at h
    obtain ⟨w, hw, h⟩ := bind_eq_ok.mp h
    obtain ⟨ws, hws, h⟩ := bind_eq_ok.mp h
    injection h with h
    subst h
    obtain ⟨ws', e1, e2, e3, e4⟩ := ih (fun e he => h1 e (List.mem_cons_of_mem _ he))
      (fun y hy => h2 y (List.mem_cons_of_mem _ hy)) hws
    by_cases hk : k = "porosity"
    · subst hk
      have hx := h2 x List.mem_cons_self
      subst hx
      have hget : ∀ (r : Fin n → DataRow) (cs : Fin n → Cell), (∀ i, r i col = some (cs i)) →
          insertFrame (frameOf r) (mapArr Empty.elim (.dict [("column", .str col)] : Yaml))
            = .ok (.arr (.col cs) : Val n) := by
        intro r cs hr
        have : (frameOf r).column col = some (.col cs) := by
          simp [frameOf, hr]
        simp [mapArr, mapArrDict, insertFrame, Frame.get, this, wrapColumnError]
      have hw1 := hget rows cells hcol
      rw [hw1] at hw
      injection hw with hw
      subst hw
      have hw2 := hget (emptyIn col emptied rows) (fun i => if emptied i then .num .nan else cells i) (by
        intro i
        unfold emptyIn
        by_cases he : emptied i
        · simp [he]
        · simp [he, hcol i])
      refine ⟨("porosity", .arr (.col fun i => if emptied i then .num .nan else cells i)) :: ws', ?_, ?_, ?_, ?_⟩
      · simp only [mapArrDict, insertFrameDict]
        rw [hw2, bind_ok, e1, bind_ok]
      · simp [e2]
      · intro j hj
        simp only [List.lookup_cons, beq_eq_false_iff_ne.mpr hj]
        exact e3 j hj
      · intro v hv
        simp only [List.lookup_cons, beq_self_eq_true] at hv
        injection hv with hv
        exact ⟨hv.symm, by simp⟩
    · have hno := h1 (k, x) List.mem_cons_self hk
      have hins : insertFrame (frameOf (emptyIn col emptied rows)) (mapArr Empty.elim x)
          = insertFrame (frameOf rows) (mapArr Empty.elim x : Val n) := by
        refine insert_congr _ fun s hs i => ?_
        have hne : s ≠ col := fun e => hno (by subst e; exact mentions_mapArr hs)
        unfold emptyIn
        simp [hne]
      refine ⟨(k, w) :: ws', ?_, by simp [e2], ?_, ?_⟩
      · simp only [mapArrDict, insertFrameDict]
        rw [hins, hw, bind_ok, e1, bind_ok]
      · intro j hj
        simp only [List.lookup_cons]
        by_cases hjk : j == k
        · simp only [hjk]
        · simp only [hjk]
          exact e3 j hj
      · intro v hv
        have : ("porosity" == k) = false := beq_eq_false_iff_ne.mpr (Ne.symm hk)
        simp only [List.lookup_cons, this] at hv ⊢
        exact e4 v hv

theorem args_dict {fields : List String} {vs : List (String × Val n)} :
    args fields (.dict vs) = if (vs.map Prod.fst).all (fun k => decide (k ∈ fields)) then
      .ok (fun k => vs.lookup k) else reject := by
  unfold args named
  simp [List.all_map, Function.comp_def]

/-- Reading a configuration that takes the porosity (and nothing else) from a column, with that column emptied in
some rows: the same sections with these porosities missing. -/
theorem reading_emptied (conv : Conv) {cfg : Yaml} {col : String} (hcfg : PorosityColumn cfg col)
    (rows : Fin n → DataRow) (emptied : Fin n → Prop) (s : Sections n) (hs : reading conv cfg n rows = .ok s) :
    reading conv cfg n (emptyIn col emptied rows)
      = .ok { s with porosity := fun i => if emptied i then .nan else s.porosity i } := by
  obtain ⟨xs, ys, rfl, hys, hnd, hpor, h1, h2⟩ := hcfg.porosity
  unfold reading readWith at hs ⊢
  dsimp only at hs ⊢
  obtain ⟨⟨⟩, hkeys, hs⟩ := bind_eq_ok.mp hs
  have hsec : ∀ key, key ≠ "dry_rock" →
      insertDataframe (some (frameOf (emptyIn col emptied rows))) (mapArr Empty.elim ((xs.lookup key).getD (.dict []))
          : Val n)
        = insertDataframe (some (frameOf rows)) (mapArr Empty.elim ((xs.lookup key).getD (.dict []))) := by
    intro key hkey
    unfold insertDataframe
    dsimp only
    cases hl : xs.lookup key with
    | none => rfl
    | some x =>
      refine insert_congr _ fun s hs i => ?_
      have hne : s ≠ col := fun e => h2 key x hkey hl (by subst e; exact mentions_mapArr hs)
      unfold emptyIn
      simp [hne]
  rw [hkeys, bind_ok, hsec "minerals" (by decide), hsec "fluids" (by decide), hsec "pressure" (by decide)]
  obtain ⟨mi, hmi, hs⟩ := bind_eq_ok.mp hs
  obtain ⟨fl, hfl, hs⟩ := bind_eq_ok.mp hs
  obtain ⟨dr, hdr, hs⟩ := bind_eq_ok.mp hs
  obtain ⟨pr, hpr, hs⟩ := bind_eq_ok.mp hs
  rw [hmi, bind_ok, hfl, bind_ok]
  rw [hys] at hdr ⊢
  unfold insertDataframe at hdr ⊢
  dsimp only [Option.getD_some] at hdr ⊢
  have hnoref : ∀ name, mapArrDict Empty.elim ys ≠ ([("column", name)] : List (String × Val n)) := by
    intro name e
    have hm : ("porosity" : String) ∈ (mapArrDict Empty.elim ys : List (String × Val n)).map Prod.fst := by
      have : ∀ l : List (String × Yaml), (mapArrDict Empty.elim l : List (String × Val n)).map Prod.fst
          = l.map Prod.fst := by
        intro l
        induction l with
        | nil => rfl
        | cons a l ih => obtain ⟨k, x⟩ := a; simp [mapArrDict, ih]
      rw [this]
      exact List.mem_map.mpr ⟨_, hpor, rfl⟩
    rw [e] at hm
    simp at hm
  have hform : ∀ t : Frame (Arr n), insertFrame t (mapArr Empty.elim (.dict ys : Yaml) : Val n)
      = (insertFrameDict t (mapArrDict Empty.elim ys) >>= fun vs => .ok (.dict vs)) := by
    intro t
    exact OPE.insertFrame_dict t _ hnoref
  rw [hform] at hdr ⊢
  obtain ⟨vs, hvs, hdr⟩ := bind_eq_ok.mp hdr
  injection hdr with hdr
  subst hdr
  -- the column exists
  have hlook := Schema.insertFrameDict_lookup hvs "porosity"
  rw [lookup_of_mem hnd hpor] at hlook
  obtain ⟨z, w, hz, hw, hins⟩ := hlook.resolve_left (by simp)
  injection hz with hz
  subst hz
  have hcells : ∃ cells : Fin n → Cell, ∀ i, rows i col = some (cells i) := by
    by_cases hh : ∀ i, (rows i col).isSome
    · exact ⟨fun i => (rows i col).get (hh i), fun i => by simp⟩
    · exfalso
      have : (frameOf rows).column col = none := by simp only [frameOf, dif_neg hh]
      simp [mapArr, mapArrDict, insertFrame, Frame.get, this, wrapColumnError] at hins
  obtain ⟨cells, hcells⟩ := hcells
  obtain ⟨vs', hvs', hkeys', hother, hporv⟩ := insertDict_emptied (emptied := emptied) hcells h1 (by
    intro x hx
    have := (lookup_of_mem hnd hx).symm.trans (lookup_of_mem hnd hpor)
    injection this) hvs
  obtain ⟨hwv, hpor'⟩ := hporv w hw
  subst hwv
  unfold insertDataframe at hpr
  dsimp only at hpr
  rw [hvs', bind_ok, bind_ok, hpr, bind_ok]
  unfold parseSections at hs ⊢
  obtain ⟨m, hm, hs⟩ := bind_eq_ok.mp hs
  obtain ⟨f, hf, hs⟩ := bind_eq_ok.mp hs
  obtain ⟨d, hd, hs⟩ := bind_eq_ok.mp hs
  obtain ⟨p, hp, hs⟩ := bind_eq_ok.mp hs
  obtain ⟨m', hm', hs⟩ := bind_eq_ok.mp hs
  injection hs with hs
  have hd' : parseDryRock conv (.dict vs')
      = .ok { d with porosity := fun i => if emptied i then .nan else d.porosity i } := by
    unfold parseDryRock at hd ⊢
    rw [args_dict] at hd ⊢
    rw [hkeys']
    obtain ⟨a, ha, hd⟩ := bind_eq_ok.mp hd
    split at ha
    · rename_i hall
      rw [if_pos hall]
      injection ha with ha
      subst ha
      obtain ⟨mo, hmo, hd⟩ := bind_eq_ok.mp hd
      obtain ⟨po, hpo, hd⟩ := bind_eq_ok.mp hd
      obtain ⟨ad, had, hd⟩ := bind_eq_ok.mp hd
      injection hd with hd
      subst hd
      rw [bind_ok]
      have e1 : defaulted (fun k => vs'.lookup k) "model" (parseSandstone conv) defaultSandstone = .ok mo := by
        rw [← hmo]; unfold defaulted; dsimp only; rw [hother "model" (by decide)]
      have e3 : defaulted (fun k => vs'.lookup k) "adjustments" (listOf (parseAdjustment conv)) [] = .ok ad := by
        rw [← had]; unfold defaulted; dsimp only; rw [hother "adjustments" (by decide)]
      have e2 : defaulted (fun k => vs'.lookup k) "porosity" (toCol conv) (c 0.3)
          = .ok fun i => if emptied i then .nan else po i := by
        unfold defaulted at hpo ⊢
        dsimp only at hpo ⊢
        rw [hw] at hpo
        rw [hpor']
        dsimp only [toCol] at hpo ⊢
        rw [vec_ok_iff] at hpo ⊢
        intro i
        by_cases he : emptied i
        · simp [he, Cell.toNum, orReject]
        · simp only [if_neg he]; exact hpo i
      rw [e1, bind_ok, e2, bind_ok, e3, bind_ok]
    · cases ha
  rw [hm, bind_ok, hf, bind_ok, hd', bind_ok, hp, bind_ok, hm', bind_ok, ← hs]

end OPE.Parse

namespace OPE.Main

open Classical Parse

variable {K D : Type}

/-- In normal mode, a data file whose rows are read and calculated: the table that is written. -/
theorem normal_writes (co2 : ∀ n, CO2Model n)
    (reading : K → ∀ n, (Fin n → D) → Except Err (Sections n))
    (readingNoData : K → Except Err (Sections 1))
    (w : World K D (Σ n, (Fin n → ℕ) × Input n)) (k : K) (hk : w.config = .ok (some k)) (rows : List D)
    (ht : w.threshold = none) {m : ℕ} (g : Fin m → ℕ × D) (hg : numbered rows = List.ofFn g) (s : Sections m)
    (r : Result m) (hs : reading k m (fun i => (g i).2) = .ok s) (hr : calculate (co2 m) s = .ok r) :
    (run (pipeline co2 reading readingNoData { w with data := some (.ok rows) })).written
      = [List.ofFn fun i => ((g i).1, r.at i)] := by
  have hm : m = (numbered rows).length := by rw [hg]; simp
  subst hm
  have hgg : g = (numbered rows).get := by
    apply List.ofFn_injective
    rw [← hg, List.ofFn_get]
  subst hgg
  set V := pipeline co2 reading readingNoData { w with data := some (.ok rows) } with hV
  unfold calculate at hr
  obtain ⟨inp, h1, h2⟩ := bind_eq_ok.mp hr
  have hi : makeInput V = .ok ⟨_, fun i => ((numbered rows).get i).1, inp⟩ := by
    rw [makeInput_ok]
    refine ⟨k, some (numbered rows), hk, .inr ⟨rows, rfl, rfl⟩, ?_⟩
    change (liftErr (reading k _ (fun i => ((numbered rows).get i).2) >>= mkInput) >>= _) = _
    rw [hs, bind_ok, h1]
    rfl
  have hc : V.calculate ⟨_, fun i => ((numbered rows).get i).1, inp⟩
      = .ok (List.ofFn fun i => (((numbered rows).get i).1, r.at i)) := by
    change (liftErr (calculateResults (co2 _) inp) >>= _) = _
    rw [h2]
    rfl
  unfold run
  rw [show V.threshold = none from ht, hi]
  dsimp only
  rw [hc]
  obtain ⟨code, -, e2, -⟩ := writeAndCalibrate_code V (List.ofFn fun i => (((numbered rows).get i).1, r.at i))
  exact e2

/-- **C151.** The program, normal mode, with a configuration that takes the porosity (and nothing else) from a
column of the data file: emptying the entry of that column in any rows of a data file for which a table is written,
a table is written still, with the same rows; the rows that were not emptied are unchanged, and in the emptied ones
the density is missing, the mineral moduli are unchanged and the other columns are unchanged or missing. -/
theorem C151_program (co2 : ∀ n, CO2Model n) (hco2 : CO2RowWise co2) (conv : Conv)
    (w : World Yaml DataRow (Σ n, (Fin n → ℕ) × Input n)) (cfg : Yaml) (col : String)
    (hcfg : PorosityColumn cfg col) (hk : w.config = .ok (some cfg)) (ht : w.threshold = none)
    (rows : List DataRow) (emptied : ℕ → Prop) (t : Table)
    (hw : (run (pipeline co2 (reading conv) (readingNoData conv)
      { w with data := some (.ok rows) })).written = [t]) :
    ∃ t' : Table, (run (pipeline co2 (reading conv) (readingNoData conv)
        { w with data := some (.ok (rows.mapIdx fun i row s =>
          if s = col ∧ emptied i then some (.num .nan) else row s)) })).written = [t'] ∧
      List.Forall₂ (fun x' x => x'.1 = x.1 ∧
        if emptied x.1 then x'.2.rsat = Num.nan ∧ x'.2.kmin = x.2.kmin ∧ x'.2.kminFls = x.2.kminFls ∧
          (x'.2.kdry = x.2.kdry ∨ x'.2.kdry = Num.nan) ∧ (x'.2.ksat = x.2.ksat ∨ x'.2.ksat = Num.nan) ∧
          (x'.2.mysat = x.2.mysat ∨ x'.2.mysat = Num.nan)
        else x'.2 = x.2) t' t := by
  obtain ⟨m, g, s, r, hg, hs, hr, rfl⟩ := normal_written co2 _ _ w cfg hk rows ht t hw
  obtain ⟨hm, hgi⟩ := numbered_ofFn hg
  obtain ⟨r', hr', hrow⟩ := C151_missing_porosity hco2 s r hr fun i => emptied i
  have hs' := reading_emptied conv hcfg _ (fun i : Fin m => emptied i) s hs
  refine ⟨_, normal_writes co2 _ _ w cfg hk _ ht
    (fun i => ((g i).1, emptyIn col (fun i : Fin m => emptied i) (fun i => (g i).2) i)) ?_ _ r' hs' hr', ?_⟩
  · apply List.ext_getElem
    · simp [length_numbered, hm]
    · intro i h1 h2
      rw [List.length_ofFn] at h2
      have hi : i < rows.length := hm ▸ h2
      have := (hgi ⟨i, h2⟩).2
      rw [List.getElem?_eq_getElem hi] at this
      injection this with this
      simp only [numbered, List.getElem_zip, List.getElem_range, List.getElem_mapIdx, List.getElem_ofFn]
      rw [(hgi ⟨i, h2⟩).1]
      refine Prod.ext rfl ?_
      funext a
      simp only [emptyIn, this]
  · rw [List.forall₂_iff_get]
    refine ⟨by simp, fun i h1 h2 => ?_⟩
    rw [List.length_ofFn] at h2
    have h := hrow ⟨i, h2⟩
    simp only [List.get_eq_getElem, List.getElem_ofFn, (hgi ⟨i, h2⟩).1, true_and]
    exact h

end OPE.Main

/-! ### The hypotheses are met: quartz sand with brine, two rows, the first porosity emptied -/

namespace OPE.Main

open Classical Parse

theorem exYaml_porosityColumn : PorosityColumn (exYaml (num 3)) "phi" := by
  refine ⟨_, _, rfl, rfl, by decide, by simp, ?_, ?_⟩
  · intro e he hne
    simp only [List.mem_cons, List.not_mem_nil, or_false] at he
    rcases he with rfl | rfl
    · simp [mentions_dict, mentions_str, mentions_scalar, num]
    · exact absurd rfl hne
  · intro key x hk hl
    simp only [List.lookup_cons, List.lookup_nil] at hl
    repeat' split at hl
    all_goals first
      | (injection hl with hl; subst hl
         simp [mentions_dict, mentions_list, mentions_str, mentions_scalar, num]; done)
      | (rename_i h; simp at h; exact absurd h hk)
      | (rename_i h _; simp at h; exact absurd h hk)
      | cases hl

/-- The program writes a table for the two rows. -/
theorem exWrites (conv : Conv) (w : World Yaml DataRow (Σ n, (Fin n → ℕ) × Input n))
    (hk : w.config = .ok (some (exYaml (num 3)))) (ht : w.threshold = none) :
    ∃ t, (run (pipeline (fun _ _ _ _ => .error .notImplemented) (reading conv) (readingNoData conv)
      { w with data := some (.ok [exRow 0.2 3, exRow 0.3 3]) })).written = [t] := by
  obtain ⟨r, -, -, -, -, -, hr, -⟩ := exSections_ok (fun _ _ _ => .error .notImplemented) ![0.2, 0.3]
    (fun i => (exPor_range i).1) fun i => (exPor_range i).2
  exact ⟨_, normal_writes _ _ _ w _ hk _ ht (fun i : Fin 2 => ((i : ℕ), exRow (![0.2, 0.3] i) 3))
    (by simp [numbered, List.range_succ, List.ofFn_succ]) _ r (exRead_num conv ![0.2, 0.3] fun _ => 3) hr⟩

/-- C151 on it: a table of two rows is written, the first without density, the second unchanged. -/
example (conv : Conv) (w : World Yaml DataRow (Σ n, (Fin n → ℕ) × Input n))
    (hk : w.config = .ok (some (exYaml (num 3)))) (ht : w.threshold = none) :
    ∃ x0 x1 y0, (run (pipeline (fun _ _ _ _ => .error .notImplemented) (reading conv) (readingNoData conv)
        { w with data := some (.ok [exRow 0.2 3, exRow 0.3 3]) })).written = [[(0, x0), (1, x1)]] ∧
      (run (pipeline (fun _ _ _ _ => .error .notImplemented) (reading conv) (readingNoData conv)
        { w with data := some (.ok [fun s => if s = "phi" then some (.num .nan) else exRow 0.2 3 s,
          exRow 0.3 3]) })).written = [[(0, y0), (1, x1)]] ∧ y0.rsat = Num.nan ∧ y0 ⊑ x0 := by
  obtain ⟨t, h⟩ := exWrites conv w hk ht
  obtain ⟨t', h', hrel⟩ := C151_program _ noCO2 conv w _ "phi" exYaml_porosityColumn hk ht _ (fun i => i = 0) t h
  obtain ⟨m, g, s, r, hg, -, -, rfl⟩ := normal_written _ _ _ w _ hk _ ht t h
  obtain ⟨hm, hgi⟩ := numbered_ofFn hg
  simp only [List.length_cons, List.length_nil] at hm
  subst hm
  have e : (List.ofFn fun i => ((g i).1, r.at i)) = [(0, r.at 0), (1, r.at 1)] := by
    simp only [(hgi _).1]
    simp [List.ofFn_succ]
  rw [e] at h hrel
  obtain ⟨y, rest, h1, hrel2, rfl⟩ := List.forall₂_cons_right_iff.mp hrel
  obtain ⟨z, rest', h2, hrel3, rfl⟩ := List.forall₂_cons_right_iff.mp hrel2
  cases hrel3
  obtain ⟨a1, a2⟩ := y
  obtain ⟨b1, b2⟩ := z
  obtain ⟨h11, h12⟩ := h1
  obtain ⟨h21, h22⟩ := h2
  dsimp only at h11 h12 h21 h22
  rw [if_pos rfl] at h12
  rw [if_neg (by decide)] at h22
  subst h11 h21 h22
  obtain ⟨c1, c2, c3, c4, c5, c6⟩ := h12
  refine ⟨_, _, a2, h, ?_, c1, And.intro c5.symm ⟨.inr c2, c4.symm, c6.symm, .inl c1, .inr c3⟩⟩
  rw [← h']
  congr 6
  simp only [List.mapIdx_cons, List.mapIdx_nil, List.cons.injEq, and_true]
  constructor
  · trivial
  · funext s
    simp

/-- C150 on it: both tables are written, and C150 compares them. -/
example (conv : Conv) (w : World Yaml DataRow (Σ n, (Fin n → ℕ) × Input n))
    (hk : w.config = .ok (some (exYaml (num 3)))) (ht : w.threshold = none) :
    ∃ rows' t t', List.Forall₂ (Emptied conv) rows' [exRow 0.2 3, exRow 0.3 3] ∧ rows' ≠ [exRow 0.2 3, exRow 0.3 3] ∧
      (run (pipeline (fun _ _ _ _ => .error .notImplemented) (reading conv) (readingNoData conv)
        { w with data := some (.ok [exRow 0.2 3, exRow 0.3 3]) })).written = [t] ∧
      (run (pipeline (fun _ _ _ _ => .error .notImplemented) (reading conv) (readingNoData conv)
        { w with data := some (.ok rows') })).written = [t'] ∧
      ∀ label x x', (label, x) ∈ t' → (label, x') ∈ t → x ⊑ x' := by
  obtain ⟨t, h⟩ := exWrites conv w hk ht
  obtain ⟨t', h', -⟩ := C151_program _ noCO2 conv w _ "phi" exYaml_porosityColumn hk ht _ (fun i => i = 0) t h
  have hr : ∀ P : ℕ → Prop, (∀ i, P i ↔ i = 0) →
      List.Forall₂ (Emptied conv) ([exRow 0.2 3, exRow 0.3 3].mapIdx fun i row s =>
      if s = "phi" ∧ P i then some (.num .nan) else row s) [exRow 0.2 3, exRow 0.3 3] := by
    intro P hP
    rw [List.forall₂_iff_get]
    refine ⟨by simp, fun i h1 h2 name => ?_⟩
    simp only [List.get_eq_getElem, List.getElem_mapIdx]
    split
    · rename_i hn
      refine .inr ⟨rfl, ?_⟩
      obtain ⟨rfl, hi⟩ := hn
      rw [hP] at hi
      subst hi
      exact ⟨.num (Num.fin 0.2), Num.fin 0.2, by simp [exRow], rfl⟩
    · exact .inl rfl
  have hr0 := hr (fun i => i = 0) fun _ => Iff.rfl
  refine ⟨_, t, t', hr0, ?_, h, h', fun label x x' hx hx' =>
    C150_missing_entries _ (fun n => by intro T T' P P' b m m' _ _ h; cases h) conv w _ hk _ _ hr0 _ _ h' h label
      x x' hx hx'⟩
  intro e
  have := congrFun (List.cons.inj e).1 "phi"
  simp [exRow] at this

end OPE.Main
