import Verif.Props.Order2
import Verif.Props.MainRaw

/-!
# C147: sections written as lists
-/

namespace OPE.Parse

variable {n : ℕ} {α : Type}

/-- A section written as a list is read as the mapping of its first keys to the entries of the list; a list with
more entries than there are keys is refused. -/
def ByPosition (keys : List String) (p : Val n → Except Err α) : Prop :=
  ∀ vs : List (Val n),
    (vs.length ≤ keys.length → p (.list vs) = p (.dict (keys.zip vs))) ∧
    (keys.length < vs.length → p (.list vs) = .error .valueError)

theorem args_by_position (keys : List String) : ByPosition keys (args (n := n) keys) := by
  intro vs
  constructor
  · intro h; unfold args; simp only [named, if_pos h]
  · intro h; unfold args; simp only [named, if_neg (not_le.mpr h), reject]

theorem by_position (keys : List String) (g : Args n → Except Err α) :
    ByPosition keys fun v => (args keys v) >>= g := by
  intro vs
  constructor
  · intro h; dsimp only; rw [(args_by_position keys vs).1 h]
  · intro h; dsimp only; rw [(args_by_position keys vs).2 h, bind_error]

/-- **C147.** Every section can be written as a list of the values of its first keys, in the order of the
documentation of that section; longer lists are refused. -/
theorem C147_sections (conv : Conv) :
    ByPosition ["constituents"] (parseMinerals (n := n) conv) ∧
    ByPosition ["temperature", "constituents", "mix_method", "brie_constant", "brie_gases", "fluid_model"]
      (parseFluids (n := n) conv) ∧
    ByPosition ["model", "porosity", "adjustments"] (parseDryRock (n := n) conv) ∧
    ByPosition ["overburden", "reference", "fluid", "max_effective", "rock"] (parsePressure (n := n) conv) ∧
    ByPosition ["material", "fraction", "fluid_model"] (parseConstituent (n := n) conv) ∧
    ByPosition ["depth", "coefficients", "type", "reference_depth", "max_depth"] (parseDepthTrend (n := n) conv) ∧
    ByPosition ["model", "type"] (parsePressureDependency (n := n) conv) ∧
    ByPosition ["critical_porosity", "shear_reduction", "coordination_number", "type"] (parseFriable (n := n) conv) ∧
    ByPosition ["type", "cement", "critical_porosity", "cement_fraction", "lower_bound_pressure",
      "upper_bound_cement_fraction", "coordination_number", "shear_reduction"] (parsePatchy (n := n) conv) :=
  ⟨by_position _ _, by_position _ _, by_position _ _, by_position _ _, by_position _ _, by_position _ _,
    by_position _ _, by_position _ _, by_position _ _⟩

/-! ### In the file -/

theorem insertDict_zip (t : Frame (Arr n)) (keys : List String) (ys : List (Val n)) (h : ys.length ≤ keys.length) :
    insertFrameDict t (keys.zip ys) = insertFrameList t ys >>= fun vs => .ok (keys.zip vs) := by
  induction ys generalizing keys with
  | nil => simp [insertFrameDict, insertFrameList]
  | cons y ys ih =>
    cases keys with
    | nil => simp at h
    | cons k keys =>
      simp only [List.zip_cons_cons, insertFrameDict, insertFrameList, ih keys (by simpa using h)]
      cases insertFrame t y with
      | error e => rfl
      | ok w =>
        simp only [bind_ok]
        cases insertFrameList t ys with
        | error e => rfl
        | ok ws => rfl

theorem insertFrame_zip (t : Frame (Arr n)) (keys : List String) (hc : "column" ∉ keys) (ys : List (Val n))
    (h : ys.length ≤ keys.length) :
    insertFrame t (.dict (keys.zip ys)) = insertFrameList t ys >>= fun vs => .ok (.dict (keys.zip vs)) := by
  have gen : (insertFrameDict t (keys.zip ys) >>= fun a => .ok (.dict a))
      = insertFrameList t ys >>= fun vs => .ok (.dict (keys.zip vs) : Val n) := by
    rw [insertDict_zip t keys ys h]
    cases insertFrameList t ys <;> rfl
  rw [← gen]
  match keys, ys, hc, h with
  | [], [], _, _ => simp [insertFrame]
  | k :: keys, [], _, _ => simp [insertFrame]
  | [], y :: ys, _, h => simp at h
  | [k], [y], hc, _ =>
    have hk : k ≠ "column" := fun e => hc (by simp [e])
    simp only [List.zip_cons_cons, List.zip_nil_left, insertFrame, if_neg hk, insertFrameDict]
    cases insertFrame t y <;> rfl
  | k :: k' :: keys, [y], hc, _ =>
    have hk : k ≠ "column" := fun e => hc (by simp [e])
    simp only [List.zip_cons_cons, List.zip_nil_right, insertFrame, if_neg hk, insertFrameDict]
    cases insertFrame t y <;> rfl
  | k :: k' :: keys, y :: y' :: ys, _, _ => simp only [List.zip_cons_cons, insertFrame]
  | [k], _ :: _ :: _, _, h => simp at h

theorem checkDict_zip (keys : List String) (ys : List (Val n)) (h : ys.length ≤ keys.length) :
    checkNoReferenceDict (keys.zip ys) = checkNoReferenceList ys := by
  induction ys generalizing keys with
  | nil => simp [checkNoReferenceDict, checkNoReferenceList]
  | cons y ys ih =>
    cases keys with
    | nil => simp at h
    | cons k keys => simp only [List.zip_cons_cons, checkNoReferenceDict, checkNoReferenceList, ih keys (by simpa using h)]

theorem check_zip (keys : List String) (hc : "column" ∉ keys) (ys : List (Val n)) (h : ys.length ≤ keys.length) :
    checkNoReference (.dict (keys.zip ys)) = checkNoReferenceList ys := by
  rw [← checkDict_zip keys ys h]
  match keys, ys, hc, h with
  | [], [], _, _ => simp [checkNoReference]
  | k :: keys, [], _, _ => simp [checkNoReference]
  | [], y :: ys, _, h => simp at h
  | [k], [y], hc, _ =>
    have hk : k ≠ "column" := fun e => hc (by simp [e])
    simp only [List.zip_cons_cons, List.zip_nil_left, checkNoReference, if_neg hk, checkNoReferenceDict]
    cases checkNoReference y <;> rfl
  | k :: k' :: keys, [y], hc, _ =>
    have hk : k ≠ "column" := fun e => hc (by simp [e])
    simp only [List.zip_cons_cons, List.zip_nil_right, checkNoReference, if_neg hk, checkNoReferenceDict]
    cases checkNoReference y <;> rfl
  | k :: k' :: keys, y :: y' :: ys, _, _ => simp only [List.zip_cons_cons, checkNoReference]
  | [k], _ :: _ :: _, _, h => simp at h

theorem mapArrDict_zip (keys : List String) (ys : List Yaml) :
    (mapArrDict Empty.elim (keys.zip ys) : List (String × Val n)) = keys.zip (mapArrList Empty.elim ys) := by
  induction ys generalizing keys with
  | nil => simp [mapArrDict, mapArrList]
  | cons y ys ih =>
    cases keys with
    | nil => simp [mapArrDict]
    | cons k keys => simp only [List.zip_cons_cons, mapArrDict, mapArrList, ih]

theorem insertList_length (t : Frame (Arr n)) {ys vs : List (Val n)} (h : insertFrameList t ys = .ok vs) :
    vs.length = ys.length := by
  induction ys generalizing vs with
  | nil => injection h with h; subst h; rfl
  | cons y ys ih =>
    simp only [insertFrameList] at h
    obtain ⟨w, -, h⟩ := bind_eq_ok.mp h
    obtain ⟨ws, hws, h⟩ := bind_eq_ok.mp h
    injection h with h; subst h
    simp [ih hws]

theorem insert_by_position (data : Option (Frame (Arr n))) (keys : List String) (hc : "column" ∉ keys) (ys : List Yaml)
    (h : ys.length ≤ keys.length) {p : Val n → Except Err α} (hp : ByPosition keys p) :
    (∃ e, insertDataframe data (mapArr Empty.elim (.list ys : Yaml)) = .error e ∧
      insertDataframe data (mapArr Empty.elim (.dict (keys.zip ys) : Yaml)) = .error e) ∨
    ∃ v w, insertDataframe data (mapArr Empty.elim (.list ys : Yaml)) = .ok v ∧
      insertDataframe data (mapArr Empty.elim (.dict (keys.zip ys) : Yaml)) = .ok w ∧ p v = p w := by
  have hl : (mapArrList Empty.elim ys : List (Val n)).length ≤ keys.length := by
    rw [mapArrList_eq, List.length_map]; exact h
  simp only [mapArr, mapArrDict_zip]
  cases data with
  | some t =>
    simp only [insertDataframe]
    rw [insertFrame_zip t keys hc _ hl]
    simp only [insertFrame]
    cases hi : insertFrameList t (mapArrList Empty.elim ys : List (Val n)) with
    | error e => exact .inl ⟨e, rfl, rfl⟩
    | ok vs => exact .inr ⟨_, _, rfl, rfl, (hp vs).1 (by rw [insertList_length t hi]; exact hl)⟩
  | none =>
    simp only [insertDataframe]
    rw [check_zip keys hc _ hl]
    simp only [checkNoReference]
    cases hi : checkNoReferenceList (mapArrList Empty.elim ys : List (Val n)) with
    | error e => exact .inl ⟨e, rfl, rfl⟩
    | ok => exact .inr ⟨_, _, rfl, rfl, (hp _).1 hl⟩

/-- The keys of the sections of a configuration file, in the order in which a list gives their values. -/
def positions : String → List String
  | "minerals" => ["constituents"]
  | "fluids" => ["temperature", "constituents", "mix_method", "brie_constant", "brie_gases", "fluid_model"]
  | "dry_rock" => ["model", "porosity", "adjustments"]
  | "pressure" => ["overburden", "reference", "fluid", "max_effective", "rock"]
  | _ => []

/-- The file with one section replaced. -/
theorem lookup_replace (pre post : List (String × Yaml)) (name key : String) (x y : Yaml) :
    (pre ++ (name, x) :: post).lookup key = (pre ++ (name, y) :: post).lookup key ∨
      key = name ∧ (pre ++ (name, x) :: post).lookup key = some x ∧ (pre ++ (name, y) :: post).lookup key = some y := by
  induction pre with
  | nil =>
    simp only [List.nil_append, List.lookup_cons]
    cases hb : key == name with
    | true => exact .inr ⟨by simpa using hb, rfl, rfl⟩
    | false => exact .inl rfl
  | cons z pre ih =>
    obtain ⟨k, w⟩ := z
    simp only [List.cons_append, List.lookup_cons]
    cases hb : key == k with
    | true => exact .inl rfl
    | false => exact ih

/-- **C147.** In a configuration file a section may be written as a list: the file is then read, with the same data
file or without one, exactly as the file in which that section is the mapping of its first keys to the entries of
the list. -/
theorem C147_file (conv : Conv) (data : Option (Frame (Arr n))) (pre post : List (String × Yaml)) (name : String)
    (hn : name ∈ ["minerals", "fluids", "dry_rock", "pressure"]) (ys : List Yaml)
    (h : ys.length ≤ (positions name).length) :
    readWith conv data (.dict (pre ++ (name, .list ys) :: post)) =
      readWith conv data (.dict (pre ++ (name, .dict ((positions name).zip ys)) :: post)) := by
  have hc : "column" ∉ positions name := by
    simp only [List.mem_cons, List.not_mem_nil, or_false] at hn
    rcases hn with rfl | rfl | rfl | rfl <;> decide
  obtain ⟨p1, p2, p3, p4, -⟩ := C147_sections (n := n) conv
  have sec : ∀ {β : Type} (key : String) (p : Val n → Except Err β), (key = name → ByPosition (positions name) p) →
      (∃ e, insertDataframe data (mapArr Empty.elim (((pre ++ (name, .list ys) :: post).lookup key).getD (.dict []))) = .error e ∧
        insertDataframe data (mapArr Empty.elim (((pre ++ (name, .dict ((positions name).zip ys)) :: post).lookup key).getD (.dict [])))
          = .error e) ∨
      ∃ v w, insertDataframe data (mapArr Empty.elim (((pre ++ (name, .list ys) :: post).lookup key).getD (.dict []))) = .ok v ∧
        insertDataframe data (mapArr Empty.elim (((pre ++ (name, .dict ((positions name).zip ys)) :: post).lookup key).getD (.dict [])))
          = .ok w ∧ p v = p w := by
    intro β key p hp
    rcases lookup_replace pre post name key (.list ys) (.dict ((positions name).zip ys)) with e | ⟨e, e1, e2⟩
    · rw [e]
      cases hi : insertDataframe data (mapArr Empty.elim
          (((pre ++ (name, .dict ((positions name).zip ys)) :: post).lookup key).getD (.dict [])) : Val n) with
      | error e => exact .inl ⟨e, rfl, rfl⟩
      | ok v => exact .inr ⟨v, v, rfl, rfl, rfl⟩
    · rw [e1, e2]
      exact insert_by_position data _ hc ys h (hp e)
  unfold readWith
  dsimp only
  have hk : (∃ x ∈ pre ++ (name, .list ys) :: post, x.1 ∉ ["data", "minerals", "fluids", "dry_rock", "pressure"]) ↔
      ∃ x ∈ pre ++ (name, .dict ((positions name).zip ys)) :: post,
        x.1 ∉ ["data", "minerals", "fluids", "dry_rock", "pressure"] := by
    simp only [List.mem_append, List.mem_cons, or_and_right, exists_or, exists_eq_left]
  simp only [hk]
  congr 1
  funext _
  rcases sec "minerals" (parseMinerals conv) (fun e => e ▸ p1) with ⟨e, h1, h2⟩ | ⟨m, m', h1, h2, hm⟩
  · rw [h1, h2]; rfl
  rw [h1, h2, bind_ok, bind_ok]
  rcases sec "fluids" (parseFluids conv) (fun e => e ▸ p2) with ⟨e, h1, h2⟩ | ⟨f, f', h1, h2, hf⟩
  · rw [h1, h2]; rfl
  rw [h1, h2, bind_ok, bind_ok]
  rcases sec "dry_rock" (parseDryRock conv) (fun e => e ▸ p3) with ⟨e, h1, h2⟩ | ⟨d, d', h1, h2, hd⟩
  · rw [h1, h2]; rfl
  rw [h1, h2, bind_ok, bind_ok]
  rcases sec "pressure" (parsePressure conv) (fun e => e ▸ p4) with ⟨e, h1, h2⟩ | ⟨p, p', h1, h2, hp⟩
  · rw [h1, h2]; rfl
  rw [h1, h2, bind_ok, bind_ok]
  unfold parseSections
  rw [hm, hf, hd, hp]

/-! ### Materials -/

/-- **C147.** A material written as a list of one number is a gas, whatever is meant (a brine of that salinity is
not what is calculated), and a list of three numbers is a solid or fluid of that density, bulk modulus and shear
modulus, never an oil or a condensate; a list of two numbers is refused, and an empty list is carbon dioxide. -/
theorem C147_materials (conv : Conv) (a b c' : ℝ) :
    parseMaterialType conv (.list [.scalar (.num (.fin a))] : Val n) = .ok (.gas (c a)) ∧
    (∃ m, parseMaterialType conv (.list [.scalar (.num (.fin a)), .scalar (.num (.fin b)), .scalar (.num (.fin c'))] : Val n)
      = .ok (.material m) ∧ m.density = c a ∧ m.bulk = c b ∧ m.shear = c c') ∧
    (∃ e, parseMaterialType conv (.list [.scalar (.num (.fin a)), .scalar (.num (.fin b))] : Val n) = .error e) ∧
    parseMaterialType conv (.list [] : Val n) = .ok (.carbonDioxide true) := by
  refine ⟨?_, ⟨_, rfl, ?_, ?_, ?_⟩, ⟨_, rfl⟩, ?_⟩ <;> rfl

end OPE.Parse
