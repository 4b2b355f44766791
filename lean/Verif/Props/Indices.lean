import Verif.Props.Parse2

/-!
# C146: the gas indices of Brie's law as written
-/

namespace OPE.Parse

variable {n : ℕ}

/-- `z` is `x` with its decimals dropped. -/
def Dropped (x : ℝ) (z : ℤ) : Prop := |(z : ℝ)| ≤ |x| ∧ |x - z| < 1

theorem Dropped.unique {x : ℝ} {y z : ℤ} (hy : Dropped x y) (hz : Dropped x z) : y = z := by
  obtain ⟨h1, h2⟩ := hy
  obtain ⟨h3, h4⟩ := hz
  rw [abs_lt] at h2 h4
  have k1 : (y : ℝ) < z + 2 := by linarith
  have k2 : (z : ℝ) < y + 2 := by linarith
  have k1' : y < z + 2 := by exact_mod_cast k1
  have k2' : z < y + 2 := by exact_mod_cast k2
  by_contra hne
  -- neighbours: the one further from zero is further from zero than x
  have : y = z + 1 ∨ z = y + 1 := by omega
  rcases le_total 0 x with hx | hx
  · rw [abs_of_nonneg hx] at h1 h3
    have a1 := (abs_le.mp h1).2
    have a3 := (abs_le.mp h3).2
    rcases this with h | h <;> subst h <;> push_cast at * <;> linarith
  · rw [abs_of_nonpos hx] at h1 h3
    have a1 := (abs_le.mp h1).1
    have a3 := (abs_le.mp h3).1
    rcases this with h | h <;> subst h <;> push_cast at * <;> linarith

theorem numToInt_dropped (x : ℝ) : ∃ z, numToInt (.fin x) = some z ∧ Dropped x z := by
  unfold numToInt; dsimp only
  split_ifs with h
  · have h1 := Int.floor_le x
    have h2 := Int.lt_floor_add_one x
    have h0 : (0:ℝ) ≤ ⌊x⌋ := by exact_mod_cast Int.floor_nonneg.mpr h
    refine ⟨_, rfl, ?_, ?_⟩
    · rw [abs_of_nonneg h, abs_of_nonneg h0]; exact h1
    · rw [abs_lt]; constructor <;> linarith
  · have h1 := Int.le_ceil x
    have h2 := Int.ceil_lt_add_one x
    have h0 : (⌈x⌉:ℝ) ≤ 0 := by exact_mod_cast Int.ceil_le.mpr (by push_cast; linarith)
    refine ⟨_, rfl, ?_, ?_⟩
    · rw [abs_of_neg (not_le.mp h), abs_of_nonpos h0]; linarith
    · rw [abs_lt]; constructor <;> linarith

theorem eachOf_of {α β : Type} {p : Val n → Except Err α} {g : β → Val n} {R : β → α → Prop}
    (h : ∀ b, ∃ a, p (g b) = .ok a ∧ R b a) (bs : List β) :
    ∃ as, eachOf p (bs.map g) = .ok as ∧ List.Forall₂ R bs as := by
  induction bs with
  | nil => exact ⟨[], rfl, .nil⟩
  | cons b bs ih =>
    obtain ⟨a, ha, hR⟩ := h b
    obtain ⟨as, has, hRs⟩ := ih
    exact ⟨a :: as, by rw [List.map_cons, eachOf, ha, bind_ok, has, bind_ok], .cons hR hRs⟩

/-- **C146.** Whatever numbers are written as gas indices, an accepted fluids section uses the numbers
with their decimals dropped, in the order written; in particular whole numbers are used as written. -/
theorem C146_indices_partial (conv : Conv) (v : Val n) (f : FluidsIn n) (h : parseFluids conv v = .ok f)
    (xs : List ℝ) (hx : Given (named fluidsKeys v) "brie_gases" (.list (xs.map fun x => .scalar (.num (.fin x))))) :
    (∃ zs, f.brieGases = some zs ∧ List.Forall₂ Dropped xs zs) ∧
      ∀ zs : List ℤ, xs = zs.map (fun z => (z : ℝ)) → f.brieGases = some zs := by
  obtain ⟨l, hl, hl2⟩ := (C85_fluids conv v f h).2.2.2.2.2.2.2.1 _ hx (by simp)
  obtain ⟨zs, hz, hR⟩ := eachOf_of (n := n) (p := toInt conv) (g := fun x : ℝ => .scalar (.num (.fin x)))
    (R := Dropped) (fun x => by
      obtain ⟨z, hz, hd⟩ := numToInt_dropped x
      exact ⟨z, by simp [toInt, Scalar.toNum, hz, orReject], hd⟩) xs
  have : l = zs := by
    have : listOf (toInt conv) (.list (xs.map fun x => .scalar (.num (.fin x)))) = .ok zs := hz
    rw [this] at hl2; injection hl2 with e; exact e.symm
  subst this
  refine ⟨⟨l, hl, hR⟩, fun zs e => ?_⟩
  rw [hl]
  congr 1
  clear hl hl2 hx hz
  subst e
  induction zs generalizing l with
  | nil => cases hR; rfl
  | cons z zs ih =>
    cases hR with
    | cons h1 h2 =>
      rw [ih _ h2, h1.unique ⟨le_refl _, by simp⟩]

/-- The fluids section `{brie_gases: [1.7]}`. -/
noncomputable def halfIndex : Val 1 := .dict [("brie_gases", .list [.scalar (.num (.fin 1.7))])]

theorem halfIndex_accepted (conv : Conv) : ∃ f, parseFluids conv halfIndex = .ok f := by
  obtain ⟨z, hz, hd⟩ := numToInt_dropped 1.7
  refine ⟨⟨c 80, defaultFluids, .wood, .fin 3, some [z], .default⟩, ?_⟩
  have h : listOf (toInt conv) (.list [.scalar (.num (.fin 1.7))] : Val 1) = .ok [z] := by
    simp [listOf, eachOf, toInt, Scalar.toNum, hz, orReject, bind_ok]
  unfold parseFluids halfIndex
  simp [args, named, defaulted, List.lookup, Parse.optional, h, bind_ok]

/-- **C146, refuted.** The index 1.7 is accepted, and 1 is used instead. -/
theorem C146_refuted (conv : Conv) : ¬ ∀ (v : Val 1) (f : FluidsIn 1), parseFluids conv v = .ok f →
    ∀ xs : List ℝ, Given v "brie_gases" (.list (xs.map fun x => .scalar (.num (.fin x)))) →
      ∃ zs, f.brieGases = some zs ∧ xs = zs.map fun z => (z : ℝ) := by
  intro h
  obtain ⟨f, hf⟩ := halfIndex_accepted conv
  obtain ⟨zs, -, hz⟩ := h _ f hf [1.7] (by exact ⟨_, rfl, rfl⟩)
  match zs with
  | [] => simp at hz
  | [z] =>
    simp at hz
    have h1 : (1:ℝ) < z := by rw [← hz]; norm_num
    have h2 : (z:ℝ) < 2 := by rw [← hz]; norm_num
    have h1' : 1 < z := by exact_mod_cast h1
    have h2' : z < 2 := by exact_mod_cast h2
    omega
  | _ :: _ :: _ => simp at hz

/-- Non-vacuity of `C146_indices_partial`: the accepted section above, where index 1 is used. -/
example (conv : Conv) : ∃ f, parseFluids conv halfIndex = .ok f ∧ f.brieGases = some [1] := by
  obtain ⟨f, hf⟩ := halfIndex_accepted conv
  obtain ⟨zs, hz, hR⟩ := (C146_indices_partial conv halfIndex f hf [1.7] ⟨_, rfl, rfl⟩).1
  refine ⟨f, hf, ?_⟩
  cases hR with
  | cons h1 h2 =>
    cases h2
    rw [hz, h1.unique (z := 1) ⟨by norm_num [abs_of_nonneg], by norm_num [abs_lt]⟩]

end OPE.Parse
