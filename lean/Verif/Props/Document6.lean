import Verif.Props.Document5
import Verif.Props.Shipped4

/-!
# C114: a shipped example is a configuration in the sense of Spec/Document.lean
-/

namespace OPE.Doc

open Parse

variable {n : ℕ}

theorem need_of {key : String} {R : Yaml → Prop} {xs : List (String × Yaml)} (y : Yaml) (h : xs.lookup key = some y)
    (hR : R y) : (need key R).2 (xs.lookup (need key R).1) := ⟨y, h, hR⟩

theorem may_of {key : String} {d : Prop} {R : Yaml → Prop} {xs : List (String × Yaml)} (y : Yaml) (h : xs.lookup key = some y)
    (hR : R y) : (may key d R).2 (xs.lookup (may key d R).1) := .inr ⟨y, h, hR⟩

theorem may_not {key : String} {d : Prop} {R : Yaml → Prop} {xs : List (String × Yaml)} (h : xs.lookup key = none)
    (hd : d) : (may key d R).2 (xs.lookup (may key d R).1) := .inl ⟨h, hd⟩

theorem matrix22 (a b d e : ℝ) : Matrix (.list [.list [number a, number b], .list [number d, number e]]) ⟨1, 1, ![![a, b], ![d, e]]⟩ := by
  simp [Matrix]

/-- examples/example2.yaml says what `example23Sections` has. -/
theorem example2_configuration {rows : Fin n → DataRow} {sf sb φ fp rp d : Fin n → ℝ}
    (h1 : Shipped.HasColumn rows "sand_fraction" sf) (h2 : Shipped.HasColumn rows "brine_saturation" sb)
    (h4 : Shipped.HasColumn rows "porosity" φ) (h5 : Shipped.HasColumn rows "fluid_pressure" fp)
    (h6 : Shipped.HasColumn rows "rock_pressure" rp) (h7 : Shipped.HasColumn rows "depth" d) :
    Configuration rows Shipped.example2 (Shipped.example23Sections
      (.pressureDependency (.powerfit ⟨(1, 0), (20e9, -46), (12, -26)⟩)) sf sb φ fp rp d) := by
  unfold Configuration Shipped.example2
  refine ⟨_, rfl, by decide, by simp [may], ?_⟩
  simp only [List.forall_mem_cons]
  refine ⟨may_of _ rfl ?_, may_of _ rfl ?_, may_of _ rfl ?_, may_of _ rfl ?_, by simp⟩
  · refine ⟨_, rfl, by decide, by simp [may], ?_⟩
    simp only [List.forall_mem_cons]
    refine ⟨may_of _ rfl ⟨_, rfl, .cons ?_ (.cons ?_ .nil)⟩, by simp⟩
    all_goals refine ⟨_, rfl, by decide, by simp [need, may], ?_⟩
    all_goals simp only [List.forall_mem_cons]
    · refine ⟨need_of _ rfl ?_, may_of _ rfl (.inr ⟨_, .column _ _ h1, rfl⟩), may_not rfl (by first | trivial | rfl), by simp⟩
      refine .moduli _ _ _ _ (fun _ => by norm_num) (fun _ => by norm_num) (fun _ => by norm_num)
        ⟨_, rfl, by decide, by simp [need, may], ?_⟩
      simp only [List.forall_mem_cons]
      exact ⟨may_not rfl trivial, need_of _ rfl (.number _), need_of _ rfl (.number _), need_of _ rfl (.number _), by simp⟩
    · refine ⟨need_of _ rfl ?_, may_not rfl (by first | trivial | rfl), may_not rfl (by first | trivial | rfl), by simp⟩
      refine .moduli _ _ _ _ (fun _ => by norm_num) (fun _ => by norm_num) (fun _ => by norm_num)
        ⟨_, rfl, by decide, by simp [need, may], ?_⟩
      simp only [List.forall_mem_cons]
      exact ⟨may_not rfl trivial, need_of _ rfl (.number _), need_of _ rfl (.number _), need_of _ rfl (.number _), by simp⟩
  · refine ⟨_, rfl, by decide, by simp [may], ?_⟩
    simp only [List.forall_mem_cons]
    refine ⟨may_of _ rfl (.number _), may_of _ rfl ⟨_, rfl, .cons ?_ (.cons ?_ .nil)⟩, may_of _ rfl .brie, may_of _ rfl ⟨3, rfl, rfl⟩,
      may_not rfl (by first | trivial | rfl), may_not rfl (by first | trivial | rfl), by simp⟩
    all_goals refine ⟨_, rfl, by decide, by simp [need, may], ?_⟩
    all_goals simp only [List.forall_mem_cons]
    · refine ⟨need_of _ rfl ?_, may_not rfl (by first | trivial | rfl), may_not rfl (by first | trivial | rfl), by simp⟩
      refine .oil _ _ _ _ ⟨_, rfl, by decide, by simp [need], ?_⟩
      simp only [List.forall_mem_cons]
      exact ⟨need_of _ rfl rfl, need_of _ rfl (.number _), need_of _ rfl (.number _), need_of _ rfl (.number _), by simp⟩
    · refine ⟨need_of _ rfl ?_, may_of _ rfl (.inr ⟨_, .column _ _ h2, rfl⟩), may_not rfl (by first | trivial | rfl), by simp⟩
      refine .brine _ _ ⟨_, rfl, by decide, by simp [need], ?_⟩
      simp only [List.forall_mem_cons]
      exact ⟨need_of _ rfl rfl, need_of _ rfl (.number _), by simp⟩
  · refine ⟨_, rfl, by decide, by simp [may], ?_⟩
    simp only [List.forall_mem_cons]
    refine ⟨may_of _ rfl (.default _ ⟨_, rfl, by decide, by simp [need], ?_⟩), may_of _ rfl (.column _ _ h4),
      may_of _ rfl ⟨_, rfl, .cons (.pressure _ _ ⟨_, rfl, by decide, by simp [need], ?_⟩)
        (.cons (.depth _ _ _ _ _ _ ⟨_, rfl, by decide, by simp [need, may], ?_⟩) .nil)⟩, by simp⟩
    all_goals simp only [List.forall_mem_cons]
    · exact ⟨need_of _ rfl rfl, by simp⟩
    · refine ⟨need_of _ rfl rfl, need_of _ rfl (.powerfit _ _ ⟨_, rfl, by decide, by simp [need], ?_⟩), by simp⟩
      simp only [List.forall_mem_cons]
      refine ⟨need_of _ rfl rfl, need_of _ rfl ⟨_, rfl, by decide, by simp [need], ?_⟩, by simp⟩
      simp only [List.forall_mem_cons]
      exact ⟨need_of _ rfl rfl, need_of _ rfl rfl, need_of _ rfl rfl, by simp⟩
    · refine ⟨need_of _ rfl rfl, need_of _ rfl (.column _ _ h7), need_of _ rfl ⟨_, rfl, by decide, by simp [need, primaryKey, secondaryKey], ?_⟩,
        may_of _ rfl (.inr ⟨_, .number _, rfl⟩), may_of _ rfl (.inr ⟨_, .number _, rfl⟩), by simp⟩
      simp only [List.forall_mem_cons]
      exact ⟨need_of _ rfl (matrix22 _ _ _ _), need_of _ rfl (matrix22 _ _ _ _), need_of _ rfl (matrix22 _ _ _ _), by simp⟩
  · refine ⟨_, rfl, by decide, by simp [may], ?_⟩
    simp only [List.forall_mem_cons]
    exact ⟨may_of _ rfl (.number _), may_of _ rfl (.number _), may_of _ rfl (.inr ⟨_, .column _ _ h5, rfl⟩),
      may_of _ rfl (.inr ⟨_, .number _, rfl⟩), may_of _ rfl (.inr ⟨_, .column _ _ h6, rfl⟩), by simp⟩

/-- Reading examples/example2.yaml, once more: by what it says. -/
example (conv : Conv) {rows : Fin n → DataRow} {sf sb φ fp rp d : Fin n → ℝ}
    (h1 : Shipped.HasColumn rows "sand_fraction" sf) (h2 : Shipped.HasColumn rows "brine_saturation" sb)
    (h4 : Shipped.HasColumn rows "porosity" φ) (h5 : Shipped.HasColumn rows "fluid_pressure" fp)
    (h6 : Shipped.HasColumn rows "rock_pressure" rp) (h7 : Shipped.HasColumn rows "depth" d) :
    reading conv Shipped.example2 n rows = .ok (Shipped.example23Sections
      (.pressureDependency (.powerfit ⟨(1, 0), (20e9, -46), (12, -26)⟩)) sf sb φ fp rp d) :=
  C114_says conv rows _ _ (example2_configuration h1 h2 h4 h5 h6 h7)

/-- An empty configuration file says the documented defaults. -/
theorem empty_configuration (rows : Fin n → DataRow) :
    ∃ s, Configuration rows (.dict []) s ∧ s.porosity = (finC fun _ => 0.3) ∧ s.overburden = (finC fun _ => 100e6) ∧
      s.minerals.length = 2 ∧ s.fluids.length = 3 := by
  refine ⟨{ minerals := [⟨Mat.ofReal (fun _ => 36.8e9) (fun _ => 44e9) (fun _ => 2650), some (finC fun _ => 0.5)⟩,
              ⟨Mat.ofReal (fun _ => 25e9) (fun _ => 12e9) (fun _ => 2650), some (finC fun _ => 0.5)⟩]
            temperature := finC fun _ => 80
            fluids := [⟨.oil (finC fun _ => 850) (finC fun _ => 100) (finC fun _ => 0.7), none, some (finC fun _ => 0.3)⟩,
              ⟨.brine (finC fun _ => 50000), none, some (finC fun _ => 0.3)⟩, ⟨.gas (finC fun _ => 0.7), none, some (finC fun _ => 0.4)⟩]
            mixMethod := .wood, brieConstant := Num.fin 3, brieGases := none, fluidModel := .default
            sandModel := .polyfit true ⟨some ⟨1, 1, ![![0, 0], ![1, -1]]⟩,
              some ⟨0, 1, ![![2900, -1300]]⟩, some ⟨0, 1, ![![1700, -800]]⟩⟩, porosity := finC fun _ => 0.3
            adjustments := []
            overburden := finC fun _ => 100e6, reference := finC fun _ => 30e6, fluidPressure := some (finC fun _ => 70e6)
            maxEffective := none, rockPressure := none }, ?_, rfl, rfl, rfl, rfl⟩
  refine ⟨_, rfl, by decide, by simp, ?_⟩
  simp only [List.forall_mem_cons]
  refine ⟨may_not rfl ⟨_, rfl, by decide, by simp, ?_⟩, may_not rfl ⟨_, rfl, by decide, by simp, ?_⟩,
    may_not rfl ⟨_, rfl, by decide, by simp, ?_⟩, may_not rfl ⟨_, rfl, by decide, by simp, ?_⟩, by simp⟩
  all_goals simp only [List.forall_mem_cons]
  · exact ⟨may_not rfl (by first | trivial | rfl), by simp⟩
  · exact ⟨may_not rfl (by first | trivial | rfl), may_not rfl (by first | trivial | rfl), may_not rfl (by first | trivial | rfl), may_not rfl (by first | trivial | rfl), may_not rfl (by first | trivial | rfl), may_not rfl (by first | trivial | rfl), by simp⟩
  · exact ⟨may_not rfl (by first | trivial | rfl), may_not rfl (by first | trivial | rfl), may_not rfl (by first | trivial | rfl), by simp⟩
  · exact ⟨may_not rfl (by first | trivial | rfl), may_not rfl (by first | trivial | rfl), may_not rfl (by first | trivial | rfl), may_not rfl (by first | trivial | rfl), may_not rfl (by first | trivial | rfl), by simp⟩

/-- Running without a configuration entry and without a data file: the documented defaults are read. -/
example (conv : Conv) : ∃ s, readingNoData conv (.dict []) = .ok s ∧ s.minerals.length = 2 ∧ s.fluids.length = 3 := by
  obtain ⟨s, h, -, -, h1, h2⟩ := empty_configuration (n := 1) fun _ _ => none
  exact ⟨s, C114_says_no_data conv _ s h, h1, h2⟩

end OPE.Doc
