import Verif.Model.Shipped
import Verif.Props.Parse2

/-!
# C113: the tutorial configurations
-/

namespace OPE.Shipped

open Parse

variable {n : ℕ}

/-! ### Unknown keys in the file -/

theorem insertFrameDict_keys {S A : Type} (t : Frame A) (xs ys : List (String × Cfg S A))
    (h : insertFrameDict t xs = .ok ys) : ys.map Prod.fst = xs.map Prod.fst := by
  induction xs generalizing ys with
  | nil => injection h with h; subst h; rfl
  | cons x xs ih =>
    obtain ⟨k, x⟩ := x
    rw [insertFrameDict] at h
    obtain ⟨y, -, h⟩ := bind_eq_ok.mp h
    obtain ⟨zs, hz, h⟩ := bind_eq_ok.mp h
    injection h with h
    subst h
    simp [ih _ hz]

/-- What column insertion makes of a mapping: an array or a mapping with the same keys. -/
theorem insertDataframe_keys {S A : Type} (data : Option (Frame A)) (xs : List (String × Cfg S A)) (v : Cfg S A)
    (h : insertDataframe data (.dict xs) = .ok v) :
    (∃ a, v = .arr a) ∨ ∃ ys, v = .dict ys ∧ ys.map Prod.fst = xs.map Prod.fst := by
  cases data with
  | none =>
    unfold insertDataframe at h
    obtain ⟨-, -, h⟩ := bind_eq_ok.mp h
    injection h with h
    exact .inr ⟨xs, h.symm, rfl⟩
  | some t =>
    unfold insertDataframe at h
    dsimp only at h
    rcases xs with _ | ⟨⟨k, x⟩, _ | ⟨y, xs⟩⟩
    · rw [insertFrame] at h
      · obtain ⟨ys, hy, h⟩ := bind_eq_ok.mp h
        injection h with h
        exact .inr ⟨ys, h.symm, insertFrameDict_keys t _ _ hy⟩
      · simp
    · rw [insertFrame] at h
      split at h
      · obtain ⟨a, -, h⟩ := bind_eq_ok.mp h
        injection h with h
        exact .inl ⟨a, h.symm⟩
      · obtain ⟨w, -, h⟩ := bind_eq_ok.mp h
        injection h with h
        exact .inr ⟨[(k, w)], h.symm, rfl⟩
    · rw [insertFrame] at h
      · obtain ⟨ys, hy, h⟩ := bind_eq_ok.mp h
        injection h with h
        exact .inr ⟨ys, h.symm, insertFrameDict_keys t _ _ hy⟩
      · simp

theorem mapArrDict_keys {S A B : Type} (f : A → B) (xs : List (String × Cfg S A)) :
    (mapArrDict f xs).map Prod.fst = xs.map Prod.fst := by
  induction xs with
  | nil => rfl
  | cons x xs ih => obtain ⟨k, x⟩ := x; simp [mapArrDict, ih]

/-- The keys of the four sections. -/
def sectionKeys : String → List String
  | "minerals" => ["constituents"]
  | "fluids" => ["temperature", "constituents", "mix_method", "brie_constant", "brie_gases", "fluid_model"]
  | "dry_rock" => ["model", "porosity", "adjustments"]
  | "pressure" => ["overburden", "reference", "fluid", "max_effective", "rock"]
  | _ => []

/-- **C86, in the file.** A configuration file with an unknown key in a section is rejected with every data file
and without one. -/
theorem C86_section_in_file (conv : Conv) (data : Option (Frame (Arr n))) (xs ks : List (String × Yaml))
    {name : String} (hn : name ∈ ["minerals", "fluids", "dry_rock", "pressure"])
    (hsec : xs.lookup name = some (.dict ks)) {k : String} (hk : k ∈ ks.map Prod.fst) (hu : k ∉ sectionKeys name)
    (s : Sections n) : readWith conv data (.dict xs) ≠ .ok s := by
  intro h
  unfold readWith at h
  dsimp only at h
  obtain ⟨-, -, h⟩ := bind_eq_ok.mp h
  obtain ⟨v1, h1, h⟩ := bind_eq_ok.mp h
  obtain ⟨v2, h2, h⟩ := bind_eq_ok.mp h
  obtain ⟨v3, h3, h⟩ := bind_eq_ok.mp h
  obtain ⟨v4, h4, h⟩ := bind_eq_ok.mp h
  obtain ⟨k1, -, k2, -, k3, -, -, k4⟩ := C86_unknown_keys conv v1 v2 v3 v4 s h
  have key : ∀ {v : Val n}, insertDataframe data (mapArr Empty.elim ((xs.lookup name).getD (.dict []))) = .ok v →
      ¬ OnlyKeys (named (sectionKeys name) v) (sectionKeys name) := by
    intro v hv ho
    rw [hsec, Option.getD_some, mapArr] at hv
    obtain ⟨ys, h, hys⟩ := ho
    rcases insertDataframe_keys _ _ _ hv with ⟨a, rfl⟩ | ⟨zs, rfl, hz⟩
    · cases h
    · injection h with h
      subst h
      rw [mapArrDict_keys] at hz
      rw [← hz] at hk
      obtain ⟨z, hz1, rfl⟩ := List.mem_map.mp hk
      exact hu (hys z hz1)
  simp only [List.mem_cons, List.not_mem_nil, or_false] at hn
  rcases hn with rfl | rfl | rfl | rfl
  · exact key h1 k1
  · exact key h2 k2
  · exact key h3 k3
  · exact key h4 k4

/-- **C113, refuted for the tutorial the README points to.** It is rejected with every data file and without one
(the fluids section has the unknown key `pressure`), and so is the second example next to it. -/
theorem C113_readme_tutorial_refuted (conv : Conv) (data : Option (Frame (Arr n))) (s : Sections n) :
    readWith conv data readmeTutorial ≠ .ok s ∧ readWith conv data readmeExample2 ≠ .ok s :=
  ⟨C86_section_in_file conv data _ _ (name := "fluids") (k := "pressure") (by simp) rfl (by simp)
    (by simp [sectionKeys]) s,
   C86_section_in_file conv data _ _ (name := "fluids") (k := "pressure") (by simp) rfl (by simp)
    (by simp [sectionKeys]) s⟩

end OPE.Shipped
