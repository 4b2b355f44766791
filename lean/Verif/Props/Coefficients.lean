import Verif.Props.Parse

/-!
# The coefficients of a polynomial model that are left out (C48)
-/

namespace OPE.Parse

variable {n : ℕ}

/-- Under `coefficients` of the model `v` nothing (or `null`) is written as `key`.  (Coefficients written as a
list are those of density, bulk modulus and shear modulus.) -/
def LeftOut (v : Val n) (key : String) : Prop :=
  ∀ w, Given (named fitKeys v) "coefficients" w → ∀ y, Given (named moduliKeys w) key y → y = .scalar .null

/-- **C48.** After building a dry rock with a polynomial model, a coefficient matrix that is not written is the
documented default of its quantity: moduli in MPa, velocities in m/s, density as a fraction of the mineral. -/
theorem C48_defaults (conv : Conv) (v : Val n) (m : SandModel n) (phi : Col n)
    (adj : List (Adjustment n)) (d : DryRock n) (hm : parseSandstone conv v = .ok m)
    (ht : m.typeName = "polyfit") (hd : mkDryRock m phi adj = .ok d) :
    ∃ useModuli density primary secondary,
      d.model = .polyfit useModuli ⟨some density, some primary, some secondary⟩ ∧
      (LeftOut v "density" → density = ⟨1, 1, ![![0, 0], ![1, -1]]⟩) ∧
      (useModuli = true →
        (LeftOut v "bulk_modulus" → primary = ⟨0, 1, ![![2900, -1300]]⟩) ∧
        (LeftOut v "shear_modulus" → secondary = ⟨0, 1, ![![1700, -800]]⟩)) ∧
      (useModuli = false →
        (LeftOut v "primary_velocity" → primary = ⟨0, 1, ![![20, -40]]⟩) ∧
        (LeftOut v "secondary_velocity" → secondary = ⟨0, 1, ![![12, -20]]⟩)) := by
  have hq : parsePolyfit2d conv v = .ok m := by
    rcases parseSandstone_cases hm with ⟨f, -, rfl⟩ | ⟨-, f, -, rfl⟩ | ⟨-, -, hf⟩
    · exact absurd ht (by simp [SandModel.typeName])
    · exact absurd ht (by simp [SandModel.typeName])
    · exact hf
  have hdm : d.model = m.fillDefaults := by
    cases m with
    | polyfit b a => unfold mkDryRock at hd; injection hd with h; rw [← h]
    | patchy f => exact absurd ht (by simp [SandModel.typeName])
    | friable f => exact absurd ht (by simp [SandModel.typeName])
  unfold parsePolyfit2d at hq
  obtain ⟨a, ha, h⟩ := bind_eq_ok.mp hq
  obtain ⟨_, -, h⟩ := bind_eq_ok.mp h
  obtain ⟨co, hco, h⟩ := bind_eq_ok.mp h
  cases co with
  | none =>
    injection h with h; subst h
    exact ⟨true, _, _, _, hdm, fun _ => rfl, fun _ => ⟨fun _ => rfl, fun _ => rfl⟩,
      fun h => (nomatch h)⟩
  | some k =>
    obtain ⟨dd, hdd, h⟩ := bind_eq_ok.mp h
    obtain ⟨pp, hpp, h⟩ := bind_eq_ok.mp h
    obtain ⟨ss, hss, h⟩ := bind_eq_ok.mp h
    injection h with h; subst h
    rcases defaulted_ok.mp hco with ⟨-, hk⟩ | ⟨y, hk, hy⟩
    · cases hk
    rcases optional_given hy with ⟨-, hk'⟩ | ⟨-, z, hz, hk'⟩
    · cases hk'
    injection hk' with hk'; subst hk'
    obtain ⟨-, h3, h4, h5⟩ := coefs_of hz
    have hn : named (coefKeys k.useModuli) y = named moduliKeys y := by
      by_cases hl : NotList y
      · rw [named_of_not_list hl, named_of_not_list hl]
      · unfold NotList at hl
        push Not at hl
        obtain ⟨vs, rfl⟩ := hl
        rw [(C48_list conv vs k hz).2.1]; rfl
    rw [hn] at h3 h4 h5
    have hg := (args_given ha).mp hk
    have key : ∀ {x : Option (Val n)} {r : Option Coeffs} {key : String},
        CoefField (named moduliKeys y) key x → coeffsOf conv x = .ok r → LeftOut v key → r = none := by
      intro x r key hf hr hl
      rw [hf.2 (hl y hg)] at hr
      injection hr with hr; exact hr.symm
    refine ⟨k.useModuli, _, _, _, hdm, fun hl => ?_, fun hu => ?_, fun hu => ?_⟩
    · rw [key h3 hdd hl]; rfl
    · rw [if_pos hu] at h4; rw [if_pos hu] at h5
      exact ⟨fun hl => by rw [key h4 hpp hl, hu]; rfl, fun hl => by rw [key h5 hss hl, hu]; rfl⟩
    · rw [if_neg (by rw [hu]; simp)] at h4; rw [if_neg (by rw [hu]; simp)] at h5
      exact ⟨fun hl => by rw [key h4 hpp hl, hu]; rfl, fun hl => by rw [key h5 hss hl, hu]; rfl⟩

/-- A case: only primary velocity coefficients are written, density and secondary velocity are left out. -/
example (conv : Conv) : parseSandstone conv (.dict [("type", .str "polyfit"),
      ("coefficients", .dict [("primary_velocity", .scalar (.num (Num.fin 3000)))])] : Val 1)
        = .ok (.polyfit false ⟨none, some (matrixOf [[3000]]), none⟩) ∧
      ∃ d, mkDryRock (.polyfit false ⟨none, some (matrixOf [[3000]]), none⟩ : SandModel 1) (c 0.2) [] = .ok d ∧
      d.model = .polyfit false ⟨some ⟨1, 1, ![![0, 0], ![1, -1]]⟩, some (matrixOf [[3000]]),
        some ⟨0, 1, ![![12, -20]]⟩⟩ := by
  refine ⟨?_, _, rfl, rfl⟩
  simp [parseSandstone, firstOf, into, parsePatchy, parseFriable, parsePolyfit2d, args, named, tagged, defaulted,
    List.lookup, literal, optional, parsePolyfitCoef, parseModuliCoef, parseVelocityCoef, anyArray, coeffsOf,
    toCoeffs?, toReal?, Num.toReal?, shape, Scalar.toNum, reject, orReject, bind_ok, bind_error]

end OPE.Parse
