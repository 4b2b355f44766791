import Verif.Props.Reading2

/-!
# The coefficient vectors of a pressure dependency have the same length (C152)
-/

namespace OPE.Parse

variable {n : ℕ} (conv : Conv)

/-- A pressure dependency of this type with these coefficients for density, bulk modulus and shear modulus (power
fit: the ratio of velocities). -/
def fitWithVectors (type : String) (d k g : Val n) : Val n :=
  .dict [("model", .dict [("type", .str type),
    ("coefficients", .dict [("density", d), ("bulk_modulus", k),
      (if type = "powerfit" then "vp_over_vs" else "shear_modulus", g)])])]

theorem fitWithVectors_parse (kind : FitKind) (d k g : Val n) (xd xk xg : List ℝ)
    (hd : VectorMeans conv d xd) (hk : VectorMeans conv k xk) (hg : VectorMeans conv g xg) :
    parsePressureDependency conv (fitWithVectors kind.tag d k g) =
      (PDIn.toModel conv (.fit kind ⟨true, some d, some k, some g⟩) >>= fun m => .ok (.pressureDependency m)) := by
  have hco : parsePolyfitCoef conv (.dict [("density", d), ("bulk_modulus", k), ("shear_modulus", g)]) =
      .ok ⟨true, some d, some k, some g⟩ := by
    unfold parsePolyfitCoef parseModuliCoef
    simp [firstOf, args, named, defaulted, List.lookup, optional_vector conv hd, optional_vector conv hk,
      optional_vector conv hg, bind_ok]
  have hco' : parseVpOverVsCoef conv (.dict [("density", d), ("bulk_modulus", k), ("vp_over_vs", g)]) =
      .ok ⟨true, some d, some k, some g⟩ := by
    unfold parseVpOverVsCoef
    simp [args, named, defaulted, List.lookup, optional_vector conv hd, optional_vector conv hk,
      optional_vector conv hg, bind_ok]
  have hpd : parsePDModel conv (.dict [("type", .str kind.tag),
      ("coefficients", .dict [("density", d), ("bulk_modulus", k),
        (if kind.tag = "powerfit" then "vp_over_vs" else "shear_modulus", g)])]) =
      .ok (.fit kind ⟨true, some d, some k, some g⟩) := by
    unfold parsePDModel
    cases kind <;>
    simp [firstOf, into, parsePatchy, parseFriable, parseFit, FitKind.tag, args, named, tagged, defaulted, required,
      List.lookup, literal, hco, hco', bind_ok, bind_error, reject]
  unfold parsePressureDependency fitWithVectors
  simp [args, named, tagged, defaulted, required, List.lookup, hpd, bind_ok]

theorem toModel_lengths (kind : FitKind) (d k g : Val n) (xd xk xg : List ℝ)
    (hd : VectorMeans conv d xd) (hk : VectorMeans conv k xk) (hg : VectorMeans conv g xg) (b : Bool)
    (h : ¬ (xk.length = xd.length ∧ xg.length = xd.length ∧ xd ≠ [])) :
    PDIn.toModel conv (.fit kind ⟨b, some d, some k, some g⟩) = .error .valueError := by
  rw [PDIn.toModel]
  simp only [needVectorOf, toVector?_iff.mpr hd, toVector?_iff.mpr hk, toVector?_iff.mpr hg, orReject, bind_ok]
  rw [failIf_true (by tauto), bind_error]

/-- **C152.** A pressure dependency with coefficient vectors: they must have the same length, at least one for a
polynomial fit, two for a power or logarithmic fit and three for an exponential fit, otherwise a ValueError; the
first ones are then used. -/
theorem C152_vector_lengths (d k g : Val n) (xd xk xg : List ℝ)
    (hd : VectorMeans conv d xd) (hk : VectorMeans conv k xk) (hg : VectorMeans conv g xg) :
    (if xk.length = xd.length ∧ xg.length = xd.length ∧ 1 ≤ xd.length then
      parsePressureDependency conv (fitWithVectors "polyfit" d k g) =
        .ok (.pressureDependency (.polyfit true ⟨xd, xk, xg⟩))
    else parsePressureDependency conv (fitWithVectors "polyfit" d k g) = .error .valueError) ∧
    (if xk.length = xd.length ∧ xg.length = xd.length ∧ 2 ≤ xd.length then
      parsePressureDependency conv (fitWithVectors "logfit" d k g) =
        .ok (.pressureDependency (.logfit true ⟨(xd[0]!, xd[1]!), (xk[0]!, xk[1]!), (xg[0]!, xg[1]!)⟩))
    else parsePressureDependency conv (fitWithVectors "logfit" d k g) = .error .valueError) ∧
    (if xk.length = xd.length ∧ xg.length = xd.length ∧ 2 ≤ xd.length then
      parsePressureDependency conv (fitWithVectors "powerfit" d k g) =
        .ok (.pressureDependency (.powerfit ⟨(xd[0]!, xd[1]!), (xk[0]!, xk[1]!), (xg[0]!, xg[1]!)⟩))
    else parsePressureDependency conv (fitWithVectors "powerfit" d k g) = .error .valueError) ∧
    (if xk.length = xd.length ∧ xg.length = xd.length ∧ 3 ≤ xd.length then
      parsePressureDependency conv (fitWithVectors "expfit" d k g) =
        .ok (.pressureDependency (.expfit true ⟨(xd[0]!, xd[1]!, xd[2]!), (xk[0]!, xk[1]!, xk[2]!),
          (xg[0]!, xg[1]!, xg[2]!)⟩))
    else parsePressureDependency conv (fitWithVectors "expfit" d k g) = .error .valueError) := by
  have e1 := fitWithVectors_parse conv .polyfit d k g xd xk xg hd hk hg
  have e2 := fitWithVectors_parse conv .logfit d k g xd xk xg hd hk hg
  have e3 := fitWithVectors_parse conv .powerfit d k g xd xk xg hd hk hg
  have e4 := fitWithVectors_parse conv .expfit d k g xd xk xg hd hk hg
  simp only [FitKind.tag] at e1 e2 e3 e4
  rw [e1, e2, e3, e4]
  by_cases h : xk.length = xd.length ∧ xg.length = xd.length ∧ xd ≠ []
  · obtain ⟨h1, h2, h0⟩ := h
    simp only [h1, h2, true_and]
    simp only [PDIn.toModel, needVectorOf, toVector?_iff.mpr hd, toVector?_iff.mpr hk, toVector?_iff.mpr hg, orReject, bind_ok]
    rw [failIf_false (by simp [h1, h2, h0])]
    simp only [bind_ok]
    match xd, xk, xg, h1, h2, h0 with
    | [a], [b], [d], _, _, _ => simp [firstTwo, firstThree, reject, bind_error]
    | [a, a'], [b, b'], [d, d'], _, _, _ => simp [firstTwo, firstThree, reject, bind_error, bind_ok]
    | a :: a' :: a'' :: _, b :: b' :: b'' :: _, d :: d' :: d'' :: _, _, _, _ =>
      simp [firstTwo, firstThree, bind_ok]
  · have hn : ∀ m, ¬ (xk.length = xd.length ∧ xg.length = xd.length ∧ m + 1 ≤ xd.length) := by
      rintro m ⟨h1, h2, h3⟩
      exact h ⟨h1, h2, by rintro rfl; simp at h3⟩
    rw [if_neg (hn 0), if_neg (hn 1), if_neg (hn 1), if_neg (hn 2)]
    simp only [toModel_lengths conv _ d k g xd xk xg hd hk hg true h, bind_error, and_self]

/-- Three lists of two numbers, and one too short. -/
example : parsePressureDependency conv (fitWithVectors "logfit" (.list [.scalar (.num (.fin 1)), .scalar (.num (.fin 2))])
      (.list [.scalar (.num (.fin 3)), .scalar (.num (.fin 4))])
      (.list [.scalar (.num (.fin 5)), .scalar (.num (.fin 6))]) : Val n) =
      .ok (.pressureDependency (.logfit true ⟨(1, 2), (3, 4), (5, 6)⟩)) ∧
    parsePressureDependency conv (fitWithVectors "polyfit" (.list [.scalar (.num (.fin 1)), .scalar (.num (.fin 2))])
      (.list [.scalar (.num (.fin 3)), .scalar (.num (.fin 4))]) (.list [.scalar (.num (.fin 5))]) : Val n) =
      .error .valueError := by
  have m : ∀ x y : ℝ, VectorMeans (n := n) conv (.list [.scalar (.num (.fin x)), .scalar (.num (.fin y))]) [x, y] :=
    fun x y => .list (.cons (.number _) (.cons (.number _) .nil))
  have m1 : ∀ x : ℝ, VectorMeans (n := n) conv (.list [.scalar (.num (.fin x))]) [x] :=
    fun x => .list (.cons (.number _) .nil)
  have h := (C152_vector_lengths conv _ _ _ _ _ _ (m 1 2) (m 3 4) (m 5 6)).2.1
  have h' := (C152_vector_lengths conv _ _ _ _ _ _ (m 1 2) (m 3 4) (m1 5)).1
  simp at h h'
  exact ⟨h, h'⟩

end OPE.Parse
