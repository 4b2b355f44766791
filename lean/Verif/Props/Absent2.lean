import Verif.Props.Absent

/-!
# A pore fluid with saturation 0, the gases named by position (C159)
-/

namespace OPE

open Classical Spec

variable {n : ℕ} {α : Type}

theorem positions_split {a b : List α} {y : α} {k : ℕ} (hk : a.length = k) {p p' : ℕ → Prop} [DecidablePred p] [DecidablePred p'] (h1 : ∀ j < k, p' j ↔ p j)
    (h2 : ∀ j ≥ k, p' j ↔ p (j + 1)) :
    ∃ u v : List α,
      ((a ++ y :: b).zipIdx.filter fun z => p z.2).map (·.1) = (if p k then u ++ y :: v else u ++ v) ∧
      ((a ++ b).zipIdx.filter fun z => p' z.2).map (·.1) = u ++ v := by
  refine ⟨(a.zipIdx.filter fun z => p z.2).map (·.1), ((b.zipIdx (k + 1)).filter fun z => p z.2).map (·.1), ?_, ?_⟩
  · rw [List.zipIdx_append, List.filter_append, List.map_append, List.zipIdx_cons, List.filter_cons, hk, zero_add]
    by_cases h : p k <;> simp [h]
  · rw [List.zipIdx_append, List.filter_append, List.map_append, hk, zero_add]
    congr 1
    · congr 1
      apply List.filter_congr
      rintro ⟨z, j⟩ hz
      have : j < k := by
        have := List.snd_lt_of_mem_zipIdx hz
        omega
      simp [h1 j this]
    · rw [List.zipIdx_succ, List.filter_map, List.map_map]
      congr 1
      apply List.filter_congr
      rintro ⟨z, j⟩ hz
      have : j ≥ k := List.le_snd_of_mem_zipIdx hz
      simp [h2 j this]

theorem mix_given {A : List (FluidSpec n)} {T : Col n} {e : Num} {model : Provider} {gases : List ℕ}
    {f : Fluids n} (hf : mkFluids T A .brie e (some (gases.map fun j : ℕ => (j : ℤ))) model = .ok f)
    (hnd : gases.Nodup) (hin : ∀ j ∈ gases, j < A.length) {ms : List (Mat n)} (hlen : ms.length = A.length)
    (u : FluidSpec n → Col n) (hu : u = usedSaturation A) :
    f.mix ms =
      brie (((((A.zip ms).map fun z => (z.2, u z.1)).zipIdx.filter fun z => z.2 ∉ gases).map (·.1)).map Prod.fst)
        (((((A.zip ms).map fun z => (z.2, u z.1)).zipIdx.filter fun z => z.2 ∉ gases).map (·.1)).map Prod.snd)
        (((((A.zip ms).map fun z => (z.2, u z.1)).zipIdx.filter fun z => z.2 ∈ gases).map (·.1)).map Prod.fst)
        (((((A.zip ms).map fun z => (z.2, u z.1)).zipIdx.filter fun z => z.2 ∈ gases).map (·.1)).map Prod.snd)
        (fun _ => e) := by
  subst hu
  obtain ⟨-, e1⟩ := mkFluids_iff.mp hf
  have z1 : (A.zip ms).map Prod.fst = A := List.map_fst_zip (by omega)
  have z2 : (A.zip ms).map Prod.snd = ms := List.map_snd_zip (by omega)
  have key := (C40_brie_selection f ((A.zip ms).map fun z => (z.2, usedSaturation A z.1)) gases (by rw [e1])
    (by rw [e1]; rfl) hnd
    (by
      rw [e1]
      dsimp only
      rw [List.map_map, List.map_map]
      have : A.map (usedSaturation A) = ((A.zip ms).map Prod.fst).map (usedSaturation A) := by rw [z1]
      rw [List.map_map] at this
      exact this)
    (by
      intro j hj
      have := hin j hj
      simpa [hlen] using this)).1
  rw [List.map_map] at key
  have : (A.zip ms).map (Prod.fst ∘ fun z => (z.2, usedSaturation A z.1)) = ms := z2
  rw [this] at key
  have e3 : f.brieConstant = e := by rw [e1]
  rw [key, e3]
  rfl

theorem mix_absent_given {co2 : CO2Model n} {s : Sections n} {A B : List (FluidSpec n)} {x : FluidSpec n}
    {gases gases' : List ℕ} (h : AbsentGiven co2 s A x B gases gases') {f f' : Fluids n}
    (hf : mkFluids s.temperature (A ++ x :: B) s.mixMethod s.brieConstant s.brieGases s.fluidModel = .ok f)
    (hf' : mkFluids s.temperature (A ++ B) s.mixMethod s.brieConstant (some (gases'.map fun j : ℕ => (j : ℤ)))
      s.fluidModel = .ok f')
    {ms ms' : List (Mat n)} {m : Mat n} (hm : m.Ordinary) (h1 : ms.length = A.length) (h2 : ms'.length = B.length) :
    f.mix (ms ++ m :: ms') = f'.mix (ms ++ ms') := by
  have hu := used_absent (A := A) (B := B) h.saturation
  have hx : usedSaturation (A ++ B) x = c 0 := by rw [usedSaturation, h.saturation]; rfl
  have zx : (A ++ x :: B).zip (ms ++ m :: ms') = A.zip ms ++ (x, m) :: B.zip ms' := zip_absent h1.symm ..
  have z0 : (A ++ B).zip (ms ++ ms') = A.zip ms ++ B.zip ms' := List.zip_append h1.symm
  obtain ⟨hnd', hr1, hr2⟩ := h.renumbered
  have hin : ∀ j ∈ gases, j < (A ++ x :: B).length := by rw [← h.fluids]; exact h.inside
  have hin' : ∀ j ∈ gases', j < (A ++ B).length := by
    intro j hj
    rw [List.length_append]
    by_cases hjk : j < A.length
    · omega
    · have := hin _ ((hr2 j (by omega)).mp hj)
      simp only [List.length_append, List.length_cons] at this
      omega
  rw [h.method, h.given] at hf
  rw [h.method] at hf'
  rw [mix_given hf h.nodup hin (by simp [h1, h2]) (usedSaturation (A ++ B)) hu.symm,
    mix_given hf' hnd' hin' (by simp [h1, h2]) (usedSaturation (A ++ B)) rfl, zx, z0, List.map_append, List.map_append,
    List.map_cons]
  have hk : ((A.zip ms).map fun z => (z.2, usedSaturation (A ++ B) z.1)).length = A.length := by simp [h1]
  have tot : ∀ (p : ℕ → Prop) [DecidablePred p], totalSaturationAt (A ++ B) p =
      sumCols (((((A.zip ms).map (fun z => (z.2, usedSaturation (A ++ B) z.1)) ++
        (B.zip ms').map (fun z => (z.2, usedSaturation (A ++ B) z.1))).zipIdx.filter fun z => p z.2).map (·.1)).map
          Prod.snd) := by
    intro p _
    unfold totalSaturationAt
    congr 1
    have e1 : (A ++ B).map (usedSaturation (A ++ B)) =
        ((A.zip ms).map (fun z => (z.2, usedSaturation (A ++ B) z.1)) ++
        (B.zip ms').map (fun z => (z.2, usedSaturation (A ++ B) z.1))).map Prod.snd := by
      rw [← List.map_append, ← z0, List.map_map]
      have : A ++ B = ((A ++ B).zip (ms ++ ms')).map Prod.fst := (List.map_fst_zip (by simp [h1, h2])).symm
      conv_lhs => arg 2; rw [this]
      rw [List.map_map]
      rfl
    have e2 : ∀ {β γ : Type} (g : β → γ) (l : List β), ((l.map g).zipIdx.filter fun z => p z.2).map (·.1) =
        ((l.zipIdx.filter fun z => p z.2).map (·.1)).map g := by
      intro β γ g l
      rw [List.zipIdx_map, List.filter_map, List.map_map, List.map_map]
      rfl
    rw [← e2, ← e1, e2, List.map_map]
    change _ = List.map (fun y : FluidSpec n × ℕ => usedSaturation (A ++ B) y.1) _
    congr 1
    apply List.filter_congr
    intro y _
    exact decide_eq_decide.mpr Iff.rfl
  obtain ⟨gu, gv, g1, g2⟩ := positions_split (a := (A.zip ms).map fun z => (z.2, usedSaturation (A ++ B) z.1))
    (b := (B.zip ms').map fun z => (z.2, usedSaturation (A ++ B) z.1)) (y := (m, usedSaturation (A ++ B) x)) hk
    (p := fun j => j ∈ gases) (p' := fun j => j ∈ gases') hr1 hr2
  obtain ⟨lu, lv, l1, l2⟩ := positions_split (a := (A.zip ms).map fun z => (z.2, usedSaturation (A ++ B) z.1))
    (b := (B.zip ms').map fun z => (z.2, usedSaturation (A ++ B) z.1)) (y := (m, usedSaturation (A ++ B) x)) hk
    (p := fun j => j ∉ gases) (p' := fun j => j ∉ gases') (fun j hj => not_congr (hr1 j hj))
    (fun j hj => not_congr (hr2 j hj))
  have nonempty : ∀ (p : ℕ → Prop) [DecidablePred p], (∃ j < (A ++ B).length, p j) →
      ∀ l, ((((A.zip ms).map (fun z => (z.2, usedSaturation (A ++ B) z.1)) ++
        (B.zip ms').map (fun z => (z.2, usedSaturation (A ++ B) z.1))).zipIdx.filter fun z => p z.2).map (·.1)) = l →
      l.map Prod.fst ≠ [] := by
    rintro p _ ⟨j, hj, hp⟩ l rfl h0
    rw [List.map_eq_nil_iff, List.map_eq_nil_iff, List.filter_eq_nil_iff] at h0
    have hlt : j < ((A.zip ms).map (fun z => (z.2, usedSaturation (A ++ B) z.1)) ++
        (B.zip ms').map (fun z => (z.2, usedSaturation (A ++ B) z.1))).length := by
      simpa [h1, h2] using hj
    exact h0 (_, j) (List.mk_mem_zipIdx_iff_getElem?.mpr (List.getElem?_eq_getElem hlt)) (by simpa using hp)
  change brie (List.map Prod.fst (List.map _ (List.filter _ (_ ++ (m, usedSaturation (A ++ B) x) :: _).zipIdx)))
    (List.map Prod.snd (List.map _ (List.filter _ (_ ++ (m, usedSaturation (A ++ B) x) :: _).zipIdx)))
    (List.map Prod.fst (List.map _ (List.filter _ (_ ++ (m, usedSaturation (A ++ B) x) :: _).zipIdx)))
    (List.map Prod.snd (List.map _ (List.filter _ (_ ++ (m, usedSaturation (A ++ B) x) :: _).zipIdx))) _ = _
  rw [g1, g2, l1, l2]
  rcases h.mixing with ⟨hy, hs⟩ | ⟨hxg, he, ⟨e, hc⟩, hs⟩
  · by_cases hxg : A.length ∈ gases
    · simp only [hxg, iff_true, not_true, if_true, if_false, List.map_append, List.map_cons, hx] at hy hs ⊢
      refine brie_absent_gas (by simp) (by simp) hm ?_ ?_ _ _ _
      · intro i
        have := hs i
        rwa [tot, g2, List.map_append] at this
      · rw [← List.map_append]
        exact nonempty (fun j => j ∈ gases') hy _ g2
    · simp only [hxg, iff_false, not_false_iff, if_true, if_false, List.map_append, List.map_cons, hx] at hy hs ⊢
      refine brie_absent_liquid (by simp) (by simp) hm ?_ ?_ _ _ _
      · intro i
        have := hs i
        rwa [tot, l2, List.map_append] at this
      · rw [← List.map_append]
        exact nonempty (fun j => j ∉ gases') hy _ l2
  · subst he
    have hnil : gu = [] ∧ gv = [] := by
      rw [← List.append_eq_nil_iff, ← g2]
      simp
    obtain ⟨rfl, rfl⟩ := hnil
    simp only [hxg, not_true, if_true, if_false, List.map_append, List.map_cons, List.map_nil, List.nil_append, hx, hc]
    rw [← List.map_append, ← List.map_append]
    refine brie_absent_lone (by simp) ?_ hm ?_ e
    · refine nonempty (fun j => j ∉ ([] : List ℕ)) ⟨0, ?_, by simp⟩ _ l2
      exact List.length_pos_iff.mpr h.others
    · intro i
      rw [← l2, ← tot (fun j => j ∉ ([] : List ℕ)), ← hs i]
      unfold totalSaturationAt totalSaturation
      congr 1
      rw [List.filter_eq_self.mpr (by simp), List.filter_eq_self.mpr (by simp)]
      change List.map (usedSaturation (A ++ B) ∘ Prod.fst) _ = _
      rw [← List.map_map, List.zipIdx_map_fst]

/-- **C159, the gases named by position, the part that holds.** With Brie's law and explicit `brie_gases`, a
constituent with saturation 0 (not carbon dioxide) can be left out if the positions in
`brie_gases` are renumbered and another constituent of the same phase is left, or it is the only gas and the liquids
fill the pores: the calculation goes through with it if and only if it goes through without it, with the same result. -/
theorem C159_absent_given_partial (co2 : CO2Model n) (s : Sections n) (A : List (FluidSpec n)) (x : FluidSpec n)
    (B : List (FluidSpec n)) (gases gases' : List ℕ) (h : AbsentGiven co2 s A x B gases gases') (r : Result n) :
    calculate co2 s = .ok r ↔
      calculate co2 { s with
        fluids := A ++ B
        brieGases := some (gases'.map fun j : ℕ => (j : ℤ)) } = .ok r :=
  absent_of_mix co2 h.fluids h.saturation h.noCO2 h.ordinary h.others
    (fun hf hf' hm h1 h2 => mix_absent_given h hf hf' hm h1 h2) r

/-! ### A concrete case: oil, a material with saturation 0, a gas and brine, the second and third named as gases -/

example (oil lean gas brine : Mat 1) (co2 : CO2Model 1) (s : Sections 1) (ho : lean.Ordinary) (hm : s.mixMethod = .brie)
    (hf : s.fluids = [⟨.material oil, none, some (finC fun _ => 1 / 2)⟩] ++ ⟨.material lean, none, some (c 0)⟩ ::
      [⟨.material gas, none, some (finC fun _ => 1 / 4)⟩, ⟨.material brine, none, some (finC fun _ => 1 / 4)⟩])
    (hg : s.brieGases = some [2, 1]) :
    AbsentGiven co2 s [⟨.material oil, none, some (finC fun _ => 1 / 2)⟩] ⟨.material lean, none, some (c 0)⟩
      [⟨.material gas, none, some (finC fun _ => 1 / 4)⟩, ⟨.material brine, none, some (finC fun _ => 1 / 4)⟩]
      [2, 1] [1] := by
  refine ⟨hf, rfl, ?_, fun p _ => ⟨lean, rfl, ho⟩, by simp, hm, hg, by simp, ?_, ⟨by simp, ?_, ?_⟩, .inl ⟨⟨1, by simp, by simp⟩, ?_⟩⟩
  · simp [FluidKind.type]
  · rw [hf]; simp
  · simp
  · intro j hj
    simp at hj ⊢
    omega
  · intro i
    simp [totalSaturationAt, List.zipIdx_cons, usedSaturation, sumCols_eq_sum]

end OPE
