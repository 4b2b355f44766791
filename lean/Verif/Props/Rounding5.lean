import Verif.Props.Rounding4

/-!
# C169: checks of fractions in double arithmetic
-/

namespace OPE

open Classical

variable {fl : ℝ → ℝ}

theorem constants_near (hf : RoundsToNearest fl) :
    |fl (1 + fl 1e-5) - (1 + 1e-5)| ≤ 1e-15 ∧ |-fl 1e-5 - (-1e-5)| ≤ 1e-15 ∧
      |fl (fl 1e-5 + fl (fl 1e-5 * 1)) - 2e-5| ≤ 1e-15 := by
  have u0 : unit ≤ 2e-16 := by unfold unit; norm_num
  have hu := unit_pos
  have h1 : |fl 1e-5 - 1e-5| ≤ 2e-16 * 1e-5 := by
    have := hf.error 1e-5
    rw [abs_of_pos (by norm_num : (0:ℝ) < 1e-5)] at this
    exact this.trans (mul_le_mul_of_nonneg_right u0 (by norm_num))
  have h1' := abs_le.mp h1
  have hp : |fl 1e-5| ≤ 2e-5 := by
    rw [abs_le]
    constructor
    · have := h1'.1; norm_num at *; linarith
    · have := h1'.2; norm_num at *; linarith
  have idem : fl (fl 1e-5 * 1) = fl 1e-5 := by rw [mul_one]; exact hf.exact (hf _).1
  refine ⟨?_, ?_, ?_⟩
  · have h2 := hf.error (1 + fl 1e-5)
    have h3 : |1 + fl 1e-5| ≤ 2 := by
      refine (abs_add_le _ _).trans ?_
      rw [abs_one]; norm_num at hp ⊢; linarith
    have h4 : |fl (1 + fl 1e-5) - (1 + fl 1e-5)| ≤ 2e-16 * 2 := h2.trans (mul_le_mul u0 h3 (abs_nonneg _) (by norm_num))
    have e : fl (1 + fl 1e-5) - (1 + 1e-5) = (fl (1 + fl 1e-5) - (1 + fl 1e-5)) + (fl 1e-5 - 1e-5) := by ring
    rw [e]
    exact (abs_add_le _ _).trans ((add_le_add h4 h1).trans (by norm_num))
  · rw [neg_sub_neg, abs_sub_comm]
    exact h1.trans (by norm_num)
  · rw [idem]
    have h2 := hf.error (fl 1e-5 + fl 1e-5)
    have h3 : |fl 1e-5 + fl 1e-5| ≤ 4e-5 := (abs_add_le _ _).trans ((add_le_add hp hp).trans (by norm_num))
    have h4 : |fl (fl 1e-5 + fl 1e-5) - (fl 1e-5 + fl 1e-5)| ≤ 2e-16 * 4e-5 :=
      h2.trans (mul_le_mul u0 h3 (abs_nonneg _) (by norm_num))
    have e : fl (fl 1e-5 + fl 1e-5) - 2e-5 = (fl (fl 1e-5 + fl 1e-5) - (fl 1e-5 + fl 1e-5)) + ((fl 1e-5 - 1e-5) + (fl 1e-5 - 1e-5)) := by
      norm_num; ring
    rw [e]
    exact (abs_add_le _ _).trans ((add_le_add h4 ((abs_add_le _ _).trans (add_le_add h1 h1))).trans (by norm_num))

/-- A sum of at most a million non-negative numbers, rounded. -/
theorem sum_near (hf : RoundsToNearest fl) (fs : List ℝ) (h0 : ∀ f ∈ fs, 0 ≤ f) (hn : fs.length ≤ 1000000) :
    |Double.sum fl fs - fs.sum| ≤ 2.5e-10 * fs.sum := by
  have h := near_sum hf fs (g := id) (g' := id) (k := 0) fun a ha => Near.refl 0 (h0 a ha)
  rw [List.map_id, zero_add] at h
  have h2 := h.abs_le (by omega)
  refine h2.trans (mul_le_mul_of_nonneg_right ?_ h.1)
  have : (fs.length : ℝ) ≤ 1000000 := by exact_mod_cast hn
  calc (fs.length : ℝ) * (2 * unit) ≤ 1000000 * (2 * unit) := mul_le_mul_of_nonneg_right this (by linarith [unit_pos])
    _ ≤ 2.5e-10 := by unfold unit; norm_num

theorem sum_accepted (hf : RoundsToNearest fl) (fs : List ℝ) (h0 : ∀ f ∈ fs, 0 ≤ f) (hn : fs.length ≤ 1000000) :
    (fs.sum ≤ 1 + 1e-5 - 1e-9 → ¬ fl (1 + fl 1e-5) < Double.sum fl fs) ∧
      (1 + 1e-5 + 1e-9 ≤ fs.sum → fl (1 + fl 1e-5) < Double.sum fl fs) := by
  have h := abs_le.mp (sum_near hf fs h0 hn)
  have hc := abs_le.mp (constants_near hf).1
  have hs : 0 ≤ fs.sum := List.sum_nonneg h0
  constructor
  · intro ht
    rw [not_lt]
    have := h.2
    have := hc.1
    norm_num at *
    linarith
  · intro ht
    have := h.1
    have := hc.2
    norm_num at *
    linarith

theorem filterMap_some (fs : List ℝ) : (fs.map some).filterMap id = fs := by
  induction fs with
  | nil => rfl
  | cons a l ih => simp

theorem ratio_of_total (hf : RoundsToNearest fl) {f : ℝ} (h0 : -1e-5 + 1e-15 ≤ f) (h1 : f ≤ 1 + 1e-5 - 1e-9) :
    Double.fractionIsRatio fl f := by
  have hc := abs_le.mp (constants_near hf).1
  have hd := abs_le.mp (constants_near hf).2.1
  unfold Double.fractionIsRatio
  refine ⟨not_lt.mpr ?_, not_lt.mpr ?_⟩
  · have := hd.2
    linarith
  · have := hc.1
    norm_num at *
    linarith

theorem count_some (fs : List ℝ) : (fs.map some).count none = 0 := by
  rw [List.count_eq_zero]
  intro h
  obtain ⟨x, -, hx⟩ := List.mem_map.mp h
  exact Option.some_ne_none x hx

theorem fix_given (hf : RoundsToNearest fl) (fs : List ℝ) (h0 : ∀ f ∈ fs, 0 ≤ f) (hn : fs.length ≤ 1000000)
    (ht : fs.sum ≤ 1 + 1e-5 - 1e-9) : Double.fixOneFraction fl (fs.map some) = some (fs.map some) := by
  unfold Double.fixOneFraction
  dsimp only
  rw [filterMap_some, if_neg ((sum_accepted hf fs h0 hn).1 ht), count_some, if_pos rfl]

theorem fix_refused {fs : List (Option ℝ)} (h : fl (1 + fl 1e-5) < Double.sum fl (fs.filterMap id)) :
    Double.fixOneFraction fl fs = none := by
  unfold Double.fixOneFraction
  dsimp only
  rw [if_pos h]

theorem ratios (hf : RoundsToNearest fl) {fs : List ℝ} (h0 : ∀ f ∈ fs, 0 ≤ f) (ht : fs.sum ≤ 1 + 1e-5 - 1e-9) :
    ∀ f ∈ fs, Double.fractionIsRatio fl f := fun f hfm =>
  ratio_of_total hf (by have := h0 f hfm; norm_num at *; linarith) ((List.single_le_sum h0 f hfm).trans ht)

/-- **C169 (fluids).** Rounding does not decide whether fractions of fluids are accepted: of up to a million fractions that are
not negative, a true total of at most `1 + 1e-5 - 1e-9` is accepted and one of at least `1 + 1e-5 + 1e-9` is refused. -/
theorem C169_fluids (hf : RoundsToNearest fl) (fs : List ℝ) (h0 : ∀ f ∈ fs, 0 ≤ f) (hn : fs.length ≤ 1000000) :
    (fs.sum ≤ 1 + 1e-5 - 1e-9 → Double.fluidsAccepted fl (fs.map some)) ∧
      (1 + 1e-5 + 1e-9 ≤ fs.sum → ¬ Double.fluidsAccepted fl (fs.map some)) := by
  constructor
  · intro ht
    refine ⟨?_, ?_, fs.map some, fix_given hf fs h0 hn ht⟩
    · rw [filterMap_some]; exact ratios hf h0 ht
    · rw [filterMap_some]; exact (sum_accepted hf fs h0 hn).1 ht
  · intro ht h
    have := h.2.1
    rw [filterMap_some] at this
    exact this ((sum_accepted hf fs h0 hn).2 ht)

/-- What the final check of the minerals sees. -/
theorem close_iff (hf : RoundsToNearest fl) {s : ℝ} (hs0 : 0 ≤ s) (hs2 : s ≤ 2) :
    (|s - 1| ≤ 2e-5 - 1e-12 → |fl (s - 1)| ≤ fl (fl 1e-5 + fl (fl 1e-5 * 1))) ∧
      (2e-5 + 1e-12 ≤ |s - 1| → ¬ |fl (s - 1)| ≤ fl (fl 1e-5 + fl (fl 1e-5 * 1))) := by
  have hc := abs_le.mp (constants_near hf).2.2
  have u0 : unit ≤ 2e-16 := by unfold unit; norm_num
  have he := hf.error (s - 1)
  have ha : |s - 1| ≤ 1 := by rw [abs_le]; constructor <;> linarith
  have he2 : |fl (s - 1) - (s - 1)| ≤ 2e-16 := by
    refine he.trans ((mul_le_mul u0 ha (abs_nonneg _) (by norm_num)).trans (by norm_num))
  constructor
  · intro h
    have h3 := abs_sub_abs_le_abs_sub (fl (s - 1)) (s - 1)
    have := hc.1
    norm_num at *
    linarith
  · intro h
    rw [not_le]
    have h3 := abs_sub_abs_le_abs_sub (s - 1) (fl (s - 1))
    rw [abs_sub_comm (s - 1) (fl (s - 1))] at h3
    have := hc.2
    norm_num at *
    linarith

/-- **C169 (minerals).** The same for minerals, whose total must not be too small either: rounding does not decide unless the
true total is within `1e-9` of `1 - 2e-5` or of `1 + 1e-5`. -/
theorem C169_minerals (hf : RoundsToNearest fl) (fs : List ℝ) (h0 : ∀ f ∈ fs, 0 ≤ f) (hn : fs.length ≤ 1000000) :
    (1 - 2e-5 + 1e-9 ≤ fs.sum → fs.sum ≤ 1 + 1e-5 - 1e-9 → Double.mineralsAccepted fl (fs.map some)) ∧
      (fs.sum ≤ 1 - 2e-5 - 1e-9 ∨ 1 + 1e-5 + 1e-9 ≤ fs.sum → ¬ Double.mineralsAccepted fl (fs.map some)) := by
  have hs := abs_le.mp (sum_near hf fs h0 hn)
  have hs0 : 0 ≤ fs.sum := List.sum_nonneg h0
  constructor
  · intro h1 h2
    refine ⟨?_, fs.map some, fix_given hf fs h0 hn h2, ?_⟩
    · rw [filterMap_some]; exact ratios hf h0 h2
    · rw [filterMap_some]
      have e1 := hs.1
      have e2 := hs.2
      refine (close_iff hf ?_ ?_).1 (abs_le.mpr ⟨?_, ?_⟩) <;> norm_num at * <;> linarith
  · rintro h ⟨-, gs, hg, hc⟩
    by_cases hb : fl (1 + fl 1e-5) < Double.sum fl ((fs.map some).filterMap id)
    · rw [fix_refused hb] at hg; simp at hg
    · rw [filterMap_some] at hb
      have hlow : fs.sum ≤ 1 - 2e-5 - 1e-9 := by
        rcases h with h | h
        · exact h
        · exact absurd ((sum_accepted hf fs h0 hn).2 h) hb
      have hup : fs.sum ≤ 1 + 1e-5 - 1e-9 := hlow.trans (by norm_num)
      rw [fix_given hf fs h0 hn hup, Option.some.injEq] at hg
      subst hg
      rw [filterMap_some] at hc
      have e1 := hs.1
      have e2 := hs.2
      refine (close_iff hf ?_ ?_).2 ?_ hc
      · norm_num at *; linarith
      · norm_num at *; linarith
      · rw [abs_sub_comm]
        refine le_trans ?_ (le_abs_self _)
        norm_num at *; linarith

/-- Sums of numbers of either sign, in terms of the sum of the absolute values. -/
theorem signed_sum_near (hf : RoundsToNearest fl) (xs : List ℝ) (hn : xs.length ≤ 1000000) :
    |Double.sum fl xs - xs.sum| ≤ 1e-9 * (xs.map fun x => |x|).sum := by
  have hu := unit_pos
  have key : ∀ (L : List ℝ) {j : ℕ} {x y X : ℝ}, |x| ≤ X → |y - x| ≤ ((1 + unit) ^ j - 1) * X →
      |L.foldl (fun a x => fl (a + x)) y - (x + L.sum)| ≤
        ((1 + unit) ^ (j + L.length) - 1) * (X + (L.map fun x => |x|).sum) := by
    intro L
    induction L with
    | nil => intro j x y X _ h; simpa using h
    | cons a L ih =>
      intro j x y X hx h
      have hX : 0 ≤ X := (abs_nonneg x).trans hx
      have hp : 1 ≤ (1 + unit) ^ j := one_le_pow₀ (by linarith)
      have h1 : |x + a| ≤ X + |a| := (abs_add_le _ _).trans (add_le_add hx le_rfl)
      have h2 : |fl (y + a) - (x + a)| ≤ ((1 + unit) ^ (j + 1) - 1) * (X + |a|) := by
        have e : fl (y + a) - (x + a) = (fl (y + a) - (y + a)) + (y - x) := by ring
        have e2 : y + a = (x + a) + (y - x) := by ring
        have h3 : |y + a| ≤ (X + |a|) + |y - x| := by
          rw [e2]; exact (abs_add_le _ _).trans (add_le_add h1 le_rfl)
        have h4 := (hf.error (y + a)).trans (mul_le_mul_of_nonneg_left h3 hu.le)
        rw [e]
        refine (abs_add_le _ _).trans ((add_le_add h4 le_rfl).trans ?_)
        have h5 : (1 + unit) * |y - x| ≤ (1 + unit) * (((1 + unit) ^ j - 1) * X) := mul_le_mul_of_nonneg_left h (by linarith)
        have h6 : 0 ≤ (1 + unit) * (((1 + unit) ^ j - 1) * |a|) :=
          mul_nonneg (by linarith) (mul_nonneg (by linarith) (abs_nonneg a))
        rw [pow_succ]
        nlinarith
      have := ih h1 h2
      simp only [List.foldl_cons, List.sum_cons, List.map_cons, List.length_cons]
      rw [show j + (L.length + 1) = j + 1 + L.length by omega, ← add_assoc x, ← add_assoc X]
      exact this
  have h := key xs (j := 0) (x := 0) (y := 0) (X := 0) (by simp) (by simp)
  rw [zero_add, zero_add, zero_add] at h
  refine h.trans (mul_le_mul_of_nonneg_right ?_ (List.sum_nonneg fun y hy => ?_))
  · have h1 : (1 + unit) ^ xs.length * (1 - unit) ^ xs.length ≤ 1 := by
      rw [← mul_pow]
      exact pow_le_one₀ (mul_nonneg (by linarith) Near.one_sub.1.le) (by nlinarith)
    have h2 := Near.sub_one_pow xs.length
    have h3 : (xs.length : ℝ) * unit ≤ 2e-10 := by
      have : (xs.length : ℝ) ≤ 1000000 := by exact_mod_cast hn
      calc (xs.length : ℝ) * unit ≤ 1000000 * unit := mul_le_mul_of_nonneg_right this hu.le
        _ ≤ 2e-10 := by unfold unit; norm_num
    have h4 : (1 + unit) ^ xs.length * (1 - 2e-10) ≤ 1 := by
      refine le_trans (mul_le_mul_of_nonneg_left ?_ (by positivity)) h1
      linarith
    norm_num at h4 ⊢
    linarith
  · obtain ⟨z, -, rfl⟩ := List.mem_map.mp hy
    exact abs_nonneg z

/-- **C169 (left out).** If one fraction is left out, it becomes one minus the others up to `1e-9`, and whether that is
accepted is not decided by rounding either. -/
theorem C169_left_out (hf : RoundsToNearest fl) (A B : List ℝ) (h0 : ∀ f ∈ A ++ B, 0 ≤ f) (hn : (A ++ B).length < 1000000) :
    ((A ++ B).sum ≤ 1 + 1e-5 - 1e-9 →
      ∃ q, |q - (1 - (A ++ B).sum)| ≤ 1e-9 ∧
        Double.fixOneFraction fl (A.map some ++ none :: B.map some) = some (A.map some ++ some q :: B.map some) ∧
        Double.fluidsAccepted fl (A.map some ++ none :: B.map some) ∧
        Double.mineralsAccepted fl (A.map some ++ none :: B.map some)) ∧
      (1 + 1e-5 + 1e-9 ≤ (A ++ B).sum →
        ¬ Double.fluidsAccepted fl (A.map some ++ none :: B.map some) ∧
        ¬ Double.mineralsAccepted fl (A.map some ++ none :: B.map some)) := by
  have efm : (A.map some ++ none :: B.map some).filterMap id = A ++ B := by
    rw [List.filterMap_append, List.filterMap_cons_none (by rfl), filterMap_some, filterMap_some]
  constructor
  · intro ht
    have hs := abs_le.mp (sum_near hf (A ++ B) h0 hn.le)
    have hs0 : 0 ≤ (A ++ B).sum := List.sum_nonneg h0
    set T := (A ++ B).sum with hT
    set T' := Double.sum fl (A ++ B) with hT'
    have hbig : ¬ fl (1 + fl 1e-5) < T' := (sum_accepted hf (A ++ B) h0 hn.le).1 ht
    have u0 : unit ≤ 2e-16 := by unfold unit; norm_num
    have e1 := hs.1
    have e2 := hs.2
    have hdiff : |T' - T| ≤ 3e-10 := by
      rw [abs_le]; constructor <;> norm_num at * <;> linarith
    have hd := abs_le.mp hdiff
    have ha : |1 - T'| ≤ 1.1 := by
      rw [abs_le]
      have := hd.1
      have := hd.2
      constructor <;> norm_num at * <;> linarith
    have he : |fl (1 - T') - (1 - T')| ≤ 3e-16 :=
      (hf.error _).trans ((mul_le_mul u0 ha (abs_nonneg _) (by norm_num)).trans (by norm_num))
    have he' := abs_le.mp he
    set q := fl (1 - T') with hq
    have hqT : |q - (1 - T)| ≤ 4e-10 := by
      have e : q - (1 - T) = (q - (1 - T')) - (T' - T) := by ring
      rw [e]
      exact (abs_sub _ _).trans ((add_le_add he hdiff).trans (by norm_num))
    have hqT' := abs_le.mp hqT
    have hratio : Double.fractionIsRatio fl q := by
      refine ratio_of_total hf ?_ ?_
      · have := hqT'.1; norm_num at *; linarith
      · have := hqT'.2; norm_num at *; linarith
    have hcount : (A.map some ++ none :: B.map some).count none = 1 := by
      rw [List.count_append, List.count_cons_self, count_some, count_some]
    have hfix : Double.fixOneFraction fl (A.map some ++ none :: B.map some) = some (A.map some ++ some q :: B.map some) := by
      unfold Double.fixOneFraction
      dsimp only
      rw [efm, ← hT', if_neg hbig, hcount, if_neg one_ne_zero, if_neg (lt_irrefl 1), ← hq, if_pos hratio]
      simp [List.map_append, List.map_map, Function.comp_def]
    refine ⟨q, hqT.trans (by norm_num), hfix, ⟨?_, ?_, _, hfix⟩, ?_, _, hfix, ?_⟩
    · rw [efm]; exact ratios hf h0 ht
    · rw [efm]; exact hbig
    · rw [efm]; exact ratios hf h0 ht
    · have efm2 : (A.map some ++ some q :: B.map some).filterMap id = A ++ q :: B := by
        rw [List.filterMap_append, List.filterMap_cons_some (b := q) (by rfl), filterMap_some, filterMap_some]
      rw [efm2]
      -- the filled-in fraction may be negative, so the partial sums are followed by hand
      have hsum : |Double.sum fl (A ++ q :: B) - 1| ≤ 1e-7 := by
        have hq2 : |q| ≤ 1.2 := by
          rw [abs_le]
          have := hqT'.1
          have := hqT'.2
          constructor <;> norm_num at * <;> linarith
        have habs : ((A ++ q :: B).map fun x => |x|).sum ≤ 3 := by
          have hAB : ((A ++ B).map fun x => |x|) = A ++ B := by
            conv_rhs => rw [← List.map_id (A ++ B)]
            exact List.map_congr_left fun x hx => abs_of_nonneg (h0 x hx)
          have e : ((A ++ q :: B).map fun x => |x|).sum = |q| + ((A ++ B).map fun x => |x|).sum := by
            simp only [List.map_append, List.map_cons, List.sum_append, List.sum_cons]; ring
          rw [e, hAB, ← hT]
          norm_num at *; linarith
        have h1 := signed_sum_near hf (A ++ q :: B) (by simp at hn ⊢; omega)
        have e : (A ++ q :: B).sum = q + T := by
          rw [hT]; simp only [List.sum_append, List.sum_cons]; ring
        rw [e] at h1
        have e2 : Double.sum fl (A ++ q :: B) - 1 = (Double.sum fl (A ++ q :: B) - (q + T)) + (q - (1 - T)) := by ring
        rw [e2]
        refine (abs_add_le _ _).trans ((add_le_add h1 hqT).trans ?_)
        norm_num at *; linarith
      have hb := abs_le.mp hsum
      refine (close_iff hf ?_ ?_).1 (hsum.trans (by norm_num))
      · have := hb.1; norm_num at *; linarith
      · have := hb.2; norm_num at *; linarith
  · intro ht
    have hb : fl (1 + fl 1e-5) < Double.sum fl ((A.map some ++ none :: B.map some).filterMap id) := by
      rw [efm]; exact (sum_accepted hf (A ++ B) h0 hn.le).2 ht
    refine ⟨fun h => h.2.1 hb, ?_⟩
    rintro ⟨-, gs, hg, -⟩
    rw [fix_refused hb] at hg
    simp at hg

end OPE
