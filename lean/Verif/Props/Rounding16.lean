import Verif.Props.Rounding15

/-!
# Magnitudes in double arithmetic: averages of minerals
-/

namespace OPE

open Classical

theorem Sz.nat (n : ℕ) {a : ℕ} (h : n ≤ 2 ^ a) (ha : a ≤ 52 := by norm_num) : Sz a (n : ℝ) := by
  refine ⟨isDouble_nat n (lt_of_le_of_lt h (Nat.pow_lt_pow_right (by norm_num) (by omega))), ?_⟩
  rcases Nat.eq_zero_or_pos n with h0 | h0
  · exact .inl (by rw [h0]; simp)
  · refine .inr ?_
    rw [Nat.abs_cast]
    refine ⟨?_, by exact_mod_cast h⟩
    have h1 : (1:ℝ) ≤ n := by exact_mod_cast h0
    exact (inv_le_one_of_one_le₀ (one_le_two_pow' a)).trans h1

theorem Sz.of_near {k a : ℕ} {x y : ℝ} (hy : IsDouble y) (n : Near k x y) (hk : k ≤ 2 ^ 50) (h1 : (2 ^ a)⁻¹ ≤ x)
    (h2 : x ≤ 2 ^ a) : Sz (a + 1) y := by
  obtain ⟨n1, n2⟩ := n.le_two hk
  have p := inv_pos.mpr (two_pow_pos' a)
  have := n.pos (by linarith)
  refine ⟨hy, .inr ?_⟩
  rw [abs_of_pos this, pow_succ, mul_inv]
  constructor <;> linarith

theorem Sz.of_le {a : ℕ} {x : ℝ} (hx : IsDouble x) (h1 : (2 ^ a)⁻¹ ≤ x) (h2 : x ≤ 2 ^ a) : Sz a x :=
  ⟨hx, .inr (by rw [abs_of_pos (lt_of_lt_of_le (inv_pos.mpr (two_pow_pos' a)) h1)]; exact ⟨h1, h2⟩)⟩

theorem Sz.min {a : ℕ} {x y : ℝ} (hx : Sz a x) (hy : Sz a y) : Sz a (min x y) := by
  rcases min_choice x y with h | h <;> rw [h] <;> assumption

theorem Sz.bounds {a : ℕ} {x : ℝ} (h : Sz a x) (h0 : 0 < x) : (2 ^ a)⁻¹ ≤ x ∧ x ≤ 2 ^ a := by
  rcases h.2 with h | h
  · exact absurd h h0.ne'
  · rwa [abs_of_pos h0] at h

namespace Same

variable {fl fl' : ℝ → ℝ} {pw pw' : ℝ → ℝ → ℝ} (h : Same fl fl' pw pw')
include h

theorem ne_zero {x : ℝ} (hx : x ≠ 0) : fl' x ≠ 0 := by
  intro h0
  have := h.rounds.error x
  rw [h0, zero_sub, abs_neg] at this
  have : 0 < |x| := abs_pos.mpr hx
  nlinarith [unit_lt]

theorem fourThirds : fl (4 / 3) = fl' (4 / 3) ∧ Sz 1 (fl' (4 / 3)) :=
  h.fit (a := 1) (.inr (by rw [abs_of_pos (by norm_num)]; norm_num))

theorem walpole {a b d e c : ℕ} {x1 x2 z f : ℝ} (h1 : Sz a x1) (h2 : Sz a x2) (hz : Sz b z) (hf : Sz d f) (p1 : 0 < x1)
    (pz : 0 ≤ z) (hab : a ≤ b) (he1 : a + 53 ≤ e) (he2 : d + b + 2 ≤ e) (hc : d + e + 156 ≤ c) (hr : c ≤ 1022) :
    Double.walpole fl pw x1 x2 z f = Double.walpole fl' pw' x1 x2 z f ∧ Sz c (Double.walpole fl' pw' x1 x2 z f) := by
  unfold Double.walpole
  split_ifs with hx
  · exact ⟨rfl, h1.mono (by omega)⟩
  obtain ⟨e1, s1⟩ := h.sub h2 h1 (d := a) (c := a + 52)
  obtain ⟨e2, s2⟩ := h.recip s1 (h.ne_zero (sub_ne_zero.mpr (Ne.symm hx))) (c := a + 53)
  obtain ⟨e3, s3⟩ := h.add0 h1 hz p1.le pz (d := b) (c := b + 1)
  obtain ⟨e4, s4⟩ := h.recip s3 (h.pos (by linarith)).ne' (c := b + 2)
  obtain ⟨e5, s5⟩ := h.mul hf s4 (c := d + b + 2)
  obtain ⟨e6, s6⟩ := h.add s2 s5 (d := e) (c := e + 52)
  obtain ⟨e7, s7⟩ := h.sub one hf (d := d) (c := d + 52)
  obtain ⟨e8, s8⟩ := h.div s7 s6 (c := d + e + 104)
  obtain ⟨e9, s9⟩ := h.add h1 s8 (d := d + e + 104) (c := c)
  rw [e1, e2, e3, e4, e5, e6, e7, e8, e9]
  exact ⟨rfl, s9⟩

theorem walpoleBulk {a d c : ℕ} {k1 k2 mum f : ℝ} (h1 : Sz a k1) (h2 : Sz a k2) (hm : Sz a mum) (hf : Sz d f) (p1 : 0 < k1)
    (pm : 0 ≤ mum) (hc : 2 * d + a + 212 ≤ c) (hr : c ≤ 1022) :
    Double.walpoleBulk fl pw k1 k2 mum f = Double.walpoleBulk fl' pw' k1 k2 mum f ∧
      Sz c (Double.walpoleBulk fl' pw' k1 k2 mum f) := by
  unfold Double.walpoleBulk
  obtain ⟨e1, s1⟩ := h.fourThirds
  obtain ⟨e2, s2⟩ := h.mul s1 hm (c := a + 1)
  rw [e1, e2]
  exact h.walpole h1 h2 s2 hf p1 (h.nonneg (mul_nonneg (h.nonneg (by norm_num)) pm)) (by omega) (e := d + a + 53) (by omega)
    (by omega) (by omega) hr

theorem walpoleShear {a d c : ℕ} {m1 m2 km mum f : ℝ} (h1 : Sz a m1) (h2 : Sz a m2) (hk : Sz a km) (hm : Sz a mum) (hf : Sz d f)
    (p1 : 0 < m1) (pk : 0 ≤ km) (pm : 0 ≤ mum) (hc : 2 * d + 3 * a + 226 ≤ c) (hr : c ≤ 1022) :
    Double.walpoleShear fl pw m1 m2 km mum f = Double.walpoleShear fl' pw' m1 m2 km mum f ∧
      Sz c (Double.walpoleShear fl' pw' m1 m2 km mum f) := by
  unfold Double.walpoleShear
  have n6 : Sz 3 (6:ℝ) := by simpa using Sz.nat 6 (a := 3)
  have n9 : Sz 4 (9:ℝ) := by simpa using Sz.nat 9 (a := 4)
  have n8 : Sz 3 (8:ℝ) := by simpa using Sz.nat 8 (a := 3)
  have n2 : Sz 1 (2:ℝ) := by simpa using Sz.nat 2 (a := 1)
  obtain ⟨e1, s1⟩ := h.div hm n6 (c := a + 3)
  obtain ⟨e2, s2⟩ := h.mul n9 hk (c := a + 4)
  obtain ⟨e3, s3⟩ := h.mul n8 hm (c := a + 3)
  have q2 := h.nonneg (mul_nonneg (by norm_num : (0:ℝ) ≤ 9) pk)
  have q3 := h.nonneg (mul_nonneg (by norm_num : (0:ℝ) ≤ 8) pm)
  obtain ⟨e4, s4⟩ := h.add0 s2 s3 q2 q3 (d := a + 4) (c := a + 5)
  obtain ⟨e5, s5⟩ := h.mul s1 s4 (c := 2 * a + 8)
  obtain ⟨e6, s6⟩ := h.mul n2 hm (c := a + 1)
  have q6 := h.nonneg (mul_nonneg (by norm_num : (0:ℝ) ≤ 2) pm)
  obtain ⟨e7, s7⟩ := h.add0 hk s6 pk q6 (d := a + 1) (c := a + 2)
  obtain ⟨e8, s8⟩ := h.div s5 s7 (c := 3 * a + 10)
  have q8 : 0 ≤ fl' (fl' (fl' (mum / 6) * fl' (fl' (9 * km) + fl' (8 * mum))) / fl' (km + fl' (2 * mum))) :=
    h.nonneg (div_nonneg (h.nonneg (mul_nonneg (h.nonneg (by positivity)) (h.nonneg (by positivity)))) (h.nonneg (by positivity)))
  rw [e1, e2, e3, e4, e5, e6, e7, e8]
  exact h.walpole h1 h2 s8 hf p1 q8 (by omega) (e := d + 3 * a + 53) (by omega) (by omega) (by omega) hr

theorem walpoleDensity {a d c : ℕ} {r1 r2 f : ℝ} (h1 : Sz a r1) (h2 : Sz a r2) (hf : Sz d f) (hc : d + a + 104 ≤ c)
    (hr : c ≤ 1022) :
    Double.walpoleDensity fl r1 r2 f = Double.walpoleDensity fl' r1 r2 f ∧ Sz c (Double.walpoleDensity fl' r1 r2 f) := by
  unfold Double.walpoleDensity
  split_ifs with hx
  · exact ⟨rfl, h2.mono (by omega)⟩
  obtain ⟨e1, s1⟩ := h.mul hf h1 (c := d + a)
  obtain ⟨e2, s2⟩ := h.sub one hf (d := d) (c := d + 52)
  obtain ⟨e3, s3⟩ := h.mul s2 h2 (c := d + 52 + a)
  obtain ⟨e4, s4⟩ := h.add s1 s3 (d := d + 52 + a) (c := c)
  rw [e1, e2, e3, e4]
  exact ⟨rfl, s4⟩

end Same

/-- The running total of `mixLoop`. -/
noncomputable def mixTotal (fl : ℝ → ℝ) (t : ℝ) (L : List ((ℝ × ℝ × ℝ) × ℝ)) : ℝ := L.foldl (fun t x => fl (t + x.2)) t

theorem mixLoop_append (fl : ℝ → ℝ) (pw : ℝ → ℝ → ℝ) (L M : List ((ℝ × ℝ × ℝ) × ℝ)) : ∀ (a : ℝ × ℝ × ℝ) (t : ℝ),
    Double.mixLoop fl pw a t (L ++ M) = Double.mixLoop fl pw (Double.mixLoop fl pw a t L) (mixTotal fl t L) M := by
  induction L with
  | nil => intro a t; rfl
  | cons x L ih => intro a t; obtain ⟨b, f⟩ := x; exact ih _ _

theorem addMinerals_box {b0 : Published.Rock} {R : ℕ} (h0 : 0 < b0.K ∧ 0 < b0.G ∧ 0 < b0.ρ) :
    ∀ (L : List (Published.Rock × ℝ)) (_ : ∀ x ∈ L, InBox b0 R x.1 ∧ 0 ≤ x.2) (a : Published.Rock) (t : ℝ),
      InBox b0 R a → 0 ≤ t → InBox b0 R (Published.addMinerals a t L) := by
  intro L
  induction L with
  | nil => intro _ a t ha _; exact ha
  | cons x L ih =>
    intro hL a t ha ht
    obtain ⟨b, f⟩ := x
    have hb := hL (b, f) List.mem_cons_self
    refine ih (fun y hy => hL y (List.mem_cons_of_mem _ hy)) _ _ (lowerBound_box h0 ha hb.1 ?_ ?_) (add_nonneg ht hb.2)
    · have := hb.2
      split_ifs
      · norm_num
      · exact div_nonneg ht (add_nonneg ht this)
    · have := hb.2
      dsimp only at this
      split_ifs with hz
      · exact le_rfl
      · exact (div_le_one (lt_of_le_of_ne (add_nonneg ht this) (Ne.symm hz))).mpr (by linarith)

/-- The three numbers are doubles of a given magnitude. -/
def SzRock (a : ℕ) (x : ℝ × ℝ × ℝ) : Prop := Sz a x.1 ∧ Sz a x.2.1 ∧ Sz a x.2.2

/-- The three numbers lie between `2⁻ᵉ` and `2ᵉ`. -/
noncomputable def Bounded (e : ℕ) (a : Published.Rock) : Prop :=
  ((2 ^ e)⁻¹ ≤ a.K ∧ a.K ≤ 2 ^ e) ∧ ((2 ^ e)⁻¹ ≤ a.G ∧ a.G ≤ 2 ^ e) ∧ ((2 ^ e)⁻¹ ≤ a.ρ ∧ a.ρ ≤ 2 ^ e)

noncomputable def lowestRock (e : ℕ) : Published.Rock := ⟨(2 ^ e)⁻¹, (2 ^ e)⁻¹, (2 ^ e)⁻¹⟩

theorem bounded_iff {e : ℕ} {a : Published.Rock} : Bounded e a ↔ InBox (lowestRock e) (2 ^ (2 * e)) a := by
  have h : (((2 ^ (2 * e) : ℕ) : ℝ) * (2 ^ e)⁻¹) = 2 ^ e := by
    push_cast
    rw [two_mul, pow_add]
    field_simp
  unfold InBox lowestRock Bounded
  dsimp only
  rw [h]

theorem lowestRock_pos (e : ℕ) : 0 < (lowestRock e).K ∧ 0 < (lowestRock e).G ∧ 0 < (lowestRock e).ρ := by
  unfold lowestRock
  have := inv_pos.mpr (two_pow_pos' e)
  exact ⟨this, this, this⟩

theorem OrdinaryRock.bounded {a : Published.Rock} (h : OrdinaryRock a) (hp : 0 < a.K ∧ 0 < a.G ∧ 0 < a.ρ) : Bounded 40 a :=
  ⟨h.1.sz.bounds hp.1, h.2.1.sz.bounds hp.2.1, h.2.2.sz.bounds hp.2.2⟩

/-- The average of ordinary minerals is the same with bounded exponents, and it is ordinary. -/
theorem minerals_same {fl fl' : ℝ → ℝ} {pw pw' : ℝ → ℝ → ℝ} (h : Same fl fl' pw pw') {R : ℕ} (a : Published.Rock) (t : ℝ)
    (ht : 0 ≤ t) (hto : Ordinary t) (hao : OrdinaryRock a) (hR2 : R ≤ 1000) (L : List (Published.Rock × ℝ)) :
    L.length ≤ 100 → (∀ x ∈ L, 0 ≤ x.2) → (∀ x ∈ a :: L.map (fun x => x.1), 0 < x.K ∧ 0 < x.G ∧ 0 < x.ρ) →
    WithinRatio R (a :: L.map fun x => x.1) → (∀ x ∈ L, OrdinaryRock x.1 ∧ Ordinary x.2) →
    let L' := L.map fun x => (tri x.1, x.2)
    Double.mixLoop fl pw (tri a) t L' = Double.mixLoop fl' pw' (tri a) t L' ∧ SzRock 41 (Double.mixLoop fl' pw' (tri a) t L') ∧
      mixTotal fl t L' = mixTotal fl' t L' ∧ Sz (40 + L.length) (mixTotal fl' t L') ∧ 0 ≤ mixTotal fl' t L' ∧
      Bounded 40 (Published.addMinerals a t L) := by
  induction L using List.reverseRecOn with
  | nil =>
    intro _ _ hpos _ _
    refine ⟨rfl, ⟨hao.1.sz.mono (by norm_num), hao.2.1.sz.mono (by norm_num), hao.2.2.sz.mono (by norm_num)⟩, rfl, hto.sz, ht,
      hao.bounded (hpos a (by simp))⟩
  | append_singleton L x ih =>
    intro hm hf hpos hratio ho L'
    have hmem : ∀ y ∈ a :: L.map (fun x => x.1), y ∈ a :: (L ++ [x]).map (fun x => x.1) := by
      intro y hy
      simp only [List.mem_cons, List.map_append, List.mem_append] at hy ⊢
      tauto
    have hlen : (L ++ [x]).length = L.length + 1 := by simp
    rw [hlen] at hm
    obtain ⟨e, s, et, st, pt, -⟩ := ih (by omega) (fun y hy => hf y (by simp [hy])) (fun y hy => hpos y (hmem y hy))
      (fun y hy z hz => hratio y (hmem y hy) z (hmem z hz)) (fun y hy => ho y (by simp [hy]))
    obtain ⟨nr, np, -⟩ := minerals_near h.rounds h.accurate a t L rfl ht hto.1 (fun y hy => hf y (by simp [hy]))
      (fun y hy => hpos y (hmem y hy)) (fun y hy z hz => hratio y (hmem y hy) z (hmem z hz)) hR2 (by omega)
    obtain ⟨nr', -, hJ⟩ := minerals_near h.rounds h.accurate a t (L ++ [x]) rfl ht hto.1 hf hpos hratio hR2 (by omega)
    have hbox : Bounded 40 (Published.addMinerals a t (L ++ [x])) := by
      refine bounded_iff.mpr (addMinerals_box (lowestRock_pos 40) _
        (fun y hy => ⟨bounded_iff.mp ((ho y hy).1.bounded (hpos y.1 ?_)), hf y hy⟩) _ _
        (bounded_iff.mp (hao.bounded (hpos a (by simp)))) ht)
      exact List.mem_cons_of_mem _ (List.mem_map_of_mem hy)
    have hL' : L' = L.map (fun x => (tri x.1, x.2)) ++ [(tri x.1, x.2)] := by simp [L']
    rw [hL'] at *
    set Q := L.map (fun x => (tri x.1, x.2)) with hQ
    have xo := ho x (by simp)
    have xf := hf x (by simp)
    have xp := hpos x.1 (by simp)
    -- the last step
    obtain ⟨f1, g1⟩ := h.add0 st xo.2.sz pt xf (d := 40 + L.length) (c := 41 + L.length)
    have tt : ∀ f : ℝ → ℝ, mixTotal f t (Q ++ [(tri x.1, x.2)]) = f (mixTotal f t Q + x.2) := by
      intro f; simp [mixTotal]
    have htot : mixTotal fl t (Q ++ [(tri x.1, x.2)]) = mixTotal fl' t (Q ++ [(tri x.1, x.2)]) := by
      rw [tt, tt, et, f1]
    have p1 : 0 ≤ fl' (mixTotal fl' t Q + x.2) := h.nonneg (add_nonneg pt xf)
    have step : Double.mixLoop fl pw (tri a) t (Q ++ [(tri x.1, x.2)]) = Double.mixLoop fl' pw' (tri a) t (Q ++ [(tri x.1, x.2)]) ∧
        SzRock 1022 (Double.mixLoop fl' pw' (tri a) t (Q ++ [(tri x.1, x.2)])) := by
      rw [mixLoop_append, mixLoop_append, e, et]
      unfold Double.mixLoop
      unfold Double.mixLoop
      dsimp only
      rw [f1]
      set b' := Double.mixLoop fl' pw' (tri a) t Q with hb'
      set T := mixTotal fl' t Q with hT
      have hr : (if fl' (T + x.2) = 0 then (1:ℝ) else fl (T / fl' (T + x.2))) =
          (if fl' (T + x.2) = 0 then (1:ℝ) else fl' (T / fl' (T + x.2))) ∧
          Sz 281 (if fl' (T + x.2) = 0 then (1:ℝ) else fl' (T / fl' (T + x.2))) := by
        split_ifs
        · exact ⟨rfl, Same.one.mono (by norm_num)⟩
        · exact h.div st g1
      obtain ⟨hr1, hr2⟩ := hr
      rw [hr1]
      set r := (if fl' (T + x.2) = 0 then (1:ℝ) else fl' (T / fl' (T + x.2))) with hrd
      have pK : 0 < b'.1 := nr.1.pos np.1
      have pG : 0 < b'.2.1 := nr.2.1.pos np.2.1
      have xK : Sz 41 x.1.K := xo.1.1.sz.mono (by norm_num)
      have xG : Sz 41 x.1.G := xo.1.2.1.sz.mono (by norm_num)
      have xρ : Sz 41 x.1.ρ := xo.1.2.2.sz.mono (by norm_num)
      obtain ⟨k1, k2⟩ := h.walpoleBulk s.1 xK (s.2.1.min xG) hr2 pK (le_min pG.le xp.2.1.le) (c := 1022) (by norm_num) le_rfl
      obtain ⟨l1, l2⟩ := h.walpoleShear s.2.1 xG (s.1.min xK) (s.2.1.min xG) hr2 pG (le_min pK.le xp.1.le)
        (le_min pG.le xp.2.1.le) (c := 1022) (by norm_num) le_rfl
      obtain ⟨m1, m2⟩ := h.walpoleDensity s.2.2 xρ hr2 (c := 1022) (by norm_num) le_rfl
      dsimp only [tri]
      rw [k1, l1, m1]
      exact ⟨rfl, k2, l2, m2⟩
    have hbox' := hbox
    obtain ⟨b1, b2, b3⟩ := hbox
    have hJ' : 1672 * (L ++ [x]).length ^ 2 * R ^ 2 ≤ 2 ^ 50 := hJ.trans (by norm_num)
    have mapq : (L ++ [x]).map (fun x => (tri x.1, x.2)) = Q ++ [(tri x.1, x.2)] := by simp [hQ]
    rw [mapq] at nr'
    refine ⟨step.1, ⟨?_, ?_, ?_⟩, htot, ?_, ?_, hbox'⟩
    · exact Sz.of_near step.2.1.1 nr'.1 hJ' b1.1 b1.2
    · exact Sz.of_near step.2.2.1.1 nr'.2.1 hJ' b2.1 b2.2
    · exact Sz.of_near step.2.2.2.1 nr'.2.2 hJ' b3.1 b3.2
    · rw [tt, hlen]; exact g1.mono (by omega)
    · rw [tt]; exact p1

end OPE
