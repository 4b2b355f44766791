import Verif.Props.Rounding16

/-!
# Magnitudes in double arithmetic: pore fluids, friable sand, fluid substitution
-/

namespace OPE

open Classical

theorem nonneg_sum_mag {a : ℕ} (L : List ℝ) (h : ∀ x ∈ L, Mag a x ∧ 0 ≤ x) :
    (L.sum = 0 ∨ (2 ^ a)⁻¹ ≤ L.sum) ∧ 0 ≤ L.sum ∧ L.sum ≤ L.length * 2 ^ a := by
  induction L with
  | nil => simp
  | cons x L ih =>
    obtain ⟨h1, h2, h3⟩ := ih fun y hy => h y (List.mem_cons_of_mem _ hy)
    obtain ⟨hx, hx0⟩ := h x List.mem_cons_self
    have hxu := hx.abs_le
    rw [abs_of_nonneg hx0] at hxu
    rw [List.sum_cons]
    refine ⟨?_, add_nonneg hx0 h2, ?_⟩
    · rcases hx with hx | ⟨hx, -⟩
      · rw [hx, zero_add]; exact h1
      · rw [abs_of_nonneg hx0] at hx; exact .inr (by linarith)
    · rw [List.length_cons]; push_cast; linarith

namespace Same

variable {fl fl' : ℝ → ℝ} {pw pw' : ℝ → ℝ → ℝ} (h : Same fl fl' pw pw')
include h

theorem sum {a : ℕ} (ha : a ≤ 1000) (L : List ℝ) : L.length ≤ 2 ^ 20 → (∀ x ∈ L, Sz a x ∧ 0 ≤ x) →
    Double.sum fl L = Double.sum fl' L ∧ Sz (a + 21) (Double.sum fl' L) ∧ 0 ≤ Double.sum fl' L := by
  induction L using List.reverseRecOn with
  | nil => intro _ _; exact ⟨rfl, ⟨⟨0, 0, by norm_num, by simp [Double.sum]⟩, .inl rfl⟩, le_rfl⟩
  | append_singleton L x ih =>
    intro hl hL
    have hlen : (L ++ [x]).length = L.length + 1 := by simp
    obtain ⟨e, s, p⟩ := ih (by omega) fun y hy => hL y (by simp [hy])
    obtain ⟨sx, px⟩ := hL x (by simp)
    have step : ∀ f : ℝ → ℝ, Double.sum f (L ++ [x]) = f (Double.sum f L + x) := by intro f; simp [Double.sum]
    obtain ⟨e1, s1⟩ := h.add0 s sx p px (d := a + 21) (c := a + 22)
    have n := near_sum h.rounds (L ++ [x]) (g := id) (g' := id) (k := 0) fun y hy => Near.refl 0 (hL y hy).2
    rw [List.map_id, zero_add] at n
    have p1 : 0 ≤ Double.sum fl' (L ++ [x]) := n.nonneg
    refine ⟨by rw [step, step, e, e1], ?_, p1⟩
    have hd : IsDouble (Double.sum fl' (L ++ [x])) := by rw [step]; exact s1.1
    obtain ⟨m1, -, m3⟩ := nonneg_sum_mag (L ++ [x]) fun y hy => ⟨(hL y hy).1.2, (hL y hy).2⟩
    rcases m1 with m1 | m1
    · rw [m1] at n
      exact ⟨hd, .inl n.of_zero⟩
    · refine Sz.of_near (a := a + 20) hd n (by omega) ((inv_anti₀ (two_pow_pos' a) (two_pow_mono' (by omega))).trans m1) (m3.trans ?_)
      rw [pow_add, mul_comm]
      exact mul_le_mul_of_nonneg_left (by exact_mod_cast hl) (two_pow_pos' a).le

theorem tiny : fl 1e-15 = fl' 1e-15 ∧ Sz 50 (fl' 1e-15) :=
  h.fit (a := 50) (.inr (by rw [abs_of_pos (by norm_num)]; norm_num))

theorem wood (L : List (Published.Fluid × ℝ)) (hn : L.length ≤ 2 ^ 20) (hs : ∀ x ∈ L, 0 ≤ x.2)
    (hfp : ∀ x ∈ L, 0 < x.1.K ∧ 0 < x.1.ρ) (ho : ∀ x ∈ L, OrdinaryFluid x.1 ∧ Ordinary x.2) :
    Double.wood fl (rowsOf L) = Double.wood fl' (rowsOf L) ∧ Sz 172 (Double.wood fl' (rowsOf L)).1 ∧
      Sz 172 (Double.wood fl' (rowsOf L)).2 := by
  have e1 : (rowsOf L).map (fun x => x.2.2) = L.map fun x => x.2 := by simp [rowsOf, List.map_map, Function.comp_def]
  have eK : ((rowsOf L).map fun x => x.1) = L.map fun x => x.1.K := by simp [rowsOf, List.map_map, Function.comp_def]
  have eR : ((rowsOf L).map fun x => x.2.1) = L.map fun x => x.1.ρ := by simp [rowsOf, List.map_map, Function.comp_def]
  obtain ⟨t1, t2, t3⟩ := h.sum (a := 40) (by norm_num) (L.map fun x => x.2) (by simpa using hn) (by
    intro y hy
    obtain ⟨x, hx, rfl⟩ := List.mem_map.mp hy
    exact ⟨(ho x hx).2.sz, hs x hx⟩)
  obtain ⟨c1, c2⟩ := h.tiny
  have c3 : 0 < fl' 1e-15 := h.pos (by norm_num)
  set T := Double.sum fl' (L.map fun x => x.2) with hT
  have hA : Sz 61 (max T (fl' 1e-15)) := by
    rcases max_choice T (fl' 1e-15) with hm | hm <;> rw [hm]
    · exact t2
    · exact c2.mono (by norm_num)
  have pA : 0 < max T (fl' 1e-15) := lt_max_of_lt_right c3
  set A := max T (fl' 1e-15) with hAd
  have hx : ∀ x ∈ L, fl ((if 0 < T then x.2 else fl' 1e-15) / A) = fl' ((if 0 < T then x.2 else fl' 1e-15) / A) ∧
      Sz 111 (fl' ((if 0 < T then x.2 else fl' 1e-15) / A)) ∧ 0 ≤ fl' ((if 0 < T then x.2 else fl' 1e-15) / A) := by
    intro x hx
    have s : Sz 50 (if 0 < T then x.2 else fl' 1e-15) ∧ 0 ≤ (if 0 < T then x.2 else fl' 1e-15) := by
      split_ifs
      · exact ⟨(ho x hx).2.sz.mono (by norm_num), hs x hx⟩
      · exact ⟨c2, c3.le⟩
    obtain ⟨q1, q2⟩ := h.div s.1 hA (c := 111)
    exact ⟨q1, q2, h.nonneg (div_nonneg s.2 pA.le)⟩
  have sat : Double.sumToOne fl (L.map fun x => x.2) = (L.map fun x => x.2).map (fun y => fl' ((if 0 < T then y else fl' 1e-15) / A)) := by
    unfold Double.sumToOne
    dsimp only
    rw [t1, c1]
    rw [List.map_map, List.map_map]
    exact List.map_congr_left fun x hx' => (hx x hx').1
  have sat' : Double.sumToOne fl' (L.map fun x => x.2) = (L.map fun x => x.2).map (fun y => fl' ((if 0 < T then y else fl' 1e-15) / A)) := rfl
  unfold Double.wood
  dsimp only
  rw [e1, eK, eR, sat, sat', zip_map_map, zip_map_map]
  unfold Double.mixBulk Double.mixDensities
  rw [List.map_map, List.map_map, List.map_map, List.map_map]
  simp only [Function.comp_def]
  have m1 : (L.map fun x => fl (fl' ((if 0 < T then x.2 else fl' 1e-15) / A) / x.1.K)) =
      (L.map fun x => fl' (fl' ((if 0 < T then x.2 else fl' 1e-15) / A) / x.1.K)) :=
    List.map_congr_left fun x hx' => (h.div (hx x hx').2.1 (ho x hx').1.1.sz (c := 151)).1
  have m2 : (L.map fun x => fl (x.1.ρ * fl' ((if 0 < T then x.2 else fl' 1e-15) / A))) =
      (L.map fun x => fl' (x.1.ρ * fl' ((if 0 < T then x.2 else fl' 1e-15) / A))) :=
    List.map_congr_left fun x hx' => (h.mul (ho x hx').1.2.sz (hx x hx').2.1 (c := 151)).1
  obtain ⟨u1, u2, -⟩ := h.sum (a := 151) (by norm_num) (L.map fun x => fl' (fl' ((if 0 < T then x.2 else fl' 1e-15) / A) / x.1.K))
    (by simpa using hn) (by
    intro y hy
    obtain ⟨x, hx', rfl⟩ := List.mem_map.mp hy
    exact ⟨(h.div (hx x hx').2.1 (ho x hx').1.1.sz (c := 151)).2, h.nonneg (div_nonneg (hx x hx').2.2 (hfp x hx').1.le)⟩)
  obtain ⟨v1, v2, -⟩ := h.sum (a := 151) (by norm_num) (L.map fun x => fl' (x.1.ρ * fl' ((if 0 < T then x.2 else fl' 1e-15) / A)))
    (by simpa using hn) (by
    intro y hy
    obtain ⟨x, hx', rfl⟩ := List.mem_map.mp hy
    exact ⟨(h.mul (ho x hx').1.2.sz (hx x hx').2.1 (c := 151)).2, h.nonneg (mul_nonneg (hfp x hx').2.le (hx x hx').2.2)⟩)
  rw [m1, m2, u1, v1]
  obtain ⟨w1, w2⟩ := h.div one u2 (c := 172)
  rw [w1]
  exact ⟨rfl, w2, v2⟩

theorem hertzMindlin {m : ℝ × ℝ × ℝ} (hm : SzRock 41 m) (pm : 0 < m.1 ∧ 0 < m.2.1) {φ p sr n : ℝ} (hφ : Ordinary φ)
    (hp : Ordinary p) (hsr : Ordinary sr) (hn : Ordinary n) (pφ : φ < 1) (pp : 0 < p) (ps : 0 ≤ sr) (pn : 0 < n) :
    Double.hertzMindlin fl pw m φ p sr n = Double.hertzMindlin fl' pw' m φ p sr n ∧
      SzRock 900 (Double.hertzMindlin fl' pw' m φ p sr n) := by
  obtain ⟨hK, hG, hρ⟩ := hm
  obtain ⟨pK, pG⟩ := pm
  have n2 : Sz 1 (2:ℝ) := by simpa using Sz.nat 2 (a := 1)
  have n3 : Sz 2 (3:ℝ) := by simpa using Sz.nat 3 (a := 2)
  have n4 : Sz 2 (4:ℝ) := by simpa using Sz.nat 4 (a := 2)
  have n8 : Sz 3 (8:ℝ) := by simpa using Sz.nat 8 (a := 3)
  have n12 : Sz 4 (12:ℝ) := by simpa using Sz.nat 12 (a := 4)
  have n20 : Sz 5 (20:ℝ) := by simpa using Sz.nat 20 (a := 5)
  have n15 : Sz 1 (1.5:ℝ) := ⟨⟨3, -1, by norm_num, by norm_num⟩, .inr (by rw [abs_of_pos (by norm_num)]; norm_num)⟩
  have pos3 : 0 < 3 * m.1 := by positivity
  -- Poisson's ratio
  have hv : Double.poisson fl m.1 m.2.1 = Double.poisson fl' m.1 m.2.1 ∧ Sz 140 (Double.poisson fl' m.1 m.2.1) := by
    unfold Double.poisson
    obtain ⟨e1, s1⟩ := h.mul n3 hK (c := 43)
    obtain ⟨e2, s2⟩ := h.mul n2 hG (c := 42)
    obtain ⟨e3, s3⟩ := h.sub s1 s2 (d := 43) (c := 95)
    obtain ⟨e4, s4⟩ := h.add0 s1 hG (h.nonneg pos3.le) pG.le (d := 43) (c := 44)
    obtain ⟨e5, s5⟩ := h.mul n2 s4 (c := 45)
    obtain ⟨e6, s6⟩ := h.div s3 s5 (c := 140)
    rw [e1, e2, e3, e4, e5, e6]
    exact ⟨rfl, s6⟩
  obtain ⟨ev, sv⟩ := hv
  obtain ⟨w1n, w2n⟩ := one_sub_poisson_near h.rounds pK pG
  have hν := (nuR_lt m.1 m.2.1 pK pG).1
  have pw1 : 0 < fl' (1 - Double.poisson fl' m.1 m.2.1) := w1n.pos (by linarith)
  have pw2 : 0 < fl' (2 - Double.poisson fl' m.1 m.2.1) := w2n.pos (by linarith)
  set v := Double.poisson fl' m.1 m.2.1 with hvd
  obtain ⟨e1, s1⟩ := h.sub one sv (d := 140) (c := 192)
  obtain ⟨e2, s2⟩ := h.sub n2 sv (d := 140) (c := 192)
  have hπ : fl Real.pi = fl' Real.pi ∧ Sz 2 (fl' Real.pi) := by
    refine h.fit (a := 2) (.inr ?_)
    rw [abs_of_pos Real.pi_pos]
    have := Real.pi_gt_three
    have := Real.pi_lt_four
    constructor <;> norm_num <;> linarith
  obtain ⟨eπ, sπ⟩ := hπ
  have pπ : 0 < fl' Real.pi := h.pos Real.pi_pos
  have p1φ : 0 < fl' (1 - φ) := h.pos (by linarith)
  obtain ⟨e3, s3⟩ := h.sub one hφ.sz (d := 40) (c := 92)
  -- the base of the power
  obtain ⟨f1, g1⟩ := h.mul n3 sπ (c := 4)
  obtain ⟨f2, g2⟩ := h.mul g1 s1 (c := 196)
  obtain ⟨f3, g3⟩ := h.mul g2 hp.sz (c := 236)
  obtain ⟨f4, g4⟩ := h.mul n2 hn.sz (c := 41)
  obtain ⟨f5, g5⟩ := h.mul g4 s3 (c := 133)
  obtain ⟨f6, g6⟩ := h.mul g5 hG (c := 174)
  obtain ⟨f7, g7⟩ := h.div g3 g6 (c := 410)
  have q3 : 0 < fl' (fl' (fl' (3 * fl' Real.pi) * fl' (1 - v)) * p) :=
    h.pos (mul_pos (h.pos (mul_pos (h.pos (by positivity)) pw1)) pp)
  have q6 : 0 < fl' (fl' (fl' (2 * n) * fl' (1 - φ)) * m.2.1) :=
    h.pos (mul_pos (h.pos (mul_pos (h.pos (by positivity)) p1φ)) pG)
  have q7 : 0 < fl' (fl' (fl' (fl' (3 * fl' Real.pi) * fl' (1 - v)) * p) / fl' (fl' (fl' (2 * n) * fl' (1 - φ)) * m.2.1)) :=
    h.pos (div_pos q3 q6)
  have ht : fl (1 / 3) = fl' (1 / 3) ∧ Sz 2 (fl' (1 / 3)) :=
    h.fit (a := 2) (.inr (by rw [abs_of_pos (by norm_num)]; norm_num))
  have hthird : |fl' (1 / 3)| ≤ 1 := by
    rw [abs_of_pos (h.pos (by norm_num))]
    exact h.rounds.le_double one.1 (by norm_num)
  obtain ⟨f8, g8⟩ := h.pow g7.2 q7 hthird (c := 411)
  have q8 := h.pow_pos q7 (fl' (1 / 3))
  unfold Double.hertzMindlin
  dsimp only
  rw [ev, e1, e2, eπ, e3, f1, f2, f3, f4, f5, f6, f7, ht.1, f8]
  set A := pw' (fl' (fl' (fl' (fl' (3 * fl' Real.pi) * fl' (1 - v)) * p) / fl' (fl' (fl' (2 * n) * fl' (1 - φ)) * m.2.1)))
    (fl' (1 / 3)) with hA
  obtain ⟨i1, j1⟩ := h.mul n4 g8 (c := 413)
  obtain ⟨i2, j2⟩ := h.mul j1 hG (c := 454)
  obtain ⟨i3, j3⟩ := h.div j2 s1 (c := 646)
  obtain ⟨i4, j4⟩ := h.mul n8 g8 (c := 414)
  obtain ⟨i5, j5⟩ := h.mul j4 hG (c := 455)
  obtain ⟨i6, j6⟩ := h.div j5 s2 (c := 647)
  obtain ⟨i7, j7⟩ := h.mul n15 j6 (c := 648)
  obtain ⟨i8, j8⟩ := h.mul j7 hsr.sz (c := 688)
  have r1 : 0 ≤ fl' (fl' (fl' (4 * A) * m.2.1) / fl' (1 - v)) :=
    h.nonneg (div_nonneg (h.nonneg (mul_nonneg (h.nonneg (by positivity)) pG.le)) pw1.le)
  have r2 : 0 ≤ fl' (fl' (1.5 * fl' (fl' (fl' (8 * A) * m.2.1) / fl' (2 - v))) * sr) :=
    h.nonneg (mul_nonneg (h.nonneg (mul_nonneg (by norm_num)
      (h.nonneg (div_nonneg (h.nonneg (mul_nonneg (h.nonneg (by positivity)) pG.le)) pw2.le)))) ps)
  obtain ⟨i9, j9⟩ := h.add0 j3 j8 r1 r2 (d := 688) (c := 689)
  obtain ⟨k1, l1⟩ := h.mul hn.sz s3 (c := 132)
  obtain ⟨k2, l2⟩ := h.mul n12 sπ (c := 6)
  obtain ⟨k3, l3⟩ := h.div l1 l2 (c := 138)
  obtain ⟨k4, l4⟩ := h.mul l3 j3 (c := 900)
  obtain ⟨k5, l5⟩ := h.mul n20 sπ (c := 7)
  obtain ⟨k6, l6⟩ := h.div l1 l5 (c := 139)
  obtain ⟨k7, l7⟩ := h.mul l6 j9 (c := 900)
  obtain ⟨k8, l8⟩ := h.mul hρ s3 (c := 900)
  rw [i1, i2, i3, i4, i5, i6, i7, i8, i9, k1, k2, k3, k4, k5, k6, k7, k8]
  exact ⟨rfl, l4, l7, l8⟩

end Same

end OPE
