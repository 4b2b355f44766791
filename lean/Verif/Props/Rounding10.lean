import Verif.Props.Rounding8

/-!
# C172 (several minerals), C171 (whole rows) in double arithmetic
-/

namespace OPE

open Classical

variable {fl : ℝ → ℝ} {pw : ℝ → ℝ → ℝ}

/-- The three numbers lie between those of `b` and `R` times those of `b`. -/
def InBox (b : Published.Rock) (R : ℕ) (a : Published.Rock) : Prop :=
  (b.K ≤ a.K ∧ a.K ≤ R * b.K) ∧ (b.G ≤ a.G ∧ a.G ≤ R * b.G) ∧ (b.ρ ≤ a.ρ ∧ a.ρ ≤ R * b.ρ)

/-- Everything about a rock is known up to `k` rounding errors. -/
def NearRock (k : ℕ) (a : Published.Rock) (x : ℝ × ℝ × ℝ) : Prop := Near k a.K x.1 ∧ Near k a.G x.2.1 ∧ Near k a.ρ x.2.2

theorem box_ratio {b x y R : ℝ} (hR : 0 ≤ R) (hx : b ≤ x ∧ x ≤ R * b) (hy : b ≤ y) : x ≤ R * y :=
  hx.2.trans (mul_le_mul_of_nonneg_left hy hR)

theorem lowerBound_box {b0 a b : Published.Rock} {R : ℕ} (h0 : 0 < b0.K ∧ 0 < b0.G ∧ 0 < b0.ρ) (ha : InBox b0 R a)
    (hb : InBox b0 R b) {r : ℝ} (hr0 : 0 ≤ r) (hr1 : r ≤ 1) : InBox b0 R (Published.lowerBound a b r) := by
  have pa : 0 < a.K ∧ 0 < a.G := ⟨h0.1.trans_le ha.1.1, h0.2.1.trans_le ha.2.1.1⟩
  have pb : 0 < b.K ∧ 0 < b.G := ⟨h0.1.trans_le hb.1.1, h0.2.1.trans_le hb.2.1.1⟩
  have mG : 0 < min a.G b.G := lt_min pa.2 pb.2
  have mK : 0 < min a.K b.K := lt_min pa.1 pb.1
  have w1 := hs_pos pa.1 pb.1 (by positivity : 0 ≤ 4 / 3 * min a.G b.G) hr0 hr1
  have w2 := hs_pos pa.2 pb.2 (by unfold Published.zeta; positivity : 0 ≤ Published.zeta (min a.K b.K) (min a.G b.G)) hr0 hr1
  refine ⟨⟨(le_min ha.1.1 hb.1.1).trans w1.1, w1.2.trans (max_le ha.1.2 hb.1.2)⟩,
    ⟨(le_min ha.2.1.1 hb.2.1.1).trans w2.1, w2.2.trans (max_le ha.2.1.2 hb.2.1.2)⟩, ?_, ?_⟩
  · show b0.ρ ≤ r * a.ρ + (1 - r) * b.ρ
    nlinarith [ha.2.2.1, hb.2.2.1]
  · show r * a.ρ + (1 - r) * b.ρ ≤ R * b0.ρ
    nlinarith [ha.2.2.2, hb.2.2.2]

/-- Density of a mixture in double arithmetic from inputs that already carry errors. -/
theorem density_step (hfl : RoundsToNearest fl) {x1 x2 x1' r r' : ℝ} {R j i : ℕ} (h1 : 0 < x1) (h2 : 0 < x2) (hR : 1 ≤ R)
    (h12 : x1 ≤ R * x2) (h21 : x2 ≤ R * x1) (n1 : Near j x1 x1') (hr0 : 0 ≤ r) (hr1 : r ≤ 1) (hr0' : 0 ≤ r')
    (hr1' : r' ≤ 1) (nr : Near (2 * i + 2) r r') (hsmall : j + (8 * (i + 1) + 1664) * R ^ 2 ≤ 2 ^ 50) :
    Near (j + (8 * (i + 1) + 1664) * R ^ 2) (r * x1 + (1 - r) * x2) (Double.walpoleDensity fl x1' x2 r') := by
  have hu := unit_pos
  have hR' : (1 : ℝ) ≤ R := by exact_mod_cast hR
  have hb : (8 * (i + 1) + 1664) * R ^ 2 ≤ 2 ^ 50 := le_trans (Nat.le_add_left _ _) hsmall
  have hunit : (2 : ℝ) ^ 50 * unit ≤ 1 := by unfold unit; norm_num
  have hRR : 1 ≤ R ^ 2 := Nat.one_le_pow _ _ hR
  have hib : 2 * i + 2 ≤ 2 ^ 50 := by
    have : (8 * (i + 1) + 1664) * 1 ≤ (8 * (i + 1) + 1664) * R ^ 2 := Nat.mul_le_mul_left _ hRR
    omega
  have hD0 : 0 ≤ r * x1 + (1 - r) * x2 := add_nonneg (mul_nonneg hr0 h1.le) (mul_nonneg (by linarith) h2.le)
  have s1 : Near (8 * (i + 1) * R ^ 2) (r * x1 + (1 - r) * x2) (r' * x1 + (1 - r') * x2) := by
    refine Near.of_relative (ε := |r' - r| * R ^ 2) hD0 ?_ ?_ ?_ (by positivity)
    · have e : r' * x1 + (1 - r') * x2 - (r * x1 + (1 - r) * x2) = (r' - r) * (x1 - x2) := by ring
      rw [e, abs_mul, mul_assoc]
      refine mul_le_mul_of_nonneg_left ?_ (abs_nonneg _)
      have hmin : min x1 x2 ≤ r * x1 + (1 - r) * x2 := by
        have b1 := mul_le_mul_of_nonneg_left (min_le_left x1 x2) hr0
        have b2 := mul_le_mul_of_nonneg_left (min_le_right x1 x2) (by linarith : 0 ≤ 1 - r)
        linarith
      have h3 : |x1 - x2| ≤ R * min x1 x2 := by
        rcases le_total x1 x2 with h | h
        · rw [min_eq_left h, abs_of_nonpos (by linarith)]; linarith
        · rw [min_eq_right h, abs_of_nonneg (by linarith)]; linarith
      refine h3.trans ?_
      have hmin0 : 0 ≤ min x1 x2 := (lt_min h1 h2).le
      calc (R : ℝ) * min x1 x2 ≤ (R : ℝ) ^ 2 * min x1 x2 := by
            refine mul_le_mul_of_nonneg_right ?_ hmin0
            nlinarith
        _ ≤ _ := mul_le_mul_of_nonneg_left hmin (by positivity)
    · refine le_trans (mul_le_mul_of_nonneg_right ?_ hu.le) hunit
      have : 8 * (i + 1) * R ^ 2 ≤ 2 ^ 50 := le_trans (Nat.mul_le_mul_right _ (by omega)) hb
      exact_mod_cast this
    · have h3 := nr.abs_le (by omega)
      have h4 : |r' - r| ≤ (2 * i + 2) * (2 * unit) := by
        refine h3.trans ?_
        push_cast
        calc (2 * i + 2 : ℝ) * (2 * unit) * r ≤ (2 * i + 2 : ℝ) * (2 * unit) * 1 := by gcongr
          _ = _ := by ring
      calc |r' - r| * (R : ℝ) ^ 2 ≤ (2 * i + 2) * (2 * unit) * (R : ℝ) ^ 2 := by gcongr
        _ = _ := by push_cast; ring
  have s2 : Near j (r' * x1 + (1 - r') * x2) (r' * x1' + (1 - r') * x2) := by
    have := ((Near.refl 0 hr0').mul n1).add ((Near.refl 0 (by linarith : 0 ≤ 1 - r')).mul (Near.refl 0 h2.le))
    exact this.mono (by simp)
  have s3 : Near 3 (r' * x1' + (1 - r') * x2) (Double.walpoleDensity fl x1' x2 r') := by
    unfold Double.walpoleDensity
    split_ifs with h
    · rw [h, show r' * x2 + (1 - r') * x2 = x2 by ring]
      exact Near.refl 3 h2.le
    · exact ((Near.fl0 hfl (mul_nonneg hr0' n1.nonneg)).add
        (((Near.fl0 hfl (sub_nonneg.mpr hr1')).mul (Near.refl 0 h2.le)).fl hfl)).fl hfl
  refine ((s1.trans s2).trans s3).mono ?_
  have : (8 * (i + 1) + 1664) * R ^ 2 = 8 * (i + 1) * R ^ 2 + 1664 * R ^ 2 := by ring
  omega

theorem mixLoop_near (hfl : RoundsToNearest fl) (hp : PowerAccurate pw) {b0 : Published.Rock} {R : ℕ}
    (h0 : 0 < b0.K ∧ 0 < b0.G ∧ 0 < b0.ρ) (hR : 1 ≤ R) (hR2 : R ≤ 2 ^ 30) :
    ∀ (L : List (Published.Rock × ℝ)) (_ : ∀ x ∈ L, InBox b0 R x.1 ∧ 0 ≤ x.2) (a : Published.Rock) (a' : ℝ × ℝ × ℝ)
      (t t' : ℝ) (j i : ℕ), InBox b0 R a → NearRock j a a' → Near i t t' → IsDouble t' →
      j + L.length * (8 * (i + L.length) + 1664) * R ^ 2 ≤ 2 ^ 50 →
      NearRock (j + L.length * (8 * (i + L.length) + 1664) * R ^ 2) (Published.addMinerals a t L)
        (Double.mixLoop fl pw a' t' (L.map fun x => (tri x.1, x.2))) := by
  intro L
  induction L with
  | nil =>
    intro _ a a' t t' j i _ ha _ _ _
    simpa [Published.addMinerals, Double.mixLoop] using ha
  | cons x L ih =>
    intro hL a a' t t' j i hbox ha nt hd hsmall
    obtain ⟨b, f⟩ := x
    have hb := (hL (b, f) List.mem_cons_self).1
    have hf0 : 0 ≤ f := (hL (b, f) List.mem_cons_self).2
    have ht0 := nt.1
    have hR' : (0 : ℝ) ≤ R := Nat.cast_nonneg R
    set m := L.length with hm
    have hlen : ((b, f) :: L).length = m + 1 := rfl
    have hle : (8 * (i + 1) + 1664) * R ^ 2 + m * (8 * ((i + 1) + m) + 1664) * R ^ 2 ≤
        (m + 1) * (8 * (i + (m + 1)) + 1664) * R ^ 2 := by
      rw [← Nat.add_mul]
      refine Nat.mul_le_mul_right _ ?_
      nlinarith [Nat.zero_le m, Nat.zero_le i]
    rw [hlen] at hsmall ⊢
    have hsmall' : j + (8 * (i + 1) + 1664) * R ^ 2 ≤ 2 ^ 50 := by
      have := Nat.zero_le (m * (8 * ((i + 1) + m) + 1664) * R ^ 2)
      omega
    -- the running total
    have nT : Near (i + 1) (t + f) (fl (t' + f)) := by
      have := (nt.add (Near.refl 0 hf0)).fl hfl
      rwa [Nat.max_zero] at this
    set T' := fl (t' + f) with hT'
    have ht' : t' ≤ T' := hfl.ge_double hd (by linarith)
    have ht0' := nt.nonneg
    set r := if t + f = 0 then (1 : ℝ) else t / (t + f) with hr
    set r' := if T' = 0 then (1 : ℝ) else fl (t' / T') with hr'
    have hbr : 0 ≤ r ∧ r ≤ 1 := by
      rw [hr]; split_ifs with h
      · exact ⟨zero_le_one, le_rfl⟩
      · have : 0 < t + f := lt_of_le_of_ne (add_nonneg ht0 hf0) (Ne.symm h)
        exact ⟨by positivity, (div_le_one this).mpr (by linarith)⟩
    have nr : Near (2 * i + 2) r r' := by
      rw [hr, hr']
      by_cases h : t + f = 0
      · rw [h] at nT
        rw [if_pos h, if_pos nT.of_zero]
        exact Near.refl _ zero_le_one
      · have hp0 : 0 < t + f := lt_of_le_of_ne (add_nonneg ht0 hf0) (Ne.symm h)
        rw [if_neg h, if_neg (nT.pos hp0).ne']
        exact ((nt.div nT hp0).fl hfl).mono (by omega)
    have hbr' : 0 ≤ r' ∧ r' ≤ 1 := by
      refine ⟨nr.nonneg, ?_⟩
      rw [hr']; split_ifs with h
      · exact le_rfl
      · have hT0 : 0 < T' := lt_of_le_of_ne nT.nonneg (Ne.symm h)
        exact hfl.le_double ⟨1, 0, by norm_num, by simp⟩ ((div_le_one hT0).mpr ht')
    have pa : 0 < a.K ∧ 0 < a.G ∧ 0 < a.ρ :=
      ⟨h0.1.trans_le hbox.1.1, h0.2.1.trans_le hbox.2.1.1, h0.2.2.trans_le hbox.2.2.1⟩
    have pb : 0 < b.K ∧ 0 < b.G ∧ 0 < b.ρ :=
      ⟨h0.1.trans_le hb.1.1, h0.2.1.trans_le hb.2.1.1, h0.2.2.trans_le hb.2.2.1⟩
    obtain ⟨nK, nG, nρ⟩ := ha
    have nmG : Near j (min a.G b.G) (min a'.2.1 b.G) := nG.min (Near.refl j pb.2.1.le)
    have nmK : Near j (min a.K b.K) (min a'.1 b.K) := nK.min (Near.refl j pb.1.le)
    have pmG : 0 < min a.G b.G := lt_min pa.2.1 pb.2.1
    have pmK : 0 < min a.K b.K := lt_min pa.1 pb.1
    have pmG' := nmG.pos pmG
    have pmK' := nmK.pos pmK
    have nz1 : Near j (4 / 3 * min a.G b.G) (4 / 3 * min a'.2.1 b.G) :=
      ((Near.refl 0 (by norm_num : (0:ℝ) ≤ 4 / 3)).mul nmG).mono (by omega)
    have nz1' : Near 2 (4 / 3 * min a'.2.1 b.G) (fl (fl (4 / 3) * min a'.2.1 b.G)) :=
      ((Near.fl0 hfl (by norm_num : (0:ℝ) ≤ 4 / 3)).mul (Near.refl 0 pmG'.le)).fl hfl
    have nz2 := zeta_near pmK pmG nmK nmG
    have nz2' : Near 7 (Published.zeta (min a'.1 b.K) (min a'.2.1 b.G)) (fl (fl (fl (min a'.2.1 b.G / 6) *
        fl (fl (9 * min a'.1 b.K) + fl (8 * min a'.2.1 b.G))) / fl (min a'.1 b.K + fl (2 * min a'.2.1 b.G)))) := by
      have z1 : Near 1 (min a'.2.1 b.G / 6) (fl (min a'.2.1 b.G / 6)) := Near.fl0 hfl (by positivity)
      have z2 : Near 2 (9 * min a'.1 b.K + 8 * min a'.2.1 b.G) (fl (fl (9 * min a'.1 b.K) + fl (8 * min a'.2.1 b.G))) :=
        ((Near.fl0 hfl (by positivity)).add (Near.fl0 hfl (by positivity))).fl hfl
      have z3 : Near 2 (min a'.1 b.K + 2 * min a'.2.1 b.G) (fl (min a'.1 b.K + fl (2 * min a'.2.1 b.G))) :=
        ((Near.refl 0 pmK'.le).add (Near.fl0 hfl (by positivity))).fl hfl
      have := (((z1.mul z2).fl hfl).div z3 (by positivity)).fl hfl
      unfold Published.zeta
      rwa [← mul_div_assoc]
    have sK := walpole_step hfl hp pa.1 pb.1 hR (box_ratio hR' hbox.1 hb.1.1) (box_ratio hR' hb.1 hbox.1.1) nK nz1 nz1'
      (by norm_num) hbr.1 hbr.2 hbr'.1 hbr'.2 nr hR2 hsmall'
    have sG := walpole_step hfl hp pa.2.1 pb.2.1 hR (box_ratio hR' hbox.2.1 hb.2.1.1) (box_ratio hR' hb.2.1 hbox.2.1.1) nG nz2
      nz2' (by norm_num) hbr.1 hbr.2 hbr'.1 hbr'.2 nr hR2 hsmall'
    have sR := density_step hfl pa.2.2 pb.2.2 hR (box_ratio hR' hbox.2.2 hb.2.2.1) (box_ratio hR' hb.2.2 hbox.2.2.1) nρ
      hbr.1 hbr.2 hbr'.1 hbr'.2 nr hsmall'
    have hnext := ih (fun y hy => hL y (List.mem_cons_of_mem _ hy)) (Published.lowerBound a b r)
      (Double.walpoleBulk fl pw a'.1 b.K (min a'.2.1 b.G) r',
        Double.walpoleShear fl pw a'.2.1 b.G (min a'.1 b.K) (min a'.2.1 b.G) r', Double.walpoleDensity fl a'.2.2 b.ρ r')
      (t + f) T' (j + (8 * (i + 1) + 1664) * R ^ 2) (i + 1) (lowerBound_box h0 hbox hb hbr.1 hbr.2) ⟨sK, sG, sR⟩ nT (hfl _).1
      (by omega)
    have mono : ∀ {k l : ℕ} {p : Published.Rock} {y : ℝ × ℝ × ℝ}, NearRock k p y → k ≤ l → NearRock l p y :=
      fun h hkl => ⟨h.1.mono hkl, h.2.1.mono hkl, h.2.2.mono hkl⟩
    refine mono hnext ?_
    omega

theorem exists_least {α : Type*} (g : α → ℝ) (a : α) (L : List α) : ∃ x ∈ a :: L, ∀ y ∈ a :: L, g x ≤ g y := by
  obtain ⟨x, hx, h⟩ := Finset.exists_min_image (a :: L).toFinset g ⟨a, by simp⟩
  exact ⟨x, List.mem_toFinset.mp hx, fun y hy => h y (List.mem_toFinset.mpr hy)⟩

theorem minerals_near (hfl : RoundsToNearest fl) (hp : PowerAccurate pw) {R m : ℕ} (a : Published.Rock) (t : ℝ)
    (L : List (Published.Rock × ℝ)) (hm : L.length = m) (ht : 0 ≤ t) (hd : IsDouble t) (hf : ∀ x ∈ L, 0 ≤ x.2)
    (hpos : ∀ x ∈ a :: L.map (fun x => x.1), 0 < x.K ∧ 0 < x.G ∧ 0 < x.ρ)
    (hratio : WithinRatio R (a :: L.map fun x => x.1)) (hR2 : R ≤ 1000) (hm2 : m ≤ 100) :
    NearRock (1672 * m ^ 2 * R ^ 2) (Published.addMinerals a t L)
        (Double.mixLoop fl pw (tri a) t (L.map fun x => (tri x.1, x.2))) ∧
      (0 < (Published.addMinerals a t L).K ∧ 0 < (Published.addMinerals a t L).G ∧ 0 < (Published.addMinerals a t L).ρ) ∧
      1672 * m ^ 2 * R ^ 2 ≤ 2 ^ 44 := by
  obtain ⟨xk, hxk, hk⟩ := exists_least (fun x : Published.Rock => x.K) a (L.map fun x => x.1)
  obtain ⟨xg, hxg, hg⟩ := exists_least (fun x : Published.Rock => x.G) a (L.map fun x => x.1)
  obtain ⟨xr, hxr, hr⟩ := exists_least (fun x : Published.Rock => x.ρ) a (L.map fun x => x.1)
  set b0 : Published.Rock := ⟨xk.K, xg.G, xr.ρ⟩ with hb0
  have h0 : 0 < b0.K ∧ 0 < b0.G ∧ 0 < b0.ρ := ⟨(hpos xk hxk).1, (hpos xg hxg).2.1, (hpos xr hxr).2.2⟩
  have hbox : ∀ x ∈ a :: L.map (fun x => x.1), InBox b0 R x := fun x hx =>
    ⟨⟨hk x hx, (hratio x hx xk hxk).1⟩, ⟨hg x hx, (hratio x hx xg hxg).2.1⟩, hr x hx, (hratio x hx xr hxr).2.2⟩
  have hR : 1 ≤ R := by
    have h1 := (hratio a List.mem_cons_self a List.mem_cons_self).1
    have h2 := (hpos a List.mem_cons_self).1
    by_contra hc
    have : R = 0 := by omega
    rw [this] at h1
    simp at h1
    linarith
  have hb1 : m * (8 * (0 + m) + 1664) * R ^ 2 ≤ 1672 * m ^ 2 * R ^ 2 := by
    refine Nat.mul_le_mul_right _ ?_
    rcases Nat.eq_zero_or_pos m with h | h
    · subst h; simp
    · nlinarith
  have hb2 : 1672 * m ^ 2 * R ^ 2 ≤ 1672 * 100 ^ 2 * 1000 ^ 2 := by gcongr
  have hb3 : 1672 * m ^ 2 * R ^ 2 ≤ 2 ^ 44 := hb2.trans (by norm_num)
  have hL : ∀ x ∈ L, InBox b0 R x.1 ∧ 0 ≤ x.2 := fun x hx =>
    ⟨hbox x.1 (List.mem_cons_of_mem _ (List.mem_map_of_mem hx)), hf x hx⟩
  have ha := hbox a List.mem_cons_self
  have hpa := hpos a List.mem_cons_self
  have hn := mixLoop_near hfl hp h0 hR (by omega) L hL a (tri a) t t 0 0 ha
    ⟨Near.refl 0 hpa.1.le, Near.refl 0 hpa.2.1.le, Near.refl 0 hpa.2.2.le⟩ (Near.refl 0 ht) hd (by rw [hm]; omega)
  rw [hm] at hn
  refine ⟨⟨hn.1.mono (by omega), hn.2.1.mono (by omega), hn.2.2.mono (by omega)⟩, ?_, hb3⟩
  -- the mixture stays in the box
  have key : ∀ (L : List (Published.Rock × ℝ)) (_ : ∀ x ∈ L, InBox b0 R x.1 ∧ 0 ≤ x.2) (a : Published.Rock) (t : ℝ),
      InBox b0 R a → 0 ≤ t → InBox b0 R (Published.addMinerals a t L) := by
    intro L
    induction L with
    | nil => intro _ a t h _; exact h
    | cons x L ih =>
      intro hL a t h ht
      obtain ⟨b, f⟩ := x
      have hx := hL (b, f) List.mem_cons_self
      refine ih (fun y hy => hL y (List.mem_cons_of_mem _ hy)) _ (t + f) (lowerBound_box h0 h hx.1 ?_ ?_) (add_nonneg ht hx.2)
      · split_ifs
        · exact zero_le_one
        · exact div_nonneg ht (add_nonneg ht hx.2)
      · split_ifs with hz
        · exact le_rfl
        · have : 0 < t + f := lt_of_le_of_ne (add_nonneg ht hx.2) (Ne.symm hz)
          have h2 : 0 ≤ f := hx.2
          exact (div_le_one this).mpr (by linarith)
  have hk := key L hL a t ha ht
  exact ⟨h0.1.trans_le hk.1.1, h0.2.1.trans_le hk.2.1.1, h0.2.2.trans_le hk.2.2.1⟩

/-- **C172.** In double arithmetic the average of `m + 1` minerals (one, and `m` more) is accurate to `1672 m² R²` units of
`2⁻⁵²` in bulk modulus, shear modulus and density, if none of these is more than `R` times that of another of the minerals.
Fractions are not negative and may be anything else. -/
theorem C172_minerals (hfl : RoundsToNearest fl) (hp : PowerAccurate pw) {R m : ℕ} (a : Published.Rock) (t : ℝ)
    (L : List (Published.Rock × ℝ)) (hm : L.length = m) (ht : 0 ≤ t) (hd : IsDouble t) (hf : ∀ x ∈ L, 0 ≤ x.2)
    (hpos : ∀ x ∈ a :: L.map (fun x => x.1), 0 < x.K ∧ 0 < x.G ∧ 0 < x.ρ)
    (hratio : WithinRatio R (a :: L.map fun x => x.1)) (hR2 : R ≤ 1000) (hm2 : m ≤ 100) :
    Accurate (1672 * m ^ 2 * R ^ 2) (Published.addMinerals a t L).K
        (Double.mixLoop fl pw (tri a) t (L.map fun x => (tri x.1, x.2))).1 ∧
      Accurate (1672 * m ^ 2 * R ^ 2) (Published.addMinerals a t L).G
        (Double.mixLoop fl pw (tri a) t (L.map fun x => (tri x.1, x.2))).2.1 ∧
      Accurate (1672 * m ^ 2 * R ^ 2) (Published.addMinerals a t L).ρ
        (Double.mixLoop fl pw (tri a) t (L.map fun x => (tri x.1, x.2))).2.2 := by
  obtain ⟨⟨h1, h2, h3⟩, -, hb⟩ := minerals_near hfl hp a t L hm ht hd hf hpos hratio hR2 hm2
  have hb' : 1672 * m ^ 2 * R ^ 2 ≤ 2 ^ 52 := hb.trans (by norm_num)
  exact ⟨by exact_mod_cast h1.accurate hb', by exact_mod_cast h2.accurate hb', by exact_mod_cast h3.accurate hb'⟩

/-- **C171.** A whole row in double arithmetic: `m + 1` minerals averaged, `n` fluids mixed by Wood's law, a dry rock with given
moduli saturated by Gassmann's equation.  Nothing is refused, and bulk modulus, shear modulus, density and both velocities
are accurate to `J + 2 n + 12`, 0, `2 n + 4`, `J + 4 n + 21` and `2 n + 8` units of `2⁻⁵²`, where `J = 1672 m² R²` (0 for a
single mineral) and `R` bounds the contrasts between the minerals.  Dry rock and fluid have to be softer than the mineral, by
at least one percent. -/
theorem C171_row (hfl : RoundsToNearest fl) (hp : PowerAccurate pw) {R m n : ℕ}
    -- minerals
    (a : Published.Rock) (t : ℝ) (M : List (Published.Rock × ℝ)) (hm : M.length = m) (ht : 0 ≤ t) (hd : IsDouble t)
    (hf : ∀ x ∈ M, 0 ≤ x.2) (hpos : ∀ x ∈ a :: M.map (fun x => x.1), 0 < x.K ∧ 0 < x.G ∧ 0 < x.ρ)
    (hratio : WithinRatio R (a :: M.map fun x => x.1)) (hR2 : R ≤ 1000) (hm2 : m ≤ 100)
    -- fluids
    (L : List (Published.Fluid × ℝ)) (hn : L.length = n) (hs : ∀ x ∈ L, 0 ≤ x.2) (hS : 2e-15 ≤ (L.map fun x => x.2).sum)
    (hfp : ∀ x ∈ L, 0 < x.1.K ∧ 0 < x.1.ρ) (hn2 : n ≤ 1000000)
    -- dry rock
    (dry : Published.Rock) (hdry : 0 < dry.K ∧ 0 < dry.G ∧ 0 < dry.ρ) {φ : ℝ} (hφ : 0 < φ) (hφ1 : φ ≤ 1)
    (hKd : dry.K ≤ 0.99 * (Published.addMinerals a t M).K)
    (hKf : (Published.wood L).K ≤ 0.99 * (Published.addMinerals a t M).K) :
    let K := Published.gassmann dry.K (Published.addMinerals a t M).K (Published.wood L).K φ
    let ρ := dry.ρ + φ * (Published.wood L).ρ
    ∃ k ρ' vp vs, Double.saturate fl pw (tri dry) (Double.mixLoop fl pw (tri a) t (M.map fun x => (tri x.1, x.2))).1
        (Double.wood fl (rowsOf L)) φ = some (k, dry.G, ρ', vp, vs) ∧
      Accurate (1672 * m ^ 2 * R ^ 2 + 2 * n + 12) K k ∧ Accurate (2 * n + 4) ρ ρ' ∧
      Accurate (1672 * m ^ 2 * R ^ 2 + 4 * n + 21) (Real.sqrt ((K + 4 / 3 * dry.G) / ρ)) vp ∧
      Accurate (2 * n + 8) (Real.sqrt (dry.G / ρ)) vs := by
  intro K ρ
  obtain ⟨⟨nKm, -, -⟩, ⟨hKm, -, -⟩, hJ⟩ := minerals_near hfl hp a t M hm ht hd hf hpos hratio hR2 hm2
  obtain ⟨pK, pρ, nK, nρ⟩ := wood_near hfl L hs hS (fun x hx => (hfp x hx).1) (fun x hx => (hfp x hx).2) (by omega)
  set J := 1672 * m ^ 2 * R ^ 2 with hJd
  set Km := (Published.addMinerals a t M).K with hKmd
  set Km' := (Double.mixLoop fl pw (tri a) t (M.map fun x => (tri x.1, x.2))).1 with hKmd'
  set Kf := (Published.wood L).K with hKfd
  set Kf' := (Double.wood fl (rowsOf L)).1 with hKfd'
  rw [hn] at nK nρ
  set j := J + 2 * n + 3 with hj
  have nKm' : Near j Km Km' := nKm.mono (by omega)
  have nKf' : Near j Kf Kf' := nK.mono (by omega)
  have nKd : Near j dry.K dry.K := Near.refl j hdry.1.le
  have hsmall : (0.996 : ℝ) ≤ (1 - unit) ^ j := by
    refine le_trans ?_ (Near.sub_one_pow j)
    have hjb : j ≤ 2 ^ 45 := by omega
    have : (j : ℝ) * unit ≤ 2 ^ 45 * unit := mul_le_mul_of_nonneg_right (by exact_mod_cast hjb) unit_pos.le
    have e : (2 : ℝ) ^ 45 * unit = 1 / 256 := by unfold unit; norm_num
    rw [e] at this
    norm_num
    linarith
  have hKm1 : 0.996 * Km ≤ Km' := (mul_le_mul_of_nonneg_right hsmall hKm.le).trans nKm'.2.1
  have hKf1 : 0.996 * Kf' ≤ Kf := (mul_le_mul_of_nonneg_right hsmall nKf'.nonneg).trans nKf'.2.2
  have hd1 : dry.K < Km' := by norm_num at *; linarith
  have hf1 : Kf' < Km' := by norm_num at *; linarith
  have hd2 : dry.K < Km := by norm_num at *; linarith
  have hf2 : Kf < Km := by norm_num at *; linarith
  obtain ⟨k, hk, nk⟩ := gassmann_near hfl hφ.le hdry.1.le hd1.le (nKf'.pos pK) hf1
  have hKe : K = satReal dry.K Km Kf φ := by
    rw [← satReal_eq hφ hdry.1.le hd2 pK hf2, gFactor_published hφ hdry.1.le hd2 pK hf2]
  have nk' : Near (J + 2 * n + 12) K k := by
    rw [hKe]
    exact ((satReal_near hφ hφ1 hdry.1 hd2 pK hf2 hd1 hf1 nKd nKm' nKf').trans nk).mono (by omega)
  have hK0 : 0 < K := by rw [hKe]; exact satReal_pos hφ hdry.1 hd2 pK hf2
  have nρ' : Near (2 * n + 4) ρ (Double.saturatedDensity fl dry.ρ (Double.wood fl (rowsOf L)).2 φ) := by
    have := (((Near.refl 0 hdry.2.2.le).add (((Near.refl 0 hφ.le).mul nρ).fl hfl)).fl hfl)
    exact this.mono (by simp)
  have hρ0 : 0 < ρ := add_pos hdry.2.2 (mul_pos hφ pρ)
  set ρ' := Double.saturatedDensity fl dry.ρ (Double.wood fl (rowsOf L)).2 φ with hρ'
  have hJ' : J ≤ 2 ^ 44 := hJ
  have root : ∀ {k : ℕ} {x y : ℝ}, Near k x y → 0 < x → Near (k + 3) (Real.sqrt x) (pw y 0.5) := by
    intro k x y h hx
    rw [Real.sqrt_eq_rpow]
    have h1 := h.rpow hx (p := 1 / 2) (by norm_num) (by norm_num)
    have h2 := Near.of_accurate (Real.rpow_nonneg (h.pos hx).le _) (hp y 0.5 (h.pos hx))
    rw [show (0.5 : ℝ) = 1 / 2 by norm_num] at h2 ⊢
    exact h1.trans h2
  have hG0 := hdry.2.1
  have n1 : Near (J + 4 * n + 18) ((K + 4 / 3 * dry.G) / ρ) (fl (fl (k + fl (fl (4 / 3) * dry.G)) / ρ')) := by
    have := ((((nk'.add (((Near.fl0 hfl (by norm_num : (0:ℝ) ≤ 4 / 3)).mul (Near.refl 0 hG0.le)).fl hfl)).fl hfl).div nρ'
      hρ0).fl hfl)
    refine this.mono ?_
    rw [max_eq_left (by omega)]
    omega
  have n2 : Near (2 * n + 5) (dry.G / ρ) (fl (dry.G / ρ')) :=
    (((Near.refl 0 hG0.le).div nρ' hρ0).fl hfl).mono (by omega)
  have v1 := root n1 (by positivity)
  have v2 := root n2 (by positivity)
  refine ⟨k, ρ', Double.primaryVelocity fl pw k dry.G ρ', Double.secondaryVelocity fl pw dry.G ρ', ?_, ?_, ?_, ?_, ?_⟩
  · unfold Double.saturate
    dsimp only [tri]
    rw [hk]
    rfl
  · have := nk'.accurate (by omega)
    rw [hJd] at this
    exact_mod_cast this
  · have := nρ'.accurate (by omega)
    exact_mod_cast this
  · have := v1.accurate (by omega)
    rw [hJd] at this
    exact_mod_cast this
  · have := v2.accurate (by omega)
    exact_mod_cast this

end OPE
