import Verif.Props.Rock
import Verif.Props.Minerals
import Mathlib.Topology.Order.Basic
import Mathlib.Topology.Algebra.Order.Field
import Mathlib.Topology.ContinuousOn

/-!
# C127 (no jump in fluid substitution), C128 (mineral mixtures between Reuss and Voigt), C129 (stiffer constituents
never give a softer mixture)
-/

namespace OPE

open Classical Spec

variable {n : ℕ}

/-! ### C127 -/

/-- The classical saturated modulus as the mineral's modulus minus a defect; `δ = Km - Kd`. -/
noncomputable def satReal (Kd Km Kf φ : ℝ) : ℝ :=
  Km - Km * ((Km - Kf) * (φ * (Km - Kd)) / (Km * (Km - Kf) * φ + Kf * (Km - Kd)))

theorem satReal_eq {Kd Km Kf φ : ℝ} (hφ : 0 < φ) (hd0 : 0 ≤ Kd) (hd : Kd < Km) (hf : 0 < Kf) (hf1 : Kf < Km) :
    gFactor Kd Km Kf φ / (1 + gFactor Kd Km Kf φ) * Km = satReal Kd Km Kf φ := by
  have h1 : 0 < Km - Kd := by linarith
  have h2 : 0 < Km - Kf := by linarith
  have hm : 0 < Km := by linarith
  have hg : gFactor Kd Km Kf φ = (Kd * ((Km - Kf) * φ) + Kf * (Km - Kd)) / ((Km - Kd) * ((Km - Kf) * φ)) := by
    unfold gFactor; field_simp
  have hg1 : 1 + gFactor Kd Km Kf φ = (Km * (Km - Kf) * φ + Kf * (Km - Kd)) / ((Km - Kd) * ((Km - Kf) * φ)) := by
    rw [hg]; field_simp; ring
  have hN : 0 < Km * (Km - Kf) * φ + Kf * (Km - Kd) := by positivity
  rw [hg1, hg, div_div_div_cancel_right₀ (by positivity)]
  unfold satReal
  rw [eq_comm, ← sub_eq_zero]
  field_simp
  ring

theorem gassmann_satReal {Kd Km Kf φ : ℝ} (hφ : 0 ≤ φ) (hd0 : 0 ≤ Kd) (hd : Kd ≤ Km) (hf : 0 < Kf) (hf1 : Kf < Km) :
    gassmann (.fin Kd) (.fin Km) (.fin Kf) (.fin φ) = .ok (.fin (satReal Kd Km Kf φ)) := by
  rcases hφ.eq_or_lt with h | h
  · subst h
    unfold gassmann
    rw [if_pos (by simp)]
    simp [satReal]
  · rcases hd.eq_or_lt with h' | h'
    · subst h'
      unfold gassmann
      rw [if_neg (by simp [h.ne']), if_pos (by simp)]
      simp [satReal]
    · rw [gassmann_fin h.ne' h'.ne hf1.ne (gFactor_nonneg h hd0 h' hf.le hf1), satReal_eq h hd0 h' hf hf1]

/-- `x y / (α x + β y)` has no jump at the origin of the quadrant. -/
theorem quot_continuous {α β : ℝ} (ha : 0 < α) (hb : 0 < β) :
    ContinuousOn (fun p : ℝ × ℝ => p.1 * p.2 / (α * p.1 + β * p.2)) {p | 0 ≤ p.1 ∧ 0 ≤ p.2} := by
  intro p hp
  by_cases h0 : α * p.1 + β * p.2 = 0
  · have h1 : p.1 = 0 := by
      have := mul_nonneg ha.le hp.1; have := mul_nonneg hb.le hp.2
      have : α * p.1 = 0 := by linarith
      simpa [ha.ne'] using this
    unfold ContinuousWithinAt
    dsimp only
    rw [h1, zero_mul, zero_div]
    refine squeeze_zero' (g := fun p => p.1 / β) ?_ ?_ ?_
    · filter_upwards [self_mem_nhdsWithin] with q hq
      have := hq.1; have := hq.2; positivity
    · filter_upwards [self_mem_nhdsWithin] with q hq
      have a := hq.1; have b := hq.2
      have c1 := mul_nonneg ha.le a
      rcases (show 0 ≤ α * q.1 + β * q.2 by positivity).eq_or_lt with h | h
      · rw [← h, div_zero]; positivity
      · rw [div_le_div_iff₀ h hb]
        nlinarith [mul_nonneg a c1]
    · have : Filter.Tendsto (fun p : ℝ × ℝ => p.1 / β) (nhds p) (nhds (p.1 / β)) :=
        (continuous_fst.div_const β).tendsto p
      rw [h1, zero_div] at this
      exact this.mono_left nhdsWithin_le_nhds
  · refine ContinuousAt.continuousWithinAt ?_
    exact ContinuousAt.div (by fun_prop) (by fun_prop) h0

/-- **C127.** Fluid substitution treats zero porosity and a dry rock as stiff as its mineral as special cases, but there
is no jump: for given mineral and fluid moduli the saturated bulk modulus of a row is one continuous function of porosity
and dry modulus together, on the whole range `0 ≤ φ`, `0 ≤ Kdry ≤ Kmin`, special cases included. -/
theorem C127_no_jump {Km Kf : ℝ} (hf : 0 < Kf) (hf1 : Kf < Km) :
    ∃ K : ℝ × ℝ → ℝ, ContinuousOn K {p | 0 ≤ p.1 ∧ 0 ≤ p.2 ∧ p.2 ≤ Km} ∧
      (∀ φ, K (φ, Km) = Km) ∧ (∀ Kd, K (0, Kd) = Km) ∧
      ∀ (n : ℕ) (dry mineral fluid m : Mat n) (φ : Col n), fluidSubstitution dry mineral fluid φ = .ok m →
        ∀ i x kd, mineral.bulk i = .fin Km → fluid.bulk i = .fin Kf → φ i = .fin x → dry.bulk i = .fin kd →
          0 ≤ x → 0 ≤ kd → kd ≤ Km → m.bulk i = .fin (K (x, kd)) := by
  have hm : 0 < Km := by linarith
  have h2 : 0 < Km - Kf := by linarith
  refine ⟨fun p => satReal p.2 Km Kf p.1, ?_, fun φ => by simp [satReal], fun Kd => by simp [satReal], ?_⟩
  · unfold satReal
    refine continuousOn_const.sub (continuousOn_const.mul ?_)
    have hq := (quot_continuous (α := Km * (Km - Kf)) (β := Kf) (by positivity) hf).comp
      (f := fun p : ℝ × ℝ => (p.1, Km - p.2)) (s := {p | 0 ≤ p.1 ∧ 0 ≤ p.2 ∧ p.2 ≤ Km}) (by fun_prop)
      (fun p hp => ⟨hp.1, sub_nonneg.mpr hp.2.2⟩)
    refine (continuousOn_const (c := Km - Kf)).mul hq |>.congr ?_
    intro p _
    simp only [Function.comp_apply, Pi.mul_apply]
    rw [mul_div_assoc]
  · intro n dry mineral fluid m φ h i x kd e1 e2 e3 e4 hx hk hk1
    unfold fluidSubstitution at h
    obtain ⟨k, hk', h⟩ := bind_eq_ok.mp h
    have := vec_ok_iff.mp hk' i
    rw [e1, e2, e3, e4, gassmann_satReal hx hk hk1 hf hf1] at this
    injection this with this
    obtain ⟨h1, -⟩ := C03_given_arguments_kept _ _ _ _ _ m h
    rw [h1 _ rfl, ← this]

example := C127_no_jump (Km := 36) (Kf := 2.8) (by norm_num) (by norm_num)

/-- Why C127 asks for a fluid with stiffness: with an empty fluid the value jumps from the dry rock's (any positive
porosity) to the mineral's (porosity zero). -/
theorem C127_empty_fluid_jumps {Kd Km : ℝ} (hd0 : 0 ≤ Kd) (hd : Kd < Km) {φ : ℝ} (hφ : 0 < φ) :
    gassmann (.fin Kd) (.fin Km) (.fin 0) (.fin φ) = .ok (.fin Kd) ∧
    gassmann (.fin Kd) (.fin Km) (.fin 0) (.fin 0) = .ok (.fin Km) := by
  have hm : 0 < Km := by linarith
  have h1 : 0 < Km - Kd := by linarith
  constructor
  · rw [gassmann_fin hφ.ne' hd.ne hm.ne (gFactor_nonneg hφ hd0 hd (le_refl _) hm)]
    have : gFactor Kd Km 0 φ = Kd / (Km - Kd) := by simp [gFactor]
    rw [this, show 1 + Kd / (Km - Kd) = Km / (Km - Kd) by field_simp; ring]
    congr 2
    field_simp
  · unfold gassmann; rw [if_pos (by simp)]

/-! ### C128 -/

theorem mixStep_voigt {s x : RowMin} (hs : s.Ok) (hx : x.Ok) :
    ((mixStep s x).f * (mixStep s x).K ≤ s.f * s.K + x.f * x.K ∧
      (mixStep s x).f * (mixStep s x).G ≤ s.f * s.G + x.f * x.G) ∧
    ((mixStep s x).f / (mixStep s x).K ≤ s.f / s.K + x.f / x.K ∧
      (mixStep s x).f / (mixStep s x).G ≤ s.f / s.G + x.f / x.G) := by
  have ho := mixStep_ok hs hx
  obtain ⟨h1, h2, h3, h4⟩ := hs
  obtain ⟨k1, k2, k3, k4⟩ := hx
  obtain ⟨r0, r1⟩ := ratio_range h4 k4
  have z1 : 0 < 4/3 * min s.G x.G := mul_pos (by norm_num) (lt_min h2 k2)
  have z2 : 0 ≤ zShear (min s.K x.K) (min s.G x.G) :=
    zShear_nonneg (lt_min h1 k1).le (lt_min h2 k2).le
  have key : ∀ {a b z : ℝ}, 0 < a → 0 < b → 0 ≤ z →
      (s.f + x.f) * hsReal a b z (if s.f + x.f = 0 then 1 else s.f / (s.f + x.f)) ≤ s.f * a + x.f * b ∧
      (0 < hsReal a b z (if s.f + x.f = 0 then 1 else s.f / (s.f + x.f)) →
      (s.f + x.f) / hsReal a b z (if s.f + x.f = 0 then 1 else s.f / (s.f + x.f)) ≤ s.f / a + x.f / b) := by
    intro a b z ha hb hz
    by_cases h : s.f + x.f = 0
    · have e1 : s.f = 0 := by linarith
      have e2 : x.f = 0 := by linarith
      simp [e1, e2]
    · have ht : 0 < s.f + x.f := lt_of_le_of_ne (by linarith) (Ne.symm h)
      rw [if_neg h] at r0 r1 ⊢
      have v := hsReal_le_voigt (a := a) (b := b) (z := z) (by linarith) (by linarith) r0 r1
      have w := reuss_le_hsReal ha hb hz r0 r1
      constructor
      · calc (s.f + x.f) * hsReal a b z (s.f / (s.f + x.f))
            ≤ (s.f + x.f) * (s.f / (s.f + x.f) * a + (1 - s.f / (s.f + x.f)) * b) :=
              mul_le_mul_of_nonneg_left v ht.le
          _ = s.f * a + x.f * b := by field_simp; ring
      · intro hp
        have hD : 0 < (1 - s.f / (s.f + x.f)) * a + s.f / (s.f + x.f) * b := by
          have := hsReal_D (z := 0) (by simpa using ha) (by simpa using hb) r0 r1
          simpa using this
        calc (s.f + x.f) / hsReal a b z (s.f / (s.f + x.f))
            ≤ (s.f + x.f) / (a * b / ((1 - s.f / (s.f + x.f)) * a + s.f / (s.f + x.f) * b)) :=
              div_le_div_of_nonneg_left ht.le (by positivity) w
          _ = s.f / a + x.f / b := by rw [div_div_eq_mul_div]; field_simp; ring
  have kK := key h1 k1 z1.le
  have kG := key h2 k2 z2
  exact ⟨⟨kK.1, kG.1⟩, kK.2 ho.1, kG.2 ho.2.1⟩

theorem mixRows_voigt {s : RowMin} {l : List RowMin} (hs : s.Ok) (hl : ∀ x ∈ l, x.Ok) :
    ((mixRows s l).f * (mixRows s l).K ≤ s.f * s.K + (l.map fun x => x.f * x.K).sum ∧
      (mixRows s l).f * (mixRows s l).G ≤ s.f * s.G + (l.map fun x => x.f * x.G).sum) ∧
    ((mixRows s l).f / (mixRows s l).K ≤ s.f / s.K + (l.map fun x => x.f / x.K).sum ∧
      (mixRows s l).f / (mixRows s l).G ≤ s.f / s.G + (l.map fun x => x.f / x.G).sum) := by
  induction l generalizing s with
  | nil => simp [mixRows]
  | cons x l ih =>
    have hx := hl x List.mem_cons_self
    have h := ih (mixStep_ok hs hx) (fun y hy => hl y (List.mem_cons_of_mem _ hy))
    have k := mixStep_voigt hs hx
    simp only [List.map_cons, List.sum_cons]
    change ((mixRows (mixStep s x) l).f * (mixRows (mixStep s x) l).K ≤ _ ∧
      (mixRows (mixStep s x) l).f * (mixRows (mixStep s x) l).G ≤ _) ∧
      ((mixRows (mixStep s x) l).f / (mixRows (mixStep s x) l).K ≤ _ ∧
      (mixRows (mixStep s x) l).f / (mixRows (mixStep s x) l).G ≤ _)
    refine ⟨⟨?_, ?_⟩, ?_, ?_⟩
    · linarith [h.1.1, k.1.1]
    · linarith [h.1.2, k.1.2]
    · linarith [h.2.1, k.2.1]
    · linarith [h.2.2, k.2.2]

/-- **C128.** The bulk and the shear modulus of a mixture of any number of minerals lie between the Reuss (harmonic) and
the Voigt (arithmetic) average of all the constituents, weighted with their fractions. -/
theorem C128_mixture_within_reuss_voigt {L : List (PosMineral n)} (hne : L ≠ [])
    (ht : ∀ i, (L.map fun x => x.f i).sum ≤ 1 + 1e-5) (ht0 : ∀ i, 0 < (L.map fun x => x.f i).sum) :
    ∃ r K G R, PosMineral.mixture L = .ok r ∧ r.Has K G R ∧ ∀ i,
      ((L.map fun x => x.f i).sum / (L.map fun x => x.f i / x.K i).sum ≤ K i ∧
        K i ≤ (L.map fun x => x.f i * x.K i).sum / (L.map fun x => x.f i).sum) ∧
      ((L.map fun x => x.f i).sum / (L.map fun x => x.f i / x.G i).sum ≤ G i ∧
        G i ≤ (L.map fun x => x.f i * x.G i).sum / (L.map fun x => x.f i).sum) := by
  obtain ⟨r, hr, hr2⟩ := mixture_fin hne ht
  refine ⟨r, _, _, _, hr, hr2, fun i => ?_⟩
  have hp := ht0 i
  cases L with
  | nil => exact absurd rfl hne
  | cons x L =>
    have hl : ∀ y ∈ L.map (fun x => x.row i), y.Ok := fun y hy => by
      obtain ⟨z, -, rfl⟩ := List.mem_map.mp hy; exact z.row_ok i
    have h := mixRows_voigt (x.row_ok i) hl
    have ho := mixRows_ok (x.row_ok i) hl
    have e := mixRows_total (x.row i) (L.map fun x => x.row i)
    simp only [List.map_map, Function.comp_def] at h e
    rw [e] at h
    simp only [List.map_cons, List.sum_cons, mixRow] at hp ⊢
    have hrow : ∀ x : PosMineral n, (x.row i).f = x.f i ∧ (x.row i).K = x.K i ∧ (x.row i).G = x.G i :=
      fun x => ⟨rfl, rfl, rfl⟩
    simp only [(hrow _).1, (hrow _).2.1, (hrow _).2.2] at h e
    have pos : ∀ (p : PosMineral n → ℝ) (q : ℝ), 0 < q →
        (x.f i + (L.map fun x => x.f i).sum) / q ≤ x.f i / p x + (L.map fun x => x.f i / p x).sum →
        (x.f i + (L.map fun x => x.f i).sum) / (x.f i / p x + (L.map fun x => x.f i / p x).sum) ≤ q := by
      intro p q hq hh
      have : 0 < x.f i / p x + (L.map fun x => x.f i / p x).sum := lt_of_lt_of_le (by positivity) hh
      rw [div_le_iff₀ this]
      rw [div_le_iff₀ hq] at hh
      linarith
    refine ⟨⟨pos (fun x => x.K i) _ ho.1 h.2.1, ?_⟩, pos (fun x => x.G i) _ ho.2.1 h.2.2, ?_⟩
    · rw [le_div_iff₀ hp]; linarith [h.1.1]
    · rw [le_div_iff₀ hp]; linarith [h.1.2]

example := C128_mixture_within_reuss_voigt (L := exMinerals) (by simp [exMinerals])
  (fun i => by simp [exMinerals, constMineral]; norm_num) (fun i => by simp [exMinerals, constMineral]; norm_num)

/-! ### C129 -/

theorem hsReal_mono {a b z a' b' z' f : ℝ} (ha : 0 < a) (hb : 0 < b) (hz : 0 ≤ z) (h0 : 0 ≤ f) (h1 : f ≤ 1)
    (haa : a ≤ a') (hbb : b ≤ b') (hzz : z ≤ z') : hsReal a b z f ≤ hsReal a' b' z' f := by
  have s1 : hsReal a b z f ≤ hsReal a b' z f :=
    hsReal_mono_b (by linarith) (by linarith) (hsReal_D (by linarith) (by linarith) h0 h1) h0 h1 hbb
  have s2 : hsReal a b' z f ≤ hsReal a' b' z f := by
    rw [hsReal_symm (a := a), hsReal_symm (a := a')]
    exact hsReal_mono_b (by linarith) (by linarith) (hsReal_D (by linarith) (by linarith) (by linarith) (by linarith))
      (by linarith) (by linarith) haa
  exact s1.trans (s2.trans (hsReal_mono_z (by linarith) (by linarith) h0 h1 hzz))

/-- **C129, two materials.** If the constituents of a Hashin–Shtrikman–Walpole mix (either bound) get stiffer, in bulk or
in shear, the mix does not get softer, neither in bulk nor in shear. -/
theorem C129_mix_of_two {m1 m2 m1' m2' : Mat n} {K1 G1 R1 K2 G2 R2 K1' G1' R1' K2' G2' R2' f : Fin n → ℝ}
    {bound : String} (h1 : m1.Pos K1 G1 R1) (h2 : m2.Pos K2 G2 R2) (h1' : m1'.Pos K1' G1' R1')
    (h2' : m2'.Pos K2' G2' R2') (hb : IsBound bound) (hf0 : ∀ i, 0 ≤ f i) (hf1 : ∀ i, f i ≤ 1)
    (hK1 : ∀ i, K1 i ≤ K1' i) (hK2 : ∀ i, K2 i ≤ K2' i) (hG1 : ∀ i, G1 i ≤ G1' i) (hG2 : ∀ i, G2 i ≤ G2' i) :
    ∃ m m' K G R K' G' R', hsw m1 m2 (finC f) bound = .ok m ∧ hsw m1' m2' (finC f) bound = .ok m' ∧
      m.Has K G R ∧ m'.Has K' G' R' ∧ ∀ i, K i ≤ K' i ∧ G i ≤ G' i := by
  refine ⟨_, _, _, _, _, _, _, _, hsw_pos h1 h2 hb hf0 hf1, hsw_pos h1' h2' hb hf0 hf1, Mat.ofReal_has _ _ _,
    Mat.ofReal_has _ _ _, fun i => ?_⟩
  have pm : ∀ {a b a' b' : ℝ}, a ≤ a' → b ≤ b' → pick bound a b ≤ pick bound a' b' := by
    intro a b a' b' ha hb
    unfold pick
    split
    · exact min_le_min ha hb
    · exact max_le_max ha hb
  have gg := pm (hG1 i) (hG2 i)
  have kk := pm (hK1 i) (hK2 i)
  have pG : 0 < pick bound (G1 i) (G2 i) := pick_pos (h1.shear i) (h2.shear i)
  have pK : 0 < pick bound (K1 i) (K2 i) := pick_pos (h1.bulk i) (h2.bulk i)
  exact ⟨hsReal_mono (h1.bulk i) (h2.bulk i) (by positivity) (hf0 i) (hf1 i) (hK1 i) (hK2 i) (by linarith),
    hsReal_mono (h1.shear i) (h2.shear i) (zShear_nonneg pK.le pG.le) (hf0 i) (hf1 i) (hG1 i) (hG2 i)
      (zShear_mono pK pG.le kk gg)⟩

example := C129_mix_of_two (f := fun _ => 0.3) clay_pos clay_pos clay_pos quartz_pos (.inl rfl)
  (fun _ => by norm_num) (fun _ => by norm_num) (fun _ => le_refl _) (fun _ => by norm_num) (fun _ => le_refl _)
  (fun _ => by norm_num)

/-- `y` is at least as stiff as `x`, with the same fraction. -/
def RowMin.Stiffer (x y : RowMin) : Prop := x.K ≤ y.K ∧ x.G ≤ y.G ∧ x.f = y.f

theorem mixStep_mono {s x s' x' : RowMin} (hs : s.Ok) (hx : x.Ok) (h : s.Stiffer s') (h' : x.Stiffer x') :
    (mixStep s x).Stiffer (mixStep s' x') := by
  obtain ⟨h1, h2, h3, h4⟩ := hs
  obtain ⟨k1, k2, k3, k4⟩ := hx
  obtain ⟨a1, a2, a3⟩ := h
  obtain ⟨b1, b2, b3⟩ := h'
  obtain ⟨r0, r1⟩ := ratio_range h4 k4
  have pG := lt_min h2 k2
  have pK := lt_min h1 k1
  have gg := min_le_min a2 b2
  have kk := min_le_min a1 b1
  unfold RowMin.Stiffer mixStep
  dsimp only
  rw [← a3, ← b3]
  exact ⟨hsReal_mono h1 k1 (by positivity) r0 r1 a1 b1 (by linarith),
    hsReal_mono h2 k2 (zShear_nonneg pK.le pG.le) r0 r1 a2 b2 (zShear_mono pK pG.le kk gg), rfl⟩

theorem mixRows_mono {s s' : RowMin} {l l' : List RowMin} (hs : s.Ok) (hl : ∀ x ∈ l, x.Ok) (h : s.Stiffer s')
    (h' : List.Forall₂ RowMin.Stiffer l l') : (mixRows s l).Stiffer (mixRows s' l') := by
  induction h' generalizing s s' with
  | nil => exact h
  | cons hx _ ih =>
    have ho := hl _ List.mem_cons_self
    exact ih (mixStep_ok hs ho) (fun y hy => hl y (List.mem_cons_of_mem _ hy)) (mixStep_mono hs ho h hx)

/-- `y` is the same share of a mineral at least as stiff as `x`, in every row. -/
def PosMineral.Stiffer (x y : PosMineral n) : Prop := ∀ i, x.K i ≤ y.K i ∧ x.G i ≤ y.G i ∧ x.f i = y.f i

/-- **C129, minerals.** If some constituents of a mixture of any number of minerals get stiffer, in bulk or in shear, the
mixture does not get softer. -/
theorem C129_mixture_of_minerals {L L' : List (PosMineral n)} (hne : L ≠ [])
    (ht : ∀ i, (L.map fun x => x.f i).sum ≤ 1 + 1e-5) (h : List.Forall₂ PosMineral.Stiffer L L') :
    ∃ r r' K G R K' G' R', PosMineral.mixture L = .ok r ∧ PosMineral.mixture L' = .ok r' ∧ r.Has K G R ∧
      r'.Has K' G' R' ∧ ∀ i, K i ≤ K' i ∧ G i ≤ G' i := by
  have hne' : L' ≠ [] := by rintro rfl; cases h; exact hne rfl
  have ht' : ∀ i, (L'.map fun x => x.f i).sum ≤ 1 + 1e-5 := by
    intro i
    have : (L'.map fun x => x.f i) = L.map fun x => x.f i := by
      clear ht hne hne'
      induction h with
      | nil => rfl
      | cons hx _ ih => simp only [List.map_cons, ih, (hx i).2.2]
    rw [this]; exact ht i
  obtain ⟨r, hr, hr2⟩ := mixture_fin hne ht
  obtain ⟨r', hr', hr2'⟩ := mixture_fin hne' ht'
  refine ⟨r, r', _, _, _, _, _, _, hr, hr', hr2, hr2', fun i => ?_⟩
  cases h with
  | nil => exact absurd rfl hne
  | cons hx hl =>
    rename_i x y L L'
    have := mixRows_mono (x.row_ok i) (l := L.map fun x => x.row i) (s' := y.row i) (l' := L'.map fun x => x.row i)
      (fun y hy => by obtain ⟨z, -, rfl⟩ := List.mem_map.mp hy; exact z.row_ok i)
      (hx i) (by rw [List.forall₂_map_left_iff, List.forall₂_map_right_iff]; exact hl.imp fun _ _ h => h i)
    exact ⟨this.1, this.2.1⟩

/-- Quartz 50 %, stiffer clay 30 %, calcite 20 %. -/
noncomputable def exMinerals' : List (PosMineral 1) :=
  [constMineral 36.8 44 2650 0.5 (by norm_num) (by norm_num) (by norm_num) (by norm_num),
   constMineral 27 9.5 2550 0.3 (by norm_num) (by norm_num) (by norm_num) (by norm_num),
   constMineral 76.8 32 2710 0.2 (by norm_num) (by norm_num) (by norm_num) (by norm_num)]

example := C129_mixture_of_minerals (L := exMinerals) (L' := exMinerals') (by simp [exMinerals])
  (fun i => by simp [exMinerals, constMineral]; norm_num)
  (by simp [exMinerals, exMinerals', PosMineral.Stiffer, constMineral]; norm_num)

/-- `y` is as much of a fluid at least as stiff as `x`, in every row. -/
def FluidIn.Stiffer (x y : FluidIn n) : Prop := ∀ i, x.K i ≤ y.K i ∧ x.s i = y.s i

/-- **C129, fluids.** If some of any number of fluids get stiffer, their Wood mix does not get softer. -/
theorem C129_wood_mix {L L' : List (FluidIn n)} (hne : L ≠ []) (hK : ∀ x ∈ L, ∀ i, 0 < x.K i)
    (hρ : ∀ x ∈ L, ∀ i, 0 < x.ρ i) (hρ' : ∀ x ∈ L', ∀ i, 0 < x.ρ i) (hs : ∀ x ∈ L, ∀ i, 0 ≤ x.s i)
    (ht : ∀ i, 1e-15 ≤ (L.map fun x => x.s i).sum) (h : List.Forall₂ FluidIn.Stiffer L L') :
    ∃ m m' K ρ K' ρ', wood (L.map (·.mat)) (L.map fun x => finC x.s) = .ok m ∧
      wood (L'.map (·.mat)) (L'.map fun x => finC x.s) = .ok m' ∧ m.Has K (fun _ => 0) ρ ∧
      m'.Has K' (fun _ => 0) ρ' ∧ ∀ i, K i ≤ K' i := by
  have hne' : L' ≠ [] := by rintro rfl; cases h; exact hne rfl
  have hsum : ∀ i, (L'.map fun x => x.s i) = L.map fun x => x.s i := by
    intro i
    clear ht hne hne' hK hρ hρ' hs
    induction h with
    | nil => rfl
    | cons hx _ ih => simp only [List.map_cons, ih, (hx i).2]
  have hall : ∀ y ∈ L', ∃ x ∈ L, x.Stiffer y := by
    clear ht hne hne' hK hρ hρ' hs hsum
    induction h with
    | nil => intro y hy; cases hy
    | cons hx _ ih =>
      intro y hy
      rcases List.mem_cons.mp hy with rfl | hy
      · exact ⟨_, List.mem_cons_self, hx⟩
      · obtain ⟨x, hm, hxy⟩ := ih y hy
        exact ⟨x, List.mem_cons_of_mem _ hm, hxy⟩
  have hK' : ∀ y ∈ L', ∀ i, 0 < y.K i := fun y hy i => by
    obtain ⟨x, hm, hxy⟩ := hall y hy; exact lt_of_lt_of_le (hK x hm i) (hxy i).1
  have hs' : ∀ y ∈ L', ∀ i, 0 ≤ y.s i := fun y hy i => by
    obtain ⟨x, hm, hxy⟩ := hall y hy; rw [← (hxy i).2]; exact hs x hm i
  obtain ⟨m, K, ρ, hm, hh, he⟩ := C17_wood_is_reuss hne hK hρ hs ht
  obtain ⟨m', K', ρ', hm', hh', he'⟩ := C17_wood_is_reuss hne' hK' hρ' hs' (fun i => by rw [hsum i]; exact ht i)
  refine ⟨m, m', K, ρ, K', ρ', hm, hm', hh, hh', fun i => ?_⟩
  have e := (he i).1
  have e' := (he' i).1
  rw [hsum i] at e'
  have hT : 0 < (L.map fun x => x.s i).sum := lt_of_lt_of_le (by norm_num) (ht i)
  set T := (L.map fun x => x.s i).sum with hTdef
  have hle : (L'.map fun x => x.s i / T / x.K i).sum ≤ (L.map fun x => x.s i / T / x.K i).sum := by
    clear e e' he he' hsum hne hne' ht hall hTdef hρ hρ' hK' hs' hm hm'
    clear_value T
    induction h with
    | nil => exact le_refl _
    | cons hx _ ih =>
      simp only [List.map_cons, List.sum_cons]
      refine add_le_add ?_ (ih (fun x hx => hK x (List.mem_cons_of_mem _ hx)) fun x hx => hs x (List.mem_cons_of_mem _ hx))
      rw [← (hx i).2]
      exact div_le_div_of_nonneg_left (div_nonneg (hs _ List.mem_cons_self i) hT.le) (hK _ List.mem_cons_self i) (hx i).1
  have lo := (he i).2.2.1
  have kpos : ∀ {L : List (FluidIn n)} {K : Fin n → ℝ}, L ≠ [] → (∀ x ∈ L, ∀ i, 0 < x.K i) →
      (∀ lo hi, (∀ x ∈ L, lo ≤ x.K i ∧ x.K i ≤ hi) → lo ≤ K i ∧ K i ≤ hi) → 0 < K i := by
    intro L K hn hk hlo
    obtain ⟨a, ha, hmin⟩ := exists_max_list hn (fun x => -x.K i)
    obtain ⟨b, hb, hmax⟩ := exists_max_list hn (fun x => x.K i)
    have := (hlo (a.K i) (b.K i) fun x hx => ⟨by have := hmin x hx; linarith, hmax x hx⟩).1
    exact lt_of_lt_of_le (hk a ha i) this
  have p := kpos hne hK lo
  have p' := kpos hne' hK' (he' i).2.2.1
  rw [← e, ← e'] at hle
  exact (one_div_le_one_div p' p).mp hle

example : ∃ m m' K ρ K' ρ', wood ([exGas, exGas].map (·.mat)) ([exGas, exGas].map fun x => finC x.s) = .ok m ∧
      wood ([exGas, {exBrine with s := exGas.s}].map (·.mat)) ([exGas, {exBrine with s := exGas.s}].map fun x => finC x.s)
        = .ok m' ∧ m.Has K (fun _ => 0) ρ ∧ m'.Has K' (fun _ => 0) ρ' ∧ ∀ i, K i ≤ K' i := by
  apply C129_wood_mix <;> simp [exGas, exBrine, FluidIn.Stiffer] <;> norm_num

/-- **C129, saturated rock.** A stiffer mineral does not give a softer saturated rock (dry rock and fluid unchanged; for
these see C22). -/
theorem C129_stiffer_mineral {dry mineral mineral' fluid : Mat n} {φ Kd Gd ρd Km Km' Kf ρf : Fin n → ℝ}
    (h : GassmannRows dry mineral fluid φ Kd Gd ρd Km Kf ρf)
    (h' : GassmannRows dry mineral' fluid φ Kd Gd ρd Km' Kf ρf) (hf : ∀ i, 0 < Kf i) (hφ : ∀ i, φ i ≤ 1)
    (hm : ∀ i, Km i ≤ Km' i) :
    ∃ m m' K G ρ K' G' ρ', fluidSubstitution dry mineral fluid (finC φ) = .ok m ∧
      fluidSubstitution dry mineral' fluid (finC φ) = .ok m' ∧ m.Has K G ρ ∧ m'.Has K' G' ρ' ∧ ∀ i, K i ≤ K' i := by
  obtain ⟨m, K, G, ρ, e, hh, hk⟩ := C21_gassmann_equation h hf
  obtain ⟨m', K', G', ρ', e', hh', hk'⟩ := C21_gassmann_equation h' hf
  refine ⟨m, m', K, G, ρ, K', G', ρ', e, e', hh, hh', fun i => ?_⟩
  rw [(hk i).2, (hk' i).2]
  have pM : 0 < Km i := lt_of_le_of_lt (h.dry0 i) (h.dry1 i)
  have pM' : 0 < Km' i := lt_of_le_of_lt (h.dry0 i) (h'.dry1 i)
  have pd := h.dry0 i
  have pf := hf i
  have pφ := h.porosity i
  have pφ1 := hφ i
  have gen : ∀ {u v x y φ : ℝ}, 0 ≤ u → 0 < v → 0 < y → y ≤ x → x < v⁻¹ → u * x < 1 → 0 < φ → φ ≤ 1 →
      (1 - u * x) ^ 2 / (φ / v + (1 - φ) * x - u * x ^ 2) ≤ (1 - u * y) ^ 2 / (φ / v + (1 - φ) * y - u * y ^ 2) := by
    intro u v x y φ hu hv hy hyx hx hux hφ hφ1
    have hx0 : 0 < x := lt_of_lt_of_le hy hyx
    have huy : u * y < 1 := lt_of_le_of_lt (mul_le_mul_of_nonneg_left hyx hu) hux
    have e1 : ∀ t : ℝ, φ / v + (1 - φ) * t - u * t ^ 2 = φ * (v⁻¹ - t) + t * (1 - u * t) := by
      intro t; rw [div_eq_mul_inv]; ring
    rw [e1, e1]
    have d1 : 0 < φ * (v⁻¹ - x) := mul_pos hφ (by linarith)
    have d2 : 0 < φ * (v⁻¹ - y) := mul_pos hφ (by linarith)
    have d3 : 0 < x * (1 - u * x) := mul_pos hx0 (by linarith)
    have d4 : 0 < y * (1 - u * y) := mul_pos hy (by linarith)
    rw [div_le_div_iff₀ (by linarith) (by linarith)]
    have key : (1 - u * y) ^ 2 * (φ * (v⁻¹ - x) + x * (1 - u * x)) - (1 - u * x) ^ 2 * (φ * (v⁻¹ - y) + y * (1 - u * y))
        = (x - y) * ((1 - u * x) * (u * (x - y) + (1 - u * x) * (1 - φ))
          + u * ((1 - u * x) + (1 - u * y)) * (φ * (v⁻¹ - x))) := by ring
    have : 0 ≤ (x - y) * ((1 - u * x) * (u * (x - y) + (1 - u * x) * (1 - φ))
          + u * ((1 - u * x) + (1 - u * y)) * (φ * (v⁻¹ - x))) := by
      have q1 : 0 ≤ x - y := by linarith
      have q2 : 0 ≤ 1 - u * x := by linarith
      have q3 : 0 ≤ 1 - u * y := by linarith
      have q4 : 0 ≤ 1 - φ := by linarith
      positivity
    linarith
  have := gen (u := Kd i) (v := Kf i) (x := (Km i)⁻¹) (y := (Km' i)⁻¹) (φ := φ i) pd pf (inv_pos.mpr pM')
    (inv_anti₀ pM (hm i)) (inv_strictAnti₀ pf (h.fluid1 i)) (by
      rw [← div_eq_mul_inv, div_lt_one pM]; exact h.dry1 i) pφ pφ1
  have c1 : ∀ M : ℝ, (1 - Kd i / M) ^ 2 / (φ i / Kf i + (1 - φ i) / M - Kd i / M ^ 2)
      = (1 - Kd i * M⁻¹) ^ 2 / (φ i / Kf i + (1 - φ i) * M⁻¹ - Kd i * M⁻¹ ^ 2) := by
    intro M; simp only [div_eq_mul_inv, inv_pow]
  rw [c1, c1]
  linarith

example := C129_stiffer_mineral exGassmann (mineral' := Mat.ofReal (fun _ => 40) (fun _ => 44) (fun _ => 2650))
  (Km' := fun _ => 40) (by
    constructor
    · exact ⟨rfl, rfl, rfl⟩
    · rfl
    · rfl
    · rfl
    all_goals intro _; norm_num) (fun _ => by norm_num) (fun _ => by norm_num) (fun _ => by norm_num)

end OPE
