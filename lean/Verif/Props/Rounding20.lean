import Verif.Props.Rounding18
import Verif.Props.Rounding4

/-!
# C176: rows with Brie's mixing in double arithmetic
-/

namespace OPE

open Classical

variable {fl : ℝ → ℝ} {pw : ℝ → ℝ → ℝ}

theorem Near.of_accurate_nat {k : ℕ} {x y : ℝ} (hx : 0 ≤ x) (h : Accurate k x y) (hk : k ≤ 2 ^ 50) : Near (4 * k) x y := by
  unfold Accurate at h
  rw [abs_of_nonneg hx] at h
  have e : (k : ℝ) / 2 ^ 52 = 2 * k * unit := by unfold unit; ring
  rw [e] at h
  have hk' : (k : ℝ) ≤ 2 ^ 50 := by exact_mod_cast hk
  have hu := unit_pos
  have h2 : (2 : ℝ) ^ 50 * unit = 1 / 8 := by unfold unit; norm_num
  refine Near.of_relative hx h ?_ ?_ (by positivity)
  · push_cast
    nlinarith [mul_le_mul_of_nonneg_right hk' hu.le]
  · push_cast
    linarith

/-- Fluid substitution and velocities from a dry rock, a mineral and a fluid that all carry errors. -/
theorem saturate_near (hfl : RoundsToNearest fl) (hp : PowerAccurate pw) {dry : Published.Rock} {F : Published.Fluid} {Km φ : ℝ}
    {dry' : ℝ × ℝ × ℝ} {F' : ℝ × ℝ} {Km' : ℝ} {D B : ℕ} (hdry : 0 < dry.K ∧ 0 < dry.G ∧ 0 < dry.ρ) (hF : 0 < F.K ∧ 0 < F.ρ)
    (hKm : 0 < Km) (hφ : 0 < φ) (hφ1 : φ ≤ 1) (nd : NearRock D dry dry') (nm : Near D Km Km') (nF : Near B F.K F'.1)
    (nFρ : Near B F.ρ F'.2) (hD : D + B ≤ 2 ^ 45) (hKd : dry.K ≤ 0.99 * Km) (hKf : F.K ≤ 0.99 * Km) :
    let K := Published.gassmann dry.K Km F.K φ
    let ρ := dry.ρ + φ * F.ρ
    ∃ k ρ' vp vs, Double.saturate fl pw dry' Km' F' φ = some (k, dry'.2.1, ρ', vp, vs) ∧
      Accurate (D + B + 9) K k ∧ Accurate (D + B + 2) ρ ρ' ∧
      Accurate (2 * D + 2 * B + 16) (Real.sqrt ((K + 4 / 3 * dry.G) / ρ)) vp ∧
      Accurate (2 * D + B + 6) (Real.sqrt (dry.G / ρ)) vs := by
  intro K ρ
  obtain ⟨nd1, nd2, nd3⟩ := nd
  have hd1 : dry'.1 < Km' := near_softer hKm hKd nd1 nm (by omega)
  have hf1 : F'.1 < Km' := near_softer hKm hKf (nF.mono (l := D + B) (by omega)) (nm.mono (by omega)) (by omega)
  have hd2 : dry.K < Km := by norm_num at *; linarith
  have hf2 : F.K < Km := by norm_num at *; linarith
  obtain ⟨k, hk, nk⟩ := gassmann_near hfl hφ.le nd1.nonneg hd1.le (nF.pos hF.1) hf1
  have hKe : K = satReal dry.K Km F.K φ := by
    rw [← satReal_eq hφ hdry.1.le hd2 hF.1 hf2, gFactor_published hφ hdry.1.le hd2 hF.1 hf2]
  have nk' : Near (D + B + 9) K k := by
    rw [hKe]
    exact ((satReal_near hφ hφ1 hdry.1 hd2 hF.1 hf2 hd1 hf1 (nd1.mono (l := D + B) (by omega)) (nm.mono (by omega))
      (nF.mono (by omega))).trans nk)
  have hK0 : 0 < K := by rw [hKe]; exact satReal_pos hφ hdry.1 hd2 hF.1 hf2
  have nρ' : Near (D + B + 2) ρ (Double.saturatedDensity fl dry'.2.2 F'.2 φ) := by
    have := ((nd3.add (((Near.refl 0 hφ.le).mul nFρ).fl hfl)).fl hfl)
    refine this.mono ?_
    have : max D (0 + B + 1) ≤ D + B + 1 := max_le (by omega) (by omega)
    omega
  have hρ0 : 0 < ρ := add_pos hdry.2.2 (mul_pos hφ hF.2)
  set ρ' := Double.saturatedDensity fl dry'.2.2 F'.2 φ with hρ'
  have hG0 := hdry.2.1
  have root : ∀ {k : ℕ} {x y : ℝ}, Near k x y → 0 < x → Near (k + 3) (Real.sqrt x) (pw y 0.5) := by
    intro k x y h hx
    rw [Real.sqrt_eq_rpow]
    have h1 := h.rpow hx (p := 1 / 2) (by norm_num) (by norm_num)
    have h2 := Near.of_accurate (Real.rpow_nonneg (h.pos hx).le _) (hp y 0.5 (h.pos hx))
    rw [show (0.5 : ℝ) = 1 / 2 by norm_num] at h2 ⊢
    exact h1.trans h2
  have n1 : Near (2 * D + 2 * B + 13) ((K + 4 / 3 * dry.G) / ρ) (fl (fl (k + fl (fl (4 / 3) * dry'.2.1)) / ρ')) := by
    have := ((((nk'.add (((Near.fl0 hfl (by norm_num : (0:ℝ) ≤ 4 / 3)).mul nd2).fl hfl)).fl hfl).div nρ'
      hρ0).fl hfl)
    refine this.mono ?_
    rw [max_eq_left (by omega)]
    omega
  have n2 : Near (2 * D + B + 3) (dry.G / ρ) (fl (dry'.2.1 / ρ')) :=
    ((nd2.div nρ' hρ0).fl hfl).mono (by omega)
  have v1 := root n1 (by positivity)
  have v2 := root n2 (by positivity)
  refine ⟨k, ρ', Double.primaryVelocity fl pw k dry'.2.1 ρ', Double.secondaryVelocity fl pw dry'.2.1 ρ', ?_, ?_, ?_, ?_, ?_⟩
  · unfold Double.saturate
    dsimp only
    rw [hk]
    rfl
  · have := nk'.accurate (by omega)
    exact_mod_cast this
  · have := nρ'.accurate (by omega)
    exact_mod_cast this
  · have := v1.accurate (by omega)
    exact_mod_cast this
  · have := v2.accurate (by omega)
    exact_mod_cast this

theorem brie_near (hfl : RoundsToNearest fl) (hp : PowerAccurate pw) {L G : List (Published.Fluid × ℝ)} {e : ℝ} {n m : ℕ}
    (h : BrieInput L G e n m) :
    (0 < (Published.brie L G e).K ∧ 0 < (Published.brie L G e).ρ) ∧
      ((Published.wood G).K ≤ (Published.brie L G e).K ∧ (Published.brie L G e).K ≤ (Published.wood L).K) ∧
      Near (16 * n * (m + 1) + 48) (Published.brie L G e).K (Double.brie fl pw (rowsOf L) (rowsOf G) e).1 ∧
      Near (16 * n * (m + 1) + 48) (Published.brie L G e).ρ (Double.brie fl pw (rowsOf L) (rowsOf G) e).2 := by
  obtain ⟨a1, a2⟩ := C166_brie hfl hp L G e n m h.liquids h.gases h.few h.exponent.2.2 h.exponent.1 h.exponent.2.1 h.positive
    h.liquid h.gas h.total h.stiffer h.denser
  obtain ⟨pl1, pl2, -, -⟩ := wood_near hfl L (fun x hx => (h.positive x (List.mem_append_left _ hx)).1) h.liquid
    (fun x hx => (h.positive x (List.mem_append_left _ hx)).2.1) (fun x hx => (h.positive x (List.mem_append_left _ hx)).2.2)
    (by have := h.liquids; have := h.few; omega)
  obtain ⟨pg1, pg2, -, -⟩ := wood_near hfl G (fun x hx => (h.positive x (List.mem_append_right _ hx)).1) h.gas
    (fun x hx => (h.positive x (List.mem_append_right _ hx)).2.1) (fun x hx => (h.positive x (List.mem_append_right _ hx)).2.2)
    (by have := h.gases; have := h.few; omega)
  have hS0 : 0 < (L.map fun x => x.2).sum := lt_of_lt_of_le (by norm_num) h.liquid
  have hP0 : 0 ≤ ((L.map fun x => x.2).sum : ℝ) ^ e := Real.rpow_nonneg hS0.le e
  have hP1 : ((L.map fun x => x.2).sum : ℝ) ^ e ≤ 1 := Real.rpow_le_one hS0.le h.total h.exponent.1
  have bK : (Published.brie L G e).K =
      ((Published.wood L).K - (Published.wood G).K) * ((L.map fun x => x.2).sum : ℝ) ^ e + (Published.wood G).K := rfl
  have bρ : (Published.brie L G e).ρ =
      (L.map fun x => x.2).sum * (Published.wood L).ρ + (1 - (L.map fun x => x.2).sum) * (Published.wood G).ρ := rfl
  have hst := h.stiffer
  have ht := h.total
  have l1 : (Published.wood G).K ≤ (Published.brie L G e).K := by
    rw [bK]; nlinarith [mul_nonneg (sub_nonneg.mpr hst) hP0]
  have l2 : (Published.brie L G e).K ≤ (Published.wood L).K := by
    rw [bK]; nlinarith [mul_le_mul_of_nonneg_left hP1 (sub_nonneg.mpr hst)]
  have p1 : 0 < (Published.brie L G e).K := lt_of_lt_of_le pg1 l1
  have p2 : 0 < (Published.brie L G e).ρ := by
    rw [bρ]
    have := mul_pos hS0 pl2
    have := mul_nonneg (sub_nonneg.mpr ht) pg2.le
    linarith
  have hnm : n * (m + 1) ≤ 1000 * 1001 := Nat.mul_le_mul h.few (by have := h.exponent.2.2; omega)
  have hn1 : n ≤ n * (m + 1) := Nat.le_mul_of_pos_right n (by omega)
  refine ⟨⟨p1, p2⟩, ⟨l1, l2⟩, ?_, ?_⟩
  · have := Near.of_accurate_nat (k := 2 * n * (m + 1) + 12) p1.le (by exact_mod_cast a1) (by rw [mul_assoc]; omega)
    refine this.mono ?_
    rw [mul_assoc, mul_assoc]
    omega
  · have := Near.of_accurate_nat (k := 4 * n + 7) p2.le (by exact_mod_cast a2) (by have := h.few; omega)
    refine this.mono ?_
    rw [mul_assoc]
    omega

/-- **C176.** A whole row with Brie's mixing in double arithmetic, the dry rock's moduli being given: with `J = 1672 m² R²` for
the minerals and `B = 16 n (e + 1) + 48` for the fluids (`n` bounds the number of liquids and that of gases, `e` Brie's
exponent), bulk modulus, shear modulus, density and velocities are accurate to `J + B + 9`, 0, `J + B + 2`, `2 J + 2 B + 16`
and `2 J + B + 6` units of `2⁻⁵²`. -/
theorem C176_row (hfl : RoundsToNearest fl) (hp : PowerAccurate pw) {R m n q : ℕ}
    -- minerals
    (a : Published.Rock) (t : ℝ) (M : List (Published.Rock × ℝ)) (hm : M.length = m) (ht : 0 ≤ t) (hd : IsDouble t)
    (hf : ∀ x ∈ M, 0 ≤ x.2) (hpos : ∀ x ∈ a :: M.map (fun x => x.1), 0 < x.K ∧ 0 < x.G ∧ 0 < x.ρ)
    (hratio : WithinRatio R (a :: M.map fun x => x.1)) (hR2 : R ≤ 1000) (hm2 : m ≤ 100)
    -- fluids
    (L G : List (Published.Fluid × ℝ)) {e : ℝ} (hB : BrieInput L G e n q)
    -- dry rock
    (dry : Published.Rock) (hdry : 0 < dry.K ∧ 0 < dry.G ∧ 0 < dry.ρ) {φ : ℝ} (hφ : 0 < φ) (hφ1 : φ ≤ 1)
    (hKd : dry.K ≤ 0.99 * (Published.addMinerals a t M).K)
    (hKf : (Published.brie L G e).K ≤ 0.99 * (Published.addMinerals a t M).K) :
    let K := Published.gassmann dry.K (Published.addMinerals a t M).K (Published.brie L G e).K φ
    let ρ := dry.ρ + φ * (Published.brie L G e).ρ
    let J : ℕ := 1672 * m ^ 2 * R ^ 2
    let B : ℕ := 16 * n * (q + 1) + 48
    ∃ k ρ' vp vs, Double.saturate fl pw (tri dry) (Double.mixLoop fl pw (tri a) t (M.map fun x => (tri x.1, x.2))).1
        (Double.brie fl pw (rowsOf L) (rowsOf G) e) φ = some (k, dry.G, ρ', vp, vs) ∧
      Accurate (J + B + 9) K k ∧ Accurate (J + B + 2) ρ ρ' ∧
      Accurate (2 * J + 2 * B + 16) (Real.sqrt ((K + 4 / 3 * dry.G) / ρ)) vp ∧
      Accurate (2 * J + B + 6) (Real.sqrt (dry.G / ρ)) vs := by
  intro K ρ J B
  obtain ⟨⟨nKm, -, -⟩, ⟨hKm, -, -⟩, hJ⟩ := minerals_near hfl hp a t M hm ht hd hf hpos hratio hR2 hm2
  obtain ⟨pF, -, n1, n2⟩ := brie_near hfl hp hB
  have hnm : n * (q + 1) ≤ 1000 * 1001 := Nat.mul_le_mul hB.few (by have := hB.exponent.2.2; omega)
  have hBb : B ≤ 2 ^ 44 := by
    show 16 * n * (q + 1) + 48 ≤ _
    rw [mul_assoc]; omega
  have hJb : J ≤ 2 ^ 44 := hJ
  exact saturate_near hfl hp hdry pF hKm hφ hφ1
    ⟨Near.refl J hdry.1.le, Near.refl J hdry.2.1.le, Near.refl J hdry.2.2.le⟩ nKm n1 n2 (by show J + B ≤ _; omega) hKd hKf

/-- **C176 (friable sand).** The same with the dry rock from the friable sand model, `D = 6 J + 78 + 1672 S²` in place of `J`. -/
theorem C176_friable_row (hfl : RoundsToNearest fl) (hp : PowerAccurate pw) {R S m n q : ℕ}
    -- minerals
    (a : Published.Rock) (t : ℝ) (M : List (Published.Rock × ℝ)) (hm : M.length = m) (ht : 0 ≤ t) (hd : IsDouble t)
    (hf : ∀ x ∈ M, 0 ≤ x.2) (hpos : ∀ x ∈ a :: M.map (fun x => x.1), 0 < x.K ∧ 0 < x.G ∧ 0 < x.ρ)
    (hratio : WithinRatio R (a :: M.map fun x => x.1)) (hR2 : R ≤ 500) (hm2 : m ≤ 50)
    -- fluids
    (L G : List (Published.Fluid × ℝ)) {e : ℝ} (hB : BrieInput L G e n q)
    -- friable sand
    {φ φc P C f : ℝ} (hφ : 0 < φ) (hφ1 : φ ≤ φc) (hc : φc < 1) (hC : 0 < C) (hf0 : 0 ≤ f)
    (hP : Sensible (Published.addMinerals a t M).G φc P C)
    (hpack : WithinRatio S [Published.addMinerals a t M, Published.hertzMindlin (Published.addMinerals a t M) φc P C f])
    (hS2 : S ≤ 100000)
    (hKd : (Published.friableSand (Published.addMinerals a t M) φ φc P C f).K ≤ 0.99 * (Published.addMinerals a t M).K)
    (hKf : (Published.brie L G e).K ≤ 0.99 * (Published.addMinerals a t M).K) :
    let dry := Published.friableSand (Published.addMinerals a t M) φ φc P C f
    let K := Published.gassmann dry.K (Published.addMinerals a t M).K (Published.brie L G e).K φ
    let ρ := dry.ρ + φ * (Published.brie L G e).ρ
    let D : ℕ := 6 * (1672 * m ^ 2 * R ^ 2) + 78 + 1672 * S ^ 2
    let B : ℕ := 16 * n * (q + 1) + 48
    let mineral := Double.mixLoop fl pw (tri a) t (M.map fun x => (tri x.1, x.2))
    ∃ k g ρ' vp vs, Double.saturate fl pw (Double.friableSand fl pw mineral φ φc P C f) mineral.1
        (Double.brie fl pw (rowsOf L) (rowsOf G) e) φ = some (k, g, ρ', vp, vs) ∧
      Accurate (D + B + 9) K k ∧ Accurate D dry.G g ∧ Accurate (D + B + 2) ρ ρ' ∧
      Accurate (2 * D + 2 * B + 16) (Real.sqrt ((K + 4 / 3 * dry.G) / ρ)) vp ∧
      Accurate (2 * D + B + 6) (Real.sqrt (dry.G / ρ)) vs := by
  intro dry K ρ D B mineral
  obtain ⟨nM, hMp, -⟩ := minerals_near hfl hp a t M hm ht hd hf hpos hratio (by omega) (by omega)
  have hJ : 1672 * m ^ 2 * R ^ 2 ≤ 1672 * 50 ^ 2 * 500 ^ 2 := by gcongr
  have hS' : 1672 * S ^ 2 ≤ 1672 * 100000 ^ 2 := by gcongr
  have hDb : D ≤ 2 ^ 44 + 2 ^ 43 := by
    show 6 * (1672 * m ^ 2 * R ^ 2) + 78 + 1672 * S ^ 2 ≤ _
    omega
  have hnm : n * (q + 1) ≤ 1000 * 1001 := Nat.mul_le_mul hB.few (by have := hB.exponent.2.2; omega)
  have hBb : B ≤ 2 ^ 43 := by
    show 16 * n * (q + 1) + 48 ≤ _
    rw [mul_assoc]; omega
  have hJD : 1672 * m ^ 2 * R ^ 2 ≤ D := by
    show _ ≤ 6 * (1672 * m ^ 2 * R ^ 2) + 78 + 1672 * S ^ 2
    omega
  obtain ⟨nd, pd⟩ := friable_near hfl hp hMp nM hφ.le hφ1 (by linarith) hc hC hf0 hP hpack (by show D ≤ _; omega)
  obtain ⟨pF, -, n1, n2⟩ := brie_near hfl hp hB
  obtain ⟨k, ρ', vp, vs, h1, h2, h3, h4, h5⟩ := saturate_near hfl hp (D := D) (B := B) pd pF hMp.1 hφ (by linarith) nd
    (nM.1.mono hJD) n1 n2 (by omega) hKd hKf
  exact ⟨k, _, ρ', vp, vs, h1, h2, by exact_mod_cast nd.2.1.accurate (by show D ≤ _; omega), h3, h4, h5⟩

end OPE
