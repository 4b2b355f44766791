import Verif.Spec.SpanWagner
import Mathlib.Analysis.SpecialFunctions.Pow.Deriv
import Mathlib.Analysis.SpecialFunctions.ExpDeriv
import Mathlib.Analysis.SpecialFunctions.Log.Deriv

/-!
# Carbon dioxide: symbolic differentiation is differentiation (C67)
-/

namespace OPE.CO2

open Classical

/-! ## Real values of expressions -/

/-- The value of an expression over the reals. -/
noncomputable def Expr.evalR (e : Expr) (δ τ : ℝ) : ℝ :=
  match e with
  | .num x => x
  | .delta => δ
  | .tau => τ
  | .add a b => a.evalR δ τ + b.evalR δ τ
  | .mul a b => a.evalR δ τ * b.evalR δ τ
  | .npow a k => a.evalR δ τ ^ k
  | .pow a x => a.evalR δ τ ^ x
  | .exp a => Real.exp (a.evalR δ τ)

/-- All bases of real powers are positive. -/
def Expr.Good (e : Expr) (δ τ : ℝ) : Prop :=
  match e with
  | .num _ | .delta | .tau => True
  | .add a b | .mul a b => a.Good δ τ ∧ b.Good δ τ
  | .npow a _ | .exp a => a.Good δ τ
  | .pow a _ => a.Good δ τ ∧ 0 < a.evalR δ τ

theorem eval_fin {e : Expr} {δ τ : ℝ} (h : e.Good δ τ) :
    e.eval (Num.fin δ) (Num.fin τ) = Num.fin (e.evalR δ τ) := by
  induction e with
  | num x => rfl
  | delta => rfl
  | tau => rfl
  | add a b iha ihb => simp only [Expr.eval, Expr.evalR, iha h.1, ihb h.2, Num.fin_add]
  | mul a b iha ihb => simp only [Expr.eval, Expr.evalR, iha h.1, ihb h.2, Num.fin_mul]
  | npow a k ih => simp only [Expr.eval, Expr.evalR, ih h, Num.fin_powi_nat]
  | pow a x ih => simp only [Expr.eval, Expr.evalR, ih h.1, Num.fin_pow h.2]
  | exp a ih => simp only [Expr.eval, Expr.evalR, ih h, Num.fin_exp]

theorem good_diff {e : Expr} {δ τ : ℝ} (v : Var) (h : e.Good δ τ) : (e.diff v).Good δ τ := by
  induction e with
  | num x => trivial
  | delta => cases v <;> trivial
  | tau => cases v <;> trivial
  | add a b iha ihb => exact ⟨iha h.1, ihb h.2⟩
  | mul a b iha ihb => exact ⟨⟨iha h.1, h.2⟩, h.1, ihb h.2⟩
  | npow a k ih => exact ⟨⟨trivial, h⟩, ih h⟩
  | pow a x ih => exact ⟨⟨trivial, h, h⟩, ih h.1⟩
  | exp a ih => exact ⟨h, ih h⟩

theorem good_diffs {e : Expr} {δ τ : ℝ} (dd dt : ℕ) (h : e.Good δ τ) : (e.diffs dd dt).Good δ τ := by
  have h1 : ∀ (v : Var) (k : ℕ) (e : Expr), e.Good δ τ → ((Expr.diff v)^[k] e).Good δ τ := by
    intro v k
    induction k with
    | zero => intro e h; exact h
    | succ k ih => intro e h; rw [Function.iterate_succ_apply]; exact ih _ (good_diff v h)
  exact h1 _ _ _ (h1 _ _ _ h)

theorem hasDerivAt_delta {e : Expr} {δ τ : ℝ} (h : e.Good δ τ) :
    HasDerivAt (fun x => e.evalR x τ) ((e.diff .delta).evalR δ τ) δ := by
  induction e with
  | num x => exact hasDerivAt_const _ _
  | delta => exact hasDerivAt_id _
  | tau => exact hasDerivAt_const _ _
  | add a b iha ihb => exact (iha h.1).add (ihb h.2)
  | mul a b iha ihb => exact (iha h.1).mul (ihb h.2)
  | npow a k ih => exact (ih h).pow k
  | pow a x ih =>
    have := (ih h.1).rpow_const (p := x) (.inl h.2.ne')
    refine this.congr_deriv ?_
    simp only [Expr.diff, Expr.evalR]
    rw [Real.rpow_sub_one h.2.ne', Real.rpow_neg_one]
    ring
  | exp a ih => exact (ih h).exp

theorem hasDerivAt_tau {e : Expr} {δ τ : ℝ} (h : e.Good δ τ) :
    HasDerivAt (fun x => e.evalR δ x) ((e.diff .tau).evalR δ τ) τ := by
  induction e with
  | num x => exact hasDerivAt_const _ _
  | delta => exact hasDerivAt_const _ _
  | tau => exact hasDerivAt_id _
  | add a b iha ihb => exact (iha h.1).add (ihb h.2)
  | mul a b iha ihb => exact (iha h.1).mul (ihb h.2)
  | npow a k ih => exact (ih h).pow k
  | pow a x ih =>
    have := (ih h.1).rpow_const (p := x) (.inl h.2.ne')
    refine this.congr_deriv ?_
    simp only [Expr.diff, Expr.evalR]
    rw [Real.rpow_sub_one h.2.ne', Real.rpow_neg_one]
    ring
  | exp a ih => exact (ih h).exp

/-- Derivatives may be taken in either order. -/
theorem diff_comm (e : Expr) (δ τ : ℝ) :
    ((e.diff .tau).diff .delta).evalR δ τ = ((e.diff .delta).diff .tau).evalR δ τ := by
  induction e with
  | num x => rfl
  | delta => rfl
  | tau => rfl
  | add a b iha ihb => simp only [Expr.diff, Expr.evalR, iha, ihb]
  | mul a b iha ihb => simp only [Expr.diff, Expr.evalR, iha, ihb]; ring
  | npow a k ih => simp only [Expr.diff, Expr.evalR, ih]; ring
  | pow a x ih => simp only [Expr.diff, Expr.evalR, ih]; ring
  | exp a ih => simp only [Expr.diff, Expr.evalR, ih]; ring

/-! ## The terms of the residual part -/

theorem good_terms {e : Expr} {δ τ : ℝ} (he : e ∈ terms) (hδ : 0 < δ) (hτ : 0 < τ) (h1 : δ ≠ 1) :
    e.Good δ τ := by
  have hoff : 0 < (δ + -1) ^ 2 := by
    have : δ + -1 ≠ 0 := by intro h; exact h1 (by linarith)
    positivity
  simp only [terms, List.mem_append, List.mem_map] at he
  rcases he with ((⟨k, -, rfl⟩ | ⟨k, -, rfl⟩) | ⟨k, -, rfl⟩) | ⟨k, hk, rfl⟩
  · exact ⟨⟨trivial, trivial, hδ⟩, trivial, hτ⟩
  · exact ⟨⟨⟨trivial, trivial, hδ⟩, trivial, hτ⟩, trivial, trivial, hδ⟩
  · exact ⟨⟨⟨trivial, trivial, hδ⟩, trivial, hτ⟩, ⟨trivial, trivial, trivial⟩, trivial, trivial, trivial⟩
  · have hB : 0 < k.B := by
      simp only [group4, List.mem_cons, List.not_mem_nil, or_false] at hk
      rcases hk with rfl | rfl | rfl <;> norm_num
    refine ⟨⟨⟨trivial, ⟨⟨⟨trivial, trivial, trivial⟩, trivial, ⟨trivial, trivial⟩, hoff⟩, trivial,
      ⟨trivial, trivial⟩, hoff⟩, ?_⟩, trivial⟩, ⟨trivial, trivial, trivial⟩, trivial, trivial, trivial⟩
    change 0 < (thetaExpr k).evalR δ τ ^ 2 + k.B * ((δ + -1) ^ 2) ^ k.a
    have := Real.rpow_pos_of_pos hoff k.a
    positivity

/-- The residual part and its derivatives over the reals. -/
noncomputable def resR (dd dt : ℕ) (δ τ : ℝ) : ℝ := (terms.map fun e => (e.diffs dd dt).evalR δ τ).sum

theorem foldl_fin (l : List ℝ) (x : ℝ) :
    (l.map Num.fin).foldl (· + ·) (Num.fin x) = Num.fin (x + l.sum) := by
  induction l generalizing x with
  | nil => simp
  | cons a l ih =>
    simp only [List.map_cons, List.foldl_cons, Num.fin_add, List.sum_cons, ih]
    congr 1; ring

theorem residualAt_fin (dd dt : ℕ) {δ τ : ℝ} (hδ : 0 < δ) (hτ : 0 < τ) (h1 : δ ≠ 1) :
    residualAt dd dt (Num.fin δ) (Num.fin τ) = Num.fin (resR dd dt δ τ) := by
  unfold residualAt resR
  have : (terms.map fun e => (e.diffs dd dt).eval (Num.fin δ) (Num.fin τ))
      = (terms.map fun e => (e.diffs dd dt).evalR δ τ).map Num.fin := by
    rw [List.map_map]
    apply List.map_congr_left
    intro e he
    exact eval_fin (good_diffs dd dt (good_terms he hδ hτ h1))
  rw [this, foldl_fin, zero_add]

theorem hasDerivAt_list_sum {α : Type} (l : List α) (f : α → ℝ → ℝ) (f' : α → ℝ) (x : ℝ)
    (h : ∀ a ∈ l, HasDerivAt (f a) (f' a) x) :
    HasDerivAt (fun y => (l.map fun a => f a y).sum) ((l.map f').sum) x := by
  induction l with
  | nil => exact hasDerivAt_const _ _
  | cons a l ih =>
    simp only [List.map_cons, List.sum_cons]
    exact (h a (by simp)).add (ih fun b hb => h b (by simp [hb]))

theorem resR_deriv_delta {dd dt : ℕ} (hk : dd + dt ≤ 1) {δ τ : ℝ} (hδ : 0 < δ) (hτ : 0 < τ) (h1 : δ ≠ 1) :
    HasDerivAt (fun x => resR dd dt x τ) (resR (dd + 1) dt δ τ) δ := by
  unfold resR
  refine hasDerivAt_list_sum terms (fun e x => (e.diffs dd dt).evalR x τ) _ δ fun e he => ?_
  have h := hasDerivAt_delta (good_diffs dd dt (good_terms he hδ hτ h1))
  refine h.congr_deriv ?_
  have : dt = 0 ∨ dt = 1 ∧ dd = 0 := by omega
  rcases this with rfl | ⟨rfl, rfl⟩
  · simp only [Expr.diffs, Function.iterate_zero, id, Function.iterate_succ_apply']
  · exact diff_comm e δ τ

theorem resR_deriv_tau (dd dt : ℕ) {δ τ : ℝ} (hδ : 0 < δ) (hτ : 0 < τ) (h1 : δ ≠ 1) :
    HasDerivAt (fun x => resR dd dt δ x) (resR dd (dt + 1) δ τ) τ := by
  unfold resR
  refine hasDerivAt_list_sum terms (fun e x => (e.diffs dd dt).evalR δ x) _ τ fun e he => ?_
  have h := hasDerivAt_tau (good_diffs dd dt (good_terms he hδ hτ h1))
  refine h.congr_deriv ?_
  simp only [Expr.diffs, Function.iterate_succ_apply']

theorem resR_zero (δ τ : ℝ) : resR 0 0 δ τ = phiResidual δ τ := by
  unfold resR phiResidual sumOver terms
  simp only [List.map_append, List.sum_append, List.map_map, Expr.diffs, Function.iterate_zero, id]
  congr 1
  · congr 1
    · congr 1
      congr 1
      apply List.map_congr_left
      intro k _
      simp only [Function.comp, s2, Expr.evalR]
      congr 2; ring
    · congr 1
      apply List.map_congr_left
      intro k _
      simp only [Function.comp, s3, Expr.evalR]
      congr 2; ring
  · congr 1
    apply List.map_congr_left
    intro k _
    simp only [Function.comp, s4, bigDeltaExpr, thetaExpr, bigPhiExpr, deltaOff, Expr.evalR]
    have e1 : δ + -1 = δ - 1 := by ring
    have e2 : (1 : ℝ) + -1 * τ = 1 - τ := by ring
    have e3 : τ + -1 = τ - 1 := by ring
    rw [e1, e2, e3]
    congr 2; ring

end OPE.CO2
