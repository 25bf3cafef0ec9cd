import Verif.Props.Subproblem
import Verif.Lemmas.EnoughMath
import Mathlib.Tactic.LinearCombination

/-!
# The number of iterations: steps of the main loop in exact arithmetic
-/

set_option linter.unusedSectionVars false

namespace LCQ
open Scalar Ext
open scoped Matrix

variable {K : Type} [Field K] [LinearOrder K] [IsStrictOrderedRing K] {n : Dims} {P : Prob K n}

/-! ## the merit function -/

/-- the function decreased by the steps made with penalty parameter `r` -/
def Prob.mer (P : Prob K n) (b : Bool) (r : K) (x : Fin n.nV → K) : K :=
  P.gT b r ⬝ᵥ x + x ⬝ᵥ ((P.Q + r • P.C) *ᵥ x) / 2

/-- the linear part without that of the complementarity term -/
def Prob.hT (P : Prob K n) (b : Bool) (r : K) : Fin n.nV → K := P.gT b r - r • P.gPhi

/-- shift that makes the merit function non-negative -/
def Prob.lam (P : Prob K n) (m : K) (b : Bool) (r : K) : K := (P.hT b r ⬝ᵥ P.hT b r) / m + r * (P.lbL ⬝ᵥ P.lbR)

theorem mer_ge {m r : K} (hm : 0 < m) (hr : 0 ≤ r) (hQ : ∀ v, m * (v ⬝ᵥ v) ≤ v ⬝ᵥ (P.Q *ᵥ v)) (b : Bool)
    {x : Fin n.nV → K} (hx : 0 ≤ P.phi x) : m / 4 * (x ⬝ᵥ x) ≤ P.mer b r x + P.lam m b r := by
  have h1 : P.mer b r x = P.hT b r ⬝ᵥ x + x ⬝ᵥ (P.Q *ᵥ x) / 2 + r * P.phi x - r * (P.lbL ⬝ᵥ P.lbR) := by
    simp only [Prob.mer, Prob.hT, P.phi_eq, Matrix.add_mulVec, Matrix.smul_mulVec, dotProduct_add, dotProduct_smul,
      sub_dotProduct, smul_dotProduct, smul_eq_mul]
    ring
  have h2 := lin_ge hm (P.hT b r) x
  have h3 := hQ x
  have h4 := mul_nonneg hr hx
  rw [h1, Prob.lam]
  linarith

theorem mer_le (r : K) (b : Bool) {x : Fin n.nV → K} {X : K} (hx : x ⬝ᵥ x ≤ X) :
    P.mer b r x ≤ (P.gT b r ⬝ᵥ P.gT b r + X) / 2 + asum (P.Q + r • P.C) * X / 2 := by
  have h1 := lin_le (P.gT b r) x
  have h2 := (quad_le (P.Q + r • P.C) x).trans (mul_le_mul_of_nonneg_left hx (asum_nonneg _))
  rw [Prob.mer]
  linarith

/-- the merit function along a line -/
theorem mer_line (hQ : P.Qᵀ = P.Q) (b : Bool) (r t : K) (x p : Fin n.nV → K) : P.mer b r (x + t • p) = P.mer b r x +
    (t * (p ⬝ᵥ ((P.Q + r • P.C) *ᵥ x + P.gT b r)) + t ^ 2 * (p ⬝ᵥ ((P.Q + r • P.C) *ᵥ p)) / 2) := by
  have hs : (P.Q + r • P.C)ᵀ = P.Q + r • P.C := by rw [Matrix.transpose_add, Matrix.transpose_smul, hQ, P.C_symm]
  have h1 : x ⬝ᵥ ((P.Q + r • P.C) *ᵥ p) = p ⬝ᵥ ((P.Q + r • P.C) *ᵥ x) := by
    rw [Matrix.dotProduct_mulVec, ← Matrix.mulVec_transpose, hs, dotProduct_comm]
  simp only [Prob.mer, dotProduct_add, add_dotProduct, Matrix.mulVec_add, Matrix.mulVec_smul, dotProduct_smul,
    smul_dotProduct, smul_eq_mul, h1, dotProduct_comm p (P.gT b r)]
  ring

/-- decrease along the step computed by the step length rule -/
theorem alphaOf_decrease {m B q l pp : K} (hm : 0 < m) (hB : m ≤ B) (hpp : 0 ≤ pp) (hl : l ≤ -(m * pp)) (hq : q ≤ B * pp) :
    alphaOf q l * l + alphaOf q l ^ 2 * q / 2 ≤ -(m ^ 2 / (2 * B) * pp) := by
  have hB0 : 0 < B := lt_of_lt_of_le hm hB
  have e0 : m ^ 2 / (2 * B) ≤ m / 2 := by
    rw [div_le_div_iff₀ (by linarith) (by norm_num)]
    nlinarith
  by_cases h1 : 0 < q
  · have hp : 0 < pp := by
      rcases hpp.lt_or_eq with h | h
      · exact h
      · rw [← h, mul_zero] at hq
        exact absurd h1 (not_lt.mpr hq)
    have h2 : l < 0 := by nlinarith [mul_pos hm hp]
    have t0 : 0 ≤ m / B := by positivity
    have t1 : m / B ≤ 1 := by rw [div_le_one hB0]; exact hB
    refine (alphaOf_min h1 h2 t0 t1).trans ?_
    have e1 : m / B * l ≤ m / B * (-(m * pp)) := mul_le_mul_of_nonneg_left hl t0
    have e2 : (m / B) ^ 2 * q ≤ (m / B) ^ 2 * (B * pp) := mul_le_mul_of_nonneg_left hq (sq_nonneg _)
    have e3 : m / B * (-(m * pp)) + (m / B) ^ 2 * (B * pp) / 2 = -(m ^ 2 / (2 * B) * pp) := by
      field_simp
      ring
    linarith
  · have ha : alphaOf q l = 1 := by rw [alphaOf, if_neg (fun h => h1 h.1)]
    rw [ha]
    have := not_lt.mp h1
    have e1 : m ^ 2 / (2 * B) * pp ≤ m / 2 * pp := mul_le_mul_of_nonneg_right e0 hpp
    have := mul_nonneg hm.le hpp
    linarith

/-! ## steps -/

/-- `p = v - x` is the step to the solution `v` of the subproblem at the feasible point `x`, `a` its length -/
structure IsStep (P : Prob K n) (lA uA : Fin n.nA → Ext K) (l u : Fin n.nV → Ext K) (b : Bool) (r : K)
    (x p : Fin n.nV → K) (a : K) (z : Fin n.nA → K) (w : Fin n.nV → K) : Prop where
  feas : Feasible P lA uA l u x
  kkt : (P.subQp lA uA l u (P.g + r • P.linPhi b x)).Kkt (x + p) z w
  len : a = alphaOf (p ⬝ᵥ ((P.Q + r • P.C) *ᵥ p)) (p ⬝ᵥ ((P.Q + r • P.C) *ᵥ x + P.gT b r))

variable {lA uA : Fin n.nA → Ext K} {l u : Fin n.nV → Ext K} {b : Bool} {r a m : K} {x p w : Fin n.nV → K} {z : Fin n.nA → K}

theorem IsStep.range (h : IsStep P lA uA l u b r x p a z w) : 0 < a ∧ a ≤ 1 := by
  rw [h.len]
  exact alphaOf_mem _ _

theorem IsStep.feas' (h : IsStep P lA uA l u b r x p a z w) : Feasible P lA uA l u (x + a • p) := by
  have h1 : Feasible P lA uA l u (x + p) := feas_any h.kkt.feas
  have := h.feas.comb h1 h.range.1.le h.range.2
  rwa [add_sub_cancel_left] at this

theorem IsStep.slope (h : IsStep P lA uA l u b r x p a z w) :
    p ⬝ᵥ ((P.Q + r • P.C) *ᵥ x + P.gT b r) ≤ -(p ⬝ᵥ (P.Q *ᵥ p)) := by
  have hvi := h.kkt.vi (y := x) ⟨h.feas.lA, h.feas.uA, h.feas.l, h.feas.u⟩
  have e : x - (x + p) = -p := by simp
  rw [e, dotProduct_neg, Qp.grad, Prob.subQp] at hvi
  dsimp only at hvi
  rw [← lin_eq, dotProduct_comm] at hvi
  simp only [Matrix.mulVec_add, dotProduct_add, Matrix.add_mulVec, Matrix.smul_mulVec] at hvi ⊢
  linarith

/-- decrease of the merit function -/
theorem IsStep.decrease (h : IsStep P lA uA l u b r x p a z w) (hQs : P.Qᵀ = P.Q) (hm : 0 < m)
    (hQ : ∀ v, m * (v ⬝ᵥ v) ≤ v ⬝ᵥ (P.Q *ᵥ v)) :
    P.mer b r (x + a • p) ≤ P.mer b r x - m ^ 2 / (2 * (asum (P.Q + r • P.C) + m)) * (p ⬝ᵥ p) := by
  rw [mer_line hQs, h.len]
  have h1 := h.slope
  have h2 := hQ p
  have h3 := quad_le (P.Q + r • P.C) p
  have h4 := asum_nonneg (P.Q + r • P.C)
  have h5 := mul_nonneg hm.le (dot_self_nonneg p)
  have := alphaOf_decrease (B := asum (P.Q + r • P.C) + m) (l := p ⬝ᵥ ((P.Q + r • P.C) *ᵥ x + P.gT b r))
    (q := p ⬝ᵥ ((P.Q + r • P.C) *ᵥ p)) hm (by linarith) (dot_self_nonneg p) (by linarith) (by rw [add_mul]; linarith)
  linarith

/-- the residual of the stationarity condition after the step -/
theorem IsStep.resid (h : IsStep P lA uA l u b r x p a z w) (i : Fin n.nV) :
    ((P.Q + r • P.C) *ᵥ (x + a • p) + P.gT b r - P.AAᵀ *ᵥ z - w) i =
      a * ((r • P.C) *ᵥ p) i - (1 - a) * (P.Q *ᵥ p) i := by
  have hs := congrFun h.kkt.stat i
  rw [Qp.grad, Prob.subQp] at hs
  dsimp only at hs
  rw [← lin_eq] at hs
  simp only [Matrix.mulVec_add, Matrix.mulVec_smul, Matrix.add_mulVec, Matrix.smul_mulVec, Pi.add_apply, Pi.sub_apply,
    Pi.smul_apply, smul_eq_mul] at hs ⊢
  linear_combination hs

/-- a large residual needs a long step -/
theorem IsStep.long (h : IsStep P lA uA l u b r x p a z w) {t : K} (ht : 0 ≤ t) {i : Fin n.nV}
    (hi : t ≤ |((P.Q + r • P.C) *ᵥ (x + a • p) + P.gT b r - P.AAᵀ *ᵥ z - w) i|) :
    t ^ 2 / (2 * (ssum P.Q + ssum (r • P.C)) + 1) ≤ p ⬝ᵥ p := by
  rw [h.resid] at hi
  have h1 := residual_sq_le P.Q (r • P.C) p h.range.1 h.range.2 i
  have h2 : t ^ 2 ≤ (a * ((r • P.C) *ᵥ p) i - (1 - a) * (P.Q *ᵥ p) i) ^ 2 := by
    rw [← sq_abs (a * _ - _)]
    exact pow_le_pow_left₀ ht hi 2
  have h3 := ssum_nonneg P.Q
  have h4 := ssum_nonneg (r • P.C)
  have h5 := dot_self_nonneg p
  rw [div_le_iff₀ (by linarith)]
  linarith

/-- decrease per pass without a penalty update -/
def Prob.eta (P : Prob K n) (m t r : K) : K :=
  m ^ 2 / (2 * (asum (P.Q + r • P.C) + m)) * (t ^ 2 / (2 * (ssum P.Q + ssum (r • P.C)) + 1))

theorem eta_pos {t : K} (hm : 0 < m) (ht : 0 < t) : 0 < P.eta m t r := by
  have h3 := ssum_nonneg P.Q
  have h4 := ssum_nonneg (r • P.C)
  have h5 := asum_nonneg (P.Q + r • P.C)
  unfold Prob.eta
  positivity

theorem IsStep.drop (h : IsStep P lA uA l u b r x p a z w) (hQs : P.Qᵀ = P.Q) (hm : 0 < m)
    (hQ : ∀ v, m * (v ⬝ᵥ v) ≤ v ⬝ᵥ (P.Q *ᵥ v)) {t : K} (ht : 0 ≤ t) {i : Fin n.nV}
    (hi : t ≤ |((P.Q + r • P.C) *ᵥ (x + a • p) + P.gT b r - P.AAᵀ *ᵥ z - w) i|) :
    P.mer b r (x + a • p) ≤ P.mer b r x - P.eta m t r := by
  have h1 := h.decrease hQs hm hQ
  have h5 := asum_nonneg (P.Q + r • P.C)
  have h2 := mul_le_mul_of_nonneg_left (h.long ht hi) (a := m ^ 2 / (2 * (asum (P.Q + r • P.C) + m))) (by positivity)
  rw [Prob.eta]
  linarith

theorem IsStep.mono (h : IsStep P lA uA l u b r x p a z w) (hQs : P.Qᵀ = P.Q) (hm : 0 < m)
    (hQ : ∀ v, m * (v ⬝ᵥ v) ≤ v ⬝ᵥ (P.Q *ᵥ v)) : P.mer b r (x + a • p) ≤ P.mer b r x := by
  have h1 := h.decrease hQs hm hQ
  have h5 := asum_nonneg (P.Q + r • P.C)
  have h2 := mul_nonneg (a := m ^ 2 / (2 * (asum (P.Q + r • P.C) + m))) (by positivity) (dot_self_nonneg p)
  linarith

/-! ## the sequence of iterates -/

/-- consecutive iterates with penalty parameters `r0 * f ^ k` and `r0 * f ^ k'`: without a penalty update the residual
after the step is at least `t` -/
def Move (P : Prob K n) (lA uA : Fin n.nA → Ext K) (l u : Fin n.nV → Ext K) (r0 f t : K) (kmax : Nat)
    (y y' : Nat × (Fin n.nV → K)) : Prop :=
  ∃ p a z w, IsStep P lA uA l u (decide (0 < y.1)) (r0 * f ^ y.1) y.2 p a z w ∧ y'.2 = y.2 + a • p ∧
    ((y'.1 = y.1 ∧ ∃ i, t ≤ |((P.Q + (r0 * f ^ y.1) • P.C) *ᵥ y'.2 + P.gT (decide (0 < y.1)) (r0 * f ^ y.1) - P.AAᵀ *ᵥ z - w) i|) ∨
      (y.1 < y'.1 ∧ y'.1 ≤ kmax))

theorem move_level {r0 f t : K} {kmax : Nat} (hQs : P.Qᵀ = P.Q) (hm : 0 < m)
    (hQ : ∀ v, m * (v ⬝ᵥ v) ≤ v ⬝ᵥ (P.Q *ᵥ v)) (ht : 0 < t) (hr : 0 < r0) (hf : 0 < f)
    (hphi : ∀ x, Feasible P lA uA l u x → 0 ≤ P.phi x) :
    Level (Move P lA uA l u r0 f t kmax)
      (fun k x => P.mer (decide (0 < k)) (r0 * f ^ k) x + P.lam m (decide (0 < k)) (r0 * f ^ k))
      (fun k => P.eta m t (r0 * f ^ k)) (fun x => x ⬝ᵥ x) kmax where
  step := by
    rintro k x k' x' ⟨p, a, z, w, hs, h0, h⟩
    dsimp only at hs h0 h
    subst h0
    rcases h with ⟨rfl, i, hi⟩ | ⟨h1, h2⟩
    · have := hs.drop hQs hm hQ ht.le hi
      refine Or.inl ⟨rfl, ?_⟩
      linarith
    · have := hs.mono hQs hm hQ
      refine Or.inr ⟨h1, h2, ?_⟩
      linarith
  pos := fun k => eta_pos hm ht
  nonneg := by
    rintro k x z' ⟨p, a, z, w, hs, rfl, _⟩
    have := mer_ge hm (mul_nonneg hr.le (pow_nonneg hf.le k)) hQ (decide (0 < k)) (hphi _ hs.feas')
    have h2 := mul_nonneg (a := m / 4) (by linarith) (dot_self_nonneg (z'.2 + a • p))
    exact h2.trans this
  size := by
    intro k V
    refine ⟨V / (m / 4), ?_⟩
    rintro k' x x' ⟨p, a, z, w, hs, rfl, _⟩ hV
    have := mer_ge hm (mul_nonneg hr.le (pow_nonneg hf.le k)) hQ (decide (0 < k)) (hphi _ hs.feas')
    rw [le_div_iff₀ (by linarith), mul_comm]
    exact this.trans hV
  value := by
    intro k X
    refine ⟨_, fun x hx => add_le_add (mer_le (r0 * f ^ k) (decide (0 < k)) hx) (le_refl _)⟩

end LCQ
