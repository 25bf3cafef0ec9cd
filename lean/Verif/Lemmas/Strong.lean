import Verif.Spec.Strong
import Verif.Props.Reference
import Verif.Props.Local

/-!
# S-stationary points and the first subproblem
-/

set_option linter.unusedSectionVars false

namespace LCQ
open Scalar Ext
open scoped Matrix

variable {K : Type} [Field K] [LinearOrder K] [IsStrictOrderedRing K] {n : Dims} {P : Prob K n}
  {lA uA : Fin n.nA → Ext K} {l u : Fin n.nV → Ext K} {x : Fin n.nV → K} {z : Fin n.nA → K} {w : Fin n.nV → K} {r : K}

/-- the rows of the constraint matrix of the subproblem -/
theorem row_cases (k : Fin n.nA) : (∃ (i : Fin n.nC) (h : i.1 < n.nA), k = ⟨i, h⟩) ∨
    (∃ (i : Fin n.nComp) (h : n.nC + i.1 < n.nA), k = ⟨n.nC + i, h⟩) ∨
    ∃ (i : Fin n.nComp) (h : n.nC + n.nComp + i.1 < n.nA), k = ⟨n.nC + n.nComp + i, h⟩ := by
  have hk : k.1 < n.nC + 2 * n.nComp := k.2
  by_cases h1 : k.1 < n.nC
  · exact Or.inl ⟨⟨k, h1⟩, k.2, rfl⟩
  by_cases h2 : k.1 < n.nC + n.nComp
  · refine Or.inr (Or.inl ⟨⟨k.1 - n.nC, by omega⟩, ?_, Fin.ext ?_⟩)
    · have := k.2
      dsimp only
      omega
    · dsimp only
      omega
  · refine Or.inr (Or.inr ⟨⟨k.1 - n.nC - n.nComp, by omega⟩, ?_, Fin.ext ?_⟩)
    · have := k.2
      dsimp only
      omega
    · dsimp only
      omega

/-- multipliers of the subproblem with linearised penalty term -/
def penZ (P : Prob K n) (r : K) (x : Fin n.nV → K) (z : Fin n.nA → K) : Fin n.nA → K := fun k =>
  if h : k.1 < n.nC then z k
  else if h' : k.1 < n.nC + n.nComp then z k + r * (P.R *ᵥ x - P.lbR) ⟨k.1 - n.nC, by omega⟩
  else z k + r * (P.L *ᵥ x - P.lbL) ⟨k.1 - n.nC - n.nComp, by have : k.1 < n.nC + 2 * n.nComp := k.2; omega⟩

theorem penZ_A (i : Fin n.nC) : yA (penZ P r x z) i = yA z i := by
  simp only [yA, penZ]
  rw [dif_pos i.2]

theorem penZ_L (i : Fin n.nComp) : yL (penZ P r x z) i = yL z i + r * (P.R *ᵥ x - P.lbR) i := by
  have := i.2
  simp only [yL, penZ]
  rw [dif_neg (by omega), dif_pos (by omega)]
  simp only [Nat.add_sub_cancel_left]

theorem penZ_R (i : Fin n.nComp) : yR (penZ P r x z) i = yR z i + r * (P.L *ᵥ x - P.lbL) i := by
  have := i.2
  simp only [yR, penZ]
  rw [dif_neg (by omega), dif_neg (by omega)]
  have : n.nC + n.nComp + i.1 - n.nC - n.nComp = i.1 := by omega
  simp only [this]

theorem penZ_t : P.AAᵀ *ᵥ penZ P r x z = P.AAᵀ *ᵥ z + r • P.gradPhi x := by
  rw [stack_tmul, stack_tmul, Prob.gradPhi]
  have h1 : yA (penZ P r x z) = yA z := funext penZ_A
  have h2 : yL (penZ P r x z) = yL z + r • (P.R *ᵥ x - P.lbR) := funext penZ_L
  have h3 : yR (penZ P r x z) = yR z + r • (P.L *ᵥ x - P.lbL) := funext penZ_R
  rw [h1, h2, h3, Matrix.mulVec_add, Matrix.mulVec_add, Matrix.mulVec_smul, Matrix.mulVec_smul, smul_add]
  abel

/-- undoing the change of the multipliers -/
theorem penZ_inv : penZ P r x (penZ P (-r) x z) = z := by
  funext k
  simp only [penZ]
  by_cases h : k.1 < n.nC
  · simp only [dif_pos h]
  by_cases h' : k.1 < n.nC + n.nComp
  · simp only [dif_neg h, dif_pos h']
    ring
  · simp only [dif_neg h, dif_neg h']
    ring

/-- an S-stationary point solves the subproblem with penalty term linearised at the point, if the penalty parameter is
large enough -/
theorem Prob.Strong.kkt (h : P.Strong lA uA l u x z w) (hs : P.Sides lA uA) (hx : Feasible P lA uA l u x)
    (hc : ∀ i, (P.L *ᵥ x - P.lbL) i = 0 ∨ (P.R *ᵥ x - P.lbR) i = 0) (hg : P.gPhi = 0) (hr : P.Outweighs r x z) :
    (P.subQp lA uA l u (r • (P.C *ᵥ x) + P.g)).Kkt x (penZ P r x z) w := by
  have hphi : P.C *ᵥ x = P.gradPhi x := by rw [P.gradPhi_eq, hg, add_zero]
  have hL : ∀ i : Fin n.nComp, (P.L *ᵥ x - P.lbL) i ≠ 0 → yL (penZ P r x z) i = 0 := by
    intro i hi
    rw [penZ_L, (hc i).resolve_left hi, mul_zero, add_zero]
    by_contra h0
    exact hi (h.left i h0)
  have hR : ∀ i : Fin n.nComp, (P.R *ᵥ x - P.lbR) i ≠ 0 → yR (penZ P r x z) i = 0 := by
    intro i hi
    rw [penZ_R, (hc i).resolve_right hi, mul_zero, add_zero]
    by_contra h0
    exact hi (h.right i h0)
  have nL : ∀ i : Fin n.nComp, 0 ≤ yL (penZ P r x z) i := fun i => by
    rw [penZ_L]
    linarith [(hr i).1]
  have nR : ∀ i : Fin n.nComp, 0 ≤ yR (penZ P r x z) i := fun i => by
    rw [penZ_R]
    linarith [(hr i).2]
  refine ⟨⟨hx.lA, hx.uA, hx.l, hx.u⟩, ?_, fun k hk => ?_, fun k hk => ?_, h.wpos, h.wneg⟩
  · change P.Q *ᵥ x + (r • (P.C *ᵥ x) + P.g) = P.AAᵀ *ᵥ _ + w
    have := h.stat
    rw [← stack_tmul, Prob.gradObj] at this
    rw [penZ_t, hphi, add_left_comm, this]
    abel
  · change lA k = fin ((P.AA *ᵥ x) k)
    rcases row_cases k with ⟨i, hi, rfl⟩ | ⟨i, hi, rfl⟩ | ⟨i, hi, rfl⟩
    · rw [AA_A x i.2 hi]
      exact h.apos i (by rw [← penZ_A (P := P) (r := r) (x := x)]; exact hk) hi
    · rw [AA_L x i.2 hi, hs.lL]
      by_contra h0
      refine hk.ne' (hL i fun h1 => h0 ?_)
      rw [Pi.sub_apply, sub_eq_zero] at h1
      rw [← h1]
    · rw [AA_R x i.2 hi, hs.lR]
      by_contra h0
      refine hk.ne' (hR i fun h1 => h0 ?_)
      rw [Pi.sub_apply, sub_eq_zero] at h1
      rw [← h1]
  · change uA k = fin ((P.AA *ᵥ x) k)
    rcases row_cases k with ⟨i, hi, rfl⟩ | ⟨i, hi, rfl⟩ | ⟨i, hi, rfl⟩
    · rw [AA_A x i.2 hi]
      exact h.aneg i (by rw [← penZ_A (P := P) (r := r) (x := x)]; exact hk) hi
    · exact absurd hk (not_lt.mpr (nL i))
    · exact absurd hk (not_lt.mpr (nR i))

/-- a complementary point that solves the subproblem with penalty term linearised at the point is S-stationary -/
theorem Qp.Kkt.strong (h : (P.subQp lA uA l u (r • (P.C *ᵥ x) + P.g)).Kkt x z w) (hs : P.Sides lA uA)
    (hc : ∀ i, (P.L *ᵥ x - P.lbL) i = 0 ∨ (P.R *ᵥ x - P.lbR) i = 0) (hg : P.gPhi = 0) :
    P.Strong lA uA l u x (penZ P (-r) x z) w ∧ P.Outweighs r x (penZ P (-r) x z) := by
  have hphi : P.C *ᵥ x = P.gradPhi x := by rw [P.gradPhi_eq, hg, add_zero]
  have hL : ∀ i : Fin n.nComp, 0 ≤ yL z i ∧ ((P.L *ᵥ x - P.lbL) i ≠ 0 → yL z i = 0) := by
    intro i
    have hi : n.nC + i.1 < n.nA := by have := i.2; simp only [Dims.nA]; omega
    have h1 : 0 ≤ yL z i := by
      by_contra h0
      have := h.zneg ⟨n.nC + i, hi⟩ (not_le.mp h0)
      rw [show (P.subQp lA uA l u (r • (P.C *ᵥ x) + P.g)).uA ⟨n.nC + i, hi⟩ = pinf from hs.uL i hi] at this
      cases this
    refine ⟨h1, fun h2 => ?_⟩
    by_contra h0
    have := h.zpos ⟨n.nC + i, hi⟩ (lt_of_le_of_ne h1 (Ne.symm h0))
    rw [show (P.subQp lA uA l u (r • (P.C *ᵥ x) + P.g)).lA ⟨n.nC + i, hi⟩ = fin (P.lbL i) from hs.lL i hi] at this
    injection this with this
    rw [show ((P.subQp lA uA l u (r • (P.C *ᵥ x) + P.g)).A *ᵥ x) ⟨n.nC + i, hi⟩ = (P.L *ᵥ x) i from AA_L x i.2 hi] at this
    exact h2 (by rw [Pi.sub_apply, this, sub_self])
  have hR : ∀ i : Fin n.nComp, 0 ≤ yR z i ∧ ((P.R *ᵥ x - P.lbR) i ≠ 0 → yR z i = 0) := by
    intro i
    have hi : n.nC + n.nComp + i.1 < n.nA := by have := i.2; simp only [Dims.nA]; omega
    have h1 : 0 ≤ yR z i := by
      by_contra h0
      have := h.zneg ⟨n.nC + n.nComp + i, hi⟩ (not_le.mp h0)
      rw [show (P.subQp lA uA l u (r • (P.C *ᵥ x) + P.g)).uA ⟨n.nC + n.nComp + i, hi⟩ = pinf from hs.uR i hi] at this
      cases this
    refine ⟨h1, fun h2 => ?_⟩
    by_contra h0
    have := h.zpos ⟨n.nC + n.nComp + i, hi⟩ (lt_of_le_of_ne h1 (Ne.symm h0))
    rw [show (P.subQp lA uA l u (r • (P.C *ᵥ x) + P.g)).lA ⟨n.nC + n.nComp + i, hi⟩ = fin (P.lbR i) from hs.lR i hi] at this
    injection this with this
    rw [show ((P.subQp lA uA l u (r • (P.C *ᵥ x) + P.g)).A *ᵥ x) ⟨n.nC + n.nComp + i, hi⟩ = (P.R *ᵥ x) i from AA_R x i.2 hi] at this
    exact h2 (by rw [Pi.sub_apply, this, sub_self])
  refine ⟨⟨?_, fun i hi h' => ?_, fun i hi h' => ?_, h.wpos, h.wneg, fun i hi => ?_, fun i hi => ?_, fun i h1 h2 => ?_⟩, fun i => ?_⟩
  · rw [← stack_tmul, penZ_t, ← hphi]
    have := h.stat
    change P.Q *ᵥ x + (r • (P.C *ᵥ x) + P.g) = P.AAᵀ *ᵥ z + w at this
    rw [Prob.gradObj, neg_smul]
    have h2 : P.AAᵀ *ᵥ z + w - r • (P.C *ᵥ x) = P.Q *ᵥ x + P.g := by rw [← this]; abel
    rw [← h2]
    abel
  · rw [penZ_A] at hi
    have := h.zpos ⟨i, h'⟩ hi
    exact this.trans (congrArg fin (AA_A x i.2 h'))
  · rw [penZ_A] at hi
    have := h.zneg ⟨i, h'⟩ hi
    exact this.trans (congrArg fin (AA_A x i.2 h'))
  · by_contra h0
    refine hi ?_
    rw [penZ_L, (hL i).2 h0, (hc i).resolve_left h0, mul_zero, add_zero]
  · by_contra h0
    refine hi ?_
    rw [penZ_R, (hR i).2 h0, (hc i).resolve_right h0, mul_zero, add_zero]
  · rw [penZ_L, penZ_R, h1, h2, mul_zero, add_zero, add_zero]
    exact ⟨(hL i).1, (hR i).1⟩
  · rw [penZ_L, penZ_R]
    constructor
    · linarith [(hL i).1]
    · linarith [(hR i).1]

/-- large penalty parameters outweigh the multipliers of S-stationary points -/
theorem Prob.Strong.outweighs (h : P.Strong lA uA l u x z w) (hx : ∀ i, 0 ≤ (P.L *ᵥ x - P.lbL) i ∧ 0 ≤ (P.R *ᵥ x - P.lbR) i) :
    ∃ r0, ∀ r, r0 ≤ r → P.Outweighs r x z := by
  have key : ∀ y s r : K, 0 ≤ s → (s = 0 → 0 ≤ y) → |y| / s ≤ r → -y ≤ r * s := by
    intro y s r hs h0 hr
    rcases hs.eq_or_lt with hs | hs
    · rw [← hs, mul_zero]
      linarith [h0 hs.symm]
    · rw [div_le_iff₀ hs] at hr
      exact (neg_le_abs y).trans hr
  have nn : ∀ i : Fin n.nComp, 0 ≤ |yL z i| / (P.R *ᵥ x - P.lbR) i + |yR z i| / (P.L *ᵥ x - P.lbL) i := fun i =>
    add_nonneg (div_nonneg (abs_nonneg _) (hx i).2) (div_nonneg (abs_nonneg _) (hx i).1)
  refine ⟨∑ i, (|yL z i| / (P.R *ᵥ x - P.lbR) i + |yR z i| / (P.L *ᵥ x - P.lbL) i), fun r hr i => ?_⟩
  have hi := (Finset.single_le_sum (f := fun i => |yL z i| / (P.R *ᵥ x - P.lbR) i + |yR z i| / (P.L *ᵥ x - P.lbL) i)
    (fun i _ => nn i) (Finset.mem_univ i)).trans hr
  have a1 : 0 ≤ |yL z i| / (P.R *ᵥ x - P.lbR) i := div_nonneg (abs_nonneg _) (hx i).2
  have a2 : 0 ≤ |yR z i| / (P.L *ᵥ x - P.lbL) i := div_nonneg (abs_nonneg _) (hx i).1
  constructor
  · refine key _ _ _ (hx i).2 (fun h0 => ?_) (by linarith)
    by_cases h1 : (P.L *ᵥ x - P.lbL) i = 0
    · exact (h.both i h1 h0).1
    · by_contra h2
      exact h1 (h.left i (fun h3 => h2 h3.ge))
  · refine key _ _ _ (hx i).1 (fun h0 => ?_) (by linarith)
    by_cases h1 : (P.R *ᵥ x - P.lbR) i = 0
    · exact (h.both i h0 h1).2
    · by_contra h2
      exact h1 (h.right i (fun h3 => h2 h3.ge))

end LCQ
