import Verif.Lemmas.WarmUpMath
import Verif.Lemmas.ExactRun

/-!
# Helper lemmas for C77: one step of the warm-up problem with a small penalty parameter
-/

namespace LCQ.WarmUp

variable {K : Type} [Field K] [LinearOrder K] [IsStrictOrderedRing K]

/-- no constraint is active while the penalty parameter is small -/
theorem Sub2.free {r W0 W1 V0 V1 y0 y1 : K} (h : Sub2 r 0 W0 W1 V0 V1 y0 y1) (r0 : 0 ≤ r) (hr : r ≤ 64 / 100) (w0 : W0 ≤ 11 / 10)
    (w1 : W1 ≤ 11 / 10) : y0 = 0 ∧ y1 = 0 := by
  obtain ⟨f0, f1, n0, n1, c0, c1, s0, s1⟩ := h
  have up : ∀ X : K, X ≤ 11 / 10 → r * X ≤ 64 / 100 * (11 / 10) := by
    intro X hX
    nlinarith
  have u0 := up _ w0
  have u1 := up _ w1
  constructor
  · rcases c0 with c0 | c0
    · exact c0
    · rw [c0] at s0
      linarith
  · rcases c1 with c1 | c1
    · exact c1
    · rw [c1] at s1
      linarith

/-- the step length is not small -/
theorem step_long {r P0 P1 D0 D1 : K} (r0 : 0 ≤ r) (hr : r ≤ 64 / 100) (d0 : |D0| ≤ 2221 / 10 ^ 19) (d1 : |D1| ≤ 2221 / 10 ^ 19)
    (hP : 1110 / 10 ^ 13 ≤ |P0| ∨ 1110 / 10 ^ 13 ≤ |P1|) :
    3 / 4 ≤ alphaOf (2 * P0 ^ 2 + 2 * P1 ^ 2 + 2 * r * (P0 * P1)) (P0 * (-2 * P0 + 2 * D0 + r * D1) + P1 * (-2 * P1 + 2 * D1 + r * D0)) := by
  have p0 := abs_nonneg P0
  have p1 := abs_nonneg P1
  have q0 := sq_abs P0
  have q1 := sq_abs P1
  have hN : 0 < P0 ^ 2 + P1 ^ 2 := by
    rcases hP with h | h
    · have : 0 < |P0| := lt_of_lt_of_le (by positivity) h
      nlinarith [sq_nonneg P1]
    · have : 0 < |P1| := lt_of_lt_of_le (by positivity) h
      nlinarith [sq_nonneg P0]
  have hE : ∀ A B : K, |A| ≤ 2221 / 10 ^ 19 → |B| ≤ 2221 / 10 ^ 19 → |2 * A + r * B| ≤ 6 / 10 ^ 16 := by
    intro A B hA hB
    rw [abs_le] at hA hB ⊢
    constructor <;> nlinarith
  have e0 := hE D0 D1 d0 d1
  have e1 := hE D1 D0 d1 d0
  have m0 : P0 * (2 * D0 + r * D1) ≤ |P0| * (6 / 10 ^ 16) := by
    refine (le_abs_self _).trans ?_
    rw [abs_mul]
    exact mul_le_mul_of_nonneg_left e0 p0
  have m1 : P1 * (2 * D1 + r * D0) ≤ |P1| * (6 / 10 ^ 16) := by
    refine (le_abs_self _).trans ?_
    rw [abs_mul]
    exact mul_le_mul_of_nonneg_left e1 p1
  have hs : |P0| * (6 / 10 ^ 16) + |P1| * (6 / 10 ^ 16) ≤ 1 / 100 * (P0 ^ 2 + P1 ^ 2) := by
    rw [← q0, ← q1]
    rcases hP with h | h <;> nlinarith [sq_nonneg (|P0| - |P1|)]
  have hq : P0 * P1 ≤ 1 / 2 * (P0 ^ 2 + P1 ^ 2) := by nlinarith [sq_nonneg (P0 - P1)]
  have hq' : -(1 / 2 * (P0 ^ 2 + P1 ^ 2)) ≤ P0 * P1 := by nlinarith [sq_nonneg (P0 + P1)]
  have rq : r * (P0 * P1) ≤ r * (1 / 2 * (P0 ^ 2 + P1 ^ 2)) := mul_le_mul_of_nonneg_left hq r0
  have rq' : r * -(1 / 2 * (P0 ^ 2 + P1 ^ 2)) ≤ r * (P0 * P1) := mul_le_mul_of_nonneg_left hq' r0
  have rN : r * (P0 ^ 2 + P1 ^ 2) ≤ 64 / 100 * (P0 ^ 2 + P1 ^ 2) := mul_le_mul_of_nonneg_right hr hN.le
  unfold alphaOf
  split
  · rename_i h
    refine le_min ?_ (by norm_num)
    rw [le_div_iff₀ h.1]
    nlinarith
  · norm_num

/-- a step without penalty update halves the two parts of the gradient -/
theorem halve {r W0 W1 V0 V1 D0 D1 a B : K} (h : Sub2 r 0 W0 W1 V0 V1 0 0) (r0 : 0 ≤ r) (hr : r ≤ 64 / 100)
    (d0 : |D0| ≤ 2221 / 10 ^ 19) (d1 : |D1| ≤ 2221 / 10 ^ 19)
    (ha : a = alphaOf (2 * (V0 - W0) ^ 2 + 2 * (V1 - W1) ^ 2 + 2 * r * ((V0 - W0) * (V1 - W1)))
      ((V0 - W0) * (2 * (W0 + D0) - 2 + r * (W1 + D1)) + (V1 - W1) * (2 * (W1 + D1) - 2 + r * (W0 + D0))))
    (a1 : a ≤ 1) (hg : 2221 / 10 ^ 13 ≤ |2 * W0 - 2 + r * W1| ∨ 2221 / 10 ^ 13 ≤ |2 * W1 - 2 + r * W0|)
    (hS : |(2 + r) * (W0 + W1) - 4| ≤ B) (hD : |(2 - r) * (W0 - W1)| ≤ B) :
    |(2 + r) * (W0 + D0 + a * (V0 - W0) + (W1 + D1 + a * (V1 - W1))) - 4| ≤ B / 2 ∧
    |(2 - r) * (W0 + D0 + a * (V0 - W0) - (W1 + D1 + a * (V1 - W1)))| ≤ B / 2 := by
  obtain ⟨_, _, _, _, _, _, s0, s1⟩ := h
  have g0 : 2 * W0 - 2 + r * W1 = -2 * (V0 - W0) := by linarith
  have g1 : 2 * W1 - 2 + r * W0 = -2 * (V1 - W1) := by linarith
  have eS : (2 + r) * (W0 + W1) - 4 = -2 * (V0 - W0 + (V1 - W1)) := by linarith
  have eD : (2 - r) * (W0 - W1) = -2 * (V0 - W0 - (V1 - W1)) := by linarith
  generalize hP0 : V0 - W0 = P0 at *
  generalize hP1 : V1 - W1 = P1 at *
  have hP : 1110 / 10 ^ 13 ≤ |P0| ∨ 1110 / 10 ^ 13 ≤ |P1| := by
    rw [g0, g1, abs_mul, abs_mul, abs_neg, abs_two] at hg
    rcases hg with h | h
    · left; linarith
    · right; linarith
  have hl : P0 * (2 * (W0 + D0) - 2 + r * (W1 + D1)) + P1 * (2 * (W1 + D1) - 2 + r * (W0 + D0)) =
      P0 * (-2 * P0 + 2 * D0 + r * D1) + P1 * (-2 * P1 + 2 * D1 + r * D0) := by
    have k0 : 2 * (W0 + D0) - 2 + r * (W1 + D1) = -2 * P0 + 2 * D0 + r * D1 := by linarith
    have k1 : 2 * (W1 + D1) - 2 + r * (W0 + D0) = -2 * P1 + 2 * D1 + r * D0 := by linarith
    rw [k0, k1]
  rw [hl] at ha
  have a0 : 3 / 4 ≤ a := by
    rw [ha]
    exact step_long r0 hr d0 d1 hP
  have hB : 2221 / 10 ^ 13 ≤ B := by
    have e0 : 2 * W0 - 2 + r * W1 = ((2 + r) * (W0 + W1) - 4 + (2 - r) * (W0 - W1)) / 2 := by ring
    have e1 : 2 * W1 - 2 + r * W0 = ((2 + r) * (W0 + W1) - 4 - (2 - r) * (W0 - W1)) / 2 := by ring
    rcases hg with h | h
    · refine h.trans ?_
      rw [e0]
      rw [abs_le] at hS hD ⊢
      constructor <;> linarith
    · refine h.trans ?_
      rw [e1]
      rw [abs_le] at hS hD ⊢
      constructor <;> linarith
  have nS : (2 + r) * (W0 + D0 + a * P0 + (W1 + D1 + a * P1)) - 4 =
      ((2 + r) * (W0 + W1) - 4) * (1 - a * (1 + r / 2)) + (2 + r) * (D0 + D1) := by
    linear_combination (a * (1 + r / 2)) * eS
  have nD : (2 - r) * (W0 + D0 + a * P0 - (W1 + D1 + a * P1)) =
      ((2 - r) * (W0 - W1)) * (1 - a * (1 - r / 2)) + (2 - r) * (D0 - D1) := by
    linear_combination (a * (1 - r / 2)) * eD
  have ar : a * r ≤ 1 * (64 / 100) := mul_le_mul a1 hr r0 (by norm_num)
  have ar0 : 0 ≤ a * r := mul_nonneg (by linarith) r0
  have ar1 : a * r ≤ a * (64 / 100) := mul_le_mul_of_nonneg_left hr (by linarith)
  have cS : |1 - a * (1 + r / 2)| ≤ 49 / 100 := by
    rw [abs_le]
    constructor <;> linarith
  have cD : |1 - a * (1 - r / 2)| ≤ 49 / 100 := by
    rw [abs_le]
    constructor <;> linarith
  have B0 : 0 ≤ B := (abs_nonneg _).trans hS
  have dd : ∀ t : K, 0 ≤ t → t ≤ 264 / 100 → ∀ E : K, |E| ≤ 2 * (2221 / 10 ^ 19) → |t * E| ≤ 1 / 100 * B := by
    intro t t0 t1 E hE
    rw [abs_mul, abs_of_nonneg t0]
    have := mul_le_mul t1 hE (abs_nonneg _) (by norm_num)
    linarith
  rw [abs_le] at d0 d1
  constructor
  · rw [nS]
    refine (abs_add_le _ _).trans ?_
    rw [abs_mul]
    have m := mul_le_mul hS cS (abs_nonneg _) B0
    have := dd (2 + r) (by linarith) (by linarith) (D0 + D1) (by rw [abs_le]; constructor <;> linarith)
    linarith
  · rw [nD]
    refine (abs_add_le _ _).trans ?_
    rw [abs_mul]
    have m := mul_le_mul hD cD (abs_nonneg _) B0
    have := dd (2 - r) (by linarith) (by linarith) (D0 - D1) (by rw [abs_le]; constructor <;> linarith)
    linarith

end LCQ.WarmUp
