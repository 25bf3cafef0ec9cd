import Mathlib.Tactic.Linarith
import Mathlib.Tactic.Positivity
import Mathlib.Tactic.LinearCombination
import Mathlib.Tactic.Ring
import Mathlib.Algebra.Order.Field.Basic
import Verif.Spec.WarmUp

/-!
# Helper lemmas for C77: inequalities in two variables

Points that pass the stationarity test and the complementarity test of the solver for the warm-up problem.  Variables are
shifted so that the constraints are `0 ≤ Z0 ⟂ Z1 ≥ 0` and the objective is `(Z0 - 1)² + (Z1 - 1)²`.
-/

namespace LCQ.WarmUp

variable {K : Type} [Field K] [LinearOrder K] [IsStrictOrderedRing K]

/-- the subproblem solved last: its data are the penalty parameter `r` and the point `W`; its solution is `V`, with the
multipliers `y` -/
structure Sub2 (r σ W0 W1 V0 V1 y0 y1 : K) : Prop where
  f0 : 0 ≤ V0
  f1 : 0 ≤ V1
  n0 : 0 ≤ y0
  n1 : 0 ≤ y1
  c0 : y0 = 0 ∨ V0 = 0
  c1 : y1 = 0 ∨ V1 = 0
  s0 : 2 * V0 - 2 + r * W1 + σ = y0
  s1 : 2 * V1 - 2 + r * W0 + σ = y1

omit [IsStrictOrderedRing K] in
theorem Near2.swap {r Z0 Z1 : K} (h : Near2 r Z0 Z1) : Near2 r Z1 Z0 := by
  rcases h with ⟨h1, h2⟩ | ⟨h1, h2⟩ | ⟨h1, h2, h3⟩
  · exact Or.inr (Or.inl ⟨h2, h1⟩)
  · exact Or.inl ⟨h2, h1⟩
  · exact Or.inr (Or.inr ⟨h2, h1, h3⟩)

/-- both multipliers vanish -/
theorem near_inner {r Z0 Z1 : K} (hr : 256 / 100 ≤ r) (e0 : |2 * Z0 - 2 + r * Z1| < 2221 / 10 ^ 13)
    (e1 : |2 * Z1 - 2 + r * Z0| < 2221 / 10 ^ 13) (hp : Z0 * Z1 < 2221 / 10 ^ 16) : Near2 r Z0 Z1 := by
  rw [abs_lt] at e0 e1
  -- difference
  have d1 : |Z0 - Z1| ≤ 1 / 10 ^ 8 := by
    rw [abs_le]
    constructor
    · by_contra h
      have := mul_le_mul_of_nonneg_left (not_le.mp h).le (show 0 ≤ r - 2 by linarith)
      have h3 := mul_le_mul_of_nonneg_right hr (show (0 : K) ≤ 1 / 10 ^ 8 by positivity)
      nlinarith
    · by_contra h
      have := mul_le_mul_of_nonneg_left (not_le.mp h).le (show 0 ≤ r - 2 by linarith)
      have h3 := mul_le_mul_of_nonneg_right hr (show (0 : K) ≤ 1 / 10 ^ 8 by positivity)
      nlinarith
  have d2 := abs_le.mp d1
  have hs : 39 / 10 ≤ (2 + r) * (Z0 + Z1) := by linarith
  have s0 : 0 < Z0 + Z1 := by
    by_contra h
    have := mul_nonneg (show (0 : K) ≤ 2 + r by linarith) (sub_nonneg.mpr (not_lt.mp h))
    linarith
  have s1 : Z0 + Z1 ≤ 1 / 10 ^ 6 := by
    by_contra h
    have h := (not_le.mp h).le
    have h1 : (1 / 10 ^ 6) ^ 2 ≤ (Z0 + Z1) ^ 2 := pow_le_pow_left₀ (by positivity) h 2
    have h2 : (Z0 - Z1) ^ 2 ≤ (1 / 10 ^ 8) ^ 2 := sq_le_sq' d2.1 d2.2
    nlinarith
  refine Or.inr (Or.inr ⟨?_, ?_, ?_⟩)
  · rw [abs_le]; constructor <;> linarith
  · rw [abs_le]; constructor <;> linarith
  · by_contra h
    have h := (not_le.mp h).le
    have := mul_le_mul_of_nonneg_left s1 (show 0 ≤ 2 + r by linarith)
    linarith

/-- the first multiplier vanishes -/
theorem near_edge {r Z0 Z1 : K} (hr : 256 / 100 ≤ r) (hR : r ≤ 10 ^ 8) (z0 : -(2221 / 10 ^ 16) ≤ Z0) (z1 : -(2221 / 10 ^ 16) ≤ Z1)
    (e0 : |2 * Z0 - 2 + r * Z1| < 2221 / 10 ^ 13) (e1 : -(2221 / 10 ^ 13) < 2 * Z1 - 2 + r * Z0) (hp : Z0 * Z1 < 2221 / 10 ^ 16) :
    Near2 r Z0 Z1 := by
  rw [abs_lt] at e0
  have r0 : 0 < r := by linarith
  have hrp : r * (Z0 * Z1) < r * (2221 / 10 ^ 16) := mul_lt_mul_of_pos_left hp r0
  have hrt : r * (2221 / 10 ^ 16) ≤ 10 ^ 8 * (2221 / 10 ^ 16) := mul_le_mul_of_nonneg_right hR (by positivity)
  have hrz1 : r * -(2221 / 10 ^ 16) ≤ r * Z1 := mul_le_mul_of_nonneg_left z1 r0.le
  rcases le_or_gt (1 / 2) Z0 with h | h
  · left
    have z0p : 0 < Z0 := by linarith
    have k1 : r * Z1 < 5 / 10 ^ 5 := by
      by_contra hn
      have := mul_le_mul h (not_lt.mp hn) (by positivity) z0p.le
      have e : Z0 * (r * Z1) = r * (Z0 * Z1) := by ring
      rw [e] at this
      linarith
    have k2 : Z1 ≤ 1 / 10 ^ 6 := by
      by_contra hn
      have := mul_le_mul h (not_le.mp hn).le (by positivity) z0p.le
      linarith
    refine ⟨?_, ?_⟩
    · rw [abs_le]; constructor <;> linarith
    · rw [abs_le]; constructor <;> linarith
  · right; right
    have k1 : 9 / 10 < r * Z1 := by linarith
    have z1p : 0 < Z1 := by
      by_contra hn
      have := mul_nonneg r0.le (sub_nonneg.mpr (not_lt.mp hn))
      linarith
    have k2 : Z1 ≤ 8 / 10 := by
      by_contra hn
      have := mul_le_mul hr (not_le.mp hn).le (by positivity) r0.le
      linarith
    have k3 : 3 / 10 < r * Z0 := by linarith
    have z0p : 0 < Z0 := by
      by_contra hn
      have := mul_nonneg r0.le (sub_nonneg.mpr (not_lt.mp hn))
      linarith
    have k4 : Z0 ≤ 3 / 10 ^ 5 := by
      by_contra hn
      have := mul_le_mul (not_le.mp hn).le k1.le (by positivity) z0p.le
      have e : Z0 * (r * Z1) = r * (Z0 * Z1) := by ring
      rw [e] at this
      linarith
    have k5 : 10 ^ 6 ≤ r := by
      by_contra hn
      have hn := (not_le.mp hn).le
      have h1 := mul_le_mul k3.le k1.le (by positivity) (by linarith : 0 ≤ r * Z0)
      have h2 : r * Z0 * (r * Z1) = r * (r * (Z0 * Z1)) := by ring
      have h3 : r * (r * (Z0 * Z1)) ≤ r * (r * (2221 / 10 ^ 16)) := mul_le_mul_of_nonneg_left hrp.le r0.le
      have h4 : r * (r * (2221 / 10 ^ 16)) ≤ 10 ^ 6 * (10 ^ 6 * (2221 / 10 ^ 16)) :=
        mul_le_mul hn (mul_le_mul_of_nonneg_right hn (by positivity)) (by positivity) (by positivity)
      linarith
    have k6 : Z1 ≤ 3 / 10 ^ 5 := by
      by_contra hn
      have := mul_le_mul k5 (not_le.mp hn).le (by positivity) r0.le
      linarith
    refine ⟨?_, ?_, k5⟩
    · rw [abs_le]; constructor <;> linarith
    · rw [abs_le]; constructor <;> linarith

/-- the subproblem was solved by the origin -/
theorem near_corner {r a W0 W1 D0 D1 Z0 Z1 : K} (hR : r ≤ 10 ^ 8) (r0 : 0 < r) (ha : 0 < a) (ha1 : a ≤ 1)
    (w0 : 2 ≤ r * W0) (w1 : 2 ≤ r * W1) (d0 : |D0| ≤ 2221 / 10 ^ 19) (d1 : |D1| ≤ 2221 / 10 ^ 19)
    (hz0 : Z0 = W0 + D0 - a * W0) (hz1 : Z1 = W1 + D1 - a * W1)
    (e0 : |2 * Z0 + r * (Z1 - W1)| < 2221 / 10 ^ 13) (e1 : |2 * Z1 + r * (Z0 - W0)| < 2221 / 10 ^ 13)
    (hp : Z0 * Z1 < 2221 / 10 ^ 16) : Near2 r Z0 Z1 := by
  rw [abs_lt] at e0 e1
  rw [abs_le] at d0 d1
  have rd : ∀ D : K, -(2221 / 10 ^ 19) ≤ D → D ≤ 2221 / 10 ^ 19 → -(3 / 10 ^ 8) ≤ r * D ∧ r * D ≤ 3 / 10 ^ 8 := by
    intro D h1 h2
    have g1 := mul_le_mul_of_nonneg_left h1 r0.le
    have g2 := mul_le_mul_of_nonneg_left h2 r0.le
    have g3 := mul_le_mul_of_nonneg_right hR (show (0 : K) ≤ 2221 / 10 ^ 19 by positivity)
    constructor <;> linarith
  obtain ⟨u0, u0'⟩ := rd D0 d0.1 d0.2
  obtain ⟨u1, u1'⟩ := rd D1 d1.1 d1.2
  have E0 : r * (Z1 - W1) = r * D1 - a * (r * W1) := by rw [hz1]; ring
  have E1 : r * (Z0 - W0) = r * D0 - a * (r * W0) := by rw [hz0]; ring
  rw [E0] at e0
  rw [E1] at e1
  have m1 := mul_le_mul_of_nonneg_left w1 ha.le
  have m0 := mul_le_mul_of_nonneg_left w0 ha.le
  have l0 : a - 2 / 10 ^ 8 ≤ Z0 := by linarith
  have l1 : a - 2 / 10 ^ 8 ≤ Z1 := by linarith
  have ha2 : a ≤ 6 / 10 ^ 7 := by
    by_contra hn
    have hn := (not_le.mp hn).le
    have := mul_le_mul (show (5 : K) / 10 ^ 7 ≤ Z0 by linarith) (show (5 : K) / 10 ^ 7 ≤ Z1 by linarith) (by positivity) (by linarith)
    linarith
  have rz : ∀ W D Z : K, Z = W + D - a * W → 2 ≤ r * W → -(3 / 10 ^ 8) ≤ r * D → 19 / 10 ≤ r * Z := by
    intro W D Z hZ hw hd
    have e : r * Z = (1 - a) * (r * W) + r * D := by rw [hZ]; ring
    have := mul_le_mul_of_nonneg_left hw (show 0 ≤ 1 - a by linarith)
    rw [e]
    linarith
  have q0 := rz W0 D0 Z0 hz0 w0 u0
  have q1 := rz W1 D1 Z1 hz1 w1 u1
  have pos : ∀ Z : K, 19 / 10 ≤ r * Z → 0 < Z := by
    intro Z h
    by_contra hn
    have := mul_nonneg r0.le (sub_nonneg.mpr (not_lt.mp hn))
    linarith
  have p0 := pos _ q0
  have p1 := pos _ q1
  have hr : 10 ^ 6 ≤ r := by
    by_contra hn
    have hn := (not_le.mp hn).le
    have h1 := mul_le_mul q0 q1 (by positivity) (by linarith : 0 ≤ r * Z0)
    have h2 : r * Z0 * (r * Z1) = r * (r * (Z0 * Z1)) := by ring
    have h3 : r * (r * (Z0 * Z1)) ≤ r * (r * (2221 / 10 ^ 16)) := mul_le_mul_of_nonneg_left (mul_le_mul_of_nonneg_left hp.le r0.le) r0.le
    have h4 : r * (r * (2221 / 10 ^ 16)) ≤ 10 ^ 6 * (10 ^ 6 * (2221 / 10 ^ 16)) :=
      mul_le_mul hn (mul_le_mul_of_nonneg_right hn (by positivity)) (by positivity) (by positivity)
    linarith
  -- one coordinate is small, and then the other one
  have key : ∀ X W D Z Y : K, X = W + D - a * W → 2 ≤ r * W → -(2221 / 10 ^ 19) ≤ D → -(3 / 10 ^ 8) ≤ r * D →
      2 * Y + (r * D - a * (r * W)) < 2221 / 10 ^ 13 → 0 < X → X ≤ 5 / 10 ^ 7 → 0 < Y → Y ≤ 3 / 10 ^ 5 := by
    intro X W D Z Y hX hw hd hrd hY hx0 hx1 hy0
    have h1 : W ≤ 6 / 10 ^ 7 := by
      by_contra hn
      have hn := (not_le.mp hn).le
      have := mul_le_mul_of_nonneg_left hn (show 0 ≤ 1 - a by linarith)
      have e : X = (1 - a) * W + D := by rw [hX]; ring
      linarith
    have w0 : 0 < W := pos W (by linarith)
    have h2 : a * r ≤ 6 / 10 ^ 7 * 10 ^ 8 := mul_le_mul ha2 hR r0.le (by positivity)
    have h3 : a * r * W ≤ 60 * (6 / 10 ^ 7) := mul_le_mul (by linarith) h1 w0.le (by positivity)
    have e : a * (r * W) = a * r * W := by ring
    rw [e] at hY
    linarith
  rcases le_or_gt Z0 Z1 with h | h
  · have s0 : Z0 ≤ 5 / 10 ^ 7 := by
      by_contra hn
      have hn := (not_le.mp hn).le
      have := mul_le_mul hn (hn.trans h) (by positivity) p0.le
      linarith
    have s1 := key Z0 W0 D0 Z0 Z1 hz0 w0 d0.1 u0 e1.2 p0 s0 p1
    refine Or.inr (Or.inr ⟨?_, ?_, hr⟩)
    · rw [abs_le]; constructor <;> linarith
    · rw [abs_le]; constructor <;> linarith
  · have s1 : Z1 ≤ 5 / 10 ^ 7 := by
      by_contra hn
      have hn := (not_le.mp hn).le
      have := mul_le_mul (hn.trans h.le) hn (by positivity) p0.le
      linarith
    have s0 := key Z1 W1 D1 Z1 Z0 hz1 w1 d1.1 u1 e0.2 p1 s1 p0
    refine Or.inr (Or.inr ⟨?_, ?_, hr⟩)
    · rw [abs_le]; constructor <;> linarith
    · rw [abs_le]; constructor <;> linarith

/-- small penalty parameters: the complementarity test fails -/
theorem far_small {r σ W0 W1 V0 V1 y0 y1 Z0 Z1 : K} (h : Sub2 r σ W0 W1 V0 V1 y0 y1) (r0 : 0 ≤ r) (hr : r ≤ 128 / 100)
    (s0 : 0 ≤ σ) (hσ : σ ≤ 1 / 100) (w0 : W0 ≤ 11 / 10) (w1 : W1 ≤ 11 / 10) (z0 : Z0 ≤ 11 / 10) (z1 : Z1 ≤ 11 / 10)
    (e0 : |2 * Z0 - 2 + r * Z1 + σ - y0| < 2221 / 10 ^ 13) (e1 : |2 * Z1 - 2 + r * Z0 + σ - y1| < 2221 / 10 ^ 13) :
    2221 / 10 ^ 16 ≤ Z0 * Z1 := by
  rw [abs_lt] at e0 e1
  have up : ∀ X : K, X ≤ 11 / 10 → r * X ≤ 128 / 100 * (11 / 10) := by
    intro X hX
    exact (mul_le_mul_of_nonneg_left hX r0).trans (mul_le_mul_of_nonneg_right hr (by positivity))
  have y0z : y0 = 0 := by
    rcases h.c0 with h0 | h0
    · exact h0
    · have := h.s0
      rw [h0] at this
      linarith [h.n0, up _ w1]
  have y1z : y1 = 0 := by
    rcases h.c1 with h0 | h0
    · exact h0
    · have := h.s1
      rw [h0] at this
      linarith [h.n1, up _ w0]
  rw [y0z] at e0
  rw [y1z] at e1
  have a0 : (1 : K) / 5 ≤ Z0 := by linarith [up _ z1]
  have a1 : (1 : K) / 5 ≤ Z1 := by linarith [up _ z0]
  have := mul_le_mul a0 a1 (by positivity) (by linarith)
  linarith

/-- A point that passes both tests, with a penalty parameter of at least 2.56. -/
theorem near_of {r a W0 W1 V0 V1 y0 y1 D0 D1 Z0 Z1 : K} (h : Sub2 r 0 W0 W1 V0 V1 y0 y1) (hr : 256 / 100 ≤ r) (hR : r ≤ 10 ^ 8)
    (ha : 0 < a) (ha1 : a ≤ 1) (d0 : |D0| ≤ 2221 / 10 ^ 19) (d1 : |D1| ≤ 2221 / 10 ^ 19)
    (hz0 : Z0 = W0 + D0 + a * (V0 - W0)) (hz1 : Z1 = W1 + D1 + a * (V1 - W1)) (z0 : -(2221 / 10 ^ 16) ≤ Z0) (z1 : -(2221 / 10 ^ 16) ≤ Z1)
    (e0 : |2 * Z0 - 2 + r * Z1 - y0| < 2221 / 10 ^ 13) (e1 : |2 * Z1 - 2 + r * Z0 - y1| < 2221 / 10 ^ 13)
    (hp : Z0 * Z1 < 2221 / 10 ^ 16) : Near2 r Z0 Z1 := by
  rcases h.c0 with h0 | h0 <;> rcases h.c1 with h1 | h1
  · rw [h0, sub_zero] at e0
    rw [h1, sub_zero] at e1
    exact near_inner hr e0 e1 hp
  · rw [h0, sub_zero] at e0
    exact near_edge hr hR z0 z1 e0 (by linarith [(abs_lt.mp e1).1, h.n1]) hp
  · rw [h1, sub_zero] at e1
    exact (near_edge hr hR z1 z0 e1 (by linarith [(abs_lt.mp e0).1, h.n0]) (by rw [mul_comm]; exact hp)).swap
  · have s0 := h.s0
    have s1 := h.s1
    rw [h0] at s0 hz0
    rw [h1] at s1 hz1
    have n0 := h.n0
    have n1 := h.n1
    refine near_corner (W0 := W0) (W1 := W1) hR (by linarith) ha ha1 (by linarith) (by linarith) d0 d1 (by rw [hz0]; ring) (by rw [hz1]; ring) ?_ ?_ hp
    · rw [← s0] at e0
      convert e0 using 2
      ring
    · rw [← s1] at e1
      convert e1 using 2
      ring

end LCQ.WarmUp
