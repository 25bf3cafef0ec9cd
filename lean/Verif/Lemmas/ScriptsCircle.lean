import Verif.Lemmas.Scripts
import Verif.Spec.Scripts

/-!
# The data of solvers_test.m and optimize_on_circle.m
-/

namespace LCQ.Script
open Scalar

variable {α : Type} [Scalar α]

/-- the variables of the script hold the problem of `N` directions -/
structure Circle.Are (N : Nat) (dir : Nat → α × α) (c : Circle α) : Prop where
  Q : Has (2 + 2 * N) (2 + 2 * N) hess c.Q
  g : Has (2 + 2 * N) 1 (fun i _ => lin i) c.g
  A : Has (N + 1) (2 + 2 * N) (Circle.cons N fun i => dir (i + 1)) c.A
  lbA : Has (N + 1) 1 (fun _ _ => one) c.lbA
  ubA : Has (N + 1) 1 (fun _ _ => one) c.ubA
  L : Has N (2 + 2 * N) Circle.left c.L
  R : Has N (2 + 2 * N) Circle.right c.R
  x0 : Has (2 + 2 * N) 1 (fun i _ => Circle.guess i) c.x0

/-- the matrices after `k` rounds -/
structure Part (N : Nat) (dir : Nat → α × α) (k : Nat) (c : Circle α) : Prop where
  Q : Has (2 + 2 * N) (2 + 2 * N) hess c.Q
  g : Has (2 + 2 * N) 1 (fun i _ => lin i) c.g
  A : Has (N + 1) (2 + 2 * N)
    (fun r s => if (r < N ∧ r < k) ∨ (N ≤ r ∧ s < 2 * k + 2) then Circle.cons N (fun i => dir (i + 1)) r s else zero) c.A
  lbA : Has (N + 1) 1 (fun _ _ => one) c.lbA
  ubA : Has (N + 1) 1 (fun _ _ => one) c.ubA
  L : Has N (2 + 2 * N) (fun r s => if r < k then Circle.left r s else zero) c.L
  R : Has N (2 + 2 * N) (fun r s => if r < k then Circle.right r s else zero) c.R

theorem row_ok {N : Nat} {dir : Nat → α × α} {k : Nat} {c : Circle α} (hk : k < N) (h : Part N dir k c) :
    ∃ c', circleRow N dir (k + 1) c = .ok c' ∧ Part N dir (k + 1) c' := by
  obtain ⟨A1, e1, w1⟩ := h.A.put (i := k) (j := 0) (by omega) (by omega) (dir (k + 1)).1
  obtain ⟨A2, e2, w2⟩ := w1.put (i := k) (j := 1) (by omega) (by omega) (dir (k + 1)).2
  obtain ⟨A3, e3, w3⟩ := w2.put (i := k) (j := 2 * k + 2) (by omega) (by omega) (ofInt 1)
  obtain ⟨A4, e4, w4⟩ := w3.put (i := N) (j := 2 * k + 3) (by omega) (by omega) (ofInt 1)
  obtain ⟨L1, e5, w5⟩ := h.L.put (i := k) (j := 2 * k + 2) (by omega) (by omega) (ofInt 1)
  obtain ⟨R1, e6, w6⟩ := h.R.put (i := k) (j := 2 * k + 3) (by omega) (by omega) (ofInt 1)
  have i1 : 2 + 2 * (k + 1) - 1 = 2 * k + 2 + 1 := by omega
  have i2 : 2 + 2 * (k + 1) = 2 * k + 3 + 1 := by omega
  refine ⟨{ c with A := A4, L := L1, R := R1 }, ?_, h.Q, h.g, ?_, h.lbA, h.ubA, ?_, ?_⟩
  · simp only [Nat.zero_add] at e1 e2
    rw [circleRow, i1, i2, e1, ok_bind, e2, ok_bind, e3, ok_bind, e4, ok_bind, e5, ok_bind, e6, ok_bind]
  · refine w4.congr fun r hr s hs => ?_
    have hN : ¬ N < N := lt_irrefl N
    rcases Nat.lt_or_ge r N with hrN | hrN
    · rw [if_neg (by omega)]
      by_cases hrk : r = k
      · subst hrk
        rw [if_pos (by omega : (r < N ∧ r < r + 1) ∨ (N ≤ r ∧ s < 2 * (r + 1) + 2)), Circle.cons, if_pos hrN]
        simp only [true_and, ofInt, one]
        split_ifs <;> first | rfl | (exfalso; omega)
      · rw [if_neg (by omega), if_neg (by omega), if_neg (by omega)]
        have : (r < N ∧ r < k ∨ N ≤ r ∧ s < 2 * k + 2) ↔ (r < N ∧ r < k + 1 ∨ N ≤ r ∧ s < 2 * (k + 1) + 2) := by omega
        simp only [this]
    · have : r = N := by omega
      subst this
      rw [if_neg (by omega : ¬ (r = k ∧ s = 2 * k + 2)), if_neg (by omega : ¬ (r = k ∧ s = 1)),
        if_neg (by omega : ¬ (r = k ∧ s = 0)), Circle.cons, if_neg hN]
      simp only [true_and, ofInt, one]
      split_ifs <;> first | rfl | (exfalso; omega)
  · refine w5.congr fun r hr s hs => ?_
    simp only [ofInt, Circle.left, one]
    split_ifs <;> first | rfl | (exfalso; omega)
  · refine w6.congr fun r hr s hs => ?_
    simp only [ofInt, Circle.right, one]
    split_ifs <;> first | rfl | (exfalso; omega)

theorem circleQ_ok (nz : Nat) (h : 2 ≤ nz) : ∃ Q : Arr α, circleQ nz = .ok Q ∧ Has nz nz hess Q := by
  obtain ⟨Q1, e1, w1⟩ := (scaledEye_has (mEps : α) nz).put (i := 0) (j := 0) (by omega) (by omega) q11
  obtain ⟨Q2, e2, w2⟩ := w1.put (i := 1) (j := 0) (by omega) (by omega) q12
  obtain ⟨Q3, e3, w3⟩ := w2.put (i := 0) (j := 1) (by omega) (by omega) q12
  obtain ⟨Q4, e4, w4⟩ := w3.put (i := 1) (j := 1) (by omega) (by omega) q11
  simp only [Nat.zero_add, Nat.reduceAdd] at e1 e2 e3 e4
  refine ⟨Q4, ?_, w4.congr fun i hi j hj => ?_⟩
  · simp only [circleQ, e1, e2, e3, e4, ok_bind]
  · simp only [hess, q11, q12, ofInt, mEps]
    split_ifs <;> first | rfl | (exfalso; omega)

theorem circleG_ok (nz : Nat) (h : 2 ≤ nz) : ∃ g : Arr α, circleG nz = .ok g ∧ Has nz 1 (fun i _ => lin i) g := by
  obtain ⟨g1, e1, w1⟩ := (zeros_has (α := α) nz 1).put (i := 0) (j := 0) (by omega) (by omega) ((-. xk1) *. q11 +. (-. xk2) *. q12)
  obtain ⟨g2, e2, w2⟩ := w1.put (i := 1) (j := 0) (by omega) (by omega) ((-. xk1) *. q12 +. (-. xk2) *. q11)
  simp only [Nat.zero_add, Nat.reduceAdd] at e1 e2
  refine ⟨g2, ?_, w2.congr fun i hi j hj => ?_⟩
  · simp only [circleG, e1, e2, ok_bind]
  · simp only [lin, q11, q12, ofInt, xk1, xk2]
    split_ifs <;> first | rfl | (exfalso; omega)

theorem circle_ok (N : Nat) (dir : Nat → α × α) : ∃ c, circle N dir = .ok c ∧ c.Are N dir := by
  obtain ⟨Q, eQ, wQ⟩ := circleQ_ok (α := α) (2 + 2 * N) (by omega)
  obtain ⟨g, eg, wg⟩ := circleG_ok (α := α) (2 + 2 * N) (by omega)
  obtain ⟨x1, e1, w1⟩ := (ones_has (α := α) (2 + 2 * N) 1).put (i := 0) (j := 0) (by omega) (by omega) xk1
  obtain ⟨x2, e2, w2⟩ := w1.put (i := 1) (j := 0) (by omega) (by omega) xk2
  simp only [Nat.zero_add, Nat.reduceAdd] at e1 e2
  obtain ⟨b, eb, hb⟩ := loop_inv (Part N dir) N (fun t c => circleRow N dir (t + 1) c)
    ⟨Q, g, zeros (N + 1) (2 + 2 * N), ones (N + 1) 1, ones (N + 1) 1, zeros N (2 + 2 * N), zeros N (2 + 2 * N), zeros 0 0⟩
    (by
      refine ⟨wQ, wg, ?_, ones_has _ _, ones_has _ _, ?_, ?_⟩
      · refine (zeros_has _ _).congr fun r hr c hc => ?_
        simp only [Circle.cons]
        split_ifs <;> first | rfl | (exfalso; omega)
      · exact (zeros_has _ _).congr fun r hr c hc => by simp
      · exact (zeros_has _ _).congr fun r hr c hc => by simp)
    (fun k hk a ha => row_ok hk ha)
  refine ⟨{ b with x0 := x2 }, ?_, hb.Q, hb.g, ?_, hb.lbA, hb.ubA, ?_, ?_, ?_⟩
  · simp only [circle, eQ, eg, eb, e1, e2, ok_bind]
  · exact hb.A.congr fun r hr c hc => by rw [if_pos (by omega)]
  · exact hb.L.congr fun r hr c hc => by rw [if_pos hr]
  · exact hb.R.congr fun r hr c hc => by rw [if_pos hr]
  · refine w2.congr fun i hi j hj => ?_
    simp only [Circle.guess, xk1, xk2]
    split_ifs <;> first | rfl | (exfalso; omega)

end LCQ.Script
