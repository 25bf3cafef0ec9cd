import Verif.Spec.CircleProb
import Verif.Lemmas.Circle
import Verif.Lemmas.SetupSwitch
import Mathlib.Algebra.BigOperators.Fin
import Mathlib.Algebra.BigOperators.Ring.Finset
import Mathlib.Tactic.Ring
import Mathlib.Tactic.FieldSimp

/-!
# What the data of OptimizeOnCircle mean
-/

namespace LCQ.Circle
open Ext
open scoped Matrix

variable {K : Type} [Field K] {N : Nat}

theorem sum_vars (f : Fin (dims N).nV → K) :
    ∑ j, f j = px f + py f + ∑ i : Fin N, (lam f i + the f i) := by
  suffices ∀ (N : Nat) (F : Nat → K), ∑ j ∈ Finset.range (2 + 2 * N), F j = F 0 + F 1 +
      ∑ i ∈ Finset.range N, (F (2 * i + 2) + F (2 * i + 3)) by
    have h := this N (fun j => if h : j < 2 + 2 * N then f ⟨j, h⟩ else 0)
    rw [← Fin.sum_univ_eq_sum_range, ← Fin.sum_univ_eq_sum_range] at h
    simp only [Fin.is_lt, dite_true, dif_pos (show 0 < 2 + 2 * N by omega), dif_pos (show 1 < 2 + 2 * N by omega)] at h
    refine h.trans ?_
    unfold px py
    congr 1
    refine Finset.sum_congr rfl fun i _ => ?_
    have := i.2
    rw [dif_pos (by omega), dif_pos (by omega)]
    rfl
  intro N F
  induction N with
  | zero => simp [Finset.sum_range_succ]
  | succ N ih =>
    rw [show 2 + 2 * (N + 1) = 2 + 2 * N + 1 + 1 by ring, Finset.sum_range_succ, Finset.sum_range_succ, ih, Finset.sum_range_succ,
      show 2 + 2 * N = 2 * N + 2 by ring, show 2 * N + 2 + 1 = 2 * N + 3 by ring]
    ring

theorem dot_vars (F : Nat → K) (x : Fin (dims N).nV → K) :
    ∑ j, F j.1 * x j = F 0 * px x + F 1 * py x + ∑ i : Fin N, (F (2 * i + 2) * lam x i + F (2 * i + 3) * the x i) :=
  sum_vars fun j => F j.1 * x j

variable (d : Nat → K × K) (x : Fin (dims N).nV → K)

theorem prob_L (i : Fin N) : ((prob N d).L *ᵥ x) i = lam x i := by
  refine (dot_vars (fun j => if j = 2 * i.1 + 2 then 1 else 0) x).trans ?_
  rw [if_neg (by omega), if_neg (by omega), Finset.sum_eq_single i]
  · rw [if_pos rfl, if_neg (by omega)]
    simp
  · intro j _ hj
    have : j.1 ≠ i.1 := fun h => hj (Fin.ext h)
    rw [if_neg (by omega), if_neg (by omega)]
    simp
  · simp

theorem prob_R (i : Fin N) : ((prob N d).R *ᵥ x) i = the x i := by
  refine (dot_vars (fun j => if j = 2 * i.1 + 3 then 1 else 0) x).trans ?_
  rw [if_neg (by omega), if_neg (by omega), Finset.sum_eq_single i]
  · rw [if_neg (by omega), if_pos rfl]
    simp
  · intro j _ hj
    have : j.1 ≠ i.1 := fun h => hj (Fin.ext h)
    rw [if_neg (by omega), if_neg (by omega)]
    simp
  · simp

theorem prob_A (i : Fin N) : ((prob N d).A *ᵥ x) ⟨i, by have := i.2; simp only [dims]; omega⟩ =
    along d i (px x) (py x) + lam x i := by
  have h : ((prob N d).A *ᵥ x) ⟨i, by have := i.2; simp only [dims]; omega⟩ =
      ∑ j, (fun j : Nat => if j = 0 then (d i).1 else if j = 1 then (d i).2 else if j = 2 * i.1 + 2 then 1 else 0) j.1 * x j := by
    show ∑ j, (prob N d).A _ j * x j = _
    simp only [prob, i.2, if_true]
  refine (h.trans (dot_vars (fun j : Nat => if j = 0 then (d i).1 else if j = 1 then (d i).2 else
    if j = 2 * i.1 + 2 then 1 else 0) x)).trans ?_
  rw [Finset.sum_eq_single i]
  · simp [along]
  · intro j _ hj
    have : j.1 ≠ i.1 := fun h => hj (Fin.ext h)
    rw [if_neg (by omega), if_neg (by omega), if_neg (by omega), if_neg (by omega), if_neg (by omega), if_neg (by omega)]
    simp
  · simp

theorem prob_sum : ((prob N d).A *ᵥ x) ⟨N, by simp only [dims]; omega⟩ = ∑ i, the x i := by
  have h : ((prob N d).A *ᵥ x) ⟨N, by simp only [dims]; omega⟩ =
      ∑ j, (fun j : Nat => if 2 ≤ j ∧ j % 2 = 1 then (1 : K) else 0) j.1 * x j := by
    show ∑ j, (prob N d).A _ j * x j = _
    simp only [prob, lt_irrefl, if_false]
  refine (h.trans (dot_vars (fun j : Nat => if 2 ≤ j ∧ j % 2 = 1 then (1 : K) else 0) x)).trans ?_
  rw [if_neg (by omega), if_neg (by omega), zero_mul, zero_mul, zero_add, zero_add]
  refine Finset.sum_congr rfl fun i _ => ?_
  rw [if_neg (by omega), if_pos (by omega)]
  simp

theorem prob_phi : (prob N d).phi x = ∑ i, lam x i * the x i := by
  rw [Prob.phi]
  refine Finset.sum_congr rfl fun i _ => ?_
  have h1 := prob_L d x i
  have h2 := prob_R d x i
  show (((prob N d).L *ᵥ x) i - 0) * (((prob N d).R *ᵥ x) i - 0) = _
  rw [sub_zero, sub_zero]
  exact congrArg₂ (· * ·) h1 h2

theorem prob_gPhi : (prob N d).gPhi = 0 := by
  rw [Prob.gPhi]
  show -((prob N d).Rᵀ *ᵥ 0 + (prob N d).Lᵀ *ᵥ 0) = 0
  simp

theorem prob_symm : (prob N d).Qᵀ = (prob N d).Q := by
  ext i j
  rw [Matrix.transpose_apply]
  simp only [prob]
  by_cases h : i = j
  · subst h; rfl
  · rw [if_neg h, if_neg (fun h' : j = i => h h'.symm)]
    simp only [and_comm]

/-- rows of `Qx` -/
theorem prob_Q (i : Fin (dims N).nV) : ((prob N d).Q *ᵥ x) i =
    if i.1 = 0 then 17 * px x - 15 * py x else if i.1 = 1 then -15 * px x + 17 * py x else 5 / 10 ^ 12 * x i := by
  by_cases h2 : i.1 < 2
  · have h : ((prob N d).Q *ᵥ x) i = ∑ j, (fun j : Nat => if j = i.1 then (17 : K) else if j < 2 then -15 else 0) j.1 * x j := by
      show ∑ j, (prob N d).Q _ j * x j = _
      refine Finset.sum_congr rfl fun j _ => ?_
      simp only [prob, h2, true_and, if_true, Fin.ext_iff, eq_comm]
    have hz : ∑ k : Fin N, ((if 2 * k.1 + 2 = i.1 then (17 : K) else if 2 * k.1 + 2 < 2 then -15 else 0) * lam x k +
        (if 2 * k.1 + 3 = i.1 then (17 : K) else if 2 * k.1 + 3 < 2 then -15 else 0) * the x k) = 0 := by
      refine Finset.sum_eq_zero fun k _ => ?_
      rw [if_neg (by omega), if_neg (by omega), if_neg (by omega), if_neg (by omega)]
      ring
    refine (h.trans (dot_vars (fun j : Nat => if j = i.1 then (17 : K) else if j < 2 then -15 else 0) x)).trans ?_
    rw [hz, add_zero]
    rcases (show i.1 = 0 ∨ i.1 = 1 by omega) with h | h
    · simp [h]
      ring
    · simp [h]
  · rw [if_neg (by omega), if_neg (by omega)]
    show ∑ j, (prob N d).Q i j * x j = _
    rw [Finset.sum_eq_single i]
    · simp only [prob, if_true, if_neg h2]
    · intro j _ hj
      simp only [prob]
      rw [if_neg (fun h => hj h.symm), if_neg (by tauto)]
      simp
    · simp

theorem prob_obj [CharZero K] : (prob N d).obj x =
    (17 * (px x - 1 / 2) ^ 2 - 30 * (px x - 1 / 2) * (py x + 3 / 5) + 17 * (py x + 3 / 5) ^ 2) / 2 - 1937 / 200 +
      5 / 10 ^ 12 * (∑ i, (lam x i ^ 2 + the x i ^ 2)) / 2 := by
  have h1 : (prob N d).g ⬝ᵥ x = -35 / 2 * px x + 177 / 10 * py x := by
    refine (dot_vars (fun j => if j = 0 then -35 / 2 else if j = 1 then 177 / 10 else 0) x).trans ?_
    simp
  have h2 : x ⬝ᵥ ((prob N d).Q *ᵥ x) = px x * (17 * px x - 15 * py x) + py x * (-15 * px x + 17 * py x) +
      5 / 10 ^ 12 * ∑ i, (lam x i ^ 2 + the x i ^ 2) := by
    have : x ⬝ᵥ ((prob N d).Q *ᵥ x) = ∑ j, (fun j => x j * ((prob N d).Q *ᵥ x) j) j := rfl
    rw [this, sum_vars, Finset.mul_sum]
    congr 1
    · have e0 := prob_Q d x ⟨0, by simp only; omega⟩
      have e1 := prob_Q d x ⟨1, by simp only; omega⟩
      rw [if_pos rfl] at e0
      rw [if_neg (by simp), if_pos rfl] at e1
      exact congrArg₂ (· + ·) (congrArg (px x * ·) e0) (congrArg (py x * ·) e1)
    · refine Finset.sum_congr rfl fun i _ => ?_
      have := i.2
      have e0 := prob_Q d x ⟨2 * i.1 + 2, by simp only; omega⟩
      have e1 := prob_Q d x ⟨2 * i.1 + 3, by simp only; omega⟩
      rw [if_neg (by simp only; omega), if_neg (by simp only; omega)] at e0 e1
      refine (congrArg₂ (· + ·) (congrArg (lam x i * ·) e0) (congrArg (the x i * ·) e1)).trans ?_
      change lam x i * (5 / 10 ^ 12 * lam x i) + the x i * (5 / 10 ^ 12 * the x i) = _
      ring
  rw [Prob.obj, h1, h2]
  field_simp
  ring

end LCQ.Circle
