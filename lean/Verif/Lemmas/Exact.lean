import Verif.Spec.Linear
import Verif.Lemmas.Dense
import Mathlib.Algebra.BigOperators.Fin
import Mathlib.Algebra.BigOperators.Intervals
import Mathlib.Algebra.Order.BigOperators.Group.Finset

/-! # Exact arithmetic: sequential sums become finite sums over `K` -/

set_option linter.unusedSectionVars false

namespace LCQ
open Scalar Ext

variable {K : Type} [Field K] [LinearOrder K]

@[simp] theorem fin_add (a b : K) : (fin a +. fin b : Ext K) = fin (a + b) := rfl
@[simp] theorem fin_sub (a b : K) : (fin a -. fin b : Ext K) = fin (a - b) := by
  show fin (a + -b) = fin (a - b)
  rw [sub_eq_add_neg]
@[simp] theorem fin_mul (a b : K) : (fin a *. fin b : Ext K) = fin (a * b) := rfl
@[simp] theorem fin_neg (a : K) : (-. (fin a) : Ext K) = fin (-a) := rfl
@[simp] theorem fin_lt (a b : K) : (fin a <. fin b) = decide (a < b) := rfl
@[simp] theorem fin_le (a b : K) : (fin a <=. fin b) = decide (a ≤ b) := rfl
theorem fin_div (a b : K) (h : b ≠ 0) : (fin a /. fin b : Ext K) = fin (a / b) := by
  show (if b = 0 then signInf a else fin (a / b)) = _
  rw [if_neg h]
@[simp] theorem zero_fin : (zero : Ext K) = fin 0 := by
  show fin ((0 : Int) / (10 : K) ^ 0) = fin 0
  simp
@[simp] theorem one_fin : (one : Ext K) = fin 1 := by
  show fin ((1 : Int) / (10 : K) ^ 0) = fin 1
  simp
@[simp] theorem two_fin : (two : Ext K) = fin 2 := by
  show fin ((2 : Int) / (10 : K) ^ 0) = fin 2
  simp
@[simp] theorem ofInt_fin (z : Int) : (ofInt z : Ext K) = fin (z : K) := by
  show fin (z / (10 : K) ^ 0) = fin (z : K)
  simp
theorem lit_fin (m : Int) (e : Nat) : (lit m e : Ext K) = fin ((m : K) / (10 : K) ^ e) := rfl

@[simp] theorem emb_length (l : List K) : (emb l).length = l.length := by simp [emb]

theorem gt_emb (l : List K) (i : Nat) : gt (emb l) i = fin (l.getD i 0) := by
  simp only [gt, emb, List.getD_eq_getElem?_getD, List.getElem?_map, zero_fin]
  cases l[i]? <;> rfl

theorem emb_tab (n : Nat) (f : Nat → K) : tab n (fun i => fin (f i)) = emb (tab n f) := by
  simp [tab, emb]

theorem emb_grid (m n : Nat) (f : Nat → Nat → K) :
    grid m n (fun i j => fin (f i j)) = emb (grid m n f) := by
  simp [grid, tab, emb]

theorem getD_tab {n : Nat} (f : Nat → K) {i : Nat} (h : i < n) : (tab n f).getD i 0 = f i := by
  simp [List.getD_eq_getElem?_getD, tab_getElem? f h]

theorem getD_grid {m n i j : Nat} (f : Nat → Nat → K) (hi : i < m) (hj : j < n) :
    (grid m n f).getD (i * n + j) 0 = f i j := by
  rw [grid, getD_tab _ (idx_lt hi hj), idx_div hj, idx_mod hj]

theorem facc_fin (a : K) (n : Nat) (t : Nat → K) :
    facc (fin a) n (fun i => fin (t i)) = fin (a + ∑ i ∈ Finset.range n, t i) := by
  induction n with
  | zero => simp [facc]
  | succ n ih => rw [facc, ih, fin_add, Finset.sum_range_succ, add_assoc]

theorem facc_fin_zero (n : Nat) (t : Nat → K) :
    facc (zero : Ext K) n (fun i => fin (t i)) = fin (∑ i ∈ Finset.range n, t i) := by
  rw [zero_fin, facc_fin, zero_add]

theorem facc_fin_Fin (n : Nat) (t : Nat → K) :
    facc (zero : Ext K) n (fun i => fin (t i)) = fin (∑ i : Fin n, t i) := by
  rw [facc_fin_zero, Finset.sum_range]

theorem vec_tab (n : Nat) (f : Nat → K) : vec n (tab n f) = fun i : Fin n => f i := by
  funext i
  exact getD_tab f i.2

theorem mat_grid (m n : Nat) (f : Nat → Nat → K) : mat m n (grid m n f) = fun (i : Fin m) (j : Fin n) => f i j := by
  funext i j
  exact getD_grid f i.2 j.2

theorem list_eq_tabK {b : List K} {n : Nat} (h : b.length = n) : b = tab n (fun i => b.getD i 0) := by
  subst h
  apply List.ext_getElem?
  intro i
  by_cases h : i < b.length
  · rw [tab_getElem? _ h]; simp [h, List.getD_eq_getElem?_getD]
  · rw [List.getElem?_eq_none (by omega), List.getElem?_eq_none (by simp; omega)]

theorem vec_inj {n : Nat} {a b : List K} (ha : a.length = n) (hb : b.length = n)
    (h : vec n a = vec n b) : a = b := by
  rw [list_eq_tabK ha, list_eq_tabK hb]
  apply tab_congr
  intro i hi
  exact congrFun h ⟨i, hi⟩

theorem mat_inj {m n : Nat} {a b : List K} (ha : a.length = m * n) (hb : b.length = m * n)
    (h : mat m n a = mat m n b) : a = b := by
  rw [list_eq_tabK ha, list_eq_tabK hb]
  apply tab_congr
  intro t ht
  have hp : 0 < n := by
    rcases Nat.eq_zero_or_pos n with h0 | h0
    · subst h0; simp at ht
    · exact h0
  have := congrFun (congrFun h ⟨t / n, Nat.div_lt_of_lt_mul (by rwa [Nat.mul_comm] at ht)⟩)
    ⟨t % n, Nat.mod_lt _ hp⟩
  simpa [mat, Nat.div_add_mod'] using this

theorem emb_inj {a b : List K} (h : emb a = emb b) : a = b := by
  unfold emb at h
  exact List.map_injective_iff.mpr (fun x y hxy => by injection hxy) h

end LCQ
