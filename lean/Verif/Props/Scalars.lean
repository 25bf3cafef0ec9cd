import Verif.Model.Scalars
import Verif.Lemmas.Loop
import Verif.Lemmas.SymSparse
import Mathlib.Algebra.Order.Ring.Rat

/-!
# C66: scalar helpers
-/

set_option linter.unusedSectionVars false

namespace LCQ
open Scalar Ext

section anyArith
variable {α : Type} [Scalar α]

/-- C66 (any arithmetic): the functions without tolerance use `1e-25`. -/
theorem C66_default (x y : α) : isEqual x y = isEqualTol x y zeroTol ∧ isZero x = isZeroTol x zeroTol := by
  constructor
  · rw [isEqual, isEqualTol]; cases (getAbs (x -. y) <=. zeroTol) <;> rfl
  · rw [isZero, isZeroTol]; cases (getAbs x <=. zeroTol) <;> rfl

/-- C66 (any arithmetic): the result of `getMax` and `getMin` is one of the arguments. -/
theorem C66_choice (x y : α) : (getMax x y = x ∨ getMax x y = y) ∧ (getMin x y = x ∨ getMin x y = y) := by
  constructor
  · rw [getMax]; split
    · exact .inl rfl
    · exact .inr rfl
  · rw [getMin]; split
    · exact .inl rfl
    · exact .inr rfl

end anyArith

section exact
variable {K : Type} [Field K] [LinearOrder K] [IsStrictOrderedRing K]

/-- C66 (exact arithmetic): on finite values the helpers compare and select as their names say. -/
theorem C66_finite (x y t : K) :
    (isEqualTol (fin x) (fin y) (fin t) = true ↔ |x - y| ≤ t) ∧ (isZeroTol (fin x) (fin t) = true ↔ |x| ≤ t) ∧
    (isEqual (fin x) (fin y) = true ↔ |x - y| ≤ 1 / 10 ^ 25) ∧ (isZero (fin x) = true ↔ |x| ≤ 1 / 10 ^ 25) ∧
    getMax (fin x) (fin y) = fin (max x y) ∧ getMin (fin x) (fin y) = fin (min x y) ∧
    getAbs (fin x) = fin |x| ∧ getSign (fin x) = fin (if 0 ≤ x then 1 else -1) := by
  have hz : (zeroTol : Ext K) = fin (1 / 10 ^ 25) := by simp [zeroTol, Scalar.lit]
  have a1 : ∀ a b : K, (fin a <=. fin b : Bool) = decide (a ≤ b) := fun a b => rfl
  have a2 : ∀ a b : K, (fin a <. fin b : Bool) = decide (a < b) := fun a b => rfl
  have a3 : ∀ a b : K, (fin a -. fin b : Ext K) = fin (a - b) := fun a b => by
    show Ext.sub _ _ = _
    simp [Ext.sub, Ext.add, Ext.neg, sub_eq_add_neg]
  have a4 : ∀ a : K, getAbs (fin a) = fin |a| := fun a => by
    show Ext.abs (fin a) = _
    by_cases h : 0 ≤ a
    · simp [Ext.abs, h, abs_of_nonneg h]
    · simp [Ext.abs, h, abs_of_neg (not_le.1 h)]
  refine ⟨?_, ?_, ?_, ?_, ?_, ?_, a4 x, ?_⟩
  · rw [isEqualTol, a3, a4, a1]; simp
  · rw [isZeroTol, a4, a1]; simp
  · rw [isEqual, a3, a4, hz, a1]; simp
  · rw [isZero, a4, hz, a1]; simp
  · rw [getMax, a2]
    by_cases h : y < x
    · simp [h, max_eq_left h.le]
    · simp [h, max_eq_right (not_lt.1 h)]
  · rw [getMin, a2]
    by_cases h : x < y
    · simp [h, min_eq_left h.le]
    · simp [h, min_eq_right (not_lt.1 h)]
  · have h0 : (Scalar.zero : Ext K) = fin 0 := by simp [Scalar.zero, Scalar.lit]
    have h1 : (Scalar.one : Ext K) = fin 1 := by simp [Scalar.one, Scalar.lit]
    have h2 : (-. Scalar.one : Ext K) = fin (-1) := by rw [h1]; rfl
    rw [getSign, h0, a1, h2, h1]
    by_cases h : 0 ≤ x <;> simp [h]

/-- C66 (exact arithmetic): NaN is equal to nothing, is not zero, and has sign -1; `getMax` and `getMin` return their second argument if one
argument is NaN, so that a NaN in the first argument is lost. -/
theorem C66_nan (x : Ext K) (t : Ext K) :
    isEqualTol nan x t = false ∧ isEqualTol x nan t = false ∧ isZeroTol nan t = false ∧ getSign (nan : Ext K) = -. one ∧
    getMax nan x = x ∧ getMin nan x = x ∧ getMax x nan = nan ∧ getMin x nan = nan := by
  have n1 : ∀ a : Ext K, (nan -. a : Ext K) = nan := fun a => by cases a <;> rfl
  have n2 : ∀ a : Ext K, (a -. nan : Ext K) = nan := fun a => by cases a <;> rfl
  have n3 : getAbs (nan : Ext K) = nan := rfl
  have n4 : ∀ a : Ext K, (nan <=. a : Bool) = false := fun a => by cases a <;> rfl
  have n5 : ∀ a : Ext K, (a <=. nan : Bool) = false := fun a => by cases a <;> rfl
  have n6 : ∀ a : Ext K, (nan <. a : Bool) = false := fun a => by cases a <;> rfl
  have n7 : ∀ a : Ext K, (a <. nan : Bool) = false := fun a => by cases a <;> rfl
  simp [isEqualTol, isZeroTol, getSign, getMax, getMin, n1, n2, n3, n4, n5, n6, n7]

end exact

/-- C66: the integer versions. -/
theorem C66_int (x y : Int) : getMaxInt x y = max x y ∧ getMinInt x y = min x y := by
  constructor
  · rw [getMaxInt]; split <;> omega
  · rw [getMinInt]; split <;> omega

/-- C66: `getIndexOfIn` never reads outside of the given range; it returns the first position of the value, unless a larger value comes
first, and `-1` otherwise. -/
theorem C66_index (v : Int) (l : List Int) (b e : Nat) (hb : b ≤ e) (he : e ≤ l.length) :
    (∃ k, b ≤ k ∧ k < e ∧ l.getD k 0 = v ∧ (∀ i, b ≤ i → i < k → l.getD i 0 < v) ∧ getIndexOfIn v l b e = .ok (k : Int)) ∨
    ((∀ k, b ≤ k → k < e → l.getD k 0 = v → ∃ i, b ≤ i ∧ i < k ∧ v < l.getD i 0) ∧ getIndexOfIn v l b e = .ok (-1)) := by
  have key := loopE_inv (σ := Unit) (ρ := Int)
    (fun k _ => ∀ i < k, l.getD (b + i) 0 < v)
    (fun r => (∃ k, b ≤ k ∧ k < e ∧ l.getD k 0 = v ∧ (∀ i, b ≤ i → i < k → l.getD i 0 < v) ∧ r = (k : Int)) ∨
      (r = -1 ∧ ∃ k < e - b, v < l.getD (b + k) 0 ∧ ∀ i < k, l.getD (b + i) 0 < v))
    (e - b)
    (fun k (_ : Unit) => do
      let x ← rdI l ((b : Int) + k)
      if x = v then .ok (.inr ((b : Int) + k))
      else if x > v then .ok (.inr (-1))
      else .ok (.inl ())) () (by intro i hi; omega)
    (by
      intro k hk _ hI
      have hkl : b + k < l.length := by omega
      have hr : rdI l ((b : Int) + k) = .ok (l.getD (b + k) 0) := by
        rw [show (b : Int) + (k : Int) = ((b + k : Nat) : Int) by omega, rdI, if_pos (Int.natCast_nonneg _), Int.toNat_natCast, rd,
          List.getD_eq_getElem?_getD, List.getElem?_eq_getElem hkl]
        rfl
      rw [hr, ok_bind]
      by_cases h1 : l.getD (b + k) 0 = v
      · right
        rw [if_pos h1]
        refine ⟨_, rfl, Or.inl ⟨b + k, by omega, by omega, h1, fun i hi hik => ?_, by omega⟩⟩
        have := hI (i - b) (by omega)
        rwa [show b + (i - b) = i by omega] at this
      · rw [if_neg h1]
        by_cases h2 : l.getD (b + k) 0 > v
        · right
          rw [if_pos h2]
          exact ⟨_, rfl, Or.inr ⟨rfl, k, hk, h2, hI⟩⟩
        · left
          rw [if_neg h2]
          refine ⟨_, rfl, fun i hi => ?_⟩
          rcases Nat.lt_succ_iff_lt_or_eq.mp hi with h3 | h3
          · exact hI i h3
          · subst h3
            omega)
  have hn : ((e : Int) - (b : Int)).toNat = e - b := by omega
  unfold getIndexOfIn
  rw [hn]
  rcases key with ⟨_, ht, hI⟩ | ⟨r, hr, h⟩
  · right
    refine ⟨fun k hk1 hk2 hv => ?_, by rw [ht, ok_bind]⟩
    have := hI (k - b) (by omega)
    rw [show b + (k - b) = k by omega] at this
    omega
  · rw [hr, ok_bind]
    rcases h with ⟨k, h1, h2, h3, h4, rfl⟩ | ⟨rfl, k, h1, h2, h3⟩
    · exact .inl ⟨k, h1, h2, h3, h4, rfl⟩
    · right
      refine ⟨fun j hj1 hj2 hv => ⟨b + k, by omega, ?_, h2⟩, rfl⟩
      by_contra hc
      rcases Nat.lt_or_ge j (b + k) with hlt | hge
      · have := h3 (j - b) (by omega)
        rw [show b + (j - b) = j by omega] at this
        omega
      · have : j = b + k := by omega
        subst this
        omega

/-- C66: in a sorted range `-1` means that the value does not occur. -/
theorem C66_sorted (v : Int) (l : List Int) (b e : Nat) (hb : b ≤ e) (he : e ≤ l.length)
    (hs : ∀ i k, b ≤ i → i < k → k < e → l.getD i 0 ≤ l.getD k 0) :
    getIndexOfIn v l b e = .ok (-1) ↔ ∀ k, b ≤ k → k < e → l.getD k 0 ≠ v := by
  rcases C66_index v l b e hb he with ⟨k, h1, h2, h3, h4, h5⟩ | ⟨h, h5⟩
  · rw [h5]
    constructor
    · intro h
      injection h with h
      omega
    · intro h
      exact absurd h3 (h k h1 h2)
  · rw [h5]
    refine ⟨fun _ k hk1 hk2 hv => ?_, fun _ => rfl⟩
    obtain ⟨i, hi1, hi2, hi3⟩ := h k hk1 hk2 hv
    have := hs i k hi1 hi2 hk2
    omega

/-- the helpers on numbers -/
example : isEqual (fin (1 : ℚ)) (fin (1 + 1 / 10 ^ 26)) = true ∧ isEqual (fin (1 : ℚ)) (fin (-1)) = false ∧
    getMax (fin (1 : ℚ)) (fin 2) = fin 2 ∧ getMin (fin (1 : ℚ)) (fin 2) = fin 1 ∧ getSign (fin (-3 : ℚ)) = fin (-1) ∧
    getMinInt 3 2 = 2 ∧ getIndexOfIn 5 [1, 5, 7] 0 3 = .ok 1 ∧ getIndexOfIn 1 [5, 1] 0 2 = .ok (-1) := by
  decide +kernel

end LCQ
