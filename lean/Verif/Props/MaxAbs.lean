import Verif.Lemmas.MaxAbs
import Mathlib.Algebra.Order.Ring.Rat

/-! # C06 (`MaxAbs`), C07 (weighted sums) -/

set_option linter.unusedSectionVars false

namespace LCQ
open Scalar Ext

section
variable {K : Type} [Field K] [LinearOrder K] [IsStrictOrderedRing K]

/-- C06: on finite vectors `MaxAbs` is the infinity norm (an upper bound that is attained,
or 0 for the empty vector). -/
theorem C06_finite (a : List K) :
    ∃ r : K, maxAbs (emb a) a.length = .ok (fin r) ∧ (∀ w ∈ a, |w| ≤ r) ∧
      ((a = [] ∧ r = 0) ∨ ∃ w ∈ a, |w| = r) := by
  rw [maxAbs_ok (by simp)]
  rcases maxAbsF_spec (gt (emb a)) a.length with ⟨_, i, hi, h⟩ | ⟨r, hr, _, h2, h3, h4⟩
  · simp [gt_emb] at h
  · have hget : ∀ i < a.length, gt (emb a) i = fin (a.getD i 0) := fun i _ => gt_emb a i
    have hb : ∀ w ∈ a, |w| ≤ r := by
      intro w hw
      obtain ⟨i, hi, rfl⟩ := List.getElem_of_mem hw
      apply h2 i hi
      rw [gt_emb]
      simp [List.getD_eq_getElem?_getD, hi]
    refine ⟨r, by rw [hr], hb, ?_⟩
    rcases h4 with h4 | ⟨i, hi, w, hw, hwr⟩
    · cases a with
      | nil => exact Or.inl ⟨rfl, h4⟩
      | cons x t =>
        right
        refine ⟨x, by simp, le_antisymm (hb x (by simp)) ?_⟩
        rw [h4]; exact abs_nonneg x
    · right
      rw [gt_emb] at hw
      injection hw with hw
      refine ⟨w, ?_, hwr⟩
      rw [← hw]
      simp [List.getD_eq_getElem?_getD, hi]

/-- C06: an infinite entry gives `+inf`. -/
theorem C06_infinite (a : List (Ext K)) (h : pinf ∈ a ∨ ninf ∈ a) :
    maxAbs a a.length = .ok pinf := by
  rw [maxAbs_ok (le_refl _)]
  rcases maxAbsF_spec (gt a) a.length with ⟨hr, _⟩ | ⟨r, hr, h1, _⟩
  · rw [hr]
  · exfalso
    rcases h with h | h <;>
    · obtain ⟨i, hi, hi2⟩ := List.getElem_of_mem h
      have : gt a i = a[i] := by simp [gt, List.getD_eq_getElem?_getD, hi]
      have h2 := h1 i hi
      rw [this, hi2] at h2
      simp at h2

/-- C06: NaN entries are ignored: the value is the one of the vector without its NaN entries. -/
theorem C06_nan_ignored (a : List (Ext K)) :
    maxAbs a a.length = maxAbs (a.filter (· ≠ nan)) (a.filter (· ≠ nan)).length := by
  have key : ∀ (a : List (Ext K)), mxmn (gt a) a.length =
      a.foldl (fun s v => if s.1 <. v then (v, s.2) else if v <. s.2 then (s.1, v) else s)
        ((zero, zero) : Ext K × Ext K) := by
    intro a
    have : ∀ n ≤ a.length, mxmn (gt a) n = (a.take n).foldl
        (fun s v => if s.1 <. v then (v, s.2) else if v <. s.2 then (s.1, v) else s)
        ((zero, zero) : Ext K × Ext K) := by
      intro n hn
      induction n with
      | zero => simp [mxmn]
      | succ n ih =>
        rw [mxmn, ih (by omega), List.take_succ_eq_append_getElem (by omega), List.foldl_append]
        have : gt a n = a[n] := by
          have : n < a.length := by omega
          simp [gt, List.getD_eq_getElem?_getD, this]
        simp [this]
    have h := this a.length (le_refl _)
    rwa [List.take_length] at h
  rw [maxAbs_ok (le_refl _), maxAbs_ok (le_refl _)]
  simp only [maxAbsF, key]
  have hfold : ∀ (l : List (Ext K)) (s : Ext K × Ext K),
      l.foldl (fun s v => if s.1 <. v then (v, s.2) else if v <. s.2 then (s.1, v) else s) s =
      (l.filter (· ≠ nan)).foldl
        (fun s v => if s.1 <. v then (v, s.2) else if v <. s.2 then (s.1, v) else s) s := by
    intro l
    induction l with
    | nil => intro s; rfl
    | cons x t ih =>
      intro s
      cases x with
      | nan =>
        have e1 : (s.1 <. (nan : Ext K)) = false := by cases s.1 <;> rfl
        have e2 : ((nan : Ext K) <. s.2) = false := by cases s.2 <;> rfl
        simp only [List.foldl_cons, e1, e2]
        rw [List.filter_cons_of_neg (by simp)]
        exact ih s
      | fin w =>
        rw [List.filter_cons_of_pos (by simp), List.foldl_cons, List.foldl_cons]
        exact ih _
      | pinf =>
        rw [List.filter_cons_of_pos (by simp), List.foldl_cons, List.foldl_cons]
        exact ih _
      | ninf =>
        rw [List.filter_cons_of_pos (by simp), List.foldl_cons, List.foldl_cons]
        exact ih _
  rw [hfold]

end

example : maxAbs (emb [1, -3, (2 : ℚ)]) 3 = .ok (fin 3) := by decide +kernel
/-- a vector of NaNs has `MaxAbs = 0`. -/
example : maxAbs ([nan, nan] : List (Ext ℚ)) 2 = .ok (fin 0) := by decide +kernel

variable {α : Type} [Scalar α]

/-- C07: weighted sums are element-wise in every arithmetic; the output may alias either input
(`Src.dst`), in which case the values before the call are used. -/
theorem C07_weightedAdd (alpha beta : α) (A B : Src α) (C : List α) (m n : Nat)
    (hA : (A.val C).length = m * n) (hB : (B.val C).length = m * n) (hC : C.length = m * n) :
    ∃ D, weightedAdd alpha A beta B C m n = .ok D ∧ D.length = m * n ∧
      ∀ (t : Nat) (a b : α), (A.val C)[t]? = some a → (B.val C)[t]? = some b →
        D[t]? = some (alpha *. a +. beta *. b) := by
  refine ⟨_, weightedAdd_ok hA hB hC, by simp, ?_⟩
  intro t a b ha hb
  have ht : t < m * n := by rw [← hA]; exact (List.getElem?_eq_some_iff.mp ha).1
  rw [grid, tab_getElem? _ ht]
  rw [Nat.div_add_mod']
  have h1 : gt (A.val C) t = a := by simp [gt, List.getD_eq_getElem?_getD, ha]
  have h2 : gt (B.val C) t = b := by simp [gt, List.getD_eq_getElem?_getD, hb]
  rw [h1, h2]

/-- C07: in-place use gives the same result as separate arrays. -/
theorem C07_alias (alpha beta : α) (a b : List α) (m n : Nat)
    (ha : a.length = m * n) (hb : b.length = m * n) (c : List α) (hc : c.length = m * n) :
    weightedAdd alpha .dst beta (.buf b) a m n = weightedAdd alpha (.buf a) beta (.buf b) c m n ∧
    weightedAdd alpha (.buf a) beta .dst b m n = weightedAdd alpha (.buf a) beta (.buf b) c m n := by
  constructor
  · rw [weightedAdd_ok (by simpa [Src.val]) (by simpa [Src.val]) ha,
      weightedAdd_ok (by simpa [Src.val]) (by simpa [Src.val]) hc]
    rfl
  · rw [weightedAdd_ok (by simpa [Src.val]) (by simpa [Src.val]) hb,
      weightedAdd_ok (by simpa [Src.val]) (by simpa [Src.val]) hc]
    rfl

example : weightedVecAdd (fin 1) .dst (fin (-1)) (.buf (emb [1, 2])) (emb [5, (7 : ℚ)]) 2
    = .ok (emb [4, 5]) := by decide +kernel

end LCQ
