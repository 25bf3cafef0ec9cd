import Verif.Lemmas.Exact
import Mathlib.Algebra.Order.Group.Unbundled.Abs
import Mathlib.Algebra.Order.Group.Abs

/-! # `MaxAbs` in exact arithmetic with infinities and NaN -/

namespace LCQ
open Scalar Ext

variable {K : Type} [Field K] [LinearOrder K] [IsStrictOrderedRing K]

/-- what the running maximum and minimum know after `n` entries -/
structure MxInv (a : Nat → Ext K) (n : Nat) (u v : Ext K) : Prop where
  top : u = pinf ↔ ∃ i < n, a i = pinf
  bot : v = ninf ↔ ∃ i < n, a i = ninf
  ucase : u = pinf ∨ ∃ p : K, u = fin p ∧ 0 ≤ p ∧ (∀ i < n, ∀ w, a i = fin w → w ≤ p) ∧
    (p = 0 ∨ ∃ i < n, a i = fin p)
  vcase : v = ninf ∨ ∃ q : K, v = fin q ∧ q ≤ 0 ∧ (∀ i < n, ∀ w, a i = fin w → q ≤ w) ∧
    (q = 0 ∨ ∃ i < n, a i = fin q)

theorem mxInv (a : Nat → Ext K) (n : Nat) : MxInv a n (mxmn a n).1 (mxmn a n).2 := by
  induction n with
  | zero =>
    refine ⟨by simp [mxmn], by simp [mxmn], Or.inr ⟨0, by simp [mxmn]⟩, Or.inr ⟨0, by simp [mxmn]⟩⟩
  | succ n ih =>
    obtain ⟨ht, hb, hu, hv⟩ := ih
    generalize hum : (mxmn a n).1 = u at *
    generalize hvm : (mxmn a n).2 = v at *
    have hstep : mxmn a (n + 1) =
        if u <. a n then (a n, v) else if a n <. v then (u, a n) else (u, v) := by
      rw [mxmn]; simp only [hum, hvm]
      split
      · rfl
      · split
        · rfl
        · rw [← hum, ← hvm]
    rw [hstep]
    have ex : ∀ (P : Nat → Prop), (∃ i < n + 1, P i) ↔ (∃ i < n, P i) ∨ P n := by
      intro P
      constructor
      · rintro ⟨i, hi, hP⟩
        rcases Nat.lt_succ_iff_lt_or_eq.mp hi with h | h
        · exact Or.inl ⟨i, h, hP⟩
        · exact Or.inr (h ▸ hP)
      · rintro (⟨i, hi, hP⟩ | hP)
        · exact ⟨i, by omega, hP⟩
        · exact ⟨n, by omega, hP⟩
    have al : ∀ (P : Nat → Prop), (∀ i < n + 1, P i) ↔ (∀ i < n, P i) ∧ P n := by
      intro P
      constructor
      · intro h; exact ⟨fun i hi => h i (by omega), h n (by omega)⟩
      · rintro ⟨h1, h2⟩ i hi
        rcases Nat.lt_succ_iff_lt_or_eq.mp hi with h | h
        · exact h1 i h
        · exact h ▸ h2
    cases hn : a n with
    | nan =>
      have e1 : (u <. (nan : Ext K)) = false := by cases u <;> rfl
      have e2 : ((nan : Ext K) <. v) = false := by cases v <;> rfl
      simp only [e1, e2]
      refine ⟨?_, ?_, ?_, ?_⟩
      · simp [-Order.lt_add_one_iff, ex, ht, hn]
      · simp [-Order.lt_add_one_iff, ex, hb, hn]
      · simpa [-Order.lt_add_one_iff, ex, al, hn] using hu
      · simpa [-Order.lt_add_one_iff, ex, al, hn] using hv
    | pinf =>
      have e2 : ((pinf : Ext K) <. v) = false := by cases v <;> rfl
      rcases hu with rfl | ⟨p, rfl, hp⟩
      · have e1 : ((pinf : Ext K) <. pinf) = false := rfl
        simp only [e1, e2]
        refine ⟨?_, ?_, ?_, ?_⟩
        · simp [-Order.lt_add_one_iff, ex, hn]
        · simp [-Order.lt_add_one_iff, ex, hb, hn]
        · left; rfl
        · simpa [-Order.lt_add_one_iff, ex, al, hn] using hv
      · have e1 : ((fin p : Ext K) <. pinf) = true := rfl
        simp only [e1]
        refine ⟨?_, ?_, ?_, ?_⟩
        · simp [-Order.lt_add_one_iff, ex, hn]
        · simp [-Order.lt_add_one_iff, ex, hb, hn]
        · left; rfl
        · simpa [-Order.lt_add_one_iff, ex, al, hn] using hv
    | ninf =>
      have e1 : (u <. (ninf : Ext K)) = false := by cases u <;> rfl
      rcases hv with rfl | ⟨q, rfl, hq⟩
      · have e2 : ((ninf : Ext K) <. ninf) = false := rfl
        simp only [e1, e2]
        refine ⟨?_, ?_, ?_, ?_⟩
        · simp [-Order.lt_add_one_iff, ex, ht, hn]
        · simp [-Order.lt_add_one_iff, ex, hn]
        · simpa [-Order.lt_add_one_iff, ex, al, hn] using hu
        · left; rfl
      · have e2 : ((ninf : Ext K) <. fin q) = true := rfl
        simp only [e1, e2]
        refine ⟨?_, ?_, ?_, ?_⟩
        · simp [-Order.lt_add_one_iff, ex, ht, hn]
        · simp [-Order.lt_add_one_iff, ex, hn]
        · simpa [-Order.lt_add_one_iff, ex, al, hn] using hu
        · left; rfl
    | fin w =>
      -- the lower part is unchanged when the maximum is updated and vice versa
      rcases hu with rfl | ⟨p, rfl, hp0, hp1, hp2⟩
      · have e1 : ((pinf : Ext K) <. fin w) = false := rfl
        rcases hv with rfl | ⟨q, rfl, hq0, hq1, hq2⟩
        · have e2 : ((fin w : Ext K) <. ninf) = false := rfl
          simp only [e1, e2]
          refine ⟨?_, ?_, Or.inl rfl, Or.inl rfl⟩
          · simpa [-Order.lt_add_one_iff, ex, hn] using ht
          · simpa [-Order.lt_add_one_iff, ex, hn] using hb
        · by_cases hc : w < q
          · have e2 : ((fin w : Ext K) <. fin q) = true := by simp [hc]
            simp only [e1, e2]
            refine ⟨by simpa [-Order.lt_add_one_iff, ex, hn] using ht, by simpa [-Order.lt_add_one_iff, ex, hn] using hb, Or.inl rfl, Or.inr ?_⟩
            refine ⟨w, rfl, by linarith, ?_, Or.inr ⟨n, by omega, hn⟩⟩
            rw [al]
            refine ⟨fun i hi z hz => by have := hq1 i hi z hz; linarith, ?_⟩
            intro z hz; rw [hn] at hz; injection hz with hz; rw [hz]
          · have e2 : ((fin w : Ext K) <. fin q) = false := by simp [hc]
            simp only [e1, e2]
            refine ⟨by simpa [-Order.lt_add_one_iff, ex, hn] using ht, by simpa [-Order.lt_add_one_iff, ex, hn] using hb, Or.inl rfl, Or.inr ?_⟩
            refine ⟨q, rfl, hq0, ?_, ?_⟩
            · rw [al]
              refine ⟨hq1, ?_⟩
              intro z hz; rw [hn] at hz; injection hz with hz; subst hz; exact not_lt.mp hc
            · rcases hq2 with h | ⟨i, hi, h⟩
              · exact Or.inl h
              · exact Or.inr ⟨i, by omega, h⟩
      · by_cases hc1 : p < w
        · have e1 : ((fin p : Ext K) <. fin w) = true := by simp [hc1]
          simp only [e1]
          refine ⟨by simpa [-Order.lt_add_one_iff, ex, hn] using ht, by simpa [-Order.lt_add_one_iff, ex, hn] using hb, Or.inr ?_, ?_⟩
          · refine ⟨w, rfl, by linarith, ?_, Or.inr ⟨n, by omega, hn⟩⟩
            rw [al]
            refine ⟨fun i hi z hz => by have := hp1 i hi z hz; linarith, ?_⟩
            intro z hz; rw [hn] at hz; injection hz with hz; rw [hz]
          · rcases hv with h | ⟨q, hq, hq0, hq1, hq2⟩
            · exact Or.inl h
            · refine Or.inr ⟨q, hq, hq0, ?_, ?_⟩
              · rw [al]
                refine ⟨hq1, ?_⟩
                intro z hz; rw [hn] at hz; injection hz with hz; subst hz; linarith
              · rcases hq2 with h | ⟨i, hi, h⟩
                · exact Or.inl h
                · exact Or.inr ⟨i, by omega, h⟩
        · have e1 : ((fin p : Ext K) <. fin w) = false := by simp [hc1]
          have hu' : ∃ p' : K, (fin p : Ext K) = fin p' ∧ 0 ≤ p' ∧
              (∀ i < n + 1, ∀ w, a i = fin w → w ≤ p') ∧ (p' = 0 ∨ ∃ i < n + 1, a i = fin p') := by
            refine ⟨p, rfl, hp0, ?_, ?_⟩
            · rw [al]
              refine ⟨hp1, ?_⟩
              intro z hz; rw [hn] at hz; injection hz with hz; subst hz; exact not_lt.mp hc1
            · rcases hp2 with h | ⟨i, hi, h⟩
              · exact Or.inl h
              · exact Or.inr ⟨i, by omega, h⟩
          rcases hv with rfl | ⟨q, rfl, hq0, hq1, hq2⟩
          · have e2 : ((fin w : Ext K) <. ninf) = false := rfl
            simp only [e1, e2]
            exact ⟨by simpa [-Order.lt_add_one_iff, ex, hn] using ht, by simpa [-Order.lt_add_one_iff, ex, hn] using hb, Or.inr hu', Or.inl rfl⟩
          · by_cases hc : w < q
            · have e2 : ((fin w : Ext K) <. fin q) = true := by simp [hc]
              simp only [e1, e2]
              refine ⟨by simpa [-Order.lt_add_one_iff, ex, hn] using ht, by simpa [-Order.lt_add_one_iff, ex, hn] using hb, Or.inr hu', Or.inr ?_⟩
              refine ⟨w, rfl, by linarith, ?_, Or.inr ⟨n, by omega, hn⟩⟩
              rw [al]
              refine ⟨fun i hi z hz => by have := hq1 i hi z hz; linarith, ?_⟩
              intro z hz; rw [hn] at hz; injection hz with hz; rw [hz]
            · have e2 : ((fin w : Ext K) <. fin q) = false := by simp [hc]
              simp only [e1, e2]
              refine ⟨by simpa [-Order.lt_add_one_iff, ex, hn] using ht, by simpa [-Order.lt_add_one_iff, ex, hn] using hb, Or.inr hu', Or.inr ?_⟩
              refine ⟨q, rfl, hq0, ?_, ?_⟩
              · rw [al]
                refine ⟨hq1, ?_⟩
                intro z hz; rw [hn] at hz; injection hz with hz; subst hz; exact not_lt.mp hc
              · rcases hq2 with h | ⟨i, hi, h⟩
                · exact Or.inl h
                · exact Or.inr ⟨i, by omega, h⟩

/-- complete description of `MaxAbs`: `+inf` iff an entry is infinite, otherwise the largest
absolute value of the finite entries; NaN entries do not contribute. -/
theorem maxAbsF_spec (a : Nat → Ext K) (n : Nat) :
    (maxAbsF a n = pinf ∧ ∃ i < n, a i = pinf ∨ a i = ninf) ∨
    (∃ r : K, maxAbsF a n = fin r ∧ (∀ i < n, a i ≠ pinf ∧ a i ≠ ninf) ∧
      (∀ i < n, ∀ w, a i = fin w → |w| ≤ r) ∧ 0 ≤ r ∧ (r = 0 ∨ ∃ i < n, ∃ w, a i = fin w ∧ |w| = r)) := by
  obtain ⟨ht, hb, hu, hv⟩ := mxInv a n
  unfold maxAbsF
  generalize (mxmn a n).1 = u at *
  generalize (mxmn a n).2 = v at *
  rcases hu with rfl | ⟨p, rfl, hp0, hp1, hp2⟩
  · obtain ⟨i, hi, hai⟩ := ht.mp rfl
    left
    refine ⟨?_, i, hi, Or.inl hai⟩
    rcases hv with rfl | ⟨q, rfl, _⟩ <;> rfl
  · rcases hv with rfl | ⟨q, rfl, hq0, hq1, hq2⟩
    · obtain ⟨i, hi, hai⟩ := hb.mp rfl
      left
      exact ⟨rfl, i, hi, Or.inr hai⟩
    · right
      have hno : ∀ i < n, a i ≠ pinf ∧ a i ≠ ninf := by
        intro i hi
        constructor
        · intro h; have := ht.mpr ⟨i, hi, h⟩; cases this
        · intro h; have := hb.mpr ⟨i, hi, h⟩; cases this
      have habs : ∀ i < n, ∀ w, a i = fin w → |w| ≤ max p (-q) := by
        intro i hi w hw
        have h1 := hp1 i hi w hw
        have h2 := hq1 i hi w hw
        rw [abs_le]
        constructor
        · have := le_max_right p (-q); linarith
        · have := le_max_left p (-q); linarith
      refine ⟨max p (-q), ?_, hno, habs, le_trans hp0 (le_max_left _ _), ?_⟩
      · simp only [getMax, fin_neg, fin_lt]
        by_cases h : -q < p
        · simp [h, max_eq_left h.le]
        · simp [h, max_eq_right (not_lt.mp h)]
      · rcases le_total p (-q) with h | h
        · rw [max_eq_right h]
          rcases hq2 with h2 | ⟨i, hi, h2⟩
          · left; rw [h2, neg_zero]
          · right; exact ⟨i, hi, q, h2, abs_of_nonpos hq0⟩
        · rw [max_eq_left h]
          rcases hp2 with h2 | ⟨i, hi, h2⟩
          · left; exact h2
          · right; exact ⟨i, hi, p, h2, abs_of_nonneg hp0⟩

end LCQ
