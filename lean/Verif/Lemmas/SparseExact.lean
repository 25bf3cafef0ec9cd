import Verif.Lemmas.Sparse

/-! # Sparse kernels in exact arithmetic -/

set_option linter.unusedSectionVars false

namespace LCQ
open Scalar Ext

variable {K : Type} [Field K] [LinearOrder K]

@[simp] theorem CSC.emb_P (S : CSC K) (j : Nat) : S.emb.P j = S.P j := rfl
@[simp] theorem CSC.emb_I (S : CSC K) (j : Nat) : S.emb.I j = S.I j := rfl
@[simp] theorem CSC.emb_m (S : CSC K) : S.emb.m = S.m := rfl
@[simp] theorem CSC.emb_n (S : CSC K) : S.emb.n = S.n := rfl
@[simp] theorem CSC.emb_nzmax (S : CSC K) : S.emb.nzmax = S.nzmax := rfl
@[simp] theorem CSC.emb_x (S : CSC K) : S.emb.x = LCQ.emb S.x := rfl

theorem CSC.Valid.emb {S : CSC K} (h : S.Valid) : S.emb.Valid where
  plen := h.plen
  p0 := h.p0
  mono := h.mono
  nz := h.nz
  ilen := h.ilen
  xlen := by simpa using h.xlen
  rows := h.rows

theorem CSC.Sorted.emb {S : CSC K} (h : S.Sorted) : S.emb.Sorted := h

/-- column sums against the represented matrix -/
theorem CSC.den_sum {S : CSC K} (h : S.Valid) {j : Nat} (hj : j < S.n) (f : Nat → K) :
    ∑ r : Fin S.m, S.den S.m S.n r ⟨j, hj⟩ * f r =
      ∑ k ∈ Finset.Ico (S.P j) (S.P (j + 1)), S.x.getD k 0 * f (S.I k) := by
  simp only [CSC.den, Finset.sum_mul]
  rw [Finset.sum_comm]
  apply Finset.sum_congr rfl
  intro k hk
  rw [Finset.mem_Ico] at hk
  have hI := h.I_lt (h.lt_nnz hj hk.2)
  rw [Finset.sum_eq_single ⟨S.I k, hI⟩]
  · simp
  · intro r _ hr
    rw [if_neg, zero_mul]
    intro e
    exact hr (Fin.ext e.symm)
  · intro hn; exact absurd (Finset.mem_univ _) hn

theorem facc_Ico (a b : Nat) (f : Nat → K) (c : K) :
    facc (fin c) (b - a) (fun k => fin (f (a + k))) = fin (c + ∑ k ∈ Finset.Ico a b, f k) := by
  rw [facc_fin c (b - a) (fun k => f (a + k)), Finset.sum_Ico_eq_sum_range]

theorem colSum_exact {S : CSC K} (h : S.Valid) (v : List K) {j : Nat} (hj : j < S.n) :
    colSum S.emb (emb v) j =
      fin (∑ r : Fin S.m, S.den S.m S.n r ⟨j, hj⟩ * v.getD r 0) := by
  rw [CSC.den_sum h hj (fun r => v.getD r 0)]
  simp only [colSum, CSC.emb_P, CSC.emb_I, CSC.emb_x, gt_emb, fin_mul, zero_fin]
  rw [facc_Ico (S.P j) (S.P (j + 1)) (fun k => S.x.getD k 0 * v.getD (S.I k) 0), zero_add]

theorem scatCol_exact (S : CSC K) (b : List K) (r j : Nat) (a : K) (cnt : Nat) :
    scatCol S.emb (emb b) r j (fin a) cnt =
      fin (a + ∑ k ∈ Finset.range cnt,
        if S.I (S.P j + k) = r then S.x.getD (S.P j + k) 0 * b.getD j 0 else 0) := by
  induction cnt with
  | zero => simp [scatCol]
  | succ n ih =>
    rw [scatCol, ih, Finset.sum_range_succ]
    simp only [CSC.emb_P, CSC.emb_I, CSC.emb_x, gt_emb, fin_mul]
    split
    · rw [fin_add, add_assoc]
    · rw [add_zero]

theorem scat_exact (S : CSC K) (b : List K) (r : Nat) (hr : r < S.m) (n : Nat) (hn : n ≤ S.n) :
    scat S.emb (emb b) r n =
      fin (∑ j : Fin n, S.den S.m S.n ⟨r, hr⟩ ⟨j, by omega⟩ * b.getD j 0) := by
  induction n with
  | zero => simp [scat]
  | succ n ih =>
    rw [scat, ih (by omega), scatCol_exact, Fin.sum_univ_castSucc]
    congr 2
    simp only [CSC.emb_P, CSC.den, Fin.val_last, Finset.sum_mul]
    rw [Finset.sum_Ico_eq_sum_range]
    apply Finset.sum_congr rfl
    intro k _
    split <;> simp

end LCQ
