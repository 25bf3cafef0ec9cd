import Verif.Lemmas.Convert

/-! # The sparse symmetrisation product -/

set_option linter.unusedSectionVars false

namespace LCQ
open Scalar Ext

/-- search in a column: a hit is a correct hit; a miss means no entry, if rows are sorted. -/
theorem getIndexOfIn_ok {α : Type} (S : CSC α) (h : S.ValidPtr) (v : Int) {j : Nat} (hj : j < S.n) :
    (∃ k, S.P j ≤ k ∧ k < S.P (j + 1) ∧ S.i.getD k 0 = v ∧
      getIndexOfIn v S.i (S.P j) (S.P (j + 1)) = .ok (k : Int)) ∨
    ((S.Sorted → ∀ k, S.P j ≤ k → k < S.P (j + 1) → S.i.getD k 0 ≠ v) ∧
      getIndexOfIn v S.i (S.P j) (S.P (j + 1)) = .ok (-1)) := by
  have key := loopE_inv (σ := Unit) (ρ := Int)
    (fun k _ => ∀ k' < k, S.i.getD (S.P j + k') 0 < v)
    (fun r => (∃ k, S.P j ≤ k ∧ k < S.P (j + 1) ∧ S.i.getD k 0 = v ∧ r = (k : Int)) ∨
      (r = -1 ∧ ∃ k < S.P (j + 1) - S.P j, v < S.i.getD (S.P j + k) 0 ∧
        ∀ k' < k, S.i.getD (S.P j + k') 0 < v))
    (S.P (j + 1) - S.P j)
    (fun k (_ : Unit) => do
      let e ← rdI S.i ((S.P j : Int) + k)
      if e = v then .ok (.inr ((S.P j : Int) + k))
      else if e > v then .ok (.inr (-1))
      else .ok (.inl ())) () (by intro k' hk'; omega)
    (by
      intro k hk _ hI
      have hkk := h.lt_nnz (k := S.P j + k) hj (by omega)
      rw [show (S.P j : Int) + (k : Int) = ((S.P j + k : Nat) : Int) by omega, rdI_nat,
        rdi_ok (h.i_lt hkk), ok_bind]
      by_cases h1 : gtI S.i (S.P j + k) = v
      · right
        rw [if_pos h1]
        exact ⟨_, rfl, Or.inl ⟨_, by omega, by omega, h1, rfl⟩⟩
      · rw [if_neg h1]
        by_cases h2 : gtI S.i (S.P j + k) > v
        · right
          rw [if_pos h2]
          exact ⟨_, rfl, Or.inr ⟨rfl, k, hk, h2, hI⟩⟩
        · left
          rw [if_neg h2]
          refine ⟨_, rfl, ?_⟩
          intro k' hk'
          rcases Nat.lt_succ_iff_lt_or_eq.mp hk' with h3 | h3
          · exact hI k' h3
          · subst h3
            change ¬ (S.i.getD (S.P j + k') 0 = v) at h1
            change ¬ (S.i.getD (S.P j + k') 0 > v) at h2
            omega)
  have hn : ((S.P (j + 1) : Int) - (S.P j : Int)).toNat = S.P (j + 1) - S.P j := by omega
  unfold getIndexOfIn
  rw [hn]
  rcases key with ⟨_, ht, hI⟩ | ⟨r, hr, he⟩
  · right
    refine ⟨fun _ k hk1 hk2 => ?_, by rw [ht, ok_bind]⟩
    have := hI (k - S.P j) (by omega)
    rw [show S.P j + (k - S.P j) = k by omega] at this
    omega
  · rw [hr, ok_bind]
    rcases he with ⟨k, h1, h2, h3, rfl⟩ | ⟨rfl, k, hk, h1, h2⟩
    · exact Or.inl ⟨k, h1, h2, h3, rfl⟩
    · right
      refine ⟨fun hs l hl1 hl2 => ?_, rfl⟩
      rcases Nat.lt_trichotomy (l - S.P j) k with h3 | h3 | h3
      · have := h2 (l - S.P j) h3
        rw [show S.P j + (l - S.P j) = l by omega] at this
        omega
      · rw [show l = S.P j + k by omega]; omega
      · have := hs j hj (S.P j + k) l (by omega) (by omega) hl2
        omega

section generic
variable {α : Type} [Scalar α]

/-- `colDot` never faults on valid matrices. -/
theorem colDot_safe (X Y : CSC α) (hX : X.Valid) (hY : Y.ValidPtr) {i j : Nat} (hi : i < X.n)
    (hj : j < Y.n) (tmp : α) : ∃ v, colDot X Y i j tmp = .ok v := by
  unfold colDot
  rw [hX.rd_p (by omega), ok_bind, hX.rd_p (by omega), ok_bind, loopI_nat]
  obtain ⟨t, ht, _⟩ := loop_inv (fun _ (_ : α) => True) (X.P (i + 1) - X.P i) (fun k tmp => do
    let r ← rdI X.i ((X.P i + k : Nat) : Int)
    let ylo ← rd Y.p j
    let yhi ← rd Y.p (j + 1)
    let ind ← getIndexOfIn r Y.i ylo yhi
    if ind ≠ -1 then do
      let a ← rdI X.x ((X.P i + k : Nat) : Int)
      let b ← rdI Y.x ind
      .ok (tmp +. a *. b)
    else .ok tmp) tmp trivial
    (by
      intro k hk t _
      have hkk := hX.lt_nnz (k := X.P i + k) hi (by omega)
      rw [hX.rd_i hkk, ok_bind, hY.rd_p (by omega), ok_bind, hY.rd_p (by omega), ok_bind]
      rcases getIndexOfIn_ok Y hY (X.I (X.P i + k)) hj with ⟨l, h1, h2, h3, h4⟩ | ⟨_, h4⟩
      · rw [h4, ok_bind, if_pos (by omega), hX.rd_x hkk, ok_bind,
          hY.rd_x (hY.lt_nnz hj h2), ok_bind]
        exact ⟨_, rfl, trivial⟩
      · rw [h4, ok_bind]
        exact ⟨_, rfl, trivial⟩)
  exact ⟨t, ht⟩

/-- column `j` of the sparse symmetrisation for given entry values `V i j` -/
def symCol (n : Nat) (V : Nat → Nat → α) (j : Nat) : List (Int × α) :=
  (List.range n).flatMap fun i => if !isZero (V i j) then [((i : Int), V i j)] else []

theorem symProdSparse_ok (L R : CSC α) (V : Nat → Nat → α)
    (hV : ∀ i < L.n, ∀ j < L.n,
      (do let tmp ← colDot L R i j zero; colDot R L i j tmp) = .ok (V i j)) :
    symProdSparse L R = .ok (if (ents (symCol L.n V) L.n).length = 0 then none
      else some (cscOf L.n L.n (symCol L.n V))) := by
  unfold symProdSparse
  simp only
  rw [build_outer L.n _ (symCol L.n V), ok_bind]
  · by_cases h : (ents (symCol L.n V) L.n).length = 0
    · simp [buildOf, h]
    · simp only [buildOf, List.length_map, h, if_false]
      simp [createCSC, cscOf]
  · intro j hj b
    apply build_inner
    intro i hi b
    have := hV i hi j hj
    rw [bind_eq_ok] at this
    obtain ⟨a, ha, ha'⟩ := this
    rw [ha, ok_bind, ha', ok_bind]
    split
    · rw [addAll_push]
    · simp

theorem symCol_mem {n : Nat} {V : Nat → Nat → α} {j : Nat} {e : Int × α} (h : e ∈ symCol n V j) :
    ∃ i < n, e = ((i : Int), V i j) ∧ isZero (V i j) = false := by
  simp only [symCol, List.mem_flatMap, List.mem_range] at h
  obtain ⟨i, hi, he⟩ := h
  split at he
  · rename_i ht
    simp at he ht
    exact ⟨i, hi, he, ht⟩
  · simp at he

theorem symCol_sorted (n : Nat) (V : Nat → Nat → α) (j : Nat) :
    (symCol n V j).Pairwise (fun a b => a.1 < b.1) := by
  unfold symCol
  rw [List.pairwise_flatMap]
  constructor
  · intro a _
    split <;> simp
  · apply List.Pairwise.imp _ List.pairwise_lt_range
    intro a b hab x hx y hy
    split at hx <;> split at hy <;> simp at hx hy
    subst hx hy
    simpa using hab

end generic

section exact
variable {K : Type} [Field K] [LinearOrder K]

theorem cscOf_den (m n : Nat) (E : Nat → List (Int × K)) (r : Fin m) (c : Fin n) :
    (cscOf m n E).den m n r c = ((E c).map fun e => if e.1.toNat = (r : Nat) then e.2 else 0).sum := by
  simp only [CSC.den]
  rw [cscOf_P _ _ _ (by omega), cscOf_P _ _ _ (by omega), Finset.sum_Ico_eq_sum_range, ents_succ,
    List.length_append, Nat.add_sub_cancel_left, Finset.sum_range]
  rw [← Fin.sum_univ_fun_getElem]
  apply Finset.sum_congr rfl
  intro k _
  have h1 := cscOf_i m n E c.2 k.2
  have h2 := cscOf_x? m n E c.2 k.2
  simp only [CSC.I, h1]
  simp [h2]

theorem cscOf_emb (m n : Nat) (E : Nat → List (Int × K)) :
    (cscOf m n E).emb = cscOf m n (fun c => (E c).map fun e => (e.1, fin e.2)) := by
  have hents : ∀ j, ents (fun c => (E c).map fun e => (e.1, fin e.2)) j =
      (ents E j).map fun e => (e.1, fin e.2) := by
    intro j
    simp [ents, List.map_flatMap]
  simp only [cscOf, CSC.emb, emb, hents, List.length_map, List.map_map]
  congr 1

/-- in a sorted column at most one entry contributes -/
theorem den_eq_of_hit {S : CSC K} (hs : S.Simple) (h : S.Valid) {j : Nat} (hj : j < S.n) {k : Nat}
    (h1 : S.P j ≤ k) (h2 : k < S.P (j + 1)) (r : Fin S.m) (hr : S.I k = r) :
    S.den S.m S.n r ⟨j, hj⟩ = S.x.getD k 0 := by
  simp only [CSC.den]
  rw [Finset.sum_eq_single k]
  · rw [if_pos hr]
  · intro l hl hlk
    rw [Finset.mem_Ico] at hl
    rw [if_neg]
    intro hl'
    have e1 := (h.rows k (h.lt_nnz hj h2)).1
    have e2 := (h.rows l (h.lt_nnz hj hl.2)).1
    have e3 : S.i.getD k 0 = S.i.getD l 0 := by
      have : S.I k = S.I l := by rw [hr, hl']
      simp only [CSC.I] at this
      omega
    rcases Nat.lt_or_gt_of_ne hlk with h3 | h3
    · have := hs j hj l k hl.1 h3 h2
      omega
    · have := hs j hj k l h1 h3 hl.2
      omega
  · intro hk
    exact absurd (Finset.mem_Ico.mpr ⟨h1, h2⟩) hk

theorem den_eq_of_miss {S : CSC K} (h : S.Valid) {j : Nat} (hj : j < S.n) (r : Fin S.m)
    (hm : ∀ k, S.P j ≤ k → k < S.P (j + 1) → S.i.getD k 0 ≠ (r : Nat)) :
    S.den S.m S.n r ⟨j, hj⟩ = 0 := by
  simp only [CSC.den]
  apply Finset.sum_eq_zero
  intro k hk
  rw [Finset.mem_Ico] at hk
  rw [if_neg]
  intro e
  have e1 := (h.rows k (h.lt_nnz hj hk.2)).1
  apply hm k hk.1 hk.2
  simp only [CSC.I] at e
  omega

/-- `colDot` adds the `(i,j)` entry of `X'Y` when the columns of `Y` are sorted. -/
theorem colDot_exact {X Y : CSC K} (hX : X.Valid) (hY : Y.Valid) (hs : Y.Sorted) (hm : X.m = Y.m)
    {i j : Nat} (hi : i < X.n) (hj : j < Y.n) (tmp : K) :
    colDot X.emb Y.emb i j (fin tmp) = .ok (fin (tmp +
      ∑ r : Fin X.m, X.den X.m X.n r ⟨i, hi⟩ * Y.den Y.m Y.n (r.cast hm) ⟨j, hj⟩)) := by
  have hden := CSC.den_sum hX hi (fun r => if hr : r < Y.m then Y.den Y.m Y.n ⟨r, hr⟩ ⟨j, hj⟩ else 0)
  have e1 : ∑ r : Fin X.m, X.den X.m X.n r ⟨i, hi⟩ * Y.den Y.m Y.n (r.cast hm) ⟨j, hj⟩ =
      ∑ r : Fin X.m, X.den X.m X.n r ⟨i, hi⟩ *
        (if hr : (r : Nat) < Y.m then Y.den Y.m Y.n ⟨r, hr⟩ ⟨j, hj⟩ else 0) := by
    apply Finset.sum_congr rfl
    intro r _
    rw [dif_pos (by omega)]
    rfl
  rw [e1, hden]
  unfold colDot
  have hXe := hX.emb
  have hYe := hY.emb
  rw [hXe.rd_p (by simp; omega), ok_bind, hXe.rd_p (by simp; omega), ok_bind, loopI_nat]
  simp only [CSC.emb_P]
  rw [← facc_Ico (X.P i) (X.P (i + 1)) (fun k => X.x.getD k 0 *
    if hr : X.I k < Y.m then Y.den Y.m Y.n ⟨X.I k, hr⟩ ⟨j, hj⟩ else 0) tmp]
  apply loop_eq (fun cnt => facc (fin tmp) cnt (fun k => fin (X.x.getD (X.P i + k) 0 *
    if hr : X.I (X.P i + k) < Y.m then Y.den Y.m Y.n ⟨X.I (X.P i + k), hr⟩ ⟨j, hj⟩ else 0))) _ _ _ rfl
  intro k hk
  have hkk := hX.lt_nnz (k := X.P i + k) hi (by omega)
  have hIm := hX.I_lt hkk
  rw [hXe.rd_i (k := X.P i + k) hkk, ok_bind, hYe.rd_p (by simp; omega), ok_bind,
    hYe.rd_p (by simp; omega), ok_bind]
  simp only [CSC.emb_P, CSC.emb_I]
  rw [facc, dif_pos (by omega)]
  rcases getIndexOfIn_ok Y.emb hYe.toValidPtr (X.I (X.P i + k)) (j := j) hj with
    ⟨l, h1, h2, h3, h4⟩ | ⟨hmiss, h4⟩
  · simp only [CSC.emb_P] at h1 h2 h4
    rw [h4, ok_bind, if_pos (by omega), hXe.rd_x hkk, ok_bind, hYe.rd_x (hY.lt_nnz hj h2), ok_bind]
    rw [den_eq_of_hit hs.simple hY hj h1 h2 ⟨X.I (X.P i + k), by omega⟩ (by
      change Y.i.getD l 0 = _ at h3
      rw [CSC.I, h3, Int.toNat_natCast])]
    simp only [CSC.emb_x, gt_emb, fin_mul]
  · simp only [CSC.emb_P] at h4 hmiss
    rw [h4, ok_bind]
    rw [den_eq_of_miss hY hj ⟨X.I (X.P i + k), by omega⟩ (by
      intro l hl1 hl2
      exact hmiss hs.emb l hl1 hl2)]
    generalize facc (fin tmp) k _ = z
    simp only [mul_zero]
    have : z +. fin 0 = z := by
      cases z with
      | fin a => simp
      | pinf => rfl
      | ninf => rfl
      | nan => rfl
    rw [this]
    simp

/-- entries of the symmetrised product of two sparse matrices -/
theorem symVal_exact {L R : CSC K} (hL : L.Valid) (hR : R.Valid) (hsL : L.Sorted) (hsR : R.Sorted)
    (m n : Nat) (hLm : L.m = m) (hLn : L.n = n) (hRm : R.m = m) (hRn : R.n = n) (i j : Fin n) :
    (do let tmp ← colDot L.emb R.emb i j zero; colDot R.emb L.emb i j tmp) =
      .ok (fin (((L.den m n).transpose * R.den m n + (R.den m n).transpose * L.den m n) i j)) := by
  obtain ⟨m1, n1, nz1, P1, I1, X1⟩ := L
  obtain ⟨m2, n2, nz2, P2, I2, X2⟩ := R
  simp only at hLm hLn hRm hRn
  subst hLm hLn hRm hRn
  rw [zero_fin, colDot_exact hL hR hsR rfl i.2 j.2 0, ok_bind, colDot_exact hR hL hsL rfl i.2 j.2]
  simp only [Matrix.add_apply, Matrix.mul_apply, Matrix.transpose_apply, zero_add]
  rfl

end exact
end LCQ
