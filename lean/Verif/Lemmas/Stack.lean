import Verif.Lemmas.LoadSparse

/-!
# The matrices stored by the load functions, exact arithmetic
-/

set_option linter.unusedSectionVars false

namespace LCQ
open Scalar Ext

variable {K : Type} [Field K] [LinearOrder K] {n : Dims}

/-! ## dense -/

theorem take_emb (X : List K) (k : Nat) : (emb X).take k = emb (X.take k) := by simp [emb, List.map_take]
theorem emb_append (X Y : List K) : emb X ++ emb Y = emb (X ++ Y) := by simp [emb]

theorem mat_take (m k : Nat) (X : List K) : mat m k (X.take (m * k)) = mat m k X := by
  ext i j
  simp only [mat]
  rw [List.getD_eq_getElem?_getD, List.getD_eq_getElem?_getD, List.getElem?_take, if_pos (idx_lt i.2 j.2)]

theorem vec_take (m : Nat) (X : List K) : vec m (X.take m) = vec m X := by
  ext i
  simp only [vec]
  rw [List.getD_eq_getElem?_getD, List.getD_eq_getElem?_getD, List.getElem?_take, if_pos i.2]

theorem dns_take {m k : Nat} {X : List K} (h : m * k ≤ X.length) : DnsIs (some ((emb X).take (m * k))) m k (mat m k X) :=
  ⟨X.take (m * k), by rw [take_emb], by simpa using h, mat_take m k X⟩

theorem getD_append_l {β : Type} (x y : List β) (d : β) {k : Nat} (h : k < x.length) : (x ++ y).getD k d = x.getD k d := by
  simp [List.getD_eq_getElem?_getD, List.getElem?_append_left h]

theorem getD_append_r {β : Type} (x y : List β) (d : β) {k : Nat} (h : x.length ≤ k) :
    (x ++ y).getD k d = y.getD (k - x.length) d := by
  simp [List.getD_eq_getElem?_getD, List.getElem?_append_right h]

theorem stack_dense {A L R : List K} (hA : A.length = n.nC * n.nV) (hL : L.length = n.nComp * n.nV)
    (hR : R.length = n.nComp * n.nV) :
    mat n.nA n.nV (A ++ L ++ R) = stackRows n (mat n.nC n.nV A) (mat n.nComp n.nV L) (mat n.nComp n.nV R) := by
  ext r c
  simp only [mat, stackRows]
  split
  · rename_i h
    have := idx_lt h c.2
    rw [List.append_assoc, getD_append_l _ _ _ (by omega)]
  · rename_i h1
    obtain ⟨r', hr⟩ := Nat.exists_eq_add_of_le (Nat.le_of_not_lt h1)
    split
    · rename_i h2
      have := idx_lt (show r' < n.nComp by omega) c.2
      have e1 : r.1 * n.nV + c.1 = A.length + (r' * n.nV + c.1) := by rw [hr, hA]; ring
      rw [e1, getD_append_l _ _ _ (by rw [List.length_append]; omega), getD_append_r _ _ _ (by omega)]
      congr 1
      rw [Nat.add_sub_cancel_left, hr, Nat.add_sub_cancel_left]
    · rename_i h2
      obtain ⟨r'', hr'⟩ := Nat.exists_eq_add_of_le (Nat.le_of_not_lt h2)
      have e1 : r.1 * n.nV + c.1 = (A ++ L).length + (r'' * n.nV + c.1) := by
        rw [hr', List.length_append, hA, hL]; ring
      rw [e1, getD_append_r _ _ _ (by omega)]
      congr 1
      rw [Nat.add_sub_cancel_left, hr', Nat.add_sub_cancel_left]

/-! ## sparse -/

/-- stored entries of a column over `K` -/
def colK (S : CSC K) (c : Nat) : List (Int × K) :=
  (List.range (S.P (c + 1) - S.P c)).map fun k => (S.i.getD (S.P c + k) 0, S.x.getD (S.P c + k) 0)

/-- embedding of a list of entries -/
def embE (l : List (Int × K)) : List (Int × Ext K) := l.map fun e => (e.1, fin e.2)

theorem col_emb (S : CSC K) (c : Nat) : S.emb.col c = embE (colK S c) := by
  simp only [CSC.col, colK, embE, List.map_map]
  apply List.map_congr_left
  intro k _
  simp only [Function.comp_apply, CSC.emb_P, CSC.emb_x, gt_emb]
  rfl

/-- the copy, over `K` -/
def trimK (S : CSC K) : CSC K := { S with
  i := S.i.take S.nzmax
  x := S.x.take S.nzmax }

theorem trim_emb (S : CSC K) : S.emb.trim = (trimK S).emb := by
  simp [CSC.trim, trimK, CSC.emb, take_emb]

theorem trimK_valid {S : CSC K} (h : S.Valid) : (trimK S).Valid where
  plen := h.plen
  p0 := h.p0
  mono := h.mono
  nz := h.nz
  ilen := by have := h.ilen; simp [trimK]; omega
  xlen := by have := h.xlen; simp [trimK]; omega
  rows := by
    intro k hk
    have h1 : k < S.P S.n := hk
    have := h.nz
    show 0 ≤ (S.i.take S.nzmax).getD k 0 ∧ (S.i.take S.nzmax).getD k 0 < S.m
    rw [getD_take _ _ (by omega)]
    exact h.rows k h1

theorem trimK_sorted {S : CSC K} (h : S.Valid) (hs : S.Sorted) : (trimK S).Sorted := by
  intro j hj k l hk hkl hl
  have h1 : l < S.P S.n := h.lt_nnz hj hl
  have := h.nz
  show (S.i.take S.nzmax).getD k 0 < (S.i.take S.nzmax).getD l 0
  rw [getD_take _ _ (by omega), getD_take _ _ (by omega)]
  exact hs j hj k l hk hkl hl

theorem trimK_den {S : CSC K} (h : S.Valid) {m k : Nat} (hn : S.n = k) : (trimK S).den m k = S.den m k := by
  ext r c
  apply Finset.sum_congr rfl
  intro l hl
  rw [Finset.mem_Ico] at hl
  have h1 : l < S.P S.n := h.lt_nnz (j := c.1) (by omega) hl.2
  have := h.nz
  show (if ((S.i.take S.nzmax).getD l 0).toNat = _ then (S.x.take S.nzmax).getD l 0 else 0) = _
  rw [getD_take _ _ (by omega), getD_take _ _ (by omega)]
  rfl

theorem den_list (S : CSC K) {m k : Nat} (r : Fin m) (c : Fin k) :
    S.den m k r c = ((colK S c).map fun e => if e.1.toNat = r.1 then e.2 else 0).sum := by
  simp only [CSC.den, colK, List.map_map]
  rw [Finset.sum_Ico_eq_sum_range, Finset.sum_range, ← Fin.sum_univ_fun_getElem]
  simp only [List.getElem_range, Function.comp_apply]
  have hl : (List.range (S.P (c.1 + 1) - S.P c.1)).length = S.P (c.1 + 1) - S.P c.1 := by simp
  rw [← (finCongr hl).sum_comp]
  rfl

/-- rows outside the matrix contribute nothing -/
theorem sum_outside {S : CSC K} (h : S.Valid) {c : Nat} (hc : c < S.n) (r : Int) (hr : ¬ (0 ≤ r ∧ r < S.m)) :
    ((colK S c).map fun e => if e.1 = r then e.2 else 0).sum = 0 := by
  apply List.sum_eq_zero
  intro y hy
  simp only [colK, List.map_map, List.mem_map, List.mem_range, Function.comp_apply] at hy
  obtain ⟨k, hk, rfl⟩ := hy
  have := h.rows _ (h.lt_nnz (k := S.P c + k) hc (by omega))
  rw [if_neg (by intro h; exact hr (by omega))]

theorem den_int {S : CSC K} (h : S.Valid) {m k : Nat} (hm : S.m = m) (hn : S.n = k) (r : Fin m) (c : Fin k) :
    ((colK S c).map fun e => if e.1 = (r.1 : Int) then e.2 else 0).sum = S.den m k r c := by
  rw [den_list]
  congr 1
  apply List.map_congr_left
  intro e he
  simp only [colK, List.mem_map, List.mem_range] at he
  obtain ⟨j, hj, rfl⟩ := he
  have := h.rows _ (h.lt_nnz (j := c.1) (k := S.P c + j) (by omega) (by omega))
  dsimp only
  congr 1
  apply propext
  omega

/-- column of an optional matrix -/
def colKOpt (A : Option (CSC K)) (j : Nat) : List (Int × K) :=
  match A with
  | none => []
  | some A => colK A j

/-- the columns of the stack over `K` -/
def stackK (n : Dims) (L R : CSC K) (A : Option (CSC K)) (j : Nat) : List (Int × K) :=
  colKOpt A j ++ (colK L j).map (fun e => ((n.nC : Int) + e.1, e.2)) ++
    (colK R j).map (fun e => (((n.nC + n.nComp : Nat) : Int) + e.1, e.2))

theorem stackCol_emb (L R : CSC K) (A : Option (CSC K)) (j : Nat) :
    stackCol n L.emb R.emb (A.map CSC.emb) j = embE (stackK n L R A j) := by
  have h1 : colOpt (A.map CSC.emb) j = embE (colKOpt A j) := by
    cases A with
    | none => rfl
    | some S => exact col_emb S j
  rw [stackCol, h1, col_emb, col_emb]
  simp [embE, stackK, shift, Function.comp_def]

theorem stack_emb (L R : CSC K) (A : Option (CSC K)) :
    cscOf n.nA n.nV (stackCol n L.emb R.emb (A.map CSC.emb)) = (cscOf n.nA n.nV (stackK n L R A)).emb := by
  rw [cscOf_emb]
  congr 1
  funext j
  exact stackCol_emb L R A j

/-- the matrix denoted by an optional argument -/
def denOpt (A : Option (CSC K)) (m k : Nat) : Matrix (Fin m) (Fin k) K :=
  match A with
  | none => 0
  | some A => A.den m k

theorem stackK_is {L R : CSC K} {A : Option (CSC K)} (hL : L.Valid) (mL : L.m = n.nComp) (nL : L.n = n.nV)
    (hR : R.Valid) (mR : R.m = n.nComp) (nR : R.n = n.nV)
    (hA : ∀ S, A = some S → S.Valid ∧ S.m = n.nC ∧ S.n = n.nV) :
    (cscOf n.nA n.nV (stackK n L R A)).Valid ∧
    (cscOf n.nA n.nV (stackK n L R A)).den n.nA n.nV =
      stackRows n (denOpt A n.nC n.nV) (L.den n.nComp n.nV) (R.den n.nComp n.nV) := by
  have hnA : n.nA = n.nC + 2 * n.nComp := rfl
  have hcol : ∀ {S : CSC K} {m : Nat}, S.Valid → S.m = m → S.n = n.nV → ∀ c < n.nV, ∀ x ∈ colK S c,
      0 ≤ x.1 ∧ x.1 < m := by
    intro S m hv hm hn c hc x hx
    simp only [colK, List.mem_map, List.mem_range] at hx
    obtain ⟨k, hk, rfl⟩ := hx
    rw [← hm]
    exact hv.rows _ (hv.lt_nnz (j := c) (by omega) (by omega))
  have hrow : ∀ c < n.nV, ∀ x ∈ stackK n L R A c, 0 ≤ x.1 ∧ x.1 < n.nA := by
    intro c hc x hx
    simp only [stackK, List.mem_append, List.mem_map] at hx
    rcases hx with (hx | ⟨y, hy, rfl⟩) | ⟨y, hy, rfl⟩
    · cases A with
      | none => simp [colKOpt] at hx
      | some S =>
        obtain ⟨h1, h2, h3⟩ := hA S rfl
        have := hcol h1 h2 h3 c hc x hx
        omega
    · have := hcol hL mL nL c hc y hy
      dsimp only
      omega
    · have := hcol hR mR nR c hc y hy
      dsimp only
      push_cast
      omega
  refine ⟨cscOf_valid _ _ _ hrow, ?_⟩
  ext r c
  have hr := r.2
  rw [cscOf_den]
  have e0 : ((stackK n L R A c).map fun e => if e.1.toNat = r.1 then e.2 else 0).sum =
      ((stackK n L R A c).map fun e => if e.1 = (r.1 : Int) then e.2 else 0).sum := by
    congr 1
    apply List.map_congr_left
    intro x hx
    have := hrow c c.2 x hx
    congr 1
    apply propext
    omega
  rw [e0, stackK, List.map_append, List.map_append, List.sum_append, List.sum_append, List.map_map, List.map_map]
  simp only [Function.comp_def]
  have eL : ∀ off : Nat, ∀ S : CSC K, ((colK S c).map fun e => if (off : Int) + e.1 = (r.1 : Int) then e.2 else 0).sum =
      ((colK S c).map fun e => if e.1 = (r.1 : Int) - off then e.2 else 0).sum := by
    intro off S
    congr 1
    apply List.map_congr_left
    intro x _
    congr 1
    apply propext
    omega
  rw [eL, eL]
  have sA : ((colKOpt A c.1).map fun e => if e.1 = (r.1 : Int) then e.2 else 0).sum =
      if h : r.1 < n.nC then denOpt A n.nC n.nV ⟨r.1, h⟩ c else 0 := by
    cases A with
    | none => simp [denOpt, colKOpt]
    | some S =>
      obtain ⟨h1, h2, h3⟩ := hA S rfl
      split
      · rename_i h
        exact den_int h1 h2 h3 ⟨r.1, h⟩ c
      · rename_i h
        exact sum_outside h1 (by omega) _ (by omega)
  rw [sA]
  unfold stackRows
  by_cases h1 : r.1 < n.nC
  · rw [dif_pos h1, dif_pos h1, sum_outside hL (by omega) _ (by omega), sum_outside hR (by omega) _ (by push_cast; omega)]
    simp
  · rw [dif_neg h1, dif_neg h1]
    by_cases h2 : r.1 < n.nC + n.nComp
    · rw [dif_pos h2, sum_outside hR (by omega) _ (by push_cast; omega)]
      have := den_int hL mL nL ⟨r.1 - n.nC, by omega⟩ c
      rw [← this]
      rw [show ((r.1 : Int) - (n.nC : Nat)) = ((r.1 - n.nC : Nat) : Int) by omega]
      simp
    · rw [dif_neg h2, sum_outside hL (by omega) _ (by omega)]
      have := den_int hR mR nR ⟨r.1 - (n.nC + n.nComp), by omega⟩ c
      rw [← this]
      rw [show ((r.1 : Int) - ((n.nC + n.nComp : Nat) : Int)) = ((r.1 - (n.nC + n.nComp) : Nat) : Int) by omega]
      simp

end LCQ
