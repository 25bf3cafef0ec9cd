import Verif.Lemmas.SparseExact

/-! # Building compressed-column matrices, conversions -/

set_option linter.unusedSectionVars false

namespace LCQ
open Scalar

section build
variable {α : Type}

/-- all entries of the columns `0, ..., j-1` -/
def ents (E : Nat → List (Int × α)) (j : Nat) : List (Int × α) := (List.range j).flatMap E

theorem ents_succ (E : Nat → List (Int × α)) (j : Nat) : ents E (j + 1) = ents E j ++ E j := by
  simp [ents, List.range_succ, List.flatMap_append]

theorem ents_zero (E : Nat → List (Int × α)) : ents E 0 = [] := rfl

theorem ents_split (E : Nat → List (Int × α)) {j n : Nat} (h : j ≤ n) :
    ∃ l, ents E n = ents E j ++ l := by
  induction n, h using Nat.le_induction with
  | base => exact ⟨[], by simp⟩
  | succ n _ ih =>
    obtain ⟨l, hl⟩ := ih
    exact ⟨l ++ E n, by rw [ents_succ, hl, List.append_assoc]⟩

theorem ents_length_mono (E : Nat → List (Int × α)) {j n : Nat} (h : j ≤ n) :
    (ents E j).length ≤ (ents E n).length := by
  obtain ⟨l, hl⟩ := ents_split E h
  simp [hl]

theorem ents_get (E : Nat → List (Int × α)) {c n k : Nat} (hc : c < n) (hk : k < (E c).length) :
    (ents E n)[(ents E c).length + k]? = (E c)[k]? := by
  obtain ⟨l, hl⟩ := ents_split E (show c + 1 ≤ n by omega)
  rw [hl, ents_succ, List.append_assoc, List.getElem?_append_right (by omega),
    Nat.add_sub_cancel_left, List.getElem?_append_left hk]

theorem ents_mem (E : Nat → List (Int × α)) {n : Nat} {e : Int × α} (h : e ∈ ents E n) :
    ∃ c < n, e ∈ E c := by
  simpa [ents] using h

/-- the compressed-column matrix with given column entries -/
def cscOf (m n : Nat) (E : Nat → List (Int × α)) : CSC α :=
  { m := m, n := n, nzmax := (ents E n).length
    p := tab (n + 1) (fun t => ((ents E t).length : Int))
    i := (ents E n).map Prod.fst
    x := (ents E n).map Prod.snd }

theorem cscOf_P (m n : Nat) (E : Nat → List (Int × α)) {j : Nat} (h : j ≤ n) :
    (cscOf m n E).P j = (ents E j).length := by
  simp only [CSC.P, cscOf, List.getD_eq_getElem?_getD]
  rw [tab_getElem? _ (by omega)]
  simp

theorem cscOf_p (m n : Nat) (E : Nat → List (Int × α)) {j : Nat} (h : j ≤ n) :
    (cscOf m n E).p.getD j 0 = (ents E j).length := by
  simp only [cscOf, List.getD_eq_getElem?_getD]
  rw [tab_getElem? _ (by omega)]
  simp

theorem cscOf_valid (m n : Nat) (E : Nat → List (Int × α))
    (hrow : ∀ c < n, ∀ e ∈ E c, 0 ≤ e.1 ∧ e.1 < m) : (cscOf m n E).Valid where
  plen := by simp [cscOf]
  p0 := by rw [cscOf_p _ _ _ (by omega)]; simp [ents_zero]
  mono := by
    intro j hj
    have hj' : j < n := hj
    rw [cscOf_p _ _ _ (by omega), cscOf_p _ _ _ (by omega)]
    have := ents_length_mono E (show j ≤ j + 1 by omega)
    omega
  nz := by
    show (cscOf m n E).P n ≤ _
    rw [cscOf_P _ _ _ (le_refl _)]
    exact le_refl _
  ilen := by simp [cscOf]
  xlen := by simp [cscOf]
  rows := by
    intro k hk
    change k < (cscOf m n E).P n at hk
    rw [cscOf_P _ _ _ (le_refl _)] at hk
    obtain ⟨c, hc, he⟩ := ents_mem E (List.getElem_mem hk)
    have := hrow c hc _ he
    simpa [cscOf, List.getD_eq_getElem?_getD, hk] using this

theorem cscOf_i (m n : Nat) (E : Nat → List (Int × α)) {c k : Nat} (hc : c < n)
    (hk : k < (E c).length) :
    (cscOf m n E).i.getD ((ents E c).length + k) 0 = ((E c)[k]).1 := by
  simp only [cscOf, List.getD_eq_getElem?_getD, List.getElem?_map, ents_get E hc hk,
    List.getElem?_eq_getElem hk]
  simp

theorem cscOf_x? (m n : Nat) (E : Nat → List (Int × α)) {c k : Nat} (hc : c < n)
    (hk : k < (E c).length) :
    (cscOf m n E).x[(ents E c).length + k]? = some ((E c)[k]).2 := by
  simp only [cscOf, List.getElem?_map, ents_get E hc hk, List.getElem?_eq_getElem hk]
  simp

theorem cscOf_sorted (m n : Nat) (E : Nat → List (Int × α))
    (hs : ∀ c < n, (E c).Pairwise (fun a b => a.1 < b.1)) : (cscOf m n E).Sorted := by
  intro j hj k l hk hkl hl
  change j < n at hj
  rw [cscOf_P _ _ _ (by omega)] at hk
  rw [cscOf_P _ _ _ (by omega), ents_succ, List.length_append] at hl
  obtain ⟨k', rfl⟩ := Nat.exists_eq_add_of_le hk
  obtain ⟨l', rfl⟩ := Nat.exists_eq_add_of_le (show (ents E j).length ≤ l by omega)
  rw [cscOf_i _ _ _ hj (by omega), cscOf_i _ _ _ hj (by omega)]
  exact List.pairwise_iff_getElem.mp (hs j hj) k' l' (by omega) (by omega) (by omega)

/-- append entries to the current column -/
def Build.addAll (b : Build α) (l : List (Int × α)) : Build α :=
  { b with rows := b.rows ++ l.map Prod.fst, data := b.data ++ l.map Prod.snd }

@[simp] theorem addAll_nil (b : Build α) : b.addAll [] = b := by simp [Build.addAll]
theorem addAll_append (b : Build α) (l l' : List (Int × α)) :
    (b.addAll l).addAll l' = b.addAll (l ++ l') := by simp [Build.addAll]
theorem addAll_push (b : Build α) (r : Int) (v : α) : b.push r v = b.addAll [(r, v)] := by
  simp [Build.addAll, Build.push]

theorem build_inner (m : Nat) (f : Nat → Build α → M (Build α)) (e : Nat → List (Int × α))
    (b : Build α) (h : ∀ k < m, ∀ b, f k b = .ok (b.addAll (e k))) :
    loop m f b = .ok (b.addAll ((List.range m).flatMap e)) := by
  apply loop_eq (fun k => b.addAll ((List.range k).flatMap e))
  · simp
  · intro k hk
    rw [h k hk, addAll_append]
    simp [List.range_succ, List.flatMap_append]

/-- builder state after `j` columns -/
def buildOf (E : Nat → List (Int × α)) (j : Nat) : Build α :=
  { rows := (ents E j).map Prod.fst, data := (ents E j).map Prod.snd
    p := tab (j + 1) (fun t => ((ents E t).length : Int)) }

theorem build_outer' (n : Nat) (f : Nat → Build α → M (Build α)) (E : Nat → List (Int × α))
    (h : ∀ j < n, ∀ b, f j b = .ok (b.addAll (E j)).close) :
    loop n f Build.init = .ok (buildOf E n) := by
  apply loop_eq (fun j => buildOf E j)
  · simp [buildOf, Build.init, ents_zero, tab]
  · intro j hj
    rw [h j hj]
    congr 1
    simp only [buildOf, Build.addAll, Build.close, ents_succ, List.map_append]
    congr 1
    rw [show tab (j + 1 + 1) (fun t => ((ents E t).length : Int)) =
      tab (j + 1) (fun t => ((ents E t).length : Int)) ++ [((ents E (j + 1)).length : Int)] by
        simp [tab, List.range_succ]]
    simp [ents_succ]

theorem build_outer (n : Nat) (inner : Nat → Build α → M (Build α)) (E : Nat → List (Int × α))
    (h : ∀ j < n, ∀ b, inner j b = .ok (b.addAll (E j))) :
    loop n (fun j b => do let b ← inner j b; .ok b.close) Build.init = .ok (buildOf E n) :=
  build_outer' n _ E (fun j hj b => by rw [h j hj]; rfl)

end build

variable {α : Type} [Scalar α]

/-- the stored entries of column `c`, in storage order -/
def CSC.col (S : CSC α) (c : Nat) : List (Int × α) :=
  (List.range (S.P (c + 1) - S.P c)).map fun k => (S.i.getD (S.P c + k) 0, gt S.x (S.P c + k))

theorem cscOf_col (m n : Nat) (E : Nat → List (Int × α)) {c : Nat} (hc : c < n) :
    (cscOf m n E).col c = E c := by
  have hlen : (cscOf m n E).P (c + 1) - (cscOf m n E).P c = (E c).length := by
    rw [cscOf_P _ _ _ (by omega), cscOf_P _ _ _ (by omega), ents_succ]; simp
  apply List.ext_getElem
  · simp [CSC.col, hlen]
  · intro k h1 h2
    simp only [CSC.col, List.getElem_map, List.getElem_range]
    rw [cscOf_P _ _ _ (by omega), cscOf_i _ _ _ hc h2]
    simp only [gt, List.getD_eq_getElem?_getD, cscOf_x? _ _ _ hc h2]
    rfl

/-- last stored value of row `r`, `0` if there is none -/
def lastVal (l : List (Int × α)) (r : Nat) : α :=
  l.foldl (fun acc e => if e.1 = (r : Int) then e.2 else acc) zero

theorem CSC.col_take_succ (S : CSC α) (c k : Nat) (hk : k < S.P (c + 1) - S.P c) :
    (S.col c).take (k + 1) =
      (S.col c).take k ++ [(S.i.getD (S.P c + k) 0, gt S.x (S.P c + k))] := by
  have hl : (S.col c).length = S.P (c + 1) - S.P c := by simp [CSC.col]
  rw [List.take_add_one, List.getElem?_eq_getElem (by omega)]
  simp [CSC.col]

theorem lastVal_append_one (l : List (Int × α)) (e : Int × α) (r : Nat) :
    lastVal (l ++ [e]) r = if e.1 = (r : Int) then e.2 else lastVal l r := by
  simp [lastVal, List.foldl_append]

/-- contents of the dense array after `j` columns and `k` entries of column `j` -/
def dnsAt (S : CSC α) (j k : Nat) : List α :=
  grid S.m S.n fun r c => if c < j then lastVal (S.col c) r
    else if c = j then lastVal ((S.col c).take k) r else zero

theorem dnsAt_zero (S : CSC α) : dnsAt S 0 0 = List.replicate (S.m * S.n) zero := by
  symm
  apply eq_grid_of
  · simp
  · intro i hi j hj
    have := idx_lt hi hj
    simp [gt, List.getD_eq_getElem?_getD, this, lastVal]

theorem dnsAt_next (S : CSC α) (j : Nat) :
    dnsAt S j (S.P (j + 1) - S.P j) = dnsAt S (j + 1) 0 := by
  have hl : (S.col j).length = S.P (j + 1) - S.P j := by simp [CSC.col]
  apply grid_congr
  intro r _ c _
  by_cases h : c < j
  · rw [if_pos h, if_pos (by omega)]
  · rw [if_neg h]
    by_cases h' : c = j
    · subst h'
      rw [if_pos rfl, if_pos (by omega), ← hl, List.take_length]
    · rw [if_neg h', if_neg (by omega)]
      split <;> simp [lastVal]

/-- the range test of `csc_to_dns` -/
theorem badRow_iff (r : Int) (j m n : Nat) (hj : j < n) :
    (r * (n : Int) + (j : Int) ≥ (m : Int) * (n : Int) ∨ r * (n : Int) + (j : Int) < 0) ↔
      ¬ (0 ≤ r ∧ r < m) := by
  constructor
  · rintro (h | h) ⟨h0, h1⟩
    · have : (r + 1) * (n : Int) ≤ m * n := Int.mul_le_mul_of_nonneg_right (by omega) (by omega)
      rw [Int.add_mul] at this
      omega
    · have : 0 ≤ r * (n : Int) := Int.mul_nonneg h0 (by omega)
      omega
  · intro h
    by_cases h0 : 0 ≤ r
    · left
      have : (m : Int) * n ≤ r * n := Int.mul_le_mul_of_nonneg_right (by omega) (by omega)
      omega
    · right
      have : (r + 1) * (n : Int) ≤ 0 * n := Int.mul_le_mul_of_nonneg_right (by omega) (by omega)
      rw [Int.add_mul] at this
      omega

/-- `csc_to_dns` for valid column pointers. -/
theorem cscToDns_ok (S : CSC α) (h : S.ValidPtr) :
    ((∀ k < S.P S.n, 0 ≤ S.i.getD k 0 ∧ S.i.getD k 0 < S.m) ∧
      cscToDns S = .ok (some (grid S.m S.n fun r c => lastVal (S.col c) r))) ∨
    ((∃ k < S.P S.n, ¬ (0 ≤ S.i.getD k 0 ∧ S.i.getD k 0 < S.m)) ∧ cscToDns S = .ok none) := by
  have key := loopE_inv (ρ := DnsExit α)
    (fun j full => full = dnsAt S j 0 ∧
      ∀ k < S.P j, 0 ≤ S.i.getD k 0 ∧ S.i.getD k 0 < S.m)
    (fun e => e = DnsExit.bad ∧ ∃ k < S.P S.n, ¬ (0 ≤ S.i.getD k 0 ∧ S.i.getD k 0 < S.m)) S.n
    (fun j full => do
      let lo ← rd S.p j
      let hi ← rd S.p (j + 1)
      loopE (hi - lo).toNat (fun k full =>
        if lo + (k : Int) = (S.nzmax : Int) then .ok (.inr (DnsExit.full full))
        else do
          let r ← rdI S.i (lo + k)
          if r * (S.n : Int) + (j : Int) ≥ (S.m : Int) * (S.n : Int) ∨
            r * (S.n : Int) + (j : Int) < 0
          then .ok (.inr DnsExit.bad)
          else do
            let v ← rdI S.x (lo + k)
            let full ← wrI full (r * (S.n : Int) + (j : Int)) v
            .ok (.inl full)) full) (List.replicate (S.m * S.n) zero)
    ⟨(dnsAt_zero S).symm, by rw [h.P_zero]; intro k hk; omega⟩
    (by
      rintro j hj full ⟨rfl, hrows⟩
      simp only [h.rd_p (show j ≤ S.n by omega), h.rd_p (show j + 1 ≤ S.n by omega), ok_bind]
      have hn : ((S.P (j + 1) : Int) - (S.P j : Int)).toNat = S.P (j + 1) - S.P j := by omega
      rw [hn]
      have inner := loopE_inv (ρ := DnsExit α)
        (fun k full => full = dnsAt S j k ∧
          ∀ k' < S.P j + k, 0 ≤ S.i.getD k' 0 ∧ S.i.getD k' 0 < S.m)
        (fun e => e = DnsExit.bad ∧ ∃ k < S.P S.n, ¬ (0 ≤ S.i.getD k 0 ∧ S.i.getD k 0 < S.m))
        (S.P (j + 1) - S.P j)
        (fun k full =>
          if (S.P j : Int) + (k : Int) = (S.nzmax : Int) then .ok (.inr (DnsExit.full full))
          else do
            let r ← rdI S.i ((S.P j : Int) + k)
            if r * (S.n : Int) + (j : Int) ≥ (S.m : Int) * (S.n : Int) ∨
              r * (S.n : Int) + (j : Int) < 0
            then .ok (.inr DnsExit.bad)
            else do
              let v ← rdI S.x ((S.P j : Int) + k)
              let full ← wrI full (r * (S.n : Int) + (j : Int)) v
              .ok (.inl full)) (dnsAt S j 0) ⟨rfl, by simpa using hrows⟩
        (by
          rintro k hk full ⟨rfl, hr⟩
          have hkk := h.lt_nnz (k := S.P j + k) hj (by omega)
          have hnz := h.nz
          rw [if_neg (by omega), show (S.P j : Int) + (k : Int) = ((S.P j + k : Nat) : Int) by omega,
            rdI_nat, rdi_ok (h.i_lt hkk), ok_bind, h.rd_x hkk]
          simp only [badRow_iff _ j S.m S.n hj]
          by_cases hb : 0 ≤ gtI S.i (S.P j + k) ∧ gtI S.i (S.P j + k) < S.m
          · left
            rw [if_neg (not_not.mpr hb), ok_bind]
            obtain ⟨r, hr'⟩ : ∃ r : Nat, gtI S.i (S.P j + k) = r := ⟨_, (Int.toNat_of_nonneg hb.1).symm⟩
            have hrm : r < S.m := by omega
            rw [hr', show (r : Int) * (S.n : Int) + (j : Int) = ((r * S.n + j : Nat) : Int) by
              push_cast; rfl, wrI_nat, wr_ok (by simpa [dnsAt] using idx_lt hrm hj), ok_bind]
            refine ⟨_, rfl, ?_, ?_⟩
            · apply eq_grid_of
              · simp [dnsAt]
              · intro r' hr'' c hc
                rw [gt_set (by simpa [dnsAt] using idx_lt hrm hj), dnsAt, gt_grid _ hr'' hc]
                by_cases hcj : c = j
                · subst hcj
                  simp only [lt_irrefl, if_false, if_true]
                  rw [S.col_take_succ _ _ hk, lastVal_append_one]
                  change _ = if gtI S.i _ = _ then _ else _
                  rw [hr']
                  by_cases hrr : r' = r
                  · subst hrr; simp
                  · rw [if_neg, if_neg]
                    · omega
                    · intro e; exact hrr (idx_inj hc hc e).1
                · rw [if_neg (fun e => hcj (idx_inj hc hj e).2)]
                  simp [hcj]
            · intro k' hk'
              rcases Nat.lt_succ_iff_lt_or_eq.mp (show k' < (S.P j + k) + 1 by omega) with h1 | h1
              · exact hr k' h1
              · rw [h1]; exact hb
          · right
            rw [if_pos hb]
            exact ⟨_, rfl, rfl, _, hkk, hb⟩)
      rcases inner with ⟨t, ht, rfl, hr⟩ | ⟨r, hr, he⟩
      · left
        refine ⟨_, ht, dnsAt_next S j, ?_⟩
        intro k hk
        exact hr k (by omega)
      · right
        exact ⟨r, hr, he⟩)
  unfold cscToDns
  rcases key with ⟨t, ht, rfl, hr⟩ | ⟨r, hr, rfl, he⟩
  · left
    refine ⟨hr, ?_⟩
    rw [ht, ok_bind]
    have : dnsAt S S.n 0 = grid S.m S.n fun r c => lastVal (S.col c) r := by
      apply grid_congr
      intro r _ c hc
      rw [if_pos hc]
    rw [this]
  · right
    exact ⟨he, by rw [hr, ok_bind]⟩

/-- the entries of column `c` which `dns_to_csc` keeps -/
def dnsCol (full : List α) (m n c : Nat) : List (Int × α) :=
  (List.range m).flatMap fun j =>
    if (zero <. gt full (j * n + c)) || (gt full (j * n + c) <. zero)
    then [((j : Int), gt full (j * n + c))] else []

theorem dnsToCsc_ok (full : List α) (m n : Nat) (h : full.length = m * n) :
    dnsToCsc full m n = .ok (cscOf m n (dnsCol full m n)) := by
  unfold dnsToCsc
  rw [build_outer n _ (dnsCol full m n), ok_bind]
  · simp [createCSC, cscOf, buildOf]
  · intro j hj b
    apply build_inner
    intro k hk b
    rw [rd_ok (by rw [h]; exact idx_lt hk hj), ok_bind]
    split
    · rw [addAll_push]
    · simp

theorem dnsCol_mem {full : List α} {m n c : Nat} {e : Int × α} (h : e ∈ dnsCol full m n c) :
    ∃ j < m, e = ((j : Int), gt full (j * n + c)) ∧
      ((zero <. gt full (j * n + c)) || (gt full (j * n + c) <. zero)) = true := by
  simp only [dnsCol, List.mem_flatMap, List.mem_range] at h
  obtain ⟨j, hj, he⟩ := h
  split at he
  · rename_i ht
    simp at he
    exact ⟨j, hj, he, ht⟩
  · simp at he

theorem dnsCol_sorted (full : List α) (m n c : Nat) :
    (dnsCol full m n c).Pairwise (fun a b => a.1 < b.1) := by
  unfold dnsCol
  rw [List.pairwise_flatMap]
  constructor
  · intro a _
    split <;> simp
  · apply List.Pairwise.imp _ List.pairwise_lt_range
    intro a b hab x hx y hy
    split at hx <;> split at hy <;> simp at hx hy
    subst hx hy
    simpa using hab

theorem lastVal_dnsCol (full : List α) (m n c r : Nat) :
    lastVal (dnsCol full m n c) r =
      if r < m ∧ ((zero <. gt full (r * n + c)) || (gt full (r * n + c) <. zero)) = true
      then gt full (r * n + c) else zero := by
  unfold dnsCol
  induction m with
  | zero => simp [lastVal]
  | succ m ih =>
    rw [List.range_succ, List.flatMap_append, List.flatMap_singleton]
    split
    · rename_i ht
      rw [lastVal_append_one, ih]
      by_cases hr : m = r
      · subst hr; simp [ht]
      · have h1 : ¬ ((m : Int) = (r : Int)) := by omega
        have h2 : r < m + 1 ↔ r < m := by omega
        simp only [h1, if_false, h2]
    · rename_i ht
      rw [List.append_nil, ih]
      by_cases hr : m = r
      · subst hr; simp [ht]
      · have h2 : r < m + 1 ↔ r < m := by omega
        simp only [h2]

/-- round trip in any arithmetic -/
theorem dns_csc_dns (full : List α) (m n : Nat) (h : full.length = m * n) :
    ∃ S, dnsToCsc full m n = .ok S ∧ S.Valid ∧ S.Sorted ∧ S.m = m ∧ S.n = n ∧
      cscToDns S = .ok (some (grid m n fun r c =>
        if (zero <. gt full (r * n + c)) || (gt full (r * n + c) <. zero)
        then gt full (r * n + c) else zero)) := by
  refine ⟨_, dnsToCsc_ok full m n h, ?_, ?_, rfl, rfl, ?_⟩
  · apply cscOf_valid
    intro c _ e he
    obtain ⟨j, hj, rfl, _⟩ := dnsCol_mem he
    simp
    omega
  · apply cscOf_sorted
    intro c _
    exact dnsCol_sorted full m n c
  · have hv : (cscOf m n (dnsCol full m n)).Valid := by
      apply cscOf_valid
      intro c _ e he
      obtain ⟨j, hj, rfl, _⟩ := dnsCol_mem he
      simp
      omega
    rcases cscToDns_ok _ hv.toValidPtr with ⟨_, hr⟩ | ⟨⟨k, hk, hb⟩, _⟩
    · rw [hr]
      congr 2
      apply grid_congr
      intro r hr c hc
      have hr' : r < m := hr
      have hc' : c < n := hc
      rw [cscOf_col _ _ _ hc', lastVal_dnsCol]
      simp [hr']
    · exact absurd (hv.rows k hk) hb

end LCQ
