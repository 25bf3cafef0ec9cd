import Verif.Lemmas.SymSparse
import Verif.Props.Sparse
import Mathlib.Algebra.Order.Ring.Abs

/-!
# C04, C08, C09, C10: sparse symmetrisation and conversions
-/

set_option linter.unusedSectionVars false

namespace LCQ
open Scalar Ext
open scoped Matrix

section anyArith
variable {α : Type} [Scalar α]

/-- "The `(r,c)` value of `S` is `v`": the last stored entry of column `c` in row `r`, or `0` if
the column has no entry in this row. -/
def CSC.LastIs (S : CSC α) (r c : Nat) (v : α) : Prop :=
  (∃ k, S.P c ≤ k ∧ k < S.P (c + 1) ∧ S.i.getD k 0 = (r : Int) ∧ S.x[k]? = some v ∧
    ∀ l, k < l → l < S.P (c + 1) → S.i.getD l 0 ≠ (r : Int)) ∨
  ((∀ k, S.P c ≤ k → k < S.P (c + 1) → S.i.getD k 0 ≠ (r : Int)) ∧ v = zero)

theorem lastVal_spec (S : CSC α) (h : S.ValidPtr) (r c : Nat) (hc : c < S.n) :
    S.LastIs r c (lastVal (S.col c) r) := by
  have key : ∀ cnt ≤ S.P (c + 1) - S.P c,
      (∃ k, S.P c ≤ k ∧ k < S.P c + cnt ∧ S.i.getD k 0 = (r : Int) ∧
        S.x[k]? = some (lastVal ((S.col c).take cnt) r) ∧
        ∀ l, k < l → l < S.P c + cnt → S.i.getD l 0 ≠ (r : Int)) ∨
      ((∀ k, S.P c ≤ k → k < S.P c + cnt → S.i.getD k 0 ≠ (r : Int)) ∧
        lastVal ((S.col c).take cnt) r = zero) := by
    intro cnt
    induction cnt with
    | zero =>
      intro _
      right
      exact ⟨by intro k h1 h2; omega, by simp [lastVal]⟩
    | succ cnt ih =>
      intro hcnt
      have hx : S.P c + cnt < S.x.length := h.x_lt (h.lt_nnz hc (by omega))
      rw [S.col_take_succ _ _ (by omega), lastVal_append_one]
      by_cases hr : S.i.getD (S.P c + cnt) 0 = (r : Int)
      · left
        refine ⟨S.P c + cnt, by omega, by omega, hr, ?_, by intro l h1 h2; omega⟩
        rw [if_pos hr]
        simp [gt, List.getD_eq_getElem?_getD, hx]
      · rw [if_neg hr]
        rcases ih (by omega) with ⟨k, h1, h2, h3, h4, h5⟩ | ⟨h1, h2⟩
        · left
          refine ⟨k, h1, by omega, h3, h4, ?_⟩
          intro l hl1 hl2
          rcases Nat.lt_succ_iff_lt_or_eq.mp (show l < (S.P c + cnt) + 1 by omega) with h6 | h6
          · exact h5 l hl1 h6
          · rw [h6]; exact hr
        · right
          refine ⟨?_, h2⟩
          intro l hl1 hl2
          rcases Nat.lt_succ_iff_lt_or_eq.mp (show l < (S.P c + cnt) + 1 by omega) with h6 | h6
          · exact h1 l hl1 h6
          · rw [h6]; exact hr
  have hP := h.P_mono_step hc
  have hl : (S.col c).length = S.P (c + 1) - S.P c := by simp [CSC.col]
  have := key _ (le_refl _)
  rw [← hl, List.take_length, hl, Nat.add_sub_cancel' hP] at this
  exact this

/-- C09 (any arithmetic): for row indices in range, `csc_to_dns` returns the `m × n` array whose
`(r,c)` cell is the last stored value at that position or `0`. -/
theorem C09_faithful (S : CSC α) (h : S.Valid) :
    ∃ d : List α, cscToDns S = .ok (some d) ∧ d.length = S.m * S.n ∧
      ∀ r < S.m, ∀ c < S.n, ∃ v, d[r * S.n + c]? = some v ∧ S.LastIs r c v := by
  rcases cscToDns_ok S h.toValidPtr with ⟨_, hr⟩ | ⟨⟨k, hk, hb⟩, _⟩
  · refine ⟨_, hr, by simp, ?_⟩
    intro r hr c hc
    refine ⟨_, ?_, lastVal_spec S h.toValidPtr r c hc⟩
    rw [grid, tab_getElem? _ (idx_lt hr hc), idx_div hc, idx_mod hc]
  · exact absurd (h.rows k hk) hb

/-- C09 (any arithmetic): with valid column pointers `csc_to_dns` never faults, and it returns the
null pointer iff some stored row index is outside `0..m-1`. -/
theorem C09_reject (S : CSC α) (h : S.ValidPtr) :
    (∃ r, cscToDns S = .ok r) ∧
    (cscToDns S = .ok none ↔ ∃ k < S.P S.n, S.i.getD k 0 < 0 ∨ (S.m : Int) ≤ S.i.getD k 0) := by
  rcases cscToDns_ok S h with ⟨h1, h2⟩ | ⟨⟨k, hk, hb⟩, h2⟩
  · refine ⟨⟨_, h2⟩, ?_, ?_⟩
    · intro h3
      rw [h2] at h3
      simp at h3
    · rintro ⟨k, hk, h3⟩
      have := h1 k hk
      omega
  · refine ⟨⟨_, h2⟩, fun _ => ⟨k, hk, by omega⟩, fun _ => h2⟩

/-- C10 (any arithmetic): `copyCSC(M,false)` reproduces a matrix whose arrays have `nzmax`
entries. -/
theorem C10_copy (S : CSC α) (hp : S.p.length = S.n + 1) (hi : S.i.length = S.nzmax)
    (hx : S.x.length = S.nzmax) : copyCSC S = .ok S := by
  unfold copyCSC copyN
  rw [if_pos (by omega), ok_bind, if_pos (by omega), ok_bind, if_pos (by omega), ok_bind,
    List.take_of_length_le (by omega), List.take_of_length_le (by omega),
    List.take_of_length_le (by omega)]

end anyArith

variable {K : Type} [Field K] [LinearOrder K]

/-- C09 (exact arithmetic): without duplicates the dense array represents the same matrix. -/
theorem C09_denotation (S : CSC K) (h : S.Valid) (hs : S.Simple) :
    ∃ d : List K, cscToDns S.emb = .ok (some (emb d)) ∧ d.length = S.m * S.n ∧
      mat S.m S.n d = S.den S.m S.n := by
  rcases cscToDns_ok S.emb h.emb.toValidPtr with ⟨_, hr⟩ | ⟨⟨k, hk, hb⟩, _⟩
  · refine ⟨grid S.m S.n fun r c => if hc : r < S.m ∧ c < S.n then
      S.den S.m S.n ⟨r, hc.1⟩ ⟨c, hc.2⟩ else 0, ?_, by simp, ?_⟩
    · rw [hr, ← emb_grid]
      congr 2
      apply grid_congr
      intro r hr c hc
      have hc' : c < S.n := hc
      have hr' : r < S.m := hr
      rw [dif_pos ⟨hr', hc'⟩]
      rcases lastVal_spec S.emb h.emb.toValidPtr r c hc with ⟨k, h1, h2, h3, h4, _⟩ | ⟨h1, h2⟩
      · rw [den_eq_of_hit hs h hc' h1 h2 ⟨r, hr'⟩ (by
          change S.i.getD k 0 = _ at h3
          rw [CSC.I, h3]; simp)]
        simp only [CSC.emb_x, emb, List.getElem?_map] at h4
        rw [List.getD_eq_getElem?_getD]
        cases hx : S.x[k]? with
        | none => rw [hx] at h4; simp at h4
        | some v => rw [hx] at h4; simp at h4; simp [← h4]
      · rw [h2, zero_fin, den_eq_of_miss h hc' ⟨r, hr'⟩ h1]
    · rw [mat_grid]
      funext r c
      rw [dif_pos ⟨r.2, c.2⟩]
  · exact absurd (h.emb.rows k hk) hb

/-- C08: the round trip dense - sparse - dense is the identity on NaN-free matrices, and the sparse
matrix is valid, sorted (so duplicate-free) and stores no zeros. -/
theorem C08_roundtrip [IsStrictOrderedRing K] (full : List (Ext K)) (m n : Nat)
    (h : full.length = m * n) (hnan : ∀ v ∈ full, v ≠ .nan) :
    ∃ S, dnsToCsc full m n = .ok S ∧ S.Valid ∧ S.Sorted ∧ S.m = m ∧ S.n = n ∧
      S.nzmax = S.P n ∧ (∀ v ∈ S.x, v ≠ .fin 0) ∧ cscToDns S = .ok (some full) := by
  obtain ⟨S, h1, h2, h3, h4, h5, h6⟩ := dns_csc_dns full m n h
  have hS := dnsToCsc_ok full m n h
  rw [h1] at hS
  injection hS with hS
  refine ⟨S, h1, h2, h3, h4, h5, ?_, ?_, ?_⟩
  · rw [hS, cscOf_P _ _ _ (le_refl _)]
    rfl
  · intro v hv
    rw [hS] at hv
    simp only [cscOf, List.mem_map] at hv
    obtain ⟨e, he, rfl⟩ := hv
    obtain ⟨c, _, hc⟩ := ents_mem _ he
    obtain ⟨j, _, rfl, ht⟩ := dnsCol_mem hc
    simp only
    intro h0
    rw [h0] at ht
    simp at ht
  · rw [h6]
    congr 2
    symm
    apply eq_grid_of h
    intro i hi j hj
    have hlt : i * n + j < full.length := by rw [h]; exact idx_lt hi hj
    have hne : gt full (i * n + j) ≠ .nan := by
      apply hnan
      simp [gt, List.getD_eq_getElem?_getD, hlt]
    cases hv : gt full (i * n + j) with
    | nan => exact absurd hv hne
    | pinf => rfl
    | ninf => rfl
    | fin a =>
      simp only [zero_fin, fin_lt, Bool.or_eq_true, decide_eq_true_eq]
      split
      · rfl
      · rename_i h0
        push Not at h0
        rw [le_antisymm h0.1 h0.2]

/-- C08: NaN entries come back as `0`. -/
theorem C08_nan_lost (full : List (Ext K)) (m n : Nat) (h : full.length = m * n) (i j : Nat)
    (hi : i < m) (hj : j < n) (hv : full[i * n + j]? = some .nan) :
    ∃ S d, dnsToCsc full m n = .ok S ∧ cscToDns S = .ok (some d) ∧ d[i * n + j]? = some (.fin 0) := by
  obtain ⟨S, h1, _, _, _, _, h6⟩ := dns_csc_dns full m n h
  refine ⟨S, _, h1, h6, ?_⟩
  rw [grid, tab_getElem? _ (idx_lt hi hj), idx_div hj, idx_mod hj]
  have : gt full (i * n + j) = .nan := by simp [gt, List.getD_eq_getElem?_getD, hv]
  rw [this]
  simp only [zero_fin]
  rfl

/-- C08: for finite data the sparse matrix represents the dense one. -/
theorem C08_denotation [IsStrictOrderedRing K] (full : List K) (m n : Nat)
    (h : full.length = m * n) :
    ∃ S : CSC K, dnsToCsc (emb full) m n = .ok S.emb ∧ S.Valid ∧ S.Sorted ∧ S.m = m ∧ S.n = n ∧
      S.den m n = mat m n full := by
  have hl : (emb full).length = m * n := by simpa using h
  let E : Nat → List (Int × K) := fun c => (List.range m).flatMap fun j =>
    if full.getD (j * n + c) 0 ≠ 0 then [((j : Int), full.getD (j * n + c) 0)] else []
  have hE : (fun c => (E c).map fun e => (e.1, fin e.2)) = dnsCol (emb full) m n := by
    funext c
    simp only [E, dnsCol, List.map_flatMap, gt_emb, zero_fin, fin_lt]
    congr 1
    funext j
    have : ((decide (0 < full.getD (j * n + c) 0) || decide (full.getD (j * n + c) 0 < 0)) = true) ↔
        full.getD (j * n + c) 0 ≠ 0 := by
      simp only [Bool.or_eq_true, decide_eq_true_eq, ne_eq]
      exact ⟨fun h => by rcases h with h | h; exact h.ne'; exact h.ne,
        fun h => (lt_or_gt_of_ne h).symm⟩
    by_cases h0 : full.getD (j * n + c) 0 = 0
    · rw [if_neg (not_not.mpr h0), if_neg (by rw [this]; simpa using h0)]; rfl
    · rw [if_pos h0, if_pos (by rw [this]; exact h0)]; rfl
  refine ⟨cscOf m n E, ?_, ?_, ?_, rfl, rfl, ?_⟩
  · rw [dnsToCsc_ok _ _ _ hl, cscOf_emb, hE]
  · apply cscOf_valid
    intro c _ e he
    simp only [E, List.mem_flatMap, List.mem_range] at he
    obtain ⟨j, hj, he⟩ := he
    split at he
    · simp at he; subst he; simp; omega
    · simp at he
  · apply cscOf_sorted
    intro c _
    simp only [E]
    rw [List.pairwise_flatMap]
    constructor
    · intro a _
      split <;> simp
    · apply List.Pairwise.imp _ List.pairwise_lt_range
      intro a b hab x hx y hy
      split at hx <;> split at hy <;> simp at hx hy
      subst hx hy
      simpa using hab
  · funext r c
    rw [cscOf_den]
    simp only [E, List.map_flatMap]
    have : ∀ m' : Nat, (List.flatMap (fun a => List.map (fun e : Int × K =>
        if e.1.toNat = (r : Nat) then e.2 else 0)
        (if full.getD (a * n + c) 0 ≠ 0 then [((a : Int), full.getD (a * n + c) 0)] else []))
        (List.range m')).sum = if (r : Nat) < m' then full.getD (r * n + c) 0 else 0 := by
      intro m'
      induction m' with
      | zero => simp
      | succ m' ih =>
        rw [List.range_succ, List.flatMap_append, List.sum_append, ih, List.flatMap_singleton]
        by_cases hr : m' = (r : Nat)
        · subst hr
          simp only [lt_irrefl, if_false, zero_add, Nat.lt_succ_self, if_true]
          split
          · simp
          · rename_i h0
            push Not at h0
            rw [h0]; simp
        · have h2 : (r : Nat) < m' + 1 ↔ (r : Nat) < m' := by omega
          simp only [h2]
          have : (List.map (fun e : Int × K => if e.1.toNat = (r : Nat) then e.2 else 0)
            (if full.getD (m' * n + c) 0 ≠ 0 then [((m' : Int), full.getD (m' * n + c) 0)] else [])).sum
              = 0 := by
            split <;> simp [hr]
          rw [this, add_zero]
    rw [this m, if_pos r.2]
    rfl

/-- C10: the upper triangular copy. -/
theorem C10_upper (S : CSC K) (h : S.Valid) :
    ∃ U : CSC K, copyCSCUpper S.emb = .ok U.emb ∧ U.Valid ∧ U.m = S.m ∧ U.n = S.n ∧
      (S.Sorted → U.Sorted) ∧ U.nzmax = U.P U.n ∧
      ∀ r c, U.den S.m S.n r c = if (r : Nat) ≤ (c : Nat) then S.den S.m S.n r c else 0 := by
  let E : Nat → List (Int × K) := fun j => (List.range (S.P (j + 1) - S.P j)).flatMap fun k =>
    if S.i.getD (S.P j + k) 0 > (j : Int) then [] else
      [(S.i.getD (S.P j + k) 0, S.x.getD (S.P j + k) 0)]
  have he := h.emb
  have hmem : ∀ c < S.n, ∀ e ∈ E c, 0 ≤ e.1 ∧ e.1 < S.m := by
    intro c hc e he
    simp only [E, List.mem_flatMap, List.mem_range] at he
    obtain ⟨k, hk, he⟩ := he
    split at he
    · simp at he
    · rw [List.mem_singleton] at he
      subst he
      exact h.rows _ (h.lt_nnz hc (by omega))
  refine ⟨cscOf S.m S.n E, ?_, cscOf_valid _ _ _ hmem, rfl, rfl, ?_, ?_, ?_⟩
  · rw [cscOf_emb]
    unfold copyCSCUpper
    simp only [CSC.emb_n]
    rw [build_outer' S.n _ (fun c => (E c).map fun e => (e.1, fin e.2)), ok_bind]
    · simp [cscOf, buildOf]
    · intro j hj b
      rw [he.rd_p (by simp; omega), ok_bind, he.rd_p (by simp; omega), ok_bind, loopI_nat,
        bind_eq_ok]
      refine ⟨_, ?_, rfl⟩
      simp only [E, List.map_flatMap, CSC.emb_P]
      apply build_inner
      intro k hk b
      have hkk := h.lt_nnz (k := S.P j + k) hj (by omega)
      rw [rdI_nat, rdi_ok (he.i_lt hkk), ok_bind]
      change (if S.i.getD (S.P j + k) 0 > (j : Int) then _ else _) = _
      split
      · simp
      · rw [he.rd_x hkk, ok_bind, addAll_push]
        simp [gt_emb, gtI, CSC.emb]
  · intro hs
    apply cscOf_sorted
    intro c hc
    simp only [E]
    rw [List.pairwise_flatMap]
    constructor
    · intro a _
      split <;> simp
    · apply List.Pairwise.imp_of_mem _ List.pairwise_lt_range
      intro a b ha hb hab x hx y hy
      rw [List.mem_range] at ha hb
      split at hx <;> split at hy
      · simp at hx
      · simp at hx
      · simp at hy
      · rw [List.mem_singleton] at hx hy
        subst hx hy
        exact hs c hc _ _ (by omega) (by omega) (by omega)
  · show _ = (cscOf S.m S.n E).P S.n
    rw [cscOf_P _ _ _ (le_refl _)]
    rfl
  · intro r c
    rw [cscOf_den]
    simp only [E, List.map_flatMap, CSC.den]
    rw [Finset.sum_Ico_eq_sum_range]
    have : ∀ cnt ≤ S.P (c + 1) - S.P c, (List.flatMap (fun k => List.map (fun e : Int × K =>
        if e.1.toNat = (r : Nat) then e.2 else 0)
        (if S.i.getD (S.P c + k) 0 > (c : Int) then [] else
          [(S.i.getD (S.P c + k) 0, S.x.getD (S.P c + k) 0)])) (List.range cnt)).sum =
        if (r : Nat) ≤ (c : Nat) then ∑ k ∈ Finset.range cnt,
          (if S.I (S.P c + k) = (r : Nat) then S.x.getD (S.P c + k) 0 else 0) else 0 := by
      intro cnt
      induction cnt with
      | zero => simp
      | succ cnt ih =>
        intro hcnt
        have hkk := h.lt_nnz (k := S.P c + cnt) c.2 (by omega)
        have hrow := (h.rows _ hkk).1
        have hI : (S.I (S.P c + cnt) : Int) = S.i.getD (S.P c + cnt) 0 := by
          simp only [CSC.I]; omega
        rw [List.range_succ, List.flatMap_append, List.sum_append, ih (by omega),
          List.flatMap_singleton, Finset.sum_range_succ]
        by_cases hrc : (r : Nat) ≤ (c : Nat)
        · simp only [hrc, if_true]
          congr 1
          by_cases hgt : S.i.getD (S.P c + cnt) 0 > (c : Int)
          · rw [if_pos hgt, if_neg (by omega)]; simp
          · rw [if_neg hgt]
            simp only [List.map_cons, List.map_nil, List.sum_cons, List.sum_nil, add_zero]
            rfl
        · simp only [hrc, if_false, zero_add]
          by_cases hgt : S.i.getD (S.P c + cnt) 0 > (c : Int)
          · rw [if_pos hgt]; simp
          · rw [if_neg hgt]
            simp only [List.map_cons, List.map_nil, List.sum_cons, List.sum_nil, add_zero]
            rw [if_neg (by omega)]
    exact this _ (le_refl _)

/-- C10: a symmetric matrix is recovered from the upper triangular copy by mirroring. -/
theorem C10_mirror (S : CSC K) (h : S.Valid) (hsq : S.m = S.n)
    (hsym : (S.den S.n S.n)ᵀ = S.den S.n S.n) :
    ∃ U : CSC K, copyCSCUpper S.emb = .ok U.emb ∧ ∀ r c, S.den S.n S.n r c =
      if (r : Nat) ≤ (c : Nat) then U.den S.n S.n r c else U.den S.n S.n c r := by
  obtain ⟨U, h1, _, _, _, _, _, h2⟩ := C10_upper S h
  rw [hsq] at h2
  refine ⟨U, h1, ?_⟩
  intro r c
  rw [h2 r c, h2 c r]
  split
  · rfl
  · rw [if_pos (by omega)]
    exact (congrFun (congrFun hsym r) c).symm

/-- C04: for sorted data, the sparse symmetrisation is `L'R+R'L` with the entries of absolute value
at most `1e-25` dropped; it is null iff all entries are dropped. -/
theorem C04_symProdSparse [IsStrictOrderedRing K] (L R : CSC K) (hL : L.Valid) (hR : R.Valid)
    (hsL : L.Sorted) (hsR : R.Sorted) (m n : Nat) (hLm : L.m = m) (hLn : L.n = n) (hRm : R.m = m)
    (hRn : R.n = n) (C : Matrix (Fin n) (Fin n) K)
    (hC : C = (L.den m n)ᵀ * R.den m n + (R.den m n)ᵀ * L.den m n) :
    ((∀ i j, |C i j| ≤ 1 / 10 ^ 25) ∧ symProdSparse L.emb R.emb = .ok none) ∨
    ((∃ i j, 1 / 10 ^ 25 < |C i j|) ∧ ∃ S : CSC K, symProdSparse L.emb R.emb = .ok (some S.emb) ∧
      S.Valid ∧ S.Sorted ∧ S.m = n ∧ S.n = n ∧ S.nzmax = S.P n ∧
      ∀ i j, S.den n n i j = if 1 / 10 ^ 25 < |C i j| then C i j else 0) := by
  let c : Nat → Nat → K := fun i j => if h : i < n ∧ j < n then C ⟨i, h.1⟩ ⟨j, h.2⟩ else 0
  have hc : ∀ i j : Fin n, c i j = C i j := fun i j => by simp only [c]; rw [dif_pos ⟨i.2, j.2⟩]
  have hV : ∀ i < L.emb.n, ∀ j < L.emb.n,
      (do let tmp ← colDot L.emb R.emb i j zero; colDot R.emb L.emb i j tmp) =
        .ok (fin (c i j)) := by
    intro i hi j hj
    change i < L.n at hi
    change j < L.n at hj
    have := symVal_exact hL hR hsL hsR m n hLm hLn hRm hRn ⟨i, by omega⟩ ⟨j, by omega⟩
    rw [← hC, ← hc ⟨i, by omega⟩ ⟨j, by omega⟩] at this
    exact this
  have hok := symProdSparse_ok L.emb R.emb (fun i j => fin (c i j)) hV
  rw [show L.emb.n = n from hLn] at hok
  let E : Nat → List (Int × K) := fun j => (List.range n).flatMap fun i =>
    if 1 / 10 ^ 25 < |c i j| then [((i : Int), c i j)] else []
  have hz : ∀ v : K, (!isZero (fin v : Ext K)) = true ↔ 1 / 10 ^ 25 < |v| := by
    intro v
    have h1 : (isZero (fin v : Ext K)) = decide (|v| ≤ 1 / 10 ^ 25) := by
      show decide ((if 0 ≤ v then v else -v) ≤ ((1 : Int) : K) / 10 ^ 25) = _
      rw [show (if 0 ≤ v then v else -v) = |v| by
        split
        · rename_i h; rw [abs_of_nonneg h]
        · rename_i h; rw [abs_of_neg (not_le.mp h)]]
      simp
    rw [h1]
    simp
  have hE : (fun j => (E j).map fun e => (e.1, fin e.2)) = symCol n (fun i j => fin (c i j)) := by
    funext j
    simp only [E, symCol, List.map_flatMap]
    congr 1
    funext i
    by_cases h0 : 1 / 10 ^ 25 < |c i j|
    · rw [if_pos h0, if_pos ((hz _).mpr h0)]; rfl
    · rw [if_neg h0, if_neg (fun h => h0 ((hz _).mp h))]; rfl
  rw [← hE, ← cscOf_emb] at hok
  have hlen : (ents (fun j => (E j).map fun e => (e.1, (fin e.2 : Ext K))) n).length =
      (ents E n).length := by
    simp [ents, List.length_flatMap]
  rw [hlen] at hok
  have hmemE : ∀ i j, i < n → 1 / 10 ^ 25 < |c i j| → ((i : Int), c i j) ∈ E j := by
    intro i j hi h
    simp only [E, List.mem_flatMap, List.mem_range]
    exact ⟨i, hi, by rw [if_pos h]; simp⟩
  by_cases h0 : (ents E n).length = 0
  · left
    refine ⟨?_, by rw [hok, if_pos h0]⟩
    intro i j
    by_contra hne
    push Not at hne
    rw [← hc] at hne
    have := hmemE i j i.2 hne
    have : ((i : Int), c i j) ∈ ents E n := by
      simp only [ents, List.mem_flatMap, List.mem_range]
      exact ⟨j, j.2, this⟩
    rw [List.length_eq_zero_iff] at h0
    rw [h0] at this
    simp at this
  · right
    have hden : ∀ i j : Fin n, (cscOf n n E).den n n i j =
        if 1 / 10 ^ 25 < |C i j| then C i j else 0 := by
      intro i j
      rw [cscOf_den]
      simp only [E, List.map_flatMap]
      have : ∀ m' : Nat, (List.flatMap (fun a => List.map (fun e : Int × K =>
          if e.1.toNat = (i : Nat) then e.2 else 0)
          (if 1 / 10 ^ 25 < |c a j| then [((a : Int), c a j)] else []))
          (List.range m')).sum = if (i : Nat) < m' then
            (if 1 / 10 ^ 25 < |c i j| then c i j else 0) else 0 := by
        intro m'
        induction m' with
        | zero => simp
        | succ m' ih =>
          rw [List.range_succ, List.flatMap_append, List.sum_append, ih, List.flatMap_singleton]
          by_cases hr : m' = (i : Nat)
          · subst hr
            simp only [lt_irrefl, if_false, zero_add, Nat.lt_succ_self, if_true]
            split <;> simp
          · have h2 : (i : Nat) < m' + 1 ↔ (i : Nat) < m' := by omega
            simp only [h2]
            have : (List.map (fun e : Int × K => if e.1.toNat = (i : Nat) then e.2 else 0)
              (if 1 / 10 ^ 25 < |c m' j| then [((m' : Int), c m' j)] else [])).sum = 0 := by
              split <;> simp [hr]
            rw [this, add_zero]
      rw [this n, if_pos i.2, hc]
    refine ⟨?_, cscOf n n E, by rw [hok, if_neg h0], ?_, ?_, rfl, rfl, ?_, hden⟩
    · by_contra hne
      push Not at hne
      apply h0
      rw [List.length_eq_zero_iff, List.eq_nil_iff_forall_not_mem]
      intro e he
      obtain ⟨j, hj, he⟩ := ents_mem E he
      simp only [E, List.mem_flatMap, List.mem_range] at he
      obtain ⟨i, hi, he⟩ := he
      split at he
      · rename_i h1
        have := hne ⟨i, hi⟩ ⟨j, hj⟩
        rw [← hc] at this
        exact absurd h1 (not_lt.mpr this)
      · simp at he
    · apply cscOf_valid
      intro j _ e he
      simp only [E, List.mem_flatMap, List.mem_range] at he
      obtain ⟨i, hi, he⟩ := he
      split at he
      · simp at he; subst he; simp; omega
      · simp at he
    · apply cscOf_sorted
      intro j _
      simp only [E]
      rw [List.pairwise_flatMap]
      constructor
      · intro a _
        split <;> simp
      · apply List.Pairwise.imp _ List.pairwise_lt_range
        intro a b hab x hx y hy
        split at hx <;> split at hy <;> simp at hx hy
        subst hx hy
        simpa using hab
    · rw [cscOf_P _ _ _ (le_refl _)]
      rfl

/-- C04: without sorted rows the result can be wrong: contributions to an entry of `L'R+R'L` are
missed. -/
theorem C04_unsorted_wrong :
    ∃ (L R : CSC ℚ), L.Valid ∧ R.Valid ∧ L.m = 2 ∧ L.n = 1 ∧ R.m = 2 ∧ R.n = 1 ∧
      (∃ S : CSC ℚ, symProdSparse L.emb R.emb = .ok (some S.emb) ∧ S.den 1 1 0 0 = 1) ∧
      ((L.den 2 1)ᵀ * R.den 2 1 + (R.den 2 1)ᵀ * L.den 2 1) 0 0 = 2 := by
  refine ⟨{ m := 2, n := 1, nzmax := 1, p := [0, 1], i := [0], x := [1] },
    { m := 2, n := 1, nzmax := 2, p := [0, 2], i := [1, 0], x := [1, 1] }, ?_, ?_, rfl, rfl, rfl,
    rfl, ?_, ?_⟩
  · exact { plen := rfl, p0 := rfl, mono := by decide, nz := by decide, ilen := by decide,
            xlen := by decide, rows := by decide }
  · exact { plen := rfl, p0 := rfl, mono := by decide, nz := by decide, ilen := by decide,
            xlen := by decide, rows := by decide }
  · exact ⟨{ m := 1, n := 1, nzmax := 1, p := [0, 1], i := [0], x := [1] }, by decide +kernel,
      by decide +kernel⟩
  · decide +kernel

/-! Non-vacuity: concrete runs. -/
example : dnsToCsc (emb [1, 0, 2, (0 : ℚ), 3, 0]) 2 3 =
    .ok ⟨2, 3, 3, [0, 1, 2, 3], [0, 1, 0], emb [1, 3, 2]⟩ := by decide +kernel
example : cscToDns (α := Ext ℚ) ⟨2, 3, 3, [0, 1, 2, 3], [0, 1, 0], emb [1, 3, 2]⟩ =
    .ok (some (emb [1, 0, 2, 0, 3, 0])) := by decide +kernel
example : cscToDns (α := Ext ℚ) ⟨2, 1, 1, [0, 1], [2], emb [1]⟩ = .ok none := by decide +kernel
example : copyCSCUpper (α := Ext ℚ) ⟨2, 2, 4, [0, 2, 4], [0, 1, 0, 1], emb [1, 2, 3, 4]⟩ =
    .ok ⟨2, 2, 3, [0, 1, 3], [0, 0, 1], emb [1, 3, 4]⟩ := by decide +kernel
example : symProdSparse (α := Ext ℚ) ⟨1, 2, 1, [0, 1, 1], [0], emb [2]⟩
    ⟨1, 2, 1, [0, 0, 1], [0], emb [3]⟩ =
    .ok (some ⟨2, 2, 2, [0, 1, 2], [1, 0], emb [6, 6]⟩) := by decide +kernel

end LCQ
