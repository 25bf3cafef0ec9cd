import Verif.Model.Solver
import Verif.Lemmas.Convert

/-!
# Closed form of the sparse penalised Hessian

`mergeL` merges the entries of a column of `Q` with those of the same column of `C`; the arrays built
by `setQk` and updated by `updateQk` are described by the merged entries.
-/

set_option linter.unusedSectionVars false

namespace LCQ
open Scalar

/-- an entry of the merged matrix: row, contribution of `Q` and contribution of `C` -/
structure Ent (α : Type) where
  /-- row -/
  row : Int
  /-- entry of `Q` -/
  q : Option α
  /-- entry of `C` -/
  c : Option α

/-- merge of two columns -/
def mergeL {α : Type} : List (Int × α) → List (Int × α) → List (Ent α)
  | [], [] => []
  | q :: qs, [] => ⟨q.1, some q.2, none⟩ :: mergeL qs []
  | [], c :: cs => ⟨c.1, none, some c.2⟩ :: mergeL [] cs
  | q :: qs, c :: cs =>
    if q.1 < c.1 then ⟨q.1, some q.2, none⟩ :: mergeL qs (c :: cs)
    else if c.1 < q.1 then ⟨c.1, none, some c.2⟩ :: mergeL (q :: qs) cs
    else ⟨q.1, some q.2, some c.2⟩ :: mergeL qs cs
  termination_by a b => a.length + b.length

/-- positions of the entries with a contribution of `C`, counted from `off` -/
def cpos {α : Type} (off : Nat) : List (Ent α) → List Int
  | [] => []
  | e :: l => (if e.c.isSome then [(off : Int)] else []) ++ cpos (off + 1) l

theorem cpos_append {α : Type} (off : Nat) (l l' : List (Ent α)) :
    cpos off (l ++ l') = cpos off l ++ cpos (off + l.length) l' := by
  induction l generalizing off with
  | nil => simp [cpos]
  | cons e l ih =>
    simp only [List.cons_append, cpos, ih, List.append_assoc, List.length_cons]
    rw [show off + 1 + l.length = off + (l.length + 1) by omega]

theorem mergeL_c {α : Type} (a b : List (Int × α)) :
    (mergeL a b).filterMap Ent.c = b.map Prod.snd := by
  induction a, b using mergeL.induct with
  | case1 => simp [mergeL]
  | case2 q qs ih => rw [mergeL]; simp [ih]
  | case3 c cs ih => rw [mergeL]; simp [ih]
  | case4 q qs c cs h ih => rw [mergeL, if_pos h]; simp [ih]
  | case5 q qs c cs h h' ih => rw [mergeL, if_neg h, if_pos h']; simp [ih]
  | case6 q qs c cs h h' ih => rw [mergeL, if_neg h, if_neg h']; simp [ih]

/-- rows of the merged entries are rows of the given entries -/
theorem mergeL_row {α : Type} (a b : List (Int × α)) (e : Ent α) (h : e ∈ mergeL a b) :
    (∃ x ∈ a, x.1 = e.row) ∨ (∃ x ∈ b, x.1 = e.row) := by
  induction a, b using mergeL.induct with
  | case1 => simp [mergeL] at h
  | case2 q qs ih =>
    rw [mergeL] at h
    rcases List.mem_cons.mp h with rfl | h
    · exact Or.inl ⟨q, by simp, rfl⟩
    · rcases ih h with ⟨x, hx, hr⟩ | ⟨x, hx, hr⟩
      · exact Or.inl ⟨x, by simp [hx], hr⟩
      · exact Or.inr ⟨x, by simpa using hx, hr⟩
  | case3 c cs ih =>
    rw [mergeL] at h
    rcases List.mem_cons.mp h with rfl | h
    · exact Or.inr ⟨c, by simp, rfl⟩
    · rcases ih h with ⟨x, hx, hr⟩ | ⟨x, hx, hr⟩
      · exact Or.inl ⟨x, by simpa using hx, hr⟩
      · exact Or.inr ⟨x, by simp [hx], hr⟩
  | case4 q qs c cs hlt ih =>
    rw [mergeL, if_pos hlt] at h
    rcases List.mem_cons.mp h with rfl | h
    · exact Or.inl ⟨q, by simp, rfl⟩
    · rcases ih h with ⟨x, hx, hr⟩ | ⟨x, hx, hr⟩
      · exact Or.inl ⟨x, by simp [hx], hr⟩
      · exact Or.inr ⟨x, hx, hr⟩
  | case5 q qs c cs hlt hlt' ih =>
    rw [mergeL, if_neg hlt, if_pos hlt'] at h
    rcases List.mem_cons.mp h with rfl | h
    · exact Or.inr ⟨c, by simp, rfl⟩
    · rcases ih h with ⟨x, hx, hr⟩ | ⟨x, hx, hr⟩
      · exact Or.inl ⟨x, hx, hr⟩
      · exact Or.inr ⟨x, by simp [hx], hr⟩
  | case6 q qs c cs hlt hlt' ih =>
    rw [mergeL, if_neg hlt, if_neg hlt'] at h
    rcases List.mem_cons.mp h with rfl | h
    · exact Or.inl ⟨q, by simp, rfl⟩
    · rcases ih h with ⟨x, hx, hr⟩ | ⟨x, hx, hr⟩
      · exact Or.inl ⟨x, by simp [hx], hr⟩
      · exact Or.inr ⟨x, by simp [hx], hr⟩

variable {α : Type} [Scalar α]

/-- value of a merged entry, `Q_x + rho*C_x` -/
def Ent.val (rho : α) (e : Ent α) : α :=
  match e.q, e.c with
  | some v, some w => v +. rho *. w
  | some v, none => v
  | none, some w => rho *. w
  | none, none => zero

/-- row and value -/
def Ent.pair (v : Ent α → α) (e : Ent α) : Int × α := (e.row, v e)

theorem col_length (S : CSC α) (j : Nat) : (S.col j).length = S.P (j + 1) - S.P j := by
  simp [CSC.col]

theorem col_drop (S : CSC α) (j a : Nat) (h : a < S.P (j + 1) - S.P j) :
    (S.col j).drop a = (S.i.getD (S.P j + a) 0, gt S.x (S.P j + a)) :: (S.col j).drop (a + 1) := by
  rw [List.drop_eq_getElem_cons (by simpa [col_length] using h)]
  simp [CSC.col]

theorem CSC.ValidPtr.rd_i' {S : CSC α} (h : S.ValidPtr) {k : Nat} (hk : k < S.P S.n) :
    rdI S.i (k : Int) = .ok (S.i.getD k 0) := by
  rw [rdI_nat, rdi_ok (h.i_lt hk)]
  rfl

theorem mergeCol_ok (rho : α) (Q C : CSC α) (hQ : Q.ValidPtr) (hC : C.ValidPtr) {j : Nat}
    (hj : j < Q.n) (hj' : j < C.n) (f a b : Nat) (ha : a ≤ Q.P (j + 1) - Q.P j)
    (hb : b ≤ C.P (j + 1) - C.P j)
    (hf : (Q.P (j + 1) - Q.P j - a) + (C.P (j + 1) - C.P j - b) ≤ f) (s : Build α × List Int) :
    mergeCol rho Q C (Q.P (j + 1) : Int) (C.P (j + 1) : Int) f ((Q.P j + a : Nat) : Int)
      ((C.P j + b : Nat) : Int) s =
    .ok (s.1.addAll ((mergeL ((Q.col j).drop a) ((C.col j).drop b)).map (Ent.pair (Ent.val rho))),
      s.2 ++ cpos s.1.rows.length (mergeL ((Q.col j).drop a) ((C.col j).drop b))) := by
  have mQ := hQ.P_mono_step hj
  have mC := hC.P_mono_step hj'
  induction f generalizing a b s with
  | zero =>
    have ea : (Q.col j).drop a = [] := List.drop_eq_nil_of_le (by rw [col_length]; omega)
    have eb : (C.col j).drop b = [] := List.drop_eq_nil_of_le (by rw [col_length]; omega)
    rw [ea, eb]
    simp [mergeCol, mergeL, cpos]
  | succ f ih =>
    rw [mergeCol]
    by_cases h1 : a < Q.P (j + 1) - Q.P j
    · have eQ := col_drop Q j a h1
      have kQ := hQ.lt_nnz (k := Q.P j + a) hj (by omega)
      by_cases h2 : b < C.P (j + 1) - C.P j
      · have eC := col_drop C j b h2
        have kC := hC.lt_nnz (k := C.P j + b) hj' (by omega)
        rw [if_neg (by omega), if_neg (by omega), if_pos (by omega), hQ.rd_i' kQ, ok_bind,
          hC.rd_i' kC, ok_bind, eQ, eC, mergeL]
        simp only
        by_cases h3 : Q.i.getD (Q.P j + a) 0 < C.i.getD (C.P j + b) 0
        · rw [if_pos h3, if_pos h3, hQ.rd_x kQ, ok_bind,
            show ((Q.P j + a : Nat) : Int) + 1 = ((Q.P j + (a + 1) : Nat) : Int) by push_cast; ring,
            ih (a + 1) b (by omega) hb (by omega), eC]
          simp [addAll_push, Ent.pair, Ent.val, cpos, Build.addAll]
        · rw [if_neg h3, if_neg h3]
          by_cases h4 : C.i.getD (C.P j + b) 0 < Q.i.getD (Q.P j + a) 0
          · rw [if_pos h4, if_pos h4, hC.rd_x kC, ok_bind,
              show ((C.P j + b : Nat) : Int) + 1 = ((C.P j + (b + 1) : Nat) : Int) by push_cast; ring,
              ih a (b + 1) ha (by omega) (by omega), eQ]
            simp [addAll_push, Ent.pair, Ent.val, cpos, Build.addAll]
          · rw [if_neg h4, if_neg h4, hQ.rd_x kQ, ok_bind, hC.rd_x kC, ok_bind,
              show ((Q.P j + a : Nat) : Int) + 1 = ((Q.P j + (a + 1) : Nat) : Int) by push_cast; ring,
              show ((C.P j + b : Nat) : Int) + 1 = ((C.P j + (b + 1) : Nat) : Int) by push_cast; ring,
              ih (a + 1) (b + 1) (by omega) (by omega) (by omega)]
            simp [addAll_push, Ent.pair, Ent.val, cpos, Build.addAll]
      · have eC : (C.col j).drop b = [] := List.drop_eq_nil_of_le (by rw [col_length]; omega)
        rw [if_pos (by omega), hQ.rd_x kQ, ok_bind, hQ.rd_i' kQ, ok_bind,
          show ((Q.P j + a : Nat) : Int) + 1 = ((Q.P j + (a + 1) : Nat) : Int) by push_cast; ring,
          ih (a + 1) b (by omega) hb (by omega), eC, eQ, mergeL]
        simp [addAll_push, Ent.pair, Ent.val, cpos, Build.addAll]
    · have eQ : (Q.col j).drop a = [] := List.drop_eq_nil_of_le (by rw [col_length]; omega)
      by_cases h2 : b < C.P (j + 1) - C.P j
      · have eC := col_drop C j b h2
        have kC := hC.lt_nnz (k := C.P j + b) hj' (by omega)
        rw [if_neg (by omega), if_pos (by omega), hC.rd_x kC, ok_bind, hC.rd_i' kC, ok_bind,
          show ((C.P j + b : Nat) : Int) + 1 = ((C.P j + (b + 1) : Nat) : Int) by push_cast; ring,
          ih a (b + 1) ha (by omega) (by omega), eC, eQ, mergeL]
        simp [addAll_push, Ent.pair, Ent.val, cpos, Build.addAll]
      · have eC : (C.col j).drop b = [] := List.drop_eq_nil_of_le (by rw [col_length]; omega)
        rw [if_neg (by omega), if_neg (by omega), if_neg (by omega), eQ, eC]
        simp [mergeL, cpos]

/-- merged entries of column `j` -/
def mcol (Q C : CSC α) (j : Nat) : List (Ent α) := mergeL (Q.col j) (C.col j)

/-- merged entries of the first `n` columns -/
def mall (Q C : CSC α) (n : Nat) : List (Ent α) := (List.range n).flatMap (mcol Q C)

theorem mall_succ (Q C : CSC α) (n : Nat) : mall Q C (n + 1) = mall Q C n ++ mcol Q C n := by
  simp [mall, List.range_succ, List.flatMap_append]

theorem ents_mcol (Q C : CSC α) (v : Ent α → α) (n : Nat) :
    ents (fun j => (mcol Q C j).map (Ent.pair v)) n = (mall Q C n).map (Ent.pair v) := by
  simp [ents, mall, List.map_flatMap]

/-- compressed-column matrix of the merged entries -/
def mcsc (Q C : CSC α) (n : Nat) (v : Ent α → α) : CSC α :=
  cscOf n n fun j => (mcol Q C j).map (Ent.pair v)

theorem mergeQC_ok (rho : α) (Q C : CSC α) (hQ : Q.ValidPtr) (hC : C.ValidPtr) (n : Nat)
    (nQ : Q.n = n) (nC : C.n = n) (idx : List Int) :
    mergeQC rho Q C n idx =
      .ok (buildOf (fun j => (mcol Q C j).map (Ent.pair (Ent.val rho))) n,
        idx ++ cpos 0 (mall Q C n)) := by
  unfold mergeQC
  apply loop_eq (fun j => (buildOf (fun j => (mcol Q C j).map (Ent.pair (Ent.val rho))) j,
        idx ++ cpos 0 (mall Q C j)))
  · simp [buildOf, Build.init, ents_zero, tab, mall, cpos]
  · intro j hj
    rw [hQ.rd_p (by omega), ok_bind, hC.rd_p (by omega), ok_bind, hQ.rd_p (by omega), ok_bind,
      hC.rd_p (by omega), ok_bind]
    have := mergeCol_ok rho Q C hQ hC (j := j) (by omega) (by omega)
      (((Q.P (j + 1) : Int) - (Q.P j : Int)).toNat + ((C.P (j + 1) : Int) - (C.P j : Int)).toNat) 0 0
      (by omega) (by omega) (by omega)
    simp only [Nat.add_zero] at this
    rw [this, ok_bind]
    simp only [List.drop_zero]
    rw [show mergeL (Q.col j) (C.col j) = mcol Q C j from rfl]
    congr 2
    · simp only [buildOf, Build.addAll, Build.close, ents_succ, List.map_append]
      congr 1
      rw [show tab (j + 1 + 1) (fun t => ((ents (fun j => (mcol Q C j).map (Ent.pair (Ent.val rho))) t).length : Int)) =
        tab (j + 1) (fun t => ((ents (fun j => (mcol Q C j).map (Ent.pair (Ent.val rho))) t).length : Int)) ++
          [((ents (fun j => (mcol Q C j).map (Ent.pair (Ent.val rho))) (j + 1)).length : Int)] by
          simp [tab, List.range_succ]]
      simp [ents_succ]
    · rw [mall_succ, cpos_append, List.append_assoc]
      congr 3
      simp [buildOf, ents_mcol]

theorem mall_c (Q C : CSC α) (hC : C.ValidPtr) (n : Nat) (h : n ≤ C.n) :
    (mall Q C n).filterMap Ent.c = (List.range (C.P n)).map (gt C.x) := by
  induction n with
  | zero => simp [mall, hC.P_zero]
  | succ n ih =>
    have := hC.P_mono_step (show n < C.n by omega)
    rw [mall_succ, List.filterMap_append, ih (by omega), mcol, mergeL_c]
    rw [show C.P (n + 1) = C.P n + (C.P (n + 1) - C.P n) by omega, List.range_add, List.map_append]
    congr 1
    simp [CSC.col]

theorem cpos_length (off : Nat) (l : List (Ent α)) :
    (cpos off l).length = (l.filterMap Ent.c).length := by
  induction l generalizing off with
  | nil => rfl
  | cons e l ih =>
    simp only [cpos, List.length_append, ih]
    cases h : e.c <;> simp [h]
    omega

/-- what `bumpQks` does to the value of an entry -/
def Ent.bump (f : α) (v : Ent α → α) (e : Ent α) : α :=
  match e.c with
  | none => v e
  | some w => v e +. f *. w

theorem bump_loop (f : α) (v : Ent α → α) (T : List (Ent α)) (rest : List α) (idx : List Int)
    (cx : List α) (hi : ∀ j < (cpos 0 T).length, idx[j]? = (cpos 0 T)[j]?)
    (hc : ∀ j < (cpos 0 T).length, cx[j]? = (T.filterMap Ent.c)[j]?) :
    loop (cpos 0 T).length (fun j x => do
      let i ← rd idx j
      let old ← rdI x i
      let c ← rd cx j
      wrI x i (old +. f *. c)) (T.map v ++ rest) = .ok (T.map (Ent.bump f v) ++ rest) := by
  induction T using List.reverseRecOn generalizing rest with
  | nil => simp [cpos, loop]
  | append_singleton T e ih =>
    rw [cpos_append] at hi hc ⊢
    have hlen := cpos_length 0 T
    cases he : e.c with
    | none =>
      simp only [cpos, he, Option.isSome_none, Bool.false_eq_true, if_false, List.append_nil] at hi hc ⊢
      have := ih (v e :: rest) hi (by
        intro j hj
        rw [hc j hj]
        simp [he])
      simp only [List.map_append, List.map_cons, List.map_nil, List.append_assoc, List.singleton_append]
      rw [this]
      simp [Ent.bump, he]
    | some w =>
      simp only [cpos, he, Option.isSome_some, if_true, List.append_nil, List.length_append,
        List.length_cons, List.length_nil, Nat.zero_add] at hi hc ⊢
      have := ih (v e :: rest) (by
        intro j hj
        rw [hi j (by omega), List.getElem?_append_left hj]) (by
        intro j hj
        rw [hc j (by omega), List.filterMap_append, List.getElem?_append_left (by omega)])
      rw [loop]
      simp only [List.map_append, List.map_cons, List.map_nil, List.append_assoc, List.singleton_append]
      rw [this, ok_bind]
      have h1 : rd idx (cpos 0 T).length = .ok (T.length : Int) := by
        unfold rd
        rw [hi _ (by omega)]
        simp
      have h2 : rd cx (cpos 0 T).length = .ok w := by
        unfold rd
        rw [hc _ (by omega), List.filterMap_append, hlen]
        simp [he]
      have h3 : rdI (T.map (Ent.bump f v) ++ v e :: rest) (T.length : Int) = .ok (v e) := by
        rw [rdI_nat]
        unfold rd
        simp
      rw [h1, ok_bind, h3, ok_bind, h2, ok_bind, wrI_nat, wr_ok (by simp)]
      simp [Ent.bump, he]

/-- closed form of the in-place update -/
theorem bumpQks_ok (f : α) (Q C : CSC α) (hC : C.ValidPtr) (v : Ent α → α) (n : Nat) (hn : C.n = n) :
    bumpQks f C (cpos 0 (mall Q C n)) ((mall Q C n).map v) =
      .ok ((mall Q C n).map (Ent.bump f v)) := by
  have h := bump_loop f v (mall Q C n) [] (cpos 0 (mall Q C n)) C.x (fun _ _ => rfl) (by
    intro j hj
    rw [cpos_length, mall_c Q C hC n (by omega)] at hj
    rw [mall_c Q C hC n (by omega)]
    simp at hj
    have := hC.x_lt (k := j) (by rw [hn]; exact hj)
    simp [hj, gt, List.getD_eq_getElem?_getD, this])
  simpa [bumpQks] using h

theorem mcsc_x (Q C : CSC α) (n : Nat) (v : Ent α → α) : (mcsc Q C n v).x = (mall Q C n).map v := by
  simp [mcsc, cscOf, ents_mcol, Function.comp_def, Ent.pair]

theorem mcsc_setx (Q C : CSC α) (n : Nat) (v w : Ent α → α) :
    { mcsc Q C n v with x := (mall Q C n).map w } = mcsc Q C n w := by
  have : ∀ v, mcsc Q C n v = ⟨n, n, (mall Q C n).length, tab (n + 1) (fun t => ((mall Q C t).length : Int)),
      (mall Q C n).map Ent.row, (mall Q C n).map v⟩ := by
    intro v
    simp [mcsc, cscOf, ents_mcol, Function.comp_def, Ent.pair]
  rw [this v, this w]

theorem mcsc_valid (Q C : CSC α) (hQ : Q.Valid) (hC : C.Valid) (n : Nat) (v : Ent α → α)
    (mQ : Q.m = n) (nQ : Q.n = n) (mC : C.m = n) (nC : C.n = n) : (mcsc Q C n v).Valid := by
  have hcol : ∀ S : CSC α, S.Valid → S.m = n → S.n = n → ∀ j < n, ∀ x ∈ S.col j, 0 ≤ x.1 ∧ x.1 < n := by
    intro S hS hm hn j hj x hx
    simp only [CSC.col, List.mem_map, List.mem_range] at hx
    obtain ⟨k, hk, rfl⟩ := hx
    have := hS.rows (S.P j + k) (hS.lt_nnz (j := j) (by omega) (by omega))
    rw [hm] at this
    exact this
  apply cscOf_valid
  intro j hj e he
  simp only [List.mem_map] at he
  obtain ⟨t, ht, rfl⟩ := he
  rcases mergeL_row _ _ _ ht with ⟨x, hx, hr⟩ | ⟨x, hx, hr⟩
  · rw [Ent.pair, ← hr]; exact hcol Q hQ mQ nQ j hj x hx
  · rw [Ent.pair, ← hr]; exact hcol C hC mC nC j hj x hx

end LCQ
