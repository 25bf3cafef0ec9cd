import Verif.Lemmas.Ready
import Verif.Lemmas.SymSparse
import Verif.Lemmas.MergeQk

/-!
# Closed form of the sparse load
-/

set_option linter.unusedSectionVars false

namespace LCQ
open Scalar

variable {α : Type} [Scalar α] {n : Dims}

/-! ## copies -/

/-- the copy made by `copyCSC` -/
def CSC.trim (S : CSC α) : CSC α := { S with
  i := S.i.take S.nzmax
  x := S.x.take S.nzmax }

theorem getD_take {β : Type} (l : List β) (d : β) {k m : Nat} (h : k < m) : (l.take m).getD k d = l.getD k d := by
  rw [List.getD_eq_getElem?_getD, List.getD_eq_getElem?_getD, List.getElem?_take, if_pos h]

theorem CSC.Valid.trim {S : CSC α} (h : S.Valid) : S.trim.Valid where
  plen := h.plen
  p0 := h.p0
  mono := h.mono
  nz := h.nz
  ilen := by have := h.ilen; simp [CSC.trim]; omega
  xlen := by have := h.xlen; simp [CSC.trim]; omega
  rows := by
    intro k hk
    have h1 : k < S.P S.n := hk
    have := h.nz
    show 0 ≤ (S.i.take S.nzmax).getD k 0 ∧ (S.i.take S.nzmax).getD k 0 < S.m
    rw [getD_take _ _ (by omega)]
    exact h.rows k h1

theorem CSC.Is.trim {S : CSC α} {m k : Nat} (h : S.Is m k) : S.trim.Is m k := ⟨h.1.trim, h.2⟩

theorem trim_col {S : CSC α} (h : S.Valid) {c : Nat} (hc : c < S.n) : S.trim.col c = S.col c := by
  unfold CSC.col
  apply List.map_congr_left
  intro k hk
  have hk' : k < S.P (c + 1) - S.P c := List.mem_range.mp hk
  have h1 : S.P c + k < S.P S.n := h.lt_nnz hc (by omega)
  have := h.nz
  show ((S.i.take S.nzmax).getD (S.P c + k) 0, gt (S.x.take S.nzmax) (S.P c + k)) = _
  unfold gt
  rw [getD_take _ _ (by omega), getD_take _ _ (by omega)]

theorem CSC.Sorted.trim {S : CSC α} (h : S.Valid) (hs : S.Sorted) : S.trim.Sorted := by
  intro j hj k l hk hkl hl
  have h1 : l < S.P S.n := h.lt_nnz hj hl
  have := h.nz
  show (S.i.take S.nzmax).getD k 0 < (S.i.take S.nzmax).getD l 0
  rw [getD_take _ _ (by omega), getD_take _ _ (by omega)]
  exact hs j hj k l hk hkl hl

/-! ## stacking -/

/-- row indices shifted by `off` -/
def shift (off : Nat) (l : List (Int × α)) : List (Int × α) := l.map fun e => ((off : Int) + e.1, e.2)

/-- column `j` of an optional matrix -/
def colOpt (A : Option (CSC α)) (j : Nat) : List (Int × α) :=
  match A with
  | none => []
  | some A => A.col j

/-- column `j` of the stacked matrix (A; L; R) -/
def stackCol (n : Dims) (L R : CSC α) (A : Option (CSC α)) (j : Nat) : List (Int × α) :=
  colOpt A j ++ shift n.nC (L.col j) ++ shift (n.nC + n.nComp) (R.col j)

theorem CSC.col_len (S : CSC α) (j : Nat) : (S.col j).length = S.P (j + 1) - S.P j := by simp [CSC.col]

theorem appendCol_ok {S : CSC α} (h : S.Valid) {j : Nat} (hj : j < S.n) (off : Nat) {cap : Nat} (b : Build α)
    (hc : b.rows.length + (S.col j).length ≤ cap) :
    appendCol S j off cap b = .ok (b.addAll (shift off (S.col j))) := by
  have hl := S.col_len j
  unfold appendCol
  rw [h.rd_p (by omega), ok_bind, h.rd_p (by omega), ok_bind, loopI_nat]
  rw [loop_eq (fun k => b.addAll (shift off ((S.col j).take k))) (S.P (j + 1) - S.P j) _ b (by simp [shift])]
  · rw [← hl, List.take_length]
  · intro k hk
    have hkk := h.lt_nnz (k := S.P j + k) hj (by omega)
    have hlen : (b.addAll (shift off ((S.col j).take k))).rows.length = b.rows.length + k := by
      simp [Build.addAll, shift, hl]; omega
    rw [h.rd_x hkk, ok_bind, h.rd_i' hkk, ok_bind, Build.pushCap, if_pos (by rw [hlen]; omega), addAll_push,
      addAll_append, S.col_take_succ j k hk]
    simp [shift]

theorem shift_zero (l : List (Int × α)) : shift 0 l = l := by simp [shift]

theorem appendColOpt_ok {A : Option (CSC α)} {m nV : Nat} (h : ∀ S, A = some S → S.Is m nV) {j : Nat} (hj : j < nV)
    {cap : Nat} (b : Build α) (hc : b.rows.length + (colOpt A j).length ≤ cap) :
    appendColOpt A j cap b = .ok (b.addAll (colOpt A j)) := by
  cases A with
  | none => simp [appendColOpt, colOpt]
  | some S =>
    obtain ⟨hv, hm, hn⟩ := h S rfl
    have := appendCol_ok hv (show j < S.n by omega) 0 b hc
    rw [shift_zero] at this
    exact this

theorem ents_col_len {S : CSC α} (h : S.Valid) {j : Nat} (hj : j ≤ S.n) : (ents S.col j).length = S.P j := by
  induction j with
  | zero => simp [ents_zero, h.P_zero]
  | succ j ih =>
    rw [ents_succ, List.length_append, ih (by omega), S.col_len]
    have := h.P_mono_step (show j < S.n by omega)
    omega

theorem ents_append_len (E F G : Nat → List (Int × α)) (j : Nat) :
    (ents (fun i => E i ++ F i ++ G i) j).length = (ents E j).length + (ents F j).length + (ents G j).length := by
  induction j with
  | zero => simp [ents_zero]
  | succ j ih =>
    simp only [ents_succ, List.length_append] at ih ⊢
    omega

theorem ents_shift_len (off : Nat) (E : Nat → List (Int × α)) (j : Nat) :
    (ents (fun i => shift off (E i)) j).length = (ents E j).length := by
  induction j with
  | zero => simp [ents_zero]
  | succ j ih =>
    simp only [ents_succ, List.length_append] at ih ⊢
    rw [ih]
    simp [shift]

theorem nnzOpt_ok {A : Option (CSC α)} {m nV : Nat} (h : ∀ S, A = some S → S.Is m nV) :
    nnzOpt A nV = .ok ((ents (colOpt A) nV).length : Int) := by
  cases A with
  | none =>
    have : ents (colOpt (none : Option (CSC α))) nV = [] := by simp [ents, colOpt]
    rw [this]
    rfl
  | some S =>
    obtain ⟨hv, hm, hn⟩ := h S rfl
    show rd S.p nV = .ok ((ents S.col nV).length : Int)
    rw [hv.rd_p (by omega), ents_col_len hv (by omega)]

/-- `stackSparse` builds the matrix with the stacked columns; nothing of the new arrays is left
unwritten, so the indeterminate contents do not appear. -/
theorem stackSparse_ok {e : Env α} {L R : CSC α} {A : Option (CSC α)} (hL : L.Is n.nComp n.nV)
    (hR : R.Is n.nComp n.nV) (hA : ∀ S, A = some S → S.Is n.nC n.nV) :
    stackSparse e n L R A = .ok (cscOf n.nA n.nV (stackCol n L R A)) := by
  obtain ⟨vL, mL, nL⟩ := hL
  obtain ⟨vR, mR, nR⟩ := hR
  unfold stackSparse
  rw [vL.rd_p (by omega), ok_bind, vR.rd_p (by omega), ok_bind, nnzOpt_ok hA, ok_bind]
  dsimp only
  have hcap : ((L.P n.nV : Int) + (R.P n.nV : Int) + ((ents (colOpt A) n.nV).length : Int)) =
      ((ents (stackCol n L R A) n.nV).length : Nat) := by
    unfold stackCol
    rw [ents_append_len, ents_shift_len, ents_shift_len, ents_col_len vL (by omega), ents_col_len vR (by omega)]
    omega
  rw [hcap, loop_eq (buildOf (stackCol n L R A)) n.nV _ Build.init]
  · rw [ok_bind]
    have h1 : (buildOf (stackCol n L R A) n.nV).data.length = (ents (stackCol n L R A) n.nV).length := by
      simp [buildOf]
    have h2 : (buildOf (stackCol n L R A) n.nV).rows.length = (ents (stackCol n L R A) n.nV).length := by
      simp [buildOf]
    rw [h1, h2, Int.toNat_natCast, List.drop_eq_nil_of_le (by simp [Env.alloc]),
      List.drop_eq_nil_of_le (by simp)]
    simp [buildOf, createCSC, cscOf, Dims.nA]
  · simp [buildOf, Build.init, ents_zero, tab]
  · intro j hj
    have hlen : (ents (stackCol n L R A) j).length + (stackCol n L R A j).length ≤
        (ents (stackCol n L R A) n.nV).length := by
      have := ents_length_mono (stackCol n L R A) (show j + 1 ≤ n.nV by omega)
      rw [ents_succ, List.length_append] at this
      exact this
    have hs : (stackCol n L R A j).length = (colOpt A j).length + (L.col j).length + (R.col j).length := by
      simp [stackCol, shift]; omega
    have hb : (buildOf (stackCol n L R A) j).rows.length = (ents (stackCol n L R A) j).length := by simp [buildOf]
    rw [appendColOpt_ok hA hj _ (by rw [hb]; omega), ok_bind,
      appendCol_ok vL (by omega) n.nC _ (by
        simp only [Build.addAll, List.length_append, List.length_map]
        rw [hb]; omega), ok_bind,
      appendCol_ok vR (by omega) (n.nC + n.nComp) _ (by
        simp only [Build.addAll, List.length_append, List.length_map, shift]
        rw [hb]; omega), ok_bind, addAll_append, addAll_append, ← List.append_assoc]
    congr 1
    have := build_outer' (j + 1) (fun j b => .ok (b.addAll (stackCol n L R A j)).close) (stackCol n L R A)
      (fun _ _ _ => rfl)
    have h0 := build_outer' j (fun j b => .ok (b.addAll (stackCol n L R A j)).close) (stackCol n L R A)
      (fun _ _ _ => rfl)
    rw [loop, h0, ok_bind] at this
    injection this

theorem stackSparse_is {L R : CSC α} {A : Option (CSC α)} (hL : L.Is n.nComp n.nV)
    (hR : R.Is n.nComp n.nV) (hA : ∀ S, A = some S → S.Is n.nC n.nV) :
    (cscOf n.nA n.nV (stackCol n L R A)).Is n.nA n.nV := by
  have hcol : ∀ {S : CSC α} {m : Nat}, S.Is m n.nV → ∀ c < n.nV, ∀ x ∈ S.col c, 0 ≤ x.1 ∧ x.1 < m := by
    rintro S m ⟨hv, hm, hn⟩ c hc x hx
    simp only [CSC.col, List.mem_map, List.mem_range] at hx
    obtain ⟨k, hk, rfl⟩ := hx
    rw [← hm]
    exact hv.rows _ (hv.lt_nnz (j := c) (by omega) (by omega))
  refine ⟨cscOf_valid _ _ _ ?_, rfl, rfl⟩
  intro c hc x hx
  simp only [stackCol, List.mem_append, shift, List.mem_map] at hx
  have hnA : (n.nA : Int) = n.nC + 2 * n.nComp := by simp [Dims.nA]
  rcases hx with (hx | ⟨y, hy, rfl⟩) | ⟨y, hy, rfl⟩
  · cases A with
    | none => simp [colOpt] at hx
    | some S =>
      have := hcol (hA S rfl) c hc x hx
      omega
  · have := hcol hL c hc y hy
    dsimp only
    omega
  · have := hcol hR c hc y hy
    dsimp only
    push_cast
    omega

/-- the sparse symmetrisation always returns: the null pointer if it stays empty, otherwise a valid
sorted matrix -/
theorem symProdSparse_total {L R : CSC α} (hL : L.Is n.nComp n.nV) (hR : R.Is n.nComp n.nV) :
    ∃ V : Nat → Nat → α, (∀ i < n.nV, ∀ j < n.nV,
        (do let tmp ← colDot L R i j zero; colDot R L i j tmp) = .ok (V i j)) ∧
      symProdSparse L R = .ok (if (ents (symCol n.nV V) n.nV).length = 0 then none
        else some (cscOf n.nV n.nV (symCol n.nV V))) := by
  obtain ⟨vL, mL, nL⟩ := hL
  obtain ⟨vR, mR, nR⟩ := hR
  have hex : ∀ i j, ∃ v, i < n.nV → j < n.nV →
      (do let tmp ← colDot L R i j zero; colDot R L i j tmp) = .ok v := by
    intro i j
    by_cases h : i < n.nV ∧ j < n.nV
    · obtain ⟨v, hv⟩ := colDot_safe L R vL vR.toValidPtr (i := i) (j := j) (by omega) (by omega) zero
      obtain ⟨w, hw⟩ := colDot_safe R L vR vL.toValidPtr (i := i) (j := j) (by omega) (by omega) v
      exact ⟨w, fun _ _ => by rw [hv, ok_bind, hw]⟩
    · exact ⟨zero, fun h1 h2 => absurd ⟨h1, h2⟩ h⟩
  choose V hV using hex
  refine ⟨V, fun i hi j hj => hV i j hi hj, ?_⟩
  have := symProdSparse_ok L R V (by intro i hi j hj; exact hV i j (by omega) (by omega))
  rw [nL] at this
  exact this

theorem symCol_is (V : Nat → Nat → α) (k : Nat) : (cscOf k k (symCol k V)).Is k k := by
  refine ⟨cscOf_valid _ _ _ ?_, rfl, rfl⟩
  intro c hc x hx
  obtain ⟨i, hi, rfl, _⟩ := symCol_mem hx
  exact ⟨by simp, by simpa using hi⟩

/-! ## the load function -/

/-- what a successful sparse load stores -/
def sparseObj (o : Obj α) (n : Dims) (a : SparseArgs α) (Q L R C : CSC α) (g : List α) : Obj α where
  d := { o.d with
    Qs := some Q.trim
    g := some (g.take n.nV)
    lbTmp := (a.lb.map (List.take n.nV)).orElse fun _ => o.d.lbTmp
    ubTmp := (a.ub.map (List.take n.nV)).orElse fun _ => o.d.ubTmp
    As := some (cscOf n.nA n.nV (stackCol n L.trim R.trim a.A))
    Ls := some L.trim
    Rs := some R.trim
    Cs := some C
    lbL := bndMem a.lbL o.d.lbL n.nComp
    ubL := bndMem a.ubL o.d.ubL n.nComp
    lbR := bndMem a.lbR o.d.lbR n.nComp
    ubR := bndMem a.ubR o.d.ubR n.nComp
    lbA := some (orFill a.lbA n.nC (-. inf) ++ orFill a.lbL n.nComp zero ++ orFill a.lbR n.nComp zero)
    ubA := some (orFill a.ubA n.nC inf ++ orFill a.ubL n.nComp inf ++ orFill a.ubR n.nComp inf)
    sparse := true }
  s := { o.s with
    xk := some (orFill a.x0 n.nV zero)
    yk := a.y0.map (List.take (n.nV + n.nA)) }

theorem loadSparse_ok {e : Env α} {o : Obj α} {a : SparseArgs α} (hn : o.d.dims = some n)
    (hV : n.nV ≠ 0) (hC : n.nComp ≠ 0) (hf : a.Fits n) :
    ∃ Q L R C, a.Q = some Q ∧ a.L = some L ∧ a.R = some R ∧ Q.Is n.nV n.nV ∧ L.Is n.nComp n.nV ∧
      R.Is n.nComp n.nV ∧ symProdSparse L.trim R.trim = .ok C ∧ (∀ c, C = some c → c.Is n.nV n.nV ∧ c.Sorted) ∧
    ((a.g = none ∧ ∃ o', loadSparse e o a = .ok (.invalidObjectiveLinearTerm, o')) ∨
    (a.g ≠ none ∧ C = none ∧ ∃ o', loadSparse e o a = .ok (.failedSymComplementarityMatrix, o')) ∨
    (a.g ≠ none ∧ C ≠ none ∧ (HasMinusInf a.lbL n.nComp ∨ HasMinusInf a.lbR n.nComp) ∧
      ∃ o', loadSparse e o a = .ok (.invalidLowerComplementarityBound, o')) ∨
    (¬ HasMinusInf a.lbL n.nComp ∧ ¬ HasMinusInf a.lbR n.nComp ∧
      ∃ g c, a.g = some g ∧ n.nV ≤ g.length ∧ C = some c ∧
        loadSparse e o a = .ok (.successfulReturn, sparseObj o n a Q L R c g))) := by
  obtain ⟨Q, hQ, iQ⟩ := hf.Q
  obtain ⟨L, hL, iL⟩ := hf.L
  obtain ⟨R, hR, iR⟩ := hf.R
  obtain ⟨V, hVv, hCs⟩ := symProdSparse_total iL.trim iR.trim
  refine ⟨Q, L, R, _, hQ, hL, hR, iQ, iL, iR, hCs, ?_, ?_⟩
  · intro c hc
    split at hc
    · exact absurd hc (by simp)
    · injection hc with hc
      subst hc
      exact ⟨symCol_is V _, cscOf_sorted _ _ _ fun c _ => symCol_sorted _ _ _⟩
  generalize (if (ents (symCol n.nV V) n.nV).length = 0 then none
        else some (cscOf n.nV n.nV (symCol n.nV V))) = C at hCs
  unfold loadSparse
  have h1 : setQs o.d a.Q = .ok (.successfulReturn, { o.d with Qs := some Q.trim }) := by
    simp only [setQs, hn, initd_some, ok_bind, if_neg hV, hQ, deref_some, copyCSC_ok iQ.1]
    rfl
  rw [thenData, h1, ok_bind, if_neg (by simp)]
  dsimp only
  cases hg : a.g with
  | none =>
    left
    refine ⟨rfl, ?_⟩
    have h2 : setG { o.d with Qs := some Q.trim } none =
        .ok (.invalidObjectiveLinearTerm, { o.d with Qs := some Q.trim }) := by
      simp only [setG, hn, initd_some, ok_bind, if_neg hV]
    rw [thenData, h2, ok_bind, if_pos (by simp)]
    exact ⟨_, rfl⟩
  | some g =>
    right
    have lg := hf.g g hg
    have h2 : setG { o.d with Qs := some Q.trim } (some g) = .ok (.successfulReturn,
        { o.d with Qs := some Q.trim, g := some (g.take n.nV) }) := by
      simp only [setG, hn, initd_some, ok_bind, if_neg hV, copyN_take lg]
    rw [thenData, h2, ok_bind, if_neg (by simp)]
    dsimp only
    have hnA : n.nC ≤ n.nA := by simp [Dims.nA]
    have h3 : ∀ d : Data α, d.dims = some n → setConstraintsSparse e d a.L a.R a.A a.lbA a.ubA =
        .ok (if C.isSome then .successfulReturn else .failedSymComplementarityMatrix,
          { d with
            Ls := some L.trim
            Rs := some R.trim
            As := some (cscOf n.nA n.nV (stackCol n L.trim R.trim a.A))
            lbA := some (orFill a.lbA n.nC (-. inf) ++ (e.alloc 1 n.nA).drop n.nC)
            ubA := some (orFill a.ubA n.nC inf ++ (e.alloc 2 n.nA).drop n.nC)
            Cs := C }) := by
      intro d hd
      have c1 := copyCSC_ok iL.1
      have c2 := copyCSC_ok iR.1
      change copyCSC L = .ok L.trim at c1
      change copyCSC R = .ok R.trim at c2
      rw [setConstraintsSparse, hd, initd_some, ok_bind, hL, deref_some, ok_bind, c1, ok_bind, hR, deref_some,
        ok_bind, c2, ok_bind, stackSparse_ok iL.trim iR.trim hf.A, ok_bind,
        fillBound_ok hf.lbA (by simpa [Env.alloc] using hnA), ok_bind,
        fillBound_ok hf.ubA (by simpa [Env.alloc] using hnA), ok_bind, hCs, ok_bind]
      cases C <;> rfl
    rw [thenData, h3 _ (by exact hn), ok_bind]
    cases C with
    | none =>
      left
      refine ⟨by simp, rfl, ?_⟩
      rw [if_pos (by simp)]
      exact ⟨_, rfl⟩
    | some c =>
      right
      rw [if_neg (by simp)]
      dsimp only
      have hdr : ∀ k, ((e.alloc k n.nA).drop n.nC).length = 2 * n.nComp := by
        intro k; simp [Env.alloc, Dims.nA]
      rcases setCompBounds_ok (e := e) (d := { o.d with
          Qs := some Q.trim
          g := some (g.take n.nV)
          Ls := some L.trim
          Rs := some R.trim
          As := some (cscOf n.nA n.nV (stackCol n L.trim R.trim a.A))
          lbA := some (orFill a.lbA n.nC (-. inf) ++ (e.alloc 1 n.nA).drop n.nC)
          ubA := some (orFill a.ubA n.nC inf ++ (e.alloc 2 n.nA).drop n.nC)
          Cs := some c })
          hn hf.lbL hf.ubL hf.lbR hf.ubR rfl rfl (orFill_length hf.lbA) (orFill_length hf.ubA) (hdr 1) (hdr 2)
        with ⟨hm, d', h⟩ | ⟨hm1, hm2, h⟩
      · left
        refine ⟨by simp, by simp, hm, ?_⟩
        rw [thenData, h, ok_bind, if_pos (by simp)]
        exact ⟨_, rfl⟩
      · right
        refine ⟨hm1, hm2, g, c, rfl, lg, rfl, ?_⟩
        rw [thenData, h, ok_bind, if_neg (by simp)]
        dsimp only
        rw [thenSt, setInitialGuess_ok (n := n) (by exact hn) hV hC hf.x0 hf.y0, ok_bind, if_neg (by simp)]
        dsimp only
        simp only [setTmp, hn, initd_some, ok_bind, copyOpt_take hf.lb, copyOpt_take hf.ub, sparseObj]

end LCQ
