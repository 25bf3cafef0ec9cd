import Verif.Lemmas.Stack
import Verif.Props.Load
import Verif.Props.Convert

/-!
# C16: sparse load
-/

set_option linter.unusedSectionVars false

namespace LCQ
open Scalar Ext
open scoped Matrix

section anyArith
variable {α : Type} [Scalar α]

open Classical in
/-- C16: for arguments of the documented sizes with `Q`, `L`, `R` given, the sparse `loadLCQP` always
returns, and the code is determined by the first defect.  A missing `A` is never reported (the dense
`loadLCQP` reports it, C15), and a complementarity Hessian without stored entries is an error. -/
theorem C16_codes (e : Env α) (o : Obj α) (n : Dims) (a : SparseArgs α) (hn : o.d.dims = some n)
    (hV : n.nV ≠ 0) (hC : n.nComp ≠ 0) (hf : a.Fits n) :
    ∃ r o' L R L' R' C, a.L = some L ∧ a.R = some R ∧ copyCSC L = .ok L' ∧ copyCSC R = .ok R' ∧
      symProdSparse L' R' = .ok C ∧ loadSparse e o a = .ok (r, o') ∧
      r = (if a.g = none then .invalidObjectiveLinearTerm
        else if C = none then .failedSymComplementarityMatrix
        else if HasMinusInf a.lbL n.nComp ∨ HasMinusInf a.lbR n.nComp then .invalidLowerComplementarityBound
        else .successfulReturn) := by
  obtain ⟨Q, L, R, C, hQ, hL, hR, iQ, iL, iR, hCs, hCi, h⟩ := loadSparse_ok (e := e) hn hV hC hf
  rcases h with ⟨h1, o', h'⟩ | ⟨h1, h2, o', h'⟩ | ⟨h1, h2, h3, o', h'⟩ | ⟨h3, h4, g, c, hg, lg, hc, h'⟩
  · exact ⟨_, _, L, R, _, _, C, hL, hR, copyCSC_ok iL.1, copyCSC_ok iR.1, hCs, h', by rw [if_pos h1]⟩
  · exact ⟨_, _, L, R, _, _, C, hL, hR, copyCSC_ok iL.1, copyCSC_ok iR.1, hCs, h', by rw [if_neg h1, if_pos h2]⟩
  · exact ⟨_, _, L, R, _, _, C, hL, hR, copyCSC_ok iL.1, copyCSC_ok iR.1, hCs, h',
      by rw [if_neg h1, if_neg h2, if_pos h3]⟩
  · exact ⟨_, _, L, R, _, _, C, hL, hR, copyCSC_ok iL.1, copyCSC_ok iR.1, hCs, h',
      by rw [if_neg (by simp [hg]), if_neg (by simp [hc]), if_neg (by simp [h3, h4])]⟩

/-- the vectors of the arguments, common to both load functions -/
structure HoldsVecs (o : Obj α) (n : Dims) (g lbL ubL lbR ubR lbA ubA x0 y0 : Option (List α)) : Prop where
  g : ∃ v, g = some v ∧ o.d.g = some (v.take n.nV)
  lbA : o.d.lbA = some (orFill lbA n.nC (-. inf) ++ orFill lbL n.nComp zero ++ orFill lbR n.nComp zero)
  ubA : o.d.ubA = some (orFill ubA n.nC inf ++ orFill ubL n.nComp inf ++ orFill ubR n.nComp inf)
  x0 : o.s.xk = some (orFill x0 n.nV zero)
  y0 : o.s.yk = y0.map (List.take (n.nV + n.nA))

theorem HoldsDense.vecs {o : Obj α} {n : Dims} {a : DenseArgs α} (h : HoldsDense o n a) :
    HoldsVecs o n a.g a.lbL a.ubL a.lbR a.ubR a.lbA a.ubA a.x0 a.y0 := ⟨h.g, h.lbA, h.ubA, h.x0, h.y0⟩

/-- C16 (any arithmetic): a successful sparse load stores exactly the vectors a dense load stores. -/
theorem C16_vectors (e : Env α) (o o' : Obj α) (n : Dims) (a : SparseArgs α) (hn : o.d.dims = some n)
    (hV : n.nV ≠ 0) (hC : n.nComp ≠ 0) (hf : a.Fits n)
    (h : loadSparse e o a = .ok (.successfulReturn, o')) :
    HoldsVecs o' n a.g a.lbL a.ubL a.lbR a.ubR a.lbA a.ubA a.x0 a.y0 ∧ o'.d.sparse = true ∧
    o'.d.lbTmp = (match a.lb with | some v => some (v.take n.nV) | none => o.d.lbTmp) ∧
    o'.d.ubTmp = (match a.ub with | some v => some (v.take n.nV) | none => o.d.ubTmp) := by
  obtain ⟨Q, L, R, C, hQ, hL, hR, iQ, iL, iR, hCs, hCi, h'⟩ := loadSparse_ok (e := e) hn hV hC hf
  rcases h' with ⟨_, _, h'⟩ | ⟨_, _, _, h'⟩ | ⟨_, _, _, _, h'⟩ | ⟨_, _, g, c, hg, lg, hc, h'⟩
  · rw [h'] at h; injection h with h; injection h with h _; cases h
  · rw [h'] at h; injection h with h; injection h with h _; cases h
  · rw [h'] at h; injection h with h; injection h with h _; cases h
  · rw [h'] at h
    injection h with h
    injection h with _ h
    subst h
    refine ⟨⟨⟨g, hg, rfl⟩, rfl, rfl, rfl, rfl⟩, rfl, ?_, ?_⟩
    · show (a.lb.map (List.take n.nV)).orElse _ = _
      cases a.lb <;> rfl
    · show (a.ub.map (List.take n.nV)).orElse _ = _
      cases a.ub <;> rfl

end anyArith

section exact
variable {K : Type} [Field K] [LinearOrder K] [IsStrictOrderedRing K]

/-- C14 (exact arithmetic): the matrices stored by a dense load. -/
theorem C14_matrices (e : Env (Ext K)) (o o' : Obj (Ext K)) (n : Dims) (a : DenseArgs (Ext K))
    (Q L R A : List K) (hn : o.d.dims = some n) (hV : n.nV ≠ 0) (hC : n.nComp ≠ 0) (hf : a.Fits n)
    (hQ : a.Q = some (emb Q)) (hL : a.L = some (emb L)) (hR : a.R = some (emb R))
    (hA : a.A = some (emb A) ∨ (a.A = none ∧ A = []))
    (h : loadDense e o a = .ok (.successfulReturn, o')) :
    HoldsMats o' n (mat n.nV n.nV Q) (mat n.nC n.nV A) (mat n.nComp n.nV L) (mat n.nComp n.nV R) := by
  rcases loadDense_ok (e := e) hn hV hC hf with ⟨_, _, h'⟩ | ⟨_, _, _, h'⟩ | ⟨_, _, _, _, h'⟩ |
    ⟨_, hA', _, _, Q', g, L', R', hQ', hg, hL', hR', lQ, lg, lL, lR, h'⟩
  · rw [h'] at h; injection h with h; injection h with h _; cases h
  · rw [h'] at h; injection h with h; injection h with h _; cases h
  · rw [h'] at h; injection h with h; injection h with h _; cases h
  · rw [h'] at h
    injection h with h
    injection h with _ h
    subst h
    rw [hQ] at hQ'
    injection hQ' with hQ'
    subst hQ'
    rw [hL] at hL'
    injection hL' with hL'
    subst hL'
    rw [hR] at hR'
    injection hR' with hR'
    subst hR'
    have hAd : a.A.getD [] = emb A := by
      rcases hA with hA | ⟨h1, h2⟩
      · rw [hA]; rfl
      · rw [h1, h2]; rfl
    have lA : n.nC * n.nV ≤ A.length := by
      rcases hA with hA | ⟨h1, h2⟩
      · simpa using hf.A _ hA
      · have : n.nC = 0 := by
          by_contra h0
          exact hA' ⟨h1, by omega⟩
        simp [this]
    rw [emb_length] at lQ lL lR
    refine ⟨dns_take lQ, ?_, dns_take lL, dns_take lR⟩
    refine ⟨A.take (n.nC * n.nV) ++ L.take (n.nComp * n.nV) ++ R.take (n.nComp * n.nV), ?_, ?_, ?_⟩
    · show some _ = _
      rw [hAd, take_emb, take_emb, take_emb, emb_append, emb_append]
    · have hsz : n.nA * n.nV = n.nC * n.nV + n.nComp * n.nV + n.nComp * n.nV := by simp [Dims.nA]; ring
      rw [hsz]
      simp
      omega
    · rw [stack_dense (by simpa using lA) (by simpa using lL) (by simpa using lR), mat_take, mat_take, mat_take]

/-- C16 (exact arithmetic): the matrices stored by a sparse load.  The stacked constraint matrix has the
rows of `A`, `L` and `R`, a missing `A` acts as the zero matrix; the complementarity Hessian is
`Lᵀ R + Rᵀ L` without the entries of absolute value at most `1e-25`. -/
theorem C16_matrices (e : Env (Ext K)) (o o' : Obj (Ext K)) (n : Dims) (a : SparseArgs (Ext K))
    (Q L R : CSC K) (A : Option (CSC K)) (hn : o.d.dims = some n) (hV : n.nV ≠ 0) (hC : n.nComp ≠ 0) (hf : a.Fits n)
    (hQ : a.Q = some Q.emb) (hL : a.L = some L.emb) (hR : a.R = some R.emb) (hA : a.A = A.map CSC.emb)
    (hsL : L.Sorted) (hsR : R.Sorted)
    (h : loadSparse e o a = .ok (.successfulReturn, o')) :
    HoldsMats o' n (Q.den n.nV n.nV) (denOpt A n.nC n.nV) (L.den n.nComp n.nV) (R.den n.nComp n.nV) ∧
    ∃ C : Matrix (Fin n.nV) (Fin n.nV) K, SpIs o'.d.Cs n.nV n.nV C ∧
      ∀ i j, C i j = if 1 / 10 ^ 25 <
          |((L.den n.nComp n.nV)ᵀ * R.den n.nComp n.nV + (R.den n.nComp n.nV)ᵀ * L.den n.nComp n.nV) i j|
        then ((L.den n.nComp n.nV)ᵀ * R.den n.nComp n.nV + (R.den n.nComp n.nV)ᵀ * L.den n.nComp n.nV) i j
        else 0 := by
  obtain ⟨Q', L', R', C, hQ', hL', hR', iQ, iL, iR, hCs, hCi, h'⟩ := loadSparse_ok (e := e) hn hV hC hf
  rcases h' with ⟨_, _, h'⟩ | ⟨_, _, _, h'⟩ | ⟨_, _, _, _, h'⟩ | ⟨_, _, g, c, hg, lg, hc, h'⟩
  · rw [h'] at h; injection h with h; injection h with h _; cases h
  · rw [h'] at h; injection h with h; injection h with h _; cases h
  · rw [h'] at h; injection h with h; injection h with h _; cases h
  · rw [h'] at h
    injection h with h
    injection h with _ h
    subst h
    rw [hQ] at hQ'
    injection hQ' with hQ'
    subst hQ'
    rw [hL] at hL'
    injection hL' with hL'
    subst hL'
    rw [hR] at hR'
    injection hR' with hR'
    subst hR'
    have unemb : ∀ {S : CSC K} {m k : Nat}, S.emb.Is m k → S.Valid ∧ S.m = m ∧ S.n = k := by
      rintro S m k ⟨hv, hm, hk⟩
      refine ⟨⟨⟨hv.plen, hv.p0, hv.mono, hv.nz, hv.ilen, ?_⟩, hv.rows⟩, hm, hk⟩
      have := hv.xlen
      simpa using this
    obtain ⟨vQ, mQ, nQ⟩ := unemb iQ
    obtain ⟨vL, mL, nL⟩ := unemb iL
    obtain ⟨vR, mR, nR⟩ := unemb iR
    have vA : ∀ S, A = some S → S.Valid ∧ S.m = n.nC ∧ S.n = n.nV := by
      intro S hS
      exact unemb (hf.A S.emb (by rw [hA, hS]; rfl))
    refine ⟨⟨?_, ?_, ?_, ?_⟩, ?_⟩
    · refine ⟨trimK Q, ?_, trimK_valid vQ, mQ, nQ, trimK_den vQ nQ⟩
      show some _ = _
      rw [trim_emb]
    · have hs := stackK_is (n := n) (trimK_valid vL) mL nL (trimK_valid vR) mR nR vA
      rw [trimK_den vL nL, trimK_den vR nR] at hs
      refine ⟨_, ?_, hs.1, rfl, rfl, hs.2⟩
      show some _ = _
      rw [trim_emb, trim_emb, hA, stack_emb]
    · refine ⟨trimK L, ?_, trimK_valid vL, mL, nL, trimK_den vL nL⟩
      show some _ = _
      rw [trim_emb]
    · refine ⟨trimK R, ?_, trimK_valid vR, mR, nR, trimK_den vR nR⟩
      show some _ = _
      rw [trim_emb]
    · rw [trim_emb, trim_emb] at hCs
      rcases C04_symProdSparse (trimK L) (trimK R) (trimK_valid vL) (trimK_valid vR) (trimK_sorted vL hsL)
        (trimK_sorted vR hsR) n.nComp n.nV mL nL mR nR _ rfl with ⟨_, h0⟩ | ⟨_, S, hS, vS, _, mS, nS, _, dS⟩
      · rw [h0, hc] at hCs
        injection hCs with hCs
        cases hCs
      · rw [hS, hc] at hCs
        injection hCs with hCs
        injection hCs with hCs
        rw [trimK_den vL nL, trimK_den vR nR] at dS
        refine ⟨_, ⟨S, ?_, vS, mS, nS, rfl⟩, dS⟩
        show some c = _
        rw [hCs]

/-- C16 (exact arithmetic): the sparse and the dense load of the same data store the same problem. -/
theorem C16_same (e : Env (Ext K)) (o o1 o2 : Obj (Ext K)) (n : Dims) (a : DenseArgs (Ext K)) (b : SparseArgs (Ext K))
    (Q L R A : List K) (Q' L' R' : CSC K) (A' : Option (CSC K)) (hn : o.d.dims = some n) (hV : n.nV ≠ 0) (hC : n.nComp ≠ 0)
    (ha : a.Fits n) (hb : b.Fits n)
    (aQ : a.Q = some (emb Q)) (aL : a.L = some (emb L)) (aR : a.R = some (emb R)) (aA : a.A = some (emb A) ∨ (a.A = none ∧ A = []))
    (bQ : b.Q = some Q'.emb) (bL : b.L = some L'.emb) (bR : b.R = some R'.emb) (bA : b.A = A'.map CSC.emb)
    (hsL : L'.Sorted) (hsR : R'.Sorted)
    (eQ : Q'.den n.nV n.nV = mat n.nV n.nV Q) (eL : L'.den n.nComp n.nV = mat n.nComp n.nV L)
    (eR : R'.den n.nComp n.nV = mat n.nComp n.nV R) (eA : denOpt A' n.nC n.nV = mat n.nC n.nV A)
    (hv : (a.g, a.lbL, a.ubL, a.lbR, a.ubR, a.lbA, a.ubA, a.lb, a.ub, a.x0, a.y0) =
      (b.g, b.lbL, b.ubL, b.lbR, b.ubR, b.lbA, b.ubA, b.lb, b.ub, b.x0, b.y0))
    (h1 : loadDense e o a = .ok (.successfulReturn, o1)) (h2 : loadSparse e o b = .ok (.successfulReturn, o2)) :
    (∃ Qm Am Lm Rm, HoldsMats o1 n Qm Am Lm Rm ∧ HoldsMats o2 n Qm Am Lm Rm) ∧
    o1.d.g = o2.d.g ∧ o1.d.lbA = o2.d.lbA ∧ o1.d.ubA = o2.d.ubA ∧ o1.d.lbTmp = o2.d.lbTmp ∧
    o1.d.ubTmp = o2.d.ubTmp ∧ o1.s.xk = o2.s.xk ∧ o1.s.yk = o2.s.yk ∧
    (∀ C1 C2, DnsIs o1.d.C n.nV n.nV C1 → SpIs o2.d.Cs n.nV n.nV C2 → ∀ i j, |C1 i j - C2 i j| ≤ 1 / 10 ^ 25) := by
  simp only [Prod.mk.injEq] at hv
  obtain ⟨v1, v2, v3, v4, v5, v6, v7, v8, v9, v10, v11⟩ := hv
  have d1 := C14_stored e o o1 n a hn hV hC ha h1
  have d2 := C14_box e o o1 n a hn hV hC ha h1
  have d3 := C14_matrices e o o1 n a Q L R A hn hV hC ha aQ aL aR aA h1
  have s1 := C16_vectors e o o2 n b hn hV hC hb h2
  have s2 := C16_matrices e o o2 n b Q' L' R' A' hn hV hC hb bQ bL bR bA hsL hsR h2
  obtain ⟨c, hc, lc, mc⟩ := C14_hessian e o o1 n a L R hn hV hC ha aL aR h1
  obtain ⟨s2, C, hC2, eC⟩ := s2
  rw [eQ, eA, eL, eR] at s2
  rw [eL, eR] at eC
  refine ⟨⟨_, _, _, _, d3, s2⟩, ?_, ?_, ?_, ?_, ?_, ?_, ?_, ?_⟩
  · obtain ⟨v, hv, hv'⟩ := d1.g
    obtain ⟨w, hw, hw'⟩ := s1.1.g
    rw [v1, hw] at hv
    injection hv with hv
    rw [hv', hw', hv]
  · rw [d1.lbA, s1.1.lbA, v6, v2, v4]
  · rw [d1.ubA, s1.1.ubA, v7, v3, v5]
  · rw [d2.1, s1.2.2.1, v8]; cases b.lb <;> rfl
  · rw [d2.2, s1.2.2.2, v9]; cases b.ub <;> rfl
  · rw [d1.x0, s1.1.x0, v10]
  · rw [d1.y0, s1.1.y0, v11]
  · rintro C1 C2 ⟨l, hl, _, rfl⟩ ⟨T, hT, _, _, _, rfl⟩ i j
    obtain ⟨T', hT', _, _, _, rfl⟩ := hC2
    rw [hc] at hl
    injection hl with hl
    have hl := emb_inj hl
    subst hl
    rw [hT] at hT'
    injection hT' with hT'
    have hden : T.den n.nV n.nV i j = T'.den n.nV n.nV i j := by
      obtain ⟨m1, n1, z1, p1, i1, x1⟩ := T
      obtain ⟨m2, n2, z2, p2, i2, x2⟩ := T'
      simp only [CSC.emb, CSC.mk.injEq] at hT'
      obtain ⟨rfl, rfl, rfl, rfl, rfl, hx⟩ := hT'
      rw [emb_inj hx]
    rw [mc, hden, eC]
    split
    · simp
    · rename_i h
      rw [sub_zero]
      exact not_lt.mp h

end exact

/-! Non-vacuity: the warm-up example in compressed-column form. -/

namespace Ex

/-- the warm-up problem in compressed-column form -/
def sQ : CSC ℚ := { m := 2, n := 2, nzmax := 2, p := [0, 1, 2], i := [0, 1], x := [2, 2] }
/-- L -/
def sL : CSC ℚ := { m := 1, n := 2, nzmax := 1, p := [0, 1, 1], i := [0], x := [1] }
/-- R -/
def sR : CSC ℚ := { m := 1, n := 2, nzmax := 1, p := [0, 0, 1], i := [0], x := [1] }
/-- no linear constraints -/
def sA : CSC ℚ := { m := 0, n := 2, nzmax := 0, p := [0, 0, 0], i := [], x := [] }

/-- columns with at most one entry are sorted -/
theorem sorted_of_short (S : CSC ℚ) (h : ∀ j < S.n, S.P (j + 1) ≤ S.P j + 1) : S.Sorted := by
  intro j hj k l h1 h2 h3
  have := h j hj
  omega

theorem sL_sorted : sL.Sorted := sorted_of_short _ (by decide)
theorem sR_sorted : sR.Sorted := sorted_of_short _ (by decide)

theorem den_ext {m k : Nat} {S : CSC ℚ} {l : List ℚ} 
    (h : ∀ i : Fin m, decide (∀ j : Fin k, S.den m k i j = mat m k l i j) = true) :
    S.den m k = mat m k l := by ext i j; exact of_decide_eq_true (h i) j

theorem sQ_den : sQ.den 2 2 = mat 2 2 [2, 0, 0, 2] := den_ext (by decide +kernel)
theorem sL_den : sL.den 1 2 = mat 1 2 [1, 0] := den_ext (by decide +kernel)
theorem sR_den : sR.den 1 2 = mat 1 2 [0, 1] := den_ext (by decide +kernel)
theorem sA_den : sA.den 0 2 = mat 0 2 [] := den_ext (by decide +kernel)

/-- sparse arguments -/
def sargs : SparseArgs (Ext ℚ) where
  Q := some sQ.emb
  g := some (emb [-2, -2])
  L := some sL.emb
  R := some sR.emb
  A := some sA.emb

theorem sargs_fits : sargs.Fits ⟨2, 0, 1⟩ := by
  have hQ : sQ.emb.Is 2 2 := ⟨⟨⟨by decide, by decide, by decide, by decide, by decide, by decide⟩, by decide⟩, rfl, rfl⟩
  have hL : sL.emb.Is 1 2 := ⟨⟨⟨by decide, by decide, by decide, by decide, by decide, by decide⟩, by decide⟩, rfl, rfl⟩
  have hR : sR.emb.Is 1 2 := ⟨⟨⟨by decide, by decide, by decide, by decide, by decide, by decide⟩, by decide⟩, rfl, rfl⟩
  have hA : sA.emb.Is 0 2 := ⟨⟨⟨by decide, by decide, by decide, by decide, by decide, by decide⟩, by decide⟩, rfl, rfl⟩
  refine ⟨⟨_, rfl, hQ⟩, ⟨_, rfl, hL⟩, ⟨_, rfl, hR⟩, ?_, ?_, ?_, ?_, ?_, ?_, ?_, ?_, ?_, ?_, ?_, ?_⟩
  · rintro S ⟨⟩; exact hA
  · rintro v ⟨⟩; decide
  all_goals · rintro v ⟨⟩

example : (loadSparse env obj0 sargs).map (fun r => (r.1, r.2.d.As, r.2.d.Cs)) = .ok (.successfulReturn,
    some { m := 2, n := 2, nzmax := 2, p := [0, 1, 2], i := [0, 1], x := [.fin 1, .fin 1] },
    some { m := 2, n := 2, nzmax := 2, p := [0, 1, 2], i := [1, 0], x := [.fin 1, .fin 1] }) := by decide +kernel

/-- the discrepancies: without `A` although `nC = 1`, the sparse load succeeds; with `L = 0` it fails -/
example : (loadSparse env (Obj.new opts 2 1 1) { sargs with A := none }).map (·.1) = .ok .successfulReturn ∧
    (loadSparse env obj0 { sargs with L := some { sL.emb with x := [.fin 0] } }).map (·.1) =
      .ok .failedSymComplementarityMatrix ∧
    (loadDense env obj0 { args with L := some [.fin 0, .fin 0] }).map (·.1) = .ok .successfulReturn := by
  refine ⟨?_, ?_, ?_⟩ <;> decide +kernel

/-- the hypotheses of `C16_same` are met by the two forms of the example -/
example : ∃ o1 o2, loadDense env obj0 args = .ok (.successfulReturn, o1) ∧
    loadSparse env obj0 sargs = .ok (.successfulReturn, o2) ∧
    (∃ Qm Am Lm Rm, HoldsMats o1 ⟨2, 0, 1⟩ Qm Am Lm Rm ∧ HoldsMats o2 ⟨2, 0, 1⟩ Qm Am Lm Rm) := by
  have h1 : (loadDense env obj0 args).map (·.1) = .ok .successfulReturn := by decide +kernel
  have h2 : (loadSparse env obj0 sargs).map (·.1) = .ok .successfulReturn := by decide +kernel
  cases r1 : loadDense env obj0 args with
  | error f => rw [r1] at h1; cases h1
  | ok p1 =>
    cases r2 : loadSparse env obj0 sargs with
    | error f => rw [r2] at h2; cases h2
    | ok p2 =>
      obtain ⟨c1, o1⟩ := p1
      obtain ⟨c2, o2⟩ := p2
      rw [r1] at h1
      rw [r2] at h2
      have e1 : c1 = .successfulReturn := by injection h1
      have e2 : c2 = .successfulReturn := by injection h2
      subst e1 e2
      refine ⟨o1, o2, rfl, rfl, ?_⟩
      exact (C16_same env obj0 o1 o2 ⟨2, 0, 1⟩ args sargs [2, 0, 0, 2] [1, 0] [0, 1] [] sQ sL sR (some sA) rfl
        (by decide) (by decide) args_fits sargs_fits rfl rfl rfl (.inr ⟨rfl, rfl⟩) rfl rfl rfl rfl
        sL_sorted
        sR_sorted
        sQ_den sL_den sR_den sA_den rfl r1 r2).1

end Ex

end LCQ
