import Verif.Props.LoadSparse

/-!
# C17: switching between dense and sparse mode
-/

set_option linter.unusedSectionVars false

namespace LCQ
open Scalar Ext
open scoped Matrix

/-- everything but the stored matrices and the mode -/
def Obj.rest {α : Type} (o : Obj α) : Obj α := { o with d := { o.d with
  Q := none, A := none, L := none, R := none, C := none
  Qs := none, As := none, Ls := none, Rs := none, Cs := none
  sparse := false } }

/-- C17 (any arithmetic): switching to the current mode does nothing and reports success. -/
theorem C17_same {α : Type} [Scalar α] (o : Obj α) :
    (o.d.sparse = true → switchToSparse o = .ok (.successfulReturn, o)) ∧
    (o.d.sparse = false → switchToDense o = .ok (.successfulReturn, o)) := by
  refine ⟨?_, ?_⟩
  · intro h
    simp [switchToSparse, h]
  · intro h
    simp [switchToDense, h]

/-- the arrays of a loaded dense object -/
structure DenseSizes {α : Type} (o : Obj α) (n : Dims) (Q A L R C : List α) : Prop where
  dims : o.d.dims = some n
  mode : o.d.sparse = false
  Q : o.d.Q = some Q ∧ Q.length = n.nV * n.nV
  A : o.d.A = some A ∧ A.length = n.nA * n.nV
  L : o.d.L = some L ∧ L.length = n.nComp * n.nV
  R : o.d.R = some R ∧ R.length = n.nComp * n.nV
  C : o.d.C = some C ∧ C.length = n.nV * n.nV

section exact
variable {K : Type} [Field K] [LinearOrder K] [IsStrictOrderedRing K]

/-- C17: to sparse mode and back restores the object, for data without NaN (infinities are allowed). -/
theorem C17_roundtrip (o : Obj (Ext K)) (n : Dims) (Q A L R C : List (Ext K)) (h : DenseSizes o n Q A L R C)
    (hnan : ∀ X ∈ [Q, A, L, R, C], ∀ v ∈ X, v ≠ Ext.nan) :
    ∃ o1, switchToSparse o = .ok (.successfulReturn, o1) ∧ o1.d.sparse = true ∧ o1.rest = o.rest ∧
      ∃ o2, switchToDense o1 = .ok (.successfulReturn, o2) ∧
        o2 = { o with d := { o.d with Qs := none, As := none, Ls := none, Rs := none, Cs := none } } := by
  obtain ⟨Q', q1, _, _, _, _, _, _, q2⟩ := C08_roundtrip Q n.nV n.nV h.Q.2 (hnan Q (by simp))
  obtain ⟨A', a1, _, _, _, _, _, _, a2⟩ := C08_roundtrip A n.nA n.nV h.A.2 (hnan A (by simp))
  obtain ⟨L', l1, _, _, _, _, _, _, l2⟩ := C08_roundtrip L n.nComp n.nV h.L.2 (hnan L (by simp))
  obtain ⟨R', r1, _, _, _, _, _, _, r2⟩ := C08_roundtrip R n.nComp n.nV h.R.2 (hnan R (by simp))
  obtain ⟨C', c1, _, _, _, _, _, _, c2⟩ := C08_roundtrip C n.nV n.nV h.C.2 (hnan C (by simp))
  have a1' : dnsToCsc A (n.nC + 2 * n.nComp) n.nV = .ok A' := a1
  refine ⟨{ o with d := { o.d with
      Qs := some Q', As := some A', Ls := some L', Rs := some R', Cs := some C'
      Q := none, A := none, L := none, R := none, C := none, sparse := true } }, ?_, ?_, ?_, ?_⟩
  · rw [switchToSparse, if_neg (by simp [h.mode]), h.dims, initd_some, ok_bind, h.Q.1, deref_some, ok_bind, q1, ok_bind,
      h.A.1, deref_some, ok_bind, a1', ok_bind, h.L.1, deref_some, ok_bind, l1, ok_bind, h.R.1, deref_some, ok_bind, r1,
      ok_bind, h.C.1, deref_some, ok_bind, c1, ok_bind]
  · rfl
  · rfl
  · have hm : o.d = { o.d with Q := some Q, A := some A, L := some L, R := some R, C := some C, sparse := false } := by
      rw [← h.Q.1, ← h.A.1, ← h.L.1, ← h.R.1, ← h.C.1, ← h.mode]
    refine ⟨_, ?_, rfl⟩
    rw [switchToDense, if_neg (by simp)]
    dsimp only
    rw [deref_some, ok_bind, q2, ok_bind, deref_some, ok_bind, a2, ok_bind, deref_some, ok_bind, l2, ok_bind,
      deref_some, ok_bind, r2, ok_bind, deref_some, ok_bind, c2, ok_bind, if_neg (by simp), hm]

theorem dns_some {b : Option (List (Ext K))} {m k : Nat} {Mx : Matrix (Fin m) (Fin k) K} (h : DnsIs b m k Mx) :
    ∃ l S, b = some l ∧ dnsToCsc l m k = .ok S ∧ SpIs (some S) m k Mx := by
  obtain ⟨l, rfl, hl, hm⟩ := h
  obtain ⟨S, h1, h2, h3, h4, h5, h6⟩ := C08_denotation l m k hl
  exact ⟨_, _, rfl, h1, S, rfl, h2, h4, h5, by rw [h6, hm]⟩

/-- C17: switching a dense object with finite data to sparse mode succeeds and preserves every
matrix and everything else. -/
theorem C17_toSparse (o : Obj (Ext K)) (n : Dims) (Q : Matrix (Fin n.nV) (Fin n.nV) K)
    (A : Matrix (Fin n.nC) (Fin n.nV) K) (L R : Matrix (Fin n.nComp) (Fin n.nV) K)
    (C : Matrix (Fin n.nV) (Fin n.nV) K) (hn : o.d.dims = some n) (hd : o.d.sparse = false)
    (h : HoldsMats o n Q A L R) (hC : DnsIs o.d.C n.nV n.nV C) :
    ∃ o', switchToSparse o = .ok (.successfulReturn, o') ∧ o'.d.sparse = true ∧ o'.rest = o.rest ∧
      HoldsMats o' n Q A L R ∧ SpIs o'.d.Cs n.nV n.nV C := by
  obtain ⟨mQ, mA, mL, mR⟩ := h
  simp only [MatIs, hd, Bool.false_eq_true, if_false] at mQ mA mL mR
  obtain ⟨q, Q', q1, q2, q3⟩ := dns_some mQ
  obtain ⟨a, A', a1, a2, a3⟩ := dns_some mA
  obtain ⟨l, L', l1, l2, l3⟩ := dns_some mL
  obtain ⟨r, R', r1, r2, r3⟩ := dns_some mR
  obtain ⟨c, C', c1, c2, c3⟩ := dns_some hC
  have a2' : dnsToCsc a (n.nC + 2 * n.nComp) n.nV = .ok A' := a2
  refine ⟨{ o with d := { o.d with
      Qs := some Q', As := some A', Ls := some L', Rs := some R', Cs := some C'
      Q := none, A := none, L := none, R := none, C := none, sparse := true } }, ?_, rfl, rfl, ?_, c3⟩
  · rw [switchToSparse, if_neg (by simp [hd]), hn, initd_some, ok_bind, q1, deref_some, ok_bind, q2, ok_bind,
      a1, deref_some, ok_bind, a2', ok_bind, l1, deref_some, ok_bind, l2, ok_bind, r1, deref_some, ok_bind, r2,
      ok_bind, c1, deref_some, ok_bind, c2, ok_bind]
  · exact ⟨q3, a3, l3, r3⟩

/-- a matrix is stored, and no position is stored twice -/
def SpSimple (S : Option (CSC (Ext K))) : Prop := ∃ T : CSC (Ext K), S = some T ∧ T.Simple

theorem sp_some {S : Option (CSC (Ext K))} {m k : Nat} {Mx : Matrix (Fin m) (Fin k) K} (h : SpIs S m k Mx)
    (hs : SpSimple S) : ∃ T l, S = some T ∧ cscToDns T = .ok (some l) ∧ DnsIs (some l) m k Mx := by
  obtain ⟨T, rfl, hv, rfl, rfl, hm⟩ := h
  obtain ⟨T', h', hs⟩ := hs
  injection h' with h'
  subst h'
  obtain ⟨d, h1, h2, h3⟩ := C09_denotation T hv hs
  exact ⟨_, _, rfl, h1, d, rfl, h2, by rw [h3, hm]⟩

/-- C17: switching a sparse object with finite data, no position of which is stored twice, to dense mode succeeds and
preserves every matrix and everything else. -/
theorem C17_toDense (o : Obj (Ext K)) (n : Dims) (Q : Matrix (Fin n.nV) (Fin n.nV) K)
    (A : Matrix (Fin n.nC) (Fin n.nV) K) (L R : Matrix (Fin n.nComp) (Fin n.nV) K)
    (C : Matrix (Fin n.nV) (Fin n.nV) K) (hd : o.d.sparse = true)
    (h : HoldsMats o n Q A L R) (hC : SpIs o.d.Cs n.nV n.nV C)
    (hs : ∀ S ∈ [o.d.Qs, o.d.As, o.d.Ls, o.d.Rs, o.d.Cs], SpSimple S) :
    ∃ o', switchToDense o = .ok (.successfulReturn, o') ∧ o'.d.sparse = false ∧ o'.rest = o.rest ∧
      HoldsMats o' n Q A L R ∧ DnsIs o'.d.C n.nV n.nV C := by
  obtain ⟨mQ, mA, mL, mR⟩ := h
  simp only [MatIs, hd, if_true] at mQ mA mL mR
  obtain ⟨q, Q', q1, q2, q3⟩ := sp_some mQ (hs _ (by simp))
  obtain ⟨a, A', a1, a2, a3⟩ := sp_some mA (hs _ (by simp))
  obtain ⟨l, L', l1, l2, l3⟩ := sp_some mL (hs _ (by simp))
  obtain ⟨r, R', r1, r2, r3⟩ := sp_some mR (hs _ (by simp))
  obtain ⟨c, C', c1, c2, c3⟩ := sp_some hC (hs _ (by simp))
  refine ⟨{ o with d := { o.d with
      Q := some Q', A := some A', L := some L', R := some R', C := some C'
      Qs := none, As := none, Ls := none, Rs := none, Cs := none, sparse := false } }, ?_, rfl, rfl, ?_, c3⟩
  · rw [switchToDense, if_neg (by simp [hd]), q1, deref_some, ok_bind, q2, ok_bind,
      a1, deref_some, ok_bind, a2, ok_bind, l1, deref_some, ok_bind, l2, ok_bind, r1, deref_some, ok_bind, r2,
      ok_bind, c1, deref_some, ok_bind, c2, ok_bind, if_neg (by simp)]
  · exact ⟨q3, a3, l3, r3⟩

end exact

/-- C17 (any arithmetic): if a stored row index is out of range the switch to dense mode reports
FAILED_SWITCH_TO_DENSE and the object stays in sparse mode with its sparse matrices. -/
theorem C17_bad_index {α : Type} [Scalar α] (o : Obj α) (Q A L R C : CSC α) (hd : o.d.sparse = true)
    (hQ : o.d.Qs = some Q) (hA : o.d.As = some A) (hL : o.d.Ls = some L) (hR : o.d.Rs = some R) (hC : o.d.Cs = some C)
    (hv : ∀ S ∈ [Q, A, L, R, C], S.ValidPtr)
    (hb : ∃ S ∈ [Q, A, L, R, C], ∃ k < S.P S.n, S.i.getD k 0 < 0 ∨ (S.m : Int) ≤ S.i.getD k 0) :
    ∃ o', switchToDense o = .ok (.failedSwitchToDense, o') ∧ o'.d.sparse = true ∧ o'.rest = o.rest ∧
      o'.d.Qs = some Q ∧ o'.d.As = some A ∧ o'.d.Ls = some L ∧ o'.d.Rs = some R ∧ o'.d.Cs = some C := by
  obtain ⟨⟨q, q1⟩, q2⟩ := C09_reject Q (hv Q (by simp))
  obtain ⟨⟨a, a1⟩, a2⟩ := C09_reject A (hv A (by simp))
  obtain ⟨⟨l, l1⟩, l2⟩ := C09_reject L (hv L (by simp))
  obtain ⟨⟨r, r1⟩, r2⟩ := C09_reject R (hv R (by simp))
  obtain ⟨⟨c, c1⟩, c2⟩ := C09_reject C (hv C (by simp))
  rw [q1] at q2
  rw [a1] at a2
  rw [l1] at l2
  rw [r1] at r2
  rw [c1] at c2
  simp only [Except.ok.injEq] at q2 a2 l2 r2 c2
  have hsome : q = none ∨ a = none ∨ l = none ∨ r = none ∨ c = none := by
    obtain ⟨S, hS, hk⟩ := hb
    simp only [List.mem_cons, List.not_mem_nil, or_false] at hS
    rcases hS with rfl | rfl | rfl | rfl | rfl
    · exact .inl (q2.mpr hk)
    · exact .inr (.inl (a2.mpr hk))
    · exact .inr (.inr (.inl (l2.mpr hk)))
    · exact .inr (.inr (.inr (.inl (r2.mpr hk))))
    · exact .inr (.inr (.inr (.inr (c2.mpr hk))))
  refine ⟨{ o with d := { o.d with Q := q, A := a, L := l, R := r, C := c } }, ?_, hd, rfl, hQ, hA, hL, hR, hC⟩
  rw [switchToDense, if_neg (by simp [hd]), hQ, deref_some, ok_bind, q1, ok_bind,
      hA, deref_some, ok_bind, a1, ok_bind, hL, deref_some, ok_bind, l1, ok_bind, hR, deref_some, ok_bind, r1,
      ok_bind, hC, deref_some, ok_bind, c1, ok_bind]
  dsimp only
  rw [if_pos hsome]

/-- a matrix in which the position (0,0) is stored twice: its entries are 3 and 2 on the diagonal -/
def Ex.twice : CSC ℚ := { m := 2, n := 2, nzmax := 3, p := [0, 2, 3], i := [0, 0, 1], x := [1, 2, 2] }

/-- a problem with this matrix -/
def Ex.twiceArgs : SparseArgs (Ext ℚ) :=
  { Q := some Ex.twice.emb
    g := some [.fin (-2), .fin (-2)]
    L := some { m := 1, n := 2, nzmax := 1, p := [0, 1, 1], i := [0], x := [.fin 1] }
    R := some { m := 1, n := 2, nzmax := 1, p := [0, 0, 1], i := [0], x := [.fin 1] } }

/-- load, to dense mode -/
def Ex.toDense : M ((RV × Obj (Ext ℚ)) × (RV × Obj (Ext ℚ))) := do
  let r ← loadSparse Ex.env Ex.obj0 Ex.twiceArgs
  let s ← switchToDense r.2
  .ok (r, s)

/-- C17: the condition on the stored positions is needed.  A matrix with a position stored twice is loaded; its columns are
added up by all computations in sparse mode, but after the switch to dense mode only the value stored last is left. -/
theorem C17_duplicates : ∃ (o o' : Obj (Ext ℚ)) (d : List ℚ), Ex.twice.Valid ∧
    loadSparse Ex.env Ex.obj0 Ex.twiceArgs = .ok (.successfulReturn, o) ∧ SpIs o.d.Qs 2 2 (Ex.twice.den 2 2) ∧
    switchToDense o = .ok (.successfulReturn, o') ∧ o'.d.Q = some (emb d) ∧ d.length = 4 ∧ mat 2 2 d ≠ Ex.twice.den 2 2 := by
  have hv : Ex.twice.Valid := by
    refine ⟨⟨?_, ?_, ?_, ?_, ?_, ?_⟩, ?_⟩ <;> decide
  have h : Ex.toDense.map (fun p => ((p.1.1, p.1.2.d.Qs), p.2.1, p.2.2.d.Q)) =
      .ok ((.successfulReturn, some Ex.twice.emb), .successfulReturn, some [.fin 2, .fin 0, .fin 0, .fin 2]) := by
    decide +kernel
  unfold Ex.toDense at h
  cases r : loadSparse Ex.env Ex.obj0 Ex.twiceArgs with
  | error f => rw [r] at h; cases h
  | ok p =>
    obtain ⟨rv, o⟩ := p
    rw [r] at h
    cases t : switchToDense o with
    | error f => simp only [ok_bind, t] at h; cases h
    | ok q =>
      obtain ⟨rv', o'⟩ := q
      simp only [ok_bind, t] at h
      injection h with h
      simp only [Prod.mk.injEq] at h
      obtain ⟨⟨rfl, h3⟩, rfl, h4⟩ := h
      refine ⟨o, o', [2, 0, 0, 2], hv, rfl, ⟨Ex.twice, h3, hv, rfl, rfl, rfl⟩, t, h4, rfl, ?_⟩
      intro hm
      have := congrFun (congrFun hm 0) 0
      revert this
      decide +kernel

/-! Non-vacuity. -/

/-- load, to sparse mode, back to dense mode -/
def Ex.there : M (Obj (Ext ℚ) × (RV × Obj (Ext ℚ)) × (RV × Obj (Ext ℚ))) := do
  let r ← loadDense Ex.env Ex.obj0 Ex.args
  let s ← switchToSparse r.2
  let t ← switchToDense s.2
  .ok (r.2, s, t)

example : Ex.there.map (fun p => (p.2.1.1, p.2.1.2.d.Cs)) =
    .ok (.successfulReturn,
      some { m := 2, n := 2, nzmax := 2, p := [0, 1, 2], i := [1, 0], x := [.fin 1, .fin 1] }) := by
  decide +kernel

example : Ex.there.map (fun p => (p.2.2.1, p.2.2.2.d.Q)) = Ex.there.map (fun p => (.successfulReturn, p.1.d.Q)) ∧
    Ex.there.map (fun p => (p.2.2.2.d.A, p.2.2.2.d.C)) = Ex.there.map (fun p => (p.1.d.A, p.1.d.C)) := by
  refine ⟨?_, ?_⟩ <;> decide +kernel

end LCQ
