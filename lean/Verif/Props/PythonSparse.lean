import Verif.Props.MatlabSparse
import Verif.Props.Python
import Verif.Props.Modes

/-!
# C67: sparse matrices in the Python interface
-/

set_option linter.unusedSectionVars false

namespace LCQ
open Scalar
open scoped Matrix

section call
variable {α : Type} [Scalar α] {n : Dims}

/-- A problem with sparse matrices and the documented sizes of the vectors; what is optional may be left out. -/
structure PySpCall (α : Type) (n : Dims) where
  /-- Q -/
  Q : CSC α
  /-- g -/
  g : Fin n.nV → α
  /-- L -/
  L : CSC α
  /-- R -/
  R : CSC α
  /-- lbL -/
  lbL : Option (Fin n.nComp → α) := none
  /-- ubL -/
  ubL : Option (Fin n.nComp → α) := none
  /-- lbR -/
  lbR : Option (Fin n.nComp → α) := none
  /-- ubR -/
  ubR : Option (Fin n.nComp → α) := none
  /-- A -/
  A : Option (CSC α) := none
  /-- lbA -/
  lbA : Option (Fin n.nC → α) := none
  /-- ubA -/
  ubA : Option (Fin n.nC → α) := none
  /-- lb -/
  lb : Option (Fin n.nV → α) := none
  /-- ub -/
  ub : Option (Fin n.nV → α) := none
  /-- x0 -/
  x0 : Option (Fin n.nV → α) := none
  /-- y0 -/
  y0 : Option (Fin (n.nV + n.nA) → α) := none

/-- the matrices are valid and have the right sizes -/
structure PySpCall.OK (c : PySpCall α n) : Prop where
  Q : c.Q.Is n.nV n.nV
  L : c.L.Is n.nComp n.nV
  R : c.R.Is n.nComp n.nV
  A : ∀ S, c.A = some S → S.Is n.nC n.nV

/-- the call in Python -/
def PySpCall.py (c : PySpCall α n) : PySparse α where
  Q := some c.Q
  g := List.ofFn c.g
  L := some c.L
  R := some c.R
  lbL := pyVec c.lbL
  ubL := pyVec c.ubL
  lbR := pyVec c.lbR
  ubR := pyVec c.ubR
  A := c.A
  lbA := pyVec c.lbA
  ubA := pyVec c.ubA
  lb := pyVec c.lb
  ub := pyVec c.ub
  x0 := pyVec c.x0
  y0 := pyVec c.y0

/-- What the object holds after the problem was loaded into `o`: the matrices with the same stored entries, the constraint matrix with
the columns of `A` (nothing if left out), `L` and `R` below each other, and the vectors. -/
structure PySpCall.Held (c : PySpCall α n) (o o' : Obj α) : Prop where
  dims : o'.d.dims = some n
  sparse : o'.d.sparse = true
  Q : ∃ S, o'.d.Qs = some S ∧ c.Q.Same S
  g : o'.d.g = some (List.ofFn c.g)
  L : ∃ S, o'.d.Ls = some S ∧ c.L.Same S
  R : ∃ S, o'.d.Rs = some S ∧ c.R.Same S
  A : ∃ S, o'.d.As = some S ∧ S.m = n.nC + 2 * n.nComp ∧ S.n = n.nV ∧ ∀ j < n.nV,
    S.col j = (match c.A with | some A => A.col j | none => []) ++ (c.L.col j).map (fun e => ((n.nC : Int) + e.1, e.2)) ++
      (c.R.col j).map (fun e => (((n.nC + n.nComp : Nat) : Int) + e.1, e.2))
  lbA : o'.d.lbA = some (vecOr c.lbA (-. inf) ++ vecOr c.lbL zero ++ vecOr c.lbR zero)
  ubA : o'.d.ubA = some (vecOr c.ubA inf ++ vecOr c.ubL inf ++ vecOr c.ubR inf)
  lb : o'.d.lbTmp = (match c.lb with | some v => some (List.ofFn v) | none => o.d.lbTmp)
  ub : o'.d.ubTmp = (match c.ub with | some v => some (List.ofFn v) | none => o.d.ubTmp)
  x0 : o'.s.xk = some (vecOr c.x0 zero)
  y0 : o'.s.yk = c.y0.map List.ofFn

/-- C67 (any arithmetic): the Python class for sparse matrices.  Given the entries column by column, with their rows and the positions
where the columns start (the layout of `scipy.sparse.csc_matrix`), it makes a valid matrix of the given shape with these columns. -/
theorem C67_csc (m k : Nat) (cols : Nat → List (Int × α)) (h : ∀ j < k, ∀ v ∈ cols j, 0 ≤ v.1 ∧ v.1 < m) :
    ∃ S, pyCsc m k ((List.range k).flatMap cols).length (((List.range k).flatMap cols).map (·.2))
      (((List.range k).flatMap cols).map (·.1)) ((List.range (k + 1)).map fun t => (((List.range t).flatMap cols).length : Int)) =
      some S ∧ S.Is m k ∧ ∀ j < k, S.col j = cols j :=
  ⟨cscOf m k cols, rfl, ⟨cscOf_valid m k cols h, rfl, rfl⟩, fun _ hj => cscOf_col m k cols hj⟩

theorem pyArgs_fits (c : PySpCall α n) (hk : c.OK) : c.py.args.Fits n where
  Q := ⟨_, rfl, hk.Q⟩
  L := ⟨_, rfl, hk.L⟩
  R := ⟨_, rfl, hk.R⟩
  A := hk.A
  g := by
    intro v hv
    have hv : vecPtr (List.ofFn c.g) = some v := hv
    rw [vecPtr] at hv
    split at hv
    · injection hv with hv; rw [← hv]; simp
    · cases hv
  lbA := by show OptLen (vecPtr (pyVec _)) _; rw [vecPtr_pyVec]; exact vecArg_len _
  ubA := by show OptLen (vecPtr (pyVec _)) _; rw [vecPtr_pyVec]; exact vecArg_len _
  lbL := by show OptLen (vecPtr (pyVec _)) _; rw [vecPtr_pyVec]; exact vecArg_len _
  ubL := by show OptLen (vecPtr (pyVec _)) _; rw [vecPtr_pyVec]; exact vecArg_len _
  lbR := by show OptLen (vecPtr (pyVec _)) _; rw [vecPtr_pyVec]; exact vecArg_len _
  ubR := by show OptLen (vecPtr (pyVec _)) _; rw [vecPtr_pyVec]; exact vecArg_len _
  lb := by show OptLen (vecPtr (pyVec _)) _; rw [vecPtr_pyVec]; exact vecArg_len _
  ub := by show OptLen (vecPtr (pyVec _)) _; rw [vecPtr_pyVec]; exact vecArg_len _
  x0 := by show OptLen (vecPtr (pyVec _)) _; rw [vecPtr_pyVec]; exact vecArg_len _
  y0 := by show OptLen (vecPtr (pyVec _)) _; rw [vecPtr_pyVec]; exact vecArg_len _

/-- C67 (any arithmetic): the outcome of a load with sparse matrices from Python.  It is refused exactly if the complementarity Hessian
has no stored entry or an entry of `lbL` or `lbR` is `-∞`; otherwise the object holds the problem of the call, with no matrix
transposed.  That `A` is left out although there are linear constraints is not noticed. -/
theorem C67_outcome (e : Env α) (o : Obj α) (c : PySpCall α n) (hn : o.d.dims = some n) (hV : n.nV ≠ 0) (hC : n.nComp ≠ 0) (hk : c.OK) :
    ∃ C, symProdSparse c.L.trim c.R.trim = .ok C ∧
    ((C = none ∧ ∃ o', pyLoadSparse e o c.py = .ok (.failedSymComplementarityMatrix, o')) ∨
    (C ≠ none ∧ (MinusInf c.lbL ∨ MinusInf c.lbR) ∧ ∃ o', pyLoadSparse e o c.py = .ok (.invalidLowerComplementarityBound, o')) ∨
    (∃ S o', C = some S ∧ ¬ (MinusInf c.lbL ∨ MinusInf c.lbR) ∧ pyLoadSparse e o c.py = .ok (.successfulReturn, o') ∧ c.Held o o' ∧
      o'.d.Cs = some S)) := by
  have hf := pyArgs_fits c hk
  have e1 : c.py.args.lbL = vecArg c.lbL := vecPtr_pyVec _
  have e2 : c.py.args.lbR = vecArg c.lbR := vecPtr_pyVec _
  have e3 : c.py.args.ubL = vecArg c.ubL := vecPtr_pyVec _
  have e4 : c.py.args.ubR = vecArg c.ubR := vecPtr_pyVec _
  have e5 : c.py.args.lbA = vecArg c.lbA := vecPtr_pyVec _
  have e6 : c.py.args.ubA = vecArg c.ubA := vecPtr_pyVec _
  have e7 : c.py.args.lb = vecArg c.lb := vecPtr_pyVec _
  have e8 : c.py.args.ub = vecArg c.ub := vecPtr_pyVec _
  have e9 : c.py.args.x0 = vecArg c.x0 := vecPtr_pyVec _
  have e10 : c.py.args.y0 = vecArg c.y0 := vecPtr_pyVec _
  have hg0 : c.py.args.g = some (List.ofFn c.g) := by
    show vecPtr (List.ofFn c.g) = _
    simp [vecPtr, Nat.pos_of_ne_zero hV]
  have hbL : HasMinusInf c.py.args.lbL n.nComp ↔ MinusInf c.lbL := by rw [e1]; exact hasMinusInf_vecArg _
  have hbR : HasMinusInf c.py.args.lbR n.nComp ↔ MinusInf c.lbR := by rw [e2]; exact hasMinusInf_vecArg _
  obtain ⟨Q', L', R', C, hQ', hL', hR', iQ, iL, iR, hCs, hCi, h'⟩ := loadSparse_ok (e := e) hn hV hC hf
  injection hQ' with hQ'
  injection hL' with hL'
  injection hR' with hR'
  subst hQ' hL' hR'
  refine ⟨C, hCs, ?_⟩
  rw [pyLoadSparse]
  rcases h' with ⟨h1, _⟩ | ⟨_, h2, o', h'⟩ | ⟨_, h2, hb, o', h'⟩ | ⟨hb1, hb2, g, S, hg, lg, hc, h'⟩
  · rw [hg0] at h1; cases h1
  · exact .inl ⟨h2, o', h'⟩
  · rw [hbL, hbR] at hb
    exact .inr (.inl ⟨h2, hb, o', h'⟩)
  · right; right
    rw [hbL] at hb1
    rw [hbR] at hb2
    refine ⟨S, _, hc, fun h => h.elim hb1 hb2, h', ?_, rfl⟩
    rw [hg0] at hg
    injection hg with hg
    subst hg
    have tmp : ∀ (v : Option (Fin n.nV → α)) (w : Option (List α)),
        ((vecArg v).map (List.take n.nV)).orElse (fun _ => w) = match v with | some v => some (List.ofFn v) | none => w := by
      intro v w
      rw [vecArg, if_neg hV]
      cases v with
      | none => rfl
      | some v => simp
    refine ⟨hn, rfl, ⟨_, rfl, hk.Q.1.trim_same⟩, ?_, ⟨_, rfl, hk.L.1.trim_same⟩, ⟨_, rfl, hk.R.1.trim_same⟩, ⟨_, rfl, rfl, rfl, ?_⟩, ?_, ?_,
      ?_, ?_, ?_, ?_⟩
    · show some ((List.ofFn c.g).take n.nV) = _
      rw [take_ofFn]
    · intro j hj
      rw [cscOf_col _ _ _ hj, stackCol, hk.L.1.trim_same.col j (by rw [hk.L.2.2]; exact hj),
        hk.R.1.trim_same.col j (by rw [hk.R.2.2]; exact hj)]
      congr 2
      have hA : c.py.args.A = c.A := rfl
      rw [hA]
      cases c.A <;> rfl
    · show some (_ ++ _ ++ _) = _
      rw [e5, e1, e2, orFill_vecArg, orFill_vecArg, orFill_vecArg]
    · show some (_ ++ _ ++ _) = _
      rw [e6, e3, e4, orFill_vecArg, orFill_vecArg, orFill_vecArg]
    · show (c.py.args.lb.map (List.take n.nV)).orElse (fun _ => o.d.lbTmp) = _
      rw [e7, tmp]
    · show (c.py.args.ub.map (List.take n.nV)).orElse (fun _ => o.d.ubTmp) = _
      rw [e8, tmp]
    · show some (orFill c.py.args.x0 n.nV zero) = _
      rw [e9, orFill_vecArg]
    · show c.py.args.y0.map (List.take (n.nV + n.nA)) = _
      rw [e10, vecArg, if_neg (by omega)]
      cases c.y0 with
      | none => rfl
      | some v => simp

end call

section exact
variable {K : Type} [Field K] [LinearOrder K] [IsStrictOrderedRing K] {n : Dims}

/-- C67 (exact arithmetic): after a successful load of matrices with sorted columns the object holds the matrices of the call. -/
theorem C67_exact (e : Env (Ext K)) (o o' : Obj (Ext K)) (c : PySpCall (Ext K) n) (hn : o.d.dims = some n) (hV : n.nV ≠ 0)
    (hC : n.nComp ≠ 0) (hk : c.OK) (Q L R : CSC K) (A : Option (CSC K)) (hQ : c.Q = Q.emb) (hL : c.L = L.emb) (hR : c.R = R.emb)
    (hA : c.A = A.map CSC.emb) (hsL : L.Sorted) (hsR : R.Sorted) (h : pyLoadSparse e o c.py = .ok (.successfulReturn, o')) :
    HoldsMats o' n (Q.den n.nV n.nV) (denOpt A n.nC n.nV) (L.den n.nComp n.nV) (R.den n.nComp n.nV) :=
  (C16_matrices e o o' n c.py.args Q L R A hn hV hC (pyArgs_fits c hk) (congrArg some hQ) (congrArg some hL) (congrArg some hR) hA hsL hsR
    h).1

end exact

section interfaces
variable {α : Type} [Scalar α] {n : Dims}

/-- the call with the same arguments in MATLAB -/
def PySpCall.mex (c : PySpCall α n) (params : Option (List (String × Mx α))) : SpCall α n where
  Q := c.Q
  g := c.g
  L := c.L
  R := c.R
  lbL := c.lbL
  ubL := c.ubL
  lbR := c.lbR
  ubR := c.ubR
  lin := c.A.map fun A => (A, c.lbA, c.ubA)
  box := some (c.lb, c.ub)
  params := params

omit [Scalar α] in
theorem CSC.tight_eq {S : CSC α} (h : S.Valid) (hz : S.nzmax = S.P S.n) (hi : S.i.length = S.nzmax) (hx : S.x.length = S.nzmax) :
    S.tight = S := by
  obtain ⟨m, k, nz, i, x, p⟩ := S
  simp only [CSC.tight] at *
  rw [← hz, List.take_of_length_le (by omega), List.take_of_length_le (by omega)]

/-- the arrays of a matrix have no unused space -/
def CSC.Full (S : CSC α) : Prop := S.nzmax = S.P S.n ∧ S.i.length = S.nzmax ∧ S.x.length = S.nzmax

/-- C67 (any arithmetic): the same sparse problem, in arrays without unused space, leads to the same object in MATLAB as in Python. -/
theorem C67_matlab (E : MexEnv α) (c : PySpCall α n) (params : Option (List (String × Mx α))) (hV : n.nV ≠ 0) (hC : n.nComp ≠ 0)
    (hk : c.OK) (hA : c.A = none ↔ n.nC = 0) (fQ : c.Q.Full) (fL : c.L.Full) (fR : c.R.Full) (fA : ∀ A, c.A = some A → A.Full)
    {p : Params α} (hp : (c.mex params).readParams E = .ok p) (hx : p.x0 = vecArg c.x0) (hy : p.y0 = vecArg c.y0) :
    mexLoad E (c.mex params).prhs = (do
      let r ← lift (pyLoadSparse E.e (setOptions (Obj.new E.dflt n.nV n.nC n.nComp) p.opts) c.py)
      if r.1.code ≠ 0 then .error (.load r.1.code) else .ok (n, p.opts, r.2)) := by
  have ok : (c.mex params).OK := by
    refine ⟨hk.Q, hk.L, hk.R, ?_, ?_⟩
    · intro l hl
      obtain ⟨A, hA', rfl⟩ := Option.map_eq_some_iff.1 hl
      exact hk.A A hA'
    · rw [← hA]
      show c.A.map _ = none ↔ _
      rw [Option.map_eq_none_iff]
  rw [C65_load E _ hV hC ok, hp, mx_ok_bind, pyLoadSparse]
  have : (c.mex params).args p.x0 p.y0 = c.py.args := by
    have hg : vecPtr (List.ofFn c.g) = some (List.ofFn c.g) := by simp [vecPtr, Nat.pos_of_ne_zero hV]
    have tQ := CSC.tight_eq hk.Q.1 fQ.1 fQ.2.1 fQ.2.2
    have tL := CSC.tight_eq hk.L.1 fL.1 fL.2.1 fL.2.2
    have tR := CSC.tight_eq hk.R.1 fR.1 fR.2.1 fR.2.2
    cases hA' : c.A with
    | none =>
      have h0 := hA.1 hA'
      have z : ∀ v : Option (Fin n.nC → α), vecArg v = none := fun v => by rw [vecArg, if_pos h0]
      simp only [SpCall.args, PySpCall.mex, PySparse.args, PySpCall.py, vecPtr_pyVec, hg, tQ, tL, tR, hA', hx, hy, h0, z]
      simp
    | some A =>
      have h0 : n.nC ≠ 0 := fun h => by rw [hA.2 h] at hA'; cases hA'
      have tA := CSC.tight_eq (hk.A A hA').1 (fA A hA').1 (fA A hA').2.1 (fA A hA').2.2
      simp only [SpCall.args, PySpCall.mex, PySparse.args, PySpCall.py, vecPtr_pyVec, hg, tQ, tL, tR, hA', hx, hy, if_neg h0]
      simp [tA]
  rw [this]

end interfaces

section lengths
variable {α : Type} [Scalar α] {n : Dims}

theorem loop_len {σ : Type} {k : Nat} {f : Nat → σ → M σ} {s t : σ} {l : Nat} (h : loop k f s = .ok t)
    (hf : ∀ i s t, f i s = .ok t → i < l) : k ≤ l := by
  cases k with
  | zero => omega
  | succ k =>
    rw [loop, bind_eq_ok] at h
    obtain ⟨_, _, h⟩ := h
    exact hf _ _ _ h

theorem rd_len {β : Type} {b : List β} {i : Nat} {v : β} (h : rd b i = .ok v) : i < b.length := by
  by_contra hc
  rw [rd, List.getElem?_eq_none (by omega)] at h
  cases h

theorem fillBound_len {b : List α} {k : Nat} {d : α} {f r : List α} (h : fillBound (some b) k d f = .ok r) : k ≤ b.length := by
  refine loop_len (l := b.length) h fun i s t h => ?_
  rw [bind_eq_ok] at h
  obtain ⟨v, h, _⟩ := h
  exact rd_len h

theorem copyN_len {β : Type} {b r : List β} {k : Nat} (h : copyN b k = .ok r) : k ≤ b.length := by
  rw [copyN] at h
  split at h
  · assumption
  · cases h

theorem bndLoop_len {k off : Nat} {l u : Option (List α)} {s t : BndSt α} (h : bndLoop k off l u s = .ok (.inl t)) :
    OptLen l k ∧ OptLen u k := by
  cases k with
  | zero => exact ⟨fun _ _ => Nat.zero_le _, fun _ _ => Nat.zero_le _⟩
  | succ k =>
    rw [bndLoop, loopE, bind_eq_ok] at h
    obtain ⟨r, _, h⟩ := h
    cases r with
    | inr r => injection h with h; cases h
    | inl s' =>
      simp only [bind_eq_ok] at h
      obtain ⟨w, hw, h⟩ := h
      cases w with
      | inr w => injection h with h; cases h
      | inl w =>
        simp only [bind_eq_ok] at h
        obtain ⟨z, hz, _⟩ := h
        constructor
        · rintro v rfl
          simp only [bndLower, bind_eq_ok] at hw
          obtain ⟨x, hx, _⟩ := hw
          exact rd_len hx
        · rintro v rfl
          simp only [bndUpper, bind_eq_ok] at hz
          obtain ⟨x, hx, _⟩ := hz
          exact rd_len hx

/-- C67 (any arithmetic, any matrices): a load from Python does not succeed with a vector which is too short; the sizes are not checked,
so that the vector is read past its end.  An empty vector counts as left out, except for `g`. -/
theorem C67_short (e : Env α) (o o' : Obj α) (a : PySparse α) (hn : o.d.dims = some n)
    (h : pyLoadSparse e o a = .ok (.successfulReturn, o')) :
    (a.g ≠ [] ∧ n.nV ≤ a.g.length) ∧
    (∀ v ∈ [a.lbL, a.ubL, a.lbR, a.ubR], v ≠ [] → n.nComp ≤ v.length) ∧ (∀ v ∈ [a.lbA, a.ubA], v ≠ [] → n.nC ≤ v.length) ∧
    (∀ v ∈ [a.lb, a.ub, a.x0], v ≠ [] → n.nV ≤ v.length) ∧ (a.y0 ≠ [] → n.nV + n.nA ≤ a.y0.length) := by
  have ptr : ∀ v : List α, v ≠ [] → vecPtr v = some v := fun v hv => by
    rw [vecPtr, if_pos (List.length_pos_of_ne_nil hv)]
  rw [pyLoadSparse, loadSparse] at h
  obtain ⟨d1, h1, h⟩ := thenData_inv h
  obtain ⟨d2, h2, h⟩ := thenData_inv h
  obtain ⟨d3, h3, h⟩ := thenData_inv h
  obtain ⟨d4, h4, h⟩ := thenData_inv h
  obtain ⟨s5, h5, h⟩ := thenSt_succ h
  rw [bind_eq_ok] at h
  obtain ⟨d6, h6, _⟩ := h
  have n1 : d1.dims = some n := by rw [(setQs_keep h1).dims, hn]
  have n2 : d2.dims = some n := by rw [(setG_keep h2).dims, n1]
  have n3 : d3.dims = some n := by rw [(setConstraintsSparse_keep h3).dims, n2]
  have n4 : d4.dims = some n := by rw [(setCompBounds_keep h4).dims, n3]
  refine ⟨?_, ?_, ?_, ?_, ?_⟩
  · have hg : a.g ≠ [] := by
      intro hg
      have : a.args.g = none := by show vecPtr a.g = none; rw [hg]; rfl
      rw [this, setG, n1, initd_some, ok_bind] at h2
      split at h2 <;> (injection h2 with h2; injection h2 with h2 _; cases h2)
    refine ⟨hg, ?_⟩
    have : a.args.g = some a.g := ptr _ hg
    rw [this] at h2
    by_contra hc
    rw [setG_short n1 (by omega) (by omega)] at h2
    cases h2
  · rw [setCompBounds, n3, initd_some, ok_bind] at h4
    simp only [bind_eq_ok] at h4
    obtain ⟨lA, _, uA, _, r, hr, h4⟩ := h4
    cases r with
    | inr r => injection h4 with h4; injection h4 with h4 _; cases h4
    | inl r =>
      simp only [bind_eq_ok] at h4
      obtain ⟨r2, hr2, h4⟩ := h4
      cases r2 with
      | inr r => injection h4 with h4; injection h4 with h4 _; cases h4
      | inl r2 =>
        obtain ⟨b1, b2⟩ := bndLoop_len hr
        obtain ⟨b3, b4⟩ := bndLoop_len hr2
        intro v hv hne
        simp only [List.mem_cons, List.not_mem_nil, or_false] at hv
        rcases hv with rfl | rfl | rfl | rfl
        · exact b1 _ (ptr _ hne)
        · exact b2 _ (ptr _ hne)
        · exact b3 _ (ptr _ hne)
        · exact b4 _ (ptr _ hne)
  · rw [setConstraintsSparse, n2, initd_some, ok_bind] at h3
    simp only [bind_eq_ok] at h3
    obtain ⟨_, _, _, _, _, _, _, _, _, _, l, hl, u, hu, _⟩ := h3
    intro v hv hne
    simp only [List.mem_cons, List.not_mem_nil, or_false] at hv
    rcases hv with rfl | rfl
    · have : a.args.lbA = some a.lbA := ptr _ hne
      rw [this] at hl
      exact fillBound_len hl
    · have : a.args.ubA = some a.ubA := ptr _ hne
      rw [this] at hu
      exact fillBound_len hu
  · rw [setInitialGuess, n4, initd_some, ok_bind] at h5
    split at h5
    · injection h5 with h5; injection h5 with h5 _; cases h5
    simp only [bind_eq_ok] at h5
    obtain ⟨x, hx, _⟩ := h5
    simp only [setTmp, n4, initd_some, ok_bind, bind_eq_ok] at h6
    obtain ⟨l, hl, u, hu, _⟩ := h6
    intro v hv hne
    simp only [List.mem_cons, List.not_mem_nil, or_false] at hv
    rcases hv with rfl | rfl | rfl
    · have : a.args.lb = some a.lb := ptr _ hne
      rw [this, copyOpt] at hl
      simp only [bind_eq_ok] at hl
      obtain ⟨_, hl, _⟩ := hl
      exact copyN_len hl
    · have : a.args.ub = some a.ub := ptr _ hne
      rw [this, copyOpt] at hu
      simp only [bind_eq_ok] at hu
      obtain ⟨_, hu, _⟩ := hu
      exact copyN_len hu
    · have : a.args.x0 = some a.x0 := ptr _ hne
      rw [this, guessX] at hx
      exact copyN_len hx
  · intro hne
    rw [setInitialGuess, n4, initd_some, ok_bind] at h5
    split at h5
    · injection h5 with h5; injection h5 with h5 _; cases h5
    simp only [bind_eq_ok] at h5
    obtain ⟨x, _, y, hy, _⟩ := h5
    have : a.args.y0 = some a.y0 := ptr _ hne
    rw [this, guessY] at hy
    simp only [bind_eq_ok] at hy
    obtain ⟨_, hy, _⟩ := hy
    have := loop_len (l := a.y0.length) hy fun i s t h => by
      rw [bind_eq_ok] at h
      obtain ⟨v, h, _⟩ := h
      exact rd_len h
    have h2 : n.nA = n.nC + 2 * n.nComp := rfl
    omega

end lengths

namespace Ex

/-- the warm-up example with sparse matrices, one linear constraint, and different bounds everywhere -/
def pySp : PySpCall (Ext ℚ) ⟨2, 1, 1⟩ where
  Q := spQ.emb
  g := ![.fin (-2), .fin (-3)]
  L := spL.emb
  R := spR.emb
  ubL := some ![.fin 11]
  ubR := some ![.fin 12]
  A := some spA.emb
  lbA := some ![.fin 13]
  ubA := some ![.fin 14]
  lb := some ![.fin 15, .fin 16]
  x0 := some ![.fin 19, .fin 20]
  y0 := some ![.fin 21, .fin 22, .fin 23, .fin 24, .fin 25]

theorem pySp_ok : pySp.OK where
  Q := spCall_ok.Q
  L := spCall_ok.L
  R := spCall_ok.R
  A := by
    rintro l ⟨⟩
    exact spCall_ok.A _ rfl

/-- C67: the call is loaded -/
theorem pySp_loads : ∃ o', pyLoadSparse env (Obj.new opts 2 1 1) pySp.py = .ok (.successfulReturn, o') ∧ pySp.Held (Obj.new opts 2 1 1) o' := by
  obtain ⟨C, hC, h⟩ := C67_outcome env (Obj.new opts 2 1 1) pySp rfl (by decide) (by decide) pySp_ok
  rcases h with ⟨h, _⟩ | ⟨_, h, _⟩ | ⟨S, o, _, _, h, h', _⟩
  · exfalso
    subst h
    revert hC
    decide +kernel
  · rcases h with ⟨w, h, _⟩ | ⟨w, h, _⟩ <;> cases h
  · exact ⟨o, h, h'⟩

/-- C67: the matrices held after this call -/
example : ∃ o', pyLoadSparse env (Obj.new opts 2 1 1) pySp.py = .ok (.successfulReturn, o') ∧
    HoldsMats o' ⟨2, 1, 1⟩ (spQ.den 2 2) (denOpt (some spA) 1 2) (spL.den 1 2) (spR.den 1 2) := by
  obtain ⟨o', h, _⟩ := pySp_loads
  exact ⟨o', h, C67_exact env _ o' pySp rfl (by decide) (by decide) pySp_ok spQ spL spR (some spA) rfl rfl rfl rfl spL_sorted spR_sorted h⟩

/-- C67: the same, computed -/
example : (pyLoadSparse env (Obj.new opts 2 1 1) pySp.py).map (fun r => (r.1, r.2.d.lbTmp, r.2.d.ubTmp)) =
      .ok (.successfulReturn, some (emb [15, 16]), none) ∧
    (pyLoadSparse env (Obj.new opts 2 1 1) pySp.py).map (fun r => (r.2.s.xk, r.2.s.yk)) =
      .ok (some (emb [19, 20]), some (emb [21, 22, 23, 24, 25])) ∧
    (pyLoadSparse env (Obj.new opts 2 1 1) pySp.py).map (fun r => r.2.d.As.map fun S => (S.p, S.i, S.x)) =
      .ok (some ([0, 2, 4], [0, 1, 0, 2], emb [1, 1, 1, 1])) := by
  refine ⟨?_, ?_, ?_⟩ <;> decide +kernel

/-- C67: the problem of `C45_fails` with sparse matrices is loaded as it is, while the dense load transposes it -/
example : (pyLoadSparse env (Obj.new opts 2 0 2)
      { Q := some spQ.emb
        g := emb [-2, -2]
        L := some (createCSC 2 2 1 [1] [0] [0, 0, 1] : CSC ℚ).emb
        R := some (createCSC 2 2 1 [1] [0] [0, 1, 1] : CSC ℚ).emb }).map (fun r => r.2.d.Ls.map fun S => (S.p, S.i, S.x)) =
      .ok (some ([0, 0, 1], [0], emb [1])) := by
  decide +kernel

/-- C67: a short bound -/
example : (pyLoadSparse env (Obj.new opts 2 1 1) { pySp.py with lb := [.fin 15] }).map (·.1) = .error .oob ∧
    (pyLoadSparse env (Obj.new opts 2 1 1) { pySp.py with g := [] }).map (·.1) = .ok .invalidObjectiveLinearTerm ∧
    (pyLoadSparse env (Obj.new opts 2 1 1) { pySp.py with y0 := [.fin 15, .fin 16] }).map (·.1) = .error .oob := by
  refine ⟨?_, ?_, ?_⟩ <;> decide +kernel

example : pyCsc 3 2 3 (emb [1, 5, 7]) [0, 2, 1] [0, 2, 3] =
    some ⟨3, 2, 3, [0, 2, 3], [0, 2, 1], [.fin 1, .fin 5, .fin 7]⟩ := by decide +kernel

/-- one pair, but a matrix `L` with two rows -/
def pyTall : PySparse (Ext ℚ) where
  Q := some spQ.emb
  g := emb [-2, -2]
  L := some (createCSC 2 2 2 [1, 5] [0, 1] [0, 1, 2] : CSC ℚ).emb
  R := some spR.emb

/-- two variables, but a matrix `Q` with three rows and columns -/
def pyBig : PySparse (Ext ℚ) where
  Q := some (createCSC 3 3 3 [2, 2, 2] [0, 1, 2] [0, 1, 2, 3] : CSC ℚ).emb
  g := emb [-2, -2]
  L := some spL.emb
  R := some spR.emb

/-- C67 (a defect): the sizes of the matrices are not compared with the sizes of the object.  With one complementarity pair, a matrix `L`
with two rows is accepted, and in the constraint matrix its second row is added to the row of `R`.
A matrix `Q` with three rows is accepted for two variables, and a run with OSQP then reads outside of an array. -/
theorem C67_shapes :
    (pyLoadSparse env (Obj.new opts 2 0 1) pyTall).map (·.1) = .ok .successfulReturn ∧
    (pyLoadSparse env (Obj.new opts 2 0 1) pyTall).map (fun r => r.2.d.As.map fun S => (S.p, S.i, S.x)) =
      .ok (some ([0, 1, 3], [0, 1, 1], emb [1, 5, 1])) ∧
    (pyLoadSparse env (Obj.new { opts with qpSolver := 2 } 2 0 1) pyBig).map (·.1) = .ok .successfulReturn ∧
    (do
      let r ← pyLoadSparse env (Obj.new { opts with qpSolver := 2 } 2 0 1) pyBig
      let z ← runSolver env 20 r.2
      .ok (z.map (·.1)) : M (Option RV)) = .error .oob := by
  refine ⟨?_, ?_, ?_, ?_⟩ <;> decide +kernel

/-- C67 (a defect): with a linear constraint but without `A` the sparse load succeeds; the dense load reports the missing matrix. -/
theorem C67_missing :
    (pyLoadSparse env (Obj.new opts 2 1 1) { pySp.py with A := none }).map (fun r => (r.1, r.2.d.As.map (·.i))) =
      .ok (.successfulReturn, some [1, 2]) ∧
    (loadDense env (Obj.new opts 2 1 1) args).map (·.1) = .ok .invalidConstraintMatrix := by
  refine ⟨?_, ?_⟩ <;> decide +kernel

end Ex
end LCQ
