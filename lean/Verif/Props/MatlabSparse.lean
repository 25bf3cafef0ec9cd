import Verif.Props.MatlabLoad
import Verif.Props.LoadSparse

/-!
# C65: sparse arrays in the MATLAB interface
-/

set_option linter.unusedSectionVars false

namespace LCQ
open Scalar
open scoped Matrix

section call
variable {α : Type} [Scalar α] {n : Dims}

/-- The documented calls with sparse matrices and full vectors: `lin` are `A, lbA, ubA`, `box` are `lb, ub`. -/
structure SpCall (α : Type) (n : Dims) where
  /-- Q -/
  Q : CSC α
  /-- g -/
  g : Fin n.nV → α
  /-- L -/
  L : CSC α
  /-- R -/
  R : CSC α
  /-- lbL -/
  lbL : Option (Fin n.nComp → α) := none
  /-- ubL -/
  ubL : Option (Fin n.nComp → α) := none
  /-- lbR -/
  lbR : Option (Fin n.nComp → α) := none
  /-- ubR -/
  ubR : Option (Fin n.nComp → α) := none
  /-- A, lbA, ubA -/
  lin : Option (CSC α × Option (Fin n.nC → α) × Option (Fin n.nC → α)) := none
  /-- lb, ub -/
  box : Option (Option (Fin n.nV → α) × Option (Fin n.nV → α)) := none
  /-- params -/
  params : Option (List (String × Mx α)) := none

/-- the matrices are valid and have the right sizes -/
structure SpCall.OK (c : SpCall α n) : Prop where
  Q : c.Q.Is n.nV n.nV
  L : c.L.Is n.nComp n.nV
  R : c.R.Is n.nComp n.nV
  A : ∀ l, c.lin = some l → l.1.Is n.nC n.nV
  lin : c.lin = none ↔ n.nC = 0

/-- the argument list of a call -/
def SpCall.prhs (c : SpCall α n) : List (Mx α) :=
  [.sparse c.Q, column (some c.g), .sparse c.L, .sparse c.R, column c.lbL, column c.ubL, column c.lbR, column c.ubR] ++
  (match c.lin with
    | some (A, l, u) => [.sparse A, column l, column u]
    | none => []) ++
  (match c.box with
    | some (l, u) => [column l, column u]
    | none => []) ++
  (match c.params with
    | some fs => [Mx.struct fs]
    | none => [])

/-- options and initial guess of the call -/
def SpCall.readParams (E : MexEnv α) (c : SpCall α n) : MX (Params α) :=
  match c.params with
  | none => .ok { opts := E.dflt }
  | some fs => LCQ.readParams E n (.struct fs)

/-- `T` has the sizes of `S` and stores the same entries in the same order. -/
structure CSC.Same (S T : CSC α) : Prop where
  m : T.m = S.m
  n : T.n = S.n
  col : ∀ j < S.n, T.col j = S.col j

/-- the copy without unused space -/
def CSC.tight (S : CSC α) : CSC α := { S with
  nzmax := S.P S.n
  i := S.i.take (S.P S.n)
  x := S.x.take (S.P S.n) }

omit [Scalar α] in
theorem CSC.Is.tight {S : CSC α} {m k : Nat} (h : S.Is m k) : S.tight.Is m k := by
  obtain ⟨v, h2⟩ := h
  refine ⟨?_, h2⟩
  have := v.ilen
  have := v.xlen
  have := v.nz
  exact {
    plen := v.plen
    p0 := v.p0
    mono := v.mono
    nz := le_refl _
    ilen := by simp [CSC.tight]; omega
    xlen := by simp [CSC.tight]; omega
    rows := by
      intro k hk
      have h1 : k < S.P S.n := hk
      show 0 ≤ (S.i.take (S.P S.n)).getD k 0 ∧ (S.i.take (S.P S.n)).getD k 0 < S.m
      rw [getD_take _ _ h1]
      exact v.rows k h1 }

theorem CSC.Valid.tight_same {S : CSC α} (h : S.Valid) : S.Same S.tight := by
  refine ⟨rfl, rfl, fun c hc => ?_⟩
  unfold CSC.col
  apply List.map_congr_left
  intro k hk
  have hk' : k < S.P (c + 1) - S.P c := List.mem_range.mp hk
  have h1 : S.P c + k < S.P S.n := h.lt_nnz hc (by omega)
  show ((S.i.take (S.P S.n)).getD (S.P c + k) 0, gt (S.x.take (S.P S.n)) (S.P c + k)) = _
  unfold gt
  rw [getD_take _ _ h1, getD_take _ _ h1]

theorem CSC.Same.trans {S T U : CSC α} (h : S.Same T) (g : T.Same U) : S.Same U :=
  ⟨g.m.trans h.m, g.n.trans h.n, fun j hj => (g.col j (by rw [h.n]; exact hj)).trans (h.col j hj)⟩

theorem CSC.Valid.trim_same {S : CSC α} (h : S.Valid) : S.Same S.trim := ⟨rfl, rfl, fun _ hc => trim_col h hc⟩

theorem readSparse_ok {S : CSC α} {m k : Nat} (h : S.Is m k) : readSparse (.sparse S) m k = .ok S.tight := by
  obtain ⟨v, rfl, rfl⟩ := h
  have h1 := v.plen
  have h2 := v.nz
  have h3 := v.ilen
  have h4 := v.xlen
  have hp : rd S.p S.n = .ok (S.P S.n : Int) := v.rd_p (le_refl _)
  rw [readSparse]
  simp only [hp, ok_bind, Int.toNat_natCast, copyN, if_pos (show S.P S.n ≤ S.x.length by omega),
    if_pos (show S.P S.n ≤ S.i.length by omega), if_pos (show S.n + 1 ≤ S.p.length by omega)]
  rw [List.take_of_length_le (show S.p.length ≤ S.n + 1 by omega)]
  rfl

/-- What the sparse loader should be called with. -/
def SpCall.args (c : SpCall α n) (x0 y0 : Option (List α)) : SparseArgs α where
  Q := some c.Q.tight
  g := some (List.ofFn c.g)
  L := some c.L.tight
  R := some c.R.tight
  lbL := vecArg c.lbL
  ubL := vecArg c.ubL
  lbR := vecArg c.lbR
  ubR := vecArg c.ubR
  A := if n.nC = 0 then none else c.lin.map fun l => l.1.tight
  lbA := c.lin.bind fun l => vecArg l.2.1
  ubA := c.lin.bind fun l => vecArg l.2.2
  lb := c.box.bind fun b => vecArg b.1
  ub := c.box.bind fun b => vecArg b.2
  x0 := x0
  y0 := y0

theorem sparseArgs_call (c : SpCall α n) (hV : n.nV ≠ 0) (hk : c.OK) (x0 y0 : Option (List α)) :
    sparseArgs n c.prhs x0 y0 = .ok (c.args x0 y0) := by
  obtain ⟨kQ, kL, kR, kA, hl⟩ := hk
  obtain ⟨Q, g, L, R, lbL, ubL, lbR, ubR, lin, box, params⟩ := c
  have hg : vecArg (some g) = some (List.ofFn g) := by rw [vecArg, if_neg hV]; rfl
  have rQ := readSparse_ok kQ
  have rL := readSparse_ok kL
  have rR := readSparse_ok kR
  rcases lin with _ | ⟨A, la, ua⟩
  · have h0 : n.nC = 0 := hl.1 rfl
    rcases box with _ | ⟨lb, ub⟩ <;> rcases params with _ | fs
    all_goals
      simp [sparseArgs, SpCall.prhs, argPr, arg, rd, column_pr, ok_bind, readA, h0, readVectors, readMore, rQ, rL, rR, hg, SpCall.args]
  · have h0 : n.nC ≠ 0 := fun h => by cases hl.2 h
    have rA := readSparse_ok (kA _ rfl)
    have h0' : 0 < n.nC := by omega
    rcases box with _ | ⟨lb, ub⟩ <;> rcases params with _ | fs
    all_goals
      simp [sparseArgs, SpCall.prhs, argPr, arg, rd, column_pr, ok_bind, readA, h0, h0', readVectors, readMore, rQ, rL, rR, rA, hg,
        SpCall.args]

theorem allSparse_call (c : SpCall α n) (hk : c.OK) : allSparse n c.prhs = .ok true := by
  obtain ⟨kQ, kL, kR, kA, hl⟩ := hk
  obtain ⟨Q, g, L, R, lbL, ubL, lbR, ubR, lin, box, params⟩ := c
  rcases lin with _ | ⟨A, la, ua⟩
  · have h0 : n.nC = 0 := hl.1 rfl
    simp [allSparse, argSparse, sparseA, SpCall.prhs, arg, rd, ok_bind, h0, Mx.isSparse]
  · by_cases h0 : 0 < n.nC
    · simp [allSparse, argSparse, sparseA, SpCall.prhs, arg, rd, ok_bind, h0, Mx.isSparse]
    · simp [allSparse, argSparse, sparseA, SpCall.prhs, arg, rd, ok_bind, h0, Mx.isSparse]

theorem sparse_isEmpty {S : CSC α} {m k : Nat} (h : S.Is m k) : (Mx.sparse S).isEmpty = decide (m = 0 ∨ k = 0) := by
  obtain ⟨_, rfl, rfl⟩ := h
  rw [Bool.eq_iff_iff]
  simp [Mx.isEmpty, Mx.rows, Mx.cols]

theorem mexDims_spCall (c : SpCall α n) (hV : n.nV ≠ 0) (hC : n.nComp ≠ 0) (hk : c.OK) : mexDims c.prhs = .ok n := by
  obtain ⟨kQ, kL, kR, kA, hl⟩ := hk
  obtain ⟨Q, g, L, R, lbL, ubL, lbR, ubR, lin, box, params⟩ := c
  obtain ⟨nV, nC, nComp⟩ := n
  have e1 : (Mx.sparse Q).isEmpty = false := by rw [sparse_isEmpty kQ]; simp; exact hV
  have e2 : (Mx.sparse L).isEmpty = false := by rw [sparse_isEmpty kL]; simp; exact ⟨hC, hV⟩
  have r1 : (Mx.sparse Q).rows = nV := kQ.2.1
  have r2 : (Mx.sparse L).rows = nComp := kL.2.1
  have d1 : (Mx.sparse Q).isDouble = true := rfl
  have d2 : (Mx.sparse L).isDouble = true := rfl
  rcases lin with _ | ⟨A, la, ua⟩
  · have h0 : nC = 0 := hl.1 rfl
    subst h0
    rcases box with _ | ⟨lb, ub⟩ <;> rcases params with _ | fs
    all_goals
      simp [mexDims, mexNC, SpCall.prhs, arg, rd, e1, e2, d1, d2, r1, r2, tenIsStruct, Mx.isStruct]
  · have e3 : (Mx.sparse A).isEmpty = decide (nC = 0) := by
      rw [sparse_isEmpty (kA _ rfl)]
      simp only [decide_eq_decide]
      exact ⟨fun h => h.resolve_right hV, .inl⟩
    have d3 : (Mx.sparse A).isDouble = true := rfl
    have r3 : (Mx.sparse A).rows = nC := (kA _ rfl).2.1
    have s1 : (column ua).isStruct = false := by cases ua <;> rfl
    rcases box with _ | ⟨lb, ub⟩ <;> rcases params with _ | fs
    all_goals
      simp [mexDims, mexNC, SpCall.prhs, arg, rd, e1, e2, e3, d1, d2, d3, r1, r2, r3, tenIsStruct, s1]
      try (split <;> simp_all)

theorem checkDouble_sparse {S : CSC α} {m k : Nat} (h : S.Is m k) (name : String) (b : Bool) : checkDouble (.sparse S) m k name b = .ok () := by
  obtain ⟨_, rfl, rfl⟩ := h
  rw [checkDouble]
  split
  · rfl
  · simp [Mx.isDouble, Mx.rows, Mx.cols]

theorem mexChecks_spCall (c : SpCall α n) (hk : c.OK) : mexChecks c.prhs n = .ok () := by
  obtain ⟨kQ, kL, kR, kA, hl⟩ := hk
  obtain ⟨Q, g, L, R, lbL, ubL, lbR, ubR, lin, box, params⟩ := c
  have qQ := checkDouble_sparse kQ
  have qL := checkDouble_sparse kL
  have qR := checkDouble_sparse kR
  rcases lin with _ | ⟨A, la, ua⟩
  · rcases box with _ | ⟨lb, ub⟩ <;> rcases params with _ | fs
    all_goals
      simp [mexChecks, checkArg, checkBox, checkLin, checkParams, checkStruct, SpCall.prhs, arg, rd, qQ, qL, qR, checkDouble_some,
        checkDouble_column, tenIsStruct, tenIsDouble, Mx.isStruct, Mx.isDouble]
  · have s1 : (column ua).isStruct = false := by cases ua <;> rfl
    have s2 : (column ua).isDouble = true := by cases ua <;> rfl
    have qA := checkDouble_sparse (kA _ rfl)
    rcases box with _ | ⟨lb, ub⟩ <;> rcases params with _ | fs
    all_goals
      simp [mexChecks, checkArg, checkBox, checkLin, checkParams, checkStruct, SpCall.prhs, arg, rd, qQ, qL, qR, qA, checkDouble_some,
        checkDouble_column, tenIsStruct, tenIsDouble, s1, s2, isStruct_struct]

theorem mexParams_spCall (E : MexEnv α) (c : SpCall α n) : mexParams E n c.prhs = c.readParams E := by
  obtain ⟨Q, g, L, R, lbL, ubL, lbR, ubR, lin, box, params⟩ := c
  rcases lin with _ | ⟨A, la, ua⟩
  · rcases box with _ | ⟨lb, ub⟩ <;> rcases params with _ | fs
    all_goals
      simp [mexParams, paramsIdx, SpCall.readParams, SpCall.prhs, arg, rd, tenIsDouble, Mx.isDouble]
  · have s2 : (column ua).isDouble = true := by cases ua <;> rfl
    rcases box with _ | ⟨lb, ub⟩ <;> rcases params with _ | fs
    all_goals
      simp [mexParams, paramsIdx, SpCall.readParams, SpCall.prhs, arg, rd, tenIsDouble, s2]

/-- C65 (any arithmetic): in every documented call with sparse matrices the interface constructs an object of the right sizes, gives
it the options of the parameter struct, and calls the sparse loader with each argument in its own place; the matrices are copied without
unused space, and `Q` is not transposed. -/
theorem C65_load (E : MexEnv α) (c : SpCall α n) (hV : n.nV ≠ 0) (hC : n.nComp ≠ 0) (hk : c.OK) :
    mexLoad E c.prhs = (do
      let p ← c.readParams E
      let r ← lift (loadSparse E.e (setOptions (Obj.new E.dflt n.nV n.nC n.nComp) p.opts) (c.args p.x0 p.y0))
      if r.1.code ≠ 0 then .error (.load r.1.code) else .ok (n, p.opts, r.2)) := by
  have len : ¬ (c.prhs.length < 8 ∨ 14 < c.prhs.length) := by
    obtain ⟨Q, g, L, R, lbL, ubL, lbR, ubR, lin, box, params⟩ := c
    rcases lin with _ | ⟨A, la, ua⟩ <;> rcases box with _ | ⟨lb, ub⟩ <;> rcases params with _ | fs <;> simp [SpCall.prhs]
  have hs : argSparse c.prhs 0 = .ok true := rfl
  rw [mexLoad, if_neg len, mexDims_spCall c hV hC hk, mx_ok_bind, mexChecks_spCall c hk, mx_ok_bind, mexParams_spCall]
  cases c.readParams E with
  | error h => rfl
  | ok p =>
    simp only [mx_ok_bind, mexData, hs, lift_ok, mexSparse, allSparse_call c hk, sparseArgs_call c hV hk]
    cases loadSparse E.e (setOptions (Obj.new E.dflt n.nV n.nC n.nComp) p.opts) (c.args p.x0 p.y0) with
    | error f => rfl
    | ok r =>
      simp only [lift_ok, mx_ok_bind]
      by_cases hr : r.1.code = 0 <;> simp [hr]

theorem spArgs_fits (c : SpCall α n) (hk : c.OK) {x0 y0 : Option (List α)} (hx : OptLen x0 n.nV) (hy : OptLen y0 (n.nV + n.nA)) :
    (c.args x0 y0).Fits n where
  Q := ⟨_, rfl, hk.Q.tight⟩
  L := ⟨_, rfl, hk.L.tight⟩
  R := ⟨_, rfl, hk.R.tight⟩
  g := by rintro v ⟨⟩; simp
  A := by
    intro v hv
    rw [SpCall.args] at hv
    dsimp only at hv
    split at hv
    · cases hv
    · cases hc : c.lin with
      | none => rw [hc] at hv; cases hv
      | some l =>
        rw [hc] at hv
        injection hv with hv
        subst hv
        exact (hk.A _ hc).tight
  lbA := by
    intro v hv
    cases hc : c.lin with
    | none => rw [SpCall.args, hc] at hv; cases hv
    | some l => rw [SpCall.args, hc] at hv; exact vecArg_len _ v hv
  ubA := by
    intro v hv
    cases hc : c.lin with
    | none => rw [SpCall.args, hc] at hv; cases hv
    | some l => rw [SpCall.args, hc] at hv; exact vecArg_len _ v hv
  lbL := vecArg_len _
  ubL := vecArg_len _
  lbR := vecArg_len _
  ubR := vecArg_len _
  lb := by
    intro v hv
    cases hc : c.box with
    | none => rw [SpCall.args, hc] at hv; cases hv
    | some l => rw [SpCall.args, hc] at hv; exact vecArg_len _ v hv
  ub := by
    intro v hv
    cases hc : c.box with
    | none => rw [SpCall.args, hc] at hv; cases hv
    | some l => rw [SpCall.args, hc] at hv; exact vecArg_len _ v hv
  x0 := hx
  y0 := hy

/-- The problem of the call is what the object holds: `Q`, `L`, `R` with the same stored entries, the constraint matrix with the
columns of `A`, `L` and `R` below each other, and the vectors. -/
structure SpCall.Held (c : SpCall α n) (o : Obj α) : Prop where
  dims : o.d.dims = some n
  sparse : o.d.sparse = true
  Q : ∃ S, o.d.Qs = some S ∧ c.Q.Same S
  g : o.d.g = some (List.ofFn c.g)
  L : ∃ S, o.d.Ls = some S ∧ c.L.Same S
  R : ∃ S, o.d.Rs = some S ∧ c.R.Same S
  A : ∃ S, o.d.As = some S ∧ S.m = n.nC + 2 * n.nComp ∧ S.n = n.nV ∧ ∀ j < n.nV,
    S.col j = (match c.lin with | some l => l.1.col j | none => []) ++ (c.L.col j).map (fun e => ((n.nC : Int) + e.1, e.2)) ++
      (c.R.col j).map (fun e => (((n.nC + n.nComp : Nat) : Int) + e.1, e.2))
  lbA : o.d.lbA = some ((match c.lin with | some l => vecOr l.2.1 (-. inf) | none => []) ++ vecOr c.lbL zero ++ vecOr c.lbR zero)
  ubA : o.d.ubA = some ((match c.lin with | some l => vecOr l.2.2 inf | none => []) ++ vecOr c.ubL inf ++ vecOr c.ubR inf)
  lb : o.d.lbTmp = (c.box.bind (·.1)).map List.ofFn
  ub : o.d.ubTmp = (c.box.bind (·.2)).map List.ofFn

/-- C65 (any arithmetic): the outcome of a documented call with sparse matrices, up to the run of the solver.  The load is refused
exactly if the complementarity Hessian has no stored entry or an entry of `lbL` or `lbR` is `-∞`, and the code of the refusal is that
of the library.  Otherwise the object holds the given problem. -/
theorem C65_outcome (E : MexEnv α) (c : SpCall α n) (hV : n.nV ≠ 0) (hC : n.nComp ≠ 0) (hk : c.OK)
    {p : Params α} (hp : c.readParams E = .ok p) (hx : OptLen p.x0 n.nV) (hy : OptLen p.y0 (n.nV + n.nA)) :
    ∃ C, symProdSparse c.L.tight c.R.tight = .ok C ∧
    ((C = none ∧ mexLoad E c.prhs = .error (.load RV.failedSymComplementarityMatrix.code)) ∨
    (C ≠ none ∧ (MinusInf c.lbL ∨ MinusInf c.lbR) ∧ mexLoad E c.prhs = .error (.load RV.invalidLowerComplementarityBound.code)) ∨
    (∃ S o, C = some S ∧ ¬ (MinusInf c.lbL ∨ MinusInf c.lbR) ∧ mexLoad E c.prhs = .ok (n, p.opts, o) ∧ c.Held o ∧ o.d.Cs = some S)) := by
  have hf := spArgs_fits c hk hx hy
  have hn : (setOptions (Obj.new E.dflt n.nV n.nC n.nComp) p.opts).d.dims = some n := (new_eq E.dflt n hV hC).1
  have hbL : HasMinusInf (c.args p.x0 p.y0).lbL n.nComp ↔ MinusInf c.lbL := hasMinusInf_vecArg _
  have hbR : HasMinusInf (c.args p.x0 p.y0).lbR n.nComp ↔ MinusInf c.lbR := hasMinusInf_vecArg _
  have hL := C65_load E c hV hC hk
  rw [hp, mx_ok_bind] at hL
  have tt : ∀ {S : CSC α} {m k}, S.Is m k → S.tight.trim = S.tight := by
    intro S m k _
    simp [CSC.trim, CSC.tight]
  obtain ⟨Q', L', R', C, hQ', hL', hR', iQ, iL, iR, hCs, hCi, h'⟩ := loadSparse_ok (e := E.e) hn hV hC hf
  injection hQ' with hQ'
  injection hL' with hL'
  injection hR' with hR'
  subst hQ' hL' hR'
  rw [tt hk.L, tt hk.R] at hCs
  refine ⟨C, hCs, ?_⟩
  rcases h' with ⟨h1, _⟩ | ⟨_, h2, o', h'⟩ | ⟨_, h2, hb, o', h'⟩ | ⟨hb1, hb2, g, S, hg, lg, hc, h'⟩
  · cases h1
  · left
    refine ⟨h2, ?_⟩
    rw [hL, h']
    rfl
  · right; left
    rw [hbL, hbR] at hb
    refine ⟨h2, hb, ?_⟩
    rw [hL, h']
    rfl
  · right; right
    rw [hbL] at hb1
    rw [hbR] at hb2
    refine ⟨S, sparseObj (setOptions (Obj.new E.dflt n.nV n.nC n.nComp) p.opts) n (c.args p.x0 p.y0) c.Q.tight c.L.tight c.R.tight S g,
      hc, fun h => h.elim hb1 hb2, ?_, ?_, rfl⟩
    · rw [hL, h']
      rfl
    · injection hg with hg
      subst hg
      have e1 : (Obj.new E.dflt n.nV n.nC n.nComp).d.lbTmp = none := by
        simp only [Obj.new, if_neg (show ¬ ((n.nV : Int) ≤ 0) by omega), if_neg (show ¬ ((n.nComp : Int) ≤ 0) by omega),
          if_neg (show ¬ ((n.nC : Int) < 0) by omega)]
        rfl
      have e2 : (Obj.new E.dflt n.nV n.nC n.nComp).d.ubTmp = none := by
        simp only [Obj.new, if_neg (show ¬ ((n.nV : Int) ≤ 0) by omega), if_neg (show ¬ ((n.nComp : Int) ≤ 0) by omega),
          if_neg (show ¬ ((n.nC : Int) < 0) by omega)]
        rfl
      have hvec := C16_vectors E.e _ _ n _ hn hV hC hf h'
      have sm : ∀ {T : CSC α} {m k}, T.Is m k → T.Same T.tight.trim := fun {T m k} h => by
        rw [tt h]
        exact h.1.tight_same
      refine ⟨?_, rfl, ⟨_, rfl, sm hk.Q⟩, ?_, ⟨_, rfl, sm hk.L⟩, ⟨_, rfl, sm hk.R⟩, ⟨_, rfl, ?_, rfl, ?_⟩, ?_, ?_, ?_, ?_⟩
      · exact hn
      · show some ((List.ofFn c.g).take n.nV) = _
        rw [take_ofFn]
      · rfl
      · intro j hj
        rw [cscOf_col _ _ _ hj, stackCol, tt hk.L, tt hk.R, hk.L.1.tight_same.col j (by rw [hk.L.2.2]; exact hj),
          hk.R.1.tight_same.col j (by rw [hk.R.2.2]; exact hj)]
        congr 2
        cases hc' : c.lin with
        | none =>
          have : (c.args p.x0 p.y0).A = none := by simp [SpCall.args, hc']
          rw [this]
          rfl
        | some l =>
          have h0 : n.nC ≠ 0 := fun h => by rw [hk.lin.2 h] at hc'; cases hc'
          have : (c.args p.x0 p.y0).A = some l.1.tight := by simp [SpCall.args, hc', h0]
          rw [this]
          exact (hk.A l hc').1.tight_same.col j (by rw [(hk.A l hc').2.2]; exact hj)
      · rw [hvec.1.lbA]
        have x1 : orFill (c.args p.x0 p.y0).lbL n.nComp (zero : α) = vecOr c.lbL zero := orFill_vecArg _ _
        have x2 : orFill (c.args p.x0 p.y0).lbR n.nComp (zero : α) = vecOr c.lbR zero := orFill_vecArg _ _
        rw [x1, x2]
        congr 3
        cases hc' : c.lin with
        | none => simp [SpCall.args, hc', orFill, hk.lin.1 hc']
        | some l => simp [SpCall.args, hc', orFill_vecArg]
      · rw [hvec.1.ubA]
        have x1 : orFill (c.args p.x0 p.y0).ubL n.nComp (inf : α) = vecOr c.ubL inf := orFill_vecArg _ _
        have x2 : orFill (c.args p.x0 p.y0).ubR n.nComp (inf : α) = vecOr c.ubR inf := orFill_vecArg _ _
        rw [x1, x2]
        congr 3
        cases hc' : c.lin with
        | none => simp [SpCall.args, hc', orFill, hk.lin.1 hc']
        | some l => simp [SpCall.args, hc', orFill_vecArg]
      · rw [hvec.2.2.1]
        cases hc' : c.box with
        | none => simp [SpCall.args, hc', setOptions, e1]
        | some b =>
          have := tmp_vecArg hV b.1
          simp only [SpCall.args, hc', setOptions, e1]
          exact this
      · rw [hvec.2.2.2]
        cases hc' : c.box with
        | none => simp [SpCall.args, hc', setOptions, e2]
        | some b =>
          have := tmp_vecArg hV b.2
          simp only [SpCall.args, hc', setOptions, e2]
          exact this

end call

section exact
variable {K : Type} [Field K] [LinearOrder K] [IsStrictOrderedRing K] {n : Dims}

theorem tight_emb (S : CSC K) : S.emb.tight = S.tight.emb := by
  show CSC.mk _ _ _ _ _ _ = CSC.mk _ _ _ _ _ _
  congr 1
  exact take_emb _ _

theorem tight_den {S : CSC K} {m k : Nat} (v : S.Valid) (hk : S.n = k) : S.tight.den m k = S.den m k := by
  subst hk
  funext r c
  apply Finset.sum_congr rfl
  intro l hl
  have h1 : l < S.P S.n := v.lt_nnz c.2 (Finset.mem_Ico.1 hl).2
  show (if (((S.i.take (S.P S.n)).getD l 0).toNat = r.1) then (S.x.take (S.P S.n)).getD l 0 else 0) = _
  rw [getD_take _ _ h1, getD_take _ _ h1]
  rfl

theorem tight_sorted {S : CSC K} (v : S.Valid) (hs : S.Sorted) : S.tight.Sorted := by
  intro j hj k l hk hkl hl
  have h1 : l < S.P S.n := v.lt_nnz hj hl
  show (S.i.take (S.P S.n)).getD k 0 < (S.i.take (S.P S.n)).getD l 0
  rw [getD_take _ _ (by omega), getD_take _ _ h1]
  exact hs j hj k l hk hkl hl

theorem emb_valid_iff {S : CSC K} : S.emb.Valid ↔ S.Valid := by
  constructor
  · intro h
    exact { plen := h.plen, p0 := h.p0, mono := h.mono, nz := h.nz, ilen := h.ilen, xlen := by simpa [CSC.emb] using h.xlen, rows := h.rows }
  · intro h
    exact { plen := h.plen, p0 := h.p0, mono := h.mono, nz := h.nz, ilen := h.ilen, xlen := by simpa [CSC.emb] using h.xlen, rows := h.rows }

/-- C65 (exact arithmetic): a documented call with sparse matrices, sorted as MATLAB sorts them, is loaded exactly if `LᵀR + RᵀL` has an
entry larger than `1e-25` in absolute value and `lbL`, `lbR` have no entry `-∞`; and then the object holds the matrices of the call. -/
theorem C65_exact (E : MexEnv (Ext K)) (c : SpCall (Ext K) n) (hV : n.nV ≠ 0) (hC : n.nComp ≠ 0) (hk : c.OK)
    {p : Params (Ext K)} (hp : c.readParams E = .ok p) (hx : OptLen p.x0 n.nV) (hy : OptLen p.y0 (n.nV + n.nA))
    (Q L R : CSC K) (A : Option (CSC K)) (hQ : c.Q = Q.emb) (hL : c.L = L.emb) (hR : c.R = R.emb)
    (hA : c.lin.map (·.1) = A.map CSC.emb) (hsL : L.Sorted) (hsR : R.Sorted) :
    ((∃ o, mexLoad E c.prhs = .ok (n, p.opts, o)) ↔
      (∃ i j, 1 / 10 ^ 25 < |((L.den n.nComp n.nV)ᵀ * R.den n.nComp n.nV + (R.den n.nComp n.nV)ᵀ * L.den n.nComp n.nV) i j|) ∧
      ¬ (MinusInf c.lbL ∨ MinusInf c.lbR)) ∧
    ∀ o, mexLoad E c.prhs = .ok (n, p.opts, o) →
      HoldsMats o n (Q.den n.nV n.nV) (denOpt A n.nC n.nV) (L.den n.nComp n.nV) (R.den n.nComp n.nV) := by
  have vQ : Q.Valid := emb_valid_iff.1 (hQ ▸ hk.Q.1)
  have vL : L.Valid := emb_valid_iff.1 (hL ▸ hk.L.1)
  have vR : R.Valid := emb_valid_iff.1 (hR ▸ hk.R.1)
  have nQ : Q.n = n.nV := by have := hk.Q.2.2; rw [hQ] at this; exact this
  have mL : L.m = n.nComp := by have := hk.L.2.1; rw [hL] at this; exact this
  have nL : L.n = n.nV := by have := hk.L.2.2; rw [hL] at this; exact this
  have mR : R.m = n.nComp := by have := hk.R.2.1; rw [hR] at this; exact this
  have nR : R.n = n.nV := by have := hk.R.2.2; rw [hR] at this; exact this
  have tv : ∀ {S : CSC K}, S.Valid → S.tight.Valid := fun {S} v => (CSC.Is.tight ⟨v, rfl, rfl⟩).1
  obtain ⟨C, hCs, h⟩ := C65_outcome E c hV hC hk hp hx hy
  rw [hL, hR, tight_emb, tight_emb] at hCs
  have h4 := C04_symProdSparse L.tight R.tight (tv vL) (tv vR) (tight_sorted vL hsL) (tight_sorted vR hsR) n.nComp n.nV mL nL mR nR _ rfl
  rw [hCs, tight_den vL nL, tight_den vR nR] at h4
  constructor
  · rcases h4 with ⟨h4, h5⟩ | ⟨h4, S, h5, _⟩
    · injection h5 with h5
      constructor
      · rintro ⟨o, ho⟩
        rcases h with ⟨_, h⟩ | ⟨h, _⟩ | ⟨S, o', h, _⟩
        · rw [h] at ho; cases ho
        · exact absurd h5 h
        · rw [h5] at h; cases h
      · rintro ⟨⟨i, j, hij⟩, _⟩
        exact absurd (h4 i j) (not_le.2 hij)
    · injection h5 with h5
      constructor
      · rintro ⟨o, ho⟩
        rcases h with ⟨h, _⟩ | ⟨_, _, h⟩ | ⟨S', o', _, h, _⟩
        · rw [h5] at h; cases h
        · rw [h] at ho; cases ho
        · exact ⟨h4, h⟩
      · rintro ⟨_, hb⟩
        rcases h with ⟨h, _⟩ | ⟨_, h, _⟩ | ⟨S', o', _, _, h, _⟩
        · rw [h5] at h; cases h
        · exact absurd h hb
        · exact ⟨o', h⟩
  · intro o ho
    have hl := C65_load E c hV hC hk
    rw [ho, hp, mx_ok_bind] at hl
    have hn : (setOptions (Obj.new E.dflt n.nV n.nC n.nComp) p.opts).d.dims = some n := (new_eq E.dflt n hV hC).1
    cases hr : loadSparse E.e (setOptions (Obj.new E.dflt n.nV n.nC n.nComp) p.opts) (c.args p.x0 p.y0) with
    | error f => rw [hr] at hl; cases hl
    | ok r =>
      rw [hr, lift_ok, mx_ok_bind] at hl
      by_cases h0 : r.1.code ≠ 0
      · rw [if_pos h0] at hl; cases hl
      · rw [if_neg h0] at hl
        injection hl with hl
        injection hl with _ hl
        injection hl with _ hl
        obtain ⟨q, o'⟩ := r
        have h0 : q.code = 0 := not_not.1 h0
        have hq : q = .successfulReturn := by cases q <;> first | rfl | cases h0
        subst hq
        have hl : o = o' := hl
        subst hl
        have key := (C16_matrices E.e _ o n (c.args p.x0 p.y0) Q.tight L.tight R.tight
          (if n.nC = 0 then none else A.map CSC.tight) hn hV hC (spArgs_fits c hk hx hy)
          (by simp [SpCall.args, hQ, tight_emb]) (by simp [SpCall.args, hL, tight_emb]) (by simp [SpCall.args, hR, tight_emb])
          (by
            show (if n.nC = 0 then none else c.lin.map fun l => l.1.tight) = _
            by_cases h : n.nC = 0
            · rw [if_pos h, if_pos h]; rfl
            · rw [if_neg h, if_neg h]
              have : (c.lin.map (·.1)).map CSC.tight = (A.map CSC.emb).map CSC.tight := by rw [hA]
              rw [Option.map_map, Option.map_map] at this
              rw [Option.map_map]
              refine Eq.trans this ?_
              congr 1
              funext S
              exact tight_emb S)
          (tight_sorted vL hsL) (tight_sorted vR hsR) hr).1
        have hd : denOpt (if n.nC = 0 then none else A.map CSC.tight) n.nC n.nV = denOpt A n.nC n.nV := by
          cases A with
          | none => by_cases h : n.nC = 0 <;> simp [h]
          | some A =>
            cases hc : c.lin with
            | none => rw [hc] at hA; cases hA
            | some l =>
              have h0 : n.nC ≠ 0 := fun h => by rw [hk.lin.2 h] at hc; cases hc
              rw [hc] at hA
              injection hA with hA
              have hAl : l.1 = A.emb := hA
              have kA := hk.A l hc
              rw [hAl] at kA
              rw [if_neg h0]
              exact tight_den (emb_valid_iff.1 kA.1) kA.2.2
        rw [tight_den vQ nQ, tight_den vL nL, tight_den vR nR, hd] at key
        exact key

end exact

section mixed
variable {α : Type} [Scalar α] {n : Dims}

/-- the only undefined behaviour of `m` is a read or write outside of an array -/
def OnlyOob {σ : Type} (m : M σ) : Prop := ∀ f, m = .error f → f = .oob

theorem OnlyOob.bind {σ τ : Type} {m : M σ} {k : σ → M τ} (h : OnlyOob m) (hk : ∀ a, OnlyOob (k a)) : OnlyOob (m >>= k) := by
  intro f hf
  cases hm : m with
  | error f' =>
    rw [hm, error_bind] at hf
    injection hf with hf
    rw [← hf]
    exact h f' hm
  | ok a =>
    rw [hm, ok_bind] at hf
    exact hk a f hf

theorem OnlyOob.ok {σ : Type} (a : σ) : OnlyOob (.ok a : M σ) := by rintro f ⟨⟩

theorem rd_only {β : Type} (l : List β) (i : Nat) : OnlyOob (rd l i) := by
  intro f h
  rw [rd] at h
  split at h
  · cases h
  · injection h with h; exact h.symm

theorem wr_only {β : Type} (l : List β) (i : Nat) (v : β) : OnlyOob (wr l i v) := by
  intro f h
  rw [wr] at h
  split at h
  · cases h
  · injection h with h; exact h.symm

theorem argPr_only (prhs : List (Mx α)) (i : Nat) : OnlyOob (argPr prhs i) := by
  refine OnlyOob.bind (rd_only _ _) fun a f h => ?_
  cases a with
  | dbl => cases h
  | sparse => cases h
  | struct => cases h
  | logical r c l =>
    rw [Mx.pr] at h
    split at h
    · cases h
    · injection h with h; exact h.symm
  | other r c =>
    rw [Mx.pr] at h
    split at h
    · cases h
    · injection h with h; exact h.symm

theorem readMore_only (prhs : List (Mx α)) (nC : Nat) (v : Vecs α) : OnlyOob (readMore prhs nC v) := by
  rw [readMore]
  split
  · exact .bind (argPr_only _ _) fun _ => .bind (argPr_only _ _) fun _ => .ok _
  · split
    · refine .bind (argPr_only _ _) fun _ => .bind (argPr_only _ _) fun _ => ?_
      dsimp only
      split
      · exact .bind (argPr_only _ _) fun _ => .bind (argPr_only _ _) fun _ => .ok _
      · exact .ok _
    · exact .ok _

theorem readVectors_only (prhs : List (Mx α)) (nC : Nat) : OnlyOob (readVectors prhs nC) :=
  .bind (argPr_only _ _) fun _ => .bind (argPr_only _ _) fun _ => .bind (argPr_only _ _) fun _ => .bind (argPr_only _ _) fun _ =>
    .bind (argPr_only _ _) fun _ => readMore_only _ _ _

theorem colToRow_only (c r : List α) (m k : Nat) : OnlyOob (colToRow c r m k) := fun _ h =>
  loop_oob (fun _ _ _ h => loop_oob (fun _ _ _ h => OnlyOob.bind (rd_only _ _) (fun _ => wr_only _ _ _) _ h) _ h) _ h

theorem toRow_only (e : Env α) (site : Nat) (c : Option (List α)) (m k : Nat) : OnlyOob (toRow e site c m k) := by
  cases c with
  | none => exact .ok _
  | some c =>
    rw [toRow]
    split
    · exact .bind (colToRow_only _ _ _ _) fun _ => .ok _
    · exact .ok _

theorem colA_only (n : Dims) (prhs : List (Mx α)) : OnlyOob (colA n prhs) := by
  rw [colA]
  split
  · exact argPr_only _ _
  · exact .ok _

theorem denseArgs_only (e : Env α) (n : Dims) (prhs : List (Mx α)) (x0 y0 : Option (List α)) : OnlyOob (denseArgs e n prhs x0 y0) :=
  .bind (argPr_only _ _) fun _ => .bind (argPr_only _ _) fun _ => .bind (argPr_only _ _) fun _ => .bind (colA_only _ _) fun _ =>
    .bind (readVectors_only _ _) fun _ => .bind (toRow_only _ _ _ _ _) fun _ => .bind (toRow_only _ _ _ _ _) fun _ =>
    .bind (toRow_only _ _ _ _ _) fun _ => .ok _

theorem colToRow_len {c r r' : List α} {m k : Nat} (h : colToRow c r m k = .ok r') (hm : 0 < m) (hk : 0 < k) : m * k ≤ c.length := by
  obtain ⟨m, rfl⟩ := Nat.exists_eq_succ_of_ne_zero (show m ≠ 0 by omega)
  obtain ⟨k, rfl⟩ := Nat.exists_eq_succ_of_ne_zero (show k ≠ 0 by omega)
  rw [colToRow, loop, bind_eq_ok] at h
  obtain ⟨_, _, h⟩ := h
  rw [loop, bind_eq_ok] at h
  obtain ⟨_, _, h⟩ := h
  rw [bind_eq_ok] at h
  obtain ⟨v, h, _⟩ := h
  have hl : k * (m + 1) + m < c.length := by
    by_contra hc
    rw [rd, List.getElem?_eq_none (by simpa using hc)] at h
    cases h
  have : (m + 1) * (k + 1) = k * (m + 1) + m + 1 := by rw [Nat.mul_comm]; rw [Nat.add_mul]; omega
  simp only [Nat.succ_eq_add_one]
  omega

theorem toRow_len {e : Env α} {site : Nat} {c : List α} {r : Option (List α)} {m k : Nat} (h : toRow e site (some c) m k = .ok r) (hm : 0 < m)
    (hk : 0 < k) : m * k ≤ c.length := by
  rw [toRow, if_pos ⟨hm, hk⟩, bind_eq_ok] at h
  obtain ⟨r', h, _⟩ := h
  exact colToRow_len h hm hk

theorem argPr_sparse {prhs : List (Mx α)} {i : Nat} {S : CSC α} (h : prhs[i]? = some (.sparse S)) (hs : S.x ≠ []) :
    argPr prhs i = .ok (some S.x) := by
  rw [argPr, arg, rd, h]
  show Mx.pr (.sparse S) = _
  rw [Mx.pr, if_neg (by simpa using hs)]

theorem mexDims_A {prhs : List (Mx α)} (hd : mexDims prhs = .ok n) (h0 : 0 < n.nC) : ∃ A, prhs[8]? = some A := by
  rw [mexDims, mx_bind_ok] at hd
  obtain ⟨q, _, hd⟩ := hd
  split at hd
  · cases hd
  rw [mx_bind_ok] at hd
  obtain ⟨l, _, hd⟩ := hd
  split at hd
  · cases hd
  rw [mx_bind_ok] at hd
  obtain ⟨c, hc, hd⟩ := hd
  injection hd with hd
  subst hd
  rw [mexNC] at hc
  split at hc
  · rw [mx_bind_ok] at hc
    obtain ⟨a, ha, _⟩ := hc
    rw [lift_eq_ok, arg, rd] at ha
    cases h8 : prhs[8]? with
    | none => rw [h8] at ha; cases ha
    | some A => exact ⟨A, rfl⟩
  · injection hc with hc
    rw [← hc] at h0
    exact absurd h0 (by simp)

/-- C65 (any arithmetic): if `Q` is sparse, the other matrices must be sparse, else the load is refused. -/
theorem C65_refused (E : MexEnv α) (prhs : List (Mx α)) (hlen : ¬ (prhs.length < 8 ∨ 14 < prhs.length)) (hd : mexDims prhs = .ok n)
    (hc : mexChecks prhs n = .ok ()) {p : Params α} (hp : mexParams E n prhs = .ok p) {Q L R : Mx α} (hQ : prhs[0]? = some Q)
    (hL : prhs[2]? = some L) (hR : prhs[3]? = some R) (sQ : Q.isSparse = true)
    (h : L.isSparse = false ∨ R.isSparse = false ∨ (0 < n.nC ∧ ∃ A, prhs[8]? = some A ∧ A.isSparse = false)) :
    mexLoad E prhs = .error (.load 1) := by
  have aQ : argSparse prhs 0 = .ok true := by simp [argSparse, arg, rd, hQ, sQ]
  have aL : argSparse prhs 2 = .ok L.isSparse := by simp [argSparse, arg, rd, hL]
  have aR : argSparse prhs 3 = .ok R.isSparse := by simp [argSparse, arg, rd, hR]
  have key : allSparse n prhs = .ok false := by
    rw [allSparse, aQ, ok_bind, aL, ok_bind, aR, ok_bind, sparseA]
    by_cases h0 : 0 < n.nC
    · obtain ⟨A, hA⟩ := mexDims_A hd h0
      have aA : argSparse prhs 8 = .ok A.isSparse := by simp [argSparse, arg, rd, hA]
      rw [if_pos h0, aA, ok_bind]
      rcases h with h | h | ⟨_, A', hA', h⟩
      · simp [h]
      · simp [h]
      · rw [hA] at hA'
        injection hA' with hA'
        simp [hA', h]
    · rw [if_neg h0, ok_bind]
      rcases h with h | h | ⟨h, _⟩
      · simp [h]
      · simp [h]
      · exact absurd h h0
  rw [mexLoad, if_neg hlen, hd, mx_ok_bind, hc, mx_ok_bind]
  simp only [hp, mx_ok_bind, mexData, aQ, lift_ok, if_true, mexSparse, key, Bool.not_false, mx_error_bind]

/-- C65 (any arithmetic, a defect): a sparse `L`, `R` or `A` next to a full `Q` passes the checks and is then read as if it were full:
with fewer stored entries than a full matrix has, the interface reads past the end of the array. -/
theorem C65_mixed (E : MexEnv α) (prhs : List (Mx α)) (hlen : ¬ (prhs.length < 8 ∨ 14 < prhs.length)) (hd : mexDims prhs = .ok n)
    (hc : mexChecks prhs n = .ok ()) {p : Params α} (hp : mexParams E n prhs = .ok p) {Q : Mx α} (hQ : prhs[0]? = some Q)
    (sQ : Q.isSparse = false) {S : CSC α} (hx : S.x ≠ [])
    (h : (prhs[2]? = some (.sparse S) ∧ S.x.length < n.nComp * n.nV) ∨ (prhs[3]? = some (.sparse S) ∧ S.x.length < n.nComp * n.nV) ∨
      (prhs[8]? = some (.sparse S) ∧ S.x.length < n.nC * n.nV)) :
    mexLoad E prhs = .error (.fault .oob) := by
  obtain ⟨hV, hC⟩ := mexDims_pos hd
  have aQ : argSparse prhs 0 = .ok false := by simp [argSparse, arg, rd, hQ, sQ]
  have key : denseArgs E.e n prhs p.x0 p.y0 = .error .oob := by
    cases ha : denseArgs E.e n prhs p.x0 p.y0 with
    | error f => rw [denseArgs_only _ _ _ _ _ f ha]
    | ok a =>
      exfalso
      simp only [denseArgs, bind_eq_ok] at ha
      obtain ⟨_, _, Lc, hL, Rc, hR, Ac, hA, v, _, L, hL', R, hR', A, hA', _⟩ := ha
      rcases h with ⟨h, hs⟩ | ⟨h, hs⟩ | ⟨h, hs⟩
      · rw [argPr_sparse h hx] at hL
        injection hL with hL
        rw [← hL] at hL'
        have := toRow_len hL' (by omega) (by omega)
        omega
      · rw [argPr_sparse h hx] at hR
        injection hR with hR
        rw [← hR] at hR'
        have := toRow_len hR' (by omega) (by omega)
        omega
      · have h0 : 0 < n.nC := by
          by_contra h0
          rw [show n.nC = 0 by omega, Nat.zero_mul] at hs
          omega
        rw [colA, if_pos h0, argPr_sparse h hx] at hA
        injection hA with hA
        rw [← hA] at hA'
        have := toRow_len hA' h0 (by omega)
        omega
  rw [mexLoad, if_neg hlen, hd, mx_ok_bind, hc, mx_ok_bind]
  simp only [hp, mx_ok_bind, mexData, aQ, lift_ok, mexDense, key, lift_error, mx_error_bind, if_neg (show ¬ false = true by simp)]

/-- another array as second argument -/
theorem set1_arg (prhs : List (Mx α)) (a b : Mx α) {k : Nat} (hk : k ≠ 1) : arg (prhs.set 1 a) k = arg (prhs.set 1 b) k := by
  simp only [arg, rd, List.getElem?_set_ne (show 1 ≠ k by omega)]

theorem set1_pr (prhs : List (Mx α)) (hlen : 8 ≤ prhs.length) (b : Mx α) : argPr (prhs.set 1 b) 1 = b.pr := by
  rw [argPr, arg, rd, List.getElem?_set_self (by omega)]
  rfl

theorem set1_readMore (prhs : List (Mx α)) (a b : Mx α) (nC : Nat) (v : Vecs α) :
    readMore (prhs.set 1 b) nC v = readMore (prhs.set 1 a) nC v := by
  have h : ∀ k, k ≠ 1 → argPr (prhs.set 1 b) k = argPr (prhs.set 1 a) k := fun k hk => by
    rw [argPr, argPr, set1_arg prhs b a hk]
  simp only [readMore, List.length_set, h 8 (by omega), h 9 (by omega), h 10 (by omega), h 11 (by omega), h 12 (by omega)]

theorem readMore_g (prhs : List (Mx α)) (nC : Nat) (v : Vecs α) (g : Option (List α)) :
    readMore prhs nC { v with g := g } = (readMore prhs nC v).map fun w => { w with g := g } := by
  rw [readMore, readMore]
  split
  · cases argPr prhs 8 <;> cases argPr prhs 9 <;> rfl
  · split
    · cases argPr prhs 9 with
      | error f => rfl
      | ok l =>
        cases argPr prhs 10 with
        | error f => rfl
        | ok u =>
          simp only [ok_bind]
          split
          · cases argPr prhs 11 <;> cases argPr prhs 12 <;> rfl
          · rfl
    · rfl

theorem set1_vectors {prhs : List (Mx α)} (hlen : 8 ≤ prhs.length) {a b : Mx α} {nC : Nat} {v : Vecs α} {g : Option (List α)}
    (h : readVectors (prhs.set 1 a) nC = .ok v) (hb : b.pr = .ok g) : readVectors (prhs.set 1 b) nC = .ok { v with g := g } := by
  have e : ∀ k, k ≠ 1 → argPr (prhs.set 1 b) k = argPr (prhs.set 1 a) k := fun k hk => by
    rw [argPr, argPr, set1_arg prhs b a hk]
  simp only [readVectors, bind_eq_ok] at h
  obtain ⟨g', hg, lL, h1, uL, h2, lR, h3, uR, h4, h⟩ := h
  simp only [readVectors, set1_pr prhs hlen, hb, ok_bind, e 4 (by omega), e 5 (by omega), e 6 (by omega), e 7 (by omega), h1, h2, h3, h4,
    set1_readMore prhs a b]
  have := readMore_g (prhs.set 1 a) nC { g := g', lbL := lL, ubL := uL, lbR := lR, ubR := uR } g
  rw [h] at this
  exact this

theorem set1_dense {e : Env α} {prhs : List (Mx α)} (hlen : 8 ≤ prhs.length) {a b : Mx α} {x0 y0 g : Option (List α)} {r : DenseArgs α}
    (h : denseArgs e n (prhs.set 1 a) x0 y0 = .ok r) (hb : b.pr = .ok g) :
    denseArgs e n (prhs.set 1 b) x0 y0 = .ok { r with g := g } := by
  have e' : ∀ k, k ≠ 1 → argPr (prhs.set 1 b) k = argPr (prhs.set 1 a) k := fun k hk => by
    rw [argPr, argPr, set1_arg prhs b a hk]
  have eA : colA n (prhs.set 1 b) = colA n (prhs.set 1 a) := by simp only [colA, e' 8 (by omega)]
  simp only [denseArgs, bind_eq_ok] at h
  obtain ⟨Q, hQ, Lc, hL, Rc, hR, Ac, hA, v, hv, L, hL', R, hR', A, hA', h⟩ := h
  injection h with h
  simp only [denseArgs, e' 0 (by omega), e' 2 (by omega), e' 3 (by omega), eA, hQ, hL, hR, hA, ok_bind, set1_vectors hlen hv hb, hL', hR',
    hA']
  rw [← h]

theorem set1_sparse {prhs : List (Mx α)} (hlen : 8 ≤ prhs.length) {a b : Mx α} {x0 y0 g : Option (List α)} {r : SparseArgs α}
    (h : sparseArgs n (prhs.set 1 a) x0 y0 = .ok r) (hb : b.pr = .ok g) :
    sparseArgs n (prhs.set 1 b) x0 y0 = .ok { r with g := g } := by
  have e' : ∀ k, k ≠ 1 → arg (prhs.set 1 b) k = arg (prhs.set 1 a) k := fun k hk => set1_arg prhs b a hk
  have eA : readA n (prhs.set 1 b) = readA n (prhs.set 1 a) := by simp only [readA, e' 8 (by omega)]
  simp only [sparseArgs, bind_eq_ok] at h
  obtain ⟨q, hq, Q, hQ, l, hl, L, hL, r', hr, R, hR, A, hA, v, hv, h⟩ := h
  injection h with h
  simp only [sparseArgs, e' 0 (by omega), e' 2 (by omega), e' 3 (by omega), eA, hq, hl, hr, hQ, hL, hR, hA, ok_bind, set1_vectors hlen hv hb]
  rw [← h]

theorem setG_short {d : Data α} {g : List α} (hn : d.dims = some n) (hV : n.nV ≠ 0) (hg : g.length < n.nV) :
    setG d (some g) = .error .oob := by
  rw [setG, hn, initd_some, ok_bind, if_neg hV]
  show (do let g ← copyN g n.nV; _ : M _) = _
  rw [copyN, if_neg (by omega)]
  rfl

/-- C65 (any arithmetic, a defect): a sparse vector passes the checks and is then read as if it were full.  If a call with a full `g`
is loaded, the same call with a sparse `g` with fewer stored entries reads past the end of the array. -/
theorem C65_vector (E : MexEnv α) (prhs : List (Mx α)) {g : Fin n.nV → α} {q : Options α} {o : Obj α}
    (h : mexLoad E (prhs.set 1 (column (some g))) = .ok (n, q, o)) (S : CSC α) (hm : S.m = n.nV) (h1 : S.n = 1) (hx : S.x ≠ [])
    (hs : S.x.length < n.nV) : mexLoad E (prhs.set 1 (.sparse S)) = .error (.fault .oob) := by
  have hl : ¬ (prhs.length < 8 ∨ 14 < prhs.length) := by
    intro hl
    rw [mexLoad, List.length_set, if_pos hl] at h
    cases h
  have hlen : 8 ≤ prhs.length := by omega
  rw [mexLoad, List.length_set, if_neg hl] at h
  simp only [mx_bind_ok] at h
  obtain ⟨n', hn, _, hc, p, hp, o', ho, h⟩ := h
  injection h with h
  injection h with h1' h
  subst h1'
  obtain ⟨hV, hC⟩ := mexDims_pos hn
  have e' : ∀ k, k ≠ 1 → arg (prhs.set 1 (.sparse S)) k = arg (prhs.set 1 (column (some g))) k := fun k hk => set1_arg prhs _ _ hk
  have h10 : (prhs.set 1 (Mx.sparse S))[10]? = (prhs.set 1 (column (some g)))[10]? := by
    rw [List.getElem?_set_ne (by omega), List.getElem?_set_ne (by omega)]
  have hs10 : tenIsStruct (prhs.set 1 (.sparse S)) = tenIsStruct (prhs.set 1 (column (some g))) := by rw [tenIsStruct, h10]; rfl
  have hd10 : tenIsDouble (prhs.set 1 (.sparse S)) = tenIsDouble (prhs.set 1 (column (some g))) := by rw [tenIsDouble, h10]; rfl
  have a1 : arg (prhs.set 1 (.sparse S)) 1 = .ok (.sparse S) := by rw [arg, rd, List.getElem?_set_self (by omega)]
  have a2 : arg (prhs.set 1 (column (some g))) 1 = .ok (column (some g)) := by rw [arg, rd, List.getElem?_set_self (by omega)]
  have c1 : checkDouble (Mx.sparse S) n'.nV 1 "g" false = .ok () := by
    simp [checkDouble, Mx.isDouble, Mx.rows, Mx.cols, hm, h1]
  have kd : mexDims (prhs.set 1 (.sparse S)) = .ok n' := by
    rw [← hn]
    simp only [mexDims, mexNC, hs10, List.length_set, e' 0 (by omega), e' 2 (by omega), e' 8 (by omega)]
  have kc : mexChecks (prhs.set 1 (.sparse S)) n' = .ok () := by
    rw [← hc]
    simp only [mexChecks, checkArg, checkBox, checkLin, checkParams, hs10, hd10, List.length_set, e' 0 (by omega), a1, a2, lift_ok, mx_ok_bind,
      c1, checkDouble_some, e' 2 (by omega),
      e' 3 (by omega), e' 8 (by omega), e' 9 (by omega), e' (8 + 1) (by omega), e' 10 (by omega), e' 11 (by omega), e' 12 (by omega),
      e' (11 + 1) (by omega), e' 13 (by omega)]
  have ki : paramsIdx (prhs.set 1 (.sparse S)) = paramsIdx (prhs.set 1 (column (some g))) := by
    simp only [paramsIdx, List.length_set, hd10]
  have kp : mexParams E n' (prhs.set 1 (.sparse S)) = .ok p := by
    rw [← hp, mexParams, mexParams, ki]
    cases hi : paramsIdx (prhs.set 1 (column (some g))) with
    | none => rfl
    | some i =>
      have : i ≠ 1 := by
        rw [paramsIdx] at hi
        (repeat' split at hi) <;> first | (injection hi with hi; omega) | cases hi
      simp only [e' i this]
  have hb : (Mx.sparse S).pr = .ok (some S.x) := by rw [Mx.pr, if_neg (by simpa using hx)]
  have hdim : (setOptions (Obj.new E.dflt n'.nV n'.nC n'.nComp) p.opts).d.dims = some n' := (new_eq E.dflt n' hV hC).1
  have key : mexData E.e (setOptions (Obj.new E.dflt n'.nV n'.nC n'.nComp) p.opts) n' (prhs.set 1 (.sparse S)) p.x0 p.y0 =
      .error (.fault .oob) := by
    rw [mexData, mx_bind_ok] at ho
    obtain ⟨b, hb', ho⟩ := ho
    have s0 : ∀ k, k ≠ 1 → argSparse (prhs.set 1 (.sparse S)) k = argSparse (prhs.set 1 (column (some g))) k := fun k hk => by
      rw [argSparse, argSparse, e' k hk]
    rw [mexData, s0 0 (by omega), hb', mx_ok_bind]
    cases b with
    | true =>
      rw [if_pos rfl, mexSparse, mx_bind_ok] at ho
      obtain ⟨t, ht, ho⟩ := ho
      have ka : allSparse n' (prhs.set 1 (.sparse S)) = allSparse n' (prhs.set 1 (column (some g))) := by
        simp only [allSparse, sparseA, s0 0 (by omega), s0 2 (by omega), s0 3 (by omega), s0 8 (by omega)]
      rw [if_pos rfl, mexSparse, ka, ht, mx_ok_bind]
      split at ho
      · cases ho
      rename_i hnt
      rw [if_neg hnt]
      simp only [mx_bind_ok, lift_eq_ok] at ho
      obtain ⟨r, hr, w, hw, ho⟩ := ho
      rw [set1_sparse hlen hr hb, lift_ok, mx_ok_bind]
      split at ho
      · cases ho
      rename_i hc0
      have hw0 : w.1 = .successfulReturn := code_zero (by simpa using hc0)
      obtain ⟨w1, w2⟩ := w
      simp only at hw0
      subst hw0
      rw [loadSparse] at hw
      obtain ⟨d1, k1, _⟩ := thenData_inv hw
      have hn1 : d1.dims = some n' := by rw [(setQs_keep k1).dims, hdim]
      have : loadSparse E.e (setOptions (Obj.new E.dflt n'.nV n'.nC n'.nComp) p.opts) { r with g := some S.x } = .error .oob := by
        rw [loadSparse]
        dsimp only
        rw [thenData, k1, ok_bind, if_neg (by simp), thenData, setG_short hn1 hV hs]
        rfl
      rw [this]
      rfl
    | false =>
      rw [if_neg (by simp)] at ho ⊢
      simp only [mexDense, mx_bind_ok, lift_eq_ok] at ho
      obtain ⟨r, hr, w, hw, ho⟩ := ho
      rw [mexDense, set1_dense hlen hr hb, lift_ok, mx_ok_bind]
      split at ho
      · cases ho
      rename_i hc0
      obtain ⟨w1, w2⟩ := w
      have hw0 : w1 = .successfulReturn := by simpa using hc0
      subst hw0
      rw [loadDense, hdim, initd_some, ok_bind, if_neg (by simp [hV, hC])] at hw
      obtain ⟨d1, k1, _⟩ := thenData_inv hw
      have hn1 : d1.dims = some n' := by rw [(setQ_keep k1).dims, hdim]
      have : loadDense E.e (setOptions (Obj.new E.dflt n'.nV n'.nC n'.nComp) p.opts) { r with g := some S.x } = .error .oob := by
        rw [loadDense, hdim, initd_some, ok_bind, if_neg (by simp [hV, hC])]
        dsimp only
        rw [thenData, k1, ok_bind, if_neg (by simp), thenData, setG_short hn1 hV hs]
        rfl
      rw [this]
      rfl
  rw [mexLoad, List.length_set, if_neg hl, kd, mx_ok_bind, kc, mx_ok_bind]
  simp only [kp, mx_ok_bind, key, mx_error_bind]

theorem setTmp_lb {d d' : Data α} {l : List α} {u : Option (List α)} (hn : d.dims = some n) (h : setTmp d (some l) u = .ok d') :
    n.nV ≤ l.length := by
  simp only [setTmp, hn, initd_some, ok_bind, copyOpt, copyN, bind_eq_ok] at h
  obtain ⟨_, ⟨w, h, _⟩, _⟩ := h
  by_contra hc
  rw [if_neg hc] at h
  cases h

/-- C65 (any arithmetic, a defect): in a call with 11 arguments and an empty matrix `A` the ninth argument, which is `A`, is taken for
`lb`.  MATLAB keeps storage for at least one entry of a sparse matrix, so with a sparse `A` the call is only loaded if that
storage happens to be as long as `lb`. -/
theorem C65_emptyA (E : MexEnv α) (prhs : List (Mx α)) {q : Options α} {o : Obj α} (h : mexLoad E prhs = .ok (n, q, o))
    (h11 : prhs.length = 11) (h0 : n.nC = 0) {S : CSC α} (h8 : prhs[8]? = some (.sparse S)) (hx : S.x ≠ []) : n.nV ≤ S.x.length := by
  rw [mexLoad, if_neg (by omega)] at h
  simp only [mx_bind_ok] at h
  obtain ⟨n', hn, _, hc, p, hp, o', ho, h⟩ := h
  injection h with h
  injection h with h1' h
  subst h1'
  obtain ⟨hV, hC⟩ := mexDims_pos hn
  have hdim : (setOptions (Obj.new E.dflt n'.nV n'.nC n'.nComp) p.opts).d.dims = some n' := (new_eq E.dflt n' hV hC).1
  have hv : ∀ v, readVectors prhs n'.nC = .ok v → v.lb = some S.x := by
    intro v hv
    simp only [readVectors, bind_eq_ok] at hv
    obtain ⟨g', _, lL, _, uL, _, lR, _, uR, _, hv⟩ := hv
    rw [readMore, if_pos (.inr ⟨h11, h0⟩), argPr_sparse h8 hx, ok_bind, bind_eq_ok] at hv
    obtain ⟨u, _, hv⟩ := hv
    injection hv with hv
    rw [← hv]
  rw [mexData, mx_bind_ok] at ho
  obtain ⟨b, _, ho⟩ := ho
  cases b with
  | true =>
    rw [if_pos rfl, mexSparse, mx_bind_ok] at ho
    obtain ⟨t, ht, ho⟩ := ho
    split at ho
    · cases ho
    simp only [mx_bind_ok, lift_eq_ok] at ho
    obtain ⟨r, hr, w, hw, ho⟩ := ho
    split at ho
    · cases ho
    rename_i hc0
    have hw0 : w.1 = .successfulReturn := code_zero (by simpa using hc0)
    obtain ⟨w1, w2⟩ := w
    simp only at hw0
    subst hw0
    simp only [sparseArgs, bind_eq_ok] at hr
    obtain ⟨_, _, _, _, _, _, _, _, _, _, _, _, _, _, v, hv', hr⟩ := hr
    injection hr with hr
    have hlb : r.lb = some S.x := by rw [← hr]; exact hv v hv'
    rw [loadSparse] at hw
    obtain ⟨d1, k1, hw⟩ := thenData_inv hw
    obtain ⟨d2, k2, hw⟩ := thenData_inv hw
    obtain ⟨d3, k3, hw⟩ := thenData_inv hw
    obtain ⟨d4, k4, hw⟩ := thenData_inv hw
    obtain ⟨s, k5, hw⟩ := thenSt_succ hw
    rw [bind_eq_ok, hlb] at hw
    obtain ⟨d6, k6, _⟩ := hw
    exact setTmp_lb (by rw [(setCompBounds_keep k4).dims, (setConstraintsSparse_keep k3).dims, (setG_keep k2).dims, (setQs_keep k1).dims, hdim]) k6
  | false =>
    rw [if_neg (by simp)] at ho
    simp only [mexDense, mx_bind_ok, lift_eq_ok] at ho
    obtain ⟨r, hr, w, hw, ho⟩ := ho
    split at ho
    · cases ho
    rename_i hc0
    obtain ⟨w1, w2⟩ := w
    have hw0 : w1 = .successfulReturn := by simpa using hc0
    subst hw0
    simp only [denseArgs, bind_eq_ok] at hr
    obtain ⟨_, _, _, _, _, _, _, _, v, hv', _, _, _, _, _, _, hr⟩ := hr
    injection hr with hr
    have hlb : r.lb = some S.x := by rw [← hr]; exact hv v hv'
    rw [loadDense, hdim, initd_some, ok_bind, if_neg (by simp [hV, hC])] at hw
    obtain ⟨d1, k1, hw⟩ := thenData_inv hw
    obtain ⟨d2, k2, hw⟩ := thenData_inv hw
    rw [bind_eq_ok, hlb] at hw
    obtain ⟨d6, k6, _⟩ := hw
    exact setTmp_lb (by rw [(setG_keep k2).dims, (setQ_keep k1).dims, hdim]) k6

end mixed

namespace Ex

/-- `diag(2, 2)` -/
def spQ : CSC ℚ := createCSC 2 2 2 [2, 2] [0, 1] [0, 1, 2]
/-- `[1 0]` -/
def spL : CSC ℚ := createCSC 1 2 1 [1] [0] [0, 1, 1]
/-- `[0 1]`, with room for a second entry -/
def spR : CSC ℚ := createCSC 1 2 2 [1, 7] [0, 0] [0, 0, 1]
/-- `[1 1]` -/
def spA : CSC ℚ := createCSC 1 2 2 [1, 1] [0, 0] [0, 1, 2]

/-- the warm-up example with sparse matrices, one linear constraint, and different bounds everywhere -/
def spCall : SpCall (Ext ℚ) ⟨2, 1, 1⟩ where
  Q := spQ.emb
  g := ![.fin (-2), .fin (-3)]
  L := spL.emb
  R := spR.emb
  ubL := some ![.fin 11]
  ubR := some ![.fin 12]
  lin := some (spA.emb, some ![.fin 13], some ![.fin 14])
  box := some (some ![.fin 15, .fin 16], some ![.fin 17, .fin 18])

theorem spCall_ok : spCall.OK where
  Q := ⟨emb_valid_iff.2 { plen := rfl, p0 := rfl, mono := by decide, nz := by decide, ilen := by decide, xlen := by decide, rows := by decide }, rfl, rfl⟩
  L := ⟨emb_valid_iff.2 { plen := rfl, p0 := rfl, mono := by decide, nz := by decide, ilen := by decide, xlen := by decide, rows := by decide }, rfl, rfl⟩
  R := ⟨emb_valid_iff.2 { plen := rfl, p0 := rfl, mono := by decide, nz := by decide, ilen := by decide, xlen := by decide, rows := by decide }, rfl, rfl⟩
  A := by
    rintro l ⟨⟩
    exact ⟨emb_valid_iff.2 { plen := rfl, p0 := rfl, mono := by decide, nz := by decide, ilen := by decide, xlen := by decide, rows := by decide }, rfl, rfl⟩
  lin := by simp [spCall]

/-- C65: the call is loaded -/
theorem spCall_loads : ∃ o, mexLoad (mex qpGood) spCall.prhs = .ok (⟨2, 1, 1⟩, opts, o) ∧ spCall.Held o := by
  obtain ⟨C, hC, h⟩ := C65_outcome (mex qpGood) spCall (by decide) (by decide) spCall_ok (p := { opts := opts }) rfl (by rintro v ⟨⟩) (by rintro v ⟨⟩)
  rcases h with ⟨h, _⟩ | ⟨_, h, _⟩ | ⟨S, o, _, _, h, h', _⟩
  · exfalso
    subst h
    revert hC
    decide +kernel
  · rcases h with ⟨w, h, _⟩ | ⟨w, h, _⟩ <;> cases h
  · exact ⟨o, h, h'⟩

theorem spL_sorted : spL.Sorted := by
  intro j hj k l h1 h2 h3
  have hP : ∀ j < 2, spL.P (j + 1) ≤ spL.P j + 1 := by decide
  have := hP j hj
  omega

theorem spR_sorted : spR.Sorted := by
  intro j hj k l h1 h2 h3
  have hP : ∀ j < 2, spR.P (j + 1) ≤ spR.P j + 1 := by decide
  have := hP j hj
  omega

/-- C65: the matrices held after this call, and what the equivalence of `C65_exact` says about it -/
example : (∃ o, mexLoad (mex qpGood) spCall.prhs = .ok (⟨2, 1, 1⟩, opts, o) ∧
      HoldsMats o ⟨2, 1, 1⟩ (spQ.den 2 2) (denOpt (some spA) 1 2) (spL.den 1 2) (spR.den 1 2)) ∧
    ∃ i j, 1 / 10 ^ 25 < |((spL.den 1 2)ᵀ * spR.den 1 2 + (spR.den 1 2)ᵀ * spL.den 1 2) i j| := by
  obtain ⟨h, h'⟩ := C65_exact (mex qpGood) spCall (by decide) (by decide) spCall_ok (p := { opts := opts }) rfl (by rintro v ⟨⟩)
    (by rintro v ⟨⟩) spQ spL spR (some spA) rfl rfl rfl rfl spL_sorted spR_sorted
  obtain ⟨o, ho, _⟩ := spCall_loads
  exact ⟨⟨o, ho, h' o ho⟩, (h.1 ⟨o, ho⟩).1⟩

/-- C65: the same, computed -/
example : (mexLoad (mex qpGood) spCall.prhs).map (fun r => (r.2.2.d.lbTmp, r.2.2.d.ubTmp)) = .ok (some (emb [15, 16]), some (emb [17, 18])) ∧
    (mexLoad (mex qpGood) spCall.prhs).map (fun r => (r.2.2.d.lbA, r.2.2.d.ubA)) = .ok (some (emb [13, 0, 0]), some (emb [14, 11, 12])) ∧
    (mexLoad (mex qpGood) spCall.prhs).map (fun r => r.2.2.d.Rs.map (·.x)) = .ok (some [.fin 1]) := by
  refine ⟨?_, ?_, ?_⟩ <;> decide +kernel

/-- C65: sparse `Q`, full `L` -/
example : (mexLoad (mex qpGood) (spCall.prhs.set 2 (.dbl 1 2 (emb [1, 0])))).map (fun _ => ()) = .error (.load 1) := by
  decide +kernel

/-- C65: full `Q`, sparse `L`, `R`, `A` one after the other; a full pattern would be read correctly -/
example : (mexLoad (mex qpGood) (spCall.prhs.set 0 (.dbl 2 2 (emb [2, 0, 0, 2])))).map (fun _ => ()) = .error (.fault .oob) ∧
    (mexLoad (mex qpGood) (((spCall.prhs.set 0 (.dbl 2 2 (emb [2, 0, 0, 2]))).set 2 (.dbl 1 2 (emb [1, 0]))).set 3
      (.dbl 1 2 (emb [0, 1])))).map (fun _ => ()) = .ok () := by
  refine ⟨?_, ?_⟩ <;> decide +kernel

/-- C65: sparse `g` -/
example : (mexLoad (mex qpGood) (spCall.prhs.set 1 (.sparse (createCSC 2 1 1 (emb [-2]) [0] [0, 1])))).map (fun _ => ()) =
    .error (.fault .oob) := by
  decide +kernel

/-- C65: a sparse `A` without rows, in a call with 11 arguments -/
example : (mexLoad (mex qpGood) (spCall.prhs.take 8 ++ [.sparse (createCSC 0 2 1 (emb [0]) [0] [0, 0, 0]), .dbl 0 0 [], .dbl 0 0 []])).map
      (fun _ => ()) = .error (.fault .oob) ∧
    (mexLoad (mex qpGood) (spCall.prhs.take 8 ++ [.dbl 0 2 [], .dbl 0 0 [], .dbl 0 0 []])).map (fun _ => ()) = .ok () := by
  refine ⟨?_, ?_⟩ <;> decide +kernel

end Ex
end LCQ
