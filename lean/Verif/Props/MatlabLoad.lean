import Verif.Props.Matlab
import Verif.Props.Files
import Verif.Props.Choice
import Verif.Props.Safety
import Verif.Props.Run

/-!
# C50-C53: arguments and results of the MATLAB interface
-/

namespace LCQ
open Scalar
open scoped Matrix

section call
variable {α : Type} [Scalar α] {n : Dims}

/-- a full MATLAB matrix -/
def full {β : Type} {m k : Nat} (A : Matrix (Fin m) (Fin k) β) : Mx β := .dbl m k (colMajor A)

/-- a MATLAB column vector, or `[]` -/
def column {β : Type} {k : Nat} : Option (Fin k → β) → Mx β
  | some v => .dbl k 1 (List.ofFn v)
  | none => .dbl 0 0 []

/-- The calls which the documentation of LCQPow.m describes, with full arrays: `lin` are `A, lbA, ubA`, `box` are `lb, ub`. -/
structure MexCall (α : Type) (n : Dims) where
  /-- Q -/
  Q : Matrix (Fin n.nV) (Fin n.nV) α
  /-- g -/
  g : Fin n.nV → α
  /-- L -/
  L : Matrix (Fin n.nComp) (Fin n.nV) α
  /-- R -/
  R : Matrix (Fin n.nComp) (Fin n.nV) α
  /-- lbL -/
  lbL : Option (Fin n.nComp → α) := none
  /-- ubL -/
  ubL : Option (Fin n.nComp → α) := none
  /-- lbR -/
  lbR : Option (Fin n.nComp → α) := none
  /-- ubR -/
  ubR : Option (Fin n.nComp → α) := none
  /-- A, lbA, ubA -/
  lin : Option (Matrix (Fin n.nC) (Fin n.nV) α × Option (Fin n.nC → α) × Option (Fin n.nC → α)) := none
  /-- lb, ub -/
  box : Option (Option (Fin n.nV → α) × Option (Fin n.nV → α)) := none
  /-- params -/
  params : Option (List (String × Mx α)) := none

/-- the argument list of a call -/
def MexCall.prhs (c : MexCall α n) : List (Mx α) :=
  [full c.Q, column (some c.g), full c.L, full c.R, column c.lbL, column c.ubL, column c.lbR, column c.ubR] ++
  (match c.lin with
    | some (A, l, u) => [full A, column l, column u]
    | none => []) ++
  (match c.box with
    | some (l, u) => [column l, column u]
    | none => []) ++
  (match c.params with
    | some fs => [Mx.struct fs]
    | none => [])

/-- the array of a vector argument; MATLAB has no data for an empty vector -/
def vecArg {β : Type} {k : Nat} (v : Option (Fin k → β)) : Option (List β) :=
  if k = 0 then none else v.map List.ofFn

/-- What the dense loader should be called with, except that it gets the transpose of `Q`. -/
def MexCall.args (c : MexCall α n) (x0 y0 : Option (List α)) : DenseArgs α where
  Q := some (rowMajor c.Qᵀ)
  g := some (List.ofFn c.g)
  L := some (rowMajor c.L)
  R := some (rowMajor c.R)
  lbL := vecArg c.lbL
  ubL := vecArg c.ubL
  lbR := vecArg c.lbR
  ubR := vecArg c.ubR
  A := if n.nC = 0 then none else c.lin.map fun l => rowMajor l.1
  lbA := c.lin.bind fun l => vecArg l.2.1
  ubA := c.lin.bind fun l => vecArg l.2.2
  lb := c.box.bind fun b => vecArg b.1
  ub := c.box.bind fun b => vecArg b.2
  x0 := x0
  y0 := y0

theorem full_pr {m k : Nat} (A : Matrix (Fin m) (Fin k) α) : (full A).pr = .ok (if k * m = 0 then none else some (colMajor A)) := by
  rw [full, Mx.pr]
  congr 1
  by_cases h : k * m = 0
  · rw [if_pos h, if_pos]
    rw [List.isEmpty_iff, ← List.length_eq_zero_iff, colMajor_length, h]
  · rw [if_neg h, if_neg]
    rw [List.isEmpty_iff, ← List.length_eq_zero_iff, colMajor_length]
    exact h

theorem column_pr {k : Nat} (v : Option (Fin k → α)) : (column v).pr = .ok (vecArg v) := by
  cases v with
  | none => simp [column, Mx.pr, vecArg]
  | some v =>
    rw [column, Mx.pr, vecArg]
    congr 1
    by_cases h : k = 0
    · subst h; simp
    · rw [if_neg h, if_neg]
      · rfl
      · rw [List.isEmpty_iff, ← List.length_eq_zero_iff, List.length_ofFn]
        exact h

theorem toRow_full {e : Env α} {site m k : Nat} (A : Matrix (Fin m) (Fin k) α) (h : 0 < m ∧ 0 < k) :
    toRow e site (some (colMajor A)) m k = .ok (some (rowMajor A)) := by
  rw [toRow, if_pos h, C44_layout A _ (by simp [Env.alloc])]
  rfl

theorem toRow_none {e : Env α} {site m k : Nat} : toRow e site none m k = .ok none := rfl

/-- the arguments found by the interface -/
theorem denseArgs_call (e : Env α) (c : MexCall α n) (hV : n.nV ≠ 0) (hC : n.nComp ≠ 0) (hl : c.lin = none → n.nC = 0)
    (x0 y0 : Option (List α)) : denseArgs e n c.prhs x0 y0 = .ok (c.args x0 y0) := by
  have v1 : n.nV * n.nV ≠ 0 := Nat.mul_ne_zero hV hV
  have v2 : n.nV * n.nComp ≠ 0 := Nat.mul_ne_zero hV hC
  obtain ⟨Q, g, L, R, lbL, ubL, lbR, ubR, lin, box, params⟩ := c
  have hg : vecArg (some g) = some (List.ofFn g) := by rw [vecArg, if_neg hV]; rfl
  have hQ : colMajor Q = rowMajor Qᵀ := rfl
  have hlC := toRow_full (e := e) (site := 20) L ⟨by omega, by omega⟩
  have hrC := toRow_full (e := e) (site := 21) R ⟨by omega, by omega⟩
  rcases lin with _ | ⟨A, la, ua⟩
  · have h0 : n.nC = 0 := hl rfl
    rcases box with _ | ⟨lb, ub⟩ <;> rcases params with _ | fs
    all_goals
      simp [denseArgs, MexCall.prhs, argPr, arg, rd, full_pr, column_pr, v1, v2, ok_bind, colA, h0, readVectors, readMore, hlC, hrC, hg,
        toRow_none, MexCall.args, hQ]
  · by_cases h0 : n.nC = 0
    · have hla : vecArg la = none := by rw [vecArg, if_pos h0]
      have hua : vecArg ua = none := by rw [vecArg, if_pos h0]
      rcases box with _ | ⟨lb, ub⟩ <;> rcases params with _ | fs
      all_goals
        simp [denseArgs, MexCall.prhs, argPr, arg, rd, full_pr, column_pr, v1, v2, ok_bind, colA, h0, readVectors, readMore, hlC, hrC, hg,
          hla, hua, toRow_none, MexCall.args, hQ]
    · have hA := toRow_full (e := e) (site := 22) A ⟨by omega, by omega⟩
      have v3 : n.nV * n.nC ≠ 0 := Nat.mul_ne_zero hV h0
      have h0' : 0 < n.nC := by omega
      rcases box with _ | ⟨lb, ub⟩ <;> rcases params with _ | fs
      all_goals
        simp [denseArgs, MexCall.prhs, argPr, arg, rd, full_pr, column_pr, v1, v2, v3, ok_bind, colA, h0, h0', readVectors, readMore, hlC, hrC, hg,
          hA, MexCall.args, hQ]

theorem full_isEmpty {m k : Nat} (A : Matrix (Fin m) (Fin k) α) : (full A).isEmpty = decide (m = 0 ∨ k = 0) := by
  rw [Bool.eq_iff_iff]
  simp [full, Mx.isEmpty, Mx.rows, Mx.cols]

theorem isStruct_struct (fs : List (String × Mx α)) : (Mx.struct fs).isStruct = true := rfl

theorem mexDims_call (c : MexCall α n) (hV : n.nV ≠ 0) (hC : n.nComp ≠ 0) (hl : c.lin = none → n.nC = 0) : mexDims c.prhs = .ok n := by
  obtain ⟨Q, g, L, R, lbL, ubL, lbR, ubR, lin, box, params⟩ := c
  obtain ⟨nV, nC, nComp⟩ := n
  have e1 : (full Q).isEmpty = false := by rw [full_isEmpty]; simp; exact hV
  have e2 : (full L).isEmpty = false := by rw [full_isEmpty]; simp; exact ⟨hC, hV⟩
  have r1 : (full Q).rows = nV := rfl
  have r2 : (full L).rows = nComp := rfl
  have d1 : (full Q).isDouble = true := rfl
  have d2 : (full L).isDouble = true := rfl
  rcases lin with _ | ⟨A, la, ua⟩
  · have h0 : nC = 0 := hl rfl
    subst h0
    rcases box with _ | ⟨lb, ub⟩ <;> rcases params with _ | fs
    all_goals
      simp [mexDims, mexNC, MexCall.prhs, arg, rd, e1, e2, d1, d2, r1, r2, tenIsStruct, Mx.isStruct]
  · have e3 : (full A).isEmpty = decide (nC = 0) := by
      rw [full_isEmpty]
      simp only [decide_eq_decide]
      exact ⟨fun h => h.resolve_right hV, .inl⟩
    have d3 : (full A).isDouble = true := rfl
    have r3 : (full A).rows = nC := rfl
    have s1 : (column ua).isStruct = false := by cases ua <;> rfl
    rcases box with _ | ⟨lb, ub⟩ <;> rcases params with _ | fs
    all_goals
      simp [mexDims, mexNC, MexCall.prhs, arg, rd, e1, e2, e3, d1, d2, d3, r1, r2, r3, tenIsStruct, s1]
      try (split <;> simp_all)

theorem checkDouble_full {m k : Nat} (A : Matrix (Fin m) (Fin k) α) (name : String) (b : Bool) : checkDouble (full A) m k name b = .ok () := by
  rw [checkDouble]
  split
  · rfl
  · simp [full, Mx.isDouble, Mx.rows, Mx.cols]

theorem checkDouble_column {k : Nat} (v : Option (Fin k → α)) (name : String) : checkDouble (column v) k 1 name true = .ok () := by
  rw [checkDouble]
  cases v with
  | none => simp [column, Mx.isEmpty, Mx.rows, Mx.cols]
  | some v =>
    split
    · rfl
    · simp [column, Mx.isDouble, Mx.rows, Mx.cols]

theorem checkDouble_some {k : Nat} (v : Fin k → α) (name : String) (b : Bool) : checkDouble (column (some v)) k 1 name b = .ok () := by
  rw [checkDouble]
  split
  · rfl
  · simp [column, Mx.isDouble, Mx.rows, Mx.cols]

theorem mexChecks_call (c : MexCall α n) : mexChecks c.prhs n = .ok () := by
  obtain ⟨Q, g, L, R, lbL, ubL, lbR, ubR, lin, box, params⟩ := c
  rcases lin with _ | ⟨A, la, ua⟩
  · rcases box with _ | ⟨lb, ub⟩ <;> rcases params with _ | fs
    all_goals
      simp [mexChecks, checkArg, checkBox, checkLin, checkParams, checkStruct, MexCall.prhs, arg, rd, checkDouble_full, checkDouble_some,
        checkDouble_column, tenIsStruct, tenIsDouble, Mx.isStruct, Mx.isDouble]
  · have s1 : (column ua).isStruct = false := by cases ua <;> rfl
    have s2 : (column ua).isDouble = true := by cases ua <;> rfl
    rcases box with _ | ⟨lb, ub⟩ <;> rcases params with _ | fs
    all_goals
      simp [mexChecks, checkArg, checkBox, checkLin, checkParams, checkStruct, MexCall.prhs, arg, rd, checkDouble_full, checkDouble_some,
        checkDouble_column, tenIsStruct, tenIsDouble, s1, s2, isStruct_struct]

/-- options and initial guess of a documented call -/
def MexCall.readParams (E : MexEnv α) (c : MexCall α n) : MX (Params α) :=
  match c.params with
  | none => .ok { opts := E.dflt }
  | some fs => LCQ.readParams E n (.struct fs)

theorem mexParams_call (E : MexEnv α) (c : MexCall α n) : mexParams E n c.prhs = c.readParams E := by
  obtain ⟨Q, g, L, R, lbL, ubL, lbR, ubR, lin, box, params⟩ := c
  rcases lin with _ | ⟨A, la, ua⟩
  · rcases box with _ | ⟨lb, ub⟩ <;> rcases params with _ | fs
    all_goals
      simp [mexParams, paramsIdx, MexCall.readParams, MexCall.prhs, arg, rd, tenIsDouble, Mx.isDouble]
  · have s2 : (column ua).isDouble = true := by cases ua <;> rfl
    rcases box with _ | ⟨lb, ub⟩ <;> rcases params with _ | fs
    all_goals
      simp [mexParams, paramsIdx, MexCall.readParams, MexCall.prhs, arg, rd, tenIsDouble, s2]

/-- C50 (any arithmetic): in every documented call with full arrays the interface constructs an object of the right sizes, gives it the
options of the parameter struct, and calls the dense loader with the given vectors, the row-major `L`, `R` and `A`, and the row-major
transpose of `Q`. -/
theorem C50_load (E : MexEnv α) (c : MexCall α n) (hV : n.nV ≠ 0) (hC : n.nComp ≠ 0) (hl : c.lin = none → n.nC = 0) :
    mexLoad E c.prhs = (do
      let p ← c.readParams E
      let r ← lift (loadDense E.e (setOptions (Obj.new E.dflt n.nV n.nC n.nComp) p.opts) (c.args p.x0 p.y0))
      if r.1 ≠ .successfulReturn then .error (.load 1) else .ok (n, p.opts, r.2)) := by
  have len : ¬ (c.prhs.length < 8 ∨ 14 < c.prhs.length) := by
    obtain ⟨Q, g, L, R, lbL, ubL, lbR, ubR, lin, box, params⟩ := c
    rcases lin with _ | ⟨A, la, ua⟩ <;> rcases box with _ | ⟨lb, ub⟩ <;> rcases params with _ | fs <;> simp [MexCall.prhs]
  have hs : argSparse c.prhs 0 = .ok false := rfl
  rw [mexLoad, if_neg len, mexDims_call c hV hC hl, mx_ok_bind, mexChecks_call, mx_ok_bind, mexParams_call]
  cases c.readParams E with
  | error h => rfl
  | ok p =>
    simp only [mx_ok_bind, mexData, hs, lift_ok, mexDense, denseArgs_call E.e c hV hC hl]
    cases loadDense E.e (setOptions (Obj.new E.dflt n.nV n.nC n.nComp) p.opts) (c.args p.x0 p.y0) with
    | error f => rfl
    | ok r =>
      simp only [lift_ok, mx_ok_bind]
      by_cases hr : r.1 = .successfulReturn <;> simp [hr]

theorem vecArg_len {k : Nat} (v : Option (Fin k → α)) : OptLen (vecArg v) k := by
  intro w hw
  rw [vecArg] at hw
  split at hw
  · omega
  · cases v with
    | none => cases hw
    | some v =>
      injection hw with hw
      subst hw
      simp

theorem args_fits (c : MexCall α n) {x0 y0 : Option (List α)} (hx : OptLen x0 n.nV) (hy : OptLen y0 (n.nV + n.nA)) :
    (c.args x0 y0).Fits n where
  Q := ⟨_, rfl, by simp⟩
  L := ⟨_, rfl, by simp⟩
  R := ⟨_, rfl, by simp⟩
  g := by rintro v ⟨⟩; simp
  A := by
    intro v hv
    rw [MexCall.args] at hv
    dsimp only at hv
    split at hv
    · cases hv
    · cases hc : c.lin with
      | none => rw [hc] at hv; cases hv
      | some l =>
        rw [hc] at hv
        injection hv with hv
        subst hv
        simp
  lbA := by
    intro v hv
    cases hc : c.lin with
    | none => rw [MexCall.args, hc] at hv; cases hv
    | some l => rw [MexCall.args, hc] at hv; exact vecArg_len _ v hv
  ubA := by
    intro v hv
    cases hc : c.lin with
    | none => rw [MexCall.args, hc] at hv; cases hv
    | some l => rw [MexCall.args, hc] at hv; exact vecArg_len _ v hv
  lbL := vecArg_len _
  ubL := vecArg_len _
  lbR := vecArg_len _
  ubR := vecArg_len _
  lb := by
    intro v hv
    cases hc : c.box with
    | none => rw [MexCall.args, hc] at hv; cases hv
    | some l => rw [MexCall.args, hc] at hv; exact vecArg_len _ v hv
  ub := by
    intro v hv
    cases hc : c.box with
    | none => rw [MexCall.args, hc] at hv; cases hv
    | some l => rw [MexCall.args, hc] at hv; exact vecArg_len _ v hv
  x0 := hx
  y0 := hy

/-- the entries of an optional vector, or a default value -/
def vecOr {β : Type} {k : Nat} (v : Option (Fin k → β)) (d : β) : List β :=
  match v with
  | some v => List.ofFn v
  | none => List.replicate k d

theorem orFill_vecArg {k : Nat} (v : Option (Fin k → α)) (d : α) : orFill (vecArg v) k d = vecOr v d := by
  rw [vecArg]
  cases v with
  | none => simp [orFill, vecOr]
  | some v =>
    by_cases h : k = 0
    · subst h; simp [orFill, vecOr]
    · rw [if_neg h]
      have hl : (List.ofFn v).length = k := by simp
      simp only [Option.map_some, orFill, vecOr]
      exact List.take_of_length_le (by omega)

/-- The problem of the call, with `Q` replaced by the given matrix, is what the object holds. -/
structure MexCall.Held (c : MexCall α n) (Q : Matrix (Fin n.nV) (Fin n.nV) α) (o : Obj α) : Prop where
  dims : o.d.dims = some n
  dense : o.d.sparse = false
  Q : o.d.Q = some (rowMajor Q)
  g : o.d.g = some (List.ofFn c.g)
  L : o.d.L = some (rowMajor c.L)
  R : o.d.R = some (rowMajor c.R)
  A : o.d.A = some ((match c.lin with | some l => rowMajor l.1 | none => []) ++ rowMajor c.L ++ rowMajor c.R)
  lbA : o.d.lbA = some ((match c.lin with | some l => vecOr l.2.1 (-. inf) | none => []) ++ vecOr c.lbL zero ++ vecOr c.lbR zero)
  ubA : o.d.ubA = some ((match c.lin with | some l => vecOr l.2.2 inf | none => []) ++ vecOr c.ubL inf ++ vecOr c.ubR inf)
  lb : o.d.lbTmp = (c.box.bind (·.1)).map List.ofFn
  ub : o.d.ubTmp = (c.box.bind (·.2)).map List.ofFn

theorem take_ofFn {β : Type} {k : Nat} (v : Fin k → β) : (List.ofFn v).take k = List.ofFn v :=
  List.take_of_length_le (by simp)

theorem take_rowMajor {β : Type} {m k : Nat} (A : Matrix (Fin m) (Fin k) β) : (rowMajor A).take (m * k) = rowMajor A :=
  List.take_of_length_le (by simp)

theorem tmp_vecArg {k : Nat} (hk : k ≠ 0) (v : Option (Fin k → α)) :
    (match vecArg v with | some v => some (v.take k) | none => none) = v.map List.ofFn := by
  rw [vecArg, if_neg hk]
  cases v with
  | none => rfl
  | some v => simp [take_ofFn]

/-- an entry `-∞` (or less) in a vector -/
def MinusInf {k : Nat} (v : Option (Fin k → α)) : Prop := ∃ w, v = some w ∧ ∃ i, (w i <=. (-. inf)) = true

theorem hasMinusInf_vecArg {k : Nat} (v : Option (Fin k → α)) : HasMinusInf (vecArg v) k ↔ MinusInf v := by
  constructor
  · rintro ⟨w, hw, i, hi, x, hx, hle⟩
    cases v with
    | none => simp [vecArg] at hw
    | some v =>
      rw [vecArg, if_neg (by omega)] at hw
      injection hw with hw
      subst hw
      refine ⟨v, rfl, ⟨i, hi⟩, ?_⟩
      rw [List.getElem?_eq_getElem (by simpa using hi)] at hx
      injection hx with hx
      rw [List.getElem_ofFn] at hx
      rw [hx]
      exact hle
  · rintro ⟨w, rfl, i, hi⟩
    refine ⟨List.ofFn w, ?_, i, i.2, w i, ?_, hi⟩
    · rw [vecArg, if_neg (by have := i.2; omega)]
      rfl
    · rw [List.getElem?_eq_getElem (by simp), List.getElem_ofFn]

/-- C50 (any arithmetic): the outcome of a documented call with full arrays, up to the run of the solver.  The load is refused
exactly if an entry of `lbL` or `lbR` is `-∞`.  Otherwise the object holds the given vectors, `L`, `R` and `A`, and the
transpose of `Q`. -/
theorem C50_outcome (E : MexEnv α) (c : MexCall α n) (hV : n.nV ≠ 0) (hC : n.nComp ≠ 0) (hl : c.lin = none → n.nC = 0)
    {p : Params α} (hp : c.readParams E = .ok p) (hx : OptLen p.x0 n.nV) (hy : OptLen p.y0 (n.nV + n.nA)) :
    ((MinusInf c.lbL ∨ MinusInf c.lbR) ∧ mexLoad E c.prhs = .error (.load 1)) ∨
    (¬ (MinusInf c.lbL ∨ MinusInf c.lbR) ∧ ∃ o, mexLoad E c.prhs = .ok (n, p.opts, o) ∧ c.Held c.Qᵀ o) := by
  have hf := args_fits c hx hy
  have hn : (setOptions (Obj.new E.dflt n.nV n.nC n.nComp) p.opts).d.dims = some n := (new_eq E.dflt n hV hC).1
  have hA : ¬ ((c.args p.x0 p.y0).A = none ∧ 0 < n.nC) := by
    rintro ⟨h1, h2⟩
    have h1' : (if n.nC = 0 then none else c.lin.map fun l => rowMajor l.1) = none := h1
    rw [if_neg (by omega)] at h1'
    cases hc : c.lin with
    | none => have := hl hc; omega
    | some l => rw [hc] at h1'; cases h1'
  have hbL : HasMinusInf (c.args p.x0 p.y0).lbL n.nComp ↔ MinusInf c.lbL := hasMinusInf_vecArg _
  have hbR : HasMinusInf (c.args p.x0 p.y0).lbR n.nComp ↔ MinusInf c.lbR := hasMinusInf_vecArg _
  have hL := C50_load E c hV hC hl
  rw [hp, mx_ok_bind] at hL
  rcases loadDense_ok (e := E.e) hn hV hC hf with ⟨hg, _⟩ | ⟨_, hA', _⟩ | ⟨_, _, hb, o', h'⟩ | ⟨_, _, hb1, hb2, Q, g, L, R, _, _, _, _, _, _, _, _, h'⟩
  · cases hg
  · exact absurd hA' hA
  · left
    rw [hbL, hbR] at hb
    refine ⟨hb, ?_⟩
    rw [hL, h']
    rfl
  · right
    rw [hbL] at hb1
    rw [hbR] at hb2
    refine ⟨fun h => h.elim hb1 hb2, denseObj (setOptions (Obj.new E.dflt n.nV n.nC n.nComp) p.opts) n (c.args p.x0 p.y0) Q g L R, ?_, ?_⟩
    · rw [hL, h']
      rfl
    · have hs := C14_stored E.e _ _ n _ hn hV hC hf h'
      have hb := C14_box E.e _ _ n _ hn hV hC hf h'
      have hk := loadDense_keep h'
      obtain ⟨v, hv, hQ⟩ := hs.Q
      injection hv with hv
      subst hv
      obtain ⟨v, hv, hg⟩ := hs.g
      injection hv with hv
      subst hv
      obtain ⟨vL, vR, hvL, hvR, hL', hR', hA'⟩ := hs.stacked
      injection hvL with hvL
      injection hvR with hvR
      subst hvL hvR
      have e1 : (Obj.new E.dflt n.nV n.nC n.nComp).d.lbTmp = none := by
        simp only [Obj.new, if_neg (show ¬ ((n.nV : Int) ≤ 0) by omega), if_neg (show ¬ ((n.nComp : Int) ≤ 0) by omega),
          if_neg (show ¬ ((n.nC : Int) < 0) by omega)]
        rfl
      have e2 : (Obj.new E.dflt n.nV n.nC n.nComp).d.ubTmp = none := by
        simp only [Obj.new, if_neg (show ¬ ((n.nV : Int) ≤ 0) by omega), if_neg (show ¬ ((n.nComp : Int) ≤ 0) by omega),
          if_neg (show ¬ ((n.nC : Int) < 0) by omega)]
        rfl
      refine ⟨?_, hs.dense, ?_, ?_, ?_, ?_, ?_, ?_, ?_, ?_, ?_⟩
      · rw [hk.1.dims]; exact hn
      · rw [hQ, take_rowMajor]
      · rw [hg, take_ofFn]
      · rw [hL', take_rowMajor]
      · rw [hR', take_rowMajor]
      · rw [hA', take_rowMajor, take_rowMajor]
        congr 3
        cases hc : c.lin with
        | none => simp [MexCall.args, hc]
        | some l =>
          by_cases h0 : n.nC = 0
          · have hz : rowMajor l.1 = [] := by rw [← List.length_eq_zero_iff, rowMajor_length, h0, Nat.zero_mul]
            simp [MexCall.args, hc, h0, hz]
          · simp [MexCall.args, hc, h0, take_rowMajor]
      · rw [hs.lbA]
        have x1 : orFill (c.args p.x0 p.y0).lbL n.nComp (zero : α) = vecOr c.lbL zero := orFill_vecArg _ _
        have x2 : orFill (c.args p.x0 p.y0).lbR n.nComp (zero : α) = vecOr c.lbR zero := orFill_vecArg _ _
        rw [x1, x2]
        congr 3
        cases hc : c.lin with
        | none => simp [MexCall.args, hc, orFill, hl hc]
        | some l => simp [MexCall.args, hc, orFill_vecArg]
      · rw [hs.ubA]
        have x1 : orFill (c.args p.x0 p.y0).ubL n.nComp (inf : α) = vecOr c.ubL inf := orFill_vecArg _ _
        have x2 : orFill (c.args p.x0 p.y0).ubR n.nComp (inf : α) = vecOr c.ubR inf := orFill_vecArg _ _
        rw [x1, x2]
        congr 3
        cases hc : c.lin with
        | none => simp [MexCall.args, hc, orFill, hl hc]
        | some l => simp [MexCall.args, hc, orFill_vecArg]
      · rw [hb.1]
        cases hc : c.box with
        | none => simp [MexCall.args, hc, setOptions, e1]
        | some b =>
          have := tmp_vecArg hV b.1
          simp only [MexCall.args, hc, setOptions, e1]
          exact this
      · rw [hb.2]
        cases hc : c.box with
        | none => simp [MexCall.args, hc, setOptions, e2]
        | some b =>
          have := tmp_vecArg hV b.2
          simp only [MexCall.args, hc, setOptions, e2]
          exact this

/-- C50 (any arithmetic): the loaded problem is the given one exactly if `Q` is symmetric. -/
theorem C50_symmetric (c : MexCall α n) {o : Obj α} (h : c.Held c.Qᵀ o) : c.Held c.Q o ↔ c.Qᵀ = c.Q := by
  constructor
  · intro h'
    have := h.Q
    rw [h'.Q] at this
    injection this with this
    exact (rowMajor_inj this).symm
  · intro hs
    rw [hs] at h
    exact h

/-! ## C51: what the checks do not see -/

/-- C51 (any arithmetic): the sizes of `lbL`, `ubL`, `lbR`, `ubR` are never looked at: replacing one of these arguments by any
other array changes neither the sizes found nor the outcome of the checks. -/
theorem C51_unchecked (prhs : List (Mx α)) (n : Dims) (i : Nat) (hi : 4 ≤ i ∧ i ≤ 7) (b : Mx α) :
    mexDims (prhs.set i b) = mexDims prhs ∧ mexChecks (prhs.set i b) n = mexChecks prhs n := by
  have hr : ∀ k, (k < 4 ∨ 7 < k) → arg (prhs.set i b) k = arg prhs k := by
    intro k hk
    simp only [arg, rd, List.getElem?_set_ne (show i ≠ k by omega)]
  have h10 : (prhs.set i b)[10]? = prhs[10]? := List.getElem?_set_ne (by omega)
  have hs : tenIsStruct (prhs.set i b) = tenIsStruct prhs := by rw [tenIsStruct, h10]; rfl
  have hd : tenIsDouble (prhs.set i b) = tenIsDouble prhs := by rw [tenIsDouble, h10]; rfl
  constructor
  · simp only [mexDims, mexNC, hs, List.length_set, hr 0 (by omega), hr 2 (by omega), hr 8 (by omega)]
  · simp only [mexChecks, checkArg, checkBox, checkLin, checkParams, hs, hd, List.length_set, hr 0 (by omega), hr 1 (by omega), hr 2 (by omega),
      hr 3 (by omega), hr 8 (by omega), hr 9 (by omega), hr (8 + 1) (by omega), hr 10 (by omega), hr 11 (by omega), hr 12 (by omega),
      hr (11 + 1) (by omega), hr 13 (by omega)]

theorem guess_short {e : Env α} {d : Data α} {s : St α} {x0 : Option (List α)} {y : List α} {r : RV × St α} (hn : d.dims = some n)
    (hV : n.nV ≠ 0) (hC : n.nComp ≠ 0) (h : setInitialGuess e d s x0 none = .ok r) (hy : y.length < n.nV + n.nC + 2 * n.nComp) :
    setInitialGuess e d s x0 (some y) = .error .oob := by
  rw [setInitialGuess, hn, initd_some, ok_bind, if_neg (by simp [hV, hC]), bind_eq_ok] at h
  obtain ⟨x, hx, _⟩ := h
  rw [setInitialGuess, hn, initd_some, ok_bind, if_neg (by simp [hV, hC]), hx, ok_bind, guessY, loop_copy_short hy]
  rfl

/-- the dense loader reads past the end of a short dual guess -/
theorem loadDense_short {e : Env α} {o o' : Obj α} {a : DenseArgs α} {y : List α} (hn : o.d.dims = some n) (hV : n.nV ≠ 0)
    (hC : n.nComp ≠ 0) (h : loadDense e o { a with y0 := none } = .ok (.successfulReturn, o'))
    (hy : y.length < n.nV + n.nC + 2 * n.nComp) : loadDense e o { a with y0 := some y } = .error .oob := by
  rw [loadDense, hn, initd_some, ok_bind, if_neg (by simp [hV, hC])] at h ⊢
  obtain ⟨d1, k1, h⟩ := thenData_inv h
  obtain ⟨d2, k2, h⟩ := thenData_inv h
  rw [bind_eq_ok] at h
  obtain ⟨d3, k3, h⟩ := h
  obtain ⟨d4, k4, h⟩ := thenData_inv h
  obtain ⟨d5, k5, h⟩ := thenData_inv h
  rw [thenSt, bind_eq_ok] at h
  obtain ⟨r, h6, _⟩ := h
  have hn' : d5.dims = some n := by
    rw [setCompBounds_dims k5, setConstraints_dims k4, setTmp_dims k3, setG_dims k2, setQ_dims k1, hn]
  have h7 := guess_short hn' hV hC h6 hy
  dsimp only at k1 k2 k3 k4 k5 h7 ⊢
  rw [thenData, k1, ok_bind, if_neg (by simp), thenData, k2, ok_bind, if_neg (by simp), k3, ok_bind, thenData, k4, ok_bind,
    if_neg (by simp), thenData, k5, ok_bind, if_neg (by simp), thenSt, h7]
  rfl

/-- the sparse loader reads past the end of a short dual guess -/
theorem loadSparse_short {e : Env α} {o o' : Obj α} {a : SparseArgs α} {y : List α} (hn : o.d.dims = some n) (hV : n.nV ≠ 0)
    (hC : n.nComp ≠ 0) (h : loadSparse e o { a with y0 := none } = .ok (.successfulReturn, o'))
    (hy : y.length < n.nV + n.nC + 2 * n.nComp) : loadSparse e o { a with y0 := some y } = .error .oob := by
  rw [loadSparse] at h ⊢
  obtain ⟨d1, k1, h⟩ := thenData_inv h
  obtain ⟨d2, k2, h⟩ := thenData_inv h
  obtain ⟨d4, k4, h⟩ := thenData_inv h
  obtain ⟨d5, k5, h⟩ := thenData_inv h
  rw [thenSt, bind_eq_ok] at h
  obtain ⟨r, h6, _⟩ := h
  have hn' : d5.dims = some n := by
    rw [(setCompBounds_keep k5).dims, (setConstraintsSparse_keep k4).dims, (setG_keep k2).dims, (setQs_keep k1).dims, hn]
  have h7 := guess_short hn' hV hC h6 hy
  dsimp only at k1 k2 k4 k5 h7 ⊢
  rw [thenData, k1, ok_bind, if_neg (by simp), thenData, k2, ok_bind, if_neg (by simp), thenData, k4, ok_bind,
    if_neg (by simp), thenData, k5, ok_bind, if_neg (by simp), thenSt, h7]
  rfl

/-- the dual guess accepted by the interface when OSQP is chosen -/
theorem dualField_osqp {p : Mx α} {q : Int} (hq : ¬ q < 2) {k : Nat} {l : List α} (hp : p.field "y0" = some (.dbl k 1 l)) (hk : l.length = k)
    {y : Option (List α)} (h : dualField p n q = .ok y) : y = none ∨ ∃ l, y = some l ∧ l.length = n.nC + 2 * n.nComp := by
  rw [dualField, hp] at h
  simp only [if_neg hq, mx_bind_ok] at h
  obtain ⟨_, h1, h2⟩ := h
  rw [lift_eq_ok, Mx.pr] at h2
  injection h2 with h2
  by_cases he : l.isEmpty
  · left; rw [← h2, if_pos he]
  · right
    rw [if_neg he] at h2
    refine ⟨l, h2.symm, ?_⟩
    rw [checkDouble, Bool.false_and, if_neg (by simp), if_neg (by simp [Mx.isDouble])] at h1
    by_cases hs : (Mx.dbl k 1 l).rows ≠ n.nC + 2 * n.nComp ∨ (Mx.dbl k 1 l).cols ≠ 1
    · rw [if_pos hs] at h1; cases h1
    · have : (Mx.dbl k 1 l).rows = n.nC + 2 * n.nComp := by
        by_contra hne; exact hs (.inl hne)
      rw [hk]; exact this

theorem denseArgs_y0 {e : Env α} {prhs : List (Mx α)} {x0 y0 : Option (List α)} :
    denseArgs e n prhs x0 y0 = (denseArgs e n prhs x0 none).map fun a => { a with y0 := y0 } := by
  simp only [denseArgs, Except.map, bind, Except.bind]
  repeat' split
  all_goals first | rfl | (simp_all)

theorem sparseArgs_y0 {prhs : List (Mx α)} {x0 y0 : Option (List α)} :
    sparseArgs n prhs x0 y0 = (sparseArgs n prhs x0 none).map fun a => { a with y0 := y0 } := by
  simp only [sparseArgs, Except.map, bind, Except.bind]
  repeat' split
  all_goals first | rfl | (simp_all)

theorem mexData_short {e : Env α} {o o' : Obj α} {prhs : List (Mx α)} {x0 : Option (List α)} {y : List α} (hn : o.d.dims = some n)
    (hV : n.nV ≠ 0) (hC : n.nComp ≠ 0) (h : mexData e o n prhs x0 none = .ok o') (hy : y.length < n.nV + n.nC + 2 * n.nComp) :
    mexData e o n prhs x0 (some y) = .error (.fault .oob) := by
  rw [mexData, mx_bind_ok] at h
  obtain ⟨b, hb, h⟩ := h
  rw [mexData, hb, mx_ok_bind]
  cases b with
  | true =>
    rw [if_pos rfl, mexSparse, mx_bind_ok] at h
    obtain ⟨s, hs, h⟩ := h
    rw [if_pos rfl, mexSparse, hs, mx_ok_bind]
    cases s with
    | false => cases h
    | true =>
      simp only [Bool.not_true, Bool.false_eq_true, if_false, mx_bind_ok] at h ⊢
      obtain ⟨a, ha, r, hr, h⟩ := h
      rw [lift_eq_ok] at ha hr
      have ha0 : a = { a with y0 := none } := by
        rw [sparseArgs_y0] at ha
        cases hc : sparseArgs n prhs x0 none with
        | error f => rw [hc] at ha; cases ha
        | ok a' => rw [hc] at ha; injection ha with ha; rw [← ha]
      obtain ⟨rv, o1⟩ := r
      have hrv : rv = .successfulReturn := by
        by_contra hne
        rw [if_pos (fun hz => hne (code_zero hz))] at h
        cases h
      subst hrv
      rw [ha0] at hr
      rw [sparseArgs_y0, ha]
      simp only [Except.map, lift_ok, mx_ok_bind, loadSparse_short hn hV hC hr hy]
      rfl
  | false =>
    rw [if_neg (by simp), mexDense, mx_bind_ok] at h
    obtain ⟨a, ha, h⟩ := h
    rw [mx_bind_ok] at h
    obtain ⟨r, hr, h⟩ := h
    rw [lift_eq_ok] at ha hr
    have ha0 : a = { a with y0 := none } := by
      rw [denseArgs_y0] at ha
      cases hc : denseArgs e n prhs x0 none with
      | error f => rw [hc] at ha; cases ha
      | ok a' => rw [hc] at ha; injection ha with ha; rw [← ha]
    obtain ⟨rv, o1⟩ := r
    have hrv : rv = .successfulReturn := by
      by_contra hne
      rw [if_pos hne] at h
      cases h
    subst hrv
    rw [ha0] at hr
    rw [if_neg (by simp), mexDense, denseArgs_y0, ha]
    simp only [Except.map, lift_ok, mx_ok_bind, loadDense_short hn hV hC hr hy]
    rfl

/-- C51 (any arithmetic, a defect): with OSQP a dual guess of the demanded size `nC + 2*nComp` is read past its end by the
loader, for every call (dense or sparse) which without the guess could be loaded. -/
theorem C51_dual (E : MexEnv α) (prhs : List (Mx α)) (hlen : ¬ (prhs.length < 8 ∨ 14 < prhs.length)) (hd : mexDims prhs = .ok n)
    (hc : mexChecks prhs n = .ok ()) {i : Nat} (hi : paramsIdx prhs = some i) {q : Mx α} (hq : prhs[i]? = some q)
    {k : Nat} {l : List α} (hy : q.field "y0" = some (.dbl k 1 l)) (hk : l.length = k) (h0 : l ≠ [])
    {p : Params α} (hp : readParams E n q = .ok p) (hs : p.opts.qpSolver = 2)
    {o : Obj α} (h : mexData E.e (setOptions (Obj.new E.dflt n.nV n.nC n.nComp) p.opts) n prhs p.x0 none = .ok o) :
    mexLoad E prhs = .error (.fault .oob) := by
  obtain ⟨hV, hC⟩ := mexDims_pos hd
  have hy0 : ∃ y, p.y0 = some y ∧ y.length = n.nC + 2 * n.nComp := by
    rw [readParams, mx_bind_ok] at hp
    obtain ⟨x, _, hp⟩ := hp
    rw [mx_bind_ok] at hp
    obtain ⟨op, _, hp⟩ := hp
    rw [mx_bind_ok] at hp
    obtain ⟨y, h1, hp⟩ := hp
    injection hp with hp
    subst hp
    dsimp only at hs ⊢
    rcases dualField_osqp (by rw [hs]; decide) hy hk h1 with rfl | h2
    · exfalso
      rw [dualField, hy] at h1
      simp only [mx_bind_ok, lift_eq_ok, Mx.pr] at h1
      obtain ⟨_, _, h1⟩ := h1
      rw [if_neg (by simpa using h0)] at h1
      cases h1
    · exact h2
  obtain ⟨y, hy1, hy2⟩ := hy0
  have hP : mexParams E n prhs = .ok p := by
    simp only [mexParams, hi, arg, rd, hq]
    exact hp
  have hn : (setOptions (Obj.new E.dflt n.nV n.nC n.nComp) p.opts).d.dims = some n := (new_eq E.dflt n hV hC).1
  rw [mexLoad, if_neg hlen, hd, mx_ok_bind, hc, mx_ok_bind, hP, mx_ok_bind, hy1]
  dsimp only
  rw [mexData_short hn hV hC h (by omega)]
  rfl

/-- C51 (any arithmetic): a primal guess of another class or size than a column of `nV` doubles stops the call, and the message names
it. -/
theorem C51_guess_refused (E : MexEnv α) (q : Mx α) {g : Mx α} (hx : q.field "x0" = some g) :
    ((∃ a b l, g = .logical a b l) ∨ (∃ fs, g = .struct fs) ∨ (∃ a b, g = .other a b) → readParams E n q = .error (.type "x0")) ∧
    ∀ a b x, g = .dbl a b x → (a ≠ n.nV ∨ b ≠ 1) → readParams E n q = .error (.size "x0") := by
  have key : ∀ h : Halt, checkDouble g n.nV 1 "x0" = .error h → readParams E n q = .error h := by
    intro h hg
    simp only [readParams, guessField, hx, hg, mx_error_bind]
  constructor
  · rintro (⟨a, b, l, rfl⟩ | ⟨fs, rfl⟩ | ⟨a, b, rfl⟩) <;> exact key _ rfl
  · rintro a b x rfl h
    exact key _ (by simp [checkDouble, Mx.isDouble, Mx.rows, Mx.cols, h])

/-- C51 (any arithmetic): the guesses of a parameter struct are accepted exactly if they are columns of the demanded sizes:
`nV` entries for `x0`; for `y0`, `nV + nC + 2*nComp` entries with qpOASES and `nC + 2*nComp` entries with OSQP.  Accepted
guesses reach the loader unchanged. -/
theorem C51_guesses (E : MexEnv α) (q : Mx α) {a b k m : Nat} {x y : List α} (hx : q.field "x0" = some (.dbl a b x))
    (hy : q.field "y0" = some (.dbl k m y)) (hx0 : x ≠ []) (hy0 : y ≠ []) (p : Params α) :
    readParams E n q = .ok p ↔ optFields E q E.dflt = .ok p.opts ∧ a = n.nV ∧ b = 1 ∧ m = 1 ∧
      k = (if p.opts.qpSolver < 2 then n.nV else 0) + n.nC + 2 * n.nComp ∧ p.x0 = some x ∧ p.y0 = some y := by
  have hc : ∀ (i j r c : Nat) (l : List α) (s : String),
      checkDouble (.dbl i j l) r c s = .ok () ↔ i = r ∧ j = c := by
    intro i j r c l s
    rw [checkDouble, Bool.false_and, if_neg (by simp), if_neg (by simp [Mx.isDouble])]
    change (if i ≠ r ∨ j ≠ c then _ else _) = _ ↔ _
    by_cases h : i ≠ r ∨ j ≠ c
    · rw [if_pos h]
      constructor
      · intro h'; cases h'
      · rintro ⟨rfl, rfl⟩; simp at h
    · rw [if_neg h]
      push Not at h
      simp [h]
  have hs : ∀ s : Int, (if s < 2 then n.nV + n.nC + 2 * n.nComp else n.nC + 2 * n.nComp) =
      (if s < 2 then n.nV else 0) + n.nC + 2 * n.nComp := by
    intro s; split <;> omega
  have hpx : (Mx.dbl a b x).pr = .ok (some x) := by simp [Mx.pr, hx0]
  have hpy : (Mx.dbl k m y).pr = .ok (some y) := by simp [Mx.pr, hy0]
  simp only [readParams, guessField, hx, dualField, hy, mx_bind_ok, hc, hs, hpx, hpy, lift_ok]
  constructor
  · rintro ⟨_, ⟨_, ⟨rfl, rfl⟩, h1⟩, o, ho, _, ⟨_, ⟨hk, rfl⟩, h2⟩, h⟩
    injection h1 with h1
    injection h2 with h2
    injection h with h
    subst h1 h2
    subst h
    exact ⟨ho, rfl, rfl, rfl, hk, rfl, rfl⟩
  · rintro ⟨ho, rfl, rfl, rfl, hk, h1, h2⟩
    refine ⟨_, ⟨(), ⟨rfl, rfl⟩, rfl⟩, _, ho, _, ⟨(), ⟨hk, rfl⟩, rfl⟩, ?_⟩
    rw [← h1, ← h2]

/-- a struct with both guesses, for a problem with three variables, one constraint and one pair -/
example (E : MexEnv (Ext ℚ)) (h : E.dflt.qpSolver < 2) : ∃ (q : Mx (Ext ℚ)) (p : Params (Ext ℚ)),
    readParams E ⟨3, 1, 1⟩ q = .ok p ∧ p.y0 ≠ none := by
  refine ⟨.struct [("x0", .dbl 3 1 (List.replicate 3 Scalar.one)), ("y0", .dbl 6 1 (List.replicate 6 Scalar.one))],
    ⟨E.dflt, some (List.replicate 3 Scalar.one), some (List.replicate 6 Scalar.one)⟩, ?_, by simp⟩
  rw [C51_guesses E _ (a := 3) (b := 1) (k := 6) (m := 1) (x := List.replicate 3 Scalar.one) (y := List.replicate 6 Scalar.one)
    rfl rfl (by simp) (by simp)]
  refine ⟨rfl, rfl, rfl, rfl, ?_, rfl, rfl⟩
  rw [if_pos h]
  rfl

/-! ## C53: outputs that were never set -/

/-- C53 (any arithmetic, a defect): if the chosen solver does not go with the kind of the matrices, the run ends before the status is set,
and the getters called next return an indeterminate value: undefined behaviour in every such call. -/
theorem C53_mismatch {E : MexEnv α} {fuel nlhs : Nat} {prhs : List (Mx α)} {p : Options α} {o : Obj α} {r : RV × Obj α}
    (hn : ¬ (nlhs < 1 ∨ 3 < nlhs)) (hl : mexLoad E prhs = .ok (n, p, o)) (hr : runSolver E.e fuel o = .ok (some r))
    (hc : choiceCode p.qpSolver o.d.sparse o.oldBox o.newBox ≠ .successfulReturn) :
    ∃ f, mexFunction E fuel nlhs prhs = .error (.fault f) ∧ (∀ x, o.s.xk = some x → n.nV ≤ x.length → f = .uninit) := by
  obtain ⟨hV, hC, hd, hp, ha, _⟩ := mexLoad_inv hl
  obtain ⟨i, hi, _⟩ := runSolver_inv hr
  have hne : i.1 ≠ .successfulReturn := by
    rw [C33_code hd hV hi, hp]
    exact hc
  obtain ⟨_, h2, h3⟩ := C19_stale hr hi hne
  have hdims : r.2.d.dims = some n := by
    obtain ⟨i', hi', ⟨_, rfl⟩ | ⟨hok, _⟩⟩ := runSolver_inv hr
    · have := initializeSolver_dims hi'
      rw [← hd, ← this]
    · rw [hi] at hi'
      injection hi' with hi'
      subst hi'
      exact absurd hok hne
  rw [ha] at h2
  have key : ∃ f, getPrimalSolution r.2 (some (List.replicate n.nV (zero : α))) = .error f ∧
      (∀ x, o.s.xk = some x → n.nV ≤ x.length → f = .uninit) := by
    rw [getPrimalSolution]
    cases hco : copyOut r.2.s.xk (r.2.d.dims.map Dims.nV) (some (List.replicate n.nV (zero : α))) with
    | error f =>
      refine ⟨f, rfl, ?_⟩
      intro x hx hlen
      rw [h3, hx, hdims] at hco
      simp only [copyOut, Option.map_some, initd_some, ok_bind, copyTo_ok hlen (show n.nV ≤ (List.replicate n.nV (zero : α)).length by simp)] at hco
      cases hco
    | ok b =>
      refine ⟨.uninit, ?_, fun _ _ _ => rfl⟩
      rw [ok_bind, h2]
      rfl
  obtain ⟨f, hf, hf'⟩ := key
  refine ⟨f, ?_, hf'⟩
  rw [mexFunction, if_neg hn, hl, mx_ok_bind]
  simp only [hr, lift_ok, mx_ok_bind, mexResults, hf, lift_error, mx_error_bind]

/-- C53 (any arithmetic, a defect): if the object holds no dual variables after the run, the second output consists of
uninitialised memory. -/
theorem C53_garbage {E : MexEnv α} {r : RV × Obj α} {store : Bool} {t : AlgStat} {k nlhs : Nat} {out : MexOut α}
    (h2 : 2 ≤ nlhs) (ht : r.2.s.algo = some t) (hy : r.2.s.yk = none) (hk : r.2.d.nDuals = some k) (hle : k ≤ n.nV + n.nC + 2 * n.nComp)
    (h : mexResults E nlhs n store r = .ok out) : out.y = some (List.ofFn fun i : Fin k => E.e.junk 23 i) := by
  rw [mexResults, mx_bind_ok] at h
  obtain ⟨x, _, h⟩ := h
  rw [mx_bind_ok] at h
  obtain ⟨x', _, h⟩ := h
  rw [if_neg (by omega), mx_bind_ok] at h
  obtain ⟨y, hy', h⟩ := h
  have e1 : getDualSolution r.2 (some (E.e.alloc 23 (n.nC + n.nV + 2 * n.nComp))) = .ok (t, some (E.e.alloc 23 (n.nC + n.nV + 2 * n.nComp))) :=
    (C38_null r.2 t ht).2.2.2 _ hy
  have e2 : y = List.ofFn fun i : Fin k => E.e.junk 23 i := by
    rw [mexDual, dualTmp, e1, getNumberOfDuals, hk] at hy'
    simp only [ok_bind, deref_some, lift_ok, mx_ok_bind, initd_some] at hy'
    split at hy'
    · cases hy'
    · rw [lift_eq_ok, copyTo_ok (by simp [Env.alloc]; omega) (by simp)] at hy'
      injection hy' with hy'
      rw [← hy']
      apply List.ext_getElem
      · simp [Env.alloc]; omega
      · intro i h1 h2
        rw [List.getElem_append_left (by simp [Env.alloc] at h1 ⊢; omega)]
        simp [Env.alloc]
  rw [e2] at h
  split at h
  · injection h with h; rw [← h]
  · rw [mx_bind_ok] at h
    obtain ⟨f, _, h⟩ := h
    injection h with h
    rw [← h]

/-! ## C52: the parameter struct -/

/-- a scalar field of the parameter struct is missing (`none`) or holds the given number -/
def NumIs {β : Type} (fs : List (String × Mx β)) (name : String) (v : Option β) : Prop :=
  fs.lookup name = v.map fun v => .dbl 1 1 [v]

/-- a logical field is missing or holds the given value -/
def BoolIs {β : Type} (fs : List (String × Mx β)) (name : String) (v : Option Bool) : Prop :=
  fs.lookup name = v.map fun v => .logical 1 1 [v]

/-- a scalar field is missing or holds a number with the given integral part -/
def IntIs (E : MexEnv α) (fs : List (String × Mx α)) (name : String) (v : Option Int) : Prop :=
  match v with
  | none => fs.lookup name = none
  | some k => ∃ x, fs.lookup name = some (.dbl 1 1 [x]) ∧ E.toInt x = .ok k

/-- a struct of subsolver options is missing or read as the given value -/
def SubIs (get : Mx α → M Nat) (fs : List (String × Mx α)) (name : String) (v : Option Nat) : Prop :=
  match v with
  | none => fs.lookup name = none
  | some k => ∃ x, fs.lookup name = some x ∧ get x = .ok k

/-- contents of a parameter struct -/
structure Given (α : Type) where
  /-- stationarityTolerance -/
  statTol : Option α := none
  /-- complementarityTolerance -/
  complTol : Option α := none
  /-- initialPenaltyParameter -/
  rho0 : Option α := none
  /-- penaltyUpdateFactor -/
  factor : Option α := none
  /-- solveZeroPenaltyFirst -/
  zeroFirst : Option Bool := none
  /-- maxIterations, integral part -/
  maxIter : Option Int := none
  /-- maxPenaltyParameter, integral part -/
  maxRho : Option Int := none
  /-- nDynamicPenalty, integral part -/
  nDyn : Option Int := none
  /-- etaDynamicPenalty -/
  eta : Option α := none
  /-- printLevel, integral part -/
  printLevel : Option Int := none
  /-- storeSteps -/
  storeSteps : Option Bool := none
  /-- qpSolver, integral part -/
  qpSolver : Option Int := none
  /-- perturbStep -/
  perturb : Option Bool := none
  /-- qpOASES_options -/
  qpoases : Option Nat := none
  /-- OSQP_options -/
  osqp : Option Nat := none

/-- the struct has these contents -/
structure Given.Of (E : MexEnv α) (fs : List (String × Mx α)) (v : Given α) : Prop where
  statTol : NumIs fs "stationarityTolerance" v.statTol
  complTol : NumIs fs "complementarityTolerance" v.complTol
  rho0 : NumIs fs "initialPenaltyParameter" v.rho0
  factor : NumIs fs "penaltyUpdateFactor" v.factor
  zeroFirst : BoolIs fs "solveZeroPenaltyFirst" v.zeroFirst
  maxIter : IntIs E fs "maxIterations" v.maxIter
  maxRho : IntIs E fs "maxPenaltyParameter" v.maxRho
  nDyn : IntIs E fs "nDynamicPenalty" v.nDyn
  eta : NumIs fs "etaDynamicPenalty" v.eta
  printLevel : IntIs E fs "printLevel" v.printLevel
  storeSteps : BoolIs fs "storeSteps" v.storeSteps
  qpSolver : IntIs E fs "qpSolver" v.qpSolver
  perturb : BoolIs fs "perturbStep" v.perturb
  qpoases : SubIs E.qpo fs "qpOASES_options" v.qpoases
  osqp : SubIs E.osqp fs "OSQP_options" v.osqp

/-- the given value if there is one and it is acceptable, otherwise the default -/
def pick {β : Type} (ok : β → Bool) (v : Option β) (d : β) : β :=
  match v with
  | some v => if ok v then v else d
  | none => d

/-- The options which a parameter struct describes. -/
def Given.opts (v : Given α) (o : Options α) : Options α where
  statTol := pick (fun x => !(x <=. eps)) v.statTol o.statTol
  complTol := pick (fun x => !(x <=. eps)) v.complTol o.complTol
  rho0 := pick (fun x => !(x <=. zeroTol)) v.rho0 o.rho0
  factor := pick (fun x => !(x <=. one)) v.factor o.factor
  zeroFirst := v.zeroFirst.getD o.zeroFirst
  perturb := v.perturb.getD o.perturb
  maxIter := pick (fun k => decide (0 < k)) v.maxIter o.maxIter
  maxRho := pick (fun x => !(x <=. zero)) (v.maxRho.map ofInt) o.maxRho
  nDyn := v.nDyn.getD o.nDyn
  eta := pick (fun x => !((x <=. eps) || (one <=. x))) v.eta o.eta
  printLevel := pick (fun k => decide (0 ≤ k ∧ k ≤ 2)) v.printLevel o.printLevel
  storeSteps := v.storeSteps.getD o.storeSteps
  qpSolver := pick (fun k => decide (0 ≤ k ∧ k ≤ 2)) v.qpSolver o.qpSolver
  qpoases := v.qpoases.getD o.qpoases
  osqp := match v.osqp with
    | some a => some a
    | none => o.osqp

/-- apply a setter if there is a value -/
def upd {β : Type} (v : Option β) (f : β → Options α → Options α) (o : Options α) : Options α := v.elim o (f · o)

theorem numField_is {fs : List (String × Mx α)} {name : String} {v : Option α} (h : NumIs fs name v) (f : α → Options α → Options α)
    (o : Options α) : numField (.struct fs) name (fun v o => .ok (f v o)) o = .ok (upd v f o) := by
  have h' : (Mx.struct fs).field name = v.map fun v => .dbl 1 1 [v] := h
  rw [numField, h']
  cases v with
  | none => rfl
  | some v => rfl

theorem boolField_is {fs : List (String × Mx α)} {name : String} {v : Option Bool} (h : BoolIs fs name v) (f : Bool → Options α → Options α)
    (o : Options α) : boolField (.struct fs) name f o = .ok (upd v f o) := by
  have h' : (Mx.struct fs).field name = v.map fun v => .logical 1 1 [v] := h
  rw [boolField, h']
  cases v with
  | none => rfl
  | some v => rfl

theorem intField_is {E : MexEnv α} {fs : List (String × Mx α)} {name : String} {v : Option Int} (h : IntIs E fs name v)
    (f : Int → Options α → Options α) (o : Options α) :
    numField (.struct fs) name (fun v o => do let k ← E.toInt v; .ok (f k o)) o = .ok (upd v f o) := by
  cases v with
  | none =>
    have h' : (Mx.struct fs).field name = none := h
    rw [numField, h']
    rfl
  | some k =>
    obtain ⟨x, h1, h2⟩ := h
    have h' : (Mx.struct fs).field name = some (.dbl 1 1 [x]) := h1
    rw [numField, h']
    have h3 : (do let k ← E.toInt x; .ok (f k o)) = (.ok (f k o) : M (Options α)) := by rw [h2, ok_bind]
    exact congrArg lift h3

theorem subField_is {get : Mx α → M Nat} {fs : List (String × Mx α)} {name : String} {v : Option Nat} (h : SubIs get fs name v)
    (f : Nat → Options α → Options α) (o : Options α) : subField (.struct fs) name get f o = .ok (upd v f o) := by
  cases v with
  | none =>
    have h' : (Mx.struct fs).field name = none := h
    rw [subField, h']
    rfl
  | some k =>
    obtain ⟨x, h1, h2⟩ := h
    have h' : (Mx.struct fs).field name = some x := h1
    rw [subField, h']
    dsimp only
    rw [h2]
    rfl

/-- names of the logical fields -/
def boolNames : List String := ["solveZeroPenaltyFirst", "storeSteps", "perturbStep"]

/-- names of the numeric fields -/
def numNames : List String :=
  ["stationarityTolerance", "complementarityTolerance", "initialPenaltyParameter", "penaltyUpdateFactor", "maxIterations",
    "maxPenaltyParameter", "nDynamicPenalty", "etaDynamicPenalty", "printLevel", "qpSolver"]

theorem numField_absent {nm name : String} {a : Mx α} (h : (name == nm) = false) (f : α → Options α → M (Options α)) (o : Options α) :
    numField (.struct [(nm, a)]) name f o = .ok o := by
  simp [numField, Mx.field, List.lookup, h]

theorem boolField_absent {nm name : String} {a : Mx α} (h : (name == nm) = false) (f : Bool → Options α → Options α) (o : Options α) :
    boolField (.struct [(nm, a)]) name f o = .ok o := by
  simp [boolField, Mx.field, List.lookup, h]

theorem boolField_bad {nm : String} {a : Mx α} {e : Halt} (h : checkBool a 1 1 nm = .error e) (f : Bool → Options α → Options α)
    (o : Options α) : boolField (.struct [(nm, a)]) nm f o = .error e := by
  simp only [boolField, Mx.field, List.lookup, beq_self_eq_true, h]
  rfl

theorem numField_bad {nm : String} {a : Mx α} {e : Halt} (h : checkDouble a 1 1 nm = .error e) (f : α → Options α → M (Options α))
    (o : Options α) : numField (.struct [(nm, a)]) nm f o = .error e := by
  simp only [numField, Mx.field, List.lookup, beq_self_eq_true, h]
  rfl

theorem optFields_badBool (E : MexEnv α) {nm : String} (hn : nm ∈ boolNames) {a : Mx α} {e : Halt} (h : checkBool a 1 1 nm = .error e)
    (o : Options α) : optFields E (.struct [(nm, a)]) o = .error e := by
  simp only [boolNames, List.mem_cons, List.not_mem_nil, or_false] at hn
  rcases hn with rfl | rfl | rfl <;>
    · rw [optFields]
      repeat first
        | (rw [boolField_bad h]; exact mx_error_bind _ _)
        | (rw [numField_absent, mx_ok_bind]; rotate_left; · decide)
        | (rw [boolField_absent, mx_ok_bind]; rotate_left; · decide)

theorem optFields_badNum (E : MexEnv α) {nm : String} (hn : nm ∈ numNames) {a : Mx α} {e : Halt} (h : checkDouble a 1 1 nm = .error e)
    (o : Options α) : optFields E (.struct [(nm, a)]) o = .error e := by
  simp only [numNames, List.mem_cons, List.not_mem_nil, or_false] at hn
  rcases hn with rfl | rfl | rfl | rfl | rfl | rfl | rfl | rfl | rfl | rfl <;>
    · rw [optFields]
      repeat first
        | (rw [numField_bad h]; exact mx_error_bind _ _)
        | (rw [numField_absent, mx_ok_bind]; rotate_left; · decide)
        | (rw [boolField_absent, mx_ok_bind]; rotate_left; · decide)

/-- C52 (any arithmetic): a field that is not one value of its class stops the call.  A logical field must be a logical array, a numeric
field a double array, and both must be 1 x 1. -/
theorem C52_refused (E : MexEnv α) (o : Options α) (m n : Nat) (nm : String) :
    (nm ∈ boolNames →
      (∀ l, optFields E (.struct [(nm, .dbl m n l)]) o = .error (.type nm)) ∧
      optFields E (.struct [(nm, .other m n)]) o = .error (.type nm) ∧
      ∀ l, (m ≠ 1 ∨ n ≠ 1) → optFields E (.struct [(nm, .logical m n l)]) o = .error (.size nm)) ∧
    (nm ∈ numNames →
      (∀ l, optFields E (.struct [(nm, .logical m n l)]) o = .error (.type nm)) ∧
      optFields E (.struct [(nm, .other m n)]) o = .error (.type nm) ∧
      (∀ S : CSC α, (S.m ≠ 1 ∨ S.n ≠ 1) → optFields E (.struct [(nm, .sparse S)]) o = .error (.size nm)) ∧
      ∀ l, (m ≠ 1 ∨ n ≠ 1) → optFields E (.struct [(nm, .dbl m n l)]) o = .error (.size nm)) := by
  refine ⟨fun hn => ⟨fun l => optFields_badBool E hn rfl o, optFields_badBool E hn rfl o, fun l h => optFields_badBool E hn ?_ o⟩,
    fun hn => ⟨fun l => optFields_badNum E hn rfl o, optFields_badNum E hn rfl o, fun S h => optFields_badNum E hn ?_ o,
      fun l h => optFields_badNum E hn ?_ o⟩⟩
  · simp [checkBool, Mx.isLogical, Mx.rows, Mx.cols, h]
  · simp [checkDouble, Mx.isDouble, Mx.rows, Mx.cols, h]
  · simp [checkDouble, Mx.isDouble, Mx.rows, Mx.cols, h]

/-- C52 (any arithmetic): every field of the parameter struct reaches the option of its name, whatever the other fields are.  A value which
the setter rejects is ignored without notice to the caller.  `maxPenaltyParameter` is cut to an integer first. -/
theorem C52_options (E : MexEnv α) (fs : List (String × Mx α)) (v : Given α) (h : v.Of E fs) (o : Options α) :
    optFields E (.struct fs) o = .ok (v.opts o) := by
  obtain ⟨h1, h2, h3, h4, h5, h6, h7, h8, h9, h10, h11, h12, h13, h14, h15⟩ := h
  rw [optFields, numField_is h1 (fun x o => (o.setStatTol x).2), mx_ok_bind, numField_is h2 (fun x o => (o.setComplTol x).2), mx_ok_bind,
    numField_is h3 (fun x o => (o.setRho0 x).2), mx_ok_bind, numField_is h4 (fun x o => (o.setFactor x).2), mx_ok_bind,
    boolField_is h5, mx_ok_bind, intField_is h6 (fun k o => (o.setMaxIter k).2), mx_ok_bind,
    intField_is h7 (fun k o => (o.setMaxRho (ofInt k)).2), mx_ok_bind, intField_is h8 (fun k o => (o.setNDyn k).2), mx_ok_bind,
    numField_is h9 (fun x o => (o.setEta x).2), mx_ok_bind, intField_is h10 (fun k o => (o.setPrintLevel k).2), mx_ok_bind,
    boolField_is h11, mx_ok_bind, intField_is h12 (fun k o => (o.setQPSolver k).2), mx_ok_bind, boolField_is h13, mx_ok_bind,
    subField_is h14, mx_ok_bind, subField_is h15]
  have s1 : ∀ o : Options α, upd v.statTol (fun x o => (o.setStatTol x).2) o =
      { o with statTol := pick (fun x => !(x <=. eps)) v.statTol o.statTol } := by
    intro o
    cases v.statTol with
    | none => rfl
    | some x =>
      simp only [upd, Option.elim, pick, Options.setStatTol]
      by_cases hx : (x <=. eps) = true <;> simp [hx]
  have s2 : ∀ o : Options α, upd v.complTol (fun x o => (o.setComplTol x).2) o =
      { o with complTol := pick (fun x => !(x <=. eps)) v.complTol o.complTol } := by
    intro o
    cases v.complTol with
    | none => rfl
    | some x =>
      simp only [upd, Option.elim, pick, Options.setComplTol]
      by_cases hx : (x <=. eps) = true <;> simp [hx]
  have s3 : ∀ o : Options α, upd v.rho0 (fun x o => (o.setRho0 x).2) o =
      { o with rho0 := pick (fun x => !(x <=. zeroTol)) v.rho0 o.rho0 } := by
    intro o
    cases v.rho0 with
    | none => rfl
    | some x =>
      simp only [upd, Option.elim, pick, Options.setRho0]
      by_cases hx : (x <=. zeroTol) = true <;> simp [hx]
  have s4 : ∀ o : Options α, upd v.factor (fun x o => (o.setFactor x).2) o =
      { o with factor := pick (fun x => !(x <=. one)) v.factor o.factor } := by
    intro o
    cases v.factor with
    | none => rfl
    | some x =>
      simp only [upd, Option.elim, pick, Options.setFactor]
      by_cases hx : (x <=. one) = true <;> simp [hx]
  have s9 : ∀ o : Options α, upd v.eta (fun x o => (o.setEta x).2) o =
      { o with eta := pick (fun x => !((x <=. eps) || (one <=. x))) v.eta o.eta } := by
    intro o
    cases v.eta with
    | none => rfl
    | some x =>
      simp only [upd, Option.elim, pick, Options.setEta]
      by_cases hx : ((x <=. eps) || (one <=. x)) = true <;> simp [hx]
  have s6 : ∀ o : Options α, upd v.maxIter (fun x o => (o.setMaxIter x).2) o =
      { o with maxIter := pick (fun x => decide (0 < x)) v.maxIter o.maxIter } := by
    intro o
    cases v.maxIter with
    | none => rfl
    | some x =>
      simp only [upd, Option.elim, pick, Options.setMaxIter]
      by_cases hk : x ≤ 0
      · rw [if_pos hk, if_neg (by simp only [decide_eq_true_eq]; omega)]
      · rw [if_neg hk, if_pos (by simp only [decide_eq_true_eq]; omega)]
  have s10 : ∀ o : Options α, upd v.printLevel (fun x o => (o.setPrintLevel x).2) o =
      { o with printLevel := pick (fun x => decide (0 ≤ x ∧ x ≤ 2)) v.printLevel o.printLevel } := by
    intro o
    cases v.printLevel with
    | none => rfl
    | some x =>
      simp only [upd, Option.elim, pick, Options.setPrintLevel]
      by_cases hk : x < 0 ∨ x > 2
      · rw [if_pos hk, if_neg (by simp only [decide_eq_true_eq]; omega)]
      · rw [if_neg hk, if_pos (by simp only [decide_eq_true_eq]; omega)]
  have s12 : ∀ o : Options α, upd v.qpSolver (fun x o => (o.setQPSolver x).2) o =
      { o with qpSolver := pick (fun x => decide (0 ≤ x ∧ x ≤ 2)) v.qpSolver o.qpSolver } := by
    intro o
    cases v.qpSolver with
    | none => rfl
    | some x =>
      simp only [upd, Option.elim, pick, Options.setQPSolver]
      by_cases hk : x < 0 ∨ x > 2
      · rw [if_pos hk, if_neg (by simp only [decide_eq_true_eq]; omega)]
      · rw [if_neg hk, if_pos (by simp only [decide_eq_true_eq]; omega)]
  have s7 : ∀ o : Options α, upd v.maxRho (fun k o => (o.setMaxRho (ofInt k)).2) o =
      { o with maxRho := pick (fun x => !(x <=. zero)) (v.maxRho.map ofInt) o.maxRho } := by
    intro o
    cases v.maxRho with
    | none => rfl
    | some k =>
      simp only [upd, Option.elim, Option.map_some, pick, Options.setMaxRho]
      by_cases hx : ((ofInt k : α) <=. zero) = true <;> simp [hx]
  have s5 : ∀ o : Options α, upd v.zeroFirst (fun x o => (o.setZeroFirst x).2) o = { o with zeroFirst := v.zeroFirst.getD o.zeroFirst } := by
    intro o; cases v.zeroFirst <;> rfl
  have s8 : ∀ o : Options α, upd v.nDyn (fun x o => (o.setNDyn x).2) o = { o with nDyn := v.nDyn.getD o.nDyn } := by
    intro o; cases v.nDyn <;> rfl
  have s11 : ∀ o : Options α, upd v.storeSteps (fun x o => (o.setStoreSteps x).2) o = { o with storeSteps := v.storeSteps.getD o.storeSteps } := by
    intro o; cases v.storeSteps <;> rfl
  have s13 : ∀ o : Options α, upd v.perturb (fun x o => (o.setPerturb x).2) o = { o with perturb := v.perturb.getD o.perturb } := by
    intro o; cases v.perturb <;> rfl
  simp only [s1, s2, s3, s4, s5, s6, s7, s8, s9, s10, s11, s12, s13]
  cases h14 : v.qpoases <;> cases h15 : v.osqp <;> simp only [Given.opts, h14, h15] <;> rfl

end call

/-! ## examples -/

namespace Ex

/-- MATLAB with the given QP solver -/
def mex (qp : Nat → Req (Ext ℚ) → Resp (Ext ℚ)) : MexEnv (Ext ℚ) where
  e := envOf qp
  toInt := fun
    | .fin x => if -2147483649 < x ∧ x < 2147483648 then .ok (if 0 ≤ x then ⌊x⌋ else ⌈x⌉) else .error .overflow
    | _ => .error .overflow
  qpo := fun _ => .ok 0
  osqp := fun _ => .ok 0
  time := .fin 0
  dflt := opts

/-- the warm-up example -/
def call : MexCall (Ext ℚ) ⟨2, 0, 1⟩ where
  Q := !![.fin 2, .fin 0; .fin 0, .fin 2]
  g := ![.fin (-2), .fin (-2)]
  L := !![.fin 1, .fin 0]
  R := !![.fin 0, .fin 1]

/-- the solver answers as in `env` -/
def qpGood : Nat → Req (Ext ℚ) → Resp (Ext ℚ) := fun _ _ => good [1, 0] [0, 0, 0, -199/100]

/-- the solver always fails -/
def qpBad : Nat → Req (Ext ℚ) → Resp (Ext ℚ) := fun _ _ => { good [1, 0] [0, 0, 0, 0] with ret := 33 }

/-- C50: the hypotheses of `C50_outcome` can be met -/
example : ∃ o, mexLoad (mex qpGood) call.prhs = .ok (⟨2, 0, 1⟩, opts, o) ∧ call.Held call.Q o := by
  have hs : call.Qᵀ = call.Q := by decide +kernel
  rcases C50_outcome (mex qpGood) call (by decide) (by decide) (fun _ => rfl) (p := { opts := opts }) rfl (by rintro v ⟨⟩) (by rintro v ⟨⟩) with
    ⟨h, _⟩ | ⟨_, o, h, h'⟩
  · rcases h with ⟨w, h, _⟩ | ⟨w, h, _⟩ <;> cases h
  · exact ⟨o, h, (C50_symmetric call h').2 hs⟩

/-- C50: an unsymmetric `Q` is transposed -/
example : (mexLoad (mex qpGood) { call with Q := !![.fin 2, .fin 1; .fin 0, .fin 2] : MexCall (Ext ℚ) ⟨2, 0, 1⟩ }.prhs).map
    (·.2.2.d.Q) = .ok (some [.fin 2, .fin 0, .fin 1, .fin 2]) := by
  decide +kernel

/-- C44, C50: a whole call -/
example : (mexFunction (mex qpGood) 5 2 call.prhs).map (Option.map fun r => (r.x, r.y)) =
    .ok (some ([.fin 1, .fin 0], some [.fin 0, .fin 0, .fin 0, .fin (-2)])) := by
  decide +kernel

/-- two complementarity pairs, `lbL` has the given entries -/
def call2 (l : List ℚ) : List (Mx (Ext ℚ)) :=
  [.dbl 2 2 (emb [2, 0, 0, 2]), .dbl 2 1 (emb [-2, -2]), .dbl 2 2 (emb [1, 0, 0, 1]), .dbl 2 2 (emb [0, 1, 1, 0]), .dbl l.length 1 (emb l),
    .dbl 0 0 [], .dbl 0 0 [], .dbl 0 0 []]

/-- C51: `lbL` of the wrong size is accepted and read past its end -/
example : (mexLoad (mex qpGood) (call2 [0, 0])).map (fun _ => ()) = .ok () ∧
    (mexLoad (mex qpGood) (call2 [0])).map (fun _ => ()) = .error (.fault .oob) := by
  refine ⟨?_, ?_⟩ <;> decide +kernel

/-- C51: a sparse `g`, or a sparse `L` together with a full `Q`, passes the checks; only the nonzero entries exist in memory -/
example : (mexLoad (mex qpGood) (call2 [0, 0] |>.set 1 (.sparse (createCSC 2 1 1 (emb [-2]) [0] [0, 1])))).map (fun _ => ()) =
      .error (.fault .oob) ∧
    (mexLoad (mex qpGood) (call2 [0, 0] |>.set 2 (.sparse (createCSC 2 2 2 (emb [1, 1]) [0, 1] [0, 1, 2])))).map (fun _ => ()) =
      .error (.fault .oob) := by
  refine ⟨?_, ?_⟩ <;> decide +kernel

/-- the sparse warm-up example with parameters -/
def callS (fs : List (String × Mx (Ext ℚ))) : List (Mx (Ext ℚ)) :=
  [.sparse (createCSC 2 2 2 (emb [2, 2]) [0, 1] [0, 1, 2]), .dbl 2 1 (emb [-2, -2]), .sparse (createCSC 1 2 1 (emb [1]) [0] [0, 1, 1]),
    .sparse (createCSC 1 2 1 (emb [1]) [0] [0, 0, 1]), .dbl 0 0 [], .dbl 0 0 [], .dbl 0 0 [], .dbl 0 0 [], .struct fs]

/-- C51: OSQP with a dual guess of the demanded size `nC + 2*nComp = 2`; without it the load succeeds, with another size it is refused -/
example : (mexLoad (mex qpGood) (callS [("qpSolver", .dbl 1 1 [.fin 2])])).map (fun _ => ()) = .ok () ∧
    (mexLoad (mex qpGood) (callS [("qpSolver", .dbl 1 1 [.fin 2]), ("y0", .dbl 2 1 (emb [0, 0]))])).map (fun _ => ()) = .error (.fault .oob) ∧
    (mexLoad (mex qpGood) (callS [("qpSolver", .dbl 1 1 [.fin 2]), ("y0", .dbl 4 1 (emb [0, 0, 0, 0]))])).map (fun _ => ()) =
      .error (.size "y0") := by
  refine ⟨?_, ?_, ?_⟩ <;> decide +kernel

/-- C52: parameters reach the options; rejected values are ignored; the maximum penalty parameter is cut to an integer -/
example : (optFields (mex qpGood) (.struct [("penaltyUpdateFactor", .dbl 1 1 [.fin 3]), ("etaDynamicPenalty", .dbl 1 1 [.fin 2]),
      ("maxPenaltyParameter", .dbl 1 1 [.fin (5 / 2)])]) opts).map (fun o => (o.factor, o.eta, o.maxRho)) =
      .ok (.fin 3, opts.eta, .fin 2) ∧
    (optFields (mex qpGood) (.struct [("maxPenaltyParameter", .dbl 1 1 [.fin (1 / 2)])]) opts).map (·.maxRho) = .ok opts.maxRho ∧
    (optFields (mex qpGood) (.struct [("maxPenaltyParameter", .dbl 1 1 [.fin 10000000000])]) opts).map (·.maxRho) =
      .error (.fault .overflow) := by
  refine ⟨?_, ?_, ?_⟩ <;> decide +kernel

/-- C51: a guess of three entries for a problem with two variables, and a character array -/
example : (readParams (mex qpGood) ⟨2, 0, 1⟩ (.struct [("x0", .dbl 3 1 (emb [0, 0, 0]))])).map (fun _ => ()) = .error (.size "x0") ∧
    (readParams (mex qpGood) ⟨2, 0, 1⟩ (.struct [("x0", .other 2 1)])).map (fun _ => ()) = .error (.type "x0") ∧
    (readParams (mex qpGood) ⟨2, 0, 1⟩ (.struct [("x0", .dbl 2 1 (emb [0, 0]))])).map (fun _ => ()) = .ok () := by
  refine ⟨?_, ?_, ?_⟩ <;> decide +kernel

/-- C52: a row of two logical values, a number for a flag, and a flag for a number -/
example : (optFields (mex qpGood) (.struct [("storeSteps", .logical 1 2 [true, false])]) opts).map (fun _ => ()) =
      .error (.size "storeSteps") ∧
    (optFields (mex qpGood) (.struct [("storeSteps", .dbl 1 1 [.fin 1])]) opts).map (fun _ => ()) = .error (.type "storeSteps") ∧
    (optFields (mex qpGood) (.struct [("qpSolver", .logical 1 1 [true])]) opts).map (fun _ => ()) = .error (.type "qpSolver") ∧
    (optFields (mex qpGood) (.struct [("storeSteps", .logical 1 1 [true])]) opts).map (·.storeSteps) = .ok true := by
  refine ⟨?_, ?_, ?_, ?_⟩ <;> decide +kernel

/-- C53: sparse matrices with the default (dense) solver -/
example : (mexFunction (mex qpGood) 5 1 (callS [])).map (fun _ => ()) = .error (.fault .uninit) := by
  decide +kernel

/-- C53: the first QP fails, and the dual output is uninitialised memory (here NaN) -/
example : (mexFunction (mex qpBad) 5 2 call.prhs).map (Option.map fun r => (r.x, r.y)) =
    .ok (some ([.fin 0, .fin 0], some [.nan, .nan, .nan, .nan])) := by
  decide +kernel

end Ex
end LCQ
