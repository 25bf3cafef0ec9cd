import Verif.Model.Object

/-!
# Loading a problem: /repo/src/LCQProblem.cpp:87-144, 390-441, 563-796 and /repo/include/LCQProblem.ipp

Functions that change the object and return a code give `M (RV × ...)`.
-/

namespace LCQ
open Scalar

variable {α : Type} [Scalar α]

/-- `setQ(const double*)`, /repo/include/LCQProblem.ipp:27-36 -/
def setQ (d : Data α) (Q : Option (List α)) : M (RV × Data α) := do
  let n ← initd d.dims
  if n.nV = 0 then .ok (.lcqpobjectNotSetup, d)
  else do
    let q ← deref Q
    let q ← copyN q (n.nV * n.nV)
    .ok (.successfulReturn, { d with Q := some q })

/-- `setG`, /repo/include/LCQProblem.ipp:39-51 -/
def setG (d : Data α) (g : Option (List α)) : M (RV × Data α) := do
  let n ← initd d.dims
  if n.nV = 0 then .ok (.lcqpobjectNotSetup, d)
  else match g with
    | none => .ok (.invalidObjectiveLinearTerm, d)
    | some g => do
      let g ← copyN g n.nV
      .ok (.successfulReturn, { d with g := some g })

/-- copy of an optional array argument -/
def copyOpt (a : Option (List α)) (n : Nat) : M (Option (List α)) :=
  match a with
  | none => .ok none
  | some b => do let b ← copyN b n; .ok (some b)

/-- copying of box bounds to temporaries, /repo/src/LCQProblem.cpp:113-121, 427-435; a missing argument
leaves the member alone -/
def setTmp (d : Data α) (lb ub : Option (List α)) : M (Data α) := do
  let n ← initd d.dims
  let l ← copyOpt lb n.nV
  let u ← copyOpt ub n.nV
  .ok { d with lbTmp := l.orElse fun _ => d.lbTmp, ubTmp := u.orElse fun _ => d.ubTmp }

/-- the bounds `lbA`, `ubA` of the linear constraints written into the first `nC` entries of a new
array of `nC + 2*nComp` entries; `dflt` is `-INFINITY` or `INFINITY`;
/repo/src/LCQProblem.cpp:586-610 and 693-717 -/
def fillBound (b : Option (List α)) (nC : Nat) (dflt : α) (fresh : List α) : M (List α) :=
  match b with
  | some b => loop nC (fun i a => do let v ← rd b i; wr a i v) fresh
  | none => loop nC (fun i a => wr a i dflt) fresh

/-- stacking of (A; L; R), /repo/src/LCQProblem.cpp:572-582.  The arguments are dereferenced only when
an element is read. -/
def stackDense (e : Env α) (n : Dims) (L R A : Option (List α)) : M (List α) := do
  let M0 := e.alloc 0 ((n.nC + 2 * n.nComp) * n.nV)
  let M1 ← loop (n.nC * n.nV) (fun i M => do let a ← deref A; let v ← rd a i; wr M i v) M0
  let M2 ← loop (n.nComp * n.nV) (fun i M => do
    let a ← deref L; let v ← rd a i; wr M (i + n.nC * n.nV) v) M1
  loop (n.nComp * n.nV) (fun i M => do
    let a ← deref R; let v ← rd a i; wr M (i + n.nC * n.nV + n.nComp * n.nV) v) M2

/-- dense `setConstraints`, /repo/src/LCQProblem.cpp:563-626 -/
def setConstraints (e : Env α) (d : Data α) (L R A lbA ubA : Option (List α)) :
    M (RV × Data α) := do
  let n ← initd d.dims
  if n.nV = 0 ∨ n.nComp = 0 then .ok (.lcqpobjectNotSetup, d)
  else if A = none ∧ 0 < n.nC then .ok (.invalidConstraintMatrix, d)
  else do
    let M ← stackDense e n L R A
    let l ← fillBound lbA n.nC (-. inf) (e.alloc 1 n.nA)
    let u ← fillBound ubA n.nC inf (e.alloc 2 n.nA)
    let d := { d with A := some M, lbA := some l, ubA := some u }
    match L, R with
    | some L, some R => do
      let Lc ← loop (n.nComp * n.nV) (fun i b => do let v ← rd L i; wr b i v)
        (e.alloc 3 (n.nComp * n.nV))
      let Rc ← loop (n.nComp * n.nV) (fun i b => do let v ← rd R i; wr b i v)
        (e.alloc 4 (n.nComp * n.nV))
      let C ← symProd Lc Rc (e.alloc 5 (n.nV * n.nV)) n.nComp n.nV
      .ok (.successfulReturn, { d with L := some Lc, R := some Rc, C := some C })
    | _, _ => .ok (.invalidComplementarityMatrix, d)

/-- `setQ(const csc*)`, /repo/src/LCQProblem.cpp:788-796 -/
def setQs (d : Data α) (Q : Option (CSC α)) : M (RV × Data α) := do
  let n ← initd d.dims
  if n.nV = 0 then .ok (.lcqpobjectNotSetup, d)
  else do
    let q ← deref Q
    let q ← copyCSC q
    .ok (.successfulReturn, { d with Qs := some q })

/-- append one entry to arrays of fixed capacity -/
def Build.pushCap (b : Build α) (cap : Int) (r : Int) (v : α) : M (Build α) :=
  if (b.rows.length : Int) < cap then .ok (b.push r v) else .error .oob

/-- append the entries of column `j` of `S`, row indices shifted by `off`;
/repo/src/LCQProblem.cpp:663-688 -/
def appendCol (S : CSC α) (j : Nat) (off : Nat) (cap : Int) (b : Build α) : M (Build α) := do
  let lo ← rd S.p j
  let hi ← rd S.p (j + 1)
  loopI lo hi (fun k b => do
    let v ← rdI S.x k
    let r ← rdI S.i k
    b.pushCap cap ((off : Int) + r) v) b

/-- `A->p[nV]` or 0 without `A`, /repo/src/LCQProblem.cpp:636-641 -/
def nnzOpt (A : Option (CSC α)) (n : Nat) : M Int :=
  match A with
  | none => .ok 0
  | some A => rd A.p n

/-- the column of `A`, if given, /repo/src/LCQProblem.cpp:656-664 -/
def appendColOpt (A : Option (CSC α)) (j : Nat) (cap : Int) (b : Build α) : M (Build α) :=
  match A with
  | none => .ok b
  | some A => appendCol A j 0 cap b

/-- stacking of the sparse matrices, /repo/src/LCQProblem.cpp:633-690.  `L`, `R` are the copies. -/
def stackSparse (e : Env α) (n : Dims) (L R : CSC α) (A : Option (CSC α)) : M (CSC α) := do
  let pl ← rd L.p n.nV
  let pr ← rd R.p n.nV
  let pa ← nnzOpt A n.nV
  let nnx := pl + pr + pa
  let b ← loop n.nV (fun j b => do
    let b ← appendColOpt A j nnx b
    let b ← appendCol L j n.nC nnx b
    let b ← appendCol R j (n.nC + n.nComp) nnx b
    .ok b.close) Build.init
  .ok (createCSC (n.nC + 2 * n.nComp) n.nV nnx.toNat
    (b.data ++ (e.alloc 6 nnx.toNat).drop b.data.length)
    (b.rows ++ ((List.range nnx.toNat).map e.junkI).drop b.rows.length) b.p)

/-- sparse `setConstraints`, /repo/src/LCQProblem.cpp:629-723 -/
def setConstraintsSparse (e : Env α) (d : Data α) (L R A : Option (CSC α))
    (lbA ubA : Option (List α)) : M (RV × Data α) := do
  let n ← initd d.dims
  let L ← deref L
  let L ← copyCSC L
  let R ← deref R
  let R ← copyCSC R
  let As ← stackSparse e n L R A
  let l ← fillBound lbA n.nC (-. inf) (e.alloc 1 n.nA)
  let u ← fillBound ubA n.nC inf (e.alloc 2 n.nA)
  let C ← symProdSparse L R
  let d := { d with Ls := some L, Rs := some R, As := some As, lbA := some l, ubA := some u, Cs := C }
  match C with
  | none => .ok (.failedSymComplementarityMatrix, d)
  | some _ => .ok (.successfulReturn, d)

/-- State of `setComplementarityBounds`: lower bound copy, upper bound copy, lbA, ubA. -/
structure BndSt (α : Type) where
  /-- lbL or lbR -/
  l : Option (List α)
  /-- ubL or ubR -/
  u : Option (List α)
  /-- lbA -/
  lA : List α
  /-- ubA -/
  uA : List α

/-- lower bound part of the loop body, /repo/src/LCQProblem.cpp:747-756, 766-775; `inr` is the early
return -/
def bndLower (off : Nat) (lbN : Option (List α)) (i : Nat) (s : BndSt α) : M (BndSt α ⊕ BndSt α) :=
  match lbN with
  | some b => do
    let v ← rd b i
    if v <=. (-. inf) then .ok (.inr s)
    else do
      let lb ← deref s.l
      let lb ← wr lb i v
      let lA ← wr s.lA (off + i) v
      .ok (.inl { s with l := some lb, lA := lA })
  | none => do
    let lA ← wr s.lA (off + i) zero
    .ok (.inl { s with lA := lA })

/-- upper bound part of the loop body, /repo/src/LCQProblem.cpp:757-761, 776-781 -/
def bndUpper (off : Nat) (ubN : Option (List α)) (i : Nat) (s : BndSt α) : M (BndSt α) :=
  match ubN with
  | some b => do
    let v ← rd b i
    let ub ← deref s.u
    let ub ← wr ub i v
    let uA ← wr s.uA (off + i) v
    .ok { s with u := some ub, uA := uA }
  | none => do
    let uA ← wr s.uA (off + i) inf
    .ok { s with uA := uA }

/-- one of the two loops of `setComplementarityBounds`; `off` is `nC` or `nC + nComp`;
/repo/src/LCQProblem.cpp:746-762 and 765-782.  `inr` is the early return. -/
def bndLoop (nComp off : Nat) (lbN ubN : Option (List α)) (s : BndSt α) :
    M (BndSt α ⊕ BndSt α) :=
  loopE nComp (fun i s => do
    let r ← bndLower off lbN i s
    match r with
    | .inr s => .ok (.inr s)
    | .inl s => do
      let s ← bndUpper off ubN i s
      .ok (.inl s)) s

/-- `new double[nComp]` if the argument is given, otherwise the member is left alone -/
def newIf (e : Env α) (site n : Nat) (arg old : Option (List α)) : Option (List α) :=
  if arg = none then old else some (e.alloc site n)

/-- `setComplementarityBounds`, /repo/src/LCQProblem.cpp:726-785 -/
def setCompBounds (e : Env α) (d : Data α) (lbL ubL lbR ubR : Option (List α)) :
    M (RV × Data α) := do
  let n ← initd d.dims
  let lA ← deref d.lbA
  let uA ← deref d.ubA
  let lR0 := newIf e 9 n.nComp lbR d.lbR
  let uR0 := newIf e 10 n.nComp ubR d.ubR
  let r ← bndLoop n.nComp n.nC lbL ubL
    { l := newIf e 7 n.nComp lbL d.lbL, u := newIf e 8 n.nComp ubL d.ubL, lA := lA, uA := uA }
  match r with
  | .inr s => .ok (.invalidLowerComplementarityBound,
      { d with lbL := s.l, ubL := s.u, lbR := lR0, ubR := uR0, lbA := some s.lA, ubA := some s.uA })
  | .inl s => do
    let r2 ← bndLoop n.nComp (n.nC + n.nComp) lbR ubR { l := lR0, u := uR0, lA := s.lA, uA := s.uA }
    match r2 with
    | .inr t => .ok (.invalidLowerComplementarityBound,
        { d with lbL := s.l, ubL := s.u, lbR := t.l, ubR := t.u, lbA := some t.lA, ubA := some t.uA })
    | .inl t => .ok (.successfulReturn,
        { d with lbL := s.l, ubL := s.u, lbR := t.l, ubR := t.u, lbA := some t.lA, ubA := some t.uA })

/-- the primal guess, zero if missing, /repo/include/LCQProblem.ipp:138-142 -/
def guessX (x0 : Option (List α)) (n : Nat) : M (List α) :=
  match x0 with
  | none => .ok (List.replicate n zero)
  | some x => copyN x n

/-- the dual guess, null if missing, /repo/include/LCQProblem.ipp:144-155 -/
def guessY (e : Env α) (y0 : Option (List α)) (n : Nat) : M (Option (List α)) :=
  match y0 with
  | none => .ok none
  | some y => do
    let y ← loop n (fun i b => do let v ← rd y i; wr b i v) (e.alloc 11 n)
    .ok (some y)

/-- `setInitialGuess`, /repo/include/LCQProblem.ipp:133-158 -/
def setInitialGuess (e : Env α) (d : Data α) (s : St α) (x0 y0 : Option (List α)) :
    M (RV × St α) := do
  let n ← initd d.dims
  if n.nV = 0 ∨ n.nComp = 0 then .ok (.lcqpobjectNotSetup, s)
  else do
    let x ← guessX x0 n.nV
    let y ← guessY e y0 (n.nV + n.nC + 2 * n.nComp)
    .ok (.successfulReturn, { s with xk := some x, yk := y })

/-- Arguments of the dense `loadLCQP`. -/
structure DenseArgs (α : Type) where
  /-- Q -/
  Q : Option (List α)
  /-- g -/
  g : Option (List α)
  /-- L -/
  L : Option (List α)
  /-- R -/
  R : Option (List α)
  /-- lbL -/
  lbL : Option (List α) := none
  /-- ubL -/
  ubL : Option (List α) := none
  /-- lbR -/
  lbR : Option (List α) := none
  /-- ubR -/
  ubR : Option (List α) := none
  /-- A -/
  A : Option (List α) := none
  /-- lbA -/
  lbA : Option (List α) := none
  /-- ubA -/
  ubA : Option (List α) := none
  /-- lb -/
  lb : Option (List α) := none
  /-- ub -/
  ub : Option (List α) := none
  /-- x0 -/
  x0 : Option (List α) := none
  /-- y0 -/
  y0 : Option (List α) := none

/-- `return MessageHandler::PrintMessage( ret, ERROR )` -/
def failWith (r : RV) (o : Obj α) : M (RV × Obj α) := .ok (r, { o with s := o.s.say (.msg r) })

/-- the common tail of both load functions from `setComplementarityBounds` on is similar; this is
`ret = f(); if (ret != SUCCESSFUL_RETURN) return PrintMessage(ret, ERROR);` for the data part -/
def thenData (m : M (RV × Data α)) (s : St α) (k : Data α → M (RV × Obj α)) : M (RV × Obj α) := do
  let r ← m
  if r.1 ≠ .successfulReturn then failWith r.1 { d := r.2, s := s } else k r.2

/-- the same for functions changing the iteration data -/
def thenSt (m : M (RV × St α)) (d : Data α) (k : St α → M (RV × Obj α)) : M (RV × Obj α) := do
  let r ← m
  if r.1 ≠ .successfulReturn then failWith r.1 { d := d, s := r.2 } else k r.2

/-- dense `loadLCQP`, /repo/src/LCQProblem.cpp:87-144 -/
def loadDense (e : Env α) (o : Obj α) (a : DenseArgs α) : M (RV × Obj α) := do
  let n ← initd o.d.dims
  if n.nV = 0 ∨ n.nComp = 0 then failWith .lcqpobjectNotSetup o
  else
    thenData (setQ o.d a.Q) o.s fun d =>
    thenData (setG d a.g) o.s fun d => do
    let d ← setTmp d a.lb a.ub
    thenData (setConstraints e d a.L a.R a.A a.lbA a.ubA) o.s fun d =>
      thenData (setCompBounds e d a.lbL a.ubL a.lbR a.ubR) o.s fun d =>
      thenSt (setInitialGuess e d o.s a.x0 a.y0) d fun s =>
      .ok (.successfulReturn, { d := { d with sparse := false }, s := s })

/-- Arguments of the sparse `loadLCQP`. -/
structure SparseArgs (α : Type) where
  /-- Q -/
  Q : Option (CSC α)
  /-- g -/
  g : Option (List α)
  /-- L -/
  L : Option (CSC α)
  /-- R -/
  R : Option (CSC α)
  /-- lbL -/
  lbL : Option (List α) := none
  /-- ubL -/
  ubL : Option (List α) := none
  /-- lbR -/
  lbR : Option (List α) := none
  /-- ubR -/
  ubR : Option (List α) := none
  /-- A -/
  A : Option (CSC α) := none
  /-- lbA -/
  lbA : Option (List α) := none
  /-- ubA -/
  ubA : Option (List α) := none
  /-- lb -/
  lb : Option (List α) := none
  /-- ub -/
  ub : Option (List α) := none
  /-- x0 -/
  x0 : Option (List α) := none
  /-- y0 -/
  y0 : Option (List α) := none

/-- sparse `loadLCQP`, /repo/src/LCQProblem.cpp:390-441 -/
def loadSparse (e : Env α) (o : Obj α) (a : SparseArgs α) : M (RV × Obj α) :=
  thenData (setQs o.d a.Q) o.s fun d =>
  thenData (setG d a.g) o.s fun d =>
  thenData (setConstraintsSparse e d a.L a.R a.A a.lbA a.ubA) o.s fun d =>
  thenData (setCompBounds e d a.lbL a.ubL a.lbR a.ubR) o.s fun d =>
  thenSt (setInitialGuess e d o.s a.x0 a.y0) d fun s => do
  let d ← setTmp d a.lb a.ub
  .ok (.successfulReturn, { d := { d with sparse := true }, s := s })

/-- `setOptions`, /repo/include/LCQProblem.ipp:161-164 -/
def setOptions (o : Obj α) (opts : Options α) : Obj α := { o with d := { o.d with opts := opts } }

/-- `switchToSparseMode`, /repo/src/LCQProblem.cpp:1037-1068.  `dns_to_csc` never returns the null
pointer, so the failure branch is left out of the dense-to-sparse direction. -/
def switchToSparse (o : Obj α) : M (RV × Obj α) :=
  if o.d.sparse then .ok (.successfulReturn, o)
  else do
    let n ← initd o.d.dims
    let Q ← deref o.d.Q
    let Qs ← dnsToCsc Q n.nV n.nV
    let A ← deref o.d.A
    let As ← dnsToCsc A (n.nC + 2 * n.nComp) n.nV
    let L ← deref o.d.L
    let Ls ← dnsToCsc L n.nComp n.nV
    let R ← deref o.d.R
    let Rs ← dnsToCsc R n.nComp n.nV
    let C ← deref o.d.C
    let Cs ← dnsToCsc C n.nV n.nV
    .ok (.successfulReturn, { o with d := { o.d with
      Qs := some Qs, As := some As, Ls := some Ls, Rs := some Rs, Cs := some Cs,
      Q := none, A := none, L := none, R := none, C := none, sparse := true } })

/-- `switchToDenseMode`, /repo/src/LCQProblem.cpp:1071-1102 -/
def switchToDense (o : Obj α) : M (RV × Obj α) :=
  if !o.d.sparse then .ok (.successfulReturn, o)
  else do
    let Qs ← deref o.d.Qs
    let Q ← cscToDns Qs
    let As ← deref o.d.As
    let A ← cscToDns As
    let Ls ← deref o.d.Ls
    let L ← cscToDns Ls
    let Rs ← deref o.d.Rs
    let R ← cscToDns Rs
    let Cs ← deref o.d.Cs
    let C ← cscToDns Cs
    let d := { o.d with Q := Q, A := A, L := L, R := R, C := C }
    if Q = none ∨ A = none ∨ L = none ∨ R = none ∨ C = none then
      .ok (.failedSwitchToDense, { o with d := d })
    else
      .ok (.successfulReturn, { o with d := { d with
        Qs := none, As := none, Ls := none, Rs := none, Cs := none, sparse := false } })

end LCQ
