import Verif.Model.Solver

/-!
# The model with checked `int` arithmetic

The other files compute sizes and indices with natural numbers.  In the source they are of type `int`.  Here the
definitions that compute sizes and indices are repeated with every addition and multiplication checked: a result that does
not fit is the fault `overflow`, in the order of evaluation of the source.  Definitions that call a repeated one are
repeated without change (inside this namespace the names refer to the checked versions).

Not checked: loop counters (they stay below their bound), the numbers of stored entries counted while a sparse matrix is
built (these are checked in `Model/CheckedCount.lean`), `j + 1` for a column `j`, sizes in bytes (they are of type `size_t`), and the functions of the interfaces and for files.
-/

namespace LCQ.Chk
open LCQ Scalar

variable {α : Type} [Scalar α]

/-- result of an `int` addition or multiplication of numbers which are not negative -/
def chk (v : Nat) : M Nat := if (v : Int) ≤ intMax then .ok v else .error .overflow

/-- `a * b` on `int` -/
def mulInt (a b : Int) : M Int :=
  if -intMax - 1 ≤ a * b ∧ a * b ≤ intMax then .ok (a * b) else .error .overflow

/-- the index `i*w + j` -/
def ix (i w j : Nat) : M Nat := do
  let t ← chk (i * w)
  chk (t + j)

/-- `nC + 2*nComp` -/
def numA (n : Dims) : M Nat := do
  let t ← chk (2 * n.nComp)
  chk (n.nC + t)

/-- `nV + nC + 2*nComp` -/
def numDuals (n : Dims) : M Nat := do
  let s ← chk (n.nV + n.nC)
  let t ← chk (2 * n.nComp)
  chk (s + t)

/-! ## Utilities -/

/-- `Utilities::MatrixMultiplication` dense, /repo/src/Utilities.cpp:38-47. -/
def matMul (A B C : List α) (m n p : Nat) : M (List α) :=
  loop m (fun i C => loop p (fun j C => do
    let q ← ix i p j
    let C ← wr C q zero
    loop n (fun k C => do
      let q ← ix i p j
      let c ← rd C q
      let q ← ix i n k
      let a ← rd A q
      let q ← ix k p j
      let b ← rd B q
      let q ← ix i p j
      wr C q (c +. a *. b)) C) C) C

/-- `Utilities::TransponsedMatrixMultiplication` dense, /repo/src/Utilities.cpp:63-73. -/
def matTMul (A B C : List α) (m n p : Nat) : M (List α) :=
  loop n (fun i C => loop p (fun j C => do
    let q ← ix i p j
    let C ← wr C q zero
    loop m (fun k C => do
      let q ← ix i p j
      let c ← rd C q
      let q ← ix k n i
      let a ← rd A q
      let q ← ix k p j
      let b ← rd B q
      let q ← ix i p j
      wr C q (c +. a *. b)) C) C) C

/-- `Utilities::AddTransponsedMatrixMultiplication` dense, /repo/src/Utilities.cpp:86-94. -/
def addMatTMul (A B C : List α) (m n p : Nat) : M (List α) :=
  loop n (fun i C => loop p (fun j C =>
    loop m (fun k C => do
      let q ← ix i p j
      let c ← rd C q
      let q ← ix k n i
      let a ← rd A q
      let q ← ix k p j
      let b ← rd B q
      let q ← ix i p j
      wr C q (c +. a *. b)) C) C) C

/-- `Utilities::MatrixSymmetrizationProduct` dense, /repo/src/Utilities.cpp:105-117. -/
def symProd (A B C : List α) (m n : Nat) : M (List α) :=
  loop n (fun i C => loop (i + 1) (fun j C => do
    let q ← ix i n j
    let C ← wr C q zero
    let C ← loop m (fun k C => do
      let q ← ix i n j
      let c ← rd C q
      let q ← ix k n i
      let a1 ← rd A q
      let q ← ix k n j
      let b1 ← rd B q
      let q ← ix k n i
      let b2 ← rd B q
      let q ← ix k n j
      let a2 ← rd A q
      let q ← ix i n j
      wr C q (c +. (a1 *. b1 +. b2 *. a2))) C
    let q ← ix i n j
    let v ← rd C q
    let q ← ix j n i
    wr C q v) C) C

/-- `Utilities::AffineLinearTransformation` dense, /repo/src/Utilities.cpp:176-186. -/
def affine (alpha : α) (A b c d : List α) (m n : Nat) : M (List α) :=
  loop m (fun i d => do
    let tmp ← loop n (fun k tmp => do
      let q ← ix i n k
      let a ← rd A q
      let bk ← rd b k
      .ok (tmp +. a *. bk)) zero
    let ci ← rd c i
    wr d i (alpha *. tmp +. ci)) d

/-- `Utilities::WeightedMatrixAdd`, /repo/src/Utilities.cpp:202-206.  The inputs may alias
the output. -/
def weightedAdd (alpha : α) (A : Src α) (beta : α) (B : Src α) (C : List α) (m n : Nat) :
    M (List α) :=
  loop m (fun i C => loop n (fun j C => do
    let q ← ix i n j
    let a ← A.rd C q
    let q ← ix i n j
    let b ← B.rd C q
    let q ← ix i n j
    wr C q (alpha *. a +. beta *. b)) C) C

/-- `Utilities::WeightedVectorAdd`, /repo/src/Utilities.cpp:209-211. -/
def weightedVecAdd (alpha : α) (a : Src α) (beta : α) (b : Src α) (c : List α) (m : Nat) :
    M (List α) := weightedAdd alpha a beta b c m 1

/-- `Utilities::QuadraticFormProduct` dense, /repo/src/Utilities.cpp:214-225. -/
def quadForm (Q p : List α) (m : Nat) : M α :=
  loop m (fun i ret => do
    let tmp ← loop m (fun j tmp => do
      let q ← ix i m j
      let q ← rd Q q
      let pj ← rd p j
      .ok (tmp +. q *. pj)) zero
    let pi ← rd p i
    .ok (ret +. tmp *. pi)) zero

/-- `Utilities::dns_to_csc`, /repo/src/Utilities.cpp:620-650 (`p` grows, see `Build`). -/
def dnsToCsc (full : List α) (m n : Nat) : M (CSC α) := do
  let b ← loop n (fun i b => do
    let b ← loop m (fun j b => do
      let q ← ix j n i
      let v ← rd full q
      if (zero <. v) || (v <. zero) then .ok (Build.push b j v) else .ok b) b
    .ok b.close) Build.init
  .ok (createCSC m n b.rows.length b.data b.rows b.p)

/-- `Utilities::csc_to_dns`, /repo/src/Utilities.cpp:593-617.  `none` is the null pointer. -/
def cscToDns (S : CSC α) : M (Option (List α)) := do
  let sz ← chk (S.m * S.n)
  let r ← loopE S.n (fun j full => do
    let lo ← rd S.p j
    let hi ← rd S.p (j + 1)
    loopE (hi - lo).toNat (fun k full =>
      if lo + (k : Int) = (S.nzmax : Int) then .ok (.inr (DnsExit.full full))
      else do
        let r ← rdI S.i (lo + k)
        let t ← mulInt r S.n
        let t ← addInt t j
        if t ≥ (sz : Int) ∨ t < 0
        then .ok (.inr DnsExit.bad)
        else do
          let v ← rdI S.x (lo + k)
          let full ← wrI full t v
          .ok (.inl full)) full) (List.replicate sz zero)
  match r with
  | .inl full => .ok (some full)
  | .inr (.full f) => .ok (some f)
  | .inr .bad => .ok none

/-! ## Construction and loading -/

/-- `LCQProblem(nV, nC, nComp)`, /repo/src/LCQProblem.cpp:43-79. -/
def newObj (opts : Options α) (nV nC nComp : Int) : M (Obj α) :=
  let o := Obj.blank opts
  if nV ≤ 0 then .ok { o with s := o.s.say (.msg .invalidNumberOfOptimVars) }
  else if nComp ≤ 0 then .ok { o with s := o.s.say (.msg .invalidNumberOfOptimVars) }
  else if nC < 0 then .ok { o with s := o.s.say (.msg .invalidNumberOfConstraintVars) }
  else do
    let n := nV.toNat
    let nn ← chk (n * n)
    let na ← numA { nV := n, nC := nC.toNat, nComp := nComp.toNat }
    .ok { o with
      d := { o.d with dims := some { nV := n, nC := nC.toNat, nComp := nComp.toNat } }
      s := { o.s with
        Qk := some (List.replicate nn zero)
        gk := some (List.replicate n zero)
        xnew := some (List.replicate n zero)
        ykA := some (List.replicate na zero)
        pk := some (List.replicate n zero)
        statk := some (List.replicate n zero)
        cstat := some (List.replicate n zero)
        bstat := some (List.replicate n zero)
        lkTmp := some (List.replicate n zero) } }

/-- `setQ(const double*)`, /repo/include/LCQProblem.ipp:27-36 -/
def setQ (d : Data α) (Q : Option (List α)) : M (RV × Data α) := do
  let n ← initd d.dims
  if n.nV = 0 then .ok (.lcqpobjectNotSetup, d)
  else do
    let nn ← chk (n.nV * n.nV)
    let q ← deref Q
    let q ← copyN q nn
    .ok (.successfulReturn, { d with Q := some q })

/-- stacking of (A; L; R), /repo/src/LCQProblem.cpp:572-582. -/
def stackDense (e : Env α) (n : Dims) (L R A : Option (List α)) : M (List α) := do
  let na ← numA n
  let sz ← chk (na * n.nV)
  let M0 := e.alloc 0 sz
  let nc ← chk (n.nC * n.nV)
  let M1 ← loop nc (fun i M => do let a ← deref A; let v ← rd a i; wr M i v) M0
  let nl ← chk (n.nComp * n.nV)
  let M2 ← loop nl (fun i M => do
    let a ← deref L
    let v ← rd a i
    let t ← chk (n.nC * n.nV)
    let q ← chk (i + t)
    wr M q v) M1
  let nr ← chk (n.nComp * n.nV)
  loop nr (fun i M => do
    let a ← deref R
    let v ← rd a i
    let t ← chk (n.nC * n.nV)
    let q ← chk (i + t)
    let t ← chk (n.nComp * n.nV)
    let q ← chk (q + t)
    wr M q v) M2

/-- dense `setConstraints`, /repo/src/LCQProblem.cpp:563-626 -/
def setConstraints (e : Env α) (d : Data α) (L R A lbA ubA : Option (List α)) :
    M (RV × Data α) := do
  let n ← initd d.dims
  if n.nV = 0 ∨ n.nComp = 0 then .ok (.lcqpobjectNotSetup, d)
  else if A = none ∧ 0 < n.nC then .ok (.invalidConstraintMatrix, d)
  else do
    let M ← stackDense e n L R A
    let na ← numA n
    let l ← fillBound lbA n.nC (-. inf) (e.alloc 1 na)
    let u ← fillBound ubA n.nC inf (e.alloc 2 na)
    let d := { d with A := some M, lbA := some l, ubA := some u }
    match L, R with
    | some L, some R => do
      let nl ← chk (n.nComp * n.nV)
      let Lc ← loop nl (fun i b => do let v ← rd L i; wr b i v) (e.alloc 3 nl)
      let Rc ← loop nl (fun i b => do let v ← rd R i; wr b i v) (e.alloc 4 nl)
      let nn ← chk (n.nV * n.nV)
      let C ← symProd Lc Rc (e.alloc 5 nn) n.nComp n.nV
      .ok (.successfulReturn, { d with L := some Lc, R := some Rc, C := some C })
    | _, _ => .ok (.invalidComplementarityMatrix, d)

/-- append the entries of column `j` of `S`, row indices shifted by `off`;
/repo/src/LCQProblem.cpp:663-688 -/
def appendCol (S : CSC α) (j : Nat) (off : Nat) (cap : Int) (b : Build α) : M (Build α) := do
  let lo ← rd S.p j
  let hi ← rd S.p (j + 1)
  loopI lo hi (fun k b => do
    let v ← rdI S.x k
    let r ← rdI S.i k
    let r ← addInt off r
    b.pushCap cap r v) b

/-- the column of `A`, if given, /repo/src/LCQProblem.cpp:656-664; there is no shift -/
def appendColOpt (A : Option (CSC α)) (j : Nat) (cap : Int) (b : Build α) : M (Build α) :=
  match A with
  | none => .ok b
  | some A => LCQ.appendCol A j 0 cap b

/-- stacking of the sparse matrices, /repo/src/LCQProblem.cpp:633-690.  `L`, `R` are the copies. -/
def stackSparse (e : Env α) (n : Dims) (L R : CSC α) (A : Option (CSC α)) : M (CSC α) := do
  let pl ← rd L.p n.nV
  let pr ← rd R.p n.nV
  let t ← addInt pl pr
  let pa ← nnzOpt A n.nV
  let nnx ← addInt t pa
  let b ← loop n.nV (fun j b => do
    let b ← appendColOpt A j nnx b
    let b ← appendCol L j n.nC nnx b
    let off ← chk (n.nC + n.nComp)
    let b ← appendCol R j off nnx b
    .ok b.close) Build.init
  let na ← numA n
  .ok (createCSC na n.nV nnx.toNat
    (b.data ++ (e.alloc 6 nnx.toNat).drop b.data.length)
    (b.rows ++ ((List.range nnx.toNat).map e.junkI).drop b.rows.length) b.p)

/-- sparse `setConstraints`, /repo/src/LCQProblem.cpp:629-723 -/
def setConstraintsSparse (e : Env α) (d : Data α) (L R A : Option (CSC α))
    (lbA ubA : Option (List α)) : M (RV × Data α) := do
  let n ← initd d.dims
  let L ← deref L
  let L ← copyCSC L
  let R ← deref R
  let R ← copyCSC R
  let As ← stackSparse e n L R A
  let na ← numA n
  let l ← fillBound lbA n.nC (-. inf) (e.alloc 1 na)
  let u ← fillBound ubA n.nC inf (e.alloc 2 na)
  let C ← symProdSparse L R
  let d := { d with Ls := some L, Rs := some R, As := some As, lbA := some l, ubA := some u, Cs := C }
  match C with
  | none => .ok (.failedSymComplementarityMatrix, d)
  | some _ => .ok (.successfulReturn, d)

/-- lower bound part of the loop body, /repo/src/LCQProblem.cpp:747-756, 766-775; `inr` is the early
return -/
def bndLower (off : Nat) (lbN : Option (List α)) (i : Nat) (s : BndSt α) : M (BndSt α ⊕ BndSt α) :=
  match lbN with
  | some b => do
    let v ← rd b i
    if v <=. (-. inf) then .ok (.inr s)
    else do
      let lb ← deref s.l
      let lb ← wr lb i v
      let q ← chk (off + i)
      let lA ← wr s.lA q v
      .ok (.inl { s with l := some lb, lA := lA })
  | none => do
    let q ← chk (off + i)
    let lA ← wr s.lA q zero
    .ok (.inl { s with lA := lA })

/-- upper bound part of the loop body, /repo/src/LCQProblem.cpp:757-761, 776-781 -/
def bndUpper (off : Nat) (ubN : Option (List α)) (i : Nat) (s : BndSt α) : M (BndSt α) :=
  match ubN with
  | some b => do
    let v ← rd b i
    let ub ← deref s.u
    let ub ← wr ub i v
    let q ← chk (off + i)
    let uA ← wr s.uA q v
    .ok { s with u := some ub, uA := uA }
  | none => do
    let q ← chk (off + i)
    let uA ← wr s.uA q inf
    .ok { s with uA := uA }

/-- one of the two loops of `setComplementarityBounds`; `off` is `nC` or `nC + nComp`;
/repo/src/LCQProblem.cpp:746-762 and 765-782.  `inr` is the early return. -/
def bndLoop (nComp off : Nat) (lbN ubN : Option (List α)) (s : BndSt α) :
    M (BndSt α ⊕ BndSt α) :=
  loopE nComp (fun i s => do
    let r ← bndLower off lbN i s
    match r with
    | .inr s => .ok (.inr s)
    | .inl s => do
      let s ← bndUpper off ubN i s
      .ok (.inl s)) s

/-- `setComplementarityBounds`, /repo/src/LCQProblem.cpp:726-785 -/
def setCompBounds (e : Env α) (d : Data α) (lbL ubL lbR ubR : Option (List α)) :
    M (RV × Data α) := do
  let n ← initd d.dims
  let lA ← deref d.lbA
  let uA ← deref d.ubA
  let lR0 := newIf e 9 n.nComp lbR d.lbR
  let uR0 := newIf e 10 n.nComp ubR d.ubR
  let r ← bndLoop n.nComp n.nC lbL ubL
    { l := newIf e 7 n.nComp lbL d.lbL, u := newIf e 8 n.nComp ubL d.ubL, lA := lA, uA := uA }
  match r with
  | .inr s => .ok (.invalidLowerComplementarityBound,
      { d with lbL := s.l, ubL := s.u, lbR := lR0, ubR := uR0, lbA := some s.lA, ubA := some s.uA })
  | .inl s => do
    let off ← chk (n.nC + n.nComp)
    let r2 ← bndLoop n.nComp off lbR ubR { l := lR0, u := uR0, lA := s.lA, uA := s.uA }
    match r2 with
    | .inr t => .ok (.invalidLowerComplementarityBound,
        { d with lbL := s.l, ubL := s.u, lbR := t.l, ubR := t.u, lbA := some t.lA, ubA := some t.uA })
    | .inl t => .ok (.successfulReturn,
        { d with lbL := s.l, ubL := s.u, lbR := t.l, ubR := t.u, lbA := some t.lA, ubA := some t.uA })

/-- the dual guess, null if missing, /repo/include/LCQProblem.ipp:144-155; its length is computed only if it is given -/
def guessYN (e : Env α) (n : Dims) (y0 : Option (List α)) : M (Option (List α)) :=
  match y0 with
  | none => .ok none
  | some y => do
    let k ← numDuals n
    guessY e (some y) k

/-- `setInitialGuess`, /repo/include/LCQProblem.ipp:133-158 -/
def setInitialGuess (e : Env α) (d : Data α) (s : St α) (x0 y0 : Option (List α)) :
    M (RV × St α) := do
  let n ← initd d.dims
  if n.nV = 0 ∨ n.nComp = 0 then .ok (.lcqpobjectNotSetup, s)
  else do
    let x ← guessX x0 n.nV
    let y ← guessYN e n y0
    .ok (.successfulReturn, { s with xk := some x, yk := y })

/-- dense `loadLCQP`, /repo/src/LCQProblem.cpp:87-144 -/
def loadDense (e : Env α) (o : Obj α) (a : DenseArgs α) : M (RV × Obj α) := do
  let n ← initd o.d.dims
  if n.nV = 0 ∨ n.nComp = 0 then failWith .lcqpobjectNotSetup o
  else
    thenData (setQ o.d a.Q) o.s fun d =>
    thenData (setG d a.g) o.s fun d => do
    let d ← setTmp d a.lb a.ub
    thenData (setConstraints e d a.L a.R a.A a.lbA a.ubA) o.s fun d =>
      thenData (setCompBounds e d a.lbL a.ubL a.lbR a.ubR) o.s fun d =>
      thenSt (setInitialGuess e d o.s a.x0 a.y0) d fun s =>
      .ok (.successfulReturn, { d := { d with sparse := false }, s := s })

/-- sparse `loadLCQP`, /repo/src/LCQProblem.cpp:390-441 -/
def loadSparse (e : Env α) (o : Obj α) (a : SparseArgs α) : M (RV × Obj α) :=
  thenData (setQs o.d a.Q) o.s fun d =>
  thenData (setG d a.g) o.s fun d =>
  thenData (setConstraintsSparse e d a.L a.R a.A a.lbA a.ubA) o.s fun d =>
  thenData (setCompBounds e d a.lbL a.ubL a.lbR a.ubR) o.s fun d =>
  thenSt (setInitialGuess e d o.s a.x0 a.y0) d fun s => do
  let d ← setTmp d a.lb a.ub
  .ok (.successfulReturn, { d := { d with sparse := true }, s := s })

/-- `switchToSparseMode`, /repo/src/LCQProblem.cpp:1037-1068.  `dns_to_csc` never returns the null
pointer, so the failure branch is left out of the dense-to-sparse direction. -/
def switchToSparse (o : Obj α) : M (RV × Obj α) :=
  if o.d.sparse then .ok (.successfulReturn, o)
  else do
    let n ← initd o.d.dims
    let Q ← deref o.d.Q
    let Qs ← dnsToCsc Q n.nV n.nV
    let A ← deref o.d.A
    let na ← numA n
    let As ← dnsToCsc A na n.nV
    let L ← deref o.d.L
    let Ls ← dnsToCsc L n.nComp n.nV
    let R ← deref o.d.R
    let Rs ← dnsToCsc R n.nComp n.nV
    let C ← deref o.d.C
    let Cs ← dnsToCsc C n.nV n.nV
    .ok (.successfulReturn, { o with d := { o.d with
      Qs := some Qs, As := some As, Ls := some Ls, Rs := some Rs, Cs := some Cs,
      Q := none, A := none, L := none, R := none, C := none, sparse := true } })

/-- `switchToDenseMode`, /repo/src/LCQProblem.cpp:1071-1102 -/
def switchToDense (o : Obj α) : M (RV × Obj α) :=
  if !o.d.sparse then .ok (.successfulReturn, o)
  else do
    let Qs ← deref o.d.Qs
    let Q ← cscToDns Qs
    let As ← deref o.d.As
    let A ← cscToDns As
    let Ls ← deref o.d.Ls
    let L ← cscToDns Ls
    let Rs ← deref o.d.Rs
    let R ← cscToDns Rs
    let Cs ← deref o.d.Cs
    let C ← cscToDns Cs
    let d := { o.d with Q := Q, A := A, L := L, R := R, C := C }
    if Q = none ∨ A = none ∨ L = none ∨ R = none ∨ C = none then
      .ok (.failedSwitchToDense, { o with d := d })
    else
      .ok (.successfulReturn, { o with d := { d with
        Qs := none, As := none, Ls := none, Rs := none, Cs := none, sparse := false } })

/-! ## Running the solver -/

/-- `AffineLinearTransformation`, dense or sparse, /repo/src/LCQProblem.cpp:1107-1111, 1221-1227,
1249-1253 -/
def affineDS (sp : Bool) (B : Option (List α)) (S : Option (CSC α)) (a : α) (b c out : List α)
    (n : Nat) : M (List α) :=
  if sp then do let S ← deref S; spAffine a S b c out n
  else do let B ← deref B; affine a B b c out n n

/-- `QuadraticFormProduct`, dense or sparse, /repo/src/LCQProblem.cpp:1164-1168, 1180-1184,
1191-1195, 1221-1225 -/
def quadDS (sp : Bool) (B : Option (List α)) (S : Option (CSC α)) (p : List α) (n : Nat) : M α :=
  if sp then do let S ← deref S; spQuadForm S p n
  else do let B ← deref B; quadForm B p n

/-- `MatrixMultiplication` with a vector, dense or sparse, /repo/src/LCQProblem.cpp:1386-1390,
1397-1401, 1461-1467 -/
def mulDS (sp : Bool) (B : Option (List α)) (S : Option (CSC α)) (b out : List α) (m n : Nat) :
    M (List α) :=
  if sp then do let S ← deref S; spMul S b out
  else do let B ← deref B; matMul B b out m n 1

/-- `TransponsedMatrixMultiplication` with a vector, dense or sparse,
/repo/src/LCQProblem.cpp:1257-1261 -/
def tmulDS (sp : Bool) (B : Option (List α)) (S : Option (CSC α)) (b out : List α) (m n : Nat) :
    M (List α) :=
  if sp then do let S ← deref S; spTMul S b out
  else do let B ← deref B; matTMul B b out m n 1

/-- `AddTransponsedMatrixMultiplication` with a vector, dense or sparse,
/repo/src/LCQProblem.cpp:971-985 -/
def addTMulDS (sp : Bool) (B : Option (List α)) (S : Option (CSC α)) (b out : List α) (m n : Nat) :
    M (List α) :=
  if sp then do let S ← deref S; addSpTMul S b out
  else do let B ← deref B; addMatTMul B b out m n 1

/-- `updateLinearization`, /repo/src/LCQProblem.cpp:1105-1112 -/
def updateLinearization (d : Data α) (s : St α) : M (St α) := do
  let n ← initd d.dims
  let rho ← initd s.rho
  let x ← deref s.xk
  let gt ← deref s.gTilde
  let gk ← deref s.gk
  let gk ← affineDS d.sparse d.C d.Cs rho x gt gk n.nV
  .ok { s with gk := some gk }

/-- `getObj`, /repo/src/LCQProblem.cpp:1161-1169 -/
def getObj (d : Data α) (s : St α) : M α := do
  let n ← initd d.dims
  let g ← deref d.g
  let x ← deref s.xk
  let lin ← dotProd g x n.nV
  let q ← quadDS d.sparse d.Q d.Qs x n.nV
  .ok (lin +. q /. two)

/-- `getPhi`, /repo/src/LCQProblem.cpp:1172-1185 -/
def getPhi (d : Data α) (s : St α) : M α := do
  let n ← initd d.dims
  let x ← deref s.xk
  let lin ← phiLin d.gPhi x n.nV
  let q ← quadDS d.sparse d.C d.Cs x n.nV
  .ok (d.phiConst +. lin +. q /. two)

/-- `getMerit`, /repo/src/LCQProblem.cpp:1188-1196 -/
def getMerit (d : Data α) (s : St α) : M α := do
  let n ← initd d.dims
  let g ← deref d.g
  let x ← deref s.xk
  let lin ← dotProd g x n.nV
  let q ← quadDS d.sparse s.Qk s.Qks x n.nV
  .ok (lin +. q /. two)

/-- `complementarityCheck`, /repo/src/LCQProblem.cpp:1156-1158 -/
def complementarityCheck (d : Data α) (s : St α) : M Bool := do
  let v ← getPhi d s
  .ok (v <. d.opts.complTol)

/-- `updateStep`, /repo/src/LCQProblem.cpp:1240-1243 (the output is the first input) -/
def updateStep (d : Data α) (s : St α) : M (St α) := do
  let n ← initd d.dims
  let x ← deref s.xk
  let a ← initd s.alpha
  let p ← deref s.pk
  let x ← weightedVecAdd one .dst a (.buf p) x n.nV
  .ok { s with xk := some x }

/-- the box part of `updateStationarity`, /repo/src/LCQProblem.cpp:1266-1271 -/
def boxStat (d : Data α) (s : St α) (n : Nat) (st : List α) : M (List α × Option (List α)) :=
  if d.lb ≠ none ∨ d.ub ≠ none then do
    let y ← deref s.yk
    let b ← deref s.bstat
    let b ← loop n (fun i b => do let v ← rd y i; wr b i v) b
    let st ← weightedVecAdd one .dst (-. one) (.buf b) st n
    .ok (st, some b)
  else .ok (st, s.bstat)

/-- `updateStationarity`, /repo/src/LCQProblem.cpp:1246-1272; the number of rows is an argument of the
dense function only and computed in both cases here -/
def updateStationarity (d : Data α) (s : St α) : M (St α) := do
  let n ← initd d.dims
  let x ← deref s.xk
  let gt ← deref s.gTilde
  let st ← deref s.statk
  let st ← affineDS d.sparse s.Qk s.Qks one x gt st n.nV
  let ya ← deref s.ykA
  let c ← deref s.cstat
  let na ← numA n
  let c ← tmulDS d.sparse d.A d.As ya c na n.nV
  let st ← weightedVecAdd one .dst (-. one) (.buf c) st n.nV
  let r ← boxStat d s n.nV st
  .ok { s with statk := some r.1, cstat := some c, bstat := r.2 }

/-- `setQk`, /repo/src/LCQProblem.cpp:799-882 -/
def setQk (d : Data α) (s : St α) : M (St α) := do
  let n ← initd d.dims
  let rho ← initd s.rho
  if d.sparse then do
    let Q ← deref d.Qs
    let C ← deref d.Cs
    let b ← mergeQC rho Q C n.nV s.idxC
    .ok { s with
      Qks := some (createCSC n.nV n.nV b.1.rows.length b.1.data b.1.rows b.1.p)
      idxC := b.2 }
  else do
    let Q ← deref d.Q
    let C ← deref d.C
    let qk ← deref s.Qk
    let qk ← weightedAdd one (.buf Q) rho (.buf C) qk n.nV n.nV
    .ok { s with Qk := some qk }

/-- `updateQk`, /repo/src/LCQProblem.cpp:1316-1326 -/
def updateQk (d : Data α) (s : St α) : M (St α) := do
  let n ← initd d.dims
  let rho ← initd s.rho
  if d.sparse then do
    let qk ← deref s.Qks
    let C ← deref d.Cs
    let x ← bumpQks (rho *. (one -. one /. d.opts.factor)) C s.idxC qk.x
    .ok { s with Qks := some { qk with x := x } }
  else do
    let Q ← deref d.Q
    let C ← deref d.C
    let qk ← deref s.Qk
    let qk ← weightedAdd one (.buf Q) rho (.buf C) qk n.nV n.nV
    .ok { s with Qk := some qk }

/-- update of `g_tilde`, /repo/src/LCQProblem.cpp:1211-1213 -/
def updateGTilde (d : Data α) (s : St α) : M (St α) :=
  match d.gPhi with
  | none => .ok s
  | some gp => do
    let n ← initd d.dims
    let rho ← initd s.rho
    let g ← deref d.g
    let t ← deref s.gTilde
    let t ← weightedVecAdd one (.buf g) rho (.buf gp) t n.nV
    .ok { s with gTilde := some t }

/-- `updatePenalty`, /repo/src/LCQProblem.cpp:1199-1214 -/
def updatePenalty (d : Data α) (s : St α) : M (St α) := do
  let r ← initd s.rho
  let rho := r *. d.opts.factor
  let s := { s with
    hist := if d.opts.nDyn > 0 then [] else s.hist
    rho := some rho
    stats := (s.stats.updateRhoOpt rho).2 }
  let s ← updateQk d s
  updateGTilde d s

/-- the three calls of a penalty update in the main loop, /repo/src/LCQProblem.cpp:505-509, 533-537 -/
def bump (d : Data α) (s : St α) : M (St α) := do
  let s ← updatePenalty d s
  let s ← updateOuterIter s
  .ok { s with inner := some 0 }

/-- `leyfferCheckPositive`, /repo/src/LCQProblem.cpp:1275-1313 -/
def leyfferCheckPositive (d : Data α) (s : St α) : M (Bool × St α) :=
  if toSizeT d.opts.nDyn = 0 then .ok (false, s)
  else do
    let cur ← getPhi d s
    if s.hist.length < toSizeT d.opts.nDyn then
      .ok (false, { s with hist := s.hist ++ [cur] })
    else do
      let ok ← complementarityCheck d s
      if ok then .ok (false, { s with hist := s.hist.tail ++ [cur] })
      else do
        let flag ← histCheck d.opts.eta cur s.hist (toSizeT d.opts.nDyn)
        .ok (flag, { s with hist := s.hist.tail ++ [cur] })

/-- `getOptimalStepLength`, /repo/src/LCQProblem.cpp:1217-1237 -/
def getOptimalStepLength (d : Data α) (s : St α) : M (St α) := do
  let n ← initd d.dims
  let p ← deref s.pk
  let x ← deref s.xk
  let gt ← deref s.gTilde
  let lt ← deref s.lkTmp
  let qk ← quadDS d.sparse s.Qk s.Qks p n.nV
  let lt ← affineDS d.sparse s.Qk s.Qks one x gt lt n.nV
  let lk ← dotProd p lt n.nV
  let a := if (zero <. qk) && (lk <. zero) then stdMin ((-. lk) /. qk) one else one
  .ok { s with lkTmp := some lt, alpha := some a }

/-- `storeSteps`, /repo/src/LCQProblem.cpp:1365-1378 -/
def storeSteps (d : Data α) (s : St α) : M (St α) := do
  let n ← initd d.dims
  let x ← deref s.xk
  let inner ← initd s.inner
  let sub ← initd s.qpIter
  let a ← initd s.alpha
  let p ← deref s.pk
  let np ← maxAbs p n.nV
  let st ← deref s.statk
  let ns ← maxAbs st n.nV
  let obj ← getObj d s
  let phi ← getPhi d s
  let merit ← getMerit d s
  let r ← s.stats.track x ⟨inner, sub, a, np, ns, obj, phi, merit⟩ n.nV
  .ok { s with stats := r.2 }

/-- `printIteration`, /repo/src/LCQProblem.cpp:1528-1579; the number formatting is left out and the
inner counter, which is printed with inner iterates only, is recorded always. -/
def printIteration (d : Data α) (s : St α) : M (St α) :=
  if d.opts.printLevel = 0 then .ok s
  else do
    let inner ← initd s.inner
    if d.opts.printLevel = 1 ∧ inner > 0 then .ok s
    else do
      let n ← initd d.dims
      let outer ← initd s.outer
      let s1 := if (2 ≤ d.opts.printLevel ∧ inner.tmod 10 = 0) ∨
          (d.opts.printLevel = 1 ∧ outer.tmod 10 = 0) then s.say .header else s
      let st ← deref s.statk
      let ns ← maxAbs st n.nV
      let phi ← getPhi d s
      let rho ← initd s.rho
      let p ← deref s.pk
      let np ← maxAbs p n.nV
      let more ← iterMore d s
      .ok (s1.say (.iter outer inner ns phi rho np more))

/-- `y[off + i] = y[off + i] - rho*tmp[i]` for `i < n`, /repo/src/LCQProblem.cpp:1392-1394, 1403-1405 -/
def shiftDuals (rho : α) (tmp : List α) (off n : Nat) (y : List α) : M (List α) :=
  loop n (fun i y => do
    let q ← chk (off + i)
    let v ← rd y q
    let t ← rd tmp i
    wr y q (v -. rho *. t)) y

/-- `transformDuals`, /repo/src/LCQProblem.cpp:1381-1409 -/
def transformDuals (e : Env α) (d : Data α) (s : St α) : M (St α) := do
  let n ← initd d.dims
  let off ← initd d.boxOff
  let rho ← initd s.rho
  let x ← deref s.xk
  let y ← deref s.yk
  let tmp ← mulDS d.sparse d.R d.Rs x (e.alloc 14 n.nComp) n.nComp n.nV
  let o1 ← chk (off + n.nC)
  let y ← shiftDuals rho tmp o1 n.nComp y
  let tmp ← mulDS d.sparse d.L d.Ls x tmp n.nComp n.nV
  let o2 ← chk (o1 + n.nComp)
  let y ← shiftDuals rho tmp o2 n.nComp y
  .ok { s with yk := some y }

/-- `getWeakComplementarities`, /repo/src/LCQProblem.cpp:1456-1482 -/
def weakComplementarities (e : Env α) (d : Data α) (s : St α) : M (List Nat) := do
  let n ← initd d.dims
  let x ← deref s.xk
  let Lx ← mulDS d.sparse d.L d.Ls x (e.alloc 15 n.nComp) n.nComp n.nV
  let Rx ← mulDS d.sparse d.R d.Rs x (e.alloc 16 n.nComp) n.nComp n.nV
  loop n.nComp (fun i acc => do
    let l ← rd Lx i
    if l <=. d.opts.complTol then do
      let r ← rd Rx i
      if r <=. d.opts.complTol then .ok (acc ++ [i]) else .ok acc
    else .ok acc) []

/-- the loop and the final decision of `determineStationarityType`,
/repo/src/LCQProblem.cpp:1419-1452; the last two arguments are `s_stationary`, `m_stationary`. -/
def classify (tol : α) (ya : List α) (nC nComp : Nat) : List Nat → Bool → Bool → M AlgStat
  | [], sS, mS => .ok (if sS then .sStat else if mS then .mStat else .cStat)
  | i :: is, sS, mS => do
    let q ← chk (nC + i)
    let a ← rd ya q
    let q ← chk (nC + nComp)
    let q ← chk (q + i)
    let b ← rd ya q
    let sS := if stdMin a b <. zero then false else sS
    if (tol <=. Scalar.abs (a *. b)) && (stdMin a b <=. zero) then
      if (a *. b) <=. tol then .ok .wStat
      else classify tol ya nC nComp is sS false
    else classify tol ya nC nComp is sS mS

/-- `determineStationarityType`, /repo/src/LCQProblem.cpp:1412-1453 -/
def determineStationarityType (e : Env α) (d : Data α) (s : St α) : M (St α) := do
  let n ← initd d.dims
  let w ← weakComplementarities e d s
  let ya ← deref s.ykA
  let t ← classify d.opts.complTol ya n.nC n.nComp w true true
  .ok { s with algo := some t }

/-- the part of `solveQPSubproblem` after a successful solve, /repo/src/LCQProblem.cpp:1136-1147 -/
def takeSolution (d : Data α) (s : St α) : M (St α) := do
  let n ← initd d.dims
  let off ← initd d.boxOff
  let r ← getSolution d s
  let ya ← deref s.ykA
  let na ← numA n
  let ya ← loop na (fun i b => do
    let q ← chk (off + i)
    let v ← rd r.2 q
    wr b i v) ya
  let x ← deref s.xk
  let p ← deref s.pk
  let p ← weightedVecAdd one (.buf r.1) (-. one) (.buf x) p n.nV
  .ok { s with xnew := some r.1, yk := some r.2, ykA := some ya, pk := some p }

/-- `solveQPSubproblem`, /repo/src/LCQProblem.cpp:1115-1148 -/
def solveQP (e : Env α) (d : Data α) (s : St α) (init : Bool) : M (RV × St α) := do
  let r ← subSolve e d s init
  let s ← afterSolve e d r.2
  if r.1 ≠ .successfulReturn then .ok (r.1, s)
  else do
    let s ← takeSolution d s
    .ok (.successfulReturn, s)

/-- the shift of the dual guess for OSQP, /repo/src/LCQProblem.cpp:937-948, see `LCQ.osqpDualGuess` -/
def osqpDualGuess (e : Env α) (n : Dims) (yk : Option (List α)) : M (Option (List α)) :=
  match yk with
  | none => .ok none
  | some y => do
    let na ← numA n
    let tmp ← loop na (fun i b => do
      let q ← chk (n.nV + i)
      let v ← rd y q
      wr b i v) (e.alloc 17 na)
    .ok (some (tmp.take (na / 8) ++ (e.alloc 18 na).drop (na / 8)))

/-- first part of `initializeSolver`: choice of the subsolver, /repo/src/LCQProblem.cpp:887-961 -/
def chooseSolver (e : Env α) (o : Obj α) : M (RV × Obj α) := do
  let n ← initd o.d.dims
  if o.d.opts.qpSolver = 0 then
    let nd ← numDuals n
    let d := { o.d with nDuals := some nd, boxOff := some n.nV }
    if d.sparse then .ok (.denseSparseMissmatch, { o with d := d })
    else do
      let b ← setBoxes d
      if b.1 ≠ .successfulReturn then .ok (b.1, { o with d := b.2 })
      else do
        let na ← numA n
        let nn ← chk (n.nV * n.nV)
        let nav ← chk (na * n.nV)
        let Q ← deref o.d.Q
        let Q ← copyN Q nn
        let A ← deref o.d.A
        let A ← copyN A nav
        .ok (.successfulReturn, { o with d := { b.2 with sub := some (.dense n.nV na Q A) } })
  else if o.d.opts.qpSolver = 1 then
    let nd ← numDuals n
    let d := { o.d with nDuals := some nd, boxOff := some n.nV }
    if !d.sparse then .ok (.denseSparseMissmatch, { o with d := d })
    else do
      let b ← setBoxes d
      if b.1 ≠ .successfulReturn then .ok (b.1, { o with d := b.2 })
      else do
        let Q ← deref o.d.Qs
        let Q ← qpCopy Q n.nV n.nV
        let A ← deref o.d.As
        let na ← numA n
        let A ← qpCopy A na n.nV
        .ok (.successfulReturn, { o with d := { b.2 with sub := some (.sparse n.nV na Q A) } })
  else if o.d.opts.qpSolver = 2 then
    if o.d.lb ≠ none ∨ o.d.ub ≠ none then .ok (.invalidOsqpBoxConstraints, o)
    else do
      let y ← osqpDualGuess e n o.s.yk
      let na ← numA n
      let d := { o.d with nDuals := some na, boxOff := some 0 }
      let o := { d := d, s := { o.s with yk := y } }
      if !d.sparse then .ok (.denseSparseMissmatch, o)
      else if d.lbTmp ≠ none ∨ d.ubTmp ≠ none then .ok (.invalidOsqpBoxConstraints, o)
      else do
        let Q ← deref d.Qs
        let Q ← copyCSCUpper Q
        let A ← deref d.As
        let A ← copyCSC A
        let w ← o.s.work.clear
        .ok (.successfulReturn,
          { d := { d with sub := some (.osqp Q A) }, s := { o.s with work := w } })
  else .ok (.notYetImplemented, o)

/-- `phi_const` and `g_phi`, /repo/src/LCQProblem.cpp:967-990 -/
def initPhi (d : Data α) : M (Data α) :=
  if d.lbL = none ∧ d.lbR = none then .ok d
  else do
    let n ← initd d.dims
    let lL ← deref d.lbL
    let lR ← deref d.lbR
    let c ← dotProd lL lR n.nComp
    let gp ← addTMulDS d.sparse d.R d.Rs lL (List.replicate n.nV zero) n.nComp n.nV
    let gp ← addTMulDS d.sparse d.L d.Ls lR gp n.nComp n.nV
    let gp ← loop n.nV (fun i b => do let v ← rd b i; wr b i (-. v)) gp
    .ok { d with phiConst := c, gPhi := some gp }

/-- second part of `initializeSolver`, /repo/src/LCQProblem.cpp:963-1033.  When only one of `lbL`,
`lbR` is given, `DotProduct` dereferences the null pointer (`nComp ≥ 1`), see `initPhi`. -/
def initRest (o : Obj α) : M (RV × Obj α) := do
  let n ← initd o.d.dims
  let g ← deref o.d.g
  let g ← copyN g n.nV
  let d ← initPhi o.d
  let s := { o.s with
    gTilde := some g
    alpha := some one
    rho := some d.opts.rho0
    outer := some 0
    inner := some 0
    total := some 0
    algo := some .notSolved
    stats := o.s.stats.reset }
  let s := if d.opts.printLevel > 0 then s.say .newline else s
  .ok (.successfulReturn, { d := { d with lbTmp := none, ubTmp := none }, s := s })

/-- `initializeSolver`, /repo/src/LCQProblem.cpp:885-1034 -/
def initializeSolver (e : Env α) (o : Obj α) : M (RV × Obj α) := do
  let r ← chooseSolver e o
  if r.1 ≠ .successfulReturn then .ok r else initRest r.2

/-- `if (options.getStoreSteps()) storeSteps();`, /repo/src/LCQProblem.cpp:492-494 -/
def storeIf (d : Data α) (s : St α) : M (St α) :=
  if d.opts.storeSteps then storeSteps d s else .ok s

/-- the first part of the loop body up to the iteration counters, /repo/src/LCQProblem.cpp:483-501 -/
def advance (d : Data α) (s : St α) : M (St α) := do
  let s ← updateStep d s
  let s ← updateStationarity d s
  let s ← printIteration d s
  let s ← storeIf d s
  let s ← updateTotalIter s
  incInner s

/-- dynamic penalty strategy, /repo/src/LCQProblem.cpp:504-510 -/
def dynamicPenalty (d : Data α) (s : St α) : M (St α) := do
  let r ← leyfferCheckPositive d s
  if r.1 then bump d r.2 else .ok r.2

/-- what happens at an acceptable point, /repo/src/LCQProblem.cpp:518-531 -/
def accept (e : Env α) (d : Data α) (s : St α) : M (RV × St α) := do
  let s ← transformDuals e d s
  let s ← determineStationarityType e d s
  let t ← initd s.algo
  let s := { s with stats := (s.stats.updateStatus t).2 }
  let s := if d.opts.printLevel > 0 then s.say (.solution t) else s
  .ok (.successfulReturn, s)

/-- termination check or penalty update, /repo/src/LCQProblem.cpp:516-539 -/
def checkStationarity (e : Env α) (d : Data α) (s : St α) : M (Step α) := do
  let st ← stationarityCheck d s
  if st then do
    let co ← complementarityCheck d s
    if co then do
      let r ← accept e d s
      .ok (.inr r)
    else do
      let s ← bump d s
      .ok (.inl s)
  else .ok (.inl s)

/-- the last part of the loop body, /repo/src/LCQProblem.cpp:550-564 -/
def nextStep (e : Env α) (d : Data α) (s : St α) : M (Step α) := do
  let s ← updateLinearization d s
  let r ← solveQP e d s false
  if r.1 ≠ .successfulReturn then .ok (.inr (r.1, r.2.say (.msg r.1)))
  else do
    let s ← perturbIf e d r.2
    let s ← getOptimalStepLength d s
    .ok (.inl s)

/-- one pass of the `while (true)` loop, /repo/src/LCQProblem.cpp:480-565 -/
def pass (e : Env α) (d : Data α) (s : St α) : M (Step α) := do
  let s ← advance d s
  let s ← dynamicPenalty d s
  let s ← updateLinearization d s
  andThen (checkStationarity e d s) fun s =>
  andThen (checkLimits d s) fun s =>
  nextStep e d s

/-- at most `fuel` passes of the loop; `none` means that the loop has not returned yet. -/
def mainLoop (e : Env α) (d : Data α) : Nat → St α → M (Option (RV × St α))
  | 0, _ => .ok none
  | f + 1, s => do
    let r ← pass e d s
    match r with
    | .inl s => mainLoop e d f s
    | .inr q => .ok (some q)

/-- the linear term of the first QP, /repo/src/LCQProblem.cpp:452-463 -/
def firstGradient (d : Data α) (s : St α) : M (St α) :=
  if d.opts.zeroFirst then do
    let n ← initd d.dims
    let g ← deref d.g
    let gk ← deref s.gk
    let gk ← loop n.nV (fun i b => do let v ← rd g i; wr b i v) gk
    .ok { s with gk := some gk }
  else updateLinearization d s

/-- the first QP and the penalised Hessian, /repo/src/LCQProblem.cpp:452-478 -/
def firstStep (e : Env α) (d : Data α) (s : St α) : M (Step α) := do
  let s ← firstGradient d s
  let r ← solveQP e d s true
  if r.1 ≠ .successfulReturn then .ok (.inr (r.1, r.2.say (.msg r.1)))
  else do
    let s ← setQk d r.2
    let rho ← initd s.rho
    .ok (.inl { s with stats := (s.stats.updateRhoOpt rho).2 })

/-- `runSolver` observed for at most `fuel` passes of its main loop,
/repo/src/LCQProblem.cpp:444-566.  `none`: the main loop is still running after `fuel` passes. -/
def runSolver (e : Env α) (fuel : Nat) (o : Obj α) : M (Option (RV × Obj α)) := do
  let r ← initializeSolver e o
  if r.1 ≠ .successfulReturn then .ok (some (r.1, { r.2 with s := r.2.s.say (.msg r.1) }))
  else do
    let f ← firstStep e r.2.d r.2.s
    match f with
    | .inr q => .ok (some (q.1, { d := r.2.d, s := q.2 }))
    | .inl s => do
      let q ← mainLoop e r.2.d fuel s
      .ok (q.map fun q => (q.1, { d := r.2.d, s := q.2 }))

end LCQ.Chk
