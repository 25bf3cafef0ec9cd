import Verif.Basic.Mem

/-!
# Model of /repo/src/Utilities.cpp

Dense matrices are flat row-major arrays (`List α`), sparse matrices are `CSC α`.
Output arrays are passed in and returned.
-/

namespace LCQ
open Scalar

variable {α : Type} [Scalar α]

/-- OSQP's `csc` struct.  Simplifications: `nz` (always -1) is left out, the three array
pointers are never null, and `m`, `n`, `nzmax` are non-negative. -/
structure CSC (α : Type) where
  /-- rows -/
  m : Nat
  /-- columns -/
  n : Nat
  /-- allocated entries -/
  nzmax : Nat
  /-- column pointers -/
  p : List Int
  /-- row indices -/
  i : List Int
  /-- values -/
  x : List α
  deriving DecidableEq, Repr

/-- An input array argument which may be the same memory as the output array. -/
inductive Src (α : Type) where
  /-- separate array -/
  | buf (b : List α)
  /-- aliases the output array -/
  | dst

/-- read from a possibly aliased input -/
def Src.rd {α : Type} : Src α → List α → Nat → M α
  | .buf b, _, i => LCQ.rd b i
  | .dst, c, i => LCQ.rd c i

/-- `Utilities::MatrixMultiplication` dense, /repo/src/Utilities.cpp:38-47. -/
def matMul (A B C : List α) (m n p : Nat) : M (List α) :=
  loop m (fun i C => loop p (fun j C => do
    let C ← wr C (i * p + j) zero
    loop n (fun k C => do
      let c ← rd C (i * p + j)
      let a ← rd A (i * n + k)
      let b ← rd B (k * p + j)
      wr C (i * p + j) (c +. a *. b)) C) C) C

/-- `Utilities::MatrixMultiplication` sparse, /repo/src/Utilities.cpp:49-60. -/
def spMul (A : CSC α) (b c : List α) : M (List α) := do
  let c ← loop A.m (fun i c => wr c i zero) c
  loop A.n (fun j c => do
    let lo ← rd A.p j
    let hi ← rd A.p (j + 1)
    loopI lo hi (fun k c => do
      let r ← rdI A.i k
      let old ← rdI c r
      let a ← rdI A.x k
      let bj ← rd b j
      wrI c r (old +. a *. bj)) c) c

/-- `Utilities::TransponsedMatrixMultiplication` dense, /repo/src/Utilities.cpp:63-73. -/
def matTMul (A B C : List α) (m n p : Nat) : M (List α) :=
  loop n (fun i C => loop p (fun j C => do
    let C ← wr C (i * p + j) zero
    loop m (fun k C => do
      let c ← rd C (i * p + j)
      let a ← rd A (k * n + i)
      let b ← rd B (k * p + j)
      wr C (i * p + j) (c +. a *. b)) C) C) C

/-- `Utilities::TransponsedMatrixMultiplication` sparse, /repo/src/Utilities.cpp:76-83. -/
def spTMul (A : CSC α) (b c : List α) : M (List α) :=
  loop A.n (fun j c => do
    let c ← wr c j zero
    let lo ← rd A.p j
    let hi ← rd A.p (j + 1)
    loopI lo hi (fun k c => do
      let old ← rd c j
      let r ← rdI A.i k
      let br ← rdI b r
      let a ← rdI A.x k
      wr c j (old +. br *. a)) c) c

/-- `Utilities::AddTransponsedMatrixMultiplication` dense, /repo/src/Utilities.cpp:86-94. -/
def addMatTMul (A B C : List α) (m n p : Nat) : M (List α) :=
  loop n (fun i C => loop p (fun j C =>
    loop m (fun k C => do
      let c ← rd C (i * p + j)
      let a ← rd A (k * n + i)
      let b ← rd B (k * p + j)
      wr C (i * p + j) (c +. a *. b)) C) C) C

/-- `Utilities::AddTransponsedMatrixMultiplication` sparse, /repo/src/Utilities.cpp:97-103. -/
def addSpTMul (A : CSC α) (b c : List α) : M (List α) :=
  loop A.n (fun j c => do
    let lo ← rd A.p j
    let hi ← rd A.p (j + 1)
    loopI lo hi (fun k c => do
      let old ← rd c j
      let r ← rdI A.i k
      let br ← rdI b r
      let a ← rdI A.x k
      wr c j (old +. br *. a)) c) c

/-- `Utilities::MatrixSymmetrizationProduct` dense, /repo/src/Utilities.cpp:105-117. -/
def symProd (A B C : List α) (m n : Nat) : M (List α) :=
  loop n (fun i C => loop (i + 1) (fun j C => do
    let C ← wr C (i * n + j) zero
    let C ← loop m (fun k C => do
      let c ← rd C (i * n + j)
      let a1 ← rd A (k * n + i)
      let b1 ← rd B (k * n + j)
      let b2 ← rd B (k * n + i)
      let a2 ← rd A (k * n + j)
      wr C (i * n + j) (c +. (a1 *. b1 +. b2 *. a2))) C
    let v ← rd C (i * n + j)
    wr C (j * n + i) v) C) C

/-- `Utilities::getAbs`, /repo/src/Utilities.cpp:652-659 (`fabs` variant). -/
def getAbs (x : α) : α := Scalar.abs x

/-- `Utilities::isZero(x)`, /repo/src/Utilities.cpp:678-690. -/
def isZero (x : α) : Bool := getAbs x <=. zeroTol

/-- `Utilities::isEqual(x, y)`, /repo/src/Utilities.cpp:662-675. -/
def isEqual (x y : α) : Bool := getAbs (x -. y) <=. zeroTol

/-- `Utilities::getMax(double, double)`, /repo/src/Utilities.cpp:714-717. -/
def getMax (x y : α) : α := if y <. x then x else y

/-- `Utilities::getMin(double, double)`, /repo/src/Utilities.cpp:720-723. -/
def getMin (x y : α) : α := if x <. y then x else y

/-- `Utilities::getIndexOfIn`, /repo/src/Utilities.cpp:726-736. -/
def getIndexOfIn (val : Int) (lst : List Int) (beg fin : Int) : M Int := do
  let r ← loopE (fin - beg).toNat (fun k (_ : Unit) => do
    let e ← rdI lst (beg + k)
    if e = val then .ok (.inr (beg + k))
    else if e > val then .ok (.inr (-1))
    else .ok (.inl ())) ()
  match r with
  | .inl _ => .ok (-1)
  | .inr r => .ok r

/-- `Utilities::createCSC`, /repo/src/Utilities.cpp:469-484 (allocation never fails). -/
def createCSC (m n nnx : Nat) (x : List α) (i p : List Int) : CSC α :=
  { m := m, n := n, nzmax := nnx, p := p, i := i, x := x }

/-- The inner sums of the sparse symmetrisation: starting from `tmp`, adds
`X_x[k]*Y_x[ind]` for all stored entries `k` of column `i` of `X` whose row occurs in column
`j` of `Y`; /repo/src/Utilities.cpp:130-136 and 138-145. -/
def colDot (X Y : CSC α) (i j : Nat) (tmp : α) : M α := do
  let lo ← rd X.p i
  let hi ← rd X.p (i + 1)
  loopI lo hi (fun k tmp => do
    let r ← rdI X.i k
    let ylo ← rd Y.p j
    let yhi ← rd Y.p (j + 1)
    let ind ← getIndexOfIn r Y.i ylo yhi
    if ind ≠ -1 then do
      let a ← rdI X.x k
      let b ← rdI Y.x ind
      .ok (tmp +. a *. b)
    else .ok tmp) tmp

/-- State of the loops that build a sparse matrix column by column: row indices, values and
column pointers so far.  The C++ code preallocates the column pointer array; here it grows. -/
structure Build (α : Type) where
  /-- row indices -/
  rows : List Int
  /-- values -/
  data : List α
  /-- column pointers -/
  p : List Int

/-- start: `p[0] = 0` -/
def Build.init : Build α := { rows := [], data := [], p := [0] }

/-- push one entry (`rows.push_back; data.push_back; p[j+1]++`; the pointer is stored when
the column is finished, see `Build.close`). -/
def Build.push (b : Build α) (r : Int) (v : α) : Build α :=
  { b with rows := b.rows ++ [r], data := b.data ++ [v] }

/-- finish the current column: `p[j+1]` is the number of entries so far. -/
def Build.close (b : Build α) : Build α := { b with p := b.p ++ [(b.rows.length : Int)] }

/-- `Utilities::MatrixSymmetrizationProduct` sparse, /repo/src/Utilities.cpp:119-173.
Returns `none` for the null pointer.  Simplification: `p` grows (see `Build`). -/
def symProdSparse (L R : CSC α) : M (Option (CSC α)) := do
  let n := L.n
  let b ← loop n (fun j b => do
    let b ← loop n (fun i b => do
      let tmp ← colDot L R i j zero
      let tmp ← colDot R L i j tmp
      if !isZero tmp then .ok (b.push i tmp) else .ok b) b
    .ok b.close) Build.init
  if b.rows.length = 0 then .ok none
  else .ok (some (createCSC n n b.rows.length b.data b.rows b.p))

/-- `Utilities::AffineLinearTransformation` dense, /repo/src/Utilities.cpp:176-186. -/
def affine (alpha : α) (A b c d : List α) (m n : Nat) : M (List α) :=
  loop m (fun i d => do
    let tmp ← loop n (fun k tmp => do
      let a ← rd A (i * n + k)
      let bk ← rd b k
      .ok (tmp +. a *. bk)) zero
    let ci ← rd c i
    wr d i (alpha *. tmp +. ci)) d

/-- `Utilities::AffineLinearTransformation` sparse, /repo/src/Utilities.cpp:189-199. -/
def spAffine (alpha : α) (S : CSC α) (b c d : List α) (m : Nat) : M (List α) :=
  loop m (fun j d => do
    let lo ← rd S.p j
    let hi ← rd S.p (j + 1)
    let tmp ← loopI lo hi (fun k tmp => do
      let a ← rdI S.x k
      let r ← rdI S.i k
      let br ← rdI b r
      .ok (tmp +. a *. br)) zero
    let cj ← rd c j
    wr d j (alpha *. tmp +. cj)) d

/-- `Utilities::WeightedMatrixAdd`, /repo/src/Utilities.cpp:202-206.  The inputs may alias
the output. -/
def weightedAdd (alpha : α) (A : Src α) (beta : α) (B : Src α) (C : List α) (m n : Nat) :
    M (List α) :=
  loop m (fun i C => loop n (fun j C => do
    let a ← A.rd C (i * n + j)
    let b ← B.rd C (i * n + j)
    wr C (i * n + j) (alpha *. a +. beta *. b)) C) C

/-- `Utilities::WeightedVectorAdd`, /repo/src/Utilities.cpp:209-211. -/
def weightedVecAdd (alpha : α) (a : Src α) (beta : α) (b : Src α) (c : List α) (m : Nat) :
    M (List α) := weightedAdd alpha a beta b c m 1

/-- `Utilities::QuadraticFormProduct` dense, /repo/src/Utilities.cpp:214-225. -/
def quadForm (Q p : List α) (m : Nat) : M α :=
  loop m (fun i ret => do
    let tmp ← loop m (fun j tmp => do
      let q ← rd Q (i * m + j)
      let pj ← rd p j
      .ok (tmp +. q *. pj)) zero
    let pi ← rd p i
    .ok (ret +. tmp *. pi)) zero

/-- `Utilities::QuadraticFormProduct` sparse, /repo/src/Utilities.cpp:228-241. -/
def spQuadForm (S : CSC α) (p : List α) (m : Nat) : M α :=
  loop m (fun j ret => do
    let lo ← rd S.p j
    let hi ← rd S.p (j + 1)
    let tmp ← loopI lo hi (fun k tmp => do
      let a ← rdI S.x k
      let r ← rdI S.i k
      let pr ← rdI p r
      .ok (tmp +. a *. pr)) zero
    let pj ← rd p j
    .ok (ret +. pj *. tmp)) zero

/-- `Utilities::DotProduct`, /repo/src/Utilities.cpp:244-250. -/
def dotProd (a b : List α) (m : Nat) : M α :=
  loop m (fun i ret => do
    let x ← rd a i
    let y ← rd b i
    .ok (ret +. x *. y)) zero

/-- `Utilities::MaxAbs`, /repo/src/Utilities.cpp:253-265. -/
def maxAbs (a : List α) (m : Nat) : M α := do
  let s ← loop m (fun i (s : α × α) => do
    let v ← rd a i
    if s.1 <. v then .ok (v, s.2)
    else if v <. s.2 then .ok (s.1, v)
    else .ok s) (zero, zero)
  .ok (getMax s.1 (-. s.2))

/-- `Utilities::copyCSC(M, false)`, /repo/src/Utilities.cpp:562-581. -/
def copyCSC (S : CSC α) : M (CSC α) := do
  let rows ← copyN S.i S.nzmax
  let data ← copyN S.x S.nzmax
  let cols ← copyN S.p (S.n + 1)
  .ok { m := S.m, n := S.n, nzmax := S.nzmax, p := cols, i := rows, x := data }

/-- `Utilities::copyCSC(M, true)`, /repo/src/Utilities.cpp:522-561 (`p` grows, see `Build`). -/
def copyCSCUpper (S : CSC α) : M (CSC α) := do
  let b ← loop S.n (fun j b => do
    let lo ← rd S.p j
    let hi ← rd S.p (j + 1)
    let b ← loopI lo hi (fun k b => do
      let r ← rdI S.i k
      if r > (j : Int) then .ok b
      else do
        let v ← rdI S.x k
        .ok (Build.push b r v)) b
    .ok b.close) Build.init
  .ok { m := S.m, n := S.n, nzmax := b.rows.length, p := b.p, i := b.rows, x := b.data }

/-- Early exits of `csc_to_dns`: `full` is returned when the index reaches `nzmax`
(/repo/src/Utilities.cpp:602-604), `bad` is the null pointer (606-609). -/
inductive DnsExit (α : Type) where
  /-- `return full` -/
  | full (f : List α)
  /-- `return 0` -/
  | bad

/-- `Utilities::csc_to_dns`, /repo/src/Utilities.cpp:593-617.  `none` is the null pointer. -/
def cscToDns (S : CSC α) : M (Option (List α)) := do
  let r ← loopE S.n (fun j full => do
    let lo ← rd S.p j
    let hi ← rd S.p (j + 1)
    loopE (hi - lo).toNat (fun k full =>
      if lo + (k : Int) = (S.nzmax : Int) then .ok (.inr (DnsExit.full full))
      else do
        let r ← rdI S.i (lo + k)
        if r * (S.n : Int) + (j : Int) ≥ (S.m : Int) * (S.n : Int) ∨ r * (S.n : Int) + (j : Int) < 0
        then .ok (.inr DnsExit.bad)
        else do
          let v ← rdI S.x (lo + k)
          let full ← wrI full (r * (S.n : Int) + (j : Int)) v
          .ok (.inl full)) full) (List.replicate (S.m * S.n) zero)
  match r with
  | .inl full => .ok (some full)
  | .inr (.full f) => .ok (some f)
  | .inr .bad => .ok none

/-- `Utilities::dns_to_csc`, /repo/src/Utilities.cpp:620-650 (`p` grows, see `Build`). -/
def dnsToCsc (full : List α) (m n : Nat) : M (CSC α) := do
  let b ← loop n (fun i b => do
    let b ← loop m (fun j b => do
      let v ← rd full (j * n + i)
      if (zero <. v) || (v <. zero) then .ok (Build.push b j v) else .ok b) b
    .ok b.close) Build.init
  .ok (createCSC m n b.rows.length b.data b.rows b.p)

end LCQ
