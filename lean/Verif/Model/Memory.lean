import Mathlib.Logic.Function.Basic

/-!
# Who allocates and who frees: the heap side of an `LCQProblem` object

The other model files treat arrays as values.  Here the values are dropped and only allocation,
release and use of memory blocks remain.  Every pointer variable of the object is a `Slot`; a block
is a number; running a function extends a trace of events.  What a function does depends on null
checks (taken from the state) and on facts about values, which are arguments here: which optional
arrays were passed, which checks passed, what OSQP answered.

Covered: constructor 43-79, the three `loadLCQP` 87-441, `runSolver` 444-560 with `initializeSolver`
885-1034, `solveQPSubproblem` 1115-1148, `setQk` 799-882, the two mode switches 1037-1102,
`transformDuals`, `getWeakComplementarities`, `clear` 1641-1794 of /repo/src/LCQProblem.cpp, the setters of
/repo/include/LCQProblem.ipp, all of /repo/src/Subsolver.cpp and the memory part of
/repo/src/SubsolverQPOASES.cpp, /repo/src/SubsolverOSQP.cpp and /repo/src/Options.cpp.

Simplifications: allocation never fails and `malloc(0)` gives a block; `std::vector` and
`std::deque` members and the qpOASES objects `qp`, `qpSchur` manage their own memory and are left out;
the OSQP workspace is one block; a null pointer that is read gives no event (null pointers are treated
in the other model files).
-/

namespace LCQ.Mem

/-- The function pair that manages a block. -/
inductive Kind where
  /-- `new T[n]`, `delete[]` -/
  | arr
  /-- `new T`, `delete` -/
  | obj
  /-- `malloc`, `calloc`, `free` -/
  | c
  deriving DecidableEq, Repr

/-- Heap events. -/
inductive HEv where
  /-- block `b` comes into being -/
  | alloc (b : Nat) (k : Kind)
  /-- block `b` is released with the function of kind `k` -/
  | free (b : Nat) (k : Kind)
  /-- block `b` is read or written -/
  | use (b : Nat)
  deriving DecidableEq, Repr

/-- The `double*` members, /repo/include/LCQProblem.hpp:467-512. -/
inductive Arr where
  | Q | g | lb | ub | lbTmp | ubTmp | A | lbA | ubA | L | R | C | lbL | ubL | lbR | ubR | gPhi | gk
  | gTilde | xk | yk | ykA | xnew | pk | Qk | statk | cstat | bstat | lkTmp
  deriving DecidableEq, Repr

/-- The `csc*` members, /repo/include/LCQProblem.hpp:524-529. -/
inductive Csc where
  | C | A | Q | Qk | L | R
  deriving DecidableEq, Repr

/-- The four blocks of a compressed-column matrix: three arrays and the struct. -/
inductive Part where
  | p | i | x | s
  deriving DecidableEq, Repr

/-- The pointer members of `SubsolverQPOASES`, /repo/include/SubsolverQPOASES.hpp:124-136. -/
inductive Qo where
  | Q | A | Qi | Qp | Qx | Ai | Ap | Ax | Qs | As
  deriving DecidableEq, Repr

/-- The pointer members of `SubsolverOSQP`, /repo/include/SubsolverOSQP.hpp:107-112, with the arrays of
`data`. -/
inductive Os where
  | work | settings | data | l | u | q
  | Q (p : Part)
  | A (p : Part)
  deriving DecidableEq, Repr

/-- The subsolver objects alive during `initializeSolver`: the member `subsolver`, the local `tmp` of
`initializeSolver`, the local `tmp` of the `Subsolver` constructor, the local `tmp` of
`Subsolver::copy`. -/
inductive Who where
  | main | outer | inner | arg
  deriving DecidableEq, Repr

/-- Local arrays. -/
inductive Loc where
  | Q | g | L | R | lbL | ubL | lbR | ubR | A | lbA | ubA | lb | ub | x0 | y0 | tmp | Lx | Rx
  deriving DecidableEq, Repr

/-- A pointer variable. -/
inductive Slot where
  /-- member array -/
  | arr (a : Arr)
  /-- member sparse matrix -/
  | csc (m : Csc) (p : Part)
  /-- `options.OSQP_opts` -/
  | opt
  /-- member of a qpOASES wrapper -/
  | qo (w : Who) (f : Qo)
  /-- member of an OSQP wrapper -/
  | os (w : Who) (f : Os)
  /-- local array -/
  | loc (l : Loc)
  deriving DecidableEq, Repr

/-- Heap and pointers. -/
structure Hp where
  /-- events so far -/
  tr : List HEv
  /-- pointer variables -/
  ptr : Slot → Option Nat
  /-- next block number -/
  next : Nat
  /-- sparseSolver -/
  sparse : Bool

/-- no memory allocated -/
def Hp.empty : Hp := { tr := [], ptr := fun _ => none, next := 0, sparse := false }

/-- A piece of code with result. -/
abbrev Op (β : Type) := Hp → β × Hp

/-- do nothing -/
def ret {β : Type} (b : β) : Op β := fun h => (b, h)

/-- one after the other -/
def bind {β γ : Type} (m : Op β) (f : β → Op γ) : Op γ := fun h => f (m h).1 (m h).2

instance : Monad Op where
  pure := ret
  bind := bind

/-! ## primitive steps -/

/-- `p = new ...` or `p = malloc(...)`: the old value of the pointer is lost -/
def new (s : Slot) (k : Kind) : Op Unit := fun h =>
  ((), { h with
    tr := h.tr ++ [.alloc h.next k]
    ptr := Function.update h.ptr s (some h.next)
    next := h.next + 1 })

/-- `free(p)` for a pointer that may be null; the pointer keeps its value -/
def free (s : Slot) (k : Kind) : Op Unit := fun h =>
  match h.ptr s with
  | none => ((), h)
  | some b => ((), { h with tr := h.tr ++ [.free b k] })

/-- `p = NULL`, or the pointer variable goes out of scope -/
def drop (s : Slot) : Op Unit := fun h => ((), { h with ptr := Function.update h.ptr s none })

/-- `if (p) { free(p); p = NULL; }` -/
def del (s : Slot) (k : Kind) : Op Unit := do
  free s k
  drop s

/-- `free(p); p = new ...` -/
def renew (s : Slot) (k : Kind) : Op Unit := do
  free s k
  new s k

/-- `if (!p) p = new ...` -/
def newIfNull (s : Slot) (k : Kind) : Op Unit := fun h =>
  if h.ptr s = none then new s k h else ((), h)

/-- read or write the array, if there is one -/
def touch (s : Slot) : Op Unit := fun h =>
  match h.ptr s with
  | none => ((), h)
  | some b => ((), { h with tr := h.tr ++ [.use b] })

/-- `isNotNullPtr(p)` -/
def isSet (s : Slot) : Op Bool := fun h => ((h.ptr s).isSome, h)

/-- value of `sparseSolver` -/
def isSparse : Op Bool := fun h => (h.sparse, h)

/-- `sparseSolver = b` -/
def setSparse (b : Bool) : Op Unit := fun h => ((), { h with sparse := b })

/-- `if (b) { ... }` -/
def when (b : Bool) (m : Op Unit) : Op Unit := if b then m else ret ()

/-- a step for every element of a list -/
def each {β : Type} (f : β → Op Unit) : List β → Op Unit
  | [] => ret ()
  | a :: l => do
    f a
    each f l

/-- `new double[...]` for a member -/
def newA (a : Arr) : Op Unit := new (.arr a) .arr

/-- `delete[]` of a member -/
def delA (a : Arr) : Op Unit := del (.arr a) .arr

/-! ## constructor -/

/-- `LCQProblem(nV, nC, nComp)`, /repo/src/LCQProblem.cpp:43-79; `ok`: the dimensions are accepted.  The
options are constructed first, /repo/src/Options.cpp:28-31, 313-352. -/
def construct (ok : Bool) : Op Unit := do
  new .opt .c
  when ok (each newA [.Qk, .gk, .xnew, .ykA, .pk, .statk, .cstat, .bstat, .lkTmp])

/-! ## load -/

/-- What a load depends on: which optional arguments were given and which checks passed. -/
structure Load where
  /-- nV and nComp are positive -/
  setup : Bool := true
  /-- g given -/
  g : Bool := true
  /-- lb given -/
  lb : Bool := false
  /-- ub given -/
  ub : Bool := false
  /-- A is given or there are no constraints -/
  A : Bool := true
  /-- L and R given; with sparse data, C has an entry -/
  LR : Bool := true
  /-- lbL given -/
  lbL : Bool := false
  /-- ubL given -/
  ubL : Bool := false
  /-- lbR given -/
  lbR : Bool := false
  /-- ubR given -/
  ubR : Bool := false
  /-- no lower complementarity bound is minus infinity -/
  bounds : Bool := true
  /-- y0 given -/
  y0 : Bool := false

/-- the code after a step that may fail -/
def andIf (m : Op Bool) (k : Op Bool) : Op Bool := do
  let b ← m
  if b then k else ret false

/-- `if (given) { p = new ...; memcpy(...); }` -/
def newIf (given : Bool) (a : Arr) : Op Unit := when given (newA a)

/-- dense `setQ`, /repo/include/LCQProblem.ipp:27-36 -/
def setQ (c : Load) : Op Bool :=
  if c.setup then do
    newA .Q
    touch (.arr .Q)
    ret true
  else ret false

/-- `setG`, /repo/include/LCQProblem.ipp:39-51 -/
def setG (c : Load) : Op Bool :=
  if c.setup && c.g then do
    newA .g
    touch (.arr .g)
    ret true
  else ret false

/-- the bounds of the linear constraints, /repo/src/LCQProblem.cpp:584-610, 690-716 -/
def newBounds : Op Unit := do
  newA .lbA
  newA .ubA
  touch (.arr .lbA)
  touch (.arr .ubA)

/-- dense `setConstraints`, /repo/src/LCQProblem.cpp:563-626 -/
def setConstraints (c : Load) : Op Bool :=
  if c.A then do
    newA .A
    touch (.arr .A)
    newBounds
    if c.LR then do
      newA .L
      newA .R
      touch (.arr .L)
      touch (.arr .R)
      newA .C
      touch (.arr .L)
      touch (.arr .R)
      touch (.arr .C)
      ret true
    else ret false
  else ret false

/-- `setComplementarityBounds`, /repo/src/LCQProblem.cpp:726-785 -/
def setCompBounds (c : Load) : Op Bool := do
  newIf c.lbL .lbL
  newIf c.ubL .ubL
  newIf c.lbR .lbR
  newIf c.ubR .ubR
  each (fun a => touch (.arr a)) [.lbL, .ubL, .lbR, .ubR, .lbA, .ubA]
  ret c.bounds

/-- `setInitialGuess`, /repo/include/LCQProblem.ipp:133-158; without dual guess the pointer is reset -/
def setInitialGuess (c : Load) : Op Bool := do
  newA .xk
  touch (.arr .xk)
  if c.y0 then do
    newA .yk
    touch (.arr .yk)
    ret true
  else do
    drop (.arr .yk)
    ret true

/-- box bounds to temporaries, /repo/src/LCQProblem.cpp:113-121, 427-436 -/
def setTmp (c : Load) : Op Unit := do
  newIf c.lb .lbTmp
  newIf c.ub .ubTmp

/-- dense `loadLCQP`, /repo/src/LCQProblem.cpp:87-144 -/
def loadDense (c : Load) : Op Bool :=
  if c.setup then
    andIf (setQ c) <| andIf (setG c) do
      setTmp c
      andIf (setConstraints c) <| andIf (setCompBounds c) <| andIf (setInitialGuess c) do
        setSparse false
        ret true
  else ret false

/-- a new compressed-column matrix: the arrays and the struct that holds them;
/repo/src/Utilities.cpp:466-482, 487-582 (`createCSC`, `copyCSC`) -/
def newCsc (m : Csc) : Op Unit := each (fun p => new (.csc m p) .c) [.s, .i, .x, .p]

/-- read all arrays of a compressed-column matrix -/
def touchCsc (m : Csc) : Op Unit := each (fun p => touch (.csc m p)) [.s, .i, .x, .p]

/-- `ClearSparseMat`, /repo/src/Utilities.cpp:290-309 -/
def delCsc (m : Csc) : Op Unit := each (fun p => del (.csc m p) .c) [.p, .i, .x, .s]

/-- sparse `setConstraints`, /repo/src/LCQProblem.cpp:629-723; `C` is reset to null when the product
has no entry, see /repo/src/Utilities.cpp `MatrixSymmetrizationProduct` -/
def setConstraintsSparse (c : Load) : Op Bool := do
  newCsc .L
  newCsc .R
  touchCsc .L
  touchCsc .R
  newCsc .A
  touchCsc .A
  newBounds
  touchCsc .L
  touchCsc .R
  if c.LR then do
    newCsc .C
    ret true
  else do
    each (fun p => drop (.csc .C p)) [.p, .i, .x, .s]
    ret false

/-- sparse `setQ`, /repo/src/LCQProblem.cpp:788-796 -/
def setQs (c : Load) : Op Bool :=
  if c.setup then do
    newCsc .Q
    ret true
  else ret false

/-- sparse `loadLCQP`, /repo/src/LCQProblem.cpp:390-441 -/
def loadSparse (c : Load) : Op Bool :=
  andIf (setQs c) <| andIf (setG c) <| andIf (setConstraintsSparse c) <| andIf (setCompBounds c) <|
    andIf (setInitialGuess c) do
      setTmp c
      setSparse true
      ret true

/-- read a data file into a new local array; `given`: a file name was passed (or the argument is
mandatory), `ok`: reading succeeded; on failure only this array is released;
/repo/src/LCQProblem.cpp:158-297 -/
def readLoc (given ok : Bool) (l : Loc) : Op Bool :=
  if given then do
    new (.loc l) .arr
    touch (.loc l)
    if ok then ret true
    else do
      del (.loc l) .arr
      ret false
  else ret true

/-- What a load from files depends on: the data and which files can be read. -/
structure FileLoad extends Load where
  /-- A given -/
  hasA : Bool := false
  /-- lbA given -/
  lbA : Bool := false
  /-- ubA given -/
  ubA : Bool := false
  /-- x0 given -/
  x0 : Bool := false
  /-- the file can be read -/
  ok : Loc → Bool := fun _ => true

/-- all local arrays of the file load -/
def fileLocs : List Loc :=
  [.Q, .g, .L, .R, .lbL, .ubL, .lbR, .ubR, .A, .lbA, .ubA, .lb, .ub, .x0, .y0]

/-- is the argument passed -/
def FileLoad.given (c : FileLoad) : Loc → Bool
  | .lbL => c.lbL
  | .ubL => c.ubL
  | .lbR => c.lbR
  | .ubR => c.ubR
  | .A => c.hasA
  | .lbA => c.lbA
  | .ubA => c.ubA
  | .lb => c.lb
  | .ub => c.ub
  | .x0 => c.x0
  | .y0 => c.y0
  | _ => true

/-- the reading phase -/
def readAll (c : FileLoad) : List Loc → Op Bool
  | [] => ret true
  | l :: r => andIf (readLoc (c.given l) (c.ok l) l) (readAll c r)

/-- `if (p) { memcpy(member, p, ...); delete[] p; }`, /repo/src/LCQProblem.cpp:314-324 -/
def tmpFrom (given : Bool) (a : Arr) (l : Loc) : Op Unit :=
  when given do
    newA a
    touch (.loc l)
    del (.loc l) .arr

/-- `loadLCQP` from files, /repo/src/LCQProblem.cpp:147-387, up to the end of the scope of its local
arrays -/
def loadFilesBody (c : FileLoad) : Op Bool :=
  andIf (readAll c fileLocs) do
    let b ← setQ c.toLoad
    touch (.loc .Q)
    del (.loc .Q) .arr
    if b then do
      let b ← setG { c.toLoad with g := true }
      touch (.loc .g)
      del (.loc .g) .arr
      if b then do
        tmpFrom c.lb .lbTmp .lb
        tmpFrom c.ub .ubTmp .ub
        let b ← setConstraints { c.toLoad with LR := true }
        each (fun l => touch (.loc l)) [.L, .R, .A, .lbA, .ubA]
        each (fun l => del (.loc l) .arr) [.L, .R, .A, .lbA, .ubA]
        if b then do
          let b ← setCompBounds c.toLoad
          each (fun l => touch (.loc l)) [.lbL, .ubL, .lbR, .ubR]
          each (fun l => del (.loc l) .arr) [.lbL, .ubL, .lbR, .ubR]
          if b then do
            let b ← setInitialGuess c.toLoad
            each (fun l => touch (.loc l)) [.x0, .y0]
            each (fun l => del (.loc l) .arr) [.x0, .y0]
            if b then do
              setSparse false
              ret true
            else ret false
          else ret false
        else ret false
      else ret false
    else ret false

/-- `loadLCQP` from files: the local pointers go out of scope -/
def loadFiles (c : FileLoad) : Op Bool := do
  let b ← loadFilesBody c
  each (fun l => drop (.loc l)) fileLocs
  ret b

/-! ## options -/

/-- `setOSQPOptions` of the options member, called by `setOptions`; `given`: the new options have OSQP
settings; /repo/src/Options.cpp:62-80, 275-289 -/
def setOptions (given : Bool) : Op Unit := do
  del .opt .c
  when given (new .opt .c)

/-! ## qpOASES wrapper -/

/-- `SubsolverQPOASES::clear`, /repo/src/SubsolverQPOASES.cpp:233-284.  `A_i` is not released. -/
def qoClear (w : Who) : Op Unit := do
  each (fun f => del (.qo w f) .arr) [.Q, .A, .Qi, .Qp, .Qx, .Ax, .Ap, .Ax]
  each (fun f => del (.qo w f) .obj) [.Qs, .As]

/-- the pointer members -/
def qoAll : List Qo := [.Q, .A, .Qi, .Qp, .Qx, .Ai, .Ap, .Ax, .Qs, .As]

/-- `~SubsolverQPOASES` and end of the object, /repo/src/SubsolverQPOASES.cpp:106-109 -/
def qoEnd (w : Who) : Op Unit := do
  qoClear w
  each (fun f => drop (.qo w f)) qoAll

/-- new arrays of the wrapper, dense or sparse, /repo/src/SubsolverQPOASES.cpp:34-99, 193-222 -/
def qoNew (w : Who) (sp : Bool) : Op Unit :=
  if sp then do
    each (fun f => new (.qo w f) .arr) [.Qi, .Qx, .Qp, .Ai, .Ax, .Ap]
    each (fun f => touch (.qo w f)) [.Qi, .Qx, .Qp, .Ai, .Ax, .Ap]
    each (fun f => new (.qo w f) .obj) [.Qs, .As]
    each (fun f => touch (.qo w f)) [.Qs, .As]
  else do
    each (fun f => new (.qo w f) .arr) [.Q, .A]
    each (fun f => touch (.qo w f)) [.Q, .A]

/-- the arrays of the wrapper that a copy reads -/
def qoTouch (w : Who) : Op Unit :=
  each (fun f => touch (.qo w f)) [.Q, .A, .Qp, .Qi, .Qx, .Ap, .Ai, .Ax]

/-- `SubsolverQPOASES::copy`, /repo/src/SubsolverQPOASES.cpp:184-230 -/
def qoCopy (dst src : Who) (sp : Bool) : Op Unit := do
  qoClear dst
  qoTouch src
  qoNew dst sp
  qoTouch src

/-! ## OSQP wrapper -/

/-- `ClearSparseMat` for a matrix of the wrapper -/
def osDelMat (f : Part → Slot) : Op Unit := each (fun p => del (f p) .c) [.p, .i, .x, .s]

/-- `SubsolverOSQP::clear`, /repo/src/SubsolverOSQP.cpp:61-100.  `osqp_cleanup` releases the workspace;
the pointer keeps its value.  `l`, `u`, `q` are fields of the struct `data`, they are null when `data`
is. -/
def osClear (w : Who) : Op Unit := do
  free (.os w .work) .c
  touch (.os w .data)
  each (fun f => del (.os w f) .c) [.l, .u, .q, .data]
  osDelMat fun p => .os w (.Q p)
  osDelMat fun p => .os w (.A p)
  del (.os w .settings) .c

/-- all pointer members -/
def osAll : List Os := [.work, .settings, .data, .l, .u, .q, .Q .p, .Q .i, .Q .x, .Q .s, .A .p, .A .i,
  .A .x, .A .s]

/-- `~SubsolverOSQP` and end of the object, /repo/src/SubsolverOSQP.cpp:55-58 -/
def osEnd (w : Who) : Op Unit := do
  osClear w
  each (fun f => drop (.os w f)) osAll

/-- copies of the two matrices, /repo/src/SubsolverOSQP.cpp:37-46, 210-211 -/
def osNewMats (w : Who) : Op Unit := do
  each (fun p => new (.os w (.Q p)) .c) [.s, .p, .i, .x]
  each (fun p => new (.os w (.A p)) .c) [.s, .p, .i, .x]

/-- the matrices that a copy reads -/
def osTouch (w : Who) : Op Unit := do
  each (fun p => touch (.os w (.Q p))) [.s, .p, .i, .x]
  each (fun p => touch (.os w (.A p))) [.s, .p, .i, .x]

/-- `SubsolverOSQP::setOptions`, /repo/src/SubsolverOSQP.cpp:113-121, from the settings in `src` -/
def osSetOptions (w : Who) (src : Slot) : Op Unit := do
  del (.os w .settings) .c
  let b ← isSet src
  when b do
    touch src
    new (.os w .settings) .c

/-- new problem data for OSQP, /repo/src/SubsolverOSQP.cpp:137-151, 217-231 -/
def osData (w : Who) : Op Unit := do
  each (fun f => new (.os w f) .c) [.l, .u, .q]
  each (fun f => touch (.os w f)) [.l, .u, .q]
  new (.os w .data) .c
  touch (.os w .data)

/-- `osqp_setup`: reads the data and settings; it allocates a workspace, or it rejects its input and
leaves the pointer alone -/
def osSetup (w : Who) (ok : Bool) : Op Unit := do
  each (fun f => touch (.os w f)) [.data, .l, .u, .q, .settings]
  osTouch w
  when ok (new (.os w .work) .c)

/-- `SubsolverOSQP::copy`, /repo/src/SubsolverOSQP.cpp:203-234; `ok`: result of `osqp_setup` if the
source has problem data -/
def osCopy (dst src : Who) (ok : Bool) : Op Unit := do
  osClear dst
  osTouch src
  osNewMats dst
  osSetOptions dst (.os src .settings)
  let b ← isSet (.os src .data)
  when b do
    each (fun f => touch (.os src f)) [.data, .l, .u, .q]
    osData dst
    osSetup dst ok

/-! ## `initializeSolver` -/

/-- end of a `Subsolver` object: members in reverse order of declaration,
/repo/include/Subsolver.hpp -/
def subEnd (w : Who) : Op Unit := do
  osEnd w
  qoEnd w

/-- `Subsolver tmp(...); subsolver = tmp;` with qpOASES, /repo/src/LCQProblem.cpp:906-907, 927-928,
/repo/src/Subsolver.cpp:34-62, 120-131.  `sp`: sparse matrices. -/
def buildQpoases (sp : Bool) : Op Unit := do
  qoNew .inner sp
  qoCopy .outer .inner sp
  qoEnd .inner
  qoCopy .arg .outer sp
  qoCopy .main .arg sp
  qoEnd .arg
  subEnd .outer

/-- the same with OSQP, /repo/src/LCQProblem.cpp:956-957.  None of the temporaries has problem data, so
no workspace is set up here. -/
def buildOsqp : Op Unit := do
  osNewMats .inner
  osCopy .outer .inner false
  osEnd .inner
  osCopy .arg .outer false
  osCopy .main .arg false
  osEnd .arg
  subEnd .outer

/-- `setLB`, `setUB`, /repo/include/LCQProblem.ipp:54-74, 93-113 -/
def setBoxes : Op Unit := do
  newA .lb
  touch (.arr .lbTmp)
  touch (.arr .lb)
  newA .ub
  touch (.arr .ubTmp)
  touch (.arr .ub)

/-- the QP solver selected in the options -/
inductive Sel where
  | qpDense | qpSparse | osqp | other
  deriving DecidableEq, Repr

/-- shift of the dual guess, /repo/src/LCQProblem.cpp:937-949 -/
def shiftGuess : Op Unit := do
  let b ← isSet (.arr .yk)
  when b do
    new (.loc .tmp) .arr
    touch (.arr .yk)
    touch (.loc .tmp)
    renew (.arr .yk) .arr
    touch (.loc .tmp)
    touch (.arr .yk)
    del (.loc .tmp) .arr

/-- choice of the subsolver, /repo/src/LCQProblem.cpp:887-961 -/
def chooseSolver (sel : Sel) : Op Bool := do
  let sp ← isSparse
  match sel with
  | .qpDense =>
    if sp then ret false
    else do
      setBoxes
      touch (.arr .Q)
      touch (.arr .A)
      buildQpoases false
      ret true
  | .qpSparse =>
    if sp then do
      setBoxes
      touchCsc .Q
      touchCsc .A
      buildQpoases true
      ret true
    else ret false
  | .osqp => do
    let l ← isSet (.arr .lb)
    let u ← isSet (.arr .ub)
    if l || u then ret false
    else do
      shiftGuess
      if sp then do
        let l ← isSet (.arr .lbTmp)
        let u ← isSet (.arr .ubTmp)
        if l || u then ret false
        else do
          touchCsc .Q
          touchCsc .A
          buildOsqp
          ret true
      else ret false
  | .other => ret false

/-- second part of `initializeSolver`, /repo/src/LCQProblem.cpp:963-1033 -/
def initRest (sel : Sel) : Op Unit := do
  newA .gTilde
  touch (.arr .g)
  touch (.arr .gTilde)
  let l ← isSet (.arr .lbL)
  let r ← isSet (.arr .lbR)
  when (l || r) do
    each (fun a => touch (.arr a)) [.lbL, .lbR]
    newA .gPhi
    each (fun a => touch (.arr a)) [.R, .L, .lbL, .lbR, .gPhi]
    touchCsc .R
    touchCsc .L
  when (sel == .osqp) (osSetOptions .main .opt)
  delA .lbTmp
  delA .ubTmp

/-! ## `runSolver` -/

/-- What a run depends on. -/
structure Run where
  /-- the selected QP solver -/
  sel : Sel := .qpDense
  /-- first `osqp_setup` succeeds -/
  setup : Bool := true
  /-- the first QP is solved -/
  first : Bool := true
  /-- member arrays read or written in the main loop, in order; `true` stands for a hot start of the
  QP solver before the access -/
  acts : List (Bool × Arr) := []
  /-- the run ends successfully: multipliers are transformed and classified -/
  success : Bool := true

/-- `Subsolver::solve` and `getSolution`, first call, /repo/src/SubsolverOSQP.cpp:124-200,
/repo/src/SubsolverQPOASES.cpp:134-181 -/
def firstSolve (c : Run) : Op Unit := do
  each (fun a => touch (.arr a)) [.gk, .lbA, .ubA, .xk, .yk, .lb, .ub]
  match c.sel with
  | .osqp => do
    osData .main
    osSetup .main c.setup
    touch (.os .main .work)
  | _ => each (fun f => touch (.qo .main f)) qoAll

/-- later calls -/
def hotSolve (c : Run) : Op Unit := do
  each (fun a => touch (.arr a)) [.gk, .lbA, .ubA, .lb, .ub]
  match c.sel with
  | .osqp => do
    touch (.os .main .work)
    each (fun f => touch (.os .main f)) [.data, .l, .u, .q, .settings]
  | _ => each (fun f => touch (.qo .main f)) qoAll

/-- allocation of missing iterates, /repo/src/LCQProblem.cpp:1124-1131 -/
def ensureIterates : Op Unit := do
  newIfNull (.arr .xk) .arr
  newIfNull (.arr .yk) .arr

/-- `setQk`, /repo/src/LCQProblem.cpp:799-882 -/
def setQk : Op Unit := do
  let sp ← isSparse
  if sp then do
    touchCsc .Q
    touchCsc .C
    newCsc .Qk
  else each (fun a => touch (.arr a)) [.Q, .C, .Qk]

/-- the main loop -/
def loopActs (c : Run) : List (Bool × Arr) → Op Unit
  | [] => ret ()
  | (hot, a) :: r => do
    when hot do
      hotSolve c
      ensureIterates
    touch (.arr a)
    each touchCsc [.Q, .A, .L, .R, .C, .Qk]
    loopActs c r

/-- `transformDuals`, `getWeakComplementarities`: local arrays, /repo/src/LCQProblem.cpp:1381-1409,
1456-1482 -/
def finish : Op Unit := do
  new (.loc .tmp) .arr
  touch (.loc .tmp)
  each (fun a => touch (.arr a)) [.xk, .yk, .ykA, .L, .R]
  touchCsc .L
  touchCsc .R
  del (.loc .tmp) .arr
  new (.loc .Lx) .arr
  new (.loc .Rx) .arr
  touch (.loc .Lx)
  touch (.loc .Rx)
  del (.loc .Lx) .arr
  del (.loc .Rx) .arr

/-- `runSolver`, /repo/src/LCQProblem.cpp:444-560 -/
def run (c : Run) : Op Unit := do
  let b ← chooseSolver c.sel
  if b then do
    initRest c.sel
    each (fun a => touch (.arr a)) [.gk, .g, .gTilde, .xk, .C]
    touchCsc .C
    firstSolve c
    ensureIterates
    when c.first do
      setQk
      loopActs c c.acts
      when c.success finish
  else ret ()

/-! ## mode switches -/

/-- `dns_to_csc`, /repo/src/Utilities.cpp:620-660 -/
def toCsc (m : Csc) (a : Arr) : Op Unit := do
  touch (.arr a)
  each (fun p => new (.csc m p) .c) [.p, .i, .x, .s]

/-- `switchToSparseMode`, /repo/src/LCQProblem.cpp:1037-1068 -/
def switchToSparse : Op Bool := do
  let sp ← isSparse
  if sp then ret true
  else do
    toCsc .Q .Q
    toCsc .A .A
    toCsc .L .L
    toCsc .R .R
    toCsc .C .C
    each delA [.Q, .A, .L, .R, .C]
    setSparse true
    ret true

/-- `csc_to_dns`, /repo/src/Utilities.cpp:592-617; an invalid index gives a null pointer, the array is
lost -/
def toDns (ok : Bool) (a : Arr) (m : Csc) : Op Unit := do
  touchCsc m
  newA a
  touch (.arr a)
  when (!ok) (drop (.arr a))

/-- `switchToDenseMode`, /repo/src/LCQProblem.cpp:1071-1102; `ok`: which conversions succeed -/
def switchToDense (ok : Arr → Bool) : Op Bool := do
  let sp ← isSparse
  if sp then do
    toDns (ok .Q) .Q .Q
    toDns (ok .A) .A .A
    toDns (ok .L) .L .L
    toDns (ok .R) .R .R
    toDns (ok .C) .C .C
    if ok .Q && ok .A && ok .L && ok .R && ok .C then do
      each delCsc [.C, .A, .Q, .L, .R]
      setSparse false
      ret true
    else ret false
  else ret true

/-! ## destruction -/

/-- members released by `clear`, in order -/
def clearArrs : List Arr :=
  [.Q, .g, .lb, .ub, .lbTmp, .ubTmp, .A, .lbA, .ubA, .L, .R, .C, .lbL, .ubL, .lbR, .ubR, .gPhi, .gk,
    .gTilde, .xk, .yk, .ykA, .xnew, .pk, .Qk, .statk, .cstat, .bstat, .lkTmp]

/-- `LCQProblem::clear`, /repo/src/LCQProblem.cpp:1641-1794 -/
def clear : Op Unit := do
  each delA clearArrs
  each delCsc [.C, .A, .Q, .Qk, .L, .R]

/-- `~LCQProblem` followed by the destructors of `subsolver` and `options` -/
def destroy : Op Unit := do
  clear
  subEnd .main
  del .opt .c

/-! ## calls -/

/-- A call on a problem object. -/
inductive Call where
  /-- dense load -/
  | loadDense (c : Load)
  /-- sparse load -/
  | loadSparse (c : Load)
  /-- load from files -/
  | loadFiles (c : FileLoad)
  /-- set options -/
  | setOptions (given : Bool)
  /-- run -/
  | run (c : Run)
  /-- switch -/
  | toSparse
  /-- switch -/
  | toDense (ok : Arr → Bool)

/-- forget the result -/
def void {β : Type} (m : Op β) : Op Unit := do
  let _ ← m
  ret ()

/-- perform a call -/
def Call.op : Call → Op Unit
  | .loadDense c => void (Mem.loadDense c)
  | .loadSparse c => void (Mem.loadSparse c)
  | .loadFiles c => void (Mem.loadFiles c)
  | .setOptions b => Mem.setOptions b
  | .run c => Mem.run c
  | .toSparse => void switchToSparse
  | .toDense ok => void (switchToDense ok)

/-- several calls -/
def calls (cs : List Call) : Op Unit := each Call.op cs

/-- the life of an object -/
def life (ok : Bool) (cs : List Call) : Op Unit := do
  construct ok
  calls cs
  destroy

/-- events of the life of an object -/
def trace (ok : Bool) (cs : List Call) : List HEv := (life ok cs Hp.empty).2.tr

/-! ## copies -/

/-- Pointers of `LCQProblem b(a);`.  The class declares no copy constructor
(/repo/include/LCQProblem.hpp:47-64), so its pointer members are copied.  `options` and `subsolver` have
copy constructors that allocate; their blocks are left out here. -/
def copyPtr (h : Hp) : Slot → Option Nat
  | .arr a => h.ptr (.arr a)
  | .csc m q => h.ptr (.csc m q)
  | _ => none

/-- end of an object and of a copy of it -/
def destroyBoth : Op Unit := fun h => destroy { (destroy h).2 with ptr := copyPtr h }

end LCQ.Mem
