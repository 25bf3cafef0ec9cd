import Verif.Model.Load
import Verif.Model.Solver

/-!
# Model of the MATLAB interface, /repo/interfaces/matlab/LCQPow.cpp

Simplifications.
* `mxGetPr` is the null pointer for an empty array.  For arrays whose elements are not doubles it is
  the fault `oob`: the callers read doubles from memory of another type and (smaller) size.
* Array dimensions fit into `int`.
* The contents of the `qpOASES_options` and `OSQP_options` structs are external (`MexEnv.qpo`,
  `MexEnv.osqp`), as in `Model/Options`.  What is read from the structs is in `Model/MatlabOptions`.
* Allocation never fails.  The texts of warnings are left out.
-/

namespace LCQ
open Scalar

/-- An `mxArray`.  Full arrays are stored by columns. -/
inductive Mx (α : Type) where
  /-- full real double array -/
  | dbl (m n : Nat) (data : List α)
  /-- sparse double array: `mxGetJc`, `mxGetIr`, `mxGetPr` are the fields `p`, `i`, `x` -/
  | sparse (S : CSC α)
  /-- full logical array -/
  | logical (m n : Nat) (data : List Bool)
  /-- 1×1 struct -/
  | struct (fields : List (String × Mx α))
  /-- array of any other class -/
  | other (m n : Nat)

namespace Mx
variable {α : Type}

/-- `mxGetM` -/
def rows : Mx α → Nat
  | dbl m _ _ => m
  | sparse S => S.m
  | logical m _ _ => m
  | struct _ => 1
  | other m _ => m

/-- `mxGetN` -/
def cols : Mx α → Nat
  | dbl _ n _ => n
  | sparse S => S.n
  | logical _ n _ => n
  | struct _ => 1
  | other _ n => n

/-- `mxIsEmpty` -/
def isEmpty (a : Mx α) : Bool := a.rows * a.cols == 0

/-- `mxIsDouble`, true for sparse double arrays -/
def isDouble : Mx α → Bool
  | dbl .. => true
  | sparse _ => true
  | _ => false

/-- `mxIsSparse` -/
def isSparse : Mx α → Bool
  | sparse _ => true
  | _ => false

/-- `mxIsStruct` -/
def isStruct : Mx α → Bool
  | struct _ => true
  | _ => false

/-- `mxIsLogical` -/
def isLogical : Mx α → Bool
  | logical .. => true
  | _ => false

/-- `(double*) mxGetPr` -/
def pr : Mx α → M (Option (List α))
  | dbl _ _ l => .ok (if l.isEmpty then none else some l)
  | sparse S => .ok (if S.x.isEmpty then none else some S.x)
  | struct _ => .ok none
  | logical _ _ l => if l.isEmpty then .ok none else .error .oob
  | other m n => if m * n = 0 then .ok none else .error .oob

/-- `(bool*) mxGetPr` of a logical array -/
def prBool : Mx α → M (List Bool)
  | logical _ _ l => .ok l
  | _ => .error .oob

/-- `mxGetField( s, 0, name )` -/
def field (name : String) : Mx α → Option (Mx α)
  | struct fs => fs.lookup name
  | _ => none

end Mx

/-- Ways in which `mexFunction` ends before its last statement. -/
inductive Halt where
  /-- undefined behaviour -/
  | fault (f : Fault)
  /-- `mexErrMsgTxt`: wrong number of outputs -/
  | nlhs
  /-- `mexErrMsgTxt`: wrong number of inputs -/
  | nrhs
  /-- `mexErrMsgTxt`: an argument is empty or of the wrong class -/
  | type (name : String)
  /-- `mexErrMsgTxt`: an argument has the wrong size -/
  | size (name : String)
  /-- "Failed to load LCQP": only the first output, a zero vector, has been created -/
  | load (code : Int)
  /-- "Failed to receive number of dual variables" -/
  | duals
  deriving DecidableEq, Repr

/-- Computations of the interface. -/
abbrev MX (σ : Type) := Except Halt σ

/-- a call of library code -/
def lift {σ : Type} : M σ → MX σ
  | .ok a => .ok a
  | .error f => .error (.fault f)

/-- What the interface needs from outside. -/
structure MexEnv (α : Type) where
  /-- the library's environment -/
  e : Env α
  /-- `(int) v`; undefined (fault `overflow`) when the truncated value does not fit -/
  toInt : α → M Int
  /-- `setupqpOASESOptions` (see `Model/MatlabOptions`) -/
  qpo : Mx α → M Nat
  /-- `osqp_set_default_settings` and `setupOSQPOptions` (see `Model/MatlabOptions`) -/
  osqp : Mx α → M Nat
  /-- elapsed time -/
  time : α
  /-- default options of the library -/
  dflt : Options α

variable {α : Type} [Scalar α]

/-- `checkDimensionAndTypeDouble`, /repo/interfaces/matlab/LCQPow.cpp:44-67 -/
def checkDouble (a : Mx α) (m n : Nat) (name : String) (allowEmpty : Bool := false) : MX Unit :=
  if allowEmpty && a.isEmpty then .ok ()
  else if !a.isDouble then .error (.type name)
  else if a.rows ≠ m ∨ a.cols ≠ n then .error (.size name)
  else .ok ()

/-- `checkDimensionAndTypeBool`, /repo/interfaces/matlab/LCQPow.cpp:69-88 -/
def checkBool (a : Mx α) (m n : Nat) (name : String) : MX Unit :=
  if !a.isLogical then .error (.type name)
  else if a.rows ≠ m ∨ a.cols ≠ n then .error (.size name)
  else .ok ()

/-- `checkTypeStruct`, /repo/interfaces/matlab/LCQPow.cpp:90-101 -/
def checkStruct (a : Mx α) (name : String) : MX Unit :=
  if !a.isStruct then .error (.type name) else .ok ()

/-- `colMajorToRowMajor`, /repo/interfaces/matlab/LCQPow.cpp:103-108 -/
def colToRow (c : List α) (r : List α) (m n : Nat) : M (List α) :=
  loop m (fun i r => loop n (fun j r => do
    let v ← rd c (j * m + i)
    wr r (i * n + j) v) r) r

/-- `readSparseMatrix`, /repo/interfaces/matlab/LCQPow.cpp:122-141 -/
def readSparse (a : Mx α) (m n : Nat) : M (CSC α) :=
  match a with
  | .sparse S => do
    let nnx ← rd S.p n
    let x ← copyN S.x nnx.toNat
    let i ← copyN S.i nnx.toNat
    let p ← copyN S.p (n + 1)
    .ok (createCSC m n nnx.toNat x i p)
  | _ => .error .null

/-- `prhs[i]` -/
def arg (prhs : List (Mx α)) (i : Nat) : M (Mx α) := rd prhs i

/-- `(double*) mxGetPr( prhs[i] )` -/
def argPr (prhs : List (Mx α)) (i : Nat) : M (Option (List α)) := do
  let a ← arg prhs i
  a.pr

/-- `mxIsStruct( prhs[10] )`, only evaluated for 11 arguments -/
def tenIsStruct (prhs : List (Mx α)) : Bool :=
  match prhs[10]? with
  | some a => a.isStruct
  | none => false

/-- `mxIsDouble( prhs[10] )`, only evaluated for 11 arguments -/
def tenIsDouble (prhs : List (Mx α)) : Bool :=
  match prhs[10]? with
  | some a => a.isDouble
  | none => false

/-- the vectors of a call -/
structure Vecs (α : Type) where
  /-- g -/
  g : Option (List α)
  /-- lbL -/
  lbL : Option (List α)
  /-- ubL -/
  ubL : Option (List α)
  /-- lbR -/
  lbR : Option (List α)
  /-- ubR -/
  ubR : Option (List α)
  /-- lbA -/
  lbA : Option (List α) := none
  /-- ubA -/
  ubA : Option (List α) := none
  /-- lb -/
  lb : Option (List α) := none
  /-- ub -/
  ub : Option (List α) := none

/-- the optional vectors, /repo/interfaces/matlab/LCQPow.cpp:153-165 -/
def readMore (prhs : List (Mx α)) (nC : Nat) (v : Vecs α) : M (Vecs α) :=
  if prhs.length = 10 ∨ (prhs.length = 11 ∧ nC = 0) then do
    let l ← argPr prhs 8
    let u ← argPr prhs 9
    .ok { v with lb := l, ub := u }
  else if 11 ≤ prhs.length then do
    let l ← argPr prhs 9
    let u ← argPr prhs 10
    let v := { v with lbA := l, ubA := u }
    if 13 ≤ prhs.length then do
      let l ← argPr prhs 11
      let u ← argPr prhs 12
      .ok { v with lb := l, ub := u }
    else .ok v
  else .ok v

/-- `readVectors`, /repo/interfaces/matlab/LCQPow.cpp:143-166 -/
def readVectors (prhs : List (Mx α)) (nC : Nat) : M (Vecs α) := do
  let g ← argPr prhs 1
  let lbL ← argPr prhs 4
  let ubL ← argPr prhs 5
  let lbR ← argPr prhs 6
  let ubR ← argPr prhs 7
  readMore prhs nC { g := g, lbL := lbL, ubL := ubL, lbR := lbR, ubR := ubR }

/-- conversion of a matrix argument, /repo/interfaces/matlab/LCQPow.cpp:246-258; the new array is not
initialised -/
def toRow (e : Env α) (site : Nat) (c : Option (List α)) (m n : Nat) : M (Option (List α)) :=
  match c with
  | none => .ok none
  | some c =>
    if 0 < m ∧ 0 < n then do
      let r ← colToRow c (e.alloc site (m * n)) m n
      .ok (some r)
    else .ok none

/-- `A_col`, /repo/interfaces/matlab/LCQPow.cpp:239-241 -/
def colA (n : Dims) (prhs : List (Mx α)) : M (Option (List α)) := if 0 < n.nC then argPr prhs 8 else .ok none

/-- the arguments handed to the dense loader, /repo/interfaces/matlab/LCQPow.cpp:213-258 -/
def denseArgs (e : Env α) (n : Dims) (prhs : List (Mx α)) (x0 y0 : Option (List α)) : M (DenseArgs α) := do
  let Q ← argPr prhs 0
  let Lc ← argPr prhs 2
  let Rc ← argPr prhs 3
  let Ac ← colA n prhs
  let v ← readVectors prhs n.nC
  let L ← toRow e 20 Lc n.nComp n.nV
  let R ← toRow e 21 Rc n.nComp n.nV
  let A ← toRow e 22 Ac n.nC n.nV
  .ok { Q := Q
        g := v.g
        L := L
        R := R
        lbL := v.lbL
        ubL := v.ubL
        lbR := v.lbR
        ubR := v.ubR
        A := A
        lbA := v.lbA
        ubA := v.ubA
        lb := v.lb
        ub := v.ub
        x0 := x0
        y0 := y0 }

/-- `LCQPDense` and the check of its result, /repo/interfaces/matlab/LCQPow.cpp:213-279, 884-895 -/
def mexDense (e : Env α) (o : Obj α) (n : Dims) (prhs : List (Mx α)) (x0 y0 : Option (List α)) : MX (Obj α) := do
  let a ← lift (denseArgs e n prhs x0 y0)
  let r ← lift (loadDense e o a)
  if r.1 ≠ .successfulReturn then .error (.load 1) else .ok r.2

/-- `mxIsSparse( prhs[i] )` -/
def argSparse (prhs : List (Mx α)) (i : Nat) : M Bool := do
  let a ← arg prhs i
  .ok a.isSparse

/-- `nC == 0 || mxIsSparse( prhs[8] )` -/
def sparseA (n : Dims) (prhs : List (Mx α)) : M Bool := if 0 < n.nC then argSparse prhs 8 else .ok true

/-- all matrices are sparse, /repo/interfaces/matlab/LCQPow.cpp:170-174 -/
def allSparse (n : Dims) (prhs : List (Mx α)) : M Bool := do
  let q ← argSparse prhs 0
  let l ← argSparse prhs 2
  let r ← argSparse prhs 3
  let a ← sparseA n prhs
  .ok (q && l && r && a)

/-- `A`, if there are linear constraints, /repo/interfaces/matlab/LCQPow.cpp:180-183 -/
def readA (n : Dims) (prhs : List (Mx α)) : M (Option (CSC α)) :=
  if 0 < n.nC then do
    let a ← arg prhs 8
    let A ← readSparse a n.nC n.nV
    .ok (some A)
  else .ok none

/-- the arguments handed to the sparse loader, /repo/interfaces/matlab/LCQPow.cpp:176-196 -/
def sparseArgs (n : Dims) (prhs : List (Mx α)) (x0 y0 : Option (List α)) : M (SparseArgs α) := do
  let q ← arg prhs 0
  let Q ← readSparse q n.nV n.nV
  let l ← arg prhs 2
  let L ← readSparse l n.nComp n.nV
  let r ← arg prhs 3
  let R ← readSparse r n.nComp n.nV
  let A ← readA n prhs
  let v ← readVectors prhs n.nC
  .ok { Q := some Q
        g := v.g
        L := some L
        R := some R
        lbL := v.lbL
        ubL := v.ubL
        lbR := v.lbR
        ubR := v.ubR
        A := A
        lbA := v.lbA
        ubA := v.ubA
        lb := v.lb
        ub := v.ub
        x0 := x0
        y0 := y0 }

/-- `LCQPSparse` and the check of its result, /repo/interfaces/matlab/LCQPow.cpp:168-211, 884-895 -/
def mexSparse (e : Env α) (o : Obj α) (n : Dims) (prhs : List (Mx α)) (x0 y0 : Option (List α)) : MX (Obj α) := do
  let b ← lift (allSparse n prhs)
  if !b then .error (.load 1)
  else do
    let a ← lift (sparseArgs n prhs x0 y0)
    let r ← lift (loadSparse e o a)
    if r.1.code ≠ 0 then .error (.load r.1.code) else .ok r.2

/-! ## the arguments -/

/-- number of linear constraints, /repo/interfaces/matlab/LCQPow.cpp:618-631 -/
def mexNC (prhs : List (Mx α)) : MX Nat :=
  if 11 < prhs.length ∨ (prhs.length = 11 ∧ tenIsStruct prhs = false) then do
    let a ← lift (arg prhs 8)
    if a.isEmpty then .ok 0
    else if !a.isDouble then .error (.type "A")
    else .ok a.rows
  else .ok 0

/-- sizes of the problem, /repo/interfaces/matlab/LCQPow.cpp:592-631 -/
def mexDims (prhs : List (Mx α)) : MX Dims := do
  let q ← lift (arg prhs 0)
  if q.isEmpty || !q.isDouble then .error (.type "Q")
  else do
    let l ← lift (arg prhs 2)
    if l.isEmpty || !l.isDouble then .error (.type "L")
    else do
      let nC ← mexNC prhs
      .ok { nV := q.rows, nC := nC, nComp := l.rows }

/-- `if (cond && !checkDimensionAndTypeDouble( prhs[i], ... )) return;` -/
def checkArg (cond : Bool) (prhs : List (Mx α)) (i m n : Nat) (name : String) (allowEmpty : Bool := true) :
    MX Unit :=
  if cond then do
    let a ← lift (arg prhs i)
    checkDouble a m n name allowEmpty
  else .ok ()

/-- checks of the linear constraints, /repo/interfaces/matlab/LCQPow.cpp:645-651 -/
def checkLin (cond : Bool) (prhs : List (Mx α)) (n : Dims) : MX Unit := do
  checkArg cond prhs 8 n.nC n.nV "A"
  checkArg cond prhs 9 n.nC 1 "lbA"
  checkArg cond prhs 10 n.nC 1 "ubA"

/-- checks of the box constraints, /repo/interfaces/matlab/LCQPow.cpp:639-643, 653-654 -/
def checkBox (cond : Bool) (prhs : List (Mx α)) (i : Nat) (n : Dims) : MX Unit := do
  checkArg cond prhs i n.nV 1 "lb"
  checkArg cond prhs (i + 1) n.nV 1 "ub"

/-- `if (cond && !checkTypeStruct( prhs[i], "params" )) return;` -/
def checkParams (cond : Bool) (prhs : List (Mx α)) (i : Nat) : MX Unit :=
  if cond then do
    let a ← lift (arg prhs i)
    checkStruct a "params"
  else .ok ()

/-- all checks of the arguments, /repo/interfaces/matlab/LCQPow.cpp:633-660.  `lbL`, `ubL`, `lbR`,
`ubR` are not among them. -/
def mexChecks (prhs : List (Mx α)) (n : Dims) : MX Unit := do
  checkArg true prhs 0 n.nV n.nV "Q" false
  checkArg true prhs 1 n.nV 1 "g" false
  checkArg true prhs 2 n.nComp n.nV "L" false
  checkArg true prhs 3 n.nComp n.nV "R" false
  checkBox (prhs.length == 10) prhs 8 n
  checkBox (prhs.length == 11 && tenIsStruct prhs) prhs 8 n
  checkLin (prhs.length == 11 && !tenIsStruct prhs) prhs n
  checkLin (decide (12 ≤ prhs.length)) prhs n
  checkBox (prhs.length == 13 || prhs.length == 14) prhs 11 n
  checkParams (prhs.length == 9) prhs 8
  checkParams (prhs.length == 11 && !tenIsDouble prhs) prhs 10
  checkParams (prhs.length == 12) prhs 11
  checkParams (prhs.length == 14) prhs 13

/-- `structIdx`, /repo/interfaces/matlab/LCQPow.cpp:671-675, after the checks, so that
`checkTypeStruct` succeeds -/
def paramsIdx (prhs : List (Mx α)) : Option Nat :=
  if prhs.length = 9 then some 8
  else if prhs.length = 11 ∧ tenIsDouble prhs = false then some 10
  else if prhs.length = 12 then some 11
  else if prhs.length = 14 then some 13
  else none

/-! ## the parameter struct -/

/-- result of reading the parameter struct -/
structure Params (α : Type) where
  /-- options -/
  opts : Options α
  /-- x0 -/
  x0 : Option (List α) := none
  /-- y0 -/
  y0 : Option (List α) := none

/-- a scalar double field, handled by `f` -/
def numField (p : Mx α) (name : String) (f : α → Options α → M (Options α)) (o : Options α) : MX (Options α) :=
  match p.field name with
  | none => .ok o
  | some a => do
    checkDouble a 1 1 name
    let b ← lift a.pr
    let b ← lift (deref b)
    let v ← lift (rd b 0)
    lift (f v o)

/-- a scalar logical field, handled by `f` -/
def boolField (p : Mx α) (name : String) (f : Bool → Options α → Options α) (o : Options α) : MX (Options α) :=
  match p.field name with
  | none => .ok o
  | some a => do
    checkBool a 1 1 name
    let b ← lift a.prBool
    let v ← lift (rd b 0)
    .ok (f v o)

/-- a struct of subsolver options, read by `get`, /repo/interfaces/matlab/LCQPow.cpp:826-838 -/
def subField (p : Mx α) (name : String) (get : Mx α → M Nat) (f : Nat → Options α → Options α) (o : Options α) : MX (Options α) :=
  match p.field name with
  | none => .ok o
  | some a => do
    let k ← lift (get a)
    .ok (f k o)

/-- the primal guess, /repo/interfaces/matlab/LCQPow.cpp:814-819 -/
def guessField (p : Mx α) (nV : Nat) : MX (Option (List α)) :=
  match p.field "x0" with
  | none => .ok none
  | some a => do
    checkDouble a nV 1 "x0"
    lift a.pr

/-- the dual guess, /repo/interfaces/matlab/LCQPow.cpp:841-853: the expected size depends on the
solver -/
def dualField (p : Mx α) (n : Dims) (qpSolver : Int) : MX (Option (List α)) :=
  match p.field "y0" with
  | none => .ok none
  | some a => do
    checkDouble a (if qpSolver < 2 then n.nV + n.nC + 2 * n.nComp else n.nC + 2 * n.nComp) 1 "y0"
    lift a.pr

/-- the option fields, /repo/interfaces/matlab/LCQPow.cpp:677-839, in the order of the list of names;
return values of the setters are ignored -/
def optFields (E : MexEnv α) (p : Mx α) (o : Options α) : MX (Options α) := do
  let o ← numField p "stationarityTolerance" (fun v o => .ok (o.setStatTol v).2) o
  let o ← numField p "complementarityTolerance" (fun v o => .ok (o.setComplTol v).2) o
  let o ← numField p "initialPenaltyParameter" (fun v o => .ok (o.setRho0 v).2) o
  let o ← numField p "penaltyUpdateFactor" (fun v o => .ok (o.setFactor v).2) o
  let o ← boolField p "solveZeroPenaltyFirst" (fun v o => (o.setZeroFirst v).2) o
  let o ← numField p "maxIterations" (fun v o => do let k ← E.toInt v; .ok (o.setMaxIter k).2) o
  let o ← numField p "maxPenaltyParameter"
    (fun v o => do let k ← E.toInt v; .ok (o.setMaxRho (ofInt k)).2) o
  let o ← numField p "nDynamicPenalty" (fun v o => do let k ← E.toInt v; .ok (o.setNDyn k).2) o
  let o ← numField p "etaDynamicPenalty" (fun v o => .ok (o.setEta v).2) o
  let o ← numField p "printLevel" (fun v o => do let k ← E.toInt v; .ok (o.setPrintLevel k).2) o
  let o ← boolField p "storeSteps" (fun v o => (o.setStoreSteps v).2) o
  let o ← numField p "qpSolver" (fun v o => do let k ← E.toInt v; .ok (o.setQPSolver k).2) o
  let o ← boolField p "perturbStep" (fun v o => (o.setPerturb v).2) o
  let o ← subField p "qpOASES_options" E.qpo (fun k o => (o.setQpoases k).2) o
  subField p "OSQP_options" E.osqp (fun k o => { o with osqp := some k }) o

/-- reading of the parameter struct, /repo/interfaces/matlab/LCQPow.cpp:677-854 -/
def readParams (E : MexEnv α) (n : Dims) (p : Mx α) : MX (Params α) := do
  let x0 ← guessField p n.nV
  let o ← optFields E p E.dflt
  let y0 ← dualField p n o.qpSolver
  .ok { opts := o, x0 := x0, y0 := y0 }

/-- options and initial guess of a call -/
def mexParams (E : MexEnv α) (n : Dims) (prhs : List (Mx α)) : MX (Params α) :=
  match paramsIdx prhs with
  | none => .ok { opts := E.dflt }
  | some i => do
    let p ← lift (arg prhs i)
    readParams E n p

/-- choice between the loaders, /repo/interfaces/matlab/LCQPow.cpp:884-895 -/
def mexData (e : Env α) (o : Obj α) (n : Dims) (prhs : List (Mx α)) (x0 y0 : Option (List α)) : MX (Obj α) := do
  let q ← lift (argSparse prhs 0)
  if q then mexSparse e o n prhs x0 y0 else mexDense e o n prhs x0 y0

/-- everything up to the run: sizes, options and the loaded object,
/repo/interfaces/matlab/LCQPow.cpp:582-895 -/
def mexLoad (E : MexEnv α) (prhs : List (Mx α)) : MX (Dims × Options α × Obj α) := do
  if prhs.length < 8 ∨ 14 < prhs.length then .error .nrhs
  else do
    let n ← mexDims prhs
    mexChecks prhs n
    let o := Obj.new E.dflt n.nV n.nC n.nComp
    let p ← mexParams E n prhs
    let o := setOptions o p.opts
    let o ← mexData E.e o n prhs p.x0 p.y0
    .ok (n, p.opts, o)

/-! ## the results -/

/-- field names of the statistics, /repo/interfaces/matlab/LCQPow.cpp:958, 967 -/
def statNames : List String :=
  ["iters_total", "iters_outer", "iters_subproblem", "rho_opt", "elapsed_time", "exit_flag",
    "solution_type", "qp_exit_flag"]

/-- further field names with stored steps, /repo/interfaces/matlab/LCQPow.cpp:959-960 -/
def stepNames : List String :=
  ["innerIters", "xSteps", "accumulatedSubproblemIters", "stepLength", "stepSize", "statVals",
    "objVals", "phiVals", "meritVals", "subproblemIters"]

/-- a struct of double columns; a field that was never set is empty -/
abbrev MxStruct (α : Type) := List (String × List α)

/-- `mxCreateStructMatrix( 1, 1, ... )` -/
def newStruct (names : List String) : MxStruct α := names.map fun s => (s, [])

/-- `mxSetFieldByNumber( s, 0, k, v )` -/
def setFieldNo (s : MxStruct α) (k : Nat) (v : List α) : M (MxStruct α) := do
  let f ← rd s k
  wr s k (f.1, v)

/-- a tracked series copied to a double column of length `t`, /repo/interfaces/matlab/LCQPow.cpp:1053-1067;
the C++ code fills all columns in one loop -/
def seriesArr {β : Type} (t : Nat) (src : Option (List β)) (conv : β → α) : M (List α) :=
  loop t (fun i b => do
    let s ← deref src
    let v ← rd s i
    wr b i (conv v)) (List.replicate t zero)

/-- the iterates, one after the other, /repo/interfaces/matlab/LCQPow.cpp:1054-1056 -/
def stepsArr (t nV : Nat) (xs : List (List α)) : M (List α) :=
  loop t (fun i b => loop nV (fun j b => do
    let row ← rd xs i
    let v ← rd row j
    wr b (i * nV + j) v) b) (List.replicate (t * nV) zero)

/-- a tracked integer series as column -/
def intArr (t : Nat) (l : List Int) (e : Env α) : M (List α) := do
  let p ← Stats.getArr l e.junkI
  seriesArr t p ofInt

/-- a tracked series of doubles as column -/
def dblArr (t : Nat) (l : List α) (e : Env α) : M (List α) := do
  let p ← Stats.getArr l (e.junk 24)
  seriesArr t p id

/-- the assignments of the tracked series, /repo/interfaces/matlab/LCQPow.cpp:1019-1078 -/
def setSeries (e : Env α) (nV : Nat) (s : Stats α) (f : MxStruct α) : M (MxStruct α) := do
  let t := s.iterTotal.toNat
  let xs ← stepsArr t nV s.xSteps
  let inner ← intArr t s.innerIters e
  let sub ← intArr t s.subIters e
  let accu ← intArr t s.accuIters e
  let len ← dblArr t s.stepLength e
  let size ← dblArr t s.stepSize e
  let stat ← dblArr t s.statVals e
  let obj ← dblArr t s.objVals e
  let phi ← dblArr t s.phiVals e
  let merit ← dblArr t s.meritVals e
  let f ← setFieldNo f 7 xs
  let f ← setFieldNo f 8 sub
  let f ← setFieldNo f 9 accu
  let f ← setFieldNo f 10 len
  let f ← setFieldNo f 11 size
  let f ← setFieldNo f 12 stat
  let f ← setFieldNo f 13 obj
  let f ← setFieldNo f 14 phi
  let f ← setFieldNo f 15 merit
  setFieldNo f 16 inner

/-- the scalar fields, /repo/interfaces/matlab/LCQPow.cpp:951-1014 -/
def plainStruct (time : α) (store : Bool) (ret : RV) (s : Stats α) : M (MxStruct α) := do
  let f := newStruct (if store then statNames ++ stepNames else statNames)
  let f ← setFieldNo f 0 [ofInt s.iterTotal]
  let f ← setFieldNo f 1 [ofInt s.iterOuter]
  let f ← setFieldNo f 2 [ofInt s.subproblemIter]
  let f ← setFieldNo f 3 [s.rhoOpt]
  let f ← setFieldNo f 4 [time]
  let f ← setFieldNo f 5 [ofInt ret.code]
  let f ← setFieldNo f 6 [ofInt s.status.code]
  setFieldNo f 7 [ofInt s.exitFlag]

/-- the statistics struct, /repo/interfaces/matlab/LCQPow.cpp:951-1092 -/
def statsStruct (e : Env α) (time : α) (store : Bool) (nV : Nat) (ret : RV) (s : Stats α) :
    M (MxStruct α) := do
  let f ← plainStruct time store ret s
  if store ∧ 0 < s.iterTotal then setSeries e nV s f else .ok f

/-- outputs of the interface -/
structure MexOut (α : Type) where
  /-- x -/
  x : List α
  /-- y -/
  y : Option (List α) := none
  /-- stats -/
  stats : Option (MxStruct α) := none

/-- `yOptTMP` after `getDualSolution`, /repo/interfaces/matlab/LCQPow.cpp:870-875, 903-906: an
uninitialised array is handed to the getter -/
def dualTmp (e : Env α) (n : Dims) (o : Obj α) : M (List α) := do
  let b ← getDualSolution o (some (e.alloc 23 (n.nC + n.nV + 2 * n.nComp)))
  deref b.2

/-- the dual output, /repo/interfaces/matlab/LCQPow.cpp:924-949 -/
def mexDual (e : Env α) (n : Dims) (o : Obj α) : MX (List α) := do
  let tmp ← lift (dualTmp e n o)
  let k ← lift (getNumberOfDuals o)
  if k = 0 then .error .duals
  else lift (copyTo tmp k (List.replicate k zero))

/-- from the end of the run to the end of the function, /repo/interfaces/matlab/LCQPow.cpp:900-1095.
The C++ code calls all getters first. -/
def mexResults (E : MexEnv α) (nlhs : Nat) (n : Dims) (store : Bool) (r : RV × Obj α) : MX (MexOut α) := do
  let x ← lift (getPrimalSolution r.2 (some (List.replicate n.nV zero)))
  let x ← lift (deref x.2)
  if nlhs ≤ 1 then .ok { x := x }
  else do
    let y ← mexDual E.e n r.2
    if nlhs ≤ 2 then .ok { x := x, y := some y }
    else do
      let s := getOutputStatistics r.2 Stats.fresh
      let f ← lift (statsStruct E.e E.time store n.nV r.1 s)
      .ok { x := x, y := some y, stats := some f }

/-- `mexFunction`, /repo/interfaces/matlab/LCQPow.cpp:570-1095; `none`: the solver is still running
after `fuel` passes. -/
def mexFunction (E : MexEnv α) (fuel : Nat) (nlhs : Nat) (prhs : List (Mx α)) : MX (Option (MexOut α)) := do
  if nlhs < 1 ∨ 3 < nlhs then .error .nlhs
  else do
    let q ← mexLoad E prhs
    let r ← lift (runSolver E.e fuel q.2.2)
    match r with
    | none => .ok none
    | some r => do
      let out ← mexResults E nlhs q.1 q.2.1.storeSteps r
      .ok (some out)

end LCQ
