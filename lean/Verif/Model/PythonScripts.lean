import Verif.Model.PythonBind
import Verif.Model.FromFile

/-!
# The example scripts of the Python interface, /repo/interfaces/python/examples

Simplifications.
* Text printed by the scripts before the problem is loaded is left out; of the rest, `said` are the messages about failures, the
  printed values are `x`, `y` and `vals`.
* `np.dot` of a row with two entries and a vector is `a1 *. b1 +. a2 *. b2`; the order in which numpy adds is not documented.
* `np.infty` is the infinity; the name was removed in version 2 of numpy.
* `dir i` are the two values of `np.cos((2*np.pi*i)/N)` and `np.sin((2*np.pi*i)/N)`.
* `math.floor(k/nV)` is the integer quotient (for numbers of lines below 2^53 the rounded quotient has the same integer part).
* The number of passes of a run is bounded by `fuel`; the result is `none` if a run has not ended by then.
-/

namespace LCQ.PyScript
open Scalar

variable {α : Type} [Scalar α]

/-- how a script can stop -/
inductive Halt where
  /-- undefined behaviour inside the library -/
  | fault (f : Fault)
  /-- Python exception -/
  | raised (name : String)
  deriving DecidableEq

/-- a piece of a script -/
abbrev PY (β : Type) := Except Halt β

/-- a call of the library -/
def lift {β : Type} : M β → PY β
  | .ok v => .ok v
  | .error f => .error (.fault f)

/-! ## numpy -/

/-- array with two indices, entries by rows -/
structure NArr (α : Type) where
  /-- rows -/
  m : Nat
  /-- columns -/
  n : Nat
  /-- entries -/
  data : List α

/-- `np.array` of a list of rows of the same length -/
def array (rows : List (List α)) : NArr α := ⟨rows.length, (rows.headD []).length, rows.flatten⟩

/-- `np.zeros([m, n])` -/
def zeros2 (m n : Nat) : NArr α := ⟨m, n, List.replicate (m * n) zero⟩

/-- `np.zeros(n)` -/
def zeros1 (n : Nat) : List α := List.replicate n zero

/-- the entries by columns -/
def NArr.columns (A : NArr α) : List α :=
  (List.range A.n).flatMap fun j => (List.range A.m).map fun i => A.data.getD (i * A.n + j) zero

/-- `A.T` -/
def NArr.T (A : NArr α) : NArr α := ⟨A.n, A.m, A.columns⟩

/-- the matrix pybind11 makes of an array -/
def NArr.eigen (A : NArr α) : Eigen α := ⟨A.m, A.n, A.columns⟩

/-- `A[i, j] = v` -/
def NArr.put (A : NArr α) (i j : Nat) (v : α) : PY (NArr α) :=
  if i < A.m ∧ j < A.n then do
    let d ← lift (wr A.data (i * A.n + j) v)
    .ok { A with data := d }
  else .error (.raised "IndexError")

/-- `a[i] = v` -/
def put1 (a : List α) (i : Nat) (v : α) : PY (List α) :=
  if i < a.length then lift (wr a i v) else .error (.raised "IndexError")

/-- `for i in range(n)` -/
def forRange {β : Type} : Nat → (Nat → β → PY β) → β → PY β
  | 0, _, b => .ok b
  | n + 1, f, b => do
    let b ← forRange n f b
    f n b

/-! ## the library -/

/-- attribute of an enumeration -/
def attr {β : Type} (t : List (String × β)) (name : String) : PY β :=
  match pyAttr t name with
  | some v => .ok v
  | none => .error (.raised "AttributeError")

/-- `options.name(a)`; the scripts do not look at the returned value -/
def setOpt (o : Options α) (name : String) (a : PyArg α) : PY (Options α) :=
  match pySet o name a with
  | some r => .ok r.2
  | none => .error (.raised "TypeError")

/-- `options = lcqpow.Options()`, `options.setPrintLevel(lcqpow.PrintLevel.INNER_LOOP_ITERATES)`,
/repo/interfaces/python/examples/warm_up.py:22-23 and the same lines of the other scripts; `qd` and `sd` stand for the default settings
of the QP solvers -/
def quiet (qd sd : Nat) : PY (Options α) := do
  let l ← attr pyPrintLevel "INNER_LOOP_ITERATES"
  setOpt (Options.default qd sd) "setPrintLevel" (.level l)

/-- additionally `options.setQPSolver(lcqpow.QPSolver.name)`, /repo/interfaces/python/examples/warm_up.py:22-24 -/
def options (qd sd : Nat) (name : String) : PY (Options α) := do
  let o ← quiet qd sd
  let s ← attr pyQPSolver name
  setOpt o "setQPSolver" (.solver s)

/-- `lcqp = lcqpow.LCQProblem(nV=nV, nC=nC, nComp=nComp)` and `lcqp.setOptions(options)` -/
def problem (qd sd : Nat) (nV nC nComp : Nat) (opts : Options α) : Obj α :=
  setOptions (Obj.new (Options.default qd sd) nV nC nComp) opts

/-- a message if the returned value is not `SUCCESSFUL_RETURN` -/
def complain (r : RV) (text : String) : PY (List String) := do
  let good ← attr pyReturnValue "SUCCESSFUL_RETURN"
  .ok (if r ≠ good then [text] else [])

/-- `loadLCQP` and `runSolver` with their messages; a failure does not end the script,
/repo/interfaces/python/examples/warm_up.py:27-34 and the same lines of the other scripts -/
def solve (e : Env α) (fuel : Nat) (o : Obj α) (load : Obj α → M (RV × Obj α)) : PY (Option (List String × Obj α)) := do
  let r ← lift (load o)
  let s1 ← complain r.1 "Failed to load LCQP."
  match ← lift (runSolver e fuel r.2) with
  | none => .ok none
  | some q =>
    let s2 ← complain q.1 "Failed to solve LCQP."
    .ok (some (s1 ++ s2, q.2))

/-- what a script leaves behind -/
structure Out (α : Type) where
  /-- messages about failures -/
  said : List String
  /-- `xOpt` -/
  x : List α
  /-- `yOpt` -/
  y : List α
  /-- printed statistics -/
  vals : List (PyStat α)

/-- the printed statistics -/
def ask (s : Stats α) : List String → PY (List (PyStat α))
  | [] => .ok []
  | name :: rest =>
    match pyStat s name with
    | some v => do
      let vs ← ask s rest
      .ok (v :: vs)
    | none => .error (.raised "AttributeError")

/-- `getPrimalSolution`, `getDualSolution`, `getOutputStatistics`, `print`,
/repo/interfaces/python/examples/warm_up.py:36-45 and the same lines of the other scripts -/
def fetch (o : Obj α) (said : List String) (names : List String) : PY (Out α) := do
  let x ← lift (pyPrimal o)
  let y ← lift (pyDual o)
  let vals ← ask (getOutputStatistics o Stats.fresh) names
  .ok ⟨said, x, y, vals⟩

/-- statistics printed by most scripts, /repo/interfaces/python/examples/warm_up.py:42-45 -/
def four : List String := ["getIterTotal", "getIterOuter", "getRhoOpt", "getSubproblemIter"]

/-- the rest of a script that solves one problem -/
def finish (e : Env α) (fuel : Nat) (o : Obj α) (load : Obj α → M (RV × Obj α)) (names : List String) : PY (Option (Out α)) := do
  match ← solve e fuel o load with
  | none => .ok none
  | some r => do
    let out ← fetch r.2 r.1 names
    .ok (some out)

/-! ## the warm-up scripts -/

/-- `Q`, `g`, `L`, `R`, /repo/interfaces/python/examples/warm_up.py:8-12 -/
def baseArgs : PyDense α where
  Q := (array [[ofInt 2, ofInt 0], [ofInt 0, ofInt 2]]).eigen
  g := [ofInt (-2), ofInt (-2)]
  L := (array [[ofInt 1, ofInt 0]]).eigen
  R := (array [[ofInt 0, ofInt 1]]).eigen

/-- with `x0` and `y0`, /repo/interfaces/python/examples/warm_up.py:8-15 -/
def guessedArgs : PyDense α :=
  { baseArgs with
    x0 := [ofInt 1, ofInt 1]
    y0 := [ofInt 0, ofInt 0, ofInt 0, ofInt 0] }

/-- /repo/interfaces/python/examples/warm_up.py -/
def warmUp (e : Env α) (qd sd fuel : Nat) : PY (Option (Out α)) := do
  let opts ← options qd sd "QPOASES_DENSE"
  finish e fuel (problem qd sd 2 0 1 opts) (fun o => pyLoadDense e o guessedArgs) four

/-- arguments of /repo/interfaces/python/examples/warm_up_w_A.py:8-15, 26 -/
def withAArgs : PyDense α :=
  { baseArgs with
    A := (array [[ofInt 1, ofInt (-1)]]).eigen
    lbA := [-. lit 5 1]
    ubA := [inf] }

/-- /repo/interfaces/python/examples/warm_up_w_A.py -/
def withA (e : Env α) (qd sd fuel : Nat) : PY (Option (Out α)) := do
  let opts ← quiet qd sd
  finish e fuel (problem qd sd 2 1 1 opts) (fun o => pyLoadDense e o withAArgs) []

/-- arguments of /repo/interfaces/python/examples/warm_up_binary.py:8-21, 34, 45-46, 50 -/
def binaryArgs (x0 : List α) : PyDense α :=
  { baseArgs with
    L := (array [[ofInt 1, ofInt 1], [ofInt 0, ofInt 0]]).eigen
    R := (array [[ofInt 0, ofInt (-1)], [ofInt 1, ofInt 0]]).eigen
    lbL := [ofInt 0, ofInt 0]
    lbR := [ofInt 0, -. lit 5 1]
    x0 := x0 }

/-- options for the second problem, /repo/interfaces/python/examples/warm_up_binary.py:47-48 -/
def binaryOptions (o : Options α) : PY (Options α) := do
  let o ← setOpt o "setSolveZeroPenaltyFirst" (.flag false)
  setOpt o "setInitialPenaltyParameter" (.num (ofInt 10))

/-- /repo/interfaces/python/examples/warm_up_binary.py -/
def binary (e : Env α) (qd sd fuel : Nat) : PY (Option (Out α)) := do
  let opts ← options qd sd "QPOASES_DENSE"
  let x0 := [ofInt 0, ofInt 0]
  match ← solve e fuel (problem qd sd 2 0 2 opts) (fun o => pyLoadDense e o (binaryArgs x0)) with
  | none => .ok none
  | some r => do
    let x0 ← put1 x0 0 (ofInt 0)
    let x0 ← put1 x0 1 (ofInt 3000)
    let opts ← binaryOptions opts
    match ← solve e fuel (setOptions r.2 opts) (fun o => pyLoadDense e o (binaryArgs x0)) with
    | none => .ok none
    | some r2 => do
      let out ← fetch r2.2 (r.1 ++ r2.1) four
      .ok (some out)

/-- /repo/interfaces/python/examples/warm_up_sparse.py -/
def sparse (e : Env α) (qd sd fuel : Nat) : PY (Option (Out α)) := do
  let opts ← options qd sd "QPOASES_SPARSE"
  finish e fuel (problem qd sd 2 0 1 opts) (fun o => pyLoadDense e o baseArgs) four

/-- `lcqpow.cscWrapper(m, n, p[n], data, i, p)` -/
def wrap (m n : Nat) (x : List α) (i p : List Int) : PY (Option (CSC α)) :=
  match p[n]? with
  | some nnx => .ok (pyCsc m n nnx.toNat x i p)
  | none => .error (.raised "IndexError")

/-- arguments of /repo/interfaces/python/examples/warm_up_osqp.py:8-28, 37 -/
def osqpArgs : PY (PySparse α) := do
  let Q ← wrap 2 2 [ofInt 2, ofInt 2] [0, 1] [0, 1, 2]
  let L ← wrap 1 2 [ofInt 1] [0] [0, 1, 1]
  let R ← wrap 1 2 [ofInt 1] [0] [0, 0, 1]
  .ok { Q := Q, g := [ofInt (-2), ofInt (-2)], L := L, R := R }

/-- /repo/interfaces/python/examples/warm_up_osqp.py -/
def osqp (e : Env α) (qd sd fuel : Nat) : PY (Option (Out α)) := do
  let a ← osqpArgs
  let opts ← options qd sd "OSQP_SPARSE"
  finish e fuel (problem qd sd 2 0 1 opts) (fun o => pyLoadSparse e o a) four

/-- options of /repo/interfaces/python/examples/test_max_penalty.py:22-25 -/
def maxOptions (qd sd : Nat) : PY (Options α) := do
  let o ← options qd sd "QPOASES_DENSE"
  setOpt o "setMaxPenaltyParameter" (.num (ofInt 1))

/-- /repo/interfaces/python/examples/test_max_penalty.py: what is printed -/
def maxPenalty (e : Env α) (qd sd fuel : Nat) : PY (Option (List String)) := do
  let opts ← maxOptions qd sd
  let r ← lift (pyLoadDense e (problem qd sd 2 0 1 opts) guessedArgs)
  let s1 ← complain r.1 "Failed to load LCQP."
  match ← lift (runSolver e fuel r.2) with
  | none => .ok none
  | some q => do
    let m ← attr pyReturnValue "MAX_PENALTY_REACHED"
    .ok (some (s1 ++ if q.1 = m then ["Succeeded test (failed to solve LCQP due to maximal penalty)."] else []))

/-! ## optimization on a circle -/

/-- the arrays of /repo/interfaces/python/examples/OptimizeOnCircle.py:25-32 -/
structure Arrays (α : Type) where
  /-- Q -/
  Q : NArr α
  /-- g -/
  g : List α
  /-- L -/
  L : NArr α
  /-- R -/
  R : NArr α
  /-- A -/
  A : NArr α
  /-- lbA -/
  lbA : List α
  /-- ubA -/
  ubA : List α
  /-- x0 -/
  x0 : List α

/-- Hessian, /repo/interfaces/python/examples/OptimizeOnCircle.py:25, 38-45 -/
def circleQ (nV : Nat) : PY (NArr α) := do
  let Q ← (zeros2 nV nV).put 0 0 (ofInt 17)
  let Q ← Q.put 1 1 (ofInt 17)
  let Q ← Q.put 0 1 (ofInt (-15))
  let Q ← Q.put 1 0 (ofInt (-15))
  forRange (nV - 2) (fun k Q => Q.put (k + 2) (k + 2) (lit 5 12)) Q

/-- one round of the loop at /repo/interfaces/python/examples/OptimizeOnCircle.py:52-70 -/
def circleRow (N : Nat) (dir : Nat → α × α) (i : Nat) (a : Arrays α) : PY (Arrays α) := do
  let A ← a.A.put i 0 (dir i).1
  let A ← A.put i 1 (dir i).2
  let A ← A.put i (2 + 2 * i) (ofInt 1)
  let A ← A.put N (3 + 2 * i) (ofInt 1)
  let L ← a.L.put i (2 + 2 * i) (ofInt 1)
  let R ← a.R.put i (3 + 2 * i) (ofInt 1)
  let lbA ← put1 a.lbA i (ofInt 1)
  let ubA ← put1 a.ubA i (ofInt 1)
  let x0 ← put1 a.x0 (2 * i + 2) (ofInt 1)
  let x0 ← put1 x0 (2 * i + 3) (ofInt 1)
  .ok { a with A := A, L := L, R := R, lbA := lbA, ubA := ubA, x0 := x0 }

/-- problem data, /repo/interfaces/python/examples/OptimizeOnCircle.py:8-74; `N` is 100 in the scripts -/
def circleArrays (N : Nat) (dir : Nat → α × α) : PY (Arrays α) := do
  let nV := 2 + 2 * N
  let r0 : α := lit 5 1
  let r1 : α := -. lit 6 1
  let x0 ← put1 (zeros1 nV) 0 r0
  let x0 ← put1 x0 1 r1
  let Q ← circleQ nV
  let g ← put1 (zeros1 nV) 0 (-. (ofInt 17 *. r0 +. ofInt (-15) *. r1))
  let g ← put1 g 1 (-. (ofInt (-15) *. r0 +. ofInt 17 *. r1))
  let a ← forRange N (circleRow N dir)
    ⟨Q, g, zeros2 N nV, zeros2 N nV, zeros2 (N + 1) nV, zeros1 (N + 1), zeros1 (N + 1), x0⟩
  let lbA ← put1 a.lbA N (ofInt 1)
  let ubA ← put1 a.ubA N (ofInt 1)
  .ok { a with lbA := lbA, ubA := ubA }

/-- arguments of `loadLCQP`, /repo/interfaces/python/examples/OptimizeOnCircle.py:77 -/
def Arrays.args (a : Arrays α) : PyDense α where
  Q := a.Q.eigen
  g := a.g
  L := a.L.T.eigen
  R := a.R.T.eigen
  A := a.A.T.eigen
  lbA := a.lbA
  ubA := a.ubA
  x0 := a.x0

/-- options of /repo/interfaces/python/examples/OptimizeOnCircle.py:18-21 -/
def circleOptions (qd sd : Nat) : PY (Options α) := do
  let o ← options qd sd "OSQP_SPARSE"
  setOpt o "setStationarityTolerance" (.num (lit 10 3))

/-- /repo/interfaces/python/examples/OptimizeOnCircle.py -/
def circle (e : Env α) (N : Nat) (dir : Nat → α × α) (qd sd fuel : Nat) : PY (Option (Out α)) := do
  let opts ← circleOptions qd sd
  let a ← circleArrays N dir
  finish e fuel (problem qd sd (2 + 2 * N) (N + 1) N opts) (fun o => pyLoadDense e o a.args) four

/-- options of /repo/interfaces/python/examples/OptimizeOnCircleStoreSteps.py:18-21 -/
def stepsOptions (qd sd : Nat) : PY (Options α) := do
  let o ← options qd sd "QPOASES_SPARSE"
  setOpt o "setStoreSteps" (.flag true)

/-- /repo/interfaces/python/examples/OptimizeOnCircleStoreSteps.py (the arrays are those of OptimizeOnCircle.py) -/
def circleSteps (e : Env α) (N : Nat) (dir : Nat → α × α) (qd sd fuel : Nat) : PY (Option (Out α)) := do
  let opts ← stepsOptions qd sd
  let a ← circleArrays N dir
  finish e fuel (problem qd sd (2 + 2 * N) (N + 1) N opts) (fun o => pyLoadDense e o a.args)
    (four ++ ["getInnerIters", "getSubproblemIters", "getStepLength", "getStepSize", "getStatVals", "getObjVals", "getPhiVals",
      "getMeritVals"])

/-! ## problems from files -/

open FromFile (Path Dir)

/-- universal newlines: `\r\n` and `\r` are read as `\n` -/
def universal : List Char → List Char
  | [] => []
  | '\r' :: '\n' :: t => '\n' :: universal t
  | '\r' :: t => '\n' :: universal t
  | c :: t => c :: universal t

/-- `with open(name) as f: sum([1 for line in f])` -/
def count (p : Path) : PY Nat :=
  match p with
  | some (some t) =>
    let u := universal t
    .ok (FromFile.countLines u.length u 0)
  | some none => .error (.raised "PermissionError")
  | none => .error (.raised "FileNotFoundError")

/-- arguments of `loadLCQP`, /repo/interfaces/python/examples/solve_lcqp_from_file.py:40-43.  The names of the files with the box
constraints are defined, but not handed over. -/
def fileArgs (d : Dir) : FileArgs Dbl where
  Q := some (FromFile.file d.Q)
  g := some (FromFile.file d.g)
  L := some (FromFile.file d.L)
  R := some (FromFile.file d.R)
  A := some (FromFile.file d.A)
  lbA := some (FromFile.file d.lbA)
  ubA := some (FromFile.file d.ubA)
  x0 := some (FromFile.file d.x0)

/-- arguments of `loadLCQP`, /repo/interfaces/python/examples/solve_generalized_from_file.py:44-49 -/
def generalizedArgs (d : Dir) : FileArgs Dbl :=
  { fileArgs d with
    lbL := some (FromFile.file d.lbL)
    ubL := some (FromFile.file d.ubL)
    lbR := some (FromFile.file d.lbR)
    ubR := some (FromFile.file d.ubR) }

/-- /repo/interfaces/python/examples/solve_lcqp_from_file.py and solve_generalized_from_file.py, which differ in the directory and in
the arguments of `loadLCQP`: what is printed -/
def fromFile (e : Env Dbl) (d : Dir) (args : Dir → FileArgs Dbl) (qd sd fuel : Nat) : PY (Option (List String)) := do
  let nV ← count d.lb
  let k ← count d.L
  if nV = 0 then .error (.raised "ZeroDivisionError")
  else
    let nComp := k / nV
    let k ← count d.A
    let nC := k / nV
    let opts ← options qd sd "QPOASES_SPARSE"
    match ← solve e fuel (problem qd sd nV nC nComp opts) (fun o => loadFiles e o (args d)) with
    | none => .ok none
    | some r => .ok (some r.1)

end LCQ.PyScript
