import Verif.Model.Matlab

/-!
# The example scripts of the MATLAB interface, /repo/interfaces/matlab/examples

Simplifications.
* A matrix product with inner dimension two is `a1 *. b1 +. a2 *. b2`; the order in which MATLAB adds is not documented.
* An assignment to an entry outside a matrix, which would enlarge it, and a read outside, which is an error, are the fault `oob`.
* Printing is reduced to reading the printed entries; time measurements (`tic`, `toc`) and plots are left out.
* `dir N i` are the values of `cos(2*pi*i/N)` and `sin(2*pi*i/N)`.
* The parameter struct is built anew for each call; in the loops of the scripts the fields keep the order of the first round.
* The number of passes of a run is bounded by `fuel`; the result is `none` if a run has not ended by then.
-/

namespace LCQ.Script
open Scalar

variable {α : Type} [Scalar α]

/-! ## matrices -/

/-- a full matrix, stored by columns -/
structure Arr (α : Type) where
  /-- number of rows -/
  m : Nat
  /-- number of columns -/
  n : Nat
  /-- entries -/
  data : List α

/-- the matrix as argument of a function -/
def Arr.mx (A : Arr α) : Mx α := .dbl A.m A.n A.data

/-- `[a b; c d]`, given by rows -/
def ofRows (rows : List (List α)) : Arr α :=
  let n := (rows.headD []).length
  ⟨rows.length, n, (List.range n).flatMap fun j => rows.map fun r => r.getD j zero⟩

/-- `zeros(m, n)` -/
def zeros (m n : Nat) : Arr α := ⟨m, n, List.replicate (n * m) zero⟩

/-- `ones(m, n)` -/
def ones (m n : Nat) : Arr α := ⟨m, n, List.replicate (n * m) one⟩

/-- `v * eye(n)` -/
def scaledEye (v : α) (n : Nat) : Arr α :=
  ⟨n, n, (List.range (n * n)).map fun t => v *. (if t / n = t % n then one else zero)⟩

/-- `A(i, j) = v`, indices from one -/
def put (A : Arr α) (i j : Nat) (v : α) : M (Arr α) :=
  if 1 ≤ i ∧ i ≤ A.m ∧ 1 ≤ j ∧ j ≤ A.n then do
    let d ← wr A.data ((j - 1) * A.m + (i - 1)) v
    .ok { A with data := d }
  else .error .oob

/-- `v == 0` -/
def isZero (v : α) : Bool := (v <=. zero) && (zero <=. v)

/-- the entries of column `j` that `sparse` keeps -/
def Arr.kept (A : Arr α) (j : Nat) : List (Int × α) :=
  (List.range A.m).filterMap fun i =>
    match A.data[j * A.m + i]? with
    | some v => if isZero v then none else some ((i : Int), v)
    | none => none

/-- the entries of the first `j` columns that `sparse` keeps -/
def Arr.keptTo (A : Arr α) (j : Nat) : List (Int × α) := (List.range j).flatMap A.kept

/-- `sparse(A)`: entries equal to zero are dropped, the others are stored by columns with increasing rows -/
def Arr.sparse (A : Arr α) : CSC α where
  m := A.m
  n := A.n
  nzmax := (A.keptTo A.n).length
  p := (List.range (A.n + 1)).map fun j => ((A.keptTo j).length : Int)
  i := (A.keptTo A.n).map Prod.fst
  x := (A.keptTo A.n).map Prod.snd

/-- the matrix or its sparse form as argument of a function -/
def Arr.arg (A : Arr α) (sp : Bool) : Mx α := if sp then .sparse A.sparse else A.mx

/-- `[]` -/
def empty : Mx α := .dbl 0 0 []

/-- a number -/
def num (v : α) : Mx α := .dbl 1 1 [v]

/-- `true` -/
def yes : Mx α := .logical 1 1 [true]

/-- `params.name = v` -/
def setField (name : String) (v : Mx α) (fs : List (String × Mx α)) : List (String × Mx α) :=
  fs.filter (fun f => f.1 != name) ++ [(name, v)]

/-! ## warm_up.m and generalized_constraints.m -/

/-- the entries of `x` and `y` printed at /repo/interfaces/matlab/examples/warm_up.m:26-32 and
/repo/interfaces/matlab/examples/generalized_constraints.m:14-20 -/
def printed (out : MexOut α) : M (α × α × Option (List α)) := do
  let x1 ← rd out.x 0
  let x2 ← rd out.x 1
  let y ← deref out.y
  if y.length = 4 then do
    let y1 ← rd y 0
    let y2 ← rd y 1
    let y3 ← rd y 2
    let y4 ← rd y 3
    .ok (x1, x2, some [y1, y2, y3, y4])
  else if y.length = 2 then do
    let y1 ← rd y 0
    let y2 ← rd y 1
    .ok (x1, x2, some [y1, y2])
  else .ok (x1, x2, none)

/-- the arguments of the call in /repo/interfaces/matlab/examples/warm_up.m:2-24; `s` is the value of `params.qpSolver`, 1 in the
script -/
def warmUpArgs (s : Int) : List (Mx α) :=
  let Q := ofRows [[ofInt 2, ofInt 0], [ofInt 0, ofInt 2]]
  let g := ofRows [[ofInt (-2)], [ofInt (-2)]]
  let L := ofRows [[ofInt 1, ofInt 0]]
  let R := ofRows [[ofInt 0, ofInt 1]]
  let params := setField "initialPenaltyParameter" (num (lit 1 2)) []
  let params := setField "penaltyUpdateFactor" (num (ofInt 2)) params
  let params := setField "qpSolver" (num (ofInt s)) params
  let sp : Bool := decide (s > 0)
  [Q.arg sp, g.mx, L.arg sp, R.arg sp, empty, empty, empty, empty, .struct params]

/-- /repo/interfaces/matlab/examples/warm_up.m -/
def warmUp (E : MexEnv α) (fuel : Nat) (s : Int) : MX (Option (α × α × Option (List α))) := do
  let r ← mexFunction E fuel 2 (warmUpArgs s)
  match r with
  | none => .ok none
  | some out => do
    let p ← lift (printed out)
    .ok (some p)

/-- the arguments of the call in /repo/interfaces/matlab/examples/generalized_constraints.m:2-12 -/
def generalizedArgs : List (Mx α) :=
  let Q := ofRows [[ofInt 2, ofInt 0], [ofInt 0, ofInt 2]]
  let g := ofRows [[ofInt (-2)], [ofInt (-2)]]
  let L := ofRows [[ofInt (-1), ofInt 0]]
  let R := ofRows [[ofInt 0, ofInt 1]]
  [Q.mx, g.mx, L.mx, R.mx, num (ofInt (-2)), num inf, num (ofInt 0), num inf]

/-- /repo/interfaces/matlab/examples/generalized_constraints.m; the statistics are the third component -/
def generalized (E : MexEnv α) (fuel : Nat) : MX (Option ((α × α × Option (List α)) × MxStruct α)) := do
  let r ← mexFunction E fuel 3 generalizedArgs
  match r with
  | none => .ok none
  | some out => do
    let s ← lift (deref out.stats)
    let p ← lift (printed out)
    .ok (some (p, s))

/-! ## scale1.m -/

/-- the arguments of the call in /repo/interfaces/matlab/examples/scale1.m:2-18 -/
def scaleArgs : List (Mx α) :=
  let Q := ofRows [[ofInt 2 *. (ofInt 100 *. ofInt 100), ofInt 0], [ofInt 0, ofInt 2]]
  let g := ofRows [[ofInt (-200)], [ofInt (-2)]]
  let L := ofRows [[ofInt 1, ofInt 0]]
  let R := ofRows [[ofInt 0, ofInt 1]]
  let params := setField "x0" (ofRows [[ofInt 1], [ofInt 1]]).mx []
  let params := setField "initialPenaltyParameter" (num (ofInt 10)) params
  let params := setField "penaltyUpdateFactor" (num (ofInt 2)) params
  let params := setField "solveZeroPenaltyFirst" yes params
  let params := setField "printLevel" (num (ofInt 2)) params
  [Q.mx, g.mx, L.mx, R.mx, empty, empty, empty, empty, .struct params]

/-- /repo/interfaces/matlab/examples/scale1.m; its loop makes one round -/
def scale (E : MexEnv α) (fuel : Nat) : MX (Option (MexOut α)) := mexFunction E fuel 3 scaleArgs

/-! ## solvers_test.m and optimize_on_circle.m -/

/-- the variables of the script -/
structure Circle (α : Type) where
  /-- Q -/
  Q : Arr α
  /-- g -/
  g : Arr α
  /-- A -/
  A : Arr α
  /-- lbA -/
  lbA : Arr α
  /-- ubA -/
  ubA : Arr α
  /-- L -/
  L : Arr α
  /-- R -/
  R : Arr α
  /-- params.x0 -/
  x0 : Arr α

/-- `eps` of MATLAB, `2^(-52)` -/
def mEps : α := lit (5 ^ 52) 52

/-- `Qx` -/
def q11 : α := ofInt 17
/-- `Qx` -/
def q12 : α := ofInt (-15)
/-- `xk(1)` -/
def xk1 : α := lit 5 1
/-- `xk(2)` -/
def xk2 : α := -. lit 6 1

/-- `Q`, /repo/interfaces/matlab/examples/solvers_test.m:25-26 -/
def circleQ (nz : Nat) : M (Arr α) := do
  let Q := scaledEye mEps nz
  let Q ← put Q 1 1 q11
  let Q ← put Q 2 1 q12
  let Q ← put Q 1 2 q12
  put Q 2 2 q11

/-- `g`, /repo/interfaces/matlab/examples/solvers_test.m:23, 27 -/
def circleG (nz : Nat) : M (Arr α) := do
  let g ← put (zeros nz 1) 1 1 ((-. xk1) *. q11 +. (-. xk2) *. q12)
  put g 2 1 ((-. xk1) *. q12 +. (-. xk2) *. q11)

/-- round `i` of the loop at /repo/interfaces/matlab/examples/solvers_test.m:38-49 -/
def circleRow (N : Nat) (dir : Nat → α × α) (i : Nat) (c : Circle α) : M (Circle α) := do
  let A ← put c.A i 1 (dir i).1
  let A ← put A i 2 (dir i).2
  let A ← put A i (2 + 2 * i - 1) (ofInt 1)
  let A ← put A (N + 1) (2 + 2 * i) (ofInt 1)
  let L ← put c.L i (2 + 2 * i - 1) (ofInt 1)
  let R ← put c.R i (2 + 2 * i) (ofInt 1)
  .ok { c with A := A, L := L, R := R }

/-- the problem, /repo/interfaces/matlab/examples/solvers_test.m:18-53 and
/repo/interfaces/matlab/examples/optimize_on_circle.m:8-42 -/
def circle (N : Nat) (dir : Nat → α × α) : M (Circle α) := do
  let nz := 2 + 2 * N
  let g ← circleG nz
  let Q ← circleQ nz
  let lbA := ones (N + 1) 1
  let c ← loop N (fun t c => circleRow N dir (t + 1) c) ⟨Q, g, zeros (N + 1) nz, lbA, lbA, zeros N nz, zeros N nz, zeros 0 0⟩
  let x0 ← put (ones nz 1) 1 1 xk1
  let x0 ← put x0 2 1 xk2
  .ok { c with x0 := x0 }

/-- the arguments of a call, /repo/interfaces/matlab/examples/solvers_test.m:57, 69, 74 -/
def Circle.args (c : Circle α) (sp : Bool) (params : List (String × Mx α)) : List (Mx α) :=
  [c.Q.arg sp, c.g.mx, c.L.arg sp, c.R.arg sp, empty, empty, empty, empty, c.A.arg sp, c.lbA.mx, c.ubA.mx, .struct params]

/-- the scalar `stats.name` -/
def stat (out : MexOut α) (name : String) : M α := do
  let s ← deref out.stats
  let v ← deref (s.lookup name)
  rd v 0

/-- `params` at /repo/interfaces/matlab/examples/solvers_test.m:12-13, 52-53 and 56, 68 or 73 -/
def testParams (c : Circle α) (s : Int) : List (String × Mx α) :=
  let params := setField "printLevel" (num (ofInt 2)) []
  let params := setField "stationarityTolerance" (num (lit 1 3)) params
  let params := setField "x0" c.x0.mx params
  setField "qpSolver" (num (ofInt s)) params

/-- one call and the two numbers read from the statistics, /repo/interfaces/matlab/examples/solvers_test.m:55-59, 67-71, 73-76 -/
def testCall (E : MexEnv α) (fuel : Nat) (c : Circle α) (s : Int) : MX (Option (α × α)) := do
  let r ← mexFunction E fuel 3 (c.args (decide (s > 0)) (testParams c s))
  match r with
  | none => .ok none
  | some out => do
    let t ← lift (stat out "elapsed_time")
    let f ← lift (stat out "exit_flag")
    .ok (some (t, f))

/-- one round for each of the values `Ns`: times and exit flags of the solvers 0, 1, 2,
/repo/interfaces/matlab/examples/solvers_test.m:16-77.  In the script `Ns` is `10:20:200`. -/
def solversTest (E : MexEnv α) (fuel : Nat) (dir : Nat → Nat → α × α) : List Nat → MX (Option (List (List (α × α))))
  | [] => .ok (some [])
  | N :: Ns => do
    let c ← lift (circle N (dir N))
    let r0 ← testCall E fuel c 0
    match r0 with
    | none => .ok none
    | some r0 => do
      let r1 ← testCall E fuel c 1
      match r1 with
      | none => .ok none
      | some r1 => do
        let r2 ← testCall E fuel c 2
        match r2 with
        | none => .ok none
        | some r2 => do
          let rest ← solversTest E fuel dir Ns
          match rest with
          | none => .ok none
          | some rest => .ok (some ([r0, r1, r2] :: rest))

/-- `10:20:200` -/
def nVals : List Nat := (List.range 10).map fun j => 10 + 20 * j

/-- the loop at /repo/interfaces/matlab/examples/optimize_on_circle.m:64-67; `none` if it makes more than `k` rounds -/
def rhoVals : Nat → α → Option (List α)
  | 0, _ => none
  | k + 1, v => if v <. ofInt 10 then (rhoVals k (v *. lit 15 1)).map (v :: ·) else some [v]

/-- `params` at /repo/interfaces/matlab/examples/optimize_on_circle.m:42-49, 80 -/
def circleParams (c : Circle α) (rho : α) : List (String × Mx α) :=
  let params := setField "x0" c.x0.mx []
  let params := setField "initialPenaltyParameter" (num (lit 1 3)) params
  let params := setField "penaltyUpdateFactor" (num (ofInt 2)) params
  let params := setField "solveZeroPenaltyFirst" yes params
  let params := setField "printLevel" (num (ofInt 0)) params
  let params := setField "qpSolver" (num (ofInt 1)) params
  setField "initialPenaltyParameter" (num rho) params

/-- `obj`, /repo/interfaces/matlab/examples/optimize_on_circle.m:19 -/
def objective (x : List α) : M α := do
  let x1 ← rd x 0
  let x2 ← rd x 1
  let v1 := x1 -. xk1
  let v2 := x2 -. xk2
  .ok ((v1 *. q11 +. v2 *. q12) *. v1 +. (v1 *. q12 +. v2 *. q11) *. v2)

/-- objective value, total and outer iterations of a call -/
structure Row (α : Type) where
  /-- obj_vals -/
  obj : α
  /-- iter_vals -/
  iters : α
  /-- outer_vals -/
  outer : α

/-- one round, /repo/interfaces/matlab/examples/optimize_on_circle.m:79-91 -/
def circleCall (E : MexEnv α) (fuel : Nat) (c : Circle α) (rho : α) : MX (Option (Row α)) := do
  let r ← mexFunction E fuel 3 (c.args true (circleParams c rho))
  match r with
  | none => .ok none
  | some out => do
    let f ← lift (objective out.x)
    let i ← lift (stat out "iters_total")
    let o ← lift (stat out "iters_outer")
    .ok (some ⟨f, i, o⟩)

/-- the rounds for the values in the list -/
def circleCalls (E : MexEnv α) (fuel : Nat) (c : Circle α) : List α → MX (Option (List (Row α)))
  | [] => .ok (some [])
  | rho :: l => do
    let r ← circleCall E fuel c rho
    match r with
    | none => .ok none
    | some r => do
      let rest ← circleCalls E fuel c l
      match rest with
      | none => .ok none
      | some rest => .ok (some (r :: rest))

/-- /repo/interfaces/matlab/examples/optimize_on_circle.m:8-91; `N` is 200 in the script -/
def optimizeOnCircle (E : MexEnv α) (fuel N : Nat) (dir : Nat → α × α) : MX (Option (List (Row α))) := do
  let c ← lift (circle N dir)
  match rhoVals fuel (lit 10 8) with
  | none => .ok none
  | some rhos => circleCalls E fuel c rhos

end LCQ.Script
