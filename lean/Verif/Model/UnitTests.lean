import Verif.Model.WarmUp
import Verif.Model.Utilities

/-!
# The unit tests that depend on random numbers or on the QP solver

/repo/test/RunUnitTests.cpp:335-375 (SparseDenseBackAndForth), 413-460 (DenseToSparse), 463-502 (CheckQPReturnFlag) and 505-551
(RunWarmUp).  The other tests of that file have fixed inputs; they are evaluated in `Props/UnitTests`.  A failing `ASSERT` ends a
test.  Releasing the arrays is left out.
-/

namespace LCQ.TestSuite
open Scalar

variable {α : Type} [Scalar α]

/-- how a test ends -/
inductive Verdict (α : Type) where
  /-- all assertions hold -/
  | pass
  /-- two entries that should agree do not -/
  | differs
  /-- the result of `loadLCQP` is not the expected one -/
  | load (c : RV)
  /-- the result of a mode switch is not the expected one -/
  | switch (c : RV)
  /-- the result of `runSolver` is not the expected one -/
  | run (c : RV)
  /-- the exit flag of the QP solver is zero -/
  | flag
  /-- the primal solution is not the expected one -/
  | point (xs : List α)
  /-- a stationarity condition does not hold -/
  | stat (xs ys : List α)
  deriving DecidableEq

/-! ## SparseDenseBackAndForth -/

/-- lines 345-362: `Q` with `m * n = 10` entries, filled from the values `rand k`, `rand (k + 1)`, … of `std::rand()`; they are not
negative -/
def fill (rand : Nat → Nat) (k : Nat) : M (List α) :=
  loop 10 (fun j Q =>
    let rd := rand (k + j)
    if rd % 4 = 0 then wr Q j (ofInt (rd % 9 : Nat)) else .ok Q) (List.replicate 10 zero)

/-- lines 369-370: `ASSERT_DOUBLE_EQ` also accepts numbers that differ in the last bits; here they have to be equal -/
def compare (Q C : List α) : M Bool :=
  loop 10 (fun j ok => do
    let c ← rd C j
    let q ← rd Q j
    .ok (ok && (c <=. q && q <=. c))) true

/-- lines 345-376, one pass of the loop -/
def backOnce (rand : Nat → Nat) (k : Nat) : M Bool := do
  let Q : List α ← fill rand k
  let S ← dnsToCsc Q 2 5
  let C ← cscToDns S
  let C ← deref C
  compare Q C

/-- lines 344-376; `rand` is what `std::rand()` gives after `srand(time(NULL))`; `left` passes of the loop are left -/
def backFrom (rand : Nat → Nat) : Nat → M (Verdict α)
  | 0 => .ok .pass
  | left + 1 => do
    let ok ← backOnce (α := α) rand (10 * (99 - left))
    if ok then backFrom rand left else .ok .differs

/-- SparseDenseBackAndForth, lines 335-377 -/
def backAndForth (rand : Nat → Nat) : M (Verdict α) := backFrom rand 100

/-! ## tests of the solver -/

/-- `options` after `setPrintLevel(NONE)`, lines 425-426 -/
def opts (qd sd : Nat) : Options α := ((Options.default qd sd).setPrintLevelEnum 0).2

/-- the object `lcqp`, lines 423-427, 482-487, 514-518 -/
def start (qd sd : Nat) (nC : Nat) : Obj α := setOptions (Obj.new (Options.default qd sd) 2 nC 1) (opts qd sd)

/-- DenseToSparse, lines 413-460; `none`: the solver is still running after `fuel` passes -/
def denseToSparse (e : Env α) (qd sd fuel : Nat) : M (Option (Verdict α)) := do
  let r ← loadDense e (start qd sd 0) WarmUp.base
  if r.1 ≠ .successfulReturn then .ok (some (.load r.1))
  else
    let r ← switchToDense r.2
    if r.1 ≠ .successfulReturn then .ok (some (.switch r.1))
    else
      let r ← switchToSparse r.2
      if r.1 ≠ .successfulReturn then .ok (some (.switch r.1))
      else
        let r ← switchToSparse r.2
        if r.1 ≠ .successfulReturn then .ok (some (.switch r.1))
        else
          match ← runSolver e fuel (setOptions r.2 ((opts qd sd).setQPSolverEnum 1).2) with
          | none => .ok none
          | some r =>
            if r.1 ≠ .successfulReturn then .ok (some (.run r.1))
            else
              let r ← switchToDense r.2
              if r.1 ≠ .successfulReturn then .ok (some (.switch r.1))
              else
                match ← runSolver e fuel (setOptions r.2 (((opts qd sd).setQPSolverEnum 1).2.setQPSolverEnum 0).2) with
                | none => .ok none
                | some r => if r.1 ≠ .successfulReturn then .ok (some (.run r.1)) else .ok (some .pass)

/-- the arguments of `loadLCQP` in CheckQPReturnFlag, lines 464-472, 490 -/
def infeasible : DenseArgs α :=
  { (WarmUp.base : DenseArgs α) with
    A := some [ofInt 1, ofInt 0]
    lbA := some [ofInt 0]
    ubA := some [ofInt (-1)] }

/-- CheckQPReturnFlag, lines 463-502 -/
def checkFlag (e : Env α) (qd sd fuel : Nat) : M (Option (Verdict α)) := do
  let r ← loadDense e (start qd sd 1) infeasible
  if r.1 ≠ .successfulReturn then .ok (some (.load r.1))
  else
    match ← runSolver e fuel r.2 with
    | none => .ok none
    | some r =>
      if r.1 ≠ .subproblemSolverError then .ok (some (.run r.1))
      else
        let st := getOutputStatistics r.2 (Stats.fresh : Stats α)
        if st.exitFlag ≠ 0 then .ok (some .pass) else .ok (some .flag)

/-- `sStat1Found || sStat2Found`, lines 533-536 -/
def found (t x0 x1 : α) : Bool :=
  ((Scalar.abs (x0 -. one) <=. t) && (Scalar.abs x1 <=. t)) || ((Scalar.abs (x1 -. one) <=. t) && (Scalar.abs x0 <=. t))

/-- `stat1` and `stat2`, lines 538-539 -/
def stat (t x y z : α) : Bool := Scalar.abs (two *. x -. two -. y -. z) <=. t

/-- RunWarmUp, the loop of lines 526-547 when `left` passes are left; `xs` and `ys` are `xOpt` and `yOpt` -/
def warmFrom (e : Env α) (qd sd fuel : Nat) : Nat → Obj α → List α → List α → M (Option (Verdict α))
  | 0, _, _, _ => .ok (some .pass)
  | left + 1, o, xs, ys => do
    let r ← loadDense e o WarmUp.base
    if r.1 ≠ .successfulReturn then .ok (some (.load r.1))
    else
      match ← runSolver e fuel r.2 with
      | none => .ok none
      | some r =>
        if r.1 ≠ .successfulReturn then .ok (some (.run r.1))
        else
          let x ← getPrimalSolution r.2 (some xs)
          let y ← getDualSolution r.2 (some ys)
          let xs ← deref x.2
          let ys ← deref y.2
          let x0 ← rd xs 0
          let x1 ← rd xs 1
          let t := (opts qd sd : Options α).statTol
          let y0 ← rd ys 0
          let y1 ← rd ys 1
          let y2 ← rd ys 2
          let y3 ← rd ys 3
          if !found t x0 x1 then .ok (some (.point xs))
          else if !(stat t x0 y0 y2 && stat t x1 y1 y3) then .ok (some (.stat xs ys))
          else warmFrom e qd sd fuel left r.2 xs ys

/-- RunWarmUp, lines 505-551 -/
def runWarmUp (e : Env α) (qd sd fuel : Nat) : M (Option (Verdict α)) :=
  warmFrom e qd sd fuel 100 (start qd sd 0) (e.alloc 0 2) (e.alloc 1 (2 + 0 + 2 * 1))

end LCQ.TestSuite
