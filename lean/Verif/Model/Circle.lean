import Verif.Model.Solver
import Verif.Model.Options

/-!
# The example program OptimizeOnCircle, /repo/examples/OptimizeOnCircle.cpp

The same file is kept in /repo/test/examples.  The number of directions, 100 in the program, is the parameter `N`; `dir i` are
the two values returned by the C library for `cos((2*M_PI*i)/N)` and `sin((2*M_PI*i)/N)`.  Index arithmetic is done in natural
numbers: the largest index of the program is below 40804.  Printing to the console and releasing the arrays (which the
program does only before `return 0`) are left out.
-/

namespace LCQ.Circle
open Scalar

variable {α : Type} [Scalar α]

/-- the arrays allocated at /repo/examples/OptimizeOnCircle.cpp:50-57 -/
structure Arrays (α : Type) where
  /-- Hessian -/
  Q : List α
  /-- linear term -/
  g : List α
  /-- left complementarity matrix -/
  L : List α
  /-- right complementarity matrix -/
  R : List α
  /-- constraint matrix -/
  A : List α
  /-- lower bounds -/
  lbA : List α
  /-- upper bounds -/
  ubA : List α
  /-- initial guess -/
  x0 : List α

/-- `new double[n]()` -/
def zeros (n : Nat) : List α := List.replicate n zero

/-- `x_ref`, /repo/examples/OptimizeOnCircle.cpp:38 -/
def xRef : List α := [lit 5 1, -. lit 6 1]

/-- `Qx`, /repo/examples/OptimizeOnCircle.cpp:71 -/
def qx : List α := [ofInt 17, ofInt (-15), ofInt (-15), ofInt 17]

/-- Hessian, /repo/examples/OptimizeOnCircle.cpp:62-68 -/
def buildQ (nV : Nat) (Q : List α) : M (List α) := do
  let Q ← wr Q 0 (ofInt 17)
  let Q ← wr Q (1 * nV + 1) (ofInt 17)
  let Q ← wr Q (0 * nV + 1) (ofInt (-15))
  let Q ← wr Q (1 * nV + 0) (ofInt (-15))
  loop (nV - 2) (fun k Q => wr Q ((k + 2) * nV + (k + 2)) (lit 5 12)) Q

/-- linear term, /repo/examples/OptimizeOnCircle.cpp:71-73 -/
def buildG (g : List α) : M (List α) := do
  let g ← matMul qx xRef g 2 2 1
  weightedVecAdd (ofInt (-1)) .dst (ofInt 0) .dst g 2

/-- one round of the loop at /repo/examples/OptimizeOnCircle.cpp:76-95 -/
def row (N nV : Nat) (dir : Nat → α × α) (i : Nat) (a : Arrays α) : M (Arrays α) := do
  let A ← wr a.A (i * nV + 0) (dir i).1
  let A ← wr A (i * nV + 1) (dir i).2
  let A ← wr A (i * nV + 2 + 2 * i) (ofInt 1)
  let A ← wr A (N * nV + 3 + 2 * i) (ofInt 1)
  let L ← wr a.L (i * nV + 2 + 2 * i) (ofInt 1)
  let R ← wr a.R (i * nV + 3 + 2 * i) (ofInt 1)
  let lbA ← wr a.lbA i (ofInt 1)
  let ubA ← wr a.ubA i (ofInt 1)
  let x0 ← wr a.x0 (2 * i + 2) (ofInt 1)
  let x0 ← wr x0 (2 * i + 3) (ofInt 1)
  .ok { a with A := A, L := L, R := R, lbA := lbA, ubA := ubA, x0 := x0 }

/-- problem data, /repo/examples/OptimizeOnCircle.cpp:31-99 -/
def build (N : Nat) (dir : Nat → α × α) : M (Arrays α) := do
  let nV := 2 + 2 * N
  let nC := N + 1
  let nComp := N
  let x0 : List α := zeros nV
  let r0 ← rd xRef 0
  let x0 ← wr x0 0 r0
  let r1 ← rd xRef 1
  let x0 ← wr x0 1 r1
  let Q ← buildQ nV (zeros (nV * nV))
  let g ← buildG (zeros nV)
  let a ← loop N (row N nV dir)
    ⟨Q, g, zeros (nComp * nV), zeros (nComp * nV), zeros (nC * nV), zeros nC, zeros nC, x0⟩
  let lbA ← wr a.lbA N (ofInt 1)
  let ubA ← wr a.ubA N (ofInt 1)
  .ok { a with lbA := lbA, ubA := ubA }

/-- the arguments of `loadLCQP`, /repo/examples/OptimizeOnCircle.cpp:102 -/
def Arrays.args (a : Arrays α) : DenseArgs α where
  Q := some a.Q
  g := some a.g
  L := some a.L
  R := some a.R
  A := some a.A
  lbA := some a.lbA
  ubA := some a.ubA
  x0 := some a.x0

/-- the options, /repo/examples/OptimizeOnCircle.cpp:42-45; `qd` and `sd` stand for the settings of the QP solvers, which the
program leaves at their defaults -/
def options (qd sd : Nat) : Options α :=
  let o := Options.default qd sd
  let o := (o.setPrintLevelEnum 2).2
  let o := (o.setQPSolverEnum 2).2
  (o.setStatTol (lit 10 3)).2

/-- what `main` leaves behind: its exit code and, for exit code 0, the first two entries of `xOpt`, the array `yOpt` and the
statistics -/
structure Out (α : Type) where
  /-- exit code -/
  code : Int
  /-- `xOpt`, `yOpt`, `stats` -/
  res : Option (Option (List α) × Option (List α) × Stats α)

/-- `main`, /repo/examples/OptimizeOnCircle.cpp:28-153; `none` if the run is still going on after `fuel` passes.  `xOpt` and
`yOpt` are allocated without initialisation. -/
def main (e : Env α) (N : Nat) (dir : Nat → α × α) (qd sd fuel : Nat) : M (Option (Out α)) := do
  let nV := 2 + 2 * N
  let nC := N + 1
  let nComp := N
  let o := Obj.new (Options.default qd sd) nV nC nComp
  let opts := options qd sd
  let o := setOptions o opts
  let a ← build N dir
  let r ← loadDense e o a.args
  if r.1 ≠ .successfulReturn then .ok (some ⟨1, none⟩)
  else
    let r ← if opts.qpSolver ≥ 1 then switchToSparse r.2 else .ok r
    if r.1 ≠ .successfulReturn then .ok (some ⟨1, none⟩)
    else
      let q ← runSolver e fuel r.2
      match q with
      | none => .ok none
      | some r =>
        if r.1 ≠ .successfulReturn then .ok (some ⟨1, none⟩)
        else
          let x ← getPrimalSolution r.2 (some (e.alloc 0 nV))
          let y ← getDualSolution r.2 (some (e.alloc 1 (nV + nC + 2 * nComp)))
          let st := getOutputStatistics r.2 (Stats.fresh : Stats α)
          let xs ← deref x.2
          let _ ← rd xs 0
          let _ ← rd xs 1
          .ok (some ⟨0, some (x.2, y.2, st)⟩)

end LCQ.Circle
