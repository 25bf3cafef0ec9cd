import Verif.Model.Solver
import Verif.Model.Options

/-!
# The warm-up programs

/repo/examples/warm_up.cpp, /repo/test/warm_up_shifted.cpp and the small programs in /repo/test/examples (all but
OptimizeOnCircle).  Each builds a problem with two variables, loads it, possibly switches to sparse storage, runs the solver and
prints the solution.  The programs differ in the data collected in `Task`.  Printing to the console is reduced to reading the
printed array entries; releasing the arrays is left out.
-/

namespace LCQ.WarmUp
open Scalar

variable {α : Type} [Scalar α]

/-- what distinguishes the programs -/
structure Task (α : Type) where
  /-- nC -/
  nC : Nat := 0
  /-- nComp -/
  nComp : Nat := 1
  /-- arguments of `loadLCQP` -/
  args : DenseArgs α
  /-- the options passed to the solver -/
  opts : Options α
  /-- the options are passed after the problem was loaded, and the storage is switched without looking at them -/
  late : Bool := false
  /-- number of entries of `yOpt` -/
  ny : Nat
  /-- number of entries of `yOpt` that are printed -/
  shown : Nat
  /-- the statistics are fetched -/
  stats : Bool := true

/-- the arrays `Q`, `g`, `L`, `R` of most programs, /repo/examples/warm_up.cpp:32-35 -/
def base : DenseArgs α where
  Q := some [ofInt 2, ofInt 0, ofInt 0, ofInt 2]
  g := some [ofInt (-2), ofInt (-2)]
  L := some [ofInt 1, ofInt 0]
  R := some [ofInt 0, ofInt 1]

/-- the same with the guesses `x0`, `y0`, /repo/examples/warm_up.cpp:32-38, 53 -/
def guessed : DenseArgs α :=
  { base with
    x0 := some [ofInt 1, ofInt 1]
    y0 := some [ofInt 0, ofInt 0, ofInt 0, ofInt 0] }

/-- options after `setPrintLevel(INNER_LOOP_ITERATES)` and `setQPSolver`, /repo/examples/warm_up.cpp:46-48; `qd` and `sd` stand for
the default settings of the QP solvers -/
def opts (qd sd : Nat) (solver : Int) : Options α :=
  (((Options.default qd sd).setPrintLevelEnum 2).2.setQPSolverEnum solver).2

/-- size of `yOpt` at /repo/examples/warm_up.cpp:86-96 and /repo/test/warm_up_shifted.cpp -/
def sizeOf (o : Options α) (nV nC nComp : Nat) : Nat := if o.qpSolver ≥ 2 then nC + 2 * nComp else nV + nC + 2 * nComp

/-- number of entries of `yOpt` printed at /repo/examples/warm_up.cpp:88-99 -/
def shownOf (o : Options α) : Nat := if o.qpSolver ≥ 2 then 2 else 4

/-- /repo/examples/warm_up.cpp -/
def warmUp (qd sd : Nat) : Task α where
  args := guessed
  opts := opts qd sd 0
  ny := sizeOf (opts qd sd 0 : Options α) 2 0 1
  shown := shownOf (opts qd sd 0 : Options α)

/-- /repo/test/examples/warm_up.cpp -/
def warmUpTest (qd sd : Nat) : Task α where
  args := guessed
  opts := opts qd sd 0
  ny := 2 + 0 + 2 * 1
  shown := 4

/-- /repo/test/warm_up_shifted.cpp:31-55 -/
def shifted (qd sd : Nat) : Task α where
  args := { (guessed : DenseArgs α) with
    g := some [ofInt (-4), ofInt (-4)]
    lbL := some [ofInt 1]
    lbR := some [ofInt 1] }
  opts := opts qd sd 2
  ny := sizeOf (opts qd sd 2 : Options α) 2 0 1
  shown := shownOf (opts qd sd 2 : Options α)

/-- /repo/test/examples/warm_up_w_A.cpp -/
def withA (qd sd : Nat) : Task α where
  nC := 1
  args := { (base : DenseArgs α) with
    A := some [ofInt 1, ofInt (-1)]
    lbA := some [-. lit 5 1]
    ubA := some [inf] }
  opts := ((Options.default qd sd).setPrintLevelEnum 2).2
  ny := 2 + 1 + 2 * 1
  shown := 5
  stats := false

/-- /repo/test/examples/warm_up_binary.cpp -/
def binary (qd sd : Nat) : Task α where
  nComp := 2
  args := { (base : DenseArgs α) with
    L := some [ofInt 1, ofInt 0, ofInt 1, ofInt 0]
    R := some [ofInt 0, ofInt 1, ofInt (-1), ofInt 0]
    lbL := some [ofInt 0, ofInt 0]
    lbR := some [ofInt 0, -. lit 5 1]
    x0 := some [ofInt 0, ofInt 0] }
  opts := opts qd sd 0
  ny := 2 + 0 + 2 * 2
  shown := 4

/-- /repo/test/examples/warm_up_sparse.cpp -/
def sparse (qd sd : Nat) : Task α where
  args := base
  opts := opts qd sd 1
  ny := 2 + 0 + 2 * 1
  shown := 4

/-- /repo/test/examples/warm_up_store_steps.cpp -/
def storeSteps (qd sd : Nat) : Task α where
  args := guessed
  opts := ((opts qd sd 0).setStoreSteps true).2
  ny := 2 + 0 + 2 * 1
  shown := 4

/-- /repo/test/examples/warm_up_OSQP_options.cpp; `sp` stands for the settings with `verbose` off and `polish` on, which
`setOSQPOptions` copies (see `Model/OptionsHeap` for the copy) -/
def osqpOptions (qd sd sp : Nat) : Task α where
  args := { (base : DenseArgs α) with x0 := some [ofInt 1, ofInt 1] }
  opts := ({ (Options.default qd sd : Options α) with osqp := some sp }.setQPSolverEnum 2).2
  late := true
  ny := 2 + 0 + 2 * 1
  shown := 2

/-- /repo/test/examples/warm_up_qpOASES_options.cpp; `qp` stands for the default options of qpOASES with a high print level -/
def qpoasesOptions (qd sd qp : Nat) : Task α where
  args := guessed
  opts := (((Options.default qd sd).setQpoases qp).2.setQPSolverEnum 1).2
  late := true
  ny := 2 + 0 + 2 * 1
  shown := 4

/-- /repo/test/examples/test_max_penalty.cpp (no solution is fetched) -/
def maxPenalty (qd sd : Nat) : Task α where
  args := guessed
  opts := ((opts qd sd 0).setMaxRho (ofInt 1)).2
  ny := 0
  shown := 0

/-- everything before `runSolver`; `none` if the program ends with exit code 1 (e.g. /repo/examples/warm_up.cpp:44-72,
/repo/test/examples/warm_up_OSQP_options.cpp:44-76) -/
def prepare (e : Env α) (qd sd : Nat) (t : Task α) : M (Option (Obj α)) := do
  let o := Obj.new (Options.default qd sd) 2 t.nC t.nComp
  let r ← loadDense e (if t.late then o else setOptions o t.opts) t.args
  if r.1 ≠ .successfulReturn then .ok none
  else
    let o := if t.late then setOptions r.2 t.opts else r.2
    if t.late ∨ t.opts.qpSolver ≥ 1 then
      let r ← switchToSparse o
      if r.1 ≠ .successfulReturn then .ok none else .ok (some r.2)
    else .ok (some o)

/-- what `main` leaves behind: its exit code and, for exit code 0, `xOpt`, `yOpt` and the statistics -/
structure Out (α : Type) where
  /-- exit code -/
  code : Int
  /-- `xOpt`, `yOpt`, `stats` -/
  res : Option (List α × List α × Option (Stats α))

/-- everything after a successful `runSolver` (e.g. /repo/examples/warm_up.cpp:82-105); `xOpt` and `yOpt` are allocated without
initialisation -/
def show' (e : Env α) (t : Task α) (o : Obj α) : M (Out α) := do
  let x ← getPrimalSolution o (some (e.alloc 0 2))
  let y ← getDualSolution o (some (e.alloc 1 t.ny))
  let xs ← deref x.2
  let ys ← deref y.2
  let _ ← rd xs 0
  let _ ← rd xs 1
  let _ ← loop t.shown (fun i _ => do
    let _ ← rd ys i
    .ok ()) ()
  .ok ⟨0, some (xs, ys, if t.stats then some (getOutputStatistics o (Stats.fresh : Stats α)) else none)⟩

/-- `main` of the programs that print a solution; `none` if the run is still going on after `fuel` passes -/
def main (e : Env α) (qd sd : Nat) (t : Task α) (fuel : Nat) : M (Option (Out α)) := do
  match ← prepare e qd sd t with
  | none => .ok (some ⟨1, none⟩)
  | some o =>
    match ← runSolver e fuel o with
    | none => .ok none
    | some r =>
      if r.1 ≠ .successfulReturn then .ok (some ⟨1, none⟩)
      else
        let out ← show' e t r.2
        .ok (some out)

/-- `main` of /repo/test/examples/test_max_penalty.cpp:28-82: its exit code -/
def mainMax (e : Env α) (qd sd fuel : Nat) : M (Option Int) := do
  match ← prepare e qd sd (maxPenalty qd sd) with
  | none => .ok (some 1)
  | some o =>
    match ← runSolver e fuel o with
    | none => .ok none
    | some r => if r.1 = .maxPenaltyReached then .ok (some 0) else .ok (some 1)

end LCQ.WarmUp
