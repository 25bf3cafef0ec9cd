import Verif.Model.Text
import Verif.Model.Options
import Verif.Model.Solver

/-!
# The example program /repo/examples/solve_lcqp_from_file.cpp

A directory is given by its files.  `none` is a path that does not exist, `some none` one that exists but cannot be opened
for reading, `some (some t)` a file with text `t`.  Simplifications: files do not change while the program runs, the counters
do not overflow, and `(int)sqrt(n)` is the integer square root (for an `int` argument the rounded square root and the real
one have the same integer part).  Messages on the console are left out.
-/

namespace LCQ
namespace FromFile
open Text

/-- a path -/
abbrev Path := Option (Option (List Char))

/-- `examples/example_data`, /repo/examples/solve_lcqp_from_file.cpp:41-57, 77-82 -/
structure Dir where
  /-- Q.txt -/
  Q : Path
  /-- g.txt -/
  g : Path
  /-- lb.txt -/
  lb : Path
  /-- ub.txt -/
  ub : Path
  /-- L.txt -/
  L : Path
  /-- R.txt -/
  R : Path
  /-- lbL.txt -/
  lbL : Path
  /-- lbR.txt -/
  lbR : Path
  /-- ubL.txt -/
  ubL : Path
  /-- ubR.txt -/
  ubR : Path
  /-- A.txt -/
  A : Path
  /-- lbA.txt -/
  lbA : Path
  /-- ubA.txt -/
  ubA : Path
  /-- x0.txt -/
  x0 : Path
  /-- y0.txt -/
  y0 : Path

/-- `std::getline`: what follows the line, `none` if nothing is left to be read -/
def getline : List Char → Option (List Char)
  | [] => none
  | c :: cs => some (((c :: cs).dropWhile (· ≠ '\n')).drop 1)

/-- `while (std::getline(file, line)) k++`; each call takes at least one character, so the length of the text is enough fuel -/
def countLines : Nat → List Char → Nat → Nat
  | 0, _, k => k
  | fuel + 1, t, k =>
    match getline t with
    | none => k
    | some t => countLines fuel t (k + 1)

/-- number of lines of a file that is opened as `std::ifstream`; from a file that cannot be opened nothing is read,
/repo/examples/solve_lcqp_from_file.cpp:66-73, 93-95 -/
def lines (p : Path) : Nat :=
  match p with
  | some (some t) => countLines t.length t 0
  | _ => 0

/-- what the conversions `%lf` find in a text, one after the other -/
def tokens : Nat → List Char → List (Tok Dbl)
  | 0, _ => []
  | fuel + 1, t =>
    match skip t with
    | [] => []
    | c :: cs =>
      match float (c :: cs) with
      | none => [.bad]
      | some v => .num v.1 :: tokens fuel v.2

/-- the file as `fopen` and `fscanf` see it -/
def file (p : Path) : File Dbl :=
  match p with
  | some (some t) => some (tokens (t.length + 1) t)
  | _ => none

/-- an optional file is handed over if its path exists -/
def optional (p : Path) : Option (File Dbl) :=
  match p with
  | none => none
  | some f => some (file (some f))

/-- the arguments of `loadLCQP`, /repo/examples/solve_lcqp_from_file.cpp:84-121, 131.  The pointer `y0f` is assigned
`&y0f[0]`, which is its old value, the null pointer (lines 119-121); so no file is given for the dual guess. -/
def args (d : Dir) : FileArgs Dbl where
  Q := some (file d.Q)
  g := some (file d.g)
  L := some (file d.L)
  R := some (file d.R)
  lbL := some (file d.lbL)
  ubL := some (file d.ubL)
  lbR := some (file d.lbR)
  ubR := some (file d.ubR)
  A := optional d.A
  lbA := optional d.lbA
  ubA := optional d.ubA
  lb := some (file d.lb)
  ub := some (file d.ub)
  x0 := optional d.x0
  y0 := none

/-- the options, /repo/examples/solve_lcqp_from_file.cpp:125-127; `qd` and `sd` stand for the default settings of the QP
solvers -/
def options (qd sd : Nat) : Options Dbl :=
  let o := Options.default qd sd
  let o := (o.setPrintLevelEnum 2).2
  (o.setQPSolverEnum 1).2

/-- how the program ends -/
inductive Out where
  /-- integer division by zero (undefined, usually a signal) -/
  | divZero
  /-- exit code -/
  | exit (code : Int)
  deriving DecidableEq

/-- `main`, /repo/examples/solve_lcqp_from_file.cpp:36-161; `none` as directory if it does not exist; the result is `none` if
the run is still going on after `fuel` passes -/
def main (e : Env Dbl) (d : Option Dir) (qd sd fuel : Nat) : M (Option Out) :=
  match d with
  | none => .ok (some (.exit (-1)))
  | some d => do
    let nV := (lines d.Q).sqrt
    if nV = 0 then .ok (some .divZero)
    else
      let nComp := lines d.L / nV
      let nC := if d.A.isSome then lines d.A / nV else 0
      let o := Obj.new (Options.default qd sd) nV nC nComp
      let opts := options qd sd
      let o := setOptions o opts
      let r ← loadFiles e o (args d)
      if r.1 ≠ .successfulReturn then .ok (some (.exit 1))
      else
        let r ← if opts.qpSolver ≥ 1 then switchToSparse r.2 else .ok r
        if r.1 ≠ .successfulReturn then .ok (some (.exit 1))
        else
          let q ← runSolver e fuel r.2
          match q with
          | none => .ok none
          | some r => .ok (some (.exit (if r.1 ≠ .successfulReturn then 1 else 0)))

end FromFile
end LCQ
