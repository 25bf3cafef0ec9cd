import Verif.Model.Solver

/-!
# What is left of a state without its output (specification)
-/

namespace LCQ
variable {α : Type}

/-- the options with a given print level and choice of storing the iterates -/
def Options.loud (o : Options α) (level : Int) (store : Bool) : Options α := { o with printLevel := level, storeSteps := store }

/-- statistics without the stored iterates -/
def Stats.bare (s : Stats α) : Stats α :=
  { s with
    innerIters := []
    subIters := []
    accuIters := []
    xSteps := []
    stepLength := []
    stepSize := []
    statVals := []
    objVals := []
    phiVals := []
    meritVals := [] }

/-- error messages -/
def Ev.isMsg : Ev α → Bool
  | .msg _ => true
  | _ => false

/-- iteration data without the stored iterates and the printed lines other than error messages -/
def St.bare (s : St α) : St α := { s with out := s.out.filter Ev.isMsg, stats := s.stats.bare }

/-- problem data without the output options -/
def Data.bare (d : Data α) : Data α := { d with opts := d.opts.loud 0 false }

/-- object without its output -/
def Obj.bare (o : Obj α) : Obj α := { d := o.d.bare, s := o.s.bare }

/-! ## programs -/

/-- method calls on an object -/
inductive Cmd (α : Type) where
  /-- dense `loadLCQP` -/
  | dense (a : DenseArgs α)
  /-- sparse `loadLCQP` -/
  | sparse (a : SparseArgs α)
  /-- `setOptions` -/
  | options (o : Options α)
  /-- `switchToSparseMode` -/
  | toSparse
  /-- `switchToDenseMode` -/
  | toDense
  /-- `runSolver` -/
  | run

/-- the call without output options -/
def Cmd.bare : Cmd α → Cmd α
  | .options o => .options (o.loud 0 false)
  | c => c

variable [Scalar α]

/-- returned value and object after a call; `none` if a run has not returned after `fuel` passes of its loop -/
def Cmd.exec (e : Env α) (fuel : Nat) (o : Obj α) : Cmd α → M (Option (RV × Obj α))
  | .dense a => do let r ← loadDense e o a; .ok (some r)
  | .sparse a => do let r ← loadSparse e o a; .ok (some r)
  | .options op => .ok (some (.successfulReturn, setOptions o op))
  | .toSparse => do let r ← switchToSparse o; .ok (some r)
  | .toDense => do let r ← switchToDense o; .ok (some r)
  | .run => runSolver e fuel o

/-- returned values and object after a sequence of calls -/
def execAll (e : Env α) (fuel : Nat) : List (Cmd α) → Obj α → M (Option (List RV × Obj α))
  | [], o => .ok (some ([], o))
  | c :: cs, o => do
    let r ← c.exec e fuel o
    match r with
    | none => .ok none
    | some r => do
      let q ← execAll e fuel cs r.2
      .ok (q.map fun q => (r.1 :: q.1, q.2))

end LCQ
