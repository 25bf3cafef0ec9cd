import Verif.Model.Solver
import Verif.Spec.Linear
import Mathlib.Data.Rat.Floor

/-!
# Concrete problems used to show that the hypotheses of the theorems can be met

The problem is `min (x-1)² + (y-1)²` subject to `0 ≤ x ⟂ y ≥ 0` (the warm-up example of the source,
/repo/examples/warm_up.cpp), over the rational numbers.
-/

namespace LCQ.Ex
open Scalar

/-- options used in the examples: the default ones, printing and storing steps -/
def opts : Options (Ext ℚ) := { Options.default 0 0 with
  perturb := false
  storeSteps := true }

/-- constructed object -/
def obj0 : Obj (Ext ℚ) := Obj.new opts 2 0 1

/-- arguments of `loadLCQP` -/
def args : DenseArgs (Ext ℚ) where
  Q := some (emb [2, 0, 0, 2])
  g := some (emb [-2, -2])
  L := some (emb [1, 0])
  R := some (emb [0, 1])

/-- an outside world in which every QP call is answered by `r` -/
def envOf (r : Nat → Req (Ext ℚ) → Resp (Ext ℚ)) : Env (Ext ℚ) where
  qp := r
  rnd := fun n => n
  junk := fun _ _ => .nan
  junkI := fun _ => -1

/-- a successful answer -/
def good (x y : List ℚ) : Resp (Ext ℚ) where
  ret := 0
  iter := 3
  status := 1
  setup := true
  warmX := true
  warmY := true
  x := fun i => .fin (x.getD i 0)
  y := fun i => .fin (y.getD i 0)

/-- the solver finds the point (1, 0) with the multipliers of the penalised problem -/
def env : Env (Ext ℚ) := envOf fun _ _ => good [1, 0] [0, 0, 0, -199/100]

/-- the solver finds (1, 0) with wrong multipliers -/
def envBad : Env (Ext ℚ) := envOf fun _ _ => good [1, 0] [0, 0, 0, 0]

/-- the solver finds a stationary point of the penalty function that is not complementary -/
def envPen : Env (Ext ℚ) := envOf fun k _ => good [1, 1] [0, 0, 2 ^ k / 100, 2 ^ k / 100]

/-- the solver fails in the second call -/
def envFail : Env (Ext ℚ) := envOf fun k _ =>
  if k = 0 then good [1, 0] [0, 0, 0, 0] else { good [] [] with ret := 33 }

/-- loaded object -/
def obj (e : Env (Ext ℚ)) : M (Obj (Ext ℚ)) := do
  let r ← loadDense e obj0 args
  .ok r.2

/-- run the loaded problem -/
def run (e : Env (Ext ℚ)) (f : Options (Ext ℚ) → Options (Ext ℚ)) (fuel : Nat) :
    M (Option (RV × Obj (Ext ℚ))) := do
  let o ← obj e
  runSolver e fuel (setOptions o (f o.d.opts))

/-- what is observed of a run -/
def seen (r : M (Option (RV × Obj (Ext ℚ)))) : Option (RV × Option (List (Ext ℚ)) × Option (List (Ext ℚ)) ×
    Stats (Ext ℚ)) :=
  match r with
  | .ok (some r) => some (r.1, r.2.s.xk, r.2.s.yk, r.2.s.stats)
  | _ => none

end LCQ.Ex
