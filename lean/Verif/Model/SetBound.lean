import Verif.Model.Solver

/-!
# Setting a single bound

The protected setters `setLB( int, double )` and `setUB( int, double )` of `LCQProblem`.  Nothing in the repository calls them; a class
derived from `LCQProblem` can.
-/

namespace LCQ
open Scalar

variable {α : Type} [Scalar α]

/-- common body of the two setters for the array `b`: the null pointer is dereferenced if the array does not exist -/
def setBoundAt (d : Data α) (b : Option (List α)) (k : Int) (v : α) : M (RV × Option (List α)) := do
  let n ← initd d.dims
  if n.nV = 0 then .ok (.lcqpobjectNotSetup, b)
  else if 0 ≤ k ∧ k < n.nV then do
    let l ← deref b
    let l ← wrI l k v
    .ok (.successfulReturn, some l)
  else .ok (.indexOutOfBounds, b)

/-- `setLB( int, double )`, /repo/include/LCQProblem.ipp:76-90 -/
def setLBAt (o : Obj α) (k : Int) (v : α) : M (RV × Obj α) := do
  let r ← setBoundAt o.d o.d.lb k v
  .ok (r.1, { o with d := { o.d with lb := r.2 } })

/-- `setUB( int, double )`, /repo/include/LCQProblem.ipp:115-130 -/
def setUBAt (o : Obj α) (k : Int) (v : α) : M (RV × Obj α) := do
  let r ← setBoundAt o.d o.d.ub k v
  .ok (r.1, { o with d := { o.d with ub := r.2 } })

end LCQ
