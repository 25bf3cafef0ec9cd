import Verif.Spec.CircleProb
import Verif.Spec.WarmUp
import Verif.Spec.Circle

/-!
# The problem of solvers_test.m and optimize_on_circle.m (specification)

As in `Spec/Circle`, with another Hessian and the linear term in another order of evaluation.
-/

namespace LCQ.Script
open Scalar

variable {α : Type} [Scalar α]

/-- entries of the Hessian: `[17 -15; -15 17]` for the point, `2^(-52)` on the rest of the diagonal -/
def hess (i j : Nat) : α :=
  if i < 2 ∧ j < 2 then (if i = j then lit 17 0 else lit (-15) 0) else lit (5 ^ 52) 52 *. (if i = j then one else zero)

/-- the linear term `-ref' H` -/
def lin (j : Nat) : α :=
  if j = 0 then (-. lit 5 1) *. lit 17 0 +. (-. (-. lit 6 1)) *. lit (-15) 0
  else if j = 1 then (-. lit 5 1) *. lit (-15) 0 +. (-. (-. lit 6 1)) *. lit 17 0 else zero

section exact
variable {K : Type} [Field K]

/-- the problem of solvers_test.m and optimize_on_circle.m in exact arithmetic, directions `d` counted from zero -/
def circleProb (N : Nat) (d : Nat → K × K) : Prob K (LCQ.Circle.dims N) :=
  { LCQ.Circle.prob N d with
    Q := Matrix.of fun i j => if i.1 < 2 ∧ j.1 < 2 then (if i.1 = j.1 then 17 else -15) else if i.1 = j.1 then 1 / 2 ^ 52 else 0 }

/-- the problem of generalized_constraints.m: `min (x0 - 1)² + (x1 - 1)²` subject to `0 ≤ 2 - x0 ⟂ x1 ≥ 0` -/
def genProb : Prob K ⟨2, 0, 1⟩ where
  Q := !![2, 0; 0, 2]
  g := ![-2, -2]
  A := fun i => i.elim0
  L := !![-1, 0]
  R := !![0, 1]
  lbL := fun _ => -2
  lbR := 0

/-- the problem of scale1.m: `min (100 x0 - 1)² + (x1 - 1)²` subject to `0 ≤ x0 ⟂ x1 ≥ 0` -/
def scaleProb : Prob K ⟨2, 0, 1⟩ where
  Q := !![20000, 0; 0, 2]
  g := ![-200, -2]
  A := fun i => i.elim0
  L := !![1, 0]
  R := !![0, 1]
  lbL := 0
  lbR := 0

end exact

end LCQ.Script
