import Verif.Spec.Lcqp
import Mathlib.LinearAlgebra.Matrix.Notation

/-!
# The warm-up problem, exact data (specification)

`min (x0 - 1 - c)² + (x1 - 1 - c)²` subject to `c ≤ x0 ⟂ x1 ≥ c`.
-/

namespace LCQ.WarmUp

variable {K : Type} [Field K]

/-- the problem of the warm-up programs; `c` is the shift: 1 in /repo/test/warm_up_shifted.cpp and 0 in the others -/
def prob (c : K) : Prob K ⟨2, 0, 1⟩ where
  Q := !![2, 0; 0, 2]
  g := ![-2 * (1 + c), -2 * (1 + c)]
  A := fun i => i.elim0
  L := !![1, 0]
  R := !![0, 1]
  lbL := fun _ => c
  lbR := fun _ => c

/-- relative to the shift, `(Z0, Z1)` is within `3·10⁻⁵` of one of the solutions `(1, 0)` and `(0, 1)`, or of the origin; in the
last case the penalty parameter `r` is at least `10⁶` -/
def Near2 [LinearOrder K] (r Z0 Z1 : K) : Prop :=
  (|Z0 - 1| ≤ 3 / 10 ^ 5 ∧ |Z1| ≤ 3 / 10 ^ 5) ∨ (|Z0| ≤ 3 / 10 ^ 5 ∧ |Z1 - 1| ≤ 3 / 10 ^ 5) ∨
    (|Z0| ≤ 3 / 10 ^ 5 ∧ |Z1| ≤ 3 / 10 ^ 5 ∧ 10 ^ 6 ≤ r)

/-- the problem of /repo/test/examples/warm_up_w_A.cpp: in addition `x0 - x1 ≥ -1/2` -/
def probA : Prob K ⟨2, 1, 1⟩ where
  Q := !![2, 0; 0, 2]
  g := ![-2, -2]
  A := !![1, -1]
  L := !![1, 0]
  R := !![0, 1]
  lbL := 0
  lbR := 0

/-- the problem of /repo/test/examples/warm_up_binary.cpp: in addition `0 ≤ x0 ⟂ 1/2 - x0 ≥ 0` -/
def probB : Prob K ⟨2, 0, 2⟩ where
  Q := !![2, 0; 0, 2]
  g := ![-2, -2]
  A := fun i => i.elim0
  L := !![1, 0; 1, 0]
  R := !![0, 1; -1, 0]
  lbL := 0
  lbR := ![0, -1 / 2]

/-- lower bounds of the rows of `A`, `L`, `R` in /repo/test/examples/warm_up_w_A.cpp -/
def lowA [LinearOrder K] (i : Fin (Dims.nA ⟨2, 1, 1⟩)) : Ext K := if i.1 = 0 then .fin (-1 / 2) else .fin 0

/-- lower bounds of the rows of `L`, `R` in /repo/test/examples/warm_up_binary.cpp -/
def lowB [LinearOrder K] (i : Fin (Dims.nA ⟨2, 0, 2⟩)) : Ext K := if i.1 = 3 then .fin (-1 / 2) else .fin 0

end LCQ.WarmUp
