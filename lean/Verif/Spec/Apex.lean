import Verif.Spec.Reference

/-!
# Problems with a feasible point where both sides of all complementarity pairs are at their lower bounds (specification)
-/

namespace LCQ.Ref
open scoped Matrix

variable {K : Type} [Field K] [LinearOrder K] {m : Nat}

/-- objective -/
def Pb.obj (A : Pb K m) (x : Fin m → K) : K := x ⬝ᵥ (A.Q *ᵥ x) / 2 + A.g ⬝ᵥ x

/-- mixed product of two points: the sum over all pairs of left side at `x` times right side at `v` and left side at
`v` times right side at `x` -/
def Pb.mix (A : Pb K m) (c0 : K) (x v : Fin m → K) : K := x ⬝ᵥ (A.C *ᵥ v) + A.h ⬝ᵥ x + A.h ⬝ᵥ v + 2 * c0

/-- What is used of the problem: the Hessian is symmetric, the feasible set is convex, the complementarity function is
`½ x'Cx + h'x + c0` with symmetric `C`; the mixed products of feasible points are not negative, and all mixed products with
the feasible point `y` vanish. -/
structure Apex (A : Pb K m) (c0 : K) (y : Fin m → K) : Prop where
  symm : A.Qᵀ = A.Q
  conv : ∀ x v (b : K), A.X x → A.X v → 0 ≤ b → b ≤ 1 → A.X (x + b • (v - x))
  csymm : A.Cᵀ = A.C
  phi : ∀ x, A.phi x = c0 + A.h ⬝ᵥ x + x ⬝ᵥ (A.C *ᵥ x) / 2
  mixed : ∀ x v, A.X x → A.X v → 0 ≤ A.mix c0 x v
  mem : A.X y
  apex : ∀ x, A.X x → A.mix c0 x y = 0

end LCQ.Ref
