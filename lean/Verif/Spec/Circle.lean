import Verif.Basic.Scalar

/-!
# Optimising on a polygon around the unit circle (specification)

Variables `x₀, x₁` and, for each direction `d_i`, a slack `λ_i` (index `2i+2`) and a weight `θ_i` (index `2i+3`):
`min ½ x'Hx + g'x + ½ δ (|λ|² + |θ|²)` subject to `d_i·x + λ_i = 1`, `Σ θ_i = 1`, `0 ≤ λ_i ⟂ θ_i ≥ 0`.
-/

namespace LCQ.Circle
open Scalar

/-- row-major array with `m` rows and `n` columns and the entries `F` -/
def MatHas {α : Type} (m n : Nat) (F : Nat → Nat → α) (l : List α) : Prop :=
  l.length = m * n ∧ ∀ i < m, ∀ j < n, l[i * n + j]? = some (F i j)

/-- array with the `n` entries `F` -/
def VecHas {α : Type} (n : Nat) (F : Nat → α) (l : List α) : Prop := l.length = n ∧ ∀ i < n, l[i]? = some (F i)

variable {α : Type} [Scalar α]

/-- entries of the Hessian -/
def hess (i j : Nat) : α :=
  if i = j then (if i < 2 then lit 17 0 else lit 5 12) else if i < 2 ∧ j < 2 then lit (-15) 0 else zero

/-- entries of the constraint matrix: `d_i·x + λ_i` in row `i`, the sum of the weights in the last row -/
def cons (N : Nat) (dir : Nat → α × α) (i j : Nat) : α :=
  if i < N then (if j = 0 then (dir i).1 else if j = 1 then (dir i).2 else if j = 2 * i + 2 then one else zero)
  else if 2 ≤ j ∧ j % 2 = 1 then one else zero

/-- `λ_i` -/
def left (i j : Nat) : α := if j = 2 * i + 2 then one else zero

/-- `θ_i` -/
def right (i j : Nat) : α := if j = 2 * i + 3 then one else zero

/-- initial guess: the reference point, all slacks and weights one -/
def guess (j : Nat) : α := if j = 0 then lit 5 1 else if j = 1 then -. lit 6 1 else one

/-- the linear term `-H ref`, in the order of evaluation of the utility functions -/
def lin (j : Nat) : α :=
  let s : α := if j = 0 then zero +. lit 17 0 *. lit 5 1 +. lit (-15) 0 *. (-. lit 6 1)
    else zero +. lit (-15) 0 *. lit 5 1 +. lit 17 0 *. (-. lit 6 1)
  if j < 2 then lit (-1) 0 *. s +. lit 0 0 *. s else zero

end LCQ.Circle
