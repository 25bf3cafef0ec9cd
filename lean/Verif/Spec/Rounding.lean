import Verif.Spec.Lcqp
import Mathlib.Algebra.Order.Field.Basic
import Mathlib.Algebra.BigOperators.Fin
import Mathlib.Algebra.Order.Ring.Abs

/-!
# Arithmetic with rounding errors (specification)

`Rounds α K u t` is the standard model of floating point arithmetic.  Every finite result of an addition, a
multiplication or a division by `2` is the exact result up to a relative error of at most `u`; results of
multiplications and divisions may underflow, then the absolute error is at most `u * t`.  A finite result has finite
operands.  IEEE 754 `double` arithmetic, rounded to nearest, has these properties for `u = 2^-53` and `t = 2^-1022`
(`t` is the smallest normal number).  Overflow is not excluded: the result of an overflow is not finite, and nothing
is said about it.
-/

namespace LCQ
open Scalar
open scoped Matrix

/-- an arithmetic whose finite numbers stand for elements of `K` and whose results are rounded -/
structure Rounds (α : Type) [Scalar α] (K : Type) [Field K] [LinearOrder K] (u t : K) where
  /-- the number which a finite `a` stands for; `none` for infinities and `NaN` -/
  val : α → Option K
  u0 : 0 ≤ u
  t0 : 0 ≤ t
  add : ∀ a b c, val (a +. b) = some c → ∃ x y, val a = some x ∧ val b = some y ∧ |c - (x + y)| ≤ u * |x + y|
  sub : ∀ a b c, val (a -. b) = some c → ∃ x y, val a = some x ∧ val b = some y ∧ |c - (x - y)| ≤ u * |x - y|
  mul : ∀ a b c, val (a *. b) = some c → ∃ x y, val a = some x ∧ val b = some y ∧ |c - x * y| ≤ u * (|x * y| + t)
  half : ∀ a c, val (a /. two) = some c → ∃ x, val a = some x ∧ |c - x / 2| ≤ u * (|x / 2| + t)
  neg : ∀ a, val (-. a) = (val a).map (- ·)
  zero : val zero = some 0
  one : val one = some 1
  lt : ∀ a b x y, val a = some x → val b = some y → (a <. b) = decide (x < y)

section
variable {α : Type} [Scalar α] {K : Type} [Field K] [LinearOrder K] {u t : K}

/-- the number which `a` stands for, `0` if `a` is not finite -/
def Rounds.v (F : Rounds α K u t) (a : α) : K := (F.val a).getD 0

/-- `a` is finite -/
def Rounds.IsFin (F : Rounds α K u t) (a : α) : Prop := F.val a ≠ none

/-- the numbers which the first entries of an array stand for; missing entries count as zero -/
def Rounds.vec (F : Rounds α K u t) (m : Nat) (b : List α) : Fin m → K := fun i => F.v (b.getD i Scalar.zero)

/-- the numbers which the entries of an array, read by rows, stand for -/
def Rounds.mat (F : Rounds α K u t) (m k : Nat) (b : List α) : Matrix (Fin m) (Fin k) K :=
  fun i j => F.v (b.getD (i * k + j) Scalar.zero)

/-- the problem which the arguments of the dense loader stand for -/
def Rounds.prob (F : Rounds α K u t) (n : Dims) (a : DenseArgs α) : Prob K n where
  Q := F.mat n.nV n.nV (a.Q.getD [])
  g := F.vec n.nV (a.g.getD [])
  A := F.mat n.nC n.nV (a.A.getD [])
  L := F.mat n.nComp n.nV (a.L.getD [])
  R := F.mat n.nComp n.nV (a.R.getD [])
  lbL := F.vec n.nComp (a.lbL.getD [])
  lbR := F.vec n.nComp (a.lbR.getD [])

end

/-! ## magnitudes

The magnitude of an expression is its value with all signs made positive, where every product contributes `t` in
addition. -/

namespace Prob
variable {K : Type} [Field K] [LinearOrder K] {n : Dims} (P : Prob K n) (t : K)

/-- magnitude of the entries of `L'R + R'L` -/
def magC (i j : Fin n.nV) : K := ∑ k, ((|P.L k i| * |P.R k j| + t) + (|P.R k i| * |P.L k j| + t))

/-- magnitude of the linear term of the complementarity violation -/
def magG (i : Fin n.nV) : K := ∑ k, (|P.R k i| * |P.lbL k| + t) + ∑ k, (|P.L k i| * |P.lbR k| + t)

/-- magnitude of the complementarity violation -/
def magPhi (x : Fin n.nV → K) : K :=
  ∑ k, (|P.lbL k| * |P.lbR k| + t) + ∑ j, (P.magG t j * |x j| + t) +
    ((∑ i, ((∑ j, (P.magC t i j * |x j| + t)) * |x i| + t)) / 2 + t)

/-- magnitude of the gradient of the penalised Lagrangian -/
def magStat (r : K) {off : Nat} (x : Fin n.nV → K) (y : Fin (off + n.nA) → K) (i : Fin n.nV) : K :=
  ∑ j, ((|P.Q i j| + |r| * P.magC t i j + 2 * t) * |x j| + t) + |P.g i| + |r| * P.magG t i +
    ∑ k, (|P.AA k i| * |yLin y k| + t) + |yBox y i| + 7 * t

/-- magnitude of the terms of the gradient of the Lagrangian with the transformed multipliers of the rows of `L` and
`R`, where `y` are the multipliers before the transformation -/
def magDual (r : K) {off : Nat} (x : Fin n.nV → K) (y : Fin (off + n.nA) → K) (i : Fin n.nV) : K :=
  ∑ k, |P.L k i| * (|yL (yLin y) k| + (|r| * ∑ j, (|P.R k j| * |x j| + t) + t)) +
  ∑ k, |P.R k i| * (|yR (yLin y) k| + (|r| * ∑ j, (|P.L k j| * |x j| + t) + t))

end Prob

end LCQ
